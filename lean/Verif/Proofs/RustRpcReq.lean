/- Invariants of the histories of a method with requests (synchronous or asynchronous, not a read method). -/
import Verif.Proofs.RustRpcRead
namespace TPB.Rust
open Spec

/-- A request: the method id (of an asynchronous method) and the arguments. -/
abbrev Rq := Option Int × List Val

def RqOk (f : FnNode) (q : Rq) : Prop := q.1.isSome = f.isAsync ∧ f.args.length = q.2.length

theorem zip_inj {α β : Type} : ∀ {l : List α} {x y : List β}, l.length = x.length → l.length = y.length → l.zip x = l.zip y → x = y
  | [], [], [], _, _, _ => rfl
  | a :: l, b :: x, c :: y, hx, hy, h => by
    simp only [List.zip_cons_cons, List.cons.injEq, Prod.mk.injEq] at h
    rw [h.1.2, zip_inj (by simpa using hx) (by simpa using hy) h.2]

theorem argsVal_inj {f : FnNode} {q q' : Rq} (h : RqOk f q) (h' : RqOk f q') (e : argsVal f q.1 q.2 = argsVal f q'.1 q'.2) : q = q' := by
  unfold argsVal named at e
  simp only [Val.struct.injEq, true_and, fieldsOf_argsNode] at e
  obtain ⟨i, vs⟩ := q
  obtain ⟨i', vs'⟩ := q'
  obtain ⟨h1, h2⟩ := h
  obtain ⟨h1', h2'⟩ := h'
  simp only at h1 h2 h1' h2' e
  cases ha : f.isAsync with
  | false =>
    simp only [ha, Option.isSome_eq_false_iff, Option.isNone_iff_eq_none] at h1 h1'
    subst h1 h1'
    simp only [ha] at e
    have := zip_inj (by simp [argsOf, h2]) (by simp [argsOf, h2']) e
    simp at this
    rw [this]
  | true =>
    simp only [ha, Option.isSome_iff_exists] at h1 h1'
    obtain ⟨j, rfl⟩ := h1
    obtain ⟨j', rfl⟩ := h1'
    simp only [ha] at e
    have := zip_inj (by simp [argsOf, h2]) (by simp [argsOf, h2']) e
    simp at this
    rw [this.1, this.2]

section
variable {σ : Type} {C : Codec} {lib : BufLib} {U : User σ} {st : Status → Bytes} {f : FnNode} {a : Nat}
  {regs : List (Nat × Handler)}

/-- The block that handles a request. -/
def rqBlock (f : FnNode) : List Stmt :=
  if f.isAsync then [.bufWrite .server [.status .x00], .blank, .cloneArgs, .blank,
     .spawn [.letMemory, genCall f, .blank, .bufWrite .client (.status .xFF :: .argI64 "__method_id__" :: genResults f)]]
  else [.bufWrite .server [.status .x00], .blank, genCall f, .blank, .bufWrite .client (.status .xFF :: genResults f)]

def rqBody (f : FnNode) : List Stmt := [.letArgs .server .xFF (argsName f), .blank, .ifArgs (rqBlock f)]

def answerW (f : FnNode) : Stmt := .bufWrite .client (.status .xFF :: .argI64 "__method_id__" :: genResults f)

def rqFut (f : FnNode) : List Stmt := [.letMemory, genCall f, .blank, answerW f]

theorem rqBlock_async (ha : f.isAsync = true) : rqBlock f = [.bufWrite .server [.status .x00], .blank, .cloneArgs, .blank, .spawn (rqFut f)] := by
  simp [rqBlock, ha, rqFut, answerW]

theorem rqBlock_sync (ha : f.isAsync = false) : rqBlock f = [.bufWrite .server [.status .x00], .blank, genCall f, .blank,
    .bufWrite .client (.status .xFF :: genResults f)] := by
  simp [rqBlock, ha]

theorem genHandler_body (hr : f.isRead = false) : (genHandler f).body = rqBody f := by
  cases ha : f.isAsync <;> simp [genHandler, hr, ha, rqBody, rqBlock, genSyncBody, genAsyncBody] <;> rfl

/-- What a handler does with a request. -/
inductive Hold where
  | no
  /-- it has read the request -/
  | unacked (q : Rq)
  /-- it has also consumed it -/
  | acked (q : Rq)

def HasArgs (f : FnNode) (q : Rq) (fr : Frame) : Prop := RqOk f q ∧ fr.args = some (argsVal f q.1 q.2) ∧ fr.resultRef = none

/-- The states of the handler. -/
inductive RqRun (f : FnNode) (a : Nat) : Option Run → Hold → Prop
  | idle : RqRun f a none .no
  | other (r) : r.addr ≠ a → RqRun f a (some r) .no
  | s0 (ret fr o w) : fr.resultRef = none → RqRun f a (some ⟨a, ret, ⟨fr, o, w, rqBody f⟩⟩) .no
  | n1 (ret fr o w) : fr.argsOpt = some none → RqRun f a (some ⟨a, ret, ⟨fr, o, w, [.blank, .ifArgs (rqBlock f)]⟩⟩) .no
  | n2 (ret fr o w) : fr.argsOpt = some none → RqRun f a (some ⟨a, ret, ⟨fr, o, w, [.ifArgs (rqBlock f)]⟩⟩) .no
  | s1 (ret fr o w q) : RqOk f q → fr.argsOpt = some (some (argsVal f q.1 q.2)) → fr.resultRef = none →
      RqRun f a (some ⟨a, ret, ⟨fr, o, w, [.blank, .ifArgs (rqBlock f)]⟩⟩) (.unacked q)
  | s2 (ret fr o w q) : RqOk f q → fr.argsOpt = some (some (argsVal f q.1 q.2)) → fr.resultRef = none →
      RqRun f a (some ⟨a, ret, ⟨fr, o, w, [.ifArgs (rqBlock f)]⟩⟩) (.unacked q)
  | s3 (ret fr o w q) : HasArgs f q fr → RqRun f a (some ⟨a, ret, ⟨fr, o, w, rqBlock f⟩⟩) (.unacked q)
  | y4 (ret fr o w q) : f.isAsync = false → HasArgs f q fr →
      RqRun f a (some ⟨a, ret, ⟨fr, o, w, [.blank, genCall f, .blank, .bufWrite .client (.status .xFF :: genResults f)]⟩⟩) (.acked q)
  | y5 (ret fr o w q) : f.isAsync = false → HasArgs f q fr →
      RqRun f a (some ⟨a, ret, ⟨fr, o, w, [genCall f, .blank, .bufWrite .client (.status .xFF :: genResults f)]⟩⟩) (.acked q)
  | y6 (ret fr o w) : f.isAsync = false →
      RqRun f a (some ⟨a, ret, ⟨fr, o, w, [.blank, .bufWrite .client (.status .xFF :: genResults f)]⟩⟩) .no
  | y7 (ret fr o w) : f.isAsync = false →
      RqRun f a (some ⟨a, ret, ⟨fr, o, w, [.bufWrite .client (.status .xFF :: genResults f)]⟩⟩) .no
  | a4 (ret fr o w q) : f.isAsync = true → HasArgs f q fr →
      RqRun f a (some ⟨a, ret, ⟨fr, o, w, [.blank, .cloneArgs, .blank, .spawn (rqFut f)]⟩⟩) (.acked q)
  | a5 (ret fr o w q) : f.isAsync = true → HasArgs f q fr →
      RqRun f a (some ⟨a, ret, ⟨fr, o, w, [.cloneArgs, .blank, .spawn (rqFut f)]⟩⟩) (.acked q)
  | a6 (ret fr o w q) : f.isAsync = true → HasArgs f q fr → fr.owned = true →
      RqRun f a (some ⟨a, ret, ⟨fr, o, w, [.blank, .spawn (rqFut f)]⟩⟩) (.acked q)
  | a7 (ret fr o w q) : f.isAsync = true → HasArgs f q fr → fr.owned = true →
      RqRun f a (some ⟨a, ret, ⟨fr, o, w, [.spawn (rqFut f)]⟩⟩) (.acked q)
  | s8 (ret fr o w) : RqRun f a (some ⟨a, ret, ⟨fr, o, w, []⟩⟩) .no

/-- The states of a spawned future; `R q r` says that the function has been seen to yield `r` for `q`. -/
inductive RqTask (f : FnNode) (R : Ret → Prop) (q : Rq) : Thread → Prop
  | t0 (fr o) : HasArgs f q fr → RqTask f R q ⟨fr, o, none, rqFut f⟩
  | t1 (fr o) : HasArgs f q fr → RqTask f R q ⟨fr, o, none, [genCall f, .blank, answerW f]⟩
  | t2 (fr o) : HasArgs f q fr → RqTask f R q ⟨fr, o, some (f.returnTypeId.isSome, f.id, q.2), [.blank, answerW f]⟩
  | t3 (fr o r) : HasArgs f q fr → (f.returnTypeId.isSome = true → fr.result = some r) → R r →
      RqTask f R q ⟨fr, o, none, [.blank, answerW f]⟩
  | t4 (fr o r) : HasArgs f q fr → (f.returnTypeId.isSome = true → fr.result = some r) → R r →
      RqTask f R q ⟨fr, o, none, [answerW f]⟩
  | t5 (fr o) : RqTask f R q ⟨fr, o, none, []⟩

theorem RqTask.mono {R R' : Ret → Prop} (h : ∀ r, R r → R' r) {q : Rq} {t : Thread} : RqTask f R q t → RqTask f R' q t
  | .t0 fr o h1 => .t0 fr o h1
  | .t1 fr o h1 => .t1 fr o h1
  | .t2 fr o h1 => .t2 fr o h1
  | .t3 fr o r h1 h2 h3 => .t3 fr o r h1 h2 (h r h3)
  | .t4 fr o r h1 h2 h3 => .t4 fr o r h1 h2 (h r h3)
  | .t5 fr o => .t5 fr o

/-- The future has not called the function yet; its arguments are `vs`. -/
def Task.Pend (f : FnNode) (a : Nat) (vs : List Val) (t : Task) : Prop :=
  t.addr = a ∧ 2 < t.thread.code.length ∧ ∃ q : Rq, RqOk f q ∧ q.2 = vs ∧ t.thread.frame.args = some (argsVal f q.1 q.2)

open Classical in
/-- 1 if `p`, else 0. -/
noncomputable def one (p : Prop) : Nat := if p then 1 else 0

theorem num_nil {α : Type} (p : α → Prop) : num p [] = 0 := rfl
theorem num_append {α : Type} (p : α → Prop) (l m : List α) : num p (l ++ m) = num p l + num p m := List.countP_append
theorem num_cons {α : Type} (p : α → Prop) (x : α) (l : List α) : num p (x :: l) = one (p x) + num p l := by
  unfold num one
  rw [List.countP_cons, Nat.add_comm]
  by_cases h : p x <;> simp [h]
theorem one_true {p : Prop} (h : p) : one p = 1 := by simp [one, h]
theorem one_false {p : Prop} (h : ¬ p) : one p = 0 := by simp [one, h]
theorem one_mono {p q : Prop} (h : p → q) : one p ≤ one q := by
  by_cases hp : p
  · rw [one_true hp, one_true (h hp)]; exact Nat.le_refl _
  · rw [one_false hp]; exact Nat.zero_le _
theorem one_congr {p q : Prop} (h : p ↔ q) : one p = one q := by rw [propext h]
theorem num_zero {α : Type} {p : α → Prop} {l : List α} (h : ∀ x ∈ l, ¬ p x) : num p l = 0 := by
  unfold num
  rw [List.countP_eq_zero]
  intro x hx
  simpa using h x hx
theorem num_mono {α : Type} {p q : α → Prop} {l : List α} (h : ∀ x ∈ l, p x → q x) : num p l ≤ num q l := by
  unfold num
  refine List.countP_mono_left (fun x hx hp => ?_)
  simp only [decide_eq_true_eq] at hp ⊢
  exact h x hx hp

/-- `e` is a call with arguments `vs`. -/
def Ev.IsCall (a : Nat) (g : String) (vs : List Val) (e : Ev) : Prop := e = .called a g vs

/-- `e` is a request with arguments `vs`; `Q q bs` says that `bs` is the request `q`. -/
def Ev.IsRequest (Q : Rq → Bytes → Prop) (a : Nat) (vs : List Val) (e : Ev) : Prop := ∃ i bs, e = .requested a bs ∧ Q (i, vs) bs

/-- The request `q` has been made. -/
def Asked (Q : Rq → Bytes → Prop) (a : Nat) (log : List Ev) (q : Rq) : Prop := ∃ bs, .requested a bs ∈ log ∧ Q q bs

theorem Asked.mono {Q : Rq → Bytes → Prop} {l l' : List Ev} {q : Rq} (h : Asked Q a l q) : Asked Q a (l ++ l') q := by
  obtain ⟨bs, h1, h2⟩ := h
  exact ⟨bs, by simp [h1], h2⟩

/-- What the proofs need of requests. -/
def Readable (C : Codec) (st : Status → Bytes) (f : FnNode) (Q : Rq → Bytes → Prop) : Prop :=
  ∀ q bs, Q q bs → RqOk f q ∧ ∃ b, bs = st .xFF ++ b ∧ ∀ r, C.read (argsName f) (b ++ r) = some (argsVal f q.1 q.2)

/-- The server buffer holds no request (`none`) or the request `q`. -/
def Holds (C : Codec) (Q : Rq → Bytes → Prop) (m : Bufs) : Option Rq → Prop
  | none => ¬ Busy C m
  | some q => ∃ bs r, m.server = bs ++ r ∧ Q q bs

noncomputable def Hold.count (vs : List Val) (B : Option Rq) : Hold → Nat
  | .no => one (∃ q, B = some q ∧ q.2 = vs)
  | .unacked q => one (q.2 = vs)
  | .acked q => one (q.2 = vs) + one (∃ q, B = some q ∧ q.2 = vs)

def Hold.Asked (Q : Rq → Bytes → Prop) (a : Nat) (log : List Ev) : Hold → Prop
  | .no => True
  | .unacked q => Rust.Asked Q a log q
  | .acked q => Rust.Asked Q a log q

/-- The client buffer holds the answer to a request that has been made, with the method id of that request
and a result that the function has yielded for its arguments. -/
def Answer (C : Codec) (st : Status → Bytes) (f : FnNode) (a : Nat) (Q : Rq → Bytes → Prop) (log : List Ev) (client : Bytes) : Prop :=
  ∃ i vs r mb rb rest, Asked Q a log (some i, vs) ∧ .finished a f.id vs r ∈ log ∧ C.prim "i64" (.int i) = some mb
    ∧ ResultBytes C f r rb ∧ client = st .xFF ++ (mb ++ (rb ++ rest))

theorem Answer.mono {Q : Rq → Bytes → Prop} {l l' : List Ev} {cl : Bytes} (h : Answer C st f a Q l cl) : Answer C st f a Q (l ++ l') cl := by
  obtain ⟨i, vs, r, mb, rb, rest, h1, h2, h3⟩ := h
  exact ⟨i, vs, r, mb, rb, rest, h1.mono, by simp [h2], h3⟩

/-- The client buffer says that there is an answer. -/
def Ready (C : Codec) (bs : Bytes) : Prop := ∃ b, readStatus C bs = .ok (255, b)

/-- `K`: also look at the client buffer; `E`: no request is written over another one, and `D vs`, the number of
lost requests with arguments `vs`, stays at `L vs`; it never sinks below `L vs`. -/
structure RqInv (K E : Prop) (L : List Val → Nat) (C : Codec) (st : Status → Bytes) (f : FnNode) (a : Nat) (Q : Rq → Bytes → Prop) (c : Cfg σ) : Prop where
  tasks : ∀ t ∈ c.tasks, t.addr = a → f.isAsync = true ∧
    ∃ q, Asked Q a c.log q ∧ RqTask f (fun r => .finished a f.id q.2 r ∈ c.log) q t.thread
  run : ∃ (H : Hold) (B : Option Rq) (D : List Val → Nat), (∀ vs, L vs ≤ D vs) ∧ (E → (∀ vs, D vs = L vs) ∧ ∀ q, H = .unacked q → B ≠ none)
    ∧ RqRun f a c.run H ∧ H.Asked Q a c.log ∧ Holds C Q (c.mem a) B ∧ (∀ q, B = some q → Asked Q a c.log q)
    ∧ ∀ vs, num (Ev.IsCall a f.id vs) c.log + num (Task.Pend f a vs) c.tasks + H.count vs B + D vs = num (Ev.IsRequest Q a vs) c.log
  client : K → f.isAsync = true → Ready C (c.mem a).client → Answer C st f a Q c.log (c.mem a).client

theorem pend_iff {R : Ret → Prop} {q : Rq} {t : Task} (h : RqTask f R q t.thread) (ht : t.addr = a) (vs : List Val) :
    t.Pend f a vs ↔ (2 < t.thread.code.length ∧ q.2 = vs) := by
  obtain ⟨ta, tt⟩ := t
  simp only at h ht
  subst ht
  have key : ∀ (fr : Frame) o w code, HasArgs f q fr → ((Task.mk ta ⟨fr, o, w, code⟩).Pend f ta vs ↔ (2 < code.length ∧ q.2 = vs)) := by
    intro fr o w code hfr
    constructor
    · rintro ⟨-, hc, q', hq', rfl, he⟩
      rw [hfr.2.1] at he
      simp only [Option.some.injEq] at he
      exact ⟨hc, by rw [argsVal_inj hfr.1 hq' he]⟩
    · rintro ⟨hc, e⟩
      exact ⟨rfl, hc, q, hfr.1, e, hfr.2.1⟩
  cases h with
  | t0 fr o h => exact key _ _ _ _ h
  | t1 fr o h => exact key _ _ _ _ h
  | t2 fr o h => exact key _ _ _ _ h
  | t3 fr o r h => exact key _ _ _ _ h
  | t4 fr o r h => exact key _ _ _ _ h
  | t5 fr o => simp [Task.Pend]

theorem genResult_inv {t : TypeId} {fr : Frame} {r : Ret} {rb : Bytes} (h1 : fr.resultRef = none) (h2 : fr.result = some r)
    (h : evalBufW C fr (genResult t) = .ok rb) : ∃ v, r = .val v ∧
      (match builtin? t with
        | some p => C.prim p v = some rb
        | none => C.write t v = some rb) := by
  cases r with
  | unit => cases t <;> simp [genResult, evalBufW, h1, h2] at h
  | opt => cases t <;> simp [genResult, evalBufW, h1, h2] at h
  | val v =>
    refine ⟨v, rfl, ?_⟩
    have key : ∀ x : Option Bytes, orElse Fault.stuck x = .ok rb → x = some rb := by
      intro x hx
      cases x <;> simp [orElse] at hx
      rw [hx]
    cases t <;> simp only [genResult, evalBufW, h1, h2] at h <;> simp only [builtin?] <;> exact key _ h

theorem evalResults_inv {fr : Frame} {r : Ret} {rb : Bytes} (h1 : fr.resultRef = none) (h2 : f.returnTypeId.isSome = true → fr.result = some r)
    (h : evalBufWs C fr (genResults f) = .ok rb) : ResultBytes C f r rb := by
  unfold ResultBytes
  unfold genResults at h
  cases ht : f.returnTypeId with
  | none =>
    simp only [ht, evalBufWs, Except.ok.injEq] at h
    exact h.symm
  | some t =>
    simp only [ht, evalBufWs, bind, Except.bind] at h
    cases hb : evalBufW C fr (genResult t) with
    | error e => simp [hb] at h
    | ok b =>
      simp only [hb, List.append_nil, Except.ok.injEq] at h
      subst h
      exact genResult_inv h1 (h2 (by simp [ht])) hb

/-- What a step of the future does. -/
theorem RqTask.step (hst : C.StatusOk st) (hlib : lib.Lawful) (ha : f.isAsync = true) (hn : ((argsOf f).map (·.1)).Nodup)
    (hi : "__method_id__" ∉ (argsOf f).map (·.1)) {R : Ret → Prop} {q : Rq} {t : Thread} (h : RqTask f R q t) (hw : t.wait = none)
    {m : Bufs} {u : σ} {o : Out σ} (hs : step C lib U m u t = .ok o) :
    RqTask f R q o.thread ∧ o.spawned = none ∧ o.bufs.server = m.server ∧
      ((o.bufs = m ∧ o.calls = [] ∧ (2 < t.code.length ↔ 2 < o.thread.code.length)) ∨
       (o.bufs = m ∧ o.calls = [(f.id, q.2)] ∧ 2 < t.code.length ∧ o.thread.code.length = 2) ∨
       (o.calls = [] ∧ ¬ 2 < t.code.length ∧ ¬ 2 < o.thread.code.length ∧ ∃ i r mb rb rest, q.1 = some i ∧ R r ∧ C.prim "i64" (.int i) = some mb
          ∧ ResultBytes C f r rb ∧ o.bufs.client = st .xFF ++ (mb ++ (rb ++ rest)))) := by
  cases h with
  | t0 fr ou h =>
    simp only [Rust.step, rqFut] at hs
    split at hs
    · simp only [Except.ok.injEq] at hs
      subst hs
      exact ⟨.t1 _ _ h, rfl, rfl, .inl ⟨rfl, rfl, by simp [rqFut]⟩⟩
    · simp at hs
  | t1 fr ou h =>
    simp only [Rust.step, genCall] at hs
    split at hs
    · simp at hs
    · rw [callArgs_val h.1.1 h.1.2 hn hi h.2.1] at hs
      simp only [ha, bind, Except.bind, if_true, Except.ok.injEq] at hs
      subst hs
      exact ⟨.t2 _ _ h, rfl, rfl, .inr (.inl ⟨rfl, rfl, by simp, by simp⟩)⟩
  | t2 => simp at hw
  | t3 fr ou r h h1 h2 =>
    simp only [Rust.step, Except.ok.injEq] at hs
    subst hs
    exact ⟨.t4 _ _ r h h1 h2, rfl, rfl, .inl ⟨rfl, rfl, by simp⟩⟩
  | t4 fr ou r h h1 h2 =>
    simp only [Rust.step, answerW] at hs
    split at hs
    · obtain ⟨i, hq⟩ : ∃ i, q.1 = some i := by
        have := h.1.1
        rw [ha, Option.isSome_iff_exists] at this
        exact this
      have hf : field (argsVal f q.1 q.2) "__method_id__" = .ok (.int i) := by
        simp [field, argsVal, named, fieldsOf_argsNode, ha, orElse, hq]
      simp only [evalBufWs, evalBufW, (hst .xFF).1, h.2.1, orElse, bind, Except.bind, hf] at hs
      cases hmb : C.prim "i64" (.int i) with
      | none => simp [hmb] at hs
      | some mb =>
        cases hrb : evalBufWs C fr (genResults f) with
        | error e => simp [hmb, hrb] at hs
        | ok rb =>
          simp only [hmb, hrb, Except.ok.injEq] at hs
          subst hs
          refine ⟨.t5 _ _, rfl, rfl, .inr (.inr ⟨rfl, by simp, by simp, ?_⟩)⟩
          obtain ⟨rest, hrest⟩ := hlib m.client (st .xFF ++ (mb ++ rb))
          refine ⟨i, r, mb, rb, rest, hq, h2, hmb, evalResults_inv h.2.2 h1 hrb, ?_⟩
          simp only [Bufs.set, Bufs.get, hrest, List.append_assoc]
    · simp at hs
  | t5 => simp [Rust.step] at hs

/-- What a step of the handler does. -/
theorem RqRun.step (hst : C.StatusOk st) (hlib : lib.Lawful) (hn : ((argsOf f).map (·.1)).Nodup)
    (hi : "__method_id__" ∉ (argsOf f).map (·.1)) {Q : Rq → Bytes → Prop} (hQ : Readable C st f Q)
    {r : Run} {H : Hold} (h : RqRun f a (some r) H) (hr : r.addr = a) {B : Option Rq}
    {m : Bufs} (hB : Holds C Q m B) {u : σ} {o : Out σ} (hs : step C lib U m u r.thread = .ok o) :
    (f.isAsync = true → o.bufs.client = m.client) ∧
    ∃ H' B', RqRun f a (some { r with thread := o.thread }) H' ∧ Holds C Q o.bufs B' ∧
      ((H' = H ∧ B' = B ∧ o.calls = [] ∧ o.spawned = none) ∨
       (∃ q, H = .no ∧ B = some q ∧ B' = B ∧ H' = .unacked q ∧ o.calls = [] ∧ o.spawned = none) ∨
       (∃ q, H = .unacked q ∧ B' = none ∧ H' = .acked q ∧ o.calls = [] ∧ o.spawned = none) ∨
       (∃ q, H = .acked q ∧ B' = B ∧ H' = .no ∧ o.calls = [(f.id, q.2)] ∧ o.spawned = none) ∨
       (∃ q t, f.isAsync = true ∧ H = .acked q ∧ B' = B ∧ H' = .no ∧ o.calls = [] ∧ o.spawned = some t ∧ t.code = rqFut f ∧ ∀ R, RqTask f R q t)) := by
  cases h with
  | other _ h => exact absurd hr h
  | s0 ret fr ou wt hfr =>
    simp only [Rust.step, rqBody] at hs
    cases hb : readStatus C (m.get .server) with
    | error e => simp [hb, evalLetArgs, bind, Except.bind] at hs
    | ok p =>
      obtain ⟨x, y⟩ := p
      simp only [hb, evalLetArgs, bind, Except.bind] at hs
      cases B with
      | none =>
        have hx : ¬ x = ((Status.xFF.val : Nat) : Int) := by
          intro e
          refine hB ⟨y, ?_⟩
          rw [show m.server = m.get .server from rfl, hb, e]
          rfl
        simp only [hx, if_false, Except.ok.injEq] at hs
        subst hs
        exact ⟨fun _ => rfl, _, _, .n1 _ _ _ _ rfl, hB, .inl ⟨rfl, rfl, rfl, rfl⟩⟩
      | some q =>
        obtain ⟨bs, rs, hm, hq⟩ := hB
        obtain ⟨hok, b, rfl, hread⟩ := hQ q bs hq
        have hb' : readStatus C (m.get .server) = .ok (((Status.xFF.val : Nat) : Int), b ++ rs) := by
          show readStatus C m.server = _
          rw [hm, List.append_assoc, readStatus_of hst]
        rw [hb'] at hb
        simp only [Except.ok.injEq, Prod.mk.injEq] at hb
        obtain ⟨rfl, rfl⟩ := hb
        simp only [if_true, hread, orElse, Except.ok.injEq] at hs
        subst hs
        exact ⟨fun _ => rfl, _, some q, .s1 _ _ _ _ q hok rfl hfr, ⟨_, _, hm, hq⟩, .inr (.inl ⟨q, rfl, rfl, rfl, rfl, rfl, rfl⟩)⟩
  | n1 ret fr ou wt h =>
    simp only [Rust.step, Except.ok.injEq] at hs
    subst hs
    exact ⟨fun _ => rfl, _, _, .n2 _ _ _ _ h, hB, .inl ⟨rfl, rfl, rfl, rfl⟩⟩
  | n2 ret fr ou wt h =>
    simp only [Rust.step, h, Except.ok.injEq] at hs
    subst hs
    exact ⟨fun _ => rfl, _, _, .s8 _ _ _ _, hB, .inl ⟨rfl, rfl, rfl, rfl⟩⟩
  | s1 ret fr ou wt q h1 h2 h3 =>
    simp only [Rust.step, Except.ok.injEq] at hs
    subst hs
    exact ⟨fun _ => rfl, _, _, .s2 _ _ _ _ q h1 h2 h3, hB, .inl ⟨rfl, rfl, rfl, rfl⟩⟩
  | s2 ret fr ou wt q h1 h2 h3 =>
    simp only [Rust.step, h2, Except.ok.injEq] at hs
    subst hs
    exact ⟨fun _ => rfl, _, _, .s3 _ _ _ _ q ⟨h1, rfl, h3⟩, hB, .inl ⟨rfl, rfl, rfl, rfl⟩⟩
  | s3 ret fr ou wt q h =>
    have key : ∀ m' : Bufs, m'.server = lib m.server (st .x00) → Holds C Q m' none := by
      rintro m' hm' ⟨b, hb⟩
      obtain ⟨r, hr⟩ := hlib m.server (st .x00)
      rw [hm', hr, readStatus_of hst] at hb
      simp [Status.val] at hb
    cases ha : f.isAsync with
    | true =>
      simp only [Rust.step, rqBlock_async ha] at hs
      split at hs
      · simp only [evalBufWs, evalBufW, (hst .x00).1, orElse, bind, Except.bind, Except.ok.injEq] at hs
        subst hs
        refine ⟨fun _ => rfl, _, none, .a4 _ _ _ _ q ha h, key _ ?_, .inr (.inr (.inl ⟨q, rfl, rfl, rfl, rfl, rfl⟩))⟩
        simp [Bufs.set, Bufs.get]
      · simp at hs
    | false =>
      simp only [Rust.step, rqBlock_sync ha] at hs
      split at hs
      · simp only [evalBufWs, evalBufW, (hst .x00).1, orElse, bind, Except.bind, Except.ok.injEq] at hs
        subst hs
        refine ⟨fun _ => rfl, _, none, .y4 _ _ _ _ q ha h, key _ ?_, .inr (.inr (.inl ⟨q, rfl, rfl, rfl, rfl, rfl⟩))⟩
        simp [Bufs.set, Bufs.get]
      · simp at hs
  | y4 ret fr ou wt q ha h =>
    simp only [Rust.step, Except.ok.injEq] at hs
    subst hs
    exact ⟨fun _ => rfl, _, _, .y5 _ _ _ _ q ha h, hB, .inl ⟨rfl, rfl, rfl, rfl⟩⟩
  | y5 ret fr ou wt q ha h =>
    simp only [Rust.step, genCall] at hs
    split at hs
    · simp at hs
    · rw [callArgs_val h.1.1 h.1.2 hn hi h.2.1] at hs
      simp only [ha, Bool.false_eq_true, bind, Except.bind, if_false, Except.ok.injEq] at hs
      subst hs
      exact ⟨fun _ => rfl, _, _, .y6 _ _ _ _ ha, hB, .inr (.inr (.inr (.inl ⟨q, rfl, rfl, rfl, rfl, rfl⟩)))⟩
  | y6 ret fr ou wt ha =>
    simp only [Rust.step, Except.ok.injEq] at hs
    subst hs
    exact ⟨fun _ => rfl, _, _, .y7 _ _ _ _ ha, hB, .inl ⟨rfl, rfl, rfl, rfl⟩⟩
  | y7 ret fr ou wt ha =>
    simp only [Rust.step] at hs
    split at hs
    · cases hb : evalBufWs C fr (.status .xFF :: genResults f) with
      | error e => simp [hb, bind, Except.bind] at hs
      | ok bs =>
        simp only [hb, bind, Except.bind, Except.ok.injEq] at hs
        subst hs
        refine ⟨fun h => by simp [ha] at h, _, B, .s8 _ _ _ _, ?_, .inl ⟨rfl, rfl, rfl, rfl⟩⟩
        cases B <;> exact hB
    · simp at hs
  | a4 ret fr ou wt q ha h =>
    simp only [Rust.step, Except.ok.injEq] at hs
    subst hs
    exact ⟨fun _ => rfl, _, _, .a5 _ _ _ _ q ha h, hB, .inl ⟨rfl, rfl, rfl, rfl⟩⟩
  | a5 ret fr ou wt q ha h =>
    simp only [Rust.step, h.2.1, Except.ok.injEq] at hs
    subst hs
    exact ⟨fun _ => rfl, _, _, .a6 _ _ _ _ q ha ⟨h.1, rfl, h.2.2⟩ rfl, hB, .inl ⟨rfl, rfl, rfl, rfl⟩⟩
  | a6 ret fr ou wt q ha h ho =>
    simp only [Rust.step, Except.ok.injEq] at hs
    subst hs
    exact ⟨fun _ => rfl, _, _, .a7 _ _ _ _ q ha h ho, hB, .inl ⟨rfl, rfl, rfl, rfl⟩⟩
  | a7 ret fr ou wt q ha h ho =>
    simp only [Rust.step] at hs
    split at hs
    · simp only [Except.ok.injEq] at hs
      subst hs
      refine ⟨fun _ => rfl, _, _, .s8 _ _ _ _, hB, .inr (.inr (.inr (.inr ⟨q, _, ha, rfl, rfl, rfl, rfl, rfl, rfl, fun R => .t0 _ _ ?_⟩)))⟩
      exact ⟨h.1, by simp [Frame.captured, ho, h.2.1], h.2.2⟩
    · simp at hs
  | s8 ret fr ou wt => simp [Rust.step] at hs

theorem num_called_other {b : Nat} (h : b ≠ a) (g : String) (vs : List Val) (l : List (String × List Val)) :
    num (Ev.IsCall a g vs) (l.map (fun p => Ev.called b p.1 p.2)) = 0 := by
  refine num_zero (fun e he => ?_)
  obtain ⟨p, -, rfl⟩ := List.mem_map.1 he
  simp [Ev.IsCall, h]

theorem num_called_request (b : Nat) (Q : Rq → Bytes → Prop) (vs : List Val) (l : List (String × List Val)) :
    num (Ev.IsRequest Q a vs) (l.map (fun p => Ev.called b p.1 p.2)) = 0 := by
  refine num_zero (fun e he => ?_)
  obtain ⟨p, -, rfl⟩ := List.mem_map.1 he
  simp [Ev.IsRequest]

theorem num_pend_other {b : Nat} (h : b ≠ a) (vs : List Val) (l : List Thread) :
    num (Task.Pend f a vs) (l.map (Task.mk b)) = 0 := by
  refine num_zero (fun e he => ?_)
  obtain ⟨p, -, rfl⟩ := List.mem_map.1 he
  simp [Task.Pend, h]

theorem Hold.Asked.mono {Q : Rq → Bytes → Prop} {l l' : List Ev} : ∀ {H : Hold}, H.Asked Q a l → H.Asked Q a (l ++ l')
  | .no, _ => trivial
  | .unacked _, h => Rust.Asked.mono h
  | .acked _, h => Rust.Asked.mono h

theorem holds_congr {Q : Rq → Bytes → Prop} {m m' : Bufs} (h : m'.server = m.server) : ∀ {B}, Holds C Q m B → Holds C Q m' B
  | none, hB => fun hb => hB ((busy_congr h).1 hb)
  | some _, ⟨bs, r, h1, h2⟩ => ⟨bs, r, h ▸ h1, h2⟩

theorem holds_busy (hst : C.StatusOk st) {Q : Rq → Bytes → Prop} (hQ : Readable C st f Q) {m : Bufs} {q : Rq} (h : Holds C Q m (some q)) :
    Busy C m := by
  obtain ⟨bs, r, h1, h2⟩ := h
  obtain ⟨-, b, rfl, -⟩ := hQ q bs h2
  exact ⟨b ++ r, by rw [h1, List.append_assoc]; exact readStatus_of hst .xFF _⟩

theorem rqInv_act (hst : C.StatusOk st) (hlib : lib.Lawful) (hr : f.isRead = false) (hn : ((argsOf f).map (·.1)).Nodup)
    (hi : "__method_id__" ∉ (argsOf f).map (·.1)) (hreg : regs.lookup a = some (genHandler f)) {Q : Rq → Bytes → Prop}
    (hQ : Readable C st f Q) {x : Act} (hx : ∀ bs, x = .request a bs → ∃ q, Q q bs)
    {K E : Prop} {L : List Val → Nat} (hEQ : E → ∀ q q' bs, Q q bs → Q q' bs → q = q') (hcl : K → ∀ bs, x = .clear a bs → ∀ r, ¬ Ready C (bs ++ r)) {c c' : Cfg σ}
    (hEx : E → ∀ bs, x = .request a bs → ¬ Busy C (c.mem a)) (hI : RqInv K E L C st f a Q c) (h : act C lib U regs c x = some c') : RqInv K E L C st f a Q c' := by
  obtain ⟨hT, ⟨H, B, D, hL, hE, hR, hA, hB, hBA, hC⟩, hK⟩ := hI
  cases x with
  | poll b =>
    simp only [act] at h
    split at h
    · rename_i hrun hl
      simp only [Option.some.injEq] at h
      subst h
      rw [hrun] at hR
      cases hR
      refine ⟨hT, ⟨.no, B, D, hL, hE, ?_, hA, hB, hBA, hC⟩, hK⟩
      by_cases hb : b = a
      · subst hb
        rw [hreg] at hl
        simp only [Option.some.injEq] at hl
        subst hl
        have : (genHandler f).start = ⟨⟨(genHandler f).sig.names, none, none, false, none, none, none⟩, none, none, rqBody f⟩ := by
          simp only [Handler.start, genHandler_body hr]
        rw [this]
        exact .s0 _ _ _ _ rfl
      · exact .other _ hb
    · simp at h
  | endH =>
    simp only [act] at h
    split at h
    · rename_i r hrun
      split at h
      · rename_i b hcode hret
        simp only [Option.some.injEq] at h
        subst h
        have hz : H = .no := by
          rw [hrun] at hR
          cases hR <;> first | rfl | (exfalso; simp at hcode; done) |
            (exfalso; revert hcode; unfold rqBlock; split <;> simp)
        subst hz
        refine ⟨fun t ht e => ⟨(hT t ht e).1, ?_⟩, ⟨.no, B, D, hL, hE, .idle, hA.mono, hB, fun q hq => (hBA q hq).mono, fun vs => ?_⟩, fun hk ha hrd => (hK hk ha hrd).mono⟩
        · obtain ⟨q, hq, hq2⟩ := (hT t ht e).2
          exact ⟨q, hq.mono, hq2.mono (fun r h => by simp [h])⟩
        · simp only [num_append, num_cons, num_nil]
          rw [one_false (p := Ev.IsCall a f.id vs (.handled r.addr b)) (by simp [Ev.IsCall]),
            one_false (p := Ev.IsRequest Q a vs (.handled r.addr b)) (by simp [Ev.IsRequest])]
          simpa using hC vs
      · simp at h
    · simp at h
  | stepH =>
    simp only [act] at h
    split at h
    · rename_i r hrun
      split at h
      · rename_i o ho
        simp only [Option.some.injEq] at h
        subst h
        rw [hrun] at hR
        have hT' : ∀ t ∈ c.tasks, t.addr = a → f.isAsync = true ∧ ∃ q, Asked Q a (c.log ++ o.calls.map (fun p => Ev.called r.addr p.1 p.2)) q ∧
            RqTask f (fun r' => .finished a f.id q.2 r' ∈ c.log ++ o.calls.map (fun p => Ev.called r.addr p.1 p.2)) q t.thread := by
          intro t ht e
          obtain ⟨h1, q, hq, hq2⟩ := hT t ht e
          exact ⟨h1, q, hq.mono, hq2.mono (fun r h => by simp [h])⟩
        by_cases hra : r.addr = a
        · rw [hra] at ho
          obtain ⟨hcl', H', B', hR', hB', hcase⟩ := hR.step hst hlib hn hi hQ hra hB ho
          have hK' : K → f.isAsync = true → Ready C o.bufs.client →
              Answer C st f a Q (c.log ++ o.calls.map (fun p => Ev.called r.addr p.1 p.2)) o.bufs.client := by
            intro hk ha
            rw [hcl' ha]
            exact fun h => (hK hk ha h).mono
          rcases hcase with ⟨rfl, rfl, hc, hsp⟩ | ⟨q, rfl, rfl, rfl, rfl, hc, hsp⟩ | ⟨q, rfl, rfl, rfl, hc, hsp⟩ | ⟨q, rfl, rfl, rfl, hc, hsp⟩ |
              ⟨q, t, ha, rfl, rfl, rfl, hc, hsp, htc, htT⟩
          · refine ⟨?_, ⟨_, _, D, hL, hE, hR', hA.mono, ?_, fun q hq => (hBA q hq).mono, fun vs => ?_⟩, ?_⟩
            · simpa [hsp] using hT'
            · simpa only [hra, setMem_self] using hB'
            · simpa [hsp, hc] using hC vs
            · simpa only [hra, setMem_self] using hK'
          · refine ⟨?_, ⟨_, _, D, hL, fun h => ⟨(hE h).1, by simp⟩, hR', ?_, ?_, fun q hq => (hBA q hq).mono, fun vs => ?_⟩, ?_⟩
            · simpa [hsp] using hT'
            · exact (hBA q rfl).mono
            · simpa only [hra, setMem_self] using hB'
            · have hv := hC vs
              simp only [Hold.count, Option.some.injEq, exists_eq_left'] at hv ⊢
              simpa [hsp, hc] using hv
            · simpa only [hra, setMem_self] using hK'
          · refine ⟨?_, ⟨_, none, D, hL, fun h => ⟨(hE h).1, by simp⟩, hR', ?_, ?_, fun q hq => (nomatch hq), fun vs => ?_⟩, ?_⟩
            · simpa [hsp] using hT'
            · exact Asked.mono hA
            · simpa only [hra, setMem_self] using hB'
            · have hv := hC vs
              simp only [Hold.count] at hv ⊢
              rw [one_false (p := ∃ q, (none : Option Rq) = some q ∧ q.2 = vs) (by simp)]
              simpa [hsp, hc] using hv
            · simpa only [hra, setMem_self] using hK'
          · refine ⟨?_, ⟨_, _, D, hL, fun h => ⟨(hE h).1, by simp⟩, hR', trivial, ?_, fun q hq => (hBA q hq).mono, fun vs => ?_⟩, ?_⟩
            · simpa [hsp] using hT'
            · simpa only [hra, setMem_self] using hB'
            · have hv := hC vs
              simp only [Hold.count] at hv ⊢
              simp only [hsp, hc, hra, Option.toList_none, List.map_nil, List.append_nil, List.map_cons, num_append, num_cons, num_nil]
              rw [one_false (p := Ev.IsRequest Q a vs (.called a f.id q.2)) (by simp [Ev.IsRequest]),
                one_congr (p := Ev.IsCall a f.id vs (.called a f.id q.2)) (q := q.2 = vs) (by simp [Ev.IsCall])]
              omega
            · simpa only [hra, setMem_self] using hK'
          · refine ⟨?_, ⟨_, _, D, hL, fun h => ⟨(hE h).1, by simp⟩, hR', trivial, ?_, fun q hq => (hBA q hq).mono, fun vs => ?_⟩, ?_⟩
            · intro x hx e
              simp only [hsp, Option.toList_some, List.map_cons, List.map_nil, List.mem_append, List.mem_singleton] at hx
              rcases hx with hx | rfl
              · exact hT' x hx e
              · exact ⟨ha, q, Asked.mono hA, htT _⟩
            · simpa only [hra, setMem_self] using hB'
            · have hv := hC vs
              simp only [Hold.count] at hv ⊢
              simp only [hsp, hc, hra, Option.toList_some, List.map_nil, List.append_nil, List.map_cons, num_append, num_cons, num_nil]
              have := pend_iff (t := ⟨a, t⟩) (htT (fun _ => True)) rfl vs
              rw [one_congr this, one_congr (q := q.2 = vs) (by simp [htc, rqFut])]
              omega
            · simpa only [hra, setMem_self] using hK'
        · have hz : H = .no := by
            cases hR <;> simp_all
          subst hz
          have hmem : setMem c.mem r.addr o.bufs a = c.mem a := setMem_ne _ _ (Ne.symm hra)
          refine ⟨?_, ⟨.no, B, D, hL, hE, .other _ hra, trivial, ?_, fun q hq => (hBA q hq).mono, fun vs => ?_⟩, ?_⟩
          · intro t ht e
            rcases List.mem_append.1 ht with ht | ht
            · exact hT' t ht e
            · obtain ⟨y, -, rfl⟩ := List.mem_map.1 ht
              exact absurd e hra
          · simpa only [hmem] using hB
          · simp only [num_append, num_called_other hra, num_called_request, num_pend_other hra]
            simpa using hC vs
          · simp only [hmem]
            exact fun hk ha h => (hK hk ha h).mono
      · simp at h
    · simp at h
  | stepT i =>
    simp only [act] at h
    split at h
    · rename_i t ht
      obtain ⟨l1, l2, hl, hset⟩ := split_set ht
      split at h
      · simp at h
      · rename_i hwait
        split at h
        · rename_i o ho
          simp only [Option.some.injEq] at h
          subst h
          simp only [hset] at *
          have hT' : ∀ x ∈ c.tasks, x.addr = a → f.isAsync = true ∧ ∃ q, Asked Q a (c.log ++ o.calls.map (fun p => Ev.called t.addr p.1 p.2)) q ∧
              RqTask f (fun r' => .finished a f.id q.2 r' ∈ c.log ++ o.calls.map (fun p => Ev.called t.addr p.1 p.2)) q x.thread := by
            intro x hx e
            obtain ⟨h1, q, hq, hq2⟩ := hT x hx e
            exact ⟨h1, q, hq.mono, hq2.mono (fun r h => by simp [h])⟩
          by_cases hta : t.addr = a
          · have htm : t ∈ c.tasks := by rw [hl]; simp
            obtain ⟨ha, q, hq, hqt⟩ := hT t htm hta
            rw [hta] at ho
            obtain ⟨hT1, hsp, hserver, hcase⟩ := hqt.step hst hlib ha hn hi hwait ho
            simp only [hsp, Option.toList_none, List.map_nil, List.append_nil]
            refine ⟨?_, ⟨H, B, D, hL, hE, hR, hA.mono, ?_, fun q hq => (hBA q hq).mono, fun vs => ?_⟩, ?_⟩
            · intro x hx e
              simp only [List.mem_append, List.mem_cons] at hx
              rcases hx with hx | rfl | hx
              · exact hT' x (by simp [hl, hx]) e
              · exact ⟨ha, q, hq.mono, hT1.mono (fun r h => by simp [h])⟩
              · exact hT' x (by simp [hl, hx]) e
            · simp only [hta, setMem_self]
              exact holds_congr hserver hB
            · have hv := hC vs
              have p1 := pend_iff hqt hta vs
              have p2 := pend_iff (t := ⟨a, o.thread⟩) hT1 rfl vs
              simp only [hl, num_append, num_cons, hta, num_called_request] at hv ⊢
              rw [one_congr p1] at hv
              rw [one_congr p2]
              rcases hcase with ⟨-, hc, hlen⟩ | ⟨-, hc, hlen, hlen'⟩ | ⟨hc, hlen, hlen', -⟩
              · simp only [hc, List.map_nil, num_nil]
                rw [one_congr (p := 2 < o.thread.code.length ∧ q.2 = vs) (q := 2 < t.thread.code.length ∧ q.2 = vs) (by rw [hlen])]
                omega
              · simp only [hc, List.map_cons, List.map_nil, num_cons, num_nil]
                rw [one_congr (p := Ev.IsCall a f.id vs (.called a f.id q.2)) (q := q.2 = vs) (by simp [Ev.IsCall]),
                  one_false (p := 2 < o.thread.code.length ∧ q.2 = vs) (by omega)]
                rw [one_congr (q := q.2 = vs) (by simp [hlen])] at hv
                omega
              · simp only [hc, List.map_nil, num_nil]
                rw [one_false (p := 2 < o.thread.code.length ∧ q.2 = vs) (by omega)]
                rw [one_false (p := 2 < t.thread.code.length ∧ q.2 = vs) (by omega)] at hv
                omega
            · simp only [hta, setMem_self]
              intro hk _ hrd
              rcases hcase with ⟨hb, hc, hlen⟩ | ⟨hb, hc, hlen, hlen'⟩ | ⟨hc, hlen, hlen', i', r, mb, rb, rest, hqi, hr', hmb, hrb, hcl'⟩
              · rw [hb] at hrd ⊢
                exact (hK hk ha hrd).mono
              · rw [hb] at hrd ⊢
                exact (hK hk ha hrd).mono
              · refine ⟨i', q.2, r, mb, rb, rest, ?_, ?_, hmb, hrb, hcl'⟩
                · rw [← hqi]; exact hq.mono
                · simp [hr']
          · have hmem : setMem c.mem t.addr o.bufs a = c.mem a := setMem_ne _ _ (Ne.symm hta)
            have e1 : ∀ vs th, one (Task.Pend f a vs ⟨t.addr, th⟩) = 0 := by
              intro vs th; exact one_false (by simp [Task.Pend, hta])
            have e2 : ∀ vs, one (Task.Pend f a vs t) = 0 := fun vs => e1 vs t.thread
            refine ⟨?_, ⟨H, B, D, hL, hE, hR, hA.mono, ?_, fun q hq => (hBA q hq).mono, fun vs => ?_⟩, ?_⟩
            · intro x hx e
              simp only [List.mem_append, List.mem_cons, List.mem_map] at hx
              rcases hx with (hx | rfl | hx) | ⟨y, -, rfl⟩
              · exact hT' x (by simp [hl, hx]) e
              · exact absurd e hta
              · exact hT' x (by simp [hl, hx]) e
              · exact absurd e hta
            · simpa only [hmem] using hB
            · have hv := hC vs
              simp only [hl, num_append, num_cons, e1, num_called_other hta, num_called_request, num_pend_other hta] at hv ⊢
              omega
            · simp only [hmem]
              exact fun hk ha h => (hK hk ha h).mono
        · simp at h
    · simp at h
  | resume i r =>
    simp only [act] at h
    split at h
    · rename_i t ht
      obtain ⟨l1, l2, hl, hset⟩ := split_set ht
      split at h
      · rename_i res g xs hwait
        simp only [Option.some.injEq] at h
        subst h
        simp only [hset] at *
        have hT' : ∀ x ∈ c.tasks, x.addr = a → f.isAsync = true ∧ ∃ q, Asked Q a (c.log ++ [.finished t.addr g xs r]) q ∧
            RqTask f (fun r' => .finished a f.id q.2 r' ∈ c.log ++ [.finished t.addr g xs r]) q x.thread := by
          intro x hx e
          obtain ⟨h1, q, hq, hq2⟩ := hT x hx e
          exact ⟨h1, q, hq.mono, hq2.mono (fun r h => by simp [h])⟩
        have hlog : ∀ vs, num (Ev.IsCall a f.id vs) (c.log ++ [.finished t.addr g xs r]) = num (Ev.IsCall a f.id vs) c.log
            ∧ num (Ev.IsRequest Q a vs) (c.log ++ [.finished t.addr g xs r]) = num (Ev.IsRequest Q a vs) c.log := by
          intro vs
          simp only [num_append, num_cons, num_nil]
          rw [one_false (p := Ev.IsCall a f.id vs (.finished t.addr g xs r)) (by simp [Ev.IsCall]),
            one_false (p := Ev.IsRequest Q a vs (.finished t.addr g xs r)) (by simp [Ev.IsRequest])]
          simp
        by_cases hta : t.addr = a
        · have htm : t ∈ c.tasks := by rw [hl]; simp
          obtain ⟨ha, q, hq, hqt⟩ := hT t htm hta
          have p1 := fun vs => pend_iff hqt hta vs
          obtain ⟨ta, tt⟩ := t
          simp only at hta hwait hqt
          subst hta
          cases hqt with
          | t2 fr ou hargs =>
            simp only [Option.some.injEq, Prod.mk.injEq] at hwait
            obtain ⟨rfl, rfl, rfl⟩ := hwait
            have hnew : ∀ R : Ret → Prop, R r → RqTask f R q ⟨bindResult f.returnTypeId.isSome r fr, ou, none, [.blank, answerW f]⟩ := by
              intro R hRr
              refine .t3 _ _ r ?_ ?_ hRr
              · cases hret : f.returnTypeId with
                | none => exact hargs
                | some t => exact ⟨hargs.1, hargs.2.1, rfl⟩
              · intro h; simp [bindResult, h]
            refine ⟨?_, ⟨H, B, D, hL, hE, hR, hA.mono, hB, fun q hq => (hBA q hq).mono, fun vs => ?_⟩, fun hk ha h => (hK hk ha h).mono⟩
            · intro x hx e
              simp only [List.mem_append, List.mem_cons] at hx
              rcases hx with hx | rfl | hx
              · exact hT' x (by simp [hl, hx]) e
              · exact ⟨ha, q, hq.mono, hnew _ (by simp)⟩
              · exact hT' x (by simp [hl, hx]) e
            · have hv := hC vs
              simp only [hlog, hl, num_append, num_cons] at hv ⊢
              rw [one_congr (p1 vs)] at hv
              rw [one_congr (pend_iff (t := ⟨ta, _⟩) (hnew (fun _ => True) trivial) rfl vs)]
              simpa using hv
          | _ => simp at hwait
        · have e1 : ∀ vs th, one (Task.Pend f a vs ⟨t.addr, th⟩) = 0 := by
            intro vs th; exact one_false (by simp [Task.Pend, hta])
          have e2 : ∀ vs, one (Task.Pend f a vs t) = 0 := fun vs => e1 vs t.thread
          refine ⟨?_, ⟨H, B, D, hL, hE, hR, hA.mono, hB, fun q hq => (hBA q hq).mono, fun vs => ?_⟩, fun hk ha h => (hK hk ha h).mono⟩
          · intro x hx e
            simp only [List.mem_append, List.mem_cons] at hx
            rcases hx with hx | rfl | hx
            · exact hT' x (by simp [hl, hx]) e
            · exact absurd e hta
            · exact hT' x (by simp [hl, hx]) e
          · have hv := hC vs
            simp only [hlog, hl, num_append, num_cons, e1] at hv ⊢
            exact hv
      · simp at h
    · simp at h
  | request b bs =>
    simp only [act, Option.some.injEq] at h
    subst h
    have hT' : ∀ x ∈ c.tasks, x.addr = a → f.isAsync = true ∧ ∃ q, Asked Q a (c.log ++ [.requested b bs]) q ∧
        RqTask f (fun r' => .finished a f.id q.2 r' ∈ c.log ++ [.requested b bs]) q x.thread := by
      intro x hx e
      obtain ⟨h1, q, hq, hq2⟩ := hT x hx e
      exact ⟨h1, q, hq.mono, hq2.mono (fun r h => by simp [h])⟩
    have hcall : ∀ vs, num (Ev.IsCall a f.id vs) (c.log ++ [.requested b bs]) = num (Ev.IsCall a f.id vs) c.log := by
      intro vs
      simp only [num_append, num_cons, num_nil]
      rw [one_false (p := Ev.IsCall a f.id vs (.requested b bs)) (by simp [Ev.IsCall])]
      rfl
    by_cases hb : b = a
    · subst hb
      obtain ⟨q, hq⟩ := hx bs rfl
      have hone : ∀ vs, one (q.2 = vs) ≤ one (Ev.IsRequest Q b vs (.requested b bs)) := by
        refine fun vs => one_mono ?_
        rintro rfl
        exact ⟨q.1, bs, rfl, hq⟩
      have hlose : ∀ vs, ∃ d, one (Ev.IsRequest Q b vs (.requested b bs)) + H.count vs B = H.count vs (some q) + d
          ∧ (E → d = 0) := by
        intro vs
        have h1 := hone vs
        refine ⟨one (Ev.IsRequest Q b vs (.requested b bs)) + H.count vs B - H.count vs (some q), ?_, ?_⟩
        · cases H <;> simp only [Hold.count, Option.some.injEq, exists_eq_left'] <;> omega
        · intro e
          have hBn : B = none := by
            cases hB' : B with
            | none => rfl
            | some q' =>
              subst hB'
              exact absurd (holds_busy hst hQ hB) (hEx e bs rfl)
          subst hBn
          have h2 : one (Ev.IsRequest Q b vs (.requested b bs)) ≤ one (q.2 = vs) := by
            refine one_mono ?_
            rintro ⟨i, bs', e', hq'⟩
            simp only [Ev.requested.injEq, true_and] at e'
            subst e'
            rw [hEQ e _ _ _ hq hq']
          have h3 : one (∃ q : Rq, none = some q ∧ q.2 = vs) = 0 := one_false (by simp)
          cases H with
          | unacked q' => exact absurd rfl ((hE e).2 q' rfl)
          | _ => simp only [Hold.count, Option.some.injEq, exists_eq_left', h3]; omega
      obtain ⟨d, hd⟩ := Classical.axiomOfChoice hlose
      refine ⟨hT', ⟨H, some q, fun vs => D vs + d vs, fun vs => Nat.le_trans (hL vs) (Nat.le_add_right _ _), fun e => ⟨fun vs => by simp only [(hE e).1 vs, (hd vs).2 e, Nat.add_zero], by simp⟩, hR, hA.mono, ?_, ?_, fun vs => ?_⟩, ?_⟩
      · simp only [setMem_self]
        obtain ⟨r, hr'⟩ := hlib (c.mem b).server bs
        exact ⟨bs, r, hr', hq⟩
      · intro q' hq'
        simp only [Option.some.injEq] at hq'
        subst hq'
        exact ⟨bs, by simp, hq⟩
      · have hv := hC vs
        simp only [hcall]
        simp only [num_append, num_cons, num_nil]
        have := (hd vs).1
        omega
      · simp only [setMem_self]
        exact fun hk ha h => (hK hk ha h).mono
    · have hmem : ∀ m, setMem c.mem b m a = c.mem a := fun m => setMem_ne _ _ (Ne.symm hb)
      refine ⟨hT', ⟨H, B, D, hL, hE, hR, hA.mono, ?_, fun q hq => (hBA q hq).mono, fun vs => ?_⟩, ?_⟩
      · simpa only [hmem] using hB
      · have hv := hC vs
        simp only [hcall]
        simp only [num_append, num_cons, num_nil]
        rw [one_false (p := Ev.IsRequest Q a vs (.requested b bs)) (by simp [Ev.IsRequest, hb])]
        omega
      · simp only [hmem]
        exact fun hk ha h => (hK hk ha h).mono
  | clear b bs =>
    simp only [act, Option.some.injEq] at h
    subst h
    by_cases hb : b = a
    · subst hb
      refine ⟨hT, ⟨H, B, D, hL, hE, hR, hA, ?_, hBA, hC⟩, ?_⟩
      · simp only [setMem_self]
        exact holds_congr rfl hB
      · simp only [setMem_self]
        intro hk _ hrd
        obtain ⟨r, hr'⟩ := hlib (c.mem b).client bs
        rw [hr'] at hrd
        exact absurd hrd (hcl hk bs rfl r)
    · have hmem : ∀ m, setMem c.mem b m a = c.mem a := fun m => setMem_ne _ _ (Ne.symm hb)
      refine ⟨hT, ⟨H, B, D, hL, hE, hR, hA, ?_, hBA, hC⟩, ?_⟩
      · simpa only [hmem] using hB
      · simpa only [hmem] using hK

end
end TPB.Rust
