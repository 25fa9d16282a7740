/- Invariants of the histories of an asynchronous read method. -/
import Verif.Proofs.RustRpcRun
namespace TPB.Rust
open Spec

theorem split_set {α : Type} {l : List α} {i : Nat} {t : α} (h : l[i]? = some t) :
    ∃ l1 l2, l = l1 ++ t :: l2 ∧ ∀ x, l.set i x = l1 ++ x :: l2 := by
  obtain ⟨hi, rfl⟩ := List.getElem?_eq_some_iff.1 h
  refine ⟨l.take i, l.drop (i + 1), ?_, fun x => ?_⟩
  · simp
  · rw [List.set_eq_take_append_cons_drop, if_pos hi]

section
variable {σ : Type} {C : Codec} {lib : BufLib} {U : User σ} {st : Status → Bytes} {f : FnNode} {a : Nat}
  {regs : List (Nat × Handler)}

/-- An invariant of all actions of a history holds at its end. -/
theorem acts_inv (I : Cfg σ → Prop) : ∀ {xs : List Act} {c c' : Cfg σ},
    (∀ x ∈ xs, ∀ c c', I c → act C lib U regs c x = some c' → I c') → I c → acts C lib U regs c xs = some c' → I c'
  | [], c, c', _, hc, h => by
    simp only [acts, Option.some.injEq] at h
    exact h ▸ hc
  | x :: xs, c, c', hI, hc, h => by
    simp only [acts] at h
    cases hx : act C lib U regs c x with
    | none => simp [hx] at h
    | some c1 =>
      simp only [hx] at h
      exact acts_inv I (fun y hy => hI y (by simp [hy])) (hI x (by simp) _ _ hc hx) h

theorem acts_snoc (x : Act) : ∀ (ys : List Act) (c : Cfg σ),
    acts C lib U regs c (ys ++ [x]) = (acts C lib U regs c ys).bind (fun c => act C lib U regs c x)
  | [], c => by
    simp only [List.nil_append, acts, Option.bind_some]
    cases act C lib U regs c x <;> rfl
  | y :: ys, c => by
    simp only [List.cons_append, acts]
    cases act C lib U regs c y with
    | none => rfl
    | some c1 => exact acts_snoc x ys c1

/-- The same, when the steps are known to be taken where the history has got to. -/
theorem acts_inv_at (I : Cfg σ → Prop) {c0 c' : Cfg σ} {xs : List Act}
    (hI : ∀ ys x zs, xs = ys ++ x :: zs → ∀ c c', acts C lib U regs c0 ys = some c → I c → act C lib U regs c x = some c' → I c')
    (h0 : I c0) (h : acts C lib U regs c0 xs = some c') : I c' := by
  have key : ∀ zs ys c, xs = ys ++ zs → acts C lib U regs c0 ys = some c → I c → acts C lib U regs c zs = some c' → I c' := by
    intro zs
    induction zs with
    | nil =>
      intro ys c _ _ hc h
      simp only [acts, Option.some.injEq] at h
      exact h ▸ hc
    | cons x zs ih =>
      intro ys c e hy hc h
      simp only [acts] at h
      cases hx : act C lib U regs c x with
      | none => simp [hx] at h
      | some c1 =>
        simp only [hx] at h
        refine ih (ys ++ [x]) c1 (by simp [e]) ?_ (hI ys x zs e c c1 hy hc hx) h
        rw [acts_snoc, hy]
        exact hx
  exact key xs [] c0 rfl rfl h0 h

def readTail (f : FnNode) : List Stmt :=
  [.letMemory, .bufWrite .client (.status .xFF :: genResults f), .bufWrite .server [.status .x00]]

def readFut (f : FnNode) : List Stmt := [.call true f.id [] true, .blank, .ifResult (readTail f)]

def readBlock (f : FnNode) : List Stmt := [.bufWrite .server [.status .xFF], .blank, .spawn (readFut f)]

theorem genAsyncReadBody_eq : genAsyncReadBody f = [.letBusy .server .xFF, .blank, .ifNotBusy (readBlock f)] := rfl

/-- The states of the spawned future of a read method; `R` are the results that have been seen. -/
inductive RdTask (f : FnNode) (R : Ret → Prop) : Thread → Prop
  | t0 (fr o) : RdTask f R ⟨fr, o, none, readFut f⟩
  | t1 (fr o) : RdTask f R ⟨fr, o, some (true, f.id, []), [.blank, .ifResult (readTail f)]⟩
  | t2 (fr o r) : fr.result = some r → R r → RdTask f R ⟨fr, o, none, [.blank, .ifResult (readTail f)]⟩
  | t3 (fr o r) : fr.result = some r → R r → RdTask f R ⟨fr, o, none, [.ifResult (readTail f)]⟩
  | t4 (fr o) : RdTask f R ⟨fr, o, none, readTail f⟩
  | t5 (fr o) : RdTask f R ⟨fr, o, none, [.bufWrite .client (.status .xFF :: genResults f), .bufWrite .server [.status .x00]]⟩
  | t6 (fr o) : RdTask f R ⟨fr, o, none, [.bufWrite .server [.status .x00]]⟩
  | t7 (fr o) : RdTask f R ⟨fr, o, none, []⟩

theorem RdTask.mono {R R' : Ret → Prop} (h : ∀ r, R r → R' r) {t : Thread} : RdTask f R t → RdTask f R' t
  | .t0 fr o => .t0 fr o
  | .t1 fr o => .t1 fr o
  | .t2 fr o r h1 h2 => .t2 fr o r h1 (h r h2)
  | .t3 fr o r h1 h2 => .t3 fr o r h1 (h r h2)
  | .t4 fr o => .t4 fr o
  | .t5 fr o => .t5 fr o
  | .t6 fr o => .t6 fr o
  | .t7 fr o => .t7 fr o

/-- The states of the handler of a read method; the number is 1 if the handler is going to spawn the
future, the flag is set if it has marked the method as busy. -/
inductive RdRun (f : FnNode) (a : Nat) : Option Run → Nat → Bool → Prop
  | idle : RdRun f a none 0 false
  | other (r) : r.addr ≠ a → RdRun f a (some r) 0 false
  | h0 (ret fr o w) : RdRun f a (some ⟨a, ret, ⟨fr, o, w, genAsyncReadBody f⟩⟩) 0 false
  | h1 (ret fr o w b) : fr.busy = some b →
      RdRun f a (some ⟨a, ret, ⟨fr, o, w, [.blank, .ifNotBusy (readBlock f)]⟩⟩) (if b then 0 else 1) false
  | h2 (ret fr o w b) : fr.busy = some b →
      RdRun f a (some ⟨a, ret, ⟨fr, o, w, [.ifNotBusy (readBlock f)]⟩⟩) (if b then 0 else 1) false
  | h3 (ret fr o w) : RdRun f a (some ⟨a, ret, ⟨fr, o, w, readBlock f⟩⟩) 1 false
  | h4 (ret fr o w) : RdRun f a (some ⟨a, ret, ⟨fr, o, w, [.blank, .spawn (readFut f)]⟩⟩) 1 true
  | h5 (ret fr o w) : RdRun f a (some ⟨a, ret, ⟨fr, o, w, [.spawn (readFut f)]⟩⟩) 1 true
  | h6 (ret fr o w) : RdRun f a (some ⟨a, ret, ⟨fr, o, w, []⟩⟩) 0 false

theorem RdRun.marked {r : Option Run} {n : Nat} {w : Bool} (h : RdRun f a r n w) (hw : w = true) : n = 1 := by
  cases h <;> simp_all

/-- The server buffer says that the method is busy. -/
def Busy (C : Codec) (m : Bufs) : Prop := ∃ b, readStatus C m.server = .ok (255, b)

/-- The server buffer says that it is not. -/
def Free (C : Codec) (m : Bufs) : Prop := ∃ n b, readStatus C m.server = .ok (n, b) ∧ n ≠ 255

theorem not_busy_of_free {C : Codec} {m : Bufs} (h : Free C m) : ¬ Busy C m := by
  rintro ⟨b, hb⟩
  obtain ⟨n, b', h1, h2⟩ := h
  rw [hb] at h1
  simp only [Except.ok.injEq, Prod.mk.injEq] at h1
  exact h2 h1.1.symm

def Task.live (a : Nat) (t : Task) : Bool := t.addr == a && !t.thread.code.isEmpty
def Task.waiting (a : Nat) (t : Task) : Bool := t.addr == a && t.thread.wait.isSome

/-- No call of the read method has yielded nothing. -/
def NoNone (a : Nat) (log : List Ev) : Prop := ∀ e ∈ log, ∀ g xs, e ≠ .finished a g xs (.opt none)

structure RdInv (C : Codec) (f : FnNode) (a : Nat) (c : Cfg σ) : Prop where
  tasks : ∀ t ∈ c.tasks, t.addr = a → RdTask f (fun r => .finished a f.id [] r ∈ c.log) t.thread
  run : ∃ n w, RdRun f a c.run n w ∧ c.tasks.countP (Task.live a) + n ≤ 1
    ∧ (0 < c.tasks.countP (Task.live a) ∨ w = true → Busy C (c.mem a))
    ∧ (NoNone a c.log → Busy C (c.mem a) → 0 < c.tasks.countP (Task.live a) ∨ w = true)
  log : c.log.countP (Ev.calledAt a) = c.log.countP (Ev.finishedAt a) + c.tasks.countP (Task.waiting a)

/-- What a step of the future does. -/
theorem RdTask.step (hst : C.StatusOk st) (hlib : lib.Lawful) {R : Ret → Prop} {t : Thread} (h : RdTask f R t) (hw : t.wait = none)
    {m : Bufs} {u : σ} {o : Out σ} (hs : step C lib U m u t = .ok o) :
    RdTask f R o.thread ∧ o.spawned = none ∧ t.code ≠ [] ∧
      ((o.bufs.server = m.server ∧ o.calls = [] ∧ o.thread.wait = none ∧ o.thread.code ≠ []) ∨
       (o.bufs.server = m.server ∧ o.calls = [(f.id, [])] ∧ o.thread.wait ≠ none ∧ o.thread.code ≠ []) ∨
       (Free C o.bufs ∧ o.calls = [] ∧ o.thread.wait = none ∧ o.thread.code = []) ∨
       (o.bufs.server = m.server ∧ o.calls = [] ∧ o.thread.wait = none ∧ o.thread.code = [] ∧ R (.opt none))) := by
  cases h with
  | t0 fr ou =>
    simp only [Rust.step, readFut] at hs
    by_cases hf : f.id ∈ fr.names
    · simp [hf] at hs
    · simp only [hf, if_false, callArgs, bind, Except.bind, if_true, Except.ok.injEq] at hs
      subst hs
      exact ⟨.t1 _ _, rfl, by simp [readFut], .inr (.inl ⟨rfl, rfl, by simp, by simp⟩)⟩
  | t1 => simp at hw
  | t2 fr ou r h1 h2 =>
    simp only [Rust.step, Except.ok.injEq] at hs
    subst hs
    exact ⟨.t3 _ _ r h1 h2, rfl, by simp, .inl ⟨rfl, rfl, rfl, by simp⟩⟩
  | t3 fr ou r h1 h2 =>
    simp only [Rust.step, h1] at hs
    cases r with
    | unit => simp at hs
    | val => simp at hs
    | opt x =>
      cases x with
      | none =>
        simp only [Except.ok.injEq] at hs
        subst hs
        exact ⟨.t7 _ _, rfl, by simp, .inr (.inr (.inr ⟨rfl, rfl, rfl, rfl, h2⟩))⟩
      | some x =>
        simp only [Except.ok.injEq] at hs
        subst hs
        exact ⟨.t4 _ _, rfl, by simp, .inl ⟨rfl, rfl, rfl, by simp [Thread.enter, readTail]⟩⟩
  | t4 fr ou =>
    simp only [Rust.step, readTail] at hs
    split at hs
    · simp only [Except.ok.injEq] at hs
      subst hs
      exact ⟨.t5 _ _, rfl, by simp [readTail], .inl ⟨rfl, rfl, rfl, by simp⟩⟩
    · simp at hs
  | t5 fr ou =>
    simp only [Rust.step] at hs
    split at hs
    · cases hb : evalBufWs C fr (.status .xFF :: genResults f) with
      | error e => simp [hb, bind, Except.bind] at hs
      | ok bs =>
        simp only [hb, bind, Except.bind, Except.ok.injEq] at hs
        subst hs
        exact ⟨.t6 _ _, rfl, by simp, .inl ⟨rfl, rfl, rfl, by simp⟩⟩
    · simp at hs
  | t6 fr ou =>
    simp only [Rust.step] at hs
    split at hs
    · simp only [evalBufWs, evalBufW, (hst .x00).1, orElse, bind, Except.bind, Except.ok.injEq] at hs
      subst hs
      refine ⟨.t7 _ _, rfl, by simp, .inr (.inr (.inl ⟨?_, rfl, rfl, rfl⟩))⟩
      obtain ⟨r, hr⟩ := hlib m.server (st .x00)
      exact ⟨0, r, by simp only [Bufs.set, Bufs.get, List.append_nil, hr, readStatus_of hst]; rfl, by decide⟩
    · simp at hs
  | t7 => simp [Rust.step] at hs

/-- What a step of the handler does. -/
theorem RdRun.step (hst : C.StatusOk st) (hlib : lib.Lawful) {r : Run} {n : Nat} {w : Bool} (h : RdRun f a (some r) n w) (hr : r.addr = a)
    {m : Bufs} {u : σ} {o : Out σ} (hs : step C lib U m u r.thread = .ok o) :
    o.calls = [] ∧ ∃ n' w', RdRun f a (some { r with thread := o.thread }) n' w' ∧
      ((o.bufs = m ∧ o.spawned = none ∧ n' = n ∧ w' = w) ∨
       (o.bufs = m ∧ o.spawned = none ∧ n' = 1 ∧ n = 0 ∧ w' = false ∧ w = false ∧ ¬ Busy C m) ∨
       (o.spawned = none ∧ Busy C o.bufs ∧ n = 1 ∧ n' = 1 ∧ w' = true) ∨
       (o.bufs = m ∧ n = 1 ∧ w = true ∧ n' = 0 ∧ w' = false ∧ ∃ t, o.spawned = some t ∧ t.wait = none ∧ t.code ≠ [] ∧ ∀ R, RdTask f R t)) := by
  cases h with
  | other _ h => exact absurd hr h
  | h0 ret fr ou wt =>
    simp only [Rust.step, genAsyncReadBody_eq] at hs
    cases hb : readStatus C (m.get .server) with
    | error e => simp [hb, bind, Except.bind] at hs
    | ok p =>
      obtain ⟨x, y⟩ := p
      simp only [hb, bind, Except.bind, Except.ok.injEq] at hs
      subst hs
      refine ⟨rfl, _, _, .h1 _ _ _ _ _ rfl, ?_⟩
      by_cases hx : x = 255
      · simp [hx, Status.val]
      · have : ¬ Busy C m := by
          rintro ⟨b, hb'⟩
          rw [show m.get .server = m.server from rfl, hb'] at hb
          simp only [Except.ok.injEq, Prod.mk.injEq] at hb
          exact hx hb.1.symm
        refine .inr (.inl ⟨rfl, rfl, ?_, rfl, rfl, rfl, this⟩)
        simp [hx, Status.val]
  | h1 ret fr ou wt b hb =>
    simp only [Rust.step, Except.ok.injEq] at hs
    subst hs
    exact ⟨rfl, _, _, .h2 _ _ _ _ b hb, .inl ⟨rfl, rfl, rfl, rfl⟩⟩
  | h2 ret fr ou wt b hb =>
    simp only [Rust.step, hb] at hs
    cases b with
    | true =>
      simp only [Except.ok.injEq] at hs
      subst hs
      exact ⟨rfl, _, _, .h6 _ _ _ _, .inl ⟨rfl, rfl, rfl, rfl⟩⟩
    | false =>
      simp only [Except.ok.injEq] at hs
      subst hs
      exact ⟨rfl, _, _, .h3 _ _ _ _, .inl ⟨rfl, rfl, rfl, rfl⟩⟩
  | h3 ret fr ou wt =>
    simp only [Rust.step, readBlock] at hs
    split at hs
    · simp only [evalBufWs, evalBufW, (hst .xFF).1, orElse, bind, Except.bind, Except.ok.injEq] at hs
      subst hs
      refine ⟨rfl, _, _, .h4 _ _ _ _, .inr (.inr (.inl ⟨rfl, ?_, rfl, rfl, rfl⟩))⟩
      obtain ⟨r, hr⟩ := hlib m.server (st .xFF)
      exact ⟨r, by simp only [Bufs.set, Bufs.get, List.append_nil, hr, readStatus_of hst]; rfl⟩
    · simp at hs
  | h4 ret fr ou wt =>
    simp only [Rust.step, Except.ok.injEq] at hs
    subst hs
    exact ⟨rfl, _, _, .h5 _ _ _ _, .inl ⟨rfl, rfl, rfl, rfl⟩⟩
  | h5 ret fr ou wt =>
    simp only [Rust.step] at hs
    split at hs
    · simp only [Except.ok.injEq] at hs
      subst hs
      exact ⟨rfl, _, _, .h6 _ _ _ _, .inr (.inr (.inr ⟨rfl, rfl, rfl, rfl, rfl, _, rfl, rfl, by simp [readFut], fun R => .t0 _ _⟩))⟩
    · simp at hs
  | h6 ret fr ou wt => simp [Rust.step] at hs

theorem setMem_self (mem : Nat → Bufs) (a : Nat) (m : Bufs) : setMem mem a m a = m := by simp [setMem]
theorem setMem_ne (mem : Nat → Bufs) {a b : Nat} (m : Bufs) (h : a ≠ b) : setMem mem b m a = mem a := by simp [setMem, h]

theorem countP_called_other (a b : Nat) (h : b ≠ a) (l : List (String × List Val)) :
    (l.map (fun p => Ev.called b p.1 p.2)).countP (Ev.calledAt a) = 0
    ∧ (l.map (fun p => Ev.called b p.1 p.2)).countP (Ev.finishedAt a) = 0 := by
  constructor <;> rw [List.countP_eq_zero] <;> intro e he <;> obtain ⟨p, -, rfl⟩ := List.mem_map.1 he <;>
    simp [Ev.calledAt, Ev.finishedAt, h]

theorem countP_called_finished (a b : Nat) (l : List (String × List Val)) :
    (l.map (fun p => Ev.called b p.1 p.2)).countP (Ev.finishedAt a) = 0 := by
  rw [List.countP_eq_zero]; intro e he; obtain ⟨p, -, rfl⟩ := List.mem_map.1 he; simp [Ev.finishedAt]

theorem NoNone.of_append {a : Nat} {l l' : List Ev} (h : NoNone a (l ++ l')) : NoNone a l := fun e he => h e (by simp [he])

theorem NoNone.called {a b : Nat} {l : List Ev} {ps : List (String × List Val)} (h : NoNone a l) :
    NoNone a (l ++ ps.map (fun p => Ev.called b p.1 p.2)) := by
  intro e he g xs
  rcases List.mem_append.1 he with he | he
  · exact h e he g xs
  · obtain ⟨p, -, rfl⟩ := List.mem_map.1 he
    simp

theorem busy_congr {m m' : Bufs} (h : m'.server = m.server) : Busy C m' ↔ Busy C m := by simp [Busy, h]

theorem countP_other {a b : Nat} (h : b ≠ a) (ts : List Thread) :
    (ts.map (Task.mk b)).countP (Task.live a) = 0 ∧ (ts.map (Task.mk b)).countP (Task.waiting a) = 0 := by
  constructor <;> rw [List.countP_eq_zero] <;> intro e he <;> obtain ⟨p, -, rfl⟩ := List.mem_map.1 he <;>
    simp [Task.live, Task.waiting, h]

theorem rdInv_act (hst : C.StatusOk st) (hlib : lib.Lawful) (hr : f.isRead = true) (ha : f.isAsync = true)
    (hreg : regs.lookup a = some (genHandler f)) {x : Act} (hx : ∀ bs, x ≠ .request a bs) {c c' : Cfg σ} (hI : RdInv C f a c)
    (h : act C lib U regs c x = some c') : RdInv C f a c' := by
  obtain ⟨hT, ⟨n, w, hR, h1, h2, h3⟩, hL⟩ := hI
  cases x with
  | poll b =>
    simp only [act] at h
    split at h
    · rename_i hrun hl
      simp only [Option.some.injEq] at h
      subst h
      rw [hrun] at hR
      cases hR
      refine ⟨hT, ?_, hL⟩
      by_cases hb : b = a
      · subst hb
        rw [hreg] at hl
        simp only [Option.some.injEq] at hl
        subst hl
        refine ⟨0, false, ?_, h1, h2, h3⟩
        have : (genHandler f).start = ⟨⟨(genHandler f).sig.names, none, none, false, none, none, none⟩, none, none, genAsyncReadBody f⟩ := by
          simp [Handler.start, genHandler, hr, ha]
        rw [this]
        exact .h0 _ _ _ _
      · exact ⟨0, false, .other _ hb, h1, h2, h3⟩
    · simp at h
  | endH =>
    simp only [act] at h
    split at h
    · rename_i r hrun
      split at h
      · rename_i b hcode hret
        simp only [Option.some.injEq] at h
        subst h
        have hlog : ∀ b, (c.log ++ [Ev.handled r.addr b]).countP (Ev.calledAt a) = c.log.countP (Ev.calledAt a)
            ∧ (c.log ++ [Ev.handled r.addr b]).countP (Ev.finishedAt a) = c.log.countP (Ev.finishedAt a) := by
          intro b; simp [Ev.calledAt, Ev.finishedAt]
        have hz : n = 0 ∧ w = false := by
          rw [hrun] at hR
          cases hR with
          | other _ _ => exact ⟨rfl, rfl⟩
          | h0 => simp [genAsyncReadBody_eq] at hcode
          | h1 => simp at hcode
          | h2 => simp at hcode
          | h3 => simp [readBlock] at hcode
          | h4 => simp at hcode
          | h5 => simp at hcode
          | h6 => exact ⟨rfl, rfl⟩
        refine ⟨fun t ht e => (hT t ht e).mono (fun r h => by simp [h]), ⟨0, false, .idle, ?_, ?_, ?_⟩, ?_⟩
        · exact by have := hz.1; simp only; omega
        · intro h; exact h2 (by simpa [hz.2] using h)
        · intro hn hb; simpa [hz.2] using h3 (NoNone.of_append hn) hb
        · simp only [hlog]; exact hL
      · simp at h
    · simp at h
  | stepH =>
    simp only [act] at h
    split at h
    · rename_i r hrun
      split at h
      · rename_i o ho
        simp only [Option.some.injEq] at h
        subst h
        rw [hrun] at hR
        by_cases hra : r.addr = a
        · obtain ⟨hcalls, n', w', hR', hcase⟩ := hR.step hst hlib hra ho
          rw [hra] at ho
          have hT' : ∀ t ∈ c.tasks, t.addr = a → RdTask f (fun r => .finished a f.id [] r ∈ c.log ++ []) t.thread :=
            fun t ht e => (hT t ht e).mono (fun r h => by simp [h])
          simp only [hcalls, List.map_nil, hra] at *
          rcases hcase with ⟨hb, hsp, hn, hw⟩ | ⟨hb, hsp, hn', hn, hw', hw, hbusy⟩ | ⟨hsp, hb, hn, hn', hw'⟩ | ⟨hb, hn, hw, hn', hw', t, hsp, htw, htc, htT⟩
          · subst hn hw
            simp only [hsp, Option.toList_none, List.map_nil, List.append_nil, hb]
            refine ⟨by simpa using hT', ⟨_, _, hR', h1, ?_, ?_⟩, hL⟩ <;> simp only [setMem_self] <;> assumption
          · subst hw
            have hlive : c.tasks.countP (Task.live a) = 0 := by
              cases hz : c.tasks.countP (Task.live a) with
              | zero => rfl
              | succ k => exact absurd (h2 (.inl (by omega))) hbusy
            simp only [hsp, Option.toList_none, List.map_nil, List.append_nil, hb]
            refine ⟨by simpa using hT', ⟨_, _, hR', by simp only; omega, ?_, ?_⟩, hL⟩ <;> simp only [setMem_self]
            · intro h
              rcases h with h | h
              · omega
              · simp [hw'] at h
            · intro _ hbz; exact absurd hbz hbusy
          · simp only [hsp, Option.toList_none, List.map_nil, List.append_nil]
            refine ⟨by simpa using hT', ⟨_, _, hR', by simp only; omega, ?_, ?_⟩, hL⟩ <;> simp only [setMem_self]
            · intro _; exact hb
            · intro _ _; exact .inr hw'
          · have hlive : c.tasks.countP (Task.live a) = 0 := by omega
            have hl1 : (c.tasks ++ [Task.mk a t]).countP (Task.live a) = 1 := by
              simp [hlive, Task.live, List.countP_append, htc]
            have hw1 : (c.tasks ++ [Task.mk a t]).countP (Task.waiting a) = c.tasks.countP (Task.waiting a) := by
              simp [Task.waiting, List.countP_append, htw]
            simp only [hsp, Option.toList_some, List.map_cons, List.map_nil, List.append_nil, hb]
            refine ⟨?_, ⟨_, _, hR', by simp only [hl1]; omega, ?_, ?_⟩, ?_⟩
            · intro x hx e
              rcases List.mem_append.1 hx with hx | hx
              · simpa using hT' x hx e
              · simp only [List.mem_singleton] at hx
                subst hx
                exact htT _
            · intro _; simp only [setMem_self]; exact h2 (.inr hw)
            · intro _ _; exact .inl (by simp only [hl1]; omega)
            · simp only [hw1]; exact hL
        · have hn : n = 0 ∧ w = false := by cases hR <;> simp_all
          have hc := countP_other hra o.spawned.toList
          have hlog := countP_called_other a r.addr hra o.calls
          have hmem : setMem c.mem r.addr o.bufs a = c.mem a := setMem_ne _ _ (Ne.symm hra)
          refine ⟨?_, ⟨0, false, .other _ hra, ?_, ?_, ?_⟩, ?_⟩
          · intro t ht e
            rcases List.mem_append.1 ht with ht | ht
            · exact (hT t ht e).mono (fun r h => by simp [h])
            · obtain ⟨y, -, rfl⟩ := List.mem_map.1 ht
              exact absurd e hra
          · simp only [List.countP_append, hc]; omega
          · simp only [List.countP_append, hc, hmem, Nat.add_zero]; intro h; exact h2 (by simpa [hn.2] using h)
          · simp only [List.countP_append, hc, hmem, Nat.add_zero]; intro hn' hb; simpa [hn.2] using h3 hn'.of_append hb
          · simp only [List.countP_append, hc, hlog]; omega
      · simp at h
    · simp at h
  | stepT i =>
    simp only [act] at h
    split at h
    · rename_i t ht
      obtain ⟨l1, l2, hl, hset⟩ := split_set ht
      split at h
      · simp at h
      · rename_i hwait
        split at h
        · rename_i o ho
          simp only [Option.some.injEq] at h
          subst h
          simp only [hset] at *
          by_cases hta : t.addr = a
          · have htm : t ∈ c.tasks := by rw [hl]; simp
            obtain ⟨hT1, hsp, hcode, hcase⟩ := (hT t htm hta).step hst hlib hwait ho
            have hlive : t.live a = true := by simp [Task.live, hta, hcode]
            have hnw : t.waiting a = false := by simp [Task.waiting, hwait]
            simp only [hsp, Option.toList_none, List.map_nil, List.append_nil]
            have hT' : ∀ x ∈ l1 ++ { t with thread := o.thread } :: l2, x.addr = a →
                RdTask f (fun r => .finished a f.id [] r ∈ c.log ++ o.calls.map (fun p => .called t.addr p.1 p.2)) x.thread := by
              intro x hx e
              simp only [List.mem_append, List.mem_cons] at hx
              rcases hx with hx | rfl | hx
              · exact (hT x (by simp [hl, hx]) e).mono (fun r h => by simp [h])
              · exact hT1.mono (fun r h => by simp [h])
              · exact (hT x (by simp [hl, hx]) e).mono (fun r h => by simp [h])
            simp only [hl, List.countP_append, List.countP_cons, hlive, hnw, if_true] at h1 h2 h3 hL
            refine ⟨hT', ⟨n, w, hR, ?_⟩, ?_⟩
            · simp only [hta, setMem_self, List.countP_append, List.countP_cons]
              rcases hcase with ⟨hb, hc, hw', hcd⟩ | ⟨hb, hc, hw', hcd⟩ | ⟨hb, hc, hw', hcd⟩ | ⟨hb, hc, hw', hcd, hR0⟩
              · have : Task.live a ⟨a, o.thread⟩ = true := by simp [Task.live, hcd]
                simp only [this, if_true, hc, List.map_nil, List.append_nil]
                rw [hta] at *
                exact ⟨h1, fun h => (busy_congr hb).2 (h2 (by simpa using h)), fun hn h => by simpa using h3 hn ((busy_congr hb).1 h)⟩
              · have : Task.live a ⟨a, o.thread⟩ = true := by simp [Task.live, hcd]
                simp only [this, if_true]
                rw [hta] at *
                exact ⟨h1, fun h => (busy_congr hb).2 (h2 (by simpa using h)), fun hn h => by
                  simpa using h3 hn.of_append ((busy_congr hb).1 h)⟩
              · have : Task.live a ⟨a, o.thread⟩ = false := by simp [Task.live, hcd]
                simp only [this, Bool.false_eq_true, if_false, hc, List.map_nil, List.append_nil]
                have hw0 : w = false := by
                  cases hw : w with
                  | false => rfl
                  | true => have := hR.marked hw; omega
                refine ⟨by omega, fun h => ?_, fun _ h => absurd h (not_busy_of_free hb)⟩
                rcases h with h | h
                · omega
                · simp [hw0] at h
              · have : Task.live a ⟨a, o.thread⟩ = false := by simp [Task.live, hcd]
                simp only [this, Bool.false_eq_true, if_false, hc, List.map_nil, List.append_nil]
                have hw0 : w = false := by
                  cases hw : w with
                  | false => rfl
                  | true => have := hR.marked hw; omega
                refine ⟨by omega, fun h => ?_, fun hn h => ?_⟩
                · rcases h with h | h
                  · omega
                  · simp [hw0] at h
                · exact absurd rfl (hn _ hR0 _ _)
            · simp only [hta, List.countP_append, List.countP_cons]
              rcases hcase with ⟨hb, hc, hw', hcd⟩ | ⟨hb, hc, hw', hcd⟩ | ⟨hb, hc, hw', hcd⟩ | ⟨hb, hc, hw', hcd, hR0⟩
              · simp only [hc, List.map_nil, List.countP_nil, Task.waiting, hw']; simp at hL ⊢; omega
              · have : o.thread.wait.isSome = true := by rw [Option.isSome_iff_ne_none]; exact hw'
                simp only [hc, List.map_cons, List.map_nil, List.countP_cons, List.countP_nil, Ev.calledAt, Ev.finishedAt, Task.waiting, this]
                simp at hL ⊢; omega
              · simp only [hc, List.map_nil, List.countP_nil, Task.waiting, hw']; simp at hL ⊢; omega
              · simp only [hc, List.map_nil, List.countP_nil, Task.waiting, hw']; simp at hL ⊢; omega
          · have hc := countP_other hta o.spawned.toList
            have hlog := countP_called_other a t.addr hta o.calls
            have hmem : setMem c.mem t.addr o.bufs a = c.mem a := setMem_ne _ _ (Ne.symm hta)
            have e1 : ∀ th, Task.live a ⟨t.addr, th⟩ = false := by intro th; simp [Task.live, hta]
            have e2 : ∀ th, Task.waiting a ⟨t.addr, th⟩ = false := by intro th; simp [Task.waiting, hta]
            have e3 : t.live a = false := e1 t.thread
            have e4 : t.waiting a = false := e2 t.thread
            simp only [hl, List.countP_append, List.countP_cons, e3, e4] at h1 h2 h3 hL
            refine ⟨?_, ⟨n, w, hR, ?_, ?_, ?_⟩, ?_⟩
            · intro x hx e
              simp only [List.mem_append, List.mem_cons, List.mem_map] at hx
              rcases hx with (hx | rfl | hx) | ⟨y, -, rfl⟩
              · exact (hT x (by simp [hl, hx]) e).mono (fun r h => by simp [h])
              · exact absurd e hta
              · exact (hT x (by simp [hl, hx]) e).mono (fun r h => by simp [h])
              · exact absurd e hta
            · simp only [List.countP_append, List.countP_cons, hc, e1]; omega
            · simp only [List.countP_append, List.countP_cons, hc, e1, hmem]; exact h2
            · simp only [List.countP_append, List.countP_cons, hc, e1, hmem]; intro hn hb; exact h3 hn.of_append hb
            · simp only [List.countP_append, List.countP_cons, hc, e2, hlog]; omega
        · simp at h
    · simp at h
  | resume i r =>
    simp only [act] at h
    split at h
    · rename_i t ht
      obtain ⟨l1, l2, hl, hset⟩ := split_set ht
      split at h
      · rename_i res g xs hwait
        simp only [Option.some.injEq] at h
        subst h
        simp only [hset] at *
        have hmono : ∀ x, x ∈ c.tasks → x.addr = a →
            RdTask f (fun r' => .finished a f.id [] r' ∈ c.log ++ [.finished t.addr g xs r]) x.thread :=
          fun x hx e => (hT x hx e).mono (fun r h => by simp [h])
        by_cases hta : t.addr = a
        · have htm : t ∈ c.tasks := by rw [hl]; simp
          have h0 := hT t htm hta
          obtain ⟨ta, tt⟩ := t
          simp only at hta hwait h0
          subst hta
          cases h0 with
          | t1 fr ou =>
            simp only [Option.some.injEq, Prod.mk.injEq] at hwait
            obtain ⟨rfl, rfl, rfl⟩ := hwait
            have e1 : ∀ fr o w s, Task.live ta ⟨ta, ⟨fr, o, w, [.blank, s]⟩⟩ = true := by intros; simp [Task.live]
            have e2 : Task.waiting ta ⟨ta, ⟨fr, ou, some (true, f.id, []), [.blank, .ifResult (readTail f)]⟩⟩ = true := by simp [Task.waiting]
            have e3 : ∀ fr o s, Task.waiting ta ⟨ta, ⟨fr, o, none, s⟩⟩ = false := by intros; simp [Task.waiting]
            simp only [hl, List.countP_append, List.countP_cons, e1, e2] at h1 h2 h3 hL
            refine ⟨?_, ⟨n, w, hR, ?_, ?_, ?_⟩, ?_⟩
            · intro x hx e
              simp only [List.mem_append, List.mem_cons] at hx
              rcases hx with hx | rfl | hx
              · exact hmono x (by simp [hl, hx]) e
              · exact .t2 _ _ r rfl (by simp)
              · exact hmono x (by simp [hl, hx]) e
            · simp only [List.countP_append, List.countP_cons, e1]; exact h1
            · simp only [List.countP_append, List.countP_cons, e1]; exact h2
            · simp only [List.countP_append, List.countP_cons, e1]; intro hn; exact h3 hn.of_append
            · simp only [List.countP_append, List.countP_cons, e3]
              simp [Ev.calledAt, Ev.finishedAt] at hL ⊢; omega
          | _ => simp at hwait
        · have e1 : ∀ th, Task.live a ⟨t.addr, th⟩ = false := by intro th; simp [Task.live, hta]
          have e2 : ∀ th, Task.waiting a ⟨t.addr, th⟩ = false := by intro th; simp [Task.waiting, hta]
          have e3 : t.live a = false := e1 t.thread
          have e4 : t.waiting a = false := e2 t.thread
          simp only [hl, List.countP_append, List.countP_cons, e3, e4] at h1 h2 h3 hL
          refine ⟨?_, ⟨n, w, hR, ?_, ?_, ?_⟩, ?_⟩
          · intro x hx e
            simp only [List.mem_append, List.mem_cons] at hx
            rcases hx with hx | rfl | hx
            · exact hmono x (by simp [hl, hx]) e
            · exact absurd e hta
            · exact hmono x (by simp [hl, hx]) e
          · simp only [List.countP_append, List.countP_cons, e1]; exact h1
          · simp only [List.countP_append, List.countP_cons, e1]; exact h2
          · simp only [List.countP_append, List.countP_cons, e1]; intro hn; exact h3 hn.of_append
          · simp only [List.countP_append, List.countP_cons, e2]
            simp [Ev.calledAt, Ev.finishedAt, hta] at hL ⊢; omega
      · simp at h
    · simp at h
  | request b bs =>
    simp only [act, Option.some.injEq] at h
    subst h
    have hb : a ≠ b := fun e => hx bs (by rw [e])
    refine ⟨fun t ht e => (hT t ht e).mono (fun r h => by simp [h]), ⟨n, w, hR, h1, by simpa [setMem_ne _ _ hb] using h2, ?_⟩, ?_⟩
    · simp only [setMem_ne _ _ hb]
      exact fun hn => h3 hn.of_append
    · simpa [Ev.calledAt, Ev.finishedAt] using hL
  | clear b bs =>
    simp only [act, Option.some.injEq] at h
    subst h
    refine ⟨hT, ⟨n, w, hR, h1, ?_⟩, hL⟩
    have : ∀ m, Busy C (setMem c.mem b { c.mem b with client := m } a) ↔ Busy C (c.mem a) := by
      intro m
      refine busy_congr ?_
      unfold setMem
      split
      · rename_i e; rw [e]
      · rfl
    simp only [this]
    exact ⟨h2, h3⟩

/-- The status byte of the method can be read. -/
def Known (C : Codec) (m : Bufs) : Prop := Busy C m ∨ Free C m

theorem free_congr {m m' : Bufs} (h : m'.server = m.server) : Free C m' ↔ Free C m := by simp [Free, h]
theorem known_congr {m m' : Bufs} (h : m'.server = m.server) : Known C m' ↔ Known C m := by simp [Known, busy_congr h, free_congr h]

theorem setMem_client (mem : Nat → Bufs) (b : Nat) (x : Bytes) : (setMem mem b { mem b with client := x } a).server = (mem a).server := by
  unfold setMem
  split
  · rename_i e; rw [e]
  · rfl

theorem known_act (hst : C.StatusOk st) (hlib : lib.Lawful) {x : Act} (hx : ∀ bs, x ≠ .request a bs) {c c' : Cfg σ} (hI : RdInv C f a c)
    (hK : Known C (c.mem a)) (h : act C lib U regs c x = some c') : Known C (c'.mem a) := by
  obtain ⟨hT, ⟨n, w, hR, h1, h2, h3⟩, hL⟩ := hI
  cases x with
  | poll b =>
    simp only [act] at h
    split at h
    · simp only [Option.some.injEq] at h; subst h; exact hK
    · simp at h
  | endH =>
    simp only [act] at h
    split at h
    · split at h
      · simp only [Option.some.injEq] at h; subst h; exact hK
      · simp at h
    · simp at h
  | stepH =>
    simp only [act] at h
    split at h
    · rename_i r hrun
      split at h
      · rename_i o ho
        simp only [Option.some.injEq] at h
        subst h
        rw [hrun] at hR
        by_cases hra : r.addr = a
        · obtain ⟨hcalls, n', w', hR', hcase⟩ := hR.step hst hlib hra ho
          rw [hra] at hcase
          simp only [hra, setMem_self]
          rcases hcase with ⟨hb, -⟩ | ⟨hb, -⟩ | ⟨-, hb, -⟩ | ⟨hb, -⟩
          · rw [hb]; exact hK
          · rw [hb]; exact hK
          · exact .inl hb
          · rw [hb]; exact hK
        · simp only [setMem_ne _ _ (Ne.symm hra)]; exact hK
      · simp at h
    · simp at h
  | stepT i =>
    simp only [act] at h
    split at h
    · rename_i t ht
      split at h
      · simp at h
      · rename_i hwait
        split at h
        · rename_i o ho
          simp only [Option.some.injEq] at h
          subst h
          by_cases hta : t.addr = a
          · obtain ⟨hT1, hsp, hcode, hcase⟩ := (hT t (List.mem_of_getElem? ht) hta).step hst hlib hwait ho
            rw [hta] at hcase
            simp only [hta, setMem_self]
            rcases hcase with ⟨hb, -⟩ | ⟨hb, -⟩ | ⟨hb, -⟩ | ⟨hb, -⟩
            · exact (known_congr hb).2 hK
            · exact (known_congr hb).2 hK
            · exact .inr hb
            · exact (known_congr hb).2 hK
          · simp only [setMem_ne _ _ (Ne.symm hta)]; exact hK
        · simp at h
    · simp at h
  | resume i r =>
    simp only [act] at h
    split at h
    · split at h
      · simp only [Option.some.injEq] at h; subst h; exact hK
      · simp at h
    · simp at h
  | request b bs =>
    simp only [act, Option.some.injEq] at h
    subst h
    have hb : a ≠ b := fun e => hx bs (by rw [e])
    simp only [setMem_ne _ _ hb]; exact hK
  | clear b bs =>
    simp only [act, Option.some.injEq] at h
    subst h
    refine (known_congr ?_).2 hK
    exact setMem_client _ _ _

/-- The method is marked as busy but nothing will mark it as free. -/
def Dead (C : Codec) (f : FnNode) (a : Nat) (c : Cfg σ) : Prop :=
  RdRun f a c.run 0 false ∧ c.tasks.countP (Task.live a) = 0 ∧ Busy C (c.mem a)

/-- Then the user's function is never called again. -/
theorem dead_act (hst : C.StatusOk st) (hlib : lib.Lawful) (hr : f.isRead = true) (ha : f.isAsync = true)
    (hreg : regs.lookup a = some (genHandler f)) {x : Act} (hx : ∀ bs, x ≠ .request a bs) {c c' : Cfg σ} (hI : RdInv C f a c)
    (hD : Dead C f a c) (h : act C lib U regs c x = some c') :
    Dead C f a c' ∧ c'.log.countP (Ev.calledAt a) = c.log.countP (Ev.calledAt a) := by
  obtain ⟨hR, hlv, hbusy⟩ := hD
  have hnl : ∀ t ∈ c.tasks, t.addr = a → t.thread.code = [] := by
    intro t ht e
    have := List.countP_eq_zero.1 hlv t ht
    simpa [Task.live, e] using this
  cases x with
  | poll b =>
    simp only [act] at h
    split at h
    · rename_i hrun hl
      simp only [Option.some.injEq] at h
      subst h
      refine ⟨⟨?_, hlv, hbusy⟩, rfl⟩
      by_cases hb : b = a
      · subst hb
        rw [hreg] at hl
        simp only [Option.some.injEq] at hl
        subst hl
        have : (genHandler f).start = ⟨⟨(genHandler f).sig.names, none, none, false, none, none, none⟩, none, none, genAsyncReadBody f⟩ := by
          simp [Handler.start, genHandler, hr, ha]
        rw [this]
        exact .h0 _ _ _ _
      · exact .other _ hb
    · simp at h
  | endH =>
    simp only [act] at h
    split at h
    · split at h
      · simp only [Option.some.injEq] at h; subst h
        exact ⟨⟨.idle, hlv, hbusy⟩, by simp [Ev.calledAt]⟩
      · simp at h
    · simp at h
  | stepH =>
    simp only [act] at h
    split at h
    · rename_i r hrun
      split at h
      · rename_i o ho
        simp only [Option.some.injEq] at h
        subst h
        rw [hrun] at hR
        by_cases hra : r.addr = a
        · obtain ⟨hcalls, n', w', hR', hcase⟩ := hR.step hst hlib hra ho
          rw [hra] at hcase
          rcases hcase with ⟨hb, hsp, rfl, rfl⟩ | ⟨hb, hsp, -, -, -, -, hnb⟩ | ⟨-, -, hn, -⟩ | ⟨-, hn, -⟩
          · refine ⟨⟨hR', by simpa [hsp] using hlv, ?_⟩, by simp [hcalls]⟩
            simp only [hra, setMem_self, hb]; exact hbusy
          · exact absurd hbusy hnb
          · simp at hn
          · simp at hn
        · have hc := countP_other hra o.spawned.toList
          have hlog := countP_called_other a r.addr hra o.calls
          refine ⟨⟨.other _ hra, ?_, ?_⟩, ?_⟩
          · simp only [List.countP_append, hc, hlv]
          · simp only [setMem_ne _ _ (Ne.symm hra)]; exact hbusy
          · simp only [List.countP_append, hlog]; rfl
      · simp at h
    · simp at h
  | stepT i =>
    simp only [act] at h
    split at h
    · rename_i t ht
      obtain ⟨l1, l2, hl, hset⟩ := split_set ht
      split at h
      · simp at h
      · rename_i hwait
        split at h
        · rename_i o ho
          simp only [Option.some.injEq] at h
          subst h
          by_cases hta : t.addr = a
          · have hz := hnl t (List.mem_of_getElem? ht) hta
            simp [step, hz] at ho
          · have hc := countP_other hta o.spawned.toList
            have hlog := countP_called_other a t.addr hta o.calls
            have e1 : ∀ th, Task.live a ⟨t.addr, th⟩ = false := by intro th; simp [Task.live, hta]
            have e3 : t.live a = false := e1 t.thread
            refine ⟨⟨hR, ?_, ?_⟩, ?_⟩
            · simp only [hl, List.countP_append, List.countP_cons, e3] at hlv
              simp only [hset, List.countP_append, List.countP_cons, hc, e1]; omega
            · simp only [setMem_ne _ _ (Ne.symm hta)]; exact hbusy
            · simp only [List.countP_append, hlog]; rfl
        · simp at h
    · simp at h
  | resume i r =>
    simp only [act] at h
    split at h
    · rename_i t ht
      obtain ⟨l1, l2, hl, hset⟩ := split_set ht
      split at h
      · rename_i hwait
        simp only [Option.some.injEq] at h
        subst h
        by_cases hta : t.addr = a
        · have hz := hnl t (List.mem_of_getElem? ht) hta
          have := hI.tasks t (List.mem_of_getElem? ht) hta
          obtain ⟨ta, tt⟩ := t
          simp only at hz hwait this
          cases this <;> simp_all
        · have e1 : ∀ th, Task.live a ⟨t.addr, th⟩ = false := by intro th; simp [Task.live, hta]
          have e3 : t.live a = false := e1 t.thread
          refine ⟨⟨hR, ?_, hbusy⟩, by simp [Ev.calledAt]⟩
          simp only [hl, List.countP_append, List.countP_cons, e3] at hlv
          simp only [hset, List.countP_append, List.countP_cons, e1]; omega
      · simp at h
    · simp at h
  | request b bs =>
    simp only [act, Option.some.injEq] at h
    subst h
    have hb : a ≠ b := fun e => hx bs (by rw [e])
    exact ⟨⟨hR, hlv, by simp only [setMem_ne _ _ hb]; exact hbusy⟩, by simp [Ev.calledAt]⟩
  | clear b bs =>
    simp only [act, Option.some.injEq] at h
    subst h
    refine ⟨⟨hR, hlv, (busy_congr ?_).2 hbusy⟩, rfl⟩
    exact setMem_client _ _ _

/-- A run of the handler when no call is in flight: it marks the method as busy and spawns a future that
calls the function. -/
theorem read_run (hst : C.StatusOk st) (hr : f.isRead = true) (ha : f.isAsync = true) {m : Bufs} {u : σ} (hfree : Free C m) :
    ∃ t, runHandler C lib U (genHandler f) m u = .ok ⟨{ m with server := lib m.server (st .xFF) }, u, [], [t], true⟩ ∧
      t.wait = none ∧ ∀ (m' : Bufs) (u' : σ), f.id ∉ ["scope_id", "runtime_as_mut", "memory", "async_context", "rpc_method_address", "args", "is_busy"] →
        step C lib U m' u' t = .ok ⟨m', u', { t with wait := some (true, f.id, []), code := [.blank, .ifResult (readTail f)] }, [(f.id, [])], none⟩ := by
  obtain ⟨n, b, hs, hn⟩ := hfree
  have hn' : (decide (n = ((Status.xFF.val : Nat) : Int))) = false := decide_eq_false hn
  refine ⟨⟨(⟨["is_busy", "scope_id", "runtime_as_mut", "memory", "async_context", "rpc_method_address"], none, none, false, some false, none, none⟩ : Frame).captured,
    none, none, readFut f⟩, ?_, rfl, ?_⟩
  · have e1 := (hst .xFF).1
    simp only [runHandler, genHandler, hr, ha, if_true, genAsyncReadBody_eq, readBlock, readFut, readTail, Handler.start,
      stmtsSize, Stmt.size, Sig.names, Nat.reduceAdd]
    simp only [runThread, step, Bufs.get, hs, bind, Except.bind, hn', Thread.enter, evalBufWs, evalBufW, e1, orElse,
      List.mem_cons, List.not_mem_nil, or_false, true_or, or_true, if_true, Bufs.set, List.append_nil, List.nil_append,
      Option.toList_none, Option.toList_some, RetE.eval, Option.getD_none, Option.getD_some, Bool.not_false]
  · intro m' u' hid
    simp only [List.mem_cons, List.not_mem_nil, or_false, not_or] at hid
    obtain ⟨i1, i2, i3, i4, i5, i6, i7⟩ := hid
    have e : f.id ∉ ((⟨["is_busy", "scope_id", "runtime_as_mut", "memory", "async_context", "rpc_method_address"], none, none, false, some false, none, none⟩ : Frame).captured).names := by
      intro h
      have := List.mem_of_mem_erase h
      simp [i1, i2, i3, i4, i5, i7] at this
    simp only [step, readFut, e, if_false, callArgs, bind, Except.bind, if_true]

/-- The same, with the variables of the future. -/
theorem read_run_names (hst : C.StatusOk st) (hr : f.isRead = true) (ha : f.isAsync = true) {m : Bufs} {u : σ} (hfree : Free C m) :
    ∃ t, runHandler C lib U (genHandler f) m u = .ok ⟨{ m with server := lib m.server (st .xFF) }, u, [], [t], true⟩ ∧
      t.wait = none ∧ t.frame.names = ["is_busy", "scope_id", "runtime_as_mut", "async_context", "rpc_method_address"] ∧ t.code = readFut f := by
  obtain ⟨n, b, hs, hn⟩ := hfree
  have hn' : (decide (n = ((Status.xFF.val : Nat) : Int))) = false := decide_eq_false hn
  refine ⟨⟨(⟨["is_busy", "scope_id", "runtime_as_mut", "memory", "async_context", "rpc_method_address"], none, none, false, some false, none, none⟩ : Frame).captured,
    none, none, readFut f⟩, ?_, rfl,
    (by decide : ["is_busy", "scope_id", "runtime_as_mut", "memory", "async_context", "rpc_method_address"].erase "memory"
      = ["is_busy", "scope_id", "runtime_as_mut", "async_context", "rpc_method_address"]), rfl⟩
  have e1 := (hst .xFF).1
  simp only [runHandler, genHandler, hr, ha, if_true, genAsyncReadBody_eq, readBlock, readFut, readTail, Handler.start,
    stmtsSize, Stmt.size, Sig.names, Nat.reduceAdd]
  simp only [runThread, step, Bufs.get, hs, bind, Except.bind, hn', Thread.enter, evalBufWs, evalBufW, e1, orElse,
    List.mem_cons, List.not_mem_nil, or_false, true_or, or_true, if_true, Bufs.set, List.append_nil, List.nil_append,
    Option.toList_none, Option.toList_some, RetE.eval, Option.getD_none, Option.getD_some, Bool.not_false]

/-- A run of the handler while a call is in flight. -/
theorem read_run_busy (hr : f.isRead = true) (ha : f.isAsync = true) {m : Bufs} {u : σ} (h : Busy C m) :
    runHandler C lib U (genHandler f) m u = .ok ⟨m, u, [], [], false⟩ := by
  obtain ⟨b, hs⟩ := h
  have hn' : (decide ((255 : Int) = ((Status.xFF.val : Nat) : Int))) = true := by decide
  simp only [runHandler, genHandler, hr, ha, if_true, genAsyncReadBody_eq, readBlock, readFut, readTail, Handler.start,
    stmtsSize, Stmt.size, Sig.names, Nat.reduceAdd]
  simp only [runThread, step, Bufs.get, hs, bind, Except.bind, hn', List.nil_append,
    Option.toList_none, RetE.eval, Option.getD_none, Bool.not_true]

end
end TPB.Rust
