/-
The server of an asynchronous method of which at most one request is outstanding at any time.
-/
import Verif.Spec.RpcSequential
import Verif.Proofs.RustRpcReq
namespace TPB.Rust
open Spec

theorem executed_append (a : Nat) (l m : List Ev) : executed a (l ++ m) = executed a l ++ executed a m := List.filterMap_append

theorem executed_calls (a b : Nat) (cs : List (String × List Val)) :
    executed a (cs.map (fun p => Ev.called b p.1 p.2)) = if b = a then cs else [] := by
  induction cs with
  | nil => simp [executed]
  | cons c cs ih =>
    simp only [executed, List.map_cons, List.filterMap_cons, Ev.execution] at ih ⊢
    by_cases hb : b = a
    · simp only [hb, if_true] at ih ⊢
      rw [ih]
    · simp only [hb, if_false] at ih ⊢
      exact ih

theorem outcomes_append (a : Nat) (l m : List Ev) : outcomes a (l ++ m) = outcomes a l ++ outcomes a m := List.filterMap_append

theorem outcomes_calls (a b : Nat) (cs : List (String × List Val)) : outcomes a (cs.map (fun p => Ev.called b p.1 p.2)) = [] := by
  induction cs with
  | nil => rfl
  | cons c cs ih =>
    simp only [outcomes, List.map_cons, List.filterMap_cons, Ev.outcome] at ih ⊢
    exact ih

/-- What has been yielded is in the log. -/
theorem mem_outcomes {a : Nat} {log : List Ev} {g : String} {vs : List Val} {r : Ret} (h : (g, vs, r) ∈ outcomes a log) :
    Ev.finished a g vs r ∈ log := by
  obtain ⟨e, he, h⟩ := List.mem_filterMap.1 h
  cases e <;> simp only [Ev.outcome] at h <;> try (simp at h; done)
  split at h
  · rename_i e
    simp only [Option.some.injEq, Prod.mk.injEq] at h
    obtain ⟨rfl, rfl, rfl⟩ := h
    exact e ▸ he
  · simp at h

section
variable {σ : Type} {C : Codec} {lib : BufLib} {U : User σ} {st : Status → Bytes} {f : FnNode} {a : Nat}
  {regs : List (Nat × Handler)}

/-- How far a future is: it has not called the user's function yet, it waits for its result, it has the result. -/
inductive Stage where
  | before
  | waiting
  | yielded (r : Ret)

/-- The states of a future that has not ended. -/
inductive Future (f : FnNode) (q : Rq) : Stage → Thread → Prop
  | t0 (fr o) : HasArgs f q fr → Future f q .before ⟨fr, o, none, rqFut f⟩
  | t1 (fr o) : HasArgs f q fr → Future f q .before ⟨fr, o, none, [genCall f, .blank, answerW f]⟩
  | t2 (fr o) : HasArgs f q fr → Future f q .waiting ⟨fr, o, some (f.returnTypeId.isSome, f.id, q.2), [.blank, answerW f]⟩
  | t3 (fr o r) : HasArgs f q fr → (f.returnTypeId.isSome = true → fr.result = some r) →
      Future f q (.yielded r) ⟨fr, o, none, [.blank, answerW f]⟩
  | t4 (fr o r) : HasArgs f q fr → (f.returnTypeId.isSome = true → fr.result = some r) →
      Future f q (.yielded r) ⟨fr, o, none, [answerW f]⟩

/-- Where the one outstanding request is: there is none yet, it is in the server buffer, the handler has read
it, the handler has consumed it, a future executes it, it has been answered. -/
inductive Phase where
  | idle
  | posted (q : Rq)
  | read (q : Rq)
  | taken (q : Rq)
  | running (q : Rq) (g : Stage)
  | answered (q : Rq) (r : Ret)

def Phase.hold : Phase → Hold
  | .read q => .unacked q
  | .taken q => .acked q
  | _ => .no

def Phase.buf : Phase → Option Rq
  | .posted q => some q
  | .read q => some q
  | _ => none

/-- The request. -/
def Phase.rq : Phase → Option Rq
  | .idle => none
  | .posted q => some q
  | .read q => some q
  | .taken q => some q
  | .running q _ => some q
  | .answered q _ => some q

/-- How far the request is. -/
def Phase.rank : Phase → Nat
  | .idle => 0
  | .posted _ => 1
  | .read _ => 2
  | .taken _ => 3
  | .running _ .before => 4
  | .running _ .waiting => 5
  | .running _ (.yielded _) => 6
  | .answered _ _ => 7

/-- The call of the function for this request, if it has been made. -/
def Phase.started (f : FnNode) : Phase → List (String × List Val)
  | .running _ .before => []
  | .running q _ => [(f.id, q.2)]
  | .answered q _ => [(f.id, q.2)]
  | _ => []

/-- Its result, if it has been yielded. -/
def Phase.result (f : FnNode) : Phase → List (String × List Val × Ret)
  | .running q (.yielded r) => [(f.id, q.2, r)]
  | .answered q r => [(f.id, q.2, r)]
  | _ => []

/-- The request with its result, if it has been answered. -/
def Phase.closed : Phase → List (Rq × Ret)
  | .answered q r => [(q, r)]
  | _ => []

/-- No future at `a` has anything left to do. -/
def AllEnded (a : Nat) (ts : List Task) : Prop := ∀ t ∈ ts, t.addr = a → t.thread.code = [] ∧ t.thread.wait = none

def Phase.Tasks (f : FnNode) (a : Nat) (ts : List Task) : Phase → Prop
  | .running q g => ∃ l1 t l2, ts = l1 ++ t :: l2 ∧ t.addr = a ∧ Future f q g t.thread ∧ AllEnded a (l1 ++ l2)
  | _ => AllEnded a ts

/-- The client buffer begins with an answer to `q` with the result `r`. -/
def AnswerTo (C : Codec) (st : Status → Bytes) (f : FnNode) (cl : Bytes) (q : Rq) (r : Ret) : Prop :=
  ∃ i mb rb rest, q.1 = some i ∧ C.prim "i64" (.int i) = some mb ∧ ResultBytes C f r rb ∧ cl = st .xFF ++ (mb ++ (rb ++ rest))

def Phase.Client (C : Codec) (st : Status → Bytes) (f : FnNode) (prev : List (Rq × Ret)) (cl : Bytes) : Phase → Prop
  | .answered q r => AnswerTo C st f cl q r
  | _ => ¬ Ready C cl ∨ ∃ p ∈ prev, AnswerTo C st f cl p.1 p.2

/-- `prev` are the earlier requests with their results: all of them have been executed and answered. -/
structure Solo (C : Codec) (st : Status → Bytes) (f : FnNode) (a : Nat) (Q : Rq → Bytes → Prop) (prev : List (Rq × Ret)) (ph : Phase) (c : Cfg σ) : Prop where
  run : RqRun f a c.run ph.hold
  buf : Holds C Q (c.mem a) ph.buf
  tasks : ph.Tasks f a c.tasks
  client : ph.Client C st f prev (c.mem a).client
  calls : executed a c.log = prev.map (fun p => (f.id, p.1.2)) ++ ph.started f
  results : outcomes a c.log = prev.map (fun p => (f.id, p.1.2, p.2)) ++ ph.result f

/-- What can become of a phase without a new request. -/
def Phase.Next (ph ph' : Phase) : Prop := ph'.rq = ph.rq ∧ (ph.closed ≠ [] → ph' = ph) ∧ ph.rank ≤ ph'.rank

theorem Phase.Next.refl (ph : Phase) : ph.Next ph := ⟨rfl, fun _ => rfl, Nat.le_refl _⟩

/-- A step of a future. -/
theorem Future.step (hst : C.StatusOk st) (hlib : lib.Lawful) (ha : f.isAsync = true) (hn : ((argsOf f).map (·.1)).Nodup)
    (hi : "__method_id__" ∉ (argsOf f).map (·.1)) {q : Rq} {g : Stage} {t : Thread} (h : Future f q g t) (hw : t.wait = none)
    {m : Bufs} {u : σ} {o : Out σ} (hs : Rust.step C lib U m u t = .ok o) :
    o.spawned = none ∧
    ((o.bufs = m ∧ ∃ g', Future f q g' o.thread ∧
        ((o.calls = [] ∧ g' = g) ∨ (o.calls = [(f.id, q.2)] ∧ g = .before ∧ g' = .waiting))) ∨
     (o.thread.code = [] ∧ o.thread.wait = none ∧ o.calls = [] ∧ o.bufs.server = m.server ∧
        ∃ r, g = .yielded r ∧ AnswerTo C st f o.bufs.client q r)) := by
  cases h with
  | t0 fr ou h =>
    simp only [Rust.step, rqFut] at hs
    split at hs
    · simp only [Except.ok.injEq] at hs
      subst hs
      exact ⟨rfl, .inl ⟨rfl, _, .t1 _ _ h, .inl ⟨rfl, rfl⟩⟩⟩
    · simp at hs
  | t1 fr ou h =>
    simp only [Rust.step, genCall] at hs
    split at hs
    · simp at hs
    · rw [callArgs_val h.1.1 h.1.2 hn hi h.2.1] at hs
      simp only [ha, bind, Except.bind, if_true, Except.ok.injEq] at hs
      subst hs
      exact ⟨rfl, .inl ⟨rfl, _, .t2 _ _ h, .inr ⟨rfl, rfl, rfl⟩⟩⟩
  | t2 => simp at hw
  | t3 fr ou r h h1 =>
    simp only [Rust.step, Except.ok.injEq] at hs
    subst hs
    exact ⟨rfl, .inl ⟨rfl, _, .t4 _ _ r h h1, .inl ⟨rfl, rfl⟩⟩⟩
  | t4 fr ou r h h1 =>
    simp only [Rust.step, answerW] at hs
    split at hs
    · obtain ⟨i, hq⟩ : ∃ i, q.1 = some i := by
        have := h.1.1
        rw [ha, Option.isSome_iff_exists] at this
        exact this
      have hf : field (argsVal f q.1 q.2) "__method_id__" = .ok (.int i) := by
        simp [field, argsVal, named, fieldsOf_argsNode, ha, orElse, hq]
      simp only [evalBufWs, evalBufW, (hst .xFF).1, h.2.1, orElse, bind, Except.bind, hf] at hs
      cases hmb : C.prim "i64" (.int i) with
      | none => simp [hmb] at hs
      | some mb =>
        cases hrb : evalBufWs C fr (genResults f) with
        | error e => simp [hmb, hrb] at hs
        | ok rb =>
          simp only [hmb, hrb, Except.ok.injEq] at hs
          subst hs
          refine ⟨rfl, .inr ⟨rfl, rfl, rfl, rfl, r, rfl, ?_⟩⟩
          obtain ⟨rest, hrest⟩ := hlib m.client (st .xFF ++ (mb ++ rb))
          refine ⟨i, mb, rb, rest, hq, hmb, evalResults_inv h.2.2 h1 hrb, ?_⟩
          simp only [Bufs.set, Bufs.get, hrest, List.append_assoc]
    · simp at hs

theorem AllEnded.insert {l1 l2 : List Task} {t : Task} (h : AllEnded a (l1 ++ l2)) (ht : t.addr = a → t.thread.code = [] ∧ t.thread.wait = none) :
    AllEnded a (l1 ++ t :: l2) := by
  intro x hx e
  simp only [List.mem_append, List.mem_cons] at hx
  rcases hx with hx | rfl | hx
  · exact h x (by simp [hx]) e
  · exact ht e
  · exact h x (by simp [hx]) e

/-- A change of a task of another method. -/
theorem Phase.Tasks.other {l1 l2 : List Task} {t t' : Task} {new : List Task} {ph : Phase} (h : ph.Tasks f a (l1 ++ t :: l2))
    (ht : t.addr ≠ a) (ht' : t'.addr ≠ a) (hnew : ∀ x ∈ new, x.addr ≠ a) : ph.Tasks f a ((l1 ++ t' :: l2) ++ new) := by
  have hall : ∀ k1 k2 : List Task, AllEnded a (k1 ++ t :: k2) → AllEnded a ((k1 ++ t' :: k2) ++ new) := by
    intro k1 k2 h x hx e
    simp only [List.mem_append, List.mem_cons] at hx
    rcases hx with (hx | rfl | hx) | hx
    · exact h x (by simp [hx]) e
    · exact absurd e ht'
    · exact h x (by simp [hx]) e
    · exact absurd e (hnew x hx)
  cases ph with
  | running q b =>
    obtain ⟨k1, w, k2, e, h2, h3, h6⟩ := h
    rcases List.append_eq_append_iff.1 e with ⟨as, e1, e2⟩ | ⟨bs, e1, e2⟩
    · cases as with
      | nil =>
        simp only [List.nil_append, List.cons.injEq] at e2
        exact absurd (e2.1 ▸ h2) ht
      | cons z as =>
        simp only [List.cons_append, List.cons.injEq] at e2
        obtain ⟨rfl, rfl⟩ := e2
        subst e1
        refine ⟨l1 ++ t' :: as, w, k2 ++ new, by simp, h2, h3, ?_⟩
        have := hall l1 (as ++ k2) (by simpa using h6)
        simpa using this
    · cases bs with
      | nil =>
        simp only [List.nil_append, List.cons.injEq] at e2
        exact absurd (e2.1 ▸ h2) ht
      | cons z bs =>
        simp only [List.cons_append, List.cons.injEq] at e2
        obtain ⟨rfl, rfl⟩ := e2
        subst e1
        refine ⟨k1, w, bs ++ t' :: l2 ++ new, by simp, h2, h3, ?_⟩
        have := hall (k1 ++ bs) l2 (by simpa using h6)
        simpa using this
  | _ => exact hall _ _ h

/-- Tasks of other methods are added. -/
theorem Phase.Tasks.more {ts new : List Task} {ph : Phase} (h : ph.Tasks f a ts) (hnew : ∀ x ∈ new, x.addr ≠ a) :
    ph.Tasks f a (ts ++ new) := by
  have hall : ∀ k : List Task, AllEnded a k → AllEnded a (k ++ new) := by
    intro k h x hx e
    rcases List.mem_append.1 hx with hx | hx
    · exact h x hx e
    · exact absurd e (hnew x hx)
  cases ph with
  | running q b =>
    obtain ⟨l1, t, l2, h1, h2, h3, h6⟩ := h
    refine ⟨l1, t, l2 ++ new, by simp [h1], h2, h3, ?_⟩
    have := hall _ h6
    simpa using this
  | _ => exact hall _ h

/-- The unfinished task of the method, seen from one of the tasks. -/
theorem Phase.Tasks.at {l1 l2 : List Task} {t : Task} {ph : Phase} (h : ph.Tasks f a (l1 ++ t :: l2))
    (ht : t.addr = a) (hu : t.thread.code ≠ [] ∨ t.thread.wait ≠ none) : ∃ q g, ph = .running q g ∧
      Future f q g t.thread ∧ AllEnded a (l1 ++ l2) := by
  have hno : ∀ ts, AllEnded a ts → t ∉ ts := by
    intro ts h hm
    obtain ⟨h1, h2⟩ := h t hm ht
    rcases hu with hu | hu
    · exact hu h1
    · exact hu h2
  cases ph with
  | running q b =>
    obtain ⟨k1, w, k2, e, h2, h3, h6⟩ := h
    rcases List.append_eq_append_iff.1 e with ⟨as, e1, e2⟩ | ⟨bs, e1, e2⟩
    · cases as with
      | nil =>
        simp only [List.nil_append, List.cons.injEq, List.append_nil] at e2 e1
        obtain ⟨rfl, rfl⟩ := e2
        subst e1
        exact ⟨q, b, rfl, h3, h6⟩
      | cons z as =>
        simp only [List.cons_append, List.cons.injEq] at e2
        obtain ⟨rfl, rfl⟩ := e2
        subst e1
        exact absurd (by simp) (hno _ h6)
    · cases bs with
      | nil =>
        simp only [List.nil_append, List.cons.injEq, List.append_nil] at e2 e1
        obtain ⟨rfl, rfl⟩ := e2
        subst e1
        exact ⟨q, b, rfl, h3, h6⟩
      | cons z bs =>
        simp only [List.cons_append, List.cons.injEq] at e2
        obtain ⟨rfl, rfl⟩ := e2
        subst e1
        exact absurd (by simp) (hno _ h6)
  | _ => exact absurd (by simp) (hno _ h)

theorem Phase.client_congr {prev : List (Rq × Ret)} {cl : Bytes} {ph ph' : Phase} (h : ph.Client C st f prev cl)
    (h1 : ph.closed = []) (h2 : ph'.closed = []) : ph'.Client C st f prev cl := by
  cases ph <;> cases ph' <;> first
    | exact h
    | (simp [Phase.closed] at h1; done)
    | (simp [Phase.closed] at h2; done)

/-- Every action except a new request, and except writing the client buffer of the method. -/
theorem solo_act (hst : C.StatusOk st) (hlib : lib.Lawful) (hr : f.isRead = false) (ha : f.isAsync = true) (hn : ((argsOf f).map (·.1)).Nodup)
    (hi : "__method_id__" ∉ (argsOf f).map (·.1)) (hreg : regs.lookup a = some (genHandler f)) {Q : Rq → Bytes → Prop}
    (hQ : Readable C st f Q) {x : Act} (hx : ∀ bs, x ≠ .request a bs) (hcl : ∀ bs, x ≠ .clear a bs) {prev : List (Rq × Ret)} {ph : Phase} {c c' : Cfg σ}
    (hI : Solo C st f a Q prev ph c) (h : act C lib U regs c x = some c') : ∃ ph', Solo C st f a Q prev ph' c' ∧ ph.Next ph' := by
  obtain ⟨hR, hB, hT, hK, hE, hO⟩ := hI
  cases x with
  | poll b =>
    simp only [act] at h
    split at h
    · rename_i hrun hl
      simp only [Option.some.injEq] at h
      subst h
      refine ⟨ph, ⟨?_, hB, hT, hK, hE, hO⟩, .refl _⟩
      rw [hrun] at hR
      generalize ph.hold = H at hR
      cases hR
      by_cases hb : b = a
      · subst hb
        rw [hreg] at hl
        simp only [Option.some.injEq] at hl
        subst hl
        have : (genHandler f).start = ⟨⟨(genHandler f).sig.names, none, none, false, none, none, none⟩, none, none, rqBody f⟩ := by
          simp only [Handler.start, genHandler_body hr]
        rw [this]
        exact .s0 _ _ _ _ rfl
      · exact .other _ hb
    · simp at h
  | endH =>
    simp only [act] at h
    split at h
    · rename_i r hrun
      split at h
      · rename_i b hcode hret
        simp only [Option.some.injEq] at h
        subst h
        have hz : ph.hold = .no := by
          rw [hrun] at hR
          generalize ph.hold = H at hR
          cases hR <;> first | rfl | (exfalso; simp at hcode; done) |
            (exfalso; revert hcode; unfold rqBlock; split <;> simp)
        refine ⟨ph, ⟨by rw [hz]; exact .idle, hB, hT, hK, ?_, ?_⟩, .refl _⟩
        · rw [executed_append, hE]
          simp [executed, Ev.execution]
        · rw [outcomes_append, hO]
          simp [outcomes, Ev.outcome]
      · simp at h
    · simp at h
  | stepH =>
    simp only [act] at h
    split at h
    · rename_i r hrun
      split at h
      · rename_i o ho
        simp only [Option.some.injEq] at h
        subst h
        rw [hrun] at hR
        by_cases hra : r.addr = a
        · rw [hra] at ho
          obtain ⟨hcl', H', B', hR', hB', hcase⟩ := hR.step hst hlib hn hi hQ hra hB ho
          have hcl' := hcl' ha
          have hcall : executed a (c.log ++ o.calls.map (fun p => Ev.called r.addr p.1 p.2)) = prev.map (fun p => (f.id, p.1.2)) ++ ph.started f ++ o.calls := by
            rw [executed_append, executed_calls, if_pos hra, hE]
          have hout : outcomes a (c.log ++ o.calls.map (fun p => Ev.called r.addr p.1 p.2)) = prev.map (fun p => (f.id, p.1.2, p.2)) ++ ph.result f := by
            rw [outcomes_append, outcomes_calls, hO, List.append_nil]
          have hcl2 : ph.Client C st f prev (setMem c.mem r.addr o.bufs a).client := by
            rw [hra, setMem_self, hcl']
            exact hK
          have hmem : setMem c.mem r.addr o.bufs a = o.bufs := by rw [hra, setMem_self]
          rcases hcase with ⟨rfl, rfl, hc, hsp⟩ | ⟨q, e1, e2, rfl, rfl, hc, hsp⟩ | ⟨q, e1, rfl, rfl, hc, hsp⟩ | ⟨q, e1, rfl, rfl, hc, hsp⟩ |
              ⟨q, t, -, e1, rfl, rfl, hc, hsp, htc, htT⟩
          · refine ⟨ph, ⟨hR', by simp only [hmem]; exact hB', ?_, hcl2, ?_, hout⟩, .refl _⟩
            · rw [hsp]
              simpa using hT
            · rw [hcall, hc]; simp
          · cases ph with
            | posted q' =>
              simp only [Phase.buf, Option.some.injEq] at e2
              subst e2
              refine ⟨.read q', ⟨hR', by simp only [hmem]; exact hB', ?_, Phase.client_congr hcl2 rfl rfl, ?_, hout⟩, rfl, by simp [Phase.closed], by simp [Phase.rank]⟩
              · rw [hsp]
                simpa [Phase.Tasks] using hT
              · rw [hcall, hc]; simp [Phase.started]
            | read q' => simp [Phase.hold] at e1
            | _ => simp [Phase.buf] at e2
          · cases ph with
            | read q' =>
              simp only [Phase.hold, Hold.unacked.injEq] at e1
              subst e1
              refine ⟨.taken q', ⟨hR', by simp only [hmem]; exact hB', ?_, Phase.client_congr hcl2 rfl rfl, ?_, hout⟩, rfl, by simp [Phase.closed], by simp [Phase.rank]⟩
              · rw [hsp]
                simpa [Phase.Tasks] using hT
              · rw [hcall, hc]; simp [Phase.started]
            | _ => simp [Phase.hold] at e1
          · exfalso
            rw [e1] at hR
            obtain ⟨ra, rret, rth⟩ := r
            simp only at hra
            subst hra
            cases hR with
            | y4 ret fr ou w q h => simp [ha] at h
            | y5 ret fr ou w q h => simp [ha] at h
            | a4 ret fr ou w q _ h => simp only [step, Except.ok.injEq] at ho; subst ho; simp at hc
            | a5 ret fr ou w q _ h => simp only [step, h.2.1, Except.ok.injEq] at ho; subst ho; simp at hc
            | a6 ret fr ou w q _ h => simp only [step, Except.ok.injEq] at ho; subst ho; simp at hc
            | a7 ret fr ou w q _ h =>
              simp only [step] at ho
              split at ho
              · simp only [Except.ok.injEq] at ho; subst ho; simp at hc
              · simp at ho
          · cases ph with
            | taken q' =>
              simp only [Phase.hold, Hold.acked.injEq] at e1
              subst e1
              refine ⟨.running q' .before, ⟨hR', by simp only [hmem]; exact hB', ?_, Phase.client_congr hcl2 rfl rfl, ?_, hout⟩, rfl, by simp [Phase.closed], by simp [Phase.rank]⟩
              · refine ⟨c.tasks, ⟨r.addr, t⟩, [], by simp [hsp], hra, ?_, by rw [List.append_nil]; exact hT⟩
                have := htT (fun _ => False)
                cases this with
                | t0 fr ou h => exact .t0 _ _ h
                | _ => simp [rqFut] at htc
              · rw [hcall, hc]; simp [Phase.started]
            | _ => simp [Phase.hold] at e1
        · have hz : ph.hold = .no := by
            generalize ph.hold = H at hR
            cases hR <;> simp_all
          have hmem : setMem c.mem r.addr o.bufs a = c.mem a := setMem_ne _ _ (Ne.symm hra)
          refine ⟨ph, ⟨by rw [hz]; exact .other _ hra, by simp only [hmem]; exact hB, ?_, by simp only [hmem]; exact hK, ?_, ?_⟩, .refl _⟩
          · refine Phase.Tasks.more hT ?_
            intro x hx
            obtain ⟨y, -, rfl⟩ := List.mem_map.1 hx
            exact hra
          · rw [executed_append, executed_calls, if_neg hra, hE, List.append_nil]
          · rw [outcomes_append, outcomes_calls, hO, List.append_nil]
      · simp at h
    · simp at h
  | stepT i =>
    simp only [act] at h
    split at h
    · rename_i t ht
      obtain ⟨l1, l2, hl, hset⟩ := split_set ht
      split at h
      · simp at h
      · rename_i hwait
        split at h
        · rename_i o ho
          simp only [Option.some.injEq] at h
          subst h
          rw [hl] at hT
          have hout : outcomes a (c.log ++ o.calls.map (fun p => Ev.called t.addr p.1 p.2)) = prev.map (fun p => (f.id, p.1.2, p.2)) ++ ph.result f := by
            rw [outcomes_append, outcomes_calls, hO, List.append_nil]
          by_cases hta : t.addr = a
          · have hcode : t.thread.code ≠ [] := by
              intro e
              simp [step, e] at ho
            obtain ⟨q, g, rfl, hq, hall⟩ := hT.at hta (.inl hcode)
            rw [hta] at ho
            obtain ⟨hsp, hcase⟩ := hq.step hst hlib ha hn hi hwait ho
            have hmem : setMem c.mem t.addr o.bufs a = o.bufs := by rw [hta, setMem_self]
            have hcall : executed a (c.log ++ o.calls.map (fun p => Ev.called t.addr p.1 p.2)) =
                prev.map (fun p => (f.id, p.1.2)) ++ (Phase.running q g).started f ++ o.calls := by
              rw [executed_append, executed_calls, if_pos hta, hE]
            rcases hcase with ⟨hbufs, g', hq', hcase⟩ | ⟨hcode', hw', hc, hserver, r, rfl, hans⟩
            · have hout' : (Phase.running q g').result f = (Phase.running q g).result f := by
                rcases hcase with ⟨-, rfl⟩ | ⟨-, rfl, rfl⟩ <;> rfl
              refine ⟨.running q g', ⟨hR, by simp only [hmem]; rw [hbufs]; exact hB, ?_, ?_, ?_, by rw [hout', hout]⟩, rfl, by simp [Phase.closed],
                by rcases hcase with ⟨-, rfl⟩ | ⟨-, rfl, rfl⟩ <;> simp [Phase.rank]⟩
              · exact ⟨l1, { t with thread := o.thread }, l2, by simp [hset, hsp], hta, hq', hall⟩
              · simp only [hmem]
                rw [hbufs]
                exact Phase.client_congr hK rfl rfl
              · rw [hcall]
                rcases hcase with ⟨hc, rfl⟩ | ⟨hc, rfl, rfl⟩
                · simp [hc]
                · simp [hc, Phase.started]
            · refine ⟨.answered q r, ⟨hR, by simp only [hmem]; exact holds_congr hserver hB, ?_, by simp only [hmem]; exact hans, ?_, hout⟩, rfl, by simp [Phase.closed], by simp [Phase.rank]⟩
              · simp only [hset, hsp, Option.toList_none, List.map_nil, List.append_nil]
                exact AllEnded.insert hall (t := { t with thread := o.thread }) (fun _ => ⟨hcode', hw'⟩)
              · rw [hcall, hc]; simp [Phase.started]
          · have hmem : setMem c.mem t.addr o.bufs a = c.mem a := setMem_ne _ _ (Ne.symm hta)
            refine ⟨ph, ⟨hR, by simp only [hmem]; exact hB, ?_, by simp only [hmem]; exact hK, ?_, hout⟩, .refl _⟩
            · simp only [hset]
              refine hT.other hta hta ?_
              intro x hx
              obtain ⟨y, -, rfl⟩ := List.mem_map.1 hx
              exact hta
            · rw [executed_append, executed_calls, if_neg hta, hE, List.append_nil]
        · simp at h
    · simp at h
  | resume i r =>
    simp only [act] at h
    split at h
    · rename_i t ht
      obtain ⟨l1, l2, hl, hset⟩ := split_set ht
      split at h
      · rename_i res g xs hwait
        simp only [Option.some.injEq] at h
        subst h
        rw [hl] at hT
        have hcall : executed a (c.log ++ [.finished t.addr g xs r]) = prev.map (fun p => (f.id, p.1.2)) ++ ph.started f := by
          rw [executed_append, hE]
          simp [executed, Ev.execution]
        by_cases hta : t.addr = a
        · obtain ⟨q, b, rfl, hq, hall⟩ := hT.at hta (.inr (by simp [hwait]))
          obtain ⟨ta, tt⟩ := t
          simp only at hta hwait hq
          subst hta
          cases hq with
          | t2 fr ou hargs =>
            simp only [Option.some.injEq, Prod.mk.injEq] at hwait
            obtain ⟨rfl, rfl, rfl⟩ := hwait
            refine ⟨.running q (.yielded r), ⟨hR, hB, ?_, Phase.client_congr hK rfl rfl, hcall, ?_⟩, rfl, by simp [Phase.closed], by simp [Phase.rank]⟩
            · simp only [hset]
              refine ⟨l1, _, l2, rfl, rfl, .t3 _ _ r ?_ ?_, hall⟩
              · cases hret : f.returnTypeId with
                | none => exact hargs
                | some t => exact ⟨hargs.1, hargs.2.1, rfl⟩
              · intro h; simp [bindResult, h]
            · rw [outcomes_append, hO]
              simp [outcomes, Ev.outcome, Phase.result]
          | _ => simp at hwait
        · refine ⟨ph, ⟨hR, hB, ?_, hK, hcall, ?_⟩, .refl _⟩
          · simp only [hset]
            simpa using hT.other (new := []) hta (t' := { t with thread := { t.thread with frame := bindResult res r t.thread.frame, wait := none } }) hta (by simp)
          · rw [outcomes_append, hO]
            simp [outcomes, Ev.outcome, hta]
      · simp at h
    · simp at h
  | request b bs =>
    have hb : b ≠ a := fun e => hx bs (by rw [e])
    simp only [act, Option.some.injEq] at h
    subst h
    have hmem : ∀ m, setMem c.mem b m a = c.mem a := fun m => setMem_ne _ _ (Ne.symm hb)
    refine ⟨ph, ⟨hR, by simp only [hmem]; exact hB, hT, by simp only [hmem]; exact hK, ?_, ?_⟩, .refl _⟩
    · rw [executed_append, hE]
      simp [executed, Ev.execution]
    · rw [outcomes_append, hO]
      simp [outcomes, Ev.outcome]
  | clear b bs =>
    have hb : b ≠ a := fun e => hcl bs (by rw [e])
    simp only [act, Option.some.injEq] at h
    subst h
    have hmem : ∀ m, setMem c.mem b m a = c.mem a := fun m => setMem_ne _ _ (Ne.symm hb)
    exact ⟨ph, ⟨hR, by simp only [hmem]; exact hB, hT, by simp only [hmem]; exact hK, hE, hO⟩, .refl _⟩

/-- A new request when there is no outstanding one. -/
theorem solo_request (hlib : lib.Lawful) {Q : Rq → Bytes → Prop} {prev : List (Rq × Ret)} {ph : Phase} {c c' : Cfg σ}
    (hI : Solo C st f a Q prev ph c) (hph : ph.rq = none ∨ ph.closed ≠ []) {q : Rq} {bs : Bytes} (hq : Q q bs)
    (h : act C lib U regs c (.request a bs) = some c') : Solo C st f a Q (prev ++ ph.closed) (.posted q) c' := by
  obtain ⟨hR, hB, hT, hK, hE, hO⟩ := hI
  simp only [act, Option.some.injEq] at h
  subst h
  have hcall : executed a (c.log ++ [.requested a bs]) = prev.map (fun p => (f.id, p.1.2)) ++ ph.started f := by
    rw [executed_append, hE]
    simp [executed, Ev.execution]
  have hout : outcomes a (c.log ++ [.requested a bs]) = prev.map (fun p => (f.id, p.1.2, p.2)) ++ ph.result f := by
    rw [outcomes_append, hO]
    simp [outcomes, Ev.outcome]
  have hbuf : Holds C Q (setMem c.mem a { c.mem a with server := lib (c.mem a).server bs } a) (some q) := by
    rw [setMem_self]
    obtain ⟨r, hr'⟩ := hlib (c.mem a).server bs
    exact ⟨bs, r, hr', hq⟩
  cases ph with
  | idle =>
    refine ⟨hR, hbuf, hT, ?_, by simpa [Phase.closed, Phase.started] using hcall, by simpa [Phase.closed, Phase.result] using hout⟩
    simp only [setMem_self, Phase.closed, List.append_nil]
    exact Phase.client_congr hK rfl rfl
  | answered q0 r0 =>
    refine ⟨hR, hbuf, hT, ?_, by simpa [Phase.closed, Phase.started] using hcall, by simpa [Phase.closed, Phase.result] using hout⟩
    simp only [setMem_self]
    exact .inr ⟨(q0, r0), by simp [Phase.closed], hK⟩
  | _ => simp [Phase.rq, Phase.closed] at hph

/-- A server on which nothing has happened. -/
theorem solo_init {Q : Rq → Bytes → Prop} {mem : Nat → Bufs} {u : σ} (hm : ¬ Busy C (mem a)) (hmc : ¬ Ready C (mem a).client) :
    Solo C st f a Q [] .idle (Cfg.initial mem u) :=
  ⟨.idle, hm, by simp [Cfg.initial, Phase.Tasks, AllEnded], .inl hmc, rfl, rfl⟩

end
end TPB.Rust
