/-
Proofs that an outstanding request of an asynchronous method can always be answered.
-/
import Verif.Proofs.RpcSequential
import Verif.Proofs.RpcProgress
namespace TPB.Rust
open Spec TPB.Props

section
variable {σ : Type} {C : Codec} {lib : BufLib} {U : User σ} {st : Status → Bytes} {f : FnNode} {a : Nat}
  {regs : List (Nat × Handler)}

/-- The handler of `f` and its futures find the variables that they use. -/
structure Going (f : FnNode) (a : Nat) (c : Cfg σ) : Prop where
  run : ∀ r, c.run = some r → r.addr = a → RunSafe f (fun _ => True) (fun _ => True) (fun _ => True) r.ret r.thread
  tasks : ∀ t ∈ c.tasks, t.addr = a → ThreadSafe f (fun _ => True) (fun _ => True) (fun _ => True) true t.thread

theorem going_act (hr : f.isRead = false) (hloc : f.id ∉ ["scope_id", "runtime_as_mut", "memory", "async_context",
    "rpc_method_address", "args", "is_busy"]) (hreg : regs.lookup a = some (genHandler f)) {c c' : Cfg σ} {x : Act}
    (hc : Going f a c) (hx : act C lib U regs c x = some c') : Going f a c' := by
  have hread : f.isRead = true → f.args = [] := by simp [hr]
  cases x with
  | poll b =>
    simp only [act] at hx
    split at hx <;> simp only [Option.some.injEq, reduceCtorEq] at hx
    subst hx
    rename_i h _ hl
    refine ⟨?_, hc.tasks⟩
    intro r hr' e
    simp only [Option.some.injEq] at hr'
    subst hr'
    simp only at e
    subst e
    rw [hreg] at hl
    cases hl
    obtain ⟨k1, k2⟩ := handler_safe f hread hloc (by simp [hr])
    exact ⟨rfl, startVars (genHandler f), rfl, ⟨rfl, by simp [startVars], by simp, by simp [startVars],
      by simp, by simp [startVars], by simp [startVars], by simp [startVars], by simp [startVars], fun _ => rfl⟩, k1, k2⟩
  | stepH =>
    simp only [act] at hx
    split at hx
    · rename_i r hr'
      split at hx <;> simp only [Option.some.injEq, reduceCtorEq] at hx
      rename_i o ho
      subst hx
      by_cases e : r.addr = a
      · obtain ⟨hw, Γ, ha, hF, hS, hret⟩ := hc.run r hr' e
        obtain ⟨k1, k2, k3⟩ := step_known (fun _ _ _ => trivial) (fun _ _ _ => trivial) (fun _ _ _ => trivial) hread hw hF hS ho
        refine ⟨?_, ?_⟩
        · intro r' hr' _
          simp only [Option.some.injEq] at hr'
          subst hr'
          exact k3 ha _ hret
        · intro t ht _
          rcases List.mem_append.1 ht with ht | ht
          · exact hc.tasks t ht (by assumption)
          · obtain ⟨s, hs, rfl⟩ := List.mem_map.1 ht
            exact k1 s (by simpa using hs)
      · refine ⟨?_, ?_⟩
        · intro r' hr' e'
          simp only [Option.some.injEq] at hr'
          subst hr'
          exact absurd e' e
        · intro t ht e'
          rcases List.mem_append.1 ht with ht | ht
          · exact hc.tasks t ht e'
          · obtain ⟨s, hs, rfl⟩ := List.mem_map.1 ht
            exact absurd e' e
    · simp at hx
  | endH =>
    simp only [act] at hx
    split at hx
    · split at hx <;> simp only [Option.some.injEq, reduceCtorEq] at hx
      subst hx
      exact ⟨by simp, hc.tasks⟩
    · simp at hx
  | stepT i =>
    simp only [act] at hx
    split at hx
    · rename_i t ht
      split at hx
      · simp at hx
      · rename_i hw
        split at hx <;> simp only [Option.some.injEq, reduceCtorEq] at hx
        rename_i o ho
        subst hx
        refine ⟨hc.run, ?_⟩
        intro t' ht' e'
        by_cases e : t.addr = a
        · have htf := hc.tasks t (List.mem_of_getElem? ht) e
          unfold ThreadSafe at htf
          rw [hw] at htf
          obtain ⟨Γ, ha, hF, hS⟩ := htf
          obtain ⟨k1, k2, -⟩ := step_known (fun _ _ _ => trivial) (fun _ _ _ => trivial) (fun _ _ _ => trivial) hread hw hF hS ho
          rw [ha] at k2
          rcases List.mem_append.1 ht' with ht' | ht'
          · rcases List.mem_or_eq_of_mem_set ht' with h | rfl
            · exact hc.tasks t' h e'
            · exact k2
          · obtain ⟨s, hs, rfl⟩ := List.mem_map.1 ht'
            exact k1 s (by simpa using hs)
        · rcases List.mem_append.1 ht' with ht' | ht'
          · rcases List.mem_or_eq_of_mem_set ht' with h | rfl
            · exact hc.tasks t' h e'
            · exact absurd e' e
          · obtain ⟨s, hs, rfl⟩ := List.mem_map.1 ht'
            exact absurd e' e
    · simp at hx
  | resume i r =>
    simp only [act] at hx
    split at hx
    · rename_i t ht
      split at hx <;> simp only [Option.some.injEq, reduceCtorEq] at hx
      rename_i res g xs hw
      subst hx
      refine ⟨hc.run, ?_⟩
      intro t' ht' e'
      rcases List.mem_or_eq_of_mem_set ht' with h | rfl
      · exact hc.tasks t' h e'
      · have htf := hc.tasks t (List.mem_of_getElem? ht) e'
        unfold ThreadSafe at htf
        rw [hw] at htf
        obtain ⟨-, rfl, h⟩ := htf
        obtain ⟨Γ, h1, h2, h3⟩ := h r trivial
        exact ⟨Γ, h1, h2, h3⟩
    · simp at hx
  | request b bs =>
    simp only [act, Option.some.injEq] at hx
    subst hx
    exact ⟨hc.run, hc.tasks⟩
  | clear b bs =>
    simp only [act, Option.some.injEq] at hx
    subst hx
    exact ⟨hc.run, hc.tasks⟩

theorem going_acts (hr : f.isRead = false) (hloc : f.id ∉ ["scope_id", "runtime_as_mut", "memory", "async_context",
    "rpc_method_address", "args", "is_busy"]) (hreg : regs.lookup a = some (genHandler f)) (xs : List Act) {c c' : Cfg σ}
    (hc : Going f a c) (hx : acts C lib U regs c xs = some c') : Going f a c' := by
  induction xs generalizing c with
  | nil =>
    simp only [acts, Option.some.injEq] at hx
    exact hx ▸ hc
  | cons x xs ih =>
    simp only [acts] at hx
    split at hx
    · rename_i d hd
      exact ih (going_act hr hloc hreg hc hd) hx
    · simp at hx

/-! ### The next action -/

def runLeft : Option Run → Nat
  | none => 1
  | some r => if r.thread.code.length = 3 then 0 else 2 + r.thread.code.length

def runSize : Option Run → Nat
  | none => 0
  | some r => stmtsSize r.thread.code

def threadLeft (t : Thread) : Nat := 2 * t.code.length + if t.wait.isSome then 1 else 0

def tasksLeft (ts : List Task) : Nat := (ts.map (fun t => threadLeft t.thread)).sum

/-- What is left to do before the rank of the phase changes. -/
def left (n : Nat) (c : Cfg σ) : Nat :=
  if n = 1 then runLeft c.run else if n ≤ 3 then runSize c.run else tasksLeft c.tasks

theorem tasksLeft_lt {l1 l2 : List Task} {t t' : Task} (h : threadLeft t'.thread < threadLeft t.thread) :
    tasksLeft (l1 ++ t' :: l2) < tasksLeft (l1 ++ t :: l2) := by
  simp only [tasksLeft, List.map_append, List.map_cons, List.sum_append, List.sum_cons]
  omega

/-- An unfinished future can be continued. -/
theorem Future.progress (hst : C.StatusOk st) (ha : f.isAsync = true) (hn : ((argsOf f).map (·.1)).Nodup)
    (hi : "__method_id__" ∉ (argsOf f).map (·.1)) {q : Rq} {g : Stage} {t : Thread} (h : Future f q g t)
    (hsafe : ThreadSafe f (fun _ => True) (fun _ => True) (fun _ => True) true t)
    (hid : ∀ i, q.1 = some i → (C.prim "i64" (.int i)).isSome) (hres : ∀ r, g = .yielded r → ∃ rb, ResultBytes C f r rb) (m : Bufs) (u : σ) :
    t.wait ≠ none ∨ (t.wait = none ∧ ∃ o, Rust.step C lib U m u t = .ok o ∧ threadLeft o.thread < threadLeft t ∧ o.spawned = none) := by
  cases h with
  | t0 fr ou h =>
    obtain ⟨Γ, -, hF, hS⟩ := hsafe
    have h1 : "runtime_as_mut" ∈ fr.names := by
      have := hF.names
      simp only at this
      rw [this]
      exact hS.1
    exact .inr ⟨rfl, _, by simp only [Rust.step, rqFut, h1, if_true]; rfl, by simp [threadLeft, rqFut], rfl⟩
  | t1 fr ou h =>
    obtain ⟨Γ, -, hF, hS⟩ := hsafe
    have h1 : f.id ∉ fr.names := by
      have := hF.names
      simp only at this
      rw [this]
      exact hS.1.2.2.1
    exact .inr ⟨rfl, _, by
      simp only [Rust.step, genCall, h1, if_false, callArgs_val h.1.1 h.1.2 hn hi h.2.1, ha, bind, Except.bind, if_true]; rfl,
      by simp [threadLeft], rfl⟩
  | t2 => exact .inl (by simp)
  | t3 fr ou r h h1 => exact .inr ⟨rfl, _, by simp only [Rust.step]; rfl, by simp [threadLeft], rfl⟩
  | t4 fr ou r h h1 =>
    obtain ⟨Γ, -, hF, hS⟩ := hsafe
    have h2 : "memory" ∈ fr.names := by
      have := hF.names
      simp only at this
      rw [this]
      exact hS.1.1
    obtain ⟨i, hq⟩ : ∃ i, q.1 = some i := by
      have := h.1.1
      rw [ha, Option.isSome_iff_exists] at this
      exact this
    have hfd : field (argsVal f q.1 q.2) "__method_id__" = .ok (.int i) := by
      simp [field, argsVal, named, fieldsOf_argsNode, ha, orElse, hq]
    obtain ⟨mb, hmb⟩ := Option.isSome_iff_exists.1 (hid i hq)
    obtain ⟨rb, hrb⟩ := hres r rfl
    have hrb := evalResults hrb fr h.2.2 h1
    exact .inr ⟨rfl, _, by
      simp only [Rust.step, answerW, h2, if_true, evalBufWs, evalBufW, (hst .xFF).1, h.2.1, orElse, bind, Except.bind, hfd, hmb, hrb]; rfl,
      by simp [threadLeft], rfl⟩

/-- A step of the handler at `a`. -/
theorem act_stepH {c : Cfg σ} {r : Run} {o : Out σ} (h : c.run = some r) (ho : Rust.step C lib U (c.mem r.addr) c.user r.thread = .ok o) :
    ∃ c', act C lib U regs c .stepH = some c' ∧ c'.run = some { r with thread := o.thread } :=
  ⟨_, by simp only [act, h, ho]; rfl, rfl⟩

/-- As long as the request has not been answered, something can be done that brings the answer nearer. -/
theorem advance (hst : C.StatusOk st) (hr : f.isRead = false) (ha : f.isAsync = true) (hn : ((argsOf f).map (·.1)).Nodup)
    (hi : "__method_id__" ∉ (argsOf f).map (·.1)) (hreg : regs.lookup a = some (genHandler f)) {Q : Rq → Bytes → Prop}
    (hQ : Readable C st f Q) {prev : List (Rq × Ret)} {ph : Phase} {c : Cfg σ} {r0 : Ret}
    (hI : Solo C st f a Q prev ph c) (hG : Going f a c) (hrun : ∀ r, c.run = some r → r.addr = a)
    (hid : ∀ q i, ph.rq = some q → q.1 = some i → (C.prim "i64" (.int i)).isSome)
    (hres : ∀ q r, ph = .running q (.yielded r) → ∃ rb, ResultBytes C f r rb)
    (hph : ph.rq ≠ none) (hcl : ph.closed = []) :
    ∃ x c', x.Works a r0 ∧ act C lib U regs c x = some c' ∧
      (left ph.rank c' < left ph.rank c ∨ ∀ ph', Solo C st f a Q prev ph' c' → ph.rank ≠ ph'.rank) := by
  obtain ⟨hR, hB, hT, -, -, -⟩ := hI
  have hR' := hR
  have safe : ∀ ret fr ou w code, c.run = some ⟨a, ret, ⟨fr, ou, w, code⟩⟩ → ∃ Γ : VarsKnown, fr.names = Γ.names ∧ codeSafe f Γ code := by
    intro ret fr ou w code h
    obtain ⟨-, Γ, -, hF, hS, -⟩ := hG.run _ h rfl
    exact ⟨Γ, hF.names, hS⟩
  cases ph with
  | idle => exact absurd rfl hph
  | answered q r => simp [Phase.closed] at hcl
  | posted q =>
    have hgo : ∀ (r : Run) (o : Out σ), c.run = some r → Rust.step C lib U (c.mem r.addr) c.user r.thread = .ok o →
        (runLeft (some { r with thread := o.thread }) < runLeft (some r)) →
        ∃ x c', x.Works a r0 ∧ act C lib U regs c x = some c' ∧
          (left (Phase.posted q).rank c' < left (Phase.posted q).rank c ∨ ∀ ph', Solo C st f a Q prev ph' c' → (Phase.posted q).rank ≠ ph'.rank) := by
      intro r o h1 h2 h3
      obtain ⟨c', h4, h5⟩ := act_stepH (regs := regs) h1 h2
      exact ⟨.stepH, c', trivial, h4, .inl (by simp only [left, Phase.rank, if_true, h5, h1]; exact h3)⟩
    simp only [Phase.hold] at hR
    generalize hcr : c.run = R at hR hR'
    cases hR with
    | idle =>
      refine ⟨.poll a, _, rfl, by simp only [act, hcr, hreg]; rfl, .inl ?_⟩
      simp [left, Phase.rank, hcr, runLeft, Handler.start, genHandler_body hr, rqBody]
    | other r h => exact absurd (hrun r hcr) h
    | s0 ret fr ou w hfr =>
      obtain ⟨bs, rs, hm, hq⟩ := hB
      obtain ⟨hok, b, rfl, hread⟩ := hQ q bs hq
      have hb : readStatus C ((c.mem a).get .server) = .ok (((Status.xFF.val : Nat) : Int), b ++ rs) := by
        show readStatus C (c.mem a).server = _
        rw [hm, List.append_assoc, readStatus_of hst]
      obtain ⟨c', h4, h5⟩ := act_stepH (C := C) (lib := lib) (U := U) (regs := regs) hcr (by
        simp only [Rust.step, rqBody, hb, evalLetArgs, bind, Except.bind, if_true, hread, orElse]; rfl)
      refine ⟨.stepH, c', trivial, h4, .inr fun ph' hs' => ?_⟩
      have h6 := hs'.run
      rw [h5] at h6
      simp only at h6
      cases ph' with
      | posted q' =>
        exfalso
        simp only [Phase.hold] at h6
        generalize hz : (some (Run.mk a ret _)) = Z at h6
        cases h6 with
        | other r h => cases hz; exact h rfl
        | n1 ret' fr' ou' w' h =>
          cases hz
          simp at h
        | _ => simp [rqBody] at hz
      | running q g => cases g <;> simp [Phase.rank]
      | _ => simp [Phase.rank]
    | n1 ret fr ou w h => exact hgo _ _ hcr (by simp only [Rust.step]; rfl) (by simp [runLeft])
    | n2 ret fr ou w h => exact hgo _ _ hcr (by simp only [Rust.step, h]; rfl) (by simp [runLeft])
    | y6 ret fr ou w h => simp [ha] at h
    | y7 ret fr ou w h => simp [ha] at h
    | s8 ret fr ou w =>
      obtain ⟨b, hb⟩ := ret_progress (by simp [hr]) (hG.run _ hcr rfl) rfl
      refine ⟨.endH, _, trivial, by simp only [act, hcr]; simp only at hb; simp only [hb]; rfl, .inl ?_⟩
      simp [left, Phase.rank, hcr, runLeft]
  | read q =>
    have hgo : ∀ (r : Run) (o : Out σ), c.run = some r → Rust.step C lib U (c.mem r.addr) c.user r.thread = .ok o →
        (stmtsSize o.thread.code < stmtsSize r.thread.code) →
        ∃ x c', x.Works a r0 ∧ act C lib U regs c x = some c' ∧
          (left (Phase.read q).rank c' < left (Phase.read q).rank c ∨ ∀ ph', Solo C st f a Q prev ph' c' → (Phase.read q).rank ≠ ph'.rank) := by
      intro r o h1 h2 h3
      obtain ⟨c', h4, h5⟩ := act_stepH (regs := regs) h1 h2
      exact ⟨.stepH, c', trivial, h4, .inl (by simpa [left, Phase.rank, h5, h1, runSize] using h3)⟩
    simp only [Phase.hold] at hR
    generalize hcr : c.run = R at hR
    cases hR with
    | s1 ret fr ou w _ h1 h2 h3 => exact hgo _ _ hcr (by simp only [Rust.step]; rfl) (by simp [stmtsSize, Stmt.size])
    | s2 ret fr ou w _ h1 h2 h3 => exact hgo _ _ hcr (by simp only [Rust.step, h2]; rfl) (by simp [stmtsSize, Stmt.size, Thread.enter])
    | s3 ret fr ou w _ h1 =>
      rw [rqBlock_async ha] at hcr
      obtain ⟨Γ, hnm, hS⟩ := safe _ _ _ _ _ hcr
      have h2 : "memory" ∈ fr.names := by rw [hnm]; exact hS.1.1
      exact hgo _ _ hcr (by
        simp only [Rust.step, h2, if_true, evalBufWs, evalBufW, (hst .x00).1, orElse, bind, Except.bind]; rfl) (by simp [stmtsSize, Stmt.size])
  | taken q =>
    have hgo : ∀ (r : Run) (o : Out σ), c.run = some r → Rust.step C lib U (c.mem r.addr) c.user r.thread = .ok o →
        (stmtsSize o.thread.code < stmtsSize r.thread.code) →
        ∃ x c', x.Works a r0 ∧ act C lib U regs c x = some c' ∧
          (left (Phase.taken q).rank c' < left (Phase.taken q).rank c ∨ ∀ ph', Solo C st f a Q prev ph' c' → (Phase.taken q).rank ≠ ph'.rank) := by
      intro r o h1 h2 h3
      obtain ⟨c', h4, h5⟩ := act_stepH (regs := regs) h1 h2
      exact ⟨.stepH, c', trivial, h4, .inl (by simpa [left, Phase.rank, h5, h1, runSize] using h3)⟩
    simp only [Phase.hold] at hR
    generalize hcr : c.run = R at hR
    cases hR with
    | y4 ret fr ou w _ h => simp [ha] at h
    | y5 ret fr ou w _ h => simp [ha] at h
    | a4 ret fr ou w _ _ h => exact hgo _ _ hcr (by simp only [Rust.step]; rfl) (by simp [stmtsSize, Stmt.size])
    | a5 ret fr ou w _ _ h => exact hgo _ _ hcr (by simp only [Rust.step, h.2.1]; rfl) (by simp [stmtsSize, Stmt.size])
    | a6 ret fr ou w _ _ h => exact hgo _ _ hcr (by simp only [Rust.step]; rfl) (by simp [stmtsSize, Stmt.size])
    | a7 ret fr ou w _ _ h =>
      obtain ⟨Γ, hnm, hS⟩ := safe _ _ _ _ _ hcr
      have h2 : "async_context" ∈ fr.names := by rw [hnm]; exact hS.1.1
      exact hgo _ _ hcr (by simp only [Rust.step, h2, if_true]; rfl) (by simp [stmtsSize, Stmt.size])
  | running q g =>
    obtain ⟨l1, t, l2, h1, h2, h3, h4⟩ := hT
    have hget : c.tasks[l1.length]? = some t := by rw [h1]; simp
    have hset : ∀ t', c.tasks.set l1.length t' = l1 ++ t' :: l2 := by intro t'; rw [h1]; simp
    have hrank : ∀ c : Cfg σ, left (Phase.running q g).rank c = tasksLeft c.tasks := by
      intro c
      cases g <;> simp [left, Phase.rank]
    have hp := h3.progress (lib := lib) (U := U) hst ha hn hi (hG.tasks t (by rw [h1]; simp) h2) (fun i e => hid q i rfl e)
      (fun r e => hres q r (by rw [e])) (c.mem t.addr) c.user
    rcases hp with hw | ⟨hw, o, ho, hlt, hsp⟩
    · cases hw' : t.thread.wait with
      | none => exact absurd hw' hw
      | some w =>
        obtain ⟨res, g', xs⟩ := w
        refine ⟨.resume l1.length r0, _, rfl, by simp only [act, hget, hw']; rfl, .inl ?_⟩
        rw [hrank, hrank]
        simp only [hset]
        rw [h1]
        exact tasksLeft_lt (by simp [threadLeft, hw'])
    · refine ⟨.stepT l1.length, _, trivial, by simp only [act, hget, hw, ho]; rfl, .inl ?_⟩
      rw [hrank, hrank]
      simp only [hset, hsp, Option.toList_none, List.map_nil, List.append_nil]
      rw [h1]
      exact tasksLeft_lt hlt


theorem act_works {c c' : Cfg σ} {x : Act} {r0 : Ret} (hx : x.Works a r0) (hrun : ∀ r, c.run = some r → r.addr = a)
    (h : act C lib U regs c x = some c') : (∀ r, c'.run = some r → r.addr = a) ∧
      ∀ b g vs r, Ev.finished b g vs r ∈ c'.log → Ev.finished b g vs r ∈ c.log ∨ r = r0 := by
  cases x with
  | poll b =>
    simp only [act] at h
    split at h <;> simp only [Option.some.injEq, reduceCtorEq] at h
    subst h
    exact ⟨by intro r e; cases e; exact hx, fun _ _ _ _ h => .inl h⟩
  | stepH =>
    simp only [act] at h
    split at h
    · rename_i r hr
      split at h <;> simp only [Option.some.injEq, reduceCtorEq] at h
      subst h
      exact ⟨by intro r' e; cases e; exact hrun r hr, by intro b g vs r h; left; simpa using h⟩
    · simp at h
  | endH =>
    simp only [act] at h
    split at h
    · split at h <;> simp only [Option.some.injEq, reduceCtorEq] at h
      subst h
      exact ⟨by simp, by intro b g vs r h; left; simpa using h⟩
    · simp at h
  | stepT i =>
    simp only [act] at h
    repeat' split at h
    all_goals simp only [Option.some.injEq, reduceCtorEq] at h
    subst h
    exact ⟨hrun, by intro b g vs r h; left; simpa using h⟩
  | resume i r =>
    simp only [act] at h
    repeat' split at h
    all_goals simp only [Option.some.injEq, reduceCtorEq] at h
    subst h
    refine ⟨hrun, ?_⟩
    intro b g vs r' h
    simp only [List.mem_append, List.mem_singleton, Ev.finished.injEq] at h
    rcases h with h | h
    · exact .inl h
    · exact .inr (h.2.2.2.trans hx)
  | request b bs => exact hx.elim
  | clear b bs => exact hx.elim

/-- The outstanding request can be answered. -/
theorem can_answer (hst : C.StatusOk st) (hlib : lib.Lawful) (hr : f.isRead = false) (ha : f.isAsync = true) (hn : ((argsOf f).map (·.1)).Nodup)
    (hi : "__method_id__" ∉ (argsOf f).map (·.1)) (hloc : f.id ∉ ["scope_id", "runtime_as_mut", "memory", "async_context",
    "rpc_method_address", "args", "is_busy"]) (hreg : regs.lookup a = some (genHandler f)) {Q : Rq → Bytes → Prop}
    (hQ : Readable C st f Q) {prev : List (Rq × Ret)} {r0 : Ret} (hr0 : ∃ rb, ResultBytes C f r0 rb) {ph : Phase} {c : Cfg σ}
    (hI : Solo C st f a Q prev ph c) (hG : Going f a c) (hrun : ∀ r, c.run = some r → r.addr = a)
    (hid : ∀ q i, ph.rq = some q → q.1 = some i → (C.prim "i64" (.int i)).isSome)
    (hres : ∀ vs r, Ev.finished a f.id vs r ∈ c.log → ∃ rb, ResultBytes C f r rb) (hph : ph.rq ≠ none) :
    ∃ ys c' ph', (∀ y ∈ ys, y.Works a r0) ∧ acts C lib U regs c ys = some c' ∧ Solo C st f a Q prev ph' c' ∧ ph.Next ph' ∧ ph'.closed ≠ [] ∧
      ∀ b g vs r, Ev.finished b g vs r ∈ c'.log → Ev.finished b g vs r ∈ c.log ∨ r = r0 := by
  induction hm : 7 - ph.rank using Nat.strongRecOn generalizing ph c with
  | ind m ihm =>
  induction hl : left ph.rank c using Nat.strongRecOn generalizing ph c with
  | ind l ihl =>
  by_cases hcl : ph.closed = []
  case neg => exact ⟨[], c, ph, by simp, rfl, hI, .refl _, hcl, fun _ _ _ _ h => .inl h⟩
  have hyield : ∀ q r, ph = .running q (.yielded r) → ∃ rb, ResultBytes C f r rb := by
    rintro q r rfl
    refine hres q.2 r (mem_outcomes ?_)
    rw [hI.results]
    simp [Phase.result]
  obtain ⟨x, c1, hx, hact, hlt⟩ := advance (lib := lib) (U := U) (r0 := r0) hst hr ha hn hi hreg hQ hI hG hrun hid hyield hph hcl
  have hnr : ∀ bs, x ≠ .request a bs := by rintro bs rfl; exact hx.elim
  have hnc : ∀ bs, x ≠ .clear a bs := by rintro bs rfl; exact hx.elim
  obtain ⟨ph1, hI1, hnext⟩ := solo_act hst hlib hr ha hn hi hreg hQ hnr hnc hI hact
  obtain ⟨hrun1, hlog1⟩ := act_works hx hrun hact
  have hG1 := going_act hr hloc hreg hG hact
  have hrq1 := hnext.1
  have hid1 : ∀ q i, ph1.rq = some q → q.1 = some i → (C.prim "i64" (.int i)).isSome := by rw [hrq1]; exact hid
  have hres1 : ∀ vs r, Ev.finished a f.id vs r ∈ c1.log → ∃ rb, ResultBytes C f r rb := by
    intro vs r h
    rcases hlog1 _ _ _ _ h with h | rfl
    · exact hres vs r h
    · exact hr0
  have hph1 : ph1.rq ≠ none := by rw [hrq1]; exact hph
  have fin : (∃ ys c' ph', (∀ y ∈ ys, y.Works a r0) ∧ acts C lib U regs c1 ys = some c' ∧ Solo C st f a Q prev ph' c' ∧ ph1.Next ph' ∧ ph'.closed ≠ [] ∧
      ∀ b g vs r, Ev.finished b g vs r ∈ c'.log → Ev.finished b g vs r ∈ c1.log ∨ r = r0) →
      ∃ ys c' ph', (∀ y ∈ ys, y.Works a r0) ∧ acts C lib U regs c ys = some c' ∧ Solo C st f a Q prev ph' c' ∧ ph.Next ph' ∧ ph'.closed ≠ [] ∧
      ∀ b g vs r, Ev.finished b g vs r ∈ c'.log → Ev.finished b g vs r ∈ c.log ∨ r = r0 := by
    rintro ⟨ys, c', ph', h1, h2, h3, h4, h5, h6⟩
    refine ⟨x :: ys, c', ph', ?_, by simp only [acts, hact]; exact h2, h3, ⟨h4.1.trans hrq1, fun h => absurd hcl h, Nat.le_trans hnext.2.2 h4.2.2⟩, h5, ?_⟩
    · intro y hy
      rcases List.mem_cons.1 hy with rfl | hy
      · exact hx
      · exact h1 y hy
    · intro b g vs r h
      rcases h6 b g vs r h with h | h
      · exact hlog1 b g vs r h
      · exact .inr h
  have hle := hnext.2.2
  have hr7 : ph1.rank ≤ 7 := by
    cases ph1 with
    | running q g => cases g <;> simp [Phase.rank]
    | _ => simp [Phase.rank]
  by_cases he : ph.rank = ph1.rank
  · refine fin (ihl (left ph1.rank c1) ?_ hI1 hG1 hrun1 hid1 hres1 hph1 (by rw [← he]; exact hm) rfl)
    rcases hlt with hlt | hlt
    · rw [← he, ← hl]; exact hlt
    · exact absurd he (hlt _ hI1)
  · exact fin (ihm (7 - ph1.rank) (by omega) hI1 hG1 hrun1 hid1 hres1 hph1 rfl)

end
end TPB.Rust

namespace TPB.Rpc
open Spec
open Rust (Cfg Act Ev Ret BufLib Bufs User acts act codecAt RetIs Status Codec Handler Rq Phase Solo Going)
open Dart (ReadsResult)
open Dart (genClient)
open Props (SystemOk ReadableAt)

section
variable {σ : Type} {x : Ext} {rr : Rust.Runtime} {rt : Dart.Runtime} {hd : Int} {S : List ASTNode} {f : FnNode} {scope : String} {st : Status → Bytes}
variable {lib : BufLib} {U : User σ} {mem : Nat → Bufs} {u : σ} {rot : Int → Int} {xs : List SysAct} {N k : Nat}
variable {prev : List (Rq × Ret)} {ph : Phase}

theorem Joint.more {s : Sys σ} (J : Joint x rr S f scope st lib U mem u rot xs N k s) {ys : List SysAct} (h : ∀ a ∈ xs, a ∈ ys) :
    Joint x rr S f scope st lib U mem u rot ys N k s := by
  obtain ⟨zs, h1, h2, h3, h4⟩ := J.server
  exact ⟨⟨zs, h1, h2, fun bs hb => h _ (h3 bs hb), fun i r hb => h _ (h4 i r hb)⟩, J.tasks, J.last, J.asked, J.pend, J.live, J.futures, J.bound,
    J.owner, J.unfinished, J.uniq, J.doneBound, J.doneNodup, J.good⟩

theorem sysActs_append {C : Codec} {regs : List (Nat × Handler)} {P : Dart.Prog} {cl : Dart.Client} {s : Sys σ} (as bs : List SysAct) :
    sysActs C lib U regs rt P k hd rot cl s (as ++ bs) = (sysActs C lib U regs rt P k hd rot cl s as).bind (fun s => sysActs C lib U regs rt P k hd rot cl s bs) := by
  induction as generalizing s with
  | nil => rfl
  | cons a as ih =>
    simp only [List.cons_append, sysActs]
    split
    · exact ih
    · rfl

theorem sysActs_server {C : Codec} {regs : List (Nat × Handler)} {P : Dart.Prog} {cl : Dart.Client} (ys : List Act) {s : Sys σ} {c : Cfg σ}
    (h : acts C lib U regs s.server ys = some c) :
    sysActs C lib U regs rt P k hd rot cl s (ys.map .server) = some { s with server := c } := by
  induction ys generalizing s with
  | nil =>
    simp only [acts, Option.some.injEq] at h
    rw [← h]
    rfl
  | cons y ys ih =>
    simp only [acts] at h
    split at h
    case h_2 => simp at h
    case h_1 d hd' =>
    simp only [List.map_cons, sysActs, sysAct, hd']
    exact ih h

/-- The last call can be completed. -/
theorem can_complete (h : SystemOk x rr rt hd S) (hf : f ∈ methodsOf S) (hr : f.isRead = false) (ha : f.isAsync = true)
    (hst : ∀ P k, (codecAt rr P k).StatusOk st) (hlib : lib.Lawful) (hk : N ≤ k) {r0 : Ret}
    (hres : Results x rr rt S f (xs ++ [.server (.resume 0 r0)]) k) {T : Nat} (hids : FreshIds rot T) (ns sc : String) {s : Sys σ}
    (J : Joint x rr S f scope st lib U mem u rot xs N k s) (I : Single x rr S f st rot N k prev ph s)
    (hlen : (callsOf (x.camel f.id) s).length ≤ T)
    (hT : Typed rr.wire S f s.server.log) (hr0 : ∃ v b, RetIs r0 v ∧ ResultIs rr.wire S f v b)
    (hrun : ∀ r, s.server.run = some r → r.addr = f.position)
    {ds : List Val} {n : Nat} (hc : (x.camel f.id, ds, n) ∈ s.calls) (hnd : n ∉ s.client.done.map (·.1)) :
    ∃ ys : List Act, (∀ y ∈ ys, y.Works f.position r0) ∧ ∃ s',
      sysActs (codecAt rr (Rust.genProg (Rust.argsSchema S)) k) lib U (Rust.genRpc scope S).handlers rt (Dart.genProg x S) k hd rot (genClient x ns sc S) s
        (ys.map .server ++ [.read (Props.readTask x f)]) = some s' ∧ Typed rr.wire S f s'.server.log ∧ s'.calls = s.calls ∧
      ∀ ds' n', (x.camel f.id, ds', n') ∈ s.calls → n' ∈ s'.client.done.map (·.1) := by
  obtain ⟨j, hj⟩ := List.mem_iff_getElem?.1 (callsOf_mem.2 hc)
  have h1 : ¬ j < prev.length := fun hlt => hnd (I.closed _ _ _ hj hlt)
  have h2 := (List.getElem?_eq_some_iff.1 hj).1
  have hl := I.length
  have hph : ph.rq ≠ none := by
    intro e
    simp only [requests, e, Option.toList, List.length_append, List.length_map, List.length_nil] at hl
    omega
  have hbytes : ∀ r, (∃ i, SysAct.server (.resume i r) ∈ xs ++ [.server (.resume 0 r0)]) → (∃ v b, RetIs r v ∧ ResultIs rr.wire S f v b) →
      ∃ rb, Rust.ResultBytes (codecAt rr (Rust.genProg (Rust.argsSchema S)) k) f r rb := by
    rintro r ⟨i, hi⟩ ⟨v, b, k1, k2⟩
    obtain ⟨b', -, -, k3, -⟩ := hres i r hi v b k1 k2
    exact ⟨b', k3⟩
  obtain ⟨zs, hz1, hz2, hz3, hz4⟩ := J.server
  have hreg := Rust.handlers_lookup scope h.server.accepted.wf h.server.rpcNamed.methods hf
  have hloc := h.server.rpcNamed.locals f hf
  have hG : Going f f.position s.server := Rust.going_acts hr hloc hreg zs ⟨by simp [Cfg.initial], by simp [Cfg.initial]⟩ hz1
  obtain ⟨ys, c', ph', hy, hacts, hS', hnext, hclosed, hfin⟩ := Rust.can_answer (lib := lib) (U := U) (r0 := r0) (hst (Rust.genProg (Rust.argsSchema S)) k) hlib hr ha
    (h.server.rpcNamed.args f hf).1 (h.server.rpcNamed.args f hf).2 hloc hreg (readable_at hk) (hbytes r0 ⟨0, by simp⟩ hr0) I.solo hG hrun
    (by
      intro q i e1 e2
      have hidx : (requests prev ph)[prev.length]? = some q := by simp [requests, e1]
      obtain ⟨ds', n', hc'⟩ := callsOf_get (name := x.camel f.id) (s := s) (j := prev.length) (by omega)
      obtain ⟨vs, hs, -⟩ := I.sent _ _ _ hc'
      rw [hidx] at hs
      cases hs
      simp only [Option.some.injEq] at e2
      subst e2
      obtain ⟨m, hm⟩ := h.rust.wire.prim_total (.integer "i64" 8 true) "i64" (.int (idAt rot prev.length)) (.name "i64") rfl
          (by simpa [LeafVal] using hids.range prev.length (by omega))
      simp [codecAt, hm])
    (by
      intro vs r he
      obtain ⟨v, b, k1, k2⟩ := hT vs r he
      obtain ⟨i, hi⟩ : ∃ j, Act.resume j r ∈ zs := (Props.finished_resumed hz1 he).resolve_left (by simp [Cfg.initial])
      exact hbytes r ⟨i, by simp [hz4 _ _ hi]⟩ ⟨v, b, k1, k2⟩)
    hph
  refine ⟨ys, hy, ?_⟩
  have hT' : Typed rr.wire S f c'.log := by
    intro vs r he
    rcases hfin _ _ _ _ he with he | rfl
    · exact hT vs r he
    · exact hr0
  have hnr : ∀ y ∈ ys, ∀ bs, y ≠ .request f.position bs := by rintro y hy' bs rfl; exact (hy _ hy').elim
  have hnc : ∀ y ∈ ys, ∀ bs, y ≠ .clear f.position bs := by rintro y hy' bs rfl; exact (hy _ hy').elim
  obtain ⟨sv, cl, cs⟩ := s
  have I' : Single x rr S f st rot N k prev ph' ⟨c', cl, cs⟩ := I.next hS' hnext rfl rfl
  have hrun' := sysActs_server (rt := rt) (P := Dart.genProg x S) (k := k) (hd := hd) (rot := rot) (cl := genClient x ns sc S) (s := ⟨sv, cl, cs⟩) ys hacts
  have J' : Joint x rr S f scope st lib U mem u rot (xs ++ ys.map .server) N k ⟨c', cl, cs⟩ := by
    have J1 := J.more (ys := xs ++ ys.map .server) (by intro a ha; simp [ha])
    have : ∀ (as : List Act) (s s' : Sys σ), (∀ y ∈ as, y ∈ ys) → Joint x rr S f scope st lib U mem u rot (xs ++ ys.map .server) N k s →
        sysActs (codecAt rr (Rust.genProg (Rust.argsSchema S)) k) lib U (Rust.genRpc scope S).handlers rt (Dart.genProg x S) k hd rot (genClient x ns sc S) s
          (as.map .server) = some s' → Joint x rr S f scope st lib U mem u rot (xs ++ ys.map .server) N k s' := by
      intro as
      induction as with
      | nil => intro s s' _ J hs; simp only [List.map_nil, sysActs, Option.some.injEq] at hs; exact hs ▸ J
      | cons a as ih =>
        intro s s' hsub J hs
        simp only [List.map_cons, sysActs] at hs
        split at hs
        case h_2 => simp at hs
        case h_1 s1 hs1 =>
        exact ih s1 s' (fun y hy => hsub y (by simp [hy])) (joint_server J (.inl (by simp [hsub a (by simp)])) (hnr a (hsub a (by simp))) ns sc hs1) hs
    exact this ys _ _ (fun y hy => hy) J1 hrun'
  have hres' : Results x rr rt S f (xs ++ ys.map .server) k := by
    intro i r hi
    rcases List.mem_append.1 hi with hi | hi
    · exact hres i r (by simp [hi])
    · obtain ⟨y, hy1, e⟩ := List.mem_map.1 hi
      simp only [SysAct.server.injEq] at e
      subst e
      have : r = r0 := hy _ hy1
      subst this
      exact hres 0 r (by simp)
  obtain ⟨c2, dv, hread, -, hall⟩ := completes_last (C := codecAt rr (Rust.genProg (Rust.argsSchema S)) k) (regs := (Rust.genRpc scope S).handlers)
    h hf hr ha hst hres' ns sc J' I' hT' (.inr hclosed) hc hnd
  refine ⟨⟨c', c2, cs⟩, ?_, hT', rfl, hall⟩
  rw [sysActs_append, hrun']
  simp only [Option.bind_some, sysActs, hread]

end
end TPB.Rpc
