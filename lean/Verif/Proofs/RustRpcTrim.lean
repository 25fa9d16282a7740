/- Empty lines do not matter to the emitted handlers: what they do without them. -/
import Verif.Proofs.RustRpcReader
import Verif.Proofs.RustActs
namespace TPB.Rust

def Thread.trim (t : Thread) : Thread := { t with code := trimStmts t.code }

def Out.trim {σ : Type} (o : Out σ) : Out σ := { o with thread := o.thread.trim, spawned := o.spawned.map Thread.trim }

def Ran.trim {σ : Type} (r : Ran σ) : Ran σ := { r with spawned := r.spawned.map Thread.trim }

def Stmt.isBlock : Stmt → Bool
  | .ifArgs _ => true
  | .ifNotBusy _ => true
  | .ifResult _ => true
  | _ => false

mutual
/-- Blocks are the last statements of the blocks that they are in. -/
def Stmt.Tidy : Stmt → Prop
  | .ifArgs b => Tidys b
  | .ifNotBusy b => Tidys b
  | .ifResult b => Tidys b
  | .spawn b => Tidys b
  | .letArgs _ _ _ => True
  | .letBusy _ _ => True
  | .bufWrite _ _ => True
  | .call _ _ _ _ => True
  | .cloneArgs => True
  | .letMemory => True
  | .blank => True
def Tidys : List Stmt → Prop
  | [] => True
  | s :: ss => s.Tidy ∧ (s.isBlock = true → ss = []) ∧ Tidys ss
end

theorem tidy_genHandler (f : FnNode) : Tidys (genHandler f).body := by
  unfold genHandler
  split <;> split
  · simp [genAsyncReadBody, Tidys, Stmt.Tidy, Stmt.isBlock]
  · simp [genSyncReadBody, Tidys, Stmt.Tidy, Stmt.isBlock]
  · simp [genAsyncBody, genCall, Tidys, Stmt.Tidy, Stmt.isBlock]
  · simp [genSyncBody, genCall, Tidys, Stmt.Tidy, Stmt.isBlock]

variable {σ : Type} {C : Codec} {lib : BufLib} {U : User σ}

theorem step_blank {m : Bufs} {u : σ} {t : Thread} {rest : List Stmt} (h : t.code = .blank :: rest) :
    step C lib U m u t = .ok ⟨m, u, { t with code := rest }, [], none⟩ := by
  rw [step, h]

theorem trim_nonblank {s : Stmt} (h : s ≠ .blank) (rest : List Stmt) :
    ∃ s', s.trims = [s'] ∧ trimStmts (s :: rest) = s' :: trimStmts rest := by
  cases s <;> simp [Stmt.trims, trimStmts] at h ⊢

/-- A statement that is no empty line does the same with and without the empty lines around it. -/
theorem step_trim {m : Bufs} {u : σ} {t : Thread} {s : Stmt} {rest : List Stmt} (hc : t.code = s :: rest) (hs : s ≠ .blank)
    (ht : Tidys t.code) : step C lib U m u t.trim = (step C lib U m u t).map Out.trim := by
  rw [hc] at ht
  obtain ⟨f, o, w, c⟩ := t
  simp only at hc
  subst hc
  cases s with
  | blank => exact absurd rfl hs
  | letArgs b st ty =>
    simp only [step, Thread.trim, trimStmts, Stmt.trims, List.cons_append, List.nil_append]
    cases evalLetArgs C st ty (m.get b) <;> rfl
  | letBusy b st =>
    simp only [step, Thread.trim, trimStmts, Stmt.trims, List.cons_append, List.nil_append]
    cases readStatus C (m.get b) <;> rfl
  | bufWrite b ws =>
    simp only [step, Thread.trim, trimStmts, Stmt.trims, List.cons_append, List.nil_append]
    by_cases hm : "memory" ∈ f.names
    · simp only [if_pos hm]
      refine (if_pos hm).trans ?_
      cases evalBufWs C f ws <;> rfl
    · simp only [if_neg hm]; refine (if_neg hm).trans ?_; rfl
  | call res g as await =>
    simp only [step, Thread.trim, trimStmts, Stmt.trims, List.cons_append, List.nil_append]
    by_cases hm : g ∈ f.names
    · simp only [if_pos hm]; refine (if_pos hm).trans ?_; rfl
    · simp only [if_neg hm]
      refine (if_neg hm).trans ?_
      cases callArgs f as with
      | error e => rfl
      | ok xs => cases await <;> rfl
  | ifArgs body =>
    obtain rfl := ht.2.1 rfl
    simp only [step, Thread.trim, trimStmts, Stmt.trims, List.cons_append, List.nil_append]
    cases f.argsOpt with
    | none => rfl
    | some o => cases o <;> rfl
  | ifNotBusy body =>
    obtain rfl := ht.2.1 rfl
    simp only [step, Thread.trim, trimStmts, Stmt.trims, List.cons_append, List.nil_append]
    cases f.busy with
    | none => rfl
    | some o => cases o <;> rfl
  | ifResult body =>
    obtain rfl := ht.2.1 rfl
    simp only [step, Thread.trim, trimStmts, Stmt.trims, List.cons_append, List.nil_append]
    cases f.result with
    | none => rfl
    | some o =>
      cases o with
      | opt o => cases o <;> rfl
      | _ => rfl
  | cloneArgs =>
    simp only [step, Thread.trim, trimStmts, Stmt.trims, List.cons_append, List.nil_append]
    cases f.args <;> rfl
  | spawn body =>
    simp only [step, Thread.trim, trimStmts, Stmt.trims, List.cons_append, List.nil_append]
    by_cases hm : "async_context" ∈ f.names
    · simp only [if_pos hm]; refine (if_pos hm).trans ?_; rfl
    · simp only [if_neg hm]; refine (if_neg hm).trans ?_; rfl
  | letMemory =>
    simp only [step, Thread.trim, trimStmts, Stmt.trims, List.cons_append, List.nil_append]
    by_cases hm : "runtime_as_mut" ∈ f.names
    · simp only [if_pos hm]; refine (if_pos hm).trans ?_; rfl
    · simp only [if_neg hm]; refine (if_neg hm).trans ?_; rfl

/-- What the code is after a step. -/
theorem step_code {m : Bufs} {u : σ} {t : Thread} {o : Out σ} (h : step C lib U m u t = .ok o) :
    ∃ s rest, t.code = s :: rest ∧
      ((o.thread.code = rest ∧ (o.spawned = none ∨ ∃ b fr, s = .spawn b ∧ o.spawned = some ⟨fr, none, none, b⟩)) ∨
        (o.spawned = none ∧ rest = [] ∧ ((s = .ifArgs o.thread.code ∨ s = .ifNotBusy o.thread.code ∨ s = .ifResult o.thread.code) ∨
          o.thread.code = []))) := by
  obtain ⟨f, ou, w, c⟩ := t
  cases c with
  | nil => simp [step] at h
  | cons s rest =>
    refine ⟨s, rest, rfl, ?_⟩
    cases s with
    | blank => simp only [step, Except.ok.injEq] at h; subst h; exact .inl ⟨rfl, .inl rfl⟩
    | letArgs b st ty =>
      simp only [step] at h
      cases h1 : evalLetArgs C st ty (m.get b) <;> rw [h1] at h <;> simp [bind, Except.bind] at h
      subst h; exact .inl ⟨rfl, .inl rfl⟩
    | letBusy b st =>
      simp only [step] at h
      cases h1 : readStatus C (m.get b) <;> rw [h1] at h <;> simp [bind, Except.bind] at h
      subst h; exact .inl ⟨rfl, .inl rfl⟩
    | bufWrite b ws =>
      simp only [step] at h
      split at h
      · cases h1 : evalBufWs C f ws <;> rw [h1] at h <;> simp [bind, Except.bind] at h
        subst h; exact .inl ⟨rfl, .inl rfl⟩
      · cases h
    | call res g as await =>
      simp only [step] at h
      split at h
      · cases h
      · cases h1 : callArgs f as <;> rw [h1] at h <;> simp [bind, Except.bind] at h
        split at h <;> cases h <;> exact .inl ⟨rfl, .inl rfl⟩
    | ifArgs body =>
      simp only [step] at h
      split at h
      · cases h; exact .inr ⟨rfl, rfl, .inl (.inl rfl)⟩
      · cases h; exact .inr ⟨rfl, rfl, .inr rfl⟩
      · cases h
    | ifNotBusy body =>
      simp only [step] at h
      split at h
      · cases h; exact .inr ⟨rfl, rfl, .inl (.inr (.inl rfl))⟩
      · cases h; exact .inr ⟨rfl, rfl, .inr rfl⟩
      · cases h
    | ifResult body =>
      simp only [step] at h
      split at h
      · cases h; exact .inr ⟨rfl, rfl, .inl (.inr (.inr rfl))⟩
      · cases h; exact .inr ⟨rfl, rfl, .inr rfl⟩
      · cases h
    | cloneArgs =>
      simp only [step] at h
      split at h
      · cases h; exact .inl ⟨rfl, .inl rfl⟩
      · cases h
    | spawn body =>
      simp only [step] at h
      split at h
      · cases h; exact .inl ⟨rfl, .inr ⟨body, _, rfl, rfl⟩⟩
      · cases h
    | letMemory =>
      simp only [step] at h
      split at h
      · cases h; exact .inl ⟨rfl, .inl rfl⟩
      · cases h

theorem stmt_size_pos (s : Stmt) : 0 < s.size := by cases s <;> simp [Stmt.size]

theorem step_size {m : Bufs} {u : σ} {t : Thread} {o : Out σ} (h : step C lib U m u t = .ok o) :
    stmtsSize o.thread.code < stmtsSize t.code := by
  obtain ⟨s, rest, hc, h1⟩ := step_code h
  rw [hc, stmtsSize]
  have hp := stmt_size_pos s
  rcases h1 with ⟨h1, _⟩ | ⟨_, rfl, h1⟩
  · rw [h1]; omega
  · rcases h1 with (rfl | rfl | rfl) | h1
    · simp only [Stmt.size, stmtsSize]; omega
    · simp only [Stmt.size, stmtsSize]; omega
    · simp only [Stmt.size, stmtsSize]; omega
    · rw [h1, stmtsSize]; omega

theorem step_tidy {m : Bufs} {u : σ} {t : Thread} {o : Out σ} (ht : Tidys t.code) (h : step C lib U m u t = .ok o) :
    Tidys o.thread.code ∧ ∀ s ∈ o.spawned, Tidys s.code := by
  obtain ⟨s, rest, hc, h1⟩ := step_code h
  rw [hc] at ht
  rcases h1 with ⟨h1, h2⟩ | ⟨h2, rfl, h1⟩
  · rw [h1]
    refine ⟨ht.2.2, ?_⟩
    rcases h2 with h2 | ⟨b, fr, rfl, h2⟩
    · simp [h2]
    · rw [h2]
      intro s hs
      cases hs
      exact ht.1
  · refine ⟨?_, by simp [h2]⟩
    rcases h1 with (rfl | rfl | rfl) | h1
    · exact ht.1
    · exact ht.1
    · exact ht.1
    · rw [h1]; trivial

theorem eval_trim (r : RetE) (t : Thread) : r.eval t.trim = r.eval t := by cases r <;> rfl

theorem code_trim_nil {t : Thread} (h : t.code = []) : t.trim = t := by
  obtain ⟨f, o, w, c⟩ := t
  simp only at h
  subst h
  rfl

theorem code_trim_blank {t : Thread} {rest : List Stmt} (h : t.code = .blank :: rest) :
    ({ t with code := rest } : Thread).trim = t.trim := by
  obtain ⟨f, o, w, c⟩ := t
  simp only at h
  subst h
  rfl

theorem runThread_nil (r : RetE) (n : Nat) (m : Bufs) (u : σ) {t : Thread} (h : t.code = []) :
    runThread C lib U r n m u t = (do let b ← r.eval t; .ok ⟨m, u, [], [], b⟩) := by
  cases n <;> rw [runThread, h]

theorem runThread_trim (r : RetE) : ∀ (n n' : Nat) (m : Bufs) (u : σ) (t : Thread), t.wait = none → Tidys t.code →
    stmtsSize t.code ≤ n → stmtsSize t.trim.code ≤ n' →
    runThread C lib U r n' m u t.trim = (runThread C lib U r n m u t).map Ran.trim := by
  intro n
  induction n with
  | zero =>
    intro n' m u t hw ht h1 h2
    cases hc : t.code with
    | cons s rest => rw [hc, stmtsSize] at h1; have := stmt_size_pos s; omega
    | nil =>
      rw [code_trim_nil hc, runThread_nil r _ m u hc, runThread_nil r _ m u hc]
      cases r.eval t <;> rfl
  | succ n ih =>
    intro n' m u t hw ht h1 h2
    cases hc : t.code with
    | nil =>
      rw [code_trim_nil hc, runThread_nil r _ m u hc, runThread_nil r _ m u hc]
      cases r.eval t <;> rfl
    | cons s rest =>
      by_cases hs : s = .blank
      · subst hs
        rw [runThread, hc]
        simp only
        rw [step_blank hc]
        simp only [bind, Except.bind, hw]
        rw [hc] at ht h1
        have := ih n' m u { t with code := rest } hw ht.2.2 (by rw [stmtsSize, Stmt.size] at h1; simp only; omega) (by rwa [code_trim_blank hc])
        rw [code_trim_blank hc] at this
        rw [this]
        simp only [hw]
        generalize runThread C lib U r n m u _ = q
        cases q <;> rfl
      · obtain ⟨s', _, hs'⟩ := trim_nonblank hs rest
        have hct : t.trim.code = s' :: trimStmts rest := by rw [← hs', ← hc]; rfl
        cases n' with
        | zero => rw [hct, stmtsSize] at h2; have := stmt_size_pos s'; omega
        | succ n' =>
          have hst := step_trim (C := C) (lib := lib) (U := U) (m := m) (u := u) hc hs ht
          rw [runThread, runThread, hct, hc]
          simp only
          rw [hst]
          cases ho : step C lib U m u t with
          | error e => rfl
          | ok o =>
            simp only [Except.map, bind, Except.bind]
            have hto := step_tidy ht ho
            have hso := step_size ho
            have hso' := step_size (hst.trans (by rw [ho]; rfl : _ = Except.ok o.trim))
            have hw' : o.trim.thread.wait = o.thread.wait := rfl
            rw [hw']
            cases hwo : o.thread.wait with
            | some _ => rfl
            | none =>
              have := ih n' o.bufs o.user o.thread hwo hto.1 (by omega) (by simp only [Out.trim] at hso'; omega)
              simp only [Out.trim]
              rw [this]
              cases runThread C lib U r n o.bufs o.user o.thread with
              | error e => rfl
              | ok r =>
                simp only [Except.map, Ran.trim, List.map_append]
                cases o.spawned <;> rfl

theorem runHandler_trim {h : Handler} (ht : Tidys h.body) (m : Bufs) (u : σ) :
    runHandler C lib U h.trim m u = (runHandler C lib U h m u).map Ran.trim := by
  have := runThread_trim (C := C) (lib := lib) (U := U) h.ret (stmtsSize h.body) (stmtsSize h.trim.body) m u h.start rfl ht
    (Nat.le_refl _) (Nat.le_refl _)
  exact this

theorem runTimes_trim {h : Handler} (ht : Tidys h.body) : ∀ (n : Nat) (m : Bufs) (u : σ),
    runTimes C lib U h.trim n m u = (runTimes C lib U h n m u).map (List.map Ran.trim)
  | 0, m, u => rfl
  | n + 1, m, u => by
    rw [runTimes, runTimes, runHandler_trim ht]
    cases runHandler C lib U h m u with
    | error e => rfl
    | ok r =>
      have := runTimes_trim ht n r.bufs r.user
      simp only [Except.map, bind, Except.bind, Ran.trim]
      rw [this]
      cases runTimes C lib U h n r.bufs r.user <;> rfl

theorem runFuture_trim (r : Ret) : ∀ (n : Nat) (m : Bufs) (u : σ) (t : Thread) (x : Bufs × List (String × List Spec.Val)), Tidys t.code →
    runFuture C lib U r n m u t = .ok x → ∃ n', runFuture C lib U r n' m u t.trim = .ok x
  | 0, m, u, t, x, _, h => by simp [runFuture] at h
  | n + 1, m, u, t, x, ht, h => by
    obtain ⟨f, o, w, c⟩ := t
    cases w with
    | some w =>
      obtain ⟨res, g, xs⟩ := w
      simp only [runFuture] at h
      obtain ⟨n', h'⟩ := runFuture_trim r n m u ⟨bindResult res r f, o, none, c⟩ x ht h
      exact ⟨n' + 1, by simp only [runFuture, Thread.trim]; exact h'⟩
    | none =>
      cases c with
      | nil =>
        simp only [runFuture, Except.ok.injEq] at h
        subst h
        exact ⟨1, rfl⟩
      | cons s rest =>
        by_cases hs : s = .blank
        · subst hs
          simp only [runFuture, step, bind, Except.bind] at h
          cases hr : runFuture C lib U r n m u ⟨f, o, none, rest⟩ with
          | error e => rw [hr] at h; cases h
          | ok y =>
            rw [hr] at h
            simp only [List.nil_append, Except.ok.injEq] at h
            obtain ⟨n', h'⟩ := runFuture_trim r n m u _ y ht.2.2 hr
            refine ⟨n', ?_⟩
            rw [← h]
            exact h'
        · obtain ⟨s', _, hs'⟩ := trim_nonblank hs rest
          simp only [runFuture] at h
          have hst := step_trim (C := C) (lib := lib) (U := U) (m := m) (u := u) (t := ⟨f, o, none, s :: rest⟩) rfl hs ht
          cases ho : step C lib U m u ⟨f, o, none, s :: rest⟩ with
          | error e => rw [ho] at h; cases h
          | ok q =>
            rw [ho] at h hst
            simp only [bind, Except.bind] at h
            cases hsp : q.spawned with
            | some _ => rw [hsp] at h; cases h
            | none =>
              rw [hsp] at h
              simp only at h
              cases hr : runFuture C lib U r n q.bufs q.user q.thread with
              | error e => rw [hr] at h; cases h
              | ok y =>
                rw [hr] at h
                obtain ⟨n', h'⟩ := runFuture_trim r n q.bufs q.user q.thread y (step_tidy ht ho).1 hr
                refine ⟨n' + 1, ?_⟩
                have e : (⟨f, o, none, s :: rest⟩ : Thread).trim = ⟨f, o, none, s' :: trimStmts rest⟩ := by
                  simp only [Thread.trim, hs']
                rw [e] at hst ⊢
                simp only [runFuture, hst, Except.map, bind, Except.bind, Out.trim, hsp, Option.map_none, h']
                exact h

theorem runThread_tidy (r : RetE) : ∀ (n : Nat) (m : Bufs) (u : σ) (t : Thread) (x : Ran σ), Tidys t.code →
    runThread C lib U r n m u t = .ok x → ∀ q ∈ x.spawned, Tidys q.code := by
  intro n
  induction n with
  | zero =>
    intro m u t x ht h
    cases hc : t.code with
    | cons s rest => rw [runThread, hc] at h; simp at h
    | nil =>
      rw [runThread_nil r _ m u hc] at h
      cases hr : r.eval t <;> rw [hr] at h <;> simp [bind, Except.bind] at h
      subst h
      simp
  | succ n ih =>
    intro m u t x ht h
    cases hc : t.code with
    | nil =>
      rw [runThread_nil r _ m u hc] at h
      cases hr : r.eval t <;> rw [hr] at h <;> simp [bind, Except.bind] at h
      subst h
      simp
    | cons s rest =>
      rw [runThread, hc] at h
      simp only [bind, Except.bind] at h
      cases ho : step C lib U m u t with
      | error e => rw [ho] at h; simp at h
      | ok o =>
        rw [ho] at h
        simp only at h
        cases hw : o.thread.wait with
        | some w => rw [hw] at h; simp at h
        | none =>
          rw [hw] at h
          simp only at h
          cases hr : runThread C lib U r n o.bufs o.user o.thread with
          | error e => rw [hr] at h; simp at h
          | ok y =>
            rw [hr] at h
            simp only [Except.ok.injEq] at h
            subst h
            intro q hq
            have hto := step_tidy ht ho
            rcases List.mem_append.1 hq with hq | hq
            · exact hto.2 q (by simpa using hq)
            · exact ih _ _ _ _ hto.1 hr q hq

/-! ### Histories -/

def Task.trim (t : Task) : Task := { t with thread := t.thread.trim }

def Run.trim (r : Run) : Run := { r with thread := r.thread.trim }

def Cfg.trim (c : Cfg σ) : Cfg σ := { c with run := c.run.map Run.trim, tasks := c.tasks.map Task.trim }

def Cfg.Tidy (c : Cfg σ) : Prop := (∀ r ∈ c.run, Tidys r.thread.code) ∧ ∀ t ∈ c.tasks, Tidys t.thread.code

theorem acts_append' {regs : List (Nat × Handler)} (c : Cfg σ) (xs ys : List Act) :
    acts C lib U regs c (xs ++ ys) = (acts C lib U regs c xs).bind (fun c => acts C lib U regs c ys) := by
  induction xs generalizing c with
  | nil => rfl
  | cons x xs ih =>
    simp only [List.cons_append, acts]
    cases act C lib U regs c x with
    | none => rfl
    | some c => exact ih c

theorem skip_blanks : ∀ (c : List Stmt), ∃ c', trimStmts c' = trimStmts c ∧ (c' = [] ∨ ∃ s r, c' = s :: r ∧ s ≠ .blank)
  | [] => ⟨[], rfl, .inl rfl⟩
  | s :: r => by
    by_cases hs : s = .blank
    · obtain ⟨c', h1, h2⟩ := skip_blanks r
      exact ⟨c', by rw [h1, hs]; rfl, h2⟩
    · exact ⟨s :: r, rfl, .inr ⟨s, r, rfl, hs⟩⟩

/-- The code of a thread begins with no empty line. -/
def AtStmt (t : Thread) : Prop := ∀ rest, t.code ≠ .blank :: rest

theorem setMem_same (mem : Nat → Bufs) (a : Nat) : setMem mem a (mem a) = mem := by
  funext b
  unfold setMem
  split
  · next h => rw [h]
  · rfl

/-- A running handler can pass the empty lines before its next statement. -/
theorem passH {regs : List (Nat × Handler)} : ∀ (k : Nat) (c : Cfg σ) (r : Run), c.run = some r → r.thread.code.length ≤ k → c.Tidy →
    ∃ ys c' r', (∀ y ∈ ys, Act.IsStep y) ∧ acts C lib U regs c ys = some c' ∧ c'.trim = c.trim ∧ c'.Tidy ∧ c'.run = some r' ∧
      r'.trim = r.trim ∧ AtStmt r'.thread ∧ c'.tasks = c.tasks ∧ c'.mem = c.mem ∧ c'.user = c.user ∧ c'.log = c.log := by
  intro k
  induction k with
  | zero =>
    intro c r h1 h2 h3
    refine ⟨[], c, r, by simp, rfl, rfl, h3, h1, rfl, ?_, rfl, rfl, rfl, rfl⟩
    intro rest hr
    rw [hr] at h2
    simp at h2
  | succ k ih =>
    intro c r h1 h2 h3
    by_cases hb : ∃ rest, r.thread.code = .blank :: rest
    · obtain ⟨rest, hb⟩ := hb
      have hact : act C lib U regs c .stepH = some { c with run := some { r with thread := { r.thread with code := rest } } } := by
        simp only [act, h1, step_blank hb, setMem_same, Option.toList, List.map_nil, List.append_nil]
      have htr : (Run.mk r.addr r.ret { r.thread with code := rest }).trim = r.trim := by
        unfold Run.trim
        rw [code_trim_blank hb]
      have htidy : Cfg.Tidy { c with run := some { r with thread := { r.thread with code := rest } } } := by
        refine ⟨fun q hq => ?_, h3.2⟩
        cases hq
        have := h3.1 r h1
        rw [hb] at this
        exact this.2.2
      obtain ⟨ys, c', r', g1, g2, g3, g4, g5, g6, g7, g8, g9, g10, g11⟩ := ih { c with run := some { r with thread := { r.thread with code := rest } } }
        { r with thread := { r.thread with code := rest } } rfl (by rw [hb] at h2; simpa using h2) htidy
      refine ⟨.stepH :: ys, c', r', ?_, ?_, ?_, g4, g5, g6.trans htr, g7, g8, g9, g10, g11⟩
      · intro y hy
        rcases List.mem_cons.1 hy with rfl | hy
        · trivial
        · exact g1 y hy
      · rw [acts, hact]; exact g2
      · rw [g3]
        simp only [Cfg.trim, h1, Option.map_some, htr]
    · exact ⟨[], c, r, by simp, rfl, rfl, h3, h1, rfl, fun rest hr => hb ⟨rest, hr⟩, rfl, rfl, rfl, rfl⟩

/-- A future can pass the empty lines before its next statement. -/
theorem passT {regs : List (Nat × Handler)} (i : Nat) : ∀ (k : Nat) (c : Cfg σ) (t : Task), c.tasks[i]? = some t → t.thread.wait = none →
    t.thread.code.length ≤ k → c.Tidy →
    ∃ ys c' t', (∀ y ∈ ys, Act.IsStep y) ∧ acts C lib U regs c ys = some c' ∧ c'.trim = c.trim ∧ c'.Tidy ∧ c'.tasks[i]? = some t' ∧
      t'.trim = t.trim ∧ AtStmt t'.thread := by
  intro k
  induction k with
  | zero =>
    intro c t h1 hw h2 h3
    refine ⟨[], c, t, by simp, rfl, rfl, h3, h1, rfl, ?_⟩
    intro rest hr
    rw [hr] at h2
    simp at h2
  | succ k ih =>
    intro c t h1 hw h2 h3
    by_cases hb : ∃ rest, t.thread.code = .blank :: rest
    · obtain ⟨rest, hb⟩ := hb
      have hact : act C lib U regs c (.stepT i) = some { c with tasks := c.tasks.set i { t with thread := { t.thread with code := rest } } } := by
        simp only [act, h1, hw, step_blank hb, setMem_same, Option.toList, List.map_nil, List.append_nil]
      have htr : (Task.mk t.addr { t.thread with code := rest }).trim = t.trim := by
        unfold Task.trim
        rw [code_trim_blank hb]
      have hi : i < c.tasks.length := (List.getElem?_eq_some_iff.1 h1).1
      have htidy : Cfg.Tidy { c with tasks := c.tasks.set i { t with thread := { t.thread with code := rest } } } := by
        refine ⟨h3.1, fun q hq => ?_⟩
        rcases List.mem_or_eq_of_mem_set hq with hq | rfl
        · exact h3.2 q hq
        · have := h3.2 t (List.mem_of_getElem? h1)
          rw [hb] at this
          exact this.2.2
      obtain ⟨ys, c', t', g1, g2, g3, g4, g5, g6, g7⟩ := ih { c with tasks := c.tasks.set i { t with thread := { t.thread with code := rest } } }
        { t with thread := { t.thread with code := rest } } (by simp [hi]) hw (by rw [hb] at h2; simpa using h2) htidy
      refine ⟨.stepT i :: ys, c', t', ?_, ?_, ?_, g4, g5, g6.trans htr, g7⟩
      · intro y hy
        rcases List.mem_cons.1 hy with rfl | hy
        · trivial
        · exact g1 y hy
      · rw [acts, hact]; exact g2
      · rw [g3]
        simp only [Cfg.trim, List.map_set, htr]
        congr 1
        apply List.ext_getElem?
        intro j
        rw [List.getElem?_set]
        split
        · next h => subst h; simp only [List.getElem?_map, h1, Option.map_some, List.length_map, hi, if_true]
        · rfl
    · exact ⟨[], c, t, by simp, rfl, rfl, h3, h1, rfl, fun rest hr => hb ⟨rest, hr⟩⟩

theorem ready_cases {t : Thread} (h : AtStmt t) : t.code = [] ∨ ∃ s r, t.code = s :: r ∧ s ≠ .blank := by
  cases hc : t.code with
  | nil => exact .inl rfl
  | cons s r => exact .inr ⟨s, r, rfl, fun e => h r (by rw [hc, e])⟩

theorem step_ready {m : Bufs} {u : σ} {t : Thread} (h : AtStmt t) (ht : Tidys t.code) :
    step C lib U m u t.trim = (step C lib U m u t).map Out.trim := by
  rcases ready_cases h with h | ⟨s, r, h1, h2⟩
  · rw [code_trim_nil h]
    rw [step, h]
    rfl
  · exact step_trim h1 h2 ht

/-- Every step of the handlers without empty lines is a step of those with them, after passing some empty lines. -/
theorem act_trim {regs : List (Nat × Handler)} (hregs : ∀ x ∈ regs, Tidys x.2.body) {c : Cfg σ} (hc : c.Tidy) {x : Act} {d : Cfg σ}
    (h : act C lib U (regs.map (fun p => (p.1, p.2.trim))) c.trim x = some d) :
    ∃ ys d', (∀ y ∈ ys, y = x ∨ y.IsStep) ∧ acts C lib U regs c ys = some d' ∧ d'.trim = d ∧ d'.Tidy := by
  cases x with
  | poll a =>
    simp only [act] at h
    have hl : (regs.map (fun p => (p.1, p.2.trim))).lookup a = (regs.lookup a).map Handler.trim := by
      clear hregs h
      induction regs with
      | nil => rfl
      | cons p regs ih =>
        obtain ⟨b, q⟩ := p
        simp only [List.map_cons, List.lookup_cons]
        split
        · rfl
        · exact ih
    rw [hl] at h
    cases hr : c.run with
    | some r => simp [Cfg.trim, hr] at h
    | none =>
      cases hg : regs.lookup a with
      | none => simp [hg] at h
      | some g =>
        simp only [Cfg.trim, hr, hg, Option.map_none, Option.map_some, Option.some.injEq] at h
        refine ⟨[.poll a], { c with run := some ⟨a, g.ret, g.start⟩ }, by simp, ?_, ?_, ?_, hc.2⟩
        · simp only [acts, act, hr, hg]
        · rw [← h]; rfl
        · intro q hq
          cases hq
          have hm : ∃ b, (b, g) ∈ regs := by
            clear h hl hregs
            induction regs with
            | nil => simp at hg
            | cons p regs ih =>
              obtain ⟨b, q⟩ := p
              rw [List.lookup_cons] at hg
              split at hg
              · cases hg; exact ⟨b, by simp⟩
              · obtain ⟨b, hb⟩ := ih hg
                exact ⟨b, by simp [hb]⟩
          obtain ⟨b, hb⟩ := hm
          exact hregs _ hb
  | stepH =>
    cases hr : c.run with
    | none => simp [act, Cfg.trim, hr] at h
    | some r =>
      obtain ⟨ys, c', r', g1, g2, g3, g4, g5, g6, g7, -, -, -, -⟩ := passH (C := C) (lib := lib) (U := U) (regs := regs) _ c r hr (Nat.le_refl _) hc
      rw [← g3] at h
      have hst := step_ready (C := C) (lib := lib) (U := U) (m := c'.mem r'.addr) (u := c'.user) g7 (g4.1 r' g5)
      have e : act C lib U (regs.map (fun p => (p.1, p.2.trim))) c'.trim .stepH =
          match step C lib U (c'.mem r'.addr) c'.user r'.thread.trim with
          | .ok o => some { c'.trim with
              mem := setMem c'.mem r'.addr o.bufs, user := o.user, run := some { r'.trim with thread := o.thread },
              tasks := c'.trim.tasks ++ (o.spawned.toList.map (Task.mk r'.addr)),
              log := c'.log ++ o.calls.map (fun p => .called r'.addr p.1 p.2) }
          | .error _ => none := by
        simp only [act, Cfg.trim, g5, Option.map_some]
        rfl
      rw [e, hst] at h
      cases ho : step C lib U (c'.mem r'.addr) c'.user r'.thread with
      | error e => rw [ho] at h; simp [Except.map] at h
      | ok o =>
        rw [ho] at h
        simp only [Except.map, Option.some.injEq] at h
        have hto := step_tidy (g4.1 r' g5) ho
        refine ⟨ys ++ [.stepH], { c' with
          mem := setMem c'.mem r'.addr o.bufs, user := o.user, run := some { r' with thread := o.thread },
          tasks := c'.tasks ++ (o.spawned.toList.map (Task.mk r'.addr)),
          log := c'.log ++ o.calls.map (fun p => .called r'.addr p.1 p.2) }, ?_, ?_, ?_, ?_, ?_⟩
        · intro y hy
          rcases List.mem_append.1 hy with hy | hy
          · exact .inr (g1 y hy)
          · exact .inl (by simpa using hy)
        · rw [acts_append', g2]
          simp only [Option.bind_some, acts, act, g5, ho]
        · rw [← h]
          simp only [Cfg.trim, Option.map_some, List.map_append, Out.trim]
          cases o.spawned <;> rfl
        · intro q hq
          cases hq
          exact hto.1
        · intro q hq
          rcases List.mem_append.1 hq with hq | hq
          · exact g4.2 q hq
          · obtain ⟨t, ht, rfl⟩ := List.mem_map.1 hq
            exact hto.2 t (by simpa using ht)
  | endH =>
    cases hr : c.run with
    | none => simp [act, Cfg.trim, hr] at h
    | some r =>
      obtain ⟨ys, c', r', g1, g2, g3, g4, g5, g6, g7, -, -, -, -⟩ := passH (C := C) (lib := lib) (U := U) (regs := regs) _ c r hr (Nat.le_refl _) hc
      rw [← g3] at h
      have e : act C lib U (regs.map (fun p => (p.1, p.2.trim))) c'.trim .endH =
          match r'.thread.trim.code, r'.ret.eval r'.thread.trim with
          | [], .ok b => some { c'.trim with run := none, log := c'.log ++ [.handled r'.addr b] }
          | _, _ => none := by
        simp only [act, Cfg.trim, g5, Option.map_some]
        rfl
      rw [e, eval_trim] at h
      rcases ready_cases g7 with hn | ⟨s, q, hn, hs⟩
      · rw [code_trim_nil hn, hn] at h
        cases hev : r'.ret.eval r'.thread with
        | error e => rw [hev] at h; simp at h
        | ok b =>
          rw [hev] at h
          simp only [Option.some.injEq] at h
          refine ⟨ys ++ [.endH], { c' with run := none, log := c'.log ++ [.handled r'.addr b] }, ?_, ?_, ?_, by simp, g4.2⟩
          · intro y hy
            rcases List.mem_append.1 hy with hy | hy
            · exact .inr (g1 y hy)
            · exact .inl (by simpa using hy)
          · rw [acts_append', g2]
            simp only [Option.bind_some, acts, act, g5, hn, hev]
          · rw [← h]
            rfl
      · obtain ⟨s', _, hs'⟩ := trim_nonblank hs q
        have : r'.thread.trim.code = s' :: trimStmts q := by rw [← hs', ← hn]; rfl
        rw [this] at h
        simp at h
  | stepT i =>
    cases ht : c.tasks[i]? with
    | none => simp [act, Cfg.trim, ht] at h
    | some t =>
      cases hw : t.thread.wait with
      | some w =>
        have : (c.trim.tasks[i]?) = some t.trim := by simp [Cfg.trim, ht]
        simp only [act, this] at h
        have hw' : t.trim.thread.wait = some w := hw
        rw [hw'] at h
        simp at h
      | none =>
        obtain ⟨ys, c', t', g1, g2, g3, g4, g5, g6, g7⟩ := passT (C := C) (lib := lib) (U := U) (regs := regs) i _ c t ht hw (Nat.le_refl _) hc
        rw [← g3] at h
        have hwt : t'.thread.wait = none := by
          have : t'.trim.thread.wait = t.trim.thread.wait := by rw [g6]
          exact this.trans hw
        have htd := g4.2 t' (List.mem_of_getElem? g5)
        have hst := step_ready (C := C) (lib := lib) (U := U) (m := c'.mem t'.addr) (u := c'.user) g7 htd
        have e : act C lib U (regs.map (fun p => (p.1, p.2.trim))) c'.trim (.stepT i) =
            match step C lib U (c'.mem t'.addr) c'.user t'.thread.trim with
            | .ok o => some { c'.trim with
                mem := setMem c'.mem t'.addr o.bufs, user := o.user,
                tasks := (c'.trim.tasks.set i { t'.trim with thread := o.thread }) ++ (o.spawned.toList.map (Task.mk t'.addr)),
                log := c'.log ++ o.calls.map (fun p => .called t'.addr p.1 p.2) }
            | .error _ => none := by
          have : (c'.trim.tasks[i]?) = some t'.trim := by simp [Cfg.trim, g5]
          simp only [act, this]
          have hw' : t'.trim.thread.wait = none := hwt
          rw [hw']
          rfl
        rw [e, hst] at h
        cases ho : step C lib U (c'.mem t'.addr) c'.user t'.thread with
        | error e => rw [ho] at h; simp [Except.map] at h
        | ok o =>
          rw [ho] at h
          simp only [Except.map, Option.some.injEq] at h
          have hto := step_tidy htd ho
          refine ⟨ys ++ [.stepT i], { c' with
            mem := setMem c'.mem t'.addr o.bufs, user := o.user,
            tasks := (c'.tasks.set i { t' with thread := o.thread }) ++ (o.spawned.toList.map (Task.mk t'.addr)),
            log := c'.log ++ o.calls.map (fun p => .called t'.addr p.1 p.2) }, ?_, ?_, ?_, ?_, ?_⟩
          · intro y hy
            rcases List.mem_append.1 hy with hy | hy
            · exact .inr (g1 y hy)
            · exact .inl (by simpa using hy)
          · rw [acts_append', g2]
            simp only [Option.bind_some, acts, act, g5, hwt, ho]
          · rw [← h]
            simp only [Cfg.trim, List.map_append, List.map_set, Out.trim]
            cases o.spawned <;> rfl
          · exact g4.1
          · intro q hq
            rcases List.mem_append.1 hq with hq | hq
            · rcases List.mem_or_eq_of_mem_set hq with hq | rfl
              · exact g4.2 q hq
              · exact hto.1
            · obtain ⟨t, ht, rfl⟩ := List.mem_map.1 hq
              exact hto.2 t (by simpa using ht)
  | resume i r =>
    cases ht : c.tasks[i]? with
    | none => simp [act, Cfg.trim, ht] at h
    | some t =>
      have h1 : (c.trim.tasks[i]?) = some t.trim := by simp [Cfg.trim, ht]
      simp only [act, h1] at h
      have hw' : t.trim.thread.wait = t.thread.wait := rfl
      rw [hw'] at h
      cases hw : t.thread.wait with
      | none => rw [hw] at h; simp at h
      | some w =>
        obtain ⟨res, f, xs⟩ := w
        rw [hw] at h
        simp only [Option.some.injEq] at h
        refine ⟨[.resume i r], { c with
          tasks := c.tasks.set i { t with thread := { t.thread with frame := bindResult res r t.thread.frame, wait := none } },
          log := c.log ++ [.finished t.addr f xs r] }, by simp, ?_, ?_, hc.1, ?_⟩
        · simp only [acts, act, ht, hw]
        · rw [← h]
          simp only [Cfg.trim, List.map_set]
          rfl
        · intro q hq
          rcases List.mem_or_eq_of_mem_set hq with hq | rfl
          · exact hc.2 q hq
          · exact hc.2 t (List.mem_of_getElem? ht)
  | request a bs =>
    simp only [act, Option.some.injEq] at h
    exact ⟨[.request a bs], _, by simp, rfl, h, hc⟩
  | clear a bs =>
    simp only [act, Option.some.injEq] at h
    exact ⟨[.clear a bs], _, by simp, rfl, h, hc⟩

/-- Every history of the handlers without empty lines is one of those with them, with more steps. -/
theorem acts_trim {regs : List (Nat × Handler)} (hregs : ∀ x ∈ regs, Tidys x.2.body) : ∀ (xs : List Act) {c : Cfg σ}, c.Tidy → ∀ {d : Cfg σ},
    acts C lib U (regs.map (fun p => (p.1, p.2.trim))) c.trim xs = some d →
    ∃ ys d', (∀ y ∈ ys, y ∈ xs ∨ y.IsStep) ∧ acts C lib U regs c ys = some d' ∧ d'.trim = d ∧ d'.Tidy
  | [], c, hc, d, h => by
    simp only [acts, Option.some.injEq] at h
    exact ⟨[], c, by simp, rfl, h, hc⟩
  | x :: xs, c, hc, d, h => by
    rw [acts] at h
    cases h1 : act C lib U (regs.map (fun p => (p.1, p.2.trim))) c.trim x with
    | none => rw [h1] at h; simp at h
    | some c1 =>
      rw [h1] at h
      obtain ⟨ys, d1, g1, g2, rfl, g4⟩ := act_trim hregs hc h1
      obtain ⟨zs, d2, k1, k2, k3, k4⟩ := acts_trim hregs xs g4 h
      refine ⟨ys ++ zs, d2, ?_, ?_, k3, k4⟩
      · intro y hy
        rcases List.mem_append.1 hy with hy | hy
        · exact (g1 y hy).imp (by rintro rfl; simp) id
        · exact (k1 y hy).imp (by intro h; simp [h]) id
      · rw [acts_append', g2]
        exact k2

theorem handlers_trim (R : RpcSection) : R.trim.handlers = R.handlers.map (fun p => (p.1, p.2.trim)) := by
  unfold RpcSection.handlers RpcSection.trim
  simp only
  rw [List.map_filterMap]
  congr 1
  funext r
  rw [List.find?_map]
  have : ((fun m : MethodItem => decide (m.handler.fn = r.fn)) ∘ MethodItem.trim) = fun m => decide (m.handler.fn = r.fn) := rfl
  rw [this]
  cases R.methods.find? (fun m => decide (m.handler.fn = r.fn)) <;> rfl

theorem withArgs_trim (P : Prog) (R : RpcSection) : P.withArgs R.trim = P.withArgs R := by
  have : R.trim.methods.filterMap (·.args) = R.methods.filterMap (·.args) := by
    unfold RpcSection.trim
    simp only
    rw [List.filterMap_map]
    rfl
  unfold Prog.withArgs
  rw [this]

end TPB.Rust
