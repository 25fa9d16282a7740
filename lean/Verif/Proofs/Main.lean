import Verif.Spec.Main
namespace TPB.Main

/-- `generate` alone. -/
def genRun (x : Ext) (j : Job) (s : Gen × World) (as : List Answer) : Gen × World :=
  as.foldl (fun s a => ((genStep x j s.2 s.1 a).1, (genStep x j s.2 s.1 a).2.1)) s

theorem text_eq (w : World) (p : String) :
    w.text p = match w.files p with | some bs => decode bs | none => none := rfl

theorem bytesOf_eq (s : String) : bytesOf s = utf8 s := rfl

theorem World.ext' {w w' : World} (h : ∀ q, w.files q = w'.files q) (h2 : w.stdout = w'.stdout) : w = w' := by
  cases w; cases w'
  simp only [World.mk.injEq]
  exact ⟨funext h, h2⟩

theorem setFile_setFile (w : World) (p : String) (a b : List UInt8) : (w.setFile p a).setFile p b = w.setFile p b := by
  apply World.ext'
  · intro q
    simp only [World.setFile]
    split <;> rfl
  · rfl

theorem setFile_self (w : World) (p : String) (a : List UInt8) : (w.setFile p a).files p = some a := by
  simp [World.setFile]

/-- The bytes to be written for `j` in the world `w`. -/
def Fresh (x : Ext) (j : Job) (w : World) (data : List UInt8) : Prop :=
  ∃ bs text d, w.files j.input = some bs ∧ decode bs = some text ∧ digest x j text = .ok d ∧ data = bytesOf d

/-- What is known in each state of `generate`, started in `w0`. -/
def GenInv (x : Ext) (j : Job) (w0 : World) : Gen → World → Prop
  | .opening, w => w = w0
  | .reading acc rest, w => w = w0 ∧ w0.files j.input = some (acc ++ rest)
  | .creating data, w => w = w0 ∧ j.output ≠ "-" ∧ Fresh x j w0 data
  | .writing rest, w => j.output ≠ "-" ∧ ∃ data done, Fresh x j w0 data ∧ data = done ++ rest ∧ w = w0.setFile j.output done
  | .printing rest, w => j.output = "-" ∧ ∃ data done, Fresh x j w0 data ∧ data ++ bytesOf "\n" = done ++ rest ∧
      w = { w0 with stdout := w0.stdout ++ done }
  | .ended .ok, w => ∃ data, Fresh x j w0 data ∧
      ((j.output ≠ "-" ∧ w = w0.setFile j.output data) ∨
        (j.output = "-" ∧ w = { w0 with stdout := w0.stdout ++ (data ++ bytesOf "\n") }))
  | .ended .ioError, w => w = w0 ∨
      (j.output ≠ "-" ∧ ∃ data done b rest, Fresh x j w0 data ∧ data = done ++ b :: rest ∧ w = w0.setFile j.output done)
  | .ended .panic, w => (w = w0 ∧ ∃ bs text e, w0.files j.input = some bs ∧ decode bs = some text ∧ digest x j text = .error e) ∨
      (j.output = "-" ∧ ∃ data done b rest, Fresh x j w0 data ∧ data ++ bytesOf "\n" = done ++ b :: rest ∧
        w = { w0 with stdout := w0.stdout ++ done })

theorem genInv_afterRead (x : Ext) (j : Job) (w : World) (acc : List UInt8) (h : w.files j.input = some acc) :
    GenInv x j w (afterRead x j acc) w := by
  unfold afterRead
  cases hd : decode acc with
  | none => exact .inl rfl
  | some text =>
    dsimp only
    cases hg : digest x j text with
    | error e => exact .inl ⟨rfl, acc, text, e, h, hd, hg⟩
    | ok d =>
      dsimp only
      split
      · rename_i ho
        exact ⟨ho, bytesOf d, [], ⟨acc, text, d, h, hd, hg, rfl⟩, rfl, by simp⟩
      · rename_i ho
        exact ⟨rfl, ho, acc, text, d, h, hd, hg, rfl⟩

theorem genInv_step (x : Ext) (j : Job) (w0 : World) (g : Gen) (w : World) (a : Answer) (h : GenInv x j w0 g w) :
    GenInv x j w0 (genStep x j w g a).1 (genStep x j w g a).2.1 := by
  cases g with
  | opening =>
    cases h
    cases a with
    | failure => exact .inl rfl
    | interrupted => rfl
    | success n =>
      simp only [genStep]
      cases hf : w0.files j.input with
      | none => exact .inl rfl
      | some bs => exact ⟨rfl, by simpa using hf⟩
  | reading acc rest =>
    obtain ⟨rfl, h⟩ := h
    cases a with
    | failure => exact .inl rfl
    | interrupted => exact ⟨rfl, h⟩
    | success n =>
      cases rest with
      | nil =>
        rw [List.append_nil] at h
        exact genInv_afterRead x j w acc h
      | cons b bs =>
        refine ⟨rfl, ?_⟩
        rw [List.append_assoc, List.take_append_drop]
        exact h
  | creating data =>
    obtain ⟨rfl, ho, hd⟩ := h
    cases a with
    | failure => exact .inl rfl
    | interrupted => exact ⟨rfl, ho, hd⟩
    | success n => exact ⟨ho, data, [], hd, rfl, rfl⟩
  | writing rest =>
    obtain ⟨ho, data, done, hd, e, rfl⟩ := h
    cases rest with
    | nil =>
      rw [List.append_nil] at e
      subst e
      cases a <;> exact ⟨data, hd, .inl ⟨ho, rfl⟩⟩
    | cons b bs =>
      cases a with
      | failure => exact .inr ⟨ho, data, done, b, bs, hd, e, rfl⟩
      | interrupted => exact ⟨ho, data, done, hd, e, rfl⟩
      | success n =>
        cases n with
        | zero => exact .inr ⟨ho, data, done, b, bs, hd, e, rfl⟩
        | succ n =>
          refine ⟨ho, data, done ++ (b :: bs).take (n + 1), hd, ?_, ?_⟩
          · rw [List.append_assoc, List.take_append_drop]; exact e
          · simp only [genStep, setFile_self, setFile_setFile, Option.getD_some]
  | printing rest =>
    obtain ⟨ho, data, done, hd, e, rfl⟩ := h
    cases rest with
    | nil =>
      rw [List.append_nil] at e
      subst e
      cases a <;> exact ⟨data, hd, .inr ⟨ho, rfl⟩⟩
    | cons b bs =>
      cases a with
      | failure => exact .inr ⟨ho, data, done, b, bs, hd, e, rfl⟩
      | interrupted => exact ⟨ho, data, done, hd, e, rfl⟩
      | success n =>
        cases n with
        | zero => exact .inr ⟨ho, data, done, b, bs, hd, e, rfl⟩
        | succ n =>
          refine ⟨ho, data, done ++ (b :: bs).take (n + 1), hd, ?_, ?_⟩
          · rw [List.append_assoc, List.take_append_drop]; exact e
          · simp only [genStep, List.append_assoc]
  | ended e => cases a <;> exact h

/-- Reachable in a call of `generate`. -/
def GenReach (x : Ext) (j : Job) (w0 : World) (g : Gen) (w : World) : Prop :=
  ∃ as, genRun x j (.opening, w0) as = (g, w)

theorem GenReach.step {x : Ext} {j : Job} {w0 : World} {g : Gen} {w : World} (h : GenReach x j w0 g w) (a : Answer) :
    GenReach x j w0 (genStep x j w g a).1 (genStep x j w g a).2.1 := by
  obtain ⟨as, h⟩ := h
  exact ⟨as ++ [a], by unfold genRun at *; rw [List.foldl_append, h]; rfl⟩

theorem GenReach.start (x : Ext) (j : Job) (w : World) : GenReach x j w .opening w := ⟨[], rfl⟩

theorem GenReach.inv {x : Ext} {j : Job} {w0 : World} {g : Gen} {w : World} (h : GenReach x j w0 g w) :
    GenInv x j w0 g w := by
  obtain ⟨as, h⟩ := h
  have key : ∀ (as : List Answer) (g0 : Gen) (w1 : World), GenInv x j w0 g0 w1 →
      GenInv x j w0 (genRun x j (g0, w1) as).1 (genRun x j (g0, w1) as).2 := by
    intro as
    induction as with
    | nil => intro g0 w1 h; exact h
    | cons a as ih => intro g0 w1 h; exact ih _ _ (genInv_step x j w0 g0 w1 a h)
  have := key as .opening w0 rfl
  rw [h] at this
  exact this

/-! ### From `generate` to the whole program and back -/

theorem runFrom_append (lib : Lib) (s : State) (as bs : List Answer) :
    runFrom lib s (as ++ bs) = runFrom lib (runFrom lib s as) bs := List.foldl_append

/-- A step of a job that has not ended. -/
theorem step_job (lib : Lib) (j : Job) (g : Gen) (js : List Job) (w : World) (tr : List Event) (a : Answer)
    (h : ∀ e, g ≠ .ended e) :
    (State.step lib ⟨.job j g js, w, tr⟩ a) =
      ⟨.job j (genStep lib.ext j w g a).1 js, (genStep lib.ext j w g a).2.1, tr ++ (genStep lib.ext j w g a).2.2⟩ := by
  cases g with
  | ended e => exact absurd rfl (h e)
  | _ => rfl

theorem genRun_ended (x : Ext) (j : Job) (e : Exit) (w : World) (as : List Answer) :
    genRun x j (.ended e, w) as = (.ended e, w) := by
  induction as with
  | nil => rfl
  | cons a as ih => cases a <;> exact ih

theorem job_run (lib : Lib) (j : Job) (js : List Job) (as : List Answer) (g : Gen) (w : World) (tr : List Event) :
    ∃ as' tr', runFrom lib ⟨.job j g js, w, tr⟩ as' =
      ⟨.job j (genRun lib.ext j (g, w) as).1 js, (genRun lib.ext j (g, w) as).2, tr'⟩ := by
  induction as generalizing g w tr with
  | nil => exact ⟨[], tr, rfl⟩
  | cons a as ih =>
    by_cases hg : ∃ e, g = .ended e
    · obtain ⟨e, rfl⟩ := hg
      refine ⟨[], tr, ?_⟩
      rw [genRun_ended]
      rfl
    · obtain ⟨as', tr', h⟩ := ih (genStep lib.ext j w g a).1 (genStep lib.ext j w g a).2.1
        (tr ++ (genStep lib.ext j w g a).2.2)
      refine ⟨a :: as', tr', ?_⟩
      show runFrom lib (State.step lib _ a) as' = _
      rw [step_job lib j g js w tr a (fun e he => hg ⟨e, he⟩), h]
      rfl

/-- The world of a state of `generate` is a world of the program. -/
theorem genReach_run {lib : Lib} {j : Job} {w0 : World} {g : Gen} {w : World} (h : GenReach lib.ext j w0 g w)
    (js : List Job) (tr : List Event) :
    ∃ as tr', runFrom lib ⟨.next (j :: js), w0, tr⟩ as = ⟨.job j g js, w, tr'⟩ := by
  obtain ⟨as, h⟩ := h
  obtain ⟨as', tr', h'⟩ := job_run lib j js as .opening w0 (tr ++ [])
  refine ⟨.failure :: as', tr', ?_⟩
  show runFrom lib ⟨.job j .opening js, w0, tr ++ []⟩ as' = _
  rw [h', h]

/-- What is known in each state of the program started with one job. -/
def OneInv (lib : Lib) (j : Job) (w0 : World) : Proc → World → Prop
  | .next [], w => GenReach lib.ext j w0 (.ended .ok) w
  | .next [j'], w => j' = j ∧ w = w0
  | .job j' g [], w => j' = j ∧ GenReach lib.ext j w0 g w
  | .ended r, w => GenReach lib.ext j w0 (.ended r) w
  | _, _ => False

theorem oneInv_step (lib : Lib) (j : Job) (w0 : World) (p : Proc) (w : World) (a : Answer) (h : OneInv lib j w0 p w) :
    OneInv lib j w0 (procStep lib w p a).1 (procStep lib w p a).2.1 := by
  cases p with
  | opening => exact h.elim
  | reading => exact h.elim
  | next js =>
    cases js with
    | nil => cases a <;> exact h
    | cons j' js =>
      cases js with
      | nil =>
        obtain ⟨rfl, rfl⟩ := h
        cases a <;> exact ⟨rfl, GenReach.start _ _ _⟩
      | cons => exact h.elim
  | job j' g js =>
    cases js with
    | cons => exact h.elim
    | nil =>
      obtain ⟨rfl, h⟩ := h
      by_cases hg : ∃ e, g = .ended e
      · obtain ⟨e, rfl⟩ := hg
        cases e <;> cases a <;> exact h
      · have := h.step a
        cases g with
        | ended e => exact absurd ⟨e, rfl⟩ hg
        | _ => exact ⟨rfl, this⟩
  | ended r => cases a <;> exact h

theorem oneInv_run (lib : Lib) (j : Job) (w0 : World) (as : List Answer) :
    OneInv lib j w0 (run lib (.generate j) w0 as).proc (run lib (.generate j) w0 as).world := by
  have key : ∀ (as : List Answer) (s : State), OneInv lib j w0 s.proc s.world →
      OneInv lib j w0 (runFrom lib s as).proc (runFrom lib s as).world := by
    intro as
    induction as with
    | nil => intro s h; exact h
    | cons a as ih => intro s h; exact ih _ (oneInv_step lib j w0 s.proc s.world a h)
  exact key as ⟨.next [j], w0, []⟩ ⟨rfl, rfl⟩

theorem ends_iff (lib : Lib) (j : Job) (w : World) (r : Exit) (w' : World) :
    Ends lib (.generate j) w r w' ↔ GenReach lib.ext j w (.ended r) w' := by
  constructor
  · rintro ⟨as, h1, h2⟩
    have := oneInv_run lib j w as
    rw [h1, h2] at this
    exact this
  · intro h
    obtain ⟨as, tr', h'⟩ := genReach_run h [] []
    have h2 : ∃ as2, (runFrom lib ⟨.job j (.ended r) [], w', tr'⟩ as2).proc = .ended r ∧
        (runFrom lib ⟨.job j (.ended r) [], w', tr'⟩ as2).world = w' := by
      cases r
      · exact ⟨[.failure, .failure], rfl, rfl⟩
      · exact ⟨[.failure], rfl, rfl⟩
      · exact ⟨[.failure], rfl, rfl⟩
    obtain ⟨as2, h2⟩ := h2
    refine ⟨as ++ as2, ?_⟩
    show (runFrom lib _ _).proc = _ ∧ (runFrom lib _ _).world = _
    rw [runFrom_append, show start (.generate j) = .next [j] from rfl, h']
    exact h2

/-- Any moment of a run with one job is a moment of `generate`. -/
theorem reaches_iff (lib : Lib) (j : Job) (w w' : World) :
    Reaches lib (.generate j) w w' ↔ ∃ g, GenReach lib.ext j w g w' := by
  constructor
  · rintro ⟨as, rfl⟩
    have := oneInv_run lib j w as
    cases hp : (run lib (.generate j) w as).proc with
    | opening => rw [hp] at this; exact this.elim
    | reading => rw [hp] at this; exact this.elim
    | next js =>
      rw [hp] at this
      cases js with
      | nil => exact ⟨_, this⟩
      | cons j' js =>
        cases js with
        | nil =>
          obtain ⟨rfl, h⟩ := this
          exact ⟨.opening, by rw [h]; exact GenReach.start _ _ _⟩
        | cons => exact this.elim
    | job j' g js =>
      rw [hp] at this
      cases js with
      | cons => exact this.elim
      | nil => exact ⟨g, this.2⟩
    | ended r => rw [hp] at this; exact ⟨_, this⟩
  · rintro ⟨g, h⟩
    obtain ⟨as, tr', h'⟩ := genReach_run h [] []
    exact ⟨as, by show (runFrom lib _ as).world = _; rw [show start (.generate j) = .next [j] from rfl, h']⟩

/-! ### Reading and writing to the end -/

theorem genRun_append (x : Ext) (j : Job) (s : Gen × World) (as bs : List Answer) :
    genRun x j s (as ++ bs) = genRun x j (genRun x j s as) bs := List.foldl_append

theorem GenReach.run {x : Ext} {j : Job} {w0 : World} {g g' : Gen} {w w' : World} (h : GenReach x j w0 g w)
    (as : List Answer) (h' : genRun x j (g, w) as = (g', w')) : GenReach x j w0 g' w' := by
  obtain ⟨bs, h⟩ := h
  exact ⟨bs ++ as, by rw [genRun_append, h, h']⟩

/-- The input can be read without errors. -/
theorem reach_read (x : Ext) (j : Job) (w : World) (bs : List UInt8) (h : w.files j.input = some bs) :
    GenReach x j w (afterRead x j bs) w := by
  have h1 : GenReach x j w (.reading [] bs) w := ⟨[.success 0], by simp [genRun, genStep, h]⟩
  cases bs with
  | nil => exact h1.run [.success 0] rfl
  | cons b bs =>
    refine (h1.run (g' := .reading (b :: bs) []) (w' := w) [.success (b :: bs).length] ?_).run [.success 0] rfl
    have : (b :: bs).drop ((b :: bs).length + 1) = [] := by rw [List.drop_eq_nil_iff]; omega
    have h2 : (b :: bs).take ((b :: bs).length + 1) = b :: bs := by rw [List.take_of_length_le]; omega
    simp only [genRun, List.foldl_cons, List.foldl_nil, genStep, this, h2, List.nil_append]

theorem afterRead_fresh {x : Ext} {j : Job} {bs : List UInt8} {text d : String} (hd : decode bs = some text)
    (hg : digest x j text = .ok d) :
    afterRead x j bs = if j.output = "-" then .printing (bytesOf d ++ bytesOf "\n") else .creating (bytesOf d) := by
  unfold afterRead
  rw [hd]
  dsimp only
  rw [hg]

/-- Any part of the output can be written when the program is stopped. -/
theorem reach_writing {x : Ext} {j : Job} {w : World} {data done rest : List UInt8} (hf : Fresh x j w data)
    (ho : j.output ≠ "-") (e : data = done ++ rest) : GenReach x j w (.writing rest) (w.setFile j.output done) := by
  obtain ⟨bs, text, d, h1, h2, h3, rfl⟩ := hf
  have r1 := reach_read x j w bs h1
  rw [afterRead_fresh h2 h3, if_neg ho] at r1
  have r2 : GenReach x j w (.writing (bytesOf d)) (w.setFile j.output []) := r1.run [.success 0] rfl
  rw [e] at r2
  cases done with
  | nil => exact r2
  | cons b bs' =>
    refine r2.run [.success (bs'.length + 1)] ?_
    have a1 : (b :: bs' ++ rest).drop (bs'.length + 1) = rest := by
      rw [List.drop_append_of_le_length (by simp)]
      simp
    have a2 : (b :: bs' ++ rest).take (bs'.length + 1) = b :: bs' := by
      rw [List.take_append_of_le_length (by simp)]
      simp
    show (Gen.writing ((b :: bs' ++ rest).drop (bs'.length + 1)), (w.setFile j.output []).setFile j.output
      (((w.setFile j.output []).files j.output).getD [] ++ (b :: bs' ++ rest).take (bs'.length + 1))) = _
    rw [a1, a2, setFile_setFile, setFile_self]
    rfl

theorem reach_printing {x : Ext} {j : Job} {w : World} {data done rest : List UInt8} (hf : Fresh x j w data)
    (ho : j.output = "-") (e : data ++ bytesOf "\n" = done ++ rest) :
    GenReach x j w (.printing rest) { w with stdout := w.stdout ++ done } := by
  obtain ⟨bs, text, d, h1, h2, h3, rfl⟩ := hf
  have r1 := reach_read x j w bs h1
  rw [afterRead_fresh h2 h3, if_pos ho, e] at r1
  cases done with
  | nil => simpa using r1
  | cons b bs' =>
    refine r1.run [.success (bs'.length + 1)] ?_
    have a1 : (b :: bs' ++ rest).drop (bs'.length + 1) = rest := by
      rw [List.drop_append_of_le_length (by simp)]
      simp
    have a2 : (b :: bs' ++ rest).take (bs'.length + 1) = b :: bs' := by
      rw [List.take_append_of_le_length (by simp)]
      simp
    show (Gen.printing ((b :: bs' ++ rest).drop (bs'.length + 1)),
      ({ w with stdout := w.stdout ++ (b :: bs' ++ rest).take (bs'.length + 1) } : World)) = _
    rw [a1, a2]

/-- Every outcome allowed by the invariant is possible. -/
theorem reach_ended_iff (x : Ext) (j : Job) (w : World) (r : Exit) (w' : World) :
    GenReach x j w (.ended r) w' ↔ GenInv x j w (.ended r) w' := by
  refine ⟨fun h => h.inv, fun h => ?_⟩
  cases r with
  | ok =>
    obtain ⟨data, hf, ⟨ho, rfl⟩ | ⟨ho, rfl⟩⟩ := h
    · exact (reach_writing hf ho (List.append_nil _).symm).run [.failure] rfl
    · exact (reach_printing hf ho (List.append_nil _).symm).run [.failure] rfl
  | ioError =>
    rcases h with rfl | ⟨ho, data, done, b, rest, hf, e, rfl⟩
    · exact (GenReach.start x j w').run [.failure] rfl
    · exact (reach_writing hf ho e).run [.failure] rfl
  | panic =>
    rcases h with ⟨rfl, bs, text, e, h1, h2, h3⟩ | ⟨ho, data, done, b, rest, hf, e, rfl⟩
    · have := reach_read x j w' bs h1
      unfold afterRead at this
      rw [h2] at this
      dsimp only at this
      rw [h3] at this
      exact this
    · exact (reach_printing hf ho e).run [.failure] rfl

/-! ### System calls that touch files -/

/-- The calls that change a file. -/
def Touch : Event → Prop
  | .created _ => True
  | .wrote _ _ => True
  | _ => False

/-- The calls on the input that failed. -/
def Bad : Event → Prop
  | .openFailed _ => True
  | .readFailed _ => True
  | _ => False

def Gen.Early : Gen → Prop
  | .opening => True
  | .reading _ _ => True
  | _ => False

/-- The input has not been read yet. -/
def Proc.Early : Proc → Prop
  | .next (_ :: _) => True
  | .job _ g _ => g.Early
  | _ => False

def Proc.Dead : Proc → Prop
  | .job _ (.ended .ioError) _ => True
  | .ended .ioError => True
  | _ => False

structure TraceInv (lib : Lib) (j : Job) (w0 : World) (s : State) : Prop where
  one : OneInv lib j w0 s.proc s.world
  touch : ∀ e ∈ s.trace, Touch e → (∃ data, Fresh lib.ext j w0 data) ∧ ¬ s.proc.Early
  bad : ∀ e ∈ s.trace, Bad e → s.proc.Dead ∧ s.world = w0 ∧ ∀ e ∈ s.trace, ¬ Touch e

theorem afterRead_not_early (x : Ext) (j : Job) (acc : List UInt8) : ¬ (afterRead x j acc).Early := by
  unfold afterRead
  split
  · exact id
  · split
    · exact id
    · split <;> exact id

theorem gen_events (x : Ext) (j : Job) (w0 : World) (g : Gen) (w : World) (a : Answer) (h : GenInv x j w0 g w)
    (hg : ∀ e, g ≠ .ended e) :
    (∀ e ∈ (genStep x j w g a).2.2, Touch e → ∃ data, Fresh x j w0 data) ∧
    (∀ e ∈ (genStep x j w g a).2.2, Bad e → g.Early ∧ (genStep x j w g a).1 = .ended .ioError ∧
      (genStep x j w g a).2.1 = w0 ∧ ∀ e ∈ (genStep x j w g a).2.2, ¬ Touch e) ∧
    ((genStep x j w g a).1.Early → g.Early ∧ ∀ e ∈ (genStep x j w g a).2.2, ¬ Touch e) := by
  cases g with
  | opening =>
    cases h
    cases a with
    | failure => simp [genStep, Touch, Bad, Gen.Early]
    | interrupted => simp [genStep, Gen.Early]
    | success n => simp only [genStep]; cases w0.files j.input <;> simp [Touch, Bad, Gen.Early]
  | reading acc rest =>
    obtain ⟨rfl, h⟩ := h
    cases a with
    | failure => simp [genStep, Touch, Bad, Gen.Early]
    | interrupted => simp [genStep, Gen.Early]
    | success n => cases rest <;> simp [genStep, Touch, Bad, Gen.Early]
  | creating data =>
    obtain ⟨rfl, ho, hd⟩ := h
    cases a <;> simp [genStep, Touch, Bad, Gen.Early]
    exact ⟨data, hd⟩
  | writing rest =>
    obtain ⟨ho, data, done, hd, e, rfl⟩ := h
    cases rest with
    | nil => cases a <;> simp [genStep, Gen.Early]
    | cons b bs =>
      cases a with
      | success n =>
        cases n <;> simp [genStep, Touch, Bad, Gen.Early] <;> exact ⟨data, hd⟩
      | _ => simp [genStep, Touch, Bad, Gen.Early]
  | printing rest =>
    cases rest with
    | nil => cases a <;> simp [genStep, Gen.Early]
    | cons b bs =>
      cases a with
      | success n =>
        cases n <;> simp [genStep, Touch, Bad, Gen.Early]
      | _ => simp [genStep, Touch, Bad, Gen.Early]
  | ended e => exact absurd rfl (hg e)

theorem TraceInv.step {lib : Lib} {j : Job} {w0 : World} {s : State} (h : TraceInv lib j w0 s) (a : Answer) :
    TraceInv lib j w0 (s.step lib a) := by
  obtain ⟨p, w, tr⟩ := s
  obtain ⟨h1, h2, h3⟩ := h
  have h1' := oneInv_step lib j w0 p w a h1
  have silent : (procStep lib w p a).2.2 = [] → (procStep lib w p a).2.1 = w → (p.Dead → (procStep lib w p a).1.Dead) →
      ((procStep lib w p a).1.Early → p.Early) → TraceInv lib j w0 (State.step lib ⟨p, w, tr⟩ a) := by
    intro e1 e2 e3 e4
    refine ⟨h1', ?_, ?_⟩
    · show ∀ e ∈ tr ++ (procStep lib w p a).2.2, _
      rw [e1, List.append_nil]
      intro e he ht
      exact ⟨(h2 e he ht).1, fun hc => (h2 e he ht).2 (e4 hc)⟩
    · show ∀ e ∈ tr ++ (procStep lib w p a).2.2, Bad e → _ ∧ _ ∧ ∀ e ∈ tr ++ (procStep lib w p a).2.2, _
      rw [e1, List.append_nil]
      intro e he hb
      obtain ⟨d, hw, ht⟩ := h3 e he hb
      exact ⟨e3 d, e2.trans hw, ht⟩
  cases p with
  | opening => exact h1.elim
  | reading => exact h1.elim
  | next js =>
    cases js with
    | nil => apply silent <;> cases a <;> simp [procStep, Proc.Dead, Proc.Early]
    | cons j' js =>
      apply silent <;> cases a <;> simp [procStep, Proc.Dead, Proc.Early]
  | ended r => apply silent <;> cases a <;> simp [procStep]
  | job j' g js =>
    cases js with
    | cons => exact h1.elim
    | nil =>
      obtain ⟨rfl, hr⟩ := h1
      by_cases hg : ∃ e, g = .ended e
      · obtain ⟨e, rfl⟩ := hg
        cases e <;> apply silent <;> cases a <;> simp [procStep, Proc.Dead, Proc.Early]
      · have hg' : ∀ e, g ≠ .ended e := fun e he => hg ⟨e, he⟩
        obtain ⟨k1, k2, k3⟩ := gen_events lib.ext j' w0 g w a hr.inv hg'
        have es : procStep lib w (.job j' g []) a = (.job j' (genStep lib.ext j' w g a).1 [],
            (genStep lib.ext j' w g a).2.1, (genStep lib.ext j' w g a).2.2) := by
          cases g with
          | ended e => exact absurd rfl (hg' e)
          | _ => rfl
        have hd : ¬ (Proc.job j' g []).Dead := by
          cases g with
          | ended e => exact absurd rfl (hg' e)
          | _ => exact id
        unfold State.step
        dsimp only
        rw [es] at h1' ⊢
        refine ⟨h1', ?_, ?_⟩
        · intro e he ht
          rcases List.mem_append.1 he with he | he
          · exact ⟨(h2 e he ht).1, fun hc => (h2 e he ht).2 (k3 hc).1⟩
          · exact ⟨k1 e he ht, fun hc => (k3 hc).2 e he ht⟩
        · intro e he hb
          rcases List.mem_append.1 he with he | he
          · exact absurd (h3 e he hb).1 hd
          · obtain ⟨m1, m2, m3, m4⟩ := k2 e he hb
            refine ⟨by rw [m2]; trivial, m3, fun e' he' ht => ?_⟩
            rcases List.mem_append.1 he' with he' | he'
            · exact (h2 e' he' ht).2 m1
            · exact m4 e' he' ht

theorem traceInv_run (lib : Lib) (j : Job) (w : World) (as : List Answer) :
    TraceInv lib j w (run lib (.generate j) w as) := by
  have key : ∀ (as : List Answer) (s : State), TraceInv lib j w s → TraceInv lib j w (runFrom lib s as) := by
    intro as
    induction as with
    | nil => intro s h; exact h
    | cons a as ih => intro s h; exact ih _ (h.step a)
  exact key as ⟨.next [j], w, []⟩ ⟨⟨rfl, rfl⟩, by simp, by simp⟩

/-! ### Batches -/

theorem joinPath_eq (dir p : String) : joinPath dir p = located dir p := by
  unfold joinPath located
  have hd : dir = "" ↔ dir.toList.reverse = [] := by simp
  have hl : dir.toList.getLast? = dir.toList.reverse.head? := by simp
  rw [hl]
  simp only [hd]
  rcases hr : dir.toList.reverse with _ | ⟨b, r⟩
  · have hde : dir = "" := hd.2 hr
    subst hde
    rcases hp : p.toList with _ | ⟨a, q⟩
    · simp
    · by_cases ha : a = '/' <;> simp [ha]
  · rcases hp : p.toList with _ | ⟨a, q⟩
    · by_cases hb : b = '/' <;> simp [hb]
    · by_cases ha : a = '/' <;> by_cases hb : b = '/' <;> simp [ha, hb]

theorem jobOf_eq (dir : String) (l : Lang) : jobOf dir l = fun i =>
    ⟨located dir i.src, located dir i.dest, l, i.skipModels, i.skipBuffers, i.skipRpc⟩ := by
  funext i
  rw [jobOf, joinPath_eq, joinPath_eq]

theorem entries_eq (dir : String) (d : YamlData) : jobsOf dir d = entries dir d := by
  obtain ⟨dart, rust⟩ := d
  cases dart <;> cases rust <;> simp [jobsOf, entries, jobOf_eq]

theorem Batch.snoc {lib : Lib} {js : List Job} {w w1 w2 : World} {j : Job} {r : Exit} (h : Batch lib js w .ok w1)
    (h2 : Ends lib (.generate j) w1 r w2) : Batch lib (js ++ [j]) w r w2 := by
  generalize hr : Exit.ok = ok at h
  induction h with
  | nil w =>
    cases r with
    | ok => exact .cons _ _ _ _ _ _ h2 (.nil _)
    | ioError => exact .stop _ _ _ _ _ (by simp) h2
    | panic => exact .stop _ _ _ _ _ (by simp) h2
  | cons j' js w w1' w2' r' h1 hb ih => exact .cons _ _ _ _ _ _ h1 (ih h2 hr)
  | stop j' js w w1' r' hr' _ => exact absurd hr.symm hr'

theorem Batch.more {lib : Lib} {js : List Job} {w w1 : World} {r : Exit} (h : Batch lib js w r w1) (hr : r ≠ .ok)
    (js' : List Job) : Batch lib (js ++ js') w r w1 := by
  induction h with
  | nil => exact absurd rfl hr
  | cons j js w w1 w2 r h1 _ ih => exact .cons _ _ _ _ _ _ h1 (ih hr)
  | stop j js w w1 r h1 h2 => exact .stop _ _ _ _ _ h1 h2

/-- What is known in each state of the program started with a configuration. -/
def YamlInv (lib : Lib) (path : String) (w0 : World) : Proc → World → Prop
  | .opening p, w => p = path ∧ w = w0
  | .reading p acc rest, w => p = path ∧ w = w0 ∧ w0.files path = some (acc ++ rest)
  | .next js, w => ∃ text d dir done, w0.text path = some text ∧ lib.yaml text = some d ∧ lib.parent path = some dir ∧
      entries dir d = done ++ js ∧ Batch lib done w0 .ok w
  | .job j g js, w => ∃ text d dir done w1, w0.text path = some text ∧ lib.yaml text = some d ∧
      lib.parent path = some dir ∧ entries dir d = done ++ j :: js ∧ Batch lib done w0 .ok w1 ∧
      GenReach lib.ext j w1 g w
  | .ended r, w => (∃ text d dir, w0.text path = some text ∧ lib.yaml text = some d ∧ lib.parent path = some dir ∧
        Batch lib (entries dir d) w0 r w) ∨
      (r = .panic ∧ w = w0 ∧ ∃ text, w0.text path = some text ∧ (lib.yaml text = none ∨ lib.parent path = none)) ∨
      (r = .ioError ∧ w = w0)

theorem yamlInv_step (lib : Lib) (path : String) (w0 : World) (p : Proc) (w : World) (a : Answer)
    (h : YamlInv lib path w0 p w) : YamlInv lib path w0 (procStep lib w p a).1 (procStep lib w p a).2.1 := by
  cases p with
  | opening p =>
    obtain ⟨rfl, rfl⟩ := h
    cases a with
    | failure => exact .inr (.inr ⟨rfl, rfl⟩)
    | interrupted => exact ⟨rfl, rfl⟩
    | success n =>
      simp only [procStep]
      cases hf : w.files p with
      | none => exact .inr (.inr ⟨rfl, rfl⟩)
      | some bs => exact ⟨rfl, rfl, by simpa using hf⟩
  | reading p acc rest =>
    obtain ⟨rfl, rfl, h⟩ := h
    cases a with
    | failure => exact .inr (.inr ⟨rfl, rfl⟩)
    | interrupted => exact ⟨rfl, rfl, h⟩
    | success n =>
      cases rest with
      | nil =>
        rw [List.append_nil] at h
        show YamlInv lib p w (afterConfig lib p acc) w
        unfold afterConfig
        cases hd : decode acc with
        | none => exact .inr (.inr ⟨rfl, rfl⟩)
        | some text =>
          have ht : w.text p = some text := by rw [text_eq, h]; exact hd
          dsimp only
          cases hy : lib.yaml text with
          | none => exact .inr (.inl ⟨rfl, rfl, text, ht, .inl hy⟩)
          | some d =>
            cases hp : lib.parent p with
            | none => exact .inr (.inl ⟨rfl, rfl, text, ht, .inr hp⟩)
            | some dir => exact ⟨text, d, dir, [], ht, hy, hp, by rw [entries_eq]; rfl, .nil _⟩
      | cons b bs =>
        refine ⟨rfl, rfl, ?_⟩
        rw [List.append_assoc, List.take_append_drop]
        exact h
  | next js =>
    obtain ⟨text, d, dir, done, h1, h2, h3, h4, h5⟩ := h
    cases js with
    | nil =>
      rw [List.append_nil] at h4
      cases a <;> exact .inl ⟨text, d, dir, h1, h2, h3, by rw [h4]; exact h5⟩
    | cons j js => cases a <;> exact ⟨text, d, dir, done, w, h1, h2, h3, h4, h5, GenReach.start _ _ _⟩
  | job j g js =>
    obtain ⟨text, d, dir, done, w1, h1, h2, h3, h4, h5, h6⟩ := h
    by_cases hg : ∃ e, g = .ended e
    · obtain ⟨e, rfl⟩ := hg
      have hb := h5.snoc ((ends_iff ..).2 h6)
      have h4' : entries dir d = (done ++ [j]) ++ js := by simp [h4]
      cases e with
      | ok => cases a <;> exact ⟨text, d, dir, done ++ [j], h1, h2, h3, h4', hb⟩
      | ioError =>
        cases a <;> exact .inl ⟨text, d, dir, h1, h2, h3, by rw [h4']; exact hb.more (by simp) js⟩
      | panic =>
        cases a <;> exact .inl ⟨text, d, dir, h1, h2, h3, by rw [h4']; exact hb.more (by simp) js⟩
    · have h7 := h6.step a
      cases g with
      | ended e => exact absurd ⟨e, rfl⟩ hg
      | _ => exact ⟨text, d, dir, done, w1, h1, h2, h3, h4, h5, h7⟩
  | ended r => cases a <;> exact h

theorem yamlInv_run (lib : Lib) (path : String) (w : World) (as : List Answer) :
    YamlInv lib path w (run lib (.yaml path) w as).proc (run lib (.yaml path) w as).world := by
  have key : ∀ (as : List Answer) (s : State), YamlInv lib path w s.proc s.world →
      YamlInv lib path w (runFrom lib s as).proc (runFrom lib s as).world := by
    intro as
    induction as with
    | nil => intro s h; exact h
    | cons a as ih => intro s h; exact ih _ (yamlInv_step lib path w s.proc s.world a h)
  exact key as ⟨.opening path, w, []⟩ ⟨rfl, rfl⟩

/-- Any outcome of a batch is possible from the state between two jobs. -/
theorem batch_run {lib : Lib} {js : List Job} {w w' : World} {r : Exit} (h : Batch lib js w r w') (tr : List Event) :
    ∃ as tr', runFrom lib ⟨.next js, w, tr⟩ as = ⟨.ended r, w', tr'⟩ := by
  induction h generalizing tr with
  | nil w => exact ⟨[.failure], _, rfl⟩
  | cons j js w w1 w2 r h1 _ ih =>
    obtain ⟨as, tr1, e1⟩ := genReach_run ((ends_iff ..).1 h1) js tr
    obtain ⟨as2, tr2, e2⟩ := ih (tr1 ++ [])
    refine ⟨as ++ .failure :: as2, tr2, ?_⟩
    rw [runFrom_append, e1]
    exact e2
  | stop j js w w1 r hr h1 =>
    obtain ⟨as, tr1, e1⟩ := genReach_run ((ends_iff ..).1 h1) js tr
    refine ⟨as ++ [.failure], tr1 ++ [], ?_⟩
    rw [runFrom_append, e1]
    cases r with
    | ok => exact absurd rfl hr
    | ioError => rfl
    | panic => rfl

/-- The configuration can be read without errors. -/
theorem config_run (lib : Lib) (path : String) (w : World) (bs : List UInt8) (h : w.files path = some bs) :
    ∃ as tr, runFrom lib ⟨.opening path, w, []⟩ as = ⟨afterConfig lib path bs, w, tr⟩ := by
  have h1 : ∃ tr, runFrom lib ⟨.opening path, w, []⟩ [.success 0] = ⟨.reading path [] bs, w, tr⟩ := by
    simp [runFrom, State.step, procStep, h]
  obtain ⟨tr, h1⟩ := h1
  cases bs with
  | nil => exact ⟨[.success 0] ++ [.success 0], tr ++ [.read path []], by rw [runFrom_append, h1]; rfl⟩
  | cons b bs =>
    have : (b :: bs).drop ((b :: bs).length + 1) = [] := by rw [List.drop_eq_nil_iff]; omega
    have h2 : (b :: bs).take ((b :: bs).length + 1) = b :: bs := by rw [List.take_of_length_le]; omega
    refine ⟨[.success 0] ++ [.success (b :: bs).length, .success 0], tr ++ [.read path (b :: bs)] ++ [.read path []], ?_⟩
    rw [runFrom_append, h1]
    simp only [runFrom, List.foldl_cons, List.foldl_nil, State.step, procStep, this, h2, List.nil_append]

end TPB.Main
