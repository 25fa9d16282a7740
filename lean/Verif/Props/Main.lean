/- C47, C48, C49: the command-line program. -/
import Verif.Proofs.Main
import Verif.Model.ToCase
import Verif.Props.Output
namespace TPB.Props
open TPB.Main

theorem digest_ok_iff (x : Ext) (j : Job) (text data : String) : digest x j text = .ok data ↔ Accepts x j text data := by
  unfold digest Accepts
  cases h1 : tokenize text with
  | error e => simp
  | ok ts =>
    simp only [Except.ok.injEq, exists_and_left, exists_eq_left']
    cases h2 : parse ts with
    | error e => simp
    | ok S =>
      simp only [Except.ok.injEq, exists_eq_left']
      cases j.lang <;> simp

theorem fresh_iff (x : Ext) (j : Job) (w : World) (data : List UInt8) :
    Fresh x j w data ↔ ∃ text d, w.text j.input = some text ∧ Accepts x j text d ∧ data = utf8 d := by
  unfold Fresh
  rw [text_eq]
  cases h : w.files j.input with
  | none => simp
  | some bs =>
    simp only [Option.some.injEq, exists_eq_left', exists_and_left]
    constructor
    · rintro ⟨text, h1, d, h2, h3⟩
      exact ⟨text, h1, d, (digest_ok_iff ..).1 h2, h3⟩
    · rintro ⟨text, h1, d, h2, h3⟩
      exact ⟨text, h1, d, (digest_ok_iff ..).2 h2, h3⟩

theorem written_iff (j : Job) (d : String) (w w' : World) :
    OutputDone j d w w' ↔ (j.output ≠ "-" ∧ w' = w.setFile j.output (utf8 d)) ∨
      (j.output = "-" ∧ w' = { w with stdout := w.stdout ++ (utf8 d ++ utf8 "\n") }) := by
  unfold OutputDone
  by_cases ho : j.output = "-"
  · rw [if_pos ho]
    constructor
    · rintro ⟨h1, h2⟩
      refine .inr ⟨ho, World.ext' (fun q => by rw [h1]) ?_⟩
      rw [h2, List.append_assoc]
    · rintro (⟨h, _⟩ | ⟨_, rfl⟩)
      · exact absurd ho h
      · exact ⟨rfl, by rw [List.append_assoc]⟩
  · rw [if_neg ho]
    constructor
    · rintro ⟨h1, h2, h3⟩
      refine .inl ⟨ho, World.ext' (fun q => ?_) h3⟩
      simp only [World.setFile]
      split
      · rename_i e; rw [e, h1]
      · rename_i e; exact h2 q e
    · rintro (⟨_, rfl⟩ | ⟨h, _⟩)
      · refine ⟨setFile_self _ _ _, fun q hq => ?_, rfl⟩
        simp [World.setFile, hq]
      · exact absurd h ho

/-- **What a successful run does.** A run with one job can end well exactly when the input file holds an
accepted schema, and then exactly the output (file or standard output) has changed, to the complete
generated text. -/
theorem C47_success (lib : Lib) (j : Job) (w w' : World) :
    Ends lib (.generate j) w .ok w' ↔
      ∃ text data, w.text j.input = some text ∧ Accepts lib.ext j text data ∧ OutputDone j data w w' := by
  rw [ends_iff, reach_ended_iff]
  constructor
  · rintro ⟨data, hf, h⟩
    obtain ⟨text, d, h1, h2, rfl⟩ := (fresh_iff ..).1 hf
    exact ⟨text, d, h1, h2, (written_iff ..).2 h⟩
  · rintro ⟨text, d, h1, h2, h3⟩
    exact ⟨utf8 d, (fresh_iff ..).2 ⟨text, d, h1, h2, rfl⟩, (written_iff ..).1 h3⟩

/-- The input file holds no accepted schema: it is missing, not UTF-8, or rejected by the tokenizer, the
parser or the generator. -/
def Rejected (lib : Lib) (j : Job) (w : World) : Prop :=
  ∀ text data, w.text j.input = some text → ¬ Accepts lib.ext j text data

/-- **C47.** If the input is rejected, then at any moment of the run, whatever the system answers, nothing has
changed and no file has been opened for writing or written to. -/
theorem C47_rejected (lib : Lib) (j : Job) (w : World) (as : List Answer) (hr : Rejected lib j w) :
    (run lib (.generate j) w as).world = w ∧ (∀ p, .created p ∉ (run lib (.generate j) w as).trace) ∧
      ∀ p bs, .wrote p bs ∉ (run lib (.generate j) w as).trace := by
  have hn : ∀ data, ¬ Fresh lib.ext j w data := by
    intro data hf
    obtain ⟨text, d, h1, h2, _⟩ := (fresh_iff ..).1 hf
    exact hr text d h1 h2
  have ht := traceInv_run lib j w as
  refine ⟨?_, fun p h => ?_, fun p bs h => ?_⟩
  · obtain ⟨g, h⟩ := (reaches_iff lib j w _).1 ⟨as, rfl⟩
    have := h.inv
    cases g with
    | opening => exact this
    | reading => exact this.1
    | creating => exact this.1
    | writing => obtain ⟨_, _, _, hf, _⟩ := this; exact (hn _ hf).elim
    | printing => obtain ⟨_, _, _, hf, _⟩ := this; exact (hn _ hf).elim
    | ended e =>
      cases e with
      | ok => obtain ⟨_, hf, _⟩ := this; exact (hn _ hf).elim
      | ioError =>
        rcases this with h | ⟨_, _, _, _, _, hf, _⟩
        · exact h
        · exact (hn _ hf).elim
      | panic =>
        rcases this with h | ⟨_, _, _, _, _, hf, _⟩
        · exact h.1
        · exact (hn _ hf).elim
  · obtain ⟨data, hf⟩ := (ht.touch _ h trivial).1
    exact hn data hf
  · obtain ⟨data, hf⟩ := (ht.touch _ h trivial).1
    exact hn data hf

/-- **C47.** If opening or reading the input fails, even for a file that holds an accepted schema, nothing
changes, then or later. -/
theorem C47_read_failure (lib : Lib) (j : Job) (w : World) (as : List Answer)
    (h : (∃ p, .openFailed p ∈ (run lib (.generate j) w as).trace) ∨
      ∃ p, .readFailed p ∈ (run lib (.generate j) w as).trace) :
    (run lib (.generate j) w as).world = w ∧ (∀ p, .created p ∉ (run lib (.generate j) w as).trace) ∧
      ∀ p bs, .wrote p bs ∉ (run lib (.generate j) w as).trace := by
  have ht := traceInv_run lib j w as
  have key : (run lib (.generate j) w as).world = w ∧ ∀ e ∈ (run lib (.generate j) w as).trace, ¬ Touch e := by
    rcases h with ⟨p, h⟩ | ⟨p, h⟩
    · exact (ht.bad _ h trivial).2
    · exact (ht.bad _ h trivial).2
  exact ⟨key.1, fun p h => key.2 _ h trivial, fun p bs h => key.2 _ h trivial⟩

/-- **C47.** If the program panics, no file has changed. -/
theorem C47_panic (lib : Lib) (j : Job) (w w' : World) (h : Ends lib (.generate j) w .panic w') :
    w'.files = w.files := by
  rw [ends_iff] at h
  rcases h.inv with ⟨rfl, _⟩ | ⟨_, _, _, _, _, _, _, rfl⟩ <;> rfl

/-! ## C49: crashes -/

/-- **C49, part.** At any moment of a run, every file but the output is as before, and the output is as before
or a prefix of the new contents.  Missing: the prefix need not be complete (`C49_any_prefix`,
`C49_not_atomic`). -/
theorem C49_prefix_partial (lib : Lib) (j : Job) (w w' : World) (h : Reaches lib (.generate j) w w') :
    (∀ q, q ≠ j.output ∨ j.output = "-" → w'.files q = w.files q) ∧
    (w'.files j.output = w.files j.output ∨
      ∃ text data pre, w.text j.input = some text ∧ Accepts lib.ext j text data ∧ pre <+: utf8 data ∧
        w'.files j.output = some pre) := by
  have key : w'.files = w.files ∨ (j.output ≠ "-" ∧ ∃ data done rest, Fresh lib.ext j w data ∧ data = done ++ rest ∧
      w' = w.setFile j.output done) := by
    obtain ⟨g, h⟩ := (reaches_iff ..).1 h
    have := h.inv
    cases g with
    | opening => exact .inl (by rw [this])
    | reading => exact .inl (by rw [this.1])
    | creating => exact .inl (by rw [this.1])
    | writing rest => obtain ⟨ho, data, done, h1, h2, h3⟩ := this; exact .inr ⟨ho, data, done, rest, h1, h2, h3⟩
    | printing => obtain ⟨_, _, _, _, _, h⟩ := this; exact .inl (by rw [h])
    | ended e =>
      cases e with
      | ok =>
        obtain ⟨data, hf, ⟨ho, h⟩ | ⟨ho, h⟩⟩ := this
        · exact .inr ⟨ho, data, data, [], hf, by simp, h⟩
        · exact .inl (by rw [h])
      | ioError =>
        rcases this with h | ⟨ho, data, done, b, rest, h1, h2, h3⟩
        · exact .inl (by rw [h])
        · exact .inr ⟨ho, data, done, _, h1, h2, h3⟩
      | panic =>
        rcases this with h | ⟨_, _, _, _, _, _, _, h⟩
        · exact .inl (by rw [h.1])
        · exact .inl (by rw [h])
  rcases key with h | ⟨ho, data, done, rest, hf, e, rfl⟩
  · exact ⟨fun q _ => by rw [h], .inl (by rw [h])⟩
  · refine ⟨fun q hq => ?_, .inr ?_⟩
    · rcases hq with hq | hq
      · simp [World.setFile, hq]
      · exact absurd hq ho
    · obtain ⟨text, d, h1, h2, rfl⟩ := (fresh_iff ..).1 hf
      exact ⟨text, d, done, h1, h2, ⟨rest, e.symm⟩, setFile_self _ _ _⟩

/-- **C49 fails.** Whatever the schema, a run on an accepted one can be stopped with any prefix of the new
contents in the output file. -/
theorem C49_any_prefix (lib : Lib) (j : Job) (w : World) (text data : String) (ho : j.output ≠ "-")
    (ht : w.text j.input = some text) (ha : Accepts lib.ext j text data) (pre : List UInt8) (hp : pre <+: utf8 data) :
    ∃ w', Reaches lib (.generate j) w w' ∧ w'.files j.output = some pre := by
  obtain ⟨rest, e⟩ := hp
  have hf : Fresh lib.ext j w (utf8 data) := (fresh_iff ..).2 ⟨text, data, ht, ha, rfl⟩
  exact ⟨_, (reaches_iff ..).2 ⟨_, reach_writing hf ho e.symm⟩, setFile_self _ _ _⟩

theorem utf8_eq_nil {s : String} (h : utf8 s = []) : s = "" := by
  unfold utf8 at h
  rw [← String.toByteArray_inj]
  apply ByteArray.ext
  apply Array.toList_inj.1
  simpa using h

theorem utf8_ne_nil (s : String) (h : s ≠ "") : utf8 s ≠ [] := fun e => h (utf8_eq_nil e)

theorem accepts_ne_empty {x : Ext} {j : Job} {text data : String} (h : Accepts x j text data) : data ≠ "" := by
  obtain ⟨ts, S, _, _, h⟩ := h
  rintro rfl
  cases hl : j.lang with
  | rust =>
    rw [hl] at h
    obtain ⟨b, c, _, e⟩ := C39_rust_single_newline x S _ _ _ "" h
    have := congrArg String.length e
    simp at this
    omega
  | dart =>
    rw [hl] at h
    obtain ⟨b, c, _, e⟩ := C39_dart_single_newline x S _ _ _ "" h
    have := congrArg String.length e
    simp at this
    omega

/-- **C49 fails.** On an output file that is not empty, every run on an accepted schema has a moment at which
a crash leaves neither the old nor the new contents. -/
theorem C49_not_atomic (lib : Lib) (j : Job) (w : World) (text data : String) (old : List UInt8) (ho : j.output ≠ "-")
    (ht : w.text j.input = some text) (ha : Accepts lib.ext j text data) (_hold : w.files j.output = some old)
    (hne : old ≠ []) :
    ∃ w', Reaches lib (.generate j) w w' ∧ w'.files j.output ≠ some old ∧ w'.files j.output ≠ some (utf8 data) := by
  obtain ⟨w', h, e⟩ := C49_any_prefix lib j w text data ho ht ha [] (List.nil_prefix)
  refine ⟨w', h, ?_, ?_⟩
  · rw [e]; intro h; injection h with h; exact hne h.symm
  · rw [e]; intro h; injection h with h
    exact utf8_ne_nil data (accepts_ne_empty ha) h.symm

/-! ## C48: batches -/

/-- **C48.** A run on a configuration ends in one of three ways: the configuration could not be read; it is
not a configuration (or has no directory); or the single generations it asks for were run one after another, up
to the first that did not succeed, whose exit is the exit of the whole run.  And each of these can happen. -/
theorem C48_batch (lib : Lib) (path : String) (w : World) (r : Exit) (w' : World) :
    Ends lib (.yaml path) w r w' ↔
      (∃ text d dir, w.text path = some text ∧ lib.yaml text = some d ∧ lib.parent path = some dir ∧
        Batch lib (entries dir d) w r w') ∨
      (r = .panic ∧ w' = w ∧ ∃ text, w.text path = some text ∧ (lib.yaml text = none ∨ lib.parent path = none)) ∨
      (r = .ioError ∧ w' = w) := by
  constructor
  · rintro ⟨as, h1, h2⟩
    have := yamlInv_run lib path w as
    rw [h1, h2] at this
    exact this
  · have file : ∀ text, w.text path = some text → ∃ bs, w.files path = some bs ∧ decode bs = some text := by
      intro text h
      rw [text_eq] at h
      cases hf : w.files path with
      | none => rw [hf] at h; cases h
      | some bs => rw [hf] at h; exact ⟨bs, rfl, h⟩
    rintro (⟨text, d, dir, h1, h2, h3, h4⟩ | ⟨rfl, rfl, text, h1, h2⟩ | ⟨rfl, rfl⟩)
    · obtain ⟨bs, hb, hd⟩ := file text h1
      obtain ⟨as, tr, e⟩ := config_run lib path w bs hb
      have hc : afterConfig lib path bs = .next (entries dir d) := by
        simp [afterConfig, hd, h2, h3, entries_eq]
      obtain ⟨as2, tr2, e2⟩ := batch_run h4 tr
      have e3 : run lib (.yaml path) w (as ++ as2) = ⟨.ended r, w', tr2⟩ := by
        show runFrom lib ⟨.opening path, w, []⟩ (as ++ as2) = _
        rw [runFrom_append, e, hc, e2]
      exact ⟨as ++ as2, by rw [e3], by rw [e3]⟩
    · obtain ⟨bs, hb, hd⟩ := file text h1
      obtain ⟨as, tr, e⟩ := config_run lib path w' bs hb
      have hc : afterConfig lib path bs = .ended .panic := by
        unfold afterConfig
        rw [hd]
        dsimp only
        rcases h2 with h2 | h2
        · rw [h2]
        · rw [h2]; cases lib.yaml text <;> rfl
      rw [hc] at e
      have e3 : run lib (.yaml path) w' as = ⟨.ended .panic, w', tr⟩ := e
      exact ⟨as, by rw [e3], by rw [e3]⟩
    · exact ⟨[.failure], rfl, rfl⟩

theorem Batch.split {lib : Lib} {js : List Job} {w w' : World} {r : Exit} (h : Batch lib js w r w') :
    ∃ done rest w1, js = done ++ rest ∧ Batch lib done w .ok w1 ∧
      ((rest = [] ∧ r = .ok ∧ w' = w1) ∨ ∃ j tl, rest = j :: tl ∧ r ≠ .ok ∧ Ends lib (.generate j) w1 r w') := by
  induction h with
  | nil w => exact ⟨[], [], w, rfl, .nil _, .inl ⟨rfl, rfl, rfl⟩⟩
  | cons j js w w1 w2 r h1 _ ih =>
    obtain ⟨done, rest, w3, e, hb, h⟩ := ih
    exact ⟨j :: done, rest, w3, by rw [e]; rfl, .cons _ _ _ _ _ _ h1 hb, h⟩
  | stop j js w w1 r hr h1 => exact ⟨[], j :: js, w, rfl, .nil _, .inr ⟨j, js, rfl, hr, h1⟩⟩

/-- **C48.** At any moment of a run on a configuration: some of the first entries have been generated
successfully, one after another; the next entry may be under way; and the entries after it have had no
effect. -/
theorem C48_any_moment (lib : Lib) (path : String) (w w' : World) (h : Reaches lib (.yaml path) w w') :
    w' = w ∨ ∃ text d dir done rest w1, w.text path = some text ∧ lib.yaml text = some d ∧
      lib.parent path = some dir ∧ entries dir d = done ++ rest ∧ Batch lib done w .ok w1 ∧
      (w' = w1 ∨ ∃ j tl, rest = j :: tl ∧ Reaches lib (.generate j) w1 w') := by
  obtain ⟨as, rfl⟩ := h
  have := yamlInv_run lib path w as
  generalize (run lib (.yaml path) w as).world = w2 at this
  cases hp : (run lib (.yaml path) w as).proc with
  | opening => rw [hp] at this; exact .inl this.2
  | reading => rw [hp] at this; exact .inl this.2.1
  | next js =>
    rw [hp] at this
    obtain ⟨text, d, dir, done, h1, h2, h3, h4, h5⟩ := this
    exact .inr ⟨text, d, dir, done, js, w2, h1, h2, h3, h4, h5, .inl rfl⟩
  | job j g js =>
    rw [hp] at this
    obtain ⟨text, d, dir, done, w1, h1, h2, h3, h4, h5, h6⟩ := this
    exact .inr ⟨text, d, dir, done, j :: js, w1, h1, h2, h3, h4, h5, .inr ⟨j, js, rfl, (reaches_iff ..).2 ⟨g, h6⟩⟩⟩
  | ended r =>
    rw [hp] at this
    rcases this with ⟨text, d, dir, h1, h2, h3, h4⟩ | ⟨_, h, _⟩ | ⟨_, h⟩
    · obtain ⟨done, rest, w1, e, hb, h⟩ := Batch.split h4
      refine .inr ⟨text, d, dir, done, rest, w1, h1, h2, h3, e, hb, ?_⟩
      rcases h with ⟨_, _, h⟩ | ⟨j, tl, hr, _, as', _, h⟩
      · exact .inl h
      · exact .inr ⟨j, tl, hr, as', h⟩
    · exact .inl h
    · exact .inl h

theorem Batch.split_ok {lib : Lib} {a b : List Job} {w w' : World} (h : Batch lib (a ++ b) w .ok w') :
    ∃ w1, Batch lib a w .ok w1 ∧ Batch lib b w1 .ok w' := by
  induction a generalizing w with
  | nil => exact ⟨w, .nil _, h⟩
  | cons j a ih =>
    cases h with
    | cons _ _ _ w1 _ _ h1 h2 =>
      obtain ⟨w2, h3, h4⟩ := ih h2
      exact ⟨w2, .cons _ _ _ _ _ _ h1 h3, h4⟩
    | stop _ _ _ _ _ hr _ => exact absurd rfl hr

theorem Batch.untouched {lib : Lib} {js : List Job} {w w' : World} (h : Batch lib js w .ok w') (q : String)
    (hq : ∀ j ∈ js, j.output ≠ q) : w'.files q = w.files q := by
  generalize hr : Exit.ok = ok at h
  induction h with
  | nil => rfl
  | cons j js w w1 w2 r h1 _ ih =>
    rw [ih (fun j' hj => hq j' (by simp [hj])) hr]
    obtain ⟨as, _, h1⟩ := h1
    exact (C49_prefix_partial lib j w w1 ⟨as, h1⟩).1 q (.inl (fun e => hq j (by simp) e.symm))
  | stop j js w w1 r hr' _ => exact absurd hr.symm hr'

/-- **C48.** The entries before the first failing one have been written completely: the output file of each of
them holds all of the generated text, unless a later one of them has the same output. -/
theorem C48_written (lib : Lib) (before after : List Job) (j : Job) (w w' : World)
    (h : Batch lib (before ++ j :: after) w .ok w') (ho : j.output ≠ "-") (hl : ∀ j' ∈ after, j'.output ≠ j.output) :
    ∃ w1 text data, Batch lib before w .ok w1 ∧ w1.text j.input = some text ∧ Accepts lib.ext j text data ∧
      w'.files j.output = some (utf8 data) := by
  obtain ⟨w1, h1, h2⟩ := Batch.split_ok h
  cases h2 with
  | cons _ _ _ w2 _ _ h3 h4 =>
    obtain ⟨text, data, e1, e2, e3⟩ := (C47_success ..).1 h3
    refine ⟨w1, text, data, h1, e1, e2, ?_⟩
    rw [Batch.untouched h4 j.output hl]
    unfold OutputDone at e3
    rw [if_neg ho] at e3
    exact e3.1
  | stop _ _ _ _ _ hr _ => exact absurd rfl hr

/-- **C47, C48.** No moment of any run changes a file that is not the output of one of its entries. -/
theorem C48_other_files (lib : Lib) (path : String) (w w' : World) (h : Reaches lib (.yaml path) w w') (q : String)
    (hq : ∀ text d dir, w.text path = some text → lib.yaml text = some d → lib.parent path = some dir →
      ∀ j ∈ entries dir d, j.output ≠ q) : w'.files q = w.files q := by
  rcases C48_any_moment lib path w w' h with rfl | ⟨text, d, dir, done, rest, w1, h1, h2, h3, h4, h5, h6⟩
  · rfl
  · have hm := hq text d dir h1 h2 h3
    rw [h4] at hm
    have e1 := Batch.untouched h5 q (fun j hj => hm j (by simp [hj]))
    rcases h6 with rfl | ⟨j, tl, rfl, h⟩
    · exact e1
    · rw [← e1]
      exact (C49_prefix_partial lib j w1 w' h).1 q (.inl (fun e => hm j (by simp) e.symm))

/-! ## Concrete cases -/

theorem decode_utf8 (s : String) : decode (utf8 s) = some s := by
  unfold decode utf8 String.fromUTF8?
  have : (⟨s.toUTF8.data.toList.toArray⟩ : ByteArray) = s.toByteArray := by simp
  rw [this]
  rw [dif_pos s.isValidUTF8]
  rfl

/-- A file system with two schemas (one rejected), an old output and a configuration. -/
def exWorld : World :=
  { files := fun p =>
      if p = "dir/a.tpb" then some (utf8 "struct A;") else if p = "dir/b.tpb" then some (utf8 "struct") else
      if p = "dir/a.rs" then some (utf8 "old") else if p = "dir/c.yaml" then some (utf8 "conf") else none
    stdout := [] }

def exLib : Lib :=
  { ext := testExt
    yaml := fun t => if t = "conf" then
        some ⟨some [⟨"a.tpb", "/x.dart", true, true, true⟩],
          some [⟨"a.tpb", "a.rs", false, false, false⟩, ⟨"b.tpb", "b.rs", false, false, false⟩]⟩ else none
    parent := fun p => if p = "dir/c.yaml" then some "dir" else none }

def exJob : Job := ⟨"dir/a.tpb", "dir/a.rs", .rust, false, false, false⟩

theorem exText : exWorld.text "dir/a.tpb" = some "struct A;" := by
  have : exWorld.files "dir/a.tpb" = some (utf8 "struct A;") := rfl
  simp [text_eq, this, decode_utf8]

theorem exAccepts : ∃ data, Accepts testExt exJob "struct A;" data := by
  refine ⟨_, _, _, rfl, rfl, rfl⟩

/-- The hypotheses of `C49_not_atomic` are met, and the run can succeed. -/
example : ∃ data w', exJob.output ≠ "-" ∧ exWorld.text exJob.input = some "struct A;" ∧
    Accepts exLib.ext exJob "struct A;" data ∧ exWorld.files exJob.output = some (utf8 "old") ∧ utf8 "old" ≠ [] ∧
    Ends exLib (.generate exJob) exWorld .ok w' := by
  obtain ⟨data, h⟩ := exAccepts
  refine ⟨data, exWorld.setFile exJob.output (utf8 data), by decide, exText, h, rfl, by decide, ?_⟩
  exact (C47_success ..).2 ⟨_, data, exText, h, (written_iff exJob data exWorld _).2 (.inl ⟨by decide, rfl⟩)⟩

/-- The second schema is rejected. -/
example : Rejected exLib { exJob with input := "dir/b.tpb" } exWorld := by
  intro text data h
  have : exWorld.files "dir/b.tpb" = some (utf8 "struct") := rfl
  simp only [text_eq, this, decode_utf8, Option.some.injEq] at h
  subst h
  rintro ⟨ts, S, h1, h2, _⟩
  have e : tokenize "struct" = .ok [.kwStruct, .eof] := rfl
  rw [e] at h1
  injection h1 with h1
  subst h1
  have e2 : parse [.kwStruct, .eof] = .error (.unexpected .eof) := rfl
  rw [e2] at h2
  cases h2

/-- The configuration asks for three generations, the rust ones first. -/
example : entries "dir" ((exLib.yaml "conf").getD ⟨none, none⟩) =
    [exJob, { exJob with input := "dir/b.tpb", output := "dir/b.rs" },
      ⟨"dir/a.tpb", "/x.dart", .dart, true, true, true⟩] := by decide +kernel

end TPB.Props
