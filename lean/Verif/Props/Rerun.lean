/-
Property theorems about running the generator again, after success, failures and crashes: C98.
-/
import Verif.Props.Main
import Verif.Spec.Rerun
import Verif.Props.Output
import Verif.Props.Lexer
namespace TPB.Props
open Spec Main

/-- The files that are written by the jobs. -/
def outputs (js : List Job) : List String := (js.map (·.output)).filter (· ≠ "-")

/-- The two worlds have the same files, but perhaps for the paths in `O` that are not in `D`. -/
def AgreeOn (O D : List String) (w v : World) : Prop := ∀ q, q ∉ O ∨ q ∈ D → w.files q = v.files q

theorem accepts_unique {x : Ext} {j : Job} {text a b : String} (h : Accepts x j text a) (h' : Accepts x j text b) : a = b :=
  Except.ok.inj (((digest_ok_iff ..).2 h).symm.trans ((digest_ok_iff ..).2 h'))

theorem agree_text {O D : List String} {w v : World} (h : AgreeOn O D w v) {p : String} (hp : p ∉ O) : w.text p = v.text p := by
  unfold World.text
  rw [h p (.inl hp)]

theorem agree_done {O D : List String} {w v w' v' : World} {j : Job} {data : String} (h : AgreeOn O D w v) (hw : OutputDone j data w w')
    (hv : OutputDone j data v v') : AgreeOn O (outputs [j] ++ D) w' v' := by
  intro q hq
  unfold OutputDone at hw hv
  by_cases ho : j.output = "-"
  · rw [if_pos ho] at hw hv
    rw [hw.1, hv.1]
    exact h q (by simpa [outputs, ho] using hq)
  · rw [if_neg ho] at hw hv
    by_cases e : q = j.output
    · rw [e, hw.1, hv.1]
    · rw [hw.2.1 q e, hv.2.1 q e]
      exact h q (by simpa [outputs, ho, e] using hq)

theorem batch_agree {lib : Lib} {O : List String} {js : List Job} {w w' : World} {r : Exit} (hb : Batch lib js w r w') (hr : r = .ok)
    (hi : ∀ j ∈ js, j.input ∉ O) : ∀ {D : List String} {v : World}, AgreeOn O D w v →
      (∃ v', Batch lib js v .ok v') ∧ ∀ v', Batch lib js v .ok v' → AgreeOn O (outputs js ++ D) w' v' := by
  induction hb with
  | nil w =>
    intro D v h
    refine ⟨⟨v, .nil v⟩, fun v' hv => ?_⟩
    cases hv
    simpa [outputs] using h
  | stop j js w w1 r hne => exact absurd hr hne
  | cons j js w w1 w2 r h1 h2 ih =>
    intro D v h
    obtain ⟨text, data, e1, e2, e3⟩ := (C47_success ..).1 h1
    have ht := agree_text h (hi j (by simp))
    have step : ∀ v1, Ends lib (.generate j) v .ok v1 → AgreeOn O (outputs [j] ++ D) w1 v1 := by
      intro v1 hv1
      obtain ⟨text', data', f1, f2, f3⟩ := (C47_success ..).1 hv1
      rw [← ht, e1] at f1
      obtain rfl := Option.some.inj f1
      obtain rfl := accepts_unique e2 f2
      exact agree_done h e3 f3
    have hi' : ∀ i ∈ js, i.input ∉ O := fun i hm => hi i (by simp [hm])
    constructor
    · obtain ⟨v1, hv1⟩ : ∃ v1, OutputDone j data v v1 := by
        by_cases ho : j.output = "-"
        · exact ⟨_, (written_iff ..).2 (.inr ⟨ho, rfl⟩)⟩
        · exact ⟨_, (written_iff ..).2 (.inl ⟨ho, rfl⟩)⟩
      have h3 : Ends lib (.generate j) v .ok v1 := (C47_success ..).2 ⟨text, data, ht ▸ e1, e2, hv1⟩
      obtain ⟨⟨v', hv'⟩, -⟩ := ih hr hi' (step v1 h3)
      exact ⟨v', .cons _ _ _ _ _ _ h3 hv'⟩
    · intro v' hv'
      cases hv' with
      | cons _ _ _ v1 _ _ h3 h4 =>
        have := (ih hr hi' (step v1 h3)).2 v' h4
        intro q hq
        refine this q ?_
        rcases hq with hq | hq
        · exact .inl hq
        · refine .inr ?_
          simp only [outputs, List.map_cons, List.map_nil, List.mem_append, List.mem_filter, List.mem_cons, List.not_mem_nil, or_false] at hq ⊢
          rcases hq with ⟨hq | hq, hn⟩ | hq
          · exact .inr (.inl ⟨hq, hn⟩)
          · exact .inl ⟨hq, hn⟩
          · exact .inr (.inr hq)
      | stop _ _ _ _ _ hne => exact absurd rfl hne

theorem one_agree {lib : Lib} {O : List String} {j : Job} {w w' : World} (h : Reaches lib (.generate j) w w') (ho : ∀ q ∈ outputs [j], q ∈ O) :
    AgreeOn O [] w w' := by
  intro q hq
  have hq : q ∉ O := by simpa using hq
  refine ((C49_prefix_partial lib j w w' h).1 q ?_).symm
  by_cases hd : j.output = "-"
  · exact .inr hd
  · refine .inl fun e => hq (ho q (by simp [outputs, e, hd]))

theorem AgreeOn.trans {O : List String} {u v w : World} (h : AgreeOn O [] u v) (h' : AgreeOn O [] v w) : AgreeOn O [] u w :=
  fun q hq => (h q hq).trans (h' q hq)

theorem done_agree {lib : Lib} {O : List String} {js : List Job} {w w' : World} {r : Exit} (hb : Batch lib js w r w')
    (ho : ∀ q ∈ outputs js, q ∈ O) : AgreeOn O [] w w' := by
  have one : ∀ {j : Job} {js' : List Job}, js = j :: js' → ∀ q ∈ outputs [j], q ∈ O := by
    rintro j js' rfl q hq
    refine ho q ?_
    simp only [outputs, List.map_cons, List.map_nil, List.mem_filter, List.mem_cons, List.not_mem_nil, or_false] at hq ⊢
    exact ⟨.inl hq.1, hq.2⟩
  induction hb with
  | nil w => exact fun _ _ => rfl
  | stop j js w w1 r _ h => exact one_agree (let ⟨as, _, h⟩ := h; ⟨as, h⟩) (one rfl)
  | cons j js w w1 w2 r h _ ih =>
    refine (one_agree (let ⟨as, _, h⟩ := h; ⟨as, h⟩) (one rfl)).trans (ih (fun q hq => ho q ?_) ?_)
    · simp only [outputs, List.map_cons, List.mem_filter, List.mem_cons] at hq ⊢
      exact ⟨.inr hq.1, hq.2⟩
    · rintro i js' rfl q hq
      refine ho q ?_
      simp only [outputs, List.map_cons, List.map_nil, List.mem_filter, List.mem_cons, List.not_mem_nil, or_false] at hq ⊢
      exact ⟨.inr (.inl hq.1), hq.2⟩

/-- **C98.** The program is run on a configuration and stopped at any moment: it may have succeeded, failed or been killed,
also in the middle of a write.  It is then run again.  If no generated file is the configuration or one of its schemas,
the second run can succeed exactly when a single undisturbed run can, and then all files are as after that run. -/
theorem C98_run_again (lib : Lib) (path : String) (w w1 : World) (hn : NoFeedback lib path w) (h : Reaches lib (.yaml path) w w1) :
    ((∃ w2, Ends lib (.yaml path) w1 .ok w2) ↔ ∃ w2, Ends lib (.yaml path) w .ok w2) ∧
      ∀ w2 w3, Ends lib (.yaml path) w1 .ok w2 → Ends lib (.yaml path) w .ok w3 → w2.files = w3.files := by
  have cfg : ∀ u u', Ends lib (.yaml path) u .ok u' → ∃ text d dir, u.text path = some text ∧ lib.yaml text = some d ∧
      lib.parent path = some dir ∧ Batch lib (entries dir d) u .ok u' := by
    intro u u' hu
    rcases (C48_batch ..).1 hu with h | ⟨h, -⟩ | ⟨h, -⟩
    · exact h
    · cases h
    · cases h
  by_cases hc : ∃ text d dir, w.text path = some text ∧ lib.yaml text = some d ∧ lib.parent path = some dir
  · obtain ⟨text, d, dir, h1, h2, h3⟩ := hc
    have hf := hn text d dir h1 h2 h3
    have hO : ∀ q ∈ outputs (entries dir d), q ≠ path ∧ ∀ i ∈ entries dir d, q ≠ i.input := by
      intro q hq
      obtain ⟨hq, hd⟩ := List.mem_filter.1 hq
      obtain ⟨j, hj, rfl⟩ := List.mem_map.1 hq
      exact hf j hj (by simpa using hd)
    have hag : AgreeOn (outputs (entries dir d)) [] w w1 := by
      rcases C48_any_moment lib path w w1 h with rfl | ⟨text', d', dir', done, rest, wa, g1, g2, g3, g4, g5, g6⟩
      · exact fun _ _ => rfl
      · obtain rfl : text = text' := Option.some.inj (h1.symm.trans g1)
        obtain rfl : d = d' := Option.some.inj (h2.symm.trans g2)
        obtain rfl : dir = dir' := Option.some.inj (h3.symm.trans g3)
        rw [g4]
        have h5 : AgreeOn (outputs (done ++ rest)) [] w wa := done_agree g5 (fun q hq => by
          simp only [outputs, List.map_append, List.filter_append, List.mem_append] at hq ⊢
          exact .inl hq)
        rcases g6 with rfl | ⟨j, tl, rfl, g6⟩
        · exact h5
        · refine h5.trans (one_agree g6 (fun q hq => ?_))
          simp only [outputs, List.map_append, List.map_cons, List.map_nil, List.mem_filter, List.mem_append, List.mem_cons, List.not_mem_nil,
            or_false] at hq ⊢
          exact ⟨.inr (.inl hq.1), hq.2⟩
    have hp : path ∉ outputs (entries dir d) := fun hq => (hO path hq).1 rfl
    have hi : ∀ j ∈ entries dir d, j.input ∉ outputs (entries dir d) := fun j hj hq => (hO _ hq).2 j hj rfl
    have h1' : w1.text path = some text := by rw [← agree_text hag hp, h1]
    have hE : ∀ u, u.text path = some text → ∀ u', Ends lib (.yaml path) u .ok u' ↔ Batch lib (entries dir d) u .ok u' := by
      intro u hu u'
      constructor
      · intro he
        obtain ⟨text', d', dir', g1, g2, g3, g4⟩ := cfg u u' he
        obtain rfl : text = text' := Option.some.inj (hu.symm.trans g1)
        obtain rfl : d = d' := Option.some.inj (h2.symm.trans g2)
        obtain rfl : dir = dir' := Option.some.inj (h3.symm.trans g3)
        exact g4
      · intro hb
        exact (C48_batch ..).2 (.inl ⟨text, d, dir, hu, h2, h3, hb⟩)
    have hag' : AgreeOn (outputs (entries dir d)) [] w1 w := fun q hq => (hag q hq).symm
    refine ⟨⟨?_, ?_⟩, fun w2 w3 e2 e3 => ?_⟩
    · rintro ⟨w2, e2⟩
      obtain ⟨w3, e3⟩ := (batch_agree ((hE w1 h1' w2).1 e2) rfl hi hag').1
      exact ⟨w3, (hE w h1 w3).2 e3⟩
    · rintro ⟨w3, e3⟩
      obtain ⟨w2, e2⟩ := (batch_agree ((hE w h1 w3).1 e3) rfl hi hag).1
      exact ⟨w2, (hE w1 h1' w2).2 e2⟩
    · have := (batch_agree ((hE w1 h1' w2).1 e2) rfl hi hag').2 w3 ((hE w h1 w3).1 e3)
      funext q
      refine this q ?_
      by_cases hq : q ∈ outputs (entries dir d)
      · exact .inr (by simp [hq])
      · exact .inl hq
  · have hne : ∀ w3, ¬ Ends lib (.yaml path) w .ok w3 := by
      intro w3 h3
      obtain ⟨text, d, dir, g1, g2, g3, -⟩ := cfg w w3 h3
      exact hc ⟨text, d, dir, g1, g2, g3⟩
    obtain rfl : w1 = w := by
      rcases C48_any_moment lib path w w1 h with rfl | ⟨text', d', dir', -, -, -, g1, g2, g3, -⟩
      · rfl
      · exact absurd ⟨text', d', dir', g1, g2, g3⟩ hc
    exact ⟨.rfl, fun w2 w3 e2 _ => absurd e2 (hne w2)⟩

/-- **C98.** Running the program twice leaves the same files as running it once. -/
theorem C98_idempotent (lib : Lib) (path : String) (w w1 : World) (hn : NoFeedback lib path w) (h : Ends lib (.yaml path) w .ok w1) :
    (∃ w2, Ends lib (.yaml path) w1 .ok w2) ∧ ∀ w2, Ends lib (.yaml path) w1 .ok w2 → w2.files = w1.files := by
  obtain ⟨h1, h2⟩ := C98_run_again lib path w w1 hn (let ⟨as, _, h⟩ := h; ⟨as, h⟩)
  exact ⟨h1.2 ⟨w1, h⟩, fun w2 e => h2 w2 w1 e h⟩

/-- **C98, for a single generation.** -/
theorem C98_generate_again (lib : Lib) (j : Job) (w w1 : World) (hn : j.output = "-" ∨ j.output ≠ j.input)
    (h : Reaches lib (.generate j) w w1) :
    ((∃ w2, Ends lib (.generate j) w1 .ok w2) ↔ ∃ w2, Ends lib (.generate j) w .ok w2) ∧
      ∀ w2 w3, Ends lib (.generate j) w1 .ok w2 → Ends lib (.generate j) w .ok w3 → w2.files = w3.files := by
  have hag : AgreeOn (outputs [j]) [] w w1 := one_agree h fun _ h => h
  have hi : ∀ i ∈ [j], i.input ∉ outputs [j] := by
    intro i hm hq
    obtain rfl : i = j := by simpa using hm
    simp only [outputs, List.map_cons, List.map_nil, List.mem_filter, List.mem_cons, List.not_mem_nil, or_false] at hq
    rcases hn with hn | hn
    · exact (by simpa [hq.1] using hq.2 : i.output ≠ "-") hn
    · exact hn hq.1.symm
  have one : ∀ u u', Ends lib (.generate j) u .ok u' ↔ Batch lib [j] u .ok u' := by
    intro u u'
    constructor
    · exact fun he => .cons _ _ _ _ _ _ he (.nil _)
    · intro hb
      cases hb with
      | cons _ _ _ _ _ _ h1 h2 => cases h2; exact h1
      | stop _ _ _ _ _ hne => exact absurd rfl hne
  have hag' : AgreeOn (outputs [j]) [] w1 w := fun q hq => (hag q hq).symm
  refine ⟨⟨?_, ?_⟩, fun w2 w3 e2 e3 => ?_⟩
  · rintro ⟨w2, e2⟩
    obtain ⟨w3, e3⟩ := (batch_agree ((one w1 w2).1 e2) rfl hi hag').1
    exact ⟨w3, (one w w3).2 e3⟩
  · rintro ⟨w3, e3⟩
    obtain ⟨w2, e2⟩ := (batch_agree ((one w w3).1 e3) rfl hi hag).1
    exact ⟨w2, (one w1 w2).2 e2⟩
  · have := (batch_agree ((one w1 w2).1 e2) rfl hi hag').2 w3 ((one w w3).1 e3)
    funext q
    refine this q ?_
    by_cases hq : q ∈ outputs [j]
    · exact .inr (by simp [hq])
    · exact .inl hq

/-- **C98, nothing old is left.** Two file systems with the same configuration and the same schemas may have different contents, or
none, where the generated files go.  The program can succeed on one exactly when it can on the other, and then leaves the same files. -/
theorem C98_stale (lib : Lib) (path text dir : String) (d : YamlData) (w v : World) (hn : NoFeedback lib path w) (h1 : w.text path = some text)
    (h2 : lib.yaml text = some d) (h3 : lib.parent path = some dir)
    (hv : ∀ q, (∀ j ∈ entries dir d, j.output ≠ "-" → q ≠ j.output) → w.files q = v.files q) :
    ((∃ w', Ends lib (.yaml path) w .ok w') ↔ ∃ v', Ends lib (.yaml path) v .ok v') ∧
      ∀ w' v', Ends lib (.yaml path) w .ok w' → Ends lib (.yaml path) v .ok v' → w'.files = v'.files := by
  have hf := hn text d dir h1 h2 h3
  have hO : ∀ q ∈ outputs (entries dir d), q ≠ path ∧ ∀ i ∈ entries dir d, q ≠ i.input := by
    intro q hq
    obtain ⟨hq, hd⟩ := List.mem_filter.1 hq
    obtain ⟨j, hj, rfl⟩ := List.mem_map.1 hq
    exact hf j hj (by simpa using hd)
  have hag : AgreeOn (outputs (entries dir d)) [] w v := by
    intro q hq
    have hq : q ∉ outputs (entries dir d) := by simpa using hq
    refine hv q fun j hj hd e => hq (List.mem_filter.2 ⟨List.mem_map.2 ⟨j, hj, e.symm⟩, ?_⟩)
    simpa [e] using hd
  have hp : path ∉ outputs (entries dir d) := fun hq => (hO path hq).1 rfl
  have hi : ∀ j ∈ entries dir d, j.input ∉ outputs (entries dir d) := fun j hj hq => (hO _ hq).2 j hj rfl
  have hE : ∀ u, u.text path = some text → ∀ u', Ends lib (.yaml path) u .ok u' ↔ Batch lib (entries dir d) u .ok u' := by
    intro u hu u'
    constructor
    · intro he
      rcases (C48_batch ..).1 he with ⟨text', d', dir', g1, g2, g3, g4⟩ | ⟨h, -⟩ | ⟨h, -⟩
      · obtain rfl : text = text' := Option.some.inj (hu.symm.trans g1)
        obtain rfl : d = d' := Option.some.inj (h2.symm.trans g2)
        obtain rfl : dir = dir' := Option.some.inj (h3.symm.trans g3)
        exact g4
      · cases h
      · cases h
    · intro hb
      exact (C48_batch ..).2 (.inl ⟨text, d, dir, hu, h2, h3, hb⟩)
  have h1' : v.text path = some text := by rw [← agree_text hag hp, h1]
  have hag' : AgreeOn (outputs (entries dir d)) [] v w := fun q hq => (hag q hq).symm
  refine ⟨⟨?_, ?_⟩, fun w' v' e e' => ?_⟩
  · rintro ⟨w', e⟩
    obtain ⟨v', e'⟩ := (batch_agree ((hE w h1 w').1 e) rfl hi hag).1
    exact ⟨v', (hE v h1' v').2 e'⟩
  · rintro ⟨v', e⟩
    obtain ⟨w', e'⟩ := (batch_agree ((hE v h1' v').1 e) rfl hi hag').1
    exact ⟨w', (hE w h1 w').2 e'⟩
  · have := (batch_agree ((hE w h1 w').1 e) rfl hi hag).2 v' ((hE v h1' v').1 e')
    funext q
    refine this q ?_
    by_cases hq : q ∈ outputs (entries dir d)
    · exact .inr (by simp [hq])
    · exact .inl hq

/-- **C98, why the outputs must not be read again.** If the output of a single generation is its own schema, the program can be
killed at a moment where the schema is lost: the file is empty. -/
theorem C98_schema_lost (lib : Lib) (j : Job) (w : World) (text data : String) (ho : j.output ≠ "-") (hi : j.output = j.input)
    (ht : w.text j.input = some text) (ha : Accepts lib.ext j text data) :
    ∃ w', Reaches lib (.generate j) w w' ∧ w'.files j.input = some [] := by
  obtain ⟨w', h1, h2⟩ := C49_any_prefix lib j w text data ho ht ha [] List.nil_prefix
  exact ⟨w', h1, hi ▸ h2⟩

/-- What remains of a text without the newlines at its end begins as the text does, up to any character that is no newline. -/
theorem strips_prefix {p rest s : String} {k : Nat} {c : Char} (hc : c ≠ '\n') (h : p ++ String.singleton c ++ rest = s ++ String.ofList (List.replicate k '\n')) :
    ∃ r, s = p ++ String.singleton c ++ r := by
  have h' : (p.toList ++ [c]) ++ rest.toList = s.toList ++ List.replicate k '\n' := by
    have := congrArg String.toList h
    simpa using this
  rcases List.append_eq_append_iff.1 h' with ⟨a, h1, h2⟩ | ⟨a, h1, h2⟩
  · refine ⟨String.ofList a, String.ext ?_⟩
    simpa using h1
  · rcases List.eq_nil_or_concat a with rfl | ⟨b, d, rfl⟩
    · refine ⟨"", String.ext ?_⟩
      simpa using h1.symm
    · exfalso
      have h3 : c = d := by
        have := congrArg List.getLast? h1
        simpa using this
      have : d ∈ List.replicate k '\n' := by rw [h2]; simp
      exact hc (h3.trans (List.eq_of_mem_replicate this))

theorem newline_step (k : List Char → Except Panic (List Token)) (cs : List Char) : tokenizeStep k '\n' cs = k cs := by
  unfold tokenizeStep
  rw [if_neg (by decide), if_neg (by decide), if_neg (by decide), if_pos (by decide)]

/-- A text that begins as every generated Rust file does is no schema. -/
theorem rust_head_rejected (r : String) (ts : List Token) (S : List ASTNode)
    (h1 : tokenize ("// GENERATED, DO NOT EDIT\n\n#!" ++ r) = .ok ts) : parse ts ≠ .ok S := by
  rw [tokenize_eq_view, latin1View_append] at h1
  have e : latin1View "// GENERATED, DO NOT EDIT\n\n#!" = "// GENERATED, DO NOT EDIT\n\n#!" := by decide +kernel
  have e' : (latin1View "// GENERATED, DO NOT EDIT\n\n#!" ++ latin1View r).toList
      = "//".toList ++ " GENERATED, DO NOT EDIT".toList ++ ['\n'] ++ ('\n' :: '#' :: '!' :: (latin1View r).toList) := by
    rw [e]
    simp
  rw [e', C07_line_comment _ _ _ (by decide) (by decide) (.inl rfl), tokenizeChars_cons] at h1
  rw [newline_step, tokenize_sym '#' _ (by decide) (by decide) (by decide) (by decide) (by decide) (by decide) (by decide),
    tokenize_sym '!' _ (by decide) (by decide) (by decide) (by decide) (by decide) (by decide) (by decide)] at h1
  obtain ⟨vs, h2, rfl⟩ := consToks_ok h1
  obtain ⟨us, -, rfl⟩ := consToks_ok h2
  simp [parse, parseLoop, parseDecl, parseDirective, PS.cur, PS.adv]

/-- **C98.** No generated Rust file is accepted as a schema, whatever the sections. -/
theorem C98_rust_rejected (x : Ext) (S S' : List ASTNode) (m b r : Bool) (s : String) (ts : List Token)
    (h : RustGen.generate x S m b r = .ok s) (ht : tokenize s = .ok ts) : parse ts ≠ .ok S' := by
  obtain ⟨uses, M, R, -, -, -, ⟨k, hk, -⟩, -⟩ := C38_rust_sections x S m b r s h
  have e : rustHead = "// GENERATED, DO NOT EDIT\n\n#!" ++ String.singleton '[' ++ "allow(warnings)]\n#![allow(clippy)]\n#![allow(unknown_lints)]\n\n" := by
    decide +kernel
  rw [e] at hk
  simp only [String.append_assoc] at hk
  rw [← String.append_assoc] at hk
  obtain ⟨q, rfl⟩ := strips_prefix (by decide) hk
  rw [String.append_assoc] at ht
  exact rust_head_rejected _ ts S' ht

/-- A text that begins as a generated Dart file with imports is no schema. -/
theorem dart_head_rejected (r : String) (ts : List Token) (S : List ASTNode)
    (h1 : tokenize (dartHead ++ "import " ++ r) = .ok ts) : parse ts ≠ .ok S := by
  rw [tokenize_eq_view, latin1View_append] at h1
  have e : latin1View (dartHead ++ "import ") = dartHead ++ "import " := by decide +kernel
  have e' : (latin1View (dartHead ++ "import ") ++ latin1View r).toList
      = "//".toList ++ " GENERATED, DO NOT EDIT".toList ++ ['\n'] ++ ("//".toList ++ " ignore_for_file: unused_import".toList ++ ['\n'] ++
        ('\n' :: ("import".toList ++ ' ' :: (latin1View r).toList))) := by
    rw [e]
    simp [dartHead]
  rw [e', C07_line_comment _ _ _ (by decide) (by decide) (.inl rfl), C07_line_comment _ _ _ (by decide) (by decide) (.inl rfl),
    tokenizeChars_cons, newline_step, C03_word "import" _ (by decide)
      (by intro c r h; cases h; decide), ← consToks_eq_prepend] at h1
  obtain ⟨vs, h2, rfl⟩ := consToks_ok h1
  have : wordToken "import" = .id "import" := by decide
  simp [parse, parseLoop, parseDecl, PS.cur, this]

/-- **C98.** No generated Dart file with serialization or RPC code is accepted as a schema. -/
theorem C98_dart_rejected (x : Ext) (S S' : List ASTNode) (m b r : Bool) (s : String) (ts : List Token) (hb : b = true ∨ r = true ∧ hasMethods S = true)
    (h : DartGen.generate x S m b r = .ok s) (ht : tokenize s = .ok ts) : parse ts ≠ .ok S' := by
  obtain ⟨uses, M, B, R, -, -, -, -, ⟨k, hk, -⟩, -⟩ := C38_dart_sections x S m b r s h
  obtain ⟨rest, e⟩ : ∃ rest, dartImports (hasMethods S) b r = "import " ++ String.singleton '\'' ++ rest := by
    unfold dartImports
    split
    · exact ⟨_, show dartRpcImports = _ ++ String.ofList (dartRpcImports.toList.drop 8) by decide +kernel⟩
    · rename_i hn
      have hb : b = true := by
        rcases hb with hb | hb
        · exact hb
        · exact absurd (by simp [hb]) hn
      rw [if_pos hb]
      exact ⟨_, show dartBuffersImport = _ ++ String.ofList (dartBuffersImport.toList.drop 8) by decide +kernel⟩
  rw [e] at hk
  have hk' : (dartHead ++ "import ") ++ String.singleton '\'' ++ (rest ++ (uses ++ (on (hasConsts S) (DartGen.consts x S) ++ (on m M ++ (on b B ++ on r R)))))
      = s ++ String.ofList (List.replicate k '\n') := by
    rw [← hk]
    simp only [String.append_assoc]
  obtain ⟨q, rfl⟩ := strips_prefix (by decide) hk'
  rw [String.append_assoc] at ht
  exact dart_head_rejected _ ts S' ht

/-- **C98.** A schema that is overwritten by a successful generation of Rust code, or of Dart code with serialization code, is lost: no
later run on it succeeds, for either language. -/
theorem C98_overwritten (lib : Lib) (j i : Job) (w w1 w2 : World) (ho : j.output ≠ "-") (hl : j.lang = .rust ∨ j.skipBuffers = false)
    (hi : i.input = j.output) (h : Ends lib (.generate j) w .ok w1) : ¬ Ends lib (.generate i) w1 .ok w2 := by
  intro h2
  obtain ⟨text, data, -, ⟨ts, S, -, -, e2⟩, e3⟩ := (C47_success ..).1 h
  obtain ⟨text', data', f1, ⟨ts', S', f2, f3, -⟩, -⟩ := (C47_success ..).1 h2
  unfold OutputDone at e3
  rw [if_neg ho] at e3
  rw [hi, text_eq, e3.1] at f1
  have f1 : data = text' := by simpa [decode_utf8] using f1
  subst f1
  cases hj : j.lang with
  | rust =>
    rw [hj] at e2
    exact C98_rust_rejected _ S S' _ _ _ _ ts' e2 f2 f3
  | dart =>
    rw [hj] at e2
    refine C98_dart_rejected _ S S' _ _ _ _ ts' (.inl ?_) e2 f2 f3
    rcases hl with hl | hl
    · simp [hj] at hl
    · simp [hl]

/-! ## Concrete cases -/

/-- A configuration that asks for a Rust and a Dart file. -/
def twoFiles : Lib :=
  { ext := testExt
    yaml := fun t => if t = "conf" then some ⟨some [⟨"a.tpb", "a.dart", true, true, true⟩], some [⟨"a.tpb", "a.rs", false, false, false⟩]⟩ else none
    parent := fun p => if p = "dir/c.yaml" then some "dir" else none }

def secondJob : Job := ⟨"dir/a.tpb", "dir/a.dart", .dart, true, true, true⟩

theorem twoFiles_entries {text dir : String} {d : YamlData} (h1 : twoFiles.yaml text = some d)
    (h2 : twoFiles.parent "dir/c.yaml" = some dir) : entries dir d = [exJob, secondJob] := by
  have : dir = "dir" := by
    have : twoFiles.parent "dir/c.yaml" = some "dir" := by decide
    exact Option.some.inj (h2.symm.trans this)
  subst this
  by_cases e : text = "conf"
  · subst e
    obtain rfl := Option.some.inj h1
    decide +kernel
  · simp [twoFiles, e] at h1

theorem twoFiles_noFeedback : NoFeedback twoFiles "dir/c.yaml" exWorld := by
  intro text d dir _ h2 h3
  rw [twoFiles_entries h2 h3]
  decide

theorem twoFiles_succeeds : ∃ w, Ends twoFiles (.yaml "dir/c.yaml") exWorld .ok w := by
  obtain ⟨data, h⟩ := exAccepts
  have hd : ∃ data, Accepts testExt secondJob "struct A;" data := ⟨_, _, _, rfl, rfl, rfl⟩
  obtain ⟨data', h'⟩ := hd
  have ht : exWorld.text "dir/c.yaml" = some "conf" := by
    have : exWorld.files "dir/c.yaml" = some (utf8 "conf") := rfl
    simp [text_eq, this, decode_utf8]
  have h1 : Ends twoFiles (.generate exJob) exWorld .ok (exWorld.setFile "dir/a.rs" (utf8 data)) :=
    (C47_success ..).2 ⟨_, data, exText, h, (written_iff exJob data exWorld _).2 (.inl ⟨by decide, rfl⟩)⟩
  have ht2 : (exWorld.setFile "dir/a.rs" (utf8 data)).text "dir/a.tpb" = some "struct A;" := exText
  have h2 : Ends twoFiles (.generate secondJob) (exWorld.setFile "dir/a.rs" (utf8 data)) .ok
      ((exWorld.setFile "dir/a.rs" (utf8 data)).setFile "dir/a.dart" (utf8 data')) :=
    (C47_success ..).2 ⟨_, data', ht2, h', (written_iff secondJob data' _ _).2 (.inl ⟨by decide, rfl⟩)⟩
  refine ⟨(exWorld.setFile "dir/a.rs" (utf8 data)).setFile "dir/a.dart" (utf8 data'), (C48_batch ..).2 (.inl ⟨_, _, "dir", ht, rfl, by decide, ?_⟩)⟩
  rw [twoFiles_entries (text := "conf") (dir := "dir") rfl (by decide)]
  exact .cons _ _ _ _ _ _ h1 (.cons _ _ _ _ _ _ h2 (.nil _))

/-- `C98_run_again`: the program is killed when three bytes of the Rust file are written, and run again. -/
example : ∃ w1 w2 w3, Reaches twoFiles (.yaml "dir/c.yaml") exWorld w1 ∧ w1.files "dir/a.rs" = some [47, 47, 32] ∧
    w1.files "dir/a.dart" = none ∧ Ends twoFiles (.yaml "dir/c.yaml") w1 .ok w2 ∧ Ends twoFiles (.yaml "dir/c.yaml") exWorld .ok w3 ∧
    w2.files = w3.files := by
  obtain ⟨w3, h3⟩ := twoFiles_succeeds
  have hr : Reaches twoFiles (.yaml "dir/c.yaml") exWorld (run twoFiles (.yaml "dir/c.yaml") exWorld
      [.success 0, .success 100, .success 0, .success 0, .success 0, .success 100, .success 0, .success 0, .success 3]).world := ⟨_, rfl⟩
  have he : (run twoFiles (.yaml "dir/c.yaml") exWorld
      [.success 0, .success 100, .success 0, .success 0, .success 0, .success 100, .success 0, .success 0, .success 3]).world.files "dir/a.rs"
      = some [47, 47, 32] ∧ (run twoFiles (.yaml "dir/c.yaml") exWorld
      [.success 0, .success 100, .success 0, .success 0, .success 0, .success 100, .success 0, .success 0, .success 3]).world.files "dir/a.dart"
      = none := by decide +kernel
  obtain ⟨h1, h2⟩ := C98_run_again twoFiles "dir/c.yaml" exWorld _ twoFiles_noFeedback hr
  obtain ⟨w2, e2⟩ := h1.2 ⟨w3, h3⟩
  exact ⟨_, w2, w3, hr, he.1, he.2, e2, h3, h2 w2 w3 e2 h3⟩

/-- `C98_schema_lost` on the schema of the example. -/
example : ∃ w', Reaches exLib (.generate { exJob with output := "dir/a.tpb" }) exWorld w' ∧ w'.files "dir/a.tpb" = some [] := by
  obtain ⟨data, h⟩ := exAccepts
  exact C98_schema_lost exLib { exJob with output := "dir/a.tpb" } exWorld "struct A;" data (by decide) rfl exText h

/-- `C98_overwritten`: the Rust code is written over the schema; neither a Rust nor a Dart generation succeeds afterwards. -/
example : ∃ w1, Ends twoFiles (.generate { exJob with output := "dir/a.tpb" }) exWorld .ok w1 ∧
    (∀ w2, ¬ Ends twoFiles (.generate exJob) w1 .ok w2) ∧ ∀ w2, ¬ Ends twoFiles (.generate secondJob) w1 .ok w2 := by
  obtain ⟨data, h⟩ := exAccepts
  have h1 : Ends twoFiles (.generate { exJob with output := "dir/a.tpb" }) exWorld .ok (exWorld.setFile "dir/a.tpb" (utf8 data)) :=
    (C47_success ..).2 ⟨_, data, exText, h, (written_iff { exJob with output := "dir/a.tpb" } data exWorld _).2 (.inl ⟨by decide, rfl⟩)⟩
  exact ⟨_, h1, fun w2 => C98_overwritten _ _ exJob _ _ w2 (by decide) (.inl rfl) rfl h1,
    fun w2 => C98_overwritten _ _ secondJob _ _ w2 (by decide) (.inl rfl) rfl h1⟩

/-- `C98_overwritten` for Dart. -/
example : ∃ w1, Ends twoFiles (.generate { exJob with output := "dir/a.tpb", lang := .dart }) exWorld .ok w1 ∧
    ∀ w2, ¬ Ends twoFiles (.generate exJob) w1 .ok w2 := by
  have hd : ∃ data, Accepts testExt { exJob with output := "dir/a.tpb", lang := .dart } "struct A;" data := ⟨_, _, _, rfl, rfl, rfl⟩
  obtain ⟨data, h⟩ := hd
  have h1 : Ends twoFiles (.generate { exJob with output := "dir/a.tpb", lang := .dart }) exWorld .ok (exWorld.setFile "dir/a.tpb" (utf8 data)) :=
    (C47_success ..).2 ⟨_, data, exText, h, (written_iff { exJob with output := "dir/a.tpb", lang := .dart } data exWorld _).2 (.inl ⟨by decide, rfl⟩)⟩
  exact ⟨_, h1, fun w2 => C98_overwritten _ _ exJob _ _ w2 (by decide) (.inr rfl) rfl h1⟩

/-- The condition of `C98_dart_rejected` is needed: a Dart file may consist of comments only, and is then the empty schema. -/
example : ∃ data ts, DartGen.generate testExt [] false false false = .ok data ∧ tokenize data = .ok ts ∧ parse ts = .ok [] :=
  ⟨_, _, rfl, rfl, rfl⟩

/-- `C98_generate_again`: the program is killed after the output is emptied, and run again. -/
example : ∃ data w1 w2, Reaches twoFiles (.generate exJob) exWorld w1 ∧ w1.files "dir/a.rs" = some [] ∧
    Ends twoFiles (.generate exJob) w1 .ok w2 ∧ w2.files "dir/a.rs" = some (utf8 data) := by
  obtain ⟨data, h⟩ := exAccepts
  have h1 : Ends twoFiles (.generate exJob) exWorld .ok (exWorld.setFile "dir/a.rs" (utf8 data)) :=
    (C47_success ..).2 ⟨_, data, exText, h, (written_iff exJob data exWorld _).2 (.inl ⟨by decide, rfl⟩)⟩
  obtain ⟨w1, hr, he⟩ := C49_any_prefix twoFiles exJob exWorld _ data (by decide) exText h [] List.nil_prefix
  obtain ⟨h2, h3⟩ := C98_generate_again twoFiles exJob exWorld w1 (.inr (by decide)) hr
  obtain ⟨w2, e2⟩ := h2.2 ⟨_, h1⟩
  refine ⟨data, w1, w2, hr, he, e2, ?_⟩
  rw [h3 w2 _ e2 h1]
  simp [World.setFile]

/-- `C98_stale`: with an old Dart file in place, and without. -/
example : ∃ w' v', Ends twoFiles (.yaml "dir/c.yaml") exWorld .ok w' ∧
    Ends twoFiles (.yaml "dir/c.yaml") (exWorld.setFile "dir/a.dart" [1, 2, 3]) .ok v' ∧ w'.files = v'.files := by
  obtain ⟨w', h⟩ := twoFiles_succeeds
  have ht : exWorld.text "dir/c.yaml" = some "conf" := by
    have : exWorld.files "dir/c.yaml" = some (utf8 "conf") := rfl
    simp [text_eq, this, decode_utf8]
  have h2 : twoFiles.yaml "conf" = some ⟨some [⟨"a.tpb", "a.dart", true, true, true⟩], some [⟨"a.tpb", "a.rs", false, false, false⟩]⟩ := rfl
  have h3 : twoFiles.parent "dir/c.yaml" = some "dir" := by decide
  obtain ⟨g1, g2⟩ := C98_stale twoFiles "dir/c.yaml" "conf" "dir" _ exWorld (exWorld.setFile "dir/a.dart" [1, 2, 3]) twoFiles_noFeedback ht h2 h3 (by
    rw [twoFiles_entries h2 h3]
    intro q hq
    have : q ≠ "dir/a.dart" := hq secondJob (by simp) (by decide)
    simp [World.setFile, this])
  obtain ⟨v', e⟩ := g1.1 ⟨w', h⟩
  exact ⟨w', v', h, e, g2 w' v' h e⟩

end TPB.Props
