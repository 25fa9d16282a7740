/-
Property theorems about what a configuration produces as a whole, whatever the order of its entries: C99.
-/
import Verif.Props.Rerun
import Verif.Spec.ConfigOrder
namespace TPB.Props
open Spec Main

theorem text_after {j : Job} {data p : String} {w w1 : World} (h : OutputDone j data w w1) (hp : j.output ≠ "-" → j.output ≠ p) :
    w1.text p = w.text p := by
  unfold World.text
  unfold OutputDone at h
  by_cases ho : j.output = "-"
  · rw [if_pos ho] at h
    rw [h.1]
  · rw [if_neg ho] at h
    rw [h.2.1 p (fun e => hp ho e.symm)]

theorem batch_succeeds {lib : Lib} {js : List Job} (hn : ∀ j ∈ js, j.output ≠ "-" → ∀ i ∈ js, j.output ≠ i.input) :
    ∀ w, (∃ w', Batch lib js w .ok w') ↔ ∀ j ∈ js, ∃ data, Result lib w j data := by
  induction js with
  | nil => exact fun w => ⟨fun _ j hj => absurd hj (by simp), fun _ => ⟨w, .nil w⟩⟩
  | cons j js ih =>
    intro w
    have ih := ih fun i hi ho k hk => hn i (by simp [hi]) ho k (by simp [hk])
    have same : ∀ {w1 data}, OutputDone j data w w1 → ∀ i ∈ js, w1.text i.input = w.text i.input :=
      fun h i hi => text_after h fun ho => hn j (by simp) ho i (by simp [hi])
    constructor
    · rintro ⟨w', hb⟩
      cases hb with
      | cons _ _ _ w1 _ _ h1 h2 =>
        obtain ⟨text, data, e1, e2, e3⟩ := (C47_success ..).1 h1
        intro i hi
        rcases List.mem_cons.1 hi with rfl | hi
        · exact ⟨data, text, e1, e2⟩
        · obtain ⟨data', text', f1, f2⟩ := (ih w1).1 ⟨w', h2⟩ i hi
          exact ⟨data', text', (same e3 i hi) ▸ f1, f2⟩
      | stop _ _ _ _ _ hne => exact absurd rfl hne
    · intro h
      obtain ⟨data, text, e1, e2⟩ := h j (by simp)
      obtain ⟨w1, e3⟩ : ∃ w1, OutputDone j data w w1 := by
        by_cases ho : j.output = "-"
        · exact ⟨_, (written_iff ..).2 (.inr ⟨ho, rfl⟩)⟩
        · exact ⟨_, (written_iff ..).2 (.inl ⟨ho, rfl⟩)⟩
      obtain ⟨w', hw⟩ := (ih w1).2 fun i hi => by
        obtain ⟨data', text', f1, f2⟩ := h i (by simp [hi])
        exact ⟨data', text', (same e3 i hi).trans f1, f2⟩
      exact ⟨w', .cons _ _ _ _ _ _ ((C47_success ..).2 ⟨text, data, e1, e2, e3⟩) hw⟩

theorem batch_files {lib : Lib} {before after : List Job} {j : Job}
    (hn : ∀ k ∈ before ++ j :: after, k.output ≠ "-" → ∀ i ∈ before ++ j :: after, k.output ≠ i.input) (ho : j.output ≠ "-")
    (hl : ∀ i ∈ after, i.output ≠ j.output) :
    ∀ w w', Batch lib (before ++ j :: after) w .ok w' → ∀ data, Result lib w j data → w'.files j.output = some (utf8 data) := by
  intro w w' hb data hr
  obtain ⟨w1, text, data', h1, h2, h3, h4⟩ := C48_written lib before after j w w' hb ho hl
  obtain ⟨text', g1, g2⟩ := hr
  have ht : w1.text j.input = w.text j.input := by
    unfold World.text
    by_cases hm : ∃ i ∈ before, i.output ≠ "-" ∧ i.output = j.input
    · obtain ⟨i, hi, h5, h6⟩ := hm
      exact absurd h6 (hn i (by simp [hi]) h5 j (by simp))
    · have hag := done_agree (O := outputs before) h1 (fun q hq => hq)
      rw [hag j.input (.inl fun hq => hm ?_)]
      obtain ⟨hq, h5⟩ := List.mem_filter.1 hq
      obtain ⟨i, hi, h6⟩ := List.mem_map.1 hq
      exact ⟨i, hi, by rw [h6]; simpa using h5, h6⟩
  rw [ht, g1] at h2
  obtain rfl := Option.some.inj h2
  rw [h4, accepts_unique g2 h3]

/-- **C99.** When nothing generated is read again, the program can succeed exactly when every entry of the configuration can be
generated from the files as they are.  Each output then holds the text generated for the last entry with that output; all other files
are as before. -/
theorem C99_exact (lib : Lib) (path text dir : String) (d : YamlData) (w : World) (h1 : w.text path = some text) (h2 : lib.yaml text = some d)
    (h3 : lib.parent path = some dir) (hn : NoFeedback lib path w) :
    ((∃ w', Ends lib (.yaml path) w .ok w') ↔ ∀ j ∈ entries dir d, ∃ data, Result lib w j data) ∧
      ∀ w', Ends lib (.yaml path) w .ok w' →
        (∀ before j after, entries dir d = before ++ j :: after → j.output ≠ "-" → (∀ i ∈ after, i.output ≠ j.output) →
          ∀ data, Result lib w j data → w'.files j.output = some (utf8 data)) ∧
        ∀ q, (∀ j ∈ entries dir d, j.output ≠ "-" → j.output ≠ q) → w'.files q = w.files q := by
  have hE : ∀ u', Ends lib (.yaml path) w .ok u' ↔ Batch lib (entries dir d) w .ok u' := by
    intro u'
    constructor
    · intro he
      rcases (C48_batch ..).1 he with ⟨text', d', dir', g1, g2, g3, g4⟩ | ⟨h, -⟩ | ⟨h, -⟩
      · obtain rfl : text = text' := Option.some.inj (h1.symm.trans g1)
        obtain rfl : d = d' := Option.some.inj (h2.symm.trans g2)
        obtain rfl : dir = dir' := Option.some.inj (h3.symm.trans g3)
        exact g4
      · cases h
      · cases h
    · exact fun hb => (C48_batch ..).2 (.inl ⟨text, d, dir, h1, h2, h3, hb⟩)
  have hf : ∀ j ∈ entries dir d, j.output ≠ "-" → ∀ i ∈ entries dir d, j.output ≠ i.input :=
    fun j hj ho => (hn text d dir h1 h2 h3 j hj ho).2
  simp only [hE]
  refine ⟨batch_succeeds hf w, fun w' hb => ⟨fun before j after e ho hl => ?_, fun q hq => ?_⟩⟩
  · rw [e] at hf hb
    exact batch_files hf ho hl w w' hb
  · refine (done_agree (O := outputs (entries dir d)) hb (fun q hq => hq) q (.inl fun hm => ?_)).symm
    obtain ⟨hm, h5⟩ := List.mem_filter.1 hm
    obtain ⟨i, hi, h6⟩ := List.mem_map.1 hm
    exact hq i hi (by rw [h6]; simpa using h5) h6

theorem distinct_last {js : List Job} (hd : DistinctOutputs js) {j : Job} (hj : j ∈ js) (ho : j.output ≠ "-") :
    ∃ before after, js = before ++ j :: after ∧ ∀ i ∈ after, i.output ≠ j.output := by
  obtain ⟨before, after, rfl⟩ := List.append_of_mem hj
  exact ⟨before, after, rfl, fun i hi e => (List.pairwise_cons.1 (List.pairwise_append.1 hd).2.1).1 i hi ho e.symm⟩

/-- **C99.** The order of the entries does not matter: two configurations of the same entries can succeed on the same files, and
leave the same files, if nothing generated is read again and no two entries have the same output. -/
theorem C99_order (lib : Lib) (path path' text text' dir dir' : String) (d d' : YamlData) (w : World) (h1 : w.text path = some text)
    (h2 : lib.yaml text = some d) (h3 : lib.parent path = some dir) (hn : NoFeedback lib path w) (h1' : w.text path' = some text')
    (h2' : lib.yaml text' = some d') (h3' : lib.parent path' = some dir') (hn' : NoFeedback lib path' w)
    (hs : ∀ j, j ∈ entries dir d ↔ j ∈ entries dir' d') (hd : DistinctOutputs (entries dir d)) (hd' : DistinctOutputs (entries dir' d')) :
    ((∃ u, Ends lib (.yaml path) w .ok u) ↔ ∃ v, Ends lib (.yaml path') w .ok v) ∧
      ∀ u v, Ends lib (.yaml path) w .ok u → Ends lib (.yaml path') w .ok v → u.files = v.files := by
  obtain ⟨a1, a2⟩ := C99_exact lib path text dir d w h1 h2 h3 hn
  obtain ⟨b1, b2⟩ := C99_exact lib path' text' dir' d' w h1' h2' h3' hn'
  refine ⟨by rw [a1, b1]; simp only [hs], fun u v hu hv => ?_⟩
  funext q
  by_cases hq : ∃ j ∈ entries dir d, j.output ≠ "-" ∧ j.output = q
  · obtain ⟨j, hj, ho, rfl⟩ := hq
    obtain ⟨data, hr⟩ := a1.1 ⟨u, hu⟩ j hj
    obtain ⟨_, _, e, hl⟩ := distinct_last hd hj ho
    obtain ⟨_, _, e', hl'⟩ := distinct_last hd' ((hs j).1 hj) ho
    rw [(a2 u hu).1 _ j _ e ho hl data hr, (b2 v hv).1 _ j _ e' ho hl' data hr]
  · have hq' : ∀ j ∈ entries dir d, j.output ≠ "-" → j.output ≠ q := fun j hj ho e => hq ⟨j, hj, ho, e⟩
    rw [(a2 u hu).2 q hq', (b2 v hv).2 q fun j hj => hq' j ((hs j).2 hj)]

/-! ## Concrete cases -/

/-- `C99_exact`, for a configuration with a Rust and a Dart file. -/
example : ∃ w' data data', Ends twoFiles (.yaml "dir/c.yaml") exWorld .ok w' ∧ w'.files "dir/a.rs" = some (utf8 data) ∧
    w'.files "dir/a.dart" = some (utf8 data') ∧ w'.files "dir/a.tpb" = some (utf8 "struct A;") := by
  obtain ⟨w', h⟩ := twoFiles_succeeds
  have ht : exWorld.text "dir/c.yaml" = some "conf" := by
    have : exWorld.files "dir/c.yaml" = some (utf8 "conf") := rfl
    simp [text_eq, this, decode_utf8]
  have h2 : twoFiles.yaml "conf" = some ⟨some [⟨"a.tpb", "a.dart", true, true, true⟩], some [⟨"a.tpb", "a.rs", false, false, false⟩]⟩ := rfl
  have h3 : twoFiles.parent "dir/c.yaml" = some "dir" := by decide
  obtain ⟨g1, g2⟩ := C99_exact twoFiles "dir/c.yaml" "conf" "dir" _ exWorld ht h2 h3 twoFiles_noFeedback
  rw [twoFiles_entries h2 h3] at g1 g2
  obtain ⟨data, r⟩ := g1.1 ⟨w', h⟩ exJob (by simp)
  obtain ⟨data', r'⟩ := g1.1 ⟨w', h⟩ secondJob (by simp)
  obtain ⟨f1, f2⟩ := g2 w' h
  exact ⟨w', data, data', h, f1 [] exJob [secondJob] rfl (by decide) (by decide) data r,
    f1 [exJob] secondJob [] rfl (by decide) (by decide) data' r', (f2 "dir/a.tpb" (by decide)).trans rfl⟩

/-- Two configurations of the same two entries, in both orders; the outputs are `o1` and `o2`. -/
def bothOrders (o1 o2 : String) : Lib :=
  { ext := testExt
    yaml := fun t =>
      if t = "conf" then some ⟨none, some [⟨"a.tpb", o1, false, false, false⟩, ⟨"a.tpb", o2, true, true, true⟩]⟩
      else some ⟨none, some [⟨"a.tpb", o2, true, true, true⟩, ⟨"a.tpb", o1, false, false, false⟩]⟩
    parent := fun _ => some "dir" }

def bothWorld : World := exWorld.setFile "dir/d.yaml" (utf8 "fnoc")

theorem both_entries (o1 o2 path text dir : String) (d : YamlData) (h1 : (bothOrders o1 o2).yaml text = some d)
    (h2 : (bothOrders o1 o2).parent path = some dir) :
    entries dir d = (if text = "conf" then [⟨"dir/a.tpb", located "dir" o1, .rust, false, false, false⟩, ⟨"dir/a.tpb", located "dir" o2, .rust, true, true, true⟩]
      else [⟨"dir/a.tpb", located "dir" o2, .rust, true, true, true⟩, ⟨"dir/a.tpb", located "dir" o1, .rust, false, false, false⟩]) := by
  obtain rfl := Option.some.inj h2
  have ha : located "dir" "a.tpb" = "dir/a.tpb" := by decide +kernel
  by_cases e : text = "conf"
  · simp only [bothOrders, e, if_true] at h1
    obtain rfl := Option.some.inj h1
    simp [entries, e, ha]
  · simp only [bothOrders, e, if_false] at h1
    obtain rfl := Option.some.inj h1
    simp [entries, e, ha]

theorem both_text : bothWorld.text "dir/c.yaml" = some "conf" ∧ bothWorld.text "dir/d.yaml" = some "fnoc" ∧
    bothWorld.text "dir/a.tpb" = some "struct A;" := by
  have e1 : bothWorld.files "dir/c.yaml" = some (utf8 "conf") := rfl
  have e2 : bothWorld.files "dir/d.yaml" = some (utf8 "fnoc") := rfl
  have e3 : bothWorld.files "dir/a.tpb" = some (utf8 "struct A;") := rfl
  simp [text_eq, e1, e2, e3, decode_utf8]

theorem both_result (o1 o2 o : String) : (∃ data, Result (bothOrders o1 o2) bothWorld ⟨"dir/a.tpb", o, .rust, false, false, false⟩ data) ∧
    ∃ data, Result (bothOrders o1 o2) bothWorld ⟨"dir/a.tpb", o, .rust, true, true, true⟩ data :=
  ⟨⟨_, _, both_text.2.2, _, _, rfl, rfl, rfl⟩, ⟨_, _, both_text.2.2, _, _, rfl, rfl, rfl⟩⟩

/-- `C99_order`: with outputs `a.rs` and `b.rs`, both orders succeed and leave the same files. -/
example : ∃ u v, Ends (bothOrders "a.rs" "b.rs") (.yaml "dir/c.yaml") bothWorld .ok u ∧
    Ends (bothOrders "a.rs" "b.rs") (.yaml "dir/d.yaml") bothWorld .ok v ∧ u.files = v.files := by
  have l1 : located "dir" "a.rs" = "dir/a.rs" := by decide +kernel
  have l2 : located "dir" "b.rs" = "dir/b.rs" := by decide +kernel
  have hE := both_entries "a.rs" "b.rs"
  rw [l1, l2] at hE
  have nf : ∀ p ∈ ["dir/c.yaml", "dir/d.yaml"], NoFeedback (bothOrders "a.rs" "b.rs") p bothWorld := by
    intro p hp text d dir _ h2 h3
    rw [hE p text dir d h2 h3]
    have : p = "dir/c.yaml" ∨ p = "dir/d.yaml" := by simpa using hp
    rcases this with rfl | rfl <;> split <;> decide
  have e1 := hE "dir/c.yaml" "conf" "dir" _ rfl rfl
  have e2 := hE "dir/d.yaml" "fnoc" "dir" _ rfl rfl
  rw [if_pos rfl] at e1
  rw [if_neg (by decide)] at e2
  have r := both_result "a.rs" "b.rs"
  obtain ⟨a1, -⟩ := C99_exact (bothOrders "a.rs" "b.rs") "dir/c.yaml" "conf" "dir" _ bothWorld both_text.1 rfl rfl (nf _ (by simp))
  rw [e1] at a1
  obtain ⟨u, hu⟩ := a1.2 (List.forall_mem_cons.2 ⟨(r _).1, List.forall_mem_cons.2 ⟨(r _).2, fun _ h => absurd h (by simp)⟩⟩)
  obtain ⟨b1, b2⟩ := C99_order (bothOrders "a.rs" "b.rs") "dir/c.yaml" "dir/d.yaml" "conf" "fnoc" "dir" "dir" _ _ bothWorld both_text.1 rfl rfl
    (nf _ (by simp)) both_text.2.1 rfl rfl (nf _ (by simp)) (by rw [e1, e2]; intro j; simp [or_comm]) (by rw [e1]; decide) (by rw [e2]; decide)
  obtain ⟨v, hv⟩ := b1.1 ⟨u, hu⟩
  exact ⟨u, v, hu, hv, b2 u v hu hv⟩

/-- **C99, why the outputs must be distinct.** If two entries have the same output, the order decides what the file holds. -/
theorem C99_same_output : ∃ lib path path' w u v, NoFeedback lib path w ∧ NoFeedback lib path' w ∧
    (∀ text text' d d' dir dir', w.text path = some text → w.text path' = some text' → lib.yaml text = some d → lib.yaml text' = some d' →
      lib.parent path = some dir → lib.parent path' = some dir' → ∀ j, j ∈ entries dir d ↔ j ∈ entries dir' d') ∧
    Ends lib (.yaml path) w .ok u ∧ Ends lib (.yaml path') w .ok v ∧ u.files ≠ v.files := by
  have l1 : located "dir" "a.rs" = "dir/a.rs" := by decide +kernel
  have hE := both_entries "a.rs" "a.rs"
  rw [l1] at hE
  have nf : ∀ p ∈ ["dir/c.yaml", "dir/d.yaml"], NoFeedback (bothOrders "a.rs" "a.rs") p bothWorld := by
    intro p hp text d dir _ h2 h3
    rw [hE p text dir d h2 h3]
    have : p = "dir/c.yaml" ∨ p = "dir/d.yaml" := by simpa using hp
    rcases this with rfl | rfl <;> split <;> decide
  have e1 := hE "dir/c.yaml" "conf" "dir" _ rfl rfl
  have e2 := hE "dir/d.yaml" "fnoc" "dir" _ rfl rfl
  rw [if_pos rfl] at e1
  rw [if_neg (by decide)] at e2
  obtain ⟨⟨data, r1⟩, ⟨data', r2⟩⟩ := both_result "a.rs" "a.rs" "dir/a.rs"
  obtain ⟨a1, a2⟩ := C99_exact (bothOrders "a.rs" "a.rs") "dir/c.yaml" "conf" "dir" _ bothWorld both_text.1 rfl rfl (nf _ (by simp))
  obtain ⟨b1, b2⟩ := C99_exact (bothOrders "a.rs" "a.rs") "dir/d.yaml" "fnoc" "dir" _ bothWorld both_text.2.1 rfl rfl (nf _ (by simp))
  rw [e1] at a1 a2
  rw [e2] at b1 b2
  obtain ⟨u, hu⟩ := a1.2 (List.forall_mem_cons.2 ⟨⟨data, r1⟩, List.forall_mem_cons.2 ⟨⟨data', r2⟩, fun _ h => absurd h (by simp)⟩⟩)
  obtain ⟨v, hv⟩ := b1.2 (List.forall_mem_cons.2 ⟨⟨data', r2⟩, List.forall_mem_cons.2 ⟨⟨data, r1⟩, fun _ h => absurd h (by simp)⟩⟩)
  have fu := (a2 u hu).1 [_] _ [] rfl (by decide) (by simp) data' r2
  have fv := (b2 v hv).1 [_] _ [] rfl (by decide) (by simp) data r1
  refine ⟨_, _, _, bothWorld, u, v, nf "dir/c.yaml" (by simp), nf "dir/d.yaml" (by simp), ?_, hu, hv, ?_⟩
  · intro text text' d d' dir dir' h1 h1' h2 h2' h3 h3' j
    obtain rfl : "conf" = text := Option.some.inj (both_text.1.symm.trans h1)
    obtain rfl : "fnoc" = text' := Option.some.inj (both_text.2.1.symm.trans h1')
    rw [hE _ _ _ _ h2 h3, hE _ _ _ _ h2' h3', if_pos rfl, if_neg (by decide)]
    simp [or_comm]
  · intro e
    have e : some (utf8 data') = some (utf8 data) := fu.symm.trans ((congrFun e _).trans fv)
    have e : data' = data := by
      have := congrArg (fun o => o.bind decode) e
      simpa [decode_utf8] using this
    subst e
    obtain ⟨t1, g1, r1⟩ := r1
    obtain ⟨t2, g2, r2⟩ := r2
    obtain rfl : "struct A;" = t1 := Option.some.inj (both_text.2.2.symm.trans g1)
    obtain rfl : "struct A;" = t2 := Option.some.inj (both_text.2.2.symm.trans g2)
    have d1 := (digest_ok_iff ..).2 r1
    have d2 := (digest_ok_iff ..).2 r2
    have hne : (match digest testExt ⟨"dir/a.tpb", "dir/a.rs", .rust, false, false, false⟩ "struct A;",
        digest testExt ⟨"dir/a.tpb", "dir/a.rs", .rust, true, true, true⟩ "struct A;" with
        | .ok a, .ok b => decide (a = b) | _, _ => false) = false := by decide +kernel
    have d1' : digest testExt ⟨"dir/a.tpb", "dir/a.rs", .rust, false, false, false⟩ "struct A;" = .ok data' := d1
    have d2' : digest testExt ⟨"dir/a.tpb", "dir/a.rs", .rust, true, true, true⟩ "struct A;" = .ok data' := d2
    rw [d1', d2'] at hne
    simp at hne

end TPB.Props
