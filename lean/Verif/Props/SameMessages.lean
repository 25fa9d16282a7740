/-
C71: the emitted Rust code and the emitted Dart code accept the same byte strings.
-/
import Verif.Props.Untrusted
import Verif.Props.UntrustedDart
namespace TPB.Props
open Spec

/-! ## C71: no bytes are a message for one side only -/

theorem rust_reads_enc {rr : Rust.Runtime} (hCr : rr.Canonical) {S : List ASTNode} (hA : Accepted S) (hW : WellNamed S) {t : TypeId}
    (ht : WFType t) {bs r : Bytes} {v : Val} (h : Rust.Reads rr (Rust.genProg S) t bs v r) :
    ∃ b, Enc rr.wire S [t] [v] b ∧ bs = b ++ r := by
  obtain ⟨k, hk⟩ := h
  exact (Rust.canonical_ind hCr).read hW (Rust.typesOk_of_wf hA.wf) k t ht bs v r (hk k (Nat.le_refl _))

theorem dart_reads_enc {x : Ext} {rt : Dart.Runtime} (hrt : rt.Lawful) (hC : rt.Canonical) {S : List ASTNode} (hA : Accepted S)
    (hN : DartNamed x S) (hH : HasDefaults S) {t : TypeId} (ht : WFType t) (hf : LibraryFree S t) {bs r : Bytes} {d : Val}
    (h : Dart.Reads rt (Dart.genProg x S) t bs d r) :
    ∃ u b, Enc rt.wire (dartSchema S) [dartView t] [u] b ∧ bs = b ++ r ∧ Represents x S t u d := by
  have hS := Dart.plain_of_accepted hA
  obtain ⟨k, hk⟩ := h
  obtain ⟨u, ⟨b, h1, h2⟩, h3⟩ := (((Dart.canonical_ind (S := S) hC).both hS hN (Dart.new_enum hrt hS hN hH) k t
    (Dart.sized_of_wf ht) hf).1 bs d r (hk k (Nat.le_refl _))).one
  exact ⟨u, b, h1, h2, h3⟩

theorem rust_read_dart {x : Ext} {rr : Rust.Runtime} (hrr : rr.Lawful) (hCr : rr.Canonical) {rt : Dart.Runtime} (hrt : rt.Lawful)
    (hG : Agree rr.wire rt.wire) {S : List ASTNode} (hA : Accepted S) (hW : WellNamed S) (hN : DartNamed x S)
    (hH : HasDefaults S) (hD : DistinctNumbers S) (hP : PortableSchema S) {t : TypeId} (ht : WFType t) (hp : Portable S t)
    (hf : LibraryFree S t) {bs r : Bytes} {v : Val} (h : Rust.Reads rr (Rust.genProg S) t bs v r) :
    ∃ u d, Sees S [t] [v] [u] ∧ Represents x S t u d ∧ Dart.Reads rt (Dart.genProg x S) t bs d r := by
  obtain ⟨b, he, rfl⟩ := rust_reads_enc hCr hA hW ht h
  obtain ⟨us, h1, h2, -⟩ := Dart.enc_to_dart hG hrr.wire hP he (by simpa using hp)
  obtain ⟨u, rfl⟩ : ∃ u, us = [u] := by
    have := (Rust.Enc.length_eq h2)
    match us, this with
    | [u], _ => exact ⟨u, rfl⟩
  obtain ⟨d, h3, h4⟩ := (Dart.enc_read_one hrt (Dart.plain_of_accepted hA) hN hH hD hf h2).1
  exact ⟨u, d, h1, h3, h4 r⟩

theorem dart_read_rust {x : Ext} {rr : Rust.Runtime} (hrr : rr.Lawful) {rt : Dart.Runtime} (hrt : rt.Lawful) (hC : rt.Canonical)
    (hG : Agree rr.wire rt.wire) {S : List ASTNode} (hA : Accepted S) (hW : WellNamed S) (hN : DartNamed x S)
    (hH : HasDefaults S) (hD : DistinctNumbers S) (hP : PortableSchema S) {t : TypeId} (ht : WFType t) (hp : Portable S t)
    (hf : LibraryFree S t) {bs r : Bytes} {d : Val} (h : Dart.Reads rt (Dart.genProg x S) t bs d r) :
    ∃ v u, HasTy rr.wire S t v ∧ Sees S [t] [v] [u] ∧ Represents x S t u d ∧ Rust.Reads rr (Rust.genProg S) t bs v r := by
  obtain ⟨u, b, he, rfl, hr⟩ := dart_reads_enc hrt hC hA hN hH ht hf h
  obtain ⟨vs, h1, h2⟩ := Dart.enc_of_dart hG hrr.wire hP he [t] rfl (by simpa using hp)
  obtain ⟨v, rfl⟩ : ∃ v, vs = [v] := by
    have := (Rust.Enc.length_eq h2)
    match vs, this with
    | [u], _ => exact ⟨u, rfl⟩
  exact ⟨v, u, Dart.enc_hasTys hG hrr.wire hP h2 (by simpa using hp), h1, hr, enc_reads hrr hA hW hD ht h2 r⟩

/-- **C71** (partial) Take libraries that use the same formats and accept only what they write.  Whatever the bytes are:
if the emitted Rust code reads a value from them, then the emitted Dart code reads from them an object that stands for
the value as Dart sees it, and stops at the same place; and the other way round.
Missing: the types for which the two sides have different formats (as in C29). -/
theorem C71_same_messages_partial (x : Ext) (rr : Rust.Runtime) (hrr : rr.Lawful) (hCr : rr.Canonical) (rt : Dart.Runtime)
    (hrt : rt.Lawful) (hC : rt.Canonical) (hG : Agree rr.wire rt.wire) (S : List ASTNode) (hA : Accepted S) (hW : WellNamed S)
    (hN : DartNamed x S) (hH : HasDefaults S) (hD : DistinctNumbers S) (hP : PortableSchema S) :
    ∃ R P, Rust.Emits S R ∧ Dart.Emits x S P ∧
      ∀ (t : TypeId), WFType t → Portable S t → LibraryFree S t → ∀ (bs r : Bytes),
        (∀ v, Rust.Reads rr R t bs v r → ∃ u d, Sees S [t] [v] [u] ∧ Represents x S t u d ∧ Dart.Reads rt P t bs d r) ∧
        (∀ d, Dart.Reads rt P t bs d r → ∃ v u, HasTy rr.wire S t v ∧ Sees S [t] [v] [u] ∧ Represents x S t u d ∧
          Rust.Reads rr R t bs v r) :=
  ⟨_, _, emits_genProg S hA, Dart.emits_genProg hA, fun _ ht hp hf _ _ =>
    ⟨fun _ h => rust_read_dart hrr hCr hrt hG hA hW hN hH hD hP ht hp hf h,
      fun _ h => dart_read_rust hrr hrt hC hG hA hW hN hH hD hP ht hp hf h⟩⟩

/-- C71 (partial): the Rust code panics on the bytes exactly if the Dart code throws. -/
theorem C71_same_errors_partial (x : Ext) (rr : Rust.Runtime) (hrr : rr.Lawful) (hCr : rr.Canonical) (hYr : rr.Typed)
    (hcr : rr.Consumes) (rt : Dart.Runtime) (hrt : rt.Lawful) (hC : rt.Canonical) (hc : rt.Consumes) (hG : Agree rr.wire rt.wire)
    (S : List ASTNode) (hA : Accepted S) (hW : WellNamed S) (hS : Rust.SafeToRead rr.wire S)
    (hN : DartNamed x S) (hH : HasDefaults S) (hD : DistinctNumbers S) (hP : PortableSchema S) :
    ∃ R P, Rust.Emits S R ∧ Dart.Emits x S P ∧
      ∀ (t : TypeId), WFType t → Portable S t → Rust.ContainersOk rr.wire t → LibraryFree S t → ∀ (bs : Bytes),
        (Rust.ReadPanics rr R t bs ↔ Dart.ReadThrows rt P t bs) := by
  refine ⟨_, _, emits_genProg S hA, Dart.emits_genProg hA, fun t ht hp hct hf bs => ?_⟩
  have hR : (∃ v r, Rust.Reads rr (Rust.genProg S) t bs v r) ∨ Rust.ReadPanics rr (Rust.genProg S) t bs := by
    obtain ⟨rank, hrank⟩ := hS.finite
    obtain ⟨R, hRb⟩ := Rust.rank_bound S rank
    have h := Rust.read_ended hYr hcr hW (Rust.typesOk_of_wf hA.wf) hS hrank hRb _ t ht hct bs (Nat.le_refl _)
    generalize hk : bs.length * (R + 3) + Rust.depthOf S rank t + 2 = k at h
    cases hr : Rust.readTy rr (Rust.genProg S) k (Rust.genTy t) bs with
    | ok q => exact .inl ⟨q.1, q.2, Rust.reads_of_eq hr⟩
    | error e =>
      rw [hr] at h
      cases e <;> first | exact h.elim | exact .inr (Rust.panics_of_eq hr)
  have hT : (∃ d r, Dart.Reads rt (Dart.genProg x S) t bs d r) ∨ Dart.ReadThrows rt (Dart.genProg x S) t bs := by
    have hS := Dart.plain_of_accepted hA
    obtain ⟨height, hh⟩ := hH.finite
    obtain ⟨H, hHb⟩ := Dart.height_bound (typeNames S) height
    obtain ⟨N, hnew⟩ := Dart.new_bound (x := x) hrt hS hN hH
    have h := (Dart.both_ended hrt hC.typed hc hS hN hH hh hHb hnew _ t (Dart.sized_of_wf ht) hf bs (Nat.le_refl _)).1
    generalize hk : N + bs.length * (2 * H + 5) + Dart.depthOf S height t + 2 = k at h
    cases hr : Dart.readT rt (Dart.genProg x S) k t bs with
    | ok q => exact .inl ⟨q.1, q.2, Dart.reads_of_eq hr⟩
    | error e =>
      rw [hr] at h
      cases e <;> first | exact h.elim | exact .inr (Dart.throws_of_eq hr)
  constructor
  · rintro ⟨N, hN1⟩
    refine hT.resolve_left ?_
    rintro ⟨d, r, h⟩
    obtain ⟨v, u, -, -, -, N', h'⟩ := dart_read_rust hrr hrt hC hG hA hW hN hH hD hP ht hp hf h
    have h1 := hN1 (max N N') (by omega)
    rw [h' (max N N') (by omega)] at h1
    simp at h1
  · rintro ⟨N, hN1⟩
    refine hR.resolve_left ?_
    rintro ⟨v, r, h⟩
    obtain ⟨u, d, -, -, N', h'⟩ := rust_read_dart hrr hCr hrt hG hA hW hN hH hD hP ht hp hf h
    have h1 := hN1 (max N N') (by omega)
    rw [h' (max N N') (by omega)] at h1
    simp at h1

/-- The condition on the types is needed: with the little-endian libraries there are bytes that the emitted Rust code
reads as a `Vec<u8>` and on which the emitted Dart code throws. -/
theorem C71_integer_lists_differ : Agree LE.rust.strict.wire LE.dart.strict.wire ∧ Accepted listSchema ∧
    ∃ R P, Rust.Emits listSchema R ∧ Dart.Emits testExt listSchema P ∧
      Rust.Reads LE.rust.strict R (.generic "Vec" [.integer "u8" 1 false]) [1, 0, 0, 0, 0, 0, 0, 0, 5] (.list 1 [.int 5]) [] ∧
      Dart.ReadThrows LE.dart.strict P (.generic "Vec" [.integer "u8" 1 false]) [1, 0, 0, 0, 0, 0, 0, 0, 5] :=
  ⟨LE.agree, listSchema_accepted, _, _, emits_genProg _ listSchema_accepted, Dart.emits_genProg listSchema_accepted,
    Rust.reads_of_eq (k := 3) rfl, Dart.throws_of_eq (k := 6) rfl⟩

/-! ### Non-vacuity of C71 -/

theorem dartExample_safe : Rust.SafeToRead LE.rust.strict.wire dartExample where
  finite := ⟨fun _ => 0, by
    intro n hn m hm h
    simp only [dartExample, List.mem_cons, ASTNode.struct.injEq, reduceCtorEq, List.not_mem_nil, or_false, false_or] at hn hm
    rcases hn with rfl | rfl <;> rcases hm with rfl | rfl <;> simp [fieldsOf] at h⟩
  fields n hn t ht := by
    obtain ⟨f, hf, rfl⟩ := List.mem_map.1 ht
    exact le_containersOk ((Rust.typesOk_of_wf dartExample_wf).1 n hn f hf)
  payloads n hn i hi t ht := by
    obtain ⟨f, hf, rfl⟩ := List.mem_map.1 ht
    exact le_containersOk ((Rust.typesOk_of_wf dartExample_wf).2 n hn i hi f hf)

/-- All hypotheses of C71 hold of the example schema and the little-endian libraries. -/
example : ∃ R P, Rust.Emits dartExample R ∧ Dart.Emits testExt dartExample P ∧
    ∀ bs, Rust.ReadPanics LE.rust.strict R (.other "Shape") bs ↔ Dart.ReadThrows LE.dart.strict P (.other "Shape") bs := by
  obtain ⟨R, P, h1, h2, h3⟩ := C71_same_errors_partial testExt LE.rust.strict (Rust.strict_lawful LE.rust_lawful)
    (Rust.strict_canonical _) Rust.le_strict_typed Rust.le_strict_consumes LE.dart.strict (Dart.strict_lawful LE.dart_lawful)
    (Dart.strict_canonical LE.dart_lawful) Dart.le_strict_consumes LE.agree
    dartExample dartExample_accepted dartExample_wellNamed dartExample_safe dartExample_named dartExample_defaults
    dartExample_distinct dartExample_portable
  exact ⟨R, P, h1, h2, h3 (.other "Shape") (.name "Shape") (.other "Shape" (.inl (by decide))) (le_containersOk (.name "Shape"))
    dartExample_free⟩

/-- A variant with a byte behind it is read by both sides, and an unknown variant by none. -/
example : ∃ R P, Rust.Emits dartExample R ∧ Dart.Emits testExt dartExample P ∧
    Rust.Reads LE.rust.strict R (.other "Shape") [3, 0, 0, 0, 5] (.enum "Shape" "None" []) [5] ∧
    (∃ u d, Sees dartExample [.other "Shape"] [.enum "Shape" "None" []] [u] ∧ Represents testExt dartExample (.other "Shape") u d ∧
      Dart.Reads LE.dart.strict P (.other "Shape") [3, 0, 0, 0, 5] d [5]) ∧
    Rust.ReadPanics LE.rust.strict R (.other "Shape") [2, 0, 0, 0] ∧
    Dart.ReadThrows LE.dart.strict P (.other "Shape") [2, 0, 0, 0] := by
  have hr : Rust.Reads LE.rust.strict (Rust.genProg dartExample) (.other "Shape") [3, 0, 0, 0, 5] (.enum "Shape" "None" []) [5] :=
    Rust.reads_of_eq (k := 3) rfl
  exact ⟨_, _, emits_genProg _ dartExample_accepted, Dart.emits_genProg dartExample_accepted, hr,
    rust_read_dart (Rust.strict_lawful LE.rust_lawful) (Rust.strict_canonical _) (Dart.strict_lawful LE.dart_lawful) LE.agree
      dartExample_accepted dartExample_wellNamed dartExample_named dartExample_defaults dartExample_distinct dartExample_portable
      (.name "Shape") (.other "Shape" (.inl (by decide))) dartExample_free hr,
    Rust.panics_of_eq (k := 3) rfl, Dart.throws_of_eq (k := 6) rfl⟩

end TPB.Props
