/-
C57: the numbers of fields have no effect at all.
-/
import Verif.Proofs.FieldNumbers
import Verif.Props.EndToEnd
namespace TPB.Props
open Spec

/-- **C57** is false for every schema: schemas that differ at most in the numbers of their fields get the same files in
every language, character by character, whatever sections are switched on. -/
theorem C57_numbers_ignored (S S' : List ASTNode) (h : SameButFieldNumbers S S') :
    (∀ x m b r, RustGen.generate x S m b r = RustGen.generate x S' m b r) ∧
    (∀ x m b r, DartGen.generate x S m b r = DartGen.generate x S' m b r) ∧
    (∀ x, KotlinGen.models x S = KotlinGen.models x S' ∧ KotlinGen.consts x S = KotlinGen.consts x S') ∧
    ∀ x, SwiftGen.models x S = SwiftGen.models x S' ∧ SwiftGen.consts x S = SwiftGen.consts x S' := by
  have h : S.map unnumbered = S'.map unnumbered := h
  refine ⟨fun x m b r => ?_, fun x m b r => ?_, fun x => ⟨?_, ?_⟩, fun x => ⟨?_, ?_⟩⟩
  · rw [← FieldNumbers.rust_generate, h, FieldNumbers.rust_generate]
  · rw [← FieldNumbers.dart_generate, h, FieldNumbers.dart_generate]
  · rw [← FieldNumbers.kotlin_models, h, FieldNumbers.kotlin_models]
  · rw [← FieldNumbers.kotlin_consts, h, FieldNumbers.kotlin_consts]
  · rw [← FieldNumbers.swift_models, h, FieldNumbers.swift_models]
  · rw [← FieldNumbers.swift_consts, h, FieldNumbers.swift_consts]

/-- Non-vacuity: two source texts that number the same fields in opposite orders. -/
example : ∃ S S', parseSource "struct P { #[1] a: u8, #[2] b: u8 } enum E { A(#[7] P) }" = .ok S ∧
    parseSource "struct P { #[2] a: u8, #[1] b: u8 } enum E { A(P) }" = .ok S' ∧
    S ≠ S' ∧ SameButFieldNumbers S S' := by
  refine ⟨[.struct ⟨"P", [⟨1, "a", .integer "u8" 1 false⟩, ⟨2, "b", .integer "u8" 1 false⟩], true, true⟩,
      .enum ⟨"E", [.tuple 0 "A" [⟨7, .other "P"⟩]]⟩],
    [.struct ⟨"P", [⟨2, "a", .integer "u8" 1 false⟩, ⟨1, "b", .integer "u8" 1 false⟩], true, true⟩,
      .enum ⟨"E", [.tuple 0 "A" [⟨0, .other "P"⟩]]⟩], by rfl, by rfl, ?_, rfl⟩
  simp

end TPB.Props
