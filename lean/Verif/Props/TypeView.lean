/- C80: the generated Rust types and codecs are the same for two schemas exactly if they declare the same types. -/
import Verif.Proofs.TypeView
import Verif.Props.RustReader
namespace TPB.Props
open Spec Rust RustReader

/-- **C80.** Schemas that declare the same types get the same Rust types and codecs: methods, constants, directives
and the numbers of fields have no effect on them. -/
theorem C80_same_types (S S' : List ASTNode) (hA : Accepted S) (hA' : Accepted S') (h : typeViews S = typeViews S') :
    RustGen.models S = RustGen.models S' ∧ RustGen.buffers S = RustGen.buffers S' := by
  rw [(emitted_models S hA).1, (emitted_models S' hA').1, emitted_buffers, emitted_buffers]
  have e1 : genItems S = genItems S' := by
    rw [genItems_view (accepted_enums hA), genItems_view (accepted_enums hA'), h]
  have e2 : (genProg S).impls = (genProg S').impls := by
    show genImpls S = genImpls S'
    rw [genImpls_view, genImpls_view, h]
  rw [e1, e2]
  exact ⟨rfl, rfl⟩

/-- **C80 (partial).** Two schemas with the same Rust types and codecs declare the same types: the same structs
and enums in the same order, with the same names, types and variant numbers. Missing: schemas with a keyword of
Rust as a name. -/
theorem C80_same_text_partial (S S' : List ASTNode) (hA : Accepted S) (hA' : Accepted S') (hR : RustNamed S)
    (hR' : RustNamed S') (h1 : RustGen.models S = RustGen.models S') (h2 : RustGen.buffers S = RustGen.buffers S') :
    typeViews S = typeViews S' := by
  have h : RustSays S' (genItems S) (genImpls S) := by
    obtain ⟨m, hm, h3, h4⟩ := (rustSays_iff hA hR _ _).2 ⟨rfl, rfl⟩
    exact ⟨m, h1 ▸ hm, h3, h2 ▸ h4⟩
  obtain ⟨e1, e2⟩ := (rustSays_iff hA' hR' _ _).1 h
  rw [genItems_view (accepted_enums hA), genItems_view (accepted_enums hA')] at e1
  rw [genImpls_view, genImpls_view] at e2
  exact views_of_trees (views_wf hA.wf) (views_wf hA'.wf) e1 e2

/-- C80 for source texts. -/
theorem C80_source_partial (src src' : String) (S S' : List ASTNode) (h : parseSource src = .ok S)
    (h' : parseSource src' = .ok S') (hk : ∀ d ∈ S ++ S', ∀ w ∈ declWords d, w ∉ rustKeywords) :
    (RustGen.models S = RustGen.models S' ∧ RustGen.buffers S = RustGen.buffers S') ↔ typeViews S = typeViews S' :=
  ⟨fun e => C80_same_text_partial S S' (sourceAccepted h) (sourceAccepted h')
      (rustNamed_of_source h (fun d hd => hk d (by simp [hd]))) (rustNamed_of_source h' (fun d hd => hk d (by simp [hd])))
      e.1 e.2,
    C80_same_types S S' (sourceAccepted h) (sourceAccepted h')⟩

/-- Non-vacuity of C80: the number of a field, a method and a constant do not matter, the number of a variant does. -/
example : ∃ S S' S'', parseSource "struct A { #[7] x: u32 } enum E { P, Q(A) } fn m(); const K { }" = .ok S ∧
    parseSource "struct A { x: u32 } enum E { #[0] P, #[1] Q(A) }" = .ok S' ∧
    parseSource "struct A { x: u32 } enum E { #[0] P, #[2] Q(A) }" = .ok S'' ∧
    RustGen.buffers S = RustGen.buffers S' ∧
    ¬ (RustGen.models S' = RustGen.models S'' ∧ RustGen.buffers S' = RustGen.buffers S'') := by
  refine ⟨_, _, _, rfl, rfl, rfl, ?_, ?_⟩
  · exact (C80_same_types _ _ (sourceAccepted (src := "struct A { #[7] x: u32 } enum E { P, Q(A) } fn m(); const K { }") rfl)
      (sourceAccepted (src := "struct A { x: u32 } enum E { #[0] P, #[1] Q(A) }") rfl) rfl).2
  · rw [C80_source_partial "struct A { x: u32 } enum E { #[0] P, #[1] Q(A) }" "struct A { x: u32 } enum E { #[0] P, #[2] Q(A) }"
      _ _ rfl rfl (by decide)]
    simp [typeViews, typeView, variantView]
    decide

end TPB.Props
