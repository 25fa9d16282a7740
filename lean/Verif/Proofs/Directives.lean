/- The search for a directive finds the first one. -/
import Verif.Spec.Directives
namespace TPB
open Spec

theorem findDirectiveValue_first (name : String) (v : ConstValue) : ∀ (before after : List ASTNode),
    (∀ v, .directive (.value name v) ∉ before) →
    findDirectiveValue (before ++ .directive (.value name v) :: after) name = some v
  | [], _, _ => by simp [findDirectiveValue]
  | .directive (.value n w) :: before, after, h => by
    have hne : name ≠ n := by
      rintro rfl
      exact h w (by simp)
    simp only [List.cons_append, findDirectiveValue, hne, if_false]
    exact findDirectiveValue_first name v before after (fun v hv => h v (by simp [hv]))
  | .directive (.group _ _) :: before, after, h
  | .struct _ :: before, after, h
  | .enum _ :: before, after, h
  | .const _ :: before, after, h
  | .fn _ :: before, after, h => by
    simp only [List.cons_append, findDirectiveValue]
    exact findDirectiveValue_first name v before after (fun v hv => h v (by simp [hv]))

theorem findDirectiveValue_split (name : String) (v : ConstValue) : ∀ (S : List ASTNode),
    findDirectiveValue S name = some v →
    ∃ before after, S = before ++ .directive (.value name v) :: after ∧ ∀ v, .directive (.value name v) ∉ before
  | [], h => by simp [findDirectiveValue] at h
  | .directive (.value n w) :: S, h => by
    simp only [findDirectiveValue] at h
    split at h
    · next e =>
      subst e
      cases h
      exact ⟨[], S, rfl, by simp⟩
    · next e =>
      obtain ⟨before, after, rfl, hb⟩ := findDirectiveValue_split name v S h
      refine ⟨_ :: before, after, rfl, fun v hv => ?_⟩
      rcases List.mem_cons.1 hv with hv | hv
      · simp only [ASTNode.directive.injEq, Directive.value.injEq] at hv
        exact e hv.1
      · exact hb v hv
  | .directive (.group _ _) :: S, h
  | .struct _ :: S, h
  | .enum _ :: S, h
  | .const _ :: S, h
  | .fn _ :: S, h => by
    obtain ⟨before, after, rfl, hb⟩ := findDirectiveValue_split name v S (by simpa only [findDirectiveValue] using h)
    exact ⟨_ :: before, after, rfl, fun v hv => by
      rcases List.mem_cons.1 hv with hv | hv
      · simp at hv
      · exact hb v hv⟩

theorem directiveIs_iff (S : List ASTNode) (name s : String) :
    DirectiveIs S name s ↔ ∃ t, findDirectiveValue S name = some ⟨.str s, t⟩ := by
  constructor
  · rintro ⟨before, t, after, rfl, h⟩
    exact ⟨t, findDirectiveValue_first name _ before after h⟩
  · rintro ⟨t, h⟩
    obtain ⟨before, after, h1, h2⟩ := findDirectiveValue_split name _ S h
    exact ⟨before, t, after, h1, h2⟩

end TPB
