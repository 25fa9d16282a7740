/-
Specification: which changes of a schema keep the bytes of all existing values.
-/
import Verif.Spec.Dart
namespace TPB.Spec

/-- The name `id` occurs in a type. -/
inductive Mentions (id : String) : TypeId → Prop
  | other : Mentions id (.other id)
  | container {gs} : Mentions id (.generic id gs)
  | argument {c gs g} : g ∈ gs → Mentions id g → Mentions id (.generic c gs)

/-- The types of all fields and payloads of a declaration. -/
def typesOf : ASTNode → List TypeId
  | .struct n => (fieldsOf n).map (·.2)
  | .enum n => n.items.flatMap (fun i => (payload i).map (·.2))
  | _ => []

/-- `id` names a type in `S'` but not in `S`. -/
def IsNew (S S' : List ASTNode) (id : String) : Prop := id ∈ typeNames S' ∧ id ∉ typeNames S

/-- `S'` is a later version of `S`: structs keep their fields, enums keep their variants, with the same numbers
and payloads, and may have more, and there may be more declarations.  The order of declarations and of variants
does not matter.  Names of new types are not in use in `S` (for types of the runtime library). -/
structure Extends (S S' : List ASTNode) : Prop where
  struct : ∀ n, .struct n ∈ S → ∃ n', .struct n' ∈ S' ∧ n'.id = n.id ∧ fieldsOf n' = fieldsOf n
  enum : ∀ n, .enum n ∈ S → ∃ n', .enum n' ∈ S' ∧ n'.id = n.id ∧ ∀ i ∈ n.items, i ∈ n'.items
  fresh : ∀ d ∈ S, ∀ t ∈ typesOf d, ∀ id, IsNew S S' id → ¬ Mentions id t

/-- A type that means the same in both versions: no new type is mentioned in it. -/
def KeepsMeaning (S S' : List ASTNode) (t : TypeId) : Prop := ∀ id, IsNew S S' id → ¬ Mentions id t

/-- The directives of a schema, in order. -/
def directivesOf (S : List ASTNode) : List Directive := S.filterMap (fun | .directive d => some d | _ => none)

/-- `S'` is a later version of the interface `S`: its types are extended, its directives are the same, and its
methods are those of `S`, in order, followed by others.  The types of the methods of `S` mean the same in both. -/
structure AddsMethods (S S' : List ASTNode) : Prop where
  types : Extends S S'
  directives : directivesOf S' = directivesOf S
  methods : methodsOf S <+: methodsOf S'
  args : ∀ f ∈ methodsOf S, ∀ a ∈ f.args, KeepsMeaning S S' a.typeId
  results : ∀ f ∈ methodsOf S, ∀ t, f.returnTypeId = some t → KeepsMeaning S S' t

end TPB.Spec
