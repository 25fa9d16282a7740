/-
Specification: structs and methods with further fields and arguments at the end.
-/
import Verif.Spec.Renaming
namespace TPB.Spec

/-- The struct `n` of the schema `S` is the struct `n'` of `S'` with further fields, of the types `es`, at the end; the
fields before them have the types `ts`.  Names may be others, as in `SameTys`. -/
structure MoreFields (M : String → String → Prop) (S S' : List ASTNode) (n n' : StructNode) (ts es : List TypeId) : Prop where
  types : (fieldsOf n).map (·.2) = ts ++ es
  same : SameTys M S S' ts ((fieldsOf n').map (·.2))

/-- The variant `i` of an enum of `S` is the variant `i'` of an enum of `S'`, with the same number, with further fields, of
the types `es`, at the end of its payload. -/
structure MorePayload (M : String → String → Prop) (S S' : List ASTNode) (i i' : EnumItem) (ts es : List TypeId) : Prop where
  number : i'.position = i.position
  types : (payload i).map (·.2) = ts ++ es
  same : SameTys M S S' ts ((payload i').map (·.2))

/-- The results of `f` and `f'` have the same type, up to names, if there are any. -/
def SameReturn (M : String → String → Prop) (S S' : List ASTNode) (f f' : FnNode) : Prop :=
  (f.returnTypeId = none ∧ f'.returnTypeId = none) ∨
    ∃ t t', f.returnTypeId = some t ∧ f'.returnTypeId = some t' ∧ SameTy M S S' t t'

/-- The method `f` of `S` is the method `f'` of `S'`, at the same place and of the same kind, with further arguments, of
the types `es`, at the end. -/
structure MoreArgs (M : String → String → Prop) (S S' : List ASTNode) (f f' : FnNode) (ts es : List TypeId) : Prop where
  place : f'.position = f.position
  isRead : f'.isRead = f.isRead
  isAsync : f'.isAsync = f.isAsync
  args : f.args.map (·.typeId) = ts ++ es
  same : SameTys M S S' ts (f'.args.map (·.typeId))
  result : SameReturn M S S' f f'

/-- The method `f` of `S` is the method `f'` of `S'`, at the same place and of the same kind, without the last arguments
of `f'`, which have the types `es`. -/
structure FewerArgs (M : String → String → Prop) (S S' : List ASTNode) (f f' : FnNode) (ts' es : List TypeId) : Prop where
  place : f'.position = f.position
  isRead : f'.isRead = f.isRead
  isAsync : f'.isAsync = f.isAsync
  args : f'.args.map (·.typeId) = ts' ++ es
  same : SameTys M S S' (f.args.map (·.typeId)) ts'
  result : SameReturn M S S' f f'

end TPB.Spec
