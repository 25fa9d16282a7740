/- Schemas without the numbers of their fields. -/
import Verif.Model.Ast
namespace TPB.Spec

/-- A field of a struct or of a variant `A { … }` without its number. -/
def unnumberedField (f : StructField) : StructField := ⟨0, f.name, f.typeId⟩

/-- A value of a variant `A(…)` without its number. -/
def unnumberedValue (v : TupleField) : TupleField := ⟨0, v.typeId⟩

/-- A variant with its own number, but without those of its fields. -/
def unnumberedItem : EnumItem → EnumItem
  | .empty p id => .empty p id
  | .tuple p id vs => .tuple p id (vs.map unnumberedValue)
  | .struct p id fs => .struct p id (fs.map unnumberedField)

/-- A declaration without the numbers of its fields. -/
def unnumbered : ASTNode → ASTNode
  | .struct n => .struct ⟨n.id, n.fields.map unnumberedField, n.emplaceBuffers, n.intoBuffers⟩
  | .enum n => .enum ⟨n.id, n.items.map unnumberedItem⟩
  | d => d

/-- Two schemas that differ at most in the numbers of their fields. -/
def SameButFieldNumbers (S S' : List ASTNode) : Prop := S.map unnumbered = S'.map unnumbered

end TPB.Spec
