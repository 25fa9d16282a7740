/- What a schema says about types: names, fields and variants in order, and the numbers of variants.  The numbers
of fields are left out: they have no effect. -/
import Verif.Model.Ast
namespace TPB.Spec

/-- What a variant carries. -/
inductive Shape where
  | unit
  | tuple (types : List TypeId)
  | fields (fs : List (String × TypeId))

inductive TypeView where
  | struct (id : String) (fields : List (String × TypeId))
  /-- number, name and payload of the variants -/
  | enum (id : String) (variants : List (Nat × String × Shape))

def variantView : EnumItem → Nat × String × Shape
  | .empty p id => (p, id, .unit)
  | .tuple p id vs => (p, id, .tuple (vs.map (·.typeId)))
  | .struct p id fs => (p, id, .fields (fs.map (fun f => (f.name, f.typeId))))

def typeView : ASTNode → Option TypeView
  | .struct n => some (.struct n.id (n.fields.map (fun f => (f.name, f.typeId))))
  | .enum n => some (.enum n.id (n.items.map variantView))
  | _ => none

/-- The types that a schema declares, in order. -/
def typeViews (S : List ASTNode) : List TypeView := S.filterMap typeView

end TPB.Spec
