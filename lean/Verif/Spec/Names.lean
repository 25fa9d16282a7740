/- The names that occur in a schema. -/
import Verif.Model.Ast
namespace TPB.Spec

mutual
/-- The names in a type. -/
def typeWords : TypeId → List String
  | .integer id _ _ => [id]
  | .number id _ => [id]
  | .bool id => [id]
  | .char id => [id]
  | .other id => [id]
  | .generic id gs => id :: typesWords gs
def typesWords : List TypeId → List String
  | [] => []
  | t :: ts => typeWords t ++ typesWords ts
end

/-- The names that an item of an enum declares. -/
def itemNames (i : EnumItem) : List String :=
  i.id :: match i with
    | .struct _ _ fs => fs.map (·.name)
    | _ => []

/-- The types that an item of an enum mentions. -/
def itemTypes : EnumItem → List TypeId
  | .empty _ _ => []
  | .tuple _ _ vs => vs.map (·.typeId)
  | .struct _ _ fs => fs.map (·.typeId)

/-- The names in the declarations of types. -/
def declWords : ASTNode → List String
  | .struct n => n.id :: (n.fields.map (·.name) ++ n.fields.flatMap (fun f => typeWords f.typeId))
  | .enum n => n.id :: (n.items.flatMap itemNames ++ n.items.flatMap (fun i => (itemTypes i).flatMap typeWords))
  | _ => []

mutual
/-- The names in an item of a block of constants: its own, and those in its type. -/
def constWords : ConstItem → List String
  | .value n t _ => n :: typeWords t
  | .node n is => n :: constsWords is
def constsWords : List ConstItem → List String
  | [] => []
  | i :: is => constWords i ++ constsWords is
end

/-- All names in a declaration. -/
def nodeWords : ASTNode → List String
  | .fn n => n.id :: (n.args.map (·.id) ++ n.args.flatMap (fun a => typeWords a.typeId) ++
      n.returnTypeId.toList.flatMap typeWords)
  | .const n => n.id :: constsWords n.items
  | .directive (.value n _) => [n]
  | .directive (.group n ps) => n :: ps.map (·.id)
  | d => declWords d

end TPB.Spec
