/- Model of /repo/src/ast.rs. -/
import Verif.Model.Lexer
namespace TPB

/-- ast.rs 98-122 `TypeIDASTNode`. -/
inductive TypeId where
  | integer (id : String) (size : Nat) (signed : Bool)
  | number (id : String) (size : Nat)
  | bool (id : String)
  | char (id : String)
  | generic (id : String) (generics : List TypeId)
  | other (id : String)
  deriving Repr, BEq, Inhabited

/-- ast.rs 84-90 `ConstValueASTNode` (its only variant, `Literal`). -/
structure ConstValue where
  literal : Literal
  typeId : TypeId
  deriving Repr, BEq, Inhabited

/-- ast.rs 12-28 (`ConstASTNode`, `ConstItemASTNode`), with `ConstASTNode { id, items }` inlined into `node`. -/
inductive ConstItem where
  | value (id : String) (typeId : TypeId) (value : ConstValue)
  | node (id : String) (items : List ConstItem)
  deriving Repr, BEq, Inhabited

/-- ast.rs 12-16 `ConstASTNode`. -/
structure ConstNode where
  id : String
  items : List ConstItem
  deriving Repr, BEq, Inhabited

/-- ast.rs 92-96 `IdValuePair`. -/
structure IdValuePair where
  id : String
  value : ConstValue
  deriving Repr, BEq, Inhabited

/-- ast.rs 30-40 `DirectiveASTNode`. -/
inductive Directive where
  | value (id : String) (value : ConstValue)
  | group (groupId : String) (values : List IdValuePair)
  deriving Repr, BEq, Inhabited

/-- ast.rs 168-172 `TupleFieldASTNode`.  `u32` positions are natural numbers. -/
structure TupleField where
  position : Nat
  typeId : TypeId
  deriving Repr, BEq, Inhabited

/-- ast.rs 174-179 `StructFieldASTNode`. -/
structure StructField where
  position : Nat
  name : String
  typeId : TypeId
  deriving Repr, BEq, Inhabited

/-- ast.rs 181-185 `FnArgASTNode`. -/
structure FnArg where
  id : String
  typeId : TypeId
  deriving Repr, BEq, Inhabited

/-- ast.rs 66-82 `EnumItemASTNode`. -/
inductive EnumItem where
  | empty (position : Nat) (id : String)
  | tuple (position : Nat) (id : String) (values : List TupleField)
  | struct (position : Nat) (id : String) (fields : List StructField)
  deriving Repr, BEq, Inhabited

/-- ast.rs 42-46 `EnumASTNode`. -/
structure EnumNode where
  id : String
  items : List EnumItem
  deriving Repr, BEq, Inhabited

/-- ast.rs 48-54 `StructASTNode`. -/
structure StructNode where
  id : String
  fields : List StructField
  emplaceBuffers : Bool
  intoBuffers : Bool
  deriving Repr, BEq, Inhabited

/-- ast.rs 56-64 `FnASTNode`. -/
structure FnNode where
  id : String
  position : Nat
  args : List FnArg
  returnTypeId : Option TypeId
  isRead : Bool
  isAsync : Bool
  deriving Repr, BEq, Inhabited

/-- ast.rs 3-10 `ASTNode`. -/
inductive ASTNode where
  | enum (n : EnumNode)
  | struct (n : StructNode)
  | fn (n : FnNode)
  | directive (d : Directive)
  | const (n : ConstNode)
  deriving Repr, BEq, Inhabited

/-- ast.rs 125-139 `EnumItemASTNode::id`. -/
def EnumItem.id : EnumItem → String
  | .empty _ id => id
  | .tuple _ id _ => id
  | .struct _ id _ => id

/-- ast.rs 141-155 `EnumItemASTNode::position`. -/
def EnumItem.position : EnumItem → Nat
  | .empty p _ => p
  | .tuple p _ _ => p
  | .struct p _ _ => p

/-- ast.rs 158-166 `TypeIDASTNode::u32_type_id` (its `size` really is 8). -/
def u32TypeId : TypeId := .integer "u32" 8 false

/-- ast.rs 187-195 `contains_consts_nodes`. -/
def containsConstsNodes : List ASTNode → Bool
  | [] => false
  | .const _ :: _ => true
  | _ :: ns => containsConstsNodes ns

/-- ast.rs 197-207 `find_fn_nodes`. -/
def findFnNodes : List ASTNode → List FnNode
  | [] => []
  | .fn f :: ns => f :: findFnNodes ns
  | _ :: ns => findFnNodes ns

/-- ast.rs 209-219 `find_directive_value`. -/
def findDirectiveValue : List ASTNode → String → Option ConstValue
  | [], _ => none
  | .directive (.value id v) :: ns, target =>
    if target = id then some v else findDirectiveValue ns target
  | _ :: ns, target => findDirectiveValue ns target

/-- ast.rs 229-233, the inner loop of `find_directive_group_value`. -/
def findPair : List IdValuePair → String → Option ConstValue
  | [], _ => none
  | p :: ps, target => if p.id = target then some p.value else findPair ps target

/-- ast.rs 221-239 `find_directive_group_value`. -/
def findDirectiveGroupValue : List ASTNode → String → String → Option ConstValue
  | [], _, _ => none
  | .directive (.group gid vs) :: ns, tg, t =>
    if tg = gid then
      match findPair vs t with
      | some v => some v
      | none => findDirectiveGroupValue ns tg t
    else findDirectiveGroupValue ns tg t
  | _ :: ns, tg, t => findDirectiveGroupValue ns tg t

/-- ast.rs 251-255, the inner loop of `find_directive_group_values`. -/
def findPairs : List IdValuePair → String → List ConstValue
  | [], _ => []
  | p :: ps, target => if p.id = target then p.value :: findPairs ps target else findPairs ps target

/-- ast.rs 241-261 `find_directive_group_values`. -/
def findDirectiveGroupValues : List ASTNode → String → String → List ConstValue
  | [], _, _ => []
  | .directive (.group gid vs) :: ns, tg, t =>
    if tg = gid then findPairs vs t ++ findDirectiveGroupValues ns tg t
    else findDirectiveGroupValues ns tg t
  | _ :: ns, tg, t => findDirectiveGroupValues ns tg t

end TPB
