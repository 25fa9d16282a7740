/-
Specification of the schema values of the language, independent of tokens and of the parser.
-/
import Verif.Spec.Grammar
import Verif.Spec.Spelling
namespace TPB.Spec

/-- Types: built-in or user names, and generic types with at least one argument. -/
inductive WFType : TypeId → Prop
  | name (n : String) : WFType (typeOfName n)
  | generic (n : String) (as : List TypeId) : as ≠ [] → (∀ a ∈ as, WFType a) → WFType (.generic n as)

/-- Positions of a list of fields or variants: counted from zero, or any 32-bit numbers. -/
def PosOk (ps : List Nat) : Prop := ps = List.range ps.length ∨ ∀ p ∈ ps, p < 2 ^ 32

def WFFields (fs : List StructField) : Prop :=
  PosOk (fs.map (·.position)) ∧ ∀ f ∈ fs, WFType f.typeId

def WFTups (fs : List TupleField) : Prop :=
  PosOk (fs.map (·.position)) ∧ ∀ f ∈ fs, WFType f.typeId

def WFItem : EnumItem → Prop
  | .empty _ _ => True
  | .tuple _ _ vs => WFTups vs
  | .struct _ _ fs => WFFields fs

/-- Constant values carry the type that belongs to their literal. -/
def WFConst (v : ConstValue) : Prop := v = constOf v.literal

inductive WFConstItem : ConstItem → Prop
  | value (n : String) (t : TypeId) (v : ConstValue) : WFType t → WFConst v → WFConstItem (.value n t v)
  | node (n : String) (is : List ConstItem) : (∀ i ∈ is, WFConstItem i) → WFConstItem (.node n is)

/-- A declaration that comes after `k` methods. -/
def WFDecl (k : Nat) : ASTNode → Prop
  | .struct n => WFFields n.fields ∧ n.emplaceBuffers = true ∧ n.intoBuffers = true
  | .enum n => n.items ≠ [] ∧ PosOk (n.items.map (·.position)) ∧ ∀ i ∈ n.items, WFItem i
  | .fn n => n.position = k ∧ (∀ a ∈ n.args, WFType a.typeId) ∧ (∀ t ∈ n.returnTypeId, WFType t) ∧
      (n.isRead = true → n.args = [])
  | .directive (.value _ v) => WFConst v
  | .directive (.group _ ps) => ∀ p ∈ ps, WFConst p.value
  | .const n => ∀ i ∈ n.items, WFConstItem i

/-- Number of methods a declaration declares. -/
def fnCount : ASTNode → Nat
  | .fn _ => 1
  | _ => 0

/-- Number of methods of a schema. -/
def methodCount (ds : List ASTNode) : Nat := (ds.map fnCount).sum

/-- Add `n` to the address of a method. -/
def shiftDecl (n : Nat) : ASTNode → ASTNode
  | .fn f => .fn { f with position := f.position + n }
  | d => d

/-- The methods of a schema, in order. -/
def methodsOf (ds : List ASTNode) : List FnNode := ds.filterMap (fun | .fn f => some f | _ => none)

/-- Token sequences separated by commas. -/
def joinComma : List (List Token) → List Token
  | [] => []
  | [x] => x
  | x :: y :: r => x ++ .sym ',' :: joinComma (y :: r)

/-- A schema whose first method has address `k`. -/
def WFSchema : Nat → List ASTNode → Prop
  | _, [] => True
  | k, d :: ds => WFDecl k d ∧ WFSchema (k + fnCount d) ds

/-! ### Names and literals that can be written down -/

def LegalName (n : String) : Prop := IsIdent n.toList ∧ n ∉ reserved

instance (n : String) : Decidable (LegalName n) := by unfold LegalName; infer_instance

/-- Literals with a written form: text without quotes, non-negative 64-bit integers, decimal fractions. -/
def LegalLit : Literal → Prop
  | .str s => '"' ∉ s.toList ∧ Ascii s
  | .int v => 0 ≤ v ∧ v < 2 ^ 63
  | .num t => ∃ (d : Nat) (ds fs : List Nat), d < 10 ∧ (∀ e ∈ ds, e < 10) ∧ (∀ e ∈ fs, e < 10) ∧
      t = String.ofList (digitChar d :: (ds.map digitChar ++ '.' :: fs.map digitChar))
  | .bool _ => True

/-- Tokens with an ASCII spelling. -/
def LegalToken : Token → Prop
  | .id n => LegalName n
  | .lit l => LegalLit l
  | .sym c => c ∈ ['#', '[', ']', '(', ')', '{', '}', '<', '>', ',', ':', ';', '=', '-']
  | .eof => False
  | _ => True

inductive LegalType : TypeId → Prop
  | name (n : String) : LegalName n → LegalType (typeOfName n)
  | generic (n : String) (as : List TypeId) : LegalName n → (∀ a ∈ as, LegalType a) → LegalType (.generic n as)

inductive LegalConstItem : ConstItem → Prop
  | value (n : String) (t : TypeId) (v : ConstValue) : LegalName n → LegalType t → LegalLit v.literal →
      LegalConstItem (.value n t v)
  | node (n : String) (is : List ConstItem) : LegalName n → (∀ i ∈ is, LegalConstItem i) →
      LegalConstItem (.node n is)

def LegalItem (i : EnumItem) : Prop :=
  LegalName i.id ∧
  match i with
  | .empty _ _ => True
  | .tuple _ _ vs => ∀ v ∈ vs, LegalType v.typeId
  | .struct _ _ fs => ∀ f ∈ fs, LegalName f.name ∧ LegalType f.typeId

/-- All names and literals of a declaration can be written down. -/
def LegalDecl : ASTNode → Prop
  | .struct n => LegalName n.id ∧ ∀ f ∈ n.fields, LegalName f.name ∧ LegalType f.typeId
  | .enum n => LegalName n.id ∧ ∀ i ∈ n.items, LegalItem i
  | .fn n => LegalName n.id ∧ (∀ a ∈ n.args, LegalName a.id ∧ LegalType a.typeId) ∧
      (∀ t ∈ n.returnTypeId, LegalType t)
  | .directive (.value n v) => LegalName n ∧ LegalLit v.literal
  | .directive (.group n ps) => LegalName n ∧ ∀ p ∈ ps, LegalName p.id ∧ LegalLit p.value.literal
  | .const n => LegalName n.id ∧ ∀ i ∈ n.items, LegalConstItem i

/-- `src` is a way to write down the schema `ast` as ASCII source text. -/
def SourceOf (ast : List ASTNode) (src : String) : Prop :=
  Ascii src ∧ ∃ ts k, SchemaG false 0 ts ast k ∧ Layout ts src.toList

end TPB.Spec
