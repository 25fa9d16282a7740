/-
Specification of default values of schema types, written from the schema alone.
-/
import Verif.Spec.Wire
namespace TPB.Spec

/-- The default values that belong to libraries: of external types, and of containers (the shape of the
default container, and which type arguments its contents have). -/
structure Defaults where
  ext : String → Option Val
  shape : String → Option Nat
  sub : String → Nat → List Nat

/-- The zero value of a built-in type. -/
def zeroOf : TypeId → Option Val
  | .integer _ _ _ => some (.int 0)
  | .number _ _ => some (.num 0)
  | .bool _ => some (.bool false)
  | .char _ => some (.int 0)
  | .generic _ _ => none
  | .other _ => none

/-- `DefaultOf D S ts vs`: `vs` are the default values of the types `ts`, one by one.
* a struct has the default of every field;
* an enum is its first variant in source order, with default payload. -/
inductive DefaultOf (D : Defaults) (S : List ASTNode) : List TypeId → List Val → Prop
  | nil : DefaultOf D S [] []
  | leaf (t : TypeId) (v : Val) (ts : List TypeId) (vs : List Val) : zeroOf t = some v →
      DefaultOf D S ts vs → DefaultOf D S (t :: ts) (v :: vs)
  | struct (n : StructNode) (fvs : List Val) (ts : List TypeId) (vs : List Val) : .struct n ∈ S →
      DefaultOf D S ((fieldsOf n).map (·.2)) fvs → DefaultOf D S ts vs →
      DefaultOf D S (.other n.id :: ts) (.struct n.id (named (fieldsOf n) fvs) :: vs)
  | enum (n : EnumNode) (i : EnumItem) (pvs : List Val) (ts : List TypeId) (vs : List Val) :
      .enum n ∈ S → n.items.head? = some i → DefaultOf D S ((payload i).map (·.2)) pvs →
      DefaultOf D S ts vs →
      DefaultOf D S (.other n.id :: ts) (.enum n.id i.id (named (payload i) pvs) :: vs)
  | list (c : String) (gs : List TypeId) (shape : Nat) (its : List TypeId) (items : List Val)
      (ts : List TypeId) (vs : List Val) : D.shape c = some shape → pick gs (D.sub c shape) = some its →
      DefaultOf D S its items → DefaultOf D S ts vs →
      DefaultOf D S (.generic c gs :: ts) (.list shape items :: vs)
  | ext (id : String) (v : Val) (ts : List TypeId) (vs : List Val) : id ∉ typeNames S →
      D.ext id = some v → DefaultOf D S ts vs → DefaultOf D S (.other id :: ts) (v :: vs)

/-- No struct field, and no payload field of the first variant of an enum, is a plain `char`. -/
def NoCharFields (S : List ASTNode) : Prop :=
  (∀ n, .struct n ∈ S → ∀ f ∈ fieldsOf n, ∀ c, f.2 ≠ .char c) ∧
  (∀ n, .enum n ∈ S → ∀ i, n.items.head? = some i → ∀ f ∈ payload i, ∀ c, f.2 ≠ .char c)

end TPB.Spec
