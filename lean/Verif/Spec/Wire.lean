/-
Specification of values, and of the documented wire layout of a value of a schema type.

It is written from the schema alone and does not mention generated code.
-/
import Verif.Spec.WellFormed
namespace TPB.Spec

abbrev Byte := UInt8
abbrev Bytes := List Byte

/-- Values of schema types. -/
inductive Val where
  /-- an integer; a `char` is represented by its code -/
  | int (n : Int)
  /-- a floating point number, by its bit pattern -/
  | num (bits : Nat)
  | bool (b : Bool)
  /-- a value of a type that is not declared in the schema (`String`, ...) -/
  | ext (id : String) (n : Nat)
  /-- a struct value: its fields by name -/
  | struct (id : String) (fields : List (String × Val))
  /-- an enum value: the variant and its payload by name; tuple payloads are named `0`, `1`, .. -/
  | enum (id variant : String) (payload : List (String × Val))
  /-- a container (`Vec<T>`, ...): a number describing its shape (the length, for `Vec`) and the
  contained values in order -/
  | list (shape : Nat) (items : List Val)
  deriving Repr, Inhabited

/-- The byte formats that belong to the runtime library and not to the generator: built-in values,
values of external types, and containers.  `none` means that there is no such value. -/
structure Wire where
  /-- bytes of a value of a built-in type, by type name -/
  prim : String → Val → Option Bytes
  /-- bytes of a value of an external type -/
  ext : String → Val → Option Bytes
  /-- bytes that precede the contained values of a container of the given shape -/
  head : String → Nat → Option Bytes
  /-- for each value in a container of the given shape, the index of its type among the arguments -/
  sub : String → Nat → List Nat

/-- The elements of `xs` at the given indices, if all exist. -/
def pick {α : Type} (xs : List α) : List Nat → Option (List α)
  | [] => some []
  | i :: is =>
    match xs[i]?, pick xs is with
    | some x, some r => some (x :: r)
    | _, _ => none

/-- Name of a built-in type. -/
def builtin? : TypeId → Option String
  | .integer id _ _ => some id
  | .number id _ => some id
  | .bool id => some id
  | .char id => some id
  | .generic _ _ => none
  | .other _ => none

/-- The values of a built-in type. -/
def LeafVal : TypeId → Val → Prop
  | .integer _ size true, .int n => -(2 ^ (8 * size - 1) : Int) ≤ n ∧ n < 2 ^ (8 * size - 1)
  | .integer _ size false, .int n => 0 ≤ n ∧ n < 2 ^ (8 * size)
  | .number _ size, .num b => b < 2 ^ (8 * size)
  | .bool _, .bool _ => True
  | .char _, .int n => 0 ≤ n ∧ n < 0x110000 ∧ ¬ (0xd800 ≤ n ∧ n < 0xe000)
  | _, _ => False

/-- Names of the types declared in a schema. -/
def typeNames (S : List ASTNode) : List String :=
  S.filterMap (fun | .struct n => some n.id | .enum n => some n.id | _ => none)

/-- Payload of a variant: names and types in declaration order. -/
def payload : EnumItem → List (String × TypeId)
  | .empty _ _ => []
  | .tuple _ _ vs => vs.mapIdx (fun i v => (toString i, v.typeId))
  | .struct _ _ fs => fs.map (fun f => (f.name, f.typeId))

/-- Fields of a struct: names and types in declaration order. -/
def fieldsOf (n : StructNode) : List (String × TypeId) := n.fields.map (fun f => (f.name, f.typeId))

/-- Names attached to values. -/
def named (fs : List (String × TypeId)) (vs : List Val) : List (String × Val) := (fs.map (·.1)).zip vs

/-- `HasTys W S ts vs`: `vs` are values of the types `ts`, one by one. -/
inductive HasTys (W : Wire) (S : List ASTNode) : List TypeId → List Val → Prop
  | nil : HasTys W S [] []
  | leaf (t : TypeId) (v : Val) (ts : List TypeId) (vs : List Val) : LeafVal t v →
      HasTys W S ts vs → HasTys W S (t :: ts) (v :: vs)
  | struct (n : StructNode) (fvs : List Val) (ts : List TypeId) (vs : List Val) :
      .struct n ∈ S → HasTys W S ((fieldsOf n).map (·.2)) fvs → HasTys W S ts vs →
      HasTys W S (.other n.id :: ts) (.struct n.id (named (fieldsOf n) fvs) :: vs)
  | enum (n : EnumNode) (i : EnumItem) (pvs : List Val) (ts : List TypeId) (vs : List Val) :
      .enum n ∈ S → i ∈ n.items → HasTys W S ((payload i).map (·.2)) pvs → HasTys W S ts vs →
      HasTys W S (.other n.id :: ts) (.enum n.id i.id (named (payload i) pvs) :: vs)
  | list (c : String) (gs : List TypeId) (shape : Nat) (its : List TypeId) (items : List Val)
      (ts : List TypeId) (vs : List Val) :
      (W.head c shape).isSome → pick gs (W.sub c shape) = some its → HasTys W S its items →
      HasTys W S ts vs → HasTys W S (.generic c gs :: ts) (.list shape items :: vs)
  | ext (id : String) (v : Val) (ts : List TypeId) (vs : List Val) :
      id ∉ typeNames S → (W.ext id v).isSome → HasTys W S ts vs →
      HasTys W S (.other id :: ts) (v :: vs)

/-- `v` is a value of type `t`. -/
abbrev HasTy (W : Wire) (S : List ASTNode) (t : TypeId) (v : Val) : Prop := HasTys W S [t] [v]

/-- The wire layout: `Enc W S ts vs bs` says that `bs` is the encoding of the values `vs` of types
`ts`, one after the other with nothing in between.
* a struct is its fields in declaration order;
* an enum value is the `u32` number of its variant followed by its payload in declaration order;
* a container is its header followed by the contained values in order. -/
inductive Enc (W : Wire) (S : List ASTNode) : List TypeId → List Val → Bytes → Prop
  | nil : Enc W S [] [] []
  | leaf (t : TypeId) (p : String) (v : Val) (b : Bytes) (ts : List TypeId) (vs : List Val)
      (bs : Bytes) : builtin? t = some p → W.prim p v = some b →
      Enc W S ts vs bs → Enc W S (t :: ts) (v :: vs) (b ++ bs)
  | struct (n : StructNode) (fvs : List Val) (b : Bytes) (ts : List TypeId) (vs : List Val)
      (bs : Bytes) : .struct n ∈ S → Enc W S ((fieldsOf n).map (·.2)) fvs b → Enc W S ts vs bs →
      Enc W S (.other n.id :: ts) (.struct n.id (named (fieldsOf n) fvs) :: vs) (b ++ bs)
  | enum (n : EnumNode) (i : EnumItem) (tag : Bytes) (pvs : List Val) (b : Bytes) (ts : List TypeId)
      (vs : List Val) (bs : Bytes) : .enum n ∈ S → i ∈ n.items →
      W.prim "u32" (.int i.position) = some tag → Enc W S ((payload i).map (·.2)) pvs b →
      Enc W S ts vs bs →
      Enc W S (.other n.id :: ts) (.enum n.id i.id (named (payload i) pvs) :: vs) (tag ++ b ++ bs)
  | list (c : String) (gs : List TypeId) (shape : Nat) (h : Bytes) (its : List TypeId)
      (items : List Val) (b : Bytes) (ts : List TypeId) (vs : List Val) (bs : Bytes) :
      W.head c shape = some h → pick gs (W.sub c shape) = some its → Enc W S its items b →
      Enc W S ts vs bs → Enc W S (.generic c gs :: ts) (.list shape items :: vs) (h ++ b ++ bs)
  | ext (id : String) (v : Val) (b : Bytes) (ts : List TypeId) (vs : List Val) (bs : Bytes) :
      id ∉ typeNames S → W.ext id v = some b → Enc W S ts vs bs →
      Enc W S (.other id :: ts) (v :: vs) (b ++ bs)

/-- What is assumed of the byte formats: every value of a built-in type has one, variant numbers take
four bytes, and a `Vec` of length `n` contains `n` values of its type argument. -/
structure Wire.Lawful (W : Wire) : Prop where
  prim_total : ∀ (t : TypeId) (p : String) (v : Val), WFType t → builtin? t = some p → LeafVal t v →
    ∃ b, W.prim p v = some b
  tag_size : ∀ n : Nat, n < 2 ^ 32 → ∀ b, W.prim "u32" (.int n) = some b → b.length = 4
  vec : ∀ n, W.sub "Vec" n = List.replicate n 0

/-- The names of a schema can be told apart: declared type names are distinct and not built-in,
fields of one struct, variants of one enum, and fields of one variant have distinct names, and
variant numbers fit in 32 bits. -/
structure WellNamed (S : List ASTNode) : Prop where
  types : (typeNames S).Nodup
  builtins : ∀ x ∈ typeNames S, builtinTypes.lookup x = none
  fields : ∀ n, .struct n ∈ S → ((fieldsOf n).map (·.1)).Nodup
  variants : ∀ n, .enum n ∈ S → (n.items.map (·.id)).Nodup
  payloads : ∀ n, .enum n ∈ S → ∀ p id fs, .struct p id fs ∈ n.items → (fs.map (·.name)).Nodup
  numbers : ∀ n, .enum n ∈ S → ∀ i ∈ n.items, i.position < 2 ^ 32

/-- The variants of each enum have distinct numbers. -/
def DistinctNumbers (S : List ASTNode) : Prop :=
  ∀ n, .enum n ∈ S → (n.items.map (·.position)).Nodup

end TPB.Spec
