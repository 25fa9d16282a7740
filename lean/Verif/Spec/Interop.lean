/-
What a value written by the Rust side looks like on the Dart side, and when the two runtime libraries
use the same byte formats.
-/
import Verif.Spec.Dart
namespace TPB.Spec

/-- The number that is read when the `size` bytes of the number `n` are taken as a signed integer. -/
def asSigned (size : Nat) (n : Int) : Int := if n < 2 ^ (8 * size - 1) then n else n - 2 ^ (8 * size)

/-- `Sees S ts vs us`: when the values `vs` of types `ts` are written by Rust, Dart sees `us`.  Integers
are seen as signed numbers of the same width; everything else is seen as it is. -/
inductive Sees (S : List ASTNode) : List TypeId → List Val → List Val → Prop
  | nil : Sees S [] [] []
  | int (id : String) (size : Nat) (s : Bool) (n : Int) (ts : List TypeId) (vs us : List Val) : Sees S ts vs us →
      Sees S (.integer id size s :: ts) (.int n :: vs) (.int (asSigned size n) :: us)
  | num (id : String) (size : Nat) (v : Val) (ts : List TypeId) (vs us : List Val) : Sees S ts vs us →
      Sees S (.number id size :: ts) (v :: vs) (v :: us)
  | bool (id : String) (v : Val) (ts : List TypeId) (vs us : List Val) : Sees S ts vs us →
      Sees S (.bool id :: ts) (v :: vs) (v :: us)
  | struct (n : StructNode) (fvs fus : List Val) (ts : List TypeId) (vs us : List Val) : .struct n ∈ S →
      Sees S ((fieldsOf n).map (·.2)) fvs fus → Sees S ts vs us →
      Sees S (.other n.id :: ts) (.struct n.id (named (fieldsOf n) fvs) :: vs)
        (.struct n.id (named (fieldsOf n) fus) :: us)
  | enum (n : EnumNode) (i : EnumItem) (pvs pus : List Val) (ts : List TypeId) (vs us : List Val) : .enum n ∈ S →
      i ∈ n.items → Sees S ((payload i).map (·.2)) pvs pus → Sees S ts vs us →
      Sees S (.other n.id :: ts) (.enum n.id i.id (named (payload i) pvs) :: vs)
        (.enum n.id i.id (named (payload i) pus) :: us)
  | list (id : String) (s : Nat) (vis uis : List Val) (ts : List TypeId) (vs us : List Val) :
      Sees S (List.replicate s (.other id)) vis uis → Sees S ts vs us →
      Sees S (.generic "Vec" [.other id] :: ts) (.list s vis :: vs) (.list s uis :: us)
  | ext (id : String) (v : Val) (ts : List TypeId) (vs us : List Val) : id ∉ typeNames S → Sees S ts vs us →
      Sees S (.other id :: ts) (v :: vs) (v :: us)

/-- Dart's own names for elements of lists. -/
def dartElems : List String := ["Int", "Double", "Bool", "List"]

/-- Types that both sides lay out in the same way: integers, floating point numbers, booleans, declared
and external types, and lists of declared and external types.  (A `char` has a different width in Dart,
and Dart has one codec for the integers of all lists, whatever their width.) -/
inductive Portable (S : List ASTNode) : TypeId → Prop
  | int (id : String) (size : Nat) (s : Bool) : (id, TypeId.integer id size s) ∈ builtinTypes →
      Portable S (.integer id size s)
  | num (id : String) (size : Nat) : (id, TypeId.number id size) ∈ builtinTypes → Portable S (.number id size)
  | bool : Portable S (.bool "bool")
  | other (id : String) : (id ∈ typeNames S ∨ id ∉ dartElems) → Portable S (.other id)
  | list (id : String) : (id ∈ typeNames S ∨ id ∉ dartElems) → Portable S (.generic "Vec" [.other id])

/-- Every field of the schema is portable, and variant numbers fit in 31 bits. -/
structure PortableSchema (S : List ASTNode) : Prop where
  fields : ∀ n, .struct n ∈ S → ∀ f ∈ fieldsOf n, Portable S f.2
  payloads : ∀ n, .enum n ∈ S → ∀ i ∈ n.items, ∀ f ∈ payload i, Portable S f.2
  numbers : ∀ n, .enum n ∈ S → ∀ i ∈ n.items, i.position < 2 ^ 31

/-- Not an unsigned integer type. -/
def NotUnsigned (t : TypeId) : Prop := ∀ id size, t ≠ .integer id size false

/-- No field of the schema has an unsigned integer type. -/
def NoUnsigned (S : List ASTNode) : Prop :=
  (∀ n, .struct n ∈ S → ∀ f ∈ fieldsOf n, NotUnsigned f.2) ∧
  (∀ n, .enum n ∈ S → ∀ i ∈ n.items, ∀ f ∈ payload i, NotUnsigned f.2)

/-- The two runtime libraries use the same byte formats: integers are two's complement of the same width
(an unsigned number has the bytes of the signed number with the same bits), and floating point numbers,
booleans, external values and list headers have the same bytes.  Rust writers take values of their type
only. -/
structure Agree (W D : Wire) : Prop where
  int : ∀ id size s n, (id, TypeId.integer id size s) ∈ builtinTypes → LeafVal (.integer id size s) (.int n) →
    W.prim id (.int n) = D.prim (dartPrim (.integer id size s)) (.int (asSigned size n))
  num : ∀ id size v, (id, TypeId.number id size) ∈ builtinTypes →
    W.prim id v = D.prim (dartPrim (.number id size)) v
  bool : ∀ v, W.prim "bool" v = D.prim "Bool" v
  range : ∀ id t v b, (id, t) ∈ builtinTypes → W.prim id v = some b → LeafVal t v
  ext : ∀ id v, id ∉ dartElems → W.ext id v = D.ext id v
  vec : ∀ n, W.head "Vec" n = D.head "Vec" n

end TPB.Spec
