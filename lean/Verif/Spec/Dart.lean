/-
How a schema looks from Dart: which reader and writer method belongs to a built-in type, which codec
belongs to the elements of a list, what Dart objects stand for a schema value, and which schemas have
names that can be told apart after the renaming to Dart conventions.

It is written from the schema alone and does not mention generated code.
-/
import Verif.Spec.Wire
import Verif.Model.Writer
namespace TPB.Spec

/-- Dart has signed integers of 8, 32 and 64 bits, two floating point formats and booleans on the wire. -/
def dartPrims : List (String × TypeId) :=
  [("Int8", .integer "Int8" 1 true), ("Int32", .integer "Int32" 4 true), ("Int64", .integer "Int64" 8 true),
   ("Float", .number "Float" 4), ("Double", .number "Double" 8), ("Bool", .bool "Bool")]

/-- The wire type that Dart uses for a built-in type: the signed integer of the same width (a `char`
is an 8-bit integer). -/
def dartPrim : TypeId → String
  | .integer _ size _ => if size = 1 then "Int8" else if size = 4 then "Int32" else "Int64"
  | .number _ size => if size = 4 then "Float" else "Double"
  | .bool _ => "Bool"
  | .char _ => "Int8"
  | _ => ""

/-- Dart's name for the elements of a list: all integers share one codec, and so do all floating point
numbers. -/
def dartElem : TypeId → String
  | .integer _ _ _ => "Int"
  | .number _ _ => "Double"
  | .bool _ => "Bool"
  | .char _ => "Int"
  | .other id => id
  | .generic id _ => if id = "Vec" then "List" else id

mutual
/-- A type as it is written in Dart. -/
def dartText : TypeId → String
  | .integer _ _ _ => "int"
  | .number _ _ => "double"
  | .bool _ => "bool"
  | .char _ => "int"
  | .other id => id
  | .generic id gs => (if id = "Vec" then "List" else id) ++ "<" ++ ", ".intercalate (dartTexts gs) ++ ">"
def dartTexts : List TypeId → List String
  | [] => []
  | t :: ts => dartText t :: dartTexts ts
end

/-- Name of a generic library type with its arguments, for example `Box<int>`. -/
def dartGeneric (id : String) (gs : List TypeId) : String := id ++ "<" ++ ", ".intercalate (dartTexts gs) ++ ">"

/-- The type of a field as Dart sees it: a built-in type becomes Dart's wire type, `Vec<T>` becomes a
list of `T`'s codec name, other generic types belong to the library. -/
def dartView : TypeId → TypeId
  | .integer id size s => .integer (dartPrim (.integer id size s)) size true
  | .number id size => .number (dartPrim (.number id size)) size
  | .bool _ => .bool "Bool"
  | .char _ => .integer "Int8" 1 true
  | .other id => .other id
  | .generic id gs =>
    match gs with
    | [g] => if id = "Vec" then .generic "Vec" [.other (dartElem g)] else .other (dartGeneric id gs)
    | gs => .other (dartGeneric id gs)

def viewField (f : StructField) : StructField := { f with typeId := dartView f.typeId }
def viewTup (f : TupleField) : TupleField := { f with typeId := dartView f.typeId }

def viewItem : EnumItem → EnumItem
  | .empty p id => .empty p id
  | .tuple p id vs => .tuple p id (vs.map viewTup)
  | .struct p id fs => .struct p id (fs.map viewField)

def viewDecl : ASTNode → ASTNode
  | .struct n => .struct { n with fields := n.fields.map viewField }
  | .enum n => .enum { n with items := n.items.map viewItem }
  | d => d

/-- The schema with all types as Dart sees them. -/
def dartSchema (S : List ASTNode) : List ASTNode := S.map viewDecl

/-! ### Dart objects -/

/-- Dart names of the fields of a variant's payload: those of `v0`, `v1`, .. for a tuple. -/
def dartPayloadNames (x : Ext) : EnumItem → List String
  | .empty _ _ => []
  | .tuple _ _ vs => (List.range vs.length).map (fun i => x.camel ("v" ++ toString i))
  | .struct _ _ fs => fs.map (fun f => x.camel f.name)

/-- Dart names of the fields of a struct. -/
def dartFieldNames (x : Ext) (n : StructNode) : List String := n.fields.map (fun f => x.camel f.name)

/-- The Dart object of a variant's payload. -/
def payloadObj (x : Ext) (n : EnumNode) (i : EnumItem) (ds : List Val) : Val :=
  .struct (n.id ++ i.id) ((dartPayloadNames x i).zip ds)

/-- The Dart object of an enum: the field `value` names a variant, and there is one field for the
payload of every variant. -/
def enumObj (x : Ext) (n : EnumNode) (value : Val) (payloads : List Val) : Val :=
  .struct n.id (("value", value) :: (n.items.map (fun i => x.camel i.id)).zip payloads)

/-- The value of the field `value` for the variant `i`. -/
def variantConst (x : Ext) (n : EnumNode) (i : EnumItem) : Val := .enum (n.id ++ "Value") (x.camel i.id) []

/-- `DObj x T ts ds`: `ds` are Dart objects that variables of the types `ts` can hold: for a struct an
object with the fields of its class, for an enum an object with its `value` and all payload objects.
What built-in, list and external variables hold is not restricted. -/
inductive DObj (x : Ext) (T : List ASTNode) : List TypeId → List Val → Prop
  | nil : DObj x T [] []
  | any (t : TypeId) (d : Val) (ts : List TypeId) (ds : List Val) :
      (∀ id ∈ typeNames T, t ≠ .other id) → DObj x T ts ds → DObj x T (t :: ts) (d :: ds)
  | struct (n : StructNode) (fds : List Val) (ts : List TypeId) (ds : List Val) :
      .struct n ∈ T → DObj x T ((fieldsOf n).map (·.2)) fds → DObj x T ts ds →
      DObj x T (.other n.id :: ts) (.struct n.id ((dartFieldNames x n).zip fds) :: ds)
  | enum (n : EnumNode) (value : Val) (pls : List (List Val)) (ts : List TypeId) (ds : List Val) :
      .enum n ∈ T → pls.length = n.items.length →
      (∀ p ∈ n.items.zip pls, DObj x T ((payload p.1).map (·.2)) p.2) → DObj x T ts ds →
      DObj x T (.other n.id :: ts) (enumObj x n value ((n.items.zip pls).map (fun p => payloadObj x n p.1 p.2)) :: ds)

/-- `DRep x T ts vs ds`: the Dart objects `ds` represent the schema values `vs` of types `ts`.
* built-in and external values represent themselves;
* a struct object holds representations of the fields under their Dart names;
* an enum object represents the variant that `value` names, with the payload held by the field of that
  variant; the payload fields of the other variants hold arbitrary objects of their classes;
* a list holds representations of its elements. -/
inductive DRep (x : Ext) (T : List ASTNode) : List TypeId → List Val → List Val → Prop
  | nil : DRep x T [] [] []
  | leaf (t : TypeId) (v : Val) (ts : List TypeId) (vs ds : List Val) : (builtin? t).isSome →
      DRep x T ts vs ds → DRep x T (t :: ts) (v :: vs) (v :: ds)
  | struct (n : StructNode) (fvs fds : List Val) (ts : List TypeId) (vs ds : List Val) :
      .struct n ∈ T → DRep x T ((fieldsOf n).map (·.2)) fvs fds → DRep x T ts vs ds →
      DRep x T (.other n.id :: ts) (.struct n.id (named (fieldsOf n) fvs) :: vs)
        (.struct n.id ((dartFieldNames x n).zip fds) :: ds)
  | enum (n : EnumNode) (i : EnumItem) (pvs pds : List Val) (pls : List (List Val)) (ts : List TypeId)
      (vs ds : List Val) : .enum n ∈ T → pls.length = n.items.length → (i, pds) ∈ n.items.zip pls →
      DRep x T ((payload i).map (·.2)) pvs pds →
      (∀ p ∈ n.items.zip pls, DObj x T ((payload p.1).map (·.2)) p.2) → DRep x T ts vs ds →
      DRep x T (.other n.id :: ts) (.enum n.id i.id (named (payload i) pvs) :: vs)
        (enumObj x n (variantConst x n i) ((n.items.zip pls).map (fun p => payloadObj x n p.1 p.2)) :: ds)
  | list (e : TypeId) (shape : Nat) (vis dis : List Val) (ts : List TypeId) (vs ds : List Val) :
      DRep x T (List.replicate shape e) vis dis → DRep x T ts vs ds →
      DRep x T (.generic "Vec" [e] :: ts) (.list shape vis :: vs) (.list shape dis :: ds)
  | ext (id : String) (v : Val) (ts : List TypeId) (vs ds : List Val) : id ∉ typeNames T →
      DRep x T ts vs ds → DRep x T (.other id :: ts) (v :: vs) (v :: ds)

/-! ### Names -/

/-- Classes of the payloads of variants. -/
def variantClasses (S : List ASTNode) : List String :=
  S.flatMap (fun | .enum n => n.items.map (fun i => n.id ++ i.id) | _ => [])

def enumNames (S : List ASTNode) : List String := S.filterMap (fun | .enum n => some n.id | _ => none)

/-- All classes and enumerations of the generated Dart file. -/
def dartClasses (S : List ASTNode) : List String :=
  (typeNames S ++ variantClasses S) ++ (enumNames S).map (· ++ "Value")
    ++ (typeNames S ++ variantClasses S).map (· ++ "BuffersFactory")
    ++ ((typeNames S).map (· ++ "IntoBuffers") ++ (typeNames S ++ variantClasses S).map (· ++ "EmplaceToBuffers"))

/-- The library codecs that a type needs are not hidden by classes of the file. -/
def LibraryFree (S : List ASTNode) : TypeId → Prop
  | .other id => id ∉ variantClasses S
  | .generic id gs =>
    match gs with
    | [g] => if id = "Vec" then dartElem g ∉ variantClasses S else id ∉ typeNames S ++ variantClasses S
    | _ => id ∉ typeNames S ++ variantClasses S
  | _ => True

/-- The names of the generated Dart file can be told apart: class names are distinct, fields of one
class have distinct names, no field is called like the reader argument, no variant is called `value`,
declared names contain no `<`, and no class of the file hides a library codec. -/
structure DartNamed (x : Ext) (S : List ASTNode) : Prop where
  classes : (dartClasses S).Nodup
  fields : ∀ n, .struct n ∈ S → (dartFieldNames x n).Nodup ∧ "reader" ∉ dartFieldNames x n
  variants : ∀ n, .enum n ∈ S → ("value" :: n.items.map (fun i => x.camel i.id)).Nodup
  payloads : ∀ n, .enum n ∈ S → ∀ i ∈ n.items, (dartPayloadNames x i).Nodup
  plain : ∀ id ∈ typeNames S, '<' ∉ id.toList
  lists : "List" ∉ typeNames S ++ variantClasses S
  structLib : ∀ n, .struct n ∈ S → ∀ f ∈ fieldsOf n, LibraryFree S f.2
  enumLib : ∀ n, .enum n ∈ S → ∀ i ∈ n.items, ∀ f ∈ payload i, LibraryFree S f.2

/-- Types that a value of the declaration contains directly (not through a list or another generic type). -/
def directTypes : ASTNode → List TypeId
  | .struct n => (fieldsOf n).map (·.2)
  | .enum n => n.items.flatMap (fun i => (payload i).map (·.2))
  | _ => []

def declName : ASTNode → Option String
  | .struct n => some n.id
  | .enum n => some n.id
  | _ => none

/-- The type `id` is built of finitely many others: the types that its declaration contains directly are, and a variant with
parentheses or braces has a payload. -/
inductive Built (S : List ASTNode) : String → Prop
  | mk (id : String) :
    (∀ n, .enum n ∈ S → n.id = id → ∀ i ∈ n.items, payload i = [] → ∃ p v, i = .empty p v) →
    (∀ d ∈ S, declName d = some id → ∀ t, .other t ∈ directTypes d → t ∈ typeNames S → Built S t) → Built S id

/-- A variant with parentheses or braces has a payload. -/
def VariantsFilled (S : List ASTNode) : Prop :=
  ∀ n, .enum n ∈ S → ∀ i ∈ n.items, payload i = [] → ∃ p id, i = .empty p id

/-- Default objects exist: no type contains itself directly (there is a height of types that decreases
from a type to the types of its fields), and a variant with a payload has at least one payload field. -/
structure HasDefaults (S : List ASTNode) : Prop where
  finite : ∃ height : String → Nat, ∀ d ∈ S, ∀ id, declName d = some id →
    ∀ t, .other t ∈ directTypes d → t ∈ typeNames S → height t < height id
  inhabited : ∀ n, .enum n ∈ S → ∀ i ∈ n.items, payload i = [] → ∃ p id, i = .empty p id

/-- Types given by a name (declared or external) come before all others. -/
def OthersFirst (ts : List TypeId) : Prop :=
  ∃ l1 l2, ts = l1 ++ l2 ∧ (∀ t ∈ l1, ∃ id, t = .other id) ∧ (∀ t ∈ l2, ∀ id, t ≠ .other id)

/-- In every struct and every payload, fields whose type is given by a name come first. -/
def SkipOrder (S : List ASTNode) : Prop :=
  (∀ n, .struct n ∈ S → OthersFirst ((fieldsOf n).map (·.2))) ∧
  (∀ n, .enum n ∈ S → ∀ i ∈ n.items, OthersFirst ((payload i).map (·.2)))

end TPB.Spec
