/-
Specification of the Kotlin and Swift output: what the types of the schema language mean, how the two
languages write them, which literals a type has.
-/
import Verif.Spec.Consts
namespace TPB.Spec

/-! ### Types -/

/-- What the values of a type are: integers of so many bits with or without sign, floating-point numbers
of so many bits, truth values, characters, lists. -/
inductive ValueType where
  | int (bits : Nat) (signed : Bool)
  | float (bits : Nat)
  | bool
  | char
  | list (elem : ValueType)
  deriving DecidableEq, Repr

/-- The built-in types of the schema language. -/
def builtinMeanings : List (String × ValueType) :=
  [("i8", .int 8 true), ("i32", .int 32 true), ("i64", .int 64 true), ("u8", .int 8 false),
   ("u32", .int 32 false), ("u64", .int 64 false), ("f32", .float 32), ("f64", .float 64),
   ("char", .char), ("bool", .bool)]

/-- A built-in type, or a list (`Vec`) of such, to any depth, and what its values are. -/
inductive Holds : TypeId → ValueType → Prop
  | builtin (n : String) (v : ValueType) : (n, v) ∈ builtinMeanings → Holds (typeOfName n) v
  | list (t : TypeId) (v : ValueType) : Holds t v → Holds (.generic "Vec" [t]) (.list v)

/-- How a language writes types: names of the types that are not lists, and a list of elements of type
`s` as `pre s post`. -/
def writtenType (names : List (ValueType × String)) (pre post : String) : ValueType → Option String
  | .list v => (writtenType names pre post v).map (fun s => pre ++ s ++ post)
  | v => names.lookup v

/-- Kotlin language documentation, "Basic types". -/
def kotlinNames : List (ValueType × String) :=
  [(.int 8 true, "Byte"), (.int 16 true, "Short"), (.int 32 true, "Int"), (.int 64 true, "Long"),
   (.int 8 false, "UByte"), (.int 16 false, "UShort"), (.int 32 false, "UInt"), (.int 64 false, "ULong"),
   (.float 32, "Float"), (.float 64, "Double"), (.bool, "Boolean"), (.char, "Char")]

/-- The Kotlin type with these values. -/
def kotlinType : ValueType → Option String := writtenType kotlinNames "List<" ">"

/-- The Swift Programming Language, "The Basics". -/
def swiftNames : List (ValueType × String) :=
  [(.int 8 true, "Int8"), (.int 16 true, "Int16"), (.int 32 true, "Int32"), (.int 64 true, "Int64"),
   (.int 8 false, "UInt8"), (.int 16 false, "UInt16"), (.int 32 false, "UInt32"), (.int 64 false, "UInt64"),
   (.float 32, "Float"), (.float 64, "Double"), (.bool, "Bool"), (.char, "Character")]

/-- The Swift type with these values. -/
def swiftType : ValueType → Option String := writtenType swiftNames "[" "]"

/-- No characters in a type. -/
def ValueType.NoChar : ValueType → Prop
  | .char => False
  | .list v => v.NoChar
  | _ => True

/-! ### Literals -/

/-- A literal that a constant of the type can have: integers for integer and address types, decimal
fractions for floating-point types; strings and truth values are not checked. -/
def LiteralFits : TypeId → Literal → Prop
  | .integer _ _ _, .int _ => True
  | .other id, .int _ => id = "GroupAddress" ∨ id = "CommandsBufferAddress"
  | .number _ _, .num _ => True
  | _, .str _ => True
  | _, .bool _ => True
  | _, _ => False

/-! ### Directives -/

/-- The first value directive with a name is there and is a string. -/
def HasString (S : List ASTNode) (name : String) : Prop :=
  ∃ s t, (S.filterMap (fun | .directive (.value n v) => some (n, v) | _ => none)).find? (fun p => p.1 == name)
    = some (name, ⟨.str s, t⟩)

/-- All entries with a name in groups with a name are strings. -/
def StringEntries (S : List ASTNode) (group name : String) : Prop :=
  ∀ ps, .directive (.group group ps) ∈ S → ∀ p ∈ ps, p.id = name → ∃ s, p.value.literal = .str s

end TPB.Spec
