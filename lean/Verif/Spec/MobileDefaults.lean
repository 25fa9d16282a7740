/-
The default values of the types of a schema in Kotlin and Swift.
-/
import Verif.Sem.MobileEval
import Verif.Spec.MobileTyping
namespace TPB.Spec

/-- How the values of structs and of variants look in a language. -/
structure Makes where
  struct : StructNode → List MVal → MVal
  enum : EnumNode → EnumItem → List MVal → MVal

/-- Kotlin: an object of the class of the struct or of the class of the variant. -/
def kotlinMakes (x : ExtF) : Makes where
  struct n vs := .obj n.id ((n.fields.map (fun f => x.camel f.name)).zip vs)
  enum n
    | .empty _ id, _ => .obj (n.id ++ id) []
    | .tuple _ id ts, vs => .obj (n.id ++ id) (((List.range ts.length).map (fun i => "p" ++ toString i)).zip vs)
    | .struct _ id fs, vs => .obj (n.id ++ id) ((fs.map (·.name)).zip vs)

/-- Swift: a struct, or a case of the enum. -/
def swiftMakes (x : ExtF) : Makes where
  struct n vs := .obj n.id ((n.fields.map (fun f => x.camel f.name)).zip vs)
  enum n i vs := .case n.id (x.camel i.id) vs

mutual
/-- The default value of a type: zero, `false`, the empty string, the empty list, all fields of a struct at their
default values, the first variant of an enum with default values. -/
inductive IsDefault (M : Makes) (S : List ASTNode) : TypeId → MVal → Prop
  | integer {n w s} : IsDefault M S (.integer n w s) (.number 0)
  | number {n w} : IsDefault M S (.number n w) (.number 0)
  | bool {n} : IsDefault M S (.bool n) (.bool false)
  /-- where there is a type `char` with literals of numbers -/
  | char {n} : IsDefault M S (.char n) (.number 0)
  | string : ¬ Own S "String" → IsDefault M S (.other "String") (.str "")
  | bareList : ¬ Own S "Vec" → IsDefault M S (.other "Vec") .list
  | list {ts} : IsDefault M S (.generic "Vec" ts) .list
  | lib {id} : ¬ Own S id → id ≠ "String" → id ≠ "Vec" → ¬ IsAddress id → IsDefault M S (.other id) (.lib id)
  | generic {c ts} : c ≠ "Vec" → IsDefault M S (.generic c ts) (.lib c)
  | struct {n vs} : .struct n ∈ S → AreDefaults M S (n.fields.map (·.typeId)) vs → IsDefault M S (.other n.id) (M.struct n vs)
  | enum {n i vs} : .enum n ∈ S → i ∈ n.items.head? → AreDefaults M S ((payload i).map (·.2)) vs →
      IsDefault M S (.other n.id) (M.enum n i vs)
inductive AreDefaults (M : Makes) (S : List ASTNode) : List TypeId → List MVal → Prop
  | nil : AreDefaults M S [] []
  | cons {t v ts vs} : IsDefault M S t v → AreDefaults M S ts vs → AreDefaults M S (t :: ts) (v :: vs)
end

/-- The default value of a type is finite: no type is needed for its own default value. -/
inductive Grounded (S : List ASTNode) : String → Prop
  | mk {id} : (∀ d ∈ S, declName d = some id → ∀ t, .other t ∈ defaulted d → Own S t → Grounded S t) → Grounded S id

end TPB.Spec
