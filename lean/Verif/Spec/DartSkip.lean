/-
What the emitted `skip` methods of Dart pass over.  It differs from the wire layout (`Enc`) in the order of
fields: fields whose type is given by a name are passed over before all other fields.  Written from the schema
alone.
-/
import Verif.Spec.Dart
namespace TPB.Spec

/-- The type is given by a name (and not a built-in type or a generic type). -/
def isNamed : TypeId → Bool
  | .other _ => true
  | _ => false

/-- Types given by a name come first; otherwise the order is kept. -/
def namedFirst (ts : List TypeId) : List TypeId := ts.filter isNamed ++ ts.filter (fun t => !isNamed t)

/-- `Walked W S ts bs`: passing over one value of each of the types `ts` (as written in the schema) passes over
the bytes `bs`. -/
inductive Walked (W : Wire) (S : List ASTNode) : List TypeId → Bytes → Prop
  | nil : Walked W S [] []
  | leaf (t : TypeId) (p : String) (v : Val) (b : Bytes) (ts : List TypeId) (bs : Bytes) :
      builtin? (dartView t) = some p → W.prim p v = some b → Walked W S ts bs → Walked W S (t :: ts) (b ++ bs)
  | struct (n : StructNode) (b : Bytes) (ts : List TypeId) (bs : Bytes) :
      .struct n ∈ S → Walked W S (namedFirst ((fieldsOf n).map (·.2))) b → Walked W S ts bs → Walked W S (.other n.id :: ts) (b ++ bs)
  | enum (n : EnumNode) (i : EnumItem) (tag b : Bytes) (ts : List TypeId) (bs : Bytes) :
      .enum n ∈ S → i ∈ n.items → W.prim "u32" (.int i.position) = some tag →
      Walked W S (namedFirst ((payload i).map (·.2))) b → Walked W S ts bs → Walked W S (.other n.id :: ts) (tag ++ b ++ bs)
  | list (g : TypeId) (n : Nat) (h b : Bytes) (ts : List TypeId) (bs : Bytes) :
      W.head "Vec" n = some h → Walked W S (List.replicate n (.other (dartElem g))) b → Walked W S ts bs →
      Walked W S (.generic "Vec" [g] :: ts) (h ++ b ++ bs)
  | ext (t : TypeId) (id : String) (v : Val) (b : Bytes) (ts : List TypeId) (bs : Bytes) :
      dartView t = .other id → id ∉ typeNames S → W.ext id v = some b → Walked W S ts bs → Walked W S (t :: ts) (b ++ bs)

end TPB.Spec
