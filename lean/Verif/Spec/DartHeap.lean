/-
What Dart objects in memory stand for, and when they share parts.  Written from the schema alone.
-/
import Verif.Sem.DartHeap
namespace TPB.Spec
open Dart (Ref Cell Heap)

/-- The classes of the generated Dart models with the names and types of their fields: a class for each struct,
and for each enum one with a field `value` and one field for the payload of every variant, and a class for each
payload. -/
def dartObjects (x : Ext) (T : List ASTNode) : List (String × List (String × TypeId)) :=
  T.flatMap (fun
    | .struct n => [(n.id, (dartFieldNames x n).zip ((fieldsOf n).map (·.2)))]
    | .enum n =>
      (n.id, ("value", .other (n.id ++ "Value")) :: n.items.map (fun i => (x.camel i.id, .other (n.id ++ i.id))))
        :: n.items.map (fun i => (n.id ++ i.id, (dartPayloadNames x i).zip ((payload i).map (·.2))))
    | _ => [])

/-- `Stored sep x T h ts rs vs fp`: in the memory `h` the references `rs` of the types `ts` stand for the objects
`vs` (seen as values), and `fp` are all objects that can be reached from them.  If `sep` holds, no object can be
reached in two ways. -/
inductive Stored (sep : Prop) (x : Ext) (T : List ASTNode) (h : Heap) :
    List TypeId → List Ref → List Val → List Ref → Prop
  | nil : Stored sep x T h [] [] [] []
  | val (t : TypeId) (r : Ref) (v : Val) (ts : List TypeId) (rs : List Ref) (vs : List Val) (g : List Ref) :
      (∀ c ∈ dartObjects x T, t ≠ .other c.1) → (∀ e, t ≠ .generic "Vec" [e]) → h[r]? = some (.val v) →
      Stored sep x T h ts rs vs g → (sep → r ∉ g) → Stored sep x T h (t :: ts) (r :: rs) (v :: vs) (r :: g)
  | list (e : TypeId) (r : Ref) (n : Nat) (es : List Ref) (is : List Val) (f : List Ref) (ts : List TypeId)
      (rs : List Ref) (vs : List Val) (g : List Ref) : (h[r]?).bind Cell.elems = some (n, es) →
      Stored sep x T h (List.replicate es.length e) es is f → Stored sep x T h ts rs vs g →
      (sep → r ∉ f ∧ r ∉ g ∧ ∀ q ∈ f, q ∉ g) →
      Stored sep x T h (.generic "Vec" [e] :: ts) (r :: rs) (.list n is :: vs) (r :: (f ++ g))
  | obj (cls : String) (fs : List (String × TypeId)) (r : Ref) (as : List Ref) (is : List Val) (f : List Ref)
      (ts : List TypeId) (rs : List Ref) (vs : List Val) (g : List Ref) : (cls, fs) ∈ dartObjects x T →
      h[r]? = some (.obj cls ((fs.map (·.1)).zip as)) → Stored sep x T h (fs.map (·.2)) as is f →
      Stored sep x T h ts rs vs g → (sep → r ∉ f ∧ r ∉ g ∧ ∀ q ∈ f, q ∉ g) →
      Stored sep x T h (.other cls :: ts) (r :: rs) (.struct cls ((fs.map (·.1)).zip is) :: vs) (r :: (f ++ g))

/-- The names of payload classes contain no `<`. -/
def VariantsPlain (S : List ASTNode) : Prop := ∀ c ∈ variantClasses S, '<' ∉ c.toList

end TPB.Spec
