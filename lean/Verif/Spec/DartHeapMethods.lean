/-
How the objects of a payload are passed to the Dart methods `createV` and `toV`: as in `Spec/DartMethods.lean`, but
with references.
-/
import Verif.Sem.DartHeapMethods
namespace TPB.Spec
open Dart (Ref)

/-- The arguments that give the objects `rs` as the payload of the variant: in order for a variant without field
names, by the names of the fields, in any order, for a variant with field names. -/
def CallRefs (x : Ext) (i : EnumItem) (rs : List Ref) : Dart.HArgs → Prop
  | .positional as => (∀ p id fs, i ≠ .struct p id fs) ∧ as = rs
  | .named as => (∃ p id fs, i = .struct p id fs) ∧ as.Perm ((dartPayloadNames x i).zip rs)

end TPB.Spec
