/-
How the payload of a variant is passed to the Dart methods `createV` and `toV`.
-/
import Verif.Sem.DartMethods
namespace TPB.Spec

/-- The arguments that give the payload `ds` of the variant: in order for a variant without field names, by the
names of the fields, in any order, for a variant with field names. -/
def CallArgs (x : Ext) (i : EnumItem) (ds : List Val) : Dart.Args → Prop
  | .positional as => (∀ p id fs, i ≠ .struct p id fs) ∧ as = ds
  | .named as => (∃ p id fs, i = .struct p id fs) ∧ as.Perm ((dartPayloadNames x i).zip ds)

end TPB.Spec
