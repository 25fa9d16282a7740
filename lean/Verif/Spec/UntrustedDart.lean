/-
Specification for reading bytes of unknown origin with the emitted Dart code: laws of the runtime library
about bytes that have not been written by it.
-/
import Verif.Sem.DartEval
namespace TPB.Dart
open Spec

/-- What a reader of the library returns is in the range of its type (for external types and lists: something
that the library can write), and it takes its bytes from the front. -/
structure Runtime.Typed (rt : Runtime) : Prop where
  prim : ∀ m t bs v r, dartPrims.lookup m = some t → rt.readP m bs = some (v, r) → LeafVal t v ∧ r <:+ bs
  ext : ∀ id bs v r, rt.readX id bs = some (v, r) → (rt.writeX id v).isSome ∧ r <:+ bs
  empl : ∀ id old bs v r, rt.emplX id old bs = some (v, r) → (rt.writeX id v).isSome ∧ r <:+ bs
  len : ∀ bs n r, rt.readL bs = some (n, r) → (rt.writeL n).isSome ∧ r <:+ bs

/-- The readers of the library accept only what its writers write. -/
structure Runtime.Canonical (rt : Runtime) : Prop where
  prim : ∀ m t bs v r, dartPrims.lookup m = some t → rt.readP m bs = some (v, r) →
    LeafVal t v ∧ ∃ b, rt.writeP m v = some b ∧ bs = b ++ r
  ext : ∀ id bs v r, rt.readX id bs = some (v, r) → ∃ b, rt.writeX id v = some b ∧ bs = b ++ r
  empl : ∀ id old bs v r, rt.emplX id old bs = some (v, r) → ∃ b, rt.writeX id v = some b ∧ bs = b ++ r
  len : ∀ bs n r, rt.readL bs = some (n, r) → ∃ b, rt.writeL n = some b ∧ bs = b ++ r

/-- The header of a list takes at least one byte. -/
def Runtime.Consumes (rt : Runtime) : Prop := ∀ bs n r, rt.readL bs = some (n, r) → r.length < bs.length

/-- The library `rt` with readers that refuse what they would not write. -/
def Runtime.strict (rt : Runtime) : Runtime where
  writeP := rt.writeP
  readP m bs := (rt.readP m bs).filter (fun q => (rt.writeP m q.1).map (· ++ q.2) == some bs)
  writeX := rt.writeX
  readX id bs := (rt.readX id bs).filter (fun q => (rt.writeX id q.1).map (· ++ q.2) == some bs)
  emplX id old bs := (rt.emplX id old bs).filter (fun q => (rt.writeX id q.1).map (· ++ q.2) == some bs)
  skipX := rt.skipX
  writeL := rt.writeL
  readL bs := (rt.readL bs).filter (fun q => (rt.writeL q.1).map (· ++ q.2) == some bs)
  newX := rt.newX

/-- With enough stack, reading a value of type `t` from `bs` throws. -/
def ReadThrows (rt : Runtime) (P : Prog) (t : TypeId) (bs : Bytes) : Prop :=
  ∃ N, ∀ k, N ≤ k → readT rt P k t bs = .error .throws

end TPB.Dart
