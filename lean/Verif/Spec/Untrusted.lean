/-
Specification for reading bytes of unknown origin with the emitted Rust code: laws of the runtime library
about bytes that have not been written by it, and conditions on the schema.
-/
import Verif.Sem.RustEval
namespace TPB.Rust
open Spec

/-- What a reader of the library returns is a value of its type (for external types and containers: one that
the library can write), and it takes its bytes from the front. -/
structure Runtime.Typed (rt : Runtime) : Prop where
  prim : ∀ t p bs v r, WFType t → builtin? t = some p → rt.readP p bs = some (v, r) → LeafVal t v ∧ r <:+ bs
  ext : ∀ id bs v r, rt.readX id bs = some (v, r) → (rt.wire.ext id v).isSome ∧ r <:+ bs
  head : ∀ c bs s r, rt.readH c bs = some (s, r) → (rt.wire.head c s).isSome ∧ r <:+ bs

/-- The readers of the library accept only what its writers write. -/
structure Runtime.Canonical (rt : Runtime) : Prop where
  prim : ∀ p bs v r, rt.readP p bs = some (v, r) → ∃ b, rt.wire.prim p v = some b ∧ bs = b ++ r
  ext : ∀ id bs v r, rt.readX id bs = some (v, r) → ∃ b, rt.wire.ext id v = some b ∧ bs = b ++ r
  head : ∀ c bs s r, rt.readH c bs = some (s, r) → ∃ b, rt.wire.head c s = some b ∧ bs = b ++ r

/-- Variant numbers and headers of containers take at least one byte. -/
structure Runtime.Consumes (rt : Runtime) : Prop where
  tag : ∀ bs v r, rt.readP "u32" bs = some (v, r) → r.length < bs.length
  head : ∀ c bs s r, rt.readH c bs = some (s, r) → r.length < bs.length

/-- Each container has the type arguments that the library asks for. -/
inductive ContainersOk (W : Wire) : TypeId → Prop
  | leaf (t : TypeId) : (∀ c gs, t ≠ .generic c gs) → ContainersOk W t
  | generic (c : String) (gs : List TypeId) : (∀ s, (pick gs (W.sub c s)).isSome) → (∀ g ∈ gs, ContainersOk W g) →
      ContainersOk W (.generic c gs)

/-- No struct contains itself directly, and containers are complete. -/
structure SafeToRead (W : Wire) (S : List ASTNode) : Prop where
  finite : ∃ rank : String → Nat, ∀ n, .struct n ∈ S → ∀ m, .struct m ∈ S → .other m.id ∈ (fieldsOf n).map (·.2) → rank m.id < rank n.id
  fields : ∀ n, .struct n ∈ S → ∀ t ∈ (fieldsOf n).map (·.2), ContainersOk W t
  payloads : ∀ n, .enum n ∈ S → ∀ i ∈ n.items, ∀ t ∈ (payload i).map (·.2), ContainersOk W t

/-- The library `rt` with readers that refuse what they would not write. -/
def Runtime.strict (rt : Runtime) : Runtime where
  wire := rt.wire
  readP p bs := (rt.readP p bs).filter (fun q => (rt.wire.prim p q.1).map (· ++ q.2) == some bs)
  readX id bs := (rt.readX id bs).filter (fun q => (rt.wire.ext id q.1).map (· ++ q.2) == some bs)
  readH c bs := (rt.readH c bs).filter (fun q => (rt.wire.head c q.1).map (· ++ q.2) == some bs)

end TPB.Rust
