/-
A concrete library for `Spec/Untrusted.lean`: the little-endian library with readers that refuse what they
would not write.
-/
import Verif.Spec.Untrusted
import Verif.Sem.LittleEndian
namespace TPB.Rust
open Spec

theorem strict_some {α : Type} {o : Option (α × Bytes)} {f : α → Option Bytes} {bs r : Bytes} {v : α}
    (h : o.filter (fun q => (f q.1).map (· ++ q.2) == some bs) = some (v, r)) :
    o = some (v, r) ∧ ∃ b, f v = some b ∧ bs = b ++ r := by
  rw [Option.filter_eq_some_iff] at h
  refine ⟨h.1, ?_⟩
  have h2 := h.2
  simp only [beq_iff_eq, Option.map_eq_some_iff] at h2
  obtain ⟨b, h3, h4⟩ := h2
  exact ⟨b, h3, h4.symm⟩

theorem some_strict {α : Type} {o : Option (α × Bytes)} {f : α → Option Bytes} {b r : Bytes} {v : α}
    (h : o = some (v, r)) (hf : f v = some b) :
    o.filter (fun q => (f q.1).map (· ++ q.2) == some (b ++ r)) = some (v, r) := by
  subst h
  simp [hf]

/-- The restricted library accepts only what is written. -/
theorem strict_canonical (rt : Runtime) : rt.strict.Canonical where
  prim _ _ _ _ h := (strict_some h).2
  ext _ _ _ _ h := (strict_some h).2
  head _ _ _ _ h := (strict_some h).2

/-- What a lawful library writes is still read by the restricted library. -/
theorem strict_lawful {rt : Runtime} (h : rt.Lawful) : rt.strict.Lawful where
  wire := h.wire
  prim p v b r hb := some_strict (h.prim p v b r hb) hb
  ext id v b r hb := some_strict (h.ext id v b r hb) hb
  head c s b r hb := some_strict (h.head c s b r hb) hb

theorem le_strict_typed : LE.rust.strict.Typed where
  prim t p bs v r ht hp h := by
    obtain ⟨-, b, h1, rfl⟩ := strict_some h
    refine ⟨?_, List.suffix_append b r⟩
    cases ht with
    | generic n as _ _ => simp [builtin?] at hp
    | name n =>
      obtain ⟨rfl, hl⟩ := LE.lookup_typeOfName hp
      simp only [LE.rust, LE.wire, hl] at h1
      revert h1
      generalize typeOfName p = t
      intro h1
      cases t with
      | integer id size s =>
        cases s <;> cases v <;> simp only [LE.primOf, reduceCtorEq] at h1 <;> split at h1 <;>
          first | assumption | simp at h1
      | number id size =>
        cases v <;> simp only [LE.primOf, reduceCtorEq] at h1
        split at h1 <;> first | assumption | simp at h1
      | bool id =>
        cases v <;> simp only [LE.primOf, reduceCtorEq] at h1
        trivial
      | char id =>
        cases v <;> simp only [LE.primOf, reduceCtorEq] at h1
        split at h1 <;> first | assumption | simp at h1
      | generic _ _ => simp [LE.primOf] at h1
      | other _ => simp [LE.primOf] at h1
  ext id bs v r h := by
    obtain ⟨-, b, h1, rfl⟩ := strict_some h
    exact ⟨by rw [show LE.rust.strict.wire.ext id v = LE.rust.wire.ext id v from rfl, h1]; rfl, List.suffix_append b r⟩
  head c bs s r h := by
    obtain ⟨-, b, h1, rfl⟩ := strict_some h
    exact ⟨by rw [show LE.rust.strict.wire.head c s = LE.rust.wire.head c s from rfl, h1]; rfl, List.suffix_append b r⟩

theorem le_strict_consumes : LE.rust.strict.Consumes where
  tag bs v r h := by
    obtain ⟨-, b, h1, rfl⟩ := strict_some h
    have e : builtinTypes.lookup "u32" = some (.integer "u32" 4 false) := rfl
    simp only [LE.rust, LE.wire, e] at h1
    cases v <;> simp only [LE.primOf, reduceCtorEq] at h1
    split at h1
    · simp only [Option.some.injEq] at h1
      subst h1
      simp [LE.le_length]
    · simp at h1
  head c bs s r h := by
    obtain ⟨-, b, h1, rfl⟩ := strict_some h
    simp only [LE.rust, LE.wire] at h1
    split at h1
    · simp only [Option.some.injEq] at h1
      subst h1
      simp [LE.le_length]
    · simp at h1

end TPB.Rust
