/-
A concrete library for `Spec/UntrustedDart.lean`: the little-endian library with readers that refuse what they
would not write.
-/
import Verif.Spec.UntrustedDart
import Verif.Sem.LittleEndianDart
import Verif.Proofs.UntrustedLE
namespace TPB.Dart
open Spec
open Rust (strict_some some_strict)

/-- What a lawful library writes is still read by the restricted library. -/
theorem strict_lawful {rt : Runtime} (h : rt.Lawful) : rt.strict.Lawful where
  total := h.total
  prim m t v b r hm hv hb := some_strict (h.prim m t v b r hm hv hb) hb
  range m t v bs r hm hr := h.range m t v bs r hm (strict_some hr).1
  ext id v b r hb := some_strict (h.ext id v b r hb) hb
  empl id v b r old hb := some_strict (h.empl id v b r old hb) hb
  skip := h.skip
  len n b r hb := some_strict (h.len n b r hb) hb
  new := h.new

/-- The restricted library accepts only what is written. -/
theorem strict_canonical {rt : Runtime} (h : rt.Lawful) : rt.strict.Canonical where
  prim m t bs v r hm hr := ⟨h.range m t v bs r hm (strict_some hr).1, (strict_some hr).2⟩
  ext _ _ _ _ hr := (strict_some hr).2
  empl _ _ _ _ _ hr := (strict_some hr).2
  len _ _ _ hr := (strict_some hr).2

/-- A library that accepts only what it writes returns what can be written. -/
theorem Runtime.Canonical.typed {rt : Runtime} (h : rt.Canonical) : rt.Typed where
  prim m t bs v r hm hr := by
    obtain ⟨h1, b, -, rfl⟩ := h.prim m t bs v r hm hr
    exact ⟨h1, List.suffix_append b r⟩
  ext id bs v r hr := by
    obtain ⟨b, h1, rfl⟩ := h.ext id bs v r hr
    exact ⟨by simp [h1], List.suffix_append b r⟩
  empl id old bs v r hr := by
    obtain ⟨b, h1, rfl⟩ := h.empl id old bs v r hr
    exact ⟨by simp [h1], List.suffix_append b r⟩
  len bs n r hr := by
    obtain ⟨b, h1, rfl⟩ := h.len bs n r hr
    exact ⟨by simp [h1], List.suffix_append b r⟩

theorem le_strict_consumes : LE.dart.strict.Consumes := by
  intro bs n r h
  obtain ⟨-, b, h1, rfl⟩ := strict_some h
  simp only [LE.dart] at h1
  split at h1
  · simp only [Option.some.injEq] at h1
    subst h1
    simp [LE.le_length]
  · simp at h1

end TPB.Dart
