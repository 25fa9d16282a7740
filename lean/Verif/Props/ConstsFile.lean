/-
Property theorems about constants in whole files: C40.

`readRust`, `readDart`, `schemaConsts`: as in `Props/Consts.lean`; `StripsTo`: as in `Props/Output.lean`.
-/
import Verif.Props.Consts
import Verif.Props.Output
namespace TPB.Props
open Spec

theorem hasConsts_of_consts {S : List ASTNode} {c : SchemaConst} (h : c ∈ schemaConsts S) : hasConsts S = true := by
  obtain ⟨d, hd, hc⟩ := List.mem_flatMap.1 h
  refine List.any_eq_true.2 ⟨d, hd, ?_⟩
  cases d <;> first | rfl | simp [declConsts] at hc

/-- **C40, in the Rust file (partial).** Whatever sections are switched off, a generated Rust file contains a text that
declares exactly the constants of the schema, in order, with their paths, names, types and values.  Exclusions: as in
`C40_rust_partial`. -/
theorem C40_rust_file_partial {V : Type} (num : String → V) (x : Ext) (hfmt : ∀ t, num (x.fmtF64 t) = num t)
    (S : List ASTNode) (hl : ∀ d ∈ S, LegalDecl d)
    (hnum : ∀ c ∈ schemaConsts S, ∀ t, c.value = .num t → IsFraction (x.fmtF64 t).toList)
    (hstr : ∀ c ∈ schemaConsts S, ∀ s, c.value = .str s → '\\' ∉ s.toList ∧ '\r' ∉ s.toList ∧ '"' ∉ s.toList)
    (hne : schemaConsts S ≠ []) (m b r : Bool) (file : String) (h : RustGen.generate x S m b r = .ok file) :
    ∃ before text after rs, StripsTo (before ++ text ++ after) file ∧ readRust text = some rs ∧
      rs.length = (schemaConsts S).length ∧
      ∀ (i : Nat) (c : SchemaConst), (schemaConsts S)[i]? = some c → ∃ r : RustConst, rs[i]? = some r ∧
        r.path = c.path ∧ r.name = c.name ∧ SameValue num r.value c.value ∧
        (∀ a, isAddress c.type = some a → r.type = runtimeToks a ∧ r.ctor = some (runtimeToks a)) ∧
        (isAddress c.type = none → r.type = typeToks c.type ∧ r.ctor = none) := by
  obtain ⟨uses, M, R, -, -, -, hs⟩ := C38_rust_sections x S m b r file h
  obtain ⟨rs, h1, h2, h3⟩ := C40_rust_partial num x hfmt S hl hnum hstr
  obtain ⟨c, hc⟩ := List.exists_mem_of_ne_nil _ hne
  rw [hasConsts_of_consts hc] at hs
  refine ⟨rustHead ++ rustImports (hasMethods S) b r ++ uses ++ "\n", RustGen.consts x S,
    on m M ++ on b (RustGen.buffers S) ++ on r R, rs, ?_, h1, h2, h3⟩
  simpa only [on, if_true, String.append_assoc] using hs

/-- **C40, in the Dart file (partial).** Whatever sections are switched off, a generated Dart file contains a text with a
class for every block, in which the expression `a.b.C` has the value of the constant.  Exclusions: as in
`C40_dart_partial`. -/
theorem C40_dart_file_partial {V : Type} (num : String → V) (x : Ext) (hfmt : ∀ t, num (x.fmtF64 t) = num t)
    (S : List ASTNode) (hl : ∀ d ∈ S, LegalDecl d)
    (hb : ∀ p ∈ schemaBlocks S, ∀ n ∈ p.getLast?, IsIdent (x.camel n).toList ∧ Wordy (x.pascal n))
    (hc : ∀ c ∈ schemaConsts S, IsIdent (x.camel c.name).toList)
    (hnum : ∀ c ∈ schemaConsts S, ∀ t, c.value = .num t → IsFraction (x.fmtF64 t).toList)
    (hstr : ∀ c ∈ schemaConsts S, ∀ s, c.value = .str s →
      '\\' ∉ s.toList ∧ '$' ∉ s.toList ∧ '\n' ∉ s.toList ∧ '\r' ∉ s.toList ∧ '"' ∉ s.toList)
    (hne : schemaConsts S ≠ []) (m b r : Bool) (file : String) (h : DartGen.generate x S m b r = .ok file) :
    ∃ before text after L, StripsTo (before ++ text ++ after) file ∧ readDart text = some L ∧
      L.classes.length = (schemaBlocks S).length ∧
      (L.Distinct → ∀ c ∈ schemaConsts S, ∃ v, L.eval ((c.path ++ [c.name]).map x.camel) = some v ∧
        SameValue num v c.value) := by
  obtain ⟨uses, M, B, R, -, -, -, -, hs⟩ := C38_dart_sections x S m b r file h
  obtain ⟨L, h1, h2, h3⟩ := C40_dart_partial num x hfmt S hl hb hc hnum hstr
  obtain ⟨c, hcm⟩ := List.exists_mem_of_ne_nil _ hne
  rw [hasConsts_of_consts hcm] at hs
  refine ⟨dartHead ++ dartImports (hasMethods S) b r ++ uses ++ "\n", DartGen.consts x S, on m M ++ on b B ++ on r R,
    L, ?_, h1, h2, h3⟩
  simpa only [on, if_true, String.append_assoc] using hs

/-- Non-vacuity: the file generated for `constSample` with all other sections switched off. -/
example : schemaConsts constSample ≠ [] ∧ (RustGen.generate testExt constSample false false false).toOption.isSome = true ∧
    (DartGen.generate testExt constSample false false false).toOption.isSome = true :=
  ⟨by decide, by decide +kernel, by decide +kernel⟩

end TPB.Props
