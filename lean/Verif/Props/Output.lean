/-
Property theorems about whole generated files: C38, C39.

`StripsTo t s`: `s` is `t` without the blank lines at its end; `on b t`: a blank line and the section
`t` if `b`; the import blocks are spelled out in `Spec/Output.lean`.
-/
import Verif.Proofs.OutputEnd
import Verif.Props.Parser
import Verif.Model.ToCase
namespace TPB.Props
open Spec

/-! ## C38: section switches -/

theorem C38_rust_sections (x : Ext) (S : List ASTNode) (m b r : Bool) (s : String)
    (h : RustGen.generate x S m b r = .ok s) :
    ∃ uses M R, importLines "use " ";" (givenValues S "rust" "use") = some uses ∧
      (m = true → RustGen.models S = .ok M) ∧ (r = true → RustGen.rpc S = .ok R) ∧
      StripsTo (rustHead ++ rustImports (hasMethods S) b r ++ uses
        ++ on (hasConsts S) (RustGen.consts x S) ++ on m M ++ on b (RustGen.buffers S) ++ on r R) s := by
  rw [rust_generate_eq] at h
  split at h
  · simp at h
  · rename_i uses hu
    split at h
    · simp at h
    · rename_i M hM
      split at h
      · simp at h
      · rename_i R hR
        simp only [Except.ok.injEq] at h
        subst h
        refine ⟨uses, M, R, hu, fun e => by simpa [e] using hM, fun e => by simpa [e] using hR, trimAll_strips _⟩

theorem C38_dart_sections (x : Ext) (S : List ASTNode) (m b r : Bool) (s : String)
    (h : DartGen.generate x S m b r = .ok s) :
    ∃ uses M B R, importLines "import '" "';" (givenValues S "dart" "import") = some uses ∧
      (m = true → DartGen.models x S = .ok M) ∧ (b = true → DartGen.buffers x S = .ok B) ∧
      (r = true → DartGen.rpcMethods x S = .ok R) ∧
      StripsTo (dartHead ++ dartImports (hasMethods S) b r ++ uses
        ++ on (hasConsts S) (DartGen.consts x S) ++ on m M ++ on b B ++ on r R) s := by
  rw [dart_generate_eq] at h
  split at h
  · simp at h
  · rename_i uses hu
    split at h
    · simp at h
    · rename_i M hM
      split at h
      · simp at h
      · rename_i B hB
        split at h
        · simp at h
        · rename_i R hR
          simp only [Except.ok.injEq] at h
          subst h
          exact ⟨uses, M, B, R, hu, fun e => by simpa [e] using hM, fun e => by simpa [e] using hB,
            fun e => by simpa [e] using hR, trimAll_strips _⟩

/-- Turning the models off removes exactly the models section. -/
theorem C38_rust_models_off (x : Ext) (S : List ASTNode) (b r : Bool) (s : String)
    (h : RustGen.generate x S true b r = .ok s) :
    ∃ pre M post s', RustGen.models S = .ok M ∧ RustGen.generate x S false b r = .ok s' ∧
      StripsTo (pre ++ "\n" ++ M ++ post) s ∧ StripsTo (pre ++ post) s' := by
  rw [rust_generate_eq] at h
  rw [rust_generate_eq]
  split at h
  · simp at h
  · rename_i uses hu
    simp only [if_true] at h
    split at h
    · simp at h
    · rename_i M hM
      split at h
      · simp at h
      · rename_i R hR
        simp only [Except.ok.injEq] at h
        subst h
        refine ⟨rustHead ++ rustImports (hasMethods S) b r ++ uses
          ++ on (hasConsts S) (RustGen.consts x S), M, on b (RustGen.buffers S) ++ on r R,
          trimAll (rustHead ++ rustImports (hasMethods S) b r ++ uses
          ++ on (hasConsts S) (RustGen.consts x S) ++ on b (RustGen.buffers S) ++ on r R), hM, ?_, ?_, ?_⟩
        · simp [hR, on]
        · have := trimAll_strips (rustHead ++ rustImports (hasMethods S) b r ++ uses
            ++ on (hasConsts S) (RustGen.consts x S) ++ on true M ++ on b (RustGen.buffers S) ++ on r R)
          have e : on true M = "\n" ++ M := rfl
          rw [e] at this ⊢
          simpa only [String.append_assoc] using this
        · have := trimAll_strips (rustHead ++ rustImports (hasMethods S) b r ++ uses
            ++ on (hasConsts S) (RustGen.consts x S) ++ on b (RustGen.buffers S) ++ on r R)
          simpa only [String.append_assoc] using this

/-- Turning the buffers off removes exactly the buffers section, and the serialization import unless
RPC code still needs it. -/
theorem C38_rust_buffers_off (x : Ext) (S : List ASTNode) (m r : Bool) (s : String)
    (h : RustGen.generate x S m true r = .ok s) :
    ∃ imports imports' mid post s', RustGen.generate x S m false r = .ok s' ∧
      StripsTo (rustHead ++ imports ++ mid ++ "\n" ++ RustGen.buffers S ++ post) s ∧
      StripsTo (rustHead ++ imports' ++ mid ++ post) s' ∧
      (imports, imports') = (if r && hasMethods S then (rustRpcImports, rustRpcImports)
        else (rustBuffersImport, "")) := by
  rw [rust_generate_eq] at h
  rw [rust_generate_eq]
  split at h
  · simp at h
  · rename_i uses hu
    split at h
    · simp at h
    · rename_i M hM
      split at h
      · simp at h
      · rename_i R hR
        simp only [Except.ok.injEq] at h
        subst h
        refine ⟨rustImports (hasMethods S) true r, rustImports (hasMethods S) false r,
          uses ++ on (hasConsts S) (RustGen.consts x S) ++ on m M, on r R,
          trimAll (rustHead ++ rustImports (hasMethods S) false r ++ uses
          ++ on (hasConsts S) (RustGen.consts x S) ++ on m M ++ on r R), ?_, ?_, ?_, ?_⟩
        · simp [hM, hR, on]
        · have := trimAll_strips (rustHead ++ rustImports (hasMethods S) true r ++ uses
            ++ on (hasConsts S) (RustGen.consts x S) ++ on m M ++ on true (RustGen.buffers S) ++ on r R)
          have e : on true (RustGen.buffers S) = "\n" ++ RustGen.buffers S := rfl
          rw [e] at this ⊢
          simpa only [String.append_assoc] using this
        · have := trimAll_strips (rustHead ++ rustImports (hasMethods S) false r ++ uses
            ++ on (hasConsts S) (RustGen.consts x S) ++ on m M ++ on r R)
          simpa only [String.append_assoc] using this
        · unfold rustImports
          cases (r && hasMethods S) <;> rfl

/-- Turning RPC off removes exactly the RPC section, and the imports that only it needs. -/
theorem C38_rust_rpc_off (x : Ext) (S : List ASTNode) (m b : Bool) (s : String)
    (h : RustGen.generate x S m b true = .ok s) :
    ∃ imports imports' mid R s', RustGen.rpc S = .ok R ∧ RustGen.generate x S m b false = .ok s' ∧
      StripsTo (rustHead ++ imports ++ mid ++ "\n" ++ R) s ∧ StripsTo (rustHead ++ imports' ++ mid) s' ∧
      imports' = (if b then rustBuffersImport else "") ∧
      imports = (if hasMethods S then rustRpcImports else imports') := by
  rw [rust_generate_eq] at h
  rw [rust_generate_eq]
  split at h
  · simp at h
  · rename_i uses hu
    split at h
    · simp at h
    · rename_i M hM
      simp only [if_true] at h
      split at h
      · simp at h
      · rename_i R hR
        simp only [Except.ok.injEq] at h
        subst h
        refine ⟨rustImports (hasMethods S) b true, rustImports (hasMethods S) b false,
          uses ++ on (hasConsts S) (RustGen.consts x S) ++ on m M ++ on b (RustGen.buffers S), R,
          trimAll (rustHead ++ rustImports (hasMethods S) b false ++ uses
          ++ on (hasConsts S) (RustGen.consts x S) ++ on m M ++ on b (RustGen.buffers S)), hR, ?_, ?_, ?_, ?_, ?_⟩
        · simp [hM, on]
        · have := trimAll_strips (rustHead ++ rustImports (hasMethods S) b true ++ uses
            ++ on (hasConsts S) (RustGen.consts x S) ++ on m M ++ on b (RustGen.buffers S) ++ on true R)
          have e : on true R = "\n" ++ R := rfl
          rw [e] at this ⊢
          simpa only [String.append_assoc] using this
        · have := trimAll_strips (rustHead ++ rustImports (hasMethods S) b false ++ uses
            ++ on (hasConsts S) (RustGen.consts x S) ++ on m M ++ on b (RustGen.buffers S))
          simpa only [String.append_assoc] using this
        · simp [rustImports]
        · unfold rustImports
          cases hasMethods S <;> simp

/-- A section that is switched off cannot make the generation fail: generation fails exactly when a
user import is not a string or an enabled section fails. -/
theorem C38_rust_failures (x : Ext) (S : List ASTNode) (m b r : Bool) :
    (∃ e, RustGen.generate x S m b r = .error e) ↔
      importLines "use " ";" (givenValues S "rust" "use") = none ∨
      (m = true ∧ ∃ e, RustGen.models S = .error e) ∨ (r = true ∧ ∃ e, RustGen.rpc S = .error e) := by
  rw [rust_generate_eq]
  cases importLines "use " ";" (givenValues S "rust" "use") with
  | none => simp
  | some uses =>
    cases m <;> cases r <;> cases RustGen.models S <;> cases RustGen.rpc S <;> simp

theorem C38_dart_models_off (x : Ext) (S : List ASTNode) (b r : Bool) (s : String)
    (h : DartGen.generate x S true b r = .ok s) :
    ∃ pre M post s', DartGen.models x S = .ok M ∧ DartGen.generate x S false b r = .ok s' ∧
      StripsTo (pre ++ "\n" ++ M ++ post) s ∧ StripsTo (pre ++ post) s' := by
  rw [dart_generate_eq] at h
  rw [dart_generate_eq]
  split at h
  · simp at h
  · rename_i uses hu
    simp only [if_true] at h
    split at h
    · simp at h
    · rename_i M hM
      split at h
      · simp at h
      · rename_i B hB
        split at h
        · simp at h
        · rename_i R hR
          simp only [Except.ok.injEq] at h
          subst h
          refine ⟨dartHead ++ dartImports (hasMethods S) b r ++ uses
            ++ on (hasConsts S) (DartGen.consts x S), M, on b B ++ on r R,
            trimAll (dartHead ++ dartImports (hasMethods S) b r ++ uses
            ++ on (hasConsts S) (DartGen.consts x S) ++ on b B ++ on r R), hM, ?_, ?_, ?_⟩
          · simp [hB, hR, on]
          · have := trimAll_strips (dartHead ++ dartImports (hasMethods S) b r ++ uses
              ++ on (hasConsts S) (DartGen.consts x S) ++ on true M ++ on b B ++ on r R)
            have e : on true M = "\n" ++ M := rfl
            rw [e] at this ⊢
            simpa only [String.append_assoc] using this
          · have := trimAll_strips (dartHead ++ dartImports (hasMethods S) b r ++ uses
              ++ on (hasConsts S) (DartGen.consts x S) ++ on b B ++ on r R)
            simpa only [String.append_assoc] using this

theorem C38_dart_buffers_off (x : Ext) (S : List ASTNode) (m r : Bool) (s : String)
    (h : DartGen.generate x S m true r = .ok s) :
    ∃ imports imports' mid B post s', DartGen.buffers x S = .ok B ∧ DartGen.generate x S m false r = .ok s' ∧
      StripsTo (dartHead ++ imports ++ mid ++ "\n" ++ B ++ post) s ∧
      StripsTo (dartHead ++ imports' ++ mid ++ post) s' ∧
      (imports, imports') = (if r && hasMethods S then (dartRpcImports, dartRpcImports)
        else (dartBuffersImport, "")) := by
  rw [dart_generate_eq] at h
  rw [dart_generate_eq]
  split at h
  · simp at h
  · rename_i uses hu
    split at h
    · simp at h
    · rename_i M hM
      simp only [if_true] at h
      split at h
      · simp at h
      · rename_i B hB
        split at h
        · simp at h
        · rename_i R hR
          simp only [Except.ok.injEq] at h
          subst h
          refine ⟨dartImports (hasMethods S) true r, dartImports (hasMethods S) false r,
            uses ++ on (hasConsts S) (DartGen.consts x S) ++ on m M, B, on r R,
            trimAll (dartHead ++ dartImports (hasMethods S) false r ++ uses
            ++ on (hasConsts S) (DartGen.consts x S) ++ on m M ++ on r R), hB, ?_, ?_, ?_, ?_⟩
          · simp [hM, hR, on]
          · have := trimAll_strips (dartHead ++ dartImports (hasMethods S) true r ++ uses
              ++ on (hasConsts S) (DartGen.consts x S) ++ on m M ++ on true B ++ on r R)
            have e : on true B = "\n" ++ B := rfl
            rw [e] at this ⊢
            simpa only [String.append_assoc] using this
          · have := trimAll_strips (dartHead ++ dartImports (hasMethods S) false r ++ uses
              ++ on (hasConsts S) (DartGen.consts x S) ++ on m M ++ on r R)
            simpa only [String.append_assoc] using this
          · unfold dartImports
            cases (r && hasMethods S) <;> rfl

theorem C38_dart_rpc_off (x : Ext) (S : List ASTNode) (m b : Bool) (s : String)
    (h : DartGen.generate x S m b true = .ok s) :
    ∃ imports imports' mid R s', DartGen.rpcMethods x S = .ok R ∧ DartGen.generate x S m b false = .ok s' ∧
      StripsTo (dartHead ++ imports ++ mid ++ "\n" ++ R) s ∧ StripsTo (dartHead ++ imports' ++ mid) s' ∧
      imports' = (if b then dartBuffersImport else "") ∧
      imports = (if hasMethods S then dartRpcImports else imports') := by
  rw [dart_generate_eq] at h
  rw [dart_generate_eq]
  split at h
  · simp at h
  · rename_i uses hu
    split at h
    · simp at h
    · rename_i M hM
      split at h
      · simp at h
      · rename_i B hB
        simp only [if_true] at h
        split at h
        · simp at h
        · rename_i R hR
          simp only [Except.ok.injEq] at h
          subst h
          refine ⟨dartImports (hasMethods S) b true, dartImports (hasMethods S) b false,
            uses ++ on (hasConsts S) (DartGen.consts x S) ++ on m M ++ on b B, R,
            trimAll (dartHead ++ dartImports (hasMethods S) b false ++ uses
            ++ on (hasConsts S) (DartGen.consts x S) ++ on m M ++ on b B), hR, ?_, ?_, ?_, ?_, ?_⟩
          · simp [hM, hB, on]
          · have := trimAll_strips (dartHead ++ dartImports (hasMethods S) b true ++ uses
              ++ on (hasConsts S) (DartGen.consts x S) ++ on m M ++ on b B ++ on true R)
            have e : on true R = "\n" ++ R := rfl
            rw [e] at this ⊢
            simpa only [String.append_assoc] using this
          · have := trimAll_strips (dartHead ++ dartImports (hasMethods S) b false ++ uses
              ++ on (hasConsts S) (DartGen.consts x S) ++ on m M ++ on b B)
            simpa only [String.append_assoc] using this
          · simp [dartImports]
          · unfold dartImports
            cases hasMethods S <;> simp

theorem C38_dart_failures (x : Ext) (S : List ASTNode) (m b r : Bool) :
    (∃ e, DartGen.generate x S m b r = .error e) ↔
      importLines "import '" "';" (givenValues S "dart" "import") = none ∨
      (m = true ∧ ∃ e, DartGen.models x S = .error e) ∨ (b = true ∧ ∃ e, DartGen.buffers x S = .error e) ∨
      (r = true ∧ ∃ e, DartGen.rpcMethods x S = .error e) := by
  rw [dart_generate_eq]
  cases importLines "import '" "';" (givenValues S "dart" "import") with
  | none => simp
  | some uses =>
    cases m <;> cases b <;> cases r <;> cases DartGen.models x S <;> cases DartGen.buffers x S <;>
      cases DartGen.rpcMethods x S <;> simp

/-! ## C39: the end of the file -/

theorem C39_rust_single_newline (x : Ext) (S : List ASTNode) (m b r : Bool) (s : String)
    (h : RustGen.generate x S m b r = .ok s) : EndsInOneNewline s := by
  obtain ⟨uses, M, R, hu, hM, hR, hs⟩ := C38_rust_sections x S m b r s h
  have nl : ∀ (sw : Bool) (t : String), (sw = true → NL t) → NL (on sw t) := by
    intro sw t h
    cases sw
    · exact .inl rfl
    · exact NL.on (h rfl)
  have hhead : rustHead = String.singleton '/' ++
      ("/ GENERATED, DO NOT EDIT\n\n#![allow(warnings)]\n#![allow(clippy)]\n#![allow(unknown_lints)]\n" ++ "\n") := by
    set_option maxRecDepth 20000 in decide
  rw [hhead] at hs
  simp only [String.append_assoc] at hs
  refine strips_ends hs '/' _ (by decide) rfl ?_ ?_
  · simp only [← String.append_assoc]
    refine NL.append (NL.append (NL.append (NL.append (NL.append (NL.append (.inr ⟨_, rfl⟩) ?_)
      (NL.importLines hu)) (nl _ _ fun _ => rust_consts_NL x S)) (nl _ _ fun e => rust_models_NL (hM e)))
      (nl _ _ fun _ => rust_buffers_NL S)) (nl _ _ fun e => rust_rpc_NL (hR e))
    unfold rustImports
    split
    · exact .inr ⟨"use tech_paws_buffers::{BytesReader, BytesWriter, IntoVMBuffers};\nuse tech_paws_runtime::{\n    memory::TechPawsRuntimeMemory, RpcMethodAddress, TechPawsRpcAddress, TechPawsRuntime,\n    TechPawsRuntimeAsyncContext, TechPawsRuntimeRpcMethodBuffer, TechPawsScopeId,\n};\nuse uuid::uuid;", by
        set_option maxRecDepth 20000 in decide⟩
    · split
      · exact .inr ⟨"use tech_paws_buffers::{BytesReader, BytesWriter, IntoVMBuffers};", by decide⟩
      · exact .inl rfl
  · intro e
    have := congrArg String.length e
    simp [String.length_append] at this

theorem C39_dart_single_newline (x : Ext) (S : List ASTNode) (m b r : Bool) (s : String)
    (h : DartGen.generate x S m b r = .ok s) : EndsInOneNewline s := by
  obtain ⟨uses, M, B, R, hu, hM, hB, hR, hs⟩ := C38_dart_sections x S m b r s h
  have nl : ∀ (sw : Bool) (t : String), (sw = true → NL t) → NL (on sw t) := by
    intro sw t h
    cases sw
    · exact .inl rfl
    · exact NL.on (h rfl)
  have hhead : dartHead = String.singleton '/' ++
      ("/ GENERATED, DO NOT EDIT\n// ignore_for_file: unused_import\n" ++ "\n") := by
    set_option maxRecDepth 20000 in decide
  rw [hhead] at hs
  simp only [String.append_assoc] at hs
  refine strips_ends hs '/' _ (by decide) rfl ?_ ?_
  · simp only [← String.append_assoc]
    refine NL.append (NL.append (NL.append (NL.append (NL.append (NL.append (.inr ⟨_, rfl⟩) ?_)
      (NL.importLines hu)) (nl _ _ fun _ => dart_consts_NL x S)) (nl _ _ fun e => dart_models_NL (hM e)))
      (nl _ _ fun e => dart_buffers_NL (hB e))) (nl _ _ fun e => dart_rpc_NL (hR e))
    unfold dartImports
    split
    · exact .inr ⟨"import 'dart:async';\nimport 'dart:convert';\n\nimport 'package:tech_paws_buffers/tech_paws_buffers.dart';\nimport 'package:tech_paws_buffers/primitives.dart';\nimport 'package:tech_paws_runtime/scheduler.dart';\nimport 'package:tech_paws_runtime/tech_paws_runtime.dart';", by
        set_option maxRecDepth 20000 in decide⟩
    · split
      · exact .inr ⟨"import 'package:tech_paws_buffers/tech_paws_buffers.dart';\nimport 'package:tech_paws_buffers/primitives.dart';", by
          set_option maxRecDepth 20000 in decide⟩
      · exact .inl rfl
  · intro e
    have := congrArg String.length e
    simp [String.length_append] at this

/-! ### The hypotheses are met -/

/-- A schema with every kind of declaration. -/
def fullSchema : List ASTNode :=
  [.directive (.value "id" ⟨.str "a-b", .other "String"⟩),
   .directive (.value "namespace" ⟨.str "demo", .other "String"⟩),
   .directive (.group "rust" [⟨"use", ⟨.str "crate::x", .other "String"⟩⟩]),
   .const ⟨"k", [.value "a" (.integer "i32" 4 true) ⟨.int 7, .integer "i32" 4 true⟩]⟩,
   .struct ⟨"P", [⟨0, "x", .integer "i32" 4 true⟩], true, true⟩,
   .enum ⟨"E", [.empty 0 "A"]⟩,
   .fn ⟨"f", 0, [⟨"p", .other "P"⟩], some (.other "E"), false, false⟩]

theorem fullSchema_rust : ∃ s, RustGen.generate testExt fullSchema true true true = .ok s := by
  rw [rust_generate_eq]; exact ⟨_, rfl⟩

theorem fullSchema_dart : ∃ s, DartGen.generate testExt fullSchema true true true = .ok s := by
  rw [dart_generate_eq]; exact ⟨_, rfl⟩

end TPB.Props
