import Verif.Spec.Output
import Verif.Sem.Text
namespace TPB
open Spec

/-! ### Trimming -/

theorem trimRev_spec (cs : List Char) : ∃ k, cs = List.replicate k '\n' ++ trimRev cs ∧
    (k = 0 ∨ ∃ l, trimRev cs = '\n' :: l) := by
  fun_induction trimRev cs with
  | case1 cs ih =>
    obtain ⟨k, hk, hl⟩ := ih
    refine ⟨k + 1, ?_, .inr ?_⟩
    · rw [List.replicate_succ, List.cons_append, ← hk]
    · rcases hl with rfl | hl
      · exact ⟨cs, by simpa using hk.symm⟩
      · exact hl
  | case2 cs h => exact ⟨0, rfl, .inl rfl⟩

theorem trimRev_no2 (cs : List Char) : ∀ l, trimRev cs ≠ '\n' :: '\n' :: l := by
  fun_induction trimRev cs with
  | case1 cs ih => exact ih
  | case2 cs h => intro l e; exact h l e

theorem trimAll_strips (t : String) : StripsTo t (trimAll t) := by
  constructor
  · obtain ⟨k, hk, hl⟩ := trimRev_spec t.toList.reverse
    refine ⟨k, ?_, ?_⟩
    · apply String.toList_injective
      rw [String.toList_append, String.toList_ofList, trimAll, String.toList_ofList]
      have := congrArg List.reverse hk
      simpa using this
    · rcases hl with hl | ⟨l, hl⟩
      · exact .inl hl
      · refine .inr ⟨String.ofList l.reverse, ?_⟩
        rw [trimAll, hl]
        apply String.toList_injective
        simp
  · rintro ⟨u, hu⟩
    have := congrArg String.toList hu
    rw [trimAll, String.toList_ofList, String.toList_append] at this
    have := congrArg List.reverse this
    simp only [List.reverse_reverse, List.reverse_append] at this
    exact trimRev_no2 _ _ this

/-! ### Import loops -/

theorem rust_importsLoop (vs : List ConstValue) (r : String) :
    RustGen.importsLoop (wAt 4 r) vs =
      match importLines "use " ";" vs with
      | some t => .ok (wAt 4 (r ++ t))
      | none => .error (.gen "rust use should be a string literal") := by
  induction vs generalizing r with
  | nil => simp [RustGen.importsLoop, importLines]
  | cons v vs ih =>
    unfold RustGen.importsLoop importLines
    cases v.literal with
    | str s =>
      simp only [writeln_wAt, ih]
      cases importLines "use " ";" vs with
      | none => rfl
      | some t => simp [linesText, repeatStr, String.append_assoc]
    | _ => rfl

theorem dart_importsLoop (vs : List ConstValue) (r : String) :
    DartGen.importsLoop (wAt 2 r) vs =
      match importLines "import '" "';" vs with
      | some t => .ok (wAt 2 (r ++ t))
      | none => .error (.gen "dart import should be a string literal") := by
  induction vs generalizing r with
  | nil => simp [DartGen.importsLoop, importLines]
  | cons v vs ih =>
    unfold DartGen.importsLoop importLines
    cases v.literal with
    | str s =>
      simp only [writeln_wAt, ih]
      cases importLines "import '" "';" vs with
      | none => rfl
      | some t => simp [linesText, repeatStr, String.append_assoc]
    | _ => rfl

/-! ### The whole file -/

/-- What `generate` does, section by section (Rust). -/
theorem rust_generate_eq_model (x : Ext) (S : List ASTNode) (m b r : Bool) :
    RustGen.generate x S m b r =
      match importLines "use " ";" (findDirectiveGroupValues S "rust" "use") with
      | none => .error (.gen "rust use should be a string literal")
      | some uses =>
        match (if m then RustGen.models S else .ok "") with
        | .error e => .error e
        | .ok M =>
          match (if r then RustGen.rpc S else .ok "") with
          | .error e => .error e
          | .ok R => .ok (trimAll (rustHead ++ rustImports (!(findFnNodes S).isEmpty) b r ++ uses
              ++ on (containsConstsNodes S) (RustGen.consts x S) ++ on m M ++ on b (RustGen.buffers S)
              ++ on r R)) := by
  have hw : (let w := Writer.default
      let w := w.writeln "// GENERATED, DO NOT EDIT"
      let w := w.writeln ""
      let w := w.writeln "#![allow(warnings)]"
      let w := w.writeln "#![allow(clippy)]"
      let w := w.writeln "#![allow(unknown_lints)]"
      w.writeln "") = wAt 4 rustHead := by rfl
  have hi : (if r && !(findFnNodes S).isEmpty then
      let w := wAt 4 rustHead
      let w := w.writeln "use tech_paws_buffers::{BytesReader, BytesWriter, IntoVMBuffers};"
      let w := w.writeln "use tech_paws_runtime::{"
      let w := w.writelnTab 1
        "memory::TechPawsRuntimeMemory, RpcMethodAddress, TechPawsRpcAddress, TechPawsRuntime,"
      let w := w.writelnTab 1
        "TechPawsRuntimeAsyncContext, TechPawsRuntimeRpcMethodBuffer, TechPawsScopeId,"
      let w := w.writeln "};"
      w.writeln "use uuid::uuid;"
    else if b then
      (wAt 4 rustHead).writeln "use tech_paws_buffers::{BytesReader, BytesWriter, IntoVMBuffers};"
    else wAt 4 rustHead) = wAt 4 (rustHead ++ rustImports (!(findFnNodes S).isEmpty) b r) := by
    unfold rustImports
    generalize rustHead = hd
    split
    · simp only [writeln_wAt, writelnTab_wAt, String.append_assoc]
      exact congrArg (fun t => wAt 4 (hd ++ t)) (by set_option maxRecDepth 20000 in decide)
    · split
      · rw [writeln_wAt]
        exact congrArg (fun t => wAt 4 (hd ++ t)) (by set_option maxRecDepth 20000 in decide)
      · simp
  unfold RustGen.generate
  simp only at hw hi ⊢
  rw [hw, hi, rust_importsLoop]
  cases importLines "use " ";" (findDirectiveGroupValues S "rust" "use") with
  | none => rfl
  | some uses =>
    dsimp only
    have hc : (if containsConstsNodes S = true then
        ((wAt 4 (rustHead ++ rustImports (!(findFnNodes S).isEmpty) b r ++ uses)).writeln "").write (RustGen.consts x S)
        else wAt 4 (rustHead ++ rustImports (!(findFnNodes S).isEmpty) b r ++ uses))
        = wAt 4 (rustHead ++ rustImports (!(findFnNodes S).isEmpty) b r ++ uses
            ++ on (containsConstsNodes S) (RustGen.consts x S)) := by
      unfold on
      split
      · simp [writeln_wAt, write_wAt, linesText, repeatStr, String.append_assoc]
      · simp
    rw [hc]
    have hsec : ∀ (t : String) (s : String), ((wAt 4 t).writeln "").write s = wAt 4 (t ++ ("\n" ++ s)) := by
      intro t s
      simp [writeln_wAt, write_wAt, linesText, repeatStr, String.append_assoc]
    generalize rustHead ++ rustImports (!(findFnNodes S).isEmpty) b r ++ uses
            ++ on (containsConstsNodes S) (RustGen.consts x S) = pre
    cases m <;> cases b <;> cases r <;> simp only [on, if_true, if_false, Bool.false_eq_true, String.append_empty, hsec]
    all_goals try (cases RustGen.models S) <;> try simp only [hsec]
    all_goals try (cases RustGen.rpc S) <;> try simp only [hsec]
    all_goals rfl

theorem dart_generate_eq_model (x : Ext) (S : List ASTNode) (m b r : Bool) :
    DartGen.generate x S m b r =
      match importLines "import '" "';" (findDirectiveGroupValues S "dart" "import") with
      | none => .error (.gen "dart import should be a string literal")
      | some uses =>
        match (if m then DartGen.models x S else .ok "") with
        | .error e => .error e
        | .ok M =>
          match (if b then DartGen.buffers x S else .ok "") with
          | .error e => .error e
          | .ok B =>
            match (if r then DartGen.rpcMethods x S else .ok "") with
            | .error e => .error e
            | .ok R => .ok (trimAll (dartHead ++ dartImports (!(findFnNodes S).isEmpty) b r ++ uses
                ++ on (containsConstsNodes S) (DartGen.consts x S) ++ on m M ++ on b B ++ on r R)) := by
  have hw : (let w := Writer.new 2
      let w := w.writeln "// GENERATED, DO NOT EDIT"
      let w := w.writeln "// ignore_for_file: unused_import"
      w.writeln "") = wAt 2 dartHead := by rfl
  have hi : (if r && !(findFnNodes S).isEmpty then
      let w := wAt 2 dartHead
      let w := w.writeln "import 'dart:async';"
      let w := w.writeln "import 'dart:convert';"
      let w := w.writeln ""
      let w := w.writeln "import 'package:tech_paws_buffers/tech_paws_buffers.dart';"
      let w := w.writeln "import 'package:tech_paws_buffers/primitives.dart';"
      let w := w.writeln "import 'package:tech_paws_runtime/scheduler.dart';"
      w.writeln "import 'package:tech_paws_runtime/tech_paws_runtime.dart';"
    else if b then
      let w := wAt 2 dartHead
      let w := w.writeln "import 'package:tech_paws_buffers/tech_paws_buffers.dart';"
      w.writeln "import 'package:tech_paws_buffers/primitives.dart';"
    else wAt 2 dartHead) = wAt 2 (dartHead ++ dartImports (!(findFnNodes S).isEmpty) b r) := by
    unfold dartImports
    generalize dartHead = hd
    split
    · simp only [writeln_wAt, String.append_assoc]
      exact congrArg (fun t => wAt 2 (hd ++ t)) (by set_option maxRecDepth 20000 in decide)
    · split
      · simp only [writeln_wAt, String.append_assoc]
        exact congrArg (fun t => wAt 2 (hd ++ t)) (by set_option maxRecDepth 20000 in decide)
      · simp
  unfold DartGen.generate
  simp only at hw hi ⊢
  rw [hw, hi, dart_importsLoop]
  cases importLines "import '" "';" (findDirectiveGroupValues S "dart" "import") with
  | none => rfl
  | some uses =>
    dsimp only
    have hc : (if containsConstsNodes S = true then
        ((wAt 2 (dartHead ++ dartImports (!(findFnNodes S).isEmpty) b r ++ uses)).writeln "").write (DartGen.consts x S)
        else wAt 2 (dartHead ++ dartImports (!(findFnNodes S).isEmpty) b r ++ uses))
        = wAt 2 (dartHead ++ dartImports (!(findFnNodes S).isEmpty) b r ++ uses
            ++ on (containsConstsNodes S) (DartGen.consts x S)) := by
      unfold on
      split
      · simp [writeln_wAt, write_wAt, linesText, repeatStr, String.append_assoc]
      · simp
    rw [hc]
    have hsec : ∀ (t : String) (s : String), ((wAt 2 t).writeln "").write s = wAt 2 (t ++ ("\n" ++ s)) := by
      intro t s
      simp [writeln_wAt, write_wAt, linesText, repeatStr, String.append_assoc]
    generalize dartHead ++ dartImports (!(findFnNodes S).isEmpty) b r ++ uses
            ++ on (containsConstsNodes S) (DartGen.consts x S) = pre
    cases m <;> cases b <;> cases r <;> simp only [on, if_true, if_false, Bool.false_eq_true, String.append_empty, hsec]
    all_goals try (cases DartGen.models x S) <;> try simp only [hsec]
    all_goals try (cases DartGen.buffers x S) <;> try simp only [hsec]
    all_goals try (cases DartGen.rpcMethods x S) <;> try simp only [hsec]
    all_goals rfl

theorem findFnNodes_isEmpty (S : List ASTNode) : (!(findFnNodes S).isEmpty) = hasMethods S := by
  induction S with
  | nil => rfl
  | cons d S ih => cases d <;> first | rfl | simpa [findFnNodes, hasMethods] using ih

theorem containsConstsNodes_eq (S : List ASTNode) : containsConstsNodes S = hasConsts S := by
  induction S with
  | nil => rfl
  | cons d S ih => cases d <;> first | rfl | simpa [containsConstsNodes, hasConsts] using ih

theorem findPairs_filter (ps : List IdValuePair) (name : String) :
    findPairs ps name = (ps.filter (fun p => p.id = name)).map (·.value) := by
  induction ps with
  | nil => rfl
  | cons p ps ih =>
    simp only [findPairs, List.filter_cons, decide_eq_true_eq]
    split <;> simp [ih]

theorem findDirectiveGroupValues_eq (S : List ASTNode) (group name : String) :
    findDirectiveGroupValues S group name = givenValues S group name := by
  induction S with
  | nil => rfl
  | cons d S ih =>
    cases d with
    | directive d =>
      cases d with
      | value n v => simpa [findDirectiveGroupValues, givenValues] using ih
      | group g ps =>
        have e : givenValues (.directive (.group g ps) :: S) group name =
          (if g = group then (ps.filter (fun p => p.id = name)).map (·.value) else []) ++ givenValues S group name := rfl
        rw [e, ← ih, ← findPairs_filter, findDirectiveGroupValues]
        by_cases h : group = g
        · rw [if_pos h, if_pos h.symm]
        · rw [if_neg h, if_neg (fun e => h e.symm)]; rfl
    | _ => simpa [findDirectiveGroupValues, givenValues] using ih

theorem rust_generate_eq (x : Ext) (S : List ASTNode) (m b r : Bool) :
    RustGen.generate x S m b r =
      match importLines "use " ";" (givenValues S "rust" "use") with
      | none => .error (.gen "rust use should be a string literal")
      | some uses =>
        match (if m then RustGen.models S else .ok "") with
        | .error e => .error e
        | .ok M =>
          match (if r then RustGen.rpc S else .ok "") with
          | .error e => .error e
          | .ok R => .ok (trimAll (rustHead ++ rustImports (hasMethods S) b r ++ uses
              ++ on (hasConsts S) (RustGen.consts x S) ++ on m M ++ on b (RustGen.buffers S)
              ++ on r R)) := by
  rw [rust_generate_eq_model, findFnNodes_isEmpty, containsConstsNodes_eq, findDirectiveGroupValues_eq]

theorem dart_generate_eq (x : Ext) (S : List ASTNode) (m b r : Bool) :
    DartGen.generate x S m b r =
      match importLines "import '" "';" (givenValues S "dart" "import") with
      | none => .error (.gen "dart import should be a string literal")
      | some uses =>
        match (if m then DartGen.models x S else .ok "") with
        | .error e => .error e
        | .ok M =>
          match (if b then DartGen.buffers x S else .ok "") with
          | .error e => .error e
          | .ok B =>
            match (if r then DartGen.rpcMethods x S else .ok "") with
            | .error e => .error e
            | .ok R => .ok (trimAll (dartHead ++ dartImports (hasMethods S) b r ++ uses
                ++ on (hasConsts S) (DartGen.consts x S) ++ on m M ++ on b B ++ on r R)) := by
  rw [dart_generate_eq_model, findFnNodes_isEmpty, containsConstsNodes_eq, findDirectiveGroupValues_eq]

end TPB
