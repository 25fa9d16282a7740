/- The text of the client class of a schema in Dart is printed from its tree, and read as this tree. -/
import Verif.Proofs.DartRpcReaderGen
import Verif.Proofs.DartRpcFacts
import Verif.Proofs.Directives
namespace TPB.Dart
open Spec DartGen

variable {x : Ext} {S : List ASTNode}

theorem emits_genClient (h : WFSchema 0 S) (hM : methodsOf S ≠ []) {ns scope : String} (hn : stringDirective S "namespace" = .ok ns)
    (hi : stringDirective S "id" = .ok scope) : EmitsRpc x S (genClient x ns scope S) := by
  have h1 : rpcMethods x S = .ok (linesText 2 (genClient x ns scope S).render) := by
    refine rpc_render S (fun f hf => ?_) (by rwa [Props.findFnNodes_eq]) ?_ ns scope hn hi
    · rw [Props.findFnNodes_eq] at hf
      exact sizedFn_of_wf h hf
    · rw [Props.findFnNodes_eq]
      exact Rust.positions_nodup h
  refine ⟨h1, fun ns' scope' hns hsc hr t ht => ?_⟩
  rw [h1] at ht
  cases ht
  obtain ⟨a, ha⟩ := (directiveIs_iff ..).1 hns
  obtain ⟨b, hb⟩ := (directiveIs_iff ..).1 hsc
  simp only [stringDirective, ha, Except.ok.injEq] at hn
  simp only [stringDirective, hb, Except.ok.injEq] at hi
  subst hn
  subst hi
  exact DartRpcReader.readClient_gen h hr 2

/-- If the rpc section of a schema with methods can be generated then it is the text of a client class. -/
theorem emitsRpc_of (h : WFSchema 0 S) (hM : methodsOf S ≠ []) {out : String} (hout : rpcMethods x S = .ok out) :
    ∃ ns scope, EmitsRpc x S (genClient x ns scope S) ∧ stringDirective S "id" = .ok scope := by
  have hne : findFnNodes S ≠ [] := by rwa [Props.findFnNodes_eq]
  have hl := List.getLast?_eq_some_getLast hne
  unfold rpcMethods at hout
  simp only [hl] at hout
  cases hn : stringDirective S "namespace" with
  | error e => simp [hn] at hout
  | ok ns =>
    cases hi : stringDirective S "id" with
    | error e => simp [hn, hi] at hout
    | ok scope => exact ⟨ns, scope, emits_genClient h hM hn hi, rfl⟩

end TPB.Dart
