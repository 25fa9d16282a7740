/- The text of the methods of a schema in Rust is printed from its tree, and read as this tree. -/
import Verif.Proofs.RustRpcReaderGen
namespace TPB.Rust
open Spec

theorem emits_genRpc {S : List ASTNode} (h : WFSchema 0 S) (hM : methodsOf S ≠ []) {scope : String} (hs : scopeOf S = some scope) :
    EmitsRpc S (genRpc scope S) := by
  have h1 := rpc_render S (by rwa [Props.findFnNodes_eq]) scope hs
  refine ⟨h1, fun hr hn t ht => ?_⟩
  rw [h1] at ht
  cases ht
  exact RustRpcReader.readRpc_gen h hr.words hn (hr.scope scope hs) 4

theorem emitsRpc_of {S : List ASTNode} (hw : WFSchema 0 S) {out : String} (h : RustGen.rpc S = .ok out) (hM : methodsOf S ≠ []) :
    ∃ scope, EmitsRpc S (genRpc scope S) := by
  obtain ⟨scope, hs⟩ := rpc_scope h hM
  exact ⟨scope, emits_genRpc hw hM hs⟩

end TPB.Rust
