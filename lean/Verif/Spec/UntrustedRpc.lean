/-
Specification for servers that receive arbitrary bytes.
-/
import Verif.Spec.Untrusted
import Verif.Spec.Evolution
import Verif.Spec.Rpc
import Verif.Sem.RustRpcEval
namespace TPB.Rust
open Spec

/-- No type of the schema refers to the struct that holds the arguments of a method. -/
structure ArgStructsUnused (S : List ASTNode) : Prop where
  types : ∀ f ∈ methodsOf S, ∀ d ∈ S, ∀ t ∈ typesOf d, ¬ Mentions (argsName f) t
  args : ∀ f ∈ methodsOf S, ∀ g ∈ methodsOf S, ∀ t ∈ (argsOf g).map (·.2), ¬ Mentions (argsName f) t

/-- At some moment of the history `xs` from `c`, the server buffer of the method at address `a` held `bs`. -/
def ServerHeld {σ : Type} (C : Codec) (lib : BufLib) (U : User σ) (regs : List (Nat × Handler)) (c : Cfg σ) (xs : List Act)
    (a : Nat) (bs : Bytes) : Prop :=
  ∃ ys zs c', xs = ys ++ zs ∧ acts C lib U regs c ys = some c' ∧ (c'.mem a).server = bs

end TPB.Rust
