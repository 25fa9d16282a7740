/-
Specification for executions of the emitted Rust handlers that do not get stuck.
-/
import Verif.Spec.UntrustedRpc
namespace TPB.Rust
open Spec

/-- What the user's function of the method `f` may return: a value of the declared type, nothing if none is
declared; an `Option` of that for read methods. -/
def RetOf (W : Wire) (S : List ASTNode) (f : FnNode) : Ret → Prop
  | .unit => f.isRead = false ∧ f.returnTypeId = none
  | .val v => f.isRead = false ∧ ∃ t, f.returnTypeId = some t ∧ HasTy W S t v
  | .opt o => f.isRead = true ∧ ∀ v, o = some v → ∀ t, f.returnTypeId = some t → HasTy W S t v

/-- The user's synchronous functions return values of the declared types when called with values of the declared
types. -/
def UserTyped (W : Wire) (S : List ASTNode) {σ : Type} (U : User σ) : Prop :=
  ∀ f ∈ methodsOf S, f.isAsync = false → ∀ vs u, HasTys W S ((argsOf f).map (·.2)) vs → RetOf W S f (U f.id vs u).1

/-- So do the futures of the asynchronous ones. -/
def FuturesTyped (W : Wire) (S : List ASTNode) (log : List Ev) : Prop :=
  ∀ a g vs r, Ev.finished a g vs r ∈ log → ∀ f ∈ methodsOf S, f.id = g → RetOf W S f r

/-- The bytes in the server buffer of the method `f` cannot be understood: they do not begin with a status byte, or (for
methods other than read methods) the status byte announces a request and there is none. -/
def Malformed (rt : Runtime) (S : List ASTNode) (f : FnNode) (bs : Bytes) : Prop :=
  rt.readP "u8" bs = none ∨
  (f.isRead = false ∧ (∃ r, rt.readP "u8" bs = some (.int 255, r)) ∧ ∀ mid vs req rest, Request rt.wire S f mid vs req → bs ≠ req ++ rest)

/-- Everything that runs can go on: a handler executes its next statement or returns, except that it may panic where
it reads a server buffer with malformed contents; a spawned future executes its next statement, unless it awaits the
user's function or has ended. -/
structure Progress (rt : Runtime) (S : List ASTNode) {σ : Type} (C : Codec) (lib : BufLib) (U : User σ) (regs : List (Nat × Handler))
    (c : Cfg σ) : Prop where
  handler : ∀ r, c.run = some r →
    (r.thread.code = [] ∧ (act C lib U regs c .endH).isSome) ∨ (act C lib U regs c .stepH).isSome ∨
    (step C lib U (c.mem r.addr) c.user r.thread = .error .panic ∧
      ∃ f ∈ methodsOf S, f.position = r.addr ∧ Malformed rt S f (c.mem r.addr).server)
  future : ∀ i t, c.tasks[i]? = some t → t.thread.wait.isSome ∨ t.thread.code = [] ∨ (act C lib U regs c (.stepT i)).isSome

end TPB.Rust
