/-
A user whose synchronous functions keep a record of what they return.
-/
import Verif.Sem.RpcSystem
namespace TPB.Rust
open Spec

/-- What the user's functions have returned, in order: the name of the function and the result. -/
abbrev Record := List (String × Ret)

/-- The same functions; the record is part of the user's state and is not looked at by them. -/
def recording {σ : Type} (U : User σ) : User (σ × Record) := fun f xs u =>
  ((U f xs u.1).1, (U f xs u.1).2, u.2 ++ [(f, (U f xs u.1).1)])

/-- The values that the function `g` of a read method has returned, in order (it may also return nothing). -/
def returned (g : String) (h : Record) : List Val :=
  h.filterMap (fun p => match p.2 with
    | .opt (some v) => if p.1 = g then some v else none
    | _ => none)

/-- The state without the record. -/
def Cfg.forget {σ : Type} (c : Cfg (σ × Record)) : Cfg σ := ⟨c.mem, c.user.1, c.run, c.tasks, c.log⟩

end TPB.Rust

namespace TPB.Rpc

/-- The system without the record. -/
def Sys.forget {σ : Type} (s : Sys (σ × Rust.Record)) : Sys σ := ⟨s.server.forget, s.client, s.calls⟩

end TPB.Rpc
