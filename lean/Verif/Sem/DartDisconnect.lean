/-
Execution of the emitted method `disconnect` of the Dart client class, and histories in which it is called
(src/dart/rpc.rs:182-203).

The scheduler belongs to the runtime library: after `_scheduler.disconnect(task)` it does not run `task`
again, and a second `disconnect` of the same task does nothing.  `close` belongs to the Dart library: it may
be repeated, but adding to a closed controller throws.
-/
import Verif.Sem.RpcSystem
namespace TPB.Rpc
open Spec
open Rust (Buf Bufs BufLib Handler User Cfg Act Ev)
open Dart (Client ClientState Member DiscS Res)

/-- The tasks that the scheduler does not run any more and the stream controllers that are closed, by the
names of the members. -/
structure Link where
  off : List String
  closed : List String
  deriving Repr, DecidableEq, Inhabited

/-- Nothing is disconnected. -/
def Link.on : Link := ⟨[], []⟩

/-- Run the body of `disconnect`.  Reading a `late` variable that has not been assigned throws. -/
def runDisc (cl : Client) (s : ClientState) : Link → List DiscS → Res Link
  | l, [] => .ok l
  | l, .disconnect v :: ds =>
    if v ∈ cl.members.filterMap Member.taskOf then
      if v ∈ s.tasks.map (·.1) then runDisc cl s { l with off := l.off ++ [v] } ds else .error .throws
    else .error .stuck
  | l, .close v :: ds =>
    if v ∈ cl.members.filterMap Member.controllerOf then runDisc cl s { l with closed := l.closed ++ [v] } ds
    else .error .stuck

/-- Is it the run of a disconnected task? -/
def Link.stops (l : Link) : SysAct → Bool
  | .read v => l.off.contains v
  | _ => false

/-- A server and a client, and what the client has disconnected. -/
structure Linked (σ : Type) where
  sys : Sys σ
  link : Link

/-- What can happen next: what could happen before (`SysAct`), or the program that uses the client calls
`disconnect`. -/
inductive LinkAct where
  | sys (a : SysAct)
  | disconnect

section
variable {σ : Type} (C : Rust.Codec) (lib : BufLib) (U : User σ) (regs : List (Nat × Handler))
variable (rt : Dart.Runtime) (P : Dart.Prog) (k : Nat) (hasData : Int) (rotate : Int → Int) (cl : Client)

/-- The effect of an action; `none` if it is not possible: the scheduler does not run disconnected tasks, and
a task that adds to a closed controller throws. -/
def linkAct (s : Linked σ) : LinkAct → Option (Linked σ)
  | .disconnect =>
    match runDisc cl s.sys.client s.link cl.disconnect with
    | .ok l => some { s with link := l }
    | .error _ => none
  | .sys a =>
    if s.link.stops a then none
    else
      match sysAct C lib U regs rt P k hasData rotate cl s.sys a with
      | some t =>
        if (t.client.events.drop s.sys.client.events.length).any (fun e => s.link.closed.contains e.1) then none
        else some { s with sys := t }
      | none => none

def linkActs (s : Linked σ) : List LinkAct → Option (Linked σ)
  | [] => some s
  | a :: as =>
    match linkAct C lib U regs rt P k hasData rotate cl s a with
    | some s => linkActs s as
    | none => none

end

end TPB.Rpc
