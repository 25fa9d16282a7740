/-
What the emitted Kotlin and Swift `createDefault` functions compute.

A call has a budget for the depth of the stack: `.error .deep` means that it is exceeded, `.error .stuck` that the
code has no meaning (a name that is not declared, arguments that do not fit).  The values are those of both languages.
The definitions model the target languages, restricted to the code that kotlin/ir.rs 417-453 and swift/ir.rs 371-399 emit
(default expressions) and the `createDefault` functions around it (trees: `Sem/Kotlin.lean`, `Sem/Swift.lean`).
-/
import Verif.Sem.Kotlin
import Verif.Sem.Swift
namespace TPB

/-- Values. -/
inductive MVal where
  | number (n : Int)
  | bool (b : Bool)
  | str (s : String)
  /-- the empty list -/
  | list
  /-- an object of a class or struct with its fields -/
  | obj (cls : String) (fields : List (String × MVal))
  /-- a case of a Swift enum with its values -/
  | case (enum : String) (case : String) (vals : List MVal)
  /-- what `createDefault` of a type outside of the file gives -/
  | lib (cls : String)
  deriving Inhabited

inductive Halt where
  | deep
  | stuck
  deriving DecidableEq

/-! ### Kotlin -/
namespace Kotlin

/-- Literals that occur as default values. -/
def literalVal (s : String) : Option MVal :=
  if s ∈ ["0", "0L", "0U", "0UL", "0f", "0.0"] then some (.number 0)
  else if s = "false" then some (.bool false)
  else if s = "\"\"" then some (.str "")
  else none

/-- The name of a declaration. -/
def Item.name : Item → String
  | .interface id _ => id
  | .object id _ => id
  | .cls id _ _ _ _ => id

def findCompanion (F : List Item) (id : String) : Option Companion :=
  F.findSome? (fun
    | .interface i c => if i = id then some c else none
    | .cls i _ _ _ c => if i = id then c else none
    | _ => none)

def findParams (F : List Item) (id : String) : Option (List String) :=
  F.findSome? (fun
    | .cls i _ ps _ _ => if i = id then some (ps.map (·.1)) else none
    | _ => none)

def isObject (F : List Item) (id : String) : Bool :=
  F.any (fun
    | .object i _ => i = id
    | _ => false)

/-- An expression; `call` runs `createDefault` of a class of the file. -/
def evalExpr (F : List Item) (call : String → Except Halt MVal) : Expr → Except Halt MVal
  | .lit s => match literalVal s with
    | some v => .ok v
    | none => .error .stuck
  | .emptyList => .ok .list
  | .create id => if id ∈ F.map Item.name then call id else .ok (.lib id)
  | .createGeneric id _ => if id ∈ F.map Item.name then .error .stuck else .ok (.lib id)

/-- Arguments from left to right. -/
def evalArgs (F : List Item) (call : String → Except Halt MVal) :
    List (Option String × Expr) → Except Halt (List (Option String × MVal))
  | [] => .ok []
  | a :: as =>
    match evalExpr F call a.2 with
    | .error e => .error e
    | .ok v =>
      match evalArgs F call as with
      | .error e => .error e
      | .ok vs => .ok ((a.1, v) :: vs)

/-- Values for parameters by name. -/
def byName : List String → List (Option String × MVal) → Option (List (String × MVal))
  | [], _ => some []
  | p :: ps, as =>
    match as.lookup (some p), byName ps as with
    | some v, some vs => some ((p, v) :: vs)
    | _, _ => none

/-- Values for parameters: one after the other, or all by name. -/
def bindArgs (ps : List String) (as : List (Option String × MVal)) : Option (List (String × MVal)) :=
  if as.length ≠ ps.length then none
  else if as.all (fun a => a.1.isNone) then some (ps.zip (as.map (·.2)))
  else byName ps as

def evalNew (F : List Item) (call : String → Except Halt MVal) : New → Except Halt MVal
  | .object id => if isObject F id then .ok (.obj id []) else .error .stuck
  | .call id args =>
    match findParams F id with
    | none => .error .stuck
    | some ps =>
      match evalArgs F call args with
      | .error e => .error e
      | .ok vs =>
        match bindArgs ps vs with
        | some fs => .ok (.obj id fs)
        | none => .error .stuck

/-- `id.createDefault()` in the file `F`, with stack depth `k`. -/
def create (F : List Item) : Nat → String → Except Halt MVal
  | 0, _ => .error .deep
  | k + 1, id =>
    match findCompanion F id with
    | some c => evalNew F (create F k) c.value
    | none => .error .stuck

end Kotlin

/-! ### Swift -/
namespace Swift

def literalVal (s : String) : Option MVal :=
  if s = "0" then some (.number 0)
  else if s = "false" then some (.bool false)
  else if s = "\"\"" then some (.str "")
  else none

def Item.name : Item → String
  | .struct id _ _ => id
  | .enum id _ _ => id

def Item.def : Item → Default
  | .struct _ _ d => d
  | .enum _ _ d => d

def findItem (F : List Item) (id : String) : Option Item := F.find? (fun i => i.name = id)

/-- An expression; `call` runs `createDefault` of a type of the file. -/
def evalExpr (F : List Item) (call : String → Except Halt MVal) : Expr → Except Halt MVal
  | .lit s => match literalVal s with
    | some v => .ok v
    | none => .error .stuck
  | .emptyArray => .ok .list
  | .create id => if id ∈ F.map Item.name then call id else .ok (.lib id)
  | .createGeneric id _ => if id ∈ F.map Item.name then .error .stuck else .ok (.lib id)

/-- The label and the expression of an argument. -/
def Arg.split : Arg → Option String × Expr
  | .labelled l e => (some l, e)
  | .commented _ e => (none, e)
  | .plain e => (none, e)

/-- Arguments from left to right. -/
def evalArgs (F : List Item) (call : String → Except Halt MVal) : List Arg → Except Halt (List (Option String × MVal))
  | [] => .ok []
  | a :: as =>
    match evalExpr F call a.split.2 with
    | .error e => .error e
    | .ok v =>
      match evalArgs F call as with
      | .error e => .error e
      | .ok vs => .ok ((a.split.1, v) :: vs)

/-- The value that `createDefault` returns, with the result type `type`. -/
def evalNew (F : List Item) (call : String → Except Halt MVal) (type : String) : New → Except Halt MVal
  | .inst id args =>
    match findItem F id with
    | some (.struct _ fs _) =>
      match evalArgs F call args with
      | .error e => .error e
      | .ok vs => if vs.map (·.1) = fs.map (fun f => some f.1) then .ok (.obj id ((fs.map (·.1)).zip (vs.map (·.2)))) else .error .stuck
    | _ => .error .stuck
  | .case id =>
    match findItem F type with
    | some (.enum _ cs _) => if cs.any (fun c => c.id = id && c.params.isEmpty) then .ok (.case type id []) else .error .stuck
    | _ => .error .stuck
  | .caseOf id args =>
    match findItem F type with
    | some (.enum _ cs _) =>
      match evalArgs F call args with
      | .error e => .error e
      | .ok vs =>
        if cs.any (fun c => c.id = id && !c.params.isEmpty && c.params.length = vs.length) && vs.all (fun v => v.1.isNone) then
          .ok (.case type id (vs.map (·.2)))
        else .error .stuck
    | _ => .error .stuck

/-- `id.createDefault()` in the file `F`, with stack depth `k`. -/
def create (F : List Item) : Nat → String → Except Halt MVal
  | 0, _ => .error .deep
  | k + 1, id =>
    match findItem F id with
    | some i => evalNew F (create F k) i.def.type i.def.value
    | none => .error .stuck

end Swift
end TPB
