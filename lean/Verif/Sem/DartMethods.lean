/-
Evaluation of the methods of the emitted Dart model classes (the trees of `Sem/DartIR.lean`): the constructor
of a struct, and `createV`, `toV` and `isV` of an enum.

As in `Sem/DartEval.lean`, objects are values; an argument that is an object is stored, and the caller is
assumed not to keep it.  Types of arguments are not checked.
-/
import Verif.Sem.DartEval
namespace TPB.Dart
open Spec

/-- The arguments of a call: `f(a, b)` or `f(x: a, y: b)`. -/
inductive Args where
  | positional (vs : List Val)
  | named (vs : List (String × Val))

/-- The names of parameters. -/
def Params.vars : Params → List String
  | .unit => []
  | .positional xs => xs.map (·.2)
  | .named xs => xs.map (·.2)

/-- The parameters with their values: as many positional arguments as parameters, or every named parameter
once.  Anything else is rejected by the compiler. -/
def bindParams : Params → Args → Res (List (String × Val))
  | .unit, .positional [] => .ok []
  | .positional xs, .positional vs => if xs.length = vs.length then .ok ((xs.map (·.2)).zip vs) else .error .stuck
  | .named xs, .named vs => mkRecord (xs.map (·.2)) vs
  | _, _ => .error .stuck

/-- `field.f = x;` for all assignments in order, where `x` is a parameter. -/
def evalAssigns (env : List (String × Val)) (field : String) : List (String × String) → Val → Res Val
  | [], o => .ok o
  | a :: as, o => do
    let v ← orElse .stuck (env.lookup a.2)
    let p ← getField field o
    let p ← setField a.1 v p
    let o ← setField field p o
    evalAssigns env field as o

/-- `value = EValue.const; field.f = x; ..` on the object `o`. -/
def evalVariant (c : EnumClass) (m : VMethod) (args : Args) (o : Val) : Res Val :=
  if m.params.vars.Nodup ∧ m.const ∈ c.consts ∧ c.id ++ "Value" ∉ m.params.vars then do
    let env ← bindParams m.params args
    let o ← setField "value" (.enum (c.id ++ "Value") m.const []) o
    evalAssigns env m.field m.assigns o
  else .error .stuck

/-- `this.toV(args)`: the contents of the object after the call.  In the body `value` and the payload field are
members of the object; a parameter with such a name hides the member. -/
def evalTo (c : EnumClass) (m : VMethod) (args : Args) (this : Val) : Res Val :=
  if "value" ∈ m.params.vars ∨ m.field ∈ m.params.vars then .error .stuck else evalVariant c m args this

/-- `E.createV(args)`: here the object is the variable `model`, which hides a parameter with this name. -/
def evalCreate (new : New → Res Val) (c : EnumClass) (m : VMethod) (args : Args) : Res Val :=
  if "model" ∈ m.params.vars ∨ c.id ∈ m.params.vars then .error .stuck
  else do
    let model ← new (.enum c.id)
    evalVariant c m args model

/-- Call a method `toV` of an object of the class `cls`. -/
def callTo (P : Prog) (cls method : String) (args : Args) (this : Val) : Res Val :=
  match P.enum? cls with
  | some c =>
    match c.tos.find? (fun m => "to" ++ m.name = method) with
    | some m => if isClass cls this then evalTo c m args this else .error .stuck
    | none => .error .stuck
  | none => .error .stuck

/-- Call a method `isV` of an object of the class `cls`. -/
def callIs (P : Prog) (cls method : String) (this : Val) : Res Bool :=
  match P.enum? cls with
  | some c =>
    match c.isses.find? (fun i => "is" ++ i.1 = method) with
    | some i =>
      if isClass cls this ∧ i.2 ∈ c.consts then do
        let v ← getField "value" this
        .ok (isConst (cls ++ "Value") i.2 v)
      else .error .stuck
    | none => .error .stuck
  | none => .error .stuck

/-- Call a static method `createV` of the class `cls`. -/
def callCreate (rt : Runtime) (P : Prog) (k : Nat) (cls method : String) (args : Args) : Res Val :=
  match P.enum? cls with
  | some c =>
    match c.creates.find? (fun m => "create" ++ m.name = method) with
    | some m => evalCreate (newVal rt P k) c m args
    | none => .error .stuck
  | none => .error .stuck

/-- `C(f: a, ..)` for the class of a struct. -/
def callNew (P : Prog) (cls : String) (args : List (String × Val)) : Res Val :=
  match P.struct? cls with
  | some s =>
    if s.ctor = s.fields.map (·.2) then (mkRecord s.ctor args).map (fun fs => .struct cls fs) else .error .stuck
  | none => .error .stuck

/-- With enough stack, `cls.method(args)` returns the object `d`. -/
def Creates (rt : Runtime) (P : Prog) (cls method : String) (args : Args) (d : Val) : Prop :=
  ∃ N, ∀ k, N ≤ k → callCreate rt P k cls method args = .ok d

end TPB.Dart
