/-
Evaluation of the methods of the emitted Dart model classes with objects in memory: the constructor of a struct, and
`createV`, `toV` and `isV` of an enum.  The trees and the rules for names are those of `Sem/DartMethods.lean`; here
arguments are references, and what is stored in a field is the object of the caller, not a copy.
-/
import Verif.Sem.DartHeap
import Verif.Sem.DartMethods
namespace TPB.Dart
open Spec

/-- The arguments of a call: `f(a, b)` or `f(x: a, y: b)`. -/
inductive HArgs where
  | positional (rs : List Ref)
  | named (rs : List (String × Ref))

/-- The parameters with their objects, as in `bindParams`. -/
def hBind : Params → HArgs → Res (List (String × Ref))
  | .unit, .positional [] => .ok []
  | .positional xs, .positional rs => if xs.length = rs.length then .ok ((xs.map (·.2)).zip rs) else .error .stuck
  | .named xs, .named rs => hRecord (xs.map (·.2)) rs
  | _, _ => .error .stuck

/-- `field.f = x;` for all assignments in order, where `x` is a parameter. -/
def hAssigns (env : List (String × Ref)) (field : String) : List (String × String) → Ref → Heap → Res Heap
  | [], _, h => .ok h
  | a :: as, o, h => do
    let r ← orElse .stuck (env.lookup a.2)
    let p ← hGet field o h
    let h ← hSet a.1 r p h
    hAssigns env field as o h

/-- `value = EValue.const; field.f = x; ..` on the object `o`. -/
def hVariant (c : EnumClass) (m : VMethod) (args : HArgs) (o : Ref) (h : Heap) : Res Heap :=
  if m.params.vars.Nodup ∧ m.const ∈ c.consts ∧ c.id ++ "Value" ∉ m.params.vars then do
    let env ← hBind m.params args
    let (t, h) := alloc h (.val (.enum (c.id ++ "Value") m.const []))
    let h ← hSet "value" t o h
    hAssigns env m.field m.assigns o h
  else .error .stuck

/-- `this.toV(args)` -/
def hTo (c : EnumClass) (m : VMethod) (args : HArgs) (this : Ref) (h : Heap) : Res Heap :=
  if "value" ∈ m.params.vars ∨ m.field ∈ m.params.vars then .error .stuck else hVariant c m args this h

/-- `E.createV(args)` -/
def hCreate (new : New → Heap → Res (Ref × Heap)) (c : EnumClass) (m : VMethod) (args : HArgs) (h : Heap) :
    Res (Ref × Heap) :=
  if "model" ∈ m.params.vars ∨ c.id ∈ m.params.vars then .error .stuck
  else do
    let (model, h) ← new (.enum c.id) h
    let h ← hVariant c m args model h
    .ok (model, h)

/-- Call a method `toV` of an object of the class `cls`. -/
def hCallTo (P : Prog) (cls method : String) (args : HArgs) (this : Ref) (h : Heap) : Res Heap :=
  match P.enum? cls with
  | some c =>
    match c.tos.find? (fun m => "to" ++ m.name = method) with
    | some m => if hIsClass cls this h then hTo c m args this h else .error .stuck
    | none => .error .stuck
  | none => .error .stuck

/-- Call a method `isV` of an object of the class `cls`. -/
def hCallIs (P : Prog) (cls method : String) (this : Ref) (h : Heap) : Res Bool :=
  match P.enum? cls with
  | some c =>
    match c.isses.find? (fun i => "is" ++ i.1 = method) with
    | some i =>
      if hIsClass cls this h ∧ i.2 ∈ c.consts then do
        let t ← hGet "value" this h
        let v ← hValue t h
        .ok (isConst (cls ++ "Value") i.2 v)
      else .error .stuck
    | none => .error .stuck
  | none => .error .stuck

/-- Call a static method `createV` of the class `cls`. -/
def hCallCreate (rt : Runtime) (P : Prog) (k : Nat) (cls method : String) (args : HArgs) (h : Heap) : Res (Ref × Heap) :=
  match P.enum? cls with
  | some c =>
    match c.creates.find? (fun m => "create" ++ m.name = method) with
    | some m => hCreate (hNew rt P k) c m args h
    | none => .error .stuck
  | none => .error .stuck

/-- `C(f: a, ..)` for the class of a struct. -/
def hCallNew (P : Prog) (cls : String) (args : List (String × Ref)) (h : Heap) : Res (Ref × Heap) :=
  match P.struct? cls with
  | some s =>
    if s.ctor = s.fields.map (·.2) then (hRecord s.ctor args).map (fun fs => alloc h (.obj cls fs)) else .error .stuck
  | none => .error .stuck

/-- With enough stack, `cls.method(args)` returns the object `o`, and the memory becomes `h'`. -/
def HCreatesV (rt : Runtime) (P : Prog) (cls method : String) (args : HArgs) (h : Heap) (o : Ref) (h' : Heap) : Prop :=
  ∃ N, ∀ k, N ≤ k → hCallCreate rt P k cls method args h = .ok (o, h')

end TPB.Dart
