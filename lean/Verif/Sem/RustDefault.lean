/-
Evaluation of the emitted `impl Default` blocks (trees of `Sem/RustIR.lean`).

A literal is evaluated against the declared type of the place it initialises: rustc accepts `0` for
integer types only, `0.0` for float types only, and `false` for `bool`; anything else is `stuck`.
-/
import Verif.Sem.RustEval
import Verif.Spec.Default
namespace TPB.Rust
open Spec

/-- The built-in type named by a type expression. -/
def litTy : Ty → Option TypeId
  | .named id => builtinTypes.lookup id
  | .app _ _ => none

def evalDefE (rec : Ty → Res Val) (expected : Ty) : DefE → Res Val
  | .zero => match litTy expected with
    | some (.integer _ _ _) => .ok (.int 0)
    | _ => .error .stuck
  | .zeroF => match litTy expected with
    | some (.number _ _) => .ok (.num 0)
    | _ => .error .stuck
  | .no => match litTy expected with
    | some (.bool _) => .ok (.bool false)
    | _ => .error .stuck
  | .call t => rec t

def evalDefs (rec : Ty → Res Val) : List Ty → List DefE → Res (List Val)
  | [], [] => .ok []
  | t :: ts, e :: es => do
    let v ← evalDefE rec t e
    let vs ← evalDefs rec ts es
    .ok (v :: vs)
  | _, _ => .error .stuck

/-- A record literal `{ n: e, .. }` for the declared fields `fs`. -/
def evalDefRecord (rec : Ty → Res Val) (fs : List (String × Ty)) (es : List (String × DefE)) :
    Res (List (String × Val)) := do
  let ts ← es.mapM (fun e => orElse .stuck (fs.lookup e.1))
  let vs ← evalDefs rec ts (es.map (·.2))
  mkRecord fs ((es.map (·.1)).zip vs)

def evalDefBody (rec : Ty → Res Val) : Decl → DefBody → Res Val
  | .struct id [], .unit => .ok (.struct id [])
  | .struct id fs, .selfLit es => do
    let r ← evalDefRecord rec fs es
    .ok (.struct id r)
  | .enum id vs, .variant v p =>
    match vs.lookup v, p with
    | some .unit, .unit => .ok (.enum id v [])
    | some (.tuple ts), .tuple es => do
      let us ← evalDefs rec ts es
      let pl ← mkTuple ts.length us
      .ok (.enum id v pl)
    | some (.named fs), .named es => do
      let r ← evalDefRecord rec fs es
      .ok (.enum id v r)
    | _, _ => .error .stuck
  | _, _ => .error .stuck

/-- Default values of several types. -/
def defMany (rec : Ty → Res Val) : List Ty → Res (List Val)
  | [] => .ok []
  | t :: ts => do
    let v ← rec t
    let vs ← defMany rec ts
    .ok (v :: vs)

/-- `T::default()` in a program with the given type items; the first argument bounds the depth of
nested calls (a field initialiser counts as one level even when it is a literal). -/
def defTy (D : Defaults) (items : List TypeItem) : Nat → Ty → Res Val
  | 0, _ => .error .fuel
  | k + 1, .named id =>
    match items.find? (fun i => i.decl.id = id) with
    | some i => if k = 0 then .error .fuel else evalDefBody (defTy D items k) i.decl i.default
    | none =>
      match builtinTypes.lookup id with
      | some t => orElse .stuck (zeroOf t)
      | none => orElse .stuck (D.ext id)
  | k + 1, .app c args => do
    let s ← orElse .stuck (D.shape c)
    let ts ← orElse .stuck (pick args (D.sub c s))
    let vs ← defMany (defTy D items k) ts
    .ok (.list s vs)

/-- `T::default()`, called with enough stack, returns `v`. -/
def HasDefault (D : Defaults) (items : List TypeItem) (t : TypeId) (v : Val) : Prop :=
  ∃ N, ∀ k, N ≤ k → defTy D items k (genTy t) = .ok v

end TPB.Rust
