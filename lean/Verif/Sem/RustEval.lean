/-
Evaluation of the Rust code emitted by the generator (the trees of `Sem/RustIR.lean`).

The runtime library (`BytesReader`, `BytesWriter`, the `IntoVMBuffers` implementations of built-in,
container and external types) is a parameter.  A failing run is explicit: `panic` is a run-time
panic, `stuck` is code that rustc would reject (unknown name, missing field, wrong arity), `fuel`
means that the bound on the depth of nested calls was reached.
-/
import Verif.Sem.RustIR
import Verif.Spec.Wire
namespace TPB.Rust
open Spec

inductive Fault where
  | panic
  | stuck
  | fuel
  deriving Repr, DecidableEq

abbrev Res (α : Type) := Except Fault α

/-- The Rust runtime library: byte formats for writing, and readers.  A reader returns the value and
the remaining bytes, or `none` when it panics. -/
structure Runtime where
  wire : Wire
  readP : String → Bytes → Option (Val × Bytes)
  readX : String → Bytes → Option (Val × Bytes)
  readH : String → Bytes → Option (Nat × Bytes)

/-- What is assumed of the runtime library: readers undo writers, and the formats are lawful. -/
structure Runtime.Lawful (rt : Runtime) : Prop where
  wire : rt.wire.Lawful
  prim : ∀ p v b r, rt.wire.prim p v = some b → rt.readP p (b ++ r) = some (v, r)
  ext : ∀ id v b r, rt.wire.ext id v = some b → rt.readX id (b ++ r) = some (v, r)
  head : ∀ c s b r, rt.wire.head c s = some b → rt.readH c (b ++ r) = some (s, r)

/-- An emitted program: declarations and `impl` blocks. -/
structure Prog where
  decls : List Decl
  impls : List Impl

def Prog.decl? (P : Prog) (id : String) : Option Decl := P.decls.find? (fun d => d.id = id)
def Prog.impl? (P : Prog) (id : String) : Option Impl := P.impls.find? (fun d => d.id = id)

def orElse {α : Type} (f : Fault) : Option α → Res α
  | some a => .ok a
  | none => .error f

/-- Is the name that of a built-in type? -/
def isBuiltin (id : String) : Bool := (builtinTypes.lookup id).isSome

/-- The struct or variant literal `{ n: v, .. }` for the declared fields `fs`: every declared field
exactly once. -/
def mkRecord {α : Type} (fs : List (String × α)) (lits : List (String × Val)) : Res (List (String × Val)) :=
  if fs.length = lits.length then
    fs.mapM (fun f => match lits.lookup f.1 with | some v => .ok (f.1, v) | none => .error .stuck)
  else .error .stuck

/-- The payload `( v, .. )` of a tuple variant with `k` fields. -/
def mkTuple (k : Nat) (vs : List Val) : Res (List (String × Val)) :=
  if vs.length = k then .ok (vs.mapIdx (fun i v => (toString i, v))) else .error .stuck

/-- Does the pattern `p` match the value? -/
def tagIs : Val → Nat → Bool
  | .int n, p => n = p
  | _, _ => false

/-! ### Reading -/

section
variable (rt : Runtime) (P : Prog)

/-- Values of the given types, one after the other. -/
def readMany (rec : Ty → Bytes → Res (Val × Bytes)) : List Ty → Bytes → Res (List Val × Bytes)
  | [], bs => .ok ([], bs)
  | t :: ts, bs => do
    let (v, bs) ← rec t bs
    let (vs, bs) ← readMany rec ts bs
    .ok (v :: vs, bs)

def evalReadE (rec : Ty → Bytes → Res (Val × Bytes)) : ReadE → Bytes → Res (Val × Bytes)
  | .prim m, bs => orElse .panic (rt.readP m bs)
  | .path t, bs => rec t bs

/-- Evaluate read expressions in order. -/
def evalReads (rec : Ty → Bytes → Res (Val × Bytes)) : List ReadE → Bytes → Res (List Val × Bytes)
  | [], bs => .ok ([], bs)
  | e :: es, bs => do
    let (v, bs) ← evalReadE rt rec e bs
    let (vs, bs) ← evalReads rec es bs
    .ok (v :: vs, bs)

/-- The payload declared for a variant. -/
def Prog.variant? (P : Prog) (enumId v : String) : Option (Payload Ty) :=
  match P.decl? enumId with
  | some (.enum _ vs) => vs.lookup v
  | _ => none

/-- The value `E::V ..` with the payload read by the arm. -/
def evalArmValue (rec : Ty → Bytes → Res (Val × Bytes)) (enumId v : String) (p : Payload ReadE)
    (bs : Bytes) : Res (Val × Bytes) :=
  match P.variant? enumId v, p with
  | some .unit, .unit => .ok (.enum enumId v [], bs)
  | some (.tuple ts), .tuple es => do
    let (vs, bs) ← evalReads rt rec es bs
    let pl ← mkTuple ts.length vs
    .ok (.enum enumId v pl, bs)
  | some (.named fs), .named es => do
    let (vs, bs) ← evalReads rt rec (es.map (·.2)) bs
    let pl ← mkRecord fs ((es.map (·.1)).zip vs)
    .ok (.enum enumId v pl, bs)
  | _, _ => .error .stuck

def evalReadBody (rec : Ty → Bytes → Res (Val × Bytes)) (self : String) : ReadBody → Bytes → Res (Val × Bytes)
  | .unit id, bs =>
    match P.decl? id with
    | some (.struct _ []) => if id = self then .ok (.struct id [], bs) else .error .stuck
    | _ => .error .stuck
  | .selfLit es, bs =>
    match P.decl? self with
    | some (.struct _ fs) => do
      let (vs, bs) ← evalReads rt rec (es.map (·.2)) bs
      let r ← mkRecord fs ((es.map (·.1)).zip vs)
      .ok (.struct self r, bs)
    | _ => .error .stuck
  | .matchTag tag enumId arms, bs => do
    let (value, bs) ← evalReadE rt rec tag bs
    match arms.find? (fun a => tagIs value a.1) with
    | some (_, v, p) => if enumId = self then evalArmValue rt P rec enumId v p bs else .error .stuck
    | none => .error .panic

/-- `T::read_from_buffers(bytes_reader)`; the first argument bounds the depth of nested calls. -/
def readTy : Nat → Ty → Bytes → Res (Val × Bytes)
  | 0, _, _ => .error .fuel
  | k + 1, .named id, bs =>
    match P.impl? id with
    | some i => evalReadBody rt P (readTy k) i.id i.read bs
    | none => if isBuiltin id then orElse .panic (rt.readP id bs) else orElse .panic (rt.readX id bs)
  | k + 1, .app c args, bs => do
    let (s, bs) ← orElse .panic (rt.readH c bs)
    let ts ← orElse .stuck (pick args (rt.wire.sub c s))
    let (vs, bs) ← readMany (readTy k) ts bs
    .ok (.list s vs, bs)

/-! ### Writing -/

/-- Values bound to the places that write statements mention, with their declared types. -/
abbrev Env := List (Acc × Ty × Val)

def evalWriteS (rec : Ty → Val → Res Bytes) (env : Env) : WriteS → Res Bytes
  | .prim m (.lit n) => orElse .stuck (rt.wire.prim m (.int n))
  | .prim m a =>
    match env.lookup a with
    | some (_, v) => orElse .stuck (rt.wire.prim m v)
    | none => .error .stuck
  | .call a =>
    match env.lookup a with
    | some (t, v) => rec t v
    | none => .error .stuck

/-- Execute write statements in order; the writer appends. -/
def evalWrites (rec : Ty → Val → Res Bytes) (env : Env) : List WriteS → Res Bytes
  | [] => .ok []
  | s :: ss => do
    let b ← evalWriteS rt rec env s
    let bs ← evalWrites rec env ss
    .ok (b ++ bs)

def writeMany (rec : Ty → Val → Res Bytes) : List Ty → List Val → Res Bytes
  | [], [] => .ok []
  | t :: ts, v :: vs => do
    let b ← rec t v
    let bs ← writeMany rec ts vs
    .ok (b ++ bs)
  | _, _ => .error .stuck

/-- `self.f` for every declared field. -/
def fieldEnv (fs : List (String × Ty)) (vals : List (String × Val)) : Res Env :=
  fs.mapM (fun f => match vals.lookup f.1 with | some v => .ok (.field f.1, f.2, v) | none => .error .stuck)

/-- Variables bound by a struct pattern `{ n, .. }`. -/
def namedEnv (fs : List (String × Ty)) (vals : List (String × Val)) (xs : List String) : Res Env :=
  xs.mapM (fun x => match fs.lookup x, vals.lookup x with
    | some t, some v => .ok (.var x, t, v)
    | _, _ => .error .stuck)

/-- Variables bound by a tuple pattern `( x, .. )`. -/
def tupleEnv (ts : List Ty) (vals : List (String × Val)) (xs : List String) : Res Env :=
  if xs.length = ts.length ∧ vals.length = ts.length then
    .ok ((xs.map Acc.var).zip (ts.zip (vals.map (·.2))))
  else .error .stuck

def armEnv (decl : Option (Payload Ty)) (pat : Payload Unit) (xs : List String)
    (vals : List (String × Val)) : Res Env :=
  match decl, pat with
  | some .unit, .unit => .ok []
  | some (.tuple ts), .tuple _ => tupleEnv ts vals xs
  | some (.named fs), .named _ => namedEnv fs vals xs
  | _, _ => .error .stuck

def evalWriteBody (rec : Ty → Val → Res Bytes) (self : String) : WriteBody → Val → Res Bytes
  | .nop, _ => .ok []
  | .stmts ss, v =>
    match P.decl? self, v with
    | some (.struct _ fs), .struct id vals =>
      if id = self then do
        let env ← fieldEnv fs vals
        evalWrites rt rec env ss
      else .error .stuck
    | _, _ => .error .stuck
  | .matchSelf enumId arms, v =>
    match v with
    | .enum id vn vals =>
      if id = enumId ∧ enumId = self then
        match arms.find? (fun a => a.1 = vn) with
        | some (_, pat, xs, ss) =>
          -- a pattern variable named like the writer argument would shadow it
          if "bytes_writer" ∈ xs then .error .stuck
          else do
            let env ← armEnv (P.variant? enumId vn) pat xs vals
            evalWrites rt rec env ss
        | none => .error .stuck
      else .error .stuck
    | _ => .error .stuck

/-- `v.write_to_buffers(bytes_writer)` for a value of type `T`: the bytes appended. -/
def writeTy : Nat → Ty → Val → Res Bytes
  | 0, _, _ => .error .fuel
  | k + 1, .named id, v =>
    match P.impl? id with
    | some i => evalWriteBody rt P (writeTy k) i.id i.write v
    | none => if isBuiltin id then orElse .stuck (rt.wire.prim id v) else orElse .stuck (rt.wire.ext id v)
  | k + 1, .app c args, v =>
    match v with
    | .list s vs => do
      let h ← orElse .stuck (rt.wire.head c s)
      let ts ← orElse .stuck (pick args (rt.wire.sub c s))
      let bs ← writeMany (writeTy k) ts vs
      .ok (h ++ bs)
    | _ => .error .stuck

/-! ### Skipping -/

/-- Run `f` `n` times. -/
def times (f : Bytes → Res Bytes) : Nat → Bytes → Res Bytes
  | 0, bs => .ok bs
  | n + 1, bs => do
    let bs ← f bs
    times f n bs

def evalSkipBody (rec : Ty → Bytes → Res (Val × Bytes)) (count : Nat) : SkipBody → Bytes → Res Bytes
  | .nop, bs => .ok bs
  | .loop es, bs => times (fun bs => do let (_, bs) ← evalReads rt rec es bs; .ok bs) count bs
  | .loopMatch tag arms, bs => times (fun bs => do
      let (value, bs) ← evalReadE rt rec tag bs
      match arms.find? (fun a => tagIs value a.1) with
      | some (_, none) => .ok bs
      | some (_, some es) => do let (_, bs) ← evalReads rt rec es bs; .ok bs
      | none => .error .panic) count bs

/-- `T::skip_in_buffers(bytes_reader, count)` for a type with an emitted `impl`. -/
def skipTy (k : Nat) (id : String) (count : Nat) (bs : Bytes) : Res Bytes :=
  match P.impl? id with
  | some i => evalSkipBody rt (readTy rt P k) count i.skip bs
  | none => .error .stuck

end

/-- The program emitted for the types of a schema. -/
def genProg (S : List ASTNode) : Prog where
  decls := S.filterMap (fun
    | .struct n => some (genStructDecl n)
    | .enum n => some (genEnumDecl n)
    | _ => none)
  impls := genImpls S

/-- The program `P`, asked with enough stack to write a value of type `t`, appends the bytes `bs`. -/
def Writes (rt : Runtime) (P : Prog) (t : TypeId) (v : Val) (bs : Bytes) : Prop :=
  ∃ N, ∀ k, N ≤ k → writeTy rt P k (genTy t) v = .ok bs

/-- The program `P`, called with enough stack, reads the value `v` of type `t` from `bs` and leaves
the reader at `r`. -/
def Reads (rt : Runtime) (P : Prog) (t : TypeId) (bs : Bytes) (v : Val) (r : Bytes) : Prop :=
  ∃ N, ∀ k, N ≤ k → readTy rt P k (genTy t) bs = .ok (v, r)

/-- The program `P`, called with enough stack, panics when it reads a value of type `t` from `bs`. -/
def ReadPanics (rt : Runtime) (P : Prog) (t : TypeId) (bs : Bytes) : Prop :=
  ∃ N, ∀ k, N ≤ k → readTy rt P k (genTy t) bs = .error .panic

/-- The generator's output for the types of `S` is the text of the program `P`: the models section is
the text of its type declarations (each with an `impl Default`), the buffers section is the text of its
`impl IntoVMBuffers` blocks. -/
def Prints (S : List ASTNode) (P : Prog) : Prop :=
  (∃ items : List TypeItem, items.map (·.decl) = P.decls ∧
    RustGen.models S = .ok (linesText 4 (joinBlocks (items.map TypeItem.render)))) ∧
  RustGen.buffers S = linesText 4 (joinBlocks (P.impls.map Impl.render))

end TPB.Rust
