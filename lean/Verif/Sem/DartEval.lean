/-
Evaluation of the Dart code emitted for structs and enums (the trees of `Sem/DartIR.lean`).

The runtime library (`BytesReader`, `BytesWriter`, the codecs and factories of built-in, list and
external types) is a parameter.  Dart objects are values: an object of class `C` is `.struct C fields`,
a constant `E.c` of an enumeration is `.enum E c []`.  Two variables never share an object here; `Sem/DartHeap.lean`
evaluates the same code with objects that can be shared, and C90 says when both agree.

A failing run is explicit: `throws` is an exception, `stuck` is code that the Dart compiler would reject
(unknown or missing name, wrong class), `fuel` means that the bound on the depth of nested calls was
reached.
-/
import Verif.Sem.DartIR
import Verif.Spec.Dart
namespace TPB.Dart
open Spec

inductive Fault where
  | throws
  | stuck
  | fuel
  deriving Repr, DecidableEq

abbrev Res (α : Type) := Except Fault α

instance (t : TypeId) (v : Val) : Decidable (LeafVal t v) := by
  unfold LeafVal
  split <;> infer_instance

/-- The Dart runtime library.  Writers return `none` for a value they do not accept, readers return
`none` when they throw.
* `writeP`, `readP`: methods `writeM`, `readM` of the writer and the reader;
* `writeX`, `readX`, `emplX`, `skipX`: the library codecs `XIntoBuffers` and `XEmplaceToBuffers`
  (`emplX` returns the new contents of the object it is given);
* `writeL`, `readL`: the header of a list;
* `newX`: `const XBuffersFactory().createDefault()`. -/
structure Runtime where
  writeP : String → Val → Option Bytes
  readP : String → Bytes → Option (Val × Bytes)
  writeX : String → Val → Option Bytes
  readX : String → Bytes → Option (Val × Bytes)
  emplX : String → Val → Bytes → Option (Val × Bytes)
  skipX : String → Bytes → Option Bytes
  writeL : Nat → Option Bytes
  readL : Bytes → Option (Nat × Bytes)
  newX : String → Option Val

/-- The byte formats of the library, for the values that Dart can represent. -/
def Runtime.wire (rt : Runtime) : Wire where
  prim p v :=
    let m := if p = "u32" then "Int32" else p
    match dartPrims.lookup m with
    | some t => if LeafVal t v then rt.writeP m v else none
    | none => none
  ext := rt.writeX
  head c n := if c = "Vec" then rt.writeL n else none
  sub _ n := List.replicate n 0

/-- What is assumed of the library: every representable value can be written, readers undo writers
whatever the object held before, skipping a value passes over its bytes, reading a number gives a
representable number, and default objects exist. -/
structure Runtime.Lawful (rt : Runtime) : Prop where
  total : ∀ m t v, dartPrims.lookup m = some t → LeafVal t v → ∃ b, rt.writeP m v = some b
  prim : ∀ m t v b r, dartPrims.lookup m = some t → LeafVal t v → rt.writeP m v = some b →
    rt.readP m (b ++ r) = some (v, r)
  range : ∀ m t v bs r, dartPrims.lookup m = some t → rt.readP m bs = some (v, r) → LeafVal t v
  ext : ∀ id v b r, rt.writeX id v = some b → rt.readX id (b ++ r) = some (v, r)
  empl : ∀ id v b r old, rt.writeX id v = some b → rt.emplX id old (b ++ r) = some (v, r)
  skip : ∀ id v b r, rt.writeX id v = some b → rt.skipX id (b ++ r) = some r
  len : ∀ n b r, rt.writeL n = some b → rt.readL (b ++ r) = some (n, r)
  new : ∀ id, (rt.newX id).isSome

/-- An emitted program: model classes and codec classes. -/
structure Prog where
  items : List ClassItem
  codecs : List CodecClass

/-- The classes of structs and of variants. -/
def ClassItem.structs : ClassItem → List StructClass
  | .struct c => [c]
  | .enum _ vs => vs

def ClassItem.enums : ClassItem → List EnumClass
  | .struct _ => []
  | .enum c _ => [c]

def Prog.struct? (P : Prog) (id : String) : Option StructClass :=
  (P.items.flatMap ClassItem.structs).find? (fun c => c.id = id)
def Prog.enum? (P : Prog) (id : String) : Option EnumClass :=
  (P.items.flatMap ClassItem.enums).find? (fun c => c.id = id)
def Prog.codec? (P : Prog) (name : String) : Option CodecClass := P.codecs.find? (fun c => c.name = name)

def orElse {α : Type} (f : Fault) : Option α → Res α
  | some a => .ok a
  | none => .error f

/-- Evaluate a list from left to right. -/
def each {α β : Type} (f : α → Res β) : List α → Res (List β)
  | [] => .ok []
  | a :: as => do
    let b ← f a
    let bs ← each f as
    .ok (b :: bs)

/-- The object `C(n: v, ..)`: every declared field exactly once. -/
def mkRecord (fs : List String) (lits : List (String × Val)) : Res (List (String × Val)) :=
  if fs.length = lits.length then each (fun f => (orElse .stuck (lits.lookup f)).map (fun v => (f, v))) fs
  else .error .stuck

/-- `model.f` -/
def getField (f : String) : Val → Res Val
  | .struct _ fs => orElse .stuck (fs.lookup f)
  | _ => .error .stuck

/-- `model.f = v` -/
def setField (f : String) (v : Val) : Val → Res Val
  | .struct c fs =>
    if (fs.lookup f).isSome then .ok (.struct c (fs.map (fun p => if p.1 = f then (f, v) else p)))
    else .error .stuck
  | _ => .error .stuck

/-- Run `f` `n` times. -/
def times (f : Bytes → Res Bytes) : Nat → Bytes → Res Bytes
  | 0, bs => .ok bs
  | n + 1, bs => do
    let bs ← f bs
    times f n bs

/-- Does the `case` match the value? -/
def tagIs : Val → Nat → Bool
  | .int n, p => n = p
  | _, _ => false

section
variable (rt : Runtime) (P : Prog)

/-! ### Creating objects -/

/-- Expressions that create an object: `const C()`, `C.createDefault()`, `E()` and
`const XBuffersFactory().createDefault()`. -/
inductive New where
  | const (c : String)
  | createDefault (c : String)
  | enum (e : String)
  | factory (id : String)

def NewE.new : NewE → New
  | .const c => .const c
  | .createDefault c => .createDefault c

def NewE.cls : NewE → String
  | .const c => c
  | .createDefault c => c

/-- Name of a generic library type with its arguments. -/
def genericName (id : String) (args : List Ty) : String :=
  id ++ "<" ++ joinStr ", " (args.map Ty.render) ++ ">"

def evalDef (rec : New → Res Val) : DefE → Res Val
  | .zero => .ok (.int 0)
  | .zeroF => .ok (.num 0)
  | .no => .ok (.bool false)
  | .factory id => rec (.factory id)
  | .factoryG id args => orElse .throws (rt.newX (genericName id args))

def evalInit (rec : New → Res Val) (i : String × DefE) : Res (String × Val) :=
  (evalDef rt rec i.2).map (fun v => (i.1, v))

def evalPayload (rec : New → Res Val) (p : String × String × NewE) : Res (String × Val) :=
  if p.2.2.cls = p.1 then (rec p.2.2.new).map (fun v => (p.2.1, v)) else .error .stuck

/-- Create an object; the first argument bounds the depth of nested calls. -/
def newVal : Nat → New → Res Val
  | 0, _ => .error .fuel
  | _ + 1, .const c =>
    match P.struct? c with
    | some s => if s.fields.isEmpty then .ok (.struct c []) else .error .stuck
    | none => .error .stuck
  | k + 1, .createDefault c =>
    match P.struct? c with
    | some s =>
      if s.fields.isEmpty then .error .stuck
      else do
        let vs ← each (evalInit rt (newVal k)) s.inits
        let r ← mkRecord (s.fields.map (·.2)) vs
        .ok (.struct c r)
    | none => .error .stuck
  | k + 1, .enum e =>
    match P.enum? e with
    | some c =>
      if c.first ∈ c.consts then do
        let vs ← each (evalPayload (newVal k)) c.payloads
        .ok (.struct e (("value", .enum (e ++ "Value") c.first []) :: vs))
      else .error .stuck
    | none => .error .stuck
  | k + 1, .factory id =>
    match P.struct? id with
    | some s => newVal k (if s.fields.isEmpty then .const id else .createDefault id)
    | none =>
      match P.enum? id with
      | some _ => newVal k (.enum id)
      | none => orElse .throws (rt.newX id)

/-! ### Reading -/

/-- `codec.read(reader)` and `codec.read(reader, old)`. -/
structure Readers where
  read : Codec → Bytes → Res (Val × Bytes)
  empl : Codec → Val → Bytes → Res (Val × Bytes)

def evalReadE (R : Readers) : ReadE → Bytes → Res (Val × Bytes)
  | .prim m, bs => orElse .throws (rt.readP m bs)
  | .codec c, bs => R.read c bs

/-- Evaluate read expressions in order. -/
def evalReads (R : Readers) : List ReadE → Bytes → Res (List Val × Bytes)
  | [], bs => .ok ([], bs)
  | e :: es, bs => do
    let (v, bs) ← evalReadE rt R e bs
    let (vs, bs) ← evalReads R es bs
    .ok (v :: vs, bs)

def EmplS.acc : EmplS → Acc
  | .assign a _ => a
  | .into _ a => a

/-- The new contents of the place that held `old`. -/
def evalEmplS (R : Readers) (old : Val) : EmplS → Bytes → Res (Val × Bytes)
  | .assign _ e, bs => evalReadE rt R e bs
  | .into c _, bs => R.empl c old bs

/-- Execute emplace statements in order on the object `model`. -/
def evalEmpls (R : Readers) : List EmplS → Val → Bytes → Res (Val × Bytes)
  | [], model, bs => .ok (model, bs)
  | s :: ss, model, bs =>
    match s.acc with
    | .var _ => .error .stuck
    | .field f => do
      let old ← getField f model
      let (v, bs) ← evalEmplS rt R old s bs
      let model ← setField f v model
      evalEmpls R ss model bs

/-- Elements of a list: `n` values read by one codec. -/
def readN (rd : Bytes → Res (Val × Bytes)) : Nat → Bytes → Res (List Val × Bytes)
  | 0, bs => .ok ([], bs)
  | n + 1, bs => do
    let (v, bs) ← rd bs
    let (vs, bs) ← readN rd n bs
    .ok (v :: vs, bs)

/-- The body of a `case`: `model.value = EValue.c; codec.read(reader, model.f);`. -/
def evalReadCase (R : Readers) (id : String) (c : ReadCase) (model : Val) (bs : Bytes) : Res (Val × Bytes) :=
  match P.enum? id with
  | some e =>
    if c.const ∈ e.consts then do
      let model ← setField "value" (.enum (id ++ "Value") c.const []) model
      let old ← getField c.field model
      let (v, bs) ← R.empl c.codec old bs
      let model ← setField c.field v model
      .ok (model, bs)
    else .error .stuck
  | none => .error .stuck

/-- `codec.read(reader)` for a class of the file. -/
def evalRead (R : Readers) (new : New → Res Val) (c : CodecClass) (bs : Bytes) : Res (Val × Bytes) :=
  match c.body with
  | .structInto locals args _ _ =>
    -- a local variable named like the argument would hide it, and locals must differ
    if "reader" ∈ locals.map (·.1) ∨ ¬ (locals.map (·.1)).Nodup then .error .stuck
    else
      match P.struct? c.id with
      | some s => do
        let (vs, bs) ← evalReads rt R (locals.map (·.2)) bs
        let lits ← each (fun a => (orElse .stuck (((locals.map (·.1)).zip vs).lookup a.2)).map
          (fun v => (a.1, v))) args
        let r ← mkRecord s.ctor lits
        if s.ctor = s.fields.map (·.2) then .ok (.struct c.id r, bs) else .error .stuck
      | none => .error .stuck
  | .enumInto cases _ _ => do
    let (tag, bs) ← orElse .throws (rt.readP "Int32" bs)
    match cases.find? (fun a => tagIs tag a.pos) with
    | some a => do
      let model ← new (.enum c.id)
      evalReadCase P R c.id a model bs
    | none => .error .throws
  | _ => .error .stuck

/-- Is the object of the given class? -/
def isClass (c : String) : Val → Bool
  | .struct c' _ => c' = c
  | _ => false

/-- `codec.read(reader, model)` for a class of the file. -/
def evalEmpl (R : Readers) (c : CodecClass) (model : Val) (bs : Bytes) : Res (Val × Bytes) :=
  if isClass c.id model then
    match c.body with
    | .structEmplace ss _ _ => evalEmpls rt R ss model bs
    | .enumEmplace cases _ _ => do
      let (tag, bs) ← orElse .throws (rt.readP "Int32" bs)
      match cases.find? (fun a => tagIs tag a.pos) with
      | some a => evalReadCase P R c.id a model bs
      | none => .error .throws
    | _ => .error .stuck
  else .error .stuck

/-- The elements of a list, read one by one by `const EIntoBuffers()`. -/
def evalList (R : Readers) (e : String) (bs : Bytes) : Res (Val × Bytes) := do
  let (n, bs) ← orElse .throws (rt.readL bs)
  let (vs, bs) ← readN (R.read (.plain .into e)) n bs
  .ok (.list n vs, bs)

/-- The codecs, with a bound on the depth of nested calls. -/
def readers : Nat → Readers
  | 0 => ⟨fun _ _ => .error .fuel, fun _ _ _ => .error .fuel⟩
  | k + 1 =>
    { read := fun c bs =>
        match c with
        | .plain kd b =>
          match P.codec? (b ++ kd.suffix), kd with
          | some cl, .into => evalRead rt P (readers k) (newVal rt P k) cl bs
          | none, .into => orElse .throws (rt.readX b bs)
          | _, .emplace => .error .stuck
        | .generic kd b args =>
          match P.codec? (b ++ kd.suffix), kd with
          | none, .into => orElse .throws (rt.readX (genericName b args) bs)
          | _, _ => .error .stuck
        | .list kd _ e =>
          match P.codec? ("List" ++ kd.suffix), kd with
          | none, .into => evalList rt (readers k) e bs
          | _, _ => .error .stuck
      empl := fun c old bs =>
        match c with
        | .plain kd b =>
          match P.codec? (b ++ kd.suffix), kd with
          | some cl, .emplace => evalEmpl rt P (readers k) cl old bs
          | none, .emplace => orElse .throws (rt.emplX b old bs)
          | _, .into => .error .stuck
        | .generic kd b args =>
          match P.codec? (b ++ kd.suffix), kd with
          | none, .emplace => orElse .throws (rt.emplX (genericName b args) old bs)
          | _, _ => .error .stuck
        | .list kd _ e =>
          match P.codec? ("List" ++ kd.suffix), kd with
          | none, .emplace => evalList rt (readers k) e bs
          | _, _ => .error .stuck }

/-! ### Writing -/

def evalWriteS (rec : Codec → Val → Res Bytes) (v : Val) : WriteS → Res Bytes
  | .prim m _ => orElse .throws (rt.writeP m v)
  | .codec c _ => rec c v

def WriteS.acc : WriteS → Acc
  | .prim _ a => a
  | .codec _ a => a

/-- Execute write statements in order; the writer appends. -/
def evalWrites (rec : Codec → Val → Res Bytes) (model : Val) : List WriteS → Res Bytes
  | [] => .ok []
  | s :: ss =>
    match s.acc with
    | .var _ => .error .stuck
    | .field f => do
      let v ← getField f model
      let b ← evalWriteS rt rec v s
      let bs ← evalWrites rec model ss
      .ok (b ++ bs)

def isConst (e c : String) : Val → Bool
  | .enum e' c' [] => e' = e && c' = c
  | _ => false

/-- `switch (model.value) { case EValue.c: writer.writeInt32(p); codec.write(writer, model.f); .. }` -/
def evalWriteCases (rec : Codec → Val → Res Bytes) (id : String) (cases : List WriteCase) (model : Val) :
    Res Bytes := do
  let tag ← getField "value" model
  match cases.find? (fun a => isConst (id ++ "Value") a.const tag) with
  | some a => do
    let b ← orElse .throws (rt.writeP "Int32" (.int a.pos))
    let v ← getField a.field model
    let bs ← rec a.codec v
    .ok (b ++ bs)
  | none => .error .stuck

/-- `codec.write(writer, model)` for a class of the file. -/
def evalWrite (rec : Codec → Val → Res Bytes) (c : CodecClass) (model : Val) : Res Bytes :=
  if isClass c.id model then
    match c.body with
    | .structInto _ _ ws _ => evalWrites rt rec model ws
    | .structEmplace _ ws _ => evalWrites rt rec model ws
    | .enumInto _ ws _ => evalWriteCases rt rec c.id ws model
    | .enumEmplace _ ws _ => evalWriteCases rt rec c.id ws model
  else .error .stuck

/-- Write values by one codec. -/
def writeAll (wr : Val → Res Bytes) : List Val → Res Bytes
  | [] => .ok []
  | v :: vs => do
    let b ← wr v
    let bs ← writeAll wr vs
    .ok (b ++ bs)

/-- `codec.write(writer, v)`: the bytes appended; the first argument bounds the depth of nested calls. -/
def writeC : Nat → Codec → Val → Res Bytes
  | 0, _, _ => .error .fuel
  | k + 1, .plain kd b, v =>
    match P.codec? (b ++ kd.suffix) with
    | some cl => evalWrite rt (writeC k) cl v
    | none => orElse .throws (rt.writeX b v)
  | _ + 1, .generic kd b args, v =>
    match P.codec? (b ++ kd.suffix) with
    | some _ => .error .stuck
    | none => orElse .throws (rt.writeX (genericName b args) v)
  | k + 1, .list kd _ e, v =>
    match P.codec? ("List" ++ kd.suffix), v with
    | none, .list n vs =>
      if n = vs.length then do
        let h ← orElse .throws (rt.writeL n)
        let bs ← writeAll (writeC k (.plain .into e)) vs
        .ok (h ++ bs)
      else .error .stuck
    | _, _ => .error .stuck

/-! ### Skipping -/

def evalSkipS (rec : Codec → Nat → Bytes → Res Bytes) : SkipS → Bytes → Res Bytes
  | .prim m, bs => (orElse .throws (rt.readP m bs)).map (·.2)
  | .codec c, bs => rec c 1 bs

def evalSkips (rec : Codec → Nat → Bytes → Res Bytes) : List SkipS → Bytes → Res Bytes
  | [], bs => .ok bs
  | s :: ss, bs => do
    let bs ← evalSkipS rt rec s bs
    evalSkips rec ss bs

def evalSkipBody (rec : Codec → Nat → Bytes → Res Bytes) (count : Nat) (b : SkipBody) (bs : Bytes) :
    Res Bytes := do
  let bs ← evalSkips rt rec b.once bs
  times (evalSkips rt rec b.loop) count bs

def evalSkipCases (rec : Codec → Nat → Bytes → Res Bytes) (cases : List SkipCase) (bs : Bytes) :
    Res Bytes := do
  let (tag, bs) ← orElse .throws (rt.readP "Int32" bs)
  match cases.find? (fun a => tagIs tag a.pos) with
  | some a => rec a.codec 1 bs
  | none => .error .throws

/-- `codec.skip(reader, count)` for a class of the file. -/
def evalSkip (rec : Codec → Nat → Bytes → Res Bytes) (c : CodecClass) (count : Nat) (bs : Bytes) : Res Bytes :=
  match c.body with
  | .structInto _ _ _ sk => evalSkipBody rt rec count sk bs
  | .structEmplace _ _ sk => evalSkipBody rt rec count sk bs
  | .enumInto _ _ sk => times (evalSkipCases rt rec sk) count bs
  | .enumEmplace _ _ sk => times (evalSkipCases rt rec sk) count bs

/-- Skip one list: its elements are skipped one by one. -/
def skipList (rec : Codec → Nat → Bytes → Res Bytes) (e : String) (bs : Bytes) : Res Bytes := do
  let (n, bs) ← orElse .throws (rt.readL bs)
  times (rec (.plain .into e) 1) n bs

/-- `codec.skip(reader, count)`. -/
def skipC : Nat → Codec → Nat → Bytes → Res Bytes
  | 0, _, _, _ => .error .fuel
  | k + 1, .plain kd b, count, bs =>
    match P.codec? (b ++ kd.suffix) with
    | some cl => evalSkip rt (skipC k) cl count bs
    | none => times (fun bs => orElse .throws (rt.skipX b bs)) count bs
  | _ + 1, .generic kd b args, count, bs =>
    match P.codec? (b ++ kd.suffix) with
    | some _ => .error .stuck
    | none => times (fun bs => orElse .throws (rt.skipX (genericName b args) bs)) count bs
  | k + 1, .list kd _ e, count, bs =>
    match P.codec? ("List" ++ kd.suffix) with
    | none => times (skipList rt (skipC k) e) count bs
    | some _ => .error .stuck

end

/-! ### What an emitted program does with a value of a schema type -/

/-- Read a value of type `t` by its `IntoBuffers` codec (or reader method). -/
def readT (rt : Runtime) (P : Prog) (k : Nat) (t : TypeId) (bs : Bytes) : Res (Val × Bytes) :=
  evalReadE rt (readers rt P k) (genRead t) bs

/-- Read a value of type `t` into a place that holds `old`, as emplace codecs do. -/
def emplT (rt : Runtime) (P : Prog) (k : Nat) (t : TypeId) (old : Val) (bs : Bytes) : Res (Val × Bytes) :=
  evalEmplS rt (readers rt P k) old (genReadEmplace t (.var "model")) bs

/-- Write an object of type `t`, as the codecs of the given family do. -/
def writeT (rt : Runtime) (P : Prog) (k : Nat) (kd : Kind) (t : TypeId) (v : Val) : Res Bytes :=
  evalWriteS rt (writeC rt P k) v (genWrite kd t (.var "model"))

/-- Skip one value of type `t`, as the codecs of the given family do. -/
def skipT (rt : Runtime) (P : Prog) (k : Nat) (kd : Kind) (t : TypeId) (bs : Bytes) : Res Bytes :=
  evalSkipS rt (skipC rt P k) (genSkip kd t) bs

/-- With enough stack, `P` reads from `bs` an object `d` of type `t` and leaves the reader at `r`. -/
def Reads (rt : Runtime) (P : Prog) (t : TypeId) (bs : Bytes) (d : Val) (r : Bytes) : Prop :=
  ∃ N, ∀ k, N ≤ k → readT rt P k t bs = .ok (d, r)

/-- With enough stack, `P` reads from `bs` into the object `old` of type `t`, which then holds `d`. -/
def Emplaces (rt : Runtime) (P : Prog) (t : TypeId) (old : Val) (bs : Bytes) (d : Val) (r : Bytes) : Prop :=
  ∃ N, ∀ k, N ≤ k → emplT rt P k t old bs = .ok (d, r)

/-- With enough stack, `P` writes the object `d` of type `t` as `bs`. -/
def Writes (rt : Runtime) (P : Prog) (kd : Kind) (t : TypeId) (d : Val) (bs : Bytes) : Prop :=
  ∃ N, ∀ k, N ≤ k → writeT rt P k kd t d = .ok bs

/-- With enough stack, `codec.skip(reader, count)` moves the reader from `bs` to `r`. -/
def Skips (rt : Runtime) (P : Prog) (c : Codec) (count : Nat) (bs r : Bytes) : Prop :=
  ∃ N, ∀ k, N ≤ k → skipC rt P k c count bs = .ok r

/-- The program emitted for the types of a schema. -/
def genProg (x : Ext) (S : List ASTNode) : Prog := ⟨genItems x S, genCodecs x S⟩

/-- The generator's models and buffers sections for `S` are the text of the program `P`. -/
def Prints (x : Ext) (S : List ASTNode) (P : Prog) : Prop :=
  DartGen.models x S = .ok (linesText 2 (renderItems P.items)) ∧
  DartGen.buffers x S = .ok (linesText 2 (joinBlocks (P.codecs.map CodecClass.render)))

end TPB.Dart
