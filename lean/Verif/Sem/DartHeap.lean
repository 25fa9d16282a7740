/-
Evaluation of the emitted Dart code with objects in memory (the trees of `Sem/DartIR.lean`).

`Sem/DartEval.lean` treats objects as values, so that two variables can never share an object.  Here a variable
holds a reference, a field assignment changes the object that is referred to, and an object may be reachable in
several ways.  `Props/DartHeap.lean` proves when both ways of looking at objects agree.

Everything in Dart is an object: a number, a flag, a constant of an enumeration, a string and an object of a
library class are cells that hold a value (`Cell.val`); only library codecs change what such a cell holds.
Simplification: `const C()` makes a new object here; in Dart it is one object for the whole program, but it has
no fields that could change, and the emitted code does not compare identities.  Nothing is ever freed.
-/
import Verif.Sem.DartEval
namespace TPB.Dart
open Spec

/-- A reference to an object. -/
abbrev Ref := Nat

/-- An object: a value of a library class (numbers, strings, constants), a list, or an object of a class of the
file. -/
inductive Cell where
  | val (v : Val)
  | list (n : Nat) (es : List Ref)
  | obj (cls : String) (fields : List (String × Ref))
  deriving Repr

/-- The memory: the object `r` is the `r`-th one that was made. -/
abbrev Heap := List Cell

/-- The elements of a list; the library may hand out an empty list. -/
def Cell.elems : Cell → Option (Nat × List Ref)
  | .list n es => some (n, es)
  | .val (.list n []) => some (n, [])
  | _ => none

/-- Make an object. -/
def alloc (h : Heap) (c : Cell) : Ref × Heap := (h.length, h ++ [c])

/-- `model.f` -/
def hGet (f : String) (model : Ref) (h : Heap) : Res Ref :=
  match h[model]? with
  | some (.obj _ fs) => orElse .stuck (fs.lookup f)
  | _ => .error .stuck

/-- `model.f = r` -/
def hSet (f : String) (r : Ref) (model : Ref) (h : Heap) : Res Heap :=
  match h[model]? with
  | some (.obj c fs) =>
    if (fs.lookup f).isSome then .ok (h.set model (.obj c (fs.map (fun p => if p.1 = f then (f, r) else p))))
    else .error .stuck
  | _ => .error .stuck

/-- Is the object of the given class? -/
def hIsClass (c : String) (r : Ref) (h : Heap) : Bool :=
  match h[r]? with
  | some (.obj c' _) => c' = c
  | _ => false

/-- The arguments of `C(n: r, ..)`: every declared field exactly once. -/
def hRecord (fs : List String) (lits : List (String × Ref)) : Res (List (String × Ref)) :=
  if fs.length = lits.length then each (fun f => (orElse .stuck (lits.lookup f)).map (fun r => (f, r))) fs
  else .error .stuck

/-- Evaluate a list from left to right. -/
def hEach {α β : Type} (f : α → Heap → Res (β × Heap)) : List α → Heap → Res (List β × Heap)
  | [], h => .ok ([], h)
  | a :: as, h => do
    let (b, h) ← f a h
    let (bs, h) ← hEach f as h
    .ok (b :: bs, h)

section
variable (rt : Runtime) (P : Prog)

/-! ### Creating objects -/

def hDef (rec : New → Heap → Res (Ref × Heap)) : DefE → Heap → Res (Ref × Heap)
  | .zero, h => .ok (alloc h (.val (.int 0)))
  | .zeroF, h => .ok (alloc h (.val (.num 0)))
  | .no, h => .ok (alloc h (.val (.bool false)))
  | .factory id, h => rec (.factory id) h
  | .factoryG id args, h => (orElse .throws (rt.newX (genericName id args))).map (fun v => alloc h (.val v))

def hInit (rec : New → Heap → Res (Ref × Heap)) (i : String × DefE) (h : Heap) : Res ((String × Ref) × Heap) :=
  (hDef rt rec i.2 h).map (fun p => ((i.1, p.1), p.2))

def hPayload (rec : New → Heap → Res (Ref × Heap)) (p : String × String × NewE) (h : Heap) :
    Res ((String × Ref) × Heap) :=
  if p.2.2.cls = p.1 then (rec p.2.2.new h).map (fun q => ((p.2.1, q.1), q.2)) else .error .stuck

/-- Create an object; the first argument bounds the depth of nested calls. -/
def hNew : Nat → New → Heap → Res (Ref × Heap)
  | 0, _, _ => .error .fuel
  | _ + 1, .const c, h =>
    match P.struct? c with
    | some s => if s.fields.isEmpty then .ok (alloc h (.obj c [])) else .error .stuck
    | none => .error .stuck
  | k + 1, .createDefault c, h =>
    match P.struct? c with
    | some s =>
      if s.fields.isEmpty then .error .stuck
      else do
        let (rs, h) ← hEach (hInit rt (hNew k)) s.inits h
        let r ← hRecord (s.fields.map (·.2)) rs
        .ok (alloc h (.obj c r))
    | none => .error .stuck
  | k + 1, .enum e, h =>
    match P.enum? e with
    | some c =>
      if c.first ∈ c.consts then do
        let (rs, h) ← hEach (hPayload (hNew k)) c.payloads h
        let (t, h) := alloc h (.val (.enum (e ++ "Value") c.first []))
        .ok (alloc h (.obj e (("value", t) :: rs)))
      else .error .stuck
    | none => .error .stuck
  | k + 1, .factory id, h =>
    match P.struct? id with
    | some s => hNew k (if s.fields.isEmpty then .const id else .createDefault id) h
    | none =>
      match P.enum? id with
      | some _ => hNew k (.enum id) h
      | none => (orElse .throws (rt.newX id)).map (fun v => alloc h (.val v))

/-! ### Reading -/

/-- `codec.read(reader)`, which returns a reference, and `codec.read(reader, r)`, which changes objects. -/
structure HReaders where
  read : Codec → Heap → Bytes → Res (Ref × Heap × Bytes)
  empl : Codec → Ref → Heap → Bytes → Res (Heap × Bytes)

def hReadE (H : HReaders) : ReadE → Heap → Bytes → Res (Ref × Heap × Bytes)
  | .prim m, h, bs => do
    let (v, bs) ← orElse .throws (rt.readP m bs)
    let (r, h) := alloc h (.val v)
    .ok (r, h, bs)
  | .codec c, h, bs => H.read c h bs

def hReads (H : HReaders) : List ReadE → Heap → Bytes → Res (List Ref × Heap × Bytes)
  | [], h, bs => .ok ([], h, bs)
  | e :: es, h, bs => do
    let (r, h, bs) ← hReadE rt H e h bs
    let (rs, h, bs) ← hReads H es h bs
    .ok (r :: rs, h, bs)

/-- A statement on a place that holds `old`, and what the place holds afterwards: a new object is assigned, or the
object `old` itself has been changed. -/
def hEmplS (H : HReaders) (old : Ref) : EmplS → Heap → Bytes → Res (Ref × Heap × Bytes)
  | .assign _ e, h, bs => hReadE rt H e h bs
  | .into c _, h, bs => do
    let (h, bs) ← H.empl c old h bs
    .ok (old, h, bs)

/-- Only `model.f = e;` changes which object the field refers to. -/
def hStore (s : EmplS) (f : String) (r model : Ref) (h : Heap) : Res Heap :=
  match s with
  | .assign _ _ => hSet f r model h
  | .into _ _ => .ok h

def hEmpls (H : HReaders) : List EmplS → Ref → Heap → Bytes → Res (Heap × Bytes)
  | [], _, h, bs => .ok (h, bs)
  | s :: ss, model, h, bs =>
    match s.acc with
    | .var _ => .error .stuck
    | .field f => do
      let old ← hGet f model h
      let (r, h, bs) ← hEmplS rt H old s h bs
      let h ← hStore s f r model h
      hEmpls H ss model h bs

def hReadN (rd : Heap → Bytes → Res (Ref × Heap × Bytes)) : Nat → Heap → Bytes → Res (List Ref × Heap × Bytes)
  | 0, h, bs => .ok ([], h, bs)
  | n + 1, h, bs => do
    let (r, h, bs) ← rd h bs
    let (rs, h, bs) ← hReadN rd n h bs
    .ok (r :: rs, h, bs)

/-- The body of a `case`: `model.value = EValue.c; codec.read(reader, model.f);`. -/
def hReadCase (H : HReaders) (id : String) (c : ReadCase) (model : Ref) (h : Heap) (bs : Bytes) : Res (Heap × Bytes) :=
  match P.enum? id with
  | some e =>
    if c.const ∈ e.consts then do
      let (t, h) := alloc h (.val (.enum (id ++ "Value") c.const []))
      let h ← hSet "value" t model h
      let old ← hGet c.field model h
      H.empl c.codec old h bs
    else .error .stuck
  | none => .error .stuck

/-- `codec.read(reader)` for a class of the file. -/
def hRead (H : HReaders) (new : New → Heap → Res (Ref × Heap)) (c : CodecClass) (h : Heap) (bs : Bytes) :
    Res (Ref × Heap × Bytes) :=
  match c.body with
  | .structInto locals args _ _ =>
    if "reader" ∈ locals.map (·.1) ∨ ¬ (locals.map (·.1)).Nodup then .error .stuck
    else
      match P.struct? c.id with
      | some s => do
        let (rs, h, bs) ← hReads rt H (locals.map (·.2)) h bs
        let lits ← each (fun a => (orElse .stuck (((locals.map (·.1)).zip rs).lookup a.2)).map
          (fun r => (a.1, r))) args
        let fs ← hRecord s.ctor lits
        if s.ctor = s.fields.map (·.2) then
          let (r, h) := alloc h (.obj c.id fs)
          .ok (r, h, bs)
        else .error .stuck
      | none => .error .stuck
  | .enumInto cases _ _ => do
    let (tag, bs) ← orElse .throws (rt.readP "Int32" bs)
    match cases.find? (fun a => tagIs tag a.pos) with
    | some a => do
      let (model, h) ← new (.enum c.id) h
      let (h, bs) ← hReadCase P H c.id a model h bs
      .ok (model, h, bs)
    | none => .error .throws
  | _ => .error .stuck

/-- `codec.read(reader, model)` for a class of the file. -/
def hEmpl (H : HReaders) (c : CodecClass) (model : Ref) (h : Heap) (bs : Bytes) : Res (Heap × Bytes) :=
  if hIsClass c.id model h then
    match c.body with
    | .structEmplace ss _ _ => hEmpls rt H ss model h bs
    | .enumEmplace cases _ _ => do
      let (tag, bs) ← orElse .throws (rt.readP "Int32" bs)
      match cases.find? (fun a => tagIs tag a.pos) with
      | some a => hReadCase P H c.id a model h bs
      | none => .error .throws
    | _ => .error .stuck
  else .error .stuck

/-- The elements of a list, read one by one by `const EIntoBuffers()`. -/
def hList (H : HReaders) (e : String) (h : Heap) (bs : Bytes) : Res ((Nat × List Ref) × Heap × Bytes) := do
  let (n, bs) ← orElse .throws (rt.readL bs)
  let (rs, h, bs) ← hReadN (H.read (.plain .into e)) n h bs
  .ok ((n, rs), h, bs)

/-- A library codec reads a new object. -/
def hReadX (id : String) (h : Heap) (bs : Bytes) : Res (Ref × Heap × Bytes) := do
  let (v, bs) ← orElse .throws (rt.readX id bs)
  let (r, h) := alloc h (.val v)
  .ok (r, h, bs)

/-- A library codec changes the object it is given. -/
def hEmplX (id : String) (r : Ref) (h : Heap) (bs : Bytes) : Res (Heap × Bytes) :=
  match h[r]? with
  | some (.val v) => do
    let (v, bs) ← orElse .throws (rt.emplX id v bs)
    .ok (h.set r (.val v), bs)
  | _ => .error .stuck

/-- The list codec replaces the elements of the list it is given. -/
def hEmplList (H : HReaders) (e : String) (r : Ref) (h : Heap) (bs : Bytes) : Res (Heap × Bytes) :=
  match (h[r]?).bind Cell.elems with
  | some _ => do
    let (l, h, bs) ← hList rt H e h bs
    .ok (h.set r (.list l.1 l.2), bs)
  | none => .error .stuck

/-- The codecs, with a bound on the depth of nested calls. -/
def hReaders : Nat → HReaders
  | 0 => ⟨fun _ _ _ => .error .fuel, fun _ _ _ _ => .error .fuel⟩
  | k + 1 =>
    { read := fun c h bs =>
        match c with
        | .plain kd b =>
          match P.codec? (b ++ kd.suffix), kd with
          | some cl, .into => hRead rt P (hReaders k) (hNew rt P k) cl h bs
          | none, .into => hReadX rt b h bs
          | _, .emplace => .error .stuck
        | .generic kd b args =>
          match P.codec? (b ++ kd.suffix), kd with
          | none, .into => hReadX rt (genericName b args) h bs
          | _, _ => .error .stuck
        | .list kd _ e =>
          match P.codec? ("List" ++ kd.suffix), kd with
          | none, .into => do
            let (l, h, bs) ← hList rt (hReaders k) e h bs
            let (r, h) := alloc h (.list l.1 l.2)
            .ok (r, h, bs)
          | _, _ => .error .stuck
      empl := fun c r h bs =>
        match c with
        | .plain kd b =>
          match P.codec? (b ++ kd.suffix), kd with
          | some cl, .emplace => hEmpl rt P (hReaders k) cl r h bs
          | none, .emplace => hEmplX rt b r h bs
          | _, .into => .error .stuck
        | .generic kd b args =>
          match P.codec? (b ++ kd.suffix), kd with
          | none, .emplace => hEmplX rt (genericName b args) r h bs
          | _, _ => .error .stuck
        | .list kd _ e =>
          match P.codec? ("List" ++ kd.suffix), kd with
          | none, .emplace => hEmplList rt (hReaders k) e r h bs
          | _, _ => .error .stuck }

/-! ### Writing -/

/-- The value of a library object. -/
def hValue (r : Ref) (h : Heap) : Res Val :=
  match h[r]? with
  | some (.val v) => .ok v
  | _ => .error .stuck

def hWriteS (rec : Codec → Ref → Res Bytes) (h : Heap) (r : Ref) : WriteS → Res Bytes
  | .prim m _ => do
    let v ← hValue r h
    orElse .throws (rt.writeP m v)
  | .codec c _ => rec c r

def hWrites (rec : Codec → Ref → Res Bytes) (h : Heap) (model : Ref) : List WriteS → Res Bytes
  | [] => .ok []
  | s :: ss =>
    match s.acc with
    | .var _ => .error .stuck
    | .field f => do
      let r ← hGet f model h
      let b ← hWriteS rt rec h r s
      let bs ← hWrites rec h model ss
      .ok (b ++ bs)

def hWriteCases (rec : Codec → Ref → Res Bytes) (h : Heap) (id : String) (cases : List WriteCase) (model : Ref) :
    Res Bytes := do
  let t ← hGet "value" model h
  let tag ← hValue t h
  match cases.find? (fun a => isConst (id ++ "Value") a.const tag) with
  | some a => do
    let b ← orElse .throws (rt.writeP "Int32" (.int a.pos))
    let r ← hGet a.field model h
    let bs ← rec a.codec r
    .ok (b ++ bs)
  | none => .error .stuck

/-- `codec.write(writer, model)` for a class of the file. -/
def hWrite (rec : Codec → Ref → Res Bytes) (h : Heap) (c : CodecClass) (model : Ref) : Res Bytes :=
  if hIsClass c.id model h then
    match c.body with
    | .structInto _ _ ws _ => hWrites rt rec h model ws
    | .structEmplace _ ws _ => hWrites rt rec h model ws
    | .enumInto _ ws _ => hWriteCases rt rec h c.id ws model
    | .enumEmplace _ ws _ => hWriteCases rt rec h c.id ws model
  else .error .stuck

def hWriteAll (wr : Ref → Res Bytes) : List Ref → Res Bytes
  | [] => .ok []
  | r :: rs => do
    let b ← wr r
    let bs ← hWriteAll wr rs
    .ok (b ++ bs)

def hWriteX (id : String) (h : Heap) (r : Ref) : Res Bytes := do
  let v ← hValue r h
  orElse .throws (rt.writeX id v)

/-- `codec.write(writer, r)`: the bytes appended; no object is changed. -/
def hWriteC (h : Heap) : Nat → Codec → Ref → Res Bytes
  | 0, _, _ => .error .fuel
  | k + 1, .plain kd b, r =>
    match P.codec? (b ++ kd.suffix) with
    | some cl => hWrite rt (hWriteC h k) h cl r
    | none => hWriteX rt b h r
  | _ + 1, .generic kd b args, r =>
    match P.codec? (b ++ kd.suffix) with
    | some _ => .error .stuck
    | none => hWriteX rt (genericName b args) h r
  | k + 1, .list kd _ e, r =>
    match P.codec? ("List" ++ kd.suffix), (h[r]?).bind Cell.elems with
    | none, some (n, es) =>
      if n = es.length then do
        let b ← orElse .throws (rt.writeL n)
        let bs ← hWriteAll (hWriteC h k (.plain .into e)) es
        .ok (b ++ bs)
      else .error .stuck
    | _, _ => .error .stuck

end

/-! ### What an emitted program does with an object of a schema type -/

/-- With enough stack, `P` reads from `bs` a new object `o` of type `t`; the memory becomes `h'`. -/
def HReads (rt : Runtime) (P : Prog) (t : TypeId) (h : Heap) (bs : Bytes) (o : Ref) (h' : Heap) (r : Bytes) : Prop :=
  ∃ N, ∀ k, N ≤ k → hReadE rt (hReaders rt P k) (genRead t) h bs = .ok (o, h', r)

/-- With enough stack, `const XBuffersFactory().createDefault()` returns the new object `o`. -/
def HCreates (rt : Runtime) (P : Prog) (id : String) (h : Heap) (o : Ref) (h' : Heap) : Prop :=
  ∃ N, ∀ k, N ≤ k → hNew rt P k (.factory id) h = .ok (o, h')

/-- With enough stack, `const XEmplaceToBuffers().read(reader, o)` changes the memory to `h'`. -/
def HEmplaces (rt : Runtime) (P : Prog) (id : String) (o : Ref) (h : Heap) (bs : Bytes) (h' : Heap) (r : Bytes) : Prop :=
  ∃ N, ∀ k, N ≤ k → (hReaders rt P k).empl (.plain .emplace id) o h bs = .ok (h', r)

/-- With enough stack, `P` writes the object `o` of type `t` as `bs`. -/
def HWrites (rt : Runtime) (P : Prog) (kd : Kind) (t : TypeId) (h : Heap) (o : Ref) (bs : Bytes) : Prop :=
  ∃ N, ∀ k, N ≤ k → hWriteS rt (hWriteC rt P h k) h o (genWrite kd t (.var "model")) = .ok bs

end TPB.Dart
