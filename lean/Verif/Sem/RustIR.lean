/-
Syntax of the Rust code that the generator emits, with its rendering to text.

`gen*` builds, from a schema, the syntax tree of the emitted declarations and `impl` blocks;
`render*` prints a tree as lines of text.  `Proofs/RustText.lean` proves that printing the tree
gives exactly the text that `Model/RustGen.lean` produces, so a statement about the tree is a
statement about the emitted text.
-/
import Verif.Model.RustGen
import Verif.Sem.Text
namespace TPB.Rust

/-- A type expression: `Foo` or `Foo<A, B>`. -/
inductive Ty where
  | named (id : String)
  | app (id : String) (args : List Ty)
  deriving Repr, Inhabited

/-- A read expression: `bytes_reader.read_m()` or `T::read_from_buffers(bytes_reader)`. -/
inductive ReadE where
  | prim (method : String)
  | path (ty : Ty)
  deriving Repr, Inhabited

/-- The place or literal that a write statement writes. -/
inductive Acc where
  /-- `self.f` -/
  | field (name : String)
  /-- a variable bound by a pattern (a reference) -/
  | var (name : String)
  /-- an integer literal -/
  | lit (n : Nat)
  deriving Repr, Inhabited, DecidableEq

/-- A write statement. -/
inductive WriteS where
  /-- `bytes_writer.write_m(acc);` (variables are dereferenced) -/
  | prim (method : String) (acc : Acc)
  /-- `acc.write_to_buffers(bytes_writer);` -/
  | call (acc : Acc)
  deriving Repr, Inhabited, DecidableEq

/-- Payload syntax of a variant: nothing, `( .. )` or `{ n: .. }`. -/
inductive Payload (α : Type) where
  | unit
  | tuple (xs : List α)
  | named (xs : List (String × α))
  deriving Repr, Inhabited

/-- Struct or enum declaration. -/
inductive Decl where
  /-- `pub struct X;` when there are no fields, `pub struct X { .. }` otherwise -/
  | struct (id : String) (fields : List (String × Ty))
  | enum (id : String) (variants : List (String × Payload Ty))
  deriving Repr, Inhabited

/-- Body of `read_from_buffers`. -/
inductive ReadBody where
  /-- the value of a unit struct -/
  | unit (id : String)
  /-- `Self { f: e, .. }` -/
  | selfLit (fields : List (String × ReadE))
  /-- `let value = tag; match value { p => return E::V .., _ => panic!(..) }` -/
  | matchTag (tag : ReadE) (enumId : String) (arms : List (Nat × String × Payload ReadE))
  deriving Repr, Inhabited

/-- Body of `write_to_buffers`. -/
inductive WriteBody where
  | nop
  | stmts (ss : List WriteS)
  /-- `match self { E::V pattern => { stmts } }`; the payload holds the pattern's variables. -/
  | matchSelf (enumId : String) (arms : List (String × Payload Unit × List String × List WriteS))
  deriving Repr, Inhabited

/-- Body of `skip_in_buffers`. -/
inductive SkipBody where
  | nop
  /-- `for _ in 0..count { e; .. }` -/
  | loop (es : List ReadE)
  /-- `for _ in 0..count { let value = tag; match value { p => { e; .. }, _ => panic!(..) } }`;
  `none` is the arm `p => ()`. -/
  | loopMatch (tag : ReadE) (arms : List (Nat × Option (List ReadE)))
  deriving Repr, Inhabited

/-- A default value expression: `0`, `0.0`, `false` or `T::default()`. -/
inductive DefE where
  | zero
  | zeroF
  | no
  | call (ty : Ty)
  deriving Repr, Inhabited

/-- Body of `default()`. -/
inductive DefBody where
  /-- `Self` -/
  | unit
  /-- `Self { f: e, .. }` -/
  | selfLit (fields : List (String × DefE))
  /-- `Self::V ..` -/
  | variant (v : String) (p : Payload DefE)
  deriving Repr, Inhabited

/-- A type declaration with its `impl Default`. -/
structure TypeItem where
  decl : Decl
  default : DefBody
  deriving Repr, Inhabited

/-- `impl IntoVMBuffers for X { .. }`. -/
structure Impl where
  id : String
  read : ReadBody
  write : WriteBody
  skip : SkipBody
  deriving Repr, Inhabited

/-! ### Rendering -/

def Ty.render : Ty → String
  | .named id => id
  | .app id args => id ++ "<" ++ joinStr ", " (args.map Ty.render) ++ ">"

def ReadE.render : ReadE → String
  | .prim m => "bytes_reader.read_" ++ m ++ "()"
  | .path (.named id) => id ++ "::read_from_buffers(bytes_reader)"
  | .path (.app id args) =>
    id ++ "::<" ++ joinStr ", " (args.map Ty.render) ++ ">::read_from_buffers(bytes_reader)"

/-- Text of a place used as the receiver of a method call. -/
def Acc.render : Acc → String
  | .field n => "self." ++ n
  | .var n => n
  | .lit k => toString k

/-- Text of a place used as an argument by value. -/
def Acc.renderValue : Acc → String
  | .var n => "*" ++ n
  | a => a.render

def WriteS.render : WriteS → String
  | .prim m a => "bytes_writer.write_" ++ m ++ "(" ++ a.renderValue ++ ");"
  | .call a => a.render ++ ".write_to_buffers(bytes_writer);"

def Payload.renderDecl (id : String) : Payload Ty → List Line
  | .unit => [(1, id ++ ",")]
  | .tuple ts => [(1, id ++ "(")] ++ ts.map (fun t => (2, t.render ++ ",")) ++ [(1, "),")]
  | .named fs => [(1, id ++ " {")] ++ fs.map (fun f => (2, f.1 ++ ": " ++ f.2.render ++ ",")) ++ [(1, "},")]

def Decl.render : Decl → List Line
  | .struct id [] => [(0, "#[derive(Debug, Clone, PartialEq)]"), (0, "pub struct " ++ id ++ ";")]
  | .struct id fields =>
    [(0, "#[derive(Debug, Clone, PartialEq)]"), (0, "pub struct " ++ id ++ " {")]
      ++ fields.map (fun f => (1, "pub " ++ f.1 ++ ": " ++ f.2.render ++ ",")) ++ [(0, "}")]
  | .enum id variants =>
    [(0, "#[derive(Debug, Clone, PartialEq)]"), (0, "pub enum " ++ id ++ " {")]
      ++ variants.flatMap (fun v => v.2.renderDecl v.1) ++ [(0, "}")]

def readHeader : String := "fn read_from_buffers(bytes_reader: &mut BytesReader) -> Self {"
def unsupported : String := "_ => panic!(\"Unsupported enum value: {}\", value),"

def renderReadArm (enumId : String) : Nat × String × Payload ReadE → List Line
  | (p, v, .unit) => [(3, toString p ++ " => return " ++ enumId ++ "::" ++ v ++ ",")]
  | (p, v, .tuple es) => [(3, toString p ++ " => return " ++ enumId ++ "::" ++ v ++ "(")]
      ++ es.map (fun e => (4, e.render ++ ",")) ++ [(3, "),")]
  | (p, v, .named fs) => [(3, toString p ++ " => return " ++ enumId ++ "::" ++ v ++ " {")]
      ++ fs.map (fun f => (4, f.1 ++ ": " ++ f.2.render ++ ",")) ++ [(3, "},")]

def ReadBody.render : ReadBody → List Line
  | .unit id =>
    [(1, "fn read_from_buffers(_: &mut BytesReader) -> Self {"), (2, id), (1, "}")]
  | .selfLit fs =>
    [(1, readHeader), (2, "Self {")]
      ++ fs.map (fun f => (3, f.1 ++ ": " ++ f.2.render ++ ",")) ++ [(2, "}"), (1, "}")]
  | .matchTag tag enumId arms =>
    [(1, readHeader), (2, "let value = " ++ tag.render ++ ";"), (0, ""), (2, "match value {")]
      ++ arms.flatMap (renderReadArm enumId) ++ [(3, unsupported), (2, "}"), (1, "}")]

def writeHeader : String := "fn write_to_buffers(&self, bytes_writer: &mut BytesWriter) {"

/-- Pattern and body of an arm: `E::V => {`, `E::V( v, .. ) => {` or `E::V { n, .. } => {`. -/
def renderWriteArm (enumId : String) :
    String × Payload Unit × List String × List WriteS → List Line
  | (v, .unit, _, ss) => [(3, enumId ++ "::" ++ v ++ " => {")]
      ++ ss.map (fun s => (4, s.render)) ++ [(3, "},")]
  | (v, .tuple _, xs, ss) => [(3, enumId ++ "::" ++ v ++ "(")] ++ xs.map (fun x => (4, x ++ ","))
      ++ [(3, ") => {")] ++ ss.map (fun s => (4, s.render)) ++ [(3, "},")]
  | (v, .named _, xs, ss) => [(3, enumId ++ "::" ++ v ++ " {")] ++ xs.map (fun x => (4, x ++ ","))
      ++ [(3, "} => {")] ++ ss.map (fun s => (4, s.render)) ++ [(3, "},")]

def WriteBody.render : WriteBody → List Line
  | .nop => [(1, "fn write_to_buffers(&self, _: &mut BytesWriter) {}")]
  | .stmts ss => [(1, writeHeader)] ++ ss.map (fun s => (2, s.render)) ++ [(1, "}")]
  | .matchSelf enumId arms =>
    [(1, writeHeader), (2, "match self {")] ++ arms.flatMap (renderWriteArm enumId)
      ++ [(2, "}"), (1, "}")]

def skipHeader : String := "fn skip_in_buffers(bytes_reader: &mut BytesReader, count: u64) {"

def renderSkipArm : Nat × Option (List ReadE) → List Line
  | (p, none) => [(4, toString p ++ " => (),")]
  | (p, some es) => [(4, toString p ++ " => {")] ++ es.map (fun e => (5, e.render ++ ";")) ++ [(4, "},")]

def SkipBody.render : SkipBody → List Line
  | .nop => [(1, "fn skip_in_buffers(_: &mut BytesReader, _: u64) {}")]
  | .loop es => [(1, skipHeader), (2, "for _ in 0..count {")]
      ++ es.map (fun e => (3, e.render ++ ";")) ++ [(2, "}"), (1, "}")]
  | .loopMatch tag arms =>
    [(1, skipHeader), (2, "for _ in 0..count {"), (3, "let value = " ++ tag.render ++ ";"), (0, ""),
      (3, "match value {")] ++ arms.flatMap renderSkipArm
      ++ [(4, unsupported), (3, "}"), (2, "}"), (1, "}")]

def Impl.render (i : Impl) : List Line :=
  [(0, "impl IntoVMBuffers for " ++ i.id ++ " {")] ++ i.read.render ++ [(0, "")] ++ i.write.render
    ++ [(0, "")] ++ i.skip.render ++ [(0, "}")]

def DefE.render : DefE → String
  | .zero => "0"
  | .zeroF => "0.0"
  | .no => "false"
  | .call (.named id) => id ++ "::default()"
  | .call (.app id args) => id ++ "::<" ++ joinStr ", " (args.map Ty.render) ++ ">::default()"

def DefBody.render : DefBody → List Line
  | .unit => [(2, "Self")]
  | .selfLit fs => [(2, "Self {")] ++ fs.map (fun f => (3, f.1 ++ ": " ++ f.2.render ++ ",")) ++ [(2, "}")]
  | .variant v .unit => [(2, "Self::" ++ v)]
  | .variant v (.tuple es) =>
    [(2, "Self::" ++ v ++ "(")] ++ es.map (fun e => (3, e.render ++ ",")) ++ [(2, ")")]
  | .variant v (.named fs) =>
    [(2, "Self::" ++ v ++ " {")] ++ fs.map (fun f => (3, f.1 ++ ": " ++ f.2.render ++ ",")) ++ [(2, "}")]

def Decl.id : Decl → String
  | .struct id _ => id
  | .enum id _ => id

def TypeItem.render (i : TypeItem) : List Line :=
  i.decl.render ++ [(0, ""), (0, "impl Default for " ++ i.decl.id ++ " {"), (1, "fn default() -> Self {")]
    ++ i.default.render ++ [(1, "}"), (0, "}")]

/-! ### The tree emitted for a schema -/

mutual
/-- rust/types.rs `generate_type_id` -/
def genTy : TypeId → Ty
  | .integer id _ _ => .named id
  | .number id _ => .named id
  | .bool id => .named id
  | .char id => .named id
  | .other id => .named id
  | .generic id gs => .app id (genTys gs)
def genTys : List TypeId → List Ty
  | [] => []
  | t :: ts => genTy t :: genTys ts
end

theorem genTys_eq : ∀ ts, genTys ts = ts.map genTy
  | [] => by rw [genTys]; rfl
  | t :: ts => by rw [genTys, genTys_eq ts]; rfl

theorem genTy_generic (id : String) (gs : List TypeId) :
    genTy (.generic id gs) = .app id (gs.map genTy) := by rw [genTy, genTys_eq]

def genRead : TypeId → ReadE
  | .integer id _ _ => .prim id
  | .number id _ => .prim id
  | .bool id => .prim id
  | .char id => .prim id
  | .other id => .path (.named id)
  | .generic id gs => .path (.app id (gs.map genTy))

def genWrite (t : TypeId) (a : Acc) : WriteS :=
  match t with
  | .integer id _ _ => .prim id a
  | .number id _ => .prim id a
  | .bool id => .prim id a
  | .char id => .prim id a
  | .other _ => .call a
  | .generic _ _ => .call a

def genStructDecl (n : StructNode) : Decl :=
  .struct n.id (n.fields.map (fun f => (f.name, genTy f.typeId)))

def genStructImpl (n : StructNode) : Impl :=
  match n.fields with
  | [] => ⟨n.id, .unit n.id, .nop, .nop⟩
  | fs => ⟨n.id, .selfLit (fs.map (fun f => (f.name, genRead f.typeId))),
      .stmts (fs.map (fun f => genWrite f.typeId (.field f.name))),
      .loop (fs.map (fun f => genRead f.typeId))⟩

def genVariant : EnumItem → String × Payload Ty
  | .empty _ id => (id, .unit)
  | .tuple _ id vs => (id, .tuple (vs.map (fun v => genTy v.typeId)))
  | .struct _ id fs => (id, .named (fs.map (fun f => (f.name, genTy f.typeId))))

def genEnumDecl (n : EnumNode) : Decl := .enum n.id (n.items.map genVariant)

def genReadArm : EnumItem → Nat × String × Payload ReadE
  | .empty p id => (p, id, .unit)
  | .tuple p id vs => (p, id, .tuple (vs.map (fun v => genRead v.typeId)))
  | .struct p id fs => (p, id, .named (fs.map (fun f => (f.name, genRead f.typeId))))

def tagWrite (p : Nat) : WriteS := genWrite u32TypeId (.lit p)

def genWriteArm : EnumItem → String × Payload Unit × List String × List WriteS
  | .empty p id => (id, .unit, [], [tagWrite p])
  | .tuple p id vs => (id, .tuple [], (withIdx 0 vs).map (fun v => "v" ++ toString v.1),
      tagWrite p :: (withIdx 0 vs).map (fun v => genWrite v.2.typeId (.var ("v" ++ toString v.1))))
  | .struct p id fs => (id, .named [], fs.map (fun f => f.name),
      tagWrite p :: fs.map (fun f => genWrite f.typeId (.var f.name)))

def genSkipArm : EnumItem → Nat × Option (List ReadE)
  | .empty p _ => (p, none)
  | .tuple p _ vs => (p, some (vs.map (fun v => genRead v.typeId)))
  | .struct p _ fs => (p, some (fs.map (fun f => genRead f.typeId)))

def genEnumImpl (n : EnumNode) : Impl :=
  ⟨n.id, .matchTag (genRead u32TypeId) n.id (n.items.map genReadArm),
    .matchSelf n.id (n.items.map genWriteArm), .loopMatch (genRead u32TypeId) (n.items.map genSkipArm)⟩

def genDef : TypeId → DefE
  | .integer _ _ _ => .zero
  | .number _ _ => .zeroF
  | .bool _ => .no
  | .char _ => .zero
  | .other id => .call (.named id)
  | .generic id gs => .call (.app id (gs.map genTy))

def genStructItem (n : StructNode) : TypeItem :=
  ⟨genStructDecl n, match n.fields with
    | [] => .unit
    | fs => .selfLit (fs.map (fun f => (f.name, genDef f.typeId)))⟩

/-- The default of an enum whose first variant is `i`. -/
def genEnumDefault : EnumItem → DefBody
  | .empty _ id => .variant id .unit
  | .tuple _ id vs => .variant id (.tuple (vs.map (fun v => genDef v.typeId)))
  | .struct _ id fs => .variant id (.named (fs.map (fun f => (f.name, genDef f.typeId))))

/-- The type items of a schema; an enum without variants has none. -/
def genItems (S : List ASTNode) : List TypeItem :=
  S.filterMap (fun
    | .struct n => some (genStructItem n)
    | .enum n => n.items.head?.map (fun i => ⟨genEnumDecl n, genEnumDefault i⟩)
    | _ => none)

/-- The `impl IntoVMBuffers` blocks of a schema. -/
def genImpls (S : List ASTNode) : List Impl :=
  S.filterMap (fun
    | .struct n => some (genStructImpl n)
    | .enum n => some (genEnumImpl n)
    | _ => none)

end TPB.Rust
