/-
Model of /repo/src/dart_generator.rs and /repo/src/dart/*.rs: the Dart text generator.
(/repo/src/dart/generator.rs is empty.)

Same conventions as `Model/RustGen.lean`.  Functions that can reach a `panic!` return `Except`.
-/
import Verif.Model.Ast
import Verif.Model.Writer
namespace TPB.DartGen
open Writer

/-- A `for` loop whose body can panic. -/
def loopM {α : Type} (f : Writer → α → Except Panic Writer) : List α → Writer → Except Panic Writer
  | [], w => .ok w
  | x :: xs, w =>
    match f w x with
    | .error e => .error e
    | .ok w => loopM f xs w

/-- A loop body that writes one line, computed by a function that can panic. -/
def lineM {α : Type} (tab : Nat) (f : α → Except Panic String) (w : Writer) (x : α) :
    Except Panic Writer :=
  match f x with
  | .error e => .error e
  | .ok r => .ok (w.writelnTab tab r)

/-- dart_generator.rs 559-562 (and 664-667): `Vec` is called `List` in Dart. -/
def listName (id : String) : String := if id = "Vec" then "List" else id

/-- dart_generator.rs 547-575 `generate_type_id`. -/
def typeId : TypeId → String
  | .integer _ _ _ => "int"
  | .number _ _ => "double"
  | .bool _ => "bool"
  | .char _ => "int"
  | .other id => id
  | .generic id generics => listName id ++ "<" ++ joinStr ", " (generics.map typeId) ++ ">"

/-- dart_generator.rs 577-593 `generate_class_prefix`. -/
def classPrefix : TypeId → String
  | .integer _ _ _ => "Int"
  | .number _ _ => "Double"
  | .bool _ => "Bool"
  | .char _ => "Int"
  | .other id => id
  | .generic id _ => listName id

/-- dart_generator.rs 595-600 `generate_option_type_id`. -/
def optionTypeId : Option TypeId → String
  | some t => typeId t
  | none => "void"

/-- dart_generator.rs 533-545 `generate_const_value`. -/
def constValue (x : Ext) (v : ConstValue) : String :=
  match v.literal with
  | .str s => "\"" ++ s ++ "\""
  | .int n => toString n
  | .num t => x.fmtF64 t
  | .bool b => toString b

/-- `generics.iter().map(generate_type_id).collect().join(", ")`. -/
def typeArgs (generics : List TypeId) : String := joinStr ", " (generics.map typeId)

/-- dart_generator.rs 602-644 `generate_read`. -/
def read : TypeId → Except Panic String
  | .integer _ size _ =>
    if size = 1 then .ok "reader.readInt8()"
    else if size = 4 then .ok "reader.readInt32()"
    else if size = 8 then .ok "reader.readInt64()"
    else .error (.gen "Unsupported size of int")
  | .number _ size =>
    if size = 4 then .ok "reader.readFloat()"
    else if size = 8 then .ok "reader.readDouble()"
    else .error (.gen "Unsupported size of number")
  | .bool _ => .ok "reader.readBool()"
  | .char _ => .ok "reader.readInt8()"
  | .other id => .ok ("const " ++ id ++ "IntoBuffers().read(reader)")
  | .generic id generics =>
    match generics with
    | [g] =>
      if id = "Vec" then
        .ok ("const ListIntoBuffers<" ++ typeId g ++ ">(const " ++ classPrefix g
          ++ "IntoBuffers()).read(reader)")
      else .ok ("const " ++ id ++ "IntoBuffers<" ++ typeArgs generics ++ ">().read(reader)")
    | _ => .ok ("const " ++ id ++ "IntoBuffers<" ++ typeArgs generics ++ ">().read(reader)")

/-- dart_generator.rs 646-675 `generate_default_const`. -/
def defaultConst : TypeId → String
  | .integer _ _ _ => "0"
  | .number _ _ => "0.0"
  | .bool _ => "false"
  | .char _ => "0"
  | .other id => "const " ++ id ++ "BuffersFactory().createDefault()"
  | .generic id generics =>
    "const " ++ listName id ++ "BuffersFactory<" ++ typeArgs generics ++ ">().createDefault()"

/-- dart_generator.rs 677-709 `generate_read_emplace`. -/
def readEmplace (t : TypeId) (accessor : String) : Except Panic String :=
  match t with
  | .other id =>
    if id = "String" then .ok (accessor ++ " = const " ++ id ++ "IntoBuffers().read(reader);")
    else .ok ("const " ++ id ++ "EmplaceToBuffers().read(reader, " ++ accessor ++ ");")
  | .generic id generics =>
    match generics with
    | [g] =>
      if id = "Vec" then
        .ok ("const ListEmplaceToBuffers<" ++ typeId g ++ ">(const " ++ classPrefix g
          ++ "IntoBuffers()).read(reader, " ++ accessor ++ ");")
      else .ok ("const " ++ id ++ "EmplaceToBuffers<" ++ typeArgs generics ++ ">().read(reader, "
        ++ accessor ++ ");")
    | _ => .ok ("const " ++ id ++ "EmplaceToBuffers<" ++ typeArgs generics ++ ">().read(reader, "
        ++ accessor ++ ");")
  | t =>
    match read t with
    | .error e => .error e
    | .ok r => .ok (accessor ++ " = " ++ r ++ ";")

/-- dart_generator.rs 711-737 `generate_read_skip`. -/
def readSkip (t : TypeId) : Except Panic String :=
  match t with
  | .other id => .ok ("const " ++ id ++ "IntoBuffers().skip(reader, 1);")
  | .generic id generics =>
    match generics with
    | [g] =>
      if id = "Vec" then
        .ok ("const ListIntoBuffers<" ++ typeId g ++ ">(const " ++ classPrefix g
          ++ "IntoBuffers()).skip(reader, 1);")
      else .ok ("const " ++ id ++ "IntoBuffers<" ++ typeArgs generics ++ ">().skip(reader, 1);")
    | _ => .ok ("const " ++ id ++ "IntoBuffers<" ++ typeArgs generics ++ ">().skip(reader, 1);")
  | t =>
    match read t with
    | .error e => .error e
    | .ok r => .ok (r ++ ";")

/-- dart_generator.rs 739-769 `generate_read_skip_emplace`. -/
def readSkipEmplace (t : TypeId) : Except Panic String :=
  match t with
  | .other id =>
    if id = "String" then .ok ("const " ++ id ++ "IntoBuffers().skip(reader, 1);")
    else .ok ("const " ++ id ++ "EmplaceToBuffers().skip(reader, 1);")
  | .generic id generics =>
    match generics with
    | [g] =>
      if id = "Vec" then
        .ok ("const ListEmplaceToBuffers<" ++ typeId g ++ ">(const " ++ classPrefix g
          ++ "IntoBuffers()).skip(reader, 1);")
      else .ok ("const " ++ id ++ "EmplaceToBuffers<" ++ typeArgs generics ++ ">().skip(reader, 1);")
    | _ => .ok ("const " ++ id ++ "EmplaceToBuffers<" ++ typeArgs generics ++ ">().skip(reader, 1);")
  | t =>
    match read t with
    | .error e => .error e
    | .ok r => .ok (r ++ ";")

/-- dart_generator.rs 771-815 `generate_write`. -/
def write (t : TypeId) (accessor : String) : Except Panic String :=
  match t with
  | .integer _ size _ =>
    if size = 1 then .ok ("writer.writeInt8(" ++ accessor ++ ");")
    else if size = 4 then .ok ("writer.writeInt32(" ++ accessor ++ ");")
    else if size = 8 then .ok ("writer.writeInt64(" ++ accessor ++ ");")
    else .error (.gen "Unsupported size of int")
  | .number _ size =>
    if size = 4 then .ok ("writer.writeFloat(" ++ accessor ++ ");")
    else if size = 8 then .ok ("writer.writeDouble(" ++ accessor ++ ");")
    else .error (.gen "Unsupported size of number")
  | .bool _ => .ok ("writer.writeBool(" ++ accessor ++ ");")
  | .char _ => .ok ("writer.writeInt8(" ++ accessor ++ ");")
  | .other id => .ok ("const " ++ id ++ "IntoBuffers().write(writer, " ++ accessor ++ ");")
  | .generic id generics =>
    match generics with
    | [g] =>
      if id = "Vec" then
        .ok ("const ListIntoBuffers<" ++ typeId g ++ ">(const " ++ classPrefix g
          ++ "IntoBuffers()).write(writer, " ++ accessor ++ ");")
      else .ok ("const " ++ id ++ "IntoBuffers<" ++ typeArgs generics ++ ">().write(writer, "
        ++ accessor ++ ");")
    | _ => .ok ("const " ++ id ++ "IntoBuffers<" ++ typeArgs generics ++ ">().write(writer, "
        ++ accessor ++ ");")

/-- dart_generator.rs 817-852 `generate_write_emplace`. -/
def writeEmplace (t : TypeId) (accessor : String) : Except Panic String :=
  match t with
  | .other id =>
    if id = "String" then .ok ("const " ++ id ++ "IntoBuffers().write(writer, " ++ accessor ++ ");")
    else .ok ("const " ++ id ++ "EmplaceToBuffers().write(writer, " ++ accessor ++ ");")
  | .generic id generics =>
    match generics with
    | [g] =>
      if id = "Vec" then
        .ok ("const ListEmplaceToBuffers<" ++ typeId g ++ ">(const " ++ classPrefix g
          ++ "IntoBuffers()).write(writer, " ++ accessor ++ ");")
      else .ok ("const " ++ id ++ "EmplaceToBuffers<" ++ typeArgs generics ++ ">().write(writer, "
        ++ accessor ++ ");")
    | _ => .ok ("const " ++ id ++ "EmplaceToBuffers<" ++ typeArgs generics ++ ">().write(writer, "
        ++ accessor ++ ");")
  | t => write t accessor

/-! ### Models -/

/-- dart_generator.rs 184-197: the initializer list of `createDefault`. -/
def structDefaultInit (x : Ext) (count : Nat) (w : Writer) (idx : Nat) (f : StructField) : Writer :=
  let w := w.write (x.camel f.name ++ " = " ++ defaultConst f.typeId)
  if idx = count - 1 then w.writeln ";"
  else (w.writeln ",").writeTab 3 "  "

/-- dart_generator.rs 129-224 `generate_struct_model`. -/
def structModel (x : Ext) (n : StructNode) (def_ : String) (generateDefault : Bool) : String :=
  let w := Writer.new 2
  let w := w.writeln ("class " ++ n.id ++ def_ ++ " {")
  if n.fields.isEmpty then
    let w := w.writelnTab 1 ("const " ++ n.id ++ "();")
    let w := w.writeln "}"
    let w :=
      if generateDefault then
        let w := w.writeln ""
        let w := w.writeln ("class " ++ n.id ++ "BuffersFactory implements BuffersFactory<" ++ n.id
          ++ "> {")
        let w := w.writelnTab 1 ("const " ++ n.id ++ "BuffersFactory();")
        let w := w.writeln ""
        let w := w.writelnTab 1 "@override"
        let w := w.writelnTab 1 (n.id ++ " createDefault() => const " ++ n.id ++ "();")
        w.writeln "}"
      else w
    w.show
  else
    let w := n.fields.foldl
      (fun w p => w.writelnTab 1 (typeId p.typeId ++ " " ++ x.camel p.name ++ ";")) w
    let w := w.writeln ""
    let w := w.writelnTab 1 (n.id ++ "({")
    let w := n.fields.foldl
      (fun w p => w.writelnTab 2 ("required this." ++ x.camel p.name ++ ",")) w
    let w := w.writelnTab 1 "});"
    let w :=
      if generateDefault then
        let w := w.writeln ""
        let w := w.writelnTab 1 (n.id ++ ".createDefault()")
        let w := w.writeTab 3 ": "
        let w := foldIdx (structDefaultInit x n.fields.length) 0 n.fields w
        let w := w.writeln "}"
        let w := w.writeln ""
        let w := w.writeln ("class " ++ n.id ++ "BuffersFactory implements BuffersFactory<" ++ n.id
          ++ "> {")
        let w := w.writelnTab 1 ("const " ++ n.id ++ "BuffersFactory();")
        let w := w.writeln ""
        let w := w.writelnTab 1 "@override"
        let w := w.writelnTab 1 (n.id ++ " createDefault() => " ++ n.id ++ ".createDefault();")
        w.writeln "}"
      else w.writeln "}"
    w.show

/-- dart/enum_models.rs 26-32, the field-building loop. -/
def tupleStructFields : Nat → List TupleField → List StructField
  | _, [] => []
  | i, v :: vs => ⟨i, "v" ++ toString i, v.typeId⟩ :: tupleStructFields (i + 1) vs

/-- dart/enum_models.rs 3-55 `create_enum_item_struct_ast_node`. -/
def enumItemStruct (n : EnumNode) : EnumItem → StructNode
  | .empty _ id => ⟨n.id ++ id, [], true, true⟩
  | .tuple _ id values => ⟨n.id ++ id, tupleStructFields 0 values, true, true⟩
  | .struct _ id fields => ⟨n.id ++ id, fields, true, true⟩

/-- dart_generator.rs 272-284: initial value of a variant's payload field. -/
def enumItemFactory (n : EnumNode) : EnumItem → String
  | .empty _ id => "const " ++ n.id ++ id ++ "()"
  | .tuple _ id _ => n.id ++ id ++ ".createDefault()"
  | .struct _ id _ => n.id ++ id ++ ".createDefault()"

/-- dart_generator.rs 304-377, loop body of the `to` methods. -/
def enumToMethod (x : Ext) (n : EnumNode) (w : Writer) (idx : Nat) (item : EnumItem) : Writer :=
  let w :=
    match item with
    | .empty _ id =>
      w.writelnTab 1 ("void to" ++ x.pascal id ++ "() => value = " ++ n.id ++ "Value." ++ x.camel id
        ++ ";")
    | .tuple _ id values =>
      let w := w.writelnTab 1 ("void to" ++ x.pascal id ++ "(")
      let w := foldIdx (fun (w : Writer) i (v : TupleField) =>
        w.writelnTab 2 (typeId v.typeId ++ " v" ++ toString i ++ ",")) 0 values w
      let w := w.writelnTab 1 ") {"
      let w := w.writelnTab 2 ("value = " ++ n.id ++ "Value." ++ x.camel id ++ ";")
      let w := foldIdx (fun (w : Writer) i (_ : TupleField) =>
        w.writelnTab 2 (x.camel id ++ ".v" ++ toString i ++ " = v" ++ toString i ++ ";")) 0 values w
      w.writelnTab 1 "}"
    | .struct _ id fields =>
      let w := w.writelnTab 1 ("void to" ++ x.pascal id ++ "({")
      let w := fields.foldl (fun w f =>
        w.writelnTab 2 ("required " ++ typeId f.typeId ++ " " ++ x.camel f.name ++ ",")) w
      let w := w.writelnTab 1 "}) {"
      let w := w.writelnTab 2 ("value = " ++ n.id ++ "Value." ++ x.camel id ++ ";")
      let w := fields.foldl (fun w f =>
        w.writelnTab 2 (x.camel id ++ "." ++ x.camel f.name ++ " = " ++ x.camel f.name ++ ";")) w
      w.writelnTab 1 "}"
  if idx ≠ n.items.length - 1 then w.writeln "" else w

/-- dart_generator.rs 400-500, loop body of the `create` methods. -/
def enumCreateMethod (x : Ext) (n : EnumNode) (w : Writer) (idx : Nat) (item : EnumItem) : Writer :=
  let w :=
    match item with
    | .empty _ id =>
      let w := w.writelnTab 1 ("static " ++ n.id ++ " create" ++ x.pascal id ++ "() {")
      let w := w.writelnTab 2 ("final model = " ++ n.id ++ "();")
      let w := w.writelnTab 2 ("model.value = " ++ n.id ++ "Value." ++ x.camel id ++ ";")
      let w := w.writelnTab 2 "return model;"
      w.writelnTab 1 "}"
    | .tuple _ id values =>
      let w := w.writelnTab 1 ("static " ++ n.id ++ " create" ++ x.pascal id ++ "(")
      let w := foldIdx (fun (w : Writer) i (v : TupleField) =>
        w.writelnTab 2 (typeId v.typeId ++ " v" ++ toString i ++ ",")) 0 values w
      let w := w.writelnTab 1 ") {"
      let w := w.writelnTab 2 ("final model = " ++ n.id ++ "();")
      let w := w.writelnTab 2 ("model.value = " ++ n.id ++ "Value." ++ x.camel id ++ ";")
      let w := foldIdx (fun (w : Writer) i (_ : TupleField) =>
        w.writelnTab 2 ("model." ++ x.camel id ++ ".v" ++ toString i ++ " = v" ++ toString i ++ ";"))
        0 values w
      let w := w.writelnTab 2 "return model;"
      w.writelnTab 1 "}"
    | .struct _ id fields =>
      let w := w.writelnTab 1 ("static " ++ n.id ++ " create" ++ x.pascal id ++ "({")
      let w := fields.foldl (fun w f =>
        w.writelnTab 2 ("required " ++ typeId f.typeId ++ " " ++ x.camel f.name ++ ",")) w
      let w := w.writelnTab 1 "}) {"
      let w := w.writelnTab 2 ("final model = " ++ n.id ++ "();")
      let w := w.writelnTab 2 ("model.value = " ++ n.id ++ "Value." ++ x.camel id ++ ";")
      let w := fields.foldl (fun w f =>
        w.writelnTab 2 ("model." ++ x.camel id ++ "." ++ x.camel f.name ++ " = " ++ x.camel f.name
          ++ ";")) w
      let w := w.writelnTab 2 "return model;"
      w.writelnTab 1 "}"
  if idx ≠ n.items.length - 1 then w.writeln "" else w

/-- dart_generator.rs 521-528, loop body: the class of one variant. -/
def enumItemClass (x : Ext) (n : EnumNode) (w : Writer) (idx : Nat) (item : EnumItem) : Writer :=
  let w := w.write (structModel x (enumItemStruct n item) "" true)
  if idx ≠ n.items.length - 1 then w.writeln "" else w

/-- dart_generator.rs 240-531 `generate_enum_model`; the error is the `expect` on line 258. -/
def enumModel (x : Ext) (n : EnumNode) : Except Panic String :=
  let w := Writer.new 2
  let w := w.writeln ("enum " ++ n.id ++ "Value {")
  let w := n.items.foldl (fun w i => w.writelnTab 1 (x.camel i.id ++ ",")) w
  let w := w.writeln "}"
  let w := w.writeln ""
  let w := w.writeln ("class " ++ n.id ++ " {")
  match n.items.head? with
  | none => .error (.gen "At least one item should be presented in enum")
  | some d =>
    let w := w.writelnTab 1 (n.id ++ "Value value = " ++ n.id ++ "Value." ++ x.camel d.id ++ ";")
    let w := n.items.foldl (fun w i =>
      w.writelnTab 1 (n.id ++ i.id ++ " " ++ x.camel i.id ++ " = " ++ enumItemFactory n i ++ ";")) w
    let w := w.writeln ""
    let w := foldIdx (enumToMethod x n) 0 n.items w
    let w := w.writeln ""
    let w := n.items.foldl (fun w i =>
      w.writelnTab 1 ("bool is" ++ x.pascal i.id ++ "() => value == " ++ n.id ++ "Value."
        ++ x.camel i.id ++ ";")) w
    let w := w.writeln ""
    let w := foldIdx (enumCreateMethod x n) 0 n.items w
    let w := w.writeln "}"
    let w := w.writeln ""
    let w := w.writeln ("class " ++ n.id ++ "BuffersFactory implements BuffersFactory<" ++ n.id
      ++ "> {")
    let w := w.writelnTab 1 ("const " ++ n.id ++ "BuffersFactory();")
    let w := w.writeln ""
    let w := w.writelnTab 1 "@override"
    let w := w.writelnTab 1 (n.id ++ " createDefault() => " ++ n.id ++ "();")
    let w := w.writeln "}"
    let w := w.writeln ""
    let w := foldIdx (enumItemClass x n) 0 n.items w
    .ok w.show

/-! ### dart/struct_into_buffers.rs -/

/-- dart/struct_into_buffers.rs 36-43, the line of one field. -/
def readLocal (x : Ext) (f : StructField) : Except Panic String :=
  match read f.typeId with
  | .error e => .error e
  | .ok r => .ok ("final " ++ x.camel f.name ++ " = " ++ r ++ ";")

/-- dart/struct_into_buffers.rs 29-65 `generate_struct_into_buffers_read`. -/
def structIntoRead (x : Ext) (n : StructNode) : Except Panic String :=
  let w := Writer.new 2
  let w := w.writelnTab 1 "@override"
  let w := w.writelnTab 1 (n.id ++ " read(BytesReader reader) {")
  match loopM (lineM 2 (readLocal x)) n.fields w with
  | .error e => .error e
  | .ok w =>
    let w := w.writeln ""
    let w := w.writelnTab 2 ("return " ++ n.id ++ "(")
    let w := n.fields.foldl
      (fun w f => w.writelnTab 3 (x.camel f.name ++ ": " ++ x.camel f.name ++ ",")) w
    let w := w.writelnTab 2 ");"
    let w := w.writelnTab 1 "}"
    .ok w.show

/-- dart/struct_into_buffers.rs 67-89 `generate_struct_into_buffers_write`. -/
def structIntoWrite (x : Ext) (n : StructNode) : Except Panic String :=
  let w := Writer.new 2
  let w := w.writelnTab 1 "@override"
  let w := w.writelnTab 1 ("void write(BytesWriter writer, " ++ n.id ++ " model) {")
  match loopM (lineM 2 (fun f => write f.typeId ("model." ++ x.camel f.name))) n.fields w with
  | .error e => .error e
  | .ok w => .ok (w.writelnTab 1 "}").show

/-- `if let TypeIDASTNode::Other { id: _ } = field.type_id`. -/
def isOther : TypeId → Bool
  | .other _ => true
  | _ => false

/-- dart/struct_into_buffers.rs 91-124 `generate_struct_into_buffers_skip` and, with
`skip := readSkipEmplace`, dart/struct_emplace_to_buffers.rs 77-110
`generate_struct_emplace_buffers_skip`: the two functions differ only in the function that prints
one skip. -/
def structSkip (skip : TypeId → Except Panic String) (n : StructNode) : Except Panic String :=
  let w := Writer.new 2
  let w := w.writelnTab 1 "@override"
  let w := w.writelnTab 1 "void skip(BytesReader reader, int count) {"
  match loopM (fun w (f : StructField) =>
      if isOther f.typeId then lineM 2 skip w f.typeId else .ok w) n.fields w with
  | .error e => .error e
  | .ok w =>
    let breakLine := n.fields.any (fun f => isOther f.typeId)
    let w := if breakLine then w.writeln "" else w
    let w := w.writelnTab 2 "for (int i = 0; i < count; i += 1) {"
    match loopM (fun w (f : StructField) =>
        if isOther f.typeId then .ok w else lineM 3 skip w f.typeId) n.fields w with
    | .error e => .error e
    | .ok w =>
      let w := w.writelnTab 2 "}"
      let w := w.writelnTab 1 "}"
      .ok w.show

/-- dart/struct_into_buffers.rs 9-27 `generate_struct_into_buffers`. -/
def structInto (x : Ext) (n : StructNode) : Except Panic String :=
  let w := Writer.new 2
  let w := w.writeln ("class " ++ n.id ++ "IntoBuffers implements IntoBuffers<" ++ n.id ++ "> {")
  let w := w.writelnTab 1 ("const " ++ n.id ++ "IntoBuffers();")
  let w := w.writeln ""
  match structIntoRead x n with
  | .error e => .error e
  | .ok r =>
    match structIntoWrite x n with
    | .error e => .error e
    | .ok wr =>
      match structSkip readSkip n with
      | .error e => .error e
      | .ok sk =>
        let w := w.writeln r
        let w := w.writeln wr
        let w := w.write sk
        .ok (w.write "}").show

/-! ### dart/struct_emplace_to_buffers.rs -/

/-- dart/struct_emplace_to_buffers.rs 29-51 `generate_struct_emplace_buffers_read`. -/
def structEmplaceRead (x : Ext) (n : StructNode) : Except Panic String :=
  let w := Writer.new 2
  let w := w.writelnTab 1 "@override"
  let w := w.writelnTab 1 ("void read(BytesReader reader, " ++ n.id ++ " model) {")
  match loopM (lineM 2 (fun f => readEmplace f.typeId ("model." ++ x.camel f.name))) n.fields w with
  | .error e => .error e
  | .ok w => .ok (w.writelnTab 1 "}").show

/-- dart/struct_emplace_to_buffers.rs 53-75 `generate_struct_emplace_buffers_write`. -/
def structEmplaceWrite (x : Ext) (n : StructNode) : Except Panic String :=
  let w := Writer.new 2
  let w := w.writelnTab 1 "@override"
  let w := w.writelnTab 1 ("void write(BytesWriter writer, " ++ n.id ++ " model) {")
  match loopM (lineM 2 (fun f => writeEmplace f.typeId ("model." ++ x.camel f.name))) n.fields w with
  | .error e => .error e
  | .ok w => .ok (w.writelnTab 1 "}").show

/-- dart/struct_emplace_to_buffers.rs 9-27 `generate_struct_emplace_buffers`. -/
def structEmplace (x : Ext) (n : StructNode) : Except Panic String :=
  let w := Writer.new 2
  let w := w.writeln ("class " ++ n.id ++ "EmplaceToBuffers implements EmplaceToBuffers<" ++ n.id
    ++ "> {")
  let w := w.writelnTab 1 ("const " ++ n.id ++ "EmplaceToBuffers();")
  let w := w.writeln ""
  match structEmplaceRead x n with
  | .error e => .error e
  | .ok r =>
    match structEmplaceWrite x n with
    | .error e => .error e
    | .ok wr =>
      match structSkip readSkipEmplace n with
      | .error e => .error e
      | .ok sk =>
        let w := w.writeln r
        let w := w.writeln wr
        let w := w.write sk
        .ok (w.writeln "}").show

/-! ### dart/enum_into_buffers.rs and dart/enum_emplace_buffers.rs -/

/-- dart/enum_into_buffers.rs 33-55, loop body. -/
def enumIntoReadItem (x : Ext) (n : EnumNode) (w : Writer) (item : EnumItem) : Writer :=
  let w := w.writelnTab 3 ("case " ++ toString item.position ++ ":")
  let w := w.writelnTab 4 ("final model = " ++ n.id ++ "();")
  let w := w.writelnTab 4 ("model.value = " ++ n.id ++ "Value." ++ x.camel item.id ++ ";")
  let w := w.writelnTab 4 ("const " ++ n.id ++ item.id ++ "EmplaceToBuffers().read(reader, model."
    ++ x.camel item.id ++ ");")
  let w := w.writelnTab 4 "return model;"
  w.writeln ""

/-- dart/enum_into_buffers.rs 24-65 `generate_read`. -/
def enumIntoRead (x : Ext) (n : EnumNode) : String :=
  let w := Writer.new 2
  let w := w.writelnTab 1 "@override"
  let w := w.writelnTab 1 (n.id ++ " read(BytesReader reader) {")
  let w := w.writelnTab 2 "final value = reader.readInt32();"
  let w := w.writeln ""
  let w := w.writelnTab 2 "switch (value) {"
  let w := n.items.foldl (enumIntoReadItem x n) w
  let w := w.writelnTab 3 "default:"
  let w := w.writelnTab 4 "throw StateError('Unsupported enum value: $value');"
  let w := w.writelnTab 2 "}"
  let w := w.writelnTab 1 "}"
  w.show

/-- dart/enum_into_buffers.rs 77-97 (and dart/enum_emplace_buffers.rs 85-105), loop body. -/
def enumWriteItem (x : Ext) (n : EnumNode) (w : Writer) (idx : Nat) (item : EnumItem) : Writer :=
  let w := w.writelnTab 3 ("case " ++ n.id ++ "Value." ++ x.camel item.id ++ ":")
  let w := w.writelnTab 4 ("writer.writeInt32(" ++ toString item.position ++ ");")
  let w := w.writelnTab 4 ("const " ++ n.id ++ item.id ++ "EmplaceToBuffers().write(writer, model."
    ++ x.camel item.id ++ ");")
  let w := w.writelnTab 4 "return;"
  if idx ≠ n.items.length - 1 then w.writeln "" else w

/-- dart/enum_into_buffers.rs 67-103 and dart/enum_emplace_buffers.rs 75-111 `generate_write`
(identical text). -/
def enumWrite (x : Ext) (n : EnumNode) : String :=
  let w := Writer.new 2
  let w := w.writelnTab 1 "@override"
  let w := w.writelnTab 1 ("void write(BytesWriter writer, " ++ n.id ++ " model) {")
  let w := w.writelnTab 2 "switch (model.value) {"
  let w := foldIdx (enumWriteItem x n) 0 n.items w
  let w := w.writelnTab 2 "}"
  let w := w.writelnTab 1 "}"
  w.show

/-- dart/enum_into_buffers.rs 116-128 (and dart/enum_emplace_buffers.rs 124-136), loop body. -/
def enumSkipItem (n : EnumNode) (w : Writer) (item : EnumItem) : Writer :=
  let w := w.writelnTab 4 ("case " ++ toString item.position ++ ":")
  let w := w.writelnTab 5 ("const " ++ n.id ++ item.id ++ "EmplaceToBuffers().skip(reader, 1);")
  let w := w.writelnTab 5 "break;"
  w.writeln ""

/-- dart/enum_into_buffers.rs 105-138 and dart/enum_emplace_buffers.rs 113-146 `generate_skip`
(identical text). -/
def enumSkip (n : EnumNode) : String :=
  let w := Writer.new 2
  let w := w.writelnTab 1 "@override"
  let w := w.writelnTab 1 "void skip(BytesReader reader, int count) {"
  let w := w.writelnTab 2 "for (int i = 0; i < count; i += 1) {"
  let w := w.writelnTab 3 "final value = reader.readInt32();"
  let w := w.writeln ""
  let w := w.writelnTab 3 "switch (value) {"
  let w := n.items.foldl (enumSkipItem n) w
  let w := w.writelnTab 4 "default:"
  let w := w.writelnTab 5 "throw StateError('Unsupported enum value: $value');"
  let w := w.writelnTab 3 "}"
  let w := w.writelnTab 2 "}"
  let w := w.writelnTab 1 "}"
  w.show

/-- dart/enum_into_buffers.rs 6-22 `generate_enum_into_buffers`. -/
def enumInto (x : Ext) (n : EnumNode) : String :=
  let w := Writer.new 2
  let w := w.writeln ("class " ++ n.id ++ "IntoBuffers implements IntoBuffers<" ++ n.id ++ "> {")
  let w := w.writelnTab 1 ("const " ++ n.id ++ "IntoBuffers();")
  let w := w.writeln ""
  let w := w.writeln (enumIntoRead x n)
  let w := w.writeln (enumWrite x n)
  let w := w.write (enumSkip n)
  let w := w.writeln "}"
  w.show

/-- dart/enum_emplace_buffers.rs 42-63, loop body. -/
def enumEmplaceReadItem (x : Ext) (n : EnumNode) (w : Writer) (item : EnumItem) : Writer :=
  let w := w.writelnTab 3 ("case " ++ toString item.position ++ ":")
  let w := w.writelnTab 4 ("model.value = " ++ n.id ++ "Value." ++ x.camel item.id ++ ";")
  let w := w.writelnTab 4 ("const " ++ n.id ++ item.id ++ "EmplaceToBuffers().read(reader, model."
    ++ x.camel item.id ++ ");")
  let w := w.writelnTab 4 "return;"
  w.writeln ""

/-- dart/enum_emplace_buffers.rs 30-73 `generate_read`. -/
def enumEmplaceRead (x : Ext) (n : EnumNode) : String :=
  let w := Writer.new 2
  let w := w.writelnTab 1 "@override"
  let w := w.writelnTab 1 ("void read(BytesReader reader, " ++ n.id ++ " model) {")
  let w := w.writelnTab 2 "final value = reader.readInt32();"
  let w := w.writeln ""
  let w := w.writelnTab 2 "switch (value) {"
  let w := n.items.foldl (enumEmplaceReadItem x n) w
  let w := w.writelnTab 3 "default:"
  let w := w.writelnTab 4 "throw StateError('Unsupported enum value: $value');"
  let w := w.writelnTab 2 "}"
  let w := w.writelnTab 1 "}"
  w.show

/-- dart/enum_emplace_buffers.rs 6-28 `generate_enum_emplace_buffers`. -/
def enumEmplace (x : Ext) (n : EnumNode) : String :=
  let w := Writer.new 2
  let w := w.writeln ("class " ++ n.id ++ "EmplaceToBuffers implements EmplaceToBuffers<" ++ n.id
    ++ "> {")
  let w := w.writelnTab 1 ("const " ++ n.id ++ "EmplaceToBuffers();")
  let w := w.writeln ""
  let w := w.writeln (enumEmplaceRead x n)
  let w := w.writeln (enumWrite x n)
  let w := w.write (enumSkip n)
  let w := w.writeln "}"
  w.show

/-! ### dart_generator.rs: buffers, models -/

/-- dart_generator.rs 226-238 `generate_struct_buffers`. -/
def structBuffers (x : Ext) (n : StructNode) : Except Panic String :=
  let w := Writer.new 2
  match (if n.emplaceBuffers then
      match structEmplace x n with
      | .error e => .error e
      | .ok s => .ok (w.writeln s)
    else .ok w : Except Panic Writer) with
  | .error e => .error e
  | .ok w =>
    match (if n.intoBuffers then
        match structInto x n with
        | .error e => .error e
        | .ok s => .ok (w.writeln s)
      else .ok w : Except Panic Writer) with
    | .error e => .error e
    | .ok w => .ok w.show

/-- dart_generator.rs 857-860, loop body: the codec of one variant. -/
def enumVariantItem (x : Ext) (n : EnumNode) (w : Writer) (item : EnumItem) : Except Panic Writer :=
  match structEmplace x (enumItemStruct n item) with
  | .error e => .error e
  | .ok s => .ok (w.writeln s)

/-- dart_generator.rs 854-866 `generate_enum_buffers`. -/
def enumBuffers (x : Ext) (n : EnumNode) : Except Panic String :=
  match loopM (enumVariantItem x n) n.items (Writer.new 2) with
  | .error e => .error e
  | .ok w =>
    let w := w.writeln (enumInto x n)
    let w := w.write (enumEmplace x n)
    .ok w.show

/-- dart_generator.rs 84-90, loop body of `generate_models`. -/
def modelsItem (x : Ext) (w : Writer) : ASTNode → Except Panic Writer
  | .struct n => .ok (w.writeln (structModel x n "" true))
  | .enum n =>
    match enumModel x n with
    | .error e => .error e
    | .ok s => .ok (w.write s)
  | _ => .ok w

/-- dart_generator.rs 81-99 `generate_models`. -/
def models (x : Ext) (ast : List ASTNode) : Except Panic String :=
  match loopM (modelsItem x) ast (Writer.new 2) with
  | .error e => .error e
  | .ok w => .ok (trimOnce w.show)

/-- dart_generator.rs 104-110, loop body of `generate_buffers`. -/
def buffersItem (x : Ext) (w : Writer) : ASTNode → Except Panic Writer
  | .struct n =>
    match structBuffers x n with
    | .error e => .error e
    | .ok s => .ok (w.writeln s)
  | .enum n =>
    match enumBuffers x n with
    | .error e => .error e
    | .ok s => .ok (w.writeln s)
  | _ => .ok w

/-- dart_generator.rs 101-119 `generate_buffers`. -/
def buffers (x : Ext) (ast : List ASTNode) : Except Panic String :=
  match loopM (buffersItem x) ast (Writer.new 2) with
  | .error e => .error e
  | .ok w => .ok (trimOnce w.show)

/-! ### dart/consts.rs -/

/-- dart/consts.rs 35-54 `generate_const_class_decls`. -/
def constClassDecl (x : Ext) (id : String) : String :=
  ((Writer.new 2).writelnTab 0 ("const " ++ x.camel id ++ " = _" ++ x.pascal id ++ "();")).show

/-- dart/consts.rs 79-86: the Dart type of a constant. -/
def constType (t : TypeId) : String :=
  match t with
  | .other id =>
    if id = "GroupAddress" then "int"
    else if id = "CommandsBufferAddress" then "int"
    else typeId t
  | _ => typeId t

/-- dart/consts.rs 77-108: one member of a constant class. -/
def constMember (x : Ext) (classPath : String) (w : Writer) : ConstItem → Writer
  | .value id t v =>
    w.writelnTab 1 ("final " ++ constType t ++ " " ++ x.camel id ++ " = " ++ constValue x v ++ ";")
  | .node id _ =>
    w.writelnTab 1 ("final " ++ x.camel id ++ " = const _" ++ classPath ++ x.pascal id ++ "();")

mutual
/-- dart/consts.rs 56-123 `generate_const_class_impl`.  The blank line before the first item
(lines 69-75) is written exactly when there are items. -/
def constClassImpl (x : Ext) (pre : String) (id : String) (items : List ConstItem) : String :=
  let classPath := pre ++ x.pascal id
  let w := Writer.new 2
  let w := w.writeln ("class _" ++ classPath ++ " {")
  let w := w.writelnTab 1 ("const _" ++ classPath ++ "();")
  let w := if items.isEmpty then w else w.writeln ""
  let w := items.foldl (constMember x classPath) w
  let w := w.writeln "}"
  let w := constChildren x classPath w items
  w.show
termination_by (sizeOf items, 1)

/-- dart/consts.rs 115-120: the classes of nested blocks. -/
def constChildren (x : Ext) (pre : String) (w : Writer) : List ConstItem → Writer
  | [] => w
  | .value _ _ _ :: rest => constChildren x pre w rest
  | .node id items :: rest =>
    let w := w.writeln ""
    let w := w.write (constClassImpl x pre id items)
    constChildren x pre w rest
termination_by items => (sizeOf items, 0)
end

/-- dart/consts.rs 13-17, first loop body. -/
def constsDeclItem (x : Ext) (w : Writer) : ASTNode → Writer
  | .const n => w.write (constClassDecl x n.id)
  | _ => w

/-- dart/consts.rs 19-24, second loop body. -/
def constsImplItem (x : Ext) (w : Writer) : ASTNode → Writer
  | .const n => (w.writeln "").write (constClassImpl x "" n.id n.items)
  | _ => w

/-- dart/consts.rs 10-33 `generate_consts`. -/
def consts (x : Ext) (ast : List ASTNode) : String :=
  let w := Writer.new 2
  let w := ast.foldl (constsDeclItem x) w
  let w := ast.foldl (constsImplItem x) w
  trimOnce w.show

/-! ### dart/rpc.rs -/

/-- dart/rpc.rs 10-12 `var_last_method_id`. -/
def varLastMethodId (x : Ext) (f : FnNode) : String := "_last" ++ x.pascal f.id ++ "MethodId"
/-- dart/rpc.rs 14-16 `var_method_completers`. -/
def varMethodCompleters (x : Ext) (f : FnNode) : String := "_" ++ x.camel f.id ++ "Completers"
/-- dart/rpc.rs 18-20 `var_read_task`. -/
def varReadTask (x : Ext) (f : FnNode) : String := "_read" ++ x.pascal f.id ++ "Task"
/-- dart/rpc.rs 22-24 `var_read_stream_controller`. -/
def varReadStreamController (x : Ext) (f : FnNode) : String :=
  "_read" ++ x.pascal f.id ++ "StreamController"

/-- dart/rpc.rs 170-180 `generate_constructor`. -/
def rpcConstructor (x : Ext) (fs : List FnNode) : String :=
  (fs.foldl (fun w f =>
    if f.isAsync || f.isRead then w.writelnTab 2 ("_connect" ++ x.pascal f.id ++ "();") else w)
    (Writer.new 2)).show

/-- dart/rpc.rs 182-203 `generate_disconnect`. -/
def rpcDisconnect (x : Ext) (fs : List FnNode) : String :=
  let w := Writer.new 2
  let w := w.writelnTab 1 "void disconnect() {"
  let w := fs.foldl (fun w f =>
    let w := if f.isAsync || f.isRead then
      w.writelnTab 2 ("_scheduler.disconnect(" ++ varReadTask x f ++ ");") else w
    if f.isRead then w.writelnTab 2 (varReadStreamController x f ++ ".close();") else w) w
  let w := w.writelnTab 1 "}"
  w.show

/-- dart/rpc.rs 276-291 `generate_fn_args`. -/
def rpcFnArgs (x : Ext) (f : FnNode) : String :=
  (f.args.foldl (fun w a =>
    w.writelnTab 2 ("required " ++ typeId a.typeId ++ " " ++ x.camel a.id ++ ",")) (Writer.new 2)).show

/-- `for arg in &node.args { writer.writeln_tab(4, &generate_write(..)) }` (dart/rpc.rs 233-238,
340-345). -/
def rpcWriteArgs (x : Ext) (f : FnNode) (w : Writer) : Except Panic Writer :=
  loopM (fun w (a : FnArg) =>
    match write a.typeId (x.camel a.id) with
    | .error e => .error e
    | .ok s => .ok (w.writelnTab 4 s)) f.args w

/-- dart/rpc.rs 205-274 `generate_sync_rpc_method`. -/
def syncMethod (x : Ext) (f : FnNode) : Except Panic String :=
  let w := Writer.new 2
  let ret := optionTypeId f.returnTypeId
  let w :=
    if f.args.isEmpty then w.writelnTab 1 (ret ++ " " ++ x.camel f.id ++ "() {")
    else
      let w := w.writelnTab 1 (ret ++ " " ++ x.camel f.id ++ "({")
      let w := w.write (rpcFnArgs x f)
      w.writelnTab 1 "}) {"
  let w := w.writelnTab 2 "_scheduler.syncWrite("
  let w := w.writelnTab 3 "_scopeId,"
  let w := w.writelnTab 3 (toString f.position ++ ",")
  let w := w.writelnTab 3 "TechPawsRuntimeRpcMethodBuffer.server,"
  let w := w.writelnTab 3 "(writer) {"
  let w := w.writelnTab 4 "writer.writeInt8(TechPawsRpcBufferStatus.hasData.value);"
  match rpcWriteArgs x f w with
  | .error e => .error e
  | .ok w =>
    let w := w.writelnTab 3 "},"
    let w := w.writelnTab 2 ");"
    let w := w.writeln ""
    let w := w.writelnTab 2 "_scheduler.loopSyncGroup();"
    let w := w.writeln ""
    match (match f.returnTypeId with
      | none => .ok w
      | some t =>
        match read t with
        | .error e => .error e
        | .ok r =>
          let w := w.writelnTab 2 ("final result = _scheduler.syncRead<" ++ typeId t ++ ">(")
          let w := w.writelnTab 3 "_scopeId,"
          let w := w.writelnTab 3 (toString f.position ++ ",")
          let w := w.writelnTab 3 "TechPawsRuntimeRpcMethodBuffer.client,"
          let w := w.writelnTab 3 "(reader) {"
          let w := w.writelnTab 4 "final status = reader.readInt8();"
          let w := w.writeln ""
          let w := w.writelnTab 4 "if (status != TechPawsRpcBufferStatus.hasData.value) {"
          let w := w.writelnTab 5 "throw StateError('No data');"
          let w := w.writelnTab 4 "}"
          let w := w.writeln ""
          let w := w.writelnTab 4 ("return " ++ r ++ ";")
          let w := w.writelnTab 3 "},"
          let w := w.writelnTab 2 ");"
          let w := w.writeln ""
          .ok (w.writelnTab 2 "return result;") : Except Panic Writer) with
    | .error e => .error e
    | .ok w => .ok (w.writelnTab 1 "}").show

/-- dart/rpc.rs 370-422 `generate_async_rpc_connect_method`. -/
def asyncConnectMethod (x : Ext) (f : FnNode) : Except Panic String :=
  let w := Writer.new 2
  let w := w.writelnTab 1 ("void _connect" ++ x.pascal f.id ++ "() {")
  let w := w.writelnTab 2 (varReadTask x f ++ " = _scheduler.read(")
  let w := w.writelnTab 3 "_scopeId,"
  let w := w.writelnTab 3 (toString f.position ++ ",")
  let w := w.writelnTab 3 "TechPawsRuntimeRpcMethodBuffer.client,"
  let w := w.writelnTab 3 "(reader) {"
  let w := w.writelnTab 4 "final status = reader.readInt8();"
  let w := w.writeln ""
  let w := w.writelnTab 4 "if (status != TechPawsRpcBufferStatus.hasData.value) {"
  let w := w.writelnTab 5 "return;"
  let w := w.writelnTab 4 "}"
  let w := w.writeln ""
  let w := w.writelnTab 4 "final methodId = reader.readInt64();"
  match (match f.returnTypeId with
    | some t =>
      match read t with
      | .error e => .error e
      | .ok r =>
        let w := w.writelnTab 4 ("final result = " ++ r ++ ";")
        let w := w.writeln ""
        .ok (w.writelnTab 4 (varMethodCompleters x f ++ "[methodId]?.complete(result);"))
    | none =>
      let w := w.writeln ""
      .ok (w.writelnTab 4 (varMethodCompleters x f ++ "[methodId]?.complete();")) :
      Except Panic Writer) with
  | .error e => .error e
  | .ok w =>
    let w := w.writelnTab 4 (varMethodCompleters x f ++ ".remove(methodId);")
    let w := w.writelnTab 3 "},"
    let w := w.writelnTab 2 ");"
    let w := w.writelnTab 1 "}"
    .ok w.show

/-- dart/rpc.rs 293-368 `generate_async_rpc_method`. -/
def asyncMethod (x : Ext) (f : FnNode) : Except Panic String :=
  let w := Writer.new 2
  let ret := optionTypeId f.returnTypeId
  match asyncConnectMethod x f with
  | .error e => .error e
  | .ok connect =>
    let w := w.writeln connect
    let w :=
      if f.args.isEmpty then w.writelnTab 1 ("Future<" ++ ret ++ "> " ++ x.camel f.id ++ "() {")
      else
        let w := w.writelnTab 1 ("Future<" ++ ret ++ "> " ++ x.camel f.id ++ "({")
        let w := w.write (rpcFnArgs x f)
        w.writelnTab 1 "}) {"
    let w := w.writelnTab 2 ("final methodId = " ++ varLastMethodId x f ++ ";")
    let w := w.writelnTab 2 (varLastMethodId x f ++ " = rotateMethodId(" ++ varLastMethodId x f ++ ");")
    let w := w.writeln ""
    let w := w.writelnTab 2 "_scheduler.write("
    let w := w.writelnTab 3 "_scopeId,"
    let w := w.writelnTab 3 (toString f.position ++ ",")
    let w := w.writelnTab 3 "TechPawsRuntimeRpcMethodBuffer.server,"
    let w := w.writelnTab 3 "(writer) {"
    let w := w.writelnTab 4 "writer.writeInt8(TechPawsRpcBufferStatus.hasData.value);"
    let w := w.writelnTab 4 "writer.writeInt64(methodId);"
    match rpcWriteArgs x f w with
    | .error e => .error e
    | .ok w =>
      let w := w.writelnTab 3 "},"
      let w := w.writelnTab 2 ");"
      let w := w.writeln ""
      let w := w.writelnTab 2 ("final completer = Completer<" ++ ret ++ ">();")
      let w := w.writelnTab 2 (varMethodCompleters x f ++ "[methodId] = completer;")
      let w := w.writeln ""
      let w := w.writelnTab 2 "return completer.future;"
      let w := w.writelnTab 1 "}"
      .ok w.show

/-- dart/rpc.rs 424-466 `generate_read_rpc_method`. -/
def readMethod (x : Ext) (f : FnNode) : Except Panic String :=
  let w := Writer.new 2
  let w := w.writelnTab 1 ("void _connect" ++ x.pascal f.id ++ "() {")
  let w := w.writelnTab 2 (varReadTask x f ++ " = _scheduler.read(")
  let w := w.writelnTab 3 "_scopeId,"
  let w := w.writelnTab 3 (toString f.position ++ ",")
  let w := w.writelnTab 3 "TechPawsRuntimeRpcMethodBuffer.client,"
  let w := w.writelnTab 3 "(reader) {"
  let w := w.writelnTab 4 "final status = reader.readInt8();"
  let w := w.writeln ""
  let w := w.writelnTab 4 "if (status != TechPawsRpcBufferStatus.hasData.value) {"
  let w := w.writelnTab 5 "return;"
  let w := w.writelnTab 4 "}"
  let w := w.writeln ""
  match (match f.returnTypeId with
    | some t =>
      match read t with
      | .error e => .error e
      | .ok r =>
        let w := w.writelnTab 4 ("final result = " ++ r ++ ";")
        .ok (w.writelnTab 4 (varReadStreamController x f ++ ".add(result);"))
    | none => .ok (w.writelnTab 4 (varReadStreamController x f ++ ".add(null);")) :
      Except Panic Writer) with
  | .error e => .error e
  | .ok w =>
    let w := w.writelnTab 3 "},"
    let w := w.writelnTab 2 ");"
    let w := w.writelnTab 1 "}"
    .ok w.show

/-- dart/rpc.rs 88-126, loop body: the members of the client class for one method. -/
def rpcMembers (x : Ext) (w : Writer) (f : FnNode) : Writer :=
  let w := if f.isAsync || f.isRead then w.writeln "" else w
  let w :=
    if f.isAsync && !f.isRead then
      let w := w.writelnTab 1 ("int " ++ varLastMethodId x f ++ " = 0;")
      w.writelnTab 1 ("final " ++ varMethodCompleters x f ++ " = <int, Completer<"
        ++ optionTypeId f.returnTypeId ++ ">>{};")
    else w
  let w :=
    if f.isAsync || f.isRead then
      w.writelnTab 1 ("late final TechPawsRuntimeRpcReadTask " ++ varReadTask x f ++ ";")
    else w
  if f.isRead then
    w.writelnTab 1 ("final " ++ varReadStreamController x f ++ " = StreamController<"
      ++ optionTypeId f.returnTypeId ++ ">.broadcast();")
  else w

/-- dart/rpc.rs 128-142, loop body: stream getters. -/
def rpcGetter (x : Ext) (w : Writer) (f : FnNode) : Writer :=
  if f.isRead then
    let w := w.writeln ""
    w.writelnTab 1 ("Stream<" ++ optionTypeId f.returnTypeId ++ "> get " ++ x.camel f.id ++ " => "
      ++ varReadStreamController x f ++ ".stream;")
  else w

/-- dart/rpc.rs 151-164, loop body: the methods. -/
def rpcMethodItem (x : Ext) (last : Nat) (w : Writer) (f : FnNode) : Except Panic Writer :=
  match (if f.isRead then readMethod x f
    else if f.isAsync then asyncMethod x f
    else syncMethod x f) with
  | .error e => .error e
  | .ok m =>
    let w := w.write m
    .ok (if f.position ≠ last then w.writeln "" else w)

/-- A directive value that must be a string (dart/rpc.rs 35-55). -/
def stringDirective (ast : List ASTNode) (name : String) : Except Panic String :=
  match findDirectiveValue ast name with
  | none => .error (.gen (name ++ " is required"))
  | some v =>
    match v.literal with
    | .str s => .ok s
    | _ => .error (.gen (name ++ " should be a string literal"))

/-- dart/rpc.rs 26-168 `generate_rpc_methods` (and dart_generator.rs 121-127 `generate_rpc`, which
copies it). -/
def rpcMethods (x : Ext) (ast : List ASTNode) : Except Panic String :=
  let fs := findFnNodes ast
  match fs.getLast? with
  | none => .ok ""
  | some last =>
    match stringDirective ast "namespace" with
    | .error e => .error e
    | .ok ns =>
      match stringDirective ast "id" with
      | .error e => .error e
      | .ok id =>
        let w := Writer.new 2
        let w := w.writeln ("class " ++ x.pascal ns ++ "RpcClient {")
        let constructor := rpcConstructor x fs
        let w :=
          if constructor = "" then w.writelnTab 1 (x.pascal ns ++ "RpcClient(this._scheduler);")
          else
            let w := w.writelnTab 1 (x.pascal ns ++ "RpcClient(this._scheduler) {")
            let w := w.write constructor
            w.writelnTab 1 "}"
        let w := w.writeln ""
        let w := w.writelnTab 1 "final TechPawsRuntimeRpcScheduler _scheduler;"
        let w := w.writelnTab 1 ("static const _scopeId = '" ++ id ++ "';")
        let w := fs.foldl (rpcMembers x) w
        let w := fs.foldl (rpcGetter x) w
        let w := w.writeln ""
        let w := w.write (rpcDisconnect x fs)
        let w := if fs.length > 1 then w.writeln "" else w
        match loopM (rpcMethodItem x last.position) fs w with
        | .error e => .error e
        | .ok w => .ok (w.writeln "}").show

/-! ### dart_generator.rs: top level -/

/-- dart_generator.rs 39-50, the import loop. -/
def importsLoop (w : Writer) : List ConstValue → Except Panic Writer
  | [] => .ok w
  | v :: vs =>
    match v.literal with
    | .str s => importsLoop (w.writeln ("import '" ++ s ++ "';")) vs
    | _ => .error (.gen "dart import should be a string literal")

/-- dart_generator.rs 17-79 `generate`. -/
def generate (x : Ext) (ast : List ASTNode) (withModels withBuffers withRpc : Bool) :
    Except Panic String :=
  let w := Writer.new 2
  let w := w.writeln "// GENERATED, DO NOT EDIT"
  let w := w.writeln "// ignore_for_file: unused_import"
  let w := w.writeln ""
  let w :=
    if withRpc && !(findFnNodes ast).isEmpty then
      let w := w.writeln "import 'dart:async';"
      let w := w.writeln "import 'dart:convert';"
      let w := w.writeln ""
      let w := w.writeln "import 'package:tech_paws_buffers/tech_paws_buffers.dart';"
      let w := w.writeln "import 'package:tech_paws_buffers/primitives.dart';"
      let w := w.writeln "import 'package:tech_paws_runtime/scheduler.dart';"
      w.writeln "import 'package:tech_paws_runtime/tech_paws_runtime.dart';"
    else if withBuffers then
      let w := w.writeln "import 'package:tech_paws_buffers/tech_paws_buffers.dart';"
      w.writeln "import 'package:tech_paws_buffers/primitives.dart';"
    else w
  match importsLoop w (findDirectiveGroupValues ast "dart" "import") with
  | .error e => .error e
  | .ok w =>
    let w := if containsConstsNodes ast then (w.writeln "").write (consts x ast) else w
    match (if withModels then
        match models x ast with
        | .error e => .error e
        | .ok s => .ok ((w.writeln "").write s)
      else .ok w : Except Panic Writer) with
    | .error e => .error e
    | .ok w =>
      match (if withBuffers then
          match buffers x ast with
          | .error e => .error e
          | .ok s => .ok ((w.writeln "").write s)
        else .ok w : Except Panic Writer) with
      | .error e => .error e
      | .ok w =>
        match (if withRpc then
            match rpcMethods x ast with
            | .error e => .error e
            | .ok s => .ok ((w.writeln "").write s)
          else .ok w : Except Panic Writer) with
        | .error e => .error e
        | .ok w => .ok (trimAll w.show)

end TPB.DartGen
