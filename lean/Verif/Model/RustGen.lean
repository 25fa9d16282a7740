/-
Model of /repo/src/rust_generator.rs and /repo/src/rust/*.rs: the Rust text generator.

Each function of the source that builds a `String` with a `Writer` is a function here that chains
the same `Writer` calls in the same order; `for` loops are folds over the writer.  `&str`/`String`
distinctions are dropped.
-/
import Verif.Model.Ast
import Verif.Model.Writer
namespace TPB.RustGen
open Writer

/-- rust_generator.rs 175-198 `generate_type_id`. -/
def typeId : TypeId → String
  | .integer id _ _ => id
  | .number id _ => id
  | .bool id => id
  | .char id => id
  | .other id => id
  | .generic id generics => id ++ "<" ++ joinStr ", " (generics.map typeId) ++ ">"

/-- rust_generator.rs 200-212 `generate_const_value`. -/
def constValue (x : Ext) (v : ConstValue) : String :=
  match v.literal with
  | .str s => "\"" ++ s ++ "\""
  | .int n => toString n
  | .num t => x.fmtF64 t
  | .bool b => toString b

/-- rust_generator.rs 214-237 `generate_read`. -/
def read : TypeId → String
  | .integer id _ _ => "bytes_reader.read_" ++ id ++ "()"
  | .number id _ => "bytes_reader.read_" ++ id ++ "()"
  | .bool id => "bytes_reader.read_" ++ id ++ "()"
  | .char id => "bytes_reader.read_" ++ id ++ "()"
  | .other id => id ++ "::read_from_buffers(bytes_reader)"
  | .generic id generics =>
    id ++ "::<" ++ joinStr ", " (generics.map typeId) ++ ">::read_from_buffers(bytes_reader)"

/-- rust_generator.rs 239-261 `generate_write`. -/
def write (t : TypeId) (accessor : String) (deref : Bool) : String :=
  let primitive := if deref then "*" ++ accessor else accessor
  match t with
  | .integer id _ _ => "bytes_writer.write_" ++ id ++ "(" ++ primitive ++ ");"
  | .number id _ => "bytes_writer.write_" ++ id ++ "(" ++ primitive ++ ");"
  | .bool id => "bytes_writer.write_" ++ id ++ "(" ++ primitive ++ ");"
  | .char id => "bytes_writer.write_" ++ id ++ "(" ++ primitive ++ ");"
  | .other _ => accessor ++ ".write_to_buffers(bytes_writer);"
  | .generic _ _ => accessor ++ ".write_to_buffers(bytes_writer);"

/-- rust_generator.rs 263-286 `generate_default_const`. -/
def defaultConst : TypeId → String
  | .integer _ _ _ => "0"
  | .number _ _ => "0.0"
  | .bool _ => "false"
  | .char _ => "0"
  | .other id => id ++ "::default()"
  | .generic id generics => id ++ "::<" ++ joinStr ", " (generics.map typeId) ++ ">::default()"

/-! ### rust/struct_models.rs -/

/-- rust/struct_models.rs 62-80 `generate_struct_parameters`. -/
def structParameters (tab : Nat) (isPub : Bool) (params : List StructField) : String :=
  (params.foldl (fun w p =>
    if isPub then w.writelnTab tab ("pub " ++ p.name ++ ": " ++ typeId p.typeId ++ ",")
    else w.writelnTab tab (p.name ++ ": " ++ typeId p.typeId ++ ",")) Writer.default).show

/-- rust/struct_models.rs 37-60 `generate_struct_default`. -/
def structDefault (n : StructNode) : String :=
  let w := Writer.default
  let w := w.writeln ("impl Default for " ++ n.id ++ " {")
  let w := w.writelnTab 1 "fn default() -> Self {"
  let w := w.writelnTab 2 "Self {"
  let w := n.fields.foldl
    (fun w f => w.writelnTab 3 (f.name ++ ": " ++ defaultConst f.typeId ++ ",")) w
  let w := w.writelnTab 2 "}"
  let w := w.writelnTab 1 "}"
  let w := w.write "}"
  w.show

/-- rust/struct_models.rs 7-35 `generate_struct_model`. -/
def structModel (n : StructNode) (generateDefault : Bool) : String :=
  let w := Writer.default
  let w :=
    if n.fields.isEmpty then
      let w := w.writeln "#[derive(Debug, Clone, PartialEq)]"
      let w := w.writeln ("pub struct " ++ n.id ++ ";")
      if generateDefault then
        let w := w.writeln ""
        let w := w.writeln ("impl Default for " ++ n.id ++ " {")
        let w := w.writelnTab 1 "fn default() -> Self {"
        let w := w.writelnTab 2 "Self"
        let w := w.writelnTab 1 "}"
        w.writeln "}"
      else w
    else
      let w := w.writeln "#[derive(Debug, Clone, PartialEq)]"
      let w := w.writeln ("pub struct " ++ n.id ++ " {")
      let w := w.write (structParameters 1 true n.fields)
      let w := w.writeln "}"
      if generateDefault then
        let w := w.writeln ""
        w.writeln (structDefault n)
      else w
  w.show

/-! ### rust/enum_models.rs -/

/-- rust/enum_models.rs 96-105 `generate_tuple_parameters`. -/
def tupleParameters (tab : Nat) (params : List TupleField) : String :=
  (params.foldl (fun w p => w.writelnTab tab (typeId p.typeId ++ ",")) Writer.default).show

/-- rust/enum_models.rs 16-38, body of the first loop. -/
def enumModelItem (w : Writer) : EnumItem → Writer
  | .empty _ id => w.writelnTab 1 (id ++ ",")
  | .tuple _ id values =>
    let w := w.writelnTab 1 (id ++ "(")
    let w := w.write (tupleParameters 2 values)
    w.writelnTab 1 "),"
  | .struct _ id fields =>
    let w := w.writelnTab 1 (id ++ " {")
    let w := w.write (structParameters 2 false fields)
    w.writelnTab 1 "},"

/-- rust/enum_models.rs 51-88, the `match default_item`. -/
def enumDefaultItem (w : Writer) : EnumItem → Writer
  | .empty _ id => w.writelnTab 2 ("Self::" ++ id)
  | .tuple _ id values =>
    let w := w.writelnTab 2 ("Self::" ++ id ++ "(")
    let w := values.foldl (fun w v => w.writelnTab 3 (defaultConst v.typeId ++ ",")) w
    w.writelnTab 2 ")"
  | .struct _ id fields =>
    let w := w.writelnTab 2 ("Self::" ++ id ++ " {")
    let w := fields.foldl
      (fun w f => w.writelnTab 3 (f.name ++ ": " ++ defaultConst f.typeId ++ ",")) w
    w.writelnTab 2 "}"

/-- rust/enum_models.rs 9-94 `generate_enum_model`; the error is the `unwrap` on line 49. -/
def enumModel (n : EnumNode) : Except Panic String :=
  let w := Writer.default
  let w := w.writeln "#[derive(Debug, Clone, PartialEq)]"
  let w := w.writeln ("pub enum " ++ n.id ++ " {")
  let w := n.items.foldl enumModelItem w
  let w := w.writeln "}"
  let w := w.writeln ""
  let w := w.writeln ("impl Default for " ++ n.id ++ " {")
  let w := w.writelnTab 1 "fn default() -> Self {"
  match n.items.head? with
  | none => .error (.gen "unwrap on None")
  | some item =>
    let w := enumDefaultItem w item
    let w := w.writelnTab 1 "}"
    let w := w.writeln "}"
    .ok w.show

/-! ### rust/struct_buffers.rs -/

/-- rust/struct_buffers.rs 23-50 `generate_struct_buffers_read_from_buffers`. -/
def structRead (n : StructNode) : String :=
  let w := Writer.default
  let w :=
    if n.fields.isEmpty then
      let w := w.writelnTab 1 "fn read_from_buffers(_: &mut BytesReader) -> Self {"
      let w := w.writelnTab 2 n.id
      w.writelnTab 1 "}"
    else
      let w := w.writelnTab 1 "fn read_from_buffers(bytes_reader: &mut BytesReader) -> Self {"
      let w := w.writelnTab 2 "Self {"
      let w := n.fields.foldl
        (fun w f => w.writelnTab 3 (f.name ++ ": " ++ read f.typeId ++ ",")) w
      let w := w.writelnTab 2 "}"
      w.writelnTab 1 "}"
  w.show

/-- rust/struct_buffers.rs 52-74 `generate_struct_buffers_write_to_buffers`. -/
def structWrite (n : StructNode) : String :=
  let w := Writer.default
  let w :=
    if n.fields.isEmpty then
      w.writelnTab 1 "fn write_to_buffers(&self, _: &mut BytesWriter) {}"
    else
      let w := w.writelnTab 1 "fn write_to_buffers(&self, bytes_writer: &mut BytesWriter) {"
      let w := n.fields.foldl
        (fun w f => w.writelnTab 2 (write f.typeId ("self." ++ f.name) false)) w
      w.writelnTab 1 "}"
  w.show

/-- rust/struct_buffers.rs 76-97 `generate_struct_buffers_skip`. -/
def structSkip (n : StructNode) : String :=
  let w := Writer.default
  let w :=
    if n.fields.isEmpty then
      w.writelnTab 1 "fn skip_in_buffers(_: &mut BytesReader, _: u64) {}"
    else
      let w := w.writelnTab 1 "fn skip_in_buffers(bytes_reader: &mut BytesReader, count: u64) {"
      let w := w.writelnTab 2 "for _ in 0..count {"
      let w := n.fields.foldl (fun w f => w.writelnTab 3 (read f.typeId ++ ";")) w
      let w := w.writelnTab 2 "}"
      w.writelnTab 1 "}"
  w.show

/-- rust/struct_buffers.rs 7-21 `generate_struct_buffers`. -/
def structBuffers (n : StructNode) : String :=
  let w := Writer.default
  let w := w.writeln ("impl IntoVMBuffers for " ++ n.id ++ " {")
  let w := w.write (structRead n)
  let w := w.writeln ""
  let w := w.write (structWrite n)
  let w := w.writeln ""
  let w := w.write (structSkip n)
  let w := w.writeln "}"
  w.show

/-! ### rust/enum_buffers.rs -/

/-- rust/enum_buffers.rs 35-70, loop body of the read function. -/
def enumReadItem (enumId : String) (w : Writer) : EnumItem → Writer
  | .empty position id =>
    w.writelnTab 3 (toString position ++ " => return " ++ enumId ++ "::" ++ id ++ ",")
  | .tuple position id values =>
    let w := w.writelnTab 3 (toString position ++ " => return " ++ enumId ++ "::" ++ id ++ "(")
    let w := values.foldl (fun w v => w.writelnTab 4 (read v.typeId ++ ",")) w
    w.writelnTab 3 "),"
  | .struct position id fields =>
    let w := w.writelnTab 3 (toString position ++ " => return " ++ enumId ++ "::" ++ id ++ " {")
    let w := fields.foldl (fun w f => w.writelnTab 4 (f.name ++ ": " ++ read f.typeId ++ ",")) w
    w.writelnTab 3 "},"

/-- rust/enum_buffers.rs 17-77 `generate_enum_buffers_read_from_buffers`. -/
def enumRead (n : EnumNode) : String :=
  let w := Writer.default
  let w := w.writelnTab 1 "fn read_from_buffers(bytes_reader: &mut BytesReader) -> Self {"
  let w := w.writelnTab 2 ("let value = " ++ read u32TypeId ++ ";")
  let w := w.writeln ""
  let w := w.writelnTab 2 "match value {"
  let w := n.items.foldl (enumReadItem n.id) w
  let w := w.writelnTab 3 "_ => panic!(\"Unsupported enum value: {}\", value),"
  let w := w.writelnTab 2 "}"
  let w := w.writelnTab 1 "}"
  w.show

/-- rust/enum_buffers.rs 89-147, loop body of the write function. -/
def enumWriteItem (enumId : String) (w : Writer) : EnumItem → Writer
  | .empty position id =>
    let w := w.writelnTab 3 (enumId ++ "::" ++ id ++ " => {")
    let w := w.writelnTab 4 (write u32TypeId (toString position) false)
    w.writelnTab 3 "},"
  | .tuple position id values =>
    let w := w.writelnTab 3 (enumId ++ "::" ++ id ++ "(")
    let w := foldIdx (fun w i _ => w.writelnTab 4 ("v" ++ toString i ++ ",")) 0 values w
    let w := w.writelnTab 3 ") => {"
    let w := w.writelnTab 4 (write u32TypeId (toString position) false)
    let w := foldIdx (fun (w : Writer) i (v : TupleField) =>
      w.writelnTab 4 (write v.typeId ("v" ++ toString i) true)) 0 values w
    w.writelnTab 3 "},"
  | .struct position id fields =>
    let w := w.writelnTab 3 (enumId ++ "::" ++ id ++ " {")
    let w := fields.foldl (fun w f => w.writelnTab 4 (f.name ++ ",")) w
    let w := w.writelnTab 3 "} => {"
    let w := w.writelnTab 4 (write u32TypeId (toString position) false)
    let w := fields.foldl (fun w f => w.writelnTab 4 (write f.typeId f.name true)) w
    w.writelnTab 3 "},"

/-- rust/enum_buffers.rs 79-153 `generate_enum_buffers_write_to_buffers`. -/
def enumWrite (n : EnumNode) : String :=
  let w := Writer.default
  let w := w.writelnTab 1 "fn write_to_buffers(&self, bytes_writer: &mut BytesWriter) {"
  let w := w.writelnTab 2 "match self {"
  let w := n.items.foldl (enumWriteItem n.id) w
  let w := w.writelnTab 2 "}"
  let w := w.writelnTab 1 "}"
  w.show

/-- rust/enum_buffers.rs 175-207, loop body of the skip function. -/
def enumSkipItem (w : Writer) : EnumItem → Writer
  | .empty position _ => w.writelnTab 4 (toString position ++ " => (),")
  | .tuple position _ values =>
    let w := w.writelnTab 4 (toString position ++ " => {")
    let w := values.foldl (fun w v => w.writelnTab 5 (read v.typeId ++ ";")) w
    w.writelnTab 4 "},"
  | .struct position _ fields =>
    let w := w.writelnTab 4 (toString position ++ " => {")
    let w := fields.foldl (fun w f => w.writelnTab 5 (read f.typeId ++ ";")) w
    w.writelnTab 4 "},"

/-- rust/enum_buffers.rs 155-216 `generate_enum_buffers_skip`. -/
def enumSkip (n : EnumNode) : String :=
  let w := Writer.default
  let w := w.writelnTab 1 "fn skip_in_buffers(bytes_reader: &mut BytesReader, count: u64) {"
  let w := w.writelnTab 2 "for _ in 0..count {"
  let w := w.writelnTab 3 ("let value = " ++ read u32TypeId ++ ";")
  let w := w.writeln ""
  let w := w.writelnTab 3 "match value {"
  let w := n.items.foldl enumSkipItem w
  let w := w.writelnTab 4 "_ => panic!(\"Unsupported enum value: {}\", value),"
  let w := w.writelnTab 3 "}"
  let w := w.writelnTab 2 "}"
  let w := w.writelnTab 1 "}"
  w.show

/-- rust/enum_buffers.rs 3-15 `generate_enum_buffers`. -/
def enumBuffers (n : EnumNode) : String :=
  let w := Writer.default
  let w := w.writeln ("impl IntoVMBuffers for " ++ n.id ++ " {")
  let w := w.write (enumRead n)
  let w := w.writeln ""
  let w := w.write (enumWrite n)
  let w := w.writeln ""
  let w := w.write (enumSkip n)
  let w := w.writeln "}"
  w.show

/-! ### rust/consts.rs -/

/-- rust/consts.rs 28-41: the emitted type and value of a constant. -/
def constParts (x : Ext) (t : TypeId) (v : ConstValue) : String × String :=
  match t with
  | .other id =>
    if id = "GroupAddress" then
      ("tech_paws_runtime::GroupAddress", "tech_paws_runtime::GroupAddress(" ++ constValue x v ++ ")")
    else if id = "CommandsBufferAddress" then
      ("tech_paws_runtime::CommandsBufferAddress",
        "tech_paws_runtime::CommandsBufferAddress(" ++ constValue x v ++ ")")
    else (typeId t, constValue x v)
  | _ => (typeId t, constValue x v)

mutual
/-- rust/consts.rs 8-64 `generate_const_block`. -/
def constBlock (x : Ext) (tab : Nat) (id : String) (items : List ConstItem) : String :=
  let w := Writer.default
  let w := w.writelnTab tab ("pub mod " ++ id ++ " {")
  let w := constItemsLoop x tab true false w items
  let w := w.writelnTab tab "}"
  w.show
termination_by (sizeOf items, 1)

/-- rust/consts.rs 16-59, the loop, with its flags `is_first`, `is_value`. -/
def constItemsLoop (x : Ext) (tab : Nat) (isFirst isValue : Bool) (w : Writer) :
    List ConstItem → Writer
  | [] => w
  | .value id t v :: rest =>
    let w := if !isValue && !isFirst then w.writeln "" else w
    let p := constParts x t v
    let w := w.writelnTab (tab + 1) ("pub const " ++ id ++ ": " ++ p.1 ++ " = " ++ p.2 ++ ";")
    constItemsLoop x tab false true w rest
  | .node id items :: rest =>
    let w := if isValue && !isFirst then w.writeln "" else w
    let w := w.write (constBlock x (tab + 1) id items)
    constItemsLoop x tab false false w rest
termination_by items => (sizeOf items, 0)
end

/-! ### rust/rpc.rs -/

/-- rust/rpc.rs 10 `RPC_NEW_DATA_STATUS`. -/
def newDataStatus : String := "0xFF"
/-- rust/rpc.rs 11 `RPC_NO_DATA_STATUS`. -/
def noDataStatus : String := "0x00"
/-- rust/rpc.rs 12 `RPC_READ_BUSY_STATUS`. -/
def readBusyStatus : String := "0xFF"
/-- rust/rpc.rs 13 `RPC_READ_FREE_STATUS`. -/
def readFreeStatus : String := "0x00"

/-- rust/rpc.rs 55-61: group and registration function of a method. -/
def registerKind (f : FnNode) : String × String :=
  if f.isRead then ("addr.read_group_address", "register_async_rpc_method")
  else if f.isAsync then ("addr.async_group_address", "register_async_rpc_method")
  else ("addr.sync_group_address", "register_sync_rpc_method")

/-- rust/rpc.rs 54-69, body of the loop. -/
def registerItem (w : Writer) (f : FnNode) : Writer :=
  let k := registerKind f
  let w := w.writelnTab 1 ("runtime." ++ k.2 ++ "(")
  let w := w.writelnTab 2 (k.1 ++ ",")
  let w := w.writelnTab 2 "scope_id,"
  let w := w.writelnTab 2 ("RpcMethodAddress(" ++ toString f.position ++ "),")
  let w := w.writelnTab 2 (f.id ++ "_rpc_handler,")
  w.writelnTab 1 ");"

/-- rust/rpc.rs 29-74 `generate_register_fn`. -/
def registerFn (ast : List ASTNode) : Except Panic String :=
  let w := Writer.default
  let w := w.writeln "pub fn register_rpc(runtime: &mut TechPawsRuntime, addr: &TechPawsRpcAddress) {"
  match findDirectiveValue ast "id" with
  | none => .error (.gen "id is required")
  | some v =>
    match v.literal with
    | .str id =>
      let w := w.writelnTab 1 ("let scope_id = TechPawsScopeId(uuid!(\"" ++ id ++ "\"));")
      let w := w.writelnTab 1 "runtime.memory.add_scope(scope_id);"
      let w := (findFnNodes ast).foldl registerItem w
      let w := w.writeln "}"
      .ok w.show
    | _ => .error (.gen "id should be a string literal")

/-- rust/rpc.rs 79, 190: the name of the argument struct. -/
def argsStructId (f : FnNode) : String := "__" ++ f.id ++ "_rpc_args__"

/-- `for (i, arg) in node.args.iter().enumerate()` pushing fields (rust/rpc.rs 82-88, 202-208). -/
def argFields : Nat → List FnArg → List StructField
  | _, [] => []
  | i, a :: as => ⟨i, a.id, a.typeId⟩ :: argFields (i + 1) as

/-- rust/rpc.rs 79-95: the argument struct of a synchronous method. -/
def syncArgs (f : FnNode) : StructNode := ⟨argsStructId f, argFields 0 f.args, false, true⟩

/-- rust/rpc.rs 190-215: the argument struct of an asynchronous method. -/
def asyncArgs (f : FnNode) : StructNode :=
  ⟨argsStructId f, ⟨0, "__method_id__", .number "i64" 8⟩ :: argFields 1 f.args, false, true⟩

/-- rust/rpc.rs 106-126 and 231-251 (identical text): reading the request. -/
def rpcGetArgs (f : FnNode) (w : Writer) : Writer :=
  let w := w.writelnTab 1 "let args = memory.get_scope_mut(scope_id).rpc_buffer_read("
  let w := w.writelnTab 2 "rpc_method_address,"
  let w := w.writelnTab 2 "TechPawsRuntimeRpcMethodBuffer::Server,"
  let w := w.writelnTab 2 "|bytes_reader| {"
  let w := w.writelnTab 3 "let status = bytes_reader.read_u8();"
  let w := w.writeln ""
  let w := w.writelnTab 3 ("if status == " ++ newDataStatus ++ " {")
  let w := w.writelnTab 4 ("Some(" ++ argsStructId f ++ "::read_from_buffers(bytes_reader))")
  let w := w.writelnTab 3 "} else {"
  let w := w.writelnTab 4 "None"
  let w := w.writelnTab 3 "}"
  let w := w.writelnTab 2 "},"
  let w := w.writelnTab 1 ");"
  w.writeln ""

/-- rust/rpc.rs 128-140 and 253-265 (identical text): acknowledging the request. -/
def rpcAck (w : Writer) : Writer :=
  let w := w.writelnTab 1 "if let Some(args) = &args {"
  let w := w.writelnTab 2 "memory.get_scope_mut(scope_id).rpc_buffer_write("
  let w := w.writelnTab 3 "rpc_method_address,"
  let w := w.writelnTab 3 "TechPawsRuntimeRpcMethodBuffer::Server,"
  let w := w.writelnTab 3 "|bytes_writer| {"
  let w := w.writelnTab 4 ("bytes_writer.write_u8(" ++ noDataStatus ++ ");")
  let w := w.writelnTab 3 "},"
  let w := w.writelnTab 2 ");"
  w.writeln ""

/-- rust/rpc.rs 142-160 (`tab` 2, `tail` empty) and 271-289 (`tab` 3, `tail` ".await"): the call of
the user function. -/
def rpcCall (f : FnNode) (tab : Nat) (tail : String) (w : Writer) : Writer :=
  if f.args.isEmpty then
    if f.returnTypeId.isNone then w.writelnTab tab (f.id ++ "()" ++ tail ++ ";")
    else w.writelnTab tab ("let result = " ++ f.id ++ "()" ++ tail ++ ";")
  else
    let w := if f.returnTypeId.isNone then w.writelnTab tab (f.id ++ "(")
      else w.writelnTab tab ("let result = " ++ f.id ++ "(")
    let w := f.args.foldl (fun w a => w.writelnTab (tab + 1) ("args.clone()." ++ a.id ++ ",")) w
    w.writelnTab tab (")" ++ tail ++ ";")

/-- `if let Some(return_type_id) = &node.return_type_id { writeln_tab(tab, generate_write(..)) }`. -/
def rpcWriteResult (f : FnNode) (tab : Nat) (w : Writer) : Writer :=
  match f.returnTypeId with
  | some t => w.writelnTab tab (write t "result" false)
  | none => w

/-- rust/rpc.rs 76-185 `generate_sync_rpc_method`. -/
def syncMethod (f : FnNode) : String :=
  let w := Writer.default
  let w := w.writeln (structModel (syncArgs f) false)
  let w := w.writeln (structBuffers (syncArgs f))
  let w := w.writeln ("pub fn " ++ f.id ++ "_rpc_handler(")
  let w := w.writelnTab 1 "scope_id: TechPawsScopeId,"
  let w := w.writelnTab 1 "memory: &mut TechPawsRuntimeMemory,"
  let w := w.writelnTab 1 "rpc_method_address: RpcMethodAddress,"
  let w := w.writeln ") -> bool {"
  let w := rpcGetArgs f w
  let w := rpcAck w
  let w := rpcCall f 2 "" w
  let w := w.writeln ""
  let w := w.writelnTab 2 "memory.get_scope_mut(scope_id).rpc_buffer_write("
  let w := w.writelnTab 3 "rpc_method_address,"
  let w := w.writelnTab 3 "TechPawsRuntimeRpcMethodBuffer::Client,"
  let w := w.writelnTab 3 "|bytes_writer| {"
  let w := w.writelnTab 4 ("bytes_writer.write_u8(" ++ newDataStatus ++ ");")
  let w := rpcWriteResult f 4 w
  let w := w.writelnTab 3 "},"
  let w := w.writelnTab 2 ");"
  let w := w.writelnTab 1 "}"
  let w := w.writeln ""
  let w := w.writelnTab 1 "args.is_some()"
  let w := w.writeln "}"
  w.show

/-- rust/rpc.rs 187-318 `generate_async_rpc_method`. -/
def asyncMethod (f : FnNode) : String :=
  let w := Writer.default
  let w := w.writeln (structModel (asyncArgs f) false)
  let w := w.writeln (structBuffers (asyncArgs f))
  let w := w.writeln ("pub fn " ++ f.id ++ "_rpc_handler(")
  let w := w.writelnTab 1 "scope_id: TechPawsScopeId,"
  let w := w.writelnTab 1 "runtime_as_mut: unsafe fn() -> &'static mut TechPawsRuntime,"
  let w := w.writelnTab 1 "memory: &mut TechPawsRuntimeMemory,"
  let w := w.writelnTab 1 "async_context: &mut TechPawsRuntimeAsyncContext,"
  let w := w.writelnTab 1 "rpc_method_address: RpcMethodAddress,"
  let w := w.writeln ") -> bool {"
  let w := rpcGetArgs f w
  let w := rpcAck w
  let w := w.writelnTab 2 "let args = args.clone();"
  let w := w.writeln ""
  let w := w.writelnTab 2 "async_context.async_spawner.spawn(async move {"
  let w := w.writelnTab 3 "let memory = unsafe { &mut runtime_as_mut().memory };"
  let w := rpcCall f 3 ".await" w
  let w := w.writeln ""
  let w := w.writelnTab 3 "memory.get_scope_mut(scope_id).rpc_buffer_write("
  let w := w.writelnTab 4 "rpc_method_address,"
  let w := w.writelnTab 4 "TechPawsRuntimeRpcMethodBuffer::Client,"
  let w := w.writelnTab 4 "|bytes_writer| {"
  let w := w.writelnTab 5 ("bytes_writer.write_u8(" ++ newDataStatus ++ ");")
  let w := w.writelnTab 5 "bytes_writer.write_i64(args.__method_id__);"
  let w := rpcWriteResult f 5 w
  let w := w.writelnTab 4 "},"
  let w := w.writelnTab 3 ");"
  let w := w.writelnTab 2 "});"
  let w := w.writelnTab 1 "}"
  let w := w.writeln ""
  let w := w.writelnTab 1 "args.is_some()"
  let w := w.writeln "}"
  w.show

/-- rust/rpc.rs 320-356 `generate_sync_read_rpc_method`. -/
def syncReadMethod (f : FnNode) : String :=
  let w := Writer.default
  let w := w.writeln ("pub fn " ++ f.id ++ "_rpc_handler(")
  let w := w.writelnTab 1 "scope_id: TechPawsScopeId,"
  let w := w.writelnTab 1 "_: unsafe fn() -> &'static mut TechPawsRuntime,"
  let w := w.writelnTab 1 "memory: &mut TechPawsRuntimeMemory,"
  let w := w.writelnTab 1 "_: &mut TechPawsRuntimeAsyncContext,"
  let w := w.writelnTab 1 "rpc_method_address: RpcMethodAddress,"
  let w := w.writeln ") -> bool {"
  let w := w.writelnTab 1 ("let result = " ++ f.id ++ "();")
  let w := w.writeln ""
  let w := w.writelnTab 1 "if let Some(result) = &result {"
  let w := w.writelnTab 2 "memory.get_scope_mut(scope_id).rpc_buffer_write("
  let w := w.writelnTab 3 "rpc_method_address,"
  let w := w.writelnTab 3 "TechPawsRuntimeRpcMethodBuffer::Client,"
  let w := w.writelnTab 3 "|bytes_writer| {"
  let w := w.writelnTab 4 ("bytes_writer.write_u8(" ++ newDataStatus ++ ");")
  let w := rpcWriteResult f 4 w
  let w := w.writelnTab 3 "},"
  let w := w.writelnTab 2 ");"
  let w := w.writelnTab 1 "}"
  let w := w.writeln ""
  let w := w.writelnTab 1 "result.is_some()"
  let w := w.writeln "}"
  w.show

/-- rust/rpc.rs 358-435 `generate_async_read_rpc_method`. -/
def asyncReadMethod (f : FnNode) : String :=
  let w := Writer.default
  let w := w.writeln ("pub fn " ++ f.id ++ "_rpc_handler(")
  let w := w.writelnTab 1 "scope_id: TechPawsScopeId,"
  let w := w.writelnTab 1 "runtime_as_mut: unsafe fn() -> &'static mut TechPawsRuntime,"
  let w := w.writelnTab 1 "memory: &mut TechPawsRuntimeMemory,"
  let w := w.writelnTab 1 "async_context: &mut TechPawsRuntimeAsyncContext,"
  let w := w.writelnTab 1 "rpc_method_address: RpcMethodAddress,"
  let w := w.writeln ") -> bool {"
  let w := w.writelnTab 1 "let is_busy = memory.get_scope_mut(scope_id).rpc_buffer_read("
  let w := w.writelnTab 2 "rpc_method_address,"
  let w := w.writelnTab 2 "TechPawsRuntimeRpcMethodBuffer::Server,"
  let w := w.writelnTab 2 "|bytes_reader| {"
  let w := w.writelnTab 3 "let status = bytes_reader.read_u8();"
  let w := w.writelnTab 3 ("status == " ++ readBusyStatus)
  let w := w.writelnTab 2 "},"
  let w := w.writelnTab 1 ");"
  let w := w.writeln ""
  let w := w.writelnTab 1 "if !is_busy {"
  let w := w.writelnTab 2 "memory.get_scope_mut(scope_id).rpc_buffer_write("
  let w := w.writelnTab 3 "rpc_method_address,"
  let w := w.writelnTab 3 "TechPawsRuntimeRpcMethodBuffer::Server,"
  let w := w.writelnTab 3 "|bytes_writer| {"
  let w := w.writelnTab 4 ("bytes_writer.write_u8(" ++ readBusyStatus ++ ");")
  let w := w.writelnTab 3 "},"
  let w := w.writelnTab 2 ");"
  let w := w.writeln ""
  let w := w.writelnTab 2 "async_context.async_spawner.spawn(async move {"
  let w := w.writelnTab 3 ("let result = " ++ f.id ++ "().await;")
  let w := w.writeln ""
  let w := w.writelnTab 3 "if let Some(result) = &result {"
  let w := w.writelnTab 4 "let memory = unsafe { &mut runtime_as_mut().memory };"
  let w := w.writelnTab 4 "memory.get_scope_mut(scope_id).rpc_buffer_write("
  let w := w.writelnTab 5 "rpc_method_address,"
  let w := w.writelnTab 5 "TechPawsRuntimeRpcMethodBuffer::Client,"
  let w := w.writelnTab 5 "|bytes_writer| {"
  let w := w.writelnTab 6 ("bytes_writer.write_u8(" ++ newDataStatus ++ ");")
  let w := rpcWriteResult f 6 w
  let w := w.writelnTab 5 "},"
  let w := w.writelnTab 4 ");"
  let w := w.writelnTab 4 "memory.get_scope_mut(scope_id).rpc_buffer_write("
  let w := w.writelnTab 5 "rpc_method_address,"
  let w := w.writelnTab 5 "TechPawsRuntimeRpcMethodBuffer::Server,"
  let w := w.writelnTab 5 "|bytes_writer| {"
  let w := w.writelnTab 6 ("bytes_writer.write_u8(" ++ readFreeStatus ++ ");")
  let w := w.writelnTab 5 "},"
  let w := w.writelnTab 4 ");"
  let w := w.writelnTab 3 "}"
  let w := w.writelnTab 2 "});"
  let w := w.writelnTab 1 "}"
  let w := w.writeln ""
  let w := w.writelnTab 1 "!is_busy"
  let w := w.writeln "}"
  w.show

/-- rust/rpc.rs 15-27 `generate_rpc_method`. -/
def rpcMethod (f : FnNode) : String :=
  if f.isRead then
    if f.isAsync then asyncReadMethod f else syncReadMethod f
  else if f.isAsync then asyncMethod f
  else syncMethod f

/-! ### rust_generator.rs -/

/-- rust_generator.rs 84-92, the loop of `generate_models`. -/
def modelsLoop (w : Writer) : List ASTNode → Except Panic Writer
  | [] => .ok w
  | .struct n :: ns => modelsLoop (w.writeln (structModel n true)) ns
  | .enum n :: ns =>
    match enumModel n with
    | .error e => .error e
    | .ok s => modelsLoop (w.writeln s) ns
  | _ :: ns => modelsLoop w ns

/-- rust_generator.rs 81-101 `generate_models`. -/
def models (ast : List ASTNode) : Except Panic String :=
  match modelsLoop Writer.default ast with
  | .error e => .error e
  | .ok w => .ok (trimOnce w.show)

/-- rust_generator.rs 106-114, loop body of `generate_buffers`. -/
def buffersItem (w : Writer) : ASTNode → Writer
  | .struct n => w.writeln (structBuffers n)
  | .enum n => w.writeln (enumBuffers n)
  | _ => w

/-- rust_generator.rs 103-123 `generate_buffers`. -/
def buffers (ast : List ASTNode) : String :=
  trimOnce (ast.foldl buffersItem Writer.default).show

/-- rust_generator.rs 142-146, loop body. -/
def rpcItem (w : Writer) : ASTNode → Writer
  | .fn f => w.writeln (rpcMethod f)
  | _ => w

/-- rust_generator.rs 129-134: the `has_rpc_methods` loop. -/
def hasRpcMethods : List ASTNode → Bool
  | [] => false
  | .fn _ :: _ => true
  | _ :: ns => hasRpcMethods ns

/-- rust_generator.rs 125-155 `generate_rpc`. -/
def rpc (ast : List ASTNode) : Except Panic String :=
  if !hasRpcMethods ast then .ok ""
  else
    match registerFn ast with
    | .error e => .error e
    | .ok s => .ok (trimOnce (ast.foldl rpcItem (Writer.default.writeln s)).show)

/-- rust_generator.rs 160-164, loop body of `generate_consts`. -/
def constsItem (x : Ext) (w : Writer) : ASTNode → Writer
  | .const n => w.writeln (constBlock x 0 n.id n.items)
  | _ => w

/-- rust_generator.rs 157-173 `generate_consts`. -/
def consts (x : Ext) (ast : List ASTNode) : String :=
  trimOnce (ast.foldl (constsItem x) Writer.default).show

/-- rust_generator.rs 39-50, the import loop. -/
def importsLoop (w : Writer) : List ConstValue → Except Panic Writer
  | [] => .ok w
  | v :: vs =>
    match v.literal with
    | .str s => importsLoop (w.writeln ("use " ++ s ++ ";")) vs
    | _ => .error (.gen "rust use should be a string literal")

/-- rust_generator.rs 10-79 `generate`. -/
def generate (x : Ext) (ast : List ASTNode) (withModels withBuffers withRpc : Bool) :
    Except Panic String :=
  let w := Writer.default
  let w := w.writeln "// GENERATED, DO NOT EDIT"
  let w := w.writeln ""
  let w := w.writeln "#![allow(warnings)]"
  let w := w.writeln "#![allow(clippy)]"
  let w := w.writeln "#![allow(unknown_lints)]"
  let w := w.writeln ""
  let w :=
    if withRpc && !(findFnNodes ast).isEmpty then
      let w := w.writeln "use tech_paws_buffers::{BytesReader, BytesWriter, IntoVMBuffers};"
      let w := w.writeln "use tech_paws_runtime::{"
      let w := w.writelnTab 1
        "memory::TechPawsRuntimeMemory, RpcMethodAddress, TechPawsRpcAddress, TechPawsRuntime,"
      let w := w.writelnTab 1
        "TechPawsRuntimeAsyncContext, TechPawsRuntimeRpcMethodBuffer, TechPawsScopeId,"
      let w := w.writeln "};"
      w.writeln "use uuid::uuid;"
    else if withBuffers then
      w.writeln "use tech_paws_buffers::{BytesReader, BytesWriter, IntoVMBuffers};"
    else w
  match importsLoop w (findDirectiveGroupValues ast "rust" "use") with
  | .error e => .error e
  | .ok w =>
    let w := if containsConstsNodes ast then (w.writeln "").write (consts x ast) else w
    match (if withModels then
        match models ast with
        | .error e => .error e
        | .ok s => .ok ((w.writeln "").write s)
      else .ok w : Except Panic Writer) with
    | .error e => .error e
    | .ok w =>
      let w := if withBuffers then (w.writeln "").write (buffers ast) else w
      match (if withRpc then
          match rpc ast with
          | .error e => .error e
          | .ok s => .ok ((w.writeln "").write s)
        else .ok w : Except Panic Writer) with
      | .error e => .error e
      | .ok w => .ok (trimAll w.show)

end TPB.RustGen
