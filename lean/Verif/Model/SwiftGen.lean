/-
Model of /repo/src/swift/ir.rs and /repo/src/swift/generator.rs: the Swift generator.  (main.rs does not
call it yet; its entry points are `generate_consts`, `generate_models` and `stringify_tokens`.)

Same conventions as `Model/KotlinGen.lean`.
-/
import Verif.Model.KotlinGen
namespace TPB.SwiftGen
open Writer

/-- swift/ir.rs 10-77 `SwiftIR`. -/
inductive SIR where
  | struct (id : String) (body : List SIR)
  | enum (id : String) (body : List SIR)
  | enumCase (id : String) (params : List SIR)
  | enumCaseType (id : Option String) (t : TypeId)
  | fieldAccess (inst : Option SIR) (field : String)
  | constField (id : String) (t : TypeId) (v : ConstValue)
  | field (id : String) (t : TypeId)
  | method (id : String) (isStatic : Bool) (ret : TypeId) (args body : List SIR)
  | funArg (id : String) (named : Bool) (t : TypeId)
  | ret (body : SIR)
  | newInstance (t : TypeId) (body : List SIR)
  | assignNamed (id : String) (t : TypeId) (value : Option SIR)
  | assign (id : Option String) (t : TypeId) (value : Option SIR)
  | staticCall (t : TypeId) (method : SIR)
  | call (id : String) (args : List SIR)
  deriving Inhabited

/-- The variant name that `strum_macros::IntoStaticStr` gives (swift/ir.rs 10). -/
def SIR.kind : SIR → String
  | .struct _ _ => "Struct"
  | .enum _ _ => "Enum"
  | .enumCase _ _ => "EnumCase"
  | .enumCaseType _ _ => "EnumCaseType"
  | .fieldAccess _ _ => "FieldAccess"
  | .constField _ _ _ => "StructConstField"
  | .field _ _ => "StructField"
  | .method _ _ _ _ _ => "StructMethod"
  | .funArg _ _ _ => "FunctionArgument"
  | .ret _ => "ReturnStatement"
  | .newInstance _ _ => "NewInstance"
  | .assignNamed _ _ _ => "AssignStructNamedArgument"
  | .assign _ _ _ => "AssignArgument"
  | .staticCall _ _ => "StaticCall"
  | .call _ _ => "Call"

mutual
/-- swift/ir.rs 289-332 `generate_type_id`. -/
def typeId : TypeId → Except Panic String
  | .integer _ size signed =>
    if size = 1 ∧ signed = true then .ok "Int8"
    else if size = 4 ∧ signed = true then .ok "Int32"
    else if size = 8 ∧ signed = true then .ok "Int64"
    else if size = 1 ∧ signed = false then .ok "UInt8"
    else if size = 4 ∧ signed = false then .ok "UInt32"
    else if size = 8 ∧ signed = false then .ok "UInt64"
    else .error (.gen "Unsupported integer size")
  | .number _ size =>
    if size = 4 then .ok "Float"
    else if size = 8 then .ok "Double"
    else .error (.gen "Unsupported number size")
  | .bool _ => .ok "Bool"
  | .char id => .ok id
  | .other id =>
    if id = "GroupAddress" then .ok "UInt64"
    else if id = "CommandsBufferAddress" then .ok "UInt64"
    else .ok id
  | .generic id generics =>
    match typeIds generics with
    | .error e => .error e
    | .ok gs =>
      if id = "Vec" then .ok ("[" ++ joinStr ", " gs ++ "]")
      else .ok (id ++ "<" ++ joinStr ", " gs ++ ">")
/-- `generics.iter().map(generate_type_id).collect::<Vec<String>>()`. -/
def typeIds : List TypeId → Except Panic (List String)
  | [] => .ok []
  | t :: ts =>
    match typeId t with
    | .error e => .error e
    | .ok s =>
      match typeIds ts with
      | .error e => .error e
      | .ok ss => .ok (s :: ss)
end

/-- swift/ir.rs 334-369 `generate_const_value`. -/
def constValue (x : ExtF) (v : ConstValue) (t : TypeId) : Except Panic String :=
  match v.literal with
  | .str s => .ok ("\"" ++ s ++ "\"")
  | .int n =>
    match t with
    | .other id =>
      if id = "GroupAddress" then .ok (toString n)
      else if id = "CommandsBufferAddress" then .ok (toString n)
      else .error KotlinGen.literalPanic
    | .integer _ _ _ => .ok (toString n)
    | _ => .error KotlinGen.literalPanic
  | .num d =>
    match t with
    | .number _ size =>
      if size = 4 ∧ x.whole d = true then .ok (x.fmtF64 d ++ ".0f")
      else if size = 4 then .ok (x.fmtF64 d ++ "f")
      else if size = 8 ∧ x.whole d = true then .ok (x.fmtF64 d ++ ".0")
      else if size = 8 then .ok (x.fmtF64 d)
      else .error (.gen "Unsupported integer size")
    | _ => .error KotlinGen.literalPanic
  | .bool b => .ok (toString b)

/-- swift/ir.rs 371-399 `generate_default_const_value`. -/
def defaultValue : TypeId → Except Panic String
  | .integer _ _ _ => .ok "0"
  | .number _ _ => .ok "0"
  | .bool _ => .ok "false"
  | .char _ => .ok "0"
  | .other id =>
    if id = "String" then .ok "\"\""
    else if id = "Vec" then .ok "[]"
    else .ok (id ++ ".createDefault()")
  | .generic id generics =>
    if id = "Vec" then .ok "[]"
    else
      match typeIds generics with
      | .error e => .error e
      | .ok gs => .ok (id ++ "<" ++ joinStr ", " gs ++ ">.createDefault()")

/-- swift/ir.rs 104-114 `gaps_pairs`. -/
def gapPairs : List (String × String) :=
  [("Struct", "Struct"), ("Struct", "Enum"), ("Enum", "Enum"), ("Struct", "StructConstField"),
   ("Struct", "StructField"), ("StructMethod", "StructMethod"), ("StructMethod", "StructConstField"),
   ("StructMethod", "StructField"), ("StructMethod", "EnumCase")]

/-- swift/ir.rs 116-126: blank lines before a token. -/
def gaps (last : Option String) (cur : String) (w : Writer) : Writer :=
  match last with
  | none => w
  | some l => gapPairs.foldl (KotlinGen.gapStep l cur) w

/-- `writer.writeln(&format!(..))` where an argument can panic. -/
def writelnE (w : Writer) (s : Except Panic String) : Except Panic Writer :=
  match s with
  | .ok s => .ok (w.writeln s)
  | .error e => .error e

/-- Text before and after a text whose computation can panic. -/
def around (a : String) (s : Except Panic String) (b : String) : Except Panic String :=
  match s with
  | .ok s => .ok (a ++ s ++ b)
  | .error e => .error e

/-- swift/ir.rs 141-146: a constant. -/
def constLine (x : ExtF) (id : String) (t : TypeId) (v : ConstValue) : Except Panic String :=
  match typeId t with
  | .error e => .error e
  | .ok s => around ("static let " ++ x.camel id ++ ": " ++ s ++ " = ") (constValue x v t) ""

mutual
/-- swift/ir.rs 133-287 `write_token`. -/
def writeToken (x : ExtF) (w : Writer) : SIR → Except Panic Writer
  | .struct id body => do
    let w := w.writeln ("struct " ++ x.pascal id ++ " {")
    let w ← writeTokens x none w.pushTab body
    let w ← popTabE w
    pure (w.writeln "}")
  | .constField id t v => writelnE w (constLine x id t v)
  | .field id t => writelnE w (around ("var " ++ x.camel id ++ ": ") (typeId t) "")
  | .method id isStatic ret _ body => do
    let w ← (if isStatic then writelnE w (around ("static func " ++ x.camel id ++ "() -> ") (typeId ret) " {")
      else writelnE w (around ("func " ++ x.camel id ++ "() -> ") (typeId ret) " {"))
    let w ← writeTokens x none w.pushTab body
    let w ← popTabE w
    pure (w.writeln "}")
  | .funArg _ _ _ => .ok w
  | .ret body => do
    let w ← writeToken x (w.writeTabs.write "return ") body
    pure w.newLine
  | .newInstance t body => do
    let w ← KotlinGen.writeE w (typeId t)
    if body.isEmpty then pure (w.write "()")
    else do
      let w := (w.write "(").newLine
      let w ← writeCommas x w.pushTab body
      let w ← popTabE w
      pure (w.writeTabs.write ")")
  | .assignNamed id t value =>
    match value with
    | some v => writeToken x (w.write (x.camel id ++ ": ")) v
    | none => KotlinGen.writeE w (around (x.camel id ++ ": ") (defaultValue t) "")
  | .assign id t value =>
    let w := match id with
      | some id => w.write ("/* " ++ x.camel id ++ " */ ")
      | none => w
    match value with
    | some v => writeToken x w v
    | none => KotlinGen.writeE w (defaultValue t)
  | .staticCall _ _ => .ok w
  | .call id args => do
    let w := w.write id
    if args.isEmpty then pure (w.write "()")
    else do
      let w := (w.write "(").newLine
      let w ← writeCommas x w.pushTab args
      let w ← popTabE w
      pure (w.writeTabs.write ")")
  | .enum id body => do
    let w := w.writeln ("enum " ++ x.pascal id ++ " {")
    let w ← writeTokens x none w.pushTab body
    let w ← popTabE w
    pure (w.writeln "}")
  | .enumCase id params => do
    if params.isEmpty then pure (w.writeln ("case " ++ x.camel id))
    else do
      let w := w.writeln ("case " ++ x.camel id ++ "(")
      let w ← writeCommas x w.pushTab params
      let w ← popTabE w
      pure (w.writeln ")")
  | .enumCaseType id t =>
    match id with
    | some id => KotlinGen.writeE w (around ("/* " ++ id ++ " */ ") (typeId t) "")
    | none => KotlinGen.writeE w (typeId t)
  | .fieldAccess inst field =>
    match inst with
    | some i => do
      let w ← writeToken x w i
      pure (w.write ("." ++ x.camel field))
    | none => .ok (w.write ("." ++ x.camel field))
/-- swift/ir.rs 100-131 `write_tokens`; `last` is the kind of the token before the list. -/
def writeTokens (x : ExtF) (last : Option String) (w : Writer) : List SIR → Except Panic Writer
  | [] => .ok w
  | t :: ts => do
    let w ← writeToken x (gaps last t.kind w) t
    writeTokens x (some t.kind) w ts
/-- swift/ir.rs 86-98 `write_tokens_comma_separated`. -/
def writeCommas (x : ExtF) (w : Writer) : List SIR → Except Panic Writer
  | [] => .ok w
  | t :: ts => do
    let w ← writeToken x w.writeTabs t
    let w := if ts.isEmpty then w else w.write ","
    writeCommas x w.newLine ts
end

/-- swift/ir.rs 80-84 `stringify_tokens`. -/
def stringify (x : ExtF) (ts : List SIR) : Except Panic String :=
  match writeTokens x none Writer.default ts with
  | .ok w => .ok w.show
  | .error e => .error e

mutual
/-- swift/generator.rs 25-38, one item of a block. -/
def constItem : ConstItem → SIR
  | .value id t v => .constField id t v
  | .node id items => .struct id (constItems items)
/-- swift/generator.rs 22-44 `generate_const_block`, the loop over its items. -/
def constItems : List ConstItem → List SIR
  | [] => []
  | i :: is => constItem i :: constItems is
end

/-- swift/generator.rs 10-20 `generate_consts`, one declaration. -/
def constsItem : ASTNode → List SIR
  | .const n => [.struct n.id (constItems n.items)]
  | _ => []

/-- swift/generator.rs 10-20 `generate_consts`, printed by `stringify_tokens`. -/
def consts (x : ExtF) (ast : List ASTNode) : Except Panic String := stringify x (ast.flatMap constsItem)

/-- swift/generator.rs 66-84: the payload of a variant. -/
def caseParams : EnumItem → List SIR
  | .empty _ _ => []
  | .tuple _ _ vs => vs.map (fun v => .enumCaseType none v.typeId)
  | .struct _ _ fs => fs.map (fun f => .enumCaseType (some f.name) f.typeId)

/-- swift/generator.rs 63-90, one variant. -/
def enumCase (i : EnumItem) : SIR := .enumCase i.id (caseParams i)

/-- swift/generator.rs 101-138: the default value of an enum. -/
def enumDefault (x : ExtF) : EnumItem → SIR
  | .empty _ id => .fieldAccess none id
  | .tuple _ id vs => .call ("." ++ x.camel id) (vs.map (fun v => .assign none v.typeId none))
  | .struct _ id fs => .call ("." ++ x.camel id) (fs.map (fun f => .assign (some f.name) f.typeId none))

/-- swift/generator.rs 60-153 `generate_enum_model`. -/
def enumModel (x : ExtF) (n : EnumNode) : Except Panic SIR :=
  match n.items with
  | [] => .error (.gen "called `Option::unwrap()` on a `None` value")
  | first :: _ =>
    .ok (.enum n.id (n.items.map enumCase
      ++ [.method "createDefault" true (.other n.id) [] [.ret (enumDefault x first)]]))

/-- swift/generator.rs 155-201 `generate_struct_model` with `generate_default = true` (its only call,
line 51). -/
def structModel (n : StructNode) : SIR :=
  .struct n.id (n.fields.map (fun f => .field f.name f.typeId)
    ++ [.method "createDefault" true (.other n.id) []
      [.ret (.newInstance (.other n.id) (n.fields.map (fun f => .assignNamed f.name f.typeId none)))]])

/-- swift/generator.rs 50-54, one declaration. -/
def modelsItem (x : ExtF) : ASTNode → Except Panic (List SIR)
  | .struct n => .ok [structModel n]
  | .enum n =>
    match enumModel x n with
    | .error e => .error e
    | .ok t => .ok [t]
  | _ => .ok []

/-- swift/generator.rs 46-58 `generate_models`. -/
def modelTokens (x : ExtF) : List ASTNode → Except Panic (List SIR)
  | [] => .ok []
  | d :: ds =>
    match modelsItem x d with
    | .error e => .error e
    | .ok ts =>
      match modelTokens x ds with
      | .error e => .error e
      | .ok us => .ok (ts ++ us)

/-- `generate_models`, printed by `stringify_tokens`. -/
def models (x : ExtF) (ast : List ASTNode) : Except Panic String :=
  match modelTokens x ast with
  | .error e => .error e
  | .ok ts => stringify x ts

end TPB.SwiftGen
