/-
Model of /repo/src/kotlin/ir.rs and /repo/src/kotlin/generator.rs: the Kotlin generator.  (main.rs does
not call it yet; its entry points are `generate_consts`, `generate_models` and `stringify_tokens`.)

`panic!`, `unwrap` on `None` and the underflow of the writer's tab counter are `Except.error`.
-/
import Verif.Model.Ast
import Verif.Model.Writer
namespace TPB

/-- `Ext` with the standard library's test `value.floor() == *value` on a decimal source text. -/
structure ExtF extends Ext where
  whole : String → Bool

/-- `const_tabs -= 1` on zero (writer.rs 20-22). -/
def tabPanic : Panic := .gen "attempt to subtract with overflow"

/-- writer.rs 20-22 `pop_tab` as a step that can panic. -/
def popTabE (w : Writer) : Except Panic Writer :=
  match w.popTab with
  | some w => .ok w
  | none => .error tabPanic

namespace KotlinGen
open Writer

/-- kotlin/ir.rs 10-69 `KotlinIR`. -/
inductive KIR where
  | object (id : String) (body : List KIR) (ext : List KIR)
  | cls (id : String) (isData : Bool) (ext fields body : List KIR)
  | interface (id : String) (isSealed : Bool) (body : List KIR)
  | id (s : String)
  | val (id : String) (isConst : Bool) (type : KIR) (value : Option KIR)
  | decl (body : KIR) (separator : Option String)
  | type (t : TypeId)
  | constValue (t : TypeId) (v : ConstValue)
  | defaultValue (t : TypeId)
  | companion (body : List KIR)
  | gap
  | funInline (id : String) (args : List KIR) (ret body : KIR)
  | fn (id : String) (args : List KIR) (ret : KIR) (body : List KIR)
  | call (id : String) (args : List KIR)
  | assign (id : String) (value : KIR)
  deriving Inhabited

/-- The variant name that `strum_macros::IntoStaticStr` gives (kotlin/ir.rs 10). -/
def KIR.kind : KIR → String
  | .object _ _ _ => "Object"
  | .cls _ _ _ _ _ => "Class"
  | .interface _ _ _ => "Interface"
  | .id _ => "Id"
  | .val _ _ _ _ => "ValDeclaration"
  | .decl _ _ => "Declaration"
  | .type _ => "TypeId"
  | .constValue _ _ => "ConstValueExpr"
  | .defaultValue _ => "DefaulConstValueExpr"
  | .companion _ => "CompanionObject"
  | .gap => "Gap"
  | .funInline _ _ _ _ => "FunInline"
  | .fn _ _ _ _ => "Fun"
  | .call _ _ => "Call"
  | .assign _ _ => "AssignArgument"

mutual
/-- kotlin/ir.rs 327-370 `generate_type_id`. -/
def typeId : TypeId → Except Panic String
  | .integer _ size signed =>
    if size = 1 ∧ signed = true then .ok "Byte"
    else if size = 4 ∧ signed = true then .ok "Int"
    else if size = 8 ∧ signed = true then .ok "Long"
    else if size = 1 ∧ signed = false then .ok "UByte"
    else if size = 4 ∧ signed = false then .ok "UInt"
    else if size = 8 ∧ signed = false then .ok "ULong"
    else .error (.gen "Unsupported integer size")
  | .number _ size =>
    if size = 4 then .ok "Float"
    else if size = 8 then .ok "Double"
    else .error (.gen "Unsupported number size")
  | .bool _ => .ok "Boolean"
  | .char _ => .ok "Char"
  | .other id =>
    if id = "GroupAddress" then .ok "ULong"
    else if id = "CommandsBufferAddress" then .ok "ULong"
    else .ok id
  | .generic id generics =>
    match typeIds generics with
    | .error e => .error e
    | .ok gs =>
      if id = "Vec" then .ok ("List<" ++ joinStr ", " gs ++ ">")
      else .ok (id ++ "<" ++ joinStr ", " gs ++ ">")
/-- `generics.iter().map(generate_type_id).collect::<Vec<String>>()`. -/
def typeIds : List TypeId → Except Panic (List String)
  | [] => .ok []
  | t :: ts =>
    match typeId t with
    | .error e => .error e
    | .ok s =>
      match typeIds ts with
      | .error e => .error e
      | .ok ss => .ok (s :: ss)
end

/-- The `panic!`s of kotlin/ir.rs 380-383, 394-397 and 409. -/
def literalPanic : Panic := .gen "Integer literal cannot have non integer type"

/-- kotlin/ir.rs 372-415 `generate_const_value`. -/
def constValue (x : ExtF) (t : TypeId) (v : ConstValue) : Except Panic String :=
  match v.literal with
  | .str s => .ok ("\"" ++ s ++ "\"")
  | .int n =>
    match t with
    | .other id =>
      if id = "GroupAddress" then .ok (toString n ++ "UL")
      else if id = "CommandsBufferAddress" then .ok (toString n ++ "UL")
      else .error literalPanic
    | .integer _ size signed =>
      if size = 1 ∧ signed = true then .ok (toString n)
      else if size = 4 ∧ signed = true then .ok (toString n)
      else if size = 8 ∧ signed = true then .ok (toString n ++ "L")
      else if size = 1 ∧ signed = false then .ok (toString n ++ "U")
      else if size = 4 ∧ signed = false then .ok (toString n ++ "U")
      else if size = 8 ∧ signed = false then .ok (toString n ++ "UL")
      else .error (.gen "Unsupported integer size")
    | _ => .error literalPanic
  | .num d =>
    match t with
    | .number _ size =>
      if size = 4 ∧ x.whole d = true then .ok (x.fmtF64 d ++ ".0f")
      else if size = 4 then .ok (x.fmtF64 d ++ "f")
      else if size = 8 ∧ x.whole d = true then .ok (x.fmtF64 d ++ ".0")
      else if size = 8 then .ok (x.fmtF64 d)
      else .error (.gen "Unsupported integer size")
    | _ => .error literalPanic
  | .bool b => .ok (toString b)

/-- kotlin/ir.rs 417-453 `generate_default_const_value`. -/
def defaultValue : TypeId → Except Panic String
  | .integer _ size signed =>
    if size = 1 ∧ signed = true then .ok "0"
    else if size = 4 ∧ signed = true then .ok "0"
    else if size = 8 ∧ signed = true then .ok "0L"
    else if size = 1 ∧ signed = false then .ok "0U"
    else if size = 4 ∧ signed = false then .ok "0U"
    else if size = 8 ∧ signed = false then .ok "0UL"
    else .error (.gen "Unsupported integer size")
  | .number _ size =>
    if size = 4 then .ok "0f"
    else if size = 8 then .ok "0.0"
    else .error (.gen "Unsupported integer size")
  | .bool _ => .ok "false"
  | .char _ => .ok "0"
  | .other id =>
    if id = "String" then .ok "\"\""
    else if id = "Vec" then .ok "listOf()"
    else .ok (id ++ ".createDefault()")
  | .generic id generics =>
    if id = "Vec" then .ok "listOf()"
    else
      match typeIds generics with
      | .error e => .error e
      | .ok gs => .ok (id ++ ".createDefault<" ++ joinStr ", " gs ++ ">()")

/-- kotlin/ir.rs 94-102 `gaps_pairs`. -/
def gapPairs : List (String × String) :=
  [("Object", "Object"), ("Object", "Declaration"), ("Object", "Class"), ("Class", "Declaration"),
   ("Class", "Class"), ("Class", "Interface"), ("Object", "Interface")]

/-- kotlin/ir.rs 105-113, one pair. -/
def gapStep (last cur : String) (w : Writer) (p : String × String) : Writer :=
  if (p.1 = last ∧ p.2 = cur) ∨ (p.2 = last ∧ p.1 = cur) then w.newLine else w

/-- kotlin/ir.rs 104-114: blank lines before a token. -/
def gaps (last : Option String) (cur : String) (w : Writer) : Writer :=
  match last with
  | none => w
  | some l => gapPairs.foldl (gapStep l cur) w

/-- `writer.write(&f(..))` where `f` can panic. -/
def writeE (w : Writer) (s : Except Panic String) : Except Panic Writer :=
  match s with
  | .ok s => .ok (w.write s)
  | .error e => .error e

mutual
/-- kotlin/ir.rs 121-325 `write_token`. -/
def writeToken (x : ExtF) (w : Writer) : KIR → Except Panic Writer
  | .gap => .ok w.newLine
  | .id s => .ok (w.write s)
  | .object id body ext => do
    let w := w.writeTabs
    let w := w.write ("object " ++ x.pascal id)
    let w ← (if ext.isEmpty then pure w else writeSeparated x ", " (w.write " : ") ext)
    if body.isEmpty then pure w.newLine
    else do
      let w := (w.write " {").newLine
      let w ← writeTokens x none w.pushTab body
      let w ← popTabE w
      pure (w.writeln "}")
  | .decl body sep => do
    let w ← writeToken x w.writeTabs body
    let w := match sep with
      | some s => w.write s
      | none => w
    pure w.newLine
  | .val id isConst type value => do
    let w := if isConst then w.write "const " else w
    let w := (w.write ("val " ++ id)).write ": "
    let w ← writeToken x w type
    match value with
    | some v => writeToken x (w.write " = ") v
    | none => pure w
  | .type t => writeE w (typeId t)
  | .constValue t v => writeE w (constValue x t v)
  | .defaultValue t => writeE w (defaultValue t)
  | .cls id isData ext fields body => do
    let w := w.writeTabs
    let w := if isData then w.write "data " else w
    let w := w.write ("class " ++ x.pascal id ++ "(")
    let w ← (if fields.isEmpty then pure (w.write ")") else do
      let w ← writeTokens x none w.newLine.pushTab fields
      let w ← popTabE w
      pure (w.write ")"))
    let w ← (if ext.isEmpty then pure w else writeSeparated x ", " (w.write " : ") ext)
    if body.isEmpty then pure w.newLine
    else do
      let w := (w.write " {").newLine
      let w ← writeTokens x none w.pushTab body
      let w ← popTabE w
      pure (w.writeln "}")
  | .interface id isSealed body => do
    let w := w.writeTabs
    let w := if isSealed then w.write "sealed " else w
    let w := w.writeln ("interface " ++ id ++ " {")
    let w ← writeTokens x none w.pushTab body
    let w ← popTabE w
    pure (w.writeln "}")
  | .companion body => do
    let w := w.writeln "companion object {"
    let w ← writeTokens x none w.pushTab body
    let w ← popTabE w
    pure (w.writeln "}")
  | .funInline id args ret body => do
    let w := w.writeTabs.write ("fun " ++ id ++ "(")
    let w ← (if args.isEmpty then pure w else do
      let w ← writeTokens x none w.newLine.pushTab args
      let w ← popTabE w
      pure w.newLine)
    let w ← writeToken x (w.write "): ") ret
    let w ← writeToken x (w.write " = ") body
    pure w.newLine
  | .fn id args ret body => do
    let w := w.writeTabs.write ("fun " ++ id ++ "(")
    let w ← (if args.isEmpty then pure w else do
      let w ← writeTokens x none w.newLine.pushTab args
      let w ← popTabE w
      pure w.newLine)
    let w ← writeToken x (w.write "): ") ret
    let w := (w.write " {").newLine
    let w ← writeTokens x none w.pushTab body
    let w ← popTabE w
    pure w.newLine
  | .call id args => do
    let w := w.write id
    if args.isEmpty then pure (w.write "()")
    else do
      let w := (w.write "(").newLine
      let w ← writeTokens x none w.pushTab args
      let w ← popTabE w
      pure (w.writeTabs.write ")")
  | .assign id value => writeToken x (w.write (x.camel id ++ " = ")) value
/-- kotlin/ir.rs 90-119 `write_tokens`; `last` is the kind of the token before the list. -/
def writeTokens (x : ExtF) (last : Option String) (w : Writer) : List KIR → Except Panic Writer
  | [] => .ok w
  | t :: ts => do
    let w ← writeToken x (gaps last t.kind w) t
    writeTokens x (some t.kind) w ts
/-- kotlin/ir.rs 78-88 `write_tokens_separated`. -/
def writeSeparated (x : ExtF) (sep : String) (w : Writer) : List KIR → Except Panic Writer
  | [] => .ok w
  | t :: ts => do
    let w ← writeToken x w t
    let w := if ts.isEmpty then w else w.write sep
    writeSeparated x sep w ts
end

/-- kotlin/ir.rs 72-76 `stringify_tokens`. -/
def stringify (x : ExtF) (ts : List KIR) : Except Panic String :=
  match writeTokens x none Writer.default ts with
  | .ok w => .ok w.show
  | .error e => .error e

/-- kotlin/generator.rs 27-40: a constant. -/
def constDecl (id : String) (t : TypeId) (v : ConstValue) : KIR :=
  .decl (.val id true (.type t) (some (.constValue t v))) none

mutual
/-- kotlin/generator.rs 25-45, one item of a block. -/
def constItem : ConstItem → KIR
  | .value id t v => constDecl id t v
  | .node id items => .object id (constItems items) []
/-- kotlin/generator.rs 22-52 `generate_const_block`, the loop over its items. -/
def constItems : List ConstItem → List KIR
  | [] => []
  | i :: is => constItem i :: constItems is
end

/-- kotlin/generator.rs 10-20 `generate_consts`, one declaration. -/
def constsItem : ASTNode → List KIR
  | .const n => [.object n.id (constItems n.items) []]
  | _ => []

/-- kotlin/generator.rs 10-20 `generate_consts`, printed by `stringify_tokens`. -/
def consts (x : ExtF) (ast : List ASTNode) : Except Panic String := stringify x (ast.flatMap constsItem)

/-- kotlin/generator.rs 92-100, 118-126: a constructor parameter. -/
def param (id : String) (t : TypeId) : KIR := .decl (.val id false (.type t) none) (some ",")

/-- kotlin/generator.rs 89-101: parameters `p0`, `p1`, ... of a tuple variant, from index `i`. -/
def tupleParams (i : Nat) : List TupleField → List KIR
  | [] => []
  | v :: vs => param ("p" ++ toString i) v.typeId :: tupleParams (i + 1) vs

/-- kotlin/generator.rs 79-137 `generate_enum_case`. -/
def enumCase (enumId : String) : EnumItem → KIR
  | .empty _ id => .object (enumId ++ id) [] [.id enumId]
  | .tuple _ id vs => .cls (enumId ++ id) true [.id enumId] (tupleParams 0 vs) []
  | .struct _ id fs => .cls (enumId ++ id) true [.id enumId] (fs.map (fun f => param f.name f.typeId)) []

/-- kotlin/generator.rs 157-160: a positional default argument. -/
def defaultArg (t : TypeId) : KIR := .decl (.defaultValue t) (some ",")

/-- kotlin/generator.rs 172-178, 221-227: a named default argument. -/
def namedDefaultArg (f : StructField) : KIR := .decl (.assign f.name (.defaultValue f.typeId)) (some ",")

/-- kotlin/generator.rs 151-187: the default value of an enum. -/
def enumDefault (enumId : String) : EnumItem → KIR
  | .empty _ id => .id (enumId ++ id)
  | .tuple _ id vs => .call (enumId ++ id) (vs.map (fun v => defaultArg v.typeId))
  | .struct _ id fs => .call (enumId ++ id) (fs.map namedDefaultArg)

/-- kotlin/generator.rs 138-200 `generate_enum_interface`. -/
def enumInterface (n : EnumNode) : Except Panic KIR :=
  match n.items with
  | [] => .error (.gen "called `Option::unwrap()` on a `None` value")
  | first :: _ =>
    .ok (.interface n.id true
      [.companion [.funInline "createDefault" [] (.type (.other n.id)) (enumDefault n.id first)]])

/-- kotlin/generator.rs 67-77 `generate_enum_model`. -/
def enumModel (n : EnumNode) : Except Panic (List KIR) :=
  match enumInterface n with
  | .error e => .error e
  | .ok i => .ok (i :: n.items.map (enumCase n.id))

/-- kotlin/generator.rs 204-254 `generate_struct_model` with `generate_default = true` (its only call,
line 59). -/
def structModel (x : ExtF) (n : StructNode) : KIR :=
  .cls n.id (!n.fields.isEmpty) [] (n.fields.map (fun f => param (x.camel f.name) f.typeId))
    [.companion [.funInline "createDefault" [] (.type (.other n.id)) (.call n.id (n.fields.map namedDefaultArg))]]

/-- kotlin/generator.rs 57-61, one declaration. -/
def modelsItem (x : ExtF) : ASTNode → Except Panic (List KIR)
  | .struct n => .ok [structModel x n]
  | .enum n => enumModel n
  | _ => .ok []

/-- kotlin/generator.rs 54-65 `generate_models`. -/
def modelTokens (x : ExtF) : List ASTNode → Except Panic (List KIR)
  | [] => .ok []
  | d :: ds =>
    match modelsItem x d with
    | .error e => .error e
    | .ok ts =>
      match modelTokens x ds with
      | .error e => .error e
      | .ok us => .ok (ts ++ us)

/-- `generate_models`, printed by `stringify_tokens`. -/
def models (x : ExtF) (ast : List ASTNode) : Except Panic String :=
  match modelTokens x ast with
  | .error e => .error e
  | .ok ts => stringify x ts

end KotlinGen
end TPB
