/-
Model of /repo/src/parser.rs.

The parser reads the token cursor of `Lexer` only through `current_token`, `next_token` and
`next_fn_poisition`.  The model's state `PS` holds the tokens from the cursor on; that this is a
faithful view of the cursor is proved in `Proofs/Cursor.lean`.  Every loop takes a fuel argument;
`parse` supplies one more than the number of tokens, and `Props/Parser.lean` proves that it never
runs out.
-/
import Verif.Model.Ast
namespace TPB

/-- The parser's view of `Lexer` (lexer.rs 23-28): tokens from the cursor on, and the counter. -/
structure PS where
  rest : List Token
  lastFn : Nat
  registered : List Nat := []
  deriving Repr, DecidableEq, Inhabited

/-- lexer.rs 117-123 `current_token`. -/
def PS.cur (s : PS) : Token := s.rest.headD .eof

/-- lexer.rs 112-115 `next_token`. -/
def PS.adv (s : PS) : PS := { s with rest := s.rest.tail }

/-- lexer.rs 97-110 `next_fn_poisition`. -/
def PS.nextFn (s : PS) : Nat × PS :=
  (s.lastFn, { s with lastFn := skipRegistered s.registered (s.registered.length + 1) (s.lastFn + 1) })

/-- Result of a parser function: a panic, or a value and the new state. -/
abbrev PRes (α : Type) := Except Panic (α × PS)

/-- parser.rs 381-417, the final match of `parse_type_id`. -/
def nameType (name : String) : TypeId :=
  if name = "i8" then .integer name 1 true
  else if name = "i32" then .integer name 4 true
  else if name = "i64" then .integer name 8 true
  else if name = "u8" then .integer name 1 false
  else if name = "u32" then .integer name 4 false
  else if name = "u64" then .integer name 8 false
  else if name = "f32" then .number name 4
  else if name = "f64" then .number name 8
  else if name = "char" then .char name
  else if name = "bool" then .bool name
  else .other name

mutual
/-- parser.rs 354-418 `parse_type_id`. -/
def parseTypeId : Nat → PS → PRes TypeId
  | 0, _ => .error .outOfFuel
  | n + 1, s =>
    match s.cur with
    | .id name =>
      let s := s.adv
      if s.cur = .sym '<' then parseGenerics n name [] s
      else .ok (nameType name, s)
    | t => .error (.unexpected t)

/-- parser.rs 364-378, the `while` loop of `parse_type_id`; on entry the cursor is on `<` or `,`.
When the next token is not an identifier the loop ends and the function falls through to line 381,
forgetting the generics collected so far. -/
def parseGenerics : Nat → String → List TypeId → PS → PRes TypeId
  | 0, _, _, _ => .error .outOfFuel
  | n + 1, name, generics, s =>
    let s := s.adv
    match s.cur with
    | .id _ =>
      match parseTypeId n s with
      | .error e => .error e
      | .ok (t, s) =>
        if s.cur = .sym '>' then .ok (.generic name (generics ++ [t]), s.adv)
        else if s.cur = .sym ',' then parseGenerics n name (generics ++ [t]) s
        else .error (.unexpected s.cur)
    | _ => .ok (nameType name, s)
end

/-- Rust's `i64 as u32`. -/
def asU32 (v : Int) : Nat := (v % 2 ^ 32).toNat

/-- parser.rs 626-648 `parse_position`. -/
def parsePosition (s : PS) : PRes Nat :=
  if s.cur ≠ .sym '#' then .error (.unexpected s.cur)
  else
    let s := s.adv
    if s.cur ≠ .sym '[' then .error (.unexpected s.cur)
    else
      let s := s.adv
      match s.cur with
      | .lit (.int value) =>
        let s := s.adv
        if s.cur ≠ .sym ']' then .error (.unexpected s.cur)
        else .ok (asU32 value, s.adv)
      | t => .error (.unexpected t)

/-- parser.rs 214-230: the type attached to a literal. -/
def literalType : Literal → TypeId
  | .bool _ => .bool "bool"
  | .str _ => .other "String"
  | .int _ => .integer "i32" 4 true
  | .num _ => .number "f32" 4

/-- parser.rs 207-233 `parse_const_value` (does not advance). -/
def parseConstValue (s : PS) : Except Panic ConstValue :=
  match s.cur with
  | .lit l => .ok ⟨l, literalType l⟩
  | t => .error (.unexpected t)

/-- parser.rs 243-272 `parse_struct_parameters_without_positions`. -/
def structParamsNoPos : Nat → Nat → PS → PRes (List StructField)
  | 0, _, _ => .error .outOfFuel
  | n + 1, position, s =>
    match s.cur with
    | .id name =>
      let s := s.adv
      if s.cur ≠ .sym ':' then .error (.unexpected s.cur)
      else
        match parseTypeId n s.adv with
        | .error e => .error e
        | .ok (t, s) =>
          if s.cur ≠ .sym ',' then .ok ([⟨position, name, t⟩], s)
          else
            match structParamsNoPos n (position + 1) s.adv with
            | .error e => .error e
            | .ok (fs, s) => .ok (⟨position, name, t⟩ :: fs, s)
    | _ => .ok ([], s)

/-- parser.rs 274-305 `parse_struct_parameters_with_positions`. -/
def structParamsPos : Nat → PS → PRes (List StructField)
  | 0, _ => .error .outOfFuel
  | n + 1, s =>
    if s.cur = .sym '#' then
      match parsePosition s with
      | .error e => .error e
      | .ok (position, s) =>
        match s.cur with
        | .id name =>
          let s := s.adv
          if s.cur ≠ .sym ':' then .error (.unexpected s.cur)
          else
            match parseTypeId n s.adv with
            | .error e => .error e
            | .ok (t, s) =>
              if s.cur ≠ .sym ',' then .ok ([⟨position, name, t⟩], s)
              else
                match structParamsPos n s.adv with
                | .error e => .error e
                | .ok (fs, s) => .ok (⟨position, name, t⟩ :: fs, s)
        | t => .error (.unexpected t)
    else .ok ([], s)

/-- parser.rs 235-241 `parse_struct_parameters`. -/
def structParams (n : Nat) (s : PS) : PRes (List StructField) :=
  if s.cur = .sym '#' then structParamsPos n s else structParamsNoPos n 0 s

/-- parser.rs 315-332 `parse_tuple_parameters_with_positions`. -/
def tupleParamsPos : Nat → PS → PRes (List TupleField)
  | 0, _ => .error .outOfFuel
  | n + 1, s =>
    if s.cur = .sym '#' then
      match parsePosition s with
      | .error e => .error e
      | .ok (position, s) =>
        match parseTypeId n s with
        | .error e => .error e
        | .ok (t, s) =>
          if s.cur ≠ .sym ',' then .ok ([⟨position, t⟩], s)
          else
            match tupleParamsPos n s.adv with
            | .error e => .error e
            | .ok (fs, s) => .ok (⟨position, t⟩ :: fs, s)
    else .ok ([], s)

/-- parser.rs 334-352 `parse_tuple_parameters_without_positions`. -/
def tupleParamsNoPos : Nat → Nat → PS → PRes (List TupleField)
  | 0, _, _ => .error .outOfFuel
  | n + 1, position, s =>
    match s.cur with
    | .id _ =>
      match parseTypeId n s with
      | .error e => .error e
      | .ok (t, s) =>
        if s.cur ≠ .sym ',' then .ok ([⟨position, t⟩], s)
        else
          match tupleParamsNoPos n (position + 1) s.adv with
          | .error e => .error e
          | .ok (fs, s) => .ok (⟨position, t⟩ :: fs, s)
    | _ => .ok ([], s)

/-- parser.rs 307-313 `parse_tuple_parameters`. -/
def tupleParams (n : Nat) (s : PS) : PRes (List TupleField) :=
  if s.cur = .sym '#' then tupleParamsPos n s else tupleParamsNoPos n 0 s

/-- parser.rs 55-68, the rest of `parse_struct` after the first token of the body has been checked. -/
def structBody (n : Nat) (name : String) (s : PS) : PRes ASTNode :=
  match structParams n s with
  | .error e => .error e
  | .ok (ps, s) =>
    if s.cur ≠ .sym '}' then .error (.unexpected s.cur)
    else .ok (.struct ⟨name, ps, true, true⟩, s.adv)

/-- parser.rs 23-69 `parse_struct`. -/
def parseStruct (n : Nat) (s : PS) : PRes ASTNode :=
  if s.cur ≠ .kwStruct then .error (.unexpected s.cur)
  else
    let s := s.adv
    match s.cur with
    | .id name =>
      let s := s.adv
      if s.cur = .sym ';' then .ok (.struct ⟨name, [], true, true⟩, s.adv)
      else if s.cur ≠ .sym '{' then .error (.unexpected s.cur)
      else
        let s := s.adv
        match s.cur with
        | .sym c => if c = '#' then structBody n name s else .error (.unexpected (.sym c))
        | .id _ => structBody n name s
        | t => .error (.unexpected t)
    | t => .error (.unexpected t)

/-- parser.rs 165-184 `parse_struct_enum`. -/
def parseStructEnum (n : Nat) (position : Nat) (id : String) (s : PS) : PRes EnumItem :=
  if s.cur ≠ .sym '{' then .error (.unexpected s.cur)
  else
    match structParams n s.adv with
    | .error e => .error e
    | .ok (fs, s) =>
      if s.cur ≠ .sym '}' then .error (.unexpected s.cur)
      else .ok (.struct position id fs, s.adv)

/-- parser.rs 186-205 `parse_tuple_enum`. -/
def parseTupleEnum (n : Nat) (position : Nat) (id : String) (s : PS) : PRes EnumItem :=
  if s.cur ≠ .sym '(' then .error (.unexpected s.cur)
  else
    match tupleParams n s.adv with
    | .error e => .error e
    | .ok (vs, s) =>
      if s.cur ≠ .sym ')' then .error (.unexpected s.cur)
      else .ok (.tuple position id vs, s.adv)

/-- parser.rs 121-125 and 146-150: the variant body after its name. -/
def enumItemBody (n : Nat) (position : Nat) (name : String) (s : PS) : PRes EnumItem :=
  if s.cur = .sym '(' then parseTupleEnum n position name s
  else if s.cur = .sym '{' then parseStructEnum n position name s
  else .ok (.empty position name, s)

/-- parser.rs 110-137 `parse_enum_items_with_positions` (the items). -/
def enumItemsPos : Nat → PS → PRes (List EnumItem)
  | 0, _ => .error .outOfFuel
  | n + 1, s =>
    if s.cur = .sym '#' then
      match parsePosition s with
      | .error e => .error e
      | .ok (position, s) =>
        match s.cur with
        | .id name =>
          match enumItemBody n position name s.adv with
          | .error e => .error e
          | .ok (item, s) =>
            if s.cur ≠ .sym ',' then .ok ([item], s)
            else
              match enumItemsPos n s.adv with
              | .error e => .error e
              | .ok (is, s) => .ok (item :: is, s)
        | t => .error (.unexpected t)
    else .ok ([], s)

/-- parser.rs 139-163 `parse_enum_items_without_positions` (the items). -/
def enumItemsNoPos : Nat → Nat → PS → PRes (List EnumItem)
  | 0, _, _ => .error .outOfFuel
  | n + 1, position, s =>
    match s.cur with
    | .id name =>
      match enumItemBody n position name s.adv with
      | .error e => .error e
      | .ok (item, s) =>
        if s.cur ≠ .sym ',' then .ok ([item], s)
        else
          match enumItemsNoPos n (position + 1) s.adv with
          | .error e => .error e
          | .ok (is, s) => .ok (item :: is, s)
    | _ => .ok ([], s)

/-- parser.rs 102-108 `parse_enum_items` (the items). -/
def enumItems (n : Nat) (s : PS) : PRes (List EnumItem) :=
  if s.cur = .sym '#' then enumItemsPos n s else enumItemsNoPos n 0 s

/-- parser.rs 92-99, the rest of `parse_enum` after the first token of the body has been checked. -/
def enumBody (n : Nat) (name : String) (s : PS) : PRes ASTNode :=
  match enumItems n s with
  | .error e => .error e
  | .ok (items, s) =>
    if s.cur ≠ .sym '}' then .error (.unexpected s.cur)
    else .ok (.enum ⟨name, items⟩, s.adv)

/-- parser.rs 71-100 `parse_enum`. -/
def parseEnum (n : Nat) (s : PS) : PRes ASTNode :=
  if s.cur ≠ .kwEnum then .error (.unexpected s.cur)
  else
    let s := s.adv
    match s.cur with
    | .id name =>
      let s := s.adv
      if s.cur ≠ .sym '{' then .error (.unexpected s.cur)
      else
        let s := s.adv
        match s.cur with
        | .sym c => if c = '#' then enumBody n name s else .error (.unexpected (.sym c))
        | .id _ => enumBody n name s
        | t => .error (.unexpected t)
    | t => .error (.unexpected t)

/-- parser.rs 541-563 `parse_fn_args`. -/
def fnArgs : Nat → PS → PRes (List FnArg)
  | 0, _ => .error .outOfFuel
  | n + 1, s =>
    match s.cur with
    | .id id =>
      let s := s.adv
      if s.cur ≠ .sym ':' then .error (.unexpected s.cur)
      else
        match parseTypeId n s.adv with
        | .error e => .error e
        | .ok (t, s) =>
          if s.cur ≠ .sym ',' then .ok ([⟨id, t⟩], s)
          else
            match fnArgs n s.adv with
            | .error e => .error e
            | .ok (as, s) => .ok (⟨id, t⟩ :: as, s)
    | _ => .ok ([], s)

/-- The common tail of `parse_fn` (parser.rs 452-488) and `parse_read` (parser.rs 502-538): `;` or
`-> type ;`, then the next method position.  On entry the cursor is on the token after `)` or after
the name. -/
def fnTail (n : Nat) (id : String) (args : List FnArg) (isRead isAsync : Bool) (s : PS) : PRes ASTNode :=
  if s.cur = .sym ';' then
    let (position, s) := s.adv.nextFn
    .ok (.fn ⟨id, position, args, none, isRead, isAsync⟩, s)
  else if s.cur ≠ .sym '-' then .error (.unexpected s.cur)
  else
    let s := s.adv
    if s.cur ≠ .sym '>' then .error (.unexpected s.cur)
    else
      match parseTypeId n s.adv with
      | .error e => .error e
      | .ok (t, s) =>
        if s.cur ≠ .sym ';' then .error (.unexpected s.cur)
        else
          let (position, s) := s.adv.nextFn
          .ok (.fn ⟨id, position, args, some t, isRead, isAsync⟩, s)

/-- parser.rs 430-489 `parse_fn`. -/
def parseFn (n : Nat) (isAsync : Bool) (s : PS) : PRes ASTNode :=
  if s.cur ≠ .kwFn then .error (.unexpected s.cur)
  else
    let s := s.adv
    match s.cur with
    | .id id =>
      let s := s.adv
      if s.cur ≠ .sym '(' then .error (.unexpected s.cur)
      else
        match fnArgs n s.adv with
        | .error e => .error e
        | .ok (args, s) =>
          if s.cur ≠ .sym ')' then .error (.unexpected s.cur)
          else fnTail n id args false isAsync s.adv
    | t => .error (.unexpected t)

/-- parser.rs 491-539 `parse_read`. -/
def parseRead (n : Nat) (isAsync : Bool) (s : PS) : PRes ASTNode :=
  if s.cur ≠ .kwRead then .error (.unexpected s.cur)
  else
    let s := s.adv
    match s.cur with
    | .id id => fnTail n id [] true isAsync s.adv
    | t => .error (.unexpected t)

/-- parser.rs 420-428 `parse_async`. -/
def parseAsync (n : Nat) (s : PS) : PRes ASTNode :=
  let s := s.adv
  match s.cur with
  | .kwFn => parseFn n true s
  | .kwRead => parseRead n true s
  | t => .error (.unexpected t)

mutual
/-- parser.rs 565-624 `parse_const`; on entry the cursor is on `const` (not checked by the code). -/
def parseConst : Nat → PS → PRes ConstNode
  | 0, _ => .error .outOfFuel
  | n + 1, s =>
    let s := s.adv
    match s.cur with
    | .id id =>
      let s := s.adv
      if s.cur ≠ .sym '{' then .error (.unexpected s.cur)
      else
        match constItems n s.adv with
        | .error e => .error e
        | .ok (items, s) =>
          if s.cur ≠ .sym '}' then .error (.unexpected s.cur)
          else .ok (⟨id, items⟩, s.adv)
    | t => .error (.unexpected t)

/-- parser.rs 578-615, the item loop of `parse_const`. -/
def constItems : Nat → PS → PRes (List ConstItem)
  | 0, _ => .error .outOfFuel
  | n + 1, s =>
    if s.cur ≠ .sym '}' ∧ s.cur ≠ .eof then
      match s.cur with
      | .kwConst =>
        match parseConst n s with
        | .error e => .error e
        | .ok (c, s) =>
          match constItems n s with
          | .error e => .error e
          | .ok (is, s) => .ok (.node c.id c.items :: is, s)
      | .id id =>
        let s := s.adv
        if s.cur ≠ .sym ':' then .error (.unexpected s.cur)
        else
          match parseTypeId n s.adv with
          | .error e => .error e
          | .ok (t, s) =>
            if s.cur ≠ .sym '=' then .error (.unexpected s.cur)
            else
              let s := s.adv
              match parseConstValue s with
              | .error e => .error e
              | .ok v =>
                let s := s.adv
                if s.cur ≠ .sym ';' then .error (.unexpected s.cur)
                else
                  match constItems n s.adv with
                  | .error e => .error e
                  | .ok (is, s) => .ok (.value id t v :: is, s)
      | t => .error (.unexpected t)
    else .ok ([], s)
end

/-- parser.rs 683-687 `parse_value_directive`; on entry the cursor is on `=`. -/
def parseValueDirective (id : String) (s : PS) : PRes Directive :=
  let s := s.adv
  match parseConstValue s with
  | .error e => .error e
  | .ok v => .ok (.value id v, s)

/-- parser.rs 692-711, the loop of `parse_group_directive`. -/
def groupValues : Nat → PS → PRes (List IdValuePair)
  | 0, _ => .error .outOfFuel
  | n + 1, s =>
    match s.cur with
    | .id id =>
      let s := s.adv
      if s.cur ≠ .sym '=' then .error (.unexpected s.cur)
      else
        let s := s.adv
        match parseConstValue s with
        | .error e => .error e
        | .ok v =>
          let s := s.adv
          if s.cur ≠ .sym ',' then .ok ([⟨id, v⟩], s)
          else
            match groupValues n s.adv with
            | .error e => .error e
            | .ok (ps, s) => .ok (⟨id, v⟩ :: ps, s)
    | _ => .ok ([], s)

/-- parser.rs 689-717 `parse_group_directive`; on entry the cursor is on `(`. -/
def parseGroupDirective (n : Nat) (id : String) (s : PS) : PRes Directive :=
  match groupValues n s.adv with
  | .error e => .error e
  | .ok (vs, s) => .ok (.group id vs, s)

/-- parser.rs 653-681 `parse_directive`.  After either form the current token (the literal, or
whatever follows the group's values) is skipped unseen by `next_token` on line 674. -/
def parseDirective (n : Nat) (s : PS) : PRes ASTNode :=
  if s.cur ≠ .sym '#' then .error (.unexpected s.cur)
  else
    let s := s.adv
    if s.cur ≠ .sym '[' then .error (.unexpected s.cur)
    else
      let s := s.adv
      match s.cur with
      | .id id =>
        let s := s.adv
        let dir : PRes Directive :=
          if s.cur = .sym '=' then parseValueDirective id s
          else if s.cur = .sym '(' then parseGroupDirective n id s
          else .error (.unexpected s.cur)
        match dir with
        | .error e => .error e
        | .ok (d, s) =>
          let s := s.adv
          if s.cur ≠ .sym ']' then .error (.unexpected s.cur)
          else .ok (.directive d, s.adv)
      | t => .error (.unexpected t)

/-- parser.rs 8-17, one declaration. -/
def parseDecl (n : Nat) (s : PS) : PRes ASTNode :=
  match s.cur with
  | .kwStruct => parseStruct n s
  | .kwEnum => parseEnum n s
  | .kwAsync => parseAsync n s
  | .kwFn => parseFn n false s
  | .kwRead => parseRead n false s
  | .kwConst =>
    match parseConst n s with
    | .error e => .error e
    | .ok (c, s) => .ok (.const c, s)
  | .sym c => if c = '#' then parseDirective n s else .error (.unexpected (.sym c))
  | t => .error (.unexpected t)

/-- parser.rs 7-18, the loop of `parse`. -/
def parseLoop : Nat → PS → PRes (List ASTNode)
  | 0, _ => .error .outOfFuel
  | n + 1, s =>
    if s.cur = .eof then .ok ([], s)
    else
      match parseDecl n s with
      | .error e => .error e
      | .ok (node, s) =>
        match parseLoop n s with
        | .error e => .error e
        | .ok (nodes, s) => .ok (node :: nodes, s)

/-- parser.rs 4-21 `parse`, on the token vector of a fresh lexer (lexer.rs 89-94). -/
def parse (tokens : List Token) : Except Panic (List ASTNode) :=
  match parseLoop (tokens.length + 1) ⟨tokens, 0, []⟩ with
  | .error e => .error e
  | .ok (nodes, _) => .ok nodes

/-- main.rs: tokenize, then parse. -/
def parseSource (data : String) : Except Panic (List ASTNode) :=
  match tokenize data with
  | .error e => .error e
  | .ok ts => parse ts

end TPB
