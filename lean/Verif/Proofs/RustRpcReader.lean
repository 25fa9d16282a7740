/- The reader of `Spec/RustRpcReader.lean` finds the statements and handlers whose text it is given. -/
import Verif.Spec.RustRpcReader
import Verif.Proofs.Split
import Verif.Proofs.RustReaderImpls
import Verif.Proofs.RustReaderItems
namespace TPB.Spec.RustRpcReader
open Rust Pieces Combinators

theorem ident_ok {n : String} (h : RustName n) (r : List Tok) : ident (.word n :: r) = some (n, r) := RustReader.name_ok h r

theorem either_fst {α : Type} (a : String) (x : α) (b : String) (y : α) (r : List Tok) :
    either a x b y (.word a :: r) = some (x, r) := next_yes (bind_ok (the_ok _ _) rfl)

theorem either_snd {α : Type} {a : String} {x : α} {b : String} {y : α} (h : b ≠ a) (r : List Tok) :
    either a x b y (.word b :: r) = some (y, r) := next_no (by simpa using h) (bind_ok (the_ok _ _) rfl)

theorem code_cons {s t : String} {p : Tok} (h : code s = p :: code t) (r : List Tok) : code s ++ r = p :: (code t ++ r) := by
  rw [h]; rfl

theorem buf_ok (b : Buf) (r : List Tok) : buf (code b.render ++ r) = some (b, r) := by
  cases b with
  | server =>
    refine bind_ok (text_split "Server," (by decide +kernel) _) ?_
    rw [code_cons (t := ",") (p := .word "Server") (by decide +kernel)]
    exact bind_ok (either_fst _ _ _ _ _) (bind_ok (text_ok _ _) rfl)
  | client =>
    refine bind_ok (text_split "Client," (by decide +kernel) _) ?_
    rw [code_cons (t := ",") (p := .word "Client") (by decide +kernel)]
    exact bind_ok (either_snd (by decide) _) (bind_ok (text_ok _ _) rfl)

theorem status_ok (s : Status) (r : List Tok) : status (.word s.render :: r) = some (s, r) := by
  cases s with
  | x00 => exact either_fst _ _ _ _ _
  | xFF => exact either_snd (by decide) _

/-! ### Statements that write -/

def bufWSegs : BufW → List Seg
  | .status s => [.k ("bytes_writer.write_u8(" ++ s.render ++ ");")]
  | .argI64 f => [.k "bytes_writer.write_i64(args.", .w f, .k ");"]
  | .resultPrim m => [.k "bytes_writer.", .w ("write_" ++ m), .k "(result);"]
  | .resultCall _ => [.k "result.write_to_buffers(bytes_writer);"]

/-- Names are legal, and the type of the result is the given one. -/
def LegBufW (ret : TypeId) : BufW → Prop
  | .status _ => True
  | .argI64 f => RustName f
  | .resultPrim m => Combinators.Tail m
  | .resultCall ty => ty = ret

theorem render_status (s : Status) : (BufW.status s).render = "bytes_writer.write_u8(" ++ s.render ++ ");" := rfl
theorem render_argI64 (f : String) : (BufW.argI64 f).render = "bytes_writer.write_i64(args." ++ f ++ ");" := rfl
theorem render_resultPrim (m : String) : (BufW.resultPrim m).render = "bytes_writer.write_" ++ m ++ "(result);" := rfl
theorem render_resultCall (t : TypeId) : (BufW.resultCall t).render = "result.write_to_buffers(bytes_writer);" := rfl

theorem bufW_text (w : BufW) : segsText (bufWSegs w) = w.render := by
  cases w with
  | status s => simp only [bufWSegs, segsText, Seg.text, String.append_assoc, String.append_empty, render_status]
  | argI64 f => simp only [bufWSegs, segsText, Seg.text, String.append_assoc, String.append_empty, render_argI64]
  | resultPrim m =>
    simp only [bufWSegs, segsText, Seg.text, String.append_empty, render_resultPrim, RustReader.bytesWriter_write,
      String.append_assoc]
  | resultCall t => simp only [bufWSegs, segsText, Seg.text, String.append_empty, render_resultCall]

theorem bufW_good {ret : TypeId} {w : BufW} (h : LegBufW ret w) : Good (bufWSegs w) := by
  cases w with
  | status s => cases s <;> (rw [bufWSegs]; good)
  | argI64 f =>
    have hf : isIdent f = true := (show RustName f from h).1
    rw [bufWSegs]; good
  | resultPrim m =>
    have hm : isIdent ("write_" ++ m) = true := ident_append (by decide +kernel) h
    rw [bufWSegs]; good
  | resultCall ty => rw [bufWSegs]; good

theorem code_status (s : Status) : code ("bytes_writer.write_u8(" ++ s.render ++ ");")
    = code "bytes_writer." ++ (.word "write_u8" :: (code "(" ++ (.word s.render :: code ");"))) := by
  cases s <;> decide +kernel

theorem code_argI64 : code "bytes_writer.write_i64(args."
    = code "bytes_writer." ++ (.word "write_i64" :: (code "(" ++ code "args.")) := by
  decide +kernel

theorem bufW_ok {ret : TypeId} {w : BufW} (h : LegBufW ret w) (r : List Tok) :
    bufW ret (segsToks (bufWSegs w) ++ r) = some (w, r) := by
  cases w with
  | status s =>
    ptoks [bufWSegs, code_status]
    exact next_not (u := .word "bytes_writer") (head_code (by decide +kernel) _) (by decide) <| bind_ok (text_ok _ _) <|
      bind_ok (word_ok _ _) <| bind_ok (some!_ok (dropStart_ok "write_" "u8") _) <| bind_ok (text_ok _ _) <|
      next_not (u := .word s.render) (by rfl) (by cases s <;> decide) <|
      next_not (u := .word s.render) (by rfl) (by cases s <;> decide) <| bind_ok (fits_ok (by decide) _) <|
      bind_ok (status_ok s _) <| bind_ok (text_ok _ _) rfl
  | argI64 f =>
    ptoks [bufWSegs, code_argI64]
    exact next_not (u := .word "bytes_writer") (head_code (by decide +kernel) _) (by decide) <| bind_ok (text_ok _ _) <|
      bind_ok (word_ok _ _) <| bind_ok (some!_ok (dropStart_ok "write_" "i64") _) <| bind_ok (text_ok _ _) <|
      next_not (u := .word "args") (head_code (by decide +kernel) _) (by decide) <|
      next_is (head_code (by decide +kernel) _) <| bind_ok (fits_ok (by decide) _) <|
      bind_ok (text_ok _ _) <| bind_ok (ident_ok h _) <| bind_ok (text_ok _ _) rfl
  | resultPrim m =>
    ptoks [bufWSegs]
    exact next_not (u := .word "bytes_writer") (head_code (by decide +kernel) _) (by decide) <| bind_ok (text_ok _ _) <|
      bind_ok (word_ok _ _) <| bind_ok (some!_ok (dropStart_ok "write_" m) _) <|
      bind_ok (text_split "result);" (by decide +kernel) _) <|
      next_is (head_code (by decide +kernel) _) <| bind_ok (text_ok _ _) rfl
  | resultCall ty =>
    cases h
    ptoks [bufWSegs]
    exact next_is (head_code (by decide +kernel) _) <| bind_ok (text_ok _ _) rfl

theorem bufW_first (w : BufW) : ∃ t ts, segsToks (bufWSegs w) = t :: ts ∧ t ≠ .sym '}' := by
  have hb : code "bytes_writer." = [.word "bytes_writer", .sym '.'] := by decide +kernel
  cases w with
  | status s => ptoks [bufWSegs, code_status, hb]; exact ⟨_, _, rfl, by decide⟩
  | argI64 f => ptoks [bufWSegs, code_argI64, hb]; exact ⟨_, _, rfl, by decide⟩
  | resultPrim m => ptoks [bufWSegs, hb]; exact ⟨_, _, rfl, by decide⟩
  | resultCall ty =>
    have hr : code "result.write_to_buffers(bytes_writer);" = .word "result" :: code ".write_to_buffers(bytes_writer);" := by
      decide +kernel
    ptoks [bufWSegs, hr]; exact ⟨_, _, rfl, by decide⟩

theorem code_close : code "}" = [.sym '}'] := by decide +kernel
theorem code_closeC : code "}," = .sym '}' :: code "," := by decide +kernel

def bufWriteBlock (t : Nat) (b : Buf) (ws : List BufW) : Block :=
  [(t, [.k "memory.get_scope_mut(scope_id).rpc_buffer_write("]), (t + 1, [.k "rpc_method_address,"]),
   (t + 1, [.k b.render]), (t + 1, [.k "|bytes_writer| {"])] ++ ws.map (fun w => (t + 2, bufWSegs w))
    ++ [(t + 1, [.k "},"]), (t, [.k ");"])]

theorem bufWrite_lines (t : Nat) (b : Buf) (ws : List BufW) : blockLines (bufWriteBlock t b ws) = renderBufWrite t b ws := by
  rw [bufWriteBlock, renderBufWrite]
  plines [bufW_text]

theorem bufWrite_good (t : Nat) (b : Buf) {ret : TypeId} {ws : List BufW} (h : ∀ w ∈ ws, LegBufW ret w) :
    GoodBlock (bufWriteBlock t b ws) := by
  refine (GoodBlock.append ?_ (GoodBlock.map (fun w hw => bufW_good (h w hw)))).append (by pgood)
  cases b <;> pgood

/-! ### Calls -/

def callBlock (t : Nat) (res : Bool) (f : String) (args : List String) (await : Bool) : Block :=
  match args with
  | [] => [(t, [.k (if res then "let result = " else ""), .w f, .k ("()" ++ ((if await then ".await" else "") ++ ";"))])]
  | args => [(t, [.k (if res then "let result = " else ""), .w f, .k "("])]
      ++ args.map (fun a => (t + 1, [.k "args.clone().", .w a, .k ","]))
      ++ [(t, [.k (")" ++ ((if await then ".await" else "") ++ ";"))])]

theorem call_lines (t : Nat) (res : Bool) (f : String) (args : List String) (await : Bool) :
    blockLines (callBlock t res f args await) = renderCall t res f args await := by
  cases args with
  | nil => rw [callBlock, renderCall]; plines []
  | cons a as => rw [callBlock, renderCall]; plines []; all_goals simp

theorem call_good (t : Nat) (res : Bool) {f : String} {args : List String} (await : Bool) (hf : RustName f)
    (ha : ∀ a ∈ args, RustName a) : GoodBlock (callBlock t res f args await) := by
  have hf := hf.1
  cases args with
  | nil => rw [callBlock]; cases res <;> cases await <;> pgood
  | cons a as =>
    rw [callBlock]
    · refine (GoodBlock.append ?_ (GoodBlock.map (fun w hw => ?_))).append ?_
      · cases res <;> pgood
      · have := (ha w hw).1
        good
      · cases await <;> pgood
    · simp

/-- The pieces of a call. -/
def callToks (f : String) (args : List String) (await : Bool) : List Tok :=
  .word f :: .sym '(' :: (args.flatMap (fun a => code "args.clone()." ++ (.word a :: [.sym ','])) ++
    .sym ')' :: (if await then code ".await;" else [.sym ';']))

theorem call_toks (t : Nat) (res : Bool) (f : String) (args : List String) (await : Bool) :
    blockToks (callBlock t res f args await) = (if res then code "let result =" else []) ++ callToks f args await := by
  have h1 : code (if res then "let result = " else "") = if res then code "let result =" else [] := by
    cases res <;> decide +kernel
  have h2 : code ("()" ++ ((if await then ".await" else "") ++ ";"))
      = .sym '(' :: .sym ')' :: (if await then code ".await;" else [.sym ';']) := by
    cases await <;> decide +kernel
  have h3 : code (")" ++ ((if await then ".await" else "") ++ ";"))
      = .sym ')' :: (if await then code ".await;" else [.sym ';']) := by
    cases await <;> decide +kernel
  have h4 : code "(" = [.sym '('] := by decide +kernel
  have h5 : code "," = [.sym ','] := by decide +kernel
  cases args with
  | nil => ptoks [callBlock, callToks, h1, h2, List.flatMap_nil]
  | cons a as =>
    rw [callBlock]
    · ptoks [callToks, h1, h3, h4, h5]
    · simp

theorem callArg_ok {a : String} (h : RustName a) (r : List Tok) :
    callArg (code "args.clone()." ++ (.word a :: [.sym ',']) ++ r) = some (a, r) := by
  rw [List.append_assoc, show [Tok.sym ','] = code "," by decide +kernel]
  exact bind_ok (text_ok _ _) <| bind_ok (ident_ok h _) <| bind_ok (text_ok _ _) rfl

theorem callTail_ok (res : Bool) {f : String} {args : List String} (await : Bool) (hf : RustName f)
    (ha : ∀ a ∈ args, RustName a) (r : List Tok) :
    callTail res (callToks f args await ++ r) = some (.call res f args await, r) := by
  rw [callToks]
  simp only [List.cons_append, List.append_assoc]
  refine bind_ok (ident_ok hf _) ?_
  rw [show ∀ q : List Tok, .sym '(' :: q = code "(" ++ q by intro q; rw [show code "(" = [.sym '('] by decide +kernel]; rfl]
  refine bind_ok (text_ok _ _) <| bind_ok (until_ok _ _ args (fun a h r => callArg_ok (ha a h) r) (fun a _ => ?_)) ?_
  · rw [show code "args.clone()." = .word "args" :: code ".clone()." by decide +kernel]
    exact ⟨_, _, rfl, by decide⟩
  · cases await with
    | true => exact next_is (head_code (by decide +kernel) _) <| bind_ok (text_ok _ _) rfl
    | false =>
      refine next_not (u := .sym ';') (by rfl) (by decide) ?_
      show (text ";" >>= _) ([Tok.sym ';'] ++ r) = _
      rw [show [Tok.sym ';'] = code ";" by decide +kernel]
      exact bind_ok (text_ok _ _) rfl

/-! ### `let` -/

def letArgsBlock (t : Nat) (b : Buf) (s : Status) (ty : String) : Block :=
  [(t, [.k "let args = memory.get_scope_mut(scope_id).rpc_buffer_read("]), (t + 1, [.k "rpc_method_address,"]),
   (t + 1, [.k b.render]), (t + 1, [.k "|bytes_reader| {"]), (t + 2, [.k "let status = bytes_reader.read_u8();"]), (0, []),
   (t + 2, [.k ("if status == " ++ (s.render ++ " {"))]),
   (t + 3, [.k "Some(", .w ty, .k "::read_from_buffers(bytes_reader))"]), (t + 2, [.k "} else {"]), (t + 3, [.w "None"]),
   (t + 2, [.k "}"]), (t + 1, [.k "},"]), (t, [.k ");"])]

def letBusyBlock (t : Nat) (b : Buf) (s : Status) : Block :=
  [(t, [.k "let is_busy = memory.get_scope_mut(scope_id).rpc_buffer_read("]), (t + 1, [.k "rpc_method_address,"]),
   (t + 1, [.k b.render]), (t + 1, [.k "|bytes_reader| {"]), (t + 2, [.k "let status = bytes_reader.read_u8();"]),
   (t + 2, [.k "status == ", .p s.render [.word s.render]]), (t + 1, [.k "},"]), (t, [.k ");"])]

theorem status_piece (s : Status) : Piece s.render.toList [.word s.render] := by
  cases s with
  | x00 =>
    have := piece_wordlike true '0' ['x', '0', '0'] (by decide) (by decide) (fun d hd => .inl (by revert d; decide))
    exact this
  | xFF =>
    have := piece_wordlike true '0' ['x', 'F', 'F'] (by decide) (by decide) (fun d hd => .inl (by revert d; decide))
    exact this

theorem letArgs_good (t : Nat) (b : Buf) (s : Status) {ty : String} (h : RustName ty) : GoodBlock (letArgsBlock t b s ty) := by
  have h := h.1
  rw [letArgsBlock]
  cases b <;> cases s <;> pgood

theorem letBusy_good (t : Nat) (b : Buf) (s : Status) : GoodBlock (letBusyBlock t b s) := by
  have h := status_piece s
  have h' := noNL_word s.render
  rw [letBusyBlock]
  cases b <;> pgood

def letArgsToks (b : Buf) (s : Status) (ty : String) : List Tok := blockToks (letArgsBlock 0 b s ty)
def letBusyToks (b : Buf) (s : Status) : List Tok := blockToks (letBusyBlock 0 b s)
def bufWriteToks (b : Buf) (ws : List BufW) : List Tok := blockToks (bufWriteBlock 0 b ws)

theorem letArgs_lines (t : Nat) (b : Buf) (s : Status) (ty : String) :
    blockLines (letArgsBlock t b s ty) = (Rust.Stmt.letArgs b s ty).render t := by
  rw [letArgsBlock, Stmt.render]
  plines []

theorem letBusy_lines (t : Nat) (b : Buf) (s : Status) :
    blockLines (letBusyBlock t b s) = (Rust.Stmt.letBusy b s).render t := by
  rw [letBusyBlock, Stmt.render]
  plines []

theorem openRead_ok (b : Buf) (r : List Tok) :
    openRead (code "memory.get_scope_mut(scope_id).rpc_buffer_read(" ++ (code "rpc_method_address," ++ (code b.render ++
      (code "|bytes_reader| {" ++ (code "let status = bytes_reader.read_u8();" ++ r))))) = some (b, r) :=
  bind_ok (text2 (by decide +kernel) _) <| bind_ok (buf_ok b _) <| bind_ok (text2 (by decide +kernel) _) rfl

theorem code_ifStatus (s : Status) : code ("if status == " ++ (s.render ++ " {")) = code "if status ==" ++ (.word s.render :: code "{") := by
  cases s <;> decide +kernel

theorem letArgs_ok (b : Buf) (s : Status) {ty : String} (h : RustName ty) (r : List Tok) :
    letStmt (letArgsToks b s ty ++ r) = some (.letArgs b s ty, r) := by
  have e : code "let args = memory.get_scope_mut(scope_id).rpc_buffer_read("
    = code "let" ++ (code "args =" ++ code "memory.get_scope_mut(scope_id).rpc_buffer_read(") := by decide +kernel
  ptoks [letArgsToks, letArgsBlock, e, code_ifStatus]
  refine bind_ok (text_ok _ _) <| next_is (head_code (by decide +kernel) _) <| bind_ok (text_ok _ _) <|
    next_not (u := .word "memory") (head_code (by decide +kernel) _) (by decide) <| bind_ok (openRead_ok b _) <|
    bind_ok (text_ok _ _) <| bind_ok (status_ok s _) <| bind_ok (text2 (by decide +kernel) _) <| bind_ok (ident_ok h _) ?_
  rw [show ∀ q : List Tok, .word "None" :: q = code "None" ++ q by
    intro q; rw [show code "None" = [.word "None"] by decide +kernel]; rfl]
  have := text_ok "::read_from_buffers(bytes_reader)) } else { None } }, );" r
  rw [show code "::read_from_buffers(bytes_reader)) } else { None } }, );" =
    code "::read_from_buffers(bytes_reader))" ++ (code "} else {" ++ (code "None" ++ (code "}" ++ (code "}," ++ code ");"))))
    by decide +kernel] at this
  simp only [List.append_assoc] at this
  exact bind_ok this rfl

theorem letBusy_ok (b : Buf) (s : Status) (r : List Tok) :
    letStmt (letBusyToks b s ++ r) = some (.letBusy b s, r) := by
  have e : code "let is_busy = memory.get_scope_mut(scope_id).rpc_buffer_read("
    = code "let" ++ (code "is_busy =" ++ code "memory.get_scope_mut(scope_id).rpc_buffer_read(") := by decide +kernel
  have e2 : code "status == " = code "status ==" := by decide +kernel
  ptoks [letBusyToks, letBusyBlock, e, e2]
  exact bind_ok (text_ok _ _) <| next_not (u := .word "is_busy") (head_code (by decide +kernel) _) (by decide) <|
    next_is (head_code (by decide +kernel) _) <| bind_ok (text_ok _ _) <| bind_ok (openRead_ok b _) <|
    bind_ok (text_ok _ _) <| bind_ok (status_ok s _) <| bind_ok (text2 (by decide +kernel) _) rfl

/-! ### Statements -/

mutual
def stmtToks : Rust.Stmt → List Tok
  | .letArgs b s ty => letArgsToks b s ty
  | .letBusy b s => letBusyToks b s
  | .bufWrite b ws => bufWriteToks b ws
  | .call res f args await => (if res then code "let result =" else []) ++ callToks f args await
  | .ifArgs body => code "if let Some(args) = &args {" ++ (stmtsToks body ++ code "}")
  | .ifNotBusy body => code "if !is_busy {" ++ (stmtsToks body ++ code "}")
  | .ifResult body => code "if let Some(result) = &result {" ++ (stmtsToks body ++ code "}")
  | .cloneArgs => code "let args = args.clone();"
  | .spawn body => code "async_context.async_spawner.spawn(async move {" ++ (stmtsToks body ++ code "});")
  | .letMemory => code "let memory = unsafe { &mut runtime_as_mut().memory };"
  | .blank => []
def stmtsToks : List Rust.Stmt → List Tok
  | [] => []
  | s :: ss => stmtToks s ++ stmtsToks ss
end

/-- Names are legal, functions are not called like the variables that begin statements, and there are no empty lines. -/
inductive LegStmt (ret : TypeId) : Rust.Stmt → Prop
  | letArgs (b : Buf) (s : Status) (ty : String) : RustName ty → LegStmt ret (.letArgs b s ty)
  | letBusy (b : Buf) (s : Status) : LegStmt ret (.letBusy b s)
  | bufWrite (b : Buf) (ws : List BufW) : (∀ w ∈ ws, LegBufW ret w) → LegStmt ret (.bufWrite b ws)
  | call (res : Bool) (f : String) (args : List String) (await : Bool) : RustName f → f ≠ "memory" → f ≠ "async_context" →
      (∀ a ∈ args, RustName a) → LegStmt ret (.call res f args await)
  | ifArgs (body : List Rust.Stmt) : (∀ s ∈ body, LegStmt ret s) → LegStmt ret (.ifArgs body)
  | ifNotBusy (body : List Rust.Stmt) : (∀ s ∈ body, LegStmt ret s) → LegStmt ret (.ifNotBusy body)
  | ifResult (body : List Rust.Stmt) : (∀ s ∈ body, LegStmt ret s) → LegStmt ret (.ifResult body)
  | cloneArgs : LegStmt ret .cloneArgs
  | spawn (body : List Rust.Stmt) : (∀ s ∈ body, LegStmt ret s) → LegStmt ret (.spawn body)
  | letMemory : LegStmt ret .letMemory

theorem stmtsToks_eq (ss : List Rust.Stmt) : stmtsToks ss = ss.flatMap stmtToks := by
  induction ss with
  | nil => rfl
  | cons s ss ih => rw [stmtsToks, ih, List.flatMap_cons]

mutual
theorem trims_toks : (s : Rust.Stmt) → stmtsToks s.trims = stmtToks s
  | .letArgs b s ty => by rw [Stmt.trims, stmtsToks, stmtsToks, List.append_nil]
  | .letBusy b s => by rw [Stmt.trims, stmtsToks, stmtsToks, List.append_nil]
  | .bufWrite b ws => by rw [Stmt.trims, stmtsToks, stmtsToks, List.append_nil]
  | .call res f args await => by rw [Stmt.trims, stmtsToks, stmtsToks, List.append_nil]
  | .ifArgs body => by rw [Stmt.trims, stmtsToks, stmtsToks, List.append_nil, stmtToks, stmtToks, trimStmts_toks body]
  | .ifNotBusy body => by rw [Stmt.trims, stmtsToks, stmtsToks, List.append_nil, stmtToks, stmtToks, trimStmts_toks body]
  | .ifResult body => by rw [Stmt.trims, stmtsToks, stmtsToks, List.append_nil, stmtToks, stmtToks, trimStmts_toks body]
  | .cloneArgs => by rw [Stmt.trims, stmtsToks, stmtsToks, List.append_nil]
  | .spawn body => by rw [Stmt.trims, stmtsToks, stmtsToks, List.append_nil, stmtToks, stmtToks, trimStmts_toks body]
  | .letMemory => by rw [Stmt.trims, stmtsToks, stmtsToks, List.append_nil]
  | .blank => by rw [Stmt.trims, stmtsToks, stmtToks]
theorem trimStmts_toks : (ss : List Rust.Stmt) → stmtsToks (trimStmts ss) = stmtsToks ss
  | [] => by rw [trimStmts]
  | s :: ss => by
    have h1 := trims_toks s
    have h2 := trimStmts_toks ss
    rw [stmtsToks_eq] at h1 h2 ⊢
    rw [trimStmts, List.flatMap_append, h1, h2, stmtsToks]
end

theorem open_lines {t : Nat} {a b : String} {ls : List Line} {ts : List Tok} (ha : Clean a) (hb : Clean b) (h : Lexes ls ts) :
    Lexes ((t, a) :: ls ++ [(t, b)]) (code a ++ (ts ++ code b)) := by
  have := ((line_k t a ha).append h).append (line_k t b hb)
  simpa using this

theorem leg_single {ret : TypeId} {s : Rust.Stmt} (h : ∀ x ∈ [s], LegStmt ret x) : LegStmt ret s := h s (by simp)

mutual
theorem stmt_lines {ret : TypeId} (t : Nat) : (s : Rust.Stmt) → (∀ x ∈ s.trims, LegStmt ret x) → Lexes (s.render t) (stmtToks s)
  | .letArgs b s ty, h => by
    rw [Stmt.trims] at h
    cases leg_single h with
    | letArgs _ _ _ h => rw [← letArgs_lines, stmtToks]; exact block_lexes (letArgs_good t b s h)
  | .letBusy b s, h => by rw [← letBusy_lines, stmtToks]; exact block_lexes (letBusy_good t b s)
  | .bufWrite b ws, h => by
    rw [Stmt.trims] at h
    cases leg_single h with
    | bufWrite _ _ h =>
      rw [Stmt.render, ← bufWrite_lines, stmtToks]
      refine (block_lexes (bufWrite_good t b h)).of_eq ?_
      rw [bufWriteToks]
      ptoks [bufWriteBlock]
  | .call res f args await, h => by
    rw [Stmt.trims] at h
    cases leg_single h with
    | call _ _ _ _ h1 _ _ h2 =>
      rw [Stmt.render, ← call_lines, stmtToks, ← call_toks t]
      exact block_lexes (call_good t res await h1 h2)
  | .ifArgs body, h => by
    rw [Stmt.trims] at h
    cases leg_single h with
    | ifArgs _ h =>
      rw [Stmt.render, stmtToks]
      exact open_lines (by decide +kernel) (by decide +kernel) (stmts_lines (t + 1) body h)
  | .ifNotBusy body, h => by
    rw [Stmt.trims] at h
    cases leg_single h with
    | ifNotBusy _ h =>
      rw [Stmt.render, stmtToks]
      exact open_lines (by decide +kernel) (by decide +kernel) (stmts_lines (t + 1) body h)
  | .ifResult body, h => by
    rw [Stmt.trims] at h
    cases leg_single h with
    | ifResult _ h =>
      rw [Stmt.render, stmtToks]
      exact open_lines (by decide +kernel) (by decide +kernel) (stmts_lines (t + 1) body h)
  | .cloneArgs, h => by rw [Stmt.render, stmtToks]; exact line_k t _ (by decide +kernel)
  | .spawn body, h => by
    rw [Stmt.trims] at h
    cases leg_single h with
    | spawn _ h =>
      rw [Stmt.render, stmtToks]
      exact open_lines (by decide +kernel) (by decide +kernel) (stmts_lines (t + 1) body h)
  | .letMemory, h => by rw [Stmt.render, stmtToks]; exact line_k t _ (by decide +kernel)
  | .blank, h => by rw [Stmt.render, stmtToks]; exact Lexes.blank
theorem stmts_lines {ret : TypeId} (t : Nat) : (ss : List Rust.Stmt) → (∀ x ∈ trimStmts ss, LegStmt ret x) →
    Lexes (renderStmts t ss) (stmtsToks ss)
  | [], _ => by rw [renderStmts, stmtsToks]; exact Lexes.nil
  | s :: ss, h => by
    rw [trimStmts] at h
    rw [renderStmts, stmtsToks]
    exact (stmt_lines t s (fun x hx => h x (by simp [hx]))).append (stmts_lines t ss (fun x hx => h x (by simp [hx])))
end

/-- What statements begin with. -/
def firstWord : Rust.Stmt → String
  | .letArgs _ _ _ => "let"
  | .letBusy _ _ => "let"
  | .bufWrite _ _ => "memory"
  | .call true _ _ _ => "let"
  | .call false f _ _ => f
  | .ifArgs _ => "if"
  | .ifNotBusy _ => "if"
  | .ifResult _ => "if"
  | .cloneArgs => "let"
  | .spawn _ => "async_context"
  | .letMemory => "let"
  | .blank => ""

theorem stmt_first {ret : TypeId} {s : Rust.Stmt} (h : LegStmt ret s) : ∃ q, stmtToks s = .word (firstWord s) :: q := by
  cases h with
  | letArgs b s ty h =>
    refine ⟨(letArgsToks b s ty).tail, ?_⟩
    rw [stmtToks, letArgsToks]
    ptoks [List.tail_cons, firstWord, letArgsBlock, show code "let args = memory.get_scope_mut(scope_id).rpc_buffer_read("
      = .word "let" :: code "args = memory.get_scope_mut(scope_id).rpc_buffer_read(" by decide +kernel]
  | letBusy b s =>
    refine ⟨(letBusyToks b s).tail, ?_⟩
    rw [stmtToks, letBusyToks]
    ptoks [List.tail_cons, firstWord, letBusyBlock, show code "let is_busy = memory.get_scope_mut(scope_id).rpc_buffer_read("
      = .word "let" :: code "is_busy = memory.get_scope_mut(scope_id).rpc_buffer_read(" by decide +kernel]
  | bufWrite b ws h =>
    refine ⟨(bufWriteToks b ws).tail, ?_⟩
    rw [stmtToks, bufWriteToks]
    ptoks [List.tail_cons, firstWord, bufWriteBlock, show code "memory.get_scope_mut(scope_id).rpc_buffer_write("
      = .word "memory" :: code ".get_scope_mut(scope_id).rpc_buffer_write(" by decide +kernel]
  | call res f args await h =>
    rw [stmtToks]
    cases res with
    | true => exact ⟨_, by rw [show code "let result =" = .word "let" :: code "result =" by decide +kernel]; rfl⟩
    | false => exact ⟨_, rfl⟩
  | ifArgs body h =>
    exact ⟨_, by rw [stmtToks, show code "if let Some(args) = &args {" = .word "if" :: code "let Some(args) = &args {" by
      decide +kernel]; rfl⟩
  | ifNotBusy body h =>
    exact ⟨_, by rw [stmtToks, show code "if !is_busy {" = .word "if" :: code "!is_busy {" by decide +kernel]; rfl⟩
  | ifResult body h =>
    exact ⟨_, by rw [stmtToks, show code "if let Some(result) = &result {" = .word "if" :: code "let Some(result) = &result {" by
      decide +kernel]; rfl⟩
  | cloneArgs =>
    exact ⟨code "args = args.clone();", by rw [stmtToks, show code "let args = args.clone();"
      = .word "let" :: code "args = args.clone();" by decide +kernel]; rfl⟩
  | spawn body h =>
    exact ⟨_, by rw [stmtToks, show code "async_context.async_spawner.spawn(async move {"
      = .word "async_context" :: code ".async_spawner.spawn(async move {" by decide +kernel]; rfl⟩
  | letMemory =>
    exact ⟨code "memory = unsafe { &mut runtime_as_mut().memory };", by
      rw [stmtToks, show code "let memory = unsafe { &mut runtime_as_mut().memory };"
      = .word "let" :: code "memory = unsafe { &mut runtime_as_mut().memory };" by decide +kernel]; rfl⟩

theorem stmts_first {ret : TypeId} {ss : List Rust.Stmt} (h : ∀ s ∈ ss, LegStmt ret s) (c : Char) :
    ∀ s ∈ ss, ∃ t ts, stmtToks s = t :: ts ∧ t ≠ .sym c := by
  intro s hs
  obtain ⟨q, e⟩ := stmt_first (h s hs)
  exact ⟨_, _, e, by simp⟩

theorem toks_le {ss : List Rust.Stmt} {s : Rust.Stmt} (h : s ∈ ss) : (stmtToks s).length ≤ (stmtsToks ss).length := by
  rw [stmtsToks_eq]
  induction ss with
  | nil => simp at h
  | cons a as ih =>
    rw [List.flatMap_cons, List.length_append]
    rcases List.mem_cons.1 h with rfl | h
    · omega
    · have := ih h; omega

/-- A block of statements. -/
theorem body_ok {ret : TypeId} {fuel : Nat} {body : List Rust.Stmt} (h : ∀ s ∈ body, LegStmt ret s)
    (ih : ∀ s ∈ body, ∀ (k : Nat) (r : List Tok), (stmtToks s).length ≤ k → stmt ret k (stmtToks s ++ r) = some (s, r))
    (hk : (stmtsToks body).length ≤ fuel) (r : List Tok) :
    until_ (.sym '}') (stmt ret fuel) (stmtsToks body ++ (code "}" ++ r)) = some (body, r) := by
  rw [stmtsToks_eq, code_close]
  exact until_ok stmtToks r body (fun s hs r => ih s hs fuel r (by have := toks_le hs; omega)) (stmts_first h '}')

theorem stmt_head {ret : TypeId} {s : Rust.Stmt} (h : LegStmt ret s) (r : List Tok) :
    (stmtToks s ++ r).head? = some (.word (firstWord s)) := by
  obtain ⟨q, e⟩ := stmt_first h
  rw [e]; rfl

/-- Statements that begin with `let`. -/
theorem let_ok {ret : TypeId} {s : Rust.Stmt} (h : LegStmt ret s) (hw : firstWord s = "let")
    (h2 : ∀ r, letStmt (stmtToks s ++ r) = some (s, r)) (k : Nat) (r : List Tok) (hk : (stmtToks s).length ≤ k) :
    stmt ret k (stmtToks s ++ r) = some (s, r) := by
  match k, hk with
  | 0, hk =>
    obtain ⟨q, e⟩ := stmt_first h
    rw [e] at hk; simp at hk
  | k + 1, hk => exact next_is (by rw [stmt_head h, hw]) (h2 r)

/-- Statements with a block. -/
theorem code_le {s : String} (h : 0 < (code s).length) {a b : List Tok} {k : Nat} (hk : (code s ++ (a ++ b)).length ≤ k + 1) :
    a.length ≤ k := by
  simp only [List.length_append] at hk; omega

theorem keyword_ne {f w : String} (h : RustName f) (hw : w ∈ rustKeywords) : Tok.word f ≠ .word w := by
  simp only [ne_eq, Tok.word.injEq]
  rintro rfl
  exact h.2 hw

theorem stmt_ok {ret : TypeId} {s : Rust.Stmt} (h : LegStmt ret s) : ∀ (k : Nat) (r : List Tok), (stmtToks s).length ≤ k →
    stmt ret k (stmtToks s ++ r) = some (s, r) := by
  have hs := h
  induction h with
  | letArgs b s ty h => exact let_ok hs rfl (fun r => by rw [stmtToks]; exact letArgs_ok b s h r)
  | letBusy b s => exact let_ok hs rfl (fun r => by rw [stmtToks]; exact letBusy_ok b s r)
  | cloneArgs =>
    refine let_ok hs rfl (fun r => ?_)
    rw [stmtToks]
    exact bind_ok (text_split "args = args.clone();" (by decide +kernel) _) <| next_is (head_code (by decide +kernel) _) <|
      bind_ok (text_split "args.clone();" (by decide +kernel) _) <| next_is (head_code (by decide +kernel) _) <|
      bind_ok (text_ok _ _) rfl
  | letMemory =>
    refine let_ok hs rfl (fun r => ?_)
    rw [stmtToks]
    exact bind_ok (text_split "memory = unsafe { &mut runtime_as_mut().memory };" (by decide +kernel) _) <|
      next_not (u := .word "memory") (head_code (by decide +kernel) _) (by decide) <|
      next_not (u := .word "memory") (head_code (by decide +kernel) _) (by decide) <|
      next_is (head_code (by decide +kernel) _) <| bind_ok (text_ok _ _) rfl
  | call res f args await h1 h2 h3 h4 =>
    cases res with
    | true =>
      refine let_ok hs rfl (fun r => ?_)
      rw [stmtToks]
      simp only [if_true, List.append_assoc]
      exact bind_ok (text_split "result =" (by decide +kernel) _) <|
        next_not (u := .word "result") (head_code (by decide +kernel) _) (by decide) <|
        next_not (u := .word "result") (head_code (by decide +kernel) _) (by decide) <|
        next_not (u := .word "result") (head_code (by decide +kernel) _) (by decide) <|
        bind_ok (text_ok _ _) <| callTail_ok true await h1 h4 r
    | false =>
      intro k r hk
      have hh : _ = some (Tok.word f) := stmt_head hs r
      match k, hk with
      | 0, hk =>
        obtain ⟨q, e⟩ := stmt_first hs
        rw [e] at hk; simp at hk
      | k + 1, hk =>
        refine next_not hh (keyword_ne h1 (by decide)) <| next_not hh (keyword_ne h1 (by decide)) <|
          next_not hh (by simpa using h2) <| next_not hh (by simpa using h3) ?_
        rw [stmtToks]
        exact callTail_ok false await h1 h4 r
  | bufWrite b ws h =>
    intro k r hk
    have hh : _ = some (Tok.word "memory") := stmt_head hs r
    match k, hk with
    | 0, hk =>
      obtain ⟨q, e⟩ := stmt_first hs
      rw [e] at hk; simp at hk
    | k + 1, hk =>
      refine next_not hh (by decide) <| next_not hh (by decide) <| next_is hh ?_
      rw [stmtToks, bufWriteToks]
      ptoks [bufWriteBlock, code_closeC]
      exact bind_ok (text2 (by decide +kernel) _) <| bind_ok (buf_ok b _) <| bind_ok (text_ok _ _) <|
        bind_ok (until_ok (fun w => segsToks (bufWSegs w)) _ ws (fun w hw r => bufW_ok (h w hw) r) (fun w _ => bufW_first w)) <|
        bind_ok (text2 (by decide +kernel) _) rfl
  | ifArgs body h ih =>
    intro k r hk
    have hh : _ = some (Tok.word "if") := stmt_head hs r
    match k, hk with
    | 0, hk =>
      obtain ⟨q, e⟩ := stmt_first hs
      rw [e] at hk; simp at hk
    | k + 1, hk =>
      refine next_not hh (by decide) <| next_is hh ?_
      rw [stmtToks] at hk ⊢
      simp only [List.append_assoc]
      exact bind_ok (text_split "let Some(args) = &args {" (by decide +kernel) _) <|
        next_not (u := .word "let") (head_code (by decide +kernel) _) (by decide) <|
        bind_ok (text_split "args) = &args {" (by decide +kernel) _) <| next_is (head_code (by decide +kernel) _) <|
        bind_ok (text_ok _ _) <|
        bind_ok (body_ok h (fun s hs => ih s hs (h s hs)) (code_le (by decide +kernel) hk) r) rfl
  | ifResult body h ih =>
    intro k r hk
    have hh : _ = some (Tok.word "if") := stmt_head hs r
    match k, hk with
    | 0, hk =>
      obtain ⟨q, e⟩ := stmt_first hs
      rw [e] at hk; simp at hk
    | k + 1, hk =>
      refine next_not hh (by decide) <| next_is hh ?_
      rw [stmtToks] at hk ⊢
      simp only [List.append_assoc]
      exact bind_ok (text_split "let Some(result) = &result {" (by decide +kernel) _) <|
        next_not (u := .word "let") (head_code (by decide +kernel) _) (by decide) <|
        bind_ok (text_split "result) = &result {" (by decide +kernel) _) <|
        next_not (u := .word "result") (head_code (by decide +kernel) _) (by decide) <|
        bind_ok (text_ok _ _) <|
        bind_ok (body_ok h (fun s hs => ih s hs (h s hs)) (code_le (by decide +kernel) hk) r) rfl
  | ifNotBusy body h ih =>
    intro k r hk
    have hh : _ = some (Tok.word "if") := stmt_head hs r
    match k, hk with
    | 0, hk =>
      obtain ⟨q, e⟩ := stmt_first hs
      rw [e] at hk; simp at hk
    | k + 1, hk =>
      refine next_not hh (by decide) <| next_is hh ?_
      rw [stmtToks] at hk ⊢
      simp only [List.append_assoc]
      exact bind_ok (text_split "!is_busy {" (by decide +kernel) _) <| next_is (head_code (by decide +kernel) _) <|
        bind_ok (text_ok _ _) <|
        bind_ok (body_ok h (fun s hs => ih s hs (h s hs)) (code_le (by decide +kernel) hk) r) rfl
  | spawn body h ih =>
    intro k r hk
    have hh : _ = some (Tok.word "async_context") := stmt_head hs r
    match k, hk with
    | 0, hk =>
      obtain ⟨q, e⟩ := stmt_first hs
      rw [e] at hk; simp at hk
    | k + 1, hk =>
      refine next_not hh (by decide) <| next_not hh (by decide) <| next_not hh (by decide) <| next_is hh ?_
      rw [stmtToks] at hk ⊢
      have e : code "});" = code "}" ++ code ");" := by decide +kernel
      rw [e]
      simp only [List.append_assoc]
      exact bind_ok (text_ok _ _) <|
        bind_ok (body_ok h (fun s hs => ih s hs (h s hs)) (code_le (by decide +kernel) hk) _) <| bind_ok (text_ok _ _) rfl

theorem anyStmt_ok {ret : TypeId} {s : Rust.Stmt} (h : LegStmt ret s) (r : List Tok) :
    anyStmt ret (stmtToks s ++ r) = some (s, r) := stmt_ok h _ r (by rw [List.length_append]; omega)

/-! ### Handlers -/

def retBlock (e : RetE) : Block := [(0, []), (1, match e with | .notBusy => [.k "!", .w "is_busy"] | e => [.k e.render]), (0, [.k "}"])]

theorem ret_lines (e : RetE) : blockLines (retBlock e) = [(0, ""), (1, e.render), (0, "}")] := by
  cases e <;> rfl

theorem ret_good (e : RetE) : GoodBlock (retBlock e) := by
  cases e <;> (unfold retBlock; pgood)

theorem ret_toks (e : RetE) : blockToks (retBlock e) = code e.render ++ code "}" := by
  cases e <;> decide +kernel

theorem ret_head (e : RetE) : (code e.render).head? = some (.word "args") ∨ (code e.render).head? = some (.word "result") ∨
    (code e.render).head? = some (.sym '!') := by
  cases e <;> decide +kernel

theorem retE_ok (e : RetE) (r : List Tok) : retE (code e.render ++ r) = some (e, r) := by
  cases e with
  | notBusy => exact next_is (head_code (by decide +kernel) _) <| bind_ok (text_ok _ _) rfl
  | argsIsSome =>
    refine next_not (u := .word "args") (head_code (by decide +kernel) _) (by decide) ?_
    rw [code_cons (t := ".is_some()") (p := .word "args") (by decide +kernel)]
    exact bind_ok (either_fst _ _ _ _ _) <| bind_ok (text_ok _ _) rfl
  | resultIsSome =>
    refine next_not (u := .word "result") (head_code (by decide +kernel) _) (by decide) ?_
    rw [code_cons (t := ".is_some()") (p := .word "result") (by decide +kernel)]
    exact bind_ok (either_snd (by decide) _) <| bind_ok (text_ok _ _) rfl

/-- The last expression is not a statement. -/
theorem notStmt (ret : TypeId) (e : RetE) (r : List Tok) : anyStmt ret (code e.render ++ r) = none := by
  have hne : ∃ k, (code e.render ++ r).length = k + 1 := by
    cases e <;> (rw [List.length_append]; exact ⟨_, Nat.succ_add _ _⟩)
  obtain ⟨k, hk⟩ := hne
  unfold anyStmt
  rw [hk]
  cases e with
  | notBusy =>
    have hh := head_code (s := RetE.notBusy.render) (t := .sym '!') (by decide +kernel) r
    refine next_not hh (by decide) <| next_not hh (by decide) <| next_not hh (by decide) <| next_not hh (by decide) ?_
    rw [show code RetE.notBusy.render = [.sym '!', .word "is_busy"] by decide +kernel]
    exact bind_none rfl
  | argsIsSome =>
    have hh := head_code (s := RetE.argsIsSome.render) (t := .word "args") (by decide +kernel) r
    refine next_not hh (by decide) <| next_not hh (by decide) <| next_not hh (by decide) <| next_not hh (by decide) ?_
    rw [code_cons (t := ".is_some()") (p := .word "args") (by decide +kernel)]
    refine bind_ok (ident_ok (by unfold RustName; decide +kernel) _) <| bind_none (text_wrong (p := .sym '(') (t := .sym '.')
      (by decide +kernel) (head_code (by decide +kernel) _) (by decide))
  | resultIsSome =>
    have hh := head_code (s := RetE.resultIsSome.render) (t := .word "result") (by decide +kernel) r
    refine next_not hh (by decide) <| next_not hh (by decide) <| next_not hh (by decide) <| next_not hh (by decide) ?_
    rw [code_cons (t := ".is_some()") (p := .word "result") (by decide +kernel)]
    refine bind_ok (ident_ok (by unfold RustName; decide +kernel) _) <| bind_none (text_wrong (p := .sym '(') (t := .sym '.')
      (by decide +kernel) (head_code (by decide +kernel) _) (by decide))

def sigBlock : Sig → Block
  | .sync => [(1, [.k "scope_id: TechPawsScopeId,"]), (1, [.k "memory: &mut TechPawsRuntimeMemory,"]),
      (1, [.k "rpc_method_address: RpcMethodAddress,"])]
  | .async => [(1, [.k "scope_id: TechPawsScopeId,"]),
      (1, [.k "runtime_as_mut: unsafe fn() -> &'static mut TechPawsRuntime,"]),
      (1, [.k "memory: &mut TechPawsRuntimeMemory,"]), (1, [.k "async_context: &mut TechPawsRuntimeAsyncContext,"]),
      (1, [.k "rpc_method_address: RpcMethodAddress,"])]
  | .syncRead => [(1, [.k "scope_id: TechPawsScopeId,"]), (1, [.k "_: unsafe fn() -> &'static mut TechPawsRuntime,"]),
      (1, [.k "memory: &mut TechPawsRuntimeMemory,"]), (1, [.k "_: &mut TechPawsRuntimeAsyncContext,"]),
      (1, [.k "rpc_method_address: RpcMethodAddress,"])]

theorem sig_lines (s : Sig) : blockLines (sigBlock s) = s.render := by
  cases s <;> rw [sigBlock, Sig.render] <;> plines []

theorem sig_good (s : Sig) : GoodBlock (sigBlock s) := by
  cases s <;> (rw [sigBlock]; pgood)

theorem sig_ok (s : Sig) (r : List Tok) : sig (blockToks (sigBlock s) ++ r) = some (s, r) := by
  cases s with
  | sync =>
    ptoks [sigBlock]
    exact bind_ok (text_ok _ _) <| next_is (head_code (by decide +kernel) _) <| bind_ok (text2 (by decide +kernel) _) rfl
  | async =>
    ptoks [sigBlock]
    exact bind_ok (text_ok _ _) <| next_not (u := .word "runtime_as_mut") (head_code (by decide +kernel) _) (by decide) <|
      next_is (head_code (by decide +kernel) _) <| bind_ok (text2 (by decide +kernel) _) <|
      bind_ok (text2 (by decide +kernel) _) rfl
  | syncRead =>
    ptoks [sigBlock]
    exact bind_ok (text_ok _ _) <| next_not (u := .word "_") (head_code (by decide +kernel) _) (by decide) <|
      next_not (u := .word "_") (head_code (by decide +kernel) _) (by decide) <| bind_ok (text2 (by decide +kernel) _) <|
      bind_ok (text2 (by decide +kernel) _) rfl

theorem handlerName_ok {f : String} (h : isIdent f = true) (r : List Tok) :
    handlerName (.word (f ++ "_rpc_handler") :: r) = some (f, r) :=
  bind_ok (word_ok _ _) <| bind_ok (some!_ok (dropEnd_ok _ _) _) <| bind_ok (fits_ok h _) rfl

theorem ident_handler {f : String} (h : isIdent f = true) : isIdent (f ++ "_rpc_handler") = true :=
  ident_append h (by unfold Combinators.Tail; decide +kernel)

def LegHandler (ret : String → TypeId) (h : Handler) : Prop :=
  RustName h.fn ∧ ∀ s ∈ trimStmts h.body, LegStmt (ret h.fn) s

def handlerToks (h : Handler) : List Tok :=
  code "pub fn" ++ (.word (h.fn ++ "_rpc_handler") :: (code "(" ++ (blockToks (sigBlock h.sig) ++ (code ") -> bool {" ++
    (stmtsToks h.body ++ (code h.ret.render ++ code "}"))))))

theorem handler_lines {ret : String → TypeId} {h : Handler} (hh : LegHandler ret h) : Lexes h.render (handlerToks h) := by
  have hi := ident_handler hh.1.1
  have h1 : Lexes [(0, "pub fn " ++ h.fn ++ "_rpc_handler(")] (code "pub fn" ++ (.word (h.fn ++ "_rpc_handler") :: code "(")) := by
    refine Lexes.line 0 [.k "pub fn ", .w (h.fn ++ "_rpc_handler"), .k "("] (by good) ?_ ?_
    · simp only [segsText, Seg.text, String.append_empty, String.append_assoc]
      rfl
    · ptoks [show code "pub fn " = code "pub fn" by decide +kernel]
  have h2 : Lexes h.sig.render (blockToks (sigBlock h.sig)) := by
    rw [← sig_lines]; exact block_lexes (sig_good h.sig)
  have h3 := line_k 0 ") -> bool {" (by decide +kernel)
  have h4 := stmts_lines 1 h.body hh.2
  have h5 : Lexes [(0, ""), (1, h.ret.render), (0, "}")] (code h.ret.render ++ code "}") := by
    rw [← ret_lines, ← ret_toks]; exact block_lexes (ret_good h.ret)
  rw [Handler.render]
  refine ((((h1.append h2).append h3).append h4).append h5).of_eq ?_
  rw [handlerToks]
  simp only [List.append_assoc, List.cons_append]

theorem handler_ok {ret : String → TypeId} {h : Handler} (hh : LegHandler ret h) (r : List Tok) :
    handler ret (handlerToks h ++ r) = some (h.trim, r) := by
  rw [handlerToks]
  simp only [List.append_assoc, List.cons_append]
  refine bind_ok (text_ok _ _) <| bind_ok (handlerName_ok hh.1.1 _) <| bind_ok (text_ok _ _) <| bind_ok (sig_ok _ _) <|
    bind_ok (text_ok _ _) ?_
  rw [← trimStmts_toks, stmtsToks_eq]
  refine bind_ok (star_ok stmtToks _ (notStmt _ h.ret _) ?_ (trimStmts h.body) (fun s hs r => anyStmt_ok (hh.2 s hs) r)
    (fun s hs => ?_)) ?_
  · cases h.ret <;> (intro e; simp at e)
  · obtain ⟨q, e⟩ := stmt_first (hh.2 s hs)
    exact ⟨_, _, e⟩
  · exact bind_ok (retE_ok h.ret _) <| bind_ok (text_ok _ _) rfl

/-! ### Methods and the section -/

def methodToks (m : MethodItem) : List Tok :=
  (match m.args with | some a => RustReader.declToks a.decl ++ RustReader.implToks a.impl | none => []) ++ handlerToks m.handler

def LegMethod (ret : String → TypeId) (m : MethodItem) : Prop :=
  (∀ a, m.args = some a → RustReader.LegDecl a.decl ∧ RustReader.LegImpl a.impl) ∧ LegHandler ret m.handler

theorem method_lines {ret : String → TypeId} {m : MethodItem} (h : LegMethod ret m) : Lexes m.render (methodToks m) := by
  rw [MethodItem.render, methodToks]
  refine Lexes.append ?_ (handler_lines h.2)
  cases ha : m.args with
  | none => exact Lexes.nil
  | some a =>
    obtain ⟨h1, h2⟩ := h.1 a ha
    refine ((((RustReader.decl_lines h1).append Lexes.blank).append (RustReader.impl_lines h2)).append Lexes.blank).of_eq ?_
    simp

theorem decl_hash (d : Decl) : ∃ q, RustReader.declToks d = .sym '#' :: q := by
  have : RustReader.deriveToks = .sym '#' :: code "[derive(Debug, Clone, PartialEq)] pub" := by
    unfold RustReader.deriveToks; decide +kernel
  cases d with
  | struct n fs => cases fs <;> exact ⟨_, by unfold RustReader.declToks; rw [this]; rfl⟩
  | enum n vs => exact ⟨_, by rw [RustReader.declToks, this]; rfl⟩

theorem handler_first (h : Handler) : ∃ q, handlerToks h = .word "pub" :: q := by
  rw [handlerToks, show code "pub fn" = [.word "pub", .word "fn"] by decide +kernel]
  exact ⟨_, rfl⟩

theorem method_ok {ret : String → TypeId} {m : MethodItem} (h : LegMethod ret m) (r : List Tok) :
    method ret (methodToks m ++ r) = some (m.trim, r) := by
  obtain ⟨args, hd⟩ := m
  cases args with
  | none =>
    obtain ⟨q, e⟩ := handler_first hd
    have hh : (handlerToks hd ++ r).head? = some (.word "pub") := by rw [e]; rfl
    exact next_not hh (by decide) <| bind_ok (handler_ok h.2 r) rfl
  | some a =>
    obtain ⟨h1, h2⟩ := h.1 a rfl
    obtain ⟨q, e⟩ := decl_hash a.decl
    rw [methodToks]
    simp only [List.append_assoc]
    refine next_is (t := .sym '#') (by rw [e]; rfl) ?_
    exact bind_ok (RustReader.decl_ok h1 _) <| bind_ok (RustReader.impl_ok h2 _) <| bind_ok (handler_ok h.2 r) rfl

theorem method_first (m : MethodItem) : ∃ t ts, methodToks m = t :: ts := by
  rw [methodToks]
  cases m.args with
  | none => obtain ⟨q, e⟩ := handler_first m.handler; exact ⟨_, _, e⟩
  | some a => obtain ⟨q, e⟩ := decl_hash a.decl; simp only [e]; exact ⟨_, _, rfl⟩

def regBlock (r : Reg) : Block :=
  [(1, [.k ("runtime." ++ (if r.sync then "register_sync_rpc_method" else "register_async_rpc_method") ++ "(")]),
   (2, [.k (r.group.render ++ ",")]), (2, [.k "scope_id,"]),
   (2, [.k "RpcMethodAddress(", .p (toString r.addr) [.word (toString r.addr)], .k "),"]),
   (2, [.w (r.fn ++ "_rpc_handler"), .k ","]), (1, [.k ");"])]

theorem reg_lines (r : Reg) : blockLines (regBlock r) = r.render := by
  rw [regBlock, Reg.render]
  plines []
  rfl

theorem reg_good {r : Reg} (h : RustName r.fn) : GoodBlock (regBlock r) := by
  have hi := ident_handler h.1
  have hn := piece_nat r.addr
  have hn' := noNL_word (toString r.addr)
  have h1 : Clean ("runtime." ++ (if r.sync then "register_sync_rpc_method" else "register_async_rpc_method") ++ "(") := by
    cases r.sync <;> decide +kernel
  have h2 : Clean (r.group.render ++ ",") := by cases r.group <;> decide +kernel
  rw [regBlock]
  pgood

theorem group_ok (g : Group) (r : List Tok) : group (code (g.render ++ ",") ++ r) = some (g, code "," ++ r) := by
  cases g with
  | sync =>
    refine bind_ok (text_split "sync_group_address," (by decide +kernel) _) ?_
    rw [code_cons (t := ",") (p := .word "sync_group_address") (by decide +kernel)]
    exact next_yes <| bind_ok (the_ok _ _) rfl
  | async =>
    refine bind_ok (text_split "async_group_address," (by decide +kernel) _) ?_
    rw [code_cons (t := ",") (p := .word "async_group_address") (by decide +kernel)]
    exact next_no (by simp) <| either_fst _ _ _ _ _
  | read =>
    refine bind_ok (text_split "read_group_address," (by decide +kernel) _) ?_
    rw [code_cons (t := ",") (p := .word "read_group_address") (by decide +kernel)]
    exact next_no (by simp) <| either_snd (by decide) _

theorem code_register (sync : Bool) : code ("runtime." ++ (if sync then "register_sync_rpc_method" else "register_async_rpc_method") ++ "(")
    = code "runtime." ++ (.word (if sync then "register_sync_rpc_method" else "register_async_rpc_method") :: code "(") := by
  cases sync <;> decide +kernel

theorem sync_ok (b : Bool) (r : List Tok) : either "register_sync_rpc_method" true "register_async_rpc_method" false
    (.word (if b then "register_sync_rpc_method" else "register_async_rpc_method") :: r) = some (b, r) := by
  cases b
  · exact either_snd (by decide) _
  · exact either_fst _ _ _ _ _

theorem reg_ok {x : Reg} (h : RustName x.fn) (r : List Tok) : reg (blockToks (regBlock x) ++ r) = some (x, r) := by
  ptoks [regBlock, code_register]
  exact bind_ok (text_ok _ _) <| bind_ok (sync_ok x.sync _) <| bind_ok (text_ok _ _) <| bind_ok (group_ok _ _) <|
    bind_ok (text3 (by decide +kernel) _) <| bind_ok (num_ok _ _) <| bind_ok (text_ok _ _) <|
    bind_ok (handlerName_ok h.1 _) <| bind_ok (text2 (by decide +kernel) _) rfl

theorem reg_first (x : Reg) : ∃ t ts, blockToks (regBlock x) = t :: ts ∧ t ≠ .sym '}' := by
  ptoks [regBlock, code_register, show code "runtime." = [.word "runtime", .sym '.'] by decide +kernel]
  exact ⟨_, _, rfl, by decide⟩

def scopeSegs (scope : String) : List Seg :=
  [.k "let scope_id = TechPawsScopeId(uuid!(", .p ("\"" ++ scope ++ "\"") [.str scope], .k "));"]

theorem string_piece {s : String} (h : PlainText s) : Piece ("\"" ++ s ++ "\"").toList [.str s] := by
  have := runs_string s (fun hm => (h _ hm).1 rfl) (fun hm => (h _ hm).2.1 rfl)
  have e : ("\"" ++ s ++ "\"").toList = '"' :: (s.toList ++ ['"']) := by simp
  rw [e]
  exact this.toPiece

def registerToks (scope : String) (regs : List Reg) : List Tok :=
  code "pub fn register_rpc(runtime: &mut TechPawsRuntime, addr: &TechPawsRpcAddress) {" ++ (segsToks (scopeSegs scope) ++
    (code "runtime.memory.add_scope(scope_id);" ++ (regs.flatMap (fun x => blockToks (regBlock x)) ++ code "}")))

theorem register_lines {R : RpcSection} (hs : PlainText R.scope) (hr : ∀ x ∈ R.regs, RustName x.fn) :
    Lexes R.renderRegister (registerToks R.scope R.regs) := by
  have h1 := line_k 0 "pub fn register_rpc(runtime: &mut TechPawsRuntime, addr: &TechPawsRpcAddress) {" (by decide +kernel)
  have hp := string_piece hs
  have hp' : noNL [Tok.str R.scope] := by intro t ht; simp at ht; simp [ht]
  have h2 : Lexes [(1, "let scope_id = TechPawsScopeId(uuid!(\"" ++ R.scope ++ "\"));")] (segsToks (scopeSegs R.scope)) := by
    refine Lexes.line 1 (scopeSegs R.scope) ?_ ?_ rfl
    · rw [scopeSegs]; good
    · rw [show "let scope_id = TechPawsScopeId(uuid!(\"" = "let scope_id = TechPawsScopeId(uuid!(" ++ "\"" by decide +kernel,
        show "\"));" = "\"" ++ "));" by decide +kernel]
      simp only [scopeSegs, segsText, Seg.text, String.append_empty, String.append_assoc]
  have h3 := line_k 1 "runtime.memory.add_scope(scope_id);" (by decide +kernel)
  have h4 := Lexes.flatMap R.regs Reg.render (fun x => blockToks (regBlock x)) (fun x hx => by
    rw [← reg_lines]; exact block_lexes (reg_good (hr x hx)))
  have h5 := line_k 0 "}" (by decide +kernel)
  rw [RpcSection.renderRegister]
  refine ((((h1.append h2).append h3).append h4).append h5).of_eq ?_
  rw [registerToks]
  simp only [List.append_assoc]

theorem literal_ok {s : String} (h : PlainText s) (r : List Tok) : literal (.str s :: r) = some (s, r) := by
  rw [literal, if_pos]
  rw [List.all_eq_true]
  intro c hc
  simpa using (h c hc).2

theorem register_ok {scope : String} {regs : List Reg} (hs : PlainText scope) (hr : ∀ x ∈ regs, RustName x.fn) (r : List Tok) :
    register (registerToks scope regs ++ r) = some ((scope, regs), r) := by
  ptoks [registerToks, scopeSegs, code_close]
  exact bind_ok (text_ok _ _) <| bind_ok (text_ok _ _) <| bind_ok (literal_ok hs _) <| bind_ok (text2 (by decide +kernel) _) <|
    bind_ok (until_ok (fun x => blockToks (regBlock x)) _ regs (fun x hx r => reg_ok (hr x hx) r) (fun x _ => reg_first x)) rfl

theorem toEndMap_from {α β : Type} {item : P β} (toks : α → List Tok) (f : α → β) (as : List α)
    (h : ∀ a ∈ as, ∀ r, item (toks a ++ r) = some (f a, r)) (hs : ∀ a ∈ as, ∃ t ts, toks a = t :: ts) :
    ∀ fuel, as.length ≤ fuel → toEnd item fuel (as.flatMap toks) = some (as.map f) := by
  induction as with
  | nil => intro fuel _; cases fuel <;> rfl
  | cons a as ih =>
    intro fuel hf
    match fuel, hf with
    | fuel + 1, hf =>
      obtain ⟨t, ts, e⟩ := hs a (by simp)
      have h1 := h a (by simp) (as.flatMap toks)
      rw [List.flatMap_cons]
      rw [e, List.cons_append] at h1 ⊢
      rw [toEnd, h1]
      simp only
      rw [ih (fun b hb => h b (by simp [hb])) (fun b hb => hs b (by simp [hb])) fuel
        (by simp only [List.length_cons] at hf; omega)]
      rfl

theorem toEndMap_ok {α β : Type} {item : P β} (toks : α → List Tok) (f : α → β) (as : List α)
    (h : ∀ a ∈ as, ∀ r, item (toks a ++ r) = some (f a, r)) (hs : ∀ a ∈ as, ∃ t ts, toks a = t :: ts) :
    toEnd item (as.flatMap toks).length (as.flatMap toks) = some (as.map f) :=
  toEndMap_from toks f as h hs _ (length_flatMap_le toks as hs)

/-- The text of a section is read as the section, without empty lines. -/
theorem readRpc_ok (u : Nat) {ret : String → TypeId} {R : RpcSection} (hs : PlainText R.scope) (hr : ∀ x ∈ R.regs, RustName x.fn)
    (hm : ∀ m ∈ R.methods, LegMethod ret m) : readRpc ret (linesText u R.render) = some R.trim := by
  have h1 := register_lines hs hr
  have h : Lexes R.render (registerToks R.scope R.regs ++ R.methods.flatMap methodToks) := by
    have := Lexes.blocks (none :: R.methods.map some)
      (fun o => match o with | none => R.renderRegister | some m => m.render)
      (fun o => match o with | none => registerToks R.scope R.regs | some m => methodToks m) (by
        intro o ho
        cases o with
        | none => exact h1
        | some m =>
          simp only [List.mem_cons, reduceCtorEq, List.mem_map, Option.some.injEq, exists_eq_right, false_or] at ho
          exact method_lines (hm m ho))
    rw [RpcSection.render]
    simpa [List.flatMap_map, Function.comp_def] using this
  unfold readRpc
  rw [h.pieces]
  show (register (registerToks R.scope R.regs ++ R.methods.flatMap methodToks)).bind _ = _
  rw [register_ok hs hr]
  show (toEnd (method ret) _ _).bind _ = _
  have e : toEnd (method ret) (R.methods.flatMap methodToks).length (R.methods.flatMap methodToks)
      = some (R.methods.map MethodItem.trim) :=
    toEndMap_ok methodToks MethodItem.trim R.methods (fun m h r => method_ok (hm m h) r) (fun m _ => method_first m)
  rw [e]
  rfl

end TPB.Spec.RustRpcReader
