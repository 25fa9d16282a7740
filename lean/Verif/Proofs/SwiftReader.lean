/- The reader of `Spec/SwiftReader.lean` finds the declarations whose text it is given. -/
import Verif.Spec.SwiftReader
import Verif.Proofs.LineReader
namespace TPB.Spec.SwiftReader
open TPB.Swift Pieces Combinators

theorem name_ok {n : String} (h : SwiftId n) (r : List Tok) : name (.word n :: r) = some (n, r) := by
  rw [name, if_pos h]

theorem SwiftId.ne {n w : String} (h : SwiftId n) (hw : w ∈ swiftReserved) : n ≠ w := by
  rintro rfl; exact h.2 hw

/-- A fixed text of one piece, two or three. -/
theorem tok1 {s : String} {t : Tok} (h : code s = [t]) (r : List Tok) : text s (t :: r) = some ((), r) :=
  text_ok' s h r
theorem tok2 {s : String} {t u : Tok} (h : code s = [t, u]) (r : List Tok) : text s (t :: u :: r) = some ((), r) :=
  text_ok' s h r

theorem code_lt : code "<" = [.sym '<'] := by decide +kernel
theorem code_lb : code "[" = [.sym '['] := by decide +kernel
theorem code_rb : code "]" = [.sym ']'] := by decide +kernel
theorem code_array : code "[]" = [.sym '[', .sym ']'] := by decide +kernel
theorem code_parens : code "()" = [.sym '(', .sym ')'] := by decide +kernel
theorem code_open : code "(" = [.sym '('] := by decide +kernel
theorem code_close : code ")" = [.sym ')'] := by decide +kernel
theorem code_comma : code "," = [.sym ','] := by decide +kernel
theorem code_dot : code "." = [.sym '.'] := by decide +kernel
theorem code_colon : code ":" = [.sym ':'] := by decide +kernel
theorem code_colon' : code ": " = [.sym ':'] := by decide +kernel
theorem code_begin : code "{" = [.sym '{'] := by decide +kernel
theorem code_begin' : code " {" = [.sym '{'] := by decide +kernel
theorem code_end : code "}" = [.sym '}'] := by decide +kernel
theorem code_var : code "var" = [.word "var"] := by decide +kernel
theorem code_var' : code "var " = [.word "var"] := by decide +kernel
theorem code_case : code "case" = [.word "case"] := by decide +kernel
theorem code_case' : code "case " = [.word "case"] := by decide +kernel
theorem code_return : code "return" = [.word "return"] := by decide +kernel
theorem code_return' : code "return " = [.word "return"] := by decide +kernel
theorem code_struct : code "struct" = [.word "struct"] := by decide +kernel
theorem code_struct' : code "struct " = [.word "struct"] := by decide +kernel
theorem code_enum : code "enum" = [.word "enum"] := by decide +kernel
theorem code_enum' : code "enum " = [.word "enum"] := by decide +kernel
theorem code_co : code "/*" = [.sym '/', .sym '*'] := by decide +kernel
theorem code_co' : code "/* " = [.sym '/', .sym '*'] := by decide +kernel
theorem code_cc : code "*/" = [.sym '*', .sym '/'] := by decide +kernel
theorem code_cc' : code " */ " = [.sym '*', .sym '/'] := by decide +kernel
theorem code_static : code "static func createDefault() -> " = .word "static" :: code "func createDefault() ->" := by decide +kernel

/-! ### Types -/

mutual
def tyToks : Ty → List Tok
  | .named id => [.word id]
  | .app id args => .word id :: .sym '<' :: tysToks '>' args
  | .array args => .sym '[' :: tysToks ']' args
/-- With the closing bracket. -/
def tysToks (c : Char) : List Ty → List Tok
  | [] => []
  | t :: ts => tyToks t ++ tysTail c ts
def tysTail (c : Char) : List Ty → List Tok
  | [] => [.sym c]
  | t :: ts => .sym ',' :: (tyToks t ++ tysTail c ts)
end

theorem tysToks_eq (c : Char) : ∀ ts : List Ty, tysToks c ts = sepToks tyToks c ts
  | [] => by rw [tysToks, sepToks]
  | [t] => by rw [tysToks, tysTail, sepToks]
  | t :: u :: us => by
    rw [tysToks, tysTail, sepToks, ← tysToks_eq c (u :: us), tysToks]

/-- All names can be names in Swift, angle brackets are not empty and an array has one type of elements. -/
inductive LegTy : Ty → Prop
  | named (id : String) : SwiftId id → LegTy (.named id)
  | app (id : String) (args : List Ty) : SwiftId id → args ≠ [] → (∀ a ∈ args, LegTy a) → LegTy (.app id args)
  | array (a : Ty) : LegTy a → LegTy (.array [a])

theorem args_piece {args : List Ty} (hne : args ≠ []) (h : ∀ a ∈ args, Piece a.render.toList (tyToks a) ∧ noNL (tyToks a)) :
    Piece (joinStr ", " (args.map Ty.render) ++ ">").toList (sepToks tyToks '>' args) ∧ noNL (sepToks tyToks '>' args) := by
  obtain ⟨h1, h2⟩ := sep_runs Ty.render tyToks '>' (by decide) (by decide) (by decide) args hne h
  refine ⟨?_, h2⟩
  rw [String.toList_append]
  exact h1.toPiece

theorem arrayToks (a : Ty) : tyToks (.array [a]) = .sym '[' :: (tyToks a ++ [.sym ']']) := by
  rw [tyToks, tysToks, tysTail]

theorem ty_piece {t : Ty} (h : LegTy t) : Piece t.render.toList (tyToks t) ∧ noNL (tyToks t) := by
  induction h with
  | named id h =>
    rw [Ty.render, tyToks]
    exact ⟨piece_ident id (isIdent_spec h.1), noNL_word id⟩
  | app id args h hne _ ih =>
    obtain ⟨h1, h2⟩ := args_piece hne ih
    have hi := h.1
    refine piece_of [.w id, .k "<", .p (joinStr ", " (args.map Ty.render) ++ ">") (sepToks tyToks '>' args)] (by good) ?_ ?_
    · rw [Ty.render]
      segs_text []
    · rw [tyToks, tysToks_eq]
      segs_toks [code_lt]
  | array a _ ih =>
    obtain ⟨h1, h2⟩ := ih
    refine piece_of [.k "[", .p a.render (tyToks a), .k "]"] (by good) ?_ ?_
    · rw [Ty.render]
      segs_text [joinStr]
    · rw [arrayToks]
      segs_toks [code_lb, code_rb]

/-- The next piece does not open angle brackets. -/
def NoArgs (r : List Tok) : Prop := r.head? ≠ some (.sym '<')

theorem noArgs_sym {c : Char} (h : c ≠ '<') (r : List Tok) : NoArgs (.sym c :: r) := by simp [NoArgs, h]

theorem tyToks_mem_length {args : List Ty} {a : Ty} (h : a ∈ args) :
    (tyToks a).length ≤ (sepToks tyToks '>' args).length := by
  induction args with
  | nil => simp at h
  | cons b bs ih =>
    cases bs with
    | nil =>
      simp only [List.mem_singleton] at h
      subst h
      rw [sepToks, List.length_append]; omega
    | cons c cs =>
      rw [sepToks, List.length_append, List.length_cons]
      rcases List.mem_cons.1 h with rfl | h
      · omega
      · have := ih h; omega

theorem ty_ok {t : Ty} (h : LegTy t) : ∀ (k : Nat) (r : List Tok), NoArgs r → (tyToks t).length ≤ k →
    ty k (tyToks t ++ r) = some (t, r) := by
  induction h with
  | named id h =>
    intro k r hr hk
    rw [tyToks] at hk ⊢
    match k, hk with
    | k + 1, _ => exact next_no (by simp) <| bind_ok (name_ok h r) (next_no hr rfl)
  | app id args h hne _ ih =>
    intro k r _ hk
    rw [tyToks, tysToks_eq] at hk ⊢
    match k, hk with
    | k + 1, hk =>
      simp only [List.length_cons] at hk
      refine next_no (by simp) <| bind_ok (name_ok h _) (next_yes (bind_ok (tok1 code_lt _) (bind_ok (sep_ok (by decide) tyToks r args hne ?_) rfl)))
      intro a ha c r hc
      refine ih a ha k _ (noArgs_sym (by rcases hc with rfl | rfl <;> decide) r) ?_
      have := tyToks_mem_length ha
      omega
  | array a _ ih =>
    intro k r _ hk
    rw [arrayToks] at hk ⊢
    match k, hk with
    | k + 1, hk =>
      simp only [List.length_cons, List.length_append] at hk
      rw [List.cons_append, List.append_assoc]
      exact next_yes <| bind_ok (tok1 code_lb _) <| bind_ok (ih k _ (noArgs_sym (by decide) _) (by omega)) <|
        bind_ok (tok1 code_rb _) rfl

theorem anyTy_ok {t : Ty} (h : LegTy t) {r : List Tok} (hr : NoArgs r) : anyTy (tyToks t ++ r) = some (t, r) :=
  ty_ok h _ r hr (by rw [List.length_append]; omega)

theorem args_ok {args : List Ty} (hne : args ≠ []) (h : ∀ a ∈ args, LegTy a) (r : List Tok) :
    sep anyTy '>' (sepToks tyToks '>' args ++ r) = some (args, r) :=
  sep_ok (by decide) tyToks r args hne (fun a ha c r hc => anyTy_ok (h a ha)
    (noArgs_sym (by rcases hc with rfl | rfl <;> decide) r))

theorem ty_first {t : Ty} (h : LegTy t) : ∃ u ts, tyToks t = u :: ts ∧ u ≠ .sym '/' := by
  cases h with
  | named id h => rw [tyToks]; exact ⟨_, _, rfl, by simp⟩
  | app id args h _ _ => rw [tyToks]; exact ⟨_, _, rfl, by simp⟩
  | array a h => rw [tyToks]; exact ⟨_, _, rfl, by simp⟩

/-! ### Values -/

/-- The literals that are read. -/
def literals : List String := ["0", "false", "\"\""]

def litToks (s : String) : List Tok := if s = "\"\"" then [.str ""] else [.word s]

theorem lit_piece {s : String} (h : s ∈ literals) : Piece s.toList (litToks s) ∧ noNL (litToks s) := by
  refine ⟨?_, by unfold litToks; split <;> (intro t ht; simp at ht; simp [ht])⟩
  simp only [literals, List.mem_cons, List.not_mem_nil, or_false] at h
  rcases h with rfl | rfl | rfl
  all_goals first
    | exact (show Runs .idle _ _ .idle by decide +kernel).toPiece
    | exact piece_wordlike true '0' _ (by decide) (by decide) (by decide)
    | exact piece_ident _ (isIdent_spec (by decide))

theorem code_create : code ".createDefault()" = [.sym '.', .word "createDefault", .sym '(', .sym ')'] := by decide +kernel

def exprToks : Expr → List Tok
  | .lit s => litToks s
  | .emptyArray => [.sym '[', .sym ']']
  | .create id => .word id :: code ".createDefault()"
  | .createGeneric id args => .word id :: .sym '<' :: (sepToks tyToks '>' args ++ code ".createDefault()")

def LegExpr : Expr → Prop
  | .lit s => s ∈ literals
  | .emptyArray => True
  | .create id => SwiftId id
  | .createGeneric id args => SwiftId id ∧ args ≠ [] ∧ ∀ a ∈ args, LegTy a

/-- The type arguments of a call: a point follows the bracket. -/
theorem args_runs {args : List Ty} (hne : args ≠ []) (h : ∀ a ∈ args, LegTy a) :
    Runs .idle ((joinStr ", " (args.map Ty.render)).toList ++ ['>']) (sepToks tyToks '>' args) .idle ∧ noNL (sepToks tyToks '>' args) :=
  sep_runs Ty.render tyToks '>' (by decide) (by decide) (by decide) args hne (fun a ha => ty_piece (h a ha))

theorem expr_piece {e : Expr} (h : LegExpr e) : Piece e.render.toList (exprToks e) ∧ noNL (exprToks e) := by
  cases e with
  | lit s => exact lit_piece h
  | emptyArray => exact piece_of [.k "[]"] (by good) (by rw [Expr.render]; segs_text []) (by segs_toks [code_array, exprToks])
  | create id =>
    have := h.1
    exact piece_of [.w id, .k ".createDefault()"] (by good) (by rw [Expr.render]; segs_text []) (by segs_toks [exprToks])
  | createGeneric id args =>
    have := h.1.1
    obtain ⟨h1, h2⟩ := args_runs h.2.1 h.2.2
    have h3 : Runs .idle ".createDefault()".toList (code ".createDefault()") .idle := by decide +kernel
    have h4 := (h1.append h3).toPiece
    have h5 : noNL (sepToks tyToks '>' args ++ code ".createDefault()") := h2.append (noNL_code _)
    have h6 : Piece (joinStr ", " (args.map Ty.render) ++ ">.createDefault()").toList (sepToks tyToks '>' args ++ code ".createDefault()") := by
      have e : (joinStr ", " (args.map Ty.render) ++ ">.createDefault()").toList
          = (joinStr ", " (args.map Ty.render)).toList ++ ['>'] ++ ".createDefault()".toList := by simp
      rw [e]; exact h4
    exact piece_of [.w id, .k "<", .p (joinStr ", " (args.map Ty.render) ++ ">.createDefault()") (sepToks tyToks '>' args ++ code ".createDefault()")]
      (by good) (by rw [Expr.render]; segs_text []) (by segs_toks [code_lt, exprToks])

theorem expr_lit {s : String} (h : s ∈ literals) (r : List Tok) : literal (litToks s ++ r) = some (s, r) := by
  simp only [literals, List.mem_cons, List.not_mem_nil, or_false] at h
  rcases h with rfl | rfl | rfl <;> rfl

theorem expr_create {ts : List Tok} {w : String} (h : isIdent w = true) (ht : w ≠ "true") (hf : w ≠ "false") :
    expr (.word w :: ts) = creation (.word w :: ts) := by
  rw [expr, literal_name h ht hf]

theorem expr_ok {e : Expr} (h : LegExpr e) (r : List Tok) : expr (exprToks e ++ r) = some (e, r) := by
  cases e with
  | lit s => rw [exprToks, expr, expr_lit h]
  | emptyArray =>
    simp only [exprToks, List.cons_append, List.nil_append]
    rw [expr, literal_sym]
    exact next_yes <| bind_ok (tok2 code_array _) rfl
  | create id =>
    simp only [exprToks, List.cons_append, List.nil_append]
    rw [expr_create h.1 (h.ne (by decide)) (h.ne (by decide))]
    exact next_no (by simp) <| bind_ok (name_ok h _) <| next_no (by simp [code_create]) <| bind_ok (text_ok _ _) rfl
  | createGeneric id args =>
    simp only [exprToks, List.cons_append, List.nil_append, List.append_assoc]
    rw [expr_create h.1.1 (h.1.ne (by decide)) (h.1.ne (by decide))]
    exact next_no (by simp) <| bind_ok (name_ok h.1 _) <| next_yes <|
      bind_ok (tok1 code_lt _) <| bind_ok (args_ok h.2.1 h.2.2 _) <| bind_ok (text_ok _ _) rfl

theorem expr_second {e : Expr} {r : List Tok} (hr : r.head? ≠ some (.sym ':')) :
    (exprToks e ++ r).tail.head? ≠ some (.sym ':') := by
  cases e with
  | lit s =>
    rw [exprToks, litToks]
    split <;> simpa using hr
  | create id => simp [exprToks, code_create]
  | _ => simp [exprToks]

theorem expr_first (e : Expr) : ∃ t ts, exprToks e = t :: ts ∧ t ≠ .sym '/' := by
  cases e with
  | lit s =>
    rw [exprToks, litToks]
    split <;> exact ⟨_, _, rfl, by simp⟩
  | _ => exact ⟨_, _, rfl, by simp⟩

def argToks : Arg → List Tok
  | .labelled n e => .word n :: .sym ':' :: exprToks e
  | .commented c e => .sym '/' :: .sym '*' :: .word c :: .sym '*' :: .sym '/' :: exprToks e
  | .plain e => exprToks e

def LegArg : Arg → Prop
  | .labelled n e => SwiftId n ∧ LegExpr e
  | .commented c e => isIdent c = true ∧ LegExpr e
  | .plain e => LegExpr e

theorem arg_piece {a : Arg} (h : LegArg a) : Piece a.render.toList (argToks a) ∧ noNL (argToks a) := by
  cases a with
  | labelled n e =>
    have := h.1.1
    obtain ⟨h1, h2⟩ := expr_piece h.2
    exact piece_of [.w n, .k ": ", .p e.render (exprToks e)] (by good) (by rw [Arg.render]; segs_text []) (by segs_toks [code_colon', argToks])
  | commented c e =>
    have := h.1
    obtain ⟨h1, h2⟩ := expr_piece h.2
    exact piece_of [.k "/* ", .w c, .k " */ ", .p e.render (exprToks e)] (by good) (by rw [Arg.render]; segs_text [])
      (by segs_toks [code_co', code_cc', argToks])
  | plain e => exact expr_piece h

theorem comment_ok (c : String) (r : List Tok) :
    comment (.sym '/' :: .sym '*' :: .word c :: .sym '*' :: .sym '/' :: r) = some (c, r) :=
  bind_ok (tok2 code_co _) <| bind_ok (word_ok _ _) <| bind_ok (tok2 code_cc _) rfl

theorem arg_ok {a : Arg} (h : LegArg a) (r : List Tok) (hr : r.head? ≠ some (.sym ':')) : arg (argToks a ++ r) = some (a, r) := by
  cases a with
  | labelled n e =>
    exact next_no (by simp [argToks]) <| second_yes <| bind_ok (name_ok h.1 _) <| bind_ok (tok1 code_colon _) <| bind_ok (expr_ok h.2 _) rfl
  | commented c e => exact next_yes <| bind_ok (comment_ok c _) <| bind_ok (expr_ok h.2 _) rfl
  | plain e =>
    obtain ⟨t, ts, ht, hne⟩ := expr_first e
    exact next_no (by simpa [argToks, ht] using hne) <| second_no (expr_second hr) <| bind_ok (expr_ok h _) rfl

/-- Lines of pieces, all but the last with a comma. -/
def rowBlock {α : Type} (t : Nat) (render : α → String) (toks : α → List Tok) : List α → Block
  | [] => []
  | [a] => [(t, [.p (render a) (toks a)])]
  | a :: b :: as => (t, [.p (render a) (toks a), .k ","]) :: rowBlock t render toks (b :: as)

theorem row_lines {α : Type} (t : Nat) (render : α → String) (toks : α → List Tok) (as : List α) :
    blockLines (rowBlock t render toks as) = commaLines t (as.map render) := by
  induction as with
  | nil => rfl
  | cons a as ih =>
    cases as with
    | nil => simp [rowBlock, commaLines, blockLines, segsText, Seg.text]
    | cons b bs =>
      rw [rowBlock, blockLines_cons, ih]
      simp [commaLines, segsText, Seg.text]

theorem row_toks {α : Type} (t : Nat) (render : α → String) (toks : α → List Tok) (stop : Char) (as : List α) (hne : as ≠ [])
    (r : List Tok) : .sym '\n' :: (lineToks (rowBlock t render toks as) ++ .sym stop :: r) = rowToks toks stop as ++ r := by
  induction as with
  | nil => exact absurd rfl hne
  | cons a as ih =>
    cases as with
    | nil => simp [rowBlock, rowToks, lineToks, segsToks, Seg.toks]
    | cons b bs =>
      rw [rowBlock, rowToks, lineToks_cons]
      segs_toks [code_comma]
      rw [ih (by simp)]

theorem row_good {α : Type} (t : Nat) (render : α → String) (toks : α → List Tok) (as : List α)
    (h : ∀ a ∈ as, Piece (render a).toList (toks a) ∧ noNL (toks a)) : GoodBlock (rowBlock t render toks as) := by
  induction as with
  | nil => exact .nil
  | cons a as ih =>
    obtain ⟨h1, h2⟩ := h a (by simp)
    cases as with
    | nil => exact .cons (by good) .nil
    | cons b bs => exact .cons (by good) (ih (fun c hc => h c (by simp [hc])))

def callBlock (t : Nat) (head : List Seg) : List Arg → Block
  | [] => [(t, head ++ [.k "()"])]
  | a :: as => [(t, head ++ [.k "("])] ++ rowBlock (t + 1) Arg.render argToks (a :: as) ++ [(t, [.k ")"])]

def callToks : List Arg → List Tok
  | [] => [.sym '(', .sym ')']
  | a :: as => .sym '(' :: rowToks argToks ')' (a :: as)

theorem call_lines (t : Nat) (head : List Seg) (as : List Arg) : blockLines (callBlock t head as) = renderCall t (segsText head) as := by
  cases as with
  | nil => simp [callBlock, renderCall, blockLines, segsText_append, segsText, Seg.text]
  | cons a as =>
    rw [callBlock, renderCall, blockLines_append, blockLines_append, row_lines]
    simp [blockLines, segsText_append, segsText, Seg.text]

theorem call_toks (t : Nat) (head : List Seg) (as : List Arg) :
    lineToks (callBlock t head as) = segsToks head ++ (callToks as ++ [.sym '\n']) := by
  cases as with
  | nil => simp only [callBlock, lineToks_cons, lineToks_nil]; segs_toks [callToks, code_parens]
  | cons a as =>
    simp only [callBlock, lineToks_append, lineToks_cons, lineToks_nil]
    segs_toks [callToks, code_open, code_close]
    rw [row_toks _ _ _ _ _ (by simp)]

theorem callArgs_ok {as : List Arg} (h : ∀ a ∈ as, LegArg a) (r : List Tok) : args (callToks as ++ r) = some (as, r) := by
  cases as with
  | nil => exact bind_ok (tok1 code_open _) <| next_yes <| bind_ok (tok1 code_close _) rfl
  | cons a as =>
    refine bind_ok (tok1 code_open _) <| next_no ?_ <| rows_ok argToks r (a :: as) (by simp) (fun b hb c r hc => arg_ok (h b hb) _ ?_)
    · cases as <;> simp [rowToks]
    · rcases hc with rfl | rfl <;> simp

def newBlock (t : Nat) (head : List Seg) : New → Block
  | .inst id as => callBlock t (head ++ [.w id]) as
  | .case id => [(t, head ++ [.k ".", .w id])]
  | .caseOf id as => callBlock t (head ++ [.k ".", .w id]) as

def newToks : New → List Tok
  | .inst id as => .word id :: callToks as
  | .case id => [.sym '.', .word id]
  | .caseOf id as => .sym '.' :: .word id :: callToks as

def LegNew : New → Prop
  | .inst id as => SwiftId id ∧ ∀ a ∈ as, LegArg a
  | .case id => SwiftId id
  | .caseOf id as => SwiftId id ∧ ∀ a ∈ as, LegArg a

theorem new_lines (t : Nat) (head : List Seg) (v : New) : blockLines (newBlock t head v) = v.render t (segsText head) := by
  cases v with
  | inst id as =>
    rw [newBlock, call_lines, New.render, segsText_append]
    congr 1
    simp [segsText, Seg.text]
  | case id => simp [newBlock, New.render, blockLines, segsText_append, segsText, Seg.text, String.append_assoc]
  | caseOf id as =>
    rw [newBlock, call_lines, New.render, segsText_append]
    congr 1
    simp [segsText, Seg.text, String.append_assoc]

theorem new_toks (t : Nat) (head : List Seg) (v : New) :
    lineToks (newBlock t head v) = segsToks head ++ (newToks v ++ [.sym '\n']) := by
  cases v with
  | inst id as => rw [newBlock, call_toks]; segs_toks [newToks]
  | case id => rw [newBlock, lineToks_cons, lineToks_nil]; segs_toks [newToks, code_dot]
  | caseOf id as => rw [newBlock, call_toks]; segs_toks [newToks, code_dot]

theorem call_good (t : Nat) {head : List Seg} {id : String} (hh : Good head) (hc : closed head = true) (hi : isIdent id = true)
    {as : List Arg} (h : ∀ a ∈ as, LegArg a) : GoodBlock (callBlock t (head ++ [.w id]) as) := by
  cases as with
  | nil =>
    refine .cons ?_ .nil
    rw [List.append_assoc]
    exact hh.append hc (by good)
  | cons a as =>
    refine .append (.append (.cons ?_ .nil) (row_good _ _ _ _ (fun b hb => arg_piece (h b hb)))) (.cons (by good) .nil)
    rw [List.append_assoc]
    exact hh.append hc (by good)

theorem new_good (t : Nat) {head : List Seg} (hh : Good head) (hc : closed head = true) {v : New} (h : LegNew v) :
    GoodBlock (newBlock t head v) := by
  cases v with
  | inst id as => exact call_good t hh hc h.1.1 h.2
  | case id =>
    have := h.1
    exact .cons (hh.append hc (by good)) .nil
  | caseOf id as =>
    have := call_good t (head := head ++ [.k "."]) (hh.append hc (by good)) (closed_append rfl (by simp)) h.1.1 h.2
    rw [List.append_assoc] at this
    exact this

theorem new_ok {v : New} (h : LegNew v) (r : List Tok) (hr : r.head? ≠ some (.sym '(')) : new (newToks v ++ r) = some (v, r) := by
  cases v with
  | inst id as => exact next_no (by simp [newToks]) <| bind_ok (name_ok h.1 _) <| bind_ok (callArgs_ok h.2 r) rfl
  | case id => exact next_yes <| bind_ok (tok1 code_dot _) <| bind_ok (name_ok h _) <| next_no hr rfl
  | caseOf id as =>
    obtain ⟨ts, ht⟩ : ∃ ts, callToks as ++ r = .sym '(' :: ts := by cases as <;> exact ⟨_, rfl⟩
    have hc := callArgs_ok h.2 r
    refine next_yes <| bind_ok (tok1 code_dot _) <| bind_ok (name_ok h.1 _) ?_
    show _ = _
    simp only [List.append_eq] 
    rw [ht] at hc ⊢
    exact next_yes <| bind_ok hc rfl

/-! ### Declarations -/

def defaultBlock (d : Default) : Block :=
  [(1, [.k "static func createDefault() -> ", .w d.type, .k " {"])] ++ newBlock 2 [.k "return "] d.value ++ [(1, [.k "}"])]

def LegDefault (d : Default) : Prop := SwiftId d.type ∧ LegNew d.value

theorem default_lines (d : Default) : blockLines (defaultBlock d) = d.render := by
  have : segsText [.k "return "] = "return " := by segs_text []
  rw [defaultBlock, blockLines_append, blockLines_append, new_lines, this]
  simp [Default.render, blockLines, segsText, Seg.text, String.append_assoc]

theorem default_good {d : Default} (h : LegDefault d) : GoodBlock (defaultBlock d) := by
  have := h.1.1
  exact .append (.append (.cons (by good) .nil) (new_good 2 (by good) rfl h.2)) (.cons (by good) .nil)

/-- After `static`. -/
def defaultToks (d : Default) : List Tok :=
  code "func createDefault() ->" ++ .word d.type :: .sym '{' :: .sym '\n' :: .word "return" :: (newToks d.value ++ [.sym '\n', .sym '}', .sym '\n'])

theorem default_toks (d : Default) : lineToks (defaultBlock d) = .word "static" :: defaultToks d := by
  simp only [defaultBlock, lineToks_append, lineToks_cons, lineToks_nil, new_toks]
  segs_toks [code_static, code_begin', code_return', code_end, defaultToks]

theorem default_ok {d : Default} (h : LegDefault d) (r : List Tok) : default (defaultToks d ++ r) = some (d, r) := by
  simp only [defaultToks, List.append_assoc, List.cons_append, List.nil_append]
  exact bind_ok (text_ok _ _) <| bind_ok (name_ok h.1 _) <| bind_ok (tok1 code_begin _) <| bind_ok (endLine_ok _) <|
    bind_ok (tok1 code_return _) <| bind_ok (new_ok h.2 _ (by simp)) <| bind_ok (endLine_ok _) <| bind_ok (tok1 code_end _) <|
    bind_ok (endLine_ok _) rfl

def fieldSegs (f : String × Ty) : List Seg := [.k "var ", .w f.1, .k ": ", .p f.2.render (tyToks f.2)]

def fieldToks (f : String × Ty) : List Tok := segsToks (fieldSegs f) ++ [.sym '\n']

theorem field_ok {f : String × Ty} (h : SwiftId f.1 ∧ LegTy f.2) (r : List Tok) : field (fieldToks f ++ r) = some (f, r) := by
  unfold fieldToks fieldSegs
  segs_toks [code_var', code_colon']
  exact bind_ok (tok1 code_var _) <| bind_ok (name_ok h.1 _) <| bind_ok (tok1 code_colon _) <|
    bind_ok (anyTy_ok h.2 (noArgs_sym (by decide) _)) <| bind_ok (endLine_ok _) rfl

theorem field_first (f : String × Ty) : ∃ ts, fieldToks f = .word "var" :: ts := by
  unfold fieldToks fieldSegs
  segs_toks [code_var']
  exact ⟨_, rfl⟩

def paramToks : Option String × Ty → List Tok
  | (some c, t) => .sym '/' :: .sym '*' :: .word c :: .sym '*' :: .sym '/' :: tyToks t
  | (none, t) => tyToks t

def LegParam (p : Option String × Ty) : Prop := (∀ c ∈ p.1, isIdent c = true) ∧ LegTy p.2

theorem param_piece {p : Option String × Ty} (h : LegParam p) : Piece (renderParam p).toList (paramToks p) ∧ noNL (paramToks p) := by
  obtain ⟨c, t⟩ := p
  obtain ⟨h1, h2⟩ := ty_piece h.2
  cases c with
  | none => exact ⟨h1, h2⟩
  | some c =>
    have := h.1 c rfl
    exact piece_of [.k "/* ", .w c, .k " */ ", .p t.render (tyToks t)] (by good) (by rw [renderParam]; segs_text [])
      (by segs_toks [code_co', code_cc', paramToks])

theorem param_ok {p : Option String × Ty} (h : LegParam p) (r : List Tok) (hr : NoArgs r) : param (paramToks p ++ r) = some (p, r) := by
  obtain ⟨c, t⟩ := p
  cases c with
  | none =>
    obtain ⟨u, ts, ht, hne⟩ := ty_first h.2
    exact next_no (by simpa [paramToks, ht] using hne) <| bind_ok (anyTy_ok h.2 hr) rfl
  | some c => exact next_yes <| bind_ok (comment_ok c _) <| bind_ok (anyTy_ok h.2 hr) rfl

def caseBlock : Case → Block
  | ⟨id, []⟩ => [(1, [.k "case ", .w id])]
  | ⟨id, p :: ps⟩ => [(1, [.k "case ", .w id, .k "("])] ++ rowBlock 2 renderParam paramToks (p :: ps) ++ [(1, [.k ")"])]

def caseToks : Case → List Tok
  | ⟨id, []⟩ => [.word "case", .word id, .sym '\n']
  | ⟨id, p :: ps⟩ => .word "case" :: .word id :: .sym '(' :: (rowToks paramToks ')' (p :: ps) ++ [.sym '\n'])

def LegCase (c : Case) : Prop := SwiftId c.id ∧ ∀ p ∈ c.params, LegParam p

theorem case_lines (c : Case) : blockLines (caseBlock c) = c.render := by
  match c with
  | ⟨id, []⟩ => simp [caseBlock, Case.render, blockLines, segsText, Seg.text]
  | ⟨id, p :: ps⟩ =>
    rw [caseBlock, Case.render, blockLines_append, blockLines_append, row_lines]
    simp [blockLines, segsText, Seg.text, String.append_assoc]

theorem case_toks (c : Case) : lineToks (caseBlock c) = caseToks c := by
  match c with
  | ⟨id, []⟩ => rw [caseBlock, lineToks_cons, lineToks_nil]; segs_toks [caseToks, code_case']
  | ⟨id, p :: ps⟩ =>
    simp only [caseBlock, lineToks_append, lineToks_cons, lineToks_nil]
    segs_toks [caseToks, code_case', code_open, code_close]
    rw [row_toks _ _ _ _ _ (by simp)]

theorem case_good {c : Case} (h : LegCase c) : GoodBlock (caseBlock c) := by
  match c, h with
  | ⟨id, []⟩, h =>
    have : isIdent id = true := h.1.1
    exact .cons (by good) .nil
  | ⟨id, p :: ps⟩, h =>
    have : isIdent id = true := h.1.1
    exact .append (.append (.cons (by good) .nil) (row_good _ _ _ _ (fun q hq => param_piece (h.2 q hq)))) (.cons (by good) .nil)

theorem case_ok {c : Case} (h : LegCase c) (r : List Tok) : case (caseToks c ++ r) = some (c, r) := by
  match c, h with
  | ⟨id, []⟩, h => exact bind_ok (tok1 code_case _) <| bind_ok (name_ok h.1 _) <| next_no (by simp) <| bind_ok (endLine_ok _) rfl
  | ⟨id, p :: ps⟩, h =>
    simp only [caseToks, List.append_assoc, List.cons_append, List.nil_append]
    refine bind_ok (tok1 code_case _) <| bind_ok (name_ok h.1 _) <| next_yes <| bind_ok (tok1 code_open _) <|
      bind_ok (rows_ok paramToks _ (p :: ps) (by simp) (fun q hq c r hc => param_ok (h.2 q hq) _ (noArgs_sym ?_ _))) <|
      bind_ok (endLine_ok _) rfl
    rcases hc with rfl | rfl <;> decide

theorem case_first (c : Case) : ∃ ts, caseToks c = .word "case" :: ts := by
  match c with
  | ⟨id, []⟩ => exact ⟨_, rfl⟩
  | ⟨id, p :: ps⟩ => exact ⟨_, rfl⟩

/-- Members and the empty line after them. -/
def withBlank {α : Type} (as : List α) : List (Option α) := as.map some ++ (if as.isEmpty then [] else [none])

theorem withBlank_items {α : Type} (as : List α) : (withBlank as).filterMap id = as := by
  unfold withBlank
  rw [List.filterMap_append, List.filterMap_map]
  cases as <;> simp [Function.comp_def]

def memberBlock {α : Type} (block : α → Block) : Option α → Block
  | none => [(0, [])]
  | some a => block a

theorem member_lines {α : Type} (block : α → Block) (lines : α → List Line) (h : ∀ a, blockLines (block a) = lines a)
    (hne : ∀ a, lines a ≠ []) (as : List α) (d : Default) :
    blockLines ((withBlank as).flatMap (memberBlock block) ++ defaultBlock d) = renderMembers (as.flatMap lines) d := by
  have e : blockLines ((as.map some).flatMap (memberBlock block)) = as.flatMap lines := by
    rw [blockLines_flatMap, List.flatMap_map]
    congr 1
    funext a
    exact h a
  rw [blockLines_append, default_lines]
  unfold withBlank
  rw [List.flatMap_append, blockLines_append, e]
  cases as with
  | nil => rfl
  | cons a as =>
    rw [List.flatMap_cons]
    cases hl : lines a with
    | nil => exact absurd hl (hne a)
    | cons l ls => simp [renderMembers, memberBlock, blockLines, segsText]

theorem member_toks {α : Type} (block : α → Block) (toks : α → List Tok) (h : ∀ a, lineToks (block a) = toks a) (os : List (Option α)) :
    lineToks (os.flatMap (memberBlock block)) = os.flatMap (blankToks toks) := by
  rw [lineToks_flatMap]
  congr 1
  funext o
  cases o with
  | none => simp [memberBlock, blankToks, lineToks, segsToks]
  | some a => exact h a

theorem member_good {α : Type} {block : α → Block} {as : List α} (h : ∀ a ∈ as, GoodBlock (block a)) :
    GoodBlock ((withBlank as).flatMap (memberBlock block)) := by
  refine .flatMap (fun o ho => ?_)
  cases o with
  | none => exact .cons trivial .nil
  | some a =>
    refine h a ?_
    rw [← withBlank_items as]
    exact List.mem_filterMap.2 ⟨_, ho, rfl⟩

theorem members_ok {α : Type} {p : P α} {toks : α → List Tok} {w : String} (hw : w ≠ "static")
    {as : List α} (h : ∀ a ∈ as, ∀ r, p (toks a ++ r) = some (a, r))
    (hf : ∀ a, ∃ ts, toks a = .word w :: ts) (r : List Tok) :
    until_ (.word "static") (orBlank p) ((withBlank as).flatMap (blankToks toks) ++ .word "static" :: r) = some (withBlank as, r) := by
  refine until_ok (blankToks toks) r (withBlank as) (fun o ho r => orBlank_ok toks o ?_ ?_ r) (fun o ho => ?_)
  · intro a ha
    cases ha
    refine h a ?_
    rw [← withBlank_items as]
    exact List.mem_filterMap.2 ⟨_, ho, rfl⟩
  · intro a _
    obtain ⟨ts, e⟩ := hf a
    exact ⟨_, ts, e, by simp⟩
  · cases o with
    | none => exact ⟨_, _, rfl, by simp⟩
    | some a =>
      obtain ⟨ts, e⟩ := hf a
      exact ⟨_, ts, e, by simpa using hw⟩

def itemBlock : Item → Block
  | .struct id fs d => [(0, [.k "struct ", .w id, .k " {"])]
      ++ ((withBlank fs).flatMap (memberBlock (fun f => [(1, fieldSegs f)])) ++ defaultBlock d) ++ [(0, [.k "}"])]
  | .enum id cs d => [(0, [.k "enum ", .w id, .k " {"])]
      ++ ((withBlank cs).flatMap (memberBlock caseBlock) ++ defaultBlock d) ++ [(0, [.k "}"])]

def LegItem : Item → Prop
  | .struct id fs d => SwiftId id ∧ (∀ f ∈ fs, SwiftId f.1 ∧ LegTy f.2) ∧ LegDefault d
  | .enum id cs d => SwiftId id ∧ (∀ c ∈ cs, LegCase c) ∧ LegDefault d

theorem case_render_ne (c : Case) : c.render ≠ [] := by
  rw [Case.render]
  split <;> simp

theorem item_lines (i : Item) : blockLines (itemBlock i) = i.render := by
  cases i with
  | struct id fs d =>
    rw [itemBlock, Item.render, blockLines_append, blockLines_append,
      member_lines (fun f => [(1, fieldSegs f)]) (fun f => [(1, "var " ++ f.1 ++ ": " ++ f.2.render)]) ?_ (by simp) fs d, List.map_eq_flatMap]
    · simp [blockLines, segsText, Seg.text, String.append_assoc]
    · intro f
      simp [blockLines, fieldSegs, segsText, Seg.text, String.append_assoc]
  | enum id cs d =>
    rw [itemBlock, Item.render, blockLines_append, blockLines_append, member_lines caseBlock Case.render case_lines case_render_ne]
    simp [blockLines, segsText, Seg.text, String.append_assoc]

theorem item_good {i : Item} (h : LegItem i) : GoodBlock (itemBlock i) := by
  cases i with
  | struct id fs d =>
    have := h.1.1
    refine .append (.append (.cons (by good) .nil) (.append (member_good (fun f hf => .cons ?_ .nil)) (default_good h.2.2))) (.cons (by good) .nil)
    obtain ⟨h1, h2⟩ := h.2.1 f hf
    obtain ⟨h3, h4⟩ := ty_piece h2
    have := h1.1
    unfold fieldSegs
    good
  | enum id cs d =>
    have := h.1.1
    exact .append (.append (.cons (by good) .nil) (.append (member_good (fun c hc => case_good (h.2.1 c hc))) (default_good h.2.2)))
      (.cons (by good) .nil)

theorem field_toks (f : String × Ty) : lineToks [(1, fieldSegs f)] = fieldToks f := by simp [lineToks, fieldToks]

theorem item_ok {i : Item} (h : LegItem i) (r : List Tok) : item (lineToks (itemBlock i) ++ r) = some (i, r) := by
  cases i with
  | struct id fs d =>
    simp only [itemBlock, lineToks_append, lineToks_cons, lineToks_nil, member_toks (fun f => [(1, fieldSegs f)]) fieldToks field_toks,
      default_toks]
    segs_toks [code_struct', code_begin', code_end]
    refine next_yes <| bind_ok (tok1 code_struct _) <| bind_ok (name_ok h.1 _) <| bind_ok (tok1 code_begin _) <| bind_ok (endLine_ok _) <|
      bind_ok (members_ok (p := field) (w := "var") (by decide) (fun f hf r => field_ok (h.2.1 f hf) r) field_first _) <|
      bind_ok (default_ok h.2.2 _) <| bind_ok (tok1 code_end _) <| bind_ok (endLine_ok _) ?_
    rw [withBlank_items]; rfl
  | enum id cs d =>
    simp only [itemBlock, lineToks_append, lineToks_cons, lineToks_nil, member_toks caseBlock caseToks case_toks, default_toks]
    segs_toks [code_enum', code_begin', code_end]
    refine next_no (by simp) <| bind_ok (tok1 code_enum _) <| bind_ok (name_ok h.1 _) <| bind_ok (tok1 code_begin _) <|
      bind_ok (endLine_ok _) <|
      bind_ok (members_ok (p := case) (w := "case") (by decide) (fun c hc r => case_ok (h.2.1 c hc) r) case_first _) <|
      bind_ok (default_ok h.2.2 _) <| bind_ok (tok1 code_end _) <| bind_ok (endLine_ok _) ?_
    rw [withBlank_items]; rfl

theorem item_first (i : Item) : ∃ t ts, lineToks (itemBlock i) = t :: ts ∧ t ≠ .sym '\n' := by
  cases i with
  | struct id fs d =>
    simp only [itemBlock, lineToks_append, lineToks_cons]
    segs_toks [code_struct']
    exact ⟨_, _, rfl, by simp⟩
  | enum id cs d =>
    simp only [itemBlock, lineToks_append, lineToks_cons]
    segs_toks [code_enum']
    exact ⟨_, _, rfl, by simp⟩

/-- Declarations and the empty lines between them. -/
def betweenBlanks : List Item → List (Option Item)
  | [] => []
  | [i] => [some i]
  | i :: j :: is => some i :: none :: betweenBlanks (j :: is)

theorem betweenBlanks_items (is : List Item) : (betweenBlanks is).filterMap id = is := by
  induction is with
  | nil => rfl
  | cons i is ih =>
    cases is with
    | nil => rfl
    | cons j js => rw [betweenBlanks]; simpa using ih

theorem betweenBlanks_mem {is : List Item} {i : Item} (h : some i ∈ betweenBlanks is) : i ∈ is := by
  rw [← betweenBlanks_items is]
  exact List.mem_filterMap.2 ⟨_, h, rfl⟩

theorem items_lines (is : List Item) : blockLines ((betweenBlanks is).flatMap (memberBlock itemBlock)) = renderItems is := by
  induction is with
  | nil => rfl
  | cons i is ih =>
    cases is with
    | nil => simp [betweenBlanks, renderItems, memberBlock, item_lines, joinBlocks]
    | cons j js =>
      rw [renderItems] at ih ⊢
      rw [betweenBlanks, List.map_cons, List.map_cons, joinBlocks, List.flatMap_cons, List.flatMap_cons, blockLines_append,
        blockLines_append, ih, memberBlock, memberBlock, item_lines]
      · simp [blockLines, segsText]

theorem readModels_ok {is : List Item} (h : ∀ i ∈ is, LegItem i) (u : Nat) :
    readModels (linesText u (renderItems is)) = some is := by
  have hg : GoodBlock ((betweenBlanks is).flatMap (memberBlock itemBlock)) := by
    refine .flatMap (fun o ho => ?_)
    cases o with
    | none => exact .cons trivial .nil
    | some i => exact item_good (h i (betweenBlanks_mem ho))
  have hp := scan_lines u hg
  rw [items_lines, member_toks itemBlock (fun i => lineToks (itemBlock i)) (fun _ => rfl)] at hp
  have := wholeLines_ok (item := item) (fun i => lineToks (itemBlock i)) (betweenBlanks is) hp
    (fun i hi r => item_ok (h i (betweenBlanks_mem hi)) r) (fun i _ => item_first i)
  rw [betweenBlanks_items] at this
  exact this

end TPB.Spec.SwiftReader
