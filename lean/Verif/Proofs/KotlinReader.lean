/- The reader of `Spec/KotlinReader.lean` finds the declarations whose text it is given. -/
import Verif.Spec.KotlinReader
import Verif.Proofs.LineReader
namespace TPB.Spec.KotlinReader
open TPB.Kotlin Pieces Combinators

theorem name_ok {n : String} (h : KotlinId n) (r : List Tok) : name (.word n :: r) = some (n, r) := by
  rw [name, if_pos h]

theorem KotlinId.ne {n w : String} (h : KotlinId n) (hw : w ∈ kotlinReserved) : n ≠ w := by
  rintro rfl; exact h.2.1 hw

/-! ### Types -/

mutual
def tyToks : Ty → List Tok
  | .named id => [.word id]
  | .app id args => .word id :: .sym '<' :: tysToks args
/-- With the closing bracket. -/
def tysToks : List Ty → List Tok
  | [] => []
  | t :: ts => tyToks t ++ tysTail ts
def tysTail : List Ty → List Tok
  | [] => [.sym '>']
  | t :: ts => .sym ',' :: (tyToks t ++ tysTail ts)
end

theorem tysToks_eq : ∀ ts : List Ty, tysToks ts = sepToks tyToks '>' ts
  | [] => by rw [tysToks, sepToks]
  | [t] => by rw [tysToks, tysTail, sepToks]
  | t :: u :: us => by
    rw [tysToks, tysTail, sepToks, ← tysToks_eq (u :: us), tysToks]

/-- All names can be names in Kotlin, and angle brackets are not empty. -/
inductive LegTy : Ty → Prop
  | named (id : String) : KotlinId id → LegTy (.named id)
  | app (id : String) (args : List Ty) : KotlinId id → args ≠ [] → (∀ a ∈ args, LegTy a) → LegTy (.app id args)

theorem args_piece {args : List Ty} (hne : args ≠ []) (h : ∀ a ∈ args, Piece a.render.toList (tyToks a) ∧ noNL (tyToks a)) :
    Piece (joinStr ", " (args.map Ty.render) ++ ">").toList (sepToks tyToks '>' args) ∧ noNL (sepToks tyToks '>' args) := by
  obtain ⟨h1, h2⟩ := sep_runs Ty.render tyToks '>' (by decide) (by decide) (by decide) args hne h
  refine ⟨?_, h2⟩
  rw [String.toList_append]
  exact h1.toPiece

theorem code_lt : code "<" = [.sym '<'] := by decide +kernel

theorem ty_piece {t : Ty} (h : LegTy t) : Piece t.render.toList (tyToks t) ∧ noNL (tyToks t) := by
  induction h with
  | named id h =>
    rw [Ty.render, tyToks]
    exact ⟨piece_ident id (isIdent_spec h.1), noNL_word id⟩
  | app id args h hne _ ih =>
    obtain ⟨h1, h2⟩ := args_piece hne ih
    have hi := h.1
    refine piece_of [.w id, .k "<", .p (joinStr ", " (args.map Ty.render) ++ ">") (sepToks tyToks '>' args)] (by good) ?_ ?_
    · rw [Ty.render]
      segs_text []
    · rw [tyToks, tysToks_eq]
      segs_toks [code_lt]

/-- The next piece does not open angle brackets. -/
def NoArgs (r : List Tok) : Prop := r.head? ≠ some (.sym '<')

theorem noArgs_sym {c : Char} (h : c ≠ '<') (r : List Tok) : NoArgs (.sym c :: r) := by simp [NoArgs, h]

/-- A fixed text of one piece, two or three. -/
theorem tok1 {s : String} {t : Tok} (h : code s = [t]) (r : List Tok) : text s (t :: r) = some ((), r) :=
  text_ok' s h r
theorem tok2 {s : String} {t u : Tok} (h : code s = [t, u]) (r : List Tok) : text s (t :: u :: r) = some ((), r) :=
  text_ok' s h r
theorem tok3 {s : String} {t u v : Tok} (h : code s = [t, u, v]) (r : List Tok) : text s (t :: u :: v :: r) = some ((), r) :=
  text_ok' s h r

theorem tyToks_mem_length {args : List Ty} {a : Ty} (h : a ∈ args) :
    (tyToks a).length ≤ (sepToks tyToks '>' args).length := by
  induction args with
  | nil => simp at h
  | cons b bs ih =>
    cases bs with
    | nil =>
      simp only [List.mem_singleton] at h
      subst h
      rw [sepToks, List.length_append]; omega
    | cons c cs =>
      rw [sepToks, List.length_append, List.length_cons]
      rcases List.mem_cons.1 h with rfl | h
      · omega
      · have := ih h; omega

theorem ty_ok {t : Ty} (h : LegTy t) : ∀ (k : Nat) (r : List Tok), NoArgs r → (tyToks t).length ≤ k →
    ty k (tyToks t ++ r) = some (t, r) := by
  induction h with
  | named id h =>
    intro k r hr hk
    rw [tyToks] at hk ⊢
    match k, hk with
    | k + 1, _ => exact bind_ok (name_ok h r) (next_no hr rfl)
  | app id args h hne _ ih =>
    intro k r _ hk
    rw [tyToks, tysToks_eq] at hk ⊢
    match k, hk with
    | k + 1, hk =>
      simp only [List.length_cons] at hk
      refine bind_ok (name_ok h _) (next_yes (bind_ok (tok1 code_lt _) (bind_ok (sep_ok (by decide) tyToks r args hne ?_) rfl)))
      intro a ha c r hc
      refine ih a ha k _ (noArgs_sym (by rcases hc with rfl | rfl <;> decide) r) ?_
      have := tyToks_mem_length ha
      omega

theorem anyTy_ok {t : Ty} (h : LegTy t) {r : List Tok} (hr : NoArgs r) : anyTy (tyToks t ++ r) = some (t, r) :=
  ty_ok h _ r hr (by rw [List.length_append]; omega)

theorem args_ok {args : List Ty} (hne : args ≠ []) (h : ∀ a ∈ args, LegTy a) (r : List Tok) :
    sep anyTy '>' (sepToks tyToks '>' args ++ r) = some (args, r) :=
  sep_ok (by decide) tyToks r args hne (fun a ha c r hc => anyTy_ok (h a ha)
    (noArgs_sym (by rcases hc with rfl | rfl <;> decide) r))

/-! ### Values -/

theorem code_parens : code "()" = [.sym '(', .sym ')'] := by decide +kernel
theorem code_open : code "(" = [.sym '('] := by decide +kernel
theorem code_close : code ")" = [.sym ')'] := by decide +kernel
theorem code_comma : code "," = [.sym ','] := by decide +kernel
theorem code_eq : code "=" = [.sym '='] := by decide +kernel
theorem code_eq' : code " = " = [.sym '='] := by decide +kernel
theorem code_colon : code ":" = [.sym ':'] := by decide +kernel
theorem code_colon' : code ": " = [.sym ':'] := by decide +kernel
theorem code_super : code " : " = [.sym ':'] := by decide +kernel
theorem code_begin : code "{" = [.sym '{'] := by decide +kernel
theorem code_begin' : code " {" = [.sym '{'] := by decide +kernel
theorem code_end : code "}" = [.sym '}'] := by decide +kernel
theorem code_val : code "val" = [.word "val"] := by decide +kernel
theorem code_val' : code "val " = [.word "val"] := by decide +kernel
theorem code_class : code "class" = [.word "class"] := by decide +kernel
theorem code_class' : code "class " = [.word "class"] := by decide +kernel
theorem code_data : code "data" = [.word "data"] := by decide +kernel
theorem code_data' : code "data " = [.word "data"] := by decide +kernel
theorem code_object : code "object" = [.word "object"] := by decide +kernel
theorem code_object' : code "object " = [.word "object"] := by decide +kernel
theorem code_interface : code "sealed interface" = [.word "sealed", .word "interface"] := by decide +kernel
theorem code_interface' : code "sealed interface " = [.word "sealed", .word "interface"] := by decide +kernel
theorem code_create : code ".createDefault" = [.sym '.', .word "createDefault"] := by decide +kernel
theorem code_create' : code ".createDefault()" = [.sym '.', .word "createDefault", .sym '(', .sym ')'] := by decide +kernel
theorem code_createT : code ".createDefault<" = [.sym '.', .word "createDefault", .sym '<'] := by decide +kernel
theorem code_list : code "listOf()" = [.word "listOf", .sym '(', .sym ')'] := by decide +kernel
theorem code_fun : code "fun createDefault(): " = code "fun createDefault():" := by decide +kernel

/-- The literals that are read. -/
def literals : List String := ["0", "0L", "0U", "0UL", "0f", "0.0", "false", "\"\""]

def litToks (s : String) : List Tok := if s = "\"\"" then [.str ""] else [.word s]

theorem lit_piece {s : String} (h : s ∈ literals) : Piece s.toList (litToks s) ∧ noNL (litToks s) := by
  refine ⟨?_, by unfold litToks; split <;> (intro t ht; simp at ht; simp [ht])⟩
  simp only [literals, List.mem_cons, List.not_mem_nil, or_false] at h
  rcases h with rfl | rfl | rfl | rfl | rfl | rfl | rfl | rfl
  all_goals first
    | exact (show Runs .idle _ _ .idle by decide +kernel).toPiece
    | exact piece_wordlike true '0' _ (by decide) (by decide) (by decide)
    | exact piece_ident _ (isIdent_spec (by decide))

def exprToks : Expr → List Tok
  | .lit s => litToks s
  | .emptyList => [.word "listOf", .sym '(', .sym ')']
  | .create id => [.word id, .sym '.', .word "createDefault", .sym '(', .sym ')']
  | .createGeneric id args => .word id :: .sym '.' :: .word "createDefault" :: .sym '<' :: (sepToks tyToks '>' args ++ [.sym '(', .sym ')'])

def LegExpr : Expr → Prop
  | .lit s => s ∈ literals
  | .emptyList => True
  | .create id => KotlinId id
  | .createGeneric id args => KotlinId id ∧ args ≠ [] ∧ ∀ a ∈ args, LegTy a

theorem expr_piece {e : Expr} (h : LegExpr e) : Piece e.render.toList (exprToks e) ∧ noNL (exprToks e) := by
  cases e with
  | lit s => exact lit_piece h
  | emptyList => exact piece_of [.k "listOf()"] (by good) (by rw [Expr.render]; segs_text []) (by segs_toks [code_list, exprToks])
  | create id =>
    have := h.1
    exact piece_of [.w id, .k ".createDefault()"] (by good) (by rw [Expr.render]; segs_text []) (by segs_toks [code_create', exprToks])
  | createGeneric id args =>
    have := h.1.1
    obtain ⟨h1, h2⟩ := args_piece h.2.1 (fun a ha => ty_piece (h.2.2 a ha))
    exact piece_of [.w id, .k ".createDefault<", .p (joinStr ", " (args.map Ty.render) ++ ">") (sepToks tyToks '>' args), .k "()"]
      (by good) (by rw [Expr.render]; segs_text []) (by segs_toks [code_createT, code_parens, exprToks])

theorem expr_lit {s : String} (h : s ∈ literals) (r : List Tok) : literal (litToks s ++ r) = some (s, r) := by
  simp only [literals, List.mem_cons, List.not_mem_nil, or_false] at h
  rcases h with rfl | rfl | rfl | rfl | rfl | rfl | rfl | rfl <;> rfl

theorem expr_create {ts : List Tok} {w : String} (h : isIdent w = true) (ht : w ≠ "true") (hf : w ≠ "false") :
    expr (.word w :: ts) = creation (.word w :: ts) := by
  rw [expr, literal_name h ht hf]

theorem expr_ok {e : Expr} (h : LegExpr e) (r : List Tok) : expr (exprToks e ++ r) = some (e, r) := by
  cases e with
  | lit s => rw [exprToks, expr, expr_lit h]
  | emptyList =>
    simp only [exprToks, List.cons_append, List.nil_append]
    rw [expr_create (by decide) (by decide) (by decide)]
    exact second_no (by simp) <| bind_ok (tok3 code_list _) rfl
  | create id =>
    simp only [exprToks, List.cons_append, List.nil_append]
    rw [expr_create h.1 (h.ne (by decide)) (h.ne (by decide))]
    exact second_yes <| bind_ok (name_ok h _) <| bind_ok (tok2 code_create _) <| next_no (by simp) <|
      bind_ok (tok2 code_parens _) rfl
  | createGeneric id args =>
    simp only [exprToks, List.cons_append, List.nil_append, List.append_assoc]
    rw [expr_create h.1.1 (h.1.ne (by decide)) (h.1.ne (by decide))]
    exact second_yes <| bind_ok (name_ok h.1 _) <| bind_ok (tok2 code_create _) <| next_yes <|
      bind_ok (tok1 code_lt _) <| bind_ok (args_ok h.2.1 h.2.2 _) <| bind_ok (tok2 code_parens _) rfl

theorem expr_second {e : Expr} {r : List Tok} (h : LegExpr e) (hr : r.head? ≠ some (.sym '=')) :
    (exprToks e ++ r).tail.head? ≠ some (.sym '=') := by
  cases e with
  | lit s =>
    rw [exprToks, litToks]
    split <;> simpa using hr
  | _ => simp [exprToks]

theorem expr_first {e : Expr} (h : LegExpr e) : ∃ t ts, exprToks e = t :: ts ∧ t ≠ .sym ')' := by
  cases e with
  | lit s =>
    rw [exprToks, litToks]
    split <;> exact ⟨_, _, rfl, by simp⟩
  | _ => exact ⟨_, _, rfl, by simp⟩

def argSegs : Option String × Expr → List Seg
  | (some n, e) => [.w n, .k " = ", .p e.render (exprToks e), .k ","]
  | (none, e) => [.p e.render (exprToks e), .k ","]

def LegArg (a : Option String × Expr) : Prop := (∀ n ∈ a.1, KotlinId n) ∧ LegExpr a.2

theorem arg_text (a : Option String × Expr) : segsText (argSegs a) = renderArg a := by
  obtain ⟨n, e⟩ := a
  cases n with
  | none => rw [argSegs, renderArg]; segs_text []
  | some n => rw [argSegs, renderArg]; segs_text []

theorem arg_good {a : Option String × Expr} (h : LegArg a) : Good (argSegs a) := by
  obtain ⟨n, e⟩ := a
  obtain ⟨h1, h2⟩ := expr_piece h.2
  cases n with
  | none => rw [argSegs]; good
  | some n =>
    have := (h.1 n rfl).1
    rw [argSegs]; good

def argToks (a : Option String × Expr) : List Tok := segsToks (argSegs a) ++ [.sym '\n']

theorem arg_ok {a : Option String × Expr} (h : LegArg a) (r : List Tok) : arg (argToks a ++ r) = some (a, r) := by
  obtain ⟨n, e⟩ := a
  cases n with
  | none =>
    unfold argToks
    segs_toks [argSegs, code_comma]
    exact second_no (expr_second h.2 (by simp)) <| bind_ok (expr_ok h.2 _) <| bind_ok (tok1 code_comma _) <|
      bind_ok (endLine_ok _) rfl
  | some n =>
    unfold argToks
    segs_toks [argSegs, code_comma, code_eq']
    exact second_yes <| bind_ok (name_ok (h.1 n rfl) _) <| bind_ok (tok1 code_eq _) <| bind_ok (expr_ok h.2 _) <|
      bind_ok (tok1 code_comma _) <| bind_ok (endLine_ok _) rfl

theorem arg_first {a : Option String × Expr} (h : LegArg a) : ∃ t ts, argToks a = t :: ts ∧ t ≠ .sym ')' := by
  obtain ⟨n, e⟩ := a
  cases n with
  | none =>
    obtain ⟨t, ts, ht, hne⟩ := expr_first h.2
    unfold argToks
    segs_toks [argSegs, ht]
    exact ⟨_, _, rfl, hne⟩
  | some n =>
    unfold argToks
    segs_toks [argSegs]
    exact ⟨_, _, rfl, by simp⟩

def newBlock (t : Nat) (head : List Seg) : New → Block
  | .object id => [(t, head ++ [.w id])]
  | .call id [] => [(t, head ++ [.w id, .k "()"])]
  | .call id (a :: as) => [(t, head ++ [.w id, .k "("])] ++ (a :: as).map (fun a => (t + 1, argSegs a)) ++ [(t, [.k ")"])]

def newToks : New → List Tok
  | .object id => [.word id]
  | .call id [] => [.word id, .sym '(', .sym ')']
  | .call id (a :: as) => .word id :: .sym '(' :: .sym '\n' :: ((a :: as).flatMap argToks ++ [.sym ')'])

def LegNew : New → Prop
  | .object id => KotlinId id
  | .call id as => KotlinId id ∧ ∀ a ∈ as, LegArg a

theorem new_lines (t : Nat) (head : List Seg) (v : New) : blockLines (newBlock t head v) = v.render t (segsText head) := by
  match v with
  | .object id => simp [newBlock, New.render, blockLines, segsText_append, segsText, Seg.text]
  | .call id [] => simp [newBlock, New.render, blockLines, segsText_append, segsText, Seg.text, String.append_assoc]
  | .call id (a :: as) =>
    simp [newBlock, New.render, blockLines, segsText_append, segsText, Seg.text, arg_text, Function.comp_def, String.append_assoc]

theorem new_toks (t : Nat) (head : List Seg) (v : New) :
    lineToks (newBlock t head v) = segsToks head ++ (newToks v ++ [.sym '\n']) := by
  match v with
  | .object id => simp only [newBlock, lineToks_cons, lineToks_nil]; segs_toks [newToks]
  | .call id [] => simp only [newBlock, lineToks_cons, lineToks_nil]; segs_toks [newToks, code_parens]
  | .call id (a :: as) =>
    simp only [newBlock, lineToks_append, lineToks_cons, lineToks_nil, lineToks_map]
    segs_toks [newToks, code_open, code_close]
    rfl

theorem new_good (t : Nat) {head : List Seg} (hh : Good head) (hc : closed head = true) {v : New} (h : LegNew v) :
    GoodBlock (newBlock t head v) := by
  match v, h with
  | .object id, h =>
    have := h.1
    exact .cons (hh.append hc (by good)) .nil
  | .call id [], h =>
    have := h.1.1
    exact .cons (hh.append hc (by good)) .nil
  | .call id (a :: as), h =>
    have := h.1.1
    exact .append (.append (.cons (hh.append hc (by good)) .nil) (.map (fun b hb => arg_good (h.2 b hb)))) (.cons (by good) .nil)

theorem new_ok {v : New} (h : LegNew v) (r : List Tok) (hr : r.head? ≠ some (.sym '(')) : new (newToks v ++ r) = some (v, r) := by
  match v, h with
  | .object id, h => exact bind_ok (name_ok h _) <| next_no hr rfl
  | .call id [], h =>
    simp only [newToks, List.cons_append, List.nil_append]
    exact bind_ok (name_ok h.1 _) <| next_yes <| bind_ok (tok1 code_open _) <| bind_ok (mayEndLine_no (by simp)) <|
      bind_ok (until_ok argToks r [] (by simp) (by simp)) rfl
  | .call id (a :: as), h =>
    simp only [newToks, List.cons_append, List.nil_append, List.append_assoc]
    exact bind_ok (name_ok h.1 _) <| next_yes <| bind_ok (tok1 code_open _) <| bind_ok (mayEndLine_yes _) <|
      bind_ok (until_ok argToks r (a :: as) (fun b hb => arg_ok (h.2 b hb)) (fun b hb => arg_first (h.2 b hb))) rfl

/-! ### Declarations -/

def funSegs (t : String) : List Seg := [.k "fun createDefault(): ", .w t, .k " = "]

def compBlock (c : Companion) : Block :=
  [(1, [.k "companion object {"])] ++ newBlock 2 (funSegs c.type) c.value ++ [(1, [.k "}"])]

def LegComp (c : Companion) : Prop := KotlinId c.type ∧ LegNew c.value

theorem comp_lines (c : Companion) : blockLines (compBlock c) = c.render := by
  have : segsText (funSegs c.type) = "fun createDefault(): " ++ c.type ++ " = " := by unfold funSegs; segs_text []
  rw [compBlock, blockLines_append, blockLines_append, new_lines, this]
  simp [Companion.render, blockLines, segsText, Seg.text]

theorem comp_good {c : Companion} (h : LegComp c) : GoodBlock (compBlock c) := by
  have := h.1.1
  exact .append (.append (.cons (by good) .nil) (new_good 2 (by unfold funSegs; good) rfl h.2)) (.cons (by good) .nil)

theorem comp_ok {c : Companion} (h : LegComp c) (r : List Tok) : companion (lineToks (compBlock c) ++ r) = some (c, r) := by
  simp only [compBlock, lineToks_append, lineToks_cons, lineToks_nil, new_toks]
  unfold funSegs
  segs_toks [code_fun, code_eq', code_end]
  exact bind_ok (text_ok _ _) <| bind_ok (endLine_ok _) <| bind_ok (text_ok _ _) <| bind_ok (name_ok h.1 _) <|
    bind_ok (tok1 code_eq _) <| bind_ok (new_ok h.2 _ (by simp)) <| bind_ok (endLine_ok _) <| bind_ok (tok1 code_end _) <|
    bind_ok (endLine_ok _) rfl

theorem body_ok {c : Companion} (h : LegComp c) (r : List Tok) :
    body (.sym '{' :: .sym '\n' :: (lineToks (compBlock c) ++ .sym '}' :: r)) = some (c, r) :=
  bind_ok (tok1 code_begin _) <| bind_ok (endLine_ok _) <| bind_ok (comp_ok h _) <| bind_ok (tok1 code_end _) rfl

theorem ifNext_yes {α : Type} {c : Char} {p : P α} {a : α} {r r' : List Tok} (h : p (.sym c :: r) = some (a, r')) :
    ifNext c p (.sym c :: r) = some (some a, r') := next_yes (bind_ok h rfl)

theorem ifNext_no {α : Type} {c : Char} {p : P α} {r : List Tok} (h : r.head? ≠ some (.sym c)) :
    ifNext c p r = some (none, r) := next_no h rfl

/-- The end of a head and a body. -/
def restBlock (head : List Seg) : Option Companion → Block
  | none => [(0, head)]
  | some c => [(0, head ++ [.k " {"])] ++ compBlock c ++ [(0, [.k "}"])]

def superSegs : Option String → List Seg
  | none => []
  | some s => [.k " : ", .w s]

def superToks : Option String → List Tok
  | none => []
  | some s => [.sym ':', .word s]

def bodyToks : Option Companion → List Tok
  | none => []
  | some c => .sym '{' :: .sym '\n' :: (lineToks (compBlock c) ++ [.sym '}'])

theorem rest_lines (head : List Seg) (c : Option Companion) : blockLines (restBlock head c) = renderBody (segsText head) c := by
  cases c with
  | none => rfl
  | some c =>
    rw [restBlock, renderBody, blockLines_append, blockLines_append, comp_lines, blockLines_cons, blockLines_nil, segsText_append]
    simp [blockLines, segsText, Seg.text]

theorem rest_toks (head : List Seg) (c : Option Companion) :
    lineToks (restBlock head c) = segsToks head ++ (bodyToks c ++ [.sym '\n']) := by
  cases c with
  | none => simp only [restBlock, lineToks_cons, lineToks_nil]; segs_toks [bodyToks]
  | some c =>
    simp only [restBlock, lineToks_append, lineToks_cons, lineToks_nil]
    segs_toks [bodyToks, code_begin', code_end]

theorem super_text (s : Option String) : segsText (superSegs s) = renderSuper s := by
  cases s <;> (rw [superSegs, renderSuper]; segs_text [])

theorem super_toks (s : Option String) : segsToks (superSegs s) = superToks s := by
  cases s <;> segs_toks [superSegs, superToks, code_super]

/-- A head that ends in a fixed text, a supertype and a body. -/
theorem rest_good {head : List Seg} (hh : Good head) (hc : closed head = true) {s : Option String} {c : Option Companion}
    (hs : ∀ i ∈ s, KotlinId i) (h : ∀ d ∈ c, LegComp d) : GoodBlock (restBlock (head ++ superSegs s) c) := by
  cases c with
  | none =>
    refine .cons (hh.append hc ?_) .nil
    cases s with
    | none => exact trivial
    | some s =>
      have := (hs s rfl).1
      rw [superSegs]; good
  | some c =>
    refine .append (.append (.cons ?_ .nil) (comp_good (h c rfl))) (.cons (by good) .nil)
    rw [List.append_assoc]
    refine hh.append hc ?_
    cases s with
    | none => rw [superSegs]; good
    | some s =>
      have := (hs s rfl).1
      rw [superSegs]; good

theorem rest_ok {s : Option String} {c : Option Companion} (hs : ∀ i ∈ s, KotlinId i) (h : ∀ d ∈ c, LegComp d)
    {β : Type} {k : Option String → Option Companion → P β} {r : List Tok} {y : Option (β × List Tok)} (hk : k s c (.sym '\n' :: r) = y) :
    (do
      let s ← ifNext ':' (do text ":"; name)
      let c ← ifNext '{' body
      k s c) (superToks s ++ (bodyToks c ++ Tok.sym '\n' :: r)) = y := by
  have h2 : ifNext '{' body (bodyToks c ++ .sym '\n' :: r) = some (c, Tok.sym '\n' :: r) := by
    cases c with
    | none => exact ifNext_no (by simp [bodyToks])
    | some c =>
      simp only [bodyToks, List.cons_append, List.append_assoc, List.nil_append]
      exact ifNext_yes (body_ok (h c rfl) _)
  cases s with
  | none =>
    refine bind_ok (ifNext_no ?_) <| bind_ok h2 hk
    cases c <;> simp [bodyToks, superToks]
  | some s => exact bind_ok (ifNext_yes (bind_ok (tok1 code_colon _) (name_ok (hs s rfl) _))) <| bind_ok h2 hk

def paramSegs (p : String × Ty) : List Seg := [.k "val ", .w p.1, .k ": ", .p p.2.render (tyToks p.2), .k ","]

def paramToks (p : String × Ty) : List Tok := segsToks (paramSegs p) ++ [.sym '\n']

theorem param_ok {p : String × Ty} (h : KotlinId p.1 ∧ LegTy p.2) (r : List Tok) : param (paramToks p ++ r) = some (p, r) := by
  unfold paramToks paramSegs
  segs_toks [code_val', code_colon', code_comma]
  exact bind_ok (tok1 code_val _) <| bind_ok (name_ok h.1 _) <| bind_ok (tok1 code_colon _) <|
    bind_ok (anyTy_ok h.2 (noArgs_sym (by decide) _)) <| bind_ok (tok1 code_comma _) <| bind_ok (endLine_ok _) rfl

theorem param_first (p : String × Ty) : ∃ t ts, paramToks p = t :: ts ∧ t ≠ .sym ')' := by
  unfold paramToks paramSegs
  segs_toks [code_val']
  exact ⟨_, _, rfl, by simp⟩

def dataSegs (isData : Bool) : List Seg := if isData then [.k "data "] else []

def itemBlock : Item → Block
  | .interface id c => restBlock [.k "sealed interface ", .w id] (some c)
  | .object id s => [(0, [.k "object ", .w id, .k " : ", .w s])]
  | .cls id isData [] s c => restBlock ((dataSegs isData ++ [.k "class ", .w id, .k "()"]) ++ superSegs s) c
  | .cls id isData (p :: ps) s c => [(0, dataSegs isData ++ [.k "class ", .w id, .k "("])]
      ++ (p :: ps).map (fun p => (1, paramSegs p)) ++ restBlock ([.k ")"] ++ superSegs s) c

def LegItem : Item → Prop
  | .interface id c => KotlinId id ∧ LegComp c
  | .object id s => KotlinId id ∧ KotlinId s
  | .cls id _ ps s c => KotlinId id ∧ (∀ p ∈ ps, KotlinId p.1 ∧ LegTy p.2) ∧ (∀ i ∈ s, KotlinId i) ∧ ∀ d ∈ c, LegComp d

theorem data_text (b : Bool) : segsText (dataSegs b) = if b then "data " else "" := by
  cases b <;> (unfold dataSegs; segs_text [])

theorem item_lines (i : Item) : blockLines (itemBlock i) = i.render := by
  match i with
  | .interface id c =>
    rw [itemBlock, rest_lines, renderBody, Item.render]
    simp [segsText, Seg.text, String.append_assoc]
  | .object id s => rw [itemBlock, Item.render]; simp [blockLines, segsText, Seg.text, String.append_assoc]
  | .cls id b [] s c =>
    rw [itemBlock, rest_lines, Item.render]
    congr 1
    rw [segsText_append, segsText_append, data_text, super_text]
    simp [segsText, Seg.text, String.append_assoc]
  | .cls id b (p :: ps) s c =>
    rw [itemBlock, blockLines_append, rest_lines, Item.render]
    · congr 1
      · simp [blockLines, segsText_append, data_text, segsText, Seg.text, paramSegs, Function.comp_def, String.append_assoc]
      · congr 1
        rw [segsText_append, super_text]
        simp [segsText, Seg.text]
    · simp

theorem data_closed (b : Bool) {ss : List Seg} (h : closed ss = true) (hne : ss ≠ []) : closed (dataSegs b ++ ss) = true :=
  closed_append h hne

theorem data_good (b : Bool) {ss : List Seg} (h : Good ss) : Good (dataSegs b ++ ss) := by
  cases b with
  | false => exact h
  | true => exact ⟨by decide +kernel, h⟩

theorem item_good {i : Item} (h : LegItem i) : GoodBlock (itemBlock i) := by
  match i, h with
  | .interface id c, h =>
    have := h.1.1
    exact .append (.append (.cons (by good) .nil) (comp_good h.2)) (.cons (by good) .nil)
  | .object id s, h =>
    have := h.1.1
    have := h.2.1
    exact .cons (by good) .nil
  | .cls id b [] s c, h =>
    have := h.1.1
    exact rest_good (data_good b (by good)) (data_closed b rfl (by simp)) h.2.2.1 h.2.2.2
  | .cls id b (p :: ps) s c, h =>
    have := h.1.1
    refine .append (.append (.cons (data_good b (by good)) .nil) (.map (fun q hq => ?_))) (rest_good (by good) rfl h.2.2.1 h.2.2.2)
    obtain ⟨h1, h2⟩ := h.2.1 q hq
    obtain ⟨h3, h4⟩ := ty_piece h2
    have := h1.1
    unfold paramSegs
    good

def paramsToks : List (String × Ty) → List Tok
  | [] => [.sym '(', .sym ')']
  | p :: ps => .sym '(' :: .sym '\n' :: ((p :: ps).flatMap paramToks ++ [.sym ')'])

theorem cls_ok {id : String} {b : Bool} {ps : List (String × Ty)} {s : Option String} {c : Option Companion}
    (h : LegItem (.cls id b ps s c)) (r : List Tok) :
    cls b (segsToks [.k "class ", .w id] ++ paramsToks ps ++
        (superToks s ++ (bodyToks c ++ .sym '\n' :: r))) = some (.cls id b ps s c, r) := by
  obtain ⟨h1, h2, h3, h4⟩ := h
  cases ps with
  | nil =>
    segs_toks [code_class', paramsToks]
    exact bind_ok (tok1 code_class _) <| bind_ok (name_ok h1 _) <| bind_ok (tok1 code_open _) <| bind_ok (mayEndLine_no (by simp)) <|
      bind_ok (until_ok paramToks _ [] (by simp) (by simp)) <| rest_ok h3 h4 <| bind_ok (endLine_ok _) rfl
  | cons p ps =>
    segs_toks [code_class', paramsToks]
    exact bind_ok (tok1 code_class _) <| bind_ok (name_ok h1 _) <| bind_ok (tok1 code_open _) <| bind_ok (mayEndLine_yes _) <|
      bind_ok (until_ok paramToks _ (p :: ps) (fun q hq => param_ok (h2 q hq)) (fun q _ => param_first q)) <|
      rest_ok h3 h4 <| bind_ok (endLine_ok _) rfl

theorem item_cls {id : String} {b : Bool} {ps : List (String × Ty)} {s : Option String} {c : Option Companion}
    (r : List Tok) : lineToks (itemBlock (.cls id b ps s c)) ++ r = segsToks (dataSegs b) ++ (segsToks [.k "class ", .w id] ++ paramsToks ps ++
        (superToks s ++ (bodyToks c ++ .sym '\n' :: r))) := by
  cases ps with
  | nil =>
    rw [itemBlock, rest_toks]
    segs_toks [code_parens, super_toks, paramsToks]
  | cons p ps =>
    rw [itemBlock, lineToks_append, lineToks_append, rest_toks, lineToks_map, lineToks_cons, lineToks_nil]
    segs_toks [code_open, code_close, super_toks, paramsToks]
    rfl

theorem item_ok {i : Item} (h : LegItem i) (r : List Tok) : item (lineToks (itemBlock i) ++ r) = some (i, r) := by
  match i, h with
  | .interface id c, h =>
    rw [itemBlock, rest_toks]
    segs_toks [code_interface', bodyToks]
    exact next_yes <| bind_ok (tok2 code_interface _) <| bind_ok (name_ok h.1 _) <| bind_ok (body_ok h.2 _) <|
      bind_ok (endLine_ok _) rfl
  | .object id s, h =>
    rw [itemBlock, lineToks_cons, lineToks_nil]
    segs_toks [code_object', code_super]
    exact next_no (by simp) <| next_yes <| bind_ok (tok1 code_object _) <| bind_ok (name_ok h.1 _) <|
      bind_ok (tok1 code_colon _) <| bind_ok (name_ok h.2 _) <| bind_ok (endLine_ok _) rfl
  | .cls id b ps s c, h =>
    rw [item_cls]
    cases b with
    | true =>
      have e : segsToks (dataSegs true) = [.word "data"] := by unfold dataSegs; segs_toks [code_data', if_true]
      rw [e]
      exact next_no (by simp) <| next_no (by simp) <| next_yes <| bind_ok (tok1 code_data _) (cls_ok h r)
    | false =>
      have e : segsToks (dataSegs false) = [] := by unfold dataSegs; rfl
      rw [e]
      refine next_no ?_ <| next_no ?_ <| next_no ?_ (cls_ok h r)
      all_goals (segs_toks [code_class']; simp)

theorem item_first (i : Item) : ∃ t ts, lineToks (itemBlock i) = t :: ts ∧ t ≠ .sym '\n' := by
  match i with
  | .interface id c => rw [itemBlock, rest_toks]; segs_toks [code_interface']; exact ⟨_, _, rfl, by simp⟩
  | .object id s => rw [itemBlock, lineToks_cons]; segs_toks [code_object']; exact ⟨_, _, rfl, by simp⟩
  | .cls id b ps s c =>
    have := item_cls (id := id) (b := b) (ps := ps) (s := s) (c := c) []
    rw [List.append_nil] at this
    rw [this]
    cases b
    · unfold dataSegs; segs_toks [code_class']; exact ⟨_, _, rfl, by simp⟩
    · unfold dataSegs; segs_toks [code_data', if_true]; exact ⟨_, _, rfl, by simp⟩

/-- Declarations and the empty lines between them. -/
def withBlanks : List Item → List (Option Item)
  | [] => []
  | [i] => [some i]
  | i :: j :: is => some i :: ((if i.isInterface && j.isInterface then [] else [none]) ++ withBlanks (j :: is))

theorem withBlanks_items (is : List Item) : (withBlanks is).filterMap id = is := by
  induction is with
  | nil => rfl
  | cons i is ih =>
    cases is with
    | nil => rfl
    | cons j js =>
      rw [withBlanks]
      split <;> simpa using ih

theorem withBlanks_mem {is : List Item} {i : Item} (h : some i ∈ withBlanks is) : i ∈ is := by
  rw [← withBlanks_items is]
  exact List.mem_filterMap.2 ⟨_, h, rfl⟩

def blankBlock : Option Item → Block
  | none => [(0, [])]
  | some i => itemBlock i

theorem items_lines (is : List Item) : blockLines ((withBlanks is).flatMap blankBlock) = renderItems is := by
  induction is with
  | nil => rfl
  | cons i is ih =>
    cases is with
    | nil => simp [withBlanks, renderItems, blankBlock, item_lines]
    | cons j js =>
      rw [withBlanks, renderItems, List.flatMap_cons, List.flatMap_append, blockLines_append, blockLines_append, ih, blankBlock,
        item_lines, List.append_assoc]
      split <;> simp [blankBlock, blockLines, segsText]

theorem readModels_ok {is : List Item} (h : ∀ i ∈ is, LegItem i) (u : Nat) :
    readModels (linesText u (renderItems is)) = some is := by
  have hg : GoodBlock ((withBlanks is).flatMap blankBlock) := by
    refine .flatMap (fun o ho => ?_)
    cases o with
    | none => exact .cons trivial .nil
    | some i => exact item_good (h i (withBlanks_mem ho))
  have hp := scan_lines u hg
  rw [items_lines, lineToks_flatMap] at hp
  have := wholeLines_ok (item := item) (fun i => lineToks (itemBlock i)) (withBlanks is) (hp.trans (congrArg some ?_))
    (fun i hi r => item_ok (h i (withBlanks_mem hi)) r) (fun i _ => item_first i)
  · rw [withBlanks_items] at this; exact this
  · congr 1
    funext o
    cases o <;> simp [blankBlock, blankToks, lineToks, segsToks]

end TPB.Spec.KotlinReader
