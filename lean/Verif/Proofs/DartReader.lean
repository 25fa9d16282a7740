/- The reader of `Spec/DartReader.lean` finds the types, expressions and statements whose text it is given. -/
import Verif.Spec.DartReader
import Verif.Proofs.Blocks
namespace TPB.Spec.DartReader
open Dart Pieces Combinators DartRules

/-- The text of parts. -/
macro "txt" "[" ls:Lean.Parser.Tactic.simpLemma,* "]" : tactic =>
  `(tactic| (apply String.toList_inj.1; simp [segsText, Seg.text, segsText_append, $ls,*]))

theorem name_ok {n : String} (h : DartName n) (r : List Tok) : name (.word n :: r) = some (n, r) := by
  rw [name, if_pos ⟨h.1, h.2⟩]

theorem name_sym (c : Char) (r : List Tok) : name (.sym c :: r) = none := rfl

theorem name_reserved {w : String} (h : w ∈ dartReserved) (r : List Tok) : name (.word w :: r) = none := by
  rw [name, if_neg (fun hh => hh.2 h)]

theorem DartName.ne {n w : String} (h : DartName n) (hw : w ∈ dartReserved) : n ≠ w := by
  rintro rfl; exact h.2 hw

/-! ### Types -/

mutual
def tyToks : Ty → List Tok
  | .named id => [.word id]
  | .app id args => .word id :: .sym '<' :: tysToks args
/-- With the closing bracket. -/
def tysToks : List Ty → List Tok
  | [] => []
  | t :: ts => tyToks t ++ tysTail ts
def tysTail : List Ty → List Tok
  | [] => [.sym '>']
  | t :: ts => .sym ',' :: (tyToks t ++ tysTail ts)
end

theorem tysToks_eq : ∀ ts : List Ty, tysToks ts = sepToks tyToks '>' ts
  | [] => by rw [tysToks, sepToks]
  | [t] => by rw [tysToks, tysTail, sepToks]
  | t :: u :: us => by
    rw [tysToks, tysTail, sepToks, ← tysToks_eq (u :: us), tysToks]

/-- All names can be names in Dart, and angle brackets are not empty. -/
inductive LegTy : Ty → Prop
  | named (id : String) : DartName id → LegTy (.named id)
  | app (id : String) (args : List Ty) : DartName id → args ≠ [] → (∀ a ∈ args, LegTy a) → LegTy (.app id args)

theorem args_piece {args : List Ty} (hne : args ≠ []) (h : ∀ a ∈ args, Piece a.render.toList (tyToks a) ∧ noNL (tyToks a)) :
    Piece (joinStr ", " (args.map Ty.render) ++ ">").toList (sepToks tyToks '>' args) ∧ noNL (sepToks tyToks '>' args) := by
  obtain ⟨h1, h2⟩ := sep_runs Ty.render tyToks '>' (by decide) (by decide) (by decide) args hne h
  refine ⟨?_, h2⟩
  rw [String.toList_append]
  exact h1.toPiece

theorem ty_piece {t : Ty} (h : LegTy t) : Piece t.render.toList (tyToks t) ∧ noNL (tyToks t) := by
  induction h with
  | named id h =>
    rw [Ty.render, tyToks]
    exact ⟨piece_ident id (isIdent_spec h.1), noNL_word id⟩
  | app id args h hne _ ih =>
    obtain ⟨h1, h2⟩ := args_piece hne ih
    have hi := h.1
    refine piece_of [.w id, .k "<", .p (joinStr ", " (args.map Ty.render) ++ ">") (sepToks tyToks '>' args)] (by good) ?_ ?_
    · rw [Ty.render, renderTys_eq]
      txt []
    · rw [tyToks, tysToks_eq]
      simp only [segsToks, Seg.toks, List.append_nil, List.singleton_append, List.cons.injEq, true_and]
      rw [show code "<" = [.sym '<'] by decide +kernel, List.singleton_append]

/-- The next piece does not open angle brackets. -/
def NoArgs (r : List Tok) : Prop := r.head? ≠ some (.sym '<')

theorem noArgs_word (w : String) (r : List Tok) : NoArgs (.word w :: r) := by simp [NoArgs]
theorem noArgs_sym {c : Char} (h : c ≠ '<') (r : List Tok) : NoArgs (.sym c :: r) := by simp [NoArgs, h]

theorem lt_ok (r : List Tok) : text "<" (.sym '<' :: r) = some ((), r) := by
  have := text_ok' "<" (us := [.sym '<']) (by decide +kernel) r
  simpa using this

theorem tyToks_mem_length {args : List Ty} {a : Ty} (h : a ∈ args) :
    (tyToks a).length ≤ (sepToks tyToks '>' args).length := by
  induction args with
  | nil => simp at h
  | cons b bs ih =>
    cases bs with
    | nil =>
      simp only [List.mem_singleton] at h
      subst h
      rw [sepToks, List.length_append]; omega
    | cons c cs =>
      rw [sepToks, List.length_append, List.length_cons]
      rcases List.mem_cons.1 h with rfl | h
      · omega
      · have := ih h; omega

theorem ty_ok {t : Ty} (h : LegTy t) : ∀ (k : Nat) (r : List Tok), NoArgs r → (tyToks t).length ≤ k →
    ty k (tyToks t ++ r) = some (t, r) := by
  induction h with
  | named id h =>
    intro k r hr hk
    rw [tyToks] at hk ⊢
    match k, hk with
    | k + 1, _ => exact bind_ok (name_ok h r) (next_no hr rfl)
  | app id args h hne _ ih =>
    intro k r _ hk
    rw [tyToks, tysToks_eq] at hk ⊢
    match k, hk with
    | k + 1, hk =>
      simp only [List.length_cons] at hk
      refine bind_ok (name_ok h _) (next_yes (bind_ok (lt_ok _) (bind_ok (sep_ok (by decide) tyToks r args hne ?_) rfl)))
      intro a ha c r hc
      refine ih a ha k _ (noArgs_sym (by rcases hc with rfl | rfl <;> decide) r) ?_
      have := tyToks_mem_length ha
      omega

theorem anyTy_ok {t : Ty} (h : LegTy t) {r : List Tok} (hr : NoArgs r) : anyTy (tyToks t ++ r) = some (t, r) :=
  ty_ok h _ r hr (by rw [List.length_append]; omega)

theorem args_ok {args : List Ty} (hne : args ≠ []) (h : ∀ a ∈ args, LegTy a) (r : List Tok) :
    sep anyTy '>' (sepToks tyToks '>' args ++ r) = some (args, r) :=
  sep_ok (by decide) tyToks r args hne (fun a ha c r hc => anyTy_ok (h a ha)
    (noArgs_sym (by rcases hc with rfl | rfl <;> decide) r))

theorem tyToks_first (t : Ty) : ∃ w q, tyToks t = .word w :: q := by
  cases t <;> rw [tyToks] <;> exact ⟨_, _, rfl⟩

/-! ### Codecs -/

theorem codecName_ok (k : Kind) (b : String) : codecName (b ++ k.suffix) = some (k, b) := by
  cases k with
  | into => rw [codecName, Kind.suffix, dropEnd_ok]
  | emplace =>
    rw [codecName, Kind.suffix, dropEnd_none "IntoBuffers" b "EmplaceToBuffers" (fun _ => rfl), dropEnd_ok]
    rfl

theorem tail_suffix (k : Kind) : Tail k.suffix := by cases k <;> (unfold Tail Kind.suffix; decide +kernel)

def LegCodec : Codec → Prop
  | .plain _ b => isIdent b = true
  | .generic _ b args => isIdent b = true ∧ args ≠ [] ∧ ∀ a ∈ args, LegTy a
  | .list _ a e => LegTy a ∧ isIdent e = true

def codecSegs : Codec → List Seg
  | .plain k b => [.k "const ", .w (b ++ k.suffix), .k "()"]
  | .generic k b args => [.k "const ", .w (b ++ k.suffix), .k "<",
      .p (joinStr ", " (args.map Ty.render) ++ ">") (sepToks tyToks '>' args), .k "()"]
  | .list k a e => [.k "const ", .w ("List" ++ k.suffix), .k "<",
      .p (joinStr ", " ([a].map Ty.render) ++ ">") (sepToks tyToks '>' [a]), .k "(const ", .w (e ++ "IntoBuffers"), .k "())"]

theorem codec_text (c : Codec) : segsText (codecSegs c) = c.render := by
  cases c with
  | plain k b => rw [codecSegs, Codec.render]; txt []
  | generic k b args => rw [codecSegs, Codec.render]; txt []
  | list k a e => rw [codecSegs, Codec.render]; txt [joinStr]

theorem codec_good {c : Codec} (h : LegCodec c) : Good (codecSegs c) := by
  cases c with
  | plain k b =>
    have := ident_append h (tail_suffix k)
    rw [codecSegs]; good
  | generic k b args =>
    have := ident_append h.1 (tail_suffix k)
    obtain ⟨h1, h2⟩ := args_piece h.2.1 (fun a ha => ty_piece (h.2.2 a ha))
    rw [codecSegs]; good
  | list k a e =>
    have := ident_append (start := "List") (by decide) (tail_suffix k)
    have := ident_append h.2 (tail_suffix .into)
    rw [Kind.suffix] at this
    obtain ⟨h1, h2⟩ := args_piece (args := [a]) (by simp) (fun b hb => by
      rw [List.mem_singleton] at hb; subst hb; exact ty_piece h.1)
    rw [codecSegs]; good

theorem codec_closed (c : Codec) : closed (codecSegs c) = true := by cases c <;> rfl

theorem code_parens : code "()" = [.sym '(', .sym ')'] := by decide +kernel
theorem code_lt : code "<" = [.sym '<'] := by decide +kernel
theorem code_constP : code "(const " = [.sym '(', .word "const"] := by decide +kernel
theorem code_open : code "(" = [.sym '('] := by decide +kernel
theorem code_close : code ")" = [.sym ')'] := by decide +kernel
theorem code_const : code "const" = [.word "const"] := by decide +kernel
theorem code_const' : code "const " = [.word "const"] := by decide +kernel

/-- A fixed text of one piece, or two. -/
theorem tok1 {s : String} {t : Tok} (h : code s = [t]) (r : List Tok) : text s (t :: r) = some ((), r) :=
  text_ok' s h r
theorem tok2 {s : String} {t u : Tok} (h : code s = [t, u]) (r : List Tok) : text s (t :: u :: r) = some ((), r) :=
  text_ok' s h r

/-- Pieces of parts in normal form. -/
macro "toks" "[" ls:Lean.Parser.Tactic.simpLemma,* "]" : tactic =>
  `(tactic| simp only [segsToks_append, segsToks, Seg.toks, List.append_assoc, List.cons_append, List.nil_append,
      List.append_nil, $ls,*])

theorem codec_ok {c : Codec} (h : LegCodec c) (r : List Tok) : codec (segsToks (codecSegs c) ++ r) = some (c, r) := by
  cases c with
  | plain k b =>
    toks [codecSegs, code_const', code_parens]
    exact bind_ok (tok1 code_const _) <| bind_ok (word_ok _ _) <| bind_ok (some!_ok (codecName_ok k b) _) <|
      next_yes <| bind_ok (tok2 code_parens _) rfl
  | generic k b args =>
    toks [codecSegs, code_const', code_parens, code_lt]
    exact bind_ok (tok1 code_const _) <| bind_ok (word_ok _ _) <| bind_ok (some!_ok (codecName_ok k b) _) <|
      next_no (by simp) <| bind_ok (tok1 code_lt _) <| bind_ok (args_ok h.2.1 h.2.2 _) <| bind_ok (tok1 code_open _) <|
      next_yes <| bind_ok (tok1 code_close _) rfl
  | list k a e =>
    toks [codecSegs, code_const', code_constP, code_lt]
    have hl : ∀ x ∈ [a], LegTy x := by intro x hx; rw [List.mem_singleton] at hx; subst hx; exact h.1
    exact bind_ok (tok1 code_const _) <| bind_ok (word_ok _ _) <| bind_ok (some!_ok (codecName_ok k "List") _) <|
      next_no (by simp) <| bind_ok (tok1 code_lt _) <| bind_ok (args_ok (by simp) hl _) <| bind_ok (tok1 code_open _) <|
      next_no (by simp) <| bind_ok (tok1 code_const _) <| bind_ok (word_ok _ _) <|
      bind_ok (some!_ok (dropEnd_ok "IntoBuffers" e) _) <| bind_ok (text_ok _ _) <| bind_ok (fits_ok (by simp) _) rfl

theorem codec_first (c : Codec) : ∃ q, segsToks (codecSegs c) = .word "const" :: q := by
  cases c <;> (toks [codecSegs, code_const']; exact ⟨_, rfl⟩)

/-! ### Expressions and statements -/

def readSegs : ReadE → List Seg
  | .prim m => [.k "reader.", .w ("read" ++ m), .k "()"]
  | .codec c => codecSegs c ++ [.k ".read(reader)"]

def LegRead : ReadE → Prop
  | .prim m => Tail m
  | .codec c => LegCodec c

theorem readPrim_render (m : String) : (ReadE.prim m).render = "reader.read" ++ m ++ "()" := rfl
theorem readCodec_render (c : Codec) : (ReadE.codec c).render = c.render ++ ".read(reader)" := rfl

theorem read_text (e : ReadE) : segsText (readSegs e) = e.render := by
  cases e with
  | prim m => rw [readSegs, readPrim_render]; txt []
  | codec c => rw [readSegs, readCodec_render, segsText_append, codec_text]; txt []

theorem read_good {e : ReadE} (h : LegRead e) : Good (readSegs e) := by
  cases e with
  | prim m =>
    have := ident_append (start := "read") (by decide) h
    rw [readSegs]; good
  | codec c => rw [readSegs]; exact (codec_good h).append (codec_closed c) (by good)

theorem read_closed (e : ReadE) : closed (readSegs e) = true := by
  cases e with
  | prim m => rfl
  | codec c => exact closed_append rfl (by simp)

theorem primRead_ok (m : String) (r : List Tok) :
    primRead (code "reader." ++ .word ("read" ++ m) :: (code "()" ++ r)) = some (m, r) :=
  bind_ok (text_ok _ _) <| bind_ok (word_ok _ _) <| bind_ok (some!_ok (dropStart_ok "read" m) _) <| bind_ok (text_ok _ _) rfl

theorem code_reader : code "reader." = [.word "reader", .sym '.'] := by decide +kernel

theorem next_const {α : Type} {p q : P α} (c : Codec) (r : List Tok) {x : Option (α × List Tok)}
    (h : p (segsToks (codecSegs c) ++ r) = x) : (do if ← next (.word "const") then p else q) (segsToks (codecSegs c) ++ r) = x := by
  obtain ⟨t, ht⟩ := codec_first c
  rw [ht, List.cons_append] at h ⊢
  exact next_yes h

theorem readE_ok {e : ReadE} (h : LegRead e) (r : List Tok) : readE (segsToks (readSegs e) ++ r) = some (e, r) := by
  cases e with
  | prim m =>
    toks [readSegs]
    exact next_no (by rw [code_reader]; simp) <| bind_ok (primRead_ok m r) rfl
  | codec c =>
    toks [readSegs]
    exact next_const c _ <| bind_ok (codec_ok h _) <| bind_ok (text_ok _ _) rfl

/-- `model.f` -/
def placeSegs : Acc → List Seg
  | .field n => [.k "model.", .w n]
  | .var n => [.w n]

def LegPlace : Acc → Prop
  | .field n => DartName n
  | .var _ => False

theorem place_text (a : Acc) : segsText (placeSegs a) = a.render := by
  cases a <;> (rw [placeSegs, Acc.render]; txt [])

theorem place_ok {a : Acc} (h : LegPlace a) (r : List Tok) : place (segsToks (placeSegs a) ++ r) = some (a, r) := by
  cases a with
  | var n => exact h.elim
  | field n =>
    toks [placeSegs]
    exact bind_ok (text_ok _ _) <| bind_ok (name_ok h _) rfl

theorem code_model : code "model." = [.word "model", .sym '.'] := by decide +kernel

def emplSegs : EmplS → List Seg
  | .assign a e => placeSegs a ++ .k " = " :: readSegs e ++ [.k ";"]
  | .into c a => codecSegs c ++ .k ".read(reader, " :: placeSegs a ++ [.k ");"]

def LegEmpl : EmplS → Prop
  | .assign a e => LegPlace a ∧ LegRead e
  | .into c a => LegCodec c ∧ LegPlace a

theorem emplAssign_render (a : Acc) (e : ReadE) : (EmplS.assign a e).render = a.render ++ " = " ++ e.render ++ ";" := rfl
theorem emplInto_render (c : Codec) (a : Acc) : (EmplS.into c a).render = c.render ++ ".read(reader, " ++ a.render ++ ");" := rfl

theorem empl_text (s : EmplS) : segsText (emplSegs s) = s.render := by
  cases s with
  | assign a e => rw [emplSegs, emplAssign_render]; txt [place_text, read_text]
  | into c a => rw [emplSegs, emplInto_render]; txt [place_text, codec_text]

theorem place_good {a : Acc} (h : LegPlace a) {ss : List Seg} (hb : begins (fun c => !isWordChar c) ss = true) (hs : Good ss) :
    Good (placeSegs a ++ ss) := by
  cases a with
  | var n => exact h.elim
  | field n =>
    have hn : isIdent n = true := h.1
    rw [placeSegs]
    exact ⟨by decide +kernel, hn, hb, hs⟩

theorem empl_good {s : EmplS} (h : LegEmpl s) : Good (emplSegs s) := by
  cases s with
  | assign a e =>
    rw [emplSegs, List.append_assoc]
    exact place_good h.1 (by simp only [List.cons_append, begins]; decide)
      ⟨by decide +kernel, (read_good h.2).append (read_closed e) (by good)⟩
  | into c a =>
    rw [emplSegs, List.append_assoc]
    exact (codec_good h.1).append (codec_closed c) ⟨by decide +kernel, place_good h.2 (by simp only [begins]; decide) (by good)⟩

theorem emplS_ok {s : EmplS} (h : LegEmpl s) (r : List Tok) : emplS (segsToks (emplSegs s) ++ r) = some (s, r) := by
  cases s with
  | assign a e =>
    toks [emplSegs]
    refine next_no ?_ <| bind_ok (place_ok h.1 _) <| bind_ok (text_ok' _ (by decide +kernel) _) <|
      bind_ok (readE_ok h.2 _) <| bind_ok (text_ok _ _) rfl
    cases a with
    | var n => exact h.1.elim
    | field n => toks [placeSegs, code_model]; simp
  | into c a =>
    toks [emplSegs]
    exact next_const c _ <| bind_ok (codec_ok h.1 _) <| bind_ok (text_ok' _ (by decide +kernel) _) <|
      bind_ok (place_ok h.2 _) <| bind_ok (text_ok _ _) rfl

def skipSegs : SkipS → List Seg
  | .prim m => [.k "reader.", .w ("read" ++ m), .k "()", .k ";"]
  | .codec c => codecSegs c ++ [.k ".skip(reader, 1);"]

def LegSkip : SkipS → Prop
  | .prim m => Tail m
  | .codec c => LegCodec c

theorem skipPrim_render (m : String) : (SkipS.prim m).render = "reader.read" ++ m ++ "();" := rfl
theorem skipCodec_render (c : Codec) : (SkipS.codec c).render = c.render ++ ".skip(reader, 1);" := rfl

theorem skip_text (s : SkipS) : segsText (skipSegs s) = s.render := by
  cases s with
  | prim m => rw [skipSegs, skipPrim_render]; txt []
  | codec c => rw [skipSegs, skipCodec_render]; txt [codec_text]

theorem skip_good {s : SkipS} (h : LegSkip s) : Good (skipSegs s) := by
  cases s with
  | prim m =>
    have := ident_append (start := "read") (by decide) h
    rw [skipSegs]; good
  | codec c => rw [skipSegs]; exact (codec_good h).append (codec_closed c) (by good)

theorem skipS_ok {s : SkipS} (h : LegSkip s) (r : List Tok) : skipS (segsToks (skipSegs s) ++ r) = some (s, r) := by
  cases s with
  | prim m =>
    toks [skipSegs]
    exact next_no (by rw [code_reader]; simp) <| bind_ok (primRead_ok m _) <| bind_ok (text_ok _ _) rfl
  | codec c =>
    toks [skipSegs]
    exact next_const c _ <| bind_ok (codec_ok h _) <| bind_ok (text_ok _ _) rfl

def writeSegs : WriteS → List Seg
  | .prim m a => .k "writer." :: .w ("write" ++ m) :: .k "(" :: placeSegs a ++ [.k ");"]
  | .codec c a => codecSegs c ++ .k ".write(writer, " :: placeSegs a ++ [.k ");"]

def LegWrite : WriteS → Prop
  | .prim m a => Tail m ∧ LegPlace a
  | .codec c a => LegCodec c ∧ LegPlace a

theorem writePrim_render (m : String) (a : Acc) : (WriteS.prim m a).render = "writer.write" ++ m ++ "(" ++ a.render ++ ");" := rfl
theorem writeCodec_render (c : Codec) (a : Acc) :
    (WriteS.codec c a).render = c.render ++ ".write(writer, " ++ a.render ++ ");" := rfl

theorem write_text (s : WriteS) : segsText (writeSegs s) = s.render := by
  cases s with
  | prim m a => rw [writeSegs, writePrim_render]; txt [place_text]
  | codec c a => rw [writeSegs, writeCodec_render]; txt [place_text, codec_text]

theorem write_good {s : WriteS} (h : LegWrite s) : Good (writeSegs s) := by
  cases s with
  | prim m a =>
    have hm := ident_append (start := "write") (by decide) h.1
    have hp := place_good (ss := [.k ");"]) h.2 (by simp only [begins]; decide) (by good)
    rw [writeSegs]
    exact ⟨by decide +kernel, hm, rfl, by decide +kernel, hp⟩
  | codec c a =>
    rw [writeSegs, List.append_assoc]
    exact (codec_good h.1).append (codec_closed c) ⟨by decide +kernel, place_good h.2 (by simp only [begins]; decide) (by good)⟩

theorem code_writer : code "writer." = [.word "writer", .sym '.'] := by decide +kernel

theorem writeS_ok {s : WriteS} (h : LegWrite s) (r : List Tok) : writeS (segsToks (writeSegs s) ++ r) = some (s, r) := by
  cases s with
  | prim m a =>
    toks [writeSegs]
    exact next_no (by rw [code_writer]; simp) <| bind_ok (text_ok _ _) <| bind_ok (word_ok _ _) <|
      bind_ok (some!_ok (dropStart_ok "write" m) _) <| bind_ok (text_ok _ _) <| bind_ok (place_ok h.2 _) <|
      bind_ok (text_ok _ _) rfl
  | codec c a =>
    toks [writeSegs]
    exact next_const c _ <| bind_ok (codec_ok h.1 _) <| bind_ok (text_ok' _ (by decide +kernel) _) <|
      bind_ok (place_ok h.2 _) <| bind_ok (text_ok _ _) rfl

/-! ### First pieces -/

/-- The first piece is a word. -/
def FirstWord (ts : List Tok) : Prop := ∃ w q, ts = .word w :: q

theorem FirstWord.stop {a : List Tok} (h : FirstWord a) (c : Char) : ∃ t ts, a = t :: ts ∧ t ≠ .sym c := by
  obtain ⟨w, q, rfl⟩ := h
  exact ⟨_, _, rfl, by simp⟩

theorem FirstWord.append {a : List Tok} (h : FirstWord a) (b : List Tok) : FirstWord (a ++ b) := by
  obtain ⟨w, q, rfl⟩ := h
  exact ⟨w, q ++ b, rfl⟩

theorem place_first (a : Acc) : FirstWord (segsToks (placeSegs a)) := by
  cases a <;> (toks [placeSegs, code_model]; exact ⟨_, _, rfl⟩)

theorem codec_firstWord (c : Codec) : FirstWord (segsToks (codecSegs c)) := by
  obtain ⟨q, h⟩ := codec_first c
  exact ⟨_, q, h⟩

theorem empl_first (s : EmplS) : FirstWord (segsToks (emplSegs s)) := by
  cases s with
  | assign a e => rw [emplSegs, List.append_assoc, segsToks_append]; exact (place_first a).append _
  | into c a => rw [emplSegs, List.append_assoc, segsToks_append]; exact (codec_firstWord c).append _

theorem skip_first (s : SkipS) : FirstWord (segsToks (skipSegs s)) := by
  cases s with
  | prim m => toks [skipSegs, code_reader]; exact ⟨_, _, rfl⟩
  | codec c => rw [skipSegs, segsToks_append]; exact (codec_firstWord c).append _

theorem write_first (s : WriteS) : FirstWord (segsToks (writeSegs s)) := by
  cases s with
  | prim m a => toks [writeSegs, code_writer]; exact ⟨_, _, rfl⟩
  | codec c a => rw [writeSegs, List.append_assoc, segsToks_append]; exact (codec_firstWord c).append _

end TPB.Spec.DartReader
