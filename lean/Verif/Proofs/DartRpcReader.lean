/- The reader of `Spec/DartRpcReader.lean` finds the client class whose text it is given. -/
import Verif.Spec.DartRpcReader
import Verif.Proofs.Split
import Verif.Proofs.DartReader
namespace TPB.Spec.DartRpcReader
open Dart Pieces Combinators DartReader DartRules
open Rust (Buf)

theorem either_fst {α : Type} (a : String) (x : α) (b : String) (y : α) (r : List Tok) :
    either a x b y (.word a :: r) = some (x, r) := next_yes (bind_ok (the_ok _ _) rfl)

theorem either_snd {α : Type} {a : String} {x : α} {b : String} {y : α} (h : b ≠ a) (r : List Tok) :
    either a x b y (.word b :: r) = some (y, r) := next_no (by simpa using h) (bind_ok (the_ok _ _) rfl)

theorem code_cons {s t : String} {p : Tok} (h : code s = p :: code t) (r : List Tok) : code s ++ r = p :: (code t ++ r) := by
  rw [h]; rfl

/-- Items of which some have no text. -/
theorem flatMap_filter {α β : Type} (f : α → List β) (p : α → Bool) (as : List α) (h : ∀ a, p a = false → f a = []) :
    as.flatMap f = (as.filter p).flatMap f := by
  induction as with
  | nil => rfl
  | cons a as ih =>
    cases hp : p a with
    | true => rw [List.filter_cons_of_pos hp, List.flatMap_cons, List.flatMap_cons, ih]
    | false => rw [List.filter_cons_of_neg (by simp [hp]), List.flatMap_cons, h a hp, ih, List.nil_append]

/-! ### Result types -/

def LegRes (t : Ty) : Prop := t = .named "void" ∨ LegTy t

theorem res_piece {t : Ty} (h : LegRes t) : Piece t.render.toList (tyToks t) ∧ noNL (tyToks t) := by
  rcases h with rfl | h
  · rw [Ty.render, tyToks]
    exact ⟨piece_ident "void" (isIdent_spec (by decide)), noNL_word _⟩
  · exact ty_piece h

theorem ty_head {t : Ty} (h : LegTy t) : ∃ w q, tyToks t = .word w :: q ∧ DartName w := by
  cases h with
  | named id h => rw [tyToks]; exact ⟨_, _, rfl, h⟩
  | app id args h => rw [tyToks]; exact ⟨_, _, rfl, h⟩

theorem resultTy_ok {t : Ty} (h : LegRes t) {r : List Tok} (hr : NoArgs r) : resultTy (tyToks t ++ r) = some (t, r) := by
  rcases h with rfl | h
  · rw [tyToks]
    exact next_yes (bind_ok (the_ok _ _) rfl)
  · obtain ⟨w, q, e, hw⟩ := ty_head h
    refine next_no ?_ (anyTy_ok h hr)
    rw [e]
    simpa using DartName.ne hw (w := "void") (by decide)

/-! ### Closures that write -/

def wSegs : WStmt → List Seg
  | .status => [.k "writer.", .w "writeInt8", .k "(TechPawsRpcBufferStatus.hasData.value);"]
  | .methodId => [.k "writer.", .w "writeInt64", .k "(methodId);"]
  | .arg w => writeSegs w

def LegW : WStmt → Prop
  | .status => True
  | .methodId => True
  | .arg (.prim m (.var n)) => Combinators.Tail m ∧ DartName n ∧ n ≠ "methodId"
  | .arg (.codec c (.var n)) => LegCodec c ∧ DartName n
  | .arg _ => False

theorem w_text (w : WStmt) : segsText (wSegs w) = w.render := by
  cases w with
  | status => decide +kernel
  | methodId => decide +kernel
  | arg w => exact write_text w

theorem w_good {w : WStmt} (h : LegW w) : Good (wSegs w) := by
  match w, h with
  | .status, _ => rw [wSegs]; good
  | .methodId, _ => rw [wSegs]; good
  | .arg (.prim m (.var n)), h =>
    have hm := ident_append (start := "write") (by decide) h.1
    have hn : isIdent n = true := h.2.1.1
    rw [wSegs, writeSegs, placeSegs]
    simp only [List.cons_append, List.nil_append]; good
  | .arg (.codec c (.var n)), h =>
    have hn : isIdent n = true := h.2.1
    rw [wSegs, writeSegs, placeSegs, List.append_assoc]
    exact (codec_good h.1).append (codec_closed c) (by simp only [List.cons_append, List.nil_append]; good)

theorem w_ok {w : WStmt} (h : LegW w) (r : List Tok) : wstmt (segsToks (wSegs w) ++ r) = some (w, r) := by
  have nc : ∀ r, (code "writer." ++ r).head? ≠ some (Tok.word "const") := by intro r; rw [code_writer]; simp
  match w, h with
  | .status, _ =>
    ptoks [wSegs]
    refine next_no (nc _) <| bind_ok (text_ok _ _) <| bind_ok (word_ok _ _) <|
      bind_ok (some!_ok (dropStart_ok "write" "Int8") _) <|
      bind_ok (text_split "TechPawsRpcBufferStatus.hasData.value);" (by decide +kernel) _) ?_
    rw [code_cons (t := ".hasData.value);") (p := .word "TechPawsRpcBufferStatus") (by decide +kernel)]
    exact bind_ok (name_ok (by unfold DartName; decide +kernel) _) <| next_is (head_code (by decide +kernel) _) <|
      bind_ok (fits_ok (by decide) _) <| bind_ok (text_ok _ _) rfl
  | .methodId, _ =>
    ptoks [wSegs]
    refine next_no (nc _) <| bind_ok (text_ok _ _) <| bind_ok (word_ok _ _) <|
      bind_ok (some!_ok (dropStart_ok "write" "Int64") _) <|
      bind_ok (text_split "methodId);" (by decide +kernel) _) ?_
    rw [code_cons (t := ");") (p := .word "methodId") (by decide +kernel)]
    exact bind_ok (name_ok (by unfold DartName; decide +kernel) _) <|
      next_not (u := .sym ')') (head_code (by decide +kernel) _) (by decide) <| bind_ok (text_ok _ _) rfl
  | .arg (.prim m (.var n)), h =>
    ptoks [wSegs, writeSegs, placeSegs]
    refine next_no (nc _) <| bind_ok (text_ok _ _) <| bind_ok (word_ok _ _) <|
      bind_ok (some!_ok (dropStart_ok "write" m) _) <| bind_ok (text_ok _ _) <| bind_ok (name_ok h.2.1 _) <|
      next_not (u := .sym ')') (head_code (by decide +kernel) _) (by decide) <| bind_ok (text_ok _ _) ?_
    rw [if_neg (fun hh => h.2.2 hh.2)]
    rfl
  | .arg (.codec c (.var n)), h =>
    ptoks [wSegs, writeSegs, placeSegs]
    exact next_const c _ <| bind_ok (codec_ok h.1 _) <| bind_ok (text_ok' _ (by decide +kernel) _) <|
      bind_ok (name_ok h.2 _) <| bind_ok (text_ok _ _) rfl

theorem w_first {w : WStmt} (h : LegW w) : FirstWord (segsToks (wSegs w)) := by
  match w, h with
  | .status, _ => ptoks [wSegs, code_writer]; exact ⟨_, _, rfl⟩
  | .methodId, _ => ptoks [wSegs, code_writer]; exact ⟨_, _, rfl⟩
  | .arg w, _ => exact write_first w

/-! ### Closures that read -/

def rBlock (t : Nat) : RStmt → Block
  | .letStatus => [(t, [.k "final status = reader.readInt8();"])]
  | .ifNoData throws =>
    [(t, [.k "if (status != TechPawsRpcBufferStatus.hasData.value) {"]),
     (t + 1, [.k (if throws then "throw StateError('No data');" else "return;")]), (t, [.k "}"])]
  | .letMethodId => [(t, [.k "final methodId = reader.readInt64();"])]
  | .letResult e => [(t, .k "final result = " :: readSegs e ++ [.k ";"])]
  | .complete v res => [(t, [.w v, .k (if res then "[methodId]?.complete(result);" else "[methodId]?.complete();")])]
  | .remove v => [(t, [.w v, .k ".remove(methodId);"])]
  | .add v res => [(t, [.w v, .k (if res then ".add(result);" else ".add(null);")])]
  | .ret e => [(t, .k "return " :: readSegs e ++ [.k ";"])]
  | .blank => [(0, [])]

def LegR : RStmt → Prop
  | .letResult e => LegRead e
  | .ret e => LegRead e
  | .complete v _ => DartName v
  | .remove v => DartName v
  | .add v _ => DartName v
  | _ => True

theorem r_letResult (t : Nat) (e : ReadE) : (RStmt.letResult e).render t = [(t, "final result = " ++ e.render ++ ";")] := rfl
theorem r_ret (t : Nat) (e : ReadE) : (RStmt.ret e).render t = [(t, "return " ++ e.render ++ ";")] := rfl

theorem r_lines (t : Nat) (s : RStmt) : blockLines (rBlock t s) = s.render t := by
  cases s with
  | letResult e => rw [r_letResult, ← read_text]; plines [rBlock]
  | ret e => rw [r_ret, ← read_text]; plines [rBlock]
  | ifNoData b => plines [rBlock]; rfl
  | complete v b => plines [rBlock]; rfl
  | remove v => plines [rBlock]; rfl
  | add v b => plines [rBlock]; rfl
  | letStatus => plines [rBlock]; rfl
  | letMethodId => plines [rBlock]; rfl
  | blank => plines [rBlock]; rfl

theorem r_good (t : Nat) {s : RStmt} (h : LegR s) : GoodBlock (rBlock t s) := by
  cases s with
  | letResult e =>
    rw [rBlock]
    exact .cons ⟨by decide +kernel, (read_good h).append (read_closed e) (by good)⟩ .nil
  | ret e =>
    rw [rBlock]
    exact .cons ⟨by decide +kernel, (read_good h).append (read_closed e) (by good)⟩ .nil
  | ifNoData b => cases b <;> (rw [rBlock]; pgood)
  | complete v b =>
    have hv : isIdent v = true := (show DartName v from h).1
    cases b <;> (rw [rBlock]; pgood)
  | remove v =>
    have hv : isIdent v = true := (show DartName v from h).1
    rw [rBlock]; pgood
  | add v b =>
    have hv : isIdent v = true := (show DartName v from h).1
    cases b <;> (rw [rBlock]; pgood)
  | letStatus => rw [rBlock]; pgood
  | letMethodId => rw [rBlock]; pgood
  | blank => rw [rBlock]; exact .cons trivial .nil

theorem name_not {v w : String} (h : DartName v) (hw : w ∈ dartReserved) (r : List Tok) :
    (Tok.word v :: r).head? ≠ some (.word w) := by
  simpa using DartName.ne h hw

theorem name_next {α : Type} {v w : String} (h : DartName v) (hw : w ∈ dartReserved) {p q : P α} {r : List Tok}
    {x : Option (α × List Tok)} (hq : q (.word v :: r) = x) : (do if ← next (.word w) then p else q) (.word v :: r) = x :=
  next_no (name_not h hw r) hq

theorem rstmt_ok (t : Nat) {s : RStmt} (h : LegR s) (hs : s.solid = true) (r : List Tok) :
    rstmt (blockToks (rBlock t s) ++ r) = some (s, r) := by
  cases s with
  | blank => cases hs
  | letStatus =>
    ptoks [rBlock]
    exact next_is (head_code (by decide +kernel) _) <|
      bind_ok (text_split "status = reader.readInt8();" (by decide +kernel) _) <|
      next_is (head_code (by decide +kernel) _) <| bind_ok (text_ok _ _) rfl
  | letMethodId =>
    ptoks [rBlock]
    exact next_is (head_code (by decide +kernel) _) <|
      bind_ok (text_split "methodId = reader.readInt64();" (by decide +kernel) _) <|
      next_not (u := .word "methodId") (head_code (by decide +kernel) _) (by decide) <|
      next_is (head_code (by decide +kernel) _) <| bind_ok (text_ok _ _) rfl
  | letResult e =>
    ptoks [rBlock]
    exact next_is (head_code (by decide +kernel) _) <|
      bind_ok (text_split "result =" (by decide +kernel) _) <|
      next_not (u := .word "result") (head_code (by decide +kernel) _) (by decide) <|
      next_not (u := .word "result") (head_code (by decide +kernel) _) (by decide) <|
      bind_ok (text_ok _ _) <| bind_ok (readE_ok h _) <| bind_ok (text_ok _ _) rfl
  | ifNoData b =>
    cases b with
    | true =>
      ptoks [rBlock]
      exact next_not (u := .word "if") (head_code (by decide +kernel) _) (by decide) <|
        next_is (head_code (by decide +kernel) _) <| bind_ok (text_ok _ _) <|
        next_is (head_code (by decide +kernel) _) <| bind_ok (text2 (by decide +kernel) _) rfl
    | false =>
      ptoks [rBlock]
      exact next_not (u := .word "if") (head_code (by decide +kernel) _) (by decide) <|
        next_is (head_code (by decide +kernel) _) <| bind_ok (text_ok _ _) <|
        next_not (u := .word "return") (head_code (by decide +kernel) _) (by decide) <|
        bind_ok (text2 (by decide +kernel) _) rfl
  | ret e =>
    ptoks [rBlock]
    exact next_not (u := .word "return") (head_code (by decide +kernel) _) (by decide) <|
      next_not (u := .word "return") (head_code (by decide +kernel) _) (by decide) <|
      next_is (head_code (by decide +kernel) _) <|
      bind_ok (text_ok' _ (by decide +kernel) _) <| bind_ok (readE_ok h _) <| bind_ok (text_ok _ _) rfl
  | complete v b =>
    cases b with
    | true =>
      ptoks [rBlock]
      exact name_next h (by decide) <| name_next h (by decide) <| name_next h (by decide) <| bind_ok (name_ok h _) <|
        next_is (head_code (by decide +kernel) _) <| bind_ok (text_split "result);" (by decide +kernel) _) <|
        next_not (u := .word "result") (head_code (by decide +kernel) _) (by decide) <| bind_ok (text_ok _ _) rfl
    | false =>
      ptoks [rBlock]
      exact name_next h (by decide) <| name_next h (by decide) <| name_next h (by decide) <| bind_ok (name_ok h _) <|
        next_is (head_code (by decide +kernel) _) <| bind_ok (text_split ");" (by decide +kernel) _) <|
        next_is (head_code (by decide +kernel) _) <| bind_ok (text_ok _ _) rfl
  | remove v =>
    ptoks [rBlock]
    exact name_next h (by decide) <| name_next h (by decide) <| name_next h (by decide) <| bind_ok (name_ok h _) <|
      next_not (u := .sym '.') (head_code (by decide +kernel) _) (by decide) <|
      bind_ok (text_split "remove(methodId);" (by decide +kernel) _) <|
      next_is (head_code (by decide +kernel) _) <| bind_ok (text_ok _ _) rfl
  | add v b =>
    cases b with
    | true =>
      ptoks [rBlock]
      exact name_next h (by decide) <| name_next h (by decide) <| name_next h (by decide) <| bind_ok (name_ok h _) <|
        next_not (u := .sym '.') (head_code (by decide +kernel) _) (by decide) <|
        bind_ok (text_split "add(result);" (by decide +kernel) _) <|
        next_not (u := .word "add") (head_code (by decide +kernel) _) (by decide) <|
        bind_ok (text_split "result);" (by decide +kernel) _) <|
        next_not (u := .word "result") (head_code (by decide +kernel) _) (by decide) <| bind_ok (text_ok _ _) rfl
    | false =>
      ptoks [rBlock]
      exact name_next h (by decide) <| name_next h (by decide) <| name_next h (by decide) <| bind_ok (name_ok h _) <|
        next_not (u := .sym '.') (head_code (by decide +kernel) _) (by decide) <|
        bind_ok (text_split "add(null);" (by decide +kernel) _) <|
        next_not (u := .word "add") (head_code (by decide +kernel) _) (by decide) <|
        bind_ok (text_split "null);" (by decide +kernel) _) <|
        next_is (head_code (by decide +kernel) _) <| bind_ok (text_ok _ _) rfl

theorem first_code {s w : String} (h : (code s).head? = some (.word w)) (r : List Tok) : FirstWord (code s ++ r) := by
  match hc : code s, h with
  | t :: ts, h =>
    simp only [List.head?_cons, Option.some.injEq] at h
    subst h
    exact ⟨_, _, rfl⟩

theorem first_code_ {s w : String} (h : (code s).head? = some (.word w)) : FirstWord (code s) := by
  simpa using first_code h []

theorem r_first (t : Nat) {s : RStmt} (hs : s.solid = true) : FirstWord (blockToks (rBlock t s)) := by
  cases s with
  | blank => cases hs
  | letStatus => ptoks [rBlock]; exact first_code_ (w := "final") (by decide +kernel)
  | letMethodId => ptoks [rBlock]; exact first_code_ (w := "final") (by decide +kernel)
  | letResult e => ptoks [rBlock]; exact first_code (w := "final") (by decide +kernel) _
  | ifNoData b => ptoks [rBlock]; exact first_code (w := "if") (by decide +kernel) _
  | ret e => ptoks [rBlock]; exact first_code (w := "return") (by decide +kernel) _
  | complete v b => ptoks [rBlock]; exact ⟨_, _, rfl⟩
  | remove v => ptoks [rBlock]; exact ⟨_, _, rfl⟩
  | add v b => ptoks [rBlock]; exact ⟨_, _, rfl⟩

/-! ### Targets -/

def targetBlock (t a : Nat) (b : Buf) : Block :=
  [(t, [.k "_scopeId,"]), (t, [.p (toString a) [.word (toString a)], .k ","]), (t, [.k (bufText b)])]

theorem target_good (t a : Nat) (b : Buf) : GoodBlock (targetBlock t a b) := by
  have hn := piece_nat a
  have hn' := noNL_word (toString a)
  have hb : Clean (bufText b) := by cases b <;> decide +kernel
  rw [targetBlock]
  pgood

theorem target_ok (t a : Nat) (b : Buf) (r : List Tok) : target (blockToks (targetBlock t a b) ++ r) = some ((a, b), r) := by
  ptoks [targetBlock]
  refine bind_ok (text_ok _ _) <| bind_ok (num_ok _ _) ?_
  cases b with
  | server =>
    rw [show code (bufText .server) = code "TechPawsRuntimeRpcMethodBuffer." ++ (.word "server" :: code ",") by decide +kernel]
    simp only [List.append_assoc, List.cons_append]
    exact bind_ok (text2 (by decide +kernel) _) <| bind_ok (either_fst _ _ _ _ _) <| bind_ok (text_ok _ _) rfl
  | client =>
    rw [show code (bufText .client) = code "TechPawsRuntimeRpcMethodBuffer." ++ (.word "client" :: code ",") by decide +kernel]
    simp only [List.append_assoc, List.cons_append]
    exact bind_ok (text2 (by decide +kernel) _) <| bind_ok (either_snd (by decide) _) <| bind_ok (text_ok _ _) rfl

def readingBlock (t a : Nat) (b : Buf) (body : List RStmt) : Block :=
  targetBlock (t + 1) a b ++ [(t + 1, [.k "(reader) {"])] ++ body.flatMap (rBlock (t + 2)) ++ [(t + 1, [.k "},"]), (t, [.k ");"])]

def writingBlock (t a : Nat) (b : Buf) (ws : List WStmt) : Block :=
  targetBlock (t + 1) a b ++ [(t + 1, [.k "(writer) {"])] ++ ws.map (fun w => (t + 2, wSegs w)) ++ [(t + 1, [.k "},"]), (t, [.k ");"])]

theorem reading_lines (t a : Nat) (b : Buf) (body : List RStmt) : blockLines (readingBlock t a b body) = renderReader t a b body := by
  rw [renderReader]
  plines [readingBlock, targetBlock, r_lines]

theorem writing_lines (t a : Nat) (b : Buf) (ws : List WStmt) : blockLines (writingBlock t a b ws) = renderWriter t a b ws := by
  rw [renderWriter]
  plines [writingBlock, targetBlock, w_text]

theorem reading_good (t a : Nat) (b : Buf) {body : List RStmt} (h : ∀ s ∈ body, LegR s) : GoodBlock (readingBlock t a b body) := by
  rw [readingBlock]
  exact (((target_good _ a b).append (by pgood)).append (.flatMap (fun s hs => r_good _ (h s hs)))).append (by pgood)

theorem writing_good (t a : Nat) (b : Buf) {ws : List WStmt} (h : ∀ w ∈ ws, LegW w) : GoodBlock (writingBlock t a b ws) := by
  rw [writingBlock]
  exact (((target_good _ a b).append (by pgood)).append (.map (fun w hw => w_good (h w hw)))).append (by pgood)

theorem rBlock_blank (t : Nat) (s : RStmt) (h : s.solid = false) : blockToks (rBlock t s) = [] := by
  cases s <;> first | (cases h; done) | skip
  ptoks [rBlock]

theorem mem_trimR {body : List RStmt} {s : RStmt} (h : s ∈ trimR body) : s ∈ body ∧ s.solid = true := List.mem_filter.1 h

theorem code_close_reader : code "}," = .sym '}' :: code "," := by decide +kernel

theorem reading_ok (t a : Nat) (b : Buf) {body : List RStmt} (h : ∀ s ∈ body, LegR s) (r : List Tok) :
    reading (blockToks (readingBlock t a b body) ++ r) = some (((a, b), trimR body), r) := by
  ptoks [readingBlock]
  rw [flatMap_filter (fun s => blockToks (rBlock (t + 2) s)) RStmt.solid body (fun s hs => rBlock_blank _ s hs), code_close_reader]
  exact bind_ok (target_ok _ a b _) <| bind_ok (text_ok _ _) <|
    bind_ok (until_ok (fun s => blockToks (rBlock (t + 2) s)) _ (trimR body)
      (fun s hs r => rstmt_ok _ (h s (mem_trimR hs).1) (mem_trimR hs).2 r)
      (fun s hs => (r_first _ (mem_trimR hs).2).stop '}')) <| bind_ok (text2 (by decide +kernel) _) rfl

/-! ### Statements of methods -/

def dBlock (t : Nat) : DStmt → Block
  | .write sync a b ws =>
    (t, [.k "_scheduler.", .w (if sync then "syncWrite" else "write"), .k "("]) :: writingBlock t a b ws
  | .loop => [(t, [.k "_scheduler.loopSyncGroup();"])]
  | .syncRead ty a b body =>
    (t, [.k "final result = _scheduler.syncRead<", .p ty.render (tyToks ty), .k ">("]) :: readingBlock t a b body
  | .retResult => [(t, [.k "return result;"])]
  | .letMethodId v => [(t, [.k "final methodId = ", .w v, .k ";"])]
  | .rotate v => [(t, [.w v, .k " = rotateMethodId(", .w v, .k ");"])]
  | .letCompleter ty => [(t, [.k "final completer = Completer<", .p ty.render (tyToks ty), .k ">();"])]
  | .store v => [(t, [.w v, .k "[methodId] = completer;"])]
  | .retFuture => [(t, [.k "return completer.future;"])]
  | .connect v a b body => (t, [.w v, .k " = _scheduler.read("]) :: readingBlock t a b body
  | .blank => [(0, [])]

def LegD : DStmt → Prop
  | .write _ _ _ ws => ∀ w ∈ ws, LegW w
  | .syncRead ty _ _ body => LegTy ty ∧ ∀ s ∈ body, LegR s
  | .letMethodId v => DartName v
  | .rotate v => DartName v ∧ v ≠ "_scheduler"
  | .letCompleter ty => LegRes ty
  | .store v => DartName v ∧ v ≠ "_scheduler"
  | .connect v _ _ body => (DartName v ∧ v ≠ "_scheduler") ∧ ∀ s ∈ body, LegR s
  | _ => True

theorem d_write (t : Nat) (sync : Bool) (a : Nat) (b : Buf) (ws : List WStmt) : (DStmt.write sync a b ws).render t
    = (t, if sync then "_scheduler.syncWrite(" else "_scheduler.write(") :: renderWriter t a b ws := rfl
theorem d_syncRead (t : Nat) (ty : Ty) (a : Nat) (b : Buf) (body : List RStmt) : (DStmt.syncRead ty a b body).render t
    = (t, "final result = _scheduler.syncRead<" ++ ty.render ++ ">(") :: renderReader t a b body := rfl
theorem d_connect (t : Nat) (v : String) (a : Nat) (b : Buf) (body : List RStmt) : (DStmt.connect v a b body).render t
    = (t, v ++ " = _scheduler.read(") :: renderReader t a b body := rfl
theorem d_letMethodId (t : Nat) (v : String) : (DStmt.letMethodId v).render t = [(t, "final methodId = " ++ v ++ ";")] := rfl
theorem d_rotate (t : Nat) (v : String) : (DStmt.rotate v).render t = [(t, v ++ " = rotateMethodId(" ++ v ++ ");")] := rfl
theorem d_letCompleter (t : Nat) (ty : Ty) :
    (DStmt.letCompleter ty).render t = [(t, "final completer = Completer<" ++ ty.render ++ ">();")] := rfl
theorem d_store (t : Nat) (v : String) : (DStmt.store v).render t = [(t, v ++ "[methodId] = completer;")] := rfl

theorem write_head (sync : Bool) : (if sync then "_scheduler.syncWrite(" else "_scheduler.write(")
    = "_scheduler." ++ ((if sync then "syncWrite" else "write") ++ "(") := by cases sync <;> decide +kernel

theorem d_lines (t : Nat) (s : DStmt) : blockLines (dBlock t s) = s.render t := by
  cases s with
  | write sync a b ws => rw [d_write, ← writing_lines, write_head]; plines [dBlock]
  | syncRead ty a b body => rw [d_syncRead, ← reading_lines]; plines [dBlock]
  | connect v a b body => rw [d_connect, ← reading_lines]; plines [dBlock]
  | letMethodId v => rw [d_letMethodId]; plines [dBlock]
  | rotate v => rw [d_rotate]; plines [dBlock]
  | letCompleter ty => rw [d_letCompleter]; plines [dBlock]
  | store v => rw [d_store]; plines [dBlock]
  | loop => plines [dBlock]; rfl
  | retResult => plines [dBlock]; rfl
  | retFuture => plines [dBlock]; rfl
  | blank => plines [dBlock]; rfl

theorem d_good (t : Nat) {s : DStmt} (h : LegD s) : GoodBlock (dBlock t s) := by
  cases s with
  | write sync a b ws =>
    have hi : isIdent (if sync then "syncWrite" else "write") = true := by cases sync <;> decide
    rw [dBlock]
    exact .cons (by good) (writing_good t a b h)
  | syncRead ty a b body =>
    obtain ⟨h1, h2⟩ := ty_piece h.1
    rw [dBlock]
    exact .cons (by good) (reading_good t a b h.2)
  | connect v a b body =>
    have hv : isIdent v = true := h.1.1.1
    rw [dBlock]
    exact .cons (by good) (reading_good t a b h.2)
  | letMethodId v =>
    have hv : isIdent v = true := (show DartName v from h).1
    rw [dBlock]; pgood
  | rotate v =>
    have hv : isIdent v = true := h.1.1
    rw [dBlock]; pgood
  | letCompleter ty =>
    obtain ⟨h1, h2⟩ := res_piece h
    rw [dBlock]; pgood
  | store v =>
    have hv : isIdent v = true := h.1.1
    rw [dBlock]; pgood
  | loop => rw [dBlock]; pgood
  | retResult => rw [dBlock]; pgood
  | retFuture => rw [dBlock]; pgood
  | blank => rw [dBlock]; exact .cons trivial .nil

theorem noArgs_code {s : String} {u : Tok} (h : (code s).head? = some u) (hu : u ≠ .sym '<') (r : List Tok) : NoArgs (code s ++ r) := by
  rw [NoArgs, head_code h]
  simpa using hu

theorem sync_word (sync : Bool) (r : List Tok) : either "syncWrite" true "write" false
    (.word (if sync then "syncWrite" else "write") :: r) = some (sync, r) := by
  cases sync
  · exact either_snd (by decide) _
  · exact either_fst _ _ _ _ _

theorem dstmt_ok (t : Nat) {s : DStmt} (h : LegD s) (hs : s.solid = true) (r : List Tok) :
    dstmt (blockToks (dBlock t s) ++ r) = some (s.trim, r) := by
  cases s with
  | blank => cases hs
  | write sync a b ws =>
    ptoks [dBlock, writingBlock]
    rw [code_close_reader]
    exact next_not (u := .word "_scheduler") (head_code (by decide +kernel) _) (by decide) <|
      next_is (head_code (by decide +kernel) _) <| bind_ok (text_ok _ _) <|
      next_no (by cases sync <;> simp) <|
      bind_ok (sync_word sync _) <| bind_ok (text_ok _ _) <| bind_ok (target_ok _ a b _) <| bind_ok (text_ok _ _) <|
      bind_ok (until_ok (fun w => segsToks (wSegs w)) _ ws (fun w hw r => w_ok (h w hw) r)
        (fun w hw => (w_first (h w hw)).stop '}')) <| bind_ok (text2 (by decide +kernel) _) rfl
  | loop =>
    ptoks [dBlock]
    exact next_not (u := .word "_scheduler") (head_code (by decide +kernel) _) (by decide) <|
      next_is (head_code (by decide +kernel) _) <| bind_ok (text_split "loopSyncGroup();" (by decide +kernel) _) <|
      next_is (head_code (by decide +kernel) _) <| bind_ok (text_ok _ _) rfl
  | syncRead ty a b body =>
    ptoks [dBlock]
    exact next_is (head_code (by decide +kernel) _) <|
      bind_ok (text_split "result = _scheduler.syncRead<" (by decide +kernel) _) <|
      next_is (head_code (by decide +kernel) _) <| bind_ok (text_ok _ _) <|
      bind_ok (anyTy_ok h.1 (noArgs_code (u := .sym '>') (by decide +kernel) (by decide) _)) <| bind_ok (text_ok _ _) <|
      bind_ok (reading_ok t a b h.2 _) rfl
  | retResult =>
    ptoks [dBlock]
    exact next_not (u := .word "return") (head_code (by decide +kernel) _) (by decide) <|
      next_not (u := .word "return") (head_code (by decide +kernel) _) (by decide) <|
      next_is (head_code (by decide +kernel) _) <| bind_ok (text_split "result;" (by decide +kernel) _) <|
      next_is (head_code (by decide +kernel) _) <| bind_ok (text_ok _ _) rfl
  | retFuture =>
    ptoks [dBlock]
    exact next_not (u := .word "return") (head_code (by decide +kernel) _) (by decide) <|
      next_not (u := .word "return") (head_code (by decide +kernel) _) (by decide) <|
      next_is (head_code (by decide +kernel) _) <| bind_ok (text_split "completer.future;" (by decide +kernel) _) <|
      next_not (u := .word "completer") (head_code (by decide +kernel) _) (by decide) <| bind_ok (text_ok _ _) rfl
  | letMethodId v =>
    ptoks [dBlock]
    exact next_is (head_code (by decide +kernel) _) <|
      bind_ok (text_split "methodId =" (by decide +kernel) _) <|
      next_not (u := .word "methodId") (head_code (by decide +kernel) _) (by decide) <|
      next_is (head_code (by decide +kernel) _) <| bind_ok (text_ok _ _) <|
      bind_ok (name_ok h _) <| bind_ok (text_ok _ _) rfl
  | letCompleter ty =>
    ptoks [dBlock]
    exact next_is (head_code (by decide +kernel) _) <|
      bind_ok (text_split "completer = Completer<" (by decide +kernel) _) <|
      next_not (u := .word "completer") (head_code (by decide +kernel) _) (by decide) <|
      next_not (u := .word "completer") (head_code (by decide +kernel) _) (by decide) <| bind_ok (text_ok _ _) <|
      bind_ok (resultTy_ok h (noArgs_code (u := .sym '>') (by decide +kernel) (by decide) _)) <| bind_ok (text_ok _ _) rfl
  | rotate v =>
    ptoks [dBlock]
    exact name_next h.1 (by decide) <| next_no (by simpa using h.2) <| name_next h.1 (by decide) <| bind_ok (name_ok h.1 _) <|
      next_not (u := .sym '=') (head_code (by decide +kernel) _) (by decide) <|
      bind_ok (text_split "rotateMethodId(" (by decide +kernel) _) <| next_is (head_code (by decide +kernel) _) <|
      bind_ok (text_ok _ _) <| bind_ok (the_ok _ _) <| bind_ok (text_ok _ _) rfl
  | store v =>
    ptoks [dBlock]
    exact name_next h.1 (by decide) <| next_no (by simpa using h.2) <| name_next h.1 (by decide) <| bind_ok (name_ok h.1 _) <|
      next_is (head_code (by decide +kernel) _) <| bind_ok (text_ok _ _) rfl
  | connect v a b body =>
    ptoks [dBlock]
    exact name_next h.1.1 (by decide) <| next_no (by simpa using h.1.2) <| name_next h.1.1 (by decide) <| bind_ok (name_ok h.1.1 _) <|
      next_not (u := .sym '=') (head_code (by decide +kernel) _) (by decide) <|
      bind_ok (text_split "_scheduler.read(" (by decide +kernel) _) <|
      next_not (u := .word "_scheduler") (head_code (by decide +kernel) _) (by decide) <|
      bind_ok (text_ok _ _) <| bind_ok (reading_ok t a b h.2 _) rfl

theorem d_first (t : Nat) {s : DStmt} (hs : s.solid = true) : FirstWord (blockToks (dBlock t s)) := by
  cases s with
  | blank => cases hs
  | write sync a b ws => ptoks [dBlock]; exact first_code (w := "_scheduler") (by decide +kernel) _
  | loop => ptoks [dBlock]; exact first_code_ (w := "_scheduler") (by decide +kernel)
  | syncRead ty a b body => ptoks [dBlock]; exact first_code (w := "final") (by decide +kernel) _
  | retResult => ptoks [dBlock]; exact first_code_ (w := "return") (by decide +kernel)
  | retFuture => ptoks [dBlock]; exact first_code_ (w := "return") (by decide +kernel)
  | letMethodId v => ptoks [dBlock]; exact first_code (w := "final") (by decide +kernel) _
  | letCompleter ty => ptoks [dBlock]; exact first_code (w := "final") (by decide +kernel) _
  | rotate v => ptoks [dBlock]; exact ⟨_, _, rfl⟩
  | store v => ptoks [dBlock]; exact ⟨_, _, rfl⟩
  | connect v a b body => ptoks [dBlock]; exact ⟨_, _, rfl⟩

theorem dBlock_blank (t : Nat) (s : DStmt) (h : s.solid = false) : blockToks (dBlock t s) = [] := by
  cases s <;> first | (cases h; done) | skip
  ptoks [dBlock]

end TPB.Spec.DartRpcReader
