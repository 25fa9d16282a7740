/- The reader of `Spec/RustReader.lean` finds the `impl IntoVMBuffers` blocks whose text it is given. -/
import Verif.Proofs.RustReaderItems
namespace TPB.Spec.RustReader
open Rust Pieces

/-! ### `read_from_buffers` -/

def readArmToks (e : String) (a : Nat × String × Payload ReadE) : List Tok :=
  .word (toString a.1) :: .sym '=' :: .sym '>' :: .word "return" :: .word e :: .sym ':' :: .sym ':' :: .word a.2.1 ::
    (payloadToks readToks a.2.2 ++ [.sym ','])

def tagToks (t : ReadE) : List Tok := code "let value =" ++ (readToks t ++ code "; match value {")

def readBodyToks : ReadBody → List Tok
  | .unit id => code "fn read_from_buffers(_: &mut BytesReader) -> Self {" ++ [.word id, .sym '}']
  | .selfLit fs => code "fn read_from_buffers(bytes_reader: &mut BytesReader) -> Self {" ++ (code "Self {" ++
      (fs.flatMap (namedToks readToks) ++ [.sym '}', .sym '}']))
  | .matchTag tag e arms => code "fn read_from_buffers(bytes_reader: &mut BytesReader) -> Self {" ++ (tagToks tag ++
      (arms.flatMap (readArmToks e) ++ (.word "_" :: (otherwise ++ code "}"))))

def LegArm (a : Nat × String × Payload ReadE) : Prop := RustName a.2.1 ∧ LegPayload LegRead a.2.2

def LegReadBody : ReadBody → Prop
  | .unit id => RustName id
  | .selfLit fs => ∀ f ∈ fs, RustName f.1 ∧ LegRead f.2
  | .matchTag tag e arms => LegRead tag ∧ RustName e ∧ arms ≠ [] ∧ ∀ a ∈ arms, LegArm a

theorem sameEnum_ok {α : Type} (e : String) (as : List α) (h : as ≠ []) :
    sameEnum (as.map (fun a => (e, a))) = some (e, as) := by
  cases as with
  | nil => exact absurd rfl h
  | cons a as =>
    rw [List.map_cons, sameEnum, if_pos (by simp), List.map_map]
    have : ((fun x : String × α => x.2) ∘ fun a => (e, a)) = id := rfl
    rw [this, List.map_id]

theorem toString_ne (k : Nat) (w : String) (hw : ¬ IsDecimal w.toList) : toString k ≠ w := by
  intro he
  have := number_ok k []
  rw [he, number, if_neg hw] at this
  simp at this

theorem variantPath_ok {e v : String} (he : RustName e) (hv : RustName v) (r : List Tok) :
    variantPath (.word e :: .sym ':' :: .sym ':' :: .word v :: r) = some ((e, v), r) := by
  rw [variantPath, before_ok (a := e) (r := .word v :: r) (by rw [name_ok he]; simp)]
  simp [name_ok hv]

theorem readArm_ok {e : String} {a : Nat × String × Payload ReadE} (he : RustName e) (h : LegArm a) (r : List Tok) :
    readArm (readArmToks e a ++ r) = some ((e, a), r) := by
  obtain ⟨p, v, pl⟩ := a
  have hp := payload_ok (h.2.mono (fun _ => rd_read)) (closed_sym ',' (by decide) (by decide) r)
  simp only [readArm, readArmToks, List.cons_append]
  rw [before_ok (a := p) (r := .word e :: .sym ':' :: .sym ':' :: .word v ::
    (payloadToks readToks pl ++ [.sym ','] ++ r)) (by rw [number_ok]; simp)]
  simp only
  rw [variantPath_ok he h.1]
  simp only
  rw [before_ok (a := pl) (r := r) (by simpa using hp)]
  rfl

theorem matchTag_ok {t : ReadE} (h : LegRead t) (r : List Tok) : matchTag (tagToks t ++ r) = some (t, r) := by
  rw [matchTag, tagToks, List.append_assoc, eat_ok]
  simp only
  rw [List.append_assoc]
  exact before_ok (readE_ok h _)

theorem readBody_ok {b : ReadBody} (h : LegReadBody b) (r : List Tok) :
    readBody (readBodyToks b ++ r) = some (b, r) := by
  match b, h with
  | .unit id, h =>
    rw [readBody, readBodyToks, List.append_assoc, eat_ok]
    simp only [List.cons_append, List.nil_append]
    rw [before_ok (a := id) (r := r) (by rw [name_ok h]; simp)]
    rfl
  | .selfLit fs, h =>
    have hu := upTo_ok (stop := '}') (namedToks readToks) (.sym '}' :: r) fs
      (fun x hx r => named_ok (h x hx).1 (rd_read (h x hx).2) r) (fun x _ => ⟨.word x.1, _, rfl, by simp⟩)
    have hf : eat (code "fn read_from_buffers(_: &mut BytesReader) -> Self {") (readBodyToks (.selfLit fs) ++ r)
        = none := by simp [readBodyToks, eat]
    rw [readBody, hf]
    simp only
    rw [readBodyToks, List.append_assoc, eat_ok]
    simp only
    rw [List.append_assoc, eat_ok]
    simp only
    rw [before_ok (a := fs) (r := r) (by simpa using hu)]
    rfl
  | .matchTag tag e arms, h =>
    obtain ⟨h1, h2, h3, h4⟩ := h
    have hf : eat (code "fn read_from_buffers(_: &mut BytesReader) -> Self {")
        (readBodyToks (.matchTag tag e arms) ++ r) = none := by simp [readBodyToks, eat]
    have hs : ∀ q, eat (code "Self {") (tagToks tag ++ q) = none := by intro q; simp [tagToks, eat]
    have hm := manyAll_ok (item := readArm) (stop := .word "_") (fun x => readArmToks x.1 x.2)
      ((otherwise ++ code "}") ++ r) (arms.map (fun a => (e, a)))
      (fun x hx r => by
        obtain ⟨a, ha, rfl⟩ := List.mem_map.1 hx
        exact readArm_ok h2 (h4 a ha) r)
      (fun x _ => ⟨_, _, rfl, by simpa using toString_ne x.2.1 "_" (by decide)⟩)
    rw [List.flatMap_map] at hm
    rw [readBody, hf]
    simp only
    rw [readBodyToks, List.append_assoc, eat_ok]
    simp only
    rw [List.append_assoc, hs]
    simp only
    rw [matchTag_ok h1]
    simp only
    rw [List.append_assoc, List.cons_append,
      before_ok (item := fun ts => many readArm (.word "_") ts.length ts) (a := arms.map (fun a => (e, a))) hm]
    simp [sameEnum_ok e arms h3]

/-- A numbered arm that returns a variant. -/
theorem arm_start (n p : Nat) (e v b : String) (he : RustName e) (hv : RustName v) (hb : Clean b)
    (hbreak : b.toList.head?.any (fun c => !isWordChar c) = true) :
    Lexes [(n, toString p ++ " => return " ++ e ++ "::" ++ v ++ b)]
      (.word (toString p) :: .sym '=' :: .sym '>' :: .word "return" :: .word e :: .sym ':' :: .sym ':' :: .word v ::
        code b) :=
  Lexes.line n [.p (toString p) [.word (toString p)], .k " => return ", .w e, .k "::", .w v, .k b]
    ⟨piece_nat p, noNL_word _, by simp only [begins]; decide, by simp, he.1, by simp only [begins]; decide,
      by decide +kernel, hv.1, hbreak, hb, trivial⟩
    (by simp only [segsText, Seg.text, String.append_empty, String.append_assoc])
    (by simp [segsToks, Seg.toks])

theorem readArm_lines {e : String} {a : Nat × String × Payload ReadE} (he : RustName e) (h : LegArm a) :
    Lexes (renderReadArm e a) (readArmToks e a) := by
  obtain ⟨p, v, pl⟩ := a
  match pl, h with
  | .unit, h =>
    exact (arm_start 3 p e v "," he h.1 (by simp) (by decide)).of_eq (by simp [readArmToks, payloadToks])
  | .tuple es, h =>
    exact (((arm_start 3 p e v "(" he h.1 (by simp) (by decide)).append
      (Lexes.map es _ (fun e => readToks e ++ [.sym ',']) (fun e he => line_item 4 (read_piece (h.2 e he))))).append
      (line_k 3 ")," (by simp))).of_eq (by simp [readArmToks, payloadToks])
  | .named fs, h =>
    exact (((arm_start 3 p e v " {" he h.1 (by simp) (by decide)).append
      (Lexes.map fs _ (namedToks readToks) (fun f hf => line_named 4 (h.2 f hf).1 (read_piece (h.2 f hf).2)))).append
      (line_k 3 "}," (by simp))).of_eq (by simp [readArmToks, payloadToks])

theorem tag_line (n : Nat) {t : ReadE} (h : LegRead t) :
    Lexes [(n, "let value = " ++ t.render ++ ";")] (code "let value =" ++ (readToks t ++ [.sym ';'])) := by
  obtain ⟨h1, h2⟩ := read_piece h
  exact Lexes.line n [.k "let value = ", .p t.render (readToks t), .k ";"]
    ⟨by simp, h1, h2, by simp only [begins]; decide, by simp, trivial⟩
    (by simp only [segsText, Seg.text, String.append_empty, String.append_assoc])
    (by simp [segsToks, Seg.toks])

theorem readBody_lines {b : ReadBody} (h : LegReadBody b) : Lexes b.render (readBodyToks b) := by
  have hh := line_k 1 "fn read_from_buffers(bytes_reader: &mut BytesReader) -> Self {" (by simp)
  match b, h with
  | .unit id, h =>
    exact (((line_k 1 "fn read_from_buffers(_: &mut BytesReader) -> Self {" (by simp)).append
      (line_piece 2 ⟨piece_ident id (isIdent_spec h.1), noNL_word id⟩)).append (line_k 1 "}" (by simp))).of_eq
      (by simp [readBodyToks])
  | .selfLit fs, h =>
    exact (((hh.append (line_k 2 "Self {" (by simp))).append (Lexes.map fs _ (namedToks readToks)
      (fun f hf => line_named 3 (h f hf).1 (read_piece (h f hf).2)))).append
      ((line_k 2 "}" (by simp)).append (line_k 1 "}" (by simp)))).of_eq (by simp [readBodyToks])
  | .matchTag tag e arms, h =>
    exact (((hh.append ((tag_line 2 h.1).append (Lexes.blank.append (line_k 2 "match value {" (by simp))))).append
      (Lexes.flatMap arms _ (readArmToks e) (fun a ha => readArm_lines h.2.1 (h.2.2.2 a ha)))).append
      ((line_k 3 unsupported (by unfold unsupported; simp)).append
        ((line_k 2 "}" (by simp)).append (line_k 1 "}" (by simp))))).of_eq
      (by simp [readBodyToks, tagToks, unsupported, otherwise])

/-! ### `write_to_buffers` -/

def varToks (x : String) : List Tok := [.word x, .sym ',']

def patternToks : Payload Unit → List String → List Tok
  | .unit, _ => []
  | .tuple _, xs => .sym '(' :: (xs.flatMap varToks ++ [.sym ')'])
  | .named _, xs => .sym '{' :: (xs.flatMap varToks ++ [.sym '}'])

def LegPattern : Payload Unit → List String → Prop
  | .unit, xs => xs = []
  | .tuple us, xs => us = [] ∧ ∀ x ∈ xs, RustName x
  | .named us, xs => us = [] ∧ ∀ x ∈ xs, RustName x

def writeArmToks (e : String) (a : String × Payload Unit × List String × List WriteS) : List Tok :=
  .word e :: .sym ':' :: .sym ':' :: .word a.1 :: (patternToks a.2.1 a.2.2.1 ++ .sym '=' :: .sym '>' :: .sym '{' ::
    (a.2.2.2.flatMap writeToks ++ [.sym '}', .sym ',']))

def LegWriteArm (a : String × Payload Unit × List String × List WriteS) : Prop :=
  RustName a.1 ∧ LegPattern a.2.1 a.2.2.1 ∧ ∀ s ∈ a.2.2.2, LegWrite s

def writeBodyToks : WriteBody → List Tok
  | .nop => code "fn write_to_buffers(&self, _: &mut BytesWriter) {}"
  | .stmts ss => code "fn write_to_buffers(&self, bytes_writer: &mut BytesWriter) {" ++
      (ss.flatMap writeToks ++ [.sym '}'])
  | .matchSelf e arms => code "fn write_to_buffers(&self, bytes_writer: &mut BytesWriter) {" ++
      (code "match self {" ++ (arms.flatMap (writeArmToks e) ++ [.sym '}', .sym '}']))

def LegWriteBody : WriteBody → Prop
  | .nop => True
  | .stmts ss => ∀ s ∈ ss, LegWrite s
  | .matchSelf e arms => RustName e ∧ arms ≠ [] ∧ ∀ a ∈ arms, LegWriteArm a

theorem patternVar_ok {x : String} (h : RustName x) (r : List Tok) : patternVar (varToks x ++ r) = some (x, r) :=
  before_ok (by simp [varToks, name_ok h])

theorem pattern_ok {p : Payload Unit} {xs : List String} (h : LegPattern p xs) (r : List Tok) :
    pattern (patternToks p xs ++ .sym '=' :: r) = some ((p, xs), .sym '=' :: r) := by
  match p, h with
  | .unit, h =>
    have h : xs = [] := h
    subst h
    rfl
  | .tuple us, h =>
    obtain ⟨rfl, h⟩ := h
    have hu := upTo_ok (stop := ')') varToks (.sym '=' :: r) xs (fun x hx r => patternVar_ok (h x hx) r)
      (fun x _ => ⟨_, _, rfl, by simp⟩)
    rw [patternToks, List.cons_append, List.append_assoc, List.singleton_append, pattern, hu]
    rfl
  | .named us, h =>
    obtain ⟨rfl, h⟩ := h
    have hu := upTo_ok (stop := '}') varToks (.sym '=' :: r) xs (fun x hx r => patternVar_ok (h x hx) r)
      (fun x _ => ⟨_, _, rfl, by simp⟩)
    rw [patternToks, List.cons_append, List.append_assoc, List.singleton_append, pattern, hu]
    rfl

theorem stmts_ok {ss : List WriteS} (h : ∀ s ∈ ss, LegWrite s) (r : List Tok) :
    upTo '}' writeS (ss.flatMap writeToks ++ .sym '}' :: r) = some (ss, r) :=
  upTo_ok writeToks r ss (fun s hs r => writeS_ok (h s hs) r) (fun s _ => (write_first s).stop '}')

theorem writeArm_ok {e : String} {a : String × Payload Unit × List String × List WriteS} (he : RustName e)
    (h : LegWriteArm a) (r : List Tok) : writeArm (writeArmToks e a ++ r) = some ((e, a), r) := by
  obtain ⟨v, p, xs, ss⟩ := a
  obtain ⟨h1, h2, h3⟩ := h
  have hp := pattern_ok h2 (.sym '>' :: .sym '{' :: (ss.flatMap writeToks ++ .sym '}' :: .sym ',' :: r))
  have hs := stmts_ok h3 (.sym ',' :: r)
  simp only at hp hs h1 h2 h3
  simp only [writeArm, writeArmToks, List.cons_append]
  rw [variantPath_ok he h1]
  simp only
  rw [before_ok (a := (p, xs)) (r := ss.flatMap writeToks ++ .sym '}' :: .sym ',' :: r) (by simpa using hp)]
  simp only
  rw [before_ok (a := ss) (r := r) (by simpa using hs)]
  rfl

theorem stmts_notMatch {ss : List WriteS} (h : ∀ s ∈ ss, LegWrite s) (r : List Tok) :
    eat (code "match self {") (ss.flatMap writeToks ++ .sym '}' :: r) = none := by
  cases ss with
  | nil => simp [eat]
  | cons s ss =>
    have hs := h s (by simp)
    rw [List.flatMap_cons]
    match s, hs with
    | .prim m a, _ => simp [writeToks, eat]
    | .call (.field n), _ => simp [writeToks, placeToks, eat]
    | .call (.var n), hs => simp [writeToks, placeToks, eat, rustName_ne hs "match" (by decide)]

theorem writeBody_ok {b : WriteBody} (h : LegWriteBody b) (r : List Tok) :
    writeBody (writeBodyToks b ++ r) = some (b, r) := by
  match b, h with
  | .nop, _ => rw [writeBody, writeBodyToks, eat_ok]
  | .stmts ss, h =>
    have hf : eat (code "fn write_to_buffers(&self, _: &mut BytesWriter) {}") (writeBodyToks (.stmts ss) ++ r)
        = none := by simp [writeBodyToks, eat]
    rw [writeBody, hf]
    simp only
    rw [writeBodyToks, List.append_assoc, eat_ok]
    simp only [List.append_assoc, List.singleton_append]
    rw [stmts_notMatch h, stmts_ok h]
    rfl
  | .matchSelf e arms, h =>
    obtain ⟨h1, h2, h3⟩ := h
    have hf : eat (code "fn write_to_buffers(&self, _: &mut BytesWriter) {}") (writeBodyToks (.matchSelf e arms) ++ r)
        = none := by simp [writeBodyToks, eat]
    have hm := upTo_ok (item := writeArm) (stop := '}') (fun x => writeArmToks x.1 x.2) (.sym '}' :: r)
      (arms.map (fun a => (e, a)))
      (fun x hx r => by
        obtain ⟨a, ha, rfl⟩ := List.mem_map.1 hx
        exact writeArm_ok h1 (h3 a ha) r)
      (fun x _ => ⟨_, _, rfl, by simp⟩)
    rw [List.flatMap_map] at hm
    rw [writeBody, hf]
    simp only
    rw [writeBodyToks, List.append_assoc, eat_ok]
    simp only
    rw [List.append_assoc, eat_ok]
    simp only
    rw [before_ok (a := arms.map (fun a => (e, a))) (r := r) (by simpa using hm)]
    simp [sameEnum_ok e arms h2]

theorem variant_start (n : Nat) (e v b : String) (he : RustName e) (hv : RustName v) (hb : Clean b)
    (hbreak : b.toList.head?.any (fun c => !isWordChar c) = true) :
    Lexes [(n, e ++ "::" ++ v ++ b)] (.word e :: .sym ':' :: .sym ':' :: .word v :: code b) :=
  Lexes.line n [.w e, .k "::", .w v, .k b]
    ⟨he.1, by simp only [begins]; decide, by decide +kernel, hv.1, hbreak, hb, trivial⟩
    (by simp only [segsText, Seg.text, String.append_empty, String.append_assoc])
    (by simp [segsToks, Seg.toks])

theorem stmts_lines (n : Nat) {ss : List WriteS} (h : ∀ s ∈ ss, LegWrite s) :
    Lexes (ss.map (fun s => (n, s.render))) (ss.flatMap writeToks) :=
  Lexes.map ss _ writeToks (fun s hs => line_piece n (write_piece (h s hs)))

theorem vars_lines {xs : List String} (h : ∀ x ∈ xs, RustName x) :
    Lexes (xs.map (fun x => (4, x ++ ","))) (xs.flatMap varToks) :=
  Lexes.map xs _ varToks (fun x hx =>
    (line_start 4 x "," (h x hx).1 (by simp) (by decide)).of_eq (by simp [varToks]))

theorem writeArm_lines {e : String} {a : String × Payload Unit × List String × List WriteS} (he : RustName e)
    (h : LegWriteArm a) : Lexes (renderWriteArm e a) (writeArmToks e a) := by
  obtain ⟨v, p, xs, ss⟩ := a
  obtain ⟨h1, h2, h3⟩ := h
  simp only at h1 h2 h3
  have hs := (stmts_lines 4 h3).append (line_k 3 "}," (by simp))
  match p, h2 with
  | .unit, h2 =>
    exact ((variant_start 3 e v " => {" he h1 (by simp) (by decide)).append hs).of_eq
      (by simp [writeArmToks, patternToks])
  | .tuple us, h2 =>
    have := ((variant_start 3 e v "(" he h1 (by simp) (by decide)).append (vars_lines h2.2)).append
      ((line_k 3 ") => {" (by simp)).append hs)
    simp only [List.append_assoc] at this
    have e' : renderWriteArm e (v, .tuple us, xs, ss) = [(3, e ++ "::" ++ v ++ "(")] ++ (xs.map (fun x => (4, x ++ ","))
      ++ ([(3, ") => {")] ++ (ss.map (fun s => (4, s.render)) ++ [(3, "},")]))) := by
      simp only [renderWriteArm, List.append_assoc]
    rw [e']
    exact this.of_eq (by simp [writeArmToks, patternToks])
  | .named us, h2 =>
    have := ((variant_start 3 e v " {" he h1 (by simp) (by decide)).append (vars_lines h2.2)).append
      ((line_k 3 "} => {" (by simp)).append hs)
    simp only [List.append_assoc] at this
    have e' : renderWriteArm e (v, .named us, xs, ss) = [(3, e ++ "::" ++ v ++ " {")] ++ (xs.map (fun x => (4, x ++ ","))
      ++ ([(3, "} => {")] ++ (ss.map (fun s => (4, s.render)) ++ [(3, "},")]))) := by
      simp only [renderWriteArm, List.append_assoc]
    rw [e']
    exact this.of_eq (by simp [writeArmToks, patternToks])

theorem writeBody_lines {b : WriteBody} (h : LegWriteBody b) : Lexes b.render (writeBodyToks b) := by
  have hh := line_k 1 "fn write_to_buffers(&self, bytes_writer: &mut BytesWriter) {" (by simp)
  match b, h with
  | .nop, _ => exact line_k 1 "fn write_to_buffers(&self, _: &mut BytesWriter) {}" (by simp)
  | .stmts ss, h =>
    exact ((hh.append (stmts_lines 2 h)).append (line_k 1 "}" (by simp))).of_eq (by simp [writeBodyToks])
  | .matchSelf e arms, h =>
    exact (((hh.append (line_k 2 "match self {" (by simp))).append
      (Lexes.flatMap arms _ (writeArmToks e) (fun a ha => writeArm_lines h.1 (h.2.2 a ha)))).append
      ((line_k 2 "}" (by simp)).append (line_k 1 "}" (by simp)))).of_eq (by simp [writeBodyToks])

/-! ### `skip_in_buffers` -/

def readStmtToks (e : ReadE) : List Tok := readToks e ++ [.sym ';']

def skipArmToks : Nat × Option (List ReadE) → List Tok
  | (p, none) => .word (toString p) :: .sym '=' :: .sym '>' :: code "(),"
  | (p, some es) => .word (toString p) :: .sym '=' :: .sym '>' :: .sym '{' ::
      (es.flatMap readStmtToks ++ [.sym '}', .sym ','])

def skipHeadToks : List Tok :=
  code "fn skip_in_buffers(bytes_reader: &mut BytesReader, count: u64) { for _ in 0..count {"

def skipBodyToks : SkipBody → List Tok
  | .nop => code "fn skip_in_buffers(_: &mut BytesReader, _: u64) {}"
  | .loop es => skipHeadToks ++ (es.flatMap readStmtToks ++ [.sym '}', .sym '}'])
  | .loopMatch tag arms => skipHeadToks ++ (tagToks tag ++ (arms.flatMap skipArmToks ++
      .word "_" :: (otherwise ++ code "} }")))

def LegSkipArm (a : Nat × Option (List ReadE)) : Prop := ∀ es, a.2 = some es → ∀ e ∈ es, LegRead e

def LegSkipBody : SkipBody → Prop
  | .nop => True
  | .loop es => ∀ e ∈ es, LegRead e
  | .loopMatch tag arms => LegRead tag ∧ ∀ a ∈ arms, LegSkipArm a

theorem readStmts_ok {es : List ReadE} (h : ∀ e ∈ es, LegRead e) (r : List Tok) :
    upTo '}' readStmt (es.flatMap readStmtToks ++ .sym '}' :: r) = some (es, r) :=
  upTo_ok readStmtToks r es (fun e he r => item_ok (rd_read (h e he)) ';' (by decide) ";" (by simp) r)
    (fun e _ => ((read_first e).append _).stop '}')

theorem skipArm_ok {a : Nat × Option (List ReadE)} (h : LegSkipArm a) (r : List Tok) :
    skipArm (skipArmToks a ++ r) = some (a, r) := by
  obtain ⟨p, o⟩ := a
  cases o with
  | none =>
    simp only [skipArm, skipArmToks, List.cons_append]
    rw [before_ok (a := p) (r := code "()," ++ r) (by rw [number_ok]; simp)]
    simp only [eat_ok]
  | some es =>
    have hs := readStmts_ok (h es rfl) (.sym ',' :: r)
    simp only [skipArm, skipArmToks, List.cons_append, List.append_assoc, List.nil_append]
    rw [before_ok (a := p) (r := .sym '{' :: (es.flatMap readStmtToks ++ .sym '}' :: .sym ',' :: r))
      (by rw [number_ok]; simp)]
    have h1 : ∀ q, eat (code "(),") (.sym '{' :: q) = none := by intro q; simp [eat]
    have h2 : ∀ q, eat (code "{") (.sym '{' :: q) = some q := by intro q; simp [eat]
    simp only [h1, h2]
    rw [before_ok (a := es) (r := r) (by simpa using hs)]
    rfl

theorem stmts_notTag {es : List ReadE} (h : ∀ e ∈ es, LegRead e) (r : List Tok) :
    matchTag (es.flatMap readStmtToks ++ .sym '}' :: r) = none := by
  have : eat (code "let value =") (es.flatMap readStmtToks ++ .sym '}' :: r) = none := by
    cases es with
    | nil => simp [eat]
    | cons e es =>
      have he := h e (by simp)
      rw [List.flatMap_cons]
      match e, he with
      | .prim m, _ => simp [readStmtToks, readToks, eat]
      | .path (.named id), he =>
        rw [LegRead, LegTy] at he
        simp [readStmtToks, readToks, pathToks, eat, rustName_ne he "let" (by decide)]
      | .path (.app id args), he =>
        rw [LegRead, LegTy] at he
        simp [readStmtToks, readToks, pathToks, eat, rustName_ne he.1 "let" (by decide)]
  rw [matchTag, this]

theorem skipArm_first (a : Nat × Option (List ReadE)) : ∃ t ts, skipArmToks a = t :: ts ∧ t ≠ .word "_" := by
  obtain ⟨p, o⟩ := a
  cases o with
  | none => exact ⟨.word (toString p), _, rfl, by simpa using toString_ne p "_" (by decide)⟩
  | some es => exact ⟨.word (toString p), _, rfl, by simpa using toString_ne p "_" (by decide)⟩

theorem skipBody_ok {b : SkipBody} (h : LegSkipBody b) (r : List Tok) :
    skipBody (skipBodyToks b ++ r) = some (b, r) := by
  match b, h with
  | .nop, _ => rw [skipBody, skipBodyToks, eat_ok]
  | .loop es, h =>
    have hf : eat (code "fn skip_in_buffers(_: &mut BytesReader, _: u64) {}") (skipBodyToks (.loop es) ++ r)
        = none := by simp [skipBodyToks, skipHeadToks, eat]
    have hs := readStmts_ok h (.sym '}' :: r)
    rw [skipBody, hf]
    simp only
    rw [skipBodyToks, skipHeadToks, List.append_assoc, eat_ok]
    simp only [List.append_assoc, List.cons_append, List.nil_append]
    rw [stmts_notTag h]
    simp only
    rw [before_ok (a := es) (r := r) (by simpa using hs)]
    rfl
  | .loopMatch tag arms, h =>
    have hf : eat (code "fn skip_in_buffers(_: &mut BytesReader, _: u64) {}")
        (skipBodyToks (.loopMatch tag arms) ++ r) = none := by simp [skipBodyToks, skipHeadToks, eat]
    have hm := manyAll_ok (item := skipArm) (stop := .word "_") skipArmToks ((otherwise ++ code "} }") ++ r) arms
      (fun a ha r => skipArm_ok (h.2 a ha) r) (fun a _ => skipArm_first a)
    rw [skipBody, hf]
    simp only
    rw [skipBodyToks, skipHeadToks, List.append_assoc, eat_ok]
    simp only
    rw [List.append_assoc, matchTag_ok h.1]
    simp only
    rw [List.append_assoc, List.cons_append,
      before_ok (item := fun ts => many skipArm (.word "_") ts.length ts) (a := arms) hm]
    rfl

theorem number_start (n p : Nat) (b : String) (hb : Clean b)
    (hbreak : b.toList.head?.any (fun c => decide (isBreak c)) = true) :
    Lexes [(n, toString p ++ b)] (.word (toString p) :: code b) :=
  Lexes.line n [.p (toString p) [.word (toString p)], .k b] ⟨piece_nat p, noNL_word _, hbreak, hb, trivial⟩
    (by simp only [segsText, Seg.text, String.append_empty]) (by simp [segsToks, Seg.toks])

theorem readStmts_lines (n : Nat) {es : List ReadE} (h : ∀ e ∈ es, LegRead e) :
    Lexes (es.map (fun e => (n, e.render ++ ";"))) (es.flatMap readStmtToks) :=
  Lexes.map es _ readStmtToks (fun e he => line_stmt n (read_piece (h e he)))

theorem skipArm_lines {a : Nat × Option (List ReadE)} (h : LegSkipArm a) :
    Lexes (renderSkipArm a) (skipArmToks a) := by
  obtain ⟨p, o⟩ := a
  cases o with
  | none => exact (number_start 4 p " => ()," (by simp) (by decide)).of_eq (by simp [skipArmToks])
  | some es =>
    exact (((number_start 4 p " => {" (by simp) (by decide)).append (readStmts_lines 5 (h es rfl))).append
      (line_k 4 "}," (by simp))).of_eq (by simp [skipArmToks])

theorem skipBody_lines {b : SkipBody} (h : LegSkipBody b) : Lexes b.render (skipBodyToks b) := by
  have hh := (line_k 1 "fn skip_in_buffers(bytes_reader: &mut BytesReader, count: u64) {" (by simp)).append
    (line_k 2 "for _ in 0..count {" (by simp))
  match b, h with
  | .nop, _ => exact line_k 1 "fn skip_in_buffers(_: &mut BytesReader, _: u64) {}" (by decide +kernel)
  | .loop es, h =>
    exact ((hh.append (readStmts_lines 3 h)).append ((line_k 2 "}" (by simp)).append (line_k 1 "}" (by simp)))).of_eq
      (by simp [skipBodyToks, skipHeadToks])
  | .loopMatch tag arms, h =>
    exact (((hh.append ((tag_line 3 h.1).append (Lexes.blank.append (line_k 3 "match value {" (by simp))))).append
      (Lexes.flatMap arms _ skipArmToks (fun a ha => skipArm_lines (h.2 a ha)))).append
      ((line_k 4 unsupported (by unfold unsupported; simp)).append ((line_k 3 "}" (by simp)).append
        ((line_k 2 "}" (by simp)).append (line_k 1 "}" (by simp)))))).of_eq
      (by simp [skipBodyToks, skipHeadToks, tagToks, unsupported, otherwise])

/-! ### Blocks -/

def implToks (i : Impl) : List Tok :=
  code "impl IntoVMBuffers for" ++ .word i.id :: .sym '{' ::
    (readBodyToks i.read ++ (writeBodyToks i.write ++ (skipBodyToks i.skip ++ [.sym '}'])))

def LegImpl (i : Impl) : Prop :=
  RustName i.id ∧ LegReadBody i.read ∧ LegWriteBody i.write ∧ LegSkipBody i.skip

theorem impl_ok {i : Impl} (h : LegImpl i) (r : List Tok) : impl (implToks i ++ r) = some (i, r) := by
  obtain ⟨h1, h2, h3, h4⟩ := h
  rw [impl, implToks, List.append_assoc, eat_ok]
  simp only [List.cons_append, List.append_assoc, List.nil_append]
  rw [before_ok (a := i.id) (r := readBodyToks i.read ++ (writeBodyToks i.write ++ (skipBodyToks i.skip ++
    .sym '}' :: r))) (by rw [name_ok h1]; simp)]
  simp only
  rw [readBody_ok h2]
  simp only
  rw [writeBody_ok h3]
  simp only
  rw [before_ok (a := i.skip) (r := r) (by rw [skipBody_ok h4]; simp)]
  rfl

theorem impl_lines {i : Impl} (h : LegImpl i) : Lexes i.render (implToks i) := by
  have := (line_name 0 "impl IntoVMBuffers for " i.id " {" h.1.1 (by simp) (by simp) (by decide)).append
    (readBody_lines h.2.1) |>.append Lexes.blank |>.append (writeBody_lines h.2.2.1) |>.append Lexes.blank
    |>.append (skipBody_lines h.2.2.2) |>.append (line_k 0 "}" (by simp))
  exact this.of_eq (by simp [implToks])

theorem impl_first (i : Impl) : ∃ t ts, implToks i = t :: ts :=
  ⟨.word "impl", _, by rw [implToks, code_implInto]; rfl⟩

theorem readImpls_ok (u : Nat) (is : List Impl) (h : ∀ i ∈ is, LegImpl i) :
    readImpls (linesText u (joinBlocks (is.map Impl.render))) = some is := by
  have hl := Lexes.blocks is Impl.render implToks (fun i hi => impl_lines (h i hi))
  rw [readImpls, hl.pieces, Option.bind_some]
  exact toEndAll_ok implToks is (fun i hi r => impl_ok (h i hi) r) (fun i _ => impl_first i)

end TPB.Spec.RustReader
