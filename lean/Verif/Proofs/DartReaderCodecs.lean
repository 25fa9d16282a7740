/- The reader of `Spec/DartReader.lean` finds the codec classes whose text it is given. -/
import Verif.Proofs.DartReader
namespace TPB.Spec.DartReader
open Dart Pieces Combinators DartRules

/-- The line `@override`. -/
def ov : List Seg := [.k "@", .w "override"]
theorem ov_toks : segsToks ov = code "@override" := by decide +kernel
theorem ov_text : segsText ov = "@override" := by decide +kernel
theorem ov_good : Good ov := by unfold ov; good

/-- Pieces of lines in normal form. -/
macro "btoks" "[" ls:Lean.Parser.Tactic.simpLemma,* "]" : tactic =>
  `(tactic| simp only [blockToks_append, blockToks_cons, blockToks_nil, blockToks_map, blockToks_flatMap, segsToks_append,
      segsToks, Seg.toks, List.append_assoc, List.cons_append, List.nil_append, List.append_nil, ov_toks, $ls,*])

/-- Lines in normal form. -/
macro "blines" "[" ls:Lean.Parser.Tactic.simpLemma,* "]" : tactic =>
  `(tactic| simp only [blockLines_append, blockLines_cons, blockLines_nil, blockLines_map, blockLines_flatMap,
      segsText_append, segsText, Seg.text, String.append_assoc, String.append_empty, List.append_assoc, List.cons_append,
      List.nil_append, List.append_nil, ov_text, $ls,*])

macro "goodb" : tactic => `(tactic| repeat' first
  | exact GoodBlock.nil
  | refine GoodBlock.cons ?_ ?_
  | (with_reducible assumption)
  | (with_reducible exact ov_good)
  | ((with_reducible show Good _); good))

theorem code_closeB : code "}" = [.sym '}'] := by decide +kernel
theorem code_default : code "default:" = .word "default" :: code ":" := by decide +kernel
theorem code_case : code "case " = [.word "case"] := by decide +kernel
theorem code_case' : code "case" = [.word "case"] := by decide +kernel

/-! ### `write` and `skip` of structs -/

def writeHeadBlock (id : String) : Block :=
  [(1, ov), (1, [.k "void write(BytesWriter writer, ", .w id, .k " model) {"])]

def writesBlock (id : String) (ws : List WriteS) : Block :=
  writeHeadBlock id ++ ws.map (fun s => (2, writeSegs s)) ++ [(1, [.k "}"])]

theorem writes_lines (id : String) (ws : List WriteS) : blockLines (writesBlock id ws) = renderWrites id ws := by
  rw [writesBlock, writeHeadBlock, renderWrites, writeHeader]
  blines [write_text]

theorem writeHead_good {id : String} (hid : isIdent id = true) : GoodBlock (writeHeadBlock id) := by
  rw [writeHeadBlock]; goodb

theorem writes_good {id : String} (hid : isIdent id = true) {ws : List WriteS} (h : ∀ s ∈ ws, LegWrite s) :
    GoodBlock (writesBlock id ws) :=
  ((writeHead_good hid).append (GoodBlock.map (fun s hs => write_good (h s hs)))).append (by goodb)

theorem writeHead_ok (id : String) (r : List Tok) : writeHead id (blockToks (writeHeadBlock id) ++ r) = some ((), r) := by
  btoks [writeHeadBlock]
  exact bind_ok (text2 (by decide +kernel) _) <| bind_ok (the_ok _ _) <| text_ok' _ (by decide +kernel) _

theorem writes_ok (id : String) {ws : List WriteS} (h : ∀ s ∈ ws, LegWrite s) (r : List Tok) :
    writes id (blockToks (writesBlock id ws) ++ r) = some (ws, r) := by
  rw [writesBlock, List.append_assoc, blockToks_append, List.append_assoc]
  refine bind_ok (writeHead_ok id _) ?_
  btoks [code_closeB]
  exact until_ok (fun s => segsToks (writeSegs s)) r ws (fun s hs r => writeS_ok (h s hs) r) (fun s _ => (write_first s).stop '}')

def skipHeadBlock : Block := [(1, ov), (1, [.k "void skip(BytesReader reader, int count) {"])]

def skipsBlock (s : SkipBody) : Block :=
  skipHeadBlock ++ s.once.map (fun s => (2, skipSegs s)) ++ (if s.once.isEmpty then [] else [(0, [])])
    ++ [(2, [.k "for (int i = 0; i < count; i += 1) {"])] ++ s.loop.map (fun s => (3, skipSegs s))
    ++ [(2, [.k "}"]), (1, [.k "}"])]

theorem skips_lines (s : SkipBody) : blockLines (skipsBlock s) = s.render := by
  rw [skipsBlock, skipHeadBlock, SkipBody.render, skipHeader]
  have e : blockLines (if s.once.isEmpty then [] else [(0, [])]) = if s.once.isEmpty then [] else [(0, "")] := by
    split <;> rfl
  blines [skip_text, e]

def LegSkips (s : SkipBody) : Prop := (∀ x ∈ s.once, LegSkip x) ∧ ∀ x ∈ s.loop, LegSkip x

theorem skipHead_good : GoodBlock skipHeadBlock := by rw [skipHeadBlock]; goodb

theorem skips_good {s : SkipBody} (h : LegSkips s) : GoodBlock (skipsBlock s) := by
  refine ((((skipHead_good.append (GoodBlock.map (fun s hs => skip_good (h.1 s hs)))).append ?_).append (by goodb)).append
    (GoodBlock.map (fun s hs => skip_good (h.2 s hs)))).append (by goodb)
  split
  · exact GoodBlock.nil
  · goodb

theorem skipHead_ok (r : List Tok) : skipHead (blockToks skipHeadBlock ++ r) = some ((), r) := by
  btoks [skipHeadBlock]
  exact text2 (by decide +kernel) _

theorem code_for : ∃ q, code "for (int i = 0; i < count; i += 1) {" = .word "for" :: q :=
  ⟨(code "for (int i = 0; i < count; i += 1) {").tail, by decide +kernel⟩

theorem skipS_for (r : List Tok) : skipS (code "for (int i = 0; i < count; i += 1) {" ++ r) = none := by
  obtain ⟨q, h⟩ := code_for
  rw [h, List.cons_append]
  exact next_no (by simp) <| bind_none <| bind_none <| text_none (p := .word "reader") (by decide +kernel) (by simp)

theorem skips_ok {s : SkipBody} (h : LegSkips s) (r : List Tok) : skips (blockToks (skipsBlock s) ++ r) = some (s, r) := by
  have e : blockToks (if s.once.isEmpty then [] else [(0, [])]) = [] := by split <;> rfl
  rw [skipsBlock]
  rw [List.append_assoc, List.append_assoc, List.append_assoc, List.append_assoc, blockToks_append, List.append_assoc]
  refine bind_ok (skipHead_ok _) ?_
  btoks [e, code_closeB]
  refine bind_ok (star_ok (fun s => segsToks (skipSegs s)) _ (skipS_for _) ?_ s.once (fun s hs r => skipS_ok (h.1 s hs) r)
    (fun s _ => ?_)) ?_
  · obtain ⟨q, h⟩ := code_for
    rw [h]; simp
  · obtain ⟨w, q, h⟩ := skip_first s
    exact ⟨_, _, h⟩
  · exact bind_ok (text_ok _ _) <| bind_ok (until_ok (fun s => segsToks (skipSegs s)) _ s.loop
      (fun s hs r => skipS_ok (h.2 s hs) r) (fun s _ => (skip_first s).stop '}')) <| bind_ok (tok1 code_closeB _) rfl

/-! ### Cases -/

/-- `EValue.c` -/
def constSegs (id c : String) : List Seg := [.w (id ++ "Value"), .k ".", .w c]

theorem constant_ok (id : String) {c : String} (h : DartName c) (r : List Tok) :
    constant id (segsToks (constSegs id c) ++ r) = some (c, r) := by
  toks [constSegs]
  exact bind_ok (the_ok _ _) <| bind_ok (text_ok _ _) <| name_ok h r

theorem ident_value {id : String} (h : isIdent id = true) : isIdent (id ++ "Value") = true :=
  ident_append h (by unfold Tail; decide +kernel)

theorem const_good {id c : String} (hid : isIdent id = true) (hc : isIdent c = true) {ss : List Seg}
    (hb : begins (fun c => !isWordChar c) ss = true) (hs : Good ss) : Good (constSegs id c ++ ss) :=
  ⟨ident_value hid, rfl, by decide +kernel, hc, hb, hs⟩

def payloadSegs (c : Codec) (f : String) : List Seg := codecSegs c ++ [.k ".read(reader, model.", .w f, .k ");"]

theorem payload_good {c : Codec} {f : String} (hc : LegCodec c) (hf : isIdent f = true) : Good (payloadSegs c f) :=
  (codec_good hc).append (codec_closed c) (by good)

theorem payloadRead_ok {c : Codec} {f : String} (hc : LegCodec c) (hf : DartName f) (r : List Tok) :
    payloadRead (segsToks (payloadSegs c f) ++ r) = some ((c, f), r) := by
  toks [payloadSegs]
  exact bind_ok (codec_ok hc _) <| bind_ok (text_ok _ _) <| bind_ok (name_ok hf _) <| bind_ok (text_ok _ _) rfl

def numSeg (n : Nat) : Seg := .p (toString n) [.word (toString n)]

theorem num_good (n : Nat) {ss : List Seg} (hb : begins (fun c => decide (isBreak c)) ss = true) (hs : Good ss) :
    Good (numSeg n :: ss) := ⟨piece_nat n, noNL_word _, hb, hs⟩

def LegReadCase (c : ReadCase) : Prop := DartName c.const ∧ LegCodec c.codec ∧ DartName c.field
def LegWriteCase (c : WriteCase) : Prop := DartName c.const ∧ LegCodec c.codec ∧ DartName c.field

def intoCaseBlock (id : String) (c : ReadCase) : Block :=
  [(3, [.k "case ", numSeg c.pos, .k ":"]), (4, [.k "final model = ", .w id, .k "();"]),
   (4, .k "model.value = " :: constSegs id c.const ++ [.k ";"]), (4, payloadSegs c.codec c.field),
   (4, [.k "return model;"]), (0, [])]

def emplaceCaseBlock (id : String) (c : ReadCase) : Block :=
  [(3, [.k "case ", numSeg c.pos, .k ":"]), (4, .k "model.value = " :: constSegs id c.const ++ [.k ";"]),
   (4, payloadSegs c.codec c.field), (4, [.k "return;"]), (0, [])]

def writeCaseBlock (id : String) (c : WriteCase) : Block :=
  [(3, .k "case " :: constSegs id c.const ++ [.k ":"]), (4, [.k "writer.writeInt32(", numSeg c.pos, .k ");"]),
   (4, codecSegs c.codec ++ [.k ".write(writer, model.", .w c.field, .k ");"]), (4, [.k "return;"])]

def skipCaseBlock (c : SkipCase) : Block :=
  [(4, [.k "case ", numSeg c.pos, .k ":"]), (5, codecSegs c.codec ++ [.k ".skip(reader, 1);"]), (5, [.k "break;"]), (0, [])]

theorem value_dot (c : String) : "Value" ++ ("." ++ c) = "Value." ++ c := by rw [← String.append_assoc]; rfl

theorem intoCase_lines (id : String) (c : ReadCase) : blockLines (intoCaseBlock id c) = c.renderInto id := by
  rw [intoCaseBlock, ReadCase.renderInto]
  blines [payloadSegs, constSegs, numSeg, codec_text, value_dot]

theorem emplaceCase_lines (id : String) (c : ReadCase) : blockLines (emplaceCaseBlock id c) = c.renderEmplace id := by
  rw [emplaceCaseBlock, ReadCase.renderEmplace]
  blines [payloadSegs, constSegs, numSeg, codec_text, value_dot]

theorem writeCase_lines (id : String) (c : WriteCase) : blockLines (writeCaseBlock id c) = c.render id := by
  rw [writeCaseBlock, WriteCase.render]
  blines [constSegs, numSeg, codec_text, value_dot]

theorem skipCase_lines (c : SkipCase) : blockLines (skipCaseBlock c) = c.render := by
  rw [skipCaseBlock, SkipCase.render]
  blines [numSeg, codec_text]

theorem intoCase_good {id : String} (hid : isIdent id = true) {c : ReadCase} (h : LegReadCase c) :
    GoodBlock (intoCaseBlock id c) := by
  have h1 : Good [.k "case ", numSeg c.pos, .k ":"] := ⟨by decide +kernel, num_good _ (by simp only [begins]; decide) (by good)⟩
  have h2 : Good (.k "model.value = " :: constSegs id c.const ++ [.k ";"]) :=
    ⟨by decide +kernel, const_good hid h.1.1 (by simp only [begins]; decide) (by good)⟩
  have h3 := payload_good h.2.1 h.2.2.1
  rw [intoCaseBlock]; goodb

theorem emplaceCase_good {id : String} (hid : isIdent id = true) {c : ReadCase} (h : LegReadCase c) :
    GoodBlock (emplaceCaseBlock id c) := by
  have h1 : Good [.k "case ", numSeg c.pos, .k ":"] := ⟨by decide +kernel, num_good _ (by simp only [begins]; decide) (by good)⟩
  have h2 : Good (.k "model.value = " :: constSegs id c.const ++ [.k ";"]) :=
    ⟨by decide +kernel, const_good hid h.1.1 (by simp only [begins]; decide) (by good)⟩
  have h3 := payload_good h.2.1 h.2.2.1
  rw [emplaceCaseBlock]; goodb

theorem writeCase_good {id : String} (hid : isIdent id = true) {c : WriteCase} (h : LegWriteCase c) :
    GoodBlock (writeCaseBlock id c) := by
  have h1 : Good (.k "case " :: constSegs id c.const ++ [.k ":"]) :=
    ⟨by decide +kernel, const_good hid h.1.1 (by simp only [begins]; decide) (by good)⟩
  have h2 : Good [.k "writer.writeInt32(", numSeg c.pos, .k ");"] :=
    ⟨by decide +kernel, num_good _ (by simp only [begins]; decide) (by good)⟩
  have hf := h.2.2.1
  have h3 : Good (codecSegs c.codec ++ [.k ".write(writer, model.", .w c.field, .k ");"]) :=
    (codec_good h.2.1).append (codec_closed _) (by good)
  rw [writeCaseBlock]; goodb

theorem skipCase_good {c : SkipCase} (h : LegCodec c.codec) : GoodBlock (skipCaseBlock c) := by
  have h1 : Good [.k "case ", numSeg c.pos, .k ":"] := ⟨by decide +kernel, num_good _ (by simp only [begins]; decide) (by good)⟩
  have h3 : Good (codecSegs c.codec ++ [.k ".skip(reader, 1);"]) := (codec_good h).append (codec_closed _) (by good)
  rw [skipCaseBlock]; goodb

theorem intoCase_ok (id : String) {c : ReadCase} (h : LegReadCase c) (r : List Tok) :
    readCaseInto id (blockToks (intoCaseBlock id c) ++ r) = some (c, r) := by
  simp only [intoCaseBlock, blockToks_append, blockToks_cons, blockToks_nil, segsToks, Seg.toks, List.append_assoc,
    List.cons_append, List.nil_append, List.append_nil, segsToks_append, numSeg]
  exact bind_ok (text_ok' _ (by decide +kernel) _) <| bind_ok (num_ok _ _) <| bind_ok (text2 (by decide +kernel) _) <|
    bind_ok (the_ok _ _) <| bind_ok (text2 (by decide +kernel) _) <| bind_ok (constant_ok id h.1 _) <|
    bind_ok (text_ok _ _) <| bind_ok (payloadRead_ok h.2.1 h.2.2 _) <| bind_ok (text_ok _ _) rfl

theorem emplaceCase_ok (id : String) {c : ReadCase} (h : LegReadCase c) (r : List Tok) :
    readCaseEmplace id (blockToks (emplaceCaseBlock id c) ++ r) = some (c, r) := by
  simp only [emplaceCaseBlock, blockToks_append, blockToks_cons, blockToks_nil, segsToks, Seg.toks, List.append_assoc,
    List.cons_append, List.nil_append, List.append_nil, segsToks_append, numSeg]
  exact bind_ok (text_ok' _ (by decide +kernel) _) <| bind_ok (num_ok _ _) <| bind_ok (text2 (by decide +kernel) _) <|
    bind_ok (constant_ok id h.1 _) <|
    bind_ok (text_ok _ _) <| bind_ok (payloadRead_ok h.2.1 h.2.2 _) <| bind_ok (text_ok _ _) rfl

theorem writeCase_ok (id : String) {c : WriteCase} (h : LegWriteCase c) (r : List Tok) :
    writeCase id (blockToks (writeCaseBlock id c) ++ r) = some (c, r) := by
  simp only [writeCaseBlock, blockToks_append, blockToks_cons, blockToks_nil, segsToks, Seg.toks, List.append_assoc,
    List.cons_append, List.nil_append, List.append_nil, segsToks_append, numSeg]
  exact bind_ok (text_ok' _ (by decide +kernel) _) <| bind_ok (constant_ok id h.1 _) <| bind_ok (text2 (by decide +kernel) _) <|
    bind_ok (num_ok _ _) <| bind_ok (text_ok _ _) <| bind_ok (codec_ok h.2.1 _) <| bind_ok (text_ok _ _) <|
    bind_ok (name_ok h.2.2 _) <| bind_ok (text2 (by decide +kernel) _) rfl

theorem skipCase_ok {c : SkipCase} (h : LegCodec c.codec) (r : List Tok) :
    skipCase (blockToks (skipCaseBlock c) ++ r) = some (c, r) := by
  simp only [skipCaseBlock, blockToks_append, blockToks_cons, blockToks_nil, segsToks, Seg.toks, List.append_assoc,
    List.cons_append, List.nil_append, List.append_nil, segsToks_append, numSeg]
  exact bind_ok (text_ok' _ (by decide +kernel) _) <| bind_ok (num_ok _ _) <| bind_ok (text_ok _ _) <|
    bind_ok (codec_ok h _) <| bind_ok (text2 (by decide +kernel) _) rfl

theorem case_first {n : Nat} {ss : List Seg} {b : Block} (w : String) (hw : w ≠ "case") :
    ∃ t ts, blockToks ((n, .k "case " :: ss) :: b) = t :: ts ∧ t ≠ .word w := by
  simp only [blockToks_cons, segsToks, Seg.toks, code_case, List.cons_append, List.nil_append]
  exact ⟨_, _, rfl, by simpa using Ne.symm hw⟩

theorem case_stop {n : Nat} {ss : List Seg} {b : Block} (c : Char) :
    ∃ t ts, blockToks ((n, .k "case " :: ss) :: b) = t :: ts ∧ t ≠ .sym c := by
  simp only [blockToks_cons, segsToks, Seg.toks, code_case, List.cons_append, List.nil_append]
  exact ⟨_, _, rfl, by simp⟩

/-! ### `read`, `write` and `skip` of enums -/

def switchEnd (t : Nat) : Block :=
  [(t + 1, [.k "default:"]), (t + 2, [.k "throw StateError('Unsupported enum value: $value');"]), (t, [.k "}"])]

def switchBlock (t : Nat) (cases : Block) : Block :=
  [(t, [.k "final value = reader.readInt32();"]), (0, []), (t, [.k "switch (value) {"])] ++ cases ++ switchEnd t

theorem switch_lines (t : Nat) (cases : Block) : blockLines (switchBlock t cases) = renderTagSwitch t (blockLines cases) := by
  rw [switchBlock, switchEnd, renderTagSwitch]
  blines []

theorem switch_good (t : Nat) {cases : Block} (h : GoodBlock cases) : GoodBlock (switchBlock t cases) := by
  refine GoodBlock.append (GoodBlock.append ?_ h) ?_
  · goodb
  · rw [switchEnd]; goodb

theorem otherwise_ok (t : Nat) (r : List Tok) :
    ∃ q, blockToks (switchEnd t) ++ r = .word "default" :: q ∧ otherwise q = some ((), r) := by
  btoks [switchEnd, code_default]
  exact ⟨_, rfl, text3 (by decide +kernel) _⟩

theorem cases_ok {α β : Type} {item : P α} {k : List α → P β} (block : α → Block) (t : Nat) (as : List α)
    (h : ∀ a ∈ as, ∀ r, item (blockToks (block a) ++ r) = some (a, r))
    (hs : ∀ a ∈ as, ∃ t ts, blockToks (block a) = t :: ts ∧ t ≠ .word "default")
    {x : Option (β × List Tok)} {r : List Tok} (hk : k as r = x) :
    (do let cs ← until_ (.word "default") item; otherwise; k cs)
      (as.flatMap (fun a => blockToks (block a)) ++ (blockToks (switchEnd t) ++ r)) = x := by
  obtain ⟨q, h1, h2⟩ := otherwise_ok t r
  rw [h1]
  exact bind_ok (until_ok (fun a => blockToks (block a)) q as h hs) <| bind_ok h2 hk

def enumWritesBlock (id : String) (ws : List WriteCase) : Block :=
  writeHeadBlock id ++ [(2, [.k "switch (model.value) {"])] ++ blankJoin (ws.map (writeCaseBlock id))
    ++ [(2, [.k "}"]), (1, [.k "}"])]

def enumSkipsBlock (cs : List SkipCase) : Block :=
  skipHeadBlock ++ [(2, [.k "for (int i = 0; i < count; i += 1) {"])] ++ switchBlock 3 (cs.flatMap skipCaseBlock)
    ++ [(2, [.k "}"]), (1, [.k "}"])]

theorem enumWrites_lines (id : String) (ws : List WriteCase) :
    blockLines (enumWritesBlock id ws) = renderEnumWrites id ws := by
  rw [enumWritesBlock, writeHeadBlock, renderEnumWrites, writeHeader]
  blines [blockLines_join, List.map_map]
  have e : blockLines ∘ writeCaseBlock id = WriteCase.render id := funext (writeCase_lines id)
  rw [e]

theorem enumSkips_lines (cs : List SkipCase) : blockLines (enumSkipsBlock cs) = renderEnumSkips cs := by
  rw [enumSkipsBlock, skipHeadBlock, renderEnumSkips, skipHeader]
  blines [switch_lines, skipCase_lines]

theorem enumWrites_good {id : String} (hid : isIdent id = true) {ws : List WriteCase} (h : ∀ c ∈ ws, LegWriteCase c) :
    GoodBlock (enumWritesBlock id ws) := by
  refine (((writeHead_good hid).append (by goodb)).append (GoodBlock.join ?_)).append (by goodb)
  intro b hb
  obtain ⟨c, hc, rfl⟩ := List.mem_map.1 hb
  exact writeCase_good hid (h c hc)

theorem enumSkips_good {cs : List SkipCase} (h : ∀ c ∈ cs, LegCodec c.codec) : GoodBlock (enumSkipsBlock cs) :=
  ((skipHead_good.append (by goodb)).append (switch_good 3 (GoodBlock.flatMap (fun c hc => skipCase_good (h c hc))))).append
    (by goodb)

theorem enumWrites_ok (id : String) {ws : List WriteCase} (h : ∀ c ∈ ws, LegWriteCase c) (r : List Tok) :
    enumWrites id (blockToks (enumWritesBlock id ws) ++ r) = some (ws, r) := by
  rw [enumWritesBlock, List.append_assoc, List.append_assoc, blockToks_append, List.append_assoc]
  refine bind_ok (writeHead_ok id _) ?_
  btoks [blockToks_join, List.flatMap_map, code_closeB]
  exact bind_ok (text_ok _ _) <| bind_ok (until_ok (fun c => blockToks (writeCaseBlock id c)) _ ws
    (fun c hc r => writeCase_ok id (h c hc) r) (fun c _ => case_stop '}')) <| bind_ok (tok1 code_closeB _) rfl

theorem tagSwitch_ok (r : List Tok) :
    tagSwitch (code "final value = reader.readInt32();" ++ (code "switch (value) {" ++ r)) = some ((), r) :=
  text2 (by decide +kernel) r

theorem enumSkips_ok {cs : List SkipCase} (h : ∀ c ∈ cs, LegCodec c.codec) (r : List Tok) :
    enumSkips (blockToks (enumSkipsBlock cs) ++ r) = some (cs, r) := by
  rw [enumSkipsBlock, List.append_assoc, List.append_assoc, blockToks_append, List.append_assoc]
  refine bind_ok (skipHead_ok _) ?_
  btoks [switchBlock]
  exact bind_ok (text_ok _ _) <| bind_ok (tagSwitch_ok _) <| cases_ok skipCaseBlock 3 cs (fun c hc r => skipCase_ok (h c hc) r)
    (fun c _ => case_first "default" (by decide)) <| bind_ok (text2 (by decide +kernel) _) rfl

/-! ### Bodies -/

def localSegs (l : String × ReadE) : List Seg := .k "final " :: .w l.1 :: .k " = " :: readSegs l.2 ++ [.k ";"]

def LegLocal (l : String × ReadE) : Prop := DartName l.1 ∧ LegRead l.2

theorem local_good {l : String × ReadE} (h : LegLocal l) : Good (localSegs l) :=
  ⟨by decide +kernel, h.1.1, rfl, by decide +kernel, (read_good h.2).append (read_closed _) (by good)⟩

theorem localS_ok {l : String × ReadE} (h : LegLocal l) (r : List Tok) : localS (segsToks (localSegs l) ++ r) = some (l, r) := by
  rw [localSegs]
  toks []
  exact bind_ok (text_ok' _ (by decide +kernel) _) <| bind_ok (name_ok h.1 _) <| bind_ok (text_ok' _ (by decide +kernel) _) <|
    bind_ok (readE_ok h.2 _) <| bind_ok (text_ok _ _) rfl

theorem code_final : code "final " = [.word "final"] := by decide +kernel

theorem local_first (l : String × ReadE) : ∃ t ts, segsToks (localSegs l) = t :: ts := by
  rw [localSegs]
  toks [code_final]
  exact ⟨_, _, rfl⟩

theorem localS_none {w : String} (h : w ≠ "final") (r : List Tok) : localS (.word w :: r) = none :=
  bind_none <| text_none (p := .word "final") (by decide +kernel) (by simpa using h.symm)

def argSegs (a : String × String) : List Seg := [.w a.1, .k ": ", .w a.2, .k ","]

theorem arg_ok {a : String × String} (h : DartName a.1 ∧ DartName a.2) (r : List Tok) :
    arg (segsToks (argSegs a) ++ r) = some (a, r) := by
  toks [argSegs]
  exact bind_ok (name_ok h.1 _) <| bind_ok (text_ok' _ (by decide +kernel) _) <| bind_ok (name_ok h.2 _) <|
    bind_ok (text_ok _ _) rfl

def readHeadBlock (id : String) : Block := [(1, ov), (1, [.w id, .k " read(BytesReader reader) {"])]

def emplaceHeadBlock (id : String) : Block :=
  [(1, ov), (1, [.k "void read(BytesReader reader, ", .w id, .k " model) {"])]

def bodyBlock (id : String) : CodecBody → Block
  | .structInto locals args ws sk =>
    readHeadBlock id ++ locals.map (fun l => (2, localSegs l)) ++ [(0, []), (2, [.k "return ", .w id, .k "("])]
      ++ args.map (fun a => (3, argSegs a)) ++ [(2, [.k ");"]), (1, [.k "}"]), (0, [])] ++ writesBlock id ws
      ++ [(0, [])] ++ skipsBlock sk
  | .structEmplace rs ws sk =>
    emplaceHeadBlock id ++ rs.map (fun s => (2, emplSegs s)) ++ [(1, [.k "}"]), (0, [])] ++ writesBlock id ws
      ++ [(0, [])] ++ skipsBlock sk
  | .enumInto rs ws ss =>
    readHeadBlock id ++ switchBlock 2 (rs.flatMap (intoCaseBlock id)) ++ [(1, [.k "}"]), (0, [])]
      ++ enumWritesBlock id ws ++ [(0, [])] ++ enumSkipsBlock ss
  | .enumEmplace rs ws ss =>
    emplaceHeadBlock id ++ switchBlock 2 (rs.flatMap (emplaceCaseBlock id)) ++ [(1, [.k "}"]), (0, [])]
      ++ enumWritesBlock id ws ++ [(0, [])] ++ enumSkipsBlock ss

theorem body_lines (id : String) (b : CodecBody) : blockLines (bodyBlock id b) = b.render id := by
  cases b with
  | structInto locals args ws sk =>
    rw [bodyBlock, readHeadBlock, CodecBody.render, readHeader]
    blines [localSegs, argSegs, read_text, writes_lines, skips_lines]
  | structEmplace rs ws sk =>
    rw [bodyBlock, emplaceHeadBlock, CodecBody.render, emplaceHeader]
    blines [empl_text, writes_lines, skips_lines]
  | enumInto rs ws ss =>
    rw [bodyBlock, readHeadBlock, CodecBody.render, readHeader]
    blines [switch_lines, intoCase_lines, enumWrites_lines, enumSkips_lines]
  | enumEmplace rs ws ss =>
    rw [bodyBlock, emplaceHeadBlock, CodecBody.render, emplaceHeader]
    blines [switch_lines, emplaceCase_lines, enumWrites_lines, enumSkips_lines]

def LegBody : CodecBody → Prop
  | .structInto locals args ws sk => (∀ l ∈ locals, LegLocal l) ∧ (∀ a ∈ args, DartName a.1 ∧ DartName a.2) ∧
      (∀ s ∈ ws, LegWrite s) ∧ LegSkips sk
  | .structEmplace rs ws sk => (∀ s ∈ rs, LegEmpl s) ∧ (∀ s ∈ ws, LegWrite s) ∧ LegSkips sk
  | .enumInto rs ws ss => (∀ c ∈ rs, LegReadCase c) ∧ (∀ c ∈ ws, LegWriteCase c) ∧ ∀ c ∈ ss, LegCodec c.codec
  | .enumEmplace rs ws ss => (∀ c ∈ rs, LegReadCase c) ∧ (∀ c ∈ ws, LegWriteCase c) ∧ ∀ c ∈ ss, LegCodec c.codec

theorem arg_good {a : String × String} (h : DartName a.1 ∧ DartName a.2) : Good (argSegs a) := by
  have h1 := h.1.1
  have h2 := h.2.1
  rw [argSegs]; good

theorem body_good {id : String} (hid : isIdent id = true) {b : CodecBody} (h : LegBody b) : GoodBlock (bodyBlock id b) := by
  have hr : GoodBlock (readHeadBlock id) := by rw [readHeadBlock]; goodb
  have he : GoodBlock (emplaceHeadBlock id) := by rw [emplaceHeadBlock]; goodb
  cases b with
  | structInto locals args ws sk =>
    obtain ⟨h1, h2, h3, h4⟩ := h
    exact ((((((hr.append (GoodBlock.map (fun l hl => local_good (h1 l hl)))).append (by goodb)).append
      (GoodBlock.map (fun a ha => arg_good (h2 a ha)))).append (by goodb)).append (writes_good hid h3)).append (by goodb)).append
      (skips_good h4)
  | structEmplace rs ws sk =>
    obtain ⟨h1, h3, h4⟩ := h
    exact ((((he.append (GoodBlock.map (fun l hl => empl_good (h1 l hl)))).append (by goodb)).append
      (writes_good hid h3)).append (by goodb)).append (skips_good h4)
  | enumInto rs ws ss =>
    obtain ⟨h1, h3, h4⟩ := h
    exact ((((hr.append (switch_good 2 (GoodBlock.flatMap (fun l hl => intoCase_good hid (h1 l hl))))).append (by goodb)).append
      (enumWrites_good hid h3)).append (by goodb)).append (enumSkips_good h4)
  | enumEmplace rs ws ss =>
    obtain ⟨h1, h3, h4⟩ := h
    exact ((((he.append (switch_good 2 (GoodBlock.flatMap (fun l hl => emplaceCase_good hid (h1 l hl))))).append
      (by goodb)).append (enumWrites_good hid h3)).append (by goodb)).append (enumSkips_good h4)

theorem code_return : code "return " = [.word "return"] := by decide +kernel
theorem code_return' : code "return" = [.word "return"] := by decide +kernel
theorem code_switch : ∃ q, code "switch (value) {" = .word "switch" :: q := ⟨(code "switch (value) {").tail, by decide +kernel⟩
theorem code_closeCall : code ");" = .sym ')' :: code ";" := by decide +kernel
theorem tag_local : code "final value = reader.readInt32();" = segsToks (localSegs ("value", .prim "Int32")) := by decide +kernel

theorem intoBody_ok (id : String) {b : CodecBody} (h : LegBody b) (hk : b.kind = .into) (r : List Tok) :
    intoBody id (blockToks (bodyBlock id b) ++ r) = some (b, r) := by
  cases b with
  | structEmplace => simp [CodecBody.kind] at hk
  | enumEmplace => simp [CodecBody.kind] at hk
  | structInto locals args ws sk =>
    obtain ⟨h1, h2, h3, h4⟩ := h
    rw [bodyBlock, readHeadBlock]
    btoks [code_return, code_closeCall]
    refine bind_ok (text_ok _ _) <| bind_ok (the_ok _ _) <| bind_ok (text_ok' _ (by decide +kernel) _) <|
      bind_ok (star_ok (fun l => segsToks (localSegs l)) _ (localS_none (by decide) _) (by simp) locals
        (fun l hl r => localS_ok (h1 l hl) r) (fun l _ => local_first l)) <| next_yes <| bind_ok (tok1 code_return' _) <|
      bind_ok (the_ok _ _) <| bind_ok (text_ok _ _) <| bind_ok (until_ok (fun a => segsToks (argSegs a)) _ args
        (fun a ha r => arg_ok (h2 a ha) r) (fun a _ => ⟨_, _, rfl, by simp⟩)) <| bind_ok (text2 (by decide +kernel) _) <|
      bind_ok (writes_ok id h3 _) <| bind_ok (skips_ok h4 _) rfl
  | enumInto rs ws ss =>
    obtain ⟨h1, h3, h4⟩ := h
    rw [bodyBlock, readHeadBlock]
    btoks [switchBlock]
    obtain ⟨q, hq⟩ := code_switch
    have hl : LegLocal ("value", .prim "Int32") := ⟨⟨by decide, by decide⟩, by unfold LegRead Tail; decide +kernel⟩
    have hstar : ∀ r', star localS (code "final value = reader.readInt32();" ++ (code "switch (value) {" ++ r'))
        = some ([("value", .prim "Int32")], code "switch (value) {" ++ r') := by
      intro r'
      rw [tag_local]
      have := star_ok (item := localS) (fun l => segsToks (localSegs l)) (code "switch (value) {" ++ r')
        (by rw [hq]; exact localS_none (by decide) _) (by rw [hq]; simp) [("value", .prim "Int32")]
        (fun l hl' r => by rw [List.mem_singleton] at hl'; subst hl'; exact localS_ok hl r) (fun l _ => local_first l)
      simpa using this
    exact bind_ok (text_ok _ _) <| bind_ok (the_ok _ _) <| bind_ok (text_ok' _ (by decide +kernel) _) <|
      bind_ok (hstar _) <| next_no (by rw [hq]; simp) <| bind_ok (text_ok _ _) <|
      cases_ok (intoCaseBlock id) 2 rs (fun c hc r => intoCase_ok id (h1 c hc) r)
        (fun c _ => case_first "default" (by decide)) <| bind_ok (text_ok _ _) <| bind_ok (enumWrites_ok id h3 _) <|
      bind_ok (enumSkips_ok h4 _) rfl

theorem code_tag : ∃ q, code "final value = reader.readInt32();" = .word "final" :: q :=
  ⟨(code "final value = reader.readInt32();").tail, by decide +kernel⟩

theorem emplaceBody_ok (id : String) {b : CodecBody} (h : LegBody b) (hk : b.kind = .emplace) (r : List Tok) :
    emplaceBody id (blockToks (bodyBlock id b) ++ r) = some (b, r) := by
  cases b with
  | structInto => simp [CodecBody.kind] at hk
  | enumInto => simp [CodecBody.kind] at hk
  | structEmplace rs ws sk =>
    obtain ⟨h1, h3, h4⟩ := h
    rw [bodyBlock, emplaceHeadBlock]
    btoks [code_closeB]
    refine bind_ok (text2 (by decide +kernel) _) <| bind_ok (the_ok _ _) <| bind_ok (text_ok' _ (by decide +kernel) _) <|
      next_no ?_ <| bind_ok (until_ok (fun a => segsToks (emplSegs a)) _ rs (fun a ha r => emplS_ok (h1 a ha) r)
        (fun a _ => (empl_first a).stop '}')) <| bind_ok (writes_ok id h3 _) <| bind_ok (skips_ok h4 _) rfl
    cases rs with
    | nil => simp
    | cons s rs =>
      rw [List.flatMap_cons]
      have hs := h1 s (by simp)
      cases s with
      | assign a e =>
        cases a with
        | var n => exact hs.1.elim
        | field n => toks [emplSegs, placeSegs, code_model]; simp
      | into c a =>
        obtain ⟨q, hq⟩ := codec_first c
        toks [emplSegs, hq]; simp
  | enumEmplace rs ws ss =>
    obtain ⟨h1, h3, h4⟩ := h
    rw [bodyBlock, emplaceHeadBlock]
    btoks [switchBlock]
    obtain ⟨q, hq⟩ := code_tag
    have hn : ∀ {p q' : P CodecBody} {r' : List Tok} {x : Option (CodecBody × List Tok)},
        p (code "final value = reader.readInt32();" ++ r') = x →
        (do if ← next (.word "final") then p else q') (code "final value = reader.readInt32();" ++ r') = x := by
      intro p q' r' x hx
      rw [hq, List.cons_append] at hx ⊢
      exact next_yes hx
    exact bind_ok (text2 (by decide +kernel) _) <| bind_ok (the_ok _ _) <| bind_ok (text_ok' _ (by decide +kernel) _) <|
      hn <| bind_ok (tagSwitch_ok _) <| cases_ok (emplaceCaseBlock id) 2 rs (fun c hc r => emplaceCase_ok id (h1 c hc) r)
        (fun c _ => case_first "default" (by decide)) <| bind_ok (text_ok _ _) <| bind_ok (enumWrites_ok id h3 _) <|
      bind_ok (enumSkips_ok h4 _) rfl

/-! ### Classes -/

def interfaceText : Kind → String
  | .into => " implements IntoBuffers<"
  | .emplace => " implements EmplaceToBuffers<"

def codecBlock (c : CodecClass) : Block :=
  [(0, [.k "class ", .w (c.id ++ c.body.kind.suffix), .k (interfaceText c.body.kind), .w c.id, .k "> {"]),
   (1, [.k "const ", .w (c.id ++ c.body.kind.suffix), .k "();"]), (0, [])] ++ bodyBlock c.id c.body ++ [(0, [.k "}"])]

theorem codec_lines (c : CodecClass) : blockLines (codecBlock c) = c.render := by
  have e1 : ∀ s : String, "IntoBuffers" ++ (" implements IntoBuffers<" ++ s) = "IntoBuffers implements IntoBuffers<" ++ s := by
    intro s; rw [← String.append_assoc]; rfl
  have e2 : ∀ s : String, "EmplaceToBuffers" ++ (" implements EmplaceToBuffers<" ++ s)
      = "EmplaceToBuffers implements EmplaceToBuffers<" ++ s := by
    intro s; rw [← String.append_assoc]; rfl
  have e3 : "IntoBuffers" ++ "();" = "IntoBuffers();" := rfl
  have e4 : "EmplaceToBuffers" ++ "();" = "EmplaceToBuffers();" := rfl
  rw [codecBlock, CodecClass.render]
  cases c.body.kind <;> blines [body_lines, Kind.renderHead, interfaceText, Kind.suffix, e1, e2, e3, e4]

def LegClass (c : CodecClass) : Prop := isIdent c.id = true ∧ LegBody c.body

theorem codecBlock_good {c : CodecClass} (h : LegClass c) : GoodBlock (codecBlock c) := by
  have h1 := h.1
  have h2 := ident_append h.1 (tail_suffix c.body.kind)
  refine GoodBlock.append (GoodBlock.append ?_ (body_good h.1 h.2)) (by goodb)
  cases hk : c.body.kind <;> rw [hk] at h2 <;> rw [interfaceText] <;> goodb

theorem codecName_reserved : ∀ w ∈ dartReserved, codecName w = none := by decide +kernel

theorem dartName_codec {id : String} (h : isIdent id = true) (k : Kind) : DartName (id ++ k.suffix) := by
  refine ⟨ident_append h (tail_suffix k), fun hm => ?_⟩
  have := codecName_reserved _ hm
  rw [codecName_ok] at this
  simp at this

theorem interface_ok (k : Kind) (r : List Tok) : interface k (code (interfaceText k) ++ r) = some ((), r) := by
  cases k
  · exact text_ok' _ (by decide +kernel) _
  · exact text_ok' _ (by decide +kernel) _

theorem members_ok (id : String) {b : CodecBody} (h : LegBody b) (r : List Tok) :
    members id b.kind (blockToks (bodyBlock id b) ++ r) = some (b, r) := by
  cases hk : b.kind
  · exact intoBody_ok id h hk _
  · exact emplaceBody_ok id h hk _

theorem codecClass_ok {c : CodecClass} (h : LegClass c) (r : List Tok) :
    codecClass (blockToks (codecBlock c) ++ r) = some (c, r) := by
  rw [codecBlock]
  btoks []
  exact bind_ok (text_ok' _ (by decide +kernel) _) <| bind_ok (name_ok (dartName_codec h.1 _) _) <|
    bind_ok (some!_ok (codecName_ok _ _) _) <| bind_ok (interface_ok _ _) <| bind_ok (the_ok _ _) <|
    bind_ok (text2 (by decide +kernel) _) <| bind_ok (the_ok _ _) <| bind_ok (text_ok _ _) <|
    bind_ok (members_ok c.id h.2 _) <| bind_ok (text_ok _ _) rfl

/-- The section with the codec classes. -/
theorem readCodecs_ok {cs : List CodecClass} (h : ∀ c ∈ cs, LegClass c) (u : Nat) :
    readCodecs (linesText u (joinBlocks (cs.map CodecClass.render))) = some cs := by
  have hl : Lexes (joinBlocks (cs.map CodecClass.render)) (cs.flatMap (fun c => blockToks (codecBlock c))) :=
    Lexes.blocks cs CodecClass.render _ (fun c hc => by rw [← codec_lines]; exact block_lexes (codecBlock_good (h c hc)))
  refine whole_ok (fun c => blockToks (codecBlock c)) cs hl.pieces (fun c hc r => codecClass_ok (h c hc) r) (fun c _ => ?_)
  rw [codecBlock]
  btoks [show code "class " = [.word "class"] by decide +kernel]
  exact ⟨_, _, rfl⟩

end TPB.Spec.DartReader
