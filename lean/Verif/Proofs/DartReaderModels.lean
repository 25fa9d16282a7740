/- The reader of `Spec/DartReader.lean` finds the model classes whose text it is given. -/
import Verif.Proofs.DartReaderCodecs
namespace TPB.Spec.DartReader
open Dart Pieces Combinators DartRules

/-! ### Types in lines -/

def tySeg (t : Ty) : Seg := .p t.render (tyToks t)

theorem ty_good {t : Ty} (h : LegTy t) {ss : List Seg} (hb : begins (fun c => decide (isBreak c)) ss = true) (hs : Good ss) :
    Good (tySeg t :: ss) := ⟨(ty_piece h).1, (ty_piece h).2, hb, hs⟩

/-! ### Default values -/

theorem tail_factory : Tail "BuffersFactory" := by unfold Tail; decide +kernel

theorem ident_factory {id : String} (h : isIdent id = true) : isIdent (id ++ "BuffersFactory") = true :=
  ident_append h tail_factory

def LegDef : DefE → Prop
  | .zero => True
  | .zeroF => True
  | .no => True
  | .factory id => isIdent id = true
  | .factoryG id args => isIdent id = true ∧ args ≠ [] ∧ ∀ a ∈ args, LegTy a

def defSegs : DefE → List Seg
  | .zero => [.p "0" [.word "0"]]
  | .zeroF => [.p "0.0" [.word "0.0"]]
  | .no => [.p "false" [.word "false"]]
  | .factory id => [.k "const ", .w (id ++ "BuffersFactory"), .k "().createDefault()"]
  | .factoryG id args => [.k "const ", .w (id ++ "BuffersFactory"), .k "<",
      .p (joinStr ", " (args.map Ty.render) ++ ">") (sepToks tyToks '>' args), .k "().createDefault()"]

theorem def_text (e : DefE) : segsText (defSegs e) = e.render := by
  cases e with
  | zero => rfl
  | zeroF => rfl
  | no => rfl
  | factory id => rw [defSegs, DefE.render]; txt []
  | factoryG id args => rw [defSegs, DefE.render]; txt []

theorem def_good {e : DefE} (h : LegDef e) {ss : List Seg} (hb : begins (fun c => decide (isBreak c)) ss = true) (hs : Good ss) :
    Good (defSegs e ++ ss) := by
  cases e with
  | zero => exact ⟨piece_number '0' [] (by decide) (by decide), noNL_word _, hb, hs⟩
  | zeroF => exact ⟨piece_number '0' ['.', '0'] (by decide) (by decide), noNL_word _, hb, hs⟩
  | no => exact ⟨piece_ident "false" (isIdent_spec (by decide)), noNL_word _, hb, hs⟩
  | factory id => exact ⟨by decide +kernel, ident_factory h, rfl, by decide +kernel, hs⟩
  | factoryG id args =>
    obtain ⟨h1, h2⟩ := args_piece h.2.1 (fun a ha => ty_piece (h.2.2 a ha))
    exact ⟨by decide +kernel, ident_factory h.1, rfl, by decide +kernel, h1, h2, (by show decide (isBreak '(') = true; decide), by decide +kernel, hs⟩

theorem code_created : code "().createDefault()" = .sym '(' :: code ").createDefault()" := by decide +kernel

theorem defE_const (r : List Tok) : defE (.word "const" :: r) = factoryE (.word "const" :: r) := rfl

theorem defE_ok {e : DefE} (h : LegDef e) (r : List Tok) : defE (segsToks (defSegs e) ++ r) = some (e, r) := by
  cases e with
  | zero => rfl
  | zeroF => rfl
  | no => rfl
  | factory id =>
    toks [defSegs, code_const', code_created]
    rw [defE_const]
    exact bind_ok (tok1 code_const _) <| bind_ok (word_ok _ _) <| bind_ok (some!_ok (dropEnd_ok "BuffersFactory" id) _) <|
      next_yes <| bind_ok (text_ok' _ code_created _) rfl
  | factoryG id args =>
    toks [defSegs, code_const', code_lt]
    rw [defE_const]
    exact bind_ok (tok1 code_const _) <| bind_ok (word_ok _ _) <| bind_ok (some!_ok (dropEnd_ok "BuffersFactory" id) _) <|
      next_no (by simp) <| bind_ok (tok1 code_lt _) <| bind_ok (args_ok h.2.1 h.2.2 _) <| bind_ok (text_ok _ _) rfl

/-! ### Initializer lists -/

def initSegs (i : String × DefE) : List Seg := .w i.1 :: .k " = " :: defSegs i.2

def LegInit (i : String × DefE) : Prop := DartName i.1 ∧ LegDef i.2

def initsBlock (first : Bool) : List (String × DefE) → Block
  | [] => []
  | [i] => [(3, .k (if first then ": " else "  ") :: initSegs i ++ [.k ";"])]
  | i :: j :: is => (3, .k (if first then ": " else "  ") :: initSegs i ++ [.k ","]) :: initsBlock false (j :: is)

theorem inits_lines (first : Bool) (is : List (String × DefE)) : blockLines (initsBlock first is) = renderInits first is := by
  induction is generalizing first with
  | nil => rfl
  | cons i is ih =>
    cases is with
    | nil => rw [initsBlock, renderInits, initSegs]; blines [def_text]
    | cons j js => rw [initsBlock, renderInits, blockLines_cons, ih, initSegs]; blines [def_text]

theorem init_good {i : String × DefE} (h : LegInit i) (first : Bool) {ss : List Seg}
    (hb : begins (fun c => decide (isBreak c)) ss = true) (hs : Good ss) :
    Good (.k (if first then ": " else "  ") :: initSegs i ++ ss) := by
  refine ⟨by cases first <;> decide +kernel, h.1.1, rfl, by decide +kernel, def_good h.2 hb hs⟩

theorem inits_good {is : List (String × DefE)} (h : ∀ i ∈ is, LegInit i) (first : Bool) : GoodBlock (initsBlock first is) := by
  induction is generalizing first with
  | nil => exact GoodBlock.nil
  | cons i is ih =>
    cases is with
    | nil => exact GoodBlock.cons (init_good (h i (by simp)) first (by simp only [begins]; decide) (by good)) GoodBlock.nil
    | cons j js =>
      exact GoodBlock.cons (init_good (h i (by simp)) first (by simp only [begins]; decide) (by good))
        (ih (fun k hk => h k (by simp [hk])) false)

theorem code_semi : code ";" = [.sym ';'] := by decide +kernel
theorem code_comma : code "," = [.sym ','] := by decide +kernel
theorem code_blank : code "  " = [] := by decide +kernel
theorem code_colon : code ": " = [.sym ':'] := by decide +kernel

theorem inits_rest (is : List (String × DefE)) :
    blockToks (initsBlock false is) = sepToks (fun i => segsToks (initSegs i)) ';' is := by
  induction is with
  | nil => rfl
  | cons i is ih =>
    cases is with
    | nil => rw [initsBlock, sepToks]; btoks [code_semi, code_blank]; simp [code_blank]
    | cons j js => rw [initsBlock, sepToks, blockToks_cons, ih]; btoks [code_comma]; simp [code_blank]

theorem inits_toks {is : List (String × DefE)} (hne : is ≠ []) :
    blockToks (initsBlock true is) = .sym ':' :: sepToks (fun i => segsToks (initSegs i)) ';' is := by
  cases is with
  | nil => exact absurd rfl hne
  | cons i is =>
    cases is with
    | nil => rw [initsBlock, sepToks]; btoks [code_semi]; simp [code_colon]
    | cons j js => rw [initsBlock, sepToks, blockToks_cons, inits_rest]; btoks [code_comma]; simp [code_colon]

theorem init_ok {i : String × DefE} (h : LegInit i) (r : List Tok) : init (segsToks (initSegs i) ++ r) = some (i, r) := by
  rw [initSegs]
  toks []
  exact bind_ok (name_ok h.1 _) <| bind_ok (text_ok' _ (by decide +kernel) _) <| bind_ok (defE_ok h.2 _) rfl

/-! ### Factories -/

def factoryBlock (id : String) (new : List Seg) : Block :=
  [(0, [.k "class ", .w (id ++ "BuffersFactory"), .k " implements BuffersFactory<", .w id, .k "> {"]),
   (1, [.k "const ", .w (id ++ "BuffersFactory"), .k "();"]), (0, []), (1, ov),
   (1, .w id :: .k " createDefault() => " :: new), (0, [.k "}"])]

theorem factory_lines (id : String) (new : List Seg) : blockLines (factoryBlock id new) = renderFactory id (segsText new) := by
  have e1 : ∀ s : String, "BuffersFactory" ++ (" implements BuffersFactory<" ++ s) = "BuffersFactory implements BuffersFactory<" ++ s := by
    intro s; rw [← String.append_assoc]; rfl
  have e2 : "BuffersFactory" ++ "();" = "BuffersFactory();" := rfl
  rw [factoryBlock, renderFactory]
  blines [e1, e2]

theorem factory_good {id : String} (hid : isIdent id = true) {new : List Seg} (h : Good new) : GoodBlock (factoryBlock id new) := by
  have h2 := ident_factory hid
  have h3 : Good (.w id :: .k " createDefault() => " :: new) := ⟨hid, rfl, by decide +kernel, h⟩
  rw [factoryBlock]; goodb

theorem factory_ok (id : String) (new : List Seg) (r : List Tok) :
    factory id (blockToks (factoryBlock id new) ++ r) = some ((), segsToks new ++ (code "}" ++ r)) := by
  rw [factoryBlock]
  btoks []
  exact bind_ok (text_ok' _ (by decide +kernel) _) <| bind_ok (the_ok _ _) <| bind_ok (text_ok' _ (by decide +kernel) _) <|
    bind_ok (the_ok _ _) <| bind_ok (text2 (by decide +kernel) _) <| bind_ok (the_ok _ _) <|
    bind_ok (text2 (by decide +kernel) _) <| bind_ok (the_ok _ _) <| text_ok' _ (by decide +kernel) _

/-! ### Structs -/

def fieldSegs (f : Ty × String) : List Seg := [tySeg f.1, .k " ", .w f.2, .k ";"]

def LegField (f : Ty × String) : Prop := LegTy f.1 ∧ DartName f.2

theorem field_good {f : Ty × String} (h : LegField f) : Good (fieldSegs f) :=
  ty_good h.1 (by simp only [begins]; decide) ⟨by decide +kernel, h.2.1, by simp only [begins]; decide, by decide +kernel, trivial⟩

theorem code_space : code " " = [] := by decide +kernel

theorem field_ok {f : Ty × String} (h : LegField f) (r : List Tok) : field (segsToks (fieldSegs f) ++ r) = some (f, r) := by
  toks [fieldSegs, tySeg, code_space]
  exact bind_ok (anyTy_ok h.1 (noArgs_word _ _)) <| bind_ok (name_ok h.2 _) <| bind_ok (text_ok _ _) rfl

theorem field_first (f : Ty × String) : ∃ t ts, segsToks (fieldSegs f) = t :: ts := by
  obtain ⟨w, q, h⟩ := tyToks_first f.1
  toks [fieldSegs, tySeg, h]
  exact ⟨_, _, rfl⟩

/-- A constructor is not a field. -/
theorem field_ctor {id : String} (h : DartName id) (r : List Tok) : field (.word id :: .sym '(' :: r) = none := by
  have := anyTy_ok (LegTy.named id h) (r := .sym '(' :: r) (noArgs_sym (by decide) r)
  rw [tyToks] at this
  exact (bind_ok this (bind_none (name_sym _ _)))

theorem field_const (r : List Tok) : field (.word "const" :: r) = none := by
  refine bind_none ?_
  show ty _ (.word "const" :: r) = none
  rw [List.length_cons]
  exact bind_none (name_reserved (by decide) _)

def ctorSegs (f : String) : List Seg := [.k "required this.", .w f, .k ","]

theorem ctorParam_ok {f : String} (h : DartName f) (r : List Tok) : ctorParam (segsToks (ctorSegs f) ++ r) = some (f, r) := by
  toks [ctorSegs]
  exact bind_ok (text_ok _ _) <| bind_ok (name_ok h _) <| bind_ok (text_ok _ _) rfl

theorem code_required : ∃ q, code "required this." = .word "required" :: q := ⟨(code "required this.").tail, by decide +kernel⟩

theorem ctor_first (f : String) : FirstWord (segsToks (ctorSegs f)) := by
  obtain ⟨q, hq⟩ := code_required
  toks [ctorSegs, hq]
  exact ⟨_, _, rfl⟩

def structB (c : StructClass) : Block :=
  if c.fields.isEmpty then
    [(0, [.k "class ", .w c.id, .k " {"]), (1, [.k "const ", .w c.id, .k "();"]), (0, [.k "}"]), (0, [])]
      ++ factoryBlock c.id [.k "const ", .w c.id, .k "();"]
  else
    [(0, [.k "class ", .w c.id, .k " {"])] ++ c.fields.map (fun f => (1, fieldSegs f))
      ++ [(0, []), (1, [.w c.id, .k "({"])] ++ c.ctor.map (fun f => (2, ctorSegs f))
      ++ [(1, [.k "});"]), (0, []), (1, [.w c.id, .k ".createDefault()"])] ++ initsBlock true c.inits
      ++ [(0, [.k "}"]), (0, [])] ++ factoryBlock c.id [.w c.id, .k ".createDefault();"]

theorem structB_lines (c : StructClass) : blockLines (structB c) = c.render := by
  rw [structB, StructClass.render]
  split <;> blines [factory_lines, inits_lines, fieldSegs, tySeg, ctorSegs]

structure LegStruct (c : StructClass) : Prop where
  id : DartName c.id
  fields : ∀ f ∈ c.fields, LegField f
  ctor : ∀ f ∈ c.ctor, DartName f
  inits : ∀ i ∈ c.inits, LegInit i
  none : c.fields = [] → c.ctor = [] ∧ c.inits = []
  some : c.fields ≠ [] → c.inits ≠ []

theorem structB_good {c : StructClass} (h : LegStruct c) : GoodBlock (structB c) := by
  have hid := h.id.1
  rw [structB]
  split
  · exact GoodBlock.append (by goodb) (factory_good hid (by good))
  · refine GoodBlock.append (GoodBlock.append (GoodBlock.append (GoodBlock.append (GoodBlock.append (GoodBlock.append (GoodBlock.append
      (by goodb) (GoodBlock.map (fun f hf => field_good (h.fields f hf)))) (by goodb)) (GoodBlock.map ?_)) (by goodb))
      (inits_good h.inits true)) (by goodb)) (factory_good hid (by good))
    intro f hf
    have := (h.ctor f hf).1
    show Good (ctorSegs f)
    rw [ctorSegs]; good

theorem code_openNamed : code "({" = [.sym '(', .sym '{'] := by decide +kernel
theorem code_closeNamed : code "});" = .sym '}' :: code ");" := by decide +kernel

theorem structClass_ok {c : StructClass} (h : LegStruct c) (r : List Tok) :
    structClass (blockToks (structB c) ++ r) = some (c, r) := by
  rw [structB]
  split
  · next he =>
    have he : c.fields = [] := by simpa using he
    obtain ⟨h1, h2⟩ := h.none he
    have hc : c = ⟨c.id, [], [], []⟩ := by cases c; simp only at he h1 h2; subst he; subst h1; subst h2; rfl
    have hstar : ∀ r', star field (code "const " ++ r') = some ([], code "const " ++ r') := by
      intro r'
      rw [code_const']
      exact star_ok (item := field) (fun f => segsToks (fieldSegs f)) (.word "const" :: r') (field_const _) (by simp) []
        (by simp) (by simp)
    have hf : ∀ r', factory c.id (blockToks (factoryBlock c.id [.k "const ", .w c.id, .k "();"]) ++ r')
        = some ((), code "const " ++ .word c.id :: (code "();" ++ (code "}" ++ r'))) := by
      intro r'
      rw [factory_ok]
      toks []
    btoks []
    rw [hc]
    exact bind_ok (text_ok' _ (by decide +kernel) _) <| bind_ok (name_ok h.id _) <| bind_ok (text_ok' _ (by decide +kernel) _) <|
      bind_ok (hstar _) <| bind_ok (text_ok' _ (by decide +kernel) _) <| bind_ok (the_ok _ _) <|
      bind_ok (text2 (by decide +kernel) _) <| bind_ok (hf _) <| bind_ok (text_ok' _ (by decide +kernel) _) <| bind_ok (the_ok _ _) <|
      bind_ok (text2 (by decide +kernel) _) rfl
  · next he =>
    have he : c.fields ≠ [] := by simpa using he
    have hi := h.some he
    have hf : ∀ r', factory c.id (blockToks (factoryBlock c.id [.w c.id, .k ".createDefault();"]) ++ r')
        = some ((), .word c.id :: (code ".createDefault();" ++ (code "}" ++ r'))) := by
      intro r'
      rw [factory_ok]
      toks []
    btoks [code_openNamed, code_closeNamed, inits_toks hi]
    refine bind_ok (text_ok' _ (by decide +kernel) _) <| bind_ok (name_ok h.id _) <| bind_ok (text_ok' _ (by decide +kernel) _) <|
      bind_ok (star_ok (item := field) (fun f => segsToks (fieldSegs f)) _ (field_ctor h.id _) (by simp) c.fields
        (fun f hf r => field_ok (h.fields f hf) r) (fun f _ => field_first f)) ?_
    cases hfs : c.fields with
    | nil => exact absurd hfs he
    | cons f fs =>
      have hc : c = ⟨c.id, f :: fs, c.ctor, c.inits⟩ := by rw [← hfs]
      have ht : ∀ r', text ".createDefault() :" (code ".createDefault()" ++ .sym ':' :: r') = Option.some ((), r') := by
        intro r'
        have := text_ok' ".createDefault() :" (us := code ".createDefault()" ++ [.sym ':']) (by decide +kernel) r'
        simpa using this
      refine bind_ok (the_ok _ _) <| bind_ok (tok2 code_openNamed _) <|
        bind_ok (until_ok (fun a => segsToks (ctorSegs a)) _ c.ctor (fun a ha r => ctorParam_ok (h.ctor a ha) r)
          (fun a _ => (ctor_first a).stop '}')) <| bind_ok (text_ok _ _) <| bind_ok (the_ok _ _) <| bind_ok (ht _) <|
        bind_ok (sep_ok (by decide) (fun i => segsToks (initSegs i)) _ c.inits hi (fun i hi' c' r _ => init_ok (h.inits i hi') _)) <|
        bind_ok (text_ok _ _) <| bind_ok (hf _) <| bind_ok (the_ok _ _) <| bind_ok (text2 (by decide +kernel) _) ?_
      rw [pure_ok, ← hc]

/-! ### Payload fields -/

def newSegs : NewE → List Seg
  | .const c => [.k "const ", .w c, .k "()"]
  | .createDefault c => [.w c, .k ".createDefault()"]

def LegNew : NewE → Prop
  | .const c => DartName c
  | .createDefault c => DartName c

theorem new_text (e : NewE) : segsText (newSegs e) = e.render := by
  cases e <;> (rw [newSegs, NewE.render]; txt [])

theorem new_good {e : NewE} (h : LegNew e) : Good (newSegs e) := by
  cases e with
  | const c => have h1 : isIdent c = true := h.1; rw [newSegs]; good
  | createDefault c => have h1 : isIdent c = true := h.1; rw [newSegs]; good

theorem new_closed (e : NewE) : closed (newSegs e) = true := by cases e <;> rfl

theorem newE_ok {e : NewE} (h : LegNew e) (r : List Tok) : newE (segsToks (newSegs e) ++ r) = some (e, r) := by
  cases e with
  | const c =>
    toks [newSegs, code_const']
    exact next_yes <| bind_ok (tok1 code_const _) <| bind_ok (name_ok h _) <| bind_ok (text_ok _ _) rfl
  | createDefault c =>
    toks [newSegs]
    exact next_no (by simpa using DartName.ne h (by decide)) <| bind_ok (name_ok h _) <| bind_ok (text_ok _ _) rfl

def payloadFieldSegs (p : String × String × NewE) : List Seg :=
  .w p.1 :: .k " " :: .w p.2.1 :: .k " = " :: newSegs p.2.2 ++ [.k ";"]

def LegPayload (p : String × String × NewE) : Prop := DartName p.1 ∧ DartName p.2.1 ∧ LegNew p.2.2

theorem payloadField_good {p : String × String × NewE} (h : LegPayload p) : Good (payloadFieldSegs p) :=
  ⟨h.1.1, rfl, by decide +kernel, h.2.1.1, rfl, by decide +kernel, (new_good h.2.2).append (new_closed _) (by good)⟩

theorem payloadField_ok {p : String × String × NewE} (h : LegPayload p) (r : List Tok) :
    payloadField (segsToks (payloadFieldSegs p) ++ r) = some (p, r) := by
  rw [payloadFieldSegs]
  toks [code_space]
  exact bind_ok (name_ok h.1 _) <| bind_ok (name_ok h.2.1 _) <| bind_ok (text_ok' _ (by decide +kernel) _) <|
    bind_ok (newE_ok h.2.2 _) <| bind_ok (text_ok _ _) rfl

/-! ### Parameters -/

def posSegs (p : Ty × String) : List Seg := [tySeg p.1, .k " ", .w p.2, .k ","]
def namedSegs (p : Ty × String) : List Seg := .k "required " :: posSegs p

theorem pos_good {f : Ty × String} (h : LegField f) : Good (posSegs f) :=
  ty_good h.1 (by simp only [begins]; decide) ⟨by decide +kernel, h.2.1, by simp only [begins]; decide, by decide +kernel, trivial⟩

theorem named_good {f : Ty × String} (h : LegField f) : Good (namedSegs f) := ⟨by decide +kernel, pos_good h⟩

theorem posParam_ok {f : Ty × String} (h : LegField f) (r : List Tok) : posParam (segsToks (posSegs f) ++ r) = some (f, r) := by
  toks [posSegs, tySeg, code_space]
  exact bind_ok (anyTy_ok h.1 (noArgs_word _ _)) <| bind_ok (name_ok h.2 _) <| bind_ok (text_ok _ _) rfl

theorem code_req : code "required " = [.word "required"] := by decide +kernel

theorem namedParam_ok {f : Ty × String} (h : LegField f) (r : List Tok) :
    namedParam (segsToks (namedSegs f) ++ r) = some (f, r) := by
  rw [namedSegs, segsToks, List.append_assoc]
  exact bind_ok (text_ok' _ (show code "required" = Seg.toks (.k "required ") by decide +kernel) _) <| posParam_ok h r

theorem pos_first (f : Ty × String) : FirstWord (segsToks (posSegs f)) := by
  obtain ⟨w, q, h⟩ := tyToks_first f.1
  toks [posSegs, tySeg, h]
  exact ⟨_, _, rfl⟩

theorem named_first (f : Ty × String) : FirstWord (segsToks (namedSegs f)) := by
  toks [namedSegs, code_req]
  exact ⟨_, _, rfl⟩

def LegParams : Params → Prop
  | .unit => True
  | .positional xs => xs ≠ [] ∧ ∀ p ∈ xs, LegField p
  | .named xs => ∀ p ∈ xs, LegField p

/-- After the words of `head`. -/
def paramsBlock (head : List Seg) : Params → Block
  | .unit => [(1, head ++ [.k "() {"])]
  | .positional xs => (1, head ++ [.k "("]) :: xs.map (fun p => (2, posSegs p)) ++ [(1, [.k ") {"])]
  | .named xs => (1, head ++ [.k "({"]) :: xs.map (fun p => (2, namedSegs p)) ++ [(1, [.k "}) {"])]

theorem params_lines (head : List Seg) (p : Params) : blockLines (paramsBlock head p) = p.render (segsText head) := by
  cases p <;> (rw [paramsBlock, Params.render]; blines [namedSegs, posSegs, tySeg])

/-- Can be followed by a parenthesis. -/
def Head (head : List Seg) : Prop := ∀ s ss, (s.toList.head?.any (fun c => !isWordChar c)) = true → Clean s → Good ss →
  Good (head ++ .k s :: ss)

theorem params_good {head : List Seg} (hh : Head head) {p : Params} (h : LegParams p) : GoodBlock (paramsBlock head p) := by
  cases p with
  | unit => exact GoodBlock.cons (hh _ _ (by decide) (by decide +kernel) trivial) GoodBlock.nil
  | positional xs =>
    exact GoodBlock.cons (hh _ _ (by decide) (by decide +kernel) trivial) (GoodBlock.append (GoodBlock.map (fun p hp => pos_good (h.2 p hp)))
      (by goodb))
  | named xs =>
    exact GoodBlock.cons (hh _ _ (by decide) (by decide +kernel) trivial) (GoodBlock.append (GoodBlock.map (fun p hp => named_good (h p hp)))
      (by goodb))

/-- The pieces from the opening parenthesis to the closing one. -/
def paramsToks : Params → List Tok
  | .unit => [.sym '(', .sym ')']
  | .positional xs => .sym '(' :: (xs.flatMap (fun p => segsToks (posSegs p)) ++ [.sym ')'])
  | .named xs => .sym '(' :: .sym '{' :: (xs.flatMap (fun p => segsToks (namedSegs p)) ++ [.sym '}', .sym ')'])

theorem code_unitB : code "() {" = [.sym '(', .sym ')', .sym '{'] := by decide +kernel
theorem code_closeP : code ") {" = [.sym ')', .sym '{'] := by decide +kernel
theorem code_closeN : code "}) {" = [.sym '}', .sym ')', .sym '{'] := by decide +kernel

theorem params_toks (head : List Seg) (p : Params) :
    blockToks (paramsBlock head p) = segsToks head ++ (paramsToks p ++ [.sym '{']) := by
  cases p <;> (rw [paramsBlock, paramsToks]; btoks [code_unitB, code_closeP, code_closeN, code_open, code_openNamed])

theorem params_ok {p : Params} (h : LegParams p) (r : List Tok) : params (paramsToks p ++ r) = some (p, r) := by
  cases p with
  | unit => exact bind_ok (tok1 code_open _) <| next_yes <| bind_ok (tok1 code_close _) rfl
  | positional xs =>
    rw [paramsToks, List.cons_append, List.append_assoc, List.singleton_append]
    refine bind_ok (tok1 code_open _) <| next_no ?_ <| next_no ?_ <|
      bind_ok (until_ok (fun a => segsToks (posSegs a)) _ xs (fun a ha r => posParam_ok (h.2 a ha) r)
          (fun a _ => (pos_first a).stop ')')) rfl
    all_goals
      cases xs with
      | nil => exact absurd rfl h.1
      | cons a as =>
        obtain ⟨w, q, hq⟩ := pos_first a
        rw [List.flatMap_cons, hq]
        simp
  | named xs =>
    rw [paramsToks, List.cons_append, List.cons_append, List.append_assoc, List.cons_append]
    exact bind_ok (tok1 code_open _) <| next_no (by simp) <| next_yes <| bind_ok (tok1 (by decide +kernel) _) <|
      bind_ok (until_ok (fun a => segsToks (namedSegs a)) _ xs (fun a ha r => namedParam_ok (h a ha) r)
          (fun a _ => (named_first a).stop '}')) <| bind_ok (tok1 code_close _) rfl

/-! ### Methods -/

structure LegV (m : VMethod) : Prop where
  name : Tail m.name
  const : DartName m.const
  field : DartName m.field
  params : LegParams m.params
  assigns : ∀ a ∈ m.assigns, DartName a.1 ∧ DartName a.2
  none : m.assigns = [] → m.field = m.const
  unit : m.params = .unit → m.assigns = []

def assignSegs (f : String) (a : String × String) : List Seg := [.w f, .k ".", .w a.1, .k " = ", .w a.2, .k ";"]

theorem assign_good {f : String} (hf : isIdent f = true) {a : String × String} (h : DartName a.1 ∧ DartName a.2) :
    Good (assignSegs f a) := by
  have h1 := h.1.1
  have h2 := h.2.1
  rw [assignSegs]; good

theorem assign_ok {f : String} (hf : DartName f) {a : String × String} (h : DartName a.1 ∧ DartName a.2) (r : List Tok) :
    assign (segsToks (assignSegs f a) ++ r) = some ((f, a), r) := by
  toks [assignSegs]
  exact bind_ok (name_ok hf _) <| bind_ok (text_ok _ _) <| bind_ok (name_ok h.1 _) <| bind_ok (text_ok' _ (by decide +kernel) _) <|
    bind_ok (name_ok h.2 _) <| bind_ok (text_ok _ _) rfl

theorem sameField_ok {m : VMethod} (h : LegV m) : sameField m.const (m.assigns.map (fun a => (m.field, a))) = some (m.field, m.assigns) := by
  cases ha : m.assigns with
  | nil => rw [h.none ha]; rfl
  | cons a as =>
    rw [List.map_cons, sameField, if_pos (by simp)]
    simp [Function.comp_def]

def valueSegs (id c : String) : List Seg := .k "value = " :: constSegs id c ++ [.k ";"]

theorem value_good {id c : String} (hid : isIdent id = true) (hc : isIdent c = true) : Good (valueSegs id c) :=
  ⟨by decide +kernel, const_good hid hc (by simp only [begins]; decide) (by good)⟩

def toBlock (id : String) (m : VMethod) : Block :=
  match m.params with
  | .unit => [(1, [.k "void ", .w ("to" ++ m.name), .k "() => value = "] ++ constSegs id m.const ++ [.k ";"])]
  | p => paramsBlock [.k "void ", .w ("to" ++ m.name)] p ++ [(2, valueSegs id m.const)]
      ++ m.assigns.map (fun a => (2, assignSegs m.field a)) ++ [(1, [.k "}"])]

theorem to_lines (id : String) (m : VMethod) : blockLines (toBlock id m) = m.renderTo id := by
  have e : ∀ s : String, "void " ++ ("to" ++ s) = "void to" ++ s := by intro s; rw [← String.append_assoc]; rfl
  unfold toBlock VMethod.renderTo
  cases hp : m.params <;> simp only <;> blines [params_lines, valueSegs, constSegs, value_dot, assignSegs, e]

theorem ident_pre {start m : String} (hs : isIdent start = true) (h : Tail m) : isIdent (start ++ m) = true := ident_append hs h

theorem to_good {id : String} (hid : isIdent id = true) {m : VMethod} (h : LegV m) : GoodBlock (toBlock id m) := by
  have hn := ident_append (start := "to") (by decide) h.name
  have hh : Head [.k "void ", .w ("to" ++ m.name)] := fun s ss h1 h2 h3 => ⟨by decide +kernel, hn, h1, h2, h3⟩
  have rest : ∀ p, LegParams p → GoodBlock (paramsBlock [.k "void ", .w ("to" ++ m.name)] p ++ [(2, valueSegs id m.const)]
      ++ m.assigns.map (fun a => (2, assignSegs m.field a)) ++ [(1, [.k "}"])]) := fun p hp =>
    (((params_good hh hp).append (GoodBlock.cons (value_good hid h.const.1) GoodBlock.nil)).append
      (GoodBlock.map (fun a ha => assign_good h.field.1 (h.assigns a ha)))).append (by goodb)
  have hl := h.params
  unfold toBlock
  cases hp : m.params with
  | unit =>
    exact GoodBlock.cons ⟨by decide +kernel, hn, rfl, by decide +kernel, const_good hid h.const.1 (by simp only [begins]; decide) (by good)⟩
      GoodBlock.nil
  | positional xs => rw [hp] at hl; exact rest _ hl
  | named xs => rw [hp] at hl; exact rest _ hl

theorem code_unitArrow : code "() => value = " = .sym '(' :: .sym ')' :: code "=> value = " := by decide +kernel
theorem code_arrow : ∃ q, code "=> value = " = .sym '=' :: q := ⟨(code "=> value = ").tail, by decide +kernel⟩

theorem toMethod_ok (id : String) {m : VMethod} (h : LegV m) (r : List Tok) :
    toMethod id (blockToks (toBlock id m) ++ r) = some (m, r) := by
  have rest : ∀ p, m.params = p → p ≠ .unit → toMethod id (blockToks (paramsBlock [.k "void ", .w ("to" ++ m.name)] p
      ++ [(2, valueSegs id m.const)] ++ m.assigns.map (fun a => (2, assignSegs m.field a)) ++ [(1, [.k "}"])]) ++ r) = some (m, r) := by
    intro p hp hu
    have hl := h.params
    rw [hp] at hl
    rw [valueSegs]
    btoks [params_toks, code_closeB]
    have hv : ∀ r', text "{ value =" (.sym '{' :: (code "value = " ++ r')) = some ((), r') :=
      fun r' => text_ok' _ (us := .sym '{' :: code "value = ") (by decide +kernel) r'
    have hmap : m.assigns.flatMap (fun a => segsToks (assignSegs m.field a))
        = (m.assigns.map (fun a => (m.field, a))).flatMap (fun t => segsToks (assignSegs t.1 t.2)) := by
      rw [List.flatMap_map]
    rw [hmap]
    refine bind_ok (text_ok' _ (by decide +kernel) _) <| bind_ok (word_ok _ _) <| bind_ok (some!_ok (dropStart_ok "to" m.name) _) <|
      bind_ok (params_ok hl _) <| next_no (by simp) <| bind_ok (hv _) <| bind_ok (constant_ok id h.const _) <| bind_ok (text_ok _ _) <|
      bind_ok (until_ok (fun t : String × String × String => segsToks (assignSegs t.1 t.2)) _ (m.assigns.map (fun a => (m.field, a))) ?_ ?_) <|
      bind_ok (some!_ok (sameField_ok h) _) <| bind_ok (fits_ok ?_ _) ?_
    · intro t ht r
      obtain ⟨a, ha, rfl⟩ := List.mem_map.1 ht
      exact assign_ok h.field (h.assigns a ha) r
    · intro t ht
      exact ⟨_, _, rfl, by simp⟩
    · cases p <;> simp at hu ⊢
    · rw [pure_ok, ← hp]
  unfold toBlock
  cases hp : m.params with
  | unit =>
    have hm : m = ⟨m.name, m.const, m.const, .unit, []⟩ := by
      have h1 := h.unit hp
      have h2 := h.none h1
      cases m
      simp only at hp h1 h2
      subst hp; subst h1; subst h2; rfl
    obtain ⟨q, hq⟩ := code_arrow
    have hn : ∀ {p q' : P VMethod} {r' : List Tok} {x : Option (VMethod × List Tok)},
        p (code "=> value = " ++ r') = x → (do if ← next (.sym '=') then p else q') (code "=> value = " ++ r') = x := by
      intro p q' r' x hx
      rw [hq, List.cons_append] at hx ⊢
      exact next_yes hx
    btoks [code_unitArrow]
    rw [hm]
    exact bind_ok (text_ok' _ (by decide +kernel) _) <| bind_ok (word_ok _ _) <| bind_ok (some!_ok (dropStart_ok "to" m.name) _) <|
      bind_ok (params_ok (p := .unit) trivial _) <| hn <| bind_ok (text_ok' _ (by decide +kernel) _) <| bind_ok (constant_ok id h.const _) <|
      bind_ok (text_ok _ _) rfl
  | positional xs => exact rest _ hp (by simp)
  | named xs => exact rest _ hp (by simp)

def isSegs (id : String) (i : String × String) : List Seg :=
  [.k "bool ", .w ("is" ++ i.1), .k "() => value == "] ++ constSegs id i.2 ++ [.k ";"]

theorem is_good {id : String} (hid : isIdent id = true) {i : String × String} (h : Tail i.1 ∧ DartName i.2) : Good (isSegs id i) :=
  ⟨by decide +kernel, ident_append (start := "is") (by decide) h.1, rfl, by decide +kernel,
    const_good hid h.2.1 (by simp only [begins]; decide) (by good)⟩

theorem isMethod_ok (id : String) {i : String × String} (h : Tail i.1 ∧ DartName i.2) (r : List Tok) :
    isMethod id (segsToks (isSegs id i) ++ r) = some (i, r) := by
  rw [isSegs]
  toks []
  exact bind_ok (text_ok' _ (by decide +kernel) _) <| bind_ok (word_ok _ _) <| bind_ok (some!_ok (dropStart_ok "is" i.1) _) <|
    bind_ok (text_ok' _ (by decide +kernel) _) <| bind_ok (constant_ok id h.2 _) <| bind_ok (text_ok _ _) rfl

def createBlock (id : String) (m : VMethod) : Block :=
  paramsBlock [.k "static ", .w id, .k " ", .w ("create" ++ m.name)] m.params
    ++ [(2, [.k "final model = ", .w id, .k "();"]), (2, .k "model.value = " :: constSegs id m.const ++ [.k ";"])]
    ++ m.assigns.map (fun a => (2, .k "model." :: assignSegs m.field a)) ++ [(2, [.k "return model;"]), (1, [.k "}"])]

theorem create_lines (id : String) (m : VMethod) : blockLines (createBlock id m) = m.renderCreate id := by
  have e : ∀ s : String, " " ++ ("create" ++ s) = " create" ++ s := by intro s; rw [← String.append_assoc]; rfl
  rw [createBlock, VMethod.renderCreate]
  blines [params_lines, constSegs, value_dot, assignSegs, e]

theorem create_good {id : String} (hid : isIdent id = true) {m : VMethod} (h : LegV m) : GoodBlock (createBlock id m) := by
  have hn := ident_append (start := "create") (by decide) h.name
  have hh : Head [.k "static ", .w id, .k " ", .w ("create" ++ m.name)] := fun s ss h1 h2 h3 =>
    ⟨by decide +kernel, hid, rfl, by decide +kernel, hn, h1, h2, h3⟩
  have h1 : Good (.k "model.value = " :: constSegs id m.const ++ [.k ";"]) :=
    ⟨by decide +kernel, const_good hid h.const.1 (by simp only [begins]; decide) (by good)⟩
  exact (((params_good hh h.params).append (by goodb)).append
    (GoodBlock.map (f := fun a => (2, .k "model." :: assignSegs m.field a))
      (fun a ha => ⟨by decide +kernel, assign_good h.field.1 (h.assigns a ha)⟩))).append (by goodb)

theorem code_returnModel : code "return model;" = .word "return" :: code "model;" := by decide +kernel

theorem createMethod_ok (id : String) {m : VMethod} (h : LegV m) (r : List Tok) :
    createMethod id (blockToks (createBlock id m) ++ r) = some (m, r) := by
  rw [createBlock]
  btoks [params_toks, code_space, code_returnModel]
  have hv : ∀ r', text "{ final model =" (.sym '{' :: (code "final model = " ++ r')) = some ((), r') :=
    fun r' => text_ok' _ (us := .sym '{' :: code "final model = ") (by decide +kernel) r'
  have hv2 : ∀ r', text "(); model.value =" (code "();" ++ (code "model.value = " ++ r')) = some ((), r') :=
    fun r' => text2 (by decide +kernel) r'
  have hr : ∀ r', text "return model; }" (.word "return" :: (code "model;" ++ (code "}" ++ r'))) = some ((), r') := by
    intro r'
    have := text_ok' "return model; }" (us := .word "return" :: (code "model;" ++ code "}")) (by decide +kernel) r'
    simpa using this
  have hmap : m.assigns.flatMap (fun a => code "model." ++ segsToks (assignSegs m.field a))
      = (m.assigns.map (fun a => (m.field, a))).flatMap (fun t => code "model." ++ segsToks (assignSegs t.1 t.2)) := by
    rw [List.flatMap_map]
  rw [hmap]
  refine bind_ok (text_ok' _ (by decide +kernel) _) <| bind_ok (the_ok _ _) <| bind_ok (word_ok _ _) <|
    bind_ok (some!_ok (dropStart_ok "create" m.name) _) <|
    bind_ok (params_ok h.params _) <| bind_ok (hv _) <| bind_ok (the_ok _ _) <| bind_ok (hv2 _) <|
    bind_ok (constant_ok id h.const _) <| bind_ok (text_ok _ _) <|
    bind_ok (star_ok (item := modelAssign) (fun t : String × String × String => code "model." ++ segsToks (assignSegs t.1 t.2)) _
      ?_ (by simp) (m.assigns.map (fun a => (m.field, a))) ?_ ?_) <|
    bind_ok (hr _) <| bind_ok (some!_ok (sameField_ok h) _) rfl
  · exact bind_none (text_none (p := .word "model") (by decide +kernel) (by decide))
  · intro t ht r
    obtain ⟨a, ha, rfl⟩ := List.mem_map.1 ht
    simp only [List.append_assoc]
    exact bind_ok (text_ok _ _) (assign_ok h.field (h.assigns a ha) r)
  · intro t _
    rw [code_model]
    exact ⟨_, _, rfl⟩

/-! ### Enums -/

def enumB (c : EnumClass) : Block :=
  [(0, [.k "enum ", .w (c.id ++ "Value"), .k " {"])] ++ c.consts.map (fun v => (1, [.w v, .k ","]))
    ++ [(0, [.k "}"]), (0, []), (0, [.k "class ", .w c.id, .k " {"]),
        (1, .w (c.id ++ "Value") :: .k " value = " :: constSegs c.id c.first ++ [.k ";"])]
    ++ c.payloads.map (fun p => (1, payloadFieldSegs p))
    ++ [(0, [])] ++ blankJoin (c.tos.map (toBlock c.id)) ++ [(0, [])] ++ c.isses.map (fun i => (1, isSegs c.id i))
    ++ [(0, [])] ++ blankJoin (c.creates.map (createBlock c.id)) ++ [(0, [.k "}"]), (0, [])]
    ++ factoryBlock c.id [.w c.id, .k "();"]

theorem enumB_lines (c : EnumClass) : blockLines (enumB c) = c.render := by
  have e1 : ∀ s : String, "Value" ++ (" value = " ++ s) = "Value value = " ++ s := by intro s; rw [← String.append_assoc]; rfl
  have e2 : "Value" ++ " {" = "Value {" := rfl
  have e3 : ∀ s : String, "bool " ++ ("is" ++ s) = "bool is" ++ s := by intro s; rw [← String.append_assoc]; rfl
  have f1 : blockLines ∘ toBlock c.id = VMethod.renderTo c.id := funext (to_lines c.id)
  have f2 : blockLines ∘ createBlock c.id = VMethod.renderCreate c.id := funext (create_lines c.id)
  rw [enumB, EnumClass.render]
  blines [blockLines_join, List.map_map, f1, f2, factory_lines, isSegs, payloadFieldSegs, constSegs, new_text, value_dot, e1, e2, e3]

structure LegEnum (c : EnumClass) : Prop where
  id : isIdent c.id = true
  consts : ∀ v ∈ c.consts, DartName v
  first : DartName c.first
  payloads : ∀ p ∈ c.payloads, LegPayload p
  tos : ∀ m ∈ c.tos, LegV m
  isses : ∀ i ∈ c.isses, Tail i.1 ∧ DartName i.2
  creates : ∀ m ∈ c.creates, LegV m
  someTos : c.tos ≠ []
  someIsses : c.isses ≠ []
  someCreates : c.creates ≠ []

theorem enumB_good {c : EnumClass} (h : LegEnum c) : GoodBlock (enumB c) := by
  have hid := h.id
  have hv := ident_value hid
  have hf : Good (.w (c.id ++ "Value") :: .k " value = " :: constSegs c.id c.first ++ [.k ";"]) :=
    ⟨hv, rfl, by decide +kernel, const_good hid h.first.1 (by simp only [begins]; decide) (by good)⟩
  have hc : GoodBlock (c.consts.map (fun v => (1, [Seg.w v, .k ","]))) := by
    refine GoodBlock.map (fun v hv => ?_)
    have := (h.consts v hv).1
    show Good [.w v, .k ","]
    good
  refine GoodBlock.append (GoodBlock.append (GoodBlock.append (GoodBlock.append (GoodBlock.append (GoodBlock.append (GoodBlock.append
    (GoodBlock.append (GoodBlock.append (GoodBlock.append (GoodBlock.append (by goodb) hc) (by goodb))
      (GoodBlock.map (fun p hp => payloadField_good (h.payloads p hp)))) (by goodb)) (GoodBlock.join ?_)) (by goodb))
      (GoodBlock.map (fun i hi => is_good hid (h.isses i hi)))) (by goodb)) (GoodBlock.join ?_)) (by goodb)) (factory_good hid (by good))
  · intro b hb
    obtain ⟨m, hm, rfl⟩ := List.mem_map.1 hb
    exact to_good hid (h.tos m hm)
  · intro b hb
    obtain ⟨m, hm, rfl⟩ := List.mem_map.1 hb
    exact create_good hid (h.creates m hm)

theorem dropValue_reserved : ∀ w ∈ dartReserved, dropEnd "Value" w = none := by decide +kernel

theorem dartName_value {id : String} (h : isIdent id = true) : DartName (id ++ "Value") := by
  refine ⟨ident_value h, fun hm => ?_⟩
  have := dropValue_reserved _ hm
  rw [dropEnd_ok] at this
  simp at this

theorem code_void : code "void " = [.word "void"] := by decide +kernel
theorem code_bool : code "bool " = [.word "bool"] := by decide +kernel
theorem code_static : code "static " = [.word "static"] := by decide +kernel

theorem to_first (id : String) (m : VMethod) : ∃ q, blockToks (toBlock id m) = .word "void" :: q := by
  unfold toBlock
  cases hp : m.params <;> simp only <;> (btoks [params_toks, code_void]; exact ⟨_, rfl⟩)

theorem is_first (id : String) (i : String × String) : ∃ q, segsToks (isSegs id i) = .word "bool" :: q := by
  rw [isSegs]; toks [code_bool]; exact ⟨_, rfl⟩

theorem create_first (id : String) (m : VMethod) : ∃ q, blockToks (createBlock id m) = .word "static" :: q := by
  rw [createBlock]; btoks [params_toks, code_static]; exact ⟨_, rfl⟩

theorem first_of {α : Type} {toks : α → List Tok} {w : String} (h : ∀ a, ∃ q, toks a = .word w :: q) {as : List α} (hne : as ≠ [])
    (r : List Tok) : ∃ q, as.flatMap toks ++ r = .word w :: q := by
  cases as with
  | nil => exact absurd rfl hne
  | cons a as =>
    obtain ⟨q, hq⟩ := h a
    rw [List.flatMap_cons, hq]
    exact ⟨_, rfl⟩

theorem constName_ok {c : String} (h : DartName c) (r : List Tok) : constName (.word c :: (code "," ++ r)) = some (c, r) :=
  bind_ok (name_ok h _) <| bind_ok (text_ok _ _) rfl

theorem enumClass_ok {c : EnumClass} (h : LegEnum c) (r : List Tok) :
    enumClass (blockToks (enumB c) ++ r) = some (c, r) := by
  have hf : ∀ r', factory c.id (blockToks (factoryBlock c.id [.w c.id, .k "();"]) ++ r')
      = some ((), .word c.id :: (code "();" ++ (code "}" ++ r'))) := by
    intro r'
    rw [factory_ok]
    toks []
  rw [enumB]
  btoks [code_closeB, blockToks_join, List.flatMap_map]
  refine bind_ok (text_ok' _ (by decide +kernel) _) <| bind_ok (name_ok (dartName_value h.id) _) <|
    bind_ok (some!_ok (dropEnd_ok "Value" c.id) _) <| bind_ok (text_ok' _ (by decide +kernel) _) <|
    bind_ok (until_ok (fun v => .word v :: code ",") _ c.consts (fun v hv r => constName_ok (h.consts v hv) r)
      (fun v hv => ⟨_, _, rfl, by simp⟩)) <| bind_ok (text_ok' _ (by decide +kernel) _) <| bind_ok (the_ok _ _) <|
    bind_ok (text_ok' _ (by decide +kernel) _) <| bind_ok (the_ok _ _) <| bind_ok (text_ok' _ (by decide +kernel) _) <|
    bind_ok (constant_ok c.id h.first _) <| bind_ok (text_ok _ _) <|
    bind_ok (star_ok (item := payloadField) (fun p => segsToks (payloadFieldSegs p)) _ ?_ ?_ c.payloads
      (fun p hp r => payloadField_ok (h.payloads p hp) r) (fun p _ => ⟨_, _, rfl⟩)) <|
    bind_ok (star_ok (item := toMethod c.id) (fun m => blockToks (toBlock c.id m)) _ ?_ ?_ c.tos
      (fun m hm r => toMethod_ok c.id (h.tos m hm) r) (fun m _ => ⟨_, (to_first c.id m)⟩)) <|
    bind_ok (star_ok (item := isMethod c.id) (fun i => segsToks (isSegs c.id i)) _ ?_ ?_ c.isses
      (fun i hi r => isMethod_ok c.id (h.isses i hi) r) (fun i _ => ⟨_, (is_first c.id i)⟩)) <|
    bind_ok (star_ok (item := createMethod c.id) (fun m => blockToks (createBlock c.id m)) _ ?_ ?_ c.creates
      (fun m hm r => createMethod_ok c.id (h.creates m hm) r) (fun m _ => ⟨_, (create_first c.id m)⟩)) <|
    bind_ok (tok1 code_closeB _) <| bind_ok (hf _) <| bind_ok (the_ok _ _) <| bind_ok (text2 (by decide +kernel) _) rfl
  · obtain ⟨q, hq⟩ := first_of (to_first c.id) h.someTos
      (c.isses.flatMap (fun i => segsToks (isSegs c.id i)) ++ (c.creates.flatMap (fun m => blockToks (createBlock c.id m)) ++
        .sym '}' :: (blockToks (factoryBlock c.id [.w c.id, .k "();"]) ++ r)))
    rw [hq]
    exact bind_none (name_reserved (by decide) _)
  · obtain ⟨q, hq⟩ := first_of (to_first c.id) h.someTos
      (c.isses.flatMap (fun i => segsToks (isSegs c.id i)) ++ (c.creates.flatMap (fun m => blockToks (createBlock c.id m)) ++
        .sym '}' :: (blockToks (factoryBlock c.id [.w c.id, .k "();"]) ++ r)))
    rw [hq]; simp
  · obtain ⟨q, hq⟩ := first_of (is_first c.id) h.someIsses (c.creates.flatMap (fun m => blockToks (createBlock c.id m)) ++
        .sym '}' :: (blockToks (factoryBlock c.id [.w c.id, .k "();"]) ++ r))
    rw [hq]
    exact bind_none (text_none (p := .word "void") (by decide +kernel) (by decide))
  · obtain ⟨q, hq⟩ := first_of (is_first c.id) h.someIsses (c.creates.flatMap (fun m => blockToks (createBlock c.id m)) ++
        .sym '}' :: (blockToks (factoryBlock c.id [.w c.id, .k "();"]) ++ r))
    rw [hq]; simp
  · obtain ⟨q, hq⟩ := first_of (create_first c.id) h.someCreates (.sym '}' :: (blockToks (factoryBlock c.id [.w c.id, .k "();"]) ++ r))
    rw [hq]
    exact bind_none (text_none (p := .word "bool") (by decide +kernel) (by decide))
  · obtain ⟨q, hq⟩ := first_of (create_first c.id) h.someCreates (.sym '}' :: (blockToks (factoryBlock c.id [.w c.id, .k "();"]) ++ r))
    rw [hq]; simp
  · exact bind_none (text_none (p := .word "static") (by decide +kernel) (by decide))
  · simp

/-! ### Items -/

def itemB : ClassItem → Block
  | .struct c => structB c
  | .enum c vs => enumB c ++ [(0, [])] ++ blankJoin (vs.map structB)

def LegItem : ClassItem → Prop
  | .struct c => LegStruct c
  | .enum c vs => LegEnum c ∧ (∀ v ∈ vs, LegStruct v) ∧ vs.length = c.consts.length

theorem item_lines (i : ClassItem) : blockLines (itemB i) = i.render := by
  cases i with
  | struct c => exact structB_lines c
  | enum c vs =>
    have f1 : blockLines ∘ structB = StructClass.render := funext structB_lines
    rw [itemB, ClassItem.render]
    blines [blockLines_join, List.map_map, f1, enumB_lines]

theorem item_good {i : ClassItem} (h : LegItem i) : GoodBlock (itemB i) := by
  cases i with
  | struct c => exact structB_good h
  | enum c vs =>
    refine GoodBlock.append ((enumB_good h.1).append (by goodb)) (GoodBlock.join ?_)
    intro b hb
    obtain ⟨m, hm, rfl⟩ := List.mem_map.1 hb
    exact structB_good (h.2.1 m hm)

theorem structB_first (c : StructClass) : ∃ q, blockToks (structB c) = .word "class" :: q := by
  rw [structB]
  split <;> (btoks [show code "class " = [.word "class"] by decide +kernel]; exact ⟨_, rfl⟩)

theorem enumB_first (c : EnumClass) : ∃ q, blockToks (enumB c) = .word "enum" :: q := by
  rw [enumB]
  btoks [show code "enum " = [.word "enum"] by decide +kernel]
  exact ⟨_, rfl⟩

theorem classItem_ok {i : ClassItem} (h : LegItem i) (r : List Tok) :
    classItem (blockToks (itemB i) ++ r) = some (i, r) := by
  cases i with
  | struct c =>
    refine next_no ?_ <| bind_ok (structClass_ok h _) rfl
    obtain ⟨q, hq⟩ := structB_first c
    rw [itemB, hq]; simp
  | enum c vs =>
    rw [itemB]
    btoks [blockToks_join, List.flatMap_map]
    have h1 : (do let c ← enumClass; let vs ← times structClass c.consts.length; pure (ClassItem.enum c vs) : P ClassItem)
        (blockToks (enumB c) ++ (vs.flatMap (fun v => blockToks (structB v)) ++ r)) = some (.enum c vs, r) := by
      refine bind_ok (enumClass_ok h.1 _) <| bind_ok ?_ rfl
      rw [← h.2.2]
      exact times_ok (fun v => blockToks (structB v)) r vs (fun v hv r => structClass_ok (h.2.1 v hv) r)
    obtain ⟨q, hq⟩ := enumB_first c
    rw [hq, List.cons_append] at h1 ⊢
    exact next_yes h1

def itemsB : List ClassItem → Block
  | [] => []
  | [c] => itemB c
  | .struct c :: d :: cs => itemB (.struct c) ++ (0, []) :: itemsB (d :: cs)
  | .enum c vs :: d :: cs => itemB (.enum c vs) ++ itemsB (d :: cs)

theorem items_lines (is : List ClassItem) : blockLines (itemsB is) = renderItems is := by
  induction is with
  | nil => rfl
  | cons i is ih =>
    cases is with
    | nil => rw [itemsB, renderItems, item_lines]
    | cons j js =>
      cases i with
      | struct c => rw [itemsB, renderItems, blockLines_append, blockLines_cons, ih, item_lines]; rfl
      | enum c vs => rw [itemsB, renderItems, blockLines_append, ih, item_lines]

theorem items_toks (is : List ClassItem) : blockToks (itemsB is) = is.flatMap (fun i => blockToks (itemB i)) := by
  induction is with
  | nil => rfl
  | cons i is ih =>
    cases is with
    | nil => simp [itemsB]
    | cons j js =>
      cases i with
      | struct c => rw [itemsB, blockToks_append, blockToks_cons, ih]; rfl
      | enum c vs => rw [itemsB, blockToks_append, ih]; rfl

theorem items_good {is : List ClassItem} (h : ∀ i ∈ is, LegItem i) : GoodBlock (itemsB is) := by
  induction is with
  | nil => exact GoodBlock.nil
  | cons i is ih =>
    have h1 := item_good (h i (by simp))
    have h2 := ih (fun j hj => h j (by simp [hj]))
    cases is with
    | nil => exact h1
    | cons j js =>
      cases i with
      | struct c => exact h1.append (GoodBlock.cons trivial h2)
      | enum c vs => exact h1.append h2

/-- The section with the model classes. -/
theorem readItems_ok {is : List ClassItem} (h : ∀ i ∈ is, LegItem i) (u : Nat) :
    readItems (linesText u (renderItems is)) = some is := by
  have hl : Lexes (renderItems is) (is.flatMap (fun i => blockToks (itemB i))) := by
    rw [← items_lines, ← items_toks]; exact block_lexes (items_good h)
  refine whole_ok (fun i => blockToks (itemB i)) is hl.pieces (fun i hi r => classItem_ok (h i hi) r) (fun i _ => ?_)
  cases i with
  | struct c => exact ⟨_, structB_first c⟩
  | enum c vs =>
    obtain ⟨q, hq⟩ := enumB_first c
    rw [itemB]
    btoks [hq]
    exact ⟨_, _, rfl⟩

end TPB.Spec.DartReader
