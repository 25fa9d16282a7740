/- The reader of `Spec/DartRpcReader.lean` finds the methods and the class whose text it is given. -/
import Verif.Proofs.DartRpcReader
import Verif.Proofs.DartReaderModels
namespace TPB.Spec.DartRpcReader
open Dart Pieces Combinators DartReader DartRules
open Rust (Buf)

/-! ### Methods -/

def retSegs (m : DMethod) : List Seg :=
  if m.future then [.k "Future<", tySeg m.ret, .k ">"] else [tySeg m.ret]

def headBlock (m : DMethod) : Block :=
  match m.params with
  | [] => [(1, retSegs m ++ [.k " ", .w m.name, .k "() {"])]
  | p :: ps => (1, retSegs m ++ [.k " ", .w m.name, .k "({"]) :: (p :: ps).map (fun p => (2, namedSegs p)) ++ [(1, [.k "}) {"])]

def methodBlock (m : DMethod) : Block := headBlock m ++ m.body.flatMap (dBlock 2) ++ [(1, [.k "}"])]

structure LegMethod (m : DMethod) : Prop where
  ret : LegRes m.ret
  future : m.future = false → ∃ w q, tyToks m.ret = .word w :: q ∧ w ≠ "Future"
  name : DartName m.name
  params : ∀ p ∈ m.params, LegField p
  body : ∀ s ∈ m.body, LegD s

theorem ret_text (m : DMethod) : segsText (retSegs m) = if m.future then "Future<" ++ m.ret.render ++ ">" else m.ret.render := by
  rw [retSegs]
  cases m.future <;> simp [segsText, Seg.text, tySeg, String.append_assoc]

theorem head_lines (m : DMethod) : blockLines (headBlock m) = m.renderHead := by
  rw [headBlock, DMethod.renderHead, ← ret_text]
  cases m.params with
  | nil => plines []
  | cons p ps => plines [namedSegs, posSegs, tySeg]

theorem method_lines (m : DMethod) : blockLines (methodBlock m) = m.render := by
  rw [DMethod.render, ← head_lines]
  plines [methodBlock, d_lines]

theorem ret_good {m : DMethod} (h : LegRes m.ret) {w tail : String} (hw : isIdent w = true)
    (ht : Clean tail ∧ tail.toList.head?.any (fun c => !isWordChar c) = true) :
    Good (retSegs m ++ [.k " ", .w w, .k tail]) := by
  obtain ⟨h1, h2⟩ := res_piece h
  have hg : Good [.k " ", .w w, .k tail] := ⟨by decide +kernel, hw, ht.2, ht.1, trivial⟩
  rw [retSegs, tySeg]
  cases m.future
  · exact ⟨h1, h2, rfl, hg⟩
  · exact ⟨by decide +kernel, h1, h2, rfl, by decide +kernel, hg⟩

theorem head_good {m : DMethod} (h : LegMethod m) : GoodBlock (headBlock m) := by
  rw [headBlock]
  have hp := h.params
  cases hq : m.params with
  | nil => exact .cons (ret_good h.ret h.name.1 (by decide +kernel)) .nil
  | cons p ps =>
    rw [hq] at hp
    exact .append (.cons (ret_good h.ret h.name.1 (by decide +kernel)) (.map (fun p hh => named_good (hp p hh)))) (by pgood)

theorem method_good {m : DMethod} (h : LegMethod m) : GoodBlock (methodBlock m) := by
  rw [methodBlock]
  exact ((head_good h).append (.flatMap (fun s hs => d_good 2 (h.body s hs)))).append (by pgood)

/-- The pieces from the opening parenthesis of the parameters to the closing one. -/
def parToks (ps : List (Ty × String)) : List Tok :=
  match ps with
  | [] => [.sym '(', .sym ')']
  | p :: ps => .sym '(' :: .sym '{' :: ((p :: ps).flatMap (fun p => segsToks (namedSegs p)) ++ [.sym '}', .sym ')'])

theorem head_toks (m : DMethod) : blockToks (headBlock m) = segsToks (retSegs m) ++ (.word m.name :: (parToks m.params ++ [.sym '{'])) := by
  rw [headBlock]
  cases m.params with
  | nil => ptoks [code_space, code_unitB, parToks]
  | cons p ps => ptoks [code_space, code_closeN, code_openNamed, parToks]

theorem parameters_ok {ps : List (Ty × String)} (h : ∀ p ∈ ps, LegField p) (r : List Tok) :
    parameters (parToks ps ++ r) = some (ps, r) := by
  cases ps with
  | nil => exact bind_ok (tok1 code_open _) <| next_yes <| bind_ok (tok1 code_close _) rfl
  | cons p ps =>
    rw [parToks, List.cons_append, List.cons_append, List.append_assoc, List.cons_append]
    exact bind_ok (tok1 code_open _) <| next_no (by simp) <| bind_ok (tok1 (by decide +kernel) _) <|
      bind_ok (until_ok (fun a => segsToks (namedSegs a)) _ (p :: ps) (fun a ha r => namedParam_ok (h a ha) r)
          (fun a _ => (named_first a).stop '}')) <| bind_ok (tok1 code_close _) rfl

theorem returns_ok {m : DMethod} (h : LegMethod m) (w : String) (r : List Tok) :
    returns (segsToks (retSegs m) ++ .word w :: r) = some ((m.future, m.ret), .word w :: r) := by
  have hf := h.future
  rw [retSegs]
  cases hm : m.future with
  | true =>
    rw [if_pos rfl]
    ptoks [tySeg]
    exact next_is (head_code (by decide +kernel) _) <| bind_ok (text_ok _ _) <|
      bind_ok (resultTy_ok h.ret (noArgs_code (u := .sym '>') (by decide +kernel) (by decide) _)) <| bind_ok (text_ok _ _) rfl
  | false =>
    obtain ⟨v, q, e, hv⟩ := hf hm
    rw [if_neg (by decide)]
    ptoks [tySeg]
    refine next_no ?_ <| bind_ok (resultTy_ok h.ret (noArgs_word w r)) rfl
    rw [e]
    simpa using hv

theorem mem_solid {body : List DStmt} {s : DStmt} (h : s ∈ body.filter DStmt.solid) : s ∈ body ∧ s.solid = true := List.mem_filter.1 h

/-- Like `until_ok`, where what is read is a function of the item. -/
theorem untilMap_ok {α β : Type} {item : P β} {stop : Tok} (toks : α → List Tok) (f : α → β) (r : List Tok) (as : List α)
    (h : ∀ a ∈ as, ∀ r, item (toks a ++ r) = some (f a, r)) (hs : ∀ a ∈ as, ∃ t ts, toks a = t :: ts ∧ t ≠ stop) :
    until_ stop item (as.flatMap toks ++ stop :: r) = some (as.map f, r) := by
  have key : ∀ fuel, as.length < fuel → many item stop fuel (as.flatMap toks ++ stop :: r) = some (as.map f, r) := by
    induction as with
    | nil =>
      intro fuel hf
      match fuel, hf with
      | fuel + 1, _ => simp [many]
    | cons a as ih =>
      intro fuel hf
      match fuel, hf with
      | fuel + 1, hf =>
        obtain ⟨t, ts, e, hne⟩ := hs a (by simp)
        have h1 := h a (by simp) (as.flatMap toks ++ stop :: r)
        rw [List.flatMap_cons, List.append_assoc]
        rw [e, List.cons_append] at h1 ⊢
        rw [many, if_neg hne, h1]
        simp only
        rw [ih (fun b hb => h b (by simp [hb])) (fun b hb => hs b (by simp [hb])) fuel
          (by simp only [List.length_cons] at hf; omega)]
        rfl
  refine key _ ?_
  have := length_flatMap_le toks as (fun a ha => by obtain ⟨t, ts, e, _⟩ := hs a ha; exact ⟨t, ts, e⟩)
  simp only [List.length_append, List.length_cons]
  omega

theorem method_ok {m : DMethod} (h : LegMethod m) (r : List Tok) : method (blockToks (methodBlock m) ++ r) = some (m.trim, r) := by
  ptoks [methodBlock, head_toks]
  rw [flatMap_filter (fun s => blockToks (dBlock 2 s)) DStmt.solid m.body (fun s hs => dBlock_blank _ s hs)]
  exact bind_ok (returns_ok h _ _) <| bind_ok (name_ok h.name _) <| bind_ok (parameters_ok h.params _) <|
    bind_ok (tok1 (by decide +kernel) _) <|
    bind_ok (untilMap_ok (fun s => blockToks (dBlock 2 s)) DStmt.trim r _
      (fun s hs r => dstmt_ok 2 (h.body s (mem_solid hs).1) (mem_solid hs).2 r)
      (fun s hs => (d_first 2 (mem_solid hs).2).stop '}')) rfl

theorem method_first (m : DMethod) : FirstWord (blockToks (methodBlock m)) := by
  ptoks [methodBlock, head_toks]
  rw [retSegs]
  cases m.future with
  | true => rw [if_pos rfl]; ptoks []; exact first_code (w := "Future") (by decide +kernel) _
  | false =>
    rw [if_neg (by decide)]
    obtain ⟨w, q, e⟩ := tyToks_first m.ret
    ptoks [tySeg, e]
    exact ⟨_, _, rfl⟩

/-! ### Members, getters, `disconnect` -/

def memberLine : Member → Nat × List Seg
  | .lastId v => (1, [.k "int ", .w v, .k " = 0;"])
  | .completers v ty => (1, [.k "final ", .w v, .k " = <int, Completer<", tySeg ty, .k ">>{};"])
  | .task v => (1, [.k "late final TechPawsRuntimeRpcReadTask ", .w v, .k ";"])
  | .controller v ty => (1, [.k "final ", .w v, .k " = StreamController<", tySeg ty, .k ">.broadcast();"])
  | .blank => (0, [])

def LegMember : Member → Prop
  | .lastId v => DartName v
  | .completers v ty => DartName v ∧ LegRes ty
  | .task v => DartName v
  | .controller v ty => DartName v ∧ LegRes ty
  | .blank => True

theorem member_line (m : Member) : ((memberLine m).1, segsText (memberLine m).2) = m.render := by
  cases m <;> simp only [memberLine, segsText, Seg.text, tySeg, String.append_empty] <;>
    (simp only [Member.render]; try simp only [String.append_assoc])

theorem member_good {m : Member} (h : LegMember m) : Good (memberLine m).2 := by
  cases m with
  | lastId v =>
    have hv : isIdent v = true := (show DartName v from h).1
    rw [memberLine]; good
  | completers v ty =>
    have hv : isIdent v = true := h.1.1
    obtain ⟨h1, h2⟩ := res_piece h.2
    rw [memberLine, tySeg]; good
  | task v =>
    have hv : isIdent v = true := (show DartName v from h).1
    rw [memberLine]; good
  | controller v ty =>
    have hv : isIdent v = true := h.1.1
    obtain ⟨h1, h2⟩ := res_piece h.2
    rw [memberLine, tySeg]; good
  | blank => trivial

theorem member_ok {m : Member} (h : LegMember m) (hs : m.solid = true) (r : List Tok) :
    member (segsToks (memberLine m).2 ++ r) = some (m, r) := by
  cases m with
  | blank => cases hs
  | lastId v =>
    ptoks [memberLine]
    exact next_is (head_code (by decide +kernel) _) <| bind_ok (text_ok' _ (by decide +kernel) _) <| bind_ok (name_ok h _) <|
      bind_ok (text_ok' _ (by decide +kernel) _) rfl
  | task v =>
    ptoks [memberLine]
    exact next_not (u := .word "late") (head_code (by decide +kernel) _) (by decide) <|
      next_is (head_code (by decide +kernel) _) <| bind_ok (text_ok' _ (by decide +kernel) _) <| bind_ok (name_ok h _) <|
      bind_ok (text_ok _ _) rfl
  | completers v ty =>
    ptoks [memberLine, tySeg]
    exact next_not (u := .word "final") (head_code (by decide +kernel) _) (by decide) <|
      next_not (u := .word "final") (head_code (by decide +kernel) _) (by decide) <|
      bind_ok (text_ok' _ (by decide +kernel) _) <| bind_ok (name_ok h.1 _) <|
      bind_ok (text_split "<int, Completer<" (by decide +kernel) _) <| next_is (head_code (by decide +kernel) _) <|
      bind_ok (text_ok _ _) <| bind_ok (resultTy_ok h.2 (noArgs_code (u := .sym '>') (by decide +kernel) (by decide) _)) <|
      bind_ok (text_ok _ _) rfl
  | controller v ty =>
    ptoks [memberLine, tySeg]
    exact next_not (u := .word "final") (head_code (by decide +kernel) _) (by decide) <|
      next_not (u := .word "final") (head_code (by decide +kernel) _) (by decide) <|
      bind_ok (text_ok' _ (by decide +kernel) _) <| bind_ok (name_ok h.1 _) <|
      bind_ok (text_split "StreamController<" (by decide +kernel) _) <|
      next_not (u := .word "StreamController") (head_code (by decide +kernel) _) (by decide) <|
      bind_ok (text_ok _ _) <| bind_ok (resultTy_ok h.2 (noArgs_code (u := .sym '>') (by decide +kernel) (by decide) _)) <|
      bind_ok (text_ok _ _) rfl

theorem member_none {w : String} (h : w ∉ ["int", "late", "final"]) (r : List Tok) : member (.word w :: r) = none := by
  simp only [List.mem_cons, List.not_mem_nil, or_false, not_or] at h
  exact next_no (by simpa using h.1) <| next_no (by simpa using h.2.1) <|
    bind_none (text_wrong (p := .word "final") (by decide +kernel) (by rfl) (by simpa using Ne.symm h.2.2))

theorem member_first {m : Member} (hs : m.solid = true) : ∃ w q, segsToks (memberLine m).2 = .word w :: q := by
  cases m with
  | blank => cases hs
  | lastId v => ptoks [memberLine]; exact first_code (w := "int") (by decide +kernel) _
  | task v => ptoks [memberLine]; exact first_code (w := "late") (by decide +kernel) _
  | completers v ty => ptoks [memberLine]; exact first_code (w := "final") (by decide +kernel) _
  | controller v ty => ptoks [memberLine]; exact first_code (w := "final") (by decide +kernel) _

def getterBlock (g : Getter) : Block :=
  [(0, []), (1, [.k "Stream<", tySeg g.ty, .k "> get ", .w g.name, .k " => ", .w g.controller, .k ".stream;"])]

structure LegGetter (g : Getter) : Prop where
  ty : LegRes g.ty
  name : DartName g.name
  controller : DartName g.controller

theorem getter_lines (g : Getter) : blockLines (getterBlock g) = g.render := by
  rw [Getter.render]
  plines [getterBlock, tySeg]

theorem getter_good {g : Getter} (h : LegGetter g) : GoodBlock (getterBlock g) := by
  have h1 : isIdent g.name = true := h.name.1
  have h2 : isIdent g.controller = true := h.controller.1
  obtain ⟨h3, h4⟩ := res_piece h.ty
  rw [getterBlock, tySeg]
  exact .cons trivial (.cons (by good) .nil)

theorem getter_ok {g : Getter} (h : LegGetter g) (r : List Tok) : getter (blockToks (getterBlock g) ++ r) = some (g, r) := by
  ptoks [getterBlock, tySeg]
  exact bind_ok (text_ok _ _) <| bind_ok (resultTy_ok h.ty (noArgs_code (u := .sym '>') (by decide +kernel) (by decide) _)) <|
    bind_ok (text_ok' _ (by decide +kernel) _) <| bind_ok (name_ok h.name _) <| bind_ok (text_ok' _ (by decide +kernel) _) <|
    bind_ok (name_ok h.controller _) <| bind_ok (text_ok _ _) rfl

def discLine : DiscS → Nat × List Seg
  | .disconnect v => (2, [.k "_scheduler.disconnect(", .w v, .k ");"])
  | .close v => (2, [.w v, .k ".close();"])

def LegDisc : DiscS → Prop
  | .disconnect v => DartName v
  | .close v => DartName v ∧ v ≠ "_scheduler"

theorem disc_line (d : DiscS) : ((discLine d).1, segsText (discLine d).2) = d.render := by
  cases d <;> simp only [discLine, segsText, Seg.text, String.append_empty] <;>
    (simp only [DiscS.render]; try simp only [String.append_assoc])

theorem disc_good {d : DiscS} (h : LegDisc d) : Good (discLine d).2 := by
  cases d with
  | disconnect v =>
    have hv : isIdent v = true := (show DartName v from h).1
    rw [discLine]; good
  | close v =>
    have hv : isIdent v = true := h.1.1
    rw [discLine]; good

theorem disc_ok {d : DiscS} (h : LegDisc d) (r : List Tok) : disc (segsToks (discLine d).2 ++ r) = some (d, r) := by
  cases d with
  | disconnect v =>
    ptoks [discLine]
    exact next_is (head_code (by decide +kernel) _) <| bind_ok (text_ok _ _) <| bind_ok (name_ok h _) <| bind_ok (text_ok _ _) rfl
  | close v =>
    ptoks [discLine]
    exact next_no (by simpa using h.2) <| bind_ok (name_ok h.1 _) <| bind_ok (text_ok _ _) rfl

theorem disc_first (d : DiscS) : FirstWord (segsToks (discLine d).2) := by
  cases d with
  | disconnect v => ptoks [discLine]; exact first_code (w := "_scheduler") (by decide +kernel) _
  | close v => ptoks [discLine]; exact ⟨_, _, rfl⟩

/-! ### The class -/

def ctorBlock (c : Client) : Block :=
  match c.connects with
  | [] => [(1, [.w c.name, .k "(this._scheduler);"])]
  | n :: ns => (1, [.w c.name, .k "(this._scheduler) {"]) :: (n :: ns).map (fun n => (2, [.w n, .k "();"])) ++ [(1, [.k "}"])]

theorem ctor_lines (c : Client) : blockLines (ctorBlock c) = c.renderConstructor := by
  rw [ctorBlock, Client.renderConstructor]
  cases c.connects with
  | nil => plines []
  | cons n ns => plines []

theorem ctor_good {c : Client} (hn : DartName c.name) (hc : ∀ n ∈ c.connects, DartName n) : GoodBlock (ctorBlock c) := by
  have hi : isIdent c.name = true := hn.1
  rw [ctorBlock]
  cases hq : c.connects with
  | nil => simp only; pgood
  | cons n ns =>
    rw [hq] at hc
    refine .append (.cons (by good) (.map (fun m hm => ?_))) (by pgood)
    have : isIdent m = true := (hc m hm).1
    show Good [.w m, .k "();"]
    good

theorem call_ok {n : String} (h : DartName n) (r : List Tok) : call (segsToks [.w n, .k "();"] ++ r) = some (n, r) := by
  ptoks []
  exact bind_ok (name_ok h _) <| bind_ok (text_ok _ _) rfl

theorem code_brace : code "}" = [.sym '}'] := by decide +kernel

theorem ctor_ok {c : Client} (hc : ∀ n ∈ c.connects, DartName n) (r : List Tok) :
    constructor c.name (blockToks (ctorBlock c) ++ r) = some (c.connects, r) := by
  rw [ctorBlock]
  cases hq : c.connects with
  | nil =>
    ptoks []
    exact bind_ok (the_ok _ _) <| bind_ok (text_split ";" (by decide +kernel) _) <| next_is (head_code (by decide +kernel) _) <|
      bind_ok (text_ok _ _) rfl
  | cons n ns =>
    rw [hq] at hc
    simp only [blockToks_append, blockToks_cons, blockToks_nil, blockToks_map, List.cons_append, List.append_assoc,
      List.append_nil, segsToks, Seg.toks, List.nil_append]
    rw [code_brace]
    exact bind_ok (the_ok _ _) <| bind_ok (text_split "{" (by decide +kernel) _) <|
      next_not (u := .sym '{') (head_code (by decide +kernel) _) (by decide) <| bind_ok (text_ok _ _) <|
      until_ok (fun n => segsToks [.w n, .k "();"]) r (n :: ns) (fun m hm r => call_ok (hc m hm) r)
        (fun m _ => ⟨.word m, _, rfl, by simp⟩)

def hyToks : List String → List Tok
  | [] => []
  | [w] => [.word w]
  | w :: v :: ws => .word w :: .sym '-' :: hyToks (v :: ws)

/-- Letters, digits, underscores. -/
def Wordy (w : String) : Prop := w ≠ "" ∧ ∀ c ∈ w.toList, isWordChar c = true

theorem wordy_piece {w : String} (h : Wordy w) : Piece w.toList [.word w] := by
  match hw : w.toList with
  | [] => exact absurd (String.toList_inj.1 (by simpa using hw)) h.1
  | c :: cs =>
    have := piece_wordlike (decide (IsDigit c)) c cs (h.2 c (by simp [hw])) rfl (fun d hd => .inl (h.2 d (by simp [hw, hd])))
    rw [← hw, String.ofList_toList] at this
    rw [← hw]
    exact this

theorem hyphen_piece : ∀ {ws : List String}, ws ≠ [] → (∀ w ∈ ws, Wordy w) → Piece (joinStr "-" ws).toList (hyToks ws) ∧ noNL (hyToks ws)
  | [], h, _ => absurd rfl h
  | [w], _, h => by
    rw [joinStr, hyToks]
    exact ⟨wordy_piece (h w (by simp)), noNL_word w⟩
  | w :: v :: ws, _, h => by
    obtain ⟨h1, h2⟩ := hyphen_piece (ws := v :: ws) (by simp) (fun u hu => h u (by simp [List.mem_cons.1 hu]))
    rw [joinStr, hyToks]
    constructor
    · intro c hc
      have hr := h1 c hc
      have hr' : Runs .idle ('-' :: ((joinStr "-" (v :: ws)).toList ++ [c])) (.sym '-' :: (hyToks (v :: ws) ++ (scanStart c).1)) (scanStart c).2 := by
        have hd : Runs .idle ['-'] [.sym '-'] .idle := by decide
        simpa using hd.append hr
      have := (wordy_piece (h w (by simp))).runs (c := '-') (by decide) hr'
      simpa [String.toList_append, List.append_assoc] using this
    · intro t ht
      simp only [List.mem_cons] at ht
      rcases ht with rfl | rfl | ht
      · simp
      · decide
      · exact h2 t ht

theorem hyphens_ok : ∀ {ws : List String}, ws ≠ [] → ∀ (fuel : Nat) (r : List Tok), (hyToks ws).length ≤ fuel → r.head? ≠ some (.sym '-') →
    hyphens fuel (hyToks ws ++ r) = some (joinStr "-" ws, r)
  | [], h, _, _, _, _ => absurd rfl h
  | [w], _, fuel, r, hf, hr => by
    rw [hyToks] at hf ⊢
    match fuel, hf with
    | fuel + 1, _ => exact bind_ok (word_ok _ _) <| next_no hr rfl
  | w :: v :: ws, _, fuel, r, hf, hr => by
    rw [hyToks] at hf ⊢
    match fuel, hf with
    | fuel + 1, hf =>
      simp only [List.length_cons] at hf
      exact bind_ok (word_ok _ _) <| next_yes <| bind_ok (tok1 (by decide +kernel) _) <|
        bind_ok (hyphens_ok (ws := v :: ws) (by simp) fuel r (by omega) hr) rfl

def scopeSegs (scope : String) (ws : List String) : List Seg :=
  [.k "static const _scopeId = '", .p scope (hyToks ws), .k "';"]

theorem quoted_ok {ws : List String} (hne : ws ≠ []) (r : List Tok) :
    quoted (.sym '\'' :: (hyToks ws ++ .sym '\'' :: r)) = some (joinStr "-" ws, r) := by
  refine bind_ok (tok1 (by decide +kernel) _) <| bind_ok (a := joinStr "-" ws) (r := .sym '\'' :: r) ?_ <|
    bind_ok (tok1 (by decide +kernel) _) rfl
  exact hyphens_ok hne _ _ (by simp) (by simp)

theorem joinStr_intercalate (sep : String) : ∀ ss : List String, joinStr sep ss = sep.intercalate ss
  | [] => by simp [joinStr]
  | [s] => by simp [joinStr]
  | s :: t :: ts => by rw [joinStr, joinStr_intercalate sep (t :: ts), String.intercalate_cons_cons]

structure LegClient (c : Client) : Prop where
  name : DartName c.name
  scope : HyphenId c.scope
  connects : ∀ n ∈ c.connects, DartName n
  members : ∀ m ∈ c.members, LegMember m
  getters : ∀ g ∈ c.getters, LegGetter g
  disconnect : ∀ d ∈ c.disconnect, LegDisc d
  methods : ∀ m ∈ c.methods, LegMethod m

def clientBlock (c : Client) (ws : List String) : Block :=
  [(0, [.k "class ", .w c.name, .k " {"])] ++ ctorBlock c
    ++ [(0, []), (1, [.k "final TechPawsRuntimeRpcScheduler _scheduler;"]), (1, scopeSegs c.scope ws)]
    ++ c.members.map memberLine ++ c.getters.flatMap getterBlock
    ++ [(0, []), (1, [.k "void disconnect() {"])] ++ c.disconnect.map discLine ++ [(1, [.k "}"])]
    ++ (if c.sep then [(0, [])] else []) ++ blankJoin (c.methods.map methodBlock) ++ [(0, [.k "}"])]

theorem scope_line (scope : String) (ws : List String) : segsText (scopeSegs scope ws) = "static const _scopeId = '" ++ scope ++ "';" := by
  simp only [scopeSegs, segsText, Seg.text, String.append_empty, String.append_assoc]

theorem client_lines (c : Client) (ws : List String) : blockLines (clientBlock c ws) = c.render := by
  rw [Client.render, ← ctor_lines]
  have hs : blockLines (if c.sep then [(0, ([] : List Seg))] else []) = if c.sep then [(0, "")] else [] := by
    cases c.sep <;> rfl
  simp only [clientBlock, blockLines_append, blockLines_cons, blockLines_nil, blockLines_map, blockLines_flatMap, blockLines_join,
    getter_lines, scope_line, hs, List.map_map, Function.comp_def, method_lines, member_line, disc_line, segsText, Seg.text,
    String.append_empty, String.append_assoc]

theorem client_good {c : Client} (h : LegClient c) {ws : List String} (hne : ws ≠ []) (hw : ∀ w ∈ ws, Wordy w)
    (hs : c.scope = joinStr "-" ws) : GoodBlock (clientBlock c ws) := by
  have hn : isIdent c.name = true := h.name.1
  obtain ⟨h1, h2⟩ := hyphen_piece hne hw
  rw [← hs] at h1
  have hsep : GoodBlock (if c.sep then [(0, ([] : List Seg))] else []) := by
    cases c.sep
    · exact .nil
    · exact .cons trivial .nil
  have hsc : Good (scopeSegs c.scope ws) := by rw [scopeSegs]; good
  rw [clientBlock]
  refine .append (.append (.append (.append (.append (.append (.append (.append (.append (.append (.cons (by good) .nil)
    (ctor_good h.name h.connects)) (.cons trivial (.cons (by good) (.cons hsc .nil)))) (.map (fun m hm => member_good (h.members m hm))))
    (.flatMap (fun g hg => getter_good (h.getters g hg)))) (.cons trivial (by pgood))) (.map (fun d hd => disc_good (h.disconnect d hd))))
    (by pgood)) hsep) (.join (fun b hb => ?_))) (by pgood)
  obtain ⟨m, hm, rfl⟩ := List.mem_map.1 hb
  exact method_good (h.methods m hm)

theorem getter_none (s : String) (h : (code s).head? = some (.word "void")) (r : List Tok) : getter (code s ++ r) = none :=
  bind_none (text_wrong (p := .word "Stream") (by decide +kernel) (head_code h _) (by decide))

theorem code_scope : code "static const _scopeId = '" = code "static const _scopeId =" ++ [.sym '\''] := by decide +kernel
theorem code_scopeEnd : code "';" = .sym '\'' :: code ";" := by decide +kernel

theorem client_ok {c : Client} (h : LegClient c) {ws : List String} (hne : ws ≠ []) (hs : c.scope = joinStr "-" ws) (r : List Tok) :
    client (blockToks (clientBlock c ws) ++ r) = some (c.trim, r) := by
  have hsep : blockToks (if c.sep then [(0, ([] : List Seg))] else []) = [] := by cases c.sep <;> rfl
  have hmem : c.members.flatMap (fun m => segsToks (memberLine m).2)
      = (c.members.filter Member.solid).flatMap (fun m => segsToks (memberLine m).2) :=
    flatMap_filter _ _ _ (fun m hm => by cases m <;> first | (cases hm; done) | rfl)
  have hms : ∀ m ∈ c.members.filter Member.solid, m ∈ c.members ∧ m.solid = true := fun m hm => List.mem_filter.1 hm
  simp only [clientBlock, blockToks_append, blockToks_cons, blockToks_nil, blockToks_map, blockToks_flatMap, blockToks_join, hsep, hmem,
    List.flatMap_map, scopeSegs, code_scope, code_scopeEnd, segsToks, Seg.toks, List.append_assoc, List.cons_append, List.nil_append,
    List.append_nil, code_brace]
  have hvoid : ∀ x, code "void disconnect() {" ++ x ≠ [] := by
    intro x hx
    have := head_code (s := "void disconnect() {") (t := .word "void") (by decide +kernel) x
    rw [hx] at this
    cases this
  refine bind_ok (text_ok' _ (by decide +kernel) _) <| bind_ok (name_ok h.name _) <| bind_ok (text_ok' _ (by decide +kernel) _) <|
    bind_ok (ctor_ok h.connects _) <| bind_ok (text2 (by decide +kernel) _) <| bind_ok (quoted_ok hne _) <| bind_ok (text_ok _ _) <|
    bind_ok (star_ok (fun m => segsToks (memberLine m).2) _ ?_ ?_ (c.members.filter Member.solid)
      (fun m hm r => member_ok (h.members m (hms m hm).1) (hms m hm).2 r)
      (fun m hm => by obtain ⟨w, q, e⟩ := member_first (hms m hm).2; exact ⟨_, _, e⟩)) <|
    bind_ok (star_ok (fun g => blockToks (getterBlock g)) _ (getter_none _ (by decide +kernel) _) (hvoid _) c.getters
      (fun g hg r => getter_ok (h.getters g hg) r) ?_) <|
    bind_ok (text_ok _ _) <|
    bind_ok (until_ok (fun d => segsToks (discLine d).2) _ c.disconnect (fun d hd r => disc_ok (h.disconnect d hd) r)
      (fun d _ => (disc_first d).stop '}')) <|
    bind_ok (untilMap_ok (fun m => blockToks (methodBlock m)) DMethod.trim r c.methods (fun m hm r => method_ok (h.methods m hm) r)
      (fun m _ => (method_first m).stop '}')) ?_
  · cases hg : c.getters with
    | nil =>
      obtain ⟨w, q, e⟩ := first_code (s := "void disconnect() {") (w := "void") (by decide +kernel)
        (List.flatMap (fun d => segsToks (discLine d).2) c.disconnect ++
          Tok.sym '}' :: (List.flatMap (fun m => blockToks (methodBlock m)) c.methods ++ Tok.sym '}' :: r))
      have hh := head_code (s := "void disconnect() {") (t := .word "void") (by decide +kernel)
        (List.flatMap (fun d => segsToks (discLine d).2) c.disconnect ++
          Tok.sym '}' :: (List.flatMap (fun m => blockToks (methodBlock m)) c.methods ++ Tok.sym '}' :: r))
      rw [List.flatMap_nil, List.nil_append]
      rw [e] at hh ⊢
      simp only [List.head?_cons, Option.some.injEq, Tok.word.injEq] at hh
      subst hh
      exact member_none (by decide) q
    | cons g gs =>
      rw [List.flatMap_cons]
      ptoks [getterBlock]
      rw [code_cons (s := "Stream<") (t := "<") (p := .word "Stream") (by decide +kernel)]
      exact member_none (by decide) _
  · intro hx
    exact hvoid _ (List.append_eq_nil_iff.1 hx).2
  · intro g _
    ptoks [getterBlock]
    rw [code_cons (s := "Stream<") (t := "<") (p := .word "Stream") (by decide +kernel)]
    exact ⟨_, _, rfl⟩
  · rw [← hs]
    rfl

theorem line_infix {u n : Nat} {s : String} {ls : List Line} (h : (n, s) ∈ ls) : s.toList <:+: (linesText u ls).toList := by
  induction ls with
  | nil => simp at h
  | cons l ls ih =>
    obtain ⟨k, t⟩ := l
    rw [linesText]
    simp only [String.toList_append]
    rcases List.mem_cons.1 h with e | h
    · cases e
      exact ⟨_, _, by simp only [List.append_assoc]; rfl⟩
    · exact (ih h).trans (List.suffix_append _ _).isInfix

/-- The text of a client class is read as the class, without empty lines. -/
theorem readClient_ok (u : Nat) {c : Client} (h : LegClient c) : readClient (linesText u c.render) = some c.trim := by
  obtain ⟨ws, hne, hw, hs⟩ := h.scope
  rw [← joinStr_intercalate] at hs
  have hl := block_lexes (client_good h hne hw hs)
  rw [client_lines] at hl
  have hc := client_ok h hne hs []
  rw [List.append_nil] at hc
  unfold readClient
  rw [hl.pieces]
  show (client (blockToks (clientBlock c ws))).bind _ = _
  rw [hc]
  refine if_pos ⟨rfl, ?_⟩
  have hm : (1, "static const _scopeId = '" ++ c.scope ++ "';") ∈ c.render := by
    rw [Client.render]
    simp
  refine List.IsInfix.trans ?_ (line_infix hm)
  refine ⟨"static const _scopeId = ".toList, [';'], ?_⟩
  show _ ++ ("'" ++ c.scope ++ "'").toList ++ _ = _
  simp [String.toList_append]

end TPB.Spec.DartRpcReader
