/-
Property theorems about parsing: C08 - C16 and C18.
`parse` is `parser::parse` on the tokens of a fresh lexer; the grammar is in `Spec/Grammar`.
-/
import Verif.Proofs.SchemaFacts
import Verif.Proofs.Cursor
import Verif.Props.Lexer
namespace TPB.Props
open TPB TPB.Spec

/-! ## C08: parsing always finishes -/

/-- **C08.** For every token vector whatsoever, parsing ends with a schema or with one of the program's
own failures; the model's step budget is never the reason. -/
theorem C08_parse_total (ts : List Token) :
    (∃ ast, parse ts = .ok ast) ∨ (∃ e, parse ts = .error e ∧ e ≠ .outOfFuel) := by
  have h := parseLoop_fuel (ts.length + 1) ⟨ts, 0, []⟩ rfl (by simp)
  unfold parse
  cases heq : parseLoop (ts.length + 1) ⟨ts, 0, []⟩ with
  | error e => right; exact ⟨e, rfl, fun he => h (he ▸ heq)⟩
  | ok p => left; exact ⟨p.1, rfl⟩

/-- Both outcomes occur. -/
example : parse [.kwStruct, .id "A", .sym ';', .eof] = .ok [.struct ⟨"A", [], true, true⟩] := by rfl
example : parse [.kwStruct, .sym ';', .eof] = .error (.unexpected (.sym ';')) := by rfl

/-- **C08 (source text).** The same for tokenizing and parsing a source text. -/
theorem C08_parse_source_total (src : String) :
    (∃ ast, parseSource src = .ok ast) ∨ (∃ e, parseSource src = .error e ∧ e ≠ .outOfFuel) := by
  have h := tokenizeChars_shape (latin1View src).toList
  rw [← tokenize_eq_view] at h
  unfold parseSource
  rcases h with ⟨us, h, _⟩ | ⟨e, h, he⟩
  · rw [h]; exact C08_parse_total _
  · rw [h]; exact .inr ⟨e, rfl, he⟩

/-! ## C09: well-formed schemas are accepted and read back unchanged -/

/-- **C09.** Every token form of a schema, with or without trailing commas, parses to that schema. -/
theorem C09_accepts (ts : List Token) (ast : List ASTNode) (k : Nat) (h : SchemaG false 0 ts ast k) :
    parse (ts ++ [.eof]) = .ok ast :=
  parse_complete (.inr rfl) h

/-- **C09.** Every well-formed schema has a token form, so it is accepted and read back unchanged. -/
theorem C09_every_schema (ast : List ASTNode) (h : WFSchema 0 ast) :
    ∃ ts, (∃ k, SchemaG false 0 ts ast k) ∧ parse (ts ++ [.eof]) = .ok ast := by
  obtain ⟨ts, k, h1, _⟩ := wfSchema_schemaG ast 0 h
  exact ⟨ts, ⟨k, h1⟩, C09_accepts ts ast k h1⟩

/-- **C09.** Conversely whatever is accepted is a well-formed schema: the schemas of the language are
exactly the possible results. -/
theorem C09_results_wellformed (ts : List Token) (ast : List ASTNode) (h : parse ts = .ok ast) :
    WFSchema 0 ast := by
  obtain ⟨us, r, k, _, _, h3⟩ := parse_sound h
  exact (schemaG_wf h3).1

/-- **C09.** A token sequence is the form of at most one schema: two different schemas never share one. -/
theorem C09_unambiguous (ts : List Token) (a b : List ASTNode) (k k' : Nat)
    (ha : SchemaG false 0 ts a k) (hb : SchemaG false 0 ts b k') : a = b := by
  have h1 := C09_accepts ts a k ha
  have h2 := C09_accepts ts b k' hb
  rw [h1] at h2
  exact Except.ok.inj h2

/-- A schema with a struct, a nested generic, an enum, a constant tree, directives and methods. -/
def sampleSchema : List ASTNode :=
  [.directive (.value "id" (constOf (.str "demo"))),
   .directive (.group "rust" [⟨"use", constOf (.str "a::b")⟩, ⟨"use", constOf (.str "c")⟩]),
   .struct ⟨"Point", [⟨0, "x", .number "f32" 4⟩, ⟨1, "path", .generic "Vec" [.generic "Option" [.other "Point"]]⟩], true, true⟩,
   .enum ⟨"Shape", [.empty 3 "None", .tuple 7 "Circle" [⟨0, .number "f64" 8⟩], .struct 1 "Rect" [⟨0, "a", .other "Point"⟩]]⟩,
   .const ⟨"limits", [.value "max" (.integer "i32" 4 true) (constOf (.int 5)), .node "inner" []]⟩,
   .fn ⟨"area", 0, [⟨"s", .other "Shape"⟩], some (.number "f64" 8), false, true⟩,
   .fn ⟨"tick", 1, [], none, true, false⟩]

theorem sampleSchema_wf : WFSchema 0 sampleSchema := by
  have b : ∀ n, WFType (typeOfName n) := .name
  have hf32 : WFType (.number "f32" 4) := b "f32"
  have hf64 : WFType (.number "f64" 8) := b "f64"
  have hp : WFType (.other "Point") := b "Point"
  have hs : WFType (.other "Shape") := b "Shape"
  have hi : WFType (.integer "i32" 4 true) := b "i32"
  have hv : WFType (.generic "Vec" [.generic "Option" [.other "Point"]]) :=
    .generic _ _ (by simp) (by simp; exact .generic _ _ (by simp) (by simpa using hp))
  refine ⟨rfl, ?_, ?_, ?_, ?_, ?_, ?_, trivial⟩
  · intro p hp; simp at hp; rcases hp with rfl | rfl <;> rfl
  · exact ⟨⟨.inl rfl, by simp; exact ⟨hf32, hv⟩⟩, rfl, rfl⟩
  · refine ⟨by simp, .inr (by simp [EnumItem.position]), ?_⟩
    simp [WFItem, WFTups, WFFields, PosOk, hf64, hp]
  · intro i hi'
    simp at hi'
    rcases hi' with rfl | rfl
    · exact .value _ _ _ hi rfl
    · exact .node _ _ (by simp)
  · exact ⟨rfl, by simpa using hs, by simpa using hf64, by simp⟩
  · exact ⟨rfl, by simp, by simp, by simp⟩

/-- Non-vacuity of `C09_every_schema`. -/
example : ∃ ts, (∃ k, SchemaG false 0 ts sampleSchema k) ∧ parse (ts ++ [.eof]) = .ok sampleSchema :=
  C09_every_schema _ sampleSchema_wf

/-! ## C10: text round trip -/

/-- **C10.** Whatever the layout, a source text of a schema is read back as that schema. -/
theorem C10_text_round_trip (ast : List ASTNode) (src : String) (h : SourceOf ast src) :
    parseSource src = .ok ast := by
  obtain ⟨ha, ts, k, h1, h2⟩ := h
  unfold parseSource
  rw [C02_source_text src ha ts h2]
  exact C09_accepts ts ast k h1

/-- **C10.** Every well-formed schema whose names and literals can be written down has a source text. -/
theorem C10_every_schema_has_text (ast : List ASTNode) (h : WFSchema 0 ast) (hl : ∀ d ∈ ast, LegalDecl d) :
    ∃ src, SourceOf ast src := by
  obtain ⟨ts, k, h1, h2⟩ := wfSchema_schemaG ast 0 h
  obtain ⟨cs, h3, h4⟩ := legal_layout ts (h2 hl)
  refine ⟨String.ofList (' ' :: cs), ?_, ts, k, h1, by simpa using h3⟩
  intro c hc
  simp at hc
  rcases hc with rfl | hc
  · decide
  · exact h4 c hc

theorem sampleSchema_legal : ∀ d ∈ sampleSchema, LegalDecl d := by
  have n : ∀ s, LegalName s → LegalType (typeOfName s) := .name
  have nm : ∀ s : String, (IsIdent s.toList ∧ s ∉ reserved) → LegalName s := fun _ h => h
  have hf32 : LegalType (.number "f32" 4) := n "f32" (by decide)
  have hf64 : LegalType (.number "f64" 8) := n "f64" (by decide)
  have hp : LegalType (.other "Point") := n "Point" (by decide)
  have hs : LegalType (.other "Shape") := n "Shape" (by decide)
  have hi : LegalType (.integer "i32" 4 true) := n "i32" (by decide)
  have hv : LegalType (.generic "Vec" [.generic "Option" [.other "Point"]]) :=
    .generic _ _ (by decide) (by simp; exact .generic _ _ (by decide) (by simpa using hp))
  intro d hd
  simp only [sampleSchema, List.mem_cons, List.not_mem_nil, or_false] at hd
  rcases hd with rfl | rfl | rfl | rfl | rfl | rfl | rfl
  · exact ⟨by decide, by simp [constOf, LegalLit, Ascii]⟩
  · refine ⟨by decide, ?_⟩
    intro p hp
    simp at hp
    rcases hp with rfl | rfl <;> exact ⟨by decide, by simp [constOf, LegalLit, Ascii]⟩
  · refine ⟨by decide, ?_⟩
    intro f hf
    simp at hf
    rcases hf with rfl | rfl
    · exact ⟨by decide, hf32⟩
    · exact ⟨by decide, hv⟩
  · refine ⟨by decide, ?_⟩
    intro i hi
    simp at hi
    rcases hi with rfl | rfl | rfl
    · exact ⟨by decide, trivial⟩
    · exact ⟨by decide, by simpa using hf64⟩
    · exact ⟨by decide, by simpa using ⟨by decide, hp⟩⟩
  · refine ⟨by decide, ?_⟩
    intro i hi'
    simp at hi'
    rcases hi' with rfl | rfl
    · exact .value _ _ _ (by decide) hi (by simp [constOf, LegalLit])
    · exact .node _ _ (by decide) (by simp)
  · exact ⟨by decide, by simpa using ⟨by decide, hs⟩, by simpa using hf64⟩
  · exact ⟨by decide, by simp, by simp⟩

/-- Non-vacuity: the sample schema has a source text, and it is read back. -/
example : ∃ src, SourceOf sampleSchema src ∧ parseSource src = .ok sampleSchema := by
  obtain ⟨src, h⟩ := C10_every_schema_has_text _ sampleSchema_wf sampleSchema_legal
  exact ⟨src, h, C10_text_round_trip _ _ h⟩

/-! ## C11: only schemas of the grammar are accepted -/

/-- The full statement of C11. -/
def OnlyGrammarAccepted : Prop :=
  ∀ (ts : List Token) (ast : List ASTNode), Token.eof ∉ ts → parse (ts ++ [.eof]) = .ok ast →
    ∃ k, SchemaG false 0 ts ast k

/-- **C11 fails.** `struct S { a: Foo<, b: i32 }` is accepted, although the bracket is never closed. -/
theorem C11_open_bracket_accepted : ¬ OnlyGrammarAccepted := by
  intro h
  obtain ⟨k, hk⟩ := h
    [.kwStruct, .id "S", .sym '{', .id "a", .sym ':', .id "Foo", .sym '<', .sym ',',
      .id "b", .sym ':', .id "i32", .sym '}'] _ (by decide) rfl
  have := (schemaG_strict hk).2
  simp [angleW] at this

/-- **C11 fails.** `#[rust(use = "a" struct]` is accepted: any token passes for the closing parenthesis. -/
theorem C11_unclosed_group_accepted : ¬ OnlyGrammarAccepted := by
  intro h
  obtain ⟨k, hk⟩ := h
    [.sym '#', .sym '[', .id "rust", .sym '(', .id "use", .sym '=', .lit (.str "a"), .kwStruct, .sym ']']
    _ (by decide) rfl
  have := (schemaG_strict hk).1
  simp [parenW] at this

/-- **C11 (exact description).** What is accepted is exactly the grammar with the two extra productions
marked "lenient" in `Spec/Grammar`. -/
theorem C11_accepted_iff (ts : List Token) (he : Token.eof ∉ ts) (ast : List ASTNode) :
    parse (ts ++ [.eof]) = .ok ast ↔ ∃ k, SchemaG true 0 ts ast k :=
  parse_iff he ast

/-- **C11 (partial).** If the parentheses balance and the angle brackets balance (counting the `-` of
an arrow `->` as the partner of its `>`), then an accepted token sequence is a sentence of the grammar
and the result is its meaning; in particular no token is ignored.  Missing: sequences whose brackets do
not balance, for which the statement is false. -/
theorem C11_only_grammar_partial (ts : List Token) (ast : List ASTNode) (he : Token.eof ∉ ts)
    (hp : ts.count (.sym '(') = ts.count (.sym ')'))
    (ha : ts.count (.sym '<') + ts.count (.sym '-') = ts.count (.sym '>')) :
    parse (ts ++ [.eof]) = .ok ast ↔ ∃ k, SchemaG false 0 ts ast k := by
  constructor
  · intro h
    obtain ⟨k, hk⟩ := (parse_iff he ast).1 h
    have h1 : paren ts = 0 := by rw [paren_count]; omega
    have h2 : angle ts = 0 := by rw [angle_count]; omega
    exact ⟨k, ((schemaG_bal hk).2 h1).2 h2⟩
  · rintro ⟨k, h⟩
    exact C09_accepts ts ast k h

/-- Sentences of the grammar do balance, so the hypotheses exclude nothing that should be accepted. -/
theorem C11_grammar_balances (ts : List Token) (ast : List ASTNode) (k : Nat) (h : SchemaG false 0 ts ast k) :
    ts.count (.sym '(') = ts.count (.sym ')') ∧
    ts.count (.sym '<') + ts.count (.sym '-') = ts.count (.sym '>') := by
  obtain ⟨h1, h2⟩ := schemaG_strict h
  rw [paren_count] at h1
  rw [angle_count] at h2
  omega

/-- Rejected inputs: an unclosed struct, a missing type, a stray token between declarations. -/
example : (parse [.kwStruct, .id "A", .sym '{', .id "x", .sym ':', .id "i32", .eof]).isOk = false ∧
    (parse [.kwStruct, .id "A", .sym '{', .id "x", .sym ':', .sym '}', .eof]).isOk = false ∧
    (parse [.kwStruct, .id "A", .sym ';', .sym ';', .eof]).isOk = false := ⟨rfl, rfl, rfl⟩

/-! ## C12: appending declarations -/

/-- **C12.** If `ts` is accepted as `a`, then `ts` followed by `us` is accepted exactly when `us` alone
is, and the result is `a` followed by the declarations of `us`, whose method addresses are shifted by
the number of methods in `a`. -/
theorem C12_append (ts us : List Token) (ht : Token.eof ∉ ts) (hu : Token.eof ∉ us) (a : List ASTNode)
    (ha : parse (ts ++ [.eof]) = .ok a) (c : List ASTNode) :
    parse (ts ++ us ++ [.eof]) = .ok c ↔
      ∃ b, parse (us ++ [.eof]) = .ok b ∧ c = a ++ b.map (shiftDecl (methodCount a)) := by
  obtain ⟨k, hk⟩ := (parse_iff ht a).1 ha
  have hka : k = methodCount a := by rw [(schemaG_wf hk).2]; simp [methodCount]
  subst hka
  constructor
  · intro hc
    rw [List.append_assoc] at hc
    obtain ⟨vs, r, k', bs, h1, h2, h3, h4⟩ := prefix_parse hk hc
    have h3' : SchemaG true (0 + methodCount a) vs bs k' := by rw [Nat.zero_add]; exact h3
    obtain ⟨b, k1, _, hb, hg⟩ := schemaG_unshift (methodCount a) h3'
    refine ⟨b, ?_, by rw [h4, hb]⟩
    rw [h1]
    exact parse_complete h2 hg
  · rintro ⟨b, hb, rfl⟩
    obtain ⟨k', hk'⟩ := (parse_iff hu b).1 hb
    have := schemaG_shift (methodCount a) hk'
    rw [Nat.zero_add] at this
    exact parse_complete (.inr rfl) (schemaG_append hk this)

/-- **C12.** In particular the earlier declarations, with their addresses, stay as they were. -/
theorem C12_earlier_unchanged (ts us : List Token) (ht : Token.eof ∉ ts) (hu : Token.eof ∉ us)
    (a c : List ASTNode) (ha : parse (ts ++ [.eof]) = .ok a) (hc : parse (ts ++ us ++ [.eof]) = .ok c) :
    a <+: c := by
  obtain ⟨b, _, rfl⟩ := (C12_append ts us ht hu a ha c).1 hc
  exact List.prefix_append _ _

/-- **C12 (source text).** The same for source texts joined by a newline. -/
theorem C12_append_text (s t : String) (a b : List ASTNode) (ha : SourceOf a s) (hb : SourceOf b t) :
    parseSource (s ++ "\n" ++ t) = .ok (a ++ b.map (shiftDecl (methodCount a))) := by
  obtain ⟨as1, ts, k, h1, h2⟩ := ha
  obtain ⟨as2, us, k', g1, g2⟩ := hb
  have hk : k = methodCount a := by rw [(schemaG_wf h1).2]; simp [methodCount]
  subst hk
  have hs := schemaG_shift (methodCount a) g1
  rw [Nat.zero_add] at hs
  refine C10_text_round_trip _ _ ⟨?_, ts ++ us, _, schemaG_append h1 hs, ?_⟩
  · intro c hc
    simp at hc
    rcases hc with hc | rfl | hc
    · exact as1 c hc
    · decide
    · exact as2 c hc
  · have := layout_append h2 g2
    simpa using this

/-- Non-vacuity: a method appended after another one gets address 1. -/
example : parse ([.kwRead, .id "a", .sym ';'] ++ [.eof]) = .ok [.fn ⟨"a", 0, [], none, true, false⟩] ∧
    parse ([.kwRead, .id "b", .sym ';'] ++ [.eof]) = .ok [.fn ⟨"b", 0, [], none, true, false⟩] ∧
    parse ([.kwRead, .id "a", .sym ';'] ++ [.kwRead, .id "b", .sym ';'] ++ [.eof]) =
      .ok [.fn ⟨"a", 0, [], none, true, false⟩, .fn ⟨"b", 1, [], none, true, false⟩] := ⟨rfl, rfl, rfl⟩

/-! ## C13: method addresses -/

theorem wfSchema_positions : ∀ (ds : List ASTNode) (k : Nat), WFSchema k ds →
    (methodsOf ds).map (·.position) = List.range' k (methodsOf ds).length
  | [], k, _ => rfl
  | d :: ds, k, h => by
    have ih := wfSchema_positions ds _ h.2
    cases d with
    | fn f =>
      have : f.position = k := h.1.1
      simp only [methodsOf, List.filterMap_cons, List.map_cons, List.length_cons, List.range'_succ, this] at ih ⊢
      exact congrArg _ ih
    | _ => simpa [methodsOf, fnCount] using ih

/-- **C13.** In every accepted schema the `k`-th method in source order has address `k`. -/
theorem C13_addresses (ts : List Token) (ast : List ASTNode) (h : parse ts = .ok ast) :
    (methodsOf ast).map (·.position) = List.range (methodsOf ast).length := by
  rw [List.range_eq_range']
  exact wfSchema_positions ast 0 (C09_results_wellformed ts ast h)

/-- **C13.** No two methods share an address. -/
theorem C13_unique (ts : List Token) (ast : List ASTNode) (h : parse ts = .ok ast) :
    ((methodsOf ast).map (·.position)).Nodup := by
  rw [C13_addresses ts ast h]
  exact List.nodup_range

/-- The generators see the methods through `find_fn_nodes`: all of them, in order. -/
theorem findFnNodes_eq (ast : List ASTNode) : findFnNodes ast = methodsOf ast := by
  induction ast with
  | nil => rfl
  | cons d ds ih => cases d <;> simp [findFnNodes, methodsOf, List.filterMap_cons] at ih ⊢ <;> exact ih

/-- Non-vacuity: a schema with four methods of all kinds. -/
example : (parse [.kwRead, .id "a", .sym ';', .kwFn, .id "b", .sym '(', .sym ')', .sym ';',
    .kwStruct, .id "S", .sym ';', .kwAsync, .kwRead, .id "c", .sym ';',
    .kwAsync, .kwFn, .id "d", .sym '(', .sym ')', .sym ';', .eof]).toOption.map
      (fun a => (methodsOf a).map (·.position)) = some [0, 1, 2, 3] := by rfl

/-! ## C14: field and variant numbers -/

theorem commaList_of_join {α β : Type} {P : Nat → List Token → α → Prop} (toks : β → List Token)
    (mk : Nat → β → α) : ∀ (es : List β) (i : Nat), (∀ j e, e ∈ es → P j (toks e) (mk j e)) →
    ∃ e, CommaList P i (joinComma (es.map toks)) (es.mapIdx (fun j e => mk (i + j) e)) e
  | [], i, _ => ⟨true, .nil i⟩
  | [x], i, h => ⟨false, by simpa [joinComma] using CommaList.last i _ _ (h i x (by simp))⟩
  | x :: y :: r, i, h => by
    obtain ⟨e, he⟩ := commaList_of_join toks mk (y :: r) (i + 1) (fun j e hm => h j e (by simp at hm ⊢; exact .inr hm))
    refine ⟨e, ?_⟩
    have := CommaList.more i _ _ _ _ e (h i x (by simp)) he
    have e1 : (fun j e => mk (i + 1 + j) e) = (fun j e => mk (i + (j + 1)) e) := by
      funext j e; rw [show i + 1 + j = i + (j + 1) by omega]
    rw [e1] at this
    simpa [joinComma, List.mapIdx_cons] using this

/-- A written field or tuple component: number, name, type and the tokens of the type. -/
structure Written where
  number : Nat
  name : String
  type : TypeId
  toks : List Token
  ok : TypeG false (.type type) toks

theorem mapIdx_const {α β : Type} (f : α → β) (l : List α) : l.mapIdx (fun _ a => f a) = l.map f := by
  induction l with
  | nil => rfl
  | cons a l ih => simp [List.mapIdx_cons, ih]

theorem one_decl {ts : List Token} {d : ASTNode} {k : Nat} (h : DeclG false 0 ts d k) :
    parse (ts ++ [.eof]) = .ok [d] := by
  have := SchemaG.cons _ _ _ _ _ _ _ h (.nil _)
  rw [List.append_nil] at this
  exact C09_accepts _ _ _ this

/-- **C14.** Unnumbered fields are numbered 0, 1, 2, ... in source order. -/
theorem C14_unnumbered_fields (n : String) (es : List Written) (hne : es ≠ []) :
    parse (.kwStruct :: .id n :: .sym '{' ::
        (joinComma (es.map (fun e => .id e.name :: .sym ':' :: e.toks)) ++ [.sym '}']) ++ [.eof]) =
      .ok [.struct ⟨n, es.mapIdx (fun i e => ⟨i, e.name, e.type⟩), true, true⟩] := by
  obtain ⟨e, he⟩ := commaList_of_join (P := FieldG false) (fun e : Written => .id e.name :: .sym ':' :: e.toks)
    (fun i e => ⟨i, e.name, e.type⟩) es 0 (fun j e _ => .mk _ _ _ _ e.ok)
  simp only [Nat.zero_add] at he
  exact one_decl (.struct 0 n _ _ (.plain _ _ _ he) (by simpa [List.mapIdx_eq_nil_iff] using hne))

/-- **C14 (partial).** Numbered fields get exactly the number written, if it is below 2^32.
Missing: larger numbers, for which the statement is false. -/
theorem C14_numbered_fields_partial (n : String) (es : List Written) (hne : es ≠ [])
    (hv : ∀ e ∈ es, e.number < 2 ^ 32) :
    parse (.kwStruct :: .id n :: .sym '{' ::
        (joinComma (es.map (fun e => [.sym '#', .sym '[', .lit (.int e.number), .sym ']'] ++
          .id e.name :: .sym ':' :: e.toks)) ++ [.sym '}']) ++ [.eof]) =
      .ok [.struct ⟨n, es.map (fun e => ⟨e.number, e.name, e.type⟩), true, true⟩] := by
  obtain ⟨e, he⟩ := commaList_of_join (P := NumFieldG false)
    (fun e : Written => positionTokens e.number ++ .id e.name :: .sym ':' :: e.toks)
    (fun _ e => ⟨e.number, e.name, e.type⟩) es 0 (fun j e h => by
      have := NumFieldG.mk (q := false) j e.number e.name e.type e.toks e.ok
      rwa [positionOf_small _ (hv e h)] at this)
  rw [mapIdx_const] at he
  exact one_decl (.struct 0 n _ _ (.numbered _ _ _ he) (by simpa using hne))

/-- A written variant: number, the tokens after the number, and the variant they denote. -/
structure WrittenVariant where
  toks : List Token
  item : Nat → EnumItem
  ok : ∀ p, VariantG false p toks (item p)

theorem WrittenVariant.position (v : WrittenVariant) (p : Nat) : (v.item p).position = p :=
  (variantG_wf (v.ok p)).2

/-- **C14.** Unnumbered variants are numbered 0, 1, 2, ... in source order. -/
theorem C14_unnumbered_variants (n : String) (es : List WrittenVariant) (hne : es ≠ []) :
    parse (.kwEnum :: .id n :: .sym '{' :: (joinComma (es.map (·.toks)) ++ [.sym '}']) ++ [.eof]) =
      .ok [.enum ⟨n, es.mapIdx (fun i e => e.item i)⟩] ∧
    (es.mapIdx (fun i e => e.item i)).map (·.position) = List.range es.length := by
  obtain ⟨e, he⟩ := commaList_of_join (P := VariantG false) (fun e : WrittenVariant => e.toks)
    (fun i e => e.item i) es 0 (fun j e _ => e.ok j)
  simp only [Nat.zero_add] at he
  refine ⟨one_decl (.enum 0 n _ _ (.plain _ _ _ he) (by simpa [List.mapIdx_eq_nil_iff] using hne)), ?_⟩
  apply List.ext_getElem
  · simp
  · intro i h1 h2
    simp [WrittenVariant.position]

/-- **C14 (partial).** Numbered variants get exactly the number written, if it is below 2^32. -/
theorem C14_numbered_variants_partial (n : String) (es : List (Nat × WrittenVariant)) (hne : es ≠ [])
    (hv : ∀ e ∈ es, e.1 < 2 ^ 32) :
    parse (.kwEnum :: .id n :: .sym '{' ::
        (joinComma (es.map (fun e => [.sym '#', .sym '[', .lit (.int e.1), .sym ']'] ++ e.2.toks)) ++
          [.sym '}']) ++ [.eof]) =
      .ok [.enum ⟨n, es.map (fun e => e.2.item e.1)⟩] ∧
    (es.map (fun e => e.2.item e.1)).map (·.position) = es.map (·.1) := by
  obtain ⟨e, he⟩ := commaList_of_join (P := NumVariantG false)
    (fun e : Nat × WrittenVariant => positionTokens e.1 ++ e.2.toks)
    (fun _ e => e.2.item e.1) es 0 (fun j e h => by
      refine .mk _ _ _ _ ?_
      rw [positionOf_small _ (hv e h)]
      exact e.2.ok _)
  rw [mapIdx_const] at he
  refine ⟨one_decl (.enum 0 n _ _ (.numbered _ _ _ he) (by simpa using hne)), ?_⟩
  simp [WrittenVariant.position]

/-- The full statement of C14 for one numbered field: every number that tokenizes is kept. -/
def NumbersExact : Prop :=
  ∀ v : Nat, (v : Int) < 2 ^ 63 →
    parse [.kwStruct, .id "S", .sym '{', .sym '#', .sym '[', .lit (.int v), .sym ']', .id "a", .sym ':',
      .id "i32", .sym '}', .eof] = .ok [.struct ⟨"S", [⟨v, "a", .integer "i32" 4 true⟩], true, true⟩]

/-- **C14 fails** for numbers from 2^32 on: 4294967296 becomes 0. -/
theorem C14_numbers_not_exact : ¬ NumbersExact := by
  intro h
  have h := h 4294967296 (by decide)
  have h0 : parse [.kwStruct, .id "S", .sym '{', .sym '#', .sym '[', .lit (.int ((4294967296 : Nat) : Int)), .sym ']',
      .id "a", .sym ':', .id "i32", .sym '}', .eof] =
      .ok [.struct ⟨"S", [⟨0, "a", .integer "i32" 4 true⟩], true, true⟩] := rfl
  rw [h0] at h
  simp at h

/-- **C14 (exact description).** The number kept is the written one modulo 2^32, so it is the written
one exactly when that fits in 32 bits. -/
theorem C14_number_exact_iff (v : Nat) :
    parse [.kwStruct, .id "S", .sym '{', .sym '#', .sym '[', .lit (.int v), .sym ']', .id "a", .sym ':',
      .id "i32", .sym '}', .eof] = .ok [.struct ⟨"S", [⟨v % 2 ^ 32, "a", .integer "i32" 4 true⟩], true, true⟩] ∧
    (v % 2 ^ 32 = v ↔ v < 2 ^ 32) := by
  refine ⟨?_, by omega⟩
  have h := one_decl (.struct 0 "S" _ _ (.numbered _ _ _ (.last 0 _ _
    (.mk (q := false) 0 (v : Int) "a" _ _ (.name "i32")))) (by simp))
  have e : positionOf (v : Int) = v % 2 ^ 32 := by unfold positionOf; omega
  rw [e] at h
  exact h

/-- Non-vacuity: a three-field struct and a numbered enum. -/
example : parse [.kwEnum, .id "E", .sym '{', .sym '#', .sym '[', .lit (.int 7), .sym ']', .id "A", .sym ',',
    .sym '#', .sym '[', .lit (.int 2), .sym ']', .id "B", .sym '}', .eof] =
    .ok [.enum ⟨"E", [.empty 7 "A", .empty 2 "B"]⟩] := rfl

/-! ## C15: accepted enums have a first variant -/

theorem wfSchema_mem : ∀ (ds : List ASTNode) (k : Nat), WFSchema k ds → ∀ d ∈ ds, ∃ j, WFDecl j d
  | [], _, _, _, h => by simp at h
  | d :: ds, k, hw, e, h => by
    rcases List.mem_cons.1 h with rfl | h
    · exact ⟨k, hw.1⟩
    · exact wfSchema_mem ds _ hw.2 e h

/-- **C15.** Every enum of an accepted schema has at least one variant. -/
theorem C15_first_variant (ts : List Token) (ast : List ASTNode) (h : parse ts = .ok ast) (n : EnumNode)
    (hn : .enum n ∈ ast) : ∃ i is, n.items = i :: is := by
  obtain ⟨j, hj⟩ := wfSchema_mem ast 0 (C09_results_wellformed ts ast h) _ hn
  have hne : n.items ≠ [] := hj.1
  cases hi : n.items with
  | nil => exact absurd hi hne
  | cons i is => exact ⟨i, is, rfl⟩

/-- Non-vacuity, and the empty enum is rejected. -/
example : parse [.kwEnum, .id "E", .sym '{', .id "A", .sym '}', .eof] = .ok [.enum ⟨"E", [.empty 0 "A"]⟩] := rfl
example : (parse [.kwEnum, .id "E", .sym '{', .sym '}', .eof]).isOk = false := rfl

/-! ## C16: type names -/

/-- **C16.** Every type expression of the grammar, at any nesting, is read as the type it denotes. -/
theorem C16_types (ts : List Token) (t : TypeId) (h : TypeG false (.type t) ts) :
    parse ([.kwStruct, .id "S", .sym '{', .id "f", .sym ':'] ++ ts ++ [.sym '}', .eof]) =
      .ok [.struct ⟨"S", [⟨0, "f", t⟩], true, true⟩] := by
  have := one_decl (.struct 0 "S" _ _ (.plain _ _ _ (.last 0 _ _ (.mk 0 "f" t ts h))) (by simp))
  simpa using this

/-- **C16.** Plain names: the ten built-in names mean their width and sign, all others a user type. -/
theorem C16_names (n : String) :
    parse [.kwStruct, .id "S", .sym '{', .id "f", .sym ':', .id n, .sym '}', .eof] =
      .ok [.struct ⟨"S", [⟨0, "f",
        if n = "i8" then .integer "i8" 1 true else if n = "i32" then .integer "i32" 4 true
        else if n = "i64" then .integer "i64" 8 true else if n = "u8" then .integer "u8" 1 false
        else if n = "u32" then .integer "u32" 4 false else if n = "u64" then .integer "u64" 8 false
        else if n = "f32" then .number "f32" 4 else if n = "f64" then .number "f64" 8
        else if n = "char" then .char "char" else if n = "bool" then .bool "bool"
        else .other n⟩], true, true⟩] := by
  have h := C16_types [.id n] _ (.name n)
  have e : typeOfName n =
      (if n = "i8" then .integer "i8" 1 true else if n = "i32" then .integer "i32" 4 true
        else if n = "i64" then .integer "i64" 8 true else if n = "u8" then .integer "u8" 1 false
        else if n = "u32" then .integer "u32" 4 false else if n = "u64" then .integer "u64" 8 false
        else if n = "f32" then .number "f32" 4 else if n = "f64" then .number "f64" 8
        else if n = "char" then .char "char" else if n = "bool" then .bool "bool"
        else .other n) := by
    rw [← nameType_eq]
    unfold nameType
    repeat (first | rfl | refine ite_congr rfl (fun h => by rw [h]) (fun _ => ?_))
  rw [e] at h
  exact h

/-- **C16.** A name with a non-empty bracketed list of types denotes that generic type; by recursion
through `TypeG.generic` this holds at any nesting. -/
theorem C16_generic (n : String) (as : List (TypeId × List Token)) (hne : as ≠ [])
    (h : ∀ a ∈ as, TypeG false (.type a.1) a.2) :
    parse ([.kwStruct, .id "S", .sym '{', .id "f", .sym ':', .id n, .sym '<'] ++
        joinComma (as.map (·.2)) ++ [.sym '>', .sym '}', .eof]) =
      .ok [.struct ⟨"S", [⟨0, "f", .generic n (as.map (·.1))⟩], true, true⟩] := by
  have key : ∀ as : List (TypeId × List Token), as ≠ [] → (∀ a ∈ as, TypeG false (.type a.1) a.2) →
      TypeG false (.args (as.map (·.1))) (joinComma (as.map (·.2))) := by
    intro as
    induction as with
    | nil => simp
    | cons a as ih =>
      intro _ h
      cases as with
      | nil => simpa [joinComma] using TypeG.argsOne _ _ (h a (by simp))
      | cons b bs =>
        have := TypeG.argsMore _ _ _ _ (h a (by simp)) (ih (by simp) (fun c hc => h c (by simp at hc ⊢; exact .inr hc)))
        simpa [joinComma] using this
  have := C16_types _ _ (.generic n _ _ (key as hne h))
  simpa using this

/-- Non-vacuity: `Map<u8, Vec<Vec<bool>>>`. -/
example : parse [.kwStruct, .id "S", .sym '{', .id "f", .sym ':', .id "Map", .sym '<', .id "u8", .sym ',',
    .id "Vec", .sym '<', .id "Vec", .sym '<', .id "bool", .sym '>', .sym '>', .sym '>', .sym '}', .eof] =
    .ok [.struct ⟨"S", [⟨0, "f", .generic "Map" [.integer "u8" 1 false,
      .generic "Vec" [.generic "Vec" [.bool "bool"]]]⟩], true, true⟩] := rfl

/-! ## C18: directive lookup -/

/-- The value directives of a schema, in order. -/
def valueDirectives (ast : List ASTNode) : List (String × ConstValue) :=
  ast.filterMap (fun | .directive (.value n v) => some (n, v) | _ => none)

/-- The group entries of a schema with the name of their group, in order. -/
def groupEntries (ast : List ASTNode) : List (String × IdValuePair) :=
  ast.flatMap (fun | .directive (.group g ps) => ps.map (fun p => (g, p)) | _ => [])

/-- **C18.** Looking up a value directive finds the first one with that name. -/
theorem C18_value (ast : List ASTNode) (name : String) :
    findDirectiveValue ast name = ((valueDirectives ast).find? (fun p => p.1 == name)).map (·.2) := by
  induction ast with
  | nil => rfl
  | cons d ds ih =>
    cases d with
    | directive d =>
      cases d with
      | value n v =>
        simp only [findDirectiveValue, valueDirectives, List.filterMap_cons, List.find?_cons] at ih ⊢
        by_cases h : name = n
        · subst h; simp
        · have : (n == name) = false := by simpa using fun e => h e.symm
          rw [if_neg h, ih, this]
      | group g ps => simpa [findDirectiveValue, valueDirectives] using ih
    | _ => simpa [findDirectiveValue, valueDirectives] using ih

theorem findPairs_eq (ps : List IdValuePair) (name : String) :
    findPairs ps name = (ps.filter (fun p => p.id == name)).map (·.value) := by
  induction ps with
  | nil => rfl
  | cons p ps ih =>
    simp only [findPairs, List.filter_cons, beq_iff_eq]
    split <;> simp [ih]

theorem findPair_eq (ps : List IdValuePair) (name : String) : findPair ps name = (findPairs ps name).head? := by
  induction ps with
  | nil => rfl
  | cons p ps ih =>
    simp only [findPair, findPairs]
    split <;> simp [ih]

/-- **C18.** Looking up a group entry finds all matching entries of all matching groups, in order. -/
theorem C18_group_values (ast : List ASTNode) (group name : String) :
    findDirectiveGroupValues ast group name =
      ((groupEntries ast).filter (fun e => e.1 == group && e.2.id == name)).map (·.2.value) := by
  induction ast with
  | nil => rfl
  | cons d ds ih =>
    cases d with
    | directive d =>
      cases d with
      | value n v => simpa [findDirectiveGroupValues, groupEntries] using ih
      | group g ps =>
        simp only [findDirectiveGroupValues, groupEntries, List.flatMap_cons, List.filter_append,
          List.map_append, List.filter_map, List.map_map, Function.comp_def] at ih ⊢
        by_cases h : group = g
        · subst h
          rw [if_pos rfl, findPairs_eq, ih]
          simp
        · have : (g == group) = false := by simpa using fun e => h e.symm
          rw [if_neg h, ih, this]
          simp
    | _ => simpa [findDirectiveGroupValues, groupEntries] using ih

/-- **C18.** Looking up a single group entry finds the first of them. -/
theorem C18_group_value (ast : List ASTNode) (group name : String) :
    findDirectiveGroupValue ast group name = (findDirectiveGroupValues ast group name).head? := by
  induction ast with
  | nil => rfl
  | cons d ds ih =>
    cases d with
    | directive d =>
      cases d with
      | value n v => simpa [findDirectiveGroupValue, findDirectiveGroupValues] using ih
      | group g ps =>
        simp only [findDirectiveGroupValue, findDirectiveGroupValues]
        split
        · rw [findPair_eq, List.head?_append, ← ih]
          cases (findPairs ps name).head? <;> rfl
        · exact ih
    | _ => simpa [findDirectiveGroupValue, findDirectiveGroupValues] using ih

/-- **C18.** Removing every declaration that is not a directive of that name, and every group of
another name, changes no result. -/
theorem C18_others_do_not_matter (ast : List ASTNode) (group name : String) :
    findDirectiveValue (ast.filter (fun | .directive (.value n _) => n == name | _ => false)) name =
      findDirectiveValue ast name ∧
    findDirectiveGroupValues (ast.filter (fun | .directive (.group g _) => g == group | _ => false)) group name =
      findDirectiveGroupValues ast group name := by
  constructor
  · induction ast with
    | nil => rfl
    | cons d ds ih =>
      cases d with
      | directive d =>
        cases d with
        | value n v =>
          by_cases h : n = name
          · subst h; simp [findDirectiveValue]
          · have h' : ¬ name = n := fun e => h e.symm
            simp [List.filter_cons, findDirectiveValue, h, h', ih]
        | group g ps => simpa [List.filter_cons, findDirectiveValue] using ih
      | _ => simpa [List.filter_cons, findDirectiveValue] using ih
  · induction ast with
    | nil => rfl
    | cons d ds ih =>
      cases d with
      | directive d =>
        cases d with
        | value n v => simpa [List.filter_cons, findDirectiveGroupValues] using ih
        | group g ps =>
          by_cases h : g = group
          · subst h; simp [List.filter_cons, findDirectiveGroupValues, ih]
          · have h' : ¬ group = g := fun e => h e.symm
            simp [List.filter_cons, findDirectiveGroupValues, h, h', ih]
      | _ => simpa [List.filter_cons, findDirectiveGroupValues] using ih

/-- Non-vacuity. -/
example : findDirectiveValue sampleSchema "id" = some (constOf (.str "demo")) ∧
    findDirectiveGroupValues sampleSchema "rust" "use" = [constOf (.str "a::b"), constOf (.str "c")] := ⟨rfl, rfl⟩

end TPB.Props
