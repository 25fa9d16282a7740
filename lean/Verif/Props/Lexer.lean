/-
Property theorems about tokenizing: C01 - C07.
`tokenizeBytes`, `tokenizeChars` and `tokenize` are `Lexer::tokenize` on the source as bytes, as the
reader's characters (one per byte) and as a text.
-/
import Verif.Proofs.LexerLayout
namespace TPB.Props
open TPB TPB.Spec

theorem consToks_eq_prepend (ts r) : consToks ts r = prepend ts r := by
  cases r <;> rfl

/-! ## C01: tokenizing always finishes with an EOF-terminated stream or an explicit failure -/

theorem tokenizeChars_shape (cs : List Char) :
    (∃ us, tokenizeChars cs = .ok (us ++ [.eof]) ∧ Token.eof ∉ us) ∨
    (∃ e, tokenizeChars cs = .error e ∧ e ≠ .outOfFuel) := by
  generalize hn : cs.length = n
  induction n using Nat.strongRecOn generalizing cs with
  | _ n ih =>
    subst hn
    cases cs with
    | nil => exact Or.inl ⟨[], tokenizeChars_nil, by simp⟩
    | cons ch cs =>
      have step : ∀ (ts : List Token) (rest : List Char), rest.length ≤ cs.length → Token.eof ∉ ts →
          (∃ us, consToks ts (tokenizeChars rest) = .ok (us ++ [.eof]) ∧ Token.eof ∉ us) ∨
          (∃ e, consToks ts (tokenizeChars rest) = .error e ∧ e ≠ .outOfFuel) := by
        intro ts rest hr hts
        rcases ih rest.length (by simp only [List.length_cons]; omega) rest rfl with ⟨us, h1, h2⟩ | ⟨e, h1, h2⟩
        · exact Or.inl ⟨ts ++ us, by simp [consToks, h1], by simp [hts, h2]⟩
        · exact Or.inr ⟨e, by simp [consToks, h1], h2⟩
      have step0 : ∀ (rest : List Char), rest.length ≤ cs.length →
          (∃ us, tokenizeChars rest = .ok (us ++ [.eof]) ∧ Token.eof ∉ us) ∨
          (∃ e, tokenizeChars rest = .error e ∧ e ≠ .outOfFuel) := by
        intro rest hr
        exact ih rest.length (by simp only [List.length_cons]; omega) rest rfl
      rw [tokenizeChars_cons]
      unfold tokenizeStep
      split
      · cases heq : lexId (ch :: cs) with
        | error e => exact Or.inr ⟨e, rfl, fun h => lexId_fuel _ (h ▸ heq)⟩
        | ok p =>
          have h1 := lexId_lt heq
          have h2 := lexId_ne_eof heq
          simp only [List.length_cons] at h1
          exact step [p.1] p.2 (by omega) (by simpa using h2.symm)
      split
      · cases heq : lexString (ch :: cs) with
        | error e => exact Or.inr ⟨e, rfl, fun h => lexString_fuel _ (h ▸ heq)⟩
        | ok p =>
          have h1 := lexString_lt heq
          have h2 := lexString_ne_eof heq
          simp only [List.length_cons] at h1
          exact step [p.1] p.2 (by omega) (by simpa using h2.symm)
      split
      · cases heq : lexNumber (ch :: cs) with
        | error e => exact Or.inr ⟨e, rfl, fun h => lexNumber_fuel _ (h ▸ heq)⟩
        | ok p =>
          have h1 := lexNumber_lt heq
          have h2 := lexNumber_ne_eof heq
          simp only [List.length_cons] at h1
          exact step [p.1] p.2 (by omega) (by simpa using h2.symm)
      split
      · exact step0 _ (Nat.le_refl _)
      split
      · split
        · exact step0 _ (lexSingleLineComment_le _)
        · exact step0 _ (lexMultiLineComment_le _)
        · exact step _ _ (by simp) (by simp)
      · exact step _ _ (Nat.le_refl _) (by simp)

/-- **C01.** For every byte string, tokenizing either returns tokens of which the last, and only the
last, is end-of-file, or stops with one of the program's own failures (never the model's
`outOfFuel`): it always finishes. -/
theorem C01_tokenize_total (bs : List UInt8) :
    (∃ us, tokenizeBytes bs = .ok (us ++ [.eof]) ∧ Token.eof ∉ us) ∨
    (∃ e, tokenizeBytes bs = .error e ∧ e ≠ .outOfFuel) :=
  tokenizeChars_shape _

/-- Both outcomes occur. -/
example : tokenize "struct A;" = .ok ([.kwStruct, .id "A", .sym ';'] ++ [.eof]) := by rfl
example : tokenize "\"abc" = .error .unterminatedString := by rfl

/-- `n` calls of `next_token`. -/
def nextTokens (l : Lexer) (n : Nat) : Lexer := n.repeat Lexer.nextToken l

theorem nextTokens_cursor (l : Lexer) (n : Nat) :
    nextTokens l n = { l with cursor := l.cursor + n } := by
  induction n with
  | zero => rfl
  | succ n ih =>
    show Lexer.nextToken (nextTokens l n) = _
    rw [ih]; simp [Lexer.nextToken, Nat.add_assoc]

/-- **C01 (cursor).** After `n` steps over an EOF-terminated stream, the current token is the `n`-th
one, and end-of-file for every `n` past the end. -/
theorem C01_cursor (us : List Token) (n : Nat) :
    (nextTokens (Lexer.ofTokens (us ++ [.eof])) n).currentToken = (us[n]?).getD .eof := by
  rw [nextTokens_cursor]
  simp only [Lexer.ofTokens, Lexer.currentToken, Nat.zero_add]
  by_cases h : (us ++ [Token.eof]).length ≤ n
  · rw [if_pos h]
    simp at h
    rw [List.getElem?_eq_none (by omega)]
    simp [List.getLastD_eq_getLast?]
  · rw [if_neg h]
    simp at h
    rcases Nat.lt_or_ge n us.length with h2 | h2
    · simp [List.getD_eq_getElem?_getD, List.getElem?_append_left h2]
    · have : n = us.length := by omega
      subst this
      simp [List.getD_eq_getElem?_getD]

example : (nextTokens (Lexer.ofTokens ([.kwFn, .id "f"] ++ [.eof])) 1).currentToken = .id "f" ∧
    (nextTokens (Lexer.ofTokens ([.kwFn, .id "f"] ++ [.eof])) 7).currentToken = .eof := by
  constructor <;> rfl

/-! ## C02: layout is insignificant -/

/-- **C02.** Whatever spellings and separators are chosen, tokens written out tokenize back to
themselves. -/
theorem C02_layout_tokenizes (ts : List Token) (cs : List Char) (h : Layout ts cs) :
    tokenizeChars cs = .ok (ts ++ [.eof]) := by
  induction h with
  | nil s hs =>
    have := tokenize_sep s [] hs
    simp only [List.append_nil] at this
    rw [this, tokenizeChars_nil]; rfl
  | eofComment s body hs h1 h2 =>
    rw [tokenize_sep _ _ hs, tokenize_slash_slash, lexSingleLineComment_eof body h1 h2, tokenizeChars_nil]
    rfl
  | cons s x r t ts hs hx hstop _ ih =>
    rw [tokenize_sep _ _ hs, tokenize_spelling t x r hx hstop, ih]
    rfl

/-- **C02.** Two sources that write the same tokens with different layout give the same tokens. -/
theorem C02_layout_insensitive (ts : List Token) (cs cs' : List Char)
    (h : Layout ts cs) (h' : Layout ts cs') : tokenizeChars cs = tokenizeChars cs' := by
  rw [C02_layout_tokenizes ts cs h, C02_layout_tokenizes ts cs' h']

/-- A concrete layout with both kinds of comment, an empty separator and a hexadecimal literal:
`struct/*x*/ A{ // c⏎0xFF`. -/
example : Layout [.kwStruct, .id "A", .sym '{', .lit (.int 255)]
    ([] ++ ("struct".toList ++ (['/', '*', 'x', '*', '/', ' '] ++ ("A".toList ++ ([] ++ (['{'] ++
      ([' ', '/', '/', ' ', 'c', '\n'] ++ (['0', 'x', 'F', 'F'] ++ []))))))) ) := by
  refine .cons [] "struct".toList _ _ _ .nil .kwStruct (by decide) ?_
  refine .cons ['/', '*', 'x', '*', '/', ' '] "A".toList _ _ _ ?_
    (.id "A" (by decide) (by decide)) (by decide) ?_
  · exact .block ['x'] [' '] ⟨by decide, .nil⟩ (.white _ _ (by decide) .nil)
  refine .cons [] ['{'] _ _ _ .nil (.sym '{' (by decide) (by decide) (by decide) (by decide) (by decide)
    (by decide) (by decide)) (by decide) ?_
  refine .cons [' ', '/', '/', ' ', 'c', '\n'] ['0', 'x', 'F', 'F'] [] _ _ ?_
    (.hex 15 [(false, 15)] (by decide) (by decide) (by decide)) (by decide) (.nil _ .nil)
  exact .white _ _ (by decide) (.line [' ', 'c'] '\n' [] (by decide) (by decide) (by decide) .nil)

/-! ## C03: identifiers are read whole and keywords are exact -/

/-- **C03.** A run of identifier characters that is not followed by another one is a single token: the
keyword or boolean it spells, otherwise the identifier with exactly this text. -/
theorem C03_word (w : String) (rest : List Char) (hw : IsIdent w.toList)
    (hrest : ∀ c r, rest = c :: r → ¬ IsLetter c ∧ ¬ IsDigit c) :
    tokenizeChars (w.toList ++ rest) = prepend [wordToken w] (tokenizeChars rest) := by
  rw [tokenize_ident w.toList rest hw (fun d r h => not_or.2 (hrest d r h)), String.ofList_toList,
    consToks_eq_prepend]
  congr 2
  unfold classifyName wordToken keywordTable
  simp only [List.lookup]
  repeat' split
  all_goals simp_all

example : wordToken "structure" = .id "structure" ∧ wordToken "struct" = .kwStruct := by decide
example : tokenizeChars "structure:".toList = .ok [.id "structure", .sym ':', .eof] := by rfl

/-! ## C04: string literals -/

theorem tokenize_eq_view (s : String) : tokenize s = tokenizeChars (latin1View s).toList := by
  have h : s.toUTF8.data.toList = s.toList.flatMap String.utf8EncodeChar := by
    show s.toByteArray.data.toList = _
    rw [← String.utf8Encode_toList]
    simp [List.utf8Encode]
  unfold tokenize tokenizeBytes latin1View
  rw [h, String.toList_ofList]
  rfl

theorem latin1View_append (a b : String) : latin1View (a ++ b) = latin1View a ++ latin1View b := by
  apply String.ext
  simp [latin1View]

theorem view_char (c : Char) (h : c.toNat < 128) :
    (String.utf8EncodeChar c).map (fun b => Char.ofNat b.toNat) = [c] := by
  have h2 : c.val.toNat ≤ 127 := by have : c.toNat = c.val.toNat := rfl; omega
  unfold String.utf8EncodeChar
  simp only [h2, if_true, List.map_cons, List.map_nil]
  have h3 : (UInt8.ofNat c.val.toNat).toNat = c.toNat := by
    have : c.toNat = c.val.toNat := rfl
    simp; omega
  rw [h3, char_ofNat_toNat]

theorem latin1View_ascii (s : String) (h : Ascii s) : latin1View s = s := by
  apply String.ext
  simp only [latin1View, String.toList_ofList]
  unfold Ascii at h
  generalize s.toList = l at h
  induction l with
  | nil => rfl
  | cons c cs ih =>
    simp only [List.flatMap_cons, List.map_append, view_char c (h c (by simp))]
    rw [ih (fun d hd => h d (by simp [hd]))]
    rfl

theorem utf8_length (c : Char) : 1 ≤ (String.utf8EncodeChar c).length ∧
    (128 ≤ c.toNat → 2 ≤ (String.utf8EncodeChar c).length) := by
  have : c.toNat = c.val.toNat := rfl
  unfold String.utf8EncodeChar
  simp only
  repeat' split
  all_goals simp <;> omega

theorem view_length (cs : List Char) : cs.length ≤ (cs.flatMap String.utf8EncodeChar).length := by
  induction cs with
  | nil => simp
  | cons c cs ih =>
    have := (utf8_length c).1
    simp only [List.flatMap_cons, List.length_cons, List.length_append]; omega

theorem view_length_lt (cs : List Char) (c : Char) (hc : c ∈ cs) (h : 128 ≤ c.toNat) :
    cs.length < (cs.flatMap String.utf8EncodeChar).length := by
  induction cs with
  | nil => simp at hc
  | cons d cs ih =>
    have h1 := (utf8_length d).1
    have h2 := view_length cs
    simp only [List.flatMap_cons, List.length_cons, List.length_append]
    rcases List.mem_cons.1 hc with rfl | hc
    · have := (utf8_length c).2 h; omega
    · have := ih hc; omega

theorem latin1View_eq_iff (s : String) : latin1View s = s ↔ Ascii s := by
  refine ⟨fun h c hc => ?_, latin1View_ascii s⟩
  rcases Nat.lt_or_ge c.toNat 128 with h2 | h2
  · exact h2
  · exfalso
    have h3 := view_length_lt s.toList c hc h2
    have h4 : (latin1View s).toList.length = s.toList.length := by rw [h]
    simp only [latin1View, String.toList_ofList, List.length_map] at h4
    omega

theorem utf8_high (c : Char) (h : 128 ≤ c.toNat) : ∀ b ∈ String.utf8EncodeChar c, 128 ≤ b.toNat := by
  have hcn : c.toNat = c.val.toNat := rfl
  intro b hb
  unfold String.utf8EncodeChar at hb
  simp only at hb
  rw [if_neg (by omega)] at hb
  split at hb
  · simp only [List.mem_cons, List.not_mem_nil, or_false] at hb
    rcases hb with rfl | rfl <;> (rw [UInt8.toNat_ofNat']; omega)
  split at hb
  · simp only [List.mem_cons, List.not_mem_nil, or_false] at hb
    rcases hb with rfl | rfl | rfl <;> (rw [UInt8.toNat_ofNat']; omega)
  · simp only [List.mem_cons, List.not_mem_nil, or_false] at hb
    rcases hb with rfl | rfl | rfl | rfl <;> (rw [UInt8.toNat_ofNat']; omega)

theorem quote_not_in_view (s : String) (h : '"' ∉ s.toList) : '"' ∉ (latin1View s).toList := by
  simp only [latin1View, String.toList_ofList, List.mem_map, List.mem_flatMap, not_exists, not_and]
  rintro b ⟨c, hc, hb⟩ hq
  rcases Nat.lt_or_ge c.toNat 128 with h2 | h2
  · have hm : Char.ofNat b.toNat ∈ (String.utf8EncodeChar c).map (fun b => Char.ofNat b.toNat) :=
      List.mem_map.2 ⟨b, hb, rfl⟩
    rw [view_char c h2, hq, List.mem_singleton] at hm
    exact h (hm ▸ hc)
  · have hb2 := utf8_high c h2 b hb
    have h3 : ∀ n, n < 256 → Char.ofNat n = '"' → n = 34 := by
      intro n hn h
      have hv : n.isValidChar := Or.inl (by omega)
      have : (Char.ofNat n).toNat = n := by
        simp [Char.ofNat, hv, Char.ofNatAux, Char.toNat]
      rw [h] at this
      exact this.symm
    have h4 := h3 _ b.toNat_lt hq
    have : '"'.toNat = 34 := by decide
    omega

/-- The property C04 as a user would state it: a quoted literal holds exactly the characters between
the quotes, for any Unicode text. -/
def StringLiteralsExact : Prop :=
  ∀ (s rest : String), '"' ∉ s.toList →
    tokenize ("\"" ++ s ++ "\"" ++ rest) = prepend [.lit (.str s)] (tokenize rest)

/-- What the code does for every quote-free text: the literal holds the Latin-1 view of its UTF-8
bytes. -/
theorem C04_string_literal_bytes (s rest : String) (hs : '"' ∉ s.toList) :
    tokenize ("\"" ++ s ++ "\"" ++ rest) = prepend [.lit (.str (latin1View s))] (tokenize rest) := by
  rw [tokenize_eq_view, tokenize_eq_view rest, ← consToks_eq_prepend]
  simp only [latin1View_append]
  have hq : latin1View "\"" = "\"" := by rfl
  rw [hq]
  have := tokenize_string (latin1View s).toList (latin1View rest).toList (quote_not_in_view s hs)
  rw [String.ofList_toList] at this
  have hl : ("\"" ++ latin1View s ++ "\"" ++ latin1View rest).toList =
      '"' :: ((latin1View s).toList ++ '"' :: (latin1View rest).toList) := by
    have h1 : ("\"").toList = ['"'] := by rfl
    simp only [String.toList_append, h1, List.append_assoc, List.cons_append, List.nil_append]
  rw [hl, this]

/-- **C04 (proved part).** Quoted ASCII text is kept exactly. Missing: text with a non-ASCII character
is never kept (`C04_string_literal_exact_iff`), so the full property fails
(`C04_string_literals_not_exact`). -/
theorem C04_string_literal_partial (s rest : String) (hs : '"' ∉ s.toList) (ha : Ascii s) :
    tokenize ("\"" ++ s ++ "\"" ++ rest) = prepend [.lit (.str s)] (tokenize rest) := by
  rw [C04_string_literal_bytes s rest hs, latin1View_ascii s ha]

/-- A quote-free literal is kept exactly if and only if it is ASCII. -/
theorem C04_string_literal_exact_iff (s : String) (hs : '"' ∉ s.toList) :
    tokenize ("\"" ++ s ++ "\"") = .ok [.lit (.str s), .eof] ↔ Ascii s := by
  have h := C04_string_literal_bytes s "" hs
  have he : tokenize "" = .ok [.eof] := by rfl
  rw [he] at h
  simp only [String.append_empty] at h
  rw [h, ← latin1View_eq_iff]
  simp [prepend]

/-- **C04 refuted.** `"é"` does not tokenize to a literal holding `é`. -/
theorem C04_string_literals_not_exact : ¬ StringLiteralsExact := by
  intro h
  have h1 := h "é" "" (by decide)
  have h2 : tokenize ("\"" ++ "é" ++ "\"" ++ "") = .ok [.lit (.str "Ã©"), .eof] := by rfl
  rw [h2] at h1
  have h3 : prepend [.lit (.str "é")] (tokenize "") = .ok [.lit (.str "é"), .eof] := by rfl
  rw [h3] at h1
  simp at h1

example : '"' ∉ "tech.paws".toList ∧ Ascii "tech.paws" := by decide

/-! ## C05: integer literals -/

/-- **C05 (decimal).** A decimal literal, each digit after the first optionally preceded by one
underscore, becomes its exact value if that fits in a signed 64-bit integer and is rejected
otherwise. -/
theorem C05_decimal (d : Nat) (ds : List (Bool × Nat)) (rest : List Char) (hd : d < 10)
    (hds : ∀ p ∈ ds, p.2 < 10)
    (hrest : ∀ c r, rest = c :: r → ¬ IsDigit c ∧ c ≠ '_' ∧ c ≠ '.' ∧ c ≠ 'x') :
    let v := digitsValue 10 (d :: ds.map (·.2))
    (v < 2 ^ 63 → tokenizeChars (digitChar d :: (groupText ds ++ rest)) =
      prepend [.lit (.int v)] (tokenizeChars rest)) ∧
    (2 ^ 63 ≤ v → ∃ e, tokenizeChars (digitChar d :: (groupText ds ++ rest)) = .error e) := by
  intro v
  have h := tokenize_dec d ds rest hd hds hrest
  constructor
  · intro hv; rw [h, if_pos hv, consToks_eq_prepend]
  · intro hv; rw [h, if_neg (by omega)]; exact ⟨_, rfl⟩

/-- **C05 (hexadecimal).** -/
theorem C05_hexadecimal (d : Nat) (ds : List (Bool × Nat)) (rest : List Char) (hd : d < 16)
    (hds : ∀ p ∈ ds, p.2 < 16)
    (hrest : ∀ c r, rest = c :: r → ¬ IsHexDigit c ∧ c ≠ '_') :
    let v := digitsValue 16 (d :: ds.map (·.2))
    (v < 2 ^ 63 → tokenizeChars ('0' :: 'x' :: digitChar d :: (groupText ds ++ rest)) =
      prepend [.lit (.int v)] (tokenizeChars rest)) ∧
    (2 ^ 63 ≤ v → ∃ e, tokenizeChars ('0' :: 'x' :: digitChar d :: (groupText ds ++ rest)) = .error e) := by
  intro v
  have h := tokenize_hex d ds rest hd hds hrest
  constructor
  · intro hv; rw [h, if_pos hv, consToks_eq_prepend]
  · intro hv; rw [h, if_neg (by omega)]; exact ⟨_, rfl⟩

/-- `1_000_000;` and `0x0002_0006;` are instances. -/
example : digitChar 1 :: (groupText [(true,0),(false,0),(false,0),(true,0),(false,0),(false,0)] ++ [';'])
    = "1_000_000;".toList ∧ digitsValue 10 [1,0,0,0,0,0,0] = 1000000 := by decide
example : '0' :: 'x' :: digitChar 0 :: (groupText [(false,0),(false,0),(false,2),(true,0),(false,0),(false,0),(false,6)]
    ++ [';']) = "0x0002_0006;".toList ∧ digitsValue 16 [0,0,0,2,0,0,0,6] = 0x00020006 := by decide

/-! ## C06: block comments -/

/-- The property C06 as a user would state it. -/
def BlockCommentsEndAtFirstClose : Prop :=
  ∀ (body rest : List Char), ¬ (['*', '/'] <:+: body) →
    tokenizeChars ("/*".toList ++ body ++ "*/".toList ++ rest) = tokenizeChars rest

/-- **C06 refuted.** The empty comment `/**/` hides everything after it. -/
theorem C06_block_comments_not_closed : ¬ BlockCommentsEndAtFirstClose := by
  intro h
  have h1 := h [] " struct".toList (by decide)
  have h2 : tokenizeChars ("/*".toList ++ [] ++ "*/".toList ++ " struct".toList) = .ok [.eof] := by rfl
  have h3 : tokenizeChars " struct".toList = .ok [.kwStruct, .eof] := by rfl
  rw [h2, h3] at h1
  simp at h1

/-- Further failures: a comment ending in `**/` is not closed, and `/*/` is a complete comment. -/
theorem C06_more_failures :
    tokenize "/* doc **/ struct A;" = .ok [.eof] ∧
    tokenize "/*/ struct A; */" = .ok [.kwStruct, .id "A", .sym ';', .sym '*', .sym '/', .sym '/', .eof] := by
  constructor <;> rfl

/-- **C06 (proved part).** A comment whose body is not empty, does not start with `/`, and in which
stars pair with their following character as in `BlockTail`, ends at the following `*/`.  Missing:
other bodies (see `C06_block_comment_closes_iff`). -/
theorem C06_block_comment_partial (body rest : List Char) (h : BlockBody body) :
    tokenizeChars ("/*".toList ++ body ++ "*/".toList ++ rest) = tokenizeChars rest := by
  rw [← tokenize_block body rest h]
  simp

/-- In particular every non-empty body without `*` that does not start with `/`. -/
theorem C06_star_free_partial (c : Char) (body rest : List Char) (hc : c ≠ '/') (h : '*' ∉ body) :
    tokenizeChars ("/*".toList ++ (c :: body) ++ "*/".toList ++ rest) = tokenizeChars rest := by
  apply C06_block_comment_partial
  refine ⟨hc, ?_⟩
  clear hc
  induction body with
  | nil => exact .nil
  | cons d ds ih =>
    simp only [List.mem_cons, not_or] at h
    exact .char d ds (Ne.symm h.1) (ih h.2)

theorem lexMultiLineComment_lt (l : List Char) (hl : l ≠ []) :
    (lexMultiLineComment l).length < l.length := by
  fun_induction lexMultiLineComment l with
  | case1 => exact absurd rfl hl
  | case2 => simp
  | case3 => simp; omega
  | case4 d ds h ih =>
    have := lexMultiLineComment_le ds
    simp only [List.length_cons]; omega
  | case5 ch d ds h ih =>
    have := ih (by simp)
    simp only [List.length_cons] at *; omega

theorem lexMultiLineComment_suffix_lt (body rest : List Char) (hr : rest ≠ []) :
    lexMultiLineComment (body ++ '*' :: '/' :: rest) = rest → BlockTail body := by
  intro h
  generalize hn : body.length = n
  induction n using Nat.strongRecOn generalizing body with
  | _ n ih =>
    subst hn
    match body with
    | [] => exact .nil
    | [c] =>
      by_cases hc : c = '*'
      · subst hc
        exfalso
        simp only [List.cons_append, List.nil_append, lexMultiLineComment, if_true] at h
        have : ¬ ('*' = '/') := by decide
        rw [if_neg this] at h
        cases rest with
        | nil => exact hr rfl
        | cons a r =>
          have hl := lexMultiLineComment_le (a :: r)
          have h2 : lexMultiLineComment ('/' :: a :: r) = lexMultiLineComment (a :: r) := by
            simp [lexMultiLineComment]
          rw [h2] at h
          -- the scanner cannot return its whole input
          have := lexMultiLineComment_lt (a :: r) (by simp)
          rw [h] at this
          omega
      · exact .char c [] hc .nil
    | c :: d :: ds =>
      simp only [List.cons_append, lexMultiLineComment] at h
      by_cases hc : c = '*'
      · subst hc
        rw [if_pos rfl] at h
        by_cases hd : d = '/'
        · exfalso
          rw [if_pos hd] at h
          have := congrArg List.length h
          simp at this
          omega
        · rw [if_neg hd] at h
          exact .star d ds hd (ih ds.length (by simp; omega) ds h rfl)
      · rw [if_neg hc] at h
        exact .char c (d :: ds) hc (ih (d :: ds).length (by simp) (d :: ds) h rfl)

/-- Exactly the bodies of `BlockBody` are closed by the `*/` that follows them (when something follows
the comment). -/
theorem C06_block_comment_closes_iff (body rest : List Char) (hr : rest ≠ []) :
    lexMultiLineComment ('*' :: (body ++ '*' :: '/' :: rest)) = rest ↔ BlockBody body := by
  refine ⟨fun h => ?_, lexMultiLineComment_body body rest⟩
  cases body with
  | nil =>
    exfalso
    have := lexMultiLineComment_suffix_lt ['*'] rest hr h
    cases this with
    | char _ _ h _ => exact h rfl
  | cons c r =>
    simp only [List.cons_append, lexMultiLineComment, if_true] at h
    by_cases hc : c = '/'
    · exfalso
      rw [if_pos hc] at h
      have := congrArg List.length h
      simp at this
      omega
    · rw [if_neg hc] at h
      exact ⟨hc, lexMultiLineComment_suffix_lt r rest hr h⟩

example : BlockBody " doc * x ".toList :=
  ⟨by decide, .char _ _ (by decide) (.char _ _ (by decide) (.char _ _ (by decide) (.char _ _ (by decide)
    (.star _ _ (by decide) (.char _ _ (by decide) (.char _ _ (by decide) .nil))))))⟩

/-! ## C07: line comments -/

/-- **C07.** `//` hides everything up to and including the next line break, and nothing more. -/
theorem C07_line_comment (body rest : List Char) (nl : Char) (h1 : '\n' ∉ body) (h2 : '\r' ∉ body)
    (h3 : nl = '\n' ∨ nl = '\r') :
    tokenizeChars ("//".toList ++ body ++ [nl] ++ rest) = tokenizeChars rest := by
  rw [← tokenize_line body nl rest h1 h2 h3]
  simp

/-- **C07 (end of input).** -/
theorem C07_line_comment_eof (body : List Char) (h1 : '\n' ∉ body) (h2 : '\r' ∉ body) :
    tokenizeChars ("//".toList ++ body) = .ok [.eof] := by
  show tokenizeChars ('/' :: '/' :: body) = _
  rw [tokenize_slash_slash, lexSingleLineComment_eof body h1 h2, tokenizeChars_nil]

example : tokenize "// struct A;\nstruct B;" = .ok [.kwStruct, .id "B", .sym ';', .eof] := by rfl

/-! ## Source texts -/

/-- **C02 (source text).** For an ASCII source text, the reader's characters are the text itself, so a
text that lays out the tokens `ts` tokenizes to them. -/
theorem C02_source_text (src : String) (ha : Ascii src) (ts : List Token) (h : Layout ts src.toList) :
    tokenize src = .ok (ts ++ [.eof]) := by
  rw [tokenize_eq_view, latin1View_ascii src ha]
  exact C02_layout_tokenizes ts _ h

/-! ## A lone slash -/

/-- A `/` that starts no comment is reported twice and the character after it is dropped. -/
theorem lone_slash (c : Char) (rest : List Char) (h1 : c ≠ '/') (h2 : c ≠ '*') :
    tokenizeChars ('/' :: c :: rest) = prepend [.sym '/', .sym '/'] (tokenizeChars rest) := by
  rw [tokenizeChars_cons]
  have e1 : isCharId '/' true = false := by decide
  have e2 : isCharNumber '/' = false := by decide
  rw [← consToks_eq_prepend]
  simp [tokenizeStep, e1, e2]
  split
  · rename_i heq; simp at heq; exact absurd heq.1 h1
  · rename_i heq; simp at heq; exact absurd heq.1 h2
  · rfl

end TPB.Props
