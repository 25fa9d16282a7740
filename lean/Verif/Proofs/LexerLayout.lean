/- Lemmas: what the lexer does on each token spelling and on separators. -/
import Verif.Proofs.Lexer
namespace TPB
open Spec

instance : (cs : List Char) → Decidable (IsIdent cs)
  | [] => isFalse (by simp [IsIdent])
  | c :: cs => by unfold IsIdent; infer_instance

/-! ### Identifiers -/

theorem lexIdLoop_run (acc : List Char) (c : Char) (cs rest : List Char)
    (hcs : ∀ d ∈ cs, IsLetter d ∨ IsDigit d)
    (hrest : ∀ d r, rest = d :: r → ¬ (IsLetter d ∨ IsDigit d)) :
    lexIdLoop acc (c :: (cs ++ rest)) = .ok (acc ++ c :: cs, rest) := by
  induction cs generalizing acc c with
  | nil =>
    cases rest with
    | nil => simp [lexIdLoop]
    | cons d r =>
      have h := hrest d r rfl
      rw [← isCharId_rest_iff] at h
      simp [lexIdLoop, h]
  | cons d ds ih =>
    have h := (isCharId_rest_iff d).2 (hcs d (by simp))
    simp only [List.cons_append, lexIdLoop, h]
    simp only [Bool.not_true, Bool.false_eq_true, if_false]
    rw [ih _ _ (fun e he => hcs e (by simp [he]))]
    simp

theorem lexId_run (name : List Char) (rest : List Char) (hn : IsIdent name)
    (hrest : ∀ d r, rest = d :: r → ¬ (IsLetter d ∨ IsDigit d)) :
    lexId (name ++ rest) = .ok (classifyName (String.ofList name), rest) := by
  cases name with
  | nil => exact absurd hn (by simp [IsIdent])
  | cons c cs =>
    unfold lexId
    rw [List.cons_append, lexIdLoop_run [] c cs rest hn.2 hrest]
    rfl

theorem tokenize_ident (name : List Char) (rest : List Char) (hn : IsIdent name)
    (hrest : ∀ d r, rest = d :: r → ¬ (IsLetter d ∨ IsDigit d)) :
    tokenizeChars (name ++ rest) =
      consToks [classifyName (String.ofList name)] (tokenizeChars rest) := by
  cases name with
  | nil => exact absurd hn (by simp [IsIdent])
  | cons c cs =>
    have hl := lexId_run (c :: cs) rest hn hrest
    rw [List.cons_append] at hl ⊢
    rw [tokenizeChars_cons]
    unfold tokenizeStep
    rw [if_pos ((isCharId_first_iff c).2 hn.1), hl]

/-! ### Disjointness of character classes -/

theorem not_letter_of_digit {c : Char} (h : IsDigit c) : ¬ IsLetter c := by
  have h1 := char_le_toNat h.1
  have h2 := char_le_toNat h.2
  have : '0'.toNat = 48 := by decide
  have : '9'.toNat = 57 := by decide
  have : 'a'.toNat = 97 := by decide
  have : 'A'.toNat = 65 := by decide
  rintro (h | h | h)
  · have := char_le_toNat h.1; omega
  · have := char_le_toNat h.1; omega
  · subst h
    have : '_'.toNat = 95 := by decide
    omega

/-! ### Strings -/

theorem lexStringLoop_run (acc s rest : List Char) (hs : '"' ∉ s) :
    lexStringLoop acc (s ++ '"' :: rest) = .ok (acc ++ s, rest) := by
  induction s generalizing acc with
  | nil => cases rest <;> simp [lexStringLoop]
  | cons c cs ih =>
    have hc : c ≠ '"' := fun h => hs (by simp [h])
    have ih' := ih (acc ++ [c]) (fun h => hs (by simp [h]))
    cases cs with
    | nil => simp [lexStringLoop, hc] at *; exact ih'
    | cons d ds => simp only [List.cons_append] at ih' ⊢; simp only [lexStringLoop, hc, if_false]; simp [ih']

theorem tokenize_string (s rest : List Char) (hs : '"' ∉ s) :
    tokenizeChars ('"' :: (s ++ '"' :: rest)) =
      consToks [.lit (.str (String.ofList s))] (tokenizeChars rest) := by
  rw [tokenizeChars_cons]
  unfold tokenizeStep
  have hq : ¬ (isCharId '"' true = true) := by decide
  rw [if_neg hq, if_pos rfl]
  have : lexString ('"' :: (s ++ '"' :: rest)) = .ok (.lit (.str (String.ofList s)), rest) := by
    unfold lexString
    simp only [List.tail_cons]
    have h := lexStringLoop_run [] s rest hs
    cases s with
    | nil => simp at h ⊢; rw [h]
    | cons d ds => simp only [List.cons_append] at h ⊢; simp [h]
  rw [this]

/-! ### Numbers -/

theorem digitChar_digit : ∀ d, d < 10 → IsDigit (digitChar d) := by decide
theorem digitChar_hex : ∀ d, d < 16 → IsHexDigit (digitChar d) := by decide
theorem toDigit_digitChar10 : ∀ d, d < 10 → toDigit 10 (digitChar d) = some d := by decide
theorem toDigit_digitChar16 : ∀ d, d < 16 → toDigit 16 (digitChar d) = some d := by decide
theorem digitChar_plain : ∀ d, d < 16 → digitChar d ≠ '_' ∧ digitChar d ≠ '.' ∧ digitChar d ≠ 'x' ∧
    digitChar d ≠ '-' ∧ digitChar d ≠ '+' := by decide

theorem lexNumberLoop_run (isHex isFloat : Bool) (radix : Nat)
    (hr : radix = if isHex then 16 else 10)
    (acc : List Char) (c : Char) (ds : List (Bool × Nat)) (rest : List Char)
    (hds : ∀ p ∈ ds, p.2 < radix)
    (hrest : ∀ d r, rest = d :: r → d ≠ '_' ∧
      (if isHex then ¬ IsHexDigit d else ¬ IsDigit d) ∧
      (isHex = false → isFloat = false → d ≠ '.' ∧ d ≠ 'x')) :
    lexNumberLoop acc isHex isFloat (c :: (groupText ds ++ rest)) =
      .ok ⟨acc ++ c :: ds.map (fun p => digitChar p.2), isHex, isFloat, rest⟩ := by
  induction ds generalizing acc c with
  | nil =>
    cases rest with
    | nil => simp [groupText, lexNumberLoop]
    | cons d r =>
      obtain ⟨h1, h2, h3⟩ := hrest d r rfl
      simp only [groupText, List.nil_append, lexNumberLoop, h1, if_false]
      cases isHex <;> cases isFloat <;>
        simp_all [← isCharNumber_iff, ← isCharHexNumber_iff]
  | cons p ds ih =>
    obtain ⟨u, d⟩ := p
    have hd : d < radix := hds (u, d) (by simp)
    have hd16 : d < 16 := by split at hr <;> omega
    have ih' := fun acc c => ih acc c (fun p hp => hds p (by simp [hp]))
    have hp := digitChar_plain d hd16
    have hc : (!isHex && !isCharNumber (digitChar d)) = false ∧
        (isHex && !isCharHexNumber (digitChar d)) = false := by
      cases isHex
      · simp only [Bool.false_eq_true, if_false] at hr
        subst hr
        have := (isCharNumber_iff _).2 (digitChar_digit d hd)
        simp [this]
      · simp only [if_true] at hr
        subst hr
        have := (isCharHexNumber_iff _).2 (digitChar_hex d hd)
        simp [this]
    cases u with
    | true =>
      simp only [groupText, List.cons_append, lexNumberLoop, if_true]
      rw [ih']
      simp
    | false =>
      simp only [groupText, List.cons_append, lexNumberLoop, hp, hc, false_and, if_false,
        Bool.or_false, Bool.false_eq_true]
      rw [ih']
      simp

theorem digitsVal_run (radix : Nat) (ds : List Nat) (acc : Nat)
    (h : ∀ d ∈ ds, toDigit radix (digitChar d) = some d) :
    digitsVal radix acc (ds.map digitChar) = some (ds.foldl (fun a d => a * radix + d) acc) := by
  induction ds generalizing acc with
  | nil => simp [digitsVal]
  | cons d ds ih =>
    simp only [List.map_cons, digitsVal, h d (by simp), List.foldl_cons]
    exact ih _ (fun e he => h e (by simp [he]))

theorem i64FromStr_run (radix : Nat) (d : Nat) (ds : List Nat) (hd : d < 16)
    (h : ∀ e ∈ d :: ds, toDigit radix (digitChar e) = some e) :
    i64FromStr radix (digitChar d :: ds.map digitChar) =
      if digitsValue radix (d :: ds) < 2 ^ 63 then some (digitsValue radix (d :: ds) : Int) else none := by
  have hp := digitChar_plain d hd
  have hv := digitsVal_run radix (d :: ds) 0 h
  rw [List.map_cons] at hv
  unfold i64FromStr
  split
  · rename_i heq; simp at heq; exact absurd heq.1 hp.2.2.2.1
  · rename_i heq; simp at heq; exact absurd heq.1 hp.2.2.2.2
  · simp only [hv, digitsValue, Bool.false_eq_true, if_false]
    rfl

theorem trimStart0x_digit (d : Nat) (cs : List Char) (h : ∀ r, cs ≠ 'x' :: r) :
    trimStart0x (digitChar d :: cs) = digitChar d :: cs := by
  unfold trimStart0x
  split
  · rename_i heq; simp at heq; exact absurd heq.2 (h _)
  · rfl

/-- Decimal integer text (with its in-range and out-of-range outcome). -/
theorem tokenize_dec (d : Nat) (ds : List (Bool × Nat)) (rest : List Char) (hd : d < 10)
    (hds : ∀ p ∈ ds, p.2 < 10)
    (hrest : ∀ e r, rest = e :: r → ¬ IsDigit e ∧ e ≠ '_' ∧ e ≠ '.' ∧ e ≠ 'x') :
    tokenizeChars (digitChar d :: (groupText ds ++ rest)) =
      if digitsValue 10 (d :: ds.map (·.2)) < 2 ^ 63 then
        consToks [.lit (.int (digitsValue 10 (d :: ds.map (·.2))))] (tokenizeChars rest)
      else .error (.badInt (String.ofList (digitChar d :: ds.map (fun p => digitChar p.2)))) := by
  have hD := digitChar_digit d hd
  rw [tokenizeChars_cons]
  unfold tokenizeStep
  have h1 : ¬ (isCharId (digitChar d) true = true) := by
    rw [isCharId_first_iff]; exact not_letter_of_digit hD
  have h2 : digitChar d ≠ '"' := by
    intro h; rw [h] at hD; revert hD; decide
  rw [if_neg h1, if_neg h2, if_pos ((isCharNumber_iff _).2 hD)]
  have hl := lexNumberLoop_run false false 10 (by simp) [] (digitChar d) ds rest hds (by
    intro e r he; obtain ⟨a, b, c, f⟩ := hrest e r he; simp [a, b, c, f])
  have hv := i64FromStr_run 10 d (ds.map (·.2)) (by omega) (by
    intro e he
    apply toDigit_digitChar10
    simp only [List.mem_cons, List.mem_map] at he
    rcases he with rfl | ⟨p, hp, rfl⟩
    · exact hd
    · exact hds p hp)
  rw [List.map_map] at hv
  unfold lexNumber
  rw [hl]
  simp only [Function.comp_def] at hv
  by_cases hb : digitsValue 10 (d :: ds.map (·.2)) < 2 ^ 63
  · rw [if_pos hb] at hv ⊢
    simp only [numberToken, List.nil_append, Bool.false_eq_true, if_false, hv]
  · rw [if_neg hb] at hv ⊢
    simp only [numberToken, List.nil_append, Bool.false_eq_true, if_false, hv]

/-- Hexadecimal integer text. -/
theorem tokenize_hex (d : Nat) (ds : List (Bool × Nat)) (rest : List Char) (hd : d < 16)
    (hds : ∀ p ∈ ds, p.2 < 16)
    (hrest : ∀ e r, rest = e :: r → ¬ IsHexDigit e ∧ e ≠ '_') :
    tokenizeChars ('0' :: 'x' :: digitChar d :: (groupText ds ++ rest)) =
      if digitsValue 16 (d :: ds.map (·.2)) < 2 ^ 63 then
        consToks [.lit (.int (digitsValue 16 (d :: ds.map (·.2))))] (tokenizeChars rest)
      else .error (.badInt (String.ofList ('0' :: 'x' :: digitChar d :: ds.map (fun p => digitChar p.2)))) := by
  rw [tokenizeChars_cons]
  unfold tokenizeStep
  have h1 : ¬ (isCharId '0' true = true) := by decide
  have h2 : '0' ≠ '"' := by decide
  have h3 : isCharNumber '0' = true := by decide
  rw [if_neg h1, if_neg h2, if_pos h3]
  have hl := lexNumberLoop_run true false 16 (by simp) ['0', 'x'] (digitChar d) ds rest hds (by
    intro e r he; obtain ⟨a, b⟩ := hrest e r he; simp [a, b])
  have hp := digitChar_plain d hd
  have hc := (isCharHexNumber_iff _).2 (digitChar_hex d hd)
  have hl2 : lexNumberLoop [] false false ('0' :: 'x' :: digitChar d :: (groupText ds ++ rest)) =
      lexNumberLoop ['0', 'x'] true false (digitChar d :: (groupText ds ++ rest)) := by
    simp [lexNumberLoop, hp, hc]
  have hmap : ds.map (fun p => digitChar p.2) = (ds.map (·.2)).map digitChar := by
    rw [List.map_map]; rfl
  have ht : trimStart0x ('0' :: 'x' :: digitChar d :: ds.map (fun p => digitChar p.2)) =
      digitChar d :: ds.map (fun p => digitChar p.2) := by
    rw [trimStart0x]
    apply trimStart0x_digit
    intro r hr
    cases ds with
    | nil => simp at hr
    | cons p ds =>
      simp at hr
      exact (digitChar_plain p.2 (hds p (by simp))).2.2.1 hr.1
  have hv := i64FromStr_run 16 d (ds.map (·.2)) hd (by
    intro e he
    apply toDigit_digitChar16
    simp only [List.mem_cons, List.mem_map] at he
    rcases he with rfl | ⟨p, hp, rfl⟩
    · exact hd
    · exact hds p hp)
  rw [← hmap] at hv
  unfold lexNumber
  rw [hl2, hl]
  by_cases hb : digitsValue 16 (d :: ds.map (·.2)) < 2 ^ 63
  · rw [if_pos hb] at hv ⊢
    simp only [numberToken, List.cons_append, List.nil_append, if_true, ht, hv]
  · rw [if_neg hb] at hv ⊢
    simp only [numberToken, List.cons_append, List.nil_append, if_true, ht, hv]

theorem groupText_plain (ds : List Nat) : groupText (ds.map (fun d => (false, d))) = ds.map digitChar := by
  induction ds with
  | nil => rfl
  | cons d ds ih => simp [groupText, ih]

theorem lexNumberLoop_float (acc : List Char) (c : Char) (ds fs : List Nat) (rest : List Char)
    (hds : ∀ e ∈ ds, e < 10) (hfs : ∀ e ∈ fs, e < 10)
    (hrest : ∀ e r, rest = e :: r → ¬ IsDigit e ∧ e ≠ '_') :
    lexNumberLoop acc false false (c :: (ds.map digitChar ++ '.' :: (fs.map digitChar ++ rest))) =
      .ok ⟨acc ++ c :: (ds.map digitChar ++ '.' :: fs.map digitChar), false, true, rest⟩ := by
  induction ds generalizing acc c with
  | nil =>
    simp only [List.map_nil, List.nil_append, lexNumberLoop]
    have hl := lexNumberLoop_run false true 10 (by simp) (acc ++ [c]) '.' (fs.map (fun d => (false, d)))
      rest (by simpa using hfs) (by
        intro e r he; obtain ⟨a, b⟩ := hrest e r he; simp [a, b])
    rw [groupText_plain] at hl
    simp only [List.map_map, Function.comp_def] at hl
    simp [hl]
  | cons d ds ih =>
    have hd : d < 10 := hds d (by simp)
    have hp := digitChar_plain d (by omega)
    have hc := (isCharNumber_iff _).2 (digitChar_digit d hd)
    simp only [List.map_cons, List.cons_append, lexNumberLoop, hp, hc, false_and, if_false]
    rw [ih _ _ (fun e he => hds e (by simp [he]))]
    simp

theorem takeWhile_digits (ds : List Nat) (r : List Char) (hds : ∀ e ∈ ds, e < 10) :
    (ds.map digitChar ++ '.' :: r).takeWhile (fun c : Char => decide ('0' ≤ c) && decide (c ≤ '9')) =
      ds.map digitChar := by
  induction ds with
  | nil => simp
  | cons d ds ih =>
    have hd : '0' ≤ digitChar d ∧ digitChar d ≤ '9' := digitChar_digit d (hds d (by simp))
    simp only [List.map_cons, List.cons_append, List.takeWhile_cons]
    simp [hd, ih (fun e he => hds e (by simp [he]))]

theorem dropWhile_digits (ds : List Nat) (r : List Char) (hds : ∀ e ∈ ds, e < 10) :
    (ds.map digitChar ++ '.' :: r).dropWhile (fun c : Char => decide ('0' ≤ c) && decide (c ≤ '9')) =
      '.' :: r := by
  induction ds with
  | nil => simp
  | cons d ds ih =>
    have hd : '0' ≤ digitChar d ∧ digitChar d ≤ '9' := digitChar_digit d (hds d (by simp))
    simp only [List.map_cons, List.cons_append, List.dropWhile_cons]
    simp [hd, ih (fun e he => hds e (by simp [he]))]

theorem dropWhile_all (ds : List Nat) (hds : ∀ e ∈ ds, e < 10) :
    (ds.map digitChar).dropWhile (fun c : Char => decide ('0' ≤ c) && decide (c ≤ '9')) = [] := by
  induction ds with
  | nil => simp
  | cons d ds ih =>
    have hd : '0' ≤ digitChar d ∧ digitChar d ≤ '9' := digitChar_digit d (hds d (by simp))
    simp only [List.map_cons, List.dropWhile_cons]
    simp [hd, ih (fun e he => hds e (by simp [he]))]

theorem validF64_run (d : Nat) (ds fs : List Nat) (hd : d < 10) (hds : ∀ e ∈ ds, e < 10)
    (hfs : ∀ e ∈ fs, e < 10) :
    validF64 (digitChar d :: (ds.map digitChar ++ '.' :: fs.map digitChar)) = true := by
  have hall : ∀ e ∈ d :: ds, e < 10 := by simpa using ⟨hd, hds⟩
  have h1 := takeWhile_digits (d :: ds) (fs.map digitChar) hall
  have h2 := dropWhile_digits (d :: ds) (fs.map digitChar) hall
  have h3 := dropWhile_all fs hfs
  simp only [List.map_cons, List.cons_append] at h1 h2
  unfold validF64
  simp [h1, h2, h3]

/-- Decimal fraction text. -/
theorem tokenize_num (d : Nat) (ds fs : List Nat) (rest : List Char) (hd : d < 10)
    (hds : ∀ e ∈ ds, e < 10) (hfs : ∀ e ∈ fs, e < 10)
    (hrest : ∀ e r, rest = e :: r → ¬ IsDigit e ∧ e ≠ '_') :
    tokenizeChars (digitChar d :: (ds.map digitChar ++ '.' :: (fs.map digitChar ++ rest))) =
      consToks [.lit (.num (String.ofList (digitChar d :: (ds.map digitChar ++ '.' :: fs.map digitChar))))]
        (tokenizeChars rest) := by
  have hD := digitChar_digit d hd
  rw [tokenizeChars_cons]
  unfold tokenizeStep
  have h1 : ¬ (isCharId (digitChar d) true = true) := by
    rw [isCharId_first_iff]; exact not_letter_of_digit hD
  have h2 : digitChar d ≠ '"' := by
    intro h; rw [h] at hD; revert hD; decide
  rw [if_neg h1, if_neg h2, if_pos ((isCharNumber_iff _).2 hD)]
  unfold lexNumber
  rw [lexNumberLoop_float [] (digitChar d) ds fs rest hds hfs hrest]
  simp [numberToken, validF64_run d ds fs hd hds hfs]

/-! ### Symbols -/

theorem tokenize_sym (c : Char) (rest : List Char) (h1 : ¬ IsLetter c) (h2 : ¬ IsDigit c) (h3 : c ≠ '"')
    (h4 : c ≠ ' ') (h5 : c ≠ '\n') (h6 : c ≠ '\r') (h7 : c ≠ '/') :
    tokenizeChars (c :: rest) = consToks [.sym c] (tokenizeChars rest) := by
  rw [tokenizeChars_cons]
  unfold tokenizeStep
  rw [← isCharId_first_iff] at h1
  rw [← isCharNumber_iff] at h2
  simp [h1, h2, h3, h4, h5, h6, h7]

/-! ### Separators -/

theorem tokenize_white (c : Char) (rest : List Char) (h : c = ' ' ∨ c = '\n' ∨ c = '\r') :
    tokenizeChars (c :: rest) = tokenizeChars rest := by
  rw [tokenizeChars_cons]
  rcases h with rfl | rfl | rfl <;> rfl

theorem lexSingleLineComment_run (body : List Char) (nl : Char) (rest : List Char)
    (h1 : '\n' ∉ body) (h2 : '\r' ∉ body) (h3 : nl = '\n' ∨ nl = '\r') :
    lexSingleLineComment (body ++ nl :: rest) = rest := by
  induction body with
  | nil => rcases h3 with rfl | rfl <;> simp [lexSingleLineComment]
  | cons c cs ih =>
    simp only [List.mem_cons, not_or] at h1 h2
    simp only [List.cons_append, lexSingleLineComment, Ne.symm h1.1, Ne.symm h2.1, or_self, if_false]
    exact ih h1.2 h2.2

theorem lexSingleLineComment_eof (body : List Char) (h1 : '\n' ∉ body) (h2 : '\r' ∉ body) :
    lexSingleLineComment body = [] := by
  induction body with
  | nil => simp [lexSingleLineComment]
  | cons c cs ih =>
    simp only [List.mem_cons, not_or] at h1 h2
    simp only [lexSingleLineComment, Ne.symm h1.1, Ne.symm h2.1, or_self, if_false]
    exact ih h1.2 h2.2

theorem tokenize_slash_slash (r : List Char) :
    tokenizeChars ('/' :: '/' :: r) = tokenizeChars (lexSingleLineComment r) := by
  rw [tokenizeChars_cons]
  have h1 : isCharId '/' true = false := by decide
  have h2 : isCharNumber '/' = false := by decide
  simp [tokenizeStep, h1, h2, lexSingleLineComment]

theorem tokenize_slash_star (r : List Char) :
    tokenizeChars ('/' :: '*' :: r) = tokenizeChars (lexMultiLineComment ('*' :: r)) := by
  rw [tokenizeChars_cons]
  have h1 : isCharId '/' true = false := by decide
  have h2 : isCharNumber '/' = false := by decide
  simp [tokenizeStep, h1, h2]

theorem tokenize_line (body : List Char) (nl : Char) (rest : List Char)
    (h1 : '\n' ∉ body) (h2 : '\r' ∉ body) (h3 : nl = '\n' ∨ nl = '\r') :
    tokenizeChars ('/' :: '/' :: (body ++ nl :: rest)) = tokenizeChars rest := by
  rw [tokenize_slash_slash, lexSingleLineComment_run body nl rest h1 h2 h3]

theorem lexMultiLineComment_tail (body rest : List Char) (h : BlockTail body) :
    lexMultiLineComment (body ++ '*' :: '/' :: rest) = rest := by
  induction h with
  | nil => simp [lexMultiLineComment]
  | char c r hc _ ih =>
    cases r with
    | nil => simp [lexMultiLineComment, hc]
    | cons d ds => simp only [List.cons_append] at ih ⊢; simp [lexMultiLineComment, hc, ih]
  | star c r hc _ ih => simp [lexMultiLineComment, hc, ih]

theorem lexMultiLineComment_body (body rest : List Char) (h : BlockBody body) :
    lexMultiLineComment ('*' :: (body ++ '*' :: '/' :: rest)) = rest := by
  cases body with
  | nil => exact absurd h (by simp [BlockBody])
  | cons c r =>
    obtain ⟨hc, hr⟩ := h
    simp [lexMultiLineComment, hc, lexMultiLineComment_tail r rest hr]

theorem tokenize_block (body rest : List Char) (h : BlockBody body) :
    tokenizeChars ('/' :: '*' :: (body ++ '*' :: '/' :: rest)) = tokenizeChars rest := by
  rw [tokenize_slash_star, lexMultiLineComment_body body rest h]

theorem tokenize_sep (s rest : List Char) (h : Sep s) : tokenizeChars (s ++ rest) = tokenizeChars rest := by
  induction h with
  | nil => rfl
  | white c r hc _ ih => rw [List.cons_append, tokenize_white c _ hc, ih]
  | line body nl r h1 h2 h3 _ ih =>
    rw [← ih, ← tokenize_line body nl (r ++ rest) h1 h2 h3]; simp
  | block body r hb _ ih =>
    rw [← ih, ← tokenize_block body (r ++ rest) hb]; simp

/-! ### Tokens and layouts -/

theorem tokenize_spelling (t : Token) (x rest : List Char) (hx : Spells t x) (hs : Stops t rest) :
    tokenizeChars (x ++ rest) = consToks [t] (tokenizeChars rest) := by
  cases hx with
  | id name h1 h2 =>
    rw [tokenize_ident name.toList rest h1 (by
      rintro d r rfl; simpa [Stops, not_or] using hs)]
    congr 2
    rw [String.ofList_toList]
    simp only [reserved, List.mem_cons, List.not_mem_nil, or_false, not_or] at h2
    simp [classifyName, h2]
  | str s h =>
    have := tokenize_string s.toList rest h
    rw [String.ofList_toList] at this
    simpa using this
  | dec d ds h1 h2 h3 =>
    have := tokenize_dec d ds rest h1 h2 (by
      rintro e r rfl
      simp only [Stops] at hs
      refine ⟨fun h => hs.1 (Or.inl h), hs.2⟩)
    rw [if_pos h3] at this
    simpa using this
  | hex d ds h1 h2 h3 =>
    have := tokenize_hex d ds rest h1 h2 (by
      rintro e r rfl
      simp only [Stops] at hs
      exact ⟨hs.1, hs.2.1⟩)
    rw [if_pos h3] at this
    simpa using this
  | num d ds fs h1 h2 h3 =>
    have := tokenize_num d ds fs rest h1 h2 h3 (by
      rintro e r rfl
      simpa [Stops] using hs)
    simpa using this
  | sym c h1 h2 h3 h4 h5 h6 h7 => exact tokenize_sym c rest h1 h2 h3 h4 h5 h6 h7
  | _ =>
    rw [tokenize_ident _ rest (by decide) (by
      rintro d r rfl; simpa [Stops, not_or] using hs)]
    rfl

end TPB
