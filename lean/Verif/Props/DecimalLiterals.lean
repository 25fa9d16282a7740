/- Property theorems about the literals that a source can contain: C92. -/
import Verif.Proofs.DecimalLiterals
import Verif.Props.Lexer
namespace TPB.Props
open Spec

/-- **C92.** Digits, a point and digits, each digit after the first optionally preceded by one underscore, become the
decimal literal with these digits. -/
theorem C92_point_number (d : Nat) (ds fs : List (Bool × Nat)) (rest : List Char) (hd : d < 10) (hds : ∀ p ∈ ds, p.2 < 10)
    (hfs : ∀ p ∈ fs, p.2 < 10) (hrest : ∀ c r, rest = c :: r → ¬ IsDigit c ∧ c ≠ '_') :
    tokenizeChars (digitChar d :: (groupText ds ++ '.' :: (groupText fs ++ rest))) =
      prepend [.lit (.num (String.ofList (digitChar d :: (ds.map (fun p => digitChar p.2) ++ '.' :: fs.map (fun p => digitChar p.2)))))]
        (tokenizeChars rest) := by
  have hD := digitChar_digit d hd
  rw [tokenizeChars_cons]
  unfold tokenizeStep
  have h1 : ¬ (isCharId (digitChar d) true = true) := by
    rw [isCharId_first_iff]; exact not_letter_of_digit hD
  have h2 : digitChar d ≠ '"' := by
    intro h; rw [h] at hD; revert hD; decide
  rw [if_neg h1, if_neg h2, if_pos ((isCharNumber_iff _).2 hD)]
  unfold lexNumber
  rw [lexNumberLoop_groups [] (digitChar d) ds fs rest hds hfs hrest]
  have hv := validF64_run d (ds.map (·.2)) (fs.map (·.2)) hd
    (fun e he => by obtain ⟨p, hp, rfl⟩ := List.mem_map.1 he; exact hds p hp)
    (fun e he => by obtain ⟨p, hp, rfl⟩ := List.mem_map.1 he; exact hfs p hp)
  simp only [List.map_map, Function.comp_def] at hv
  rw [← consToks_eq_prepend]
  simp [numberToken, hv]

/-- `3_0.1_5` is an instance. -/
example : digitChar 3 :: (groupText [(true, 0)] ++ '.' :: (groupText [(false, 1), (true, 5)] ++ [';'])) = "3_0.1_5;".toList := by decide

theorem literal_kinds {src : String} {ts : List Token} (h : tokenize src = .ok ts) (l : Literal) (hl : .lit l ∈ ts) :
    (∀ s, l = .num s → IsPointNumber s.toList) ∧ ∀ v, l = .int v → -2 ^ 63 ≤ v ∧ v < 2 ^ 63 := by
  refine tokenizeLoop_all (p := fun t => ∀ l, t = .lit l → (∀ s, l = .num s → IsPointNumber s.toList) ∧ ∀ v, l = .int v → -2 ^ 63 ≤ v ∧ v < 2 ^ 63)
    ?_ ?_ ?_ ?_ ?_ _ _ _ h _ hl l rfl
  · rintro cs t r h l rfl
    unfold lexId at h
    split at h
    · simp at h
    · simp only [Except.ok.injEq, Prod.mk.injEq] at h
      have h := h.1
      unfold classifyName at h
      repeat' split at h
      all_goals (first | (simp only [Token.lit.injEq] at h; subst h; simp) | simp at h)
  · rintro cs t r h l rfl
    unfold lexString at h
    repeat' split at h
    all_goals (first | (simp only [Except.ok.injEq, Prod.mk.injEq, Token.lit.injEq] at h; obtain ⟨rfl, -⟩ := h; simp) | simp at h)
  · rintro cs t r h l rfl
    rcases lexNumber_literal h with ⟨s, hs, hp⟩ | ⟨v, hv, hb⟩
    · simp only [Token.lit.injEq] at hs
      subst hs
      refine ⟨?_, by simp⟩
      intro s' hs'
      simp only [Literal.num.injEq] at hs'
      subst hs'
      simpa using hp
    · simp only [Token.lit.injEq] at hv
      subst hv
      refine ⟨by simp, ?_⟩
      intro v' hv'
      simp only [Literal.int.injEq] at hv'
      subst hv'
      exact hb
  · rintro c l h
    simp at h
  · intro l h
    simp at h

/-- **C92.** Whatever the source is: a decimal literal that is found in it is a number with a decimal point. -/
theorem C92_decimal_literals (src : String) (ts : List Token) (h : tokenize src = .ok ts) (s : String) (hs : .lit (.num s) ∈ ts) :
    IsPointNumber s.toList := (literal_kinds h _ hs).1 s rfl

/-- **C92.** Whatever the source is: an integer literal that is found in it fits in a signed 64-bit integer. -/
theorem C92_integer_literals (src : String) (ts : List Token) (h : tokenize src = .ok ts) (v : Int) (hv : .lit (.int v) ∈ ts) :
    -2 ^ 63 ≤ v ∧ v < 2 ^ 63 := (literal_kinds h _ hv).2 v rfl

/-- **C92.** So are the numbers in the constants of an accepted source, in blocks of any depth. -/
theorem C92_constants (src : String) (S : List ASTNode) (h : parseSource src = .ok S) (n : ConstNode) (hn : .const n ∈ S)
    (l : Literal) (hl : l ∈ blockLiterals n.items) :
    (∀ s, l = .num s → IsPointNumber s.toList) ∧ ∀ v, l = .int v → -2 ^ 63 ≤ v ∧ v < 2 ^ 63 := by
  unfold parseSource at h
  split at h
  · simp at h
  · rename_i ts heq
    obtain ⟨us, r, k, h1, _, h3⟩ := parse_sound h
    refine literal_kinds heq l ?_
    rw [h1]
    simp [schemaG_literals h3 n hn l hl]

/-- A user may expect that an integer literal is never negative, since there is no sign in the language. -/
def NoNegativeLiterals : Prop := ∀ src ts v, tokenize src = .ok ts → .lit (.int v) ∈ ts → 0 ≤ v

/-- **C92 fails for signs.** The character after an underscore is taken as it is: `0x_-5` is the literal -5. -/
theorem C92_negative : ¬ NoNegativeLiterals := by
  intro h
  have := h "0x_-5" [.lit (.int (-5)), .eof] (-5) (by rfl) (by simp)
  omega

/-- A user may expect that the digits and the point of a decimal literal are all there is to it. -/
def NoExponents : Prop := ∀ src ts s, tokenize src = .ok ts → .lit (.num s) ∈ ts → ∀ c ∈ s.toList, IsDigit c ∨ c = '.'

/-- **C92 fails for exponents.** `1._e_5` is the literal `1.e5`, one hundred thousand. -/
theorem C92_exponent : ¬ NoExponents := by
  intro h
  have := h "1._e_5" [.lit (.num "1.e5"), .eof] "1.e5" (by rfl) (by simp) 'e' (by decide)
  revert this
  decide

/-- Without digits after the letter the source is rejected. -/
example : tokenize "1._e" = .error (.badFloat "1.e") := by rfl

/-- The hypotheses of `C92_constants` are met by a source with a block in a block. -/
example : ∃ S n, parseSource "const A { const B { x: f64 = 1_0.5; } y: i32 = 0x1F; }" = .ok S ∧ .const n ∈ S ∧
    blockLiterals n.items = [.num "10.5", .int 31] := by
  refine ⟨_, _, rfl, List.mem_singleton.2 rfl, ?_⟩
  rfl

end TPB.Props
