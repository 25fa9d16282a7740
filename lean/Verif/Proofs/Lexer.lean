/- Auxiliary lemmas about the lexer model. -/
import Verif.Spec.Spelling
namespace TPB
open Spec

/-! ### Character classes -/

theorem char_ofNat_toNat (c : Char) : Char.ofNat c.toNat = c := by simp

/-- A property of characters holds if it holds below 128 (by computation) and from 128 on. -/
theorem char_all (P : Char → Prop) (hlo : ∀ n, n < 128 → P (Char.ofNat n))
    (hhi : ∀ c : Char, 128 ≤ c.toNat → P c) (c : Char) : P c := by
  by_cases h : c.toNat < 128
  · have := hlo _ h
    rwa [char_ofNat_toNat] at this
  · exact hhi c (by omega)

theorem char_le_toNat {c d : Char} (h : c ≤ d) : c.toNat ≤ d.toNat := by
  have h2 : c.val ≤ d.val := h
  simpa [UInt32.le_iff_toNat_le] using h2

theorem isCharNumber_iff (c : Char) : isCharNumber c = true ↔ IsDigit c := by
  refine char_all (fun c => isCharNumber c = true ↔ IsDigit c) (by decide) ?_ c
  intro c hc
  constructor
  · intro h
    exfalso
    have : ∀ d ∈ "0123456789".toList, d.toNat < 128 := by decide
    have h2 := this c (by simpa [isCharNumber] using h)
    omega
  · intro h
    have := char_le_toNat h.2
    have : '9'.toNat = 57 := by decide
    omega

theorem isCharHexNumber_iff (c : Char) : isCharHexNumber c = true ↔ IsHexDigit c := by
  refine char_all (fun c => isCharHexNumber c = true ↔ IsHexDigit c) (by decide) ?_ c
  intro c hc
  constructor
  · intro h
    exfalso
    have : ∀ d ∈ "0123456789ABCDEF".toList, d.toNat < 128 := by decide
    have h2 := this c (by simpa [isCharHexNumber] using h)
    omega
  · intro h
    have : '9'.toNat = 57 := by decide
    have : 'F'.toNat = 70 := by decide
    rcases h with h | h
    · have := char_le_toNat h.2; omega
    · have := char_le_toNat h.2; omega

set_option maxRecDepth 4000 in
theorem isCharId_first_iff (c : Char) : isCharId c true = true ↔ IsLetter c := by
  refine char_all (fun c => isCharId c true = true ↔ IsLetter c) (by decide) ?_ c
  intro c hc
  constructor
  · intro h
    exfalso
    have : ∀ d ∈ "abcdefjhigklmnopqrstuvwxyzABCDEFJHIGKLMNOPQRSTUVWXYZ_".toList, d.toNat < 128 := by
      decide
    have h2 := this c (by simpa [isCharId] using h)
    omega
  · intro h
    have : 'z'.toNat = 122 := by decide
    have : 'Z'.toNat = 90 := by decide
    have : '_'.toNat = 95 := by decide
    rcases h with h | h | h
    · have := char_le_toNat h.2; omega
    · have := char_le_toNat h.2; omega
    · subst h; omega

theorem isCharId_rest_iff (c : Char) : isCharId c false = true ↔ IsLetter c ∨ IsDigit c := by
  rw [← isCharId_first_iff, ← isCharNumber_iff]
  simp [isCharId, isCharNumber]

/-! ### Every sub-lexer consumes input, and none of them runs out of fuel -/

theorem lexSingleLineComment_le (cs : List Char) : (lexSingleLineComment cs).length ≤ cs.length := by
  induction cs with
  | nil => simp [lexSingleLineComment]
  | cons c cs ih => unfold lexSingleLineComment; split <;> simp; omega

theorem lexMultiLineComment_le (cs : List Char) : (lexMultiLineComment cs).length ≤ cs.length := by
  fun_induction lexMultiLineComment cs <;> simp_all <;> omega

theorem lexIdLoop_lt {acc cs name rest} (h : lexIdLoop acc cs = .ok (name, rest)) :
    rest.length < cs.length := by
  fun_induction lexIdLoop acc cs generalizing name rest <;> simp_all
  all_goals omega

theorem lexId_lt {cs t rest} (h : lexId cs = .ok (t, rest)) : rest.length < cs.length := by
  unfold lexId at h
  split at h
  · simp at h
  · rename_i heq
    simp only [Except.ok.injEq, Prod.mk.injEq] at h
    obtain ⟨_, rfl⟩ := h
    exact lexIdLoop_lt heq

theorem lexStringLoop_lt {acc cs v rest} (h : lexStringLoop acc cs = .ok (v, rest)) :
    rest.length < cs.length := by
  fun_induction lexStringLoop acc cs generalizing v rest <;> simp_all
  all_goals omega

theorem lexString_lt {cs t rest} (h : lexString cs = .ok (t, rest)) : rest.length < cs.length := by
  unfold lexString at h
  split at h
  · simp at h
  · rename_i d ds hcs
    split at h
    · simp at h
    · rename_i heq
      simp only [Except.ok.injEq, Prod.mk.injEq] at h
      obtain ⟨_, rfl⟩ := h
      have := lexStringLoop_lt heq
      have h2 : (cs.tail).length = (d :: ds).length := by rw [hcs]
      simp only [List.length_tail] at h2
      omega

theorem lexNumberLoop_lt {v a b cs s} (h : lexNumberLoop v a b cs = .ok s) :
    s.rest.length < cs.length := by
  fun_induction lexNumberLoop v a b cs generalizing s
  all_goals first
    | (simp at h; done)
    | (simp only [Except.ok.injEq] at h; subst h; simp; done)
    | (rename_i ih; have := ih h; simp only [List.length_cons] at *; omega)

theorem lexNumber_lt {cs t rest} (h : lexNumber cs = .ok (t, rest)) : rest.length < cs.length := by
  unfold lexNumber at h
  split at h
  · simp at h
  · rename_i heq
    split at h
    · simp at h
    · simp only [Except.ok.injEq, Prod.mk.injEq] at h
      obtain ⟨_, rfl⟩ := h
      exact lexNumberLoop_lt heq

theorem lexIdLoop_fuel (acc cs) : lexIdLoop acc cs ≠ .error .outOfFuel := by
  fun_induction lexIdLoop acc cs <;> simp_all

theorem lexId_fuel (cs) : lexId cs ≠ .error .outOfFuel := by
  unfold lexId
  split
  · rename_i e heq; intro h; simp at h; subst h; exact lexIdLoop_fuel _ _ heq
  · simp

theorem lexStringLoop_fuel (acc cs) : lexStringLoop acc cs ≠ .error .outOfFuel := by
  fun_induction lexStringLoop acc cs <;> simp_all

theorem lexString_fuel (cs) : lexString cs ≠ .error .outOfFuel := by
  unfold lexString
  split
  · simp
  · split
    · rename_i heq; intro h; simp at h; subst h; exact lexStringLoop_fuel _ _ heq
    · simp

theorem lexNumberLoop_fuel (v a b cs) : lexNumberLoop v a b cs ≠ .error .outOfFuel := by
  fun_induction lexNumberLoop v a b cs <;> simp_all

theorem numberToken_fuel (s) : numberToken s ≠ .error .outOfFuel := by
  unfold numberToken; repeat' split
  all_goals simp

theorem lexNumber_fuel (cs) : lexNumber cs ≠ .error .outOfFuel := by
  unfold lexNumber
  split
  · rename_i heq; intro h; simp at h; subst h; exact lexNumberLoop_fuel _ _ _ _ heq
  · split
    · rename_i heq; intro h; simp at h; subst h; exact numberToken_fuel _ heq
    · simp

/-! ### Fuel is irrelevant once it covers the input -/

/-- One iteration hands only strictly shorter input to the rest of the loop. -/
theorem tokenizeStep_congr (k k' : List Char → Except Panic (List Token)) (ch : Char) (cs : List Char)
    (key : ∀ rest : List Char, rest.length ≤ cs.length → k rest = k' rest) :
    tokenizeStep k ch cs = tokenizeStep k' ch cs := by
  unfold tokenizeStep
  split
  · cases heq : lexId (ch :: cs) with
    | error e => rfl
    | ok p => have := lexId_lt heq; simp only [List.length_cons] at this
              simp only []; rw [key _ (by omega)]
  split
  · cases heq : lexString (ch :: cs) with
    | error e => rfl
    | ok p => have := lexString_lt heq; simp only [List.length_cons] at this
              simp only []; rw [key _ (by omega)]
  split
  · cases heq : lexNumber (ch :: cs) with
    | error e => rfl
    | ok p => have := lexNumber_lt heq; simp only [List.length_cons] at this
              simp only []; rw [key _ (by omega)]
  split
  · exact key _ (Nat.le_refl _)
  split
  · split
    · exact key _ (lexSingleLineComment_le _)
    · exact key _ (lexMultiLineComment_le _)
    · rw [key _ (by simp)]
  · rw [key _ (Nat.le_refl _)]

theorem tokenizeLoop_fuel (n m : Nat) (cs : List Char) (hn : cs.length ≤ n) (hm : cs.length ≤ m) :
    tokenizeLoop n cs = tokenizeLoop m cs := by
  induction n generalizing m cs with
  | zero =>
    have : cs = [] := List.length_eq_zero_iff.mp (by omega)
    subst this; simp [tokenizeLoop]
  | succ n ih =>
    cases cs with
    | nil => simp [tokenizeLoop]
    | cons ch cs =>
      cases m with
      | zero => simp at hm
      | succ m =>
        simp only [List.length_cons] at hn hm
        simp only [tokenizeLoop]
        exact tokenizeStep_congr _ _ _ _ fun rest h => ih m rest (by omega) (by omega)

theorem tokenizeLoop_eq (n : Nat) (cs : List Char) (hn : cs.length ≤ n) :
    tokenizeLoop n cs = tokenizeChars cs := tokenizeLoop_fuel _ _ _ hn (Nat.le_refl _)

theorem tokenizeChars_nil : tokenizeChars [] = .ok [.eof] := by
  simp [tokenizeChars, tokenizeLoop]

/-- The main loop without fuel. -/
theorem tokenizeChars_cons (ch : Char) (cs : List Char) :
    tokenizeChars (ch :: cs) = tokenizeStep tokenizeChars ch cs := by
  conv => lhs; unfold tokenizeChars
  simp only [List.length_cons, tokenizeLoop]
  exact tokenizeStep_congr _ _ _ _ fun rest h => tokenizeLoop_eq _ _ h

/-! ### Shape of the result -/

theorem consToks_ok {ts r us} (h : consToks ts r = .ok us) : ∃ vs, r = .ok vs ∧ us = ts ++ vs := by
  unfold consToks at h
  split at h
  · simp at h
  · simp at h; exact ⟨_, rfl, h.symm⟩

theorem classifyName_ne_eof (s : String) : classifyName s ≠ .eof := by
  unfold classifyName; repeat' split
  all_goals simp

theorem lexId_ne_eof {cs t rest} (h : lexId cs = .ok (t, rest)) : t ≠ .eof := by
  unfold lexId at h
  split at h
  · simp at h
  · simp at h; rw [← h.1]; exact classifyName_ne_eof _

theorem lexString_ne_eof {cs t rest} (h : lexString cs = .ok (t, rest)) : t ≠ .eof := by
  unfold lexString at h
  split at h
  · simp at h
  · split at h
    · simp at h
    · simp at h; rw [← h.1]; simp

theorem lexNumber_ne_eof {cs t rest} (h : lexNumber cs = .ok (t, rest)) : t ≠ .eof := by
  unfold lexNumber at h
  split at h
  · simp at h
  · split at h
    · simp at h
    · rename_i heq
      simp at h
      rw [← h.1]
      unfold numberToken at heq
      repeat' split at heq
      all_goals simp at heq
      all_goals (rw [← heq]; simp)

end TPB
