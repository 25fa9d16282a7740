/- What the literals of a source can be. -/
import Verif.Proofs.LexerLayout
import Verif.Proofs.Names
import Verif.Spec.DecimalLiterals
namespace TPB
open Spec

/-- What holds of every name, string, number and symbol holds of every token. -/
theorem tokenizeLoop_all {p : Token → Prop} (hi : ∀ cs t r, lexId cs = .ok (t, r) → p t) (hs : ∀ cs t r, lexString cs = .ok (t, r) → p t)
    (hn : ∀ cs t r, lexNumber cs = .ok (t, r) → p t) (hc : ∀ c, p (.sym c)) (he : p .eof) :
    ∀ (k : Nat) (cs : List Char) (ts : List Token), tokenizeLoop k cs = .ok ts → ∀ t ∈ ts, p t
  | k, [], ts, h => by
    cases k <;> (simp only [tokenizeLoop, Except.ok.injEq] at h; subst h; simpa using he)
  | 0, _ :: _, ts, h => by simp [tokenizeLoop] at h
  | k + 1, ch :: cs, ts, h => by
    have ih := tokenizeLoop_all hi hs hn hc he k
    simp only [tokenizeLoop, tokenizeStep] at h
    have cons : ∀ (us : List Token) (rest : List Char), consToks us (tokenizeLoop k rest) = .ok ts →
        (∀ t ∈ us, p t) → ∀ t ∈ ts, p t := by
      intro us rest h hu t ht
      obtain ⟨vs, h1, rfl⟩ := consToks_ok h
      rcases List.mem_append.1 ht with ht | ht
      · exact hu t ht
      · exact ih _ _ h1 t ht
    split at h
    · split at h
      · simp at h
      · rename_i heq
        exact cons _ _ h (by simpa using hi _ _ _ heq)
    · split at h
      · split at h
        · simp at h
        · rename_i heq
          exact cons _ _ h (by simpa using hs _ _ _ heq)
      · split at h
        · split at h
          · simp at h
          · rename_i heq
            exact cons _ _ h (by simpa using hn _ _ _ heq)
        · split at h
          · exact ih _ _ h
          · split at h
            · split at h
              · exact ih _ _ h
              · exact ih _ _ h
              · exact cons _ _ h (by simp [hc])
            · exact cons _ _ h (by simp [hc])

theorem lexNumberLoop_point : ∀ (cs v : List Char) (h f : Bool) (s : NumScan), lexNumberLoop v h f cs = .ok s →
    (f = true → '.' ∈ v ∨ ∃ r, cs = '.' :: r) → s.isFloat = true → '.' ∈ s.value
  | [], v, h, f, s, hs, _, _ => by simp [lexNumberLoop] at hs
  | [c], v, h, f, s, hs, hf, hff => by
    simp only [lexNumberLoop, Except.ok.injEq] at hs
    subst hs
    rcases hf hff with hf | ⟨r, hr⟩
    · simp [hf]
    · simp only [List.cons.injEq] at hr
      simp [hr.1]
  | c :: ch :: ds, v, h, f, s, hs, hf, hff => by
    have hv : f = true → '.' ∈ v ++ [c] := by
      intro h
      rcases hf h with hf | ⟨r, hr⟩
      · simp [hf]
      · simp only [List.cons.injEq] at hr
        simp [hr.1]
    rw [lexNumberLoop] at hs
    split at hs
    · exact lexNumberLoop_point _ _ _ _ _ hs (fun h => .inl (hv h)) hff
    · split at hs
      · rename_i hc
        exact lexNumberLoop_point _ _ _ _ _ hs (fun _ => .inr ⟨ds, by rw [hc.1]⟩) hff
      · split at hs
        · exact lexNumberLoop_point _ _ _ _ _ hs (fun h => .inl (hv h)) hff
        · split at hs
          · simp only [Except.ok.injEq] at hs
            subst hs
            exact hv hff
          · exact lexNumberLoop_point _ _ _ _ _ hs (fun h => .inl (hv h)) hff

theorem digits_takeWhile (cs : List Char) : Digits (cs.takeWhile (fun c : Char => decide ('0' ≤ c) && decide (c ≤ '9'))) := by
  induction cs with
  | nil => simp [Digits]
  | cons a cs ih =>
    rw [List.takeWhile_cons]
    split
    · rename_i ha
      simp only [Bool.and_eq_true, decide_eq_true_eq] at ha
      intro c hc
      rcases List.mem_cons.1 hc with rfl | hc
      · exact ha
      · exact ih c hc
    · simp [Digits]

theorem digits_all {cs : List Char} (h : cs.all (fun c : Char => decide ('0' ≤ c) && decide (c ≤ '9')) = true) : Digits cs := by
  intro c hc
  have := List.all_eq_true.1 h c hc
  simp only [Bool.and_eq_true, decide_eq_true_eq] at this
  exact this

theorem not_point {cs : List Char} (h : Digits cs) : '.' ∉ cs := fun hc => absurd (h _ hc) (by decide)

theorem point_number {cs : List Char} (h : validF64 cs = true) (hp : '.' ∈ cs) : IsPointNumber cs := by
  have hcs := List.takeWhile_append_dropWhile (p := fun c : Char => decide ('0' ≤ c) && decide (c ≤ '9')) (l := cs)
  have hd1 := digits_takeWhile cs
  unfold validF64 at h
  simp only [Bool.and_eq_true, Bool.not_eq_true', List.isEmpty_eq_false_iff] at h
  obtain ⟨hne, h⟩ := h
  -- what comes after the last digit before an exponent
  have exp : ∀ r : List Char, (match r with
      | [] => true
      | e :: es =>
        if e = 'e' ∨ e = 'E' then
          let ds := match es with
            | '+' :: ds => ds
            | '-' :: ds => ds
            | ds => ds
          !ds.isEmpty && ds.all (fun c : Char => decide ('0' ≤ c) && decide (c ≤ '9'))
        else false) = true → r = [] ∨ IsExponent r := by
    intro r hr
    cases r with
    | nil => exact .inl rfl
    | cons e es =>
      right
      simp only at hr
      split at hr
      · rename_i he
        simp only [Bool.and_eq_true, Bool.not_eq_true', List.isEmpty_eq_false_iff] at hr
        split at hr
        · exact ⟨e, ['+'], _, he, by simp, hr.1, digits_all hr.2, rfl⟩
        · exact ⟨e, ['-'], _, he, by simp, hr.1, digits_all hr.2, rfl⟩
        · exact ⟨e, [], _, he, by simp, hr.1, digits_all hr.2, rfl⟩
      · simp at hr
  have h := exp _ h
  generalize hr1 : cs.dropWhile (fun c : Char => decide ('0' ≤ c) && decide (c ≤ '9')) = r1 at h hcs
  by_cases hdot : ∃ ds, r1 = '.' :: ds
  · obtain ⟨ds, rfl⟩ := hdot
    refine ⟨_, _, _, hne, hd1, digits_takeWhile ds, h, ?_⟩
    simp only [List.takeWhile_append_dropWhile]
    exact hcs.symm
  · exfalso
    have h : r1 = [] ∨ IsExponent r1 := by
      split at h
      · rename_i ds
        exact absurd ⟨ds, rfl⟩ hdot
      · exact h
    rw [← hcs, List.mem_append] at hp
    rcases hp with hp | hp
    · exact not_point hd1 hp
    · rcases h with he | ⟨e, sign, ds, he, hs, -, hd, hr⟩
      · rw [he] at hp; simp at hp
      · rw [hr] at hp
        simp only [List.mem_cons, List.mem_append] at hp
        rcases hp with hp | hp | hp
        · rcases he with rfl | rfl <;> simp at hp
        · rcases hs with rfl | rfl | rfl <;> simp at hp
        · exact not_point hd hp

theorem lexNumber_literal {cs r : List Char} {t : Token} (h : lexNumber cs = .ok (t, r)) :
    (∃ s, t = .lit (.num (String.ofList s)) ∧ IsPointNumber s) ∨ ∃ v : Int, t = .lit (.int v) ∧ -2 ^ 63 ≤ v ∧ v < 2 ^ 63 := by
  have bounds : ∀ (radix : Nat) (ds : List Char) (v : Int), i64FromStr radix ds = some v → -2 ^ 63 ≤ v ∧ v < 2 ^ 63 := by
    intro radix ds v hv
    unfold i64FromStr at hv
    have pos : ∀ ds : List Char, (match ds with
        | [] => none
        | _ :: _ =>
          match digitsVal radix 0 ds with
          | none => none
          | some v => if v < 2 ^ 63 then some (v : Int) else none) = some v → -2 ^ 63 ≤ v ∧ v < 2 ^ 63 := by
      intro ds hv
      split at hv
      · simp at hv
      · split at hv
        · simp at hv
        · split at hv
          · simp only [Option.some.injEq] at hv
            omega
          · simp at hv
    split at hv
    · dsimp only at hv
      split at hv
      · simp at hv
      · split at hv
        · simp at hv
        · simp only [if_true] at hv
          split at hv
          · simp only [Option.some.injEq] at hv
            omega
          · simp at hv
    · exact pos _ hv
    · exact pos _ hv
  unfold lexNumber at h
  split at h
  · simp at h
  · rename_i s hs
    split at h
    · simp at h
    · rename_i t' ht
      simp only [Except.ok.injEq, Prod.mk.injEq] at h
      rw [← h.1]
      unfold numberToken at ht
      split at ht
      · split at ht
        · rename_i hv
          simp only [Except.ok.injEq] at ht
          exact .inr ⟨_, ht.symm, bounds _ _ _ hv⟩
        · simp at ht
      · split at ht
        · rename_i hf
          split at ht
          · rename_i hv
            simp only [Except.ok.injEq] at ht
            exact .inl ⟨_, ht.symm, point_number hv (lexNumberLoop_point _ _ _ _ _ hs (by simp) hf)⟩
          · simp at ht
        · split at ht
          · rename_i hv
            simp only [Except.ok.injEq] at ht
            exact .inr ⟨_, ht.symm, bounds _ _ _ hv⟩
          · simp at ht

theorem lexNumberLoop_groups (acc : List Char) (c : Char) (ds fs : List (Bool × Nat)) (rest : List Char)
    (hds : ∀ e ∈ ds, e.2 < 10) (hfs : ∀ e ∈ fs, e.2 < 10) (hrest : ∀ e r, rest = e :: r → ¬ IsDigit e ∧ e ≠ '_') :
    lexNumberLoop acc false false (c :: (groupText ds ++ '.' :: (groupText fs ++ rest))) =
      .ok ⟨acc ++ c :: (ds.map (fun p => digitChar p.2) ++ '.' :: fs.map (fun p => digitChar p.2)), false, true, rest⟩ := by
  induction ds generalizing acc c with
  | nil =>
    simp only [groupText, List.map_nil, List.nil_append, lexNumberLoop]
    have hl := lexNumberLoop_run false true 10 (by simp) (acc ++ [c]) '.' fs rest hfs (by
        intro e r he; obtain ⟨a, b⟩ := hrest e r he; simp [a, b])
    simp [hl]
  | cons p ds ih =>
    obtain ⟨u, d⟩ := p
    have hd : d < 10 := hds (u, d) (by simp)
    have hp := digitChar_plain d (by omega)
    have hc := (isCharNumber_iff _).2 (digitChar_digit d hd)
    have ih' := fun acc c => ih acc c (fun e he => hds e (by simp [he]))
    cases u with
    | true =>
      simp only [groupText, List.cons_append, lexNumberLoop, if_true]
      rw [ih']
      simp
    | false =>
      simp only [groupText, List.cons_append, lexNumberLoop, hp, hc, false_and, if_false]
      rw [ih']
      simp

theorem constG_literals {q : Bool} {ts : List Token} {is : List ConstItem} (h : ConstG q ts is) :
    ∀ l ∈ blockLiterals is, .lit l ∈ ts := by
  induction h with
  | nil => simp [blockLiterals]
  | value n t l ts us is ht _ ih =>
    intro w hw
    simp only [blockLiterals, constLiterals, List.mem_cons, List.mem_append, List.not_mem_nil, or_false] at hw
    rcases hw with rfl | hw
    · simp
    · simp [ih w hw]
  | node n ts us is js _ _ ih1 ih2 =>
    intro w hw
    simp only [blockLiterals, constLiterals, List.mem_append] at hw
    rcases hw with hw | hw
    · simp [ih1 w hw]
    · simp [ih2 w hw]

theorem schemaG_literals {q : Bool} {k k' : Nat} {ts : List Token} {S : List ASTNode} (h : SchemaG q k ts S k') :
    ∀ n, .const n ∈ S → ∀ l ∈ blockLiterals n.items, .lit l ∈ ts := by
  induction h with
  | nil => simp
  | cons k k' k'' ts us d ds h _ ih =>
    intro n hn l hl
    rcases List.mem_cons.1 hn with rfl | hn
    · cases h with
      | const m ts is hc => simp [constG_literals hc l hl]
    · simp [ih n hn l hl]

end TPB
