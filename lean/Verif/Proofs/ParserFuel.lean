/-
The fuel given to the parser's loops never runs out.
-/
import Verif.Proofs.ParserComplete
namespace TPB
open Spec

theorem Consumed.len {s s' : PS} {ts : List Token} (h : Consumed s ts s') :
    s'.rest.length ≤ s.rest.length := by
  have := congrArg List.length h.1
  simp at this; omega

theorem PS.len_adv {s : PS} {t : Token} (h : s.cur = t) (ht : t ≠ .eof) :
    s.adv.rest.length + 1 = s.rest.length := by
  have := congrArg List.length (PS.rest_of_cur h ht)
  simp at this; omega

theorem PS.len_adv_le (s : PS) : s.adv.rest.length ≤ s.rest.length := by
  simp [PS.adv]

theorem type_fuel (n : Nat) :
    (∀ s, s.rest.length ≤ n → 0 < n → parseTypeId n s ≠ .error .outOfFuel) ∧
    (∀ name gs s, s.rest.length ≤ n → s.rest ≠ [] → parseGenerics n name gs s ≠ .error .outOfFuel) := by
  induction n with
  | zero =>
    refine ⟨fun s _ h => absurd h (by omega), fun _ _ s h h' => absurd ?_ h'⟩
    exact List.eq_nil_of_length_eq_zero (by omega)
  | succ n ih =>
    obtain ⟨ih1, ih2⟩ := ih
    constructor
    · intro s hs _
      unfold parseTypeId
      split
      · rename_i name hcur
        have h1 := PS.len_adv hcur (by simp)
        simp only
        split
        · rename_i hlt
          have h2 := PS.rest_of_cur hlt (by simp)
          exact ih2 _ _ _ (by omega) (by rw [h2]; simp)
        · simp
      · simp
    · intro name gs s hs hne
      unfold parseGenerics
      simp only
      split
      · rename_i m hcur
        have h0 : s.adv.rest.length + 1 = s.rest.length := by
          cases h : s.rest with
          | nil => exact absurd h hne
          | cons => simp [PS.adv, h]
        have h1 := PS.len_adv hcur (by simp)
        have h2 := ih1 s.adv (by omega) (by omega)
        split
        · rename_i e heq
          rw [heq] at h2
          simpa using h2
        · rename_i t s1 heq
          obtain ⟨ts, hc, -⟩ := parseTypeId_sound heq
          have h3 := hc.len
          split
          · simp
          · split
            · rename_i hcomma
              have h4 := PS.rest_of_cur hcomma (by simp)
              exact ih2 _ _ _ (by omega) (by rw [h4]; simp)
            · simp
      · simp

theorem parseTypeId_fuel {n : Nat} {s : PS} (h : s.rest.length ≤ n) (hn : 0 < n) :
    parseTypeId n s ≠ .error .outOfFuel := (type_fuel n).1 s h hn

theorem parsePosition_fuel (s : PS) : parsePosition s ≠ .error .outOfFuel := by
  unfold parsePosition
  simp only
  repeat' split
  all_goals simp

theorem parseConstValue_fuel (s : PS) : parseConstValue s ≠ .error .outOfFuel := by
  unfold parseConstValue
  split <;> simp

theorem fieldItem_fuel (n i : Nat) (s : PS) (h : s.rest.length ≤ n) :
    fieldItem n i s ≠ .error .outOfFuel := by
  unfold fieldItem
  split
  · rename_i hcur
    have h1 := PS.len_adv hcur (by simp)
    have h2 := s.adv.len_adv_le
    have h3 := parseTypeId_fuel (n := n) (s := s.adv.adv) (by omega) (by omega)
    split
    · simp
    · split
      · rename_i e heq; rw [heq] at h3; simpa using h3
      · simp
  · simp

theorem argItem_fuel (n i : Nat) (s : PS) (h : s.rest.length ≤ n) :
    argItem n i s ≠ .error .outOfFuel := by
  unfold argItem
  split
  · rename_i hcur
    have h1 := PS.len_adv hcur (by simp)
    have h2 := s.adv.len_adv_le
    have h3 := parseTypeId_fuel (n := n) (s := s.adv.adv) (by omega) (by omega)
    split
    · simp
    · split
      · rename_i e heq; rw [heq] at h3; simpa using h3
      · simp
  · simp

theorem numFieldItem_fuel (n i : Nat) (s : PS) (h : s.rest.length ≤ n) :
    numFieldItem n i s ≠ .error .outOfFuel := by
  unfold numFieldItem
  split
  · rename_i e heq
    have := parsePosition_fuel s
    rw [heq] at this; simpa using this
  · rename_i p s1 heq
    obtain ⟨v, hc, -⟩ := parsePosition_sound heq
    exact fieldItem_fuel n p s1 (by have := hc.len; omega)

theorem tupItem_fuel (n i : Nat) (s : PS) (h : s.rest.length ≤ n) (hn : 0 < n) :
    tupItem n i s ≠ .error .outOfFuel := by
  unfold tupItem
  have h3 := parseTypeId_fuel h hn
  split
  · rename_i e heq; rw [heq] at h3; simpa using h3
  · simp

theorem numTupItem_fuel (n i : Nat) (s : PS) (h : s.rest.length ≤ n) :
    numTupItem n i s ≠ .error .outOfFuel := by
  unfold numTupItem
  split
  · rename_i e heq
    have := parsePosition_fuel s
    rw [heq] at this; simpa using this
  · rename_i p s1 heq
    obtain ⟨v, hc, -⟩ := parsePosition_sound heq
    have h1 := congrArg List.length hc.1
    simp [positionTokens] at h1
    exact tupItem_fuel n p s1 (by omega) (by omega)

theorem isStart_len {s : PS} {f : Token → Bool} (hf : f .eof = false) (h : f s.cur = true) :
    0 < s.rest.length := by
  cases hr : s.rest with
  | nil => simp [PS.cur, hr, hf] at h
  | cons => simp

theorem structParams_fuel {n : Nat} {s : PS} (h : s.rest.length < n) :
    structParams n s ≠ .error .outOfFuel := by
  unfold structParams
  split
  · rw [structParamsPos_eq n 0]
    exact commaLoop_fuel (by decide) (fun n i s _ h => numFieldItem_fuel n i s h)
      (fun n i s a s' h => (numFieldItem_sound n i s a s' h).choose_spec.1.len) n 0 s h
  · rw [structParamsNoPos_eq]
    exact commaLoop_fuel (by decide) (fun n i s _ h => fieldItem_fuel n i s h)
      (fun n i s a s' h => (fieldItem_sound n i s a s' h).choose_spec.1.len) n 0 s h

theorem tupleParams_fuel {n : Nat} {s : PS} (h : s.rest.length < n) :
    tupleParams n s ≠ .error .outOfFuel := by
  unfold tupleParams
  split
  · rw [tupleParamsPos_eq n 0]
    exact commaLoop_fuel (by decide) (fun n i s _ h => numTupItem_fuel n i s h)
      (fun n i s a s' h => (numTupItem_sound n i s a s' h).choose_spec.1.len) n 0 s h
  · rw [tupleParamsNoPos_eq]
    exact commaLoop_fuel (by decide)
      (fun n i s hs h => tupItem_fuel n i s h (by have := isStart_len (by decide) hs; omega))
      (fun n i s a s' h => (tupItem_sound n i s a s' h).choose_spec.1.len) n 0 s h

theorem variantItem_fuel (n i : Nat) (s : PS) (h : s.rest.length ≤ n) :
    variantItem n i s ≠ .error .outOfFuel := by
  unfold variantItem
  split
  · rename_i name hcur
    have h1 := PS.len_adv hcur (by simp)
    unfold enumItemBody
    split
    · rename_i hp
      have h2 := PS.len_adv hp (by simp)
      unfold parseTupleEnum
      have h3 := tupleParams_fuel (n := n) (s := s.adv.adv) (by omega)
      split
      · simp
      · split
        · rename_i e heq; rw [heq] at h3; simpa using h3
        · split <;> simp
    · split
      · rename_i hp
        have h2 := PS.len_adv hp (by simp)
        unfold parseStructEnum
        have h3 := structParams_fuel (n := n) (s := s.adv.adv) (by omega)
        split
        · simp
        · split
          · rename_i e heq; rw [heq] at h3; simpa using h3
          · split <;> simp
      · simp
  · simp

theorem numVariantItem_fuel (n i : Nat) (s : PS) (h : s.rest.length ≤ n) :
    numVariantItem n i s ≠ .error .outOfFuel := by
  unfold numVariantItem
  split
  · rename_i e heq
    have := parsePosition_fuel s
    rw [heq] at this; simpa using this
  · rename_i p s1 heq
    obtain ⟨v, hc, -⟩ := parsePosition_sound heq
    exact variantItem_fuel n p s1 (by have := hc.len; omega)

theorem enumItems_fuel {n : Nat} {s : PS} (h : s.rest.length < n) :
    enumItems n s ≠ .error .outOfFuel := by
  unfold enumItems
  split
  · rw [enumItemsPos_eq n 0]
    exact commaLoop_fuel (by decide) (fun n i s _ h => numVariantItem_fuel n i s h)
      (fun n i s a s' h => (numVariantItem_sound n i s a s' h).choose_spec.1.len) n 0 s h
  · rw [enumItemsNoPos_eq]
    exact commaLoop_fuel (by decide) (fun n i s _ h => variantItem_fuel n i s h)
      (fun n i s a s' h => (variantItem_sound n i s a s' h).choose_spec.1.len) n 0 s h

theorem structBody_fuel {n : Nat} {name : String} {s : PS} (h : s.rest.length < n) :
    structBody n name s ≠ .error .outOfFuel := by
  unfold structBody
  have h3 := structParams_fuel h
  split
  · rename_i e heq; rw [heq] at h3; simpa using h3
  · split <;> simp

theorem enumBody_fuel {n : Nat} {name : String} {s : PS} (h : s.rest.length < n) :
    enumBody n name s ≠ .error .outOfFuel := by
  unfold enumBody
  have h3 := enumItems_fuel h
  split
  · rename_i e heq; rw [heq] at h3; simpa using h3
  · split <;> simp

theorem parseStruct_fuel {n : Nat} {s : PS} (h : s.rest.length ≤ n) :
    parseStruct n s ≠ .error .outOfFuel := by
  unfold parseStruct
  split
  · simp
  · rename_i h1
    simp only [ne_eq, Classical.not_not] at h1
    have l1 := PS.len_adv h1 (by simp)
    have l2 := s.adv.len_adv_le
    have l3 := s.adv.adv.len_adv_le
    simp only
    repeat' split
    all_goals first | (exact structBody_fuel (by omega)) | simp

theorem parseEnum_fuel {n : Nat} {s : PS} (h : s.rest.length ≤ n) :
    parseEnum n s ≠ .error .outOfFuel := by
  unfold parseEnum
  split
  · simp
  · rename_i h1
    simp only [ne_eq, Classical.not_not] at h1
    have l1 := PS.len_adv h1 (by simp)
    have l2 := s.adv.len_adv_le
    have l3 := s.adv.adv.len_adv_le
    simp only
    repeat' split
    all_goals first | (exact enumBody_fuel (by omega)) | simp

theorem fnTail_fuel {n : Nat} {id : String} {args : List FnArg} {r a : Bool} {s : PS}
    (h : s.rest.length ≤ n) : fnTail n id args r a s ≠ .error .outOfFuel := by
  unfold fnTail
  split
  · simp
  · split
    · simp
    · rename_i h1
      simp only [ne_eq, Classical.not_not] at h1
      simp only
      have l1 := PS.len_adv h1 (by simp)
      have l2 := s.adv.len_adv_le
      have h3 := parseTypeId_fuel (n := n) (s := s.adv.adv) (by omega) (by omega)
      split
      · simp
      · split
        · rename_i e heq; rw [heq] at h3; simpa using h3
        · split <;> simp

theorem parseFn_fuel {n : Nat} {a : Bool} {s : PS} (h : s.rest.length ≤ n) :
    parseFn n a s ≠ .error .outOfFuel := by
  unfold parseFn
  split
  · simp
  · rename_i h1
    simp only [ne_eq, Classical.not_not] at h1
    have l1 := PS.len_adv h1 (by simp)
    simp only
    split
    · rename_i m hm
      have l2 := PS.len_adv hm (by simp)
      split
      · simp
      · rename_i h2
        simp only [ne_eq, Classical.not_not] at h2
        have l3 := PS.len_adv h2 (by simp)
        rw [fnArgs_eq n 0]
        have h3 := commaLoop_fuel (isStart := isId) (item := argItem) (by decide)
          (fun n i s _ h => argItem_fuel n i s h)
          (fun n i s a s' h => (argItem_sound n i s a s' h).choose_spec.1.len) n 0 s.adv.adv.adv (by omega)
        split
        · rename_i e heq; rw [heq] at h3; simpa using h3
        · rename_i as s1 heq
          obtain ⟨ts, e, hc, -⟩ := commaLoop_sound argItem_sound _ _ _ _ _ heq
          have := hc.len
          have := s1.len_adv_le
          split
          · simp
          · exact fnTail_fuel (by omega)
    · simp

theorem parseRead_fuel {n : Nat} {a : Bool} {s : PS} (h : s.rest.length ≤ n) :
    parseRead n a s ≠ .error .outOfFuel := by
  unfold parseRead
  have := s.len_adv_le
  have := s.adv.len_adv_le
  split
  · simp
  · simp only
    split
    · exact fnTail_fuel (by omega)
    · simp

theorem const_fuel (n : Nat) :
    (∀ s, s.rest.length ≤ n → s.rest ≠ [] → parseConst n s ≠ .error .outOfFuel) ∧
    (∀ s, s.rest.length < n → constItems n s ≠ .error .outOfFuel) := by
  induction n with
  | zero =>
    refine ⟨fun s h h' => absurd ?_ h', fun s h => by omega⟩
    exact List.eq_nil_of_length_eq_zero (by omega)
  | succ n ih =>
    obtain ⟨ih1, ih2⟩ := ih
    constructor
    · intro s hs hne
      have h0 : s.adv.rest.length + 1 = s.rest.length := by
        cases h : s.rest with
        | nil => exact absurd h hne
        | cons => simp [PS.adv, h]
      unfold parseConst
      simp only
      split
      · rename_i m hm
        have l1 := PS.len_adv hm (by simp)
        split
        · simp
        · have l2 := s.adv.adv.len_adv_le
          have h3 := ih2 s.adv.adv.adv (by omega)
          split
          · rename_i e heq; rw [heq] at h3; simpa using h3
          · split <;> simp
      · simp
    · intro s hs
      unfold constItems
      split
      · split
        · rename_i hk
          have l0 := PS.len_adv hk (by simp)
          have h1 := ih1 s (by omega) (by intro h; rw [h] at l0; simp at l0)
          split
          · rename_i e heq; rw [heq] at h1; simpa using h1
          · rename_i c s1 heq
            obtain ⟨ts, hc, -⟩ := (const_sound n).1 _ _ _ hk heq
            have l1 := congrArg List.length hc.1
            simp at l1
            have h2 := ih2 s1 (by omega)
            split
            · rename_i e heq; rw [heq] at h2; simpa using h2
            · simp
        · rename_i m hm
          have l0 := PS.len_adv hm (by simp)
          simp only
          split
          · simp
          · rename_i hcol
            simp only [ne_eq, Classical.not_not] at hcol
            have l1 := PS.len_adv hcol (by simp)
            have h1 := parseTypeId_fuel (n := n) (s := s.adv.adv) (by omega) (by omega)
            split
            · rename_i e heq; rw [heq] at h1; simpa using h1
            · rename_i t s1 heq
              obtain ⟨ts, hc, -⟩ := parseTypeId_sound heq
              have l2 := hc.len
              split
              · simp
              · have h3 := parseConstValue_fuel s1.adv
                split
                · rename_i e heq; rw [heq] at h3; simpa using h3
                · split
                  · simp
                  · have l3 := s1.len_adv_le
                    have l4 := s1.adv.len_adv_le
                    have l5 := s1.adv.adv.len_adv_le
                    have h2 := ih2 s1.adv.adv.adv (by omega)
                    split
                    · rename_i e heq; rw [heq] at h2; simpa using h2
                    · simp
        · simp
      · simp

theorem pairItem_fuel (n i : Nat) (s : PS) : pairItem n i s ≠ .error .outOfFuel := by
  unfold pairItem
  split
  · split
    · simp
    · have h3 := parseConstValue_fuel s.adv.adv
      split
      · rename_i e heq; rw [heq] at h3; simpa using h3
      · simp
  · simp

theorem parseDirective_fuel {n : Nat} {s : PS} (h : s.rest.length ≤ n) :
    parseDirective n s ≠ .error .outOfFuel := by
  unfold parseDirective
  split
  · simp
  · rename_i h1
    simp only [ne_eq, Classical.not_not] at h1
    have l1 := PS.len_adv h1 (by simp)
    have l2 := s.adv.len_adv_le
    have l3 := s.adv.adv.len_adv_le
    have l4 := s.adv.adv.adv.len_adv_le
    simp only
    split
    · simp
    · split
      · rename_i id hid
        have hd : (if s.adv.adv.adv.cur = Token.sym '=' then parseValueDirective id s.adv.adv.adv
          else if s.adv.adv.adv.cur = Token.sym '(' then parseGroupDirective n id s.adv.adv.adv
          else (.error (.unexpected s.adv.adv.adv.cur) : PRes Directive)) ≠ .error .outOfFuel := by
          split
          · unfold parseValueDirective
            have h3 := parseConstValue_fuel s.adv.adv.adv.adv
            simp only
            split
            · rename_i e heq; rw [heq] at h3; simpa using h3
            · simp
          · split
            · unfold parseGroupDirective
              rw [groupValues_eq n 0]
              have h3 := commaLoop_fuel (isStart := isId) (item := pairItem) (by decide)
                (fun n i s _ _ => pairItem_fuel n i s)
                (fun n i s a s' h => (pairItem_sound n i s a s' h).choose_spec.1.len) n 0
                s.adv.adv.adv.adv (by omega)
              split
              · rename_i e heq; rw [heq] at h3; simpa using h3
              · simp
            · simp
        split
        · rename_i e heq; rw [heq] at hd; simpa using hd
        · split <;> simp
      · simp

theorem parseDecl_fuel {n : Nat} {s : PS} (h : s.rest.length ≤ n) :
    parseDecl n s ≠ .error .outOfFuel := by
  unfold parseDecl
  have := s.len_adv_le
  split
  · exact parseStruct_fuel h
  · exact parseEnum_fuel h
  · unfold parseAsync
    simp only
    split
    · exact parseFn_fuel (by omega)
    · exact parseRead_fuel (by omega)
    · simp
  · exact parseFn_fuel h
  · exact parseRead_fuel h
  · rename_i hk
    have h3 := (const_fuel n).1 s h (by rw [PS.rest_of_cur hk (by simp)]; simp)
    split
    · rename_i e heq; rw [heq] at h3; simpa using h3
    · simp
  · split
    · exact parseDirective_fuel h
    · simp
  · simp

theorem parseLoop_fuel (n : Nat) (s : PS) (hreg : s.registered = []) (h : s.rest.length < n) :
    parseLoop n s ≠ .error .outOfFuel := by
  induction n generalizing s with
  | zero => omega
  | succ n ih =>
    unfold parseLoop
    split
    · simp
    · have h1 := parseDecl_fuel (n := n) (s := s) (by omega)
      split
      · rename_i e heq; rw [heq] at h1; simpa using h1
      · rename_i d s1 heq
        obtain ⟨ts, hr, hreg', hg⟩ := parseDecl_sound hreg heq
        obtain ⟨t, us, rfl, -⟩ := declG_ne_nil hg
        have := congrArg List.length hr
        simp at this
        have h2 := ih s1 hreg' (by omega)
        split
        · rename_i e heq; rw [heq] at h2; simpa using h2
        · simp

end TPB
