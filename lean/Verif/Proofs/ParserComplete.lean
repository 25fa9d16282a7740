/-
Completeness of the parser: every derivation of the grammar (strict or lenient) is accepted, and the
parser returns the schema it denotes.
-/
import Verif.Proofs.ParserSound
namespace TPB
open Spec

/-- Tokens that may follow a type. -/
def FollowT (t : Token) : Prop := t ≠ .sym '<' ∧ ∀ n, t ≠ .id n

/-- Tokens that may follow an item of a bracketed list. -/
def Closer (t : Token) : Prop := t = .sym ',' ∨ t = .sym '}' ∨ t = .sym ')'

theorem Closer.followT {t : Token} (h : Closer t) : FollowT t := by
  rcases h with rfl | rfl | rfl <;> simp [FollowT]

theorem Spec.TypeG.ne_nil {q : Bool} {k : TypeKind} {ts : List Token} (h : TypeG q k ts) :
    (∀ t, k = .type t → ∃ m us, ts = .id m :: us) ∧ (∀ as, k = .args as → ∃ m us, ts = .id m :: us) := by
  induction h with
  | name n => exact ⟨fun _ _ => ⟨n, [], rfl⟩, by simp⟩
  | generic n as ts _ _ => exact ⟨fun _ _ => ⟨n, _, rfl⟩, by simp⟩
  | openBracket n ts _ _ _ => exact ⟨fun _ _ => ⟨n, _, rfl⟩, by simp⟩
  | argsOne t ts _ ih => exact ⟨by simp, fun _ _ => ih.1 t rfl⟩
  | argsMore t ts as us _ _ ih _ =>
    refine ⟨by simp, fun _ _ => ?_⟩
    obtain ⟨m, vs, rfl⟩ := ih.1 t rfl
    exact ⟨m, _, rfl⟩
  | openNil => simp
  | openMore => simp

theorem Spec.TypeG.starts {q : Bool} {t : TypeId} {ts : List Token} (h : TypeG q (.type t) ts) :
    ∃ m us, ts = .id m :: us := h.ne_nil.1 t rfl

/-- What completeness says for each kind of the type grammar. -/
def TypeOk (k : TypeKind) (ts : List Token) : Prop :=
  match k with
  | .type t => ∀ n (s : PS) r, ts.length ≤ n → FollowT (s.at r).cur →
      parseTypeId n (s.at (ts ++ r)) = .ok (t, s.at r)
  | .args as => ∀ n name gs x (s : PS) r, ts.length + 1 ≤ n →
      parseGenerics n name gs (s.at (x :: (ts ++ .sym '>' :: r))) = .ok (.generic name (gs ++ as), s.at r)
  | .openArgs => ∀ n name gs x (s : PS) r, ts.length + 1 ≤ n → FollowT (s.at r).cur →
      parseGenerics n name gs (s.at (x :: (ts ++ r))) = .ok (typeOfName name, s.at r)

theorem parseTypeId_starts {n : Nat} {s : PS} {m : String} {us : List Token} :
    parseTypeId (n + 1) (s.at (.id m :: us)) =
      if (s.at us).cur = .sym '<' then parseGenerics n m [] (s.at us) else .ok (nameType m, s.at us) := by
  simp only [parseTypeId, PS.at_cur, PS.at_adv]

theorem parseGenerics_starts {n : Nat} {s : PS} {name m : String} {gs : List TypeId} {x : Token}
    {us : List Token} :
    parseGenerics (n + 1) name gs (s.at (x :: .id m :: us)) =
      match parseTypeId n (s.at (.id m :: us)) with
      | .error e => .error e
      | .ok (t, s) =>
        if s.cur = .sym '>' then .ok (.generic name (gs ++ [t]), s.adv)
        else if s.cur = .sym ',' then parseGenerics n name (gs ++ [t]) s
        else .error (.unexpected s.cur) := by
  simp only [parseGenerics, PS.at_cur, PS.at_adv]
  generalize parseTypeId n _ = x
  cases x <;> rfl

theorem type_complete {q : Bool} {k : TypeKind} {ts : List Token} (h : TypeG q k ts) : TypeOk k ts := by
  induction h with
  | name m =>
    intro n s r hn hf
    obtain ⟨n, rfl⟩ : ∃ k, n = k + 1 := ⟨n - 1, by simp at hn; omega⟩
    simp only [List.cons_append, List.nil_append]
    rw [parseTypeId_starts, if_neg hf.1, nameType_eq]
  | generic m as ts _ ih =>
    intro n s r hn hf
    obtain ⟨n, rfl⟩ : ∃ k, n = k + 1 := ⟨n - 1, by simp at hn; omega⟩
    simp only [List.cons_append, List.append_assoc, List.nil_append]
    rw [parseTypeId_starts, if_pos (PS.at_cur _ _ _), ih n m [] (.sym '<') s r (by simp at hn; omega)]
    rfl
  | openBracket m ts _ _ ih =>
    intro n s r hn hf
    obtain ⟨n, rfl⟩ : ∃ k, n = k + 1 := ⟨n - 1, by simp at hn; omega⟩
    simp only [List.cons_append]
    rw [parseTypeId_starts, if_pos (PS.at_cur _ _ _), ih n m [] (.sym '<') s r (by simp at hn; omega) hf]
  | argsOne t ts ht ih =>
    intro n name gs x s r hn
    obtain ⟨n, rfl⟩ : ∃ k, n = k + 1 := ⟨n - 1, by omega⟩
    obtain ⟨m, us, rfl⟩ := ht.starts
    have := ih n s (.sym '>' :: r) (by omega) (by simp [FollowT])
    simp only [List.cons_append] at this ⊢
    rw [parseGenerics_starts, this]
    simp
  | argsMore t ts as us ht _ ih ih2 =>
    intro n name gs x s r hn
    obtain ⟨n, rfl⟩ : ∃ k, n = k + 1 := ⟨n - 1, by omega⟩
    obtain ⟨m, vs, rfl⟩ := ht.starts
    have := ih n s (.sym ',' :: (us ++ .sym '>' :: r)) (by simp at hn ⊢; omega) (by simp [FollowT])
    simp only [List.cons_append, List.append_assoc] at this ⊢
    rw [parseGenerics_starts, this]
    have := ih2 n name (gs ++ [t]) (.sym ',') s r (by simp at hn; omega)
    simp [this]
  | openNil =>
    intro n name gs x s r hn hf
    obtain ⟨n, rfl⟩ : ∃ k, n = k + 1 := ⟨n - 1, by omega⟩
    simp only [List.nil_append, parseGenerics, PS.at_adv]
    split
    · rename_i m hm; exact absurd hm (hf.2 m)
    · rw [nameType_eq]
  | openMore t ts us ht _ ih ih2 =>
    intro n name gs x s r hn hf
    obtain ⟨n, rfl⟩ : ∃ k, n = k + 1 := ⟨n - 1, by omega⟩
    obtain ⟨m, vs, rfl⟩ := ht.starts
    have := ih n s (.sym ',' :: (us ++ r)) (by simp at hn ⊢; omega) (by simp [FollowT])
    simp only [List.cons_append, List.append_assoc] at this ⊢
    rw [parseGenerics_starts, this]
    have := ih2 n name (gs ++ [t]) (.sym ',') s r (by simp at hn; omega) hf
    simp [this]

theorem parseTypeId_complete {q : Bool} {t : TypeId} {ts : List Token} (h : TypeG q (.type t) ts)
    {n : Nat} {s : PS} {r : List Token} (hn : ts.length ≤ n) (hf : FollowT (s.at r).cur) :
    parseTypeId n (s.at (ts ++ r)) = .ok (t, s.at r) := type_complete h n s r hn hf

theorem parsePosition_complete (v : Int) (s : PS) (r : List Token) :
    parsePosition (s.at (positionTokens v ++ r)) = .ok (positionOf v, s.at r) := by
  simp [parsePosition, positionTokens, asU32_eq]

theorem fieldItem_complete {q : Bool} (n i : Nat) (s : PS) (ts : List Token) (a : StructField)
    (r : List Token) (h : FieldG q i ts a) (hn : ts.length ≤ n) (hf : Closer (s.at r).cur) :
    fieldItem n i (s.at (ts ++ r)) = .ok (a, s.at r) := by
  cases h with
  | mk m t us ht =>
    simp only [fieldItem, List.cons_append, PS.at_cur, PS.at_adv]
    rw [parseTypeId_complete ht (by simp at hn; omega) hf.followT]
    simp

theorem argItem_complete {q : Bool} (n i : Nat) (s : PS) (ts : List Token) (a : FnArg)
    (r : List Token) (h : ArgG q i ts a) (hn : ts.length ≤ n) (hf : Closer (s.at r).cur) :
    argItem n i (s.at (ts ++ r)) = .ok (a, s.at r) := by
  cases h with
  | mk m t us ht =>
    simp only [argItem, List.cons_append, PS.at_cur, PS.at_adv]
    rw [parseTypeId_complete ht (by simp at hn; omega) hf.followT]
    simp

theorem numFieldItem_complete {q : Bool} (n i : Nat) (s : PS) (ts : List Token) (a : StructField)
    (r : List Token) (h : NumFieldG q i ts a) (hn : ts.length ≤ n) (hf : Closer (s.at r).cur) :
    numFieldItem n i (s.at (ts ++ r)) = .ok (a, s.at r) := by
  cases h with
  | mk v m t us ht =>
    simp only [numFieldItem, List.append_assoc]
    rw [parsePosition_complete]
    exact fieldItem_complete (q := q) n _ s (.id m :: .sym ':' :: us) _ r (.mk _ _ _ _ ht)
      (by simp at hn ⊢; omega) hf

theorem tupItem_complete {q : Bool} (n i : Nat) (s : PS) (ts : List Token) (a : TupleField)
    (r : List Token) (h : TupG q i ts a) (hn : ts.length ≤ n) (hf : Closer (s.at r).cur) :
    tupItem n i (s.at (ts ++ r)) = .ok (a, s.at r) := by
  cases h with
  | mk t _ ht =>
    simp only [tupItem]
    rw [parseTypeId_complete ht hn hf.followT]

theorem numTupItem_complete {q : Bool} (n i : Nat) (s : PS) (ts : List Token) (a : TupleField)
    (r : List Token) (h : NumTupG q i ts a) (hn : ts.length ≤ n) (hf : Closer (s.at r).cur) :
    numTupItem n i (s.at (ts ++ r)) = .ok (a, s.at r) := by
  cases h with
  | mk v t us ht =>
    simp only [numTupItem, List.append_assoc]
    rw [parsePosition_complete]
    exact tupItem_complete (q := q) n _ s us _ r (.mk _ _ _ ht) (by simp at hn; omega) hf

/-- The first token of a comma list, if any. -/
theorem commaList_starts {α : Type} {P : Nat → List Token → α → Prop} {isStart : Token → Bool}
    (hstart : ∀ i ts a, P i ts a → ∃ t us, ts = t :: us ∧ isStart t = true)
    {i : Nat} {ts : List Token} {as : List α} {e : Bool} (h : CommaList P i ts as e) :
    (as = [] ∧ ts = []) ∨ (as ≠ [] ∧ ∃ t us, ts = t :: us ∧ isStart t = true) := by
  cases h with
  | nil => exact .inl ⟨rfl, rfl⟩
  | last => rename_i hp; exact .inr ⟨by simp, hstart _ _ _ hp⟩
  | more =>
    rename_i hp _
    obtain ⟨t, vs, rfl, ht⟩ := hstart _ _ _ hp
    exact .inr ⟨by simp, t, _, rfl, ht⟩

theorem fieldG_starts {q : Bool} (i : Nat) (ts : List Token) (a : StructField) (h : FieldG q i ts a) :
    ∃ t us, ts = t :: us ∧ isId t = true := by
  cases h; exact ⟨_, _, rfl, rfl⟩

theorem argG_starts {q : Bool} (i : Nat) (ts : List Token) (a : FnArg) (h : ArgG q i ts a) :
    ∃ t us, ts = t :: us ∧ isId t = true := by
  cases h; exact ⟨_, _, rfl, rfl⟩

theorem numFieldG_starts {q : Bool} (i : Nat) (ts : List Token) (a : StructField) (h : NumFieldG q i ts a) :
    ∃ t us, ts = t :: us ∧ isHash t = true := by
  cases h; exact ⟨_, _, rfl, rfl⟩

theorem tupG_starts {q : Bool} (i : Nat) (ts : List Token) (a : TupleField) (h : TupG q i ts a) :
    ∃ t us, ts = t :: us ∧ isId t = true := by
  cases h with
  | mk t _ ht => obtain ⟨m, us, rfl⟩ := ht.starts; exact ⟨_, _, rfl, rfl⟩

theorem numTupG_starts {q : Bool} (i : Nat) (ts : List Token) (a : TupleField) (h : NumTupG q i ts a) :
    ∃ t us, ts = t :: us ∧ isHash t = true := by
  cases h; exact ⟨_, _, rfl, rfl⟩

theorem variantG_starts {q : Bool} (i : Nat) (ts : List Token) (a : EnumItem) (h : VariantG q i ts a) :
    ∃ t us, ts = t :: us ∧ isId t = true := by
  cases h <;> exact ⟨_, _, rfl, rfl⟩

theorem numVariantG_starts {q : Bool} (i : Nat) (ts : List Token) (a : EnumItem) (h : NumVariantG q i ts a) :
    ∃ t us, ts = t :: us ∧ isHash t = true := by
  cases h; exact ⟨_, _, rfl, rfl⟩

theorem pairG_starts (i : Nat) (ts : List Token) (a : IdValuePair) (h : PairG i ts a) :
    ∃ t us, ts = t :: us ∧ isId t = true := by
  cases h; exact ⟨_, _, rfl, rfl⟩

/-- A closing bracket. -/
def Bracket (t : Token) : Prop := t = .sym '}' ∨ t = .sym ')'

theorem Bracket.closer {t : Token} (h : Bracket t) : Closer t := Or.inr h

theorem Bracket.facts {t : Token} (h : Bracket t) :
    isId t = false ∧ isHash t = false ∧ t ≠ .sym ',' ∧ t ≠ .sym '#' := by
  rcases h with rfl | rfl <;> simp [isId, isHash]

theorem cur_isHash {s : PS} {t : Token} {us r : List Token} (h : isHash t = true) :
    (s.at (t :: us ++ r)).cur = .sym '#' := by simpa [isHash] using h

theorem cur_isId {s : PS} {t : Token} {us r : List Token} (h : isId t = true) :
    (s.at (t :: us ++ r)).cur ≠ .sym '#' := by
  cases t <;> simp [isId] at h
  simp

theorem structParams_complete {q : Bool} {n : Nat} {s : PS} {ts r : List Token} {fs : List StructField}
    (h : FieldsG q ts fs) (hn : ts.length < n) (hf : Bracket (s.at r).cur) :
    structParams n (s.at (ts ++ r)) = .ok (fs, s.at r) := by
  obtain ⟨f1, f2, f3, f4⟩ := hf.facts
  unfold structParams
  cases h with
  | plain e h =>
    have h1 : (s.at (ts ++ r)).cur ≠ .sym '#' := by
      rcases commaList_starts fieldG_starts h with ⟨-, rfl⟩ | ⟨-, t, us, rfl, ht⟩
      · exact f4
      · exact cur_isId ht
    rw [if_neg h1, structParamsNoPos_eq]
    exact commaLoop_complete Closer (.inl rfl) fieldItem_complete fieldG_starts _ _ _ _ h n s r hn
      (fun _ => f1) (fun _ => f3) hf.closer
  | numbered e h =>
    rcases commaList_starts numFieldG_starts h with ⟨rfl, rfl⟩ | ⟨-, t, us, hts, ht⟩
    · rw [List.nil_append, if_neg f4, structParamsNoPos_eq]
      obtain ⟨n, rfl⟩ : ∃ k, n = k + 1 := ⟨n - 1, by simp at hn; omega⟩
      unfold commaLoop
      simp [f1]
    · have h1 : (s.at (ts ++ r)).cur = .sym '#' := by rw [hts]; exact cur_isHash ht
      rw [if_pos h1, structParamsPos_eq n 0]
      exact commaLoop_complete Closer (.inl rfl) numFieldItem_complete numFieldG_starts _ _ _ _ h n s r hn
        (fun _ => f2) (fun _ => f3) hf.closer

theorem tupleParams_complete {q : Bool} {n : Nat} {s : PS} {ts r : List Token} {fs : List TupleField}
    (h : TupsG q ts fs) (hn : ts.length < n) (hf : Bracket (s.at r).cur) :
    tupleParams n (s.at (ts ++ r)) = .ok (fs, s.at r) := by
  obtain ⟨f1, f2, f3, f4⟩ := hf.facts
  unfold tupleParams
  cases h with
  | plain e h =>
    have h1 : (s.at (ts ++ r)).cur ≠ .sym '#' := by
      rcases commaList_starts tupG_starts h with ⟨-, rfl⟩ | ⟨-, t, us, rfl, ht⟩
      · exact f4
      · exact cur_isId ht
    rw [if_neg h1, tupleParamsNoPos_eq]
    exact commaLoop_complete Closer (.inl rfl) tupItem_complete tupG_starts _ _ _ _ h n s r hn
      (fun _ => f1) (fun _ => f3) hf.closer
  | numbered e h =>
    rcases commaList_starts numTupG_starts h with ⟨rfl, rfl⟩ | ⟨-, t, us, hts, ht⟩
    · rw [List.nil_append, if_neg f4, tupleParamsNoPos_eq]
      obtain ⟨n, rfl⟩ : ∃ k, n = k + 1 := ⟨n - 1, by simp at hn; omega⟩
      unfold commaLoop
      simp [f1]
    · have h1 : (s.at (ts ++ r)).cur = .sym '#' := by rw [hts]; exact cur_isHash ht
      rw [if_pos h1, tupleParamsPos_eq n 0]
      exact commaLoop_complete Closer (.inl rfl) numTupItem_complete numTupG_starts _ _ _ _ h n s r hn
        (fun _ => f2) (fun _ => f3) hf.closer

theorem variantItem_complete {q : Bool} (n i : Nat) (s : PS) (ts : List Token) (a : EnumItem)
    (r : List Token) (h : VariantG q i ts a) (hn : ts.length ≤ n) (hf : Closer (s.at r).cur) :
    variantItem n i (s.at (ts ++ r)) = .ok (a, s.at r) := by
  cases h with
  | empty m =>
    simp only [variantItem, List.cons_append, List.nil_append, PS.at_cur, PS.at_adv, enumItemBody]
    have h1 : (s.at r).cur ≠ .sym '(' := by rcases hf with h | h | h <;> rw [h] <;> simp
    have h2 : (s.at r).cur ≠ .sym '{' := by rcases hf with h | h | h <;> rw [h] <;> simp
    rw [if_neg h1, if_neg h2]
  | tuple m us fs hg =>
    simp only [variantItem, List.cons_append, PS.at_cur, PS.at_adv, enumItemBody,
      if_true, parseTupleEnum, ne_eq, not_true_eq_false, if_false, List.append_assoc, List.nil_append]
    rw [tupleParams_complete hg (by simp at hn; omega) (by simp [Bracket])]
    simp
  | struct m us fs hg =>
    simp only [variantItem, List.cons_append, PS.at_cur, PS.at_adv, enumItemBody, parseStructEnum,
      if_true, ne_eq, not_true_eq_false, if_false, List.append_assoc, List.nil_append]
    rw [structParams_complete hg (by simp at hn; omega) (by simp [Bracket])]
    simp

theorem numVariantItem_complete {q : Bool} (n i : Nat) (s : PS) (ts : List Token) (a : EnumItem)
    (r : List Token) (h : NumVariantG q i ts a) (hn : ts.length ≤ n) (hf : Closer (s.at r).cur) :
    numVariantItem n i (s.at (ts ++ r)) = .ok (a, s.at r) := by
  cases h with
  | mk =>
    rename_i v us ht
    simp only [numVariantItem, List.append_assoc]
    rw [parsePosition_complete]
    exact variantItem_complete n _ s us _ r ht (by simp at hn; omega) hf

theorem enumItems_complete {q : Bool} {n : Nat} {s : PS} {ts r : List Token} {is : List EnumItem}
    (h : VariantsG q ts is) (hn : ts.length < n) (hf : Bracket (s.at r).cur) :
    enumItems n (s.at (ts ++ r)) = .ok (is, s.at r) := by
  obtain ⟨f1, f2, f3, f4⟩ := hf.facts
  unfold enumItems
  cases h with
  | plain e h =>
    have h1 : (s.at (ts ++ r)).cur ≠ .sym '#' := by
      rcases commaList_starts variantG_starts h with ⟨-, rfl⟩ | ⟨-, t, us, rfl, ht⟩
      · exact f4
      · exact cur_isId ht
    rw [if_neg h1, enumItemsNoPos_eq]
    exact commaLoop_complete Closer (.inl rfl) variantItem_complete variantG_starts _ _ _ _ h n s r hn
      (fun _ => f1) (fun _ => f3) hf.closer
  | numbered e h =>
    rcases commaList_starts numVariantG_starts h with ⟨rfl, rfl⟩ | ⟨-, t, us, hts, ht⟩
    · rw [List.nil_append, if_neg f4, enumItemsNoPos_eq]
      obtain ⟨n, rfl⟩ : ∃ k, n = k + 1 := ⟨n - 1, by simp at hn; omega⟩
      unfold commaLoop
      simp [f1]
    · have h1 : (s.at (ts ++ r)).cur = .sym '#' := by rw [hts]; exact cur_isHash ht
      rw [if_pos h1, enumItemsPos_eq n 0]
      exact commaLoop_complete Closer (.inl rfl) numVariantItem_complete numVariantG_starts _ _ _ _ h n s r hn
        (fun _ => f2) (fun _ => f3) hf.closer

/-- The first token of the fields of a struct declaration. -/
theorem fields_start {q : Bool} {ts : List Token} {fs : List StructField} (h : FieldsG q ts fs)
    (hne : fs ≠ []) : (∃ us, ts = .sym '#' :: us) ∨ ∃ m us, ts = .id m :: us := by
  cases h with
  | plain e h =>
    rcases commaList_starts fieldG_starts h with ⟨h, -⟩ | ⟨-, t, us, rfl, ht⟩
    · exact absurd h hne
    · cases t <;> simp [isId] at ht
      exact .inr ⟨_, _, rfl⟩
  | numbered e h =>
    rcases commaList_starts numFieldG_starts h with ⟨h, -⟩ | ⟨-, t, us, rfl, ht⟩
    · exact absurd h hne
    · simp [isHash] at ht; subst ht; exact .inl ⟨_, rfl⟩

theorem variants_start {q : Bool} {ts : List Token} {is : List EnumItem} (h : VariantsG q ts is)
    (hne : is ≠ []) : (∃ us, ts = .sym '#' :: us) ∨ ∃ m us, ts = .id m :: us := by
  cases h with
  | plain e h =>
    rcases commaList_starts variantG_starts h with ⟨h, -⟩ | ⟨-, t, us, rfl, ht⟩
    · exact absurd h hne
    · cases t <;> simp [isId] at ht
      exact .inr ⟨_, _, rfl⟩
  | numbered e h =>
    rcases commaList_starts numVariantG_starts h with ⟨h, -⟩ | ⟨-, t, us, rfl, ht⟩
    · exact absurd h hne
    · simp [isHash] at ht; subst ht; exact .inl ⟨_, rfl⟩

/-- The state after a method declaration. -/
def PS.atF (s : PS) (k : Nat) (r : List Token) : PS := { s with rest := r, lastFn := k }

theorem fnTail_complete {q : Bool} {n : Nat} {id : String} {args : List FnArg} {rd a : Bool} {s : PS}
    {ts r : List Token} {ret : Option TypeId} (hreg : s.registered = []) (h : RetG q ts ret)
    (hn : ts.length ≤ n) :
    fnTail n id args rd a (s.at (ts ++ r)) =
      .ok (.fn ⟨id, s.lastFn, args, ret, rd, a⟩, s.atF (s.lastFn + 1) r) := by
  cases h with
  | none =>
    simp only [fnTail, List.cons_append, List.nil_append, PS.at_cur, if_true, PS.at_adv]
    rw [nextFn_empty (by exact hreg)]
    rfl
  | some t us hg =>
    simp only [fnTail, List.cons_append, List.nil_append, PS.at_cur, PS.at_adv, List.append_assoc]
    rw [parseTypeId_complete hg (by simp at hn; omega) (by simp [FollowT])]
    rw [if_neg (by simp)]
    simp only [PS.at_cur, PS.at_adv, ne_eq, not_true_eq_false, if_false]
    rw [nextFn_empty (s := s.at r) hreg]
    rfl

theorem parseFn_complete {q : Bool} {n : Nat} {a : Bool} {name : String} {s : PS}
    {ts us r : List Token} {as : List FnArg} {e : Bool} {ret : Option TypeId} (hreg : s.registered = [])
    (h : CommaList (ArgG q) 0 ts as e) (h2 : RetG q us ret) (hn : ts.length + us.length < n) :
    parseFn n a (s.at (.kwFn :: .id name :: .sym '(' :: (ts ++ .sym ')' :: (us ++ r)))) =
      .ok (.fn ⟨name, s.lastFn, as, ret, false, a⟩, s.atF (s.lastFn + 1) r) := by
  have hl := commaLoop_complete Closer (.inl rfl) argItem_complete argG_starts _ _ _ _ h n s
    (.sym ')' :: (us ++ r)) (by omega) (by simp [isId]) (by simp) (by simp [Closer])
  simp only [parseFn, PS.at_cur, PS.at_adv, ne_eq, not_true_eq_false, if_false]
  rw [fnArgs_eq n 0, hl]
  simp only [PS.at_cur, PS.at_adv, ne_eq, not_true_eq_false, if_false]
  rw [fnTail_complete hreg h2 (by omega)]

theorem parseRead_complete {q : Bool} {n : Nat} {a : Bool} {name : String} {s : PS}
    {us r : List Token} {ret : Option TypeId} (hreg : s.registered = [])
    (h2 : RetG q us ret) (hn : us.length < n) :
    parseRead n a (s.at (.kwRead :: .id name :: (us ++ r))) =
      .ok (.fn ⟨name, s.lastFn, [], ret, true, a⟩, s.atF (s.lastFn + 1) r) := by
  simp only [parseRead, PS.at_cur, PS.at_adv, ne_eq, not_true_eq_false, if_false]
  rw [fnTail_complete hreg h2 (by omega)]

theorem constItems_complete {q : Bool} {ts : List Token} {is : List ConstItem} (h : ConstG q ts is) :
    ∀ n (s : PS) r, ts.length < n → constItems n (s.at (ts ++ .sym '}' :: r)) = .ok (is, s.at (.sym '}' :: r)) := by
  induction h with
  | nil =>
    intro n s r hn
    obtain ⟨n, rfl⟩ : ∃ k, n = k + 1 := ⟨n - 1, by omega⟩
    simp [constItems]
  | value m t l ts us is ht _ ih =>
    intro n s r hn
    obtain ⟨n, rfl⟩ : ∃ k, n = k + 1 := ⟨n - 1, by omega⟩
    simp only [List.length_cons, List.length_append] at hn
    have h1 := parseTypeId_complete ht (n := n) (s := s)
      (r := .sym '=' :: .lit l :: .sym ';' :: (us ++ .sym '}' :: r)) (by omega) (by simp [FollowT])
    have h2 := ih n s r (by omega)
    simp only [constItems, List.cons_append, List.append_assoc, PS.at_cur, PS.at_adv]
    rw [h1]
    simp [parseConstValue, h2, literalType_eq]
  | node m ts us is js _ _ ih ih2 =>
    intro n s r hn
    obtain ⟨n, rfl⟩ : ∃ k, n = k + 1 := ⟨n - 1, by omega⟩
    simp only [List.length_cons, List.length_append] at hn
    obtain ⟨n, rfl⟩ : ∃ k, n = k + 1 := ⟨n - 1, by omega⟩
    have h1 := ih n s (us ++ .sym '}' :: r) (by omega)
    have h2 := ih2 (n + 1) s r (by omega)
    simp only [constItems, List.cons_append, List.append_assoc, PS.at_cur, parseConst, PS.at_adv]
    rw [h1]
    simp only [PS.at_cur, PS.at_adv, ne_eq, not_true_eq_false, if_false, reduceCtorEq, not_false_eq_true,
      and_self, if_true]
    rw [← constItems.eq_2] at *
    simp [h2]

theorem pairItem_complete (n i : Nat) (s : PS) (ts : List Token) (a : IdValuePair)
    (r : List Token) (h : PairG i ts a) (_ : ts.length ≤ n) (_ : True) :
    pairItem n i (s.at (ts ++ r)) = .ok (a, s.at r) := by
  cases h
  simp [pairItem, parseConstValue, literalType_eq]

theorem parseDecl_complete {q : Bool} {k k' : Nat} {ts : List Token} {d : ASTNode} (h : DeclG q k ts d k')
    {n : Nat} {s : PS} {r : List Token} (hreg : s.registered = []) (hk : s.lastFn = k) (hn : ts.length ≤ n) :
    parseDecl n (s.at (ts ++ r)) = .ok (d, s.atF k' r) := by
  subst hk
  cases h with
  | unit m => simp [parseDecl, parseStruct]; rfl
  | struct m us fs hg hne =>
    simp only [List.cons_append, List.append_assoc, List.nil_append, parseDecl, PS.at_cur, parseStruct,
      PS.at_adv, ne_eq, not_true_eq_false, if_false]
    have hb : structBody n m (s.at (us ++ .sym '}' :: r)) = .ok (.struct ⟨m, fs, true, true⟩, s.at r) := by
      unfold structBody
      rw [structParams_complete hg (by simp at hn; omega) (by simp [Bracket])]
      simp
    rcases fields_start hg hne with ⟨vs, rfl⟩ | ⟨m', vs, rfl⟩
    · simp only [List.cons_append] at hb ⊢
      simp [hb]; rfl
    · simp only [List.cons_append] at hb ⊢
      simp [hb]; rfl
  | enum m us is hg hne =>
    simp only [List.cons_append, List.append_assoc, List.nil_append, parseDecl, PS.at_cur, parseEnum,
      PS.at_adv, ne_eq, not_true_eq_false, if_false]
    have hb : enumBody n m (s.at (us ++ .sym '}' :: r)) = .ok (.enum ⟨m, is⟩, s.at r) := by
      unfold enumBody
      rw [enumItems_complete hg (by simp at hn; omega) (by simp [Bracket])]
      simp
    rcases variants_start hg hne with ⟨vs, rfl⟩ | ⟨m', vs, rfl⟩
    · simp only [List.cons_append] at hb ⊢
      simp [hb]; rfl
    · simp only [List.cons_append] at hb ⊢
      simp [hb]; rfl
  | fn a m us vs as e ret hg hg2 =>
    cases a with
    | true =>
      simp only [asyncTokens, List.cons_append, List.nil_append, List.append_assoc, parseDecl, PS.at_cur,
        parseAsync, PS.at_adv]
      exact parseFn_complete hreg hg hg2 (by simp [asyncTokens] at hn; omega)
    | false =>
      simp only [asyncTokens, List.cons_append, List.nil_append, List.append_assoc, parseDecl, PS.at_cur]
      exact parseFn_complete hreg hg hg2 (by simp [asyncTokens] at hn; omega)
  | read a m vs ret hg2 =>
    cases a with
    | true =>
      simp only [asyncTokens, List.cons_append, List.nil_append, List.append_assoc, parseDecl, PS.at_cur,
        parseAsync, PS.at_adv]
      exact parseRead_complete hreg hg2 (by simp [asyncTokens] at hn; omega)
    | false =>
      simp only [asyncTokens, List.cons_append, List.nil_append, List.append_assoc, parseDecl, PS.at_cur]
      exact parseRead_complete hreg hg2 (by simp [asyncTokens] at hn; omega)
  | const m us is hg =>
    obtain ⟨n, rfl⟩ : ∃ k, n = k + 1 := ⟨n - 1, by simp at hn; omega⟩
    simp only [List.cons_append, List.append_assoc, List.nil_append, parseDecl, PS.at_cur, parseConst,
      PS.at_adv, ne_eq, not_true_eq_false, if_false]
    rw [constItems_complete hg n s r (by simp at hn; omega)]
    simp; rfl
  | valueDirective m l =>
    simp [parseDecl, parseDirective, parseValueDirective, parseConstValue, literalType_eq]
    rfl
  | groupDirective m us ps e x hg hx =>
    have hl := commaLoop_complete (fun _ => True) trivial pairItem_complete pairG_starts _ _ _ _ hg n s
      (x :: .sym ']' :: r) (by simp at hn; omega)
      (by
        intro he
        cases hx with
        | paren => simp [isId]
        | other _ _ h1 h2 =>
          simp only [PS.at_cur]
          cases x <;> simp [isId]
          exact h2 he _ rfl)
      (by
        intro he
        cases hx with
        | paren => simp
        | other _ _ h1 h2 => exact h1 he)
      trivial
    simp only [List.cons_append, List.append_assoc, List.nil_append, parseDecl, PS.at_cur, if_true,
      parseDirective, PS.at_adv, ne_eq, not_true_eq_false, if_false, parseGroupDirective]
    rw [groupValues_eq n 0, hl]
    simp; rfl

theorem declG_ne_nil {q : Bool} {k k' : Nat} {ts : List Token} {d : ASTNode} (h : DeclG q k ts d k') :
    ∃ t us, ts = t :: us ∧ t ≠ .eof := by
  cases h <;> first | exact ⟨_, _, rfl, by simp⟩ | skip
  · rename_i a _ _ _ _ _ _ _ _; cases a <;> exact ⟨_, _, rfl, by simp⟩
  · rename_i a _ _ _ _; cases a <;> exact ⟨_, _, rfl, by simp⟩

theorem parseLoop_complete {q : Bool} {k k' : Nat} {ts : List Token} {ds : List ASTNode}
    (h : SchemaG q k ts ds k') : ∀ (n : Nat) (s : PS) (r : List Token), s.registered = [] → s.lastFn = k →
      ts.length < n → (s.at r).cur = .eof →
      parseLoop n (s.at (ts ++ r)) = .ok (ds, s.atF k' r) := by
  induction h with
  | nil k =>
    intro n s r hreg hk hn hr
    obtain ⟨n, rfl⟩ : ∃ k, n = k + 1 := ⟨n - 1, by omega⟩
    subst hk
    simp only [parseLoop, List.nil_append, hr, if_true]
    rfl
  | cons k k' k'' ts us d ds hd _ ih =>
    intro n s r hreg hk hn hr
    obtain ⟨n, rfl⟩ : ∃ k, n = k + 1 := ⟨n - 1, by omega⟩
    simp only [List.length_append] at hn
    obtain ⟨t, vs, hts, ht⟩ := declG_ne_nil hd
    have hne : (s.at (ts ++ (us ++ r))).cur ≠ .eof := by rw [hts]; exact ht
    have hlen : 0 < ts.length := by rw [hts]; simp
    have h1 := parseDecl_complete hd (n := n) (s := s) (r := us ++ r) hreg hk (by omega)
    have h2 := ih n (s.atF k' r) r hreg rfl (by omega) hr
    simp only [parseLoop, List.append_assoc]
    rw [if_neg hne, h1]
    have h3 : s.atF k' (us ++ r) = (s.atF k' r).at (us ++ r) := rfl
    rw [h3]
    simp only [h2]
    rfl

end TPB
