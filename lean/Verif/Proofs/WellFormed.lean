/-
Derivable schemas are well formed, and every well-formed schema is derivable in the strict grammar.
-/
import Verif.Spec.WellFormed
import Verif.Proofs.LexerLayout
namespace TPB
open Spec

/-! ### Derivable implies well formed -/

theorem typeG_wf {q : Bool} {k : TypeKind} {ts : List Token} (h : TypeG q k ts) :
    match k with
    | .type t => WFType t
    | .args as => as ≠ [] ∧ ∀ a ∈ as, WFType a
    | .openArgs => True := by
  induction h with
  | name n => exact .name n
  | generic n as ts _ ih => exact .generic n as ih.1 ih.2
  | openBracket n ts _ _ _ => exact .name n
  | argsOne t ts _ ih => exact ⟨by simp, by simpa using ih⟩
  | argsMore t ts as us _ _ ih ih2 =>
    refine ⟨by simp, ?_⟩
    intro a ha
    rcases List.mem_cons.1 ha with rfl | ha
    · exact ih
    · exact ih2.2 a ha
  | openNil => trivial
  | openMore => trivial

theorem commaList_all {α : Type} {P : Nat → List Token → α → Prop} {Q : α → Prop}
    (hP : ∀ i ts a, P i ts a → Q a) {i : Nat} {ts : List Token} {as : List α} {e : Bool}
    (h : CommaList P i ts as e) : ∀ a ∈ as, Q a := by
  induction h with
  | nil => simp
  | last i ts a hp => simpa using hP _ _ _ hp
  | more i ts us a as e hp _ ih =>
    intro b hb
    rcases List.mem_cons.1 hb with rfl | hb
    · exact hP _ _ _ hp
    · exact ih b hb

theorem commaList_positions {α : Type} {P : Nat → List Token → α → Prop} (pos : α → Nat)
    (hP : ∀ i ts a, P i ts a → pos a = i) {i : Nat} {ts : List Token} {as : List α} {e : Bool}
    (h : CommaList P i ts as e) : as.map pos = List.range' i as.length := by
  induction h with
  | nil => simp
  | last i ts a hp => simp [hP _ _ _ hp]
  | more i ts us a as e hp _ ih =>
    simp [hP _ _ _ hp, ih, List.range'_succ]

theorem positionOf_lt (v : Int) : positionOf v < 2 ^ 32 := by
  unfold positionOf
  omega

theorem fieldsG_wf {q : Bool} {ts : List Token} {fs : List StructField} (h : FieldsG q ts fs) : WFFields fs := by
  cases h with
  | plain e h =>
    refine ⟨.inl ?_, commaList_all (fun i ts a h => ?_) h⟩
    · rw [commaList_positions (·.position) (fun i ts a h => by cases h; rfl) h]
      simp [List.range_eq_range']
    · cases h with | mk _ _ _ ht => exact typeG_wf ht
  | numbered e h =>
    refine ⟨.inr ?_, commaList_all (fun i ts a h => ?_) h⟩
    · have := commaList_all (Q := fun f : StructField => f.position < 2 ^ 32)
        (fun i ts a h => by cases h; exact positionOf_lt _) h
      simpa using this
    · cases h with | mk _ _ _ _ ht => exact typeG_wf ht

theorem tupsG_wf {q : Bool} {ts : List Token} {fs : List TupleField} (h : TupsG q ts fs) : WFTups fs := by
  cases h with
  | plain e h =>
    refine ⟨.inl ?_, commaList_all (fun i ts a h => ?_) h⟩
    · rw [commaList_positions (·.position) (fun i ts a h => by cases h; rfl) h]
      simp [List.range_eq_range']
    · cases h with | mk _ _ ht => exact typeG_wf ht
  | numbered e h =>
    refine ⟨.inr ?_, commaList_all (fun i ts a h => ?_) h⟩
    · have := commaList_all (Q := fun f : TupleField => f.position < 2 ^ 32)
        (fun i ts a h => by cases h; exact positionOf_lt _) h
      simpa using this
    · cases h with | mk _ _ _ ht => exact typeG_wf ht

theorem variantG_wf {q : Bool} {p : Nat} {ts : List Token} {it : EnumItem} (h : VariantG q p ts it) :
    WFItem it ∧ it.position = p := by
  cases h with
  | empty => exact ⟨trivial, rfl⟩
  | tuple _ _ _ h => exact ⟨tupsG_wf h, rfl⟩
  | struct _ _ _ h => exact ⟨fieldsG_wf h, rfl⟩

theorem variantsG_wf {q : Bool} {ts : List Token} {is : List EnumItem} (h : VariantsG q ts is) :
    PosOk (is.map (·.position)) ∧ ∀ i ∈ is, WFItem i := by
  cases h with
  | plain e h =>
    refine ⟨.inl ?_, commaList_all (Q := WFItem) (fun i ts a h => (variantG_wf h).1) h⟩
    rw [commaList_positions (·.position) (fun i ts a h => (variantG_wf h).2) h]
    simp [List.range_eq_range']
  | numbered e h =>
    refine ⟨.inr ?_, commaList_all (Q := WFItem) (fun i ts a h => ?_) h⟩
    · have := commaList_all (Q := fun f : EnumItem => f.position < 2 ^ 32)
        (fun i ts a h => by
          cases h with
          | mk v it ts' h' => rw [(variantG_wf h').2]; exact positionOf_lt _) h
      simpa using this
    · cases h with
      | mk _ _ _ h' => exact (variantG_wf h').1

theorem constOf_wf (l : Literal) : WFConst (constOf l) := by
  cases l <;> rfl

theorem constG_wf {q : Bool} {ts : List Token} {is : List ConstItem} (h : ConstG q ts is) :
    ∀ i ∈ is, WFConstItem i := by
  induction h with
  | nil => simp
  | value n t l ts us is ht _ ih =>
    intro i hi
    rcases List.mem_cons.1 hi with rfl | hi
    · exact .value _ _ _ (typeG_wf ht) (constOf_wf l)
    · exact ih i hi
  | node n ts us is js _ _ ih ih2 =>
    intro i hi
    rcases List.mem_cons.1 hi with rfl | hi
    · exact .node _ _ ih
    · exact ih2 i hi

theorem declG_wf {q : Bool} {k k' : Nat} {ts : List Token} {d : ASTNode} (h : DeclG q k ts d k') :
    WFDecl k d ∧ k' = k + fnCount d := by
  have retwf : ∀ {us : List Token} {r : Option TypeId}, RetG q us r → ∀ t ∈ r, WFType t := by
    intro us r h
    cases h with
    | none => simp
    | some t ts ht => intro t' h'; simp at h'; subst h'; exact typeG_wf ht
  cases h with
  | unit => exact ⟨⟨⟨.inl rfl, by simp⟩, rfl, rfl⟩, rfl⟩
  | struct n ts fs h _ => exact ⟨⟨fieldsG_wf h, rfl, rfl⟩, rfl⟩
  | enum n ts is h hne => exact ⟨⟨hne, variantsG_wf h⟩, rfl⟩
  | fn a n ts us as e r h h2 =>
    exact ⟨⟨rfl, commaList_all (fun i ts a h => by cases h with | mk _ _ _ ht => exact typeG_wf ht) h,
      retwf h2, by simp⟩, rfl⟩
  | read a n us r h2 => exact ⟨⟨rfl, by simp, retwf h2, by simp⟩, rfl⟩
  | const n ts is h => exact ⟨constG_wf h, rfl⟩
  | valueDirective n l => exact ⟨constOf_wf l, rfl⟩
  | groupDirective n ts ps e x h _ =>
    exact ⟨commaList_all (fun i ts a h => by cases h; exact constOf_wf _) h, rfl⟩

theorem schemaG_wf {q : Bool} {k k' : Nat} {ts : List Token} {ds : List ASTNode}
    (h : SchemaG q k ts ds k') : WFSchema k ds ∧ k' = k + (ds.map fnCount).sum := by
  induction h with
  | nil => exact ⟨trivial, by simp⟩
  | cons k k' k'' ts us d ds hd _ ih =>
    obtain ⟨h1, rfl⟩ := declG_wf hd
    exact ⟨⟨h1, ih.1⟩, by rw [ih.2]; simp; omega⟩

/-! ### Well formed implies derivable, with legal tokens if the names and literals are legal -/

/-- Cases for `typeOfName`. -/
theorem typeOfName_cases (n : String) {Q : String → TypeId → Prop}
    (hb : ∀ p ∈ builtinTypes, Q p.1 p.2) (ho : Q n (.other n)) : Q n (typeOfName n) := by
  unfold typeOfName
  cases h : builtinTypes.lookup n with
  | none => exact ho
  | some t =>
    have : ∀ l : List (String × TypeId), l.lookup n = some t → (n, t) ∈ l := by
      intro l
      induction l with
      | nil => simp
      | cons p l ih =>
        obtain ⟨a, b⟩ := p
        rw [List.lookup_cons]
        by_cases hn : n = a
        · subst hn; simp; exact fun h => .inl h.symm
        · have : (n == a) = false := by simpa using hn
          rw [this]; intro h; exact List.mem_cons_of_mem _ (ih h)
    exact hb (n, t) (this _ h)

theorem typeOfName_name (n : String) : (match typeOfName n with
      | .integer i _ _ => i | .number i _ => i | .bool i => i | .char i => i | .generic i _ => i
      | .other i => i) = n := by
  refine typeOfName_cases n (Q := fun n t => (match t with
      | .integer i _ _ => i | .number i _ => i | .bool i => i | .char i => i | .generic i _ => i
      | .other i => i) = n) ?_ rfl
  simp [builtinTypes]

theorem legal_typeOfName {n m : String} (h : typeOfName n = typeOfName m) : n = m := by
  rw [← typeOfName_name n, ← typeOfName_name m, h]

theorem typeOfName_ne_generic (n m : String) (as : List TypeId) : typeOfName n ≠ .generic m as :=
  typeOfName_cases n (Q := fun _ t => t ≠ .generic m as) (by simp [builtinTypes]) (by simp)

theorem legalType_name {n : String} (h : LegalType (typeOfName n)) : LegalName n := by
  generalize ht : typeOfName n = t at h
  cases h with
  | name m hm => rw [legal_typeOfName ht]; exact hm
  | generic m as hm _ => exact absurd ht (typeOfName_ne_generic n m as)

theorem wfType_typeG {t : TypeId} (h : WFType t) :
    ∃ ts, TypeG false (.type t) ts ∧ (LegalType t → ∀ x ∈ ts, LegalToken x) := by
  induction h with
  | name n => exact ⟨_, .name n, fun h => by simpa [LegalToken] using legalType_name h⟩
  | generic n as hne _ ih =>
    have key : ∀ as : List TypeId, as ≠ [] →
        (∀ a ∈ as, ∃ ts, TypeG false (.type a) ts ∧ (LegalType a → ∀ x ∈ ts, LegalToken x)) →
        ∃ ts, TypeG false (.args as) ts ∧ ((∀ a ∈ as, LegalType a) → ∀ x ∈ ts, LegalToken x) := by
      intro as
      induction as with
      | nil => simp
      | cons a as ih =>
        intro _ h
        obtain ⟨ts, h1, h2⟩ := h a (by simp)
        by_cases hn : as = []
        · subst hn
          exact ⟨ts, .argsOne _ _ h1, fun h => h2 (h a (by simp))⟩
        · obtain ⟨us, h3, h4⟩ := ih hn (fun b hb => h b (by simp [hb]))
          refine ⟨_, .argsMore _ _ _ _ h1 h3, fun h => ?_⟩
          have l1 := h2 (h a (by simp))
          have l2 := h4 (fun b hb => h b (by simp [hb]))
          intro x hx
          simp only [List.mem_append, List.mem_cons] at hx
          rcases hx with hx | rfl | hx
          · exact l1 x hx
          · simp [LegalToken]
          · exact l2 x hx
    obtain ⟨ts, h1, h2⟩ := key as hne ih
    refine ⟨_, .generic _ _ _ h1, fun h => ?_⟩
    generalize ht : TypeId.generic n as = t at h
    cases h with
    | name m hm => exact absurd ht.symm (typeOfName_ne_generic m n as)
    | generic m bs hm hbs =>
      simp only [TypeId.generic.injEq] at ht
      obtain ⟨rfl, rfl⟩ := ht
      intro x hx
      simp only [List.mem_cons, List.mem_append, List.not_mem_nil, or_false] at hx
      rcases hx with rfl | rfl | hx | rfl
      · exact hm
      · simp [LegalToken]
      · exact h2 hbs x hx
      · simp [LegalToken]

/-- A comma list exists as soon as every item has a form. -/
theorem commaList_exists {α : Type} {P : Nat → List Token → α → Prop} {L : α → Prop} :
    ∀ (as : List α) (i : Nat),
      (∀ j (a : α), as[j]? = some a → ∃ ts, P (i + j) ts a ∧ (L a → ∀ x ∈ ts, LegalToken x)) →
      ∃ ts e, CommaList P i ts as e ∧ ((∀ a ∈ as, L a) → ∀ x ∈ ts, LegalToken x)
  | [], i, _ => ⟨[], true, .nil i, by simp⟩
  | [a], i, h => by
    obtain ⟨ts, h1, h2⟩ := h 0 a (by simp)
    exact ⟨ts, false, .last _ _ _ h1, fun h => h2 (h a (by simp))⟩
  | a :: b :: as, i, h => by
    obtain ⟨ts, h1, h2⟩ := h 0 a (by simp)
    obtain ⟨us, e, h3, h4⟩ := commaList_exists (b :: as) (i + 1) (fun j c hj => by
      obtain ⟨ts, g1, g2⟩ := h (j + 1) c (by simpa using hj)
      exact ⟨ts, by rw [show i + 1 + j = i + (j + 1) by omega]; exact g1, g2⟩)
    refine ⟨_, e, .more _ _ _ _ _ _ h1 h3, fun h => ?_⟩
    have l1 := h2 (h a (by simp))
    have l2 := h4 (fun b hb => h b (by simp at hb ⊢; exact .inr hb))
    intro x hx
    simp only [List.mem_append, List.mem_cons] at hx
    rcases hx with hx | rfl | hx
    · exact l1 x hx
    · simp [LegalToken]
    · exact l2 x hx

theorem positionOf_small (p : Nat) (h : p < 2 ^ 32) : positionOf (p : Int) = p := by
  unfold positionOf
  omega

theorem positionTokens_legal (p : Nat) (h : p < 2 ^ 32) : ∀ x ∈ positionTokens (p : Int), LegalToken x := by
  intro x hx
  simp [positionTokens] at hx
  rcases hx with rfl | rfl | rfl | rfl
  · simp [LegalToken]
  · simp [LegalToken]
  · simp [LegalToken, LegalLit]; omega
  · simp [LegalToken]

theorem pos_of_range {α : Type} {pos : α → Nat} {as : List α}
    (h : as.map pos = List.range (as.map pos).length) (j : Nat) (a : α) (ha : as[j]? = some a) : pos a = j := by
  obtain ⟨hj, rfl⟩ := List.getElem?_eq_some_iff.1 ha
  have h2 : (as.map pos)[j]? = (List.range (as.map pos).length)[j]? := by rw [← h]
  rw [List.getElem?_map, List.getElem?_range (by simpa using hj)] at h2
  simpa [hj] using h2

theorem mem_of_getElem? {α : Type} {as : List α} {j : Nat} {a : α} (h : as[j]? = some a) : a ∈ as :=
  List.mem_of_getElem? h

theorem wfFields_fieldsG {fs : List StructField} (h : WFFields fs) : ∃ ts, FieldsG false ts fs ∧
    ((∀ f ∈ fs, LegalName f.name ∧ LegalType f.typeId) → ∀ x ∈ ts, LegalToken x) := by
  obtain ⟨hp | hp, ht⟩ := h
  · obtain ⟨ts, e, h1, h2⟩ := commaList_exists (P := FieldG false)
      (L := fun f : StructField => LegalName f.name ∧ LegalType f.typeId) fs 0 (fun j a hj => by
        obtain ⟨us, g1, g2⟩ := wfType_typeG (ht a (mem_of_getElem? hj))
        have := pos_of_range hp j a hj
        obtain ⟨p, n, t⟩ := a
        simp only at this; subst this
        refine ⟨_, by rw [Nat.zero_add]; exact .mk _ _ _ _ g1, fun hL x hx => ?_⟩
        simp only [List.mem_cons] at hx
        rcases hx with rfl | rfl | hx
        · exact hL.1
        · simp [LegalToken]
        · exact g2 hL.2 x hx)
    exact ⟨ts, .plain _ _ _ h1, h2⟩
  · obtain ⟨ts, e, h1, h2⟩ := commaList_exists (P := NumFieldG false)
      (L := fun f : StructField => LegalName f.name ∧ LegalType f.typeId) fs 0 (fun j a hj => by
        obtain ⟨us, g1, g2⟩ := wfType_typeG (ht a (mem_of_getElem? hj))
        have hlt := hp a.position (List.mem_map_of_mem (mem_of_getElem? hj))
        obtain ⟨p, n, t⟩ := a
        refine ⟨positionTokens (p : Int) ++ .id n :: .sym ':' :: us, ?_, ?_⟩
        · have := NumFieldG.mk (q := false) (0 + j) (p : Int) n t us g1
          rwa [positionOf_small p hlt] at this
        · intro hL x hx
          simp only [List.mem_append, List.mem_cons] at hx
          rcases hx with hx | rfl | rfl | hx
          · exact positionTokens_legal p hlt x hx
          · exact hL.1
          · simp [LegalToken]
          · exact g2 hL.2 x hx)
    exact ⟨ts, .numbered _ _ _ h1, h2⟩

theorem wfTups_tupsG {fs : List TupleField} (h : WFTups fs) : ∃ ts, TupsG false ts fs ∧
    ((∀ f ∈ fs, LegalType f.typeId) → ∀ x ∈ ts, LegalToken x) := by
  obtain ⟨hp | hp, ht⟩ := h
  · obtain ⟨ts, e, h1, h2⟩ := commaList_exists (P := TupG false)
      (L := fun f : TupleField => LegalType f.typeId) fs 0 (fun j a hj => by
        obtain ⟨us, g1, g2⟩ := wfType_typeG (ht a (mem_of_getElem? hj))
        have := pos_of_range hp j a hj
        obtain ⟨p, t⟩ := a
        simp only at this; subst this
        exact ⟨_, by rw [Nat.zero_add]; exact .mk _ _ _ g1, g2⟩)
    exact ⟨ts, .plain _ _ _ h1, h2⟩
  · obtain ⟨ts, e, h1, h2⟩ := commaList_exists (P := NumTupG false)
      (L := fun f : TupleField => LegalType f.typeId) fs 0 (fun j a hj => by
        obtain ⟨us, g1, g2⟩ := wfType_typeG (ht a (mem_of_getElem? hj))
        have hlt := hp a.position (List.mem_map_of_mem (mem_of_getElem? hj))
        obtain ⟨p, t⟩ := a
        refine ⟨positionTokens (p : Int) ++ us, ?_, ?_⟩
        · have := NumTupG.mk (q := false) (0 + j) (p : Int) t us g1
          rwa [positionOf_small p hlt] at this
        · intro hL x hx
          simp only [List.mem_append] at hx
          rcases hx with hx | hx
          · exact positionTokens_legal p hlt x hx
          · exact g2 hL x hx)
    exact ⟨ts, .numbered _ _ _ h1, h2⟩

theorem wfItem_variantG {it : EnumItem} (h : WFItem it) : ∃ ts, VariantG false it.position ts it ∧
    (LegalItem it → ∀ x ∈ ts, LegalToken x) := by
  cases it with
  | empty p n => exact ⟨_, .empty n, fun h => by simpa [LegalToken, EnumItem.id] using h.1⟩
  | tuple p n vs =>
    obtain ⟨ts, h1, h2⟩ := wfTups_tupsG h
    refine ⟨_, .tuple _ _ _ h1, fun hL x hx => ?_⟩
    simp only [List.mem_cons, List.mem_append, List.not_mem_nil, or_false] at hx
    rcases hx with rfl | rfl | hx | rfl
    · exact hL.1
    · simp [LegalToken]
    · exact h2 hL.2 x hx
    · simp [LegalToken]
  | struct p n fs =>
    obtain ⟨ts, h1, h2⟩ := wfFields_fieldsG h
    refine ⟨_, .struct _ _ _ h1, fun hL x hx => ?_⟩
    simp only [List.mem_cons, List.mem_append, List.not_mem_nil, or_false] at hx
    rcases hx with rfl | rfl | hx | rfl
    · exact hL.1
    · simp [LegalToken]
    · exact h2 hL.2 x hx
    · simp [LegalToken]

theorem wfItems_variantsG {is : List EnumItem} (hp : PosOk (is.map (·.position))) (hi : ∀ i ∈ is, WFItem i) :
    ∃ ts, VariantsG false ts is ∧ ((∀ i ∈ is, LegalItem i) → ∀ x ∈ ts, LegalToken x) := by
  rcases hp with hp | hp
  · obtain ⟨ts, e, h1, h2⟩ := commaList_exists (P := VariantG false) (L := LegalItem) is 0 (fun j a hj => by
        obtain ⟨us, g1, g2⟩ := wfItem_variantG (hi a (mem_of_getElem? hj))
        rw [pos_of_range hp j a hj] at g1
        exact ⟨us, by rw [Nat.zero_add]; exact g1, g2⟩)
    exact ⟨ts, .plain _ _ _ h1, h2⟩
  · obtain ⟨ts, e, h1, h2⟩ := commaList_exists (P := NumVariantG false) (L := LegalItem) is 0 (fun j a hj => by
        obtain ⟨us, g1, g2⟩ := wfItem_variantG (hi a (mem_of_getElem? hj))
        have hlt := hp a.position (List.mem_map_of_mem (mem_of_getElem? hj))
        refine ⟨positionTokens (a.position : Int) ++ us, .mk _ _ _ _ ?_, ?_⟩
        · rwa [positionOf_small _ hlt]
        · intro hL x hx
          simp only [List.mem_append] at hx
          rcases hx with hx | hx
          · exact positionTokens_legal _ hlt x hx
          · exact g2 hL x hx)
    exact ⟨ts, .numbered _ _ _ h1, h2⟩

theorem wfConst_eq {v : ConstValue} (h : WFConst v) : constOf v.literal = v := h.symm

/-- What `wfConstItem` proves for one item: it can be put before any constant block. -/
def ConstItemOk (i : ConstItem) : Prop := ∀ us js, ConstG false us js → ∃ ts, ConstG false ts (i :: js) ∧
  (LegalConstItem i → (∀ x ∈ us, LegalToken x) → ∀ x ∈ ts, LegalToken x)

theorem constItems_exists : ∀ (is : List ConstItem), (∀ i ∈ is, ConstItemOk i) →
    ∃ ts, ConstG false ts is ∧ ((∀ i ∈ is, LegalConstItem i) → ∀ x ∈ ts, LegalToken x)
  | [], _ => ⟨[], .nil, by simp⟩
  | i :: is, h => by
    obtain ⟨us, h1, h2⟩ := constItems_exists is (fun j hj => h j (by simp [hj]))
    obtain ⟨ts, h3, h4⟩ := h i (by simp) us is h1
    exact ⟨ts, h3, fun hL => h4 (hL i (by simp)) (h2 (fun j hj => hL j (by simp [hj])))⟩

theorem wfConstItem_ok {i : ConstItem} (h : WFConstItem i) : ConstItemOk i := by
  induction h with
  | value n t v ht hv =>
    intro us js hus
    obtain ⟨ts, h1, h2⟩ := wfType_typeG ht
    have := ConstG.value (q := false) n t v.literal ts us js h1 hus
    rw [wfConst_eq hv] at this
    refine ⟨_, this, fun hL hu x hx => ?_⟩
    cases hL with
    | value _ _ _ l1 l2 l3 =>
      simp only [List.mem_cons, List.mem_append] at hx
      rcases hx with rfl | rfl | hx | rfl | rfl | rfl | hx
      · exact l1
      · simp [LegalToken]
      · exact h2 l2 x hx
      · simp [LegalToken]
      · exact l3
      · simp [LegalToken]
      · exact hu x hx
  | node n is _ ih =>
    intro us js hus
    obtain ⟨ts, h1, h2⟩ := constItems_exists is ih
    refine ⟨_, .node n ts us is js h1 hus, fun hL hu x hx => ?_⟩
    cases hL with
    | node _ _ l1 l2 =>
      simp only [List.mem_cons, List.mem_append] at hx
      rcases hx with rfl | rfl | rfl | hx | rfl | hx
      · simp [LegalToken]
      · exact l1
      · simp [LegalToken]
      · exact h2 l2 x hx
      · simp [LegalToken]
      · exact hu x hx

theorem wfRet_retG {r : Option TypeId} (h : ∀ t ∈ r, WFType t) : ∃ ts, RetG false ts r ∧
    ((∀ t ∈ r, LegalType t) → ∀ x ∈ ts, LegalToken x) := by
  cases r with
  | none => exact ⟨_, .none, by simp [LegalToken]⟩
  | some t =>
    obtain ⟨ts, h1, h2⟩ := wfType_typeG (h t (by simp))
    refine ⟨_, .some _ _ h1, fun hL x hx => ?_⟩
    simp only [List.mem_cons, List.mem_append, List.not_mem_nil, or_false] at hx
    rcases hx with rfl | rfl | hx | rfl
    · simp [LegalToken]
    · simp [LegalToken]
    · exact h2 (hL t (by simp)) x hx
    · simp [LegalToken]

theorem asyncTokens_legal (a : Bool) : ∀ x ∈ asyncTokens a, LegalToken x := by
  cases a <;> simp [asyncTokens, LegalToken]

theorem wfDecl_declG {k : Nat} {d : ASTNode} (h : WFDecl k d) :
    ∃ ts, DeclG false k ts d (k + fnCount d) ∧ (LegalDecl d → ∀ x ∈ ts, LegalToken x) := by
  cases d with
  | struct n =>
    obtain ⟨id, fs, eb, ib⟩ := n
    obtain ⟨hf, h1, h2⟩ := h
    simp only at hf h1 h2
    subst h1 h2
    by_cases hn : fs = []
    · subst hn
      exact ⟨_, .unit _ _, fun hL => by simpa [LegalToken] using hL.1⟩
    · obtain ⟨ts, g1, g2⟩ := wfFields_fieldsG hf
      refine ⟨_, .struct _ _ _ _ g1 hn, fun hL x hx => ?_⟩
      simp only [List.mem_cons, List.mem_append, List.not_mem_nil, or_false] at hx
      rcases hx with rfl | rfl | rfl | hx | rfl
      · simp [LegalToken]
      · exact hL.1
      · simp [LegalToken]
      · exact g2 hL.2 x hx
      · simp [LegalToken]
  | enum n =>
    obtain ⟨id, is⟩ := n
    obtain ⟨hne, hp, hi⟩ := h
    obtain ⟨ts, g1, g2⟩ := wfItems_variantsG hp hi
    refine ⟨_, .enum _ _ _ _ g1 hne, fun hL x hx => ?_⟩
    simp only [List.mem_cons, List.mem_append, List.not_mem_nil, or_false] at hx
    rcases hx with rfl | rfl | rfl | hx | rfl
    · simp [LegalToken]
    · exact hL.1
    · simp [LegalToken]
    · exact g2 hL.2 x hx
    · simp [LegalToken]
  | fn n =>
    obtain ⟨id, p, as, r, rd, a⟩ := n
    obtain ⟨hp, ha, hr, hrd⟩ := h
    simp only at hp ha hr hrd
    subst hp
    obtain ⟨us, g1, g2⟩ := wfRet_retG hr
    cases rd with
    | true =>
      have := hrd rfl
      subst this
      refine ⟨_, .read _ _ _ _ _ g1, fun hL x hx => ?_⟩
      simp only [List.mem_cons, List.mem_append] at hx
      rcases hx with hx | rfl | rfl | hx
      · exact asyncTokens_legal _ x hx
      · simp [LegalToken]
      · exact hL.1
      · exact g2 hL.2.2 x hx
    | false =>
      obtain ⟨ts, e, h1, h2⟩ := commaList_exists (P := ArgG false)
        (L := fun f : FnArg => LegalName f.id ∧ LegalType f.typeId) as 0 (fun j a hj => by
          obtain ⟨us, g1, g2⟩ := wfType_typeG (ha a (mem_of_getElem? hj))
          obtain ⟨n, t⟩ := a
          refine ⟨_, .mk _ _ _ _ g1, fun hL x hx => ?_⟩
          simp only [List.mem_cons] at hx
          rcases hx with rfl | rfl | hx
          · exact hL.1
          · simp [LegalToken]
          · exact g2 hL.2 x hx)
      refine ⟨_, .fn _ _ _ _ _ _ _ _ h1 g1, fun hL x hx => ?_⟩
      simp only [List.mem_cons, List.mem_append] at hx
      rcases hx with hx | rfl | rfl | rfl | hx | rfl | hx
      · exact asyncTokens_legal _ x hx
      · simp [LegalToken]
      · exact hL.1
      · simp [LegalToken]
      · exact h2 hL.2.1 x hx
      · simp [LegalToken]
      · exact g2 hL.2.2 x hx
  | directive d =>
    cases d with
    | value n v =>
      have := DeclG.valueDirective (q := false) k n v.literal
      rw [wfConst_eq h] at this
      refine ⟨_, this, fun hL x hx => ?_⟩
      simp only [List.mem_cons, List.not_mem_nil, or_false] at hx
      rcases hx with rfl | rfl | rfl | rfl | rfl | rfl
      · simp [LegalToken]
      · simp [LegalToken]
      · exact hL.1
      · simp [LegalToken]
      · exact hL.2
      · simp [LegalToken]
    | group n ps =>
      obtain ⟨ts, e, h1, h2⟩ := commaList_exists (P := PairG)
        (L := fun p : IdValuePair => LegalName p.id ∧ LegalLit p.value.literal) ps 0 (fun j a hj => by
          have hw := h a (mem_of_getElem? hj)
          obtain ⟨n, v⟩ := a
          have := PairG.mk (0 + j) n v.literal
          rw [wfConst_eq hw] at this
          refine ⟨_, this, fun hL x hx => ?_⟩
          simp only [List.mem_cons, List.not_mem_nil, or_false] at hx
          rcases hx with rfl | rfl | rfl
          · exact hL.1
          · simp [LegalToken]
          · exact hL.2)
      refine ⟨_, .groupDirective _ _ _ _ _ _ h1 .paren, fun hL x hx => ?_⟩
      simp only [List.mem_cons, List.mem_append, List.not_mem_nil, or_false] at hx
      rcases hx with rfl | rfl | rfl | rfl | hx | rfl | rfl
      · simp [LegalToken]
      · simp [LegalToken]
      · exact hL.1
      · simp [LegalToken]
      · exact h2 hL.2 x hx
      · simp [LegalToken]
      · simp [LegalToken]
  | const n =>
    obtain ⟨id, is⟩ := n
    obtain ⟨ts, h1, h2⟩ := constItems_exists is (fun i hi => wfConstItem_ok (h i hi))
    refine ⟨_, .const _ _ _ _ h1, fun hL x hx => ?_⟩
    simp only [List.mem_cons, List.mem_append, List.not_mem_nil, or_false] at hx
    rcases hx with rfl | rfl | rfl | hx | rfl
    · simp [LegalToken]
    · exact hL.1
    · simp [LegalToken]
    · exact h2 hL.2 x hx
    · simp [LegalToken]

theorem wfSchema_schemaG : ∀ (ds : List ASTNode) (k : Nat), WFSchema k ds →
    ∃ ts k', SchemaG false k ts ds k' ∧ ((∀ d ∈ ds, LegalDecl d) → ∀ x ∈ ts, LegalToken x)
  | [], k, _ => ⟨[], k, .nil k, by simp⟩
  | d :: ds, k, h => by
    obtain ⟨ts, h1, h2⟩ := wfDecl_declG h.1
    obtain ⟨us, k', h3, h4⟩ := wfSchema_schemaG ds _ h.2
    refine ⟨ts ++ us, k', .cons _ _ _ _ _ _ _ h1 h3, fun hL x hx => ?_⟩
    simp only [List.mem_append] at hx
    rcases hx with hx | hx
    · exact h2 (hL d (by simp)) x hx
    · exact h4 (fun e he => hL e (by simp [he])) x hx

/-! ### Legal tokens can be laid out as ASCII text -/

theorem decimal_digits (v : Nat) : ∃ d ds, d < 10 ∧ (∀ e ∈ ds, e < 10) ∧ digitsValue 10 (d :: ds) = v := by
  induction v using Nat.strongRecOn with
  | _ v ih =>
    by_cases h : v < 10
    · exact ⟨v, [], h, by simp, by simp [digitsValue]⟩
    · obtain ⟨d, ds, h1, h2, h3⟩ := ih (v / 10) (by omega)
      refine ⟨d, ds ++ [v % 10], h1, ?_, ?_⟩
      · intro e he
        simp at he
        rcases he with he | rfl
        · exact h2 e he
        · omega
      · rw [← List.cons_append]
        unfold digitsValue at h3 ⊢
        rw [List.foldl_append, h3]
        simp; omega

theorem digitChar_ascii (d : Nat) : (digitChar d).toNat < 128 := by
  unfold digitChar
  split <;> decide

theorem groupText_false_ascii : ∀ (ds : List Nat), ∀ c ∈ groupText (ds.map (fun d => (false, d))), c.toNat < 128
  | [], c, h => by simp [groupText] at h
  | d :: ds, c, h => by
    simp only [List.map_cons, groupText, List.mem_cons] at h
    rcases h with rfl | h
    · exact digitChar_ascii d
    · exact groupText_false_ascii ds c h

theorem ident_ascii {cs : List Char} (h : IsIdent cs) : ∀ c ∈ cs, c.toNat < 128 := by
  have letter : ∀ c, IsLetter c → c.toNat < 128 := by
    rintro c (⟨_, h⟩ | ⟨_, h⟩ | rfl)
    · exact Nat.lt_of_le_of_lt (UInt32.le_iff_toNat_le.1 h) (by decide)
    · exact Nat.lt_of_le_of_lt (UInt32.le_iff_toNat_le.1 h) (by decide)
    · decide
  have digit : ∀ c, IsDigit c → c.toNat < 128 := by
    rintro c ⟨_, h⟩
    exact Nat.lt_of_le_of_lt (UInt32.le_iff_toNat_le.1 h) (by decide)
  cases cs with
  | nil => exact absurd h (by simp [IsIdent])
  | cons d ds =>
    intro c hc
    rcases List.mem_cons.1 hc with rfl | hc
    · exact letter _ h.1
    · rcases h.2 c hc with h | h
      · exact letter _ h
      · exact digit _ h

/-- Every legal token has an ASCII spelling. -/
theorem legal_spells {t : Token} (h : LegalToken t) :
    ∃ x, Spells t x ∧ (∀ c ∈ x, c.toNat < 128) ∧ ∀ r, Stops t (' ' :: r) := by
  cases t with
  | kwStruct => exact ⟨_, .kwStruct, by decide, fun r => by simp [Stops]; decide⟩
  | kwEnum => exact ⟨_, .kwEnum, by decide, fun r => by simp [Stops]; decide⟩
  | kwFn => exact ⟨_, .kwFn, by decide, fun r => by simp [Stops]; decide⟩
  | kwRead => exact ⟨_, .kwRead, by decide, fun r => by simp [Stops]; decide⟩
  | kwAsync => exact ⟨_, .kwAsync, by decide, fun r => by simp [Stops]; decide⟩
  | kwConst => exact ⟨_, .kwConst, by decide, fun r => by simp [Stops]; decide⟩
  | id n => exact ⟨_, .id n h.1 h.2, ident_ascii h.1, fun r => by simp [Stops]; decide⟩
  | eof => exact absurd h (by simp [LegalToken])
  | sym c =>
    simp only [LegalToken, List.mem_cons, List.not_mem_nil, or_false] at h
    refine ⟨[c], ?_, ?_, fun r => by simp [Stops]⟩
    · rcases h with h | h | h | h | h | h | h | h | h | h | h | h | h | h <;> subst h <;>
        exact .sym _ (by decide) (by decide) (by decide) (by decide) (by decide) (by decide) (by decide)
    · rcases h with h | h | h | h | h | h | h | h | h | h | h | h | h | h <;> subst h <;> decide
  | lit l =>
    cases l with
    | str s =>
      refine ⟨_, .str s h.1, ?_, fun r => by simp [Stops]⟩
      intro c hc
      simp only [List.mem_cons, List.mem_append, List.not_mem_nil, or_false] at hc
      rcases hc with rfl | hc | rfl
      · decide
      · exact h.2 c hc
      · decide
    | bool b =>
      cases b with
      | true => exact ⟨_, .true, by decide, fun r => by simp [Stops]; decide⟩
      | false => exact ⟨_, .false, by decide, fun r => by simp [Stops]; decide⟩
    | num t =>
      obtain ⟨d, ds, fs, h1, h2, h3, rfl⟩ := h
      refine ⟨_, .num d ds fs h1 h2 h3, ?_, fun r => by simp [Stops]; decide⟩
      intro c hc
      simp only [List.mem_cons, List.mem_append, List.mem_map] at hc
      rcases hc with rfl | ⟨e, _, rfl⟩ | rfl | ⟨e, _, rfl⟩
      · exact digitChar_ascii _
      · exact digitChar_ascii _
      · decide
      · exact digitChar_ascii _
    | int v =>
      obtain ⟨h1, h2⟩ := h
      obtain ⟨d, ds, g1, g2, g3⟩ := decimal_digits v.toNat
      have e : (ds.map (fun d => (false, d))).map (·.2) = ds := by simp [Function.comp_def]
      have hv : ((digitsValue 10 (d :: (ds.map (fun d => (false, d))).map (·.2)) : Nat) : Int) = v := by
        rw [e, g3]; omega
      have := Spells.dec d (ds.map (fun d => (false, d))) g1
        (by intro p hp; simp at hp; obtain ⟨a, ha, rfl⟩ := hp; exact g2 a ha)
        (by rw [e, g3]; omega)
      rw [hv] at this
      refine ⟨_, this, ?_, fun r => by simp [Stops]; decide⟩
      intro c hc
      simp only [List.mem_cons] at hc
      rcases hc with rfl | hc
      · exact digitChar_ascii _
      · exact groupText_false_ascii _ c hc

theorem legal_layout : ∀ (ts : List Token), (∀ t ∈ ts, LegalToken t) →
    ∃ cs, Layout ts (' ' :: cs) ∧ ∀ c ∈ cs, c.toNat < 128
  | [], _ => ⟨[], .nil _ (.white _ _ (.inl rfl) .nil), by simp⟩
  | t :: ts, h => by
    obtain ⟨cs, h1, h2⟩ := legal_layout ts (fun u hu => h u (by simp [hu]))
    obtain ⟨x, g1, g2, g3⟩ := legal_spells (h t (by simp))
    refine ⟨x ++ ' ' :: cs, ?_, ?_⟩
    · exact Layout.cons [' '] x (' ' :: cs) t ts (.white _ _ (.inl rfl) .nil) g1 (g3 cs) h1
    · intro c hc
      simp only [List.mem_append, List.mem_cons] at hc
      rcases hc with hc | rfl | hc
      · exact g2 c hc
      · decide
      · exact h2 c hc

end TPB
