/-
Soundness of the parser for the (lenient) grammar: whatever a parser function accepts is derivable.
-/
import Verif.Proofs.ParserLoops
namespace TPB
open Spec

theorem nameType_eq (n : String) : nameType n = typeOfName n := by
  unfold nameType typeOfName builtinTypes
  simp only [List.lookup]
  repeat' split
  all_goals simp_all

theorem asU32_eq (v : Int) : asU32 v = positionOf v := rfl

theorem literalType_eq (l : Literal) : (⟨l, literalType l⟩ : ConstValue) = constOf l := by
  cases l <;> rfl

/-- Soundness of `parse_type_id` and of its inner loop. -/
theorem type_sound (n : Nat) :
    (∀ s t s', parseTypeId n s = .ok (t, s') → ∃ ts, Consumed s ts s' ∧ TypeG true (.type t) ts) ∧
    (∀ name gs s t s', parseGenerics n name gs s = .ok (t, s') → ∃ ts, Consumed s.adv ts s' ∧
      ((∃ as us, ts = us ++ [.sym '>'] ∧ TypeG true (.args as) us ∧ t = .generic name (gs ++ as)) ∨
       (TypeG true .openArgs ts ∧ t = typeOfName name))) := by
  induction n with
  | zero => constructor <;> intros <;> simp_all [parseTypeId, parseGenerics]
  | succ n ih =>
    obtain ⟨ih1, ih2⟩ := ih
    constructor
    · intro s t s' h
      unfold parseTypeId at h
      split at h
      · rename_i name hcur
        simp only at h
        split at h
        · rename_i hlt
          obtain ⟨ts, hc, hts⟩ := ih2 _ _ _ _ _ h
          refine ⟨.id name :: .sym '<' :: ts,
            Consumed.cons hcur (by simp) (Consumed.cons hlt (by simp) hc), ?_⟩
          rcases hts with ⟨as, us, rfl, hg, rfl⟩ | ⟨hg, rfl⟩
          · exact .generic _ _ _ hg
          · exact .openBracket _ _ rfl hg
        · simp only [Except.ok.injEq, Prod.mk.injEq] at h
          obtain ⟨rfl, rfl⟩ := h
          exact ⟨[.id name], Consumed.one hcur (by simp), by rw [nameType_eq]; exact .name _⟩
      · simp at h
    · intro name gs s t s' h
      unfold parseGenerics at h
      simp only at h
      split at h
      · split at h
        · simp at h
        · rename_i t1 s1 heq
          obtain ⟨ts, hc, hg⟩ := ih1 _ _ _ heq
          split at h
          · rename_i hgt
            simp only [Except.ok.injEq, Prod.mk.injEq] at h
            obtain ⟨rfl, rfl⟩ := h
            exact ⟨ts ++ [.sym '>'], hc.trans (Consumed.one hgt (by simp)),
              .inl ⟨[t1], ts, rfl, .argsOne _ _ hg, rfl⟩⟩
          · split at h
            · rename_i hcomma
              obtain ⟨us, hc2, hus⟩ := ih2 _ _ _ _ _ h
              refine ⟨ts ++ .sym ',' :: us, hc.trans (Consumed.cons hcomma (by simp) hc2), ?_⟩
              rcases hus with ⟨as, vs, rfl, hg2, rfl⟩ | ⟨hg2, rfl⟩
              · exact .inl ⟨t1 :: as, ts ++ .sym ',' :: vs, by simp, .argsMore _ _ _ _ hg hg2, by simp⟩
              · exact .inr ⟨.openMore _ _ _ hg hg2, rfl⟩
            · simp at h
      · simp only [Except.ok.injEq, Prod.mk.injEq] at h
        obtain ⟨rfl, rfl⟩ := h
        exact ⟨[], Consumed.nil _, .inr ⟨.openNil, nameType_eq name⟩⟩

theorem parseTypeId_sound {n : Nat} {s : PS} {t : TypeId} {s' : PS} (h : parseTypeId n s = .ok (t, s')) :
    ∃ ts, Consumed s ts s' ∧ TypeG true (.type t) ts := (type_sound n).1 s t s' h

theorem parsePosition_sound {s : PS} {p : Nat} {s' : PS} (h : parsePosition s = .ok (p, s')) :
    ∃ v, Consumed s (positionTokens v) s' ∧ p = positionOf v := by
  unfold parsePosition at h
  split at h
  · simp at h
  · rename_i h1
    simp only [ne_eq, Classical.not_not] at h1
    simp only at h
    split at h
    · simp at h
    · rename_i h2
      simp only [ne_eq, Classical.not_not] at h2
      split at h
      · rename_i v hv
        split at h
        · simp at h
        · rename_i h3
          simp only [ne_eq, Classical.not_not] at h3
          simp only [Except.ok.injEq, Prod.mk.injEq] at h
          obtain ⟨rfl, rfl⟩ := h
          exact ⟨v, Consumed.cons h1 (by simp) (Consumed.cons h2 (by simp) (Consumed.cons hv (by simp)
            (Consumed.one h3 (by simp)))), rfl⟩
      · simp at h

theorem parseConstValue_sound {s : PS} {v : ConstValue} (h : parseConstValue s = .ok v) :
    ∃ l, s.cur = .lit l ∧ v = constOf l := by
  unfold parseConstValue at h
  split at h
  · rename_i l hl
    simp only [Except.ok.injEq] at h
    exact ⟨l, hl, by rw [← h]; exact literalType_eq l⟩
  · simp at h

theorem fieldItem_sound (n i : Nat) (s : PS) (a : StructField) (s' : PS)
    (h : fieldItem n i s = .ok (a, s')) : ∃ ts, Consumed s ts s' ∧ FieldG true i ts a := by
  unfold fieldItem at h
  split at h
  · rename_i name hcur
    split at h
    · simp at h
    · rename_i h1
      simp only [ne_eq, Classical.not_not] at h1
      split at h
      · simp at h
      · rename_i t s1 heq
        simp only [Except.ok.injEq, Prod.mk.injEq] at h
        obtain ⟨rfl, rfl⟩ := h
        obtain ⟨ts, hc, hg⟩ := parseTypeId_sound heq
        exact ⟨_, Consumed.cons hcur (by simp) (Consumed.cons h1 (by simp) hc), .mk _ _ _ _ hg⟩
  · simp at h

theorem argItem_sound (n i : Nat) (s : PS) (a : FnArg) (s' : PS)
    (h : argItem n i s = .ok (a, s')) : ∃ ts, Consumed s ts s' ∧ ArgG true i ts a := by
  unfold argItem at h
  split at h
  · rename_i name hcur
    split at h
    · simp at h
    · rename_i h1
      simp only [ne_eq, Classical.not_not] at h1
      split at h
      · simp at h
      · rename_i t s1 heq
        simp only [Except.ok.injEq, Prod.mk.injEq] at h
        obtain ⟨rfl, rfl⟩ := h
        obtain ⟨ts, hc, hg⟩ := parseTypeId_sound heq
        exact ⟨_, Consumed.cons hcur (by simp) (Consumed.cons h1 (by simp) hc), .mk _ _ _ _ hg⟩
  · simp at h

theorem numFieldItem_sound (n i : Nat) (s : PS) (a : StructField) (s' : PS)
    (h : numFieldItem n i s = .ok (a, s')) : ∃ ts, Consumed s ts s' ∧ NumFieldG true i ts a := by
  unfold numFieldItem at h
  split at h
  · simp at h
  · rename_i p s1 heq
    obtain ⟨v, hc, rfl⟩ := parsePosition_sound heq
    obtain ⟨ts, hc2, hg⟩ := fieldItem_sound _ _ _ _ _ h
    cases hg with
    | mk nm t us hg => exact ⟨_, hc.trans hc2, .mk _ _ _ _ _ hg⟩

theorem tupItem_sound (n i : Nat) (s : PS) (a : TupleField) (s' : PS)
    (h : tupItem n i s = .ok (a, s')) : ∃ ts, Consumed s ts s' ∧ TupG true i ts a := by
  unfold tupItem at h
  split at h
  · simp at h
  · rename_i t s1 heq
    simp only [Except.ok.injEq, Prod.mk.injEq] at h
    obtain ⟨rfl, rfl⟩ := h
    obtain ⟨ts, hc, hg⟩ := parseTypeId_sound heq
    exact ⟨_, hc, .mk _ _ _ hg⟩

theorem numTupItem_sound (n i : Nat) (s : PS) (a : TupleField) (s' : PS)
    (h : numTupItem n i s = .ok (a, s')) : ∃ ts, Consumed s ts s' ∧ NumTupG true i ts a := by
  unfold numTupItem at h
  split at h
  · simp at h
  · rename_i p s1 heq
    obtain ⟨v, hc, rfl⟩ := parsePosition_sound heq
    obtain ⟨ts, hc2, hg⟩ := tupItem_sound _ _ _ _ _ h
    cases hg with
    | mk t us hg => exact ⟨_, hc.trans hc2, .mk _ _ _ _ hg⟩

theorem structParams_sound {n : Nat} {s : PS} {fs : List StructField} {s' : PS}
    (h : structParams n s = .ok (fs, s')) : ∃ ts, Consumed s ts s' ∧ FieldsG true ts fs := by
  unfold structParams at h
  split at h
  · rw [structParamsPos_eq n 0] at h
    obtain ⟨ts, e, hc, hl, -⟩ := commaLoop_sound numFieldItem_sound _ _ _ _ _ h
    exact ⟨ts, hc, .numbered _ _ _ hl⟩
  · rw [structParamsNoPos_eq] at h
    obtain ⟨ts, e, hc, hl, -⟩ := commaLoop_sound fieldItem_sound _ _ _ _ _ h
    exact ⟨ts, hc, .plain _ _ _ hl⟩

theorem tupleParams_sound {n : Nat} {s : PS} {fs : List TupleField} {s' : PS}
    (h : tupleParams n s = .ok (fs, s')) : ∃ ts, Consumed s ts s' ∧ TupsG true ts fs := by
  unfold tupleParams at h
  split at h
  · rw [tupleParamsPos_eq n 0] at h
    obtain ⟨ts, e, hc, hl, -⟩ := commaLoop_sound numTupItem_sound _ _ _ _ _ h
    exact ⟨ts, hc, .numbered _ _ _ hl⟩
  · rw [tupleParamsNoPos_eq] at h
    obtain ⟨ts, e, hc, hl, -⟩ := commaLoop_sound tupItem_sound _ _ _ _ _ h
    exact ⟨ts, hc, .plain _ _ _ hl⟩

theorem enumItemBody_sound {n p : Nat} {name : String} {s : PS} {it : EnumItem} {s' : PS}
    (h : enumItemBody n p name s = .ok (it, s')) :
    ∃ ts, Consumed s ts s' ∧ VariantG true p (.id name :: ts) it := by
  unfold enumItemBody at h
  split at h
  · rename_i h1
    unfold parseTupleEnum at h
    simp only [h1, ne_eq, not_true_eq_false, if_false] at h
    split at h
    · simp at h
    · rename_i vs s1 heq
      split at h
      · simp at h
      · rename_i h2
        simp only [ne_eq, Classical.not_not] at h2
        simp only [Except.ok.injEq, Prod.mk.injEq] at h
        obtain ⟨rfl, rfl⟩ := h
        obtain ⟨ts, hc, hg⟩ := tupleParams_sound heq
        exact ⟨_, Consumed.cons h1 (by simp) (hc.trans (Consumed.one h2 (by simp))), .tuple _ _ _ hg⟩
  · split at h
    · rename_i h1
      unfold parseStructEnum at h
      simp only [h1, ne_eq, not_true_eq_false, if_false] at h
      split at h
      · simp at h
      · rename_i vs s1 heq
        split at h
        · simp at h
        · rename_i h2
          simp only [ne_eq, Classical.not_not] at h2
          simp only [Except.ok.injEq, Prod.mk.injEq] at h
          obtain ⟨rfl, rfl⟩ := h
          obtain ⟨ts, hc, hg⟩ := structParams_sound heq
          exact ⟨_, Consumed.cons h1 (by simp) (hc.trans (Consumed.one h2 (by simp))), .struct _ _ _ hg⟩
    · simp only [Except.ok.injEq, Prod.mk.injEq] at h
      obtain ⟨rfl, rfl⟩ := h
      exact ⟨[], Consumed.nil _, .empty _⟩

theorem variantItem_sound (n i : Nat) (s : PS) (a : EnumItem) (s' : PS)
    (h : variantItem n i s = .ok (a, s')) : ∃ ts, Consumed s ts s' ∧ VariantG true i ts a := by
  unfold variantItem at h
  split at h
  · rename_i name hcur
    obtain ⟨ts, hc, hg⟩ := enumItemBody_sound h
    exact ⟨_, Consumed.cons hcur (by simp) hc, hg⟩
  · simp at h

theorem numVariantItem_sound (n i : Nat) (s : PS) (a : EnumItem) (s' : PS)
    (h : numVariantItem n i s = .ok (a, s')) : ∃ ts, Consumed s ts s' ∧ NumVariantG true i ts a := by
  unfold numVariantItem at h
  split at h
  · simp at h
  · rename_i p s1 heq
    obtain ⟨v, hc, rfl⟩ := parsePosition_sound heq
    obtain ⟨ts, hc2, hg⟩ := variantItem_sound _ _ _ _ _ h
    exact ⟨_, hc.trans hc2, .mk _ _ _ _ hg⟩

theorem enumItems_sound {n : Nat} {s : PS} {is : List EnumItem} {s' : PS}
    (h : enumItems n s = .ok (is, s')) : ∃ ts, Consumed s ts s' ∧ VariantsG true ts is := by
  unfold enumItems at h
  split at h
  · rw [enumItemsPos_eq n 0] at h
    obtain ⟨ts, e, hc, hl, -⟩ := commaLoop_sound numVariantItem_sound _ _ _ _ _ h
    exact ⟨ts, hc, .numbered _ _ _ hl⟩
  · rw [enumItemsNoPos_eq] at h
    obtain ⟨ts, e, hc, hl, -⟩ := commaLoop_sound variantItem_sound _ _ _ _ _ h
    exact ⟨ts, hc, .plain _ _ _ hl⟩

/-- An accepted comma list that starts with a start token is not empty. -/
theorem commaLoop_ne_nil {α : Type} {isStart : Token → Bool} {item : Nat → Nat → PS → PRes α}
    {n i : Nat} {s s' : PS} {as : List α} (hs : isStart s.cur = true)
    (h : commaLoop isStart item n i s = .ok (as, s')) : as ≠ [] := by
  cases n with
  | zero => simp [commaLoop] at h
  | succ n =>
    unfold commaLoop at h
    rw [if_pos hs] at h
    split at h
    · simp at h
    · split at h
      · simp only [Except.ok.injEq, Prod.mk.injEq] at h
        rw [← h.1]; simp
      · split at h
        · simp at h
        · simp only [Except.ok.injEq, Prod.mk.injEq] at h
          rw [← h.1]; simp

theorem structParams_ne_nil {n : Nat} {s : PS} {fs : List StructField} {s' : PS}
    (hs : s.cur = .sym '#' ∨ ∃ m, s.cur = .id m)
    (h : structParams n s = .ok (fs, s')) : fs ≠ [] := by
  unfold structParams at h
  rcases hs with hs | ⟨m, hs⟩
  · rw [if_pos hs, structParamsPos_eq n 0] at h
    exact commaLoop_ne_nil (by simp [isHash, hs]) h
  · rw [if_neg (by simp [hs]), structParamsNoPos_eq] at h
    exact commaLoop_ne_nil (by simp [isId, hs]) h

theorem enumItems_ne_nil {n : Nat} {s : PS} {fs : List EnumItem} {s' : PS}
    (hs : s.cur = .sym '#' ∨ ∃ m, s.cur = .id m)
    (h : enumItems n s = .ok (fs, s')) : fs ≠ [] := by
  unfold enumItems at h
  rcases hs with hs | ⟨m, hs⟩
  · rw [if_pos hs, enumItemsPos_eq n 0] at h
    exact commaLoop_ne_nil (by simp [isHash, hs]) h
  · rw [if_neg (by simp [hs]), enumItemsNoPos_eq] at h
    exact commaLoop_ne_nil (by simp [isId, hs]) h

/-- `s'` is `s` after consuming `ts` and handing out `k` method positions. -/
def ConsumedF (s : PS) (ts : List Token) (k' : Nat) (s' : PS) : Prop :=
  s.rest = ts ++ s'.rest ∧ s'.registered = [] ∧ s'.lastFn = k'

theorem Consumed.toF {s s' : PS} {ts : List Token} (h : Consumed s ts s') (hr : s.registered = []) :
    ConsumedF s ts s.lastFn s' := by
  refine ⟨h.1, ?_, ?_⟩
  · rw [h.2]; exact hr
  · rw [h.2]; rfl

theorem parseStruct_sound {n : Nat} {s : PS} {d : ASTNode} {s' : PS} (k : Nat)
    (h : parseStruct n s = .ok (d, s')) : ∃ ts, Consumed s ts s' ∧ DeclG true k ts d k := by
  unfold parseStruct at h
  split at h
  · simp at h
  · rename_i h1
    simp only [ne_eq, Classical.not_not] at h1
    simp only at h
    split at h
    · rename_i name hname
      split at h
      · rename_i h2
        simp only [Except.ok.injEq, Prod.mk.injEq] at h
        obtain ⟨rfl, rfl⟩ := h
        exact ⟨_, Consumed.cons h1 (by simp) (Consumed.cons hname (by simp)
          (Consumed.one h2 (by simp))), .unit _ _⟩
      · split at h
        · simp at h
        · rename_i h2
          simp only [ne_eq, Classical.not_not] at h2
          have key : (s.adv.adv.adv.cur = .sym '#' ∨ ∃ m, s.adv.adv.adv.cur = .id m) →
              structBody n name s.adv.adv.adv = .ok (d, s') →
              ∃ ts, Consumed s ts s' ∧ DeclG true k ts d k := by
            intro hs h
            unfold structBody at h
            split at h
            · simp at h
            · rename_i ps s1 heq
              split at h
              · simp at h
              · rename_i h3
                simp only [ne_eq, Classical.not_not] at h3
                simp only [Except.ok.injEq, Prod.mk.injEq] at h
                obtain ⟨rfl, rfl⟩ := h
                obtain ⟨ts, hc, hg⟩ := structParams_sound heq
                exact ⟨_, Consumed.cons h1 (by simp) (Consumed.cons hname (by simp)
                  (Consumed.cons h2 (by simp) (hc.trans (Consumed.one h3 (by simp))))),
                  .struct _ _ _ _ hg (structParams_ne_nil hs heq)⟩
          split at h
          · rename_i c hc
            split at h
            · rename_i hh
              subst hh
              exact key (.inl hc) h
            · simp at h
          · rename_i m hm
            exact key (.inr ⟨m, hm⟩) h
          · simp at h
    · simp at h

theorem parseEnum_sound {n : Nat} {s : PS} {d : ASTNode} {s' : PS} (k : Nat)
    (h : parseEnum n s = .ok (d, s')) : ∃ ts, Consumed s ts s' ∧ DeclG true k ts d k := by
  unfold parseEnum at h
  split at h
  · simp at h
  · rename_i h1
    simp only [ne_eq, Classical.not_not] at h1
    simp only at h
    split at h
    · rename_i name hname
      split at h
      · simp at h
      · rename_i h2
        simp only [ne_eq, Classical.not_not] at h2
        have key : (s.adv.adv.adv.cur = .sym '#' ∨ ∃ m, s.adv.adv.adv.cur = .id m) →
            enumBody n name s.adv.adv.adv = .ok (d, s') →
            ∃ ts, Consumed s ts s' ∧ DeclG true k ts d k := by
          intro hs h
          unfold enumBody at h
          split at h
          · simp at h
          · rename_i ps s1 heq
            split at h
            · simp at h
            · rename_i h3
              simp only [ne_eq, Classical.not_not] at h3
              simp only [Except.ok.injEq, Prod.mk.injEq] at h
              obtain ⟨rfl, rfl⟩ := h
              obtain ⟨ts, hc, hg⟩ := enumItems_sound heq
              exact ⟨_, Consumed.cons h1 (by simp) (Consumed.cons hname (by simp)
                (Consumed.cons h2 (by simp) (hc.trans (Consumed.one h3 (by simp))))),
                .enum _ _ _ _ hg (enumItems_ne_nil hs heq)⟩
        split at h
        · rename_i c hc
          split at h
          · rename_i hh
            subst hh
            exact key (.inl hc) h
          · simp at h
        · rename_i m hm
          exact key (.inr ⟨m, hm⟩) h
        · simp at h
    · simp at h

theorem Consumed.lastFn {s s' : PS} {ts : List Token} (h : Consumed s ts s') : s'.lastFn = s.lastFn := by
  rw [h.2]; rfl

theorem Consumed.registered {s s' : PS} {ts : List Token} (h : Consumed s ts s') :
    s'.registered = s.registered := by
  rw [h.2]; rfl

theorem nextFn_empty {s : PS} (h : s.registered = []) :
    s.nextFn = (s.lastFn, { s with lastFn := s.lastFn + 1 }) := by
  simp [PS.nextFn, h, skipRegistered]

theorem fnTail_sound {n : Nat} {id : String} {args : List FnArg} {r a : Bool} {s : PS} {d : ASTNode}
    {s' : PS} (hreg : s.registered = []) (h : fnTail n id args r a s = .ok (d, s')) :
    ∃ ts ret, s.rest = ts ++ s'.rest ∧ s'.registered = [] ∧ s'.lastFn = s.lastFn + 1 ∧
      RetG true ts ret ∧ d = .fn ⟨id, s.lastFn, args, ret, r, a⟩ := by
  unfold fnTail at h
  split at h
  · rename_i h1
    rw [nextFn_empty (s := s.adv) hreg] at h
    simp only [Except.ok.injEq, Prod.mk.injEq] at h
    obtain ⟨rfl, rfl⟩ := h
    exact ⟨_, _, (Consumed.one h1 (by simp)).1, hreg, rfl, .none, rfl⟩
  · split at h
    · simp at h
    · rename_i h1
      simp only [ne_eq, Classical.not_not] at h1
      simp only at h
      split at h
      · simp at h
      · rename_i h2
        simp only [ne_eq, Classical.not_not] at h2
        split at h
        · simp at h
        · rename_i t s1 heq
          split at h
          · simp at h
          · rename_i h3
            simp only [ne_eq, Classical.not_not] at h3
            obtain ⟨ts, hc, hg⟩ := parseTypeId_sound heq
            have hreg1 : s1.adv.registered = [] := by
              show s1.registered = []
              rw [hc.registered]; exact hreg
            rw [nextFn_empty (s := s1.adv) hreg1] at h
            simp only [Except.ok.injEq, Prod.mk.injEq] at h
            obtain ⟨rfl, rfl⟩ := h
            have hl : s1.adv.lastFn = s.lastFn := by show s1.lastFn = _; rw [hc.lastFn]; rfl
            refine ⟨_, some t, (Consumed.cons h1 (by simp) (Consumed.cons h2 (by simp)
              (hc.trans (Consumed.one h3 (by simp))))).1, hreg1, by simp [hl], .some _ _ hg, ?_⟩
            rw [hl]

theorem parseFn_sound {n : Nat} {a : Bool} {s : PS} {d : ASTNode} {s' : PS} (hreg : s.registered = [])
    (h : parseFn n a s = .ok (d, s')) : ∃ name ts us as e ret,
      s.rest = (.kwFn :: .id name :: .sym '(' :: (ts ++ .sym ')' :: us)) ++ s'.rest ∧
      s'.registered = [] ∧ s'.lastFn = s.lastFn + 1 ∧ CommaList (ArgG true) 0 ts as e ∧ RetG true us ret ∧
      d = .fn ⟨name, s.lastFn, as, ret, false, a⟩ := by
  unfold parseFn at h
  split at h
  · simp at h
  · rename_i h1
    simp only [ne_eq, Classical.not_not] at h1
    simp only at h
    split at h
    · rename_i name hname
      split at h
      · simp at h
      · rename_i h2
        simp only [ne_eq, Classical.not_not] at h2
        split at h
        · simp at h
        · rename_i as s1 heq
          split at h
          · simp at h
          · rename_i h3
            simp only [ne_eq, Classical.not_not] at h3
            rw [fnArgs_eq n 0] at heq
            obtain ⟨ts, e, hc, hl, -⟩ := commaLoop_sound argItem_sound _ _ _ _ _ heq
            have hreg1 : s1.adv.registered = [] := by
              show s1.registered = []
              rw [hc.registered]; exact hreg
            have hl1 : s1.adv.lastFn = s.lastFn := by show s1.lastFn = _; rw [hc.lastFn]; rfl
            obtain ⟨us, ret, hr, hreg', hlast, hg, rfl⟩ := fnTail_sound hreg1 h
            refine ⟨name, ts, us, as, e, ret, ?_, hreg', by rw [hlast, hl1], hl, hg, by rw [hl1]⟩
            have := (Consumed.cons h1 (by simp) (Consumed.cons hname (by simp)
              (Consumed.cons h2 (by simp) (hc.trans (Consumed.one h3 (by simp)))))).1
            rw [this, hr]; simp
    · simp at h

theorem parseRead_sound {n : Nat} {a : Bool} {s : PS} {d : ASTNode} {s' : PS} (hreg : s.registered = [])
    (h : parseRead n a s = .ok (d, s')) : ∃ name us ret,
      s.rest = (.kwRead :: .id name :: us) ++ s'.rest ∧
      s'.registered = [] ∧ s'.lastFn = s.lastFn + 1 ∧ RetG true us ret ∧
      d = .fn ⟨name, s.lastFn, [], ret, true, a⟩ := by
  unfold parseRead at h
  split at h
  · simp at h
  · rename_i h1
    simp only [ne_eq, Classical.not_not] at h1
    simp only at h
    split at h
    · rename_i name hname
      obtain ⟨us, ret, hr, hreg', hlast, hg, rfl⟩ := fnTail_sound (s := s.adv.adv) hreg h
      refine ⟨name, us, ret, ?_, hreg', hlast, hg, rfl⟩
      rw [(Consumed.cons h1 (by simp) (Consumed.one hname (by simp))).1, hr]; simp
    · simp at h

theorem const_sound (n : Nat) :
    (∀ s c s', s.cur = .kwConst → parseConst n s = .ok (c, s') → ∃ ts, Consumed s
      (.kwConst :: .id c.id :: .sym '{' :: (ts ++ [.sym '}'])) s' ∧ ConstG true ts c.items) ∧
    (∀ s is s', constItems n s = .ok (is, s') → ∃ ts, Consumed s ts s' ∧ ConstG true ts is) := by
  induction n with
  | zero => constructor <;> intros <;> simp_all [parseConst, constItems]
  | succ n ih =>
    obtain ⟨ih1, ih2⟩ := ih
    constructor
    · intro s c s' h0 h
      unfold parseConst at h
      simp only at h
      split at h
      · rename_i id hid
        split at h
        · simp at h
        · rename_i h1
          simp only [ne_eq, Classical.not_not] at h1
          split at h
          · simp at h
          · rename_i items s1 heq
            split at h
            · simp at h
            · rename_i h2
              simp only [ne_eq, Classical.not_not] at h2
              simp only [Except.ok.injEq, Prod.mk.injEq] at h
              obtain ⟨rfl, rfl⟩ := h
              obtain ⟨ts, hc, hg⟩ := ih2 _ _ _ heq
              exact ⟨ts, Consumed.cons h0 (by simp) (Consumed.cons hid (by simp)
                (Consumed.cons h1 (by simp) (hc.trans (Consumed.one h2 (by simp))))), hg⟩
      · simp at h
    · intro s is s' h
      unfold constItems at h
      split at h
      · split at h
        · rename_i hk
          split at h
          · simp at h
          · rename_i c s1 heq
            split at h
            · simp at h
            · rename_i is' s2 heq2
              simp only [Except.ok.injEq, Prod.mk.injEq] at h
              obtain ⟨rfl, rfl⟩ := h
              obtain ⟨ts, hc, hg⟩ := ih1 _ _ _ hk heq
              obtain ⟨us, hc2, hg2⟩ := ih2 _ _ _ heq2
              refine ⟨.kwConst :: .id c.id :: .sym '{' :: (ts ++ .sym '}' :: us), ?_, .node _ _ _ _ _ hg hg2⟩
              have := hc.trans hc2
              simpa using this
        · rename_i id hid
          simp only at h
          split at h
          · simp at h
          · rename_i h1
            simp only [ne_eq, Classical.not_not] at h1
            split at h
            · simp at h
            · rename_i t s1 heq
              split at h
              · simp at h
              · rename_i h2
                simp only [ne_eq, Classical.not_not] at h2
                split at h
                · simp at h
                · rename_i v hv
                  split at h
                  · simp at h
                  · rename_i h3
                    simp only [ne_eq, Classical.not_not] at h3
                    split at h
                    · simp at h
                    · rename_i is' s2 heq2
                      simp only [Except.ok.injEq, Prod.mk.injEq] at h
                      obtain ⟨rfl, rfl⟩ := h
                      obtain ⟨ts, hc, hg⟩ := parseTypeId_sound heq
                      obtain ⟨us, hc2, hg2⟩ := ih2 _ _ _ heq2
                      obtain ⟨l, hl, rfl⟩ := parseConstValue_sound hv
                      exact ⟨_, Consumed.cons hid (by simp) (Consumed.cons h1 (by simp) (hc.trans
                        (Consumed.cons h2 (by simp) (Consumed.cons hl (by simp)
                        (Consumed.cons h3 (by simp) hc2))))), .value _ _ _ _ _ _ hg hg2⟩
        · simp at h
      · simp only [Except.ok.injEq, Prod.mk.injEq] at h
        obtain ⟨rfl, rfl⟩ := h
        exact ⟨[], Consumed.nil _, .nil⟩

theorem pairItem_sound (n i : Nat) (s : PS) (a : IdValuePair) (s' : PS)
    (h : pairItem n i s = .ok (a, s')) : ∃ ts, Consumed s ts s' ∧ PairG i ts a := by
  unfold pairItem at h
  split at h
  · rename_i name hname
    split at h
    · simp at h
    · rename_i h1
      simp only [ne_eq, Classical.not_not] at h1
      split at h
      · simp at h
      · rename_i v hv
        simp only [Except.ok.injEq, Prod.mk.injEq] at h
        obtain ⟨rfl, rfl⟩ := h
        obtain ⟨l, hl, rfl⟩ := parseConstValue_sound hv
        exact ⟨_, Consumed.cons hname (by simp) (Consumed.cons h1 (by simp)
          (Consumed.one hl (by simp))), .mk _ _ _⟩
  · simp at h

theorem PS.rest_cases (s : PS) : s.rest = [] ∨ s.rest = s.cur :: s.adv.rest := by
  cases h : s.rest with
  | nil => exact .inl rfl
  | cons x r => right; simp [PS.cur, PS.adv, h]

theorem PS.cur_adv_nil {s : PS} (h : s.rest = []) : s.adv.cur = .eof := by
  simp [PS.cur, PS.adv, h]

theorem parseDirective_sound {n : Nat} {s : PS} {d : ASTNode} {s' : PS} (k : Nat)
    (h : parseDirective n s = .ok (d, s')) : ∃ ts, Consumed s ts s' ∧ DeclG true k ts d k := by
  unfold parseDirective at h
  split at h
  · simp at h
  · rename_i h1
    simp only [ne_eq, Classical.not_not] at h1
    simp only at h
    split at h
    · simp at h
    · rename_i h2
      simp only [ne_eq, Classical.not_not] at h2
      split at h
      · rename_i id hid
        split at h
        · simp at h
        · rename_i dir s1 hdir
          split at h
          · simp at h
          · rename_i h3
            simp only [ne_eq, Classical.not_not] at h3
            simp only [Except.ok.injEq, Prod.mk.injEq] at h
            obtain ⟨rfl, rfl⟩ := h
            split at hdir
            · rename_i h4
              unfold parseValueDirective at hdir
              simp only at hdir
              split at hdir
              · simp at hdir
              · rename_i v hv
                simp only [Except.ok.injEq, Prod.mk.injEq] at hdir
                obtain ⟨rfl, rfl⟩ := hdir
                obtain ⟨l, hl, rfl⟩ := parseConstValue_sound hv
                exact ⟨_, Consumed.cons h1 (by simp) (Consumed.cons h2 (by simp) (Consumed.cons hid (by simp)
                  (Consumed.cons h4 (by simp) (Consumed.cons hl (by simp)
                  (Consumed.one h3 (by simp)))))), .valueDirective _ _ _⟩
            · split at hdir
              · rename_i h4
                unfold parseGroupDirective at hdir
                split at hdir
                · simp at hdir
                · rename_i vs s2 heq
                  simp only [Except.ok.injEq, Prod.mk.injEq] at hdir
                  obtain ⟨rfl, rfl⟩ := hdir
                  rw [groupValues_eq n 0] at heq
                  obtain ⟨ts, e, hc, hl, he1, he2⟩ := commaLoop_sound pairItem_sound _ _ _ _ _ heq
                  have hx : Consumed s2 [s2.cur] s2.adv := by
                    rcases s2.rest_cases with hr | hr
                    · rw [PS.cur_adv_nil hr] at h3; simp at h3
                    · exact ⟨hr, rfl⟩
                  refine ⟨_, Consumed.cons h1 (by simp) (Consumed.cons h2 (by simp) (Consumed.cons hid (by simp)
                    (Consumed.cons h4 (by simp) (hc.trans (hx.trans (Consumed.one h3 (by simp))))))), ?_⟩
                  refine .groupDirective _ _ _ _ _ _ hl (.other _ rfl he2 ?_)
                  intro he m hm
                  have := he1 he
                  rw [hm] at this
                  simp [isId] at this
              · simp at hdir
      · simp at h

theorem parseDecl_sound {n : Nat} {s : PS} {d : ASTNode} {s' : PS} (hreg : s.registered = [])
    (h : parseDecl n s = .ok (d, s')) : ∃ ts, s.rest = ts ++ s'.rest ∧ s'.registered = [] ∧
      DeclG true s.lastFn ts d s'.lastFn := by
  have lift : (∃ ts, Consumed s ts s' ∧ DeclG true s.lastFn ts d s.lastFn) →
      ∃ ts, s.rest = ts ++ s'.rest ∧ s'.registered = [] ∧ DeclG true s.lastFn ts d s'.lastFn := by
    rintro ⟨ts, hc, hg⟩
    exact ⟨ts, hc.1, by rw [hc.registered]; exact hreg, by rw [hc.lastFn]; exact hg⟩
  unfold parseDecl at h
  split at h
  · exact lift (parseStruct_sound _ h)
  · exact lift (parseEnum_sound _ h)
  · rename_i hk
    unfold parseAsync at h
    simp only at h
    split at h
    · obtain ⟨name, ts, us, as, e, ret, hr, hreg', hl, hg, hg2, rfl⟩ := parseFn_sound (s := s.adv) hreg h
      refine ⟨_, ?_, hreg', by rw [hl]; exact .fn _ true _ _ _ _ _ _ hg hg2⟩
      rw [PS.rest_of_cur hk (by simp), hr]; simp [asyncTokens]
    · obtain ⟨name, us, ret, hr, hreg', hl, hg, rfl⟩ := parseRead_sound (s := s.adv) hreg h
      refine ⟨_, ?_, hreg', by rw [hl]; exact .read _ true _ _ _ hg⟩
      rw [PS.rest_of_cur hk (by simp), hr]; simp [asyncTokens]
    · simp at h
  · obtain ⟨name, ts, us, as, e, ret, hr, hreg', hl, hg, hg2, rfl⟩ := parseFn_sound hreg h
    exact ⟨_, hr, hreg', by rw [hl]; exact .fn _ false _ _ _ _ _ _ hg hg2⟩
  · obtain ⟨name, us, ret, hr, hreg', hl, hg, rfl⟩ := parseRead_sound hreg h
    exact ⟨_, hr, hreg', by rw [hl]; exact .read _ false _ _ _ hg⟩
  · rename_i hk
    split at h
    · simp at h
    · rename_i c s1 heq
      simp only [Except.ok.injEq, Prod.mk.injEq] at h
      obtain ⟨rfl, rfl⟩ := h
      obtain ⟨ts, hc, hg⟩ := (const_sound n).1 _ _ _ hk heq
      exact lift ⟨_, hc, .const _ _ _ _ hg⟩
  · split at h
    · exact lift (parseDirective_sound _ h)
    · simp at h
  · simp at h

theorem parseLoop_sound (n : Nat) (s : PS) (ds : List ASTNode) (s' : PS) (hreg : s.registered = [])
    (h : parseLoop n s = .ok (ds, s')) : ∃ ts, s.rest = ts ++ s'.rest ∧ s'.cur = .eof ∧
      SchemaG true s.lastFn ts ds s'.lastFn := by
  induction n generalizing s ds s' with
  | zero => simp [parseLoop] at h
  | succ n ih =>
    unfold parseLoop at h
    split at h
    · rename_i h1
      simp only [Except.ok.injEq, Prod.mk.injEq] at h
      obtain ⟨rfl, rfl⟩ := h
      exact ⟨[], rfl, h1, .nil _⟩
    · split at h
      · simp at h
      · rename_i d s1 heq
        split at h
        · simp at h
        · rename_i ds' s2 heq2
          simp only [Except.ok.injEq, Prod.mk.injEq] at h
          obtain ⟨rfl, rfl⟩ := h
          obtain ⟨ts, hr, hreg', hg⟩ := parseDecl_sound hreg heq
          obtain ⟨us, hr2, he, hg2⟩ := ih _ _ _ hreg' heq2
          exact ⟨ts ++ us, by rw [hr, hr2]; simp, he, .cons _ _ _ _ _ _ _ hg hg2⟩

end TPB
