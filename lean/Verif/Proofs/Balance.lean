/-
Bracket counting: a sentence of the lenient grammar whose brackets balance is a sentence of the
strict grammar.
-/
import Verif.Spec.Grammar
namespace TPB
open Spec

/-- `<` and the `-` of an arrow open, `>` closes. -/
def angleW : Token → Int
  | .sym c => if c = '<' then 1 else if c = '-' then 1 else if c = '>' then -1 else 0
  | _ => 0

def parenW : Token → Int
  | .sym c => if c = '(' then 1 else if c = ')' then -1 else 0
  | _ => 0

def angle (ts : List Token) : Int := (ts.map angleW).sum
def paren (ts : List Token) : Int := (ts.map parenW).sum

@[simp] theorem angle_nil : angle [] = 0 := rfl
@[simp] theorem paren_nil : paren [] = 0 := rfl
@[simp] theorem angle_cons (t ts) : angle (t :: ts) = angleW t + angle ts := by simp [angle]
@[simp] theorem paren_cons (t ts) : paren (t :: ts) = parenW t + paren ts := by simp [paren]
@[simp] theorem angle_append (ts us) : angle (ts ++ us) = angle ts + angle us := by simp [angle]
@[simp] theorem paren_append (ts us) : paren (ts ++ us) = paren ts + paren us := by simp [paren]

theorem angle_count (ts : List Token) :
    angle ts = ts.count (.sym '<') + ts.count (.sym '-') - ts.count (.sym '>') := by
  induction ts with
  | nil => simp
  | cons t ts ih =>
    rw [angle_cons, ih]
    simp only [List.count_cons, beq_iff_eq]
    cases t with
    | sym c =>
      simp only [angleW, Token.sym.injEq]
      by_cases h1 : c = '<'
      · subst h1; simp; omega
      · by_cases h2 : c = '-'
        · subst h2; simp; omega
        · by_cases h3 : c = '>'
          · subst h3; simp; omega
          · simp [h1, h2, h3]
    | _ => simp [angleW]

theorem paren_count (ts : List Token) : paren ts = ts.count (.sym '(') - ts.count (.sym ')') := by
  induction ts with
  | nil => simp
  | cons t ts ih =>
    rw [paren_cons, ih]
    simp only [List.count_cons, beq_iff_eq]
    cases t with
    | sym c =>
      simp only [parenW, Token.sym.injEq]
      by_cases h1 : c = '('
      · subst h1; simp; omega
      · by_cases h2 : c = ')'
        · subst h2; simp; omega
        · simp [h1, h2]
    | _ => simp [parenW]

/-- `ts` is a piece of a lenient sentence, strict (`P`) if its angle brackets balance. -/
def Bal (ts : List Token) (P : Prop) : Prop := paren ts = 0 ∧ 0 ≤ angle ts ∧ (angle ts = 0 → P)

theorem type_bal {k : TypeKind} {ts : List Token} (h : TypeG true k ts) : Bal ts (TypeG false k ts) := by
  induction h with
  | name n => exact ⟨by simp [parenW], by simp [angleW], fun _ => .name n⟩
  | generic n as ts _ ih =>
    obtain ⟨h1, h2, h3⟩ := ih
    refine ⟨by simp [parenW, h1], by simp [angleW]; omega, fun h => .generic _ _ _ (h3 ?_)⟩
    simp [angleW] at h; omega
  | openBracket n ts _ _ ih =>
    obtain ⟨h1, h2, h3⟩ := ih
    refine ⟨by simp [parenW, h1], by simp [angleW]; omega, fun h => ?_⟩
    simp [angleW] at h; omega
  | argsOne t ts _ ih => exact ⟨ih.1, ih.2.1, fun h => .argsOne _ _ (ih.2.2 h)⟩
  | argsMore t ts as us _ _ ih ih2 =>
    obtain ⟨h1, h2, h3⟩ := ih
    obtain ⟨g1, g2, g3⟩ := ih2
    refine ⟨by simp [parenW, h1, g1], by simp [angleW]; omega, fun h => ?_⟩
    simp [angleW] at h
    exact .argsMore _ _ _ _ (h3 (by omega)) (g3 (by omega))
  | openNil => exact ⟨rfl, by simp, fun _ => .openNil⟩
  | openMore t ts us _ _ ih ih2 =>
    obtain ⟨h1, h2, h3⟩ := ih
    obtain ⟨g1, g2, g3⟩ := ih2
    refine ⟨by simp [parenW, h1, g1], by simp [angleW]; omega, fun h => ?_⟩
    simp [angleW] at h
    exact .openMore _ _ _ (h3 (by omega)) (g3 (by omega))

theorem commaList_bal {α : Type} {P Q : Nat → List Token → α → Prop}
    (hP : ∀ i ts a, P i ts a → Bal ts (Q i ts a)) {i : Nat} {ts : List Token} {as : List α} {e : Bool}
    (h : CommaList P i ts as e) : Bal ts (CommaList Q i ts as e) := by
  induction h with
  | nil i => exact ⟨rfl, by simp, fun _ => .nil i⟩
  | last i ts a hp => exact ⟨(hP _ _ _ hp).1, (hP _ _ _ hp).2.1, fun h => .last _ _ _ ((hP _ _ _ hp).2.2 h)⟩
  | more i ts us a as e hp _ ih =>
    obtain ⟨h1, h2, h3⟩ := hP _ _ _ hp
    obtain ⟨g1, g2, g3⟩ := ih
    refine ⟨by simp [parenW, h1, g1], by simp [angleW]; omega, fun h => ?_⟩
    simp [angleW] at h
    exact .more _ _ _ _ _ _ (h3 (by omega)) (g3 (by omega))

theorem Bal.imp {ts : List Token} {P Q : Prop} (h : Bal ts P) (f : P → Q) : Bal ts Q :=
  ⟨h.1, h.2.1, fun x => f (h.2.2 x)⟩

theorem Bal.wrap {ts us : List Token} {P Q : Prop} (h : Bal ts P) (hp : paren us = paren ts)
    (ha : angle us = angle ts) (f : P → Q) : Bal us Q :=
  ⟨by rw [hp]; exact h.1, by rw [ha]; exact h.2.1, fun x => f (h.2.2 (by rw [← ha]; exact x))⟩

theorem fieldsG_bal {ts : List Token} {fs : List StructField} (h : FieldsG true ts fs) :
    Bal ts (FieldsG false ts fs) := by
  cases h with
  | plain e h =>
    refine (commaList_bal (Q := FieldG false) (fun i ts a h => ?_) h).imp (.plain _ _ _)
    cases h with
    | mk n t us ht => exact (type_bal ht).wrap (by simp [parenW]) (by simp [angleW]) (.mk _ _ _ _)
  | numbered e h =>
    refine (commaList_bal (Q := NumFieldG false) (fun i ts a h => ?_) h).imp (.numbered _ _ _)
    cases h with
    | mk v n t us ht =>
      exact (type_bal ht).wrap (by simp [parenW, positionTokens]) (by simp [angleW, positionTokens]) (.mk _ _ _ _ _)

theorem tupsG_bal {ts : List Token} {fs : List TupleField} (h : TupsG true ts fs) :
    Bal ts (TupsG false ts fs) := by
  cases h with
  | plain e h =>
    refine (commaList_bal (Q := TupG false) (fun i ts a h => ?_) h).imp (.plain _ _ _)
    cases h with
    | mk t us ht => exact (type_bal ht).wrap rfl rfl (.mk _ _ _)
  | numbered e h =>
    refine (commaList_bal (Q := NumTupG false) (fun i ts a h => ?_) h).imp (.numbered _ _ _)
    cases h with
    | mk v t us ht =>
      exact (type_bal ht).wrap (by simp [parenW, positionTokens]) (by simp [angleW, positionTokens]) (.mk _ _ _ _)

theorem variantG_bal {p : Nat} {ts : List Token} {it : EnumItem} (h : VariantG true p ts it) :
    Bal ts (VariantG false p ts it) := by
  cases h with
  | empty n => exact ⟨by simp [parenW], by simp [angleW], fun _ => .empty n⟩
  | tuple n ts fs h =>
    exact (tupsG_bal h).wrap (by simp [parenW]; omega) (by simp [angleW]) (.tuple _ _ _)
  | struct n ts fs h =>
    exact (fieldsG_bal h).wrap (by simp [parenW]) (by simp [angleW]) (.struct _ _ _)

theorem variantsG_bal {ts : List Token} {is : List EnumItem} (h : VariantsG true ts is) :
    Bal ts (VariantsG false ts is) := by
  cases h with
  | plain e h =>
    exact (commaList_bal (Q := VariantG false) (fun i ts a h => variantG_bal h) h).imp (.plain _ _ _)
  | numbered e h =>
    refine (commaList_bal (Q := NumVariantG false) (fun i ts a h => ?_) h).imp (.numbered _ _ _)
    cases h with
    | mk v us it ht =>
      exact (variantG_bal ht).wrap (by simp [parenW, positionTokens]) (by simp [angleW, positionTokens])
        (.mk _ _ _ _)

theorem retG_bal {ts : List Token} {r : Option TypeId} (h : RetG true ts r) : Bal ts (RetG false ts r) := by
  cases h with
  | none => exact ⟨by simp [parenW], by simp [angleW], fun _ => .none⟩
  | some t us ht => exact (type_bal ht).wrap (by simp [parenW]) (by simp [angleW]; omega) (.some _ _)

theorem constG_bal {ts : List Token} {is : List ConstItem} (h : ConstG true ts is) :
    Bal ts (ConstG false ts is) := by
  induction h with
  | nil => exact ⟨rfl, by simp, fun _ => .nil⟩
  | value n t l ts us is ht _ ih =>
    obtain ⟨h1, h2, h3⟩ := type_bal ht
    obtain ⟨g1, g2, g3⟩ := ih
    refine ⟨by simp [parenW, h1, g1], by simp [angleW]; omega, fun h => ?_⟩
    simp [angleW] at h
    exact .value _ _ _ _ _ _ (h3 (by omega)) (g3 (by omega))
  | node n ts us is js _ _ ih ih2 =>
    obtain ⟨h1, h2, h3⟩ := ih
    obtain ⟨g1, g2, g3⟩ := ih2
    refine ⟨by simp [parenW, h1, g1], by simp [angleW]; omega, fun h => ?_⟩
    simp [angleW] at h
    exact .node _ _ _ _ _ (h3 (by omega)) (g3 (by omega))

/-- For declarations and schemas the parentheses come first: a group directive closed by a stray token
leaves one open. -/
def BalD (ts : List Token) (P : Prop) : Prop :=
  0 ≤ paren ts ∧ (paren ts = 0 → 0 ≤ angle ts ∧ (angle ts = 0 → P))

theorem Bal.toD {ts : List Token} {P : Prop} (h : Bal ts P) : BalD ts P :=
  ⟨by rw [h.1]; simp, fun _ => h.2⟩

theorem asyncTokens_w (a : Bool) : paren (asyncTokens a) = 0 ∧ angle (asyncTokens a) = 0 := by
  cases a <;> simp [asyncTokens, parenW, angleW]

theorem declG_bal {k k' : Nat} {ts : List Token} {d : ASTNode} (h : DeclG true k ts d k') :
    BalD ts (DeclG false k ts d k') := by
  cases h with
  | unit => exact Bal.toD ⟨by simp [parenW], by simp [angleW], fun _ => .unit _ _⟩
  | struct n ts fs h hne =>
    exact ((fieldsG_bal h).wrap (by simp [parenW]) (by simp [angleW]) (fun g => DeclG.struct _ _ _ _ g hne)).toD
  | enum n ts is h hne =>
    exact ((variantsG_bal h).wrap (by simp [parenW]) (by simp [angleW]) (fun g => DeclG.enum _ _ _ _ g hne)).toD
  | fn a n ts us as e r h h2 =>
    obtain ⟨h1, h2', h3⟩ := commaList_bal (Q := ArgG false) (fun i ts a h => by
      cases h with
      | mk n t us ht => exact (type_bal ht).wrap (by simp [parenW]) (by simp [angleW]) (.mk _ _ _ _)) h
    obtain ⟨g1, g2, g3⟩ := retG_bal h2
    have ⟨ha, hb⟩ := asyncTokens_w a
    refine Bal.toD ⟨by simp [parenW, h1, g1, ha], by simp [angleW, hb]; omega, fun h => ?_⟩
    simp [angleW, hb] at h
    exact .fn _ _ _ _ _ _ _ _ (h3 (by omega)) (g3 (by omega))
  | read a n us r h2 =>
    have ⟨ha, hb⟩ := asyncTokens_w a
    exact ((retG_bal h2).wrap (by simp [parenW, ha]) (by simp [angleW, hb]) (.read _ _ _ _ _)).toD
  | const n ts is h =>
    exact ((constG_bal h).wrap (by simp [parenW]) (by simp [angleW]) (.const _ _ _ _)).toD
  | valueDirective n l => exact Bal.toD ⟨by simp [parenW], by simp [angleW], fun _ => .valueDirective _ _ _⟩
  | groupDirective n ts ps e x h hx =>
    obtain ⟨h1, h2, h3⟩ := commaList_bal (Q := PairG) (fun i ts a h => by
      cases h with
      | mk n l => exact ⟨by simp [parenW], by simp [angleW], fun _ => .mk _ _ _⟩) h
    by_cases hp : x = .sym ')'
    · subst hp
      refine Bal.toD ⟨by simp [parenW, h1], by simp [angleW, h2], fun h => ?_⟩
      simp [angleW] at h
      exact .groupDirective _ _ _ _ _ _ (h3 h) .paren
    · have hw : 0 ≤ parenW x := by
        unfold parenW
        split
        · rename_i c
          have : c ≠ ')' := fun h => hp (by rw [h])
          split <;> simp [this]
        · simp
      have e : paren (.sym '#' :: .sym '[' :: .id n :: .sym '(' :: (ts ++ [x, .sym ']'])) = 1 + parenW x := by
        simp [parenW, h1]
      exact ⟨by rw [e]; omega, fun h => by rw [e] at h; omega⟩

theorem schemaG_bal {k k' : Nat} {ts : List Token} {ds : List ASTNode} (h : SchemaG true k ts ds k') :
    BalD ts (SchemaG false k ts ds k') := by
  induction h with
  | nil k => exact ⟨by simp, fun _ => ⟨by simp, fun _ => .nil k⟩⟩
  | cons k k' k'' ts us d ds hd _ ih =>
    obtain ⟨h1, h2⟩ := declG_bal hd
    obtain ⟨g1, g2⟩ := ih
    refine ⟨by simp; omega, fun hp => ?_⟩
    simp at hp
    obtain ⟨h3, h4⟩ := h2 (by omega)
    obtain ⟨g3, g4⟩ := g2 (by omega)
    refine ⟨by simp; omega, fun ha => ?_⟩
    simp at ha
    exact .cons _ _ _ _ _ _ _ (h4 (by omega)) (g4 (by omega))

/-- Sentences of the strict grammar balance. -/
theorem type_strict {k : TypeKind} {ts : List Token} {q : Bool} (hq : q = false) (h : TypeG q k ts) :
    angle ts = 0 := by
  induction h with
  | name n => simp [angleW]
  | generic n as ts _ ih => simp [angleW, ih]
  | openBracket n ts h _ _ => subst hq; simp at h
  | argsOne t ts _ ih => exact ih
  | argsMore t ts as us _ _ ih ih2 => simp [angleW, ih, ih2]
  | openNil => rfl
  | openMore t ts us _ _ ih ih2 => simp [angleW, ih, ih2]

theorem commaList_angle {α : Type} {P : Nat → List Token → α → Prop} (w : List Token → Int)
    (wnil : w [] = 0) (wapp : ∀ a b, w (a ++ .sym ',' :: b) = w a + w b)
    (hP : ∀ i ts a, P i ts a → w ts = 0) {i : Nat} {ts : List Token} {as : List α} {e : Bool}
    (h : CommaList P i ts as e) : w ts = 0 := by
  induction h with
  | nil i => exact wnil
  | last i ts a hp => exact hP _ _ _ hp
  | more i ts us a as e hp _ ih => rw [wapp, hP _ _ _ hp, ih]; rfl

theorem angleComma (a b : List Token) : angle (a ++ .sym ',' :: b) = angle a + angle b := by simp [angleW]

theorem type_lenient {k : TypeKind} {ts : List Token} (h : TypeG false k ts) : TypeG true k ts := by
  induction h with
  | name n => exact .name n
  | generic n as ts _ ih => exact .generic _ _ _ ih
  | openBracket n ts h _ _ => simp at h
  | argsOne t ts _ ih => exact .argsOne _ _ ih
  | argsMore t ts as us _ _ ih ih2 => exact .argsMore _ _ _ _ ih ih2
  | openNil => exact .openNil
  | openMore t ts us _ _ ih ih2 => exact .openMore _ _ _ ih ih2

theorem fieldsG_angle {ts : List Token} {fs : List StructField} (h : FieldsG false ts fs) : angle ts = 0 := by
  cases h with
  | plain e h =>
    refine commaList_angle angle rfl angleComma (fun i ts a h => ?_) h
    cases h with | mk n t us ht => simp [angleW, type_strict rfl ht]
  | numbered e h =>
    refine commaList_angle angle rfl angleComma (fun i ts a h => ?_) h
    cases h with | mk v n t us ht => simp [angleW, positionTokens, type_strict rfl ht]

theorem tupsG_angle {ts : List Token} {fs : List TupleField} (h : TupsG false ts fs) : angle ts = 0 := by
  cases h with
  | plain e h =>
    refine commaList_angle angle rfl angleComma (fun i ts a h => ?_) h
    cases h with | mk t us ht => exact type_strict rfl ht
  | numbered e h =>
    refine commaList_angle angle rfl angleComma (fun i ts a h => ?_) h
    cases h with | mk v t us ht => simp [angleW, positionTokens, type_strict rfl ht]

theorem variantG_angle {p : Nat} {ts : List Token} {it : EnumItem} (h : VariantG false p ts it) :
    angle ts = 0 := by
  cases h with
  | empty n => simp [angleW]
  | tuple n ts fs h => simp [angleW, tupsG_angle h]
  | struct n ts fs h => simp [angleW, fieldsG_angle h]

theorem variantsG_angle {ts : List Token} {is : List EnumItem} (h : VariantsG false ts is) : angle ts = 0 := by
  cases h with
  | plain e h => exact commaList_angle angle rfl angleComma (fun i ts a h => variantG_angle h) h
  | numbered e h =>
    refine commaList_angle angle rfl angleComma (fun i ts a h => ?_) h
    cases h with | mk v us it ht => simp [angleW, positionTokens, variantG_angle ht]

theorem retG_angle {ts : List Token} {r : Option TypeId} (h : RetG false ts r) : angle ts = 0 := by
  cases h with
  | none => simp [angleW]
  | some t us ht => simp [angleW, type_strict rfl ht]

theorem constG_angle {ts : List Token} {is : List ConstItem} (h : ConstG false ts is) : angle ts = 0 := by
  induction h with
  | nil => rfl
  | value n t l ts us is ht _ ih => simp [angleW, type_strict rfl ht, ih]
  | node n ts us is js _ _ ih ih2 => simp [angleW, ih, ih2]

/-- Strict sentences are lenient sentences. -/
theorem commaList_mono {α : Type} {P Q : Nat → List Token → α → Prop} (hP : ∀ i ts a, P i ts a → Q i ts a)
    {i : Nat} {ts : List Token} {as : List α} {e : Bool} (h : CommaList P i ts as e) : CommaList Q i ts as e := by
  induction h with
  | nil i => exact .nil i
  | last i ts a hp => exact .last _ _ _ (hP _ _ _ hp)
  | more i ts us a as e hp _ ih => exact .more _ _ _ _ _ _ (hP _ _ _ hp) ih

theorem fieldsG_lenient {ts : List Token} {fs : List StructField} (h : FieldsG false ts fs) : FieldsG true ts fs := by
  cases h with
  | plain e h => exact .plain _ _ _ (commaList_mono (fun i ts a h => by
      cases h with | mk n t us ht => exact .mk _ _ _ _ (type_lenient ht)) h)
  | numbered e h => exact .numbered _ _ _ (commaList_mono (fun i ts a h => by
      cases h with | mk v n t us ht => exact .mk _ _ _ _ _ (type_lenient ht)) h)

theorem tupsG_lenient {ts : List Token} {fs : List TupleField} (h : TupsG false ts fs) : TupsG true ts fs := by
  cases h with
  | plain e h => exact .plain _ _ _ (commaList_mono (fun i ts a h => by
      cases h with | mk t us ht => exact .mk _ _ _ (type_lenient ht)) h)
  | numbered e h => exact .numbered _ _ _ (commaList_mono (fun i ts a h => by
      cases h with | mk v t us ht => exact .mk _ _ _ _ (type_lenient ht)) h)

theorem variantG_lenient {p : Nat} {ts : List Token} {it : EnumItem} (h : VariantG false p ts it) :
    VariantG true p ts it := by
  cases h with
  | empty n => exact .empty n
  | tuple n ts fs h => exact .tuple _ _ _ (tupsG_lenient h)
  | struct n ts fs h => exact .struct _ _ _ (fieldsG_lenient h)

theorem variantsG_lenient {ts : List Token} {is : List EnumItem} (h : VariantsG false ts is) :
    VariantsG true ts is := by
  cases h with
  | plain e h => exact .plain _ _ _ (commaList_mono (fun i ts a h => variantG_lenient h) h)
  | numbered e h => exact .numbered _ _ _ (commaList_mono (fun i ts a h => by
      cases h with | mk v us it ht => exact .mk _ _ _ _ (variantG_lenient ht)) h)

theorem retG_lenient {ts : List Token} {r : Option TypeId} (h : RetG false ts r) : RetG true ts r := by
  cases h with
  | none => exact .none
  | some t us ht => exact .some _ _ (type_lenient ht)

theorem constG_lenient {ts : List Token} {is : List ConstItem} (h : ConstG false ts is) : ConstG true ts is := by
  induction h with
  | nil => exact .nil
  | value n t l ts us is ht _ ih => exact .value _ _ _ _ _ _ (type_lenient ht) ih
  | node n ts us is js _ _ ih ih2 => exact .node _ _ _ _ _ ih ih2

theorem declG_lenient {k k' : Nat} {ts : List Token} {d : ASTNode} (h : DeclG false k ts d k') :
    DeclG true k ts d k' := by
  cases h with
  | unit => exact .unit _ _
  | struct n ts fs h hne => exact .struct _ _ _ _ (fieldsG_lenient h) hne
  | enum n ts is h hne => exact .enum _ _ _ _ (variantsG_lenient h) hne
  | fn a n ts us as e r h h2 => exact .fn _ _ _ _ _ _ _ _ (commaList_mono (fun i ts a h => by
      cases h with | mk n t us ht => exact .mk _ _ _ _ (type_lenient ht)) h) (retG_lenient h2)
  | read a n us r h2 => exact .read _ _ _ _ _ (retG_lenient h2)
  | const n ts is h => exact .const _ _ _ _ (constG_lenient h)
  | valueDirective n l => exact .valueDirective _ _ _
  | groupDirective n ts ps e x h hx =>
    cases hx with
    | paren => exact .groupDirective _ _ _ _ _ _ h .paren
    | other _ h => simp at h

theorem schemaG_lenient {k k' : Nat} {ts : List Token} {ds : List ASTNode} (h : SchemaG false k ts ds k') :
    SchemaG true k ts ds k' := by
  induction h with
  | nil k => exact .nil k
  | cons k k' k'' ts us d ds hd _ ih => exact .cons _ _ _ _ _ _ _ (declG_lenient hd) ih

/-- Strict schemas balance. -/
theorem declG_strict {k k' : Nat} {ts : List Token} {d : ASTNode} (h : DeclG false k ts d k') :
    paren ts = 0 ∧ angle ts = 0 := by
  cases h with
  | unit => simp [parenW, angleW]
  | struct n ts fs h hne => simp [parenW, angleW, fieldsG_angle h, (fieldsG_bal (fieldsG_lenient h)).1]
  | enum n ts is h hne => simp [parenW, angleW, variantsG_angle h, (variantsG_bal (variantsG_lenient h)).1]
  | fn a n ts us as e r h h2 =>
    have h1 := commaList_angle angle rfl angleComma (fun i ts a h => by
      cases h with | mk n t us ht => simp [angleW, type_strict rfl ht]) h
    have h2' := commaList_angle paren rfl (by simp [parenW]) (fun i ts a h => by
      cases h with | mk n t us ht => simp [parenW, (type_bal (type_lenient ht)).1]) h
    have ⟨ha, hb⟩ := asyncTokens_w a
    simp [parenW, angleW, h1, h2', ha, hb, retG_angle h2, (retG_bal (retG_lenient h2)).1]
  | read a n us r h2 =>
    have ⟨ha, hb⟩ := asyncTokens_w a
    simp [parenW, angleW, ha, hb, retG_angle h2, (retG_bal (retG_lenient h2)).1]
  | const n ts is h => simp [parenW, angleW, constG_angle h, (constG_bal (constG_lenient h)).1]
  | valueDirective n l => simp [parenW, angleW]
  | groupDirective n ts ps e x h hx =>
    have h1 := commaList_angle angle rfl angleComma (fun i ts a h => by cases h; simp [angleW]) h
    have h2 := commaList_angle paren rfl (by simp [parenW]) (fun i ts a h => by cases h; simp [parenW]) h
    cases hx with
    | paren => simp [parenW, angleW, h1, h2]
    | other _ h => simp at h

theorem schemaG_strict {k k' : Nat} {ts : List Token} {ds : List ASTNode} (h : SchemaG false k ts ds k') :
    paren ts = 0 ∧ angle ts = 0 := by
  induction h with
  | nil k => exact ⟨rfl, rfl⟩
  | cons k k' k'' ts us d ds hd _ ih =>
    have h1 := declG_strict hd
    simp [h1.1, h1.2, ih.1, ih.2]

end TPB
