/-
The eight comma-separated loops of parser.rs are instances of one generic loop; this file states the
generic loop and proves it sound and complete for `CommaList`.
-/
import Verif.Model.Parser
import Verif.Spec.Grammar
namespace TPB
open Spec

/-- The common shape of the comma loops of parser.rs. -/
def commaLoop {α : Type} (isStart : Token → Bool) (item : Nat → Nat → PS → PRes α) :
    Nat → Nat → PS → PRes (List α)
  | 0, _, _ => .error .outOfFuel
  | n + 1, i, s =>
    if isStart s.cur then
      match item n i s with
      | .error e => .error e
      | .ok (a, s) =>
        if s.cur ≠ .sym ',' then .ok ([a], s)
        else
          match commaLoop isStart item n (i + 1) s.adv with
          | .error e => .error e
          | .ok (as, s) => .ok (a :: as, s)
    else .ok ([], s)

/-- Is the token an identifier? -/
def isId : Token → Bool
  | .id _ => true
  | _ => false

/-- Is the token `#`? -/
def isHash (t : Token) : Bool := t == .sym '#'

/-! ### The item parsers -/

def fieldItem (n i : Nat) (s : PS) : PRes StructField :=
  match s.cur with
  | .id name =>
    if s.adv.cur ≠ .sym ':' then .error (.unexpected s.adv.cur)
    else
      match parseTypeId n s.adv.adv with
      | .error e => .error e
      | .ok (t, s) => .ok (⟨i, name, t⟩, s)
  | t => .error (.unexpected t)

def numFieldItem (n _i : Nat) (s : PS) : PRes StructField :=
  match parsePosition s with
  | .error e => .error e
  | .ok (p, s) => fieldItem n p s

def tupItem (n i : Nat) (s : PS) : PRes TupleField :=
  match parseTypeId n s with
  | .error e => .error e
  | .ok (t, s) => .ok (⟨i, t⟩, s)

def numTupItem (n _i : Nat) (s : PS) : PRes TupleField :=
  match parsePosition s with
  | .error e => .error e
  | .ok (p, s) => tupItem n p s

def variantItem (n i : Nat) (s : PS) : PRes EnumItem :=
  match s.cur with
  | .id name => enumItemBody n i name s.adv
  | t => .error (.unexpected t)

def numVariantItem (n _i : Nat) (s : PS) : PRes EnumItem :=
  match parsePosition s with
  | .error e => .error e
  | .ok (p, s) => variantItem n p s

def argItem (n _i : Nat) (s : PS) : PRes FnArg :=
  match s.cur with
  | .id name =>
    if s.adv.cur ≠ .sym ':' then .error (.unexpected s.adv.cur)
    else
      match parseTypeId n s.adv.adv with
      | .error e => .error e
      | .ok (t, s) => .ok (⟨name, t⟩, s)
  | t => .error (.unexpected t)

def pairItem (_n _i : Nat) (s : PS) : PRes IdValuePair :=
  match s.cur with
  | .id name =>
    if s.adv.cur ≠ .sym '=' then .error (.unexpected s.adv.cur)
    else
      match parseConstValue s.adv.adv with
      | .error e => .error e
      | .ok v => .ok (⟨name, v⟩, s.adv.adv.adv)
  | t => .error (.unexpected t)

/-! ### The loops are instances -/

local macro "split_loop" : tactic =>
  `(tactic| (split <;> first | rfl | (generalize commaLoop _ _ _ _ _ = x; cases x <;> rfl)))

theorem structParamsNoPos_eq (n i : Nat) (s : PS) :
    structParamsNoPos n i s = commaLoop isId fieldItem n i s := by
  induction n generalizing i s with
  | zero => rfl
  | succ n ih =>
    unfold structParamsNoPos commaLoop
    cases h : s.cur <;> simp only [isId, fieldItem, h, Bool.false_eq_true, if_false, if_true]
    split
    · rfl
    · cases parseTypeId n s.adv.adv <;> simp only [ih] <;> split_loop

theorem structParamsPos_eq (n i : Nat) (s : PS) :
    structParamsPos n s = commaLoop isHash numFieldItem n i s := by
  induction n generalizing i s with
  | zero => rfl
  | succ n ih =>
    unfold structParamsPos commaLoop
    simp only [isHash, numFieldItem, beq_iff_eq]
    split
    · cases parsePosition s with
      | error e => rfl
      | ok p =>
        obtain ⟨p, s⟩ := p
        simp only [fieldItem]
        cases s.cur <;> simp only
        split
        · rfl
        · cases parseTypeId n s.adv.adv <;> simp only [ih (i + 1)] <;> split_loop
    · rfl

theorem tupleParamsNoPos_eq (n i : Nat) (s : PS) :
    tupleParamsNoPos n i s = commaLoop isId tupItem n i s := by
  induction n generalizing i s with
  | zero => rfl
  | succ n ih =>
    unfold tupleParamsNoPos commaLoop
    cases h : s.cur <;> simp only [isId, tupItem, Bool.false_eq_true, if_false, if_true]
    cases parseTypeId n s <;> simp only [ih] <;> split_loop

theorem tupleParamsPos_eq (n i : Nat) (s : PS) :
    tupleParamsPos n s = commaLoop isHash numTupItem n i s := by
  induction n generalizing i s with
  | zero => rfl
  | succ n ih =>
    unfold tupleParamsPos commaLoop
    simp only [isHash, numTupItem, beq_iff_eq]
    split
    · cases parsePosition s with
      | error e => rfl
      | ok p =>
        obtain ⟨p, s⟩ := p
        simp only [tupItem]
        cases parseTypeId n s <;> simp only [ih (i + 1)] <;> split_loop
    · rfl

theorem enumItemsNoPos_eq (n i : Nat) (s : PS) :
    enumItemsNoPos n i s = commaLoop isId variantItem n i s := by
  induction n generalizing i s with
  | zero => rfl
  | succ n ih =>
    unfold enumItemsNoPos commaLoop
    cases h : s.cur <;> simp only [isId, variantItem, h, Bool.false_eq_true, if_false, if_true]
    rename_i name
    cases enumItemBody n i name s.adv <;> simp only [ih] <;> split_loop

theorem enumItemsPos_eq (n i : Nat) (s : PS) :
    enumItemsPos n s = commaLoop isHash numVariantItem n i s := by
  induction n generalizing i s with
  | zero => rfl
  | succ n ih =>
    unfold enumItemsPos commaLoop
    simp only [isHash, numVariantItem, beq_iff_eq]
    split
    · cases parsePosition s with
      | error e => rfl
      | ok p =>
        obtain ⟨p, s⟩ := p
        simp only [variantItem]
        cases s.cur <;> simp only
        rename_i name
        cases enumItemBody n p name s.adv <;> simp only [ih (i + 1)] <;> split_loop
    · rfl

theorem fnArgs_eq (n i : Nat) (s : PS) : fnArgs n s = commaLoop isId argItem n i s := by
  induction n generalizing i s with
  | zero => rfl
  | succ n ih =>
    unfold fnArgs commaLoop
    cases h : s.cur <;> simp only [isId, argItem, h, Bool.false_eq_true, if_false, if_true]
    split
    · rfl
    · cases parseTypeId n s.adv.adv <;> simp only [ih (i + 1)] <;> split_loop

theorem groupValues_eq (n i : Nat) (s : PS) : groupValues n s = commaLoop isId pairItem n i s := by
  induction n generalizing i s with
  | zero => rfl
  | succ n ih =>
    unfold groupValues commaLoop
    cases h : s.cur <;> simp only [isId, pairItem, h, Bool.false_eq_true, if_false, if_true]
    split
    · rfl
    · cases parseConstValue s.adv.adv <;> simp only [ih (i + 1)] <;> split_loop

/-! ### States -/

-- (The proofs below are not written as plain `rfl` so that `simp` uses them as ordinary rewrites.)
/-- The state with the same counter and other unread tokens. -/
def PS.at (s : PS) (r : List Token) : PS := { s with rest := r }

@[simp] theorem PS.at_rest (s : PS) (r : List Token) : (s.at r).rest = r := Eq.trans rfl rfl
@[simp] theorem PS.at_at (s : PS) (r r' : List Token) : (s.at r).at r' = s.at r' := Eq.trans rfl rfl
@[simp] theorem PS.at_self (s : PS) : s.at s.rest = s := Eq.trans rfl rfl
@[simp] theorem PS.at_cur (s : PS) (t : Token) (r : List Token) : (s.at (t :: r)).cur = t := Eq.trans rfl rfl
@[simp] theorem PS.at_cur_nil (s : PS) : (s.at []).cur = .eof := Eq.trans rfl rfl
@[simp] theorem PS.at_adv (s : PS) (t : Token) (r : List Token) : (s.at (t :: r)).adv = s.at r := Eq.trans rfl rfl
@[simp] theorem PS.at_lastFn (s : PS) (r : List Token) : (s.at r).lastFn = s.lastFn := Eq.trans rfl rfl
@[simp] theorem PS.at_registered (s : PS) (r : List Token) : (s.at r).registered = s.registered := Eq.trans rfl rfl

/-- If the current token is not EOF it is the head of the unread tokens. -/
theorem PS.rest_of_cur {s : PS} {t : Token} (h : s.cur = t) (ht : t ≠ .eof) :
    s.rest = t :: s.adv.rest := by
  unfold PS.cur at h
  cases hr : s.rest with
  | nil => rw [hr] at h; exact absurd h.symm ht
  | cons x r => rw [hr] at h; simp at h; subst h; simp [PS.adv, hr]

theorem PS.adv_eq_at (s : PS) : s.adv = s.at s.adv.rest := rfl

/-- `s'` is `s` after consuming the tokens `ts`. -/
def Consumed (s : PS) (ts : List Token) (s' : PS) : Prop :=
  s.rest = ts ++ s'.rest ∧ s' = s.at s'.rest

theorem Consumed.one {s : PS} {t : Token} (h : s.cur = t) (ht : t ≠ .eof) : Consumed s [t] s.adv :=
  ⟨by rw [PS.rest_of_cur h ht]; rfl, rfl⟩

theorem Consumed.nil (s : PS) : Consumed s [] s := ⟨rfl, rfl⟩

theorem Consumed.trans {s s' s'' : PS} {ts us : List Token} (h1 : Consumed s ts s') (h2 : Consumed s' us s'') :
    Consumed s (ts ++ us) s'' := by
  refine ⟨by rw [h1.1, h2.1]; simp, ?_⟩
  rw [h2.2, h1.2]; simp

theorem Consumed.cons {s s'' : PS} {t : Token} {us : List Token} (h : s.cur = t) (ht : t ≠ .eof)
    (h2 : Consumed s.adv us s'') : Consumed s (t :: us) s'' :=
  (Consumed.one h ht).trans h2

theorem Consumed.at {s : PS} {ts : List Token} {s' : PS} (h : Consumed s ts s') :
    s = s.at (ts ++ s'.rest) ∧ s' = s.at s'.rest := ⟨by rw [← h.1]; rfl, h.2⟩

/-! ### Soundness and completeness of the generic loop -/

theorem commaLoop_sound {α : Type} {isStart : Token → Bool} {item : Nat → Nat → PS → PRes α}
    {P : Nat → List Token → α → Prop}
    (hitem : ∀ n i s a s', item n i s = .ok (a, s') → ∃ ts, Consumed s ts s' ∧ P i ts a)
    (n i : Nat) (s : PS) (as : List α) (s' : PS) (h : commaLoop isStart item n i s = .ok (as, s')) :
    ∃ ts e, Consumed s ts s' ∧ CommaList P i ts as e ∧
      (e = true → isStart s'.cur = false) ∧ (e = false → s'.cur ≠ .sym ',') := by
  induction n generalizing i s as s' with
  | zero => simp [commaLoop] at h
  | succ n ih =>
    unfold commaLoop at h
    split at h
    · split at h
      · simp at h
      · rename_i a s1 heq
        obtain ⟨ts, hc, hp⟩ := hitem _ _ _ _ _ heq
        split at h
        · rename_i hcomma
          simp only [Except.ok.injEq, Prod.mk.injEq] at h
          obtain ⟨rfl, rfl⟩ := h
          exact ⟨ts, false, hc, .last i ts a hp, by simp, fun _ => hcomma⟩
        · rename_i hcomma
          simp only [ne_eq, Classical.not_not] at hcomma
          split at h
          · simp at h
          · rename_i as' s2 heq2
            simp only [Except.ok.injEq, Prod.mk.injEq] at h
            obtain ⟨rfl, rfl⟩ := h
            obtain ⟨us, e, hc2, hl, h3, h4⟩ := ih _ _ _ _ heq2
            exact ⟨ts ++ .sym ',' :: us, e, hc.trans (Consumed.cons hcomma (by simp) hc2),
              .more i ts us a as' e hp hl, h3, h4⟩
    · rename_i hs
      simp only [Except.ok.injEq, Prod.mk.injEq] at h
      obtain ⟨rfl, rfl⟩ := h
      exact ⟨[], true, Consumed.nil s, .nil i, fun _ => by simpa using hs, by simp⟩

theorem commaLoop_complete {α : Type} {isStart : Token → Bool} {item : Nat → Nat → PS → PRes α}
    {P : Nat → List Token → α → Prop} (Follow : Token → Prop) (hfc : Follow (.sym ','))
    (hitem : ∀ n i (s : PS) ts a r, P i ts a → ts.length ≤ n → Follow (s.at r).cur →
      item n i (s.at (ts ++ r)) = .ok (a, s.at r))
    (hstart : ∀ i ts a, P i ts a → ∃ t us, ts = t :: us ∧ isStart t = true)
    (i : Nat) (ts : List Token) (as : List α) (e : Bool) (hl : CommaList P i ts as e)
    (n : Nat) (s : PS) (r : List Token) (hn : ts.length < n)
    (h1 : e = true → isStart (s.at r).cur = false)
    (h2 : e = false → (s.at r).cur ≠ .sym ',')
    (h3 : Follow (s.at r).cur) :
    commaLoop isStart item n i (s.at (ts ++ r)) = .ok (as, s.at r) := by
  induction hl generalizing n with
  | nil i =>
    cases n with
    | zero => simp at hn
    | succ n => simp only [List.nil_append]; unfold commaLoop; simp [h1 rfl]
  | last i ts a hp =>
    cases n with
    | zero => simp at hn
    | succ n =>
      unfold commaLoop
      obtain ⟨t, us, rfl, ht⟩ := hstart _ _ _ hp
      rw [hitem n i s (t :: us) a r hp (by omega) h3]
      simp [ht, h2 rfl]
  | more i ts us a as e hp _ ih =>
    cases n with
    | zero => simp at hn
    | succ n =>
      simp only [List.length_append, List.length_cons] at hn
      unfold commaLoop
      obtain ⟨t, vs, rfl, ht⟩ := hstart _ _ _ hp
      have := hitem n i s (t :: vs) a (.sym ',' :: (us ++ r)) hp (by simp at hn ⊢; omega) (by simpa using hfc)
      simp only [List.append_assoc, List.cons_append] at this ⊢
      rw [this]
      have ih' := ih n (by omega) h1 h2
      simp [ht, ih']

theorem commaLoop_fuel {α : Type} {isStart : Token → Bool} {item : Nat → Nat → PS → PRes α}
    (hstart : isStart .eof = false)
    (hitem : ∀ n i s, isStart s.cur = true → s.rest.length ≤ n → item n i s ≠ .error .outOfFuel)
    (hlen : ∀ n i s a s', item n i s = .ok (a, s') → s'.rest.length ≤ s.rest.length)
    (n i : Nat) (s : PS) (h : s.rest.length < n) : commaLoop isStart item n i s ≠ .error .outOfFuel := by
  induction n generalizing i s with
  | zero => omega
  | succ n ih =>
    unfold commaLoop
    split
    · rename_i hs
      have h1 := hitem n i s hs (by omega)
      split
      · rename_i e heq
        rw [heq] at h1
        simpa using h1
      · rename_i a s1 heq
        have h2 := hlen _ _ _ _ _ heq
        split
        · simp
        · rename_i hc
          simp only [ne_eq, Classical.not_not] at hc
          have h3 := PS.rest_of_cur hc (by simp)
          have h4 := ih (i + 1) s1.adv (by have := congrArg List.length h3; simp at this; omega)
          split
          · rename_i e heq
            rw [heq] at h4
            simpa using h4
          · simp
    · simp

end TPB
