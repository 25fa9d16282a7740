/-
What both languages share about `createDefault`: a function that computes default values field by field, to a
given depth, computes the default values.
-/
import Verif.Spec.MobileDefaults
import Verif.Proofs.UntrustedRpc
namespace TPB.MobileDefaults
open Spec

variable {M : Makes} {S : List ASTNode}

theorem own_iff {id : String} : Own S id ↔ id ∈ typeNames S := by
  simp only [typeNames, List.mem_filterMap]
  constructor
  · rintro (⟨n, hn, rfl⟩ | ⟨n, hn, rfl⟩)
    · exact ⟨_, hn, rfl⟩
    · exact ⟨_, hn, rfl⟩
  · rintro ⟨d, hd, h⟩
    cases d with
    | struct n => cases h; exact .inl ⟨n, hd, rfl⟩
    | enum n => cases h; exact .inr ⟨n, hd, rfl⟩
    | const | fn | directive => cases h

/-- The default value of a type; `r` gives the default values of the types of the schema. -/
def zeroOf (S : List ASTNode) (r : String → Except Halt MVal) : TypeId → Except Halt MVal
  | .integer _ _ _ => .ok (.number 0)
  | .number _ _ => .ok (.number 0)
  | .bool _ => .ok (.bool false)
  | .char _ => .ok (.number 0)
  | .other id => if id ∈ typeNames S then r id else if id = "String" then .ok (.str "") else if id = "Vec" then .ok .list else .ok (.lib id)
  | .generic c _ => if c = "Vec" then .ok .list else .ok (.lib c)

def zeroVals (S : List ASTNode) (r : String → Except Halt MVal) : List TypeId → Except Halt (List MVal)
  | [] => .ok []
  | t :: ts =>
    match zeroOf S r t with
    | .error e => .error e
    | .ok v =>
      match zeroVals S r ts with
      | .error e => .error e
      | .ok vs => .ok (v :: vs)

structure Runs (M : Makes) (S : List ASTNode) (C : Nat → String → Except Halt MVal) : Prop where
  zero : ∀ id, C 0 id = .error .deep
  struct : ∀ k n, .struct n ∈ S → C (k + 1) n.id = (zeroVals S (C k) (n.fields.map (·.typeId))).map (M.struct n)
  enum : ∀ k n i, .enum n ∈ S → i ∈ n.items.head? → C (k + 1) n.id = (zeroVals S (C k) ((payload i).map (·.2))).map (M.enum n i)
  safe : ∀ d ∈ S, ∀ id, .other id ∈ defaulted d → id ∈ typeNames S ∨ ¬ IsAddress id
  once : (typeNames S).Nodup
  head : ∀ n, .enum n ∈ S → ∃ i, i ∈ n.items.head?

theorem zeroVals_length {r ts vs} (h : zeroVals S r ts = .ok vs) : vs.length = ts.length := by
  induction ts generalizing vs with
  | nil => cases h; rfl
  | cons t ts ih =>
    simp only [zeroVals] at h
    split at h <;> try cases h
    split at h <;> cases h
    simp [ih (by assumption)]

theorem payload_defaulted {n : EnumNode} {i : EnumItem} (h : i ∈ n.items.head?) : (payload i).map (·.2) = defaulted (.enum n) := by
  cases e : n.items with
  | nil => simp [e] at h
  | cons a as =>
    simp [e] at h
    subst h
    simp only [defaulted, e]
    cases a with
    | empty => rfl
    | tuple p id vs =>
      simp only [payload]
      apply List.ext_getElem <;> simp
    | struct p id fs => simp [payload, List.map_map, Function.comp_def]

variable {C : Nat → String → Except Halt MVal}

/-- The declaration behind a name. -/
theorem Runs.step (R : Runs M S C) {id : String} (ho : id ∈ typeNames S) : ∃ d ∈ S, declName d = some id ∧ ∃ make : List MVal → MVal,
    (∀ k, C (k + 1) id = (zeroVals S (C k) (defaulted d)).map make) ∧
    ∀ vs, AreDefaults M S (defaulted d) vs → IsDefault M S (.other id) (make vs) := by
  rcases own_iff.2 ho with ⟨n, hn, rfl⟩ | ⟨n, hn, rfl⟩
  · exact ⟨_, hn, rfl, M.struct n, fun k => R.struct k n hn, fun vs h => .struct hn h⟩
  · obtain ⟨i, hi⟩ := R.head n hn
    refine ⟨_, hn, rfl, M.enum n i, fun k => ?_, fun vs h => .enum hn hi ?_⟩
    · rw [R.enum k n i hn hi, payload_defaulted hi]
    · rwa [payload_defaulted hi]

theorem zeroOf_mono {r q : String → Except Halt MVal} (h : ∀ id ∈ typeNames S, ∀ v, r id = .ok v → q id = .ok v) {t v}
    (hv : zeroOf S r t = .ok v) : zeroOf S q t = .ok v := by
  cases t with
  | other id =>
    simp only [zeroOf] at hv ⊢
    split at hv
    · rw [if_pos (by assumption)]; exact h _ (by assumption) _ hv
    · rw [if_neg (by assumption)]; exact hv
  | _ => exact hv

theorem zeroVals_mono {r q : String → Except Halt MVal} (h : ∀ id ∈ typeNames S, ∀ v, r id = .ok v → q id = .ok v) {ts vs}
    (hv : zeroVals S r ts = .ok vs) : zeroVals S q ts = .ok vs := by
  induction ts generalizing vs with
  | nil => exact hv
  | cons t ts ih =>
    simp only [zeroVals] at hv
    split at hv <;> try cases hv
    rename_i v h1
    split at hv <;> cases hv
    rename_i vs h2
    simp only [zeroVals, zeroOf_mono h h1, ih h2]

theorem map_ok {α β : Type} {f : α → β} {x : Except Halt α} {y : β} (h : x.map f = .ok y) : ∃ a, x = .ok a ∧ f a = y := by
  cases x with
  | error e => cases h
  | ok a => cases h; exact ⟨a, rfl, rfl⟩

theorem mono_step (R : Runs M S C) (k : Nat) : ∀ id ∈ typeNames S, ∀ v, C k id = .ok v → C (k + 1) id = .ok v := by
  induction k with
  | zero => intro id _ v h; rw [R.zero] at h; cases h
  | succ k ih =>
    intro id ho v h
    obtain ⟨d, hd, _, make, hm, _⟩ := R.step ho
    rw [hm] at h ⊢
    obtain ⟨vs, h1, rfl⟩ := map_ok h
    rw [zeroVals_mono ih h1]
    rfl

theorem mono (R : Runs M S C) {k j : Nat} (hk : k ≤ j) : ∀ id ∈ typeNames S, ∀ v, C k id = .ok v → C j id = .ok v := by
  induction hk with
  | refl => exact fun _ _ _ h => h
  | step _ ih => exact fun id ho v h => mono_step R _ id ho v (ih id ho v h)

/-! ### What is computed is the default value -/

theorem zeroOf_sound {r : String → Except Halt MVal} (h : ∀ id ∈ typeNames S, ∀ v, r id = .ok v → IsDefault M S (.other id) v) {t v}
    (hs : ∀ id, t = .other id → id ∈ typeNames S ∨ ¬ IsAddress id) (hv : zeroOf S r t = .ok v) : IsDefault M S t v := by
  cases t with
  | integer => cases hv; exact .integer
  | number => cases hv; exact .number
  | bool => cases hv; exact .bool
  | char => cases hv; exact .char
  | other id =>
    simp only [zeroOf] at hv
    split at hv
    · exact h _ (by assumption) _ hv
    · rename_i ho
      have ho' : ¬ Own S id := fun h => ho (own_iff.1 h)
      split at hv
      · rename_i e; subst e; cases hv; exact .string ho'
      · split at hv
        · rename_i e; subst e; cases hv; exact .bareList ho'
        · cases hv; exact .lib ho' (by assumption) (by assumption) ((hs _ rfl).resolve_left ho)
  | generic c ts =>
    simp only [zeroOf] at hv
    split at hv
    · rename_i e; subst e; cases hv; exact .list
    · cases hv; exact .generic (by assumption)

theorem zeroVals_sound {r : String → Except Halt MVal} (h : ∀ id ∈ typeNames S, ∀ v, r id = .ok v → IsDefault M S (.other id) v) {ts vs}
    (hs : ∀ id, .other id ∈ ts → id ∈ typeNames S ∨ ¬ IsAddress id) (hv : zeroVals S r ts = .ok vs) : AreDefaults M S ts vs := by
  induction ts generalizing vs with
  | nil => cases hv; exact .nil
  | cons t ts ih =>
    simp only [zeroVals] at hv
    split at hv <;> try cases hv
    rename_i v h1
    split at hv <;> cases hv
    rename_i vs h2
    exact .cons (zeroOf_sound h (fun id e => hs id (by simp [e])) h1) (ih (fun id hi => hs id (by simp [hi])) h2)

theorem sound (R : Runs M S C) (k : Nat) : ∀ id ∈ typeNames S, ∀ v, C k id = .ok v → IsDefault M S (.other id) v := by
  induction k with
  | zero => intro id _ v h; rw [R.zero] at h; cases h
  | succ k ih =>
    intro id ho v h
    obtain ⟨d, hd, _, make, hm, hI⟩ := R.step ho
    rw [hm] at h
    obtain ⟨vs, h1, rfl⟩ := map_ok h
    exact hI vs (zeroVals_sound ih (R.safe d hd) h1)

/-! ### The default value is computed -/

mutual
theorem complete (R : Runs M S C) {t v} : IsDefault M S t v → ∃ k, zeroOf S (C k) t = .ok v
  | .integer => ⟨0, rfl⟩
  | .number => ⟨0, rfl⟩
  | .bool => ⟨0, rfl⟩
  | .char => ⟨0, rfl⟩
  | .string ho => ⟨0, by rw [zeroOf, if_neg (fun h => ho (own_iff.2 h)), if_pos rfl]⟩
  | .bareList ho => ⟨0, by rw [zeroOf, if_neg (fun h => ho (own_iff.2 h)), if_neg (by simp), if_pos rfl]⟩
  | .list => ⟨0, by rw [zeroOf, if_pos rfl]⟩
  | .lib ho h1 h2 _ => ⟨0, by rw [zeroOf, if_neg (fun h => ho (own_iff.2 h)), if_neg h1, if_neg h2]⟩
  | .generic h => ⟨0, by rw [zeroOf, if_neg h]⟩
  | .struct (n := n) hn hvs => by
    obtain ⟨k, hk⟩ := completes R hvs
    refine ⟨k + 1, ?_⟩
    rw [zeroOf, if_pos (own_iff.1 (.inl ⟨n, hn, rfl⟩)), R.struct k n hn, hk]
    rfl
  | .enum (n := n) (i := i) hn hi hvs => by
    obtain ⟨k, hk⟩ := completes R hvs
    refine ⟨k + 1, ?_⟩
    rw [zeroOf, if_pos (own_iff.1 (.inr ⟨n, hn, rfl⟩)), R.enum k n i hn hi, hk]
    rfl
theorem completes (R : Runs M S C) {ts vs} : AreDefaults M S ts vs → ∃ k, zeroVals S (C k) ts = .ok vs
  | .nil => ⟨0, rfl⟩
  | .cons h hs => by
    obtain ⟨k, hk⟩ := complete R h
    obtain ⟨j, hj⟩ := completes R hs
    refine ⟨max k j, ?_⟩
    simp only [zeroVals, zeroOf_mono (mono R (Nat.le_max_left k j)) hk, zeroVals_mono (mono R (Nat.le_max_right k j)) hj]
end

theorem returns_iff (R : Runs M S C) {id : String} (ho : Own S id) (v : MVal) :
    (∃ k, C k id = .ok v) ↔ IsDefault M S (.other id) v := by
  have ho := own_iff.1 ho
  refine ⟨fun ⟨k, h⟩ => sound R k id ho v h, fun h => ?_⟩
  obtain ⟨k, h⟩ := complete R h
  rw [zeroOf, if_pos ho] at h
  exact ⟨k, h⟩

theorem always_iff (R : Runs M S C) {id : String} (ho : Own S id) (v : MVal) :
    (∃ k, ∀ j, k ≤ j → C j id = .ok v) ↔ IsDefault M S (.other id) v := by
  rw [← returns_iff R ho]
  exact ⟨fun ⟨k, h⟩ => ⟨k, h k (Nat.le_refl k)⟩, fun ⟨k, h⟩ => ⟨k, fun j hj => mono R hj id (own_iff.1 ho) v h⟩⟩

/-! ### Nothing else happens -/

theorem zeroOf_error {r : String → Except Halt MVal} (h : ∀ id ∈ typeNames S, r id ≠ .error .stuck) {t e}
    (hv : zeroOf S r t = .error e) : e = .deep := by
  cases t with
  | other id =>
    simp only [zeroOf] at hv
    split at hv
    · have := h _ (by assumption)
      cases e with
      | deep => rfl
      | stuck => exact absurd hv this
    · split at hv
      · cases hv
      · split at hv <;> cases hv
  | generic c ts =>
    simp only [zeroOf] at hv
    split at hv <;> cases hv
  | _ => cases hv

theorem zeroVals_error {r : String → Except Halt MVal} (h : ∀ id ∈ typeNames S, r id ≠ .error .stuck) {ts e}
    (hv : zeroVals S r ts = .error e) : e = .deep := by
  induction ts with
  | nil => cases hv
  | cons t ts ih =>
    simp only [zeroVals] at hv
    split at hv
    · cases hv; exact zeroOf_error h (by assumption)
    · split at hv
      · cases hv; exact ih (by assumption)
      · cases hv

theorem never_stuck (R : Runs M S C) (k : Nat) : ∀ id ∈ typeNames S, C k id ≠ .error .stuck := by
  induction k with
  | zero => intro id _ h; rw [R.zero] at h; cases h
  | succ k ih =>
    intro id ho h
    obtain ⟨d, hd, _, make, hm, _⟩ := R.step ho
    rw [hm] at h
    cases e : zeroVals S (C k) (defaulted d) with
    | ok vs => rw [e] at h; cases h
    | error x =>
      rw [e] at h
      have := zeroVals_error ih e
      subst this
      cases h

/-! ### When there is a default value -/

theorem zeroVals_calls {r : String → Except Halt MVal} {ts vs} (h : zeroVals S r ts = .ok vs) {t : String} (ht : .other t ∈ ts)
    (ho : t ∈ typeNames S) : ∃ v, r t = .ok v := by
  induction ts generalizing vs with
  | nil => simp at ht
  | cons u ts ih =>
    simp only [zeroVals] at h
    split at h <;> try cases h
    rename_i v h1
    split at h <;> cases h
    rename_i vs h2
    rcases List.mem_cons.1 ht with rfl | ht
    · rw [zeroOf, if_pos ho] at h1; exact ⟨v, h1⟩
    · exact ih h2 ht

theorem grounded_of (R : Runs M S C) (k : Nat) : ∀ id ∈ typeNames S, ∀ v, C k id = .ok v → Grounded S id := by
  induction k with
  | zero => intro id _ v h; rw [R.zero] at h; cases h
  | succ k ih =>
    intro id ho v h
    obtain ⟨d, hd, hn, make, hm, _⟩ := R.step ho
    rw [hm] at h
    obtain ⟨vs, h1, rfl⟩ := map_ok h
    refine ⟨fun d' hd' hn' t ht hot => ?_⟩
    have : d' = d := Rust.decl_by_name R.once hd' hd (by cases d' <;> exact hn') (by cases d <;> exact hn)
    subst this
    obtain ⟨v, hv⟩ := zeroVals_calls h1 ht (own_iff.1 hot)
    exact ih t (own_iff.1 hot) v hv

theorem zeroVals_ok (R : Runs M S C) {ts : List TypeId} (h : ∀ t, .other t ∈ ts → t ∈ typeNames S → ∃ k v, C k t = .ok v) :
    ∃ k vs, zeroVals S (C k) ts = .ok vs := by
  induction ts with
  | nil => exact ⟨0, [], rfl⟩
  | cons t ts ih =>
    obtain ⟨j, vs, hj⟩ := ih (fun t ht => h t (by simp [ht]))
    have : ∃ k v, zeroOf S (C k) t = .ok v := by
      cases t with
      | other id =>
        by_cases ho : id ∈ typeNames S
        · obtain ⟨k, v, hk⟩ := h id (by simp) ho
          exact ⟨k, v, by rw [zeroOf, if_pos ho]; exact hk⟩
        · refine ⟨0, ?_⟩
          rw [zeroOf, if_neg ho]
          split
          · exact ⟨_, rfl⟩
          · split <;> exact ⟨_, rfl⟩
      | generic c ts =>
        refine ⟨0, ?_⟩
        rw [zeroOf]
        split <;> exact ⟨_, rfl⟩
      | _ => exact ⟨0, _, rfl⟩
    obtain ⟨k, v, hk⟩ := this
    refine ⟨max k j, v :: vs, ?_⟩
    simp only [zeroVals, zeroOf_mono (mono R (Nat.le_max_left k j)) hk, zeroVals_mono (mono R (Nat.le_max_right k j)) hj]

theorem returns_of (R : Runs M S C) {id : String} (h : Grounded S id) : Own S id → ∃ k v, C k id = .ok v := by
  induction h with
  | mk _ ih =>
    intro ho
    obtain ⟨d, hd, hn, make, hm, _⟩ := R.step (own_iff.1 ho)
    obtain ⟨k, vs, hk⟩ := zeroVals_ok R (ts := defaulted d) (fun t ht hot => ih d hd hn t ht (own_iff.2 hot) (own_iff.2 hot))
    exact ⟨k + 1, make vs, by rw [hm, hk]; rfl⟩

theorem grounded_iff (R : Runs M S C) {id : String} (ho : Own S id) : (∃ k v, C k id = .ok v) ↔ Grounded S id :=
  ⟨fun ⟨k, v, h⟩ => grounded_of R k id (own_iff.1 ho) v h, fun h => returns_of R h ho⟩

/-- If nothing is returned, every depth is exceeded. -/
theorem deep_iff (R : Runs M S C) {id : String} (ho : Own S id) : (∀ k, C k id = .error .deep) ↔ ¬ Grounded S id := by
  rw [← grounded_iff R ho]
  constructor
  · rintro h ⟨k, v, hk⟩
    rw [h k] at hk
    cases hk
  · intro h k
    cases e : C k id with
    | ok v => exact absurd ⟨k, v, e⟩ h
    | error x =>
      cases x with
      | deep => rfl
      | stuck => exact absurd e (never_stuck R k id (own_iff.1 ho))

/-- With sizes that decrease, every type has a default value. -/
theorem grounded_of_rank {rank : String → Nat} (h : ∀ d ∈ S, ∀ name, declName d = some name → ∀ t, .other t ∈ defaulted d →
    Own S t → rank t < rank name) (id : String) : Grounded S id := by
  generalize hk : rank id = k
  induction k using Nat.strongRecOn generalizing id with
  | _ k ih =>
    subst hk
    exact ⟨fun d hd hn t ht ho => ih _ (h d hd id hn t ht ho) t rfl⟩

end TPB.MobileDefaults
