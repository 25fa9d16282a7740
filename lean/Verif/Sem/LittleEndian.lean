/-
A concrete runtime library: little-endian integers, one byte per boolean, 8-byte lengths.  It shows
that the laws assumed of the runtime can be met, and it is used for concrete examples.
-/
import Verif.Sem.RustEval
namespace TPB.LE
open Spec

/-- `k` bytes of `n`, least significant first. -/
def le : Nat → Nat → Bytes
  | 0, _ => []
  | k + 1, n => UInt8.ofNat n :: le k (n / 256)

/-- Read a `k`-byte number. -/
def unle : Nat → Bytes → Option (Nat × Bytes)
  | 0, bs => some (0, bs)
  | _ + 1, [] => none
  | k + 1, b :: bs =>
    match unle k bs with
    | some (n, r) => some (b.toNat + 256 * n, r)
    | none => none

theorem unle_le : ∀ (k n : Nat) (r : Bytes), unle k (le k n ++ r) = some (n % 256 ^ k, r)
  | 0, n, r => by simp [le, unle, Nat.mod_one]
  | k + 1, n, r => by
    simp only [le, List.cons_append, unle, unle_le k]
    rw [Nat.pow_succ, Nat.mul_comm (256 ^ k), Nat.mod_mul]
    simp [UInt8.toNat_ofNat']

theorem le_length : ∀ k n, (le k n).length = k
  | 0, _ => rfl
  | k + 1, n => by simp [le, le_length k]

/-- Two's complement of width `k` bytes. -/
def toUnsigned (k : Nat) (n : Int) : Nat := (n % (256 : Int) ^ k).toNat
def toSigned (k : Nat) (n : Nat) : Int := if 2 * n < 256 ^ k then n else (n : Int) - 256 ^ k

theorem signed_unsigned (k : Nat) (hk : 0 < k) (n : Int) (h1 : -(2 ^ (8 * k - 1) : Int) ≤ n) (h2 : n < 2 ^ (8 * k - 1)) :
    toSigned k (toUnsigned k n) = n := by
  have e : (256 : Int) ^ k = 2 * 2 ^ (8 * k - 1) := by
    have h : (256 : Int) = 2 ^ 8 := rfl
    rw [h, ← Int.pow_mul]
    obtain ⟨j, rfl⟩ : ∃ j, k = j + 1 := ⟨k - 1, by omega⟩
    have : 8 * (j + 1) = (8 * (j + 1) - 1) + 1 := by omega
    conv => lhs; rw [this]
    rw [Int.pow_succ, Int.mul_comm]
  have hpos : (0 : Int) < 2 ^ (8 * k - 1) := Int.pow_pos (by decide)
  have hn : 0 ≤ n % (256 : Int) ^ k := Int.emod_nonneg _ (by omega)
  have hl : n % (256 : Int) ^ k < (256 : Int) ^ k := Int.emod_lt_of_pos _ (by omega)
  unfold toSigned toUnsigned
  have ec : ((256 ^ k : Nat) : Int) = (256 : Int) ^ k := by simp
  generalize hP : (2 : Int) ^ (8 * k - 1) = P at *
  generalize hQ : (256 : Int) ^ k = Q at *
  have hc : ((n % Q).toNat : Int) = n % Q := Int.toNat_of_nonneg hn
  by_cases hneg : 0 ≤ n
  · have : n % Q = n := Int.emod_eq_of_lt hneg (by omega)
    rw [if_pos (by omega), hc, this]
  · have : n % Q = n + Q := by
      rw [← Int.add_emod_right]
      exact Int.emod_eq_of_lt (by omega) (by omega)
    rw [if_neg (by omega), hc, this]
    omega

def IsScalar (n : Int) : Prop := 0 ≤ n ∧ n < 0x110000 ∧ ¬ (0xd800 ≤ n ∧ n < 0xe000)

instance (n : Int) : Decidable (IsScalar n) := by unfold IsScalar; infer_instance

def primOf : TypeId → Val → Option Bytes
  | .integer _ size true, .int n =>
    if -(2 ^ (8 * size - 1) : Int) ≤ n ∧ n < 2 ^ (8 * size - 1) then some (le size (toUnsigned size n)) else none
  | .integer _ size false, .int n =>
    if 0 ≤ n ∧ n < 2 ^ (8 * size) then some (le size n.toNat) else none
  | .number _ size, .num b => if b < 2 ^ (8 * size) then some (le size b) else none
  | .bool _, .bool b => some [if b then 1 else 0]
  | .char _, .int n => if IsScalar n then some (le 4 n.toNat) else none
  | _, _ => none

def readOf : TypeId → Bytes → Option (Val × Bytes)
  | .integer _ size true, bs => (unle size bs).map (fun p => (.int (toSigned size p.1), p.2))
  | .integer _ size false, bs => (unle size bs).map (fun p => (.int p.1, p.2))
  | .number _ size, bs => (unle size bs).map (fun p => (.num p.1, p.2))
  | .bool _, b :: bs => some (.bool (b != 0), bs)
  | .char _, bs => (unle 4 bs).map (fun p => (.int p.1, p.2))
  | _, _ => none

def wire : Wire where
  prim p v := match builtinTypes.lookup p with | some t => primOf t v | none => none
  ext id v := match v with
    | .ext id' n => if id' = id ∧ n < 2 ^ 64 ∧ id.toList.head? ≠ some '_' then some (le 8 n) else none
    | _ => none
  head _ n := if n < 2 ^ 64 then some (le 8 n) else none
  sub _ n := List.replicate n 0

def rust : Rust.Runtime where
  wire := wire
  readP p bs := match builtinTypes.lookup p with | some t => readOf t bs | none => none
  readX id bs := (unle 8 bs).map (fun p => (.ext id p.1, p.2))
  readH _ bs := unle 8 bs

theorem pow256 (k : Nat) : 256 ^ k = 2 ^ (8 * k) := by
  rw [show (256 : Nat) = 2 ^ 8 from rfl, ← Nat.pow_mul]

theorem size_pos {p : String} {t : TypeId} (h : builtinTypes.lookup p = some t) :
    ∀ id size s, t = .integer id size s → 0 < size := by
  intro id size s e
  subst e
  unfold builtinTypes at h
  simp only [List.lookup_cons] at h
  repeat' (split at h)
  all_goals simp_all
  all_goals omega

theorem readOf_primOf (t : TypeId) (hpos : ∀ id size s, t = .integer id size s → 0 < size) (v : Val)
    (b r : Bytes) (h : primOf t v = some b) : readOf t (b ++ r) = some (v, r) := by
  cases t with
  | integer id size s =>
    cases s <;> cases v <;> simp only [primOf, reduceCtorEq] at h
    · split at h
      · rename_i n hn
        simp only [Option.some.injEq] at h
        subst h
        simp only [readOf, unle_le, Option.map_some, Option.some.injEq, Prod.mk.injEq, Val.int.injEq, and_true]
        have hc : ((n.toNat : Nat) : Int) = n := Int.toNat_of_nonneg hn.1
        have hlt : n.toNat < 256 ^ size := by
          rw [pow256]
          have : ((n.toNat : Nat) : Int) < ((2 ^ (8 * size) : Nat) : Int) := by rw [hc]; simpa using hn.2
          exact_mod_cast this
        rw [Nat.mod_eq_of_lt hlt, hc]
      · simp at h
    · split at h
      · rename_i n hn
        simp only [Option.some.injEq] at h
        subst h
        simp only [readOf, unle_le, Option.map_some, Option.some.injEq, Prod.mk.injEq, Val.int.injEq, and_true]
        have hs := signed_unsigned size (hpos _ _ _ rfl) n hn.1 hn.2
        have hlt : toUnsigned size n < 256 ^ size := by
          unfold toUnsigned
          have h0 : 0 ≤ n % (256 : Int) ^ size := Int.emod_nonneg _ (Int.ne_of_gt (Int.pow_pos (by decide)))
          have h1 : n % (256 : Int) ^ size < (256 : Int) ^ size := Int.emod_lt_of_pos _ (Int.pow_pos (by decide))
          have hc : ((n % (256 : Int) ^ size).toNat : Int) = n % (256 : Int) ^ size := Int.toNat_of_nonneg h0
          have : (((n % (256 : Int) ^ size).toNat : Nat) : Int) < ((256 ^ size : Nat) : Int) := by
            rw [hc]; simpa using h1
          exact Int.ofNat_lt.1 this
        rw [Nat.mod_eq_of_lt hlt, hs]
      · simp at h
  | number id size =>
    cases v <;> simp only [primOf, reduceCtorEq] at h
    split at h
    · rename_i n hn
      simp only [Option.some.injEq] at h
      subst h
      rw [← pow256] at hn
      simp [readOf, unle_le, Nat.mod_eq_of_lt hn]
    · simp at h
  | bool id =>
    cases v <;> simp only [primOf, reduceCtorEq, Option.some.injEq] at h
    rename_i x
    subst h
    cases x <;> rfl
  | char id =>
    cases v <;> simp only [primOf, reduceCtorEq] at h
    split at h
    · rename_i n hn
      simp only [Option.some.injEq] at h
      subst h
      have hn' : n.toNat < 256 ^ 4 := by
        obtain ⟨h1, h2, -⟩ := hn
        have : (256 : Nat) ^ 4 = 4294967296 := rfl
        omega
      have hc : ((n.toNat : Nat) : Int) = n := Int.toNat_of_nonneg hn.1
      rw [readOf, unle_le, Nat.mod_eq_of_lt hn', Option.map_some, hc]
    · simp at h
  | generic _ _ => simp [primOf] at h
  | other _ => simp [primOf] at h

theorem lookup_typeOfName {n : String} {p : String} (h : builtin? (typeOfName n) = some p) :
    p = n ∧ builtinTypes.lookup n = some (typeOfName n) := by
  unfold typeOfName at *
  cases hl : builtinTypes.lookup n with
  | none => rw [hl] at h; simp [builtin?] at h
  | some t =>
    rw [hl] at h
    refine ⟨?_, rfl⟩
    simp only [Option.getD_some] at h
    unfold builtinTypes at hl
    simp only [List.lookup_cons] at hl
    repeat' (split at hl)
    all_goals first
      | (simp only [Option.some.injEq] at hl; subst hl; rename_i e; simp only [beq_iff_eq] at e; subst e
         simpa [builtin?] using h.symm)
      | simp at hl

theorem wire_lawful : wire.Lawful where
  prim_total t p v ht hp hv := by
    cases ht with
    | generic n as _ _ => simp [builtin?] at hp
    | name n =>
      obtain ⟨rfl, hl⟩ := lookup_typeOfName hp
      simp only [wire, hl]
      revert hv
      generalize typeOfName p = t
      intro hv
      cases t with
      | integer id size s =>
        cases s <;> cases v <;> simp only [LeafVal] at hv
        · exact ⟨_, if_pos hv⟩
        · exact ⟨_, if_pos hv⟩
      | number id size =>
        cases v <;> simp only [LeafVal] at hv
        exact ⟨_, if_pos hv⟩
      | bool id =>
        cases v <;> simp only [LeafVal] at hv
        exact ⟨_, rfl⟩
      | char id =>
        cases v <;> simp only [LeafVal] at hv
        exact ⟨_, if_pos hv⟩
      | generic _ _ => simp [LeafVal] at hv
      | other _ => simp [LeafVal] at hv
  tag_size n hn b hb := by
    have : builtinTypes.lookup "u32" = some (.integer "u32" 4 false) := rfl
    simp only [wire, this, primOf] at hb
    split at hb
    · simp only [Option.some.injEq] at hb
      subst hb
      exact le_length _ _
    · simp at hb
  vec n := rfl

theorem rust_lawful : rust.Lawful where
  wire := wire_lawful
  prim p v b r h := by
    simp only [rust, wire] at h ⊢
    cases hl : builtinTypes.lookup p with
    | none => rw [hl] at h; simp at h
    | some t => rw [hl] at h; exact readOf_primOf t (size_pos hl) v b r h
  ext id v b r h := by
    simp only [rust, wire] at h ⊢
    cases v <;> simp only [reduceCtorEq] at h
    rename_i id' n
    split at h
    · rename_i hn
      obtain ⟨rfl, hn⟩ := hn
      simp only [Option.some.injEq] at h
      subst h
      have : n < 256 ^ 8 := by rw [pow256]; exact hn.1
      simp [unle_le, Nat.mod_eq_of_lt this]
    · simp at h
  head c s b r h := by
    simp only [rust, wire] at h ⊢
    split at h
    · rename_i hn
      simp only [Option.some.injEq] at h
      subst h
      have : s < 256 ^ 8 := by rw [pow256]; exact hn
      simp [unle_le, Nat.mod_eq_of_lt this]
    · simp at h

end TPB.LE
