/-
A concrete Dart runtime library with the formats of `Sem/LittleEndian.lean`.  Integers are written
truncated to their width and read as signed numbers; the elements of lists of integers take 8 bytes.
-/
import Verif.Sem.LittleEndian
import Verif.Sem.DartEval
import Verif.Spec.Interop
namespace TPB.LE
open Spec

/-- Formats of the library's element codecs. -/
def elemT (id : String) : Option TypeId :=
  if id = "Int" then some (.integer "Int" 8 true)
  else if id = "Double" then some (.number "Double" 8)
  else if id = "Bool" then some (.bool "Bool")
  else none

def dartWriteP (m : String) (v : Val) : Option Bytes :=
  match dartPrims.lookup m, v with
  | some (.integer _ size _), .int n => some (le size (toUnsigned size n))
  | some t, v => primOf t v
  | none, _ => none

def dartReadX (id : String) (bs : Bytes) : Option (Val × Bytes) :=
  match elemT id with
  | some t => readOf t bs
  | none => (unle 8 bs).map (fun p => (.ext id p.1, p.2))

def dart : Dart.Runtime where
  writeP := dartWriteP
  readP m bs := match dartPrims.lookup m with | some t => readOf t bs | none => none
  writeX id v := match elemT id with | some t => primOf t v | none => wire.ext id v
  readX := dartReadX
  emplX id _ bs := dartReadX id bs
  skipX id bs := (dartReadX id bs).map (·.2)
  writeL n := if n < 2 ^ 64 then some (le 8 n) else none
  readL bs := unle 8 bs
  newX id := some (.ext id 0)

theorem unle_lt : ∀ (k : Nat) (bs : Bytes) (n : Nat) (r : Bytes), unle k bs = some (n, r) → n < 256 ^ k
  | 0, bs, n, r, h => by simp [unle] at h; omega
  | k + 1, [], n, r, h => by simp [unle] at h
  | k + 1, b :: bs, n, r, h => by
    simp only [unle] at h
    split at h
    · rename_i m r' he
      simp only [Option.some.injEq, Prod.mk.injEq] at h
      have := unle_lt k bs m r' he
      have hb : b.toNat < 256 := b.toNat_lt
      rw [Nat.pow_succ]
      omega
    · simp at h

theorem pow_half {k : Nat} (hk : 0 < k) : (256 : Int) ^ k = 2 * 2 ^ (8 * k - 1) := by
  have h : (256 : Int) = 2 ^ 8 := rfl
  rw [h, ← Int.pow_mul]
  have : 8 * k = (8 * k - 1) + 1 := by omega
  conv => lhs; rw [this]
  rw [Int.pow_succ, Int.mul_comm]

theorem toSigned_range {k n : Nat} (hk : 0 < k) (h : n < 256 ^ k) :
    -(2 ^ (8 * k - 1) : Int) ≤ toSigned k n ∧ toSigned k n < 2 ^ (8 * k - 1) := by
  have e := pow_half hk
  have h' : (n : Int) < (256 : Int) ^ k := by
    have := Int.ofNat_lt.2 h
    simpa using this
  have hc : ((256 ^ k : Nat) : Int) = (256 : Int) ^ k := by simp
  unfold toSigned
  generalize (256 : Int) ^ k = Q at *
  generalize (2 : Int) ^ (8 * k - 1) = P at *
  split <;> omega

theorem dartPrims_cases {m : String} {t : TypeId} (h : dartPrims.lookup m = some t) :
    (∃ id size, t = .integer id size true ∧ 0 < size) ∨ (∃ id size, t = .number id size) ∨ ∃ id, t = .bool id := by
  unfold dartPrims at h
  simp only [List.lookup_cons] at h
  repeat' (split at h)
  all_goals simp_all
  all_goals (subst h; simp)
  all_goals exact ⟨_, _, ⟨rfl, rfl⟩, by decide⟩

theorem readOf_range {t : TypeId} {bs : Bytes} {v : Val} {r : Bytes}
    (ht : (∃ id size, t = .integer id size true ∧ 0 < size) ∨ (∃ id size, t = .number id size) ∨ ∃ id, t = .bool id)
    (h : readOf t bs = some (v, r)) : LeafVal t v := by
  rcases ht with ⟨id, size, rfl, hp⟩ | ⟨id, size, rfl⟩ | ⟨id, rfl⟩
  · simp only [readOf, Option.map_eq_some_iff, Prod.mk.injEq, Prod.exists] at h
    obtain ⟨a, b, h1, rfl, -⟩ := h
    exact toSigned_range hp (unle_lt _ _ _ _ h1)
  · simp only [readOf, Option.map_eq_some_iff, Prod.mk.injEq, Prod.exists] at h
    obtain ⟨a, b, h1, rfl, -⟩ := h
    have := unle_lt _ _ _ _ h1
    rwa [pow256] at this
  · cases bs with
    | nil => simp [readOf] at h
    | cons b bs =>
      simp only [readOf, Option.some.injEq, Prod.mk.injEq] at h
      obtain ⟨rfl, -⟩ := h
      trivial

/-- In range, the Dart writers and the formats of `primOf` agree. -/
theorem dartWriteP_eq {m : String} {t : TypeId} {v : Val} (h : dartPrims.lookup m = some t) (hv : LeafVal t v) :
    dartWriteP m v = primOf t v := by
  rcases dartPrims_cases h with ⟨id, size, rfl, hp⟩ | ⟨id, size, rfl⟩ | ⟨id, rfl⟩
  · cases v <;> simp only [LeafVal] at hv
    simp only [dartWriteP, h, primOf, if_pos hv]
  · cases v <;> simp only [LeafVal] at hv
    simp only [dartWriteP, h]
  · cases v <;> simp only [LeafVal] at hv
    simp only [dartWriteP, h]

theorem primOf_some {t : TypeId} {v : Val} (h : LeafVal t v) : ∃ b, primOf t v = some b := by
  cases t with
  | integer id size s => cases s <;> cases v <;> simp only [LeafVal] at h <;> exact ⟨_, if_pos h⟩
  | number id size => cases v <;> simp only [LeafVal] at h; exact ⟨_, if_pos h⟩
  | bool id => cases v <;> simp only [LeafVal] at h; exact ⟨_, rfl⟩
  | char id => cases v <;> simp only [LeafVal] at h; exact ⟨_, if_pos h⟩
  | generic _ _ => simp [LeafVal] at h
  | other _ => simp [LeafVal] at h

theorem primOf_range {t : TypeId} {v : Val} {b : Bytes} (h : primOf t v = some b) : LeafVal t v := by
  cases t with
  | integer id size s =>
    cases s <;> cases v <;> simp only [primOf, reduceCtorEq] at h <;> split at h <;> first | assumption | simp at h
  | number id size => cases v <;> simp only [primOf, reduceCtorEq] at h <;> split at h <;> first | assumption | simp at h
  | bool id => cases v <;> simp only [primOf, reduceCtorEq] at h; trivial
  | char id => cases v <;> simp only [primOf, reduceCtorEq] at h <;> split at h <;> first | assumption | simp at h
  | generic _ _ => simp [primOf] at h
  | other _ => simp [primOf] at h

theorem elemT_pos {m : String} {t : TypeId} (h : elemT m = some t) :
    ∀ id size s, t = .integer id size s → 0 < size := by
  intro id size s e
  subst e
  unfold elemT at h
  repeat' (split at h)
  all_goals simp_all
  omega

theorem prims_pos {m : String} {t : TypeId} (h : dartPrims.lookup m = some t) :
    ∀ id size s, t = .integer id size s → 0 < size := by
  intro id size s e
  subst e
  rcases dartPrims_cases h with ⟨id, size, h, hp⟩ | ⟨id, size, h⟩ | ⟨id, h⟩ <;> simp at h
  omega

theorem dart_ext (id : String) (v : Val) (b r : Bytes) (h : dart.writeX id v = some b) :
    dartReadX id (b ++ r) = some (v, r) := by
  simp only [dart, dartReadX] at h ⊢
  cases he : elemT id with
  | some t =>
    rw [he] at h
    exact readOf_primOf t (elemT_pos he) v b r h
  | none =>
    rw [he] at h
    exact rust_lawful.ext id v b r h

theorem dart_lawful : dart.Lawful where
  total m t v h hv := by
    obtain ⟨b, hb⟩ := primOf_some hv
    exact ⟨b, (dartWriteP_eq h hv).trans hb⟩
  prim m t v b r h hv hb := by
    have := (dartWriteP_eq h hv).symm.trans hb
    simp only [dart, h]
    exact readOf_primOf t (prims_pos h) v b r this
  range m t v bs r h hr := by
    simp only [dart, h] at hr
    exact readOf_range (dartPrims_cases h) hr
  ext id v b r h := dart_ext id v b r h
  empl id v b r old h := dart_ext id v b r h
  skip id v b r h := by
    show (dartReadX id (b ++ r)).map (·.2) = some r
    rw [dart_ext id v b r h]
    rfl
  len n b r h := by
    simp only [dart] at h ⊢
    split at h
    · rename_i hn
      simp only [Option.some.injEq] at h
      subst h
      have : n < 256 ^ 8 := by rw [pow256]; exact hn
      simp [unle_le, Nat.mod_eq_of_lt this]
    · simp at h
  new id := rfl

/-! ### The Rust and the Dart library agree -/

theorem builtin_mem {id : String} {t : TypeId} (h : (id, t) ∈ builtinTypes) : builtinTypes.lookup id = some t := by
  unfold builtinTypes at h ⊢
  simp only [List.mem_cons, List.not_mem_nil, or_false, Prod.mk.injEq] at h
  rcases h with ⟨rfl, rfl⟩ | ⟨rfl, rfl⟩ | ⟨rfl, rfl⟩ | ⟨rfl, rfl⟩ | ⟨rfl, rfl⟩ | ⟨rfl, rfl⟩ | ⟨rfl, rfl⟩ | ⟨rfl, rfl⟩ |
    ⟨rfl, rfl⟩ | ⟨rfl, rfl⟩ <;> rfl

theorem builtin_int {id : String} {size : Nat} {s : Bool} (h : (id, TypeId.integer id size s) ∈ builtinTypes) :
    size = 1 ∨ size = 4 ∨ size = 8 := by
  have := builtin_mem h
  unfold builtinTypes at h
  simp only [List.mem_cons, List.not_mem_nil, or_false, Prod.mk.injEq] at h
  simp at h
  rcases h with h | h | h | h | h | h <;> simp [h]

theorem builtin_num {id : String} {size : Nat} (h : (id, TypeId.number id size) ∈ builtinTypes) :
    size = 4 ∨ size = 8 := by
  unfold builtinTypes at h
  simp only [List.mem_cons, List.not_mem_nil, or_false, Prod.mk.injEq] at h
  simp at h
  rcases h with h | h <;> simp [h]

theorem asSigned_range {id : String} {size : Nat} {s : Bool} {n : Int} (hs : 0 < size)
    (h : LeafVal (.integer id size s) (.int n)) :
    -(2 ^ (8 * size - 1) : Int) ≤ asSigned size n ∧ asSigned size n < 2 ^ (8 * size - 1) := by
  have e := pow_half hs
  have e2 : (256 : Int) ^ size = 2 ^ (8 * size) := by
    rw [show (256 : Int) = 2 ^ 8 from rfl, ← Int.pow_mul]
  have hp : (0 : Int) < 2 ^ (8 * size - 1) := Int.pow_pos (by decide)
  rw [e2] at e
  unfold asSigned
  rw [e]
  cases s <;> simp only [LeafVal] at h
  · rw [e] at h
    generalize (2 : Int) ^ (8 * size - 1) = P at *
    split <;> omega
  · generalize (2 : Int) ^ (8 * size - 1) = P at *
    split <;> omega

theorem toUnsigned_asSigned {size : Nat} {n : Int} (h0 : 0 ≤ n) (h : n < 2 ^ (8 * size)) :
    toUnsigned size (asSigned size n) = n.toNat := by
  have e2 : (256 : Int) ^ size = 2 ^ (8 * size) := by
    rw [show (256 : Int) = 2 ^ 8 from rfl, ← Int.pow_mul]
  unfold toUnsigned asSigned
  rw [e2]
  generalize (2 : Int) ^ (8 * size) = Q at *
  split
  · rw [Int.emod_eq_of_lt h0 h]
  · rw [Int.sub_emod_right, Int.emod_eq_of_lt h0 h]

theorem agree : Agree wire dart.wire where
  int id size s n h hv := by
    have hl := builtin_mem h
    have hs := builtin_int h
    have hpos : 0 < size := by omega
    have hr := asSigned_range hpos hv
    have key : ∃ m, dartPrims.lookup (dartPrim (.integer id size s)) = some (.integer m size true) ∧
        dartPrim (.integer id size s) ≠ "u32" := by
      rcases hs with rfl | rfl | rfl <;> exact ⟨_, rfl, by simp [dartPrim]⟩
    obtain ⟨m, h1, h2⟩ := key
    simp only [wire, hl, Dart.Runtime.wire, if_neg h2, h1]
    have hr' : LeafVal (.integer m size true) (.int (asSigned size n)) := hr
    rw [if_pos hr']
    simp only [dart, dartWriteP, h1]
    cases s <;> simp only [LeafVal] at hv
    · rw [primOf, if_pos hv, toUnsigned_asSigned hv.1 hv.2]
    · rw [primOf, if_pos hv]
      have : asSigned size n = n := if_pos hv.2
      rw [this]
  num id size v h := by
    have hl := builtin_mem h
    have key : ∃ m, dartPrims.lookup (dartPrim (.number id size)) = some (.number m size) ∧
        dartPrim (.number id size) ≠ "u32" := by
      rcases builtin_num h with rfl | rfl <;> exact ⟨_, rfl, by simp [dartPrim]⟩
    obtain ⟨m, h1, h2⟩ := key
    simp only [wire, hl, Dart.Runtime.wire, if_neg h2, h1, dart, dartWriteP]
    cases v <;> simp [primOf, LeafVal]
    split <;> rfl
  bool v := by
    have hl : builtinTypes.lookup "bool" = some (.bool "bool") := rfl
    have h1 : dartPrims.lookup "Bool" = some (.bool "Bool") := rfl
    have h2 : "Bool" ≠ "u32" := by decide
    simp only [wire, hl, Dart.Runtime.wire, if_neg h2, h1, dart, dartWriteP]
    cases v <;> simp [primOf, LeafVal]
  range id t v b h hb := by
    simp only [wire, builtin_mem h] at hb
    exact primOf_range hb
  ext id v h := by
    have : elemT id = none := by
      simp only [dartElems, List.mem_cons, List.not_mem_nil, or_false, not_or] at h
      simp [elemT, h]
    simp only [Dart.Runtime.wire, dart, this]
  vec n := by simp [wire, Dart.Runtime.wire, dart]

end TPB.LE
