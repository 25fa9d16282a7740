/-
C67: reading bytes of unknown origin with the emitted Rust code.
-/
import Verif.Proofs.Untrusted
import Verif.Proofs.UntrustedLE
import Verif.Props.RustCodec
namespace TPB.Props
open Spec Rust

/-! ## C67: bytes of unknown origin -/

/-- **C67** Whatever the bytes are: if the emitted code reads a value of a type, with whatever amount of stack, then
the value has that type, at every depth, and the reader is left at a suffix of the bytes. -/
theorem C67_typed (rt : Runtime) (hrt : rt.Typed) (S : List ASTNode) (hA : Accepted S) (hN : WellNamed S) :
    ∃ P, Emits S P ∧ ∀ (t : TypeId), WFType t → ∀ (k : Nat) (bs : Bytes) (v : Val) (r : Bytes),
      readTy rt P k (genTy t) bs = .ok (v, r) → HasTy rt.wire S t v ∧ r <:+ bs :=
  ⟨genProg S, emits_genProg S hA, fun t ht k bs v r h => (typed_ind hrt).read hN (typesOk_of_wf hA.wf) k t ht bs v r h⟩

/-- C67: if the library accepts only what it writes, so does the emitted code: the bytes that were read are the
encoding of the value. -/
theorem C67_canonical (rt : Runtime) (hrt : rt.Canonical) (S : List ASTNode) (hA : Accepted S) (hN : WellNamed S) :
    ∃ P, Emits S P ∧ ∀ (t : TypeId), WFType t → ∀ (k : Nat) (bs : Bytes) (v : Val) (r : Bytes),
      readTy rt P k (genTy t) bs = .ok (v, r) → ∃ b, Enc rt.wire S [t] [v] b ∧ bs = b ++ r :=
  ⟨genProg S, emits_genProg S hA, fun t ht k bs v r h => (canonical_ind hrt).read hN (typesOk_of_wf hA.wf) k t ht bs v r h⟩

/-- C67: two reads that return the same value and stop at the same place have read the same bytes. -/
theorem C67_unique_encoding (rt : Runtime) (hC : rt.Canonical) (S : List ASTNode) (hA : Accepted S)
    (hN : WellNamed S) (hW : NoWriterClash S) :
    ∃ P, Emits S P ∧ ∀ (t : TypeId), WFType t → ∀ (k k' : Nat) (bs bs' : Bytes) (v : Val) (r : Bytes),
      readTy rt P k (genTy t) bs = .ok (v, r) → readTy rt P k' (genTy t) bs' = .ok (v, r) → bs = bs' := by
  refine ⟨genProg S, emits_genProg S hA, fun t ht k k' bs bs' v r h h' => ?_⟩
  have hT := typesOk_of_wf hA.wf
  obtain ⟨b, he, rfl⟩ := (canonical_ind hC).read hN hT k t ht bs v r h
  obtain ⟨b', he', rfl⟩ := (canonical_ind hC).read hN hT k' t ht bs' v r h'
  rw [Writes.unique (enc_writes hA hN hW ht he) (enc_writes hA hN hW ht he')]

theorem truncated_not_read {rt : Runtime} (hrt : rt.Lawful) (hC : rt.Canonical) {S : List ASTNode} (hA : Accepted S)
    (hN : WellNamed S) (hW : NoWriterClash S) (hD : DistinctNumbers S) {t : TypeId} (ht : WFType t) {v : Val}
    (hv : HasTy rt.wire S t v) {b : Bytes} (hb : Writes rt (genProg S) t v b) {c : Bytes} (hc : c <+: b) (hne : c ≠ b)
    (k : Nat) (w : Val) (r : Bytes) : readTy rt (genProg S) k (genTy t) c ≠ .ok (w, r) := by
  intro h
  apply hne
  have hT := typesOk_of_wf hA.wf
  obtain ⟨b', he', rfl⟩ := (canonical_ind hC).read hN hT k t ht c w r h
  obtain ⟨d, he⟩ := hasTys_enc hrt.wire hN hT hv (by simpa using ht)
  obtain rfl := Writes.unique hb (enc_writes hA hN hW ht he)
  obtain ⟨z, rfl⟩ := hc
  obtain ⟨-, h1, h2⟩ := C24_sequences rt hrt S hA hN hD [t] (by simpa using ht) [v] [w] _ _ [] (r ++ z) he he' (by simp)
  have hz : r = [] ∧ z = [] := by
    have := h2.symm
    simpa using this
  rw [hz.1, hz.2]
  simp

/-- C67: a message that has been cut off is never taken for a value. -/
theorem C67_truncated (rt : Runtime) (hrt : rt.Lawful) (hC : rt.Canonical) (S : List ASTNode) (hA : Accepted S)
    (hN : WellNamed S) (hW : NoWriterClash S) (hD : DistinctNumbers S) :
    ∃ P, Emits S P ∧ ∀ (t : TypeId), WFType t → ∀ v, HasTy rt.wire S t v → ∀ b, Writes rt P t v b →
      ∀ c, c <+: b → c ≠ b → ∀ (k : Nat) (w : Val) (r : Bytes), readTy rt P k (genTy t) c ≠ .ok (w, r) :=
  ⟨genProg S, emits_genProg S hA, fun _ ht _ hv _ hb _ hc hne => truncated_not_read hrt hC hA hN hW hD ht hv hb hc hne⟩

/-- C67: reading ends. For every type there is a number `c` such that, with a stack of `c` frames per byte of the
input, the emitted code returns a value or panics: it is never stuck, and the stack does not overflow. -/
theorem C67_ends (rt : Runtime) (hrt : rt.Typed) (hc : rt.Consumes) (S : List ASTNode) (hA : Accepted S) (hN : WellNamed S)
    (hS : SafeToRead rt.wire S) :
    ∃ P, Emits S P ∧ ∃ c : Nat, ∀ (t : TypeId), WFType t → ContainersOk rt.wire t → ∀ (bs : Bytes),
      (∃ v r, ∀ k, c * (bs.length + 1) ≤ k → readTy rt P k (genTy t) bs = .ok (v, r)) ∨
      (∀ k, c * (bs.length + 1) ≤ k → readTy rt P k (genTy t) bs = .error .panic) := by
  obtain ⟨rank, hrank⟩ := hS.finite
  obtain ⟨R, hR⟩ := rank_bound S rank
  have hT := typesOk_of_wf hA.wf
  refine ⟨genProg S, emits_genProg S hA, R + 3, fun t ht hct bs => ?_⟩
  have hd : depthOf S rank t ≤ R + 1 := depthOf_le hR t
  have e : (R + 3) * (bs.length + 1) = bs.length * (R + 3) + (R + 3) := by rw [Nat.mul_add, Nat.mul_comm]; omega
  have h := read_ended hrt hc hN hT hS hrank hR ((R + 3) * (bs.length + 1)) t ht hct bs (by omega)
  have hmore : readTy rt (genProg S) ((R + 3) * (bs.length + 1)) (genTy t) bs ≠ .error .fuel := by
    intro e; rw [e] at h; exact h
  cases hr : readTy rt (genProg S) ((R + 3) * (bs.length + 1)) (genTy t) bs with
  | ok q => exact .inl ⟨q.1, q.2, fun k hk => by rw [readTy_more hmore hk, hr]⟩
  | error e =>
    refine .inr (fun k hk => ?_)
    rw [readTy_more hmore hk, hr]
    rw [hr] at h
    cases e <;> first | rfl | exact h.elim

/-- C67: reading a message that has been cut off panics. -/
theorem C67_truncated_panics (rt : Runtime) (hrt : rt.Lawful) (hC : rt.Canonical) (hY : rt.Typed) (hc : rt.Consumes)
    (S : List ASTNode) (hA : Accepted S) (hN : WellNamed S) (hW : NoWriterClash S) (hD : DistinctNumbers S)
    (hS : SafeToRead rt.wire S) :
    ∃ P, Emits S P ∧ ∀ (t : TypeId), WFType t → ContainersOk rt.wire t → ∀ v, HasTy rt.wire S t v → ∀ b, Writes rt P t v b →
      ∀ c, c <+: b → c ≠ b → ReadPanics rt P t c := by
  have hT := typesOk_of_wf hA.wf
  obtain ⟨rank, hrank⟩ := hS.finite
  obtain ⟨R, hR⟩ := rank_bound S rank
  refine ⟨genProg S, emits_genProg S hA, fun t ht hct v hv b hb c hcb hne => ?_⟩
  refine ⟨c.length * (R + 3) + depthOf S rank t + 2, fun k hk => ?_⟩
  have h := read_ended hY hc hN hT hS hrank hR k t ht hct c hk
  cases hr : readTy rt (genProg S) k (genTy t) c with
  | ok q => exact absurd hr (truncated_not_read hrt hC hA hN hW hD ht hv hb hcb hne k q.1 q.2)
  | error e =>
    rw [hr] at h
    cases e <;> first | rfl | exact h.elim

/-! ### Non-vacuity of C67 -/

theorem le_containersOk {t : TypeId} (h : WFType t) : ContainersOk LE.rust.strict.wire t := by
  induction h with
  | name n => exact .leaf _ (fun c gs => typeOfName_ne_generic n c gs)
  | generic c gs hne _ ih =>
    refine .generic c gs (fun s => ?_) ih
    obtain ⟨g, gs, rfl⟩ := List.exists_cons_of_ne_nil hne
    show (pick (g :: gs) (List.replicate s 0)).isSome
    induction s with
    | zero => rfl
    | succ s ih2 =>
      obtain ⟨l, hl⟩ := Option.isSome_iff_exists.1 ih2
      simp [List.replicate_succ, pick, hl]

theorem wireSchema_safe : SafeToRead LE.rust.strict.wire wireSchema where
  finite := ⟨fun _ => 0, by
    intro n hn m hm h
    simp only [wireSchema, List.mem_cons, ASTNode.struct.injEq, reduceCtorEq, List.not_mem_nil, or_false, false_or] at hn hm
    rcases hn with rfl | rfl <;> rcases hm with rfl | rfl <;> simp [fieldsOf] at h⟩
  fields n hn t ht := by
    obtain ⟨f, hf, rfl⟩ := List.mem_map.1 ht
    exact le_containersOk ((typesOk_of_wf wireSchema_wf).1 n hn f hf)
  payloads n hn i hi t ht := by
    obtain ⟨f, hf, rfl⟩ := List.mem_map.1 ht
    exact le_containersOk ((typesOk_of_wf wireSchema_wf).2 n hn i hi f hf)

/-- There is a library with all the laws that C67 uses. -/
example : LE.rust.strict.Lawful ∧ LE.rust.strict.Typed ∧ LE.rust.strict.Canonical ∧ LE.rust.strict.Consumes :=
  ⟨strict_lawful LE.rust_lawful, le_strict_typed, strict_canonical _, le_strict_consumes⟩

/-- Bytes that are a value with something behind it, bytes that break off, and an unknown variant. -/
example : ∃ P, Emits wireSchema P ∧
    Reads LE.rust.strict P (.other "Shape") [3, 0, 0, 0, 5] (.enum "Shape" "None" []) [5] ∧
    ReadPanics LE.rust.strict P (.other "Shape") [3, 0, 0] ∧
    ReadPanics LE.rust.strict P (.other "Shape") [1, 0, 0, 0, 7, 0, 0, 0, 2, 0, 0, 0, 0, 0, 0, 0, 9] := by
  exact ⟨genProg wireSchema, emits_genProg _ wireSchema_accepted, reads_of_eq (k := 3) rfl, panics_of_eq (k := 3) rfl,
    panics_of_eq (k := 5) rfl⟩

end TPB.Props
