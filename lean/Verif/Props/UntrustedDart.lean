/-
C70: reading bytes of unknown origin with the emitted Dart code.
-/
import Verif.Proofs.UntrustedDart
import Verif.Proofs.UntrustedDartLE
import Verif.Props.DartCodec
namespace TPB.Props
open Spec

/-! ## C70: bytes of unknown origin -/

/-- **C70** Whatever the bytes are: if the emitted code reads a value of a type, with whatever amount of stack, into
a new object or into an existing one, then the object stands for a value of that type, at every depth, and the
reader is left at a suffix of the bytes. -/
theorem C70_typed (x : Ext) (rt : Dart.Runtime) (hrt : rt.Lawful) (hY : rt.Typed) (S : List ASTNode) (hA : Accepted S)
    (hN : DartNamed x S) (hH : HasDefaults S) :
    ∃ P, Dart.Emits x S P ∧ ∀ (t : TypeId), WFType t → LibraryFree S t → ∀ (k : Nat) (bs : Bytes) (d : Val) (r : Bytes),
      (Dart.readT rt P k t bs = .ok (d, r) → (∃ v, DartValue rt S t v ∧ Represents x S t v d) ∧ r <:+ bs) ∧
      ∀ old, DartObject x S t old → Dart.emplT rt P k t old bs = .ok (d, r) →
        (∃ v, DartValue rt S t v ∧ Represents x S t v d) ∧ r <:+ bs := by
  have hS := Dart.plain_of_accepted hA
  refine ⟨_, Dart.emits_genProg hA, fun t ht hf k bs d r => ?_⟩
  obtain ⟨h1, h2⟩ := (Dart.typed_ind (S := S) hY).both hS hN (Dart.new_enum hrt hS hN hH) k t (Dart.sized_of_wf ht) hf
  refine ⟨fun h => ?_, fun old ho h => ?_⟩
  · obtain ⟨v, ⟨h3, h4⟩, h5⟩ := (h1 bs d r h).one
    exact ⟨⟨v, h3, h5⟩, h4⟩
  · obtain ⟨v, ⟨h3, h4⟩, h5⟩ := (h2 old ho bs d r h).one
    exact ⟨⟨v, h3, h5⟩, h4⟩

/-- C70: if the library accepts only what it writes, so does the emitted code: the bytes that were read are the
encoding of the value that the object stands for. -/
theorem C70_canonical (x : Ext) (rt : Dart.Runtime) (hrt : rt.Lawful) (hC : rt.Canonical) (S : List ASTNode) (hA : Accepted S)
    (hN : DartNamed x S) (hH : HasDefaults S) :
    ∃ P, Dart.Emits x S P ∧ ∀ (t : TypeId), WFType t → LibraryFree S t → ∀ (k : Nat) (bs : Bytes) (d : Val) (r : Bytes),
      (Dart.readT rt P k t bs = .ok (d, r) →
        ∃ v b, Represents x S t v d ∧ Enc rt.wire (dartSchema S) [dartView t] [v] b ∧ bs = b ++ r) ∧
      ∀ old, DartObject x S t old → Dart.emplT rt P k t old bs = .ok (d, r) →
        ∃ v b, Represents x S t v d ∧ Enc rt.wire (dartSchema S) [dartView t] [v] b ∧ bs = b ++ r := by
  have hS := Dart.plain_of_accepted hA
  refine ⟨_, Dart.emits_genProg hA, fun t ht hf k bs d r => ?_⟩
  obtain ⟨h1, h2⟩ := (Dart.canonical_ind (S := S) hC).both hS hN (Dart.new_enum hrt hS hN hH) k t (Dart.sized_of_wf ht) hf
  refine ⟨fun h => ?_, fun old ho h => ?_⟩
  · obtain ⟨v, ⟨b, h3, h4⟩, h5⟩ := (h1 bs d r h).one
    exact ⟨v, b, h5, h3, h4⟩
  · obtain ⟨v, ⟨b, h3, h4⟩, h5⟩ := (h2 old ho bs d r h).one
    exact ⟨v, b, h5, h3, h4⟩

/-- C70: writing the object that was read gives back exactly the bytes that were taken, with either codec. -/
theorem C70_rewrite (x : Ext) (rt : Dart.Runtime) (hrt : rt.Lawful) (hC : rt.Canonical) (S : List ASTNode) (hA : Accepted S)
    (hN : DartNamed x S) (hH : HasDefaults S) :
    ∃ P, Dart.Emits x S P ∧ ∀ (t : TypeId), WFType t → LibraryFree S t → ∀ (k : Nat) (bs : Bytes) (d : Val) (r : Bytes),
      (Dart.readT rt P k t bs = .ok (d, r) → ∃ b, bs = b ++ r ∧ ∀ kd, Dart.Writes rt P kd t d b) ∧
      ∀ old, DartObject x S t old → Dart.emplT rt P k t old bs = .ok (d, r) →
        ∃ b, bs = b ++ r ∧ ∀ kd, Dart.Writes rt P kd t d b := by
  have hS := Dart.plain_of_accepted hA
  refine ⟨_, Dart.emits_genProg hA, fun t ht hf k bs d r => ?_⟩
  obtain ⟨h1, h2⟩ := (Dart.canonical_ind (S := S) hC).both hS hN (Dart.new_enum hrt hS hN hH) k t (Dart.sized_of_wf ht) hf
  refine ⟨fun h => ?_, fun old ho h => ?_⟩
  · obtain ⟨v, ⟨b, h3, h4⟩, h5⟩ := (h1 bs d r h).one
    exact ⟨b, h4, fun kd => Dart.enc_write_one hS hN hf h3 h5 kd⟩
  · obtain ⟨v, ⟨b, h3, h4⟩, h5⟩ := (h2 old ho bs d r h).one
    exact ⟨b, h4, fun kd => Dart.enc_write_one hS hN hf h3 h5 kd⟩

/-- C70: reading ends. There is a number `c` such that, with a stack of `c` frames per byte of the input, the emitted
code returns an object or throws, for every type and whatever the bytes are: it does not fail in another way, and
the stack does not overflow. -/
theorem C70_ends (x : Ext) (rt : Dart.Runtime) (hrt : rt.Lawful) (hY : rt.Typed) (hc : rt.Consumes) (S : List ASTNode)
    (hA : Accepted S) (hN : DartNamed x S) (hH : HasDefaults S) :
    ∃ P, Dart.Emits x S P ∧ ∃ c : Nat, ∀ (t : TypeId), WFType t → LibraryFree S t → ∀ (bs : Bytes),
      ((∃ d r, ∀ k, c * (bs.length + 1) ≤ k → Dart.readT rt P k t bs = .ok (d, r)) ∨
        ∀ k, c * (bs.length + 1) ≤ k → Dart.readT rt P k t bs = .error .throws) ∧
      ∀ old, DartObject x S t old →
        ((∃ d r, ∀ k, c * (bs.length + 1) ≤ k → Dart.emplT rt P k t old bs = .ok (d, r)) ∨
          ∀ k, c * (bs.length + 1) ≤ k → Dart.emplT rt P k t old bs = .error .throws) := by
  have hS := Dart.plain_of_accepted hA
  obtain ⟨height, hh⟩ := hH.finite
  obtain ⟨H, hHb⟩ := Dart.height_bound (typeNames S) height
  obtain ⟨N, hnew⟩ := Dart.new_bound (x := x) hrt hS hN hH
  refine ⟨_, Dart.emits_genProg hA, N + 2 * H + 5, fun t ht hf bs => ?_⟩
  have hd := Dart.depthOf_le hHb t
  have e : (N + 2 * H + 5) * (bs.length + 1) = N * bs.length + bs.length * (2 * H + 5) + N + (2 * H + 5) := by
    rw [Nat.mul_add, Nat.mul_comm (N + 2 * H + 5), Nat.add_assoc N, Nat.mul_add, Nat.mul_comm bs.length N]
    omega
  obtain ⟨h1, h2⟩ := Dart.both_ended hrt hY hc hS hN hH hh hHb hnew ((N + 2 * H + 5) * (bs.length + 1)) t (Dart.sized_of_wf ht)
    hf bs (by omega)
  refine ⟨?_, fun old ho => ?_⟩
  · have hmore : Dart.readT rt (Dart.genProg x S) ((N + 2 * H + 5) * (bs.length + 1)) t bs ≠ .error .fuel := by
      intro e; rw [e] at h1; exact h1
    cases hr : Dart.readT rt (Dart.genProg x S) ((N + 2 * H + 5) * (bs.length + 1)) t bs with
    | ok q => exact .inl ⟨q.1, q.2, fun k hk => by rw [Dart.readT_more hmore hk, hr]⟩
    | error e =>
      refine .inr (fun k hk => ?_)
      rw [Dart.readT_more hmore hk, hr]
      rw [hr] at h1
      cases e <;> first | rfl | exact h1.elim
  · have h2 := h2 old ho
    have hmore : Dart.emplT rt (Dart.genProg x S) ((N + 2 * H + 5) * (bs.length + 1)) t old bs ≠ .error .fuel := by
      intro e; rw [e] at h2; exact h2
    cases hr : Dart.emplT rt (Dart.genProg x S) ((N + 2 * H + 5) * (bs.length + 1)) t old bs with
    | ok q => exact .inl ⟨q.1, q.2, fun k hk => by rw [Dart.emplT_more hmore hk, hr]⟩
    | error e =>
      refine .inr (fun k hk => ?_)
      rw [Dart.emplT_more hmore hk, hr]
      rw [hr] at h2
      cases e <;> first | rfl | exact h2.elim

/-- C70: reading a message that has been cut off throws. -/
theorem C70_truncated (x : Ext) (rt : Dart.Runtime) (hrt : rt.Lawful) (hC : rt.Canonical) (hc : rt.Consumes) (S : List ASTNode)
    (hA : Accepted S) (hN : DartNamed x S) (hH : HasDefaults S) (hD : DistinctNumbers S)
    (hP : ∀ n, .enum n ∈ S → ∀ i ∈ n.items, i.position < 2 ^ 31) :
    ∃ P, Dart.Emits x S P ∧ ∀ (t : TypeId), WFType t → LibraryFree S t → ∀ (v d : Val), DartValue rt S t v →
      Represents x S t v d → ∀ kd b, Dart.Writes rt P kd t d b → ∀ c, c <+: b → c ≠ b → Dart.ReadThrows rt P t c := by
  have hS := Dart.plain_of_accepted hA
  refine ⟨_, Dart.emits_genProg hA, fun t ht hf v d hv hd kd b hb c hcb hne => ?_⟩
  obtain ⟨height, hh⟩ := hH.finite
  obtain ⟨H, hHb⟩ := Dart.height_bound (typeNames S) height
  obtain ⟨N, hnew⟩ := Dart.new_bound (x := x) hrt hS hN hH
  refine ⟨N + c.length * (2 * H + 5) + Dart.depthOf S height t + 2, fun k hk => ?_⟩
  have h := (Dart.both_ended hrt hC.typed hc hS hN hH hh hHb hnew k t (Dart.sized_of_wf ht) hf c hk).1
  cases hr : Dart.readT rt (Dart.genProg x S) k t c with
  | error e =>
    rw [hr] at h
    cases e <;> first | rfl | exact h.elim
  | ok q =>
    exfalso
    apply hne
    obtain ⟨d', r⟩ := q
    obtain ⟨v', ⟨b', h3, rfl⟩, -⟩ := ((((Dart.canonical_ind (S := S) hC).both hS hN (Dart.new_enum hrt hS hN hH) k t
      (Dart.sized_of_wf ht) hf).1 c d' r hr).one)
    obtain ⟨b0, he⟩ := Dart.hasTys_enc hrt hN hS.types hP hv [t] rfl (by simpa using Dart.sized_of_wf ht)
    obtain rfl := Dart.Writes.unique hb (Dart.enc_write_one hS hN hf he hd kd)
    obtain ⟨z, rfl⟩ := hcb
    obtain ⟨d1, -, h4⟩ := (Dart.enc_read_one hrt hS hN hH hD hf he).1
    obtain ⟨d2, -, h5⟩ := (Dart.enc_read_one hrt hS hN hH hD hf h3).1
    have h4 := h4 []
    have h5 := h5 (r ++ z)
    rw [List.append_nil, List.append_assoc] at h4
    have h6 := (Dart.Reads.unique h4 h5).2
    have hz : r = [] ∧ z = [] := by simpa using h6.symm
    rw [hz.1, hz.2]
    simp

/-! ### Non-vacuity of C70 -/

/-- There is a library with all the laws that C70 uses. -/
example : LE.dart.strict.Lawful ∧ LE.dart.strict.Typed ∧ LE.dart.strict.Canonical ∧ LE.dart.strict.Consumes :=
  ⟨Dart.strict_lawful LE.dart_lawful, (Dart.strict_canonical LE.dart_lawful).typed, Dart.strict_canonical LE.dart_lawful,
    Dart.le_strict_consumes⟩

/-- Bytes that are an empty variant with something behind it, bytes that break off, an unknown variant, and a list
that announces more elements than there are bytes. -/
example : ∃ P d, Dart.Emits testExt dartExample P ∧
    Dart.Reads LE.dart.strict P (.other "Shape") [3, 0, 0, 0, 5] d [5] ∧
    Represents testExt dartExample (.other "Shape") (.enum "Shape" "None" []) d ∧
    Dart.ReadThrows LE.dart.strict P (.other "Shape") [3, 0, 0] ∧
    Dart.ReadThrows LE.dart.strict P (.other "Shape") [2, 0, 0, 0] ∧
    Dart.ReadThrows LE.dart.strict P (.other "Point") [1, 0, 0, 0, 0, 0, 0, 0, 7, 0, 0, 0, 2, 0, 0, 0, 0, 0, 0, 0, 9] := by
  have hl := Dart.strict_lawful LE.dart_lawful
  have he : Enc LE.dart.strict.wire (dartSchema dartExample) [.other "Shape"] [.enum "Shape" "None" []] [3, 0, 0, 0] :=
    .enum ⟨"Shape", [.empty 3 "None", .tuple 7 "Circle" [⟨0, .other "Point"⟩, ⟨1, .number "Double" 8⟩],
      .struct 1 "Rect" [⟨0, "a", .other "Point"⟩, ⟨1, "b", .bool "Bool"⟩]]⟩ (.empty 3 "None") [3, 0, 0, 0] [] [] [] [] []
      (by simp [dartExample, dartSchema, viewDecl, viewItem, viewField, viewTup, dartView, dartPrim]) (by simp) rfl .nil .nil
  obtain ⟨d, h1, h2⟩ := (Dart.enc_read_one hl (Dart.plain_of_accepted dartExample_accepted) dartExample_named
    dartExample_defaults dartExample_distinct dartExample_free he).1
  exact ⟨_, d, Dart.emits_genProg dartExample_accepted, h2 [5], h1, Dart.throws_of_eq (k := 6) rfl, Dart.throws_of_eq (k := 6) rfl,
    Dart.throws_of_eq (k := 6) rfl⟩

end TPB.Props
