/-
Property theorems about the emitted Dart `skip` methods for every order of fields and every count (C28).
-/
import Verif.Proofs.DartSkip
import Verif.Props.DartCodec
namespace TPB.Props
open Spec

/-- **C28, what is passed over.** For every schema, without a condition on the order of fields: skipping one
value of a declared type passes over exactly the bytes that `Walked` describes: like the wire layout, but in
every struct and every payload the fields whose type is given by a name come first. -/
theorem C28_walks (x : Ext) (rt : Dart.Runtime) (hrt : rt.Lawful) (S : List ASTNode) (hA : Accepted S)
    (hN : DartNamed x S) (hD : DistinctNumbers S) :
    ∃ P, Dart.Emits x S P ∧ ∀ id ∈ typeNames S, id ≠ "String" → ∀ bs, Walked rt.wire S [.other id] bs →
      ∀ kd r, Dart.Skips rt P (.plain kd id) 1 (bs ++ r) r := by
  have hS := Dart.plain_of_accepted hA
  refine ⟨_, Dart.emits_genProg hA, fun id hid hs bs hw kd r => ?_⟩
  obtain ⟨N, h⟩ := Dart.walk_declared hrt hS hN hD hid hs kd hw
  exact ⟨N, fun k hk => h k hk r⟩

/-- **C28, exactly when one value is skipped.** Let `bs` be the bytes of a value of a declared type, and let `w`
be what `Walked` finds at the same place of the buffer.  Skipping one value leaves the reader behind the value
if and only if `w` has as many bytes as the value. -/
theorem C28_one_value_iff (x : Ext) (rt : Dart.Runtime) (hrt : rt.Lawful) (S : List ASTNode) (hA : Accepted S)
    (hN : DartNamed x S) (hH : HasDefaults S) (hD : DistinctNumbers S) :
    ∃ P, Dart.Emits x S P ∧ ∀ id ∈ typeNames S, id ≠ "String" → ∀ v bs, Enc rt.wire (dartSchema S) [.other id] [v] bs →
      ∀ r w r', Walked rt.wire S [.other id] w → w ++ r' = bs ++ r →
        (∃ d, Represents x S (.other id) v d ∧ Dart.Reads rt P (.other id) (bs ++ r) d r) ∧
        ∀ kd, Dart.Skips rt P (.plain kd id) 1 (bs ++ r) r ↔ w.length = bs.length := by
  have hS := Dart.plain_of_accepted hA
  refine ⟨_, Dart.emits_genProg hA, fun id hid hs v bs he r w r' hw e => ⟨?_, fun kd => ?_⟩⟩
  · obtain ⟨d, h1, h2⟩ := (Dart.enc_read_one hrt hS hN hH hD (t := .other id) (Dart.declared_free hN hid) he).1
    exact ⟨d, h1, h2 r⟩
  · obtain ⟨N, h⟩ := Dart.walk_declared hrt hS hN hD hid hs kd hw
    have hsk : Dart.Skips rt (Dart.genProg x S) (.plain kd id) 1 (bs ++ r) r' := ⟨N, fun k hk => e ▸ h k hk r'⟩
    have hl : w.length + r'.length = bs.length + r.length := by
      have := congrArg List.length e
      simpa using this
    constructor
    · intro h'
      have := Dart.Skips.unique hsk h'
      subst this
      omega
    · intro h'
      have := (List.append_inj e h').2
      exact this ▸ hsk

/-- **C28, every count.** Skipping `c` values of a struct passes over the fields whose type is given by a name
once, and then `c` times over the other fields. -/
theorem C28_count (x : Ext) (rt : Dart.Runtime) (hrt : rt.Lawful) (S : List ASTNode) (hA : Accepted S)
    (hN : DartNamed x S) (hD : DistinctNumbers S) :
    ∃ P, Dart.Emits x S P ∧ ∀ n, .struct n ∈ S → ∀ (b0 : Bytes) (bss : List Bytes),
      Walked rt.wire S (((fieldsOf n).map (·.2)).filter isNamed) b0 →
      (∀ b ∈ bss, Walked rt.wire S (((fieldsOf n).map (·.2)).filter (fun t => !isNamed t)) b) →
      ∀ kd r, Dart.Skips rt P (.plain kd n.id) bss.length (b0 ++ bss.flatten ++ r) r := by
  have hS := Dart.plain_of_accepted hA
  refine ⟨_, Dart.emits_genProg hA, fun n hn b0 bss h0 h1 kd r => ?_⟩
  obtain ⟨N, h⟩ := Dart.walk_count hrt hS hN hD kd hn h0 h1
  exact ⟨N, fun k hk => h k hk r⟩

/-- **C28 does not hold of any struct whose fields all have types given by names.** Whatever the number of
values to skip (even none), the same bytes are passed over. -/
theorem C28_count_ignored (x : Ext) (rt : Dart.Runtime) (S : List ASTNode) (hA : Accepted S) (hN : DartNamed x S) :
    ∃ P, Dart.Emits x S P ∧ ∀ n, .struct n ∈ S → (∀ f ∈ fieldsOf n, ∃ id, f.2 = .other id) →
      ∀ kd c c' bs r, Dart.Skips rt P (.plain kd n.id) c bs r → Dart.Skips rt P (.plain kd n.id) c' bs r := by
  have hS := Dart.plain_of_accepted hA
  refine ⟨_, Dart.emits_genProg hA, fun n hn h kd c c' bs r ⟨N, hs⟩ => ⟨N, fun k hk => ?_⟩⟩
  rw [Dart.count_irrelevant hS hN kd hn h k c' c]
  exact hs k hk

/-! ### Examples -/

/-- `struct P { a: i32, s: String }`: the name comes last. -/
def skipSchema2 : List ASTNode :=
  [.struct ⟨"P", [⟨0, "a", .integer "i32" 4 true⟩, ⟨1, "s", .other "String"⟩], true, true⟩,
   .struct ⟨"Q", [⟨0, "p", .other "P"⟩], true, true⟩]

theorem skipSchema2_accepted : Accepted skipSchema2 :=
  ⟨[.kwStruct, .id "P", .sym '{', .id "a", .sym ':', .id "i32", .sym ',', .id "s", .sym ':', .id "String", .sym '}',
    .kwStruct, .id "Q", .sym '{', .id "p", .sym ':', .id "P", .sym '}', .eof], rfl⟩

theorem skipSchema2_named : DartNamed testExt skipSchema2 where
  classes := by decide +kernel
  fields := by simp [skipSchema2, dartFieldNames]; decide +kernel
  variants := by simp [skipSchema2]
  payloads := by simp [skipSchema2]
  plain := by decide +kernel
  lists := by decide +kernel
  structLib := by simp [skipSchema2, fieldsOf, LibraryFree]; decide +kernel
  enumLib := by simp [skipSchema2]

theorem skipSchema2_distinct : DistinctNumbers skipSchema2 := by simp [DistinctNumbers, skipSchema2]

/-- The string is passed over first (eight bytes here), then the integer. -/
example : ∃ P, Dart.Emits testExt skipSchema2 P ∧ ∀ kd,
    Dart.Skips LE.dart P (.plain kd "P") 1 [1, 0, 0, 0, 0, 0, 0, 0, 2, 0, 0, 0, 42] [42] := by
  obtain ⟨P, hP, h⟩ := C28_walks testExt LE.dart LE.dart_lawful skipSchema2 skipSchema2_accepted skipSchema2_named skipSchema2_distinct
  refine ⟨P, hP, fun kd => h "P" (by decide) (by decide) [1, 0, 0, 0, 0, 0, 0, 0, 2, 0, 0, 0] ?_ kd [42]⟩
  have h0 : Walked LE.dart.wire skipSchema2 (namedFirst [.integer "i32" 4 true, .other "String"]) ([1, 0, 0, 0, 0, 0, 0, 0] ++ ([2, 0, 0, 0] ++ [])) :=
    .ext _ "String" (.ext "String" 1) _ _ _ rfl (by decide) (by decide +kernel) (.leaf _ "Int32" (.int 2) _ _ _ rfl (by decide +kernel) .nil)
  exact .struct ⟨"P", [⟨0, "a", .integer "i32" 4 true⟩, ⟨1, "s", .other "String"⟩], true, true⟩ _ [] [] (by simp [skipSchema2]) h0 .nil

/-- Three values: one string, three integers. -/
example : ∃ P, Dart.Emits testExt skipSchema2 P ∧ ∀ kd,
    Dart.Skips LE.dart P (.plain kd "P") 3 ([1, 0, 0, 0, 0, 0, 0, 0] ++ [2, 0, 0, 0, 2, 0, 0, 0, 2, 0, 0, 0] ++ [42]) [42] := by
  obtain ⟨P, hP, h⟩ := C28_count testExt LE.dart LE.dart_lawful skipSchema2 skipSchema2_accepted skipSchema2_named skipSchema2_distinct
  refine ⟨P, hP, fun kd => h ⟨"P", [⟨0, "a", .integer "i32" 4 true⟩, ⟨1, "s", .other "String"⟩], true, true⟩ (by simp [skipSchema2])
    [1, 0, 0, 0, 0, 0, 0, 0] (List.replicate 3 [2, 0, 0, 0]) ?_ ?_ kd [42]⟩
  · exact .ext _ "String" (.ext "String" 1) [1, 0, 0, 0, 0, 0, 0, 0] _ [] rfl (by decide) (by decide +kernel) .nil
  · intro b hb
    obtain ⟨-, rfl⟩ := List.mem_replicate.1 hb
    exact .leaf _ "Int32" (.int 2) [2, 0, 0, 0] _ [] rfl (by decide +kernel) .nil

/-- Skipping five `Q` passes over one. -/
example : ∃ P, Dart.Emits testExt skipSchema2 P ∧
    (Dart.Skips LE.dart P (.plain .into "Q") 1 [1, 0, 0, 0, 0, 0, 0, 0, 2, 0, 0, 0, 42] [42] →
      Dart.Skips LE.dart P (.plain .into "Q") 5 [1, 0, 0, 0, 0, 0, 0, 0, 2, 0, 0, 0, 42] [42]) := by
  obtain ⟨P, hP, h⟩ := C28_count_ignored testExt LE.dart skipSchema2 skipSchema2_accepted skipSchema2_named
  exact ⟨P, hP, h ⟨"Q", [⟨0, "p", .other "P"⟩], true, true⟩ (by simp [skipSchema2]) (by simp [fieldsOf]) .into 1 5 _ _⟩

/-- A value of `P` whose integer is 1 and whose string is 2 is skipped correctly (both orders have twelve
bytes), although not in the order of its fields. -/
example : Enc LE.dart.wire (dartSchema skipSchema2) [.other "P"] [.struct "P" [("a", .int 1), ("s", .ext "String" 2)]]
      [1, 0, 0, 0, 2, 0, 0, 0, 0, 0, 0, 0] ∧
    Walked LE.dart.wire skipSchema2 [.other "P"] [1, 0, 0, 0, 2, 0, 0, 0, 0, 0, 0, 0] := by
  constructor
  · have h0 : Enc LE.dart.wire (dartSchema skipSchema2) [.integer "Int32" 4 true, .other "String"] [.int 1, .ext "String" 2]
        ([1, 0, 0, 0] ++ ([2, 0, 0, 0, 0, 0, 0, 0] ++ [])) :=
      .leaf _ "Int32" _ _ _ _ _ rfl (by decide +kernel) (.ext _ _ _ _ _ _ (by decide) (by decide +kernel) .nil)
    exact .struct ⟨"P", [⟨0, "a", .integer "Int32" 4 true⟩, ⟨1, "s", .other "String"⟩], true, true⟩ _ _ [] [] []
      (by simp [skipSchema2, dartSchema, viewDecl, viewField, dartView, dartPrim]) h0 .nil
  · have h0 : Walked LE.dart.wire skipSchema2 (namedFirst [.integer "i32" 4 true, .other "String"]) ([1, 0, 0, 0, 2, 0, 0, 0] ++ ([0, 0, 0, 0] ++ [])) :=
      .ext _ "String" (.ext "String" (1 + 2 * 2 ^ 32)) _ _ _ rfl (by decide) (by decide +kernel) (.leaf _ "Int32" (.int 0) _ _ _ rfl (by decide +kernel) .nil)
    exact .struct ⟨"P", [⟨0, "a", .integer "i32" 4 true⟩, ⟨1, "s", .other "String"⟩], true, true⟩ _ [] [] (by simp [skipSchema2]) h0 .nil

end TPB.Props
