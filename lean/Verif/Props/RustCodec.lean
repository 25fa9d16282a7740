/-
Property theorems about the emitted Rust serialization code: C19 - C24.

`Emits S P` says that the text generated for the schema `S` is the text of the Rust program `P`;
`Writes rt P t v bs` and `Reads rt P t bs v r` run that program on top of the runtime library `rt`
(`Sem/RustEval.lean`); `Enc` is the documented layout (`Spec/Wire.lean`).
-/
import Verif.Proofs.RustReaderGen
import Verif.Proofs.RustCodecFacts
import Verif.Sem.LittleEndian
namespace TPB.Props
open Spec Rust

/-! ## A schema and a value for the examples -/

/-- A recursive struct with a list of points, a shape enum, and an external type. -/
def wireSchema : List ASTNode :=
  [.struct ⟨"Point", [⟨0, "x", .integer "i32" 4 true⟩, ⟨1, "path", .generic "Vec" [.other "Point"]⟩,
      ⟨2, "name", .other "String"⟩], true, true⟩,
   .enum ⟨"Shape", [.empty 3 "None", .tuple 7 "Circle" [⟨0, .number "f64" 8⟩, ⟨1, .other "Point"⟩],
      .struct 1 "Rect" [⟨0, "a", .other "Point"⟩, ⟨1, "b", .bool "bool"⟩]]⟩,
   .struct ⟨"Nothing", [], true, true⟩]

theorem wireSchema_wf : WFSchema 0 wireSchema := by
  have b : ∀ n, WFType (typeOfName n) := .name
  have h1 : WFType (.integer "i32" 4 true) := b "i32"
  have h2 : WFType (.number "f64" 8) := b "f64"
  have h3 : WFType (.other "Point") := b "Point"
  have h4 : WFType (.other "String") := b "String"
  have h5 : WFType (.bool "bool") := b "bool"
  have h6 : WFType (.generic "Vec" [.other "Point"]) := .generic _ _ (by simp) (by simpa using h3)
  refine ⟨⟨⟨.inl rfl, by simp; exact ⟨h1, h6, h4⟩⟩, rfl, rfl⟩, ⟨by simp, .inr (by simp [EnumItem.position]), ?_⟩,
    ⟨⟨.inl rfl, by simp⟩, rfl, rfl⟩, trivial⟩
  simp [WFItem, WFTups, WFFields, PosOk, h2, h3, h5]

theorem wireSchema_accepted : Accepted wireSchema := by
  obtain ⟨ts, _, h⟩ := C09_every_schema _ wireSchema_wf
  exact ⟨_, h⟩

theorem wireSchema_wellNamed : WellNamed wireSchema where
  types := by decide
  builtins := by decide
  fields := by simp [wireSchema, fieldsOf]
  variants := by simp [wireSchema, EnumItem.id]
  payloads := by
    simp only [wireSchema, List.mem_cons, ASTNode.enum.injEq, reduceCtorEq, List.not_mem_nil, or_false, false_or]
    rintro n rfl p id fs h
    simp at h
    obtain ⟨rfl, rfl, rfl⟩ := h
    decide
  numbers := by simp [wireSchema, EnumItem.position]

theorem wireSchema_distinct : DistinctNumbers wireSchema := by
  simp [DistinctNumbers, wireSchema, EnumItem.position]

theorem wireSchema_noClash : NoWriterClash wireSchema := by
  simp only [NoWriterClash, wireSchema, List.mem_cons, ASTNode.enum.injEq, reduceCtorEq, List.not_mem_nil, or_false, false_or]
  rintro n rfl p id fs h
  simp at h
  obtain ⟨rfl, rfl, rfl⟩ := h
  decide

/-- A point with a given coordinate, path and name. -/
def pointVal (x : Int) (path : List Val) (name : Nat) : Val :=
  .struct "Point" [("x", .int x), ("path", .list path.length path), ("name", .ext "String" name)]

/-- `Shape::Rect { a: Point { x: -2, path: [Point { x: 5, .. }], .. }, b: true }` -/
def rectVal : Val := .enum "Shape" "Rect" [("a", pointVal (-2) [pointVal 5 [] 1] 2), ("b", .bool true)]

theorem point_hasTy (x : Int) (hx : -(2 ^ 31) ≤ x ∧ x < 2 ^ 31) (path : List Val) (hp : path.length < 2 ^ 64)
    (n : Nat) (hn : n < 2 ^ 64)
    (hpath : HasTys LE.wire wireSchema (List.replicate path.length (.other "Point")) path) (ts : List TypeId)
    (vs : List Val) (h : HasTys LE.wire wireSchema ts vs) :
    HasTys LE.wire wireSchema (.other "Point" :: ts) (pointVal x path n :: vs) := by
  have key : HasTys LE.wire wireSchema [.integer "i32" 4 true, .generic "Vec" [.other "Point"], .other "String"]
      [.int x, .list path.length path, .ext "String" n] := by
    refine .leaf _ _ _ _ hx (.list "Vec" [.other "Point"] path.length
      (List.replicate path.length (.other "Point")) path _ _ ?_ ?_ hpath
      (.ext _ _ _ _ (by decide) ?_ .nil))
    · simp [LE.wire, hp]
    · simp only [LE.wire]
      generalize path.length = m
      induction m with
      | zero => rfl
      | succ m ih => simp [List.replicate_succ, pick, ih]
    · simp [LE.wire, hn]
  exact .struct ⟨"Point", [⟨0, "x", .integer "i32" 4 true⟩, ⟨1, "path", .generic "Vec" [.other "Point"]⟩,
      ⟨2, "name", .other "String"⟩], true, true⟩ _ _ _ (by simp [wireSchema]) key h

theorem rectVal_hasTy : HasTy LE.wire wireSchema (.other "Shape") rectVal := by
  have hp := point_hasTy 5 (by decide) [] (by decide) 1 (by decide) .nil [] [] .nil
  have hq := point_hasTy (-2) (by decide) [pointVal 5 [] 1] (by decide) 2 (by decide) hp [.bool "bool"] [.bool true]
    (.leaf _ _ _ _ trivial .nil)
  exact .enum ⟨"Shape", [.empty 3 "None", .tuple 7 "Circle" [⟨0, .number "f64" 8⟩, ⟨1, .other "Point"⟩],
      .struct 1 "Rect" [⟨0, "a", .other "Point"⟩, ⟨1, "b", .bool "bool"⟩]]⟩
      (.struct 1 "Rect" [⟨0, "a", .other "Point"⟩, ⟨1, "b", .bool "bool"⟩]) _ [] [] (by simp [wireSchema]) (by simp) hq .nil

/-! ## C19, C20: round trip -/

/-- The value `v` of type `t` survives writing and reading with the program `P`: some bytes are
written, and reading them back, whatever follows, returns `v` and leaves what follows. -/
def RoundTrips (rt : Runtime) (P : Prog) (t : TypeId) (v : Val) : Prop :=
  ∃ bs, Writes rt P t v bs ∧ ∀ r, Reads rt P t (bs ++ r) v r

theorem round_trip (rt : Runtime) (hrt : rt.Lawful) (S : List ASTNode) (hA : Accepted S)
    (hN : WellNamed S) (hW : NoWriterClash S) (hD : DistinctNumbers S) (t : TypeId) (ht : WFType t)
    (v : Val) (hv : HasTy rt.wire S t v) : RoundTrips rt (genProg S) t v := by
  obtain ⟨bs, he⟩ := hasTys_enc hrt.wire hN (typesOk_of_wf hA.wf) hv (by simpa using ht)
  exact ⟨bs, enc_writes hA hN hW ht he, enc_reads hrt hA hN hD ht he⟩

theorem declared_wf {S : List ASTNode} (hN : WellNamed S) {id : String} (h : id ∈ typeNames S) :
    WFType (.other id) := by
  have := WFType.name id
  rwa [typeOfName, hN.builtins id h] at this

/-- **C19** For every accepted schema the emitted program round-trips all values of all types (structs,
lists of structs, nested containers, ...). -/
theorem C19_round_trip (rt : Runtime) (hrt : rt.Lawful) (S : List ASTNode) (hA : Accepted S)
    (hN : WellNamed S) (hW : NoWriterClash S) (hD : DistinctNumbers S) :
    ∃ P, Emits S P ∧ ∀ (t : TypeId), WFType t → ∀ (v : Val), HasTy rt.wire S t v → RoundTrips rt P t v :=
  ⟨genProg S, emits_genProg S hA, fun t ht v hv => round_trip rt hrt S hA hN hW hD t ht v hv⟩

/-- **C19** In particular a struct value whose fields have their declared types round-trips. -/
theorem C19_struct_round_trip (rt : Runtime) (hrt : rt.Lawful) (S : List ASTNode) (hA : Accepted S)
    (hN : WellNamed S) (hW : NoWriterClash S) (hD : DistinctNumbers S) :
    ∃ P, Emits S P ∧ ∀ (n : StructNode), .struct n ∈ S → ∀ (vs : List Val),
      HasTys rt.wire S ((fieldsOf n).map (·.2)) vs →
      RoundTrips rt P (.other n.id) (.struct n.id (named (fieldsOf n) vs)) :=
  ⟨genProg S, emits_genProg S hA, fun n hn vs hv => round_trip rt hrt S hA hN hW hD _
    (declared_wf hN (List.mem_filterMap.2 ⟨_, hn, rfl⟩)) _ (.struct n vs [] [] hn hv .nil)⟩

/-- **C20** for schemas whose variant numbers are distinct: an enum value whose payload has the
declared types round-trips. -/
theorem C20_enum_round_trip_partial (rt : Runtime) (hrt : rt.Lawful) (S : List ASTNode) (hA : Accepted S)
    (hN : WellNamed S) (hW : NoWriterClash S) (hD : DistinctNumbers S) :
    ∃ P, Emits S P ∧ ∀ (n : EnumNode), .enum n ∈ S → ∀ i ∈ n.items, ∀ (vs : List Val),
      HasTys rt.wire S ((payload i).map (·.2)) vs →
      RoundTrips rt P (.other n.id) (.enum n.id i.id (named (payload i) vs)) :=
  ⟨genProg S, emits_genProg S hA, fun n hn i hi vs hv => round_trip rt hrt S hA hN hW hD _
    (declared_wf hN (List.mem_filterMap.2 ⟨_, hn, rfl⟩)) _ (.enum n i vs [] [] hn hi hv .nil)⟩

/-- Non-vacuity of C19 and C20: a recursive struct inside an enum payload. -/
example : ∃ P, Emits wireSchema P ∧ RoundTrips LE.rust P (.other "Shape") rectVal := by
  obtain ⟨P, h, h'⟩ := C19_round_trip LE.rust LE.rust_lawful wireSchema wireSchema_accepted wireSchema_wellNamed
    wireSchema_noClash wireSchema_distinct
  exact ⟨P, h, h' _ (.name "Shape") _ rectVal_hasTy⟩

/-- The bytes of that value, computed by running the emitted code. -/
example : writeTy LE.rust (genProg wireSchema) 10 (.named "Shape") rectVal = .ok
    ([1, 0, 0, 0] ++ [254, 255, 255, 255] ++ [1, 0, 0, 0, 0, 0, 0, 0] ++ [5, 0, 0, 0] ++ [0, 0, 0, 0, 0, 0, 0, 0]
      ++ [1, 0, 0, 0, 0, 0, 0, 0] ++ [2, 0, 0, 0, 0, 0, 0, 0] ++ [1]) := rfl

/-- `enum E { #[1] A, #[1] B }` -/
def dupSchema : List ASTNode := [.enum ⟨"E", [.empty 1 "A", .empty 1 "B"]⟩]

theorem dupSchema_accepted : Accepted dupSchema :=
  ⟨[.kwEnum, .id "E", .sym '{', .sym '#', .sym '[', .lit (.int 1), .sym ']', .id "A", .sym ',',
    .sym '#', .sym '[', .lit (.int 1), .sym ']', .id "B", .sym '}', .eof], rfl⟩

theorem dupSchema_wellNamed : WellNamed dupSchema where
  types := by decide
  builtins := by decide
  fields := by simp [dupSchema]
  variants := by simp [dupSchema, EnumItem.id]
  payloads := by simp [dupSchema]
  numbers := by simp [dupSchema, EnumItem.position]

/-- C20 in full is false: the generator accepts two variants with the same number, and the emitted
program writes the second one and reads back the first. -/
theorem C20_duplicate_numbers_do_not_round_trip :
    Accepted dupSchema ∧ WellNamed dupSchema ∧ NoWriterClash dupSchema ∧ Emits dupSchema (genProg dupSchema) ∧
    HasTy LE.rust.wire dupSchema (.other "E") (.enum "E" "B" []) ∧
    ¬ RoundTrips LE.rust (genProg dupSchema) (.other "E") (.enum "E" "B" []) ∧
    ∃ bs, Writes LE.rust (genProg dupSchema) (.other "E") (.enum "E" "B" []) bs ∧
      Reads LE.rust (genProg dupSchema) (.other "E") bs (.enum "E" "A" []) [] := by
  have hw : Writes LE.rust (genProg dupSchema) (.other "E") (.enum "E" "B" []) [1, 0, 0, 0] := by
    refine ⟨3, fun k hk => ?_⟩
    obtain ⟨k, rfl⟩ : ∃ j, k = j + 3 := ⟨k - 3, by omega⟩
    rfl
  have hr : Reads LE.rust (genProg dupSchema) (.other "E") [1, 0, 0, 0] (.enum "E" "A" []) [] := by
    refine ⟨3, fun k hk => ?_⟩
    obtain ⟨k, rfl⟩ : ∃ j, k = j + 3 := ⟨k - 3, by omega⟩
    rfl
  refine ⟨dupSchema_accepted, dupSchema_wellNamed, by simp [NoWriterClash, dupSchema],
    emits_genProg _ dupSchema_accepted, ?_, ?_, _, hw, hr⟩
  · exact .enum ⟨"E", [.empty 1 "A", .empty 1 "B"]⟩ (.empty 1 "B") [] [] [] (by simp [dupSchema]) (by simp) .nil .nil
  · rintro ⟨bs, hw', hr'⟩
    obtain rfl := Writes.unique hw hw'
    have := (Reads.unique hr (by simpa using hr' [])).1
    simp at this

/-- `enum E { A { bytes_writer: u32 } }` -/
def clashSchema : List ASTNode := [.enum ⟨"E", [.struct 0 "A" [⟨0, "bytes_writer", .integer "u32" 4 false⟩]]⟩]

theorem clashSchema_accepted : Accepted clashSchema :=
  ⟨[.kwEnum, .id "E", .sym '{', .id "A", .sym '{', .id "bytes_writer", .sym ':', .id "u32", .sym '}', .sym '}',
    .eof], rfl⟩

/-- The hypothesis `NoWriterClash` is needed: a variant field named like the writer argument hides the
writer in the emitted code, which then cannot write the value (rustc rejects it). -/
theorem C20_writer_name_clash :
    Accepted clashSchema ∧ Emits clashSchema (genProg clashSchema) ∧
    ¬ ∃ bs, Writes LE.rust (genProg clashSchema) (.other "E") (.enum "E" "A" [("bytes_writer", .int 3)]) bs := by
  refine ⟨clashSchema_accepted, emits_genProg _ clashSchema_accepted, ?_⟩
  rintro ⟨bs, N, h⟩
  have := h (N + 3) (by omega)
  have e : writeTy LE.rust (genProg clashSchema) (N + 3) (genTy (.other "E"))
      (.enum "E" "A" [("bytes_writer", .int 3)]) = .error .stuck := rfl
  rw [e] at this
  cases this

/-! ## C21: skip -/

/-- **C21** For every count and every buffer contents, skipping behaves exactly like reading that many
values: it leaves the reader at the same place, and it fails exactly when (and how) reading fails. -/
theorem C21_skip (rt : Runtime) (S : List ASTNode) (hA : Accepted S) (hN : WellNamed S) :
    ∃ P, Emits S P ∧ ∀ id ∈ typeNames S, ∀ (k count : Nat) (bs : Bytes),
      skipTy rt P (k + 1) id count bs = readTimes rt P (k + 2) (.other id) count bs :=
  ⟨genProg S, emits_genProg S hA, fun id hid k count bs => rust_skip rt S hA hN id hid k count bs⟩

/-- C21 on encoded values: skipping `vs.length` values of a type moves past their encodings. -/
theorem C21_skip_values (rt : Runtime) (hrt : rt.Lawful) (S : List ASTNode) (hA : Accepted S) (hN : WellNamed S)
    (hD : DistinctNumbers S) :
    ∃ P, Emits S P ∧ ∀ id ∈ typeNames S, ∀ (vs : List Val) (bs : Bytes),
      Enc rt.wire S (List.replicate vs.length (.other id)) vs bs →
      ∃ N, ∀ k, N ≤ k → ∀ r, skipTy rt P k id vs.length (bs ++ r) = .ok r :=
  ⟨genProg S, emits_genProg S hA, fun id hid vs bs h => rust_skip_values rt hrt S hA hN hD id hid vs bs h⟩

/-- Non-vacuity of C21: two points are skipped, what follows is left. -/
example : skipTy LE.rust (genProg wireSchema) 10 "Point" 2
    ([7, 0, 0, 0] ++ [0, 0, 0, 0, 0, 0, 0, 0] ++ [1, 0, 0, 0, 0, 0, 0, 0]
      ++ [8, 0, 0, 0] ++ [0, 0, 0, 0, 0, 0, 0, 0] ++ [2, 0, 0, 0, 0, 0, 0, 0] ++ [42]) = .ok [42] := rfl

/-! ## C22: layout -/

/-- **C22** For every value of every type, the emitted code writes exactly the documented layout. -/
theorem C22_layout (rt : Runtime) (hrt : rt.Lawful) (S : List ASTNode) (hA : Accepted S) (hN : WellNamed S)
    (hW : NoWriterClash S) :
    ∃ P, Emits S P ∧ ∀ (t : TypeId), WFType t → ∀ (v : Val), HasTy rt.wire S t v → ∀ bs,
      (Writes rt P t v bs ↔ Enc rt.wire S [t] [v] bs) := by
  refine ⟨genProg S, emits_genProg S hA, fun t ht v hv bs => ?_⟩
  constructor
  · intro h
    obtain ⟨bs', he⟩ := hasTys_enc hrt.wire hN (typesOk_of_wf hA.wf) hv (by simpa using ht)
    rw [Writes.unique h (enc_writes hA hN hW ht he)]
    exact he
  · exact enc_writes hA hN hW ht

/-- A struct is its fields in declaration order with nothing in between. -/
theorem C22_struct_layout (rt : Runtime) (hrt : rt.Lawful) (S : List ASTNode) (hA : Accepted S) (hN : WellNamed S)
    (hW : NoWriterClash S) :
    ∃ P, Emits S P ∧ ∀ (n : StructNode), .struct n ∈ S → ∀ (vs : List Val),
      HasTys rt.wire S ((fieldsOf n).map (·.2)) vs →
      ∃ bs, Writes rt P (.other n.id) (.struct n.id (named (fieldsOf n) vs)) bs ∧
        WritesEach rt P ((fieldsOf n).map (·.2)) vs bs := by
  refine ⟨genProg S, emits_genProg S hA, fun n hn vs hv => ?_⟩
  have hT := typesOk_of_wf hA.wf
  have hts : ∀ t ∈ (fieldsOf n).map (·.2), WFType t := by
    intro t ht
    obtain ⟨f, hf, rfl⟩ := List.mem_map.1 ht
    exact hT.1 n hn f hf
  obtain ⟨bs, he⟩ := hasTys_enc hrt.wire hN hT hv hts
  exact ⟨bs, enc_writes hA hN hW (declared_wf hN (List.mem_filterMap.2 ⟨_, hn, rfl⟩))
    (by simpa using Enc.struct n vs bs [] [] [] hn he .nil), enc_writesEach hA hN hW hts he⟩

/-- An enum value is the four-byte number of its variant followed by its payload in declaration order. -/
theorem C22_enum_layout (rt : Runtime) (hrt : rt.Lawful) (S : List ASTNode) (hA : Accepted S) (hN : WellNamed S)
    (hW : NoWriterClash S) :
    ∃ P, Emits S P ∧ ∀ (n : EnumNode), .enum n ∈ S → ∀ i ∈ n.items, ∀ (vs : List Val),
      HasTys rt.wire S ((payload i).map (·.2)) vs →
      ∃ tag bs, Writes rt P (.other n.id) (.enum n.id i.id (named (payload i) vs)) (tag ++ bs) ∧
        tag.length = 4 ∧ rt.wire.prim "u32" (.int i.position) = some tag ∧
        WritesEach rt P ((payload i).map (·.2)) vs bs := by
  refine ⟨genProg S, emits_genProg S hA, fun n hn i hi vs hv => ?_⟩
  have hT := typesOk_of_wf hA.wf
  have hts : ∀ t ∈ (payload i).map (·.2), WFType t := by
    intro t ht
    obtain ⟨f, hf, rfl⟩ := List.mem_map.1 ht
    exact hT.2 n hn i hi f hf
  obtain ⟨bs, he⟩ := hasTys_enc hrt.wire hN hT hv hts
  have hpos := hN.numbers n hn i hi
  obtain ⟨tag, htag⟩ := hrt.wire.prim_total (typeOfName "u32") "u32" (.int i.position) (.name _) rfl (by
    show (0 : Int) ≤ (i.position : Int) ∧ (i.position : Int) < 2 ^ (8 * 4)
    omega)
  exact ⟨tag, bs, enc_writes hA hN hW (declared_wf hN (List.mem_filterMap.2 ⟨_, hn, rfl⟩))
    (by simpa using Enc.enum n i tag vs bs [] [] [] hn hi htag he .nil), hrt.wire.tag_size _ hpos _ htag, htag,
    enc_writesEach hA hN hW hts he⟩

/-- A list is its length followed by its elements in order. -/
theorem C22_list_layout (rt : Runtime) (hrt : rt.Lawful) (S : List ASTNode) (hA : Accepted S) (hN : WellNamed S)
    (hW : NoWriterClash S) :
    ∃ P, Emits S P ∧ ∀ (t : TypeId), WFType t → ∀ (vs : List Val),
      HasTys rt.wire S (List.replicate vs.length t) vs → ∀ hd, rt.wire.head "Vec" vs.length = some hd →
      ∃ bs, Writes rt P (.generic "Vec" [t]) (.list vs.length vs) (hd ++ bs) ∧
        WritesEach rt P (List.replicate vs.length t) vs bs := by
  refine ⟨genProg S, emits_genProg S hA, fun t ht vs hv hd hh => ?_⟩
  have hT := typesOk_of_wf hA.wf
  have hts : ∀ u ∈ List.replicate vs.length t, WFType u := by
    intro u hu
    rw [List.eq_of_mem_replicate hu]; exact ht
  obtain ⟨bs, he⟩ := hasTys_enc hrt.wire hN hT hv hts
  refine ⟨bs, enc_writes hA hN hW (.generic _ _ (by simp) (by simpa using ht)) ?_, enc_writesEach hA hN hW hts he⟩
  have := Enc.list "Vec" [t] vs.length hd _ vs bs [] [] [] hh
    (by rw [hrt.wire.vec, pick_replicate_zero]) he .nil
  simpa using this

/-- Non-vacuity of C22. -/
example : ∃ P bs, Emits wireSchema P ∧ Writes LE.rust P (.other "Shape") rectVal bs ∧
    Enc LE.wire wireSchema [.other "Shape"] [rectVal] bs := by
  obtain ⟨P, hP, h⟩ := C22_layout LE.rust LE.rust_lawful wireSchema wireSchema_accepted wireSchema_wellNamed
    wireSchema_noClash
  obtain ⟨bs, he⟩ := hasTys_enc LE.rust_lawful.wire wireSchema_wellNamed (typesOk_of_wf wireSchema_wf) rectVal_hasTy
    (by simp only [List.mem_singleton, forall_eq]; exact .name "Shape")
  exact ⟨P, bs, hP, (h _ (.name "Shape") _ rectVal_hasTy bs).2 he, he⟩

/-! ## C23: unknown variant numbers (Rust) -/

/-- **C23** (Rust) If what the reader returns as the tag at the front of the buffer is not the number
of a declared variant, or if the buffer is too short for a tag, reading panics. -/
theorem C23_rust_unknown_tag (rt : Runtime) (S : List ASTNode) (hA : Accepted S) (hN : WellNamed S) :
    ∃ P, Emits S P ∧ ∀ (n : EnumNode), .enum n ∈ S → ∀ (bs : Bytes),
      (∀ v r, rt.readP "u32" bs = some (v, r) → ∃ m, v = .int m ∧ ∀ i ∈ n.items, (i.position : Int) ≠ m) →
      ReadPanics rt P (.other n.id) bs := by
  refine ⟨genProg S, emits_genProg S hA, fun n hn bs h => ⟨2, fun k hk => ?_⟩⟩
  obtain ⟨k, rfl⟩ : ∃ j, k = j + 2 := ⟨k - 2, by omega⟩
  rw [genTy, readTy_enum hN (typesOk_of_wf hA.wf) hn]
  cases hr : rt.readP "u32" bs with
  | none => rfl
  | some p =>
    obtain ⟨v, r⟩ := p
    obtain ⟨m, rfl, hm⟩ := h v r hr
    have : n.items.find? (fun i => tagIs (.int m) i.position) = none := by
      rw [List.find?_eq_none]
      intro i hi
      simp only [tagIs, decide_eq_true_eq]
      exact fun e => hm i hi e.symm
    simp only [orElse, bind, Except.bind, this]

/-- C23 on written tags: a well-formed tag that belongs to no variant of the enum. -/
theorem C23_rust_undeclared_number (rt : Runtime) (hrt : rt.Lawful) (S : List ASTNode) (hA : Accepted S)
    (hN : WellNamed S) :
    ∃ P, Emits S P ∧ ∀ (n : EnumNode), .enum n ∈ S → ∀ (m : Nat), (∀ i ∈ n.items, i.position ≠ m) →
      ∀ (tag : Bytes), rt.wire.prim "u32" (.int m) = some tag → ∀ r, ReadPanics rt P (.other n.id) (tag ++ r) := by
  obtain ⟨P, hP, h⟩ := C23_rust_unknown_tag rt S hA hN
  refine ⟨P, hP, fun n hn m hm tag htag r => h n hn _ ?_⟩
  intro v r' hv
  rw [hrt.prim "u32" (.int m) tag r htag] at hv
  simp only [Option.some.injEq, Prod.mk.injEq] at hv
  refine ⟨m, hv.1.symm, fun i hi e => hm i hi (by omega)⟩

/-- Non-vacuity of C23: variant number 2 does not exist. -/
example : ∃ P, Emits wireSchema P ∧ ReadPanics LE.rust P (.other "Shape") [2, 0, 0, 0, 9, 9] := by
  obtain ⟨P, hP, h⟩ := C23_rust_undeclared_number LE.rust LE.rust_lawful wireSchema wireSchema_accepted wireSchema_wellNamed
  exact ⟨P, hP, h ⟨"Shape", [.empty 3 "None", .tuple 7 "Circle" [⟨0, .number "f64" 8⟩, ⟨1, .other "Point"⟩],
      .struct 1 "Rect" [⟨0, "a", .other "Point"⟩, ⟨1, "b", .bool "bool"⟩]]⟩ (by simp [wireSchema]) 2
      (by simp [EnumItem.position]) [2, 0, 0, 0] rfl [9, 9]⟩

/-! ## C24: self-delimiting -/

/-- **C24** If the encodings of two values of one type, each followed by anything, are the same byte
string, then the values and what follows are the same. -/
theorem C24_self_delimiting (rt : Runtime) (hrt : rt.Lawful) (S : List ASTNode) (hA : Accepted S) (hN : WellNamed S)
    (hW : NoWriterClash S) (hD : DistinctNumbers S) :
    ∃ P, Emits S P ∧ ∀ (t : TypeId), WFType t → ∀ v v', HasTy rt.wire S t v → HasTy rt.wire S t v' →
      ∀ b b' r r', Writes rt P t v b → Writes rt P t v' b' → b ++ r = b' ++ r' → v = v' ∧ b = b' ∧ r = r' := by
  refine ⟨genProg S, emits_genProg S hA, fun t ht v v' hv hv' b b' r r' hb hb' h => ?_⟩
  obtain ⟨c, hc⟩ := hasTys_enc hrt.wire hN (typesOk_of_wf hA.wf) hv (by simpa using ht)
  obtain ⟨c', hc'⟩ := hasTys_enc hrt.wire hN (typesOk_of_wf hA.wf) hv' (by simpa using ht)
  obtain rfl := Writes.unique hb (enc_writes hA hN hW ht hc)
  obtain rfl := Writes.unique hb' (enc_writes hA hN hW ht hc')
  have h1 := enc_reads hrt hA hN hD ht hc r
  have h2 := enc_reads hrt hA hN hD ht hc' r'
  rw [← h] at h2
  obtain ⟨rfl, rfl⟩ := Reads.unique h1 h2
  exact ⟨rfl, List.append_cancel_right h, rfl⟩

/-- A sequence of messages in one buffer decodes in only one way. -/
theorem C24_sequences (rt : Runtime) (hrt : rt.Lawful) (S : List ASTNode) (hA : Accepted S) (hN : WellNamed S)
    (hD : DistinctNumbers S) (ts : List TypeId) (hts : ∀ t ∈ ts, WFType t) (vs vs' : List Val) (b b' r r' : Bytes)
    (he : Enc rt.wire S ts vs b) (he' : Enc rt.wire S ts vs' b') (h : b ++ r = b' ++ r') :
    vs = vs' ∧ b = b' ∧ r = r' := by
  obtain ⟨N, h1⟩ := read_enc hrt hN (typesOk_of_wf hA.wf) hD he hts
  obtain ⟨N', h2⟩ := read_enc hrt hN (typesOk_of_wf hA.wf) hD he' hts
  have e1 := h1 (N + N') (by omega) r
  have e2 := h2 (N + N') (by omega) r'
  rw [h] at e1
  have := e1.symm.trans e2
  simp only [Except.ok.injEq, Prod.mk.injEq] at this
  obtain ⟨rfl, rfl⟩ := this
  exact ⟨rfl, List.append_cancel_right h, rfl⟩

/-- Non-vacuity of C24: there are encodings. -/
example : ∃ b, Enc LE.wire wireSchema [.other "Shape", .other "Shape"] [rectVal, rectVal] b := by
  obtain ⟨b, h⟩ := hasTys_enc LE.rust_lawful.wire wireSchema_wellNamed (typesOk_of_wf wireSchema_wf) rectVal_hasTy
    (by simp only [List.mem_singleton, forall_eq]; exact .name "Shape")
  exact ⟨b ++ b, Enc.append h h⟩

end TPB.Props
