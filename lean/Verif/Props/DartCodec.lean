/-
Property theorems about the emitted Dart serialization code (C23 for Dart, C25 - C28) and about the
exchange of values between Rust and Dart (C29, C30).

`Dart.Emits x S P` says that the text generated for the schema `S` is the text of the Dart program `P`;
`Reads`, `Emplaces`, `Writes`, `Skips` run that program on top of the runtime library `rt`
(`Sem/DartEval.lean`); `Enc` is the documented layout (`Spec/Wire.lean`), `DRep` relates a schema value
to the Dart objects that stand for it (`Spec/Dart.lean`).
-/
import Verif.Proofs.DartReaderGen
import Verif.Proofs.Interop
import Verif.Props.RustCodec
import Verif.Model.ToCase
namespace TPB.Props
open Spec
open Dart (Kind Codec)

/-! ## A schema and a value for the examples -/

/-- A struct with a list of its own type, an enum, and an external type. -/
def dartExample : List ASTNode :=
  [.struct ⟨"Point", [⟨0, "name", .other "String"⟩, ⟨1, "x_pos", .integer "i32" 4 true⟩,
      ⟨2, "path", .generic "Vec" [.other "Point"]⟩], true, true⟩,
   .enum ⟨"Shape", [.empty 3 "None", .tuple 7 "Circle" [⟨0, .other "Point"⟩, ⟨1, .number "f64" 8⟩],
      .struct 1 "Rect" [⟨0, "a", .other "Point"⟩, ⟨1, "b", .bool "bool"⟩]]⟩,
   .struct ⟨"Nothing", [], true, true⟩]

theorem dartExample_wf : WFSchema 0 dartExample := by
  have b : ∀ n, WFType (typeOfName n) := .name
  have h1 : WFType (.integer "i32" 4 true) := b "i32"
  have h2 : WFType (.number "f64" 8) := b "f64"
  have h3 : WFType (.other "Point") := b "Point"
  have h4 : WFType (.other "String") := b "String"
  have h5 : WFType (.bool "bool") := b "bool"
  have h6 : WFType (.generic "Vec" [.other "Point"]) := .generic _ _ (by simp) (by simpa using h3)
  refine ⟨⟨⟨.inl rfl, by simp; exact ⟨h4, h1, h6⟩⟩, rfl, rfl⟩, ⟨by simp, .inr (by simp [EnumItem.position]), ?_⟩,
    ⟨⟨.inl rfl, by simp⟩, rfl, rfl⟩, trivial⟩
  simp [WFItem, WFTups, WFFields, PosOk, h2, h3, h5]

theorem dartExample_accepted : Accepted dartExample := by
  obtain ⟨ts, _, h⟩ := C09_every_schema _ dartExample_wf
  exact ⟨_, h⟩

theorem dartExample_named : DartNamed testExt dartExample where
  classes := by decide +kernel
  fields := by simp [dartExample, dartFieldNames]; decide +kernel
  variants := by simp [dartExample, EnumItem.id]; decide +kernel
  payloads := by simp [dartExample, dartPayloadNames]; decide +kernel
  plain := by decide +kernel
  lists := by decide +kernel
  structLib := by simp [dartExample, fieldsOf, LibraryFree, dartElem]; decide +kernel
  enumLib := by
    have h : LibraryFree dartExample (.other "Point") := by
      show "Point" ∉ variantClasses dartExample
      decide +kernel
    intro n hn i hi f hf
    simp only [dartExample, List.mem_cons, ASTNode.enum.injEq, reduceCtorEq, List.not_mem_nil, or_false, false_or] at hn
    subst hn
    simp only [List.mem_cons, List.not_mem_nil, or_false] at hi
    rcases hi with rfl | rfl | rfl <;> simp [payload] at hf
    · rcases hf with rfl | rfl
      · exact h
      · trivial
    · rcases hf with rfl | rfl
      · exact h
      · trivial

theorem dartExample_defaults : HasDefaults dartExample where
  finite := ⟨fun s => if s = "Shape" then 1 else 0, by
    simp [dartExample, declName, directTypes, fieldsOf, payload, typeNames]⟩
  inhabited := by simp [dartExample, payload]

theorem dartExample_distinct : DistinctNumbers dartExample := by
  simp [DistinctNumbers, dartExample, EnumItem.position]

theorem dartExample_numbers : ∀ n, .enum n ∈ dartExample → ∀ i ∈ n.items, i.position < 2 ^ 31 := by
  simp [dartExample, EnumItem.position]

theorem dartExample_skipOrder : SkipOrder dartExample := by
  constructor
  · simp only [dartExample, List.mem_cons, ASTNode.struct.injEq, reduceCtorEq, List.not_mem_nil, or_false, false_or]
    rintro n (rfl | rfl)
    · exact ⟨[.other "String"], [.integer "i32" 4 true, .generic "Vec" [.other "Point"]], rfl, by simp, by simp⟩
    · exact ⟨[], [], rfl, by simp, by simp⟩
  · simp only [dartExample, List.mem_cons, ASTNode.enum.injEq, reduceCtorEq, List.not_mem_nil, or_false, false_or]
    rintro n rfl i hi
    simp only [List.mem_cons, List.not_mem_nil, or_false] at hi
    rcases hi with rfl | rfl | rfl
    · exact ⟨[], [], rfl, by simp, by simp⟩
    · exact ⟨[.other "Point"], [.number "f64" 8], rfl, by simp, by simp⟩
    · exact ⟨[.other "Point"], [.bool "bool"], rfl, by simp, by simp⟩

/-- A point with a given coordinate, path and name. -/
def dPoint (x : Int) (path : List Val) (name : Nat) : Val :=
  .struct "Point" [("name", .ext "String" name), ("x_pos", .int x), ("path", .list path.length path)]

/-- `Shape::Rect { a: Point { x_pos: -2, path: [Point { x_pos: 5, .. }], .. }, b: true }` -/
def dRect : Val := .enum "Shape" "Rect" [("a", dPoint (-2) [dPoint 5 [] 1] 2), ("b", .bool true)]

theorem dPoint_hasTy (x : Int) (hx : -(2 ^ 31) ≤ x ∧ x < 2 ^ 31) (path : List Val) (hp : path.length < 2 ^ 64)
    (n : Nat) (hn : n < 2 ^ 64)
    (hpath : HasTys LE.dart.wire (dartSchema dartExample) (List.replicate path.length (.other "Point")) path)
    (ts : List TypeId) (vs : List Val) (h : HasTys LE.dart.wire (dartSchema dartExample) ts vs) :
    HasTys LE.dart.wire (dartSchema dartExample) (.other "Point" :: ts) (dPoint x path n :: vs) := by
  have key : HasTys LE.dart.wire (dartSchema dartExample)
      [.other "String", .integer "Int32" 4 true, .generic "Vec" [.other "Point"]]
      [.ext "String" n, .int x, .list path.length path] := by
    refine .ext _ _ _ _ (by decide) ?_ (.leaf _ _ _ _ hx (.list "Vec" [.other "Point"] path.length
      (List.replicate path.length (.other "Point")) path _ _ ?_ ?_ hpath .nil))
    · simp [LE.wire, LE.dart, Dart.Runtime.wire, LE.elemT, hn]
    · simp [LE.dart, Dart.Runtime.wire, hp]
    · simp only [Dart.Runtime.wire]
      generalize path.length = m
      induction m with
      | zero => rfl
      | succ m ih => simp [List.replicate_succ, pick, ih]
  exact .struct ⟨"Point", [⟨0, "name", .other "String"⟩, ⟨1, "x_pos", .integer "Int32" 4 true⟩,
      ⟨2, "path", .generic "Vec" [.other "Point"]⟩], true, true⟩ _ _ _
      (by simp [dartExample, dartSchema, viewDecl, viewField, dartView, dartPrim, dartElem]) key h

theorem dRect_hasTy : HasTy LE.dart.wire (dartSchema dartExample) (.other "Shape") dRect := by
  have hp := dPoint_hasTy 5 (by decide) [] (by decide) 1 (by decide) .nil [] [] .nil
  have hq := dPoint_hasTy (-2) (by decide) [dPoint 5 [] 1] (by decide) 2 (by decide) hp [.bool "Bool"] [.bool true]
    (.leaf _ _ _ _ trivial .nil)
  exact .enum ⟨"Shape", [.empty 3 "None", .tuple 7 "Circle" [⟨0, .other "Point"⟩, ⟨1, .number "Double" 8⟩],
      .struct 1 "Rect" [⟨0, "a", .other "Point"⟩, ⟨1, "b", .bool "Bool"⟩]]⟩
      (.struct 1 "Rect" [⟨0, "a", .other "Point"⟩, ⟨1, "b", .bool "Bool"⟩]) _ [] []
      (by simp [dartExample, dartSchema, viewDecl, viewItem, viewField, viewTup, dartView, dartPrim]) (by simp) hq .nil

theorem dartExample_free : LibraryFree dartExample (.other "Shape") :=
  Dart.declared_free dartExample_named (by decide)

/-! ## C25: round trip -/

/-- The Dart object `d` represents the schema value `v` of type `t`. -/
def Represents (x : Ext) (S : List ASTNode) (t : TypeId) (v d : Val) : Prop :=
  DRep x (dartSchema S) [dartView t] [v] [d]

/-- `v` is a value of type `t` that Dart can represent: integers are in the signed range of their width,
elements of lists and external values are those that the library can write. -/
def DartValue (rt : Dart.Runtime) (S : List ASTNode) (t : TypeId) (v : Val) : Prop :=
  HasTy rt.wire (dartSchema S) (dartView t) v

/-- An object represents at most one value. -/
theorem C25_object_represents_one_value (x : Ext) (S : List ASTNode) (hN : DartNamed x S) (t : TypeId) (v v' d : Val)
    (h : Represents x S t v d) (h' : Represents x S t v' d) : v = v' := by
  simpa using Dart.drep_unique hN h h'

/-- **C25** (partial) For every value that Dart can represent there are bytes such that the emitted
`IntoBuffers` code writes them for every object that represents the value, and reading them, whatever
follows, gives an object that represents the same value and leaves what follows.
Missing: schemas whose names cannot be told apart in Dart, whose variant numbers are not distinct or do not
fit in 31 bits, or whose default objects do not exist; for these C25 fails (see below). -/
theorem C25_round_trip_partial (x : Ext) (rt : Dart.Runtime) (hrt : rt.Lawful) (S : List ASTNode) (hA : Accepted S)
    (hN : DartNamed x S) (hH : HasDefaults S) (hD : DistinctNumbers S)
    (hP : ∀ n, .enum n ∈ S → ∀ i ∈ n.items, i.position < 2 ^ 31) :
    ∃ P, Dart.Emits x S P ∧ ∀ (t : TypeId), WFType t → LibraryFree S t → ∀ (v : Val), DartValue rt S t v →
      ∃ bs, (∀ d, Represents x S t v d → Dart.Writes rt P .into t d bs) ∧
        ∃ d, Represents x S t v d ∧ ∀ r, Dart.Reads rt P t (bs ++ r) d r := by
  have hS := Dart.plain_of_accepted hA
  refine ⟨_, Dart.emits_genProg hA, fun t ht hf v hv => ?_⟩
  obtain ⟨bs, he⟩ := Dart.hasTys_enc hrt hN hS.types hP hv [t] rfl (by simpa using Dart.sized_of_wf ht)
  exact ⟨bs, fun d hd => Dart.enc_write_one hS hN hf he hd .into, (Dart.enc_read_one hrt hS hN hH hD hf he).1⟩

/-- **C25, for objects** (partial) Whatever object the emitted `IntoBuffers` code writes, reading the bytes back,
whatever follows, gives an object that represents the same value.  Types may contain themselves here: of a type for
which there is no default object there are no objects at all.
Missing: schemas whose names cannot be told apart in Dart, whose variant numbers are not distinct or do not
fit in 31 bits, or with a variant that has parentheses but no payload. -/
theorem C25_objects_partial (x : Ext) (rt : Dart.Runtime) (hrt : rt.Lawful) (S : List ASTNode) (hA : Accepted S)
    (hN : DartNamed x S) (hF : VariantsFilled S) (hD : DistinctNumbers S)
    (hP : ∀ n, .enum n ∈ S → ∀ i ∈ n.items, i.position < 2 ^ 31) :
    ∃ P, Dart.Emits x S P ∧ ∀ (t : TypeId), WFType t → LibraryFree S t → ∀ (v d : Val), DartValue rt S t v →
      Represents x S t v d → ∃ bs, Dart.Writes rt P .into t d bs ∧
        ∃ d', Represents x S t v d' ∧ ∀ r, Dart.Reads rt P t (bs ++ r) d' r := by
  have hS := Dart.plain_of_accepted hA
  refine ⟨_, Dart.emits_genProg hA, fun t ht hf v d hv hd => ?_⟩
  obtain ⟨bs, he⟩ := Dart.hasTys_enc hrt hN hS.types hP hv [t] rfl (by simpa using Dart.sized_of_wf ht)
  exact ⟨bs, Dart.enc_write_one hS hN hf he hd .into,
    (Dart.enc_read_creatable hrt hS hN hD hf he (.inr ⟨hF, [d], hd⟩)).1⟩

/-- The bytes are those of the documented layout. -/
theorem C25_layout (x : Ext) (rt : Dart.Runtime) (hrt : rt.Lawful) (S : List ASTNode) (hA : Accepted S)
    (hN : DartNamed x S) (hP : ∀ n, .enum n ∈ S → ∀ i ∈ n.items, i.position < 2 ^ 31) :
    ∃ P, Dart.Emits x S P ∧ ∀ (t : TypeId), WFType t → LibraryFree S t → ∀ (v d : Val), DartValue rt S t v →
      Represents x S t v d → ∀ kd bs,
        (Dart.Writes rt P kd t d bs ↔ Enc rt.wire (dartSchema S) [dartView t] [v] bs) := by
  have hS := Dart.plain_of_accepted hA
  refine ⟨_, Dart.emits_genProg hA, fun t ht hf v d hv hd kd bs => ?_⟩
  obtain ⟨bs', he⟩ := Dart.hasTys_enc hrt hN hS.types hP hv [t] rfl (by simpa using Dart.sized_of_wf ht)
  constructor
  · intro h
    rw [Dart.Writes.unique h (Dart.enc_write_one hS hN hf he hd kd)]
    exact he
  · exact fun h => Dart.enc_write_one hS hN hf h hd kd

/-- Non-vacuity of C25: the example value survives. -/
example : ∃ P bs d, Dart.Emits testExt dartExample P ∧ Represents testExt dartExample (.other "Shape") dRect d ∧
    Dart.Writes LE.dart P .into (.other "Shape") d bs ∧ Dart.Reads LE.dart P (.other "Shape") (bs ++ [42]) d [42] := by
  obtain ⟨P, hP, h⟩ := C25_round_trip_partial testExt LE.dart LE.dart_lawful dartExample dartExample_accepted
    dartExample_named dartExample_defaults dartExample_distinct dartExample_numbers
  obtain ⟨bs, h1, d, h2, h3⟩ := h (.other "Shape") (.name "Shape") dartExample_free dRect dRect_hasTy
  exact ⟨P, bs, d, hP, h2, h1 d h2, h3 [42]⟩

/-- The hypothesis on variant numbers is needed: Dart writes the second of two variants with the same
number and reads back the first. -/
theorem C25_duplicate_numbers_do_not_round_trip :
    Accepted dupSchema ∧ DartNamed testExt dupSchema ∧ HasDefaults dupSchema ∧
    Dart.Emits testExt dupSchema (Dart.genProg testExt dupSchema) ∧
    ∃ d bs d', Represents testExt dupSchema (.other "E") (.enum "E" "B" []) d ∧
      Dart.Writes LE.dart (Dart.genProg testExt dupSchema) .into (.other "E") d bs ∧
      Dart.Reads LE.dart (Dart.genProg testExt dupSchema) (.other "E") bs d' [] ∧
      Represents testExt dupSchema (.other "E") (.enum "E" "A" []) d' := by
  refine ⟨dupSchema_accepted, ?_, ?_, Dart.emits_genProg dupSchema_accepted,
    enumObj testExt ⟨"E", [.empty 1 "A", .empty 1 "B"]⟩ (.enum "EValue" "b" []) [.struct "EA" [], .struct "EB" []],
    [1, 0, 0, 0],
    enumObj testExt ⟨"E", [.empty 1 "A", .empty 1 "B"]⟩ (.enum "EValue" "a" []) [.struct "EA" [], .struct "EB" []],
    ?_, ?_, ?_, ?_⟩
  · exact {
      classes := by decide +kernel
      fields := by simp [dupSchema]
      variants := by simp [dupSchema, EnumItem.id]; decide +kernel
      payloads := by simp [dupSchema, dartPayloadNames]
      plain := by decide
      lists := by decide
      structLib := by simp [dupSchema]
      enumLib := by simp [dupSchema, payload] }
  · exact ⟨⟨fun _ => 0, by simp [dupSchema, declName, directTypes, payload]⟩, by simp [dupSchema, payload]⟩
  · have := DRep.enum (x := testExt) (T := dartSchema dupSchema) ⟨"E", [.empty 1 "A", .empty 1 "B"]⟩ (.empty 1 "B") [] [] [[], []]
      [] [] [] (by simp [dupSchema, dartSchema, viewDecl, viewItem]) rfl (by simp) .nil (by simp [payload, DObj.nil]) .nil
    exact this
  · refine ⟨4, fun k hk => ?_⟩
    obtain ⟨k, rfl⟩ : ∃ j, k = j + 4 := ⟨k - 4, by omega⟩
    rfl
  · refine ⟨4, fun k hk => ?_⟩
    obtain ⟨k, rfl⟩ : ∃ j, k = j + 4 := ⟨k - 4, by omega⟩
    rfl
  · have := DRep.enum (x := testExt) (T := dartSchema dupSchema) ⟨"E", [.empty 1 "A", .empty 1 "B"]⟩ (.empty 1 "A") [] [] [[], []]
      [] [] [] (by simp [dupSchema, dartSchema, viewDecl, viewItem]) rfl (by simp) .nil (by simp [payload, DObj.nil]) .nil
    exact this

/-- `struct S { reader: u32 }` -/
def readerSchema : List ASTNode := [.struct ⟨"S", [⟨0, "reader", .integer "u32" 4 false⟩], true, true⟩]

theorem readerSchema_accepted : Accepted readerSchema :=
  ⟨[.kwStruct, .id "S", .sym '{', .id "reader", .sym ':', .id "u32", .sym '}', .eof], rfl⟩

/-- The hypothesis on field names is needed: a field named like the reader argument hides the reader in the
emitted `read` method, which the Dart compiler rejects. -/
theorem C25_reader_name_clash :
    Accepted readerSchema ∧ Dart.Emits testExt readerSchema (Dart.genProg testExt readerSchema) ∧
    ∀ k bs, Dart.readT LE.dart (Dart.genProg testExt readerSchema) (k + 1) (.other "S") bs = .error .stuck := by
  refine ⟨readerSchema_accepted, Dart.emits_genProg readerSchema_accepted, fun k bs => ?_⟩
  have hc : (Dart.genProg testExt readerSchema).codec? ("S" ++ Kind.into.suffix)
      = some (Dart.genStructInto testExt ⟨"S", [⟨0, "reader", .integer "u32" 4 false⟩], true, true⟩) := rfl
  have hr : "reader" ∈ [testExt.camel "reader"] := by decide +kernel
  simp only [Dart.readT, Dart.genRead, Dart.evalReadE, Dart.readers, hc, Dart.evalRead, Dart.genStructInto,
    List.map_cons, List.map_nil, hr, true_or, if_true]

/-! ## C26: in-place reading -/

/-- `d` is an object that a variable of type `t` can hold. -/
def DartObject (x : Ext) (S : List ASTNode) (t : TypeId) (d : Val) : Prop := DObj x (dartSchema S) [dartView t] [d]

/-- **C26** Reading the bytes of a value into an existing object, whatever the object held before and
whatever follows, makes it represent that value.  (Like C25, for schemas whose names can be told apart.) -/
theorem C26_emplace_overwrites_partial (x : Ext) (rt : Dart.Runtime) (hrt : rt.Lawful) (S : List ASTNode) (hA : Accepted S)
    (hN : DartNamed x S) (hH : HasDefaults S) (hD : DistinctNumbers S)
    (hP : ∀ n, .enum n ∈ S → ∀ i ∈ n.items, i.position < 2 ^ 31) :
    ∃ P, Dart.Emits x S P ∧ ∀ (t : TypeId), WFType t → LibraryFree S t → ∀ (v : Val), DartValue rt S t v →
      ∃ bs, (∀ d, Represents x S t v d → Dart.Writes rt P .emplace t d bs) ∧
        ∀ old, DartObject x S t old → ∃ d, Represents x S t v d ∧ ∀ r, Dart.Emplaces rt P t old (bs ++ r) d r := by
  have hS := Dart.plain_of_accepted hA
  refine ⟨_, Dart.emits_genProg hA, fun t ht hf v hv => ?_⟩
  obtain ⟨bs, he⟩ := Dart.hasTys_enc hrt hN hS.types hP hv [t] rfl (by simpa using Dart.sized_of_wf ht)
  exact ⟨bs, fun d hd => Dart.enc_write_one hS hN hf he hd .emplace, (Dart.enc_read_one hrt hS hN hH hD hf he).2⟩

/-- **C26, for objects** (partial) The same for every value that has an object, in schemas whose types may contain
themselves. -/
theorem C26_objects_partial (x : Ext) (rt : Dart.Runtime) (hrt : rt.Lawful) (S : List ASTNode) (hA : Accepted S)
    (hN : DartNamed x S) (hF : VariantsFilled S) (hD : DistinctNumbers S)
    (hP : ∀ n, .enum n ∈ S → ∀ i ∈ n.items, i.position < 2 ^ 31) :
    ∃ P, Dart.Emits x S P ∧ ∀ (t : TypeId), WFType t → LibraryFree S t → ∀ (v d : Val), DartValue rt S t v →
      Represents x S t v d → ∃ bs, Dart.Writes rt P .emplace t d bs ∧
        ∀ old, DartObject x S t old → ∃ d', Represents x S t v d' ∧ ∀ r, Dart.Emplaces rt P t old (bs ++ r) d' r := by
  have hS := Dart.plain_of_accepted hA
  refine ⟨_, Dart.emits_genProg hA, fun t ht hf v d hv hd => ?_⟩
  obtain ⟨bs, he⟩ := Dart.hasTys_enc hrt hN hS.types hP hv [t] rfl (by simpa using Dart.sized_of_wf ht)
  exact ⟨bs, Dart.enc_write_one hS hN hf he hd .emplace,
    (Dart.enc_read_creatable hrt hS hN hD hf he (.inr ⟨hF, [d], hd⟩)).2⟩

/-- An object that represents a value can be read into. -/
theorem C26_representations_are_objects (x : Ext) (S : List ASTNode) (t : TypeId) (v d : Val)
    (h : Represents x S t v d) : DartObject x S t d := DRep.obj h

/-- Non-vacuity of C26: an object that represents a rectangle is overwritten with another shape. -/
example : ∃ P bs bs' d d', Dart.Emits testExt dartExample P ∧
    Represents testExt dartExample (.other "Shape") dRect d ∧
    Represents testExt dartExample (.other "Shape") (.enum "Shape" "None" []) d' ∧
    Dart.Reads LE.dart P (.other "Shape") bs d [] ∧ Dart.Emplaces LE.dart P (.other "Shape") d bs' d' [] := by
  have hS := Dart.plain_of_accepted dartExample_accepted
  have hn : HasTy LE.dart.wire (dartSchema dartExample) (.other "Shape") (.enum "Shape" "None" []) :=
    .enum ⟨"Shape", [.empty 3 "None", .tuple 7 "Circle" [⟨0, .other "Point"⟩, ⟨1, .number "Double" 8⟩],
      .struct 1 "Rect" [⟨0, "a", .other "Point"⟩, ⟨1, "b", .bool "Bool"⟩]]⟩ (.empty 3 "None") [] [] []
      (by simp [dartExample, dartSchema, viewDecl, viewItem, viewField, viewTup, dartView, dartPrim]) (by simp) .nil .nil
  obtain ⟨bs, he⟩ := Dart.hasTys_enc LE.dart_lawful dartExample_named hS.types dartExample_numbers dRect_hasTy
    [.other "Shape"] rfl (by simp [Dart.Sized])
  obtain ⟨bs', he'⟩ := Dart.hasTys_enc LE.dart_lawful dartExample_named hS.types dartExample_numbers hn
    [.other "Shape"] rfl (by simp [Dart.Sized])
  obtain ⟨d, h1, h2⟩ := (Dart.enc_read_one LE.dart_lawful hS dartExample_named dartExample_defaults
    dartExample_distinct dartExample_free he).1
  obtain ⟨d', h3, h4⟩ := (Dart.enc_read_one LE.dart_lawful hS dartExample_named dartExample_defaults
    dartExample_distinct dartExample_free he').2 d (C26_representations_are_objects _ _ (.other "Shape") _ _ h1)
  exact ⟨_, bs, bs', d, d', Dart.emits_genProg dartExample_accepted, h1, h3, by simpa using h2 [], by simpa using h4 []⟩

/-! ## C27: both codecs write the same bytes -/

/-- **C27** For every type, every object and every depth of nested calls, the code of the two emitted
codecs gives the same result: the same bytes, or the same failure. -/
theorem C27_codecs_agree (x : Ext) (rt : Dart.Runtime) (S : List ASTNode) (hA : Accepted S) (hN : DartNamed x S) :
    ∃ P, Dart.Emits x S P ∧ ∀ (t : TypeId), LibraryFree S t → ∀ (k : Nat) (d : Val),
      Dart.writeT rt P k .into t d = Dart.writeT rt P k .emplace t d :=
  ⟨_, Dart.emits_genProg hA, fun t hf k d => Dart.write_kind (Dart.plain_of_accepted hA) hN k t hf .into .emplace d⟩

/-- C27 for the codec classes of a declared type. -/
theorem C27_classes_agree (x : Ext) (rt : Dart.Runtime) (S : List ASTNode) (hA : Accepted S) (hN : DartNamed x S) :
    ∃ P, Dart.Emits x S P ∧ ∀ id ∈ typeNames S, id ≠ "String" → ∀ (k : Nat) (d : Val),
      Dart.writeC rt P k (.plain .into id) d = Dart.writeC rt P k (.plain .emplace id) d := by
  refine ⟨_, Dart.emits_genProg hA, fun id hid hs k d => ?_⟩
  have := Dart.write_kind (rt := rt) (Dart.plain_of_accepted hA) hN k (.other id) (Dart.declared_free hN hid) .into .emplace d
  simpa [Dart.writeT, Dart.genWrite_other, Dart.evalWriteS, Dart.kindOf, Dart.emplKind, hs] using this

/-- Non-vacuity of C27: two points. -/
example : Dart.writeC LE.dart (Dart.genProg testExt dartExample) 9 (.plain .emplace "Point")
    (.struct "Point" [("name", .ext "String" 7), ("xPos", .int (-2)), ("path", .list 0 [])])
    = .ok [7, 0, 0, 0, 0, 0, 0, 0, 254, 255, 255, 255, 0, 0, 0, 0, 0, 0, 0, 0] := rfl

/-! ## C28: skip -/

/-- The values `ds` of type `t` are read one after the other, moving the reader from `bs` to `r`. -/
def ReadsAll (rt : Dart.Runtime) (P : Dart.Prog) (t : TypeId) : List Val → Bytes → Bytes → Prop
  | [], bs, r => bs = r
  | d :: ds, bs, r => ∃ m, Dart.Reads rt P t bs d m ∧ ReadsAll rt P t ds m r

theorem enc_readsAll {x : Ext} {rt : Dart.Runtime} (hrt : rt.Lawful) {S : List ASTNode} (hS : Dart.Plain S)
    (hN : DartNamed x S) (hH : HasDefaults S) (hD : DistinctNumbers S) {t : TypeId} (hf : LibraryFree S t) :
    ∀ (c : Nat) (vs : List Val) (bs : Bytes), Enc rt.wire (dartSchema S) (List.replicate c (dartView t)) vs bs →
      ∃ ds, DRep x (dartSchema S) (List.replicate c (dartView t)) vs ds ∧
        ∀ r, ReadsAll rt (Dart.genProg x S) t ds (bs ++ r) r
  | 0, vs, bs, h => by
    cases h
    exact ⟨[], .nil, fun _ => rfl⟩
  | c + 1, vs, bs, h => by
    obtain ⟨v, vs', b, bs', rfl, rfl, h1, h2⟩ := Dart.enc_uncons h
    obtain ⟨d, h3, h4⟩ := (Dart.enc_read_one hrt hS hN hH hD hf h1).1
    obtain ⟨ds, h5, h6⟩ := enc_readsAll hrt hS hN hH hD hf c vs' bs' h2
    refine ⟨d :: ds, h3.cons h5, fun r => ⟨bs' ++ r, ?_, h6 r⟩⟩
    rw [List.append_assoc]
    exact h4 _

/-- **C28** (partial) Skipping `n` values of a declared type leaves the reader where reading them leaves it,
if fields whose type is given by a name come before other fields in every struct and every payload, and
if `n = 1`, or the type is an enum, or it is a struct without such fields.
Missing: all other cases; the emitted code does not satisfy C28 in general (see below). -/
theorem C28_skip_partial (x : Ext) (rt : Dart.Runtime) (hrt : rt.Lawful) (S : List ASTNode) (hA : Accepted S)
    (hN : DartNamed x S) (hH : HasDefaults S) (hD : DistinctNumbers S) (hO : SkipOrder S)
    (hP : ∀ n, .enum n ∈ S → ∀ i ∈ n.items, i.position < 2 ^ 31) :
    ∃ P, Dart.Emits x S P ∧ ∀ id ∈ typeNames S, id ≠ "String" → ∀ vs : List Val,
      HasTys rt.wire (dartSchema S) (List.replicate vs.length (.other id)) vs →
      (vs.length = 1 ∨ (∃ n, .enum n ∈ S ∧ n.id = id) ∨
        ∃ n, .struct n ∈ S ∧ n.id = id ∧ ∀ f ∈ fieldsOf n, ∀ t, f.2 ≠ .other t) →
      ∃ bs ds, DRep x (dartSchema S) (List.replicate vs.length (.other id)) vs ds ∧
        ∀ r, ReadsAll rt P (.other id) ds (bs ++ r) r ∧ ∀ kd, Dart.Skips rt P (.plain kd id) vs.length (bs ++ r) r := by
  have hS := Dart.plain_of_accepted hA
  refine ⟨_, Dart.emits_genProg hA, fun id hid hs vs hv hc => ?_⟩
  obtain ⟨bs, he⟩ := Dart.hasTys_enc hrt hN hS.types hP hv (List.replicate vs.length (.other id)) (by simp [dartView])
    (fun t ht => by obtain ⟨-, rfl⟩ := List.mem_replicate.1 ht; trivial)
  obtain ⟨ds, h1, h2⟩ := enc_readsAll (t := .other id) hrt hS hN hH hD (Dart.declared_free hN hid) vs.length vs bs he
  refine ⟨bs, ds, h1, fun r => ⟨h2 r, fun kd => ?_⟩⟩
  obtain ⟨N, h3⟩ := Dart.times_skip (f := fun k => Dart.skipC rt (Dart.genProg x S) k (.plain kd id) 1)
    (fun v b h => Dart.skip_declared hS hN hid hrt hD hO kd h hs) vs.length vs bs he
  refine ⟨N + 1, fun k hk => ?_⟩
  obtain ⟨k, rfl⟩ : ∃ j, k = j + 1 := ⟨k - 1, by omega⟩
  rcases hc with hc | hc
  · have := h3 (k + 1) (by omega) r
    rw [hc] at this ⊢
    rwa [Dart.times_one] at this
  · have hc' : (∃ n, .enum n ∈ S ∧ n.id = id) ∨ ∃ n, .struct n ∈ S ∧ n.id = id ∧ Dart.NoOthers ((fieldsOf n).map (·.2)) := by
      rcases hc with hc | ⟨n, h4, h5, h6⟩
      · exact .inl hc
      · refine .inr ⟨n, h4, h5, fun t ht t' => ?_⟩
        obtain ⟨f, hf, rfl⟩ := List.mem_map.1 ht
        exact h6 f hf t'
    rw [Dart.skip_times hS hN hc']
    exact h3 (k + 1) (by omega) r

/-- Non-vacuity of C28: two shapes are skipped. -/
example : ∃ P bs ds, Dart.Emits testExt dartExample P ∧ ReadsAll LE.dart P (.other "Shape") ds (bs ++ [42]) [42] ∧
    Dart.Skips LE.dart P (.plain .into "Shape") 2 (bs ++ [42]) [42] := by
  obtain ⟨P, hP, h⟩ := C28_skip_partial testExt LE.dart LE.dart_lawful dartExample dartExample_accepted
    dartExample_named dartExample_defaults dartExample_distinct dartExample_skipOrder dartExample_numbers
  have hn : HasTys LE.dart.wire (dartSchema dartExample) [.other "Shape", .other "Shape"]
      [dRect, .enum "Shape" "None" []] := by
    have hp := dPoint_hasTy 5 (by decide) [] (by decide) 1 (by decide) .nil [] [] .nil
    have hq := dPoint_hasTy (-2) (by decide) [dPoint 5 [] 1] (by decide) 2 (by decide) hp [.bool "Bool"] [.bool true]
      (.leaf _ _ _ _ trivial .nil)
    have hm : ASTNode.enum ⟨"Shape", [.empty 3 "None", .tuple 7 "Circle" [⟨0, .other "Point"⟩, ⟨1, .number "Double" 8⟩],
        .struct 1 "Rect" [⟨0, "a", .other "Point"⟩, ⟨1, "b", .bool "Bool"⟩]]⟩ ∈ dartSchema dartExample := by
      simp [dartExample, dartSchema, viewDecl, viewItem, viewField, viewTup, dartView, dartPrim]
    exact .enum _ (.struct 1 "Rect" [⟨0, "a", .other "Point"⟩, ⟨1, "b", .bool "Bool"⟩]) _ _ _ hm (by simp) hq
      (.enum _ (.empty 3 "None") [] [] [] hm (by simp) .nil .nil)
  obtain ⟨bs, ds, h1, h2⟩ := h "Shape" (by decide) (by decide) [dRect, .enum "Shape" "None" []] hn
    (.inr (.inl ⟨_, by simp [dartExample]; rfl, rfl⟩))
  exact ⟨P, bs, ds, hP, (h2 [42]).1, (h2 [42]).2 .into⟩

/-- `struct P { s: String, a: i32 }` -/
def skipSchema : List ASTNode :=
  [.struct ⟨"P", [⟨0, "s", .other "String"⟩, ⟨1, "a", .integer "i32" 4 true⟩], true, true⟩]

theorem skipSchema_accepted : Accepted skipSchema :=
  ⟨[.kwStruct, .id "P", .sym '{', .id "s", .sym ':', .id "String", .sym ',', .id "a", .sym ':', .id "i32", .sym '}',
    .eof], rfl⟩

/-- C28 is false for structs with a field whose type is given by a name and a count of two: reading two
values reaches the end of the buffer, skipping two values does not. -/
theorem C28_two_values_not_skipped :
    Accepted skipSchema ∧ Dart.Emits testExt skipSchema (Dart.genProg testExt skipSchema) ∧
    ∃ bs ds, ds.length = 2 ∧ ReadsAll LE.dart (Dart.genProg testExt skipSchema) (.other "P") ds bs [] ∧
      ∀ kd, Dart.Skips LE.dart (Dart.genProg testExt skipSchema) (.plain kd "P") 2 bs [0, 0, 0, 0, 2, 0, 0, 0] := by
  refine ⟨skipSchema_accepted, Dart.emits_genProg skipSchema_accepted,
    [1, 0, 0, 0, 0, 0, 0, 0, 1, 0, 0, 0, 2, 0, 0, 0, 0, 0, 0, 0, 2, 0, 0, 0],
    [.struct "P" [("s", .ext "String" 1), ("a", .int 1)], .struct "P" [("s", .ext "String" 2), ("a", .int 2)]], rfl,
    ⟨[2, 0, 0, 0, 0, 0, 0, 0, 2, 0, 0, 0], ?_, [], ?_, rfl⟩, ?_⟩
  · refine ⟨4, fun k hk => ?_⟩
    obtain ⟨k, rfl⟩ : ∃ j, k = j + 4 := ⟨k - 4, by omega⟩
    rfl
  · refine ⟨4, fun k hk => ?_⟩
    obtain ⟨k, rfl⟩ : ∃ j, k = j + 4 := ⟨k - 4, by omega⟩
    rfl
  · intro kd
    refine ⟨4, fun k hk => ?_⟩
    obtain ⟨k, rfl⟩ : ∃ j, k = j + 4 := ⟨k - 4, by omega⟩
    cases kd <;> rfl

/-- `struct P { a: i32, e: E }`, `enum E { A }` -/
def skipSchema1 : List ASTNode :=
  [.struct ⟨"P", [⟨0, "a", .integer "i32" 4 true⟩, ⟨1, "e", .other "E"⟩], true, true⟩, .enum ⟨"E", [.empty 0 "A"]⟩]

theorem skipSchema1_accepted : Accepted skipSchema1 :=
  ⟨[.kwStruct, .id "P", .sym '{', .id "a", .sym ':', .id "i32", .sym ',', .id "e", .sym ':', .id "E", .sym '}',
    .kwEnum, .id "E", .sym '{', .id "A", .sym '}', .eof], rfl⟩

/-- C28 is false even for a count of one: a field whose type is given by a name is skipped before the fields
that precede it.  Here reading one value succeeds, but skipping it throws. -/
theorem C28_one_value_not_skipped :
    Accepted skipSchema1 ∧ Dart.Emits testExt skipSchema1 (Dart.genProg testExt skipSchema1) ∧
    ∃ bs d, Dart.Reads LE.dart (Dart.genProg testExt skipSchema1) (.other "P") bs d [] ∧
      ∀ kd k, Dart.skipC LE.dart (Dart.genProg testExt skipSchema1) (k + 4) (.plain kd "P") 1 bs = .error .throws := by
  refine ⟨skipSchema1_accepted, Dart.emits_genProg skipSchema1_accepted, [7, 0, 0, 0, 0, 0, 0, 0],
    .struct "P" [("a", .int 7), ("e", .struct "E" [("value", .enum "EValue" "a" []), ("a", .struct "EA" [])])], ?_, ?_⟩
  · refine ⟨5, fun k hk => ?_⟩
    obtain ⟨k, rfl⟩ : ∃ j, k = j + 5 := ⟨k - 5, by omega⟩
    rfl
  · intro kd k
    cases kd <;> rfl

/-! ## C23: unknown variant numbers (Dart) -/

/-- **C23** (Dart) If what the reader returns as the tag at the front of the buffer is not the number of a
declared variant, or if the buffer is too short for a tag, then reading, reading into an object, and
skipping throw. -/
theorem C23_dart_unknown_tag (x : Ext) (rt : Dart.Runtime) (S : List ASTNode) (hA : Accepted S) (hN : DartNamed x S) :
    ∃ P, Dart.Emits x S P ∧ ∀ (n : EnumNode), .enum n ∈ S → ∀ (bs : Bytes),
      (∀ v r, rt.readP "Int32" bs = some (v, r) → ∀ i ∈ n.items, v ≠ .int i.position) → ∀ k,
        Dart.readT rt P (k + 1) (.other n.id) bs = .error .throws ∧
        (∀ fs, (Dart.readers rt P (k + 1)).empl (.plain .emplace n.id) (.struct n.id fs) bs = .error .throws) ∧
        ∀ kd c, Dart.skipC rt P (k + 1) (.plain kd n.id) (c + 1) bs = .error .throws := by
  have hS := Dart.plain_of_accepted hA
  exact ⟨_, Dart.emits_genProg hA, fun n hn bs h k => ⟨Dart.read_unknown hS hN hn h k,
    fun fs => Dart.empl_unknown hS hN hn h k fs, fun kd c => Dart.skip_unknown hS hN hn h k c kd⟩⟩

/-- C23 (Dart) for the bytes of a number: if `b` are the four bytes of a number that no variant has, reading
`b` followed by anything throws. -/
theorem C23_dart_undeclared_number (x : Ext) (rt : Dart.Runtime) (hrt : rt.Lawful) (S : List ASTNode) (hA : Accepted S)
    (hN : DartNamed x S) :
    ∃ P, Dart.Emits x S P ∧ ∀ (n : EnumNode), .enum n ∈ S → ∀ (m : Int) (b : Bytes),
      -(2 ^ 31) ≤ m → m < 2 ^ 31 → (∀ i ∈ n.items, (i.position : Int) ≠ m) → rt.writeP "Int32" (.int m) = some b →
      ∀ r k, Dart.readT rt P (k + 1) (.other n.id) (b ++ r) = .error .throws := by
  obtain ⟨P, hP, h⟩ := C23_dart_unknown_tag x rt S hA hN
  refine ⟨P, hP, fun n hn m b h1 h2 hm hb r k => (h n hn (b ++ r) ?_ k).1⟩
  intro v r' hr i hi e
  have := hrt.prim "Int32" (.integer "Int32" 4 true) (.int m) b r rfl ⟨h1, h2⟩ hb
  rw [this] at hr
  simp only [Option.some.injEq, Prod.mk.injEq] at hr
  rw [← hr.1] at e
  exact hm i hi (by simpa using e.symm)

/-- Non-vacuity of C23 (Dart): the number 2 is not a variant of `Shape`. -/
example : Dart.readT LE.dart (Dart.genProg testExt dartExample) 9 (.other "Shape") [2, 0, 0, 0, 9] = .error .throws ∧
    ∀ n, .enum n ∈ dartExample → ∀ i ∈ n.items, (i.position : Int) ≠ 2 := by
  refine ⟨rfl, ?_⟩
  simp [dartExample, EnumItem.position]

/-! ## C29: exchange between Rust and Dart -/

theorem rust_to_dart {x : Ext} {rr : Rust.Runtime} (hrr : rr.Lawful) {rt : Dart.Runtime} (hrt : rt.Lawful)
    (hG : Agree rr.wire rt.wire) {S : List ASTNode} (hA : Accepted S) (hW : WellNamed S) (hC : Rust.NoWriterClash S)
    (hN : DartNamed x S) (hH : HasDefaults S) (hD : DistinctNumbers S) (hP : PortableSchema S) {t : TypeId}
    (ht : WFType t) (hp : Portable S t) (hf : LibraryFree S t) {v : Val} (hv : HasTy rr.wire S t v) :
    ∃ bs u d, Rust.Writes rr (Rust.genProg S) t v bs ∧ Sees S [t] [v] [u] ∧ Represents x S t u d ∧
      ∀ r, Dart.Reads rt (Dart.genProg x S) t (bs ++ r) d r := by
  have hS := Dart.plain_of_accepted hA
  obtain ⟨bs, he⟩ := Rust.hasTys_enc hrr.wire hW (Rust.typesOk_of_wf hA.wf) hv (by simpa using ht)
  obtain ⟨us, h1, h2, -⟩ := Dart.enc_to_dart hG hrr.wire hP he (by simpa using hp)
  obtain ⟨u, rfl⟩ : ∃ u, us = [u] := by
    have := (Rust.Enc.length_eq h2)
    match us, this with
    | [u], _ => exact ⟨u, rfl⟩
  obtain ⟨d, h3, h4⟩ := (Dart.enc_read_one hrt hS hN hH hD hf h2).1
  exact ⟨bs, u, d, enc_writes hA hW hC ht he, h1, h3, h4⟩

theorem dart_to_rust {x : Ext} {rr : Rust.Runtime} (hrr : rr.Lawful) {rt : Dart.Runtime} (hrt : rt.Lawful)
    (hG : Agree rr.wire rt.wire) {S : List ASTNode} (hA : Accepted S) (hW : WellNamed S)
    (hN : DartNamed x S) (hD : DistinctNumbers S) (hP : PortableSchema S) {t : TypeId}
    (ht : WFType t) (hp : Portable S t) (hf : LibraryFree S t) {u d : Val} (hu : DartValue rt S t u)
    (hd : Represents x S t u d) :
    ∃ bs v, (∀ kd, Dart.Writes rt (Dart.genProg x S) kd t d bs) ∧ HasTy rr.wire S t v ∧ Sees S [t] [v] [u] ∧
      ∀ r, Rust.Reads rr (Rust.genProg S) t (bs ++ r) v r := by
  have hS := Dart.plain_of_accepted hA
  obtain ⟨bs, he⟩ := Dart.hasTys_enc hrt hN hS.types hP.numbers hu [t] rfl (by simpa using Dart.sized_of_wf ht)
  obtain ⟨vs, h1, h2⟩ := Dart.enc_of_dart hG hrr.wire hP he [t] rfl (by simpa using hp)
  obtain ⟨v, rfl⟩ : ∃ v, vs = [v] := by
    have := (Rust.Enc.length_eq h2)
    match vs, this with
    | [u], _ => exact ⟨u, rfl⟩
  exact ⟨bs, v, fun kd => Dart.enc_write_one hS hN hf he hd kd, Dart.enc_hasTys hG hrr.wire hP h2 (by simpa using hp), h1, enc_reads hrr hA hW hD ht h2⟩

/-- **C29** (partial, from Rust to Dart) What the emitted Rust program writes for a value, the emitted Dart
program reads as an object that represents the value as Dart sees it (`Sees`): unsigned integers of the
upper half are seen as negative numbers, everything else is the same.
Missing: fields of type `char`, lists of built-in types and of lists, other generic types, and variant
numbers that do not fit in 31 bits; for these the two programs do not agree in general (see below). -/
theorem C29_rust_to_dart_partial (x : Ext) (rr : Rust.Runtime) (hrr : rr.Lawful) (rt : Dart.Runtime) (hrt : rt.Lawful)
    (hG : Agree rr.wire rt.wire) (S : List ASTNode) (hA : Accepted S) (hW : WellNamed S) (hC : Rust.NoWriterClash S)
    (hN : DartNamed x S) (hH : HasDefaults S) (hD : DistinctNumbers S) (hP : PortableSchema S) :
    ∃ R P, Rust.Emits S R ∧ Dart.Emits x S P ∧
      ∀ (t : TypeId), WFType t → Portable S t → LibraryFree S t → ∀ (v : Val), HasTy rr.wire S t v →
      ∃ bs u d, Rust.Writes rr R t v bs ∧ Sees S [t] [v] [u] ∧ Represents x S t u d ∧
        ∀ r, Dart.Reads rt P t (bs ++ r) d r := by
  exact ⟨_, _, emits_genProg S hA, Dart.emits_genProg hA, fun t ht hp hf v hv =>
    rust_to_dart hrr hrt hG hA hW hC hN hH hD hP ht hp hf hv⟩

/-- C29 (partial): in a schema without unsigned integers, Dart reads the very value that Rust wrote. -/
theorem C29_same_value_partial (x : Ext) (rr : Rust.Runtime) (hrr : rr.Lawful) (rt : Dart.Runtime) (hrt : rt.Lawful)
    (hG : Agree rr.wire rt.wire) (S : List ASTNode) (hA : Accepted S) (hW : WellNamed S) (hC : Rust.NoWriterClash S)
    (hN : DartNamed x S) (hH : HasDefaults S) (hD : DistinctNumbers S) (hP : PortableSchema S) (hU : NoUnsigned S) :
    ∃ R P, Rust.Emits S R ∧ Dart.Emits x S P ∧
      ∀ (t : TypeId), WFType t → Portable S t → NotUnsigned t → LibraryFree S t → ∀ (v : Val), HasTy rr.wire S t v →
      ∃ bs d, Rust.Writes rr R t v bs ∧ Represents x S t v d ∧ ∀ r, Dart.Reads rt P t (bs ++ r) d r := by
  have hS := Dart.plain_of_accepted hA
  refine ⟨_, _, emits_genProg S hA, Dart.emits_genProg hA, fun t ht hp hnu hf v hv => ?_⟩
  obtain ⟨bs, he⟩ := Rust.hasTys_enc hrr.wire hW (Rust.typesOk_of_wf hA.wf) hv (by simpa using ht)
  obtain ⟨us, h1, h2, h3⟩ := Dart.enc_to_dart hG hrr.wire hP he (by simpa using hp)
  rw [h3 hU (by simpa using hnu)] at h2
  obtain ⟨d, h3, h4⟩ := (Dart.enc_read_one hrt hS hN hH hD hf h2).1
  exact ⟨bs, d, enc_writes hA hW hC ht he, h3, h4⟩

/-- C29 (partial, from Dart to Rust): what the emitted Dart program writes for an object, the emitted Rust
program reads as the value that Dart sees as the object's value. -/
theorem C29_dart_to_rust_partial (x : Ext) (rr : Rust.Runtime) (hrr : rr.Lawful) (rt : Dart.Runtime) (hrt : rt.Lawful)
    (hG : Agree rr.wire rt.wire) (S : List ASTNode) (hA : Accepted S) (hW : WellNamed S)
    (hN : DartNamed x S) (hD : DistinctNumbers S) (hP : PortableSchema S) :
    ∃ R P, Rust.Emits S R ∧ Dart.Emits x S P ∧
      ∀ (t : TypeId), WFType t → Portable S t → LibraryFree S t → ∀ (u d : Val), DartValue rt S t u →
      Represents x S t u d → ∃ bs v, (∀ kd, Dart.Writes rt P kd t d bs) ∧ HasTy rr.wire S t v ∧ Sees S [t] [v] [u] ∧
        ∀ r, Rust.Reads rr R t (bs ++ r) v r := by
  exact ⟨_, _, emits_genProg S hA, Dart.emits_genProg hA, fun t ht hp hf u d hu hd =>
    dart_to_rust hrr hrt hG hA hW hN hD hP ht hp hf hu hd⟩

theorem dartExample_portable : PortableSchema dartExample where
  fields := by
    intro n hn f hf
    simp only [dartExample, List.mem_cons, ASTNode.struct.injEq, reduceCtorEq, List.not_mem_nil, or_false, false_or] at hn
    rcases hn with rfl | rfl <;> simp [fieldsOf] at hf
    rcases hf with rfl | rfl | rfl
    · exact .other "String" (.inr (by decide))
    · exact .int "i32" 4 true (by simp [builtinTypes])
    · exact .list "Point" (.inl (by decide))
  payloads := by
    intro n hn i hi f hf
    simp only [dartExample, List.mem_cons, ASTNode.enum.injEq, reduceCtorEq, List.not_mem_nil, or_false, false_or] at hn
    subst hn
    simp only [List.mem_cons, List.not_mem_nil, or_false] at hi
    rcases hi with rfl | rfl | rfl <;> simp [payload] at hf
    · rcases hf with rfl | rfl
      · exact .other "Point" (.inl (by decide))
      · exact .num "f64" 8 (by simp [builtinTypes])
    · rcases hf with rfl | rfl
      · exact .other "Point" (.inl (by decide))
      · exact .bool
  numbers := dartExample_numbers

theorem dartExample_wellNamed : WellNamed dartExample where
  types := by decide
  builtins := by decide
  fields := by simp [dartExample, fieldsOf]
  variants := by simp [dartExample, EnumItem.id]
  payloads := by
    simp only [dartExample, List.mem_cons, ASTNode.enum.injEq, reduceCtorEq, List.not_mem_nil, or_false, false_or]
    rintro n rfl p id fs h
    simp at h
    obtain ⟨rfl, rfl, rfl⟩ := h
    decide
  numbers := by simp [dartExample, EnumItem.position]

theorem dartExample_noClash : Rust.NoWriterClash dartExample := by
  simp only [Rust.NoWriterClash, dartExample, List.mem_cons, ASTNode.enum.injEq, reduceCtorEq, List.not_mem_nil, or_false, false_or]
  rintro n rfl p id fs h
  simp at h
  obtain ⟨rfl, rfl, rfl⟩ := h
  decide

/-- Non-vacuity of C29 in both directions: all hypotheses hold of the example schema with the little-endian
libraries, and a shape travels from Dart to Rust. -/
example : ∃ R P bs d v, Rust.Emits dartExample R ∧ Dart.Emits testExt dartExample P ∧
    Represents testExt dartExample (.other "Shape") dRect d ∧ Dart.Writes LE.dart P .into (.other "Shape") d bs ∧
    Sees dartExample [.other "Shape"] [v] [dRect] ∧ Rust.Reads LE.rust R (.other "Shape") bs v [] := by
  obtain ⟨bs, he⟩ := Dart.hasTys_enc LE.dart_lawful dartExample_named (Dart.plain_of_accepted dartExample_accepted).types
    dartExample_numbers dRect_hasTy [.other "Shape"] rfl (by simp [Dart.Sized])
  obtain ⟨d, hd, -⟩ := (Dart.enc_read_one LE.dart_lawful (Dart.plain_of_accepted dartExample_accepted) dartExample_named
    dartExample_defaults dartExample_distinct dartExample_free he).1
  obtain ⟨R, P, hR, hP, h⟩ := C29_dart_to_rust_partial testExt LE.rust LE.rust_lawful LE.dart LE.dart_lawful LE.agree
    dartExample dartExample_accepted dartExample_wellNamed dartExample_named dartExample_distinct dartExample_portable
  obtain ⟨bs, v, h1, -, h2, h3⟩ := h (.other "Shape") (.name "Shape") (.other "Shape" (.inl (by decide))) dartExample_free dRect d
    dRect_hasTy hd
  exact ⟨R, P, bs, d, v, hR, hP, hd, h1 _, h2, by simpa using h3 []⟩

/-- The example schema has no unsigned integers. -/
example : NoUnsigned dartExample := by
  constructor
  · simp [dartExample, fieldsOf, NotUnsigned]
  · simp [dartExample, payload, NotUnsigned]
    constructor <;> (rintro a b (⟨-, rfl⟩ | ⟨-, rfl⟩) <;> simp)

/-- Reading a built-in type yields what the reader method yields, so a representable number. -/
theorem reads_range {rt : Dart.Runtime} (hrt : rt.Lawful) {P : Dart.Prog} {t : TypeId} {m : String}
    {t' : TypeId} (hg : Dart.genRead t = .prim m) (hm : dartPrims.lookup m = some t') {bs : Bytes} {d : Val} {r : Bytes}
    (h : Dart.Reads rt P t bs d r) : LeafVal t' d := by
  obtain ⟨N, h⟩ := h
  have h1 := h N (Nat.le_refl _)
  rw [Dart.readT, hg, Dart.evalReadE] at h1
  cases hr : rt.readP m bs with
  | none => rw [hr] at h1; simp [Dart.orElse] at h1
  | some p =>
    rw [hr] at h1
    simp only [Dart.orElse, Except.ok.injEq] at h1
    subst h1
    exact hrt.range m t' _ _ _ hm hr

/-- C29 is false for `char`: whatever the bytes, Dart never reads a character beyond ASCII. -/
theorem C29_chars_never_seen (rt : Dart.Runtime) (hrt : rt.Lawful) (P : Dart.Prog) (bs r : Bytes) (n : Int)
    (h : Dart.Reads rt P (.char "char") bs (.int n) r) : n < 128 := by
  have := reads_range (t' := .integer "Int8" 1 true) hrt (m := "Int8") rfl rfl h
  exact this.2

/-- C29 is false for large variant numbers: an enum whose variant numbers do not fit in 31 bits is never
read by Dart, whatever the bytes. -/
theorem C29_large_numbers_never_seen (x : Ext) (rt : Dart.Runtime) (hrt : rt.Lawful) (S : List ASTNode) (hA : Accepted S)
    (hN : DartNamed x S) :
    ∃ P, Dart.Emits x S P ∧ ∀ (n : EnumNode), .enum n ∈ S → (∀ i ∈ n.items, 2 ^ 31 ≤ i.position) → ∀ bs k,
      Dart.readT rt P (k + 1) (.other n.id) bs = .error .throws := by
  obtain ⟨P, hP, h⟩ := C23_dart_unknown_tag x rt S hA hN
  refine ⟨P, hP, fun n hn hpos bs k => (h n hn bs ?_ k).1⟩
  intro v r hr i hi e
  have := hrt.range "Int32" (.integer "Int32" 4 true) v bs r rfl hr
  rw [e] at this
  have h1 : (i.position : Int) < 2 ^ (8 * 4 - 1) := this.2
  have h2 := hpos i hi
  omega

/-- `enum E { #[4294967295] A }` -/
def largeSchema : List ASTNode := [.enum ⟨"E", [.empty 4294967295 "A"]⟩]

theorem largeSchema_accepted : Accepted largeSchema :=
  ⟨[.kwEnum, .id "E", .sym '{', .sym '#', .sym '[', .lit (.int 4294967295), .sym ']', .id "A", .sym '}', .eof], rfl⟩

/-- A schema of that kind: Rust round-trips its value. -/
theorem C29_large_number_example : Accepted largeSchema ∧ DartNamed testExt largeSchema ∧
    (∀ n, .enum n ∈ largeSchema → ∀ i ∈ n.items, 2 ^ 31 ≤ i.position) ∧
    Rust.Emits largeSchema (Rust.genProg largeSchema) ∧
    RoundTrips LE.rust (Rust.genProg largeSchema) (.other "E") (.enum "E" "A" []) := by
  refine ⟨largeSchema_accepted, ?_, by simp [largeSchema, EnumItem.position], emits_genProg _ largeSchema_accepted, ?_⟩
  · exact {
      classes := by decide +kernel
      fields := by simp [largeSchema]
      variants := by simp [largeSchema, EnumItem.id]; decide +kernel
      payloads := by simp [largeSchema, dartPayloadNames]
      plain := by decide
      lists := by decide
      structLib := by simp [largeSchema]
      enumLib := by simp [largeSchema, payload] }
  · refine round_trip LE.rust LE.rust_lawful largeSchema largeSchema_accepted ?_ (by simp [Rust.NoWriterClash, largeSchema])
      (by simp [DistinctNumbers, largeSchema]) _ (.name "E") _
      (.enum ⟨"E", [.empty 4294967295 "A"]⟩ (.empty 4294967295 "A") [] [] [] (by simp [largeSchema]) (by simp) .nil .nil)
    exact {
      types := by decide
      builtins := by decide
      fields := by simp [largeSchema]
      variants := by simp [largeSchema, EnumItem.id]
      payloads := by simp [largeSchema]
      numbers := by simp [largeSchema, EnumItem.position] }

/-- `struct L { a: Vec<u8>, b: Vec<i64> }` -/
def listSchema : List ASTNode :=
  [.struct ⟨"L", [⟨0, "a", .generic "Vec" [.integer "u8" 1 false]⟩, ⟨1, "b", .generic "Vec" [.integer "i64" 8 true]⟩],
    true, true⟩]

theorem listSchema_accepted : Accepted listSchema :=
  ⟨[.kwStruct, .id "L", .sym '{', .id "a", .sym ':', .id "Vec", .sym '<', .id "u8", .sym '>', .sym ',',
    .id "b", .sym ':', .id "Vec", .sym '<', .id "i64", .sym '>', .sym '}', .eof], rfl⟩

theorem reads_int_list {x : Ext} {rt : Dart.Runtime} {id : String} {size : Nat} {s : Bool} {n : Int} {b : Bytes}
    (hl : ∀ n r, n < 2 ^ 64 → rt.readL (LE.le 8 n ++ r) = some (n, r))
    (h : ∀ r, Dart.Reads rt (Dart.genProg x listSchema) (.generic "Vec" [.integer id size s])
      (LE.le 8 1 ++ b ++ r) (.list 1 [.int n]) r) (r : Bytes) : rt.readX "Int" (b ++ r) = some (.int n, r) := by
  have hS := Dart.plain_of_accepted listSchema_accepted
  obtain ⟨N, h1⟩ := h r
  have h2 := h1 (N + 2) (by omega)
  have c1 : (Dart.genProg x listSchema).codec? ("List" ++ Kind.into.suffix) = none :=
    Dart.codec_none hS .into (by decide)
  have c2 : (Dart.genProg x listSchema).codec? ("Int" ++ Kind.into.suffix) = none :=
    Dart.codec_none hS .into (by decide)
  have e : Dart.genCodecG .into "Vec" [.integer id size s] = .list .into (Dart.genTy (.integer id size s)) "Int" := rfl
  simp only [Dart.readT, Dart.genRead, Dart.evalReadE, e, Dart.readers, c1, Dart.evalList, c2, List.append_assoc,
    hl 1 _ (by decide), Dart.orElse, bind, Except.bind, Dart.readN] at h2
  cases hx : rt.readX "Int" (b ++ r) with
  | none => rw [hx] at h2; simp at h2
  | some p =>
    rw [hx] at h2
    simp only [Except.ok.injEq, Prod.mk.injEq, Val.list.injEq, true_and, List.cons.injEq, and_true] at h2
    rw [← h2.1, ← h2.2]

/-- C29 is false for lists of integers: the emitted Dart code has one codec for the elements of all such
lists, so no Dart library (that reads list lengths as Rust writes them) can read both the `Vec<u8>` and the
`Vec<i64>` that Rust writes. -/
theorem C29_integer_lists_do_not_agree (x : Ext) (rt : Dart.Runtime)
    (hl : ∀ n r, n < 2 ^ 64 → rt.readL (LE.le 8 n ++ r) = some (n, r)) :
    Accepted listSchema ∧ Rust.Emits listSchema (Rust.genProg listSchema) ∧
    Dart.Emits x listSchema (Dart.genProg x listSchema) ∧
    ∃ b1 b2, Rust.Writes LE.rust (Rust.genProg listSchema) (.generic "Vec" [.integer "u8" 1 false]) (.list 1 [.int 5]) b1 ∧
      Rust.Writes LE.rust (Rust.genProg listSchema) (.generic "Vec" [.integer "i64" 8 true]) (.list 1 [.int 5]) b2 ∧
      ¬ ((∀ r, Dart.Reads rt (Dart.genProg x listSchema) (.generic "Vec" [.integer "u8" 1 false]) (b1 ++ r)
            (.list 1 [.int 5]) r) ∧
          ∀ r, Dart.Reads rt (Dart.genProg x listSchema) (.generic "Vec" [.integer "i64" 8 true]) (b2 ++ r)
            (.list 1 [.int 5]) r) := by
  refine ⟨listSchema_accepted, emits_genProg _ listSchema_accepted, Dart.emits_genProg listSchema_accepted,
    LE.le 8 1 ++ [5], LE.le 8 1 ++ [5, 0, 0, 0, 0, 0, 0, 0], ?_, ?_, ?_⟩
  · refine ⟨4, fun k hk => ?_⟩
    obtain ⟨k, rfl⟩ : ∃ j, k = j + 4 := ⟨k - 4, by omega⟩
    rfl
  · refine ⟨4, fun k hk => ?_⟩
    obtain ⟨k, rfl⟩ : ∃ j, k = j + 4 := ⟨k - 4, by omega⟩
    rfl
  · rintro ⟨h1, h2⟩
    have e1 := reads_int_list hl h1 [0, 0, 0, 0, 0, 0, 0]
    have e2 := reads_int_list hl h2 []
    simp only [List.cons_append, List.nil_append] at e1 e2
    rw [e1] at e2
    simp at e2

/-! ## C30: unsigned integers -/

/-- The unsigned integer types: names and sizes in bytes. -/
def unsignedTypes : List (String × Nat) := [("u8", 1), ("u32", 4), ("u64", 8)]

theorem C30_writes_reads (x : Ext) (rr : Rust.Runtime) (hrr : rr.Lawful) (rt : Dart.Runtime) (hrt : rt.Lawful)
    (hG : Agree rr.wire rt.wire) (S : List ASTNode) (hA : Accepted S) (hW : WellNamed S) (hC : Rust.NoWriterClash S)
    (id : String) (size : Nat) (hid : (id, size) ∈ unsignedTypes) (n : Int) (h0 : 0 ≤ n)
    (hn : n < 2 ^ (8 * size)) :
    ∃ bs, Rust.Writes rr (Rust.genProg S) (.integer id size false) (.int n) bs ∧
      ∀ r, Dart.Reads rt (Dart.genProg x S) (.integer id size false) (bs ++ r) (.int (asSigned size n)) r := by
  have hm : (id, TypeId.integer id size false) ∈ builtinTypes := by
    simp only [unsignedTypes, List.mem_cons, Prod.mk.injEq, List.not_mem_nil, or_false] at hid
    rcases hid with ⟨rfl, rfl⟩ | ⟨rfl, rfl⟩ | ⟨rfl, rfl⟩ <;> simp [builtinTypes]
  have ht : WFType (.integer id size false) := by
    have := WFType.name id
    rwa [typeOfName, LE.builtin_mem hm] at this
  have hv : LeafVal (.integer id size false) (.int n) := ⟨h0, hn⟩
  obtain ⟨b, hb⟩ := hrr.wire.prim_total _ id (.int n) ht rfl hv
  have he : Enc rr.wire S [.integer id size false] [.int n] b := by
    simpa using Enc.leaf _ id (.int n) b [] [] [] rfl hb .nil
  refine ⟨b, enc_writes hA hW hC ht he, fun r => ⟨0, fun k _ => ?_⟩⟩
  rw [hG.int id size false n hm hv] at hb
  have key : ∃ m, dartPrims.lookup (dartPrim (.integer id size false)) = some (.integer m size true) ∧
      dartPrim (.integer id size false) ≠ "u32" ∧ Dart.genRead (.integer id size false) = .prim (dartPrim (.integer id size false)) := by
    rcases LE.builtin_int hm with rfl | rfl | rfl <;> exact ⟨_, rfl, by simp [dartPrim], rfl⟩
  obtain ⟨m, k1, k2, k3⟩ := key
  simp only [Dart.Runtime.wire, if_neg k2, k1] at hb
  split at hb
  · rename_i hl
    rw [Dart.readT, k3, Dart.evalReadE, hrt.prim _ _ _ b r k1 hl hb]
    rfl
  · simp at hb

/-- **C30** (partial) An unsigned number of the lower half of its range, written by Rust, is read by Dart as
the same number.  Missing: the upper half, see the next theorems. -/
theorem C30_lower_half_partial (x : Ext) (rr : Rust.Runtime) (hrr : rr.Lawful) (rt : Dart.Runtime) (hrt : rt.Lawful)
    (hG : Agree rr.wire rt.wire) (S : List ASTNode) (hA : Accepted S) (hW : WellNamed S) (hC : Rust.NoWriterClash S) :
    ∃ R P, Rust.Emits S R ∧ Dart.Emits x S P ∧ ∀ id size, (id, size) ∈ unsignedTypes → ∀ n : Int, 0 ≤ n →
      n < 2 ^ (8 * size - 1) → ∃ bs, Rust.Writes rr R (.integer id size false) (.int n) bs ∧
        ∀ r, Dart.Reads rt P (.integer id size false) (bs ++ r) (.int n) r := by
  refine ⟨_, _, emits_genProg S hA, Dart.emits_genProg hA, fun id size hid n h0 hn => ?_⟩
  have hlt : n < 2 ^ (8 * size) := by
    simp only [unsignedTypes, List.mem_cons, Prod.mk.injEq, List.not_mem_nil, or_false] at hid
    rcases hid with ⟨rfl, rfl⟩ | ⟨rfl, rfl⟩ | ⟨rfl, rfl⟩ <;> simp at hn ⊢ <;> omega
  have := C30_writes_reads x rr hrr rt hrt hG S hA hW hC id size hid n h0 hlt
  rwa [show asSigned size n = n from if_pos hn] at this

/-- C30 is false: every unsigned number of the upper half of its range, written by Rust, is read by Dart as
a negative number. -/
theorem C30_upper_half_is_negative (x : Ext) (rr : Rust.Runtime) (hrr : rr.Lawful) (rt : Dart.Runtime) (hrt : rt.Lawful)
    (hG : Agree rr.wire rt.wire) (S : List ASTNode) (hA : Accepted S) (hW : WellNamed S) (hC : Rust.NoWriterClash S) :
    ∃ R P, Rust.Emits S R ∧ Dart.Emits x S P ∧ ∀ id size, (id, size) ∈ unsignedTypes → ∀ n : Int,
      2 ^ (8 * size - 1) ≤ n → n < 2 ^ (8 * size) → ∃ bs, Rust.Writes rr R (.integer id size false) (.int n) bs ∧
        n - 2 ^ (8 * size) < 0 ∧ ∀ r, Dart.Reads rt P (.integer id size false) (bs ++ r) (.int (n - 2 ^ (8 * size))) r := by
  refine ⟨_, _, emits_genProg S hA, Dart.emits_genProg hA, fun id size hid n h0 hn => ?_⟩
  have hp : (0 : Int) < 2 ^ (8 * size - 1) := Int.pow_pos (by decide)
  obtain ⟨bs, h1, h2⟩ := C30_writes_reads x rr hrr rt hrt hG S hA hW hC id size hid n (by omega) hn
  rw [show asSigned size n = n - 2 ^ (8 * size) from if_neg (by omega)] at h2
  exact ⟨bs, h1, by omega, h2⟩

/-- This does not depend on how the libraries write numbers: no bytes are ever read by Dart as an unsigned
number of the upper half. -/
theorem C30_upper_half_never_seen (rt : Dart.Runtime) (hrt : rt.Lawful) (P : Dart.Prog) (id : String) (size : Nat)
    (hid : (id, size) ∈ unsignedTypes) (bs r : Bytes) (n : Int)
    (h : Dart.Reads rt P (.integer id size false) bs (.int n) r) : n < 2 ^ (8 * size - 1) := by
  simp only [unsignedTypes, List.mem_cons, Prod.mk.injEq, List.not_mem_nil, or_false] at hid
  rcases hid with ⟨rfl, rfl⟩ | ⟨rfl, rfl⟩ | ⟨rfl, rfl⟩
  · exact (reads_range (t' := .integer "Int8" 1 true) hrt (m := "Int8") rfl rfl h).2
  · exact (reads_range (t' := .integer "Int32" 4 true) hrt (m := "Int32") rfl rfl h).2
  · exact (reads_range (t' := .integer "Int64" 8 true) hrt (m := "Int64") rfl rfl h).2

/-- Non-vacuity of C30: all hypotheses hold of the example schema; 200 as a `u8` is seen as -56. -/
example : Dart.readT LE.dart (Dart.genProg testExt dartExample) 1 (.integer "u8" 1 false) [200] = .ok (.int (-56), []) ∧
    ∃ R P, Rust.Emits dartExample R ∧ Dart.Emits testExt dartExample P ∧
      ∃ bs, Rust.Writes LE.rust R (.integer "u64" 8 false) (.int 77) bs ∧
        ∀ r, Dart.Reads LE.dart P (.integer "u64" 8 false) (bs ++ r) (.int 77) r := by
  refine ⟨rfl, ?_⟩
  obtain ⟨R, P, h1, h2, h⟩ := C30_lower_half_partial testExt LE.rust LE.rust_lawful LE.dart LE.dart_lawful LE.agree
    dartExample dartExample_accepted dartExample_wellNamed dartExample_noClash
  exact ⟨R, P, h1, h2, h "u64" 8 (by decide) 77 (by decide) (by decide)⟩

end TPB.Props
