/-
Property theorems about the methods of the emitted Dart model classes: C88.

`Dart.callNew`, `Dart.Creates`, `Dart.callTo` and `Dart.callIs` run the emitted constructors and methods
(`Sem/DartMethods.lean`); `CallArgs` says how a payload is passed (`Spec/DartMethods.lean`); `Represents` relates
an object to the schema value that it stands for (`Spec/Dart.lean`).
-/
import Verif.Proofs.DartMethods
import Verif.Props.DartTyping
namespace TPB.Props
open Spec
open Spec.DartRules (EnumOk)

/-- The Dart objects `ds` represent the schema values `vs` of the types `ts`. -/
def RepresentAll (x : Ext) (S : List ASTNode) (ts : List TypeId) (vs ds : List Val) : Prop :=
  DRep x (dartSchema S) (ts.map dartView) vs ds

/-- The hypotheses on enums: the Dart compiler accepts their classes. -/
def EnumsOk (x : Ext) (S : List ASTNode) : Prop := ∀ n, .enum n ∈ S → EnumOk x n

/-- **C88 (partial), structs.** The constructor of a struct class, called with the values of all fields by name, in
any order, returns an object that represents the struct with these values.
Missing: schemas whose names cannot be told apart in Dart (here and below). -/
theorem C88_struct_partial (x : Ext) (S : List ASTNode) (hA : Accepted S) (hN : DartNamed x S) :
    ∃ P, Dart.Emits x S P ∧ ∀ n, .struct n ∈ S → ∀ vs ds args, RepresentAll x S ((fieldsOf n).map (·.2)) vs ds →
      args.Perm ((dartFieldNames x n).zip ds) →
      ∃ d, Dart.callNew P n.id args = .ok d ∧ Represents x S (.other n.id) (.struct n.id (named (fieldsOf n) vs)) d := by
  have hS := Dart.plain_of_accepted hA
  refine ⟨_, Dart.emits_genProg hA, fun n hn vs ds args hr ha => ?_⟩
  refine Dart.new_one hS hN hn ?_ ha
  simpa [RepresentAll, fieldsOf, Function.comp_def] using hr

/-- **C88 (partial), createV.** `createV` of an enum class returns an object that represents the variant `V` with the
payload that was passed, if the enum does not contain itself. -/
theorem C88_create_partial (x : Ext) (rt : Dart.Runtime) (hrt : rt.Lawful) (S : List ASTNode) (hA : Accepted S)
    (hN : DartNamed x S) (hE : EnumsOk x S) :
    ∃ P, Dart.Emits x S P ∧ ∀ n, .enum n ∈ S → Built S n.id → ∀ i ∈ n.items, ∀ vs ds args,
      RepresentAll x S ((payload i).map (·.2)) vs ds → CallArgs x i ds args →
      ∃ d, Dart.Creates rt P n.id ("create" ++ x.pascal i.id) args d ∧
        Represents x S (.other n.id) (.enum n.id i.id (named (payload i) vs)) d :=
  ⟨_, Dart.emits_genProg hA, fun n hn hB _ hi _ _ _ hr ha =>
    Dart.create_one hrt (Dart.plain_of_accepted hA) hN hB (hE n hn) hn hi hr ha⟩

/-- **C88 (partial), toV.** `toV` turns every object of an enum class, whatever it represented, into one that
represents the variant `V` with the payload that was passed, and leaves the payloads of the other variants alone. -/
theorem C88_to_partial (x : Ext) (S : List ASTNode) (hA : Accepted S) (hN : DartNamed x S) (hE : EnumsOk x S) :
    ∃ P, Dart.Emits x S P ∧ ∀ n, .enum n ∈ S → ∀ i ∈ n.items, ∀ vs ds args,
      RepresentAll x S ((payload i).map (·.2)) vs ds → CallArgs x i ds args → ∀ old, DartObject x S (.other n.id) old →
      ∃ d, Dart.callTo P n.id ("to" ++ x.pascal i.id) args old = .ok d ∧
        Represents x S (.other n.id) (.enum n.id i.id (named (payload i) vs)) d ∧
        ∀ j ∈ n.items, j.id ≠ i.id → Dart.getField (x.camel j.id) d = Dart.getField (x.camel j.id) old :=
  ⟨_, Dart.emits_genProg hA, fun n hn _ hi _ _ _ hr ha _ ho =>
    Dart.to_one (Dart.plain_of_accepted hA) hN (hE n hn) hn hi hr ha ho⟩

/-- **C88 (partial), isV.** `isV` of an object tells whether the value that it represents is of the variant `V`. -/
theorem C88_is_partial (x : Ext) (S : List ASTNode) (hA : Accepted S) (hN : DartNamed x S) (hE : EnumsOk x S) :
    ∃ P, Dart.Emits x S P ∧ ∀ n, .enum n ∈ S → ∀ id pl d, Represents x S (.other n.id) (.enum n.id id pl) d →
      ∀ j ∈ n.items, Dart.callIs P n.id ("is" ++ x.pascal j.id) d = .ok (decide (j.id = id)) :=
  ⟨_, Dart.emits_genProg hA, fun n hn _ _ _ h _ hj => Dart.is_one (Dart.plain_of_accepted hA) hN (hE n hn) hn hj h⟩

/-- A variant that was created, written and read again, whatever follows its bytes, answers `isV` as the created
one, and has the same payload. -/
theorem C88_sent_partial (x : Ext) (rt : Dart.Runtime) (hrt : rt.Lawful) (S : List ASTNode) (hA : Accepted S)
    (hN : DartNamed x S) (hF : VariantsFilled S) (hE : EnumsOk x S) (hD : DistinctNumbers S)
    (hP : ∀ n, .enum n ∈ S → ∀ i ∈ n.items, i.position < 2 ^ 31) :
    ∃ P, Dart.Emits x S P ∧ ∀ n, .enum n ∈ S → Built S n.id → ∀ i ∈ n.items, ∀ vs ds args,
      RepresentAll x S ((payload i).map (·.2)) vs ds → CallArgs x i ds args →
      DartValue rt S (.other n.id) (.enum n.id i.id (named (payload i) vs)) →
      ∃ d bs d', Dart.Creates rt P n.id ("create" ++ x.pascal i.id) args d ∧ Dart.Writes rt P .into (.other n.id) d bs ∧
        (∀ r, Dart.Reads rt P (.other n.id) (bs ++ r) d' r) ∧
        Represents x S (.other n.id) (.enum n.id i.id (named (payload i) vs)) d' ∧
        ∀ j ∈ n.items, Dart.callIs P n.id ("is" ++ x.pascal j.id) d' = .ok (decide (j.id = i.id)) := by
  have hS := Dart.plain_of_accepted hA
  refine ⟨_, Dart.emits_genProg hA, fun n hn hB i hi vs ds args hr ha hv => ?_⟩
  obtain ⟨d, hd1, hd2⟩ := Dart.create_one hrt hS hN hB (hE n hn) hn hi hr ha
  have hf : LibraryFree S (.other n.id) := Dart.declared_free hN (Dart.enum_typeName hn)
  obtain ⟨bs, he⟩ := Dart.hasTys_enc hrt hN hS.types hP hv [.other n.id] rfl (by simp [Dart.Sized])
  obtain ⟨d', h1, h2⟩ := (Dart.enc_read_creatable hrt hS hN hD hf he (.inr ⟨hF, [d], hd2⟩)).1
  exact ⟨d, bs, d', hd1, Dart.enc_write_one hS hN hf he hd2 .into, h2, h1, fun j hj => Dart.is_one hS hN (hE n hn) hn hj h1⟩

/-! ### Examples -/

/-- A point object with a coordinate and a name. -/
def pointObj (x : Int) (name : Nat) : Val :=
  .struct "Point" [("name", .ext "String" name), ("xPos", .int x), ("path", .list 0 [])]

theorem pointObj_represents (x : Int) (name : Nat) (ts : List TypeId) (vs ds : List Val)
    (h : DRep testExt (dartSchema dartExample) ts vs ds) :
    DRep testExt (dartSchema dartExample) (.other "Point" :: ts) (dPoint x [] name :: vs) (pointObj x name :: ds) := by
  have key : DRep testExt (dartSchema dartExample)
      [.other "String", .integer "Int32" 4 true, .generic "Vec" [.other "Point"]]
      [.ext "String" name, .int x, .list 0 []] [.ext "String" name, .int x, .list 0 []] :=
    .ext _ _ _ _ _ (by decide) (.leaf _ _ _ _ _ rfl (.list _ 0 [] [] _ _ _ .nil .nil))
  have e : dartFieldNames testExt ⟨"Point", [⟨0, "name", .other "String"⟩, ⟨1, "x_pos", .integer "Int32" 4 true⟩,
      ⟨2, "path", .generic "Vec" [.other "Point"]⟩], true, true⟩ = ["name", "xPos", "path"] := by decide +kernel
  have := DRep.struct (x := testExt) (T := dartSchema dartExample) ⟨"Point", [⟨0, "name", .other "String"⟩,
      ⟨1, "x_pos", .integer "Int32" 4 true⟩, ⟨2, "path", .generic "Vec" [.other "Point"]⟩], true, true⟩ _ _ ts vs ds
      (by simp [dartExample, dartSchema, viewDecl, viewField, dartView, dartPrim, dartElem]) key h
  rw [e] at this
  exact this

/-- Non-vacuity: in the example schema `createRect(b: true, a: point)` returns a `Rect`, `toCircle(point, 2.5)` turns it
into a `Circle`, and the methods `isRect` and `isCircle` tell them apart. -/
example : ∃ P d d', Dart.Emits testExt dartExample P ∧
    Dart.Creates LE.dart P "Shape" "createRect" (.named [("b", .bool true), ("a", pointObj 4 1)]) d ∧
    Dart.callIs P "Shape" "isRect" d = .ok true ∧ Dart.callIs P "Shape" "isCircle" d = .ok false ∧
    Dart.callTo P "Shape" "toCircle" (.positional [pointObj (-3) 2, .num 7]) d = .ok d' ∧
    Dart.callIs P "Shape" "isRect" d' = .ok false ∧ Dart.callIs P "Shape" "isCircle" d' = .ok true := by
  have hS := Dart.plain_of_accepted dartExample_accepted
  have hE : EnumsOk testExt dartExample := dartExample_typable.enums
  have hm : ASTNode.enum ⟨"Shape", [.empty 3 "None", .tuple 7 "Circle" [⟨0, .other "Point"⟩, ⟨1, .number "f64" 8⟩],
      .struct 1 "Rect" [⟨0, "a", .other "Point"⟩, ⟨1, "b", .bool "bool"⟩]]⟩ ∈ dartExample := by simp [dartExample]
  have hr : "create" ++ testExt.pascal "Rect" = "createRect" ∧ "is" ++ testExt.pascal "Rect" = "isRect" ∧
      "is" ++ testExt.pascal "Circle" = "isCircle" ∧ "to" ++ testExt.pascal "Circle" = "toCircle" := by decide +kernel
  have hnames : dartPayloadNames testExt (.struct 1 "Rect" [⟨0, "a", .other "Point"⟩, ⟨1, "b", .bool "bool"⟩]) = ["a", "b"] := by
    decide +kernel
  have ha : CallArgs testExt (.struct 1 "Rect" [⟨0, "a", .other "Point"⟩, ⟨1, "b", .bool "bool"⟩]) [pointObj 4 1, .bool true]
      (.named [("b", .bool true), ("a", pointObj 4 1)]) := by
    refine ⟨⟨_, _, _, rfl⟩, ?_⟩
    rw [hnames]
    exact .swap _ _ _
  obtain ⟨d, h1, h2⟩ := Dart.create_one LE.dart_lawful hS dartExample_named (Dart.built_of_hasDefaults dartExample_defaults _) (hE _ hm) hm
    (i := .struct 1 "Rect" [⟨0, "a", .other "Point"⟩, ⟨1, "b", .bool "bool"⟩]) (by simp)
    (pointObj_represents 4 1 _ _ _ (.leaf _ (.bool true) _ _ _ rfl .nil)) ha
  obtain ⟨d', h3, h4, -⟩ := Dart.to_one hS dartExample_named (hE _ hm) hm
    (i := .tuple 7 "Circle" [⟨0, .other "Point"⟩, ⟨1, .number "f64" 8⟩]) (by simp)
    (pointObj_represents (-3) 2 _ _ _ (.leaf _ (.num 7) _ _ _ rfl .nil)) (args := .positional [pointObj (-3) 2, .num 7])
    ⟨by simp, rfl⟩ h2.obj
  have is := fun (j) (hj) (id) (pl) (d) (h) => Dart.is_one hS dartExample_named (hE _ hm) hm (j := j) hj (id := id) (pl := pl) (d := d) h
  simp only [EnumItem.id] at h1 h3
  rw [hr.1] at h1
  rw [hr.2.2.2] at h3
  refine ⟨_, d, d', Dart.emits_genProg dartExample_accepted, h1, ?_, ?_, h3, ?_, ?_⟩
  · have := is (.struct 1 "Rect" [⟨0, "a", .other "Point"⟩, ⟨1, "b", .bool "bool"⟩]) (by simp) _ _ _ h2
    simpa only [EnumItem.id, hr.2.1, decide_true] using this
  · have := is (.tuple 7 "Circle" [⟨0, .other "Point"⟩, ⟨1, .number "f64" 8⟩]) (by simp) _ _ _ h2
    simp only [EnumItem.id, hr.2.2.1] at this
    exact this
  · have := is (.struct 1 "Rect" [⟨0, "a", .other "Point"⟩, ⟨1, "b", .bool "bool"⟩]) (by simp) _ _ _ h4
    simp only [EnumItem.id, hr.2.1] at this
    exact this
  · have := is (.tuple 7 "Circle" [⟨0, .other "Point"⟩, ⟨1, .number "f64" 8⟩]) (by simp) _ _ _ h4
    simp only [EnumItem.id, hr.2.2.1] at this
    exact this

/-! ### The hypotheses on names are needed -/

/-- `enum E { A { value: u32 } }` -/
def shadowSchema : List ASTNode := [.enum ⟨"E", [.struct 0 "A" [⟨0, "value", .integer "u32" 4 false⟩]]⟩]

theorem shadowSchema_accepted : Accepted shadowSchema :=
  ⟨[.kwEnum, .id "E", .sym '{', .id "A", .sym '{', .id "value", .sym ':', .id "u32", .sym '}', .sym '}', .eof], rfl⟩

/-- **C88, refuted.** The parameter for a field called `value` hides the field that names the variant: `toA` never does
its work, whatever its arguments (the Dart compiler rejects it).  The names of the schema are otherwise fine. -/
theorem C88_hidden_value : Accepted shadowSchema ∧ DartNamed testExt shadowSchema ∧ HasDefaults shadowSchema ∧
    Dart.Emits testExt shadowSchema (Dart.genProg testExt shadowSchema) ∧
    ∀ args old, Dart.callTo (Dart.genProg testExt shadowSchema) "E" "toA" args old = .error .stuck := by
  refine ⟨shadowSchema_accepted, ?_, ⟨⟨fun _ => 0, by simp [shadowSchema, directTypes, fieldsOf, payload]⟩,
    by simp [shadowSchema, payload]⟩, Dart.emits_genProg shadowSchema_accepted, fun args old => ?_⟩
  · constructor
    · decide +kernel
    · simp [shadowSchema]
    · intro n hn
      simp only [shadowSchema, List.mem_singleton, ASTNode.enum.injEq] at hn
      subst hn
      decide +kernel
    · intro n hn i hi
      simp only [shadowSchema, List.mem_singleton, ASTNode.enum.injEq] at hn
      subst hn
      simp only [List.mem_singleton] at hi
      subst hi
      decide +kernel
    · decide +kernel
    · decide +kernel
    · simp [shadowSchema]
    · intro n hn i hi f hf
      simp only [shadowSchema, List.mem_singleton, ASTNode.enum.injEq] at hn
      subst hn
      simp only [List.mem_singleton] at hi
      subst hi
      simp only [payload, List.map_cons, List.map_nil, List.mem_singleton] at hf
      subst hf
      trivial
  · have hc : (Dart.genProg testExt shadowSchema).enum? "E" = some (Dart.genEnumClass testExt
        ⟨"E", [.struct 0 "A" [⟨0, "value", .integer "u32" 4 false⟩]]⟩ "A") := rfl
    have hv : testExt.camel "value" = "value" := by decide +kernel
    have hp : testExt.pascal "A" = "A" := by decide +kernel
    simp only [Dart.callTo, hc, Dart.genEnumClass, List.map_cons, List.map_nil, Dart.genVMethod, hp, List.find?_cons,
      Dart.evalTo, Dart.Params.vars, hv]
    simp

end TPB.Props
