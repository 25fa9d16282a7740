/-
Property theorems about the emitted Dart models and codecs as a compiler sees them: C60.

`DartTyped L items codecs` are the rules, `DartTypable x L S` says in terms of the schema when they are met
(both in `Spec/DartTyping.lean`); `L` stands for the imported libraries.
-/
import Verif.Proofs.DartTyping
import Verif.Props.DartCodec
namespace TPB.Props
open Spec Dart Spec.DartRules
open DartGen (enumItemStruct)

/-- **C60 (partial).** The Dart classes and codecs generated for a typable schema are accepted by the Dart
compiler, whatever the imported libraries contain.  Missing: the schemas excluded by this; the theorems
below show accepted schemas whose Dart code is rejected. -/
theorem C60_dart_typed_partial (x : Ext) (L : DartLib) (S : List ASTNode) (hA : Accepted S) (hT : DartTypable x L S) :
    ∃ P, Dart.Emits x S P ∧ DartTyped L P.items P.codecs :=
  ⟨_, Dart.emits_genProg hA, dart_typed (plain_of_accepted hA) hT⟩

/-- The emitted program of a schema, and that it is not accepted. -/
theorem rejected {x : Ext} {L : DartLib} {S : List ASTNode} (hA : Accepted S)
    (h : ¬ DartTyped L (genItems x S) (genCodecs x S)) : ∃ P, Dart.Emits x S P ∧ ¬ DartTyped L P.items P.codecs :=
  ⟨_, Dart.emits_genProg hA, h⟩

theorem enum_of {x : Ext} {L : DartLib} {S : List ASTNode} (hA : Accepted S) {n : EnumNode} (hn : .enum n ∈ S)
    (h : DartTyped L (genItems x S) (genCodecs x S)) : ∃ d, EnumTyped L (fileOf x S) (genEnumClass x n d) := by
  obtain ⟨d, _, hd⟩ := enum_mem (x := x) (plain_of_accepted hA) hn
  exact ⟨_, h.enums _ hd⟩

/-- **C60, refuted: names of classes.** Declarations whose classes get the same name (`struct AB` and
`enum A { B }`, or `struct A` and `struct AIntoBuffers`) are accepted and emitted. -/
theorem C60_same_class (x : Ext) (L : DartLib) (S : List ASTNode) (hA : Accepted S) (h : ¬ (dartClasses S).Nodup) :
    ∃ P, Dart.Emits x S P ∧ ¬ DartTyped L P.items P.codecs := by
  refine rejected hA (fun ht => h ?_)
  have := ht.once
  rw [List.nodup_iff_count] at this ⊢
  intro a
  rw [← declared_count (x := x) (plain_of_accepted hA)]
  exact this a

/-- **C60, refuted: names of fields.** A field of a struct whose Dart name is a reserved word, a member of
`Object`, the name of its class, or `reader` makes the Dart file invalid. -/
theorem C60_field_name (x : Ext) (L : DartLib) (S : List ASTNode) (hA : Accepted S) (n : StructNode) (hn : .struct n ∈ S)
    (f : StructField) (hf : f ∈ n.fields)
    (hb : x.camel f.name ∈ dartReserved ∨ x.camel f.name ∈ ["toString", "noSuchMethod", "runtimeType"] ∨
      x.camel f.name = n.id ∨ x.camel f.name = "reader") :
    ∃ P, Dart.Emits x S P ∧ ¬ DartTyped L P.items P.codecs := by
  refine rejected hA (fun ht => ?_)
  have hm := struct_mem (x := x) hn
  have h1 := (ht.structs _ hm).members (genTy f.typeId, x.camel f.name) (List.mem_map.2 ⟨f, hf, rfl⟩)
  rcases hb with hb | hb | hb | hb
  · exact h1.1.1.2 hb
  · exact h1.2.2.1 hb
  · exact h1.1.2 hb
  · have hc : genStructInto x n ∈ genCodecs x S := by
      have := (plain_of_accepted hA).structs n hn
      exact List.mem_flatMap.2 ⟨_, hn, by simp [genStructCodecs, this.1, this.2]⟩
    obtain ⟨_, _, _, _, h, _⟩ := (ht.codecs _ hc).body
    exact (h (x.camel f.name, genRead f.typeId) (List.mem_map.2 ⟨f, hf, rfl⟩)).2 hb

/-- **C60, refuted: fields that hide types.** A field that is called like a class that is used for a field
of the same struct (`struct A { int: u32 }`) makes the Dart file invalid. -/
theorem C60_hidden_type (x : Ext) (L : DartLib) (S : List ASTNode) (hA : Accepted S) (n : StructNode) (hn : .struct n ∈ S)
    (f g : StructField) (hf : f ∈ n.fields) (hg : g ∈ n.fields) (hb : x.camel f.name ∈ (dartTy g.typeId).names) :
    ∃ P, Dart.Emits x S P ∧ ¬ DartTyped L P.items P.codecs := by
  refine rejected hA (fun ht => ?_)
  have h := ((ht.structs _ (struct_mem (x := x) hn)).types (genTy g.typeId, x.camel g.name) (List.mem_map.2 ⟨g, hg, rfl⟩)).2
  simp only [genTy_eq] at h
  refine h _ hb ?_
  exact List.mem_map.2 ⟨(genTy f.typeId, x.camel f.name), List.mem_map.2 ⟨f, hf, rfl⟩, rfl⟩

/-- **C60, refuted: parameters that hide members.** A field of a variant that is called `value` or `model`, or
like its variant, is a parameter of the emitted methods and hides what they assign to. -/
theorem C60_parameter (x : Ext) (L : DartLib) (S : List ASTNode) (hA : Accepted S) (n : EnumNode) (hn : .enum n ∈ S)
    (p : Nat) (v : String) (fs : List StructField) (hv : .struct p v fs ∈ n.items) (f : StructField) (hf : f ∈ fs)
    (hb : x.camel f.name = "value" ∨ x.camel f.name = "model" ∨ x.camel f.name = x.camel v) :
    ∃ P, Dart.Emits x S P ∧ ¬ DartTyped L P.items P.codecs := by
  refine rejected hA (fun ht => ?_)
  obtain ⟨d, h⟩ := enum_of hA hn ht
  have hm : genVMethod x (.struct p v fs) ∈ (genEnumClass x n d).tos := List.mem_map.2 ⟨_, hv, rfl⟩
  have hm' : genVMethod x (.struct p v fs) ∈ (genEnumClass x n d).creates := List.mem_map.2 ⟨_, hv, rfl⟩
  have hp : x.camel f.name ∈ (genVMethod x (.struct p v fs)).params.list.map (·.2) :=
    List.mem_map.2 ⟨(genTy f.typeId, x.camel f.name), List.mem_map.2 ⟨f, hf, rfl⟩, rfl⟩
  rcases hb with hb | hb | hb
  · exact (h.tos _ hm).2 "value" (by simp) (hb ▸ hp)
  · exact (h.creates _ hm').2.2 (x.camel f.name, x.camel f.name) (List.mem_map.2 ⟨f, hf, rfl⟩) hb
  · exact (h.tos _ hm).2 (x.camel v) (by simp [genVMethod]) (hb ▸ hp)

/-- **C60, refuted: names of variants.** A variant called `String` gives a method `toString` that does not
override the one of `Object`; one called `Index`, `Values` or `Value` clashes with members of the emitted
enumeration and class. -/
theorem C60_variant_name (x : Ext) (L : DartLib) (S : List ASTNode) (hA : Accepted S) (n : EnumNode) (hn : .enum n ∈ S)
    (i : EnumItem) (hi : i ∈ n.items)
    (hb : x.pascal i.id = "String" ∨ x.camel i.id ∈ dartReserved ++ ["index", "values", "value"]) :
    ∃ P, Dart.Emits x S P ∧ ¬ DartTyped L P.items P.codecs := by
  refine rejected hA (fun ht => ?_)
  obtain ⟨d, h⟩ := enum_of hA hn ht
  rcases hb with hb | hb
  · have hnm : (genVMethod x i).name = x.pascal i.id := by cases i <;> rfl
    refine (h.members.2 "toString" ?_).2 (by decide)
    simp only [enumMembers, List.mem_cons, List.mem_append, List.mem_map]
    refine .inr (.inl (.inl (.inr ⟨genVMethod x i, List.mem_map.2 ⟨i, hi, rfl⟩, ?_⟩)))
    rw [hnm, hb]; rfl
  · rcases List.mem_append.1 hb with hb | hb
    · exact (h.consts.2.2 (x.camel i.id) (List.mem_map.2 ⟨i, hi, rfl⟩)).1.1.2 hb
    · simp only [List.mem_cons, List.not_mem_nil, or_false] at hb
      rcases hb with hb | hb | hb
      · exact (h.consts.2.2 (x.camel i.id) (List.mem_map.2 ⟨i, hi, rfl⟩)).2 (by simp [hb])
      · exact (h.consts.2.2 (x.camel i.id) (List.mem_map.2 ⟨i, hi, rfl⟩)).2 (by simp [hb])
      · refine (List.nodup_cons.1 h.members.1).1 ?_
        simp only [List.mem_append, List.mem_map]
        exact .inl (.inl (.inl ⟨(n.id ++ i.id, x.camel i.id, genNew n i), List.mem_map.2 ⟨i, hi, rfl⟩, hb⟩))

/-- **C60, refuted: empty payloads.** The class of a variant written `A()` has no constructor
`createDefault`, but the class of the enum calls it. -/
theorem C60_empty_payload (x : Ext) (L : DartLib) (S : List ASTNode) (hA : Accepted S) (n : EnumNode) (hn : .enum n ∈ S)
    (p : Nat) (v : String) (hv : .tuple p v [] ∈ n.items) :
    ∃ P, Dart.Emits x S P ∧ ¬ DartTyped L P.items P.codecs := by
  refine rejected hA (fun ht => ?_)
  have hS := plain_of_accepted hA
  obtain ⟨d, h⟩ := enum_of hA hn ht
  have hp := (h.payloads (n.id ++ v, x.camel v, .createDefault (n.id ++ v)) (List.mem_map.2 ⟨_, hv, rfl⟩)).2
  have hm := variant_mem (x := x) hS hn hv
  have hnd : ((structsOf (genItems x S)).map StructClass.id).Nodup := by
    have := ht.once
    rw [List.nodup_iff_count] at this ⊢
    intro a
    refine Nat.le_trans ?_ (this a)
    simp only [declaredNames, List.count_append, count_pairs]
    exact Nat.le_trans (Nat.le_add_right _ _) (Nat.le_trans (Nat.le_add_right _ _) (Nat.le_add_right _ _))
  generalize hc : n.id ++ v = c at hp
  generalize he : NewE.createDefault c = e at hp
  cases hp with
  | const s _ _ => cases he
  | create s hs hf =>
    have e1 := Rust.find?_key StructClass.id _ hnd _ hs
    have e2 := Rust.find?_key StructClass.id _ hnd _ hm
    rw [show (genStructClass x (enumItemStruct n (.tuple p v []))).id = n.id ++ v from rfl, hc] at e2
    rw [e2] at e1
    exact hf (by rw [← Option.some.inj e1]; rfl)

/-! ### Examples -/

/-- The library of the examples: `String`. -/
def exampleLib : DartLib where
  types id k := id = "String" ∧ k = 0
  codecs k id := id = "String" ∧ k = .into
  genericCodecs _ _ _ := False
  factories id := id = "String"
  genericFactories _ _ := False
  elements e t := e = "String" ∧ t = .named "String"

theorem dartExample_typable : DartTypable testExt exampleLib dartExample := by
  have hp : "Point" ∈ typeNames dartExample := by decide
  have hpt : DartTypeExists exampleLib dartExample (.other "Point") ∧ DartUsable exampleLib dartExample (.other "Point") :=
    ⟨.own _ hp, .own _ hp⟩
  refine ⟨by decide +kernel, ?_, ?_, ?_, ?_, ?_, ?_⟩
  · unfold DartTypeName
    decide +kernel
  · intro d hd t ht
    simp only [dartExample, List.mem_cons, List.not_mem_nil, or_false] at hd
    rcases hd with rfl | rfl | rfl <;> simp [directTypes, fieldsOf, payload] at ht
    · rcases ht with rfl | rfl | rfl
      · exact ⟨.lib _ (by decide +kernel) ⟨rfl, rfl⟩, .lib _ (by unfold Free; decide +kernel) ⟨rfl, rfl⟩ (.inl rfl) rfl⟩
      · exact ⟨.builtin _ _ rfl, .builtin _ _ rfl⟩
      · exact ⟨.list _ hpt.1, .listOwn _ hp⟩
    · rcases ht with rfl | rfl | rfl | rfl
      · exact hpt
      · exact ⟨.builtin _ _ rfl, .builtin _ _ rfl⟩
      · exact hpt
      · exact ⟨.builtin _ _ rfl, .builtin _ _ rfl⟩
  · intro d hd t ht
    simp only [dartExample, List.mem_cons, List.not_mem_nil, or_false] at hd
    rcases hd with rfl | rfl | rfl <;> simp [directTypes, fieldsOf, payload] at ht
    · rcases ht with rfl | rfl | rfl <;> (unfold Free; decide +kernel)
    · rcases ht with rfl | rfl | rfl | rfl <;> (unfold Free; decide +kernel)
  · intro n hn
    simp only [dartExample, List.mem_cons, ASTNode.struct.injEq, reduceCtorEq, List.not_mem_nil, or_false, false_or] at hn
    rcases hn with rfl | rfl
    · refine ⟨⟨by decide +kernel, ?_, ?_, by decide +kernel⟩, by unfold Free; decide +kernel⟩
      · unfold MemberName DartName Public; decide +kernel
      · intro f hf
        refine ⟨?_, ?_⟩
        · revert f; decide +kernel
        · have : ∀ f ∈ dartFields testExt ⟨"Point", [⟨0, "name", .other "String"⟩, ⟨1, "x_pos", .integer "i32" 4 true⟩,
            ⟨2, "path", .generic "Vec" [.other "Point"]⟩], true, true⟩, f.1 ≠ "hashCode" := by decide +kernel
          exact fun h => absurd h (this f hf)
    · exact ⟨⟨by decide, by simp [dartFields], by simp [dartFields], by simp [dartFields]⟩, by simp [Free, dartFieldNames]⟩
  · intro n hn i hi
    simp only [dartExample, List.mem_cons, ASTNode.enum.injEq, reduceCtorEq, List.not_mem_nil, or_false, false_or] at hn
    subst hn
    simp only [List.mem_cons, List.not_mem_nil, or_false] at hi
    rcases hi with rfl | rfl | rfl
    · refine ⟨?_, ?_, ?_, ?_⟩ <;> simp [dartPayload, dartPayloadNames]
    · refine ⟨by decide +kernel, ?_, ?_, by decide +kernel⟩
      · unfold MemberName DartName Public; decide +kernel
      · intro f hf
        have : ∀ f ∈ dartPayload testExt (.tuple 7 "Circle" [⟨0, .other "Point"⟩, ⟨1, .number "f64" 8⟩]),
            f.1 ∉ ["toString", "noSuchMethod", "runtimeType", "hashCode"] := by decide +kernel
        have := this f hf
        refine ⟨fun h => this ?_, fun h => absurd (by simp [h]) this⟩
        simp only [List.mem_cons, List.not_mem_nil, or_false] at h ⊢
        rcases h with h | h | h <;> simp [h]
    · refine ⟨by decide +kernel, ?_, ?_, by decide +kernel⟩
      · unfold MemberName DartName Public; decide +kernel
      · intro f hf
        have : ∀ f ∈ dartPayload testExt (.struct 1 "Rect" [⟨0, "a", .other "Point"⟩, ⟨1, "b", .bool "bool"⟩]),
            f.1 ∉ ["toString", "noSuchMethod", "runtimeType", "hashCode"] := by decide +kernel
        have := this f hf
        refine ⟨fun h => this ?_, fun h => absurd (by simp [h]) this⟩
        simp only [List.mem_cons, List.not_mem_nil, or_false] at h ⊢
        rcases h with h | h | h <;> simp [h]
  · intro n hn
    simp only [dartExample, List.mem_cons, ASTNode.enum.injEq, reduceCtorEq, List.not_mem_nil, or_false, false_or] at hn
    subst hn
    refine ⟨by decide +kernel, by decide +kernel, by decide +kernel, ?_, ?_, ?_, ?_, ?_, ?_⟩
    · unfold MemberName DartName; decide +kernel
    · unfold Free; decide +kernel
    · unfold Free; decide +kernel
    · simp [payload]
    · intro i hi p id vs he
      simp only [List.mem_cons, List.not_mem_nil, or_false] at hi
      rcases hi with rfl | rfl | rfl <;> cases he
      decide +kernel
    · unfold Free; decide +kernel

/-- A schema with structs, a recursive list, and an enum with all kinds of variants. -/
example : ∃ P, Dart.Emits testExt dartExample P ∧ DartTyped exampleLib P.items P.codecs :=
  C60_dart_typed_partial _ _ _ dartExample_accepted dartExample_typable

/-- `struct AB; enum A { B }` -/
def sameSchema : List ASTNode := [.struct ⟨"AB", [], true, true⟩, .enum ⟨"A", [.empty 0 "B"]⟩]

theorem sameSchema_accepted : Accepted sameSchema :=
  ⟨[.kwStruct, .id "AB", .sym ';', .kwEnum, .id "A", .sym '{', .id "B", .sym '}', .eof], rfl⟩

example : ∃ P, Dart.Emits testExt sameSchema P ∧ ¬ DartTyped exampleLib P.items P.codecs :=
  C60_same_class _ _ _ sameSchema_accepted (by decide +kernel)

/-- `struct A { f: u8 }` -/
def fieldSchema (f : String) : List ASTNode := [.struct ⟨"A", [⟨0, f, .integer "u8" 1 false⟩], true, true⟩]

theorem fieldSchema_accepted (f : String) : Accepted (fieldSchema f) :=
  ⟨[.kwStruct, .id "A", .sym '{', .id f, .sym ':', .id "u8", .sym '}', .eof], rfl⟩

example : ∃ P, Dart.Emits testExt (fieldSchema "class") P ∧ ¬ DartTyped exampleLib P.items P.codecs :=
  C60_field_name _ _ _ (fieldSchema_accepted _) _ (List.mem_singleton.2 rfl) _ (List.mem_singleton.2 rfl) (.inl (by decide +kernel))

example : ∃ P, Dart.Emits testExt (fieldSchema "to_string") P ∧ ¬ DartTyped exampleLib P.items P.codecs :=
  C60_field_name _ _ _ (fieldSchema_accepted _) _ (List.mem_singleton.2 rfl) _ (List.mem_singleton.2 rfl)
    (.inr (.inl (by decide +kernel)))

example : ∃ P, Dart.Emits testExt (fieldSchema "reader") P ∧ ¬ DartTyped exampleLib P.items P.codecs :=
  C60_field_name _ _ _ (fieldSchema_accepted _) _ (List.mem_singleton.2 rfl) _ (List.mem_singleton.2 rfl)
    (.inr (.inr (.inr (by decide +kernel))))

example : ∃ P, Dart.Emits testExt (fieldSchema "int") P ∧ ¬ DartTyped exampleLib P.items P.codecs :=
  C60_hidden_type _ _ _ (fieldSchema_accepted _) _ (List.mem_singleton.2 rfl) _ _ (List.mem_singleton.2 rfl) (List.mem_singleton.2 rfl)
    (by decide +kernel)

/-- `enum E { A { f: u8 } }` -/
def paramSchema (f : String) : List ASTNode := [.enum ⟨"E", [.struct 0 "A" [⟨0, f, .integer "u8" 1 false⟩]]⟩]

theorem paramSchema_accepted (f : String) : Accepted (paramSchema f) :=
  ⟨[.kwEnum, .id "E", .sym '{', .id "A", .sym '{', .id f, .sym ':', .id "u8", .sym '}', .sym '}', .eof], rfl⟩

example : ∃ P, Dart.Emits testExt (paramSchema "value") P ∧ ¬ DartTyped exampleLib P.items P.codecs :=
  C60_parameter _ _ _ (paramSchema_accepted _) _ (List.mem_singleton.2 rfl) 0 "A" _ (List.mem_singleton.2 rfl) _
    (List.mem_singleton.2 rfl) (.inl (by decide +kernel))

example : ∃ P, Dart.Emits testExt (paramSchema "a") P ∧ ¬ DartTyped exampleLib P.items P.codecs :=
  C60_parameter _ _ _ (paramSchema_accepted _) _ (List.mem_singleton.2 rfl) 0 "A" _ (List.mem_singleton.2 rfl) _
    (List.mem_singleton.2 rfl) (.inr (.inr (by decide +kernel)))

/-- `enum E { V }` -/
def variantSchema (v : String) : List ASTNode := [.enum ⟨"E", [.empty 0 v]⟩]

theorem variantSchema_accepted (v : String) : Accepted (variantSchema v) :=
  ⟨[.kwEnum, .id "E", .sym '{', .id v, .sym '}', .eof], rfl⟩

example : ∃ P, Dart.Emits testExt (variantSchema "String") P ∧ ¬ DartTyped exampleLib P.items P.codecs :=
  C60_variant_name _ _ _ (variantSchema_accepted _) _ (List.mem_singleton.2 rfl) _ (List.mem_singleton.2 rfl) (.inl (by decide +kernel))

example : ∃ P, Dart.Emits testExt (variantSchema "Default") P ∧ ¬ DartTyped exampleLib P.items P.codecs :=
  C60_variant_name _ _ _ (variantSchema_accepted _) _ (List.mem_singleton.2 rfl) _ (List.mem_singleton.2 rfl) (.inr (by decide +kernel))

/-- `enum E { A() }` -/
def unitTupleSchema : List ASTNode := [.enum ⟨"E", [.tuple 0 "A" []]⟩]

theorem unitTupleSchema_accepted : Accepted unitTupleSchema :=
  ⟨[.kwEnum, .id "E", .sym '{', .id "A", .sym '(', .sym ')', .sym '}', .eof], rfl⟩

example : ∃ P, Dart.Emits testExt unitTupleSchema P ∧ ¬ DartTyped exampleLib P.items P.codecs :=
  C60_empty_payload _ _ _ unitTupleSchema_accepted _ (List.mem_singleton.2 rfl) 0 "A" (List.mem_singleton.2 rfl)

end TPB.Props
