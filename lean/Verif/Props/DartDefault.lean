/-
Property theorems about the default objects of the emitted Dart classes: C89.

`Dart.newVal` runs the emitted constructors (`Sem/DartEval.lean`); `DefaultOf` are the default values of the types of a
schema (`Spec/Default.lean`), here of the schema as Dart sees it; `Represents` relates an object to the value that it
stands for (`Spec/Dart.lean`).
-/
import Verif.Proofs.DartDefault
import Verif.Proofs.DartMethods
import Verif.Props.DartTyping
namespace TPB.Props
open Spec

/-- With enough stack, `const XBuffersFactory().createDefault()` returns the object `d`. -/
def ReturnsDefault (rt : Dart.Runtime) (P : Dart.Prog) (id : String) (d : Val) : Prop :=
  ∃ N, ∀ k, N ≤ k → Dart.newVal rt P k (.factory id) = .ok d

/-- **C89 (partial).** The factory of a type of the schema that does not contain itself returns an object, and the object
represents the default value of the type.
Missing: schemas whose names cannot be told apart in Dart, with a type that contains itself, with `Vec` of other than
one type, or with a variant with parentheses but no payload. -/
theorem C89_default_partial (x : Ext) (rt : Dart.Runtime) (hrt : rt.Lawful) (hL : EmptyLists rt) (S : List ASTNode)
    (hA : Accepted S) (hN : DartNamed x S) (hV : ListsOfOne S) :
    ∃ P, Dart.Emits x S P ∧ ∀ id ∈ typeNames S, Built S id → ∃ v d, ReturnsDefault rt P id d ∧
      Represents x S (.other id) v d ∧ DefaultOf (dartDefaults rt) (dartSchema S) [.other id] [v] := by
  refine ⟨_, Dart.emits_genProg hA, fun id hid hB => ?_⟩
  obtain ⟨N, d, ⟨vs, h1, h2⟩, h3⟩ := Dart.def_declared (x := x) hrt hL (Dart.plain_of_accepted hA) hN hV hB hid
  obtain ⟨v, rfl⟩ : ∃ v, vs = [v] := List.length_eq_one_iff.1 (by simpa using h1.length_eq.1.symm)
  exact ⟨v, d, ⟨N, h3⟩, h1, h2⟩

/-- **C89, when a factory returns.** The factory of a type returns an object exactly if the type does not contain itself,
directly or through other types of the schema (lists do not count), and no variant of an enum that it contains has
parentheses or braces with nothing between them. -/
theorem C89_returns_iff (x : Ext) (rt : Dart.Runtime) (hrt : rt.Lawful) (S : List ASTNode) (hA : Accepted S)
    (hN : DartNamed x S) :
    ∃ P, Dart.Emits x S P ∧ ∀ id ∈ typeNames S, (∃ d, ReturnsDefault rt P id d) ↔ Built S id := by
  refine ⟨_, Dart.emits_genProg hA, fun id hid => ⟨fun ⟨d, N, h⟩ => ?_, fun hB => ?_⟩⟩
  · exact Dart.built_of_returns (Dart.plain_of_accepted hA) hN N id d hid (h N (Nat.le_refl N))
  · obtain ⟨N, d, -, h⟩ := Dart.new_built (rt := rt) hrt (Dart.plain_of_accepted hA) hN hB hid
    exact ⟨d, N, h⟩

/-- The default of an enum is its first variant: of the methods `isV` only that of the first variant returns true. -/
theorem C89_first_variant_partial (x : Ext) (rt : Dart.Runtime) (hrt : rt.Lawful) (hL : EmptyLists rt) (S : List ASTNode)
    (hA : Accepted S) (hN : DartNamed x S) (hV : ListsOfOne S) (hE : ∀ n, .enum n ∈ S → DartRules.EnumOk x n) :
    ∃ P, Dart.Emits x S P ∧ ∀ n, .enum n ∈ S → Built S n.id → ∃ first rest d, n.items = first :: rest ∧ ReturnsDefault rt P n.id d ∧
      Dart.callIs P n.id ("is" ++ x.pascal first.id) d = .ok true ∧
      ∀ j ∈ n.items, j.id ≠ first.id → Dart.callIs P n.id ("is" ++ x.pascal j.id) d = .ok false := by
  have hS := Dart.plain_of_accepted hA
  refine ⟨_, Dart.emits_genProg hA, fun n hn hB => ?_⟩
  obtain ⟨N, d, ⟨vs, h1, h2⟩, h3⟩ := Dart.def_declared (x := x) hrt hL hS hN hV hB (Dart.enum_typeName hn)
  have hnd : (typeNames S).Nodup := (List.nodup_append.1 (Dart.classes_nodup hN)).1
  obtain ⟨first, pl, hf, rfl⟩ : ∃ first pl, n.items.head? = some first ∧ vs = [.enum n.id first.id pl] := by
    simp only [List.map_singleton, dartView] at h2
    generalize hid : n.id = id at h2
    cases h2 with
    | leaf _ _ _ _ h _ => simp [zeroOf] at h
    | struct m _ _ _ hm _ _ =>
      obtain ⟨m', hm', rfl⟩ := Dart.view_struct_mem hm
      exact absurd hid.symm (Dart.struct_enum_ne hnd hm' hn :)
    | enum m i pvs _ _ hm hi _ h' =>
      cases h'
      obtain ⟨m', hm', rfl⟩ := Dart.view_enum_mem hm
      have : m' = n := Dart.enum_unique hnd hm' hn hid.symm
      subst this
      cases hh : m'.items with
      | nil => simp [hh] at hi
      | cons j is =>
        simp only [hh, List.map_cons, List.head?_cons, Option.some.injEq] at hi
        subst hi
        exact ⟨j, _, rfl, by rw [Dart.viewItem_id]⟩
    | ext _ _ _ _ h _ _ => exact absurd (by rw [Dart.typeNames_view, ← hid]; exact Dart.enum_typeName hn) h
  obtain ⟨rest, hr⟩ : ∃ rest, n.items = first :: rest := by
    cases hh : n.items with
    | nil => simp [hh] at hf
    | cons j is => exact ⟨is, by simpa [hh] using hf⟩
  refine ⟨first, rest, d, hr, ⟨N, h3⟩, ?_, fun j hj hne => ?_⟩
  · simpa using Dart.is_one hS hN (hE n hn) hn (j := first) (by simp [hr]) h1
  · simpa [hne] using Dart.is_one hS hN (hE n hn) hn hj h1

/-! ### Example -/

/-- The example library with empty lists as defaults. -/
def listRuntime : Dart.Runtime :=
  { LE.dart with newX := fun id => if "List<".toList.isPrefixOf id.toList then some (.list 0 []) else some (.ext id 0) }

theorem listRuntime_lawful : listRuntime.Lawful :=
  { LE.dart_lawful with new := fun id => by simp only [listRuntime]; split <;> rfl }

theorem listRuntime_empty : EmptyLists listRuntime := by
  intro args
  simp only [listRuntime]
  rw [if_pos]
  simp

theorem dartExample_lists : ListsOfOne dartExample := by
  intro d hd gs hg
  simp only [dartExample, List.mem_cons, List.not_mem_nil, or_false] at hd
  rcases hd with rfl | rfl | rfl <;> simp [directTypes, fieldsOf, payload] at hg
  simp [hg]

/-- Non-vacuity: the default of the example enum `Shape` is `None`. -/
example : ∃ P d, Dart.Emits testExt dartExample P ∧ ReturnsDefault listRuntime P "Shape" d ∧
    Dart.callIs P "Shape" "isNone" d = .ok true ∧ Dart.callIs P "Shape" "isRect" d = .ok false := by
  have hm : ASTNode.enum ⟨"Shape", [.empty 3 "None", .tuple 7 "Circle" [⟨0, .other "Point"⟩, ⟨1, .number "f64" 8⟩],
      .struct 1 "Rect" [⟨0, "a", .other "Point"⟩, ⟨1, "b", .bool "bool"⟩]]⟩ ∈ dartExample := by simp [dartExample]
  have hr : "is" ++ testExt.pascal "None" = "isNone" ∧ "is" ++ testExt.pascal "Rect" = "isRect" := by decide +kernel
  obtain ⟨P, hP, h⟩ := C89_first_variant_partial testExt listRuntime listRuntime_lawful listRuntime_empty dartExample
    dartExample_accepted dartExample_named dartExample_lists dartExample_typable.enums
  obtain ⟨first, rest, d, h1, h2, h3, h4⟩ := h _ hm (Dart.built_of_hasDefaults dartExample_defaults _)
  obtain ⟨rfl, -⟩ := List.cons.inj h1
  refine ⟨P, d, hP, h2, by rw [← hr.1]; exact h3, ?_⟩
  rw [← hr.2]
  exact h4 (.struct 1 "Rect" [⟨0, "a", .other "Point"⟩, ⟨1, "b", .bool "bool"⟩]) (by simp) (by simp [EnumItem.id])

/-- The default `Point` is `Point { name: .., x_pos: 0, path: [] }`, and its factory returns a representation. -/
example : DefaultOf (dartDefaults listRuntime) (dartSchema dartExample) [.other "Point"] [dPoint 0 [] 0] :=
  .struct ⟨"Point", [⟨0, "name", .other "String"⟩, ⟨1, "x_pos", .integer "Int32" 4 true⟩,
      ⟨2, "path", .generic "Vec" [.other "Point"]⟩], true, true⟩ [.ext "String" 0, .int 0, .list 0 []] _ _
    (by simp [dartExample, dartSchema, viewDecl, viewField, dartView, dartPrim, dartElem])
    (.ext _ _ _ _ (by decide) (by simp only [dartDefaults, listRuntime]; rw [if_neg (by decide +kernel)]) (.leaf _ _ _ _ rfl (.list "Vec" _ 0 [] [] _ _ rfl rfl .nil .nil))) .nil

/-! ### The hypothesis on recursive types is needed -/

/-- `struct R { next: R }` -/
def endlessSchema : List ASTNode := [.struct ⟨"R", [⟨0, "next", .other "R"⟩], true, true⟩]

theorem endlessSchema_accepted : Accepted endlessSchema :=
  ⟨[.kwStruct, .id "R", .sym '{', .id "next", .sym ':', .id "R", .sym '}', .eof], rfl⟩

/-- **C89, refuted.** `createDefault()` of a struct that contains itself never returns: it needs more than any number of
nested calls. -/
theorem C89_endless (x : Ext) (rt : Dart.Runtime) : Accepted endlessSchema ∧
    Dart.Emits x endlessSchema (Dart.genProg x endlessSchema) ∧
    ∀ k, Dart.newVal rt (Dart.genProg x endlessSchema) k (.factory "R") = .error .fuel := by
  refine ⟨endlessSchema_accepted, Dart.emits_genProg endlessSchema_accepted, fun k => ?_⟩
  have hc : (Dart.genProg x endlessSchema).struct? "R"
      = some (Dart.genStructClass x ⟨"R", [⟨0, "next", .other "R"⟩], true, true⟩) := rfl
  have key : ∀ k, Dart.newVal rt (Dart.genProg x endlessSchema) k (.factory "R") = .error .fuel ∧
      Dart.newVal rt (Dart.genProg x endlessSchema) k (.createDefault "R") = .error .fuel := by
    intro k
    induction k with
    | zero => exact ⟨rfl, rfl⟩
    | succ k ih =>
      constructor
      · simp only [Dart.newVal, hc]
        exact ih.2
      · simp only [Dart.newVal, hc, Dart.genStructClass, List.map_cons, List.map_nil, List.isEmpty_cons, Bool.false_eq_true,
          if_false, Dart.genDef, Dart.each, Dart.evalInit, Dart.evalDef, ih.1]
        rfl
  exact (key k).1

theorem not_built_self {S : List ASTNode} {d : ASTNode} (hd : d ∈ S) {id : String} (he : declName d = some id)
    (ht : .other id ∈ directTypes d) (hn : id ∈ typeNames S) : ¬ Built S id := by
  intro hB
  induction hB with
  | mk id _ _ ih => exact ih d hd he id ht hn he ht hn

/-- `enum Tree { Leaf, Node { next: Tree } }  struct Size { width: i32 }` -/
def treeSchema : List ASTNode :=
  [.enum ⟨"Tree", [.empty 0 "Leaf", .struct 1 "Node" [⟨0, "next", .other "Tree"⟩]]⟩,
   .struct ⟨"Size", [⟨0, "width", .integer "i32" 4 true⟩], true, true⟩]

theorem treeSchema_accepted : Accepted treeSchema :=
  ⟨[.kwEnum, .id "Tree", .sym '{', .id "Leaf", .sym ',', .id "Node", .sym '{', .id "next", .sym ':', .id "Tree", .sym '}',
    .sym '}', .kwStruct, .id "Size", .sym '{', .id "width", .sym ':', .id "i32", .sym '}', .eof], rfl⟩

theorem treeSchema_named : DartNamed testExt treeSchema where
  classes := by decide +kernel
  fields := by
    intro n hn
    simp only [treeSchema, List.mem_cons, List.not_mem_nil, or_false, reduceCtorEq, false_or, ASTNode.struct.injEq] at hn
    subst hn
    decide +kernel
  variants := by
    intro n hn
    simp only [treeSchema, List.mem_cons, List.not_mem_nil, or_false, reduceCtorEq, ASTNode.enum.injEq] at hn
    subst hn
    decide +kernel
  payloads := by
    intro n hn
    simp only [treeSchema, List.mem_cons, List.not_mem_nil, or_false, reduceCtorEq, ASTNode.enum.injEq] at hn
    subst hn
    decide +kernel
  plain := by decide +kernel
  lists := by decide +kernel
  structLib := by
    intro n hn f hf
    simp only [treeSchema, List.mem_cons, List.not_mem_nil, or_false, reduceCtorEq, false_or, ASTNode.struct.injEq] at hn
    subst hn
    simp only [fieldsOf, List.map_cons, List.map_nil, List.mem_singleton] at hf
    subst hf
    trivial
  enumLib := by
    intro n hn i hi f hf
    simp only [treeSchema, List.mem_cons, List.not_mem_nil, or_false, reduceCtorEq, ASTNode.enum.injEq] at hn
    subst hn
    simp only [List.mem_cons, List.not_mem_nil, or_false] at hi
    rcases hi with rfl | rfl
    · simp [payload] at hf
    · simp only [payload, List.map_cons, List.map_nil, List.mem_singleton] at hf
      subst hf
      show "Tree" ∉ variantClasses treeSchema
      decide +kernel

/-- **C89, refuted again.** The first variant of `Tree` has no payload, so `Leaf` is the default value of the type; but
the Dart object keeps an object for every variant, and `createDefault()` of `Tree` does not return.  The factory of
`Size`, declared in the same file, does. -/
theorem C89_all_variants (rt : Dart.Runtime) (hrt : rt.Lawful) :
    Accepted treeSchema ∧ DartNamed testExt treeSchema ∧
    DefaultOf (dartDefaults rt) (dartSchema treeSchema) [.other "Tree"] [.enum "Tree" "Leaf" []] ∧
    ∃ P, Dart.Emits testExt treeSchema P ∧ (¬ ∃ d, ReturnsDefault rt P "Tree" d) ∧ ∃ d, ReturnsDefault rt P "Size" d := by
  obtain ⟨P, hP, h⟩ := C89_returns_iff testExt rt hrt treeSchema treeSchema_accepted treeSchema_named
  refine ⟨treeSchema_accepted, treeSchema_named, ?_, P, hP, ?_, ?_⟩
  · exact .enum ⟨"Tree", [.empty 0 "Leaf", .struct 1 "Node" [⟨0, "next", .other "Tree"⟩]]⟩ (.empty 0 "Leaf") [] [] []
      (by simp [treeSchema, dartSchema, viewDecl, viewItem, viewField, dartView]) rfl .nil .nil
  · rw [h "Tree" (by decide +kernel)]
    exact not_built_self (d := .enum ⟨"Tree", [.empty 0 "Leaf", .struct 1 "Node" [⟨0, "next", .other "Tree"⟩]]⟩)
      (by simp [treeSchema]) rfl (by simp [directTypes, payload]) (by decide +kernel)
  · refine (h "Size" (by decide +kernel)).2 (.mk _ (fun n hn he => ?_) (fun d hd he t ht => ?_))
    · simp only [treeSchema, List.mem_cons, List.not_mem_nil, or_false, reduceCtorEq, ASTNode.enum.injEq] at hn
      subst hn
      simp at he
    · simp only [treeSchema, List.mem_cons, List.not_mem_nil, or_false] at hd
      rcases hd with rfl | rfl
      · simp [declName] at he
      · simp [directTypes, fieldsOf] at ht

/-! ## C25: types without default objects -/

/-- **C25, when there is no default object.** The emitted code never reads a value of an enum that contains itself (the
default object is created first), and there are no objects of such a type. -/
theorem C25_endless (x : Ext) (rt : Dart.Runtime) (S : List ASTNode) (hA : Accepted S) (hN : DartNamed x S)
    (hF : VariantsFilled S) :
    ∃ P, Dart.Emits x S P ∧ ∀ n, .enum n ∈ S → ¬ Built S n.id →
      (∀ v d, ¬ Represents x S (.other n.id) v d) ∧ ∀ bs d r, ¬ Dart.Reads rt P (.other n.id) bs d r := by
  have hS := Dart.plain_of_accepted hA
  refine ⟨_, Dart.emits_genProg hA, fun n hn hB => ⟨fun v d h => hB ?_, fun bs d r ⟨N, h⟩ => hB ?_⟩⟩
  · exact Dart.dobj_built hN hF (Spec.DRep.obj h) n.id (Dart.enum_typeName hn) (by simp [dartView])
  · have h := h (N + 1) (by omega)
    simp only [Dart.readT, Dart.genRead, Dart.evalReadE, Dart.readers, Dart.codec_enum_into hS hN hn, Dart.evalRead,
      Dart.genEnumInto, bind, Except.bind] at h
    split at h
    · cases h
    · split at h
      · cases hnew : Dart.newVal rt (Dart.genProg x S) N (.enum n.id) with
        | error e => simp [hnew] at h
        | ok m =>
          obtain ⟨f, -, hc⟩ := Dart.enum_class hS hN hn
          refine Dart.built_of_returns (rt := rt) hS hN (N + 1) n.id m (Dart.enum_typeName hn) ?_
          simp only [Dart.newVal, Dart.enum_not_struct hS hN hn, hc]
          exact hnew
      · cases h

theorem treeSchema_filled : VariantsFilled treeSchema := by
  intro n hn i hi he
  simp only [treeSchema, List.mem_cons, List.not_mem_nil, or_false, reduceCtorEq, ASTNode.enum.injEq] at hn
  subst hn
  simp only [List.mem_cons, List.not_mem_nil, or_false] at hi
  rcases hi with rfl | rfl
  · exact ⟨_, _, rfl⟩
  · simp [payload] at he

/-- **C25 refuted again.** `Leaf` is a value of `Tree`, but the emitted Dart code never reads it. -/
theorem C25_recursive_enum (rt : Dart.Runtime) :
    Accepted treeSchema ∧ DartNamed testExt treeSchema ∧ DartValue rt treeSchema (.other "Tree") (.enum "Tree" "Leaf" []) ∧
    ∃ P, Dart.Emits testExt treeSchema P ∧ (∀ v d, ¬ Represents testExt treeSchema (.other "Tree") v d) ∧
      ∀ bs d r, ¬ Dart.Reads rt P (.other "Tree") bs d r := by
  obtain ⟨P, hP, h⟩ := C25_endless testExt rt treeSchema treeSchema_accepted treeSchema_named treeSchema_filled
  refine ⟨treeSchema_accepted, treeSchema_named, ?_, P, hP, ?_⟩
  · exact .enum ⟨"Tree", [.empty 0 "Leaf", .struct 1 "Node" [⟨0, "next", .other "Tree"⟩]]⟩ (.empty 0 "Leaf") [] [] []
      (by simp [treeSchema, dartSchema, viewDecl, viewItem, viewField, dartView]) (by simp) .nil .nil
  · exact h _ (by simp [treeSchema]) (not_built_self
      (d := .enum ⟨"Tree", [.empty 0 "Leaf", .struct 1 "Node" [⟨0, "next", .other "Tree"⟩]]⟩)
      (by simp [treeSchema]) rfl (by simp [directTypes, payload]) (by decide +kernel))

/-- Non-vacuity of C25 for objects, in a schema with a type that contains itself: an object of `Size` is written and read. -/
example : ∃ P bs d, Dart.Emits testExt treeSchema P ∧
    Dart.Writes LE.dart P .into (.other "Size") (.struct "Size" [("width", .int 7)]) bs ∧
    Represents testExt treeSchema (.other "Size") (.struct "Size" [("width", .int 7)]) d ∧
    Dart.Reads LE.dart P (.other "Size") (bs ++ [42]) d [42] := by
  obtain ⟨P, hP, h⟩ := C25_objects_partial testExt LE.dart LE.dart_lawful treeSchema treeSchema_accepted treeSchema_named
    treeSchema_filled (by
      intro n hn
      simp only [treeSchema, List.mem_cons, List.not_mem_nil, or_false, reduceCtorEq, ASTNode.enum.injEq] at hn
      subst hn
      decide) (by
      intro n hn
      simp only [treeSchema, List.mem_cons, List.not_mem_nil, or_false, reduceCtorEq, ASTNode.enum.injEq] at hn
      subst hn
      decide)
  have hm : .struct ⟨"Size", [⟨0, "width", .integer "Int32" 4 true⟩], true, true⟩ ∈ dartSchema treeSchema := by
    simp [treeSchema, dartSchema, viewDecl, viewItem, viewField, dartView, dartPrim]
  have hv : DartValue LE.dart treeSchema (.other "Size") (.struct "Size" [("width", .int 7)]) :=
    .struct _ [.int 7] [] [] hm (.leaf _ _ _ _ ⟨by decide, by decide⟩ .nil) .nil
  have hd : Represents testExt treeSchema (.other "Size") (.struct "Size" [("width", .int 7)])
      (.struct "Size" [("width", .int 7)]) :=
    .struct ⟨"Size", [⟨0, "width", .integer "Int32" 4 true⟩], true, true⟩ [.int 7] [.int 7] [] [] [] hm
      (.leaf _ _ _ _ _ rfl .nil) .nil
  obtain ⟨bs, h1, d', h2, h3⟩ := h (.other "Size") (.name "Size")
    (Dart.declared_free treeSchema_named (by decide +kernel)) _ _ hv hd
  exact ⟨P, bs, d', hP, h1, h2, h3 [42]⟩

end TPB.Props
