/-
C76: when the Kotlin and Swift compilers accept the emitted models.
-/
import Verif.Proofs.SwiftTyping
namespace TPB.Props
open Spec

/-! ## Kotlin -/

/-- **C76, Kotlin, part.** For every accepted schema: the text declares the types of the schema, and its names and
types are accepted exactly if the schema fits (`Kotlin.Fit`).  Missing: the schemas that do not fit, see the theorems
below; and schemas where the name of one declaration becomes by accident the name of another (`Kotlin.NoAccidents`). -/
theorem C76_kotlin_partial (x : ExtF) (L : KotlinLib) (hL : L.Std) (ts : List Token) (S : List ASTNode)
    (h : parse ts = .ok S) (N : Kotlin.NoAccidents x S) :
    ∃ out F, KotlinGen.models x S = .ok out ∧ Kotlin.IsText F out ∧
      Kotlin.File (Kotlin.Declares (kotlinDeclared x) (kotlinUsed x)) S F ∧ (Kotlin.Typed L F ↔ Kotlin.Fit L x S) := by
  have hw := accepted_decls h
  obtain ⟨out, ho⟩ := KotlinGen.ok_models (x := x) hw
  refine ⟨out, _, ho, KotlinGen.models_text x S out ho, KotlinModels.file (fun d hd => ?_), KotlinTyping.typed_iff hw hL N⟩
  obtain ⟨k, hk⟩ := hw d hd
  exact KotlinModels.declares hk

/-- The schemas with one of these do not fit: -/
inductive KotlinMisfit (x : ExtF) (S : List ASTNode) : Prop
  /-- a struct whose name is not in Pascal case -/
  | struct {n} : .struct n ∈ S → x.pascal n.id ≠ n.id → KotlinMisfit x S
  /-- the name of an enum with the name of its first variant is not in Pascal case -/
  | first {n i} : .enum n ∈ S → i ∈ n.items.head? → x.pascal (n.id ++ i.id) ≠ n.id ++ i.id → KotlinMisfit x S
  /-- a field of a first variant that is not in camel case -/
  | firstField {n p id fs f} : .enum n ∈ S → .struct p id fs ∈ n.items.head? → f ∈ fs → x.camel f.name ≠ f.name → KotlinMisfit x S
  /-- a struct has a character -/
  | char {n f c} : .struct n ∈ S → f ∈ n.fields → f.typeId = .char c → KotlinMisfit x S
  /-- a struct has an address -/
  | address {n f id} : .struct n ∈ S → f ∈ n.fields → f.typeId = .other id → IsAddress id → KotlinMisfit x S
  /-- a type is called like an address -/
  | named {id} : Own S id → IsAddress id → KotlinMisfit x S
  /-- a variant `A()` -/
  | parens {n i} : .enum n ∈ S → i ∈ n.items → EmptyParens i → KotlinMisfit x S
  /-- a type is called like the Kotlin name of the type of a field -/
  | hidden {n f k} : .struct n ∈ S → f ∈ n.fields → BuiltinName kotlinNames f.typeId k → k ∈ Kotlin.declaredNames x S →
      KotlinMisfit x S
  /-- a variant has the name of a type: `enum A { B }` and `struct AB` -/
  | twice : ¬ (Kotlin.declaredNames x S).Nodup → KotlinMisfit x S
  /-- a field that is a Kotlin keyword -/
  | keyword {n f} : .struct n ∈ S → f ∈ n.fields → x.camel f.name ∈ kotlinReserved → KotlinMisfit x S

theorem kotlin_misfit (x : ExtF) (L : KotlinLib) (S : List ASTNode) (h : KotlinMisfit x S) : ¬ Kotlin.Fit L x S := by
  intro F
  cases h with
  | struct h1 h2 => exact h2 (F.structs _ h1)
  | first h1 h2 h3 => exact h3 (F.firsts _ h1 _ h2).1
  | firstField h1 h2 h3 h4 => exact h4 ((F.firsts _ h1 _ h2).2 _ _ _ rfl _ h3)
  | char h1 h2 h3 =>
    have := F.defaults _ h1 _ (List.mem_map_of_mem h2)
    rw [h3] at this
    cases this with
    | builtin _ h => exact h _ rfl
  | address h1 h2 h3 h4 =>
    have := F.defaults _ h1 _ (List.mem_map_of_mem h2)
    rw [h3] at this
    cases this with
    | builtin h => exact absurd rfl ((KotlinTyping.builtin_shape h).1 _)
    | string => simp [IsAddress] at h4
    | own h => exact h h4
    | lib h => exact h h4
  | named h1 h2 => exact F.own _ h1 h2
  | parens h1 h2 h3 => exact F.parens _ h1 _ h2 h3
  | @hidden n f k h1 h2 h3 h4 =>
    have := F.defaults _ h1 _ (List.mem_map_of_mem h2)
    generalize f.typeId = t at *
    cases this with
    | builtin h5 _ h6 =>
      have e1 := (KotlinTyping.builtin_ty (L := L) h3).1
      rw [(KotlinTyping.builtin_ty (L := L) h5).1] at e1
      cases e1
      exact h6 h4
    | string => exact absurd rfl ((KotlinTyping.builtin_shape h3).1 _)
    | own => exact absurd rfl ((KotlinTyping.builtin_shape h3).1 _)
    | lib => exact absurd rfl ((KotlinTyping.builtin_shape h3).1 _)
    | list => exact absurd rfl ((KotlinTyping.builtin_shape h3).2 _ _)
    | generic => exact absurd rfl ((KotlinTyping.builtin_shape h3).2 _ _)
  | twice h => exact h F.once
  | keyword h1 h2 h3 => exact ((F.fields _ h1).2 _ h2).1 h3

/-- **C76, Kotlin.** The models of the schemas of `KotlinMisfit` are never accepted, whatever the libraries are. -/
theorem C76_kotlin_misfit (x : ExtF) (L : KotlinLib) (hL : L.Std) (ts : List Token) (S : List ASTNode)
    (h : parse ts = .ok S) (N : Kotlin.NoAccidents x S) (hm : KotlinMisfit x S) :
    ∃ out F, KotlinGen.models x S = .ok out ∧ Kotlin.IsText F out ∧
      Kotlin.File (Kotlin.Declares (kotlinDeclared x) (kotlinUsed x)) S F ∧ ¬ Kotlin.Typed L F := by
  obtain ⟨out, F, h1, h2, h3, h4⟩ := C76_kotlin_partial x L hL ts S h N
  exact ⟨out, F, h1, h2, h3, fun hT => kotlin_misfit x L S hm (h4.1 hT)⟩

/-! ## Swift -/

/-- **C76, Swift, part.** The same for Swift. -/
theorem C76_swift_partial (x : ExtF) (hx : x.camel "createDefault" = "createDefault") (L : SwiftLib) (hL : L.Std)
    (ts : List Token) (S : List ASTNode) (h : parse ts = .ok S) (N : Swift.NoAccidents x S) :
    ∃ out F, SwiftGen.models x S = .ok out ∧ Swift.IsText F out ∧
      Swift.File (Swift.Declares Swift.namesWithChar (swiftDeclared x) (swiftUsed x)) S F ∧ (Swift.Typed L F ↔ Swift.Fit L x S) := by
  have hw := accepted_decls h
  obtain ⟨out, ho⟩ := SwiftGen.ok_models (x := x) hw
  refine ⟨out, _, ho, SwiftGen.models_text x hx S out ho, SwiftModels.file (fun d hd => ?_), SwiftTyping.typed_iff hw hL N⟩
  obtain ⟨k, hk⟩ := hw d hd
  exact SwiftModels.declares hk

/-- The schemas with one of these do not fit: -/
inductive SwiftMisfit (L : SwiftLib) (x : ExtF) (S : List ASTNode) : Prop
  /-- a type whose name is not in Pascal case -/
  | type {id} : Own S id → x.pascal id ≠ id → SwiftMisfit L x S
  /-- a struct or a variant has a character; nobody declares a type `char` -/
  | char {d c} : d ∈ S → .char c ∈ directTypes d → "char" ∉ Swift.declaredNames x S → ¬ L.types "char" 0 → SwiftMisfit L x S
  /-- a struct has an address -/
  | address {n f id} : .struct n ∈ S → f ∈ n.fields → f.typeId = .other id → IsAddress id → SwiftMisfit L x S
  /-- a type is called like an address -/
  | named {id} : Own S id → IsAddress id → SwiftMisfit L x S
  /-- a first variant `A()` -/
  | parens {n i} : .enum n ∈ S → i ∈ n.items.head? → EmptyParens i → SwiftMisfit L x S
  /-- a struct contains itself -/
  | self {n f} : .struct n ∈ S → f ∈ n.fields → f.typeId = .other n.id → SwiftMisfit L x S
  /-- a struct contains another one that contains the first -/
  | mutual {n m f g} : .struct n ∈ S → .struct m ∈ S → f ∈ n.fields → g ∈ m.fields → f.typeId = .other m.id →
      g.typeId = .other n.id → SwiftMisfit L x S
  /-- a variant of an enum contains the enum -/
  | recursive {n i q} : .enum n ∈ S → i ∈ n.items → q ∈ payload i → q.2 = .other n.id → SwiftMisfit L x S
  /-- a variant `CreateDefault` -/
  | variant {n i} : .enum n ∈ S → i ∈ n.items → x.camel i.id = "createDefault" → SwiftMisfit L x S
  /-- a field that is a Swift keyword -/
  | keyword {n f} : .struct n ∈ S → f ∈ n.fields → x.camel f.name ∈ swiftReserved → SwiftMisfit L x S

theorem swift_contains {L : SwiftLib} {x : ExtF} {S : List ASTNode} (F : Swift.Fit L x S) :
    ∃ rank : String → Nat, ∀ d ∈ S, ∀ name, declName d = some name → ∀ id, .other id ∈ directTypes d → Own S id →
      rank id < rank name := by
  obtain ⟨rank, hr⟩ := F.sized
  refine ⟨rank, fun d hd name hn id hi ho => hr d hd name hn _ hi id (.other (F.spelled id ho).2) ?_⟩
  rw [← (F.spelled id ho).1]
  refine List.mem_map_of_mem ?_
  simp only [typeNames, List.mem_filterMap]
  rcases ho with ⟨n, hn, rfl⟩ | ⟨n, hn, rfl⟩
  · exact ⟨_, hn, rfl⟩
  · exact ⟨_, hn, rfl⟩

theorem swift_misfit (x : ExtF) (L : SwiftLib) (S : List ASTNode) (h : SwiftMisfit L x S) : ¬ Swift.Fit L x S := by
  intro F
  obtain ⟨rank, hr⟩ := swift_contains F
  have field {n : StructNode} {f : StructField} (hf : f ∈ n.fields) : f.typeId ∈ directTypes (.struct n) := by
    simp only [directTypes, fieldsOf, List.map_map]
    exact List.mem_map.2 ⟨f, hf, rfl⟩
  cases h with
  | type h1 h2 => exact h2 (F.spelled _ h1).1
  | char h1 h2 h3 h4 =>
    cases F.exist _ h1 _ h2 with
    | builtin _ h => exact h _ rfl
    | char h => exact h.elim h3 h4
  | address h1 h2 h3 h4 =>
    have := F.defaults _ h1 _ (List.mem_map_of_mem h2)
    rw [h3] at this
    cases this with
    | builtin h => exact absurd rfl ((SwiftTyping.builtin_shape h).1 _)
    | string => simp [IsAddress] at h4
    | vec => simp [IsAddress] at h4
    | own h => exact h h4
    | lib h => exact h h4
  | named h1 h2 => exact (F.spelled _ h1).2 h2
  | parens h1 h2 h3 => exact F.parens _ h1 _ h2 h3
  | self h1 h2 h3 => exact Nat.lt_irrefl _ (hr _ h1 _ rfl _ (h3 ▸ field h2) (.inl ⟨_, h1, rfl⟩))
  | «mutual» h1 h2 h3 h4 h5 h6 =>
    have a := hr _ h1 _ rfl _ (h5 ▸ field h3) (.inl ⟨_, h2, rfl⟩)
    have b := hr _ h2 _ rfl _ (h6 ▸ field h4) (.inl ⟨_, h1, rfl⟩)
    omega
  | @recursive n i q h1 h2 h3 h4 =>
    have : TypeId.other n.id ∈ directTypes (.enum n) := by
      simp only [directTypes, List.mem_flatMap]
      exact ⟨i, h2, List.mem_map.2 ⟨q, h3, h4⟩⟩
    exact Nat.lt_irrefl _ (hr _ h1 _ rfl _ this (.inr ⟨_, h1, rfl⟩))
  | variant h1 h2 h3 => exact F.cases _ h1 _ h2 (by rw [h3]; decide)
  | keyword h1 h2 h3 => exact (F.members _ h1).2 _ (List.mem_map.2 ⟨_, h2, rfl⟩) h3

/-- **C76, Swift.** The models of the schemas of `SwiftMisfit` are never accepted. -/
theorem C76_swift_misfit (x : ExtF) (hx : x.camel "createDefault" = "createDefault") (L : SwiftLib) (hL : L.Std)
    (ts : List Token) (S : List ASTNode) (h : parse ts = .ok S) (N : Swift.NoAccidents x S) (hm : SwiftMisfit L x S) :
    ∃ out F, SwiftGen.models x S = .ok out ∧ Swift.IsText F out ∧
      Swift.File (Swift.Declares Swift.namesWithChar (swiftDeclared x) (swiftUsed x)) S F ∧ ¬ Swift.Typed L F := by
  obtain ⟨out, F, h1, h2, h3, h4⟩ := C76_swift_partial x hx L hL ts S h N
  exact ⟨out, F, h1, h2, h3, fun hT => swift_misfit x L S hm (h4.1 hT)⟩

/-! ## Examples -/

/-- `struct Drawing { x: i32, tags: Vec<String>, mark: Mark }  enum Mark { Circle(f64), Named { title: String }, Nothing }` -/
def drawing : List ASTNode :=
  [.struct ⟨"Drawing", [⟨0, "x", .integer "i32" 4 true⟩, ⟨1, "tags", .generic "Vec" [.other "String"]⟩, ⟨2, "mark", .other "Mark"⟩],
      true, true⟩,
   .enum ⟨"Mark", [.tuple 0 "Circle" [⟨0, .number "f64" 8⟩], .struct 1 "Named" [⟨0, "title", .other "String"⟩], .empty 2 "Nothing"]⟩]

def drawingToks : List Token :=
  [.kwStruct, .id "Drawing", .sym '{', .id "x", .sym ':', .id "i32", .sym ',', .id "tags", .sym ':', .id "Vec", .sym '<',
   .id "String", .sym '>', .sym ',', .id "mark", .sym ':', .id "Mark", .sym '}',
   .kwEnum, .id "Mark", .sym '{', .id "Circle", .sym '(', .id "f64", .sym ')', .sym ',', .id "Named", .sym '{', .id "title",
   .sym ':', .id "String", .sym '}', .sym ',', .id "Nothing", .sym '}', .eof]

/-- The Kotlin standard library, as far as it is used. -/
def kotlinStd : KotlinLib where
  types := fun id n => (id ∈ kotlinNames.map (·.2) ∧ n = 0) ∨ (id = "String" ∧ n = 0) ∨ (id = "List" ∧ n = 1)
  defaults := fun _ _ => False
  others := []

theorem kotlinStd_ok : kotlinStd.Std := by
  refine ⟨fun p hp => .inl ⟨List.mem_map_of_mem hp, rfl⟩, fun n => ⟨?_, fun h => .inr (.inr ⟨rfl, h⟩)⟩⟩
  rintro (⟨h, -⟩ | ⟨h, -⟩ | ⟨-, h⟩)
  · simp [kotlinNames] at h
  · simp at h
  · exact h

example : parse drawingToks = .ok drawing := by rfl

theorem drawing_own : Own drawing "Mark" :=
  .inr ⟨⟨"Mark", [.tuple 0 "Circle" [⟨0, .number "f64" 8⟩], .struct 1 "Named" [⟨0, "title", .other "String"⟩],
    .empty 2 "Nothing"]⟩, by simp [drawing], rfl⟩

theorem drawing_names : Kotlin.declaredNames testExtF drawing = ["Drawing", "Mark", "MarkCircle", "MarkNamed", "MarkNothing"] := by
  decide +kernel

theorem drawing_kotlin : Kotlin.NoAccidents testExtF drawing ∧ Kotlin.Fit kotlinStd testExtF drawing := by
  have hd := drawing_names
  have b1 : BuiltinName kotlinNames (.integer "i32" 4 true) "Int" := ⟨"i32", .int 32 true, rfl, by decide, by decide⟩
  have b2 : BuiltinName kotlinNames (.number "f64" 8) "Double" := ⟨"f64", .float 64, rfl, by decide, by decide⟩
  have p1 : testExtF.pascal "Drawing" = "Drawing" := by decide +kernel
  have p2 : testExtF.pascal ("Mark" ++ "Circle") = "Mark" ++ "Circle" := by decide +kernel
  have hs : Kotlin.TypeExists kotlinStd (Kotlin.declaredNames testExtF drawing) (.other "String") := .lib (.inr (.inl ⟨rfl, rfl⟩))
  have m1 : ∀ n, ASTNode.struct n ∈ drawing → n = ⟨"Drawing", [⟨0, "x", .integer "i32" 4 true⟩, ⟨1, "tags", .generic "Vec" [.other "String"]⟩,
      ⟨2, "mark", .other "Mark"⟩], true, true⟩ := by
    intro n hn
    simpa [drawing] using hn
  have m2 : ∀ n, ASTNode.enum n ∈ drawing → n = ⟨"Mark", [.tuple 0 "Circle" [⟨0, .number "f64" 8⟩],
      .struct 1 "Named" [⟨0, "title", .other "String"⟩], .empty 2 "Nothing"]⟩ := by
    intro n hn
    simpa [drawing] using hn
  refine ⟨⟨?_, ?_, ?_⟩, ⟨?_, ?_, ?_, ?_, ?_, ?_, ?_, ?_, ?_, ?_⟩⟩
  · intro n hn _; rw [m1 n hn]; exact p1
  · intro n hn i hi _; rw [m2 n hn] at hi ⊢; cases hi; exact p2
  · intro n hn p id fs hi; rw [m2 n hn] at hi; cases hi
  · rw [hd]; decide
  · rw [hd]; decide +kernel
  · intro n hn
    rw [m1 n hn]
    decide +kernel
  · intro n hn p id fs hi
    rw [m2 n hn] at hi
    simp at hi
    obtain ⟨-, -, rfl⟩ := hi
    decide +kernel
  · intro n hn i hi
    rw [m2 n hn] at hi
    simp at hi
    rcases hi with rfl | rfl | rfl <;> simp [EmptyParens]
  · intro d hdm t ht
    simp only [drawing, List.mem_cons, List.not_mem_nil, or_false] at hdm
    rcases hdm with rfl | rfl
    · simp [directTypes, fieldsOf] at ht
      rcases ht with rfl | rfl | rfl
      · exact .builtin b1
      · exact .list (by rw [hd]; decide) hs
      · exact .own (by rw [hd]; decide)
    · simp [directTypes, payload] at ht
      rcases ht with rfl | rfl
      · exact .builtin b2
      · exact hs
  · intro n hn; rw [m1 n hn]; exact p1
  · intro n hn i hi; rw [m2 n hn] at hi ⊢; cases hi; exact ⟨p2, by simp⟩
  · rintro id (⟨n, hn, rfl⟩ | ⟨n, hn, rfl⟩)
    · rw [m1 n hn]; simp [IsAddress]
    · rw [m2 n hn]; simp [IsAddress]
  · intro d hdm t ht
    simp only [drawing, List.mem_cons, List.not_mem_nil, or_false] at hdm
    rcases hdm with rfl | rfl
    · simp [defaulted] at ht
      rcases ht with rfl | rfl | rfl
      · exact .builtin b1 (by simp) (by rw [hd]; decide)
      · exact .list (by rw [hd]; decide)
      · exact .own (by simp [IsAddress]) (by simp) (by simp) drawing_own
    · simp [defaulted] at ht
      subst ht
      exact .builtin b2 (by simp) (by rw [hd]; decide)

/-- `struct my_type;` does not fit. -/
example : parse [.kwStruct, .id "my_type", .sym ';', .eof] = .ok myType ∧ Kotlin.NoAccidents testExtF myType ∧
    KotlinMisfit testExtF myType := by
  have e : testExtF.pascal "my_type" ≠ "my_type" := by decide +kernel
  have hc : Kotlin.classNames testExtF myType = ["MyType"] := by decide +kernel
  refine ⟨rfl, ⟨?_, by simp [myType], by simp [myType]⟩, .struct (n := ⟨"my_type", [], true, true⟩) (by simp [myType]) e⟩
  intro n hn h
  rw [hc] at h
  simp [myType] at hn
  subst hn
  simp at h

/-- The Swift standard library, as far as it is used. -/
def swiftStd : SwiftLib where
  types := fun id n => (id ∈ swiftNames.map (·.2) ∧ n = 0) ∨ (id = "String" ∧ n = 0)
  defaults := fun _ _ => False
  literals := fun id => if id = "Bool" then ["false"] else if id = "String" then ["\"\""] else
    if id ∈ swiftNames.map (·.2) then ["0"] else []
  boxed := fun _ => False
  others := []

theorem swiftStd_ok : swiftStd.Std := by
  refine ⟨fun p hp => .inl ⟨List.mem_map_of_mem hp, rfl⟩, ?_, by decide, by decide⟩
  intro p hp
  simp only [swiftNames, List.mem_cons, List.not_mem_nil, or_false] at hp
  rcases hp with rfl | rfl | rfl | rfl | rfl | rfl | rfl | rfl | rfl | rfl | rfl | rfl <;> decide

theorem drawing_swift : Swift.NoAccidents testExtF drawing ∧ Swift.Fit swiftStd testExtF drawing := by
  have hd : Swift.declaredNames testExtF drawing = ["Drawing", "Mark"] := by decide +kernel
  have b1 : BuiltinName swiftNames (.integer "i32" 4 true) "Int32" := ⟨"i32", .int 32 true, rfl, by decide, by decide⟩
  have b2 : BuiltinName swiftNames (.number "f64" 8) "Double" := ⟨"f64", .float 64, rfl, by decide, by decide⟩
  have p1 : testExtF.pascal "Drawing" = "Drawing" := by decide +kernel
  have p2 : testExtF.pascal "Mark" = "Mark" := by decide +kernel
  have hs : Swift.TypeExists swiftStd (Swift.declaredNames testExtF drawing) (.other "String") := .lib (.inr ⟨rfl, rfl⟩)
  have m1 : ∀ n, ASTNode.struct n ∈ drawing → n = ⟨"Drawing", [⟨0, "x", .integer "i32" 4 true⟩, ⟨1, "tags", .generic "Vec" [.other "String"]⟩,
      ⟨2, "mark", .other "Mark"⟩], true, true⟩ := by
    intro n hn
    simpa [drawing] using hn
  have m2 : ∀ n, ASTNode.enum n ∈ drawing → n = ⟨"Mark", [.tuple 0 "Circle" [⟨0, .number "f64" 8⟩],
      .struct 1 "Named" [⟨0, "title", .other "String"⟩], .empty 2 "Nothing"]⟩ := by
    intro n hn
    simpa [drawing] using hn
  have ho : ∀ id, Own drawing id → testExtF.pascal id = id ∧ ¬ IsAddress id := by
    rintro id (⟨n, hn, rfl⟩ | ⟨n, hn, rfl⟩)
    · rw [m1 n hn]; exact ⟨p1, by simp [IsAddress]⟩
    · rw [m2 n hn]; exact ⟨p2, by simp [IsAddress]⟩
  have hb {t k} (h : BuiltinName Swift.namesWithChar t k) : k ∉ ["Drawing", "Mark"] := by
    obtain ⟨n, v, -, -, hk⟩ := h
    have : ∀ p ∈ Swift.namesWithChar, p.2 ∉ ["Drawing", "Mark"] := by decide
    exact this _ hk
  refine ⟨⟨fun id h _ => (ho id h).1, fun _ id h => (ho id h).2⟩, ⟨?_, ?_, ?_, ?_, ?_, ho, ?_, ?_, ?_, ?_⟩⟩
  · rw [hd]; decide
  · rw [hd]; decide +kernel
  · intro d hdm
    simp only [drawing, List.mem_cons, List.not_mem_nil, or_false] at hdm
    rcases hdm with rfl | rfl <;> decide +kernel
  · intro n hn i hi
    rw [m2 n hn] at hi
    simp at hi
    rcases hi with rfl | rfl | rfl <;> decide +kernel
  · intro d hdm t ht
    simp only [drawing, List.mem_cons, List.not_mem_nil, or_false] at hdm
    rcases hdm with rfl | rfl
    · simp [directTypes, fieldsOf] at ht
      rcases ht with rfl | rfl | rfl
      · exact .builtin b1 (by simp)
      · exact .list hs
      · exact .own (by rw [hd]; decide)
    · simp [directTypes, payload] at ht
      rcases ht with rfl | rfl
      · exact .builtin b2 (by simp)
      · exact hs
  · intro n hn; rw [m1 n hn]; decide +kernel
  · intro n hn i hi; rw [m2 n hn] at hi; cases hi; simp [EmptyParens]
  · intro d hdm t ht
    simp only [drawing, List.mem_cons, List.not_mem_nil, or_false] at hdm
    rcases hdm with rfl | rfl
    · simp [defaulted] at ht
      rcases ht with rfl | rfl | rfl
      · exact .builtin b1 (by simp) (by rw [hd]; decide)
      · exact .list
      · exact .own (by simp [IsAddress]) (by simp) (by simp) (by decide +kernel) drawing_own
    · simp [defaulted] at ht
      subst ht
      exact .builtin b2 (by simp) (by rw [hd]; decide)
  · refine ⟨fun id => if id = "Drawing" then 1 else 0, fun d hdm name hn t ht id hc hid => ?_⟩
    rw [hd] at hid
    simp only [drawing, List.mem_cons, List.not_mem_nil, or_false] at hdm
    rcases hdm with rfl | rfl
    · cases hn
      simp [directTypes, fieldsOf] at ht
      rcases ht with rfl | rfl | rfl
      · cases hc with
        | builtin h => exact absurd hid (hb h)
      · cases hc with
        | builtin h => exact absurd hid (hb h)
        | arg h => exact absurd rfl h
      · generalize e : TypeId.other "Mark" = u at hc
        cases hc with
        | builtin h => exact absurd hid (hb h)
        | address h => simp at hid
        | other h => cases e; simp
        | arg => cases e
    · cases hn
      simp [directTypes, payload] at ht
      rcases ht with rfl | rfl
      · cases hc with
        | builtin h => exact absurd hid (hb h)
      · generalize e : TypeId.other "String" = u at hc
        cases hc with
        | builtin h => exact absurd hid (hb h)
        | address h => simp at hid
        | other h => cases e; simp at hid
        | arg => cases e

/-- `struct List2 { next: List2 }` does not fit. -/
example : SwiftMisfit swiftStd testExtF [.struct ⟨"List2", [⟨0, "next", .other "List2"⟩], true, true⟩] ∧
    parse [.kwStruct, .id "List2", .sym '{', .id "next", .sym ':', .id "List2", .sym '}', .eof]
      = .ok [.struct ⟨"List2", [⟨0, "next", .other "List2"⟩], true, true⟩] :=
  ⟨.self (n := ⟨"List2", [⟨0, "next", .other "List2"⟩], true, true⟩) (by simp) (List.mem_singleton.2 rfl) rfl, by rfl⟩

end TPB.Props
