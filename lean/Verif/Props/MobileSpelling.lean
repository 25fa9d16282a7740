/-
C44: exactly when the names that Kotlin and Swift models declare are the names that they use.
-/
import Verif.Props.KotlinReader
import Verif.Props.SwiftReader
namespace TPB.Props
open Spec

/-- The names of the schema are in the case that the Kotlin generator gives them: struct names in Pascal case, the
name of an enum followed by its first variant in Pascal case, fields of first variants in camel case.  No struct
and no enum is called like an address type. -/
structure KotlinCased (x : ExtF) (S : List ASTNode) : Prop where
  structs : ∀ n, .struct n ∈ S → x.pascal n.id = n.id
  variants : ∀ n, .enum n ∈ S → ∀ i ∈ n.items.head?, x.pascal (n.id ++ i.id) = n.id ++ i.id
  fields : ∀ n, .enum n ∈ S → ∀ p id fs, n.items.head? = some (.struct p id fs) → ∀ f ∈ fs, x.camel f.name = f.name
  own : ∀ id, Own S id → ¬ IsAddress id

theorem each_get {α β : Type} {R : α → β → Prop} {as : List α} {bs : List β} (h : Each R as bs) :
    ∀ {g : α → β}, bs = as.map g → ∀ a ∈ as, R a (g a) := by
  induction h with
  | nil => intro g _ a ha; simp at ha
  | cons h _ ih =>
    intro g e a ha
    simp only [List.map_cons, List.cons.injEq] at e
    obtain ⟨rfl, e⟩ := e
    rcases List.mem_cons.1 ha with rfl | ha
    · exact h
    · exact ih e a ha

theorem each_length {α β : Type} {R : α → β → Prop} {as : List α} {bs : List β} (h : Each R as bs) : bs.length = as.length := by
  induction h with
  | nil => rfl
  | cons _ _ ih => simp [ih]

/-- Blocks whose lengths are known are found in their concatenation. -/
theorem blocks_unique {β : Type} {P : ASTNode → List β → Prop} {g : ASTNode → List β} :
    ∀ {S : List ASTNode} {bs : List (List β)}, (∀ d ∈ S, ∀ b, P d b → b.length = (g d).length) → Each P S bs →
      S.flatMap g = bs.flatten → ∀ d ∈ S, P d (g d)
  | _, _, _, .nil, _ => by simp
  | d :: S, b :: bs, hl, .cons h h', e => by
    simp only [List.flatMap_cons, List.flatten_cons] at e
    obtain ⟨e1, e2⟩ := List.append_inj e (hl d (by simp) b h).symm
    intro d' hd'
    rcases List.mem_cons.1 hd' with rfl | hd'
    · exact e1 ▸ h
    · exact blocks_unique (fun d hd => hl d (by simp [hd])) h' e2 d' hd'

namespace KotlinModels
open TPB.Kotlin Spec.Kotlin
variable {x : ExtF}

theorem genName_self {id : String} (h : genName id = id) : ¬ IsAddress id := by
  intro ha
  have e : id = "GroupAddress" ∨ id = "CommandsBufferAddress" := ha
  rw [genName, if_pos e] at h
  subst h
  revert e
  decide

theorem block_length {d : ASTNode} {D : Declared} {U : Used} {b : List Item} (hw : ∃ k, WFDecl k d) (h : Declares D U d b) :
    b.length = (genItem x d).length := by
  cases h with
  | struct _ => rfl
  | enum h =>
    rename_i n c vs
    obtain ⟨k, hne, -, -⟩ := hw
    simp only [genItem, genEnum]
    cases e : n.items with
    | nil => exact absurd e hne
    | cons i is =>
      have := each_length h
      rw [e] at this
      simp [this]
  | fn => rfl
  | const => rfl
  | directive => rfl

theorem declares_struct {D : Declared} {U : Used} {n : StructNode} {b : List Item} (h : Declares D U (.struct n) b) :
    ∃ ps c, b = [.cls (D.struct n.id) (!ps.isEmpty) ps none (some c)] := by
  cases h
  exact ⟨_, _, rfl⟩

theorem creates_struct {U : Used} {Z : TypeId → Expr → Prop} {n : StructNode} {b : List Item} (h : Creates U Z (.struct n) b) :
    ∃ c b' ps s as, b = [.cls c b' ps s (some ⟨U.type n.id, .call (U.type n.id) as⟩)] := by
  cases h
  exact ⟨_, _, _, _, _, rfl⟩

theorem declares_enum {D : Declared} {U : Used} {n : EnumNode} {b : List Item} (h : Declares D U (.enum n) b) :
    ∃ c vs, b = .interface (D.enum n.id) c :: vs ∧ Each (VariantIs D U n.id) n.items vs := by
  cases h
  exact ⟨_, _, rfl, by assumption⟩

theorem creates_enum {U : Used} {Z : TypeId → Expr → Prop} {n : EnumNode} {b : List Item} (h : Creates U Z (.enum n) b) :
    ∃ c i is v vs, n.items = i :: is ∧ FirstIs U Z n.id i v ∧ b = .interface c ⟨U.type n.id, v⟩ :: vs := by
  cases h
  exact ⟨_, _, _, _, _, by assumption, by assumption, rfl⟩

theorem variant_inv {D : Declared} {U : Used} {e : String} {i : EnumItem} {it : Item} (h : VariantIs D U e i it) :
    (∃ p id, i = .empty p id ∧ it = .object (D.variant e id) (U.type e)) ∨
    (∃ p id vs ps, i = .tuple p id vs ∧ it = .cls (D.variant e id) true ps (some (U.type e)) none) ∨
    ∃ p id fs ps, i = .struct p id fs ∧ it = .cls (D.variant e id) true ps (some (U.type e)) none ∧
      Each (fun (f : StructField) (q : String × Ty) => q.1 = D.variantField f.name ∧ TypeIs U f.typeId q.2) fs ps := by
  cases h
  · exact .inl ⟨_, _, rfl, rfl⟩
  · exact .inr (.inl ⟨_, _, _, _, rfl, rfl⟩)
  · exact .inr (.inr ⟨_, _, _, _, rfl, rfl, by assumption⟩)

theorem variant_name {D : Declared} {U : Used} {e : String} {i : EnumItem} (h : VariantIs D U e i (genCase x e i)) :
    x.pascal (e ++ i.id) = D.variant e i.id ∧ ∀ p id fs, i = .struct p id fs → ∀ f ∈ fs, f.name = D.variantField f.name := by
  rcases variant_inv h with ⟨p, id, rfl, h⟩ | ⟨p, id, vs, ps, rfl, h⟩ | ⟨p, id, fs, ps, rfl, h, h2⟩
  · simp only [genCase, Item.object.injEq] at h
    exact ⟨h.1, by simp⟩
  · simp only [genCase, Item.cls.injEq] at h
    exact ⟨h.1, by simp⟩
  · simp only [genCase, Item.cls.injEq] at h
    refine ⟨h.1, ?_⟩
    intro p' id' fs' e f hf
    cases e
    exact (each_get h2 h.2.2.1.symm f hf).1

theorem first_inv {U : Used} {Z : TypeId → Expr → Prop} {e : String} {i : EnumItem} {v : New} (h : FirstIs U Z e i v) :
    (∃ p id, i = .empty p id ∧ v = .object (U.variant e id)) ∨
    (∃ p id vs as, i = .tuple p id vs ∧ v = .call (U.variant e id) as) ∨
    ∃ p id fs as, i = .struct p id fs ∧ v = .call (U.variant e id) as ∧
      Each (fun (f : StructField) (a : Option String × Expr) => a.1 = some (U.variantField f.name) ∧ Z f.typeId a.2) fs as := by
  cases h
  · exact .inl ⟨_, _, rfl, rfl⟩
  · exact .inr (.inl ⟨_, _, _, _, rfl, rfl⟩)
  · exact .inr (.inr ⟨_, _, _, _, rfl, rfl, by assumption⟩)

theorem first_name {U : Used} {Z : TypeId → Expr → Prop} {e : String} {i : EnumItem} (h : FirstIs U Z e i (genEnumDefault x e i)) :
    e ++ i.id = U.variant e i.id ∧ ∀ p id fs, i = .struct p id fs → ∀ f ∈ fs, x.camel f.name = U.variantField f.name := by
  rcases first_inv h with ⟨p, id, rfl, h⟩ | ⟨p, id, vs, ps, rfl, h⟩ | ⟨p, id, fs, ps, rfl, h, h2⟩
  · simp only [genEnumDefault, New.object.injEq] at h
    exact ⟨h, by simp⟩
  · simp only [genEnumDefault, New.call.injEq] at h
    exact ⟨h.1, by simp⟩
  · simp only [genEnumDefault, New.call.injEq] at h
    refine ⟨h.1, ?_⟩
    intro p' id' fs' e f hf
    cases e
    exact Option.some.inj (each_get h2 h.2.symm f hf).1

theorem cased_of {S : List ASTNode} (hw : ∀ d ∈ S, ∃ k, WFDecl k d) (h : Consistent S (genItems x S)) : KotlinCased x S := by
  obtain ⟨D, U, hs, bs, e, hb⟩ := h
  have key := blocks_unique (fun d hd b hb => block_length (x := x) (hw d hd) hb.1) hb e
  have hstruct : ∀ n, .struct n ∈ S → x.pascal n.id = n.id ∧ ¬ IsAddress n.id := by
    intro n hn
    obtain ⟨h1, h2⟩ := key _ hn
    obtain ⟨ps, c, h1⟩ := declares_struct h1
    obtain ⟨c', b', ps', s', as, h2⟩ := creates_struct h2
    simp only [genItem, genStruct, List.cons.injEq, Item.cls.injEq, Option.some.injEq, Companion.mk.injEq, New.call.injEq, and_true] at h1 h2
    have h3 := (hs.struct n hn).1
    refine ⟨h1.1.trans (h3.trans h2.2.2.2.2.2.1.symm), genName_self (h2.2.2.2.2.1.trans h2.2.2.2.2.2.1.symm)⟩
  have henum : ∀ n, .enum n ∈ S → ¬ IsAddress n.id ∧ ∀ i ∈ n.items.head?, x.pascal (n.id ++ i.id) = n.id ++ i.id ∧
      ∀ p id fs, i = .struct p id fs → ∀ f ∈ fs, x.camel f.name = f.name := by
    intro n hn
    obtain ⟨h1, h2⟩ := key _ hn
    obtain ⟨c, vs, h1, h3⟩ := declares_enum h1
    obtain ⟨c', i, is, v, vs', h4, h5, h2⟩ := creates_enum h2
    simp only [genItem, genEnum, h4, List.cons.injEq, Item.interface.injEq, Companion.mk.injEq] at h1 h2
    obtain ⟨⟨h6, -⟩, h7⟩ := h1
    obtain ⟨⟨-, h8, h9⟩, -⟩ := h2
    refine ⟨genName_self (h8.trans ((hs.enum n hn).symm.trans h6.symm)), ?_⟩
    intro j hj
    obtain rfl : i = j := by simpa [h4] using hj
    subst h9
    rw [h4, ← h7] at h3
    obtain ⟨v1, v2⟩ := variant_name (each_get h3 rfl i (by simp))
    obtain ⟨f1, f2⟩ := first_name h5
    obtain ⟨s1, s2⟩ := hs.variant n hn i hj
    refine ⟨v1.trans (s1.trans f1.symm), ?_⟩
    intro p id fs e f hf
    have hid : i.id = id := by rw [e]; rfl
    rw [f2 p id fs e f hf, ← s2 p fs (by rw [hid]; exact e) f hf, ← v2 p id fs e f hf]
  exact ⟨fun n hn => (hstruct n hn).1, fun n hn i hi => ((henum n hn).2 i hi).1,
    fun n hn p id fs hi => ((henum n hn).2 _ hi).2 p id fs rfl, by
      rintro id (⟨n, hn, rfl⟩ | ⟨n, hn, rfl⟩)
      · exact (hstruct n hn).2
      · exact (henum n hn).1⟩

end KotlinModels

namespace SwiftModels
open TPB.Swift Spec.Swift
variable {x : ExtF} {names : List (ValueType × String)}

theorem declares_struct {D : Declared} {U : Used} {n : StructNode} {b : List Item} (h : Declares names D U (.struct n) b) :
    ∃ ps c, b = [.struct (D.struct n.id) ps c] := by
  cases h
  exact ⟨_, _, rfl⟩

theorem creates_struct {U : Used} {Z : TypeId → Expr → Prop} {n : StructNode} {b : List Item} (h : Creates U Z (.struct n) b) :
    ∃ c ps as, b = [.struct c ps ⟨U.type n.id, .inst (U.type n.id) as⟩] := by
  cases h
  exact ⟨_, _, _, rfl⟩

theorem declares_enum {D : Declared} {U : Used} {n : EnumNode} {b : List Item} (h : Declares names D U (.enum n) b) :
    ∃ c vs, b = [.enum (D.enum n.id) vs c] := by
  cases h
  exact ⟨_, _, rfl⟩

theorem creates_enum {U : Used} {Z : TypeId → Expr → Prop} {n : EnumNode} {b : List Item} (h : Creates U Z (.enum n) b) :
    ∃ c v vs, b = [.enum c vs ⟨U.type n.id, v⟩] := by
  cases h
  exact ⟨_, _, _, rfl⟩

theorem block_length {d : ASTNode} {D : Declared} {U : Used} {b : List Item} (hw : ∃ k, WFDecl k d) (h : Declares names D U d b) :
    b.length = (genItem x d).length := by
  cases h with
  | struct _ => rfl
  | enum h =>
    rename_i n c vs
    obtain ⟨k, hne, -, -⟩ := hw
    simp only [genItem, genEnum]
    cases e : n.items with
    | nil => exact absurd e hne
    | cons i is => rfl
  | fn => rfl
  | const => rfl
  | directive => rfl

theorem genName_address {id : String} (h : IsAddress id) : genName id = "UInt64" := by
  have e : id = "GroupAddress" ∨ id = "CommandsBufferAddress" := h
  rw [genName, if_pos e]

theorem cased_of {S : List ASTNode} (hw : ∀ d ∈ S, ∃ k, WFDecl k d) (hp : ∀ id, IsAddress id → x.pascal id ≠ "UInt64")
    (h : Consistent S (genItems x S)) : ∀ id, Own S id → x.pascal id = id ∧ ¬ IsAddress id := by
  obtain ⟨D, U, hs, bs, e, hb⟩ := h
  have key := blocks_unique (fun d hd b hb => block_length (x := x) (hw d hd) hb.1) hb e
  have done : ∀ id, x.pascal id = genName id → x.pascal id = id ∧ ¬ IsAddress id := by
    intro id h
    have hna : ¬ IsAddress id := fun ha => hp id ha (h.trans (genName_address ha))
    exact ⟨h.trans (if_neg hna), hna⟩
  rintro id (⟨n, hm, rfl⟩ | ⟨n, hm, rfl⟩)
  · obtain ⟨h1, h2⟩ := key _ hm
    obtain ⟨ps, c, h1⟩ := declares_struct h1
    obtain ⟨c', ps', as, h2⟩ := creates_struct h2
    simp only [genItem, genStruct, List.cons.injEq, Item.struct.injEq, Default.mk.injEq, and_true] at h1 h2
    refine done _ ?_
    rw [h1.1, (hs.struct n hm).1, ← h2.2.2.1]
  · obtain ⟨h1, h2⟩ := key _ hm
    obtain ⟨c, vs, h1⟩ := declares_enum h1
    obtain ⟨c', v, vs', h2⟩ := creates_enum h2
    obtain ⟨k, hne, -, -⟩ := hw _ hm
    simp only [genItem, genEnum] at h1 h2
    refine done _ ?_
    cases e : n.items with
    | nil => exact absurd e hne
    | cons i is =>
      simp only [e, List.cons.injEq, Item.enum.injEq, Default.mk.injEq, and_true] at h1 h2
      rw [h1.1, hs.enum n hm, ← h2.2.2.1]

end SwiftModels

/-- **C44, Kotlin, exactly when.** Read the generated Kotlin models back with the reader of C84.  The names under which
types, variants and fields are declared are the names by which they are used if and only if the names of the schema
are in the case that the generator gives them. -/
theorem C44_kotlin_iff (x : ExtF) (S : List ASTNode) (hA : Accepted S) (hR : KotlinReader.KotlinReadable x S) :
    ∃ F, KotlinReads x S F ∧ (Kotlin.Consistent S F ↔ KotlinCased x S) := by
  refine ⟨_, (kotlinReads_iff hA hR _).2 rfl, ?_⟩
  obtain ⟨ts, h⟩ := hA
  constructor
  · exact KotlinModels.cased_of (accepted_decls h)
  · intro hc
    refine ⟨kotlinDeclared x, kotlinUsed x, ?_, KotlinModels.file (fun d hd => ?_)⟩
    · refine ⟨fun n hm => ⟨hc.structs n hm, fun f _ => rfl⟩, fun n hm => rfl, fun n hm i hi => ⟨hc.variants n hm i hi, ?_⟩, fun id _ => rfl⟩
      intro p fs e f hf
      have hi' : n.items.head? = some i := hi
      exact (hc.fields n hm p i.id fs (by rw [hi', ← e]) f hf).symm
    · obtain ⟨k, hk⟩ := accepted_decls h d hd
      exact ⟨KotlinModels.declares hk, KotlinModels.creates hk (fun id hi => hc.own id (own_of_mem hd hi))
        (fun t _ hw => KotlinModels.refersTo hw)⟩

/-- **C44, Swift, exactly when.** The same for Swift: declared and used names are the same if and only if struct and
enum names are in Pascal case and none is the name of an address type.  `hp`: Pascal case does not turn the name of an
address type into `UInt64`. -/
theorem C44_swift_iff (x : ExtF) (hx : x.camel "createDefault" = "createDefault")
    (hp : ∀ id, IsAddress id → x.pascal id ≠ "UInt64") (S : List ASTNode) (hA : Accepted S) (hR : SwiftReader.SwiftReadable x S) :
    ∃ F, SwiftReads x S F ∧ (Swift.Consistent S F ↔ ∀ id, Own S id → x.pascal id = id ∧ ¬ IsAddress id) := by
  refine ⟨_, (swiftReads_iff hx hA hR _).2 rfl, ?_⟩
  obtain ⟨ts, h⟩ := hA
  constructor
  · exact SwiftModels.cased_of (accepted_decls h) hp
  · intro hs
    refine ⟨swiftDeclared x, swiftUsed x, ?_, SwiftModels.file (fun d hd => ?_)⟩
    · exact ⟨fun n hm => ⟨(hs _ (Or.inl ⟨n, hm, rfl⟩)).1, fun f _ => rfl⟩, fun n hm => (hs _ (Or.inr ⟨n, hm, rfl⟩)).1,
        fun n hm i hi => ⟨rfl, fun p fs e f hf => rfl⟩, fun id _ => rfl⟩
    · obtain ⟨k, hk⟩ := accepted_decls h d hd
      exact ⟨SwiftModels.declares hk, SwiftModels.creates hk (fun id hi => (hs id (own_of_mem hd hi)).2)
        (fun t _ hw => SwiftModels.refersTo hw)⟩

/-! ### Examples -/

theorem drawing_cased : KotlinCased testExtF drawing where
  structs := by
    intro n hn
    obtain rfl : n = ⟨"Drawing", [⟨0, "x", .integer "i32" 4 true⟩, ⟨1, "tags", .generic "Vec" [.other "String"]⟩,
      ⟨2, "mark", .other "Mark"⟩], true, true⟩ := by simpa [drawing] using hn
    decide +kernel
  variants := by
    intro n hn i hi
    obtain rfl : n = ⟨"Mark", [.tuple 0 "Circle" [⟨0, .number "f64" 8⟩],
      .struct 1 "Named" [⟨0, "title", .other "String"⟩], .empty 2 "Nothing"]⟩ := by simpa [drawing] using hn
    cases hi
    decide +kernel
  fields := by
    intro n hn p id fs hi
    obtain rfl : n = ⟨"Mark", [.tuple 0 "Circle" [⟨0, .number "f64" 8⟩],
      .struct 1 "Named" [⟨0, "title", .other "String"⟩], .empty 2 "Nothing"]⟩ := by simpa [drawing] using hn
    simp at hi
  own := by
    rintro id (⟨n, hn, rfl⟩ | ⟨n, hn, rfl⟩)
    · obtain rfl : n = ⟨"Drawing", [⟨0, "x", .integer "i32" 4 true⟩, ⟨1, "tags", .generic "Vec" [.other "String"]⟩,
        ⟨2, "mark", .other "Mark"⟩], true, true⟩ := by simpa [drawing] using hn
      simp [IsAddress]
    · obtain rfl : n = ⟨"Mark", [.tuple 0 "Circle" [⟨0, .number "f64" 8⟩],
        .struct 1 "Named" [⟨0, "title", .other "String"⟩], .empty 2 "Nothing"]⟩ := by simpa [drawing] using hn
      simp [IsAddress]

/-- The declarations of the example are consistent. -/
example : ∃ F, KotlinReads testExtF drawing F ∧ Kotlin.Consistent drawing F := by
  obtain ⟨F, h1, h2⟩ := C44_kotlin_iff testExtF drawing ⟨drawingToks, by rfl⟩ drawing_kotlin_readable
  exact ⟨F, h1, h2.2 drawing_cased⟩

example : ∃ F, SwiftReads testExtF drawing F ∧ Swift.Consistent drawing F := by
  obtain ⟨F, h1, h2⟩ := C44_swift_iff testExtF (by decide +kernel) (by rintro id (rfl | rfl) <;> decide +kernel) drawing
    ⟨drawingToks, by rfl⟩
    (swift_readable_of_fit (sourceAccepted drawing_source).wf drawing_swift.2 swiftStd_names drawing_words drawing_swift_spelled)
  refine ⟨F, h1, h2.2 fun id hid => ⟨?_, drawing_cased.own id hid⟩⟩
  have : id = "Drawing" ∨ id = "Mark" := by
    rcases hid with ⟨n, hn, rfl⟩ | ⟨n, hn, rfl⟩ <;> simp [drawing] at hn <;> simp [hn]
  rcases this with rfl | rfl <;> decide +kernel

/-- Those of `struct my_type;` are not, in either language. -/
example : (∃ F, KotlinReads testExtF myType F ∧ ¬ Kotlin.Consistent myType F) ∧
    ∃ F, SwiftReads testExtF myType F ∧ ¬ Swift.Consistent myType F := by
  have hA : Accepted myType := ⟨[.kwStruct, .id "my_type", .sym ';', .eof], rfl⟩
  have hne : testExtF.pascal "my_type" ≠ "my_type" := by decide +kernel
  constructor
  · obtain ⟨F, h1, h2⟩ := C44_kotlin_iff testExtF myType hA {
      types := by simp [myType, directTypes, fieldsOf]
      structs := by
        intro n hn
        obtain rfl : n = ⟨"my_type", [], true, true⟩ := by simpa [myType] using hn
        decide +kernel
      enums := by simp [myType]
      variants := by simp [myType]
      first := by simp [myType]
      fields := by simp [myType] }
    exact ⟨F, h1, fun h => hne ((h2.1 h).structs ⟨"my_type", [], true, true⟩ (by simp [myType]))⟩
  · obtain ⟨F, h1, h2⟩ := C44_swift_iff testExtF (by decide +kernel) (by rintro id (rfl | rfl) <;> decide +kernel) myType hA {
      types := by simp [myType, directTypes, fieldsOf]
      structs := by
        intro n hn
        obtain rfl : n = ⟨"my_type", [], true, true⟩ := by simpa [myType] using hn
        decide +kernel
      enums := by simp [myType]
      first := by simp [myType]
      fields := by simp [myType] }
    exact ⟨F, h1, fun h => hne (h2.1 h "my_type" (.inl ⟨⟨"my_type", [], true, true⟩, by simp [myType], rfl⟩)).1⟩

end TPB.Props
