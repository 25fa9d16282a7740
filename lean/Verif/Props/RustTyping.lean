/-
Property theorems about the emitted Rust types and codecs as a type checker sees them: C59.

`RustTyped L items impls` are the typing rules, `RustTypable L S` says in terms of the schema when they are
met (both in `Spec/RustTyping.lean`); `L` stands for the imported crates.
-/
import Verif.Proofs.RustTyping
import Verif.Props.RustDefault
namespace TPB.Props
open Spec Rust

/-- The models and the buffers section of the generated Rust file are the text of `items` and `impls`. -/
def EmitsRust (S : List ASTNode) (items : List TypeItem) (impls : List Impl) : Prop :=
  EmitsItems S items ∧ RustGen.buffers S = linesText 4 (joinBlocks (impls.map Impl.render))

theorem emitsRust (S : List ASTNode) (hA : Accepted S) : EmitsRust S (genItems S) (genImpls S) :=
  ⟨(emitted_models S hA).1, emitted_buffers S⟩

/-- **C59 (partial).** The Rust types and codecs generated for a schema type-check, whatever the imported
crates contain, if and only if the schema is typable: all types exist, names are distinct and not keywords,
names bound in patterns hide nothing, no type contains itself, and `char` does not occur in a default value.
Missing: the schemas excluded by this, see the theorems below. -/
theorem C59_rust_typed_partial (L : Crates) (S : List ASTNode) (hA : Accepted S) :
    ∃ items impls, EmitsRust S items impls ∧ (RustTyped L items impls ↔ RustTypable L S) :=
  ⟨_, _, emitsRust S hA, rustTyped_iff hA.wf (accepted_enums hA)⟩

/-- **C59, refuted: `char`.** A struct with a `char` field never type-checks: its default is the number `0`. -/
theorem C59_char (L : Crates) (S : List ASTNode) (hA : Accepted S) (n : StructNode) (hn : .struct n ∈ S) (f : StructField)
    (hf : f ∈ n.fields) (c : String) (hc : f.typeId = .char c) :
    ∃ items impls, EmitsRust S items impls ∧ ¬ RustTyped L items impls := by
  refine ⟨_, _, emitsRust S hA, fun h => ?_⟩
  exact ((rustTyped_iff hA.wf (accepted_enums hA)).1 h).noChar n hn (f.name, f.typeId) (List.mem_map.2 ⟨f, hf, rfl⟩) c hc

/-- **C59, refuted: keywords.** A field, a variant or a type whose name is a Rust keyword (`type`, `match`,
`Self`, ..) is accepted in a schema and emitted as it is. -/
theorem C59_keyword (L : Crates) (S : List ASTNode) (hA : Accepted S) (n : StructNode) (hn : .struct n ∈ S) (f : StructField)
    (hf : f ∈ n.fields) (hk : f.name ∈ rustKeywords ∨ n.id ∈ rustKeywords) :
    ∃ items impls, EmitsRust S items impls ∧ ¬ RustTyped L items impls := by
  refine ⟨_, _, emitsRust S hA, fun h => ?_⟩
  have h := (rustTyped_iff hA.wf (accepted_enums hA)).1 h
  rcases hk with hk | hk
  · exact ((h.fields n hn).2 (f.name, f.typeId) (List.mem_map.2 ⟨f, hf, rfl⟩)).2 hk
  · exact (h.fresh n.id (List.mem_filterMap.2 ⟨_, hn, rfl⟩)).1.2 hk

/-- **C59, refuted: bound names.** A variant field that is called like a struct without fields, or
`bytes_writer`, cannot be bound in the pattern that the emitted code uses. -/
theorem C59_bound_name (L : Crates) (S : List ASTNode) (hA : Accepted S) (n : EnumNode) (hn : .enum n ∈ S) (p : Nat) (v : String)
    (fs : List StructField) (hv : .struct p v fs ∈ n.items) (f : StructField) (hf : f ∈ fs)
    (hb : f.name = "bytes_writer" ∨ ∃ m, .struct m ∈ S ∧ m.fields = [] ∧ m.id = f.name) :
    ∃ items impls, EmitsRust S items impls ∧ ¬ RustTyped L items impls := by
  refine ⟨_, _, emitsRust S hA, fun h => ?_⟩
  have h := ((rustTyped_iff hA.wf (accepted_enums hA)).1 h).bound n hn _ hv
  obtain ⟨-, h1, h2⟩ := h.2 f.name (List.mem_map.2 ⟨f, hf, rfl⟩)
  rcases hb with hb | ⟨m, hm, hm1, hm2⟩
  · exact h2 hb
  · exact h1 (List.mem_filterMap.2 ⟨_, hm, by simp [hm1, hm2]⟩)

/-- **C59, refuted: structs called like a variable.** The emitted codecs bind `value`, so that a schema with
`struct value;` and any enum does not type-check. -/
theorem C59_value (L : Crates) (S : List ASTNode) (hA : Accepted S) (n : StructNode) (hn : .struct n ∈ S) (hf : n.fields = [])
    (hv : n.id = "value") (m : EnumNode) (hm : .enum m ∈ S) :
    ∃ items impls, EmitsRust S items impls ∧ ¬ RustTyped L items impls := by
  refine ⟨_, _, emitsRust S hA, fun h => ?_⟩
  refine ((rustTyped_iff hA.wf (accepted_enums hA)).1 h).localsEnum ⟨m, hm⟩ "value" (by simp) ?_
  exact List.mem_filterMap.2 ⟨_, hn, by simp [hf, hv]⟩

/-- **C59, refuted: types that contain themselves.** A struct with a field of its own type is accepted and
emitted as it is, without a pointer. -/
theorem C59_recursive (L : Crates) (S : List ASTNode) (hA : Accepted S) (n : StructNode) (hn : .struct n ∈ S) (f : StructField)
    (hf : f ∈ n.fields) (hc : f.typeId = .other n.id) :
    ∃ items impls, EmitsRust S items impls ∧ ¬ RustTyped L items impls := by
  refine ⟨_, _, emitsRust S hA, fun h => ?_⟩
  obtain ⟨rank, hr⟩ := ((rustTyped_iff hA.wf (accepted_enums hA)).1 h).sized
  have := hr _ hn n.id rfl (.other n.id) (by simp only [directTypes, fieldsOf, List.map_map, List.mem_map]; exact ⟨f, hf, hc⟩) n.id (.named _)
    (List.mem_filterMap.2 ⟨_, hn, rfl⟩)
  exact Nat.lt_irrefl _ this

/-! ### Examples -/

/-- The crates of the examples: `String`, `Vec` and `Option`. -/
def exampleCrates : Crates where
  types id := id = "String"
  generics c k := (c = "Vec" ∨ c = "Option") ∧ k = 1
  boxed c := c = "Vec"
  others := ["BytesReader", "BytesWriter", "IntoVMBuffers"]

theorem wireSchema_typable : RustTypable exampleCrates wireSchema where
  types := by decide
  fresh := by
    unfold RustName
    decide +kernel
  fields := by
    intro n hn
    simp only [wireSchema, List.mem_cons, ASTNode.struct.injEq, reduceCtorEq, List.not_mem_nil, or_false, false_or] at hn
    rcases hn with rfl | rfl <;> (unfold RustName; decide +kernel)
  variants := by
    intro n hn
    simp only [wireSchema, List.mem_cons, ASTNode.enum.injEq, reduceCtorEq, List.not_mem_nil, or_false, false_or] at hn
    subst hn
    unfold RustName
    decide +kernel
  bound := by
    intro n hn
    simp only [wireSchema, List.mem_cons, ASTNode.enum.injEq, reduceCtorEq, List.not_mem_nil, or_false, false_or] at hn
    subst hn
    unfold RustName
    decide +kernel
  numbers := by
    intro n hn
    simp only [wireSchema, List.mem_cons, ASTNode.enum.injEq, reduceCtorEq, List.not_mem_nil, or_false, false_or] at hn
    subst hn
    decide
  exist := by
    have hp : TypeExists exampleCrates wireSchema (.other "Point") := .own _ (by decide)
    intro d hd t ht
    simp only [wireSchema, List.mem_cons, List.not_mem_nil, or_false] at hd
    rcases hd with rfl | rfl | rfl <;>
      simp [directTypes, fieldsOf, payload] at ht
    · rcases ht with rfl | rfl | rfl
      · exact .builtin _ _ rfl
      · exact .generic _ _ (by decide) ⟨.inl rfl, rfl⟩ (by simpa using hp)
      · exact .lib _ rfl
    · rcases ht with rfl | rfl | rfl
      · exact .builtin _ _ rfl
      · exact hp
      · exact .builtin _ _ rfl
  builtins := by
    intro d hd t ht id hid
    simp only [wireSchema, List.mem_cons, List.not_mem_nil, or_false] at hd
    rcases hd with rfl | rfl | rfl <;>
      simp [directTypes, fieldsOf, payload] at ht
    · rcases ht with rfl | rfl | rfl <;> simp [builtin?] at hid
      subst hid; decide
    · rcases ht with rfl | rfl | rfl <;> simp [builtin?] at hid <;> subst hid <;> decide
  noChar := by
    intro n hn
    simp only [wireSchema, List.mem_cons, ASTNode.struct.injEq, reduceCtorEq, List.not_mem_nil, or_false, false_or] at hn
    rcases hn with rfl | rfl <;> simp [fieldsOf]
  noCharFirst := by
    intro n hn i hi
    simp only [wireSchema, List.mem_cons, ASTNode.enum.injEq, reduceCtorEq, List.not_mem_nil, or_false, false_or] at hn
    subst hn
    simp at hi
    subst hi
    simp [payload]
  sized := by
    refine ⟨fun id => if id = "Shape" then 1 else 0, ?_⟩
    intro d hd name hname t ht id hc hid
    simp only [wireSchema, List.mem_cons, List.not_mem_nil, or_false] at hd
    rcases hd with rfl | rfl | rfl <;> simp only [declName, Option.some.injEq] at hname <;> subst hname <;>
      simp [directTypes, fieldsOf, payload] at ht
    · rcases ht with rfl | rfl | rfl
      · cases hc with | builtin _ _ h => simp [builtin?] at h; subst h; exact absurd hid (by decide)
      · cases hc with
        | builtin _ _ h => simp [builtin?] at h
        | arg _ _ _ _ h => exact absurd rfl h
      · cases hc with
        | named => exact absurd hid (by decide)
        | builtin _ _ h => simp [builtin?] at h
    · rcases ht with rfl | rfl | rfl
      · cases hc with | builtin _ _ h => simp [builtin?] at h; subst h; decide
      · cases hc with
        | named => decide
        | builtin _ _ h => simp [builtin?] at h
      · cases hc with | builtin _ _ h => simp [builtin?] at h; subst h; decide
  localsStruct _ := by decide
  localsEnum _ := by decide

/-- A schema with a struct, a recursive list, and an enum with all kinds of variants type-checks. -/
example : ∃ items impls, EmitsRust wireSchema items impls ∧ RustTyped exampleCrates items impls := by
  obtain ⟨items, impls, h1, h2⟩ := C59_rust_typed_partial exampleCrates wireSchema wireSchema_accepted
  exact ⟨items, impls, h1, h2.2 wireSchema_typable⟩

example : ∃ items impls, EmitsRust charSchema items impls ∧ ¬ RustTyped exampleCrates items impls :=
  C59_char _ _ charSchema_accepted _ (List.mem_singleton.2 rfl) ⟨0, "c", .char "char"⟩ (by simp) "char" rfl

example : ∃ items impls, EmitsRust clashSchema items impls ∧ ¬ RustTyped exampleCrates items impls :=
  C59_bound_name _ _ clashSchema_accepted _ (List.mem_singleton.2 rfl) 0 "A" _ (List.mem_singleton.2 rfl) _ (List.mem_singleton.2 rfl)
    (.inl rfl)

/-- `struct A { type: u32 }`, `struct A { a: A }` and `struct value; enum E { A }` are schemas. -/
def keywordSchema : List ASTNode := [.struct ⟨"A", [⟨0, "type", .integer "u32" 4 false⟩], true, true⟩]
def selfSchema : List ASTNode := [.struct ⟨"A", [⟨0, "a", .other "A"⟩], true, true⟩]

def valueSchema : List ASTNode := [.struct ⟨"value", [], true, true⟩, .enum ⟨"E", [.empty 0 "A"]⟩]

theorem keywordSchema_accepted : Accepted keywordSchema :=
  ⟨[.kwStruct, .id "A", .sym '{', .id "type", .sym ':', .id "u32", .sym '}', .eof], rfl⟩

theorem selfSchema_accepted : Accepted selfSchema :=
  ⟨[.kwStruct, .id "A", .sym '{', .id "a", .sym ':', .id "A", .sym '}', .eof], rfl⟩

theorem valueSchema_accepted : Accepted valueSchema :=
  ⟨[.kwStruct, .id "value", .sym ';', .kwEnum, .id "E", .sym '{', .id "A", .sym '}', .eof], rfl⟩

example : ∃ items impls, EmitsRust valueSchema items impls ∧ ¬ RustTyped exampleCrates items impls :=
  C59_value _ _ valueSchema_accepted _ (.head _) rfl rfl _ (.tail _ (.head _))

example : ∃ items impls, EmitsRust keywordSchema items impls ∧ ¬ RustTyped exampleCrates items impls :=
  C59_keyword _ _ keywordSchema_accepted _ (List.mem_singleton.2 rfl) _ (List.mem_singleton.2 rfl) (.inl (by decide))

example : ∃ items impls, EmitsRust selfSchema items impls ∧ ¬ RustTyped exampleCrates items impls :=
  C59_recursive _ _ selfSchema_accepted _ (List.mem_singleton.2 rfl) _ (List.mem_singleton.2 rfl) rfl

end TPB.Props
