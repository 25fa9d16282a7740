/-
Property theorems about the typing of generated constants: C63.

`readRust`, `readRustMods`, `readDart`: what a text declares, by readers that do not know the
generators.  `RustConstsTyped`, `DartConstsTyped`: the rules of the two compilers.  `RustConstSchema`,
`DartConstSchema`: the conditions on schemas.
-/
import Verif.Proofs.ConstTyping
import Verif.Props.Consts
namespace TPB.Props
open Spec

/-- Literals that are read back: numbers print as decimal numbers, and strings have no characters that a
string literal treats specially (C41). -/
structure Readable (x : Ext) (S : List ASTNode) : Prop where
  num : ∀ c ∈ schemaConsts S, ∀ t, c.value = .num t → IsNumText (x.fmtF64 t)
  str : ∀ c ∈ schemaConsts S, ∀ s, c.value = .str s →
    '\\' ∉ s.toList ∧ '$' ∉ s.toList ∧ '\n' ∉ s.toList ∧ '\r' ∉ s.toList ∧ '"' ∉ s.toList

/-- The constants of the Rust text generated for a schema are accepted by the compiler. -/
def RustAccepts (K : ConstLib) (x : Ext) (S : List ASTNode) : Prop :=
  ∃ rs ms, readRust (RustGen.consts x S) = some rs ∧ readRustMods (RustGen.consts x S) = some ms ∧ RustConstsTyped K rs ms

/-- The constants of the Dart text generated for a schema are accepted by the compiler. -/
def DartAccepts (other : List Tok → Literal → Prop) (x : Ext) (S : List ASTNode) : Prop :=
  ∃ L, readDart (DartGen.consts x S) = some L ∧ DartConstsTyped other L

/-- The statement of C63: what can be written as constants compiles in both languages. -/
def ConstantsCompile (K : ConstLib) (x : Ext) : Prop :=
  ∀ S : List ASTNode, WFSchema 0 S → (∀ d ∈ S, LegalDecl d) → RustAccepts K x S ∧ DartAccepts (fun _ _ => False) x S

theorem printable_of {x : Ext} {S : List ASTNode} (h : Readable x S) : ∀ c ∈ schemaConsts S, Printable x c.value := by
  intro c hc
  cases hv : c.value with
  | str s => exact ⟨(h.str c hc s hv).2.2.2.2, (h.str c hc s hv).1⟩
  | num t => exact h.num c hc t hv
  | _ => trivial

/-- The Rust compiler accepts the generated constants exactly if: no two constants of a block and no two
blocks of a block have the same name; no name is a keyword; every literal, as it is printed, has the
declared type and lies in its range; addresses have literals of the type that the runtime library's
address types hold, and no block beside them is called like the library. -/
theorem C63_rust_partial (K : ConstLib) (x : Ext) (S : List ASTNode) (hl : ∀ d ∈ S, LegalDecl d) (hr : Readable x S) :
    RustAccepts K x S ↔ RustConstSchema K x S := by
  have hp := printableDecl_of x S hl (printable_of hr)
  have h1 := readRust_consts x S hp (fun c hc s hv => (rustString_iff s).mpr
    ⟨(hr.str c hc s hv).1, (hr.str c hc s hv).2.2.2.1, (hr.str c hc s hv).2.2.2.2⟩)
  have h2 := readRustMods_consts x S hp
  rw [← rustConstsTyped_iff K x S hl]
  constructor
  · rintro ⟨rs, ms, e1, e2, h⟩
    rw [h1] at e1
    rw [h2] at e2
    simp only [Option.some.injEq] at e1 e2
    subst e1 e2
    exact h
  · exact fun h => ⟨_, _, h1, h2, h⟩

theorem readDart_of (x : Ext) (S : List ASTNode) (hl : ∀ d ∈ S, LegalDecl d) (hr : Readable x S) (hc : CaseOk x S) :
    readDart (DartGen.consts x S) = some (dartConsts x S) :=
  C40_dart_members x S hl
    (fun p hp n hn => ⟨(hc.blocks p hp n (List.mem_of_getLast? hn)).1, (hc.blocks p hp n (List.mem_of_getLast? hn)).2.2⟩)
    (fun c h => (hc.consts c h).1) hr.num hr.str

/-- The Dart compiler accepts the generated constants exactly if: the names of the members of a block, of
the outermost blocks and of the classes stay different after the change of case; none is a reserved word
or a member of all objects; every literal, as it is printed, is assignable to the declared type; no
member has the name of a type used in its block.  `other` says which types beyond `int`, `double`, `bool`
and `String` take which literals. -/
theorem C63_dart_partial (other : List Tok → Literal → Prop) (x : Ext) (S : List ASTNode) (hl : ∀ d ∈ S, LegalDecl d)
    (hr : Readable x S) (hc : CaseOk x S) : DartAccepts other x S ↔ DartConstSchema other x S := by
  have h1 := readDart_of x S hl hr hc
  rw [← dartConstsTyped_iff other x S hc]
  constructor
  · rintro ⟨L, e1, h⟩
    rw [h1] at e1
    simp only [Option.some.injEq] at e1
    subst e1
    exact h
  · exact fun h => ⟨_, h1, h⟩

/-! ### What never compiles -/

/-- No constant of type `String` or `char` compiles in Rust, whatever its literal. -/
theorem C63_rust_string (K : ConstLib) (x : Ext) (S : List ASTNode) (hl : ∀ d ∈ S, LegalDecl d) (hr : Readable x S)
    (c : SchemaConst) (hc : c ∈ schemaConsts S) (ht : c.type = typeOfName "String" ∨ c.type = typeOfName "char") :
    ¬ RustAccepts K x S := by
  rw [C63_rust_partial K x S hl hr]
  intro h
  have h1 := h.values c hc
  have e1 : typeOfName "String" = .other "String" := rfl
  have e2 : typeOfName "char" = .char "char" := rfl
  rcases ht with ht | ht
  · rw [ht, e1] at h1
    simp only [SuitsRust, String.reduceEq, or_self, if_false] at h1
    cases hp : printed x c.value <;> simp [hp, RustLitOk, rustIntegers, List.lookup] at h1
  · rw [ht, e2] at h1
    simp [SuitsRust] at h1

/-- A whole number as a constant of a floating-point type does not compile in Rust, if the printing of
numbers leaves out the fraction, as Rust's does: the literal that is written is an integer. -/
theorem C63_rust_whole_float (K : ConstLib) (x : Ext) (S : List ASTNode) (hl : ∀ d ∈ S, LegalDecl d) (hr : Readable x S)
    (c : SchemaConst) (hc : c ∈ schemaConsts S) (id : String) (size : Nat) (ht : c.type = .number id size) (t : String)
    (hv : c.value = .num t) (hw : IsDecimal (x.fmtF64 t).toList) : ¬ RustAccepts K x S := by
  rw [C63_rust_partial K x S hl hr]
  intro h
  have h1 := h.values c hc
  rw [ht, hv] at h1
  simp [printed, hw, SuitsRust] at h1

/-- A literal beyond the range of the declared type does not compile in Rust. -/
theorem C63_rust_range (K : ConstLib) (x : Ext) (S : List ASTNode) (hl : ∀ d ∈ S, LegalDecl d) (hr : Readable x S)
    (c : SchemaConst) (hc : c ∈ schemaConsts S) (id : String) (size : Nat) (signed : Bool)
    (ht : c.type = .integer id size signed) (v : Int) (hv : c.value = .int v)
    (hw : 2 ^ (8 * size - if signed then 1 else 0) ≤ v) : ¬ RustAccepts K x S := by
  rw [C63_rust_partial K x S hl hr]
  intro h
  have h1 := h.values c hc
  rw [ht, hv] at h1
  simp only [printed, SuitsRust] at h1
  omega

/-- A literal of another kind than the declared built-in type compiles in neither language, except that a
whole number is accepted as a `double` in Dart: text for a number or truth value, a truth value for a
number, a number for a truth value. -/
theorem C63_kinds (K : ConstLib) (x : Ext) (S : List ASTNode) (hl : ∀ d ∈ S, LegalDecl d) (hr : Readable x S)
    (hk : CaseOk x S) (b : List String × List ConstItem) (hb : b ∈ schemaMembers S) (n : String) (t : TypeId) (v : ConstValue)
    (hi : .value n t v ∈ b.2)
    (h : match t, v.literal with
      | .integer _ _ _, .str _ | .integer _ _ _, .bool _ | .number _ _, .str _ | .number _ _, .bool _
      | .bool _, .str _ | .bool _, .int _ => True
      | _, _ => False) :
    ¬ RustAccepts K x S ∧ ¬ DartAccepts (fun _ _ => False) x S := by
  rw [C63_rust_partial K x S hl hr, C63_dart_partial _ x S hl hr hk]
  refine ⟨fun h1 => ?_, fun h1 => ?_⟩
  · have h2 := h1.values _ (schemaMembers_consts S b hb n t v hi)
    simp only at h2
    split at h <;> simp_all [printed, SuitsRust]
  · have h2 := h1.values b hb n t v hi
    split at h <;> simp_all [printed, DartLitOk, dartConstType, isAddress, dartTypeToks]

/-- Two constants of a block with the same name, or two blocks of a block with the same name, do not
compile in Rust. -/
theorem C63_rust_repeated (K : ConstLib) (x : Ext) (S : List ASTNode) (hl : ∀ d ∈ S, LegalDecl d) (hr : Readable x S)
    (h : ¬ ((schemaConsts S).map (fun c => (c.path, c.name))).Nodup ∨ ¬ (schemaBlocks S).Nodup) :
    ¬ RustAccepts K x S := by
  rw [C63_rust_partial K x S hl hr]
  exact fun h1 => h.elim (fun h => h h1.consts) (fun h => h h1.blocks)

/-- A constant whose name is that of a type of its block after the change of case, such as `INT` in a
block with a number, does not compile in Dart. -/
theorem C63_dart_type_name (other : List Tok → Literal → Prop) (x : Ext) (S : List ASTNode) (hl : ∀ d ∈ S, LegalDecl d)
    (hr : Readable x S) (hk : CaseOk x S) (b : List String × List ConstItem) (hb : b ∈ schemaMembers S) (n : String)
    (id : String) (size : Nat) (signed : Bool) (v : ConstValue) (hi : .value n (.integer id size signed) v ∈ b.2)
    (i : ConstItem) (hj : i ∈ b.2) (hn : x.camel i.itemName = "int") : ¬ DartAccepts other x S := by
  rw [C63_dart_partial other x S hl hr hk]
  exact fun h => h.types b hb n _ v hi "int" (by simp [dartConstType, isAddress, dartTypeToks]) i hj hn

/-! ### Examples -/

/-- A legal schema with one constant in one block. -/
def oneConst (block name type : String) (l : Literal) : List ASTNode :=
  [.const ⟨block, [.value name (typeOfName type) (constOf l)]⟩]

theorem oneConst_legal (block name type : String) (l : Literal) (h1 : LegalName block) (h2 : LegalName name)
    (h3 : LegalName type) (h4 : LegalLit l) : ∀ d ∈ oneConst block name type l, LegalDecl d := by
  intro d hd
  simp only [oneConst, List.mem_singleton] at hd
  subst hd
  refine ⟨h1, fun i hi => ?_⟩
  simp only [List.mem_singleton] at hi
  subst hi
  exact .value _ _ _ h2 (.name _ h3) h4

theorem oneConst_consts (block name type : String) (l : Literal) :
    schemaConsts (oneConst block name type l) = [⟨[block], name, typeOfName type, l⟩] := rfl

/-- Not everything that can be written compiles: `const a { S: String = "x"; }` does not. -/
theorem C63_refuted (K : ConstLib) (x : Ext) : ¬ ConstantsCompile K x := by
  intro h
  have hl := oneConst_legal "a" "S" "String" (.str "x") (by decide) (by decide) (by decide) (by simp only [LegalLit]; decide)
  have h1 := (h (oneConst "a" "S" "String" (.str "x"))
    ⟨fun i hi => by
      simp only [List.mem_singleton] at hi
      subst hi
      exact .value _ _ _ (.name _) rfl, trivial⟩ hl).1
  refine C63_rust_string K x _ hl ⟨?_, ?_⟩ ⟨["a"], "S", typeOfName "String", .str "x"⟩ (by simp [oneConst_consts]) (.inl rfl) h1
  · intro c hc t ht
    rw [oneConst_consts] at hc
    simp only [List.mem_singleton] at hc
    subst hc
    simp at ht
  · intro c hc s hs
    rw [oneConst_consts] at hc
    simp only [List.mem_singleton] at hc
    subst hc
    simp only [Literal.str.injEq] at hs
    subst hs
    decide

/-- Constants of all kinds at two depths that compile in both languages. -/
def goodConsts : List ASTNode :=
  [.const ⟨"limits", [.value "MAX" (typeOfName "u8") (constOf (.int 255)),
    .value "RATE" (typeOfName "f64") (constOf (.num "16.6")),
    .node "groups" [.value "MAIN" (typeOfName "GroupAddress") (constOf (.int 7))],
    .value "FLAG" (typeOfName "bool") (constOf (.bool true))]⟩]

theorem goodConsts_legal : ∀ d ∈ goodConsts, LegalDecl d := by
  intro d hd
  simp only [goodConsts, List.mem_singleton] at hd
  subst hd
  refine ⟨by decide, fun i hi => ?_⟩
  simp only [List.mem_cons, List.not_mem_nil, or_false] at hi
  rcases hi with rfl | rfl | rfl | rfl
  · exact .value _ _ _ (by decide) (.name _ (by decide)) (by simp only [constOf, LegalLit]; decide)
  · exact .value _ _ _ (by decide) (.name _ (by decide)) ⟨1, [6], [6], by decide, by decide, by decide, by decide⟩
  · refine .node _ _ (by decide) (fun i hi => ?_)
    simp only [List.mem_singleton] at hi
    subst hi
    exact .value _ _ _ (by decide) (.name _ (by decide)) (by simp only [constOf, LegalLit]; decide)
  · exact .value _ _ _ (by decide) (.name _ (by decide)) trivial

theorem goodConsts_consts : schemaConsts goodConsts =
    [⟨["limits"], "MAX", .integer "u8" 1 false, .int 255⟩, ⟨["limits"], "RATE", .number "f64" 8, .num "16.6"⟩,
     ⟨["limits", "groups"], "MAIN", .other "GroupAddress", .int 7⟩, ⟨["limits"], "FLAG", .bool "bool", .bool true⟩] := rfl

theorem goodConsts_readable : Readable testExt goodConsts := by
  constructor
  · rw [goodConsts_consts]
    intro c hc t ht
    simp only [List.mem_cons, List.not_mem_nil, or_false] at hc
    rcases hc with rfl | rfl | rfl | rfl <;> simp at ht
    subst ht
    decide
  · rw [goodConsts_consts]
    intro c hc t ht
    simp only [List.mem_cons, List.not_mem_nil, or_false] at hc
    rcases hc with rfl | rfl | rfl | rfl <;> simp at ht

theorem goodConsts_case : CaseOk testExt goodConsts :=
  ⟨by unfold DartRules.Public; decide +kernel, by unfold DartRules.Public; decide +kernel⟩

example : RustAccepts ⟨64, fun _ => some "u64"⟩ testExt goodConsts := by
  rw [C63_rust_partial _ _ _ goodConsts_legal goodConsts_readable]
  refine ⟨by decide, by decide, by unfold RustName; decide, by unfold RustName; decide, ?_, by decide⟩
  rw [goodConsts_consts]
  intro c hc
  simp only [List.mem_cons, List.not_mem_nil, or_false] at hc
  rcases hc with rfl | rfl | rfl | rfl
  · exact ⟨by decide, by decide⟩
  · have : ¬ IsDecimal (testExt.fmtF64 "16.6").toList := by decide
    simp [printed, this, SuitsRust]
  · exact ⟨"u64", rfl, 64, rfl, by decide, by decide⟩
  · trivial

example : DartAccepts (fun _ _ => False) testExt goodConsts := by
  rw [C63_dart_partial _ _ _ goodConsts_legal goodConsts_readable goodConsts_case]
  have hm : ∀ b ∈ schemaMembers goodConsts, ∀ n t v, ConstItem.value n t v ∈ b.2 →
      (n = "MAX" ∧ t = .integer "u8" 1 false ∧ v.literal = .int 255) ∨ (n = "RATE" ∧ t = .number "f64" 8 ∧ v.literal = .num "16.6") ∨
      (n = "MAIN" ∧ t = .other "GroupAddress" ∧ v.literal = .int 7) ∨ (n = "FLAG" ∧ t = .bool "bool" ∧ v.literal = .bool true) := by
    intro b hb n t v h
    have h1 := schemaMembers_consts _ b hb n t v h
    rw [goodConsts_consts] at h1
    simp only [List.mem_cons, SchemaConst.mk.injEq, List.not_mem_nil, or_false] at h1
    grind
  have hd : ¬ IsDecimal (testExt.fmtF64 "16.6").toList := by decide
  refine ⟨by decide +kernel, by decide +kernel, by decide +kernel, by decide +kernel, by decide +kernel, ?_, ?_⟩
  · intro b hb n t v h
    rcases hm b hb n t v h with ⟨_, rfl, hv⟩ | ⟨_, rfl, hv⟩ | ⟨_, rfl, hv⟩ | ⟨_, rfl, hv⟩ <;>
      simp [hv, printed, hd, DartLitOk, dartConstType, isAddress, dartTypeToks]
  · intro b hb n t v h w hw i hi
    have hn : ∀ b ∈ schemaMembers goodConsts, ∀ i ∈ b.2, testExt.camel i.itemName ∉ ["int", "double", "bool"] := by
      decide +kernel
    have := hn b hb i hi
    rcases hm b hb n t v h with ⟨_, rfl, hv⟩ | ⟨_, rfl, hv⟩ | ⟨_, rfl, hv⟩ | ⟨_, rfl, hv⟩ <;>
      simp [dartConstType, isAddress, dartTypeToks] at hw <;> subst hw <;> intro e <;> simp [e] at this

/-- Schemas that meet the hypotheses of the theorems above: `const a { A: u8 = 300; }`,
`const a { D: f64 = 16.0; }`, `const a { INT: u32 = 1; }`. -/
theorem oneConst_readable (x : Ext) (block name type : String) (l : Literal) (hl : ∀ t, l = .num t → IsNumText (x.fmtF64 t))
    (hs : ∀ s, l ≠ .str s) : Readable x (oneConst block name type l) := by
  constructor <;>
  · intro c hc t ht
    rw [oneConst_consts] at hc
    simp only [List.mem_singleton] at hc
    subst hc
    first
      | exact hl t ht
      | exact absurd ht (hs t)

example (K : ConstLib) : ¬ RustAccepts K testExt (oneConst "a" "A" "u8" (.int 300)) :=
  C63_rust_range K testExt _
    (oneConst_legal _ _ _ _ (by decide) (by decide) (by decide) (by simp only [LegalLit]; decide))
    (oneConst_readable _ _ _ _ _ (by simp) (by simp)) ⟨["a"], "A", typeOfName "u8", .int 300⟩ (by simp [oneConst_consts])
    "u8" 1 false rfl 300 rfl (by decide)

example (K : ConstLib) : ¬ RustAccepts K wholeExt (oneConst "a" "D" "f64" (.num "16.0")) :=
  C63_rust_whole_float K wholeExt _
    (oneConst_legal _ _ _ _ (by decide) (by decide) (by decide) ⟨1, [6], [0], by decide, by decide, by decide, by decide⟩)
    (oneConst_readable _ _ _ _ _ (by intro t ht; simp only [Literal.num.injEq] at ht; subst ht; decide) (by simp))
    ⟨["a"], "D", typeOfName "f64", .num "16.0"⟩ (by simp [oneConst_consts]) "f64" 8 rfl "16.0" rfl (by decide)

example (other : List Tok → Literal → Prop) : ¬ DartAccepts other testExt (oneConst "a" "INT" "u32" (.int 1)) :=
  C63_dart_type_name other testExt _
    (oneConst_legal _ _ _ _ (by decide) (by decide) (by decide) (by simp only [LegalLit]; decide))
    (oneConst_readable _ _ _ _ _ (by simp) (by simp))
    ⟨by unfold DartRules.Public; decide +kernel, by unfold DartRules.Public; decide +kernel⟩
    (["a"], [.value "INT" (typeOfName "u32") (constOf (.int 1))]) (by simp [oneConst, schemaMembers, itemMembers])
    "INT" "u32" 4 false (constOf (.int 1)) (by simp; rfl) (.value "INT" (typeOfName "u32") (constOf (.int 1))) (by simp)
    (by decide +kernel)

end TPB.Props
