/-
Property theorems about constants: C40, C41, C42.

`schemaConsts S`: the constants of a schema, in source order; `readRust`, `readDart`: the constants
that a Rust or Dart text declares, by a reader of those languages (`Spec/Reader.lean`,
`Spec/Consts.lean`) that does not know the generators.
-/
import Verif.Proofs.ConstsDart
import Verif.Proofs.ConstStrings
import Verif.Model.ToCase
namespace TPB.Props
open Spec

/-! ## C40: constants keep their values -/

/-- What a printed literal denotes. -/
theorem printed_same {V : Type} (num : String → V) (x : Ext) (hfmt : ∀ t, num (x.fmtF64 t) = num t) (l : Literal)
    (h : ∀ t, l = .num t → IsFraction (x.fmtF64 t).toList) : SameValue num (printed x l) l := by
  cases l with
  | num t =>
    have h1 : ¬ IsDecimal (x.fmtF64 t).toList := by
      intro h1
      obtain ⟨_, fs, h2, h3⟩ := h t rfl
      have hm : '.' ∈ (x.fmtF64 t).toList := by
        have : '.' ∈ (x.fmtF64 t).toList.dropWhile (· ≠ '.') := by rw [h2]; simp
        exact List.dropWhile_sublist _ |>.subset this
      exact absurd (h1.2 '.' hm) (by decide)
    simp [printed, h1, SameValue, hfmt]
  | _ => simp [printed, SameValue]

/-- Generated Rust text declares exactly the constants of the schema, in order, each in the modules
named after its blocks, with its type (addresses: the runtime library's type and constructor) and with
a literal that denotes its value.  `num` gives the value of a decimal fraction, as the program that
prints floating-point numbers (`x.fmtF64`, outside the repository) keeps it.  Excluded: numbers that are
printed without a fraction (see `C40_rust_whole_float`), and the strings of C41. -/
theorem C40_rust_partial {V : Type} (num : String → V) (x : Ext) (hfmt : ∀ t, num (x.fmtF64 t) = num t)
    (S : List ASTNode) (hl : ∀ d ∈ S, LegalDecl d)
    (hnum : ∀ c ∈ schemaConsts S, ∀ t, c.value = .num t → IsFraction (x.fmtF64 t).toList)
    (hstr : ∀ c ∈ schemaConsts S, ∀ s, c.value = .str s → '\\' ∉ s.toList ∧ '\r' ∉ s.toList ∧ '"' ∉ s.toList) :
    ∃ rs, readRust (RustGen.consts x S) = some rs ∧ rs.length = (schemaConsts S).length ∧
      ∀ (i : Nat) (c : SchemaConst), (schemaConsts S)[i]? = some c → ∃ r : RustConst, rs[i]? = some r ∧
        r.path = c.path ∧ r.name = c.name ∧ SameValue num r.value c.value ∧
        (∀ a, isAddress c.type = some a → r.type = runtimeToks a ∧ r.ctor = some (runtimeToks a)) ∧
        (isAddress c.type = none → r.type = typeToks c.type ∧ r.ctor = none) := by
  have h1 := readRust_consts x S
    (printableDecl_of x S hl (fun c hc => by
      cases hv : c.value with
      | str s => exact ⟨(hstr c hc s hv).2.2, (hstr c hc s hv).1⟩
      | num t => exact .inr (hnum c hc t hv)
      | _ => trivial))
    (fun c hc s hv => (rustString_iff s).mpr (hstr c hc s hv))
  refine ⟨_, h1, by simp, fun i c hi => ⟨(c.asPrinted x).rust, by simp [hi], ?_⟩⟩
  have hv := printed_same num x hfmt c.value (hnum c (List.mem_of_getElem? hi))
  unfold SchemaConst.rust SchemaConst.asPrinted
  simp only
  cases ha : isAddress c.type with
  | none => exact ⟨rfl, rfl, hv, by simp, by simp⟩
  | some a => exact ⟨rfl, rfl, hv, by simp, by simp⟩

/-- The statement of C40 for Rust, without exclusions. -/
def RustConstsIntact (x : Ext) : Prop :=
  ∀ S : List ASTNode, WFSchema 0 S → (∀ d ∈ S, LegalDecl d) →
    ∃ rs, readRust (RustGen.consts x S) = some rs ∧ ∀ (i : Nat) (c : SchemaConst), (schemaConsts S)[i]? = some c →
      ∃ r : RustConst, rs[i]? = some r ∧ (∀ t, c.value = .num t → ∃ u, r.value = .num u)

/-- Rust prints `16.0` as `16`. -/
def wholeExt : Ext := { testExt with fmtF64 := fun t => if t = "16.0" then "16" else t }

def wholeSchema : List ASTNode := [.const ⟨"a", [.value "D" (typeOfName "f64") (constOf (.num "16.0"))]⟩]

/-- A floating-point constant with a whole value becomes an integer literal, which Rust does not accept
as a value of a floating-point type. -/
theorem C40_rust_whole_float : ¬ RustConstsIntact wholeExt := by
  intro h
  obtain ⟨rs, h1, h2⟩ := h wholeSchema
    (by
      refine ⟨fun i hi => ?_, trivial⟩
      simp only [List.mem_singleton] at hi
      subst hi
      exact .value _ _ _ (.name _) rfl)
    (by
      intro d hd
      simp only [wholeSchema, List.mem_singleton] at hd
      subst hd
      refine ⟨by decide, fun i hi => ?_⟩
      simp only [List.mem_singleton] at hi
      subst hi
      exact .value _ _ _ (by decide) (.name _ (by decide)) ⟨1, [6], [0], by decide, by decide, by decide, by decide⟩)
  have hp := readRust_consts wholeExt wholeSchema (by
      intro d hd
      simp only [wholeSchema, List.mem_singleton] at hd
      subst hd
      refine ⟨by decide, fun i hi => ?_⟩
      simp only [List.mem_singleton] at hi
      subst hi
      exact .value _ _ _ (by decide) (.number _ _ (by decide)) (by show IsNumText _; decide)) (by
      intro c hc s hs
      simp only [wholeSchema, schemaConsts, declConsts, itemsConsts, itemConsts, List.flatMap_cons, List.flatMap_nil,
        List.append_nil, List.mem_singleton] at hc
      subst hc
      simp [constOf] at hs)
  rw [hp] at h1
  simp only [Option.some.injEq] at h1
  subst h1
  obtain ⟨r, h4, h5⟩ := h2 0 ⟨["a"], "D", typeOfName "f64", .num "16.0"⟩ rfl
  have hd : printed wholeExt (.num "16.0") = .int 16 := by
    have h6 : IsDecimal (wholeExt.fmtF64 "16.0").toList := by decide
    simp only [printed, h6, if_true]
    decide
  have hr : r.value = .int 16 := by
    rw [← hd]
    have h4 : (some (SchemaConst.asPrinted wholeExt ⟨["a"], "D", typeOfName "f64", .num "16.0"⟩).rust) = some r := h4
    simp only [Option.some.injEq] at h4
    subst h4
    unfold SchemaConst.rust SchemaConst.asPrinted
    split <;> rfl
  obtain ⟨u, hu⟩ := h5 "16.0" rfl
  rw [hr] at hu
  simp at hu

/-- Generated Dart text declares a class for every block and a library constant for every outermost
block, and the expression `a.b.C` (names in lower camel case) has the value of the constant `C` in the
block `b` in the block `a`, at any depth, provided no name is declared twice in the text (then it is
not a Dart program: see C42).  The names must be identifiers after the change of case. -/
theorem C40_dart_partial {V : Type} (num : String → V) (x : Ext) (hfmt : ∀ t, num (x.fmtF64 t) = num t)
    (S : List ASTNode) (hl : ∀ d ∈ S, LegalDecl d)
    (hb : ∀ p ∈ schemaBlocks S, ∀ n ∈ p.getLast?, IsIdent (x.camel n).toList ∧ Wordy (x.pascal n))
    (hc : ∀ c ∈ schemaConsts S, IsIdent (x.camel c.name).toList)
    (hnum : ∀ c ∈ schemaConsts S, ∀ t, c.value = .num t → IsFraction (x.fmtF64 t).toList)
    (hstr : ∀ c ∈ schemaConsts S, ∀ s, c.value = .str s →
      '\\' ∉ s.toList ∧ '$' ∉ s.toList ∧ '\n' ∉ s.toList ∧ '\r' ∉ s.toList ∧ '"' ∉ s.toList) :
    ∃ L, readDart (DartGen.consts x S) = some L ∧
      L.classes.length = (schemaBlocks S).length ∧
      (L.Distinct → ∀ c ∈ schemaConsts S, ∃ v, L.eval ((c.path ++ [c.name]).map x.camel) = some v ∧
        SameValue num v c.value) := by
  have h1 := readDart_consts x S
    (dartDecl_of x S hl hb (fun c h => ⟨hc c h, by
      cases hv : c.value with
      | str s => exact ⟨(hstr c h s hv).2.2.2.2, (hstr c h s hv).1⟩
      | num t => exact .inr (hnum c h t hv)
      | _ => trivial⟩))
    (dartStringsDecl_of S (fun c h s hv => (dartString_iff s).mpr (hstr c h s hv)))
  refine ⟨_, h1, ?_, fun hd c h => ⟨_, eval_consts x S hd c h, printed_same num x hfmt c.value (hnum c h)⟩⟩
  have := congrArg List.length (dartConsts_names x S)
  simpa using this

/-- The text reads as exactly this library: every block's class has the members of the block, in order. -/
theorem C40_dart_members (x : Ext) (S : List ASTNode) (hl : ∀ d ∈ S, LegalDecl d)
    (hb : ∀ p ∈ schemaBlocks S, ∀ n ∈ p.getLast?, IsIdent (x.camel n).toList ∧ Wordy (x.pascal n))
    (hc : ∀ c ∈ schemaConsts S, IsIdent (x.camel c.name).toList)
    (hnum : ∀ c ∈ schemaConsts S, ∀ t, c.value = .num t → IsNumText (x.fmtF64 t))
    (hstr : ∀ c ∈ schemaConsts S, ∀ s, c.value = .str s →
      '\\' ∉ s.toList ∧ '$' ∉ s.toList ∧ '\n' ∉ s.toList ∧ '\r' ∉ s.toList ∧ '"' ∉ s.toList) :
    readDart (DartGen.consts x S) = some (dartConsts x S) :=
  readDart_consts x S
    (dartDecl_of x S hl hb (fun c h => ⟨hc c h, by
      cases hv : c.value with
      | str s => exact ⟨(hstr c h s hv).2.2.2.2, (hstr c h s hv).1⟩
      | num t => exact hnum c h t hv
      | _ => trivial⟩))
    (dartStringsDecl_of S (fun c h s hv => (dartString_iff s).mpr (hstr c h s hv)))

/-- A schema with constants at two depths. -/
def constSample : List ASTNode :=
  [.const ⟨"addr", [.value "SOME_VALUE" (typeOfName "String") (constOf (.str "Hello")),
    .node "groups" [.value "MAIN" (typeOfName "GroupAddress") (constOf (.int 7)),
      .node "inner" [.value "DELTA" (typeOfName "f64") (constOf (.num "16.6"))]],
    .value "FLAG" (typeOfName "bool") (constOf (.bool true))]⟩]

theorem constSample_legal : ∀ d ∈ constSample, LegalDecl d := by
  intro d hd
  simp only [constSample, List.mem_singleton] at hd
  subst hd
  refine ⟨by decide, fun i hi => ?_⟩
  simp only [List.mem_cons, List.not_mem_nil, or_false] at hi
  rcases hi with rfl | rfl | rfl
  · exact .value _ _ _ (by decide) (.name _ (by decide)) (by simp only [constOf, LegalLit]; decide)
  · refine .node _ _ (by decide) (fun i hi => ?_)
    simp only [List.mem_cons, List.not_mem_nil, or_false] at hi
    rcases hi with rfl | rfl
    · exact .value _ _ _ (by decide) (.name _ (by decide)) (by simp only [constOf, LegalLit]; decide)
    · refine .node _ _ (by decide) (fun i hi => ?_)
      simp only [List.mem_singleton] at hi
      subst hi
      exact .value _ _ _ (by decide) (.name _ (by decide)) ⟨1, [6], [6], by decide, by decide, by decide, by decide⟩
  · exact .value _ _ _ (by decide) (.name _ (by decide)) trivial

/-- `constSample` meets all hypotheses, and the values are those of the schema. -/
example : (∀ d ∈ constSample, LegalDecl d) ∧
    (∀ p ∈ schemaBlocks constSample, ∀ n ∈ p.getLast?, IsIdent (testExt.camel n).toList ∧ Wordy (testExt.pascal n)) ∧
    (∀ c ∈ schemaConsts constSample, IsIdent (testExt.camel c.name).toList) ∧
    (dartConsts testExt constSample).Distinct ∧ (schemaConsts constSample).length = 4 :=
  ⟨constSample_legal, by decide +kernel, by decide +kernel,
    ⟨by decide +kernel, by decide +kernel, by decide +kernel⟩, by decide⟩

example : ∃ rs, readRust (RustGen.consts testExt constSample) = some rs ∧ rs.length = 4 := by
  obtain ⟨rs, h1, h2, _⟩ := C40_rust_partial id testExt (fun _ => rfl) constSample constSample_legal
    (by
      intro c hc t ht
      simp only [constSample, schemaConsts, declConsts, itemsConsts, itemConsts, List.flatMap_cons, List.flatMap_nil,
        List.append_nil, List.nil_append, List.cons_append, List.mem_cons, List.not_mem_nil, or_false] at hc
      rcases hc with rfl | rfl | rfl | rfl <;> simp [constOf] at ht
      subst ht
      decide)
    (by
      intro c hc t ht
      simp only [constSample, schemaConsts, declConsts, itemsConsts, itemConsts, List.flatMap_cons, List.flatMap_nil,
        List.append_nil, List.nil_append, List.cons_append, List.mem_cons, List.not_mem_nil, or_false] at hc
      rcases hc with rfl | rfl | rfl | rfl <;> simp [constOf] at ht
      subst ht
      decide)
  exact ⟨rs, h1, h2⟩

example : ((dartConsts testExt constSample).eval ["addr", "groups", "inner", "delta"]).isSome = true := by
  decide +kernel

/-! ## C41: strings -/

/-- The literal that a Rust or Dart expression text denotes. -/
def rustLit (text : String) : Option Literal := (scan text).bind (readLit rustString)
def dartLit (text : String) : Option Literal := (scan text).bind (readLit dartString)

/-- A string constant's Rust literal denotes the string exactly if it has no backslash and no carriage
return.  (The lexer never produces a string with a quote.) -/
theorem C41_rust_iff_partial (x : Ext) (s : String) (hq : '"' ∉ s.toList) :
    rustLit (RustGen.constValue x (constOf (.str s))) = some (.str s) ↔ '\\' ∉ s.toList ∧ '\r' ∉ s.toList := by
  have h := quoted_iff rustString s hq (fun e => ((rustString_iff s).mp e).1) (fun hb => by
    have := (runs_string s hq hb)
    have e : ("\"" ++ s ++ "\"").toList = '"' :: (s.toList ++ ['"']) := by simp
    unfold scan
    have h2 := scanFrom_run .idle ('"' :: (s.toList ++ ['"'])) []
    rw [List.append_nil, this] at h2
    rw [e, h2]
    rfl)
  rw [rustString_iff] at h
  exact ⟨fun e => ⟨(h.mp e).1, (h.mp e).2.1⟩, fun e => h.mpr ⟨e.1, e.2, hq⟩⟩

/-- A string constant's Dart literal denotes the string exactly if it has no backslash, no dollar sign
and no line break. -/
theorem C41_dart_iff_partial (x : Ext) (s : String) (hq : '"' ∉ s.toList) :
    dartLit (DartGen.constValue x (constOf (.str s))) = some (.str s) ↔
      '\\' ∉ s.toList ∧ '$' ∉ s.toList ∧ '\n' ∉ s.toList ∧ '\r' ∉ s.toList := by
  have h := quoted_iff dartString s hq (fun e => ((dartString_iff s).mp e).1) (fun hb => by
    have := (runs_string s hq hb)
    have e : ("\"" ++ s ++ "\"").toList = '"' :: (s.toList ++ ['"']) := by simp
    unfold scan
    have h2 := scanFrom_run .idle ('"' :: (s.toList ++ ['"'])) []
    rw [List.append_nil, this] at h2
    rw [e, h2]
    rfl)
  rw [dartString_iff] at h
  exact ⟨fun e => ⟨(h.mp e).1, (h.mp e).2.1, (h.mp e).2.2.1, (h.mp e).2.2.2.1⟩,
    fun e => h.mpr ⟨e.1, e.2.1, e.2.2.1, e.2.2.2, hq⟩⟩

/-- The statement of C41: the literals of all strings that can be written in a schema denote them. -/
def StringsIntact (lit : String → Option Literal) (emit : ConstValue → String) : Prop :=
  ∀ s, LegalLit (.str s) → lit (emit (constOf (.str s))) = some (.str s)

theorem C41_rust_backslash (x : Ext) : ¬ StringsIntact rustLit (RustGen.constValue x) := by
  intro h
  have h1 := h "C:\\new" (by simp only [LegalLit]; decide)
  rw [C41_rust_iff_partial x _ (by decide)] at h1
  exact absurd h1.1 (by decide)

theorem C41_dart_dollar (x : Ext) : ¬ StringsIntact dartLit (DartGen.constValue x) := by
  intro h
  have h1 := h "$5" (by simp only [LegalLit]; decide)
  rw [C41_dart_iff_partial x _ (by decide)] at h1
  exact absurd h1.2.1 (by decide)

/-- What the two languages make of such a string: `C:\new` becomes `C:`, a line break, `ew`. -/
example : rustString "C:\\new" = some "C:\new" ∧ dartString "C:\\new" = some "C:\new" ∧ dartString "$5" = none := by
  decide

example : rustLit (RustGen.constValue testExt (constOf (.str "Hello World! (100%)"))) = some (.str "Hello World! (100%)") ∧
    dartLit (DartGen.constValue testExt (constOf (.str "Hello World! (100%)"))) = some (.str "Hello World! (100%)") :=
  ⟨(C41_rust_iff_partial _ _ (by decide)).mpr (by decide), (C41_dart_iff_partial _ _ (by decide)).mpr (by decide)⟩

/-! ## C42: class names -/

/-- The statement of C42: in the Dart text for a schema whose constant blocks have different paths, no
two classes have the same name. -/
def ClassesDistinct (x : Ext) : Prop :=
  ∀ S : List ASTNode, WFSchema 0 S → (∀ d ∈ S, LegalDecl d) → (schemaBlocks S).Nodup →
    ∀ L, readDart (DartGen.consts x S) = some L → (L.classes.map (·.name)).Nodup

def blockClashSchema : List ASTNode :=
  [.const ⟨"a", [.node "bC" []]⟩, .const ⟨"aB", [.node "c" []]⟩]

/-- The blocks `a { bC {} }` and `aB { c {} }` both give a class `_ABC`. -/
theorem C42_clash : ¬ ClassesDistinct testExt := by
  intro h
  have hl : ∀ d ∈ blockClashSchema, LegalDecl d := by
    intro d hd
    simp only [blockClashSchema, List.mem_cons, List.not_mem_nil, or_false] at hd
    rcases hd with rfl | rfl
    all_goals
      refine ⟨by decide, fun i hi => ?_⟩
      simp only [List.mem_singleton] at hi
      subst hi
      exact .node _ _ (by decide) (by simp)
  have h1 := h blockClashSchema
    ⟨fun i hi => by
        simp only [List.mem_singleton] at hi
        subst hi
        exact .node _ _ (by simp),
      fun i hi => by
        simp only [List.mem_singleton] at hi
        subst hi
        exact .node _ _ (by simp), trivial⟩ hl (by decide)
    (dartConsts testExt blockClashSchema)
    (C40_dart_members testExt blockClashSchema hl (by decide +kernel) (by decide)
      (by simp [blockClashSchema, schemaConsts, declConsts, itemsConsts, itemConsts])
      (by simp [blockClashSchema, schemaConsts, declConsts, itemsConsts, itemConsts]))
  exact absurd h1 (by decide +kernel)

/-- If the case conversion makes every block name a capitalised word (one capital, at its beginning),
and different words of different names, then different blocks give different classes, at any depth. -/
theorem C42_capitalised_partial (x : Ext) (S : List ASTNode) (hd : (schemaBlocks S).Nodup)
    (hcap : ∀ p ∈ schemaBlocks S, ∀ n ∈ p, IsCapWord (x.pascal n).toList)
    (hinj : ∀ p ∈ schemaBlocks S, ∀ q ∈ schemaBlocks S, ∀ m ∈ p, ∀ n ∈ q, x.pascal m = x.pascal n → m = n)
    (L : DartLibrary) (hL : readDart (DartGen.consts x S) = some L)
    (hl : ∀ d ∈ S, LegalDecl d)
    (hb : ∀ p ∈ schemaBlocks S, ∀ n ∈ p.getLast?, IsIdent (x.camel n).toList ∧ Wordy (x.pascal n))
    (hc : ∀ c ∈ schemaConsts S, IsIdent (x.camel c.name).toList)
    (hnum : ∀ c ∈ schemaConsts S, ∀ t, c.value = .num t → IsNumText (x.fmtF64 t))
    (hstr : ∀ c ∈ schemaConsts S, ∀ s, c.value = .str s →
      '\\' ∉ s.toList ∧ '$' ∉ s.toList ∧ '\n' ∉ s.toList ∧ '\r' ∉ s.toList ∧ '"' ∉ s.toList) :
    (L.classes.map (·.name)).Nodup := by
  rw [C40_dart_members x S hl hb hc hnum hstr] at hL
  simp only [Option.some.injEq] at hL
  subst hL
  rw [dartConsts_names]
  refine nodup_map _ _ (fun p hp q hq e => ?_) hd
  have e := congrArg String.toList e
  simp only [String.toList_append, List.append_cancel_left_eq, pathWord_toList] at e
  exact flat_inj x p q (hcap p hp) (hcap q hq) (hinj p hp q hq) e

/-- Names made of small letters. -/
def SmallName (n : String) : Prop := n.toList ≠ [] ∧ ∀ c ∈ n.toList, c.isLower = true

theorem lower_enum {c : Char} (h : c.isLower = true) : ∃ k : Fin 26, c = Char.ofNat (97 + k.val) := by
  simp only [Char.isLower, Bool.and_eq_true, decide_eq_true_eq, ge_iff_le] at h
  have h1 : 97 ≤ c.toNat := by
    have := UInt32.le_iff_toNat_le.mp h.1
    simpa using this
  have h2 : c.toNat ≤ 122 := by
    have := UInt32.le_iff_toNat_le.mp h.2
    simpa using this
  refine ⟨⟨c.toNat - 97, by omega⟩, ?_⟩
  have : 97 + (c.toNat - 97) = c.toNat := by omega
  simp only [this, Char.ofNat_toNat]

theorem lower_facts {c : Char} (h : c.isLower = true) : c.isUpper = false ∧ c.isDigit = false ∧ c ≠ '_' ∧ c ≠ '-' ∧
    c ≠ ' ' ∧ c.toLower = c ∧ c.toUpper.isUpper = true := by
  obtain ⟨k, rfl⟩ := lower_enum h
  exact (by decide : ∀ k : Fin 26, (Char.ofNat (97 + k.val)).isUpper = false ∧ (Char.ofNat (97 + k.val)).isDigit = false ∧
    Char.ofNat (97 + k.val) ≠ '_' ∧ Char.ofNat (97 + k.val) ≠ '-' ∧ Char.ofNat (97 + k.val) ≠ ' ' ∧
    (Char.ofNat (97 + k.val)).toLower = Char.ofNat (97 + k.val) ∧ (Char.ofNat (97 + k.val)).toUpper.isUpper = true) k

theorem upper_inj {c d : Char} (hc : c.isLower = true) (hd : d.isLower = true) (h : c.toUpper = d.toUpper) : c = d := by
  obtain ⟨k, rfl⟩ := lower_enum hc
  obtain ⟨j, rfl⟩ := lower_enum hd
  exact (by decide +kernel : ∀ k j : Fin 26, (Char.ofNat (97 + k.val)).toUpper = (Char.ofNat (97 + j.val)).toUpper →
    Char.ofNat (97 + k.val) = Char.ofNat (97 + j.val)) k j h

theorem caseWords_small (cs cur : List Char) (h : ∀ c ∈ cs, c.isLower = true) :
    caseWords cur cs = [cur.reverse ++ cs] := by
  induction cs generalizing cur with
  | nil => simp [caseWords]
  | cons a rest ih =>
    have ha := lower_facts (h a (by simp))
    cases rest with
    | nil => simp [caseWords, ha.2.2.1, ha.2.2.2.1, ha.2.2.2.2.1]
    | cons b rest =>
      have hb := lower_facts (h b (by simp))
      have := ih (a :: cur) (fun c hc => h c (by simp [hc]))
      rw [caseWords]
      simp [ha.2.2.1, ha.2.2.2.1, ha.2.2.2.2.1, caseBoundary, ha.1, ha.2.1, hb.1, hb.2.1, this]

theorem toPascal_small (n : String) (h : SmallName n) :
    ∃ c r, n.toList = c :: r ∧ (toPascal n).toList = c.toUpper :: r := by
  obtain ⟨h1, h2⟩ := h
  match hn : n.toList with
  | [] => exact absurd hn h1
  | c :: r =>
    refine ⟨c, r, rfl, ?_⟩
    have hw : caseWords [] n.toList = [n.toList] := caseWords_small n.toList [] h2
    rw [hn] at hw h2
    have hr : r.map Char.toLower = r := by
      conv => rhs; rw [← List.map_id r]
      exact List.map_congr_left (fun d hd => (lower_facts (h2 d (by simp [hd]))).2.2.2.2.2.1)
    simp [toPascal, toCaseWords, hn, hw, capitalWord, hr]

theorem small_cap (n : String) (h : SmallName n) : IsCapWord (toPascal n).toList := by
  obtain ⟨c, r, h1, h2⟩ := toPascal_small n h
  have hc : ∀ d ∈ c :: r, d.isLower = true := h1 ▸ h.2
  exact ⟨c.toUpper, r, h2, (lower_facts (hc c (by simp))).2.2.2.2.2.2, fun d hd => (lower_facts (hc d (by simp [hd]))).1⟩

theorem small_inj (m n : String) (hm : SmallName m) (hn : SmallName n) (h : toPascal m = toPascal n) : m = n := by
  obtain ⟨c, r, h1, h2⟩ := toPascal_small m hm
  obtain ⟨d, q, h3, h4⟩ := toPascal_small n hn
  rw [h, h4] at h2
  simp only [List.cons.injEq] at h2
  have hcd := upper_inj (hm.2 c (by simp [h1])) (hn.2 d (by simp [h3])) h2.1.symm
  rw [← String.toList_inj, h1, h3, hcd, h2.2]

/-- With the word rules of the case-conversion library: if all block names are words of small letters,
no two classes of the text have the same name. -/
theorem C42_small_names_partial (S : List ASTNode) (hd : (schemaBlocks S).Nodup)
    (hsmall : ∀ p ∈ schemaBlocks S, ∀ n ∈ p, SmallName n) (hl : ∀ d ∈ S, LegalDecl d)
    (hb : ∀ p ∈ schemaBlocks S, ∀ n ∈ p.getLast?, IsIdent (toCamel n).toList ∧ Wordy (toPascal n))
    (hc : ∀ c ∈ schemaConsts S, IsIdent (toCamel c.name).toList)
    (hnum : ∀ c ∈ schemaConsts S, ∀ t, c.value = .num t → IsNumText t)
    (hstr : ∀ c ∈ schemaConsts S, ∀ s, c.value = .str s →
      '\\' ∉ s.toList ∧ '$' ∉ s.toList ∧ '\n' ∉ s.toList ∧ '\r' ∉ s.toList ∧ '"' ∉ s.toList) :
    ∃ L, readDart (DartGen.consts testExt S) = some L ∧ (L.classes.map (·.name)).Nodup :=
  have h := C40_dart_members testExt S hl hb hc hnum hstr
  ⟨_, h, C42_capitalised_partial testExt S hd (fun p hp n hn => small_cap n (hsmall p hp n hn))
    (fun p hp q hq m hm n hn e => small_inj m n (hsmall p hp m hm) (hsmall q hq n hn) e) _ h hl hb hc hnum hstr⟩

/-- `constSample` meets the hypotheses of C42. -/
example : (schemaBlocks constSample).Nodup ∧ (schemaBlocks constSample).length = 3 ∧
    (∀ p ∈ schemaBlocks constSample, ∀ n ∈ p, n.toList ≠ [] ∧ ∀ c ∈ n.toList, c.isLower = true) := by
  decide +kernel

/-- The word that a path of blocks gives: the names in Pascal case, one after the other. -/
def classWord (x : Ext) (p : List String) : List Char := p.flatMap (fun n => (x.pascal n).toList)

/-- **C42, the exact condition.** No two classes of the text have the same name exactly if no two blocks have the
same word: the names of the blocks around them and their own, in Pascal case, one after the other.  Missing: the
property is false for the other schemas (`C42_clash`). -/
theorem C42_iff_partial (x : Ext) (S : List ASTNode) (hl : ∀ d ∈ S, LegalDecl d)
    (hb : ∀ p ∈ schemaBlocks S, ∀ n ∈ p.getLast?, IsIdent (x.camel n).toList ∧ Wordy (x.pascal n))
    (hc : ∀ c ∈ schemaConsts S, IsIdent (x.camel c.name).toList)
    (hnum : ∀ c ∈ schemaConsts S, ∀ t, c.value = .num t → IsNumText (x.fmtF64 t))
    (hstr : ∀ c ∈ schemaConsts S, ∀ s, c.value = .str s →
      '\\' ∉ s.toList ∧ '$' ∉ s.toList ∧ '\n' ∉ s.toList ∧ '\r' ∉ s.toList ∧ '"' ∉ s.toList) :
    ∃ L, readDart (DartGen.consts x S) = some L ∧
      ((L.classes.map (·.name)).Nodup ↔ ((schemaBlocks S).map (classWord x)).Nodup) := by
  refine ⟨_, C40_dart_members x S hl hb hc hnum hstr, ?_⟩
  rw [dartConsts_names]
  have e : (schemaBlocks S).map (classWord x) = ((schemaBlocks S).map (fun p => "_" ++ pathWord x p)).map (fun s => s.toList.drop 1) := by
    simp [classWord, pathWord_toList, Function.comp_def]
  rw [e]
  constructor
  · intro h
    refine nodup_map _ _ (fun a ha b hb e => ?_) h
    obtain ⟨p, -, rfl⟩ := List.mem_map.1 ha
    obtain ⟨q, -, rfl⟩ := List.mem_map.1 hb
    simp only [String.toList_append] at e
    rw [← String.toList_inj, String.toList_append, String.toList_append]
    simpa using e
  · intro h
    rw [List.nodup_iff_pairwise_ne, List.pairwise_map] at h
    exact List.nodup_iff_pairwise_ne.2 (h.imp (fun hn e => hn (by rw [e])))

/-- `constSample` meets the hypotheses and the condition; the blocks of `blockClashSchema` do not meet the condition. -/
example : ((schemaBlocks constSample).map (classWord testExt)).Nodup ∧ (schemaBlocks constSample).length = 3 ∧
    ¬ ((schemaBlocks blockClashSchema).map (classWord testExt)).Nodup := by
  refine ⟨?_, ?_, ?_⟩ <;> decide +kernel


end TPB.Props
