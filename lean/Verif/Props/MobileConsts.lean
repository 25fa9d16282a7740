/-
C74: constants in Kotlin and Swift keep their values.  C75: which constants the two compilers accept.

`readMobile kotlinLang`, `readMobile swiftLang`: what a text declares, by a reader (`Spec/MobileConsts.lean`)
that does not know the generators.
-/
import Verif.Proofs.MobileConsts
import Verif.Props.Consts
import Verif.Props.Mobile
namespace TPB.Props
open Spec

/-! ## C74: constants keep their values -/

/-- What the functions outside the repository must do on the constants of a schema: after the change of
case, names of blocks are identifiers; whole numbers are printed as digits, others as decimal fractions. -/
structure PrintsConsts (x : ExtF) (S : List ASTNode) : Prop where
  blocks : ∀ p ∈ schemaBlocks S, ∀ n ∈ p.getLast?, IsIdent (x.pascal n).toList
  nums : ∀ c ∈ schemaConsts S, ∀ t, c.value = .num t → PrintsNumber (x.whole t) (x.fmtF64 t)

/-- The strings that a Kotlin string literal keeps. -/
def KotlinStrings (S : List ASTNode) : Prop := ∀ c ∈ schemaConsts S, ∀ s, c.value = .str s →
  ('\\' ∉ s.toList ∧ '\n' ∉ s.toList ∧ '\r' ∉ s.toList) ∧ ¬ HasTemplate s

/-- The strings that a Swift string literal keeps. -/
def SwiftStrings (S : List ASTNode) : Prop := ∀ c ∈ schemaConsts S, ∀ s, c.value = .str s →
  '\\' ∉ s.toList ∧ '\n' ∉ s.toList ∧ '\r' ∉ s.toList

mutual
theorem legalItem_consts (path : List String) (i : ConstItem) (h : LegalConstItem i) :
    ∀ c ∈ itemConsts path i, LegalName c.name ∧ LegalType c.type ∧ LegalLit c.value := by
  match i with
  | .value n t v =>
    cases h with
    | value _ _ _ h1 h2 h3 => simp only [itemConsts, List.mem_singleton]; rintro c rfl; exact ⟨h1, h2, h3⟩
  | .node n is =>
    cases h with
    | node _ _ h1 h2 => exact legalItems_consts (path ++ [n]) is h2
theorem legalItems_consts (path : List String) (is : List ConstItem) (h : ∀ i ∈ is, LegalConstItem i) :
    ∀ c ∈ itemsConsts path is, LegalName c.name ∧ LegalType c.type ∧ LegalLit c.value := by
  match is with
  | [] => simp [itemsConsts]
  | i :: is =>
    intro c hc
    simp only [itemsConsts, List.mem_append] at hc
    rcases hc with hc | hc
    · exact legalItem_consts path i (h i (by simp)) c hc
    · exact legalItems_consts path is (fun j hj => h j (by simp [hj])) c hc
end

theorem legal_consts {S : List ASTNode} (hl : ∀ d ∈ S, LegalDecl d) :
    ∀ c ∈ schemaConsts S, LegalName c.name ∧ LegalType c.type ∧ LegalLit c.value := by
  intro c hc
  obtain ⟨d, hd, hc⟩ := List.mem_flatMap.1 hc
  cases d with
  | const n => exact legalItems_consts [n.id] n.items (hl _ hd).2 c hc
  | _ => simp [declConsts] at hc

theorem kotlin_good {x : ExtF} {S : List ASTNode} (hl : ∀ d ∈ S, LegalDecl d) (hx : PrintsConsts x S)
    (hs : KotlinStrings S) : ∀ d ∈ S, GoodDecl x kotlinString id d := by
  refine goodDecl_of x _ _ S hl hx.blocks (fun c hc => ?_)
  have h := legal_consts hl c hc
  refine ⟨h.1.1, ?_⟩
  have h3 := h.2.2
  cases hv : c.value with
  | str s =>
    rw [hv] at h3
    have := hs c hc s hv
    exact ⟨(kotlinString_iff s).2 ⟨⟨this.1.1, this.1.2.1, this.1.2.2, h3.1⟩, this.2⟩, h3.1, this.1.1⟩
  | int v => rw [hv] at h3; exact h3.1
  | num t => exact hx.nums c hc t hv
  | bool b => trivial

theorem swift_good {x : ExtF} {S : List ASTNode} (hl : ∀ d ∈ S, LegalDecl d) (hx : PrintsConsts x S)
    (hn : ∀ c ∈ schemaConsts S, IsIdent (x.camel c.name).toList) (hs : SwiftStrings S) :
    ∀ d ∈ S, GoodDecl x swiftString x.camel d := by
  refine goodDecl_of x _ _ S hl hx.blocks (fun c hc => ?_)
  have h := legal_consts hl c hc
  refine ⟨hn c hc, ?_⟩
  have h3 := h.2.2
  cases hv : c.value with
  | str s =>
    rw [hv] at h3
    have := hs c hc s hv
    exact ⟨(swiftString_iff s).2 ⟨this.1, this.2.1, this.2.2, h3.1⟩, h3.1, this.1⟩
  | int v => rw [hv] at h3; exact h3.1
  | num t => exact hx.nums c hc t hv
  | bool b => trivial

theorem mobileLit_same {V : Type} (num : String → V) (x : ExtF) (hfmt : ∀ t, num (x.fmtF64 t) = num t)
    (hpoint : ∀ t, x.whole t = true → num (x.fmtF64 t ++ ".0") = num (x.fmtF64 t)) (l : Literal) :
    SameValue num (mobileLit x l) l := by
  cases l with
  | num t =>
    simp only [mobileLit, SameValue]
    cases hw : x.whole t with
    | true => simp [hpoint t hw, hfmt]
    | false => simp [hfmt]
  | _ => simp [mobileLit, SameValue]

/-- A text generated for the constants of a schema declares exactly its blocks (names in upper camel case)
and constants, in order, each in the objects of its blocks, with its type and with a literal that
denotes its value. `num` gives the value of a decimal number, which the program that prints numbers
(outside the repository) and a final `.0` on whole numbers keep. -/
def KeepsConstants {V : Type} (num : String → V) (L : MobileLang) (block name : String → String)
    (type : TypeId → List Tok) (S : List ASTNode) (out : String) : Prop :=
  ∃ ds, readMobile L out = some ds ∧ blocksOf ds = (schemaBlocks S).map (·.map block) ∧
    (constsOf ds).length = (schemaConsts S).length ∧
    ∀ (i : Nat) (c : SchemaConst), (schemaConsts S)[i]? = some c → ∃ r : MobileConst, (constsOf ds)[i]? = some r ∧
      r.path = c.path.map block ∧ r.name = name c.name ∧ r.type = type c.type ∧ SameValue num r.value c.value

/-- **C74, Kotlin.** Whole floating-point numbers are no exception here, unlike in Rust (C40).  Excluded:
strings that a Kotlin literal does not keep (`C74_kotlin_strings` says which). -/
theorem C74_kotlin_partial {V : Type} (num : String → V) (x : ExtF) (hfmt : ∀ t, num (x.fmtF64 t) = num t)
    (hpoint : ∀ t, x.whole t = true → num (x.fmtF64 t ++ ".0") = num (x.fmtF64 t))
    (S : List ASTNode) (hl : ∀ d ∈ S, LegalDecl d) (hx : PrintsConsts x S) (hs : KotlinStrings S)
    (out : String) (ho : KotlinGen.consts x S = .ok out) :
    KeepsConstants num kotlinLang x.pascal id kotlinTypeToks S out := by
  have hp := schemaDecls_parts x.pascal (kotlinConst x) S
  refine ⟨_, kotlin_read x S (kotlin_good hl hx hs) out ho, hp.2, by simp [hp.1], fun i c hi => ?_⟩
  exact ⟨kotlinConst x c, by simp [hp.1, hi], rfl, rfl, rfl, mobileLit_same num x hfmt hpoint c.value⟩

/-- **C74, Swift.** The type of characters is written `char` (C43).  Excluded: strings that a Swift literal
does not keep; names of constants must be identifiers after the change of case. -/
theorem C74_swift_partial {V : Type} (num : String → V) (x : ExtF) (hfmt : ∀ t, num (x.fmtF64 t) = num t)
    (hpoint : ∀ t, x.whole t = true → num (x.fmtF64 t ++ ".0") = num (x.fmtF64 t))
    (S : List ASTNode) (hl : ∀ d ∈ S, LegalDecl d) (hx : PrintsConsts x S)
    (hn : ∀ c ∈ schemaConsts S, IsIdent (x.camel c.name).toList) (hs : SwiftStrings S)
    (out : String) (ho : SwiftGen.consts x S = .ok out) :
    KeepsConstants num swiftLang x.pascal x.camel (swiftTypeToks "char") S out := by
  have hp := schemaDecls_parts x.pascal (swiftConst x) S
  refine ⟨_, swift_read x S (swift_good hl hx hn hs) out ho, hp.2, by simp [hp.1], fun i c hi => ?_⟩
  exact ⟨swiftConst x c, by simp [hp.1, hi], rfl, rfl, rfl, mobileLit_same num x hfmt hpoint c.value⟩

/-! ### Strings -/

/-- The literal that a Kotlin or Swift expression text denotes. -/
def kotlinLit (text : String) : Option (Literal × String) := (scan text).bind (readMobileLit kotlinString)
def swiftLit (text : String) : Option (Literal × String) := (scan text).bind (readMobileLit swiftString)

theorem quoted_mobile (str : String → Option String) (s : String) (h : '"' ∉ s.toList)
    (hb : str s = some s → '\\' ∉ s.toList) :
    (scan ("\"" ++ s ++ "\"")).bind (readMobileLit str) = some (.str s, "") ↔ str s = some s := by
  constructor
  · intro e
    rcases scan_quoted_text s h with h1 | h1
    · rw [h1] at e
      simpa [readMobileLit] using e
    · rw [h1] at e
      simp at e
  · intro e
    have h1 : scan ("\"" ++ s ++ "\"") = some [.str s] := by
      have r := runs_string s h (hb e)
      have e2 : ("\"" ++ s ++ "\"").toList = '"' :: (s.toList ++ ['"']) := by simp
      unfold scan
      rw [e2]
      have := scanFrom_run .idle ('"' :: (s.toList ++ ['"'])) []
      rw [List.append_nil, r] at this
      simpa [scanFrom] using this
    rw [h1]
    simp [readMobileLit, e]

/-- A string constant's Kotlin literal denotes the string exactly if it has no backslash, no line break,
and no `$` that begins a template. -/
theorem C74_kotlin_strings (x : ExtF) (t : TypeId) (s : String) (ty : TypeId) (h : '"' ∉ s.toList) :
    (∃ text, KotlinGen.constValue x t ⟨.str s, ty⟩ = .ok text ∧ kotlinLit text = some (.str s, "")) ↔
      ('\\' ∉ s.toList ∧ '\n' ∉ s.toList ∧ '\r' ∉ s.toList) ∧ ¬ HasTemplate s := by
  have e : KotlinGen.constValue x t ⟨.str s, ty⟩ = .ok ("\"" ++ s ++ "\"") := rfl
  have h1 := quoted_mobile kotlinString s h (fun e => ((kotlinString_iff s).1 e).1.1)
  rw [kotlinString_iff] at h1
  constructor
  · rintro ⟨text, e1, e2⟩
    rw [e] at e1
    cases e1
    have := h1.1 e2
    exact ⟨⟨this.1.1, this.1.2.1, this.1.2.2.1⟩, this.2⟩
  · intro g
    exact ⟨_, e, h1.2 ⟨⟨g.1.1, g.1.2.1, g.1.2.2, h⟩, g.2⟩⟩

/-- A string constant's Swift literal denotes the string exactly if it has no backslash and no line break. -/
theorem C74_swift_strings (x : ExtF) (t : TypeId) (s : String) (ty : TypeId) (h : '"' ∉ s.toList) :
    (∃ text, SwiftGen.constValue x ⟨.str s, ty⟩ t = .ok text ∧ swiftLit text = some (.str s, "")) ↔
      '\\' ∉ s.toList ∧ '\n' ∉ s.toList ∧ '\r' ∉ s.toList := by
  have e : SwiftGen.constValue x ⟨.str s, ty⟩ t = .ok ("\"" ++ s ++ "\"") := rfl
  have h1 := quoted_mobile swiftString s h (fun e => ((swiftString_iff s).1 e).1)
  rw [swiftString_iff] at h1
  constructor
  · rintro ⟨text, e1, e2⟩
    rw [e] at e1
    cases e1
    have := h1.1 e2
    exact ⟨this.1, this.2.1, this.2.2.1⟩
  · intro g
    exact ⟨_, e, h1.2 ⟨g.1, g.2.1, g.2.2, h⟩⟩

/-- Price: `$5` is kept by Kotlin, `$x` and `${` are not. -/
example : ¬ HasTemplate "$5 or 5$" ∧ HasTemplate "$x" ∧ HasTemplate "a ${" := by
  refine ⟨?_, ⟨[], 'x', [], by decide, by decide⟩, ⟨['a', ' '], '{', [], by decide, by decide⟩⟩
  have h : kotlinString "$5 or 5$" = some "$5 or 5$" := by decide +kernel
  exact ((kotlinString_iff _).1 h).2

/-! ### Samples -/

/-- Numbers printed as Rust prints them: whole numbers without a point. -/
def mobileExt : ExtF :=
  { testExtF with fmtF64 := fun t => if wholeText t then String.ofList (t.toList.takeWhile (· ≠ '.')) else t }

/-- Blocks in blocks, an empty block, all kinds of literals. -/
def mobileSample : List ASTNode :=
  [.const ⟨"app_limits", [.value "MAX" (typeOfName "u8") (constOf (.int 255)),
      .value "BIG" (typeOfName "i64") (constOf (.int 9)),
      .value "RATE" (typeOfName "f64") (constOf (.num "16.0")),
      .node "groups" [.value "MAIN" (typeOfName "GroupAddress") (constOf (.int 7)), .node "none" []],
      .value "NAME" (typeOfName "String") (constOf (.str "costs $5"))]⟩,
   .const ⟨"flags", [.value "ON" (typeOfName "bool") (constOf (.bool true))]⟩]

theorem mobileSample_legal : ∀ d ∈ mobileSample, LegalDecl d := by
  intro d hd
  simp only [mobileSample, List.mem_cons, List.not_mem_nil, or_false] at hd
  rcases hd with rfl | rfl
  · refine ⟨by decide, fun i hi => ?_⟩
    simp only [List.mem_cons, List.not_mem_nil, or_false] at hi
    rcases hi with rfl | rfl | rfl | rfl | rfl
    · exact .value _ _ _ (by decide) (.name _ (by decide)) (by simp only [constOf, LegalLit]; decide)
    · exact .value _ _ _ (by decide) (.name _ (by decide)) (by simp only [constOf, LegalLit]; decide)
    · exact .value _ _ _ (by decide) (.name _ (by decide)) ⟨1, [6], [0], by decide, by decide, by decide, by decide⟩
    · refine .node _ _ (by decide) (fun i hi => ?_)
      simp only [List.mem_cons, List.not_mem_nil, or_false] at hi
      rcases hi with rfl | rfl
      · exact .value _ _ _ (by decide) (.name _ (by decide)) (by simp only [constOf, LegalLit]; decide)
      · exact .node _ _ (by decide) (by simp)
    · exact .value _ _ _ (by decide) (.name _ (by decide)) (by simp only [constOf, LegalLit]; decide)
  · refine ⟨by decide, fun i hi => ?_⟩
    simp only [List.mem_singleton] at hi
    subst hi
    exact .value _ _ _ (by decide) (.name _ (by decide)) trivial

theorem mobileSample_consts : schemaConsts mobileSample =
    [⟨["app_limits"], "MAX", .integer "u8" 1 false, .int 255⟩, ⟨["app_limits"], "BIG", .integer "i64" 8 true, .int 9⟩,
     ⟨["app_limits"], "RATE", .number "f64" 8, .num "16.0"⟩,
     ⟨["app_limits", "groups"], "MAIN", .other "GroupAddress", .int 7⟩,
     ⟨["app_limits"], "NAME", .other "String", .str "costs $5"⟩, ⟨["flags"], "ON", .bool "bool", .bool true⟩] := rfl

theorem mobileSample_prints : PrintsConsts mobileExt mobileSample := by
  refine ⟨by decide +kernel, ?_⟩
  rw [mobileSample_consts]
  intro c hc t ht
  simp only [List.mem_cons, List.not_mem_nil, or_false] at hc
  rcases hc with rfl | rfl | rfl | rfl | rfl | rfl <;> simp at ht
  subst ht
  simp only [PrintsNumber]
  decide +kernel

theorem mobileSample_kotlin : KotlinStrings mobileSample := by
  unfold KotlinStrings
  rw [mobileSample_consts]
  intro c hc t ht
  simp only [List.mem_cons, List.not_mem_nil, or_false] at hc
  rcases hc with rfl | rfl | rfl | rfl | rfl | rfl <;> simp at ht
  subst ht
  have h : kotlinString "costs $5" = some "costs $5" := by decide +kernel
  have := (kotlinString_iff _).1 h
  exact ⟨⟨this.1.1, this.1.2.1, this.1.2.2.1⟩, this.2⟩

theorem mobileSample_swift : SwiftStrings mobileSample := fun c hc s hs => (mobileSample_kotlin c hc s hs).1

theorem mobileSample_names : ∀ c ∈ schemaConsts mobileSample, IsIdent (mobileExt.camel c.name).toList := by decide +kernel

/-- The value of a decimal number, as far as `mobileExt` prints it: a final `.0…0` does not matter. -/
def numValue (t : String) : List Char := if wholeText t then t.toList.takeWhile (· ≠ '.') else t.toList

theorem takeWhile_point (cs : List Char) : (cs.takeWhile (· ≠ '.')).takeWhile (· ≠ '.') = cs.takeWhile (· ≠ '.') ∧
    (cs.takeWhile (· ≠ '.')).dropWhile (· ≠ '.') = [] ∧
    (cs.takeWhile (· ≠ '.') ++ ['.', '0']).takeWhile (· ≠ '.') = cs.takeWhile (· ≠ '.') ∧
    (cs.takeWhile (· ≠ '.') ++ ['.', '0']).dropWhile (· ≠ '.') = ['.', '0'] := by
  induction cs with
  | nil => simp
  | cons c cs ih =>
    obtain ⟨h1, h2, h3, h4⟩ := ih
    by_cases hc : c = '.'
    · subst hc; simp
    · simp only [List.takeWhile_cons, List.dropWhile_cons, List.cons_append, hc, ne_eq, not_false_eq_true, decide_true,
        if_true]
      exact ⟨congrArg _ h1, h2, congrArg _ h3, h4⟩

theorem numValue_fmt (t : String) : numValue (mobileExt.fmtF64 t) = numValue t := by
  have e : mobileExt.fmtF64 t = if wholeText t then String.ofList (t.toList.takeWhile (· ≠ '.')) else t := rfl
  rw [e]
  cases hw : wholeText t with
  | false => simp
  | true =>
    have h := takeWhile_point t.toList
    simp only [if_true]
    have e1 : wholeText (String.ofList (t.toList.takeWhile (· ≠ '.'))) = true := by
      unfold wholeText
      rw [String.toList_ofList, h.2.1]
      rfl
    unfold numValue
    rw [e1, hw, String.toList_ofList]
    simp only [if_true]
    exact h.1

theorem numValue_point (t : String) (hw : mobileExt.whole t = true) :
    numValue (mobileExt.fmtF64 t ++ ".0") = numValue (mobileExt.fmtF64 t) := by
  have hw : wholeText t = true := hw
  rw [numValue_fmt]
  have e : mobileExt.fmtF64 t = String.ofList (t.toList.takeWhile (· ≠ '.')) := by
    show (if wholeText t then String.ofList (t.toList.takeWhile (· ≠ '.')) else t) = _
    rw [if_pos hw]
  have h := takeWhile_point t.toList
  have e2 : (mobileExt.fmtF64 t ++ ".0").toList = t.toList.takeWhile (· ≠ '.') ++ ['.', '0'] := by
    rw [e, String.toList_append, String.toList_ofList]; rfl
  have e1 : wholeText (mobileExt.fmtF64 t ++ ".0") = true := by
    unfold wholeText
    rw [e2, h.2.2.2]
    rfl
  unfold numValue
  rw [e1, hw, e2]
  simp only [if_true]
  exact h.2.2.1

theorem mobileSample_wf : ∀ d ∈ mobileSample, ∃ k, WFDecl k d := by
  refine fun d hd => ⟨0, ?_⟩
  simp only [mobileSample, List.mem_cons, List.not_mem_nil, or_false] at hd
  rcases hd with rfl | rfl
  · intro i hi
    simp only [List.mem_cons, List.not_mem_nil, or_false] at hi
    rcases hi with rfl | rfl | rfl | rfl | rfl
    · exact .value _ _ _ (.name _) rfl
    · exact .value _ _ _ (.name _) rfl
    · exact .value _ _ _ (.name _) rfl
    · refine .node _ _ (fun i hi => ?_)
      simp only [List.mem_cons, List.not_mem_nil, or_false] at hi
      rcases hi with rfl | rfl
      · exact .value _ _ _ (.name _) rfl
      · exact .node _ _ (by simp)
    · exact .value _ _ _ (.name _) rfl
  · intro i hi
    simp only [List.mem_singleton] at hi
    subst hi
    exact .value _ _ _ (.name _) rfl

theorem mobileSample_fits : ∀ c ∈ schemaConsts mobileSample, LiteralFits c.type c.value := by
  rw [mobileSample_consts]
  intro c hc
  simp only [List.mem_cons, List.not_mem_nil, or_false] at hc
  rcases hc with rfl | rfl | rfl | rfl | rfl | rfl
  all_goals first | trivial | exact .inl rfl

/-- The sample is generated, and C74 applies to it. -/
example : ∃ out, KotlinGen.consts mobileExt mobileSample = .ok out ∧
    KeepsConstants numValue kotlinLang toPascal id kotlinTypeToks mobileSample out := by
  obtain ⟨out, h⟩ := (KotlinGen.ok_consts_iff (x := mobileExt) mobileSample_wf).2 mobileSample_fits
  exact ⟨out, h, C74_kotlin_partial numValue mobileExt numValue_fmt numValue_point mobileSample mobileSample_legal
    mobileSample_prints mobileSample_kotlin out h⟩

example : ∃ out, SwiftGen.consts mobileExt mobileSample = .ok out ∧
    KeepsConstants numValue swiftLang toPascal toCamel (swiftTypeToks "char") mobileSample out := by
  obtain ⟨out, h⟩ := (SwiftGen.ok_consts_iff (x := mobileExt) mobileSample_wf).2 mobileSample_fits
  exact ⟨out, h, C74_swift_partial numValue mobileExt numValue_fmt numValue_point mobileSample mobileSample_legal
    mobileSample_prints mobileSample_names mobileSample_swift out h⟩

theorem ok_of_option {ε α} {r : Except ε α} {a : α} (h : r.toOption = some a) : r = .ok a := by
  cases r with
  | error e => cases h
  | ok b => cases h; rfl

/-- The Kotlin text of the sample. -/
example : KotlinGen.consts mobileExt mobileSample = .ok ("object AppLimits {\n    const val MAX: UByte = 255U\n" ++
    "    const val BIG: Long = 9L\n    const val RATE: Double = 16.0\n\n    object Groups {\n" ++
    "        const val MAIN: ULong = 7UL\n\n        object None\n    }\n\n" ++
    "    const val NAME: String = \"costs $5\"\n}\n\nobject Flags {\n    const val ON: Boolean = true\n}\n") :=
  ok_of_option (by decide +kernel)

/-- The statement of C74 for Kotlin, without exclusions. -/
def KotlinConstsIntact (x : ExtF) : Prop :=
  ∀ (S : List ASTNode) (out : String), (∀ d ∈ S, LegalDecl d) → PrintsConsts x S → KotlinGen.consts x S = .ok out →
    KeepsConstants id kotlinLang x.pascal id kotlinTypeToks S out

/-- The statement of C74 for Swift, without exclusions. -/
def SwiftConstsIntact (x : ExtF) : Prop :=
  ∀ (S : List ASTNode) (out : String), (∀ d ∈ S, LegalDecl d) → PrintsConsts x S →
    (∀ c ∈ schemaConsts S, IsIdent (x.camel c.name).toList) → SwiftGen.consts x S = .ok out →
    KeepsConstants id swiftLang x.pascal x.camel (swiftTypeToks "char") S out

/-- A schema with one constant. -/
def mobileOne (block name type : String) (l : Literal) : List ASTNode :=
  [.const ⟨block, [.value name (typeOfName type) (constOf l)]⟩]

theorem mobileOne_legal (block name type : String) (l : Literal) (h1 : LegalName block) (h2 : LegalName name)
    (h3 : LegalName type) (h4 : LegalLit l) : ∀ d ∈ mobileOne block name type l, LegalDecl d := by
  intro d hd
  simp only [mobileOne, List.mem_singleton] at hd
  subst hd
  refine ⟨h1, fun i hi => ?_⟩
  simp only [List.mem_singleton] at hi
  subst hi
  exact .value _ _ _ h2 (.name _ h3) h4

/-- `"$user"` is a template in Kotlin. -/
theorem C74_kotlin_template : ¬ KotlinConstsIntact testExtF := by
  intro h
  obtain ⟨ds, h1, -⟩ := h (mobileOne "a" "KEY" "String" (.str "$user"))
    "object A {\n    const val KEY: String = \"$user\"\n}\n"
    (mobileOne_legal _ _ _ _ (by decide) (by decide) (by decide) (by simp only [LegalLit]; decide))
    ⟨by decide +kernel, by simp [mobileOne, schemaConsts, declConsts, itemsConsts, itemConsts, constOf]⟩
    (ok_of_option (by decide +kernel))
  have h2 : (readMobile kotlinLang "object A {\n    const val KEY: String = \"$user\"\n}\n").isNone = true := by
    decide +kernel
  rw [h1] at h2
  simp at h2

/-- `"\("` is not a string literal in Swift. -/
theorem C74_swift_escape : ¬ SwiftConstsIntact testExtF := by
  intro h
  obtain ⟨ds, h1, -⟩ := h (mobileOne "a" "KEY" "String" (.str "\\(")) "struct A {\n    static let key: String = \"\\(\"\n}\n"
    (mobileOne_legal _ _ _ _ (by decide) (by decide) (by decide) (by simp only [LegalLit]; decide))
    ⟨by decide +kernel, by simp [mobileOne, schemaConsts, declConsts, itemsConsts, itemConsts, constOf]⟩
    (by decide +kernel) (ok_of_option (by decide +kernel))
  have h2 : (readMobile swiftLang "struct A {\n    static let key: String = \"\\(\"\n}\n").isNone = true := by
    decide +kernel
  rw [h1] at h2
  simp at h2

/-! ## C75: which constants are accepted -/

/-- The Kotlin text generated for the constants of a schema is accepted by the compiler. -/
def KotlinAccepts (x : ExtF) (S : List ASTNode) : Prop :=
  ∃ out ds, KotlinGen.consts x S = .ok out ∧ readMobile kotlinLang out = some ds ∧ KotlinTyped ds

/-- The Swift text generated for the constants of a schema is accepted by the compiler. -/
def SwiftAccepts (x : ExtF) (S : List ASTNode) : Prop :=
  ∃ out ds, SwiftGen.consts x S = .ok out ∧ readMobile swiftLang out = some ds ∧ SwiftTyped ds

/-- What a schema must be like in Kotlin: names stay distinct and are no keywords, literals have the declared
type and are in its range, and no block has the name of a type used in it. -/
def KotlinFit (x : ExtF) : List ASTNode → Prop :=
  ConstsFit KotlinName (fun _ => True) SuitsKotlin kotlinTypeToks x.pascal id

/-- What a schema must be like in Swift: in addition, no 32-bit floating-point constants. -/
def SwiftFit (x : ExtF) : List ASTNode → Prop :=
  ConstsFit SwiftName (fun n => n ≠ "Type" ∧ n ≠ "Protocol") SuitsSwift (swiftTypeToks "char") x.pascal x.camel

/-- **C75, Kotlin.** The constants of an accepted schema are generated and compile exactly if the schema
is as `KotlinFit` says. Assumed: the external functions print names and numbers, and the strings are
those of C74. -/
theorem C75_kotlin_partial (x : ExtF) (S : List ASTNode) (hw : ∀ d ∈ S, ∃ k, WFDecl k d) (hl : ∀ d ∈ S, LegalDecl d)
    (hx : PrintsConsts x S) (hs : KotlinStrings S) : KotlinAccepts x S ↔ KotlinFit x S := by
  have hc := legal_consts hl
  have key (hf : ∀ c ∈ schemaConsts S, LiteralFits c.type c.value) :
      KotlinTyped (schemaDecls x.pascal (kotlinConst x) S) ↔ KotlinFit x S :=
    typed_iff KotlinName (fun _ => True) KotlinLitOk SuitsKotlin kotlinTypeToks x.pascal id (kotlinConst x) S
      (fun c => ⟨rfl, rfl, rfl⟩) (fun c h => kotlin_suits (hc c h).2.1 (hc c h).2.2 (hf c h))
  constructor
  · rintro ⟨out, ds, h1, h2, h3⟩
    rw [kotlin_read x S (kotlin_good hl hx hs) out h1] at h2
    cases h2
    exact (key ((KotlinGen.ok_consts_iff hw).1 ⟨out, h1⟩)).1 h3
  · intro h
    have hf : ∀ c ∈ schemaConsts S, LiteralFits c.type c.value := fun c hc => suitsKotlin_fits (h.suits c hc)
    obtain ⟨out, ho⟩ := (KotlinGen.ok_consts_iff (x := x) hw).2 hf
    exact ⟨out, _, ho, kotlin_read x S (kotlin_good hl hx hs) out ho, (key hf).2 h⟩

/-- **C75, Swift.** -/
theorem C75_swift_partial (x : ExtF) (S : List ASTNode) (hw : ∀ d ∈ S, ∃ k, WFDecl k d) (hl : ∀ d ∈ S, LegalDecl d)
    (hx : PrintsConsts x S) (hn : ∀ c ∈ schemaConsts S, IsIdent (x.camel c.name).toList) (hs : SwiftStrings S) :
    SwiftAccepts x S ↔ SwiftFit x S := by
  have hc := legal_consts hl
  have key (hf : ∀ c ∈ schemaConsts S, LiteralFits c.type c.value) :
      SwiftTyped (schemaDecls x.pascal (swiftConst x) S) ↔ SwiftFit x S :=
    typed_iff SwiftName (fun n => n ≠ "Type" ∧ n ≠ "Protocol") SwiftLitOk SuitsSwift (swiftTypeToks "char") x.pascal x.camel
      (swiftConst x) S (fun c => ⟨rfl, rfl, rfl⟩) (fun c h => swift_suits (hc c h).2.1 (hc c h).2.2 (hf c h))
  constructor
  · rintro ⟨out, ds, h1, h2, h3⟩
    rw [swift_read x S (swift_good hl hx hn hs) out h1] at h2
    cases h2
    exact (key ((SwiftGen.ok_consts_iff hw).1 ⟨out, h1⟩)).1 h3
  · intro h
    have hf : ∀ c ∈ schemaConsts S, LiteralFits c.type c.value := fun c hc => suitsSwift_fits (h.suits c hc)
    obtain ⟨out, ho⟩ := (SwiftGen.ok_consts_iff (x := x) hw).2 hf
    exact ⟨out, _, ho, swift_read x S (swift_good hl hx hn hs) out ho, (key hf).2 h⟩

/-- A 32-bit floating-point constant, whatever its value, makes the Swift text invalid: its literal ends in
`f`, which Swift does not have. -/
theorem C75_swift_f32 (x : ExtF) (S : List ASTNode) (hw : ∀ d ∈ S, ∃ k, WFDecl k d) (hl : ∀ d ∈ S, LegalDecl d)
    (hx : PrintsConsts x S) (hn : ∀ c ∈ schemaConsts S, IsIdent (x.camel c.name).toList) (hs : SwiftStrings S)
    (c : SchemaConst) (hc : c ∈ schemaConsts S) (t : c.type = typeOfName "f32") : ¬ SwiftAccepts x S := by
  rw [C75_swift_partial x S hw hl hx hn hs]
  intro h
  have := h.suits c hc
  rw [t] at this
  cases hv : c.value <;> rw [hv] at this
  · exact this.elim
  · exact this.elim
  · exact absurd (show (4 : Nat) = 8 from this) (by decide)
  · exact this.elim

/-! ### Samples -/

theorem not_hides {bs : List (List String)} {q : List String} {n : String} (h : ∀ p ∈ bs, p.getLast? ≠ some n) :
    ¬ Hides bs q n := by
  rintro ⟨p, hp, k, rfl⟩
  exact h _ hp (by simp)

theorem mobileSample_kotlinFit : KotlinFit mobileExt mobileSample where
  distinct := by decide +kernel
  names := by decide +kernel
  blockNames := by decide +kernel
  innerNames := fun _ _ _ _ _ => trivial
  suits := by
    rw [mobileSample_consts]
    intro c hc
    simp only [List.mem_cons, List.not_mem_nil, or_false] at hc
    rcases hc with rfl | rfl | rfl | rfl | rfl | rfl
    all_goals first | trivial | exact .inl rfl | simp [SuitsKotlin]
  visible := by
    have hb : ∀ T ∈ ["UByte", "Long", "Double", "ULong", "String", "Boolean"],
        ∀ p ∈ (schemaBlocks mobileSample).map (·.map mobileExt.pascal), p.getLast? ≠ some T := by decide +kernel
    rw [mobileSample_consts]
    intro c hc T hT
    refine not_hides (hb T ?_)
    simp only [List.mem_cons, List.not_mem_nil, or_false] at hc
    rcases hc with rfl | rfl | rfl | rfl | rfl | rfl <;> simp only [kotlinTypeToks] at hT <;> simp at hT <;> subst hT <;> decide

theorem mobileSample_swiftFit : SwiftFit mobileExt mobileSample where
  distinct := by decide +kernel
  names := by decide +kernel
  blockNames := by decide +kernel
  innerNames := by decide +kernel
  suits := by
    rw [mobileSample_consts]
    intro c hc
    simp only [List.mem_cons, List.not_mem_nil, or_false] at hc
    rcases hc with rfl | rfl | rfl | rfl | rfl | rfl
    all_goals first | trivial | exact .inl rfl | simp [SuitsSwift]
  visible := by
    have hb : ∀ T ∈ ["UInt8", "Int64", "Double", "UInt64", "String", "Bool"],
        ∀ p ∈ (schemaBlocks mobileSample).map (·.map mobileExt.pascal), p.getLast? ≠ some T := by decide +kernel
    rw [mobileSample_consts]
    intro c hc T hT
    refine not_hides (hb T ?_)
    simp only [List.mem_cons, List.not_mem_nil, or_false] at hc
    rcases hc with rfl | rfl | rfl | rfl | rfl | rfl <;> simp only [swiftTypeToks] at hT <;> simp at hT <;> subst hT <;> decide

/-- C75 applies to the sample, which is accepted. -/
example : KotlinAccepts mobileExt mobileSample ∧ SwiftAccepts mobileExt mobileSample :=
  ⟨(C75_kotlin_partial _ _ mobileSample_wf mobileSample_legal mobileSample_prints mobileSample_kotlin).2
      mobileSample_kotlinFit,
   (C75_swift_partial _ _ mobileSample_wf mobileSample_legal mobileSample_prints mobileSample_names mobileSample_swift).2
      mobileSample_swiftFit⟩

/-- The statement of C75 for Kotlin, without exclusions: literals of the right kind are enough. -/
def KotlinConstsCompile (x : ExtF) : Prop :=
  ∀ S, (∀ d ∈ S, ∃ k, WFDecl k d) → (∀ d ∈ S, LegalDecl d) → PrintsConsts x S → KotlinStrings S →
    (∀ c ∈ schemaConsts S, LiteralFits c.type c.value) → KotlinAccepts x S

/-- The statement of C75 for Swift, without exclusions. -/
def SwiftConstsCompile (x : ExtF) : Prop :=
  ∀ S, (∀ d ∈ S, ∃ k, WFDecl k d) → (∀ d ∈ S, LegalDecl d) → PrintsConsts x S →
    (∀ c ∈ schemaConsts S, IsIdent (x.camel c.name).toList) → SwiftStrings S →
    (∀ c ∈ schemaConsts S, LiteralFits c.type c.value) → SwiftAccepts x S

theorem mobileOne_wf (block name type : String) (l : Literal) : ∀ d ∈ mobileOne block name type l, ∃ k, WFDecl k d := by
  intro d hd
  simp only [mobileOne, List.mem_singleton] at hd
  subst hd
  refine ⟨0, fun i hi => ?_⟩
  simp only [List.mem_singleton] at hi
  subst hi
  exact .value _ _ _ (.name _) rfl

theorem mobileOne_consts (block name type : String) (l : Literal) :
    schemaConsts (mobileOne block name type l) = [⟨[block], name, typeOfName type, l⟩] := rfl

/-- `limits { MAX: u8 = 300 }` is generated as `const val MAX: UByte = 300U`, which is out of range. -/
theorem C75_kotlin_range : ¬ KotlinConstsCompile testExtF := by
  intro h
  have hl := mobileOne_legal "limits" "MAX" "u8" (.int 300) (by decide) (by decide) (by decide)
    (by simp only [LegalLit]; decide)
  have hw := mobileOne_wf "limits" "MAX" "u8" (.int 300)
  have hp : PrintsConsts testExtF (mobileOne "limits" "MAX" "u8" (.int 300)) :=
    ⟨by decide +kernel, by simp [mobileOne_consts]⟩
  have hs : KotlinStrings (mobileOne "limits" "MAX" "u8" (.int 300)) := by simp [KotlinStrings, mobileOne_consts]
  have h1 := (C75_kotlin_partial _ _ hw hl hp hs).1 (h _ hw hl hp hs (by simp [mobileOne_consts]; trivial))
  have := h1.suits _ (List.mem_singleton.2 rfl)
  exact absurd (show (300 : Int) < 2 ^ (8 * 1 - 0) from this) (by decide)

/-- In the block `string { NAME: String = "x" }` the name `String` is the object itself: the text is rejected,
in Kotlin and in Swift. -/
theorem C75_hidden_type : ¬ KotlinAccepts testExtF (mobileOne "string" "NAME" "String" (.str "x")) ∧
    ¬ SwiftAccepts testExtF (mobileOne "string" "NAME" "String" (.str "x")) := by
  have hl := mobileOne_legal "string" "NAME" "String" (.str "x") (by decide) (by decide) (by decide)
    (by simp only [LegalLit]; decide)
  have hw := mobileOne_wf "string" "NAME" "String" (.str "x")
  have hp : PrintsConsts testExtF (mobileOne "string" "NAME" "String" (.str "x")) :=
    ⟨by decide +kernel, by simp [mobileOne_consts]⟩
  have hs : KotlinStrings (mobileOne "string" "NAME" "String" (.str "x")) := by
    intro c hc s e
    rw [mobileOne_consts, List.mem_singleton] at hc
    subst hc
    cases e
    have h : kotlinString "x" = some "x" := by decide +kernel
    have := (kotlinString_iff _).1 h
    exact ⟨⟨this.1.1, this.1.2.1, this.1.2.2.1⟩, this.2⟩
  have hs' : SwiftStrings (mobileOne "string" "NAME" "String" (.str "x")) := fun c hc s e => (hs c hc s e).1
  have hh : Hides ((schemaBlocks (mobileOne "string" "NAME" "String" (.str "x"))).map (·.map testExtF.pascal))
      (["string"].map testExtF.pascal) "String" := ⟨["String"], by decide +kernel, 0, rfl⟩
  constructor
  · rw [C75_kotlin_partial _ _ hw hl hp hs]
    intro h
    refine h.visible _ (List.mem_singleton.2 rfl) "String" ?_ hh
    show kotlinTypeToks (.other "String") = _
    simp [kotlinTypeToks]
  · rw [C75_swift_partial _ _ hw hl hp (by decide +kernel) hs']
    intro h
    refine h.visible _ (List.mem_singleton.2 rfl) "String" ?_ hh
    show swiftTypeToks "char" (.other "String") = _
    simp [swiftTypeToks]

/-- `limits { RATE: f32 = 0.5 }` is generated as `static let rate: Float = 0.5f`. -/
theorem C75_swift_suffix : ¬ SwiftConstsCompile testExtF := by
  intro h
  have hl := mobileOne_legal "limits" "RATE" "f32" (.num "0.5") (by decide) (by decide) (by decide)
    ⟨0, [], [5], by decide, by decide, by decide, by decide⟩
  have hw := mobileOne_wf "limits" "RATE" "f32" (.num "0.5")
  have hp : PrintsConsts testExtF (mobileOne "limits" "RATE" "f32" (.num "0.5")) := by
    refine ⟨by decide +kernel, ?_⟩
    intro c hc t e
    rw [mobileOne_consts, List.mem_singleton] at hc
    subst hc
    cases e
    simp only [PrintsNumber]
    decide +kernel
  have hs : SwiftStrings (mobileOne "limits" "RATE" "f32" (.num "0.5")) := by simp [SwiftStrings, mobileOne_consts]
  have hn : ∀ c ∈ schemaConsts (mobileOne "limits" "RATE" "f32" (.num "0.5")), IsIdent (testExtF.camel c.name).toList := by
    decide +kernel
  exact C75_swift_f32 _ _ hw hl hp hn hs _ (List.mem_singleton.2 rfl) rfl
    (h _ hw hl hp hn hs (by simp [mobileOne_consts]; trivial))

end TPB.Props
