/-
C77: what `createDefault` of the emitted Kotlin and Swift models returns.
-/
import Verif.Proofs.KotlinDefaults
import Verif.Proofs.SwiftDefaults
import Verif.Props.MobileTyping
namespace TPB.Props
open Spec

/-! ## Kotlin -/

/-- **C77, Kotlin, part.** If the emitted models are accepted by the compiler, then for every struct and enum of the
schema: `createDefault()` returns exactly its default value (`IsDefault`), it is never without meaning, and it returns
if and only if the default value is finite (`Grounded`); otherwise every depth of the stack is exceeded.  Missing: it
should return for all types, see below. -/
theorem C77_kotlin_partial (x : ExtF) (L : KotlinLib) (hL : L.Std) (ts : List Token) (S : List ASTNode)
    (h : parse ts = .ok S) (N : Kotlin.NoAccidents x S) :
    ∃ out F, KotlinGen.models x S = .ok out ∧ Kotlin.IsText F out ∧ (Kotlin.Typed L F ↔ Kotlin.Fit L x S) ∧
      (Kotlin.Typed L F → ∀ id, Own S id →
        (∀ v, (∃ k, ∀ j, k ≤ j → Kotlin.create F j id = .ok v) ↔ IsDefault (kotlinMakes x) S (.other id) v) ∧
        (∀ k, Kotlin.create F k id ≠ .error .stuck) ∧
        ((∃ v, IsDefault (kotlinMakes x) S (.other id) v) ↔ Grounded S id) ∧
        ((∀ k, Kotlin.create F k id = .error .deep) ↔ ¬ Grounded S id)) := by
  have hw := accepted_decls h
  obtain ⟨out, ho⟩ := KotlinGen.ok_models (x := x) hw
  refine ⟨out, _, ho, KotlinGen.models_text x S out ho, KotlinTyping.typed_iff hw hL N, fun hT id hid => ?_⟩
  have R := KotlinDefaults.runs hw ((KotlinTyping.typed_iff hw hL N).1 hT)
  refine ⟨MobileDefaults.always_iff R hid, fun k => MobileDefaults.never_stuck R k id (MobileDefaults.own_iff.1 hid), ?_,
    MobileDefaults.deep_iff R hid⟩
  rw [← MobileDefaults.grounded_iff R hid]
  exact ⟨fun ⟨v, hv⟩ => let ⟨k, hk⟩ := (MobileDefaults.returns_iff R hid v).2 hv; ⟨k, v, hk⟩,
    fun ⟨k, v, hk⟩ => ⟨v, (MobileDefaults.returns_iff R hid v).1 ⟨k, hk⟩⟩⟩

theorem not_grounded_self {S : List ASTNode} {d : ASTNode} {id : String} (hd : d ∈ S) (hn : declName d = some id)
    (ho : Own S id) (ht : .other id ∈ defaulted d) : ¬ Grounded S id := by
  intro h
  induction h with
  | mk _ ih => exact ih d hd hn _ ht ho hn ho ht

/-- **C77, Kotlin: not for all types.** `createDefault()` of a struct with a field of its own type, and of an enum whose
first variant contains the enum, never returns, although the compiler accepts it. -/
theorem C77_kotlin_endless (x : ExtF) (L : KotlinLib) (hL : L.Std) (ts : List Token) (S : List ASTNode)
    (h : parse ts = .ok S) (N : Kotlin.NoAccidents x S) (hF : Kotlin.Fit L x S) (d : ASTNode) (hd : d ∈ S) (id : String)
    (hn : declName d = some id) (ht : .other id ∈ defaulted d) :
    ∃ out F, KotlinGen.models x S = .ok out ∧ Kotlin.IsText F out ∧ Kotlin.Typed L F ∧
      ∀ k, Kotlin.create F k id = .error .deep := by
  obtain ⟨out, F, h1, h2, h3, h4⟩ := C77_kotlin_partial x L hL ts S h N
  have ho : Own S id := by
    cases d with
    | struct n => cases hn; exact .inl ⟨n, hd, rfl⟩
    | enum n => cases hn; exact .inr ⟨n, hd, rfl⟩
    | _ => cases hn
  exact ⟨out, F, h1, h2, h3.2 hF, (h4 (h3.2 hF) id ho).2.2.2.2 (not_grounded_self hd hn ho ht)⟩

/-! ## Swift -/

/-- **C77, Swift.** If the emitted models are accepted by the compiler, `createDefault()` of every struct and enum of
the schema returns its default value and nothing else.  Missing: schemas where a name is by accident the name of another
declaration (`Swift.NoAccidents`). -/
theorem C77_swift_partial (x : ExtF) (hx : x.camel "createDefault" = "createDefault") (L : SwiftLib) (hL : L.Std)
    (ts : List Token) (S : List ASTNode) (h : parse ts = .ok S) (N : Swift.NoAccidents x S) :
    ∃ out F, SwiftGen.models x S = .ok out ∧ Swift.IsText F out ∧ (Swift.Typed L F ↔ Swift.Fit L x S) ∧
      (Swift.Typed L F → ∀ id, Own S id →
        (∃ v, IsDefault (swiftMakes x) S (.other id) v ∧ ∃ k, ∀ j, k ≤ j → Swift.create F j id = .ok v) ∧
        (∀ k v, Swift.create F k id = .ok v → IsDefault (swiftMakes x) S (.other id) v) ∧
        ∀ k, Swift.create F k id ≠ .error .stuck) := by
  have hw := accepted_decls h
  obtain ⟨out, ho⟩ := SwiftGen.ok_models (x := x) hw
  refine ⟨out, _, ho, SwiftGen.models_text x hx S out ho, SwiftTyping.typed_iff hw hL N, fun hT id hid => ?_⟩
  have hF := (SwiftTyping.typed_iff hw hL N).1 hT
  have R := SwiftDefaults.runs hw hF
  obtain ⟨k, v, hk⟩ := (MobileDefaults.grounded_iff R hid).2 (SwiftDefaults.grounded hw hF id)
  have hv := (MobileDefaults.returns_iff R hid v).1 ⟨k, hk⟩
  exact ⟨⟨v, hv, (MobileDefaults.always_iff R hid v).2 hv⟩, fun k v h => (MobileDefaults.returns_iff R hid v).1 ⟨k, h⟩,
    fun k => MobileDefaults.never_stuck R k id (MobileDefaults.own_iff.1 hid)⟩

/-! ## Examples -/

/-- `Drawing.createDefault()` in Kotlin is `Drawing(x = 0, tags = listOf(), mark = MarkCircle(0.0))`. -/
example : parse drawingToks = .ok drawing ∧ Kotlin.NoAccidents testExtF drawing ∧ Kotlin.Fit kotlinStd testExtF drawing ∧
    Own drawing "Drawing" ∧ IsDefault (kotlinMakes testExtF) drawing (.other "Drawing")
      (.obj "Drawing" [("x", .number 0), ("tags", .list), ("mark", .obj "MarkCircle" [("p0", .number 0)])]) := by
  refine ⟨by rfl, drawing_kotlin.1, drawing_kotlin.2,
    .inl ⟨⟨"Drawing", [⟨0, "x", .integer "i32" 4 true⟩, ⟨1, "tags", .generic "Vec" [.other "String"]⟩, ⟨2, "mark", .other "Mark"⟩],
      true, true⟩, by simp [drawing], rfl⟩, ?_⟩
  have hm : IsDefault (kotlinMakes testExtF) drawing (.other "Mark") (.obj ("Mark" ++ "Circle") [("p" ++ toString 0, .number 0)]) :=
    .enum (n := ⟨"Mark", [.tuple 0 "Circle" [⟨0, .number "f64" 8⟩], .struct 1 "Named" [⟨0, "title", .other "String"⟩],
      .empty 2 "Nothing"]⟩) (i := .tuple 0 "Circle" [⟨0, .number "f64" 8⟩]) (vs := [.number 0]) (by simp [drawing]) rfl
      (.cons .number .nil)
  have e1 : testExtF.camel "x" = "x" := by decide +kernel
  have e2 : testExtF.camel "tags" = "tags" := by decide +kernel
  have e3 : testExtF.camel "mark" = "mark" := by decide +kernel
  have := IsDefault.struct (M := kotlinMakes testExtF) (S := drawing)
    (n := ⟨"Drawing", [⟨0, "x", .integer "i32" 4 true⟩, ⟨1, "tags", .generic "Vec" [.other "String"]⟩, ⟨2, "mark", .other "Mark"⟩],
      true, true⟩) (by simp [drawing]) (.cons .integer (.cons .list (.cons hm .nil)))
  simp only [kotlinMakes, List.map_cons, List.map_nil, e1, e2, e3, List.zip_cons_cons, List.zip_nil_right] at this
  exact this

/-- In Swift it is `Drawing(x: 0, tags: [], mark: .circle(0))`. -/
example : Swift.NoAccidents testExtF drawing ∧ Swift.Fit swiftStd testExtF drawing ∧
    IsDefault (swiftMakes testExtF) drawing (.other "Drawing")
      (.obj "Drawing" [("x", .number 0), ("tags", .list), ("mark", .case "Mark" "circle" [.number 0])]) := by
  refine ⟨drawing_swift.1, drawing_swift.2, ?_⟩
  have hm := IsDefault.enum (M := swiftMakes testExtF) (S := drawing)
    (n := ⟨"Mark", [.tuple 0 "Circle" [⟨0, .number "f64" 8⟩], .struct 1 "Named" [⟨0, "title", .other "String"⟩],
      .empty 2 "Nothing"]⟩) (i := .tuple 0 "Circle" [⟨0, .number "f64" 8⟩]) (vs := [.number 0]) (by simp [drawing]) rfl
      (.cons .number .nil)
  have e1 : testExtF.camel "x" = "x" := by decide +kernel
  have e2 : testExtF.camel "tags" = "tags" := by decide +kernel
  have e3 : testExtF.camel "mark" = "mark" := by decide +kernel
  have e4 : testExtF.camel "Circle" = "circle" := by decide +kernel
  have := IsDefault.struct (M := swiftMakes testExtF) (S := drawing)
    (n := ⟨"Drawing", [⟨0, "x", .integer "i32" 4 true⟩, ⟨1, "tags", .generic "Vec" [.other "String"]⟩, ⟨2, "mark", .other "Mark"⟩],
      true, true⟩) (by simp [drawing]) (.cons .integer (.cons .list (.cons hm .nil)))
  simp only [swiftMakes, List.map_cons, List.map_nil, e1, e2, e3, e4, EnumItem.id, List.zip_cons_cons, List.zip_nil_right] at this
  exact this

/-- `struct Chain { next: Chain }` -/
def chain : List ASTNode := [.struct ⟨"Chain", [⟨0, "next", .other "Chain"⟩], true, true⟩]

/-- The Kotlin compiler accepts it, and its `createDefault` never returns. -/
example : parse [.kwStruct, .id "Chain", .sym '{', .id "next", .sym ':', .id "Chain", .sym '}', .eof] = .ok chain ∧
    Kotlin.NoAccidents testExtF chain ∧ Kotlin.Fit kotlinStd testExtF chain ∧
    ∀ n, .struct n ∈ chain → .other n.id ∈ defaulted (.struct n) := by
  have m1 : ∀ n, ASTNode.struct n ∈ chain → n = ⟨"Chain", [⟨0, "next", .other "Chain"⟩], true, true⟩ := by
    intro n hn
    simpa [chain] using hn
  have m2 : ∀ n, ASTNode.enum n ∉ chain := by simp [chain]
  have hd : Kotlin.declaredNames testExtF chain = ["Chain"] := by decide +kernel
  have p1 : testExtF.pascal "Chain" = "Chain" := by decide +kernel
  have ho : Own chain "Chain" := .inl ⟨⟨"Chain", [⟨0, "next", .other "Chain"⟩], true, true⟩, by simp [chain], rfl⟩
  refine ⟨by rfl, ⟨?_, fun n hn => absurd hn (m2 n), fun n hn => absurd hn (m2 n)⟩,
    ⟨?_, ?_, ?_, fun n hn => absurd hn (m2 n), fun n hn => absurd hn (m2 n), ?_, ?_, fun n hn => absurd hn (m2 n), ?_, ?_⟩, ?_⟩
  · intro n hn _; rw [m1 n hn]; exact p1
  · rw [hd]; decide
  · rw [hd]; decide +kernel
  · intro n hn; rw [m1 n hn]; decide +kernel
  · intro d hdm t ht
    simp only [chain, List.mem_cons, List.not_mem_nil, or_false] at hdm
    subst hdm
    simp [directTypes, fieldsOf] at ht
    subst ht
    exact .own (by rw [hd]; decide)
  · intro n hn; rw [m1 n hn]; exact p1
  · rintro id (⟨n, hn, rfl⟩ | ⟨n, hn, rfl⟩)
    · rw [m1 n hn]; simp [IsAddress]
    · exact absurd hn (m2 n)
  · intro d hdm t ht
    simp only [chain, List.mem_cons, List.not_mem_nil, or_false] at hdm
    subst hdm
    simp [defaulted] at ht
    subst ht
    exact .own (by simp [IsAddress]) (by simp) (by simp) ho
  · intro n hn; rw [m1 n hn]; simp [defaulted]

end TPB.Props
