/- C84: what the generated Kotlin models say, read without the trees they were printed from. -/
import Verif.Proofs.KotlinReaderGen
import Verif.Props.MobileDefaults
import Verif.Props.DartReader
namespace TPB.Props
open Spec KotlinReader

/-- The declarations that are read from the Kotlin models generated for a schema. -/
def KotlinReads (x : ExtF) (S : List ASTNode) (F : List TPB.Kotlin.Item) : Prop :=
  ∃ t, KotlinGen.models x S = .ok t ∧ KotlinReader.readModels t = some F

theorem kotlinReads_iff {x : ExtF} {S : List ASTNode} (hA : Accepted S) (hR : KotlinReadable x S) (F : List TPB.Kotlin.Item) :
    KotlinReads x S F ↔ F = TPB.Kotlin.genItems x S := by
  obtain ⟨ts, h⟩ := hA
  have hw : WFSchema 0 S := Accepted.wf ⟨ts, h⟩
  unfold KotlinReads
  rw [kotlin_eq x h]
  constructor
  · rintro ⟨t, ht, hF⟩
    cases ht
    rw [KotlinReader.readModels_gen hw hR] at hF
    exact (Option.some.inj hF).symm
  · rintro rfl
    exact ⟨_, rfl, KotlinReader.readModels_gen hw hR 4⟩

/-- **C84 (partial).** The Kotlin models generated for a schema are read as one list of declarations, if the names of
the schema, in the spelling of the generator, can be names in Kotlin.  Missing: other schemas. -/
theorem C84_is_read_partial (x : ExtF) (S : List ASTNode) (hA : Accepted S) (hR : KotlinReadable x S) :
    ∃ F, KotlinReads x S F ∧ ∀ F', KotlinReads x S F' → F' = F :=
  ⟨_, (kotlinReads_iff hA hR _).2 rfl, fun F' h => (kotlinReads_iff hA hR F').1 h⟩

/-- **C84 (partial).** What is read has one class for each struct, with its fields in order and their types, and one
interface for each enum, followed by its variants in order with their values (C53). -/
theorem C84_declares_partial (x : ExtF) (S : List ASTNode) (hA : Accepted S) (hR : KotlinReadable x S)
    (F : List TPB.Kotlin.Item) (hF : KotlinReads x S F) :
    Kotlin.File (Kotlin.Declares (kotlinDeclared x) (kotlinUsed x)) S F ∧
      ((∀ n, .enum n ∈ S → ∀ i ∈ n.items, ¬ EmptyParens i) → Kotlin.DataClassesOk F) := by
  rw [(kotlinReads_iff hA hR F).1 hF]
  obtain ⟨ts, h⟩ := hA
  refine ⟨KotlinModels.file (fun d hd => ?_), kotlin_dataClasses⟩
  obtain ⟨k, hk⟩ := accepted_decls h d hd
  exact KotlinModels.declares hk

/-- **C84 (partial).** In what is read, `createDefault` of a struct gives every field, in order and by name, the zero value
of its type, and `createDefault` of an enum is its first variant with zero values (C54). -/
theorem C84_creates_partial (x : ExtF) (S : List ASTNode) (hA : Accepted S) (hR : KotlinReadable x S)
    (hn : ∀ id, Own S id → ¬ IsAddress id)
    (ht : ∀ d ∈ S, ∀ t ∈ defaulted d, (∀ n, t ≠ .char n) ∧ ∀ id, IsAddress id → t ≠ .other id)
    (F : List TPB.Kotlin.Item) (hF : KotlinReads x S F) :
    Kotlin.File (Kotlin.Creates (kotlinUsed x) (Kotlin.ZeroIs (kotlinUsed x))) S F := by
  rw [(kotlinReads_iff hA hR F).1 hF]
  obtain ⟨ts, h⟩ := hA
  refine KotlinModels.file (fun d hd => ?_)
  obtain ⟨k, hk⟩ := accepted_decls h d hd
  exact KotlinModels.creates hk (fun id hi => hn id (own_of_mem hd hi))
    (fun t htd hw => KotlinModels.zeroIs hw (ht d hd t htd).1 (ht d hd t htd).2)

/-- **C84 (partial).** What is read is accepted by the Kotlin compiler exactly if the schema fits (C76). -/
theorem C84_typed_partial (x : ExtF) (L : KotlinLib) (hL : L.Std) (S : List ASTNode) (hA : Accepted S)
    (hR : KotlinReadable x S) (N : Kotlin.NoAccidents x S) (F : List TPB.Kotlin.Item) (hF : KotlinReads x S F) :
    Kotlin.Typed L F ↔ Kotlin.Fit L x S := by
  rw [(kotlinReads_iff hA hR F).1 hF]
  obtain ⟨ts, h⟩ := hA
  exact KotlinTyping.typed_iff (accepted_decls h) hL N

/-- **C84 (partial).** If what is read is accepted, running its `createDefault` for a type of the schema returns the
default value of that type, or does not return if the type has none (C77). -/
theorem C84_runs_partial (x : ExtF) (L : KotlinLib) (hL : L.Std) (S : List ASTNode) (hA : Accepted S)
    (hR : KotlinReadable x S) (N : Kotlin.NoAccidents x S) (F : List TPB.Kotlin.Item) (hF : KotlinReads x S F)
    (hT : Kotlin.Typed L F) (id : String) (hid : Own S id) :
    (∀ v, (∃ k, ∀ j, k ≤ j → Kotlin.create F j id = .ok v) ↔ IsDefault (kotlinMakes x) S (.other id) v) ∧
      (∀ k, Kotlin.create F k id ≠ .error .stuck) ∧
      ((∃ v, IsDefault (kotlinMakes x) S (.other id) v) ↔ Grounded S id) ∧
      ((∀ k, Kotlin.create F k id = .error .deep) ↔ ¬ Grounded S id) := by
  have hfit := (C84_typed_partial x L hL S hA hR N F hF).1 hT
  rw [(kotlinReads_iff hA hR F).1 hF]
  obtain ⟨ts, h⟩ := hA
  have R := KotlinDefaults.runs (accepted_decls h) hfit
  refine ⟨MobileDefaults.always_iff R hid, fun k => MobileDefaults.never_stuck R k id (MobileDefaults.own_iff.1 hid), ?_,
    MobileDefaults.deep_iff R hid⟩
  rw [← MobileDefaults.grounded_iff R hid]
  constructor
  · rintro ⟨v, hv⟩
    obtain ⟨k, hk⟩ := (MobileDefaults.returns_iff R hid v).2 hv
    exact ⟨k, v, hk⟩
  · rintro ⟨k, v, hk⟩
    exact ⟨v, (MobileDefaults.returns_iff R hid v).1 ⟨k, hk⟩⟩

/-! ## From source text -/

theorem ident_append' {a b : String} (ha : isIdent a = true) (hb : isIdent b = true) : isIdent (a ++ b) = true := by
  refine Combinators.ident_append ha ?_
  unfold Combinators.Tail
  unfold isIdent at hb
  cases h : b.toList with
  | nil => rfl
  | cons c cs =>
    rw [h] at hb
    simp only [Bool.and_eq_true, Bool.or_eq_true] at hb
    rw [List.all_cons, Bool.and_eq_true]
    refine ⟨?_, hb.2⟩
    rcases hb.1 with h | h
    · simp [Char.isAlphanum, h]
    · simp [h]

/-- The types of a schema that exist have names that can be names in Kotlin. -/
theorem kotlin_exists_names {L : KotlinLib} {D : List String} (hD : ∀ n ∈ D, KotlinName n)
    (hl : ∀ id n, L.types id n → KotlinName id) {t : TypeId} (h : Kotlin.TypeExists L D t) :
    ∀ w ∈ typeWords t, KotlinName w := by
  induction h with
  | builtin hb =>
    intro w hw
    obtain ⟨n, p, rfl, hp, -⟩ := hb
    rw [typeWords_ofName, List.mem_singleton] at hw
    subst hw
    have key : ∀ q ∈ builtinMeanings, KotlinName q.1 := by decide
    exact key _ hp
  | address ha =>
    intro w hw
    simp only [typeWords, List.mem_singleton] at hw
    subst hw
    rcases ha with rfl | rfl <;> decide
  | own hd =>
    intro w hw
    simp only [typeWords, List.mem_singleton] at hw
    subst hw
    exact hD _ hd
  | lib h =>
    intro w hw
    simp only [typeWords, List.mem_singleton] at hw
    subst hw
    exact hl _ _ h
  | list _ _ ih =>
    intro w hw
    simp only [typeWords, typesWords, List.append_nil, List.mem_cons] at hw
    rcases hw with rfl | hw
    · decide
    · exact ih w hw
  | generic _ _ h3 _ ih =>
    intro w hw
    simp only [typeWords, List.mem_cons] at hw
    rcases hw with rfl | hw
    · exact hl _ _ h3
    · obtain ⟨g, hg, hw⟩ := (RustReader.typesWords_mem _ w).1 hw
      exact ih g hg w hw

/-- The names that the generator writes in another case are identifiers. -/
structure KotlinSpelled (x : ExtF) (S : List ASTNode) : Prop where
  fields : ∀ n, .struct n ∈ S → ∀ f ∈ n.fields, isIdent (x.camel f.name) = true
  variants : ∀ n, .enum n ∈ S → ∀ i ∈ n.items, isIdent (x.pascal (n.id ++ i.id)) = true

theorem kotlin_readable_of_fit {x : ExtF} {L : KotlinLib} {S : List ASTNode} (hF : Kotlin.Fit L x S)
    (hl : ∀ id n, L.types id n → KotlinName id) (hi : ∀ d ∈ S, ∀ w ∈ declWords d, isIdent w = true)
    (hs : KotlinSpelled x S) : KotlinReadable x S where
  types := fun d hd t ht w hw => ⟨hi d hd w (directTypes_words d t ht w hw),
    kotlin_exists_names (fun n hn => (hF.names n hn).1) hl (hF.exist d hd t ht) w hw⟩
  structs := by
    intro n hn
    have h1 : KotlinId n.id := by
      refine ⟨hi _ hn _ (by simp [declWords]), (hF.names _ ?_).1⟩
      refine List.mem_flatMap.2 ⟨_, hn, ?_⟩
      simp [hF.structs n hn]
    exact ⟨h1, by rw [hF.structs n hn]; exact h1, fun f hf => ⟨hs.fields n hn f hf, (hF.fields n hn).2 f hf⟩⟩
  enums := fun n hn => ⟨hi _ hn _ (by simp [declWords]), (hF.names _ (List.mem_flatMap.2 ⟨_, hn, by simp⟩)).1⟩
  variants := fun n hn i hi' => ⟨hs.variants n hn i hi',
    (hF.names _ (List.mem_flatMap.2 ⟨_, hn, List.mem_cons_of_mem _ (List.mem_map.2 ⟨i, hi', rfl⟩)⟩)).1⟩
  first := by
    intro n hn i hh
    have hm : i ∈ n.items := List.mem_of_mem_head? hh
    obtain ⟨h1, h2⟩ := hF.firsts n hn i hh
    refine ⟨?_, ?_⟩
    · rw [← h1]
      exact ⟨hs.variants n hn i hm,
        (hF.names _ (List.mem_flatMap.2 ⟨_, hn, List.mem_cons_of_mem _ (List.mem_map.2 ⟨i, hm, rfl⟩)⟩)).1⟩
    · rintro p id fs rfl f hf
      rw [h2 p id fs rfl f hf]
      refine ⟨hi _ hn _ ?_, (hF.variantFields n hn p id fs hm).2 f hf⟩
      exact List.mem_cons_of_mem _ (List.mem_append_left _ (List.mem_flatMap.2 ⟨_, hm, by
        simp only [itemNames, List.mem_cons, List.mem_map]; exact .inr ⟨f, hf, rfl⟩⟩))
  fields := by
    intro n hn p id fs hm f hf
    refine ⟨hi _ hn _ ?_, (hF.variantFields n hn p id fs hm).2 f hf⟩
    exact List.mem_cons_of_mem _ (List.mem_append_left _ (List.mem_flatMap.2 ⟨_, hm, by
      simp only [itemNames, List.mem_cons, List.mem_map]; exact .inr ⟨f, hf, rfl⟩⟩))

/-- C84 for source text: whatever text the compiler accepts, if its Kotlin models fit (C76), the types of the libraries
have legal names and the names that the generator writes in another case are identifiers, the generated Kotlin is
read as one list of declarations, and these are accepted. -/
theorem C84_source_partial (x : ExtF) (L : KotlinLib) (hL : L.Std) (hl : ∀ id n, L.types id n → KotlinName id)
    (src : String) (S : List ASTNode) (h : parseSource src = .ok S) (N : Kotlin.NoAccidents x S)
    (hF : Kotlin.Fit L x S) (hs : KotlinSpelled x S) :
    ∃ F, KotlinReads x S F ∧ Kotlin.Typed L F ∧ ∀ F', KotlinReads x S F' → F' = F := by
  have hA := sourceAccepted h
  have hR := kotlin_readable_of_fit hF hl (fun d hd w hw => isIdent_of w (C79_names_legal src S h d hd w (declWords_node d w hw)).1) hs
  obtain ⟨F, h1, h2⟩ := C84_is_read_partial x S hA hR
  exact ⟨F, h1, (C84_typed_partial x L hL S hA hR N F h1).2 hF, h2⟩

/-! ## Examples -/

theorem drawing_kotlin_readable : KotlinReadable testExtF drawing where
  types := by decide +kernel
  structs := by
    intro n hn
    obtain rfl : n = ⟨"Drawing", [⟨0, "x", .integer "i32" 4 true⟩, ⟨1, "tags", .generic "Vec" [.other "String"]⟩,
      ⟨2, "mark", .other "Mark"⟩], true, true⟩ := by simpa [drawing] using hn
    decide +kernel
  enums := by
    intro n hn
    obtain rfl : n = ⟨"Mark", [.tuple 0 "Circle" [⟨0, .number "f64" 8⟩],
      .struct 1 "Named" [⟨0, "title", .other "String"⟩], .empty 2 "Nothing"]⟩ := by simpa [drawing] using hn
    decide +kernel
  variants := by
    intro n hn
    obtain rfl : n = ⟨"Mark", [.tuple 0 "Circle" [⟨0, .number "f64" 8⟩],
      .struct 1 "Named" [⟨0, "title", .other "String"⟩], .empty 2 "Nothing"]⟩ := by simpa [drawing] using hn
    have : ∀ s ∈ ["Circle", "Named", "Nothing"], KotlinId (testExtF.pascal ("Mark" ++ s)) := by decide +kernel
    intro i hi
    simp only [List.mem_cons, List.not_mem_nil, or_false] at hi
    rcases hi with rfl | rfl | rfl <;> exact this _ (by simp [EnumItem.id])
  first := by
    intro n hn i hi
    obtain rfl : n = ⟨"Mark", [.tuple 0 "Circle" [⟨0, .number "f64" 8⟩],
      .struct 1 "Named" [⟨0, "title", .other "String"⟩], .empty 2 "Nothing"]⟩ := by simpa [drawing] using hn
    cases hi
    exact ⟨by decide +kernel, by simp⟩
  fields := by
    intro n hn p id fs hi
    obtain rfl : n = ⟨"Mark", [.tuple 0 "Circle" [⟨0, .number "f64" 8⟩],
      .struct 1 "Named" [⟨0, "title", .other "String"⟩], .empty 2 "Nothing"]⟩ := by simpa [drawing] using hn
    simp at hi
    obtain ⟨-, -, rfl⟩ := hi
    decide +kernel

/-- Non-vacuity of C84: the models of the example are read, what is read is accepted, and its `createDefault` returns. -/
example : Accepted drawing ∧ ∃ F, KotlinReads testExtF drawing F ∧ Kotlin.Typed kotlinStd F ∧
    ∀ k, Kotlin.create F k "Mark" ≠ .error .stuck := by
  have hA : Accepted drawing := ⟨drawingToks, by rfl⟩
  obtain ⟨F, h1, -⟩ := C84_is_read_partial testExtF drawing hA drawing_kotlin_readable
  have hT := (C84_typed_partial testExtF kotlinStd kotlinStd_ok drawing hA drawing_kotlin_readable drawing_kotlin.1 F h1).2 drawing_kotlin.2
  exact ⟨hA, F, h1, hT, (C84_runs_partial testExtF kotlinStd kotlinStd_ok drawing hA drawing_kotlin_readable drawing_kotlin.1 F h1 hT
    "Mark" drawing_own).2.1⟩

/-- The reader on a text: one class with a field and its default. -/
example : (match KotlinReader.readModels "data class P(\n    val n: Int,\n) {\n    companion object {\n        fun createDefault(): P = P(\n            n = 0,\n        )\n    }\n}\n" with
    | some [.cls "P" true [("n", .named "Int")] none (some ⟨"P", .call "P" [(some "n", .lit "0")]⟩)] => true
    | _ => false) = true := by decide +kernel

/-- A keyword is not read as a name. -/
example : (KotlinReader.readModels "data class P(\n    val n: Int,\n) : Q\n").isSome = true ∧
    (KotlinReader.readModels "data class P(\n    val val: Int,\n) : Q\n").isSome = false := by decide +kernel

end TPB.Props
