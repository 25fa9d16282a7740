/- C85: what the generated Swift models say, read without the trees they were printed from. -/
import Verif.Proofs.SwiftReaderGen
import Verif.Props.KotlinReader
namespace TPB.Props
open Spec SwiftReader

/-- The declarations that are read from the Swift models generated for a schema. -/
def SwiftReads (x : ExtF) (S : List ASTNode) (F : List TPB.Swift.Item) : Prop :=
  ∃ t, SwiftGen.models x S = .ok t ∧ SwiftReader.readModels t = some F

theorem swiftReads_iff {x : ExtF} (hx : x.camel "createDefault" = "createDefault") {S : List ASTNode} (hA : Accepted S)
    (hR : SwiftReadable x S) (F : List TPB.Swift.Item) : SwiftReads x S F ↔ F = TPB.Swift.genItems x S := by
  obtain ⟨ts, h⟩ := hA
  have hw : WFSchema 0 S := Accepted.wf ⟨ts, h⟩
  unfold SwiftReads
  rw [swift_eq x hx h]
  constructor
  · rintro ⟨t, ht, hF⟩
    cases ht
    rw [SwiftReader.readModels_gen hw hR] at hF
    exact (Option.some.inj hF).symm
  · rintro rfl
    exact ⟨_, rfl, SwiftReader.readModels_gen hw hR 4⟩

/-- **C85 (partial).** The Swift models generated for a schema are read as one list of declarations, if the names of the
schema, in the spelling of the generator, can be names in Swift and every list has one type of elements.  Missing: other
schemas. -/
theorem C85_is_read_partial (x : ExtF) (hx : x.camel "createDefault" = "createDefault") (S : List ASTNode) (hA : Accepted S)
    (hR : SwiftReadable x S) : ∃ F, SwiftReads x S F ∧ ∀ F', SwiftReads x S F' → F' = F :=
  ⟨_, (swiftReads_iff hx hA hR _).2 rfl, fun F' h => (swiftReads_iff hx hA hR F').1 h⟩

/-- **C85 (partial).** What is read has one struct for each struct and one enum for each enum, with fields, cases and
values in order (C53). -/
theorem C85_declares_partial (x : ExtF) (hx : x.camel "createDefault" = "createDefault") (S : List ASTNode) (hA : Accepted S)
    (hR : SwiftReadable x S) (F : List TPB.Swift.Item) (hF : SwiftReads x S F) :
    Swift.File (Swift.Declares Swift.namesWithChar (swiftDeclared x) (swiftUsed x)) S F := by
  rw [(swiftReads_iff hx hA hR F).1 hF]
  obtain ⟨ts, h⟩ := hA
  refine SwiftModels.file (fun d hd => ?_)
  obtain ⟨k, hk⟩ := accepted_decls h d hd
  exact SwiftModels.declares hk

/-- **C85 (partial).** In what is read, `createDefault` of a struct gives every field, in order and by name, the zero value
of its type, and `createDefault` of an enum is its first case with zero values (C54). -/
theorem C85_creates_partial (x : ExtF) (hx : x.camel "createDefault" = "createDefault") (S : List ASTNode) (hA : Accepted S)
    (hR : SwiftReadable x S) (hn : ∀ id, Own S id → ¬ IsAddress id)
    (ht : ∀ d ∈ S, ∀ t ∈ defaulted d, (∀ n, t ≠ .char n) ∧ ∀ id, IsAddress id → t ≠ .other id)
    (hp : ∀ n, .enum n ∈ S → ∀ i ∈ n.items.head?, ¬ EmptyParens i)
    (F : List TPB.Swift.Item) (hF : SwiftReads x S F) :
    Swift.File (Swift.Creates (swiftUsed x) (Swift.ZeroIs Swift.namesWithChar (swiftUsed x))) S F ∧ Swift.CallsOk F := by
  rw [(swiftReads_iff hx hA hR F).1 hF]
  obtain ⟨ts, h⟩ := hA
  refine ⟨SwiftModels.file (fun d hd => ?_), swift_calls hp⟩
  obtain ⟨k, hk⟩ := accepted_decls h d hd
  exact SwiftModels.creates hk (fun id hi => hn id (own_of_mem hd hi))
    (fun t htd hw => SwiftModels.zeroIs hw (ht d hd t htd).1 (ht d hd t htd).2)

/-- **C85 (partial).** What is read is accepted by the Swift compiler exactly if the schema fits (C76). -/
theorem C85_typed_partial (x : ExtF) (hx : x.camel "createDefault" = "createDefault") (L : SwiftLib) (hL : L.Std)
    (S : List ASTNode) (hA : Accepted S) (hR : SwiftReadable x S) (N : Swift.NoAccidents x S)
    (F : List TPB.Swift.Item) (hF : SwiftReads x S F) : Swift.Typed L F ↔ Swift.Fit L x S := by
  rw [(swiftReads_iff hx hA hR F).1 hF]
  obtain ⟨ts, h⟩ := hA
  exact SwiftTyping.typed_iff (accepted_decls h) hL N

/-- **C85 (partial).** If what is read is accepted, running its `createDefault` for a type of the schema returns the
default value of that type (C77). -/
theorem C85_runs_partial (x : ExtF) (hx : x.camel "createDefault" = "createDefault") (L : SwiftLib) (hL : L.Std)
    (S : List ASTNode) (hA : Accepted S) (hR : SwiftReadable x S) (N : Swift.NoAccidents x S)
    (F : List TPB.Swift.Item) (hF : SwiftReads x S F) (hT : Swift.Typed L F) (id : String) (hid : Own S id) :
    (∃ v, IsDefault (swiftMakes x) S (.other id) v ∧ ∃ k, ∀ j, k ≤ j → Swift.create F j id = .ok v) ∧
      (∀ k v, Swift.create F k id = .ok v → IsDefault (swiftMakes x) S (.other id) v) ∧
      ∀ k, Swift.create F k id ≠ .error .stuck := by
  have hfit := (C85_typed_partial x hx L hL S hA hR N F hF).1 hT
  rw [(swiftReads_iff hx hA hR F).1 hF]
  obtain ⟨ts, h⟩ := hA
  have hw := accepted_decls h
  have R := SwiftDefaults.runs hw hfit
  obtain ⟨k, v, hk⟩ := (MobileDefaults.grounded_iff R hid).2 (SwiftDefaults.grounded hw hfit id)
  have hv := (MobileDefaults.returns_iff R hid v).1 ⟨k, hk⟩
  exact ⟨⟨v, hv, (MobileDefaults.always_iff R hid v).2 hv⟩, fun k v h => (MobileDefaults.returns_iff R hid v).1 ⟨k, h⟩,
    fun k => MobileDefaults.never_stuck R k id (MobileDefaults.own_iff.1 hid)⟩

/-! ## From source text -/

/-- The types of a schema that exist have names that can be names in Swift, and their lists have one type of elements. -/
theorem swift_exists_names {L : SwiftLib} {D : List String} (hD : ∀ n ∈ D, SwiftName n)
    (hl : ∀ id n, L.types id n → SwiftName id) {t : TypeId} (hw : WFType t) (h : Swift.TypeExists L D t) :
    ListsOk t ∧ ∀ w ∈ typeWords t, SwiftName w := by
  have key : ∀ q ∈ builtinMeanings, SwiftName q.1 := by decide
  have kc : SwiftName "char" := by decide
  induction h with
  | builtin hb =>
    obtain ⟨n, p, rfl, hp, -⟩ := hb
    refine ⟨.plain (fun c gs e => ?_), fun w hw => ?_⟩
    · rcases Rust.name_cases n with ⟨_, h2⟩ | ⟨_, h2⟩
      · rw [e] at h2; cases h2
      · rw [e] at h2; simp [builtin?] at h2
    · rw [typeWords_ofName, List.mem_singleton] at hw
      subst hw
      exact key _ hp
  | @char n h =>
    refine ⟨.plain (by simp), fun w hm => ?_⟩
    simp only [typeWords, List.mem_singleton] at hm
    subst hm
    generalize ht : TypeId.char w = t at hw
    cases hw with
    | name m => rw [SwiftReader.char_name ht.symm]; exact kc
    | generic => cases ht
  | address ha =>
    refine ⟨.plain (by simp), fun w hw => ?_⟩
    simp only [typeWords, List.mem_singleton] at hw
    subst hw
    rcases ha with rfl | rfl <;> decide
  | own hd =>
    refine ⟨.plain (by simp), fun w hw => ?_⟩
    simp only [typeWords, List.mem_singleton] at hw
    subst hw
    exact hD _ hd
  | lib h =>
    refine ⟨.plain (by simp), fun w hw => ?_⟩
    simp only [typeWords, List.mem_singleton] at hw
    subst hw
    exact hl _ _ h
  | @list t _ ih =>
    have hw' : WFType t := by
      generalize ht : TypeId.generic "Vec" [t] = u at hw
      cases hw with
      | name m =>
        rcases Rust.name_cases m with ⟨_, h2⟩ | ⟨_, h2⟩
        · rw [h2] at ht; cases ht
        · rw [← ht] at h2; simp [builtin?] at h2
      | generic _ _ _ has => cases ht; exact has t (by simp)
    refine ⟨.generic (by simp) (by simpa using (ih hw').1), fun w hm => ?_⟩
    simp only [typeWords, typesWords, List.append_nil, List.mem_cons] at hm
    rcases hm with rfl | hm
    · decide
    · exact (ih hw').2 w hm
  | @generic c ts h1 _ h3 _ ih =>
    have hw' : ∀ t ∈ ts, WFType t := by
      generalize ht : TypeId.generic c ts = u at hw
      cases hw with
      | name m =>
        rcases Rust.name_cases m with ⟨_, h2⟩ | ⟨_, h2⟩
        · rw [h2] at ht; cases ht
        · rw [← ht] at h2; simp [builtin?] at h2
      | generic _ _ _ has => cases ht; exact has
    refine ⟨.generic (fun h => absurd h h1) (fun g hg => (ih g hg (hw' g hg)).1), fun w hm => ?_⟩
    simp only [typeWords, List.mem_cons] at hm
    rcases hm with rfl | hm
    · exact hl _ _ h3
    · obtain ⟨g, hg, hm⟩ := (RustReader.typesWords_mem _ w).1 hm
      exact (ih g hg (hw' g hg)).2 w hm

/-- The names that the generator writes in another case are identifiers. -/
structure SwiftSpelled (x : ExtF) (S : List ASTNode) : Prop where
  members : ∀ d ∈ S, ∀ m ∈ Swift.memberNames x d, isIdent m = true
  comments : ∀ n, .enum n ∈ S → ∀ p id fs, .struct p id fs ∈ n.items.head? → ∀ f ∈ fs, isIdent (x.camel f.name) = true

theorem swift_readable_of_fit {x : ExtF} {L : SwiftLib} {S : List ASTNode} (hw : WFSchema 0 S) (hF : Swift.Fit L x S)
    (hl : ∀ id n, L.types id n → SwiftName id) (hi : ∀ d ∈ S, ∀ w ∈ declWords d, isIdent w = true)
    (hs : SwiftSpelled x S) : SwiftReadable x S := by
  have hid : ∀ d ∈ S, ∀ id, declName d = some id → SwiftId id ∧ SwiftId (x.pascal id) := by
    intro d hd id hn
    have ho : Own S id := by
      cases d with
      | struct n => cases hn; exact .inl ⟨n, hd, rfl⟩
      | enum n => cases hn; exact .inr ⟨n, hd, rfl⟩
      | _ => cases hn
    have e := (hF.spelled id ho).1
    have h1 : SwiftId id := by
      refine ⟨hi d hd _ (by cases d <;> cases hn <;> simp [declWords]), (hF.names _ ?_).1⟩
      rw [← e]
      exact List.mem_map.2 ⟨id, List.mem_filterMap.2 ⟨d, hd, hn⟩, rfl⟩
    exact ⟨h1, by rw [e]; exact h1⟩
  have hm : ∀ d ∈ S, ∀ m ∈ Swift.memberNames x d, SwiftId m := fun d hd m h => ⟨hs.members d hd m h, (hF.members d hd).2 m h⟩
  refine ⟨?_, ?_, ?_, hs.comments, ?_⟩
  · intro d hd t ht
    obtain ⟨h1, h2⟩ := swift_exists_names (fun n hn => (hF.names n hn).1) hl (KotlinTyping.direct_wf (fun d hd => Rust.wfSchema_mem' S 0 hw d hd) hd ht) (hF.exist d hd t ht)
    exact ⟨h1, fun w hw => ⟨hi d hd w (directTypes_words d t ht w hw), h2 w hw⟩⟩
  · intro n hn
    obtain ⟨h1, h2⟩ := hid _ hn n.id rfl
    exact ⟨h1, h2, fun f hf => hm _ hn _ (List.mem_map.2 ⟨f, hf, rfl⟩)⟩
  · intro n hn
    obtain ⟨h1, h2⟩ := hid _ hn n.id rfl
    exact ⟨h1, h2, fun i hi => hm _ hn _ (List.mem_map.2 ⟨i, hi, rfl⟩)⟩
  · intro n hn p id fs hm f hf
    refine hi _ hn _ ?_
    exact List.mem_cons_of_mem _ (List.mem_append_left _ (List.mem_flatMap.2 ⟨_, hm, by
      simp only [itemNames, List.mem_cons, List.mem_map]; exact .inr ⟨f, hf, rfl⟩⟩))

/-- C85 for source text: whatever text the compiler accepts, if its Swift models fit (C76), the types of the libraries
have legal names and the names that the generator writes in another case are identifiers, the generated Swift is
read as one list of declarations, and these are accepted. -/
theorem C85_source_partial (x : ExtF) (hx : x.camel "createDefault" = "createDefault") (L : SwiftLib) (hL : L.Std)
    (hl : ∀ id n, L.types id n → SwiftName id) (src : String) (S : List ASTNode) (h : parseSource src = .ok S)
    (N : Swift.NoAccidents x S) (hF : Swift.Fit L x S) (hs : SwiftSpelled x S) :
    ∃ F, SwiftReads x S F ∧ Swift.Typed L F ∧ ∀ F', SwiftReads x S F' → F' = F := by
  have hA := sourceAccepted h
  have hR := swift_readable_of_fit hA.wf hF hl
    (fun d hd w hw => isIdent_of w (C79_names_legal src S h d hd w (declWords_node d w hw)).1) hs
  obtain ⟨F, h1, h2⟩ := C85_is_read_partial x hx S hA hR
  exact ⟨F, h1, (C85_typed_partial x hx L hL S hA hR N F h1).2 hF, h2⟩

/-! ## Examples -/

def drawingText : String :=
  "struct Drawing { x: i32, tags: Vec<String>, mark: Mark } enum Mark { Circle(f64), Named { title: String }, Nothing }"

theorem drawing_source : parseSource drawingText = .ok drawing := by rfl

theorem drawing_words : ∀ d ∈ drawing, ∀ w ∈ declWords d, isIdent w = true := by decide +kernel

theorem drawing_swift_spelled : SwiftSpelled testExtF drawing where
  members := by decide +kernel
  comments := by
    intro n hn p id fs hi
    obtain rfl : n = ⟨"Mark", [.tuple 0 "Circle" [⟨0, .number "f64" 8⟩],
      .struct 1 "Named" [⟨0, "title", .other "String"⟩], .empty 2 "Nothing"]⟩ := by simpa [drawing] using hn
    cases hi

theorem swiftStd_names : ∀ id n, swiftStd.types id n → SwiftName id := by
  have key : ∀ id ∈ swiftNames.map (·.2), SwiftName id := by decide
  rintro id n (⟨h, -⟩ | ⟨rfl, -⟩)
  · exact key id h
  · decide

/-- Non-vacuity of C85: the models of a text are read, what is read is accepted, and its `createDefault` returns. -/
example : parseSource drawingText = .ok drawing ∧ ∃ F, SwiftReads testExtF drawing F ∧ Swift.Typed swiftStd F ∧
    ∃ v, IsDefault (swiftMakes testExtF) drawing (.other "Mark") v ∧ ∃ k, ∀ j, k ≤ j → Swift.create F j "Mark" = .ok v := by
  have hx : testExtF.camel "createDefault" = "createDefault" := by decide +kernel
  obtain ⟨F, h1, hT, -⟩ := C85_source_partial testExtF hx swiftStd swiftStd_ok swiftStd_names _ _ drawing_source
    drawing_swift.1 drawing_swift.2 drawing_swift_spelled
  have hA := sourceAccepted drawing_source
  exact ⟨drawing_source, F, h1, hT, (C85_runs_partial testExtF hx swiftStd swiftStd_ok drawing hA
    (swift_readable_of_fit hA.wf drawing_swift.2 swiftStd_names drawing_words drawing_swift_spelled) drawing_swift.1 F h1 hT
    "Mark" drawing_own).1⟩

/-- Non-vacuity of C84 for the same text. -/
example : ∃ F, KotlinReads testExtF drawing F ∧ Kotlin.Typed kotlinStd F ∧ ∀ F', KotlinReads testExtF drawing F' → F' = F := by
  refine C84_source_partial testExtF kotlinStd kotlinStd_ok ?_ _ _ drawing_source drawing_kotlin.1 drawing_kotlin.2
    ⟨fun n hn f hf => ((drawing_kotlin_readable.structs n hn).2.2 f hf).1, fun n hn i hi => (drawing_kotlin_readable.variants n hn i hi).1⟩
  have key : ∀ id ∈ kotlinNames.map (·.2), KotlinName id := by decide
  rintro id n (⟨h, -⟩ | ⟨rfl, -⟩ | ⟨rfl, -⟩)
  · exact key id h
  · decide
  · decide

/-- The reader on a text: an enum with a case that has a commented value. -/
example : (match SwiftReader.readModels "enum P {\n    case a\n    case b(\n        /* n */ [Int32]\n    )\n\n    static func createDefault() -> P {\n        return .a\n    }\n}\n" with
    | some [.enum "P" [⟨"a", []⟩, ⟨"b", [(some "n", .array [.named "Int32"])]⟩] ⟨"P", .case "a"⟩] => true
    | _ => false) = true := by decide +kernel

/-- A keyword is not read as a name. -/
example : (SwiftReader.readModels "struct P {\n    var n: Int8\n\n    static func createDefault() -> P {\n        return P()\n    }\n}\n").isSome = true ∧
    (SwiftReader.readModels "struct P {\n    var in: Int8\n\n    static func createDefault() -> P {\n        return P()\n    }\n}\n").isSome = false := by
  decide +kernel

end TPB.Props
