/- The Swift models generated for a schema can be read back if the names of the schema can be names in Swift. -/
import Verif.Proofs.SwiftReader
import Verif.Proofs.RustReaderGen
import Verif.Spec.MobileTyping
namespace TPB.Spec.SwiftReader
open TPB.Swift Pieces Combinators

theorem genTys_eq : ∀ ts : List TypeId, genTys ts = ts.map genTy
  | [] => rfl
  | t :: ts => by rw [genTys, genTys_eq ts]; rfl

theorem swiftId_lit {w : String} (h : decide (SwiftId w) = true) : SwiftId w := of_decide_eq_true h

theorem intName_ok (size : Nat) (signed : Bool) : SwiftId (intName size signed) := by
  unfold intName
  split <;> exact swiftId_lit (by decide +kernel)

theorem genName_ok {id : String} (h : SwiftId id) : SwiftId (genName id) := by
  unfold genName
  split
  · exact swiftId_lit (by decide +kernel)
  · exact h

/-- A type of an accepted schema whose names can be names in Swift and whose lists have one type of elements. -/
def GoodT (t : TypeId) : Prop := WFType t ∧ ListsOk t ∧ ∀ w ∈ typeWords t, SwiftId w

theorem char_name {n id : String} (h : typeOfName n = .char id) : id = "char" := by
  unfold typeOfName at h
  cases hl : List.lookup n builtinTypes with
  | none => rw [hl] at h; cases h
  | some t =>
    rw [hl] at h
    have hm : (n, t) ∈ builtinTypes := List.lookup_eq_some_iff.1 hl |> fun ⟨l₁, l₂, e, _⟩ => by rw [e]; simp
    have key : ∀ p ∈ builtinTypes, (match p.2 with | .char id => decide (id = "char") | _ => true) = true := by decide
    have := key _ hm
    simp only [Option.getD_some] at h
    rw [h] at this
    exact of_decide_eq_true this

theorem legTy_gen {t : TypeId} (hw : WFType t) : ListsOk t → (∀ w ∈ typeWords t, SwiftId w) → LegTy (genTy t) := by
  induction hw with
  | name n =>
    intro _ h
    cases ht : typeOfName n with
    | integer id size signed => rw [genTy]; exact .named _ (intName_ok _ _)
    | number id size => rw [genTy]; exact .named _ (by split <;> exact swiftId_lit (by decide +kernel))
    | bool id => rw [genTy]; exact .named _ (swiftId_lit (by decide +kernel))
    | char id => rw [genTy, char_name ht]; exact .named _ (swiftId_lit (by decide +kernel))
    | other id => rw [genTy]; exact .named _ (genName_ok (h id (by rw [ht]; simp [typeWords])))
    | generic c gs =>
      rcases Rust.name_cases n with ⟨_, h2⟩ | ⟨_, h2⟩
      · rw [ht] at h2; cases h2
      · rw [ht] at h2; simp [builtin?] at h2
  | generic n as hne has ih =>
    intro hl h
    obtain ⟨h1, h2⟩ : (n = "Vec" → as.length = 1) ∧ ∀ g ∈ as, ListsOk g := by
      cases hl with
      | plain hp => exact absurd rfl (hp n as)
      | generic h1 h2 => exact ⟨h1, h2⟩
    have ha : ∀ a ∈ as, LegTy (genTy a) := fun a ha => ih a ha (h2 a ha) (fun w hw => h w (by
      rw [typeWords]; exact List.mem_cons_of_mem _ ((RustReader.typesWords_mem as w).2 ⟨a, ha, hw⟩)))
    rw [genTy, genTys_eq]
    split
    · next hv =>
      obtain ⟨a, rfl⟩ := List.length_eq_one_iff.1 (h1 hv)
      exact .array _ (ha a (by simp))
    · refine .app _ _ (h n (by simp [typeWords])) (by simpa using hne) ?_
      intro t ht
      obtain ⟨a, hm, rfl⟩ := List.mem_map.1 ht
      exact ha a hm

theorem GoodT.leg {t : TypeId} (h : GoodT t) : LegTy (genTy t) := legTy_gen h.1 h.2.1 h.2.2

theorem legExpr_gen {t : TypeId} (h : GoodT t) : LegExpr (genDefault t) := by
  obtain ⟨hw, hl, hn⟩ := h
  cases t with
  | integer id size signed => show "0" ∈ literals; decide
  | number id size => show "0" ∈ literals; decide
  | bool id => show "false" ∈ literals; decide
  | char id => show "0" ∈ literals; decide
  | other id =>
    rw [genDefault]
    split
    · show "\"\"" ∈ literals; decide
    · split
      · exact trivial
      · exact hn id (by simp [typeWords])
  | generic id gs =>
    rw [genDefault]
    split
    · exact trivial
    · have h2 : ∀ g ∈ gs, ListsOk g := by
        cases hl with
        | plain hp => exact absurd rfl (hp id gs)
        | generic h1 h2 => exact h2
      generalize ht : TypeId.generic id gs = t at hw
      cases hw with
      | name n =>
        rcases Rust.name_cases n with ⟨_, h2⟩ | ⟨_, h2⟩
        · rw [h2] at ht; cases ht
        · rw [← ht] at h2; simp [builtin?] at h2
      | generic c gs hne has =>
        cases ht
        refine ⟨hn id (by simp [typeWords]), by rw [genTys_eq]; simpa using hne, ?_⟩
        rw [genTys_eq]
        intro t ht
        obtain ⟨a, ha, rfl⟩ := List.mem_map.1 ht
        exact legTy_gen (has a ha) (h2 a ha) (fun w hw => hn w (by
          rw [typeWords]; exact List.mem_cons_of_mem _ ((RustReader.typesWords_mem gs w).2 ⟨a, ha, hw⟩)))

section
variable {x : ExtF} {S : List ASTNode} (hw : WFSchema 0 S) (hR : SwiftReadable x S)
include hw hR

theorem goodField {n : StructNode} (hn : .struct n ∈ S) {f : StructField} (hf : f ∈ n.fields) : GoodT f.typeId := by
  obtain ⟨j, hj⟩ := Rust.wfSchema_mem' S 0 hw _ hn
  refine ⟨hj.1.2 f hf, hR.types _ hn _ ?_⟩
  simp only [directTypes, fieldsOf, List.map_map]
  exact List.mem_map.2 ⟨f, hf, rfl⟩

theorem goodPayload {n : EnumNode} (hn : .enum n ∈ S) {i : EnumItem} (hi : i ∈ n.items) :
    ∀ t ∈ (payload i).map (·.2), GoodT t := by
  obtain ⟨j, hj⟩ := Rust.wfSchema_mem' S 0 hw _ hn
  intro t ht
  refine ⟨?_, hR.types _ hn t (by simp only [directTypes]; exact List.mem_flatMap.2 ⟨i, hi, ht⟩)⟩
  have h2 := hj.2.2 i hi
  cases i with
  | empty => simp [payload] at ht
  | tuple p id vs =>
    have : (payload (.tuple p id vs)).map (·.2) = vs.map (·.typeId) := by simp only [payload]; exact Rust.map_snd_mapIdx vs
    rw [this] at ht
    obtain ⟨v, hv, rfl⟩ := List.mem_map.1 ht
    exact h2.2 v hv
  | struct p id fs =>
    have : (payload (.struct p id fs)).map (·.2) = fs.map (·.typeId) := by simp [payload, Function.comp_def]
    rw [this] at ht
    obtain ⟨v, hv, rfl⟩ := List.mem_map.1 ht
    exact h2.2 v hv

theorem goodTuple {n : EnumNode} (hn : .enum n ∈ S) {p : Nat} {id : String} {vs : List TupleField}
    (hi : .tuple p id vs ∈ n.items) : ∀ v ∈ vs, GoodT v.typeId := by
  intro v hv
  refine goodPayload hw hR hn hi _ ?_
  have : (payload (.tuple p id vs)).map (·.2) = vs.map (·.typeId) := by simp only [payload]; exact Rust.map_snd_mapIdx vs
  rw [this]
  exact List.mem_map.2 ⟨v, hv, rfl⟩

theorem goodFields {n : EnumNode} (hn : .enum n ∈ S) {p : Nat} {id : String} {fs : List StructField}
    (hi : .struct p id fs ∈ n.items) : ∀ f ∈ fs, GoodT f.typeId := by
  intro f hf
  refine goodPayload hw hR hn hi _ ?_
  simp only [payload, List.map_map]
  exact List.mem_map.2 ⟨f, hf, rfl⟩

theorem leg_items : ∀ i ∈ genItems x S, LegItem i := by
  intro i hi
  obtain ⟨d, hd, hi⟩ := List.mem_flatMap.1 hi
  cases d with
  | struct n =>
    rw [genItem, List.mem_singleton] at hi
    subst hi
    obtain ⟨h1, h2, h3⟩ := hR.structs n hd
    refine ⟨h2, ?_, genName_ok h1, genName_ok h1, ?_⟩
    · intro p hp
      obtain ⟨f, hf, rfl⟩ := List.mem_map.1 hp
      exact ⟨h3 f hf, (goodField hw hR hd hf).leg⟩
    · intro a ha
      obtain ⟨f, hf, rfl⟩ := List.mem_map.1 ha
      exact ⟨h3 f hf, legExpr_gen (goodField hw hR hd hf)⟩
  | enum n =>
    obtain ⟨h1, h2, h3⟩ := hR.enums n hd
    rw [genItem, genEnum] at hi
    cases hs : n.items with
    | nil => rw [hs] at hi; simp at hi
    | cons j js =>
      simp only [hs, List.mem_singleton] at hi
      subst hi
      have hj : j ∈ n.items := by simp [hs]
      refine ⟨h2, ?_, genName_ok h1, ?_⟩
      · intro c hc
        obtain ⟨k, hk, rfl⟩ := List.mem_map.1 hc
        have hk' : k ∈ n.items := by rw [hs]; exact hk
        have h4 := h3 k hk'
        cases k with
        | empty p id => exact ⟨h4, by simp [genCase]⟩
        | tuple p id vs =>
          refine ⟨h4, ?_⟩
          intro q hq
          obtain ⟨v, hv, rfl⟩ := List.mem_map.1 hq
          exact ⟨by simp, (goodTuple hw hR hd hk' v hv).leg⟩
        | struct p id fs =>
          refine ⟨h4, ?_⟩
          intro q hq
          obtain ⟨f, hf, rfl⟩ := List.mem_map.1 hq
          refine ⟨?_, (goodFields hw hR hd hk' f hf).leg⟩
          intro c hc
          cases hc
          exact hR.fields n hd p id fs hk' f hf
      · have h4 := h3 j hj
        cases j with
        | empty p id => exact h4
        | tuple p id vs =>
          refine ⟨h4, ?_⟩
          intro a ha
          obtain ⟨v, hv, rfl⟩ := List.mem_map.1 ha
          exact legExpr_gen (goodTuple hw hR hd hj v hv)
        | struct p id fs =>
          refine ⟨h4, ?_⟩
          intro a ha
          obtain ⟨f, hf, rfl⟩ := List.mem_map.1 ha
          exact ⟨hR.first n hd p id fs (by simp [hs]) f hf, legExpr_gen (goodFields hw hR hd hj f hf)⟩
  | _ => simp [genItem] at hi

theorem readModels_gen (u : Nat) : readModels (linesText u (renderItems (genItems x S))) = some (genItems x S) :=
  readModels_ok (leg_items hw hR) u

end

end TPB.Spec.SwiftReader
