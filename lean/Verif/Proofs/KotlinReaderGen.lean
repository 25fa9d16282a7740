/- The Kotlin models generated for a schema can be read back if the names of the schema can be names in Kotlin. -/
import Verif.Proofs.KotlinReader
import Verif.Proofs.RustReaderGen
import Verif.Spec.MobileTyping
namespace TPB.Spec.KotlinReader
open TPB.Kotlin Pieces Combinators

theorem genTys_eq : ∀ ts : List TypeId, genTys ts = ts.map genTy
  | [] => rfl
  | t :: ts => by rw [genTys, genTys_eq ts]; rfl

theorem kotlinId_lit {w : String} (h : decide (KotlinId w) = true) : KotlinId w := of_decide_eq_true h

theorem intName_ok (size : Nat) (signed : Bool) : KotlinId (intName size signed) := by
  unfold intName
  split <;> exact kotlinId_lit (by decide +kernel)

theorem genName_ok {id : String} (h : KotlinId id) : KotlinId (genName id) := by
  unfold genName
  split
  · exact kotlinId_lit (by decide +kernel)
  · exact h

/-- A type of an accepted schema whose names can be names in Kotlin. -/
def GoodT (t : TypeId) : Prop := WFType t ∧ ∀ w ∈ typeWords t, KotlinId w

theorem legTy_gen {t : TypeId} (hw : WFType t) : (∀ w ∈ typeWords t, KotlinId w) → LegTy (genTy t) := by
  induction hw with
  | name n =>
    intro h
    cases ht : typeOfName n with
    | integer id size signed => rw [genTy]; exact .named _ (intName_ok _ _)
    | number id size => rw [genTy]; exact .named _ (by split <;> exact kotlinId_lit (by decide +kernel))
    | bool id => rw [genTy]; exact .named _ (kotlinId_lit (by decide +kernel))
    | char id => rw [genTy]; exact .named _ (kotlinId_lit (by decide +kernel))
    | other id => rw [genTy]; exact .named _ (genName_ok (h id (by rw [ht]; simp [typeWords])))
    | generic c gs =>
      rcases Rust.name_cases n with ⟨_, h2⟩ | ⟨_, h2⟩
      · rw [ht] at h2; cases h2
      · rw [ht] at h2; simp [builtin?] at h2
  | generic n as hne has ih =>
    intro h
    rw [genTy, genTys_eq]
    refine .app _ _ ?_ (by simpa using hne) ?_
    · split
      · exact kotlinId_lit (by decide +kernel)
      · exact h n (by simp [typeWords])
    · intro t ht
      obtain ⟨a, ha, rfl⟩ := List.mem_map.1 ht
      exact ih a ha (fun w hw => h w (by rw [typeWords]; exact List.mem_cons_of_mem _ ((RustReader.typesWords_mem as w).2 ⟨a, ha, hw⟩)))

theorem legExpr_gen {t : TypeId} (h : GoodT t) : LegExpr (genDefault t) := by
  obtain ⟨hw, hn⟩ := h
  cases t with
  | integer id size signed =>
    show intZero size signed ∈ literals
    unfold intZero
    split <;> decide
  | number id size =>
    show (if size = 4 then "0f" else "0.0") ∈ literals
    split <;> decide
  | bool id => show "false" ∈ literals; decide
  | char id => show "0" ∈ literals; decide
  | other id =>
    rw [genDefault]
    split
    · show "\"\"" ∈ literals; decide
    · split
      · exact trivial
      · exact hn id (by simp [typeWords])
  | generic id gs =>
    rw [genDefault]
    split
    · exact trivial
    · generalize ht : TypeId.generic id gs = t at hw
      cases hw with
      | name n =>
        rcases Rust.name_cases n with ⟨_, h2⟩ | ⟨_, h2⟩
        · rw [h2] at ht; cases ht
        · rw [← ht] at h2; simp [builtin?] at h2
      | generic c gs hne has =>
        cases ht
        refine ⟨hn id (by simp [typeWords]), by rw [genTys_eq]; simpa using hne, ?_⟩
        rw [genTys_eq]
        intro t ht
        obtain ⟨a, ha, rfl⟩ := List.mem_map.1 ht
        exact legTy_gen (has a ha) (fun w hw => hn w (by rw [typeWords]; exact List.mem_cons_of_mem _ ((RustReader.typesWords_mem gs w).2 ⟨a, ha, hw⟩)))

theorem kotlinId_p (n : Nat) : KotlinId ("p" ++ toString n) := by
  have ht : Tail (toString n) := by
    have e : (toString n).toList = Nat.toDigits 10 n := by simp [toString, Nat.repr]
    have hd := (toDigits_decimal n).2
    unfold Tail
    rw [e, List.all_eq_true]
    intro c hc
    have := (isDigit_iff c).2 (hd c hc)
    simp [Char.isAlphanum, this]
  refine ⟨ident_append (start := "p") (by decide) ht, ?_, 'p', by simp, by decide⟩
  have e : (toString n).toList = Nat.toDigits 10 n := by simp [toString, Nat.repr]
  have hd := toDigits_decimal n
  intro hk
  have key : ∀ w ∈ kotlinReserved, (match w.toList with | 'p' :: c :: _ => c.isDigit | _ => false) = false := by decide +kernel
  have := key _ hk
  rw [String.toList_append, e] at this
  cases hc : Nat.toDigits 10 n with
  | nil => exact absurd hc hd.1
  | cons c cs =>
    rw [hc] at this hd
    have hc := (isDigit_iff c).2 (hd.2 c (by simp))
    simp only [show ("p" : String).toList = ['p'] from rfl, List.cons_append, List.nil_append] at this
    rw [hc] at this
    cases this

theorem legTuple (vs : List TupleField) (h : ∀ v ∈ vs, GoodT v.typeId) : ∀ i, ∀ p ∈ genTuple i vs, KotlinId p.1 ∧ LegTy p.2 := by
  induction vs with
  | nil => intro i p hp; simp [genTuple] at hp
  | cons v vs ih =>
    intro i p hp
    rw [genTuple, List.mem_cons] at hp
    rcases hp with rfl | hp
    · exact ⟨kotlinId_p i, legTy_gen (h v (by simp)).1 (h v (by simp)).2⟩
    · exact ih (fun w hw => h w (by simp [hw])) _ p hp

section
variable {x : ExtF} {S : List ASTNode} (hw : WFSchema 0 S) (hR : KotlinReadable x S)
include hw hR

theorem goodField {n : StructNode} (hn : .struct n ∈ S) {f : StructField} (hf : f ∈ n.fields) : GoodT f.typeId := by
  obtain ⟨j, hj⟩ := Rust.wfSchema_mem' S 0 hw _ hn
  refine ⟨hj.1.2 f hf, hR.types _ hn _ ?_⟩
  simp only [directTypes, fieldsOf, List.map_map]
  exact List.mem_map.2 ⟨f, hf, rfl⟩

theorem goodPayload {n : EnumNode} (hn : .enum n ∈ S) {i : EnumItem} (hi : i ∈ n.items) :
    ∀ t ∈ (payload i).map (·.2), GoodT t := by
  obtain ⟨j, hj⟩ := Rust.wfSchema_mem' S 0 hw _ hn
  intro t ht
  refine ⟨?_, hR.types _ hn t (by simp only [directTypes]; exact List.mem_flatMap.2 ⟨i, hi, ht⟩)⟩
  have h2 := hj.2.2 i hi
  cases i with
  | empty => simp [payload] at ht
  | tuple p id vs =>
    have : (payload (.tuple p id vs)).map (·.2) = vs.map (·.typeId) := by simp only [payload]; exact Rust.map_snd_mapIdx vs
    rw [this] at ht
    obtain ⟨v, hv, rfl⟩ := List.mem_map.1 ht
    exact h2.2 v hv
  | struct p id fs =>
    have : (payload (.struct p id fs)).map (·.2) = fs.map (·.typeId) := by simp [payload, Function.comp_def]
    rw [this] at ht
    obtain ⟨v, hv, rfl⟩ := List.mem_map.1 ht
    exact h2.2 v hv

theorem goodTuple {n : EnumNode} (hn : .enum n ∈ S) {p : Nat} {id : String} {vs : List TupleField}
    (hi : .tuple p id vs ∈ n.items) : ∀ v ∈ vs, GoodT v.typeId := by
  intro v hv
  refine goodPayload hw hR hn hi _ ?_
  have : (payload (.tuple p id vs)).map (·.2) = vs.map (·.typeId) := by simp only [payload]; exact Rust.map_snd_mapIdx vs
  rw [this]
  exact List.mem_map.2 ⟨v, hv, rfl⟩

theorem goodFields {n : EnumNode} (hn : .enum n ∈ S) {p : Nat} {id : String} {fs : List StructField}
    (hi : .struct p id fs ∈ n.items) : ∀ f ∈ fs, GoodT f.typeId := by
  intro f hf
  refine goodPayload hw hR hn hi _ ?_
  simp only [payload, List.map_map]
  exact List.mem_map.2 ⟨f, hf, rfl⟩

theorem leg_items : ∀ i ∈ genItems x S, LegItem i := by
  intro i hi
  obtain ⟨d, hd, hi⟩ := List.mem_flatMap.1 hi
  cases d with
  | struct n =>
    rw [genItem, List.mem_singleton] at hi
    subst hi
    obtain ⟨h1, h2, h3⟩ := hR.structs n hd
    refine ⟨h2, ?_, by simp, ?_⟩
    · intro p hp
      obtain ⟨f, hf, rfl⟩ := List.mem_map.1 hp
      exact ⟨h3 f hf, legTy_gen (goodField hw hR hd hf).1 (goodField hw hR hd hf).2⟩
    · intro c hc
      cases hc
      refine ⟨genName_ok h1, h1, ?_⟩
      intro a ha
      obtain ⟨f, hf, rfl⟩ := List.mem_map.1 ha
      refine ⟨?_, legExpr_gen (goodField hw hR hd hf)⟩
      intro m hm
      cases hm
      exact h3 f hf
  | enum n =>
    have h1 := hR.enums n hd
    rw [genItem, genEnum] at hi
    cases hs : n.items with
    | nil => rw [hs] at hi; simp at hi
    | cons j js =>
      simp only [hs, List.mem_cons] at hi
      have hj : j ∈ n.items := by simp [hs]
      obtain ⟨h2, h3⟩ := hR.first n hd j (by simp [hs])
      rcases hi with rfl | hi
      · refine ⟨h1, genName_ok h1, ?_⟩
        cases j with
        | empty p id => exact h2
        | tuple p id vs =>
          refine ⟨h2, ?_⟩
          intro a ha
          obtain ⟨v, hv, rfl⟩ := List.mem_map.1 ha
          exact ⟨by simp, legExpr_gen (goodTuple hw hR hd hj v hv)⟩
        | struct p id fs =>
          refine ⟨h2, ?_⟩
          intro a ha
          obtain ⟨f, hf, rfl⟩ := List.mem_map.1 ha
          refine ⟨?_, legExpr_gen (goodFields hw hR hd hj f hf)⟩
          intro m hm
          cases hm
          exact h3 p id fs rfl f hf
      · obtain ⟨k, hk, rfl⟩ := List.mem_map.1 hi
        have hk' : k ∈ n.items := by rw [hs]; exact hk
        have h4 := hR.variants n hd k hk'
        cases k with
        | empty p id => exact ⟨h4, h1⟩
        | tuple p id vs =>
          refine ⟨h4, legTuple vs (goodTuple hw hR hd hk') 0, ?_, by simp⟩
          intro s hs; cases hs; exact h1
        | struct p id fs =>
          refine ⟨h4, ?_, ?_, by simp⟩
          · intro q hq
            obtain ⟨f, hf, rfl⟩ := List.mem_map.1 hq
            exact ⟨hR.fields n hd p id fs hk' f hf, legTy_gen (goodFields hw hR hd hk' f hf).1 (goodFields hw hR hd hk' f hf).2⟩
          · intro s hs; cases hs; exact h1
  | _ => simp [genItem] at hi

theorem readModels_gen (u : Nat) : readModels (linesText u (renderItems (genItems x S))) = some (genItems x S) :=
  readModels_ok (leg_items hw hR) u

end

end TPB.Spec.KotlinReader
