/- The Rust code generated for a schema can be read back if the names of the schema can be names in Rust. -/
import Verif.Proofs.RustReaderImpls
import Verif.Proofs.RustCodecFacts
import Verif.Proofs.RustTyping
namespace TPB.Spec.RustReader
open Rust Pieces

theorem tail_of_ident {m : String} (h : isIdent m = true) : Tail m := by
  unfold isIdent at h
  unfold Tail
  cases hm : m.toList with
  | nil => simp
  | cons c cs =>
    rw [hm] at h
    simp only [Bool.and_eq_true, List.all_cons] at h ⊢
    refine ⟨?_, h.2⟩
    rcases (Bool.or_eq_true _ _).mp h.1 with h | h
    · simp [Char.isAlphanum, h]
    · simp [h]

theorem legTys_iff : ∀ ts : List Ty, LegTys ts ↔ ∀ t ∈ ts, LegTy t
  | [] => by simp [LegTys]
  | t :: ts => by rw [LegTys, legTys_iff ts]; simp

theorem typesWords_mem : ∀ (gs : List TypeId) (w : String), w ∈ typesWords gs ↔ ∃ g ∈ gs, w ∈ typeWords g
  | [], w => by simp [typesWords]
  | g :: gs, w => by rw [typesWords, List.mem_append, typesWords_mem gs]; simp

/-- A type of an accepted schema whose names can be names in Rust. -/
def GoodT (t : TypeId) : Prop := WFType t ∧ ∀ w ∈ typeWords t, RustName w

theorem words_builtin {t : TypeId} {id : String} (h : builtin? t = some id) : typeWords t = [id] := by
  cases t <;> simp [builtin?] at h <;> simp [typeWords, h]

theorem legTy_gen {t : TypeId} (hw : WFType t) (h : ∀ w ∈ typeWords t, RustName w) : LegTy (genTy t) := by
  induction hw with
  | name n =>
    rcases wf_cases (.name n) with ⟨id, h1, _⟩ | ⟨id, h1, _, h2, _⟩ | ⟨c, gs, h1, _⟩
    · rw [h1] at h ⊢
      rw [genTy, LegTy]
      exact h _ (by simp [typeWords])
    · rw [h2, LegTy]
      exact h _ (by simp [words_builtin h1])
    · rcases name_cases n with ⟨_, h2⟩ | ⟨_, h2⟩
      · rw [h1] at h2; cases h2
      · rw [h1] at h2; simp [builtin?] at h2
  | generic n as hne has ih =>
    rw [genTy_generic, LegTy, legTys_iff]
    refine ⟨h n (by simp [typeWords]), by simpa using hne, ?_⟩
    intro t ht
    obtain ⟨a, ha, rfl⟩ := List.mem_map.1 ht
    exact ih a ha (fun w hw => h w (by rw [typeWords]; exact List.mem_cons_of_mem _ ((typesWords_mem as w).2 ⟨a, ha, hw⟩)))

theorem legRead_gen {t : TypeId} (h : GoodT t) : LegRead (genRead t) := by
  rcases wf_cases h.1 with ⟨id, rfl, _⟩ | ⟨id, h1, _, _, h3, _⟩ | ⟨c, gs, rfl, _⟩
  · have := legTy_gen h.1 h.2
    rwa [genTy] at this
  · rw [h3]
    exact tail_of_ident (h.2 id (by simp [words_builtin h1])).1
  · have := legTy_gen h.1 h.2
    rwa [genTy_generic] at this

theorem legWrite_gen {t : TypeId} (h : GoodT t) {a : Acc} (ha : LegPlace a) : LegWrite (genWrite t a) := by
  rcases wf_cases h.1 with ⟨id, rfl, _⟩ | ⟨id, h1, _, _, _, h3⟩ | ⟨c, gs, rfl, _⟩
  · exact ha
  · rw [h3]
    refine ⟨tail_of_ident (h.2 id (by simp [words_builtin h1])).1, ?_⟩
    cases a with
    | lit k => trivial
    | field n => exact ha
    | var n => exact ha
  · exact ha

theorem legDef_gen {t : TypeId} (h : GoodT t) : LegDef (genDef t) := by
  cases t with
  | other id =>
    have := legTy_gen h.1 h.2
    rwa [genTy] at this
  | generic c gs =>
    have := legTy_gen h.1 h.2
    rwa [genTy_generic] at this
  | _ => trivial

theorem rustName_v (n : Nat) : RustName ("v" ++ toString n) := by
  have e : (toString n).toList = Nat.toDigits 10 n := by simp [toString, Nat.repr]
  have hd := toDigits_decimal n
  refine ⟨?_, ?_⟩
  · unfold isIdent
    rw [String.toList_append, e]
    have : ∀ c ∈ Nat.toDigits 10 n, (c.isAlphanum || c == '_') = true := by
      intro c hc
      have := (isDigit_iff c).2 (hd.2 c hc)
      simp [Char.isAlphanum, this]
    have hv : "v".toList ++ Nat.toDigits 10 n = 'v' :: Nat.toDigits 10 n := rfl
    rw [hv]
    simp only [Bool.and_eq_true]
    exact ⟨by decide, List.all_eq_true.2 this⟩
  · intro hk
    have key : ∀ w ∈ rustKeywords, ¬ ∃ c cs, w.toList = 'v' :: c :: cs ∧ c.isDigit = true := by
      have : ∀ w ∈ rustKeywords, (match w.toList with | 'v' :: c :: _ => c.isDigit | _ => false) = false := by decide
      rintro w hw ⟨c, cs, h1, h2⟩
      have := this w hw
      rw [h1] at this
      simp [h2] at this
    refine key _ hk ?_
    rw [String.toList_append, e]
    match hm : Nat.toDigits 10 n, hd with
    | [], hd => exact absurd rfl hd.1
    | c :: cs, hd => exact ⟨c, cs, rfl, (isDigit_iff c).2 (hd.2 c (by simp))⟩

/-! ### The trees of a schema -/

theorem rustNamed_struct {S : List ASTNode} (hw : WFSchema 0 S) (h : RustNamed S) {n : StructNode} (hn : .struct n ∈ S) :
    RustName n.id ∧ ∀ f ∈ n.fields, RustName f.name ∧ GoodT f.typeId := by
  have hd := h _ hn
  obtain ⟨j, hj⟩ := wfSchema_mem' S 0 hw _ hn
  refine ⟨hd _ (by simp [declWords]), fun f hf => ⟨hd _ (by simp [declWords]; exact .inr (.inl ⟨f, hf, rfl⟩)),
    hj.1.2 f hf, fun w hw => hd w ?_⟩⟩
  simp only [declWords, List.mem_cons, List.mem_append, List.mem_flatMap]
  exact .inr (.inr ⟨f, hf, hw⟩)

def GoodItem (i : EnumItem) : Prop := (∀ w ∈ itemNames i, RustName w) ∧ ∀ t ∈ itemTypes i, GoodT t

theorem rustNamed_enum {S : List ASTNode} (hw : WFSchema 0 S) (h : RustNamed S) {n : EnumNode} (hn : .enum n ∈ S) :
    RustName n.id ∧ n.items ≠ [] ∧ ∀ i ∈ n.items, GoodItem i := by
  have hd := h _ hn
  obtain ⟨j, hj⟩ := wfSchema_mem' S 0 hw _ hn
  refine ⟨hd _ (by simp [declWords]), hj.1, fun i hi => ⟨fun w hw => hd w ?_, fun t ht => ⟨?_, fun w hw => hd w ?_⟩⟩⟩
  · simp only [declWords, List.mem_cons, List.mem_append, List.mem_flatMap]
    exact .inr (.inl ⟨i, hi, hw⟩)
  · have := hj.2.2 i hi
    cases i with
    | empty => simp [itemTypes] at ht
    | tuple p id vs =>
      obtain ⟨v, hv, rfl⟩ := List.mem_map.1 ht
      exact this.2 v hv
    | struct p id fs =>
      obtain ⟨v, hv, rfl⟩ := List.mem_map.1 ht
      exact this.2 v hv
  · simp only [declWords, List.mem_cons, List.mem_append, List.mem_flatMap]
    exact .inr (.inr ⟨i, hi, t, ht, hw⟩)

theorem legPayload_gen {α : Type} {L : α → Prop} (g : TypeId → α) (hg : ∀ t, GoodT t → L (g t)) :
    (∀ p id vs, GoodItem (.tuple p id vs) → LegPayload L (.tuple (vs.map (fun v => g v.typeId)))) ∧
    (∀ p id fs, GoodItem (.struct p id fs) → LegPayload L (.named (fs.map (fun f => (f.name, g f.typeId))))) := by
  refine ⟨fun p id vs h a ha => ?_, fun p id fs h x hx => ?_⟩
  · obtain ⟨v, hv, rfl⟩ := List.mem_map.1 ha
    exact hg _ (h.2 _ (List.mem_map.2 ⟨v, hv, rfl⟩))
  · obtain ⟨f, hf, rfl⟩ := List.mem_map.1 hx
    exact ⟨h.1 _ (by simp [itemNames]; exact .inr ⟨f, hf, rfl⟩), hg _ (h.2 _ (List.mem_map.2 ⟨f, hf, rfl⟩))⟩

theorem legVariant {i : EnumItem} (h : GoodItem i) : RustName (genVariant i).1 ∧ LegPayload LegTy (genVariant i).2 := by
  have hp := legPayload_gen genTy (fun t ht => legTy_gen ht.1 ht.2)
  have hi := h.1 i.id (by simp [itemNames])
  cases i with
  | empty p id => exact ⟨hi, trivial⟩
  | tuple p id vs => exact ⟨hi, hp.1 _ _ _ h⟩
  | struct p id fs => exact ⟨hi, hp.2 _ _ _ h⟩

theorem legDefault {i : EnumItem} (h : GoodItem i) : LegDefBody (genEnumDefault i) := by
  have hp := legPayload_gen genDef (fun _ => legDef_gen)
  have hi := h.1 i.id (by simp [itemNames])
  cases i with
  | empty p id => exact ⟨hi, trivial⟩
  | tuple p id vs => exact ⟨hi, hp.1 _ _ _ h⟩
  | struct p id fs => exact ⟨hi, hp.2 _ _ _ h⟩

theorem legItems {S : List ASTNode} (hw : WFSchema 0 S) (h : RustNamed S) : ∀ i ∈ genItems S, LegItem i := by
  intro i hi
  obtain ⟨d, hd, he⟩ := List.mem_filterMap.1 hi
  cases d with
  | struct n =>
    simp only [Option.some.injEq] at he
    subst he
    obtain ⟨h1, h2⟩ := rustNamed_struct hw h hd
    refine ⟨⟨h1, ?_⟩, ?_⟩
    · intro f hf
      obtain ⟨f, hf', rfl⟩ := List.mem_map.1 hf
      exact ⟨(h2 f hf').1, legTy_gen (h2 f hf').2.1 (h2 f hf').2.2⟩
    · unfold genStructItem
      cases hf : n.fields with
      | nil => trivial
      | cons f fs =>
        intro x hx
        obtain ⟨g, hg, rfl⟩ := List.mem_map.1 hx
        rw [← hf] at hg
        exact ⟨(h2 g hg).1, legDef_gen (h2 g hg).2⟩
  | enum n =>
    obtain ⟨h1, h2, h3⟩ := rustNamed_enum hw h hd
    cases hh : n.items.head? with
    | none => simp [hh] at he
    | some j =>
      simp only [hh, Option.map_some, Option.some.injEq] at he
      subst he
      refine ⟨⟨h1, ?_⟩, legDefault (h3 j (List.mem_of_mem_head? hh))⟩
      intro v hv
      obtain ⟨k, hk, rfl⟩ := List.mem_map.1 hv
      exact legVariant (h3 k hk)
  | fn => simp at he
  | directive => simp at he
  | const => simp at he

theorem legArm {i : EnumItem} (h : GoodItem i) : LegArm (genReadArm i) := by
  have hp := legPayload_gen genRead (fun _ => legRead_gen)
  have hi := h.1 i.id (by simp [itemNames])
  cases i with
  | empty p id => exact ⟨hi, trivial⟩
  | tuple p id vs => exact ⟨hi, hp.1 _ _ _ h⟩
  | struct p id fs => exact ⟨hi, hp.2 _ _ _ h⟩

theorem tail_u32 : Tail "u32" := by
  unfold Tail
  decide

theorem legTagRead : LegRead (genRead u32TypeId) := tail_u32

theorem legTagWrite (p : Nat) : LegWrite (tagWrite p) := ⟨tail_u32, trivial⟩

theorem legWriteArm {i : EnumItem} (h : GoodItem i) : LegWriteArm (genWriteArm i) := by
  have hi := h.1 i.id (by simp [itemNames])
  cases i with
  | empty p id => exact ⟨hi, rfl, by intro s hs; simp [genWriteArm] at hs; subst hs; exact legTagWrite p⟩
  | tuple p id vs =>
    refine ⟨hi, ⟨rfl, ?_⟩, ?_⟩
    · intro x hx
      obtain ⟨v, _, rfl⟩ := List.mem_map.1 hx
      exact rustName_v _
    · intro s hs
      rcases List.mem_cons.1 hs with rfl | hs
      · exact legTagWrite p
      · obtain ⟨v, hv, rfl⟩ := List.mem_map.1 hs
        exact legWrite_gen (h.2 _ (List.mem_map.2 ⟨v.2, mem_withIdx hv, rfl⟩)) (rustName_v _)
  | struct p id fs =>
    have hf : ∀ f ∈ fs, RustName f.name := fun f hf => h.1 _ (by simp [itemNames]; exact .inr ⟨f, hf, rfl⟩)
    refine ⟨hi, ⟨rfl, ?_⟩, ?_⟩
    · intro x hx
      obtain ⟨f, hf', rfl⟩ := List.mem_map.1 hx
      exact hf f hf'
    · intro s hs
      rcases List.mem_cons.1 hs with rfl | hs
      · exact legTagWrite p
      · obtain ⟨f, hf', rfl⟩ := List.mem_map.1 hs
        exact legWrite_gen (h.2 _ (List.mem_map.2 ⟨f, hf', rfl⟩)) (hf f hf')

theorem legSkipArm {i : EnumItem} (h : GoodItem i) : LegSkipArm (genSkipArm i) := by
  intro es he e hm
  cases i with
  | empty p id => simp [genSkipArm] at he
  | tuple p id vs =>
    simp only [genSkipArm, Option.some.injEq] at he
    subst he
    obtain ⟨v, hv, rfl⟩ := List.mem_map.1 hm
    exact legRead_gen (h.2 _ (List.mem_map.2 ⟨v, hv, rfl⟩))
  | struct p id fs =>
    simp only [genSkipArm, Option.some.injEq] at he
    subst he
    obtain ⟨v, hv, rfl⟩ := List.mem_map.1 hm
    exact legRead_gen (h.2 _ (List.mem_map.2 ⟨v, hv, rfl⟩))

theorem legImpls {S : List ASTNode} (hw : WFSchema 0 S) (h : RustNamed S) : ∀ i ∈ genImpls S, LegImpl i := by
  intro i hi
  obtain ⟨d, hd, he⟩ := List.mem_filterMap.1 hi
  cases d with
  | struct n =>
    simp only [Option.some.injEq] at he
    subst he
    obtain ⟨h1, h2⟩ := rustNamed_struct hw h hd
    unfold genStructImpl
    cases hf : n.fields with
    | nil => exact ⟨h1, h1, trivial, trivial⟩
    | cons f fs =>
      rw [hf] at h2
      refine ⟨h1, fun x hx => ?_, fun s hs => ?_, fun e he => ?_⟩
      · obtain ⟨g, hg, rfl⟩ := List.mem_map.1 hx
        exact ⟨(h2 g hg).1, legRead_gen (h2 g hg).2⟩
      · obtain ⟨g, hg, rfl⟩ := List.mem_map.1 hs
        exact legWrite_gen (h2 g hg).2 (h2 g hg).1
      · obtain ⟨g, hg, rfl⟩ := List.mem_map.1 he
        exact legRead_gen (h2 g hg).2
  | enum n =>
    simp only [Option.some.injEq] at he
    subst he
    obtain ⟨h1, h2, h3⟩ := rustNamed_enum hw h hd
    refine ⟨h1, ⟨legTagRead, h1, by simpa using h2, fun a ha => ?_⟩,
      ⟨h1, by simpa using h2, fun a ha => ?_⟩, legTagRead, fun a ha => ?_⟩
    · obtain ⟨k, hk, rfl⟩ := List.mem_map.1 ha
      exact legArm (h3 k hk)
    · obtain ⟨k, hk, rfl⟩ := List.mem_map.1 ha
      exact legWriteArm (h3 k hk)
    · obtain ⟨k, hk, rfl⟩ := List.mem_map.1 ha
      exact legSkipArm (h3 k hk)
  | fn => simp at he
  | directive => simp at he
  | const => simp at he

/-- The generated sections are read as the trees of the schema. -/
theorem readItems_gen {S : List ASTNode} (hw : WFSchema 0 S) (h : RustNamed S) (u : Nat) :
    readItems (linesText u (joinBlocks ((genItems S).map TypeItem.render))) = some (genItems S) :=
  readItems_ok u _ (legItems hw h)

theorem readImpls_gen {S : List ASTNode} (hw : WFSchema 0 S) (h : RustNamed S) (u : Nat) :
    readImpls (linesText u (joinBlocks ((genImpls S).map Impl.render))) = some (genImpls S) :=
  readImpls_ok u _ (legImpls hw h)

end TPB.Spec.RustReader

namespace TPB.Props
open Spec Rust RustReader

/-- The generator prints the program `genProg S`, and this is what is read. -/
theorem emits_genProg (S : List ASTNode) (h : Accepted S) : Emits S (genProg S) := by
  refine ⟨prints_genProg S h, fun hR m hm => ?_⟩
  rw [(emitted_models S h).1] at hm
  cases hm
  have h2 : readImpls (RustGen.buffers S) = some (genImpls S) := by
    rw [emitted_buffers]
    exact readImpls_gen h.wf hR 4
  unfold readProgram
  rw [readItems_gen h.wf hR 4, h2]
  simp only [(emitted_models S h).2]
  rfl

end TPB.Props
