/- The emitted Rust declarations and `impl` blocks and the typing rules of `Spec/RustTyping.lean`. -/
import Verif.Spec.RustTyping
import Verif.Proofs.RustCodecFacts
import Verif.Proofs.RustDefault
import Verif.Proofs.RustRpcFacts
namespace TPB.Rust
open Spec

variable {L : Crates} {S : List ASTNode}

/-! ### Types -/

theorem name_cases (n : String) :
    (builtinTypes.lookup n = none ∧ typeOfName n = .other n) ∨
    (builtinTypes.lookup n = some (typeOfName n) ∧ builtin? (typeOfName n) = some n) := by
  unfold typeOfName
  cases hl : builtinTypes.lookup n with
  | none => exact .inl ⟨rfl, rfl⟩
  | some t =>
    refine .inr ⟨rfl, ?_⟩
    simp only [Option.getD_some]
    simp only [builtinTypes, List.lookup] at hl
    repeat' split at hl
    all_goals first
      | (simp at hl; done)
      | (rename_i h; simp only [beq_iff_eq] at h; subst h; injection hl with hl; subst hl; rfl)

theorem wf_cases {t : TypeId} (h : WFType t) :
    (∃ id, t = .other id ∧ builtinTypes.lookup id = none) ∨
    (∃ id, builtin? t = some id ∧ builtinTypes.lookup id = some t ∧ genTy t = .named id ∧ genRead t = .prim id ∧ ∀ a, genWrite t a = .prim id a) ∨
    (∃ c gs, t = .generic c gs ∧ ∀ g ∈ gs, WFType g) := by
  cases h with
  | name n =>
    have hw := WFType.name n
    rcases name_cases n with ⟨h1, h2⟩ | ⟨h1, h2⟩
    · exact .inl ⟨n, h2, h1⟩
    · obtain ⟨-, h3, h4, h5⟩ := wfType_builtin hw h2
      exact .inr (.inl ⟨n, h2, h1, h3, h4, h5⟩)
  | generic c gs _ h => exact .inr (.inr ⟨c, gs, rfl, h⟩)

theorem wf_args {c : String} {gs : List TypeId} (h : WFType (.generic c gs)) : ∀ g ∈ gs, WFType g := by
  rcases wf_cases h with ⟨_, h, _⟩ | ⟨_, h, _⟩ | ⟨c', gs', h, h'⟩
  · simp at h
  · simp [builtin?] at h
  · injection h with _ h; subst h; exact h'

theorem wf_other {id : String} (h : WFType (.other id)) : builtinTypes.lookup id = none := by
  rcases wf_cases h with ⟨_, h, h'⟩ | ⟨_, h, _⟩ | ⟨_, _, h, _⟩
  · injection h with h; subst h; exact h'
  · simp [builtin?] at h
  · simp at h

theorem implements_of_exists {t : TypeId} (h : TypeExists L S t) (ht : WFType t) : Implements L (typeNames S) (typeNames S) (genTy t) := by
  induction h with
  | own id h => exact .own _ h h
  | builtin t id h =>
    obtain ⟨h1, h2⟩ := wfType_lookup ht h
    rw [h2]
    by_cases hd : id ∈ typeNames S
    · exact .own _ hd hd
    · exact .builtin _ hd (by simp [h1])
  | lib id h =>
    by_cases hd : id ∈ typeNames S
    · exact .own _ hd hd
    · exact .lib _ hd h
  | generic c gs h1 h2 h3 ih =>
    rw [genTy_generic]
    refine .app _ _ h1 (by simpa using h2) ?_
    intro a ha
    obtain ⟨g, hg, rfl⟩ := List.mem_map.1 ha
    exact ih g hg (wf_args ht g hg)

theorem exists_of_implements {t : TypeId} (ht : WFType t) (h : Implements L (typeNames S) (typeNames S) (genTy t)) : TypeExists L S t := by
  induction ht with
  | name n =>
    rcases name_cases n with ⟨h1, h2⟩ | ⟨h1, h2⟩
    · rw [h2] at h ⊢
      rw [genTy] at h
      cases h with
      | own _ h1 _ => exact .own _ h1
      | builtin _ h3 h2 => simp [h1] at h2
      | lib _ h1 h2 => exact .lib _ h2
    · exact .builtin _ _ h2
  | generic c gs hne hw ih =>
    rw [genTy_generic] at h
    cases h with
    | app _ _ h1 h2 h3 => exact .generic _ _ h1 (by simpa using h2) (fun g hg => ih g hg (h3 _ (List.mem_map.2 ⟨g, hg, rfl⟩)))

theorem implements_iff {t : TypeId} (ht : WFType t) : Implements L (typeNames S) (typeNames S) (genTy t) ↔ TypeExists L S t :=
  ⟨exists_of_implements ht, fun h => implements_of_exists h ht⟩

/-- The type is not a built-in type whose name is declared. -/
def NotHidden (S : List ASTNode) (t : TypeId) : Prop := ∀ id, builtin? t = some id → id ∉ typeNames S

theorem containsTy_iff {t : TypeId} (ht : WFType t) (id : String) : ContainsTy L (genTy t) id ↔ ContainsType L t id := by
  constructor
  · intro h
    induction ht with
    | name n =>
      rcases name_cases n with ⟨h1, h2⟩ | ⟨h1, h2⟩
      · rw [h2] at h ⊢
        rw [genTy] at h
        cases h
        exact .named _
      · rw [(wfType_lookup (WFType.name n) h2).2] at h
        cases h
        exact .builtin _ _ h2
    | generic c gs hne hw ih =>
      rw [genTy_generic] at h
      cases h with
      | arg _ _ a _ h1 h2 h3 =>
        obtain ⟨g, hg, rfl⟩ := List.mem_map.1 h2
        exact .arg _ _ g _ h1 hg (ih g hg h3)
  · intro h
    induction h with
    | named id => exact .named _
    | builtin t id h => rw [(wfType_lookup ht h).2]; exact .named _
    | arg c gs g id h1 h2 _ ih =>
      rw [genTy_generic]
      exact .arg _ _ (genTy g) _ h1 (List.mem_map.2 ⟨g, h2, rfl⟩) (ih (wf_args ht g h2))

/-! ### Expressions -/

/-- The expression that reads a value of the type `t` can have no other type. -/
theorem readTyped_ty {D I : List String} {t : TypeId} (ht : WFType t) {u : Ty} (h : ReadTyped L D I (genRead t) u) : u = genTy t := by
  rcases wf_cases ht with ⟨id, rfl, -⟩ | ⟨id, h1, -, h2, h3, -⟩ | ⟨c, gs, rfl, -⟩
  · rw [genRead] at h
    cases h
    rw [genTy]
  · rw [h3] at h
    cases h
    rw [h2]
  · rw [genRead] at h
    cases h
    rw [genTy_generic]

theorem readTyped_iff {t : TypeId} (ht : WFType t) :
    ReadTyped L (typeNames S) (typeNames S) (genRead t) (genTy t) ↔ TypeExists L S t ∧ NotHidden S t := by
  rw [← implements_iff ht]
  rcases wf_cases ht with ⟨id, rfl, -⟩ | ⟨id, h1, h0, h2, h3, -⟩ | ⟨c, gs, rfl, -⟩
  · constructor
    · intro h
      rw [genRead, genTy] at h
      cases h with
      | path _ h => exact ⟨by rw [genTy]; exact h, by simp [NotHidden, builtin?]⟩
    · rintro ⟨h, -⟩
      rw [genTy] at h ⊢
      rw [genRead]
      exact .path _ h
  · rw [h2, h3]
    constructor
    · intro h
      cases h with
      | prim _ _ h =>
        refine ⟨.builtin _ h.1 (by simp [h0]), ?_⟩
        intro i hi
        rw [h1] at hi
        injection hi with hi
        subst hi
        exact h.1
    · rintro ⟨-, h⟩
      exact .prim _ t ⟨h id h1, h0⟩
  · constructor
    · intro h
      rw [genRead, genTy_generic] at h
      cases h with
      | path _ h => exact ⟨by rw [genTy_generic]; exact h, by simp [NotHidden, builtin?]⟩
    · rintro ⟨h, -⟩
      rw [genTy_generic] at h ⊢
      rw [genRead]
      exact .path _ h

theorem defTyped_iff {t : TypeId} (ht : WFType t) :
    DefTyped L (typeNames S) (genDef t) (genTy t) ↔ TypeExists L S t ∧ NotHidden S t ∧ ∀ c, t ≠ .char c := by
  rw [← implements_iff ht]
  rcases wf_cases ht with ⟨id, rfl, -⟩ | ⟨id, h1, h0, h2, h3, -⟩ | ⟨c, gs, rfl, -⟩
  · constructor
    · intro h
      rw [genDef, genTy] at h
      cases h with
      | call _ h => exact ⟨by rw [genTy]; exact h, by simp [NotHidden, builtin?], by simp⟩
    · rintro ⟨h, -⟩
      rw [genTy] at h ⊢
      rw [genDef]
      exact .call _ h
  · rw [h2]
    have key : ∀ u, Builtin (typeNames S) id u → Implements L (typeNames S) (typeNames S) (.named id) ∧ NotHidden S t ∧ u = t := by
      intro u hu
      refine ⟨.builtin _ hu.1 (by simp [h0]), ?_, ?_⟩
      · intro i hi
        rw [h1] at hi
        injection hi with hi
        subst hi
        exact hu.1
      · have := hu.2
        rw [h0] at this
        injection this with this
        exact this.symm
    constructor
    · intro h
      generalize he : genDef t = e at h
      cases h with
      | zero _ i size s h => obtain ⟨a, b, rfl⟩ := key _ h; exact ⟨a, b, by simp⟩
      | zeroF _ i size h => obtain ⟨a, b, rfl⟩ := key _ h; exact ⟨a, b, by simp⟩
      | no _ i h => obtain ⟨a, b, rfl⟩ := key _ h; exact ⟨a, b, by simp⟩
      | call _ h => cases t <;> simp [builtin?] at h1 <;> simp [genDef] at he
    · rintro ⟨-, h, hc⟩
      have hb : Builtin (typeNames S) id t := ⟨h id h1, h0⟩
      cases t with
      | integer i size s => exact .zero _ _ _ _ hb
      | number i size => exact .zeroF _ _ _ hb
      | bool i => exact .no _ _ hb
      | char i => exact absurd rfl (hc i)
      | other => simp [builtin?] at h1
      | generic => simp [builtin?] at h1
  · constructor
    · intro h
      rw [genDef, genTy_generic] at h
      cases h with
      | call _ h => exact ⟨by rw [genTy_generic]; exact h, by simp [NotHidden, builtin?], by simp⟩
    · rintro ⟨h, -⟩
      rw [genTy_generic] at h ⊢
      rw [genDef]
      exact .call _ h

/-- The statement that writes the place `a`, which has the type `t`. -/
theorem writeTyped_of {places : List (Acc × Ty)} {t : TypeId} (ht : WFType t) (he : TypeExists L S t) (hh : NotHidden S t) {a : Acc}
    (ha : (a, genTy t) ∈ places) : WriteTyped L (typeNames S) (typeNames S) places (genWrite t a) := by
  have hi := (implements_iff (L := L) (S := S) ht).2 he
  rcases wf_cases ht with ⟨id, rfl, -⟩ | ⟨id, h1, h0, h2, -, h3⟩ | ⟨c, gs, rfl, -⟩
  · exact .call _ _ ha hi
  · rw [h3]
    rw [h2] at ha
    exact .place _ _ t ⟨hh id h1, h0⟩ ha
  · exact .call _ _ ha hi

theorem tag_fits (p : Nat) : LiteralFitsMethod "u32" p ↔ p < 2 ^ 32 := by
  have h : builtinTypes.lookup "u32" = some (.integer "u32" 4 false) := rfl
  unfold LiteralFitsMethod
  rw [h]
  constructor
  · rintro ⟨i, size, h1, h2⟩
    injection h1 with h1
    injection h1 with _ h1
    subst h1
    exact h2
  · intro h
    exact ⟨_, _, rfl, h⟩

/-! ### Struct literals -/

theorem mem_unique {α : Type} {fs : List (String × α)} (h : (fs.map (·.1)).Nodup) {n : String} {a b : α} (ha : (n, a) ∈ fs) (hb : (n, b) ∈ fs) :
    a = b := by
  have h1 := lookup_of_nodup h ha
  have h2 := lookup_of_nodup h hb
  rw [h1] at h2
  injection h2

theorem recordTyped_iff {α : Type} {T : α → Ty → Prop} {Q : TypeId → Prop} {g : TypeId → α} {fs : List (String × TypeId)}
    (h : ∀ f ∈ fs, (T (g f.2) (genTy f.2) ↔ Q f.2)) (hn : (fs.map (·.1)).Nodup) :
    RecordTyped T (fs.map (fun f => (f.1, genTy f.2))) (fs.map (fun f => (f.1, g f.2))) ↔ ∀ f ∈ fs, Q f.2 := by
  have hn' : ((fs.map (fun f => (f.1, genTy f.2))).map (·.1)).Nodup := by simpa [List.map_map, Function.comp_def] using hn
  constructor
  · intro hr f hf
    obtain ⟨t, h1, h2⟩ := hr.typed (f.1, g f.2) (List.mem_map.2 ⟨f, hf, rfl⟩)
    have := mem_unique hn' h1 (List.mem_map.2 ⟨f, hf, rfl⟩)
    subst this
    exact (h f hf).1 h2
  · intro hq
    refine ⟨by simpa [List.map_map, Function.comp_def] using hn, ?_, ?_⟩
    · intro f hf
      obtain ⟨f', h1, rfl⟩ := List.mem_map.1 hf
      simp only [List.map_map, List.mem_map, Function.comp_apply]
      exact ⟨f', h1, rfl⟩
    · intro e he
      obtain ⟨f, h1, rfl⟩ := List.mem_map.1 he
      exact ⟨_, List.mem_map.2 ⟨f, h1, rfl⟩, (h f h1).2 (hq f h1)⟩

theorem eachTyped_iff {α : Type} {T : α → Ty → Prop} {Q : TypeId → Prop} {g : TypeId → α} {ts : List TypeId}
    (h : ∀ t ∈ ts, (T (g t) (genTy t) ↔ Q t)) : Each T (ts.map g) (ts.map genTy) ↔ ∀ t ∈ ts, Q t := by
  induction ts with
  | nil => simp; exact .nil
  | cons t ts ih =>
    have ih := ih (fun t ht => h t (by simp [ht]))
    simp only [List.map_cons, List.forall_mem_cons]
    rw [← ih, ← h t (by simp)]
    constructor
    · intro he; cases he with | cons a b => exact ⟨a, b⟩
    · rintro ⟨a, b⟩; exact .cons a b

/-! ### The emitted items -/

theorem mem_items {it : TypeItem} : it ∈ genItems S ↔
    (∃ n, .struct n ∈ S ∧ it = genStructItem n) ∨
    (∃ n i, .enum n ∈ S ∧ n.items.head? = some i ∧ it = ⟨genEnumDecl n, genEnumDefault i⟩) := by
  unfold genItems
  rw [List.mem_filterMap]
  constructor
  · rintro ⟨d, hd, h⟩
    cases d with
    | struct n => simp only [Option.some.injEq] at h; exact .inl ⟨n, hd, h.symm⟩
    | enum n =>
      simp only [Option.map_eq_some_iff] at h
      obtain ⟨i, h1, h2⟩ := h
      exact .inr ⟨n, i, hd, h1, h2.symm⟩
    | fn => simp at h
    | directive => simp at h
    | const => simp at h
  · rintro (⟨n, h, rfl⟩ | ⟨n, i, h, hi, rfl⟩)
    · exact ⟨_, h, rfl⟩
    · exact ⟨_, h, by simp [hi]⟩

theorem mem_impls {m : Impl} : m ∈ genImpls S ↔
    (∃ n, .struct n ∈ S ∧ m = genStructImpl n) ∨ (∃ n, .enum n ∈ S ∧ m = genEnumImpl n) := by
  unfold genImpls
  rw [List.mem_filterMap]
  constructor
  · rintro ⟨d, hd, h⟩
    cases d with
    | struct n => simp only [Option.some.injEq] at h; exact .inl ⟨n, hd, h.symm⟩
    | enum n => simp only [Option.some.injEq] at h; exact .inr ⟨n, hd, h.symm⟩
    | fn => simp at h
    | directive => simp at h
    | const => simp at h
  · rintro (⟨n, h, rfl⟩ | ⟨n, h, rfl⟩)
    · exact ⟨_, h, rfl⟩
    · exact ⟨_, h, rfl⟩

theorem items_ids : ∀ {S : List ASTNode}, (∀ n, .enum n ∈ S → n.items ≠ []) → (genItems S).map (·.decl.id) = typeNames S
  | [], _ => rfl
  | d :: S, h => by
    have ih := items_ids (S := S) (fun n hn => h n (by simp [hn]))
    unfold genItems typeNames at ih ⊢
    cases d with
    | struct n => simp only [List.filterMap_cons, List.map_cons, ih]; rfl
    | enum n =>
      cases hi : n.items with
      | nil => exact absurd hi (h n (by simp))
      | cons i is => simp only [List.filterMap_cons, hi, List.head?_cons, Option.map_some, List.map_cons, ih]; rfl
    | fn => simpa only [List.filterMap_cons] using ih
    | directive => simpa only [List.filterMap_cons] using ih
    | const => simpa only [List.filterMap_cons] using ih

theorem unitStructs_eq : ∀ (S : List ASTNode), unitStructs (genItems S) = emptyStructs S
  | [] => rfl
  | d :: S => by
    have ih := unitStructs_eq S
    unfold unitStructs genItems emptyStructs at ih ⊢
    cases d with
    | struct n =>
      simp only [List.filterMap_cons]
      cases hf : n.fields with
      | nil =>
        have : (genStructItem n).decl = .struct n.id [] := by simp [genStructItem, genStructDecl, hf]
        simp only [this, if_true, ih]
      | cons f fs =>
        have : (genStructItem n).decl = .struct n.id ((f.name, genTy f.typeId) :: fs.map (fun f => (f.name, genTy f.typeId))) := by
          simp [genStructItem, genStructDecl, hf]
        simp only [this, ih]
        simp
    | enum n =>
      simp only [List.filterMap_cons]
      cases hi : n.items.head? with
      | none => simpa using ih
      | some i => simpa [genEnumDecl] using ih
    | fn => simpa only [List.filterMap_cons] using ih
    | directive => simpa only [List.filterMap_cons] using ih
    | const => simpa only [List.filterMap_cons] using ih

theorem fieldTys_gen (i : EnumItem) : fieldTys (genVariant i).2 = (payload i).map (fun f => genTy f.2) := by
  cases i with
  | empty => rfl
  | tuple p id vs =>
    simp only [genVariant, fieldTys, payload]
    apply List.ext_getElem?
    intro j
    simp only [List.getElem?_map, List.getElem?_mapIdx]
    cases vs[j]? <;> rfl
  | struct p id fs => simp [genVariant, fieldTys, payload]

theorem declTys_struct (n : StructNode) : declTys (genStructDecl n) = (directTypes (.struct n)).map genTy := by
  simp [genStructDecl, declTys, directTypes, fieldsOf]

theorem declTys_enum (n : EnumNode) : declTys (genEnumDecl n) = (directTypes (.enum n)).map genTy := by
  simp [genEnumDecl, declTys, directTypes, List.flatMap_map, List.map_flatMap, fieldTys_gen, Function.comp_def]


/-! ### Structs -/

theorem defaultTyped_struct {n : StructNode} (hw : ∀ f ∈ fieldsOf n, WFType f.2) (hn : ((fieldsOf n).map (·.1)).Nodup) :
    DefaultTyped L (typeNames S) (genStructItem n).decl (genStructItem n).default ↔
      ∀ f ∈ fieldsOf n, TypeExists L S f.2 ∧ NotHidden S f.2 ∧ ∀ c, f.2 ≠ .char c := by
  have key := recordTyped_iff (T := DefTyped L (typeNames S)) (Q := fun t => TypeExists L S t ∧ NotHidden S t ∧ ∀ c, t ≠ .char c) (g := genDef)
    (fs := fieldsOf n) (fun f hf => defTyped_iff (hw f hf)) hn
  rw [← key]
  simp only [genStructItem, genStructDecl, fieldsOf, List.map_map, Function.comp_def]
  cases hf : n.fields with
  | nil => exact ⟨fun _ => ⟨by simp, by simp, by simp⟩, fun _ => trivial⟩
  | cons f fs => simp only [List.map_cons, DefaultTyped]

theorem readTyped_struct {n : StructNode} (hw : ∀ f ∈ fieldsOf n, WFType f.2) (hn : ((fieldsOf n).map (·.1)).Nodup) :
    ReadBodyTyped L (typeNames S) (typeNames S) (genStructDecl n) (genStructImpl n).read ↔
      ∀ f ∈ fieldsOf n, TypeExists L S f.2 ∧ NotHidden S f.2 := by
  have key := recordTyped_iff (T := ReadTyped L (typeNames S) (typeNames S)) (Q := fun t => TypeExists L S t ∧ NotHidden S t) (g := genRead)
    (fs := fieldsOf n) (fun f hf => readTyped_iff (hw f hf)) hn
  rw [← key]
  simp only [genStructImpl, genStructDecl, fieldsOf, List.map_map, Function.comp_def]
  cases hf : n.fields with
  | nil => exact ⟨fun _ => ⟨by simp, by simp, by simp⟩, fun _ => ⟨rfl, rfl⟩⟩
  | cons f fs =>
    simp only [ReadBodyTyped, Decl.id, Decl.struct.injEq, true_and]
    constructor
    · rintro ⟨_, rfl, h⟩; exact h
    · intro h; exact ⟨_, rfl, h⟩

theorem writeTyped_struct {U : List String} {n : StructNode} (hw : ∀ f ∈ fieldsOf n, WFType f.2)
    (h : ∀ f ∈ fieldsOf n, TypeExists L S f.2 ∧ NotHidden S f.2) :
    WriteBodyTyped L (typeNames S) (typeNames S) U (genStructDecl n) (genStructImpl n).write := by
  unfold genStructImpl
  cases hf : n.fields with
  | nil => trivial
  | cons f fs =>
    refine ⟨_, rfl, ?_⟩
    intro s hs
    rw [← hf] at hs
    obtain ⟨g, hg, rfl⟩ := List.mem_map.1 hs
    have hm : (g.name, g.typeId) ∈ fieldsOf n := List.mem_map.2 ⟨g, hg, rfl⟩
    refine writeTyped_of (hw _ hm) (h _ hm).1 (h _ hm).2 ?_
    simp only [List.mem_map]
    exact ⟨_, ⟨g, hg, rfl⟩, rfl⟩

theorem skipTyped_struct {n : StructNode} (hw : ∀ f ∈ fieldsOf n, WFType f.2) (h : ∀ f ∈ fieldsOf n, TypeExists L S f.2 ∧ NotHidden S f.2) :
    SkipBodyTyped L (typeNames S) (typeNames S) (genStructImpl n).skip := by
  unfold genStructImpl
  cases hf : n.fields with
  | nil => trivial
  | cons f fs =>
    intro s hs
    rw [← hf] at hs
    obtain ⟨g, hg, rfl⟩ := List.mem_map.1 hs
    have hm : (g.name, g.typeId) ∈ fieldsOf n := List.mem_map.2 ⟨g, hg, rfl⟩
    exact ⟨_, (readTyped_iff (hw _ hm)).2 (h _ hm)⟩

/-! ### Enums -/

/-- The payload of a variant in an expression. -/
def genPayload {α : Type} (g : TypeId → α) : EnumItem → Payload α
  | .empty _ _ => .unit
  | .tuple _ _ vs => .tuple (vs.map (fun v => g v.typeId))
  | .struct _ _ fs => .named (fs.map (fun f => (f.name, g f.typeId)))

theorem genVariant_eq (i : EnumItem) : genVariant i = (i.id, genPayload genTy i) := by cases i <;> rfl
theorem genReadArm_eq (i : EnumItem) : genReadArm i = (i.position, i.id, genPayload genRead i) := by cases i <;> rfl
theorem genEnumDefault_eq (i : EnumItem) : genEnumDefault i = .variant i.id (genPayload genDef i) := by cases i <;> rfl

theorem payload_tuple (p : Nat) (id : String) (vs : List TupleField) (Q : TypeId → Prop) :
    (∀ f ∈ payload (.tuple p id vs), Q f.2) ↔ ∀ t ∈ vs.map (·.typeId), Q t := by
  have : (payload (.tuple p id vs)).map (·.2) = vs.map (·.typeId) := by
    simp only [payload]
    apply List.ext_getElem?
    intro j
    simp only [List.getElem?_map, List.getElem?_mapIdx]
    cases vs[j]? <;> rfl
  rw [← this]
  simp only [List.forall_mem_map]

theorem payloadTyped_iff {α : Type} {T : α → Ty → Prop} {Q : TypeId → Prop} {g : TypeId → α} {i : EnumItem}
    (h : ∀ f ∈ payload i, (T (g f.2) (genTy f.2) ↔ Q f.2)) (hn : (payloadNames (genPayload genTy i)).Nodup) :
    PayloadTyped T (genPayload genTy i) (genPayload g i) ↔ ∀ f ∈ payload i, Q f.2 := by
  cases i with
  | empty p id => simp [genPayload, payload]; exact .unit
  | tuple p id vs =>
    rw [payload_tuple]
    have key := eachTyped_iff (T := T) (Q := Q) (g := g) (ts := vs.map (·.typeId)) ((payload_tuple p id vs _).1 h)
    rw [← key]
    simp only [genPayload, List.map_map, Function.comp_def]
    constructor
    · intro h; cases h with | tuple _ _ h => exact h
    · exact .tuple _ _
  | struct p id fs =>
    have hn' : ((payload (.struct p id fs)).map (·.1)).Nodup := by simpa [payload, payloadNames, genPayload, List.map_map, Function.comp_def] using hn
    rw [← recordTyped_iff (T := T) (Q := Q) (g := g) h hn']
    simp only [genPayload, payload, List.map_map, Function.comp_def]
    constructor
    · intro h; cases h with | named _ _ h => exact h
    · exact .named _ _

theorem variants_unique {n : EnumNode} (hv : (n.items.map (·.id)).Nodup) {i : EnumItem} (hi : i ∈ n.items) {q : Payload Ty}
    (h : (i.id, q) ∈ n.items.map genVariant) : q = genPayload genTy i := by
  have hn : ((n.items.map genVariant).map (·.1)).Nodup := by
    simpa [List.map_map, Function.comp_def, genVariant_eq] using hv
  exact mem_unique hn h (List.mem_map.2 ⟨i, hi, genVariant_eq i⟩)

theorem variant_mem {n : EnumNode} {i : EnumItem} (hi : i ∈ n.items) : (i.id, genPayload genTy i) ∈ n.items.map genVariant :=
  List.mem_map.2 ⟨i, hi, genVariant_eq i⟩

theorem defaultTyped_enum {n : EnumNode} (hv : (n.items.map (·.id)).Nodup) {i : EnumItem} (hi : n.items.head? = some i)
    (hw : ∀ f ∈ payload i, WFType f.2) (hn : (payloadNames (genPayload genTy i)).Nodup) :
    DefaultTyped L (typeNames S) (genEnumDecl n) (genEnumDefault i) ↔
      ∀ f ∈ payload i, TypeExists L S f.2 ∧ NotHidden S f.2 ∧ ∀ c, f.2 ≠ .char c := by
  have hm : i ∈ n.items := List.mem_of_head? hi
  rw [genEnumDefault_eq, genEnumDecl, DefaultTyped]
  rw [← payloadTyped_iff (T := DefTyped L (typeNames S)) (Q := fun t => TypeExists L S t ∧ NotHidden S t ∧ ∀ c, t ≠ .char c) (g := genDef)
    (fun f hf => defTyped_iff (hw f hf)) hn]
  constructor
  · rintro ⟨q, h1, h2⟩
    rwa [variants_unique hv hm h1] at h2
  · intro h
    exact ⟨_, variant_mem hm, h⟩

theorem readTyped_enum {n : EnumNode} (hv : (n.items.map (·.id)).Nodup) (hw : ∀ i ∈ n.items, ∀ f ∈ payload i, WFType f.2)
    (hn : ∀ i ∈ n.items, (payloadNames (genPayload genTy i)).Nodup) :
    ReadBodyTyped L (typeNames S) (typeNames S) (genEnumDecl n) (genEnumImpl n).read ↔
      ∀ i ∈ n.items, i.position < 2 ^ 32 ∧ ∀ f ∈ payload i, TypeExists L S f.2 ∧ NotHidden S f.2 := by
  have key := fun i hi => payloadTyped_iff (T := ReadTyped L (typeNames S) (typeNames S)) (Q := fun t => TypeExists L S t ∧ NotHidden S t) (g := genRead)
    (fun f hf => readTyped_iff (hw i hi f hf)) (hn i hi)
  simp only [genEnumImpl, ReadBodyTyped, genEnumDecl, Decl.id, true_and]
  constructor
  · rintro ⟨vs, m, h1, h2, h3⟩ i hi
    injection h1 with _ h1
    subst h1
    injection h2 with h2
    subst h2
    obtain ⟨h4, q, h5, h6⟩ := h3 _ (List.mem_map.2 ⟨i, hi, rfl⟩)
    rw [genReadArm_eq] at h4 h5 h6
    simp only at h4 h5 h6
    rw [variants_unique hv hi h5] at h6
    exact ⟨(tag_fits _).1 h4, (key i hi).1 h6⟩
  · intro h
    refine ⟨_, "u32", rfl, rfl, ?_⟩
    intro a ha
    obtain ⟨i, hi, rfl⟩ := List.mem_map.1 ha
    rw [genReadArm_eq]
    exact ⟨(tag_fits _).2 (h i hi).1, _, variant_mem hi, (key i hi).2 (h i hi).2⟩

theorem genWriteArm_names (i : EnumItem) : (genWriteArm i).1 = i.id ∧ (genWriteArm i).2.2.1 = boundNames i := by
  cases i with
  | empty => exact ⟨rfl, rfl⟩
  | tuple p id vs =>
    refine ⟨rfl, ?_⟩
    have : (withIdx 0 vs).map (·.1) = List.range vs.length := by rw [withIdx_map_fst]; simp
    simp only [genWriteArm, boundNames, ← this, List.map_map, Function.comp_def]
  | struct => exact ⟨rfl, rfl⟩

theorem skipTyped_enum {n : EnumNode} (hw : ∀ i ∈ n.items, ∀ f ∈ payload i, WFType f.2)
    (h : ∀ i ∈ n.items, i.position < 2 ^ 32 ∧ ∀ f ∈ payload i, TypeExists L S f.2 ∧ NotHidden S f.2) :
    SkipBodyTyped L (typeNames S) (typeNames S) (genEnumImpl n).skip := by
  refine ⟨"u32", rfl, ?_⟩
  intro a ha
  obtain ⟨i, hi, rfl⟩ := List.mem_map.1 ha
  obtain ⟨h1, h2⟩ := h i hi
  have hw := hw i hi
  cases i with
  | empty p id => exact ⟨(tag_fits _).2 h1, by simp [genSkipArm]⟩
  | tuple p id vs =>
    refine ⟨(tag_fits _).2 h1, ?_⟩
    intro es he e hm
    simp only [genSkipArm, Option.some.injEq] at he
    subst he
    obtain ⟨v, hv, rfl⟩ := List.mem_map.1 hm
    rw [payload_tuple p id vs (fun t => TypeExists L S t ∧ NotHidden S t)] at h2
    rw [payload_tuple] at hw
    have hv' : v.typeId ∈ vs.map (·.typeId) := List.mem_map.2 ⟨v, hv, rfl⟩
    exact ⟨_, (readTyped_iff (hw _ hv')).2 (h2 _ hv')⟩
  | struct p id fs =>
    refine ⟨(tag_fits _).2 h1, ?_⟩
    intro es he e hm
    simp only [genSkipArm, Option.some.injEq] at he
    subst he
    obtain ⟨v, hv, rfl⟩ := List.mem_map.1 hm
    have hv' : (v.name, v.typeId) ∈ payload (.struct p id fs) := List.mem_map.2 ⟨v, hv, rfl⟩
    exact ⟨_, (readTyped_iff (hw _ hv')).2 (h2 _ hv')⟩

theorem zip_vars (vs : List TupleField) : ∀ k, ((withIdx k vs).map (fun v => "v" ++ toString v.1)).zip (vs.map (fun v => genTy v.typeId))
    = (withIdx k vs).map (fun v => ("v" ++ toString v.1, genTy v.2.typeId)) := by
  induction vs with
  | nil => intro k; rfl
  | cons v vs ih => intro k; simp only [withIdx, List.map_cons, List.zip_cons_cons, ih]

theorem mem_withIdx {α : Type} {xs : List α} : ∀ {k : Nat} {p : Nat × α}, p ∈ withIdx k xs → p.2 ∈ xs := by
  induction xs with
  | nil => intro k p h; simp [withIdx] at h
  | cons x xs ih =>
    intro k p h
    simp only [withIdx, List.mem_cons] at h
    rcases h with rfl | h
    · simp
    · exact List.mem_cons_of_mem _ (ih h)

theorem tagWrite_typed {places : List (Acc × Ty)} {D I : List String} {p : Nat} (h : p < 2 ^ 32) : WriteTyped L D I places (tagWrite p) :=
  .lit "u32" p ((tag_fits p).2 h)

theorem writeTyped_enum {U : List String} {n : EnumNode} (hw : ∀ i ∈ n.items, ∀ f ∈ payload i, WFType f.2)
    (h : ∀ i ∈ n.items, i.position < 2 ^ 32 ∧ ∀ f ∈ payload i, TypeExists L S f.2 ∧ NotHidden S f.2)
    (hb : ∀ i ∈ n.items, (boundNames i).Nodup ∧ ∀ x ∈ boundNames i, RustName x ∧ x ∉ U ∧ x ≠ "bytes_writer") :
    WriteBodyTyped L (typeNames S) (typeNames S) U (genEnumDecl n) (genEnumImpl n).write := by
  refine ⟨rfl, _, rfl, ?_, ?_⟩
  · intro v hv
    obtain ⟨i, hi, rfl⟩ := List.mem_map.1 hv
    simp only [List.map_map, List.mem_map, Function.comp_apply]
    exact ⟨i, hi, by rw [(genWriteArm_names i).1, genVariant_eq]⟩
  · intro a ha
    obtain ⟨i, hi, rfl⟩ := List.mem_map.1 ha
    obtain ⟨h1, h2⟩ := h i hi
    have hw := hw i hi
    rw [(genWriteArm_names i).1, (genWriteArm_names i).2]
    cases i with
    | empty p id =>
      refine ⟨_, _, variant_mem hi, .unit, (hb _ hi).1, (hb _ hi).2, ?_⟩
      intro s hs
      simp only [genWriteArm, List.mem_singleton] at hs
      subst hs
      exact tagWrite_typed h1
    | tuple p id vs =>
      refine ⟨_, _, variant_mem hi, .tuple _ _ (by simp [boundNames]), (hb _ hi).1, (hb _ hi).2, ?_⟩
      intro s hs
      simp only [genWriteArm, List.mem_cons] at hs
      rcases hs with rfl | hs
      · exact tagWrite_typed h1
      · obtain ⟨v, hv, rfl⟩ := List.mem_map.1 hs
        rw [payload_tuple p id vs (fun t => TypeExists L S t ∧ NotHidden S t)] at h2
        rw [payload_tuple] at hw
        have hv' : v.2.typeId ∈ vs.map (·.typeId) := List.mem_map.2 ⟨v.2, mem_withIdx hv, rfl⟩
        refine writeTyped_of (hw _ hv') (h2 _ hv').1 (h2 _ hv').2 ?_
        rw [← (genWriteArm_names (.tuple p id vs)).2]
        simp only [genWriteArm, zip_vars, List.map_map, List.mem_map, Function.comp_apply]
        exact ⟨v, hv, rfl⟩
    | struct p id fs =>
      refine ⟨_, _, variant_mem hi, .named _ _ (by simp [boundNames, genPayload]), (hb _ hi).1, (hb _ hi).2, ?_⟩
      intro s hs
      simp only [genWriteArm, List.mem_cons] at hs
      rcases hs with rfl | hs
      · exact tagWrite_typed h1
      · obtain ⟨v, hv, rfl⟩ := List.mem_map.1 hs
        have hv' : (v.name, v.typeId) ∈ payload (.struct p id fs) := List.mem_map.2 ⟨v, hv, rfl⟩
        refine writeTyped_of (hw _ hv') (h2 _ hv').1 (h2 _ hv').2 ?_
        simp only [List.map_map, List.mem_map, Function.comp_apply]
        exact ⟨v, hv, rfl⟩

theorem bound_of_write {U D I : List String} {n : EnumNode}
    (h : WriteBodyTyped L D I U (genEnumDecl n) (genEnumImpl n).write) :
    ∀ i ∈ n.items, (boundNames i).Nodup ∧ ∀ x ∈ boundNames i, RustName x ∧ x ∉ U ∧ x ≠ "bytes_writer" := by
  obtain ⟨-, vs, -, -, h⟩ := h
  intro i hi
  obtain ⟨q, places, -, -, h1, h2, -⟩ := h _ (List.mem_map.2 ⟨i, hi, rfl⟩)
  rw [(genWriteArm_names i).2] at h1 h2
  exact ⟨h1, h2⟩

theorem payloadNames_bound {i : EnumItem} (h : (boundNames i).Nodup) : (payloadNames (genPayload genTy i)).Nodup := by
  cases i with
  | empty => simp [payloadNames, genPayload]
  | tuple => simp [payloadNames, genPayload]
  | struct p id fs => simpa [payloadNames, genPayload, boundNames, List.map_map, Function.comp_def] using h


/-! ### All together -/

theorem item_unique {items : List TypeItem} (h : (items.map (·.decl.id)).Nodup) {a b : TypeItem} (ha : a ∈ items) (hb : b ∈ items)
    (e : a.decl.id = b.decl.id) : a = b := by
  have hn : ((items.map (fun i => (i.decl.id, i))).map (·.1)).Nodup := by simpa [List.map_map, Function.comp_def] using h
  exact mem_unique hn (List.mem_map.2 ⟨a, ha, rfl⟩) (List.mem_map.2 ⟨b, hb, by rw [e]⟩)

theorem direct_wf (hT : TypesOk S) {d : ASTNode} (hd : d ∈ S) {t : TypeId} (ht : t ∈ directTypes d) : WFType t := by
  cases d with
  | struct n =>
    simp only [directTypes, List.mem_map] at ht
    obtain ⟨f, hf, rfl⟩ := ht
    exact hT.1 n hd f hf
  | enum n =>
    simp only [directTypes, List.mem_flatMap, List.mem_map] at ht
    obtain ⟨i, hi, f, hf, rfl⟩ := ht
    exact hT.2 n hd i hi f hf
  | fn => simp [directTypes] at ht
  | directive => simp [directTypes] at ht
  | const => simp [directTypes] at ht

theorem declTyped_enum {n : EnumNode} (h : DeclTyped L (typeNames S) (genEnumDecl n)) :
    (n.items.map (·.id)).Nodup ∧ ∀ i ∈ n.items, RustName i.id := by
  obtain ⟨-, -, h1, h2⟩ := h
  refine ⟨by simpa [List.map_map, Function.comp_def, genVariant_eq] using h1, ?_⟩
  intro i hi
  have := (h2 _ (List.mem_map.2 ⟨i, hi, rfl⟩)).1
  rwa [genVariant_eq] at this

/-- The emitted declarations and `impl` blocks are accepted exactly for the schemas described in
`RustTypable`. -/
theorem mem_locals_struct {n : StructNode} (hf : n.fields ≠ []) {x : String} :
    x ∈ (genStructImpl n).read.locals ++ (genStructImpl n).write.locals ++ (genStructImpl n).skip.locals ↔
      x ∈ ["bytes_reader", "bytes_writer", "count"] := by
  unfold genStructImpl
  cases h : n.fields with
  | nil => exact absurd h hf
  | cons f fs =>
    simp [ReadBody.locals, WriteBody.locals, SkipBody.locals]
    grind

theorem mem_locals_enum {n : EnumNode} {x : String} :
    x ∈ (genEnumImpl n).read.locals ++ (genEnumImpl n).write.locals ++ (genEnumImpl n).skip.locals ↔
      x ∈ ["bytes_reader", "bytes_writer", "count", "value"] := by
  unfold genEnumImpl
  simp [ReadBody.locals, WriteBody.locals, SkipBody.locals]
  grind

theorem rustTyped_iff {k : Nat} (hwf : WFSchema k S) (hne : ∀ n, .enum n ∈ S → n.items ≠ []) :
    RustTyped L (genItems S) (genImpls S) ↔ RustTypable L S := by
  have hT := typesOk_of_wf hwf
  have e1 := items_ids hne
  have e2 : (genImpls S).map (·.id) = typeNames S := impls_ids S
  have e3 := unitStructs_eq S
  have first : ∀ n, .enum n ∈ S → ∃ i, n.items.head? = some i := by
    intro n hn
    cases hi : n.items with
    | nil => exact absurd hi (hne n hn)
    | cons i is => exact ⟨i, rfl⟩
  have inS : ∀ n, .struct n ∈ S → genStructItem n ∈ genItems S := fun n hn => mem_items.2 (.inl ⟨n, hn, rfl⟩)
  have inE : ∀ n i, .enum n ∈ S → n.items.head? = some i → (⟨genEnumDecl n, genEnumDefault i⟩ : TypeItem) ∈ genItems S :=
    fun n i hn hi => mem_items.2 (.inr ⟨n, i, hn, hi, rfl⟩)
  constructor
  · intro h
    have hdecl := h.decls
    have hdef := h.defaults
    have himp := h.bodies
    have hfresh := h.fresh
    have hsz := h.sized
    have honce := h.once
    rw [e1] at hdecl hdef himp hsz
    rw [e2, e3] at himp
    have fields : ∀ n, .struct n ∈ S → ((fieldsOf n).map (·.1)).Nodup ∧ ∀ f ∈ fieldsOf n, RustName f.1 := by
      intro n hn
      obtain ⟨-, -, h1, h2⟩ := hdecl _ (inS n hn)
      refine ⟨by simpa [fieldsOf, List.map_map, Function.comp_def] using h1, ?_⟩
      intro f hf
      obtain ⟨g, hg, rfl⟩ := List.mem_map.1 hf
      exact h2 _ (List.mem_map.2 ⟨g, hg, rfl⟩)
    have variants : ∀ n, .enum n ∈ S → (n.items.map (·.id)).Nodup ∧ ∀ i ∈ n.items, RustName i.id := by
      intro n hn
      obtain ⟨i, hi⟩ := first n hn
      exact declTyped_enum (hdecl _ (inE n i hn hi))
    have impE : ∀ n, .enum n ∈ S →
        ReadBodyTyped L (typeNames S) (typeNames S) (genEnumDecl n) (genEnumImpl n).read ∧
        WriteBodyTyped L (typeNames S) (typeNames S) (emptyStructs S) (genEnumDecl n) (genEnumImpl n).write := by
      intro n hn
      obtain ⟨i, hi⟩ := first n hn
      obtain ⟨it, h1, h2, h3, h4, -⟩ := himp _ (mem_impls.2 (.inr ⟨n, hn, rfl⟩))
      have := item_unique honce h1 (inE n i hn hi) h2
      subst this
      exact ⟨h3, h4⟩
    have impS : ∀ n, .struct n ∈ S → ReadBodyTyped L (typeNames S) (typeNames S) (genStructDecl n) (genStructImpl n).read := by
      intro n hn
      obtain ⟨it, h1, h2, h3, -, -⟩ := himp _ (mem_impls.2 (.inl ⟨n, hn, rfl⟩))
      rw [genStructImpl_id] at h2
      have := item_unique honce h1 (inS n hn) h2
      subst this
      exact h3
    have bound := fun n hn => bound_of_write (impE n hn).2
    have pn : ∀ n, .enum n ∈ S → ∀ i ∈ n.items, (payloadNames (genPayload genTy i)).Nodup :=
      fun n hn i hi => payloadNames_bound (bound n hn i hi).1
    have readS := fun n hn => (readTyped_struct (hT.1 n hn) (fields n hn).1).1 (impS n hn)
    have readE := fun n hn => (readTyped_enum (variants n hn).1 (hT.2 n hn) (pn n hn)).1 (impE n hn).1
    have both : ∀ d ∈ S, ∀ t ∈ directTypes d, TypeExists L S t ∧ NotHidden S t := by
      intro d hd t ht
      cases d with
      | struct n =>
        simp only [directTypes, List.mem_map] at ht
        obtain ⟨f, hf, rfl⟩ := ht
        exact readS n hd f hf
      | enum n =>
        simp only [directTypes, List.mem_flatMap, List.mem_map] at ht
        obtain ⟨i, hi, f, hf, rfl⟩ := ht
        exact (readE n hd i hi).2 f hf
      | fn => simp [directTypes] at ht
      | directive => simp [directTypes] at ht
      | const => simp [directTypes] at ht
    refine ⟨e1 ▸ honce, ?_, fields, variants, bound, fun n hn i hi => (readE n hn i hi).1, fun d hd t ht => (both d hd t ht).1,
      fun d hd t ht => (both d hd t ht).2, ?_, ?_, ?_, ?_, ?_⟩
    · intro id hid
      rw [← e1] at hid
      obtain ⟨it, hit, rfl⟩ := List.mem_map.1 hid
      exact ⟨(hdecl it hit).1, hfresh it hit⟩
    · intro n hn f hf
      exact ((defaultTyped_struct (hT.1 n hn) (fields n hn).1).1 (hdef _ (inS n hn)) f hf).2.2
    · intro n hn i hi f hf
      have hm := List.mem_of_head? hi
      exact ((defaultTyped_enum (variants n hn).1 hi (hT.2 n hn i hm) (pn n hn i hm)).1 (hdef _ (inE n i hn hi)) f hf).2.2
    · obtain ⟨rank, hr⟩ := hsz
      refine ⟨rank, ?_⟩
      intro d hd name hname t ht id hc hid
      have hw := direct_wf hT hd ht
      cases d with
      | struct n =>
        simp only [declName, Option.some.injEq] at hname
        subst hname
        exact hr _ (inS n hd) (genTy t) (by simp only [genStructItem, declTys_struct]; exact List.mem_map.2 ⟨t, ht, rfl⟩) id
          ((containsTy_iff hw id).2 hc) hid
      | enum n =>
        simp only [declName, Option.some.injEq] at hname
        subst hname
        obtain ⟨i, hi⟩ := first n hd
        exact hr _ (inE n i hd hi) (genTy t) (by simp only [declTys_enum]; exact List.mem_map.2 ⟨t, ht, rfl⟩) id
          ((containsTy_iff hw id).2 hc) hid
      | fn => simp [directTypes] at ht
      | directive => simp [directTypes] at ht
      | const => simp [directTypes] at ht
    · rintro ⟨n, hn, hf⟩ x hx
      rw [← e3]
      refine h.locals _ (mem_impls.2 (.inl ⟨n, hn, rfl⟩)) x ?_
      rw [mem_locals_struct hf]
      exact hx
    · rintro ⟨n, hn⟩ x hx
      rw [← e3]
      refine h.locals _ (mem_impls.2 (.inr ⟨n, hn, rfl⟩)) x ?_
      rw [mem_locals_enum]
      exact hx
  · intro h
    have both : ∀ d ∈ S, ∀ t ∈ directTypes d, TypeExists L S t ∧ NotHidden S t := fun d hd t ht => ⟨h.exist d hd t ht, h.builtins d hd t ht⟩
    have bothS : ∀ n, .struct n ∈ S → ∀ f ∈ fieldsOf n, TypeExists L S f.2 ∧ NotHidden S f.2 := fun n hn f hf =>
      both _ hn f.2 (by simp only [directTypes, List.mem_map]; exact ⟨f, hf, rfl⟩)
    have bothE : ∀ n, .enum n ∈ S → ∀ i ∈ n.items, ∀ f ∈ payload i, TypeExists L S f.2 ∧ NotHidden S f.2 := fun n hn i hi f hf =>
      both _ hn f.2 (by simp only [directTypes, List.mem_flatMap, List.mem_map]; exact ⟨i, hi, f, hf, rfl⟩)
    have pn : ∀ n, .enum n ∈ S → ∀ i ∈ n.items, (payloadNames (genPayload genTy i)).Nodup :=
      fun n hn i hi => payloadNames_bound (h.bound n hn i hi).1
    have numE : ∀ n, .enum n ∈ S → ∀ i ∈ n.items, i.position < 2 ^ 32 ∧ ∀ f ∈ payload i, TypeExists L S f.2 ∧ NotHidden S f.2 :=
      fun n hn i hi => ⟨h.numbers n hn i hi, bothE n hn i hi⟩
    have nameS : ∀ n, .struct n ∈ S → n.id ∈ typeNames S := fun n hn => List.mem_filterMap.2 ⟨_, hn, rfl⟩
    have nameE : ∀ n, .enum n ∈ S → n.id ∈ typeNames S := fun n hn => List.mem_filterMap.2 ⟨_, hn, rfl⟩
    refine ⟨e1 ▸ h.types, ?_, ?_, ?_, ?_, e2 ▸ h.types, ?_, ?_⟩
    · intro it hit
      exact (h.fresh _ (e1 ▸ List.mem_map.2 ⟨it, hit, rfl⟩)).2
    · rw [e1]
      intro it hit
      rcases mem_items.1 hit with ⟨n, hn, rfl⟩ | ⟨n, i, hn, hi, rfl⟩
      · refine ⟨(h.fresh _ (nameS n hn)).1, ?_, ?_, ?_⟩
        · intro t ht
          simp only [genStructItem, declTys_struct] at ht
          obtain ⟨u, hu, rfl⟩ := List.mem_map.1 ht
          exact (implements_iff (direct_wf hT hn hu)).2 (both _ hn u hu).1
        · simpa [fieldsOf, List.map_map, Function.comp_def] using (h.fields n hn).1
        · intro f hf
          obtain ⟨g, hg, rfl⟩ := List.mem_map.1 hf
          exact (h.fields n hn).2 (g.name, g.typeId) (List.mem_map.2 ⟨g, hg, rfl⟩)
      · refine ⟨(h.fresh _ (nameE n hn)).1, ?_, ?_, ?_⟩
        · intro t ht
          simp only [declTys_enum] at ht
          obtain ⟨u, hu, rfl⟩ := List.mem_map.1 ht
          exact (implements_iff (direct_wf hT hn hu)).2 (both _ hn u hu).1
        · simpa [List.map_map, Function.comp_def, genVariant_eq] using (h.variants n hn).1
        · intro v hv
          obtain ⟨i, hi, rfl⟩ := List.mem_map.1 hv
          rw [genVariant_eq]
          refine ⟨(h.variants n hn).2 i hi, pn n hn i hi, ?_⟩
          intro x hx
          refine ((h.bound n hn i hi).2 x ?_).1
          cases i with
          | empty => simp [payloadNames, genPayload] at hx
          | tuple => simp [payloadNames, genPayload] at hx
          | struct p id fs => simpa [payloadNames, genPayload, boundNames, List.map_map, Function.comp_def] using hx
    · rw [e1]
      intro it hit
      rcases mem_items.1 hit with ⟨n, hn, rfl⟩ | ⟨n, i, hn, hi, rfl⟩
      · exact (defaultTyped_struct (hT.1 n hn) (h.fields n hn).1).2
          (fun f hf => ⟨(bothS n hn f hf).1, (bothS n hn f hf).2, h.noChar n hn f hf⟩)
      · have hm := List.mem_of_head? hi
        exact (defaultTyped_enum (h.variants n hn).1 hi (hT.2 n hn i hm) (pn n hn i hm)).2
          (fun f hf => ⟨(bothE n hn i hm f hf).1, (bothE n hn i hm f hf).2, h.noCharFirst n hn i hi f hf⟩)
    · rw [e1]
      obtain ⟨rank, hr⟩ := h.sized
      refine ⟨rank, ?_⟩
      intro it hit t ht id hc hid
      rcases mem_items.1 hit with ⟨n, hn, rfl⟩ | ⟨n, i, hn, hi, rfl⟩
      · simp only [genStructItem, declTys_struct] at ht
        obtain ⟨u, hu, rfl⟩ := List.mem_map.1 ht
        exact hr _ hn n.id rfl u hu id ((containsTy_iff (direct_wf hT hn hu) id).1 hc) hid
      · simp only [declTys_enum] at ht
        obtain ⟨u, hu, rfl⟩ := List.mem_map.1 ht
        exact hr _ hn n.id rfl u hu id ((containsTy_iff (direct_wf hT hn hu) id).1 hc) hid
    · rw [e1, e2, e3]
      intro m hm
      rcases mem_impls.1 hm with ⟨n, hn, rfl⟩ | ⟨n, hn, rfl⟩
      · exact ⟨_, inS n hn, (genStructImpl_id n).symm, (readTyped_struct (hT.1 n hn) (h.fields n hn).1).2 (bothS n hn),
          writeTyped_struct (hT.1 n hn) (bothS n hn), skipTyped_struct (hT.1 n hn) (bothS n hn)⟩
      · obtain ⟨i, hi⟩ := first n hn
        exact ⟨_, inE n i hn hi, rfl, (readTyped_enum (h.variants n hn).1 (hT.2 n hn) (pn n hn)).2 (numE n hn),
          writeTyped_enum (hT.2 n hn) (numE n hn) (h.bound n hn), skipTyped_enum (hT.2 n hn) (numE n hn)⟩
    · rw [e3]
      intro m hm x hx
      rcases mem_impls.1 hm with ⟨n, hn, rfl⟩ | ⟨n, hn, rfl⟩
      · by_cases hf : n.fields = []
        · simp [genStructImpl, hf, ReadBody.locals, WriteBody.locals, SkipBody.locals] at hx
        · exact h.localsStruct ⟨n, hn, hf⟩ x ((mem_locals_struct hf).1 hx)
      · exact h.localsEnum ⟨n, hn⟩ x (mem_locals_enum.1 hx)

end TPB.Rust
