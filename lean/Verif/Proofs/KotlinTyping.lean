/-
The emitted Kotlin models obey the rules of `Spec/MobileTyping.lean` exactly for the schemas that fit.
-/
import Verif.Spec.MobileTyping
import Verif.Props.MobileModels
namespace TPB.KotlinTyping
open Spec Spec.Kotlin TPB.Kotlin Props.KotlinModels Props

variable {x : ExtF} {S : List ASTNode} {L : KotlinLib}

/-! ### Declared names -/

theorem mem_items (hw : ∀ d ∈ S, ∃ k, WFDecl k d) (i : Item) : i ∈ genItems x S ↔
    (∃ n, .struct n ∈ S ∧ i = genStruct x n) ∨
    (∃ n a as, .enum n ∈ S ∧ n.items = a :: as ∧
      (i = .interface n.id ⟨genName n.id, genEnumDefault x n.id a⟩ ∨ ∃ v ∈ n.items, i = genCase x n.id v)) := by
  simp only [genItems, List.mem_flatMap]
  constructor
  · rintro ⟨d, hd, hi⟩
    cases d with
    | struct n => exact .inl ⟨n, hd, by simpa [genItem] using hi⟩
    | enum n =>
      simp only [genItem, genEnum] at hi
      cases h : n.items with
      | nil => simp [h] at hi
      | cons a as =>
        rw [h] at hi
        simp only [List.mem_cons, List.mem_map] at hi
        refine .inr ⟨n, a, as, hd, h, ?_⟩
        rcases hi with hi | ⟨v, hv, hi⟩
        · exact .inl hi
        · exact .inr ⟨v, by rw [h]; simpa using hv, hi.symm⟩
    | fn n => simp [genItem] at hi
    | const n => simp [genItem] at hi
    | directive n => simp [genItem] at hi
  · rintro (⟨n, hn, rfl⟩ | ⟨n, a, as, hn, h, hi⟩)
    · exact ⟨_, hn, by simp [genItem]⟩
    · refine ⟨_, hn, ?_⟩
      simp only [genItem, genEnum, h, List.mem_cons]
      rcases hi with hi | ⟨v, hv, rfl⟩
      · exact .inl hi
      · exact .inr (by rw [← h]; exact List.mem_map_of_mem hv)

theorem case_id (e : String) (v : EnumItem) : (genCase x e v).id = x.pascal (e ++ v.id) := by cases v <;> rfl

theorem items_names (hw : ∀ d ∈ S, ∃ k, WFDecl k d) : (genItems x S).map (·.id) = declaredNames x S := by
  simp only [genItems, declaredNames, List.map_flatMap]
  induction S with
  | nil => rfl
  | cons d S ih =>
    simp only [List.flatMap_cons]
    rw [ih (fun e he => hw e (by simp [he]))]
    congr 1
    cases d with
    | struct n => rfl
    | enum n =>
      obtain ⟨k, hk⟩ := hw (.enum n) (by simp)
      simp only [genItem, genEnum]
      cases h : n.items with
      | nil => exact absurd h hk.1
      | cons a as =>
        simp only [List.map_cons, List.map_map, case_id, List.cons.injEq, true_and]
        exact ⟨rfl, List.map_congr_left (fun v _ => case_id _ v)⟩
    | fn n => rfl
    | const n => rfl
    | directive n => rfl

/-! ### Built-in types -/

theorem builtin_ty {t : TypeId} {k : String} (h : BuiltinName kotlinNames t k) :
    genTy t = .named k ∧ (L.Std → L.types k 0) ∧ ((∀ m, t ≠ .char m) → ∃ s Ts, genDefault t = .lit s ∧
      (s, Ts) ∈ literalTypes ∧ k ∈ Ts) := by
  obtain ⟨n, v, rfl, hn, hk⟩ := h
  refine ⟨?_, fun hL => hL.basic _ hk, ?_⟩ <;>
  · simp only [builtinMeanings, List.mem_cons, List.not_mem_nil, or_false, Prod.mk.injEq] at hn
    rcases hn with ⟨rfl, rfl⟩ | ⟨rfl, rfl⟩ | ⟨rfl, rfl⟩ | ⟨rfl, rfl⟩ | ⟨rfl, rfl⟩ | ⟨rfl, rfl⟩ | ⟨rfl, rfl⟩ | ⟨rfl, rfl⟩ |
      ⟨rfl, rfl⟩ | ⟨rfl, rfl⟩ <;> simp [kotlinNames] at hk <;> subst hk <;>
      simp [typeOfName, builtinTypes, List.lookup, genTy, intName, genDefault, intZero, literalTypes]

theorem builtin_shape {t : TypeId} {k : String} (h : BuiltinName kotlinNames t k) :
    (∀ id, t ≠ .other id) ∧ ∀ c ts, t ≠ .generic c ts := by
  obtain ⟨n, v, rfl, hn, hk⟩ := h
  simp only [builtinMeanings, List.mem_cons, List.not_mem_nil, or_false, Prod.mk.injEq] at hn
  rcases hn with ⟨rfl, rfl⟩ | ⟨rfl, rfl⟩ | ⟨rfl, rfl⟩ | ⟨rfl, rfl⟩ | ⟨rfl, rfl⟩ | ⟨rfl, rfl⟩ | ⟨rfl, rfl⟩ | ⟨rfl, rfl⟩ |
    ⟨rfl, rfl⟩ | ⟨rfl, rfl⟩ <;> simp [typeOfName, builtinTypes, List.lookup]

theorem builtin_name {n : String} (h : n ∈ builtinTypes.map (·.1)) : ∃ k, BuiltinName kotlinNames (typeOfName n) k := by
  simp only [builtinTypes, List.map_cons, List.map_nil, List.mem_cons, List.not_mem_nil, or_false] at h
  rcases h with h | h | h | h | h | h | h | h | h | h <;> subst h
  · exact ⟨"Byte", "i8", .int 8 true, rfl, by decide, by decide⟩
  · exact ⟨"Int", "i32", .int 32 true, rfl, by decide, by decide⟩
  · exact ⟨"Long", "i64", .int 64 true, rfl, by decide, by decide⟩
  · exact ⟨"UByte", "u8", .int 8 false, rfl, by decide, by decide⟩
  · exact ⟨"UInt", "u32", .int 32 false, rfl, by decide, by decide⟩
  · exact ⟨"ULong", "u64", .int 64 false, rfl, by decide, by decide⟩
  · exact ⟨"Float", "f32", .float 32, rfl, by decide, by decide⟩
  · exact ⟨"Double", "f64", .float 64, rfl, by decide, by decide⟩
  · exact ⟨"Char", "char", .char, rfl, by decide, by decide⟩
  · exact ⟨"Boolean", "bool", .bool, rfl, by decide, by decide⟩

/-! ### Types -/

theorem ty_other (id : String) : genTy (.other id) = .named (genName id) := by simp only [genTy, genName]

theorem genName_address {id : String} (h : IsAddress id) : genName id = "ULong" := if_pos h

theorem genName_other {id : String} (h : ¬ IsAddress id) : genName id = id := if_neg h

theorem ty_generic (c : String) (ts : List TypeId) :
    genTy (.generic c ts) = .app (if c = "Vec" then "List" else c) (ts.map genTy) := by
  simp only [genTy, genTys_map]

theorem typeOk_iff (hL : L.Std) (D : List String) {t : TypeId} (h : WFType t) : TyOk L D (genTy t) ↔ TypeExists L D t := by
  have named {k : String} (hk : L.types k 0) : TyOk L D (.named k) := by
    by_cases hd : k ∈ D
    · exact .own hd
    · exact .lib hd hk
  have hb {t k} (h : BuiltinName kotlinNames t k) : TyOk L D (genTy t) := by
    rw [(builtin_ty (L := L) h).1]
    exact named ((builtin_ty h).2.1 hL)
  have hul : L.types "ULong" 0 := hL.basic (.int 64 false, "ULong") (by decide)
  induction h with
  | name n =>
    by_cases hn : n ∈ builtinTypes.map (·.1)
    · obtain ⟨k, hk⟩ := builtin_name hn
      exact ⟨fun _ => .builtin hk, fun _ => hb hk⟩
    · rw [not_builtin hn, ty_other]
      by_cases ha : IsAddress n
      · rw [genName_address ha]
        exact ⟨fun _ => .address ha, fun _ => named hul⟩
      · rw [genName_other ha]
        constructor
        · intro h
          cases h with
          | own h => exact .own h
          | lib _ h => exact .lib h
        · intro h
          cases h with
          | builtin h =>
            have := hb h
            rwa [ty_other, genName_other ha] at this
          | address h => exact absurd h ha
          | own h => exact .own h
          | lib h => exact named h
  | generic c as _ hw ih =>
    rw [ty_generic]
    constructor
    · intro h
      cases h with
      | app h1 h2 h3 =>
        rw [List.length_map] at h2
        by_cases hv : c = "Vec"
        · subst hv
          rw [if_pos rfl] at h1 h2
          have := (hL.list _).1 h2
          match as, this with
          | [t], _ => exact .list h1 ((ih t (by simp)).1 (h3 _ (by simp)))
        · rw [if_neg hv] at h1 h2
          exact .generic hv h1 h2 (fun t ht => (ih t ht).1 (h3 _ (List.mem_map_of_mem ht)))
    · intro h
      cases h with
      | builtin h =>
        have := hb h
        rwa [ty_generic] at this
      | list h1 h2 =>
        exact .app h1 ((hL.list _).2 rfl) (by simpa using (ih _ (by simp)).2 h2)
      | generic hv h1 h2 h3 =>
        rw [if_neg hv]
        refine .app h1 (by rwa [List.length_map]) ?_
        intro a ha
        obtain ⟨t, ht, rfl⟩ := List.mem_map.1 ha
        exact (ih t ht).2 (h3 t ht)

/-! ### Default values -/

theorem default_other (id : String) : genDefault (.other id) =
    if id = "String" then .lit "\"\"" else if id = "Vec" then .emptyList else .create id := by simp only [genDefault]

theorem default_generic (c : String) (ts : List TypeId) :
    genDefault (.generic c ts) = if c = "Vec" then .emptyList else .createGeneric c (ts.map genTy) := by
  simp only [genDefault, genTys_map]

/-- Where a companion object comes from. -/
theorem companion (hw : ∀ d ∈ S, ∃ k, WFDecl k d) {id : String} {c : Companion} (h : HasCompanion (genItems x S) id c) :
    (∃ n, .struct n ∈ S ∧ id = x.pascal n.id ∧ c.type = genName n.id) ∨
    (∃ n, .enum n ∈ S ∧ id = n.id ∧ c.type = genName n.id) := by
  rcases h with h | ⟨b, ps, s, h⟩
  · rcases (mem_items hw _).1 h with ⟨n, hn, e⟩ | ⟨n, a, as, hn, _, e | ⟨v, _, e⟩⟩
    · cases e
    · cases e; exact .inr ⟨n, hn, rfl, rfl⟩
    · cases v <;> cases e
  · rcases (mem_items hw _).1 h with ⟨n, hn, e⟩ | ⟨n, a, as, hn, _, e | ⟨v, _, e⟩⟩
    · cases e; exact .inl ⟨n, hn, rfl, rfl⟩
    · cases e
    · cases v <;> cases e

theorem own_companion (hw : ∀ d ∈ S, ∃ k, WFDecl k d) {id : String} (ho : Own S id)
    (hs : ∀ n, .struct n ∈ S → x.pascal n.id = n.id) : ∃ c, HasCompanion (genItems x S) id c ∧ c.type = genName id := by
  rcases ho with ⟨n, hn, rfl⟩ | ⟨n, hn, rfl⟩
  · refine ⟨⟨genName n.id, .call n.id (genNamedArgs x n.fields)⟩, .inr ⟨!n.fields.isEmpty,
      n.fields.map (fun f => (x.camel f.name, genTy f.typeId)), none, ?_⟩, rfl⟩
    refine (mem_items hw _).2 (.inl ⟨n, hn, ?_⟩)
    rw [genStruct, hs n hn]
  · obtain ⟨k, hk⟩ := hw _ hn
    cases h : n.items with
    | nil => exact absurd h hk.1
    | cons a as =>
      exact ⟨⟨genName n.id, genEnumDefault x n.id a⟩, .inl ((mem_items hw _).2 (.inr ⟨n, a, as, hn, h, .inl rfl⟩)), rfl⟩

theorem default_iff (hw : ∀ d ∈ S, ∃ k, WFDecl k d) (hs : ∀ n, .struct n ∈ S → x.pascal n.id = n.id)
    (ho : ∀ id, Own S id → ¬ IsAddress id) {t : TypeId} (h : WFType t) (hL : L.Std)
    (he : TypeExists L (declaredNames x S) t) :
    ExprTyped L (genItems x S) (genDefault t) (genTy t) ↔ HasDefault L S (declaredNames x S) t := by
  have hD := items_names (x := x) hw
  cases h with
  | name n =>
    by_cases hn : n ∈ builtinTypes.map (·.1)
    · obtain ⟨k, hk⟩ := builtin_name hn
      obtain ⟨e1, -, e2⟩ := builtin_ty (L := L) hk
      by_cases hc : ∃ m, typeOfName n = .char m
      · obtain ⟨m, hm⟩ := hc
        rw [hm]
        constructor
        · intro h
          rw [genDefault, genTy] at h
          cases h with
          | lit h1 h2 =>
            simp [literalTypes] at h1
            subst h1
            simp at h2
        · intro h
          cases h with
          | builtin _ h => exact absurd rfl (h m)
      · have hc : ∀ m, typeOfName n ≠ .char m := fun m e => hc ⟨m, e⟩
        obtain ⟨s, Ts, e3, e4, e5⟩ := e2 hc
        rw [e1, e3]
        constructor
        · intro h
          cases h with
          | lit _ _ h => exact .builtin hk hc (hD ▸ h)
        · intro h
          refine .lit e4 e5 ?_
          rw [hD]
          generalize typeOfName n = t at h hk e1
          cases h with
          | builtin h1 _ h3 =>
            have := (builtin_ty (L := L) h1).1
            rw [e1] at this
            cases this
            exact h3
          | string => exact absurd rfl ((builtin_shape hk).1 _)
          | own => exact absurd rfl ((builtin_shape hk).1 _)
          | lib => exact absurd rfl ((builtin_shape hk).1 _)
          | list => exact absurd rfl ((builtin_shape hk).2 _ _)
          | generic => exact absurd rfl ((builtin_shape hk).2 _ _)
    · rw [not_builtin hn] at he ⊢
      rw [ty_other, default_other]
      by_cases h1 : n = "String"
      · subst h1
        rw [if_pos rfl, genName_other (by simp [IsAddress])]
        constructor
        · intro h
          cases h with
          | lit _ _ h => exact .string (hD ▸ h)
        · intro h
          refine .lit (Ts := ["String"]) (by simp [literalTypes]) (by simp) ?_
          rw [hD]
          cases h with
          | builtin h => exact absurd rfl ((builtin_shape h).1 _)
          | string h => exact h
          | own _ _ h => exact absurd rfl h
          | lib _ _ h => exact absurd rfl h
      · rw [if_neg h1]
        by_cases h2 : n = "Vec"
        · subst h2
          rw [if_pos rfl, genName_other (by simp [IsAddress])]
          constructor
          · intro h; cases h
          · intro h
            generalize e : TypeId.other "Vec" = u at h
            cases h with
            | builtin h => exact absurd e.symm ((builtin_shape h).1 _)
            | string => simp at e
            | own _ h => cases e; exact absurd rfl h
            | lib _ h => cases e; exact absurd rfl h
            | list => cases e
            | generic => cases e
        · rw [if_neg h2]
          by_cases ha : IsAddress n
          · rw [genName_address ha]
            constructor
            · intro h
              generalize e : Ty.named "ULong" = u at h
              cases h with
              | own h =>
                rcases companion hw h with ⟨m, hm, e1, e2⟩ | ⟨m, hm, e1, e2⟩
                · exact absurd ha (ho n (.inl ⟨m, hm, by rw [e1, hs m hm]⟩))
                · exact absurd ha (ho n (.inr ⟨m, hm, e1.symm⟩))
              | lib h _ => cases e; exact absurd ha (by simp [IsAddress])
            · intro h
              cases h with
              | builtin h => exact absurd rfl ((builtin_shape h).1 _)
              | string => exact absurd rfl h1
              | own h => exact absurd ha h
              | lib h => exact absurd ha h
          · rw [genName_other ha]
            constructor
            · intro h
              generalize e : Ty.named n = u at h
              cases h with
              | own h =>
                simp only [Ty.named.injEq] at e
                rcases companion hw h with ⟨m, hm, e1, e2⟩ | ⟨m, hm, e1, e2⟩
                · refine .own ha h2 h1 (.inl ⟨m, hm, ?_⟩)
                  rw [e1, hs m hm]
                · exact .own ha h2 h1 (.inr ⟨m, hm, e1.symm⟩)
              | lib h h' => exact .lib ha h2 h1 (hD ▸ h) h'
            · intro h
              cases h with
              | builtin h => exact absurd rfl ((builtin_shape h).1 _)
              | string => exact absurd rfl h1
              | own _ _ _ h =>
                obtain ⟨c, hc, e⟩ := own_companion hw h hs
                rw [genName_other ha] at e
                have := ExprTyped.own (L := L) hc
                rwa [e] at this
              | lib _ _ _ h h' => exact .lib (hD ▸ h) h'
  | generic c as hne hw' =>
    rw [ty_generic, default_generic]
    by_cases hv : c = "Vec"
    · subst hv
      rw [if_pos rfl, if_pos rfl]
      cases he with
      | builtin h => exact absurd rfl ((builtin_shape h).2 _ _)
      | list h1 h2 =>
        constructor
        · intro h
          cases h with
          | list _ h => exact .list (hD ▸ h)
        · intro h
          cases h with
          | builtin h => exact absurd rfl ((builtin_shape h).2 _ _)
          | list h => exact .list (hD ▸ h1) (hD ▸ h)
          | generic h => exact absurd rfl h
      | generic h => exact absurd rfl h
    · rw [if_neg hv, if_neg hv]
      cases he with
      | builtin h => exact absurd rfl ((builtin_shape h).2 _ _)
      | list => exact absurd rfl hv
      | generic _ h1 h2 h3 =>
        constructor
        · intro h
          cases h with
          | generic _ h => exact .generic hv (by rwa [List.length_map] at h)
        · intro h
          cases h with
          | builtin h => exact absurd rfl ((builtin_shape h).2 _ _)
          | list => exact absurd rfl hv
          | generic _ h =>
            refine .generic (hD ▸ h1) (by rwa [List.length_map]) ?_
            intro a ha
            obtain ⟨t, ht, rfl⟩ := List.mem_map.1 ha
            rw [hD]
            exact (typeOk_iff hL _ (hw' t ht)).2 (h3 t ht)

/-! ### Arguments -/

theorem nodup_inj {α β : Type} (f : α → β) {l : List α} (h : (l.map f).Nodup) {a b : α} (ha : a ∈ l) (hb : b ∈ l)
    (e : f a = f b) : a = b := by
  induction l with
  | nil => simp at ha
  | cons c l ih =>
    simp only [List.map_cons, List.nodup_cons, List.mem_map, not_exists, not_and] at h
    simp only [List.mem_cons] at ha hb
    rcases ha with rfl | ha <;> rcases hb with rfl | hb
    · rfl
    · exact absurd e.symm (h.1 b hb)
    · exact absurd e (h.1 a ha)
    · exact ih h.2 ha hb

theorem named_iff {F : List Item} (g : String → String) (fs : List StructField) (hn : (fs.map (fun f => g f.name)).Nodup)
    (hg : ∀ f ∈ fs, x.camel f.name = g f.name) :
    ArgsTyped L F (fs.map (fun f => (g f.name, genTy f.typeId))) (genNamedArgs x fs) ↔
      ∀ f ∈ fs, ExprTyped L F (genDefault f.typeId) (genTy f.typeId) := by
  constructor
  · intro h f hf
    have hm : (some (x.camel f.name), genDefault f.typeId) ∈ genNamedArgs x fs := List.mem_map.2 ⟨f, hf, rfl⟩
    cases h with
    | positional h =>
      cases fs with
      | nil => simp at hf
      | cons a fs => cases h with | cons h _ => simp at h
    | byName _ _ h =>
      obtain ⟨n, t, e1, h1, h2⟩ := h _ hm
      simp only [Option.some.injEq] at e1
      obtain ⟨f', hf', e2⟩ := List.mem_map.1 h1
      simp only [Prod.mk.injEq] at e2
      have : f' = f := nodup_inj (fun f => g f.name) hn hf' hf (by
        show g f'.name = g f.name
        rw [e2.1, ← e1, hg f hf])
      subst this
      rw [e2.2]
      exact h2
  · intro h
    have e : (genNamedArgs x fs).map (·.1) = fs.map (fun f => some (g f.name)) := by
      simp only [genNamedArgs, List.map_map]
      exact List.map_congr_left (fun f hf => by simp [hg f hf])
    refine .byName ?_ ?_ ?_
    · rw [e]
      have := List.Pairwise.map (R := (· ≠ ·)) (S := (· ≠ ·)) (some : String → Option String) (by simp) hn
      rwa [List.map_map] at this
    · intro p hp
      obtain ⟨f, hf, rfl⟩ := List.mem_map.1 hp
      rw [e]
      exact List.mem_map.2 ⟨f, hf, rfl⟩
    · intro a ha
      obtain ⟨f, hf, rfl⟩ := List.mem_map.1 ha
      exact ⟨g f.name, genTy f.typeId, by simp [hg f hf], List.mem_map.2 ⟨f, hf, rfl⟩, h f hf⟩

theorem tuple_iff {F : List Item} (i : Nat) (vs : List TupleField) :
    ArgsTyped L F (genTuple i vs) (vs.map (fun v => (none, genDefault v.typeId))) ↔
      ∀ v ∈ vs, ExprTyped L F (genDefault v.typeId) (genTy v.typeId) := by
  constructor
  · intro h
    cases h with
    | positional h =>
      induction vs generalizing i with
      | nil => simp
      | cons v vs ih =>
        simp only [genTuple, List.map_cons] at h
        cases h with
        | cons h1 h2 =>
          intro w hw
          rcases List.mem_cons.1 hw with rfl | hw
          · exact h1.2
          · exact ih _ h2 w hw
    | byName _ _ h =>
      intro v hv
      obtain ⟨n, t, e, _⟩ := h _ (List.mem_map.2 ⟨v, hv, rfl⟩)
      simp at e
  · intro h
    refine .positional ?_
    induction vs generalizing i with
    | nil => exact .nil
    | cons v vs ih => exact .cons ⟨rfl, h v (by simp)⟩ (ih _ (fun w hw => h w (by simp [hw])))

theorem tuple_types (i : Nat) (vs : List TupleField) : (genTuple i vs).map (·.2) = vs.map (fun v => genTy v.typeId) := by
  induction vs generalizing i with
  | nil => rfl
  | cons v vs ih => simp only [genTuple, List.map_cons, ih]

theorem p_name (i : Nat) : KotlinName ("p" ++ toString i) := by
  refine ⟨?_, 'p', by simp [String.toList_append], by decide⟩
  intro h
  have hp : ∀ n ∈ kotlinReserved, n.toList.head? = some 'p' → n.toList[1]? = some 'a' := by decide
  have e : (toString i).toList = Nat.toDigits 10 i := by simp [Nat.toString_eq_ofList_toDigits]
  have h1 := hp _ h (by simp [String.toList_append])
  rw [String.toList_append, e] at h1
  have h2 : 'a' ∈ Nat.toDigits 10 i := List.mem_of_getElem? (i := 0) (by simpa using h1)
  have := Nat.isDigit_of_mem_toDigits (by decide) (by decide) h2
  simp at this

theorem tuple_names (vs : List TupleField) : ∀ p ∈ genTuple 0 vs, KotlinName p.1 := by
  intro p hp
  obtain ⟨j, _, e⟩ := genTuple_names 0 vs p.1 (List.mem_map_of_mem hp)
  rw [e]
  exact p_name j

/-! ### Types of a declaration -/

theorem payload_types (i : EnumItem) : (payload i).map (·.2) = match i with
    | .empty _ _ => []
    | .tuple _ _ vs => vs.map (·.typeId)
    | .struct _ _ fs => fs.map (·.typeId) := by
  cases i with
  | empty => rfl
  | tuple p id vs =>
    simp only [payload]
    apply List.ext_getElem? <;> intro j
    simp
    cases vs[j]? <;> rfl
  | struct p id fs => simp [payload, List.map_map]

theorem direct_wf (hw : ∀ d ∈ S, ∃ k, WFDecl k d) {d : ASTNode} (hd : d ∈ S) {t : TypeId} (ht : t ∈ directTypes d) :
    WFType t := by
  obtain ⟨k, h⟩ := hw d hd
  cases d with
  | struct n =>
    simp only [directTypes, fieldsOf, List.map_map, List.mem_map, Function.comp] at ht
    obtain ⟨f, hf, rfl⟩ := ht
    exact h.1.2 f hf
  | enum n =>
    simp only [directTypes, List.mem_flatMap] at ht
    obtain ⟨i, hi, ht⟩ := ht
    rw [payload_types] at ht
    have hi := h.2.2 i hi
    cases i with
    | empty => simp at ht
    | tuple p id vs =>
      obtain ⟨v, hv, rfl⟩ := List.mem_map.1 ht
      exact hi.2 v hv
    | struct p id fs =>
      obtain ⟨v, hv, rfl⟩ := List.mem_map.1 ht
      exact hi.2 v hv
  | fn n => simp [directTypes] at ht
  | const n => simp [directTypes] at ht
  | directive n => simp [directTypes] at ht

theorem defaulted_direct {d : ASTNode} {t : TypeId} (ht : t ∈ defaulted d) : t ∈ directTypes d := by
  cases d with
  | struct n => simpa [directTypes, fieldsOf, defaulted, List.map_map] using ht
  | enum n =>
    simp only [defaulted] at ht
    cases e : n.items with
    | nil => simp [e] at ht
    | cons a as =>
      rw [e] at ht
      simp only [directTypes, e, List.flatMap_cons, List.mem_append]
      refine .inl ?_
      rw [payload_types]
      cases a <;> simpa using ht
  | fn n => simp [defaulted] at ht
  | const n => simp [defaulted] at ht
  | directive n => simp [defaulted] at ht

/-! ### Accepted files -/

theorem cls_mem (hw : ∀ d ∈ S, ∃ k, WFDecl k d) {id b ps s c} (h : Item.cls id b ps s c ∈ genItems x S) :
    id ∈ classNames x S := by
  simp only [classNames, List.mem_flatMap]
  rcases (mem_items hw _).1 h with ⟨n, hn, e⟩ | ⟨n, a, as, hn, _, e | ⟨v, hv, e⟩⟩
  · cases e; exact ⟨_, hn, by simp⟩
  · cases e
  · refine ⟨_, hn, List.mem_map.2 ⟨v, hv, ?_⟩⟩
    have := congrArg Item.id e
    rw [case_id] at this
    exact this.symm

theorem object_mem (hw : ∀ d ∈ S, ∃ k, WFDecl k d) {id s} (h : Item.object id s ∈ genItems x S) : id ∈ classNames x S := by
  simp only [classNames, List.mem_flatMap]
  rcases (mem_items hw _).1 h with ⟨n, hn, e⟩ | ⟨n, a, as, hn, _, e | ⟨v, hv, e⟩⟩
  · cases e
  · cases e
  · refine ⟨_, hn, List.mem_map.2 ⟨v, hv, ?_⟩⟩
    have := congrArg Item.id e
    rw [case_id] at this
    exact this.symm

theorem unique {F : List Item} (T : Typed L F) {i j : Item} (hi : i ∈ F) (hj : j ∈ F) (e : i.id = j.id) : i = j :=
  nodup_inj (·.id) T.once hi hj e

theorem not_address {id : String} (h : id = genName id) : ¬ IsAddress id := by
  intro ha
  rw [genName_address ha] at h
  subst h
  simp [IsAddress] at ha

theorem struct_facts (hw : ∀ d ∈ S, ∃ k, WFDecl k d) (N : NoAccidents x S) (T : Typed L (genItems x S)) {n : StructNode}
    (hn : .struct n ∈ S) : x.pascal n.id = n.id ∧ ¬ IsAddress n.id ∧
      ∀ f ∈ n.fields, ExprTyped L (genItems x S) (genDefault f.typeId) (genTy f.typeId) := by
  have hm : genStruct x n ∈ genItems x S := (mem_items hw _).2 (.inl ⟨n, hn, rfl⟩)
  obtain ⟨-, hd, -, -, hc⟩ := T.items _ hm
  obtain ⟨a, hN, hsub⟩ := hc _ rfl
  generalize ev : New.call n.id (genNamedArgs x n.fields) = v at hN
  cases hN with
  | object => cases ev
  | @call id b ps s c as h1 h2 =>
    cases ev
    have hp := N.structs n hn (cls_mem hw h1)
    have e := unique T h1 hm hp.symm
    simp only [genStruct, Item.cls.injEq] at e
    obtain ⟨-, -, rfl, rfl, -⟩ := e
    refine ⟨hp, ?_, ?_⟩
    · rcases hsub with e | h3 | ⟨d, ps', c', h3⟩
      · exact not_address e
      · have := unique T h3 h1 rfl
        cases this
      · have := unique T h3 h1 rfl
        cases this
    · refine (named_iff x.camel n.fields ?_ (fun _ _ => rfl)).1 h2
      rwa [List.map_map] at hd

theorem enum_sub (T : Typed L (genItems x S)) {id e : String} {i : Item} (hm : i ∈ genItems x S) (hi : i.id = id)
    (hs : ∀ s, (i = .object id s → s = e) ∧ (∀ d ps c, i = .cls id d ps (some s) c → s = e)) (hne : id = genName e → id = e)
    (h : Subtype (genItems x S) id (genName e)) : ¬ IsAddress e := by
  rcases h with h | h | ⟨d, ps, c, h⟩
  · exact not_address ((hne h).symm.trans h)
  · have := unique T h hm hi.symm
    exact not_address ((hs _).1 this.symm).symm
  · have := unique T h hm hi.symm
    exact not_address ((hs _).2 _ _ _ this.symm).symm

theorem prefix_name {e s : String} (h : e ++ s = genName e) : e ++ s = e := by
  by_cases ha : IsAddress e
  · rw [genName_address ha] at h
    have h := congrArg String.toList h
    rw [String.toList_append] at h
    rcases ha with rfl | rfl <;> simp at h
  · rwa [genName_other ha] at h

theorem mem_head {α : Type} {l as : List α} {a : α} (h : l = a :: as) : a ∈ l := by simp [h]

theorem case_super (e id : String) (v : EnumItem) (s : String) : (genCase x e v = .object id s → s = e) ∧
    (∀ d ps c, genCase x e v = .cls id d ps (some s) c → s = e) := by
  cases v <;> simp only [genCase] <;> refine ⟨fun h => ?_, fun d ps c h => ?_⟩ <;> cases h <;> rfl

theorem enum_facts (hw : ∀ d ∈ S, ∃ k, WFDecl k d) (N : NoAccidents x S) (T : Typed L (genItems x S)) {n : EnumNode}
    (hn : .enum n ∈ S) {a : EnumItem} {as : List EnumItem} (hi : n.items = a :: as) :
    x.pascal (n.id ++ a.id) = n.id ++ a.id ∧ (∀ p id fs, a = .struct p id fs → ∀ f ∈ fs, x.camel f.name = f.name) ∧
      ¬ IsAddress n.id ∧ ∀ t ∈ defaulted (.enum n), ExprTyped L (genItems x S) (genDefault t) (genTy t) := by
  have hI := (mem_items (x := x) hw _).2 (.inr ⟨n, a, as, hn, hi, .inl rfl⟩)
  have ha : genCase x n.id a ∈ genItems x S := (mem_items hw _).2 (.inr ⟨n, a, as, hn, hi, .inr ⟨a, mem_head hi, rfl⟩⟩)
  obtain ⟨c, hN, hsub⟩ := T.items _ hI
  have hh : a ∈ n.items.head? := by simp [hi]
  have hA := T.items _ ha
  cases a with
  | empty p id =>
    generalize ev : genEnumDefault x n.id (.empty p id) = v at hN
    cases hN with
    | call => cases ev
    | object h1 =>
      cases ev
      have hp := N.firsts n hn _ hh (object_mem hw h1)
      refine ⟨hp, by simp, ?_, ?_⟩
      · exact enum_sub T ha (hp ▸ case_id _ _) (case_super _ _ _) prefix_name hsub
      · simp [defaulted, hi]
  | tuple p id vs =>
    generalize ev : genEnumDefault x n.id (.tuple p id vs) = v at hN
    cases hN with
    | object => cases ev
    | call h1 h2 =>
      cases ev
      have hp := N.firsts n hn _ hh (cls_mem hw h1)
      refine ⟨hp, by simp, ?_, ?_⟩
      · exact enum_sub T ha (hp ▸ case_id _ _) (case_super _ _ _) prefix_name hsub
      · have e := unique T h1 ha (by rw [case_id]; exact hp.symm)
        simp only [genCase, Item.cls.injEq] at e
        obtain ⟨-, -, rfl, -, -⟩ := e
        simpa [defaulted, hi] using (tuple_iff 0 vs).1 h2
  | struct p id fs =>
    generalize ev : genEnumDefault x n.id (.struct p id fs) = v at hN
    cases hN with
    | object => cases ev
    | call h1 h2 =>
      cases ev
      have hp := N.firsts n hn _ hh (cls_mem hw h1)
      have e := unique T h1 ha (by rw [case_id]; exact hp.symm)
      simp only [genCase, Item.cls.injEq] at e
      obtain ⟨-, -, rfl, -, -⟩ := e
      obtain ⟨-, hd, -, -, -⟩ := hA
      rw [List.map_map] at hd
      have hf : ∀ f ∈ fs, x.camel f.name = f.name := by
        intro f hf
        refine N.fields n hn p id fs hh f hf ?_
        cases h2 with
        | positional h =>
          cases fs with
          | nil => simp at hf
          | cons a fs => cases h with | cons h _ => simp at h
        | byName _ _ h =>
          obtain ⟨m, t, e1, h1, h2⟩ := h (some (x.camel f.name), genDefault f.typeId) (List.mem_map.2 ⟨f, hf, rfl⟩)
          simp only [Option.some.injEq] at e1
          obtain ⟨f', hf', e2⟩ := List.mem_map.1 h1
          cases e2
          rw [e1]
          exact List.mem_map_of_mem hf'
      refine ⟨hp, ?_, ?_, ?_⟩
      · intro p' id' fs' e'
        cases e'
        exact hf
      · exact enum_sub T ha (hp ▸ case_id _ _) (case_super _ _ _) prefix_name hsub
      · simpa [defaulted, hi] using (named_iff (fun s => s) fs hd hf).1 h2

theorem fit_of_typed (hw : ∀ d ∈ S, ∃ k, WFDecl k d) (hL : L.Std) (N : NoAccidents x S) (T : Typed L (genItems x S)) :
    Fit L x S := by
  have hD := items_names (x := x) hw
  have hstr {n : StructNode} (hn : .struct n ∈ S) : genStruct x n ∈ genItems x S := (mem_items hw _).2 (.inl ⟨n, hn, rfl⟩)
  have hcase {n : EnumNode} {v} (hn : .enum n ∈ S) (hv : v ∈ n.items) : genCase x n.id v ∈ genItems x S := by
    cases e : n.items with
    | nil => rw [e] at hv; simp at hv
    | cons a as => exact (mem_items hw _).2 (.inr ⟨n, a, as, hn, e, .inr ⟨v, hv, rfl⟩⟩)
  have hexist : ∀ d ∈ S, ∀ t ∈ directTypes d, TypeExists L (declaredNames x S) t := by
    intro d hd t ht
    refine (typeOk_iff hL _ (direct_wf hw hd ht)).1 ?_
    rw [← hD]
    cases d with
    | struct n =>
      simp only [directTypes, fieldsOf, List.map_map, List.mem_map, Function.comp] at ht
      obtain ⟨f, hf, rfl⟩ := ht
      obtain ⟨-, -, h, -, -⟩ := T.items _ (hstr hd)
      exact (h _ (List.mem_map.2 ⟨f, hf, rfl⟩)).2
    | enum n =>
      simp only [directTypes, List.mem_flatMap] at ht
      obtain ⟨v, hv, ht⟩ := ht
      rw [payload_types] at ht
      have h := T.items _ (hcase hd hv)
      cases v with
      | empty => simp at ht
      | tuple p id vs =>
        obtain ⟨-, -, h, -, -⟩ := h
        obtain ⟨w, hw', rfl⟩ := List.mem_map.1 ht
        have : genTy w.typeId ∈ (genTuple 0 vs).map (·.2) := by
          rw [tuple_types]
          exact List.mem_map.2 ⟨w, hw', rfl⟩
        obtain ⟨q, hq, e⟩ := List.mem_map.1 this
        rw [← e]
        exact (h q hq).2
      | struct p id fs =>
        obtain ⟨-, -, h, -, -⟩ := h
        obtain ⟨w, hw', rfl⟩ := List.mem_map.1 ht
        exact (h _ (List.mem_map.2 ⟨w, hw', rfl⟩)).2
    | fn n => simp [directTypes] at ht
    | const n => simp [directTypes] at ht
    | directive n => simp [directTypes] at ht
  have hne {n : EnumNode} (hn : .enum n ∈ S) : ∃ a as, n.items = a :: as := by
    obtain ⟨k, hk⟩ := hw _ hn
    cases e : n.items with
    | nil => exact absurd e hk.1
    | cons a as => exact ⟨a, as, rfl⟩
  have hs : ∀ n, .struct n ∈ S → x.pascal n.id = n.id := fun n hn => (struct_facts hw N T hn).1
  have ho : ∀ id, Own S id → ¬ IsAddress id := by
    rintro id (⟨n, hn, rfl⟩ | ⟨n, hn, rfl⟩)
    · exact (struct_facts hw N T hn).2.1
    · obtain ⟨a, as, hi⟩ := hne hn
      exact (enum_facts hw N T hn hi).2.2.1
  refine ⟨hD ▸ T.once, ?_, ?_, ?_, ?_, hexist, hs, ?_, ho, ?_⟩
  · intro m hm
    rw [← hD] at hm
    obtain ⟨i, hi, rfl⟩ := List.mem_map.1 hm
    exact T.names i hi
  · intro n hn
    obtain ⟨-, h1, h2, -, -⟩ := T.items _ (hstr hn)
    rw [List.map_map] at h1
    exact ⟨h1, fun f hf => (h2 _ (List.mem_map.2 ⟨f, hf, rfl⟩)).1⟩
  · intro n hn p id fs hi
    obtain ⟨-, h1, h2, -, -⟩ := T.items _ (hcase hn hi)
    rw [List.map_map] at h1
    exact ⟨h1, fun f hf => (h2 _ (List.mem_map.2 ⟨f, hf, rfl⟩)).1⟩
  · intro n hn i hi he
    have h := T.items _ (hcase hn hi)
    cases i with
    | empty => exact he
    | tuple p id vs =>
      cases vs with
      | nil => exact h.1 rfl rfl
      | cons => exact he
    | struct p id fs =>
      cases fs with
      | nil => exact h.1 rfl rfl
      | cons => exact he
  · intro n hn i hi
    obtain ⟨a, as, e⟩ := hne hn
    rw [e] at hi
    simp only [List.head?_cons, Option.mem_def, Option.some.injEq] at hi
    subst hi
    have := enum_facts hw N T hn e
    exact ⟨this.1, this.2.1⟩
  · intro d hd t ht
    refine (default_iff hw hs ho (direct_wf hw hd (defaulted_direct ht)) hL (hexist d hd t (defaulted_direct ht))).1 ?_
    cases d with
    | struct n =>
      obtain ⟨f, hf, rfl⟩ := List.mem_map.1 ht
      exact (struct_facts hw N T hd).2.2 f hf
    | enum n =>
      obtain ⟨a, as, e⟩ := hne hd
      exact (enum_facts hw N T hd e).2.2.2 t ht
    | fn n => simp [defaulted] at ht
    | const n => simp [defaulted] at ht
    | directive n => simp [defaulted] at ht

theorem typed_of_fit (hw : ∀ d ∈ S, ∃ k, WFDecl k d) (hL : L.Std) (T : Fit L x S) : Typed L (genItems x S) := by
  have hD := items_names (x := x) hw
  have hty {d t} (hd : d ∈ S) (ht : t ∈ directTypes d) : TyOk L ((genItems x S).map (·.id)) (genTy t) := by
    rw [hD]
    exact (typeOk_iff hL _ (direct_wf hw hd ht)).2 (T.exist d hd t ht)
  have hdef {d t} (hd : d ∈ S) (ht : t ∈ defaulted d) : ExprTyped L (genItems x S) (genDefault t) (genTy t) :=
    (default_iff hw T.structs T.own (direct_wf hw hd (defaulted_direct ht)) hL (T.exist d hd t (defaulted_direct ht))).2
      (T.defaults d hd t ht)
  refine ⟨hD.symm ▸ T.once, ?_, ?_⟩
  · intro i hi
    exact T.names _ (hD ▸ List.mem_map_of_mem hi)
  intro i hi
  rcases (mem_items hw _).1 hi with ⟨n, hn, rfl⟩ | ⟨n, a, as, hn, e, rfl | ⟨v, hv, rfl⟩⟩
  · have hp := T.structs n hn
    obtain ⟨f1, f2⟩ := T.fields n hn
    have eN : genName n.id = n.id := genName_other (T.own _ (.inl ⟨n, hn, rfl⟩))
    have hm := hi
    simp only [genStruct] at hm
    refine ⟨?_, ?_, ?_, ?_, ?_⟩
    · cases n.fields <;> simp
    · rwa [List.map_map]
    · intro p hp
      obtain ⟨f, hf, rfl⟩ := List.mem_map.1 hp
      exact ⟨f2 f hf, hty hn (by
        simp only [directTypes, fieldsOf, List.map_map]
        exact List.mem_map.2 ⟨f, hf, rfl⟩)⟩
    · simp
    · intro d hd
      cases hd
      refine ⟨n.id, ?_, .inl eN.symm⟩
      rw [hp] at hm
      exact .call hm ((named_iff x.camel n.fields f1 (fun _ _ => rfl)).2
        (fun f hf => hdef hn (List.mem_map.2 ⟨f, hf, rfl⟩)))
  · obtain ⟨h1, h2⟩ := T.firsts n hn a (by simp [e])
    have eN : genName n.id = n.id := genName_other (T.own _ (.inr ⟨n, hn, rfl⟩))
    have hm : genCase x n.id a ∈ genItems x S := (mem_items hw _).2 (.inr ⟨n, a, as, hn, e, .inr ⟨a, mem_head e, rfl⟩⟩)
    cases a with
    | empty p id =>
      simp only [genCase] at hm
      rw [show id = (EnumItem.empty p id).id from rfl, h1] at hm
      exact ⟨_, .object hm, .inr (.inl (by rw [eN]; exact hm))⟩
    | tuple p id vs =>
      simp only [genCase] at hm
      rw [show id = (EnumItem.tuple p id vs).id from rfl, h1] at hm
      refine ⟨_, .call hm ((tuple_iff 0 vs).2 fun v hv => hdef hn ?_), .inr (.inr ⟨_, _, _, by rw [eN]; exact hm⟩)⟩
      simp only [defaulted, e]
      exact List.mem_map.2 ⟨v, hv, rfl⟩
    | struct p id fs =>
      simp only [genCase] at hm
      rw [show id = (EnumItem.struct p id fs).id from rfl, h1] at hm
      refine ⟨_, .call hm ((named_iff (fun s => s) fs (T.variantFields n hn p id fs (mem_head e)).1
        (h2 p id fs rfl)).2 fun v hv => hdef hn ?_), .inr (.inr ⟨_, _, _, by rw [eN]; exact hm⟩)⟩
      simp only [defaulted, e]
      exact List.mem_map.2 ⟨v, hv, rfl⟩
  · have hI := (mem_items (x := x) hw _).2 (.inr ⟨n, a, as, hn, e, .inl rfl⟩)
    have hpar := T.parens n hn v hv
    have hdt {t} (ht : t ∈ (payload v).map (·.2)) : t ∈ directTypes (.enum n) := by
      simp only [directTypes, List.mem_flatMap]
      exact ⟨v, hv, ht⟩
    rw [payload_types] at hdt
    cases v with
    | empty p id => exact ⟨_, hI⟩
    | tuple p id vs =>
      refine ⟨?_, genTuple_nodup 0 vs, ?_, ?_, by simp⟩
      · intro _ h
        cases vs with
        | nil => exact hpar trivial
        | cons => simp [genTuple] at h
      · intro q hq
        refine ⟨tuple_names vs q hq, ?_⟩
        have : q.2 ∈ (genTuple 0 vs).map (·.2) := List.mem_map_of_mem hq
        rw [tuple_types] at this
        obtain ⟨w, hw', e'⟩ := List.mem_map.1 this
        rw [← e']
        exact hty hn (hdt (List.mem_map.2 ⟨w, hw', rfl⟩))
      · intro i hi
        cases hi
        exact ⟨_, hI⟩
    | struct p id fs =>
      obtain ⟨f1, f2⟩ := T.variantFields n hn p id fs hv
      refine ⟨?_, by rwa [List.map_map], ?_, ?_, by simp⟩
      · intro _ h
        cases fs with
        | nil => exact hpar trivial
        | cons => simp at h
      · intro q hq
        obtain ⟨f, hf, rfl⟩ := List.mem_map.1 hq
        exact ⟨f2 f hf, hty hn (hdt (List.mem_map.2 ⟨f, hf, rfl⟩))⟩
      · intro i hi
        cases hi
        exact ⟨_, hI⟩

/-- The emitted declarations are accepted exactly for schemas that fit. -/
theorem typed_iff (hw : ∀ d ∈ S, ∃ k, WFDecl k d) (hL : L.Std) (N : NoAccidents x S) :
    Typed L (genItems x S) ↔ Fit L x S :=
  ⟨fit_of_typed hw hL N, typed_of_fit hw hL⟩

end TPB.KotlinTyping
