/-
The emitted Swift models obey the rules of `Spec/MobileTyping.lean` exactly for the schemas that fit.
-/
import Verif.Proofs.KotlinTyping
namespace TPB.SwiftTyping
open Spec Spec.Swift TPB.Swift Props.SwiftModels Props KotlinTyping

variable {x : ExtF} {S : List ASTNode} {L : SwiftLib}

/-! ### Declared names -/

theorem mem_items (hw : ∀ d ∈ S, ∃ k, WFDecl k d) (i : Item) : i ∈ genItems x S ↔
    (∃ n, .struct n ∈ S ∧ i = genStruct x n) ∨
    (∃ n a as, .enum n ∈ S ∧ n.items = a :: as ∧
      i = .enum (x.pascal n.id) (n.items.map (genCase x)) ⟨genName n.id, genEnumDefault x a⟩) := by
  simp only [genItems, List.mem_flatMap]
  constructor
  · rintro ⟨d, hd, hi⟩
    cases d with
    | struct n => exact .inl ⟨n, hd, by simpa [genItem] using hi⟩
    | enum n =>
      simp only [genItem, genEnum] at hi
      cases h : n.items with
      | nil => simp [h] at hi
      | cons a as =>
        rw [h] at hi
        simp only [List.mem_singleton] at hi
        exact .inr ⟨n, a, as, hd, h, by rw [hi, h]⟩
    | fn n => simp [genItem] at hi
    | const n => simp [genItem] at hi
    | directive n => simp [genItem] at hi
  · rintro (⟨n, hn, rfl⟩ | ⟨n, a, as, hn, h, hi⟩)
    · exact ⟨_, hn, by simp [genItem]⟩
    · refine ⟨_, hn, ?_⟩
      simp only [genItem, genEnum, h, List.mem_singleton]
      rw [hi, h]

theorem items_names (hw : ∀ d ∈ S, ∃ k, WFDecl k d) : (genItems x S).map (·.id) = declaredNames x S := by
  simp only [genItems, declaredNames, typeNames, List.map_flatMap]
  induction S with
  | nil => rfl
  | cons d S ih =>
    simp only [List.flatMap_cons]
    rw [ih (fun e he => hw e (by simp [he]))]
    cases d with
    | struct n => rfl
    | enum n =>
      obtain ⟨k, hk⟩ := hw (.enum n) (by simp)
      simp only [genItem, genEnum]
      cases h : n.items with
      | nil => exact absurd h hk.1
      | cons a as => rfl
    | fn n => rfl
    | const n => rfl
    | directive n => rfl

/-! ### Built-in types -/

theorem builtin_ty {t : TypeId} {k : String} (h : BuiltinName swiftNames t k) (hc : ∀ m, t ≠ .char m) :
    genTy t = .named k ∧ (L.Std → L.types k 0) ∧ ∃ s, genDefault t = .lit s ∧ (L.Std → s ∈ L.literals k) := by
  obtain ⟨n, v, rfl, hn, hk⟩ := h
  have hb : L.Std → v ≠ .bool → v ≠ .char → "0" ∈ L.literals k := fun hL => hL.zero _ hk
  refine ⟨?_, fun hL => hL.basic _ hk, ?_⟩ <;>
  · simp only [builtinMeanings, List.mem_cons, List.not_mem_nil, or_false, Prod.mk.injEq] at hn
    rcases hn with ⟨rfl, rfl⟩ | ⟨rfl, rfl⟩ | ⟨rfl, rfl⟩ | ⟨rfl, rfl⟩ | ⟨rfl, rfl⟩ | ⟨rfl, rfl⟩ | ⟨rfl, rfl⟩ | ⟨rfl, rfl⟩ |
      ⟨rfl, rfl⟩ | ⟨rfl, rfl⟩ <;> simp [swiftNames] at hk <;> subst hk <;>
      first
      | exact absurd rfl (hc "char")
      | exact ⟨_, rfl, fun hL => hL.bool⟩
      | exact ⟨_, rfl, fun hL => hb hL (by simp) (by simp)⟩
      | simp [typeOfName, builtinTypes, List.lookup, genTy, intName]

theorem builtin_shape {t : TypeId} {k : String} {N : List (ValueType × String)} (h : BuiltinName N t k) :
    (∀ id, t ≠ .other id) ∧ ∀ c ts, t ≠ .generic c ts := by
  obtain ⟨n, v, rfl, hn, hk⟩ := h
  simp only [builtinMeanings, List.mem_cons, List.not_mem_nil, or_false, Prod.mk.injEq] at hn
  rcases hn with ⟨rfl, rfl⟩ | ⟨rfl, rfl⟩ | ⟨rfl, rfl⟩ | ⟨rfl, rfl⟩ | ⟨rfl, rfl⟩ | ⟨rfl, rfl⟩ | ⟨rfl, rfl⟩ | ⟨rfl, rfl⟩ |
    ⟨rfl, rfl⟩ | ⟨rfl, rfl⟩ <;> simp [typeOfName, builtinTypes, List.lookup]

theorem builtin_name {n : String} (h : n ∈ builtinTypes.map (·.1)) : typeOfName n = .char "char" ∨
    ∃ k, BuiltinName swiftNames (typeOfName n) k ∧ BuiltinName namesWithChar (typeOfName n) k ∧ ∀ m, typeOfName n ≠ .char m := by
  simp only [builtinTypes, List.map_cons, List.map_nil, List.mem_cons, List.not_mem_nil, or_false] at h
  have hm {v : ValueType} {k : String} (h : (v, k) ∈ swiftNames) (hv : v ≠ .char) : (v, k) ∈ namesWithChar := by
    simp [namesWithChar, h, hv]
  have he {n : String} {v : ValueType} {k : String} (h1 : (n, v) ∈ builtinMeanings) (h2 : (v, k) ∈ swiftNames) (hv : v ≠ .char)
      (h3 : ∀ m, typeOfName n ≠ .char m) : ∃ k, BuiltinName swiftNames (typeOfName n) k ∧ BuiltinName namesWithChar (typeOfName n) k
        ∧ ∀ m, typeOfName n ≠ .char m := ⟨k, ⟨n, v, rfl, h1, h2⟩, ⟨n, v, rfl, h1, hm h2 hv⟩, h3⟩
  rcases h with h | h | h | h | h | h | h | h | h | h <;> subst h
  · exact .inr (he (v := .int 8 true) (k := "Int8") (by decide) (by decide) (by decide) (by simp [typeOfName, builtinTypes, List.lookup]))
  · exact .inr (he (v := .int 32 true) (k := "Int32") (by decide) (by decide) (by decide) (by simp [typeOfName, builtinTypes, List.lookup]))
  · exact .inr (he (v := .int 64 true) (k := "Int64") (by decide) (by decide) (by decide) (by simp [typeOfName, builtinTypes, List.lookup]))
  · exact .inr (he (v := .int 8 false) (k := "UInt8") (by decide) (by decide) (by decide) (by simp [typeOfName, builtinTypes, List.lookup]))
  · exact .inr (he (v := .int 32 false) (k := "UInt32") (by decide) (by decide) (by decide) (by simp [typeOfName, builtinTypes, List.lookup]))
  · exact .inr (he (v := .int 64 false) (k := "UInt64") (by decide) (by decide) (by decide) (by simp [typeOfName, builtinTypes, List.lookup]))
  · exact .inr (he (v := .float 32) (k := "Float") (by decide) (by decide) (by decide) (by simp [typeOfName, builtinTypes, List.lookup]))
  · exact .inr (he (v := .float 64) (k := "Double") (by decide) (by decide) (by decide) (by simp [typeOfName, builtinTypes, List.lookup]))
  · exact .inl rfl
  · exact .inr (he (v := .bool) (k := "Bool") (by decide) (by decide) (by decide) (by simp [typeOfName, builtinTypes, List.lookup]))

theorem char_name {t : TypeId} {k : String} {m : String} (h : BuiltinName namesWithChar t k) (e : t = .char m) : k = "char" := by
  obtain ⟨n, v, rfl, hn, hk⟩ := h
  simp only [builtinMeanings, List.mem_cons, List.not_mem_nil, or_false, Prod.mk.injEq] at hn
  rcases hn with ⟨rfl, rfl⟩ | ⟨rfl, rfl⟩ | ⟨rfl, rfl⟩ | ⟨rfl, rfl⟩ | ⟨rfl, rfl⟩ | ⟨rfl, rfl⟩ | ⟨rfl, rfl⟩ | ⟨rfl, rfl⟩ |
    ⟨rfl, rfl⟩ | ⟨rfl, rfl⟩ <;> simp [typeOfName, builtinTypes, List.lookup] at e
  simpa [namesWithChar, swiftNames] using hk

theorem char_builtin : BuiltinName namesWithChar (.char "char") "char" :=
  ⟨"char", .char, rfl, by decide, by decide⟩

theorem with_char {t : TypeId} {k : String} (h : BuiltinName namesWithChar t k) (hc : ∀ m, t ≠ .char m) :
    BuiltinName swiftNames t k := by
  obtain ⟨n, v, rfl, hn, hk⟩ := h
  refine ⟨n, v, rfl, hn, ?_⟩
  simp only [namesWithChar, List.mem_cons, Prod.mk.injEq, List.mem_filter] at hk
  rcases hk with ⟨rfl, -⟩ | hk
  · simp only [builtinMeanings, List.mem_cons, List.not_mem_nil, or_false, Prod.mk.injEq] at hn
    simp at hn
    subst hn
    exact absurd rfl (hc "char")
  · exact hk.1

/-! ### Types -/

theorem ty_other (id : String) : genTy (.other id) = .named (genName id) := by simp only [genTy]

theorem genName_address {id : String} (h : IsAddress id) : genName id = "UInt64" := if_pos h

theorem genName_other {id : String} (h : ¬ IsAddress id) : genName id = id := if_neg h

theorem ty_generic (c : String) (ts : List TypeId) :
    genTy (.generic c ts) = if c = "Vec" then .array (ts.map genTy) else .app c (ts.map genTy) := by
  simp only [genTy, genTys_map]

theorem typeOk_iff (hL : L.Std) (D : List String) {t : TypeId} (h : WFType t) : TyOk L D (genTy t) ↔ TypeExists L D t := by
  have named {k : String} (hk : L.types k 0) : TyOk L D (.named k) := by
    by_cases hd : k ∈ D
    · exact .own hd
    · exact .lib hd hk
  have hul : L.types "UInt64" 0 := hL.basic (.int 64 false, "UInt64") (by decide)
  induction h with
  | name n =>
    by_cases hn : n ∈ builtinTypes.map (·.1)
    · rcases builtin_name hn with e | ⟨k, hk, -, hc⟩
      · rw [e]
        simp only [genTy]
        constructor
        · intro h
          generalize e : Ty.named "char" = u at h
          cases h with
          | own h => cases e; exact .char (.inl h)
          | lib _ h => cases e; exact .char (.inr h)
          | app => cases e
          | array => cases e
        · intro h
          cases h with
          | builtin _ h => exact absurd rfl (h _)
          | char h =>
            rcases h with h | h
            · exact .own h
            · exact named h
      · refine ⟨fun _ => .builtin hk hc, fun _ => ?_⟩
        rw [(builtin_ty (L := L) hk hc).1]
        exact named ((builtin_ty hk hc).2.1 hL)
    · rw [not_builtin hn, ty_other]
      by_cases ha : IsAddress n
      · rw [genName_address ha]
        exact ⟨fun _ => .address ha, fun _ => named hul⟩
      · rw [genName_other ha]
        constructor
        · intro h
          cases h with
          | own h => exact .own h
          | lib _ h => exact .lib h
        · intro h
          cases h with
          | builtin h => exact absurd rfl ((builtin_shape h).1 _)
          | address h => exact absurd h ha
          | own h => exact .own h
          | lib h => exact named h
  | generic c as _ hw ih =>
    rw [ty_generic]
    by_cases hv : c = "Vec"
    · subst hv
      rw [if_pos rfl]
      constructor
      · intro h
        generalize e : as.map genTy = us at h
        cases h with
        | array h =>
          match as, e with
          | [t], e =>
            simp only [List.map_cons, List.map_nil, List.cons.injEq, and_true] at e
            exact .list ((ih t (by simp)).1 (e ▸ h))
      · intro h
        cases h with
        | builtin h => exact absurd rfl ((builtin_shape h).2 _ _)
        | list h => exact .array ((ih _ (by simp)).2 h)
        | generic h => exact absurd rfl h
    · rw [if_neg hv]
      constructor
      · intro h
        cases h with
        | app h1 h2 h3 =>
          rw [List.length_map] at h2
          exact .generic hv h1 h2 (fun t ht => (ih t ht).1 (h3 _ (List.mem_map_of_mem ht)))
      · intro h
        cases h with
        | builtin h => exact absurd rfl ((builtin_shape h).2 _ _)
        | list => exact absurd rfl hv
        | generic _ h1 h2 h3 =>
          refine .app h1 (by rwa [List.length_map]) ?_
          intro a ha
          obtain ⟨t, ht, rfl⟩ := List.mem_map.1 ha
          exact (ih t ht).2 (h3 t ht)

theorem contains_iff {t : TypeId} (h : WFType t) (id : String) : Contains L (genTy t) id ↔ ContainsType L t id := by
  have named {k : String} : Contains L (.named k) id ↔ id = k :=
    ⟨fun h => by cases h; rfl, fun h => h ▸ .named⟩
  induction h with
  | name n =>
    by_cases hn : n ∈ builtinTypes.map (·.1)
    · rcases builtin_name hn with e | ⟨k, hk, hk', hc⟩
      · rw [e]
        simp only [genTy, named]
        constructor
        · rintro rfl
          exact .builtin char_builtin
        · intro h
          cases h with
          | builtin h => exact char_name h rfl
      · rw [(builtin_ty (L := L) hk hc).1, named]
        constructor
        · rintro rfl
          exact .builtin hk'
        · intro h
          generalize typeOfName n = t at *
          cases h with
          | builtin h =>
            have := (builtin_ty (L := L) (with_char h hc) hc).1
            rw [(builtin_ty (L := L) hk hc).1] at this
            cases this
            rfl
          | address => exact absurd rfl ((builtin_shape hk).1 _)
          | other => exact absurd rfl ((builtin_shape hk).1 _)
          | arg => exact absurd rfl ((builtin_shape hk).2 _ _)
    · rw [not_builtin hn, ty_other, named]
      by_cases ha : IsAddress n
      · rw [genName_address ha]
        constructor
        · rintro rfl
          exact .address ha
        · intro h
          cases h with
          | builtin h => exact absurd rfl ((builtin_shape h).1 _)
          | address => rfl
          | other h => exact absurd ha h
      · rw [genName_other ha]
        constructor
        · rintro rfl
          exact .other ha
        · intro h
          cases h with
          | builtin h => exact absurd rfl ((builtin_shape h).1 _)
          | address h => exact absurd h ha
          | other => rfl
  | generic c as _ hw ih =>
    rw [ty_generic]
    by_cases hv : c = "Vec"
    · subst hv
      rw [if_pos rfl]
      constructor
      · intro h
        cases h
      · intro h
        cases h with
        | builtin h => exact absurd rfl ((builtin_shape h).2 _ _)
        | arg h => exact absurd rfl h
    · rw [if_neg hv]
      constructor
      · intro h
        cases h with
        | arg h1 h2 h3 =>
          obtain ⟨t, ht, rfl⟩ := List.mem_map.1 h2
          exact .arg hv h1 ht ((ih t ht).1 h3)
      · intro h
        cases h with
        | builtin h => exact absurd rfl ((builtin_shape h).2 _ _)
        | arg _ h1 h2 h3 => exact .arg h1 (List.mem_map_of_mem h2) ((ih _ h2).2 h3)

/-! ### Default values -/

theorem default_other (id : String) : genDefault (.other id) =
    if id = "String" then .lit "\"\"" else if id = "Vec" then .emptyArray else .create id := by simp only [genDefault]

theorem default_generic (c : String) (ts : List TypeId) :
    genDefault (.generic c ts) = if c = "Vec" then .emptyArray else .createGeneric c (ts.map genTy) := by
  simp only [genDefault, genTys_map]

/-- Where an item comes from. -/
theorem item_own (hw : ∀ d ∈ S, ∃ k, WFDecl k d) {i : Item} (h : i ∈ genItems x S) :
    ∃ id, Own S id ∧ i.id = x.pascal id ∧ i.default.type = genName id := by
  rcases (mem_items hw _).1 h with ⟨n, hn, rfl⟩ | ⟨n, a, as, hn, _, rfl⟩
  · exact ⟨n.id, .inl ⟨n, hn, rfl⟩, rfl, rfl⟩
  · exact ⟨n.id, .inr ⟨n, hn, rfl⟩, rfl, rfl⟩

theorem own_item (hw : ∀ d ∈ S, ∃ k, WFDecl k d) {id : String} (ho : Own S id) :
    ∃ i ∈ genItems x S, i.id = x.pascal id ∧ i.default.type = genName id := by
  rcases ho with ⟨n, hn, rfl⟩ | ⟨n, hn, rfl⟩
  · exact ⟨_, (mem_items hw _).2 (.inl ⟨n, hn, rfl⟩), rfl, rfl⟩
  · obtain ⟨k, hk⟩ := hw _ hn
    cases h : n.items with
    | nil => exact absurd h hk.1
    | cons a as => exact ⟨_, (mem_items hw _).2 (.inr ⟨n, a, as, hn, h, rfl⟩), rfl, rfl⟩

theorem default_iff (hw : ∀ d ∈ S, ∃ k, WFDecl k d) (hs : ∀ id, Own S id → x.pascal id = id ∧ ¬ IsAddress id)
    (H : List String) {t : TypeId} (h : WFType t) (hL : L.Std) (he : TypeExists L (declaredNames x S) t) :
    ExprTyped L (genItems x S) H (genDefault t) (genTy t) ↔ HasDefault L S (declaredNames x S) H t := by
  have hD := items_names (x := x) hw
  cases h with
  | name n =>
    by_cases hn : n ∈ builtinTypes.map (·.1)
    · rcases builtin_name hn with e | ⟨k, hk, -, hc⟩
      · rw [e]
        simp only [genDefault, genTy]
        constructor
        · intro h
          cases h with
          | lit h1 h2 => exact .char (hD ▸ h1) h2
        · intro h
          cases h with
          | builtin _ h => exact absurd rfl (h "char")
          | char h1 h2 => exact .lit (hD ▸ h1) h2
      · obtain ⟨e1, -, s, e3, e4⟩ := builtin_ty (L := L) hk hc
        rw [e1, e3]
        constructor
        · intro h
          cases h with
          | lit h _ => exact .builtin hk hc (hD ▸ h)
        · intro h
          refine .lit ?_ (e4 hL)
          rw [hD]
          generalize typeOfName n = t at h hk e1 hc
          cases h with
          | builtin h1 h2 h3 =>
            have := (builtin_ty (L := L) h1 h2).1
            rw [e1] at this
            cases this
            exact h3
          | char => exact absurd rfl (hc _)
          | string => exact absurd rfl ((builtin_shape hk).1 _)
          | vec => exact absurd rfl ((builtin_shape hk).1 _)
          | own => exact absurd rfl ((builtin_shape hk).1 _)
          | lib => exact absurd rfl ((builtin_shape hk).1 _)
          | list => exact absurd rfl ((builtin_shape hk).2 _ _)
          | generic => exact absurd rfl ((builtin_shape hk).2 _ _)
    · rw [not_builtin hn] at he ⊢
      rw [ty_other, default_other]
      by_cases h1 : n = "String"
      · subst h1
        rw [if_pos rfl, genName_other (by simp [IsAddress])]
        constructor
        · intro h
          cases h with
          | lit h _ => exact .string (hD ▸ h)
        · intro h
          refine .lit ?_ hL.string
          rw [hD]
          generalize e : TypeId.other "String" = u at h
          cases h with
          | builtin h => exact absurd e.symm ((builtin_shape h).1 _)
          | char => cases e
          | string h => exact h
          | vec => simp at e
          | own _ _ h => cases e; exact absurd rfl h
          | lib _ _ h => cases e; exact absurd rfl h
          | list => cases e
          | generic => cases e
      · rw [if_neg h1]
        by_cases h2 : n = "Vec"
        · subst h2
          rw [if_pos rfl, genName_other (by simp [IsAddress])]
          constructor
          · intro h
            cases h with
            | literal h1 h2 => exact .vec (hD ▸ h1) h2
          · intro h
            generalize e : TypeId.other "Vec" = u at h
            cases h with
            | builtin h => exact absurd e.symm ((builtin_shape h).1 _)
            | char => cases e
            | string => simp at e
            | vec h1 h2 => exact .literal (hD ▸ h1) h2
            | own _ h => cases e; exact absurd rfl h
            | lib _ h => cases e; exact absurd rfl h
            | list => cases e
            | generic => cases e
        · rw [if_neg h2]
          have key (h : ∃ i ∈ genItems x S, i.id = n) : Own S n ∧ ¬ IsAddress n := by
            obtain ⟨i, hi, e⟩ := h
            obtain ⟨id, ho, e1, _⟩ := item_own hw hi
            rw [e, (hs id ho).1] at e1
            subst e1
            exact ⟨ho, (hs _ ho).2⟩
          by_cases ha : IsAddress n
          · rw [genName_address ha]
            constructor
            · intro h
              generalize e : Ty.named "UInt64" = u at h
              generalize e' : Expr.create n = v at h
              cases h with
              | lit => cases e'
              | array => cases e'
              | literal => cases e'
              | own h =>
                simp only [Expr.create.injEq] at e'
                exact absurd ha (key ⟨_, h, e'.symm⟩).2
              | lib h _ => cases e; cases e'; exact absurd ha (by simp [IsAddress])
              | generic => cases e'
            · intro h
              cases h with
              | builtin h => exact absurd rfl ((builtin_shape h).1 _)
              | string => exact absurd rfl h1
              | vec => exact absurd rfl h2
              | own h => exact absurd ha h
              | lib h => exact absurd ha h
          · rw [genName_other ha]
            constructor
            · intro h
              generalize e : Ty.named n = u at h
              generalize e' : Expr.create n = v at h
              cases h with
              | lit => cases e'
              | array => cases e'
              | literal => cases e'
              | own h h' =>
                simp only [Expr.create.injEq] at e'
                exact .own ha h2 h1 (e' ▸ h') (key ⟨_, h, e'.symm⟩).1
              | lib h h' h'' => cases e'; exact .lib ha h2 h1 h' (hD ▸ h) h''
              | generic => cases e'
            · intro h
              cases h with
              | builtin h => exact absurd rfl ((builtin_shape h).1 _)
              | string => exact absurd rfl h1
              | vec => exact absurd rfl h2
              | own _ _ _ h' h =>
                obtain ⟨i, hi, e1, e2⟩ := own_item (x := x) hw h
                rw [(hs _ h).1] at e1
                rw [genName_other ha] at e2
                have := ExprTyped.own (L := L) (H := H) hi (by rwa [e1])
                rwa [e1, e2] at this
              | lib _ _ _ h' h h'' => exact .lib (hD ▸ h) h' h''
  | generic c as hne hw' =>
    rw [ty_generic, default_generic]
    by_cases hv : c = "Vec"
    · subst hv
      rw [if_pos rfl, if_pos rfl]
      cases he with
      | builtin h => exact absurd rfl ((builtin_shape h).2 _ _)
      | list h1 => exact ⟨fun _ => .list, fun _ => .array⟩
      | generic h => exact absurd rfl h
    · rw [if_neg hv, if_neg hv]
      cases he with
      | builtin h => exact absurd rfl ((builtin_shape h).2 _ _)
      | list => exact absurd rfl hv
      | generic _ h1 h2 h3 =>
        constructor
        · intro h
          cases h with
          | generic _ h h' => exact .generic hv h (by rwa [List.length_map] at h')
        · intro h
          cases h with
          | builtin h => exact absurd rfl ((builtin_shape h).2 _ _)
          | list => exact absurd rfl hv
          | generic _ h h' =>
            refine .generic (hD ▸ h1) h (by rwa [List.length_map]) ?_
            intro a ha
            obtain ⟨t, ht, rfl⟩ := List.mem_map.1 ha
            rw [hD]
            exact (typeOk_iff hL _ (hw' t ht)).2 (h3 t ht)

/-! ### Members and types of a declaration -/

theorem case_params (v : EnumItem) : (genCase x v).params.map (·.2) = ((payload v).map (·.2)).map genTy := by
  rw [payload_types]
  cases v <;> simp [genCase, List.map_map]

theorem case_id (v : EnumItem) : (genCase x v).id = x.camel v.id := by cases v <;> rfl

theorem struct_members (n : StructNode) : (genStruct x n).members = memberNames x (.struct n) := by
  simp [genStruct, Item.members, memberNames, List.map_map]

theorem struct_tys (n : StructNode) : (genStruct x n).tys = (directTypes (.struct n)).map genTy := by
  simp [genStruct, Item.tys, directTypes, fieldsOf, List.map_map]

theorem enum_members (n : EnumNode) (id : String) (d : Default) :
    (Item.enum id (n.items.map (genCase x)) d).members = memberNames x (.enum n) := by
  simp only [Item.members, memberNames, List.map_map]
  exact List.map_congr_left (fun v _ => case_id v)

theorem enum_tys (n : EnumNode) (id : String) (d : Default) :
    (Item.enum id (n.items.map (genCase x)) d).tys = (directTypes (.enum n)).map genTy := by
  simp only [Item.tys, directTypes]
  induction n.items with
  | nil => rfl
  | cons v vs ih => simp only [List.map_cons, List.flatMap_cons, List.map_append, ih, case_params]

/-- One item for each declaration of a type. -/
theorem item_of (hw : ∀ d ∈ S, ∃ k, WFDecl k d) {d : ASTNode} (hd : d ∈ S) {name : String} (h : declName d = some name) :
    ∃ i ∈ genItems x S, i.id = x.pascal name ∧ i.members = memberNames x d ∧ i.tys = (directTypes d).map genTy ∧
      ((∃ id cs e, i = .enum id cs e) ↔ ∃ n, d = .enum n) := by
  cases d with
  | struct n =>
    cases h
    refine ⟨_, (mem_items hw _).2 (.inl ⟨n, hd, rfl⟩), rfl, struct_members n, struct_tys n, ?_⟩
    simp [genStruct]
  | enum n =>
    cases h
    obtain ⟨k, hk⟩ := hw _ hd
    cases h : n.items with
    | nil => exact absurd h hk.1
    | cons a as =>
      refine ⟨_, (mem_items hw _).2 (.inr ⟨n, a, as, hd, h, rfl⟩), rfl, enum_members n _ _, enum_tys n _ _, ?_⟩
      simp
  | fn n => cases h
  | const n => cases h
  | directive n => cases h

theorem of_item (hw : ∀ d ∈ S, ∃ k, WFDecl k d) {i : Item} (h : i ∈ genItems x S) :
    ∃ d ∈ S, ∃ name, declName d = some name ∧ Own S name ∧ i.id = x.pascal name ∧ i.members = memberNames x d ∧
      i.tys = (directTypes d).map genTy := by
  rcases (mem_items hw _).1 h with ⟨n, hn, rfl⟩ | ⟨n, a, as, hn, _, rfl⟩
  · exact ⟨_, hn, n.id, rfl, .inl ⟨n, hn, rfl⟩, rfl, struct_members n, struct_tys n⟩
  · exact ⟨_, hn, n.id, rfl, .inr ⟨n, hn, rfl⟩, rfl, enum_members n _ _, enum_tys n _ _⟩

/-! ### Arguments -/

theorem each_maps {α β γ : Type} {R : β → γ → Prop} (f : α → β) (g : α → γ) (as : List α) :
    Each R (as.map f) (as.map g) ↔ ∀ a ∈ as, R (f a) (g a) := by
  induction as with
  | nil => exact ⟨fun _ => by simp, fun _ => .nil⟩
  | cons a as ih =>
    constructor
    · intro h b hb
      cases h with
      | cons h1 h2 =>
        rcases List.mem_cons.1 hb with rfl | hb
        · exact h1
        · exact ih.1 h2 b hb
    · intro h
      exact .cons (h a (by simp)) (ih.2 (fun b hb => h b (by simp [hb])))

/-! ### Accepted files -/

theorem unique {F : List Item} (T : Typed L F) {i j : Item} (hi : i ∈ F) (hj : j ∈ F) (e : i.id = j.id) : i = j :=
  nodup_inj (·.id) T.once hi hj e

/-- The type of a result is declared, so its name is the right one. -/
theorem spelled_of (hw : ∀ d ∈ S, ∃ k, WFDecl k d) (N : NoAccidents x S) {id : String} (ho : Own S id) {i : Item}
    (hi : i ∈ genItems x S) (e : i.id = genName id) : x.pascal id = id ∧ ¬ IsAddress id := by
  have hm : genName id ∈ declaredNames x S := by
    rw [← items_names hw, ← e]
    exact List.mem_map_of_mem hi
  have ha : ¬ IsAddress id := by
    intro ha
    rw [genName_address ha] at hm
    exact N.address hm id ho ha
  rw [genName_other ha] at hm
  exact ⟨N.types id ho hm, ha⟩

theorem struct_facts (hw : ∀ d ∈ S, ∃ k, WFDecl k d) (N : NoAccidents x S) (T : Typed L (genItems x S)) {n : StructNode}
    (hn : .struct n ∈ S) : (x.pascal n.id = n.id ∧ ¬ IsAddress n.id) ∧ n.id ∉ memberNames x (.struct n) ∧
      ∀ f ∈ n.fields, ExprTyped L (genItems x S) (memberNames x (.struct n)) (genDefault f.typeId) (genTy f.typeId) := by
  have hm : genStruct x n ∈ genItems x S := (mem_items hw _).2 (.inl ⟨n, hn, rfl⟩)
  have hd := (T.items _ hm).default
  rw [struct_members] at hd
  generalize ev : (genStruct x n).default.value = v at hd
  generalize et : (genStruct x n).default.type = t at hd
  cases hd with
  | case => cases ev
  | caseOf => cases ev
  | @inst id fs d as h1 h2 h3 =>
    simp only [genStruct, Item.default] at et
    have hp := spelled_of hw N (.inl ⟨n, hn, rfl⟩) h1 et.symm
    have eN := genName_other hp.2
    have e := unique T h1 hm (by rw [← et, eN] at *; exact hp.1.symm)
    simp only [genStruct, Item.struct.injEq] at e
    simp only [genStruct, Item.default, New.inst.injEq] at ev
    obtain ⟨-, rfl, -⟩ := e
    obtain ⟨-, rfl⟩ := ev
    refine ⟨hp, ?_, ?_⟩
    · rwa [← et, eN] at h2
    · intro f hf
      obtain ⟨e, e1, e2⟩ := (each_maps _ _ _).1 h3 f hf
      cases e1
      exact e2

theorem enum_facts (hw : ∀ d ∈ S, ∃ k, WFDecl k d) (N : NoAccidents x S) (T : Typed L (genItems x S)) {n : EnumNode}
    (hn : .enum n ∈ S) {a : EnumItem} {as : List EnumItem} (hi : n.items = a :: as) :
    (x.pascal n.id = n.id ∧ ¬ IsAddress n.id) ∧ ¬ EmptyParens a ∧
      ∀ t ∈ defaulted (.enum n), ExprTyped L (genItems x S) (memberNames x (.enum n)) (genDefault t) (genTy t) := by
  have hm := (mem_items (x := x) hw _).2 (.inr ⟨n, a, as, hn, hi, rfl⟩)
  have hT := T.items _ hm
  have hd := hT.default
  have hnd := hT.members.1
  rw [enum_members] at hd
  simp only [Item.default] at hd
  simp only [Item.members] at hnd
  generalize ev : genEnumDefault x a = v at hd
  generalize et : genName n.id = t at hd
  cases hd with
  | inst => cases a <;> cases ev
  | @case e cs d id h1 h2 =>
    have hp := spelled_of hw N (.inr ⟨n, hn, rfl⟩) h1 et.symm
    cases a with
    | empty p id' => exact ⟨hp, by simp [EmptyParens], by simp [defaulted, hi]⟩
    | tuple => cases ev
    | struct => cases ev
  | @caseOf e cs d id ps as' h1 h2 h3 h4 =>
    have hp := spelled_of hw N (.inr ⟨n, hn, rfl⟩) h1 et.symm
    have eN := genName_other hp.2
    have e := unique T h1 hm (by rw [← et, eN] at *; exact hp.1.symm)
    simp only [Item.enum.injEq] at e
    obtain ⟨-, rfl, -⟩ := e
    have hq : id = x.camel a.id → ⟨id, ps⟩ = genCase x a := by
      intro e
      refine nodup_inj Case.id hnd h2 (List.mem_map_of_mem (mem_head hi)) ?_
      rw [case_id]
      exact e
    cases a with
    | empty => cases ev
    | tuple p id' vs =>
      simp only [genEnumDefault, New.caseOf.injEq] at ev
      obtain ⟨rfl, rfl⟩ := ev
      have := hq rfl
      simp only [genCase, Case.mk.injEq] at this
      obtain ⟨-, rfl⟩ := this
      refine ⟨hp, ?_, ?_⟩
      · cases vs with
        | nil => exact absurd rfl h3
        | cons => simp [EmptyParens]
      · simp only [defaulted, hi]
        intro t ht
        obtain ⟨v, hv, rfl⟩ := List.mem_map.1 ht
        obtain ⟨e, e1, e2⟩ := (each_maps _ _ _).1 h4 v hv
        cases e1
        exact e2
    | struct p id' vs =>
      simp only [genEnumDefault, New.caseOf.injEq] at ev
      obtain ⟨rfl, rfl⟩ := ev
      have := hq rfl
      simp only [genCase, Case.mk.injEq] at this
      obtain ⟨-, rfl⟩ := this
      refine ⟨hp, ?_, ?_⟩
      · cases vs with
        | nil => exact absurd rfl h3
        | cons => simp [EmptyParens]
      · simp only [defaulted, hi]
        intro t ht
        obtain ⟨v, hv, rfl⟩ := List.mem_map.1 ht
        obtain ⟨e, e1, e2⟩ := (each_maps _ _ _).1 h4 v hv
        cases e1
        exact e2

theorem own_decl {id : String} (h : Own S id) : ∃ d ∈ S, declName d = some id := by
  rcases h with ⟨n, hn, rfl⟩ | ⟨n, hn, rfl⟩
  · exact ⟨_, hn, rfl⟩
  · exact ⟨_, hn, rfl⟩

theorem fit_of_typed (hw : ∀ d ∈ S, ∃ k, WFDecl k d) (hL : L.Std) (N : NoAccidents x S) (T : Typed L (genItems x S)) :
    Fit L x S := by
  have hD := items_names (x := x) hw
  have hname {d t} (h : t ∈ directTypes d) : ∃ name, declName d = some name := by
    cases d <;> first | exact ⟨_, rfl⟩ | simp [directTypes] at h
  have hexist : ∀ d ∈ S, ∀ t ∈ directTypes d, TypeExists L (declaredNames x S) t := by
    intro d hd t ht
    refine (typeOk_iff hL _ (direct_wf hw hd ht)).1 ?_
    rw [← hD]
    obtain ⟨name, hm⟩ := hname ht
    obtain ⟨i, hi, -, -, h3, -⟩ := item_of (x := x) hw hd hm
    exact (T.items i hi).tys _ (h3 ▸ List.mem_map_of_mem ht)
  have hne {n : EnumNode} (hn : .enum n ∈ S) : ∃ a as, n.items = a :: as := by
    obtain ⟨k, hk⟩ := hw _ hn
    cases e : n.items with
    | nil => exact absurd e hk.1
    | cons a as => exact ⟨a, as, rfl⟩
  have hs : ∀ id, Own S id → x.pascal id = id ∧ ¬ IsAddress id := by
    rintro id (⟨n, hn, rfl⟩ | ⟨n, hn, rfl⟩)
    · exact (struct_facts hw N T hn).1
    · obtain ⟨a, as, hi⟩ := hne hn
      exact (enum_facts hw N T hn hi).1
  refine ⟨hD ▸ T.once, ?_, ?_, ?_, hexist, hs, ?_, ?_, ?_, ?_⟩
  · intro m hm
    rw [← hD] at hm
    obtain ⟨i, hi, rfl⟩ := List.mem_map.1 hm
    exact (T.items i hi).name
  · intro d hd
    cases hm : declName d with
    | none => cases d <;> simp [declName] at hm <;> simp [memberNames]
    | some name =>
      obtain ⟨i, hi, -, h2, -, -⟩ := item_of (x := x) hw hd hm
      rw [← h2]
      exact (T.items i hi).members
  · intro n hn v hv
    obtain ⟨a, as, e⟩ := hne hn
    have hm := (mem_items (x := x) hw _).2 (.inr ⟨n, a, as, hn, e, rfl⟩)
    refine (T.items _ hm).cases _ _ _ rfl _ ?_
    rw [enum_members]
    exact List.mem_map.2 ⟨v, hv, rfl⟩
  · intro n hn
    exact (struct_facts hw N T hn).2.1
  · intro n hn i hi
    obtain ⟨a, as, e⟩ := hne hn
    rw [e] at hi
    simp only [List.head?_cons, Option.mem_def, Option.some.injEq] at hi
    subst hi
    exact (enum_facts hw N T hn e).2.1
  · intro d hd t ht
    refine (default_iff hw hs _ (direct_wf hw hd (defaulted_direct ht)) hL (hexist d hd t (defaulted_direct ht))).1 ?_
    cases d with
    | struct n =>
      obtain ⟨f, hf, rfl⟩ := List.mem_map.1 ht
      exact (struct_facts hw N T hd).2.2 f hf
    | enum n =>
      obtain ⟨a, as, e⟩ := hne hd
      exact (enum_facts hw N T hd e).2.2 t ht
    | fn n => simp [defaulted] at ht
    | const n => simp [defaulted] at ht
    | directive n => simp [defaulted] at ht
  · obtain ⟨rank, hr⟩ := T.sized
    refine ⟨rank, fun d hd name hm t ht id hc hid => ?_⟩
    obtain ⟨i, hi, h1, -, h3, -⟩ := item_of (x := x) hw hd hm
    have ho : Own S name := by
      cases d with
      | struct n => cases hm; exact .inl ⟨n, hd, rfl⟩
      | enum n => cases hm; exact .inr ⟨n, hd, rfl⟩
      | fn n => cases hm
      | const n => cases hm
      | directive n => cases hm
    have := hr i hi (genTy t) (h3 ▸ List.mem_map_of_mem ht) id ((contains_iff (direct_wf hw hd ht) id).2 hc) (hD.symm ▸ hid)
    rwa [h1, (hs name ho).1] at this

theorem typed_of_fit (hw : ∀ d ∈ S, ∃ k, WFDecl k d) (hL : L.Std) (T : Fit L x S) : Typed L (genItems x S) := by
  have hD := items_names (x := x) hw
  have hdef {d t} (hd : d ∈ S) (ht : t ∈ defaulted d) :
      ExprTyped L (genItems x S) (memberNames x d) (genDefault t) (genTy t) :=
    (default_iff hw T.spelled _ (direct_wf hw hd (defaulted_direct ht)) hL (T.exist d hd t (defaulted_direct ht))).2
      (T.defaults d hd t ht)
  refine ⟨hD.symm ▸ T.once, ?_, ?_⟩
  · intro i hi
    obtain ⟨d, hd, name, hn, ho, e1, e2, e3⟩ := of_item hw hi
    refine ⟨T.names _ (hD ▸ List.mem_map_of_mem hi), ?_, ?_, ?_, ?_⟩
    · rw [e2]
      exact T.members d hd
    · rintro id cs dd rfl m hm
      rcases (mem_items hw _).1 hi with ⟨n, hn', e⟩ | ⟨n, a, as, hn', _, e⟩
      · cases e
      · rw [e, enum_members] at hm
        obtain ⟨v, hv, rfl⟩ := List.mem_map.1 hm
        exact T.cases n hn' v hv
    · rw [e3]
      intro t ht
      obtain ⟨t, ht', rfl⟩ := List.mem_map.1 ht
      rw [hD]
      exact (typeOk_iff hL _ (direct_wf hw hd ht')).2 (T.exist d hd t ht')
    · rcases (mem_items hw _).1 hi with ⟨n, hn', rfl⟩ | ⟨n, a, as, hn', e, rfl⟩
      · obtain ⟨hp, ha⟩ := T.spelled n.id (.inl ⟨n, hn', rfl⟩)
        have eN := genName_other ha
        have hm := hi
        rw [struct_members]
        simp only [genStruct, hp, eN] at hm
        simp only [genStruct, Item.default, eN]
        refine .inst hm (T.hidden n hn') ((each_maps _ _ _).2 fun f hf => ⟨_, rfl, hdef hn' (List.mem_map.2 ⟨f, hf, rfl⟩)⟩)
      · obtain ⟨hp, ha⟩ := T.spelled n.id (.inr ⟨n, hn', rfl⟩)
        have eN := genName_other ha
        have hpar := T.parens n hn' a (by simp [e])
        have hc : genCase x a ∈ n.items.map (genCase x) := List.mem_map_of_mem (mem_head e)
        have hm := hi
        rw [hp, eN] at hm
        rw [enum_members]
        simp only [Item.default, eN]
        cases a with
        | empty p id => exact .case hm hc
        | tuple p id vs =>
          refine .caseOf hm hc ?_ ((each_maps _ _ _).2 fun v hv => ⟨_, rfl, hdef hn' ?_⟩)
          · cases vs with
            | nil => exact absurd trivial hpar
            | cons => simp
          · simp only [defaulted, e]
            exact List.mem_map.2 ⟨v, hv, rfl⟩
        | struct p id vs =>
          refine .caseOf hm hc ?_ ((each_maps _ _ _).2 fun v hv => ⟨_, rfl, hdef hn' ?_⟩)
          · cases vs with
            | nil => exact absurd trivial hpar
            | cons => simp
          · simp only [defaulted, e]
            exact List.mem_map.2 ⟨v, hv, rfl⟩
  · obtain ⟨rank, hr⟩ := T.sized
    refine ⟨rank, fun i hi t ht id hc hid => ?_⟩
    obtain ⟨d, hd, name, hn, ho, e1, -, e3⟩ := of_item hw hi
    rw [e3] at ht
    obtain ⟨t, ht', rfl⟩ := List.mem_map.1 ht
    rw [e1, (T.spelled name ho).1]
    exact hr d hd name hn t ht' id ((contains_iff (direct_wf hw hd ht') id).1 hc) (hD ▸ hid)

/-- The emitted declarations are accepted exactly for schemas that fit. -/
theorem typed_iff (hw : ∀ d ∈ S, ∃ k, WFDecl k d) (hL : L.Std) (N : NoAccidents x S) :
    Typed L (genItems x S) ↔ Fit L x S :=
  ⟨fit_of_typed hw hL N, typed_of_fit hw hL⟩

end TPB.SwiftTyping
