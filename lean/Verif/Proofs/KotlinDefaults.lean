/-
What `createDefault` of the emitted Kotlin models computes.
-/
import Verif.Proofs.KotlinTyping
import Verif.Proofs.MobileDefaults
namespace TPB.KotlinDefaults
open Spec Spec.Kotlin TPB.Kotlin TPB.KotlinTyping TPB.MobileDefaults

variable {x : ExtF} {L : KotlinLib} {S : List ASTNode}

theorem find_unique {β : Type} {F : List Item} (h : (F.map (·.id)).Nodup) {f : Item → Option β} {i : Item} {b : β} (hi : i ∈ F)
    (hb : f i = some b) (hf : ∀ j c, f j = some c → j.id = i.id) : F.findSome? f = some b := by
  cases e : F.findSome? f with
  | none =>
    have := List.findSome?_eq_none_iff.1 e i hi
    rw [hb] at this
    cases this
  | some c =>
    obtain ⟨j, hj, hc⟩ := List.exists_of_findSome?_eq_some e
    have := nodup_inj (·.id) h hj hi (hf j c hc)
    subst this
    rw [← hc, hb]

theorem name_id (F : List Item) : F.map Item.name = F.map (·.id) := List.map_congr_left (fun i _ => by cases i <;> rfl)

theorem own_declared (T : Fit L x S) {id : String} (h : id ∈ typeNames S) : id ∈ declaredNames x S := by
  simp only [declaredNames, List.mem_flatMap]
  rcases own_iff.2 h with ⟨n, hn, rfl⟩ | ⟨n, hn, rfl⟩
  · exact ⟨_, hn, by simp [T.structs n hn]⟩
  · exact ⟨_, hn, by simp⟩

theorem builtin_zero (F : List Item) (r : String → Except Halt MVal) {t : TypeId} {k : String} (h : BuiltinName kotlinNames t k)
    (hc : ∀ n, t ≠ .char n) : evalExpr F r (genDefault t) = zeroOf S r t := by
  obtain ⟨n, v, rfl, hn, hk⟩ := h
  simp only [builtinMeanings, List.mem_cons, List.not_mem_nil, or_false, Prod.mk.injEq] at hn
  rcases hn with ⟨rfl, rfl⟩ | ⟨rfl, rfl⟩ | ⟨rfl, rfl⟩ | ⟨rfl, rfl⟩ | ⟨rfl, rfl⟩ | ⟨rfl, rfl⟩ | ⟨rfl, rfl⟩ | ⟨rfl, rfl⟩ |
    ⟨rfl, rfl⟩ | ⟨rfl, rfl⟩ <;> simp [typeOfName, builtinTypes, List.lookup] at hc ⊢ <;>
    simp [genDefault, intZero, evalExpr, literalVal, zeroOf]

theorem default_zero (hw : ∀ d ∈ S, ∃ k, WFDecl k d) (T : Fit L x S) (r : String → Except Halt MVal) {t : TypeId}
    (he : TypeExists L (declaredNames x S) t) (h : HasDefault L S (declaredNames x S) t) :
    evalExpr (genItems x S) r (genDefault t) = zeroOf S r t := by
  have hD := items_names (x := x) hw
  cases h with
  | builtin h hc => exact builtin_zero _ r h hc
  | string h =>
    rw [default_other, if_pos rfl, zeroOf, if_neg (fun h' => h (own_declared T h')), if_pos rfl]
    simp [evalExpr, literalVal]
  | own h1 h2 h3 h4 =>
    have h4 := own_iff.1 h4
    rw [default_other, if_neg h3, if_neg h2, zeroOf, if_pos h4, evalExpr, name_id, hD, if_pos (own_declared T h4)]
  | lib h1 h2 h3 h4 h5 =>
    rw [default_other, if_neg h3, if_neg h2, zeroOf, if_neg (fun h' => h4 (own_declared T h')), if_neg h3, if_neg h2, evalExpr,
      name_id, hD, if_neg h4]
  | list h => rw [default_generic, if_pos rfl, zeroOf, if_pos rfl]; rfl
  | @generic c ts h1 h2 =>
    have : c ∉ declaredNames x S := by
      generalize e : TypeId.generic c ts = u at he
      cases he with
      | builtin h => exact absurd e.symm ((builtin_shape h).2 _ _)
      | list => cases e; exact absurd rfl h1
      | generic _ h => cases e; exact h
      | _ => cases e
    rw [default_generic, if_neg h1, zeroOf, if_neg h1, evalExpr, name_id, hD, if_neg this]

theorem args_zeros {F : List Item} {r : String → Except Halt MVal} {α : Type} (name : α → Option String) (ty : α → TypeId) (as : List α)
    (h : ∀ a ∈ as, evalExpr F r (genDefault (ty a)) = zeroOf S r (ty a)) :
    evalArgs F r (as.map (fun a => (name a, genDefault (ty a)))) = (zeroVals S r (as.map ty)).map (fun vs => (as.map name).zip vs) := by
  induction as with
  | nil => rfl
  | cons a as ih =>
    simp only [List.map_cons, evalArgs, zeroVals]
    rw [h a (by simp)]
    cases zeroOf S r (ty a) with
    | error e => rfl
    | ok v =>
      simp only
      rw [ih (fun b hb => h b (by simp [hb]))]
      cases zeroVals S r (as.map ty) with
      | error e => rfl
      | ok vs => rfl

/-! ### Arguments -/

theorem lookup_zip {ps : List String} {vs : List MVal} (h : ps.Nodup) {p : String} {v : MVal} (hm : (p, v) ∈ ps.zip vs) :
    ((ps.map some).zip vs).lookup (some p) = some v := by
  induction ps generalizing vs with
  | nil => simp at hm
  | cons q ps ih =>
    cases vs with
    | nil => simp at hm
    | cons w vs =>
      simp only [List.nodup_cons] at h
      simp only [List.zip_cons_cons, List.mem_cons, Prod.mk.injEq] at hm
      simp only [List.map_cons, List.zip_cons_cons, List.lookup_cons]
      rcases hm with ⟨rfl, rfl⟩ | hm
      · simp
      · have : (p == q) = false := by
          rw [beq_eq_false_iff_ne]
          rintro rfl
          exact h.1 (List.of_mem_zip hm).1
        simp [this, ih h.2 hm]

theorem byName_eq {as : List (Option String × MVal)} {ps : List String} {vs : List MVal} (hl : vs.length = ps.length)
    (h : ∀ p v, (p, v) ∈ ps.zip vs → as.lookup (some p) = some v) : byName ps as = some (ps.zip vs) := by
  induction ps generalizing vs with
  | nil => simp [byName]
  | cons p ps ih =>
    cases vs with
    | nil => simp at hl
    | cons v vs =>
      simp only [byName, h p v (by simp), ih (by simpa using hl) (fun q w hq => h q w (by simp [hq]))]
      rfl

theorem bind_named {ps : List String} {vs : List MVal} (h : ps.Nodup) (hl : vs.length = ps.length) :
    bindArgs ps ((ps.map some).zip vs) = some (ps.zip vs) := by
  rw [bindArgs, if_neg (by simp [hl])]
  split
  · cases ps with
    | nil => simp
    | cons p ps =>
      cases vs with
      | nil => simp at hl
      | cons v vs => simp at *
  · exact byName_eq hl (fun p v hp => lookup_zip h hp)

theorem bind_positional {ps : List String} {vs : List MVal} {α : Type} (as : List α) (hl : vs.length = ps.length)
    (ha : as.length = ps.length) : bindArgs ps ((as.map (fun _ => none)).zip vs) = some (ps.zip vs) := by
  have hm : (((as.map (fun _ => (none : Option String))).zip vs).map (·.2)) = vs := List.map_snd_zip (by simp [hl, ha])
  rw [bindArgs, if_neg (by simp [hl, ha]), if_pos, hm]
  rw [List.all_eq_true]
  rintro ⟨a, b⟩ h
  obtain ⟨c, _, rfl⟩ := List.mem_map.1 (List.of_mem_zip h).1
  rfl

theorem tuple_params (j : Nat) (vs : List TupleField) :
    (genTuple j vs).map (·.1) = (List.range' j vs.length).map (fun i => "p" ++ toString i) := by
  induction vs generalizing j with
  | nil => rfl
  | cons v vs ih => simp only [genTuple, List.map_cons, ih, List.length_cons, List.range'_succ]

/-! ### Lookups -/

theorem companion_found {F : List Item} (hn : (F.map (·.id)).Nodup) {id : String} {c : Companion} (h : HasCompanion F id c) :
    findCompanion F id = some c := by
  rcases h with h | ⟨b, ps, s, h⟩
  · refine find_unique hn h (by simp) (fun j c' hc => ?_)
    cases j <;> simp only [] at hc
    · split at hc <;> simp_all [Item.id]
    · cases hc
    · split at hc <;> simp_all [Item.id]
  · refine find_unique hn h (by simp) (fun j c' hc => ?_)
    cases j <;> simp only [] at hc
    · split at hc <;> simp_all [Item.id]
    · cases hc
    · split at hc <;> simp_all [Item.id]

theorem params_found {F : List Item} (hn : (F.map (·.id)).Nodup) {id : String} {b ps s c} (h : Item.cls id b ps s c ∈ F) :
    findParams F id = some (ps.map (·.1)) := by
  refine find_unique hn h (by simp) (fun j c' hc => ?_)
  cases j <;> simp only [] at hc
  · cases hc
  · cases hc
  · split at hc <;> simp_all [Item.id]

theorem object_found {F : List Item} {id s : String} (h : Item.object id s ∈ F) : isObject F id = true := by
  simp only [isObject, List.any_eq_true]
  exact ⟨_, h, by simp⟩

/-! ### `createDefault` -/

theorem struct_create (hw : ∀ d ∈ S, ∃ k, WFDecl k d) (T : Fit L x S) (k : Nat) {n : StructNode} (hn : .struct n ∈ S) :
    create (genItems x S) (k + 1) n.id =
      (zeroVals S (create (genItems x S) k) (n.fields.map (·.typeId))).map ((kotlinMakes x).struct n) := by
  have hD := items_names (x := x) hw
  have hnd : ((genItems x S).map (·.id)).Nodup := by rw [hD]; exact T.once
  have hm : genStruct x n ∈ genItems x S := (mem_items hw _).2 (.inl ⟨n, hn, rfl⟩)
  rw [genStruct, T.structs n hn] at hm
  have hty {f : StructField} (hf : f ∈ n.fields) : f.typeId ∈ defaulted (.struct n) := List.mem_map_of_mem hf
  rw [create, companion_found hnd (.inr ⟨_, _, _, hm⟩)]
  simp only [evalNew, params_found hnd hm, List.map_map, Function.comp_def]
  rw [genNamedArgs, args_zeros (S := S) (fun f : StructField => some (x.camel f.name)) (·.typeId) n.fields
    (fun f hf => default_zero hw T _ (T.exist _ hn _ (defaulted_direct (hty hf))) (T.defaults _ hn _ (hty hf)))]
  cases e : zeroVals S (create (genItems x S) k) (n.fields.map (·.typeId)) with
  | error e => rfl
  | ok vs =>
    have hl := zeroVals_length e
    simp only [Except.map]
    rw [show n.fields.map (fun f => some (x.camel f.name)) = (n.fields.map (fun f => x.camel f.name)).map some by simp,
      bind_named (T.fields n hn).1 (by simpa using hl)]
    rfl

theorem enum_create (hw : ∀ d ∈ S, ∃ k, WFDecl k d) (T : Fit L x S) (k : Nat) {n : EnumNode} {i : EnumItem} (hn : .enum n ∈ S)
    (hi : i ∈ n.items.head?) : create (genItems x S) (k + 1) n.id =
      (zeroVals S (create (genItems x S) k) ((payload i).map (·.2))).map ((kotlinMakes x).enum n i) := by
  have hD := items_names (x := x) hw
  have hnd : ((genItems x S).map (·.id)).Nodup := by rw [hD]; exact T.once
  have hdef {t} (ht : t ∈ (payload i).map (·.2)) :
      evalExpr (genItems x S) (create (genItems x S) k) (genDefault t) = zeroOf S (create (genItems x S) k) t := by
    rw [payload_defaulted hi] at ht
    exact default_zero hw T _ (T.exist _ hn _ (defaulted_direct ht)) (T.defaults _ hn _ ht)
  obtain ⟨as, e⟩ : ∃ as, n.items = i :: as := by
    cases e : n.items with
    | nil => simp [e] at hi
    | cons a as => simp [e] at hi; subst hi; exact ⟨as, rfl⟩
  have hI := (mem_items (x := x) hw _).2 (.inr ⟨n, i, as, hn, e, .inl rfl⟩)
  have hc : genCase x n.id i ∈ genItems x S := (mem_items hw _).2 (.inr ⟨n, i, as, hn, e, .inr ⟨i, mem_head e, rfl⟩⟩)
  obtain ⟨hp, hf⟩ := T.firsts n hn i hi
  rw [create, companion_found hnd (.inl hI)]
  cases i with
  | empty p id =>
    simp only [EnumItem.id] at hp
    simp only [genCase, hp] at hc
    simp only [genEnumDefault, evalNew, object_found hc]
    rfl
  | tuple p id vs =>
    simp only [EnumItem.id] at hp
    simp only [genCase, hp] at hc
    have e2 := payload_types (.tuple p id vs)
    simp only at e2
    rw [e2] at hdef ⊢
    simp only [genEnumDefault, evalNew, params_found hnd hc]
    rw [args_zeros (S := S) (fun _ : TupleField => none) (·.typeId) vs (fun f hf => hdef (List.mem_map_of_mem hf))]
    cases e : zeroVals S (create (genItems x S) k) (vs.map (·.typeId)) with
    | error e => rfl
    | ok ws =>
      have hl := zeroVals_length e
      simp only [Except.map]
      rw [tuple_params, bind_positional vs (by simpa using hl) (by simp)]
      simp [kotlinMakes, List.range_eq_range']
  | struct p id fs =>
    simp only [EnumItem.id] at hp
    simp only [genCase, hp] at hc
    have e2 := payload_types (.struct p id fs)
    simp only at e2
    rw [e2] at hdef ⊢
    simp only [genEnumDefault, evalNew, params_found hnd hc, List.map_map, Function.comp_def]
    rw [genNamedArgs, args_zeros (S := S) (fun f : StructField => some (x.camel f.name)) (·.typeId) fs
      (fun f hf => hdef (List.mem_map_of_mem hf))]
    cases e' : zeroVals S (create (genItems x S) k) (fs.map (·.typeId)) with
    | error e => rfl
    | ok ws =>
      have hl := zeroVals_length e'
      simp only [Except.map]
      rw [show fs.map (fun f => some (x.camel f.name)) = (fs.map (·.name)).map some by
        rw [List.map_map]; exact List.map_congr_left (fun f hf' => by rw [hf p id fs rfl f hf']; rfl),
        bind_named (T.variantFields n hn p id fs (by rw [e]; simp)).1 (by simpa using hl)]
      rfl

theorem runs (hw : ∀ d ∈ S, ∃ k, WFDecl k d) (T : Fit L x S) : Runs (kotlinMakes x) S (create (genItems x S)) where
  zero id := rfl
  struct k n hn := struct_create hw T k hn
  enum k n i hn hi := enum_create hw T k hn hi
  safe d hd id h := by
    have := T.defaults d hd _ h
    generalize e : TypeId.other id = t at this
    cases this with
    | builtin h => exact absurd e.symm ((builtin_shape h).1 _)
    | string => cases e; exact .inr (by simp [IsAddress])
    | own h => cases e; exact .inr h
    | lib h => cases e; exact .inr h
    | _ => cases e
  once := by
    have h := T.once
    have hs : List.Sublist (typeNames S) (declaredNames x S) := by
      have hst := T.structs
      clear h hw T
      induction S with
      | nil => exact List.Sublist.refl _
      | cons d S ih =>
        have ih := ih (fun n hn => hst n (by simp [hn]))
        cases d with
        | struct n =>
          simp only [typeNames, declaredNames, List.filterMap_cons, List.flatMap_cons] at ih ⊢
          rw [hst n (by simp)]
          exact ih.cons_cons _
        | enum n =>
          simp only [typeNames, declaredNames, List.filterMap_cons, List.flatMap_cons] at ih ⊢
          exact (ih.trans (List.sublist_append_right _ _)).cons_cons _
        | _ => simpa only [typeNames, declaredNames, List.filterMap_cons, List.flatMap_cons, List.nil_append] using ih
    exact hs.nodup h
  head n hn := by
    obtain ⟨k, hk⟩ := hw _ hn
    cases h : n.items with
    | nil => exact absurd h hk.1
    | cons a as => exact ⟨a, rfl⟩

end TPB.KotlinDefaults
