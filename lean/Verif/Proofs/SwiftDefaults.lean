/-
What `createDefault` of the emitted Swift models computes.
-/
import Verif.Proofs.SwiftTyping
import Verif.Proofs.MobileDefaults
namespace TPB.SwiftDefaults
open Spec Spec.Swift TPB.Swift TPB.SwiftTyping TPB.MobileDefaults

variable {x : ExtF} {L : SwiftLib} {S : List ASTNode}

theorem item_found {F : List Item} (h : (F.map (·.id)).Nodup) {i : Item} (hi : i ∈ F) : findItem F i.id = some i := by
  unfold findItem
  cases e : F.find? (fun j => decide (j.name = i.id)) with
  | none =>
    have := List.find?_eq_none.1 e i hi
    cases i <;> simp [Item.name, Item.id] at this
  | some j =>
    have h1 := List.find?_some e
    have h2 := List.mem_of_find?_eq_some e
    have : j.name = j.id := by cases j <;> rfl
    rw [KotlinTyping.nodup_inj (·.id) h h2 hi (by simpa [this] using h1)]

theorem name_id (F : List Item) : F.map Item.name = F.map (·.id) := List.map_congr_left (fun i _ => by cases i <;> rfl)

theorem own_declared (T : Fit L x S) {id : String} (h : id ∈ typeNames S) : id ∈ declaredNames x S := by
  have := (T.spelled id (own_iff.2 h)).1
  rw [← this]
  exact List.mem_map_of_mem h

theorem builtin_zero (F : List Item) (r : String → Except Halt MVal) {t : TypeId} {k : String} (h : BuiltinName swiftNames t k)
    (hc : ∀ n, t ≠ .char n) : evalExpr F r (genDefault t) = zeroOf S r t := by
  obtain ⟨n, v, rfl, hn, hk⟩ := h
  simp only [builtinMeanings, List.mem_cons, List.not_mem_nil, or_false, Prod.mk.injEq] at hn
  rcases hn with ⟨rfl, rfl⟩ | ⟨rfl, rfl⟩ | ⟨rfl, rfl⟩ | ⟨rfl, rfl⟩ | ⟨rfl, rfl⟩ | ⟨rfl, rfl⟩ | ⟨rfl, rfl⟩ | ⟨rfl, rfl⟩ |
    ⟨rfl, rfl⟩ | ⟨rfl, rfl⟩ <;> simp [typeOfName, builtinTypes, List.lookup] at hc ⊢ <;>
    simp [genDefault, evalExpr, literalVal, zeroOf]

theorem default_zero (hw : ∀ d ∈ S, ∃ k, WFDecl k d) (T : Fit L x S) (H : List String) (r : String → Except Halt MVal) {t : TypeId}
    (he : TypeExists L (declaredNames x S) t) (h : HasDefault L S (declaredNames x S) H t) :
    evalExpr (genItems x S) r (genDefault t) = zeroOf S r t := by
  have hD := items_names (x := x) hw
  cases h with
  | builtin h hc => exact builtin_zero _ r h hc
  | char => simp [genDefault, evalExpr, literalVal, zeroOf]
  | string h =>
    rw [default_other, if_pos rfl, zeroOf, if_neg (fun h' => h (own_declared T h')), if_pos rfl]
    simp [evalExpr, literalVal]
  | vec h =>
    rw [default_other, if_neg (by simp), if_pos rfl, zeroOf, if_neg (fun h' => h (own_declared T h')), if_neg (by simp), if_pos rfl]
    rfl
  | own h1 h2 h3 h5 h4 =>
    have h4 := own_iff.1 h4
    rw [default_other, if_neg h3, if_neg h2, zeroOf, if_pos h4, evalExpr, name_id, hD, if_pos (own_declared T h4)]
  | lib h1 h2 h3 h5 h4 =>
    rw [default_other, if_neg h3, if_neg h2, zeroOf, if_neg (fun h' => h4 (own_declared T h')), if_neg h3, if_neg h2, evalExpr,
      name_id, hD, if_neg h4]
  | list => rw [default_generic, if_pos rfl, zeroOf, if_pos rfl]; rfl
  | @generic c ts h1 h2 =>
    have : c ∉ declaredNames x S := by
      generalize e : TypeId.generic c ts = u at he
      cases he with
      | builtin h => exact absurd e.symm ((builtin_shape h).2 _ _)
      | list => cases e; exact absurd rfl h1
      | generic _ h => cases e; exact h
      | _ => cases e
    rw [default_generic, if_neg h1, zeroOf, if_neg h1, evalExpr, name_id, hD, if_neg this]

theorem args_zeros {F : List Item} {r : String → Except Halt MVal} {α : Type} (arg : α → Arg) (ty : α → TypeId) (as : List α)
    (ha : ∀ a, (arg a).split.2 = genDefault (ty a)) (h : ∀ a ∈ as, evalExpr F r (genDefault (ty a)) = zeroOf S r (ty a)) :
    evalArgs F r (as.map arg) = (zeroVals S r (as.map ty)).map (fun vs => (as.map (fun a => (arg a).split.1)).zip vs) := by
  induction as with
  | nil => rfl
  | cons a as ih =>
    simp only [List.map_cons, evalArgs, zeroVals]
    rw [ha a, h a (by simp)]
    cases zeroOf S r (ty a) with
    | error e => rfl
    | ok v =>
      simp only
      rw [ih (fun b hb => h b (by simp [hb]))]
      cases zeroVals S r (as.map ty) with
      | error e => rfl
      | ok vs => rfl

/-! ### `createDefault` -/

theorem struct_create (hw : ∀ d ∈ S, ∃ k, WFDecl k d) (T : Fit L x S) (k : Nat) {n : StructNode} (hn : .struct n ∈ S) :
    create (genItems x S) (k + 1) n.id =
      (zeroVals S (create (genItems x S) k) (n.fields.map (·.typeId))).map ((swiftMakes x).struct n) := by
  have hD := items_names (x := x) hw
  have hnd : ((genItems x S).map (·.id)).Nodup := by rw [hD]; exact T.once
  obtain ⟨hp, ha⟩ := T.spelled n.id (.inl ⟨n, hn, rfl⟩)
  have hm : genStruct x n ∈ genItems x S := (mem_items hw _).2 (.inl ⟨n, hn, rfl⟩)
  rw [genStruct, hp, genName_other ha] at hm
  have hty {f : StructField} (hf : f ∈ n.fields) : f.typeId ∈ defaulted (.struct n) := List.mem_map_of_mem hf
  have hF := item_found hnd hm
  simp only [Item.id] at hF
  rw [create, hF]
  simp only [Item.def, evalNew, hF, List.map_map, Function.comp_def]
  rw [args_zeros (S := S) (fun f : StructField => Arg.labelled (x.camel f.name) (genDefault f.typeId)) (·.typeId) n.fields (fun _ => rfl)
    (fun f hf => default_zero hw T _ _ (T.exist _ hn _ (KotlinTyping.defaulted_direct (hty hf))) (T.defaults _ hn _ (hty hf)))]
  cases e : zeroVals S (create (genItems x S) k) (n.fields.map (·.typeId)) with
  | error e => rfl
  | ok vs =>
    have hl := zeroVals_length e
    simp only [List.length_map] at hl
    simp only [Except.map, Arg.split]
    rw [List.map_fst_zip (by simp [hl]), List.map_snd_zip (by simp [hl]), if_pos rfl]
    rfl

theorem enum_create (hw : ∀ d ∈ S, ∃ k, WFDecl k d) (T : Fit L x S) (k : Nat) {n : EnumNode} {i : EnumItem} (hn : .enum n ∈ S)
    (hi : i ∈ n.items.head?) : create (genItems x S) (k + 1) n.id =
      (zeroVals S (create (genItems x S) k) ((payload i).map (·.2))).map ((swiftMakes x).enum n i) := by
  have hD := items_names (x := x) hw
  have hnd : ((genItems x S).map (·.id)).Nodup := by rw [hD]; exact T.once
  obtain ⟨hp, ha⟩ := T.spelled n.id (.inr ⟨n, hn, rfl⟩)
  have hdef {t} (ht : t ∈ (payload i).map (·.2)) :
      evalExpr (genItems x S) (create (genItems x S) k) (genDefault t) = zeroOf S (create (genItems x S) k) t := by
    rw [payload_defaulted hi] at ht
    exact default_zero hw T _ _ (T.exist _ hn _ (KotlinTyping.defaulted_direct ht)) (T.defaults _ hn _ ht)
  obtain ⟨as, e⟩ : ∃ as, n.items = i :: as := by
    cases e : n.items with
    | nil => simp [e] at hi
    | cons a as => simp [e] at hi; subst hi; exact ⟨as, rfl⟩
  have hm := (mem_items (x := x) hw _).2 (.inr ⟨n, i, as, hn, e, rfl⟩)
  rw [hp, genName_other ha] at hm
  have hF := item_found hnd hm
  simp only [Item.id] at hF
  have hE := T.parens n hn i hi
  rw [create, hF]
  cases i with
  | empty p id =>
    simp only [Item.def, genEnumDefault, evalNew, hF]
    rw [if_pos (by simp [e, genCase])]
    rfl
  | tuple p id vs =>
    have e2 := KotlinTyping.payload_types (.tuple p id vs)
    simp only at e2
    rw [e2] at hdef ⊢
    simp only [Item.def, genEnumDefault, evalNew, hF]
    rw [args_zeros (S := S) (fun v : TupleField => Arg.plain (genDefault v.typeId)) (·.typeId) vs (fun _ => rfl)
      (fun f hf => hdef (List.mem_map_of_mem hf))]
    cases e' : zeroVals S (create (genItems x S) k) (vs.map (·.typeId)) with
    | error e => rfl
    | ok ws =>
      have hl := zeroVals_length e'
      simp only [List.length_map] at hl
      simp only [Except.map, Arg.split]
      rw [List.map_snd_zip (by simp [hl]), if_pos]
      · rfl
      · have h1 : vs ≠ [] := by rintro rfl; exact hE trivial
        have h2 : ∀ a ∈ (vs.map (fun _ => (none : Option String))).zip ws, a.1.isNone = true := by
          rintro ⟨a, b⟩ h
          obtain ⟨c, _, rfl⟩ := List.mem_map.1 (List.of_mem_zip h).1
          rfl
        rw [Bool.and_eq_true, List.all_eq_true]
        refine ⟨?_, h2⟩
        simp [e, genCase, hl, h1]
  | struct p id vs =>
    have e2 := KotlinTyping.payload_types (.struct p id vs)
    simp only at e2
    rw [e2] at hdef ⊢
    simp only [Item.def, genEnumDefault, evalNew, hF]
    rw [args_zeros (S := S) (fun v : StructField => Arg.commented (x.camel v.name) (genDefault v.typeId)) (·.typeId) vs (fun _ => rfl)
      (fun f hf => hdef (List.mem_map_of_mem hf))]
    cases e' : zeroVals S (create (genItems x S) k) (vs.map (·.typeId)) with
    | error e => rfl
    | ok ws =>
      have hl := zeroVals_length e'
      simp only [List.length_map] at hl
      simp only [Except.map, Arg.split]
      rw [List.map_snd_zip (by simp [hl]), if_pos]
      · rfl
      · have h1 : vs ≠ [] := by rintro rfl; exact hE trivial
        have h2 : ∀ a ∈ (vs.map (fun _ => (none : Option String))).zip ws, a.1.isNone = true := by
          rintro ⟨a, b⟩ h
          obtain ⟨c, _, rfl⟩ := List.mem_map.1 (List.of_mem_zip h).1
          rfl
        rw [Bool.and_eq_true, List.all_eq_true]
        refine ⟨?_, h2⟩
        simp [e, genCase, hl, h1]

theorem runs (hw : ∀ d ∈ S, ∃ k, WFDecl k d) (T : Fit L x S) : Runs (swiftMakes x) S (create (genItems x S)) where
  zero id := rfl
  struct k n hn := struct_create hw T k hn
  enum k n i hn hi := enum_create hw T k hn hi
  safe d hd id h := by
    have := T.defaults d hd _ h
    generalize e : TypeId.other id = t at this
    cases this with
    | builtin h => exact absurd e.symm ((builtin_shape h).1 _)
    | string => cases e; exact .inr (by simp [IsAddress])
    | vec => cases e; exact .inr (by simp [IsAddress])
    | own h => cases e; exact .inr h
    | lib h => cases e; exact .inr h
    | _ => cases e
  once := (List.pairwise_map.1 T.once).imp (fun h e => h (by rw [e]))
  head n hn := by
    obtain ⟨k, hk⟩ := hw _ hn
    cases h : n.items with
    | nil => exact absurd h hk.1
    | cons a as => exact ⟨a, rfl⟩

/-- Every type of a file that is accepted has a default value. -/
theorem grounded (hw : ∀ d ∈ S, ∃ k, WFDecl k d) (T : Fit L x S) (id : String) : Grounded S id := by
  obtain ⟨rank, hr⟩ := T.sized
  refine grounded_of_rank (rank := rank) (fun d hd name hn t ht ho => ?_) id
  exact hr d hd name hn _ (KotlinTyping.defaulted_direct ht) t (.other (T.spelled t ho).2) (own_declared T (own_iff.1 ho))

end TPB.SwiftDefaults
