/- The generated Dart models and codecs are accepted by the rules of `Spec/DartTyping.lean`. -/
import Verif.Spec.DartTyping
import Verif.Proofs.DartFacts
import Verif.Proofs.DartRead
namespace TPB.Dart
open Spec DartGen Spec.DartRules
open Props (Accepted)

variable {x : Ext} {L : DartLib} {S : List ASTNode}

/-! ### Types -/

mutual
theorem genTy_eq : ∀ t : TypeId, genTy t = dartTy t
  | .integer _ _ _ => rfl
  | .number _ _ => rfl
  | .bool _ => rfl
  | .char _ => rfl
  | .other _ => rfl
  | .generic id gs => by rw [genTy, dartTy, genTys_eq' gs]; rfl
theorem genTys_eq' : ∀ ts : List TypeId, genTys ts = dartTys ts
  | [] => rfl
  | t :: ts => by rw [genTys, dartTys, genTy_eq t, genTys_eq' ts]
end

theorem dartTys_eq (ts : List TypeId) : dartTys ts = ts.map dartTy := by
  induction ts with
  | nil => rfl
  | cons t ts ih => simp [dartTys, ih]

theorem genTys_map (gs : List TypeId) : gs.map genTy = gs.map dartTy := by
  simp only [funext genTy_eq]

/-! ### Names of the file -/

theorem structsOf_eq (items : List ClassItem) : structsOf items = items.flatMap ClassItem.structs := by
  unfold structsOf
  congr 1

theorem enumsOf_eq (items : List ClassItem) : enumsOf items = items.flatMap ClassItem.enums := by
  induction items with
  | nil => rfl
  | cons c cs ih => cases c <;> simp_all [enumsOf, ClassItem.enums]

theorem count_pairs {α : Type} (f g : α → String) (a : String) (xs : List α) :
    (xs.flatMap (fun c => [f c, g c])).count a = (xs.map f).count a + (xs.map g).count a := by
  induction xs with
  | nil => rfl
  | cons c cs ih =>
    simp only [List.flatMap_cons, List.count_append, ih, List.map_cons, List.count_cons, List.count_nil]
    omega

theorem count_triples {α : Type} (f g h : α → String) (a : String) (xs : List α) :
    (xs.flatMap (fun c => [f c, g c, h c])).count a
      = (xs.map f).count a + (xs.map g).count a + (xs.map h).count a := by
  induction xs with
  | nil => rfl
  | cons c cs ih =>
    simp only [List.flatMap_cons, List.count_append, ih, List.map_cons, List.count_cons, List.count_nil]
    omega

/-- Counting in the image of an injective map. -/
theorem count_suffix {α : Type} (id : α → String) (s a : String) (xs : List α) (ys : List String)
    (h : (xs.map id).Perm ys) : (xs.map (fun c => id c ++ s)).count a = (ys.map (· ++ s)).count a := by
  have := (h.map (· ++ s)).count_eq a
  rw [List.map_map] at this
  exact this

theorem types_perm (hS : Plain S) :
    ((structsOf (genItems x S)).map StructClass.id ++ (enumsOf (genItems x S)).map EnumClass.id).Perm
      (typeNames S ++ variantClasses S) := by
  rw [List.perm_iff_count]
  intro a
  rw [List.count_append, structsOf_eq, enumsOf_eq, classes_count S hS.enums a]

theorem enums_ids (hS : ∀ n, .enum n ∈ S → n.items ≠ []) :
    (enumsOf (genItems x S)).map EnumClass.id = enumNames S := by
  induction S with
  | nil => rfl
  | cons d S ih =>
    have h := ih (fun n hn => hS n (List.mem_cons_of_mem _ hn))
    rw [enumsOf_eq] at h ⊢
    rw [genItems_cons, List.flatMap_append, List.map_append, h]
    cases d with
    | enum n =>
      cases hi : n.items with
      | nil => exact absurd hi (hS n (by simp))
      | cons i is => simp [genItems, hi, ClassItem.enums, enumNames, genEnumClass_id]
    | struct n => simp [genItems, ClassItem.enums, enumNames]
    | fn _ => simp [genItems, enumNames]
    | const _ => simp [genItems, enumNames]
    | directive _ => simp [genItems, enumNames]

theorem declared_count (hS : Plain S) (a : String) :
    (declaredNames (genItems x S) (genCodecs x S)).count a = (dartClasses S).count a := by
  have h1 := (types_perm (x := x) hS).count_eq a
  have h2 := ((types_perm (x := x) hS).map (· ++ "BuffersFactory")).count_eq a
  have h3 := codecs_count (x := x) hS a
  have h4 := enums_ids (x := x) hS.enums
  have h5 : ((enumsOf (genItems x S)).map (fun c => c.id ++ "Value")) = (enumNames S).map (· ++ "Value") := by
    rw [← h4, List.map_map]; rfl
  simp only [declaredNames, dartClasses, List.count_append, count_pairs, count_triples]
  simp only [List.map_append, List.count_append, List.map_map] at h1 h2
  simp only [codecNames, List.map_append, List.count_append] at h3
  simp only [List.map_append, List.count_append]
  rw [h5]
  have h6 : (genCodecs x S).map CodecClass.name = (genCodecs x S).map (fun c => c.id ++ c.body.kind.suffix) := rfl
  rw [h6] at h3
  have e1 : ((structsOf (genItems x S)).map (fun c => c.id ++ "BuffersFactory"))
      = (structsOf (genItems x S)).map ((· ++ "BuffersFactory") ∘ StructClass.id) := rfl
  have e2 : ((enumsOf (genItems x S)).map (fun c => c.id ++ "BuffersFactory"))
      = (enumsOf (genItems x S)).map ((· ++ "BuffersFactory") ∘ EnumClass.id) := rfl
  rw [e1, e2]
  have e3 : ((structsOf (genItems x S)).map (fun c => c.id)) = (structsOf (genItems x S)).map StructClass.id := rfl
  have e4 : ((enumsOf (genItems x S)).map (fun c => c.id)) = (enumsOf (genItems x S)).map EnumClass.id := rfl
  rw [e3, e4]
  omega

/-- The file of a schema. -/
abbrev fileOf (x : Ext) (S : List ASTNode) : DartFile := dartFile (genItems x S) (genCodecs x S)

theorem names_iff (hS : Plain S) (a : String) : a ∈ (fileOf x S).names ↔ a ∈ dartClasses S := by
  show a ∈ declaredNames _ _ ↔ _
  rw [← List.count_pos_iff, declared_count hS, List.count_pos_iff]

theorem names_nodup (hS : Plain S) (h : (dartClasses S).Nodup) : (declaredNames (genItems x S) (genCodecs x S)).Nodup := by
  rw [List.nodup_iff_count] at h ⊢
  intro a
  rw [declared_count hS]
  exact h a

/-! ### Members of the file -/

theorem structs_cases {c : StructClass} (h : c ∈ structsOf (genItems x S)) :
    (∃ n, .struct n ∈ S ∧ c = genStructClass x n) ∨
    ∃ n, .enum n ∈ S ∧ ∃ i ∈ n.items, c = genStructClass x (enumItemStruct n i) := by
  rw [structsOf_eq, List.mem_flatMap] at h
  obtain ⟨it, hit, hc⟩ := h
  simp only [genItems, List.mem_filterMap] at hit
  obtain ⟨d, hd, he⟩ := hit
  cases d with
  | struct n =>
    simp only [Option.some.injEq] at he
    subst he
    simp only [ClassItem.structs, List.mem_singleton] at hc
    exact .inl ⟨n, hd, hc⟩
  | enum n =>
    simp only [Option.map_eq_some_iff] at he
    obtain ⟨i, _, rfl⟩ := he
    simp only [ClassItem.structs, genVariants, List.mem_map] at hc
    obtain ⟨i, hi, rfl⟩ := hc
    exact .inr ⟨n, hd, i, hi, rfl⟩
  | fn _ => simp at he
  | const _ => simp at he
  | directive _ => simp at he

theorem enums_cases {c : EnumClass} (h : c ∈ enumsOf (genItems x S)) :
    ∃ n, .enum n ∈ S ∧ ∃ i ∈ n.items, c = genEnumClass x n i.id := by
  rw [enumsOf_eq, List.mem_flatMap] at h
  obtain ⟨it, hit, hc⟩ := h
  simp only [genItems, List.mem_filterMap] at hit
  obtain ⟨d, hd, he⟩ := hit
  cases d with
  | struct n =>
    simp only [Option.some.injEq] at he
    subst he
    simp [ClassItem.enums] at hc
  | enum n =>
    simp only [Option.map_eq_some_iff] at he
    obtain ⟨i, hi, rfl⟩ := he
    simp only [ClassItem.enums, List.mem_singleton] at hc
    exact ⟨n, hd, i, List.mem_of_head? hi, hc⟩
  | fn _ => simp at he
  | const _ => simp at he
  | directive _ => simp at he

theorem codecs_cases {c : CodecClass} (h : c ∈ genCodecs x S) :
    (∃ n, .struct n ∈ S ∧ (c = genStructInto x n ∨ c = genStructEmplace x n)) ∨
    ∃ n, .enum n ∈ S ∧ (c = genEnumInto x n ∨ c = genEnumEmplace x n ∨
      ∃ i ∈ n.items, c = genStructEmplace x (enumItemStruct n i)) := by
  simp only [genCodecs, List.mem_flatMap] at h
  obtain ⟨d, hd, hc⟩ := h
  cases d with
  | struct n =>
    simp only [genStructCodecs, List.mem_append] at hc
    refine .inl ⟨n, hd, ?_⟩
    rcases hc with hc | hc
    · split at hc <;> simp at hc
      exact .inr hc
    · split at hc <;> simp at hc
      exact .inl hc
  | enum n =>
    simp only [genEnumCodecs, List.mem_append, List.mem_map, List.mem_cons, List.not_mem_nil, or_false] at hc
    refine .inr ⟨n, hd, ?_⟩
    rcases hc with ⟨i, hi, rfl⟩ | rfl | rfl
    · exact .inr (.inr ⟨i, hi, rfl⟩)
    · exact .inl rfl
    · exact .inr (.inl rfl)
  | fn _ => simp at hc
  | const _ => simp at hc
  | directive _ => simp at hc

theorem struct_mem {n : StructNode} (hn : .struct n ∈ S) : genStructClass x n ∈ (fileOf x S).structs := by
  show _ ∈ structsOf _
  rw [structsOf_eq]
  exact List.mem_flatMap.2 ⟨.struct (genStructClass x n), List.mem_filterMap.2 ⟨_, hn, rfl⟩, by simp [ClassItem.structs]⟩

theorem variant_mem (hS : Plain S) {n : EnumNode} (hn : .enum n ∈ S) {i : EnumItem} (hi : i ∈ n.items) :
    genStructClass x (enumItemStruct n i) ∈ (fileOf x S).structs := by
  show _ ∈ structsOf _
  rw [structsOf_eq]
  obtain ⟨d, _, hd⟩ := enum_item (x := x) hS hn
  exact List.mem_flatMap.2 ⟨_, hd, List.mem_map.2 ⟨i, hi, rfl⟩⟩

theorem enum_mem (hS : Plain S) {n : EnumNode} (hn : .enum n ∈ S) :
    ∃ d ∈ n.items, genEnumClass x n d.id ∈ (fileOf x S).enums := by
  obtain ⟨d, h, hd⟩ := enum_item (x := x) hS hn
  refine ⟨d, List.mem_of_head? h, ?_⟩
  show _ ∈ enumsOf _
  rw [enumsOf_eq]
  exact List.mem_flatMap.2 ⟨_, hd, by simp [ClassItem.enums]⟩

/-- A declared type has codecs of both kinds. -/
theorem type_codec (hS : Plain S) {id : String} (h : id ∈ typeNames S) (k : Kind) :
    ∃ c ∈ (fileOf x S).codecs, c.id = id ∧ c.body.kind = k := by
  show ∃ c ∈ genCodecs x S, _
  simp only [typeNames, List.mem_filterMap] at h
  obtain ⟨d, hd, he⟩ := h
  cases d with
  | struct n =>
    simp only [Option.some.injEq] at he
    subst he
    obtain ⟨h1, h2⟩ := hS.structs n hd
    cases k with
    | into => exact ⟨genStructInto x n, List.mem_flatMap.2 ⟨_, hd, by simp [genStructCodecs, h1, h2]⟩, rfl, rfl⟩
    | emplace => exact ⟨genStructEmplace x n, List.mem_flatMap.2 ⟨_, hd, by simp [genStructCodecs, h1, h2]⟩, rfl, rfl⟩
  | enum n =>
    simp only [Option.some.injEq] at he
    subst he
    cases k with
    | into => exact ⟨genEnumInto x n, List.mem_flatMap.2 ⟨_, hd, by simp [genEnumCodecs]⟩, rfl, rfl⟩
    | emplace => exact ⟨genEnumEmplace x n, List.mem_flatMap.2 ⟨_, hd, by simp [genEnumCodecs]⟩, rfl, rfl⟩
  | fn _ => simp at he
  | const _ => simp at he
  | directive _ => simp at he

theorem variant_codec {n : EnumNode} (hn : .enum n ∈ S) {i : EnumItem} (hi : i ∈ n.items) :
    CodecTyped L (fileOf x S) (variantCodec n i) .emplace (.named (n.id ++ i.id)) := by
  have hm : genStructEmplace x (enumItemStruct n i) ∈ (fileOf x S).codecs := by
    refine List.mem_flatMap.2 ⟨_, hn, ?_⟩
    simp only [genEnumCodecs, List.mem_append, List.mem_map]
    exact .inl ⟨i, hi, rfl⟩
  have h := CodecTyped.own (L := L) (F := fileOf x S) _ hm
  rw [show (genStructEmplace x (enumItemStruct n i)).id = n.id ++ i.id from itemStruct_id n i] at h
  exact h

theorem own_codec (hS : Plain S) {id : String} (h : id ∈ typeNames S) (k : Kind) :
    CodecTyped L (fileOf x S) (.plain k id) k (.named id) := by
  obtain ⟨c, hc, rfl, rfl⟩ := type_codec (x := x) hS h k
  exact .own c hc

theorem typeNames_classes {id : String} (h : id ∈ typeNames S) : id ∈ dartClasses S := by
  simp only [dartClasses, List.mem_append]; exact .inl (.inl (.inl (.inl h)))

theorem variantClasses_mem {n : EnumNode} (hn : .enum n ∈ S) {i : EnumItem} (hi : i ∈ n.items) :
    n.id ++ i.id ∈ variantClasses S := List.mem_flatMap.2 ⟨_, hn, List.mem_map.2 ⟨i, hi, rfl⟩⟩

theorem variant_classes {n : EnumNode} (hn : .enum n ∈ S) {i : EnumItem} (hi : i ∈ n.items) :
    n.id ++ i.id ∈ dartClasses S := by
  simp only [dartClasses, List.mem_append]; exact .inl (.inl (.inl (.inr (variantClasses_mem hn hi))))

theorem variant_codec_classes {n : EnumNode} (hn : .enum n ∈ S) {i : EnumItem} (hi : i ∈ n.items) :
    n.id ++ i.id ++ "EmplaceToBuffers" ∈ dartClasses S := by
  simp only [dartClasses, List.mem_append, List.mem_map]
  exact .inr (.inr ⟨_, .inr (variantClasses_mem hn hi), rfl⟩)

theorem struct_name {n : StructNode} (hn : .struct n ∈ S) : n.id ∈ typeNames S := List.mem_filterMap.2 ⟨_, hn, rfl⟩
theorem enum_name {n : EnumNode} (hn : .enum n ∈ S) : n.id ∈ typeNames S := List.mem_filterMap.2 ⟨_, hn, rfl⟩

theorem value_classes {n : EnumNode} (hn : .enum n ∈ S) : n.id ++ "Value" ∈ dartClasses S := by
  simp only [dartClasses, List.mem_append, List.mem_map]
  exact .inl (.inl (.inr ⟨_, List.mem_filterMap.2 ⟨_, hn, rfl⟩, rfl⟩))

/-! ### Types and codecs of one field -/

section
variable (hS : Plain S) (hT : DartTypable x L S)
include hS hT

theorem used_free {a : String} (h : a ∈ dartUsed) : a ∉ (fileOf x S).names := fun hm =>
  (hT.names a ((names_iff hS a).1 hm)).2 (List.mem_append_left _ h)

omit hS in
theorem class_var {a b : String} (ha : a ∈ dartClasses S) (hb : b ∈ dartVars) : b ≠ a := fun e =>
  (hT.names a ha).2 (List.mem_append_right _ (e ▸ hb))

omit hS in
theorem classes_free {names V : List String} (h : ∀ n ∈ names, n ∈ dartClasses S) (hV : ∀ v ∈ V, v ∈ dartVars) :
    Free V names := fun n hn hv => class_var hT (h n hn) (hV n hv) rfl

theorem builtin_type {t : TypeId} {id : String} (h : builtin? t = some id) :
    TypeTyped L (fileOf x S).names (dartTy t) := by
  have hu := fun a h => used_free hS hT (a := a) h
  cases t with
  | generic _ _ => simp [builtin?] at h
  | other _ => simp [builtin?] at h
  | integer _ _ _ => exact .core "int" (by simp) (hu _ (by simp [dartUsed]))
  | number _ _ => exact .core "double" (by simp) (hu _ (by simp [dartUsed]))
  | bool _ => exact .core "bool" (by simp) (hu _ (by simp [dartUsed]))
  | char _ => exact .core "int" (by simp) (hu _ (by simp [dartUsed]))

theorem type_typed {t : TypeId} (h : DartTypeExists L S t) : TypeTyped L (fileOf x S).names (dartTy t) := by
  induction h with
  | own id h => exact .own id ((names_iff hS id).2 (typeNames_classes h))
  | builtin t id h => exact builtin_type hS hT h
  | lib id h1 h2 => exact .lib id h2 (fun hm => h1 ((names_iff hS id).1 hm))
  | list g h ih =>
    simp only [dartTy, if_true, dartTys]
    exact .list _ (used_free hS hT (by simp [dartUsed])) ih
  | generic c gs h1 h2 h3 h4 ih =>
    simp only [dartTy, if_neg h1, dartTys_eq]
    refine .app c _ (by simpa using h3) (fun hm => h2 ((names_iff hS c).1 hm)) ?_
    intro a ha
    obtain ⟨g, hg, rfl⟩ := List.mem_map.1 ha
    exact ih g hg

omit hT in
theorem args_exist {c : String} {gs : List TypeId} (h : DartTypeExists L S (.generic c gs)) :
    ∀ g ∈ gs, DartTypeExists L S g := by
  generalize ht : TypeId.generic c gs = t at h
  cases h with
  | own _ _ => simp at ht
  | builtin _ _ h => subst ht; simp [builtin?] at h
  | lib _ _ _ => simp at ht
  | list g h =>
    simp only [TypeId.generic.injEq] at ht
    obtain ⟨-, rfl⟩ := ht
    intro a ha
    simp only [List.mem_singleton] at ha
    exact ha ▸ h
  | generic c' gs' _ _ _ h =>
    simp only [TypeId.generic.injEq] at ht
    obtain ⟨-, rfl⟩ := ht
    exact h

theorem prim_typed {t : TypeId} {id : String} (h : builtin? t = some id) :
    PrimTyped (fileOf x S) (methodOf t) (dartTy t) := by
  have hu := fun a h => used_free hS hT (a := a) h
  cases t with
  | generic _ _ => simp [builtin?] at h
  | other _ => simp [builtin?] at h
  | integer _ size _ =>
    refine ⟨"int", ?_, hu _ (by simp [dartUsed]), rfl⟩
    simp only [methodOf]
    split
    · simp [primMethods]
    · split <;> simp [primMethods]
  | number _ size =>
    refine ⟨"double", ?_, hu _ (by simp [dartUsed]), rfl⟩
    simp only [methodOf]
    split <;> simp [primMethods]
  | bool _ => exact ⟨"bool", by simp [methodOf, primMethods], hu _ (by simp [dartUsed]), rfl⟩
  | char _ => exact ⟨"int", by simp [methodOf, primMethods], hu _ (by simp [dartUsed]), rfl⟩

/-- The element of a list. -/
theorem elem_typed {g : TypeId} (h : DartUsable L S (.generic "Vec" [g])) :
    ElemTyped L (fileOf x S) (dartElem g) (dartTy g) := by
  have hu := fun a h => used_free hS hT (a := a) h
  generalize ht : TypeId.generic "Vec" [g] = t at h
  cases h with
  | own _ _ => simp at ht
  | builtin _ _ h => subst ht; simp [builtin?] at h
  | lib _ _ _ => simp at ht
  | listOwn id h =>
    simp only [TypeId.generic.injEq, true_and, List.cons.injEq, and_true] at ht
    subst ht
    obtain ⟨c, hc, rfl, hk⟩ := type_codec (x := x) hS h .into
    exact .own c hc hk
  | listBuiltin g' id h =>
    simp only [TypeId.generic.injEq, true_and, List.cons.injEq, and_true] at ht
    subst ht
    cases g with
    | generic _ _ => simp [builtin?] at h
    | other _ => simp [builtin?] at h
    | integer _ _ _ => exact .prim "Int" "int" (by simp) (hu _ (by decide)) (hu _ (by decide))
    | number _ _ => exact .prim "Double" "double" (by simp) (hu _ (by decide)) (hu _ (by decide))
    | bool _ => exact .prim "Bool" "bool" (by simp) (hu _ (by decide)) (hu _ (by decide))
    | char _ => exact .prim "Int" "int" (by simp) (hu _ (by decide)) (hu _ (by decide))
  | listLib g' h1 h2 =>
    simp only [TypeId.generic.injEq, true_and, List.cons.injEq, and_true] at ht
    subst ht
    exact .lib _ _ (fun hm => h1 ((names_iff hS _).1 hm)) h2
  | generic c gs h _ _ _ _ =>
    simp only [TypeId.generic.injEq] at ht
    exact absurd ht.1.symm h

/-- A generic type of the schema: a list, or a library type. -/
theorem generic_cases {c : String} {gs : List TypeId} (h : DartUsable L S (.generic c gs)) :
    (c = "Vec" ∧ ∃ g, gs = [g]) ∨ (c ≠ "Vec" ∧
      Free (dartClasses S) [c ++ "IntoBuffers", c ++ "EmplaceToBuffers", c ++ "BuffersFactory"] ∧
      (∀ k, L.genericCodecs k c gs.length) ∧ L.genericFactories c gs.length) := by
  generalize ht : TypeId.generic c gs = t at h
  cases h with
  | own _ _ => simp at ht
  | builtin _ _ h => subst ht; simp [builtin?] at h
  | lib _ _ _ => simp at ht
  | listOwn id h => simp only [TypeId.generic.injEq] at ht; exact .inl ⟨ht.1, _, ht.2⟩
  | listBuiltin g id h => simp only [TypeId.generic.injEq] at ht; exact .inl ⟨ht.1, _, ht.2⟩
  | listLib g h1 h2 => simp only [TypeId.generic.injEq] at ht; exact .inl ⟨ht.1, _, ht.2⟩
  | generic c' gs' h1 h2 h3 h4 h5 =>
    simp only [TypeId.generic.injEq] at ht
    obtain ⟨rfl, rfl⟩ := ht
    exact .inr ⟨h1, h2, fun k => by cases k <;> assumption, h5⟩

theorem other_cases {id : String} (h : DartUsable L S (.other id)) :
    id ∈ typeNames S ∨
    (Free (dartClasses S) [id, id ++ "IntoBuffers", id ++ "EmplaceToBuffers", id ++ "BuffersFactory"] ∧
      L.codecs .into id ∧ (id = "String" ∨ L.codecs .emplace id) ∧ L.factories id) := by
  generalize ht : TypeId.other id = t at h
  cases h with
  | own id' h => simp only [TypeId.other.injEq] at ht; exact .inl (ht ▸ h)
  | builtin _ _ h => subst ht; simp [builtin?] at h
  | lib id' h1 h2 h3 h4 => simp only [TypeId.other.injEq] at ht; subst ht; exact .inr ⟨h1, h2, h3, h4⟩
  | listOwn _ _ => simp at ht
  | listBuiltin _ _ _ => simp at ht
  | listLib _ _ _ => simp at ht
  | generic _ _ _ _ _ _ _ => simp at ht

theorem generic_codec {c : String} {gs : List TypeId} (k : Kind) (h : DartUsable L S (.generic c gs))
    (hx : DartTypeExists L S (.generic c gs)) :
    CodecTyped L (fileOf x S) (genCodecG k c gs) k (dartTy (.generic c gs)) := by
  rcases generic_cases hS hT h with ⟨rfl, g, rfl⟩ | ⟨h1, h2, h3, _⟩
  · simp only [genCodecG, if_true, dartTy, dartTys, genTy_eq, elem_eq]
    refine .list k _ _ ?_ (type_typed hS hT (args_exist hS hx g (by simp))) (elem_typed hS hT h)
    cases k
    · exact used_free hS hT (by decide)
    · exact used_free hS hT (by decide)
  · have e : genCodecG k c gs = .generic k c (dartTys gs) := by
      unfold genCodecG
      split
      · rw [if_neg h1]; simp [dartTys, genTy_eq]
      · rw [genTys_map, dartTys_eq]
    rw [e]
    simp only [dartTy, if_neg h1]
    refine .generic k c _ ?_ (by simpa [dartTys_eq] using h3 k) ?_
    · intro hm
      refine h2 _ ?_ ((names_iff hS _).1 hm)
      cases k <;> simp [Kind.suffix]
    · intro a ha
      rw [dartTys_eq] at ha
      obtain ⟨g, hg, rfl⟩ := List.mem_map.1 ha
      exact type_typed hS hT (args_exist hS hx g hg)

theorem plain_codec {id : String} (k : Kind) (h : DartUsable L S (.other id)) (hk : k = .into ∨ id ≠ "String") :
    CodecTyped L (fileOf x S) (.plain k id) k (.named id) := by
  rcases other_cases hS hT h with h | ⟨h1, h2, h3, _⟩
  · exact own_codec hS h k
  · refine .lib k id ?_ (fun hm => h1 id (by simp) ((names_iff hS _).1 hm)) ?_
    · intro hm
      refine h1 _ ?_ ((names_iff hS _).1 hm)
      cases k <;> simp [Kind.suffix]
    · cases k with
      | into => exact h2
      | emplace =>
        rcases hk with hk | hk
        · cases hk
        · exact h3.resolve_left hk

omit hT hS in
theorem generic_names (k : Kind) (c : String) (gs : List TypeId) (hv : (∃ g, gs = [g]) ∨ c ≠ "Vec") :
    ∀ n ∈ (genCodecG k c gs).names, n ∈ dartMentions (.generic c gs) := by
  intro n hn
  unfold genCodecG at hn
  simp only [dartMentions, dartTy, Ty.names, List.mem_append, List.mem_cons, List.not_mem_nil, or_false]
  have aux : ∀ b : String, n = b ++ k.suffix →
      n = b ++ "IntoBuffers" ∨ n = b ++ "EmplaceToBuffers" ∨ n = b ++ "BuffersFactory" := by
    intro b hb
    cases k
    · exact .inl hb
    · exact .inr (.inl hb)
  split at hn
  · rename_i g
    split at hn
    · rename_i hc
      simp only [Codec.names, List.mem_cons] at hn
      simp only [if_pos hc, dartTys, tysNames, List.append_nil, List.map_cons, List.map_nil, List.mem_singleton]
      rcases hn with hn | hn | hn
      · exact .inr (.inl (aux _ hn))
      · exact .inr (.inr (by rw [hn, elem_eq]))
      · rw [genTy_eq] at hn; exact .inl (.inr hn)
    · rename_i hc
      simp only [Codec.names, List.mem_cons, genTy_eq] at hn
      simp only [if_neg hc, dartTys]
      rcases hn with hn | hn
      · exact .inr (.inl (aux _ hn))
      · exact .inl (.inr hn)
  · rename_i hg
    simp only [Codec.names, List.mem_cons, genTys_map, ← dartTys_eq] at hn
    rcases hn with hn | hn
    · rcases hv with ⟨g, rfl⟩ | hc
      · exact absurd rfl (hg g)
      · rw [if_neg hc]; exact .inr (.inl (aux _ hn))
    · exact .inl (.inr hn)

theorem generic_free {V : List String} {c : String} {gs : List TypeId} (k : Kind) (h : DartUsable L S (.generic c gs))
    (hV : Free V (dartMentions (.generic c gs))) : Free V (genCodecG k c gs).names := by
  intro n hn
  refine hV n (generic_names k c gs ?_ n hn)
  rcases generic_cases hS hT h with ⟨_, h⟩ | ⟨h, _⟩
  · exact .inl h
  · exact .inr h

omit hS hT in
theorem plain_free {V : List String} {id : String} (k : Kind) (hV : Free V (dartMentions (.other id))) :
    Free V (Codec.plain k id).names := by
  intro n hn
  refine hV n ?_
  simp only [Codec.names, List.mem_singleton] at hn
  subst hn
  cases k <;> simp [dartMentions, Kind.suffix]

variable {t : TypeId} (hx : DartTypeExists L S t) (hu : DartUsable L S t) {V : List String} (hV : Free V (dartMentions t))
include hx hu hV

theorem read_typed : ReadTyped L (fileOf x S) V (genRead t) (dartTy t) := by
  cases t with
  | other id => exact ⟨plain_free .into hV, plain_codec hS hT .into hu (.inl rfl)⟩
  | generic c gs => exact ⟨generic_free hS hT .into hu hV, generic_codec hS hT .into hu hx⟩
  | integer _ _ _ => exact prim_typed hS hT (t := .integer _ _ _) rfl
  | number _ _ => exact prim_typed hS hT (t := .number _ _) rfl
  | bool _ => exact prim_typed hS hT (t := .bool _) rfl
  | char _ => exact prim_typed hS hT (t := .char _) rfl

theorem empl_typed {places : List (Acc × Ty)} {a : Acc} (ha : (a, dartTy t) ∈ places) :
    EmplTyped L (fileOf x S) V places (genReadEmplace t a) := by
  have hr := read_typed hS hT hx hu hV
  cases t with
  | other id =>
    simp only [genReadEmplace]
    split
    · exact ⟨_, ha, hr⟩
    · rename_i h
      exact ⟨plain_free .emplace hV, _, ha, plain_codec hS hT .emplace hu (.inr h)⟩
  | generic c gs => exact ⟨generic_free hS hT .emplace hu hV, _, ha, generic_codec hS hT .emplace hu hx⟩
  | integer _ _ _ => exact ⟨_, ha, hr⟩
  | number _ _ => exact ⟨_, ha, hr⟩
  | bool _ => exact ⟨_, ha, hr⟩
  | char _ => exact ⟨_, ha, hr⟩

omit hx hu hV in
theorem kind_codec {id : String} (hu : DartUsable L S (.other id)) (k : Kind) :
    ∃ k', CodecTyped L (fileOf x S) (.plain (match k with | .into => .into | .emplace => emplKind id) id) k' (.named id) := by
  cases k with
  | into => exact ⟨_, plain_codec hS hT .into hu (.inl rfl)⟩
  | emplace =>
    refine ⟨_, plain_codec hS hT (emplKind id) hu ?_⟩
    unfold emplKind
    split
    · exact .inl rfl
    · rename_i h; exact .inr h

theorem write_typed (k : Kind) {places : List (Acc × Ty)} {a : Acc} (ha : (a, dartTy t) ∈ places) :
    WriteTyped L (fileOf x S) V places (genWrite k t a) := by
  cases t with
  | other id =>
    obtain ⟨k', hk⟩ := kind_codec hS hT hu k
    exact ⟨plain_free _ hV, _, k', ha, hk⟩
  | generic c gs => exact ⟨generic_free hS hT k hu hV, _, k, ha, generic_codec hS hT k hu hx⟩
  | integer _ _ _ => exact ⟨_, ha, prim_typed hS hT (t := .integer _ _ _) rfl⟩
  | number _ _ => exact ⟨_, ha, prim_typed hS hT (t := .number _ _) rfl⟩
  | bool _ => exact ⟨_, ha, prim_typed hS hT (t := .bool _) rfl⟩
  | char _ => exact ⟨_, ha, prim_typed hS hT (t := .char _) rfl⟩

theorem skip_typed (k : Kind) : SkipTyped L (fileOf x S) V (genSkip k t) := by
  cases t with
  | other id =>
    obtain ⟨k', hk⟩ := kind_codec hS hT hu k
    exact ⟨plain_free _ hV, _, k', hk⟩
  | generic c gs => exact ⟨generic_free hS hT k hu hV, _, k, generic_codec hS hT k hu hx⟩
  | integer _ _ _ => exact ⟨_, prim_typed hS hT (t := .integer _ _ _) rfl⟩
  | number _ _ => exact ⟨_, prim_typed hS hT (t := .number _ _) rfl⟩
  | bool _ => exact ⟨_, prim_typed hS hT (t := .bool _) rfl⟩
  | char _ => exact ⟨_, prim_typed hS hT (t := .char _) rfl⟩

theorem def_typed : DefTyped L (fileOf x S) V (genDef t) (dartTy t) := by
  have hused := fun a h => used_free hS hT (a := a) h
  cases t with
  | other id =>
    have hv : id ++ "BuffersFactory" ∉ V := hV _ (by simp [dartMentions])
    rcases other_cases hS hT hu with h | ⟨h1, _, _, h4⟩
    · refine .own id ?_ hv
      have := (types_perm (x := x) hS).mem_iff.2 (List.mem_append_left (variantClasses S) h)
      exact this
    · exact .lib id (fun hm => h1 _ (by simp) ((names_iff hS _).1 hm)) (fun hm => h1 _ (by simp) ((names_iff hS _).1 hm)) hv h4
  | generic c gs =>
    rcases generic_cases hS hT hu with ⟨rfl, g, rfl⟩ | ⟨h1, h2, _, h4⟩
    · simp only [genDef, dartTy, dartTys, if_true, genTy_eq, List.map_cons, List.map_nil]
      refine .list _ (hused _ (by decide)) ?_ (type_typed hS hT (args_exist hS hx g (by simp)))
      intro n hn
      refine hV n ?_
      simp only [List.mem_cons] at hn
      rcases hn with rfl | hn
      · simp [dartMentions]
      · simp [dartMentions, dartTy, Ty.names, dartTys, tysNames, hn]
    · simp only [genDef, dartTy, if_neg h1, genTys_map, ← dartTys_eq]
      have e : listName c = c := by simp [listName, h1]
      rw [e]
      refine .app c _ (fun hm => h2 _ (by simp) ((names_iff hS _).1 hm)) ?_ (by simpa [dartTys_eq] using h4) ?_
      · intro n hn
        refine hV n ?_
        simp only [List.mem_cons] at hn
        rcases hn with rfl | hn
        · simp [dartMentions, h1]
        · simp [dartMentions, dartTy, Ty.names, hn]
      · intro a ha
        rw [dartTys_eq] at ha
        obtain ⟨g, hg, rfl⟩ := List.mem_map.1 ha
        exact type_typed hS hT (args_exist hS hx g hg)
  | integer _ _ _ => exact .zero (hused _ (by decide))
  | number _ _ => exact .zeroF (hused _ (by decide))
  | bool _ => exact .no (hused _ (by decide))
  | char _ => exact .zero (hused _ (by decide))

end

/-! ### Classes -/

/-- What a class needs from the types of its fields. -/
def FieldsOk (L : DartLib) (S : List ASTNode) (fs : List StructField) : Prop :=
  ∀ f ∈ fs, DartTypeExists L S f.typeId ∧ DartUsable L S f.typeId ∧ Free dartVars (dartMentions f.typeId)

theorem free_sub {V W names : List String} (h : Free W names) (hV : ∀ v ∈ V, v ∈ W) : Free V names :=
  fun n hn hv => h n hn (hV n hv)

section
variable (hS : Plain S) (hT : DartTypable x L S)
include hS hT

omit hS in
theorem factory_typed {id : String} (h : id ∈ dartClasses S) (hS : Plain S) : FactoryTyped (fileOf x S).names id :=
  ⟨used_free hS hT (by decide), used_free hS hT (by decide), fun e => class_var hT h (by decide : "createDefault" ∈ dartVars) e.symm⟩

theorem structClass_typed {n : StructNode} (hc : n.id ∈ dartClasses S) (hf : FieldsOk L S n.fields)
    (hok : ClassOk S n.id (dartFields x n)) : StructTyped L (fileOf x S) (genStructClass x n) := by
  have hnames : (genStructClass x n).fields.map (·.2) = (dartFields x n).map (·.1) := by
    simp [genStructClass, dartFields, Function.comp_def]
  have hhid : ∀ f ∈ n.fields, Free ((genStructClass x n).fields.map (·.2)) (dartMentions f.typeId) := by
    intro f hf a ha hv
    rw [hnames] at hv
    obtain ⟨g, hg, rfl⟩ := List.mem_map.1 hv
    exact hok.hides g hg (x.camel f.name, f.typeId) (List.mem_map.2 ⟨f, hf, rfl⟩) ha
  have hctor : (genStructClass x n).ctor = (dartFields x n).map (·.1) := by
    simp [genStructClass, dartFields, Function.comp_def]
  have hinits : (genStructClass x n).inits.map (·.1) = (dartFields x n).map (·.1) := by
    simp [genStructClass, dartFields, Function.comp_def]
  refine ⟨(hT.names _ hc).1, by rw [hnames]; exact hok.once, ?_, ?_, ?_, ⟨by rw [hinits]; exact hok.once, ?_, ?_⟩,
    factory_typed hT hc hS⟩
  · intro p hp
    obtain ⟨f, hf', rfl⟩ := List.mem_map.1 hp
    have hm : (x.camel f.name, f.typeId) ∈ dartFields x n := List.mem_map.2 ⟨f, hf', rfl⟩
    refine ⟨(hok.names _ hm).1, (hok.names _ hm).2, (hok.object _ hm).1, fun h => ⟨?_, used_free hS hT (by decide)⟩⟩
    simpa [genTy_eq] using (hok.object _ hm).2 h
  · intro p hp
    obtain ⟨f, hf', rfl⟩ := List.mem_map.1 hp
    obtain ⟨h1, _, _⟩ := hf f hf'
    simp only [genTy_eq]
    refine ⟨type_typed hS hT h1, fun a ha => hhid f hf' a ?_⟩
    simp only [dartMentions, List.mem_append]
    exact .inl ha
  · rw [hctor, hnames]
    exact ⟨hok.once, fun _ => Iff.rfl⟩
  · rw [hnames, hinits]
    exact fun _ h => h
  · intro p hp
    obtain ⟨f, hf', rfl⟩ := List.mem_map.1 hp
    obtain ⟨h1, h2, _⟩ := hf f hf'
    refine ⟨dartTy f.typeId, List.mem_map.2 ⟨f, hf', by simp [genTy_eq]⟩, def_typed hS hT h1 h2 (hhid f hf')⟩

theorem skipBody_typed (k : Kind) {fs : List StructField} (hf : FieldsOk L S fs) :
    SkipBodyTyped L (fileOf x S) (genSkipBody k fs) := by
  constructor
  · intro s hs
    obtain ⟨f, hf', rfl⟩ := List.mem_map.1 hs
    obtain ⟨h1, h2, h3⟩ := hf f (List.mem_filter.1 hf').1
    exact skip_typed hS hT h1 h2 (free_sub h3 (by decide)) k
  · intro s hs
    obtain ⟨f, hf', rfl⟩ := List.mem_map.1 hs
    obtain ⟨h1, h2, h3⟩ := hf f (List.mem_filter.1 hf').1
    exact skip_typed hS hT h1 h2 (free_sub h3 (by decide)) k

omit hS hT in
theorem place_mem {n : StructNode} {f : StructField} (hf : f ∈ n.fields) :
    (Acc.field (x.camel f.name), dartTy f.typeId) ∈ modelPlaces (genStructClass x n) := by
  simp only [modelPlaces, genStructClass, List.map_map]
  exact List.mem_map.2 ⟨f, hf, by simp [genTy_eq]⟩

theorem writes_typed (k : Kind) {n : StructNode} (hf : FieldsOk L S n.fields) :
    ∀ w ∈ n.fields.map (fun f => genWrite k f.typeId (.field (x.camel f.name))),
      WriteTyped L (fileOf x S) ("writer" :: "model" :: codecMembers) (modelPlaces (genStructClass x n)) w := by
  intro w hw
  obtain ⟨f, hf', rfl⟩ := List.mem_map.1 hw
  obtain ⟨h1, h2, h3⟩ := hf f hf'
  exact write_typed hS hT h1 h2 (free_sub h3 (by decide)) k (place_mem hf')

omit hS in
theorem head_typed (hS : Plain S) (k : Kind) :
    Free (fileOf x S).names ["BytesReader", "BytesWriter", "int", "override", k.suffix] := by
  intro n hn
  refine used_free hS hT ?_
  revert n
  cases k <;> decide

theorem structEmplace_typed {n : StructNode} (hc : n.id ∈ dartClasses S) (hf : FieldsOk L S n.fields)
    (hm : genStructClass x n ∈ (fileOf x S).structs) : CodecClassTyped L (fileOf x S) (genStructEmplace x n) := by
  refine ⟨head_typed hT hS _, fun h => class_var hT hc ((by decide : ∀ v ∈ codecMembers, v ∈ dartVars) _ h) rfl, ?_⟩
  refine ⟨_, hm, rfl, ?_, writes_typed hS hT .emplace hf, skipBody_typed hS hT _ hf⟩
  intro r hr
  obtain ⟨f, hf', rfl⟩ := List.mem_map.1 hr
  obtain ⟨h1, h2, h3⟩ := hf f hf'
  exact empl_typed hS hT h1 h2 (free_sub h3 (by decide)) (place_mem hf')

theorem structInto_typed {n : StructNode} (hc : n.id ∈ dartClasses S) (hf : FieldsOk L S n.fields)
    (hok : ClassOk S n.id (dartFields x n)) (hr : Free (dartFieldNames x n) ["reader"])
    (hm : genStructClass x n ∈ (fileOf x S).structs) : CodecClassTyped L (fileOf x S) (genStructInto x n) := by
  refine ⟨head_typed hT hS _, fun h => class_var hT hc ((by decide : ∀ v ∈ codecMembers, v ∈ dartVars) _ h) rfl, ?_⟩
  have e1 : (n.fields.map (fun f => (x.camel f.name, genRead f.typeId))).map (·.1) = (dartFields x n).map (·.1) := by
    simp [dartFields, Function.comp_def]
  have e2 : (n.fields.map (fun f => (x.camel f.name, x.camel f.name))).map (·.1) = (dartFields x n).map (·.1) := by
    simp [dartFields, Function.comp_def]
  have hread : ∀ f ∈ n.fields,
      ReadTyped L (fileOf x S) ("reader" :: (codecMembers ++ (n.fields.map (fun f => (x.camel f.name, genRead f.typeId))).map (·.1)))
        (genRead f.typeId) (dartTy f.typeId) := by
    intro f hf'
    obtain ⟨h1, h2, h3⟩ := hf f hf'
    refine read_typed hS hT h1 h2 ?_
    intro a ha hv
    rw [e1] at hv
    rcases List.mem_cons.1 hv with rfl | hv
    · exact h3 _ ha (by decide)
    · rcases List.mem_append.1 hv with hv | hv
      · exact h3 _ ha ((by decide : ∀ v ∈ codecMembers, v ∈ dartVars) _ hv)
      · obtain ⟨g, hg, rfl⟩ := List.mem_map.1 hv
        exact hok.hides g hg (x.camel f.name, f.typeId) (List.mem_map.2 ⟨f, hf', rfl⟩) ha
  refine ⟨_, hm, rfl, by rw [e1]; exact hok.once, ?_, ?_, by rw [e2]; exact hok.once, ?_, ?_, ?_,
    writes_typed hS hT .into hf, skipBody_typed hS hT _ hf⟩
  · intro l hl
    obtain ⟨f, hf', rfl⟩ := List.mem_map.1 hl
    refine ⟨(hok.names _ (List.mem_map.2 ⟨f, hf', rfl⟩)).1.1, fun e => hr "reader" (by simp) ?_⟩
    exact List.mem_map.2 ⟨f, hf', e⟩
  · rw [e1]
    intro h
    rcases List.mem_cons.1 h with h | h
    · exact class_var hT hc (by decide : "reader" ∈ dartVars) h.symm
    · obtain ⟨g, hg, e⟩ := List.mem_map.1 h
      exact (hok.names g hg).1.2 e
  · rw [e2]
    intro p hp
    simpa [genStructClass, dartFields, Function.comp_def] using hp
  · intro l hl
    obtain ⟨f, hf', rfl⟩ := List.mem_map.1 hl
    exact ⟨_, hread f hf'⟩
  · intro a ha
    obtain ⟨f, hf', rfl⟩ := List.mem_map.1 ha
    exact ⟨dartTy f.typeId, genRead f.typeId, List.mem_map.2 ⟨f, hf', rfl⟩, List.mem_map.2 ⟨f, hf', by simp [genTy_eq]⟩,
      List.mem_map.2 ⟨f, hf', rfl⟩, hread f hf'⟩

theorem enumCodec_typed {n : EnumNode} (hn : .enum n ∈ S) {d : String} :
    EnumCodecTyped L (fileOf x S) ("reader" :: "value" :: "model" :: codecMembers) (genEnumClass x n d)
      (n.items.map (genReadCase x n)) (n.items.map (genWriteCase x n)) (n.items.map (genSkipCase n)) := by
  have hok := hT.enums n hn
  have hpay : ∀ i ∈ n.items, ∀ V : List String, (∀ v ∈ V, v ∈ dartVars) →
      PayloadTyped L (fileOf x S) V (genEnumClass x n d) (x.camel i.id) (variantCodec n i) := by
    intro i hi V hV
    refine ⟨classes_free hT ?_ hV, n.id ++ i.id, genNew n i, List.mem_map.2 ⟨i, hi, rfl⟩, variant_codec hn hi⟩
    intro a ha
    simp only [variantCodec, Codec.names, List.mem_singleton] at ha
    exact ha ▸ variant_codec_classes hn hi
  have hval : ∀ a ∈ [n.id ++ "Value"], a ∈ dartClasses S := by
    intro a ha
    simp only [List.mem_singleton] at ha
    exact ha ▸ value_classes hn
  refine ⟨used_free hS hT (by decide), ?_, classes_free hT hval (by decide), ⟨?_, ?_⟩, classes_free hT hval (by decide), ?_⟩
  · intro r hr
    obtain ⟨i, hi, rfl⟩ := List.mem_map.1 hr
    exact ⟨hok.numbers i hi, List.mem_map.2 ⟨i, hi, rfl⟩, hpay i hi _ (by decide)⟩
  · intro c hc
    obtain ⟨i, hi, rfl⟩ := List.mem_map.1 hc
    exact List.mem_map.2 ⟨genWriteCase x n i, List.mem_map.2 ⟨i, hi, rfl⟩, rfl⟩
  · intro w hw
    obtain ⟨i, hi, rfl⟩ := List.mem_map.1 hw
    exact ⟨hok.numbers i hi, List.mem_map.2 ⟨i, hi, rfl⟩, hpay i hi _ (by decide)⟩
  · intro s hs
    obtain ⟨i, hi, rfl⟩ := List.mem_map.1 hs
    exact ⟨hok.numbers i hi, (hpay i hi _ (by decide)).1, _, _, variant_codec hn hi⟩

/-! ### The class of an enum -/

omit hS hT in
theorem itemStruct_fields (n : EnumNode) (i : EnumItem) : dartFields x (enumItemStruct n i) = dartPayload x i := by
  unfold dartFields dartPayload
  rw [← itemStruct_names n i, ← itemStruct_types n i, List.zip_map']

omit hS hT in
theorem zip_idx (vs : List TupleField) (k : Nat) :
    ((List.range vs.length).map (fun j => "v" ++ toString (j + k))).zip (vs.map (·.typeId))
      = (withIdx k vs).map (fun p => ("v" ++ toString p.1, p.2.typeId)) := by
  induction vs generalizing k with
  | nil => rfl
  | cons v vs ih =>
    rw [List.length_cons, List.range_succ_eq_map, List.map_cons, List.map_map, List.map_cons, List.zip_cons_cons,
      withIdx, List.map_cons, ← ih]
    simp only [Function.comp_def, Nat.zero_add, Nat.succ_eq_add_one]
    congr 2
    refine List.map_congr_left (fun j _ => ?_)
    rw [show j + 1 + k = j + (k + 1) by omega]

omit hS hT in
theorem vmethod_eq {n : EnumNode} (hok : EnumOk x n) {i : EnumItem} (hi : i ∈ n.items) :
    (genVMethod x i).params.list = (dartPayload x i).map (fun f => (dartTy f.2, f.1)) ∧
    (genVMethod x i).assigns = (dartPayload x i).map (fun f => (f.1, f.1)) ∧
    (genVMethod x i).name = x.pascal i.id ∧ (genVMethod x i).const = x.camel i.id ∧ (genVMethod x i).field = x.camel i.id ∧
    ∀ xs, (genVMethod x i).params = .named xs → xs ≠ [] ∧ xs = (genVMethod x i).params.list := by
  cases i with
  | empty p id => exact ⟨rfl, rfl, rfl, rfl, rfl, by simp [genVMethod]⟩
  | tuple p id vs =>
    have h := hok.tuples _ hi p id vs rfl
    have hz : dartPayload x (.tuple p id vs) = (withIdx 0 vs).map (fun p => ("v" ++ toString p.1, p.2.typeId)) := by
      unfold dartPayload
      rw [h, show (payload (.tuple p id vs)).map (·.2) = vs.map (·.typeId) from by
        simp only [payload]; exact Rust.map_snd_mapIdx vs]
      have := zip_idx vs 0
      simpa using this
    refine ⟨?_, ?_, rfl, rfl, rfl, by simp [genVMethod]⟩
    · rw [hz]; simp [genVMethod, Params.list, Function.comp_def, genTy_eq]
    · rw [hz]; simp [genVMethod, Function.comp_def]
  | struct p id fs =>
    have hz : dartPayload x (.struct p id fs) = fs.map (fun f => (x.camel f.name, f.typeId)) := by
      have e : (payload (.struct p id fs)).map (·.2) = fs.map (·.typeId) := by simp [payload, Function.comp_def]
      unfold dartPayload
      rw [e]
      simp only [dartPayloadNames]
      rw [List.zip_map']
    refine ⟨?_, ?_, rfl, rfl, rfl, ?_⟩
    · rw [hz]; simp [genVMethod, Params.list, Function.comp_def, genTy_eq]
    · rw [hz]; simp [genVMethod, Function.comp_def]
    · intro xs h
      simp only [genVMethod, Params.named.injEq] at h
      subst h
      refine ⟨?_, rfl⟩
      intro h
      obtain ⟨_, _, h'⟩ := hok.inhabited _ hi (by simpa [payload] using h)
      cases h'

omit hS hT in
theorem members_eq {n : EnumNode} (hok : EnumOk x n) (d : String) : enumMembers (genEnumClass x n d) = dartMembers x n := by
  have h : ∀ p : String, n.items.map (fun i => p ++ (genVMethod x i).name) = n.items.map (fun i => p ++ x.pascal i.id) :=
    fun p => List.map_congr_left (fun i hi => by rw [(vmethod_eq hok hi).2.2.1])
  simp only [enumMembers, genEnumClass, List.map_map, dartMembers, Function.comp_def, h]

omit hS hT in
theorem payload_fields {i : EnumItem} {f : String × TypeId} (h : f ∈ dartPayload x i) :
    f.1 ∈ dartPayloadNames x i ∧ ∃ g ∈ payload i, g.2 = f.2 := by
  obtain ⟨a, b⟩ := f
  have h := List.of_mem_zip h
  refine ⟨h.1, ?_⟩
  simpa using List.mem_map.1 h.2

theorem method_typed {n : EnumNode} (hn : .enum n ∈ S) {i : EnumItem} (hi : i ∈ n.items) (d : String) :
    MethodTyped L (fileOf x S) (genEnumClass x n d) (genVMethod x i) := by
  have hok := hT.enums n hn
  have hcl := hT.variants n hn i hi
  obtain ⟨h1, h2, h3, h4, h5, h6⟩ := vmethod_eq hok hi
  have hp : (genVMethod x i).params.list.map (·.2) = (dartPayload x i).map (·.1) := by
    rw [h1]; simp [Function.comp_def]
  refine ⟨?_, by rw [hp]; exact hcl.once, ?_, ?_, ?_, ?_⟩
  · rw [h4]; exact List.mem_map.2 ⟨i, hi, rfl⟩
  · intro p hm
    rw [h1] at hm
    obtain ⟨f, hf, rfl⟩ := List.mem_map.1 hm
    exact (hcl.names f hf).1.1
  · intro p hm
    rw [h1] at hm
    obtain ⟨f, hf, rfl⟩ := List.mem_map.1 hm
    obtain ⟨_, g, hg, he⟩ := payload_fields hf
    refine ⟨type_typed hS hT (hT.types _ hn f.2 ?_).1, ?_⟩
    · rw [← he]
      exact List.mem_flatMap.2 ⟨i, hi, List.mem_map.2 ⟨g, hg, rfl⟩⟩
    · rw [members_eq hok]
      have := hok.types i hi g hg
      rwa [he] at this
  · intro xs hxs
    obtain ⟨h7, h8⟩ := h6 xs hxs
    refine ⟨h7, fun p hm => ?_⟩
    rw [h8, h1] at hm
    obtain ⟨f, hf, rfl⟩ := List.mem_map.1 hm
    exact (hcl.names f hf).2
  · intro a ha
    rw [h2] at ha
    obtain ⟨f, hf, rfl⟩ := List.mem_map.1 ha
    refine ⟨n.id ++ i.id, genNew n i, genStructClass x (enumItemStruct n i), dartTy f.2, ?_, variant_mem hS hn hi,
      itemStruct_id n i, ?_, ?_⟩
    · rw [h5]; exact List.mem_map.2 ⟨i, hi, rfl⟩
    · rw [← itemStruct_fields n i] at hf
      obtain ⟨g, hg, rfl⟩ := List.mem_map.1 hf
      exact List.mem_map.2 ⟨g, hg, by simp [genTy_eq]⟩
    · rw [h1]; exact List.mem_map.2 ⟨f, hf, rfl⟩

theorem enumClass_typed {n : EnumNode} (hn : .enum n ∈ S) {d : EnumItem} (hd : d ∈ n.items) :
    EnumTyped L (fileOf x S) (genEnumClass x n d.id) := by
  have hok := hT.enums n hn
  have hme := members_eq hok d.id
  have hid := typeNames_classes (enum_name hn)
  have hcam : ∀ i ∈ n.items, x.camel i.id ∈ dartMembers x n := by
    intro i hi
    simp only [dartMembers, List.mem_cons, List.mem_append, List.mem_map]
    exact .inr (.inl (.inl (.inl ⟨i, hi, rfl⟩)))
  have hpar : ∀ i ∈ n.items, (genVMethod x i).params.list.map (·.2) = (dartPayload x i).map (·.1) := by
    intro i hi
    rw [(vmethod_eq hok hi).1]
    simp [Function.comp_def]
  have hpar' : ∀ i ∈ n.items, ∀ p ∈ (genVMethod x i).params.list.map (·.2), p ∈ dartPayloadNames x i := by
    intro i hi p hp
    rw [hpar i hi] at hp
    obtain ⟨f, hf, rfl⟩ := List.mem_map.1 hp
    exact (payload_fields hf).1
  refine ⟨⟨(hT.names _ hid).1, (hT.names _ (value_classes hn)).1⟩, ⟨?_, ?_, ?_⟩, List.mem_map.2 ⟨d, hd, rfl⟩, ?_, ?_, ?_, ?_,
    ⟨used_free hS hT (by decide), ?_, ?_⟩, ?_, factory_typed hT hid hS⟩
  · intro h
    have : x.camel d.id ∈ (genEnumClass x n d.id).consts := List.mem_map.2 ⟨d, hd, rfl⟩
    rw [h] at this
    simp at this
  · have h := hok.members
    simp only [dartMembers, List.nodup_cons, List.nodup_append] at h
    exact h.2.1.1.1
  · intro c hc
    obtain ⟨i, hi, rfl⟩ := List.mem_map.1 hc
    have h1 := hok.names _ (hcam i hi)
    have h2 := hok.consts i hi
    refine ⟨⟨h1.1.1, h2.1⟩, ?_⟩
    intro h
    rcases List.mem_cons.1 h with h | h
    · exact h2.2 (by simp [h])
    · rcases List.mem_cons.1 h with h | h
      · exact h2.2 (by simp [h])
      · exact h1.2 h
  · rw [hme]
    exact ⟨hok.members, hok.names⟩
  · rw [hme]
    exact hok.hides _ (by simp [genEnumClass])
  · intro p hp
    rw [hme]
    obtain ⟨i, hi, rfl⟩ := List.mem_map.1 hp
    refine ⟨hok.hides _ ?_, ?_⟩
    · refine List.mem_cons_of_mem _ (List.mem_cons_of_mem _ (List.mem_map.2 ⟨i, hi, rfl⟩))
    · have hv := variant_mem (x := x) hS hn hi
      have hlen : (genStructClass x (enumItemStruct n i)).fields.length = (payload i).length := by
        have := congrArg List.length (itemStruct_types n i)
        simpa [genStructClass] using this
      cases i with
      | empty p id => exact NewTyped.const _ hv rfl
      | tuple p id vs =>
        refine NewTyped.create _ hv (fun h => ?_)
        rw [h] at hlen
        obtain ⟨_, _, h'⟩ := hok.inhabited _ hi (List.length_eq_zero_iff.1 hlen.symm)
        cases h'
      | struct p id fs =>
        refine NewTyped.create _ hv (fun h => ?_)
        rw [h] at hlen
        obtain ⟨_, _, h'⟩ := hok.inhabited _ hi (List.length_eq_zero_iff.1 hlen.symm)
        cases h'
  · intro m hm
    obtain ⟨i, hi, rfl⟩ := List.mem_map.1 hm
    refine ⟨method_typed hS hT hn hi _, fun a ha hv => hok.params i hi a ?_ (hpar' i hi a hv)⟩
    rw [(vmethod_eq hok hi).2.2.2.2.1] at ha
    simp only [genEnumClass, List.mem_cons, List.not_mem_nil, or_false] at ha ⊢
    rcases ha with h | h | h <;> simp [h]
  · rw [hme]
    exact hok.hides _ (by simp)
  · intro p hp
    obtain ⟨i, hi, rfl⟩ := List.mem_map.1 hp
    exact List.mem_map.2 ⟨i, hi, rfl⟩
  · intro m hm
    obtain ⟨i, hi, rfl⟩ := List.mem_map.1 hm
    refine ⟨method_typed hS hT hn hi _, fun a ha hv => ?_, ?_⟩
    · simp only [genEnumClass, List.mem_cons, List.not_mem_nil, or_false] at ha
      rcases List.mem_cons.1 hv with rfl | hv
      · rcases ha with ha | ha
        · exact class_var hT hid (by decide : "model" ∈ dartVars) ha
        · exact class_var hT (value_classes hn) (by decide : "model" ∈ dartVars) ha
      · refine hok.params i hi a ?_ (hpar' i hi a hv)
        simp only [List.mem_cons, List.not_mem_nil, or_false]
        rcases ha with h | h <;> simp [h]
    · intro a ha e
      rw [(vmethod_eq hok hi).2.1] at ha
      obtain ⟨f, hf, rfl⟩ := List.mem_map.1 ha
      exact hok.params i hi "model" (by simp) (e ▸ (payload_fields hf).1)

omit hS in
theorem struct_fieldsOk {n : StructNode} (hn : .struct n ∈ S) : FieldsOk L S n.fields := by
  intro f hf
  have hm : f.typeId ∈ directTypes (.struct n) := by
    simp only [directTypes, fieldsOf, List.map_map]
    exact List.mem_map.2 ⟨f, hf, rfl⟩
  exact ⟨(hT.types _ hn _ hm).1, (hT.types _ hn _ hm).2, hT.mentions _ hn _ hm⟩

omit hS in
theorem variant_fieldsOk {n : EnumNode} (hn : .enum n ∈ S) {i : EnumItem} (hi : i ∈ n.items) :
    FieldsOk L S (enumItemStruct n i).fields := by
  intro f hf
  have hm : f.typeId ∈ directTypes (.enum n) := by
    refine List.mem_flatMap.2 ⟨i, hi, ?_⟩
    rw [← itemStruct_types n i]
    exact List.mem_map.2 ⟨f, hf, rfl⟩
  exact ⟨(hT.types _ hn _ hm).1, (hT.types _ hn _ hm).2, hT.mentions _ hn _ hm⟩

theorem dart_typed : DartTyped L (genItems x S) (genCodecs x S) := by
  refine ⟨names_nodup hS hT.classes, ?_, ?_, ?_⟩
  · intro c hc
    rcases structs_cases hc with ⟨n, hn, rfl⟩ | ⟨n, hn, i, hi, rfl⟩
    · exact structClass_typed hS hT (typeNames_classes (struct_name hn)) (struct_fieldsOk hT hn) (hT.structs n hn).1
    · refine structClass_typed hS hT (by rw [itemStruct_id]; exact variant_classes hn hi) (variant_fieldsOk hT hn hi) ?_
      rw [itemStruct_id, itemStruct_fields]
      exact hT.variants n hn i hi
  · intro c hc
    obtain ⟨n, hn, i, hi, rfl⟩ := enums_cases hc
    exact enumClass_typed hS hT hn hi
  · intro c hc
    rcases codecs_cases hc with ⟨n, hn, rfl | rfl⟩ | ⟨n, hn, rfl | rfl | ⟨i, hi, rfl⟩⟩
    · exact structInto_typed hS hT (typeNames_classes (struct_name hn)) (struct_fieldsOk hT hn) (hT.structs n hn).1
        (hT.structs n hn).2 (struct_mem hn)
    · exact structEmplace_typed hS hT (typeNames_classes (struct_name hn)) (struct_fieldsOk hT hn) (struct_mem hn)
    · have hid := typeNames_classes (enum_name hn)
      obtain ⟨d, _, hd⟩ := enum_mem (x := x) hS hn
      refine ⟨head_typed hT hS _, fun h => class_var hT hid ((by decide : ∀ v ∈ codecMembers, v ∈ dartVars) _ h) rfl, ?_⟩
      exact ⟨_, hd, rfl, classes_free hT (by intro a ha; simp only [List.mem_singleton] at ha; exact ha ▸ hid) (by decide),
        enumCodec_typed hS hT hn⟩
    · have hid := typeNames_classes (enum_name hn)
      obtain ⟨d, _, hd⟩ := enum_mem (x := x) hS hn
      refine ⟨head_typed hT hS _, fun h => class_var hT hid ((by decide : ∀ v ∈ codecMembers, v ∈ dartVars) _ h) rfl, ?_⟩
      exact ⟨_, hd, rfl, enumCodec_typed hS hT hn⟩
    · exact structEmplace_typed hS hT (by rw [itemStruct_id]; exact variant_classes hn hi) (variant_fieldsOk hT hn hi)
        (variant_mem hS hn hi)

end

end TPB.Dart
