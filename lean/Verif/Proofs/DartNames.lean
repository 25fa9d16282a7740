/- Names in the emitted Dart program: lookups of classes and codecs succeed. -/
import Verif.Sem.DartEval
import Verif.Proofs.RustCodecFacts
namespace TPB.Dart
open Spec DartGen
open Rust (find?_key find?_key_none wfSchema_mem')
open Props (Accepted)

variable {x : Ext} {S : List ASTNode}

/-- The declarations of the schema are as the parser makes them. -/
structure Plain (S : List ASTNode) : Prop where
  structs : ∀ n, .struct n ∈ S → n.emplaceBuffers = true ∧ n.intoBuffers = true
  enums : ∀ n, .enum n ∈ S → n.items ≠ []
  types : Rust.TypesOk S

theorem plain_of_accepted (h : Accepted S) : Plain S where
  structs n hn := by
    obtain ⟨j, hj⟩ := wfSchema_mem' S 0 h.wf _ hn
    exact hj.2
  enums n hn := by
    obtain ⟨j, hj⟩ := wfSchema_mem' S 0 h.wf _ hn
    exact hj.1
  types := Rust.typesOk_of_wf h.wf

/-! ### Codec classes -/

theorem suffix_ne (a b : String) : a ++ "IntoBuffers" ≠ b ++ "EmplaceToBuffers" := by
  intro h
  have h' := congrArg (fun s => s.toList.reverse) h
  simp at h'

theorem append_right_cancel' {a b s : String} (h : a ++ s = b ++ s) : a = b := by
  have h' := congrArg String.toList h
  simp only [String.toList_append, List.append_cancel_right_eq] at h'
  exact String.toList_injective h'

theorem codecName_inj {a b : String} {k l : Kind} (h : a ++ k.suffix = b ++ l.suffix) : a = b ∧ k = l := by
  cases k <;> cases l
  · exact ⟨append_right_cancel' h, rfl⟩
  · exact absurd h (suffix_ne a b)
  · exact absurd h.symm (suffix_ne b a)
  · exact ⟨append_right_cancel' h, rfl⟩

theorem genStructEmplace_name (n : StructNode) : (genStructEmplace x n).name = n.id ++ "EmplaceToBuffers" := rfl
theorem genStructInto_name (n : StructNode) : (genStructInto x n).name = n.id ++ "IntoBuffers" := rfl
theorem genEnumEmplace_name (n : EnumNode) : (genEnumEmplace x n).name = n.id ++ "EmplaceToBuffers" := rfl
theorem genEnumInto_name (n : EnumNode) : (genEnumInto x n).name = n.id ++ "IntoBuffers" := rfl

theorem itemStruct_id (n : EnumNode) (i : EnumItem) : (enumItemStruct n i).id = n.id ++ i.id := by
  cases i <;> rfl

theorem genCodecs_cons (d : ASTNode) (S : List ASTNode) : genCodecs x (d :: S) = genCodecs x [d] ++ genCodecs x S := by
  simp [genCodecs]

theorem typeNames_cons (d : ASTNode) (S : List ASTNode) : typeNames (d :: S) = typeNames [d] ++ typeNames S := by
  cases d <;> simp [typeNames]

theorem variantClasses_cons (d : ASTNode) (S : List ASTNode) :
    variantClasses (d :: S) = variantClasses [d] ++ variantClasses S := by
  simp [variantClasses]

/-- The names of the codec classes, up to order. -/
def codecNames (S : List ASTNode) : List String :=
  (typeNames S).map (· ++ "IntoBuffers") ++ (typeNames S ++ variantClasses S).map (· ++ "EmplaceToBuffers")

theorem codecs_count (hS : Plain S) (a : String) :
    ((genCodecs x S).map CodecClass.name).count a = (codecNames S).count a := by
  have key : ∀ S : List ASTNode, (∀ n, .struct n ∈ S → n.emplaceBuffers = true ∧ n.intoBuffers = true) →
      ((genCodecs x S).map CodecClass.name).count a = (codecNames S).count a := by
    intro S
    induction S with
    | nil => intro _; rfl
    | cons d S ih =>
      intro h
      have h1 := ih (fun n hn => h n (List.mem_cons_of_mem _ hn))
      have h2 : ((genCodecs x [d]).map CodecClass.name).count a = (codecNames [d]).count a := by
        cases d with
        | struct n =>
          obtain ⟨h1, h2⟩ := h n (by simp)
          simp only [genCodecs, List.flatMap_cons, List.flatMap_nil, List.append_nil, genStructCodecs, h1, h2,
            if_true, List.map_append, List.map_cons, List.map_nil, genStructEmplace_name,
            genStructInto_name, codecNames, typeNames, List.filterMap_cons, List.filterMap_nil,
            variantClasses, List.count_append]
          omega
        | enum n =>
          simp only [genCodecs, List.flatMap_cons, List.flatMap_nil, List.append_nil, genEnumCodecs,
            List.map_append, List.map_cons, List.map_nil, genEnumEmplace_name, genEnumInto_name, codecNames,
            typeNames, List.filterMap_cons, List.filterMap_nil, variantClasses, List.map_map]
          have e : (CodecClass.name ∘ fun i => genStructEmplace x (enumItemStruct n i))
              = ((· ++ "EmplaceToBuffers") ∘ fun i : EnumItem => n.id ++ i.id) := by
            funext i
            simp only [Function.comp_apply, genStructEmplace_name, itemStruct_id]
          rw [e]
          simp only [List.count_append, List.count_cons, List.count_nil]
          omega
        | fn _ => rfl
        | const _ => rfl
        | directive _ => rfl
      rw [genCodecs_cons, codecNames, typeNames_cons, variantClasses_cons]
      simp only [List.map_append, List.count_append]
      simp only [codecNames, List.map_append, List.count_append] at h1 h2
      omega
  exact key S hS.structs

theorem codecs_nodup (hS : Plain S) (hN : DartNamed x S) : ((genCodecs x S).map CodecClass.name).Nodup := by
  have h : (codecNames S).Nodup := (List.nodup_append.1 hN.classes).2.1
  rw [List.nodup_iff_count] at h ⊢
  intro a
  rw [codecs_count hS]
  exact h a

theorem codec_mem (hS : Plain S) (hN : DartNamed x S) {c : CodecClass} (hc : c ∈ genCodecs x S) :
    (genProg x S).codec? c.name = some c :=
  find?_key CodecClass.name _ (codecs_nodup hS hN) c hc

theorem codec_struct_into (hS : Plain S) (hN : DartNamed x S) {n : StructNode} (hn : .struct n ∈ S) :
    (genProg x S).codec? (n.id ++ Kind.into.suffix) = some (genStructInto x n) := by
  rw [show n.id ++ Kind.into.suffix = (genStructInto x n).name from rfl]
  refine codec_mem hS hN (List.mem_flatMap.2 ⟨_, hn, ?_⟩)
  simp [genStructCodecs, (hS.structs n hn).1, (hS.structs n hn).2]

theorem codec_struct_emplace (hS : Plain S) (hN : DartNamed x S) {n : StructNode} (hn : .struct n ∈ S) :
    (genProg x S).codec? (n.id ++ Kind.emplace.suffix) = some (genStructEmplace x n) := by
  rw [show n.id ++ Kind.emplace.suffix = (genStructEmplace x n).name from rfl]
  refine codec_mem hS hN (List.mem_flatMap.2 ⟨_, hn, ?_⟩)
  simp [genStructCodecs, (hS.structs n hn).1, (hS.structs n hn).2]

theorem codec_variant (hS : Plain S) (hN : DartNamed x S) {n : EnumNode} (hn : .enum n ∈ S) {i : EnumItem}
    (hi : i ∈ n.items) :
    (genProg x S).codec? (n.id ++ i.id ++ Kind.emplace.suffix) = some (genStructEmplace x (enumItemStruct n i)) := by
  rw [show n.id ++ i.id ++ Kind.emplace.suffix = (genStructEmplace x (enumItemStruct n i)).name by
    rw [genStructEmplace_name, itemStruct_id]; rfl]
  refine codec_mem hS hN (List.mem_flatMap.2 ⟨_, hn, ?_⟩)
  simp only [genEnumCodecs, List.mem_append, List.mem_map]
  exact .inl ⟨i, hi, rfl⟩

theorem codec_enum_into (hS : Plain S) (hN : DartNamed x S) {n : EnumNode} (hn : .enum n ∈ S) :
    (genProg x S).codec? (n.id ++ Kind.into.suffix) = some (genEnumInto x n) := by
  rw [show n.id ++ Kind.into.suffix = (genEnumInto x n).name from rfl]
  refine codec_mem hS hN (List.mem_flatMap.2 ⟨_, hn, ?_⟩)
  simp [genEnumCodecs]

theorem codec_enum_emplace (hS : Plain S) (hN : DartNamed x S) {n : EnumNode} (hn : .enum n ∈ S) :
    (genProg x S).codec? (n.id ++ Kind.emplace.suffix) = some (genEnumEmplace x n) := by
  rw [show n.id ++ Kind.emplace.suffix = (genEnumEmplace x n).name from rfl]
  refine codec_mem hS hN (List.mem_flatMap.2 ⟨_, hn, ?_⟩)
  simp [genEnumCodecs]

/-- Names that the file does not declare belong to the library. -/
theorem codec_none (hS : Plain S) {b : String} (k : Kind) (hb : b ∉ typeNames S ++ variantClasses S) :
    (genProg x S).codec? (b ++ k.suffix) = none := by
  refine find?_key_none CodecClass.name _ _ (fun hmem => ?_)
  rw [show (genProg x S).codecs = genCodecs x S from rfl, ← List.count_pos_iff, codecs_count hS,
    List.count_pos_iff] at hmem
  simp only [codecNames, List.mem_append, List.mem_map] at hmem
  simp only [List.mem_append, not_or] at hb
  rcases hmem with ⟨c, hc, he⟩ | ⟨c, hc, he⟩
  · have := (codecName_inj (k := .into) (l := k) he).1
    exact hb.1 (this ▸ hc)
  · have := (codecName_inj (k := .emplace) (l := k) he).1
    subst this
    rcases hc with hc | hc
    · exact hb.1 hc
    · exact hb.2 hc

/-! ### Model classes -/

theorem genStructClass_id (n : StructNode) : (genStructClass x n).id = n.id := rfl
theorem genEnumClass_id (n : EnumNode) (f : String) : (genEnumClass x n f).id = n.id := rfl

theorem genItems_cons (d : ASTNode) (S : List ASTNode) : genItems x (d :: S) = genItems x [d] ++ genItems x S := by
  unfold genItems
  rw [← List.filterMap_append]; rfl

theorem classes_count (S : List ASTNode) (hS : ∀ n, .enum n ∈ S → n.items ≠ []) (a : String) :
    (((genItems x S).flatMap ClassItem.structs).map StructClass.id).count a
      + (((genItems x S).flatMap ClassItem.enums).map EnumClass.id).count a
      = (typeNames S ++ variantClasses S).count a := by
  induction S with
  | nil => rfl
  | cons d S ih =>
    have h1 := ih (fun n hn => hS n (List.mem_cons_of_mem _ hn))
    have h2 : (((genItems x [d]).flatMap ClassItem.structs).map StructClass.id).count a
      + (((genItems x [d]).flatMap ClassItem.enums).map EnumClass.id).count a
      = (typeNames [d] ++ variantClasses [d]).count a := by
      cases d with
      | struct n => simp [genItems, ClassItem.structs, ClassItem.enums, typeNames, variantClasses, genStructClass_id]
      | enum n =>
        cases hi : n.items with
        | nil => exact absurd hi (hS n (by simp))
        | cons i is =>
          have he : n.items.head? = some i := by simp [hi]
          have e : (StructClass.id ∘ fun i => genStructClass x (enumItemStruct n i))
              = fun i : EnumItem => n.id ++ i.id := by
            funext i
            simp only [Function.comp_apply, genStructClass_id, itemStruct_id]
          simp only [genItems, List.filterMap_cons, he, Option.map_some, List.filterMap_nil,
            List.flatMap_cons, List.flatMap_nil, ClassItem.structs, ClassItem.enums, genVariants,
            List.append_nil, List.map_map, e, List.map_cons, List.map_nil, genEnumClass_id, typeNames,
            variantClasses, List.count_append]
          omega
      | fn _ => rfl
      | const _ => rfl
      | directive _ => rfl
    rw [genItems_cons, typeNames_cons, variantClasses_cons]
    simp only [List.flatMap_append, List.map_append, List.count_append] at h1 h2 ⊢
    omega

theorem classes_nodup (hN : DartNamed x S) : (typeNames S ++ variantClasses S).Nodup := by
  have h := hN.classes
  unfold dartClasses at h
  exact (List.nodup_append.1 (List.nodup_append.1 (List.nodup_append.1 h).1).1).1

theorem structs_nodup (hS : Plain S) (hN : DartNamed x S) :
    (((genItems x S).flatMap ClassItem.structs).map StructClass.id).Nodup := by
  have h := classes_nodup hN
  rw [List.nodup_iff_count] at h ⊢
  intro a
  have := classes_count (x := x) S hS.enums a
  have := h a
  omega

theorem enums_nodup (hS : Plain S) (hN : DartNamed x S) :
    (((genItems x S).flatMap ClassItem.enums).map EnumClass.id).Nodup := by
  have h := classes_nodup hN
  rw [List.nodup_iff_count] at h ⊢
  intro a
  have := classes_count (x := x) S hS.enums a
  have := h a
  omega

theorem struct_class (hS : Plain S) (hN : DartNamed x S) {n : StructNode} (hn : .struct n ∈ S) :
    (genProg x S).struct? n.id = some (genStructClass x n) := by
  refine find?_key StructClass.id _ (structs_nodup hS hN) (genStructClass x n) ?_
  refine List.mem_flatMap.2 ⟨.struct (genStructClass x n), List.mem_filterMap.2 ⟨_, hn, rfl⟩, ?_⟩
  simp [ClassItem.structs]

theorem enum_item (hS : Plain S) {n : EnumNode} (hn : .enum n ∈ S) :
    ∃ d, n.items.head? = some d ∧ .enum (genEnumClass x n d.id) (genVariants x n) ∈ genItems x S := by
  cases hi : n.items with
  | nil => exact absurd hi (hS.enums n hn)
  | cons i is =>
    refine ⟨i, rfl, List.mem_filterMap.2 ⟨_, hn, ?_⟩⟩
    simp [hi]

theorem variant_class (hS : Plain S) (hN : DartNamed x S) {n : EnumNode} (hn : .enum n ∈ S) {i : EnumItem}
    (hi : i ∈ n.items) :
    (genProg x S).struct? (n.id ++ i.id) = some (genStructClass x (enumItemStruct n i)) := by
  obtain ⟨d, _, hd⟩ := enum_item (x := x) hS hn
  have h := find?_key StructClass.id _ (structs_nodup hS hN) (genStructClass x (enumItemStruct n i))
    (List.mem_flatMap.2 ⟨_, hd, List.mem_map.2 ⟨i, hi, rfl⟩⟩)
  rwa [genStructClass_id, itemStruct_id] at h

theorem enum_class (hS : Plain S) (hN : DartNamed x S) {n : EnumNode} (hn : .enum n ∈ S) :
    ∃ d, n.items.head? = some d ∧ (genProg x S).enum? n.id = some (genEnumClass x n d.id) := by
  obtain ⟨d, h1, hd⟩ := enum_item (x := x) hS hn
  refine ⟨d, h1, ?_⟩
  exact find?_key EnumClass.id _ (enums_nodup hS hN) (genEnumClass x n d.id)
    (List.mem_flatMap.2 ⟨_, hd, by simp [ClassItem.enums]⟩)

theorem struct_none (hS : Plain S) {b : String} (hb : b ∉ typeNames S ++ variantClasses S) :
    (genProg x S).struct? b = none ∧ (genProg x S).enum? b = none := by
  have h := classes_count (x := x) S hS.enums b
  rw [List.count_eq_zero_of_not_mem hb] at h
  constructor
  · exact find?_key_none StructClass.id _ _ (List.count_eq_zero.1 (by simp only [genProg]; omega))
  · exact find?_key_none EnumClass.id _ _ (List.count_eq_zero.1 (by simp only [genProg]; omega))

theorem enum_not_struct (hS : Plain S) (hN : DartNamed x S) {n : EnumNode} (hn : .enum n ∈ S) :
    (genProg x S).struct? n.id = none := by
  have h := classes_count (x := x) S hS.enums n.id
  have h1 := List.nodup_iff_count.1 (classes_nodup hN) n.id
  obtain ⟨d, _, hd⟩ := enum_item (x := x) hS hn
  have h2 : 0 < (((genItems x S).flatMap ClassItem.enums).map EnumClass.id).count n.id :=
    List.count_pos_iff.2 (List.mem_map.2 ⟨genEnumClass x n d.id,
      List.mem_flatMap.2 ⟨_, hd, by simp [ClassItem.enums]⟩, rfl⟩)
  exact find?_key_none StructClass.id _ _ (List.count_eq_zero.1 (by simp only [genProg]; omega))

/-! ### The schema as Dart sees it -/

theorem typeNames_view (S : List ASTNode) : typeNames (dartSchema S) = typeNames S := by
  induction S with
  | nil => rfl
  | cons d S ih =>
    rw [dartSchema, List.map_cons, typeNames_cons, typeNames_cons d S]
    rw [← dartSchema, ih]
    cases d <;> rfl

theorem view_struct_mem {n : StructNode} (h : .struct n ∈ dartSchema S) :
    ∃ m, .struct m ∈ S ∧ n = { m with fields := m.fields.map viewField } := by
  obtain ⟨d, hd, he⟩ := List.mem_map.1 h
  cases d <;> simp [viewDecl] at he
  exact ⟨_, hd, he.symm⟩

theorem view_enum_mem {n : EnumNode} (h : .enum n ∈ dartSchema S) :
    ∃ m, .enum m ∈ S ∧ n = { m with items := m.items.map viewItem } := by
  obtain ⟨d, hd, he⟩ := List.mem_map.1 h
  cases d <;> simp [viewDecl] at he
  exact ⟨_, hd, he.symm⟩

theorem viewItem_id (i : EnumItem) : (viewItem i).id = i.id := by cases i <;> rfl
theorem viewItem_position (i : EnumItem) : (viewItem i).position = i.position := by cases i <;> rfl

theorem fieldsOf_view (m : StructNode) :
    (fieldsOf { m with fields := m.fields.map viewField }).map (·.2)
      = (m.fields.map (·.typeId)).map dartView := by
  simp [fieldsOf, viewField, Function.comp_def]

theorem payload_view (i : EnumItem) : (payload (viewItem i)).map (·.2) = ((payload i).map (·.2)).map dartView := by
  cases i with
  | empty _ _ => rfl
  | tuple _ _ vs =>
    simp only [viewItem, payload]
    rw [Rust.map_snd_mapIdx, Rust.map_snd_mapIdx]
    simp [viewTup, Function.comp_def]
  | struct _ _ fs => simp [viewItem, payload, viewField, Function.comp_def]

theorem itemStruct_types (n : EnumNode) (i : EnumItem) :
    (enumItemStruct n i).fields.map (·.typeId) = (payload i).map (·.2) := by
  cases i with
  | empty _ _ => rfl
  | tuple _ _ vs =>
    have key : ∀ (vs : List TupleField) k, (tupleStructFields k vs).map (·.typeId) = vs.map (·.typeId) := by
      intro vs
      induction vs with
      | nil => intro k; rfl
      | cons v vs ih => intro k; simp [tupleStructFields, ih]
    simp [enumItemStruct, payload, key]
    exact (Rust.map_snd_mapIdx vs).symm
  | struct _ _ fs => simp [enumItemStruct, payload, Function.comp_def]

theorem itemStruct_names (n : EnumNode) (i : EnumItem) :
    (enumItemStruct n i).fields.map (fun f => x.camel f.name) = dartPayloadNames x i := by
  cases i with
  | empty _ _ => rfl
  | tuple _ _ vs =>
    have key : ∀ (vs : List TupleField) k, (tupleStructFields k vs).map (fun f => x.camel f.name)
        = (List.range vs.length).map (fun j => x.camel ("v" ++ toString (j + k))) := by
      intro vs
      induction vs with
      | nil => intro k; rfl
      | cons v vs ih =>
        intro k
        rw [tupleStructFields, List.map_cons, ih, List.length_cons, List.range_succ_eq_map, List.map_cons,
          List.map_map]
        congr 1
        · simp
        · refine List.map_congr_left (fun j _ => ?_)
          simp only [Function.comp_apply, Nat.succ_eq_add_one]
          rw [show j + 1 + k = j + (k + 1) by omega]
    simpa [enumItemStruct, dartPayloadNames] using key vs 0
  | struct _ _ fs => rfl

theorem dartPayloadNames_view (i : EnumItem) : dartPayloadNames x (viewItem i) = dartPayloadNames x i := by
  cases i with
  | empty _ _ => rfl
  | tuple _ _ vs => simp [viewItem, dartPayloadNames]
  | struct _ _ fs => simp [viewItem, dartPayloadNames, viewField, Function.comp_def]

theorem dartFieldNames_view (m : StructNode) :
    dartFieldNames x { m with fields := m.fields.map viewField } = dartFieldNames x m := by
  simp [dartFieldNames, viewField, Function.comp_def]

theorem dartPayloadNames_length (i : EnumItem) : (dartPayloadNames x i).length = (payload i).length := by
  cases i with
  | empty _ _ => rfl
  | tuple _ _ vs => simp [dartPayloadNames, payload]
  | struct _ _ fs => simp [dartPayloadNames, payload]

end TPB.Dart
