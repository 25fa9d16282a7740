/- Dart objects in memory: the emitted code that creates objects makes new and separate ones. -/
import Verif.Proofs.DartHeap
namespace TPB.Dart
open Spec DartGen

variable {x : Ext} {S : List ASTNode} {rt : Runtime}

theorem bind_ok {α β : Type} {m : Res α} {f : α → Res β} {b : β} (h : (m >>= f) = .ok b) :
    ∃ a, m = .ok a ∧ f a = .ok b := by
  cases m with
  | error e => simp [bind, Except.bind] at h
  | ok a => exact ⟨a, rfl, h⟩

theorem ok_bind {α β : Type} (a : α) (f : α → Res β) : ((.ok a : Res α) >>= f) = f a := rfl

theorem map_ok {α β : Type} {m : Res α} {f : α → β} {b : β} (h : m.map f = .ok b) : ∃ a, m = .ok a ∧ b = f a := by
  cases m with
  | error e => simp [Except.map] at h
  | ok a => exact ⟨a, rfl, by simpa [Except.map] using h.symm⟩

theorem orElse_ok {α : Type} {f : Fault} {o : Option α} {a : α} (h : orElse f o = .ok a) : o = some a := by
  cases o <;> simp_all [orElse]

/-! ### Growing memory -/

theorem alloc_get (h : Heap) (c : Cell) : (h ++ [c])[h.length]? = some c := by simp

theorem grow_alloc (h : Heap) (c : Cell) : Grow h (h ++ [c]) [] [h.length] where
  len := by simp
  same q hq _ := by rw [List.getElem?_append_left hq]
  new q hq := .inr (Nat.le_of_eq (List.mem_singleton.1 hq).symm)

theorem Grow.refl (h : Heap) (fp : List Ref) : Grow h h fp fp := ⟨Nat.le_refl _, fun _ _ _ => rfl, fun _ hq => .inl hq⟩

theorem Grow.fresh {h h' : Heap} {fp : List Ref} (hg : Grow h h' [] fp) : ∀ q ∈ fp, h.length ≤ q := by
  intro q hq
  rcases hg.new q hq with h | h
  · simp at h
  · exact h

theorem Grow.trans {h1 h2 h3 : Heap} {f g fp : List Ref} (a : Grow h1 h2 [] f) (b : Grow h2 h3 [] g)
    (hm : ∀ q, q ∈ fp → q ∈ f ∨ q ∈ g) : Grow h1 h3 [] fp where
  len := Nat.le_trans a.len b.len
  same q hq _ := by
    rw [b.same q (Nat.lt_of_lt_of_le hq a.len) (by simp), a.same q hq (by simp)]
  new q hq := by
    refine .inr ?_
    rcases hm q hq with h | h
    · exact a.fresh q h
    · exact Nat.le_trans a.len (b.fresh q h)

/-! ### Fields -/

theorem hRecord_zip (ns : List String) (rs : List Ref) (hn : ns.Nodup) (hl : ns.length = rs.length) :
    hRecord ns (ns.zip rs) = .ok (ns.zip rs) := by
  unfold hRecord
  rw [if_pos (by simp [List.length_zip, hl])]
  let val : String → Ref := fun n => ((ns.zip rs).lookup n).getD 0
  have h1 : ∀ n ∈ ns, (ns.zip rs).lookup n = some (val n) := by
    intro n hm
    obtain ⟨i, hi, rfl⟩ := List.getElem_of_mem hm
    have h2 := Rust.lookup_zip_of_nodup ns rs hn hl i hi (by omega)
    simp only [val, h2, Option.getD_some]
  rw [each_ok _ (fun n => (n, val n)) ns (fun n hm => by rw [h1 n hm]; rfl)]
  congr 1
  apply List.ext_getElem
  · simp [hl]
  · intro i h3 h4
    simp only [List.length_map] at h3
    simp only [List.getElem_map, List.getElem_zip]
    have h5 := h1 ns[i] (List.getElem_mem _)
    rw [Rust.lookup_zip_of_nodup ns rs hn hl i h3 (by omega)] at h5
    rw [← Option.some.inj h5]

/-- What is known of the class of a struct or of a variant's payload. -/
structure ClassOk (x : Ext) (S : List ASTNode) (n : StructNode) : Prop where
  cls : (genProg x S).struct? n.id = some (genStructClass x n)
  empl : (genProg x S).codec? (n.id ++ Kind.emplace.suffix) = some (genStructEmplace x n)
  names : (dartFieldNames x n).Nodup
  table : (n.id, (dartFieldNames x n).zip ((n.fields.map (·.typeId)).map dartView)) ∈ dartObjects x (dartSchema S)
  lib : ∀ f ∈ n.fields, LibraryFree S f.typeId

theorem zip_fst (n : StructNode) : ((dartFieldNames x n).zip ((n.fields.map (·.typeId)).map dartView)).map (·.1)
    = dartFieldNames x n := by
  rw [List.map_fst_zip (by simp [dartFieldNames])]

theorem zip_snd (n : StructNode) : ((dartFieldNames x n).zip ((n.fields.map (·.typeId)).map dartView)).map (·.2)
    = (n.fields.map (·.typeId)).map dartView := by
  rw [List.map_snd_zip (by simp [dartFieldNames])]

theorem classOk_struct (hS : Plain S) (hN : DartNamed x S) {n : StructNode} (hn : .struct n ∈ S) : ClassOk x S n where
  cls := struct_class hS hN hn
  empl := codec_struct_emplace hS hN hn
  names := (hN.fields n hn).1
  table := by
    refine List.mem_flatMap.2 ⟨_, mem_view_struct hn, ?_⟩
    simp only [fieldsOf_view, dartFieldNames_view, List.mem_singleton]
  lib f hf := hN.structLib n hn (f.name, f.typeId) (List.mem_map.2 ⟨f, hf, rfl⟩)

theorem classOk_variant (hS : Plain S) (hN : DartNamed x S) {n : EnumNode} (hn : .enum n ∈ S) {i : EnumItem}
    (hi : i ∈ n.items) : ClassOk x S (enumItemStruct n i) where
  cls := by rw [itemStruct_id]; exact variant_class hS hN hn hi
  empl := by rw [itemStruct_id]; exact codec_variant hS hN hn hi
  names := by
    have := hN.payloads n hn i hi
    rwa [← itemStruct_names n i] at this
  table := by
    refine List.mem_flatMap.2 ⟨_, mem_view_enum hn, List.mem_cons_of_mem _ (List.mem_map.2
      ⟨viewItem i, List.mem_map.2 ⟨i, hi, rfl⟩, ?_⟩)⟩
    rw [itemStruct_id, viewItem_id, dartPayloadNames_view, payload_view, itemStruct_types,
      show dartFieldNames x (enumItemStruct n i) = dartPayloadNames x i from itemStruct_names n i]
  lib f hf := by
    have : f.typeId ∈ (payload i).map (·.2) := by
      rw [← itemStruct_types n i]; exact List.mem_map.2 ⟨f, hf, rfl⟩
    obtain ⟨g, hg, e⟩ := List.mem_map.1 this
    exact e ▸ hN.enumLib n hn i hi g hg

/-- The fields of the object of an enum. -/
def enumFields (x : Ext) (n : EnumNode) : List (String × TypeId) :=
  ("value", .other (n.id ++ "Value")) :: n.items.map (fun i => (x.camel i.id, .other (n.id ++ i.id)))

theorem table_enum {n : EnumNode} (hn : .enum n ∈ S) : (n.id, enumFields x n) ∈ dartObjects x (dartSchema S) := by
  refine List.mem_flatMap.2 ⟨_, mem_view_enum hn, ?_⟩
  simp only [enumFields, List.map_map, Function.comp_def, viewItem_id, List.mem_cons, true_or]

theorem enumFields_fst (n : EnumNode) : (enumFields x n).map (·.1) = "value" :: n.items.map (fun i => x.camel i.id) := by
  simp [enumFields, Function.comp_def]

theorem enumFields_snd (n : EnumNode) :
    (enumFields x n).map (·.2) = .other (n.id ++ "Value") :: n.items.map (fun i => .other (n.id ++ i.id)) := by
  simp [enumFields, Function.comp_def]

/-- A new object of a class with new parts. -/
theorem alloc_obj {h h' : Heap} {cls : String} {fs : List (String × TypeId)} {as : List Ref} {is : List Val}
    {f : List Ref} (hm : (cls, fs) ∈ dartObjects x (dartSchema S))
    (hs : Stored True x (dartSchema S) h' (fs.map (·.2)) as is f) (hg : Grow h h' [] f) :
    ∃ fp, Stored True x (dartSchema S) (h' ++ [.obj cls ((fs.map (·.1)).zip as)]) [.other cls] [h'.length]
        [.struct cls ((fs.map (·.1)).zip is)] fp ∧ Grow h (h' ++ [.obj cls ((fs.map (·.1)).zip as)]) [] fp := by
  have hg2 := grow_alloc h' (.obj cls ((fs.map (·.1)).zip as))
  obtain ⟨fp, h1, h2⟩ := stored_obj (T := dartSchema S) hm (alloc_get h' _) (hs.grow hg2 (by simp))
    (fun _ hq => Nat.lt_irrefl _ (hs.lt _ hq))
  exact ⟨fp, h1, hg.trans hg2 fun q hq => by rcases (h2 q).1 hq with rfl | hq <;> simp [*]⟩

/-! ### Creating objects -/

def SimDef (x : Ext) (rt : Runtime) (S : List ASTNode) (k : Nat) : Prop :=
  ∀ t, LibraryFree S t → ∀ h v, evalDef rt (newVal rt (genProg x S) k) (genDef t) = .ok v →
    ∃ o h' fp, (∀ j, k ≤ j → hDef rt (hNew rt (genProg x S) j) (genDef t) h = .ok (o, h')) ∧
      Stored True x (dartSchema S) h' [dartView t] [o] [v] fp ∧ Grow h h' [] fp

def SimCls (x : Ext) (rt : Runtime) (S : List ASTNode) (k : Nat) : Prop :=
  ∀ n, ClassOk x S n → ∀ h v,
    newVal rt (genProg x S) k (if n.fields.isEmpty then .const n.id else .createDefault n.id) = .ok v →
    ∃ o h' fp, (∀ j, k ≤ j → hNew rt (genProg x S) j (if n.fields.isEmpty then .const n.id else .createDefault n.id) h
        = .ok (o, h')) ∧ Stored True x (dartSchema S) h' [.other n.id] [o] [v] fp ∧ Grow h h' [] fp

def SimEnum (x : Ext) (rt : Runtime) (S : List ASTNode) (k : Nat) : Prop :=
  ∀ n, .enum n ∈ S → ∀ h v, newVal rt (genProg x S) k (.enum n.id) = .ok v →
    ∃ o h' fp, (∀ j, k ≤ j → hNew rt (genProg x S) j (.enum n.id) h = .ok (o, h')) ∧
      Stored True x (dartSchema S) h' [.other n.id] [o] [v] fp ∧ Grow h h' [] fp

theorem sim_inits {k : Nat} (hD : SimDef x rt S k) : ∀ (fs : List StructField), (∀ f ∈ fs, LibraryFree S f.typeId) →
    ∀ h lits, each (evalInit rt (newVal rt (genProg x S) k)) (fs.map (fun f => (x.camel f.name, genDef f.typeId)))
      = .ok lits →
    ∃ vs os h' fp, lits = (fs.map (fun f => x.camel f.name)).zip vs ∧
      (∀ j, k ≤ j → hEach (hInit rt (hNew rt (genProg x S) j)) (fs.map (fun f => (x.camel f.name, genDef f.typeId))) h
        = .ok ((fs.map (fun f => x.camel f.name)).zip os, h')) ∧
      Stored True x (dartSchema S) h' ((fs.map (·.typeId)).map dartView) os vs fp ∧ Grow h h' [] fp
  | [], _, h, lits, he => by
    simp only [List.map_nil, each, Except.ok.injEq] at he
    exact ⟨[], [], h, [], by simp [← he], fun _ _ => rfl, .nil, Grow.refl h []⟩
  | f :: fs, hl, h, lits, he => by
    simp only [List.map_cons, each] at he
    obtain ⟨p, hp, he⟩ := bind_ok he
    obtain ⟨ps, hps, he⟩ := bind_ok he
    obtain ⟨v, hv, rfl⟩ := map_ok hp
    obtain ⟨o, h1, f1, r1, s1, g1⟩ := hD f.typeId (hl f (by simp)) h v hv
    obtain ⟨vs, os, h2, f2, rfl, r2, s2, g2⟩ := sim_inits hD fs (fun g hg => hl g (by simp [hg])) h1 ps hps
    obtain ⟨fp, s3, m3⟩ := (s1.grow g2 (by simp)).cons s2 fun _ q hq hq' =>
      Nat.not_lt_of_le (g2.fresh q hq') (s1.lt q hq)
    refine ⟨v :: vs, o :: os, h2, fp, by simpa using he.symm, fun j hj => ?_, by simpa using s3,
      g1.trans g2 fun q hq => (m3 q).1 hq⟩
    simp only [List.map_cons, hEach, hInit, r1 j hj, Except.map, ok_bind]
    rw [r2 j hj]
    rfl

theorem sim_cls {k : Nat} (hD : SimDef x rt S k) : SimCls x rt S (k + 1) := by
  intro n hC h v hv
  cases hf : n.fields.isEmpty with
  | true =>
    have he : n.fields = [] := by simpa using hf
    simp only [hf, if_true] at hv ⊢
    simp only [newVal, hC.cls] at hv
    have hfe : (genStructClass x n).fields.isEmpty = true := by simp [genStructClass, he]
    rw [if_pos hfe] at hv
    obtain rfl : Val.struct n.id [] = v := by simpa using hv
    have hm := hC.table
    have hz : dartFieldNames x n = [] := by simp [dartFieldNames, he]
    rw [hz] at hm
    obtain ⟨fp, h1, h2⟩ := alloc_obj (S := S) (h := h) hm .nil (Grow.refl h [])
    refine ⟨_, _, fp, fun j hj => ?_, h1, h2⟩
    obtain ⟨j, rfl⟩ : ∃ i, j = i + 1 := ⟨j - 1, by omega⟩
    simp only [hNew, hC.cls, if_pos hfe, alloc]
    rfl
  | false =>
    have hfe : (genStructClass x n).fields.isEmpty = false := by simpa [genStructClass] using hf
    have hnames : (genStructClass x n).fields.map (·.2) = dartFieldNames x n := by
      simp [genStructClass, dartFieldNames, Function.comp_def]
    simp only [hf, Bool.false_eq_true, if_false] at hv ⊢
    simp only [newVal, hC.cls, hfe, Bool.false_eq_true, if_false] at hv
    obtain ⟨lits, hlits, hv⟩ := bind_ok hv
    obtain ⟨rec, hrec, hv⟩ := bind_ok hv
    obtain ⟨vs, os, h1, f, rfl, r1, s1, g1⟩ := sim_inits hD n.fields hC.lib h lits hlits
    have hlen := s1.length_eq
    have hl1 : (dartFieldNames x n).length = vs.length := by rw [hlen.2]; simp [dartFieldNames]
    have hl2 : (dartFieldNames x n).length = os.length := by rw [hlen.1]; simp [dartFieldNames]
    rw [hnames, show n.fields.map (fun f => x.camel f.name) = dartFieldNames x n from rfl,
      mkRecord_zip _ _ hC.names hl1] at hrec
    obtain rfl : (dartFieldNames x n).zip vs = rec := by simpa using hrec
    obtain rfl : Val.struct n.id ((dartFieldNames x n).zip vs) = v := by simpa using hv
    have hm := hC.table
    rw [← zip_snd (x := x) n] at s1
    obtain ⟨fp, h2, h3⟩ := alloc_obj (S := S) hm s1 g1
    rw [zip_fst] at h2 h3
    refine ⟨_, _, fp, fun j hj => ?_, h2, h3⟩
    obtain ⟨j, rfl⟩ : ∃ i, j = i + 1 := ⟨j - 1, by omega⟩
    simp only [hNew, hC.cls, hfe, Bool.false_eq_true, if_false]
    rw [show (genStructClass x n).inits = n.fields.map (fun f => (x.camel f.name, genDef f.typeId)) from rfl,
      r1 j (by omega), ok_bind, hnames]
    simp only [show n.fields.map (fun f => x.camel f.name) = dartFieldNames x n from rfl,
      hRecord_zip _ _ hC.names hl2, ok_bind]
    rfl

theorem genNew_cls (n : EnumNode) (i : EnumItem) : (genNew n i).cls = n.id ++ i.id := by cases i <;> rfl

theorem genNew_new (hS : Plain S) (hN : DartNamed x S) {n : EnumNode} (hn : .enum n ∈ S) {i : EnumItem}
    (hi : i ∈ n.items) {k : Nat} {v : Val} (h : newVal rt (genProg x S) k (genNew n i).new = .ok v) :
    (genNew n i).new = if (enumItemStruct n i).fields.isEmpty then .const (enumItemStruct n i).id
      else .createDefault (enumItemStruct n i).id := by
  cases hf : (enumItemStruct n i).fields.isEmpty with
  | false =>
    cases i with
    | empty p id => simp [enumItemStruct] at hf
    | tuple p id vs => rfl
    | struct p id fs => rfl
  | true =>
    have hc := variant_class hS hN hn hi
    have he : (genStructClass x (enumItemStruct n i)).fields.isEmpty = true := by simpa [genStructClass] using hf
    cases i with
    | empty p id => rfl
    | tuple p id vs =>
      cases k with
      | zero => simp [newVal] at h
      | succ k =>
        simp only [genNew, NewE.new, newVal] at h
        rw [show n.id ++ id = n.id ++ (EnumItem.tuple p id vs).id from rfl, hc] at h
        simp [he] at h
    | struct p id fs =>
      cases k with
      | zero => simp [newVal] at h
      | succ k =>
        simp only [genNew, NewE.new, newVal] at h
        rw [show n.id ++ id = n.id ++ (EnumItem.struct p id fs).id from rfl, hc] at h
        simp [he] at h

theorem sim_payloads (hS : Plain S) (hN : DartNamed x S) {n : EnumNode} (hn : .enum n ∈ S) {k : Nat}
    (hC : SimCls x rt S k) : ∀ (is : List EnumItem), (∀ i ∈ is, i ∈ n.items) → ∀ h lits,
    each (evalPayload (newVal rt (genProg x S) k)) (is.map (fun i => (n.id ++ i.id, x.camel i.id, genNew n i))) = .ok lits →
    ∃ vs os h' fp, lits = (is.map (fun i => x.camel i.id)).zip vs ∧
      (∀ j, k ≤ j → hEach (hPayload (hNew rt (genProg x S) j)) (is.map (fun i => (n.id ++ i.id, x.camel i.id, genNew n i))) h
        = .ok ((is.map (fun i => x.camel i.id)).zip os, h')) ∧
      Stored True x (dartSchema S) h' (is.map (fun i => .other (n.id ++ i.id))) os vs fp ∧ Grow h h' [] fp
  | [], _, h, lits, he => by
    simp only [List.map_nil, each, Except.ok.injEq] at he
    exact ⟨[], [], h, [], by simp [← he], fun _ _ => rfl, .nil, Grow.refl h []⟩
  | i :: is, hi, h, lits, he => by
    simp only [List.map_cons, each] at he
    obtain ⟨p, hp, he⟩ := bind_ok he
    obtain ⟨ps, hps, he⟩ := bind_ok he
    have him := hi i (by simp)
    simp only [evalPayload, genNew_cls, if_true] at hp
    obtain ⟨v, hv, rfl⟩ := map_ok hp
    have hnew := genNew_new hS hN hn him hv
    rw [hnew] at hv
    obtain ⟨o, h1, f1, r1, s1, g1⟩ := hC _ (classOk_variant hS hN hn him) h v hv
    rw [itemStruct_id] at s1
    obtain ⟨vs, os, h2, f2, rfl, r2, s2, g2⟩ := sim_payloads hS hN hn hC is (fun j hj => hi j (by simp [hj])) h1 ps hps
    obtain ⟨fp, s3, m3⟩ := (s1.grow g2 (by simp)).cons s2 fun _ q hq hq' =>
      Nat.not_lt_of_le (g2.fresh q hq') (s1.lt q hq)
    refine ⟨v :: vs, o :: os, h2, fp, by simpa using he.symm, fun j hj => ?_, by simpa using s3,
      g1.trans g2 fun q hq => (m3 q).1 hq⟩
    simp only [List.map_cons, hEach, hPayload, genNew_cls, if_true]
    rw [hnew, r1 j hj]
    simp only [Except.map, ok_bind]
    rw [r2 j hj]
    rfl

theorem sim_enum (hS : Plain S) (hN : DartNamed x S) {k : Nat} (hC : SimCls x rt S k) : SimEnum x rt S (k + 1) := by
  intro n hn h v hv
  obtain ⟨d, hd1, hd2⟩ := enum_class hS hN hn
  have hfirst : (genEnumClass x n d.id).first ∈ (genEnumClass x n d.id).consts :=
    List.mem_map.2 ⟨d, List.mem_of_mem_head? (by simp [hd1]), rfl⟩
  simp only [newVal, hd2, if_pos hfirst] at hv
  obtain ⟨lits, hlits, hv⟩ := bind_ok hv
  obtain ⟨vs, os, h1, f, rfl, r1, s1, g1⟩ := sim_payloads hS hN hn hC n.items (fun _ h => h) h lits hlits
  simp only [Except.ok.injEq] at hv
  let c : Cell := .val (.enum (n.id ++ "Value") (x.camel d.id) [])
  have g2 := grow_alloc h1 c
  have hlib : IsLib x S (.other (n.id ++ "Value")) := isLib_const hN hn
  have s2 : Stored True x (dartSchema S) (h1 ++ [c]) [.other (n.id ++ "Value")] [h1.length]
      [.enum (n.id ++ "Value") (x.camel d.id) []] [h1.length] := stored_val (t := .other (n.id ++ "Value")) hlib (alloc_get h1 c)
  obtain ⟨g, s3, m3⟩ := s2.cons (s1.grow g2 (by simp)) fun _ q hq hq' => by
    rw [List.mem_singleton.1 hq] at hq'
    exact Nat.lt_irrefl _ (s1.lt _ hq')
  rw [← enumFields_snd (x := x) n] at s3
  obtain ⟨fp, s4, g4⟩ := alloc_obj (table_enum hn) s3 (g1.trans g2 fun q hq => ((m3 q).1 hq).symm)
  rw [enumFields_fst] at s4 g4
  simp only [List.zip_cons_cons] at s4 g4
  subst hv
  refine ⟨_, _, fp, fun j hj => ?_, s4, g4⟩
  obtain ⟨j, rfl⟩ : ∃ i, j = i + 1 := ⟨j - 1, by omega⟩
  simp only [hNew, hd2, if_pos hfirst]
  rw [show (genEnumClass x n d.id).payloads
    = n.items.map (fun i => (n.id ++ i.id, x.camel i.id, genNew n i)) from rfl, r1 j (by omega), ok_bind]
  rfl

theorem alloc_lib {h : Heap} {t : TypeId} (hl : IsLib x S t) (v : Val) :
    Stored True x (dartSchema S) (h ++ [.val v]) [dartView t] [h.length] [v] [h.length] ∧
      Grow h (h ++ [.val v]) [] [h.length] := ⟨stored_val hl (alloc_get h _), grow_alloc h _⟩

theorem sim_def_builtin {k : Nat} {t : TypeId} {p : String} (hp : builtin? (dartView t) = some p) {h : Heap} {v : Val}
    (hv : evalDef rt (newVal rt (genProg x S) k) (genDef t) = .ok v) :
    ∃ o h' fp, (∀ j, k ≤ j → hDef rt (hNew rt (genProg x S) j) (genDef t) h = .ok (o, h')) ∧
      Stored True x (dartSchema S) h' [dartView t] [o] [v] fp ∧ Grow h h' [] fp := by
  have hl : IsLib x S t := isLib_builtin hp
  obtain ⟨h1, h2⟩ := alloc_lib (h := h) hl v
  refine ⟨_, _, _, fun j _ => ?_, h1, h2⟩
  cases t with
  | integer => simp only [genDef, evalDef, Except.ok.injEq] at hv; subst hv; rfl
  | number => simp only [genDef, evalDef, Except.ok.injEq] at hv; subst hv; rfl
  | bool => simp only [genDef, evalDef, Except.ok.injEq] at hv; subst hv; rfl
  | char => simp only [genDef, evalDef, Except.ok.injEq] at hv; subst hv; rfl
  | other => simp [dartView, builtin?] at hp
  | generic c gs => simp only [dartView] at hp; split at hp <;> (try split at hp) <;> simp [builtin?] at hp

theorem sim_def_generic (hN : DartNamed x S) (hV : VariantsPlain S) (hL : EmptyLists rt) {k : Nat} {c : String}
    {gs : List TypeId} (hf : LibraryFree S (.generic c gs)) {h : Heap} {v : Val}
    (hv : evalDef rt (newVal rt (genProg x S) k) (genDef (.generic c gs)) = .ok v) :
    ∃ o h' fp, (∀ j, k ≤ j → hDef rt (hNew rt (genProg x S) j) (genDef (.generic c gs)) h = .ok (o, h')) ∧
      Stored True x (dartSchema S) h' [dartView (.generic c gs)] [o] [v] fp ∧ Grow h h' [] fp := by
  have hrun : ∀ j, hDef rt (hNew rt (genProg x S) j) (genDef (.generic c gs)) h = .ok (h.length, h ++ [.val v]) := by
    intro j
    simp only [genDef, evalDef] at hv
    simp only [genDef, hDef, hv]
    rfl
  cases hv' : dartView (.generic c gs) with
  | other id =>
    obtain ⟨h1, h2⟩ := alloc_lib (h := h) (isLib_generic (x := x) (S := S) hN hV hv') v
    rw [hv'] at h1
    exact ⟨_, _, _, fun j _ => hrun j, h1, h2⟩
  | generic c' gs' =>
    obtain ⟨g, e, rfl, rfl⟩ := view_generic hv'
    cases e
    have hw : v = .list 0 [] := by
      have h1 := orElse_ok hv
      have h2 := hL (joinStr ", " (([g].map genTy).map Ty.render) ++ ">")
      have e : genericName (listName "Vec") ([g].map genTy)
          = "List<" ++ (joinStr ", " (([g].map genTy).map Ty.render) ++ ">") := by
        rw [genericName, String.append_assoc]
        rfl
      rw [e, h2] at h1
      exact (Option.some.inj h1).symm
    subst hw
    refine ⟨_, _, _, fun j _ => hrun j, ?_, grow_alloc h _⟩
    have := Stored.list (sep := True) (x := x) (T := dartSchema S) (h := h ++ [.val (.list 0 [])]) (.other (dartElem g))
      h.length 0 [] [] [] [] [] [] [] (by simp [Cell.elems]) .nil .nil (by simp)
    simpa using this
  | _ => simp only [dartView] at hv'; split at hv' <;> (try split at hv') <;> simp at hv'

theorem sim_def (hS : Plain S) (hN : DartNamed x S) (hV : VariantsPlain S) (hL : EmptyLists rt) {k : Nat}
    (hC : SimCls x rt S k) (hE : SimEnum x rt S k) : SimDef x rt S (k + 1) := by
  intro t hf h v hv
  cases t with
  | integer => exact sim_def_builtin rfl hv
  | number => exact sim_def_builtin rfl hv
  | bool => exact sim_def_builtin rfl hv
  | char => exact sim_def_builtin rfl hv
  | generic c gs => exact sim_def_generic hN hV hL hf hv
  | other id =>
    simp only [genDef, evalDef] at hv
    by_cases hid : id ∈ typeNames S
    · rcases typeNames_mem hid with ⟨n, hn, rfl⟩ | ⟨n, hn, rfl⟩
      · have hempty : (genStructClass x n).fields.isEmpty = n.fields.isEmpty := by simp [genStructClass]
        simp only [newVal, struct_class hS hN hn, hempty] at hv
        obtain ⟨o, h', fp, r1, s1, g1⟩ := hC n (classOk_struct hS hN hn) h v hv
        refine ⟨o, h', fp, fun j hj => ?_, s1, g1⟩
        obtain ⟨j, rfl⟩ : ∃ i, j = i + 1 := ⟨j - 1, by omega⟩
        simp only [genDef, hDef, hNew, struct_class hS hN hn, hempty]
        exact r1 j (by omega)
      · obtain ⟨d, -, hd2⟩ := enum_class hS hN hn
        simp only [newVal, enum_not_struct hS hN hn, hd2] at hv
        obtain ⟨o, h', fp, r1, s1, g1⟩ := hE n hn h v hv
        refine ⟨o, h', fp, fun j hj => ?_, s1, g1⟩
        obtain ⟨j, rfl⟩ : ∃ i, j = i + 1 := ⟨j - 1, by omega⟩
        simp only [genDef, hDef, hNew, enum_not_struct hS hN hn, hd2]
        exact r1 j (by omega)
    · rw [newVal_library hS hid hf] at hv
      obtain ⟨h1, h2⟩ := alloc_lib (h := h) (isLib_other (x := x) hid hf) v
      refine ⟨_, _, _, fun j hj => ?_, h1, h2⟩
      obtain ⟨j, rfl⟩ : ∃ i, j = i + 1 := ⟨j - 1, by omega⟩
      obtain ⟨h3, h4⟩ := struct_none (x := x) hS (b := id) (by simp only [List.mem_append, not_or]; exact ⟨hid, hf⟩)
      simp only [genDef, hDef, hNew, h3, h4, hv]
      rfl

theorem sim_new (hS : Plain S) (hN : DartNamed x S) (hV : VariantsPlain S) (hL : EmptyLists rt) :
    ∀ k, SimDef x rt S k ∧ SimCls x rt S k ∧ SimEnum x rt S k
  | 0 => by
    refine ⟨fun t hf h v hv => ?_, fun n _ h v hv => by simp [newVal] at hv, fun n _ h v hv => by simp [newVal] at hv⟩
    cases t with
    | integer => exact sim_def_builtin rfl hv
    | number => exact sim_def_builtin rfl hv
    | bool => exact sim_def_builtin rfl hv
    | char => exact sim_def_builtin rfl hv
    | generic c gs => exact sim_def_generic hN hV hL hf hv
    | other id => simp [genDef, evalDef, newVal] at hv
  | k + 1 => by
    obtain ⟨h1, h2, h3⟩ := sim_new hS hN hV hL k
    exact ⟨sim_def hS hN hV hL h2 h3, sim_cls h1, sim_enum hS hN h2⟩

end TPB.Dart
