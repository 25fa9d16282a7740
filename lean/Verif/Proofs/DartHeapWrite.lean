/- Dart objects in memory: writing depends only on what the objects stand for, shared or not. -/
import Verif.Proofs.DartHeapRead
import Verif.Proofs.DartWrite
namespace TPB.Dart
open Spec DartGen

variable {x : Ext} {S : List ASTNode} {rt : Runtime} {sep : Prop}

def SimW (sep : Prop) (x : Ext) (rt : Runtime) (S : List ASTNode) (k : Nat) : Prop :=
  ∀ kd t, LibraryFree S t → ∀ h o v fp, Stored sep x (dartSchema S) h [dartView t] [o] [v] fp →
    ∀ bs, writeT rt (genProg x S) k kd t v = .ok bs →
    ∀ j, k ≤ j → ∀ a, hWriteS rt (hWriteC rt (genProg x S) h j) h o (genWrite kd t a) = .ok bs

def SimWV (sep : Prop) (x : Ext) (rt : Runtime) (S : List ASTNode) (k : Nat) : Prop :=
  ∀ n, .enum n ∈ S → ∀ i ∈ n.items, ∀ h o v fp, Stored sep x (dartSchema S) h [.other (n.id ++ i.id)] [o] [v] fp →
    ∀ bs, writeC rt (genProg x S) k (variantCodec n i) v = .ok bs →
    ∀ j, k ≤ j → hWriteC rt (genProg x S) h j (variantCodec n i) o = .ok bs

theorem sim_writes {k : Nat} (hW : SimW sep x rt S k) (kd : Kind) (c : String) : ∀ (fs : List StructField),
    (∀ f ∈ fs, LibraryFree S f.typeId) → ∀ (pre : List (String × Ref)) (preV : List (String × Val)) os vs h model fp bs,
    (pre.map (·.1) ++ fs.map (fun f => x.camel f.name)).Nodup →
    (preV.map (·.1) ++ fs.map (fun f => x.camel f.name)).Nodup →
    h[model]? = some (.obj c (pre ++ (fs.map (fun f => x.camel f.name)).zip os)) →
    Stored sep x (dartSchema S) h ((fs.map (·.typeId)).map dartView) os vs fp →
    evalWrites rt (writeC rt (genProg x S) k) (.struct c (preV ++ (fs.map (fun f => x.camel f.name)).zip vs))
      (fs.map (fun f => genWrite kd f.typeId (.field (x.camel f.name)))) = .ok bs →
    ∀ j, k ≤ j → hWrites rt (hWriteC rt (genProg x S) h j) h model
      (fs.map (fun f => genWrite kd f.typeId (.field (x.camel f.name)))) = .ok bs
  | [], _, pre, preV, os, vs, h, model, fp, bs, _, _, _, _, he, j, _ => by
    simpa [evalWrites, hWrites] using he
  | f :: fs, hl, pre, preV, [], vs, h, model, fp, bs, _, _, _, hs, _, _, _ => by simpa using hs.length_eq.1
  | f :: fs, hl, pre, preV, o :: os, [], h, model, fp, bs, _, _, _, hs, _, _, _ => by simpa using hs.length_eq.2
  | f :: fs, hl, pre, preV, o :: os, v :: vs, h, model, fp, bs, hn, hnV, hm, hs, he, j, hj => by
    have hn' := hn
    have hnV' := hnV
    simp only [List.map_cons] at hn hnV
    rw [List.nodup_append] at hn hnV
    have hpre : x.camel f.name ∉ pre.map (·.1) := fun hm => hn.2.2 _ hm _ (by simp) rfl
    have hpreV : x.camel f.name ∉ preV.map (·.1) := fun hm => hnV.2.2 _ hm _ (by simp) rfl
    simp only [List.map_cons, List.zip_cons_cons] at hm hs
    simp only [List.map_cons, evalWrites, genWrite_acc, List.zip_cons_cons] at he
    rw [getField_mid hpreV, ok_bind] at he
    obtain ⟨b, hb, he⟩ := bind_ok he
    obtain ⟨bs', hbs, he⟩ := bind_ok he
    simp only [Except.ok.injEq] at he
    subst he
    obtain ⟨f1, g1, s1, s2, -, -⟩ := hs.head
    rw [evalWriteS_acc _ _ _ _ _ (.var "model")] at hb
    have h1 := hW kd f.typeId (hl f (by simp)) h o v f1 s1 b hb j hj (.field (x.camel f.name))
    have h2 := sim_writes hW kd c fs (fun g hg => hl g (by simp [hg])) (pre ++ [(x.camel f.name, o)])
      (preV ++ [(x.camel f.name, v)]) os vs h model g1 bs' (by simpa using hn') (by simpa using hnV')
      (by simpa using hm) s2 (by simpa using hbs) j hj
    simp only [List.map_cons, hWrites, genWrite_acc]
    rw [hGet_mid hm hpre, ok_bind, h1, ok_bind, h2]
    rfl

/-- The body of the codec of a struct or of a variant's payload. -/
theorem sim_writeClass (hN : DartNamed x S) {k : Nat} (hW : SimW sep x rt S k) (kd : Kind) {n : StructNode} (hC : ClassOk x S n)
    {h : Heap} {o : Ref} {v : Val} {fp : List Ref} (hs : Stored sep x (dartSchema S) h [.other n.id] [o] [v] fp) :
    isClass n.id v = true ∧ hIsClass n.id o h = true ∧ ∀ bs, evalWrites rt (writeC rt (genProg x S) k) v
      (n.fields.map (fun f => genWrite kd f.typeId (.field (x.camel f.name)))) = .ok bs →
    ∀ j, k ≤ j → hWrites rt (hWriteC rt (genProg x S) h j) h o
      (n.fields.map (fun f => genWrite kd f.typeId (.field (x.camel f.name)))) = .ok bs := by
  obtain ⟨as, is, f, hr, rfl, hs', -, -⟩ := stored_class hN hC.table hs
  rw [zip_fst] at hr
  rw [zip_snd] at hs'
  refine ⟨by simp [isClass], by simp [hIsClass, hr], fun bs hv j hj => ?_⟩
  rw [zip_fst] at hv
  have hn := hC.names
  exact sim_writes hW kd n.id n.fields hC.lib [] [] as is h o f bs (by simpa [dartFieldNames] using hn)
    (by simpa [dartFieldNames] using hn) hr hs' hv j hj

theorem sim_wv (hS : Plain S) (hN : DartNamed x S) {k : Nat} (hW : SimW sep x rt S k) : SimWV sep x rt S (k + 1) := by
  intro n hn i hi h o v fp hs bs hv j hj
  obtain ⟨j, rfl⟩ : ∃ i, j = i + 1 := ⟨j - 1, by omega⟩
  have hC := classOk_variant hS hN hn hi
  obtain ⟨h1, h2, h3⟩ := sim_writeClass hN hW .emplace hC (by rw [itemStruct_id]; exact hs)
  rw [itemStruct_id] at h1 h2
  simp only [variantCodec, writeC, codec_variant hS hN hn hi, evalWrite, genStructEmplace, itemStruct_id, h1, if_true] at hv
  simp only [variantCodec, hWriteC, codec_variant hS hN hn hi, hWrite, genStructEmplace, itemStruct_id, h2, if_true]
  exact h3 bs hv j (by omega)

/-- `switch (model.value)`. -/
theorem sim_writeCases (hN : DartNamed x S) {k : Nat} (hW : SimWV sep x rt S k) {n : EnumNode} (hn : .enum n ∈ S)
    {h : Heap} {o : Ref} {v : Val} {fp : List Ref} (hs : Stored sep x (dartSchema S) h [.other n.id] [o] [v] fp) :
    isClass n.id v = true ∧ hIsClass n.id o h = true ∧ ∀ bs, evalWriteCases rt (writeC rt (genProg x S) k) n.id
      (n.items.map (genWriteCase x n)) v = .ok bs →
    ∀ j, k ≤ j → hWriteCases rt (hWriteC rt (genProg x S) h j) h n.id (n.items.map (genWriteCase x n)) o = .ok bs := by
  obtain ⟨as, is, f, hr, rfl, hs', -, -⟩ := stored_class hN (table_enum hn) hs
  refine ⟨by simp [isClass], by simp [hIsClass, hr], fun bs hv j hj => ?_⟩
  rw [enumFields_fst] at hr hv
  rw [enumFields_snd] at hs'
  have hlen := hs'.length_eq
  obtain ⟨t0, as, rfl⟩ : ∃ a l, as = a :: l := by
    cases as with
    | nil => simp at hlen
    | cons a l => exact ⟨a, l, rfl⟩
  obtain ⟨tag, is, rfl⟩ : ∃ a l, is = a :: l := by
    cases is with
    | nil => simp at hlen
    | cons a l => exact ⟨a, l, rfl⟩
  simp only [List.length_cons, List.length_map, Nat.add_right_cancel_iff] at hlen
  obtain ⟨ft, fi, st, si, -, -⟩ := hs'.head
  obtain ⟨htag, -⟩ := stored_lib (isLib_const (x := x) hN hn).1 (isLib_const (x := x) hN hn).2 st
  simp only [List.zip_cons_cons] at hr hv
  have hg0 : hGet "value" o h = .ok t0 := hGet_mid (pre := []) hr (by simp)
  have hv0 : getField "value" (.struct n.id (("value", tag) :: (n.items.map (fun i => x.camel i.id)).zip is)) = .ok tag :=
    getField_mid (pre := []) (by simp)
  simp only [evalWriteCases] at hv
  rw [hv0, ok_bind] at hv
  split at hv
  · rename_i a ha
    obtain ⟨i, hi, rfl⟩ := List.mem_map.1 (List.mem_of_find?_eq_some ha)
    obtain ⟨b, hb, hv⟩ := bind_ok hv
    obtain ⟨w, hw, hv⟩ := bind_ok hv
    obtain ⟨bs', hbs, hv⟩ := bind_ok hv
    simp only [Except.ok.injEq] at hv
    subst hv
    obtain ⟨l1, l2, hl⟩ := List.append_of_mem hi
    have hcn := hN.variants n hn
    rw [hl] at hlen hcn si hr hw
    obtain ⟨a1, a, a2, rfl, ha1, ha2⟩ := split_len l1 l2 i hlen.1
    obtain ⟨s1, sv, s2, rfl, hs1, hs2⟩ := split_len l1 l2 i hlen.2
    simp only [List.map_append, List.map_cons] at si hcn hr hw
    obtain ⟨f1, fr, -, sr, -, -⟩ := stored_split (by simp [ha1]) (by simp [hs1]) si
    obtain ⟨fa, f2, stoa, -, -, -⟩ := sr.head
    rw [List.zip_append (by simp [ha1]), ← List.cons_append, List.zip_cons_cons] at hr
    rw [List.zip_append (by simp [hs1]), ← List.cons_append, List.zip_cons_cons] at hw
    rw [← List.cons_append, List.nodup_append] at hcn
    have hpre : ∀ {β : Type} (b0 : β) (b1 : List β), x.camel i.id ∉
        (("value", b0) :: (l1.map (fun i => x.camel i.id)).zip b1).map (·.1) := by
      intro β b0 b1 hm
      rw [List.map_cons, List.mem_cons] at hm
      rcases hm with hm | hm
      · exact hcn.2.2 "value" (by simp) (x.camel i.id) (by simp) hm.symm
      · obtain ⟨p, hp, e⟩ := List.mem_map.1 hm
        exact hcn.2.2 _ (List.mem_cons_of_mem _ (e ▸ (List.of_mem_zip hp).1)) (x.camel i.id) (by simp) rfl
    rw [show (genWriteCase x n i).field = x.camel i.id from rfl, getField_mid (hpre _ _)] at hw
    simp only [Except.ok.injEq] at hw
    subst hw
    have h1 := hW n hn i hi h a sv fa stoa bs' hbs j hj
    simp only [hWriteCases, hValue, htag, hg0, ok_bind, ha, hb]
    rw [show (genWriteCase x n i).field = x.camel i.id from rfl, hGet_mid hr (hpre _ _), ok_bind,
      show (genWriteCase x n i).codec = variantCodec n i from rfl, h1]
    rfl
  · simp at hv

theorem sim_writeAll {k : Nat} (hW : SimW sep x rt S k) {e : String} (hl : LibraryFree S (.other e)) :
    ∀ {es : List Ref} {vs : List Val} {h : Heap} {fp : List Ref} {bs : Bytes},
    Stored sep x (dartSchema S) h (List.replicate es.length (.other e)) es vs fp →
    writeAll (writeC rt (genProg x S) k (.plain .into e)) vs = .ok bs →
    ∀ j, k ≤ j → hWriteAll (hWriteC rt (genProg x S) h j (.plain .into e)) es = .ok bs
  | [], vs, h, fp, bs, hs, he, j, hj => by
    have : vs = [] := by simpa using hs.length_eq.2
    subst this
    exact he
  | o :: es, [], h, fp, bs, hs, he, j, hj => by simpa using hs.length_eq.2
  | o :: es, v :: vs, h, fp, bs, hs, he, j, hj => by
    simp only [List.length_cons, List.replicate_succ] at hs
    obtain ⟨f1, g1, s1, s2, -, -⟩ := hs.head
    simp only [writeAll] at he
    obtain ⟨b, hb, he⟩ := bind_ok he
    obtain ⟨bs', hbs, he⟩ := bind_ok he
    simp only [Except.ok.injEq] at he
    subst he
    have h1 := hW .into (.other e) hl h o v f1 s1 b hb j hj (.var "model")
    have h2 := sim_writeAll hW hl s2 hbs j hj
    simp only [genWrite, hWriteS] at h1
    simp only [hWriteAll, h1, ok_bind, h2]

theorem sim_write_builtin {k : Nat} {kd : Kind} {t : TypeId} {p : String} (hp : builtin? (dartView t) = some p) {h : Heap}
    {o : Ref} {v : Val} {fp : List Ref} (hs : Stored sep x (dartSchema S) h [dartView t] [o] [v] fp) {bs : Bytes}
    (hv : writeT rt (genProg x S) k kd t v = .ok bs) (j : Nat) (a : Acc) :
    hWriteS rt (hWriteC rt (genProg x S) h j) h o (genWrite kd t a) = .ok bs := by
  obtain ⟨-, -, -, h1, -⟩ := view_builtin hp
  have hlib : IsLib x S t := isLib_builtin hp
  obtain ⟨hr, -⟩ := stored_lib hlib.1 hlib.2 hs
  simp only [writeT, h1, evalWriteS] at hv
  simp only [h1, hWriteS, hValue, hr, ok_bind, hv]

/-- Writing, with values and in memory. -/
theorem sim_write (hS : Plain S) (hN : DartNamed x S) (hV : VariantsPlain S) : ∀ k, SimW sep x rt S k ∧ SimWV sep x rt S k
  | 0 => by
    refine ⟨fun kd t hf h o v fp hs bs hv j _ a => ?_, fun n _ i _ h o v fp _ bs hv => by simp [writeC] at hv⟩
    cases t with
    | integer => exact sim_write_builtin rfl hs hv j a
    | number => exact sim_write_builtin rfl hs hv j a
    | bool => exact sim_write_builtin rfl hs hv j a
    | char => exact sim_write_builtin rfl hs hv j a
    | generic c gs => simp [writeT, genWrite, evalWriteS, writeC] at hv
    | other id => simp [writeT, genWrite_other, evalWriteS, writeC] at hv
  | k + 1 => by
    obtain ⟨hW, hWV⟩ := sim_write hS hN hV k
    refine ⟨fun kd t hf h o v fp hs bs hv j hj a => ?_, sim_wv hS hN hW⟩
    obtain ⟨j, rfl⟩ : ∃ i, j = i + 1 := ⟨j - 1, by omega⟩
    have hj' : k ≤ j := by omega
    cases tyCase hN hV hf with
    | builtin _ p hp => exact sim_write_builtin hp hs hv (j + 1) a
    | declared id hid =>
      rw [writeT, genWrite_other, evalWriteS] at hv
      rw [genWrite_other, hWriteS]
      generalize kindOf kd id = kd at hv ⊢
      rcases typeNames_mem hid with ⟨n, hn, rfl⟩ | ⟨n, hn, rfl⟩
      · have hC := classOk_struct hS hN hn
        obtain ⟨h1, h2, h3⟩ := sim_writeClass hN hW kd hC hs
        cases kd with
        | into =>
          simp only [writeC, codec_struct_into hS hN hn, evalWrite, genStructInto, h1, if_true] at hv
          simp only [hWriteC, codec_struct_into hS hN hn, hWrite, genStructInto, h2, if_true]
          exact h3 bs hv j hj'
        | emplace =>
          simp only [writeC, codec_struct_emplace hS hN hn, evalWrite, genStructEmplace, h1, if_true] at hv
          simp only [hWriteC, codec_struct_emplace hS hN hn, hWrite, genStructEmplace, h2, if_true]
          exact h3 bs hv j hj'
      · obtain ⟨h1, h2, h3⟩ := sim_writeCases hN hWV hn hs
        cases kd with
        | into =>
          simp only [writeC, codec_enum_into hS hN hn, evalWrite, genEnumInto, h1, if_true] at hv
          simp only [hWriteC, codec_enum_into hS hN hn, hWrite, genEnumInto, h2, if_true]
          exact h3 bs hv j hj'
        | emplace =>
          simp only [writeC, codec_enum_emplace hS hN hn, evalWrite, genEnumEmplace, h1, if_true] at hv
          simp only [hWriteC, codec_enum_emplace hS hN hn, hWrite, genEnumEmplace, h2, if_true]
          exact h3 bs hv j hj'
    | list g =>
      have e : dartView (.generic "Vec" [g]) = .generic "Vec" [.other (dartElem g)] := by simp [dartView]
      rw [e] at hs
      obtain ⟨n, es, is, f, hel, rfl, hs', -, -⟩ := stored_list hs
      have hlen : is.length = es.length := by simpa using hs'.length_eq.2
      simp only [writeT, genWrite, genCodecG, if_true, evalWriteS, writeC, codec_none hS kd hN.lists, elem_eq] at hv
      split at hv
      · rename_i hn
        obtain ⟨b, hb, hv⟩ := bind_ok hv
        obtain ⟨bs', hbs, hv⟩ := bind_ok hv
        simp only [Except.ok.injEq] at hv
        subst hv
        have hl' : LibraryFree S (.other (dartElem g)) := by simpa [LibraryFree] using hf
        have h1 := sim_writeAll hW hl' hs' hbs j hj'
        simp only [genWrite, genCodecG, if_true, hWriteS, hWriteC, codec_none hS kd hN.lists, elem_eq, hel]
        rw [if_pos (hn.trans hlen), hb, ok_bind, h1]
        rfl
      · simp at hv
    | ext _ id hv' hid hlib =>
      obtain ⟨hr, -⟩ := stored_lib hlib.1 hlib.2 hs
      rcases view_other hv' with rfl | ⟨c, gs, rfl, rfl⟩
      · have hnone : ∀ kd, (genProg x S).codec? (id ++ Kind.suffix kd) = none := fun kd =>
          codec_none hS kd (by simp only [List.mem_append, not_or]; exact ⟨hid, hf⟩)
        simp only [writeT, genWrite_other, evalWriteS, writeC, hnone] at hv
        simp only [genWrite_other, hWriteS, hWriteC, hnone, hWriteX, hValue, hr, ok_bind, hv]
      · have hnone : ∀ kd, (genProg x S).codec? (c ++ Kind.suffix kd) = none := fun kd =>
          codec_none hS kd (libGeneric_free hv' hf)
        simp only [writeT, genWrite, (view_libGeneric hv' kd).1, evalWriteS, writeC, hnone] at hv
        simp only [genWrite, (view_libGeneric hv' kd).1, hWriteS, hWriteC, hnone, hWriteX, hValue, hr, ok_bind, hv]

/-! ### What objects in memory stand for -/

/-- The payload object of a variant has the fields of its class. -/
def PayOk (x : Ext) (T : List ASTNode) (t : TypeId) (v : Val) : Prop :=
  ∀ n, .enum n ∈ T → ∀ i ∈ n.items, t = .other (n.id ++ i.id) →
    ∃ ds, v = payloadObj x n i ds ∧ DObj x T ((payload i).map (·.2)) ds

inductive Pays (x : Ext) (T : List ASTNode) : List TypeId → List Val → Prop
  | nil : Pays x T [] []
  | cons {t : TypeId} {v : Val} {ts : List TypeId} {vs : List Val} : PayOk x T t v → Pays x T ts vs →
      Pays x T (t :: ts) (v :: vs)

theorem payload_zip_fst (i : EnumItem) (l : List TypeId) (h : l.length = (payload i).length) :
    ((dartPayloadNames x i).zip l).map (·.1) = dartPayloadNames x i := by
  rw [List.map_fst_zip (by rw [h]; cases i <;> simp [dartPayloadNames, payload])]

theorem payload_zip_snd (i : EnumItem) (l : List TypeId) (h : l.length = (payload i).length) :
    ((dartPayloadNames x i).zip l).map (·.2) = l := by
  rw [List.map_snd_zip (by rw [h]; cases i <;> simp [dartPayloadNames, payload])]

theorem payOk_list {x : Ext} {T : List ASTNode} {n : EnumNode} (hn : .enum n ∈ T) : ∀ {items : List EnumItem} {is : List Val},
    (∀ i ∈ items, i ∈ n.items) → Pays x T (items.map (fun i => .other (n.id ++ i.id))) is →
    ∃ pls : List (List Val), pls.length = items.length ∧ is = (items.zip pls).map (fun p => payloadObj x n p.1 p.2) ∧
      ∀ p ∈ items.zip pls, DObj x T ((payload p.1).map (·.2)) p.2
  | [], is, _, h => by
    cases h
    exact ⟨[], rfl, rfl, by simp⟩
  | i :: items, is, hi, h => by
    rw [List.map_cons] at h
    cases h with
    | cons h1 h2 =>
      obtain ⟨ds, rfl, hd⟩ := h1 n hn i (hi i (by simp)) rfl
      obtain ⟨pls, h3, rfl, h5⟩ := payOk_list hn (fun j hj => hi j (by simp [hj])) h2
      refine ⟨ds :: pls, by simp [h3], by simp, fun p hp => ?_⟩
      rw [List.zip_cons_cons, List.mem_cons] at hp
      rcases hp with rfl | hp
      · exact hd
      · exact h5 p hp

theorem variant_table {T : List ASTNode} {n : EnumNode} (hn : .enum n ∈ T) {i : EnumItem} (hi : i ∈ n.items) :
    (n.id ++ i.id, (dartPayloadNames x i).zip ((payload i).map (·.2))) ∈ dartObjects x T :=
  List.mem_flatMap.2 ⟨_, hn, List.mem_cons_of_mem _ (List.mem_map.2 ⟨i, hi, rfl⟩)⟩

/-- Objects in memory have the fields of their classes. -/
theorem stored_dobj (hN : DartNamed x S) {h : Heap} {ts : List TypeId} {rs : List Ref} {vs : List Val} {fp : List Ref}
    (hs : Stored sep x (dartSchema S) h ts rs vs fp) :
    DObj x (dartSchema S) ts vs ∧ Pays x (dartSchema S) ts vs := by
  have hkey : ∀ id ∈ typeNames (dartSchema S), ∃ c ∈ dartObjects x (dartSchema S), c.1 = id := fun id hid => by
    rw [typeNames_view] at hid
    exact List.mem_map.1 ((objects_mem (x := x) (S := S)).2 (List.mem_append_left _ hid))
  induction hs with
  | nil => exact ⟨.nil, .nil⟩
  | val t r v ts rs vs g h1 h2 h3 _ _ ih =>
    refine ⟨.any _ _ _ _ (fun id hid e => ?_) ih.1, .cons (fun n hn i hi e => absurd e (h1 _ (variant_table hn hi))) ih.2⟩
    obtain ⟨c, hc, rfl⟩ := hkey id hid
    exact h1 c hc e
  | list e r n es is f ts rs vs g h1 _ _ _ ih1 ih2 =>
    exact ⟨.any _ _ _ _ (by simp) ih2.1, .cons (fun n hn i hi e => by simp at e) ih2.2⟩
  | obj cls fs r as is f ts rs vs g hm h1 _ _ _ ih1 ih2 =>
    refine ⟨?_, .cons (fun n hn i hi e => ?_) ih2.2⟩
    · obtain ⟨d, hd, hm'⟩ := List.mem_flatMap.1 hm
      cases d with
      | struct n =>
        simp only [List.mem_singleton, Prod.mk.injEq] at hm'
        obtain ⟨rfl, rfl⟩ := hm'
        have e1 : ((dartFieldNames x n).zip ((fieldsOf n).map (·.2))).map (·.1) = dartFieldNames x n := by
          rw [List.map_fst_zip (by simp [dartFieldNames, fieldsOf])]
        have e2 : ((dartFieldNames x n).zip ((fieldsOf n).map (·.2))).map (·.2) = (fieldsOf n).map (·.2) := by
          rw [List.map_snd_zip (by simp [dartFieldNames, fieldsOf])]
        rw [e1]
        rw [e2] at ih1
        exact .struct n is _ _ hd ih1.1 ih2.1
      | enum n =>
        rcases List.mem_cons.1 hm' with e | hm'
        · simp only [Prod.mk.injEq] at e
          obtain ⟨rfl, rfl⟩ := e
          simp only [List.map_cons, List.map_map, Function.comp_def] at ih1 ⊢
          obtain ⟨-, h3⟩ := ih1
          cases h3 with
          | cons h4 h5 =>
            obtain ⟨pls, h6, rfl, h8⟩ := payOk_list hd (fun _ h => h) h5
            exact .enum n _ pls _ _ hd h6 h8 ih2.1
        · obtain ⟨i, hi, e⟩ := List.mem_map.1 hm'
          simp only [Prod.mk.injEq] at e
          obtain ⟨rfl, rfl⟩ := e
          refine .any _ _ _ _ (fun id hid e => ?_) ih2.1
          simp only [TypeId.other.injEq] at e
          subst e
          rw [typeNames_view] at hid
          obtain ⟨m, hm2, rfl⟩ := view_enum_mem hd
          obtain ⟨i', hi', rfl⟩ := List.mem_map.1 hi
          rw [viewItem_id] at hid
          exact (List.nodup_append.1 (classes_nodup hN)).2.2 _ hid _
            (List.mem_flatMap.2 ⟨_, hm2, List.mem_map.2 ⟨i', hi', rfl⟩⟩) rfl
      | _ => simp at hm'
    · simp only [TypeId.other.injEq] at e
      subst e
      have := key_unique (objects_nodup hN) hm (variant_table hn hi)
      subst this
      rw [payload_zip_snd _ _ (by simp)] at ih1
      exact ⟨is, by rw [payload_zip_fst _ _ (by simp)]; rfl, ih1.1⟩

end TPB.Dart
