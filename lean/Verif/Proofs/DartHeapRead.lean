/- Dart objects in memory: reading makes new and separate objects, and reading in place changes only the object. -/
import Verif.Proofs.DartHeapNew
namespace TPB.Dart
open Spec DartGen

variable {x : Ext} {S : List ASTNode} {rt : Runtime}

/-! ### Fields of objects in memory -/

theorem lookup_midR {β : Type} {pre rest : List (String × β)} {f : String} {o : β} (h : f ∉ pre.map (·.1)) :
    (pre ++ (f, o) :: rest).lookup f = some o := by
  induction pre with
  | nil => simp
  | cons p pre ih =>
    obtain ⟨a, b⟩ := p
    simp only [List.map_cons, List.mem_cons, not_or] at h
    rw [List.cons_append, List.lookup_cons]
    have : (f == a) = false := by simpa using h.1
    simp only [this, ih h.2]

theorem map_set_idR {β : Type} {l : List (String × β)} {f : String} {v : β} (h : f ∉ l.map (·.1)) :
    l.map (fun p => if p.1 = f then (f, v) else p) = l := by
  induction l with
  | nil => rfl
  | cons p l ih =>
    simp only [List.map_cons, List.mem_cons, not_or] at h
    rw [List.map_cons, ih h.2, if_neg (fun e => h.1 e.symm)]

theorem hGet_mid {h : Heap} {model : Ref} {c : String} {pre rest : List (String × Ref)} {f : String} {o : Ref}
    (hm : h[model]? = some (.obj c (pre ++ (f, o) :: rest))) (hp : f ∉ pre.map (·.1)) : hGet f model h = .ok o := by
  simp only [hGet, hm, lookup_midR hp]
  rfl

theorem hSet_mid {h : Heap} {model : Ref} {c : String} {pre rest : List (String × Ref)} {f : String} {o r : Ref}
    (hm : h[model]? = some (.obj c (pre ++ (f, o) :: rest))) (hp : f ∉ pre.map (·.1)) (hr : f ∉ rest.map (·.1)) :
    hSet f r model h = .ok (h.set model (.obj c (pre ++ (f, r) :: rest))) := by
  simp only [hSet, hm, lookup_midR hp, Option.isSome_some, if_true, List.map_append, List.map_cons,
    map_set_idR hp, map_set_idR hr]

theorem set_get {h : Heap} {r : Ref} (c : Cell) (hr : r < h.length) : (h.set r c)[r]? = some c := by
  rw [List.getElem?_set_self hr]

theorem set_other {h : Heap} {r q : Ref} (c : Cell) (hq : q ≠ r) : (h.set r c)[q]? = h[q]? :=
  List.getElem?_set_ne (fun e => hq e.symm)

/-! ### The simulation -/

def SimRead (x : Ext) (rt : Runtime) (S : List ASTNode) (k : Nat) : Prop :=
  ∀ t, LibraryFree S t → ∀ h bs v r, readT rt (genProg x S) k t bs = .ok (v, r) →
    ∃ o h' fp, (∀ j, k ≤ j → hReadE rt (hReaders rt (genProg x S) j) (genRead t) h bs = .ok (o, h', r)) ∧
      Stored True x (dartSchema S) h' [dartView t] [o] [v] fp ∧ Grow h h' [] fp

def SimEmpl (x : Ext) (rt : Runtime) (S : List ASTNode) (k : Nat) : Prop :=
  ∀ t, LibraryFree S t → ∀ h o old fp, Stored True x (dartSchema S) h [dartView t] [o] [old] fp →
    ∀ bs v r, emplT rt (genProg x S) k t old bs = .ok (v, r) →
    ∃ o' h' fp', (∀ j, k ≤ j → ∀ a, hEmplS rt (hReaders rt (genProg x S) j) o (genReadEmplace t a) h bs = .ok (o', h', r)) ∧
      Stored True x (dartSchema S) h' [dartView t] [o'] [v] fp' ∧ Grow h h' fp fp' ∧
      ((∃ e, ∀ a, genReadEmplace t a = .assign a e) ∨ ((∃ c, ∀ a, genReadEmplace t a = .into c a) ∧ o' = o))

def SimClassE (x : Ext) (rt : Runtime) (S : List ASTNode) (k : Nat) : Prop :=
  ∀ n, ClassOk x S n → ∀ h o old fp, Stored True x (dartSchema S) h [.other n.id] [o] [old] fp →
    ∀ bs v r, (readers rt (genProg x S) k).empl (.plain .emplace n.id) old bs = .ok (v, r) →
    ∃ h' fp', (∀ j, k ≤ j → (hReaders rt (genProg x S) j).empl (.plain .emplace n.id) o h bs = .ok (h', r)) ∧
      Stored True x (dartSchema S) h' [.other n.id] [o] [v] fp' ∧ Grow h h' fp fp'

theorem sim_reads {k : Nat} (hR : SimRead x rt S k) : ∀ (ts : List TypeId), (∀ t ∈ ts, LibraryFree S t) →
    ∀ h bs vs r, evalReads rt (readers rt (genProg x S) k) (ts.map genRead) bs = .ok (vs, r) →
    ∃ os h' fp, (∀ j, k ≤ j → hReads rt (hReaders rt (genProg x S) j) (ts.map genRead) h bs = .ok (os, h', r)) ∧
      Stored True x (dartSchema S) h' (ts.map dartView) os vs fp ∧ Grow h h' [] fp
  | [], _, h, bs, vs, r, he => by
    simp only [List.map_nil, evalReads, Except.ok.injEq, Prod.mk.injEq] at he
    obtain ⟨rfl, rfl⟩ := he
    exact ⟨[], h, [], fun _ _ => rfl, .nil, Grow.refl h []⟩
  | t :: ts, hl, h, bs, vs, r, he => by
    simp only [List.map_cons, evalReads] at he
    obtain ⟨⟨v, bs1⟩, hv, he⟩ := bind_ok he
    obtain ⟨⟨ws, bs2⟩, hw, he⟩ := bind_ok he
    simp only [Except.ok.injEq, Prod.mk.injEq] at he
    obtain ⟨rfl, rfl⟩ := he
    obtain ⟨o, h1, f1, r1, s1, g1⟩ := hR t (hl t (by simp)) h bs v bs1 hv
    obtain ⟨os, h2, f2, r2, s2, g2⟩ := sim_reads hR ts (fun u hu => hl u (by simp [hu])) h1 bs1 ws bs2 hw
    obtain ⟨fp, s3, m3⟩ := (s1.grow g2 (by simp)).cons s2 fun _ q hq hq' =>
      Nat.not_lt_of_le (g2.fresh q hq') (s1.lt q hq)
    refine ⟨o :: os, h2, fp, fun j hj => ?_, by simpa using s3, g1.trans g2 fun q hq => (m3 q).1 hq⟩
    simp only [List.map_cons, hReads, r1 j hj, ok_bind]
    rw [r2 j hj]
    rfl

theorem sim_empls {k : Nat} (hE : SimEmpl x rt S k) (c : String) : ∀ (fs : List StructField),
    (∀ f ∈ fs, LibraryFree S f.typeId) → ∀ (pre : List (String × Ref)) os olds h model fp bs vs r,
    (pre.map (·.1) ++ fs.map (fun f => x.camel f.name)).Nodup →
    h[model]? = some (.obj c (pre ++ (fs.map (fun f => x.camel f.name)).zip os)) →
    Stored True x (dartSchema S) h ((fs.map (·.typeId)).map dartView) os olds fp → model ∉ fp →
    emplMany rt (genProg x S) k (fs.map (·.typeId)) olds bs = .ok (vs, r) →
    ∃ os' h' fp', (∀ j, k ≤ j → hEmpls rt (hReaders rt (genProg x S) j)
        (fs.map (fun f => genReadEmplace f.typeId (.field (x.camel f.name)))) model h bs = .ok (h', r)) ∧
      h'[model]? = some (.obj c (pre ++ (fs.map (fun f => x.camel f.name)).zip os')) ∧
      Stored True x (dartSchema S) h' ((fs.map (·.typeId)).map dartView) os' vs fp' ∧ model ∉ fp' ∧
      Grow h h' (model :: fp) fp'
  | [], _, pre, os, olds, h, model, fp, bs, vs, r, _, hm, hs, hd, he => by
    simp only [List.map_nil, emplMany, Except.ok.injEq, Prod.mk.injEq] at he
    obtain ⟨rfl, rfl⟩ := he
    cases hs
    exact ⟨[], h, [], fun _ _ => rfl, hm, .nil, by simp, ⟨Nat.le_refl _, fun _ _ _ => rfl, by simp⟩⟩
  | f :: fs, hl, pre, [], olds, h, model, fp, bs, vs, r, _, _, hs, _, _ => by simpa using hs.length_eq.1
  | f :: fs, hl, pre, o :: os, [], h, model, fp, bs, vs, r, _, _, hs, _, _ => by simpa using hs.length_eq.2
  | f :: fs, hl, pre, o :: os, old :: olds, h, model, fp, bs, vs, r, hn, hm, hs, hd, he => by
    have hn' := hn
    simp only [List.map_cons] at hn
    rw [List.nodup_append] at hn
    obtain ⟨h1, h2, h3⟩ := hn
    rw [List.nodup_cons] at h2
    have hpre : x.camel f.name ∉ pre.map (·.1) := fun hm => h3 _ hm _ (by simp) rfl
    have hrest : ∀ os : List Ref, x.camel f.name ∉ ((fs.map (fun f => x.camel f.name)).zip os).map (·.1) := by
      intro os hm
      obtain ⟨p, hp, e⟩ := List.mem_map.1 hm
      exact h2.1 (e ▸ (List.of_mem_zip hp).1)
    simp only [List.map_cons, emplMany] at he
    obtain ⟨⟨v, bs1⟩, hv, he⟩ := bind_ok he
    obtain ⟨⟨ws, bs2⟩, hw, he⟩ := bind_ok he
    simp only [Except.ok.injEq, Prod.mk.injEq] at he
    obtain ⟨rfl, rfl⟩ := he
    simp only [List.map_cons, List.zip_cons_cons] at hm hs ⊢
    have hmlt := lt_of_some hm
    obtain ⟨f1, g1, s1, s2, hdis, hmem⟩ := hs.head
    have hd1 : model ∉ f1 := fun hq => hd ((hmem _).2 (.inl hq))
    have hd2 : model ∉ g1 := fun hq => hd ((hmem _).2 (.inr hq))
    obtain ⟨o', ha, f1', ra, sa, ga, hcase⟩ := hE f.typeId (hl f (by simp)) h o old f1 s1 bs v bs1 hv
    have hd1' : model ∉ f1' := fun hq => by
      rcases ga.new _ hq with h | h
      · exact hd1 h
      · exact Nat.not_lt_of_le h hmlt
    have hma := (ga.same model hmlt hd1).trans hm
    -- the field refers to the object that has been read
    obtain ⟨hb, hst, hmb, hlen, hsame⟩ : ∃ hb, hStore (genReadEmplace f.typeId (.field (x.camel f.name))) (x.camel f.name)
        o' model ha = .ok hb ∧
        hb[model]? = some (.obj c (pre ++ (x.camel f.name, o') :: (fs.map (fun f => x.camel f.name)).zip os)) ∧
        hb.length = ha.length ∧ ∀ q, q ≠ model → hb[q]? = ha[q]? := by
      rcases hcase with ⟨e, he⟩ | ⟨⟨cd, he⟩, rfl⟩
      · rw [he]
        refine ⟨_, hSet_mid hma hpre (hrest os), set_get _ (lt_of_some hma), by simp, fun q hq => set_other _ hq⟩
      · rw [he]
        exact ⟨ha, rfl, hma, rfl, fun _ _ => rfl⟩
    have s2b : Stored True x (dartSchema S) hb ((fs.map (·.typeId)).map dartView) os olds g1 := by
      refine (s2.grow ga fun q hq hq' => hdis trivial q hq' hq).frame fun q hq => hsame q fun e => hd2 (e ▸ hq)
    have sab : Stored True x (dartSchema S) hb [dartView f.typeId] [o'] [v] f1' :=
      sa.frame fun q hq => hsame q fun e => hd1' (e ▸ hq)
    obtain ⟨os', hc, g1', rc, hmc, sc, hdc, gc⟩ := sim_empls hE c fs (fun g hg => hl g (by simp [hg]))
      (pre ++ [(x.camel f.name, o')]) os olds hb model g1 bs1 ws bs2 (by simpa using hn')
      (by simpa using hmb) s2b hd2 hw
    have hdis1 : ∀ q ∈ f1', q ∉ model :: g1 := by
      intro q hq hq'
      rcases List.mem_cons.1 hq' with rfl | hq'
      · exact hd1' hq
      · rcases ga.new q hq with h | h
        · exact hdis trivial q h hq'
        · exact Nat.not_lt_of_le h (s2.lt q hq')
    obtain ⟨fp', s3, m3⟩ := (sab.grow gc hdis1).cons sc fun _ q hq hq' => by
      rcases gc.new q hq' with h | h
      · exact hdis1 q hq h
      · exact Nat.not_lt_of_le h (sab.lt q hq)
    refine ⟨o' :: os', hc, fp', fun j hj => ?_, by simpa using hmc, by simpa using s3, ?_, ?_, ?_, ?_⟩
    · simp only [hEmpls, genReadEmplace_acc]
      rw [hGet_mid hm hpre, ok_bind, ra j hj, ok_bind]
      simp only [hst, ok_bind]
      exact rc j hj
    · intro hq
      rcases (m3 _).1 hq with hq | hq
      · exact hd1' hq
      · exact hdc hq
    · exact Nat.le_trans ga.len (by rw [← hlen]; exact gc.len)
    · intro q hq hq'
      simp only [List.mem_cons, not_or] at hq'
      have e1 : q ∉ f1 := fun h => hq'.2 ((hmem q).2 (.inl h))
      have e2 : q ∉ g1 := fun h => hq'.2 ((hmem q).2 (.inr h))
      rw [gc.same q (by rw [hlen]; exact Nat.lt_of_lt_of_le hq ga.len) (by simp [hq'.1, e2]), hsame q hq'.1,
        ga.same q hq e1]
    · intro q hq
      rcases (m3 q).1 hq with hq | hq
      · rcases ga.new q hq with h | h
        · exact .inl (List.mem_cons_of_mem _ ((hmem q).2 (.inl h)))
        · exact .inr h
      · rcases gc.new q hq with h | h
        · rcases List.mem_cons.1 h with rfl | h
          · simp
          · exact .inl (List.mem_cons_of_mem _ ((hmem q).2 (.inr h)))
        · exact .inr (Nat.le_trans ga.len (by rw [← hlen]; exact h))

theorem sim_classE (hN : DartNamed x S) {k : Nat} (hE : SimEmpl x rt S k) : SimClassE x rt S (k + 1) := by
  intro n hC h o old fp hs bs v r hv
  obtain ⟨as, is, f, hr, rfl, hs', hd, hm⟩ := stored_class hN hC.table hs
  rw [zip_fst] at hr hv
  rw [zip_snd] at hs'
  have hlen : is.length = n.fields.length := by have := hs'.length_eq.2; simpa using this
  rw [empl_class hC.empl hC.names k is hlen] at hv
  obtain ⟨⟨vs, bs1⟩, hvs, hv⟩ := bind_ok hv
  simp only [Except.ok.injEq, Prod.mk.injEq] at hv
  obtain ⟨rfl, rfl⟩ := hv
  obtain ⟨os', h', f', r1, hr', s1, hd1, g1⟩ := sim_empls hE n.id n.fields hC.lib [] as is h o f bs vs bs1
    (by have := hC.names; simpa [dartFieldNames] using this) hr hs' (hd trivial) hvs
  rw [← zip_snd (x := x) n] at s1
  obtain ⟨fp', s2, m2⟩ := stored_obj hC.table (h := h') (r := o) (as := os')
    (by rw [zip_fst]; exact hr') s1 (fun _ => hd1)
  rw [zip_fst] at s2
  refine ⟨h', fp', fun j hj => ?_, s2, g1.len, fun q hq hq' => ?_, fun q hq => ?_⟩
  · obtain ⟨j, rfl⟩ : ∃ i, j = i + 1 := ⟨j - 1, by omega⟩
    simp only [hReaders, hC.empl, hEmpl, genStructEmplace, hIsClass, hr, decide_true, if_true]
    exact r1 j (by omega)
  · refine g1.same q hq fun h => hq' ((hm q).2 ?_)
    simpa using h
  · rcases (m2 q).1 hq with rfl | hq
    · exact .inl ((hm _).2 (.inl rfl))
    · rcases g1.new q hq with h | h
      · exact .inl ((hm q).2 (by simpa using h))
      · exact .inr h

theorem split_len {α β : Type} (l1 l2 : List α) (i : α) {bs : List β} (h : bs.length = (l1 ++ i :: l2).length) :
    ∃ b1 b b2, bs = b1 ++ b :: b2 ∧ b1.length = l1.length ∧ b2.length = l2.length := by
  simp only [List.length_append, List.length_cons] at h
  refine ⟨bs.take l1.length, bs[l1.length]'(by omega), bs.drop (l1.length + 1), ?_, ?_, ?_⟩
  · rw [List.getElem_cons_drop, List.take_append_drop]
  · simp; omega
  · simp; omega

/-- The body of the `case` of a variant. -/
theorem sim_case (hS : Plain S) (hN : DartNamed x S) {k : Nat} (hE : SimClassE x rt S k) {n : EnumNode} (hn : .enum n ∈ S)
    {i : EnumItem} (hi : i ∈ n.items) {h : Heap} {o : Ref} {old : Val} {fp : List Ref}
    (hs : Stored True x (dartSchema S) h [.other n.id] [o] [old] fp) {bs : Bytes} {v : Val} {r : Bytes}
    (hv : evalReadCase (genProg x S) (readers rt (genProg x S) k) n.id (genReadCase x n i) old bs = .ok (v, r)) :
    ∃ h' fp', (∀ j, k ≤ j → hReadCase (genProg x S) (hReaders rt (genProg x S) j) n.id (genReadCase x n i) o h bs
        = .ok (h', r)) ∧
      Stored True x (dartSchema S) h' [.other n.id] [o] [v] fp' ∧ Grow h h' fp fp' := by
  obtain ⟨as, is, f, hr, rfl, hs', hd, hm⟩ := stored_class hN (table_enum hn) hs
  obtain ⟨d, -, he⟩ := enum_class hS hN hn
  have hconst : (genReadCase x n i).const ∈ (genEnumClass x n d.id).consts := List.mem_map.2 ⟨i, hi, rfl⟩
  have hcn := hN.variants n hn
  obtain ⟨l1, l2, hl⟩ := List.append_of_mem hi
  rw [enumFields_fst] at hr hv
  rw [enumFields_snd] at hs'
  have hlen := hs'.length_eq
  obtain ⟨t0, as, rfl⟩ : ∃ a l, as = a :: l := by
    cases as with
    | nil => simp at hlen
    | cons a l => exact ⟨a, l, rfl⟩
  obtain ⟨tag, is, rfl⟩ : ∃ a l, is = a :: l := by
    cases is with
    | nil => simp at hlen
    | cons a l => exact ⟨a, l, rfl⟩
  simp only [List.length_cons, List.length_map, Nat.add_right_cancel_iff] at hlen
  obtain ⟨ft, fi, st, si, hdt, hmt⟩ := hs'.head
  rw [hl] at hlen
  obtain ⟨a1, a, a2, rfl, ha1, ha2⟩ := split_len l1 l2 i hlen.1
  obtain ⟨s1, sv, s2, rfl, hs1, hs2⟩ := split_len l1 l2 i hlen.2
  rw [hl] at si hcn
  simp only [List.map_append, List.map_cons] at si hcn
  obtain ⟨f1, fr, sto1, sr, hd1, hm1⟩ := stored_split (by simp [ha1]) (by simp [hs1]) si
  obtain ⟨fa, f2, stoa, sto2, hda, hma⟩ := sr.head
  have ho := lt_of_some hr
  have hof : o ∉ f := hd trivial
  have hofa : o ∉ fa := fun hq => hof ((hmt o).2 (.inr ((hm1 o).2 (.inr ((hma o).2 (.inl hq))))))
  have hof1 : o ∉ f1 := fun hq => hof ((hmt o).2 (.inr ((hm1 o).2 (.inl hq))))
  have hof2 : o ∉ f2 := fun hq => hof ((hmt o).2 (.inr ((hm1 o).2 (.inr ((hma o).2 (.inr hq))))))
  have hsub : ∀ q, (q ∈ f1 ∨ q ∈ fa ∨ q ∈ f2) → q ∈ fp := fun q hq => (hm q).2 (.inr ((hmt q).2 (.inr ((hm1 q).2 (by
    rcases hq with h | h | h
    · exact .inl h
    · exact .inr ((hma q).2 (.inl h))
    · exact .inr ((hma q).2 (.inr h)))))))
  -- names
  have hz : ∀ {β : Type} (b1 : List β) (b : β) (b2 : List β), b1.length = l1.length →
      (("value" :: n.items.map (fun i => x.camel i.id)).tail).zip (b1 ++ b :: b2)
      = (l1.map (fun i => x.camel i.id)).zip b1 ++ (x.camel i.id, b) :: (l2.map (fun i => x.camel i.id)).zip b2 := by
    intro β b1 b b2 hb
    rw [List.tail_cons, hl, List.map_append, List.map_cons, List.zip_append (by simp [hb])]
    rfl
  simp only [List.tail_cons] at hz
  rw [← List.cons_append, List.nodup_append] at hcn
  obtain ⟨hc1, hc2, hc3⟩ := hcn
  rw [List.nodup_cons] at hc1 hc2
  have hfst : ∀ {β : Type} (ns : List String) (b : List β) (a : String), a ∈ (ns.zip b).map (·.1) → a ∈ ns := by
    intro β ns b a hm
    obtain ⟨p, hp, e⟩ := List.mem_map.1 hm
    exact e ▸ (List.of_mem_zip hp).1
  have hval : ∀ {β : Type} (b1 : List β) (b : β) (b2 : List β), "value" ∉ ((l1.map (fun i => x.camel i.id)).zip b1
      ++ (x.camel i.id, b) :: (l2.map (fun i => x.camel i.id)).zip b2).map (·.1) := by
    intro β b1 b b2 hm
    rw [List.map_append, List.mem_append, List.map_cons, List.mem_cons] at hm
    rcases hm with hm | hm | hm
    · exact hc1.1 (hfst _ _ _ hm)
    · exact hc3 "value" (by simp) _ (by simp) hm
    · exact hc3 "value" (by simp) _ (List.mem_cons_of_mem _ (hfst _ _ _ hm)) rfl
  have hpre : ∀ {β : Type} (b0 : β) (b1 : List β), x.camel i.id ∉
      (("value", b0) :: (l1.map (fun i => x.camel i.id)).zip b1).map (·.1) := by
    intro β b0 b1 hm
    rw [List.map_cons, List.mem_cons] at hm
    rcases hm with hm | hm
    · exact hc3 "value" (by simp) (x.camel i.id) (by simp) hm.symm
    · exact hc3 _ (List.mem_cons_of_mem _ (hfst _ _ _ hm)) (x.camel i.id) (by simp) rfl
  have hrest : ∀ {β : Type} (b2 : List β), x.camel i.id ∉ ((l2.map (fun i => x.camel i.id)).zip b2).map (·.1) :=
    fun b2 hm => hc2.1 (hfst _ _ _ hm)
  simp only [List.zip_cons_cons] at hr hv
  rw [hz a1 a a2 ha1] at hr
  rw [hz s1 sv s2 hs1] at hv
  -- the value
  simp only [evalReadCase, he, if_pos hconst] at hv
  have hset := setField_mid (c := n.id) (pre := []) (f := "value") (o := tag)
    (v := .enum (n.id ++ "Value") (genReadCase x n i).const []) (by simp) (hval s1 sv s2)
  simp only [List.nil_append] at hset
  rw [hset, ok_bind, ← List.cons_append,
    show (genReadCase x n i).field = x.camel i.id from rfl, getField_mid (hpre _ _), ok_bind] at hv
  obtain ⟨⟨w, bs1⟩, hw, hv⟩ := bind_ok hv
  simp only [setField_mid (hpre _ _) (hrest _), ok_bind, Except.ok.injEq, Prod.mk.injEq] at hv
  obtain ⟨rfl, rfl⟩ := hv
  -- the memory
  let cst : Cell := .val (.enum (n.id ++ "Value") (genReadCase x n i).const [])
  let fs : List (String × Ref) := (l1.map (fun i => x.camel i.id)).zip a1 ++ (x.camel i.id, a) ::
    (l2.map (fun i => x.camel i.id)).zip a2
  let h1 : Heap := h ++ [cst]
  let h2 : Heap := h1.set o (.obj n.id (("value", h.length) :: fs))
  have hh1 : ∀ q, q < h.length → h1[q]? = h[q]? := fun q hq => List.getElem?_append_left hq
  have hr1 : h1[o]? = some (.obj n.id ([] ++ ("value", t0) :: fs)) := (hh1 o ho).trans hr
  have hset1 : hSet "value" h.length o h1 = .ok h2 := hSet_mid hr1 (by simp) (hval a1 a a2)
  have ho1 : o < h1.length := lt_of_some hr1
  have hr2 : h2[o]? = some (.obj n.id ((("value", h.length) :: (l1.map (fun i => x.camel i.id)).zip a1) ++ (x.camel i.id, a) ::
    (l2.map (fun i => x.camel i.id)).zip a2)) := set_get _ ho1
  have hh2 : ∀ q, q < h.length → q ≠ o → h2[q]? = h[q]? := fun q hq hqo => (set_other _ hqo).trans (hh1 q hq)
  have hlen2 : h2.length = h.length + 1 := by simp [h2, h1]
  have hlo : h.length ≠ o := fun e => Nat.lt_irrefl o (e ▸ ho)
  have htag2 : h2[h.length]? = some cst := (set_other _ hlo).trans (alloc_get h cst)
  have keep : ∀ {ts rs vs g}, Stored True x (dartSchema S) h ts rs vs g → o ∉ g → Stored True x (dartSchema S) h2 ts rs vs g :=
    fun s hg => s.frame fun q hq => hh2 q (s.lt q hq) fun e => hg (e ▸ hq)
  have hC := classOk_variant hS hN hn hi
  have hw' : (readers rt (genProg x S) k).empl (.plain .emplace (enumItemStruct n i).id) sv bs = .ok (w, bs1) := by
    rw [itemStruct_id]; exact hw
  obtain ⟨h3, fa', r3, s3, g3⟩ := hE _ hC h2 a sv fa (by rw [itemStruct_id]; exact keep stoa hofa) bs w bs1 hw'
  rw [itemStruct_id] at s3
  have hnofa : ∀ q ∈ fa', q ∈ fa ∨ h.length + 1 ≤ q := fun q hq => by
    rcases g3.new q hq with h | h
    · exact .inl h
    · exact .inr (hlen2 ▸ h)
  have s1' := (keep sto1 hof1).grow g3 fun q hq hq' => hd1 trivial q hq ((hma q).2 (.inl hq'))
  have s2' := (keep sto2 hof2).grow g3 fun q hq hq' => hda trivial q hq' hq
  have ht3 : h3[h.length]? = some cst :=
    (g3.same h.length (by rw [hlen2]; exact Nat.lt_succ_self _) fun hq => Nat.lt_irrefl _ (stoa.lt _ hq)).trans htag2
  have st' : Stored True x (dartSchema S) h3 [.other (n.id ++ "Value")] [h.length] [.enum (n.id ++ "Value") (genReadCase x n i).const []]
      [h.length] := stored_val (t := .other (n.id ++ "Value")) (isLib_const hN hn) ht3
  obtain ⟨e1, q1, m1⟩ := s3.cons s2' fun _ q hq hq' => by
    rcases hnofa q hq with h | h
    · exact hda trivial q h hq'
    · exact Nat.not_lt_of_le (Nat.le_of_succ_le h) (sto2.lt q hq')
  obtain ⟨e2, q2, m2⟩ := stored_append s1' q1 fun _ q hq hq' => by
    rcases (m1 q).1 hq' with hq' | hq'
    · rcases hnofa q hq' with h | h
      · exact hd1 trivial q hq ((hma q).2 (.inl h))
      · exact Nat.not_lt_of_le (Nat.le_of_succ_le h) (sto1.lt q hq)
    · exact hd1 trivial q hq ((hma q).2 (.inr hq'))
  have hparts : ∀ q ∈ e2, q ∈ f1 ∨ q ∈ fa ∨ q ∈ f2 ∨ h.length + 1 ≤ q := by
    intro q hq
    rcases (m2 q).1 hq with hq | hq
    · exact .inl hq
    · rcases (m1 q).1 hq with hq | hq
      · rcases hnofa q hq with h | h
        · exact .inr (.inl h)
        · exact .inr (.inr (.inr h))
      · exact .inr (.inr (.inl hq))
  have hltp : ∀ q ∈ e2, q < h.length ∨ h.length + 1 ≤ q := by
    intro q hq
    rcases hparts q hq with h | h | h | h
    · exact .inl (sto1.lt q h)
    · exact .inl (stoa.lt q h)
    · exact .inl (sto2.lt q h)
    · exact .inr h
  obtain ⟨e3, q3, m3⟩ := st'.cons q2 fun _ q hq hq' => by
    rw [List.mem_singleton.1 hq] at hq'
    rcases hltp _ hq' with h | h
    · exact Nat.lt_irrefl _ h
    · exact Nat.lt_irrefl _ h
  have hoe3 : o ∉ e3 := by
    intro hq
    rcases (m3 o).1 hq with hq | hq
    · exact hlo (List.mem_singleton.1 hq).symm
    · rcases hparts o hq with h | h | h | h
      · exact hof1 h
      · exact hofa h
      · exact hof2 h
      · exact Nat.not_lt_of_le (Nat.le_of_succ_le h) ho
  have hr3 : h3[o]? = h2[o]? := g3.same o (by rw [hlen2]; exact Nat.lt_succ_of_lt ho) hofa
  have q3' : Stored True x (dartSchema S) h3 ((enumFields x n).map (·.2)) (h.length :: (a1 ++ a :: a2))
      (.enum (n.id ++ "Value") (genReadCase x n i).const [] :: (s1 ++ w :: s2)) e3 := by
    rw [enumFields_snd, hl]
    simpa using q3
  obtain ⟨fp', q4, m4⟩ := stored_obj (table_enum hn) (h := h3) (r := o) (as := h.length :: (a1 ++ a :: a2))
    (by rw [hr3, hr2, enumFields_fst, List.zip_cons_cons, hz a1 a a2 ha1]; rfl) q3' (fun _ => hoe3)
  rw [enumFields_fst, List.zip_cons_cons, hz s1 w s2 hs1] at q4
  refine ⟨h3, fp', fun j hj => ?_, q4, ?_, fun q hq hq' => ?_, fun q hq => ?_⟩
  · simp only [hReadCase, he, if_pos hconst, alloc]
    rw [show h ++ [Cell.val (.enum (n.id ++ "Value") (genReadCase x n i).const [])] = h1 from rfl, hset1, ok_bind,
      show (genReadCase x n i).field = x.camel i.id from rfl, hGet_mid hr2 (hpre _ _), ok_bind]
    have := r3 j hj
    rw [itemStruct_id] at this
    exact this
  · have := g3.len
    rw [hlen2] at this
    exact Nat.le_of_succ_le this
  · have hqo : q ≠ o := fun e => hq' ((hm q).2 (.inl e))
    rw [g3.same q (by rw [hlen2]; exact Nat.lt_succ_of_lt hq) fun h => hq' (hsub q (.inr (.inl h))), hh2 q hq hqo]
  · rcases (m4 q).1 hq with rfl | hq
    · exact .inl ((hm _).2 (.inl rfl))
    · rcases (m3 q).1 hq with hq | hq
      · exact .inr (Nat.le_of_eq (List.mem_singleton.1 hq).symm)
      · rcases hparts q hq with h | h | h | h
        · exact .inl (hsub q (.inl h))
        · exact .inl (hsub q (.inr (.inl h)))
        · exact .inl (hsub q (.inr (.inr h)))
        · exact .inr (Nat.le_of_succ_le h)

/-! ### Reading one object -/

theorem hRead_struct (hS : Plain S) (hN : DartNamed x S) {n : StructNode} (hn : .struct n ∈ S) {k : Nat}
    {h h' : Heap} {bs bs' : Bytes} {rs : List Ref} (hl : rs.length = n.fields.length)
    (hr : hReads rt (hReaders rt (genProg x S) k) ((n.fields.map (·.typeId)).map genRead) h bs = .ok (rs, h', bs')) :
    (hReaders rt (genProg x S) (k + 1)).read (.plain .into n.id) h bs
      = .ok (h'.length, h' ++ [.obj n.id ((dartFieldNames x n).zip rs)], bs') := by
  obtain ⟨h1, h2⟩ := hN.fields n hn
  have e1 : (n.fields.map (fun f => (x.camel f.name, genRead f.typeId))).map (·.1) = dartFieldNames x n := by
    simp [dartFieldNames, Function.comp_def]
  have e2 : (n.fields.map (fun f => (x.camel f.name, genRead f.typeId))).map (·.2)
      = (n.fields.map (·.typeId)).map genRead := by simp [Function.comp_def]
  have e3 : n.fields.map (fun f => (x.camel f.name, x.camel f.name)) = (dartFieldNames x n).map (fun f => (f, f)) := by
    simp [dartFieldNames, Function.comp_def]
  have hlen : (dartFieldNames x n).length = rs.length := by rw [hl]; simp [dartFieldNames]
  have hz := hRecord_zip _ rs h1 hlen
  simp only [hReaders, codec_struct_into hS hN hn, hRead, genStructInto]
  rw [e1, e2, e3, if_neg (by simp [h1, h2])]
  simp only [struct_class hS hN hn]
  rw [hr, ok_bind]
  have e4 : each (fun a : String × String => (orElse .stuck (((dartFieldNames x n).zip rs).lookup a.2)).map
      (fun v => (a.1, v))) ((dartFieldNames x n).map (fun f => (f, f)))
      = .ok ((dartFieldNames x n).zip rs) := by
    have key : ∀ l : List String, each (fun a : String × String =>
        (orElse .stuck (((dartFieldNames x n).zip rs).lookup a.2)).map (fun v => (a.1, v))) (l.map (fun f => (f, f)))
        = each (fun a => (orElse .stuck (((dartFieldNames x n).zip rs).lookup a)).map (fun v => (a, v))) l := by
      intro l
      induction l with
      | nil => rfl
      | cons a l ih => simp only [List.map_cons, each, ih]
    have hll : (dartFieldNames x n).length = ((dartFieldNames x n).zip rs).length := by simp [hlen]
    rw [hRecord, if_pos hll] at hz
    rw [key]
    exact hz
  simp only [e4, ok_bind]
  rw [show (genStructClass x n).ctor = dartFieldNames x n from rfl, hz, ok_bind,
    if_pos (by simp [genStructClass, dartFieldNames, Function.comp_def])]
  rfl

theorem hReadN_eq (H : HReaders) (e : String) : ∀ (s : Nat) (h : Heap) (bs : Bytes),
    hReadN (H.read (.plain .into e)) s h bs = hReads rt H ((List.replicate s (.other e)).map genRead) h bs
  | 0, _, _ => rfl
  | s + 1, h, bs => by
    simp only [hReadN, List.replicate_succ, List.map_cons, hReads, genRead, hReadE]
    congr 1
    funext p
    obtain ⟨v, h', bs'⟩ := p
    simp only
    rw [hReadN_eq H e s h' bs']

/-- The elements of a list. -/
theorem sim_list {k : Nat} (hR : SimRead x rt S k) {g : TypeId} (hl : LibraryFree S (.generic "Vec" [g])) {h : Heap}
    {bs : Bytes} {v : Val} {r : Bytes} (hv : evalList rt (readers rt (genProg x S) k) (dartElem g) bs = .ok (v, r)) :
    ∃ n es is h' fp, v = .list n is ∧ (∀ j, k ≤ j → hList rt (hReaders rt (genProg x S) j) (dartElem g) h bs
        = .ok ((n, es), h', r)) ∧
      Stored True x (dartSchema S) h' (List.replicate es.length (.other (dartElem g))) es is fp ∧ Grow h h' [] fp := by
  simp only [evalList] at hv
  obtain ⟨⟨n, bs1⟩, hn, hv⟩ := bind_ok hv
  obtain ⟨⟨vs, bs2⟩, hvs, hv⟩ := bind_ok hv
  simp only [Except.ok.injEq, Prod.mk.injEq] at hv
  obtain ⟨rfl, rfl⟩ := hv
  rw [readN_eq (rt := rt)] at hvs
  have hl' : LibraryFree S (.other (dartElem g)) := by simpa [LibraryFree] using hl
  obtain ⟨es, h', fp, r1, s1, g1⟩ := sim_reads hR (List.replicate n (.other (dartElem g)))
    (fun t ht => by rw [(List.mem_replicate.1 ht).2]; exact hl') h bs1 vs bs2 hvs
  have e2 : (List.replicate n (TypeId.other (dartElem g))).map dartView
      = List.replicate n (TypeId.other (dartElem g)) := by simp [dartView]
  rw [e2] at s1
  have hes : es.length = n := by simpa using s1.length_eq.1
  refine ⟨n, es, vs, h', fp, rfl, fun j hj => ?_, by rw [hes]; exact s1, g1⟩
  simp only [hList, hn, ok_bind]
  rw [hReadN_eq (rt := rt), r1 j hj]
  rfl

theorem alloc_list {h h' : Heap} {e : TypeId} {n : Nat} {es : List Ref} {is : List Val} {fp : List Ref}
    (hs : Stored True x (dartSchema S) h' (List.replicate es.length e) es is fp) (hg : Grow h h' [] fp) :
    ∃ fp', Stored True x (dartSchema S) (h' ++ [.list n es]) [.generic "Vec" [e]] [h'.length] [.list n is] fp' ∧
      Grow h (h' ++ [.list n es]) [] fp' := by
  have hg2 := grow_alloc h' (.list n es)
  refine ⟨_, .list e h'.length n es is fp [] [] [] [] (by rw [alloc_get]; rfl) (hs.grow hg2 (by simp)) .nil
    (fun _ => ⟨fun hq => Nat.lt_irrefl _ (hs.lt _ hq), by simp, by simp⟩), hg.trans hg2 fun q hq => ?_⟩
  simp only [List.append_nil, List.mem_cons] at hq
  rcases hq with rfl | hq
  · exact .inr (by simp)
  · exact .inl hq

theorem find_readCase_mem {n : EnumNode} {p : ReadCase → Bool} {a : ReadCase}
    (h : (n.items.map (genReadCase x n)).find? p = some a) : ∃ i ∈ n.items, a = genReadCase x n i := by
  obtain ⟨i, hi, e⟩ := List.mem_map.1 (List.mem_of_find?_eq_some h)
  exact ⟨i, hi, e.symm⟩

theorem sim_read_builtin {k : Nat} {t : TypeId} {p : String} (hp : builtin? (dartView t) = some p) {h : Heap} {bs : Bytes}
    {v : Val} {r : Bytes} (hv : readT rt (genProg x S) k t bs = .ok (v, r)) :
    ∃ o h' fp, (∀ j, k ≤ j → hReadE rt (hReaders rt (genProg x S) j) (genRead t) h bs = .ok (o, h', r)) ∧
      Stored True x (dartSchema S) h' [dartView t] [o] [v] fp ∧ Grow h h' [] fp := by
  obtain ⟨-, h1, -⟩ := view_builtin hp
  obtain ⟨s1, g1⟩ := alloc_lib (x := x) (S := S) (h := h) (isLib_builtin hp) v
  refine ⟨_, _, _, fun j _ => ?_, s1, g1⟩
  simp only [readT, h1, evalReadE] at hv
  simp only [h1, hReadE, hv, ok_bind]
  rfl

theorem sim_read (hS : Plain S) (hN : DartNamed x S) (hV : VariantsPlain S) {k : Nat} (hR : SimRead x rt S k)
    (hC : SimClassE x rt S k) (hE : SimEnum x rt S k) : SimRead x rt S (k + 1) := by
  intro t hf h bs v r hv
  cases tyCase hN hV hf with
  | builtin _ p hp => exact sim_read_builtin hp hv
  | declared id hid =>
    rcases typeNames_mem hid with ⟨n, hn, rfl⟩ | ⟨n, hn, rfl⟩
    · have hC := classOk_struct hS hN hn
      simp only [readT, genRead, evalReadE] at hv
      rw [read_struct hS hN hn] at hv
      obtain ⟨⟨vs, bs1⟩, hvs, hv⟩ := bind_ok hv
      simp only [Except.ok.injEq, Prod.mk.injEq] at hv
      obtain ⟨rfl, rfl⟩ := hv
      obtain ⟨os, h1, f1, r1, s1, g1⟩ := sim_reads hR (n.fields.map (·.typeId)) (fun t ht => by
        obtain ⟨f, hf, rfl⟩ := List.mem_map.1 ht
        exact hC.lib f hf) h bs vs bs1 hvs
      have hlen : os.length = n.fields.length := by simpa using s1.length_eq.1
      rw [← zip_snd (x := x) n] at s1
      obtain ⟨fp, s2, g2⟩ := alloc_obj hC.table s1 g1
      rw [zip_fst] at s2 g2
      refine ⟨_, _, fp, fun j hj => ?_, s2, g2⟩
      obtain ⟨j, rfl⟩ : ∃ i, j = i + 1 := ⟨j - 1, by omega⟩
      simp only [genRead, hReadE]
      exact hRead_struct hS hN hn hlen (r1 j (by omega))
    · simp only [readT, genRead, evalReadE, readers, codec_enum_into hS hN hn, evalRead, genEnumInto] at hv
      obtain ⟨⟨tag, bs1⟩, ht, hv⟩ := bind_ok hv
      simp only at hv
      split at hv
      · rename_i a ha
        obtain ⟨i, hi, rfl⟩ := find_readCase_mem ha
        obtain ⟨m, hm, hv⟩ := bind_ok hv
        obtain ⟨o, h1, f1, r1, s1, g1⟩ := hE n hn h m hm
        obtain ⟨h2, f2, r2, s2, g2⟩ := sim_case hS hN hC hn hi s1 hv
        refine ⟨o, h2, f2, fun j hj => ?_, s2, ⟨Nat.le_trans g1.len g2.len, fun q hq _ => ?_, fun q hq => ?_⟩⟩
        · obtain ⟨j, rfl⟩ : ∃ i, j = i + 1 := ⟨j - 1, by omega⟩
          simp only [genRead, hReadE, hReaders, codec_enum_into hS hN hn, hRead, genEnumInto, ht, ok_bind, ha]
          rw [r1 j (by omega), ok_bind]
          simp only
          rw [r2 j (by omega)]
          rfl
        · rw [g2.same q (Nat.lt_of_lt_of_le hq g1.len) fun hq' => Nat.not_lt_of_le (g1.fresh q hq') hq,
            g1.same q hq (by simp)]
        · rcases g2.new q hq with hq | hq
          · exact .inr (g1.fresh q hq)
          · exact .inr (Nat.le_trans g1.len hq)
      · simp at hv
  | list g =>
    simp only [readT, genRead, genCodecG, if_true, evalReadE, readers, codec_none hS .into hN.lists, elem_eq] at hv
    obtain ⟨n, es, is, h1, f1, rfl, r1, s1, g1⟩ := sim_list hR hf (h := h) hv
    obtain ⟨fp, s2, g2⟩ := alloc_list (n := n) s1 g1
    have e : dartView (.generic "Vec" [g]) = .generic "Vec" [.other (dartElem g)] := by simp [dartView]
    refine ⟨_, _, fp, fun j hj => ?_, by rw [e]; exact s2, g2⟩
    obtain ⟨j, rfl⟩ : ∃ i, j = i + 1 := ⟨j - 1, by omega⟩
    simp only [genRead, genCodecG, if_true, hReadE, hReaders, codec_none hS .into hN.lists, elem_eq]
    rw [r1 j (by omega)]
    rfl
  | ext _ id hv' hid hlib =>
    obtain ⟨s1, g1⟩ := alloc_lib (h := h) hlib v
    refine ⟨_, _, _, fun j hj => ?_, s1, g1⟩
    obtain ⟨j, rfl⟩ : ∃ i, j = i + 1 := ⟨j - 1, by omega⟩
    rcases view_other hv' with rfl | ⟨c, gs, rfl, rfl⟩
    · have hnone : ∀ kd, (genProg x S).codec? (id ++ Kind.suffix kd) = none := fun kd =>
        codec_none hS kd (by simp only [List.mem_append, not_or]; exact ⟨hid, hf⟩)
      simp only [readT, genRead, evalReadE, readers, hnone] at hv
      simp only [genRead, hReadE, hReaders, hnone, hReadX, hv, ok_bind]
      rfl
    · have hnone : ∀ kd, (genProg x S).codec? (c ++ Kind.suffix kd) = none := fun kd =>
        codec_none hS kd (libGeneric_free hv' hf)
      simp only [readT, genRead, (view_libGeneric hv' .into).1, evalReadE, readers, hnone] at hv
      simp only [genRead, (view_libGeneric hv' .into).1, hReadE, hReaders, hnone, hReadX, hv, ok_bind]
      rfl

/-! ### Reading into one object -/

theorem sim_empl_builtin {k : Nat} {t : TypeId} {p : String} (hp : builtin? (dartView t) = some p) {h : Heap} {o : Ref}
    {old : Val} (fp : List Ref) {bs : Bytes} {v : Val} {r : Bytes} (hv : emplT rt (genProg x S) k t old bs = .ok (v, r)) :
    ∃ o' h' fp', (∀ j, k ≤ j → ∀ a, hEmplS rt (hReaders rt (genProg x S) j) o (genReadEmplace t a) h bs = .ok (o', h', r)) ∧
      Stored True x (dartSchema S) h' [dartView t] [o'] [v] fp' ∧ Grow h h' fp fp' ∧
      ((∃ e, ∀ a, genReadEmplace t a = .assign a e) ∨ ((∃ c, ∀ a, genReadEmplace t a = .into c a) ∧ o' = o)) := by
  obtain ⟨-, -, h1, -⟩ := view_builtin hp
  obtain ⟨s1, g1⟩ := alloc_lib (x := x) (S := S) (h := h) (isLib_builtin hp) v
  refine ⟨_, _, _, fun j _ a => ?_, s1, ⟨g1.len, fun q hq _ => g1.same q hq (by simp), fun q hq => .inr (g1.fresh q hq)⟩,
    .inl ⟨_, h1⟩⟩
  simp only [emplT, h1, evalEmplS, evalReadE] at hv
  simp only [h1, hEmplS, hReadE, hv, ok_bind]
  rfl

theorem sim_empl_string {k : Nat} (hR : SimRead x rt S k) {h : Heap} {o : Ref} {old : Val} (fp : List Ref) {bs : Bytes}
    {v : Val} {r : Bytes} (hf : LibraryFree S (.other "String"))
    (hv : emplT rt (genProg x S) k (.other "String") old bs = .ok (v, r)) :
    ∃ o' h' fp', (∀ j, k ≤ j → ∀ a, hEmplS rt (hReaders rt (genProg x S) j) o (genReadEmplace (.other "String") a) h bs
        = .ok (o', h', r)) ∧
      Stored True x (dartSchema S) h' [dartView (.other "String")] [o'] [v] fp' ∧ Grow h h' fp fp' ∧
      ((∃ e, ∀ a, genReadEmplace (.other "String") a = .assign a e) ∨
        ((∃ c, ∀ a, genReadEmplace (.other "String") a = .into c a) ∧ o' = o)) := by
  obtain ⟨o', h', fp', r1, s1, g1⟩ := hR (.other "String") hf h bs v r hv
  exact ⟨o', h', fp', fun j hj _ => r1 j hj, s1,
    ⟨g1.len, fun q hq _ => g1.same q hq (by simp), fun q hq => .inr (g1.fresh q hq)⟩, .inl ⟨_, fun _ => rfl⟩⟩

/-- A statement that changes an object in place. -/
theorem empl_into {k : Nat} {t : TypeId} {c : Codec} (hc : ∀ a, genReadEmplace t a = .into c a) {h h' : Heap} {o : Ref}
    {v : Val} {fp fp' : List Ref} {bs r : Bytes}
    (hr : ∀ j, k ≤ j → (hReaders rt (genProg x S) j).empl c o h bs = .ok (h', r))
    (hs : Stored True x (dartSchema S) h' [dartView t] [o] [v] fp') (hg : Grow h h' fp fp') :
    ∃ o' h' fp', (∀ j, k ≤ j → ∀ a, hEmplS rt (hReaders rt (genProg x S) j) o (genReadEmplace t a) h bs = .ok (o', h', r)) ∧
      Stored True x (dartSchema S) h' [dartView t] [o'] [v] fp' ∧ Grow h h' fp fp' ∧
      ((∃ e, ∀ a, genReadEmplace t a = .assign a e) ∨ ((∃ c, ∀ a, genReadEmplace t a = .into c a) ∧ o' = o)) := by
  refine ⟨o, h', fp', fun j hj a => ?_, hs, hg, .inr ⟨⟨c, hc⟩, rfl⟩⟩
  simp only [hc, hEmplS, hr j hj, ok_bind]

theorem grow_set {h : Heap} {r : Ref} {c : Cell} {fp : List Ref} (hr : r ∈ fp) : Grow h (h.set r c) fp [r] where
  len := by simp
  same := fun q _ hq => set_other _ fun e => hq (e ▸ hr)
  new := fun q hq => .inl (by rw [List.mem_singleton.1 hq]; exact hr)

theorem sim_empl (hS : Plain S) (hN : DartNamed x S) (hV : VariantsPlain S) {k : Nat} (hR : SimRead x rt S k)
    (hC : SimClassE x rt S k) (hC1 : SimClassE x rt S (k + 1)) (hR1 : SimRead x rt S (k + 1)) : SimEmpl x rt S (k + 1) := by
  intro t hf h o old fp hs bs v r hv
  cases tyCase hN hV hf with
  | builtin _ p hp => exact sim_empl_builtin hp fp hv
  | declared id hid =>
    by_cases hstr : id = "String"
    · subst hstr
      exact sim_empl_string hR1 fp hf hv
    have hinto : ∀ a, genReadEmplace (.other id) a = .into (.plain .emplace id) a := by
      intro a; simp only [genReadEmplace, if_neg hstr]
    simp only [emplT, hinto, evalEmplS] at hv
    rcases typeNames_mem hid with ⟨n, hn, rfl⟩ | ⟨n, hn, rfl⟩
    · obtain ⟨h', fp', r1, s1, g1⟩ := hC1 n (classOk_struct hS hN hn) h o old fp hs bs v r hv
      exact empl_into hinto r1 s1 g1
    · obtain ⟨as, is, f, hr, hold, -⟩ := stored_class hN (table_enum hn) hs
      simp only [readers, codec_enum_emplace hS hN hn, evalEmpl, genEnumEmplace] at hv
      rw [show isClass n.id old = true by rw [hold]; simp [isClass]] at hv
      simp only [if_true] at hv
      obtain ⟨⟨tag, bs1⟩, ht, hv⟩ := bind_ok hv
      simp only at hv
      split at hv
      · rename_i a ha
        obtain ⟨i, hi, rfl⟩ := find_readCase_mem ha
        obtain ⟨h2, f2, r2, s2, g2⟩ := sim_case hS hN hC hn hi hs hv
        refine empl_into hinto (fun j hj => ?_) s2 g2
        obtain ⟨j, rfl⟩ : ∃ i, j = i + 1 := ⟨j - 1, by omega⟩
        simp only [hReaders, codec_enum_emplace hS hN hn, hEmpl, genEnumEmplace, hIsClass, hr, decide_true, if_true, ht,
          ok_bind, ha]
        exact r2 j (by omega)
      · simp at hv
  | list g =>
    have hinto : ∀ a, genReadEmplace (.generic "Vec" [g]) a = .into (genCodecG .emplace "Vec" [g]) a := fun _ => rfl
    have e : dartView (.generic "Vec" [g]) = .generic "Vec" [.other (dartElem g)] := by simp [dartView]
    rw [e] at hs
    obtain ⟨n0, es0, is0, f0, hel, -, hs0, hd0, hm0⟩ := stored_list hs
    simp only [emplT, hinto, genCodecG, if_true, evalEmplS, readers, codec_none hS .emplace hN.lists, elem_eq] at hv
    obtain ⟨n, es, is, h1, f1, rfl, r1, s1, g1⟩ := sim_list hR hf (h := h) hv
    have ho : o < h.length := lt_of_bind hel
    have hof : o ∉ f1 := fun hq => Nat.not_lt_of_le (g1.fresh _ hq) ho
    have ho1 : o < h1.length := Nat.lt_of_lt_of_le ho g1.len
    refine empl_into hinto (h' := h1.set o (.list n es)) (fp' := o :: (f1 ++ [])) (fun j hj => ?_) ?_ ⟨?_, fun q hq hq' => ?_, fun q hq => ?_⟩
    · obtain ⟨j, rfl⟩ : ∃ i, j = i + 1 := ⟨j - 1, by omega⟩
      simp only [genCodecG, if_true, hReaders, codec_none hS .emplace hN.lists, elem_eq, hEmplList, hel]
      rw [r1 j (by omega)]
      rfl
    · rw [e]
      exact .list _ o n es is f1 [] [] [] [] (by rw [set_get _ ho1]; rfl)
        (s1.frame fun q hq => set_other _ fun e => hof (e ▸ hq)) .nil (fun _ => ⟨hof, by simp, by simp⟩)
    · rw [List.length_set]; exact g1.len
    · rw [set_other _ fun e => hq' ((hm0 q).2 (.inl e)), g1.same q hq (by simp)]
    · simp only [List.append_nil, List.mem_cons] at hq
      rcases hq with rfl | hq
      · exact .inl ((hm0 _).2 (.inl rfl))
      · exact .inr (g1.fresh q hq)
  | ext _ id hv' hid hlib =>
    obtain ⟨hr, hm⟩ := stored_lib hlib.1 hlib.2 hs
    have ho := lt_of_some hr
    rcases view_other hv' with rfl | ⟨c, gs, rfl, rfl⟩
    · by_cases hstr : id = "String"
      · subst hstr
        exact sim_empl_string hR1 fp hf hv
      have hinto : ∀ a, genReadEmplace (.other id) a = .into (.plain .emplace id) a := by
        intro a; simp only [genReadEmplace, if_neg hstr]
      have hnone : ∀ kd, (genProg x S).codec? (id ++ Kind.suffix kd) = none := fun kd =>
        codec_none hS kd (by simp only [List.mem_append, not_or]; exact ⟨hid, hf⟩)
      simp only [emplT, hinto, evalEmplS, readers, hnone] at hv
      refine empl_into hinto (h' := h.set o (.val v)) (fun j hj => ?_) (stored_val hlib (set_get _ ho))
        (grow_set ((hm o).2 rfl))
      obtain ⟨j, rfl⟩ : ∃ i, j = i + 1 := ⟨j - 1, by omega⟩
      simp only [hReaders, hnone, hEmplX, hr, hv, ok_bind]
    · have hnone : ∀ kd, (genProg x S).codec? (c ++ Kind.suffix kd) = none := fun kd =>
        codec_none hS kd (libGeneric_free hv' hf)
      have hinto : ∀ a, genReadEmplace (.generic c gs) a = .into (.generic .emplace c (gs.map genTy)) a := by
        intro a; simp only [genReadEmplace, (view_libGeneric hv' .emplace).1]
      simp only [emplT, hinto, evalEmplS, readers, hnone] at hv
      refine empl_into hinto (h' := h.set o (.val v)) (fun j hj => ?_) (stored_val hlib (set_get _ ho))
        (grow_set ((hm o).2 rfl))
      obtain ⟨j, rfl⟩ : ∃ i, j = i + 1 := ⟨j - 1, by omega⟩
      simp only [hReaders, hnone, hEmplX, hr, hv, ok_bind]

/-- Reading objects and reading into objects, with values and in memory. -/
theorem sim_readers (hS : Plain S) (hN : DartNamed x S) (hV : VariantsPlain S) (hL : EmptyLists rt) :
    ∀ k, SimRead x rt S k ∧ SimEmpl x rt S k ∧ SimClassE x rt S k
  | 0 => by
    have hR : SimRead x rt S 0 := by
      intro t hf h bs v r hv
      cases t with
      | integer => exact sim_read_builtin rfl hv
      | number => exact sim_read_builtin rfl hv
      | bool => exact sim_read_builtin rfl hv
      | char => exact sim_read_builtin rfl hv
      | generic c gs => simp [readT, genRead, evalReadE, readers] at hv
      | other id => simp [readT, genRead, evalReadE, readers] at hv
    refine ⟨hR, fun t hf h o old fp hs bs v r hv => ?_, fun n _ h o old fp _ bs v r hv => by simp [readers] at hv⟩
    cases t with
    | integer => exact sim_empl_builtin rfl fp hv
    | number => exact sim_empl_builtin rfl fp hv
    | bool => exact sim_empl_builtin rfl fp hv
    | char => exact sim_empl_builtin rfl fp hv
    | generic c gs => simp [emplT, genReadEmplace, evalEmplS, readers] at hv
    | other id =>
      simp only [emplT, genReadEmplace] at hv
      split at hv <;> simp [evalEmplS, evalReadE, readers] at hv
  | k + 1 => by
    obtain ⟨h1, h2, h3⟩ := sim_readers hS hN hV hL k
    have hC1 := sim_classE hN h2
    have hR1 := sim_read hS hN hV h1 h3 (sim_new hS hN hV hL k).2.2
    exact ⟨hR1, sim_empl hS hN hV h1 h3 hC1 hR1, hC1⟩

end TPB.Dart
