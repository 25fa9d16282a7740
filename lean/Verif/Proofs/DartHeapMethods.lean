/- The methods of the emitted Dart classes on objects in memory. -/
import Verif.Proofs.DartHeapWrite
import Verif.Proofs.DartHeapRead
import Verif.Proofs.DartMethods
import Verif.Spec.DartHeapMethods
namespace TPB.Dart
open Spec DartGen
open Spec.DartRules (EnumOk dartPayload dartMembers)

variable {x : Ext} {S : List ASTNode} {rt : Runtime} {sep : Prop}

theorem lookup_nodupR {l : List (String × Ref)} (hn : (l.map (·.1)).Nodup) {a : String} {v : Ref} (h : (a, v) ∈ l) :
    l.lookup a = some v := by
  obtain ⟨l1, l2, rfl⟩ := List.append_of_mem h
  refine lookup_midR (fun hm => ?_)
  rw [List.map_append, List.map_cons, List.nodup_append] at hn
  exact hn.2.2 a hm a (by simp) rfl

theorem fst_zipR {ns : List String} {rs : List Ref} (h : ns.length = rs.length) : (ns.zip rs).map (·.1) = ns :=
  List.map_fst_zip (by omega)

/-- Named arguments may come in any order. -/
theorem hRecord_perm {ns : List String} {rs : List Ref} (hn : ns.Nodup) (hl : ns.length = rs.length)
    {as : List (String × Ref)} (h : as.Perm (ns.zip rs)) : hRecord ns as = .ok (ns.zip rs) := by
  have e := hRecord_zip ns rs hn hl
  have hk : (as.map (·.1)).Nodup := by
    have := (h.map (·.1)).nodup_iff.2 (by rwa [fst_zipR hl])
    exact this
  have hlk : ∀ f ∈ ns, as.lookup f = (ns.zip rs).lookup f := by
    intro f hf
    obtain ⟨i, hi, rfl⟩ := List.getElem_of_mem hf
    have hm : (ns[i], rs[i]'(by omega)) ∈ ns.zip rs := by
      rw [List.mem_iff_getElem]
      exact ⟨i, by simp [List.length_zip]; omega, by simp⟩
    rw [lookup_nodupR hk (h.mem_iff.2 hm), lookup_nodupR (by rwa [fst_zipR hl]) hm]
  have hlen : as.length = (ns.zip rs).length := h.length_eq
  unfold hRecord at e ⊢
  rw [hlen]
  split at e
  · rename_i h1
    rw [if_pos h1, ← e]
    clear e h1 hn hl hk hlen h
    generalize ns.zip rs = zs at hlk ⊢
    induction ns with
    | nil => rfl
    | cons n ns ih =>
      rw [each, each, hlk n (by simp), ih (fun f hf => hlk f (by simp [hf]))]
  · cases e

theorem hBind_eval {n : EnumNode} (hok : EnumOk x n) {i : EnumItem} (hi : i ∈ n.items) {rs : List Ref}
    (hl : rs.length = (payload i).length) (hn : (dartPayloadNames x i).Nodup) {args : HArgs} (h : CallRefs x i rs args) :
    hBind (genVMethod x i).params args = .ok ((dartPayloadNames x i).zip rs) := by
  have hv := vmethod_vars hok hi
  have hlen : (dartPayloadNames x i).length = rs.length := by rw [dartPayloadNames_length, hl]
  cases i with
  | empty p id =>
    cases args with
    | positional as =>
      obtain ⟨-, rfl⟩ := h
      have : as = [] := List.length_eq_zero_iff.1 hl
      subst this
      rfl
    | named as => obtain ⟨⟨_, _, _, h⟩, -⟩ := h; cases h
  | tuple p id vs =>
    cases args with
    | positional as =>
      obtain ⟨-, rfl⟩ := h
      simp only [genVMethod, Params.vars] at hv
      simp only [genVMethod, hBind]
      rw [hv, if_pos (by rw [← hlen, ← hv]; simp)]
    | named as => obtain ⟨⟨_, _, _, h⟩, -⟩ := h; cases h
  | struct p id fs =>
    cases args with
    | positional as => exact absurd rfl (h.1 p id fs)
    | named as =>
      simp only [genVMethod, Params.vars] at hv
      simp only [genVMethod, hBind]
      rw [hv]
      exact hRecord_perm hn hlen h.2

/-- Values can be passed as their objects are. -/
theorem valueArgs (x : Ext) (i : EnumItem) (ds : List Val) : ∃ args, CallArgs x i ds args := by
  cases i with
  | empty p id => exact ⟨.positional ds, by simp, rfl⟩
  | tuple p id vs => exact ⟨.positional ds, by simp, rfl⟩
  | struct p id fs => exact ⟨.named ((dartPayloadNames x (.struct p id fs)).zip ds), ⟨_, _, _, rfl⟩, .refl _⟩

/-- The assignments fill the payload object and change nothing else. -/
theorem hAssigns_eval {c q f : String} {pre rest : List (String × Ref)} {o p : Ref} (hop : o ≠ p) (h1 : f ∉ pre.map (·.1))
    (env : List (String × Ref)) : ∀ (ns : List String) (rs olds : List Ref) (done : List (String × Ref)) (h : Heap), ns.Nodup →
    ns.length = rs.length → ns.length = olds.length → (∀ a ∈ ns, a ∉ done.map (·.1)) →
    (∀ p ∈ ns.zip rs, env.lookup p.1 = some p.2) → h[o]? = some (.obj c (pre ++ (f, p) :: rest)) →
    h[p]? = some (.obj q (done ++ ns.zip olds)) →
    ∃ h', hAssigns env f (ns.map (fun a => (a, a))) o h = .ok h' ∧ h'[p]? = some (.obj q (done ++ ns.zip rs)) ∧
      h'.length = h.length ∧ ∀ r, r ≠ p → h'[r]? = h[r]?
  | [], rs, olds, done, h, _, _, _, _, _, _, hp => ⟨h, rfl, by simpa using hp, rfl, fun _ _ => rfl⟩
  | n :: ns, [], _, _, _, _, h, _, _, _, _, _ => by simp at h
  | n :: ns, _ :: _, [], _, _, _, _, h, _, _, _, _ => by simp at h
  | n :: ns, r :: rs, old :: olds, done, h, hn, hl, hl', hd, he, ho, hp => by
    have hm : n ∉ (ns.zip olds).map (·.1) := by
      rw [fst_zipR (by simpa using hl')]
      exact (List.nodup_cons.1 hn).1
    rw [List.zip_cons_cons] at hp
    have hset := hSet_mid (r := r) hp (hd n (by simp)) hm
    have ho' : (h.set p (.obj q (done ++ (n, r) :: ns.zip olds)))[o]? = some (.obj c (pre ++ (f, p) :: rest)) :=
      (set_other _ hop).trans ho
    have hp' : (h.set p (.obj q (done ++ (n, r) :: ns.zip olds)))[p]? = some (.obj q ((done ++ [(n, r)]) ++ ns.zip olds)) := by
      rw [set_get _ (lt_of_some hp)]; simp
    obtain ⟨h', e1, e2, e3, e4⟩ := hAssigns_eval (c := c) (q := q) (rest := rest) hop h1 env ns rs olds (done ++ [(n, r)]) _
      (List.nodup_cons.1 hn).2 (by simpa using hl) (by simpa using hl') (fun a ha => by
        simp only [List.map_append, List.map_cons, List.map_nil, List.mem_append, List.mem_singleton, not_or]
        exact ⟨hd a (by simp [ha]), fun e => (List.nodup_cons.1 hn).1 (e ▸ ha)⟩)
      (fun p hp => he p (by simp [hp])) ho' hp'
    refine ⟨h', ?_, by simpa using e2, by simpa using e3, fun a ha => (e4 a ha).trans (set_other _ ha)⟩
    rw [List.map_cons, hAssigns, he (n, r) (by simp)]
    show (hGet f o h >>= fun p => hSet n r p h >>= fun h => hAssigns env f (ns.map fun a => (a, a)) o h) = _
    rw [hGet_mid ho h1, ok_bind, hset, ok_bind, e1]

theorem table_variant {n : EnumNode} (hn : .enum n ∈ S) {i : EnumItem} (hi : i ∈ n.items) :
    (n.id ++ i.id, (dartPayloadNames x i).zip (((payload i).map (·.2)).map dartView)) ∈ dartObjects x (dartSchema S) := by
  have := variant_table (x := x) (mem_view_enum hn) (i := viewItem i) (List.mem_map.2 ⟨i, hi, rfl⟩)
  rwa [viewItem_id, dartPayloadNames_view, payload_view] at this

/-- The common body of `createV` and `toV` on an object in memory. -/
theorem heap_variant (hN : DartNamed x S) {n : EnumNode} (hok : EnumOk x n) (hn : .enum n ∈ S) {i : EnumItem} (hi : i ∈ n.items)
    (first : String) {h : Heap} {o : Ref} {old : Val} {fp : List Ref}
    (hs : Stored True x (dartSchema S) h [.other n.id] [o] [old] fp) {vs ds : List Val} {rs gp : List Ref}
    (hrep : DRep x (dartSchema S) (((payload i).map (·.2)).map dartView) vs ds)
    (hg : Stored sep x (dartSchema S) h (((payload i).map (·.2)).map dartView) rs ds gp) (hog : o ∉ gp)
    (hpg : ∀ p, hGet (x.camel i.id) o h = .ok p → p ∉ gp) (hdis : sep → ∀ q ∈ gp, q ∉ fp) {args : HArgs}
    (ha : CallRefs x i rs args) :
    ∃ p h' d fp', hGet (x.camel i.id) o h = .ok p ∧ p ∈ fp ∧ hVariant (genEnumClass x n first) (genVMethod x i) args o h = .ok h' ∧
      DRep x (dartSchema S) [.other n.id] [.enum n.id i.id (named (payload i) vs)] [d] ∧
      Stored sep x (dartSchema S) h' [.other n.id] [o] [d] fp' ∧ hGet (x.camel i.id) o h' = .ok p ∧
      h'[p]? = some (.obj (n.id ++ i.id) ((dartPayloadNames x i).zip rs)) ∧
      h.length ≤ h'.length ∧ (∀ q, q < h.length → q ≠ o → q ≠ p → h'[q]? = h[q]?) ∧
      (∀ q ∈ fp', q ∈ fp ∨ q ∈ gp ∨ h.length ≤ q) := by
  have hnames := hN.payloads n hn i hi
  have hdobj := (stored_dobj hN hs).1
  obtain ⟨-, -, -, hc, hfd, -⟩ := Dart.vmethod_eq hok hi
  obtain ⟨as, is, f, hr, rfl, hs', hd, hm⟩ := stored_class hN (table_enum hn) hs
  have hcn := hN.variants n hn
  obtain ⟨l1, l2, hl⟩ := List.append_of_mem hi
  rw [enumFields_fst] at hr hdobj
  rw [enumFields_snd] at hs'
  have hlen := hs'.length_eq
  obtain ⟨t0, as, rfl⟩ : ∃ a l, as = a :: l := by
    cases as with
    | nil => simp at hlen
    | cons a l => exact ⟨a, l, rfl⟩
  obtain ⟨tag, is, rfl⟩ : ∃ a l, is = a :: l := by
    cases is with
    | nil => simp at hlen
    | cons a l => exact ⟨a, l, rfl⟩
  simp only [List.length_cons, List.length_map, Nat.add_right_cancel_iff] at hlen
  obtain ⟨ft, fi, st, si, hdt, hmt⟩ := hs'.head
  rw [hl] at hlen
  obtain ⟨a1, a, a2, rfl, ha1, ha2⟩ := split_len l1 l2 i hlen.1
  obtain ⟨s1, sv, s2, rfl, hs1, hs2⟩ := split_len l1 l2 i hlen.2
  rw [hl] at si hcn
  simp only [List.map_append, List.map_cons] at si hcn
  obtain ⟨f1, fr, sto1, sr, hd1, hm1⟩ := stored_split (by simp [ha1]) (by simp [hs1]) si
  obtain ⟨fa, f2, stoa, sto2, hda, hma⟩ := sr.head
  have ho := lt_of_some hr
  have hof : o ∉ f := hd trivial
  have hofa : o ∉ fa := fun hq => hof ((hmt o).2 (.inr ((hm1 o).2 (.inr ((hma o).2 (.inl hq))))))
  have hof1 : o ∉ f1 := fun hq => hof ((hmt o).2 (.inr ((hm1 o).2 (.inl hq))))
  have hof2 : o ∉ f2 := fun hq => hof ((hmt o).2 (.inr ((hm1 o).2 (.inr ((hma o).2 (.inr hq))))))
  have hsub : ∀ q, (q ∈ f1 ∨ q ∈ fa ∨ q ∈ f2) → q ∈ fp := fun q hq => (hm q).2 (.inr ((hmt q).2 (.inr ((hm1 q).2 (by
    rcases hq with h | h | h
    · exact .inl h
    · exact .inr ((hma q).2 (.inl h))
    · exact .inr ((hma q).2 (.inr h)))))))
  have hpl : (((payload i).map (·.2)).map dartView).length = (payload i).length := by simp
  obtain ⟨pas, olds, fo, hpa, rfl, hsto, -, hmo⟩ := stored_class hN (table_variant hn hi) stoa
  rw [payload_zip_fst i _ hpl] at hpa hdobj
  rw [payload_zip_snd i _ hpl] at hsto
  have haa : a ∈ fa := (hmo a).2 (.inl rfl)
  have hoa : o ≠ a := fun e => hofa (e ▸ haa)
  have ha1f : a ∉ f1 := fun hq => hd1 trivial a hq ((hma a).2 (.inl haa))
  have ha2f : a ∉ f2 := fun hq => hda trivial a haa hq
  -- names
  have hz : ∀ {β : Type} (b1 : List β) (b : β) (b2 : List β), b1.length = l1.length →
      (("value" :: n.items.map (fun i => x.camel i.id)).tail).zip (b1 ++ b :: b2)
      = (l1.map (fun i => x.camel i.id)).zip b1 ++ (x.camel i.id, b) :: (l2.map (fun i => x.camel i.id)).zip b2 := by
    intro β b1 b b2 hb
    rw [List.tail_cons, hl, List.map_append, List.map_cons, List.zip_append (by simp [hb])]
    rfl
  simp only [List.tail_cons] at hz
  rw [← List.cons_append, List.nodup_append] at hcn
  obtain ⟨hc1, hc2, hc3⟩ := hcn
  rw [List.nodup_cons] at hc1 hc2
  have hfst : ∀ {β : Type} (ns : List String) (b : List β) (a : String), a ∈ (ns.zip b).map (·.1) → a ∈ ns := by
    intro β ns b a hm
    obtain ⟨p, hp, e⟩ := List.mem_map.1 hm
    exact e ▸ (List.of_mem_zip hp).1
  have hval : ∀ {β : Type} (b1 : List β) (b : β) (b2 : List β), "value" ∉ ((l1.map (fun i => x.camel i.id)).zip b1
      ++ (x.camel i.id, b) :: (l2.map (fun i => x.camel i.id)).zip b2).map (·.1) := by
    intro β b1 b b2 hm
    rw [List.map_append, List.mem_append, List.map_cons, List.mem_cons] at hm
    rcases hm with hm | hm | hm
    · exact hc1.1 (hfst _ _ _ hm)
    · exact hc3 "value" (by simp) _ (by simp) hm
    · exact hc3 "value" (by simp) _ (List.mem_cons_of_mem _ (hfst _ _ _ hm)) rfl
  have hpre : ∀ {β : Type} (b0 : β) (b1 : List β), x.camel i.id ∉
      (("value", b0) :: (l1.map (fun i => x.camel i.id)).zip b1).map (·.1) := by
    intro β b0 b1 hm
    rw [List.map_cons, List.mem_cons] at hm
    rcases hm with hm | hm
    · exact hc3 "value" (by simp) (x.camel i.id) (by simp) hm.symm
    · exact hc3 _ (List.mem_cons_of_mem _ (hfst _ _ _ hm)) (x.camel i.id) (by simp) rfl
  have hrest : ∀ {β : Type} (b2 : List β), x.camel i.id ∉ ((l2.map (fun i => x.camel i.id)).zip b2).map (·.1) :=
    fun b2 hm => hc2.1 (hfst _ _ _ hm)
  rw [List.zip_cons_cons, hz a1 a a2 ha1] at hr
  rw [List.zip_cons_cons, hz s1 _ s2 hs1] at hdobj
  have hrl : (dartPayloadNames x i).length = rs.length := by
    rw [dartPayloadNames_length, ← hpl]; exact hg.length_eq.1.symm
  have hdl : (dartPayloadNames x i).length = ds.length := by
    rw [dartPayloadNames_length, ← hpl]; exact hg.length_eq.2.symm
  have hol : (dartPayloadNames x i).length = olds.length := by
    rw [dartPayloadNames_length, ← hpl]; exact hsto.length_eq.2.symm
  have hpal : (dartPayloadNames x i).length = pas.length := by
    rw [dartPayloadNames_length, ← hpl]; exact hsto.length_eq.1.symm
  have hguard : (genVMethod x i).params.vars.Nodup ∧ (genVMethod x i).const ∈ (genEnumClass x n first).consts ∧
      (genEnumClass x n first).id ++ "Value" ∉ (genVMethod x i).params.vars :=
    ⟨by rw [vmethod_vars hok hi]; exact hnames, by rw [hc]; exact List.mem_map.2 ⟨i, hi, rfl⟩,
      by rw [vmethod_vars hok hi]; exact hok.params i hi _ (by simp [genEnumClass])⟩
  -- the value
  obtain ⟨vargs, hva⟩ := valueArgs x i ds
  obtain ⟨d, hev, hdr, -⟩ := variant_one hN hok hn hi first hrep hva hdobj
  have hd' : d = .struct n.id (("value", .enum (n.id ++ "Value") (x.camel i.id) []) ::
      ((l1.map (fun i => x.camel i.id)).zip s1 ++ (x.camel i.id, .struct (n.id ++ i.id) ((dartPayloadNames x i).zip ds)) ::
        (l2.map (fun i => x.camel i.id)).zip s2)) := by
    unfold evalVariant at hev
    rw [if_pos hguard, bind_eval hok hi (by rw [← hdl, dartPayloadNames_length]) hnames hva, hc, hfd,
      vmethod_assigns hok hi, ok_bind] at hev
    have hset := setField_mid (c := n.id) (pre := []) (f := "value") (o := tag)
      (v := .enum (n.id ++ "Value") (x.camel i.id) []) (by simp)
      (hval s1 (.struct (n.id ++ i.id) ((dartPayloadNames x i).zip olds)) s2)
    simp only [List.nil_append] at hset
    rw [show (genEnumClass x n first).id = n.id from rfl, hset, ok_bind, ← List.cons_append] at hev
    have := assigns_eval (c := n.id) (q := n.id ++ i.id) (hpre (.enum (n.id ++ "Value") (x.camel i.id) []) s1) (hrest s2)
      ((dartPayloadNames x i).zip ds) (dartPayloadNames x i) ds olds [] hnames hdl hol (by simp)
      (fun q hq => lookup_of_nodup (by rwa [map_fst_zip hdl]) hq)
    simp only [List.nil_append] at this
    rw [this] at hev
    exact (Except.ok.inj hev).symm
  -- the memory
  let cst : Cell := .val (.enum (n.id ++ "Value") (x.camel i.id) [])
  let fs : List (String × Ref) := (l1.map (fun i => x.camel i.id)).zip a1 ++ (x.camel i.id, a) ::
    (l2.map (fun i => x.camel i.id)).zip a2
  let h1 : Heap := h ++ [cst]
  let h2 : Heap := h1.set o (.obj n.id (("value", h.length) :: fs))
  have hh1 : ∀ q, q < h.length → h1[q]? = h[q]? := fun q hq => List.getElem?_append_left hq
  have hr1 : h1[o]? = some (.obj n.id ([] ++ ("value", t0) :: fs)) := (hh1 o ho).trans hr
  have hset1 : hSet "value" h.length o h1 = .ok h2 := hSet_mid hr1 (by simp) (hval a1 a a2)
  have ho1 : o < h1.length := lt_of_some hr1
  have hr2 : h2[o]? = some (.obj n.id ((("value", h.length) :: (l1.map (fun i => x.camel i.id)).zip a1) ++ (x.camel i.id, a) ::
    (l2.map (fun i => x.camel i.id)).zip a2)) := set_get _ ho1
  have hh2 : ∀ q, q < h.length → q ≠ o → h2[q]? = h[q]? := fun q hq hqo => (set_other _ hqo).trans (hh1 q hq)
  have hlen2 : h2.length = h.length + 1 := by simp [h2, h1]
  have hlo : h.length ≠ o := fun e => Nat.lt_irrefl o (e ▸ ho)
  have halt := lt_of_some hpa
  have hla : h.length ≠ a := fun e => Nat.lt_irrefl a (e ▸ halt)
  have htag2 : h2[h.length]? = some cst := (set_other _ hlo).trans (alloc_get h cst)
  have hpa2 : h2[a]? = some (.obj (n.id ++ i.id) ([] ++ (dartPayloadNames x i).zip pas)) :=
    (hh2 a halt (fun e => hoa e.symm)).trans hpa
  obtain ⟨h3, r3, p3, len3, same3⟩ := hAssigns_eval (c := n.id) (q := n.id ++ i.id) hoa (hpre h.length a1)
    ((dartPayloadNames x i).zip rs) (dartPayloadNames x i) rs pas [] h2 hnames hrl hpal (by simp)
    (fun q hq => lookup_nodupR (by rwa [fst_zipR hrl]) hq) hr2 hpa2
  rw [List.nil_append] at p3
  have hget : hGet (x.camel i.id) o h = .ok a :=
    hGet_mid (pre := ("value", t0) :: (l1.map (fun i => x.camel i.id)).zip a1) hr (hpre _ _)
  have hag : a ∉ gp := hpg a hget
  have hr3 : h3[o]? = h2[o]? := same3 o hoa
  have hsame : ∀ q, q < h.length → q ≠ o → q ≠ a → h3[q]? = h[q]? := fun q hq h1 h2 => (same3 q h2).trans (hh2 q hq h1)
  have keep : ∀ {sp : Prop} {ts rs vs g}, Stored sp x (dartSchema S) h ts rs vs g → o ∉ g → a ∉ g →
      Stored sp x (dartSchema S) h3 ts rs vs g :=
    fun s hg hg' => s.frame fun q hq => hsame q (s.lt q hq) (fun e => hg (e ▸ hq)) (fun e => hg' (e ▸ hq))
  have ht3 : h3[h.length]? = some cst := (same3 _ hla).trans htag2
  have st' : Stored sep x (dartSchema S) h3 [.other (n.id ++ "Value")] [h.length] [.enum (n.id ++ "Value") (x.camel i.id) []]
      [h.length] := stored_val (t := .other (n.id ++ "Value")) (isLib_const hN hn) ht3
  have s1' := (keep sto1 hof1 ha1f).weaken (sep' := sep) (fun _ => trivial)
  have s2' := (keep sto2 hof2 ha2f).weaken (sep' := sep) (fun _ => trivial)
  have sg' := keep hg hog hag
  obtain ⟨fa', sa', ma'⟩ := stored_obj (T := dartSchema S) (sep := sep) (table_variant (x := x) hn hi) (h := h3) (r := a) (as := rs) (is := ds) (f := gp)
    (by rw [payload_zip_fst i _ hpl]; exact p3) (by rw [payload_zip_snd i _ hpl]; exact sg') (fun _ => hag)
  rw [payload_zip_fst i _ hpl] at sa'
  have hgf : sep → ∀ q ∈ gp, q ∉ f1 ∧ q ∉ f2 := fun hsp q hq =>
    ⟨fun hq' => hdis hsp q hq (hsub q (.inl hq')), fun hq' => hdis hsp q hq (hsub q (.inr (.inr hq')))⟩
  obtain ⟨e1, q1, m1⟩ := sa'.cons s2' fun hsp q hq hq' => by
    rcases (ma' q).1 hq with rfl | h
    · exact ha2f hq'
    · exact (hgf hsp q h).2 hq'
  obtain ⟨e2, q2, m2⟩ := stored_append s1' q1 fun hsp q hq hq' => by
    rcases (m1 q).1 hq' with hq' | hq'
    · rcases (ma' q).1 hq' with rfl | h
      · exact ha1f hq
      · exact (hgf hsp q h).1 hq
    · exact hd1 trivial q hq ((hma q).2 (.inr hq'))
  have hparts : ∀ q ∈ e2, q ∈ f1 ∨ q = a ∨ q ∈ gp ∨ q ∈ f2 := by
    intro q hq
    rcases (m2 q).1 hq with hq | hq
    · exact .inl hq
    · rcases (m1 q).1 hq with hq | hq
      · rcases (ma' q).1 hq with h | h
        · exact .inr (.inl h)
        · exact .inr (.inr (.inl h))
      · exact .inr (.inr (.inr hq))
  have hltp : ∀ q ∈ e2, q < h.length := by
    intro q hq
    rcases hparts q hq with h | h | h | h
    · exact sto1.lt q h
    · exact h ▸ halt
    · exact hg.lt q h
    · exact sto2.lt q h
  obtain ⟨e3, q3, m3⟩ := st'.cons q2 fun _ q hq hq' => by
    rw [List.mem_singleton.1 hq] at hq'
    exact Nat.lt_irrefl _ (hltp _ hq')
  have hoe3 : o ∉ e3 := by
    intro hq
    rcases (m3 o).1 hq with hq | hq
    · exact hlo (List.mem_singleton.1 hq).symm
    · rcases hparts o hq with h | h | h | h
      · exact hof1 h
      · exact hoa h
      · exact hog h
      · exact hof2 h
  have q3' : Stored sep x (dartSchema S) h3 ((enumFields x n).map (·.2)) (h.length :: (a1 ++ a :: a2))
      (.enum (n.id ++ "Value") (x.camel i.id) [] :: (s1 ++ .struct (n.id ++ i.id) ((dartPayloadNames x i).zip ds) :: s2)) e3 := by
    rw [enumFields_snd, hl]
    simpa using q3
  obtain ⟨fp', q4, m4⟩ := stored_obj (table_enum hn) (h := h3) (r := o) (as := h.length :: (a1 ++ a :: a2))
    (by rw [hr3, hr2, enumFields_fst, List.zip_cons_cons, hz a1 a a2 ha1]; rfl) q3' (fun _ => hoe3)
  rw [enumFields_fst, List.zip_cons_cons, hz s1 _ s2 hs1, ← hd'] at q4
  refine ⟨a, h3, d, fp', hget, hsub a (.inr (.inl haa)), ?_, hdr, q4, hGet_mid (hr3.trans hr2) (hpre _ _), p3, ?_, hsame, fun q hq => ?_⟩
  · unfold hVariant
    rw [if_pos hguard, hBind_eval hok hi (by rw [← hrl, dartPayloadNames_length]) hnames ha, hc, hfd, vmethod_assigns hok hi, ok_bind]
    simp only [alloc, show (genEnumClass x n first).id = n.id from rfl]
    rw [show h ++ [Cell.val (.enum (n.id ++ "Value") (x.camel i.id) [])] = h1 from rfl, hset1, ok_bind, r3]
  · rw [len3, hlen2]; exact Nat.le_succ _
  · rcases (m4 q).1 hq with rfl | hq
    · exact .inl ((hm _).2 (.inl rfl))
    · rcases (m3 q).1 hq with hq | hq
      · exact .inr (.inr (Nat.le_of_eq (List.mem_singleton.1 hq).symm))
      · rcases hparts q hq with h | h | h | h
        · exact .inl (hsub q (.inl h))
        · exact .inl (hsub q (.inr (.inl (h ▸ haa))))
        · exact .inr (.inl h)
        · exact .inl (hsub q (.inr (.inr h)))

theorem lookup_mem {β : Type} : ∀ {l : List (String × β)} {a : String} {b : β}, l.lookup a = some b → ∃ k, (k, b) ∈ l
  | [], _, _, h => by simp at h
  | (k, c) :: l, a, b, h => by
    rw [List.lookup_cons] at h
    split at h
    · cases h; exact ⟨k, by simp⟩
    · obtain ⟨k', hk⟩ := lookup_mem h
      exact ⟨k', by simp [hk]⟩

/-- What a field refers to is a part of the object. -/
theorem stored_get {h : Heap} {cls : String} {fs : List (String × TypeId)} {o : Ref} {as : List Ref} {is : List Val} {f : List Ref}
    (hr : h[o]? = some (.obj cls ((fs.map (·.1)).zip as))) (hs : Stored sep x (dartSchema S) h (fs.map (·.2)) as is f)
    {a : String} {p : Ref} (hp : hGet a o h = .ok p) : p ∈ f := by
  simp only [hGet, hr] at hp
  have hm : p ∈ as := by
    obtain ⟨k, hk⟩ := lookup_mem (orElse_ok hp)
    exact (List.of_mem_zip hk).2
  clear hp hr
  generalize fs.map (·.2) = ts at hs
  induction hs with
  | nil => simp at hm
  | val t r v ts rs vs g _ _ _ _ _ ih =>
    rcases List.mem_cons.1 hm with rfl | hm
    · simp
    · simp [ih hm]
  | list e r n es is f ts rs vs g _ _ _ _ _ ih =>
    rcases List.mem_cons.1 hm with rfl | hm
    · simp
    · simp [ih hm]
  | obj cls fs r as is f ts rs vs g _ _ _ _ _ _ ih =>
    rcases List.mem_cons.1 hm with rfl | hm
    · simp
    · simp [ih hm]

theorem heap_class (hN : DartNamed x S) {n : EnumNode} (hn : .enum n ∈ S) {h : Heap} {o : Ref} {d : Val} {fp : List Ref}
    (hs : Stored sep x (dartSchema S) h [.other n.id] [o] [d] fp) : hIsClass n.id o h = true := by
  obtain ⟨as, is, f, hr, -⟩ := stored_class hN (table_enum hn) hs
  simp [hIsClass, hr]

theorem heap_to (hS : Plain S) (hN : DartNamed x S) {n : EnumNode} (hok : EnumOk x n) (hn : .enum n ∈ S) {i : EnumItem} (hi : i ∈ n.items)
    {h : Heap} {o : Ref} {old : Val} {fp : List Ref}
    (hs : Stored True x (dartSchema S) h [.other n.id] [o] [old] fp) {vs ds : List Val} {rs gp : List Ref}
    (hrep : DRep x (dartSchema S) (((payload i).map (·.2)).map dartView) vs ds)
    (hg : Stored sep x (dartSchema S) h (((payload i).map (·.2)).map dartView) rs ds gp) (hog : o ∉ gp)
    (hpg : ∀ p, hGet (x.camel i.id) o h = .ok p → p ∉ gp) (hdis : sep → ∀ q ∈ gp, q ∉ fp) {args : HArgs}
    (ha : CallRefs x i rs args) :
    ∃ p h' d fp', hGet (x.camel i.id) o h = .ok p ∧ p ∈ fp ∧ hCallTo (genProg x S) n.id ("to" ++ x.pascal i.id) args o h = .ok h' ∧
      DRep x (dartSchema S) [.other n.id] [.enum n.id i.id (named (payload i) vs)] [d] ∧
      Stored sep x (dartSchema S) h' [.other n.id] [o] [d] fp' ∧ hGet (x.camel i.id) o h' = .ok p ∧
      h'[p]? = some (.obj (n.id ++ i.id) ((dartPayloadNames x i).zip rs)) ∧
      h.length ≤ h'.length ∧ (∀ q, q < h.length → q ≠ o → q ≠ p → h'[q]? = h[q]?) ∧
      (∀ q ∈ fp', q ∈ fp ∨ q ∈ gp ∨ h.length ≤ q) := by
  obtain ⟨c, -, hc⟩ := enum_class hS hN hn
  obtain ⟨p, h', d, fp', h1, h2, h3, h4⟩ := heap_variant hN hok hn hi c.id hs hrep hg hog hpg hdis ha
  refine ⟨p, h', d, fp', h1, h2, ?_, h4⟩
  have hp := hok.params i hi
  simp only [hCallTo, hc]
  rw [show (genEnumClass x n c.id).tos = n.items.map (genVMethod x) from rfl, find_vmethod hok hi (members_parts hok).1]
  simp only [heap_class hN hn hs, if_true, hTo]
  rw [if_neg, h3]
  rw [vmethod_vars hok hi, (Dart.vmethod_eq hok hi).2.2.2.2.1, not_or]
  exact ⟨hp _ (by simp), hp _ (by simp)⟩

theorem heap_create (hrt : rt.Lawful) (hS : Plain S) (hN : DartNamed x S) (hV : VariantsPlain S) (hL : EmptyLists rt) {n : EnumNode}
    (hB : Built S n.id) (hok : EnumOk x n) (hn : .enum n ∈ S) {i : EnumItem} (hi : i ∈ n.items) {h : Heap} {vs ds : List Val}
    {rs gp : List Ref} (hrep : DRep x (dartSchema S) (((payload i).map (·.2)).map dartView) vs ds)
    (hg : Stored sep x (dartSchema S) h (((payload i).map (·.2)).map dartView) rs ds gp) {args : HArgs}
    (ha : CallRefs x i rs args) :
    ∃ o p h' d fp', HCreatesV rt (genProg x S) n.id ("create" ++ x.pascal i.id) args h o h' ∧
      DRep x (dartSchema S) [.other n.id] [.enum n.id i.id (named (payload i) vs)] [d] ∧
      Stored sep x (dartSchema S) h' [.other n.id] [o] [d] fp' ∧ hGet (x.camel i.id) o h' = .ok p ∧
      h'[p]? = some (.obj (n.id ++ i.id) ((dartPayloadNames x i).zip rs)) ∧ h.length ≤ o ∧ h.length ≤ p ∧
      h.length ≤ h'.length ∧ (∀ q, q < h.length → h'[q]? = h[q]?) ∧ (∀ q ∈ fp', q ∈ gp ∨ h.length ≤ q) := by
  obtain ⟨c, -, hc⟩ := enum_class hS hN hn
  obtain ⟨N, old, -, hnew⟩ := new_both (x := x) hrt hS hN hB (enum_typeName hn)
  obtain ⟨o, h1, fp, r1, s1, g1⟩ := (sim_new hS hN hV hL N).2.2 n hn h old ((hnew N (Nat.le_refl N)).2 n hn rfl)
  have hfresh : ∀ q ∈ gp, q ∉ fp := fun q hq hq' => Nat.not_lt_of_le (g1.fresh q hq') (hg.lt q hq)
  have hofp : o ∈ fp := by
    obtain ⟨as, is, f, -, -, -, -, hm⟩ := stored_class hN (table_enum hn) s1
    exact (hm o).2 (.inl rfl)
  have hpfp : ∀ p, hGet (x.camel i.id) o h1 = .ok p → p ∈ fp := by
    intro p hp
    obtain ⟨as, is, f, hr, -, hs', -, hm⟩ := stored_class hN (table_enum hn) s1
    exact (hm p).2 (.inr (stored_get hr hs' hp))
  obtain ⟨p, h', d, fp', e1, e2, e3, e4, e5, e6, e7, e8, e9, e10⟩ := heap_variant hN hok hn hi c.id s1 hrep
    (hg.grow g1 (by simp)) (fun hq => hfresh o hq hofp) (fun p hp hq => hfresh p hq (hpfp p hp)) (fun _ => hfresh) ha
  refine ⟨o, p, h', d, fp', ⟨N, fun k hk => ?_⟩, e4, e5, e6, e7, g1.fresh o hofp, g1.fresh p e2, Nat.le_trans g1.len e8,
    fun q hq => ?_, fun q hq => ?_⟩
  · have hp := hok.params i hi
    simp only [hCallCreate, hc]
    rw [show (genEnumClass x n c.id).creates = n.items.map (genVMethod x) from rfl,
      find_vmethod hok hi (members_parts hok).2.2]
    simp only [hCreate]
    rw [if_neg, show (genEnumClass x n c.id).id = n.id from rfl, r1 k hk, ok_bind]
    · simp only [e3, ok_bind]
    · rw [vmethod_vars hok hi, not_or]
      exact ⟨hp _ (by simp), hp _ (by simp [genEnumClass])⟩
  · rw [e9 q (Nat.lt_of_lt_of_le hq g1.len) (fun e => Nat.not_lt_of_le (g1.fresh o hofp) (e ▸ hq))
      (fun e => Nat.not_lt_of_le (g1.fresh p e2) (e ▸ hq))]
    exact g1.same q hq (by simp)
  · rcases e10 q hq with h | h | h
    · exact .inr (g1.fresh q h)
    · exact .inl h
    · exact .inr (Nat.le_trans g1.len h)

theorem heap_is (hS : Plain S) (hN : DartNamed x S) {n : EnumNode} (hok : EnumOk x n) (hn : .enum n ∈ S) {j : EnumItem}
    (hj : j ∈ n.items) {id : String} {pl : List (String × Val)} {d : Val}
    (hd : DRep x (dartSchema S) [.other n.id] [.enum n.id id pl] [d]) {h : Heap} {o : Ref} {fp : List Ref}
    (hs : Stored sep x (dartSchema S) h [.other n.id] [o] [d] fp) :
    hCallIs (genProg x S) n.id ("is" ++ x.pascal j.id) o h = .ok (decide (j.id = id)) := by
  obtain ⟨c, -, hc⟩ := enum_class hS hN hn
  have hv := is_one hS hN hok hn hj hd
  have hcls := class_of_obj hN hn hd.obj
  have hcls' := heap_class hN hn hs
  obtain ⟨as, is, f, hr, rfl, hs', -, -⟩ := stored_class hN (table_enum hn) hs
  rw [enumFields_fst] at hr hv hcls
  rw [enumFields_snd] at hs'
  have hlen := hs'.length_eq
  obtain ⟨t, as, rfl⟩ : ∃ a l, as = a :: l := by
    cases as with
    | nil => simp at hlen
    | cons a l => exact ⟨a, l, rfl⟩
  obtain ⟨tag, is, rfl⟩ : ∃ a l, is = a :: l := by
    cases is with
    | nil => simp at hlen
    | cons a l => exact ⟨a, l, rfl⟩
  obtain ⟨ft, fi, st, -⟩ := hs'.head
  have ht := (stored_lib (isLib_const hN hn).1 (isLib_const (x := x) hN hn).2 st).1
  have hf := Rust.find?_key (fun m : String × String => "is" ++ m.1) (n.items.map (fun i => (x.pascal i.id, x.camel i.id)))
    (by rw [List.map_map]; exact (members_parts hok).2.1) (x.pascal j.id, x.camel j.id) (List.mem_map.2 ⟨j, hj, rfl⟩)
  have hcst : x.camel j.id ∈ (genEnumClass x n c.id).consts := List.mem_map.2 ⟨j, hj, rfl⟩
  simp only [callIs, hc] at hv
  simp only [hCallIs, hc]
  rw [show (genEnumClass x n c.id).isses = n.items.map (fun i => (x.pascal i.id, x.camel i.id)) from rfl, hf] at hv ⊢
  rw [List.zip_cons_cons] at hcls
  simp only [List.zip_cons_cons, hcls, hcst, and_self, if_true, getField, List.lookup_cons, beq_self_eq_true, orElse, ok_bind] at hv
  simp only [hcls', hcst, and_self, if_true]
  rw [List.zip_cons_cons] at hr
  rw [hGet_mid (pre := []) hr (by simp), ok_bind]
  simp only [hValue, ht, ok_bind]
  exact hv

theorem heap_new (hS : Plain S) (hN : DartNamed x S) {n : StructNode} (hn : .struct n ∈ S) {vs ds : List Val}
    (hr : DRep x (dartSchema S) ((n.fields.map (·.typeId)).map dartView) vs ds) {h : Heap} {rs gp : List Ref}
    (hg : Stored sep x (dartSchema S) h ((n.fields.map (·.typeId)).map dartView) rs ds gp) {as : List (String × Ref)}
    (ha : as.Perm ((dartFieldNames x n).zip rs)) :
    ∃ d fp', hCallNew (genProg x S) n.id as h = .ok (h.length, h ++ [.obj n.id ((dartFieldNames x n).zip rs)]) ∧
      DRep x (dartSchema S) [.other n.id] [.struct n.id (named (fieldsOf n) vs)] [d] ∧
      Stored sep x (dartSchema S) (h ++ [.obj n.id ((dartFieldNames x n).zip rs)]) [.other n.id] [h.length] [d] fp' ∧
      ∀ q ∈ fp', q ∈ gp ∨ h.length ≤ q := by
  have hl : (dartFieldNames x n).length = rs.length := by
    have := hg.length_eq.1
    simpa [dartFieldNames] using this.symm
  have hC := classOk_struct hS hN hn
  obtain ⟨fp', h1, h2⟩ := stored_obj (sep := sep) hC.table (h := h ++ [.obj n.id ((dartFieldNames x n).zip rs)]) (r := h.length) (as := rs)
    (is := ds) (f := gp) (by rw [zip_fst]; exact alloc_get _ _)
    (by rw [zip_snd]; exact hg.grow (grow_alloc h _) (by simp)) (fun _ hq => Nat.lt_irrefl _ (hg.lt _ hq))
  rw [zip_fst] at h1
  refine ⟨_, fp', ?_, drep_struct hn hr, h1, fun q hq => ?_⟩
  · simp only [hCallNew, struct_class hS hN hn]
    rw [if_pos (by simp [genStructClass, Function.comp_def]), show (genStructClass x n).ctor = dartFieldNames x n from rfl,
      hRecord_perm (hN.fields n hn).1 hl ha]
    rfl
  · rcases (h2 q).1 hq with rfl | h
    · exact .inr (Nat.le_refl _)
    · exact .inl h

end TPB.Dart
