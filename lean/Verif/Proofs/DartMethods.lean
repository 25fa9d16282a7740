/- The methods `createV`, `toV` and `isV` of the emitted Dart classes. -/
import Verif.Proofs.DartRead
import Verif.Proofs.DartTyping
import Verif.Spec.DartMethods
namespace TPB.Dart
open Spec DartGen
open Spec.DartRules (EnumOk dartPayload dartMembers)

variable {x : Ext} {S : List ASTNode} {rt : Runtime}

theorem lookup_of_nodup {l : List (String × Val)} (hn : (l.map (·.1)).Nodup) {a : String} {v : Val} (h : (a, v) ∈ l) :
    l.lookup a = some v := by
  obtain ⟨l1, l2, rfl⟩ := List.append_of_mem h
  refine lookup_mid (fun hm => ?_)
  rw [List.map_append, List.map_cons, List.nodup_append] at hn
  exact hn.2.2 a hm a (by simp) rfl

theorem map_fst_zip {ns : List String} {ds : List Val} (h : ns.length = ds.length) : (ns.zip ds).map (·.1) = ns :=
  List.map_fst_zip (by omega)

/-- Named arguments may come in any order. -/
theorem mkRecord_perm {ns : List String} {ds : List Val} (hn : ns.Nodup) (hl : ns.length = ds.length)
    {as : List (String × Val)} (h : as.Perm (ns.zip ds)) : mkRecord ns as = .ok (ns.zip ds) := by
  have e := mkRecord_zip ns ds hn hl
  have hk : (as.map (·.1)).Nodup := by
    have := (h.map (·.1)).nodup_iff.2 (by rwa [map_fst_zip hl])
    exact this
  have hlk : ∀ f ∈ ns, as.lookup f = (ns.zip ds).lookup f := by
    intro f hf
    obtain ⟨i, hi, rfl⟩ := List.getElem_of_mem hf
    have hm : (ns[i], ds[i]'(by omega)) ∈ ns.zip ds := by
      rw [List.mem_iff_getElem]
      exact ⟨i, by simp [List.length_zip]; omega, by simp⟩
    rw [lookup_of_nodup hk (h.mem_iff.2 hm), lookup_of_nodup (by rwa [map_fst_zip hl]) hm]
  have hlen : as.length = (ns.zip ds).length := h.length_eq
  unfold mkRecord at e ⊢
  rw [hlen]
  split at e
  · rename_i h1
    rw [if_pos h1, ← e]
    clear e h1 hn hl hk hlen h
    generalize ns.zip ds = zs at hlk ⊢
    induction ns with
    | nil => rfl
    | cons n ns ih =>
      rw [each, each, hlk n (by simp), ih (fun f hf => hlk f (by simp [hf]))]
  · cases e

theorem vmethod_vars {n : EnumNode} (hok : EnumOk x n) {i : EnumItem} (hi : i ∈ n.items) :
    (genVMethod x i).params.vars = dartPayloadNames x i := by
  have h := (Dart.vmethod_eq hok hi).1
  have h2 : (genVMethod x i).params.vars = (genVMethod x i).params.list.map (·.2) := by
    cases (genVMethod x i).params <;> rfl
  rw [h2, h, List.map_map]
  have : ((fun p : Ty × String => p.2) ∘ fun f : String × TypeId => (Spec.DartRules.dartTy f.2, f.1)) = (·.1) := rfl
  rw [this, dartPayload, List.map_fst_zip (by simp [dartPayloadNames_length])]

theorem vmethod_assigns {n : EnumNode} (hok : EnumOk x n) {i : EnumItem} (hi : i ∈ n.items) :
    (genVMethod x i).assigns = (dartPayloadNames x i).map (fun a => (a, a)) := by
  rw [(Dart.vmethod_eq hok hi).2.1, dartPayload]
  have : (fun f : String × TypeId => (f.1, f.1)) = (fun a => (a, a)) ∘ (·.1) := rfl
  rw [this, ← List.map_map, List.map_fst_zip (by simp [dartPayloadNames_length])]

theorem bind_eval {n : EnumNode} (hok : EnumOk x n) {i : EnumItem} (hi : i ∈ n.items) {ds : List Val}
    (hl : ds.length = (payload i).length) (hn : (dartPayloadNames x i).Nodup) {args : Args} (h : CallArgs x i ds args) :
    bindParams (genVMethod x i).params args = .ok ((dartPayloadNames x i).zip ds) := by
  have hv := vmethod_vars hok hi
  have hlen : (dartPayloadNames x i).length = ds.length := by rw [dartPayloadNames_length, hl]
  cases i with
  | empty p id =>
    cases args with
    | positional as =>
      obtain ⟨-, rfl⟩ := h
      have : as = [] := List.length_eq_zero_iff.1 hl
      subst this
      rfl
    | named as => obtain ⟨⟨_, _, _, h⟩, -⟩ := h; cases h
  | tuple p id vs =>
    cases args with
    | positional as =>
      obtain ⟨-, rfl⟩ := h
      simp only [genVMethod, Params.vars] at hv
      simp only [genVMethod, bindParams]
      rw [hv, if_pos (by rw [← hlen, ← hv]; simp)]
    | named as => obtain ⟨⟨_, _, _, h⟩, -⟩ := h; cases h
  | struct p id fs =>
    cases args with
    | positional as => exact absurd rfl (h.1 p id fs)
    | named as =>
      simp only [genVMethod, Params.vars] at hv
      simp only [genVMethod, bindParams]
      rw [hv]
      exact mkRecord_perm hn hlen h.2

/-- The assignments fill the payload object. -/
theorem assigns_eval {c q f : String} {pre rest : List (String × Val)} (h1 : f ∉ pre.map (·.1)) (h2 : f ∉ rest.map (·.1))
    (env : List (String × Val)) : ∀ (ns : List String) (ds olds : List Val) (done : List (String × Val)), ns.Nodup →
    ns.length = ds.length → ns.length = olds.length → (∀ a ∈ ns, a ∉ done.map (·.1)) →
    (∀ p ∈ ns.zip ds, env.lookup p.1 = some p.2) →
    evalAssigns env f (ns.map (fun a => (a, a))) (.struct c (pre ++ (f, .struct q (done ++ ns.zip olds)) :: rest))
      = .ok (.struct c (pre ++ (f, .struct q (done ++ ns.zip ds)) :: rest))
  | [], ds, olds, done, _, _, _, _, _ => by simp [evalAssigns]
  | n :: ns, [], _, _, _, h, _, _, _ => by simp at h
  | n :: ns, _ :: _, [], _, _, _, h, _, _ => by simp at h
  | n :: ns, d :: ds, o :: olds, done, hn, hl, hl', hd, he => by
    have hm : n ∉ (ns.zip olds).map (·.1) := by
      rw [map_fst_zip (by simpa using hl')]
      exact (List.nodup_cons.1 hn).1
    rw [List.map_cons, evalAssigns, he (n, d) (by simp)]
    simp only [orElse, bind, Except.bind]
    rw [getField_mid h1]
    simp only [List.zip_cons_cons]
    rw [setField_mid (hd n (by simp)) hm]
    simp only
    rw [setField_mid h1 h2]
    simp only
    have := assigns_eval (c := c) (q := q) h1 h2 env ns ds olds (done ++ [(n, d)]) (List.nodup_cons.1 hn).2
      (by simpa using hl) (by simpa using hl') (fun a ha => by
        simp only [List.map_append, List.map_cons, List.map_nil, List.mem_append, List.mem_singleton, not_or]
        exact ⟨hd a (by simp [ha]), fun e => (List.nodup_cons.1 hn).1 (e ▸ ha)⟩)
      (fun p hp => he p (by simp [hp]))
    simpa using this

/-- The common body of `createV` and `toV`. -/
theorem variant_eval (hN : DartNamed x S) {n : EnumNode} (hok : EnumOk x n) (hn : .enum n ∈ S) (first : String) (v : Val)
    (l1 l2 : List EnumItem) (i : EnumItem) (p1 p2 : List (List Val)) (p : List Val) (hl : l1.length = p1.length)
    (hi : n.items = l1 ++ i :: l2) (hp : p.length = (payload i).length) {ds : List Val}
    (hds : ds.length = (payload i).length) {args : Args} (ha : CallArgs x i ds args) :
    evalVariant (genEnumClass x n first) (genVMethod x i) args
      (enumObj x n v ((n.items.zip (p1 ++ p :: p2)).map (fun p => payloadObj x n p.1 p.2)))
    = .ok (enumObj x n (variantConst x n i) ((n.items.zip (p1 ++ ds :: p2)).map (fun p => payloadObj x n p.1 p.2))) := by
  have him : i ∈ n.items := by simp [hi]
  have hnames := hN.payloads n hn i him
  obtain ⟨-, -, -, hc, hf, -⟩ := Dart.vmethod_eq hok him
  have hcn := hN.variants n hn
  rw [hi] at hcn
  simp only [List.map_append, List.map_cons, ← List.cons_append] at hcn
  rw [List.nodup_append] at hcn
  obtain ⟨hc1, hc2, hc3⟩ := hcn
  rw [List.nodup_cons] at hc2
  have hval : ∀ q : List (List Val), "value" ∉ ((l1.map (fun i => x.camel i.id)).zip
      ((l1.zip q).map (fun p => payloadObj x n p.1 p.2))).map (·.1) := by
    intro q hm
    obtain ⟨p, hp, e⟩ := List.mem_map.1 hm
    rw [List.nodup_cons] at hc1
    exact hc1.1 (e ▸ (List.of_mem_zip hp).1)
  have hpre : x.camel i.id ∉ (("value", variantConst x n i) :: (l1.map (fun i => x.camel i.id)).zip
      ((l1.zip p1).map (fun p => payloadObj x n p.1 p.2))).map (·.1) := by
    intro hm
    simp only [List.map_cons, List.mem_cons] at hm
    rcases hm with hm | hm
    · exact hc3 "value" (by simp) (x.camel i.id) (by simp) hm.symm
    · obtain ⟨p, hp, e⟩ := List.mem_map.1 hm
      exact hc3 _ (List.mem_cons_of_mem _ (List.of_mem_zip hp).1) (x.camel i.id) (by simp) e
  have hrest : x.camel i.id ∉ ((l2.map (fun i => x.camel i.id)).zip
      ((l2.zip p2).map (fun p => payloadObj x n p.1 p.2))).map (·.1) := by
    intro hm
    obtain ⟨p, hp, e⟩ := List.mem_map.1 hm
    exact hc2.1 (e ▸ (List.of_mem_zip hp).1)
  have hvr : "value" ∉ (((l1.map (fun i => x.camel i.id)).zip
      ((l1.zip p1).map (fun p => payloadObj x n p.1 p.2))) ++ (x.camel i.id, payloadObj x n i p) ::
        (l2.map (fun i => x.camel i.id)).zip ((l2.zip p2).map (fun p => payloadObj x n p.1 p.2))).map (·.1) := by
    rw [List.map_append, List.mem_append, not_or]
    refine ⟨hval p1, ?_⟩
    simp only [List.map_cons, List.mem_cons, not_or]
    refine ⟨fun e => hc3 "value" (by simp) _ (by simp) e, fun hm => ?_⟩
    obtain ⟨q, hq, e⟩ := List.mem_map.1 hm
    exact hc3 "value" (by simp) _ (List.mem_cons_of_mem _ (List.of_mem_zip hq).1) e.symm
  rw [enumObj_split n v l1 l2 i p1 p2 p hl hi]
  unfold evalVariant
  rw [if_pos ⟨by rw [vmethod_vars hok him]; exact hnames,
    by rw [hc]; exact List.mem_map.2 ⟨i, him, rfl⟩,
    by rw [vmethod_vars hok him]; exact hok.params i him _ (by simp [genEnumClass])⟩,
    bind_eval hok him hds hnames ha, hc, hf, vmethod_assigns hok him]
  have hset := setField_mid (c := n.id) (pre := []) (f := "value") (o := v)
    (v := .enum (n.id ++ "Value") (x.camel i.id) []) (by simp) hvr
  simp only [List.nil_append] at hset
  simp only [bind, Except.bind]
  rw [show (genEnumClass x n first).id = n.id from rfl, List.cons_append, hset]
  simp only
  rw [show Val.enum (n.id ++ "Value") (x.camel i.id) [] = variantConst x n i from rfl, ← List.cons_append]
  have hlen : (dartPayloadNames x i).length = ds.length := by rw [dartPayloadNames_length, hds]
  have := assigns_eval (c := n.id) (q := n.id ++ i.id) hpre hrest ((dartPayloadNames x i).zip ds) (dartPayloadNames x i) ds p []
    hnames hlen (by rw [dartPayloadNames_length, hp]) (by simp)
    (fun q hq => lookup_of_nodup (by rwa [map_fst_zip hlen]) hq)
  simp only [List.nil_append] at this
  rw [payloadObj, this, enumObj_split n (variantConst x n i) l1 l2 i p1 p2 ds hl hi]
  rfl

theorem variants_inj {f : EnumItem → String} {l : List EnumItem} (h : (l.map f).Nodup) {a b : EnumItem} (ha : a ∈ l)
    (hb : b ∈ l) (e : f a = f b) : a = b := by
  have h1 := Rust.find?_key f l h a ha
  rw [e, Rust.find?_key f l h b hb] at h1
  exact (Option.some.inj h1).symm

/-- The common body turns every object of the class into one that represents the variant. -/
theorem variant_one (hN : DartNamed x S) {n : EnumNode} (hok : EnumOk x n) (hn : .enum n ∈ S) {i : EnumItem} (hi : i ∈ n.items)
    (first : String) {vs ds : List Val} (hr : DRep x (dartSchema S) (((payload i).map (·.2)).map dartView) vs ds)
    {args : Args} (ha : CallArgs x i ds args) {old : Val} (ho : DObj x (dartSchema S) [.other n.id] [old]) :
    ∃ d, evalVariant (genEnumClass x n first) (genVMethod x i) args old = .ok d ∧
      DRep x (dartSchema S) [.other n.id] [.enum n.id i.id (named (payload i) vs)] [d] ∧
      ∀ j ∈ n.items, j.id ≠ i.id → getField (x.camel j.id) d = getField (x.camel j.id) old := by
  obtain ⟨v, pls, rfl, hl, hobj⟩ := dobj_enum_inv hN hn ho
  obtain ⟨l1, l2, p1, p, p2, hl1, rfl, hlen⟩ := split_mem hl hi
  have hpobj : DObj x (dartSchema S) (((payload i).map (·.2)).map dartView) p := by
    rw [← payload_view]
    exact hobj (i, p) (by rw [hl1, List.zip_append hlen]; simp)
  refine ⟨_, variant_eval hN hok hn first v l1 l2 i p1 p2 p hlen hl1 (by have := hpobj.length_eq; simpa using this.symm)
    (by have := hr.length_eq; simpa using this.2.symm) ha, ?_, fun j hj hji => ?_⟩
  · refine drep_enum hn (pls := p1 ++ ds :: p2) (by simpa using hl) (by rw [hl1, List.zip_append hlen]; simp) hr ?_
    intro q hq
    rw [hl1, List.zip_append hlen] at hq
    simp only [List.zip_cons_cons, List.mem_append, List.mem_cons] at hq
    rcases hq with hq | rfl | hq
    · exact hobj q (by rw [hl1, List.zip_append hlen]; simp [hq])
    · rw [payload_view]; exact hr.obj
    · exact hobj q (by rw [hl1, List.zip_append hlen]; simp [hq])
  · have hc : x.camel j.id ≠ x.camel i.id := by
      intro e
      have h := variants_inj (List.nodup_cons.1 (hN.variants n hn)).2 hj hi e
      exact hji (by rw [h])
    have hv : x.camel j.id ≠ "value" := by
      intro e
      exact (List.nodup_cons.1 (hN.variants n hn)).1 (e ▸ List.mem_map.2 ⟨j, hj, rfl⟩)
    rw [enumObj_split n v l1 l2 i p1 p2 p hlen hl1, enumObj_split n _ l1 l2 i p1 p2 ds hlen hl1]
    simp only [getField, List.cons_append, List.lookup_cons]
    have hv' : (x.camel j.id == "value") = false := by simpa using hv
    simp only [hv']
    rw [List.lookup_append, List.lookup_append, List.lookup_cons, List.lookup_cons]
    have hc' : (x.camel j.id == x.camel i.id) = false := by simpa using hc
    simp only [hc']

theorem members_parts {n : EnumNode} (hok : EnumOk x n) :
    (n.items.map (fun i => "to" ++ x.pascal i.id)).Nodup ∧ (n.items.map (fun i => "is" ++ x.pascal i.id)).Nodup ∧
      (n.items.map (fun i => "create" ++ x.pascal i.id)).Nodup := by
  have h := (List.nodup_cons.1 hok.members).2
  rw [List.nodup_append] at h
  obtain ⟨h1, h2, -⟩ := h
  rw [List.nodup_append] at h1
  obtain ⟨h1, h3, -⟩ := h1
  rw [List.nodup_append] at h1
  exact ⟨h1.2.1, h3, h2⟩

theorem find_vmethod {n : EnumNode} (hok : EnumOk x n) {i : EnumItem} (hi : i ∈ n.items) {p : String}
    (h : (n.items.map (fun i => p ++ x.pascal i.id)).Nodup) :
    (n.items.map (genVMethod x)).find? (fun m => p ++ m.name = p ++ x.pascal i.id) = some (genVMethod x i) := by
  have hname : ∀ j ∈ n.items, (genVMethod x j).name = x.pascal j.id := fun j hj => (Dart.vmethod_eq hok hj).2.2.1
  have := Rust.find?_key (fun m : VMethod => p ++ m.name) (n.items.map (genVMethod x))
    (by
      rw [List.map_map]
      rwa [List.map_congr_left (g := fun i => p ++ x.pascal i.id) (fun j hj => by simp [hname j hj])])
    (genVMethod x i) (List.mem_map.2 ⟨i, hi, rfl⟩)
  rwa [hname i hi] at this

theorem class_of_obj (hN : DartNamed x S) {n : EnumNode} (hn : .enum n ∈ S) {old : Val}
    (ho : DObj x (dartSchema S) [.other n.id] [old]) : isClass n.id old = true := by
  obtain ⟨v, pls, rfl, -, -⟩ := dobj_enum_inv hN hn ho
  simp [isClass, enumObj]

theorem to_one (hS : Plain S) (hN : DartNamed x S) {n : EnumNode} (hok : EnumOk x n) (hn : .enum n ∈ S) {i : EnumItem}
    (hi : i ∈ n.items) {vs ds : List Val} (hr : DRep x (dartSchema S) (((payload i).map (·.2)).map dartView) vs ds)
    {args : Args} (ha : CallArgs x i ds args) {old : Val} (ho : DObj x (dartSchema S) [.other n.id] [old]) :
    ∃ d, callTo (genProg x S) n.id ("to" ++ x.pascal i.id) args old = .ok d ∧
      DRep x (dartSchema S) [.other n.id] [.enum n.id i.id (named (payload i) vs)] [d] ∧
      ∀ j ∈ n.items, j.id ≠ i.id → getField (x.camel j.id) d = getField (x.camel j.id) old := by
  obtain ⟨c, -, hc⟩ := enum_class hS hN hn
  obtain ⟨d, h1, h2⟩ := variant_one hN hok hn hi c.id hr ha ho
  refine ⟨d, ?_, h2⟩
  have hp := hok.params i hi
  simp only [callTo, hc]
  rw [show (genEnumClass x n c.id).tos = n.items.map (genVMethod x) from rfl, find_vmethod hok hi (members_parts hok).1]
  simp only [class_of_obj hN hn ho, if_true, evalTo]
  rw [if_neg, h1]
  rw [vmethod_vars hok hi, (Dart.vmethod_eq hok hi).2.2.2.2.1, not_or]
  exact ⟨hp _ (by simp), hp _ (by simp)⟩

theorem create_one (hrt : rt.Lawful) (hS : Plain S) (hN : DartNamed x S) {n : EnumNode} (hB : Built S n.id) (hok : EnumOk x n)
    (hn : .enum n ∈ S) {i : EnumItem} (hi : i ∈ n.items) {vs ds : List Val}
    (hr : DRep x (dartSchema S) (((payload i).map (·.2)).map dartView) vs ds) {args : Args} (ha : CallArgs x i ds args) :
    ∃ d, Creates rt (genProg x S) n.id ("create" ++ x.pascal i.id) args d ∧
      DRep x (dartSchema S) [.other n.id] [.enum n.id i.id (named (payload i) vs)] [d] := by
  obtain ⟨c, -, hc⟩ := enum_class hS hN hn
  obtain ⟨N, old, ho, hnew⟩ := new_both (x := x) hrt hS hN hB (enum_typeName hn)
  obtain ⟨d, h1, h2, -⟩ := variant_one hN hok hn hi c.id hr ha ho
  refine ⟨d, ⟨N, fun k hk => ?_⟩, h2⟩
  have hp := hok.params i hi
  simp only [callCreate, hc]
  rw [show (genEnumClass x n c.id).creates = n.items.map (genVMethod x) from rfl,
    find_vmethod hok hi (members_parts hok).2.2]
  simp only [evalCreate]
  rw [if_neg, show (genEnumClass x n c.id).id = n.id from rfl, (hnew k hk).2 n hn rfl]
  · exact h1
  · rw [vmethod_vars hok hi, not_or]
    exact ⟨hp _ (by simp), hp _ (by simp [genEnumClass])⟩

/-- The shape of the objects that represent a variant. -/
theorem drep_enum_shape (hN : DartNamed x S) {n : EnumNode} (hn : .enum n ∈ S) {v d : Val}
    (h : DRep x (dartSchema S) [.other n.id] [v] [d]) :
    ∃ i pl pls, i ∈ n.items ∧ v = .enum n.id i.id pl ∧
      d = enumObj x n (variantConst x n i) ((n.items.zip pls).map (fun p => payloadObj x n p.1 p.2)) := by
  have hnd : (typeNames S).Nodup := (List.nodup_append.1 (classes_nodup hN)).1
  generalize hid : n.id = id at h
  cases h with
  | leaf _ _ _ _ _ h _ => simp [builtin?] at h
  | struct m fvs fds _ _ _ hm _ _ =>
    obtain ⟨m', hm', rfl⟩ := view_struct_mem hm
    exact absurd hid.symm (struct_enum_ne hnd hm' hn :)
  | enum m i pvs pds pls _ _ _ hm hl hmem _ _ _ =>
    obtain ⟨m', hm', rfl⟩ := view_enum_mem hm
    have : m' = n := enum_unique hnd hm' hn hid.symm
    subst this
    obtain ⟨j, hj, rfl⟩ := List.mem_map.1 (List.of_mem_zip hmem).1
    refine ⟨j, _, pls, hj, by rw [viewItem_id], ?_⟩
    rw [enumObj_view]
    simp [variantConst, viewItem_id]
  | ext _ _ _ _ _ h _ => exact absurd (by rw [typeNames_view, ← hid]; exact enum_typeName hn) h

theorem is_one (hS : Plain S) (hN : DartNamed x S) {n : EnumNode} (hok : EnumOk x n) (hn : .enum n ∈ S) {j : EnumItem}
    (hj : j ∈ n.items) {id : String} {pl : List (String × Val)} {d : Val}
    (h : DRep x (dartSchema S) [.other n.id] [.enum n.id id pl] [d]) :
    callIs (genProg x S) n.id ("is" ++ x.pascal j.id) d = .ok (decide (j.id = id)) := by
  obtain ⟨c, -, hc⟩ := enum_class hS hN hn
  have hcls := class_of_obj hN hn h.obj
  obtain ⟨i, pl', pls, hi, e, rfl⟩ := drep_enum_shape hN hn h
  simp only [Val.enum.injEq, true_and] at e
  obtain ⟨rfl, -⟩ := e
  have hf := Rust.find?_key (fun m : String × String => "is" ++ m.1) (n.items.map (fun i => (x.pascal i.id, x.camel i.id)))
    (by rw [List.map_map]; exact (members_parts hok).2.1) (x.pascal j.id, x.camel j.id) (List.mem_map.2 ⟨j, hj, rfl⟩)
  simp only [callIs, hc]
  rw [show (genEnumClass x n c.id).isses = n.items.map (fun i => (x.pascal i.id, x.camel i.id)) from rfl, hf]
  simp only [hcls, true_and]
  rw [if_pos (show x.camel j.id ∈ (genEnumClass x n c.id).consts from List.mem_map.2 ⟨j, hj, rfl⟩)]
  simp only [enumObj, getField, List.lookup_cons, beq_self_eq_true, orElse, bind, Except.bind, variantConst, isConst]
  congr 1
  simp only [decide_true, Bool.true_and]
  refine decide_eq_decide.2 ⟨fun e => ?_, fun e => by rw [e]⟩
  rw [variants_inj (List.nodup_cons.1 (hN.variants n hn)).2 hi hj e]

theorem new_one (hS : Plain S) (hN : DartNamed x S) {n : StructNode} (hn : .struct n ∈ S) {vs ds : List Val}
    (hr : DRep x (dartSchema S) ((n.fields.map (·.typeId)).map dartView) vs ds) {as : List (String × Val)}
    (ha : as.Perm ((dartFieldNames x n).zip ds)) :
    ∃ d, callNew (genProg x S) n.id as = .ok d ∧
      DRep x (dartSchema S) [.other n.id] [.struct n.id (named (fieldsOf n) vs)] [d] := by
  refine ⟨_, ?_, drep_struct hn hr⟩
  have hl : (dartFieldNames x n).length = ds.length := by
    have := hr.length_eq.2
    simpa [dartFieldNames] using this
  simp only [callNew, struct_class hS hN hn]
  rw [if_pos (by simp [genStructClass, Function.comp_def]), show (genStructClass x n).ctor = dartFieldNames x n from rfl,
    mkRecord_perm (hN.fields n hn).1 hl ha]
  rfl

end TPB.Dart
