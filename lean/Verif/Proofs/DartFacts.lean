/- Facts about the emitted Dart code of an accepted schema, used by the property theorems. -/
import Verif.Proofs.DartText
import Verif.Proofs.DartReadAll
import Verif.Spec.Interop
namespace TPB.Dart
open Spec DartGen
open Props (Accepted)

variable {x : Ext} {S : List ASTNode} {rt : Runtime}

theorem wfDecl_or (h : WFSchema 0 S) : ∀ d ∈ S, WFDecl 0 d ∨ ∃ f, d = .fn f := by
  intro d hd
  obtain ⟨j, hj⟩ := Rust.wfSchema_mem' S 0 h d hd
  cases d with
  | fn f => exact .inr ⟨f, rfl⟩
  | struct n => exact .inl hj
  | enum n => exact .inl hj
  | const n => exact .inl hj
  | directive n => cases n <;> exact .inl hj

/-- The generator prints the program `genProg x S`. -/
theorem prints_genProg (h : Accepted S) : Prints x S (genProg x S) :=
  ⟨models_render x S 0 (wfDecl_or h.wf), buffers_render x S 0 (wfDecl_or h.wf)⟩

theorem declared_free (hN : DartNamed x S) {id : String} (h : id ∈ typeNames S) : LibraryFree S (.other id) := by
  intro h2
  exact (List.nodup_append.1 (classes_nodup hN)).2.2 id h id h2 rfl

/-! ### Single values -/

/-- One bound on the stack is enough for reading a value, whatever follows it. -/
theorem enc_read_uniform (hrt : rt.Lawful) (hS : Plain S) (hN : DartNamed x S) (hH : HasDefaults S)
    (hD : DistinctNumbers S) {t : TypeId} (ht : LibraryFree S t) {v : Val} {bs : Bytes}
    (h : Enc rt.wire (dartSchema S) [dartView t] [v] bs) :
    ∃ d, DRep x (dartSchema S) [dartView t] [v] [d] ∧ ∃ N, ∀ k, N ≤ k → ∀ r,
      evalReadE rt (readers rt (genProg x S) k) (genRead t) (bs ++ r) = .ok (d, r) := by
  obtain ⟨⟨ds, hd, N, h3⟩, -⟩ := enc_read hrt hS hN hH hD h [t] rfl (by simpa using ht)
  obtain ⟨d, rfl⟩ : ∃ d, ds = [d] := by
    have := hd.length_eq.2
    match ds, this with
    | [d], _ => exact ⟨d, rfl⟩
  refine ⟨d, hd, N, fun k hk r => ?_⟩
  have h4 := h3 k hk r
  simp only [List.map_cons, List.map_nil, evalReads, bind, Except.bind] at h4
  cases he : evalReadE rt (readers rt (genProg x S) k) (genRead t) (bs ++ r) with
  | error e => rw [he] at h4; simp at h4
  | ok p =>
    rw [he] at h4
    simp only [Except.ok.injEq, Prod.mk.injEq, List.cons.injEq, and_true] at h4
    rw [← h4.1, ← h4.2]

theorem enc_read_creatable (hrt : rt.Lawful) (hS : Plain S) (hN : DartNamed x S)
    (hD : DistinctNumbers S) {t : TypeId} (ht : LibraryFree S t) {v : Val} {bs : Bytes}
    (h : Enc rt.wire (dartSchema S) [dartView t] [v] bs) (hC : Creatable x S [dartView t] [v]) :
    (∃ d, DRep x (dartSchema S) [dartView t] [v] [d] ∧ ∀ r, Reads rt (genProg x S) t (bs ++ r) d r) ∧
    ∀ old, DObj x (dartSchema S) [dartView t] [old] → ∃ d, DRep x (dartSchema S) [dartView t] [v] [d] ∧
      ∀ r, Emplaces rt (genProg x S) t old (bs ++ r) d r := by
  obtain ⟨h1, h2⟩ := enc_read_of hrt hS hN hD h [t] rfl (by simpa using ht) hC
  constructor
  · obtain ⟨ds, hd, N, h3⟩ := h1
    obtain ⟨d, rfl⟩ : ∃ d, ds = [d] := by
      have := hd.length_eq.2
      match ds, this with
      | [d], _ => exact ⟨d, rfl⟩
    refine ⟨d, hd, fun r => ⟨N, fun k hk => ?_⟩⟩
    have h4 := h3 k hk r
    simp only [List.map_cons, List.map_nil, evalReads, bind, Except.bind] at h4
    rw [readT]
    cases he : evalReadE rt (readers rt (genProg x S) k) (genRead t) (bs ++ r) with
    | error e => rw [he] at h4; simp at h4
    | ok p =>
      rw [he] at h4
      simp only [Except.ok.injEq, Prod.mk.injEq, List.cons.injEq, and_true] at h4
      rw [← h4.1, ← h4.2]
  · intro old ho
    obtain ⟨ds, hd, N, h3⟩ := h2 [old] ho
    obtain ⟨d, rfl⟩ : ∃ d, ds = [d] := by
      have := hd.length_eq.2
      match ds, this with
      | [d], _ => exact ⟨d, rfl⟩
    refine ⟨d, hd, fun r => ⟨N, fun k hk => ?_⟩⟩
    have h4 := h3 k hk r
    simp only [emplMany, bind, Except.bind] at h4
    cases he : emplT rt (genProg x S) k t old (bs ++ r) with
    | error e => rw [he] at h4; simp at h4
    | ok p =>
      rw [he] at h4
      simp only [Except.ok.injEq, Prod.mk.injEq, List.cons.injEq, and_true] at h4
      rw [← h4.1, ← h4.2]

theorem enc_read_one (hrt : rt.Lawful) (hS : Plain S) (hN : DartNamed x S) (hH : HasDefaults S)
    (hD : DistinctNumbers S) {t : TypeId} (ht : LibraryFree S t) {v : Val} {bs : Bytes}
    (h : Enc rt.wire (dartSchema S) [dartView t] [v] bs) :
    (∃ d, DRep x (dartSchema S) [dartView t] [v] [d] ∧ ∀ r, Reads rt (genProg x S) t (bs ++ r) d r) ∧
    ∀ old, DObj x (dartSchema S) [dartView t] [old] → ∃ d, DRep x (dartSchema S) [dartView t] [v] [d] ∧
      ∀ r, Emplaces rt (genProg x S) t old (bs ++ r) d r :=
  enc_read_creatable hrt hS hN hD ht h (.inl fun n _ => built_of_hasDefaults hH n.id)

theorem enc_write_one (hS : Plain S) (hN : DartNamed x S) {t : TypeId} (ht : LibraryFree S t) {v d : Val}
    {bs : Bytes} (h : Enc rt.wire (dartSchema S) [dartView t] [v] bs)
    (hd : DRep x (dartSchema S) [dartView t] [v] [d]) (kd : Kind) : Writes rt (genProg x S) kd t d bs := by
  obtain ⟨N, h1⟩ := enc_write hS hN h [t] rfl (by simpa using ht) [d] kd hd
  refine ⟨N, fun k hk => ?_⟩
  have h4 := h1 k hk
  simp only [writeMany, bind, Except.bind] at h4
  cases he : writeT rt (genProg x S) k kd t d with
  | error e => rw [he] at h4; simp at h4
  | ok p =>
    rw [he] at h4
    simpa using h4

theorem Writes.unique {P : Prog} {kd : Kind} {t : TypeId} {d : Val} {b b' : Bytes}
    (h : Writes rt P kd t d b) (h' : Writes rt P kd t d b') : b = b' := by
  obtain ⟨N, h⟩ := h
  obtain ⟨N', h'⟩ := h'
  have := (h (max N N') (by omega)).symm.trans (h' (max N N') (by omega))
  simpa using this

theorem Reads.unique {P : Prog} {t : TypeId} {d d' : Val} {bs r r' : Bytes}
    (h : Reads rt P t bs d r) (h' : Reads rt P t bs d' r') : d = d' ∧ r = r' := by
  obtain ⟨N, h⟩ := h
  obtain ⟨N', h'⟩ := h'
  have := (h (max N N') (by omega)).symm.trans (h' (max N N') (by omega))
  simpa using this

theorem Skips.unique {P : Prog} {c : Codec} {n : Nat} {bs r r' : Bytes}
    (h : Skips rt P c n bs r) (h' : Skips rt P c n bs r') : r = r' := by
  obtain ⟨N, h⟩ := h
  obtain ⟨N', h'⟩ := h'
  have := (h (max N N') (by omega)).symm.trans (h' (max N N') (by omega))
  simpa using this

/-! ### Every representable value has an encoding -/

theorem leaf_total (hrt : rt.Lawful) {t : TypeId} (hs : Sized t) {v : Val} (hv : LeafVal (dartView t) v) :
    ∃ p b, builtin? (dartView t) = some p ∧ rt.wire.prim p v = some b := by
  cases t with
  | integer id size s =>
    have key : ∃ t', dartPrims.lookup (dartPrim (.integer id size s)) = some t' ∧ LeafVal t' v := by
      rcases hs with rfl | rfl | rfl <;> exact ⟨_, rfl, by cases v <;> simpa [dartView, LeafVal] using hv⟩
    obtain ⟨t', h1, h2⟩ := key
    obtain ⟨b, hb⟩ := hrt.total _ _ _ h1 h2
    have hne := (view_builtin (t := .integer id size s) rfl).1
    refine ⟨_, b, rfl, ?_⟩
    simp only [Runtime.wire, if_neg hne, h1, if_pos h2, hb]
  | number id size =>
    have key : ∃ t', dartPrims.lookup (dartPrim (.number id size)) = some t' ∧ LeafVal t' v := by
      rcases hs with rfl | rfl <;> exact ⟨_, rfl, by cases v <;> simpa [dartView, LeafVal] using hv⟩
    obtain ⟨t', h1, h2⟩ := key
    obtain ⟨b, hb⟩ := hrt.total _ _ _ h1 h2
    have hne := (view_builtin (t := .number id size) rfl).1
    refine ⟨_, b, rfl, ?_⟩
    simp only [Runtime.wire, if_neg hne, h1, if_pos h2, hb]
  | bool id =>
    have h1 : dartPrims.lookup "Bool" = some (.bool "Bool") := rfl
    obtain ⟨b, hb⟩ := hrt.total _ _ _ h1 hv
    refine ⟨"Bool", b, rfl, ?_⟩
    have e : (if "Bool" = "u32" then "Int32" else "Bool") = "Bool" := by decide
    have hv' : LeafVal (.bool "Bool") v := hv
    simp only [Runtime.wire, e, h1, if_pos hv', hb]
  | char id =>
    have h1 : dartPrims.lookup "Int8" = some (.integer "Int8" 1 true) := rfl
    obtain ⟨b, hb⟩ := hrt.total _ _ _ h1 hv
    refine ⟨"Int8", b, rfl, ?_⟩
    have e : (if "Int8" = "u32" then "Int32" else "Int8") = "Int8" := by decide
    have hv' : LeafVal (.integer "Int8" 1 true) v := hv
    simp only [Runtime.wire, e, h1, if_pos hv', hb]
  | other id => cases v <;> simp [dartView, LeafVal] at hv
  | generic c gs =>
    simp only [dartView] at hv
    split at hv
    · split at hv <;> cases v <;> simp [LeafVal] at hv
    · cases v <;> simp [LeafVal] at hv

theorem tag_total (hrt : rt.Lawful) {p : Nat} (h : p < 2 ^ 31) : ∃ tag, rt.wire.prim "u32" (.int p) = some tag := by
  have h1 : dartPrims.lookup "Int32" = some (.integer "Int32" 4 true) := rfl
  have hv : LeafVal (.integer "Int32" 4 true) (.int p) := by
    show -(2 ^ (8 * 4 - 1) : Int) ≤ (p : Int) ∧ (p : Int) < 2 ^ (8 * 4 - 1)
    omega
  obtain ⟨b, hb⟩ := hrt.total _ _ _ h1 hv
  refine ⟨b, ?_⟩
  simp only [Runtime.wire, if_true, h1, if_pos hv, hb]

theorem hasTys_enc (hrt : rt.Lawful) (hN : DartNamed x S) (hT : Rust.TypesOk S)
    (hP : ∀ n, .enum n ∈ S → ∀ i ∈ n.items, i.position < 2 ^ 31) {ts : List TypeId} {vs : List Val}
    (h : HasTys rt.wire (dartSchema S) ts vs) :
    ∀ ts0 : List TypeId, ts = ts0.map dartView → (∀ t ∈ ts0, Sized t) → ∃ bs, Enc rt.wire (dartSchema S) ts vs bs := by
  induction h with
  | nil => exact fun _ _ _ => ⟨_, .nil⟩
  | leaf t v ts vs hv _ ih =>
    intro ts0 h0 hs
    obtain ⟨t0, ts0, rfl, rfl, rfl⟩ := List.map_eq_cons_iff.1 h0.symm
    obtain ⟨bs, ih⟩ := ih ts0 rfl (fun t h => hs t (by simp [h]))
    obtain ⟨p, b, h1, h2⟩ := leaf_total hrt (hs t0 (by simp)) hv
    exact ⟨_, .leaf _ p v b _ vs bs h1 h2 ih⟩
  | struct n fvs ts vs hn _ _ ih1 ih2 =>
    intro ts0 h0 hs
    obtain ⟨t0, ts0, rfl, ht0, rfl⟩ := List.map_eq_cons_iff.1 h0.symm
    obtain ⟨bs, ih2⟩ := ih2 ts0 rfl (fun t h => hs t (by simp [h]))
    obtain ⟨m, hm, rfl⟩ := view_struct_mem hn
    obtain ⟨b, ih1⟩ := ih1 (m.fields.map (·.typeId)) (fieldsOf_view m) (fun t ht => by
      obtain ⟨f, hf, rfl⟩ := List.mem_map.1 ht
      exact sized_of_wf (hT.1 m hm (f.name, f.typeId) (List.mem_map.2 ⟨f, hf, rfl⟩)))
    exact ⟨_, .struct _ fvs b _ vs bs hn ih1 ih2⟩
  | enum n i pvs ts vs hn hi _ _ ih1 ih2 =>
    intro ts0 h0 hs
    obtain ⟨t0, ts0, rfl, ht0, rfl⟩ := List.map_eq_cons_iff.1 h0.symm
    obtain ⟨bs, ih2⟩ := ih2 ts0 rfl (fun t h => hs t (by simp [h]))
    obtain ⟨m, hm, rfl⟩ := view_enum_mem hn
    obtain ⟨j, hj, rfl⟩ := List.mem_map.1 hi
    obtain ⟨b, ih1⟩ := ih1 ((payload j).map (·.2)) (payload_view j) (fun t ht => by
      obtain ⟨f, hf, rfl⟩ := List.mem_map.1 ht
      exact sized_of_wf (hT.2 m hm j hj f hf))
    obtain ⟨tag, htag⟩ := tag_total (rt := rt) hrt (hP m hm j hj)
    exact ⟨_, .enum _ _ tag pvs b _ vs bs hn hi (by rw [viewItem_position]; exact htag) ih1 ih2⟩
  | list c gs shape its items ts vs hh hpick _ _ ih1 ih2 =>
    intro ts0 h0 hs
    obtain ⟨t0, ts0, rfl, ht0, rfl⟩ := List.map_eq_cons_iff.1 h0.symm
    obtain ⟨bs, ih2⟩ := ih2 ts0 rfl (fun t h => hs t (by simp [h]))
    obtain ⟨hd, hh⟩ := Option.isSome_iff_exists.1 hh
    obtain ⟨g, rfl, rfl, rfl⟩ := view_generic ht0
    have hits := pick_replicate hpick
    obtain ⟨b, ih1⟩ := ih1 (List.replicate shape (.other (dartElem g))) (by simp [hits, dartView]) (fun t ht => by
      obtain ⟨-, rfl⟩ := List.mem_replicate.1 ht
      trivial)
    exact ⟨_, .list _ _ shape hd its items b _ vs bs hh hpick ih1 ih2⟩
  | ext id v ts vs hid hv _ ih =>
    intro ts0 h0 hs
    obtain ⟨t0, ts0, rfl, ht0, rfl⟩ := List.map_eq_cons_iff.1 h0.symm
    obtain ⟨bs, ih⟩ := ih ts0 rfl (fun t h => hs t (by simp [h]))
    obtain ⟨b, hb⟩ := Option.isSome_iff_exists.1 hv
    exact ⟨_, .ext id v b _ vs bs hid hb ih⟩

/-! ### An object represents one value -/

theorem nodup_of_map {α β : Type} (f : α → β) : ∀ {l : List α}, (l.map f).Nodup → l.Nodup
  | [], _ => List.nodup_nil
  | a :: l, h => by
    rw [List.map_cons, List.nodup_cons] at h
    exact List.nodup_cons.2 ⟨fun ha => h.1 (List.mem_map.2 ⟨a, ha, rfl⟩), nodup_of_map f h.2⟩

theorem zip_map_inj {α : Type} {items : List EnumItem} (f : EnumItem → List Val → α) :
    ∀ {is : List EnumItem} {p q : List (List Val)}, p.length = is.length → q.length = is.length →
      (∀ i a b, (i, a) ∈ is.zip p → (i, b) ∈ is.zip q → f i a = f i b → a = b) →
      (is.zip p).map (fun p => f p.1 p.2) = (is.zip q).map (fun p => f p.1 p.2) → p = q
  | [], [], [], _, _, _, _ => rfl
  | i :: is, a :: p, b :: q, h1, h2, h3, h => by
    simp only [List.zip_cons_cons, List.map_cons, List.cons.injEq] at h
    rw [h3 i a b (by simp) (by simp) h.1,
      zip_map_inj (items := items) f (by simpa using h1) (by simpa using h2)
        (fun j a b ha hb => h3 j a b (by simp [ha]) (by simp [hb])) h.2]
  | [], [], _ :: _, _, h, _, _ => by simp at h
  | [], _ :: _, _, h, _, _, _ => by simp at h
  | _ :: _, [], _, h, _, _, _ => by simp at h
  | _ :: _, _ :: _, [], _, h, _, _ => by simp at h

theorem mem_zip_unique {α β : Type} : ∀ {as : List α} {bs : List β} {a : α} {b c : β}, as.Nodup →
    (a, b) ∈ as.zip bs → (a, c) ∈ as.zip bs → b = c
  | [], _, _, _, _, _, h, _ => by simp at h
  | _ :: _, [], _, _, _, _, h, _ => by simp at h
  | a' :: as, b' :: bs, a, b, c, hn, h1, h2 => by
    simp only [List.zip_cons_cons, List.mem_cons, Prod.mk.injEq] at h1 h2
    rw [List.nodup_cons] at hn
    rcases h1 with ⟨rfl, rfl⟩ | h1 <;> rcases h2 with ⟨h2, rfl⟩ | h2
    · rfl
    · exact absurd (List.of_mem_zip h2).1 hn.1
    · subst h2; exact absurd (List.of_mem_zip h1).1 hn.1
    · exact mem_zip_unique hn.2 h1 h2

theorem drep_unique (hN : DartNamed x S) {ts : List TypeId} {vs ds : List Val}
    (h : DRep x (dartSchema S) ts vs ds) : ∀ {us}, DRep x (dartSchema S) ts us ds → vs = us := by
  have hnd : (typeNames S).Nodup := (List.nodup_append.1 (classes_nodup hN)).1
  induction h with
  | nil =>
    intro us h
    cases h
    rfl
  | leaf t v ts vs ds hb _ ih =>
    intro us h
    cases h with
    | leaf _ _ _ us _ _ h => rw [ih h]
    | struct n _ _ _ _ _ _ _ _ => simp [builtin?] at hb
    | enum n _ _ _ _ _ _ _ _ _ _ _ _ _ => simp [builtin?] at hb
    | list _ _ _ _ _ _ _ _ _ => simp [builtin?] at hb
    | ext id _ _ us _ _ h => rw [ih h]
  | struct n fvs fds ts vs ds hn h1 h2 ih1 ih2 =>
    intro us h
    obtain ⟨m, hm, rfl⟩ := view_struct_mem hn
    generalize hid : TypeId.other (StructNode.id _) = t at h
    generalize hd : Val.struct _ ((dartFieldNames x _).zip fds) = d at h
    cases h with
    | leaf _ _ _ _ _ hb _ => subst hid; simp [builtin?] at hb
    | struct n' fvs' fds' _ us _ hn' h1' h2' =>
      obtain ⟨m', hm', rfl⟩ := view_struct_mem hn'
      have : m' = m := struct_unique hnd hm' hm (by simpa using hid.symm)
      subst this
      simp only [Val.struct.injEq, true_and, dartFieldNames_view] at hd
      rw [fieldsOf_view] at h1 h1' ih1
      have e : fds = fds' := zip_inj
        (by have := h1.length_eq.2; simpa [dartFieldNames] using this)
        (by have := h1'.length_eq.2; simpa [dartFieldNames] using this) hd
      subst e
      rw [ih1 h1', ih2 h2']
    | enum n' i pvs pds pls _ us _ hn' _ _ _ _ h2' =>
      obtain ⟨m', hm', rfl⟩ := view_enum_mem hn'
      exact absurd (by simpa using hid) (struct_enum_ne hnd hm hm')
    | list _ _ _ _ _ _ _ _ _ => simp at hid
    | ext id _ _ us _ hid' _ =>
      simp only [TypeId.other.injEq] at hid
      rw [typeNames_view, ← hid] at hid'
      exact absurd (struct_typeName hm) hid'
  | enum n i pvs pds pls ts vs ds hn hl hmem h1 hobj h2 ih1 ih2 =>
    intro us h
    obtain ⟨m, hm, rfl⟩ := view_enum_mem hn
    generalize hid : TypeId.other (EnumNode.id _) = t at h
    generalize hd : enumObj x _ _ _ = d at h
    cases h with
    | leaf _ _ _ _ _ hb _ => subst hid; simp [builtin?] at hb
    | struct n' _ _ _ us _ hn' _ _ =>
      obtain ⟨m', hm', rfl⟩ := view_struct_mem hn'
      exact absurd (by simpa using hid.symm) (struct_enum_ne hnd hm' hm)
    | enum n' i' pvs' pds' pls' _ us _ hn' hl' hmem' h1' hobj' h2' =>
      obtain ⟨m', hm', rfl⟩ := view_enum_mem hn'
      have : m' = m := enum_unique hnd hm' hm (by simpa using hid.symm)
      subst this
      simp only [enumObj, Val.struct.injEq, true_and, List.cons.injEq, Prod.mk.injEq, variantConst, Val.enum.injEq,
        and_true] at hd
      obtain ⟨hc, hz⟩ := hd
      simp only [List.length_map] at hl hl'
      have hi : i = i' := by
        have hnod := (List.nodup_cons.1 (hN.variants m' hm)).2
        obtain ⟨j, hj, rfl⟩ := List.mem_map.1 (List.of_mem_zip hmem).1
        obtain ⟨j', hj', rfl⟩ := List.mem_map.1 (List.of_mem_zip hmem').1
        rw [viewItem_id, viewItem_id] at hc
        have f1 := Rust.find?_key (fun i : EnumItem => x.camel i.id) m'.items hnod j hj
        have f2 := Rust.find?_key (fun i : EnumItem => x.camel i.id) m'.items hnod j' hj'
        simp only [hc] at f1
        rw [f1] at f2
        rw [Option.some.inj f2]
      subst hi
      have hz' := zip_inj (by simp [List.length_zip, hl]) (by simp [List.length_zip, hl']) hz
      have hpl : pls = pls' := by
        refine zip_map_inj (items := m'.items) (payloadObj x { m' with items := m'.items.map viewItem })
          (by simpa using hl) (by simpa using hl') ?_ hz'
        intro j a b ha hb hab
        simp only [payloadObj, Val.struct.injEq, true_and] at hab
        have la := (hobj (j, a) ha).length_eq
        have lb := (hobj' (j, b) hb).length_eq
        simp only [List.length_map] at la lb
        exact zip_inj (by rw [dartPayloadNames_length]; exact la) (by rw [dartPayloadNames_length]; exact lb) hab
      subst hpl
      have hnodup : (m'.items.map viewItem).Nodup := by
        have hnod := (List.nodup_cons.1 (hN.variants m' hm)).2
        refine nodup_of_map (fun i => x.camel i.id) ?_
        simpa [List.map_map, Function.comp_def, viewItem_id] using hnod
      have hp : pds = pds' := mem_zip_unique hnodup hmem hmem'
      subst hp
      rw [ih1 h1', ih2 h2']
    | list _ _ _ _ _ _ _ _ _ => simp at hid
    | ext id _ _ us _ hid' _ =>
      simp only [TypeId.other.injEq] at hid
      rw [typeNames_view, ← hid] at hid'
      exact absurd (enum_typeName hm) hid'
  | list e s vis dis ts vs ds h1 h2 ih1 ih2 =>
    intro us h
    cases h with
    | leaf _ _ _ _ _ hb _ => simp [builtin?] at hb
    | list _ _ vis' _ _ us _ h1' h2' => rw [ih1 h1', ih2 h2']
  | ext id v ts vs ds hid _ ih =>
    intro us h
    cases h with
    | leaf _ _ _ us _ _ h => rw [ih h]
    | struct n _ _ _ _ _ hn _ _ => exact absurd (struct_typeName hn) hid
    | enum n _ _ _ _ _ _ _ hn _ _ _ _ _ => exact absurd (enum_typeName hn) hid
    | ext _ _ _ us _ _ h => rw [ih h]

/-! ### Skipping several values -/

/-- All fields of the struct are built-in values or generic (nothing is skipped outside the loop). -/
def NoOthers (ts : List TypeId) : Prop := ∀ t ∈ ts, ∀ id, t ≠ .other id

theorem evalSkipBody_times (rec : Codec → Nat → Bytes → Res Bytes) (kd : Kind) (fs : List StructField)
    (h : NoOthers (fs.map (·.typeId))) (c : Nat) (bs : Bytes) :
    evalSkipBody rt rec c (genSkipBody kd fs) bs
      = times (fun bs => evalSkipBody rt rec 1 (genSkipBody kd fs) bs) c bs := by
  have e : (genSkipBody kd fs).once = [] := by
    simp only [genSkipBody, List.map_eq_nil_iff, List.filter_eq_nil_iff]
    intro f hf
    have := h f.typeId (List.mem_map.2 ⟨f, hf, rfl⟩)
    cases ht : f.typeId <;> simp [isOther]
    rename_i id
    exact this id ht
  have e2 : ∀ c bs, evalSkipBody rt rec c (genSkipBody kd fs) bs = times (evalSkips rt rec (genSkipBody kd fs).loop) c bs := by
    intro c bs
    simp only [evalSkipBody, e, evalSkips, bind, Except.bind]
  rw [e2]
  congr 1
  funext bs
  rw [e2, times_one]

theorem skip_times (hS : Plain S) (hN : DartNamed x S) {id : String}
    (h : (∃ n, .enum n ∈ S ∧ n.id = id) ∨ ∃ n, .struct n ∈ S ∧ n.id = id ∧ NoOthers ((fieldsOf n).map (·.2)))
    (kd : Kind) (k c : Nat) (bs : Bytes) :
    skipC rt (genProg x S) (k + 1) (.plain kd id) c bs
      = times (fun bs => skipC rt (genProg x S) (k + 1) (.plain kd id) 1 bs) c bs := by
  rcases h with ⟨n, hn, rfl⟩ | ⟨n, hn, rfl, ho⟩
  · cases kd with
    | into => simp only [skipC, codec_enum_into hS hN hn, evalSkip, genEnumInto, times_one]
    | emplace => simp only [skipC, codec_enum_emplace hS hN hn, evalSkip, genEnumEmplace, times_one]
  · have ho' : NoOthers (n.fields.map (·.typeId)) := by
      rwa [show (fieldsOf n).map (·.2) = n.fields.map (·.typeId) by simp [fieldsOf, Function.comp_def]] at ho
    cases kd with
    | into =>
      simp only [skipC, codec_struct_into hS hN hn, evalSkip, genStructInto]
      exact evalSkipBody_times _ .into n.fields ho' c bs
    | emplace =>
      simp only [skipC, codec_struct_emplace hS hN hn, evalSkip, genStructEmplace]
      exact evalSkipBody_times _ .emplace n.fields ho' c bs

theorem skip_declared (hS : Plain S) (hN : DartNamed x S) {id : String} (hid : id ∈ typeNames S)
    (hrt : rt.Lawful) (hD : DistinctNumbers S) (hO : SkipOrder S) (kd : Kind) {v : Val} {b : Bytes}
    (h : Enc rt.wire (dartSchema S) [.other id] [v] b) (hs : id ≠ "String") :
    ∃ N, ∀ k, N ≤ k → ∀ r, skipC rt (genProg x S) k (.plain kd id) 1 (b ++ r) = .ok r := by
  obtain ⟨N, h1⟩ := enc_skip hrt hS hN hD hO h [.other id] rfl (by simpa using declared_free hN hid) kd
  refine ⟨N, fun k hk r => ?_⟩
  have h2 := h1 k hk r
  simp only [List.map_cons, List.map_nil, evalSkips, genSkip_other, evalSkipS] at h2
  have e : kindOf kd id = kd := by cases kd <;> simp [kindOf, emplKind, hs]
  rw [e] at h2
  cases he : skipC rt (genProg x S) k (.plain kd id) 1 (b ++ r) with
  | error e => rw [he] at h2; simp [bind, Except.bind] at h2
  | ok r' => rw [he] at h2; simpa [bind, Except.bind] using h2

end TPB.Dart

namespace TPB.Dart
open Spec DartGen

variable {x : Ext} {S : List ASTNode} {rt : Runtime}

/-! ### Both families of codecs write the same bytes -/

theorem write_lib (hS : Plain S) {b : String} (hb : b ∉ typeNames S ++ variantClasses S) (k : Nat) (kd kd' : Kind) (v : Val) :
    writeC rt (genProg x S) k (.plain kd b) v = writeC rt (genProg x S) k (.plain kd' b) v := by
  cases k with
  | zero => rfl
  | succ k => simp only [writeC, codec_none hS kd hb, codec_none hS kd' hb]

theorem write_genericKind (hS : Plain S) (hN : DartNamed x S) (k : Nat) (kd kd' : Kind) (id : String) (gs : List TypeId)
    (hf : LibraryFree S (.generic id gs)) (v : Val) :
    writeC rt (genProg x S) k (genCodecG kd id gs) v = writeC rt (genProg x S) k (genCodecG kd' id gs) v := by
  cases k with
  | zero => simp only [writeC]
  | succ k =>
    cases hv : dartView (.generic id gs) with
    | generic c gs' =>
      obtain ⟨g, h, -, -⟩ := view_generic hv
      simp only [TypeId.generic.injEq] at h
      obtain ⟨rfl, rfl⟩ := h
      simp only [genCodecG, if_true, writeC, codec_none hS kd hN.lists, codec_none hS kd' hN.lists]
    | other id' =>
      rw [(view_libGeneric hv kd).1, (view_libGeneric hv kd').1]
      have hb := libGeneric_free hv hf
      simp only [writeC, codec_none hS kd hb, codec_none hS kd' hb]
    | _ =>
      simp only [dartView] at hv
      split at hv
      · split at hv <;> simp at hv
      · simp at hv

theorem evalWrites_kind (k : Nat) (kd kd' : Kind) (model : Val) : ∀ (fs : List StructField),
    (∀ f ∈ fs, ∀ v, writeT rt (genProg x S) k kd f.typeId v = writeT rt (genProg x S) k kd' f.typeId v) →
    evalWrites rt (writeC rt (genProg x S) k) model (fs.map (fun f => genWrite kd f.typeId (.field (x.camel f.name))))
    = evalWrites rt (writeC rt (genProg x S) k) model (fs.map (fun f => genWrite kd' f.typeId (.field (x.camel f.name))))
  | [], _ => rfl
  | f :: fs, h => by
    have hw : ∀ v, evalWriteS rt (writeC rt (genProg x S) k) v (genWrite kd f.typeId (.field (x.camel f.name)))
        = evalWriteS rt (writeC rt (genProg x S) k) v (genWrite kd' f.typeId (.field (x.camel f.name))) := by
      intro v
      have := h f (by simp) v
      simp only [writeT] at this
      have e : ∀ kd'' a b, evalWriteS rt (writeC rt (genProg x S) k) v (genWrite kd'' f.typeId a)
          = evalWriteS rt (writeC rt (genProg x S) k) v (genWrite kd'' f.typeId b) := by
        intro kd'' a b
        cases f.typeId <;> rfl
      rw [e kd _ (.var "model"), this, e kd' _ (.field (x.camel f.name))]
    simp only [List.map_cons, evalWrites, genWrite_acc, hw,
      evalWrites_kind k kd kd' model fs (fun f hf => h f (by simp [hf]))]

theorem write_kind (hS : Plain S) (hN : DartNamed x S) : ∀ (k : Nat) (t : TypeId), LibraryFree S t →
    ∀ (kd kd' : Kind) (v : Val), writeT rt (genProg x S) k kd t v = writeT rt (genProg x S) k kd' t v := by
  intro k
  induction k with
  | zero =>
    intro t _ kd kd' v
    cases t <;> first | rfl | simp [writeT, genWrite, evalWriteS, writeC]
  | succ k ih =>
    intro t hf kd kd' v
    cases t with
    | generic id gs =>
      simp only [writeT, genWrite, evalWriteS]
      exact write_genericKind hS hN _ _ _ _ _ hf v
    | other id =>
      simp only [writeT, genWrite_other, evalWriteS]
      by_cases hid : id ∈ typeNames S
      · have key : ∀ kd kd', writeC rt (genProg x S) (k + 1) (.plain kd id) v
            = writeC rt (genProg x S) (k + 1) (.plain kd' id) v := by
          intro kd kd'
          have main : writeC rt (genProg x S) (k + 1) (.plain .into id) v
              = writeC rt (genProg x S) (k + 1) (.plain .emplace id) v := by
            rcases typeNames_mem hid with ⟨n, hn, rfl⟩ | ⟨n, hn, rfl⟩
            · simp only [writeC, codec_struct_into hS hN hn, codec_struct_emplace hS hN hn, evalWrite, genStructInto,
                genStructEmplace]
              rw [evalWrites_kind k .into .emplace v n.fields (fun f hfm v => ih f.typeId
                (hN.structLib n hn (f.name, f.typeId) (List.mem_map.2 ⟨f, hfm, rfl⟩)) _ _ v)]
            · simp only [writeC, codec_enum_into hS hN hn, codec_enum_emplace hS hN hn, evalWrite, genEnumInto,
                genEnumEmplace]
          cases kd <;> cases kd' <;> first | rfl | exact main | exact main.symm
        exact key _ _
      · exact write_lib hS (by simp only [List.mem_append, not_or]; exact ⟨hid, hf⟩) _ _ _ v
    | _ => rfl

/-! ### Unknown variant numbers -/

theorem find_tag_none {α : Type} (f : EnumItem → α) (pos : α → Nat) (hp : ∀ i, pos (f i) = i.position) {v : Val}
    {items : List EnumItem} (h : ∀ i ∈ items, v ≠ .int i.position) :
    (items.map f).find? (fun a => tagIs v (pos a)) = none := by
  rw [List.find?_eq_none]
  intro a ha
  obtain ⟨i, hi, rfl⟩ := List.mem_map.1 ha
  rw [hp]
  have := h i hi
  cases v <;> simp [tagIs]
  intro e
  exact this (by rw [e])

theorem read_unknown (hS : Plain S) (hN : DartNamed x S) {n : EnumNode} (hn : .enum n ∈ S) {bs : Bytes}
    (h : ∀ v r, rt.readP "Int32" bs = some (v, r) → ∀ i ∈ n.items, v ≠ .int i.position) (k : Nat) :
    (readers rt (genProg x S) (k + 1)).read (.plain .into n.id) bs = .error .throws := by
  simp only [readers, codec_enum_into hS hN hn, evalRead, genEnumInto]
  cases hr : rt.readP "Int32" bs with
  | none => rfl
  | some p =>
    obtain ⟨v, r⟩ := p
    simp only [orElse, bind, Except.bind]
    rw [find_tag_none (genReadCase x n) ReadCase.pos (fun _ => rfl) (h v r hr)]

theorem empl_unknown (hS : Plain S) (hN : DartNamed x S) {n : EnumNode} (hn : .enum n ∈ S) {bs : Bytes}
    (h : ∀ v r, rt.readP "Int32" bs = some (v, r) → ∀ i ∈ n.items, v ≠ .int i.position) (k : Nat)
    (fs : List (String × Val)) :
    (readers rt (genProg x S) (k + 1)).empl (.plain .emplace n.id) (.struct n.id fs) bs = .error .throws := by
  simp only [readers, codec_enum_emplace hS hN hn, evalEmpl, genEnumEmplace, isClass, decide_true, if_true]
  cases hr : rt.readP "Int32" bs with
  | none => rfl
  | some p =>
    obtain ⟨v, r⟩ := p
    simp only [orElse, bind, Except.bind]
    rw [find_tag_none (genReadCase x n) ReadCase.pos (fun _ => rfl) (h v r hr)]

theorem skip_unknown (hS : Plain S) (hN : DartNamed x S) {n : EnumNode} (hn : .enum n ∈ S) {bs : Bytes}
    (h : ∀ v r, rt.readP "Int32" bs = some (v, r) → ∀ i ∈ n.items, v ≠ .int i.position) (k c : Nat) (kd : Kind) :
    skipC rt (genProg x S) (k + 1) (.plain kd n.id) (c + 1) bs = .error .throws := by
  have key : evalSkipCases rt (skipC rt (genProg x S) k) (n.items.map (genSkipCase n)) bs = .error .throws := by
    simp only [evalSkipCases]
    cases hr : rt.readP "Int32" bs with
    | none => rfl
    | some p =>
      obtain ⟨v, r⟩ := p
      simp only [orElse, bind, Except.bind]
      rw [find_tag_none (genSkipCase n) SkipCase.pos (fun _ => rfl) (h v r hr)]
  cases kd with
  | into => simp only [skipC, codec_enum_into hS hN hn, evalSkip, genEnumInto, times, key, bind, Except.bind]
  | emplace => simp only [skipC, codec_enum_emplace hS hN hn, evalSkip, genEnumEmplace, times, key, bind, Except.bind]

end TPB.Dart
