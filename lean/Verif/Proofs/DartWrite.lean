/- Writing and skipping: the emitted Dart codecs write the wire layout and pass over it. -/
import Verif.Proofs.DartRead
namespace TPB.Dart
open Spec DartGen

variable {x : Ext} {S : List ASTNode} {rt : Runtime}

/-! ### Writing -/

/-- Write objects of the given types one after the other. -/
def writeMany (rt : Runtime) (P : Prog) (k : Nat) (kd : Kind) : List TypeId → List Val → Res Bytes
  | t :: ts, d :: ds => do
    let b ← writeT rt P k kd t d
    let bs ← writeMany rt P k kd ts ds
    .ok (b ++ bs)
  | _, _ => .ok []

theorem evalWriteS_acc (rec : Codec → Val → Res Bytes) (v : Val) (kd : Kind) (t : TypeId) (a b : Acc) :
    evalWriteS rt rec v (genWrite kd t a) = evalWriteS rt rec v (genWrite kd t b) := by
  cases t <;> rfl

theorem genWrite_acc (kd : Kind) (t : TypeId) (a : Acc) : (genWrite kd t a).acc = a := by
  cases t <;> rfl

theorem evalWrites_gen (P : Prog) (k : Nat) (kd : Kind) (c : String) : ∀ (fs : List StructField)
    (pre : List (String × Val)) (ds : List Val),
    (pre.map (·.1) ++ fs.map (fun f => x.camel f.name)).Nodup → ds.length = fs.length →
    evalWrites rt (writeC rt P k) (.struct c (pre ++ (fs.map (fun f => x.camel f.name)).zip ds))
      (fs.map (fun f => genWrite kd f.typeId (.field (x.camel f.name))))
    = writeMany rt P k kd (fs.map (·.typeId)) ds
  | [], pre, ds, _, _ => by simp [evalWrites, writeMany]
  | f :: fs, pre, [], _, hl => by simp at hl
  | f :: fs, pre, d :: ds, hn, hl => by
    have hn' := hn
    simp only [List.map_cons] at hn
    rw [List.nodup_append] at hn
    obtain ⟨h1, h2, h3⟩ := hn
    have hpre : x.camel f.name ∉ pre.map (·.1) := fun hm => h3 _ hm _ (by simp) rfl
    simp only [List.map_cons, evalWrites, genWrite_acc, List.zip_cons_cons]
    rw [getField_mid hpre]
    simp only [bind, Except.bind, writeMany]
    rw [evalWriteS_acc _ _ _ _ _ (.var "model")]
    simp only [writeT]
    have := evalWrites_gen P k kd c fs (pre ++ [(x.camel f.name, d)]) ds (by simpa using hn') (by simpa using hl)
    simp only [List.append_assoc, List.cons_append, List.nil_append] at this
    rw [this]

/-- The codec of a declared type in the codecs of a family. -/
def kindOf (kd : Kind) (id : String) : Kind := match kd with | .into => .into | .emplace => emplKind id

theorem genWrite_other (kd : Kind) (id : String) (a : Acc) :
    genWrite kd (.other id) a = .codec (.plain (kindOf kd id) id) a := by cases kd <;> rfl
theorem genSkip_other (kd : Kind) (id : String) : genSkip kd (.other id) = .codec (.plain (kindOf kd id) id) := by
  cases kd <;> rfl

theorem write_struct (hS : Plain S) (hN : DartNamed x S) {n : StructNode} (hn : .struct n ∈ S) (k : Nat) (kd : Kind)
    (ds : List Val) (hl : ds.length = n.fields.length) :
    writeC rt (genProg x S) (k + 1) (.plain kd n.id) (.struct n.id ((dartFieldNames x n).zip ds))
    = writeMany rt (genProg x S) k kd (n.fields.map (·.typeId)) ds := by
  cases kd with
  | into =>
    simp only [writeC, codec_struct_into hS hN hn, evalWrite, genStructInto, isClass, decide_true, if_true]
    exact evalWrites_gen (x := x) (genProg x S) k .into n.id n.fields [] ds (hN.fields n hn).1 hl
  | emplace =>
    simp only [writeC, codec_struct_emplace hS hN hn, evalWrite, genStructEmplace, isClass, decide_true, if_true]
    exact evalWrites_gen (x := x) (genProg x S) k .emplace n.id n.fields [] ds (hN.fields n hn).1 hl

theorem write_variant (hS : Plain S) (hN : DartNamed x S) {n : EnumNode} (hn : .enum n ∈ S) {i : EnumItem}
    (hi : i ∈ n.items) (k : Nat) (ds : List Val) (hl : ds.length = (payload i).length) :
    writeC rt (genProg x S) (k + 1) (variantCodec n i) (payloadObj x n i ds)
    = writeMany rt (genProg x S) k .emplace ((payload i).map (·.2)) ds := by
  have h1 : (enumItemStruct n i).fields.map (fun f => x.camel f.name) = dartPayloadNames x i := itemStruct_names n i
  simp only [variantCodec, payloadObj, writeC, codec_variant hS hN hn hi, evalWrite, genStructEmplace, isClass,
    itemStruct_id, decide_true, if_true]
  have := evalWrites_gen (x := x) (rt := rt) (genProg x S) k .emplace (n.id ++ i.id) (enumItemStruct n i).fields []
    ds (by simpa [h1] using hN.payloads n hn i hi)
    (by
      rw [hl]
      have := congrArg List.length (itemStruct_types n i)
      simpa using this.symm)
  rw [h1, itemStruct_types] at this
  exact this

theorem find_writeCase {n : EnumNode} (hd : (n.items.map (fun i => x.camel i.id)).Nodup) {i : EnumItem}
    (hi : i ∈ n.items) :
    (n.items.map (genWriteCase x n)).find? (fun a => isConst (n.id ++ "Value") a.const (variantConst x n i))
      = some (genWriteCase x n i) := by
  rw [List.find?_map]
  have h := Rust.find?_key (fun i : EnumItem => x.camel i.id) n.items hd i hi
  have e : ((fun a : WriteCase => isConst (n.id ++ "Value") a.const (variantConst x n i)) ∘ genWriteCase x n)
      = fun j => decide (x.camel j.id = x.camel i.id) := by
    funext j
    simp only [Function.comp_apply, isConst, variantConst, genWriteCase, decide_true, Bool.true_and]
    exact decide_eq_decide.2 eq_comm
  rw [e, h]
  rfl

theorem writeCases_eval (hS : Plain S) (hN : DartNamed x S) {n : EnumNode} (hn : .enum n ∈ S)
    {i : EnumItem} {pds : List Val} {pls : List (List Val)} (hl : pls.length = n.items.length)
    (hm : (i, pds) ∈ n.items.zip pls) (hp : pds.length = (payload i).length) (k : Nat) :
    evalWriteCases rt (writeC rt (genProg x S) (k + 1)) n.id (n.items.map (genWriteCase x n))
      (enumObj x n (variantConst x n i) ((n.items.zip pls).map (fun p => payloadObj x n p.1 p.2)))
    = (do
      let b ← orElse .throws (rt.writeP "Int32" (.int i.position))
      let bs ← writeMany rt (genProg x S) k .emplace ((payload i).map (·.2)) pds
      .ok (b ++ bs)) := by
  have hi : i ∈ n.items := (List.of_mem_zip hm).1
  have hcn := hN.variants n hn
  have hget : getField (x.camel i.id)
      (enumObj x n (variantConst x n i) ((n.items.zip pls).map (fun p => payloadObj x n p.1 p.2)))
      = .ok (payloadObj x n i pds) := by
    -- the place of `i` in the list of variants
    obtain ⟨l, l', hz⟩ := List.append_of_mem hm
    have h1 : n.items = l.map (·.1) ++ i :: l'.map (·.1) := by
      have h2 := congrArg (List.map Prod.fst) hz
      rw [List.map_fst_zip (by omega)] at h2
      simpa using h2
    have h3 : pls = l.map (·.2) ++ pds :: l'.map (·.2) := by
      have h2 := congrArg (List.map Prod.snd) hz
      rw [List.map_snd_zip (by omega)] at h2
      simpa using h2
    rw [h3, enumObj_split n _ _ _ i _ _ pds (by simp) h1]
    refine getField_mid (fun hmem => ?_)
    rw [h1] at hcn
    simp only [List.map_append, List.map_cons, ← List.cons_append] at hcn
    rw [List.nodup_append] at hcn
    simp only [List.map_cons, List.mem_cons] at hmem
    rcases hmem with hmem | hmem
    · exact hcn.2.2 "value" (by simp) (x.camel i.id) (by simp) hmem.symm
    · obtain ⟨p, hp, e⟩ := List.mem_map.1 hmem
      exact hcn.2.2 _ (List.mem_cons_of_mem _ (List.of_mem_zip hp).1) (x.camel i.id) (by simp) e
  have htag : getField "value"
      (enumObj x n (variantConst x n i) ((n.items.zip pls).map (fun p => payloadObj x n p.1 p.2)))
      = .ok (variantConst x n i) := by
    simp [getField, enumObj, orElse]
  simp only [evalWriteCases, htag, bind, Except.bind]
  rw [find_writeCase (List.nodup_cons.1 hcn).2 hi]
  simp only [genWriteCase]
  rw [hget]
  simp only
  rw [write_variant hS hN hn hi k pds hp]

def WriteOne (x : Ext) (rt : Runtime) (S : List ASTNode) (t : TypeId) (v : Val) (b : Bytes) : Prop :=
  ∀ d kd, DRep x (dartSchema S) [dartView t] [v] [d] →
    ∃ N, ∀ k, N ≤ k → writeT rt (genProg x S) k kd t d = .ok b

def WriteMany (x : Ext) (rt : Runtime) (S : List ASTNode) (ts : List TypeId) (vs : List Val) (b : Bytes) : Prop :=
  ∀ ds kd, DRep x (dartSchema S) (ts.map dartView) vs ds →
    ∃ N, ∀ k, N ≤ k → writeMany rt (genProg x S) k kd ts ds = .ok b

theorem writeMany_cons {t : TypeId} {v : Val} {b : Bytes} {ts : List TypeId} {vs : List Val} {bs : Bytes}
    (h1 : WriteOne x rt S t v b) (h2 : WriteMany x rt S ts vs bs) : WriteMany x rt S (t :: ts) (v :: vs) (b ++ bs) := by
  intro ds kd hd
  cases ds with
  | nil => exact absurd hd.length_eq.2 (by simp)
  | cons d ds =>
    obtain ⟨hd1, hd2⟩ := hd.head
    obtain ⟨N1, h3⟩ := h1 d kd hd1
    obtain ⟨N2, h4⟩ := h2 ds kd hd2
    refine ⟨max N1 N2, fun k hk => ?_⟩
    rw [writeMany, h3 k (by omega)]
    simp only [bind, Except.bind]
    rw [h4 k (by omega)]

theorem zip_inj {α β : Type} : ∀ {as : List α} {bs cs : List β}, as.length = bs.length → as.length = cs.length →
    as.zip bs = as.zip cs → bs = cs
  | [], [], [], _, _, _ => rfl
  | a :: as, b :: bs, c :: cs, h1, h2, h => by
    simp only [List.zip_cons_cons, List.cons.injEq, Prod.mk.injEq, true_and] at h
    rw [h.1, zip_inj (by simpa using h1) (by simpa using h2) h.2]
  | [], _ :: _, _, h, _, _ => by simp at h
  | [], [], _ :: _, _, h, _ => by simp at h
  | _ :: _, [], _, h, _, _ => by simp at h
  | _ :: _, _ :: _, [], _, h, _ => by simp at h

theorem named_inj {fs : List (String × TypeId)} {vs us : List Val} (h1 : fs.length = vs.length)
    (h2 : fs.length = us.length) (h : named fs vs = named fs us) : vs = us :=
  zip_inj (by simpa using h1) (by simpa using h2) h

/-- The representations of a struct value. -/
theorem drep_struct_inv (hN : DartNamed x S) {n : StructNode} (hn : .struct n ∈ S) {vs : List Val} {d : Val}
    (hl : n.fields.length = vs.length)
    (h : DRep x (dartSchema S) [.other n.id] [.struct n.id (named (fieldsOf n) vs)] [d]) :
    ∃ ds, d = .struct n.id ((dartFieldNames x n).zip ds) ∧
      DRep x (dartSchema S) ((n.fields.map (·.typeId)).map dartView) vs ds := by
  have hnd : (typeNames S).Nodup := (List.nodup_append.1 (classes_nodup hN)).1
  generalize hid : n.id = id at h
  generalize hv : Val.struct id (named (fieldsOf n) vs) = v at h
  cases h with
  | leaf _ _ _ _ _ h _ => simp [builtin?] at h
  | struct m fvs fds _ _ _ hm h _ =>
    obtain ⟨m', hm', rfl⟩ := view_struct_mem hm
    have : m' = n := struct_unique hnd hm' hn hid.symm
    subst this
    refine ⟨fds, by rw [dartFieldNames_view], ?_⟩
    rw [fieldsOf_view] at h
    simp only [Val.struct.injEq] at hv
    have e : named (fieldsOf { m' with fields := m'.fields.map viewField }) fvs = named (fieldsOf m') fvs := by
      simp [named, fieldsOf, viewField, Function.comp_def]
    rw [e] at hv
    have := named_inj (by simpa [fieldsOf] using hl)
      (by have := h.length_eq.1; simpa [fieldsOf] using this) hv.2
    rwa [this]
  | enum m i pvs pds pls _ _ _ hm _ _ _ _ _ => simp at hv
  | ext _ _ _ _ _ h _ => exact absurd (struct_typeName hn) (by rw [hid, ← typeNames_view]; exact h)

theorem variant_unique (hN : DartNamed x S) {n : EnumNode} (hn : .enum n ∈ S) {i j : EnumItem}
    (hi : i ∈ n.items) (hj : j ∈ n.items) (e : i.id = j.id) : i = j := by
  have h := (List.nodup_cons.1 (hN.variants n hn)).2
  have h1 := Rust.find?_key (fun i : EnumItem => x.camel i.id) n.items h i hi
  have h2 := Rust.find?_key (fun i : EnumItem => x.camel i.id) n.items h j hj
  simp only [e] at h1
  rw [h1] at h2
  exact Option.some.inj h2

theorem drep_enum_inv (hN : DartNamed x S) {n : EnumNode} (hn : .enum n ∈ S) {i : EnumItem} (hi : i ∈ n.items)
    {vs : List Val} {d : Val} (hl : (payload i).length = vs.length)
    (h : DRep x (dartSchema S) [.other n.id] [.enum n.id i.id (named (payload i) vs)] [d]) :
    ∃ pds pls, d = enumObj x n (variantConst x n i) ((n.items.zip pls).map (fun p => payloadObj x n p.1 p.2)) ∧
      pls.length = n.items.length ∧ (i, pds) ∈ n.items.zip pls ∧
      DRep x (dartSchema S) (((payload i).map (·.2)).map dartView) vs pds := by
  have hnd : (typeNames S).Nodup := (List.nodup_append.1 (classes_nodup hN)).1
  generalize hid : n.id = id at h
  generalize hv : Val.enum id i.id (named (payload i) vs) = v at h
  cases h with
  | leaf _ _ _ _ _ h _ => simp [builtin?] at h
  | struct m fvs fds _ _ _ hm h _ => simp at hv
  | enum m j pvs pds pls _ _ _ hm hpl hmem h _ _ =>
    obtain ⟨m', hm', rfl⟩ := view_enum_mem hm
    have : m' = n := enum_unique hnd hm' hn hid.symm
    subst this
    simp only at hmem hpl
    rw [List.zip_map_left] at hmem
    obtain ⟨q, hq, e⟩ := List.mem_map.1 hmem
    obtain ⟨j', pds'⟩ := q
    simp only [Prod.map, id, Prod.mk.injEq] at e
    obtain ⟨rfl, rfl⟩ := e
    simp only [Val.enum.injEq, viewItem_id, named_payload_view] at hv
    have : i = j' := variant_unique hN hn hi (List.of_mem_zip hq).1 hv.2.1
    subst this
    rw [payload_view] at h
    have := named_inj hl (by have := h.length_eq.1; simpa using this) hv.2.2
    subst this
    refine ⟨pds', pls, ?_, by simpa using hpl, hq, h⟩
    rw [enumObj_view]
    simp [variantConst, viewItem_id]
  | ext _ _ _ _ _ h _ => exact absurd (enum_typeName hn) (by rw [hid, ← typeNames_view]; exact h)

theorem drep_list_inv {T : List ASTNode} {e : TypeId} {s : Nat} {vs : List Val} {d : Val}
    (h : DRep x T [.generic "Vec" [e]] [.list s vs] [d]) :
    ∃ ds, d = .list s ds ∧ DRep x T (List.replicate s e) vs ds := by
  cases h with
  | leaf _ _ _ _ _ h _ => simp [builtin?] at h
  | list _ _ _ dis _ _ _ h _ => exact ⟨dis, rfl, h⟩

theorem drep_leaf_inv {T : List ASTNode} {t : TypeId} {v d : Val} (ht : (builtin? t).isSome)
    (h : DRep x T [t] [v] [d]) : d = v := by
  cases h with
  | leaf _ _ _ _ _ _ _ => rfl
  | struct _ _ _ _ _ _ _ _ _ => simp [builtin?] at ht
  | enum _ _ _ _ _ _ _ _ _ _ _ _ _ _ => simp [builtin?] at ht
  | list _ _ _ _ _ _ _ _ _ => simp [builtin?] at ht
  | ext _ _ _ _ _ _ _ => rfl

theorem drep_ext_inv {T : List ASTNode} {id : String} {v d : Val} (hid : id ∉ typeNames T)
    (h : DRep x T [.other id] [v] [d]) : d = v := by
  cases h with
  | leaf _ _ _ _ _ _ _ => rfl
  | struct n _ _ _ _ _ hn _ _ => exact absurd (struct_typeName hn) hid
  | enum n _ _ _ _ _ _ _ hn _ _ _ _ _ => exact absurd (enum_typeName hn) hid
  | ext _ _ _ _ _ _ _ => rfl

theorem writeAll_eq (P : Prog) (k : Nat) (e : String) : ∀ (ds : List Val),
    writeAll (writeC rt P k (.plain .into e)) ds
      = writeMany rt P k .into (List.replicate ds.length (.other e)) ds
  | [] => rfl
  | d :: ds => by
    simp only [writeAll, List.length_cons, List.replicate_succ, writeMany, writeT, genWrite, evalWriteS]
    rw [writeAll_eq P k e ds]

/-- Objects that represent a value are written with the wire layout, by both families of codecs. -/
theorem enc_write (hS : Plain S) (hN : DartNamed x S) {ts : List TypeId} {vs : List Val} {bs : Bytes}
    (h : Enc rt.wire (dartSchema S) ts vs bs) :
    ∀ ts0, ts = ts0.map dartView → (∀ t ∈ ts0, LibraryFree S t) → WriteMany x rt S ts0 vs bs := by
  induction h with
  | nil =>
    intro ts0 h0 _
    have : ts0 = [] := by simpa using h0.symm
    subst this
    exact fun ds kd _ => ⟨0, fun _ _ => by simp [writeMany]⟩
  | leaf t p v b ts vs bs hp hw _ ih =>
    intro ts0 h0 hl
    obtain ⟨t0, ts0, rfl, rfl, rfl⟩ := List.map_eq_cons_iff.1 h0.symm
    refine writeMany_cons (fun d kd hd => ⟨0, fun k _ => ?_⟩) (ih ts0 rfl (fun t ht => hl t (by simp [ht])))
    rw [drep_leaf_inv (by simp [hp]) hd]
    obtain ⟨h1, -, -, h4, -⟩ := view_builtin hp
    obtain ⟨_, -, -, h5⟩ := wire_prim hw
    rw [if_neg h1] at h5
    simp [writeT, h4, evalWriteS, h5, orElse]
  | struct n fvs b ts vs bs hn he _ ih1 ih2 =>
    intro ts0 h0 hl
    obtain ⟨t0, ts0, rfl, ht0, rfl⟩ := List.map_eq_cons_iff.1 h0.symm
    obtain ⟨m, hm, rfl⟩ := view_struct_mem hn
    have ht0' := view_declared hN ht0 (struct_typeName hm :)
    subst ht0'
    have i1 := ih1 (m.fields.map (·.typeId)) (fieldsOf_view m) (fun t ht => by
      obtain ⟨f, hf, rfl⟩ := List.mem_map.1 ht
      exact hN.structLib m hm (f.name, f.typeId) (List.mem_map.2 ⟨f, hf, rfl⟩))
    refine writeMany_cons (fun d kd hd => ?_) (ih2 ts0 rfl (fun t ht => hl t (by simp [ht])))
    rw [show named (fieldsOf { m with fields := m.fields.map viewField }) fvs = named (fieldsOf m) fvs by
      simp [named, fieldsOf, viewField, Function.comp_def]] at hd
    have hlen : m.fields.length = fvs.length := by
      have := Rust.Enc.length_eq he; simpa [fieldsOf] using this
    obtain ⟨ds, rfl, hds⟩ := drep_struct_inv hN hm hlen hd
    obtain ⟨N, h⟩ := i1 ds (kindOf kd m.id) hds
    refine ⟨N + 1, fun k hk => ?_⟩
    obtain ⟨k, rfl⟩ : ∃ j, k = j + 1 := ⟨k - 1, by omega⟩
    rw [writeT, genWrite_other, evalWriteS, write_struct hS hN hm k _ ds
      (by have := hds.length_eq.2; simpa using this.symm)]
    exact h k (by omega)
  | enum n i tag pvs b ts vs bs hn hi ht he _ ih1 ih2 =>
    intro ts0 h0 hl
    obtain ⟨t0, ts0, rfl, ht0, rfl⟩ := List.map_eq_cons_iff.1 h0.symm
    obtain ⟨m, hm, rfl⟩ := view_enum_mem hn
    obtain ⟨j, hj, rfl⟩ := List.mem_map.1 hi
    have ht0' := view_declared hN ht0 (enum_typeName hm :)
    subst ht0'
    have i1 := ih1 ((payload j).map (·.2)) (payload_view j) (fun t ht => by
      obtain ⟨f, hf, rfl⟩ := List.mem_map.1 ht
      exact hN.enumLib m hm j hj f hf)
    rw [viewItem_position] at ht
    refine writeMany_cons (fun d kd hd => ?_) (ih2 ts0 rfl (fun t ht => hl t (by simp [ht])))
    rw [named_payload_view, viewItem_id] at hd
    have hlen : (payload j).length = pvs.length := by
      have h1 := Rust.Enc.length_eq he
      rw [payload_view] at h1
      simpa using h1
    obtain ⟨pds, pls, rfl, hpl, hmem, hds⟩ := drep_enum_inv hN hm hj hlen hd
    obtain ⟨N, h⟩ := i1 pds .emplace hds
    refine ⟨N + 2, fun k hk => ?_⟩
    obtain ⟨k, rfl⟩ : ∃ j, k = j + 2 := ⟨k - 2, by omega⟩
    obtain ⟨_, -, -, h5⟩ := wire_prim ht
    rw [if_pos rfl] at h5
    have hcase := writeCases_eval (rt := rt) hS hN hm hpl hmem
      (by have := hds.length_eq.2; simpa using this.symm) k
    rw [h5, h k (by omega)] at hcase
    rw [writeT, genWrite_other, evalWriteS]
    cases kindOf kd m.id with
    | into =>
      simp only [writeC, codec_enum_into hS hN hm, evalWrite, genEnumInto]
      rw [if_pos (by simp [isClass, enumObj])]
      exact hcase
    | emplace =>
      simp only [writeC, codec_enum_emplace hS hN hm, evalWrite, genEnumEmplace]
      rw [if_pos (by simp [isClass, enumObj])]
      exact hcase
  | list c gs s h its items b ts vs bs hh hp he _ ih1 ih2 =>
    intro ts0 h0 hl
    obtain ⟨t0, ts0, rfl, ht0, rfl⟩ := List.map_eq_cons_iff.1 h0.symm
    obtain ⟨g, rfl, rfl, rfl⟩ := view_generic ht0
    have hh' : rt.writeL s = some h := by simpa [Runtime.wire] using hh
    have hits := pick_replicate hp
    have i1 := ih1 (List.replicate s (.other (dartElem g))) (by simp [hits, dartView]) (fun t ht => by
      obtain ⟨-, rfl⟩ := List.mem_replicate.1 ht
      have := hl _ (List.mem_cons_self ..)
      simpa [LibraryFree] using this)
    refine writeMany_cons (fun d kd hd => ?_) (ih2 ts0 rfl (fun t ht => hl t (by simp [ht])))
    rw [show dartView (.generic "Vec" [g]) = .generic "Vec" [.other (dartElem g)] by simp [dartView]] at hd
    obtain ⟨ds, rfl, hds⟩ := drep_list_inv hd
    obtain ⟨N, h6⟩ := i1 ds .into (by simpa [dartView] using hds)
    have hlen : s = ds.length := by have := hds.length_eq.2; simpa using this
    refine ⟨N + 1, fun k hk => ?_⟩
    obtain ⟨k, rfl⟩ : ∃ j, k = j + 1 := ⟨k - 1, by omega⟩
    simp only [writeT, genWrite, genCodecG, if_true, evalWriteS, writeC, codec_none hS kd hN.lists, elem_eq]
    rw [if_pos hlen, hh', writeAll_eq, ← hlen, h6 k (by omega)]
    rfl
  | ext id v b ts vs bs hid hw _ ih =>
    intro ts0 h0 hl
    obtain ⟨t0, ts0, rfl, ht0, rfl⟩ := List.map_eq_cons_iff.1 h0.symm
    refine writeMany_cons (fun d kd hd => ⟨1, fun k hk => ?_⟩) (ih ts0 rfl (fun t ht => hl t (by simp [ht])))
    obtain ⟨k, rfl⟩ : ∃ j, k = j + 1 := ⟨k - 1, by omega⟩
    rw [ht0] at hd
    rw [drep_ext_inv hid hd]
    rw [typeNames_view] at hid
    replace hw : rt.writeX id v = some b := hw
    rcases view_other ht0 with rfl | ⟨c, gs, rfl, rfl⟩
    · rw [writeT, genWrite_other, evalWriteS, writeC, codec_none hS _ (by
        simp only [List.mem_append, not_or]; exact ⟨hid, hl _ (List.mem_cons_self ..)⟩)]
      simp [hw, orElse]
    · simp only [writeT, genWrite, (view_libGeneric ht0 kd).1, evalWriteS, writeC,
        codec_none hS kd (libGeneric_free ht0 (hl _ (List.mem_cons_self ..))), genericName_eq, hw, orElse]

/-! ### Skipping -/

theorem evalSkips_append (rec : Codec → Nat → Bytes → Res Bytes) : ∀ (a b : List SkipS) (bs : Bytes),
    evalSkips rt rec (a ++ b) bs = (do let bs ← evalSkips rt rec a bs; evalSkips rt rec b bs)
  | [], _, _ => rfl
  | s :: a, b, bs => by
    simp only [List.cons_append, evalSkips, bind, Except.bind]
    cases evalSkipS rt rec s bs with
    | error e => rfl
    | ok bs' => simp only; rw [evalSkips_append rec a b bs']; rfl

def SkipOne (x : Ext) (rt : Runtime) (S : List ASTNode) (t : TypeId) (b : Bytes) : Prop :=
  ∀ kd, ∃ N, ∀ k, N ≤ k → ∀ r, skipT rt (genProg x S) k kd t (b ++ r) = .ok r

def SkipMany (x : Ext) (rt : Runtime) (S : List ASTNode) (ts : List TypeId) (b : Bytes) : Prop :=
  ∀ kd, ∃ N, ∀ k, N ≤ k → ∀ r,
    evalSkips rt (skipC rt (genProg x S) k) (ts.map (genSkip kd)) (b ++ r) = .ok r

theorem skipMany_cons {t : TypeId} {b : Bytes} {ts : List TypeId} {bs : Bytes}
    (h1 : SkipOne x rt S t b) (h2 : SkipMany x rt S ts bs) : SkipMany x rt S (t :: ts) (b ++ bs) := by
  intro kd
  obtain ⟨N1, h3⟩ := h1 kd
  obtain ⟨N2, h4⟩ := h2 kd
  refine ⟨max N1 N2, fun k hk r => ?_⟩
  have h3 := h3 k (by omega) (bs ++ r)
  rw [skipT] at h3
  rw [List.map_cons, evalSkips, List.append_assoc, h3]
  simp only [bind, Except.bind]
  rw [h4 k (by omega)]

theorem times_one (f : Bytes → Res Bytes) (bs : Bytes) : times f 1 bs = f bs := by
  simp only [times, bind, Except.bind]
  cases f bs <;> rfl

theorem othersFirst_filter {fs : List StructField} (h : OthersFirst (fs.map (·.typeId))) :
    fs = fs.filter (fun f => isOther f.typeId) ++ fs.filter (fun f => !isOther f.typeId) := by
  induction fs with
  | nil => rfl
  | cons f fs ih =>
    obtain ⟨l1, l2, he, h1, h2⟩ := h
    cases l1 with
    | nil =>
      have hall : ∀ g ∈ f :: fs, isOther g.typeId = false := by
        intro g hg
        have : g.typeId ∈ l2 := by
          rw [List.nil_append] at he
          rw [← he]; exact List.mem_map.2 ⟨g, hg, rfl⟩
        have h3 := h2 _ this
        cases hg : g.typeId <;> simp [isOther]
        rename_i id
        exact (h3 id hg).elim
      rw [List.filter_eq_nil_iff.2 (fun g hg => by simp [hall g hg]),
        List.filter_eq_self.2 (fun g hg => by simp [hall g hg]), List.nil_append]
    | cons t l1 =>
      simp only [List.map_cons, List.cons_append, List.cons.injEq] at he
      obtain ⟨id, hid⟩ := h1 t (by simp)
      have hf : isOther f.typeId = true := by rw [he.1, hid]; rfl
      have := ih ⟨l1, l2, he.2, fun s hs => h1 s (by simp [hs]), h2⟩
      rw [List.filter_cons_of_pos (by simp [hf]), List.filter_cons_of_neg (by simp [hf]), List.cons_append, ← this]

theorem skip_body (kd : Kind) {fs : List StructField} (h : OthersFirst (fs.map (·.typeId)))
    (rec : Codec → Nat → Bytes → Res Bytes) (bs : Bytes) :
    evalSkipBody rt rec 1 (genSkipBody kd fs) bs = evalSkips rt rec ((fs.map (·.typeId)).map (genSkip kd)) bs := by
  conv => rhs; rw [List.map_map, othersFirst_filter h, List.map_append, evalSkips_append]
  simp only [evalSkipBody, genSkipBody, times_one]
  rfl

theorem enc_uncons {W : Wire} {T : List ASTNode} {t : TypeId} {ts : List TypeId} {vs : List Val} {bs : Bytes}
    (h : Enc W T (t :: ts) vs bs) : ∃ v vs' b bs', vs = v :: vs' ∧ bs = b ++ bs' ∧ Enc W T [t] [v] b ∧
      Enc W T ts vs' bs' := by
  cases h with
  | leaf _ p v b _ vs bs h1 h2 h3 =>
    exact ⟨v, vs, b, bs, rfl, rfl, by simpa using Enc.leaf _ p v b [] [] [] h1 h2 .nil, h3⟩
  | struct n fvs b _ vs bs h1 h2 h3 =>
    exact ⟨_, vs, b, bs, rfl, rfl, by simpa using Enc.struct n fvs b [] [] [] h1 h2 .nil, h3⟩
  | enum n i tag pvs b _ vs bs h1 h2 h3 h4 h5 =>
    exact ⟨_, vs, tag ++ b, bs, rfl, rfl, by simpa using Enc.enum n i tag pvs b [] [] [] h1 h2 h3 h4 .nil, h5⟩
  | list c gs s h its items b _ vs bs h1 h2 h3 h4 =>
    exact ⟨_, vs, h ++ b, bs, rfl, rfl, by simpa using Enc.list c gs s h its items b [] [] [] h1 h2 h3 .nil, h4⟩
  | ext id v b _ vs bs h1 h2 h3 =>
    exact ⟨_, vs, b, bs, rfl, rfl, by simpa using Enc.ext id v b [] [] [] h1 h2 .nil, h3⟩

theorem times_skip {f : Nat → Bytes → Res Bytes} {W : Wire} {T : List ASTNode} {t : TypeId}
    (h1 : ∀ v b, Enc W T [t] [v] b → ∃ N, ∀ k, N ≤ k → ∀ r, f k (b ++ r) = .ok r) :
    ∀ (c : Nat) (vs : List Val) (bs : Bytes), Enc W T (List.replicate c t) vs bs →
      ∃ N, ∀ k, N ≤ k → ∀ r, times (f k) c (bs ++ r) = .ok r
  | 0, vs, bs, h => by cases h; exact ⟨0, fun _ _ _ => rfl⟩
  | c + 1, vs, bs, h => by
    obtain ⟨v, vs, b, bs', rfl, rfl, he1, he2⟩ := enc_uncons h
    obtain ⟨N1, h2⟩ := h1 v b he1
    obtain ⟨N2, h3⟩ := times_skip h1 c vs bs' he2
    refine ⟨max N1 N2, fun k hk r => ?_⟩
    rw [times, List.append_assoc, h2 k (by omega)]
    simp only [bind, Except.bind]
    exact h3 k (by omega) r

theorem skip_variant (hS : Plain S) (hN : DartNamed x S) (hO : SkipOrder S) {n : EnumNode} (hn : .enum n ∈ S)
    {i : EnumItem} (hi : i ∈ n.items) (k : Nat) (bs : Bytes) :
    skipC rt (genProg x S) (k + 1) (variantCodec n i) 1 bs
    = evalSkips rt (skipC rt (genProg x S) k) (((payload i).map (·.2)).map (genSkip .emplace)) bs := by
  simp only [variantCodec, skipC, codec_variant hS hN hn hi, evalSkip, genStructEmplace]
  rw [skip_body .emplace (by rw [itemStruct_types]; exact hO.2 n hn i hi), itemStruct_types]

theorem find_skipCase {n : EnumNode} (hd : (n.items.map (·.position)).Nodup) {i : EnumItem} (hi : i ∈ n.items) :
    (n.items.map (genSkipCase n)).find? (fun a => tagIs (.int i.position) a.pos) = some (genSkipCase n i) := by
  rw [List.find?_map]
  have := find_case n.items (·.position) hd hi
  rw [show ((fun a : SkipCase => tagIs (.int i.position) a.pos) ∘ genSkipCase n)
    = fun j => tagIs (.int i.position) j.position from rfl, this]
  rfl

theorem skipList_times {P : Prog} (k : Nat) (e : String) (s : Nat) (bs : Bytes) :
    times (skipC rt P k (.plain .into e) 1) s bs
      = evalSkips rt (skipC rt P k) ((List.replicate s (.other e)).map (genSkip .into)) bs := by
  induction s generalizing bs with
  | zero => rfl
  | succ s ih =>
    simp only [times, List.replicate_succ, List.map_cons, evalSkips, genSkip_other, kindOf, evalSkipS]
    congr 1
    funext b
    rw [ih]

/-- One value is skipped, if names come before built-in types and lists in all structs and payloads. -/
theorem enc_skip (hrt : rt.Lawful) (hS : Plain S) (hN : DartNamed x S) (hD : DistinctNumbers S) (hO : SkipOrder S)
    {ts : List TypeId} {vs : List Val} {bs : Bytes} (h : Enc rt.wire (dartSchema S) ts vs bs) :
    ∀ ts0, ts = ts0.map dartView → (∀ t ∈ ts0, LibraryFree S t) → SkipMany x rt S ts0 bs := by
  induction h with
  | nil =>
    intro ts0 h0 _
    have : ts0 = [] := by simpa using h0.symm
    subst this
    exact fun kd => ⟨0, fun _ _ _ => rfl⟩
  | leaf t p v b ts vs bs hp hw _ ih =>
    intro ts0 h0 hl
    obtain ⟨t0, ts0, rfl, rfl, rfl⟩ := List.map_eq_cons_iff.1 h0.symm
    refine skipMany_cons (fun kd => ⟨0, fun k _ r => ?_⟩) (ih ts0 rfl (fun t ht => hl t (by simp [ht])))
    obtain ⟨h1, -, -, -, h5⟩ := view_builtin hp
    have hr := read_prim hrt hw
    rw [if_neg h1] at hr
    simp [skipT, h5, evalSkipS, hr r, orElse, Except.map]
  | struct n fvs b ts vs bs hn he _ ih1 ih2 =>
    intro ts0 h0 hl
    obtain ⟨t0, ts0, rfl, ht0, rfl⟩ := List.map_eq_cons_iff.1 h0.symm
    obtain ⟨m, hm, rfl⟩ := view_struct_mem hn
    have ht0' := view_declared hN ht0 (struct_typeName hm :)
    subst ht0'
    have i1 := ih1 (m.fields.map (·.typeId)) (fieldsOf_view m) (fun t ht => by
      obtain ⟨f, hf, rfl⟩ := List.mem_map.1 ht
      exact hN.structLib m hm (f.name, f.typeId) (List.mem_map.2 ⟨f, hf, rfl⟩))
    refine skipMany_cons (fun kd => ?_) (ih2 ts0 rfl (fun t ht => hl t (by simp [ht])))
    obtain ⟨N, h⟩ := i1 (kindOf kd m.id)
    refine ⟨N + 1, fun k hk r => ?_⟩
    obtain ⟨k, rfl⟩ : ∃ j, k = j + 1 := ⟨k - 1, by omega⟩
    have hof : OthersFirst (m.fields.map (·.typeId)) := by
      have := hO.1 m hm
      rwa [show (fieldsOf m).map (·.2) = m.fields.map (·.typeId) by simp [fieldsOf, Function.comp_def]] at this
    rw [skipT, genSkip_other, evalSkipS]
    cases hk' : kindOf kd m.id with
    | into =>
      simp only [skipC, codec_struct_into hS hN hm, evalSkip, genStructInto]
      rw [skip_body .into hof, ← hk']
      exact h k (by omega) r
    | emplace =>
      simp only [skipC, codec_struct_emplace hS hN hm, evalSkip, genStructEmplace]
      rw [skip_body .emplace hof, ← hk']
      exact h k (by omega) r
  | enum n i tag pvs b ts vs bs hn hi ht he _ ih1 ih2 =>
    intro ts0 h0 hl
    obtain ⟨t0, ts0, rfl, ht0, rfl⟩ := List.map_eq_cons_iff.1 h0.symm
    obtain ⟨m, hm, rfl⟩ := view_enum_mem hn
    obtain ⟨j, hj, rfl⟩ := List.mem_map.1 hi
    have ht0' := view_declared hN ht0 (enum_typeName hm :)
    subst ht0'
    have i1 := ih1 ((payload j).map (·.2)) (payload_view j) (fun t ht => by
      obtain ⟨f, hf, rfl⟩ := List.mem_map.1 ht
      exact hN.enumLib m hm j hj f hf)
    rw [viewItem_position] at ht
    refine skipMany_cons (fun kd => ?_) (ih2 ts0 rfl (fun t ht => hl t (by simp [ht])))
    obtain ⟨N, h⟩ := i1 .emplace
    have hcase : ∀ k, N ≤ k → ∀ r, evalSkipCases rt (skipC rt (genProg x S) (k + 1)) (m.items.map (genSkipCase m))
        (tag ++ b ++ r) = .ok r := by
      intro k hk r
      rw [evalSkipCases, List.append_assoc, read_tag hrt ht]
      simp only [orElse, bind, Except.bind]
      rw [find_skipCase (hD m hm) hj]
      simp only [genSkipCase]
      rw [skip_variant hS hN hO hm hj]
      exact h k hk r
    refine ⟨N + 2, fun k hk r => ?_⟩
    obtain ⟨k, rfl⟩ : ∃ j, k = j + 2 := ⟨k - 2, by omega⟩
    rw [skipT, genSkip_other, evalSkipS]
    cases kindOf kd m.id with
    | into =>
      simp only [skipC, codec_enum_into hS hN hm, evalSkip, genEnumInto, times_one]
      exact hcase k (by omega) r
    | emplace =>
      simp only [skipC, codec_enum_emplace hS hN hm, evalSkip, genEnumEmplace, times_one]
      exact hcase k (by omega) r
  | list c gs s h its items b ts vs bs hh hp he _ ih1 ih2 =>
    intro ts0 h0 hl
    obtain ⟨t0, ts0, rfl, ht0, rfl⟩ := List.map_eq_cons_iff.1 h0.symm
    obtain ⟨g, rfl, rfl, rfl⟩ := view_generic ht0
    have hh' : rt.writeL s = some h := by simpa [Runtime.wire] using hh
    have hits := pick_replicate hp
    have i1 := ih1 (List.replicate s (.other (dartElem g))) (by simp [hits, dartView]) (fun t ht => by
      obtain ⟨-, rfl⟩ := List.mem_replicate.1 ht
      have := hl _ (List.mem_cons_self ..)
      simpa [LibraryFree] using this)
    refine skipMany_cons (fun kd => ?_) (ih2 ts0 rfl (fun t ht => hl t (by simp [ht])))
    obtain ⟨N, h6⟩ := i1 .into
    refine ⟨N + 1, fun k hk r => ?_⟩
    obtain ⟨k, rfl⟩ : ∃ j, k = j + 1 := ⟨k - 1, by omega⟩
    simp only [skipT, genSkip, genCodecG, if_true, evalSkipS, skipC, codec_none hS kd hN.lists, elem_eq, times_one]
    rw [skipList, List.append_assoc, hrt.len s h _ hh']
    simp only [orElse, bind, Except.bind]
    rw [skipList_times]
    exact h6 k (by omega) r
  | ext id v b ts vs bs hid hw _ ih =>
    intro ts0 h0 hl
    obtain ⟨t0, ts0, rfl, ht0, rfl⟩ := List.map_eq_cons_iff.1 h0.symm
    refine skipMany_cons (fun kd => ⟨1, fun k hk r => ?_⟩) (ih ts0 rfl (fun t ht => hl t (by simp [ht])))
    obtain ⟨k, rfl⟩ : ∃ j, k = j + 1 := ⟨k - 1, by omega⟩
    rw [typeNames_view] at hid
    replace hw : rt.writeX id v = some b := hw
    have hsk := hrt.skip id v b r hw
    rcases view_other ht0 with rfl | ⟨c, gs, rfl, rfl⟩
    · rw [skipT, genSkip_other, evalSkipS, skipC, codec_none hS _ (by
        simp only [List.mem_append, not_or]; exact ⟨hid, hl _ (List.mem_cons_self ..)⟩)]
      simp only [times_one, hsk, orElse]
    · simp only [skipT, genSkip, (view_libGeneric ht0 kd).1, evalSkipS, skipC,
        codec_none hS kd (libGeneric_free ht0 (hl _ (List.mem_cons_self ..))), genericName_eq, times_one, hsk, orElse]

end TPB.Dart
