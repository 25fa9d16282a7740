/- Reading back what the emitted Dart code has written: all types, and objects that exist. -/
import Verif.Proofs.DartWrite
namespace TPB.Dart
open Spec DartGen

variable {x : Ext} {S : List ASTNode} {rt : Runtime}

theorem struct_only (hN : DartNamed x S) {n : StructNode} (hn : .struct n ∈ S) {d : ASTNode} (hd : d ∈ S)
    (he : declName d = some n.id) : d = .struct n := by
  have hnd : (typeNames S).Nodup := (List.nodup_append.1 (classes_nodup hN)).1
  cases d with
  | struct m => rw [struct_unique hnd hd hn (by simpa [declName] using he)]
  | enum m => exact absurd (by simpa [declName] using he.symm) (struct_enum_ne hnd hn hd)
  | _ => simp [declName] at he

theorem enum_only (hN : DartNamed x S) {n : EnumNode} (hn : .enum n ∈ S) {d : ASTNode} (hd : d ∈ S)
    (he : declName d = some n.id) : d = .enum n := by
  have hnd : (typeNames S).Nodup := (List.nodup_append.1 (classes_nodup hN)).1
  cases d with
  | struct m => exact absurd (by simpa [declName] using he) (struct_enum_ne hnd hd hn)
  | enum m => rw [enum_unique hnd hd hn (by simpa [declName] using he)]
  | _ => simp [declName] at he

/-- A type of which there is an object is built of finitely many others. -/
theorem dobj_built (hN : DartNamed x S) (hI : VariantsFilled S) {ts : List TypeId} {ds : List Val}
    (h : DObj x (dartSchema S) ts ds) : ∀ id ∈ typeNames S, .other id ∈ ts → Built S id := by
  induction h with
  | nil => simp
  | any t d ts ds h _ ih =>
    intro id hid hm
    rcases List.mem_cons.1 hm with rfl | hm
    · exact absurd rfl (h id (by rwa [typeNames_view]))
    · exact ih id hid hm
  | struct n fds ts ds hn _ _ ih1 ih2 =>
    intro id hid hm
    obtain ⟨m, hm', rfl⟩ := view_struct_mem hn
    rcases List.mem_cons.1 hm with e | hm
    · simp only [TypeId.other.injEq] at e
      subst e
      refine .mk _ (fun n' hn' he => ?_) (fun d hd he t ht htn => ?_)
      · cases struct_only hN hm' hn' (by simp [declName, he])
      · rw [struct_only hN hm' hd he] at ht
        refine ih1 t htn ?_
        rw [fieldsOf_view]
        refine List.mem_map.2 ⟨.other t, ?_, rfl⟩
        simpa [directTypes, fieldsOf] using ht
    · exact ih2 id hid hm
  | enum n v pls ts ds hn hl _ _ ih1 ih2 =>
    intro id hid hm
    obtain ⟨m, hm', rfl⟩ := view_enum_mem hn
    rcases List.mem_cons.1 hm with e | hm
    · simp only [TypeId.other.injEq] at e
      subst e
      refine .mk _ (fun n' hn' he => hI n' hn') (fun d hd he t ht htn => ?_)
      rw [enum_only hN hm' hd he] at ht
      simp only [directTypes, List.mem_flatMap] at ht
      obtain ⟨i, hi, ht⟩ := ht
      obtain ⟨p, hp⟩ : ∃ p, (viewItem i, p) ∈ (m.items.map viewItem).zip pls := by
        obtain ⟨k, hk, e⟩ := List.mem_iff_getElem.1 hi
        refine ⟨pls[k]'(by simp at hl; omega), List.mem_iff_getElem.2 ⟨k, by simp at hl ⊢; omega, by simp [e]⟩⟩
      refine ih1 _ hp t htn ?_
      rw [payload_view]
      exact List.mem_map.2 ⟨.other t, ht, rfl⟩
    · exact ih2 id hid hm

theorem drep_cons_inv {T : List ASTNode} {t : TypeId} {v : Val} {ts : List TypeId} {vs ds : List Val}
    (h : DRep x T (t :: ts) (v :: vs) ds) : ∃ d ds', ds = d :: ds' ∧ DRep x T [t] [v] [d] ∧ DRep x T ts vs ds' := by
  cases h with
  | leaf _ _ _ _ _ h h' => exact ⟨_, _, rfl, .leaf _ _ _ _ _ h .nil, h'⟩
  | struct n fvs fds _ _ _ hn h h' => exact ⟨_, _, rfl, .struct n fvs fds _ _ _ hn h .nil, h'⟩
  | enum n i pvs pds pls _ _ _ hn h1 h2 h3 h4 h' => exact ⟨_, _, rfl, .enum n i pvs pds pls _ _ _ hn h1 h2 h3 h4 .nil, h'⟩
  | list e s vis dis _ _ _ h h' => exact ⟨_, _, rfl, .list e s vis dis _ _ _ h .nil, h'⟩
  | ext id _ _ _ _ h h' => exact ⟨_, _, rfl, .ext id _ _ _ _ h .nil, h'⟩

/-- Objects of the enums in these values can be created: those of all enums can, or the values have objects. -/
def Creatable (x : Ext) (S : List ASTNode) (ts : List TypeId) (vs : List Val) : Prop :=
  (∀ n, .enum n ∈ S → Built S n.id) ∨ (VariantsFilled S ∧ ∃ ds, DRep x (dartSchema S) ts vs ds)

theorem Creatable.tail {t : TypeId} {v : Val} {ts : List TypeId} {vs : List Val}
    (h : Creatable x S (t :: ts) (v :: vs)) : Creatable x S ts vs := by
  rcases h with h | ⟨hI, ds, h⟩
  · exact .inl h
  · obtain ⟨_, ds', -, -, h⟩ := drep_cons_inv h
    exact .inr ⟨hI, ds', h⟩

theorem Creatable.struct (hN : DartNamed x S) {m : StructNode} (hm : .struct m ∈ S) {ts : List TypeId} {fvs vs : List Val}
    {b : Bytes} (he : Enc rt.wire (dartSchema S) ((fieldsOf { m with fields := m.fields.map viewField }).map (·.2)) fvs b)
    (h : Creatable x S (.other m.id :: ts)
      (.struct m.id (named (fieldsOf { m with fields := m.fields.map viewField }) fvs) :: vs)) :
    Creatable x S ((fieldsOf { m with fields := m.fields.map viewField }).map (·.2)) fvs := by
  rcases h with h | ⟨hI, ds, h⟩
  · exact .inl h
  · obtain ⟨d, _, -, h, -⟩ := drep_cons_inv h
    rw [show named (fieldsOf { m with fields := m.fields.map viewField }) fvs = named (fieldsOf m) fvs by
      simp [named, fieldsOf, viewField, Function.comp_def]] at h
    obtain ⟨ds, -, h⟩ := drep_struct_inv hN hm (by have := Rust.Enc.length_eq he; simpa [fieldsOf] using this) h
    exact .inr ⟨hI, ds, by rwa [fieldsOf_view]⟩

theorem Creatable.enumObj (hN : DartNamed x S) {m : EnumNode} (hm : .enum m ∈ S) {i : EnumItem} (hi : i ∈ m.items)
    {pvs : List Val} {d : Val} {b : Bytes} (he : Enc rt.wire (dartSchema S) ((payload (viewItem i)).map (·.2)) pvs b)
    (h : DRep x (dartSchema S) [.other m.id] [.enum m.id (viewItem i).id (named (payload (viewItem i)) pvs)] [d]) :
    ∃ ds, DRep x (dartSchema S) ((payload (viewItem i)).map (·.2)) pvs ds := by
  rw [named_payload_view, viewItem_id] at h
  obtain ⟨pds, pls, -, -, -, h⟩ := drep_enum_inv hN hm hi (by
    have h1 := Rust.Enc.length_eq he
    rw [payload_view] at h1
    simpa using h1) h
  exact ⟨pds, by rwa [payload_view]⟩

theorem Creatable.payload (hN : DartNamed x S) {m : EnumNode} (hm : .enum m ∈ S) {i : EnumItem} (hi : i ∈ m.items)
    {ts : List TypeId} {pvs vs : List Val} {b : Bytes}
    (he : Enc rt.wire (dartSchema S) ((Spec.payload (viewItem i)).map (·.2)) pvs b)
    (h : Creatable x S (.other m.id :: ts) (.enum m.id (viewItem i).id (named (Spec.payload (viewItem i)) pvs) :: vs)) :
    Creatable x S ((Spec.payload (viewItem i)).map (·.2)) pvs := by
  rcases h with h | ⟨hI, ds, h⟩
  · exact .inl h
  · obtain ⟨d, _, -, h, -⟩ := drep_cons_inv h
    exact .inr ⟨hI, Creatable.enumObj hN hm hi he h⟩

theorem Creatable.built (hN : DartNamed x S) {m : EnumNode} (hm : .enum m ∈ S)
    {ts : List TypeId} {v : Val} {vs : List Val}
    (h : Creatable x S (.other m.id :: ts) (v :: vs)) : Built S m.id := by
  rcases h with h | ⟨hI, ds, h⟩
  · exact h m hm
  · obtain ⟨d, _, -, h, -⟩ := drep_cons_inv h
    exact dobj_built hN hI h.obj m.id (enum_typeName hm) (by simp)

theorem Creatable.list {e : TypeId} {s : Nat} {ts : List TypeId} {items vs : List Val}
    (h : Creatable x S (.generic "Vec" [e] :: ts) (.list s items :: vs)) : Creatable x S (List.replicate s e) items := by
  rcases h with h | ⟨hI, ds, h⟩
  · exact .inl h
  · obtain ⟨d, _, -, h, -⟩ := drep_cons_inv h
    obtain ⟨ds, -, h⟩ := drep_list_inv h
    exact .inr ⟨hI, ds, h⟩

/-- Everything that has the wire layout is read back. -/
theorem enc_read_of (hrt : rt.Lawful) (hS : Plain S) (hN : DartNamed x S)
    (hD : DistinctNumbers S) {ts : List TypeId} {vs : List Val} {bs : Bytes}
    (h : Enc rt.wire (dartSchema S) ts vs bs) :
    ∀ ts0, ts = ts0.map dartView → (∀ t ∈ ts0, LibraryFree S t) → Creatable x S ts vs →
      ReadMany x rt S ts0 vs bs ∧ EmplMany x rt S ts0 vs bs := by
  induction h with
  | nil =>
    intro ts0 h0 _ _
    have : ts0 = [] := by simpa using h0.symm
    subst this
    exact ⟨⟨[], .nil, 0, fun _ _ _ => rfl⟩, fun olds ho => ⟨[], .nil, 0, fun _ _ _ => by simp [emplMany]⟩⟩
  | leaf t p v b ts vs bs hp hw _ ih =>
    intro ts0 h0 hl hC
    obtain ⟨t0, ts0, rfl, rfl, rfl⟩ := List.map_eq_cons_iff.1 h0.symm
    obtain ⟨i1, i2⟩ := ih ts0 rfl (fun t ht => hl t (by simp [ht])) hC.tail
    obtain ⟨o1, o2⟩ := leaf_one (x := x) (S := S) hrt hp hw
    exact ⟨readMany_cons o1 i1, emplMany_cons o2 i2⟩
  | struct n fvs b ts vs bs hn he _ ih1 ih2 =>
    intro ts0 h0 hl hC
    obtain ⟨t0, ts0, rfl, ht0, rfl⟩ := List.map_eq_cons_iff.1 h0.symm
    obtain ⟨i1, i2⟩ := ih2 ts0 rfl (fun t ht => hl t (by simp [ht])) hC.tail
    obtain ⟨m, hm, rfl⟩ := view_struct_mem hn
    have ht0' := view_declared hN ht0 (struct_typeName hm :)
    subst ht0'
    obtain ⟨j1, j2⟩ := ih1 (m.fields.map (·.typeId)) (fieldsOf_view m) (fun t ht => by
      obtain ⟨f, hf, rfl⟩ := List.mem_map.1 ht
      exact hN.structLib m hm (f.name, f.typeId) (List.mem_map.2 ⟨f, hf, rfl⟩)) (hC.struct hN hm he)
    obtain ⟨o1, o2⟩ := struct_one hS hN hm j1 j2
    rw [show named (fieldsOf { m with fields := m.fields.map viewField }) fvs = named (fieldsOf m) fvs by
      simp [named, fieldsOf, viewField, Function.comp_def]]
    exact ⟨readMany_cons o1 i1, emplMany_cons o2 i2⟩
  | enum n i tag pvs b ts vs bs hn hi ht he _ ih1 ih2 =>
    intro ts0 h0 hl hC
    obtain ⟨t0, ts0, rfl, ht0, rfl⟩ := List.map_eq_cons_iff.1 h0.symm
    obtain ⟨i1, i2⟩ := ih2 ts0 rfl (fun t ht => hl t (by simp [ht])) hC.tail
    obtain ⟨m, hm, rfl⟩ := view_enum_mem hn
    obtain ⟨j, hj, rfl⟩ := List.mem_map.1 hi
    have ht0' := view_declared hN ht0 (enum_typeName hm :)
    subst ht0'
    obtain ⟨j1, j2⟩ := ih1 ((payload j).map (·.2)) (payload_view j) (fun t ht => by
      obtain ⟨f, hf, rfl⟩ := List.mem_map.1 ht
      exact hN.enumLib m hm j hj f hf) (hC.payload hN hm hj he)
    rw [viewItem_position] at ht
    obtain ⟨o1, o2⟩ := enum_one hrt hS hN hD (hC.built hN hm) hm hj ht j2
    rw [named_payload_view, viewItem_id]
    exact ⟨readMany_cons o1 i1, emplMany_cons o2 i2⟩
  | list c gs s h its items b ts vs bs hh hp _ _ ih1 ih2 =>
    intro ts0 h0 hl hC
    obtain ⟨t0, ts0, rfl, ht0, rfl⟩ := List.map_eq_cons_iff.1 h0.symm
    obtain ⟨i1, i2⟩ := ih2 ts0 rfl (fun t ht => hl t (by simp [ht])) hC.tail
    obtain ⟨g, rfl, rfl, rfl⟩ := view_generic ht0
    have hh' : rt.writeL s = some h := by simpa [Runtime.wire] using hh
    have hits := pick_replicate hp
    obtain ⟨j1, -⟩ := ih1 (List.replicate s (.other (dartElem g))) (by simp [hits, dartView]) (fun t ht => by
      obtain ⟨-, rfl⟩ := List.mem_replicate.1 ht
      have := hl _ (List.mem_cons_self ..)
      simpa [LibraryFree] using this) (by
        rw [hits]
        exact hC.list)
    obtain ⟨o1, o2⟩ := list_one hrt hS hN hh' j1
    exact ⟨readMany_cons o1 i1, emplMany_cons o2 i2⟩
  | ext id v b ts vs bs hid hw _ ih =>
    intro ts0 h0 hl hC
    obtain ⟨t0, ts0, rfl, ht0, rfl⟩ := List.map_eq_cons_iff.1 h0.symm
    obtain ⟨i1, i2⟩ := ih ts0 rfl (fun t ht => hl t (by simp [ht])) hC.tail
    rw [typeNames_view] at hid
    obtain ⟨o1, o2⟩ := ext_one (x := x) hrt hS ht0 hid (hl _ (by simp)) hw
    exact ⟨readMany_cons o1 i1, emplMany_cons o2 i2⟩

theorem enc_read (hrt : rt.Lawful) (hS : Plain S) (hN : DartNamed x S) (hH : HasDefaults S)
    (hD : DistinctNumbers S) {ts : List TypeId} {vs : List Val} {bs : Bytes}
    (h : Enc rt.wire (dartSchema S) ts vs bs) (ts0 : List TypeId) (h0 : ts = ts0.map dartView)
    (hl : ∀ t ∈ ts0, LibraryFree S t) : ReadMany x rt S ts0 vs bs ∧ EmplMany x rt S ts0 vs bs :=
  enc_read_of hrt hS hN hD h ts0 h0 hl (.inl fun n _ => built_of_hasDefaults hH n.id)

end TPB.Dart
