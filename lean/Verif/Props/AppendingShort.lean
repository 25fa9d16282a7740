/-
Property theorems about messages that are too short for a version of a schema with further fields: C95.
-/
import Verif.Props.Appending
import Verif.Props.Untrusted
import Verif.Props.UntrustedDart
namespace TPB.Props
open Spec Renaming
open Rust (SafeToRead ContainersOk)

theorem hasTys_append {W : Wire} {S : List ASTNode} {ts us : List TypeId} {vs ws : List Val} (h : HasTys W S ts vs)
    (h' : HasTys W S us ws) : HasTys W S (ts ++ us) (vs ++ ws) := by
  induction h with
  | nil => exact h'
  | leaf _ _ _ _ h _ ih => exact .leaf _ _ _ _ h ih
  | struct n fvs _ _ h hf _ _ ih => exact .struct n fvs _ _ h hf ih
  | enum n i pvs _ _ h hi hp _ _ ih => exact .enum n i pvs _ _ h hi hp ih
  | list c gs s its items _ _ h h1 h2 _ _ ih => exact .list c gs s its items _ _ h h1 h2 ih
  | ext id _ _ _ h h1 _ ih => exact .ext id _ _ _ h h1 ih

/-- **C95, further fields that were not written.** The struct `n` of `S` is the struct `n'` of `S'` with further fields at
the end.  The code of `S`, given only what the code of `S'` has written, never returns a value: it panics, with any
amount of stack from some amount on, if the further fields take any bytes.  There are no default values for them. -/
theorem C95_rust_short (rt : Rust.Runtime) (hrt : rt.Lawful) (hC : rt.Canonical) (hY : rt.Typed) (hc : rt.Consumes)
    (M : String → String → Prop) (S S' : List ASTNode) (hA : Accepted S) (hA' : Accepted S') (hN : WellNamed S) (hN' : WellNamed S')
    (hW : Rust.NoWriterClash S) (hW' : Rust.NoWriterClash S') (hD : DistinctNumbers S) (hS : SameShape M S S')
    (hF : SafeToRead rt.wire S) :
    ∃ P P', Rust.Emits S P ∧ Rust.Emits S' P' ∧ ∀ n n' ts es, .struct n ∈ S → .struct n' ∈ S' → MoreFields M S S' n n' ts es →
      ∀ vs us, HasTys rt.wire S ts vs → HasTys rt.wire S es us →
      ∃ vs' b e, SameVals rt.wire M S S' ts ((fieldsOf n').map (·.2)) vs vs' ∧ Enc rt.wire S es us e ∧
        Rust.Writes rt P' (.other n'.id) (.struct n'.id (named (fieldsOf n') vs')) b ∧
        (e ≠ [] → Rust.ReadPanics rt P (.other n.id) b) := by
  refine ⟨_, _, emits_genProg S hA, emits_genProg S' hA', fun n n' ts es hn hn' hm vs us hv hu => ?_⟩
  obtain ⟨vs', hs⟩ := same_total hS hv _ hm.same
  have hT := Rust.typesOk_of_wf hA.wf
  have hwf : ∀ t ∈ ts ++ es, WFType t := by
    rw [← hm.types]
    intro t ht
    obtain ⟨f, hf, rfl⟩ := List.mem_map.1 ht
    exact hT.1 n hn f hf
  obtain ⟨b, h1, h2⟩ := same_enc (total_rust hrt.wire hN hT) hs (fun t ht => hwf t (by simp [ht]))
  obtain ⟨e, h3⟩ := Rust.hasTys_enc hrt.wire hN hT hu (fun t ht => hwf t (by simp [ht]))
  have h4 : Enc rt.wire S ((fieldsOf n).map (·.2)) (vs ++ us) (b ++ e) := by
    rw [hm.types]
    exact Enc.append h1 h3
  have h5 : HasTys rt.wire S [.other n.id] [.struct n.id (named (fieldsOf n) (vs ++ us))] :=
    .struct n (vs ++ us) _ _ hn (by rw [hm.types]; exact hasTys_append hv hu) .nil
  have hw := wf_declared hN (declared_struct hn)
  have hw' := wf_declared hN' (declared_struct hn')
  refine ⟨vs', b, e, hs, h3, enc_writes hA' hN' hW' hw' (enc_struct hn' h2), fun hne => ?_⟩
  obtain ⟨rank, hrank⟩ := hF.finite
  obtain ⟨R, hR⟩ := Rust.rank_bound S rank
  refine ⟨b.length * (R + 3) + Rust.depthOf S rank (.other n.id) + 2, fun k hk => ?_⟩
  have h := Rust.read_ended hY hc hN hT hF hrank hR k (.other n.id) hw (.leaf _ (by simp)) b hk
  cases hr : Rust.readTy rt (Rust.genProg S) k (Rust.genTy (.other n.id)) b with
  | ok q =>
    exact absurd hr (truncated_not_read hrt hC hA hN hW hD hw h5 (enc_writes hA hN hW hw (enc_struct hn h4)) (List.prefix_append b e)
      (by simpa using hne) k q.1 q.2)
  | error e =>
    rw [hr] at h
    cases e <;> first | rfl | exact h.elim

theorem dart_enc_truncated {x : Ext} {rt : Dart.Runtime} (hrt : rt.Lawful) (hC : rt.Canonical) (hc : rt.Consumes) {S : List ASTNode}
    (hR : DartReady x S) {t : TypeId} (ht : Dart.Sized t) (hf : LibraryFree S t) {v : Val} {b : Bytes}
    (he : Enc rt.wire (dartSchema S) [dartView t] [v] b) {c : Bytes} (hcb : c <+: b) (hne : c ≠ b) :
    Dart.ReadThrows rt (Dart.genProg x S) t c := by
  have hS := Dart.plain_of_accepted hR.accepted
  have hN := hR.named
  have hH := hR.defaults
  obtain ⟨height, hh⟩ := hH.finite
  obtain ⟨H, hHb⟩ := Dart.height_bound (typeNames S) height
  obtain ⟨N, hnew⟩ := Dart.new_bound (x := x) hrt hS hN hH
  refine ⟨N + c.length * (2 * H + 5) + Dart.depthOf S height t + 2, fun k hk => ?_⟩
  have h := (Dart.both_ended hrt hC.typed hc hS hN hH hh hHb hnew k t ht hf c hk).1
  cases hr : Dart.readT rt (Dart.genProg x S) k t c with
  | error e =>
    rw [hr] at h
    cases e <;> first | rfl | exact h.elim
  | ok q =>
    exfalso
    apply hne
    obtain ⟨d', r⟩ := q
    obtain ⟨v', ⟨b', h3, rfl⟩, -⟩ := ((((Dart.canonical_ind (S := S) hC).both hS hN (Dart.new_enum hrt hS hN hH) k t
      ht hf).1 c d' r hr).one)
    obtain ⟨z, rfl⟩ := hcb
    obtain ⟨d1, -, h4⟩ := (Dart.enc_read_one hrt hS hN hH hR.distinct hf he).1
    obtain ⟨d2, -, h5⟩ := (Dart.enc_read_one hrt hS hN hH hR.distinct hf h3).1
    have h4 := h4 []
    have h5 := h5 (r ++ z)
    rw [List.append_nil, List.append_assoc] at h4
    have h6 := (Dart.Reads.unique h4 h5).2
    have hz : r = [] ∧ z = [] := by simpa using h6.symm
    simp [hz.1, hz.2]

/-- **C95, further fields that were not written, in Dart.** The code generated for Dart throws in that case. -/
theorem C95_dart_short (x : Ext) (rt : Dart.Runtime) (hrt : rt.Lawful) (hC : rt.Canonical) (hc : rt.Consumes)
    (M : String → String → Prop) (S S' : List ASTNode) (hR : DartReady x S) (hR' : DartReady x S') (hP : RenamableSchema S S')
    (hS : SameShape M S S') :
    ∃ P P', Dart.Emits x S P ∧ Dart.Emits x S' P' ∧ ∀ n n' ts es, .struct n ∈ S → .struct n' ∈ S' → MoreFields M S S' n n' ts es →
      LibraryFree S (.other n.id) → LibraryFree S' (.other n'.id) → ∀ vs us, HasTys rt.wire (dartSchema S) (ts.map dartView) vs →
      HasTys rt.wire (dartSchema S) (es.map dartView) us →
      ∃ vs' b e, SameVals rt.wire M (dartSchema S) (dartSchema S') (ts.map dartView) (((fieldsOf n').map (·.2)).map dartView) vs vs' ∧
        Enc rt.wire (dartSchema S) (es.map dartView) us e ∧
        (∃ d, Represents x S' (.other n'.id) (.struct n'.id (named (fieldsOf n') vs')) d ∧ ∀ kd, Dart.Writes rt P' kd (.other n'.id) d b) ∧
        (e ≠ [] → Dart.ReadThrows rt P (.other n.id) b) := by
  have p1 := Dart.plain_of_accepted hR.accepted
  have p2 := Dart.plain_of_accepted hR'.accepted
  refine ⟨_, _, Dart.emits_genProg hR.accepted, Dart.emits_genProg hR'.accepted, fun n n' ts es hn hn' hm hf hf' vs us hv hu => ?_⟩
  have hty : ∀ t ∈ ts ++ es, ∃ f ∈ fieldsOf n, f.2 = t := by
    rw [← hm.types]
    exact fun t ht => List.mem_map.1 ht
  have hsz : ∀ t ∈ ts ++ es, Dart.Sized t := fun t ht => by
    obtain ⟨f, hf, rfl⟩ := hty t ht
    exact Dart.sized_of_wf ((Rust.typesOk_of_wf hR.accepted.wf).1 n hn f hf)
  have hrn : ∀ t ∈ ts, Renamable S S' t := fun t ht => by
    obtain ⟨f, hf, rfl⟩ := hty t (by simp [ht])
    exact hP.fields n hn f hf
  obtain ⟨vs', hs⟩ := same_total (sameShape_view hR.named hR'.named hS hP) hv _ (sameTys_mapView hR.named hR'.named hm.same hrn)
  obtain ⟨b, h1, h2⟩ := same_enc (total_dart hrt (Rust.typesOk_of_wf hR.accepted.wf) hR.numbers) hs (fun t ht => by
    obtain ⟨t0, h0, rfl⟩ := List.mem_map.1 ht
    exact ⟨t0, rfl, hsz t0 (by simp [h0])⟩)
  obtain ⟨e, h3⟩ := Dart.hasTys_enc hrt hR.named p1.types hR.numbers hu es rfl (fun t ht => hsz t (by simp [ht]))
  have h4 : Enc rt.wire (dartSchema S) (((fieldsOf n).map (·.2)).map dartView) (vs ++ us) (b ++ e) := by
    rw [hm.types, List.map_append]
    exact Enc.append h1 h3
  have e1 := enc_dart_struct hn h4
  have e2 := enc_dart_struct hn' h2
  obtain ⟨d', hd', -⟩ := (Dart.enc_read_one hrt p2 hR'.named hR'.defaults hR'.distinct hf' e2).1
  exact ⟨vs', b, e, hs, h3, ⟨d', hd', fun kd => Dart.enc_write_one p2 hR'.named hf' e2 hd' kd⟩, fun hne =>
    dart_enc_truncated hrt hC hc hR (by simp [Dart.Sized]) hf e1 (List.prefix_append b e) (by simpa using hne)⟩

theorem itemsNew_safe : SafeToRead LE.rust.strict.wire itemsNew where
  finite := ⟨fun _ => 0, by
    intro n hn m hm h
    simp only [itemsNew, List.mem_cons, ASTNode.struct.injEq, reduceCtorEq, List.not_mem_nil, or_false, false_or] at hn hm
    subst hn hm
    simp [fieldsOf, itemNew] at h⟩
  fields n hn t ht := by
    obtain ⟨f, hf, rfl⟩ := List.mem_map.1 ht
    exact le_containersOk ((Rust.typesOk_of_wf itemsNew_wf).1 n hn f hf)
  payloads n hn i hi t ht := by
    obtain ⟨f, hf, rfl⟩ := List.mem_map.1 ht
    exact le_containersOk ((Rust.typesOk_of_wf itemsNew_wf).2 n hn i hi f hf)

/-- `C95_rust_short` on an item that was written without its list of further colours. -/
example : ∃ P P' v b, Rust.Emits itemsNew P ∧ Rust.Emits itemsOld P' ∧ Rust.Writes LE.rust.strict P' (.other "Item") v b ∧
    Rust.ReadPanics LE.rust.strict P (.other "Item") b := by
  obtain ⟨P, P', h1, h2, h3⟩ := C95_rust_short LE.rust.strict (Rust.strict_lawful LE.rust_lawful) (Rust.strict_canonical _)
    Rust.le_strict_typed Rust.le_strict_consumes sameColor itemsNew itemsOld itemsNew_ready.accepted itemsOld_ready.accepted
    { types := by decide
      builtins := by decide
      fields := by simp [itemsNew, itemNew, fieldsOf]
      variants := by simp [itemsNew, itemColor, EnumItem.id]
      payloads := by simp [itemsNew, itemColor]
      numbers := by simp [itemsNew, itemColor, EnumItem.position] }
    { types := by decide
      builtins := by decide
      fields := by simp [itemsOld, itemOld, fieldsOf]
      variants := by simp [itemsOld, itemColor, EnumItem.id]
      payloads := by simp [itemsOld, itemColor]
      numbers := by simp [itemsOld, itemColor, EnumItem.position] }
    (by simp [Rust.NoWriterClash, itemsNew, itemColor]) (by simp [Rust.NoWriterClash, itemsOld, itemColor])
    itemsNew_ready.distinct items_same itemsNew_safe
  have hv := items_values (W := LE.rust.strict.wire) (S := itemsNew) "i64" (by simp [itemsNew])
    (by simp [LE.rust, LE.wire, Rust.Runtime.strict]) (by simp [LE.rust, LE.wire, pick, Rust.Runtime.strict])
  obtain ⟨vs', b, e, -, h4, h5, h6⟩ := h3 itemNew itemOld _ _ (by simp [itemsNew]) (by simp [itemsOld]) item_more _ _ hv.1 hv.2
  refine ⟨P, P', _, b, h1, h2, h5, h6 ?_⟩
  rintro rfl
  have hh : LE.rust.strict.wire.head "Vec" 1 = some (LE.le 8 1) := by decide +kernel
  generalize hb : ([] : Bytes) = z at h4
  cases h4 with
  | leaf _ _ _ _ _ _ _ h => simp [builtin?] at h
  | list _ _ _ _ _ _ _ _ _ _ h =>
    have hl := congrArg List.length hb
    rw [hh] at h
    obtain rfl := Option.some.inj h
    simp [LE.le] at hl

/-- `C95_dart_short` on such an item. -/
example : ∃ P P' d b, Dart.Emits testExt itemsNew P ∧ Dart.Emits testExt itemsOld P' ∧ Dart.Writes LE.dart.strict P' .into (.other "Item") d b ∧
    Dart.ReadThrows LE.dart.strict P (.other "Item") b := by
  obtain ⟨P, P', h1, h2, h3⟩ := C95_dart_short testExt LE.dart.strict (Dart.strict_lawful LE.dart_lawful)
    (Dart.strict_canonical LE.dart_lawful) Dart.le_strict_consumes sameColor itemsNew itemsOld itemsNew_ready itemsOld_ready
    items_renamable items_same
  have hv := items_values (W := LE.dart.strict.wire) (S := dartSchema itemsNew) "Int64"
    (by simp [dartSchema, itemsNew, viewDecl, itemColor, viewItem]) (by decide +kernel) rfl
  obtain ⟨vs', b, e, -, h4, ⟨d, -, h5⟩, h6⟩ := h3 itemNew itemOld _ _ (by simp [itemsNew]) (by simp [itemsOld]) item_more
    (Dart.declared_free itemsNew_ready.named (by decide)) (Dart.declared_free itemsOld_ready.named (by decide)) _ _ hv.1 hv.2
  refine ⟨P, P', d, b, h1, h2, h5 .into, h6 ?_⟩
  rintro rfl
  have hh : LE.dart.strict.wire.head "Vec" 1 = some (LE.le 8 1) := by decide +kernel
  replace h4 : Enc LE.dart.strict.wire (dartSchema itemsNew) [.generic "Vec" [.other "Color"]] [.list 1 [.enum "Color" "Red" []]] [] := h4
  generalize hb : ([] : Bytes) = z at h4
  cases h4 with
  | leaf _ _ _ _ _ _ _ h => simp [builtin?] at h
  | list _ _ _ _ _ _ _ _ _ _ h =>
    have hl := congrArg List.length hb
    rw [hh] at h
    obtain rfl := Option.some.inj h
    simp [LE.le] at hl

end TPB.Props
