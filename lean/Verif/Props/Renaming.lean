/-
Property theorems about names: C93.
-/
import Verif.Proofs.Renaming
import Verif.Props.Evolution
namespace TPB.Props
open Spec Rust Renaming

/-! ## C93, Rust -/

/-- **C93, Rust.** Let `S'` be `S` with other names of types, fields and variants, and possibly more declarations
and variants (`SameShape`).  Every value of `S` is, up to names, a value of `S'`; and whenever two values are the
same up to names, the code generated for `S` and the code generated for `S'` write the same bytes for them, and each
reads these bytes as its own one of the two, whatever follows. -/
theorem C93_rust (rt : Runtime) (hrt : rt.Lawful) (M : String → String → Prop) (S S' : List ASTNode) (hA : Accepted S)
    (hA' : Accepted S') (hN : WellNamed S) (hN' : WellNamed S') (hW : NoWriterClash S) (hW' : NoWriterClash S')
    (hD : DistinctNumbers S) (hD' : DistinctNumbers S') (hS : SameShape M S S') :
    ∃ P P', Emits S P ∧ Emits S' P' ∧ ∀ t t', WFType t → WFType t' → SameTy M S S' t t' →
      (∀ v, HasTy rt.wire S t v → ∃ v', SameVal rt.wire M S S' t t' v v') ∧
      ∀ v v', SameVal rt.wire M S S' t t' v v' → ∃ bs, Writes rt P t v bs ∧ Writes rt P' t' v' bs ∧
        ∀ r, Reads rt P t (bs ++ r) v r ∧ Reads rt P' t' (bs ++ r) v' r := by
  refine ⟨_, _, emits_genProg S hA, emits_genProg S' hA', fun t t' ht ht' hs => ⟨fun v hv => ?_, fun v v' hv => ?_⟩⟩
  · obtain ⟨vs', h⟩ := same_total hS hv [t'] (sameTys_mk hs ⟨rfl, by simp⟩)
    obtain ⟨v', rfl⟩ : ∃ v', vs' = [v'] := by
      have := same_length h
      match vs', this with
      | [v'], _ => exact ⟨v', rfl⟩
    exact ⟨v', h⟩
  · obtain ⟨bs, he, he'⟩ := same_enc (total_rust hrt.wire hN (typesOk_of_wf hA.wf)) hv (by simpa using ht)
    exact ⟨bs, enc_writes hA hN hW ht he, enc_writes hA' hN' hW' ht' he',
      fun r => ⟨enc_reads hrt hA hN hD ht he r, enc_reads hrt hA' hN' hD' ht' he' r⟩⟩

/-! ## C93, Dart -/

theorem same_eq {M : String → String → Prop} {S S' : List ASTNode} {t t' : TypeId} (h : SameTy M S S' t t') :
    (∀ id ∈ typeNames S, ¬ Mentions id t) → t = t' := by
  induction h with
  | builtin => exact fun _ => rfl
  | declared id id' hi _ => exact fun h => absurd ((mentions_other id id).2 rfl) (h id hi)
  | library => exact fun _ => rfl
  | container c gs gs' hl _ ih =>
    intro h
    congr 1
    refine List.ext_getElem hl (fun i h1 h2 => ih i h1 h2 (fun id hi hm => h id hi ?_))
    exact (mentions_generic _ _ _).2 (.inr ⟨_, List.getElem_mem h1, hm⟩)

theorem generic_not_declared {x : Ext} {S : List ASTNode} (hN : DartNamed x S) (c : String) (gs : List TypeId) :
    dartGeneric c gs ∉ typeNames S := fun h => hN.plain _ h (by simp [dartGeneric])

theorem same_elem {M : String → String → Prop} {S S' : List ASTNode} {t t' : TypeId} (h : SameTy M S S' t t')
    (hn : ∀ id, t ≠ .other id) : dartElem t' = dartElem t := by
  cases h with
  | builtin => rfl
  | declared id => exact absurd rfl (hn id)
  | library => rfl
  | container => rfl

theorem view_generic_lib {c : String} {gs : List TypeId} (h : c ≠ "Vec" ∨ gs.length ≠ 1) :
    dartView (.generic c gs) = .other (dartGeneric c gs) := by
  match gs with
  | [] => rfl
  | [g] =>
    have hc : c ≠ "Vec" := by simpa using h
    simp [dartView, hc]
  | _ :: _ :: _ => rfl

theorem sameTy_view {M : String → String → Prop} {x : Ext} {S S' : List ASTNode} (hN : DartNamed x S) (hN' : DartNamed x S')
    {t t' : TypeId} (h : SameTy M S S' t t') (hp : Renamable S S' t) :
    SameTy M (dartSchema S) (dartSchema S') (dartView t) (dartView t') := by
  cases h with
  | builtin _ hb =>
    refine .builtin _ ?_
    cases t <;> simp [builtin?] at hb <;> simp [builtin?, dartView]
  | declared id id' hi hm => exact .declared _ _ (by rwa [typeNames_dart]) hm
  | library id hi hi' => exact .library _ (by rwa [typeNames_dart]) (by rwa [typeNames_dart])
  | container c gs gs' hl hg =>
    cases hp with
    | builtin _ hb => simp [builtin?] at hb
    | list id =>
      match gs', hl with
      | [g'], _ =>
        have h1 : SameTy M S S' (.other id) g' := hg 0 (by simp) (by simp)
        refine .container "Vec" [.other id] [.other (dartElem g')] rfl (fun i hi hi' => ?_)
        have : i = 0 := by simpa using hi
        subst this
        cases h1 with
        | builtin _ hb => simp [builtin?] at hb
        | declared _ id' hi hm => exact .declared _ _ (by rwa [typeNames_dart]) hm
        | library _ hi hi' => exact .library _ (by rwa [typeNames_dart]) (by rwa [typeNames_dart])
    | lists g h1 h2 =>
      match gs', hl with
      | [g'], _ =>
        have h3 : SameTy M S S' g g' := hg 0 (by simp) (by simp)
        have he : dartElem g' = dartElem g := by
          by_cases hid : ∃ id, g = .other id
          · obtain ⟨id, rfl⟩ := hid
            cases h3 with
            | builtin _ hb => simp [builtin?] at hb
            | declared _ id' hi hm => exact absurd hi h1
            | library => rfl
          · exact same_elem h3 (fun id h => hid ⟨id, h⟩)
        refine .container "Vec" [.other (dartElem g)] [.other (dartElem g')] rfl (fun i hi hi' => ?_)
        have : i = 0 := by simpa using hi
        subst this
        show SameTy M _ _ (.other (dartElem g)) (.other (dartElem g'))
        rw [he]
        exact .library _ (by rwa [typeNames_dart]) (by rwa [typeNames_dart])
    | library _ _ hc hm =>
      have he := same_eq (.container c gs gs' hl hg) hm
      rw [← he, view_generic_lib hc]
      exact .library _ (by rw [typeNames_dart]; exact generic_not_declared hN c gs)
        (by rw [typeNames_dart]; exact generic_not_declared hN' c gs)

theorem sameTys_view {M : String → String → Prop} {x : Ext} {S S' : List ASTNode} (hN : DartNamed x S) (hN' : DartNamed x S')
    {fs fs' : List (String × TypeId)}
    (h : SameTys M S S' (fs.map (·.2)) (fs'.map (·.2))) (hp : ∀ f ∈ fs, Renamable S S' f.2) :
    SameTys M (dartSchema S) (dartSchema S') ((fs.map (fun f => (f.1, dartView f.2))).map (·.2))
      ((fs'.map (fun f => (f.1, dartView f.2))).map (·.2)) := by
  refine ⟨by simpa using h.1, fun i hi hi' => ?_⟩
  have := h.2 i (by simpa using hi) (by simpa using hi')
  simp only [List.getElem_map] at this ⊢
  exact sameTy_view hN hN' this (hp _ (List.getElem_mem _))

theorem sameShape_view {M : String → String → Prop} {x : Ext} {S S' : List ASTNode} (hN : DartNamed x S) (hN' : DartNamed x S')
    (h : SameShape M S S') (hp : RenamableSchema S S') :
    SameShape M (dartSchema S) (dartSchema S') where
  struct := by
    intro n hn id' hm
    obtain ⟨m, hmem, rfl⟩ := Dart.view_struct_mem hn
    obtain ⟨m', hm', rfl, hf⟩ := h.struct m hmem id' hm
    refine ⟨_, List.mem_map.2 ⟨_, hm', rfl⟩, rfl, ?_⟩
    rw [fieldsOf_view, fieldsOf_view]
    exact sameTys_view hN hN' hf (hp.fields m hmem)
  enum := by
    intro n hn id' hm
    obtain ⟨m, hmem, rfl⟩ := Dart.view_enum_mem hn
    obtain ⟨m', hm', rfl, hf⟩ := h.enum m hmem id' hm
    refine ⟨_, List.mem_map.2 ⟨_, hm', rfl⟩, rfl, fun i hi => ?_⟩
    obtain ⟨j, hj, rfl⟩ := List.mem_map.1 hi
    obtain ⟨j', hj', he, hf⟩ := hf j hj
    refine ⟨_, List.mem_map.2 ⟨j', hj', rfl⟩, by rw [Dart.viewItem_position, Dart.viewItem_position, he], ?_⟩
    rw [payload_view, payload_view]
    exact sameTys_view hN hN' hf (hp.payloads m hmem j hj)

/-- **C93, Dart.** The same for the code generated for Dart, for types that Dart tells apart in the
same way in both schemas (`Renamable`): whenever two values are
the same up to names, both write the same bytes, with both codecs, for every object of theirs that represents their
value, and both read them as an object that represents their value, also in place, whatever follows. -/
theorem C93_dart (x : Ext) (rt : Dart.Runtime) (hrt : rt.Lawful) (M : String → String → Prop) (S S' : List ASTNode)
    (hR : DartReady x S) (hR' : DartReady x S') (hP : RenamableSchema S S') (hS : SameShape M S S') :
    ∃ P P', Dart.Emits x S P ∧ Dart.Emits x S' P' ∧ ∀ t t', WFType t → SameTy M S S' t t' → Renamable S S' t → LibraryFree S t →
      LibraryFree S' t' →
      (∀ v, DartValue rt S t v → ∃ v', SameVal rt.wire M (dartSchema S) (dartSchema S') (dartView t) (dartView t') v v') ∧
      ∀ v v', SameVal rt.wire M (dartSchema S) (dartSchema S') (dartView t) (dartView t') v v' → ∃ bs,
        (∀ kd d, Represents x S t v d → Dart.Writes rt P kd t d bs) ∧
        (∀ kd d, Represents x S' t' v' d → Dart.Writes rt P' kd t' d bs) ∧
        (∃ d, Represents x S t v d ∧ ∀ r, Dart.Reads rt P t (bs ++ r) d r) ∧
        (∃ d, Represents x S' t' v' d ∧ ∀ r, Dart.Reads rt P' t' (bs ++ r) d r) ∧
        (∀ old, DartObject x S t old → ∃ d, Represents x S t v d ∧ ∀ r, Dart.Emplaces rt P t old (bs ++ r) d r) ∧
        ∀ old, DartObject x S' t' old → ∃ d, Represents x S' t' v' d ∧ ∀ r, Dart.Emplaces rt P' t' old (bs ++ r) d r := by
  have h1 := Dart.plain_of_accepted hR.accepted
  have h2 := Dart.plain_of_accepted hR'.accepted
  refine ⟨_, _, Dart.emits_genProg hR.accepted, Dart.emits_genProg hR'.accepted,
    fun t t' ht hs hp hf hf' => ⟨fun v hv => ?_, fun v v' hv => ?_⟩⟩
  · obtain ⟨vs', h⟩ := same_total (sameShape_view hR.named hR'.named hS hP) hv [dartView t'] (sameTys_mk (sameTy_view hR.named hR'.named hs hp) ⟨rfl, by simp⟩)
    obtain ⟨v', rfl⟩ : ∃ v', vs' = [v'] := by
      have := same_length h
      match vs', this with
      | [v'], _ => exact ⟨v', rfl⟩
    exact ⟨v', h⟩
  · obtain ⟨bs, he, he'⟩ := same_enc (total_dart hrt (typesOk_of_wf hR.accepted.wf) hR.numbers) hv
      (by simpa using ⟨t, rfl, Dart.sized_of_wf ht⟩)
    exact ⟨bs, fun kd d hd => Dart.enc_write_one h1 hR.named hf he hd kd,
      fun kd d hd => Dart.enc_write_one h2 hR'.named hf' he' hd kd,
      (Dart.enc_read_one hrt h1 hR.named hR.defaults hR.distinct hf he).1,
      (Dart.enc_read_one hrt h2 hR'.named hR'.defaults hR'.distinct hf' he').1,
      (Dart.enc_read_one hrt h1 hR.named hR.defaults hR.distinct hf he).2,
      (Dart.enc_read_one hrt h2 hR'.named hR'.defaults hR'.distinct hf' he').2⟩

/-! ## C93, both languages -/

/-- **C93, from Rust to Dart.** The Rust code is generated for `S` and the Dart code for `S'`, which has other names:
what Rust writes for a value of `S`, Dart reads as an object that represents, as Dart sees it, the value of `S'` that
is the same up to names. -/
theorem C93_rust_to_dart (x : Ext) (rr : Rust.Runtime) (hrr : rr.Lawful) (rt : Dart.Runtime) (hrt : rt.Lawful)
    (hG : Agree rr.wire rt.wire) (M : String → String → Prop) (S S' : List ASTNode) (hA : Accepted S) (hN : WellNamed S)
    (hW : NoWriterClash S) (hR' : DartReady x S') (hP' : PortableSchema S') (hS : SameShape M S S') :
    ∃ R P, Rust.Emits S R ∧ Dart.Emits x S' P ∧ ∀ t t', WFType t → SameTy M S S' t t' → Portable S' t' → LibraryFree S' t' →
      ∀ v, HasTy rr.wire S t v → ∃ v' bs u d, SameVal rr.wire M S S' t t' v v' ∧ Rust.Writes rr R t v bs ∧
        Sees S' [t'] [v'] [u] ∧ Represents x S' t' u d ∧ ∀ r, Dart.Reads rt P t' (bs ++ r) d r := by
  refine ⟨_, _, emits_genProg S hA, Dart.emits_genProg hR'.accepted, fun t t' ht hs hp' hf' v hv => ?_⟩
  obtain ⟨vs', h⟩ := same_total hS hv [t'] (sameTys_mk hs ⟨rfl, by simp⟩)
  obtain ⟨v', rfl⟩ : ∃ v', vs' = [v'] := by
    have := same_length h
    match vs', this with
    | [v'], _ => exact ⟨v', rfl⟩
  obtain ⟨bs, he, he'⟩ := same_enc (total_rust hrr.wire hN (typesOk_of_wf hA.wf)) h (by simpa using ht)
  obtain ⟨us, h1, h2, -⟩ := Dart.enc_to_dart hG hrr.wire hP' he' (by simpa using hp')
  obtain ⟨u, rfl⟩ : ∃ u, us = [u] := by
    have := Rust.Enc.length_eq h2
    match us, this with
    | [u], _ => exact ⟨u, rfl⟩
  obtain ⟨d, h3, h4⟩ := (Dart.enc_read_one hrt (Dart.plain_of_accepted hR'.accepted) hR'.named hR'.defaults hR'.distinct hf' h2).1
  exact ⟨v', bs, u, d, h, enc_writes hA hN hW ht he, h1, h3, h4⟩

/-- **C93, from Dart to Rust.** The Dart code is generated for `S` and the Rust code for `S'`, which has other names:
what Dart writes for an object, Rust reads as the value of `S'` that is, up to names, the value that Dart sees as the
value of the object. -/
theorem C93_dart_to_rust (x : Ext) (rr : Rust.Runtime) (hrr : rr.Lawful) (rt : Dart.Runtime) (hrt : rt.Lawful)
    (hG : Agree rr.wire rt.wire) (M : String → String → Prop) (S S' : List ASTNode) (hR : DartReady x S) (hN : WellNamed S)
    (hW : NoWriterClash S) (hP : PortableSchema S) (hA' : Accepted S') (hN' : WellNamed S') (hD' : DistinctNumbers S') (hS : SameShape M S S') :
    ∃ P R, Dart.Emits x S P ∧ Rust.Emits S' R ∧ ∀ t t', WFType t → WFType t' → SameTy M S S' t t' → Portable S t →
      LibraryFree S t → ∀ u d, DartValue rt S t u → Represents x S t u d →
      ∃ bs v v', (∀ kd, Dart.Writes rt P kd t d bs) ∧ Sees S [t] [v] [u] ∧ SameVal rr.wire M S S' t t' v v' ∧
        ∀ r, Rust.Reads rr R t' (bs ++ r) v' r := by
  have h0 := Dart.plain_of_accepted hR.accepted
  refine ⟨_, _, Dart.emits_genProg hR.accepted, emits_genProg S' hA', fun t t' ht ht' hs hp hf u d hu hd => ?_⟩
  obtain ⟨bs, he⟩ := Dart.hasTys_enc hrt hR.named h0.types hP.numbers hu [t] rfl (by simpa using Dart.sized_of_wf ht)
  obtain ⟨vs, h1, h2⟩ := Dart.enc_of_dart hG hrr.wire hP he [t] rfl (by simpa using hp)
  obtain ⟨v, rfl⟩ : ∃ v, vs = [v] := by
    have := Rust.Enc.length_eq h2
    match vs, this with
    | [u], _ => exact ⟨u, rfl⟩
  have hv := Dart.enc_hasTys hG hrr.wire hP h2 (by simpa using hp)
  obtain ⟨vs', h⟩ := same_total hS hv [t'] (sameTys_mk hs ⟨rfl, by simp⟩)
  obtain ⟨v', rfl⟩ : ∃ v', vs' = [v'] := by
    have := same_length h
    match vs', this with
    | [v'], _ => exact ⟨v', rfl⟩
  obtain ⟨bs', he1, he2⟩ := same_enc (total_rust hrr.wire hN (typesOk_of_wf hR.accepted.wf)) h (by simpa using ht)
  obtain rfl : bs = bs' := by
    obtain ⟨k, hk⟩ := enc_writes hR.accepted hN hW ht h2
    obtain ⟨k', hk'⟩ := enc_writes hR.accepted hN hW ht he1
    have := (hk (max k k') (by omega)).symm.trans (hk' (max k k') (by omega))
    exact Except.ok.inj this
  exact ⟨bs, v, v', fun kd => Dart.enc_write_one h0 hR.named hf he hd kd, h1, h, enc_reads hrr hA' hN' hD' ht' he2⟩

/-! ## An example -/

/-- `dartExample` with other names of types, fields and variants, in another order, with another variant, and with
the struct variant `Rect` turned into a tuple variant and the tuple variant `Circle` into a struct variant. -/
def renamedExample : List ASTNode :=
  [.enum ⟨"Form", [.tuple 1 "Box" [⟨0, .other "Pt"⟩, ⟨1, .bool "bool"⟩],
      .struct 7 "Disc" [⟨0, "centre", .other "Pt"⟩, ⟨1, "radius", .number "f64" 8⟩], .empty 3 "Void", .empty 9 "More"]⟩,
   .struct ⟨"Unit", [], true, true⟩,
   .struct ⟨"Pt", [⟨0, "label", .other "String"⟩, ⟨1, "left", .integer "i32" 4 true⟩,
      ⟨2, "trail", .generic "Vec" [.other "Pt"]⟩], true, true⟩]

/-- How the types of `dartExample` are called in `renamedExample`. -/
def newNames (id id' : String) : Prop := (id, id') ∈ [("Point", "Pt"), ("Shape", "Form"), ("Nothing", "Unit")]

theorem renamedExample_wf : WFSchema 0 renamedExample := by
  have b : ∀ n, WFType (typeOfName n) := .name
  have h1 : WFType (.integer "i32" 4 true) := b "i32"
  have h2 : WFType (.number "f64" 8) := b "f64"
  have h3 : WFType (.other "Pt") := b "Pt"
  have h4 : WFType (.other "String") := b "String"
  have h5 : WFType (.bool "bool") := b "bool"
  have h6 : WFType (.generic "Vec" [.other "Pt"]) := .generic _ _ (by simp) (by simpa using h3)
  refine ⟨⟨by simp, .inr (by simp [EnumItem.position]), ?_⟩, ⟨⟨.inl rfl, by simp⟩, rfl, rfl⟩,
    ⟨⟨.inl rfl, by simp; exact ⟨h4, h1, h6⟩⟩, rfl, rfl⟩, trivial⟩
  simp [WFItem, WFTups, WFFields, PosOk, h2, h3, h5]

theorem renamedExample_accepted : Accepted renamedExample := by
  obtain ⟨ts, _, h⟩ := C09_every_schema _ renamedExample_wf
  exact ⟨_, h⟩

theorem renamedExample_ready : DartReady testExt renamedExample where
  accepted := renamedExample_accepted
  named := {
    classes := by decide +kernel
    fields := by simp [renamedExample, dartFieldNames]; decide +kernel
    variants := by simp [renamedExample, EnumItem.id]; decide +kernel
    payloads := by simp [renamedExample, dartPayloadNames]; decide +kernel
    plain := by decide +kernel
    lists := by decide +kernel
    structLib := by simp [renamedExample, fieldsOf, LibraryFree, dartElem]; decide +kernel
    enumLib := by
      have h : "Pt" ∉ variantClasses renamedExample := by decide +kernel
      intro n hn i hi f hf
      simp only [renamedExample, List.mem_cons, ASTNode.enum.injEq, reduceCtorEq, List.not_mem_nil, or_false] at hn
      subst hn
      simp only [List.mem_cons, List.not_mem_nil, or_false] at hi
      rcases hi with rfl | rfl | rfl | rfl <;> simp [payload] at hf
      · rcases hf with rfl | rfl
        · exact h
        · trivial
      · rcases hf with rfl | rfl
        · exact h
        · trivial }
  defaults := {
    finite := ⟨fun s => if s = "Pt" ∨ s = "Unit" then 0 else 1, by
      simp [renamedExample, declName, directTypes, fieldsOf, payload, typeNames]⟩
    inhabited := by simp [renamedExample, payload] }
  distinct := by simp [DistinctNumbers, renamedExample, EnumItem.position]
  numbers := by simp [renamedExample, EnumItem.position]

theorem renamedExample_rust : WellNamed renamedExample ∧ NoWriterClash renamedExample := by
  refine ⟨⟨by decide, by decide, by simp [renamedExample, fieldsOf], by simp [renamedExample, EnumItem.id], ?_,
    by simp [renamedExample, EnumItem.position]⟩, ?_⟩
  all_goals
    simp only [NoWriterClash, renamedExample, List.mem_cons, ASTNode.enum.injEq, reduceCtorEq, List.not_mem_nil, or_false]
    rintro n rfl p id fs h
    simp at h
    obtain ⟨rfl, rfl, rfl⟩ := h
    decide

theorem renamedExample_same : SameShape newNames dartExample renamedExample := by
  have hP : SameTy newNames dartExample renamedExample (.other "Point") (.other "Pt") :=
    .declared _ _ (by decide) (by simp [newNames])
  have hS : SameTy newNames dartExample renamedExample (.other "String") (.other "String") :=
    .library _ (by decide) (by decide)
  have hV : SameTy newNames dartExample renamedExample (.generic "Vec" [.other "Point"]) (.generic "Vec" [.other "Pt"]) :=
    .container _ _ _ rfl (fun i hi _ => by
      have : i = 0 := by simpa using hi
      subst this
      exact hP)
  have hn : SameTys newNames dartExample renamedExample [] [] := ⟨rfl, by simp⟩
  constructor
  · simp only [dartExample, List.mem_cons, ASTNode.struct.injEq, reduceCtorEq, List.not_mem_nil, or_false, false_or]
    rintro n (rfl | rfl) id' hm <;> simp [newNames] at hm <;> subst hm
    · refine ⟨⟨"Pt", [⟨0, "label", .other "String"⟩, ⟨1, "left", .integer "i32" 4 true⟩,
        ⟨2, "trail", .generic "Vec" [.other "Pt"]⟩], true, true⟩, by simp [renamedExample], rfl, ?_⟩
      exact sameTys_mk hS (sameTys_mk (.builtin _ rfl) (sameTys_mk hV hn))
    · exact ⟨⟨"Unit", [], true, true⟩, by simp [renamedExample], rfl, hn⟩
  · simp only [dartExample, List.mem_cons, ASTNode.enum.injEq, reduceCtorEq, List.not_mem_nil, or_false, false_or]
    rintro n rfl id' hm
    simp [newNames] at hm
    subst hm
    refine ⟨_, List.mem_cons_self, rfl, fun i hi => ?_⟩
    simp only [List.mem_cons, List.not_mem_nil, or_false] at hi
    rcases hi with rfl | rfl | rfl
    · exact ⟨.empty 3 "Void", by simp, rfl, hn⟩
    · exact ⟨.struct 7 "Disc" [⟨0, "centre", .other "Pt"⟩, ⟨1, "radius", .number "f64" 8⟩], by simp, rfl,
        sameTys_mk hP (sameTys_mk (.builtin _ rfl) hn)⟩
    · exact ⟨.tuple 1 "Box" [⟨0, .other "Pt"⟩, ⟨1, .bool "bool"⟩], by simp, rfl,
        sameTys_mk hP (sameTys_mk (.builtin _ rfl) hn)⟩

theorem renamable_of_portable {S S' : List ASTNode} {t : TypeId} (h : Portable S t) : Renamable S S' t := by
  cases h with
  | int => exact .builtin _ rfl
  | num => exact .builtin _ rfl
  | bool => exact .builtin _ rfl
  | other id => exact .name id
  | list id => exact .list id

theorem dartExample_renamable (S' : List ASTNode) : RenamableSchema dartExample S' :=
  ⟨fun n hn f hf => renamable_of_portable (dartExample_portable.fields n hn f hf),
   fun n hn i hi f hf => renamable_of_portable (dartExample_portable.payloads n hn i hi f hf)⟩

/-- Lists of numbers and lists of lists, which are not portable, are covered as well. -/
example : Renamable dartExample renamedExample (.generic "Vec" [.integer "u8" 1 false]) ∧
    Renamable dartExample renamedExample (.generic "Vec" [.generic "Vec" [.other "Point"]]) ∧
    Renamable dartExample renamedExample (.char "char") :=
  ⟨.lists _ (by decide) (by decide), .lists _ (by decide) (by decide), .builtin _ rfl⟩

/-- Non-vacuity of C93: a rectangle is a box up to names; what the one writes, the other reads. -/
example : ∃ P P' v' bs d d', Dart.Emits testExt dartExample P ∧ Dart.Emits testExt renamedExample P' ∧
    SameVal LE.dart.wire newNames (dartSchema dartExample) (dartSchema renamedExample) (.other "Shape") (.other "Form") dRect v' ∧
    Represents testExt dartExample (.other "Shape") dRect d ∧ Represents testExt renamedExample (.other "Form") v' d' ∧
    Dart.Writes LE.dart P .into (.other "Shape") d bs ∧ Dart.Reads LE.dart P' (.other "Form") (bs ++ [42]) d' [42] := by
  obtain ⟨P, P', hP, hP', h⟩ := C93_dart testExt LE.dart LE.dart_lawful newNames dartExample renamedExample dartExample_ready
    renamedExample_ready (dartExample_renamable _) renamedExample_same
  obtain ⟨h1, h2⟩ := h (.other "Shape") (.other "Form") (.name "Shape") (.declared _ _ (by decide) (by simp [newNames]))
    (.name "Shape") dartExample_free (Dart.declared_free renamedExample_ready.named (by decide))
  obtain ⟨v', hv⟩ := h1 dRect dRect_hasTy
  obtain ⟨bs, w, -, ⟨d, hd, -⟩, ⟨d', hd', hr⟩, -⟩ := h2 dRect v' hv
  exact ⟨P, P', v', bs, d, d', hP, hP', hv, hd, hd', w .into d hd, hr [42]⟩

/-- A circle of `dartExample`. -/
def rCircle : Val := .enum "Shape" "Circle" [("0", .struct "Point" [("name", .ext "String" 3), ("x_pos", .int (-7)),
  ("path", .list 0 [])]), ("1", .num 5)]

/-- The same disc of `renamedExample`. -/
def rDisc : Val := .enum "Form" "Disc" [("centre", .struct "Pt" [("label", .ext "String" 3), ("left", .int (-7)),
  ("trail", .list 0 [])]), ("radius", .num 5)]

theorem rCircle_same : SameVal LE.rust.wire newNames dartExample renamedExample (.other "Shape") (.other "Form") rCircle rDisc := by
  have h0 : SameVals LE.rust.wire newNames dartExample renamedExample [.generic "Vec" [.other "Point"]] [.generic "Vec" [.other "Pt"]]
      [.list 0 []] [.list 0 []] :=
    .list "Vec" _ _ 0 [] [] [] [] (by simp [LE.rust, LE.wire]) (by simp [LE.rust, LE.wire, pick])
      (by simp [LE.rust, LE.wire, pick]) .nil .nil
  have h1 : SameVals LE.rust.wire newNames dartExample renamedExample
      [.other "String", .integer "i32" 4 true, .generic "Vec" [.other "Point"]]
      [.other "String", .integer "i32" 4 true, .generic "Vec" [.other "Pt"]]
      [.ext "String" 3, .int (-7), .list 0 []] [.ext "String" 3, .int (-7), .list 0 []] :=
    .library "String" _ (by decide) (by decide) (by decide +kernel) (.builtin _ _ (by simp [LeafVal]) h0)
  have h2 : SameVals LE.rust.wire newNames dartExample renamedExample [.number "f64" 8] [.number "f64" 8] [.num 5] [.num 5] :=
    .builtin _ _ (by simp [LeafVal]) .nil
  have h3 := SameVals.struct (W := LE.rust.wire) (M := newNames) (S := dartExample) (S' := renamedExample)
    ⟨"Point", [⟨0, "name", .other "String"⟩, ⟨1, "x_pos", .integer "i32" 4 true⟩,
      ⟨2, "path", .generic "Vec" [.other "Point"]⟩], true, true⟩
    ⟨"Pt", [⟨0, "label", .other "String"⟩, ⟨1, "left", .integer "i32" 4 true⟩,
      ⟨2, "trail", .generic "Vec" [.other "Pt"]⟩], true, true⟩ _ _
    (by simp [dartExample]) (by simp [renamedExample]) (by simp [newNames]) h1 h2
  exact SameVals.enum (W := LE.rust.wire) (M := newNames) (S := dartExample) (S' := renamedExample)
    ⟨"Shape", [.empty 3 "None", .tuple 7 "Circle" [⟨0, .other "Point"⟩, ⟨1, .number "f64" 8⟩],
      .struct 1 "Rect" [⟨0, "a", .other "Point"⟩, ⟨1, "b", .bool "bool"⟩]]⟩
    ⟨"Form", [.tuple 1 "Box" [⟨0, .other "Pt"⟩, ⟨1, .bool "bool"⟩],
      .struct 7 "Disc" [⟨0, "centre", .other "Pt"⟩, ⟨1, "radius", .number "f64" 8⟩], .empty 3 "Void", .empty 9 "More"]⟩
    (.tuple 7 "Circle" [⟨0, .other "Point"⟩, ⟨1, .number "f64" 8⟩])
    (.struct 7 "Disc" [⟨0, "centre", .other "Pt"⟩, ⟨1, "radius", .number "f64" 8⟩]) _ _
    (by simp [dartExample]) (by simp [renamedExample]) (by simp [newNames]) (by simp) (by simp) rfl h3 .nil

/-- And in Rust: the circle of one is the disc of the other. -/
example : ∃ P P' bs, Emits dartExample P ∧ Emits renamedExample P' ∧ Writes LE.rust P (.other "Shape") rCircle bs ∧
    Reads LE.rust P' (.other "Form") (bs ++ [42]) rDisc [42] := by
  obtain ⟨P, P', hP, hP', h⟩ := C93_rust LE.rust LE.rust_lawful newNames dartExample renamedExample dartExample_accepted
    renamedExample_accepted dartExample_rust.1 renamedExample_rust.1 dartExample_rust.2 renamedExample_rust.2
    dartExample_distinct renamedExample_ready.distinct renamedExample_same
  obtain ⟨bs, h1, -, h2⟩ := (h (.other "Shape") (.other "Form") (.name "Shape") (.name "Form")
    (.declared _ _ (by decide) (by simp [newNames]))).2 rCircle rDisc rCircle_same
  exact ⟨P, P', bs, hP, hP', h1, (h2 [42]).2⟩

/-- Between the languages: what Dart writes for a rectangle, Rust reads as a box. -/
example : ∃ P R bs d v v', Dart.Emits testExt dartExample P ∧ Rust.Emits renamedExample R ∧
    Represents testExt dartExample (.other "Shape") dRect d ∧ Dart.Writes LE.dart P .into (.other "Shape") d bs ∧
    SameVal LE.rust.wire newNames dartExample renamedExample (.other "Shape") (.other "Form") v v' ∧
    Rust.Reads LE.rust R (.other "Form") bs v' [] := by
  obtain ⟨bs, he⟩ := Dart.hasTys_enc LE.dart_lawful dartExample_named (Dart.plain_of_accepted dartExample_accepted).types
    dartExample_numbers dRect_hasTy [.other "Shape"] rfl (by simp [Dart.Sized])
  obtain ⟨d, hd, -⟩ := (Dart.enc_read_one LE.dart_lawful (Dart.plain_of_accepted dartExample_accepted) dartExample_named
    dartExample_defaults dartExample_distinct dartExample_free he).1
  obtain ⟨P, R, hP, hR, h⟩ := C93_dart_to_rust testExt LE.rust LE.rust_lawful LE.dart LE.dart_lawful LE.agree newNames
    dartExample renamedExample dartExample_ready dartExample_wellNamed dartExample_noClash dartExample_portable
    renamedExample_accepted renamedExample_rust.1 renamedExample_ready.distinct renamedExample_same
  obtain ⟨bs, v, v', h1, -, h2, h3⟩ := h (.other "Shape") (.other "Form") (.name "Shape") (.name "Form")
    (.declared _ _ (by decide) (by simp [newNames])) (.other "Shape" (.inl (by decide))) dartExample_free dRect d dRect_hasTy hd
  exact ⟨P, R, bs, d, v, v', hP, hR, hd, h1 _, h2, by simpa using h3 []⟩

/-! ## What renaming cannot do

Fields are paired by their place: two fields of the same type that trade places are not noticed, and their values
are taken for each other. -/

/-- `struct P { x: i32, y: i32 }` -/
def xyFields : List ASTNode := [.struct ⟨"P", [⟨0, "x", .integer "i32" 4 true⟩, ⟨1, "y", .integer "i32" 4 true⟩], true, true⟩]

/-- `struct P { y: i32, x: i32 }` -/
def yxFields : List ASTNode := [.struct ⟨"P", [⟨0, "y", .integer "i32" 4 true⟩, ⟨1, "x", .integer "i32" 4 true⟩], true, true⟩]

theorem xyFields_ok : Accepted xyFields ∧ WellNamed xyFields ∧ NoWriterClash xyFields ∧ DistinctNumbers xyFields := by
  refine ⟨⟨[.kwStruct, .id "P", .sym '{', .id "x", .sym ':', .id "i32", .sym ',', .id "y", .sym ':', .id "i32", .sym '}', .eof], rfl⟩,
    ⟨by decide, by decide, by simp [xyFields, fieldsOf], by simp [xyFields], by simp [xyFields], by simp [xyFields]⟩,
    by simp [NoWriterClash, xyFields], by simp [DistinctNumbers, xyFields]⟩

theorem yxFields_ok : Accepted yxFields ∧ WellNamed yxFields ∧ NoWriterClash yxFields ∧ DistinctNumbers yxFields := by
  refine ⟨⟨[.kwStruct, .id "P", .sym '{', .id "y", .sym ':', .id "i32", .sym ',', .id "x", .sym ':', .id "i32", .sym '}', .eof], rfl⟩,
    ⟨by decide, by decide, by simp [yxFields, fieldsOf], by simp [yxFields], by simp [yxFields], by simp [yxFields]⟩,
    by simp [NoWriterClash, yxFields], by simp [DistinctNumbers, yxFields]⟩

/-- **C93, swapped fields.** Code generated before two fields of the same type trade places writes values that code
generated afterwards reads without complaint, with the values of the two fields exchanged. -/
theorem C93_swapped (rt : Runtime) (hrt : rt.Lawful) : ∃ P P', Emits xyFields P ∧ Emits yxFields P' ∧
    ∀ a b : Int, -(2 ^ 31) ≤ a ∧ a < 2 ^ 31 → -(2 ^ 31) ≤ b ∧ b < 2 ^ 31 →
      ∃ bs, Writes rt P (.other "P") (.struct "P" [("x", .int a), ("y", .int b)]) bs ∧
        ∀ r, Reads rt P' (.other "P") (bs ++ r) (.struct "P" [("y", .int a), ("x", .int b)]) r := by
  obtain ⟨a1, a2, a3, a4⟩ := xyFields_ok
  obtain ⟨b1, b2, b3, b4⟩ := yxFields_ok
  obtain ⟨P, P', hP, hP', h⟩ := C93_rust rt hrt (fun a b => a = b) xyFields yxFields a1 b1 a2 b2 a3 b3 a4 b4
    ⟨by
      simp only [xyFields, List.mem_singleton, ASTNode.struct.injEq]
      rintro n rfl id' rfl
      exact ⟨_, List.mem_singleton_self _, rfl, sameTys_mk (.builtin _ rfl) (sameTys_mk (.builtin _ rfl) ⟨rfl, by simp⟩)⟩,
     by simp [xyFields]⟩
  refine ⟨P, P', hP, hP', fun a b ha hb => ?_⟩
  obtain ⟨bs, h1, -, h2⟩ := (h (.other "P") (.other "P") (.name "P") (.name "P") (.declared _ _ (by decide) rfl)).2
    (.struct "P" [("x", .int a), ("y", .int b)]) (.struct "P" [("y", .int a), ("x", .int b)])
    (SameVals.struct (S := xyFields) (S' := yxFields) ⟨"P", [⟨0, "x", .integer "i32" 4 true⟩, ⟨1, "y", .integer "i32" 4 true⟩], true, true⟩
      ⟨"P", [⟨0, "y", .integer "i32" 4 true⟩, ⟨1, "x", .integer "i32" 4 true⟩], true, true⟩ [.int a, .int b] [.int a, .int b]
      (by simp [xyFields]) (by simp [yxFields]) rfl (.builtin _ _ ha (.builtin _ _ hb .nil)) .nil)
  exact ⟨bs, h1, fun r => (h2 r).2⟩

end TPB.Props
