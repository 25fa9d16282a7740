/-
Property theorems about versions of a schema: C55.
-/
import Verif.Spec.Evolution
import Verif.Props.DartCodec
namespace TPB.Props
open Spec Rust

/-! ## Facts about `Extends` -/

theorem mem_pick {α : Type} {xs : List α} {is : List Nat} {ys : List α} (h : pick xs is = some ys) : ∀ y ∈ ys, y ∈ xs := by
  induction is generalizing ys with
  | nil => cases h; simp
  | cons i is ih =>
    simp only [pick] at h
    split at h
    · rename_i x r hx hr
      cases h
      intro y hy
      rcases List.mem_cons.1 hy with rfl | hy
      · exact List.mem_of_getElem? hx
      · exact ih hr y hy
    · cases h

theorem Extends.names {S S' : List ASTNode} (h : Extends S S') {id : String} (hi : id ∈ typeNames S) : id ∈ typeNames S' := by
  obtain ⟨d, hd, e⟩ := List.mem_filterMap.1 hi
  cases d with
  | struct n =>
    cases e
    obtain ⟨n', hn', e, -⟩ := h.struct n hd
    exact List.mem_filterMap.2 ⟨_, hn', by simp [e]⟩
  | enum n =>
    cases e
    obtain ⟨n', hn', e, -⟩ := h.enum n hd
    exact List.mem_filterMap.2 ⟨_, hn', by simp [e]⟩
  | _ => cases e

/-- The layout of a value is the same in the later version. -/
theorem enc_extends {W : Wire} {S S' : List ASTNode} (hE : Extends S S') {ts : List TypeId} {vs : List Val} {bs : Bytes}
    (h : Enc W S ts vs bs) : (∀ t ∈ ts, KeepsMeaning S S' t) → Enc W S' ts vs bs := by
  induction h with
  | nil => exact fun _ => .nil
  | leaf t p v b ts vs bs hp hv _ ih => exact fun hk => .leaf t p v b ts vs bs hp hv (ih (fun t ht => hk t (by simp [ht])))
  | struct n fvs b ts vs bs hn _ _ ih1 ih2 =>
    intro hk
    obtain ⟨n', hn', e1, e2⟩ := hE.struct n hn
    have h1 := ih1 (fun t ht id hi => hE.fresh _ hn t ht id hi)
    rw [← e1, ← e2]
    rw [← e2] at h1
    exact .struct n' fvs b ts vs bs hn' h1 (ih2 (fun t ht => hk t (by simp [ht])))
  | enum n i tag pvs b ts vs bs hn hi htag _ _ ih1 ih2 =>
    intro hk
    obtain ⟨n', hn', e1, e2⟩ := hE.enum n hn
    have h1 := ih1 (fun t ht id hid => hE.fresh _ hn t (List.mem_flatMap.2 ⟨i, hi, ht⟩) id hid)
    rw [← e1]
    exact .enum n' i tag pvs b ts vs bs hn' (e2 i hi) htag h1 (ih2 (fun t ht => hk t (by simp [ht])))
  | list c gs shape hd its items b ts vs bs hh hp _ _ ih1 ih2 =>
    intro hk
    refine .list c gs shape hd its items b ts vs bs hh hp (ih1 (fun t ht id hi hm => ?_))
      (ih2 (fun t ht => hk t (by simp [ht])))
    exact hk (.generic c gs) (by simp) id hi (.argument (mem_pick hp t ht) hm)
  | ext id v b ts vs bs hid hv _ ih =>
    intro hk
    refine .ext id v b ts vs bs (fun hm => ?_) hv (ih (fun t ht => hk t (by simp [ht])))
    exact hk (.other id) (by simp) id ⟨hm, hid⟩ .other

/-! ## C55, Rust -/

/-- **C55, Rust.** Let `S'` be a later version of `S`.  For every value of the old version, the code generated for
the old version and the code generated for the new version write the same bytes, and both read them back as that
value, whatever follows. -/
theorem C55_rust (rt : Runtime) (hrt : rt.Lawful) (S S' : List ASTNode) (hA : Accepted S) (hA' : Accepted S')
    (hN : WellNamed S) (hN' : WellNamed S') (hW : NoWriterClash S) (hW' : NoWriterClash S') (hD : DistinctNumbers S)
    (hD' : DistinctNumbers S') (hE : Extends S S') :
    ∃ P P', Emits S P ∧ Emits S' P' ∧ ∀ (t : TypeId), WFType t → KeepsMeaning S S' t → ∀ v, HasTy rt.wire S t v →
      ∃ bs, Writes rt P t v bs ∧ Writes rt P' t v bs ∧
        ∀ r, Reads rt P t (bs ++ r) v r ∧ Reads rt P' t (bs ++ r) v r := by
  refine ⟨_, _, emits_genProg S hA, emits_genProg S' hA', fun t ht hk v hv => ?_⟩
  obtain ⟨bs, he⟩ := hasTys_enc hrt.wire hN (typesOk_of_wf hA.wf) hv (by simpa using ht)
  have he' := enc_extends hE he (by simpa using hk)
  exact ⟨bs, enc_writes hA hN hW ht he, enc_writes hA' hN' hW' ht he',
    fun r => ⟨enc_reads hrt hA hN hD ht he r, enc_reads hrt hA' hN' hD' ht he' r⟩⟩

/-- **C55, Rust: new variants.** A value of a variant whose number is not used in the old version, written by new
code, is rejected by old code. -/
theorem C55_rust_new_variant (rt : Runtime) (hrt : rt.Lawful) (S S' : List ASTNode) (hA : Accepted S)
    (hA' : Accepted S') (hN : WellNamed S) (hN' : WellNamed S') (hW' : NoWriterClash S') :
    ∃ P P', Emits S P ∧ Emits S' P' ∧ ∀ n n', .enum n ∈ S → .enum n' ∈ S' → n'.id = n.id → ∀ i ∈ n'.items,
      (∀ j ∈ n.items, j.position ≠ i.position) → ∀ vs, HasTys rt.wire S' ((payload i).map (·.2)) vs →
      ∃ bs, Writes rt P' (.other n'.id) (.enum n'.id i.id (named (payload i) vs)) bs ∧
        ∀ r, ReadPanics rt P (.other n.id) (bs ++ r) := by
  obtain ⟨P, hP, h⟩ := C23_rust_undeclared_number rt hrt S hA hN
  obtain ⟨P', hP', h'⟩ := C22_enum_layout rt hrt S' hA' hN' hW'
  refine ⟨P, P', hP, hP', fun n n' hn hn' e i hi hj vs hv => ?_⟩
  obtain ⟨tag, bs, hw, -, ht, -⟩ := h' n' hn' i hi vs hv
  refine ⟨tag ++ bs, hw, fun r => ?_⟩
  rw [List.append_assoc]
  exact h n hn i.position hj tag ht (bs ++ r)

/-! ## C55, Dart -/

theorem typeNames_dart (S : List ASTNode) : typeNames (dartSchema S) = typeNames S := by
  induction S with
  | nil => rfl
  | cons d S ih =>
    simp only [typeNames, dartSchema] at ih
    cases d <;> simp [typeNames, dartSchema, viewDecl, ih]

theorem fieldsOf_view (n : StructNode) :
    fieldsOf { n with fields := n.fields.map viewField } = (fieldsOf n).map (fun f => (f.1, dartView f.2)) := by
  simp [fieldsOf, viewField]

theorem payload_view (i : EnumItem) : payload (viewItem i) = (payload i).map (fun f => (f.1, dartView f.2)) := by
  cases i with
  | tuple p id vs =>
    simp only [payload, viewItem]
    apply List.ext_getElem <;> simp [viewTup]
  | _ => simp [payload, viewItem, viewField]

/-- A name that is new, not one of Dart's own and not generic is mentioned in the Dart type only if it is
mentioned in the type. -/
theorem mentions_view {id : String} (h1 : id ∉ dartElems) (h2 : '<' ∉ id.toList) {t : TypeId}
    (h : Mentions id (dartView t)) : Mentions id t := by
  have key : ∀ c gs, ¬ Mentions id (.other (dartGeneric c gs)) := by
    intro c gs hm
    cases hm
    apply h2
    simp [dartGeneric]
  cases t with
  | integer a b c => cases h
  | number a b => cases h
  | bool a => cases h
  | char a => cases h
  | other a => cases h; exact .other
  | generic c gs =>
    match gs with
    | [] => exact absurd h (key _ _)
    | [g] =>
      simp only [dartView] at h
      split at h
      · cases h with
        | container => subst_vars; exact .container
        | argument hm hm2 =>
          simp only [List.mem_singleton] at hm
          subst hm
          generalize e : dartElem g = a at hm2
          cases hm2
          refine .argument (List.mem_singleton.2 rfl) ?_
          cases g with
          | other b => simp [dartElem] at e; subst e; exact .other
          | generic b hs =>
            simp only [dartElem] at e
            split at e
            · subst e; exact absurd (by decide) h1
            · subst e; exact .container
          | _ => simp only [dartElem] at e; subst e; exact absurd (by decide) h1
      · exact absurd h (key _ _)
    | _ :: _ :: _ => exact absurd h (key _ _)

theorem keeps_view {x : Ext} {S S' : List ASTNode} (hN : DartNamed x S') (hF : ∀ id, IsNew S S' id → id ∉ dartElems)
    {t : TypeId} (h : KeepsMeaning S S' t) : KeepsMeaning (dartSchema S) (dartSchema S') (dartView t) := by
  intro id hi hm
  simp only [IsNew, typeNames_dart] at hi
  exact h id hi (mentions_view (hF id hi) (hN.plain id hi.1) hm)

theorem extends_view {x : Ext} {S S' : List ASTNode} (hN : DartNamed x S') (hF : ∀ id, IsNew S S' id → id ∉ dartElems)
    (h : Extends S S') : Extends (dartSchema S) (dartSchema S') where
  struct := by
    intro n hn
    obtain ⟨d, hd, e⟩ := List.mem_map.1 hn
    cases d <;> simp only [viewDecl, reduceCtorEq, ASTNode.struct.injEq] at e
    rename_i m
    subst e
    obtain ⟨m', hm', e1, e2⟩ := h.struct m hd
    exact ⟨_, List.mem_map.2 ⟨_, hm', rfl⟩, e1, by rw [fieldsOf_view, fieldsOf_view, e2]⟩
  enum := by
    intro n hn
    obtain ⟨d, hd, e⟩ := List.mem_map.1 hn
    cases d <;> simp only [viewDecl, reduceCtorEq, ASTNode.enum.injEq] at e
    rename_i m
    subst e
    obtain ⟨m', hm', e1, e2⟩ := h.enum m hd
    refine ⟨_, List.mem_map.2 ⟨_, hm', rfl⟩, e1, fun i hi => ?_⟩
    obtain ⟨j, hj, rfl⟩ := List.mem_map.1 hi
    exact List.mem_map.2 ⟨j, e2 j hj, rfl⟩
  fresh := by
    intro d' hd' t ht
    obtain ⟨d, hd, rfl⟩ := List.mem_map.1 hd'
    suffices ∃ u ∈ typesOf d, t = dartView u by
      obtain ⟨u, hu, rfl⟩ := this
      exact keeps_view hN hF (h.fresh d hd u hu)
    cases d with
    | struct n =>
      simp only [viewDecl, typesOf, fieldsOf_view, List.map_map, List.mem_map, Function.comp] at ht
      obtain ⟨f, hf, rfl⟩ := ht
      exact ⟨f.2, List.mem_map.2 ⟨f, hf, rfl⟩, rfl⟩
    | enum n =>
      simp only [viewDecl, typesOf, List.mem_flatMap, List.mem_map] at ht
      obtain ⟨i, ⟨j, hj, rfl⟩, f, hf, rfl⟩ := ht
      rw [payload_view] at hf
      obtain ⟨g, hg, rfl⟩ := List.mem_map.1 hf
      exact ⟨g.2, List.mem_flatMap.2 ⟨j, hj, List.mem_map.2 ⟨g, hg, rfl⟩⟩, rfl⟩
    | _ => simp [viewDecl, typesOf] at ht

/-- What Dart needs of a schema (see C25). -/
structure DartReady (x : Ext) (S : List ASTNode) : Prop where
  accepted : Accepted S
  named : DartNamed x S
  defaults : HasDefaults S
  distinct : DistinctNumbers S
  numbers : ∀ n, .enum n ∈ S → ∀ i ∈ n.items, i.position < 2 ^ 31

/-- **C55, Dart.** Let `S'` be a later version of `S`, and no new type be called like Dart's own list elements.  For
every value of the old version that Dart can represent, both versions write the same bytes, with both codecs, for
every object of theirs that represents the value, and both read them as an object that represents the value,
whatever follows. -/
theorem C55_dart (x : Ext) (rt : Dart.Runtime) (hrt : rt.Lawful) (S S' : List ASTNode) (hS : DartReady x S)
    (hS' : DartReady x S') (hE : Extends S S') (hF : ∀ id, IsNew S S' id → id ∉ dartElems) :
    ∃ P P', Dart.Emits x S P ∧ Dart.Emits x S' P' ∧ ∀ (t : TypeId), WFType t → KeepsMeaning S S' t → LibraryFree S t →
      LibraryFree S' t → ∀ v, DartValue rt S t v → ∃ bs,
        (∀ kd d, Represents x S t v d → Dart.Writes rt P kd t d bs) ∧
        (∀ kd d, Represents x S' t v d → Dart.Writes rt P' kd t d bs) ∧
        (∃ d, Represents x S t v d ∧ ∀ r, Dart.Reads rt P t (bs ++ r) d r) ∧
        (∃ d, Represents x S' t v d ∧ ∀ r, Dart.Reads rt P' t (bs ++ r) d r) ∧
        ∀ old, DartObject x S' t old → ∃ d, Represents x S' t v d ∧ ∀ r, Dart.Emplaces rt P' t old (bs ++ r) d r := by
  have h1 := Dart.plain_of_accepted hS.accepted
  have h2 := Dart.plain_of_accepted hS'.accepted
  refine ⟨_, _, Dart.emits_genProg hS.accepted, Dart.emits_genProg hS'.accepted, fun t ht hk hf hf' v hv => ?_⟩
  obtain ⟨bs, he⟩ := Dart.hasTys_enc hrt hS.named h1.types hS.numbers hv [t] rfl (by simpa using Dart.sized_of_wf ht)
  have he' := enc_extends (extends_view hS'.named hF hE) he (by simpa using keeps_view hS'.named hF hk)
  exact ⟨bs, fun kd d hd => Dart.enc_write_one h1 hS.named hf he hd kd,
    fun kd d hd => Dart.enc_write_one h2 hS'.named hf' he' hd kd,
    (Dart.enc_read_one hrt h1 hS.named hS.defaults hS.distinct hf he).1,
    (Dart.enc_read_one hrt h2 hS'.named hS'.defaults hS'.distinct hf' he').1,
    (Dart.enc_read_one hrt h2 hS'.named hS'.defaults hS'.distinct hf' he').2⟩

/-! ## A later version of the example -/

theorem mentions_iff (id : String) (t : TypeId) : Mentions id t ↔
    (match t with | .other a => id = a | .generic c gs => id = c ∨ ∃ g ∈ gs, Mentions id g | _ => False) := by
  constructor
  · intro h
    cases h with
    | other => rfl
    | container => exact .inl rfl
    | argument h1 h2 => exact .inr ⟨_, h1, h2⟩
  · cases t with
    | other a => rintro rfl; exact .other
    | generic c gs =>
      rintro (rfl | ⟨g, h1, h2⟩)
      · exact .container
      · exact .argument h1 h2
    | _ => exact False.elim

theorem mentions_other (id a : String) : Mentions id (.other a) ↔ id = a := mentions_iff _ _

theorem mentions_generic (id c : String) (gs : List TypeId) :
    Mentions id (.generic c gs) ↔ id = c ∨ ∃ g ∈ gs, Mentions id g := mentions_iff _ _

theorem mentions_leaf (id : String) {t : TypeId} (h : (builtin? t).isSome) : ¬ Mentions id t := by
  intro hm
  cases hm <;> simp [builtin?] at h

/-- The later version of `dartExample`: declarations and variants in another order, a new struct, and two new
variants that use it. -/
def nextExample : List ASTNode :=
  [.struct ⟨"Edge", [⟨0, "from", .other "Point"⟩, ⟨1, "to", .other "Point"⟩], true, true⟩,
   .enum ⟨"Shape", [.tuple 7 "Circle" [⟨0, .other "Point"⟩, ⟨1, .number "f64" 8⟩], .empty 3 "None",
      .struct 8 "Poly" [⟨0, "edges", .generic "Vec" [.other "Edge"]⟩],
      .struct 1 "Rect" [⟨0, "a", .other "Point"⟩, ⟨1, "b", .bool "bool"⟩], .empty 2 "Dot"]⟩,
   .struct ⟨"Point", [⟨0, "name", .other "String"⟩, ⟨1, "x_pos", .integer "i32" 4 true⟩,
      ⟨2, "path", .generic "Vec" [.other "Point"]⟩], true, true⟩,
   .struct ⟨"Nothing", [], true, true⟩]

theorem nextExample_wf : WFSchema 0 nextExample := by
  have b : ∀ n, WFType (typeOfName n) := .name
  have h1 : WFType (.integer "i32" 4 true) := b "i32"
  have h2 : WFType (.number "f64" 8) := b "f64"
  have h3 : WFType (.other "Point") := b "Point"
  have h4 : WFType (.other "String") := b "String"
  have h5 : WFType (.bool "bool") := b "bool"
  have h6 : WFType (.generic "Vec" [.other "Point"]) := .generic _ _ (by simp) (by simpa using h3)
  have h7 : WFType (.other "Edge") := b "Edge"
  have h8 : WFType (.generic "Vec" [.other "Edge"]) := .generic _ _ (by simp) (by simpa using h7)
  refine ⟨⟨⟨.inl rfl, by simp; exact h3⟩, rfl, rfl⟩, ⟨by simp, .inr (by simp [EnumItem.position]), ?_⟩,
    ⟨⟨.inl rfl, by simp; exact ⟨h4, h1, h6⟩⟩, rfl, rfl⟩, ⟨⟨.inl rfl, by simp⟩, rfl, rfl⟩, trivial⟩
  simp [WFItem, WFTups, WFFields, PosOk, h2, h3, h5, h8]

theorem nextExample_accepted : Accepted nextExample := by
  obtain ⟨ts, _, h⟩ := C09_every_schema _ nextExample_wf
  exact ⟨_, h⟩

theorem nextExample_extends : Extends dartExample nextExample where
  struct := by
    simp only [dartExample, List.mem_cons, ASTNode.struct.injEq, reduceCtorEq, List.not_mem_nil, or_false, false_or]
    rintro n (rfl | rfl)
    · exact ⟨⟨"Point", [⟨0, "name", .other "String"⟩, ⟨1, "x_pos", .integer "i32" 4 true⟩,
        ⟨2, "path", .generic "Vec" [.other "Point"]⟩], true, true⟩, by simp [nextExample], rfl, rfl⟩
    · exact ⟨⟨"Nothing", [], true, true⟩, by simp [nextExample], rfl, rfl⟩
  enum := by
    simp only [dartExample, List.mem_cons, ASTNode.enum.injEq, reduceCtorEq, List.not_mem_nil, or_false, false_or]
    rintro n rfl
    exact ⟨_, List.mem_cons_of_mem _ List.mem_cons_self, rfl, by simp⟩
  fresh := by
    intro d hd t ht id hi hm
    have hid : id = "Edge" := by
      obtain ⟨h1, h2⟩ := hi
      simp only [nextExample, dartExample, typeNames, List.filterMap_cons, List.filterMap_nil, List.mem_cons,
        List.not_mem_nil, or_false] at h1 h2
      grind
    subst hid
    simp only [dartExample, List.mem_cons, List.not_mem_nil, or_false] at hd
    rcases hd with rfl | rfl | rfl <;> simp [typesOf, fieldsOf, payload] at ht
    · rcases ht with rfl | rfl | rfl <;>
        first | exact mentions_leaf _ rfl hm | simp [mentions_other, mentions_generic] at hm
    · rcases ht with rfl | rfl | rfl | rfl <;>
        first | exact mentions_leaf _ rfl hm | simp [mentions_other, mentions_generic] at hm

theorem nextExample_new {id : String} (hi : IsNew dartExample nextExample id) : id = "Edge" := by
  obtain ⟨h1, h2⟩ := hi
  simp only [nextExample, dartExample, typeNames, List.filterMap_cons, List.filterMap_nil, List.mem_cons,
    List.not_mem_nil, or_false] at h1 h2
  grind

theorem nextExample_keeps : KeepsMeaning dartExample nextExample (.other "Shape") := by
  intro id hi hm
  obtain rfl := nextExample_new hi
  simp [mentions_other] at hm

theorem nextExample_ready : DartReady testExt nextExample where
  accepted := nextExample_accepted
  named := {
    classes := by decide +kernel
    fields := by simp [nextExample, dartFieldNames]; decide +kernel
    variants := by simp [nextExample, EnumItem.id]; decide +kernel
    payloads := by simp [nextExample, dartPayloadNames]; decide +kernel
    plain := by decide +kernel
    lists := by decide +kernel
    structLib := by simp [nextExample, fieldsOf, LibraryFree, dartElem]; decide +kernel
    enumLib := by
      have h : "Point" ∉ variantClasses nextExample := by decide +kernel
      have h' : "Edge" ∉ variantClasses nextExample := by decide +kernel
      intro n hn i hi f hf
      simp only [nextExample, List.mem_cons, ASTNode.enum.injEq, reduceCtorEq, List.not_mem_nil, or_false, false_or] at hn
      subst hn
      simp only [List.mem_cons, List.not_mem_nil, or_false] at hi
      rcases hi with rfl | rfl | rfl | rfl | rfl <;> simp [payload] at hf
      · rcases hf with rfl | rfl
        · exact h
        · trivial
      · subst hf
        simpa [LibraryFree, dartElem] using h'
      · rcases hf with rfl | rfl
        · exact h
        · trivial }
  defaults := {
    finite := ⟨fun s => if s = "Point" ∨ s = "Nothing" then 0 else 1, by
      simp [nextExample, declName, directTypes, fieldsOf, payload, typeNames]⟩
    inhabited := by simp [nextExample, payload] }
  distinct := by simp [DistinctNumbers, nextExample, EnumItem.position]
  numbers := by simp [nextExample, EnumItem.position]

theorem dartExample_ready : DartReady testExt dartExample :=
  ⟨dartExample_accepted, dartExample_named, dartExample_defaults, dartExample_distinct, dartExample_numbers⟩

/-- Non-vacuity of C55: a rectangle written by old code is read by new code, and the other way round. -/
example : ∃ P P' bs d d', Dart.Emits testExt dartExample P ∧ Dart.Emits testExt nextExample P' ∧
    Represents testExt dartExample (.other "Shape") dRect d ∧ Represents testExt nextExample (.other "Shape") dRect d' ∧
    Dart.Writes LE.dart P .into (.other "Shape") d bs ∧ Dart.Reads LE.dart P' (.other "Shape") (bs ++ [42]) d' [42] ∧
    Dart.Writes LE.dart P' .into (.other "Shape") d' bs ∧ Dart.Reads LE.dart P (.other "Shape") (bs ++ [42]) d [42] := by
  obtain ⟨P, P', hP, hP', h⟩ := C55_dart testExt LE.dart LE.dart_lawful dartExample nextExample dartExample_ready
    nextExample_ready nextExample_extends (fun id hi => by rw [nextExample_new hi]; decide)
  obtain ⟨bs, h1, h2, ⟨d, hd, h3⟩, ⟨d', hd', h4⟩, -⟩ := h (.other "Shape") (.name "Shape") nextExample_keeps dartExample_free
    (Dart.declared_free nextExample_ready.named (by decide)) dRect dRect_hasTy
  exact ⟨P, P', bs, d, d', hP, hP', hd, hd', h1 .into d hd, h4 [42], h2 .into d' hd', h3 [42]⟩

/-- What Rust needs of the two versions. -/
theorem dartExample_rust : WellNamed dartExample ∧ NoWriterClash dartExample := by
  refine ⟨⟨by decide, by decide, by simp [dartExample, fieldsOf], by simp [dartExample, EnumItem.id], ?_,
    by simp [dartExample, EnumItem.position]⟩, ?_⟩
  all_goals
    simp only [NoWriterClash, dartExample, List.mem_cons, ASTNode.enum.injEq, reduceCtorEq, List.not_mem_nil, or_false, false_or]
    rintro n rfl p id fs h
    simp at h
    obtain ⟨rfl, rfl, rfl⟩ := h
    decide

theorem nextExample_rust : WellNamed nextExample ∧ NoWriterClash nextExample := by
  refine ⟨⟨by decide, by decide, by simp [nextExample, fieldsOf], by simp [nextExample, EnumItem.id], ?_,
    by simp [nextExample, EnumItem.position]⟩, ?_⟩
  all_goals
    simp only [NoWriterClash, nextExample, List.mem_cons, ASTNode.enum.injEq, reduceCtorEq, List.not_mem_nil, or_false, false_or]
    rintro n rfl p id fs h
    simp at h
    rcases h with ⟨rfl, rfl, rfl⟩ | ⟨rfl, rfl, rfl⟩ <;> decide

/-- Non-vacuity of C55 for Rust: the old circle is written and read alike, the new polygon is rejected by old code. -/
example : ∃ P P', Emits dartExample P ∧ Emits nextExample P' ∧
    (∃ bs, Writes LE.rust P (.other "Shape") (.enum "Shape" "None" []) bs ∧
      Reads LE.rust P' (.other "Shape") (bs ++ [42]) (.enum "Shape" "None" []) [42]) ∧
    ∃ Q Q' bs, Emits dartExample Q ∧ Emits nextExample Q' ∧
      Writes LE.rust Q' (.other "Shape") (.enum "Shape" "Poly" [("edges", .list 0 [])]) bs ∧
      ReadPanics LE.rust Q (.other "Shape") (bs ++ [42]) := by
  obtain ⟨P, P', hP, hP', h⟩ := C55_rust LE.rust LE.rust_lawful dartExample nextExample dartExample_accepted
    nextExample_accepted dartExample_rust.1 nextExample_rust.1 dartExample_rust.2 nextExample_rust.2 dartExample_distinct
    nextExample_ready.distinct nextExample_extends
  obtain ⟨bs, h1, -, h2⟩ := h (.other "Shape") (.name "Shape") nextExample_keeps (.enum "Shape" "None" [])
    (.enum ⟨"Shape", [.empty 3 "None", .tuple 7 "Circle" [⟨0, .other "Point"⟩, ⟨1, .number "f64" 8⟩],
      .struct 1 "Rect" [⟨0, "a", .other "Point"⟩, ⟨1, "b", .bool "bool"⟩]]⟩ (.empty 3 "None") [] [] []
      (by simp [dartExample]) (by simp) .nil .nil)
  refine ⟨P, P', hP, hP', ⟨bs, h1, (h2 [42]).2⟩, ?_⟩
  obtain ⟨Q, Q', hQ, hQ', h⟩ := C55_rust_new_variant LE.rust LE.rust_lawful dartExample nextExample dartExample_accepted
    nextExample_accepted dartExample_rust.1 nextExample_rust.1 nextExample_rust.2
  obtain ⟨bs, h1, h2⟩ := h ⟨"Shape", [.empty 3 "None", .tuple 7 "Circle" [⟨0, .other "Point"⟩, ⟨1, .number "f64" 8⟩],
      .struct 1 "Rect" [⟨0, "a", .other "Point"⟩, ⟨1, "b", .bool "bool"⟩]]⟩ _ (by simp [dartExample])
    (List.mem_cons_of_mem _ List.mem_cons_self) rfl (.struct 8 "Poly" [⟨0, "edges", .generic "Vec" [.other "Edge"]⟩])
    (by simp) (by simp [EnumItem.position]) [.list 0 []]
    (.list "Vec" [.other "Edge"] 0 [] [] [] [] (by simp [LE.rust, LE.wire]) (by simp [LE.rust, LE.wire, pick]) .nil .nil)
  exact ⟨Q, Q', bs, hQ, hQ', h1, h2 [42]⟩

/-! ## C57: numbers of struct fields -/

theorem sorted_unique {α : Type} (f : α → Nat) : ∀ (l l' : List α), l.Perm l' → l.Pairwise (fun a b => f a < f b) →
    l'.Pairwise (fun a b => f a < f b) → l = l'
  | [], l', h, _, _ => (List.nil_perm.1 h).symm
  | a :: l, [], h, _, _ => by simpa using h
  | a :: l, b :: l', h, h1, h2 => by
    rw [List.pairwise_cons] at h1 h2
    have hab : a = b := by
      have ha : a ∈ b :: l' := h.subset (by simp)
      have hb : b ∈ a :: l := h.symm.subset (by simp)
      rcases List.mem_cons.1 ha with e | ha
      · exact e
      · rcases List.mem_cons.1 hb with e | hb
        · exact e.symm
        · have := h1.1 b hb
          have := h2.1 a ha
          omega
    subst hab
    rw [sorted_unique f l l' (h.cons_inv) h1.2 h2.2]

/-- **C57**, the part that is true: a struct whose fields are declared in the order of their numbers is written as
its fields in the order of their numbers. -/
theorem C57_ascending_partial (rt : Runtime) (hrt : rt.Lawful) (S : List ASTNode) (hA : Accepted S) (hN : WellNamed S)
    (hW : NoWriterClash S) :
    ∃ P, Emits S P ∧ ∀ (n : StructNode), .struct n ∈ S → n.fields.Pairwise (fun f g => f.position < g.position) →
      ∀ (sorted : List StructField), sorted.Perm n.fields → sorted.Pairwise (fun f g => f.position < g.position) →
      ∀ (vs : List Val), HasTys rt.wire S (sorted.map (·.typeId)) vs →
      ∃ bs, Writes rt P (.other n.id) (.struct n.id ((sorted.map (·.name)).zip vs)) bs ∧
        WritesEach rt P (sorted.map (·.typeId)) vs bs := by
  obtain ⟨P, hP, h⟩ := C22_struct_layout rt hrt S hA hN hW
  refine ⟨P, hP, fun n hn h1 sorted h2 h3 vs hv => ?_⟩
  obtain rfl := sorted_unique (·.position) _ _ h2 h3 h1
  have e : (fieldsOf n).map (·.2) = n.fields.map (·.typeId) := by simp [fieldsOf]
  have := h n hn vs (by rwa [e])
  rw [e] at this
  simpa [named, fieldsOf, Function.comp_def] using this

/-- `struct P { #[1] a: u8, #[2] b: u8 }` -/
def numbered : List ASTNode := [.struct ⟨"P", [⟨1, "a", .integer "u8" 1 false⟩, ⟨2, "b", .integer "u8" 1 false⟩], true, true⟩]

/-- `struct P { #[2] b: u8, #[1] a: u8 }` -/
def reordered : List ASTNode := [.struct ⟨"P", [⟨2, "b", .integer "u8" 1 false⟩, ⟨1, "a", .integer "u8" 1 false⟩], true, true⟩]

theorem numbered_accepted : Accepted numbered ∧ Accepted reordered := by
  have h : WFType (.integer "u8" 1 false) := .name "u8"
  constructor
  · obtain ⟨ts, _, h⟩ := C09_every_schema numbered (by simp [numbered, WFSchema, WFDecl, WFFields, PosOk, h])
    exact ⟨_, h⟩
  · obtain ⟨ts, _, h⟩ := C09_every_schema reordered (by simp [reordered, WFSchema, WFDecl, WFFields, PosOk, h])
    exact ⟨_, h⟩

/-- **C57** is false in general: the numbers of fields are ignored.  Two versions of a struct with the same fields
with the same numbers, declared in another order: the bytes of a value written by the code of one version are read
as another value by the code of the other one, without any failure. -/
theorem C57_reordered_fields : Accepted numbered ∧ Accepted reordered ∧
    Emits numbered (genProg numbered) ∧ Emits reordered (genProg reordered) ∧
    ∃ bs, Writes LE.rust (genProg numbered) (.other "P") (.struct "P" [("a", .int 1), ("b", .int 2)]) bs ∧
      Reads LE.rust (genProg reordered) (.other "P") bs (.struct "P" [("b", .int 1), ("a", .int 2)]) [] ∧
      ¬ Writes LE.rust (genProg reordered) (.other "P") (.struct "P" [("b", .int 2), ("a", .int 1)]) bs := by
  refine ⟨numbered_accepted.1, numbered_accepted.2, emits_genProg _ numbered_accepted.1, emits_genProg _ numbered_accepted.2,
    [1, 2], ⟨3, fun k hk => ?_⟩, ⟨3, fun k hk => ?_⟩, ?_⟩
  · obtain ⟨k, rfl⟩ : ∃ j, k = j + 3 := ⟨k - 3, by omega⟩
    rfl
  · obtain ⟨k, rfl⟩ : ∃ j, k = j + 3 := ⟨k - 3, by omega⟩
    rfl
  · have : Writes LE.rust (genProg reordered) (.other "P") (.struct "P" [("b", .int 2), ("a", .int 1)]) [2, 1] := by
      refine ⟨3, fun k hk => ?_⟩
      obtain ⟨k, rfl⟩ : ∃ j, k = j + 3 := ⟨k - 3, by omega⟩
      rfl
    intro h
    have := Writes.unique h this
    simp at this

/-- The hypotheses of `C57_ascending_partial` hold for `numbered`. -/
example : ∃ P, Emits numbered P ∧ ∃ bs, Writes LE.rust P (.other "P") (.struct "P" [("a", .int 1), ("b", .int 2)]) bs ∧
    WritesEach LE.rust P [.integer "u8" 1 false, .integer "u8" 1 false] [.int 1, .int 2] bs := by
  obtain ⟨P, hP, h⟩ := C57_ascending_partial LE.rust LE.rust_lawful numbered numbered_accepted.1
    ⟨by decide, by decide, by simp [numbered, fieldsOf], by simp [numbered], by simp [numbered], by simp [numbered]⟩
    (by simp [NoWriterClash, numbered])
  exact ⟨P, hP, h _ (List.mem_singleton_self _) (by simp) _ (List.Perm.refl _) (by simp) [.int 1, .int 2]
    (.leaf _ _ _ _ (show (0 : Int) ≤ 1 ∧ (1 : Int) < 2 ^ 8 by decide) (.leaf _ _ _ _ (show (0 : Int) ≤ 2 ∧ (2 : Int) < 2 ^ 8 by decide) .nil))⟩

end TPB.Props
