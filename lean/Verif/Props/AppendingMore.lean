/-
C95, continued: variants with further fields at the end, and longer values inside others.
-/
import Verif.Props.Appending
namespace TPB.Props
open Spec Renaming

theorem enc_enum {W : Wire} {S : List ASTNode} {n : EnumNode} {i : EnumItem} {tag b : Bytes} {pvs : List Val} (hn : .enum n ∈ S)
    (hi : i ∈ n.items) (ht : W.prim "u32" (.int i.position) = some tag) (h : Enc W S ((payload i).map (·.2)) pvs b) :
    Enc W S [.other n.id] [.enum n.id i.id (named (payload i) pvs)] (tag ++ b) := by
  simpa using Enc.enum n i tag pvs b [] [] [] hn hi ht h .nil

theorem declared_enum {S : List ASTNode} {n : EnumNode} (h : .enum n ∈ S) : n.id ∈ typeNames S :=
  List.mem_filterMap.2 ⟨_, h, rfl⟩

/-- **C95, variants in Rust.** The same as `C95_rust` for a variant of an enum: `i` of `S` is `i'` of `S'` with further fields
at the end of its payload. -/
theorem C95_rust_variant (rt : Rust.Runtime) (hrt : rt.Lawful) (M : String → String → Prop) (S S' : List ASTNode) (hA : Accepted S)
    (hA' : Accepted S') (hN : WellNamed S) (hN' : WellNamed S') (hW : Rust.NoWriterClash S) (hW' : Rust.NoWriterClash S')
    (hD : DistinctNumbers S) (hD' : DistinctNumbers S') (hS : SameShape M S S') :
    ∃ P P', Rust.Emits S P ∧ Rust.Emits S' P' ∧ ∀ n n' i i' ts es, .enum n ∈ S → .enum n' ∈ S' → i ∈ n.items → i' ∈ n'.items →
      MorePayload M S S' i i' ts es → ∀ vs us, HasTys rt.wire S ts vs → HasTys rt.wire S es us →
      ∃ vs' b e, SameVals rt.wire M S S' ts ((payload i').map (·.2)) vs vs' ∧
        Rust.Writes rt P (.other n.id) (.enum n.id i.id (named (payload i) (vs ++ us))) (b ++ e) ∧
        Rust.Writes rt P' (.other n'.id) (.enum n'.id i'.id (named (payload i') vs')) b ∧
        (∀ r, Rust.Reads rt P' (.other n'.id) (b ++ e ++ r) (.enum n'.id i'.id (named (payload i') vs')) (e ++ r)) ∧
        ∀ r, Rust.Reads rt P (.other n.id) (b ++ (e ++ r)) (.enum n.id i.id (named (payload i) (vs ++ us))) r := by
  refine ⟨_, _, emits_genProg S hA, emits_genProg S' hA', fun n n' i i' ts es hn hn' hi hi' hm vs us hv hu => ?_⟩
  obtain ⟨vs', hs⟩ := same_total hS hv _ hm.same
  have hwf : ∀ t ∈ ts ++ es, WFType t := by
    rw [← hm.types]
    intro t ht
    obtain ⟨f, hf, rfl⟩ := List.mem_map.1 ht
    exact (Rust.typesOk_of_wf hA.wf).2 n hn i hi f hf
  obtain ⟨b, h1, h2⟩ := same_enc (total_rust hrt.wire hN (Rust.typesOk_of_wf hA.wf)) hs (fun t ht => hwf t (by simp [ht]))
  obtain ⟨e, h3⟩ := Rust.hasTys_enc hrt.wire hN (Rust.typesOk_of_wf hA.wf) hu (fun t ht => hwf t (by simp [ht]))
  have h4 : Enc rt.wire S ((payload i).map (·.2)) (vs ++ us) (b ++ e) := by
    rw [hm.types]
    exact Enc.append h1 h3
  obtain ⟨tag, ht⟩ : ∃ tag, rt.wire.prim "u32" (.int i.position) = some tag := by
    exact (total_rust hrt.wire hN (Rust.typesOk_of_wf hA.wf)).tag n hn i hi
  have ht' : rt.wire.prim "u32" (.int i'.position) = some tag := by rw [hm.number, ht]
  have hw := wf_declared hN (declared_enum hn)
  have hw' := wf_declared hN' (declared_enum hn')
  have e1 := enc_enum hn hi ht h4
  have e2 := enc_enum hn' hi' ht' h2
  rw [← List.append_assoc] at e1
  exact ⟨vs', tag ++ b, e, hs, enc_writes hA hN hW hw e1, enc_writes hA' hN' hW' hw' e2,
    fun r => by simpa using enc_reads hrt hA' hN' hD' hw' e2 (e ++ r),
    fun r => by simpa using enc_reads hrt hA hN hD hw e1 r⟩

theorem enc_dart_enum {W : Wire} {S : List ASTNode} {n : EnumNode} {i : EnumItem} {tag b : Bytes} {pvs : List Val} (hn : .enum n ∈ S)
    (hi : i ∈ n.items) (ht : W.prim "u32" (.int i.position) = some tag)
    (h : Enc W (dartSchema S) (((payload i).map (·.2)).map dartView) pvs b) :
    Enc W (dartSchema S) [dartView (.other n.id)] [.enum n.id i.id (named (payload i) pvs)] (tag ++ b) := by
  have hp : (viewItem i).position = i.position := by cases i <;> rfl
  have hd : (viewItem i).id = i.id := by cases i <;> rfl
  have := enc_enum (n := { n with items := n.items.map viewItem }) (i := viewItem i) (List.mem_map.2 ⟨_, hn, rfl⟩)
    (List.mem_map.2 ⟨_, hi, rfl⟩) (W := W) (tag := tag) (pvs := pvs) (b := b) (by rw [hp, ht])
    (by rw [payload_view]; simpa [Function.comp_def, dartSchema] using h)
  rw [payload_view, hd] at this
  simpa [named, Function.comp_def, dartSchema, dartView] using this

/-- **C95, variants in Dart.** -/
theorem C95_dart_variant (x : Ext) (rt : Dart.Runtime) (hrt : rt.Lawful) (M : String → String → Prop) (S S' : List ASTNode)
    (hR : DartReady x S) (hR' : DartReady x S') (hP : RenamableSchema S S') (hS : SameShape M S S') :
    ∃ P P', Dart.Emits x S P ∧ Dart.Emits x S' P' ∧ ∀ n n' i i' ts es, .enum n ∈ S → .enum n' ∈ S' → i ∈ n.items → i' ∈ n'.items →
      MorePayload M S S' i i' ts es → LibraryFree S (.other n.id) → LibraryFree S' (.other n'.id) →
      ∀ vs us, HasTys rt.wire (dartSchema S) (ts.map dartView) vs → HasTys rt.wire (dartSchema S) (es.map dartView) us →
      ∃ vs' b e, SameVals rt.wire M (dartSchema S) (dartSchema S') (ts.map dartView) (((payload i').map (·.2)).map dartView) vs vs' ∧
        (∀ kd d, Represents x S (.other n.id) (.enum n.id i.id (named (payload i) (vs ++ us))) d →
          Dart.Writes rt P kd (.other n.id) d (b ++ e)) ∧
        (∀ kd d, Represents x S' (.other n'.id) (.enum n'.id i'.id (named (payload i') vs')) d → Dart.Writes rt P' kd (.other n'.id) d b) ∧
        (∃ d, Represents x S' (.other n'.id) (.enum n'.id i'.id (named (payload i') vs')) d ∧
          ∀ r, Dart.Reads rt P' (.other n'.id) (b ++ e ++ r) d (e ++ r)) ∧
        ∃ d, Represents x S (.other n.id) (.enum n.id i.id (named (payload i) (vs ++ us))) d ∧
          ∀ r, Dart.Reads rt P (.other n.id) (b ++ (e ++ r)) d r := by
  have p1 := Dart.plain_of_accepted hR.accepted
  have p2 := Dart.plain_of_accepted hR'.accepted
  refine ⟨_, _, Dart.emits_genProg hR.accepted, Dart.emits_genProg hR'.accepted,
    fun n n' i i' ts es hn hn' hi hi' hm hf hf' vs us hv hu => ?_⟩
  have hty : ∀ t ∈ ts ++ es, ∃ f ∈ payload i, f.2 = t := by
    rw [← hm.types]
    exact fun t ht => List.mem_map.1 ht
  have hsz : ∀ t ∈ ts ++ es, Dart.Sized t := fun t ht => by
    obtain ⟨f, hf, rfl⟩ := hty t ht
    exact Dart.sized_of_wf ((Rust.typesOk_of_wf hR.accepted.wf).2 n hn i hi f hf)
  have hrn : ∀ t ∈ ts, Renamable S S' t := fun t ht => by
    obtain ⟨f, hf, rfl⟩ := hty t (by simp [ht])
    exact hP.payloads n hn i hi f hf
  obtain ⟨vs', hs⟩ := same_total (sameShape_view hR.named hR'.named hS hP) hv _ (sameTys_mapView hR.named hR'.named hm.same hrn)
  obtain ⟨b, h1, h2⟩ := same_enc (total_dart hrt (Rust.typesOk_of_wf hR.accepted.wf) hR.numbers) hs (fun t ht => by
    obtain ⟨t0, h0, rfl⟩ := List.mem_map.1 ht
    exact ⟨t0, rfl, hsz t0 (by simp [h0])⟩)
  obtain ⟨e, h3⟩ := Dart.hasTys_enc hrt hR.named p1.types hR.numbers hu es rfl (fun t ht => hsz t (by simp [ht]))
  have h4 : Enc rt.wire (dartSchema S) (((payload i).map (·.2)).map dartView) (vs ++ us) (b ++ e) := by
    rw [hm.types, List.map_append]
    exact Enc.append h1 h3
  obtain ⟨tag, ht⟩ : ∃ tag, rt.wire.prim "u32" (.int i.position) = some tag := by
    have hp : (viewItem i).position = i.position := by cases i <;> rfl
    rw [← hp]
    exact (total_dart hrt (Rust.typesOk_of_wf hR.accepted.wf) hR.numbers).tag { n with items := n.items.map viewItem }
      (List.mem_map.2 ⟨_, hn, rfl⟩) (viewItem i) (List.mem_map.2 ⟨_, hi, rfl⟩)
  have ht' : rt.wire.prim "u32" (.int i'.position) = some tag := by rw [hm.number, ht]
  have e1 := enc_dart_enum hn hi ht h4
  have e2 := enc_dart_enum hn' hi' ht' h2
  rw [← List.append_assoc] at e1
  obtain ⟨d', hd', hr'⟩ := (Dart.enc_read_one hrt p2 hR'.named hR'.defaults hR'.distinct hf' e2).1
  obtain ⟨d, hd, hr⟩ := (Dart.enc_read_one hrt p1 hR.named hR.defaults hR.distinct hf e1).1
  exact ⟨vs', tag ++ b, e, hs, fun kd d hd => Dart.enc_write_one p1 hR.named hf e1 hd kd,
    fun kd d hd => Dart.enc_write_one p2 hR'.named hf' e2 hd kd,
    ⟨d', hd', fun r => by simpa using hr' (e ++ r)⟩, d, hd, fun r => by simpa using hr r⟩

/-! ## Examples, and longer values inside others -/

def evShort : EnumNode := ⟨"Event", [.empty 0 "Idle", .struct 1 "Moved" [⟨0, "x", .integer "i64" 8 true⟩]]⟩
def evLong : EnumNode :=
  ⟨"Event", [.empty 0 "Idle", .struct 1 "Moved" [⟨0, "x", .integer "i64" 8 true⟩, ⟨1, "y", .integer "i64" 8 true⟩]]⟩
def ptShort : StructNode := ⟨"Point", [⟨0, "x", .integer "i64" 8 true⟩], true, true⟩
def ptLong : StructNode := ⟨"Point", [⟨0, "x", .integer "i64" 8 true⟩, ⟨1, "y", .integer "i64" 8 true⟩], true, true⟩
def lineNode : StructNode := ⟨"Line", [⟨0, "from", .other "Point"⟩, ⟨1, "to", .other "Point"⟩], true, true⟩

/-- `enum Event { Idle, Moved { x: i64 } } struct Point { x: i64 } struct Line { from: Point, to: Point }` -/
def lineShort : List ASTNode := [.enum evShort, .struct ptShort, .struct lineNode]

/-- `enum Event { Idle, Moved { x: i64, y: i64 } } struct Point { x: i64, y: i64 } struct Line { from: Point, to: Point }` -/
def lineLong : List ASTNode := [.enum evLong, .struct ptLong, .struct lineNode]

theorem lineShort_wf : WFSchema 0 lineShort := by
  have h1 : WFType (.integer "i64" 8 true) := .name "i64"
  have h2 : WFType (.other "Point") := .name "Point"
  refine ⟨⟨by simp [evShort], .inl rfl, ?_⟩, ⟨⟨.inl rfl, ?_⟩, rfl, rfl⟩, ⟨⟨.inl rfl, ?_⟩, rfl, rfl⟩, trivial⟩
  · simp [evShort, WFItem, h1]
    exact ⟨.inl rfl, by simp [h1]⟩
  · simp [ptShort, h1]
  · simp [lineNode, h2]

theorem lineLong_wf : WFSchema 0 lineLong := by
  have h1 : WFType (.integer "i64" 8 true) := .name "i64"
  have h2 : WFType (.other "Point") := .name "Point"
  refine ⟨⟨by simp [evLong], .inl rfl, ?_⟩, ⟨⟨.inl rfl, ?_⟩, rfl, rfl⟩, ⟨⟨.inl rfl, ?_⟩, rfl, rfl⟩, trivial⟩
  · simp [evLong, WFItem, h1]
    exact ⟨.inl rfl, by simp [h1]⟩
  · simp [ptLong, h1]
  · simp [lineNode, h2]

theorem lineShort_ready : DartReady testExt lineShort where
  accepted := by
    obtain ⟨ts, _, h⟩ := C09_every_schema _ lineShort_wf
    exact ⟨_, h⟩
  named := {
    classes := by decide +kernel
    fields := by simp [lineShort, ptShort, lineNode, dartFieldNames]; decide +kernel
    variants := by simp [lineShort, evShort, EnumItem.id]; decide +kernel
    payloads := by simp [lineShort, evShort, dartPayloadNames]
    plain := by decide +kernel
    lists := by decide +kernel
    structLib := by simp [lineShort, ptShort, lineNode, fieldsOf, LibraryFree]; decide +kernel
    enumLib := by simp [lineShort, evShort, payload, LibraryFree] }
  defaults := {
    finite := ⟨fun s => if s = "Line" then 1 else 0, by
      simp [lineShort, evShort, ptShort, lineNode, declName, directTypes, fieldsOf, payload, typeNames]⟩
    inhabited := by simp [lineShort, evShort, payload] }
  distinct := by simp [DistinctNumbers, lineShort, evShort, EnumItem.position]
  numbers := by simp [lineShort, evShort, EnumItem.position]

theorem lineLong_ready : DartReady testExt lineLong where
  accepted := by
    obtain ⟨ts, _, h⟩ := C09_every_schema _ lineLong_wf
    exact ⟨_, h⟩
  named := {
    classes := by decide +kernel
    fields := by simp [lineLong, ptLong, lineNode, dartFieldNames]; decide +kernel
    variants := by simp [lineLong, evLong, EnumItem.id]; decide +kernel
    payloads := by simp [lineLong, evLong, dartPayloadNames]; decide +kernel
    plain := by decide +kernel
    lists := by decide +kernel
    structLib := by simp [lineLong, ptLong, lineNode, fieldsOf, LibraryFree]; decide +kernel
    enumLib := by
      simp [lineLong, evLong, payload, LibraryFree]
      rintro a b (⟨-, rfl⟩ | ⟨-, rfl⟩) <;> trivial }
  defaults := {
    finite := ⟨fun s => if s = "Line" then 1 else 0, by
      simp [lineLong, evLong, ptLong, lineNode, declName, directTypes, fieldsOf, payload, typeNames]⟩
    inhabited := by simp [lineLong, evLong, payload] }
  distinct := by simp [DistinctNumbers, lineLong, evLong, EnumItem.position]
  numbers := by simp [lineLong, evLong, EnumItem.position]

theorem lineShort_named : WellNamed lineShort where
  types := by decide
  builtins := by decide
  fields := by simp [lineShort, ptShort, lineNode, fieldsOf]
  variants := by simp [lineShort, evShort, EnumItem.id]
  payloads := by
    simp [lineShort, evShort]
    rintro _ _ _ - - rfl
    decide
  numbers := by simp [lineShort, evShort, EnumItem.position]

theorem lineLong_named : WellNamed lineLong where
  types := by decide
  builtins := by decide
  fields := by simp [lineLong, ptLong, lineNode, fieldsOf]
  variants := by simp [lineLong, evLong, EnumItem.id]
  payloads := by
    simp [lineLong, evLong]
    rintro _ _ _ - - rfl
    decide
  numbers := by simp [lineLong, evLong, EnumItem.position]

theorem lineShort_clash : Rust.NoWriterClash lineShort := by
  simp [Rust.NoWriterClash, lineShort, evShort]
  rintro _ _ _ - - rfl
  decide
theorem lineLong_clash : Rust.NoWriterClash lineLong := by
  simp [Rust.NoWriterClash, lineLong, evLong]
  rintro _ _ _ - - rfl
  decide

theorem lines_same (S S' : List ASTNode) : SameShape (fun _ _ => False) S S' := ⟨fun _ _ _ h => h.elim, fun _ _ _ h => h.elim⟩

theorem moved_more : MorePayload (fun _ _ => False) lineLong lineShort (.struct 1 "Moved" [⟨0, "x", .integer "i64" 8 true⟩, ⟨1, "y", .integer "i64" 8 true⟩])
    (.struct 1 "Moved" [⟨0, "x", .integer "i64" 8 true⟩]) [.integer "i64" 8 true] [.integer "i64" 8 true] where
  number := rfl
  types := rfl
  same := sameTys_mk (.builtin _ rfl) ⟨rfl, by simp⟩

/-- `C95_rust_variant`: `Moved { x: 5, y: 6 }` is read as `Moved { x: 5 }`. -/
example : ∃ P P' b e v, Rust.Emits lineLong P ∧ Rust.Emits lineShort P' ∧
    Rust.Writes LE.rust P (.other "Event") (.enum "Event" "Moved" [("x", .int 5), ("y", .int 6)]) (b ++ e) ∧
    Rust.Reads LE.rust P' (.other "Event") (b ++ e ++ [42]) v (e ++ [42]) := by
  obtain ⟨P, P', h1, h2, h3⟩ := C95_rust_variant LE.rust LE.rust_lawful (fun _ _ => False) lineLong lineShort lineLong_ready.accepted
    lineShort_ready.accepted lineLong_named lineShort_named lineLong_clash lineShort_clash lineLong_ready.distinct
    lineShort_ready.distinct (lines_same _ _)
  obtain ⟨vs', b, e, -, h4, -, h5, -⟩ := h3 evLong evShort _ _ _ _ (by simp [lineLong]) (by simp [lineShort]) (by simp [evLong])
    (by simp [evShort]) moved_more [.int 5] [.int 6] (.leaf _ _ _ _ (by simp [LeafVal]) .nil) (.leaf _ _ _ _ (by simp [LeafVal]) .nil)
  exact ⟨P, P', b, e, _, h1, h2, h4, h5 [42]⟩

example : ∃ P P' b e, Dart.Emits testExt lineLong P ∧ Dart.Emits testExt lineShort P' ∧
    ∃ d d', Dart.Writes LE.dart P .into (.other "Event") d (b ++ e) ∧ Dart.Reads LE.dart P' (.other "Event") (b ++ e ++ [42]) d' (e ++ [42]) := by
  obtain ⟨P, P', h1, h2, h3⟩ := C95_dart_variant testExt LE.dart LE.dart_lawful (fun _ _ => False) lineLong lineShort lineLong_ready
    lineShort_ready
    { fields := by
        intro n hn f hf
        simp only [lineLong, List.mem_cons, ASTNode.struct.injEq, reduceCtorEq, List.not_mem_nil, or_false, false_or] at hn
        rcases hn with rfl | rfl
        · simp only [ptLong, fieldsOf, List.map_cons, List.map_nil, List.mem_cons, List.not_mem_nil, or_false] at hf
          rcases hf with rfl | rfl <;> exact .builtin _ rfl
        · simp only [lineNode, fieldsOf, List.map_cons, List.map_nil, List.mem_cons, List.not_mem_nil, or_false] at hf
          rcases hf with rfl | rfl <;> exact .name _
      payloads := by
        intro n hn i hi f hf
        simp only [lineLong, List.mem_cons, ASTNode.enum.injEq, reduceCtorEq, List.not_mem_nil, or_false] at hn
        subst hn
        simp only [evLong, List.mem_cons, List.not_mem_nil, or_false] at hi
        rcases hi with rfl | rfl
        · simp [payload] at hf
        · simp only [payload, List.map_cons, List.map_nil, List.mem_cons, List.not_mem_nil, or_false] at hf
          rcases hf with rfl | rfl <;> exact .builtin _ rfl } (lines_same _ _)
  obtain ⟨vs', b, e, -, h4, -, ⟨d', -, h5⟩, d, h6, -⟩ := h3 evLong evShort _ _ _ _ (by simp [lineLong]) (by simp [lineShort])
    (by simp [evLong]) (by simp [evShort]) moved_more (Dart.declared_free lineLong_ready.named (by decide))
    (Dart.declared_free lineShort_ready.named (by decide)) [.int 5] [.int 6]
    (.leaf (.integer "Int64" 8 true) _ _ _ (by simp [LeafVal]) .nil) (.leaf (.integer "Int64" 8 true) _ _ _ (by simp [LeafVal]) .nil)
  exact ⟨P, P', b, e, h1, h2, d, d', h4 .into d h6, h5 [42]⟩

/-- **C95, longer values inside others.** This holds only where the longer value is the last thing that is read: a
`Line` whose points have an added `y` is read by the old code, without an error, as a line whose second point is the `y`
of the first. -/
theorem C95_nested (rt : Rust.Runtime) (hrt : rt.Lawful) : ∃ P P', Rust.Emits lineLong P ∧ Rust.Emits lineShort P' ∧
    ∀ x y x' y' : Int, (∀ i ∈ [x, y, x', y'], LeafVal (.integer "i64" 8 true) (.int i)) → ∃ b e,
      Rust.Writes rt P (.other "Line") (.struct "Line" [("from", .struct "Point" [("x", .int x), ("y", .int y)]),
        ("to", .struct "Point" [("x", .int x'), ("y", .int y')])]) (b ++ e) ∧
      ∀ r, Rust.Reads rt P' (.other "Line") (b ++ e ++ r)
        (.struct "Line" [("from", .struct "Point" [("x", .int x)]), ("to", .struct "Point" [("x", .int y)])]) (e ++ r) := by
  refine ⟨_, _, emits_genProg _ lineLong_ready.accepted, emits_genProg _ lineShort_ready.accepted, fun x y x' y' h => ?_⟩
  have tot : ∀ i ∈ [x, y, x', y'], ∃ b, rt.wire.prim "i64" (.int i) = some b := fun i hi =>
    hrt.wire.prim_total (.integer "i64" 8 true) "i64" (.int i) (.name "i64") rfl (h i hi)
  obtain ⟨b1, h1⟩ := tot x (by simp)
  obtain ⟨b2, h2⟩ := tot y (by simp)
  obtain ⟨b3, h3⟩ := tot x' (by simp)
  obtain ⟨b4, h4⟩ := tot y' (by simp)
  have e1 : Enc rt.wire lineLong [.other "Line"] [.struct "Line" [("from", .struct "Point" [("x", .int x), ("y", .int y)]),
        ("to", .struct "Point" [("x", .int x'), ("y", .int y')])]] (b1 ++ (b2 ++ []) ++ (b3 ++ (b4 ++ []) ++ [])) :=
    enc_struct (n := lineNode) (fvs := [.struct "Point" [("x", .int x), ("y", .int y)], .struct "Point" [("x", .int x'), ("y", .int y')]])
      (by simp [lineLong]) (Enc.struct ptLong [.int x, .int y] _ _ _ _ (by simp [lineLong]) (.leaf _ _ _ _ _ _ _ rfl h1 (.leaf _ _ _ _ _ _ _ rfl h2 .nil))
        (Enc.struct ptLong [.int x', .int y'] _ _ _ _ (by simp [lineLong]) (.leaf _ _ _ _ _ _ _ rfl h3 (.leaf _ _ _ _ _ _ _ rfl h4 .nil)) .nil))
  have e2 : Enc rt.wire lineShort [.other "Line"] [.struct "Line" [("from", .struct "Point" [("x", .int x)]),
        ("to", .struct "Point" [("x", .int y)])]] (b1 ++ [] ++ (b2 ++ [] ++ [])) :=
    enc_struct (n := lineNode) (fvs := [.struct "Point" [("x", .int x)], .struct "Point" [("x", .int y)]])
      (by simp [lineShort]) (Enc.struct ptShort [.int x] _ _ _ _ (by simp [lineShort]) (.leaf _ _ _ _ _ _ _ rfl h1 .nil)
        (Enc.struct ptShort [.int y] _ _ _ _ (by simp [lineShort]) (.leaf _ _ _ _ _ _ _ rfl h2 .nil) .nil))
  refine ⟨b1 ++ b2, b3 ++ b4, ?_, fun r => ?_⟩
  · have := enc_writes lineLong_ready.accepted lineLong_named lineLong_clash (wf_declared lineLong_named (by decide)) e1
    simpa using this
  · have := enc_reads hrt lineShort_ready.accepted lineShort_named lineShort_ready.distinct (wf_declared lineShort_named (by decide)) e2 (b3 ++ b4 ++ r)
    simpa using this

example : ∀ i ∈ [5, -6, 7, 8], LeafVal (.integer "i64" 8 true) (.int i) := by simp [LeafVal]

end TPB.Props
