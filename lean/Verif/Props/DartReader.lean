/- C81: what the generated Dart text says, read without the trees it was printed from. -/
import Verif.Proofs.DartReaderGen
import Verif.Props.DartCodec
import Verif.Props.DartTyping
import Verif.Props.RustReader
namespace TPB.Props
open Spec Dart DartReader DartRules

/-- The program that is read from the two sections generated for a schema. -/
def DartReads (x : Ext) (S : List ASTNode) (P : Prog) : Prop :=
  ∃ m b, DartGen.models x S = .ok m ∧ DartGen.buffers x S = .ok b ∧ readProgram m b = some P

theorem dartReads_iff {x : Ext} {S : List ASTNode} (hA : Accepted S) (hR : DartReadable x S) (P : Prog) :
    DartReads x S P ↔ P = genProg x S := by
  obtain ⟨h1, h2⟩ := Dart.prints_genProg (x := x) hA
  have h3 : readProgram (linesText 2 (renderItems (genProg x S).items)) (linesText 2 (joinBlocks ((genProg x S).codecs.map CodecClass.render)))
      = some (genProg x S) := by
    unfold readProgram genProg
    rw [readItems_gen hA.wf hR, readCodecs_gen hA.wf hR]
  unfold DartReads
  rw [h1, h2]
  constructor
  · rintro ⟨m, b, hm, hb, h⟩
    cases hm
    cases hb
    rw [h3] at h
    exact (Option.some.inj h).symm
  · rintro rfl
    exact ⟨_, _, rfl, rfl, h3⟩

/-- **C81 (partial).** The Dart text generated for a schema is read as one program, if the names of the schema can be
names in Dart and no variant has empty parentheses.  Missing: other schemas, whose Dart code is rejected
(`C60_field_name`, `C60_empty_payload`). -/
theorem C81_is_read_partial (x : Ext) (S : List ASTNode) (hA : Accepted S) (hR : DartReadable x S) :
    ∃ P, DartReads x S P ∧ Dart.Emits x S P ∧ ∀ P', DartReads x S P' → P' = P :=
  ⟨_, (dartReads_iff hA hR _).2 rfl, Dart.emits_genProg hA, fun P' h => (dartReads_iff hA hR P').1 h⟩

theorem readable_of_typable {x : Ext} {L : DartLib} {S : List ASTNode} (hT : DartTypable x L S)
    (hk : ∀ d ∈ S, ∀ t ∈ directTypes d, ∀ w ∈ typeWords t, DartName w) : DartReadable x S where
  types := hk
  structs := by
    intro n hn
    have hc : n.id ∈ dartClasses S := by
      have : n.id ∈ typeNames S := List.mem_filterMap.2 ⟨_, hn, rfl⟩
      simp [dartClasses, this]
    have h1 := (hT.names _ hc).1
    refine ⟨⟨h1.1, fun h => h1.2 (List.mem_append_left _ h)⟩, fun f hf => ?_⟩
    obtain ⟨g, hg, rfl⟩ := List.mem_map.1 hf
    exact ((hT.structs n hn).1.names (x.camel g.name, g.typeId) (List.mem_map.2 ⟨g, hg, rfl⟩)).1.1
  enums := by
    intro n hn
    have hc : n.id ∈ dartClasses S := by
      have : n.id ∈ typeNames S := List.mem_filterMap.2 ⟨_, hn, rfl⟩
      simp [dartClasses, this]
    exact (hT.names _ hc).1.1
  variants := by
    intro n hn i hi
    have hc : n.id ++ i.id ∈ dartClasses S := by
      have : n.id ++ i.id ∈ variantClasses S := List.mem_flatMap.2 ⟨_, hn, List.mem_map.2 ⟨i, hi, rfl⟩⟩
      simp [dartClasses, this]
    have h1 := (hT.names _ hc).1
    have hm := (hT.enums n hn).names
    refine ⟨⟨h1.1, fun h => h1.2 (List.mem_append_left _ h)⟩, (hm (x.camel i.id) ?_).1.1, (hm ("to" ++ x.pascal i.id) ?_).1.1.1, fun f hf => ?_⟩
    · simp only [dartMembers, List.mem_cons, List.mem_append, List.mem_map]
      exact .inr (.inl (.inl (.inl ⟨i, hi, rfl⟩)))
    · simp only [dartMembers, List.mem_cons, List.mem_append, List.mem_map]
      exact .inr (.inl (.inl (.inr ⟨i, hi, rfl⟩)))
    · have hl : (dartPayloadNames x i).length = ((payload i).map (·.2)).length := by
        cases i <;> simp [dartPayloadNames, payload]
      have : f ∈ (dartPayload x i).map (·.1) := by
        unfold dartPayload
        rw [List.map_fst_zip (by omega)]
        exact hf
      obtain ⟨g, hg, rfl⟩ := List.mem_map.1 this
      exact ((hT.variants n hn i hi).names g hg).1.1
  payloads := by
    intro n hn p id hi
    obtain ⟨p', id', h⟩ := (hT.enums n hn).inhabited _ hi rfl
    cases h

/-- The words of the types in a declaration are names in it. -/
theorem directTypes_words (d : ASTNode) : ∀ t ∈ directTypes d, ∀ w ∈ typeWords t, w ∈ declWords d := by
  intro t ht w hw
  cases d with
  | struct n =>
    simp only [directTypes, fieldsOf, List.map_map, List.mem_map, Function.comp_apply] at ht
    obtain ⟨f, hf, rfl⟩ := ht
    exact List.mem_cons_of_mem _ (List.mem_append_right _ (List.mem_flatMap.2 ⟨f, hf, hw⟩))
  | enum n =>
    obtain ⟨i, hi, ht⟩ := List.mem_flatMap.1 ht
    refine List.mem_cons_of_mem _ (List.mem_append_right _ (List.mem_flatMap.2 ⟨i, hi, List.mem_flatMap.2 ⟨t, ?_, hw⟩⟩))
    cases i with
    | tuple p id vs => rwa [payload, Rust.map_snd_mapIdx vs] at ht
    | _ => simpa [payload, itemTypes, Function.comp_def] using ht
  | _ => simp [directTypes] at ht

/-- C81 for source text: whatever text the compiler accepts, if its Dart code is accepted (C60) and no field has a type
named like a reserved word of Dart, the generated Dart is read as one program, and this program is accepted. -/
theorem C81_source_partial (x : Ext) (L : DartLib) (src : String) (S : List ASTNode) (h : parseSource src = .ok S)
    (hT : DartTypable x L S) (hk : ∀ d ∈ S, ∀ t ∈ directTypes d, ∀ w ∈ typeWords t, w ∉ dartReserved) :
    ∃ P, DartReads x S P ∧ DartTyped L P.items P.codecs ∧ ∀ P', DartReads x S P' → P' = P := by
  have hA := sourceAccepted h
  have hR := readable_of_typable hT (fun d hd t ht w hw => ⟨isIdent_of w (C79_names_legal src S h d hd w
    (declWords_node d w (directTypes_words d t ht w hw))).1, hk d hd t ht w hw⟩)
  exact ⟨_, (dartReads_iff hA hR _).2 rfl, dart_typed (plain_of_accepted hA) hT, fun P' h => (dartReads_iff hA hR P').1 h⟩

/-- **C81 (partial).** The program read from the generated text is accepted by the Dart compiler (C60). -/
theorem C81_typed_partial (x : Ext) (L : DartLib) (S : List ASTNode) (hA : Accepted S) (hR : DartReadable x S)
    (hT : DartTypable x L S) (P : Prog) (hP : DartReads x S P) : DartTyped L P.items P.codecs := by
  rw [(dartReads_iff hA hR P).1 hP]
  exact dart_typed (plain_of_accepted hA) hT

/-- **C81 (partial).** The program read from the generated text round-trips every value of every type (C25). -/
theorem C81_round_trip_partial (x : Ext) (rt : Runtime) (hrt : rt.Lawful) (S : List ASTNode) (hA : Accepted S)
    (hR : DartReadable x S) (hN : DartNamed x S) (hH : HasDefaults S) (hD : DistinctNumbers S)
    (hB : ∀ n, .enum n ∈ S → ∀ i ∈ n.items, i.position < 2 ^ 31) (P : Prog) (hP : DartReads x S P)
    (t : TypeId) (ht : WFType t) (hf : LibraryFree S t) (v : Val) (hv : DartValue rt S t v) :
    ∃ bs, (∀ d, Represents x S t v d → Writes rt P .into t d bs) ∧
      ∃ d, Represents x S t v d ∧ ∀ r, Reads rt P t (bs ++ r) d r := by
  rw [(dartReads_iff hA hR P).1 hP]
  have hS := plain_of_accepted hA
  obtain ⟨bs, he⟩ := Dart.hasTys_enc hrt hN hS.types hB hv [t] rfl (by simpa using sized_of_wf ht)
  exact ⟨bs, fun d hd => enc_write_one hS hN hf he hd .into, (enc_read_one hrt hS hN hH hD hf he).1⟩

/-- **C81 (partial).** The program read from the generated text writes an object that represents a value as the
layout says, and as nothing else (C25). -/
theorem C81_layout_partial (x : Ext) (rt : Runtime) (hrt : rt.Lawful) (S : List ASTNode) (hA : Accepted S)
    (hR : DartReadable x S) (hN : DartNamed x S) (hB : ∀ n, .enum n ∈ S → ∀ i ∈ n.items, i.position < 2 ^ 31)
    (P : Prog) (hP : DartReads x S P) (t : TypeId) (ht : WFType t) (hf : LibraryFree S t) (v d : Val)
    (hv : DartValue rt S t v) (hd : Represents x S t v d) (kd : Kind) (bs : Bytes) :
    Writes rt P kd t d bs ↔ Enc rt.wire (dartSchema S) [dartView t] [v] bs := by
  rw [(dartReads_iff hA hR P).1 hP]
  have hS := plain_of_accepted hA
  obtain ⟨bs', he⟩ := Dart.hasTys_enc hrt hN hS.types hB hv [t] rfl (by simpa using sized_of_wf ht)
  constructor
  · intro h
    rw [Dart.Writes.unique h (enc_write_one hS hN hf he hd kd)]
    exact he
  · exact fun h => enc_write_one hS hN hf h hd kd

/-- **C81 (partial).** With the program read from the generated text, reading the bytes of a value into an existing object
makes it represent that value (C26). -/
theorem C81_emplace_partial (x : Ext) (rt : Runtime) (hrt : rt.Lawful) (S : List ASTNode) (hA : Accepted S)
    (hR : DartReadable x S) (hN : DartNamed x S) (hH : HasDefaults S) (hD : DistinctNumbers S)
    (hB : ∀ n, .enum n ∈ S → ∀ i ∈ n.items, i.position < 2 ^ 31) (P : Prog) (hP : DartReads x S P)
    (t : TypeId) (ht : WFType t) (hf : LibraryFree S t) (v : Val) (hv : DartValue rt S t v) :
    ∃ bs, (∀ d, Represents x S t v d → Writes rt P .emplace t d bs) ∧
      ∀ old, DartObject x S t old → ∃ d, Represents x S t v d ∧ ∀ r, Emplaces rt P t old (bs ++ r) d r := by
  rw [(dartReads_iff hA hR P).1 hP]
  have hS := plain_of_accepted hA
  obtain ⟨bs, he⟩ := Dart.hasTys_enc hrt hN hS.types hB hv [t] rfl (by simpa using sized_of_wf ht)
  exact ⟨bs, fun d hd => enc_write_one hS hN hf he hd .emplace, (enc_read_one hrt hS hN hH hD hf he).2⟩

/-- **C81 (partial).** The two codecs of the program read from the generated text give the same result (C27). -/
theorem C81_codecs_agree_partial (x : Ext) (rt : Runtime) (S : List ASTNode) (hA : Accepted S) (hR : DartReadable x S)
    (hN : DartNamed x S) (P : Prog) (hP : DartReads x S P) (t : TypeId) (hf : LibraryFree S t) (k : Nat) (d : Val) :
    writeT rt P k .into t d = writeT rt P k .emplace t d := by
  rw [(dartReads_iff hA hR P).1 hP]
  exact write_kind (plain_of_accepted hA) hN k t hf .into .emplace d

/-- **C81 (partial).** The program read from the generated text skips one value as it reads it, if fields whose type is
given by a name come before other fields (C28). -/
theorem C81_skip_partial (x : Ext) (rt : Runtime) (hrt : rt.Lawful) (S : List ASTNode) (hA : Accepted S)
    (hR : DartReadable x S) (hN : DartNamed x S) (hH : HasDefaults S) (hD : DistinctNumbers S) (hO : SkipOrder S)
    (hB : ∀ n, .enum n ∈ S → ∀ i ∈ n.items, i.position < 2 ^ 31) (P : Prog) (hP : DartReads x S P)
    (id : String) (hid : id ∈ typeNames S) (hs : id ≠ "String") (v : Val) (hv : DartValue rt S (.other id) v) :
    ∃ bs d, Represents x S (.other id) v d ∧ ∀ r, Reads rt P (.other id) (bs ++ r) d r ∧
      ∀ kd, Skips rt P (.plain kd id) 1 (bs ++ r) r := by
  rw [(dartReads_iff hA hR P).1 hP]
  have hS := plain_of_accepted hA
  obtain ⟨bs, he⟩ := Dart.hasTys_enc hrt hN hS.types hB hv [.other id] rfl (by simp [Sized])
  obtain ⟨d, h1, h2⟩ := (enc_read_one hrt hS hN hH hD (declared_free hN hid) he).1
  refine ⟨bs, d, h1, fun r => ⟨h2 r, fun kd => ?_⟩⟩
  obtain ⟨N, h3⟩ := skip_declared hS hN hid hrt hD hO kd he hs
  exact ⟨N, fun k hk => h3 k hk r⟩

/-- **C81 (partial).** The program read from the generated text throws on unknown variant numbers (C23). -/
theorem C81_unknown_tag_partial (x : Ext) (rt : Runtime) (S : List ASTNode) (hA : Accepted S) (hR : DartReadable x S)
    (hN : DartNamed x S) (P : Prog) (hP : DartReads x S P) (n : EnumNode) (hn : .enum n ∈ S) (bs : Bytes)
    (h : ∀ v r, rt.readP "Int32" bs = some (v, r) → ∀ i ∈ n.items, v ≠ .int i.position) (k : Nat) :
    readT rt P (k + 1) (.other n.id) bs = .error .throws ∧
      (∀ fs, (readers rt P (k + 1)).empl (.plain .emplace n.id) (.struct n.id fs) bs = .error .throws) ∧
      ∀ kd c, skipC rt P (k + 1) (.plain kd n.id) (c + 1) bs = .error .throws := by
  rw [(dartReads_iff hA hR P).1 hP]
  have hS := plain_of_accepted hA
  exact ⟨read_unknown hS hN hn h k, fun fs => empl_unknown hS hN hn h k fs, fun kd c => skip_unknown hS hN hn h k c kd⟩

/-- **C81 (partial).** What the program read from the generated Rust writes, the program read from the generated Dart reads,
and the other way round (C29). -/
theorem C81_exchange_partial (x : Ext) (rr : Rust.Runtime) (hrr : rr.Lawful) (rt : Runtime) (hrt : rt.Lawful)
    (hG : Agree rr.wire rt.wire) (S : List ASTNode) (hA : Accepted S) (hRR : RustNamed S) (hR : DartReadable x S)
    (hW : WellNamed S) (hC : Rust.NoWriterClash S) (hN : DartNamed x S) (hH : HasDefaults S) (hD : DistinctNumbers S)
    (hp : PortableSchema S) (R : Rust.Prog) (hRp : RustReads S R) (P : Prog) (hP : DartReads x S P)
    (t : TypeId) (ht : WFType t) (hpt : Portable S t) (hf : LibraryFree S t) :
    (∀ v, HasTy rr.wire S t v → ∃ bs u d, Rust.Writes rr R t v bs ∧ Sees S [t] [v] [u] ∧ Represents x S t u d ∧
      ∀ r, Reads rt P t (bs ++ r) d r) ∧
    ∀ u d, DartValue rt S t u → Represents x S t u d → ∃ bs v, (∀ kd, Writes rt P kd t d bs) ∧ HasTy rr.wire S t v ∧
      Sees S [t] [v] [u] ∧ ∀ r, Rust.Reads rr R t (bs ++ r) v r := by
  rw [(dartReads_iff hA hR P).1 hP, (rustReads_iff hA hRR R).1 hRp]
  exact ⟨fun v hv => rust_to_dart hrr hrt hG hA hW hC hN hH hD hp ht hpt hf hv,
    fun u d hu hd => dart_to_rust hrr hrt hG hA hW hN hD hp ht hpt hf hu hd⟩

theorem dartExample_readable : DartReadable testExt dartExample :=
  readable_of_typable dartExample_typable (by
    have : ∀ d ∈ dartExample, ∀ t ∈ directTypes d, ∀ w ∈ typeWords t, isIdent w = true ∧ ¬ w ∈ dartReserved := by
      decide +kernel
    exact this)

/-- Non-vacuity of C81: the text of the example is read, the program that is read is accepted, and it round-trips a value. -/
example : ∃ P bs d, DartReads testExt dartExample P ∧ DartTyped exampleLib P.items P.codecs ∧
    Represents testExt dartExample (.other "Shape") dRect d ∧
    Writes LE.dart P .into (.other "Shape") d bs ∧ Reads LE.dart P (.other "Shape") (bs ++ [42]) d [42] := by
  have h := (dartReads_iff dartExample_accepted dartExample_readable _).2 rfl
  obtain ⟨bs, h1, d, h2, h3⟩ := C81_round_trip_partial testExt LE.dart LE.dart_lawful dartExample dartExample_accepted
    dartExample_readable dartExample_named dartExample_defaults dartExample_distinct dartExample_numbers _ h
    (.other "Shape") (.name "Shape") dartExample_free dRect dRect_hasTy
  exact ⟨_, bs, d, h, C81_typed_partial _ _ _ dartExample_accepted dartExample_readable dartExample_typable _ h, h2, h1 d h2, h3 [42]⟩

end TPB.Props
