/- C78: what the generated Rust text says, read without the trees it was printed from. -/
import Verif.Proofs.RustReaderGen
import Verif.Props.RustCodec
import Verif.Props.RustDefault
import Verif.Props.RustTyping
import Verif.Props.Names
namespace TPB.Props
open Spec Rust RustReader

/-- The two sections generated for a schema are read as these types and codecs. -/
def RustSays (S : List ASTNode) (items : List TypeItem) (impls : List Impl) : Prop :=
  ∃ m, RustGen.models S = .ok m ∧ readItems m = some items ∧ readImpls (RustGen.buffers S) = some impls

/-- The program that is read from the two sections generated for a schema. -/
def RustReads (S : List ASTNode) (P : Prog) : Prop :=
  ∃ m, RustGen.models S = .ok m ∧ readProgram m (RustGen.buffers S) = some P

theorem rustSays_iff {S : List ASTNode} (hA : Accepted S) (hR : RustNamed S) (items : List TypeItem) (impls : List Impl) :
    RustSays S items impls ↔ items = genItems S ∧ impls = genImpls S := by
  have h1 := readItems_gen hA.wf hR 4
  have h2 : readImpls (RustGen.buffers S) = some (genImpls S) := by
    rw [emitted_buffers]
    exact readImpls_gen hA.wf hR 4
  unfold RustSays
  rw [(emitted_models S hA).1, h2]
  constructor
  · rintro ⟨m, hm, h3, h4⟩
    cases hm
    rw [h1] at h3
    cases h3
    cases h4
    exact ⟨rfl, rfl⟩
  · rintro ⟨rfl, rfl⟩
    exact ⟨_, rfl, h1, rfl⟩

theorem rustReads_iff {S : List ASTNode} (hA : Accepted S) (hR : RustNamed S) (P : Prog) :
    RustReads S P ↔ P = genProg S := by
  have h2 : readImpls (RustGen.buffers S) = some (genImpls S) := by
    rw [emitted_buffers]
    exact readImpls_gen hA.wf hR 4
  unfold RustReads readProgram
  rw [(emitted_models S hA).1, h2]
  constructor
  · rintro ⟨m, hm, h3⟩
    cases hm
    rw [readItems_gen hA.wf hR 4] at h3
    simp only [(emitted_models S hA).2, Option.some.injEq] at h3
    exact h3.symm
  · rintro rfl
    refine ⟨_, rfl, ?_⟩
    rw [readItems_gen hA.wf hR 4]
    simp only [(emitted_models S hA).2]
    rfl

/-- **C78 (partial).** The Rust text generated for a schema is read as one program, if the names of the
schema can be names in Rust. Missing: schemas with a keyword as a name, whose text is no Rust (`C59_keyword`). -/
theorem C78_is_read_partial (S : List ASTNode) (hA : Accepted S) (hR : RustNamed S) :
    ∃ items impls, RustSays S items impls ∧ RustReads S ⟨items.map (·.decl), impls⟩ ∧
      (∀ items' impls', RustSays S items' impls' → items' = items ∧ impls' = impls) ∧
      ∀ P, RustReads S P → P = ⟨items.map (·.decl), impls⟩ := by
  have e : (⟨(genItems S).map (·.decl), genImpls S⟩ : Prog) = genProg S := by
    rw [(emitted_models S hA).2]; rfl
  refine ⟨genItems S, genImpls S, (rustSays_iff hA hR _ _).2 ⟨rfl, rfl⟩, ?_, fun _ _ h => (rustSays_iff hA hR _ _).1 h, ?_⟩
  · rw [e]; exact (rustReads_iff hA hR _).2 rfl
  · rw [e]; exact fun P h => (rustReads_iff hA hR P).1 h

theorem sourceAccepted {src : String} {S : List ASTNode} (h : parseSource src = .ok S) : Accepted S := by
  unfold parseSource at h
  split at h
  · simp at h
  · exact ⟨_, h⟩

/-- C78 for source text: whatever text the compiler accepts, the generated Rust is read as one program unless a
type, field or variant is named like a keyword of Rust. -/
theorem C78_source_partial (src : String) (S : List ASTNode) (h : parseSource src = .ok S)
    (hk : ∀ d ∈ S, ∀ w ∈ declWords d, w ∉ rustKeywords) :
    ∃ items impls, RustSays S items impls ∧ ∀ items' impls', RustSays S items' impls' → items' = items ∧ impls' = impls := by
  obtain ⟨items, impls, h1, _, h2, _⟩ := C78_is_read_partial S (sourceAccepted h) (rustNamed_of_source h hk)
  exact ⟨items, impls, h1, h2⟩

/-- **C78 (partial).** The program read from the generated text round-trips every value of every type (C19, C20). -/
theorem C78_round_trip_partial (rt : Runtime) (hrt : rt.Lawful) (S : List ASTNode) (hA : Accepted S) (hR : RustNamed S)
    (hN : WellNamed S) (hW : NoWriterClash S) (hD : DistinctNumbers S) (P : Prog) (hP : RustReads S P)
    (t : TypeId) (ht : WFType t) (v : Val) (hv : HasTy rt.wire S t v) : RoundTrips rt P t v := by
  rw [(rustReads_iff hA hR P).1 hP]
  exact round_trip rt hrt S hA hN hW hD t ht v hv

/-- **C78 (partial).** The program read from the generated text writes a value as the layout says, and as nothing
else (C22). -/
theorem C78_layout_partial (rt : Runtime) (hrt : rt.Lawful) (S : List ASTNode) (hA : Accepted S) (hR : RustNamed S)
    (hN : WellNamed S) (hW : NoWriterClash S) (P : Prog) (hP : RustReads S P)
    (t : TypeId) (ht : WFType t) (v : Val) (hv : HasTy rt.wire S t v) (bs : Bytes) :
    Writes rt P t v bs ↔ Enc rt.wire S [t] [v] bs := by
  rw [(rustReads_iff hA hR P).1 hP]
  constructor
  · intro h
    obtain ⟨bs', he⟩ := hasTys_enc hrt.wire hN (typesOk_of_wf hA.wf) hv (by simpa using ht)
    rw [Writes.unique h (enc_writes hA hN hW ht he)]
    exact he
  · exact enc_writes hA hN hW ht

/-- **C78 (partial).** The program read from the generated text skips values exactly as it reads them (C21). -/
theorem C78_skip_partial (rt : Runtime) (S : List ASTNode) (hA : Accepted S) (hR : RustNamed S) (hN : WellNamed S)
    (P : Prog) (hP : RustReads S P) (id : String) (hid : id ∈ typeNames S) (k count : Nat) (bs : Bytes) :
    skipTy rt P (k + 1) id count bs = readTimes rt P (k + 2) (.other id) count bs := by
  rw [(rustReads_iff hA hR P).1 hP]
  exact rust_skip rt S hA hN id hid k count bs

/-- **C78 (partial).** What the text says about defaults: `T::default()` is the specified default (C46). -/
theorem C78_default_partial (D : Defaults) (S : List ASTNode) (hA : Accepted S) (hR : RustNamed S) (hN : WellNamed S)
    (hC : NoCharFields S) (items : List TypeItem) (impls : List Impl) (h : RustSays S items impls)
    (t : TypeId) (ht : WFType t) (v : Val) : HasDefault D items t v ↔ DefaultOf D S [t] [v] := by
  rw [((rustSays_iff hA hR _ _).1 h).1]
  exact hasDefault_iff hA hN hC ht

/-- **C78 (partial).** What the text says is accepted by rustc exactly when the schema is typable (C59). -/
theorem C78_typed_partial (L : Crates) (S : List ASTNode) (hA : Accepted S) (hR : RustNamed S) (items : List TypeItem)
    (impls : List Impl) (h : RustSays S items impls) : RustTyped L items impls ↔ RustTypable L S := by
  obtain ⟨rfl, rfl⟩ := (rustSays_iff hA hR _ _).1 h
  exact rustTyped_iff hA.wf (accepted_enums hA)

theorem wireSchema_rustNamed : RustNamed wireSchema := by
  have : ∀ d ∈ wireSchema, ∀ w ∈ declWords d, isIdent w = true ∧ ¬ w ∈ rustKeywords := by decide
  exact this

/-- Non-vacuity of C78: the text of the example is read, and the program that is read round-trips a value. -/
example : ∃ P, RustReads wireSchema P ∧ RoundTrips LE.rust P (.other "Shape") rectVal := by
  have h := (rustReads_iff wireSchema_accepted wireSchema_rustNamed _).2 rfl
  exact ⟨_, h, C78_round_trip_partial LE.rust LE.rust_lawful wireSchema wireSchema_accepted wireSchema_rustNamed
    wireSchema_wellNamed wireSchema_noClash wireSchema_distinct _ h _ (.name "Shape") _ rectVal_hasTy⟩

/-- Non-vacuity of C78: what is read type-checks, and it has the declared types in order. -/
example : ∃ items impls, RustSays wireSchema items impls ∧ RustTyped exampleCrates items impls ∧
    items.map (·.decl.id) = ["Point", "Shape", "Nothing"] := by
  have h := (rustSays_iff wireSchema_accepted wireSchema_rustNamed _ _).2 ⟨rfl, rfl⟩
  exact ⟨_, _, h, (C78_typed_partial exampleCrates wireSchema wireSchema_accepted wireSchema_rustNamed _ _ h).2
    wireSchema_typable, rfl⟩

end TPB.Props
