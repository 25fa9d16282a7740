/-
C61: from the schema file to the exchange of values.

The earlier properties speak about one part each: the lexer and the parser (C02, C10), the generators (C19, C25,
C29), the sections of a file (C38), the program that reads and writes files (C47, C48).  Here they are put
together: nothing but the contents of files before and after a run occurs in the statements.
-/
import Verif.Spec.EndToEnd
import Verif.Props.Main
import Verif.Props.Mobile
import Verif.Props.DartTyping
import Verif.Props.RustTyping
import Verif.Props.RpcSystem
namespace TPB.Props
open Spec Main Rpc
open Rust (Bufs BufLib User codecAt)

/-! ## What a file holds after a run -/

theorem text_of_files {w : World} {p s : String} (h : w.files p = some (utf8 s)) : w.text p = some s := by
  simp [text_eq, h, decode_utf8]

theorem accepted_of_source {S : List ASTNode} {src : String} (h : SourceOf S src) : Accepted S := by
  have := C10_text_round_trip S src h
  unfold parseSource at this
  split at this
  · cases this
  · exact ⟨_, this⟩

theorem accepts_source {x : Ext} {j : Job} {S : List ASTNode} {src data : String} (h : SourceOf S src)
    (ha : Accepts x j src data) :
    match j.lang with
    | .rust => RustGen.generate x S (!j.skipModels) (!j.skipBuffers) (!j.skipRpc) = .ok data
    | .dart => DartGen.generate x S (!j.skipModels) (!j.skipBuffers) (!j.skipRpc) = .ok data := by
  obtain ⟨ts, S', h1, h2, h3⟩ := ha
  have := C10_text_round_trip S src h
  unfold parseSource at this
  rw [h1] at this
  dsimp only at this
  rw [h2] at this
  injection this with this
  subst this
  exact h3

theorem source_accepts {x : Ext} {j : Job} {S : List ASTNode} {src data : String} (h : SourceOf S src)
    (ha : match j.lang with
    | .rust => RustGen.generate x S (!j.skipModels) (!j.skipBuffers) (!j.skipRpc) = .ok data
    | .dart => DartGen.generate x S (!j.skipModels) (!j.skipBuffers) (!j.skipRpc) = .ok data) :
    Accepts x j src data := by
  have := C10_text_round_trip S src h
  unfold parseSource at this
  split at this
  · cases this
  · rename_i ts hts
    exact ⟨ts, S, hts, this, ha⟩

/-- Every Rust program whose text is the generated text stands in the generated file. -/
theorem rust_file {x : Ext} {S : List ASTNode} {src data : String} {j : Job} {w : World} (hs : SourceOf S src)
    (hj : FullJob j .rust) (ha : Accepts x j src data) (hf : w.files j.output = some (utf8 data)) :
    ∃ uses R, importLines "use " ";" (givenValues S "rust" "use") = some uses ∧
      (j.skipRpc = false → RustGen.rpc S = .ok R) ∧ ∀ P, Rust.Emits S P →
      HoldsRust w j.output (rustHead ++ rustImports (hasMethods S) true (!j.skipRpc) ++ uses ++
        on (hasConsts S) (RustGen.consts x S)) P (on (!j.skipRpc) R) := by
  have h := accepts_source hs ha
  rw [hj.lang, hj.models, hj.buffers] at h
  obtain ⟨uses, M, R, hu, hM, hR, hst⟩ := C38_rust_sections _ _ _ _ _ _ h
  have hM := hM rfl
  refine ⟨uses, R, hu, fun e => hR (by rw [e]; rfl), ?_⟩
  rintro P ⟨⟨⟨items, hi, he⟩, hb⟩, -⟩
  rw [he] at hM
  injection hM with hM
  refine ⟨items, hi, data, text_of_files hf, ?_⟩
  rw [← hM, hb] at hst
  simpa only [on, Bool.not_false, if_true, rustFileText, String.append_assoc] using hst

/-- Every Dart program whose text is the generated text stands in the generated file. -/
theorem dart_file {x : Ext} {S : List ASTNode} {src data : String} {j : Job} {w : World} (hs : SourceOf S src)
    (hj : FullJob j .dart) (ha : Accepts x j src data) (hf : w.files j.output = some (utf8 data)) :
    ∃ uses R, importLines "import '" "';" (givenValues S "dart" "import") = some uses ∧
      (j.skipRpc = false → DartGen.rpcMethods x S = .ok R) ∧ ∀ P, Dart.Emits x S P →
      HoldsDart w j.output (dartHead ++ dartImports (hasMethods S) true (!j.skipRpc) ++ uses ++
        on (hasConsts S) (DartGen.consts x S)) P (on (!j.skipRpc) R) := by
  have h := accepts_source hs ha
  rw [hj.lang, hj.models, hj.buffers] at h
  obtain ⟨uses, M, B, R, hu, hM, hB, hR, hst⟩ := C38_dart_sections _ _ _ _ _ _ h
  have hM := hM rfl
  have hB := hB rfl
  refine ⟨uses, R, hu, fun e => hR (by rw [e]; rfl), ?_⟩
  rintro P ⟨⟨he, hb⟩, -⟩
  rw [he] at hM
  rw [hb] at hB
  injection hM with hM
  injection hB with hB
  refine ⟨data, text_of_files hf, ?_⟩
  rw [← hM, ← hB] at hst
  simpa only [on, Bool.not_false, if_true, dartFileText, String.append_assoc] using hst

/-! ## Batches -/

theorem last_mem {α : Type} [DecidableEq α] {a : α} {l : List α} (h : a ∈ l) :
    ∃ xs ys, l = xs ++ a :: ys ∧ a ∉ ys := by
  induction l with
  | nil => cases h
  | cons b l ih =>
    by_cases ha : a ∈ l
    · obtain ⟨xs, ys, e, hn⟩ := ih ha
      exact ⟨b :: xs, ys, by rw [e]; rfl, hn⟩
    · obtain rfl : a = b := by simpa [ha] using h
      exact ⟨[], l, rfl, ha⟩

/-- After a successful batch, the output file of an undisturbed job holds the text generated from its input
as it was before the batch. -/
theorem batch_file {lib : Lib} {js : List Job} {w w' : World} (h : Batch lib js w .ok w') {j : Job} (hj : j ∈ js)
    (hu : Undisturbed js j) (ho : j.output ≠ "-") :
    ∃ text data, w.text j.input = some text ∧ Accepts lib.ext j text data ∧ w'.files j.output = some (utf8 data) := by
  classical
  obtain ⟨xs, ys, rfl, hn⟩ := last_mem hj
  obtain ⟨w1, text, data, h1, h2, h3, h4⟩ := C48_written lib xs ys j w w' h ho (fun j' h' e => by
    have := hu.2 j' (by simp [h']) e
    exact hn (this ▸ h'))
  refine ⟨text, data, ?_, h3, h4⟩
  rw [← h2]
  unfold World.text
  rw [Batch.untouched h1 j.input (fun j' h' => hu.1 j' (by simp [h']))]

theorem batch_of_yaml {lib : Lib} {path conf dir : String} {d : YamlData} {w w' : World}
    (hconf : w.text path = some conf) (hyaml : lib.yaml conf = some d) (hdir : lib.parent path = some dir)
    (h : Ends lib (.yaml path) w .ok w') : Batch lib (entries dir d) w .ok w' := by
  rcases (C48_batch ..).1 h with ⟨text, d', dir', h1, h2, h3, h4⟩ | ⟨h1, -⟩ | ⟨h1, -⟩
  · rw [hconf] at h1
    injection h1 with h1
    subst h1
    rw [hyaml] at h2
    injection h2 with h2
    subst h2
    rw [hdir] at h3
    injection h3 with h3
    subst h3
    exact h4
  · cases h1
  · cases h1

/-! ## C61 -/

/-- **C61.** When the input file holds a text of a schema, a generation can succeed if and only if the import
directives for its language are strings and, if an RPC section with methods is wanted, the schema has the
strings `id` (and for Dart also `namespace`).  Nothing else about the schema can prevent it. -/
theorem C61_can_succeed (lib : Lib) (j : Job) (w : World) (S : List ASTNode) (src : String)
    (hw : w.text j.input = some src) (hs : SourceOf S src) :
    (∃ w', Ends lib (.generate j) w .ok w') ↔
      match j.lang with
      | .rust => StringEntries S "rust" "use" ∧ (j.skipRpc = false → methodsOf S ≠ [] → HasString S "id")
      | .dart => StringEntries S "dart" "import" ∧
          (j.skipRpc = false → methodsOf S ≠ [] → HasString S "namespace" ∧ HasString S "id") := by
  obtain ⟨ts, hts⟩ := accepted_of_source hs
  have key : (∃ w', Ends lib (.generate j) w .ok w') ↔ ∃ data, Accepts lib.ext j src data := by
    constructor
    · rintro ⟨w', h⟩
      obtain ⟨text, data, h1, h2, -⟩ := (C47_success ..).1 h
      rw [hw] at h1
      injection h1 with h1
      subst h1
      exact ⟨data, h2⟩
    · rintro ⟨data, h⟩
      by_cases ho : j.output = "-"
      · exact ⟨{ w with stdout := w.stdout ++ utf8 data ++ utf8 "\n" },
          (C47_success ..).2 ⟨src, data, hw, h, by simp [OutputDone, ho]⟩⟩
      · exact ⟨_, (C47_success ..).2 ⟨src, data, hw, h, (written_iff j data w _).2 (.inl ⟨ho, rfl⟩)⟩⟩
  rw [key]
  have hb : (!j.skipRpc) = true ↔ j.skipRpc = false := by cases j.skipRpc <;> simp
  cases hl : j.lang with
  | rust =>
    have := C17_rust lib.ext ts S hts (!j.skipModels) (!j.skipBuffers) (!j.skipRpc)
    rw [hb] at this
    rw [← this]
    constructor
    · rintro ⟨d, h⟩; have := accepts_source hs h; rw [hl] at this; exact ⟨d, this⟩
    · rintro ⟨d, h⟩; exact ⟨d, source_accepts hs (by rw [hl]; exact h)⟩
  | dart =>
    have := C17_dart lib.ext ts S hts (!j.skipModels) (!j.skipBuffers) (!j.skipRpc)
    rw [hb] at this
    rw [← this]
    constructor
    · rintro ⟨d, h⟩; have := accepts_source hs h; rw [hl] at this; exact ⟨d, this⟩
    · rintro ⟨d, h⟩; exact ⟨d, source_accepts hs (by rw [hl]; exact h)⟩

/-- **C61, Rust.** A successful generation of Rust code from a schema file leaves an output file that holds a
program with which every value of every type of the schema survives writing and reading. -/
theorem C61_rust_round_trip_partial (lib : Lib) (j : Job) (w w' : World) (S : List ASTNode) (src : String)
    (hw : w.text j.input = some src) (hs : SourceOf S src) (hj : FullJob j .rust)
    (hN : WellNamed S) (hW : Rust.NoWriterClash S) (hD : DistinctNumbers S)
    (h : Ends lib (.generate j) w .ok w') :
    ∃ a R b, HoldsRust w' j.output a R b ∧
      ∀ (rt : Rust.Runtime), rt.Lawful → ∀ (t : TypeId), WFType t → ∀ (v : Val), HasTy rt.wire S t v →
        RoundTrips rt R t v := by
  obtain ⟨text, data, h1, h2, h3⟩ := (C47_success ..).1 h
  rw [hw] at h1
  injection h1 with h1
  subst h1
  unfold OutputDone at h3
  rw [if_neg hj.file] at h3
  obtain ⟨uses, R, -, -, hh⟩ := rust_file hs hj h2 h3.1
  exact ⟨_, _, _, hh _ (emits_genProg S (accepted_of_source hs)), fun rt hrt t ht v hv => round_trip rt hrt S (accepted_of_source hs) hN hW hD t ht v hv⟩

/-- **C61, the Rust compiler.** The program in the file type-checks exactly when the schema is typable. -/
theorem C61_rust_typed (lib : Lib) (L : Crates) (j : Job) (w w' : World) (S : List ASTNode) (src : String)
    (hw : w.text j.input = some src) (hs : SourceOf S src) (hj : FullJob j .rust)
    (h : Ends lib (.generate j) w .ok w') :
    ∃ a items impls b, FileIs w' j.output a (rustFileText items impls) b ∧
      (RustTyped L items impls ↔ RustTypable L S) := by
  obtain ⟨text, data, h1, h2, h3⟩ := (C47_success ..).1 h
  rw [hw] at h1
  injection h1 with h1
  subst h1
  unfold OutputDone at h3
  rw [if_neg hj.file] at h3
  have hA := accepted_of_source hs
  have h := accepts_source hs h2
  rw [hj.lang, hj.models, hj.buffers] at h
  obtain ⟨uses, M, R, hu, hM, hR, hst⟩ := C38_rust_sections _ _ _ _ _ _ h
  obtain ⟨items, impls, ⟨he, hb⟩, hiff⟩ := C59_rust_typed_partial L S hA
  have hM := hM rfl
  rw [he] at hM
  injection hM with hM
  refine ⟨rustHead ++ rustImports (hasMethods S) true (!j.skipRpc) ++ uses ++
    on (hasConsts S) (RustGen.consts lib.ext S), items, impls, on (!j.skipRpc) R,
    ⟨data, text_of_files h3.1, ?_⟩, hiff⟩
  rw [← hM, hb] at hst
  simpa only [on, Bool.not_false, if_true, rustFileText, String.append_assoc] using hst

/-- **C61, Dart and Rust (partial).** A run on a configuration that asks for Rust code and for Dart code from
the same schema file, and succeeds, leaves two files that hold programs that understand each other: what the
one writes for a value, the other reads as the same value (as Dart sees it).  The batch may contain any other
generations, as long as they write other files.  Missing: the schemas excluded as in C29. -/
theorem C61_exchange_partial (lib : Lib) (path conf dir : String) (d : YamlData) (w w' : World) (S : List ASTNode)
    (src : String) (jr jd : Job)
    (hconf : w.text path = some conf) (hyaml : lib.yaml conf = some d) (hdir : lib.parent path = some dir)
    (hr : jr ∈ entries dir d) (hd : jd ∈ entries dir d) (hjr : FullJob jr .rust) (hjd : FullJob jd .dart)
    (hur : Undisturbed (entries dir d) jr) (hud : Undisturbed (entries dir d) jd)
    (hwr : w.text jr.input = some src) (hwd : w.text jd.input = some src) (hs : SourceOf S src)
    (hW : WellNamed S) (hC : Rust.NoWriterClash S) (hN : DartNamed lib.ext S) (hH : HasDefaults S)
    (hD : DistinctNumbers S) (hP : PortableSchema S)
    (h : Ends lib (.yaml path) w .ok w') :
    ∃ a R b c P e, HoldsRust w' jr.output a R b ∧ HoldsDart w' jd.output c P e ∧
      ∀ (rr : Rust.Runtime), rr.Lawful → ∀ (rt : Dart.Runtime), rt.Lawful → Agree rr.wire rt.wire →
      ∀ (t : TypeId), WFType t → Portable S t → LibraryFree S t →
        (∀ (v : Val), HasTy rr.wire S t v →
          ∃ bs u o, Rust.Writes rr R t v bs ∧ Sees S [t] [v] [u] ∧ Represents lib.ext S t u o ∧
            ∀ r, Dart.Reads rt P t (bs ++ r) o r) ∧
        (∀ (u o : Val), DartValue rt S t u → Represents lib.ext S t u o →
          ∃ bs v, (∀ kd, Dart.Writes rt P kd t o bs) ∧ HasTy rr.wire S t v ∧ Sees S [t] [v] [u] ∧
            ∀ r, Rust.Reads rr R t (bs ++ r) v r) := by
  have hb := batch_of_yaml hconf hyaml hdir h
  obtain ⟨t1, d1, r1, r2, r3⟩ := batch_file hb hr hur hjr.file
  obtain ⟨t2, d2, s1, s2, s3⟩ := batch_file hb hd hud hjd.file
  rw [hwr] at r1
  rw [hwd] at s1
  injection r1 with r1
  injection s1 with s1
  subst r1
  subst s1
  obtain ⟨_, _, -, -, h1⟩ := rust_file hs hjr r2 r3
  obtain ⟨_, _, -, -, h2⟩ := dart_file hs hjd s2 s3
  have hA := accepted_of_source hs
  refine ⟨_, _, _, _, _, _, h1 _ (emits_genProg S hA), h2 _ (Dart.emits_genProg hA), fun rr hrr rt hrt hG t ht hp hf => ⟨fun v hv => ?_, fun u o hu ho => ?_⟩⟩
  · exact rust_to_dart hrr hrt hG hA hW hC hN hH hD hP ht hp hf hv
  · exact dart_to_rust hrr hrt hG hA hW hN hD hP ht hp hf hu ho

/-- **C61, RPC.** Whatever is known (for every history of calls, see C30 to C35, C51, C52, C58) of the Rust types,
codecs and handlers `P`, `R` and of the Dart classes, codecs and client `Q`, `C` emitted for a schema is true
of the programs that stand in the two files after a successful run on a configuration: after a beginning, the
Rust file consists of `P` and `R`, and the Dart file of `Q` and `C`. -/
theorem C61_rpc_programs (lib : Lib) (path conf dir : String) (d : YamlData) (w w' : World) (S : List ASTNode)
    (src : String) (jr jd : Job)
    (hconf : w.text path = some conf) (hyaml : lib.yaml conf = some d) (hdir : lib.parent path = some dir)
    (hr : jr ∈ entries dir d) (hd : jd ∈ entries dir d) (hjr : FullJob jr .rust) (hjd : FullJob jd .dart)
    (hrr : jr.skipRpc = false) (hrd : jd.skipRpc = false)
    (hur : Undisturbed (entries dir d) jr) (hud : Undisturbed (entries dir d) jd)
    (hwr : w.text jr.input = some src) (hwd : w.text jd.input = some src) (hs : SourceOf S src)
    (h : Ends lib (.yaml path) w .ok w')
    (known : Rust.Prog → Rust.RpcSection → Dart.Prog → Dart.Client → Prop)
    (hk : ∀ outR outD, RustGen.rpc S = .ok outR → DartGen.rpcMethods lib.ext S = .ok outD →
      ∃ P R Q C, Rust.Emits S P ∧ Rust.EmitsRpc S R ∧ Dart.Emits lib.ext S Q ∧ Dart.EmitsRpc lib.ext S C ∧ known P R Q C) :
    ∃ a P R c Q C, HoldsRust w' jr.output a P ("\n" ++ linesText 4 R.render) ∧
      HoldsDart w' jd.output c Q ("\n" ++ linesText 2 C.render) ∧ known P R Q C := by
  have hb := batch_of_yaml hconf hyaml hdir h
  obtain ⟨t1, d1, r1, r2, r3⟩ := batch_file hb hr hur hjr.file
  obtain ⟨t2, d2, s1, s2, s3⟩ := batch_file hb hd hud hjd.file
  rw [hwr] at r1
  rw [hwd] at s1
  injection r1 with r1
  injection s1 with s1
  subst r1
  subst s1
  obtain ⟨_, oR, -, e1, h1⟩ := rust_file hs hjr r2 r3
  obtain ⟨_, oD, -, e2, h2⟩ := dart_file hs hjd s2 s3
  have e1 := e1 hrr
  have e2 := e2 hrd
  obtain ⟨P, R, Q, C, hP, hR, hQ, hC, hk⟩ := hk oR oD e1 e2
  have h1 := h1 P hP
  have h2 := h2 Q hQ
  rw [hR.1] at e1
  rw [hC.1] at e2
  injection e1 with e1
  injection e2 with e2
  rw [hrr, ← e1] at h1
  rw [hrd, ← e2] at h2
  exact ⟨_, P, R, _, Q, C, h1, h2, hk⟩

/-- **C61, calls.** The programs in the two files, run as client and server: C34 for the files.  For every
history in which the client alone makes requests, with arguments of the declared types and method ids that do
not repeat, no call is completed twice, every completed call is completed with the value that the user's
function has yielded for its arguments, and an answer in the buffer completes its call when it is read. -/
theorem C61_calls_completed (lib : Lib) (path conf dir : String) (d : YamlData) (w w' : World) (S : List ASTNode)
    (src : String) (jr jd : Job)
    (hconf : w.text path = some conf) (hyaml : lib.yaml conf = some d) (hdir : lib.parent path = some dir)
    (hr : jr ∈ entries dir d) (hd' : jd ∈ entries dir d) (hjr : FullJob jr .rust) (hjd : FullJob jd .dart)
    (hrr : jr.skipRpc = false) (hrd : jd.skipRpc = false)
    (hur : Undisturbed (entries dir d) jr) (hud : Undisturbed (entries dir d) jd)
    (hwr : w.text jr.input = some src) (hwd : w.text jd.input = some src) (hs : SourceOf S src)
    (hE : Ends lib (.yaml path) w .ok w')
    (rr : Rust.Runtime) (rt : Dart.Runtime) (hd : Int) (h : SystemOk lib.ext rr rt hd S) (hM : methodsOf S ≠ []) :
    ∃ a P R c Q C, HoldsRust w' jr.output a P ("\n" ++ linesText 4 R.render) ∧
      HoldsDart w' jd.output c Q ("\n" ++ linesText 2 C.render) ∧
      ∀ f ∈ methodsOf S, f.isRead = false → f.isAsync = true → PortableMethod S f →
      ∀ (σ : Type) (bl : BufLib) (_ : bl.Lawful) (U : User σ) (rotate : Int → Int) (mem : Nat → Bufs) (u : σ) (xs : List SysAct),
        NoMessage (rr.readP "u8") (mem f.position).server → NoMessage (rr.readP "u8") (mem f.position).client →
        (∀ bs, SysAct.server (.request f.position bs) ∉ xs) →
        (∀ bs, SysAct.server (.clear f.position bs) ∈ xs → ∀ r, NoMessage (rr.readP "u8") (bs ++ r)) →
        (∀ ds, SysAct.call (lib.ext.camel f.id) ds ∈ xs → DartArgs lib.ext rt.wire S f ds) →
        FreshIds rotate (xs.countP (SysAct.isCall (lib.ext.camel f.id))) →
        ∃ N, ∀ k, N ≤ k → ∃ s0, Rpc.start bl rt Q k hd rotate C mem u = some s0 ∧
          ∀ s, sysActs (codecAt rr (P.withArgs R) k) bl U R.handlers rt Q k hd rotate C s0 xs = some s →
            Typed rr.wire S f s.server.log →
            (s.client.done.map (·.1)).Nodup ∧
            (∀ ds n dv, (lib.ext.camel f.id, ds, n) ∈ s.calls → (n, dv) ∈ s.client.done → CallResult lib.ext rr.wire S f s.server.log ds dv) ∧
            ∀ r0, rr.readP "u8" (s.server.mem f.position).client = some (.int 255, r0) →
              ∃ ds n dv c, (lib.ext.camel f.id, ds, n) ∈ s.calls ∧ CallResult lib.ext rr.wire S f s.server.log ds dv ∧
                sysAct (codecAt rr (P.withArgs R) k) bl U R.handlers rt Q k hd rotate C s (.read (readTask lib.ext f)) = some { s with client := c } ∧
                ((n ∉ s.client.done.map (·.1) ∧ ∃ i, s.client.pending (pendingMap lib.ext f) i = some n ∧ Completes lib.ext f i n dv s.client c) ∨
                  (n ∈ s.client.done.map (·.1) ∧ c = s.client)) :=
  C61_rpc_programs lib path conf dir d w w' S src jr jd hconf hyaml hdir hr hd' hjr hjd hrr hrd hur hud hwr hwd hs hE _
    (fun outR outD h1 h2 => C34_calls_completed lib.ext rr rt hd S h hM outR outD h1 h2)

/-! ## A case that meets the hypotheses -/

theorem dartExample_legal : ∀ d ∈ dartExample, LegalDecl d := by
  have n : ∀ s, LegalName s → LegalType (typeOfName s) := .name
  have hi : LegalType (.integer "i32" 4 true) := n "i32" (by decide)
  have hf64 : LegalType (.number "f64" 8) := n "f64" (by decide)
  have hp : LegalType (.other "Point") := n "Point" (by decide)
  have hs : LegalType (.other "String") := n "String" (by decide)
  have hb : LegalType (.bool "bool") := n "bool" (by decide)
  have hv : LegalType (.generic "Vec" [.other "Point"]) := .generic _ _ (by decide) (by simpa using hp)
  intro d hd
  simp only [dartExample, List.mem_cons, List.not_mem_nil, or_false] at hd
  rcases hd with rfl | rfl | rfl
  · refine ⟨by decide, ?_⟩
    intro f hf
    simp at hf
    rcases hf with rfl | rfl | rfl
    · exact ⟨by decide, hs⟩
    · exact ⟨by decide, hi⟩
    · exact ⟨by decide, hv⟩
  · refine ⟨by decide, ?_⟩
    intro i hi'
    simp at hi'
    rcases hi' with rfl | rfl | rfl
    · exact ⟨by decide, trivial⟩
    · exact ⟨by decide, by simpa using ⟨hp, hf64⟩⟩
    · refine ⟨by decide, ?_⟩
      simp only [List.mem_cons, List.not_mem_nil, or_false, forall_eq_or_imp, forall_eq]
      exact ⟨⟨by decide, hp⟩, by decide, hb⟩
  · exact ⟨by decide, by simp⟩

/-- A configuration with one Rust and one Dart entry. -/
def pairLib : Lib :=
  { ext := testExt
    yaml := fun _ => some ⟨some [⟨"s.tpb", "s.dart", false, false, false⟩], some [⟨"s.tpb", "s.rs", false, false, false⟩]⟩
    parent := fun _ => some "d" }

def pairWorld (src : String) : World :=
  { files := fun p => if p = "d/s.tpb" then some (utf8 src) else if p = "d/c.yaml" then some (utf8 "c") else none
    stdout := [] }

def rustJob : Job := ⟨"d/s.tpb", "d/s.rs", .rust, false, false, false⟩
def dartJob : Job := ⟨"d/s.tpb", "d/s.dart", .dart, false, false, false⟩

theorem pairEntries : entries "d" ⟨some [⟨"s.tpb", "s.dart", false, false, false⟩],
    some [⟨"s.tpb", "s.rs", false, false, false⟩]⟩ = [rustJob, dartJob] := by decide +kernel

theorem dartExample_strings (g n : String) : StringEntries dartExample g n := by
  simp [StringEntries, dartExample]

/-- Non-vacuity: for the example schema a run on the configuration succeeds, and its two files understand each
other. -/
example : ∃ src w' a R b c P e bs o v, SourceOf dartExample src ∧ Ends pairLib (.yaml "d/c.yaml") (pairWorld src) .ok w' ∧
    HoldsRust w' "d/s.rs" a R b ∧ HoldsDart w' "d/s.dart" c P e ∧
    Represents testExt dartExample (.other "Shape") dRect o ∧ Dart.Writes LE.dart P .into (.other "Shape") o bs ∧
    Sees dartExample [.other "Shape"] [v] [dRect] ∧ Rust.Reads LE.rust R (.other "Shape") bs v [] := by
  obtain ⟨src, hs⟩ := C10_every_schema_has_text _ dartExample_wf dartExample_legal
  have hw : (pairWorld src).text "d/s.tpb" = some src := text_of_files rfl
  have hc : (pairWorld src).text "d/c.yaml" = some "c" := text_of_files rfl
  obtain ⟨w1, h1⟩ := (C61_can_succeed pairLib rustJob (pairWorld src) dartExample src hw hs).2
    ⟨dartExample_strings _ _, fun _ h => absurd rfl h⟩
  have hw1 : w1.text "d/s.tpb" = some src := by
    obtain ⟨_, _, _, _, h⟩ := (C47_success ..).1 h1
    unfold OutputDone at h
    rw [if_neg (by decide)] at h
    rw [text_eq]
    rw [h.2.1 "d/s.tpb" (by decide)]
    exact hw
  obtain ⟨w2, h2⟩ := (C61_can_succeed pairLib dartJob w1 dartExample src hw1 hs).2
    ⟨dartExample_strings _ _, fun _ h => absurd rfl h⟩
  have hy : Ends pairLib (.yaml "d/c.yaml") (pairWorld src) .ok w2 := by
    refine (C48_batch ..).2 (.inl ⟨"c", _, "d", hc, rfl, rfl, ?_⟩)
    rw [pairEntries]
    exact .cons _ _ _ _ _ _ h1 (.cons _ _ _ _ _ _ h2 (.nil _))
  obtain ⟨a, R, b, c, P, e, hR, hP, h⟩ := C61_exchange_partial pairLib "d/c.yaml" "c" "d" _ (pairWorld src) w2 dartExample src
    rustJob dartJob hc rfl rfl (by rw [pairEntries]; simp) (by rw [pairEntries]; simp)
    ⟨rfl, rfl, rfl, by decide⟩ ⟨rfl, rfl, rfl, by decide⟩
    (by rw [pairEntries]; unfold Undisturbed; decide) (by rw [pairEntries]; unfold Undisturbed; decide)
    hw hw hs dartExample_wellNamed dartExample_noClash dartExample_named dartExample_defaults dartExample_distinct
    dartExample_portable hy
  have hA := accepted_of_source hs
  obtain ⟨bs0, he⟩ := Dart.hasTys_enc LE.dart_lawful dartExample_named (Dart.plain_of_accepted hA).types
    dartExample_numbers dRect_hasTy [.other "Shape"] rfl (by simp [Dart.Sized])
  obtain ⟨o, ho, -⟩ := (Dart.enc_read_one LE.dart_lawful (Dart.plain_of_accepted hA) dartExample_named
    dartExample_defaults dartExample_distinct dartExample_free he).1
  obtain ⟨bs, v, q1, -, q2, q3⟩ := (h LE.rust LE.rust_lawful LE.dart LE.dart_lawful LE.agree (.other "Shape") (.name "Shape")
    (.other "Shape" (.inl (by decide))) dartExample_free).2 dRect o dRect_hasTy ho
  exact ⟨src, w2, a, R, b, c, P, e, bs, o, v, hs, hy, hR, hP, ho, q1 .into, q2, by simpa using q3 []⟩

theorem rpcSchema_legal : ∀ d ∈ rpcSchema, LegalDecl d := by
  have n : ∀ s, LegalName s → LegalType (typeOfName s) := .name
  have hi : LegalType (.integer "i32" 4 true) := n "i32" (by decide)
  have hl : LegalType (.integer "i64" 8 true) := n "i64" (by decide)
  have hp : LegalType (.other "Point") := n "Point" (by decide)
  have hs : LegalType (.other "String") := n "String" (by decide)
  have hv : LegalType (.generic "Vec" [.other "String"]) := .generic _ _ (by decide) (by simpa using hs)
  intro d hd
  simp only [rpcSchema, List.mem_cons, List.not_mem_nil, or_false] at hd
  rcases hd with rfl | rfl | rfl | rfl | rfl | rfl | rfl | rfl
  · exact ⟨by decide, by simp [LegalLit, Ascii]⟩
  · exact ⟨by decide, by simp [LegalLit, Ascii]⟩
  · refine ⟨by decide, ?_⟩
    intro f hf
    simp at hf
    rcases hf with rfl | rfl
    · exact ⟨by decide, hi⟩
    · exact ⟨by decide, hv⟩
  · refine ⟨by decide, ?_, by simpa using hp⟩
    intro a ha
    simp at ha
    rcases ha with rfl | rfl
    · exact ⟨by decide, hp⟩
    · exact ⟨by decide, hl⟩
  · exact ⟨by decide, by simpa using ⟨by decide, hp⟩, by simpa using hl⟩
  · exact ⟨by decide, by simp, by simpa using hp⟩
  · exact ⟨by decide, by simp, by simpa using hp⟩
  · exact ⟨by decide, by simp, by simp⟩

/-- A successful run on the pair configuration, for a schema without import directives and with both names. -/
theorem pair_ends {S : List ASTNode} {src : String} (hs : SourceOf S src)
    (h1 : StringEntries S "rust" "use") (h2 : StringEntries S "dart" "import")
    (h3 : methodsOf S ≠ [] → HasString S "namespace" ∧ HasString S "id") :
    ∃ w', Ends pairLib (.yaml "d/c.yaml") (pairWorld src) .ok w' := by
  have hw : (pairWorld src).text "d/s.tpb" = some src := text_of_files rfl
  have hc : (pairWorld src).text "d/c.yaml" = some "c" := text_of_files rfl
  obtain ⟨w1, e1⟩ := (C61_can_succeed pairLib rustJob (pairWorld src) S src hw hs).2 ⟨h1, fun _ h => (h3 h).2⟩
  have hw1 : w1.text "d/s.tpb" = some src := by
    obtain ⟨_, _, _, _, h⟩ := (C47_success ..).1 e1
    unfold OutputDone at h
    rw [if_neg (by decide)] at h
    rw [text_eq]
    rw [h.2.1 "d/s.tpb" (by decide)]
    exact hw
  obtain ⟨w2, e2⟩ := (C61_can_succeed pairLib dartJob w1 S src hw1 hs).2 ⟨h2, fun _ => h3⟩
  refine ⟨w2, (C48_batch ..).2 (.inl ⟨"c", _, "d", hc, rfl, rfl, ?_⟩)⟩
  rw [pairEntries]
  exact .cons _ _ _ _ _ _ e1 (.cons _ _ _ _ _ _ e2 (.nil _))

/-- Non-vacuity of the part about calls: a schema with methods, a successful run, and both sections. -/
example : ∃ src w', SourceOf rpcSchema src ∧ Ends pairLib (.yaml "d/c.yaml") (pairWorld src) .ok w' ∧
    SystemOk testExt LE.rust LE.dart (-1) rpcSchema ∧ methodsOf rpcSchema ≠ [] ∧
    ∃ a P c Q, ∃ (R : Rust.RpcSection) (C : Dart.Client), HoldsRust w' "d/s.rs" a P ("\n" ++ linesText 4 R.render) ∧
      HoldsDart w' "d/s.dart" c Q ("\n" ++ linesText 2 C.render) := by
  obtain ⟨src, hs⟩ := C10_every_schema_has_text _ rpcSchema_wf rpcSchema_legal
  have hw : (pairWorld src).text "d/s.tpb" = some src := text_of_files rfl
  have hc : (pairWorld src).text "d/c.yaml" = some "c" := text_of_files rfl
  obtain ⟨w', h⟩ := pair_ends hs (by simp [StringEntries, rpcSchema]) (by simp [StringEntries, rpcSchema])
    (fun _ => ⟨⟨"demo", _, rfl⟩, ⟨"8b61", _, rfl⟩⟩)
  obtain ⟨a, P, R, c, Q, C, h1, h2, -⟩ := C61_calls_completed pairLib "d/c.yaml" "c" "d" _ (pairWorld src) w' rpcSchema src
    rustJob dartJob hc rfl rfl (by rw [pairEntries]; simp) (by rw [pairEntries]; simp)
    ⟨rfl, rfl, rfl, by decide⟩ ⟨rfl, rfl, rfl, by decide⟩ rfl rfl
    (by rw [pairEntries]; unfold Undisturbed; decide) (by rw [pairEntries]; unfold Undisturbed; decide)
    hw hw hs h LE.rust LE.dart (-1) rpcSchema_system rpcSchema_methods
  exact ⟨src, w', hs, h, rpcSchema_system, rpcSchema_methods, a, P, c, Q, R, C, h1, h2⟩

end TPB.Props
