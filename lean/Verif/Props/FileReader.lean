/-
C86: from the schema file to what the generated files say.

As in C61 nothing but files before and after a run occurs in the statements, but the programs are those that the
independent readers of C78, C81, C82 and C83 find in the characters of the files.
-/
import Verif.Spec.FileReader
import Verif.Props.EndToEnd
import Verif.Props.DartRpcReader
namespace TPB.Props
open Spec Main Rpc
open Rust (Bufs BufLib User codecAt RetIs)

theorem accepts_parsed {x : Ext} {j : Job} {S : List ASTNode} {src data : String} (h : parseSource src = .ok S)
    (ha : Accepts x j src data) :
    match j.lang with
    | .rust => RustGen.generate x S (!j.skipModels) (!j.skipBuffers) (!j.skipRpc) = .ok data
    | .dart => DartGen.generate x S (!j.skipModels) (!j.skipBuffers) (!j.skipRpc) = .ok data := by
  obtain ⟨ts, S', h1, h2, h3⟩ := ha
  unfold parseSource at h
  rw [h1] at h
  dsimp only at h
  rw [h2] at h
  injection h with h
  subst h
  exact h3

/-- The sections of a generated Rust file. -/
theorem rust_fileSays {x : Ext} {S : List ASTNode} {src data : String} {j : Job} {w : World} (hs : parseSource src = .ok S)
    (hj : FullJob j .rust) (ha : Accepts x j src data) (hf : w.files j.output = some (utf8 data))
    {P : Rust.Prog} (hP : RustReads S P) :
    ∃ start more, RustStart x S (!j.skipRpc) start ∧ RustFileSays w j.output start P more ∧
      match j.skipRpc with
      | true => more = []
      | false => ∃ r, RustGen.rpc S = .ok r ∧ more = [r] := by
  have h := accepts_parsed hs ha
  rw [hj.lang, hj.models, hj.buffers] at h
  obtain ⟨uses, M, R, hu, hM, hR, hst⟩ := C38_rust_sections _ _ _ _ _ _ h
  obtain ⟨m, hm, hp⟩ := hP
  have hM := hM rfl
  rw [hM] at hm
  injection hm with hm
  subst hm
  cases hk : j.skipRpc with
  | true =>
    rw [hk] at hst
    refine ⟨_, [], ⟨uses, hu, rfl⟩, ⟨M, _, ⟨data, text_of_files hf, ?_⟩, hp⟩, rfl⟩
    simpa [on, List.foldl] using hst
  | false =>
    rw [hk] at hst hR
    refine ⟨_, [R], ⟨uses, hu, rfl⟩, ⟨M, _, ⟨data, text_of_files hf, ?_⟩, hp⟩, R, hR rfl, rfl⟩
    simpa [on, List.foldl] using hst

/-- The sections of a generated Dart file. -/
theorem dart_fileSays {x : Ext} {S : List ASTNode} {src data : String} {j : Job} {w : World} (hs : parseSource src = .ok S)
    (hj : FullJob j .dart) (ha : Accepts x j src data) (hf : w.files j.output = some (utf8 data))
    {P : Dart.Prog} (hP : DartReads x S P) :
    ∃ start more, DartStart x S (!j.skipRpc) start ∧ DartFileSays w j.output start P more ∧
      match j.skipRpc with
      | true => more = []
      | false => ∃ r, DartGen.rpcMethods x S = .ok r ∧ more = [r] := by
  have h := accepts_parsed hs ha
  rw [hj.lang, hj.models, hj.buffers] at h
  obtain ⟨uses, M, B, R, hu, hM, hB, hR, hst⟩ := C38_dart_sections _ _ _ _ _ _ h
  obtain ⟨m, b, hm, hb, hp⟩ := hP
  have hM := hM rfl
  have hB := hB rfl
  rw [hM] at hm
  rw [hB] at hb
  injection hm with hm
  injection hb with hb
  subst hm
  subst hb
  cases hk : j.skipRpc with
  | true =>
    rw [hk] at hst
    refine ⟨_, [], ⟨uses, hu, rfl⟩, ⟨M, _, ⟨data, text_of_files hf, ?_⟩, hp⟩, rfl⟩
    simpa [on, List.foldl] using hst
  | false =>
    rw [hk] at hst hR
    refine ⟨_, [R], ⟨uses, hu, rfl⟩, ⟨M, _, ⟨data, text_of_files hf, ?_⟩, hp⟩, R, hR rfl, rfl⟩
    simpa [on, List.foldl] using hst

/-- A configuration with a Rust and a Dart generation from one schema file, and a run on it that succeeds. -/
structure PairRun (lib : Lib) (S : List ASTNode) (jr jd : Job) (w' : World) : Prop where
  run : ∃ path conf dir d w src, w.text path = some conf ∧ lib.yaml conf = some d ∧ lib.parent path = some dir ∧
    jr ∈ entries dir d ∧ jd ∈ entries dir d ∧ Undisturbed (entries dir d) jr ∧ Undisturbed (entries dir d) jd ∧
    w.text jr.input = some src ∧ w.text jd.input = some src ∧ parseSource src = .ok S ∧ Ends lib (.yaml path) w .ok w'
  rust : FullJob jr .rust
  dart : FullJob jd .dart

section
variable {lib : Lib} {S : List ASTNode} {jr jd : Job} {w' : World}

theorem PairRun.accepted (h : PairRun lib S jr jd w') : Accepted S := by
  obtain ⟨_, _, _, _, _, _, -, -, -, -, -, -, -, -, -, hs, -⟩ := h.run
  exact sourceAccepted hs

theorem PairRun.files (h : PairRun lib S jr jd w') {P : Rust.Prog} {Q : Dart.Prog} (hP : RustReads S P) (hQ : DartReads lib.ext S Q) :
    (∃ start more, RustStart lib.ext S (!jr.skipRpc) start ∧ RustFileSays w' jr.output start P more ∧
      match jr.skipRpc with
      | true => more = []
      | false => ∃ r, RustGen.rpc S = .ok r ∧ more = [r]) ∧
    ∃ start more, DartStart lib.ext S (!jd.skipRpc) start ∧ DartFileSays w' jd.output start Q more ∧
      match jd.skipRpc with
      | true => more = []
      | false => ∃ r, DartGen.rpcMethods lib.ext S = .ok r ∧ more = [r] := by
  obtain ⟨_, _, _, _, _, _, hconf, hyaml, hdir, hr, hd, hur, hud, hwr, hwd, hs, he⟩ := h.run
  have hb := batch_of_yaml hconf hyaml hdir he
  obtain ⟨t1, d1, r1, r2, r3⟩ := batch_file hb hr hur h.rust.file
  obtain ⟨t2, d2, s1, s2, s3⟩ := batch_file hb hd hud h.dart.file
  rw [hwr] at r1
  rw [hwd] at s1
  injection r1 with r1
  injection s1 with s1
  subst r1
  subst s1
  exact ⟨rust_fileSays hs h.rust r2 r3 hP, dart_fileSays hs h.dart s2 s3 hQ⟩

/-- **C86, types (partial).** After a successful run on a configuration that asks for Rust and for Dart code from one
schema file, the types and codecs that are read from the characters of the two files understand each other.
Missing: schemas whose names are reserved in one of the languages, and those excluded as in C29. -/
theorem C86_exchange_partial (hr : PairRun lib S jr jd w') (hRR : RustNamed S) (hR : DartReader.DartReadable lib.ext S)
    (hW : WellNamed S) (hC : Rust.NoWriterClash S) (hN : DartNamed lib.ext S) (hH : HasDefaults S)
    (hD : DistinctNumbers S) (hP : PortableSchema S) :
    ∃ a P m b Q n, RustStart lib.ext S (!jr.skipRpc) a ∧ RustFileSays w' jr.output a P m ∧
      DartStart lib.ext S (!jd.skipRpc) b ∧ DartFileSays w' jd.output b Q n ∧
      ∀ (rr : Rust.Runtime), rr.Lawful → ∀ (rt : Dart.Runtime), rt.Lawful → Agree rr.wire rt.wire →
      ∀ (t : TypeId), WFType t → Portable S t → LibraryFree S t →
        (∀ (v : Val), HasTy rr.wire S t v →
          ∃ bs u o, Rust.Writes rr P t v bs ∧ Sees S [t] [v] [u] ∧ Represents lib.ext S t u o ∧
            ∀ r, Dart.Reads rt Q t (bs ++ r) o r) ∧
        (∀ (u o : Val), DartValue rt S t u → Represents lib.ext S t u o →
          ∃ bs v, (∀ kd, Dart.Writes rt Q kd t o bs) ∧ HasTy rr.wire S t v ∧ Sees S [t] [v] [u] ∧
            ∀ r, Rust.Reads rr P t (bs ++ r) v r) := by
  have hA := hr.accepted
  obtain ⟨items, impls, -, hp, -⟩ := C78_is_read_partial S hA hRR
  obtain ⟨Q, hq, -⟩ := C81_is_read_partial lib.ext S hA hR
  obtain ⟨⟨a, m, h1, h2, -⟩, b, n, h3, h4, -⟩ := hr.files hp hq
  exact ⟨a, _, m, b, Q, n, h1, h2, h3, h4, fun rr hrr rt hrt hG t ht hpt hf =>
    C81_exchange_partial lib.ext rr hrr rt hrt hG S hA hRR hR hW hC hN hH hD hP _ hp Q hq t ht hpt hf⟩

/-- **C86 (partial).** After a successful run on a configuration that asks for complete Rust and Dart code from one
schema file with methods, both files are read completely: after their beginning, the Rust file consists of sections
that are read as types and codecs `P` and methods `R`, and the Dart file of sections that are read as classes and
codecs `Q` and a client `C`.  What C83 says of the generated sections is therefore true of the files. -/
theorem C86_files_partial (hr : PairRun lib S jr jd w') (h1 : jr.skipRpc = false) (h2 : jd.skipRpc = false)
    {ns scope : String} (hS : HasClient S ns scope) (hn : NamesReadable lib.ext S ns scope) (hN : RpcNamed S) :
    ∃ a b P R Q C, RustStart lib.ext S true a ∧ ServerFileSays w' jr.output a (returnTypes S) P R ∧
      DartStart lib.ext S true b ∧ ClientFileSays w' jd.output b Q C ∧ FilesRead lib.ext S P R Q C := by
  obtain ⟨P, R, Q, C, hF, -⟩ := C83_is_read_partial hS hn hN
  obtain ⟨⟨a, m, g1, g2, g3⟩, b, n, g4, g5, g6⟩ := hr.files hF.rust hF.dart
  rw [h1] at g1 g3
  rw [h2] at g4 g6
  obtain ⟨r, e1, rfl⟩ := g3
  obtain ⟨c, e2, rfl⟩ := g6
  obtain ⟨r', e1', f1⟩ := hF.rpc
  obtain ⟨c', e2', f2⟩ := hF.client
  rw [e1] at e1'
  rw [e2] at e2'
  injection e1' with e1'
  injection e2' with e2'
  subst e1'
  subst e2'
  exact ⟨a, b, P, R, Q, C, g1, ⟨r, g2, f1⟩, g4, ⟨c, g5, f2⟩, hF⟩

/-- **C86, synchronous calls (partial).** For the programs that are read from the two files: a call of a synchronous
method of the client calls the function of that method exactly once, with the values that the arguments stand for, and
returns an object that stands for the result.  Missing as in `C86_files_partial`. -/
theorem C86_sync_call_partial (hr : PairRun lib S jr jd w') (h1 : jr.skipRpc = false) (h2 : jd.skipRpc = false)
    {ns scope : String} (hS : HasClient S ns scope) (hn : NamesReadable lib.ext S ns scope)
    (rr : Rust.Runtime) (rt : Dart.Runtime) (hd : Int) (h : SystemOk lib.ext rr rt hd S) :
    ∃ a b P R Q C, ServerFileSays w' jr.output a (returnTypes S) P R ∧ ClientFileSays w' jd.output b Q C ∧
      ∀ f ∈ methodsOf S, groupOf f = .sync → PortableMethod S f →
      ∀ (σ : Type) (bl : BufLib) (_ : bl.Lawful) (U : User σ) (rotate : Int → Int)
        (w : Dart.World (σ × List (String × List Val))) (ds : List Val) (as : List Nat),
        DartArgs lib.ext rt.wire S f ds → f.position ∈ as →
        (∀ a ∈ as, ∃ g ∈ methodsOf S, groupOf g = .sync ∧ g.position = a ∧
          (g ≠ f → NoMessage (rr.readP "u8") (w.mem a).server)) →
        ∃ vs, Exchanged lib.ext rr.wire S (f.args.map (·.typeId)) vs ds ∧
          ∀ v, RetIs (U f.id vs w.rest.1).1 v → (∃ b, ResultIs rr.wire S f v b) →
          ∃ dv, ExchangedResult lib.ext rr.wire S f v dv ∧ ∃ N, ∀ k, N ≤ k → ∃ mem sent,
            Dart.callMethod rt Q k hd rotate C bl (loopSync (codecAt rr (P.withArgs R) k) bl U R.handlers as) (lib.ext.camel f.id) ds w
              = .ok (.ofResult dv, ⟨w.client, mem, sent, (U f.id vs w.rest.1).2, w.rest.2 ++ [(f.id, vs)]⟩) := by
  obtain ⟨a, b, P, R, Q, C, -, g1, -, g2, hF⟩ := C86_files_partial hr h1 h2 hS hn h.server.rpcNamed
  exact ⟨a, b, P, R, Q, C, g1, g2, C83_sync_call lib.ext rr rt hd S h ns scope hS hn P R Q C hF⟩

/-- **C86, asynchronous calls (partial).** The programs that are read from the two files, run as client and server: for
every history in which the client alone makes requests, with arguments of the declared types and method ids that do not
repeat, no call is completed twice, every completed call is completed with the value that the user's function has
yielded for its arguments, and an answer in the buffer completes its call when it is read.  Missing as in
`C86_files_partial`. -/
theorem C86_calls_completed_partial (hr : PairRun lib S jr jd w') (h1 : jr.skipRpc = false) (h2 : jd.skipRpc = false)
    {ns scope : String} (hS : HasClient S ns scope) (hn : NamesReadable lib.ext S ns scope)
    (rr : Rust.Runtime) (rt : Dart.Runtime) (hd : Int) (h : SystemOk lib.ext rr rt hd S) :
    ∃ a b P R Q C, ServerFileSays w' jr.output a (returnTypes S) P R ∧ ClientFileSays w' jd.output b Q C ∧
      ∀ f ∈ methodsOf S, f.isRead = false → f.isAsync = true → PortableMethod S f →
      ∀ (σ : Type) (bl : BufLib) (_ : bl.Lawful) (U : User σ) (rotate : Int → Int) (mem : Nat → Bufs) (u : σ) (xs : List SysAct),
        NoMessage (rr.readP "u8") (mem f.position).server → NoMessage (rr.readP "u8") (mem f.position).client →
        (∀ bs, SysAct.server (.request f.position bs) ∉ xs) →
        (∀ bs, SysAct.server (.clear f.position bs) ∈ xs → ∀ r, NoMessage (rr.readP "u8") (bs ++ r)) →
        (∀ ds, SysAct.call (lib.ext.camel f.id) ds ∈ xs → DartArgs lib.ext rt.wire S f ds) →
        FreshIds rotate (xs.countP (SysAct.isCall (lib.ext.camel f.id))) →
        ∃ N, ∀ k, N ≤ k → ∃ s0, Rpc.start bl rt Q k hd rotate C mem u = some s0 ∧
          ∀ s, sysActs (codecAt rr (P.withArgs R) k) bl U R.handlers rt Q k hd rotate C s0 xs = some s →
            Typed rr.wire S f s.server.log →
            (s.client.done.map (·.1)).Nodup ∧
            (∀ ds n dv, (lib.ext.camel f.id, ds, n) ∈ s.calls → (n, dv) ∈ s.client.done → CallResult lib.ext rr.wire S f s.server.log ds dv) ∧
            ∀ r0, rr.readP "u8" (s.server.mem f.position).client = some (.int 255, r0) →
              ∃ ds n dv c, (lib.ext.camel f.id, ds, n) ∈ s.calls ∧ CallResult lib.ext rr.wire S f s.server.log ds dv ∧
                sysAct (codecAt rr (P.withArgs R) k) bl U R.handlers rt Q k hd rotate C s (.read (readTask lib.ext f)) = some { s with client := c } ∧
                ((n ∉ s.client.done.map (·.1) ∧ ∃ i, s.client.pending (pendingMap lib.ext f) i = some n ∧ Completes lib.ext f i n dv s.client c) ∨
                  (n ∈ s.client.done.map (·.1) ∧ c = s.client)) := by
  obtain ⟨a, b, P, R, Q, C, -, g1, -, g2, hF⟩ := C86_files_partial hr h1 h2 hS hn h.server.rpcNamed
  exact ⟨a, b, P, R, Q, C, g1, g2, C83_calls_completed lib.ext rr rt hd S h ns scope hS hn P R Q C hF⟩

end

/-! ## A case that meets the hypotheses -/

theorem pair_run {S : List ASTNode} {src : String} (hs : SourceOf S src) {w' : World}
    (h : Ends pairLib (.yaml "d/c.yaml") (pairWorld src) .ok w') : PairRun pairLib S rustJob dartJob w' where
  run := ⟨"d/c.yaml", "c", "d", _, _, src, text_of_files rfl, rfl, rfl, by rw [pairEntries]; simp, by rw [pairEntries]; simp,
    by rw [pairEntries]; unfold Undisturbed; decide, by rw [pairEntries]; unfold Undisturbed; decide, text_of_files rfl,
    text_of_files rfl, C10_text_round_trip S src hs, h⟩
  rust := ⟨rfl, rfl, rfl, by decide⟩
  dart := ⟨rfl, rfl, rfl, by decide⟩

/-- Non-vacuity: a schema with methods, a text of it, a successful run, and both files are read. -/
example : ∃ w' a b P R Q C, PairRun pairLib rpcSchema rustJob dartJob w' ∧ SystemOk testExt LE.rust LE.dart (-1) rpcSchema ∧
    ServerFileSays w' "d/s.rs" a (returnTypes rpcSchema) P R ∧ ClientFileSays w' "d/s.dart" b Q C ∧
    R.scope = "8b61" ∧ C.scope = "8b61" := by
  obtain ⟨src, hs⟩ := C10_every_schema_has_text _ rpcSchema_wf rpcSchema_legal
  obtain ⟨w', h⟩ := pair_ends hs (by simp [StringEntries, rpcSchema]) (by simp [StringEntries, rpcSchema])
    (fun _ => ⟨⟨"demo", _, rfl⟩, ⟨"8b61", _, rfl⟩⟩)
  have hr := pair_run hs h
  obtain ⟨a, b, P, R, Q, C, -, g1, -, g2, hF⟩ := C86_files_partial hr rfl rfl rpcSchema_hasClient rpcSchema_namesReadable rpcSchema_rpcNamed
  obtain ⟨rfl, rfl, rfl, rfl⟩ := (filesRead_iff rpcSchema_hasClient rpcSchema_namesReadable rpcSchema_rpcNamed _ _ _ _).1 hF
  exact ⟨w', a, b, _, _, _, _, hr, rpcSchema_system, g1, g2, rfl, rfl⟩

end TPB.Props
