/-
Property theorems about the emitted Rust rpc code: C31 (registration), C32 and C33 (requests), C36 and C37
(background reads).

`EmitsRpc S R` says that the generated rpc section is the text of `R` and is read as `R` (`Spec/RustRpcReader.lean`); `runHandler` and `acts` run its
handlers on top of the runtime library (`Sem/RustRpcEval.lean`); `Request` and `Answer` are the documented
messages (`Spec/Rpc.lean`).
-/
import Verif.Proofs.RustReaderGen
import Verif.Proofs.RustRpcEmits
import Verif.Sem.LittleEndian
namespace TPB.Props
open Spec Rust

/-- The schemas for which the theorems hold: accepted, and names can be told apart. -/
structure RpcOk (W : Wire) (S : List ASTNode) : Prop where
  accepted : Accepted S
  named : WellNamed S
  distinct : DistinctNumbers S
  noClash : NoWriterClash S
  rpcNamed : RpcNamed S
  noExt : NoExtArgs W S

/-! ## A schema for the examples -/

/-- `#[namespace = "demo"] #[id = "8b61"] struct Point { x: i32, tags: Vec<String> } fn add(p: Point, n: i64) -> Point;
async fn slow(p: Point) -> i64; read now -> Point; async read ticks -> Point; fn ping();` -/
def rpcSchema : List ASTNode :=
  [.directive (.value "namespace" ⟨.str "demo", .other "String"⟩), .directive (.value "id" ⟨.str "8b61", .other "String"⟩),
   .struct ⟨"Point", [⟨0, "x", .integer "i32" 4 true⟩, ⟨1, "tags", .generic "Vec" [.other "String"]⟩], true, true⟩,
   .fn ⟨"add", 0, [⟨"p", .other "Point"⟩, ⟨"n", .integer "i64" 8 true⟩], some (.other "Point"), false, false⟩,
   .fn ⟨"slow", 1, [⟨"p", .other "Point"⟩], some (.integer "i64" 8 true), false, true⟩,
   .fn ⟨"now", 2, [], some (.other "Point"), true, false⟩,
   .fn ⟨"ticks", 3, [], some (.other "Point"), true, true⟩,
   .fn ⟨"ping", 4, [], none, false, false⟩]

theorem rpcSchema_wf : WFSchema 0 rpcSchema := by
  have b : ∀ n, WFType (typeOfName n) := .name
  have h1 : WFType (.integer "i32" 4 true) := b "i32"
  have h2 : WFType (.integer "i64" 8 true) := b "i64"
  have h3 : WFType (.other "Point") := b "Point"
  have h4 : WFType (.other "String") := b "String"
  have h5 : WFType (.generic "Vec" [.other "String"]) := .generic _ _ (by simp) (by simpa using h4)
  simp [rpcSchema, WFSchema, WFDecl, WFConst, WFFields, PosOk, fnCount, h1, h2, h3, h5]
  trivial

theorem rpcSchema_accepted : Accepted rpcSchema := by
  obtain ⟨ts, _, h⟩ := C09_every_schema _ rpcSchema_wf
  exact ⟨_, h⟩

theorem rpcSchema_wellNamed : WellNamed rpcSchema where
  types := by decide
  builtins := by decide
  fields := by simp [rpcSchema, fieldsOf]
  variants := by simp [rpcSchema]
  payloads := by simp [rpcSchema]
  numbers := by simp [rpcSchema]

theorem rpcSchema_rpcNamed : RpcNamed rpcSchema where
  methods := by decide
  args := by decide
  structs := by decide
  locals := by decide

theorem noExtArgs_LE (S : List ASTNode) : NoExtArgs LE.wire S := by
  intro f _ v
  have h : (argsName f).toList.head? = some '_' := by simp [argsName]
  cases v <;> simp [LE.wire, h]

theorem rpcSchema_ok : RpcOk LE.wire rpcSchema where
  accepted := rpcSchema_accepted
  named := rpcSchema_wellNamed
  distinct := by simp [DistinctNumbers, rpcSchema]
  noClash := by simp [NoWriterClash, rpcSchema]
  rpcNamed := rpcSchema_rpcNamed
  noExt := noExtArgs_LE _

theorem rpcSchema_out : ∃ out, RustGen.rpc rpcSchema = .ok out :=
  ⟨_, rpc_render _ (by simp [rpcSchema, findFnNodes]) _ rfl⟩

theorem rpcSchema_methods : methodsOf rpcSchema ≠ [] := by simp [rpcSchema, methodsOf]

/-! ## C31: registration -/

/-- The group of methods that a method belongs to. -/
def groupOf (f : FnNode) : Group := if f.isRead then .read else if f.isAsync then .async else .sync

/-- **C31, Rust side.** The emitted registration code registers the methods in declaration order, each
exactly once, the method with index `i` at the address `i`, in the group of its kind, and the handler at
that address is the one emitted for that method. -/
theorem C31_rust_registration (S : List ASTNode) (hA : Accepted S) (hn : ((methodsOf S).map (·.id)).Nodup)
    (hM : methodsOf S ≠ []) (out : String) (hout : RustGen.rpc S = .ok out) :
    ∃ R, EmitsRpc S R ∧ R.regs.length = (methodsOf S).length ∧
      ∀ (i : Nat) (f : FnNode), (methodsOf S)[i]? = some f →
        (∃ r, R.regs[i]? = some r ∧ r.addr = i ∧ r.group = groupOf f ∧ r.fn = f.id) ∧
        ∃ h, R.handlers.lookup i = some h ∧ h.fn = f.id := by
  obtain ⟨scope, hR⟩ := emitsRpc_of hA.wf hout hM
  refine ⟨_, hR, by simp [genRpc, findFnNodes_eq], fun i f hf => ?_⟩
  have hp : f.position = i := by
    have h2 := congrArg (fun l => l[i]?) (wfSchema_positions S 0 hA.wf)
    have hi : i < (methodsOf S).length := (List.getElem?_eq_some_iff.1 hf).1
    simpa [List.getElem?_map, hf, List.getElem?_range' hi] using h2
  refine ⟨⟨genReg f, by simp [genRpc, findFnNodes_eq, hf], by rw [(genReg_addr f).1, hp], ?_, (genReg_addr f).2⟩,
    genHandler f, ?_, genHandler_fn f⟩
  · unfold genReg groupOf
    cases f.isRead <;> cases f.isAsync <;> rfl
  · rw [← hp]
    exact handlers_lookup scope hA.wf hn (List.mem_of_getElem? hf)

example : ∃ R, EmitsRpc rpcSchema R ∧ R.regs.length = 5 ∧
    ∃ r, R.regs[3]? = some r ∧ r.addr = 3 ∧ r.group = .read ∧ r.fn = "ticks" := by
  obtain ⟨out, hout⟩ := rpcSchema_out
  obtain ⟨R, h1, h2, h3⟩ := C31_rust_registration _ rpcSchema_accepted rpcSchema_rpcNamed.methods rpcSchema_methods out hout
  exact ⟨R, h1, h2, (h3 3 _ rfl).1⟩

/-! ## C32: synchronous calls -/

/-- The status byte that marks a buffer as holding nothing. -/
theorem noMessage_x00 {rt : Runtime} {P : Prog} {k : Nat} {st : Status → Bytes} (hst : (codecAt rt P k).StatusOk st) (r : Bytes) :
    NoMessage (rt.readP "u8") (st .x00 ++ r) := ⟨0, r, (hst .x00).2 r, by decide⟩

theorem st_eq {rt : Runtime} {P : Prog} {k : Nat} {st : Status → Bytes} (hst : (codecAt rt P k).StatusOk st) {s : Bytes}
    (h : rt.wire.prim "u8" (.int 255) = some s) : st .xFF = s := by
  have := (hst .xFF).1
  simp only [codecAt] at this
  have e : (.int (Status.xFF.val : Nat) : Val) = .int 255 := rfl
  rw [e, h] at this
  exact (Option.some.inj this).symm

theorem sync_call {rt : Runtime} (hrt : rt.Lawful) {S : List ASTNode} (h : RpcOk rt.wire S) {f : FnNode} (hf : f ∈ methodsOf S)
    (hr : f.isRead = false) (ha : f.isAsync = false) {σ : Type} {lib : BufLib} (hlib : lib.Lawful) (U : User σ) (m : Bufs) (u : σ)
    {vs : List Val} {req rest : Bytes} {v : Option Val} {ans : Bytes}
    (hreq : Request rt.wire S f none vs req) (hm : m.server = req ++ rest)
    (hret : RetIs (U f.id vs u).1 v) (hans : Spec.Answer rt.wire S f none v ans) :
    ∃ N, ∀ k, N ≤ k → ∃ server rest',
      runHandler (codecAt rt (genProg (argsSchema S)) k) lib U (genHandler f) m u
        = .ok ⟨⟨server, ans ++ rest'⟩, (U f.id vs u).2, [(f.id, vs)], [], true⟩ ∧
      NoMessage (rt.readP "u8") server := by
  obtain ⟨st, hst⟩ := statusOk_codecAt hrt
  obtain ⟨s, b, hs, hb, hok, N1, hread⟩ := request_reads hrt h.accepted.wf h.named h.distinct h.rpcNamed h.noExt hf hr hreq
  obtain ⟨s', mb, rb, hs', hmb, hres, hansb⟩ := hans
  rw [hs] at hs'
  obtain rfl := Option.some.inj hs'
  obtain ⟨N2, hwrite⟩ := resultBytes_of h.accepted.wf h.named h.noClash h.rpcNamed h.noExt hf hret hres
  refine ⟨max N1 N2, fun k hk => ?_⟩
  have e := st_eq (hst (genProg (argsSchema S)) k) hs
  obtain ⟨r1, h1⟩ := hlib m.server (st .x00)
  obtain ⟨r2, h2⟩ := hlib m.client (st .xFF ++ rb)
  have := sync_run (lib := lib) (U := U) (u := u) (hst (genProg (argsSchema S)) k) hr ha (h.rpcNamed.locals f hf) (h.rpcNamed.args f hf).1
    (h.rpcNamed.args f hf).2 (m := m) (b := b ++ rest) (vs := vs) (by rw [hm, hb, e, List.append_assoc])
    (by simp only [codecAt, hread k (by omega) rest]) hok.2 (hwrite k (by omega))
  refine ⟨_, r2, ?_, h1 ▸ noMessage_x00 (hst (genProg (argsSchema S)) k) r1⟩
  rw [this, h1, h2, hansb, e, show mb = [] from hmb, List.append_nil]

theorem sync_calls {rt : Runtime} (hrt : rt.Lawful) {S : List ASTNode} (h : RpcOk rt.wire S) (scope : String) :
    ∀ P R, P = genProg S → R = genRpc scope S → ∀ f ∈ methodsOf S, f.isRead = false → f.isAsync = false →
      ∃ hd, R.handlers.lookup f.position = some hd ∧
      ∀ (σ : Type) (lib : BufLib) (_ : lib.Lawful) (U : User σ) (m : Bufs) (u : σ) (vs : List Val) (req rest : Bytes)
        (v : Option Val) (ans : Bytes),
        Request rt.wire S f none vs req → m.server = req ++ rest →
        RetIs (U f.id vs u).1 v → Spec.Answer rt.wire S f none v ans →
        ∃ N, ∀ k, N ≤ k → ∃ server rest',
          runHandler (codecAt rt (P.withArgs R) k) lib U hd m u
            = .ok ⟨⟨server, ans ++ rest'⟩, (U f.id vs u).2, [(f.id, vs)], [], true⟩ ∧
          NoMessage (rt.readP "u8") server := by
  rintro _ _ rfl rfl
  refine fun f hf hr ha => ⟨_, handlers_lookup scope h.accepted.wf h.rpcNamed.methods hf, ?_⟩
  intro σ lib hlib U m u vs req rest v ans hreq hm hret hans
  rw [withArgs_genProg]
  exact sync_call hrt h hf hr ha hlib U m u hreq hm hret hans

/-- **C32, server side.** For every synchronous method `f`, whatever the two buffers of `f` held before:
if a request with arguments `vs` has been written to the server buffer, then a run of the handler that is
registered at the address of `f` calls `f` with exactly `vs`, and afterwards the client buffer begins with
the answer that holds the result of that call. -/
theorem C32_sync_call (rt : Runtime) (hrt : rt.Lawful) (S : List ASTNode) (h : RpcOk rt.wire S)
    (hM : methodsOf S ≠ []) (out : String) (hout : RustGen.rpc S = .ok out) :
    ∃ P R, Emits S P ∧ EmitsRpc S R ∧ ∀ f ∈ methodsOf S, f.isRead = false → f.isAsync = false →
      ∃ hd, R.handlers.lookup f.position = some hd ∧
      ∀ (σ : Type) (lib : BufLib) (_ : lib.Lawful) (U : User σ) (m : Bufs) (u : σ) (vs : List Val) (req rest : Bytes)
        (v : Option Val) (ans : Bytes),
        Request rt.wire S f none vs req → m.server = req ++ rest →
        RetIs (U f.id vs u).1 v → Spec.Answer rt.wire S f none v ans →
        ∃ N, ∀ k, N ≤ k → ∃ server rest',
          runHandler (codecAt rt (P.withArgs R) k) lib U hd m u
            = .ok ⟨⟨server, ans ++ rest'⟩, (U f.id vs u).2, [(f.id, vs)], [], true⟩ ∧
          NoMessage (rt.readP "u8") server := by
  obtain ⟨scope, hR⟩ := emitsRpc_of h.accepted.wf hout hM
  exact ⟨_, _, emits_genProg S h.accepted, hR, sync_calls hrt h scope _ _ rfl rfl⟩

/-- A point of the example schema. -/
def pt (x : Int) : Val := .struct "Point" [("x", .int x), ("tags", .list 1 [.ext "String" 7])]

def ptBytes (x : Int) : Bytes := LE.le 4 (LE.toUnsigned 4 x) ++ (LE.le 8 1 ++ LE.le 8 7)

theorem pt_enc {x : Int} (hx : -(2 ^ 31) ≤ x ∧ x < 2 ^ 31) {ts : List TypeId} {vs : List Val} {b : Bytes} (h : Enc LE.wire rpcSchema ts vs b) :
    Enc LE.wire rpcSchema (.other "Point" :: ts) (pt x :: vs) (ptBytes x ++ b) := by
  have key : Enc LE.wire rpcSchema [.integer "i32" 4 true, .generic "Vec" [.other "String"]] [.int x, .list 1 [.ext "String" 7]] (ptBytes x) :=
    .leaf _ "i32" _ _ _ _ _ rfl (by
        have : LE.wire.prim "i32" (.int x) = LE.primOf (.integer "i32" 4 true) (.int x) := rfl
        rw [this]
        simp only [LE.primOf]
        exact if_pos hx)
      (.list "Vec" _ 1 (LE.le 8 1) [.other "String"] _ (LE.le 8 7) [] [] [] rfl rfl
        (.ext (W := LE.wire) (S := rpcSchema) "String" (.ext "String" 7) (LE.le 8 7) [] [] [] (by decide) rfl .nil) .nil)
  exact .struct ⟨"Point", [⟨0, "x", .integer "i32" 4 true⟩, ⟨1, "tags", .generic "Vec" [.other "String"]⟩], true, true⟩ _ _ _ _ _
    (by simp [rpcSchema]) key h

/-- `add` of the example schema moves a point. -/
def exampleUser : User Nat := fun f vs u =>
  match f, vs with
  | "add", [.struct "Point" [("x", .int x), ts], .int n] => (.val (.struct "Point" [("x", .int (x + n)), ts]), u + 1)
  | _, _ => (.unit, u + 1)

/-- The handler of `add` on a request with a point and 5, with leftovers in both buffers. -/
example : ∃ P R, Emits rpcSchema P ∧ EmitsRpc rpcSchema R ∧ ∃ hd, R.handlers.lookup 0 = some hd ∧ ∃ N, ∀ k, N ≤ k → ∃ server rest',
    runHandler (codecAt LE.rust (P.withArgs R) k) (fun old bs => bs ++ old.drop bs.length) exampleUser hd
      ⟨255 :: (ptBytes (-2) ++ LE.le 8 5) ++ [9, 9], [1, 2, 3]⟩ 0
      = .ok ⟨⟨server, (255 :: ptBytes 3) ++ rest'⟩, 1, [("add", [pt (-2), .int 5])], [], true⟩ := by
  obtain ⟨out, hout⟩ := rpcSchema_out
  obtain ⟨P, R, h1, h2, h3⟩ := C32_sync_call LE.rust LE.rust_lawful _ rpcSchema_ok rpcSchema_methods out hout
  refine ⟨P, R, h1, h2, ?_⟩
  obtain ⟨hd, h4, h5⟩ := h3 _ (List.mem_cons_self ..) rfl rfl
  refine ⟨hd, h4, ?_⟩
  obtain ⟨N, h6⟩ := h5 Nat (fun old bs => bs ++ old.drop bs.length) (fun old bs => ⟨_, rfl⟩) exampleUser
    ⟨255 :: (ptBytes (-2) ++ LE.le 8 5) ++ [9, 9], [1, 2, 3]⟩ 0 [pt (-2), .int 5] (255 :: (ptBytes (-2) ++ LE.le 8 5)) [9, 9] (some (pt 3))
    (255 :: ptBytes 3)
    ⟨rfl, [255], [], _, rfl, rfl, pt_enc (by decide) (.leaf _ "i64" _ _ _ _ _ rfl rfl .nil), rfl⟩ rfl rfl
    ⟨[255], [], _, rfl, rfl, ⟨_, rfl, pt_enc (by decide) .nil⟩, rfl⟩
  exact ⟨N, fun k hk => (h6 k hk).imp (fun _ h => h.imp (fun _ h => h.1))⟩

/-! ## C33: a request is executed exactly once -/

/-- Running an idle handler any number of times. -/
theorem runTimes_idle {σ : Type} {C : Codec} {lib : BufLib} {U : User σ} {hd : Handler} {m : Bufs} {u : σ}
    (h : runHandler C lib U hd m u = .ok ⟨m, u, [], [], false⟩) (n : Nat) :
    runTimes C lib U hd n m u = .ok (List.replicate n ⟨m, u, [], [], false⟩) := by
  induction n with
  | zero => rfl
  | succ n ih => simp [runTimes, h, bind, Except.bind, ih, List.replicate_succ]

theorem readStatus_noMessage {rt : Runtime} {P : Prog} {k : Nat} {bs : Bytes} (h : NoMessage (rt.readP "u8") bs) :
    ∃ n r, readStatus (codecAt rt P k) bs = .ok (n, r) ∧ n ≠ 255 := by
  obtain ⟨n, r, h1, h2⟩ := h
  exact ⟨n, r, by simp [readStatus, codecAt, h1], h2⟩

theorem sync_once {rt : Runtime} (hrt : rt.Lawful) {S : List ASTNode} (h : RpcOk rt.wire S) (scope : String) :
    ∀ P R, P = genProg S → R = genRpc scope S → ∀ f ∈ methodsOf S, f.isRead = false → f.isAsync = false →
      ∃ hd, R.handlers.lookup f.position = some hd ∧
      ∀ (σ : Type) (lib : BufLib) (_ : lib.Lawful) (U : User σ) (m : Bufs) (u : σ) (vs : List Val) (req rest : Bytes)
        (v : Option Val) (ans : Bytes),
        Request rt.wire S f none vs req → m.server = req ++ rest →
        RetIs (U f.id vs u).1 v → Spec.Answer rt.wire S f none v ans →
        ∃ N, ∀ k, N ≤ k → ∃ m' u',
          runHandler (codecAt rt (P.withArgs R) k) lib U hd m u = .ok ⟨m', u', [(f.id, vs)], [], true⟩ ∧
          ∀ n, runTimes (codecAt rt (P.withArgs R) k) lib U hd n m' u' = .ok (List.replicate n ⟨m', u', [], [], false⟩) := by
  rintro _ _ rfl rfl
  obtain ⟨st, hst⟩ := statusOk_codecAt hrt
  refine fun f hf hr ha => ⟨_, handlers_lookup scope h.accepted.wf h.rpcNamed.methods hf, ?_⟩
  intro σ lib hlib U m u vs req rest v ans hreq hm hret hans
  obtain ⟨N, hrun⟩ := sync_call hrt h hf hr ha hlib U m u hreq hm hret hans
  refine ⟨N, fun k hk => ?_⟩
  obtain ⟨server, rest', h1, h2⟩ := hrun k hk
  rw [withArgs_genProg]
  refine ⟨_, _, h1, fun n => runTimes_idle ?_ n⟩
  obtain ⟨i, r, h3, h4⟩ := readStatus_noMessage (P := genProg (argsSchema S)) (k := k) h2
  exact idle_run hr h3 h4

/-- **C33, synchronous methods.** The first run of the handler after a request executes the method once
and says so; any number of further runs without a new request execute nothing, report no work and change
neither buffer. -/
theorem C33_sync_exactly_once (rt : Runtime) (hrt : rt.Lawful) (S : List ASTNode) (h : RpcOk rt.wire S)
    (hM : methodsOf S ≠ []) (out : String) (hout : RustGen.rpc S = .ok out) :
    ∃ P R, Emits S P ∧ EmitsRpc S R ∧ ∀ f ∈ methodsOf S, f.isRead = false → f.isAsync = false →
      ∃ hd, R.handlers.lookup f.position = some hd ∧
      ∀ (σ : Type) (lib : BufLib) (_ : lib.Lawful) (U : User σ) (m : Bufs) (u : σ) (vs : List Val) (req rest : Bytes)
        (v : Option Val) (ans : Bytes),
        Request rt.wire S f none vs req → m.server = req ++ rest →
        RetIs (U f.id vs u).1 v → Spec.Answer rt.wire S f none v ans →
        ∃ N, ∀ k, N ≤ k → ∃ m' u',
          runHandler (codecAt rt (P.withArgs R) k) lib U hd m u = .ok ⟨m', u', [(f.id, vs)], [], true⟩ ∧
          ∀ n, runTimes (codecAt rt (P.withArgs R) k) lib U hd n m' u' = .ok (List.replicate n ⟨m', u', [], [], false⟩) := by
  obtain ⟨scope, hR⟩ := emitsRpc_of h.accepted.wf hout hM
  exact ⟨_, _, emits_genProg S h.accepted, hR, sync_once hrt h scope _ _ rfl rfl⟩

theorem runFuture_step {σ : Type} {C : Codec} {lib : BufLib} {U : User σ} {r : Ret} {n : Nat} {m m' : Bufs} {u u' : σ} {t t' : Thread}
    {cs : List (String × List Val)} (hw : t.wait = none) (hc : t.code ≠ []) (h : step C lib U m u t = .ok ⟨m', u', t', cs, none⟩) :
    runFuture C lib U r (n + 1) m u t = (runFuture C lib U r n m' u' t').map (fun p => (p.1, cs ++ p.2)) := by
  rw [runFuture, hw]
  cases e : t.code with
  | nil => exact absurd e hc
  | cons s ss =>
    simp only [h, bind, Except.bind]
    cases runFuture C lib U r n m' u' t' <;> rfl

theorem runFuture_resume {σ : Type} {C : Codec} {lib : BufLib} {U : User σ} {r : Ret} {n : Nat} {m : Bufs} {u : σ} {t : Thread}
    {res : Bool} {g : String} {xs : List Val} (hw : t.wait = some (res, g, xs)) :
    runFuture C lib U r (n + 1) m u t = runFuture C lib U r n m u { t with frame := bindResult res r t.frame, wait := none } := by
  rw [runFuture, hw]

theorem runFuture_end {σ : Type} {C : Codec} {lib : BufLib} {U : User σ} {r : Ret} {n : Nat} {m : Bufs} {u : σ} {t : Thread}
    (hw : t.wait = none) (hc : t.code = []) : runFuture C lib U r (n + 1) m u t = .ok (m, []) := by
  rw [runFuture, hw, hc]

theorem async_once {rt : Runtime} (hrt : rt.Lawful) {S : List ASTNode} (h : RpcOk rt.wire S) (scope : String) :
    ∀ P R, P = genProg S → R = genRpc scope S → ∀ f ∈ methodsOf S, f.isRead = false → f.isAsync = true →
      ∃ hd, R.handlers.lookup f.position = some hd ∧
      ∀ (σ : Type) (lib : BufLib) (_ : lib.Lawful) (U : User σ) (m : Bufs) (u : σ) (i : Int) (vs : List Val) (req rest : Bytes),
        Request rt.wire S f (some i) vs req → m.server = req ++ rest →
        ∃ N, ∀ k, N ≤ k → ∃ m' t,
          runHandler (codecAt rt (P.withArgs R) k) lib U hd m u = .ok ⟨m', u, [], [t], true⟩ ∧
          (∀ n, runTimes (codecAt rt (P.withArgs R) k) lib U hd n m' u = .ok (List.replicate n ⟨m', u, [], [], false⟩)) ∧
          ∀ (r : Ret) (v : Option Val) (ans : Bytes), RetIs r v → Spec.Answer rt.wire S f (some i) v ans →
            ∃ N', ∀ k', N' ≤ k' → ∀ (m1 : Bufs) (u1 : σ), ∃ n rest',
              runFuture (codecAt rt (P.withArgs R) k') lib U r n m1 u1 t = .ok (⟨m1.server, ans ++ rest'⟩, [(f.id, vs)]) := by
  rintro _ _ rfl rfl
  obtain ⟨st, hst⟩ := statusOk_codecAt hrt
  refine fun f hf hr ha => ⟨_, handlers_lookup scope h.accepted.wf h.rpcNamed.methods hf, ?_⟩
  intro σ lib hlib U m u i vs req rest hreq hm
  obtain ⟨s, b, hs, hb, hok, N1, hread⟩ := request_reads hrt h.accepted.wf h.named h.distinct h.rpcNamed h.noExt hf hr hreq
  refine ⟨N1, fun k hk => ?_⟩
  rw [withArgs_genProg]
  have hst' := hst (genProg (argsSchema S))
  have e := st_eq (hst' k) hs
  obtain ⟨r1, h1⟩ := hlib m.server (st .x00)
  have hrun := async_run (lib := lib) (U := U) (u := u) (hst' k) hr ha (m := m) (b := b ++ rest)
    (v := argsVal f (some i) vs) (by rw [hm, hb, e, List.append_assoc]) (by simp only [codecAt, hread k hk rest])
  refine ⟨_, _, hrun, fun n => runTimes_idle ?_ n, ?_⟩
  · obtain ⟨j, r, h3, h4⟩ := readStatus_noMessage (P := genProg (argsSchema S)) (k := k)
      (h1 ▸ noMessage_x00 (hst' k) r1)
    exact idle_run hr h3 h4
  · intro r v ans hret hans
    obtain ⟨s', mb, rb, hs', hmb, hres, hansb⟩ := hans
    rw [hs] at hs'
    obtain rfl := Option.some.inj hs'
    obtain ⟨N2, hwrite⟩ := resultBytes_of h.accepted.wf h.named h.noClash h.rpcNamed h.noExt hf hret hres
    refine ⟨N2, fun k' hk' m1 u1 => ?_⟩
    obtain ⟨r2, h2⟩ := hlib m1.client (st .xFF ++ (mb ++ rb))
    refine ⟨7, r2, ?_⟩
    have s1 := asyncTask_step (C := codecAt rt (genProg (argsSchema S)) k') (lib := lib) (U := U) (f := f) m1 u1 (argsVal f (some i) vs)
    have s2 := asyncTask1_step (C := codecAt rt (genProg (argsSchema S)) k') (lib := lib) (U := U) ha (h.rpcNamed.locals f hf)
      (h.rpcNamed.args f hf).1 (h.rpcNamed.args f hf).2 (mid := i) hok.2 m1 u1
    have s3 := asyncTask3_step (C := codecAt rt (genProg (argsSchema S)) k') (lib := lib) (U := U) (f := f) m1 u1 (argsVal f (some i) vs) r
    have s4 := asyncTask4_step (lib := lib) (U := U) (hst' k') ha (mid := i) (vs := vs) (mb := mb) hmb (hwrite k' hk') m1 u1
    rw [runFuture_step rfl (by simp [asyncTask]) s1, runFuture_step rfl (by simp [asyncTask1]) s2, runFuture_resume rfl, asyncTask2_resume,
      runFuture_step rfl (by simp [asyncTask3]) s3, runFuture_step rfl (by simp [asyncTask4]) s4, runFuture_end rfl rfl]
    rw [e] at h2
    simp [Except.map, h2, hansb, e]

/-- **C33, asynchronous methods.** The first run of the handler after a request spawns one future, and any
number of further runs without a new request do nothing, report no work and change neither buffer.
Whenever it is run, the future calls the method once, with the arguments of the request, and once the
method has yielded its result the client buffer begins with the answer that holds the method id of the
request and this result. -/
theorem C33_async_exactly_once (rt : Runtime) (hrt : rt.Lawful) (S : List ASTNode) (h : RpcOk rt.wire S)
    (hM : methodsOf S ≠ []) (out : String) (hout : RustGen.rpc S = .ok out) :
    ∃ P R, Emits S P ∧ EmitsRpc S R ∧ ∀ f ∈ methodsOf S, f.isRead = false → f.isAsync = true →
      ∃ hd, R.handlers.lookup f.position = some hd ∧
      ∀ (σ : Type) (lib : BufLib) (_ : lib.Lawful) (U : User σ) (m : Bufs) (u : σ) (i : Int) (vs : List Val) (req rest : Bytes),
        Request rt.wire S f (some i) vs req → m.server = req ++ rest →
        ∃ N, ∀ k, N ≤ k → ∃ m' t,
          runHandler (codecAt rt (P.withArgs R) k) lib U hd m u = .ok ⟨m', u, [], [t], true⟩ ∧
          (∀ n, runTimes (codecAt rt (P.withArgs R) k) lib U hd n m' u = .ok (List.replicate n ⟨m', u, [], [], false⟩)) ∧
          ∀ (r : Ret) (v : Option Val) (ans : Bytes), RetIs r v → Spec.Answer rt.wire S f (some i) v ans →
            ∃ N', ∀ k', N' ≤ k' → ∀ (m1 : Bufs) (u1 : σ), ∃ n rest',
              runFuture (codecAt rt (P.withArgs R) k') lib U r n m1 u1 t = .ok (⟨m1.server, ans ++ rest'⟩, [(f.id, vs)]) := by
  obtain ⟨scope, hR⟩ := emitsRpc_of h.accepted.wf hout hM
  exact ⟨_, _, emits_genProg S h.accepted, hR, async_once hrt h scope _ _ rfl rfl⟩

/-- The server never sees anything but requests of `f` in the server buffer of `f`. -/
def OnlyRequests (W : Wire) (S : List ASTNode) (f : FnNode) (xs : List Act) : Prop :=
  ∀ bs, Act.request f.position bs ∈ xs → ∃ mid vs, Request W S f mid vs bs

/-- `bs` is the request `q`, and emitted code with a stack of at least `N` reads it. -/
def ReadableAt (rt : Runtime) (S : List ASTNode) (f : FnNode) (st : Status → Bytes) (N : Nat) (q : Rq) (bs : Bytes) : Prop :=
  Request rt.wire S f q.1 q.2 bs ∧ RqOk f q ∧ ∃ b, bs = st .xFF ++ b ∧ ∀ k, N ≤ k → ∀ r,
    readTy rt (genProg (argsSchema S)) k (.named (argsName f)) (b ++ r) = .ok (argsVal f q.1 q.2, r)

theorem ReadableAt.mono {rt : Runtime} {S : List ASTNode} {f : FnNode} {st : Status → Bytes} {N M : Nat} {q : Rq} {bs : Bytes} (h : N ≤ M)
    (hq : ReadableAt rt S f st N q bs) : ReadableAt rt S f st M q bs := by
  obtain ⟨h1, h2, b, h3, h4⟩ := hq
  exact ⟨h1, h2, b, h3, fun k hk => h4 k (by omega)⟩

/-- A request can be read in one way only. -/
theorem readableAt_unique {rt : Runtime} {S : List ASTNode} {f : FnNode} {st : Status → Bytes} {N : Nat} {q q' : Rq} {bs : Bytes}
    (h1 : ReadableAt rt S f st N q bs) (h2 : ReadableAt rt S f st N q' bs) : q = q' := by
  obtain ⟨-, k1, b1, e1, r1⟩ := h1
  obtain ⟨-, k2, b2, e2, r2⟩ := h2
  have : b1 = b2 := List.append_cancel_left (e1.symm.trans e2)
  subst this
  have e := r1 N (Nat.le_refl _) []
  rw [r2 N (Nat.le_refl _) []] at e
  simp only [Except.ok.injEq, Prod.mk.injEq, and_true] at e
  exact argsVal_inj k1 k2 e.symm

/-- Requests that can be read with some stack can be read with a common one. -/
theorem common_bound {α : Type} {p : α → Nat → Prop} (hm : ∀ x n m, n ≤ m → p x n → p x m) (l : List α) (h : ∀ x ∈ l, ∃ N, p x N) :
    ∃ N, ∀ x ∈ l, p x N := by
  induction l with
  | nil => exact ⟨0, by simp⟩
  | cons x l ih =>
    obtain ⟨N1, h1⟩ := h x (by simp)
    obtain ⟨N2, h2⟩ := ih (fun y hy => h y (by simp [hy]))
    refine ⟨max N1 N2, fun y hy => ?_⟩
    rcases List.mem_cons.1 hy with rfl | hy
    · exact hm _ _ _ (by omega) h1
    · exact hm _ _ _ (by omega) (h2 y hy)

theorem readable_requests {rt : Runtime} (hrt : rt.Lawful) {S : List ASTNode} (h : RpcOk rt.wire S) {f : FnNode} (hf : f ∈ methodsOf S)
    (hr : f.isRead = false) (st : Status → Bytes) (hst : ∀ P k, (codecAt rt P k).StatusOk st) {xs : List Act}
    (hreq : OnlyRequests rt.wire S f xs) :
    ∃ N, ∀ bs, Act.request f.position bs ∈ xs → ∃ q, ReadableAt rt S f st N q bs := by
  obtain ⟨N, hN⟩ := common_bound (p := fun x N => ∀ bs, x = Act.request f.position bs → ∃ q, ReadableAt rt S f st N q bs)
    (fun x n m hnm hp bs hx => (hp bs hx).imp (fun _ hq => hq.mono hnm)) xs (by
      intro x hx
      by_cases e : ∃ bs, x = Act.request f.position bs
      · obtain ⟨bs, rfl⟩ := e
        obtain ⟨mid, vs, hq⟩ := hreq bs hx
        obtain ⟨s, b, hs, hb, hok, N1, hread⟩ := request_reads hrt h.accepted.wf h.named h.distinct h.rpcNamed h.noExt hf hr hq
        refine ⟨N1, fun bs' e => ⟨(mid, vs), ?_⟩⟩
        simp only [Act.request.injEq, true_and] at e
        subst e
        exact ⟨hq, hok, b, by rw [hb, st_eq (hst (genProg S) 0) hs], hread⟩
      · exact ⟨0, fun bs hx => absurd ⟨bs, hx⟩ e⟩)
  exact ⟨N, fun bs hbs => hN _ hbs bs rfl⟩

/-- The invariant holds in every state that a history reaches. -/
theorem requests_inv {rt : Runtime} (hrt : rt.Lawful) {S : List ASTNode} (h : RpcOk rt.wire S) {f : FnNode} (hf : f ∈ methodsOf S)
    (hr : f.isRead = false) (scope : String) {st : Status → Bytes} (hst : ∀ P k, (codecAt rt P k).StatusOk st)
    {σ : Type} {lib : BufLib} (hlib : lib.Lawful) (U : User σ) (mem : Nat → Bufs) (u : σ) {xs : List Act} {k N : Nat} (K E : Prop)
    (hE : E → ∀ ys bs zs c, xs = ys ++ Act.request f.position bs :: zs →
      acts (codecAt rt (genProg (argsSchema S)) k) lib U (genRpc scope S).handlers (Cfg.initial mem u) ys = some c →
      ¬ Busy (codecAt rt (genProg (argsSchema S)) k) (c.mem f.position))
    (hK : K → ∀ bs, Act.clear f.position bs ∈ xs → ∀ r, ¬ Ready (codecAt rt (genProg (argsSchema S)) k) (bs ++ r)) (hk : N ≤ k)
    (hN : ∀ bs, Act.request f.position bs ∈ xs → ∃ q, ReadableAt rt S f st N q bs)
    (hm : ¬ Busy (codecAt rt (genProg (argsSchema S)) k) (mem f.position))
    (hc0 : K → ¬ Ready (codecAt rt (genProg (argsSchema S)) k) (mem f.position).client) {c : Cfg σ}
    (hc : acts (codecAt rt (genProg (argsSchema S)) k) lib U (genRpc scope S).handlers (Cfg.initial mem u) xs = some c) :
    RqInv K E (fun _ => 0) (codecAt rt (genProg (argsSchema S)) k) st f f.position (ReadableAt rt S f st N) c := by
  refine acts_inv_at (RqInv K E (fun _ => 0) (codecAt rt (genProg (argsSchema S)) k) st f f.position (ReadableAt rt S f st N)) ?_ ?_ hc
  · intro ys x zs hxs c c' hc hI hact
    have hx : x ∈ xs := by simp [hxs]
    refine rqInv_act (Q := ReadableAt rt S f st N) (hst (genProg (argsSchema S)) k) hlib hr (h.rpcNamed.args f hf).1 (h.rpcNamed.args f hf).2
      (handlers_lookup scope h.accepted.wf h.rpcNamed.methods hf) ?_ ?_ (fun _ _ _ _ => readableAt_unique) ?_
      (fun e bs hb => hE e ys bs zs c (by rw [hxs, hb]) hc) hI hact
    · rintro q bs ⟨_, hok, b, hb, hread⟩
      exact ⟨hok, b, hb, fun r => by simp only [codecAt, hread k hk r]⟩
    · rintro bs rfl
      exact hN bs hx
    · rintro hK' bs rfl
      exact hK hK' bs hx
  · refine ⟨by simp [Cfg.initial], ⟨.no, none, fun _ => 0, by simp, by simp, .idle, trivial, hm, by simp, fun vs => ?_⟩, fun h1 _ h2 => absurd h2 (hc0 h1)⟩
    simp [Cfg.initial, num_nil, Hold.count, one]

theorem at_most_once {rt : Runtime} (hrt : rt.Lawful) {S : List ASTNode} (h : RpcOk rt.wire S) (scope : String) {f : FnNode}
    (hf : f ∈ methodsOf S) (hr : f.isRead = false) {σ : Type} {lib : BufLib} (hlib : lib.Lawful) (U : User σ) (mem : Nat → Bufs) (u : σ)
    {qs : List Act} (hm : NoMessage (rt.readP "u8") (mem f.position).server) (hreq : OnlyRequests rt.wire S f qs) :
    ∃ N, ∀ k, N ≤ k → ∀ xs, (∀ bs, Act.request f.position bs ∈ xs → Act.request f.position bs ∈ qs) → ∀ c,
      acts (codecAt rt (genProg (argsSchema S)) k) lib U (genRpc scope S).handlers (Cfg.initial mem u) xs = some c →
      ∀ vs, num (fun e => e = Ev.called f.position f.id vs) c.log
        ≤ num (fun e => ∃ mid bs, e = Ev.requested f.position bs ∧ Request rt.wire S f mid vs bs) c.log := by
  obtain ⟨st, hst⟩ := statusOk_codecAt hrt
  obtain ⟨N, hN⟩ := readable_requests hrt h hf hr st hst hreq
  refine ⟨N, fun k hk xs hxs c hc vs => ?_⟩
  obtain ⟨n0, r0, hs0, hn0⟩ := readStatus_noMessage (P := genProg (argsSchema S)) (k := k) hm
  have hI := requests_inv hrt h hf hr scope hst hlib U mem u False False (by simp) (by simp) hk (fun bs hbs => hN bs (hxs bs hbs))
    (by rintro ⟨b, hb⟩; rw [hs0] at hb; simp at hb; exact hn0 hb.1) (by simp) hc
  obtain ⟨_, ⟨H, B, _, _, _, _, _, _, _, hcount⟩, _⟩ := hI
  have h1 : num (Ev.IsCall f.position f.id vs) c.log ≤ num (Ev.IsRequest (ReadableAt rt S f st N) f.position vs) c.log := by
    have := hcount vs
    omega
  refine Nat.le_trans h1 (num_mono ?_)
  rintro e _ ⟨i, bs, rfl, hq⟩
  exact ⟨i, bs, rfl, hq.1⟩

/-- **C33, every history.** Whatever requests the client makes, whenever the handlers are run and in
whatever order their statements, those of spawned futures and the ends of user futures follow each other:
the method has been called with given arguments at most as often as it has been requested with them. -/
theorem C33_at_most_once_per_request (rt : Runtime) (hrt : rt.Lawful) (S : List ASTNode) (h : RpcOk rt.wire S)
    (hM : methodsOf S ≠ []) (out : String) (hout : RustGen.rpc S = .ok out) :
    ∃ P R, Emits S P ∧ EmitsRpc S R ∧ ∀ f ∈ methodsOf S, f.isRead = false →
      ∀ (σ : Type) (lib : BufLib) (_ : lib.Lawful) (U : User σ) (mem : Nat → Bufs) (u : σ) (xs : List Act),
        NoMessage (rt.readP "u8") (mem f.position).server → OnlyRequests rt.wire S f xs →
        ∃ N, ∀ k, N ≤ k → ∀ c, acts (codecAt rt (P.withArgs R) k) lib U R.handlers (Cfg.initial mem u) xs = some c →
          ∀ vs, num (fun e => e = Ev.called f.position f.id vs) c.log
            ≤ num (fun e => ∃ mid bs, e = Ev.requested f.position bs ∧ Request rt.wire S f mid vs bs) c.log := by
  obtain ⟨scope, hR⟩ := emitsRpc_of h.accepted.wf hout hM
  refine ⟨_, _, emits_genProg S h.accepted, hR, fun f hf hr σ lib hlib U mem u xs hm hreq => ?_⟩
  rw [withArgs_genProg]
  obtain ⟨N, hN⟩ := at_most_once hrt h scope hf hr hlib U mem u hm hreq
  exact ⟨N, fun k hk c hc => hN k hk xs (fun _ h => h) c hc⟩

/-- The emitted program of the example schema. -/
def exampleCodec : Codec := codecAt LE.rust ((genProg rpcSchema).withArgs (genRpc "8b61" rpcSchema)) 10

/-- Write from the beginning of the buffer and keep the rest. -/
def overwrite : BufLib := fun old bs => bs ++ old.drop bs.length

theorem overwrite_lawful : overwrite.Lawful := fun _ _ => ⟨_, rfl⟩

/-- A history of the example schema: a request of `slow` with method id 6 for a point, a run of the handler
with a second request of `slow` with method id 9 coming in as soon as the first one is consumed, another run,
and then the two futures, which take turns. -/
def exampleHistory : List Act :=
  [.request 1 (255 :: (LE.le 8 6 ++ ptBytes 1)), .poll 1] ++ List.replicate 4 .stepH ++
    [.request 1 (255 :: (LE.le 8 9 ++ ptBytes 2))] ++ List.replicate 4 .stepH ++ [.endH, .poll 1] ++ List.replicate 8 .stepH ++
    [.endH, .stepT 0, .stepT 1, .stepT 0, .stepT 1, .resume 1 (.val (.int 22)), .resume 0 (.val (.int 11)), .stepT 1, .stepT 0, .stepT 1,
      .clear 1 [0], .stepT 0]

/-- It is possible; two calls are made, and the buffers end with no request and the answer to the first
request, whose future ended last. -/
example : (acts exampleCodec overwrite exampleUser (genRpc "8b61" rpcSchema).handlers (Cfg.initial (fun _ => ⟨[0], [0]⟩) 0)
      exampleHistory).map (fun c => (c.log.length, c.log.countP (Ev.calledAt 1), (c.mem 1).server.head?, (c.mem 1).client))
    = some (8, 2, some 0, 255 :: (LE.le 8 6 ++ LE.le 8 11)) := by
  decide +kernel

example : OnlyRequests LE.wire rpcSchema ⟨"slow", 1, [⟨"p", .other "Point"⟩], some (.integer "i64" 8 true), false, true⟩ exampleHistory := by
  intro bs h
  simp [exampleHistory] at h
  have key : ∀ x : Int, -(2 ^ 31) ≤ x ∧ x < 2 ^ 31 → ∀ i : Nat, i < 100 → Request LE.wire rpcSchema
      ⟨"slow", 1, [⟨"p", .other "Point"⟩], some (.integer "i64" 8 true), false, true⟩ (some i) [pt x] (255 :: (LE.le 8 i ++ ptBytes x)) := by
    intro x hx i hi
    refine ⟨rfl, [255], LE.le 8 i, ptBytes x ++ [], rfl, ?_, pt_enc hx .nil, by simp⟩
    have : builtinTypes.lookup "i64" = some (.integer "i64" 8 true) := rfl
    simp only [IdBytes, LE.wire, this, LE.primOf]
    rw [if_pos (by omega)]
    have : LE.toUnsigned 8 i = i := by simp [LE.toUnsigned]; omega
    rw [this]
  rcases h with rfl | rfl
  · exact ⟨_, _, key 1 (by decide) 6 (by decide)⟩
  · exact ⟨_, _, key 2 (by decide) 9 (by decide)⟩

/-! ## C34: answers -/

/-- Results in the log come from futures that have yielded them. -/
theorem finished_resumed {σ : Type} {C : Codec} {lib : BufLib} {U : User σ} {regs : List (Nat × Handler)} {xs : List Act} {c c' : Cfg σ}
    (hc : acts C lib U regs c xs = some c') {a : Nat} {g : String} {vs : List Val} {r : Ret} (h : Ev.finished a g vs r ∈ c'.log) :
    Ev.finished a g vs r ∈ c.log ∨ ∃ i, Act.resume i r ∈ xs := by
  induction xs generalizing c with
  | nil =>
    simp only [acts, Option.some.injEq] at hc
    exact .inl (hc ▸ h)
  | cons x xs ih =>
    simp only [acts] at hc
    cases hx : act C lib U regs c x with
    | none => simp [hx] at hc
    | some c1 =>
      simp only [hx] at hc
      rcases ih hc with h1 | ⟨i, h1⟩
      · cases x with
        | resume i r' =>
          simp only [act] at hx
          split at hx
          · split at hx
            · simp only [Option.some.injEq] at hx
              subst hx
              simp only [List.mem_append, List.mem_singleton, Ev.finished.injEq] at h1
              rcases h1 with h1 | ⟨_, _, _, rfl⟩
              · exact .inl h1
              · exact .inr ⟨i, by simp⟩
            · simp at hx
          · simp at hx
        | poll b =>
          simp only [act] at hx
          split at hx <;> simp at hx
          subst hx
          exact .inl h1
        | stepH =>
          simp only [act] at hx
          split at hx
          · split at hx <;> simp at hx
            subst hx
            refine .inl ?_; simpa using h1
          · simp at hx
        | endH =>
          simp only [act] at hx
          split at hx
          · split at hx <;> simp at hx
            subst hx
            refine .inl ?_; simpa using h1
          · simp at hx
        | stepT i =>
          simp only [act] at hx
          split at hx
          · split at hx
            · simp at hx
            · split at hx <;> simp at hx
              subst hx
              refine .inl ?_; simpa using h1
          · simp at hx
        | request b bs =>
          simp only [act, Option.some.injEq] at hx
          subst hx
          refine .inl ?_; simpa using h1
        | clear b bs =>
          simp only [act, Option.some.injEq] at hx
          subst hx
          refine .inl ?_; simpa using h1
      · exact .inr ⟨i, by simp [h1]⟩

theorem answers_match {rt : Runtime} (hrt : rt.Lawful) {S : List ASTNode} (h : RpcOk rt.wire S) (scope : String) {f : FnNode}
    (hf : f ∈ methodsOf S) (hr : f.isRead = false) (ha : f.isAsync = true) {σ : Type} {lib : BufLib} (hlib : lib.Lawful) (U : User σ)
    (mem : Nat → Bufs) (u : σ) {qs : List Act} (hm : NoMessage (rt.readP "u8") (mem f.position).server)
    (hmc : NoMessage (rt.readP "u8") (mem f.position).client) (hreq : OnlyRequests rt.wire S f qs)
    (hcl : ∀ bs, Act.clear f.position bs ∈ qs → ∀ r, NoMessage (rt.readP "u8") (bs ++ r)) :
    ∃ N, ∀ k, N ≤ k → ∀ xs, (∀ bs, Act.request f.position bs ∈ xs → Act.request f.position bs ∈ qs) →
      (∀ i r, Act.resume i r ∈ xs → Act.resume i r ∈ qs) → (∀ bs, Act.clear f.position bs ∈ xs → Act.clear f.position bs ∈ qs) → ∀ c,
      acts (codecAt rt (genProg (argsSchema S)) k) lib U (genRpc scope S).handlers (Cfg.initial mem u) xs = some c →
      (∀ vs r, Ev.finished f.position f.id vs r ∈ c.log → ∃ v b, RetIs r v ∧ ResultIs rt.wire S f v b) →
      ∀ r0, rt.readP "u8" (c.mem f.position).client = some (.int 255, r0) →
        ∃ i vs req r v ans rest, Ev.requested f.position req ∈ c.log ∧ Request rt.wire S f (some i) vs req ∧
          Ev.finished f.position f.id vs r ∈ c.log ∧ RetIs r v ∧
          Spec.Answer rt.wire S f (some i) v ans ∧ (c.mem f.position).client = ans ++ rest := by
  obtain ⟨st, hst⟩ := statusOk_codecAt hrt
  obtain ⟨N1, hN1⟩ := readable_requests hrt h hf hr st hst hreq
  obtain ⟨N2, hN2⟩ := common_bound (p := fun x N => ∀ i r, x = Act.resume i r → ∀ v b, RetIs r v → ResultIs rt.wire S f v b →
      ∃ b, ResultIs rt.wire S f v b ∧ ∀ k, N ≤ k → ResultBytes (codecAt rt (genProg (argsSchema S)) k) f r b)
    (fun x n m hnm hp i r hx v b h1 h2 => by
      obtain ⟨b, h3, h4⟩ := hp i r hx v b h1 h2
      exact ⟨b, h3, fun k hk => h4 k (by omega)⟩) qs (by
      intro x _
      by_cases e : ∃ i r v b, x = Act.resume i r ∧ RetIs r v ∧ ResultIs rt.wire S f v b
      · obtain ⟨i, r, v, b, rfl, h1, h2⟩ := e
        obtain ⟨N, hN⟩ := resultBytes_of h.accepted.wf h.named h.noClash h.rpcNamed h.noExt hf h1 h2
        refine ⟨N, fun i' r' e v' b' h1' h2' => ⟨b, ?_, ?_⟩⟩
        · simp only [Act.resume.injEq] at e
          obtain ⟨rfl, rfl⟩ := e
          have : v' = v := by
            cases r <;> cases v <;> cases v' <;> simp_all [RetIs]
          exact this ▸ h2
        · simp only [Act.resume.injEq] at e
          obtain ⟨rfl, rfl⟩ := e
          exact hN
      · exact ⟨0, fun i r hx v b h1 h2 => absurd ⟨i, r, v, b, hx, h1, h2⟩ e⟩)
  refine ⟨max N1 N2, fun k hk xs hxs hxr hxc c hc hfin r0 hr0 => ?_⟩
  have notReady : ∀ bs, NoMessage (rt.readP "u8") bs → ¬ Ready (codecAt rt (genProg (argsSchema S)) k) bs := by
    rintro bs hbs ⟨b, hb⟩
    obtain ⟨n0, r0, hs0, hn0⟩ := readStatus_noMessage (P := genProg (argsSchema S)) (k := k) hbs
    rw [hs0] at hb
    simp at hb
    exact hn0 hb.1
  have hI := requests_inv hrt h hf hr scope hst hlib U mem u True False (by simp) (fun _ bs hbs r => notReady _ (hcl bs (hxc bs hbs) r)) (k := k) (N := N1) (by omega) (fun bs hbs => hN1 bs (hxs bs hbs))
    (notReady _ hm) (fun _ => notReady _ hmc) hc
  obtain ⟨i, vs, r, mb, rb, rest, ⟨req, hq1, hq2⟩, hfn, hmb, hrb, hcli⟩ := hI.client trivial ha ⟨r0, by simp [readStatus, codecAt, hr0]⟩
  obtain ⟨v, b, hv1, hv2⟩ := hfin vs r hfn
  obtain ⟨s, mb', b', hs, hmb', _, _⟩ := hq2.1.bytes
  have e := st_eq (hst (genProg (argsSchema S)) k) hs
  obtain ⟨j, hj⟩ : ∃ j, Act.resume j r ∈ xs := (finished_resumed hc hfn).resolve_left (by simp [Cfg.initial])
  obtain ⟨b2, hb1, hb2⟩ := hN2 _ (hxr _ _ hj) j r rfl v b hv1 hv2
  have hbb : b2 = rb := by
    have := hb2 k (by omega)
    unfold ResultBytes at this hrb
    cases ht : f.returnTypeId with
    | none => simp only [ht] at this hrb; rw [this, hrb]
    | some t =>
      simp only [ht] at this hrb
      obtain ⟨v1, rfl, h1⟩ := this
      obtain ⟨v2, h3, h2⟩ := hrb
      simp only [Ret.val.injEq] at h3
      subst h3
      cases hb : builtin? t <;> simp only [hb] at h1 h2 <;> rw [h1] at h2 <;> exact Option.some.inj h2
  subst hbb
  refine ⟨i, vs, req, r, v, s ++ mb ++ b2, rest, hq1, hq2.1, hfn, hv1, ⟨s, mb, b2, hs, hmb, hb1, rfl⟩, ?_⟩
  rw [hcli, e]
  simp

/-- **C34, server side.** In every history in which the client buffer of the asynchronous method `f` starts
without an answer and is otherwise only cleared: whenever the client buffer says that it holds an answer,
it begins with an answer that carries the method id of a request that the client has made, and the result
that `f` has yielded for the arguments of that request.  (The function's results are values of its type.) -/
theorem C34_answers_match_requests (rt : Runtime) (hrt : rt.Lawful) (S : List ASTNode) (h : RpcOk rt.wire S)
    (hM : methodsOf S ≠ []) (out : String) (hout : RustGen.rpc S = .ok out) :
    ∃ P R, Emits S P ∧ EmitsRpc S R ∧ ∀ f ∈ methodsOf S, f.isRead = false → f.isAsync = true →
      ∀ (σ : Type) (lib : BufLib) (_ : lib.Lawful) (U : User σ) (mem : Nat → Bufs) (u : σ) (xs : List Act),
        NoMessage (rt.readP "u8") (mem f.position).server → NoMessage (rt.readP "u8") (mem f.position).client →
        OnlyRequests rt.wire S f xs →
        (∀ bs, Act.clear f.position bs ∈ xs → ∀ r, NoMessage (rt.readP "u8") (bs ++ r)) →
        ∃ N, ∀ k, N ≤ k → ∀ c, acts (codecAt rt (P.withArgs R) k) lib U R.handlers (Cfg.initial mem u) xs = some c →
          (∀ vs r, Ev.finished f.position f.id vs r ∈ c.log → ∃ v b, RetIs r v ∧ ResultIs rt.wire S f v b) →
          ∀ r0, rt.readP "u8" (c.mem f.position).client = some (.int 255, r0) →
            ∃ i vs req r v ans rest, Ev.requested f.position req ∈ c.log ∧ Request rt.wire S f (some i) vs req ∧
              Ev.finished f.position f.id vs r ∈ c.log ∧ RetIs r v ∧
              Spec.Answer rt.wire S f (some i) v ans ∧ (c.mem f.position).client = ans ++ rest := by
  obtain ⟨scope, hR⟩ := emitsRpc_of h.accepted.wf hout hM
  refine ⟨_, _, emits_genProg S h.accepted, hR, fun f hf hr ha σ lib hlib U mem u xs hm hmc hreq hcl => ?_⟩
  rw [withArgs_genProg]
  obtain ⟨N, hN⟩ := answers_match hrt h scope hf hr ha hlib U mem u hm hmc hreq hcl
  exact ⟨N, fun k hk c hc => hN k hk xs (fun _ h => h) (fun _ _ h => h) (fun _ h => h) c hc⟩

/-! ## C36, C37: background reads -/

theorem free_of_noMessage {rt : Runtime} {P : Prog} {k : Nat} {m : Bufs} (h : NoMessage (rt.readP "u8") m.server) :
    Free (codecAt rt P k) m := readStatus_noMessage h

theorem reads_inv {rt : Runtime} {S : List ASTNode} (h : RpcOk rt.wire S) {f : FnNode} (hf : f ∈ methodsOf S)
    (hr : f.isRead = true) (ha : f.isAsync = true) (scope : String) {st : Status → Bytes} (hst : ∀ P k, (codecAt rt P k).StatusOk st)
    {σ : Type} {lib : BufLib} (hlib : lib.Lawful) (U : User σ) (mem : Nat → Bufs) (u : σ) {xs : List Act} {P : Prog} {k : Nat}
    (hx : ∀ bs, Act.request f.position bs ∉ xs) (hm : NoMessage (rt.readP "u8") (mem f.position).server) {c : Cfg σ}
    (hc : acts (codecAt rt P k) lib U (genRpc scope S).handlers (Cfg.initial mem u) xs = some c) :
    RdInv (codecAt rt P k) f f.position c ∧ Known (codecAt rt P k) (c.mem f.position) := by
  have hreg := handlers_lookup scope h.accepted.wf h.rpcNamed.methods hf
  refine acts_inv (fun c => RdInv (codecAt rt P k) f f.position c ∧ Known (codecAt rt P k) (c.mem f.position)) ?_ ?_ hc
  · rintro x hx' c c' ⟨h1, h2⟩ hact
    have hxr : ∀ bs, x ≠ Act.request f.position bs := by
      rintro bs rfl
      exact hx bs hx'
    exact ⟨rdInv_act (hst P k) hlib hr ha hreg hxr h1 hact, known_act (hst P k) hlib hxr h1 h2 hact⟩
  · have hfree : Free (codecAt rt P k) (mem f.position) := free_of_noMessage hm
    refine ⟨⟨by simp [Cfg.initial], ⟨0, false, .idle, by simp [Cfg.initial], by simp [Cfg.initial], ?_⟩, by simp [Cfg.initial]⟩, .inr hfree⟩
    intro _ hb
    exact absurd hb (not_busy_of_free hfree)

theorem one_read {rt : Runtime} (hrt : rt.Lawful) {S : List ASTNode} (h : RpcOk rt.wire S) (scope : String) :
    ∀ P R, P = genProg S → R = genRpc scope S → ∀ f ∈ methodsOf S, f.isRead = true → f.isAsync = true →
      ∀ (σ : Type) (lib : BufLib) (_ : lib.Lawful) (U : User σ) (mem : Nat → Bufs) (u : σ) (xs : List Act) (k : Nat) (c : Cfg σ),
        NoMessage (rt.readP "u8") (mem f.position).server → (∀ bs, Act.request f.position bs ∉ xs) →
        acts (codecAt rt (P.withArgs R) k) lib U R.handlers (Cfg.initial mem u) xs = some c →
        c.log.countP (Ev.calledAt f.position) ≤ c.log.countP (Ev.finishedAt f.position) + 1 := by
  rintro _ _ rfl rfl
  obtain ⟨st, hst⟩ := statusOk_codecAt hrt
  refine fun f hf hr ha σ lib hlib U mem u xs k c hm hx hc => ?_
  obtain ⟨⟨hT, ⟨n, w, hR, h1, _, _⟩, hlog⟩, _⟩ := reads_inv h hf hr ha scope hst hlib U mem u hx hm hc
  rw [hlog]
  have : c.tasks.countP (Task.waiting f.position) ≤ c.tasks.countP (Task.live f.position) := by
    refine List.countP_mono_left (fun t ht hw => ?_)
    simp only [Task.waiting, Bool.and_eq_true, beq_iff_eq] at hw
    have := hT t ht hw.1
    cases hth : t.thread
    rw [hth] at this hw
    cases this <;> simp_all [Task.live]
  omega

/-- **C36.** For an asynchronous read method, in every history of handler runs, statements of spawned
futures and ends of user futures: at most one call of the user's function is in flight. -/
theorem C36_one_read_in_flight (rt : Runtime) (hrt : rt.Lawful) (S : List ASTNode) (h : RpcOk rt.wire S)
    (hM : methodsOf S ≠ []) (out : String) (hout : RustGen.rpc S = .ok out) :
    ∃ P R, Emits S P ∧ EmitsRpc S R ∧ ∀ f ∈ methodsOf S, f.isRead = true → f.isAsync = true →
      ∀ (σ : Type) (lib : BufLib) (_ : lib.Lawful) (U : User σ) (mem : Nat → Bufs) (u : σ) (xs : List Act) (k : Nat) (c : Cfg σ),
        NoMessage (rt.readP "u8") (mem f.position).server → (∀ bs, Act.request f.position bs ∉ xs) →
        acts (codecAt rt (P.withArgs R) k) lib U R.handlers (Cfg.initial mem u) xs = some c →
        c.log.countP (Ev.calledAt f.position) ≤ c.log.countP (Ev.finishedAt f.position) + 1 := by
  obtain ⟨scope, hR⟩ := emitsRpc_of h.accepted.wf hout hM
  exact ⟨_, _, emits_genProg S h.accepted, hR, one_read hrt h scope _ _ rfl rfl⟩

/-- A history with two reads of `ticks`, polled in between. -/
example : (acts exampleCodec overwrite exampleUser (genRpc "8b61" rpcSchema).handlers (Cfg.initial (fun _ => ⟨[0], [0]⟩) 0)
      ([.poll 3] ++ List.replicate 6 .stepH ++ [.endH, .stepT 0, .poll 3] ++ List.replicate 3 .stepH ++
        [.endH, .resume 0 (.opt (some (pt 4)))] ++ List.replicate 5 (.stepT 0) ++
        [.poll 3] ++ List.replicate 6 .stepH ++ [.endH, .stepT 1])).map
      (fun c => (c.log.countP (Ev.calledAt 3), c.log.countP (Ev.finishedAt 3), (c.mem 3).client))
    = some (2, 1, 255 :: ptBytes 4) := by
  decide +kernel

/-- Poll the method `a`, let its handler return, and let the spawned future with index `i` begin. -/
def pollAgain (a i j : Nat) : List Act := .poll a :: (List.replicate j .stepH ++ [.endH]) ++ [.stepT i]

/-- **C37 (partial).** For an asynchronous read method, in every reachable state in which no handler is
running, every future of the method has ended, and no call has yielded nothing: the next poll marks work
and starts the user's function again.  Missing: if a call yields nothing the method stays busy forever
(`C37_read_without_result_blocks`). -/
theorem C37_next_poll_starts_again_partial (rt : Runtime) (hrt : rt.Lawful) (S : List ASTNode) (h : RpcOk rt.wire S)
    (hM : methodsOf S ≠ []) (out : String) (hout : RustGen.rpc S = .ok out) :
    ∃ P R, Emits S P ∧ EmitsRpc S R ∧ ∀ f ∈ methodsOf S, f.isRead = true → f.isAsync = true →
      ∀ (σ : Type) (lib : BufLib) (_ : lib.Lawful) (U : User σ) (mem : Nat → Bufs) (u : σ) (xs : List Act) (k : Nat) (c : Cfg σ),
        NoMessage (rt.readP "u8") (mem f.position).server → (∀ bs, Act.request f.position bs ∉ xs) →
        acts (codecAt rt (P.withArgs R) k) lib U R.handlers (Cfg.initial mem u) xs = some c →
        c.run = none → (∀ t ∈ c.tasks, t.addr = f.position → t.thread.code = []) →
        (∀ g ys, Ev.finished f.position g ys (.opt none) ∉ c.log) →
        ∃ j c', acts (codecAt rt (P.withArgs R) k) lib U R.handlers c (pollAgain f.position c.tasks.length j) = some c' ∧
          c'.log = c.log ++ [.handled f.position true, .called f.position f.id []] := by
  obtain ⟨scope, hR⟩ := emitsRpc_of h.accepted.wf hout hM
  obtain ⟨st, hst⟩ := statusOk_codecAt hrt
  refine ⟨_, _, emits_genProg S h.accepted, hR, fun f hf hr ha σ lib hlib U mem u xs k c hm hx hc hrun hend hnn => ?_⟩
  obtain ⟨⟨hT, ⟨n, w, hR, h1, _, h3⟩, hlog⟩, hknown⟩ := reads_inv h hf hr ha scope hst hlib U mem u hx hm hc
  have hnb : ¬ Busy (codecAt rt ((genProg S).withArgs (genRpc scope S)) k) (c.mem f.position) := by
    intro hb
    have hlive : c.tasks.countP (Task.live f.position) = 0 := by
      rw [List.countP_eq_zero]
      intro t ht
      simp only [Task.live]
      intro hl
      simp only [Bool.and_eq_true, beq_iff_eq] at hl
      simp [hend t ht hl.1] at hl
    rcases h3 (fun e he g ys e' => hnn g ys (e' ▸ he)) hb with hl | hw
    · omega
    · rw [hrun] at hR
      cases hR
      simp at hw
  have hfree := hknown.resolve_left hnb
  obtain ⟨t, hrun', hw, hstep⟩ := read_run (lib := lib) (U := U) (u := c.user) (hst _ k) hr ha hfree
  obtain ⟨j, hj⟩ := acts_runHandler (regs := (genRpc scope S).handlers)
    (handlers_lookup scope h.accepted.wf h.rpcNamed.methods hf) hrun hrun'
  refine ⟨j, ?_⟩
  unfold pollAgain
  rw [acts_append, hj]
  simp only [Option.bind_some, acts, act, List.map_cons, List.map_nil, List.getElem?_append_right (Nat.le_refl _), Nat.sub_self,
    List.getElem?_cons_zero, hw, hstep _ _ (h.rpcNamed.locals f hf)]
  exact ⟨_, rfl, by simp⟩

/-- The future of an asynchronous read method, as spawned. -/
theorem read_first {σ : Type} {C : Codec} {lib : BufLib} {U : User σ} {st : Status → Bytes} (hst : C.StatusOk st) {f : FnNode}
    (hr : f.isRead = true) (ha : f.isAsync = true) {regs : List (Nat × Handler)} (hreg : regs.lookup f.position = some (genHandler f))
    (hid : f.id ∉ ["scope_id", "runtime_as_mut", "memory", "async_context", "rpc_method_address", "args", "is_busy"])
    {mem : Nat → Bufs} {u : σ} (hfree : Free C (mem f.position)) (r : Ret) :
    ∃ j t, acts C lib U regs (Cfg.initial mem u) (pollAgain f.position 0 j ++ [.resume 0 r, .stepT 0])
      = some ⟨setMem mem f.position { mem f.position with server := lib (mem f.position).server (st .xFF) }, u, none, [⟨f.position, t⟩],
          [.handled f.position true, .called f.position f.id [], .finished f.position f.id [] r]⟩ ∧
      t.frame.result = some r ∧ t.wait = none ∧ t.code = [.ifResult (readTail f)] := by
  obtain ⟨t, hrun, hw, hstep⟩ := read_run (lib := lib) (U := U) (u := u) hst hr ha hfree
  obtain ⟨j, hj⟩ := acts_runHandler (regs := regs) (c := Cfg.initial mem u) hreg rfl hrun
  refine ⟨j, { t with frame := bindResult true r t.frame, wait := none, code := [.ifResult (readTail f)] }, ?_, by simp [bindResult], rfl, rfl⟩
  unfold pollAgain
  rw [acts_append, acts_append, hj]
  simp only [Option.bind_some, acts, act, Cfg.initial, List.map_cons, List.map_nil, List.nil_append, List.append_nil,
    List.getElem?_cons_zero, hw, hstep _ _ hid, setMem_self, List.set_cons_zero, Option.toList_none]
  simp only [step, Option.toList_none, List.map_nil, List.append_nil, List.cons_append, List.nil_append]
  congr 2
  funext b
  unfold setMem
  split <;> simp_all

/-- **C37, refuted.** For every asynchronous read method there is a history after which its only future has
ended, having called the user's function, which has yielded nothing; whatever happens then, however often
the method is polled, the function is never called again. -/
theorem C37_read_without_result_blocks (rt : Runtime) (hrt : rt.Lawful) (S : List ASTNode) (h : RpcOk rt.wire S)
    (hM : methodsOf S ≠ []) (out : String) (hout : RustGen.rpc S = .ok out) :
    ∃ P R, Emits S P ∧ EmitsRpc S R ∧ ∀ f ∈ methodsOf S, f.isRead = true → f.isAsync = true →
      ∀ (σ : Type) (lib : BufLib) (_ : lib.Lawful) (U : User σ) (mem : Nat → Bufs) (u : σ) (k : Nat),
        NoMessage (rt.readP "u8") (mem f.position).server →
        ∃ xs c, acts (codecAt rt (P.withArgs R) k) lib U R.handlers (Cfg.initial mem u) xs = some c ∧
          c.run = none ∧ (∀ t ∈ c.tasks, t.thread.code = []) ∧
          c.log = [.handled f.position true, .called f.position f.id [], .finished f.position f.id [] (.opt none)] ∧
          ∀ ys c', (∀ bs, Act.request f.position bs ∉ ys) → acts (codecAt rt (P.withArgs R) k) lib U R.handlers c ys = some c' →
            c'.log.countP (Ev.calledAt f.position) = 1 := by
  obtain ⟨scope, hR⟩ := emitsRpc_of h.accepted.wf hout hM
  obtain ⟨st, hst⟩ := statusOk_codecAt hrt
  refine ⟨_, _, emits_genProg S h.accepted, hR, fun f hf hr ha σ lib hlib U mem u k hm => ?_⟩
  have hreg := handlers_lookup scope h.accepted.wf h.rpcNamed.methods hf
  obtain ⟨j, t, hj, ht1, ht2, ht3⟩ := read_first (lib := lib) (U := U) (u := u) (hst ((genProg S).withArgs (genRpc scope S)) k) hr ha hreg
    (h.rpcNamed.locals f hf) (free_of_noMessage hm) (.opt none)
  have hacts : acts (codecAt rt ((genProg S).withArgs (genRpc scope S)) k) lib U (genRpc scope S).handlers (Cfg.initial mem u)
      (pollAgain f.position 0 j ++ [.resume 0 (.opt none), .stepT 0] ++ [.stepT 0])
      = some ⟨setMem mem f.position { mem f.position with server := lib (mem f.position).server (st .xFF) }, u, none,
          [⟨f.position, { t with code := [] }⟩],
          [.handled f.position true, .called f.position f.id [], .finished f.position f.id [] (.opt none)]⟩ := by
    rw [acts_append, hj]
    simp only [Option.bind_some, acts, act, List.getElem?_cons_zero, ht2, step, ht3, ht1, setMem_self, List.set_cons_zero,
      Option.toList_none, List.map_nil, List.append_nil]
    congr 2
    funext b
    unfold setMem
    split <;> simp_all
  refine ⟨_, _, hacts, rfl, by simp, rfl, ?_⟩
  intro ys c' hys hc'
  have hI := (reads_inv h hf hr ha scope hst hlib U mem u (by simp [pollAgain]) hm hacts).1
  have hdead : Dead (codecAt rt ((genProg S).withArgs (genRpc scope S)) k) f f.position
      (⟨setMem mem f.position { mem f.position with server := lib (mem f.position).server (st .xFF) }, u, none,
          [⟨f.position, { t with code := [] }⟩],
          [.handled f.position true, .called f.position f.id [], .finished f.position f.id [] (.opt none)]⟩ : Cfg σ) := by
    refine ⟨.idle, by simp [Task.live], ?_⟩
    obtain ⟨r, hr⟩ := hlib (mem f.position).server (st .xFF)
    exact ⟨r, by simp only [setMem_self, hr]; exact readStatus_of (hst _ k) .xFF r⟩
  have := acts_inv (fun c : Cfg σ => RdInv (codecAt rt ((genProg S).withArgs (genRpc scope S)) k) f f.position c ∧
      Dead (codecAt rt ((genProg S).withArgs (genRpc scope S)) k) f f.position c ∧ c.log.countP (Ev.calledAt f.position) = 1) (by
    rintro x hx c c' ⟨h1, h2, h3⟩ hact
    have hxr : ∀ bs, x ≠ Act.request f.position bs := by
      rintro bs rfl
      exact hys bs hx
    obtain ⟨h4, h5⟩ := dead_act (hst _ k) hlib hr ha hreg hxr h1 h2 hact
    exact ⟨rdInv_act (hst _ k) hlib hr ha hreg hxr h1 hact, h4, h5.trans h3⟩) ⟨hI, hdead, by simp [Ev.calledAt]⟩ hc'
  exact this.2.2

example : ∃ P R, Emits rpcSchema P ∧ EmitsRpc rpcSchema R ∧
    ∀ (lib : BufLib) (_ : lib.Lawful) (k : Nat), ∃ xs c,
      acts (codecAt LE.rust (P.withArgs R) k) lib exampleUser R.handlers (Cfg.initial (fun _ => ⟨[0], [0]⟩) 0) xs = some c ∧
      c.log = [.handled 3 true, .called 3 "ticks" [], .finished 3 "ticks" [] (.opt none)] := by
  obtain ⟨out, hout⟩ := rpcSchema_out
  obtain ⟨P, R, h1, h2, h3⟩ := C37_read_without_result_blocks LE.rust LE.rust_lawful _ rpcSchema_ok rpcSchema_methods out hout
  refine ⟨P, R, h1, h2, fun lib hlib k => ?_⟩
  obtain ⟨xs, c, h4, _, _, h5, _⟩ := h3 ⟨"ticks", 3, [], some (.other "Point"), true, true⟩
    (by simp [rpcSchema, methodsOf]) rfl rfl Nat lib hlib exampleUser (fun _ => ⟨[0], [0]⟩) 0 k ⟨0, [], rfl, by decide⟩
  exact ⟨xs, c, h4, h5⟩

/-! ## C51: read methods deliver the function's value -/

theorem evalRead {C : Codec} {st : Status → Bytes} (hst : C.StatusOk st) {f : FnNode} {t : TypeId} (ht : f.returnTypeId = some t)
    (hb : builtin? t = none) {fr : Frame} {v : Val} (hv : fr.resultRef = some v) {b : Bytes} (hw : C.write t v = some b) :
    evalBufWs C fr (.status .xFF :: genResults f) = .ok (st .xFF ++ b) := by
  have e1 := (hst .xFF).1
  cases t <;> simp [builtin?] at hb <;>
    simp [evalBufWs, evalBufW, genResults, ht, genResult, e1, orElse, bind, Except.bind, hv, hw]

theorem sync_read {rt : Runtime} (hrt : rt.Lawful) {S : List ASTNode} (h : RpcOk rt.wire S) (scope : String) :
    ∀ P R, P = genProg S → R = genRpc scope S → ∀ f ∈ methodsOf S, f.isRead = true → f.isAsync = false →
      ∀ t, f.returnTypeId = some t → builtin? t = none →
      ∃ hd, R.handlers.lookup f.position = some hd ∧
      ∀ (σ : Type) (lib : BufLib) (_ : lib.Lawful) (U : User σ) (m : Bufs) (u : σ),
        ((U f.id [] u).1 = .opt none → ∀ k,
          runHandler (codecAt rt (P.withArgs R) k) lib U hd m u = .ok ⟨m, (U f.id [] u).2, [(f.id, [])], [], false⟩) ∧
        ∀ v ans, (U f.id [] u).1 = .opt (some v) → Spec.Answer rt.wire S f none (some v) ans →
          ∃ N, ∀ k, N ≤ k → ∃ rest,
            runHandler (codecAt rt (P.withArgs R) k) lib U hd m u
              = .ok ⟨⟨m.server, ans ++ rest⟩, (U f.id [] u).2, [(f.id, [])], [], true⟩ := by
  rintro _ _ rfl rfl
  obtain ⟨st, hst⟩ := statusOk_codecAt hrt
  refine fun f hf hr ha t ht hb =>
    ⟨_, handlers_lookup scope h.accepted.wf h.rpcNamed.methods hf, fun σ lib hlib U m u => ⟨fun hU k => ?_, fun v ans hU hans => ?_⟩⟩
  all_goals
    have hid := h.rpcNamed.locals f hf
    simp only [List.mem_cons, List.not_mem_nil, or_false, not_or] at hid
    obtain ⟨i1, i2, i3, i4, i5, i6, i7⟩ := hid
  · simp only [runHandler, genHandler, hr, ha, if_true, Bool.false_eq_true, if_false, genSyncReadBody, Handler.start, stmtsSize, Stmt.size,
      Sig.names, Nat.reduceAdd]
    simp only [runThread, step, List.mem_cons, List.not_mem_nil, i1, i3, i5, or_self, if_false, callArgs, bind, Except.bind,
      Bool.false_eq_true, bindResult, if_true, hU, RetE.eval, Option.getD_none, Option.isSome_none, Option.toList_none, List.append_nil]
  · obtain ⟨s, mb, b, hs, hmb, ⟨t', ht', henc⟩, hansb⟩ := hans
    rw [ht] at ht'
    obtain rfl := Option.some.inj ht'
    obtain ⟨N, hN⟩ := write_result h.accepted.wf h.named h.noClash h.rpcNamed h.noExt ((wf_method h.accepted.wf hf).2.1 t (by simp [ht])) henc
    refine ⟨N, fun k hk => ?_⟩
    rw [withArgs_genProg]
    have e := st_eq (hst (genProg (argsSchema S)) k) hs
    have hw : (codecAt rt (genProg (argsSchema S)) k).write t v = some b := by simp only [codecAt, hN k hk]
    obtain ⟨r, hlr⟩ := hlib m.client (st .xFF ++ b)
    refine ⟨r, ?_⟩
    have hev := fun fr h1 => evalRead (f := f) (fr := fr) (hst (genProg (argsSchema S)) k) ht hb (v := v) h1 hw
    simp only [runHandler, genHandler, hr, ha, if_true, Bool.false_eq_true, if_false, genSyncReadBody, Handler.start, stmtsSize, Stmt.size,
      Sig.names, Nat.reduceAdd]
    simp only [runThread, step, List.mem_cons, List.not_mem_nil, i1, i3, i5, or_self, if_false, callArgs, bind, Except.bind,
      Bool.false_eq_true, bindResult, if_true, hU, RetE.eval, Option.getD_none, Option.isSome_none, Option.toList_none, List.nil_append,
      List.append_nil, List.cons_append, Thread.enter, true_or, or_true, hev, Bufs.set, Bufs.get, Option.getD_some, Option.isSome_some]
    rw [hlr, hansb, e, show mb = [] from hmb, List.append_nil]

/-- **C51 (partial), synchronous.** A run of the handler of a synchronous read method calls the user's
function once.  If it yields a value, the client buffer then begins with the answer that holds this value
and the handler reports work; if not, the buffers stay as they are and no work is reported.  Missing:
return types that are built in (`C51_builtin_result_is_rejected`). -/
theorem C51_sync_read_partial (rt : Runtime) (hrt : rt.Lawful) (S : List ASTNode) (h : RpcOk rt.wire S)
    (hM : methodsOf S ≠ []) (out : String) (hout : RustGen.rpc S = .ok out) :
    ∃ P R, Emits S P ∧ EmitsRpc S R ∧ ∀ f ∈ methodsOf S, f.isRead = true → f.isAsync = false →
      ∀ t, f.returnTypeId = some t → builtin? t = none →
      ∃ hd, R.handlers.lookup f.position = some hd ∧
      ∀ (σ : Type) (lib : BufLib) (_ : lib.Lawful) (U : User σ) (m : Bufs) (u : σ),
        ((U f.id [] u).1 = .opt none → ∀ k,
          runHandler (codecAt rt (P.withArgs R) k) lib U hd m u = .ok ⟨m, (U f.id [] u).2, [(f.id, [])], [], false⟩) ∧
        ∀ v ans, (U f.id [] u).1 = .opt (some v) → Spec.Answer rt.wire S f none (some v) ans →
          ∃ N, ∀ k, N ≤ k → ∃ rest,
            runHandler (codecAt rt (P.withArgs R) k) lib U hd m u
              = .ok ⟨⟨m.server, ans ++ rest⟩, (U f.id [] u).2, [(f.id, [])], [], true⟩ := by
  obtain ⟨scope, hR⟩ := emitsRpc_of h.accepted.wf hout hM
  exact ⟨_, _, emits_genProg S h.accepted, hR, sync_read hrt h scope _ _ rfl rfl⟩

theorem async_read {rt : Runtime} (hrt : rt.Lawful) {S : List ASTNode} (h : RpcOk rt.wire S) (scope : String) :
    ∀ P R, P = genProg S → R = genRpc scope S → ∀ f ∈ methodsOf S, f.isRead = true → f.isAsync = true →
      ∀ ty, f.returnTypeId = some ty → builtin? ty = none →
      ∃ hd, R.handlers.lookup f.position = some hd ∧
      ∀ (σ : Type) (lib : BufLib) (_ : lib.Lawful) (U : User σ) (m : Bufs) (u : σ) (k : Nat),
        NoMessage (rt.readP "u8") m.server →
        ∃ m' t, runHandler (codecAt rt (P.withArgs R) k) lib U hd m u = .ok ⟨m', u, [], [t], true⟩ ∧ m'.client = m.client ∧
          ∀ v ans, Spec.Answer rt.wire S f none (some v) ans →
            ∃ N, ∀ k', N ≤ k' → ∀ (m1 : Bufs) (u1 : σ), ∃ n server rest,
              runFuture (codecAt rt (P.withArgs R) k') lib U (.opt (some v)) n m1 u1 t
                = .ok (⟨server, ans ++ rest⟩, [(f.id, [])]) ∧ NoMessage (rt.readP "u8") server := by
  rintro _ _ rfl rfl
  obtain ⟨st, hst⟩ := statusOk_codecAt hrt
  refine fun f hf hr ha ty hty hb =>
    ⟨_, handlers_lookup scope h.accepted.wf h.rpcNamed.methods hf, fun σ lib hlib U m u k hm => ?_⟩
  obtain ⟨t, hrun, hw, hnames, hcode⟩ := read_run_names (lib := lib) (U := U) (u := u) (hst ((genProg S).withArgs (genRpc scope S)) k) hr ha
    (free_of_noMessage hm)
  refine ⟨_, t, hrun, rfl, fun v ans hans => ?_⟩
  obtain ⟨s, mb, b, hs, hmb, ⟨t', ht', henc⟩, hansb⟩ := hans
  rw [hty] at ht'
  obtain rfl := Option.some.inj ht'
  obtain ⟨N, hN⟩ := write_result h.accepted.wf h.named h.noClash h.rpcNamed h.noExt ((wf_method h.accepted.wf hf).2.1 ty (by simp [hty])) henc
  refine ⟨N, fun k' hk m1 u1 => ?_⟩
  rw [withArgs_genProg]
  have e := st_eq (hst (genProg (argsSchema S)) k') hs
  have e0 := (hst (genProg (argsSchema S)) k' .x00).1
  have hwr : (codecAt rt (genProg (argsSchema S)) k').write ty v = some b := by simp only [codecAt, hN k' hk]
  have hev := fun fr h1 => evalRead (f := f) (fr := fr) (hst (genProg (argsSchema S)) k') hty hb (v := v) h1 hwr
  have hev0 : ∀ fr, evalBufWs (codecAt rt (genProg (argsSchema S)) k') fr [.status .x00] = .ok (st .x00) := by
    intro fr
    simp [evalBufWs, evalBufW, e0, orElse, bind, Except.bind]
  obtain ⟨r1, h1⟩ := hlib m1.client (st .xFF ++ b)
  obtain ⟨r2, h2⟩ := hlib m1.server (st .x00)
  have hid := h.rpcNamed.locals f hf
  simp only [List.mem_cons, List.not_mem_nil, or_false, not_or] at hid
  obtain ⟨i1, i2, i3, i4, i5, i6, i7⟩ := hid
  refine ⟨8, _, r1, ?_, h2 ▸ noMessage_x00 (hst (genProg (argsSchema S)) k') r2⟩
  obtain ⟨fr, o, w, code⟩ := t
  simp only at hw hnames hcode
  subst hw hcode
  simp only [runFuture, readFut, readTail, step, hnames, List.mem_cons, List.not_mem_nil, i1, i2, i3, i4, i5, i6, i7, or_self, if_false,
    callArgs, bind, Except.bind, if_true, bindResult, Thread.enter, or_true, true_or, hev, hev0, Bufs.set, Bufs.get,
    List.append_nil]
  rw [h1, h2, hansb, e, show mb = [] from hmb]
  simp

/-- **C51 (partial), asynchronous.** When no call is in flight, the handler of an asynchronous read method
reports work and spawns a future.  Whenever that future is run, it calls the user's function once; if the
function yields a value, the client buffer then begins with the answer that holds this value, and the server
buffer is marked as free. -/
theorem C51_async_read_partial (rt : Runtime) (hrt : rt.Lawful) (S : List ASTNode) (h : RpcOk rt.wire S)
    (hM : methodsOf S ≠ []) (out : String) (hout : RustGen.rpc S = .ok out) :
    ∃ P R, Emits S P ∧ EmitsRpc S R ∧ ∀ f ∈ methodsOf S, f.isRead = true → f.isAsync = true →
      ∀ ty, f.returnTypeId = some ty → builtin? ty = none →
      ∃ hd, R.handlers.lookup f.position = some hd ∧
      ∀ (σ : Type) (lib : BufLib) (_ : lib.Lawful) (U : User σ) (m : Bufs) (u : σ) (k : Nat),
        NoMessage (rt.readP "u8") m.server →
        ∃ m' t, runHandler (codecAt rt (P.withArgs R) k) lib U hd m u = .ok ⟨m', u, [], [t], true⟩ ∧ m'.client = m.client ∧
          ∀ v ans, Spec.Answer rt.wire S f none (some v) ans →
            ∃ N, ∀ k', N ≤ k' → ∀ (m1 : Bufs) (u1 : σ), ∃ n server rest,
              runFuture (codecAt rt (P.withArgs R) k') lib U (.opt (some v)) n m1 u1 t
                = .ok (⟨server, ans ++ rest⟩, [(f.id, [])]) ∧ NoMessage (rt.readP "u8") server := by
  obtain ⟨scope, hR⟩ := emitsRpc_of h.accepted.wf hout hM
  exact ⟨_, _, emits_genProg S h.accepted, hR, async_read hrt h scope _ _ rfl rfl⟩

/-- **C51, refuted for built-in return types.** The emitted handler of a synchronous read method whose
return type is built in passes a reference where the library takes a value: the code is rejected as soon
as a value is there to be sent. -/
theorem C51_builtin_result_is_rejected (rt : Runtime) (hrt : rt.Lawful) (S : List ASTNode) (h : RpcOk rt.wire S)
    (hM : methodsOf S ≠ []) (out : String) (hout : RustGen.rpc S = .ok out) :
    ∃ P R, Emits S P ∧ EmitsRpc S R ∧ ∀ f ∈ methodsOf S, f.isRead = true → f.isAsync = false →
      ∀ t p, f.returnTypeId = some t → builtin? t = some p →
      ∃ hd, R.handlers.lookup f.position = some hd ∧
      ∀ (σ : Type) (lib : BufLib) (U : User σ) (m : Bufs) (u : σ) (k : Nat) (v : Val), (U f.id [] u).1 = .opt (some v) →
        runHandler (codecAt rt (P.withArgs R) k) lib U hd m u = .error .stuck := by
  obtain ⟨scope, hR⟩ := emitsRpc_of h.accepted.wf hout hM
  obtain ⟨st, hst⟩ := statusOk_codecAt hrt
  refine ⟨_, _, emits_genProg S h.accepted, hR, fun f hf hr ha t p ht hb =>
    ⟨_, handlers_lookup scope h.accepted.wf h.rpcNamed.methods hf, fun σ lib U m u k v hU => ?_⟩⟩
  have hid := h.rpcNamed.locals f hf
  simp only [List.mem_cons, List.not_mem_nil, or_false, not_or] at hid
  obtain ⟨i1, i2, i3, i4, i5, i6, i7⟩ := hid
  have e1 := (hst ((genProg S).withArgs (genRpc scope S)) k .xFF).1
  have hev : ∀ fr : Frame, fr.resultRef = some v →
      evalBufWs (codecAt rt ((genProg S).withArgs (genRpc scope S)) k) fr (.status .xFF :: genResults f) = .error .stuck := by
    intro fr h1
    cases t <;> simp [builtin?] at hb <;>
      simp [evalBufWs, evalBufW, genResults, ht, genResult, e1, orElse, bind, Except.bind, h1]
  simp only [runHandler, genHandler, hr, ha, if_true, Bool.false_eq_true, if_false, genSyncReadBody, Handler.start, stmtsSize, Stmt.size,
    Sig.names, Nat.reduceAdd]
  simp only [runThread, step, List.mem_cons, List.not_mem_nil, i1, i3, i5, or_self, if_false, callArgs, bind, Except.bind,
    Bool.false_eq_true, bindResult, if_true, hU, Thread.enter, true_or, or_true, hev]

end TPB.Props
