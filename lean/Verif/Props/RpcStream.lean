/-
Property theorems about the streams of the emitted Dart client: C58 (the values of read methods).
-/
import Verif.Proofs.RpcStream
import Verif.Props.RpcSystem
namespace TPB.Props
open Spec
open Rust (RetIs Buf Bufs BufLib User setMem codecAt Act Ev Ret yields)
open Rpc
open Dart (ClientState)

/-! ## C58: the client -/

/-- `s'` is `s` after `dv` has been added to the stream `name` of the client `C`; nothing else has changed. -/
structure Adds (C : Dart.Client) (name : String) (dv : Option Val) (s s' : ClientState) : Prop where
  stream : ∃ ds, C.stream s name = some ds ∧ C.stream s' name = some (ds ++ [dv])
  streams : ∀ n, n ≠ name → C.stream s' n = C.stream s n
  done : s'.done = s.done
  pending : s'.pending = s.pending
  last : s'.last = s.last
  created : s'.created = s.created
  tasks : s'.tasks = s.tasks

theorem adds_event {x : Ext} {S : List ASTNode} (hR : DartRpcNamed x S) (ns scope : String) {f : FnNode} (hf : f ∈ methodsOf S)
    (hr : f.isRead = true) (dv : Option Val) (s : ClientState) :
    Adds (Dart.genClient x ns scope S) (x.camel f.id) dv s { s with events := s.events ++ [(DartGen.varReadStreamController x f, dv)] } where
  stream := ⟨_, Dart.stream_eq hR ns scope hf hr s, by rw [Dart.stream_eq hR ns scope hf hr]; simp⟩
  streams := by
    intro n hn
    unfold Dart.Client.stream
    cases hfind : (Dart.genClient x ns scope S).getters.find? (fun g => g.name = n) with
    | none => rfl
    | some g =>
      have hg := List.mem_of_find?_eq_some hfind
      have hgn : g.name = n := by simpa using List.find?_some hfind
      simp only [Dart.genClient, findFnNodes_eq, List.mem_flatMap] at hg
      obtain ⟨f', hf', hg⟩ := hg
      cases hr' : f'.isRead with
      | false => simp [Dart.genGetters, hr'] at hg
      | true =>
        simp only [Dart.genGetters, hr', if_true, List.mem_singleton] at hg
        subst hg
        simp only at hgn
        have : DartGen.varReadStreamController x f ≠ DartGen.varReadStreamController x f' := by
          intro e
          have := Dart.controller_inj hR hf hf' hr hr' e
          subst this
          exact hn hgn.symm
        simp [this]
  done := rfl
  pending := rfl
  last := rfl
  created := rfl
  tasks := rfl

theorem read_lookup {x : Ext} {S : List ASTNode} (hR : DartRpcNamed x S) {f : FnNode} (hf : f ∈ methodsOf S) (hr : f.isRead = true) :
    ((methodsOf S).flatMap (Dart.taskOf x)).lookup (readTask x f) = some ⟨f.position, .client, Dart.genReaderHead ++ Dart.genAdd x f⟩ :=
  Rust.lookup_of_nodup (Dart.tasks_nodup hR) (List.mem_flatMap.2 ⟨f, hf, by simp [Dart.taskOf, hr, readTask, DartGen.varReadTask]⟩)

/-- `C58_client_stream` for the generated trees. -/
theorem client_stream_core (x : Ext) (rt : Dart.Runtime) (hrt : rt.Lawful) (S : List ASTNode) (hA : Accepted S)
    (hN : DartNamed x S) (hR : DartRpcNamed x S) (hD : HasDefaults S) (hU : DistinctNumbers S)
    (hd : Int) (rotate : Int → Int)
    {ns scope : String} {Q : Dart.Prog} {C : Dart.Client} (hQ : Q = Dart.genProg x S) (hC : C = Dart.genClient x ns scope S) :
    ∀ f ∈ methodsOf S, f.isRead = true →
      ∃ t, t.addr = f.position ∧ t.buf = .client ∧
      (∀ (ω : Type) (lib : BufLib) k loop mem (rest : ω), ∃ w,
        Dart.Client.create rt Q k hd rotate C lib loop mem rest = .ok w ∧ w.client.tasks.lookup (readTask x f) = some t ∧
          C.stream w.client (x.camel f.id) = some []) ∧
      (∀ sb u b, rt.wire.prim "Int8" (.int hd) = some sb → DartResult rt.wire S f u b →
        ∃ dv, ResultObject x S f u dv ∧ ∃ N, ∀ k, N ≤ k → ∀ (mem : Nat → Bufs) (rest : Bytes) (s : ClientState),
          (mem f.position).client = sb ++ b ++ rest →
          ∃ s', Dart.runTask rt Q k hd C t mem s = .ok s' ∧ Adds C (x.camel f.id) dv s s') ∧
      ∀ k (mem : Nat → Bufs) (s : ClientState) n r, rt.readP "Int8" (mem f.position).client = some (.int n, r) → n ≠ hd →
        Dart.runTask rt Q k hd C t mem s = .ok s := by
  subst hQ hC
  refine fun f hf hr =>
    ⟨⟨f.position, .client, Dart.genReaderHead ++ Dart.genAdd x f⟩, rfl, rfl, ?_, ?_, ?_⟩
  · intro ω lib k loop mem rest
    refine ⟨_, Dart.create_eq hR ns scope k mem rest, read_lookup hR hf hr, ?_⟩
    rw [Dart.stream_eq hR ns scope hf hr]
    rfl
  · intro sb u b hsb hu
    have hS := Dart.plain_of_accepted hA
    obtain ⟨-, h1⟩ := Dart.wire_int hrt (by decide) hsb
    have h3 : ∃ dv, ResultObject x S f u dv ∧ ∃ N, ∀ k, N ≤ k → ∀ rest, Dart.ReadsResult rt (Dart.genProg x S) k f dv (b ++ rest) := by
      cases u with
      | none => exact ⟨none, hu.1, 0, fun k _ rest => by simp [Dart.ReadsResult, hu.1]⟩
      | some u =>
        obtain ⟨t, ht, hl, he⟩ := hu
        obtain ⟨d, h5, M, h6⟩ := Dart.enc_read_uniform hrt hS hN hD hU hl he
        exact ⟨some d, ⟨t, ht, h5⟩, M, fun k hk rest => by simp only [Dart.ReadsResult, ht]; exact ⟨d, rest, rfl, h6 k hk rest⟩⟩
    obtain ⟨dv, hdv, N, h4⟩ := h3
    refine ⟨dv, hdv, N, fun k hk mem rest s hmem => ?_⟩
    have e1 : rt.readP "Int8" ((mem f.position).get .client) = some (.int hd, b ++ rest) := by
      simp only [Bufs.get, hmem, List.append_assoc]
      exact h1 _
    refine ⟨_, ?_, adds_event hR ns scope hf hr dv s⟩
    simp only [Dart.runTask, Dart.reader_add ns scope hf hr e1 (h4 k hk rest), bind, Except.bind]
  · intro k mem s n r hn hne
    simp only [Dart.runTask, Bufs.get, Dart.reader_noValue ns scope hn hne, bind, Except.bind]

/-- **C58, client side.** A new client has a task that reads the client buffer of the read method `f`
(synchronous or not), and a stream with the name of `f`, empty at first.  When that task runs and the buffer
holds a value, exactly that value is added at the end of this stream and nothing else changes; when the
buffer holds no message, nothing changes at all.  This holds in every state of the client. -/
theorem C58_client_stream (x : Ext) (rt : Dart.Runtime) (hrt : rt.Lawful) (S : List ASTNode) (hA : Accepted S) (hM : methodsOf S ≠ [])
    (hN : DartNamed x S) (hR : DartRpcNamed x S) (hD : HasDefaults S) (hU : DistinctNumbers S)
    (out : String) (hout : DartGen.rpcMethods x S = .ok out) (hd : Int) (rotate : Int → Int) :
    ∃ Q C, Dart.Emits x S Q ∧ Dart.EmitsRpc x S C ∧ ∀ f ∈ methodsOf S, f.isRead = true →
      ∃ t, t.addr = f.position ∧ t.buf = .client ∧
      (∀ (ω : Type) (lib : BufLib) k loop mem (rest : ω), ∃ w,
        Dart.Client.create rt Q k hd rotate C lib loop mem rest = .ok w ∧ w.client.tasks.lookup (readTask x f) = some t ∧
          C.stream w.client (x.camel f.id) = some []) ∧
      (∀ sb u b, rt.wire.prim "Int8" (.int hd) = some sb → DartResult rt.wire S f u b →
        ∃ dv, ResultObject x S f u dv ∧ ∃ N, ∀ k, N ≤ k → ∀ (mem : Nat → Bufs) (rest : Bytes) (s : ClientState),
          (mem f.position).client = sb ++ b ++ rest →
          ∃ s', Dart.runTask rt Q k hd C t mem s = .ok s' ∧ Adds C (x.camel f.id) dv s s') ∧
      ∀ k (mem : Nat → Bufs) (s : ClientState) n r, rt.readP "Int8" (mem f.position).client = some (.int n, r) → n ≠ hd →
        Dart.runTask rt Q k hd C t mem s = .ok s := by
  obtain ⟨ns, scope, hC, -⟩ := Dart.emitsRpc_of hA.wf hM hout
  exact ⟨_, _, Dart.emits_genProg hA, hC, client_stream_core x rt hrt S hA hN hR hD hU hd rotate rfl rfl⟩

/-! ## C58: client and server -/

/-- `C58_stream_partial` for the generated trees. -/
theorem stream_core (x : Ext) (rr : Rust.Runtime) (rt : Dart.Runtime) (hd : Int) (S : List ASTNode)
    (h : SystemOk x rr rt hd S)
    {scope ns sc : String} {P : Rust.Prog} {R : Rust.RpcSection} {Q : Dart.Prog} {C : Dart.Client} (hP : P = Rust.genProg S)
    (hR : R = Rust.genRpc scope S) (hQ : Q = Dart.genProg x S) (hC : C = Dart.genClient x ns sc S) :
      ∀ f ∈ methodsOf S, f.isRead = true → f.isAsync = true → PortableMethod S f → ∀ t, f.returnTypeId = some t →
      ∀ (σ : Type) (lib : BufLib) (_ : lib.Lawful) (U : User σ) (rotate : Int → Int) (mem : Nat → Bufs) (u : σ) (xs : List SysAct),
        NoMessage (rr.readP "u8") (mem f.position).server → NoMessage (rr.readP "u8") (mem f.position).client →
        (∀ bs, SysAct.server (.request f.position bs) ∉ xs) →
        (∀ bs, SysAct.server (.clear f.position bs) ∈ xs → ∀ r, NoMessage (rr.readP "u8") (bs ++ r)) →
        ∃ N, ∀ k, N ≤ k → ∃ s0, start lib rt Q k hd rotate C mem u = some s0 ∧
          ∀ ys s, (∀ y ∈ ys, y ∈ xs ∨ y.IsStep) →
            sysActs (codecAt rr (P.withArgs R) k) lib U R.handlers rt Q k hd rotate C s0 ys = some s →
            (∀ v ∈ yields f.position f.id s.server.log, ∃ b, Enc rr.wire S [t] [v] b) →
            (∃ ds, C.stream s.client (x.camel f.id) = some ds ∧
              Stutter (fun v dv => ExchangedResult x rr.wire S f (some v) dv) (yields f.position f.id s.server.log) ds) ∧
            ∀ r0, rr.readP "u8" (s.server.mem f.position).client = some (.int 255, r0) →
              ∃ v ∈ yields f.position f.id s.server.log, ∃ dv c, ExchangedResult x rr.wire S f (some v) dv ∧
                sysAct (codecAt rr (P.withArgs R) k) lib U R.handlers rt Q k hd rotate C s (.read (readTask x f)) = some { s with client := c } ∧
                Adds C (x.camel f.id) dv s.client c := by
  subst hP hR hQ hC
  have hA := h.server.accepted
  intro f hf hr ha hp t ht σ lib hlib U rotate mem u xs hm hmc hnr hcl
  rw [Rust.withArgs_genProg]
  obtain ⟨st, hst⟩ := Rust.statusOk_codecAt h.rust
  obtain ⟨N, hN⟩ := values_bound h hf hp ht xs
  refine ⟨N, fun k hk => ?_⟩
  obtain ⟨s0, h0, J0⟩ := stream_init (f := f) (t := t) (st := st) (lib := lib) (u := u) (rot := rotate) (xs := xs) (k := k) h hm hmc ns sc
  refine ⟨s0, h0, fun ys s hsub hs hty => ?_⟩
  have J := stream_acts h hf hr ha ht hst hlib hcl hnr (hN k hk) ns sc hsub J0 hs hty
  obtain ⟨B, js, es, h1, h2, -, -, h3, h4⟩ := J.stream
  rw [List.nil_append] at h3
  rw [← h3] at h4
  refine ⟨⟨_, Dart.stream_eq h.client ns sc hf hr s.client, stutter_of h4 h2⟩, fun r0 hr0 => ?_⟩
  obtain ⟨i, v, d, r, -, h6, h7, h8, h9, -⟩ := J.value h hst (hN k hk) hty h1 hr0
  refine ⟨v, List.mem_of_getElem? h6, some d, _, h7, ?_, adds_event h.client ns sc hf hr (some d) s.client⟩
  simp only [sysAct, J.tasks, read_lookup h.client hf hr, Dart.runTask, Bufs.get, Dart.reader_add ns sc hf hr h8 h9, bind, Except.bind]

/-- **C58 (partial).** Let a new client and a server on which nothing has happened share the buffers, and let
`xs` be any history of server steps, client calls and runs of the client's read tasks.  Assumptions: the
buffers of the asynchronous read method `f` hold no message at first, nobody but the server writes to them a
message, and the values that the user's function yields are values of its type.  Then the stream of `f`
carries values that the user's function has yielded, in the order in which it has yielded them.  Whenever the
client buffer holds a message, the read task can run, and it adds such a value to the stream of `f` and
changes nothing else.  Missing: a value can be delivered more than once (`C58_repeated`) and can be lost
(`C58_lost`); synchronous read methods are in `C58_sync_stream_partial`. -/
theorem C58_stream_partial (x : Ext) (rr : Rust.Runtime) (rt : Dart.Runtime) (hd : Int) (S : List ASTNode)
    (h : SystemOk x rr rt hd S) (hM : methodsOf S ≠ [])
    (outR outD : String) (hoR : RustGen.rpc S = .ok outR) (hoD : DartGen.rpcMethods x S = .ok outD) :
    ∃ P R Q C, Rust.Emits S P ∧ Rust.EmitsRpc S R ∧ Dart.Emits x S Q ∧ Dart.EmitsRpc x S C ∧
      ∀ f ∈ methodsOf S, f.isRead = true → f.isAsync = true → PortableMethod S f → ∀ t, f.returnTypeId = some t →
      ∀ (σ : Type) (lib : BufLib) (_ : lib.Lawful) (U : User σ) (rotate : Int → Int) (mem : Nat → Bufs) (u : σ) (xs : List SysAct),
        NoMessage (rr.readP "u8") (mem f.position).server → NoMessage (rr.readP "u8") (mem f.position).client →
        (∀ bs, SysAct.server (.request f.position bs) ∉ xs) →
        (∀ bs, SysAct.server (.clear f.position bs) ∈ xs → ∀ r, NoMessage (rr.readP "u8") (bs ++ r)) →
        ∃ N, ∀ k, N ≤ k → ∃ s0, start lib rt Q k hd rotate C mem u = some s0 ∧
          ∀ s, sysActs (codecAt rr (P.withArgs R) k) lib U R.handlers rt Q k hd rotate C s0 xs = some s →
            (∀ v ∈ yields f.position f.id s.server.log, ∃ b, Enc rr.wire S [t] [v] b) →
            (∃ ds, C.stream s.client (x.camel f.id) = some ds ∧
              Stutter (fun v dv => ExchangedResult x rr.wire S f (some v) dv) (yields f.position f.id s.server.log) ds) ∧
            ∀ r0, rr.readP "u8" (s.server.mem f.position).client = some (.int 255, r0) →
              ∃ v ∈ yields f.position f.id s.server.log, ∃ dv c, ExchangedResult x rr.wire S f (some v) dv ∧
                sysAct (codecAt rr (P.withArgs R) k) lib U R.handlers rt Q k hd rotate C s (.read (readTask x f)) = some { s with client := c } ∧
                Adds C (x.camel f.id) dv s.client c := by
  have hA := h.server.accepted
  obtain ⟨scope, hR⟩ := Rust.emitsRpc_of hA.wf hoR hM
  obtain ⟨ns, sc, hC, -⟩ := Dart.emitsRpc_of hA.wf hM hoD
  refine ⟨_, _, _, _, emits_genProg S hA, hR, Dart.emits_genProg hA, hC, ?_⟩
  intro f hf hr ha hp t ht σ lib hlib U rotate mem u xs hm hmc hnr hcl
  obtain ⟨N, hN⟩ := stream_core x rr rt hd S h rfl rfl rfl rfl f hf hr ha hp t ht σ lib hlib U rotate mem u xs hm hmc hnr hcl
  refine ⟨N, fun k hk => ?_⟩
  obtain ⟨s0, h0, h1⟩ := hN k hk
  exact ⟨s0, h0, fun s hs => h1 xs s (fun _ h => .inl h) hs⟩

/-! ### Example -/

/-- The method `async read ticks -> Point` of the example schema. -/
def ticks : FnNode := ⟨"ticks", 3, [], some (.other "Point"), true, true⟩

theorem ticks_mem : ticks ∈ methodsOf rpcSchema := by simp [rpcSchema, methodsOf, ticks]

theorem ticks_camel : testExt.camel ticks.id = "ticks" := by decide +kernel

theorem ticks_task : readTask testExt ticks = "_readTicksTask" := by decide +kernel

/-- The method `ticks` is polled, and its future, which is the one with number `i`, yields the point `n`. -/
def tick (i : Nat) (n : Int) : List SysAct :=
  [.server (.poll 3)] ++ List.replicate 6 (.server .stepH) ++ [.server .endH, .server (.stepT i), .server (.resume i (.opt (some (pt n))))] ++
    List.replicate 5 (.server (.stepT i))

/-- Points in the stream of `ticks`. -/
def pointOf : Val → Option Int
  | .struct _ ((_, .int n) :: _) => some n
  | _ => none

def ticksSeen (s : Sys Nat) : Option (List (Option Int)) :=
  (exampleClient.stream s.client "ticks").map (·.map (fun d => d.bind pointOf))

def ticksYielded (s : Sys Nat) : List (Option Int) := (yields 3 "ticks" s.server.log).map pointOf

/-- Three values, and the read task runs after each of them. -/
example : (runExample (tick 0 4 ++ [.read "_readTicksTask"] ++ tick 1 5 ++ [.read "_readTicksTask"] ++ tick 2 6 ++ [.read "_readTicksTask"])).map
    (fun s => (ticksYielded s, ticksSeen s)) = some ([some 4, some 5, some 6], some [some 4, some 5, some 6]) := by
  decide +kernel

/-- Values of the type `Point`. -/
def isPoint : Val → Bool
  | .struct "Point" [("x", .int n), ("tags", .list 1 [.ext "String" 7])] => decide (-(2 ^ 31) ≤ n ∧ n < 2 ^ 31)
  | _ => false

theorem isPoint_enc {v : Val} (h : isPoint v = true) : ∃ b, Enc LE.wire rpcSchema [.other "Point"] [v] b := by
  unfold isPoint at h
  split at h
  · exact ⟨_, pt_enc (by simpa using h) .nil⟩
  · simp at h

/-- The history of the example meets the assumptions of C58. -/
example : (runExample (tick 0 4 ++ [.read "_readTicksTask"] ++ tick 1 5 ++ [.read "_readTicksTask"])).map
    (fun s => ((yields 3 "ticks" s.server.log).all isPoint, ticksSeen s)) = some (true, some [some 4, some 5]) := by
  decide +kernel

example : ∃ P R Q C, Rust.Emits rpcSchema P ∧ Rust.EmitsRpc rpcSchema R ∧ Dart.Emits testExt rpcSchema Q ∧ Dart.EmitsRpc testExt rpcSchema C ∧
    ∃ N, ∀ k, N ≤ k → ∃ s0, start overwrite LE.dart Q k (-1) (· + 1) C (fun _ => ⟨[0], [0]⟩) 0 = some s0 ∧
      ∀ s, sysActs (codecAt LE.rust (P.withArgs R) k) overwrite exampleUser R.handlers LE.dart Q k (-1) (· + 1) C s0
          (tick 0 4 ++ [.read "_readTicksTask"] ++ tick 1 5 ++ [.read "_readTicksTask"]) = some s →
        (yields 3 "ticks" s.server.log).all isPoint = true →
        ∃ ds, C.stream s.client "ticks" = some ds ∧
          Stutter (fun v dv => ExchangedResult testExt LE.wire rpcSchema ticks (some v) dv) (yields 3 "ticks" s.server.log) ds := by
  obtain ⟨outR, hR⟩ := rpcSchema_out
  obtain ⟨outD, hD⟩ := rpcSchema_dartOut
  obtain ⟨P, R, Q, C, h1, h2, h3, h4, h5⟩ := C58_stream_partial testExt LE.rust LE.dart (-1) rpcSchema rpcSchema_system
    rpcSchema_methods outR outD hR hD
  obtain ⟨N, hN⟩ := h5 ticks ticks_mem rfl rfl (rpcSchema_portableMethod ticks_mem) _ rfl Nat overwrite overwrite_lawful exampleUser (· + 1)
    (fun _ => ⟨[0], [0]⟩) 0 (tick 0 4 ++ [.read "_readTicksTask"] ++ tick 1 5 ++ [.read "_readTicksTask"]) ⟨0, [], rfl, by decide⟩
    ⟨0, [], rfl, by decide⟩ (by simp [tick]) (by simp [tick])
  refine ⟨P, R, Q, C, h1, h2, h3, h4, N, fun k hk => ?_⟩
  obtain ⟨s0, h6, h7⟩ := hN k hk
  refine ⟨s0, h6, fun s hs ht => ?_⟩
  have := (h7 s hs (fun v hv => isPoint_enc (List.all_eq_true.1 ht v hv))).1
  rw [ticks_camel] at this
  exact this

/-! ### What does not hold -/

/-- **C58, refuted: repetition.** In every state as in `C58_stream_partial` in which the client buffer holds a
message, running the read task twice adds the same value twice: the client does not mark the buffer as read. -/
theorem C58_repeated (x : Ext) (rr : Rust.Runtime) (rt : Dart.Runtime) (hd : Int) (S : List ASTNode)
    (h : SystemOk x rr rt hd S) (hM : methodsOf S ≠ [])
    (outR outD : String) (hoR : RustGen.rpc S = .ok outR) (hoD : DartGen.rpcMethods x S = .ok outD) :
    ∃ P R Q C, Rust.Emits S P ∧ Rust.EmitsRpc S R ∧ Dart.Emits x S Q ∧ Dart.EmitsRpc x S C ∧
      ∀ f ∈ methodsOf S, f.isRead = true → f.isAsync = true → PortableMethod S f → ∀ t, f.returnTypeId = some t →
      ∀ (σ : Type) (lib : BufLib) (_ : lib.Lawful) (U : User σ) (rotate : Int → Int) (mem : Nat → Bufs) (u : σ) (xs : List SysAct),
        NoMessage (rr.readP "u8") (mem f.position).server → NoMessage (rr.readP "u8") (mem f.position).client →
        (∀ bs, SysAct.server (.request f.position bs) ∉ xs) →
        (∀ bs, SysAct.server (.clear f.position bs) ∈ xs → ∀ r, NoMessage (rr.readP "u8") (bs ++ r)) →
        ∃ N, ∀ k, N ≤ k → ∃ s0, start lib rt Q k hd rotate C mem u = some s0 ∧
          ∀ s, sysActs (codecAt rr (P.withArgs R) k) lib U R.handlers rt Q k hd rotate C s0 xs = some s →
            (∀ v ∈ yields f.position f.id s.server.log, ∃ b, Enc rr.wire S [t] [v] b) →
            ∀ r0, rr.readP "u8" (s.server.mem f.position).client = some (.int 255, r0) →
              ∃ ds dv s', C.stream s.client (x.camel f.id) = some ds ∧
                sysActs (codecAt rr (P.withArgs R) k) lib U R.handlers rt Q k hd rotate C s [.read (readTask x f), .read (readTask x f)] = some s' ∧
                s'.server = s.server ∧ C.stream s'.client (x.camel f.id) = some (ds ++ [dv, dv]) := by
  have hA := h.server.accepted
  obtain ⟨scope, hR⟩ := Rust.emitsRpc_of hA.wf hoR hM
  obtain ⟨ns, sc, hC, -⟩ := Dart.emitsRpc_of hA.wf hM hoD
  refine ⟨_, _, _, _, emits_genProg S hA, hR, Dart.emits_genProg hA, hC, ?_⟩
  intro f hf hr ha hp t ht σ lib hlib U rotate mem u xs hm hmc hnr hcl
  rw [Rust.withArgs_genProg]
  obtain ⟨st, hst⟩ := Rust.statusOk_codecAt h.rust
  obtain ⟨N, hN⟩ := values_bound h hf hp ht xs
  refine ⟨N, fun k hk => ?_⟩
  obtain ⟨s0, h0, J0⟩ := stream_init (f := f) (t := t) (st := st) (lib := lib) (u := u) (rot := rotate) (xs := xs) (k := k) h hm hmc ns sc
  refine ⟨s0, h0, fun s hs hty r0 hr0 => ?_⟩
  have J := stream_acts h hf hr ha ht hst hlib hcl hnr (hN k hk) ns sc (fun a ha => .inl ha) J0 hs hty
  obtain ⟨B, js, es, h1, -⟩ := J.stream
  obtain ⟨i, v, d, r, -, h6, h7, h8, h9, -⟩ := J.value h hst (hN k hk) hty h1 hr0
  refine ⟨_, some d, { s with client := { s.client with
      events := s.client.events ++ [(DartGen.varReadStreamController x f, some d)] ++ [(DartGen.varReadStreamController x f, some d)] } },
    Dart.stream_eq h.client ns sc hf hr s.client, ?_, rfl, ?_⟩
  · simp only [sysActs, sysAct, J.tasks, read_lookup h.client hf hr, Dart.runTask, Bufs.get, Dart.reader_add ns sc hf hr h8 h9, bind, Except.bind]
  · rw [Dart.stream_eq h.client ns sc hf hr]
    simp

/-- **C58, refuted: loss.** The function `ticks` yields two values before the read task runs: the stream
carries the second one only. -/
theorem C58_lost : (runExample (tick 0 4 ++ tick 1 5 ++ [.read "_readTicksTask"])).map
    (fun s => (ticksYielded s, ticksSeen s)) = some ([some 4, some 5], some [some 5]) := by
  decide +kernel

/-- What has been written for a value is determined by the value. -/
theorem result_det {x : Ext} {rr : Rust.Runtime} {rt : Dart.Runtime} {hd : Int} {S : List ASTNode} (h : SystemOk x rr rt hd S)
    {f : FnNode} (hf : f ∈ methodsOf S) {t : TypeId} (ht : f.returnTypeId = some t) {v : Val} {b b' : Bytes}
    (hb : Enc rr.wire S [t] [v] b) (hb' : Enc rr.wire S [t] [v] b') : b = b' := by
  have hw := (Rust.wf_method h.server.accepted.wf hf).2.1 t (by simp [ht])
  obtain ⟨M, hM⟩ := Rust.write_result h.server.accepted.wf h.server.named h.server.noClash h.server.rpcNamed h.server.noExt hw hb
  obtain ⟨M', hM'⟩ := Rust.write_result h.server.accepted.wf h.server.named h.server.noClash h.server.rpcNamed h.server.noExt hw hb'
  have := hM (max M M') (by omega)
  rw [hM' (max M M') (by omega)] at this
  simpa using this.symm

/-- The values that have been yielded stay, new ones come at the end. -/
theorem sysActs_yields {σ : Type} {rt : Dart.Runtime} {hd : Int} {lib : BufLib} {U : User σ} {rot : Int → Int} {k : Nat}
    {C : Rust.Codec} {regs : List (Nat × Rust.Handler)} {x : Ext} {S : List ASTNode} (ns sc : String) (a : Nat) (g : String)
    {as : List SysAct} {s s' : Sys σ} (hs : sysActs C lib U regs rt (Dart.genProg x S) k hd rot (Dart.genClient x ns sc S) s as = some s') :
    ∃ vs, yields a g s'.server.log = yields a g s.server.log ++ vs := by
  induction as generalizing s with
  | nil =>
    simp only [sysActs, Option.some.injEq] at hs
    exact ⟨[], by simp [hs]⟩
  | cons y ys ih =>
    simp only [sysActs] at hs
    split at hs
    case h_2 => simp at hs
    case h_1 s1 hs1 =>
    obtain ⟨vs, hvs⟩ := ih hs
    have : ∃ ws, yields a g s1.server.log = yields a g s.server.log ++ ws := by
      cases y with
      | server y =>
        simp only [sysAct] at hs1
        split at hs1
        · rename_i c hc
          simp only [Option.some.injEq] at hs1
          subst hs1
          obtain ⟨ws, h1, -⟩ := act_yields (a := a) (g := g) hc
          exact ⟨ws, h1⟩
        · simp at hs1
      | call name ds =>
        simp only [sysAct] at hs1
        split at hs1
        case h_2 => simp at hs1
        case h_1 n w hw =>
        obtain ⟨g', -, -, -, rfl, rfl, bs, -, rfl⟩ := Dart.call_inv ns sc (fun _ _ => ⟨_, rfl⟩) hw
        simp only [Option.some.injEq] at hs1
        subst hs1
        refine ⟨[], ?_⟩
        show yields a g (s.server.log ++ [.requested g'.position bs]) = _
        rw [Rust.yields_one _ _ _ rfl, List.append_nil]
      | read v =>
        simp only [sysAct] at hs1
        split at hs1
        case h_2 => simp at hs1
        split at hs1
        case h_2 => simp at hs1
        simp only [Option.some.injEq] at hs1
        subst hs1
        exact ⟨[], by simp⟩
    obtain ⟨ws, hws⟩ := this
    exact ⟨ws ++ vs, by rw [hvs, hws, List.append_assoc]⟩

/-- **C58, refuted: loss, for every schema.** Take any history `xs` as in `C58_stream_partial`, after which the
client buffer of the asynchronous read method `f` holds the value with number `j` of those that the user's
function has yielded.  Then whatever happens afterwards (`zs`), everything that is added to the stream of `f`
is this value or one that has been yielded after it: an earlier value that has not been delivered by then is
lost. -/
theorem C58_overwritten (x : Ext) (rr : Rust.Runtime) (rt : Dart.Runtime) (hd : Int) (S : List ASTNode)
    (h : SystemOk x rr rt hd S) (hM : methodsOf S ≠ [])
    (outR outD : String) (hoR : RustGen.rpc S = .ok outR) (hoD : DartGen.rpcMethods x S = .ok outD) :
    ∃ P R Q C, Rust.Emits S P ∧ Rust.EmitsRpc S R ∧ Dart.Emits x S Q ∧ Dart.EmitsRpc x S C ∧
      ∀ f ∈ methodsOf S, f.isRead = true → f.isAsync = true → PortableMethod S f → ∀ t, f.returnTypeId = some t →
      ∀ (σ : Type) (lib : BufLib) (_ : lib.Lawful) (U : User σ) (rotate : Int → Int) (mem : Nat → Bufs) (u : σ) (xs zs : List SysAct),
        NoMessage (rr.readP "u8") (mem f.position).server → NoMessage (rr.readP "u8") (mem f.position).client →
        (∀ bs, SysAct.server (.request f.position bs) ∉ xs ++ zs) →
        (∀ bs, SysAct.server (.clear f.position bs) ∈ xs ++ zs → ∀ r, NoMessage (rr.readP "u8") (bs ++ r)) →
        ∃ N, ∀ k, N ≤ k → ∃ s0, start lib rt Q k hd rotate C mem u = some s0 ∧
          ∀ s s', sysActs (codecAt rr (P.withArgs R) k) lib U R.handlers rt Q k hd rotate C s0 xs = some s →
            sysActs (codecAt rr (P.withArgs R) k) lib U R.handlers rt Q k hd rotate C s zs = some s' →
            (∀ v ∈ yields f.position f.id s'.server.log, ∃ b, Enc rr.wire S [t] [v] b) →
            ∀ sb j v b rest, rr.wire.prim "u8" (.int 255) = some sb → (yields f.position f.id s.server.log)[j]? = some v →
              Enc rr.wire S [t] [v] b → (s.server.mem f.position).client = sb ++ b ++ rest →
              ∃ ds ds', C.stream s.client (x.camel f.id) = some ds ∧ C.stream s'.client (x.camel f.id) = some (ds ++ ds') ∧
                Stutter (fun v dv => ExchangedResult x rr.wire S f (some v) dv) ((yields f.position f.id s'.server.log).drop j) ds' := by
  have hA := h.server.accepted
  obtain ⟨scope, hR⟩ := Rust.emitsRpc_of hA.wf hoR hM
  obtain ⟨ns, sc, hC, -⟩ := Dart.emitsRpc_of hA.wf hM hoD
  refine ⟨_, _, _, _, emits_genProg S hA, hR, Dart.emits_genProg hA, hC, ?_⟩
  intro f hf hr ha hp t ht σ lib hlib U rotate mem u xs zs hm hmc hnr hcl
  rw [Rust.withArgs_genProg]
  obtain ⟨st, hst⟩ := Rust.statusOk_codecAt h.rust
  obtain ⟨N, hN⟩ := values_bound h hf hp ht (xs ++ zs)
  refine ⟨N, fun k hk => ?_⟩
  obtain ⟨s0, h0, J0⟩ := stream_init (f := f) (t := t) (st := st) (lib := lib) (u := u) (rot := rotate) (xs := xs ++ zs) (k := k) h hm hmc ns sc
  refine ⟨s0, h0, fun s s' hs hs' hty sb j v b rest hsb hj hb hbuf => ?_⟩
  obtain ⟨ws, hws⟩ := sysActs_yields ns sc f.position f.id hs'
  have hty0 : ∀ v ∈ yields f.position f.id s.server.log, ∃ b, Enc rr.wire S [t] [v] b :=
    fun v hv => hty v (by rw [hws]; exact List.mem_append_left _ hv)
  have J := stream_acts h hf hr ha ht hst hlib hcl hnr (hN k hk) ns sc (fun a ha => .inl (by simp [ha])) J0 hs hty0
  have hjl := (List.getElem?_eq_some_iff.1 hj).1
  have J1 : StreamInv x rr S f t st (xs ++ zs) k 
      ((s.client.events.filter (fun e => e.1 = DartGen.varReadStreamController x f)).map (·.2)) j s := by
    refine ⟨J.tasks, J.reads, J.resumed, ?_⟩
    obtain ⟨B, js, es, h1, -⟩ := J.stream
    refine ⟨j, [], [], ⟨h1.tasks, h1.run, by omega, fun _ => ?_⟩, by simp, by simp, by simp, by simp, .nil⟩
    obtain ⟨i, hi⟩ := J.resumed v (List.mem_of_getElem? hj)
    obtain ⟨b2, d, h5, -, -, h8⟩ := hN k hk i v hi b hb
    obtain rfl := result_det h hf ht hb h8
    exact ⟨j, v, b, rest, by simp, hj, h5, by simp only [hbuf, st_eq (hst (Rust.genProg (Rust.argsSchema S)) k) hsb]⟩
  have J2 := stream_acts h hf hr ha ht hst hlib hcl hnr (hN k hk) ns sc (fun a ha => .inl (by simp [ha])) J1 hs' hty
  obtain ⟨B, js, es, -, h2, h3, -, h4, h5⟩ := J2.stream
  refine ⟨_, es, Dart.stream_eq h.client ns sc hf hr s.client, ?_, stutter_from h5 h2 (fun i hi => (h3 i hi).1)⟩
  rw [Dart.stream_eq h.client ns sc hf hr, h4]

/-- The hypotheses of `C58_overwritten` are met in the example after two values have been yielded: the buffer
holds the second one, which has the number 1. -/
example : ∃ P R Q C, Rust.Emits rpcSchema P ∧ Rust.EmitsRpc rpcSchema R ∧ Dart.Emits testExt rpcSchema Q ∧ Dart.EmitsRpc testExt rpcSchema C ∧
    ∃ N, ∀ k, N ≤ k → ∃ s0, start overwrite LE.dart Q k (-1) (· + 1) C (fun _ => ⟨[0], [0]⟩) 0 = some s0 ∧
      ∀ s s', sysActs (codecAt LE.rust (P.withArgs R) k) overwrite exampleUser R.handlers LE.dart Q k (-1) (· + 1) C s0
          (tick 0 4 ++ tick 1 5) = some s →
        sysActs (codecAt LE.rust (P.withArgs R) k) overwrite exampleUser R.handlers LE.dart Q k (-1) (· + 1) C s
          ([.read "_readTicksTask"] ++ tick 2 6 ++ [.read "_readTicksTask"]) = some s' →
        (yields 3 "ticks" s'.server.log).all isPoint = true → (yields 3 "ticks" s.server.log)[1]? = some (pt 5) →
        (s.server.mem 3).client = 255 :: (ptBytes 5 ++ []) →
        ∃ ds ds', C.stream s.client "ticks" = some ds ∧ C.stream s'.client "ticks" = some (ds ++ ds') ∧
          Stutter (fun v dv => ExchangedResult testExt LE.wire rpcSchema ticks (some v) dv) ((yields 3 "ticks" s'.server.log).drop 1) ds' := by
  obtain ⟨outR, hR⟩ := rpcSchema_out
  obtain ⟨outD, hD⟩ := rpcSchema_dartOut
  obtain ⟨P, R, Q, C, h1, h2, h3, h4, h5⟩ := C58_overwritten testExt LE.rust LE.dart (-1) rpcSchema rpcSchema_system
    rpcSchema_methods outR outD hR hD
  obtain ⟨N, hN⟩ := h5 ticks ticks_mem rfl rfl (rpcSchema_portableMethod ticks_mem) _ rfl Nat overwrite overwrite_lawful exampleUser (· + 1)
    (fun _ => ⟨[0], [0]⟩) 0 (tick 0 4 ++ tick 1 5) ([.read "_readTicksTask"] ++ tick 2 6 ++ [.read "_readTicksTask"]) ⟨0, [], rfl, by decide⟩
    ⟨0, [], rfl, by decide⟩ (by simp [tick]) (by simp [tick])
  refine ⟨P, R, Q, C, h1, h2, h3, h4, N, fun k hk => ?_⟩
  obtain ⟨s0, h6, h7⟩ := hN k hk
  refine ⟨s0, h6, fun s s' hs hs' ht hv hb => ?_⟩
  have := h7 s s' hs hs' (fun v hv => isPoint_enc (List.all_eq_true.1 ht v hv)) [255] 1 (pt 5) (ptBytes 5 ++ []) [] (by decide +kernel) hv
    (pt_enc (by decide) .nil) (by simpa [ticks] using hb)
  rw [ticks_camel] at this
  exact this

/-- It is met, and the first value is lost. -/
example : (runExample (tick 0 4 ++ tick 1 5)).map (fun s => ((s.server.mem 3).client, ticksYielded s, ticksSeen s)) =
      some (255 :: (ptBytes 5 ++ []), [some 4, some 5], some []) ∧
    (runExample (tick 0 4 ++ tick 1 5 ++ ([.read "_readTicksTask"] ++ tick 2 6 ++ [.read "_readTicksTask"]))).map
      (fun s => ((yields 3 "ticks" s.server.log).all isPoint, ticksSeen s)) = some (true, some [some 5, some 6]) := by
  refine ⟨by decide +kernel, by decide +kernel⟩

/-- A value that is seen twice. -/
example : (runExample (tick 0 4 ++ [.read "_readTicksTask", .read "_readTicksTask"] ++ tick 1 5 ++ [.read "_readTicksTask"])).map
    (fun s => (ticksYielded s, ticksSeen s)) = some ([some 4, some 5], some [some 4, some 4, some 5]) := by
  decide +kernel

/-- The client of the example, on a buffer with a value. -/
example : ∃ Q C t, Dart.Emits testExt rpcSchema Q ∧ Dart.EmitsRpc testExt rpcSchema C ∧ ∃ dv N, ∀ k, N ≤ k → ∀ s : ClientState,
    ∃ s', Dart.runTask LE.dart Q k (-1) C t (fun _ => ⟨[], 255 :: ptBytes 4⟩) s = .ok s' ∧ Adds C "ticks" dv s s' := by
  obtain ⟨outD, hD⟩ := rpcSchema_dartOut
  obtain ⟨Q, C, h3, h4, h5⟩ := C58_client_stream testExt LE.dart LE.dart_lawful rpcSchema rpcSchema_ok.accepted rpcSchema_methods
    rpcSchema_dartNamed rpcSchema_client rpcSchema_system.defaults rpcSchema_ok.distinct outD hD (-1) (· + 1)
  obtain ⟨t, -, -, -, h6, -⟩ := h5 ticks ticks_mem rfl
  obtain ⟨us, hus, henc, -⟩ := Dart.enc_to_dart rpcSchema_system.agree LE.rust_lawful.wire rpcSchema_system.portable
    (pt_enc (x := 4) (by decide) .nil) (by simpa using ((rpcSchema_portableMethod ticks_mem).result _ rfl).1)
  obtain ⟨u, rfl⟩ : ∃ u, us = [u] := by
    have := (Rust.Enc.length_eq henc)
    match us, this with
    | [u], _ => exact ⟨u, rfl⟩
  obtain ⟨dv, -, N, h7⟩ := h6 [255] (some u) (ptBytes 4 ++ []) (by decide +kernel) ⟨.other "Point", rfl, ((rpcSchema_portableMethod ticks_mem).result _ rfl).2, henc⟩
  refine ⟨Q, C, t, h3, h4, dv, N, fun k hk s => ?_⟩
  have := h7 k hk (fun _ => ⟨[], 255 :: ptBytes 4⟩) [] s (by simp)
  rw [ticks_camel] at this
  exact this

end TPB.Props
