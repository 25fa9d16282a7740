/-
Property theorems about histories of the emitted Dart client together with the emitted Rust server: C34
(answers complete the calls they belong to), C35 (answers can be lost).
-/
import Verif.Proofs.RpcJoint
namespace TPB.Props
open Spec
open Rust (RetIs Buf Bufs BufLib User setMem codecAt Act Ev Ret)
open Rpc
open Dart (ClientState)

/-! ## C34: the client -/

/-- The bytes of a result in Dart's view. -/
def DartResult (D : Wire) (S : List ASTNode) (f : FnNode) : Option Val → Bytes → Prop
  | none, b => f.returnTypeId = none ∧ b = []
  | some u, b => ∃ t, f.returnTypeId = some t ∧ LibraryFree S t ∧ Enc D (dartSchema S) [dartView t] [u] b

/-- The Dart object that stands for a result, if there is one. -/
def ResultObject (x : Ext) (S : List ASTNode) (f : FnNode) : Option Val → Option Val → Prop
  | none, none => f.returnTypeId = none
  | some u, some d => ∃ t, f.returnTypeId = some t ∧ DRep x (dartSchema S) [dartView t] [u] [d]
  | _, _ => False

/-- The map of the client in which the method `f` keeps its pending calls, and the name of the task that
reads its answers. -/
def pendingMap (x : Ext) (f : FnNode) : String := "_" ++ x.camel f.id ++ "Completers"
def readTask (x : Ext) (f : FnNode) : String := "_read" ++ x.pascal f.id ++ "Task"

/-- `s'` is `s` after the pending call `n` with method id `i` has been completed with `dv` and removed;
nothing else has changed. -/
structure Completes (x : Ext) (f : FnNode) (i : Int) (n : Nat) (dv : Option Val) (s s' : ClientState) : Prop where
  done : s'.done = s.done ++ [(n, dv)]
  removed : s'.pending (pendingMap x f) i = none
  others : ∀ w j, (w, j) ≠ (pendingMap x f, i) → s'.pending w j = s.pending w j
  last : s'.last = s.last
  created : s'.created = s.created
  events : s'.events = s.events
  tasks : s'.tasks = s.tasks

theorem completes_remove (x : Ext) (f : FnNode) (i : Int) (n : Nat) (dv : Option Val) (s : ClientState) :
    Completes x f i n dv s ({ s with done := s.done ++ [(n, dv)] }.remove (pendingMap x f) i) where
  done := rfl
  removed := by simp [ClientState.remove]
  others := by
    intro w j h
    simp only [ClientState.remove]
    rw [if_neg (by simpa using h)]
  last := rfl
  created := rfl
  events := rfl
  tasks := rfl

theorem task_lookup {x : Ext} {S : List ASTNode} (hR : DartRpcNamed x S) {f : FnNode} (hf : f ∈ methodsOf S) (hr : f.isRead = false)
    (ha : f.isAsync = true) : ((methodsOf S).flatMap (Dart.taskOf x)).lookup (readTask x f) = some ⟨f.position, .client, Dart.answerReader x f⟩ :=
  Rust.lookup_of_nodup (Dart.tasks_nodup hR) (List.mem_flatMap.2 ⟨f, hf, by simp [Dart.taskOf, hr, ha, readTask, DartGen.varReadTask]⟩)

/-- `C34_client_answer` for the generated trees. -/
theorem client_answer_core (x : Ext) (rt : Dart.Runtime) (hrt : rt.Lawful) (S : List ASTNode) (hA : Accepted S)
    (hN : DartNamed x S) (hR : DartRpcNamed x S) (hD : HasDefaults S) (hU : DistinctNumbers S)
    (hd : Int) (rotate : Int → Int)
    {ns scope : String} {Q : Dart.Prog} {C : Dart.Client} (hQ : Q = Dart.genProg x S) (hC : C = Dart.genClient x ns scope S) :
    ∀ f ∈ methodsOf S, f.isRead = false → f.isAsync = true →
      ∃ t, t.addr = f.position ∧ t.buf = .client ∧
      (∀ (ω : Type) (lib : BufLib) k loop mem (rest : ω), ∃ w,
        Dart.Client.create rt Q k hd rotate C lib loop mem rest = .ok w ∧ w.client.tasks.lookup (readTask x f) = some t) ∧
      ∀ i sb mb u b, rt.wire.prim "Int8" (.int hd) = some sb → rt.wire.prim "Int64" (.int i) = some mb → DartResult rt.wire S f u b →
        ∃ dv, ResultObject x S f u dv ∧ ∃ N, ∀ k, N ≤ k → ∀ (mem : Nat → Bufs) (rest : Bytes) (s : ClientState),
          (mem f.position).client = sb ++ mb ++ b ++ rest →
          (∀ n, s.pending (pendingMap x f) i = some n → n ∉ s.done.map (·.1) →
            ∃ s', Dart.runTask rt Q k hd C t mem s = .ok s' ∧ Completes x f i n dv s s') ∧
          (s.pending (pendingMap x f) i = none → Dart.runTask rt Q k hd C t mem s = .ok s) := by
  subst hQ hC
  refine fun f hf hr ha => ⟨⟨f.position, .client, Dart.answerReader x f⟩, rfl, rfl, ?_, ?_⟩
  · exact fun ω lib k loop mem rest => ⟨_, Dart.create_eq hR ns scope k mem rest, task_lookup hR hf hr ha⟩
  · intro i sb mb u b hsb hmb hu
    have hS := Dart.plain_of_accepted hA
    obtain ⟨-, h1⟩ := Dart.wire_int hrt (by decide) hsb
    obtain ⟨-, h2⟩ := Dart.wire_int hrt (by decide) hmb
    have h3 : ∃ dv, ResultObject x S f u dv ∧ ∃ N, ∀ k, N ≤ k → ∀ rest, Dart.ReadsResult rt (Dart.genProg x S) k f dv (b ++ rest) := by
      cases u with
      | none => exact ⟨none, hu.1, 0, fun k _ rest => by simp [Dart.ReadsResult, hu.1]⟩
      | some u =>
        obtain ⟨t, ht, hl, he⟩ := hu
        obtain ⟨d, h5, M, h6⟩ := Dart.enc_read_uniform hrt hS hN hD hU hl he
        exact ⟨some d, ⟨t, ht, h5⟩, M, fun k hk rest => by simp only [Dart.ReadsResult, ht]; exact ⟨d, rest, rfl, h6 k hk rest⟩⟩
    obtain ⟨dv, hdv, N, h4⟩ := h3
    refine ⟨dv, hdv, N, fun k hk mem rest s hmem => ?_⟩
    have e1 : rt.readP "Int8" ((mem f.position).get .client) = some (.int hd, mb ++ (b ++ rest)) := by
      simp only [Bufs.get, hmem, List.append_assoc]
      exact h1 _
    constructor
    · intro n hn hnd
      refine ⟨_, ?_, completes_remove x f i n dv s⟩
      simp only [Dart.runTask, Dart.reader_pending ns scope hf hr ha e1 (h2 _) (h4 k hk rest) hn hnd, bind, Except.bind]
      rfl
    · intro hn
      simp only [Dart.runTask, Dart.reader_stale ns scope hf hr ha e1 (h2 _) (h4 k hk rest) hn, bind, Except.bind]

/-- **C34, client side.** A new client has a task that reads the client buffer of the asynchronous method
`f`.  When that task runs and the buffer holds an answer with the method id `i` and a result: if the call
`i` of `f` is pending, it is completed with exactly that result and removed, and no other pending call and
nothing else changes; if it is not pending (an unknown or repeated answer), nothing changes at all.  This
holds in every state of the client. -/
theorem C34_client_answer (x : Ext) (rt : Dart.Runtime) (hrt : rt.Lawful) (S : List ASTNode) (hA : Accepted S) (hM : methodsOf S ≠ [])
    (hN : DartNamed x S) (hR : DartRpcNamed x S) (hD : HasDefaults S) (hU : DistinctNumbers S)
    (out : String) (hout : DartGen.rpcMethods x S = .ok out) (hd : Int) (rotate : Int → Int) :
    ∃ Q C, Dart.Emits x S Q ∧ Dart.EmitsRpc x S C ∧ ∀ f ∈ methodsOf S, f.isRead = false → f.isAsync = true →
      ∃ t, t.addr = f.position ∧ t.buf = .client ∧
      (∀ (ω : Type) (lib : BufLib) k loop mem (rest : ω), ∃ w,
        Dart.Client.create rt Q k hd rotate C lib loop mem rest = .ok w ∧ w.client.tasks.lookup (readTask x f) = some t) ∧
      ∀ i sb mb u b, rt.wire.prim "Int8" (.int hd) = some sb → rt.wire.prim "Int64" (.int i) = some mb → DartResult rt.wire S f u b →
        ∃ dv, ResultObject x S f u dv ∧ ∃ N, ∀ k, N ≤ k → ∀ (mem : Nat → Bufs) (rest : Bytes) (s : ClientState),
          (mem f.position).client = sb ++ mb ++ b ++ rest →
          (∀ n, s.pending (pendingMap x f) i = some n → n ∉ s.done.map (·.1) →
            ∃ s', Dart.runTask rt Q k hd C t mem s = .ok s' ∧ Completes x f i n dv s s') ∧
          (s.pending (pendingMap x f) i = none → Dart.runTask rt Q k hd C t mem s = .ok s) := by
  obtain ⟨ns, scope, hC, -⟩ := Dart.emitsRpc_of hA.wf hM hout
  exact ⟨_, _, Dart.emits_genProg hA, hC, client_answer_core x rt hrt S hA hN hR hD hU hd rotate rfl rfl⟩

/-! ## C34: client and server -/

/-- `C34_calls_completed` for the generated trees. -/
theorem calls_completed_core (x : Ext) (rr : Rust.Runtime) (rt : Dart.Runtime) (hd : Int) (S : List ASTNode)
    (h : SystemOk x rr rt hd S)
    {scope ns sc : String} {P : Rust.Prog} {R : Rust.RpcSection} {Q : Dart.Prog} {C : Dart.Client} (hP : P = Rust.genProg S)
    (hR : R = Rust.genRpc scope S) (hQ : Q = Dart.genProg x S) (hC : C = Dart.genClient x ns sc S) :
      ∀ f ∈ methodsOf S, f.isRead = false → f.isAsync = true → PortableMethod S f →
      ∀ (σ : Type) (lib : BufLib) (_ : lib.Lawful) (U : User σ) (rotate : Int → Int) (mem : Nat → Bufs) (u : σ) (xs : List SysAct),
        NoMessage (rr.readP "u8") (mem f.position).server → NoMessage (rr.readP "u8") (mem f.position).client →
        (∀ bs, SysAct.server (.request f.position bs) ∉ xs) →
        (∀ bs, SysAct.server (.clear f.position bs) ∈ xs → ∀ r, NoMessage (rr.readP "u8") (bs ++ r)) →
        (∀ ds, SysAct.call (x.camel f.id) ds ∈ xs → DartArgs x rt.wire S f ds) →
        FreshIds rotate (xs.countP (SysAct.isCall (x.camel f.id))) →
        ∃ N, ∀ k, N ≤ k → ∃ s0, start lib rt Q k hd rotate C mem u = some s0 ∧
          ∀ ys s, (∀ y ∈ ys, y ∈ xs ∨ y.IsStep) → ys.countP (SysAct.isCall (x.camel f.id)) ≤ xs.countP (SysAct.isCall (x.camel f.id)) →
            sysActs (codecAt rr (P.withArgs R) k) lib U R.handlers rt Q k hd rotate C s0 ys = some s →
            Typed rr.wire S f s.server.log →
            (s.client.done.map (·.1)).Nodup ∧
            (∀ ds n dv, (x.camel f.id, ds, n) ∈ s.calls → (n, dv) ∈ s.client.done → CallResult x rr.wire S f s.server.log ds dv) ∧
            ∀ r0, rr.readP "u8" (s.server.mem f.position).client = some (.int 255, r0) →
              ∃ ds n dv c, (x.camel f.id, ds, n) ∈ s.calls ∧ CallResult x rr.wire S f s.server.log ds dv ∧
                sysAct (codecAt rr (P.withArgs R) k) lib U R.handlers rt Q k hd rotate C s (.read (readTask x f)) = some { s with client := c } ∧
                ((n ∉ s.client.done.map (·.1) ∧ ∃ i, s.client.pending (pendingMap x f) i = some n ∧ Completes x f i n dv s.client c) ∨
                  (n ∈ s.client.done.map (·.1) ∧ c = s.client)) := by
  subst hP hR hQ hC
  have hA := h.server.accepted
  intro f hf hr ha hp σ lib hlib U rotate mem u xs hm hmc hnr hcl hds hids
  rw [Rust.withArgs_genProg]
  obtain ⟨st, hst⟩ := Rust.statusOk_codecAt h.rust
  obtain ⟨N, hN⟩ := joint_bound h hf hr ha hp hst hids hds
  refine ⟨N, fun k hk => ?_⟩
  obtain ⟨hcalls, hres⟩ := hN k hk
  obtain ⟨s0, h0, hc0, -, J0⟩ := joint_init (f := f) (scope := scope) (st := st) (lib := lib) (U := U) (mem := mem) (u := u) (rot := rotate)
    (xs := xs) (N := N) (k := k) h ns sc
  refine ⟨s0, h0, fun ys s hsub hcount hs hty => ?_⟩
  obtain ⟨J, hlen⟩ := joint_acts h hf hr ha hst hlib hk hm hmc hcl hnr hcalls hres hids ns sc hsub J0 (by simpa [callsOf, hc0] using hcount) hs hty
  refine ⟨J.doneNodup, fun ds n dv h1 h2 => J.good n dv h2 ds h1, fun r0 hr0 => ?_⟩
  obtain ⟨j, ds, n, dv, r1, r2, hj, hgood, e1, e2, e3⟩ := J.answer h hf hr ha hst hlib hk hm hmc hcl hres hty hr0
  have hcall : (x.camel f.id, ds, n) ∈ s.calls := callsOf_mem.1 (List.mem_of_getElem? hj)
  have e0 : ((s.server.mem f.position).get .client) = (s.server.mem f.position).client := rfl
  have hl : s.client.tasks.lookup (readTask x f) = some ⟨f.position, .client, Dart.answerReader x f⟩ := by
    rw [J.tasks]; exact task_lookup h.client hf hr ha
  cases hpj : s.client.pending (DartGen.varMethodCompleters x f) (idAt rotate j) with
  | none =>
    have hdone : n ∈ s.client.done.map (·.1) := by
      rcases J.live j ds n hj with h1 | h1
      · rw [hpj] at h1; simp at h1
      · exact h1
    refine ⟨ds, n, dv, s.client, hcall, hgood, ?_, .inr ⟨hdone, rfl⟩⟩
    simp only [sysAct, hl, Dart.runTask, e0, Dart.reader_stale ns sc hf hr ha e1 e2 e3 hpj, bind, Except.bind]
  | some n0 =>
    obtain ⟨j', ds', hj', hi⟩ := J.pend _ _ hpj
    have hjl := (List.getElem?_eq_some_iff.1 hj).1
    have hjl' := (List.getElem?_eq_some_iff.1 hj').1
    have := hids.inj _ _ (by omega) (by omega) hi
    subst this
    rw [hj] at hj'
    simp only [Option.some.injEq, Prod.mk.injEq, true_and] at hj'
    obtain ⟨rfl, rfl⟩ := hj'
    refine ⟨ds, n, dv, _, hcall, hgood, ?_, .inl ⟨J.unfinished _ _ _ hpj, _, hpj, completes_remove x f _ n dv s.client⟩⟩
    simp only [sysAct, hl, Dart.runTask, e0, Dart.reader_pending ns sc hf hr ha e1 e2 e3 hpj (J.unfinished _ _ _ hpj), bind, Except.bind]
    rfl

/-- **C34.** Let a new client and a server on which nothing has happened share the buffers, and let `xs` be
any history of server steps, client calls and runs of the client's read tasks.  Assumptions: the buffers of
the asynchronous method `f` hold no message at first, requests of `f` are made by the client only, nobody
but the server writes answers, the client's arguments are objects of the declared types, and the library
does not repeat a method id during this history.  Then no call is completed twice; every completed call of
`f` has been completed with a result that the user's function has yielded for the arguments of that call;
and whenever the client buffer holds an answer, the read task of `f` can run, the answer belongs to one of
the calls made, and running the task completes that call, and nothing else changes, if it has not been
completed before, and changes nothing at all otherwise. -/
theorem C34_calls_completed (x : Ext) (rr : Rust.Runtime) (rt : Dart.Runtime) (hd : Int) (S : List ASTNode)
    (h : SystemOk x rr rt hd S) (hM : methodsOf S ≠ [])
    (outR outD : String) (hoR : RustGen.rpc S = .ok outR) (hoD : DartGen.rpcMethods x S = .ok outD) :
    ∃ P R Q C, Rust.Emits S P ∧ Rust.EmitsRpc S R ∧ Dart.Emits x S Q ∧ Dart.EmitsRpc x S C ∧
      ∀ f ∈ methodsOf S, f.isRead = false → f.isAsync = true → PortableMethod S f →
      ∀ (σ : Type) (lib : BufLib) (_ : lib.Lawful) (U : User σ) (rotate : Int → Int) (mem : Nat → Bufs) (u : σ) (xs : List SysAct),
        NoMessage (rr.readP "u8") (mem f.position).server → NoMessage (rr.readP "u8") (mem f.position).client →
        (∀ bs, SysAct.server (.request f.position bs) ∉ xs) →
        (∀ bs, SysAct.server (.clear f.position bs) ∈ xs → ∀ r, NoMessage (rr.readP "u8") (bs ++ r)) →
        (∀ ds, SysAct.call (x.camel f.id) ds ∈ xs → DartArgs x rt.wire S f ds) →
        FreshIds rotate (xs.countP (SysAct.isCall (x.camel f.id))) →
        ∃ N, ∀ k, N ≤ k → ∃ s0, start lib rt Q k hd rotate C mem u = some s0 ∧
          ∀ s, sysActs (codecAt rr (P.withArgs R) k) lib U R.handlers rt Q k hd rotate C s0 xs = some s →
            Typed rr.wire S f s.server.log →
            (s.client.done.map (·.1)).Nodup ∧
            (∀ ds n dv, (x.camel f.id, ds, n) ∈ s.calls → (n, dv) ∈ s.client.done → CallResult x rr.wire S f s.server.log ds dv) ∧
            ∀ r0, rr.readP "u8" (s.server.mem f.position).client = some (.int 255, r0) →
              ∃ ds n dv c, (x.camel f.id, ds, n) ∈ s.calls ∧ CallResult x rr.wire S f s.server.log ds dv ∧
                sysAct (codecAt rr (P.withArgs R) k) lib U R.handlers rt Q k hd rotate C s (.read (readTask x f)) = some { s with client := c } ∧
                ((n ∉ s.client.done.map (·.1) ∧ ∃ i, s.client.pending (pendingMap x f) i = some n ∧ Completes x f i n dv s.client c) ∨
                  (n ∈ s.client.done.map (·.1) ∧ c = s.client)) := by
  have hA := h.server.accepted
  obtain ⟨scope, hR⟩ := Rust.emitsRpc_of hA.wf hoR hM
  obtain ⟨ns, sc, hC, -⟩ := Dart.emitsRpc_of hA.wf hM hoD
  refine ⟨_, _, _, _, emits_genProg S hA, hR, Dart.emits_genProg hA, hC, ?_⟩
  intro f hf hr ha hp σ lib hlib U rotate mem u xs hm hmc hnr hcl hds hids
  obtain ⟨N, hN⟩ := calls_completed_core x rr rt hd S h rfl rfl rfl rfl f hf hr ha hp σ lib hlib U rotate mem u xs hm hmc hnr hcl hds hids
  refine ⟨N, fun k hk => ?_⟩
  obtain ⟨s0, h0, h1⟩ := hN k hk
  exact ⟨s0, h0, fun s hs => h1 xs s (fun _ h => .inl h) (Nat.le_refl _) hs⟩

/-! ### Example -/

theorem idAt_succ (j : Nat) : idAt (· + 1) j = j := by
  induction j with
  | zero => rfl
  | succ j ih => simp [idAt, ih]

theorem succ_fresh {n : Nat} (h : n ≤ 2 ^ 63) : FreshIds (· + 1) n where
  range := by intro j hj; rw [idAt_succ]; omega
  inj := by intro i j _ _ e; rw [idAt_succ, idAt_succ] at e; omega

/-- The method `async fn slow(p: Point) -> i64` of the example schema. -/
def slow : FnNode := ⟨"slow", 1, [⟨"p", .other "Point"⟩], some (.integer "i64" 8 true), false, true⟩

theorem slow_mem : slow ∈ methodsOf rpcSchema := by simp [rpcSchema, methodsOf, slow]

theorem slow_camel : testExt.camel slow.id = "slow" := by decide +kernel

/-- The client of the example schema. -/
def exampleClient : Dart.Client := Dart.genClient testExt "demo" "8b61" rpcSchema

/-- The client and the server of the example schema run together, with codecs that may nest ten times. -/
def runExample (xs : List SysAct) : Option (Sys Nat) :=
  (start overwrite LE.dart (Dart.genProg testExt rpcSchema) 10 (-1) (· + 1) exampleClient (fun _ => ⟨[0], [0]⟩) 0).bind
    (fun s => sysActs exampleCodec overwrite exampleUser (Rust.genRpc "8b61" rpcSchema).handlers LE.dart (Dart.genProg testExt rpcSchema)
      10 (-1) (· + 1) exampleClient s xs)

/-- Two calls of `slow`, each followed by a run of its handler; both futures start and yield, the second one
first. -/
def twoCalls : List SysAct :=
  [.call "slow" [pt 1], .server (.poll 1)] ++ List.replicate 8 (.server .stepH) ++ [.server .endH, .call "slow" [pt 2], .server (.poll 1)]
    ++ List.replicate 8 (.server .stepH) ++ [.server .endH, .server (.stepT 0), .server (.stepT 1), .server (.stepT 0), .server (.stepT 1),
      .server (.resume 1 (.val (.int 22))), .server (.resume 0 (.val (.int 11)))]

/-- The second future writes its answer, which the client reads twice; then the first future does. -/
def answersInTurn : List SysAct :=
  [.server (.stepT 1), .server (.stepT 1), .read "_readSlowTask", .read "_readSlowTask", .server (.stepT 0), .server (.stepT 0),
    .read "_readSlowTask"]

def intOf : Val → Option Int
  | .int n => some n
  | _ => none

/-- Results that are 64-bit integers. -/
def intResult : Ev → Bool
  | .finished _ _ _ (.val (.int n)) => decide (-(2 ^ 63) ≤ n ∧ n < 2 ^ 63)
  | .finished _ _ _ _ => false
  | _ => true

theorem typed_of_ints {log : List Ev} (h : log.all intResult = true) : Typed LE.wire rpcSchema slow log := by
  intro vs r hr
  have := List.all_eq_true.1 h _ hr
  cases r with
  | val v =>
    cases v with
    | int n =>
      simp only [intResult, decide_eq_true_eq] at this
      obtain ⟨b, hb⟩ := LE.rust_lawful.wire.prim_total (.integer "i64" 8 true) "i64" (.int n) (.name "i64") rfl (by simpa [LeafVal] using this)
      exact ⟨some (.int n), b ++ [], rfl, .integer "i64" 8 true, rfl, .leaf _ "i64" _ _ _ _ _ rfl hb .nil⟩
    | _ => simp [intResult] at this
  | _ => simp [intResult] at this

/-- The history is possible; the futures are completed with the results of their own calls. -/
example : (runExample (twoCalls ++ answersInTurn)).map (fun s => (s.calls.map (fun c => (c.1, c.2.2)),
      s.client.done.map (fun p => (p.1, p.2.bind intOf)), s.server.log.all intResult))
    = some ([("slow", 0), ("slow", 1)], [(1, some 22), (0, some 11)], true) := by
  decide +kernel

theorem slow_args {ds : List Val} (h : ds = [pt 1] ∨ ds = [pt 2]) : DartArgs testExt LE.dart.wire rpcSchema slow ds := by
  rcases h with rfl | rfl
  · exact ⟨[pt 1], pt_dart (by decide) ⟨.nil, .nil⟩⟩
  · exact ⟨[pt 2], pt_dart (by decide) ⟨.nil, .nil⟩⟩

/-- It meets the assumptions of C34. -/
example : ∃ P R Q C, Rust.Emits rpcSchema P ∧ Rust.EmitsRpc rpcSchema R ∧ Dart.Emits testExt rpcSchema Q ∧ Dart.EmitsRpc testExt rpcSchema C ∧
    ∃ N, ∀ k, N ≤ k → ∃ s0, start overwrite LE.dart Q k (-1) (· + 1) C (fun _ => ⟨[0], [0]⟩) 0 = some s0 ∧
      ∀ s, sysActs (codecAt LE.rust (P.withArgs R) k) overwrite exampleUser R.handlers LE.dart Q k (-1) (· + 1) C s0 (twoCalls ++ answersInTurn) = some s →
        s.server.log.all intResult = true →
        ∀ ds n dv, ("slow", ds, n) ∈ s.calls → (n, dv) ∈ s.client.done → CallResult testExt LE.wire rpcSchema slow s.server.log ds dv := by
  obtain ⟨outR, hR⟩ := rpcSchema_out
  obtain ⟨outD, hD⟩ := rpcSchema_dartOut
  obtain ⟨P, R, Q, C, h1, h2, h3, h4, h5⟩ := C34_calls_completed testExt LE.rust LE.dart (-1) rpcSchema rpcSchema_system
    rpcSchema_methods outR outD hR hD
  obtain ⟨N, hN⟩ := h5 slow slow_mem rfl rfl (rpcSchema_portableMethod slow_mem) Nat overwrite overwrite_lawful exampleUser (· + 1)
    (fun _ => ⟨[0], [0]⟩) 0 (twoCalls ++ answersInTurn) ⟨0, [], rfl, by decide⟩ ⟨0, [], rfl, by decide⟩
    (by simp [twoCalls, answersInTurn]) (by simp [twoCalls, answersInTurn])
    (by rw [slow_camel]; intro ds h; exact slow_args (by simpa [twoCalls, answersInTurn] using h)) (succ_fresh (by rw [slow_camel]; decide))
  refine ⟨P, R, Q, C, h1, h2, h3, h4, N, fun k hk => ?_⟩
  obtain ⟨s0, h6, h7⟩ := hN k hk
  refine ⟨s0, h6, fun s hs ht => ?_⟩
  have := (h7 s hs (typed_of_ints ht)).2.1
  rw [slow_camel] at this
  exact this

/-- An answer with an unknown method id leaves the client as it is; one with the id of a pending call
completes it. -/
example : ∃ Q C t, Dart.Emits testExt rpcSchema Q ∧ Dart.EmitsRpc testExt rpcSchema C ∧ ∃ dv N, ∀ k, N ≤ k →
    ∀ s : ClientState, (∀ n, s.pending "_slowCompleters" 3 = some n → n ∉ s.done.map (·.1) →
        ∃ s', Dart.runTask LE.dart Q k (-1) C t (fun _ => ⟨[], 255 :: (LE.le 8 3 ++ LE.le 8 7)⟩) s = .ok s' ∧ s'.done = s.done ++ [(n, dv)]) ∧
      (s.pending "_slowCompleters" 3 = none →
        Dart.runTask LE.dart Q k (-1) C t (fun _ => ⟨[], 255 :: (LE.le 8 3 ++ LE.le 8 7)⟩) s = .ok s) := by
  obtain ⟨outD, hD⟩ := rpcSchema_dartOut
  obtain ⟨Q, C, h3, h4, h5⟩ := C34_client_answer testExt LE.dart LE.dart_lawful rpcSchema rpcSchema_ok.accepted rpcSchema_methods
    rpcSchema_dartNamed rpcSchema_client rpcSchema_system.defaults rpcSchema_ok.distinct outD hD (-1) (· + 1)
  obtain ⟨t, -, -, -, h6⟩ := h5 slow slow_mem rfl rfl
  have e1 : LE.dart.wire.prim "Int64" (.int 3) = some (LE.le 8 3) := by decide +kernel
  have e2 : LE.dart.wire.prim "Int64" (.int 7) = some (LE.le 8 7) := by decide +kernel
  obtain ⟨dv, -, N, h7⟩ := h6 3 [255] _ (some (.int 7)) (LE.le 8 7 ++ []) (by decide +kernel) e1
    ⟨.integer "i64" 8 true, rfl, trivial, .leaf _ "Int64" _ _ _ _ _ rfl e2 .nil⟩
  refine ⟨Q, C, t, h3, h4, dv, N, fun k hk s => ?_⟩
  have := h7 k hk (fun _ => ⟨[], 255 :: (LE.le 8 3 ++ LE.le 8 7)⟩) [] s (by simp)
  have e : pendingMap testExt slow = "_slowCompleters" := by decide +kernel
  rw [e] at this
  exact ⟨fun n h1 h2 => (this.1 n h1 h2).imp (fun s' h => ⟨h.1, h.2.done⟩), this.2⟩

/-! ## C35: lost answers -/

/-- `C35_delivered_partial` for the generated trees. -/
theorem delivered_core (x : Ext) (rr : Rust.Runtime) (rt : Dart.Runtime) (hd : Int) (S : List ASTNode)
    (h : SystemOk x rr rt hd S)
    {scope ns sc : String} {P : Rust.Prog} {R : Rust.RpcSection} {Q : Dart.Prog} {C : Dart.Client} (hP : P = Rust.genProg S)
    (hR : R = Rust.genRpc scope S) (hQ : Q = Dart.genProg x S) (hC : C = Dart.genClient x ns sc S) :
      ∀ f ∈ methodsOf S, f.isRead = false → f.isAsync = true → PortableMethod S f →
      ∀ (σ : Type) (lib : BufLib) (_ : lib.Lawful) (U : User σ) (rotate : Int → Int) (mem : Nat → Bufs) (u : σ) (xs : List SysAct),
        NoMessage (rr.readP "u8") (mem f.position).server → NoMessage (rr.readP "u8") (mem f.position).client →
        (∀ bs, SysAct.server (.request f.position bs) ∉ xs) →
        (∀ bs, SysAct.server (.clear f.position bs) ∈ xs → ∀ r, NoMessage (rr.readP "u8") (bs ++ r)) →
        (∀ ds, SysAct.call (x.camel f.id) ds ∈ xs → DartArgs x rt.wire S f ds) →
        FreshIds rotate (xs.countP (SysAct.isCall (x.camel f.id))) →
        ∃ N, ∀ k, N ≤ k → ∃ s0, start lib rt Q k hd rotate C mem u = some s0 ∧
          ∀ ys s, (∀ y ∈ ys, y ∈ xs ∨ y.IsStep) → ys.countP (SysAct.isCall (x.camel f.id)) ≤ xs.countP (SysAct.isCall (x.camel f.id)) →
            sysActs (codecAt rr (P.withArgs R) k) lib U R.handlers rt Q k hd rotate C s0 ys = some s →
            Typed rr.wire S f s.server.log →
            ∀ j ds n sb mb rest, (s.calls.filter (fun c => c.1 = x.camel f.id))[j]? = some (x.camel f.id, ds, n) →
              rr.wire.prim "u8" (.int 255) = some sb → rr.wire.prim "i64" (.int (idAt rotate j)) = some mb →
              (s.server.mem f.position).client = sb ++ mb ++ rest →
              ∃ c dv, sysAct (codecAt rr (P.withArgs R) k) lib U R.handlers rt Q k hd rotate C s (.read (readTask x f)) = some { s with client := c } ∧
                (n, dv) ∈ c.done ∧ CallResult x rr.wire S f s.server.log ds dv := by
  subst hP hR hQ hC
  have hA := h.server.accepted
  intro f hf hr ha hp σ lib hlib U rotate mem u xs hm hmc hnr hcl hds hids
  rw [Rust.withArgs_genProg]
  obtain ⟨st, hst⟩ := Rust.statusOk_codecAt h.rust
  obtain ⟨N, hN⟩ := joint_bound h hf hr ha hp hst hids hds
  refine ⟨N, fun k hk => ?_⟩
  obtain ⟨hcalls, hres⟩ := hN k hk
  obtain ⟨s0, h0, hc0, -, J0⟩ := joint_init (f := f) (scope := scope) (st := st) (lib := lib) (U := U) (mem := mem) (u := u) (rot := rotate)
    (xs := xs) (N := N) (k := k) h ns sc
  refine ⟨s0, h0, fun ys s hsub hcount hs hty j ds n sb mb rest hj hsb hmb hbuf => ?_⟩
  obtain ⟨J, hlen⟩ := joint_acts h hf hr ha hst hlib hk hm hmc hcl hnr hcalls hres hids ns sc hsub J0 (by simpa [callsOf, hc0] using hcount) hs hty
  obtain ⟨-, hs1⟩ := Dart.status_bytes h.dart h.status hsb
  obtain ⟨-, hs2⟩ := Dart.id_bytes h.agree h.dart hmb
  have e1 : rt.readP "Int8" (s.server.mem f.position).client = some (.int hd, mb ++ rest) := by
    rw [hbuf, List.append_assoc]; exact hs1 _
  obtain ⟨r0, hr0⟩ := (h.status.read _).2 ⟨_, e1⟩
  obtain ⟨j', ds', n', dv, r1, r2, hj', hgood, e1', e2', e3⟩ := J.answer h hf hr ha hst hlib hk hm hmc hcl hres hty hr0
  rw [e1] at e1'
  simp only [Option.some.injEq, Prod.mk.injEq, true_and] at e1'
  subst e1'
  rw [hs2] at e2'
  simp only [Option.some.injEq, Prod.mk.injEq, Val.int.injEq] at e2'
  obtain ⟨hid, rfl⟩ := e2'
  have hjl := (List.getElem?_eq_some_iff.1 hj).1
  have hjl' := (List.getElem?_eq_some_iff.1 hj').1
  have : j = j' := hids.inj _ _ (by unfold callsOf at hlen; omega) (by omega) hid
  subst this
  rw [show (s.calls.filter (fun c => c.1 = x.camel f.id)) = callsOf (x.camel f.id) s from rfl, hj'] at hj
  simp only [Option.some.injEq, Prod.mk.injEq, true_and] at hj
  obtain ⟨rfl, rfl⟩ := hj
  have hcall : (x.camel f.id, ds', n') ∈ s.calls := callsOf_mem.1 (List.mem_of_getElem? hj')
  have e0 : ((s.server.mem f.position).get .client) = (s.server.mem f.position).client := rfl
  have hl : s.client.tasks.lookup (readTask x f) = some ⟨f.position, .client, Dart.answerReader x f⟩ := by
    rw [J.tasks]; exact task_lookup h.client hf hr ha
  rcases J.live j ds' n' hj' with hpj | hdone
  · refine ⟨{ s.client with done := s.client.done ++ [(n', dv)] }.remove (pendingMap x f) (idAt rotate j), dv, ?_, by simp [ClientState.remove], hgood⟩
    simp only [sysAct, hl, Dart.runTask, e0, Dart.reader_pending ns sc hf hr ha e1 (hs2 _) e3 hpj (J.unfinished _ _ _ hpj), bind, Except.bind]
    rfl
  · obtain ⟨⟨n2, dv2⟩, hp2, e⟩ := List.mem_map.1 hdone
    simp only at e
    subst e
    cases hpj : s.client.pending (DartGen.varMethodCompleters x f) (idAt rotate j) with
    | none =>
      refine ⟨s.client, dv2, ?_, hp2, J.good _ _ hp2 _ hcall⟩
      simp only [sysAct, hl, Dart.runTask, e0, Dart.reader_stale ns sc hf hr ha e1 (hs2 _) e3 hpj, bind, Except.bind]
    | some n0 =>
      obtain ⟨j2, ds2, hj2, hi⟩ := J.pend _ _ hpj
      have hjl2 := (List.getElem?_eq_some_iff.1 hj2).1
      have := hids.inj _ _ (by omega) (by omega) hi
      subst this
      rw [hj'] at hj2
      simp only [Option.some.injEq, Prod.mk.injEq, true_and] at hj2
      exact absurd hdone (hj2.2 ▸ J.unfinished _ _ _ hpj)

/-- **C35, the part that holds.** In every history as in C34: if the client buffer holds an answer with the
method id of a call of `f` at the moment when the read task of `f` runs, that call is completed after the
run. -/
theorem C35_delivered_partial (x : Ext) (rr : Rust.Runtime) (rt : Dart.Runtime) (hd : Int) (S : List ASTNode)
    (h : SystemOk x rr rt hd S) (hM : methodsOf S ≠ [])
    (outR outD : String) (hoR : RustGen.rpc S = .ok outR) (hoD : DartGen.rpcMethods x S = .ok outD) :
    ∃ P R Q C, Rust.Emits S P ∧ Rust.EmitsRpc S R ∧ Dart.Emits x S Q ∧ Dart.EmitsRpc x S C ∧
      ∀ f ∈ methodsOf S, f.isRead = false → f.isAsync = true → PortableMethod S f →
      ∀ (σ : Type) (lib : BufLib) (_ : lib.Lawful) (U : User σ) (rotate : Int → Int) (mem : Nat → Bufs) (u : σ) (xs : List SysAct),
        NoMessage (rr.readP "u8") (mem f.position).server → NoMessage (rr.readP "u8") (mem f.position).client →
        (∀ bs, SysAct.server (.request f.position bs) ∉ xs) →
        (∀ bs, SysAct.server (.clear f.position bs) ∈ xs → ∀ r, NoMessage (rr.readP "u8") (bs ++ r)) →
        (∀ ds, SysAct.call (x.camel f.id) ds ∈ xs → DartArgs x rt.wire S f ds) →
        FreshIds rotate (xs.countP (SysAct.isCall (x.camel f.id))) →
        ∃ N, ∀ k, N ≤ k → ∃ s0, start lib rt Q k hd rotate C mem u = some s0 ∧
          ∀ s, sysActs (codecAt rr (P.withArgs R) k) lib U R.handlers rt Q k hd rotate C s0 xs = some s →
            Typed rr.wire S f s.server.log →
            ∀ j ds n sb mb rest, (s.calls.filter (fun c => c.1 = x.camel f.id))[j]? = some (x.camel f.id, ds, n) →
              rr.wire.prim "u8" (.int 255) = some sb → rr.wire.prim "i64" (.int (idAt rotate j)) = some mb →
              (s.server.mem f.position).client = sb ++ mb ++ rest →
              ∃ c dv, sysAct (codecAt rr (P.withArgs R) k) lib U R.handlers rt Q k hd rotate C s (.read (readTask x f)) = some { s with client := c } ∧
                (n, dv) ∈ c.done ∧ CallResult x rr.wire S f s.server.log ds dv := by
  have hA := h.server.accepted
  obtain ⟨scope, hR⟩ := Rust.emitsRpc_of hA.wf hoR hM
  obtain ⟨ns, sc, hC, -⟩ := Dart.emitsRpc_of hA.wf hM hoD
  refine ⟨_, _, _, _, emits_genProg S hA, hR, Dart.emits_genProg hA, hC, ?_⟩
  intro f hf hr ha hp σ lib hlib U rotate mem u xs hm hmc hnr hcl hds hids
  obtain ⟨N, hN⟩ := delivered_core x rr rt hd S h rfl rfl rfl rfl f hf hr ha hp σ lib hlib U rotate mem u xs hm hmc hnr hcl hds hids
  refine ⟨N, fun k hk => ?_⟩
  obtain ⟨s0, h0, h1⟩ := hN k hk
  exact ⟨s0, h0, fun s hs => h1 xs s (fun _ h => .inl h) (Nat.le_refl _) hs⟩

/-- Both futures write their answers before the client reads. -/
def answersAtOnce : List SysAct := [.server (.stepT 0), .server (.stepT 0), .server (.stepT 1), .server (.stepT 1)]

/-- The name of the function and its result. -/
def Ev.result : Ev → Option (String × Option Int)
  | .finished _ f _ (.val v) => some (f, intOf v)
  | _ => none

/-- **C35 does not hold.** In the example, both calls of `slow` have been executed and their futures have
ended with results, but the answer to the second call has replaced the answer to the first one in the client
buffer.  However often the client then runs whatever read tasks: the first call is never completed.  (The
second one is completed by the first run.) -/
theorem C35_answer_is_lost :
    ∃ P R Q C, Rust.Emits rpcSchema P ∧ Rust.EmitsRpc rpcSchema R ∧ Dart.Emits testExt rpcSchema Q ∧ Dart.EmitsRpc testExt rpcSchema C ∧
      ∃ s0 s, start overwrite LE.dart Q 10 (-1) (· + 1) C (fun _ => ⟨[0], [0]⟩) 0 = some s0 ∧
        sysActs (codecAt LE.rust (P.withArgs R) 10) overwrite exampleUser R.handlers LE.dart Q 10 (-1) (· + 1) C s0 (twoCalls ++ answersAtOnce) = some s ∧
        s.calls.map (fun c => (c.1, c.2.2)) = [("slow", 0), ("slow", 1)] ∧
        s.server.log.filterMap Ev.result = [("slow", some 22), ("slow", some 11)] ∧
        s.server.run.isNone ∧ (s.server.tasks.all (fun t => t.thread.code.isEmpty)) = true ∧
        (∀ (vs : List String) s', sysActs (codecAt LE.rust (P.withArgs R) 10) overwrite exampleUser R.handlers LE.dart Q 10 (-1) (· + 1) C s
          (vs.map .read) = some s' → 0 ∉ s'.client.done.map (·.1)) ∧
        ∃ s1, sysAct (codecAt LE.rust (P.withArgs R) 10) overwrite exampleUser R.handlers LE.dart Q 10 (-1) (· + 1) C s (.read "_readSlowTask") = some s1 ∧
          s1.client.done.map (·.1) = [1] := by
  have hmem : ∀ xs (s : Sys Nat), runExample xs = some s → ∃ s0,
      start overwrite LE.dart (Dart.genProg testExt rpcSchema) 10 (-1) (· + 1) exampleClient (fun _ => ⟨[0], [0]⟩) 0 = some s0 ∧
      sysActs exampleCodec overwrite exampleUser (Rust.genRpc "8b61" rpcSchema).handlers LE.dart (Dart.genProg testExt rpcSchema)
        10 (-1) (· + 1) exampleClient s0 xs = some s := by
    intro xs s h
    unfold runExample at h
    rwa [Option.bind_eq_some_iff] at h
  have hrun : (runExample (twoCalls ++ answersAtOnce)).map (fun s => (s.calls.map (fun c => (c.1, c.2.2)), s.server.log.filterMap Ev.result,
      s.server.run.isNone, s.server.tasks.all (fun t => t.thread.code.isEmpty)))
      = some ([("slow", 0), ("slow", 1)], [("slow", some 22), ("slow", some 11)], true, true) := by
    decide +kernel
  have hrun' : (runExample (twoCalls ++ answersAtOnce)).map (fun s => ((s.server.mem 1).client, s.client.done.map (·.1),
      (sysAct exampleCodec overwrite exampleUser (Rust.genRpc "8b61" rpcSchema).handlers LE.dart (Dart.genProg testExt rpcSchema)
        10 (-1) (· + 1) exampleClient s (.read "_readSlowTask")).map (fun s => s.client.done.map (·.1))))
      = some (255 :: (LE.le 8 1 ++ LE.le 8 22), [], some [1]) := by
    decide +kernel
  rw [Option.map_eq_some_iff] at hrun
  obtain ⟨s, hs, e⟩ := hrun
  rw [hs] at hrun'
  simp only [Prod.mk.injEq, Option.map_some, Option.some.injEq] at e hrun'
  obtain ⟨e1, e2, e3, e4⟩ := e
  obtain ⟨e5, e6, e7⟩ := hrun'
  obtain ⟨s0, h0, h1⟩ := hmem _ _ hs
  refine ⟨Rust.genProg rpcSchema, Rust.genRpc "8b61" rpcSchema, Dart.genProg testExt rpcSchema, exampleClient,
    emits_genProg _ rpcSchema_ok.accepted, Rust.emits_genRpc rpcSchema_wf rpcSchema_methods rfl, Dart.emits_genProg rpcSchema_ok.accepted,
    Dart.emits_genClient rpcSchema_wf rpcSchema_methods rfl rfl, s0, s, h0, h1, e1, e2, e3, e4, ?_, ?_⟩
  · intro vs s' hs'
    have B0 : Booked testExt rpcSchema slow (· + 1) s0 := by
      simp only [start, exampleClient, Dart.create_eq rpcSchema_client, Option.some.injEq] at h0
      subst h0
      exact ⟨rfl, rfl, by simp [ClientState.fresh], by simp [ClientState.fresh]⟩
    have B := booked_acts rpcSchema_client slow_mem rfl rfl "demo" "8b61" B0 h1
    have hcalls : ∀ n ds, n = "slow" → (callsOf n s)[1]? = some (n, ds, 0) → False := by
      rintro n ds rfl h
      have : (s.calls.map (fun c => (c.1, c.2.2)))[1]? = some ("slow", 1) := by rw [e1]; rfl
      have hall : callsOf "slow" s = s.calls := by
        unfold callsOf
        rw [List.filter_eq_self]
        intro c hc
        have : (c.1, c.2.2) ∈ s.calls.map (fun c => (c.1, c.2.2)) := List.mem_map.2 ⟨c, hc, rfl⟩
        rw [e1] at this
        simp at this
        rcases this with h | h <;> simp [h.1]
      rw [hall] at h
      simp [List.getElem?_map, h] at this
    refine not_completed rpcSchema_client slow_mem rfl rfl "demo" "8b61" B.tasks (by rw [e6]; simp) (i0 := 0) ?_ ?_ hs'
    · intro w i hp
      obtain ⟨g, hg, gr, ga, hw, ds, hc⟩ := B.owner _ _ _ hp
      have hname : testExt.camel g.id = testExt.camel slow.id := by
        have : (testExt.camel g.id, 0) ∈ s.calls.map (fun c => (c.1, c.2.2)) := List.mem_map.2 ⟨_, hc, rfl⟩
        rw [e1] at this
        simp at this
        rw [this, slow_camel]
      have := Dart.camel_inj rpcSchema_client hg slow_mem gr rfl hname
      subst this
      refine ⟨hw, ?_⟩
      subst hw
      obtain ⟨j, ds', hj, hi⟩ := B.pend _ _ hp
      rw [hi, idAt_succ]
      have hlen : (callsOf (testExt.camel slow.id) s).length ≤ 2 := by
        have := congrArg List.length e1
        simp only [List.length_map] at this
        exact Nat.le_trans (List.length_filter_le _ _) (by rw [this]; decide)
      have hjl := (List.getElem?_eq_some_iff.1 hj).1
      have : j ≠ 1 := by
        rintro rfl
        exact hcalls _ _ slow_camel hj
      omega
    · intro r1 r2 i h1 h2
      have hb : (s.server.mem slow.position).client = 255 :: (LE.le 8 1 ++ LE.le 8 22) := e5
      rw [hb] at h1
      have k1 : LE.dart.readP "Int8" (255 :: (LE.le 8 1 ++ LE.le 8 22)) = some (.int (-1), LE.le 8 1 ++ LE.le 8 22) := rfl
      rw [k1] at h1
      simp only [Option.some.injEq, Prod.mk.injEq, true_and] at h1
      subst h1
      have k2 : LE.dart.readP "Int64" (LE.le 8 1 ++ LE.le 8 22) = some (.int 1, LE.le 8 22) := rfl
      rw [k2] at h2
      simp only [Option.some.injEq, Prod.mk.injEq, Val.int.injEq] at h2
      omega
  · rw [Option.map_eq_some_iff] at e7
    exact e7

end TPB.Props
