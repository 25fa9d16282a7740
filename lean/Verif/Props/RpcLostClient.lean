/-
Property theorems about requests that are never executed: C52, for the emitted client of every schema.
-/
import Verif.Props.RpcLost
namespace TPB.Props
open Spec Rust

/-- Nobody writes into the server buffer of `f`: the client does not call `f`, and nobody else writes requests. -/
def NoCallsOf (x : Ext) (f : FnNode) (zs : List Rpc.SysAct) : Prop :=
  ∀ z ∈ zs, (∀ ds, z ≠ .call (x.camel f.id) ds) ∧ ∀ bs, z ≠ .server (.request f.position bs)

theorem server_of_noCallsOf {x : Ext} {rr : Rust.Runtime} {rt : Dart.Runtime} {hd : Int} {S : List ASTNode} (h : SystemOk x rr rt hd S)
    {f : FnNode} (hf : f ∈ methodsOf S) {σ : Type} {C : Codec} {lib : BufLib} {U : User σ} {regs : List (Nat × Handler)}
    {k : Nat} {rot : Int → Int} (ns sc : String) {zs : List Rpc.SysAct} (hz : NoCallsOf x f zs) {s s' : Rpc.Sys σ}
    (hs : Rpc.sysActs C lib U regs rt (Dart.genProg x S) k hd rot (Dart.genClient x ns sc S) s zs = some s') :
    ∃ ys, acts C lib U regs s.server ys = some s'.server ∧ ∀ bs, Act.request f.position bs ∉ ys := by
  induction zs generalizing s with
  | nil =>
    simp only [Rpc.sysActs, Option.some.injEq] at hs
    subst hs
    exact ⟨[], rfl, by simp⟩
  | cons z zs ih =>
    simp only [Rpc.sysActs] at hs
    split at hs
    case h_2 => simp at hs
    case h_1 s1 h1 =>
    obtain ⟨ys, hy, hn⟩ := ih (fun z hz' => hz z (by simp [hz'])) hs
    obtain ⟨hc, hq⟩ := hz z (by simp)
    cases z with
    | server a =>
      simp only [Rpc.sysAct] at h1
      split at h1
      · rename_i c hc
        simp only [Option.some.injEq] at h1
        subst h1
        refine ⟨a :: ys, by simp only [acts, hc]; exact hy, fun bs hb => ?_⟩
        rcases List.mem_cons.1 hb with e | hb
        · exact hq bs (by rw [e])
        · exact hn bs hb
      · simp at h1
    | call name ds =>
      simp only [Rpc.sysAct] at h1
      split at h1
      case h_2 => simp at h1
      case h_1 n w hw =>
      obtain ⟨g, hg, gr, ga, rfl, rfl, bs, hbs, rfl⟩ := Dart.call_inv ns sc (fun _ _ => ⟨_, rfl⟩) hw
      simp only [Option.some.injEq] at h1
      subst h1
      refine ⟨.request g.position bs :: ys, ?_, fun bs' hb => ?_⟩
      · simp only [acts, act]
        exact hy
      · rcases List.mem_cons.1 hb with e | hb
        · simp only [Act.request.injEq] at e
          obtain rfl := Rpc.position_inj h.server.accepted.wf hf hg e.1
          exact hc ds rfl
        · exact hn bs' hb
    | read v =>
      simp only [Rpc.sysAct] at h1
      split at h1
      · split at h1
        · simp only [Option.some.injEq] at h1
          subst h1
          exact ⟨ys, hy, hn⟩
        · simp at h1
      · simp at h1

/-- **C52 does not hold of any emitted client.** For every schema and every asynchronous method `f` that does
not read: a new client calls `f` twice, without the server running in between.  Both calls return a future,
but whatever the server, the scheduler of the client and other methods do afterwards, the user's function is
called at most once, and with the arguments of the second call: the first request is lost for good. -/
theorem C52_calls_at_once (x : Ext) (rr : Rust.Runtime) (rt : Dart.Runtime) (hd : Int) (S : List ASTNode)
    (h : SystemOk x rr rt hd S) (hM : methodsOf S ≠ [])
    (outR outD : String) (hoR : RustGen.rpc S = .ok outR) (hoD : DartGen.rpcMethods x S = .ok outD) :
    ∃ P R Q C, Rust.Emits S P ∧ Rust.EmitsRpc S R ∧ Dart.Emits x S Q ∧ Dart.EmitsRpc x S C ∧
      ∀ f ∈ methodsOf S, f.isRead = false → f.isAsync = true → PortableMethod S f →
      ∀ (σ : Type) (lib : BufLib) (_ : lib.Lawful) (U : User σ) (rotate : Int → Int) (mem : Nat → Bufs) (u : σ) (ds ds' : List Val),
        NoMessage (rr.readP "u8") (mem f.position).server → FreshIds rotate 2 →
        DartArgs x rt.wire S f ds → DartArgs x rt.wire S f ds' →
        ∃ vs', Exchanged x rr.wire S (f.args.map (·.typeId)) vs' ds' ∧
        ∃ N, ∀ k, N ≤ k → ∃ s0 s, Rpc.start lib rt Q k hd rotate C mem u = some s0 ∧
          Rpc.sysActs (codecAt rr (P.withArgs R) k) lib U R.handlers rt Q k hd rotate C s0
            [.call (x.camel f.id) ds, .call (x.camel f.id) ds'] = some s ∧
          s.calls = [(x.camel f.id, ds, 0), (x.camel f.id, ds', 1)] ∧
          ∀ zs, NoCallsOf x f zs → ∀ s', Rpc.sysActs (codecAt rr (P.withArgs R) k) lib U R.handlers rt Q k hd rotate C s zs = some s' →
            (∀ vs, Ev.called f.position f.id vs ∈ s'.server.log → vs = vs') ∧
            num (fun e => e = Ev.called f.position f.id vs') s'.server.log ≤ 1 := by
  have hA := h.server.accepted
  obtain ⟨scope, hR⟩ := Rust.emitsRpc_of hA.wf hoR hM
  obtain ⟨ns, sc, hC, -⟩ := Dart.emitsRpc_of hA.wf hM hoD
  refine ⟨_, _, _, _, emits_genProg S hA, hR, Dart.emits_genProg hA, hC, ?_⟩
  intro f hf hr ha hp σ lib hlib U rotate mem u ds ds' hm hids hds hds'
  rw [Rust.withArgs_genProg]
  obtain ⟨st, hst⟩ := Rust.statusOk_codecAt h.rust
  obtain ⟨sb, hsb⟩ := status_total h.rust.wire
  obtain ⟨w1, -⟩ := Dart.status_bytes h.dart h.status hsb
  have hreq : ∀ ds, DartArgs x rt.wire S f ds → ∀ j < 2, ∃ vs m b N, Exchanged x rr.wire S (f.args.map (·.typeId)) vs ds ∧
      ds.length = f.args.length ∧ rt.writeP "Int64" (.int (idAt rotate j)) = some m ∧
      ReadableAt rr S f st N (some (idAt rotate j), vs) (sb ++ m ++ b) ∧
      ∀ k, N ≤ k → ∀ l, Dart.Visible x l f.args →
        Dart.evalWStmts rt (Dart.genProg x S) k hd (((Dart.genParams x f).map (·.2)).zip ds) l (Dart.genArgWrites x f) = .ok b := by
    intro ds hds j hj
    obtain ⟨vs, b, h1, h2, hl, M, h3⟩ := args_exchange h hf hp hds
    obtain ⟨m, hm⟩ := h.rust.wire.prim_total (.integer "i64" 8 true) "i64" (.int (idAt rotate j)) (.name "i64") rfl
      (by simpa [LeafVal] using hids.range j hj)
    have hq : Request rr.wire S f (some (idAt rotate j)) vs (sb ++ m ++ b) := ⟨by simp [ha], sb, m, b, hsb, hm, h2, rfl⟩
    obtain ⟨s, b', hs, hb, hok, M', hread⟩ :=
      Rust.request_reads h.rust h.server.accepted.wf h.server.named h.server.distinct h.server.rpcNamed h.server.noExt hf hr hq
    obtain ⟨w2, -⟩ := Dart.id_bytes h.agree h.dart hm
    exact ⟨vs, m, b, max M M', h1, hl, w2,
      ⟨hq, hok, b', by rw [hb, st_eq (hst (Rust.genProg S) 0) hs], fun k hk => hread k (by omega)⟩, fun k hk => h3 k (by omega)⟩
  obtain ⟨vs, m, b, N1, h1, hl, hm1, hq1, hw1⟩ := hreq ds hds 0 (by omega)
  obtain ⟨vs', m', b', N2, h1', hl', hm2, hq2, hw2⟩ := hreq ds' hds' 1 (by omega)
  refine ⟨vs', h1', max N1 N2, fun k hk => ?_⟩
  have hq1 := hq1.mono (Nat.le_max_left N1 N2)
  have hq2 := hq2.mono (Nat.le_max_right N1 N2)
  generalize hN : max N1 N2 = N at hk hq1 hq2
  let s0 : Rpc.Sys σ := ⟨Cfg.initial mem u, { Dart.ClientState.fresh with tasks := (methodsOf S).flatMap (Dart.taskOf x) }, []⟩
  let bs := sb ++ m ++ b
  let bs' := sb ++ m' ++ b'
  let c1 : Cfg σ := ⟨setMem mem f.position { mem f.position with server := lib (mem f.position).server bs }, u, none, [], [.requested f.position bs]⟩
  let c2 : Cfg σ := ⟨setMem c1.mem f.position { c1.mem f.position with server := lib (c1.mem f.position).server bs' }, u, none, [],
    [.requested f.position bs, .requested f.position bs']⟩
  let s1 : Rpc.Sys σ := ⟨c1, s0.client.afterCall x rotate f, [(x.camel f.id, ds, 0)]⟩
  let s2 : Rpc.Sys σ := ⟨c2, s1.client.afterCall x rotate f, [(x.camel f.id, ds, 0), (x.camel f.id, ds', 1)]⟩
  have hrun : Rpc.sysActs (codecAt rr (genProg (argsSchema S)) k) lib U (genRpc scope S).handlers rt (Dart.genProg x S) k hd rotate
      (Dart.genClient x ns sc S) s0 [.call (x.camel f.id) ds, .call (x.camel f.id) ds'] = some s2 := by
    have e1 : Rpc.sysAct (codecAt rr (genProg (argsSchema S)) k) lib U (genRpc scope S).handlers rt (Dart.genProg x S) k hd rotate
        (Dart.genClient x ns sc S) s0 (.call (x.camel f.id) ds) = some s1 := by
      simp only [Rpc.sysAct]
      rw [Dart.async_exec h.client ns sc hf hr ha hl w1 hm1 (hw1 k (by omega))]
      rfl
    have hlast : (s0.client.afterCall x rotate f).last (DartGen.varLastMethodId x f) = idAt rotate 1 := by
      simp [s0, Dart.ClientState.afterCall, Dart.ClientState.fresh, idAt]
    have e2 : Rpc.sysAct (codecAt rr (genProg (argsSchema S)) k) lib U (genRpc scope S).handlers rt (Dart.genProg x S) k hd rotate
        (Dart.genClient x ns sc S) s1 (.call (x.camel f.id) ds') = some s2 := by
      simp only [Rpc.sysAct]
      rw [Dart.async_exec h.client ns sc hf hr ha hl' w1 (by rw [show s1.client.last _ = _ from hlast]; exact hm2) (hw2 k (by omega))]
      rfl
    simp only [Rpc.sysActs, e1, e2]
  refine ⟨s0, s2, ?_, hrun, rfl, fun zs hz s' hs' => ?_⟩
  · simp only [Rpc.start, Dart.create_eq h.client ns sc]
    rfl
  have hQ : Readable (codecAt rr (genProg (argsSchema S)) k) st f (ReadableAt rr S f st N) := by
    rintro q bs ⟨_, hok, b, hb, hread⟩
    exact ⟨hok, b, hb, fun r => by simp only [codecAt, hread k hk r]⟩
  have step : ∀ {L : List Val → Nat} (y : Act) (c c' : Cfg σ), (∀ bs, y = .request f.position bs → ∃ q, ReadableAt rr S f st N q bs) →
      RqInv False False L (codecAt rr (genProg (argsSchema S)) k) st f f.position (ReadableAt rr S f st N) c →
      act (codecAt rr (genProg (argsSchema S)) k) lib U (genRpc scope S).handlers c y = some c' →
      RqInv False False L (codecAt rr (genProg (argsSchema S)) k) st f f.position (ReadableAt rr S f st N) c' := by
    intro L y c c' hy hI hact
    exact rqInv_act (hst _ k) hlib hr (h.server.rpcNamed.args f hf).1 (h.server.rpcNamed.args f hf).2
      (handlers_lookup scope hA.wf h.server.rpcNamed.methods hf) hQ hy (by simp) (by simp) (by simp) hI hact
  have I0 : RqInv False False (fun _ => 0) (codecAt rr (genProg (argsSchema S)) k) st f f.position (ReadableAt rr S f st N) (Cfg.initial mem u) := by
    refine ⟨by simp [Cfg.initial], ⟨.no, none, fun _ => 0, by simp, by simp, .idle, trivial, ?_, by simp, fun vs => ?_⟩, by simp⟩
    · exact not_busy hm
    · simp [Cfg.initial, num_nil, Hold.count, one]
  have a1 : act (codecAt rr (genProg (argsSchema S)) k) lib U (genRpc scope S).handlers (Cfg.initial mem u) (.request f.position bs) = some c1 := rfl
  have a2 : act (codecAt rr (genProg (argsSchema S)) k) lib U (genRpc scope S).handlers c1 (.request f.position bs') = some c2 := rfl
  have I1 := step _ _ _ (fun b hb => by
    simp only [Act.request.injEq, true_and] at hb
    subst hb
    exact ⟨_, hq1⟩) I0 a1
  obtain ⟨rest, hrest⟩ := hlib (mem f.position).server bs
  have I2 := overwritten hlib (hst _ _) hQ I1 rfl (b0 := bs) (r0 := rest) (by simpa [c1, setMem_self] using hrest) hq1 hq2 a2
  have hq : ∀ {q : Rq} {vs : List Val} {b : Bytes}, ReadableAt rr S f st N q b → Ev.IsRequest (ReadableAt rr S f st N) f.position vs (.requested f.position b) →
      q.2 = vs := by
    rintro q vs b hq ⟨i, b', e, hq'⟩
    simp only [Ev.requested.injEq, true_and] at e
    subst e
    exact (Rpc.request_unique h.rust h.server hf hr hq.1 hq'.1).2
  have hnum : ∀ ws, num (Ev.IsRequest (ReadableAt rr S f st N) f.position ws) c2.log ≤ one (vs = ws) + one (vs' = ws) := by
    intro ws
    simp only [c2, num_cons, num_nil]
    have e1 := one_mono (hq (b := bs) (vs := ws) hq1)
    have e2 := one_mono (hq (b := bs') (vs := ws) hq2)
    simp only at e1 e2
    omega
  obtain ⟨ys, hy, hn⟩ := server_of_noCallsOf h hf ns sc hz hs'
  obtain ⟨⟨_, ⟨H, B, D, hL, _, _, _, _, _, hcount⟩, _⟩, hn'⟩ := acts_inv
    (fun c => RqInv False False (fun ws => one (vs = ws)) (codecAt rr (genProg (argsSchema S)) k) st f f.position (ReadableAt rr S f st N) c
      ∧ ∀ ws, num (Ev.IsRequest (ReadableAt rr S f st N) f.position ws) c.log ≤ one (vs = ws) + one (vs' = ws))
    (fun y hy' c c' hI hact => ⟨step y c c' (fun bs e => absurd (e ▸ hy') (hn bs)) hI.1 hact,
      fun ws => (request_num (fun bs e => hn bs (e ▸ hy')) hact).symm ▸ hI.2 ws⟩) ⟨I2, hnum⟩ hy
  have hcall : ∀ ws, num (Ev.IsCall f.position f.id ws) s'.server.log ≤ one (vs' = ws) := by
    intro ws
    have h2 := hcount ws
    have h3 := hL ws
    have h4 := hn' ws
    omega
  refine ⟨fun ws hw => ?_, ?_⟩
  · have h4 : 0 < num (Ev.IsCall f.position f.id ws) s'.server.log := by
      unfold num
      exact List.countP_pos_iff.2 ⟨_, hw, by simp [Ev.IsCall]⟩
    have h5 := hcall ws
    exact Classical.byContradiction fun hne => by
      rw [one_false (fun e => hne e.symm)] at h5
      omega
  · exact Nat.le_trans (hcall vs') (by unfold one; split <;> omega)

/-- Two calls of `slow` in the example; afterwards the server runs until the function has been called. -/
example : ∃ P R Q C, Rust.Emits rpcSchema P ∧ Rust.EmitsRpc rpcSchema R ∧ Dart.Emits testExt rpcSchema Q ∧ Dart.EmitsRpc testExt rpcSchema C ∧
    ∃ vs' N, ∀ k, N ≤ k → ∃ s0 s, Rpc.start overwrite LE.dart Q k (-1) (· + 1) C (fun _ => ⟨[0], [0]⟩) 0 = some s0 ∧
      Rpc.sysActs (codecAt LE.rust (P.withArgs R) k) overwrite exampleUser R.handlers LE.dart Q k (-1) (· + 1) C s0
        [.call "slow" [pt 1], .call "slow" [pt 2]] = some s ∧
      ∀ s', Rpc.sysActs (codecAt LE.rust (P.withArgs R) k) overwrite exampleUser R.handlers LE.dart Q k (-1) (· + 1) C s
        ([.server (.poll 1)] ++ List.replicate 8 (.server .stepH) ++ [.server .endH, .server (.stepT 0), .server (.stepT 0)]) = some s' →
        ∀ vs, Ev.called 1 "slow" vs ∈ s'.server.log → vs = vs' := by
  obtain ⟨outR, hR⟩ := rpcSchema_out
  obtain ⟨outD, hD⟩ := rpcSchema_dartOut
  obtain ⟨P, R, Q, C, h1, h2, h3, h4, h5⟩ := C52_calls_at_once testExt LE.rust LE.dart (-1) rpcSchema rpcSchema_system
    rpcSchema_methods outR outD hR hD
  obtain ⟨vs', -, N, h6⟩ := h5 slow slow_mem rfl rfl (rpcSchema_portableMethod slow_mem) Nat overwrite overwrite_lawful exampleUser (· + 1)
    (fun _ => ⟨[0], [0]⟩) 0 [pt 1] [pt 2] ⟨0, [], rfl, by decide⟩ (succ_fresh (by decide)) (slow_args (.inl rfl)) (slow_args (.inr rfl))
  refine ⟨P, R, Q, C, h1, h2, h3, h4, vs', N, fun k hk => ?_⟩
  obtain ⟨s0, s, h7, h8, -, h9⟩ := h6 k hk
  rw [slow_camel] at h8
  exact ⟨s0, s, h7, h8, fun s' hs' => (h9 _ (by simp [NoCallsOf, slow]) s' hs').1⟩

/-- With a concrete stack, the function is indeed called once. -/
example : (runExample ([.call "slow" [pt 1], .call "slow" [pt 2], .server (.poll 1)] ++ List.replicate 8 (.server .stepH) ++
    [.server .endH, .server (.stepT 0), .server (.stepT 0)])).map (fun s => (s.calls.length, s.server.log.countP (Ev.calledAt 1))) = some (2, 1) := by
  decide +kernel

end TPB.Props
