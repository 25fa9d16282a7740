/-
C73: a program that makes one call of a method at a time loses nothing.
-/
import Verif.Proofs.RpcPossible
namespace TPB.Props
open Spec
open Rust (RetIs Buf Bufs BufLib User setMem codecAt Act Ev Ret executed outcomes)
open Rpc
open Dart (ClientState)

/-! ## C73: one call at a time -/

/-- **C73** Let a new client and a server on which nothing has happened share the buffers, and let `xs` be any history of
server steps, client calls and runs of the client's read tasks in which the asynchronous method `f` is only called when
all its earlier calls have been completed; other methods may be called at any time.  Assumptions as in C34, and nobody but
the emitted code writes to the buffers of `f`.  Then the user's function is executed exactly once for each call of `f`, in
the order of the calls and with their arguments; at most the last call has not been executed yet.  The future of each
completed call has been completed with the result of the execution of that very call. -/
theorem C73_in_order (x : Ext) (rr : Rust.Runtime) (rt : Dart.Runtime) (hd : Int) (S : List ASTNode)
    (h : SystemOk x rr rt hd S) (hM : methodsOf S ≠ [])
    (outR outD : String) (hoR : RustGen.rpc S = .ok outR) (hoD : DartGen.rpcMethods x S = .ok outD) :
    ∃ P R Q C, Rust.Emits S P ∧ Rust.EmitsRpc S R ∧ Dart.Emits x S Q ∧ Dart.EmitsRpc x S C ∧
      ∀ f ∈ methodsOf S, f.isRead = false → f.isAsync = true → PortableMethod S f →
      ∀ (σ : Type) (lib : BufLib) (_ : lib.Lawful) (U : User σ) (rotate : Int → Int) (mem : Nat → Bufs) (u : σ) (xs : List SysAct),
        NoMessage (rr.readP "u8") (mem f.position).server → NoMessage (rr.readP "u8") (mem f.position).client →
        (∀ bs, SysAct.server (.request f.position bs) ∉ xs) → (∀ bs, SysAct.server (.clear f.position bs) ∉ xs) →
        (∀ ds, SysAct.call (x.camel f.id) ds ∈ xs → DartArgs x rt.wire S f ds) →
        FreshIds rotate (xs.countP (SysAct.isCall (x.camel f.id))) →
        ∃ N, ∀ k, N ≤ k → ∃ s0, start lib rt Q k hd rotate C mem u = some s0 ∧
          (OneAtATime (x.camel f.id) (sysActs (codecAt rr (P.withArgs R) k) lib U R.handlers rt Q k hd rotate C s0) xs →
          ∀ s, sysActs (codecAt rr (P.withArgs R) k) lib U R.handlers rt Q k hd rotate C s0 xs = some s →
            Typed rr.wire S f s.server.log →
            ∃ calls : List (List Val × Nat), s.calls.filter (fun c => c.1 = x.camel f.id) = calls.map (fun c => (x.camel f.id, c)) ∧
              ((executed f.position s.server.log).length = calls.length ∨ (executed f.position s.server.log).length + 1 = calls.length) ∧
              (∀ (j : Nat) g vs, (executed f.position s.server.log)[j]? = some (g, vs) →
                g = f.id ∧ ∃ ds n, calls[j]? = some (ds, n) ∧ Exchanged x rr.wire S (f.args.map (·.typeId)) vs ds) ∧
              ∀ (j : Nat) ds n dv, calls[j]? = some (ds, n) → (n, dv) ∈ s.client.done →
                ∃ vs r v, (outcomes f.position s.server.log)[j]? = some (f.id, vs, r) ∧
                  Exchanged x rr.wire S (f.args.map (·.typeId)) vs ds ∧ RetIs r v ∧ ExchangedResult x rr.wire S f v dv) := by
  have hA := h.server.accepted
  obtain ⟨scope, hR⟩ := Rust.emitsRpc_of hA.wf hoR hM
  obtain ⟨ns, sc, hC, -⟩ := Dart.emitsRpc_of hA.wf hM hoD
  refine ⟨_, _, _, _, emits_genProg S hA, hR, Dart.emits_genProg hA, hC, ?_⟩
  intro f hf hr ha hp σ lib hlib U rotate mem u xs hm hmc hnr hcl hds hids
  rw [Rust.withArgs_genProg]
  obtain ⟨st, hst⟩ := Rust.statusOk_codecAt h.rust
  obtain ⟨N, hN⟩ := joint_bound h hf hr ha hp hst hids hds
  refine ⟨N, fun k hk => ?_⟩
  obtain ⟨hcalls, hres⟩ := hN k hk
  obtain ⟨s0, h0, hc0, -, J0⟩ := joint_init (f := f) (scope := scope) (st := st) (lib := lib) (U := U) (mem := mem) (u := u) (rot := rotate)
    (xs := xs) (N := N) (k := k) h ns sc
  obtain ⟨cl0, hsh⟩ := start_shape h ns sc h0
  refine ⟨s0, h0, fun hone s hs hty => ?_⟩
  obtain ⟨prev, ph, I⟩ := single_acts h hf hr ha hst hlib hk hm hmc hcl hnr hcalls hres hids ns sc (fun a ha => ha) J0
    (single_init (x := x) (S := S) (st := st) (rot := rotate) (N := N) (k := k) hm hmc hsh) (by simp [callsOf, hc0]) hone hs hty
  have he : callsOf (x.camel f.id) s = ((callsOf (x.camel f.id) s).map Prod.snd).map (fun c => (x.camel f.id, c)) := by
    rw [List.map_map]
    conv => lhs; rw [← List.map_id (callsOf (x.camel f.id) s)]
    refine List.map_congr_left (fun c hc => ?_)
    simp only [callsOf, List.mem_filter, decide_eq_true_eq] at hc
    simp [← hc.2]
  have hget : ∀ (j : Nat) ds n, ((callsOf (x.camel f.id) s).map Prod.snd)[j]? = some (ds, n) →
      (callsOf (x.camel f.id) s)[j]? = some (x.camel f.id, ds, n) := by
    intro j ds n hj
    rw [he, List.getElem?_map, hj]
    rfl
  have hlen := I.length
  obtain ⟨m, hx, hm'⟩ := I.executed
  refine ⟨(callsOf (x.camel f.id) s).map Prod.snd, he, ?_, ?_, ?_⟩
  · rw [hx]
    simp only [List.length_map, List.length_take]
    omega
  · intro j g vs hj
    rw [hx, List.getElem?_map, List.getElem?_take] at hj
    split at hj
    case isFalse => simp at hj
    case isTrue hlt =>
    obtain ⟨q, hq, e⟩ := Option.map_eq_some_iff.1 hj
    cases e
    obtain ⟨ds, n, hc⟩ := callsOf_get (name := x.camel f.id) (s := s) (j := j) (by rw [← hlen]; exact (List.getElem?_eq_some_iff.1 hq).1)
    obtain ⟨vs', h1, h2⟩ := I.sent _ _ _ hc
    rw [hq] at h1
    cases h1
    exact ⟨rfl, ds, n, by rw [List.getElem?_map, hc]; rfl, h2⟩
  · intro j ds n dv hj hdn
    obtain ⟨q, r, v, h1, h2, h3⟩ := I.good j ds n dv (hget _ _ _ hj) hdn
    obtain ⟨vs', h4, h5⟩ := I.sent _ _ _ (hget _ _ _ hj)
    rw [requests_of_closed h1] at h4
    cases h4
    exact ⟨vs', r, v, I.finished h1, h5, h2, h3⟩

/-- **C73, nothing is lost.** In every history as in `C73_in_order`: when nothing is left to do for the server, a run of
the read task of `f` completes the call of `f` that has not been completed yet. -/
theorem C73_nothing_lost (x : Ext) (rr : Rust.Runtime) (rt : Dart.Runtime) (hd : Int) (S : List ASTNode)
    (h : SystemOk x rr rt hd S) (hM : methodsOf S ≠ [])
    (outR outD : String) (hoR : RustGen.rpc S = .ok outR) (hoD : DartGen.rpcMethods x S = .ok outD) :
    ∃ P R Q C, Rust.Emits S P ∧ Rust.EmitsRpc S R ∧ Dart.Emits x S Q ∧ Dart.EmitsRpc x S C ∧
      ∀ f ∈ methodsOf S, f.isRead = false → f.isAsync = true → PortableMethod S f →
      ∀ (σ : Type) (lib : BufLib) (_ : lib.Lawful) (U : User σ) (rotate : Int → Int) (mem : Nat → Bufs) (u : σ) (xs : List SysAct),
        NoMessage (rr.readP "u8") (mem f.position).server → NoMessage (rr.readP "u8") (mem f.position).client →
        (∀ bs, SysAct.server (.request f.position bs) ∉ xs) → (∀ bs, SysAct.server (.clear f.position bs) ∉ xs) →
        (∀ ds, SysAct.call (x.camel f.id) ds ∈ xs → DartArgs x rt.wire S f ds) →
        FreshIds rotate (xs.countP (SysAct.isCall (x.camel f.id))) →
        ∃ N, ∀ k, N ≤ k → ∃ s0, start lib rt Q k hd rotate C mem u = some s0 ∧
          (OneAtATime (x.camel f.id) (sysActs (codecAt rr (P.withArgs R) k) lib U R.handlers rt Q k hd rotate C s0) xs →
          ∀ s, sysActs (codecAt rr (P.withArgs R) k) lib U R.handlers rt Q k hd rotate C s0 xs = some s →
            Typed rr.wire S f s.server.log → Settled (rr.readP "u8") f s.server →
            ∀ ds n, (x.camel f.id, ds, n) ∈ s.calls → n ∉ s.client.done.map (·.1) →
              ∃ c dv, sysAct (codecAt rr (P.withArgs R) k) lib U R.handlers rt Q k hd rotate C s (.read (readTask x f)) = some { s with client := c } ∧
                (n, dv) ∈ c.done ∧ ∀ ds' n', (x.camel f.id, ds', n') ∈ s.calls → n' ∈ c.done.map (·.1)) := by
  have hA := h.server.accepted
  obtain ⟨scope, hR⟩ := Rust.emitsRpc_of hA.wf hoR hM
  obtain ⟨ns, sc, hC, -⟩ := Dart.emitsRpc_of hA.wf hM hoD
  refine ⟨_, _, _, _, emits_genProg S hA, hR, Dart.emits_genProg hA, hC, ?_⟩
  intro f hf hr ha hp σ lib hlib U rotate mem u xs hm hmc hnr hcl hds hids
  rw [Rust.withArgs_genProg]
  obtain ⟨st, hst⟩ := Rust.statusOk_codecAt h.rust
  obtain ⟨N, hN⟩ := joint_bound h hf hr ha hp hst hids hds
  refine ⟨N, fun k hk => ?_⟩
  obtain ⟨hcalls, hres⟩ := hN k hk
  obtain ⟨s0, h0, hc0, -, J0⟩ := joint_init (f := f) (scope := scope) (st := st) (lib := lib) (U := U) (mem := mem) (u := u) (rot := rotate)
    (xs := xs) (N := N) (k := k) h ns sc
  obtain ⟨cl0, hsh⟩ := start_shape h ns sc h0
  refine ⟨s0, h0, fun hone s hs hty hq ds n hc hnd => ?_⟩
  obtain ⟨J, hlen⟩ := joint_acts h hf hr ha hst hlib hk hm hmc (fun bs hb => absurd hb (hcl bs)) hnr hcalls hres hids ns sc (fun a ha => .inl ha) J0 (by simp [callsOf, hc0]) hs hty
  obtain ⟨prev, ph, I⟩ := single_acts h hf hr ha hst hlib hk hm hmc hcl hnr hcalls hres hids ns sc (fun a ha => ha) J0
    (single_init (x := x) (S := S) (st := st) (rot := rotate) (N := N) (k := k) hm hmc hsh) (by simp [callsOf, hc0]) hone hs hty
  exact completes_last h hf hr ha hst hres ns sc J I hty (I.settled hst hk hq) hc hnd

/-- **C73, the open call can be completed.** In every state that a history as in `C73_in_order` reaches, whatever the
server has been doing so far: if no handler of another method is running, the server can carry on (the handler of `f` is
polled, it and the futures make steps, the user's function yields the result `r0`) such that a following run of the read
task of `f` completes all calls of `f`. -/
theorem C73_can_complete (x : Ext) (rr : Rust.Runtime) (rt : Dart.Runtime) (hd : Int) (S : List ASTNode)
    (h : SystemOk x rr rt hd S) (hM : methodsOf S ≠ [])
    (outR outD : String) (hoR : RustGen.rpc S = .ok outR) (hoD : DartGen.rpcMethods x S = .ok outD) :
    ∃ P R Q C, Rust.Emits S P ∧ Rust.EmitsRpc S R ∧ Dart.Emits x S Q ∧ Dart.EmitsRpc x S C ∧
      ∀ f ∈ methodsOf S, f.isRead = false → f.isAsync = true → PortableMethod S f →
      ∀ (σ : Type) (lib : BufLib) (_ : lib.Lawful) (U : User σ) (rotate : Int → Int) (mem : Nat → Bufs) (u : σ) (xs : List SysAct) (r0 : Ret),
        NoMessage (rr.readP "u8") (mem f.position).server → NoMessage (rr.readP "u8") (mem f.position).client →
        (∀ bs, SysAct.server (.request f.position bs) ∉ xs) → (∀ bs, SysAct.server (.clear f.position bs) ∉ xs) →
        (∀ ds, SysAct.call (x.camel f.id) ds ∈ xs → DartArgs x rt.wire S f ds) →
        FreshIds rotate (xs.countP (SysAct.isCall (x.camel f.id))) →
        (∃ v b, RetIs r0 v ∧ ResultIs rr.wire S f v b) →
        ∃ N, ∀ k, N ≤ k → ∃ s0, start lib rt Q k hd rotate C mem u = some s0 ∧
          (OneAtATime (x.camel f.id) (sysActs (codecAt rr (P.withArgs R) k) lib U R.handlers rt Q k hd rotate C s0) xs →
          ∀ s, sysActs (codecAt rr (P.withArgs R) k) lib U R.handlers rt Q k hd rotate C s0 xs = some s →
            Typed rr.wire S f s.server.log → (∀ r, s.server.run = some r → r.addr = f.position) →
            ∀ ds n, (x.camel f.id, ds, n) ∈ s.calls → n ∉ s.client.done.map (·.1) →
              ∃ ys : List Act, (∀ y ∈ ys, y.Works f.position r0) ∧
                ∃ s', sysActs (codecAt rr (P.withArgs R) k) lib U R.handlers rt Q k hd rotate C s (ys.map .server ++ [.read (readTask x f)]) = some s' ∧
                  Typed rr.wire S f s'.server.log ∧ s'.calls = s.calls ∧
                  ∀ ds' n', (x.camel f.id, ds', n') ∈ s.calls → n' ∈ s'.client.done.map (·.1)) := by
  have hA := h.server.accepted
  obtain ⟨scope, hR⟩ := Rust.emitsRpc_of hA.wf hoR hM
  obtain ⟨ns, sc, hC, -⟩ := Dart.emitsRpc_of hA.wf hM hoD
  refine ⟨_, _, _, _, emits_genProg S hA, hR, Dart.emits_genProg hA, hC, ?_⟩
  intro f hf hr ha hp σ lib hlib U rotate mem u xs r0 hm hmc hnr hcl hds hids hr0
  rw [Rust.withArgs_genProg]
  obtain ⟨st, hst⟩ := Rust.statusOk_codecAt h.rust
  obtain ⟨N, hN⟩ := joint_bound (xs := xs ++ [.server (.resume 0 r0)]) h hf hr ha hp hst hids (by intro ds hd'; exact hds ds (by simpa using hd'))
  refine ⟨N, fun k hk => ?_⟩
  obtain ⟨hcalls, hres⟩ := hN k hk
  have hcalls : Calls x rr rt hd S f st rotate xs N k _ := fun ds hd' => hcalls ds (by simp [hd'])
  have hres' : Results x rr rt S f xs k := fun i r hi => hres i r (by simp [hi])
  obtain ⟨s0, h0, hc0, -, J0⟩ := joint_init (f := f) (scope := scope) (st := st) (lib := lib) (U := U) (mem := mem) (u := u) (rot := rotate)
    (xs := xs) (N := N) (k := k) h ns sc
  obtain ⟨cl0, hsh⟩ := start_shape h ns sc h0
  refine ⟨s0, h0, fun hone s hs hty hrun ds n hc hnd => ?_⟩
  obtain ⟨J, hlen⟩ := joint_acts h hf hr ha hst hlib hk hm hmc (fun bs hb => absurd hb (hcl bs)) hnr hcalls hres' hids ns sc (fun a ha => .inl ha) J0 (by simp [callsOf, hc0]) hs hty
  obtain ⟨prev, ph, I⟩ := single_acts h hf hr ha hst hlib hk hm hmc hcl hnr hcalls hres' hids ns sc (fun a ha => ha) J0
    (single_init (x := x) (S := S) (st := st) (rot := rotate) (N := N) (k := k) hm hmc hsh) (by simp [callsOf, hc0]) hone hs hty
  exact can_complete h hf hr ha hst hlib hk hres hids ns sc J I hlen hty hr0 hrun hc hnd

/-! ### Example -/

/-- A call of `slow`, a run of its handler, and the execution of the `i`-th future, which yields `r`. -/
def oneCall (i : Nat) (d : Val) (r : Int) : List SysAct :=
  [.call "slow" [d], .server (.poll 1)] ++ List.replicate 8 (.server .stepH) ++
    [.server .endH, .server (.stepT i), .server (.stepT i), .server (.resume i (.val (.int r))), .server (.stepT i), .server (.stepT i)]

/-- Two calls of `slow`, the second one after the first one has been completed. -/
def callsInTurn : List SysAct := oneCall 0 (pt 1) 11 ++ [.read "_readSlowTask"] ++ oneCall 1 (pt 2) 22

/-- Is the action at `i` not a call, or have all earlier calls been completed? -/
def inTurnAt (xs : List SysAct) (i : Nat) : Bool :=
  match xs[i]? with
  | some (.call _ _) => (runExample (xs.take i)).all (fun s => s.calls.all (fun c => (s.client.done.map (·.1)).contains c.2.2))
  | _ => true

/-- The calls are made one at a time. -/
example : OneAtATime (testExt.camel slow.id) runExample callsInTurn := by
  rw [slow_camel]
  intro ys ds zs s e hs ds' n hc
  have key : ∀ i < 33, inTurnAt callsInTurn i = true := by decide +kernel
  have hlen : callsInTurn.length = 33 := by decide
  have h1 : callsInTurn[ys.length]? = some (.call "slow" ds) := by rw [e]; simp
  have h2 : callsInTurn.take ys.length = ys := by rw [e]; simp
  have h3 := key ys.length (by rw [← hlen, e]; simp)
  simp only [inTurnAt, h1, h2, hs, Option.all_some, List.all_eq_true, List.contains_iff_mem] at h3
  exact h3 _ hc

/-- The second call is not completed; nothing is left to do for the server; the function has been executed twice. -/
example : (runExample callsInTurn).map (fun s => (s.calls.map (fun c => (c.1, c.2.2)), s.client.done.map (fun p => (p.1, p.2.bind intOf))))
    = some ([("slow", 0), ("slow", 1)], [(0, some 11)]) := by
  decide +kernel

example : (runExample callsInTurn).map (fun s => ((s.server.mem 1).server.head?, s.server.run.isNone, s.server.tasks.map (fun t => t.thread.code.length)))
    = some (some 0, true, [0, 0]) := by
  decide +kernel

example : (runExample callsInTurn).map (fun s => ((executed 1 s.server.log).map (fun e => e.1), (outcomes 1 s.server.log).map (fun e => e.1),
      s.server.log.all intResult)) = some (["slow", "slow"], ["slow", "slow"], true) := by
  decide +kernel

/-- The other assumptions of C73 are met as well. -/
example : ∃ P R Q C, Rust.Emits rpcSchema P ∧ Rust.EmitsRpc rpcSchema R ∧ Dart.Emits testExt rpcSchema Q ∧ Dart.EmitsRpc testExt rpcSchema C ∧
    ∃ N, ∀ k, N ≤ k → ∃ s0, start overwrite LE.dart Q k (-1) (· + 1) C (fun _ => ⟨[0], [0]⟩) 0 = some s0 ∧
      (OneAtATime "slow" (sysActs (codecAt LE.rust (P.withArgs R) k) overwrite exampleUser R.handlers LE.dart Q k (-1) (· + 1) C s0) callsInTurn →
      ∀ s, sysActs (codecAt LE.rust (P.withArgs R) k) overwrite exampleUser R.handlers LE.dart Q k (-1) (· + 1) C s0 callsInTurn = some s →
        s.server.log.all intResult = true → Settled (LE.rust.readP "u8") slow s.server →
        ∀ ds n, ("slow", ds, n) ∈ s.calls → n ∉ s.client.done.map (·.1) →
          ∃ c dv, sysAct (codecAt LE.rust (P.withArgs R) k) overwrite exampleUser R.handlers LE.dart Q k (-1) (· + 1) C s (.read (readTask testExt slow))
            = some { s with client := c } ∧ (n, dv) ∈ c.done) := by
  obtain ⟨outR, hR⟩ := rpcSchema_out
  obtain ⟨outD, hD⟩ := rpcSchema_dartOut
  obtain ⟨P, R, Q, C, h1, h2, h3, h4, h5⟩ := C73_nothing_lost testExt LE.rust LE.dart (-1) rpcSchema rpcSchema_system
    rpcSchema_methods outR outD hR hD
  obtain ⟨N, hN⟩ := h5 slow slow_mem rfl rfl (rpcSchema_portableMethod slow_mem) Nat overwrite overwrite_lawful exampleUser (· + 1)
    (fun _ => ⟨[0], [0]⟩) 0 callsInTurn ⟨0, [], rfl, by decide⟩ ⟨0, [], rfl, by decide⟩
    (by simp [callsInTurn, oneCall]) (by simp [callsInTurn, oneCall])
    (by rw [slow_camel]; intro ds h; exact slow_args (by simpa [callsInTurn, oneCall] using h)) (succ_fresh (by rw [slow_camel]; decide))
  refine ⟨P, R, Q, C, h1, h2, h3, h4, N, fun k hk => ?_⟩
  obtain ⟨s0, h6, h7⟩ := hN k hk
  rw [slow_camel] at h7
  refine ⟨s0, h6, fun ho s hs ht hq ds n hc hn => ?_⟩
  obtain ⟨c, dv, h8, h9, -⟩ := h7 ho s hs (typed_of_ints ht) hq ds n hc hn
  exact ⟨c, dv, h8, h9⟩

/-- The second call has been sent and the handler of `slow` has just consumed its request: no handler of another method is
running, and the call is open. -/
example : (runExample (callsInTurn.take 23)).map (fun s => (s.server.run.map (fun r => (r.addr, r.thread.code.length)), s.calls.map (·.2.2), s.client.done.map (·.1)))
    = some (some (1, 4), [0, 1], [0]) := by
  decide +kernel

/-- `C73_can_complete` applies to that history. -/
example : ∃ P R Q C, Rust.Emits rpcSchema P ∧ Rust.EmitsRpc rpcSchema R ∧ Dart.Emits testExt rpcSchema Q ∧ Dart.EmitsRpc testExt rpcSchema C ∧
    ∃ N, ∀ k, N ≤ k → ∃ s0, start overwrite LE.dart Q k (-1) (· + 1) C (fun _ => ⟨[0], [0]⟩) 0 = some s0 ∧
      (OneAtATime "slow" (sysActs (codecAt LE.rust (P.withArgs R) k) overwrite exampleUser R.handlers LE.dart Q k (-1) (· + 1) C s0) (callsInTurn.take 23) →
      ∀ s, sysActs (codecAt LE.rust (P.withArgs R) k) overwrite exampleUser R.handlers LE.dart Q k (-1) (· + 1) C s0 (callsInTurn.take 23) = some s →
        s.server.log.all intResult = true → (∀ r, s.server.run = some r → r.addr = 1) →
        ∀ ds n, ("slow", ds, n) ∈ s.calls → n ∉ s.client.done.map (·.1) →
          ∃ ys : List Act, (∀ y ∈ ys, y.Works 1 (.val (.int 7))) ∧
            ∃ s', sysActs (codecAt LE.rust (P.withArgs R) k) overwrite exampleUser R.handlers LE.dart Q k (-1) (· + 1) C s
                (ys.map .server ++ [.read (readTask testExt slow)]) = some s' ∧ ∀ ds' n', ("slow", ds', n') ∈ s.calls → n' ∈ s'.client.done.map (·.1)) := by
  obtain ⟨outR, hR⟩ := rpcSchema_out
  obtain ⟨outD, hD⟩ := rpcSchema_dartOut
  obtain ⟨P, R, Q, C, h1, h2, h3, h4, h5⟩ := C73_can_complete testExt LE.rust LE.dart (-1) rpcSchema rpcSchema_system
    rpcSchema_methods outR outD hR hD
  have hsub : ∀ a ∈ callsInTurn.take 23, a ∈ callsInTurn := fun a h => List.mem_of_mem_take h
  obtain ⟨N, hN⟩ := h5 slow slow_mem rfl rfl (rpcSchema_portableMethod slow_mem) Nat overwrite overwrite_lawful exampleUser (· + 1)
    (fun _ => ⟨[0], [0]⟩) 0 (callsInTurn.take 23) (.val (.int 7)) ⟨0, [], rfl, by decide⟩ ⟨0, [], rfl, by decide⟩
    (fun bs h => by have := hsub _ h; simp [callsInTurn, oneCall] at this) (fun bs h => by have := hsub _ h; simp [callsInTurn, oneCall] at this)
    (by rw [slow_camel]; intro ds h; exact slow_args (by simpa [callsInTurn, oneCall] using hsub _ h)) (succ_fresh (by rw [slow_camel]; decide))
    (typed_of_ints (log := [.finished 1 "slow" [] (.val (.int 7))]) (by decide) [] (.val (.int 7)) (by simp [slow]))
  refine ⟨P, R, Q, C, h1, h2, h3, h4, N, fun k hk => ?_⟩
  obtain ⟨s0, h6, h7⟩ := hN k hk
  rw [slow_camel] at h7
  refine ⟨s0, h6, fun ho s hs ht hq ds n hc hn => ?_⟩
  obtain ⟨ys, h8, s', h9, -, -, h10⟩ := h7 ho s hs (typed_of_ints ht) hq ds n hc hn
  exact ⟨ys, h8, s', h9, h10⟩

end TPB.Props
