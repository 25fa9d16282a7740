/-
Property theorems about methods at the same place of two schemas: C96.
-/
import Verif.Props.Appending
namespace TPB.Props
open Spec Renaming
open Rust (RetIs Buf Bufs BufLib User setMem codecAt)
open Rpc

/-- **C96, synchronous calls.** Two schemas `S` and `S'` whose other methods need not be related at all.  If the method `f` of
`S` and the method `f'` of `S'` have the same place among the methods, are of the same kind and have the same argument and
result types, a call of `f` by a client of `S` makes a server of `S'` run `f'`, once, with the values that were meant for
`f`, and returns its result, whatever the two methods are called. -/
theorem C96_sync_call (x : Ext) (rr : Rust.Runtime) (rt : Dart.Runtime) (hd : Int) (M : String → String → Prop) (S S' : List ASTNode)
    (h : SystemOk x rr rt hd S) (h' : RpcOk rr.wire S') (hS : SameShape M S S') (hM : methodsOf S ≠ []) (hM' : methodsOf S' ≠ [])
    (outR outD : String) (hoR : RustGen.rpc S' = .ok outR) (hoD : DartGen.rpcMethods x S = .ok outD) :
    ∃ P R Q C, Rust.Emits S' P ∧ Rust.EmitsRpc S' R ∧ Dart.Emits x S Q ∧ Dart.EmitsRpc x S C ∧
      ∀ (i : Nat) (f f' : FnNode), (methodsOf S)[i]? = some f → (methodsOf S')[i]? = some f' → SameMethod M S S' f f' →
      groupOf f = .sync → PortableMethod S f →
      ∀ (σ : Type) (lib : BufLib) (_ : lib.Lawful) (U : User σ) (rotate : Int → Int)
        (w : Dart.World (σ × List (String × List Val))) (ds : List Val) (as : List Nat),
        DartArgs x rt.wire S f ds → i ∈ as →
        (∀ a ∈ as, ∃ g ∈ methodsOf S', groupOf g = .sync ∧ g.position = a ∧
          (g ≠ f' → NoMessage (rr.readP "u8") (w.mem a).server)) →
        ∃ vs vs', Exchanged x rr.wire S (f.args.map (·.typeId)) vs ds ∧
          SameVals rr.wire M S S' (f.args.map (·.typeId)) (f'.args.map (·.typeId)) vs vs' ∧
          ∀ v v', RetIs (U f'.id vs' w.rest.1).1 v' → SameResult rr.wire M S S' f f' v v' → (∃ b, ResultIs rr.wire S f v b) →
          ∃ dv, ExchangedResult x rr.wire S f v dv ∧ ∃ N, ∀ k, N ≤ k → ∃ mem sent,
            Dart.callMethod rt Q k hd rotate C lib (loopSync (codecAt rr (P.withArgs R) k) lib U R.handlers as) (x.camel f.id) ds w
              = .ok (.ofResult dv, ⟨w.client, mem, sent, (U f'.id vs' w.rest.1).2, w.rest.2 ++ [(f'.id, vs')]⟩) := by
  have hA := h.server.accepted
  obtain ⟨scope, hR⟩ := Rust.emitsRpc_of h'.accepted.wf hoR hM'
  obtain ⟨ns, scope', hC, -⟩ := Dart.emitsRpc_of hA.wf hM hoD
  refine ⟨_, _, _, _, emits_genProg S' h'.accepted, hR, Dart.emits_genProg hA, hC, ?_⟩
  intro i f f' hi hi' hs hg hp σ lib hlib U rotate w ds as hds hpos has
  have hf := List.mem_of_getElem? hi
  have hp1 := position_eq hA hi
  have hp2 := position_eq h'.accepted hi'
  exact sync_between h h' ns scope scope' hf (List.mem_of_getElem? hi') hg (by rw [same_group hs, hg]) (by rw [hp1, hp2]) hp
    (X := fun vs vs' => SameVals rr.wire M S S' (f.args.map (·.typeId)) (f'.args.map (·.typeId)) vs vs')
    (Y := SameResult rr.wire M S S' f f')
    (fun vs b hv hr => by
      obtain ⟨vs', hs'⟩ := same_total hS hv _ hs.args
      exact ⟨vs', hs', same_request h.rust h.server hf hs hs' hr⟩)
    (fun v v' b hv ha => same_answer h.rust h.server hf hs hv ha) hlib U rotate w ds as hds (by rw [hp2]; exact hpos) has

/-- **C96, asynchronous calls.** The same for a request of an asynchronous method. -/
theorem C96_async_call (rt : Rust.Runtime) (hrt : rt.Lawful) (M : String → String → Prop) (S S' : List ASTNode)
    (h : RpcOk rt.wire S) (h' : RpcOk rt.wire S') (hM' : methodsOf S' ≠ []) (out : String) (hout : RustGen.rpc S' = .ok out) :
    ∃ P R, Rust.Emits S' P ∧ Rust.EmitsRpc S' R ∧
      ∀ (p : Nat) (f f' : FnNode), (methodsOf S)[p]? = some f → (methodsOf S')[p]? = some f' → SameMethod M S S' f f' →
      f.isRead = false → f.isAsync = true → ∃ hd, R.handlers.lookup f.position = some hd ∧
      ∀ (σ : Type) (lib : BufLib) (_ : lib.Lawful) (U : User σ) (m : Bufs) (u : σ) (i : Int) (vs vs' : List Val) (req rest : Bytes),
        Request rt.wire S f (some i) vs req → m.server = req ++ rest →
        SameVals rt.wire M S S' (f.args.map (·.typeId)) (f'.args.map (·.typeId)) vs vs' →
        ∃ N, ∀ k, N ≤ k → ∃ m' t,
          Rust.runHandler (codecAt rt (P.withArgs R) k) lib U hd m u = .ok ⟨m', u, [], [t], true⟩ ∧
          ∀ (r : Rust.Ret) (v v' : Option Val) (ans : Bytes), RetIs r v' → SameResult rt.wire M S S' f f' v v' →
            Spec.Answer rt.wire S f (some i) v ans →
            ∃ N', ∀ k', N' ≤ k' → ∀ (m1 : Bufs) (u1 : σ), ∃ n rest',
              Rust.runFuture (codecAt rt (P.withArgs R) k') lib U r n m1 u1 t = .ok (⟨m1.server, ans ++ rest'⟩, [(f'.id, vs')]) := by
  obtain ⟨P, R, h1, h2, h3⟩ := C33_async_exactly_once rt hrt S' h' hM' out hout
  refine ⟨P, R, h1, h2, fun p f f' hi hi' hs hr ha => ?_⟩
  have hf := List.mem_of_getElem? hi
  have hpf : f'.position = f.position := by rw [position_eq h'.accepted hi', position_eq h.accepted hi]
  obtain ⟨hd, h4, h5⟩ := h3 f' (List.mem_of_getElem? hi') (by rw [hs.isRead, hr]) (by rw [hs.isAsync, ha])
  refine ⟨hd, hpf ▸ h4, fun σ lib hlib U m u i vs vs' req rest hreq hm hv => ?_⟩
  obtain ⟨N, h6⟩ := h5 σ lib hlib U m u i vs' req rest (same_request hrt h hf hs hv hreq) hm
  refine ⟨N, fun k hk => ?_⟩
  obtain ⟨m', t, h7, -, h8⟩ := h6 k hk
  exact ⟨m', t, h7, fun r v v' ans hret hsv hans => h8 r v' ans hret (same_answer hrt h hf hs hsv hans)⟩

/-- **C96, an inserted method.** If `S'` has the methods `A`, `g`, `B`, in this order, and `S` has `A` and `B`, then every method
of `B` has in `S` the place that the one before it has in `S'`: the first of `B` that of `g`, and so on. -/
theorem C96_inserted (S S' : List ASTNode) (hA : Accepted S) (hA' : Accepted S') (A B : List String) (g : String)
    (h : (methodsOf S).map (·.id) = A ++ B) (h' : (methodsOf S').map (·.id) = A ++ g :: B) (j : Nat) (n n' : String)
    (hn : B[j]? = some n) (hn' : (g :: B)[j]? = some n') :
    ∃ (i : Nat) (f f' : FnNode), (methodsOf S)[i]? = some f ∧ (methodsOf S')[i]? = some f' ∧ f.id = n ∧ f'.id = n' ∧
      f.position = i ∧ f'.position = i := by
  have e1 : ((methodsOf S).map (·.id))[A.length + j]? = some n := by rw [h, List.getElem?_append_right (by omega)]; simpa using hn
  have e2 : ((methodsOf S').map (·.id))[A.length + j]? = some n' := by rw [h', List.getElem?_append_right (by omega)]; simpa using hn'
  rw [List.getElem?_map, Option.map_eq_some_iff] at e1 e2
  obtain ⟨f, h1, h2⟩ := e1
  obtain ⟨f', h3, h4⟩ := e2
  exact ⟨_, f, f', h1, h3, h2, h4, position_eq hA h1, position_eq hA' h3⟩

theorem position_lt {S : List ASTNode} (hA : Accepted S) {f : FnNode} (hf : f ∈ methodsOf S) : f.position < (methodsOf S).length := by
  obtain ⟨i, hi⟩ := List.getElem?_of_mem hf
  rw [position_eq hA hi]
  exact (List.getElem?_eq_some_iff.1 hi).1

/-- **C96, a removed method.** A server of `S'` has no handler at the places of `S` that `S'` does not have. -/
theorem C96_removed (S S' : List ASTNode) (hA : Accepted S) (hA' : Accepted S') (hn : ((methodsOf S').map (·.id)).Nodup)
    (hM' : methodsOf S' ≠ []) (out : String) (hout : RustGen.rpc S' = .ok out) :
    ∃ R, Rust.EmitsRpc S' R ∧ ∀ (i : Nat) (f : FnNode), (methodsOf S)[i]? = some f →
      (R.handlers.lookup f.position = none ↔ (methodsOf S').length ≤ i) := by
  obtain ⟨scope, hR⟩ := Rust.emitsRpc_of hA'.wf hout hM'
  refine ⟨_, hR, fun i f hi => ?_⟩
  rw [position_eq hA hi]
  constructor
  · intro hl
    refine Nat.le_of_not_lt fun hlt => ?_
    have hg := List.getElem?_eq_getElem (l := methodsOf S') (i := i) (by omega)
    have := Rust.handlers_lookup scope hA'.wf hn (List.mem_of_getElem? hg)
    rw [position_eq hA' hg, hl] at this
    simp at this
  · intro hle
    rw [Rust.handlers_genRpc scope hn]
    rw [List.lookup_eq_none_iff]
    intro p hp
    obtain ⟨g, hg, rfl⟩ := List.mem_map.1 hp
    have := position_lt hA' hg
    simp
    omega

/-- **C96, calls of a removed method.** A client of `S` calls a synchronous method that the server of `S'` does not have, when
no other request is waiting: no function is called, and the client is not told.  If the method has no result, the call
returns as usual; if the buffer of the client still holds an answer to an earlier call, the call returns that one. -/
theorem C96_removed_call (x : Ext) (rr : Rust.Runtime) (rt : Dart.Runtime) (hd : Int) (S S' : List ASTNode)
    (h : SystemOk x rr rt hd S) (h' : RpcOk rr.wire S') (hM : methodsOf S ≠ []) (hM' : methodsOf S' ≠ [])
    (outR outD : String) (hoR : RustGen.rpc S' = .ok outR) (hoD : DartGen.rpcMethods x S = .ok outD) :
    ∃ P R Q C, Rust.Emits S' P ∧ Rust.EmitsRpc S' R ∧ Dart.Emits x S Q ∧ Dart.EmitsRpc x S C ∧
      ∀ (i : Nat) (f : FnNode), (methodsOf S)[i]? = some f → (methodsOf S').length ≤ i → groupOf f = .sync → PortableMethod S f →
      ∀ (σ : Type) (lib : BufLib) (U : User σ) (rotate : Int → Int)
        (w : Dart.World (σ × List (String × List Val))) (ds : List Val) (as : List Nat), DartArgs x rt.wire S f ds →
        (∀ a ∈ as, ∃ g ∈ methodsOf S', groupOf g = .sync ∧ g.position = a ∧ NoMessage (rr.readP "u8") (w.mem a).server) →
        (f.returnTypeId = none → ∃ N, ∀ k, N ≤ k → ∃ mem sent,
          Dart.callMethod rt Q k hd rotate C lib (loopSync (codecAt rr (P.withArgs R) k) lib U R.handlers as) (x.camel f.id) ds w
            = .ok (.ofResult none, ⟨w.client, mem, sent, w.rest⟩)) ∧
        ∀ v ans rest, Spec.Answer rr.wire S f none v ans → (w.mem i).client = ans ++ rest →
          ∃ dv, ExchangedResult x rr.wire S f v dv ∧ ∃ N, ∀ k, N ≤ k → ∃ mem sent,
            Dart.callMethod rt Q k hd rotate C lib (loopSync (codecAt rr (P.withArgs R) k) lib U R.handlers as) (x.camel f.id) ds w
              = .ok (.ofResult dv, ⟨w.client, mem, sent, w.rest⟩) := by
  have hA := h.server.accepted
  obtain ⟨scope, hR⟩ := Rust.emitsRpc_of h'.accepted.wf hoR hM'
  obtain ⟨ns, scope', hC, -⟩ := Dart.emitsRpc_of hA.wf hM hoD
  refine ⟨_, _, _, _, emits_genProg S' h'.accepted, hR, Dart.emits_genProg hA, hC, ?_⟩
  intro i f hi hle hg hp σ lib U rotate w ds as hds has
  have hf := List.mem_of_getElem? hi
  have hpi := position_eq hA hi
  have hsync : ∀ g, groupOf g = .sync → g.isRead = false ∧ g.isAsync = false := by
    intro g
    unfold groupOf
    cases g.isRead <;> cases g.isAsync <;> simp
  obtain ⟨hr, ha⟩ := hsync f hg
  obtain ⟨vs, b, hex, he, hl, N1, hw⟩ := args_exchange h hf hp hds
  obtain ⟨s, hs⟩ := status_total h.rust.wire
  obtain ⟨hsw, hsr⟩ := Dart.status_bytes h.dart h.status hs
  have hlp : ∀ k, loopSync (codecAt rr (Rust.genProg (Rust.argsSchema S')) k) lib U (Rust.genRpc scope S').handlers as
      (setMem w.mem f.position ((w.mem f.position).set .server (lib (w.mem f.position).server (s ++ b)))) w.rest
      = .ok (setMem w.mem f.position ((w.mem f.position).set .server (lib (w.mem f.position).server (s ++ b))), w.rest) := fun k =>
    loopSync_idle h'.accepted.wf h'.rpcNamed.methods scope k as _ _ (fun a haas => by
      obtain ⟨g, h1, h2, h3, h4⟩ := has a haas
      refine ⟨g, h1, (hsync g h2).1, h3, ?_⟩
      have hlt := position_lt h'.accepted h1
      have hne : a ≠ f.position := by omega
      simpa only [setMem, if_neg hne] using h4)
  rw [Rust.withArgs_genProg]
  have hnone : f.returnTypeId = none → ∃ N, ∀ k, N ≤ k → ∃ mem sent,
      Dart.callMethod rt (Dart.genProg x S) k hd rotate (Dart.genClient x ns scope' S) lib
        (loopSync (codecAt rr (Rust.genProg (Rust.argsSchema S')) k) lib U (Rust.genRpc scope S').handlers as) (x.camel f.id) ds w
        = .ok (.ofResult none, ⟨w.client, mem, sent, w.rest⟩) := fun hft =>
    ⟨N1, fun k hk => ⟨_, _, Dart.sync_exec h.client ns scope' hf hr ha hl hsw (hw k hk) (hlp k) (rv := none) (by simp [hft])⟩⟩
  refine ⟨hnone, fun v ans rest ⟨s', m, rb, hs', hm, hrb, hans⟩ hcl => ?_⟩
  obtain rfl : s = s' := Option.some.inj (hs.symm.trans hs')
  obtain rfl : m = [] := hm
  cases hft : f.returnTypeId with
  | none =>
    have hv : v = none := by
      cases v with
      | none => rfl
      | some v => obtain ⟨t, h1, -⟩ := hrb; simp [hft] at h1
    subst hv
    exact ⟨none, hft, hnone hft⟩
  | some t =>
    cases v with
    | none => simp [ResultIs, hft] at hrb
    | some v =>
      obtain ⟨t', h1, hrb⟩ := hrb
      rw [hft] at h1
      obtain rfl := Option.some.inj h1
      obtain ⟨d, hxd, N3, hrd⟩ := result_exchange h hp hft hrb
      refine ⟨some d, ⟨t, hft, hxd⟩, max N1 N3, fun k hk => ?_⟩
      refine ⟨_, _, Dart.sync_exec h.client ns scope' hf hr ha hl hsw (hw k (by omega)) (hlp k) (rv := some d) ?_⟩
      simp only [hft]
      refine ⟨d, rfl, ?_⟩
      have hc : ((w.mem f.position).set .server (lib (w.mem f.position).server (s ++ b))).client = s ++ (rb ++ rest) := by
        rw [hpi]
        simpa [Bufs.set, hans] using hcl
      simp only [setMem, if_true, hc]
      rw [Dart.runReader_data (hsr _)]
      simp only [Dart.runReader, hrd k (by omega), bind, Except.bind]

/-! ## Examples -/

/-- `C96_inserted`: `erase` is inserted before `keep`. -/
example : ∃ (i : Nat) (f f' : FnNode), (methodsOf oneArg)[i]? = some f ∧ (methodsOf eraseKeep)[i]? = some f' ∧ f.id = "keep" ∧
    f'.id = "erase" ∧ f.position = i ∧ f'.position = i :=
  C96_inserted oneArg eraseKeep oneArg_ok.accepted eraseKeep_ok.accepted [] ["keep"] "erase" rfl rfl 0 "keep" "erase" rfl rfl

/-- `C96_sync_call`: an old client calls `keep(5)`, and the server runs `erase(5)`. -/
example : ∃ P R Q C, Rust.Emits eraseKeep P ∧ Rust.EmitsRpc eraseKeep R ∧ Dart.Emits testExt oneArg Q ∧ Dart.EmitsRpc testExt oneArg C ∧
    ∃ vs, ∃ N, ∀ k, N ≤ k → ∃ mem sent,
      Dart.callMethod LE.dart Q k (-1) (· + 1) C overwrite
        (loopSync (codecAt LE.rust (P.withArgs R) k) overwrite (fun _ _ u => (.unit, u)) R.handlers [0, 1]) (testExt.camel "keep") [.int 5]
        ⟨.fresh, fun _ => ⟨[0], [0]⟩, [], (), []⟩
      = .ok (.ofResult none, ⟨.fresh, mem, sent, (), [("erase", vs)]⟩) := by
  obtain ⟨outD, hD⟩ := oneArg_out.2
  obtain ⟨outR, hR⟩ : ∃ out, RustGen.rpc eraseKeep = .ok out := ⟨_, Rust.rpc_render _ (by simp [eraseKeep, findFnNodes]) _ rfl⟩
  obtain ⟨P, R, Q, C, h1, h2, h3, h4, h5⟩ := C96_sync_call testExt LE.rust LE.dart (-1) (fun _ _ => False) oneArg eraseKeep
    oneArg_system eraseKeep_ok ⟨fun _ _ _ h => h.elim, fun _ _ _ h => h.elim⟩ (by simp [oneArg, methodsOf])
    (by simp [eraseKeep, methodsOf]) outR outD hR hD
  refine ⟨P, R, Q, C, h1, h2, h3, h4, ?_⟩
  obtain ⟨vs, vs', -, -, h6⟩ := h5 0 oneArgFn ⟨"erase", 0, [⟨"n", .integer "i64" 8 true⟩], none, false, false⟩ rfl rfl
    ⟨rfl, rfl, sameTys_mk (.builtin _ rfl) ⟨rfl, by simp⟩, .inl ⟨rfl, rfl⟩⟩ rfl
    ⟨by simp [oneArgFn]; exact ⟨.int _ _ _ (by simp [builtinTypes]), trivial⟩, by simp [oneArgFn]⟩
    Unit overwrite overwrite_lawful (fun _ _ u => (.unit, u)) (· + 1) ⟨.fresh, fun _ => ⟨[0], [0]⟩, [], (), []⟩ [.int 5] [0, 1]
    ⟨[.int 5], .leaf (.integer "Int64" 8 true) _ _ _ (by simp [LeafVal]) .nil, .leaf _ _ _ _ _ rfl .nil⟩ (by simp) (by
      intro a ha
      simp only [List.mem_cons, List.not_mem_nil, or_false] at ha
      rcases ha with rfl | rfl
      · exact ⟨_, List.mem_cons_self .., rfl, rfl, fun h => absurd rfl h⟩
      · exact ⟨⟨"keep", 1, [⟨"n", .integer "i64" 8 true⟩], none, false, false⟩, by simp [eraseKeep, methodsOf], rfl, rfl,
          fun _ => ⟨0, [], rfl, by decide⟩⟩)
  obtain ⟨dv, h7, N, h8⟩ := h6 none none (by simp [RetIs]) ⟨rfl, rfl⟩ ⟨[], rfl, rfl⟩
  cases dv with
  | some d => simp [ExchangedResult] at h7
  | none => exact ⟨vs', N, h8⟩

/-- Asynchronous methods as `C96_async_call` asks for, with a request. -/
example : ∃ f f' : FnNode, f.isAsync = true ∧ f.id = "keep" ∧ f'.id = "erase" ∧
    SameMethod (fun _ _ => False) [.fn f] [.fn f'] f f' ∧ ∃ req, Request LE.wire [.fn f] f (some 3) [.int 5] req := by
  have e1 : LE.wire.prim "u8" (.int 255) = some [255] := by decide +kernel
  have e2 : LE.wire.prim "i64" (.int 3) = some [3, 0, 0, 0, 0, 0, 0, 0] := by decide +kernel
  have e3 : LE.wire.prim "i64" (.int 5) = some [5, 0, 0, 0, 0, 0, 0, 0] := by decide +kernel
  exact ⟨⟨"keep", 0, [⟨"n", .integer "i64" 8 true⟩], none, false, true⟩, ⟨"erase", 0, [⟨"n", .integer "i64" 8 true⟩], none, false, true⟩,
    rfl, rfl, rfl, ⟨rfl, rfl, sameTys_mk (.builtin _ rfl) ⟨rfl, by simp⟩, .inl ⟨rfl, rfl⟩⟩, _,
    rfl, [255], [3, 0, 0, 0, 0, 0, 0, 0], [5, 0, 0, 0, 0, 0, 0, 0] ++ [], e1, e2, .leaf _ _ _ _ _ _ _ rfl e3 .nil, rfl⟩

/-- `C96_removed` and `C96_removed_call`: `erase` has been removed; a call of it runs nothing. -/
example : ∃ R, Rust.EmitsRpc oneArg R ∧ R.handlers.lookup 1 = none := by
  obtain ⟨out, h⟩ := oneArg_out.1
  obtain ⟨R, h1, h2⟩ := C96_removed keepErase oneArg keepErase_ok.accepted oneArg_ok.accepted (by decide) (by simp [oneArg, methodsOf]) out h
  exact ⟨R, h1, (h2 1 _ rfl).2 (Nat.le_refl 1)⟩

example : ∃ P R Q C, Rust.Emits oneArg P ∧ Rust.EmitsRpc oneArg R ∧ Dart.Emits testExt keepErase Q ∧ Dart.EmitsRpc testExt keepErase C ∧
    ∃ N, ∀ k, N ≤ k → ∃ mem sent,
      Dart.callMethod LE.dart Q k (-1) (· + 1) C overwrite
        (loopSync (codecAt LE.rust (P.withArgs R) k) overwrite (fun _ _ u => (.unit, u)) R.handlers [0]) (testExt.camel "erase") [.int 5]
        ⟨.fresh, fun _ => ⟨[0], [0]⟩, [], (), []⟩
      = .ok (.ofResult none, ⟨.fresh, mem, sent, (), []⟩) := by
  obtain ⟨outR, hR⟩ := oneArg_out.1
  obtain ⟨outD, hD⟩ : ∃ out, DartGen.rpcMethods testExt keepErase = .ok out :=
    ⟨_, Dart.rpc_render keepErase (fun f hf => Dart.sizedFn_of_wf keepErase_wf (by rwa [findFnNodes_eq] at hf))
      (by simp [keepErase, findFnNodes]) (by decide) "demo" "8b61" rfl rfl⟩
  obtain ⟨P, R, Q, C, h1, h2, h3, h4, h5⟩ := C96_removed_call testExt LE.rust LE.dart (-1) keepErase oneArg
    keepErase_system oneArg_ok (by simp [keepErase, methodsOf]) (by simp [oneArg, methodsOf]) outR outD hR hD
  refine ⟨P, R, Q, C, h1, h2, h3, h4, ?_⟩
  exact (h5 1 ⟨"erase", 1, [⟨"n", .integer "i64" 8 true⟩], none, false, false⟩ rfl (Nat.le_refl 1) rfl
    ⟨by simp; exact ⟨.int _ _ _ (by simp [builtinTypes]), trivial⟩, by simp⟩
    Unit overwrite (fun _ _ u => (.unit, u)) (· + 1) ⟨.fresh, fun _ => ⟨[0], [0]⟩, [], (), []⟩ [.int 5] [0]
    ⟨[.int 5], .leaf (.integer "Int64" 8 true) _ _ _ (by simp [LeafVal]) .nil, .leaf _ _ _ _ _ rfl .nil⟩ (by
      intro a ha
      simp only [List.mem_cons, List.not_mem_nil, or_false] at ha
      subst ha
      exact ⟨oneArgFn, List.mem_cons_self .., rfl, rfl, 0, [], rfl, by decide⟩)).1 rfl

/-- An answer to an earlier call, as `C96_removed_call` asks for. -/
example : ∃ (f : FnNode) (ans : Bytes), f.returnTypeId = some (.integer "i64" 8 true) ∧ Spec.Answer LE.wire [.fn f] f none (some (.int 5)) ans := by
  have e1 : LE.wire.prim "u8" (.int 255) = some [255] := by decide +kernel
  have e3 : LE.wire.prim "i64" (.int 5) = some [5, 0, 0, 0, 0, 0, 0, 0] := by decide +kernel
  exact ⟨⟨"next", 0, [], some (.integer "i64" 8 true), false, false⟩, _, rfl, [255], [], [5, 0, 0, 0, 0, 0, 0, 0] ++ [], e1, rfl,
    ⟨_, rfl, .leaf _ _ _ _ _ _ _ rfl e3 .nil⟩, rfl⟩

end TPB.Props
