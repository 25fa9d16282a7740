/-
Property theorems about a client of an older version of a schema and a server of a newer one: C56.
-/
import Verif.Props.Evolution
import Verif.Props.RpcClient
namespace TPB.Props
open Spec
open Rust (RetIs Buf Bufs BufLib User setMem codecAt)
open Rpc

theorem findDirectiveValue_eq (name : String) : ∀ S, findDirectiveValue S name =
    (directivesOf S).findSome? (fun | .value n v => if name = n then some v else none | _ => none)
  | [] => rfl
  | .directive (.value n v) :: S => by
    simp only [findDirectiveValue, directivesOf, List.filterMap_cons, List.findSome?_cons]
    split
    · rfl
    · exact findDirectiveValue_eq name S
  | .directive (.group n ps) :: S => by
    simp only [findDirectiveValue, directivesOf, List.filterMap_cons, List.findSome?_cons]
    exact findDirectiveValue_eq name S
  | .struct n :: S => by simpa only [findDirectiveValue, directivesOf, List.filterMap_cons] using findDirectiveValue_eq name S
  | .enum n :: S => by simpa only [findDirectiveValue, directivesOf, List.filterMap_cons] using findDirectiveValue_eq name S
  | .const n :: S => by simpa only [findDirectiveValue, directivesOf, List.filterMap_cons] using findDirectiveValue_eq name S
  | .fn n :: S => by simpa only [findDirectiveValue, directivesOf, List.filterMap_cons] using findDirectiveValue_eq name S

section
variable {S S' : List ASTNode} (hE : AddsMethods S S') {W : Wire} {f : FnNode} (hf : f ∈ methodsOf S)
include hE hf

theorem adds_mem : f ∈ methodsOf S' := hE.methods.subset hf

theorem request_extends {mid : Option Int} {vs : List Val} {bs : Bytes} (h : Request W S f mid vs bs) : Request W S' f mid vs bs := by
  obtain ⟨h1, s, m, b, h2, h3, h4, h5⟩ := h
  refine ⟨h1, s, m, b, h2, h3, enc_extends hE.types h4 ?_, h5⟩
  intro t ht
  simp only [argsOf, List.map_map, List.mem_map, Function.comp] at ht
  obtain ⟨a, ha, rfl⟩ := ht
  exact hE.args f hf a ha

theorem answer_extends {mid : Option Int} {v : Option Val} {bs : Bytes} (h : Spec.Answer W S f mid v bs) :
    Spec.Answer W S' f mid v bs := by
  obtain ⟨s, m, b, h2, h3, h4, h5⟩ := h
  refine ⟨s, m, b, h2, h3, ?_, h5⟩
  cases v with
  | none => exact h4
  | some v =>
    obtain ⟨t, ht, h6⟩ := h4
    exact ⟨t, ht, enc_extends hE.types h6 (by simpa using hE.results f hf t ht)⟩

end

/-- **C56, addresses.** The client of the old version and the server of the new version use the same scope, and
the server registers every old method at the address where the client of the old version looks for it, in the
same group and with the handler of that method. -/
theorem C56_addresses (x : Ext) (S S' : List ASTNode) (hA : Accepted S) (hA' : Accepted S') (hE : AddsMethods S S')
    (hn : ((methodsOf S').map (·.id)).Nodup) (hM : methodsOf S ≠ [])
    (outD : String) (hoD : DartGen.rpcMethods x S = .ok outD) :
    ∃ C R', Dart.EmitsRpc x S C ∧ Rust.EmitsRpc S' R' ∧ R'.scope = C.scope ∧
      C.methods.map (fun m => (m.name, m.body.filterMap access?))
        = (methodsOf S).zipIdx.flatMap (fun p => clientAccesses x p.2 p.1) ∧
      ∀ i f, (methodsOf S)[i]? = some f →
        (∃ r, R'.regs[i]? = some r ∧ r.addr = i ∧ r.group = groupOf f ∧ r.fn = f.id) ∧
        ∃ h, R'.handlers.lookup i = some h ∧ h.fn = f.id := by
  have hn1 : ((methodsOf S).map (·.id)).Nodup := (hE.methods.map _).sublist.nodup hn
  have hM' : methodsOf S' ≠ [] := fun e => hM (List.prefix_nil.1 (e ▸ hE.methods))
  obtain ⟨ns, scope, hC, hs⟩ := Dart.emitsRpc_of hA.wf hM hoD
  have hsc : Rust.scopeOf S' = some scope := by
    rw [← scopeOf_eq hs]
    unfold Rust.scopeOf
    rw [findDirectiveValue_eq, findDirectiveValue_eq, hE.directives]
  have hR : Rust.EmitsRpc S' (Rust.genRpc scope S') := Rust.emits_genRpc hA'.wf hM' hsc
  refine ⟨_, _, hC, hR, rfl, ?_, fun i f hf => ?_⟩
  · exact gen_accesses hA ns scope
  · obtain ⟨tl, he⟩ := hE.methods
    have hf' : (methodsOf S')[i]? = some f := by
      rw [← he, List.getElem?_append_left (List.getElem?_eq_some_iff.1 hf).1, hf]
    have hp := position_eq hA' hf'
    constructor
    · refine ⟨_, by simp only [Rust.genRpc, findFnNodes_eq, List.getElem?_map, hf']; rfl, ?_⟩
      unfold Rust.genReg groupOf
      cases f.isRead <;> cases f.isAsync <;> simp [hp]
    · rw [← hp]
      exact ⟨_, Rust.handlers_lookup scope hA'.wf hn (List.mem_of_getElem? hf'), Rust.genHandler_fn f⟩

/-- A synchronous call between a client of `S` and a server of `S'`, where the method `f` of `S` and the method `f'` of
`S'` have the same place: if what is in the buffer after the client has written its request `b` begins with a request
of `f'`, the server takes that one. -/
theorem sync_core {x : Ext} {rr : Rust.Runtime} {rt : Dart.Runtime} {hd : Int} {S S' : List ASTNode}
    (h : SystemOk x rr rt hd S) (h' : RpcOk rr.wire S') (ns : String) (scope scope' : String) {f f' : FnNode} (hf : f ∈ methodsOf S)
    (hf' : f' ∈ methodsOf S') (hg : groupOf f = .sync) (hg' : groupOf f' = .sync) (hpf : f'.position = f.position)
    (hp : PortableMethod S f) {Y : Option Val → Option Val → Prop}
    (hY : ∀ v v' b, Y v v' → Spec.Answer rr.wire S f none v b → Spec.Answer rr.wire S' f' none v' b)
    {σ : Type} {lib : BufLib} (hlib : lib.Lawful) (U : User σ) (rotate : Int → Int)
    (w : Dart.World (σ × List (String × List Val))) (ds : List Val) (as : List Nat) (hds : DartArgs x rt.wire S f ds)
    (hpos : f'.position ∈ as)
    (has : ∀ a ∈ as, ∃ g ∈ methodsOf S', groupOf g = .sync ∧ g.position = a ∧
      (g ≠ f' → NoMessage (rr.readP "u8") (w.mem a).server)) :
    ∃ vs req, Exchanged x rr.wire S (f.args.map (·.typeId)) vs ds ∧ Request rr.wire S f none vs req ∧
      ∀ vs' req' rest, Request rr.wire S' f' none vs' req' → lib (w.mem f.position).server req = req' ++ rest →
      ∀ v v', RetIs (U f'.id vs' w.rest.1).1 v' → Y v v' → (∃ b, ResultIs rr.wire S f v b) →
      ∃ dv, ExchangedResult x rr.wire S f v dv ∧ ∃ N, ∀ k, N ≤ k → ∃ mem sent,
        Dart.callMethod rt (Dart.genProg x S) k hd rotate (Dart.genClient x ns scope' S) lib
          (loopSync (codecAt rr ((Rust.genProg S').withArgs (Rust.genRpc scope S')) k) lib U (Rust.genRpc scope S').handlers as) (x.camel f.id) ds w
          = .ok (.ofResult dv, ⟨w.client, mem, sent, (U f'.id vs' w.rest.1).2, w.rest.2 ++ [(f'.id, vs')]⟩) := by
  have hsync : ∀ g, groupOf g = .sync → g.isRead = false ∧ g.isAsync = false := by
    intro g
    unfold groupOf
    cases g.isRead <;> cases g.isAsync <;> simp
  obtain ⟨hr, ha⟩ := hsync f hg
  obtain ⟨hr', ha'⟩ := hsync f' hg'
  obtain ⟨vs, b, hex, he, hl, N1, hw⟩ := args_exchange h hf hp hds
  obtain ⟨s, hs⟩ := status_total h.rust.wire
  refine ⟨vs, s ++ b, hex, ⟨by simp [ha], s, [], b, hs, rfl, he, by simp⟩, fun vs' req' rest hreq' hrest v v' hret hyv hres => ?_⟩
  obtain ⟨rb, hrb⟩ := hres
  obtain ⟨hsw, hsr⟩ := Dart.status_bytes h.dart h.status hs
  have hans : Spec.Answer rr.wire S f none v (s ++ rb) := ⟨s, [], rb, hs, rfl, hrb, by simp⟩
  obtain ⟨N2, hrun⟩ := sync_call h.rust h' hf' hr' ha' hlib U
    ((w.mem f.position).set .server (lib (w.mem f.position).server (s ++ b))) w.rest.1 hreq' hrest hret
    (hY v v' _ hyv hans)
  have hhand : ∀ a ∈ as, ∃ g ∈ methodsOf S', g.isRead = false ∧ g.position = a ∧ (a ≠ f'.position → NoMessage (rr.readP "u8")
      (setMem w.mem f.position ((w.mem f.position).set .server (lib (w.mem f.position).server (s ++ b))) a).server) := by
    intro a haas
    obtain ⟨g, h1, h2, h3, h4⟩ := has a haas
    refine ⟨g, h1, (hsync g h2).1, h3, fun hne => ?_⟩
    simp only [setMem, if_neg (hpf ▸ hne)]
    exact h4 (fun e => hne (by rw [← h3, e]))
  have hloop : ∀ k, N2 ≤ k → ∃ server rest', NoMessage (rr.readP "u8") server ∧
      loopSync (codecAt rr (Rust.genProg (Rust.argsSchema S')) k) lib U (Rust.genRpc scope S').handlers as
        (setMem w.mem f.position ((w.mem f.position).set .server (lib (w.mem f.position).server (s ++ b)))) w.rest
      = .ok (setMem w.mem f.position ⟨server, s ++ rb ++ rest'⟩, ((U f'.id vs' w.rest.1).2, w.rest.2 ++ [(f'.id, vs')])) := by
    intro k hk
    obtain ⟨server, rest', h1, h2⟩ := hrun k hk
    refine ⟨server, rest', h2, ?_⟩
    have := loopSync_call (lib := lib) (U := U) h'.accepted.wf h'.rpcNamed.methods scope k hf' as
      (setMem w.mem f.position ((w.mem f.position).set .server (lib (w.mem f.position).server (s ++ b)))) w.rest
      (by simpa [setMem, hpf] using h1) h2 hr' hhand hpos
    rw [this, hpf]
    congr 2
    funext a
    simp only [setMem]
    split <;> simp
  rw [Rust.withArgs_genProg]
  cases hft : f.returnTypeId with
  | none =>
    have hv : v = none ∧ rb = [] := by
      cases v with
      | none => exact ⟨rfl, hrb.2⟩
      | some v => obtain ⟨t, h1, -⟩ := hrb; simp [hft] at h1
    obtain ⟨rfl, rfl⟩ := hv
    refine ⟨none, hft, max N1 N2, fun k hk => ?_⟩
    obtain ⟨server, rest', hno, hlp⟩ := hloop k (by omega)
    exact ⟨_, _, Dart.sync_exec h.client ns scope' hf hr ha hl hsw (hw k (by omega)) hlp (rv := none) (by simp [hft])⟩
  | some t =>
    cases v with
    | none => simp [ResultIs, hft] at hrb
    | some v =>
      obtain ⟨t', h1, hrb⟩ := hrb
      rw [hft] at h1
      obtain rfl := Option.some.inj h1
      obtain ⟨d, hxd, N3, hrd⟩ := result_exchange h hp hft hrb
      refine ⟨some d, ⟨t, hft, hxd⟩, max N1 (max N2 N3), fun k hk => ?_⟩
      obtain ⟨server, rest', hno, hlp⟩ := hloop k (by omega)
      refine ⟨_, _, Dart.sync_exec h.client ns scope' hf hr ha hl hsw (hw k (by omega)) hlp (rv := some d) ?_⟩
      simp only [hft]
      refine ⟨d, rfl, ?_⟩
      simp only [setMem, if_true, List.append_assoc]
      rw [Dart.runReader_data (hsr _)]
      simp only [Dart.runReader, hrd k (by omega), bind, Except.bind]

/-- A synchronous call between a client of `S` and a server of `S'`: the method `f` of `S` and the method `f'` of `S'`
have the same place, the requests of `f` are requests of `f'` for other values, and so are the answers. -/
theorem sync_between {x : Ext} {rr : Rust.Runtime} {rt : Dart.Runtime} {hd : Int} {S S' : List ASTNode}
    (h : SystemOk x rr rt hd S) (h' : RpcOk rr.wire S') (ns : String) (scope scope' : String) {f f' : FnNode} (hf : f ∈ methodsOf S)
    (hf' : f' ∈ methodsOf S') (hg : groupOf f = .sync) (hg' : groupOf f' = .sync) (hpf : f'.position = f.position)
    (hp : PortableMethod S f) {X : List Val → List Val → Prop} {Y : Option Val → Option Val → Prop}
    (hX : ∀ vs b, HasTys rr.wire S (f.args.map (·.typeId)) vs → Request rr.wire S f none vs b →
      ∃ vs', X vs vs' ∧ Request rr.wire S' f' none vs' b)
    (hY : ∀ v v' b, Y v v' → Spec.Answer rr.wire S f none v b → Spec.Answer rr.wire S' f' none v' b)
    {σ : Type} {lib : BufLib} (hlib : lib.Lawful) (U : User σ) (rotate : Int → Int)
    (w : Dart.World (σ × List (String × List Val))) (ds : List Val) (as : List Nat) (hds : DartArgs x rt.wire S f ds)
    (hpos : f'.position ∈ as)
    (has : ∀ a ∈ as, ∃ g ∈ methodsOf S', groupOf g = .sync ∧ g.position = a ∧
      (g ≠ f' → NoMessage (rr.readP "u8") (w.mem a).server)) :
    ∃ vs vs', Exchanged x rr.wire S (f.args.map (·.typeId)) vs ds ∧ X vs vs' ∧
      ∀ v v', RetIs (U f'.id vs' w.rest.1).1 v' → Y v v' → (∃ b, ResultIs rr.wire S f v b) →
      ∃ dv, ExchangedResult x rr.wire S f v dv ∧ ∃ N, ∀ k, N ≤ k → ∃ mem sent,
        Dart.callMethod rt (Dart.genProg x S) k hd rotate (Dart.genClient x ns scope' S) lib
          (loopSync (codecAt rr ((Rust.genProg S').withArgs (Rust.genRpc scope S')) k) lib U (Rust.genRpc scope S').handlers as) (x.camel f.id) ds w
          = .ok (.ofResult dv, ⟨w.client, mem, sent, (U f'.id vs' w.rest.1).2, w.rest.2 ++ [(f'.id, vs')]⟩) := by
  obtain ⟨vs, req, hex, hreq, hcall⟩ := sync_core h h' ns scope scope' hf hf' hg hg' hpf hp hY hlib U rotate w ds as hds hpos has
  obtain ⟨vs', hxv, hreq'⟩ := hX vs req hex.1 hreq
  obtain ⟨rest, hrest⟩ := hlib (w.mem f.position).server req
  exact ⟨vs, vs', hex, hxv, hcall vs' req rest hreq' hrest⟩

/-- **C56, synchronous calls.** A call of a synchronous method by a client of the old version makes the server of
the new version call the user's function of that method exactly once, with the values that the objects of the
client stand for, and no other function; if the result is a value of the old version, the call returns an object
that stands for it.  As for C32, this holds whatever handlers of synchronous methods of the new version run before
and after. -/
theorem C56_sync_call (x : Ext) (rr : Rust.Runtime) (rt : Dart.Runtime) (hd : Int) (S S' : List ASTNode)
    (h : SystemOk x rr rt hd S) (h' : RpcOk rr.wire S') (hE : AddsMethods S S') (hM : methodsOf S ≠ [])
    (outR outD : String) (hoR : RustGen.rpc S' = .ok outR) (hoD : DartGen.rpcMethods x S = .ok outD) :
    ∃ P R Q C, Rust.Emits S' P ∧ Rust.EmitsRpc S' R ∧ Dart.Emits x S Q ∧ Dart.EmitsRpc x S C ∧
      ∀ f ∈ methodsOf S, groupOf f = .sync → PortableMethod S f →
      ∀ (σ : Type) (lib : BufLib) (_ : lib.Lawful) (U : User σ) (rotate : Int → Int)
        (w : Dart.World (σ × List (String × List Val))) (ds : List Val) (as : List Nat),
        DartArgs x rt.wire S f ds → f.position ∈ as →
        (∀ a ∈ as, ∃ g ∈ methodsOf S', groupOf g = .sync ∧ g.position = a ∧
          (g ≠ f → NoMessage (rr.readP "u8") (w.mem a).server)) →
        ∃ vs, Exchanged x rr.wire S (f.args.map (·.typeId)) vs ds ∧
          ∀ v, RetIs (U f.id vs w.rest.1).1 v → (∃ b, ResultIs rr.wire S f v b) →
          ∃ dv, ExchangedResult x rr.wire S f v dv ∧ ∃ N, ∀ k, N ≤ k → ∃ mem sent,
            Dart.callMethod rt Q k hd rotate C lib (loopSync (codecAt rr (P.withArgs R) k) lib U R.handlers as) (x.camel f.id) ds w
              = .ok (.ofResult dv, ⟨w.client, mem, sent, (U f.id vs w.rest.1).2, w.rest.2 ++ [(f.id, vs)]⟩) := by
  have hA := h.server.accepted
  have hM' : methodsOf S' ≠ [] := fun e => hM (List.prefix_nil.1 (e ▸ hE.methods))
  obtain ⟨scope, hR⟩ := Rust.emitsRpc_of h'.accepted.wf hoR hM'
  obtain ⟨ns, scope', hC, -⟩ := Dart.emitsRpc_of hA.wf hM hoD
  refine ⟨_, _, _, _, emits_genProg S' h'.accepted, hR, Dart.emits_genProg hA, hC, ?_⟩
  intro f hf hg hp σ lib hlib U rotate w ds as hds hpos has
  obtain ⟨vs, vs', hex, rfl, hcall⟩ := sync_between h h' ns scope scope' hf (adds_mem hE hf) hg hg rfl hp
    (X := fun a b => a = b) (Y := fun a b => a = b) (fun vs b _ hr => ⟨vs, rfl, request_extends hE hf hr⟩)
    (fun v v' b e ha => e ▸ answer_extends hE hf ha) hlib U rotate w ds as hds hpos has
  exact ⟨vs, hex, fun v hret hres => hcall v v hret rfl hres⟩

/-- **C56, asynchronous calls.** The server of the new version handles a request of the old version for an
asynchronous method: its handler starts one future, which calls the user's function once, with the values of the
request; if the result is a value of the old version, the future leaves the answer of the old version to that
request in the client's buffer (which is what `C34_client_answer` says the client of the old version reads). -/
theorem C56_async_call (rt : Rust.Runtime) (hrt : rt.Lawful) (S S' : List ASTNode) (h' : RpcOk rt.wire S')
    (hE : AddsMethods S S') (hM : methodsOf S ≠ []) (out : String) (hout : RustGen.rpc S' = .ok out) :
    ∃ P R, Rust.Emits S' P ∧ Rust.EmitsRpc S' R ∧ ∀ f ∈ methodsOf S, f.isRead = false → f.isAsync = true →
      ∃ hd, R.handlers.lookup f.position = some hd ∧
      ∀ (σ : Type) (lib : BufLib) (_ : lib.Lawful) (U : User σ) (m : Bufs) (u : σ) (i : Int) (vs : List Val) (req rest : Bytes),
        Request rt.wire S f (some i) vs req → m.server = req ++ rest →
        ∃ N, ∀ k, N ≤ k → ∃ m' t,
          Rust.runHandler (codecAt rt (P.withArgs R) k) lib U hd m u = .ok ⟨m', u, [], [t], true⟩ ∧
          ∀ (r : Rust.Ret) (v : Option Val) (ans : Bytes), RetIs r v → Spec.Answer rt.wire S f (some i) v ans →
            ∃ N', ∀ k', N' ≤ k' → ∀ (m1 : Bufs) (u1 : σ), ∃ n rest',
              Rust.runFuture (codecAt rt (P.withArgs R) k') lib U r n m1 u1 t = .ok (⟨m1.server, ans ++ rest'⟩, [(f.id, vs)]) := by
  have hM' : methodsOf S' ≠ [] := fun e => hM (List.prefix_nil.1 (e ▸ hE.methods))
  obtain ⟨P, R, h1, h2, h3⟩ := C33_async_exactly_once rt hrt S' h' hM' out hout
  refine ⟨P, R, h1, h2, fun f hf hr ha => ?_⟩
  obtain ⟨hd, h4, h5⟩ := h3 f (adds_mem hE hf) hr ha
  refine ⟨hd, h4, fun σ lib hlib U m u i vs req rest hreq hm => ?_⟩
  obtain ⟨N, h6⟩ := h5 σ lib hlib U m u i vs req rest (request_extends hE hf hreq) hm
  refine ⟨N, fun k hk => ?_⟩
  obtain ⟨m', t, h7, -, h8⟩ := h6 k hk
  exact ⟨m', t, h7, fun r v ans hret hans => h8 r v ans hret (answer_extends hE hf hans)⟩

/-- **C56, synchronous reads.** When the runtime runs the handler of a read method of the old version on the server of
the new version, the user's function of that method is called once; if it returns a value of the old version, the
handler leaves the answer of the old version in the client's buffer (which is what `C58_client_stream` says the
client of the old version reads), and otherwise it changes nothing. -/
theorem C56_sync_read (rt : Rust.Runtime) (hrt : rt.Lawful) (S S' : List ASTNode) (h' : RpcOk rt.wire S')
    (hE : AddsMethods S S') (hM : methodsOf S ≠ []) (out : String) (hout : RustGen.rpc S' = .ok out) :
    ∃ P R, Rust.Emits S' P ∧ Rust.EmitsRpc S' R ∧ ∀ f ∈ methodsOf S, f.isRead = true → f.isAsync = false →
      ∀ t, f.returnTypeId = some t → builtin? t = none →
      ∃ hd, R.handlers.lookup f.position = some hd ∧
      ∀ (σ : Type) (lib : BufLib) (_ : lib.Lawful) (U : User σ) (m : Bufs) (u : σ),
        ((U f.id [] u).1 = .opt none → ∀ k,
          Rust.runHandler (codecAt rt (P.withArgs R) k) lib U hd m u = .ok ⟨m, (U f.id [] u).2, [(f.id, [])], [], false⟩) ∧
        ∀ v ans, (U f.id [] u).1 = .opt (some v) → Spec.Answer rt.wire S f none (some v) ans →
          ∃ N, ∀ k, N ≤ k → ∃ rest,
            Rust.runHandler (codecAt rt (P.withArgs R) k) lib U hd m u
              = .ok ⟨⟨m.server, ans ++ rest⟩, (U f.id [] u).2, [(f.id, [])], [], true⟩ := by
  have hM' : methodsOf S' ≠ [] := fun e => hM (List.prefix_nil.1 (e ▸ hE.methods))
  obtain ⟨P, R, h1, h2, h3⟩ := C51_sync_read_partial rt hrt S' h' hM' out hout
  refine ⟨P, R, h1, h2, fun f hf hr ha t ht hb => ?_⟩
  obtain ⟨hd, h4, h5⟩ := h3 f (adds_mem hE hf) hr ha t ht hb
  refine ⟨hd, h4, fun σ lib hlib U m u => ?_⟩
  obtain ⟨h6, h7⟩ := h5 σ lib hlib U m u
  exact ⟨h6, fun v ans hv hans => h7 v ans hv (answer_extends hE hf hans)⟩

/-- **C56, asynchronous reads.** Likewise for asynchronous reads: a run of the handler while no read is in flight
starts one future, which calls the user's function of that method once and leaves the answer of the old version in
the client's buffer. -/
theorem C56_async_read (rt : Rust.Runtime) (hrt : rt.Lawful) (S S' : List ASTNode) (h' : RpcOk rt.wire S')
    (hE : AddsMethods S S') (hM : methodsOf S ≠ []) (out : String) (hout : RustGen.rpc S' = .ok out) :
    ∃ P R, Rust.Emits S' P ∧ Rust.EmitsRpc S' R ∧ ∀ f ∈ methodsOf S, f.isRead = true → f.isAsync = true →
      ∀ ty, f.returnTypeId = some ty → builtin? ty = none →
      ∃ hd, R.handlers.lookup f.position = some hd ∧
      ∀ (σ : Type) (lib : BufLib) (_ : lib.Lawful) (U : User σ) (m : Bufs) (u : σ) (k : Nat),
        NoMessage (rt.readP "u8") m.server →
        ∃ m' t, Rust.runHandler (codecAt rt (P.withArgs R) k) lib U hd m u = .ok ⟨m', u, [], [t], true⟩ ∧ m'.client = m.client ∧
          ∀ v ans, Spec.Answer rt.wire S f none (some v) ans →
            ∃ N, ∀ k', N ≤ k' → ∀ (m1 : Bufs) (u1 : σ), ∃ n server rest,
              Rust.runFuture (codecAt rt (P.withArgs R) k') lib U (.opt (some v)) n m1 u1 t
                = .ok (⟨server, ans ++ rest⟩, [(f.id, [])]) ∧ NoMessage (rt.readP "u8") server := by
  have hM' : methodsOf S' ≠ [] := fun e => hM (List.prefix_nil.1 (e ▸ hE.methods))
  obtain ⟨P, R, h1, h2, h3⟩ := C51_async_read_partial rt hrt S' h' hM' out hout
  refine ⟨P, R, h1, h2, fun f hf hr ha t ht hb => ?_⟩
  obtain ⟨hd, h4, h5⟩ := h3 f (adds_mem hE hf) hr ha t ht hb
  refine ⟨hd, h4, fun σ lib hlib U m u k hno => ?_⟩
  obtain ⟨m', t', h6, h7, h8⟩ := h5 σ lib hlib U m u k hno
  exact ⟨m', t', h6, h7, fun v ans hans => h8 v ans (answer_extends hE hf hans)⟩

/-! ## The example -/

/-- A later version of `rpcSchema`: a new enum, declared first, and two new methods. -/
def nextRpc : List ASTNode :=
  [.enum ⟨"Mode", [.empty 1 "Fast", .empty 2 "Slow"]⟩] ++ rpcSchema ++
   [.fn ⟨"mode", 5, [⟨"m", .other "Mode"⟩], some (.other "Point"), false, false⟩,
    .fn ⟨"later", 6, [⟨"m", .other "Mode"⟩], none, false, true⟩]

theorem nextRpc_adds : AddsMethods rpcSchema nextRpc where
  types :=
    { struct := fun n hn => ⟨n, by simp [nextRpc, hn], rfl, rfl⟩
      enum := fun n hn => by simp [rpcSchema] at hn
      fresh := by
        intro d hd t ht id hi hm
        simp only [rpcSchema, List.mem_cons, List.not_mem_nil, or_false] at hd
        rcases hd with rfl | rfl | rfl | rfl | rfl | rfl | rfl | rfl <;> simp [typesOf, fieldsOf] at ht
        simp [IsNew, nextRpc, rpcSchema, typeNames] at hi
        rcases ht with rfl | rfl
        · cases hm
        · rw [mentions_generic] at hm
          rcases hm with h | ⟨g, hg, h⟩
          · simp [h] at hi
          · simp only [List.mem_singleton] at hg
            subst hg
            rw [mentions_other] at h
            simp [h] at hi }
  directives := rfl
  methods := ⟨[⟨"mode", 5, [⟨"m", .other "Mode"⟩], some (.other "Point"), false, false⟩,
    ⟨"later", 6, [⟨"m", .other "Mode"⟩], none, false, true⟩], by simp [nextRpc, rpcSchema, methodsOf]⟩
  args := by
    intro f hf a ha id hi hm
    simp [IsNew, nextRpc, rpcSchema, typeNames] at hi
    simp only [rpcSchema, methodsOf, List.filterMap_cons, List.filterMap_nil, List.mem_cons, List.not_mem_nil, or_false] at hf
    rcases hf with rfl | rfl | rfl | rfl | rfl <;> simp at ha
    · rcases ha with rfl | rfl
      · simp only [mentions_other] at hm
        simp [hm] at hi
      · cases hm
    · subst ha
      simp only [mentions_other] at hm
      simp [hm] at hi
  results := by
    intro f hf t ht id hi hm
    simp [IsNew, nextRpc, rpcSchema, typeNames] at hi
    simp only [rpcSchema, methodsOf, List.filterMap_cons, List.filterMap_nil, List.mem_cons, List.not_mem_nil, or_false] at hf
    rcases hf with rfl | rfl | rfl | rfl | rfl <;> simp at ht <;> subst ht
    · simp only [mentions_other] at hm
      simp [hm] at hi
    · cases hm
    · simp only [mentions_other] at hm
      simp [hm] at hi
    · simp only [mentions_other] at hm
      simp [hm] at hi

theorem nextRpc_wf : WFSchema 0 nextRpc := by
  have b : ∀ n, WFType (typeOfName n) := .name
  have h1 : WFType (.integer "i32" 4 true) := b "i32"
  have h2 : WFType (.integer "i64" 8 true) := b "i64"
  have h3 : WFType (.other "Point") := b "Point"
  have h4 : WFType (.other "String") := b "String"
  have h5 : WFType (.generic "Vec" [.other "String"]) := .generic _ _ (by simp) (by simpa using h4)
  have h6 : WFType (.other "Mode") := b "Mode"
  simp [nextRpc, rpcSchema, WFSchema, WFDecl, WFConst, WFFields, PosOk, WFItem, EnumItem.position, fnCount, h1, h2, h3, h5, h6]
  trivial

theorem nextRpc_ok : RpcOk LE.wire nextRpc where
  accepted := by
    obtain ⟨ts, _, h⟩ := C09_every_schema _ nextRpc_wf
    exact ⟨_, h⟩
  named :=
    { types := by decide
      builtins := by decide
      fields := by simp [nextRpc, rpcSchema, fieldsOf]
      variants := by simp [nextRpc, rpcSchema, EnumItem.id]
      payloads := by simp [nextRpc, rpcSchema, payload]
      numbers := by simp [nextRpc, rpcSchema, EnumItem.position] }
  distinct := by simp [DistinctNumbers, nextRpc, rpcSchema, EnumItem.position]
  noClash := by simp [Rust.NoWriterClash, nextRpc, rpcSchema]
  rpcNamed := { methods := by decide, args := by decide, structs := by decide, locals := by decide }
  noExt := noExtArgs_LE _

theorem nextRpc_out : ∃ out, RustGen.rpc nextRpc = .ok out :=
  ⟨_, Rust.rpc_render _ (by simp [nextRpc, rpcSchema, findFnNodes]) _ rfl⟩

/-- The old client calls `add` of the new server, whose runtime also runs the handler of the new method `mode`. -/
example : ∃ P R Q C dv, Rust.Emits nextRpc P ∧ Rust.EmitsRpc nextRpc R ∧ Dart.Emits testExt rpcSchema Q ∧
    Dart.EmitsRpc testExt rpcSchema C ∧ Exchanged testExt LE.wire rpcSchema [.other "Point"] [pt 3] [dv] ∧
    ∃ vs N, ∀ k, N ≤ k → ∃ mem sent,
      Dart.callMethod LE.dart Q k (-1) (· + 1) C (fun old bs => bs ++ old.drop bs.length)
        (loopSync (codecAt LE.rust (P.withArgs R) k) (fun old bs => bs ++ old.drop bs.length)
          (fun _ _ u => (.val (pt 3), u + 1)) R.handlers [5, 0]) "add" [pt (-2), .int 5]
        ⟨.fresh, fun _ => ⟨[0, 8], [1, 2, 3]⟩, [], 7, []⟩
      = .ok (.val dv, ⟨.fresh, mem, sent, 8, [("add", vs)]⟩) := by
  obtain ⟨outR, hR⟩ := nextRpc_out
  obtain ⟨outD, hD⟩ := rpcSchema_dartOut
  obtain ⟨P, R, Q, C, h1, h2, h3, h4, h5⟩ := C56_sync_call testExt LE.rust LE.dart (-1) rpcSchema nextRpc rpcSchema_system
    nextRpc_ok nextRpc_adds rpcSchema_methods outR outD hR hD
  have hf : ⟨"add", 0, [⟨"p", .other "Point"⟩, ⟨"n", .integer "i64" 8 true⟩], some (.other "Point"), false, false⟩ ∈ methodsOf rpcSchema :=
    List.mem_cons_self ..
  obtain ⟨vs, -, h6⟩ := h5 _ hf rfl (rpcSchema_portableMethod hf) Nat (fun old bs => bs ++ old.drop bs.length)
    (fun old bs => ⟨_, rfl⟩) (fun _ _ u => (.val (pt 3), u + 1)) (· + 1) ⟨.fresh, fun _ => ⟨[0, 8], [1, 2, 3]⟩, [], 7, []⟩
    [pt (-2), .int 5] [5, 0]
    ⟨[pt (-2), .int 5], pt_dart (by decide) ⟨.leaf _ _ _ _ (show -(2 ^ 63 : Int) ≤ 5 ∧ (5 : Int) < 2 ^ 63 by decide) .nil, .leaf _ _ _ _ _ rfl .nil⟩⟩ (by simp) (by
      intro a ha
      simp only [List.mem_cons, List.not_mem_nil, or_false] at ha
      rcases ha with rfl | rfl
      · exact ⟨⟨"mode", 5, [⟨"m", .other "Mode"⟩], some (.other "Point"), false, false⟩, by simp [nextRpc, rpcSchema, methodsOf], rfl, rfl,
          fun _ => ⟨0, [8], rfl, by decide⟩⟩
      · exact ⟨_, adds_mem nextRpc_adds hf, rfl, rfl, fun h => absurd rfl h⟩)
  obtain ⟨dv, h7, N, h8⟩ := h6 (some (pt 3)) rfl ⟨ptBytes 3 ++ [], _, rfl, pt_enc (by decide) .nil⟩
  cases dv with
  | none => simp [ExchangedResult] at h7
  | some dv =>
    obtain ⟨t, ht, h7⟩ := h7
    obtain rfl := Option.some.inj ht
    refine ⟨P, R, Q, C, dv, h1, h2, h3, h4, h7, vs, N, fun k hk => ?_⟩
    have e : testExt.camel "add" = "add" := by decide +kernel
    have := h8 k hk
    simp only [e] at this
    exact this

/-- The new server handles a request of the old version for `slow`. -/
example : ∃ P R, Rust.Emits nextRpc P ∧ Rust.EmitsRpc nextRpc R ∧ ∃ hd, R.handlers.lookup 1 = some hd ∧ ∃ N, ∀ k, N ≤ k → ∃ m' t,
    Rust.runHandler (codecAt LE.rust (P.withArgs R) k) (fun old bs => bs ++ old.drop bs.length) (fun _ _ u => (.val (.int 9), u + 1)) hd
      ⟨[255] ++ LE.le 8 6 ++ (ptBytes 3 ++ []) ++ [1, 2], []⟩ 0 = .ok ⟨m', 0, [], [t], true⟩ := by
  obtain ⟨outR, hR⟩ := nextRpc_out
  obtain ⟨P, R, h1, h2, h3⟩ := C56_async_call LE.rust LE.rust_lawful rpcSchema nextRpc nextRpc_ok nextRpc_adds rpcSchema_methods outR hR
  obtain ⟨hd, h4, h5⟩ := h3 ⟨"slow", 1, [⟨"p", .other "Point"⟩], some (.integer "i64" 8 true), false, true⟩
    (by simp [rpcSchema, methodsOf]) rfl rfl
  obtain ⟨N, h6⟩ := h5 Nat (fun old bs => bs ++ old.drop bs.length) (fun old bs => ⟨_, rfl⟩) (fun _ _ u => (.val (.int 9), u + 1))
    ⟨[255] ++ LE.le 8 6 ++ (ptBytes 3 ++ []) ++ [1, 2], []⟩ 0 6 [pt 3] ([255] ++ LE.le 8 6 ++ (ptBytes 3 ++ [])) [1, 2]
    ⟨rfl, [255], LE.le 8 6, ptBytes 3 ++ [], by decide +kernel, (by decide +kernel : LE.wire.prim "i64" (.int 6) = some (LE.le 8 6)), pt_enc (by decide) .nil, rfl⟩ rfl
  refine ⟨P, R, h1, h2, hd, h4, N, fun k hk => ?_⟩
  obtain ⟨m', t, h7, -⟩ := h6 k hk
  exact ⟨m', t, h7⟩

/-- The new server sends a point for `now`, as the old version does. -/
example : ∃ P R, Rust.Emits nextRpc P ∧ Rust.EmitsRpc nextRpc R ∧ ∃ hd, R.handlers.lookup 2 = some hd ∧ ∃ N, ∀ k, N ≤ k → ∃ rest,
    Rust.runHandler (codecAt LE.rust (P.withArgs R) k) (fun old bs => bs ++ old.drop bs.length) (fun _ _ u => (.opt (some (pt 3)), u + 1)) hd
      ⟨[0, 8], [1, 2]⟩ 0 = .ok ⟨⟨[0, 8], [255] ++ [] ++ (ptBytes 3 ++ []) ++ rest⟩, 1, [("now", [])], [], true⟩ := by
  obtain ⟨outR, hR⟩ := nextRpc_out
  obtain ⟨P, R, h1, h2, h3⟩ := C56_sync_read LE.rust LE.rust_lawful rpcSchema nextRpc nextRpc_ok nextRpc_adds rpcSchema_methods outR hR
  obtain ⟨hd, h4, h5⟩ := h3 ⟨"now", 2, [], some (.other "Point"), true, false⟩ (by simp [rpcSchema, methodsOf]) rfl rfl _ rfl rfl
  exact ⟨P, R, h1, h2, hd, h4, (h5 Nat (fun old bs => bs ++ old.drop bs.length) (fun old bs => ⟨_, rfl⟩)
    (fun _ _ u => (.opt (some (pt 3)), u + 1)) ⟨[0, 8], [1, 2]⟩ 0).2 (pt 3) _ rfl
    ⟨[255], [], ptBytes 3 ++ [], by decide +kernel, rfl, ⟨_, rfl, pt_enc (by decide) .nil⟩, rfl⟩⟩

/-- The new server starts a read of `ticks`, as the old version does. -/
example : ∃ P R, Rust.Emits nextRpc P ∧ Rust.EmitsRpc nextRpc R ∧ ∃ hd, R.handlers.lookup 3 = some hd ∧ ∀ k, ∃ m' t,
    Rust.runHandler (codecAt LE.rust (P.withArgs R) k) (fun old bs => bs ++ old.drop bs.length) (fun _ _ u => (.opt (some (pt 3)), u + 1)) hd
      ⟨[0, 8], [1, 2]⟩ 0 = .ok ⟨m', 0, [], [t], true⟩ ∧ m'.client = [1, 2] := by
  obtain ⟨outR, hR⟩ := nextRpc_out
  obtain ⟨P, R, h1, h2, h3⟩ := C56_async_read LE.rust LE.rust_lawful rpcSchema nextRpc nextRpc_ok nextRpc_adds rpcSchema_methods outR hR
  obtain ⟨hd, h4, h5⟩ := h3 ⟨"ticks", 3, [], some (.other "Point"), true, true⟩ (by simp [rpcSchema, methodsOf]) rfl rfl _ rfl rfl
  refine ⟨P, R, h1, h2, hd, h4, fun k => ?_⟩
  obtain ⟨m', t, h6, h7, -⟩ := h5 Nat (fun old bs => bs ++ old.drop bs.length) (fun old bs => ⟨_, rfl⟩)
    (fun _ _ u => (.opt (some (pt 3)), u + 1)) ⟨[0, 8], [1, 2]⟩ 0 k ⟨0, [8], rfl, by decide⟩
  exact ⟨m', t, h6, h7⟩

/-- The server of the new version of the example uses the addresses of the old client. -/
example : ∃ C R', Dart.EmitsRpc testExt rpcSchema C ∧ Rust.EmitsRpc nextRpc R' ∧ R'.scope = C.scope ∧
    (∃ r, R'.regs[4]? = some r ∧ r.addr = 4 ∧ r.group = .sync ∧ r.fn = "ping") := by
  obtain ⟨outD, hD⟩ := rpcSchema_dartOut
  obtain ⟨C, R', h1, h2, h3, -, h4⟩ := C56_addresses testExt rpcSchema nextRpc rpcSchema_accepted nextRpc_ok.accepted nextRpc_adds
    nextRpc_ok.rpcNamed.methods rpcSchema_methods outD hD
  exact ⟨C, R', h1, h2, h3, (h4 4 ⟨"ping", 4, [], none, false, false⟩ rfl).1⟩

end TPB.Props
