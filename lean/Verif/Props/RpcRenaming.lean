/-
Property theorems about the names of methods: C94.
-/
import Verif.Props.Renaming
import Verif.Props.RpcEvolution
namespace TPB.Props
open Spec Renaming
open Rust (RetIs Buf Bufs BufLib User setMem codecAt)
open Rpc

/-! ## Requests and answers -/

/-- The bytes of values are determined by the values. -/
theorem enc_det {rt : Rust.Runtime} {S : List ASTNode} (hA : Accepted S) (hN : WellNamed S) (hW : Rust.NoWriterClash S)
    {ts : List TypeId} {vs : List Val} {b b' : Bytes} (hts : ∀ t ∈ ts, WFType t) (h : Enc rt.wire S ts vs b)
    (h' : Enc rt.wire S ts vs b') : b = b' := by
  obtain ⟨k, hk⟩ := Rust.write_enc hN (Rust.typesOk_of_wf hA.wf) hW h hts
  obtain ⟨k', hk'⟩ := Rust.write_enc hN (Rust.typesOk_of_wf hA.wf) hW h' hts
  exact Except.ok.inj ((hk (max k k') (by omega)).symm.trans (hk' (max k k') (by omega)))

section
variable {rt : Rust.Runtime} (hrt : rt.Lawful) {M : String → String → Prop} {S S' : List ASTNode} (h : RpcOk rt.wire S)
include hrt h

theorem same_bytes {ts ts' : List TypeId} {vs vs' : List Val} {b : Bytes} (hts : ∀ t ∈ ts, WFType t)
    (hv : SameVals rt.wire M S S' ts ts' vs vs') (he : Enc rt.wire S ts vs b) : Enc rt.wire S' ts' vs' b := by
  obtain ⟨b', h1, h2⟩ := same_enc (total_rust hrt.wire h.named (Rust.typesOk_of_wf h.accepted.wf)) hv hts
  rwa [enc_det h.accepted h.named h.noClash hts he h1]

variable {f f' : FnNode} (hf : f ∈ methodsOf S) (hs : SameMethod M S S' f f')
include hf hs

theorem same_request {mid : Option Int} {vs vs' : List Val} {bs : Bytes}
    (hv : SameVals rt.wire M S S' (f.args.map (·.typeId)) (f'.args.map (·.typeId)) vs vs')
    (hr : Request rt.wire S f mid vs bs) : Request rt.wire S' f' mid vs' bs := by
  obtain ⟨h1, s, m, b, h2, h3, h4, h5⟩ := hr
  have e : ∀ g : FnNode, (argsOf g).map (·.2) = g.args.map (·.typeId) := fun g => by simp [argsOf]
  rw [e] at h4
  refine ⟨by rw [h1, hs.isAsync], s, m, b, h2, h3, ?_, h5⟩
  rw [e]
  exact same_bytes hrt h (fun t ht => by
    obtain ⟨a, ha, rfl⟩ := List.mem_map.1 ht
    exact (Rust.wf_method h.accepted.wf hf).1 (a.id, a.typeId) (List.mem_map.2 ⟨a, ha, rfl⟩)) hv h4

theorem same_answer {mid : Option Int} {v v' : Option Val} {bs : Bytes} (hv : SameResult rt.wire M S S' f f' v v')
    (ha : Spec.Answer rt.wire S f mid v bs) : Spec.Answer rt.wire S' f' mid v' bs := by
  obtain ⟨s, m, b, h2, h3, h4, h5⟩ := ha
  refine ⟨s, m, b, h2, h3, ?_, h5⟩
  match v, v', hv with
  | none, none, hv => exact ⟨hv.2, h4.2⟩
  | some v, some v', ⟨t, t', ht, ht', hv⟩ =>
    obtain ⟨t0, h6, h7⟩ := h4
    rw [ht] at h6
    obtain rfl := Option.some.inj h6
    exact ⟨t', ht', same_bytes hrt h (by simpa using (Rust.wf_method h.accepted.wf hf).2.1 t (by simp [ht])) hv h7⟩

end

theorem same_group {M : String → String → Prop} {S S' : List ASTNode} {f f' : FnNode} (hs : SameMethod M S S' f f') :
    groupOf f' = groupOf f := by simp only [groupOf, hs.isRead, hs.isAsync]

theorem same_method {M : String → String → Prop} {S S' : List ASTNode} (hA : Accepted S) (hA' : Accepted S')
    (hI : SameInterface M S S') {f : FnNode} (hf : f ∈ methodsOf S) :
    ∃ f' ∈ methodsOf S', f'.position = f.position ∧ SameMethod M S S' f f' := by
  obtain ⟨i, hi⟩ := List.getElem?_of_mem hf
  obtain ⟨f', hf', hs⟩ := hI.methods i f hi
  exact ⟨f', List.mem_of_getElem? hf', by rw [position_eq hA' hf', position_eq hA hi], hs⟩

theorem same_methods {M : String → String → Prop} {S S' : List ASTNode} (hI : SameInterface M S S') (hM : methodsOf S ≠ []) :
    methodsOf S' ≠ [] := by
  obtain ⟨f, fs, e⟩ := List.exists_cons_of_ne_nil hM
  obtain ⟨f', hf', -⟩ := hI.methods 0 f (by simp [e])
  intro e'
  simp [e'] at hf'

/-! ## C94 -/

/-- **C94, addresses.** Let `S'` be the interface `S` with other names of types, fields, variants, methods and arguments,
and possibly more methods at the end.  The client of `S` and the server of `S'` use the same scope, and the server
registers every renamed method at the address where the client looks for it under its old name, in the same group and
with the handler of the renamed method. -/
theorem C94_addresses (x : Ext) (M : String → String → Prop) (S S' : List ASTNode) (hA : Accepted S) (hA' : Accepted S')
    (hI : SameInterface M S S') (hn : ((methodsOf S').map (·.id)).Nodup) (hM : methodsOf S ≠ [])
    (outD : String) (hoD : DartGen.rpcMethods x S = .ok outD) :
    ∃ C R', Dart.EmitsRpc x S C ∧ Rust.EmitsRpc S' R' ∧ R'.scope = C.scope ∧
      C.methods.map (fun m => (m.name, m.body.filterMap access?))
        = (methodsOf S).zipIdx.flatMap (fun p => clientAccesses x p.2 p.1) ∧
      ∀ (i : Nat) (f : FnNode), (methodsOf S)[i]? = some f → ∃ f', (methodsOf S')[i]? = some f' ∧ SameMethod M S S' f f' ∧
        (∃ r, R'.regs[i]? = some r ∧ r.addr = i ∧ r.group = groupOf f ∧ r.fn = f'.id) ∧
        ∃ h, R'.handlers.lookup i = some h ∧ h.fn = f'.id := by
  have hM' := same_methods hI hM
  obtain ⟨ns, scope, hC, hs⟩ := Dart.emitsRpc_of hA.wf hM hoD
  have hsc : Rust.scopeOf S' = some scope := by
    rw [← scopeOf_eq hs]
    unfold Rust.scopeOf
    rw [findDirectiveValue_eq, findDirectiveValue_eq, hI.directives]
  have hR : Rust.EmitsRpc S' (Rust.genRpc scope S') := Rust.emits_genRpc hA'.wf hM' hsc
  refine ⟨_, _, hC, hR, rfl, ?_, fun i f hf => ?_⟩
  · exact gen_accesses hA ns scope
  · obtain ⟨f', hf', hsm⟩ := hI.methods i f hf
    have hp := position_eq hA' hf'
    refine ⟨f', hf', hsm, ?_, ?_⟩
    · refine ⟨_, by simp only [Rust.genRpc, findFnNodes_eq, List.getElem?_map, hf']; rfl, ?_⟩
      rw [← same_group hsm]
      unfold Rust.genReg groupOf
      cases f'.isRead <;> cases f'.isAsync <;> simp [hp]
    · rw [← hp]
      exact ⟨_, Rust.handlers_lookup scope hA'.wf hn (List.mem_of_getElem? hf'), Rust.genHandler_fn f'⟩

/-- **C94, synchronous calls.** A call of a synchronous method under its old name, by a client of `S`, makes the server of
`S'` call the user's function with the new name exactly once, with the values that are, up to names, those that the
objects of the client stand for, and no other function; if the result is, up to names, a value of `S`, the call returns
an object that stands for it.  As for C32, this holds whatever handlers of synchronous methods run before and after. -/
theorem C94_sync_call (x : Ext) (rr : Rust.Runtime) (rt : Dart.Runtime) (hd : Int) (M : String → String → Prop) (S S' : List ASTNode)
    (h : SystemOk x rr rt hd S) (h' : RpcOk rr.wire S') (hI : SameInterface M S S') (hM : methodsOf S ≠ [])
    (outR outD : String) (hoR : RustGen.rpc S' = .ok outR) (hoD : DartGen.rpcMethods x S = .ok outD) :
    ∃ P R Q C, Rust.Emits S' P ∧ Rust.EmitsRpc S' R ∧ Dart.Emits x S Q ∧ Dart.EmitsRpc x S C ∧
      ∀ f ∈ methodsOf S, groupOf f = .sync → PortableMethod S f →
      ∃ f' ∈ methodsOf S', f'.position = f.position ∧ SameMethod M S S' f f' ∧
      ∀ (σ : Type) (lib : BufLib) (_ : lib.Lawful) (U : User σ) (rotate : Int → Int)
        (w : Dart.World (σ × List (String × List Val))) (ds : List Val) (as : List Nat),
        DartArgs x rt.wire S f ds → f'.position ∈ as →
        (∀ a ∈ as, ∃ g ∈ methodsOf S', groupOf g = .sync ∧ g.position = a ∧
          (g ≠ f' → NoMessage (rr.readP "u8") (w.mem a).server)) →
        ∃ vs vs', Exchanged x rr.wire S (f.args.map (·.typeId)) vs ds ∧
          SameVals rr.wire M S S' (f.args.map (·.typeId)) (f'.args.map (·.typeId)) vs vs' ∧
          ∀ v v', RetIs (U f'.id vs' w.rest.1).1 v' → SameResult rr.wire M S S' f f' v v' → (∃ b, ResultIs rr.wire S f v b) →
          ∃ dv, ExchangedResult x rr.wire S f v dv ∧ ∃ N, ∀ k, N ≤ k → ∃ mem sent,
            Dart.callMethod rt Q k hd rotate C lib (loopSync (codecAt rr (P.withArgs R) k) lib U R.handlers as) (x.camel f.id) ds w
              = .ok (.ofResult dv, ⟨w.client, mem, sent, (U f'.id vs' w.rest.1).2, w.rest.2 ++ [(f'.id, vs')]⟩) := by
  have hA := h.server.accepted
  obtain ⟨scope, hR⟩ := Rust.emitsRpc_of h'.accepted.wf hoR (same_methods hI hM)
  obtain ⟨ns, scope', hC, -⟩ := Dart.emitsRpc_of hA.wf hM hoD
  refine ⟨_, _, _, _, emits_genProg S' h'.accepted, hR, Dart.emits_genProg hA, hC, ?_⟩
  intro f hf hg hp
  obtain ⟨f', hf', hpf, hs⟩ := same_method hA h'.accepted hI hf
  refine ⟨f', hf', hpf, hs, fun σ lib hlib U rotate w ds as hds hpos has => ?_⟩
  exact sync_between h h' ns scope scope' hf hf' hg (by rw [same_group hs, hg]) hpf hp
    (X := fun vs vs' => SameVals rr.wire M S S' (f.args.map (·.typeId)) (f'.args.map (·.typeId)) vs vs')
    (Y := SameResult rr.wire M S S' f f')
    (fun vs b hv hr => by
      obtain ⟨vs', hs'⟩ := same_total hI.types hv _ hs.args
      exact ⟨vs', hs', same_request h.rust h.server hf hs hs' hr⟩)
    (fun v v' b hv ha => same_answer h.rust h.server hf hs hv ha) hlib U rotate w ds as hds hpos has

/-- **C94, asynchronous calls.** The server of `S'` handles a request of `S` for an asynchronous method: its handler
starts one future, which calls the user's function with the new name once, with the values that are those of the request
up to names; if the result is a value of `S` up to names, the future leaves the answer of `S` to that request in the
client's buffer (which is what `C34_client_answer` says the client of `S` reads). -/
theorem C94_async_call (rt : Rust.Runtime) (hrt : rt.Lawful) (M : String → String → Prop) (S S' : List ASTNode)
    (h : RpcOk rt.wire S) (h' : RpcOk rt.wire S') (hI : SameInterface M S S') (hM : methodsOf S ≠ [])
    (out : String) (hout : RustGen.rpc S' = .ok out) :
    ∃ P R, Rust.Emits S' P ∧ Rust.EmitsRpc S' R ∧ ∀ f ∈ methodsOf S, f.isRead = false → f.isAsync = true →
      ∃ f' ∈ methodsOf S', f'.position = f.position ∧ SameMethod M S S' f f' ∧
      ∃ hd, R.handlers.lookup f.position = some hd ∧
      ∀ (σ : Type) (lib : BufLib) (_ : lib.Lawful) (U : User σ) (m : Bufs) (u : σ) (i : Int) (vs vs' : List Val) (req rest : Bytes),
        Request rt.wire S f (some i) vs req → m.server = req ++ rest →
        SameVals rt.wire M S S' (f.args.map (·.typeId)) (f'.args.map (·.typeId)) vs vs' →
        ∃ N, ∀ k, N ≤ k → ∃ m' t,
          Rust.runHandler (codecAt rt (P.withArgs R) k) lib U hd m u = .ok ⟨m', u, [], [t], true⟩ ∧
          ∀ (r : Rust.Ret) (v v' : Option Val) (ans : Bytes), RetIs r v' → SameResult rt.wire M S S' f f' v v' →
            Spec.Answer rt.wire S f (some i) v ans →
            ∃ N', ∀ k', N' ≤ k' → ∀ (m1 : Bufs) (u1 : σ), ∃ n rest',
              Rust.runFuture (codecAt rt (P.withArgs R) k') lib U r n m1 u1 t = .ok (⟨m1.server, ans ++ rest'⟩, [(f'.id, vs')]) := by
  obtain ⟨P, R, h1, h2, h3⟩ := C33_async_exactly_once rt hrt S' h' (same_methods hI hM) out hout
  refine ⟨P, R, h1, h2, fun f hf hr ha => ?_⟩
  obtain ⟨f', hf', hpf, hs⟩ := same_method h.accepted h'.accepted hI hf
  obtain ⟨hd, h4, h5⟩ := h3 f' hf' (by rw [hs.isRead, hr]) (by rw [hs.isAsync, ha])
  refine ⟨f', hf', hpf, hs, hd, hpf ▸ h4, fun σ lib hlib U m u i vs vs' req rest hreq hm hv => ?_⟩
  obtain ⟨N, h6⟩ := h5 σ lib hlib U m u i vs' req rest (same_request hrt h hf hs hv hreq) hm
  refine ⟨N, fun k hk => ?_⟩
  obtain ⟨m', t, h7, -, h8⟩ := h6 k hk
  exact ⟨m', t, h7, fun r v v' ans hret hsv hans => h8 r v' ans hret (same_answer hrt h hf hs hsv hans)⟩

/-- A read method whose result type is not built in. -/
theorem same_not_builtin {M : String → String → Prop} {S S' : List ASTNode} {t t' : TypeId} (h : SameTy M S S' t t')
    (hb : builtin? t = none) : builtin? t' = none := by
  cases h with
  | builtin => exact hb
  | declared => rfl
  | library => rfl
  | container => rfl

/-- **C94, synchronous reads.** When the runtime runs the handler of a read method of `S` on the server of `S'`, the
user's function with the new name is called once; if it returns a value of `S` up to names, the handler leaves the answer
of `S` in the client's buffer (which is what `C58_client_stream` says the client of `S` reads), and if it returns
nothing, it changes nothing. -/
theorem C94_sync_read (rt : Rust.Runtime) (hrt : rt.Lawful) (M : String → String → Prop) (S S' : List ASTNode)
    (h : RpcOk rt.wire S) (h' : RpcOk rt.wire S') (hI : SameInterface M S S') (hM : methodsOf S ≠ [])
    (out : String) (hout : RustGen.rpc S' = .ok out) :
    ∃ P R, Rust.Emits S' P ∧ Rust.EmitsRpc S' R ∧ ∀ f ∈ methodsOf S, f.isRead = true → f.isAsync = false →
      ∀ t, f.returnTypeId = some t → builtin? t = none →
      ∃ f' ∈ methodsOf S', f'.position = f.position ∧ SameMethod M S S' f f' ∧
      ∃ hd, R.handlers.lookup f.position = some hd ∧
      ∀ (σ : Type) (lib : BufLib) (_ : lib.Lawful) (U : User σ) (m : Bufs) (u : σ),
        ((U f'.id [] u).1 = .opt none → ∀ k,
          Rust.runHandler (codecAt rt (P.withArgs R) k) lib U hd m u = .ok ⟨m, (U f'.id [] u).2, [(f'.id, [])], [], false⟩) ∧
        ∀ v v' ans, (U f'.id [] u).1 = .opt (some v') → SameResult rt.wire M S S' f f' (some v) (some v') →
          Spec.Answer rt.wire S f none (some v) ans →
          ∃ N, ∀ k, N ≤ k → ∃ rest,
            Rust.runHandler (codecAt rt (P.withArgs R) k) lib U hd m u
              = .ok ⟨⟨m.server, ans ++ rest⟩, (U f'.id [] u).2, [(f'.id, [])], [], true⟩ := by
  obtain ⟨P, R, h1, h2, h3⟩ := C51_sync_read_partial rt hrt S' h' (same_methods hI hM) out hout
  refine ⟨P, R, h1, h2, fun f hf hr ha t ht hb => ?_⟩
  obtain ⟨f', hf', hpf, hs⟩ := same_method h.accepted h'.accepted hI hf
  obtain ⟨t', ht', hst⟩ : ∃ t', f'.returnTypeId = some t' ∧ SameTy M S S' t t' := by
    rcases hs.result with ⟨h1, -⟩ | ⟨t0, t', h1, h2, h3⟩
    · simp [ht] at h1
    · rw [ht] at h1
      obtain rfl := Option.some.inj h1
      exact ⟨t', h2, h3⟩
  obtain ⟨hd, h4, h5⟩ := h3 f' hf' (by rw [hs.isRead, hr]) (by rw [hs.isAsync, ha]) t' ht' (same_not_builtin hst hb)
  refine ⟨f', hf', hpf, hs, hd, hpf ▸ h4, fun σ lib hlib U m u => ?_⟩
  obtain ⟨h6, h7⟩ := h5 σ lib hlib U m u
  exact ⟨h6, fun v v' ans hv hsv hans => h7 v' ans hv (same_answer hrt h hf hs hsv hans)⟩

/-- **C94, asynchronous reads.** Likewise for asynchronous reads: a run of the handler while no read is in flight starts
one future, which calls the user's function with the new name once and leaves the answer of `S` in the client's
buffer. -/
theorem C94_async_read (rt : Rust.Runtime) (hrt : rt.Lawful) (M : String → String → Prop) (S S' : List ASTNode)
    (h : RpcOk rt.wire S) (h' : RpcOk rt.wire S') (hI : SameInterface M S S') (hM : methodsOf S ≠ [])
    (out : String) (hout : RustGen.rpc S' = .ok out) :
    ∃ P R, Rust.Emits S' P ∧ Rust.EmitsRpc S' R ∧ ∀ f ∈ methodsOf S, f.isRead = true → f.isAsync = true →
      ∀ ty, f.returnTypeId = some ty → builtin? ty = none →
      ∃ f' ∈ methodsOf S', f'.position = f.position ∧ SameMethod M S S' f f' ∧
      ∃ hd, R.handlers.lookup f.position = some hd ∧
      ∀ (σ : Type) (lib : BufLib) (_ : lib.Lawful) (U : User σ) (m : Bufs) (u : σ) (k : Nat),
        NoMessage (rt.readP "u8") m.server →
        ∃ m' t, Rust.runHandler (codecAt rt (P.withArgs R) k) lib U hd m u = .ok ⟨m', u, [], [t], true⟩ ∧ m'.client = m.client ∧
          ∀ v v' ans, SameResult rt.wire M S S' f f' (some v) (some v') → Spec.Answer rt.wire S f none (some v) ans →
            ∃ N, ∀ k', N ≤ k' → ∀ (m1 : Bufs) (u1 : σ), ∃ n server rest,
              Rust.runFuture (codecAt rt (P.withArgs R) k') lib U (.opt (some v')) n m1 u1 t
                = .ok (⟨server, ans ++ rest⟩, [(f'.id, [])]) ∧ NoMessage (rt.readP "u8") server := by
  obtain ⟨P, R, h1, h2, h3⟩ := C51_async_read_partial rt hrt S' h' (same_methods hI hM) out hout
  refine ⟨P, R, h1, h2, fun f hf hr ha t ht hb => ?_⟩
  obtain ⟨f', hf', hpf, hs⟩ := same_method h.accepted h'.accepted hI hf
  obtain ⟨t', ht', hst⟩ : ∃ t', f'.returnTypeId = some t' ∧ SameTy M S S' t t' := by
    rcases hs.result with ⟨h1, -⟩ | ⟨t0, t', h1, h2, h3⟩
    · simp [ht] at h1
    · rw [ht] at h1
      obtain rfl := Option.some.inj h1
      exact ⟨t', h2, h3⟩
  obtain ⟨hd, h4, h5⟩ := h3 f' hf' (by rw [hs.isRead, hr]) (by rw [hs.isAsync, ha]) t' ht' (same_not_builtin hst hb)
  refine ⟨f', hf', hpf, hs, hd, hpf ▸ h4, fun σ lib hlib U m u k hno => ?_⟩
  obtain ⟨m', t', h6, h7, h8⟩ := h5 σ lib hlib U m u k hno
  exact ⟨m', t', h6, h7, fun v v' ans hsv hans => h8 v' ans (same_answer hrt h hf hs hsv hans)⟩

/-! ## The example -/

/-- `rpcSchema` with other names, in another order, and with one more method. -/
def renamedRpc : List ASTNode :=
  [.directive (.value "namespace" ⟨.str "demo", .other "String"⟩), .directive (.value "id" ⟨.str "8b61", .other "String"⟩),
   .fn ⟨"plus", 0, [⟨"a", .other "Pt"⟩, ⟨"k", .integer "i64" 8 true⟩], some (.other "Pt"), false, false⟩,
   .fn ⟨"later", 1, [⟨"q", .other "Pt"⟩], some (.integer "i64" 8 true), false, true⟩,
   .struct ⟨"Pt", [⟨0, "left", .integer "i32" 4 true⟩, ⟨1, "labels", .generic "Vec" [.other "String"]⟩], true, true⟩,
   .fn ⟨"current", 2, [], some (.other "Pt"), true, false⟩,
   .fn ⟨"beats", 3, [], some (.other "Pt"), true, true⟩,
   .fn ⟨"hello", 4, [], none, false, false⟩,
   .fn ⟨"extra", 5, [], none, false, false⟩]

/-- How the type of `rpcSchema` is called in `renamedRpc`. -/
def newRpcNames (id id' : String) : Prop := id = "Point" ∧ id' = "Pt"

theorem point_same : SameTy newRpcNames rpcSchema renamedRpc (.other "Point") (.other "Pt") :=
  .declared _ _ (by decide) ⟨rfl, rfl⟩

theorem renamedRpc_same : SameInterface newRpcNames rpcSchema renamedRpc where
  types := by
    constructor
    · simp only [rpcSchema, List.mem_cons, ASTNode.struct.injEq, reduceCtorEq, List.not_mem_nil, or_false, false_or]
      rintro n rfl id' ⟨-, rfl⟩
      refine ⟨⟨"Pt", [⟨0, "left", .integer "i32" 4 true⟩, ⟨1, "labels", .generic "Vec" [.other "String"]⟩], true, true⟩,
        by simp [renamedRpc], rfl, sameTys_mk (.builtin _ rfl) (sameTys_mk (.container _ _ _ rfl (fun i hi _ => ?_)) ⟨rfl, by simp⟩)⟩
      have : i = 0 := by simpa using hi
      subst this
      exact .library "String" (by decide) (by decide)
    · simp [rpcSchema]
  directives := rfl
  methods := by
    have hn : SameTys newRpcNames rpcSchema renamedRpc [] [] := ⟨rfl, by simp⟩
    intro i f hf
    match i with
    | 0 =>
      obtain rfl := Option.some.inj hf
      exact ⟨_, rfl, rfl, rfl, sameTys_mk point_same (sameTys_mk (.builtin _ rfl) hn), .inr ⟨_, _, rfl, rfl, point_same⟩⟩
    | 1 =>
      obtain rfl := Option.some.inj hf
      exact ⟨_, rfl, rfl, rfl, sameTys_mk point_same hn, .inr ⟨_, _, rfl, rfl, .builtin _ rfl⟩⟩
    | 2 =>
      obtain rfl := Option.some.inj hf
      exact ⟨_, rfl, rfl, rfl, hn, .inr ⟨_, _, rfl, rfl, point_same⟩⟩
    | 3 =>
      obtain rfl := Option.some.inj hf
      exact ⟨_, rfl, rfl, rfl, hn, .inr ⟨_, _, rfl, rfl, point_same⟩⟩
    | 4 =>
      obtain rfl := Option.some.inj hf
      exact ⟨_, rfl, rfl, rfl, hn, .inl ⟨rfl, rfl⟩⟩
    | k + 5 => simp [rpcSchema, methodsOf] at hf

theorem renamedRpc_wf : WFSchema 0 renamedRpc := by
  have b : ∀ n, WFType (typeOfName n) := .name
  have h1 : WFType (.integer "i32" 4 true) := b "i32"
  have h2 : WFType (.integer "i64" 8 true) := b "i64"
  have h3 : WFType (.other "Pt") := b "Pt"
  have h4 : WFType (.other "String") := b "String"
  have h5 : WFType (.generic "Vec" [.other "String"]) := .generic _ _ (by simp) (by simpa using h4)
  simp [renamedRpc, WFSchema, WFDecl, WFConst, WFFields, PosOk, fnCount, h1, h2, h3, h5]
  trivial

theorem renamedRpc_ok : RpcOk LE.wire renamedRpc where
  accepted := by
    obtain ⟨ts, _, h⟩ := C09_every_schema _ renamedRpc_wf
    exact ⟨_, h⟩
  named :=
    { types := by decide
      builtins := by decide
      fields := by simp [renamedRpc, fieldsOf]
      variants := by simp [renamedRpc]
      payloads := by simp [renamedRpc]
      numbers := by simp [renamedRpc] }
  distinct := by simp [DistinctNumbers, renamedRpc]
  noClash := by simp [Rust.NoWriterClash, renamedRpc]
  rpcNamed := { methods := by decide, args := by decide, structs := by decide, locals := by decide }
  noExt := noExtArgs_LE _

theorem renamedRpc_out : ∃ out, RustGen.rpc renamedRpc = .ok out :=
  ⟨_, Rust.rpc_render _ (by simp [renamedRpc, findFnNodes]) _ rfl⟩

/-- A point under its new name. -/
def newPt (n : Int) : Val := .struct "Pt" [("left", .int n), ("labels", .list 1 [.ext "String" 7])]

theorem pt_same {n : Int} (hx : -(2 ^ 31) ≤ n ∧ n < 2 ^ 31) :
    SameVal LE.wire newRpcNames rpcSchema renamedRpc (.other "Point") (.other "Pt") (pt n) (newPt n) :=
  SameVals.struct (W := LE.wire) (M := newRpcNames) (S := rpcSchema) (S' := renamedRpc)
    ⟨"Point", [⟨0, "x", .integer "i32" 4 true⟩, ⟨1, "tags", .generic "Vec" [.other "String"]⟩], true, true⟩
    ⟨"Pt", [⟨0, "left", .integer "i32" 4 true⟩, ⟨1, "labels", .generic "Vec" [.other "String"]⟩], true, true⟩
    [.int n, .list 1 [.ext "String" 7]] [.int n, .list 1 [.ext "String" 7]] (by simp [rpcSchema]) (by simp [renamedRpc]) ⟨rfl, rfl⟩
    (.builtin _ _ hx (.list "Vec" [.other "String"] [.other "String"] 1 [.other "String"] [.other "String"] _ _ rfl rfl rfl
      (.library "String" (.ext "String" 7) (by decide) (by decide) (by decide +kernel) .nil) .nil)) .nil

/-- The old client calls `add`, and the new server calls the function `plus`. -/
example : ∃ P R Q C dv, Rust.Emits renamedRpc P ∧ Rust.EmitsRpc renamedRpc R ∧ Dart.Emits testExt rpcSchema Q ∧
    Dart.EmitsRpc testExt rpcSchema C ∧ Exchanged testExt LE.wire rpcSchema [.other "Point"] [pt 3] [dv] ∧
    ∃ vs' N, ∀ k, N ≤ k → ∃ mem sent,
      Dart.callMethod LE.dart Q k (-1) (· + 1) C (fun old bs => bs ++ old.drop bs.length)
        (loopSync (codecAt LE.rust (P.withArgs R) k) (fun old bs => bs ++ old.drop bs.length)
          (fun _ _ u => (.val (newPt 3), u + 1)) R.handlers [5, 0]) "add" [pt (-2), .int 5]
        ⟨.fresh, fun _ => ⟨[0, 8], [1, 2, 3]⟩, [], 7, []⟩
      = .ok (.val dv, ⟨.fresh, mem, sent, 8, [("plus", vs')]⟩) := by
  obtain ⟨outR, hR⟩ := renamedRpc_out
  obtain ⟨outD, hD⟩ := rpcSchema_dartOut
  obtain ⟨P, R, Q, C, h1, h2, h3, h4, h5⟩ := C94_sync_call testExt LE.rust LE.dart (-1) newRpcNames rpcSchema renamedRpc
    rpcSchema_system renamedRpc_ok renamedRpc_same rpcSchema_methods outR outD hR hD
  have hf : ⟨"add", 0, [⟨"p", .other "Point"⟩, ⟨"n", .integer "i64" 8 true⟩], some (.other "Point"), false, false⟩ ∈ methodsOf rpcSchema :=
    List.mem_cons_self ..
  obtain ⟨f', hf', hpos, hs, h5⟩ := h5 _ hf rfl (rpcSchema_portableMethod hf)
  obtain rfl : f' = ⟨"plus", 0, [⟨"a", .other "Pt"⟩, ⟨"k", .integer "i64" 8 true⟩], some (.other "Pt"), false, false⟩ := by
    simp only [renamedRpc, methodsOf, List.filterMap_cons, List.filterMap_nil, List.mem_cons, List.not_mem_nil, or_false] at hf'
    rcases hf' with rfl | rfl | rfl | rfl | rfl | rfl <;> simp at hpos ⊢
  obtain ⟨vs, vs', -, -, h6⟩ := h5 Nat (fun old bs => bs ++ old.drop bs.length)
    (fun old bs => ⟨_, rfl⟩) (fun _ _ u => (.val (newPt 3), u + 1)) (· + 1) ⟨.fresh, fun _ => ⟨[0, 8], [1, 2, 3]⟩, [], 7, []⟩
    [pt (-2), .int 5] [5, 0]
    ⟨[pt (-2), .int 5], pt_dart (by decide) ⟨.leaf _ _ _ _ (show -(2 ^ 63 : Int) ≤ 5 ∧ (5 : Int) < 2 ^ 63 by decide) .nil, .leaf _ _ _ _ _ rfl .nil⟩⟩ (by simp) (by
      intro a ha
      simp only [List.mem_cons, List.not_mem_nil, or_false] at ha
      rcases ha with rfl | rfl
      · exact ⟨⟨"extra", 5, [], none, false, false⟩, by simp [renamedRpc, methodsOf], rfl, rfl, fun _ => ⟨0, [8], rfl, by decide⟩⟩
      · exact ⟨_, hf', rfl, rfl, fun h => absurd rfl h⟩)
  obtain ⟨dv, h7, N, h8⟩ := h6 (some (pt 3)) (some (newPt 3)) rfl ⟨_, _, rfl, rfl, pt_same (by decide)⟩
    ⟨ptBytes 3 ++ [], _, rfl, pt_enc (by decide) .nil⟩
  cases dv with
  | none => simp [ExchangedResult] at h7
  | some dv =>
    obtain ⟨t, ht, h7⟩ := h7
    obtain rfl := Option.some.inj ht
    refine ⟨P, R, Q, C, dv, h1, h2, h3, h4, h7, vs', N, fun k hk => ?_⟩
    have e : testExt.camel "add" = "add" := by decide +kernel
    have := h8 k hk
    simp only [e] at this
    exact this

/-- The new server handles a request of the old version for `slow` with the function `later`. -/
example : ∃ P R, Rust.Emits renamedRpc P ∧ Rust.EmitsRpc renamedRpc R ∧ ∃ hd, R.handlers.lookup 1 = some hd ∧ ∃ N, ∀ k, N ≤ k → ∃ m' t,
    Rust.runHandler (codecAt LE.rust (P.withArgs R) k) (fun old bs => bs ++ old.drop bs.length) (fun _ _ u => (.val (.int 9), u + 1)) hd
      ⟨[255] ++ LE.le 8 6 ++ (ptBytes 3 ++ []) ++ [1, 2], []⟩ 0 = .ok ⟨m', 0, [], [t], true⟩ ∧
    ∃ N', ∀ k', N' ≤ k' → ∃ n rest', Rust.runFuture (codecAt LE.rust (P.withArgs R) k') (fun old bs => bs ++ old.drop bs.length)
      (fun _ _ u => (.val (.int 9), u + 1)) (.val (.int 9)) n ⟨[], []⟩ 0 t
        = .ok (⟨[], [255] ++ LE.le 8 6 ++ (LE.le 8 9 ++ []) ++ rest'⟩, [("later", [newPt 3])]) := by
  obtain ⟨outR, hR⟩ := renamedRpc_out
  obtain ⟨P, R, h1, h2, h3⟩ := C94_async_call LE.rust LE.rust_lawful newRpcNames rpcSchema renamedRpc rpcSchema_ok renamedRpc_ok
    renamedRpc_same rpcSchema_methods outR hR
  obtain ⟨f', hf', hpos, hs, hd, h4, h5⟩ := h3 ⟨"slow", 1, [⟨"p", .other "Point"⟩], some (.integer "i64" 8 true), false, true⟩
    (by simp [rpcSchema, methodsOf]) rfl rfl
  obtain rfl : f' = ⟨"later", 1, [⟨"q", .other "Pt"⟩], some (.integer "i64" 8 true), false, true⟩ := by
    simp only [renamedRpc, methodsOf, List.filterMap_cons, List.filterMap_nil, List.mem_cons, List.not_mem_nil, or_false] at hf'
    rcases hf' with rfl | rfl | rfl | rfl | rfl | rfl <;> simp at hpos ⊢
  obtain ⟨N, h6⟩ := h5 Nat (fun old bs => bs ++ old.drop bs.length) (fun old bs => ⟨_, rfl⟩) (fun _ _ u => (.val (.int 9), u + 1))
    ⟨[255] ++ LE.le 8 6 ++ (ptBytes 3 ++ []) ++ [1, 2], []⟩ 0 6 [pt 3] [newPt 3] ([255] ++ LE.le 8 6 ++ (ptBytes 3 ++ [])) [1, 2]
    ⟨rfl, [255], LE.le 8 6, ptBytes 3 ++ [], by decide +kernel, (by decide +kernel : LE.wire.prim "i64" (.int 6) = some (LE.le 8 6)), pt_enc (by decide) .nil, rfl⟩ rfl
    (pt_same (by decide))
  refine ⟨P, R, h1, h2, hd, h4, N, fun k hk => ?_⟩
  obtain ⟨m', t, h7, h8⟩ := h6 k hk
  obtain ⟨N', h9⟩ := h8 (.val (.int 9)) (some (.int 9)) (some (.int 9)) ([255] ++ LE.le 8 6 ++ (LE.le 8 9 ++ [])) rfl
    ⟨_, _, rfl, rfl, .builtin _ _ (show -(2 ^ 63 : Int) ≤ 9 ∧ (9 : Int) < 2 ^ 63 by decide) .nil⟩
    ⟨[255], LE.le 8 6, LE.le 8 9 ++ [], by decide +kernel, (by decide +kernel : LE.wire.prim "i64" (.int 6) = some (LE.le 8 6)),
      ⟨_, rfl, .leaf _ "i64" _ _ _ _ _ rfl (by decide +kernel) .nil⟩, rfl⟩
  exact ⟨m', t, h7, N', fun k' hk' => h9 k' hk' ⟨[], []⟩ 0⟩

/-- The hypotheses of the theorems about reads hold as well. -/
example : ∃ P R, Rust.Emits renamedRpc P ∧ Rust.EmitsRpc renamedRpc R ∧ ∃ hd, R.handlers.lookup 2 = some hd ∧ ∃ N, ∀ k, N ≤ k → ∃ rest,
    Rust.runHandler (codecAt LE.rust (P.withArgs R) k) (fun old bs => bs ++ old.drop bs.length) (fun _ _ u => (.opt (some (newPt 3)), u + 1)) hd
      ⟨[0, 8], [1, 2]⟩ 0 = .ok ⟨⟨[0, 8], [255] ++ [] ++ (ptBytes 3 ++ []) ++ rest⟩, 1, [("current", [])], [], true⟩ := by
  obtain ⟨outR, hR⟩ := renamedRpc_out
  obtain ⟨P, R, h1, h2, h3⟩ := C94_sync_read LE.rust LE.rust_lawful newRpcNames rpcSchema renamedRpc rpcSchema_ok renamedRpc_ok
    renamedRpc_same rpcSchema_methods outR hR
  obtain ⟨f', hf', hpos, hs, hd, h4, h5⟩ := h3 ⟨"now", 2, [], some (.other "Point"), true, false⟩ (by simp [rpcSchema, methodsOf]) rfl rfl _ rfl rfl
  obtain rfl : f' = ⟨"current", 2, [], some (.other "Pt"), true, false⟩ := by
    simp only [renamedRpc, methodsOf, List.filterMap_cons, List.filterMap_nil, List.mem_cons, List.not_mem_nil, or_false] at hf'
    rcases hf' with rfl | rfl | rfl | rfl | rfl | rfl <;> simp at hpos ⊢
  exact ⟨P, R, h1, h2, hd, h4, (h5 Nat (fun old bs => bs ++ old.drop bs.length) (fun old bs => ⟨_, rfl⟩)
    (fun _ _ u => (.opt (some (newPt 3)), u + 1)) ⟨[0, 8], [1, 2]⟩ 0).2 (pt 3) (newPt 3) _ rfl ⟨_, _, rfl, rfl, pt_same (by decide)⟩
    ⟨[255], [], ptBytes 3 ++ [], by decide +kernel, rfl, ⟨_, rfl, pt_enc (by decide) .nil⟩, rfl⟩⟩

/-! ## What names cannot do

Methods are told apart by their place, not by their name: when two methods with the same types trade places, calls of
old clients reach the other one. -/

/-- `fn keep(n: i64); fn erase(n: i64);` -/
def keepErase : List ASTNode :=
  [.directive (.value "namespace" ⟨.str "demo", .other "String"⟩), .directive (.value "id" ⟨.str "8b61", .other "String"⟩),
   .fn ⟨"keep", 0, [⟨"n", .integer "i64" 8 true⟩], none, false, false⟩, .fn ⟨"erase", 1, [⟨"n", .integer "i64" 8 true⟩], none, false, false⟩]

/-- `fn erase(n: i64); fn keep(n: i64);` -/
def eraseKeep : List ASTNode :=
  [.directive (.value "namespace" ⟨.str "demo", .other "String"⟩), .directive (.value "id" ⟨.str "8b61", .other "String"⟩),
   .fn ⟨"erase", 0, [⟨"n", .integer "i64" 8 true⟩], none, false, false⟩, .fn ⟨"keep", 1, [⟨"n", .integer "i64" 8 true⟩], none, false, false⟩]

theorem keepErase_wf : WFSchema 0 keepErase := by
  have h2 : WFType (.integer "i64" 8 true) := .name "i64"
  simp [keepErase, WFSchema, WFDecl, WFConst, fnCount, h2]
  trivial

theorem eraseKeep_wf : WFSchema 0 eraseKeep := by
  have h2 : WFType (.integer "i64" 8 true) := .name "i64"
  simp [eraseKeep, WFSchema, WFDecl, WFConst, fnCount, h2]
  trivial

theorem keepErase_ok : RpcOk LE.wire keepErase where
  accepted := by
    obtain ⟨ts, _, h⟩ := C09_every_schema _ keepErase_wf
    exact ⟨_, h⟩
  named :=
    { types := by decide
      builtins := by decide
      fields := by simp [keepErase]
      variants := by simp [keepErase]
      payloads := by simp [keepErase]
      numbers := by simp [keepErase] }
  distinct := by simp [DistinctNumbers, keepErase]
  noClash := by simp [Rust.NoWriterClash, keepErase]
  rpcNamed := { methods := by decide, args := by decide, structs := by decide, locals := by decide }
  noExt := noExtArgs_LE _

theorem eraseKeep_ok : RpcOk LE.wire eraseKeep where
  accepted := by
    obtain ⟨ts, _, h⟩ := C09_every_schema _ eraseKeep_wf
    exact ⟨_, h⟩
  named :=
    { types := by decide
      builtins := by decide
      fields := by simp [eraseKeep]
      variants := by simp [eraseKeep]
      payloads := by simp [eraseKeep]
      numbers := by simp [eraseKeep] }
  distinct := by simp [DistinctNumbers, eraseKeep]
  noClash := by simp [Rust.NoWriterClash, eraseKeep]
  rpcNamed := { methods := by decide, args := by decide, structs := by decide, locals := by decide }
  noExt := noExtArgs_LE _

theorem keepErase_system : SystemOk testExt LE.rust LE.dart (-1) keepErase where
  rust := LE.rust_lawful
  dart := LE.dart_lawful
  server := keepErase_ok
  dartNamed :=
    { classes := by decide +kernel
      fields := by simp [keepErase]
      variants := by simp [keepErase]
      payloads := by simp [keepErase]
      plain := by decide +kernel
      lists := by decide +kernel
      structLib := by simp [keepErase]
      enumLib := by simp [keepErase] }
  client := { members := by decide +kernel, rotate := by decide +kernel, params := by decide +kernel, locals := by decide +kernel }
  defaults := ⟨⟨fun _ => 0, by simp [keepErase, declName]⟩, by simp [keepErase]⟩
  portable := ⟨by simp [keepErase], by simp [keepErase], by simp [keepErase]⟩
  agree := LE.agree
  status := LE_status

theorem keepErase_same : SameInterface (fun _ _ => False) keepErase eraseKeep where
  types := ⟨by simp [keepErase], by simp [keepErase]⟩
  directives := rfl
  methods := by
    intro i f hf
    match i with
    | 0 =>
      obtain rfl := Option.some.inj hf
      exact ⟨_, rfl, rfl, rfl, sameTys_mk (.builtin _ rfl) ⟨rfl, by simp⟩, .inl ⟨rfl, rfl⟩⟩
    | 1 =>
      obtain rfl := Option.some.inj hf
      exact ⟨_, rfl, rfl, rfl, sameTys_mk (.builtin _ rfl) ⟨rfl, by simp⟩, .inl ⟨rfl, rfl⟩⟩
    | k + 2 => simp [keepErase, methodsOf] at hf

/-- **C94, swapped methods.** A client generated before two methods with the same types traded places calls `keep(n)`:
the server generated afterwards runs `erase(n)`, once, whatever the user's functions do, and the call returns as if
nothing had happened. -/
theorem C94_swapped : ∃ P R Q C, Rust.Emits eraseKeep P ∧ Rust.EmitsRpc eraseKeep R ∧ Dart.Emits testExt keepErase Q ∧
    Dart.EmitsRpc testExt keepErase C ∧ ∀ (σ : Type) (lib : BufLib) (_ : lib.Lawful) (U : User σ) (u : σ) (n : Int),
      -(2 ^ 63) ≤ n ∧ n < 2 ^ 63 → (∀ vs, RetIs (U "erase" vs u).1 none) →
      ∃ N, ∀ k, N ≤ k → ∃ mem sent,
        Dart.callMethod LE.dart Q k (-1) (· + 1) C lib (loopSync (codecAt LE.rust (P.withArgs R) k) lib U R.handlers [0, 1]) "keep" [.int n]
          ⟨.fresh, fun _ => ⟨[0], [0]⟩, [], u, []⟩
        = .ok (.ofResult none, ⟨.fresh, mem, sent, (U "erase" [.int n] u).2, [("erase", [.int n])]⟩) := by
  obtain ⟨outR, hR⟩ : ∃ out, RustGen.rpc eraseKeep = .ok out := ⟨_, Rust.rpc_render _ (by simp [eraseKeep, findFnNodes]) _ rfl⟩
  obtain ⟨outD, hD⟩ : ∃ out, DartGen.rpcMethods testExt keepErase = .ok out :=
    ⟨_, Dart.rpc_render keepErase (fun f hf => Dart.sizedFn_of_wf keepErase_wf (by rwa [findFnNodes_eq] at hf))
      (by simp [keepErase, findFnNodes]) (by decide) "demo" "8b61" rfl rfl⟩
  obtain ⟨P, R, Q, C, h1, h2, h3, h4, h5⟩ := C94_sync_call testExt LE.rust LE.dart (-1) _ keepErase eraseKeep
    keepErase_system eraseKeep_ok keepErase_same (by simp [keepErase, methodsOf]) outR outD hR hD
  refine ⟨P, R, Q, C, h1, h2, h3, h4, fun σ lib hlib U u n hn hU => ?_⟩
  obtain ⟨f', hf', hpos, hs, h5⟩ := h5 ⟨"keep", 0, [⟨"n", .integer "i64" 8 true⟩], none, false, false⟩ (List.mem_cons_self ..) rfl
    ⟨by simp; exact ⟨.int _ _ _ (by simp [builtinTypes]), trivial⟩, by simp⟩
  obtain rfl : f' = ⟨"erase", 0, [⟨"n", .integer "i64" 8 true⟩], none, false, false⟩ := by
    simp only [eraseKeep, methodsOf, List.filterMap_cons, List.filterMap_nil, List.mem_cons, List.not_mem_nil, or_false] at hf'
    rcases hf' with rfl | rfl <;> simp at hpos ⊢
  obtain ⟨vs, vs', ⟨-, us, hx, hr⟩, hv, h6⟩ := h5 σ lib hlib U (· + 1) ⟨.fresh, fun _ => ⟨[0], [0]⟩, [], u, []⟩ [.int n] [0, 1]
    ⟨[.int n], .leaf _ _ _ _ hn .nil, .leaf _ _ _ _ _ rfl .nil⟩ (by simp) (by
      intro a ha
      simp only [List.mem_cons, List.not_mem_nil, or_false] at ha
      rcases ha with rfl | rfl
      · exact ⟨_, hf', rfl, rfl, fun h => absurd rfl h⟩
      · exact ⟨⟨"keep", 1, [⟨"n", .integer "i64" 8 true⟩], none, false, false⟩, by simp [eraseKeep, methodsOf], rfl, rfl,
          fun _ => ⟨0, [], rfl, by decide⟩⟩)
  obtain rfl : vs' = [.int n] := by
    simp only [List.map_cons, List.map_nil] at hx hr hv
    cases hv with
    | builtin _ v hl hv =>
      cases hv
      cases hx with
      | int _ _ _ m _ _ _ hx =>
        cases hx
        cases hr with
        | leaf _ _ _ _ _ _ hr =>
          cases hr
          have : asSigned 8 m = m := by
            exact if_pos hl.2
          rw [this]
  obtain ⟨dv, h7, N, h8⟩ := h6 none none (hU _) ⟨rfl, rfl⟩ ⟨[], rfl, rfl⟩
  cases dv with
  | some d => simp [ExchangedResult] at h7
  | none =>
    refine ⟨N, fun k hk => ?_⟩
    have e : testExt.camel "keep" = "keep" := by decide +kernel
    have := h8 k hk
    simp only [e] at this
    exact this

/-- Functions as `C94_swapped` asks for. -/
example : ∃ U : User Nat, ∀ vs, RetIs (U "erase" vs 0).1 none := ⟨fun _ _ u => (.unit, u), fun _ => by simp [RetIs]⟩

end TPB.Props
