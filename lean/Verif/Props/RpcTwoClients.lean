/-
Property theorems about two client objects on the same buffers: C97.
-/
import Verif.Props.RpcArguments
namespace TPB.Props
open Spec
open Rust (Buf Bufs BufLib setMem)
open Rpc
open Dart (ClientState Res)

/-- **C97.** Two client objects are created on the same buffers, and each calls the asynchronous method `f`, with any
arguments.  Both requests have the id 0, so nothing but the arguments tells them apart, and an answer with that id,
whichever request it belongs to, completes the calls of both clients with the same result. -/
theorem C97_two_clients (x : Ext) (rt : Dart.Runtime) (hrt : rt.Lawful) (S : List ASTNode) (hA : Accepted S) (hM : methodsOf S ≠ [])
    (hN : DartNamed x S) (hR : DartRpcNamed x S) (hD : HasDefaults S) (hU : DistinctNumbers S)
    (out : String) (hout : DartGen.rpcMethods x S = .ok out) (hd : Int) (rotate : Int → Int) :
    ∃ Q C, Dart.Emits x S Q ∧ Dart.EmitsRpc x S C ∧ ∀ f ∈ methodsOf S, f.isRead = false → f.isAsync = true →
      (∀ a ∈ f.args, LibraryFree S a.typeId) → ∃ t, t.addr = f.position ∧ t.buf = .client ∧
      ∀ us1 ds1 b1 us2 ds2 b2, Enc rt.wire (dartSchema S) ((f.args.map (·.typeId)).map dartView) us1 b1 →
        DRep x (dartSchema S) ((f.args.map (·.typeId)).map dartView) us1 ds1 →
        Enc rt.wire (dartSchema S) ((f.args.map (·.typeId)).map dartView) us2 b2 →
        DRep x (dartSchema S) ((f.args.map (·.typeId)).map dartView) us2 ds2 →
      ∀ sb mb u b, rt.wire.prim "Int8" (.int hd) = some sb → rt.wire.prim "Int64" (.int 0) = some mb → DartResult rt.wire S f u b →
      ∃ dv, ResultObject x S f u dv ∧ ∃ N, ∀ k, N ≤ k → ∀ (ω : Type) (lib : BufLib)
        (loop : (Nat → Bufs) → ω → Res ((Nat → Bufs) × ω)) (mem : Nat → Bufs) (rest : ω), ∃ w1 w1' w2 w2',
        Dart.Client.create rt Q k hd rotate C lib loop mem rest = .ok w1 ∧
        w1.client.tasks.lookup (readTask x f) = some t ∧
        Dart.callMethod rt Q k hd rotate C lib loop (x.camel f.id) ds1 w1 = .ok (.future 0, w1') ∧
        w1'.sent = [(f.position, .server, sb ++ mb ++ b1)] ∧
        Dart.Client.create rt Q k hd rotate C lib loop w1'.mem w1'.rest = .ok w2 ∧
        w2.client.tasks.lookup (readTask x f) = some t ∧
        Dart.callMethod rt Q k hd rotate C lib loop (x.camel f.id) ds2 w2 = .ok (.future 0, w2') ∧
        w2'.sent = [(f.position, .server, sb ++ mb ++ b2)] ∧
        ∀ (mem' : Nat → Bufs) (r : Bytes), (mem' f.position).client = sb ++ mb ++ b ++ r → ∃ s1 s2,
          Dart.runTask rt Q k hd C t mem' w1'.client = .ok s1 ∧ Completes x f 0 0 dv w1'.client s1 ∧
          Dart.runTask rt Q k hd C t mem' w2'.client = .ok s2 ∧ Completes x f 0 0 dv w2'.client s2 := by
  obtain ⟨ns, scope, hC, -⟩ := Dart.emitsRpc_of hA.wf hM hout
  refine ⟨_, _, Dart.emits_genProg hA, hC, fun f hf hr ha hl => ?_⟩
  have hp := Dart.plain_of_accepted hA
  obtain ⟨t, ht1, ht2, ht3, ht4⟩ := client_answer_core x rt hrt S hA hN hR hD hU hd rotate rfl (C := Dart.genClient x ns scope S) rfl f hf hr ha
  refine ⟨t, ht1, ht2, fun us1 ds1 b1 us2 ds2 b2 he1 hr1 he2 hr2 sb mb u b hsb hmb hu => ?_⟩
  obtain ⟨dv, hdv, N0, h0⟩ := ht4 0 sb mb u b hsb hmb hu
  obtain ⟨hl1, N1, hw1⟩ := Dart.args_write (hd := hd) hp hN hR hf hl he1 hr1
  obtain ⟨hl2, N2, hw2⟩ := Dart.args_write (hd := hd) hp hN hR hf hl he2 hr2
  refine ⟨dv, hdv, max N0 (max N1 N2), fun k hk ω lib loop mem rest => ?_⟩
  have look : ∀ mem rest, ∃ w, Dart.Client.create rt (Dart.genProg x S) k hd rotate (Dart.genClient x ns scope S) lib loop mem rest = .ok w ∧
      w.client.tasks.lookup (readTask x f) = some t ∧ w.sent = [] ∧ w.client.created = 0 ∧ (∀ v, w.client.last v = 0) ∧ w.client.done = [] := by
    intro mem rest
    obtain ⟨w, h1, h2⟩ := ht3 ω lib k loop mem rest
    have h3 := Dart.create_eq (rt := rt) (hd := hd) (rot := rotate) (lib := lib) (loop := loop) hR ns scope k mem rest
    rw [h1] at h3
    obtain rfl := Except.ok.inj h3
    exact ⟨_, h1, h2, rfl, rfl, fun _ => rfl, rfl⟩
  have hs := (Dart.wire_int hrt (by decide) hsb).1
  have hm := (Dart.wire_int hrt (by decide) hmb).1
  obtain ⟨w1, c1, k1, e1, n1, l1, d1⟩ := look mem rest
  have a1 := Dart.async_exec (rot := rotate) (lib := lib) (loop := loop) hR ns scope hf hr ha hl1 (w := w1) hs (by rw [l1]; exact hm) (hw1 k (by omega))
  obtain ⟨w2, c2, k2, e2, n2, l2, d2⟩ := look (setMem w1.mem f.position ((w1.mem f.position).set .server (lib (w1.mem f.position).server (sb ++ mb ++ b1)))) w1.rest
  have a2 := Dart.async_exec (rot := rotate) (lib := lib) (loop := loop) hR ns scope hf hr ha hl2 (w := w2) hs (by rw [l2]; exact hm) (hw2 k (by omega))
  rw [n1] at a1
  rw [n2] at a2
  refine ⟨w1, _, w2, _, c1, k1, a1, by simp [e1], c2, k2, a2, by simp [e2], fun mem' r hmem => ?_⟩
  have fin : ∀ w : Dart.World ω, w.client.created = 0 → (∀ v, w.client.last v = 0) → w.client.done = [] →
      ∃ s, Dart.runTask rt (Dart.genProg x S) k hd (Dart.genClient x ns scope S) t mem' (w.client.afterCall x rotate f) = .ok s ∧
        Completes x f 0 0 dv (w.client.afterCall x rotate f) s := by
    intro w hn hl hdn
    refine (h0 k (by omega) mem' r _ hmem).1 0 ?_ ?_
    · simp only [ClientState.afterCall, hl, hn]
      exact if_pos ⟨rfl, trivial⟩
    · simp [ClientState.afterCall, hdn]
  obtain ⟨s1, h1, h2⟩ := fin w1 n1 l1 d1
  obtain ⟨s2, h3, h4⟩ := fin w2 n2 l2 d2
  exact ⟨s1, s2, h1, h2, h3, h4⟩

/-- **C97, a client that is created again.** The client's buffer of the asynchronous method `f` still holds the answer to the
first call of an earlier client object, with any result, when a new client is created.  If the new client calls `f`, with any
arguments, then reading the buffer completes this call with the old result, although the server has done nothing
since: the write of the request leaves the answer in place. -/
theorem C97_created_again (x : Ext) (rt : Dart.Runtime) (hrt : rt.Lawful) (S : List ASTNode) (hA : Accepted S) (hM : methodsOf S ≠ [])
    (hN : DartNamed x S) (hR : DartRpcNamed x S) (hD : HasDefaults S) (hU : DistinctNumbers S)
    (out : String) (hout : DartGen.rpcMethods x S = .ok out) (hd : Int) (rotate : Int → Int) :
    ∃ Q C, Dart.Emits x S Q ∧ Dart.EmitsRpc x S C ∧ ∀ f ∈ methodsOf S, f.isRead = false → f.isAsync = true →
      (∀ a ∈ f.args, LibraryFree S a.typeId) → ∃ t, t.addr = f.position ∧ t.buf = .client ∧
      ∀ us ds b0, Enc rt.wire (dartSchema S) ((f.args.map (·.typeId)).map dartView) us b0 →
        DRep x (dartSchema S) ((f.args.map (·.typeId)).map dartView) us ds →
      ∀ sb mb u b, rt.wire.prim "Int8" (.int hd) = some sb → rt.wire.prim "Int64" (.int 0) = some mb → DartResult rt.wire S f u b →
      ∃ dv, ResultObject x S f u dv ∧ ∃ N, ∀ k, N ≤ k → ∀ (ω : Type) (lib : BufLib)
        (loop : (Nat → Bufs) → ω → Res ((Nat → Bufs) × ω)) (mem : Nat → Bufs) (rest : ω) (r : Bytes),
        (mem f.position).client = sb ++ mb ++ b ++ r → ∃ w w' s,
        Dart.Client.create rt Q k hd rotate C lib loop mem rest = .ok w ∧
        w.client.tasks.lookup (readTask x f) = some t ∧
        Dart.callMethod rt Q k hd rotate C lib loop (x.camel f.id) ds w = .ok (.future 0, w') ∧
        w'.rest = rest ∧ w'.sent = [(f.position, .server, sb ++ mb ++ b0)] ∧
        Dart.runTask rt Q k hd C t w'.mem w'.client = .ok s ∧ Completes x f 0 0 dv w'.client s := by
  obtain ⟨ns, scope, hC, -⟩ := Dart.emitsRpc_of hA.wf hM hout
  refine ⟨_, _, Dart.emits_genProg hA, hC, fun f hf hr ha hl => ?_⟩
  have hp := Dart.plain_of_accepted hA
  obtain ⟨t, ht1, ht2, ht3, ht4⟩ := client_answer_core x rt hrt S hA hN hR hD hU hd rotate rfl (C := Dart.genClient x ns scope S) rfl f hf hr ha
  refine ⟨t, ht1, ht2, fun us ds b0 he hr1 sb mb u b hsb hmb hu => ?_⟩
  obtain ⟨dv, hdv, N0, h0⟩ := ht4 0 sb mb u b hsb hmb hu
  obtain ⟨hl1, N1, hw1⟩ := Dart.args_write (hd := hd) hp hN hR hf hl he hr1
  refine ⟨dv, hdv, max N0 N1, fun k hk ω lib loop mem rest r hmem => ?_⟩
  obtain ⟨w, h1, h2⟩ := ht3 ω lib k loop mem rest
  have h3 := Dart.create_eq (rt := rt) (hd := hd) (rot := rotate) (lib := lib) (loop := loop) hR ns scope k mem rest
  have h1' := h1
  rw [h1] at h3
  obtain rfl := Except.ok.inj h3
  have hs := (Dart.wire_int hrt (by decide) hsb).1
  have hm := (Dart.wire_int hrt (by decide) hmb).1
  have a1 := Dart.async_exec (rot := rotate) (lib := lib) (loop := loop) hR ns scope hf hr ha hl1
    (w := ⟨{ ClientState.fresh with tasks := (methodsOf S).flatMap (Dart.taskOf x) }, mem, [], rest⟩) hs hm (hw1 k (by omega))
  obtain ⟨s, h4, h5⟩ := (h0 k (by omega) (setMem mem f.position ((mem f.position).set .server (lib (mem f.position).server (sb ++ mb ++ b0)))) r
    (ClientState.afterCall x rotate f { ClientState.fresh with tasks := (methodsOf S).flatMap (Dart.taskOf x) })
    (by simpa [setMem, Bufs.set] using hmem)).1 0 (by
      simp only [ClientState.afterCall]
      exact if_pos ⟨rfl, rfl⟩) (by simp [ClientState.afterCall, ClientState.fresh])
  exact ⟨_, _, s, h1', h2, a1, rfl, rfl, h4, h5⟩

theorem slow_enc (n : Int) (hn : -(2 ^ 31) ≤ n ∧ n < 2 ^ 31) : ∃ b, Enc LE.dart.wire (dartSchema rpcSchema) [.other "Point"] [pt n] b ∧
    DRep testExt (dartSchema rpcSchema) [.other "Point"] [pt n] [pt n] := by
  obtain ⟨h1, h2⟩ := pt_dart hn (ts := []) (us := []) (ds := []) ⟨.nil, .nil⟩
  obtain ⟨b, hb⟩ := Dart.hasTys_enc LE.dart_lawful rpcSchema_dartNamed (Dart.plain_of_accepted rpcSchema_accepted).types
    rpcSchema_portable.numbers h1 [.other "Point"] rfl (by
      simpa [slow] using (Dart.sizedFn_of_wf rpcSchema_wf slow_mem).1)
  exact ⟨b, hb, h2⟩

/-- `C97_two_clients` on the method `slow`: one client calls it with one point, the other with another one, and one answer,
with the result 7, completes both calls. -/
example : ∃ Q C t dv b1 b2 N, Dart.Emits testExt rpcSchema Q ∧ Dart.EmitsRpc testExt rpcSchema C ∧
    Enc LE.dart.wire (dartSchema rpcSchema) [.other "Point"] [pt 1] b1 ∧ Enc LE.dart.wire (dartSchema rpcSchema) [.other "Point"] [pt 2] b2 ∧
    ∀ k, N ≤ k → ∃ w1 w2 : Dart.World Unit,
      w1.sent = [(1, .server, [255] ++ LE.le 8 0 ++ b1)] ∧ w2.sent = [(1, .server, [255] ++ LE.le 8 0 ++ b2)] ∧ ∃ s1 s2,
        Dart.runTask LE.dart Q k (-1) C t (fun _ => ⟨[], [255] ++ LE.le 8 0 ++ LE.le 8 7⟩) w1.client = .ok s1 ∧ (0, dv) ∈ s1.done ∧
        Dart.runTask LE.dart Q k (-1) C t (fun _ => ⟨[], [255] ++ LE.le 8 0 ++ LE.le 8 7⟩) w2.client = .ok s2 ∧ (0, dv) ∈ s2.done := by
  obtain ⟨outD, hD⟩ := rpcSchema_dartOut
  obtain ⟨b1, he1, hr1⟩ := slow_enc 1 (by decide)
  obtain ⟨b2, he2, hr2⟩ := slow_enc 2 (by decide)
  obtain ⟨Q, C, hQ, hC, h⟩ := C97_two_clients testExt LE.dart LE.dart_lawful rpcSchema rpcSchema_ok.accepted rpcSchema_methods
    rpcSchema_dartNamed rpcSchema_client rpcSchema_system.defaults rpcSchema_ok.distinct outD hD (-1) (· + 1)
  obtain ⟨t, -, -, h⟩ := h slow slow_mem rfl rfl (fun a ha => ((rpcSchema_portableMethod slow_mem).args a ha).2)
  have e2 : LE.dart.wire.prim "Int64" (.int 7) = some (LE.le 8 7) := by decide +kernel
  obtain ⟨dv, -, N, h⟩ := h _ _ _ _ _ _ he1 hr1 he2 hr2 [255] (LE.le 8 0) (some (.int 7)) (LE.le 8 7 ++ []) (by decide +kernel) (by decide +kernel)
    ⟨.integer "i64" 8 true, rfl, trivial, .leaf _ "Int64" _ _ _ _ _ rfl e2 .nil⟩
  refine ⟨Q, C, t, dv, b1, b2, N, hQ, hC, he1, he2, fun k hk => ?_⟩
  obtain ⟨-, w1, -, w2, -, -, -, s1, -, -, -, s2, h⟩ := h k hk Unit overwrite (fun m w => .ok (m, w)) (fun _ => ⟨[], []⟩) ()
  obtain ⟨c1, c2, r1, f1, r2, f2⟩ := h (fun _ => ⟨[], [255] ++ LE.le 8 0 ++ LE.le 8 7⟩) [] (by simp)
  exact ⟨w1, w2, s1, s2, c1, c2, r1, by simp [f1.done], r2, by simp [f2.done]⟩

/-- `C97_created_again` on the method `slow`: the buffer holds an old answer with the result 7, which completes the first call
of a new client. -/
example : ∃ Q C t dv b N, Dart.Emits testExt rpcSchema Q ∧ Dart.EmitsRpc testExt rpcSchema C ∧
    Enc LE.dart.wire (dartSchema rpcSchema) [.other "Point"] [pt 1] b ∧ ∀ k, N ≤ k → ∃ (w : Dart.World Unit) (s : ClientState),
      w.sent = [(1, .server, [255] ++ LE.le 8 0 ++ b)] ∧ Dart.runTask LE.dart Q k (-1) C t w.mem w.client = .ok s ∧ (0, dv) ∈ s.done := by
  obtain ⟨outD, hD⟩ := rpcSchema_dartOut
  obtain ⟨b, he, hr⟩ := slow_enc 1 (by decide)
  obtain ⟨Q, C, hQ, hC, h⟩ := C97_created_again testExt LE.dart LE.dart_lawful rpcSchema rpcSchema_ok.accepted rpcSchema_methods
    rpcSchema_dartNamed rpcSchema_client rpcSchema_system.defaults rpcSchema_ok.distinct outD hD (-1) (· + 1)
  obtain ⟨t, -, -, h⟩ := h slow slow_mem rfl rfl (fun a ha => ((rpcSchema_portableMethod slow_mem).args a ha).2)
  have e2 : LE.dart.wire.prim "Int64" (.int 7) = some (LE.le 8 7) := by decide +kernel
  obtain ⟨dv, -, N, h⟩ := h _ _ _ he hr [255] (LE.le 8 0) (some (.int 7)) (LE.le 8 7 ++ []) (by decide +kernel) (by decide +kernel)
    ⟨.integer "i64" 8 true, rfl, trivial, .leaf _ "Int64" _ _ _ _ _ rfl e2 .nil⟩
  refine ⟨Q, C, t, dv, b, N, hQ, hC, he, fun k hk => ?_⟩
  obtain ⟨-, w, s, -, -, -, -, h1, h2, h3⟩ := h k hk Unit overwrite (fun m w => .ok (m, w)) (fun _ => ⟨[], [255] ++ LE.le 8 0 ++ LE.le 8 7⟩) () []
    (by simp)
  exact ⟨w, s, h1, h2, by simp [h3.done]⟩

end TPB.Props
