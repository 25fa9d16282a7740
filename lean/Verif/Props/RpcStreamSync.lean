/-
Property theorems about the streams of the emitted Dart client: C58 for synchronous read methods.
-/
import Verif.Proofs.RpcStreamSync
import Verif.Props.RpcStream
namespace TPB.Props
open Spec
open Rust (RetIs Buf Bufs BufLib User setMem codecAt Act Ev Ret recording returned Record)
open Rpc
open Dart (ClientState)

/-- **C58: the record.** Keeping a record of what the user's functions return changes nothing else: a history
is possible with the record if and only if it is possible without, and the states differ in the record only. -/
theorem C58_record (rr : Rust.Runtime) (rt : Dart.Runtime) (hd : Int) (rotate : Int → Int) (P : Rust.Prog) (R : Rust.RpcSection) (Q : Dart.Prog)
    (C : Dart.Client) (σ : Type) (lib : BufLib) (U : User σ) (k : Nat) (mem : Nat → Bufs) (u : σ) :
    (start lib rt Q k hd rotate C mem (u, ([] : Record))).map Sys.forget = start lib rt Q k hd rotate C mem u ∧
    ∀ (s : Sys (σ × Record)) (xs : List SysAct),
      (sysActs (codecAt rr (P.withArgs R) k) lib (recording U) R.handlers rt Q k hd rotate C s xs).map Sys.forget =
        sysActs (codecAt rr (P.withArgs R) k) lib U R.handlers rt Q k hd rotate C s.forget xs :=
  ⟨start_recording Q C [], fun s xs => sysActs_recording _ _ Q C s xs⟩

/-- **C58 (partial), synchronous read methods.** Let a new client and a server on which nothing has happened
share the buffers, and let `xs` be any history of server steps, client calls and runs of the client's read
tasks.  Assumptions: the client buffer of the synchronous read method `f` holds no message at first, nobody
but the server writes a message to it, and the values that the user's function returns are values of its type.
Then the stream of `f` carries values that the user's function has returned, in the order in which it has
returned them.  Whenever the client buffer holds a message, it stands for such a value, and the read task, run
with enough stack, adds this value to the stream of `f` and changes nothing else.  Missing: a value can be
delivered more than once (`C58_sync_repeated`) and can be lost (`C58_sync_lost`). -/
theorem C58_sync_stream_partial (x : Ext) (rr : Rust.Runtime) (rt : Dart.Runtime) (hd : Int) (S : List ASTNode)
    (h : SystemOk x rr rt hd S) (hM : methodsOf S ≠ [])
    (outR outD : String) (hoR : RustGen.rpc S = .ok outR) (hoD : DartGen.rpcMethods x S = .ok outD) :
    ∃ P R Q C, Rust.Emits S P ∧ Rust.EmitsRpc S R ∧ Dart.Emits x S Q ∧ Dart.EmitsRpc x S C ∧
      ∀ f ∈ methodsOf S, f.isRead = true → f.isAsync = false → PortableMethod S f → ∀ t, f.returnTypeId = some t →
      ∀ (σ : Type) (lib : BufLib) (_ : lib.Lawful) (U : User σ) (rotate : Int → Int) (mem : Nat → Bufs) (u : σ) (xs : List SysAct) (k : Nat),
        NoMessage (rr.readP "u8") (mem f.position).client →
        (∀ bs, SysAct.server (.clear f.position bs) ∈ xs → ∀ r, NoMessage (rr.readP "u8") (bs ++ r)) →
        ∃ s0, start lib rt Q k hd rotate C mem (u, ([] : Record)) = some s0 ∧
          ∀ s, sysActs (codecAt rr (P.withArgs R) k) lib (recording U) R.handlers rt Q k hd rotate C s0 xs = some s →
            (∀ v ∈ returned f.id s.server.user.2, ∃ b, Enc rr.wire S [t] [v] b) →
            (∃ ds, C.stream s.client (x.camel f.id) = some ds ∧
              Stutter (fun v dv => ExchangedResult x rr.wire S f (some v) dv) (returned f.id s.server.user.2) ds) ∧
            ∀ r0, rr.readP "u8" (s.server.mem f.position).client = some (.int 255, r0) →
              ∃ v ∈ returned f.id s.server.user.2, ∃ dv, ExchangedResult x rr.wire S f (some v) dv ∧ ∃ N, ∀ j, N ≤ j → ∃ c,
                sysAct (codecAt rr (P.withArgs R) j) lib (recording U) R.handlers rt Q j hd rotate C s (.read (readTask x f)) = some { s with client := c } ∧
                Adds C (x.camel f.id) dv s.client c := by
  have hA := h.server.accepted
  obtain ⟨scope, hR⟩ := Rust.emitsRpc_of hA.wf hoR hM
  obtain ⟨ns, sc, hC, -⟩ := Dart.emitsRpc_of hA.wf hM hoD
  refine ⟨_, _, _, _, emits_genProg S hA, hR, Dart.emits_genProg hA, hC, ?_⟩
  intro f hf hr ha hp t ht σ lib hlib U rotate mem u xs k hmc hcl
  rw [Rust.withArgs_genProg]
  obtain ⟨st, hst⟩ := Rust.statusOk_codecAt h.rust
  obtain ⟨s0, h0, J0⟩ := sync_init (f := f) (t := t) (st := st) (lib := lib) (u := u) (rot := rotate) (k := k) h hmc ns sc
  refine ⟨s0, h0, fun s hs hty => ?_⟩
  have J := sync_acts h hf hp hr ha ht hst hlib hcl ns sc J0 hs hty
  obtain ⟨B, js, es, h1, h2, -, -, h3, h4⟩ := J.stream
  rw [List.nil_append] at h3
  rw [← h3] at h4
  refine ⟨⟨_, Dart.stream_eq h.client ns sc hf hr s.client, stutter_of h4 h2⟩, fun r0 hr0 => ?_⟩
  obtain ⟨i, v, d, b, rest, -, h6, h7, h8, ⟨N, h9⟩, -⟩ := SyncInv.value h hf hp ht hst hty h1 hr0
  refine ⟨v, List.mem_of_getElem? h6, some d, h7, N, fun j hj => ⟨_, ?_, adds_event h.client ns sc hf hr (some d) s.client⟩⟩
  simp only [sysAct, J.tasks, read_lookup h.client hf hr, Dart.runTask, Bufs.get, Dart.reader_add ns sc hf hr h8 (h9 j hj), bind, Except.bind]

/-! ### Example -/

/-- The method `read now -> Point` of the example schema. -/
def now : FnNode := ⟨"now", 2, [], some (.other "Point"), true, false⟩

theorem now_mem : now ∈ methodsOf rpcSchema := by simp [rpcSchema, methodsOf, now]

theorem now_camel : testExt.camel now.id = "now" := by decide +kernel

theorem now_task : readTask testExt now = "_readNowTask" := by decide +kernel

/-- `now` counts its calls and returns a point for every call but each third. -/
def clock : User Nat := fun f _ u =>
  match f with
  | "now" => (if u % 3 = 2 then .opt none else .opt (some (pt (Int.ofNat u))), u + 1)
  | _ => (.unit, u)

def runClock (xs : List SysAct) : Option (Sys (Nat × Record)) :=
  (start overwrite LE.dart (Dart.genProg testExt rpcSchema) 10 (-1) (· + 1) exampleClient (fun _ => ⟨[0], [0]⟩) (0, [])).bind
    (fun s => sysActs exampleCodec overwrite (recording clock) (Rust.genRpc "8b61" rpcSchema).handlers LE.dart (Dart.genProg testExt rpcSchema)
      10 (-1) (· + 1) exampleClient s xs)

/-- The method `now` is polled: a value, or nothing. -/
def poll : List SysAct := [.server (.poll 2)] ++ List.replicate 4 (.server .stepH) ++ [.server .endH]
def pollNothing : List SysAct := [.server (.poll 2)] ++ List.replicate 3 (.server .stepH) ++ [.server .endH]

def nowSeen (s : Sys (Nat × Record)) : Option (List (Option Int)) :=
  (exampleClient.stream s.client "now").map (·.map (fun d => d.bind pointOf))

def nowReturned (s : Sys (Nat × Record)) : List (Option Int) := (returned "now" s.server.user.2).map pointOf

/-- Four polls, three of which give a value; the read task runs after each value. -/
example : (runClock (poll ++ [.read "_readNowTask"] ++ poll ++ [.read "_readNowTask"] ++ pollNothing ++ poll ++ [.read "_readNowTask"])).map
    (fun s => (nowReturned s, nowSeen s)) = some ([some 0, some 1, some 3], some [some 0, some 1, some 3]) := by
  decide +kernel

/-- The history of the example meets the assumptions of C58. -/
example : (runClock (poll ++ [.read "_readNowTask"] ++ poll ++ [.read "_readNowTask"])).map
    (fun s => ((returned "now" s.server.user.2).all isPoint, nowSeen s)) = some (true, some [some 0, some 1]) := by
  decide +kernel

example : ∃ P R Q C, Rust.Emits rpcSchema P ∧ Rust.EmitsRpc rpcSchema R ∧ Dart.Emits testExt rpcSchema Q ∧ Dart.EmitsRpc testExt rpcSchema C ∧
    ∀ k, ∃ s0, start overwrite LE.dart Q k (-1) (· + 1) C (fun _ => ⟨[0], [0]⟩) (0, ([] : Record)) = some s0 ∧
      ∀ s, sysActs (codecAt LE.rust (P.withArgs R) k) overwrite (recording clock) R.handlers LE.dart Q k (-1) (· + 1) C s0
          (poll ++ [.read "_readNowTask"] ++ poll ++ [.read "_readNowTask"]) = some s →
        (returned "now" s.server.user.2).all isPoint = true →
        ∃ ds, C.stream s.client "now" = some ds ∧
          Stutter (fun v dv => ExchangedResult testExt LE.wire rpcSchema now (some v) dv) (returned "now" s.server.user.2) ds := by
  obtain ⟨outR, hR⟩ := rpcSchema_out
  obtain ⟨outD, hD⟩ := rpcSchema_dartOut
  obtain ⟨P, R, Q, C, h1, h2, h3, h4, h5⟩ := C58_sync_stream_partial testExt LE.rust LE.dart (-1) rpcSchema rpcSchema_system
    rpcSchema_methods outR outD hR hD
  refine ⟨P, R, Q, C, h1, h2, h3, h4, fun k => ?_⟩
  obtain ⟨s0, h6, h7⟩ := h5 now now_mem rfl rfl (rpcSchema_portableMethod now_mem) _ rfl Nat overwrite overwrite_lawful clock (· + 1)
    (fun _ => ⟨[0], [0]⟩) 0 (poll ++ [.read "_readNowTask"] ++ poll ++ [.read "_readNowTask"]) k ⟨0, [], rfl, by decide⟩ (by simp [poll])
  refine ⟨s0, h6, fun s hs ht => ?_⟩
  have := (h7 s hs (fun v hv => isPoint_enc (List.all_eq_true.1 ht v hv))).1
  rw [now_camel] at this
  exact this

/-! ### What does not hold -/

/-- **C58, refuted: repetition.** The value in the client buffer is seen whenever the read task runs; also when
the function has returned nothing in the meantime. -/
theorem C58_sync_repeated : (runClock (poll ++ poll ++ [.read "_readNowTask"] ++ pollNothing ++ [.read "_readNowTask"])).map
    (fun s => (nowReturned s, nowSeen s)) = some ([some 0, some 1], some [some 1, some 1]) := by
  decide +kernel

/-- **C58, refuted: loss.** The function returns two values before the read task runs: the stream carries the
second one only. -/
theorem C58_sync_lost : (runClock (poll ++ poll ++ [.read "_readNowTask"])).map
    (fun s => (nowReturned s, nowSeen s)) = some ([some 0, some 1], some [some 1]) := by
  decide +kernel

/-- **C58, refuted: loss, for every schema.** Take any history `xs` as in `C58_sync_stream_partial`, after which
the client buffer of the synchronous read method `f` holds the value with number `j` of those that the user's
function has returned.  Then whatever happens afterwards (`zs`), everything that is added to the stream of `f`
is this value or one that has been returned after it: an earlier value that has not been delivered by then is
lost. -/
theorem C58_sync_overwritten (x : Ext) (rr : Rust.Runtime) (rt : Dart.Runtime) (hd : Int) (S : List ASTNode)
    (h : SystemOk x rr rt hd S) (hM : methodsOf S ≠ [])
    (outR outD : String) (hoR : RustGen.rpc S = .ok outR) (hoD : DartGen.rpcMethods x S = .ok outD) :
    ∃ P R Q C, Rust.Emits S P ∧ Rust.EmitsRpc S R ∧ Dart.Emits x S Q ∧ Dart.EmitsRpc x S C ∧
      ∀ f ∈ methodsOf S, f.isRead = true → f.isAsync = false → PortableMethod S f → ∀ t, f.returnTypeId = some t →
      ∀ (σ : Type) (lib : BufLib) (_ : lib.Lawful) (U : User σ) (rotate : Int → Int) (mem : Nat → Bufs) (u : σ) (xs zs : List SysAct) (k : Nat),
        NoMessage (rr.readP "u8") (mem f.position).client →
        (∀ bs, SysAct.server (.clear f.position bs) ∈ xs ++ zs → ∀ r, NoMessage (rr.readP "u8") (bs ++ r)) →
        ∃ s0, start lib rt Q k hd rotate C mem (u, ([] : Record)) = some s0 ∧
          ∀ s s', sysActs (codecAt rr (P.withArgs R) k) lib (recording U) R.handlers rt Q k hd rotate C s0 xs = some s →
            sysActs (codecAt rr (P.withArgs R) k) lib (recording U) R.handlers rt Q k hd rotate C s zs = some s' →
            (∀ v ∈ returned f.id s'.server.user.2, ∃ b, Enc rr.wire S [t] [v] b) →
            ∀ sb j v b rest, rr.wire.prim "u8" (.int 255) = some sb → (returned f.id s.server.user.2)[j]? = some v →
              Enc rr.wire S [t] [v] b → (s.server.mem f.position).client = sb ++ b ++ rest →
              ∃ ds ds', C.stream s.client (x.camel f.id) = some ds ∧ C.stream s'.client (x.camel f.id) = some (ds ++ ds') ∧
                Stutter (fun v dv => ExchangedResult x rr.wire S f (some v) dv) ((returned f.id s'.server.user.2).drop j) ds' := by
  have hA := h.server.accepted
  obtain ⟨scope, hR⟩ := Rust.emitsRpc_of hA.wf hoR hM
  obtain ⟨ns, sc, hC, -⟩ := Dart.emitsRpc_of hA.wf hM hoD
  refine ⟨_, _, _, _, emits_genProg S hA, hR, Dart.emits_genProg hA, hC, ?_⟩
  intro f hf hr ha hp t ht σ lib hlib U rotate mem u xs zs k hmc hcl
  rw [Rust.withArgs_genProg]
  obtain ⟨st, hst⟩ := Rust.statusOk_codecAt h.rust
  obtain ⟨s0, h0, J0⟩ := sync_init (f := f) (t := t) (st := st) (lib := lib) (u := u) (rot := rotate) (k := k) h hmc ns sc
  refine ⟨s0, h0, fun s s' hs hs' hty sb j v b rest hsb hj hb hbuf => ?_⟩
  obtain ⟨ws, hws⟩ := sysActs_returned f.id hs'
  have J := sync_acts h hf hp hr ha ht hst hlib (fun bs hb => hcl bs (by simp [hb])) ns sc J0 hs
    (fun v hv => hty v (by rw [hws]; exact List.mem_append_left _ hv))
  have hjl := (List.getElem?_eq_some_iff.1 hj).1
  have J1 : SyncInv x rr S f t st k ((s.client.events.filter (fun e => e.1 = DartGen.varReadStreamController x f)).map (·.2)) j s := by
    refine ⟨J.tasks, ?_⟩
    obtain ⟨B, js, es, h1, -⟩ := J.stream
    refine ⟨j, [], [], ⟨h1.server, h1.tasks, h1.run, by omega, fun _ => ?_⟩, by simp, by simp, by simp, by simp, .nil⟩
    obtain ⟨M, hM⟩ := Rust.write_result hA.wf h.server.named h.server.noClash h.server.rpcNamed h.server.noExt
      ((Rust.wf_method hA.wf hf).2.1 t (by simp [ht])) hb
    exact ⟨j, v, b, rest, by simp, hj, ⟨M, by simp only [codecAt, hM M (Nat.le_refl _)]⟩,
      by simp only [hbuf, st_eq (hst (Rust.genProg (Rust.argsSchema S)) k) hsb]⟩
  have J2 := sync_acts h hf hp hr ha ht hst hlib (fun bs hb => hcl bs (by simp [hb])) ns sc J1 hs' hty
  obtain ⟨B, js, es, -, h2, h3, -, h4, h5⟩ := J2.stream
  refine ⟨_, es, Dart.stream_eq h.client ns sc hf hr s.client, ?_, stutter_from h5 h2 (fun i hi => (h3 i hi).1)⟩
  rw [Dart.stream_eq h.client ns sc hf hr, h4]

/-- The hypotheses of `C58_sync_overwritten` are met in the example after two polls: the buffer holds the second
value, which has the number 1; the first one is lost. -/
example : (runClock (poll ++ poll)).map (fun s => ((s.server.mem 2).client, nowReturned s, nowSeen s)) =
      some (255 :: (ptBytes 1 ++ []), [some 0, some 1], some []) ∧
    (runClock (poll ++ poll ++ ([.read "_readNowTask"] ++ pollNothing ++ poll ++ [.read "_readNowTask"]))).map
      (fun s => ((returned "now" s.server.user.2).all isPoint, nowSeen s)) = some (true, some [some 1, some 3]) := by
  refine ⟨by decide +kernel, by decide +kernel⟩

example : ∃ P R Q C, Rust.Emits rpcSchema P ∧ Rust.EmitsRpc rpcSchema R ∧ Dart.Emits testExt rpcSchema Q ∧ Dart.EmitsRpc testExt rpcSchema C ∧
    ∀ k, ∃ s0, start overwrite LE.dart Q k (-1) (· + 1) C (fun _ => ⟨[0], [0]⟩) (0, ([] : Record)) = some s0 ∧
      ∀ s s', sysActs (codecAt LE.rust (P.withArgs R) k) overwrite (recording clock) R.handlers LE.dart Q k (-1) (· + 1) C s0 (poll ++ poll) = some s →
        sysActs (codecAt LE.rust (P.withArgs R) k) overwrite (recording clock) R.handlers LE.dart Q k (-1) (· + 1) C s
          ([.read "_readNowTask"] ++ pollNothing ++ poll ++ [.read "_readNowTask"]) = some s' →
        (returned "now" s'.server.user.2).all isPoint = true → (returned "now" s.server.user.2)[1]? = some (pt 1) →
        (s.server.mem 2).client = 255 :: (ptBytes 1 ++ []) →
        ∃ ds ds', C.stream s.client "now" = some ds ∧ C.stream s'.client "now" = some (ds ++ ds') ∧
          Stutter (fun v dv => ExchangedResult testExt LE.wire rpcSchema now (some v) dv) ((returned "now" s'.server.user.2).drop 1) ds' := by
  obtain ⟨outR, hR⟩ := rpcSchema_out
  obtain ⟨outD, hD⟩ := rpcSchema_dartOut
  obtain ⟨P, R, Q, C, h1, h2, h3, h4, h5⟩ := C58_sync_overwritten testExt LE.rust LE.dart (-1) rpcSchema rpcSchema_system
    rpcSchema_methods outR outD hR hD
  refine ⟨P, R, Q, C, h1, h2, h3, h4, fun k => ?_⟩
  obtain ⟨s0, h6, h7⟩ := h5 now now_mem rfl rfl (rpcSchema_portableMethod now_mem) _ rfl Nat overwrite overwrite_lawful clock (· + 1)
    (fun _ => ⟨[0], [0]⟩) 0 (poll ++ poll) ([.read "_readNowTask"] ++ pollNothing ++ poll ++ [.read "_readNowTask"]) k
    ⟨0, [], rfl, by decide⟩ (by simp [poll, pollNothing])
  refine ⟨s0, h6, fun s s' hs hs' ht hv hb => ?_⟩
  have := h7 s s' hs hs' (fun v hv => isPoint_enc (List.all_eq_true.1 ht v hv)) [255] 1 (pt 1) (ptBytes 1 ++ []) [] (by decide +kernel) hv
    (pt_enc (by decide) .nil) (by simpa [now] using hb)
  rw [now_camel] at this
  exact this

end TPB.Props
