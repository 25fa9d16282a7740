/- C83: what the four generated sections say together, read without the trees they were printed from. -/
import Verif.Proofs.DartRpcReaderGen
import Verif.Proofs.DartRpcTypingTrim
import Verif.Proofs.RpcSystemTrim
import Verif.Props.DartReader
import Verif.Props.DartRpcTyping
import Verif.Props.RpcStream
import Verif.Props.RpcSystem
import Verif.Props.RustRpcReader
namespace TPB.Props
open Spec Rpc DartRpcReader
open Rust (Buf Bufs BufLib User setMem Act Ev Cfg RetIs codecAt yields)
open Dart (ClientState)

/-- The client class generated for a schema is read as `C`. -/
def ClientReads (x : Ext) (S : List ASTNode) (C : Dart.Client) : Prop :=
  ∃ t, DartGen.rpcMethods x S = .ok t ∧ readClient t = some C

/-- The names of the schema can be names in the text of all four sections. -/
structure NamesReadable (x : Ext) (S : List ASTNode) (ns scope : String) : Prop where
  rust : RpcReadable S
  dart : DartReader.DartReadable x S
  client : DartRpcReadable x S ns scope

/-- What is read from the four sections generated for a schema: types and codecs and the methods of the server in Rust, types and
codecs and the client class in Dart. -/
structure FilesRead (x : Ext) (S : List ASTNode) (P : Rust.Prog) (R : Rust.RpcSection) (Q : Dart.Prog) (C : Dart.Client) : Prop where
  rust : RustReads S P
  rpc : RpcReads S R
  dart : DartReads x S Q
  client : ClientReads x S C

section
variable {x : Ext} {S : List ASTNode} {ns scope : String}

theorem clientReads_iff (hS : HasClient S ns scope) (hR : DartRpcReadable x S ns scope) (C : Dart.Client) :
    ClientReads x S C ↔ C = (Dart.genClient x ns scope S).trim := by
  have h1 := (emitsDartRpc (x := x) hS).2.1
  have h2 := readClient_gen hS.accepted.wf hR
  unfold ClientReads
  constructor
  · rintro ⟨t, ht, h3⟩
    rw [h1] at ht
    cases ht
    rw [h2] at h3
    exact (Option.some.inj h3).symm
  · rintro rfl
    exact ⟨_, h1, h2 _⟩

theorem hasClient_scope (hS : HasClient S ns scope) : Rust.scopeOf S = some scope := by
  obtain ⟨t, h⟩ := (directiveIs_iff ..).1 hS.id
  simp [Rust.scopeOf, h]

theorem filesRead_iff (hS : HasClient S ns scope) (hr : NamesReadable x S ns scope) (hn : RpcNamed S) (P : Rust.Prog)
    (R : Rust.RpcSection) (Q : Dart.Prog) (C : Dart.Client) : FilesRead x S P R Q C ↔
      P = Rust.genProg S ∧ R = (Rust.genRpc scope S).trim ∧ Q = Dart.genProg x S ∧ C = (Dart.genClient x ns scope S).trim := by
  rw [← rustReads_iff hS.accepted hr.rust.types, ← rpcReads_iff hS.accepted hr.rust hn hS.methods (hasClient_scope hS),
    ← dartReads_iff hS.accepted hr.dart, ← clientReads_iff hS hr.client]
  exact ⟨fun h => ⟨h.1, h.2, h.3, h.4⟩, fun h => ⟨h.1, h.2.1, h.2.2.1, h.2.2.2⟩⟩

/-- **C83 (partial).** The client class generated for a schema is read as one class, and so are the other sections, if
the names of the schema can be names in both languages.  Missing: other schemas, whose text is no Rust or no Dart
(`C59_keyword`, `C64_method_name`), ids with other characters, and arguments called `methodId` (`C65_method_id`). -/
theorem C83_is_read_partial (hS : HasClient S ns scope) (hr : NamesReadable x S ns scope) (hn : RpcNamed S) :
    ∃ P R Q C, FilesRead x S P R Q C ∧
      ∀ P' R' Q' C', FilesRead x S P' R' Q' C' → P' = P ∧ R' = R ∧ Q' = Q ∧ C' = C := by
  refine ⟨_, _, _, _, (filesRead_iff hS hr hn _ _ _ _).2 ⟨rfl, rfl, rfl, rfl⟩, fun P' R' Q' C' h => ?_⟩
  exact (filesRead_iff hS hr hn _ _ _ _).1 h

theorem accesses_trim (ss : List Dart.DStmt) : (Dart.trimD ss).filterMap access? = ss.filterMap access? := by
  induction ss with
  | nil => rfl
  | cons s ss ih =>
    cases s with
    | blank => exact ih
    | write y a b ws => cases y <;> exact congrArg (List.cons _) ih
    | loop => exact congrArg (List.cons _) ih
    | syncRead ty a b body => exact congrArg (List.cons _) ih
    | connect v a b body => exact congrArg (List.cons _) ih
    | _ => exact ih

/-- **C83, addresses (C31).** The server and the client that are read from the generated text use the same scope, and
the server registers the method with index `i` at the address `i`, where the methods of the client for it, and
no others, look for it. -/
theorem C83_addresses (hS : HasClient S ns scope) (hr : NamesReadable x S ns scope) (hn : RpcNamed S)
    (P : Rust.Prog) (R : Rust.RpcSection) (Q : Dart.Prog) (C : Dart.Client) (hF : FilesRead x S P R Q C) :
    R.scope = C.scope ∧
      R.regs.map (fun r => (r.addr, r.group, r.fn)) = (methodsOf S).zipIdx.map (fun p => (p.2, groupOf p.1, p.1.id)) ∧
      (∀ i f, (methodsOf S)[i]? = some f → ∃ h, R.handlers.lookup i = some h ∧ h.fn = f.id) ∧
      C.methods.map (fun m => (m.name, m.body.filterMap access?))
        = (methodsOf S).zipIdx.flatMap (fun p => clientAccesses x p.2 p.1) ∧
      C.connects = ((methodsOf S).filter (fun f => groupOf f ≠ .sync)).map (fun f => "_connect" ++ x.pascal f.id) := by
  obtain ⟨h1, h2, h3⟩ := C82_registration S hS.accepted hr.rust hn hS.methods R hF.rpc
  obtain ⟨rfl, rfl, rfl, rfl⟩ := (filesRead_iff hS hr hn _ _ _ _).1 hF
  refine ⟨rfl, ?_, fun i f hf => (h3 i f hf).2, ?_, gen_connects ns scope⟩
  · apply List.ext_getElem?
    intro i
    simp only [List.getElem?_map, List.getElem?_zipIdx, Option.map_map, Nat.zero_add]
    cases hi : (methodsOf S)[i]? with
    | none =>
      have : (Rust.genRpc scope S).trim.regs[i]? = none := by
        rw [List.getElem?_eq_none_iff] at hi ⊢
        omega
      rw [this]
      rfl
    | some f =>
      obtain ⟨⟨r, g1, g2, g3, g4⟩, -⟩ := h3 i f hi
      rw [g1]
      simp [g2, g3, g4]
  · rw [← gen_accesses hS.accepted ns scope]
    show ((Dart.genClient x ns scope S).methods.map Dart.DMethod.trim).map _ = _
    rw [List.map_map]
    congr 1
    funext m
    exact congrArg (Prod.mk m.name) (accesses_trim m.body)

/-- **C83, the Dart compiler (C64).** The file with the types, codecs and the client class that are read from the
generated text is accepted by the Dart compiler if and only if the names of the namespace, methods and arguments are
suitable. -/
theorem C83_typed (L : DartRules.DartLib) (hS : HasClient S ns scope) (hr : NamesReadable x S ns scope)
    (hT : DartRules.DartTypable x (L.hide (x.pascal ns ++ "RpcClient")) S)
    (hu : DartRules.RpcTypesUsable (L.hide (x.pascal ns ++ "RpcClient")) S)
    (Q : Dart.Prog) (C : Dart.Client) (hQ : DartReads x S Q) (hC : ClientReads x S C) :
    DartRules.DartRpcTyped L Q.items Q.codecs C ↔ DartRules.DartRpcTypable x S ns scope := by
  obtain rfl := (dartReads_iff hS.accepted hr.dart _).1 hQ
  obtain rfl := (clientReads_iff hS hr.client _).1 hC
  have hp := Dart.plain_of_accepted hS.accepted
  have ht := DartRules.clientTyped_trim (E := DartRules.env x (L.hide (x.pascal ns ++ "RpcClient")) S ns scope) (fun m hm => by
    obtain ⟨f, _, hm⟩ := List.mem_flatMap.1 hm
    exact DartRules.retLast_gen x f m hm)
  constructor
  · exact fun h => (DartRules.client_iff hp hT hu).1 (ht.1 h.2)
  · exact fun h => ⟨Dart.dart_typed hp hT, ht.2 ((DartRules.client_iff hp hT hu).2 h)⟩

end

section
variable {σ : Type} {Cd : Rust.Codec} {lib : BufLib} {U : User σ} {scope : String} {S : List ASTNode}

theorem lookup_trim_none : ∀ (l : List (Nat × Rust.Handler)) (a : Nat),
    (l.map (fun p => (p.1, p.2.trim))).lookup a = (l.lookup a).map Rust.Handler.trim
  | [], a => rfl
  | (b, q) :: l, a => by
    rw [List.map_cons, List.lookup_cons, List.lookup_cons]
    cases a == b with
    | true => rfl
    | false => exact lookup_trim_none l a

theorem loopSync_trim : ∀ (as : List Nat) (mem : Nat → Bufs) (w : σ × List (String × List Val)),
    loopSync Cd lib U (Rust.genRpc scope S).trim.handlers as mem w = loopSync Cd lib U (Rust.genRpc scope S).handlers as mem w
  | [], mem, w => rfl
  | a :: as, mem, w => by
    simp only [loopSync]
    cases hl : (Rust.genRpc scope S).handlers.lookup a with
    | none =>
      have : (Rust.genRpc scope S).trim.handlers.lookup a = none := by rw [Rust.handlers_trim, lookup_trim_none, hl]; rfl
      rw [this]
    | some hd =>
      obtain ⟨h1, h2⟩ := lookup_trim hl
      rw [h1]
      simp only
      rw [Rust.runHandler_trim h2]
      cases Rust.runHandler Cd lib U hd (mem a) w.1 with
      | error e => rfl
      | ok r => exact loopSync_trim as _ _

variable {rt : Dart.Runtime} {Q : Dart.Prog} {k : Nat} {hd : Int} {rot : Int → Int} {cl : Dart.Client}

theorem start_tidy {mem : Nat → Bufs} {u : σ} {s0 : Sys σ} (h : start lib rt Q k hd rot cl mem u = some s0) : s0.server.Tidy := by
  unfold start at h
  split at h
  · cases h
    exact ⟨by simp [Cfg.initial], by simp [Cfg.initial]⟩
  · simp at h

/-- The histories of the programs without empty lines as histories of those with them. -/
theorem system_trim {mem : Nat → Bufs} {u : σ} {s0 : Sys σ} (h0 : start lib rt Q k hd rot cl mem u = some s0) :
    start lib rt Q k hd rot cl.trim mem u = some s0.trim ∧
    ∀ xs s, sysActs Cd lib U (Rust.genRpc scope S).trim.handlers rt Q k hd rot cl.trim s0.trim xs = some s →
      ∃ ys d, (∀ y ∈ ys, y ∈ xs ∨ y.IsStep) ∧ (∀ n, ys.countP (SysAct.isCall n) = xs.countP (SysAct.isCall n)) ∧
        sysActs Cd lib U (Rust.genRpc scope S).handlers rt Q k hd rot cl s0 ys = some d ∧ d.trim = s := by
  refine ⟨by rw [start_trim, h0]; rfl, fun xs s hs => ?_⟩
  rw [Rust.handlers_trim] at hs
  obtain ⟨ys, d, h1, h2, h3, h4, -⟩ := sysActs_trim tidy_handlers xs s0 s (start_tidy h0) hs
  exact ⟨ys, d, h1, h2, h3, h4⟩

theorem readStep_trim {d : Sys σ} {v : String} {c : ClientState}
    (h : sysAct Cd lib U (Rust.genRpc scope S).handlers rt Q k hd rot cl d (.read v) = some { d with client := c }) :
    sysAct Cd lib U (Rust.genRpc scope S).trim.handlers rt Q k hd rot cl.trim d.trim (.read v)
      = some { d.trim with client := c.mapTasks Dart.trimTasks } := by
  rw [read_trim (regs := (Rust.genRpc scope S).handlers), h]
  rfl

theorem completes_trim {x : Ext} {f : FnNode} {i : Int} {n : Nat} {dv : Option Val} {s s' : ClientState} (g : Dart.Tasks → Dart.Tasks)
    (h : Completes x f i n dv s s') : Completes x f i n dv (s.mapTasks g) (s'.mapTasks g) :=
  ⟨h.done, h.removed, h.others, h.last, h.created, h.events, congrArg g h.tasks⟩

theorem adds_trim {name : String} {dv : Option Val} {s s' : ClientState} (g : Dart.Tasks → Dart.Tasks)
    (h : Adds cl name dv s s') : Adds cl.trim name dv (s.mapTasks g) (s'.mapTasks g) :=
  ⟨h.stream, h.streams, h.done, h.pending, h.last, h.created, congrArg g h.tasks⟩

theorem runTask_same {t : Dart.RTask} {mem : Nat → Bufs} {s s' : ClientState} (h : Dart.runTask rt Q k hd cl t mem s = .ok s') :
    Dart.runTask rt Q k hd cl.trim t.trim mem s = .ok s' := by
  have := Dart.runTask_trim rt Q k hd cl id t mem s
  refine (show _ = _ from this).trans ?_
  rw [h]
  rfl

end

/-- **C83, synchronous calls (C32).** For the programs that are read from the generated text: a call of a synchronous
method of the client calls the function of that method exactly once, with the values that the arguments stand for, and
returns an object that stands for the result. -/
theorem C83_sync_call (x : Ext) (rr : Rust.Runtime) (rt : Dart.Runtime) (hd : Int) (S : List ASTNode) (h : SystemOk x rr rt hd S)
    (ns scope : String) (hS : HasClient S ns scope) (hr : NamesReadable x S ns scope)
    (P : Rust.Prog) (R : Rust.RpcSection) (Q : Dart.Prog) (C : Dart.Client) (hF : FilesRead x S P R Q C) :
    ∀ f ∈ methodsOf S, groupOf f = .sync → PortableMethod S f →
      ∀ (σ : Type) (lib : BufLib) (_ : lib.Lawful) (U : User σ) (rotate : Int → Int)
        (w : Dart.World (σ × List (String × List Val))) (ds : List Val) (as : List Nat),
        DartArgs x rt.wire S f ds → f.position ∈ as →
        (∀ a ∈ as, ∃ g ∈ methodsOf S, groupOf g = .sync ∧ g.position = a ∧
          (g ≠ f → NoMessage (rr.readP "u8") (w.mem a).server)) →
        ∃ vs, Exchanged x rr.wire S (f.args.map (·.typeId)) vs ds ∧
          ∀ v, RetIs (U f.id vs w.rest.1).1 v → (∃ b, ResultIs rr.wire S f v b) →
          ∃ dv, ExchangedResult x rr.wire S f v dv ∧ ∃ N, ∀ k, N ≤ k → ∃ mem sent,
            Dart.callMethod rt Q k hd rotate C lib (loopSync (codecAt rr (P.withArgs R) k) lib U R.handlers as) (x.camel f.id) ds w
              = .ok (.ofResult dv, ⟨w.client, mem, sent, (U f.id vs w.rest.1).2, w.rest.2 ++ [(f.id, vs)]⟩) := by
  obtain ⟨rfl, rfl, rfl, rfl⟩ := (filesRead_iff hS hr h.server.rpcNamed _ _ _ _).1 hF
  intro f hf hg hp σ lib hlib U rotate w ds as h1 h2 h3
  obtain ⟨vs, h4, h5⟩ := client_call_core x rr rt hd S h (ns := ns) (scope := scope) (scope' := scope) rfl rfl rfl rfl f hf hg hp σ lib hlib U rotate w
    ds as h1 h2 h3
  refine ⟨vs, h4, fun v g1 g2 => ?_⟩
  obtain ⟨dv, h6, N, hN⟩ := h5 v g1 g2
  refine ⟨dv, h6, N, fun k hk => ?_⟩
  obtain ⟨m, sent, h7⟩ := hN k hk
  refine ⟨m, sent, ?_⟩
  have hg' : f.isRead = false ∧ f.isAsync = false := by
    unfold groupOf at hg
    cases hr : f.isRead <;> cases ha : f.isAsync <;> simp [hr, ha] at hg ⊢
  have hfind := Dart.find_method (m := Dart.genSync x f) h.client ns scope hf (by simp [Dart.genDMethods, hg'.1, hg'.2]) rfl
  rw [Dart.call_same, Rust.withArgs_trim]
  · rw [show loopSync (codecAt rr ((Rust.genProg S).withArgs (Rust.genRpc scope S)) k) lib U (Rust.genRpc scope S).trim.handlers as
      = loopSync (codecAt rr ((Rust.genProg S).withArgs (Rust.genRpc scope S)) k) lib U (Rust.genRpc scope S).handlers as from
        funext fun _ => funext fun _ => loopSync_trim as _ _]
    exact h7
  · intro m hm v a b body hb
    rw [show (x.camel f.id) = (Dart.genSync x f).name from rfl] at hm
    rw [hfind] at hm
    cases hm
    simp only [Dart.genSync, Dart.genSyncResult] at hb
    cases hret : f.returnTypeId <;> rw [hret] at hb <;> simp at hb

/-- **C83, the client side of answers (C34).** For the client that is read from the generated text: an answer with the
id of a pending call completes the future of that call and nothing else, and one with another id has no effect. -/
theorem C83_client_answer (x : Ext) (rt : Dart.Runtime) (hrt : rt.Lawful) (S : List ASTNode)
    (hN : DartNamed x S) (hR : DartRpcNamed x S) (hD : HasDefaults S) (hU : DistinctNumbers S) (hd : Int) (rotate : Int → Int)
    (ns scope : String) (hS : HasClient S ns scope) (hr : NamesReadable x S ns scope)
    (Q : Dart.Prog) (C : Dart.Client) (hQ : DartReads x S Q) (hC : ClientReads x S C) :
    ∀ f ∈ methodsOf S, f.isRead = false → f.isAsync = true →
      ∃ t, t.addr = f.position ∧ t.buf = .client ∧
      (∀ (ω : Type) (lib : BufLib) k loop mem (rest : ω), ∃ w,
        Dart.Client.create rt Q k hd rotate C lib loop mem rest = .ok w ∧ w.client.tasks.lookup (readTask x f) = some t) ∧
      ∀ i sb mb u b, rt.wire.prim "Int8" (.int hd) = some sb → rt.wire.prim "Int64" (.int i) = some mb → DartResult rt.wire S f u b →
        ∃ dv, ResultObject x S f u dv ∧ ∃ N, ∀ k, N ≤ k → ∀ (mem : Nat → Bufs) (rest : Bytes) (s : ClientState),
          (mem f.position).client = sb ++ mb ++ b ++ rest →
          (∀ n, s.pending (pendingMap x f) i = some n → n ∉ s.done.map (·.1) →
            ∃ s', Dart.runTask rt Q k hd C t mem s = .ok s' ∧ Completes x f i n dv s s') ∧
          (s.pending (pendingMap x f) i = none → Dart.runTask rt Q k hd C t mem s = .ok s) := by
  obtain rfl := (dartReads_iff hS.accepted hr.dart _).1 hQ
  obtain rfl := (clientReads_iff hS hr.client _).1 hC
  intro f hf h1 h2
  obtain ⟨t, h3, h4, h5, h6⟩ := client_answer_core x rt hrt S hS.accepted hN hR hD hU hd rotate (ns := ns) (scope := scope) rfl rfl f hf h1 h2
  refine ⟨t.trim, h3, h4, fun ω lib k loop mem rest => ?_, fun i sb mb u b g1 g2 g3 => ?_⟩
  · obtain ⟨w, g1, g2⟩ := h5 ω lib k loop mem rest
    refine ⟨_, by rw [Dart.create_trim, g1]; rfl, ?_⟩
    exact (Dart.trimTasks_lookup _ _).trans (by rw [g2]; rfl)
  · obtain ⟨dv, g4, N, g5⟩ := h6 i sb mb u b g1 g2 g3
    refine ⟨dv, g4, N, fun k hk mem rest s hm => ⟨fun n a1 a2 => ?_, fun a => runTask_same ((g5 k hk mem rest s hm).2 a)⟩⟩
    obtain ⟨s', a3, a4⟩ := (g5 k hk mem rest s hm).1 n a1 a2
    exact ⟨s', runTask_same a3, a4⟩

/-- **C83, asynchronous calls (C34).** For the programs that are read from the generated text, in every history: no
future is completed twice, every completed future belongs to a call and has the result of that call, and reading an
answer completes the future of the call it answers, if that is not completed yet. -/
theorem C83_calls_completed (x : Ext) (rr : Rust.Runtime) (rt : Dart.Runtime) (hd : Int) (S : List ASTNode) (h : SystemOk x rr rt hd S)
    (ns scope : String) (hS : HasClient S ns scope) (hr : NamesReadable x S ns scope)
    (P : Rust.Prog) (R : Rust.RpcSection) (Q : Dart.Prog) (C : Dart.Client) (hF : FilesRead x S P R Q C) :
    ∀ f ∈ methodsOf S, f.isRead = false → f.isAsync = true → PortableMethod S f →
      ∀ (σ : Type) (lib : BufLib) (_ : lib.Lawful) (U : User σ) (rotate : Int → Int) (mem : Nat → Bufs) (u : σ) (xs : List SysAct),
        NoMessage (rr.readP "u8") (mem f.position).server → NoMessage (rr.readP "u8") (mem f.position).client →
        (∀ bs, SysAct.server (.request f.position bs) ∉ xs) →
        (∀ bs, SysAct.server (.clear f.position bs) ∈ xs → ∀ r, NoMessage (rr.readP "u8") (bs ++ r)) →
        (∀ ds, SysAct.call (x.camel f.id) ds ∈ xs → DartArgs x rt.wire S f ds) →
        FreshIds rotate (xs.countP (SysAct.isCall (x.camel f.id))) →
        ∃ N, ∀ k, N ≤ k → ∃ s0, start lib rt Q k hd rotate C mem u = some s0 ∧
          ∀ s, sysActs (codecAt rr (P.withArgs R) k) lib U R.handlers rt Q k hd rotate C s0 xs = some s →
            Typed rr.wire S f s.server.log →
            (s.client.done.map (·.1)).Nodup ∧
            (∀ ds n dv, (x.camel f.id, ds, n) ∈ s.calls → (n, dv) ∈ s.client.done → CallResult x rr.wire S f s.server.log ds dv) ∧
            ∀ r0, rr.readP "u8" (s.server.mem f.position).client = some (.int 255, r0) →
              ∃ ds n dv c, (x.camel f.id, ds, n) ∈ s.calls ∧ CallResult x rr.wire S f s.server.log ds dv ∧
                sysAct (codecAt rr (P.withArgs R) k) lib U R.handlers rt Q k hd rotate C s (.read (readTask x f)) = some { s with client := c } ∧
                ((n ∉ s.client.done.map (·.1) ∧ ∃ i, s.client.pending (pendingMap x f) i = some n ∧ Completes x f i n dv s.client c) ∨
                  (n ∈ s.client.done.map (·.1) ∧ c = s.client)) := by
  obtain ⟨rfl, rfl, rfl, rfl⟩ := (filesRead_iff hS hr h.server.rpcNamed _ _ _ _).1 hF
  intro f hf h1 h2 hp σ lib hlib U rotate mem u xs a1 a2 a3 a4 a5 a6
  obtain ⟨N, hN⟩ := calls_completed_core x rr rt hd S h (ns := ns) (scope := scope) (sc := scope) rfl rfl rfl rfl f hf h1 h2 hp σ lib hlib U rotate mem u
    xs a1 a2 a3 a4 a5 a6
  refine ⟨N, fun k hk => ?_⟩
  obtain ⟨s0, h0, hact⟩ := hN k hk
  rw [Rust.withArgs_trim]
  obtain ⟨h0', htr⟩ := system_trim (scope := scope) (S := S) (U := U)
    (Cd := codecAt rr ((Rust.genProg S).withArgs (Rust.genRpc scope S)) k) h0
  refine ⟨_, h0', fun s hs hty => ?_⟩
  obtain ⟨ys, d, b1, b2, b3, rfl⟩ := htr xs s hs
  obtain ⟨c1, c2, c3⟩ := hact ys d b1 (Nat.le_of_eq (b2 _)) b3 hty
  refine ⟨c1, c2, fun r0 hr0 => ?_⟩
  obtain ⟨ds, n, dv, c, d1, d2, d3, d4⟩ := c3 r0 hr0
  refine ⟨ds, n, dv, _, d1, d2, readStep_trim d3, ?_⟩
  rcases d4 with ⟨d4, i, d5, d6⟩ | ⟨d4, d5⟩
  · exact .inl ⟨d4, i, d5, completes_trim _ d6⟩
  · exact .inr ⟨d4, congrArg (ClientState.mapTasks Dart.trimTasks) d5⟩

/-- **C83, delivery (C35, partial).** For the programs that are read from the generated text, in every history: an
answer that is in the client buffer of the method when its task runs completes the future of its call.  Missing: an
answer that is overwritten before that is lost (`C35_answer_is_lost`). -/
theorem C83_delivered_partial (x : Ext) (rr : Rust.Runtime) (rt : Dart.Runtime) (hd : Int) (S : List ASTNode) (h : SystemOk x rr rt hd S)
    (ns scope : String) (hS : HasClient S ns scope) (hr : NamesReadable x S ns scope)
    (P : Rust.Prog) (R : Rust.RpcSection) (Q : Dart.Prog) (C : Dart.Client) (hF : FilesRead x S P R Q C) :
    ∀ f ∈ methodsOf S, f.isRead = false → f.isAsync = true → PortableMethod S f →
      ∀ (σ : Type) (lib : BufLib) (_ : lib.Lawful) (U : User σ) (rotate : Int → Int) (mem : Nat → Bufs) (u : σ) (xs : List SysAct),
        NoMessage (rr.readP "u8") (mem f.position).server → NoMessage (rr.readP "u8") (mem f.position).client →
        (∀ bs, SysAct.server (.request f.position bs) ∉ xs) →
        (∀ bs, SysAct.server (.clear f.position bs) ∈ xs → ∀ r, NoMessage (rr.readP "u8") (bs ++ r)) →
        (∀ ds, SysAct.call (x.camel f.id) ds ∈ xs → DartArgs x rt.wire S f ds) →
        FreshIds rotate (xs.countP (SysAct.isCall (x.camel f.id))) →
        ∃ N, ∀ k, N ≤ k → ∃ s0, start lib rt Q k hd rotate C mem u = some s0 ∧
          ∀ s, sysActs (codecAt rr (P.withArgs R) k) lib U R.handlers rt Q k hd rotate C s0 xs = some s →
            Typed rr.wire S f s.server.log →
            ∀ j ds n sb mb rest, (s.calls.filter (fun c => c.1 = x.camel f.id))[j]? = some (x.camel f.id, ds, n) →
              rr.wire.prim "u8" (.int 255) = some sb → rr.wire.prim "i64" (.int (idAt rotate j)) = some mb →
              (s.server.mem f.position).client = sb ++ mb ++ rest →
              ∃ c dv, sysAct (codecAt rr (P.withArgs R) k) lib U R.handlers rt Q k hd rotate C s (.read (readTask x f)) = some { s with client := c } ∧
                (n, dv) ∈ c.done ∧ CallResult x rr.wire S f s.server.log ds dv := by
  obtain ⟨rfl, rfl, rfl, rfl⟩ := (filesRead_iff hS hr h.server.rpcNamed _ _ _ _).1 hF
  intro f hf h1 h2 hp σ lib hlib U rotate mem u xs a1 a2 a3 a4 a5 a6
  obtain ⟨N, hN⟩ := delivered_core x rr rt hd S h (ns := ns) (scope := scope) (sc := scope) rfl rfl rfl rfl f hf h1 h2 hp σ lib hlib U rotate mem u
    xs a1 a2 a3 a4 a5 a6
  refine ⟨N, fun k hk => ?_⟩
  obtain ⟨s0, h0, hact⟩ := hN k hk
  rw [Rust.withArgs_trim]
  obtain ⟨h0', htr⟩ := system_trim (scope := scope) (S := S) (U := U)
    (Cd := codecAt rr ((Rust.genProg S).withArgs (Rust.genRpc scope S)) k) h0
  refine ⟨_, h0', fun s hs hty j ds n sb mb rest e1 e2 e3 e4 => ?_⟩
  obtain ⟨ys, d, b1, b2, b3, rfl⟩ := htr xs s hs
  obtain ⟨c, dv, d1, d2, d3⟩ := hact ys d b1 (Nat.le_of_eq (b2 _)) b3 hty j ds n sb mb rest e1 e2 e3 e4
  exact ⟨_, dv, readStep_trim d1, d2, d3⟩

/-- **C83, the client side of streams (C58).** -/
theorem C83_client_stream (x : Ext) (rt : Dart.Runtime) (hrt : rt.Lawful) (S : List ASTNode)
    (hN : DartNamed x S) (hR : DartRpcNamed x S) (hD : HasDefaults S) (hU : DistinctNumbers S) (hd : Int) (rotate : Int → Int)
    (ns scope : String) (hS : HasClient S ns scope) (hr : NamesReadable x S ns scope)
    (Q : Dart.Prog) (C : Dart.Client) (hQ : DartReads x S Q) (hC : ClientReads x S C) :
    ∀ f ∈ methodsOf S, f.isRead = true →
      ∃ t, t.addr = f.position ∧ t.buf = .client ∧
      (∀ (ω : Type) (lib : BufLib) k loop mem (rest : ω), ∃ w,
        Dart.Client.create rt Q k hd rotate C lib loop mem rest = .ok w ∧ w.client.tasks.lookup (readTask x f) = some t ∧
          C.stream w.client (x.camel f.id) = some []) ∧
      (∀ sb u b, rt.wire.prim "Int8" (.int hd) = some sb → DartResult rt.wire S f u b →
        ∃ dv, ResultObject x S f u dv ∧ ∃ N, ∀ k, N ≤ k → ∀ (mem : Nat → Bufs) (rest : Bytes) (s : ClientState),
          (mem f.position).client = sb ++ b ++ rest →
          ∃ s', Dart.runTask rt Q k hd C t mem s = .ok s' ∧ Adds C (x.camel f.id) dv s s') ∧
      ∀ k (mem : Nat → Bufs) (s : ClientState) n r, rt.readP "Int8" (mem f.position).client = some (.int n, r) → n ≠ hd →
        Dart.runTask rt Q k hd C t mem s = .ok s := by
  obtain rfl := (dartReads_iff hS.accepted hr.dart _).1 hQ
  obtain rfl := (clientReads_iff hS hr.client _).1 hC
  intro f hf h1
  obtain ⟨t, h3, h4, h5, h6, h7⟩ := client_stream_core x rt hrt S hS.accepted hN hR hD hU hd rotate (ns := ns) (scope := scope) rfl rfl f hf h1
  refine ⟨t.trim, h3, h4, fun ω lib k loop mem rest => ?_, fun sb u b g1 g2 => ?_, fun k mem s n r g1 g2 => runTask_same (h7 k mem s n r g1 g2)⟩
  · obtain ⟨w, g1, g2, g3⟩ := h5 ω lib k loop mem rest
    refine ⟨w.mapTasks Dart.trimTasks, by rw [Dart.create_trim, g1]; rfl, ?_, g3⟩
    exact (Dart.trimTasks_lookup _ _).trans (by rw [g2]; rfl)
  · obtain ⟨dv, g4, N, g5⟩ := h6 sb u b g1 g2
    refine ⟨dv, g4, N, fun k hk mem rest s hm => ?_⟩
    obtain ⟨s', a3, a4⟩ := g5 k hk mem rest s hm
    exact ⟨s', runTask_same a3, adds_trim id a4⟩

/-- **C83, streams (C58, partial).** For the programs that are read from the generated text, in every history: the
stream of an asynchronous read holds objects for values that its function has returned, in that order, where values
may be missing or repeated. Missing: that values are neither missing nor repeated, which is not so (`C58_repeated`, `C58_lost`). -/
theorem C83_stream_partial (x : Ext) (rr : Rust.Runtime) (rt : Dart.Runtime) (hd : Int) (S : List ASTNode) (h : SystemOk x rr rt hd S)
    (ns scope : String) (hS : HasClient S ns scope) (hr : NamesReadable x S ns scope)
    (P : Rust.Prog) (R : Rust.RpcSection) (Q : Dart.Prog) (C : Dart.Client) (hF : FilesRead x S P R Q C) :
    ∀ f ∈ methodsOf S, f.isRead = true → f.isAsync = true → PortableMethod S f → ∀ t, f.returnTypeId = some t →
      ∀ (σ : Type) (lib : BufLib) (_ : lib.Lawful) (U : User σ) (rotate : Int → Int) (mem : Nat → Bufs) (u : σ) (xs : List SysAct),
        NoMessage (rr.readP "u8") (mem f.position).server → NoMessage (rr.readP "u8") (mem f.position).client →
        (∀ bs, SysAct.server (.request f.position bs) ∉ xs) →
        (∀ bs, SysAct.server (.clear f.position bs) ∈ xs → ∀ r, NoMessage (rr.readP "u8") (bs ++ r)) →
        ∃ N, ∀ k, N ≤ k → ∃ s0, start lib rt Q k hd rotate C mem u = some s0 ∧
          ∀ s, sysActs (codecAt rr (P.withArgs R) k) lib U R.handlers rt Q k hd rotate C s0 xs = some s →
            (∀ v ∈ yields f.position f.id s.server.log, ∃ b, Enc rr.wire S [t] [v] b) →
            (∃ ds, C.stream s.client (x.camel f.id) = some ds ∧
              Stutter (fun v dv => ExchangedResult x rr.wire S f (some v) dv) (yields f.position f.id s.server.log) ds) ∧
            ∀ r0, rr.readP "u8" (s.server.mem f.position).client = some (.int 255, r0) →
              ∃ v ∈ yields f.position f.id s.server.log, ∃ dv c, ExchangedResult x rr.wire S f (some v) dv ∧
                sysAct (codecAt rr (P.withArgs R) k) lib U R.handlers rt Q k hd rotate C s (.read (readTask x f)) = some { s with client := c } ∧
                Adds C (x.camel f.id) dv s.client c := by
  obtain ⟨rfl, rfl, rfl, rfl⟩ := (filesRead_iff hS hr h.server.rpcNamed _ _ _ _).1 hF
  intro f hf h1 h2 hp t ht σ lib hlib U rotate mem u xs a1 a2 a3 a4
  obtain ⟨N, hN⟩ := stream_core x rr rt hd S h (ns := ns) (scope := scope) (sc := scope) rfl rfl rfl rfl f hf h1 h2 hp t ht σ lib hlib U rotate mem u
    xs a1 a2 a3 a4
  refine ⟨N, fun k hk => ?_⟩
  obtain ⟨s0, h0, hact⟩ := hN k hk
  rw [Rust.withArgs_trim]
  obtain ⟨h0', htr⟩ := system_trim (scope := scope) (S := S) (U := U)
    (Cd := codecAt rr ((Rust.genProg S).withArgs (Rust.genRpc scope S)) k) h0
  refine ⟨_, h0', fun s hs hty => ?_⟩
  obtain ⟨ys, d, b1, b2, b3, rfl⟩ := htr xs s hs
  obtain ⟨c1, c2⟩ := hact ys d b1 b3 hty
  refine ⟨c1, fun r0 hr0 => ?_⟩
  obtain ⟨v, hv, dv, c, d1, d2, d3⟩ := c2 r0 hr0
  exact ⟨v, hv, dv, _, d1, readStep_trim d2, adds_trim _ d3⟩

/-! ### The hypotheses can be met -/

theorem rpcSchema_namesReadable : NamesReadable testExt rpcSchema "demo" "8b61" where
  rust := rpcSchema_readable
  dart := readable_of_typable rpcSchema_dartTypable (by
    have : ∀ d ∈ rpcSchema, ∀ t ∈ directTypes d, ∀ w ∈ typeWords t, isIdent w = true ∧ ¬ w ∈ DartRules.dartReserved := by
      decide +kernel
    exact this)
  client := by
    refine ⟨by unfold DartRules.DartName; decide +kernel, ⟨["8b61"], by simp, by decide +kernel, rfl⟩, ?_, ?_, ?_⟩
    · unfold DartRules.DartName; decide +kernel
    · unfold DartRules.DartName; decide +kernel
    · have : ∀ f ∈ methodsOf rpcSchema, ∀ w ∈ (match f.returnTypeId with | some t => typeWords t | none => []),
          isIdent w = true ∧ w ∉ DartRules.dartReserved ∧ w ≠ "Future" := by decide +kernel
      intro f hf t ht w hw
      have := this f hf w (by rw [ht]; exact hw)
      exact ⟨⟨this.1, this.2.1⟩, this.2.2⟩

theorem rpcSchema_files : ∃ P R Q C, FilesRead testExt rpcSchema P R Q C := by
  obtain ⟨P, R, Q, C, h, -⟩ := C83_is_read_partial rpcSchema_hasClient rpcSchema_namesReadable rpcSchema_rpcNamed
  exact ⟨P, R, Q, C, h⟩

/-- What the methods of the client read from the text of the example schema access. -/
example : ∃ P R Q C, FilesRead testExt rpcSchema P R Q C ∧ R.scope = C.scope ∧
    C.methods.map (fun m => (m.name, m.body.filterMap access?)) =
      [("add", [.syncWrite 0 .server, .runSyncGroup, .syncRead 0 .client]), ("_connectSlow", [.readTask 1 .client]),
       ("slow", [.write 1 .server]), ("_connectNow", [.readTask 2 .client]), ("_connectTicks", [.readTask 3 .client]),
       ("ping", [.syncWrite 4 .server, .runSyncGroup])] := by
  obtain ⟨P, R, Q, C, h⟩ := rpcSchema_files
  obtain ⟨h1, -, -, h2, -⟩ := C83_addresses rpcSchema_hasClient rpcSchema_namesReadable rpcSchema_rpcNamed P R Q C h
  refine ⟨P, R, Q, C, h, h1, h2.trans ?_⟩
  decide +kernel

/-- The file that is read from the text of the example schema is accepted. -/
example : ∃ P R Q C, FilesRead testExt rpcSchema P R Q C ∧ DartRules.DartRpcTyped exampleLib Q.items Q.codecs C := by
  have e : testExt.pascal "demo" ++ "RpcClient" = "DemoRpcClient" := by decide +kernel
  obtain ⟨P, R, Q, C, h⟩ := rpcSchema_files
  refine ⟨P, R, Q, C, h, (C83_typed exampleLib rpcSchema_hasClient rpcSchema_namesReadable ?_ ?_ Q C h.dart h.client).2 rpcSchema_rpcTypable⟩
  · rw [e, exampleLib_hide]; exact rpcSchema_dartTypable
  · rw [e, exampleLib_hide]; exact rpcSchema_usable

/-- Two calls of `slow`, each followed by a run of its handler; both futures start and yield, the second one
first. -/
def readTwoCalls : List SysAct :=
  [.call "slow" [pt 1], .server (.poll 1)] ++ List.replicate 5 (.server .stepH) ++ [.server .endH, .call "slow" [pt 2], .server (.poll 1)]
    ++ List.replicate 5 (.server .stepH) ++ [.server .endH, .server (.stepT 0), .server (.stepT 1), .server (.stepT 0), .server (.stepT 1),
      .server (.resume 1 (.val (.int 22))), .server (.resume 0 (.val (.int 11)))]

/-- The second future writes its answer, which the client reads twice; then the first future does. -/
def readAnswers : List SysAct :=
  [.server (.stepT 1), .read "_readSlowTask", .read "_readSlowTask", .server (.stepT 0), .read "_readSlowTask"]

/-- The history is possible for the programs that are read from the text; the futures are completed with the results of
their own calls. -/
example : ∀ P R Q C, FilesRead testExt rpcSchema P R Q C →
    ((start overwrite LE.dart Q 10 (-1) (· + 1) C (fun _ => ⟨[0], [0]⟩) 0).bind (fun s =>
        sysActs exampleCodec overwrite exampleUser R.handlers LE.dart Q 10 (-1) (· + 1) C s (readTwoCalls ++ readAnswers))).map
      (fun s => (s.calls.map (fun c => (c.1, c.2.2)), s.client.done.map (fun p => (p.1, p.2.bind intOf)), s.server.log.all intResult))
    = some ([("slow", 0), ("slow", 1)], [(1, some 22), (0, some 11)], true) := by
  intro P R Q C h
  obtain ⟨rfl, rfl, rfl, rfl⟩ := (filesRead_iff rpcSchema_hasClient rpcSchema_namesReadable rpcSchema_rpcNamed _ _ _ _).1 h
  decide +kernel

/-- It meets the assumptions of `C83_calls_completed`. -/
example : ∃ P R Q C, FilesRead testExt rpcSchema P R Q C ∧
    ∃ N, ∀ k, N ≤ k → ∃ s0, start overwrite LE.dart Q k (-1) (· + 1) C (fun _ => ⟨[0], [0]⟩) 0 = some s0 ∧
      ∀ s, sysActs (codecAt LE.rust (P.withArgs R) k) overwrite exampleUser R.handlers LE.dart Q k (-1) (· + 1) C s0
          (readTwoCalls ++ readAnswers) = some s →
        s.server.log.all intResult = true →
        ∀ ds n dv, ("slow", ds, n) ∈ s.calls → (n, dv) ∈ s.client.done → CallResult testExt LE.wire rpcSchema slow s.server.log ds dv := by
  obtain ⟨P, R, Q, C, h⟩ := rpcSchema_files
  obtain ⟨N, hN⟩ := C83_calls_completed testExt LE.rust LE.dart (-1) rpcSchema rpcSchema_system "demo" "8b61" rpcSchema_hasClient
    rpcSchema_namesReadable P R Q C h slow slow_mem rfl rfl (rpcSchema_portableMethod slow_mem) Nat overwrite overwrite_lawful exampleUser (· + 1)
    (fun _ => ⟨[0], [0]⟩) 0 (readTwoCalls ++ readAnswers) ⟨0, [], rfl, by decide⟩ ⟨0, [], rfl, by decide⟩
    (by simp [readTwoCalls, readAnswers]) (by simp [readTwoCalls, readAnswers])
    (by rw [slow_camel]; intro ds h; exact slow_args (by simpa [readTwoCalls, readAnswers] using h)) (succ_fresh (by rw [slow_camel]; decide))
  refine ⟨P, R, Q, C, h, N, fun k hk => ?_⟩
  obtain ⟨s0, h6, h7⟩ := hN k hk
  refine ⟨s0, h6, fun s hs ht => ?_⟩
  have := (h7 s hs (typed_of_ints ht)).2.1
  rw [slow_camel] at this
  exact this

end TPB.Props
