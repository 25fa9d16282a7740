/-
Property theorems about the emitted Dart client and its exchange with the emitted Rust server: C31
(addresses), C32 (synchronous calls).

`Dart.EmitsRpc x S C` says that the generated rpc section of the Dart file is the text of the class `C` and is
read as `C` (`Spec/DartRpcReader.lean`);
`callMethod` runs a method of the class on top of the runtime library (`Sem/DartRpcEval.lean`).
-/
import Verif.Proofs.DartRpcEmits
import Verif.Props.RpcServer
import Verif.Props.DartCodec
import Verif.Sem.LittleEndianDart
namespace TPB.Props
open Spec
open Rust (RetIs Buf Bufs BufLib User Group setMem codecAt runHandler genHandler)
open Rpc

/-- What is assumed of a schema and of the runtime libraries of both sides. -/
structure SystemOk (x : Ext) (rr : Rust.Runtime) (rt : Dart.Runtime) (hd : Int) (S : List ASTNode) : Prop where
  rust : rr.Lawful
  dart : rt.Lawful
  server : RpcOk rr.wire S
  dartNamed : DartNamed x S
  client : DartRpcNamed x S
  defaults : HasDefaults S
  portable : PortableSchema S
  agree : Agree rr.wire rt.wire
  status : SameStatus rr.wire rt.wire (rr.readP "u8") (rt.readP "Int8") hd

/-! ## The schema of the examples -/

theorem rpcSchema_dartNamed : DartNamed testExt rpcSchema where
  classes := by decide +kernel
  fields := by simp [rpcSchema, dartFieldNames]; decide +kernel
  variants := by simp [rpcSchema]
  payloads := by simp [rpcSchema]
  plain := by decide +kernel
  lists := by decide +kernel
  structLib := by simp [rpcSchema, fieldsOf, LibraryFree, dartElem]; decide +kernel
  enumLib := by simp [rpcSchema]

theorem rpcSchema_client : DartRpcNamed testExt rpcSchema where
  members := by decide +kernel
  rotate := by decide +kernel
  params := by decide +kernel
  locals := by decide +kernel

theorem rpcSchema_portable : PortableSchema rpcSchema where
  fields := by
    simp only [rpcSchema, List.mem_cons, ASTNode.struct.injEq, reduceCtorEq, List.not_mem_nil, or_false, false_or]
    rintro n rfl f hf
    simp [fieldsOf] at hf
    rcases hf with rfl | rfl
    · exact .int "i32" 4 true (by simp [builtinTypes])
    · exact .list "String" (.inr (by decide))
  payloads := by simp [rpcSchema]
  numbers := by simp [rpcSchema]

theorem LE_status : SameStatus LE.wire LE.dart.wire (LE.rust.readP "u8") (LE.dart.readP "Int8") (-1) where
  write := by decide +kernel
  read := by
    intro bs
    have e1 : builtinTypes.lookup "u8" = some (.integer "u8" 1 false) := rfl
    have e2 : dartPrims.lookup "Int8" = some (.integer "Int8" 1 true) := rfl
    simp only [LE.rust, LE.dart, e1, e2, LE.readOf]
    cases bs with
    | nil => simp [LE.unle]
    | cons b bs =>
      have hb : b.toNat < 256 := b.toNat_lt
      simp only [LE.unle, Nat.mul_zero, Nat.add_zero, Option.map_some, Option.some.injEq, Prod.mk.injEq, Val.int.injEq,
        exists_and_left, exists_eq', and_true, LE.toSigned]
      split <;> omega

theorem rpcSchema_system : SystemOk testExt LE.rust LE.dart (-1) rpcSchema where
  rust := LE.rust_lawful
  dart := LE.dart_lawful
  server := rpcSchema_ok
  dartNamed := rpcSchema_dartNamed
  client := rpcSchema_client
  defaults := ⟨⟨fun _ => 0, by simp [rpcSchema, declName, directTypes, fieldsOf, typeNames]⟩, by simp [rpcSchema]⟩
  portable := rpcSchema_portable
  agree := LE.agree
  status := LE_status

theorem rpcSchema_dartOut : ∃ out, DartGen.rpcMethods testExt rpcSchema = .ok out :=
  ⟨_, Dart.rpc_render rpcSchema (fun f hf => Dart.sizedFn_of_wf rpcSchema_wf (by rwa [findFnNodes_eq] at hf))
    (by simp [rpcSchema, findFnNodes]) (by decide) "demo" "8b61" rfl rfl⟩

theorem rpcSchema_portableMethod {f : FnNode} (hf : f ∈ methodsOf rpcSchema) : PortableMethod rpcSchema f := by
  have h1 : Portable rpcSchema (.other "Point") ∧ LibraryFree rpcSchema (.other "Point") :=
    ⟨.other _ (.inl (by decide)), by show "Point" ∉ variantClasses rpcSchema; decide +kernel⟩
  have h2 : Portable rpcSchema (.integer "i64" 8 true) ∧ LibraryFree rpcSchema (.integer "i64" 8 true) :=
    ⟨.int _ _ _ (by simp [builtinTypes]), trivial⟩
  simp only [rpcSchema, methodsOf, List.filterMap_cons, List.filterMap_nil, List.mem_cons, List.not_mem_nil, or_false] at hf
  rcases hf with rfl | rfl | rfl | rfl | rfl <;> constructor <;> simp [h1, h2]

theorem pt_dart {n : Int} (hx : -(2 ^ 31) ≤ n ∧ n < 2 ^ 31) {ts : List TypeId} {us ds : List Val}
    (h : HasTys LE.dart.wire (dartSchema rpcSchema) ts us ∧ DRep testExt (dartSchema rpcSchema) ts us ds) :
    HasTys LE.dart.wire (dartSchema rpcSchema) (.other "Point" :: ts) (pt n :: us) ∧
    DRep testExt (dartSchema rpcSchema) (.other "Point" :: ts) (pt n :: us) (pt n :: ds) := by
  have hm : ASTNode.struct ⟨"Point", [⟨0, "x", .integer "Int32" 4 true⟩, ⟨1, "tags", .generic "Vec" [.other "String"]⟩], true, true⟩
      ∈ dartSchema rpcSchema := by simp [rpcSchema, dartSchema, viewDecl, viewField, dartView, dartPrim, dartElem]
  constructor
  · exact .struct _ [.int n, .list 1 [.ext "String" 7]] _ _ hm
      (.leaf _ _ _ _ hx (.list "Vec" [.other "String"] 1 [.other "String"] _ _ _ rfl rfl
        (.ext _ _ _ _ (by decide) (by decide) .nil) .nil)) h.1
  · have := DRep.struct (x := testExt) _ [.int n, .list 1 [.ext "String" 7]] [.int n, .list 1 [.ext "String" 7]] _ _ _ hm
      (.leaf _ _ _ _ _ rfl (.list (.other "String") 1 [.ext "String" 7] [.ext "String" 7] _ _ _ (.ext _ _ _ _ _ (by decide) .nil) .nil)) h.2
    have e : dartFieldNames testExt ⟨"Point", [⟨0, "x", .integer "Int32" 4 true⟩, ⟨1, "tags", .generic "Vec" [.other "String"]⟩], true, true⟩
      = ["x", "tags"] := by decide +kernel
    rw [e] at this
    exact this

/-! ## C31: addresses -/

/-- What a method of the client class does with the buffers. -/
inductive Access where
  | syncWrite (addr : Nat) (b : Buf)
  | runSyncGroup
  | syncRead (addr : Nat) (b : Buf)
  | write (addr : Nat) (b : Buf)
  | readTask (addr : Nat) (b : Buf)
  deriving DecidableEq

def access? : Dart.DStmt → Option Access
  | .write true a b _ => some (.syncWrite a b)
  | .write false a b _ => some (.write a b)
  | .loop => some .runSyncGroup
  | .syncRead _ a b _ => some (.syncRead a b)
  | .connect _ a b _ => some (.readTask a b)
  | _ => none

/-- The methods that the client class must have for the method `f` with index `i`: a synchronous method
writes its request to the server buffer of the address `i`, runs the synchronous group and reads the client
buffer of the same address; an asynchronous method writes its request in the same way, and answers are read
by a task that reads the client buffer; a background read has only the task. -/
def clientAccesses (x : Ext) (i : Nat) (f : FnNode) : List (String × List Access) :=
  match groupOf f with
  | .sync => [(x.camel f.id, [.syncWrite i .server, .runSyncGroup] ++
      if f.returnTypeId.isSome then [.syncRead i .client] else [])]
  | .async => [("_connect" ++ x.pascal f.id, [.readTask i .client]), (x.camel f.id, [.write i .server])]
  | .read => [("_connect" ++ x.pascal f.id, [.readTask i .client])]

theorem flatMap_zipIdx {α β : Type} (g : α → Nat) (F : Nat → α → List β) : ∀ (l : List α) (n : Nat),
    l.map g = List.range' n l.length → l.flatMap (fun a => F (g a) a) = (l.zipIdx n).flatMap (fun p => F p.2 p.1)
  | [], _, _ => rfl
  | a :: l, n, h => by
    simp only [List.map_cons, List.length_cons, List.range'_succ, List.cons.injEq] at h
    simp only [List.flatMap_cons, List.zipIdx_cons, h.1]
    rw [flatMap_zipIdx g F l (n + 1) h.2]

theorem scopeOf_eq {S : List ASTNode} {scope : String} (h : DartGen.stringDirective S "id" = .ok scope) :
    Rust.scopeOf S = some scope := by
  unfold DartGen.stringDirective at h
  unfold Rust.scopeOf
  cases hv : findDirectiveValue S "id" with
  | none => simp [hv] at h
  | some v =>
    obtain ⟨l, t⟩ := v
    cases l <;> simp [hv] at h
    simp [h]

theorem position_eq {S : List ASTNode} (hA : Accepted S) {i : Nat} {f : FnNode} (hf : (methodsOf S)[i]? = some f) : f.position = i := by
  have h2 := congrArg (fun l => l[i]?) (wfSchema_positions S 0 hA.wf)
  have hi : i < (methodsOf S).length := (List.getElem?_eq_some_iff.1 hf).1
  simpa [List.getElem?_map, hf, List.getElem?_range' hi] using h2

theorem gen_accesses {x : Ext} {S : List ASTNode} (hA : Accepted S) (ns scope : String) :
    (Dart.genClient x ns scope S).methods.map (fun m => (m.name, m.body.filterMap access?))
      = (methodsOf S).zipIdx.flatMap (fun p => clientAccesses x p.2 p.1) := by
  simp only [Dart.genClient, findFnNodes_eq, List.map_flatMap]
  rw [← flatMap_zipIdx (·.position) (clientAccesses x) (methodsOf S) 0 (wfSchema_positions S 0 hA.wf)]
  congr 1
  funext f
  unfold Dart.genDMethods clientAccesses groupOf
  cases f.isRead <;> cases f.isAsync <;> simp [Dart.genSync, Dart.genAsync, Dart.genAsyncConnect, Dart.genReadConnect,
    Dart.genSyncResult, access?, Dart.connectName, List.filterMap_cons]
  cases f.returnTypeId <;> simp [access?, List.filterMap_cons]

theorem gen_connects {x : Ext} {S : List ASTNode} (ns scope : String) : (Dart.genClient x ns scope S).connects
    = ((methodsOf S).filter (fun f => groupOf f ≠ .sync)).map (fun f => "_connect" ++ x.pascal f.id) := by
  simp only [Dart.genClient, findFnNodes_eq]
  induction methodsOf S with
  | nil => rfl
  | cons f l ih =>
    simp only [List.flatMap_cons, List.filter_cons, ih]
    unfold Dart.genConnects groupOf
    cases f.isRead <;> cases f.isAsync <;> simp [Dart.connectName]

/-- **C31.** The emitted server and the emitted client use the same scope.  The server registers the method
with index `i` at the address `i` in the group of its kind, with the handler emitted for that method; and
the client class has exactly the methods described by `clientAccesses`, so that the client uses the address
`i` for the method with index `i` and for no other. -/
theorem C31_addresses_agree (x : Ext) (S : List ASTNode) (hA : Accepted S) (hn : ((methodsOf S).map (·.id)).Nodup)
    (hM : methodsOf S ≠ []) (outD : String) (hoD : DartGen.rpcMethods x S = .ok outD) :
    ∃ R C, Rust.EmitsRpc S R ∧ Dart.EmitsRpc x S C ∧ R.scope = C.scope ∧
      R.regs.map (fun r => (r.addr, r.group, r.fn)) = (methodsOf S).zipIdx.map (fun p => (p.2, groupOf p.1, p.1.id)) ∧
      (∀ i f, (methodsOf S)[i]? = some f → ∃ h, R.handlers.lookup i = some h ∧ h.fn = f.id) ∧
      C.methods.map (fun m => (m.name, m.body.filterMap access?))
        = (methodsOf S).zipIdx.flatMap (fun p => clientAccesses x p.2 p.1) ∧
      C.connects = ((methodsOf S).filter (fun f => groupOf f ≠ .sync)).map (fun f => "_connect" ++ x.pascal f.id) := by
  obtain ⟨ns, scope, hC, hs⟩ := Dart.emitsRpc_of hA.wf hM hoD
  have hR : Rust.EmitsRpc S (Rust.genRpc scope S) := Rust.emits_genRpc hA.wf hM (scopeOf_eq hs)
  refine ⟨_, _, hR, hC, rfl, ?_, ?_, ?_, ?_⟩
  · have key := flatMap_zipIdx (·.position) (fun i f => [(i, groupOf f, f.id)]) (methodsOf S) 0 (wfSchema_positions S 0 hA.wf)
    simp only [Rust.genRpc, findFnNodes_eq, List.map_map]
    rw [List.map_eq_flatMap, List.map_eq_flatMap, ← key]
    congr 1
    funext f
    unfold Function.comp Rust.genReg groupOf
    cases f.isRead <;> cases f.isAsync <;> rfl
  · intro i f hf
    rw [← position_eq hA hf]
    exact ⟨_, Rust.handlers_lookup scope hA.wf hn (List.mem_of_getElem? hf), Rust.genHandler_fn f⟩
  · exact gen_accesses hA ns scope
  · exact gen_connects ns scope

example : ∃ R C, Rust.EmitsRpc rpcSchema R ∧ Dart.EmitsRpc testExt rpcSchema C ∧ R.scope = C.scope ∧
    R.regs.map (fun r => (r.addr, r.group, r.fn)) =
      [(0, .sync, "add"), (1, .async, "slow"), (2, .read, "now"), (3, .read, "ticks"), (4, .sync, "ping")] ∧
    C.methods.map (fun m => (m.name, m.body.filterMap access?)) =
      [("add", [.syncWrite 0 .server, .runSyncGroup, .syncRead 0 .client]), ("_connectSlow", [.readTask 1 .client]),
       ("slow", [.write 1 .server]), ("_connectNow", [.readTask 2 .client]), ("_connectTicks", [.readTask 3 .client]),
       ("ping", [.syncWrite 4 .server, .runSyncGroup])] := by
  obtain ⟨outD, hD⟩ := rpcSchema_dartOut
  obtain ⟨R, C, h1, h2, h3, h4, -, h5, -⟩ :=
    C31_addresses_agree testExt _ rpcSchema_accepted rpcSchema_rpcNamed.methods rpcSchema_methods outD hD
  refine ⟨R, C, h1, h2, h3, h4.trans rfl, h5.trans ?_⟩
  decide +kernel

/-! ## C32: synchronous calls -/

section
variable {rr : Rust.Runtime} {S : List ASTNode} {σ : Type} {lib : BufLib} {U : User σ}

/-- The runtime runs the handlers of synchronous methods that have no request. -/
theorem loopSync_idle (hW : WFSchema 0 S) (hn : ((methodsOf S).map (·.id)).Nodup) (scope : String) (k : Nat) : ∀ (as : List Nat) (mem : Nat → Bufs)
    (w : σ × List (String × List Val)),
    (∀ a ∈ as, ∃ g ∈ methodsOf S, g.isRead = false ∧ g.position = a ∧ NoMessage (rr.readP "u8") (mem a).server) →
    loopSync (codecAt rr (Rust.genProg (Rust.argsSchema S)) k) lib U (Rust.genRpc scope S).handlers as mem w = .ok (mem, w)
  | [], _, _, _ => rfl
  | a :: as, mem, w, h => by
    obtain ⟨g, hg, hr, rfl, hno⟩ := h a (by simp)
    obtain ⟨i, r, h3, h4⟩ := readStatus_noMessage (P := Rust.genProg (Rust.argsSchema S)) (k := k) hno
    have hm : setMem mem g.position (mem g.position) = mem := by
      funext b
      simp only [setMem]
      split <;> simp_all
    simp only [loopSync, Rust.handlers_lookup scope hW hn hg, Rust.idle_run hr h3 h4, hm, List.append_nil]
    exact loopSync_idle hW hn scope k as mem w (fun b hb => h b (by simp [hb]))

/-- The runtime runs the handlers of synchronous methods, of which one has a request. -/
theorem loopSync_call (hW : WFSchema 0 S) (hn : ((methodsOf S).map (·.id)).Nodup) (scope : String) (k : Nat) {f : FnNode}
    (hf : f ∈ methodsOf S) {m' : Bufs} {u' : σ} {cs : List (String × List Val)} {ths : List Rust.Thread} {r : Bool} :
    ∀ (as : List Nat) (mem : Nat → Bufs) (w : σ × List (String × List Val)),
    runHandler (codecAt rr (Rust.genProg (Rust.argsSchema S)) k) lib U (genHandler f) (mem f.position) w.1 = .ok ⟨m', u', cs, ths, r⟩ →
    NoMessage (rr.readP "u8") m'.server → f.isRead = false →
    (∀ a ∈ as, ∃ g ∈ methodsOf S, g.isRead = false ∧ g.position = a ∧ (a ≠ f.position → NoMessage (rr.readP "u8") (mem a).server)) →
    f.position ∈ as →
    loopSync (codecAt rr (Rust.genProg (Rust.argsSchema S)) k) lib U (Rust.genRpc scope S).handlers as mem w
      = .ok (setMem mem f.position m', (u', w.2 ++ cs))
  | [], _, _, _, _, _, _, hm => by simp at hm
  | a :: as, mem, w, h, hno, hfr, hg, hm => by
    by_cases he : a = f.position
    · subst he
      simp only [loopSync, Rust.handlers_lookup scope hW hn hf, h]
      refine loopSync_idle hW hn scope k as _ _ (fun a ha => ?_)
      obtain ⟨g, h1, h2, h3, h4⟩ := hg a (by simp [ha])
      refine ⟨g, h1, h2, h3, ?_⟩
      by_cases he : a = f.position
      · simpa [setMem, he] using hno
      · simpa [setMem, he] using h4 he
    · obtain ⟨g, h1, h2, rfl, h3⟩ := hg a (by simp)
      obtain ⟨i, r, h4, h5⟩ := readStatus_noMessage (P := Rust.genProg (Rust.argsSchema S)) (k := k) (h3 he)
      have hme : setMem mem g.position (mem g.position) = mem := by
        funext b
        simp only [setMem]
        split <;> simp_all
      simp only [loopSync, Rust.handlers_lookup scope hW hn h1, Rust.idle_run h2 h4 h5, hme, List.append_nil]
      refine loopSync_call hW hn scope k hf as mem w h hno hfr (fun a ha => hg a (by simp [ha])) ?_
      simpa [Ne.symm he] using hm

end

/-- The status byte has a format. -/
theorem status_total {W : Wire} (h : W.Lawful) : ∃ s, W.prim "u8" (.int 255) = some s :=
  h.prim_total (.integer "u8" 1 false) "u8" (.int 255) (.name "u8") rfl (by simp [LeafVal])

/-- What the client writes for arguments is what the server reads. -/
theorem args_exchange {x : Ext} {rr : Rust.Runtime} {rt : Dart.Runtime} {hd : Int} {S : List ASTNode} (h : SystemOk x rr rt hd S)
    {f : FnNode} (hf : f ∈ methodsOf S) (hp : PortableMethod S f) {ds : List Val} (hds : DartArgs x rt.wire S f ds) :
    ∃ vs b, Exchanged x rr.wire S (f.args.map (·.typeId)) vs ds ∧ Enc rr.wire S ((argsOf f).map (·.2)) vs b ∧
      ds.length = f.args.length ∧ ∃ N, ∀ k, N ≤ k → ∀ l, Dart.Visible x l f.args → Dart.evalWStmts rt (Dart.genProg x S) k hd
        (((Dart.genParams x f).map (·.2)).zip ds) l (Dart.genArgWrites x f) = .ok b := by
  have hS := Dart.plain_of_accepted h.server.accepted
  obtain ⟨us, hu, hd'⟩ := hds
  obtain ⟨b, he⟩ := Dart.hasTys_enc h.dart h.dartNamed hS.types h.portable.numbers hu (f.args.map (·.typeId)) rfl (by
    intro t ht
    obtain ⟨a, ha, rfl⟩ := List.mem_map.1 ht
    exact (Dart.sizedFn_of_wf h.server.accepted.wf hf).1 a ha)
  have hport : ∀ t ∈ f.args.map (·.typeId), Portable S t := by
    intro t ht
    obtain ⟨a, ha, rfl⟩ := List.mem_map.1 ht
    exact (hp.args a ha).1
  obtain ⟨vs, h1, h2⟩ := Dart.enc_of_dart h.agree h.rust.wire h.portable he _ rfl hport
  obtain ⟨h3, h4⟩ := Dart.args_write (hd := hd) hS h.dartNamed h.client hf (fun a ha => (hp.args a ha).2) he hd'
  refine ⟨vs, b, ⟨Dart.enc_hasTys h.agree h.rust.wire h.portable h2 hport, us, h1, hd'⟩, ?_, h3, h4⟩
  simpa [argsOf, Function.comp_def] using h2

/-- What the server writes for a result is what the client reads. -/
theorem result_exchange {x : Ext} {rr : Rust.Runtime} {rt : Dart.Runtime} {hd : Int} {S : List ASTNode} (h : SystemOk x rr rt hd S)
    {f : FnNode} (hp : PortableMethod S f) {t : TypeId} (ht : f.returnTypeId = some t) {v : Val} {b : Bytes}
    (he : Enc rr.wire S [t] [v] b) :
    ∃ d, Exchanged x rr.wire S [t] [v] [d] ∧ ∃ N, ∀ k, N ≤ k → ∀ r,
      Dart.evalReadE rt (Dart.readers rt (Dart.genProg x S) k) (Dart.genRead t) (b ++ r) = .ok (d, r) := by
  have hS := Dart.plain_of_accepted h.server.accepted
  obtain ⟨h1, h2⟩ := hp.result t ht
  have hport : ∀ u ∈ [t], Portable S u := by simpa using h1
  obtain ⟨us, h3, h4, -⟩ := Dart.enc_to_dart h.agree h.rust.wire h.portable he hport
  obtain ⟨u, rfl⟩ : ∃ u, us = [u] := by
    have := (Rust.Enc.length_eq h4)
    match us, this with
    | [u], _ => exact ⟨u, rfl⟩
  obtain ⟨d, h5, h6⟩ := Dart.enc_read_uniform h.dart hS h.dartNamed h.defaults h.server.distinct h2 h4
  exact ⟨d, ⟨Dart.enc_hasTys h.agree h.rust.wire h.portable he hport, [u], h3, by simpa using h5⟩, h6⟩

/-- `C32_client_call_partial` for the generated trees. -/
theorem client_call_core (x : Ext) (rr : Rust.Runtime) (rt : Dart.Runtime) (hd : Int) (S : List ASTNode)
    (h : SystemOk x rr rt hd S)
    {scope ns scope' : String} {P : Rust.Prog} {R : Rust.RpcSection} {Q : Dart.Prog} {C : Dart.Client} (hP : P = Rust.genProg S)
    (hR : R = Rust.genRpc scope S) (hQ : Q = Dart.genProg x S) (hC : C = Dart.genClient x ns scope' S) :
      ∀ f ∈ methodsOf S, groupOf f = .sync → PortableMethod S f →
      ∀ (σ : Type) (lib : BufLib) (_ : lib.Lawful) (U : User σ) (rotate : Int → Int)
        (w : Dart.World (σ × List (String × List Val))) (ds : List Val) (as : List Nat),
        DartArgs x rt.wire S f ds → f.position ∈ as →
        (∀ a ∈ as, ∃ g ∈ methodsOf S, groupOf g = .sync ∧ g.position = a ∧
          (g ≠ f → NoMessage (rr.readP "u8") (w.mem a).server)) →
        ∃ vs, Exchanged x rr.wire S (f.args.map (·.typeId)) vs ds ∧
          ∀ v, RetIs (U f.id vs w.rest.1).1 v → (∃ b, ResultIs rr.wire S f v b) →
          ∃ dv, ExchangedResult x rr.wire S f v dv ∧ ∃ N, ∀ k, N ≤ k → ∃ mem sent,
            Dart.callMethod rt Q k hd rotate C lib (loopSync (codecAt rr (P.withArgs R) k) lib U R.handlers as) (x.camel f.id) ds w
              = .ok (.ofResult dv, ⟨w.client, mem, sent, (U f.id vs w.rest.1).2, w.rest.2 ++ [(f.id, vs)]⟩) := by
  subst hP hR hQ hC
  have hA := h.server.accepted
  intro f hf hg hp σ lib hlib U rotate w ds as hds hpos has
  have hsync : ∀ g, groupOf g = .sync → g.isRead = false ∧ g.isAsync = false := by
    intro g
    unfold groupOf
    cases g.isRead <;> cases g.isAsync <;> simp
  obtain ⟨hr, ha⟩ := hsync f hg
  obtain ⟨vs, b, hex, he, hl, N1, hw⟩ := args_exchange h hf hp hds
  refine ⟨vs, hex, fun v hret hres => ?_⟩
  obtain ⟨rb, hrb⟩ := hres
  obtain ⟨s, hs⟩ := status_total h.rust.wire
  obtain ⟨hsw, hsr⟩ := Dart.status_bytes h.dart h.status hs
  have hmem := hlib (w.mem f.position).server (s ++ b)
  obtain ⟨rest, hrest⟩ := hmem
  have hreq : Request rr.wire S f none vs (s ++ b) := ⟨by simp [ha], s, [], b, hs, rfl, he, by simp⟩
  have hans : Spec.Answer rr.wire S f none v (s ++ rb) := ⟨s, [], rb, hs, rfl, hrb, by simp⟩
  obtain ⟨N2, hrun⟩ := sync_call h.rust h.server hf hr ha hlib U
    ((w.mem f.position).set .server (lib (w.mem f.position).server (s ++ b))) w.rest.1 hreq hrest hret hans
  have hhand : ∀ a ∈ as, ∃ g ∈ methodsOf S, g.isRead = false ∧ g.position = a ∧ (a ≠ f.position → NoMessage (rr.readP "u8")
      (setMem w.mem f.position ((w.mem f.position).set .server (lib (w.mem f.position).server (s ++ b))) a).server) := by
    intro a haas
    obtain ⟨g, h1, h2, h3, h4⟩ := has a haas
    refine ⟨g, h1, (hsync g h2).1, h3, fun hne => ?_⟩
    simp only [setMem, if_neg hne]
    exact h4 (fun e => hne (by rw [← h3, e]))
  have hloop : ∀ k, N2 ≤ k → ∃ server rest', NoMessage (rr.readP "u8") server ∧
      loopSync (codecAt rr (Rust.genProg (Rust.argsSchema S)) k) lib U (Rust.genRpc scope S).handlers as
        (setMem w.mem f.position ((w.mem f.position).set .server (lib (w.mem f.position).server (s ++ b)))) w.rest
      = .ok (setMem w.mem f.position ⟨server, s ++ rb ++ rest'⟩, ((U f.id vs w.rest.1).2, w.rest.2 ++ [(f.id, vs)])) := by
    intro k hk
    obtain ⟨server, rest', h1, h2⟩ := hrun k hk
    refine ⟨server, rest', h2, ?_⟩
    have := loopSync_call (lib := lib) (U := U) hA.wf h.server.rpcNamed.methods scope k hf as
      (setMem w.mem f.position ((w.mem f.position).set .server (lib (w.mem f.position).server (s ++ b)))) w.rest
      (by simpa [setMem] using h1) h2 hr hhand hpos
    rw [this]
    congr 2
    funext a
    simp only [setMem]
    split <;> simp
  rw [Rust.withArgs_genProg]
  cases hft : f.returnTypeId with
  | none =>
    have hv : v = none ∧ rb = [] := by
      cases v with
      | none => exact ⟨rfl, hrb.2⟩
      | some v => obtain ⟨t, h1, -⟩ := hrb; simp [hft] at h1
    obtain ⟨rfl, rfl⟩ := hv
    refine ⟨none, hft, max N1 N2, fun k hk => ?_⟩
    obtain ⟨server, rest', hno, hlp⟩ := hloop k (by omega)
    exact ⟨_, _, Dart.sync_exec h.client ns scope' hf hr ha hl hsw (hw k (by omega)) hlp (rv := none) (by simp [hft])⟩
  | some t =>
    cases v with
    | none => simp [ResultIs, hft] at hrb
    | some v =>
      obtain ⟨t', h1, hrb⟩ := hrb
      rw [hft] at h1
      obtain rfl := Option.some.inj h1
      obtain ⟨d, hxd, N3, hrd⟩ := result_exchange h hp hft hrb
      refine ⟨some d, ⟨t, hft, hxd⟩, max N1 (max N2 N3), fun k hk => ?_⟩
      obtain ⟨server, rest', hno, hlp⟩ := hloop k (by omega)
      refine ⟨_, _, Dart.sync_exec h.client ns scope' hf hr ha hl hsw (hw k (by omega)) hlp (rv := some d) ?_⟩
      simp only [hft]
      refine ⟨d, rfl, ?_⟩
      simp only [setMem, if_true, List.append_assoc]
      rw [Dart.runReader_data (hsr _)]
      simp only [Dart.runReader, hrd k (by omega), bind, Except.bind]

/-- **C32.** A call of a synchronous method of the client with Dart objects `ds` makes the server call the
user's function exactly once, with the values `vs` that `ds` stand for, and no other function; the call
returns an object that stands for the result of that function.  This holds for every state of the client
and for every previous contents of the method's buffers, whatever handlers of synchronous methods the
runtime runs and in whatever order, as long as no other request is outstanding. -/
theorem C32_client_call_partial (x : Ext) (rr : Rust.Runtime) (rt : Dart.Runtime) (hd : Int) (S : List ASTNode)
    (h : SystemOk x rr rt hd S) (hM : methodsOf S ≠ [])
    (outR outD : String) (hoR : RustGen.rpc S = .ok outR) (hoD : DartGen.rpcMethods x S = .ok outD) :
    ∃ P R Q C, Rust.Emits S P ∧ Rust.EmitsRpc S R ∧ Dart.Emits x S Q ∧ Dart.EmitsRpc x S C ∧
      ∀ f ∈ methodsOf S, groupOf f = .sync → PortableMethod S f →
      ∀ (σ : Type) (lib : BufLib) (_ : lib.Lawful) (U : User σ) (rotate : Int → Int)
        (w : Dart.World (σ × List (String × List Val))) (ds : List Val) (as : List Nat),
        DartArgs x rt.wire S f ds → f.position ∈ as →
        (∀ a ∈ as, ∃ g ∈ methodsOf S, groupOf g = .sync ∧ g.position = a ∧
          (g ≠ f → NoMessage (rr.readP "u8") (w.mem a).server)) →
        ∃ vs, Exchanged x rr.wire S (f.args.map (·.typeId)) vs ds ∧
          ∀ v, RetIs (U f.id vs w.rest.1).1 v → (∃ b, ResultIs rr.wire S f v b) →
          ∃ dv, ExchangedResult x rr.wire S f v dv ∧ ∃ N, ∀ k, N ≤ k → ∃ mem sent,
            Dart.callMethod rt Q k hd rotate C lib (loopSync (codecAt rr (P.withArgs R) k) lib U R.handlers as) (x.camel f.id) ds w
              = .ok (.ofResult dv, ⟨w.client, mem, sent, (U f.id vs w.rest.1).2, w.rest.2 ++ [(f.id, vs)]⟩) := by
  have hA := h.server.accepted
  obtain ⟨scope, hR⟩ := Rust.emitsRpc_of hA.wf hoR hM
  obtain ⟨ns, scope', hC, -⟩ := Dart.emitsRpc_of hA.wf hM hoD
  exact ⟨_, _, _, _, emits_genProg S hA, hR, Dart.emits_genProg hA, hC, client_call_core x rr rt hd S h rfl rfl rfl rfl⟩

/-- The client calls `add` with a point and 5, with leftovers in the buffers. -/
example : ∃ P R Q C dv, Rust.Emits rpcSchema P ∧ Rust.EmitsRpc rpcSchema R ∧ Dart.Emits testExt rpcSchema Q ∧
    Dart.EmitsRpc testExt rpcSchema C ∧ Exchanged testExt LE.wire rpcSchema [.other "Point"] [pt 3] [dv] ∧
    ∃ vs N, ∀ k, N ≤ k → ∃ mem sent,
      Dart.callMethod LE.dart Q k (-1) (· + 1) C (fun old bs => bs ++ old.drop bs.length)
        (loopSync (codecAt LE.rust (P.withArgs R) k) (fun old bs => bs ++ old.drop bs.length)
          (fun _ _ u => (.val (pt 3), u + 1)) R.handlers [4, 0]) "add" [pt (-2), .int 5]
        ⟨.fresh, fun _ => ⟨[0, 8], [1, 2, 3]⟩, [], 7, []⟩
      = .ok (.val dv, ⟨.fresh, mem, sent, 8, [("add", vs)]⟩) := by
  obtain ⟨outR, hR⟩ := rpcSchema_out
  obtain ⟨outD, hD⟩ := rpcSchema_dartOut
  obtain ⟨P, R, Q, C, h1, h2, h3, h4, h5⟩ := C32_client_call_partial testExt LE.rust LE.dart (-1) rpcSchema rpcSchema_system
    rpcSchema_methods outR outD hR hD
  have hf : ⟨"add", 0, [⟨"p", .other "Point"⟩, ⟨"n", .integer "i64" 8 true⟩], some (.other "Point"), false, false⟩ ∈ methodsOf rpcSchema :=
    List.mem_cons_self ..
  obtain ⟨vs, -, h6⟩ := h5 _ hf rfl (rpcSchema_portableMethod hf) Nat (fun old bs => bs ++ old.drop bs.length)
    (fun old bs => ⟨_, rfl⟩) (fun _ _ u => (.val (pt 3), u + 1)) (· + 1) ⟨.fresh, fun _ => ⟨[0, 8], [1, 2, 3]⟩, [], 7, []⟩
    [pt (-2), .int 5] [4, 0]
    ⟨[pt (-2), .int 5], pt_dart (by decide) ⟨.leaf _ _ _ _ (show -(2 ^ 63 : Int) ≤ 5 ∧ (5 : Int) < 2 ^ 63 by decide) .nil, .leaf _ _ _ _ _ rfl .nil⟩⟩ (by simp) (by
      intro a ha
      simp only [List.mem_cons, List.not_mem_nil, or_false] at ha
      rcases ha with rfl | rfl
      · exact ⟨⟨"ping", 4, [], none, false, false⟩, by simp [rpcSchema, methodsOf], rfl, rfl, fun _ => ⟨0, [8], rfl, by decide⟩⟩
      · exact ⟨_, hf, rfl, rfl, fun h => absurd rfl h⟩)
  obtain ⟨dv, h7, N, h8⟩ := h6 (some (pt 3)) rfl ⟨ptBytes 3 ++ [], _, rfl, pt_enc (by decide) .nil⟩
  cases dv with
  | none => simp [ExchangedResult] at h7
  | some dv =>
    obtain ⟨t, ht, h7⟩ := h7
    obtain rfl := Option.some.inj ht
    refine ⟨P, R, Q, C, dv, h1, h2, h3, h4, h7, vs, N, fun k hk => ?_⟩
    have e : testExt.camel "add" = "add" := by decide +kernel
    have := h8 k hk
    simp only [e] at this
    exact this

end TPB.Props
