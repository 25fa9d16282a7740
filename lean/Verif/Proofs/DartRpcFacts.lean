/- Facts about the emitted Dart client class. -/
import Verif.Proofs.DartRpcText
import Verif.Proofs.DartFacts
import Verif.Proofs.RustRpcFacts
import Verif.Sem.RpcSystem
import Verif.Spec.RpcDart
namespace TPB.Dart
open Spec DartGen
open Rust (Buf Bufs BufLib setMem)

variable {x : Ext} {S : List ASTNode}

theorem sizedFn_of_wf {k : Nat} (h : WFSchema k S) {f : FnNode} (hf : f ∈ methodsOf S) : SizedFn f := by
  obtain ⟨h1, h2, _⟩ := Rust.wf_method h hf
  exact ⟨fun a ha => sized_of_wf (h1 (a.id, a.typeId) (List.mem_map.2 ⟨a, ha, rfl⟩)), fun t ht => sized_of_wf (h2 t (by simp [ht]))⟩

/-! ### Names -/

theorem genDMethods_names (f : FnNode) : (genDMethods x f).map (·.name) = clientMethods x f := by
  unfold genDMethods clientMethods
  cases f.isRead <;> cases f.isAsync <;> rfl

theorem genMembers_names (f : FnNode) : (genMembers x f).filterMap Member.name? = clientFields x f := by
  unfold genMembers clientFields
  cases f.isRead <;> cases f.isAsync <;> rfl

theorem genGetters_names (f : FnNode) : (genGetters x f).map (·.name) = clientStreams x f := by
  unfold genGetters clientStreams
  cases f.isRead <;> rfl

theorem genClient_names (ns scope : String) : (genClient x ns scope S).names
    = ["_scheduler", "_scopeId", "disconnect"] ++ (methodsOf S).flatMap (clientFields x)
      ++ (methodsOf S).flatMap (clientStreams x) ++ (methodsOf S).flatMap (clientMethods x) := by
  simp only [Client.names, genClient, Props.findFnNodes_eq, List.map_flatMap, List.filterMap_flatMap, genDMethods_names,
    genMembers_names, genGetters_names]

theorem methods_nodup (hN : DartRpcNamed x S) (ns scope : String) :
    ((genClient x ns scope S).methods.map (·.name)).Nodup := by
  have := hN.members
  rw [← genClient_names ns scope] at this
  exact (List.nodup_append.1 this).2.1

theorem find_name {l : List DMethod} (hn : (l.map (·.name)).Nodup) {m : DMethod} (hm : m ∈ l) {n : String} (e : m.name = n) :
    l.find? (fun m => m.name = n) = some m := by
  subst e
  induction l with
  | nil => simp at hm
  | cons g l ih =>
    simp only [List.map_cons, List.nodup_cons, List.mem_map, not_exists, not_and] at hn
    rw [List.find?_cons]
    rcases List.mem_cons.1 hm with rfl | hm
    · simp
    · have : g.name ≠ m.name := fun e => hn.1 m hm e.symm
      simp only [this, decide_false]
      exact ih hn.2 hm

theorem mem_methods (ns scope : String) {f : FnNode} (hf : f ∈ methodsOf S) {m : DMethod} (hm : m ∈ genDMethods x f) :
    m ∈ (genClient x ns scope S).methods := by
  simp only [genClient, Props.findFnNodes_eq]
  exact List.mem_flatMap.2 ⟨f, hf, hm⟩

theorem find_method (hN : DartRpcNamed x S) (ns scope : String) {f : FnNode} (hf : f ∈ methodsOf S) {m : DMethod}
    (hm : m ∈ genDMethods x f) {n : String} (e : m.name = n) :
    (genClient x ns scope S).methods.find? (fun m => m.name = n) = some m :=
  find_name (methods_nodup hN ns scope) (mem_methods ns scope hf hm) e

theorem mem_members (ns scope : String) {f : FnNode} (hf : f ∈ methodsOf S) {m : Member} (hm : m ∈ genMembers x f) {g : Member → Option String}
    {v : String} (e : g m = some v) : v ∈ (genClient x ns scope S).members.filterMap g := by
  simp only [genClient, Props.findFnNodes_eq]
  exact List.mem_filterMap.2 ⟨m, List.mem_flatMap.2 ⟨f, hf, hm⟩, e⟩

/-! ### Arguments -/

variable {rt : Runtime} {hd : Int}

/-- No parameter is hidden by a local variable. -/
def Visible (x : Ext) (l : MLocals) (as : List FnArg) : Prop := l.methodId = none ∨ ∀ a ∈ as, x.camel a.id ≠ "methodId"

theorem readVar_visible {l : MLocals} {as : List FnArg} (h : Visible x l as) {a : FnArg} (ha : a ∈ as) (ps : List (String × Val)) :
    readVar ps l (x.camel a.id) = ps.lookup (x.camel a.id) := by
  unfold readVar
  rcases h with h | h
  · simp [h]
  · rw [if_neg (h a ha)]

theorem evalWStmts_args (P : Prog) (k : Nat) (l : MLocals) : ∀ (as : List FnArg) (pre : List (String × Val)) (ds : List Val),
    Visible x l as → (pre.map (·.1) ++ as.map (fun a => x.camel a.id)).Nodup → ds.length = as.length →
    evalWStmts rt P k hd (pre ++ (as.map (fun a => x.camel a.id)).zip ds) l
      (as.map (fun a => .arg (genWrite .into a.typeId (.var (x.camel a.id)))))
    = writeMany rt P k .into (as.map (·.typeId)) ds
  | [], pre, ds, _, _, _ => by simp [evalWStmts, writeMany]
  | a :: as, pre, [], _, _, hl => by simp at hl
  | a :: as, pre, d :: ds, hv, hn, hl => by
    have hn' := hn
    simp only [List.map_cons] at hn
    rw [List.nodup_append] at hn
    obtain ⟨h1, h2, h3⟩ := hn
    have hpre : x.camel a.id ∉ pre.map (·.1) := fun hm => h3 _ hm _ (by simp) rfl
    simp only [List.map_cons, evalWStmts, evalWStmt, genWrite_acc, List.zip_cons_cons]
    have hlk : (pre ++ (x.camel a.id, d) :: (as.map (fun a => x.camel a.id)).zip ds).lookup (x.camel a.id) = some d := by
      rw [List.lookup_append]
      have : pre.lookup (x.camel a.id) = none := by
        rw [List.lookup_eq_none_iff]
        intro p hp
        simp only [bne_iff_ne, ne_eq]
        exact fun e => hpre (List.mem_map.2 ⟨p, hp, e.symm⟩)
      simp [this]
    rw [readVar_visible hv (by simp), hlk]
    simp only [orElse, bind, Except.bind, writeMany]
    rw [evalWriteS_acc _ _ _ _ _ (.var "model")]
    simp only [writeT]
    have := evalWStmts_args P k l as (pre ++ [(x.camel a.id, d)]) ds
      (hv.imp id (fun h b hb => h b (List.mem_cons_of_mem _ hb))) (by simpa using hn') (by simpa using hl)
    simp only [List.append_assoc, List.cons_append, List.nil_append] at this
    rw [this]

/-- The emitted client writes the arguments in declaration order, in the wire layout. -/
theorem args_write (hS : Plain S) (hN : DartNamed x S) (hR : DartRpcNamed x S) {f : FnNode} (hf : f ∈ methodsOf S)
    (hp : ∀ a ∈ f.args, LibraryFree S a.typeId) {us ds : List Val} {b : Bytes}
    (he : Enc rt.wire (dartSchema S) ((f.args.map (·.typeId)).map dartView) us b)
    (hd' : DRep x (dartSchema S) ((f.args.map (·.typeId)).map dartView) us ds) :
    ds.length = f.args.length ∧
    ∃ N, ∀ k, N ≤ k → ∀ l, Visible x l f.args →
      evalWStmts rt (genProg x S) k hd (((genParams x f).map (·.2)).zip ds) l (genArgWrites x f) = .ok b := by
  have hl : ds.length = f.args.length := by
    have := hd'.length_eq.2
    have := hd'.length_eq.1
    simp at *
    omega
  obtain ⟨N, h⟩ := enc_write hS hN he (f.args.map (·.typeId)) rfl (by
    intro t ht
    obtain ⟨a, ha, rfl⟩ := List.mem_map.1 ht
    exact hp a ha) ds .into hd'
  refine ⟨hl, N, fun k hk l hv => ?_⟩
  rw [← h k hk]
  have := evalWStmts_args (x := x) (rt := rt) (hd := hd) (genProg x S) k l f.args [] ds hv (by simpa using hR.params f hf) hl
  simpa [genArgWrites, genParams, Function.comp_def] using this

/-! ### Status and method id -/

theorem wire_int {m : String} {n : Int} {b : Bytes} (hrt : rt.Lawful) (hm : m ≠ "u32") (h : rt.wire.prim m (.int n) = some b) :
    rt.writeP m (.int n) = some b ∧ ∀ r, rt.readP m (b ++ r) = some (.int n, r) := by
  simp only [Runtime.wire, if_neg hm] at h
  cases ht : dartPrims.lookup m with
  | none => simp [ht] at h
  | some t =>
    simp only [ht] at h
    split at h
    · rename_i hv
      exact ⟨h, fun r => hrt.prim m t _ b r ht hv h⟩
    · simp at h

theorem status_bytes {W : Wire} {rW : Bytes → Option (Val × Bytes)} (hrt : rt.Lawful) (hs : SameStatus W rt.wire rW (rt.readP "Int8") hd)
    {s : Bytes} (h : W.prim "u8" (.int 255) = some s) :
    rt.writeP "Int8" (.int hd) = some s ∧ ∀ r, rt.readP "Int8" (s ++ r) = some (.int hd, r) := by
  rw [hs.write] at h
  exact wire_int hrt (by decide) h

theorem id_bytes {W : Wire} (hG : Agree W rt.wire) (hrt : rt.Lawful) {i : Int} {m : Bytes} (h : W.prim "i64" (.int i) = some m) :
    rt.writeP "Int64" (.int i) = some m ∧ ∀ r, rt.readP "Int64" (m ++ r) = some (.int i, r) := by
  have hb : ("i64", TypeId.integer "i64" 8 true) ∈ builtinTypes := by simp [builtinTypes]
  have hv := hG.range "i64" _ _ _ hb h
  rw [hG.int "i64" 8 true i hb hv] at h
  have e : asSigned 8 i = i := by
    simp only [LeafVal] at hv
    unfold asSigned
    rw [if_pos (by simpa using hv.2)]
  rw [e] at h
  exact wire_int hrt (by decide) h

/-! ### Synchronous methods -/

theorem paramsOk_of (hR : DartRpcNamed x S) {f : FnNode} (hf : f ∈ methodsOf S) {m : DMethod} (hp : m.params = genParams x f)
    (hb : ∀ n ∈ m.body.flatMap DStmt.binds, n ∈ if f.isAsync then ["methodId", "completer"] else ["result"]) : m.paramsOk = true := by
  unfold DMethod.paramsOk
  rw [Bool.and_eq_true, decide_eq_true_iff, List.all_eq_true, hp]
  refine ⟨by simpa [genParams, Function.comp_def] using hR.params f hf, fun p hp => ?_⟩
  obtain ⟨a, ha, rfl⟩ := List.mem_map.1 hp
  obtain ⟨h1, h2⟩ := hR.locals f hf a ha
  simp only [Bool.and_eq_true, Bool.or_eq_true, bne_iff_ne, ne_eq, Bool.not_eq_true', List.contains_eq_mem, decide_eq_false_iff_not,
    List.mem_cons, not_or]
  refine ⟨h1, .inl ⟨fun e => h2 (by simp [e]), fun hm => ?_⟩⟩
  have := hb _ hm
  exact h2 (List.mem_cons_of_mem _ this)

variable {ω : Type} {lib : BufLib} {loop : (Nat → Bufs) → ω → Res ((Nat → Bufs) × ω)} {rot : Int → Int}

/-- A closure that begins like all readers of answers, on a buffer that holds a message. -/
theorem runReader_data {P : Prog} {k : Nat} {C : Client} {throws : Bool} {ss : List RStmt} {bs r : Bytes} {s : ClientState}
    (h : rt.readP "Int8" bs = some (.int hd, r)) :
    runReader rt P k hd C ([.letStatus, .blank, .ifNoData throws, .blank] ++ ss) .none bs s
      = runReader rt P k hd C ss ⟨some hd, none, none⟩ r s := by
  simp [runReader, readInt, h, RLocals.none, orElse, bind, Except.bind]

/-- The same on a buffer that holds none. -/
theorem runReader_noData {P : Prog} {k : Nat} {C : Client} {ss : List RStmt} {bs r : Bytes} {n : Int} {s : ClientState}
    (h : rt.readP "Int8" bs = some (.int n, r)) (hn : n ≠ hd) :
    runReader rt P k hd C ([.letStatus, .blank, .ifNoData false, .blank] ++ ss) .none bs s = .ok (s, none) := by
  simp [runReader, readInt, h, RLocals.none, orElse, bind, Except.bind, hn]

/-- What a synchronous method does: it writes the request, lets the server run, and reads the answer. -/
theorem sync_exec (hR : DartRpcNamed x S) (ns scope : String) {f : FnNode} (hf : f ∈ methodsOf S) (hr : f.isRead = false)
    (ha : f.isAsync = false) {k : Nat} {ds : List Val} (hl : ds.length = f.args.length) {s b : Bytes}
    (hs : rt.writeP "Int8" (.int hd) = some s)
    (hb : ∀ l, Visible x l f.args →
      evalWStmts rt (genProg x S) k hd (((genParams x f).map (·.2)).zip ds) l (genArgWrites x f) = .ok b)
    {w : World ω} {mem2 : Nat → Bufs} {rest2 : ω}
    (hloop : loop (setMem w.mem f.position ((w.mem f.position).set .server (lib (w.mem f.position).server (s ++ b)))) w.rest
      = .ok (mem2, rest2)) {rv : Option Val}
    (hrv : match f.returnTypeId with
      | none => rv = none
      | some t => ∃ v, rv = some v ∧ runReader rt (genProg x S) k hd (genClient x ns scope S)
          ([.letStatus, .blank, .ifNoData true, .blank] ++ [.ret (genRead t)]) .none (mem2 f.position).client w.client
          = .ok (w.client, some v)) :
    callMethod rt (genProg x S) k hd rot (genClient x ns scope S) lib loop (x.camel f.id) ds w =
      .ok (.ofResult rv, ⟨w.client, mem2, w.sent ++ [(f.position, .server, s ++ b)], rest2⟩) := by
  have hm : genSync x f ∈ genDMethods x f := by simp [genDMethods, hr, ha]
  have hok : (genSync x f).paramsOk = true := by
    refine paramsOk_of hR hf rfl (fun n hn => ?_)
    simp only [genSync, genSyncResult, List.flatMap_append, List.flatMap_cons, DStmt.binds, List.flatMap_nil, List.append_nil,
      List.nil_append] at hn
    cases hret : f.returnTypeId <;> simp [hret, DStmt.binds] at hn
    simp [hn, ha]
  unfold callMethod
  rw [find_method hR ns scope hf hm (n := x.camel f.id) rfl]
  simp only [hok, true_and]
  rw [if_pos (by simp [genSync, genParams, hl])]
  have hw : evalWStmts rt (genProg x S) k hd (((genParams x f).map (·.2)).zip ds) ⟨none, none, none⟩ (.status :: genArgWrites x f)
      = .ok (s ++ b) := by
    simp only [evalWStmts, evalWStmt, hs, orElse, bind, Except.bind, hb ⟨none, none, none⟩ (.inl rfl)]
  simp only [genSync, List.cons_append, List.nil_append, execD, hw, bind, Except.bind, Bufs.get]
  rw [hloop]
  simp only [genSyncResult]
  cases hret : f.returnTypeId with
  | none =>
    simp only [hret] at hrv
    subst hrv
    simp [execD, DRet.ofResult]
  | some t =>
    simp only [hret] at hrv
    obtain ⟨v, rfl, hrv⟩ := hrv
    simp only [List.cons_append, List.nil_append] at hrv
    simp only [execD, bind, Except.bind, Bufs.get, hrv, orElse, DRet.ofResult]

/-! ### Asynchronous methods -/

/-- The state of the client after a call of an asynchronous method. -/
def ClientState.afterCall (x : Ext) (rot : Int → Int) (f : FnNode) (s : ClientState) : ClientState where
  last := fun w => if w = varLastMethodId x f then rot (s.last (varLastMethodId x f)) else s.last w
  pending := fun w j => if w = varMethodCompleters x f ∧ j = s.last (varLastMethodId x f) then some s.created else s.pending w j
  created := s.created + 1
  done := s.done
  events := s.events
  tasks := s.tasks

/-- What an asynchronous method does: it writes the request with the next method id and remembers a new
completer under that id. -/
theorem async_exec (hR : DartRpcNamed x S) (ns scope : String) {f : FnNode} (hf : f ∈ methodsOf S) (hr : f.isRead = false)
    (ha : f.isAsync = true) {k : Nat} {ds : List Val} (hl : ds.length = f.args.length) {s m b : Bytes} {w : World ω}
    (hs : rt.writeP "Int8" (.int hd) = some s)
    (hm : rt.writeP "Int64" (.int (w.client.last (varLastMethodId x f))) = some m)
    (hb : ∀ l, Visible x l f.args →
      evalWStmts rt (genProg x S) k hd (((genParams x f).map (·.2)).zip ds) l (genArgWrites x f) = .ok b) :
    callMethod rt (genProg x S) k hd rot (genClient x ns scope S) lib loop (x.camel f.id) ds w =
      .ok (.future w.client.created, ⟨w.client.afterCall x rot f,
        setMem w.mem f.position ((w.mem f.position).set .server (lib (w.mem f.position).server (s ++ m ++ b))),
        w.sent ++ [(f.position, .server, s ++ m ++ b)], w.rest⟩) := by
  have hmem : genAsync x f ∈ genDMethods x f := by simp [genDMethods, hr, ha]
  have hok : (genAsync x f).paramsOk = true := by
    refine paramsOk_of hR hf rfl (fun n hn => ?_)
    simp [genAsync, DStmt.binds] at hn
    rcases hn with rfl | rfl <;> simp [ha]
  have m1 : varLastMethodId x f ∈ (genClient x ns scope S).members.filterMap Member.lastOf :=
    mem_members ns scope hf (m := .lastId (varLastMethodId x f)) (by simp [genMembers, hr, ha]) rfl
  have m2 : varMethodCompleters x f ∈ (genClient x ns scope S).members.filterMap Member.completersOf :=
    mem_members ns scope hf (m := .completers (varMethodCompleters x f) (retTy f)) (by simp [genMembers, hr, ha]) rfl
  unfold callMethod
  rw [find_method hR ns scope hf hmem (n := x.camel f.id) rfl]
  simp only [hok, true_and]
  rw [if_pos (by simp [genAsync, genParams, hl])]
  have hw : evalWStmts rt (genProg x S) k hd (((genParams x f).map (·.2)).zip ds) ⟨some (w.client.last (varLastMethodId x f)), none, none⟩
      (.status :: .methodId :: genArgWrites x f) = .ok (s ++ m ++ b) := by
    have hv : ∀ a ∈ f.args, x.camel a.id ≠ "methodId" := fun a h e => (hR.locals f hf a h).2 (by simp [e, ha])
    simp only [evalWStmts, evalWStmt, hs, hm, orElse, bind, Except.bind, hb _ (.inr hv), List.append_assoc]
  simp only [genAsync, execD, if_pos m1, if_pos m2, hw, bind, Except.bind, Bufs.get, orElse]
  rfl

/-- The closure that reads the answers of an asynchronous method. -/
def answerReader (x : Ext) (f : FnNode) : List RStmt :=
  genReaderHead ++ [.letMethodId] ++ genComplete x f ++ [.remove (varMethodCompleters x f)]

/-- The result that the closure finds after the method id. -/
def ReadsResult (rt : Runtime) (P : Prog) (k : Nat) (f : FnNode) (dv : Option Val) (b : Bytes) : Prop :=
  match f.returnTypeId with
  | none => dv = none
  | some t => ∃ d r, dv = some d ∧ evalReadE rt (readers rt P k) (genRead t) b = .ok (d, r)

theorem reader_none (ns scope : String) {f : FnNode} {P : Prog} {k : Nat} {bs r : Bytes} {n : Int} {s : ClientState}
    (h : rt.readP "Int8" bs = some (.int n, r)) (hn : n ≠ hd) :
    runReader rt P k hd (genClient x ns scope S) (answerReader x f) .none bs s = .ok (s, none) := by
  have := runReader_noData (hd := hd) (P := P) (k := k) (C := genClient x ns scope S)
    (ss := [.letMethodId] ++ genComplete x f ++ [.remove (varMethodCompleters x f)]) (s := s) h hn
  simpa [answerReader, genReaderHead] using this

/-- Reading an answer with the method id of a pending call. -/
theorem reader_pending (ns scope : String) {f : FnNode} (hf : f ∈ methodsOf S) (hr : f.isRead = false)
    (ha : f.isAsync = true) {P : Prog} {k : Nat} {bs r1 r2 : Bytes} {i : Int} {dv : Option Val} {s : ClientState} {n : Nat}
    (h1 : rt.readP "Int8" bs = some (.int hd, r1)) (h2 : rt.readP "Int64" r1 = some (.int i, r2))
    (h3 : ReadsResult rt P k f dv r2) (hn : s.pending (varMethodCompleters x f) i = some n) (hd' : n ∉ s.done.map (·.1)) :
    runReader rt P k hd (genClient x ns scope S) (answerReader x f) .none bs s
      = .ok ({ s with done := s.done ++ [(n, dv)] }.remove (varMethodCompleters x f) i, none) := by
  have m2 : varMethodCompleters x f ∈ (genClient x ns scope S).members.filterMap Member.completersOf :=
    mem_members ns scope hf (m := .completers (varMethodCompleters x f) (retTy f)) (by simp [genMembers, hr, ha]) rfl
  have := runReader_data (hd := hd) (P := P) (k := k) (C := genClient x ns scope S) (throws := false)
    (ss := [.letMethodId] ++ genComplete x f ++ [.remove (varMethodCompleters x f)]) (s := s) h1
  simp only [answerReader, genReaderHead, List.append_assoc] at this ⊢
  rw [this]
  unfold ReadsResult at h3
  unfold genComplete
  cases ht : f.returnTypeId with
  | none =>
    simp only [ht] at h3
    subst h3
    simp [runReader, readInt, h2, bind, Except.bind, if_pos m2, -List.mem_filterMap, orElse, hn, ClientState.complete, hd']
  | some t =>
    simp only [ht] at h3
    obtain ⟨d, r, rfl, h3⟩ := h3
    simp [runReader, readInt, h2, bind, Except.bind, if_pos m2, -List.mem_filterMap, orElse, hn, ClientState.complete, hd', h3, Except.map]

/-- Reading an answer whose method id belongs to no pending call. -/
theorem reader_stale (ns scope : String) {f : FnNode} (hf : f ∈ methodsOf S) (hr : f.isRead = false)
    (ha : f.isAsync = true) {P : Prog} {k : Nat} {bs r1 r2 : Bytes} {i : Int} {dv : Option Val} {s : ClientState}
    (h1 : rt.readP "Int8" bs = some (.int hd, r1)) (h2 : rt.readP "Int64" r1 = some (.int i, r2))
    (h3 : ReadsResult rt P k f dv r2) (hn : s.pending (varMethodCompleters x f) i = none) :
    runReader rt P k hd (genClient x ns scope S) (answerReader x f) .none bs s = .ok (s, none) := by
  have m2 : varMethodCompleters x f ∈ (genClient x ns scope S).members.filterMap Member.completersOf :=
    mem_members ns scope hf (m := .completers (varMethodCompleters x f) (retTy f)) (by simp [genMembers, hr, ha]) rfl
  have := runReader_data (hd := hd) (P := P) (k := k) (C := genClient x ns scope S) (throws := false)
    (ss := [.letMethodId] ++ genComplete x f ++ [.remove (varMethodCompleters x f)]) (s := s) h1
  simp only [answerReader, genReaderHead, List.append_assoc] at this ⊢
  rw [this]
  have e : s.remove (varMethodCompleters x f) i = s := by
    unfold ClientState.remove
    have : (fun w j => if w = varMethodCompleters x f ∧ j = i then none else s.pending w j) = s.pending := by
      funext w j
      split
      · rename_i h; rw [h.1, h.2, hn]
      · rfl
    rw [this]
  unfold ReadsResult at h3
  unfold genComplete
  cases ht : f.returnTypeId with
  | none => simp [runReader, readInt, h2, bind, Except.bind, if_pos m2, -List.mem_filterMap, orElse, hn, e]
  | some t =>
    simp only [ht] at h3
    obtain ⟨d, r, rfl, h3⟩ := h3
    simp [runReader, readInt, h2, bind, Except.bind, if_pos m2, -List.mem_filterMap, orElse, hn, h3, Except.map, e]

/-! ### A new client -/

/-- The task that the constructor creates for a method. -/
def taskOf (x : Ext) (f : FnNode) : List (String × RTask) :=
  if f.isRead then [(varReadTask x f, ⟨f.position, .client, genReaderHead ++ genAdd x f⟩)]
  else if f.isAsync then [(varReadTask x f, ⟨f.position, .client, answerReader x f⟩)]
  else []

theorem tasks_nodup (hR : DartRpcNamed x S) : (((methodsOf S).flatMap (taskOf x)).map (·.1)).Nodup := by
  have h := hR.members
  have h1 : ((methodsOf S).flatMap (clientFields x)).Nodup := by
    have := (List.nodup_append.1 h).1
    have := (List.nodup_append.1 this).1
    exact (List.nodup_append.1 this).2.1
  have hsub : (((methodsOf S).flatMap (taskOf x)).map (·.1)).Sublist ((methodsOf S).flatMap (clientFields x)) := by
    clear h h1
    induction methodsOf S with
    | nil => exact List.Sublist.refl _
    | cons f l ih =>
      simp only [List.flatMap_cons, List.map_append]
      refine List.Sublist.append ?_ ih
      unfold taskOf clientFields
      cases f.isRead <;> cases f.isAsync <;> simp [varReadTask]
  exact hsub.nodup h1

theorem connect_exec (hR : DartRpcNamed x S) (ns scope : String) {f : FnNode} (hf : f ∈ methodsOf S)
    (ha : (f.isAsync || f.isRead) = true) {k : Nat} {w : World ω}
    (hn : ∀ p ∈ taskOf x f, p.1 ∉ w.client.tasks.map (·.1)) :
    callMethod rt (genProg x S) k hd rot (genClient x ns scope S) lib loop (connectName x f) [] w =
      .ok (.void, { w with client := { w.client with tasks := w.client.tasks ++ taskOf x f } }) := by
  have mt : varReadTask x f ∈ (genClient x ns scope S).members.filterMap Member.taskOf := by
    refine mem_members ns scope hf (m := .task (varReadTask x f)) ?_ rfl
    unfold genMembers
    cases h1 : f.isRead <;> cases h2 : f.isAsync <;> simp_all
  unfold callMethod
  cases h1 : f.isRead with
  | true =>
    rw [find_method hR ns scope hf (m := genReadConnect x f) (by simp [genDMethods, h1]) (n := connectName x f) rfl]
    simp only [taskOf, h1, if_true, List.mem_singleton, forall_eq] at hn
    simp only [genReadConnect, DMethod.paramsOk, List.map_nil, List.nodup_nil, decide_true, List.all_nil, Bool.and_self,
      List.length_nil, and_self, if_true, execD, if_pos mt, if_neg hn, taskOf, h1]
  | false =>
    have h2 : f.isAsync = true := by simpa [h1] using ha
    rw [find_method hR ns scope hf (m := genAsyncConnect x f) (by simp [genDMethods, h1, h2]) (n := connectName x f) rfl]
    simp only [taskOf, h1, h2, if_true, Bool.false_eq_true, if_false, List.mem_singleton, forall_eq] at hn
    simp only [genAsyncConnect, DMethod.paramsOk, List.map_nil, List.nodup_nil, decide_true, List.all_nil, Bool.and_self,
      List.length_nil, and_self, if_true, execD, if_pos mt, if_neg hn, taskOf, h1, h2, Bool.false_eq_true, if_false, answerReader]

theorem create_eq (hR : DartRpcNamed x S) (ns scope : String) (k : Nat) (mem : Nat → Bufs) (rest : ω) :
    Client.create rt (genProg x S) k hd rot (genClient x ns scope S) lib loop mem rest =
      .ok ⟨{ ClientState.fresh with tasks := (methodsOf S).flatMap (taskOf x) }, mem, [], rest⟩ := by
  unfold Client.create
  have hrot : "rotateMethodId" ∉ (genClient x ns scope S).names := by
    rw [genClient_names]
    have := hR.rotate
    simp only [List.mem_append, not_or] at this ⊢
    exact ⟨⟨⟨by decide, this.1.1⟩, this.1.2⟩, this.2⟩
  rw [if_pos ⟨by rw [genClient_names]; exact hR.members, hrot⟩]
  have key : ∀ (fs : List FnNode) (pre : List (String × RTask)), (∀ f ∈ fs, f ∈ methodsOf S) →
      ((pre ++ fs.flatMap (taskOf x)).map (·.1)).Nodup →
      callAll rt (genProg x S) k hd rot (genClient x ns scope S) lib loop (fs.flatMap (genConnects x))
        ⟨{ ClientState.fresh with tasks := pre }, mem, [], rest⟩
      = .ok ⟨{ ClientState.fresh with tasks := pre ++ fs.flatMap (taskOf x) }, mem, [], rest⟩ := by
    intro fs
    induction fs with
    | nil => intro pre _ _; simp [callAll]
    | cons f fs ih =>
      intro pre hm hn
      have ih := ih (pre ++ taskOf x f) (fun g hg => hm g (by simp [hg])) (by simpa using hn)
      simp only [List.flatMap_cons]
      unfold genConnects
      cases ha : (f.isAsync || f.isRead) with
      | false =>
        have : taskOf x f = [] := by
          simp at ha
          simp [taskOf, ha]
        simp only [Bool.false_eq_true, if_false, List.nil_append, this]
        rw [this, List.append_nil] at ih
        exact ih
      | true =>
        simp only [if_true, List.cons_append, List.nil_append, callAll]
        rw [connect_exec hR ns scope (hm f (by simp)) ha]
        · simp only [bind, Except.bind]
          rw [← List.append_assoc]
          exact ih
        · intro p hp hmem
          simp only [List.map_append, List.flatMap_cons] at hn
          obtain ⟨-, -, h3⟩ := List.nodup_append.1 hn
          exact h3 _ hmem _ (List.mem_append_left _ (List.mem_map.2 ⟨p, hp, rfl⟩)) rfl
  have := key (methodsOf S) [] (fun f hf => hf) (by simpa using tasks_nodup hR)
  simp only [List.nil_append] at this
  rw [show (genClient x ns scope S).connects = (methodsOf S).flatMap (genConnects x) by simp [genClient, Props.findFnNodes_eq]]
  exact this

/-! ### Names belong to one method -/

theorem nodup_flatMap_eq {α β : Type} {F : α → List β} {l : List α} (h : (l.flatMap F).Nodup) {a b : α} (ha : a ∈ l) (hb : b ∈ l)
    {y : β} (h1 : y ∈ F a) (h2 : y ∈ F b) : a = b := by
  induction l with
  | nil => simp at ha
  | cons c l ih =>
    simp only [List.flatMap_cons] at h
    obtain ⟨-, h4, h5⟩ := List.nodup_append.1 h
    rcases List.mem_cons.1 ha with e1 | ha <;> rcases List.mem_cons.1 hb with e2 | hb
    · rw [e1, e2]
    · exact absurd rfl (h5 _ (e1 ▸ h1) _ (List.mem_flatMap.2 ⟨b, hb, h2⟩))
    · exact absurd rfl (h5 _ (e2 ▸ h2) _ (List.mem_flatMap.2 ⟨a, ha, h1⟩))
    · exact ih h4 ha hb

theorem fields_nodup (hR : DartRpcNamed x S) : ((methodsOf S).flatMap (clientFields x)).Nodup := by
  have h := hR.members
  have := (List.nodup_append.1 h).1
  have := (List.nodup_append.1 this).1
  exact (List.nodup_append.1 this).2.1

theorem clientMethods_nodup (hR : DartRpcNamed x S) : ((methodsOf S).flatMap (clientMethods x)).Nodup :=
  (List.nodup_append.1 hR.members).2.1

theorem completers_inj (hR : DartRpcNamed x S) {f g : FnNode} (hf : f ∈ methodsOf S) (hg : g ∈ methodsOf S) (fr : f.isRead = false)
    (fa : f.isAsync = true) (gr : g.isRead = false) (ga : g.isAsync = true)
    (e : varMethodCompleters x f = varMethodCompleters x g) : f = g :=
  nodup_flatMap_eq (fields_nodup hR) hf hg (y := varMethodCompleters x f)
    (by simp [clientFields, fr, fa, varMethodCompleters]) (by rw [e]; simp [clientFields, gr, ga, varMethodCompleters])

theorem last_inj (hR : DartRpcNamed x S) {f g : FnNode} (hf : f ∈ methodsOf S) (hg : g ∈ methodsOf S) (fr : f.isRead = false)
    (fa : f.isAsync = true) (gr : g.isRead = false) (ga : g.isAsync = true)
    (e : varLastMethodId x f = varLastMethodId x g) : f = g :=
  nodup_flatMap_eq (fields_nodup hR) hf hg (y := varLastMethodId x f)
    (by simp [clientFields, fr, fa, varLastMethodId]) (by rw [e]; simp [clientFields, gr, ga, varLastMethodId])

theorem camel_inj (hR : DartRpcNamed x S) {f g : FnNode} (hf : f ∈ methodsOf S) (hg : g ∈ methodsOf S) (fr : f.isRead = false)
    (gr : g.isRead = false) (e : x.camel f.id = x.camel g.id) : f = g :=
  nodup_flatMap_eq (clientMethods_nodup hR) hf hg (y := x.camel f.id)
    (by cases h : f.isAsync <;> simp [clientMethods, fr, h]) (by rw [e]; cases h : g.isAsync <;> simp [clientMethods, gr, h])

/-! ### What calls and reads can do -/

/-- A call that returns a future is a call of an asynchronous method. -/
theorem call_inv (ns scope : String) {k : Nat} {name : String} {ds : List Val} {w w' : World ω} {n : Nat}
    (hloop : ∀ m o, ∃ e, loop m o = .error e)
    (h : callMethod rt (genProg x S) k hd rot (genClient x ns scope S) lib loop name ds w = .ok (.future n, w')) :
    ∃ g ∈ methodsOf S, g.isRead = false ∧ g.isAsync = true ∧ name = x.camel g.id ∧ n = w.client.created ∧
      ∃ bs, evalWStmts rt (genProg x S) k hd (((genParams x g).map (·.2)).zip ds) ⟨some (w.client.last (varLastMethodId x g)), none, none⟩
          (.status :: .methodId :: genArgWrites x g) = .ok bs ∧
        w' = ⟨w.client.afterCall x rot g,
          setMem w.mem g.position ((w.mem g.position).set .server (lib (w.mem g.position).server bs)),
          w.sent ++ [(g.position, .server, bs)], w.rest⟩ := by
  unfold callMethod at h
  cases hf : (genClient x ns scope S).methods.find? (fun m => m.name = name) with
  | none => simp [hf] at h
  | some m =>
    simp only [hf] at h
    split at h
    case isFalse => simp at h
    case isTrue hok =>
    have hmem := List.mem_of_find?_eq_some hf
    have hname : m.name = name := by simpa using List.find?_some hf
    simp only [genClient, Props.findFnNodes_eq, List.mem_flatMap] at hmem
    obtain ⟨g, hg, hm⟩ := hmem
    cases hr : g.isRead with
    | true =>
      simp only [genDMethods, hr, if_true, List.mem_singleton] at hm
      subst hm
      simp only [genReadConnect, execD] at h
      split at h
      · split at h <;> simp at h
      · simp at h
    | false =>
      cases ha : g.isAsync with
      | false =>
        simp only [genDMethods, hr, ha, Bool.false_eq_true, if_false, List.mem_singleton] at hm
        subst hm
        simp only [genSync, List.cons_append, List.nil_append, execD, bind, Except.bind] at h
        split at h
        · simp at h
        · rename_i m hw
          obtain ⟨e, he⟩ := hloop (setMem w.mem g.position ((w.mem g.position).set .server (lib ((w.mem g.position).get .server) m))) w.rest
          rw [he] at h
          simp at h
      | true =>
        simp only [genDMethods, hr, ha, if_true, Bool.false_eq_true, if_false, List.mem_cons, List.not_mem_nil, or_false] at hm
        rcases hm with rfl | rfl
        · simp only [genAsyncConnect, execD] at h
          split at h
          · split at h <;> simp at h
          · simp at h
        · refine ⟨g, hg, hr, ha, hname.symm, ?_⟩
          have m1 : varLastMethodId x g ∈ (genClient x ns scope S).members.filterMap Member.lastOf :=
            mem_members ns scope hg (m := .lastId (varLastMethodId x g)) (by simp [genMembers, hr, ha]) rfl
          have m2 : varMethodCompleters x g ∈ (genClient x ns scope S).members.filterMap Member.completersOf :=
            mem_members ns scope hg (m := .completers (varMethodCompleters x g) (retTy g)) (by simp [genMembers, hr, ha]) rfl
          simp only [genAsync, execD, if_pos m1, if_pos m2, bind, Except.bind, Bufs.get, orElse] at h
          split at h
          · simp at h
          · rename_i bs hbs
            simp only [Except.ok.injEq, Prod.mk.injEq, DRet.future.injEq] at h
            obtain ⟨rfl, rfl⟩ := h
            exact ⟨rfl, bs, hbs, rfl⟩

/-- A read of answers completes at most one pending call of its method and removes it. -/
theorem reader_effect (ns scope : String) {f : FnNode} {P : Prog} {k : Nat} {bs : Bytes} {s s' : ClientState} {v : Option Val}
    (h : runReader rt P k hd (genClient x ns scope S) (answerReader x f) .none bs s = .ok (s', v)) :
    s' = s ∨ ∃ i n dv, (∃ r1 r2, rt.readP "Int8" bs = some (.int hd, r1) ∧ rt.readP "Int64" r1 = some (.int i, r2)) ∧
      s.pending (varMethodCompleters x f) i = some n ∧ n ∉ s.done.map (·.1) ∧
      s' = { s with done := s.done ++ [(n, dv)] }.remove (varMethodCompleters x f) i := by
  have rem : ∀ i, s.pending (varMethodCompleters x f) i = none → s.remove (varMethodCompleters x f) i = s := by
    intro i hn
    unfold ClientState.remove
    have : (fun w j => if w = varMethodCompleters x f ∧ j = i then none else s.pending w j) = s.pending := by
      funext w j
      split
      · rename_i h; rw [h.1, h.2, hn]
      · rfl
    rw [this]
  have key : ∀ (l : RLocals) (bs : Bytes) (i : Int) (b : Bool) (s' : ClientState) (v : Option Val), l.methodId = some i →
      runReader rt P k hd (genClient x ns scope S) [.complete (varMethodCompleters x f) b, .remove (varMethodCompleters x f)] l bs s = .ok (s', v) →
      s' = s ∨ ∃ n dv, s.pending (varMethodCompleters x f) i = some n ∧ n ∉ s.done.map (·.1) ∧
        s' = { s with done := s.done ++ [(n, dv)] }.remove (varMethodCompleters x f) i := by
    intro l bs i b s' v hl h
    simp only [runReader, hl, orElse, bind, Except.bind] at h
    cases hn : s.pending (varMethodCompleters x f) i with
    | none =>
      simp only [hn] at h
      repeat' split at h
      all_goals first
        | (simp at h; done)
        | (simp only [Except.ok.injEq, Prod.mk.injEq] at h; exact .inl (by rw [← h.1, rem _ hn]))
    | some n =>
      simp only [hn, ClientState.complete] at h
      repeat' split at h
      all_goals try (simp at h; done)
      all_goals
        rename_i hs1
        split at hs1
        · simp at hs1
        · rename_i hnd
          simp only [Except.ok.injEq] at hs1
          subst hs1
          simp only [Except.ok.injEq, Prod.mk.injEq] at h
          exact .inr ⟨n, _, rfl, hnd, h.1.symm⟩
  have rd : ∀ m b n r, readInt rt m b = .ok (n, r) → rt.readP m b = some (.int n, r) := by
    intro m b n r hn
    unfold readInt at hn
    split at hn
    · rename_i e; simp only [Except.ok.injEq, Prod.mk.injEq] at hn; rw [e, hn.1, hn.2]
    · simp at hn
    · simp at hn
  simp only [answerReader, genReaderHead, List.cons_append, List.nil_append, runReader, bind, Except.bind, orElse] at h
  split at h
  · simp at h
  · rename_i n hn
    split at h
    · rename_i hnd
      have e1 := rd _ _ _ _ hn
      rw [hnd] at e1
      split at h
      · simp at h
      · rename_i i hi
        have e2 := rd _ _ _ _ hi
        unfold genComplete at h
        split at h
        · rename_i t ht
          simp only [List.cons_append, List.nil_append] at h
          rw [runReader] at h
          simp only [bind, Except.bind] at h
          split at h
          · simp at h
          · rcases key _ _ i.1 _ _ _ rfl h with h | ⟨n, dv, h1, h2⟩
            · exact .inl h
            · exact .inr ⟨_, n, dv, ⟨_, _, e1, e2⟩, h1, h2⟩
        · rcases key _ _ i.1 _ _ _ rfl h with h | ⟨n, dv, h1, h2⟩
          · exact .inl h
          · exact .inr ⟨_, n, dv, ⟨_, _, e1, e2⟩, h1, h2⟩
    · simp only [Bool.false_eq_true, if_false, Except.ok.injEq, Prod.mk.injEq] at h
      exact .inl h.1.symm

/-- A read of a background method touches no call. -/
theorem add_effect {C : Client} {f : FnNode} {P : Prog} {k : Nat} {bs : Bytes} {s s' : ClientState} {v : Option Val}
    (h : runReader rt P k hd C (genReaderHead ++ genAdd x f) .none bs s = .ok (s', v)) :
    ∃ evs, s' = { s with events := evs } := by
  simp only [genReaderHead, List.cons_append, List.nil_append, runReader, bind, Except.bind, orElse] at h
  split at h
  · simp at h
  · split at h
    · unfold genAdd at h
      split at h
      · simp only [runReader, bind, Except.bind] at h
        repeat' split at h
        all_goals first
          | (simp at h; done)
          | (simp only [Except.ok.injEq, Prod.mk.injEq] at h; exact ⟨_, h.1.symm⟩)
      · simp only [runReader, bind, Except.bind] at h
        repeat' split at h
        all_goals first
          | (simp at h; done)
          | (simp only [Except.ok.injEq, Prod.mk.injEq] at h; exact ⟨_, h.1.symm⟩)
    · simp only [Bool.false_eq_true, if_false, Except.ok.injEq, Prod.mk.injEq] at h
      exact ⟨_, h.1.symm⟩

end TPB.Dart
