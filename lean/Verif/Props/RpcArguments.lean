/-
Property theorems about the requests that the emitted Dart client sends: C65.

`World.sent` lists what the client has written to the shared buffers, `Enc`/`DRep` (in `Spec/Wire.lean` and
`Spec/Dart.lean`) say what the bytes of Dart objects are.
-/
import Verif.Props.DartRpcTyping
import Verif.Props.RpcSystem
namespace TPB.Props
open Spec Dart Spec.DartRules
open Rust (Buf Bufs BufLib setMem)

/-- The bytes of a request: the marker, the id of the request (asynchronous methods only) and the arguments.
`last` are the counters of the client. -/
def RequestOf (x : Ext) (D : Wire) (hd : Int) (f : FnNode) (last : String → Int) (args bs : Bytes) : Prop :=
  ∃ sb mb, D.prim "Int8" (.int hd) = some sb ∧
    (if f.isAsync then D.prim "Int64" (.int (last ("_last" ++ x.pascal f.id ++ "MethodId"))) = some mb else mb = []) ∧
    bs = sb ++ mb ++ args

/-- **C65 (partial).** A call of a method of the client writes one message to the server buffer of that method,
and no other: the marker, the id for asynchronous methods, and the bytes of exactly the arguments of the call,
in the order of the schema.  A call of an asynchronous method always succeeds.  This holds in every state of
the client and whatever the buffers contain.  Missing: arguments called like a variable of the method, see
`C65_method_id`. -/
theorem C65_sends_arguments_partial (x : Ext) (rt : Dart.Runtime) (hrt : rt.Lawful) (S : List ASTNode) (ns scope : String)
    (hS : HasClient S ns scope) (hN : DartNamed x S) (hR : DartRpcNamed x S) (hd : Int) :
    ∃ P C, EmitsDartRpc x S P C ∧ ∀ f ∈ methodsOf S, f.isRead = false → (∀ a ∈ f.args, LibraryFree S a.typeId) →
      ∀ us ds b, Enc rt.wire (dartSchema S) ((f.args.map (·.typeId)).map dartView) us b →
        DRep x (dartSchema S) ((f.args.map (·.typeId)).map dartView) us ds →
        ∃ N, ∀ k, N ≤ k → ∀ (ω : Type) (lib : BufLib) (loop : (Nat → Bufs) → ω → Res ((Nat → Bufs) × ω)) (rotate : Int → Int)
          (w : World ω) bs, RequestOf x rt.wire hd f w.client.last b bs →
          (∀ r w', callMethod rt P k hd rotate C lib loop (x.camel f.id) ds w = .ok (r, w') →
            w'.sent = w.sent ++ [(f.position, .server, bs)]) ∧
          (f.isAsync = true → ∃ n w', callMethod rt P k hd rotate C lib loop (x.camel f.id) ds w = .ok (.future n, w') ∧
            w'.mem = setMem w.mem f.position ((w.mem f.position).set .server (lib (w.mem f.position).server bs))) := by
  refine ⟨_, _, emitsDartRpc hS, fun f hf hr hl us ds b he hds => ?_⟩
  have hp := plain_of_accepted hS.accepted
  obtain ⟨hlen, N, hw⟩ := args_write (hd := hd) hp hN hR hf hl he hds
  refine ⟨N, fun k hk ω lib loop rotate w bs hbs => ?_⟩
  obtain ⟨sb, mb, h1, h2, rfl⟩ := hbs
  have h1' := (wire_int hrt (by decide) h1).1
  cases ha : f.isAsync with
  | true =>
    simp only [ha, if_true] at h2
    have := async_exec (rot := rotate) (lib := lib) (loop := loop) hR ns scope hf hr ha hlen (w := w) h1' (wire_int hrt (by decide) h2).1 (hw k hk)
    refine ⟨fun r w' h => ?_, fun _ => ⟨_, _, this, rfl⟩⟩
    rw [this] at h
    cases h
    rfl
  | false =>
    simp only [ha, Bool.false_eq_true, if_false] at h2
    subst h2
    refine ⟨fun r w' h => ?_, by simp⟩
    have hws : evalWStmts rt (genProg x S) k hd (((genParams x f).map (·.2)).zip ds) ⟨none, none, none⟩ (.status :: genArgWrites x f)
        = .ok (sb ++ b) := by
      simp only [evalWStmts, evalWStmt, h1', orElse, bind, Except.bind, hw k hk ⟨none, none, none⟩ (.inl rfl)]
    unfold callMethod at h
    rw [find_method hR ns scope hf (m := genSync x f) (by simp [genDMethods, hr, ha]) (n := x.camel f.id) rfl] at h
    simp only at h
    split at h
    · simp only [genSync, List.cons_append, List.nil_append, execD, hws, bind, Except.bind, Bufs.get, genSyncResult] at h
      cases hlp : loop (setMem w.mem f.position ((w.mem f.position).set .server (lib (w.mem f.position).server (sb ++ b)))) w.rest with
      | error e => rw [hlp] at h; simp at h
      | ok p =>
        rw [hlp] at h
        cases hret : f.returnTypeId with
        | none =>
          simp only [hret, execD] at h
          cases h
          simp
        | some t =>
          simp only [hret, execD, bind, Except.bind] at h
          split at h
          · simp at h
          · rename_i q _
            cases hq : q.2 with
            | none => simp [hq, orElse] at h
            | some v =>
              simp [hq, orElse] at h
              rw [← h.2]
              simp
    · simp at h

/-! ### Hidden arguments -/

theorem evalWStmts_congr {rt : Dart.Runtime} {P : Prog} {k : Nat} {hd : Int} {ps ps' : List (String × Val)} {l : MLocals}
    (h : ∀ n, readVar ps l n = readVar ps' l n) : ∀ ws, evalWStmts rt P k hd ps l ws = evalWStmts rt P k hd ps' l ws
  | [] => rfl
  | w :: ws => by
    have : evalWStmt rt P k hd ps l w = evalWStmt rt P k hd ps' l w := by
      unfold evalWStmt
      cases w <;> simp only [h]
    simp only [evalWStmts, this, evalWStmts_congr h ws]

theorem lookup_zip_other {n a : String} (h : n ≠ a) {d d' : Val} {es : List Val} : ∀ (as : List String) (bs : List String) (ds : List Val),
    ds.length = as.length → ((as ++ a :: bs).zip (ds ++ d :: es)).lookup n = ((as ++ a :: bs).zip (ds ++ d' :: es)).lookup n
  | [], bs, ds, hl => by
    obtain rfl : ds = [] := by simpa using hl
    have : (n == a) = false := by simpa using h
    simp [List.lookup_cons, this]
  | b :: as, bs, [], hl => by simp at hl
  | b :: as, bs, e :: ds, hl => by
    simp only [List.cons_append, List.zip_cons_cons, List.lookup_cons]
    rw [lookup_zip_other h as bs ds (by simpa using hl)]

theorem same_effect {x : Ext} {S : List ASTNode} (ns scope : String) (hn : (clientNames x S).Nodup)
    {f : FnNode} (hf : f ∈ methodsOf S) (hr : f.isRead = false) (ha : f.isAsync = true)
    {as : List FnArg} {a : FnArg} {bs : List FnArg} (hargs : f.args = as ++ a :: bs) (hid : x.camel a.id = "methodId")
    {rt : Dart.Runtime} {k : Nat} {hd : Int} {ω : Type} {lib : BufLib} {loop : (Nat → Bufs) → ω → Res ((Nat → Bufs) × ω)}
    {rotate : Int → Int} {w : World ω} {ds : List Val} (d d' : Val) {es : List Val} (hl : ds.length = as.length) :
    callMethod rt (genProg x S) k hd rotate (genClient x ns scope S) lib loop (x.camel f.id) (ds ++ d :: es) w
      = callMethod rt (genProg x S) k hd rotate (genClient x ns scope S) lib loop (x.camel f.id) (ds ++ d' :: es) w := by
  have hmn : ((genClient x ns scope S).methods.map (·.name)).Nodup := by
    have h := hn
    rw [← classNames_eq (ns := ns) (scope := scope)] at h
    exact (List.nodup_append.1 h).2.1
  unfold callMethod
  rw [find_name hmn (mem_methods ns scope hf (m := genAsync x f) (by simp [genDMethods, hr, ha])) (n := x.camel f.id) rfl]
  have hlen : (ds ++ d :: es).length = (ds ++ d' :: es).length := by simp
  simp only [hlen]
  split
  · have hread : ∀ i c r, ∀ n, readVar (((genParams x f).map (·.2)).zip (ds ++ d :: es)) ⟨some i, c, r⟩ n
        = readVar (((genParams x f).map (·.2)).zip (ds ++ d' :: es)) ⟨some i, c, r⟩ n := by
      intro i c r n
      unfold readVar
      split
      · rfl
      · rename_i hne
        have e : (genParams x f).map (·.2) = as.map (fun a => x.camel a.id) ++ "methodId" :: bs.map (fun a => x.camel a.id) := by
          simp [genParams, hargs, hid, Function.comp_def]
        rw [e]
        exact lookup_zip_other hne _ _ _ (by simpa using hl)
    simp only [genAsync, execD]
    split
    · rw [evalWStmts_congr (hread _ _ _)]
    · rfl
  · rfl

/-- **C65, refuted: an argument called `method_id`.** If an argument of an asynchronous method has the Dart name
`methodId`, what is passed for it is ignored: calls that differ only in it have the same effect, in every state.
The id of the request is sent in its place. -/
theorem C65_method_id (x : Ext) (S : List ASTNode) (ns scope : String) (hS : HasClient S ns scope) (hn : (clientNames x S).Nodup)
    (f : FnNode) (hf : f ∈ methodsOf S) (hr : f.isRead = false) (ha : f.isAsync = true)
    (as : List FnArg) (a : FnArg) (bs : List FnArg) (hargs : f.args = as ++ a :: bs) (hid : x.camel a.id = "methodId") :
    ∃ P C, EmitsDartRpc x S P C ∧
      ∀ (rt : Dart.Runtime) (k : Nat) (hd : Int) (ω : Type) (lib : BufLib) (loop : (Nat → Bufs) → ω → Res ((Nat → Bufs) × ω))
        (rotate : Int → Int) (w : World ω) (ds : List Val) (d d' : Val) (es : List Val), ds.length = as.length →
        callMethod rt P k hd rotate C lib loop (x.camel f.id) (ds ++ d :: es) w
          = callMethod rt P k hd rotate C lib loop (x.camel f.id) (ds ++ d' :: es) w := 
  ⟨_, _, emitsDartRpc hS, fun _ _ _ _ _ _ _ _ _ d d' _ hl => same_effect ns scope hn hf hr ha hargs hid d d' hl⟩

/-! ### Examples -/

/-- `slow(p: ..)` sends its point, in every state whose counter has 64 bits. -/
example : ∃ P C, EmitsDartRpc testExt rpcSchema P C ∧ ∃ us b, ∃ N, ∀ k, N ≤ k → ∀ (w : World Unit) lib loop bs,
    Enc LE.dart.wire (dartSchema rpcSchema) [.other "Point"] us b ∧
    (RequestOf testExt LE.dart.wire (-1) slow w.client.last b bs → ∃ r w',
      callMethod LE.dart P k (-1) (· + 1) C lib loop "slow" [pt 7] w = .ok (r, w') ∧ w'.sent = w.sent ++ [(1, .server, bs)]) := by
  have hf : slow ∈ methodsOf rpcSchema := slow_mem
  obtain ⟨h1, h2⟩ := pt_dart (n := 7) (by decide) ⟨.nil, .nil⟩
  obtain ⟨b, hb⟩ := Dart.hasTys_enc LE.dart_lawful rpcSchema_dartNamed (Dart.plain_of_accepted rpcSchema_accepted).types
    rpcSchema_portable.numbers h1 [.other "Point"] rfl (by
      simpa [slow] using (Dart.sizedFn_of_wf rpcSchema_wf hf).1)
  obtain ⟨P, C, h, h'⟩ := C65_sends_arguments_partial testExt LE.dart LE.dart_lawful rpcSchema "demo" "8b61" rpcSchema_hasClient
    rpcSchema_dartNamed rpcSchema_client (-1)
  obtain ⟨N, h3⟩ := h' slow hf rfl (fun a ha => ((rpcSchema_portableMethod hf).args a ha).2) _ _ _ hb h2
  refine ⟨P, C, h, _, b, N, fun k hk w lib loop bs => ⟨hb, fun hbs => ?_⟩⟩
  obtain ⟨h4, h5⟩ := h3 k hk Unit lib loop (· + 1) w bs hbs
  rw [slow_camel] at h4 h5
  obtain ⟨n, w', h6, -⟩ := h5 rfl
  exact ⟨_, _, h6, h4 _ _ h6⟩

/-- `async fn move(dx: i64, method_id: i64);` -/
def moveFn : FnNode := ⟨"move", 0, [⟨"dx", .integer "i64" 8 true⟩, ⟨"method_id", .integer "i64" 8 true⟩], none, false, true⟩

def hiddenSchema : List ASTNode := clientSchema "8b61" [moveFn] "S"

theorem hiddenSchema_hasClient : HasClient hiddenSchema "demo" "8b61" := by
  have hi : WFType (.integer "i64" 8 true) := .name "i64"
  refine ⟨?_, by simp [hiddenSchema, clientSchema, methodsOf], (directiveIs_iff ..).2 ⟨_, rfl⟩, (directiveIs_iff ..).2 ⟨_, rfl⟩⟩
  obtain ⟨ts, _, h⟩ := C09_every_schema hiddenSchema (by
    simp [hiddenSchema, moveFn, clientSchema, WFSchema, WFDecl, WFConst, WFFields, fnCount, hi]
    exact ⟨rfl, rfl, by simp [PosOk]⟩)
  exact ⟨_, h⟩

theorem hiddenSchema_typable : DartTypable testExt exampleLib hiddenSchema := by
  refine ⟨by decide +kernel, ?_, ?_, ?_, ?_, ?_, ?_⟩
  · unfold DartTypeName
    decide +kernel
  · simp [hiddenSchema, clientSchema, directTypes, fieldsOf]
  · simp [hiddenSchema, clientSchema, directTypes, fieldsOf]
  · intro n hn
    simp [hiddenSchema, clientSchema] at hn
    subst hn
    exact ⟨⟨by decide, by simp [dartFields], by simp [dartFields], by simp [dartFields]⟩, by simp [Free, dartFieldNames]⟩
  · simp [hiddenSchema, clientSchema]
  · simp [hiddenSchema, clientSchema]

theorem hiddenSchema_rpcTypable : DartRpcTypable testExt hiddenSchema "demo" "8b61" where
  name := by unfold DartTypeName; decide +kernel
  scope := by unfold PlainText; decide +kernel
  once := by decide +kernel
  names := by unfold DartName; decide +kernel
  toString := by
    have : ∀ f ∈ methodsOf hiddenSchema, testExt.camel f.id ≠ "toString" := by decide +kernel
    exact fun f hf h => absurd h (this f hf)
  numbers := by decide +kernel
  uses := by unfold Free; decide +kernel
  args := by unfold Free; decide +kernel
  results := by unfold Free; decide +kernel
  bodies := by
    have h0 : ∀ f ∈ methodsOf hiddenSchema, ∀ a ∈ f.args, testExt.camel a.id ≠ "writer" := by decide +kernel
    have h1 : ∀ f ∈ methodsOf hiddenSchema, ∀ a ∈ f.args, testExt.camel a.id ∈ rpcLocals f → f.isAsync = true ∧
        testExt.camel a.id = "methodId" := by decide +kernel
    intro f hf hr
    constructor
    · revert f; decide +kernel
    · unfold DartName Public; revert f; decide +kernel
    · refine fun a ha => ⟨h0 f hf a ha, fun h => ⟨(h1 f hf a ha h).1, (h1 f hf a ha h).2, ?_⟩⟩
      simp [hiddenSchema, clientSchema, methodsOf] at hf
      subst hf
      simp [moveFn] at ha
      rcases ha with rfl | rfl <;> rfl
    · unfold Free; revert f; decide +kernel
    · unfold Free; revert f; decide +kernel
    · unfold Free; revert f; decide +kernel
  readers := by unfold Free; decide +kernel

/-- The client is accepted, two calls with different arguments succeed, and what they send is the same: the
marker, the id 3 of the request, `dx`, and the id again. -/
example : (∃ P C, EmitsDartRpc testExt hiddenSchema P C ∧ DartRpcTyped exampleLib P.items P.codecs C) ∧
    ∃ P C, EmitsDartRpc testExt hiddenSchema P C ∧ ∀ d,
      (callMethod LE.dart P 1 (-1) (· + 1) C overwrite (fun m (_ : Unit) => .ok (m, ())) "move" [.int 1, .int d]
        ⟨{ ClientState.fresh with last := fun _ => 3 }, fun _ => ⟨[], []⟩, [], ()⟩).toOption.map (·.2.sent)
      = some [(0, .server, [255] ++ [3, 0, 0, 0, 0, 0, 0, 0] ++ [1, 0, 0, 0, 0, 0, 0, 0] ++ [3, 0, 0, 0, 0, 0, 0, 0])] := by
  constructor
  · have e : testExt.pascal "demo" ++ "RpcClient" = "DemoRpcClient" := by decide +kernel
    obtain ⟨P, C, h1, h2⟩ := C64_dart_rpc_typed_partial testExt exampleLib hiddenSchema "demo" "8b61" hiddenSchema_hasClient
      (by rw [e, exampleLib_hide]; exact hiddenSchema_typable) (by
        rw [e, exampleLib_hide]
        intro f hf
        simp [hiddenSchema, clientSchema, methodsOf] at hf
        subst hf
        have hi : DartTypeExists exampleLib hiddenSchema (.integer "i64" 8 true) ∧ DartUsable exampleLib hiddenSchema (.integer "i64" 8 true) :=
          ⟨.builtin _ _ rfl, .builtin _ _ rfl⟩
        simp [moveFn, hi])
    exact ⟨P, C, h1, h2.2 hiddenSchema_rpcTypable⟩
  · refine ⟨genProg testExt hiddenSchema, genClient testExt "demo" "8b61" hiddenSchema, emitsDartRpc hiddenSchema_hasClient, fun d => ?_⟩
    have := same_effect (rt := LE.dart) (k := 1) (hd := -1) (ω := Unit) (lib := overwrite) (loop := fun m _ => .ok (m, ()))
      (rotate := (· + 1)) (w := ⟨{ ClientState.fresh with last := fun _ => 3 }, fun _ => ⟨[], []⟩, [], ()⟩) (ds := [.int 1]) (es := [])
      (x := testExt) (S := hiddenSchema) (f := moveFn) "demo" "8b61" (by decide +kernel) (by simp [hiddenSchema, clientSchema, methodsOf])
      rfl rfl (as := [⟨"dx", .integer "i64" 8 true⟩]) rfl (by decide +kernel) (.int d) (.int 0) rfl
    rw [show testExt.camel moveFn.id = "move" by decide +kernel] at this
    simp only [List.cons_append, List.nil_append] at this
    rw [this]
    decide +kernel

end TPB.Props
