/-
C69: emitted servers do not get stuck.
-/
import Verif.Proofs.RpcProgress
import Verif.Props.UntrustedRpc
import Verif.Props.RustRpcTyping
namespace TPB.Props
open Spec Rust

/-! ## C69: servers go on -/

theorem progress_of {rt : Runtime} (hrt : rt.Lawful) (hty : rt.Typed) {S : List ASTNode} (hS : RpcOk rt.wire S)
    (hR : ∀ f ∈ methodsOf S, f.isRead = true → ∀ t, f.returnTypeId = some t → builtin? t = none) (hA : ArgStructsUnused S) (scope : String)
    {σ : Type} {lib : BufLib} {U : User σ} (hU : UserTyped rt.wire S U) {mem : Nat → Bufs} {u : σ} {xs : List Act} {k : Nat} {c : Cfg σ}
    (hc : acts (codecAt rt ((genProg S).withArgs (genRpc scope S)) k) lib U (genRpc scope S).handlers (Cfg.initial mem u) xs = some c)
    (hL : FuturesTyped rt.wire S c.log) :
    ∃ N, ∀ k', N ≤ k' → Progress rt S (codecAt rt ((genProg S).withArgs (genRpc scope S)) k') lib U (genRpc scope S).handlers c := by
  rw [withArgs_genProg] at hc ⊢
  have hsafe : MethodsSafe S := ⟨hS.accepted.wf, hS.rpcNamed, hR⟩
  have hargs := wellNamed_args hS.named hS.rpcNamed
  refine server_progress hrt hty hsafe hS.named hS.distinct hS.noClash hS.noExt lib U ?_
  refine acts_safe hsafe (G := RequestVal rt S) ?_ ?_ xs hL ⟨by simp [Cfg.initial], by simp [Cfg.initial]⟩ hc
  · intro f hf hr bs v hv
    exact requestVal_of hty hS.named hS.rpcNamed hS.accepted.wf hA hf hr hv
  · rintro f hf ha vs u ⟨-, h1, h2⟩
    refine hU f hf ha vs u ?_
    cases hr : f.isRead with
    | true =>
      have e : (argsOf f).map (·.2) = [] := by simp [argsOf, (wf_method hS.accepted.wf hf).2.2 hr]
      have h1 : vs = [] := h1 hr
      rw [e, h1]
      exact .nil
    | false =>
      obtain ⟨v, ⟨-, hv⟩, fr, hfr, hcall⟩ := h2 hr
      obtain ⟨mid, ws, rfl, hm, hws⟩ := hasTys_args hargs hf hr hv
      have hl := hasTys_length hws
      rw [callArgs_val hm (by simpa [argsOf] using hl) (hS.rpcNamed.args f hf).1 (hS.rpcNamed.args f hf).2 hfr] at hcall
      simp only [Except.ok.injEq] at hcall
      rw [← hcall]
      exact hasTys_without hA hws (fun t ht g hg => hA.args g hg f hf t ht)

/-- **C69** Take any history of the server, with arbitrary bytes written to the buffers by anyone, in which the user's
functions return values of the declared types.  Then, with enough stack, everything that runs can go on: the running
handler executes its next statement or returns, and each spawned future executes its next statement, awaits the user's
function or has ended.  The one exception: a handler may panic where it reads the server buffer of its method, if the
contents are malformed. -/
theorem C69_progress (rt : Runtime) (hrt : rt.Lawful) (hty : rt.Typed) (S : List ASTNode) (hS : RpcOk rt.wire S)
    (hR : ∀ f ∈ methodsOf S, f.isRead = true → ∀ t, f.returnTypeId = some t → builtin? t = none)
    (hA : ArgStructsUnused S) (hM : methodsOf S ≠ []) (out : String) (hout : RustGen.rpc S = .ok out) :
    ∃ P R, Emits S P ∧ EmitsRpc S R ∧
      ∀ (σ : Type) (lib : BufLib) (U : User σ), UserTyped rt.wire S U → ∀ (mem : Nat → Bufs) (u : σ) (xs : List Act) (k : Nat) (c : Cfg σ),
        acts (codecAt rt (P.withArgs R) k) lib U R.handlers (Cfg.initial mem u) xs = some c → FuturesTyped rt.wire S c.log →
        ∃ N, ∀ k', N ≤ k' → Progress rt S (codecAt rt (P.withArgs R) k') lib U R.handlers c := by
  obtain ⟨scope, hE⟩ := emitsRpc_of hS.accepted.wf hout hM
  exact ⟨_, _, emits_genProg S hS.accepted, hE, fun σ lib U hU mem u xs k c hc hL => progress_of hrt hty hS hR hA scope hU hc hL⟩

/-- C69: in particular for the schemas whose Rust code type-checks (C62). -/
theorem C69_compiled_progress (rt : Runtime) (hrt : rt.Lawful) (hty : rt.Typed) (L : Crates) (H : Host) (S : List ASTNode)
    (hS : RpcOk rt.wire S) (hA : ArgStructsUnused S) (hM : HasRpc S) (hH : HostOk H S) :
    ∃ P R items impls, Emits S P ∧ EmitsRpc S R ∧ EmitsRustRpc S items impls R ∧ (RustRpcTyped L H items impls R →
      ∀ (σ : Type) (lib : BufLib) (U : User σ), UserTyped rt.wire S U → ∀ (mem : Nat → Bufs) (u : σ) (xs : List Act) (k : Nat) (c : Cfg σ),
        acts (codecAt rt (P.withArgs R) k) lib U R.handlers (Cfg.initial mem u) xs = some c → FuturesTyped rt.wire S c.log →
        ∃ N, ∀ k', N ≤ k' → Progress rt S (codecAt rt (P.withArgs R) k') lib U R.handlers c) := by
  obtain ⟨scope, hE, hi⟩ := rpc_typed_iff (L := L) hM hH
  exact ⟨_, _, _, _, emits_genProg S hS.accepted, hE.2, hE, fun ht σ lib U hU mem u xs k c hc hL =>
    progress_of hrt hty hS (hi.1 ht).reads hA scope hU hc hL⟩

/-- C69: the condition on read methods is needed.  A read method of a built-in type gets stuck as soon as its function
has a value: the handler passes a reference where a value is needed, which rustc rejects. -/
theorem C69_builtin_read_stuck (f : FnNode) (hr : f.isRead = true) (ha : f.isAsync = false) (t : TypeId) (p : String)
    (ht : f.returnTypeId = some t) (hp : builtin? t = some p) (hn : f.id ∉ ["scope_id", "memory", "rpc_method_address"])
    (σ : Type) (C : Codec) (lib : BufLib) (U : User σ) (m : Bufs) (u : σ) (b : Bytes) (hC : C.prim "u8" (.int 255) = some b) (v : Val)
    (hU : (U f.id [] u).1 = .opt (some v)) : runHandler C lib U (genHandler f) m u = .error .stuck := by
  simp only [List.mem_cons, List.not_mem_nil, or_false, not_or] at hn
  obtain ⟨h1, h2, h3⟩ := hn
  have hres : genResults f = [.resultPrim p] := by
    simp only [genResults, ht]
    cases t <;> simp [builtin?] at hp <;> subst hp <;> rfl
  simp [runHandler, genHandler, hr, ha, genSyncReadBody, hres, stmtsSize, Stmt.size, runThread, step, Handler.start, Sig.names, h1, h2, h3,
    callArgs, hU, bindResult, Thread.enter, evalBufWs, evalBufW, Status.val, hC, orElse, bind, Except.bind]

/-! ### Non-vacuity of C69 -/

/-- `add` returns its first argument, `now` has no value the first time it is called, and then one. -/
def typedUser : User Nat := fun f vs u =>
  match f, vs with
  | "add", v :: _ => (.val v, u + 1)
  | "now", _ => (.opt (if u = 0 then none else some (pt 7)), u + 1)
  | _, _ => (.unit, u + 1)

theorem pt_rust {n : Int} (hx : -(2 ^ 31) ≤ n ∧ n < 2 ^ 31) : HasTy LE.wire rpcSchema (.other "Point") (pt n) :=
  .struct ⟨"Point", [⟨0, "x", .integer "i32" 4 true⟩, ⟨1, "tags", .generic "Vec" [.other "String"]⟩], true, true⟩ [.int n, .list 1 [.ext "String" 7]]
    _ _ (by simp [rpcSchema]) (.leaf _ _ _ _ hx (.list "Vec" [.other "String"] 1 [.other "String"] _ _ _ rfl rfl
      (.ext _ _ _ _ (by decide) (by decide) .nil) .nil)) .nil

theorem hasTys_first {W : Wire} {S : List ASTNode} {t : TypeId} {ts : List TypeId} {vs : List Val} (h : HasTys W S (t :: ts) vs) :
    ∃ v ws, vs = v :: ws ∧ HasTy W S t v := by
  cases h with
  | leaf _ v _ vs h _ => exact ⟨_, _, rfl, .leaf _ _ _ _ h .nil⟩
  | struct n fvs _ _ h h' _ => exact ⟨_, _, rfl, .struct _ _ _ _ h h' .nil⟩
  | enum n i pvs _ _ h1 h2 h3 _ => exact ⟨_, _, rfl, .enum _ _ _ _ _ h1 h2 h3 .nil⟩
  | list c gs s its items _ _ h1 h2 h3 _ => exact ⟨_, _, rfl, .list _ _ _ _ _ _ _ h1 h2 h3 .nil⟩
  | ext id v _ _ h1 h2 _ => exact ⟨_, _, rfl, .ext _ _ _ _ h1 h2 .nil⟩

theorem typedUser_typed : UserTyped LE.rust.strict.wire rpcSchema typedUser := by
  intro f hf ha vs u hv
  simp only [rpcSchema, methodsOf, List.filterMap_cons, List.filterMap_nil, List.mem_cons, List.not_mem_nil, or_false] at hf
  rcases hf with rfl | rfl | rfl | rfl | rfl <;> simp at ha
  · obtain ⟨v, ws, rfl, h⟩ := hasTys_first hv
    exact ⟨rfl, _, rfl, h⟩
  · refine ⟨rfl, ?_⟩
    intro v e t ht
    obtain rfl := Option.some.inj ht
    split at e <;> simp only [reduceCtorEq, Option.some.injEq] at e
    subst e
    exact pt_rust (by decide)
  · exact ⟨rfl, rfl⟩

/-- An answered request, a call of a read method with a value, an asynchronous call, and then bytes that are no request. -/
def busyHistory : List Act :=
  [.request 0 (255 :: (ptBytes 1 ++ LE.le 8 5)), .poll 0] ++ List.replicate 8 .stepH ++
  [.endH, .poll 2] ++ List.replicate 4 .stepH ++
  [.endH, .request 1 (255 :: (LE.le 8 3 ++ ptBytes 1)), .poll 1] ++ List.replicate 8 .stepH ++
  [.endH, .stepT 0, .stepT 0, .resume 0 (.val (.int 9)), .stepT 0, .request 0 (255 :: (LE.le 4 1 ++ LE.le 8 3)), .poll 0]

/-- The only results of futures in the log are numbers that `slow` returned. -/
def slowResult : Ev → Bool
  | .finished _ f _ (.val (.int n)) => f == "slow" && decide (-(2 ^ 63) ≤ n ∧ n < 2 ^ 63)
  | .finished _ _ _ _ => false
  | _ => true

theorem futuresTyped_of {log : List Ev} (h : log.all slowResult = true) : FuturesTyped LE.rust.strict.wire rpcSchema log := by
  intro a g vs r hm f hf e
  have h := List.all_eq_true.1 h _ hm
  cases r with
  | val v =>
    cases v with
    | int n =>
      simp only [slowResult, Bool.and_eq_true, beq_iff_eq, decide_eq_true_eq] at h
      rw [h.1] at e
      simp only [rpcSchema, methodsOf, List.filterMap_cons, List.filterMap_nil, List.mem_cons, List.not_mem_nil, or_false] at hf
      rcases hf with rfl | rfl | rfl | rfl | rfl <;> simp at e
      exact ⟨rfl, _, rfl, .leaf _ _ _ _ h.2 .nil⟩
    | _ => simp [slowResult] at h
  | _ => simp [slowResult] at h

/-- The state after `xs`, and whether the running handler can execute its next statement there. -/
def observe (xs : List Act) : Option (Bool × Nat × Bool) :=
  (acts (codecAt LE.rust.strict ((genProg rpcSchema).withArgs (genRpc "8b61" rpcSchema)) 10) overwrite typedUser
      (genRpc "8b61" rpcSchema).handlers (Cfg.initial (fun _ => ⟨[0], [0]⟩) 0) xs).map
    (fun c => (c.log.all slowResult, c.log.length, (act (codecAt LE.rust.strict ((genProg rpcSchema).withArgs (genRpc "8b61" rpcSchema)) 10)
      overwrite typedUser (genRpc "8b61" rpcSchema).handlers c .stepH).isSome))

/-- The history is one, its results have the declared types, and the handler then panics on the bytes that are no
request. -/
example : observe busyHistory = some (true, 10, false) := by decide +kernel

/-- On a request it does not. -/
example : observe (busyHistory ++ [.request 0 (255 :: (ptBytes 1 ++ LE.le 8 5))]) = some (true, 11, true) := by decide +kernel

theorem rpcSchema_reads : ∀ f ∈ methodsOf rpcSchema, f.isRead = true → ∀ t, f.returnTypeId = some t → builtin? t = none := by
  intro f hf hr t ht
  simp only [rpcSchema, methodsOf, List.filterMap_cons, List.filterMap_nil, List.mem_cons, List.not_mem_nil, or_false] at hf
  rcases hf with rfl | rfl | rfl | rfl | rfl <;> simp at hr <;> obtain rfl := Option.some.inj ht <;> rfl

/-- The theorem applies to the schema, the library and the user's functions of the example. -/
example : ∃ P R, Emits rpcSchema P ∧ EmitsRpc rpcSchema R ∧ ∀ (xs : List Act) (k : Nat) (c : Cfg Nat),
    acts (codecAt LE.rust.strict (P.withArgs R) k) overwrite typedUser R.handlers (Cfg.initial (fun _ => ⟨[0], [0]⟩) 0) xs = some c →
    c.log.all slowResult = true →
    ∃ N, ∀ k', N ≤ k' → Progress LE.rust.strict rpcSchema (codecAt LE.rust.strict (P.withArgs R) k') overwrite typedUser R.handlers c := by
  obtain ⟨out, hout⟩ := rpcSchema_out
  obtain ⟨P, R, h1, h2, h3⟩ := C69_progress LE.rust.strict (strict_lawful LE.rust_lawful) le_strict_typed rpcSchema rpcSchema_ok rpcSchema_reads
    rpcSchema_unused rpcSchema_methods out hout
  exact ⟨P, R, h1, h2, fun xs k c hc hl => h3 Nat overwrite typedUser typedUser_typed _ _ xs k c hc (futuresTyped_of hl)⟩

end TPB.Props
