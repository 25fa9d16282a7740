/-
C72: Dart clients whose buffers hold arbitrary bytes.
-/
import Verif.Proofs.UntrustedClient
import Verif.Proofs.UntrustedDartLE
import Verif.Props.RpcClient
namespace TPB.Props
open Spec
open Rust (Buf Bufs BufLib)
open Dart (Alone AloneAct AloneRun ClientHeld aloneAct DartResult DartAnswer MalformedAnswer MethodTypesFree genClient)

/-! ## C72: arbitrary answers -/

theorem result_sized {S : List ASTNode} (hA : Accepted S) {f : FnNode} (hf : f ∈ methodsOf S) : ∀ t, f.returnTypeId = some t → Dart.Sized t :=
  (Dart.sizedFn_of_wf hA.wf hf).2

/-- **C72** Whatever anybody writes to the buffers at whatever moment: what the program gets from the emitted client has
the declared type.  A synchronous call returns an object that stands for a value of the declared type, or nothing if
the method has no result; every asynchronous call returns a future of its own; a future that is completed is one of
a call, it is completed only once, with such an object of the called method; and so are the elements of streams. -/
theorem C72_typed_results (x : Ext) (rt : Dart.Runtime) (hrt : rt.Lawful) (hY : rt.Typed) (S : List ASTNode) (hA : Accepted S)
    (hN : DartNamed x S) (hH : HasDefaults S) (hR : DartRpcNamed x S) (hF : MethodTypesFree S) (hM : methodsOf S ≠ [])
    (out : String) (hout : DartGen.rpcMethods x S = .ok out) :
    ∃ P C, Dart.Emits x S P ∧ Dart.EmitsRpc x S C ∧
      ∀ (k : Nat) (hd : Int) (rot : Int → Int) (lib : BufLib) (mem : Nat → Bufs) (xs : List AloneAct) (s : Alone),
        AloneRun rt P k hd rot C lib mem xs s →
        (∀ name ds r, (name, ds, r) ∈ s.calls → ∃ f ∈ methodsOf S, f.isRead = false ∧ name = x.camel f.id ∧
          if f.isAsync then ∃ n, r = .future n else ∃ dv, r = .ofResult dv ∧ DartResult x rt.wire S f dv) ∧
        s.calls.Pairwise (fun c c' => ∀ n, c.2.2 = .future n → c'.2.2 ≠ .future n) ∧
        (s.client.done.map (·.1)).Nodup ∧
        (∀ n dv, (n, dv) ∈ s.client.done → ∃ f ∈ methodsOf S, f.isAsync = true ∧ DartResult x rt.wire S f dv ∧
          ∃ ds, (x.camel f.id, ds, .future n) ∈ s.calls) ∧
        ∀ f ∈ methodsOf S, f.isRead = true → ∃ l, C.stream s.client (x.camel f.id) = some l ∧ ∀ dv ∈ l, DartResult x rt.wire S f dv := by
  have hS := Dart.plain_of_accepted hA
  obtain ⟨ns, sc, hC, -⟩ := Dart.emitsRpc_of hA.wf hM hout
  refine ⟨_, _, Dart.emits_genProg hA, hC, fun k hd rot lib mem xs s h => ?_⟩
  have I := Dart.inv_run (G := fun f _ dv => DartResult x rt.wire S f dv) hR hrt ns sc h (by
    rintro ys zs t - - f hf mid dv ⟨-, _, _, -, -, h3⟩
    exact Dart.seen_typed hrt hY hS hN hH hF hf (result_sized hA hf) h3)
  refine ⟨?_, I.unique, I.nodup, ?_, ?_⟩
  · intro name ds r hc
    obtain ⟨f, hf, hr, rfl, hres⟩ := I.results _ hc
    refine ⟨f, hf, hr, rfl, ?_⟩
    rcases hres with ⟨ha, n, e⟩ | ⟨ha, ⟨e1, e2⟩ | ⟨d, -, e, hG⟩⟩
    · rw [if_pos ha]
      exact ⟨n, e⟩
    · rw [if_neg (by simp [ha])]
      exact ⟨none, e2, e1⟩
    · rw [if_neg (by simp [ha])]
      exact ⟨some d, e, hG⟩
  · intro n dv hn
    obtain ⟨f, hf, -, ha, j, ds, h1, h2⟩ := I.done _ hn
    exact ⟨f, hf, ha, h2, ds, Dart.callsOf_mem h1⟩
  · intro f hf hr
    refine ⟨_, Dart.stream_eq hR ns sc hf hr s.client, fun dv hdv => ?_⟩
    obtain ⟨e, he, rfl⟩ := List.mem_map.1 hdv
    obtain ⟨h1, h2⟩ := List.mem_filter.1 he
    obtain ⟨g, hg, gr, h3, h4⟩ := I.events e h1
    have h2 : e.1 = DartGen.varReadStreamController x f := by simpa using h2
    have := Dart.controller_inj hR hg hf gr hr (h3.symm.trans h2)
    subst this
    exact h4

/-- C72: if the library accepts only what it writes, the program gets nothing but what has been in the buffers.  A
synchronous call returns the result of an answer that the client buffer of its method has held.  A future is completed
only after the client buffer of its method has held an answer with the method id of that very call: the `j`-th call
carries the `j`-th method id.  The elements of a stream have been in the client buffer of its method. -/
theorem C72_answered (x : Ext) (rt : Dart.Runtime) (hrt : rt.Lawful) (hC : rt.Canonical) (S : List ASTNode) (hA : Accepted S)
    (hN : DartNamed x S) (hH : HasDefaults S) (hR : DartRpcNamed x S) (hF : MethodTypesFree S) (hM : methodsOf S ≠ [])
    (out : String) (hout : DartGen.rpcMethods x S = .ok out) :
    ∃ P C, Dart.Emits x S P ∧ Dart.EmitsRpc x S C ∧
      ∀ (k : Nat) (hd : Int) (rot : Int → Int) (lib : BufLib) (mem : Nat → Bufs) (xs : List AloneAct) (s : Alone),
        AloneRun rt P k hd rot C lib mem xs s →
        (∀ name ds d, (name, ds, .val d) ∈ s.calls → ∃ f ∈ methodsOf S, name = x.camel f.id ∧
          ∃ a, DartAnswer x rt.wire hd S f none (some d) a ∧ ClientHeld rt P k hd rot C lib mem xs f.position a) ∧
        (∀ n dv, (n, dv) ∈ s.client.done → ∃ f ∈ methodsOf S, ∃ j ds, (s.callsOf (x.camel f.id))[j]? = some (x.camel f.id, ds, .future n) ∧
          ∃ a, DartAnswer x rt.wire hd S f (some (idAt rot j)) dv a ∧ ClientHeld rt P k hd rot C lib mem xs f.position a) ∧
        ∀ f ∈ methodsOf S, f.isRead = true → ∃ l, C.stream s.client (x.camel f.id) = some l ∧ ∀ dv ∈ l,
          ∃ a, DartAnswer x rt.wire hd S f none dv a ∧ ClientHeld rt P k hd rot C lib mem xs f.position a := by
  have hS := Dart.plain_of_accepted hA
  obtain ⟨ns, sc, hE, -⟩ := Dart.emitsRpc_of hA.wf hM hout
  refine ⟨_, _, Dart.emits_genProg hA, hE, fun k hd rot lib mem xs s h => ?_⟩
  have I := Dart.inv_run (G := fun f mid dv => ∃ a, DartAnswer x rt.wire hd S f mid dv a ∧
      ClientHeld rt (Dart.genProg x S) k hd rot (genClient x ns sc S) lib mem xs f.position a) hR hrt ns sc h (by
    intro ys zs t e ht f hf mid dv hseen
    obtain ⟨a, rest, h1, h2⟩ := Dart.seen_answer hrt hC hS hN hH hF hf (result_sized hA hf) hseen
    exact ⟨a, h1, ys, zs, t, rest, e, ht, h2⟩)
  refine ⟨?_, ?_, ?_⟩
  · intro name ds d hc
    obtain ⟨f, hf, hr, rfl, hres⟩ := I.results _ hc
    refine ⟨f, hf, rfl, ?_⟩
    rcases hres with ⟨ha, n, e⟩ | ⟨ha, ⟨e1, e2⟩ | ⟨d', -, e, hG⟩⟩
    · simp at e
    · simp at e2
    · simp only [Dart.DRet.val.injEq] at e
      exact e ▸ hG
  · intro n dv hn
    obtain ⟨f, hf, -, ha, j, ds, h1, h2⟩ := I.done _ hn
    exact ⟨f, hf, j, ds, h1, h2⟩
  · intro f hf hr
    refine ⟨_, Dart.stream_eq hR ns sc hf hr s.client, fun dv hdv => ?_⟩
    obtain ⟨e, he, rfl⟩ := List.mem_map.1 hdv
    obtain ⟨h1, h2⟩ := List.mem_filter.1 he
    obtain ⟨g, hg, gr, h3, h4⟩ := I.events e h1
    have h2 : e.1 = DartGen.varReadStreamController x f := by simpa using h2
    have := Dart.controller_inj hR hg hf gr hr (h3.symm.trans h2)
    subst this
    exact h4

theorem client_task_lookup {x : Ext} {S : List ASTNode} (hR : DartRpcNamed x S) {f : FnNode} (hf : f ∈ methodsOf S) {p : String × Dart.RTask}
    (hp : p ∈ Dart.taskOf x f) : ((methodsOf S).flatMap (Dart.taskOf x)).lookup p.1 = some p.2 := by
  have hmem : p ∈ (methodsOf S).flatMap (Dart.taskOf x) := List.mem_flatMap.2 ⟨f, hf, hp⟩
  have hnd := Dart.tasks_nodup hR
  revert hmem hnd
  induction (methodsOf S).flatMap (Dart.taskOf x) with
  | nil => simp
  | cons q l ih =>
    intro hmem hnd
    obtain ⟨a, b⟩ := q
    simp only [List.map_cons, List.nodup_cons] at hnd
    rcases List.mem_cons.1 hmem with rfl | hmem
    · simp [List.lookup]
    · have hne : (p.1 == a) = false := by
        simp only [beq_eq_false_iff_ne, ne_eq]
        exact fun e => hnd.1 (e ▸ List.mem_map.2 ⟨p, hmem, rfl⟩)
      simp [List.lookup, hne, ih hmem hnd.2]

/-- C72: a pending call is answered.  Take a state after any such history, a call of an asynchronous method whose future
is not completed, and let no later call of the method carry the same method id.  If the client buffer of the method
holds an answer with the method id of the call, then, with enough stack, the run of the read task of the method
completes the future with the result of the answer. -/
theorem C72_completes (x : Ext) (rt : Dart.Runtime) (hrt : rt.Lawful) (S : List ASTNode) (hA : Accepted S)
    (hN : DartNamed x S) (hH : HasDefaults S) (hD : DistinctNumbers S) (hR : DartRpcNamed x S) (hF : MethodTypesFree S) (hM : methodsOf S ≠ [])
    (out : String) (hout : DartGen.rpcMethods x S = .ok out) :
    ∃ P C, Dart.Emits x S P ∧ Dart.EmitsRpc x S C ∧
      ∀ (k : Nat) (hd : Int) (rot : Int → Int) (lib : BufLib) (mem : Nat → Bufs) (xs : List AloneAct) (s : Alone),
        AloneRun rt P k hd rot C lib mem xs s →
        ∀ f ∈ methodsOf S, f.isRead = false → f.isAsync = true →
          ∃ v t, s.client.tasks.lookup v = some t ∧ t.addr = f.position ∧ t.buf = .client ∧
          ∀ j ds n, (s.callsOf (x.camel f.id))[j]? = some (x.camel f.id, ds, .future n) →
            (∀ j', j < j' → j' < (s.callsOf (x.camel f.id)).length → idAt rot j' ≠ idAt rot j) →
            n ∉ s.client.done.map (·.1) →
            ∀ dv a rest, DartAnswer x rt.wire hd S f (some (idAt rot j)) dv a → (s.mem f.position).client = a ++ rest →
            ∃ dv' N, DartAnswer x rt.wire hd S f (some (idAt rot j)) dv' a ∧ ∀ k', N ≤ k' →
              ∃ s', aloneAct rt P k' hd rot C lib s (.read v) = some s' ∧ s'.client.done = s.client.done ++ [(n, dv')] := by
  have hS := Dart.plain_of_accepted hA
  obtain ⟨ns, sc, hE, -⟩ := Dart.emitsRpc_of hA.wf hM hout
  refine ⟨_, _, Dart.emits_genProg hA, hE, fun k hd rot lib mem xs s h f hf hr ha => ?_⟩
  have I := Dart.inv_run (G := fun _ _ _ => True) hR hrt ns sc h (fun _ _ _ _ _ _ _ _ _ _ => trivial)
  have hl := client_task_lookup hR hf (p := (DartGen.varReadTask x f, ⟨f.position, .client, Dart.answerReader x f⟩)) (by simp [Dart.taskOf, hr, ha])
  refine ⟨DartGen.varReadTask x f, _, by rw [I.tasks]; exact hl, rfl, rfl, ?_⟩
  intro j ds n hj hu hn dv a rest hans hbuf
  have hp := I.live f hf hr ha j ds n hj hu hn
  obtain ⟨dv', h1, r1, r2, h2, h3, N, h4⟩ := Dart.answer_seen hrt hS hN hH hD hF hf (mid := some (idAt rot j)) (rest := rest)
    (by simp [Dart.CarriesId, hr, ha]) hans
  refine ⟨dv', N, h1, fun k' hk => ?_⟩
  rw [← hbuf] at h2
  have hrun := Dart.reader_pending (S := S) ns sc hf hr ha h2 h3 (h4 k' hk).1 hp hn
  refine ⟨{ s with client := { s.client with done := s.client.done ++ [(n, dv')] }.remove (DartGen.varMethodCompleters x f) (idAt rot j) }, ?_, rfl⟩
  simp only [aloneAct, I.tasks, hl, Dart.runTask, Bufs.get, hrun, bind, Except.bind]

/-- C72: read tasks go on.  After any such history, with enough stack, every read task that is run ends without an
error, except that it may throw if the bytes in its buffer cannot be understood. -/
theorem C72_progress (x : Ext) (rt : Dart.Runtime) (hrt : rt.Lawful) (hY : rt.Typed) (hc : rt.Consumes) (S : List ASTNode) (hA : Accepted S)
    (hN : DartNamed x S) (hH : HasDefaults S) (hD : DistinctNumbers S) (hR : DartRpcNamed x S) (hF : MethodTypesFree S) (hM : methodsOf S ≠ [])
    (out : String) (hout : DartGen.rpcMethods x S = .ok out) :
    ∃ P C, Dart.Emits x S P ∧ Dart.EmitsRpc x S C ∧
      ∀ (k : Nat) (hd : Int) (rot : Int → Int) (lib : BufLib) (mem : Nat → Bufs) (xs : List AloneAct) (s : Alone),
        AloneRun rt P k hd rot C lib mem xs s →
        ∀ v t, s.client.tasks.lookup v = some t → ∃ f ∈ methodsOf S, t.addr = f.position ∧ t.buf = .client ∧ ∃ N, ∀ k', N ≤ k' →
          (aloneAct rt P k' hd rot C lib s (.read v)).isSome ∨
          (Dart.runTask rt P k' hd C t s.mem s.client = .error .throws ∧ MalformedAnswer x rt hd S f (s.mem f.position).client) := by
  have hS := Dart.plain_of_accepted hA
  obtain ⟨ns, sc, hE, -⟩ := Dart.emitsRpc_of hA.wf hM hout
  refine ⟨_, _, Dart.emits_genProg hA, hE, fun k hd rot lib mem xs s h v t ht => ?_⟩
  have I := Dart.inv_run (G := fun _ _ _ => True) hR hrt ns sc h (fun _ _ _ _ _ _ _ _ _ _ => trivial)
  have ht' := ht
  rw [I.tasks] at ht'
  obtain ⟨g, hg, hgt⟩ := Rpc.taskOf_mem ht'
  have fin : ∀ body, t = ⟨g.position, .client, body⟩ → (∃ N, ∀ k', N ≤ k' →
      (∃ q, Dart.runReader rt (Dart.genProg x S) k' hd (genClient x ns sc S) body .none (s.mem g.position).client s.client = .ok q) ∨
      (Dart.runReader rt (Dart.genProg x S) k' hd (genClient x ns sc S) body .none (s.mem g.position).client s.client = .error .throws ∧
        MalformedAnswer x rt hd S g (s.mem g.position).client)) →
      ∃ f ∈ methodsOf S, t.addr = f.position ∧ t.buf = .client ∧ ∃ N, ∀ k', N ≤ k' →
          (aloneAct rt (Dart.genProg x S) k' hd rot (genClient x ns sc S) lib s (.read v)).isSome ∨
          (Dart.runTask rt (Dart.genProg x S) k' hd (genClient x ns sc S) t s.mem s.client = .error .throws ∧
            MalformedAnswer x rt hd S f (s.mem f.position).client) := by
    rintro body rfl ⟨N, hN⟩
    refine ⟨g, hg, rfl, rfl, N, fun k' hk => ?_⟩
    rcases hN k' hk with ⟨q, hq⟩ | ⟨hq, hm⟩
    · left
      simp [aloneAct, ht, Dart.runTask, Bufs.get, hq, bind, Except.bind]
    · right
      refine ⟨?_, hm⟩
      simp [Dart.runTask, Bufs.get, hq, bind, Except.bind]
  unfold Dart.taskOf at hgt
  split at hgt
  · rename_i gr
    simp only [List.mem_singleton, Prod.mk.injEq] at hgt
    exact fin _ hgt.2 (Dart.stream_progress hrt hY hc hS hN hH hD hF ns sc hg (result_sized hA hg) gr _)
  · rename_i gr
    split at hgt
    case isFalse => simp at hgt
    rename_i ga
    simp only [List.mem_singleton, Prod.mk.injEq] at hgt
    exact fin _ hgt.2 (Dart.answer_progress hrt hY hc hS hN hH hD hF ns sc hg (result_sized hA hg) (by simpa using gr) ga
      (fun i n hp => (I.pend _ i n hp).1) _)

/-- C72: calls go on.  After any such history, with enough stack, a call with arguments of the declared types returns,
except that a synchronous one may throw if the client buffer of its method holds no answer after the synchronous group
has run. -/
theorem C72_call_progress (x : Ext) (rt : Dart.Runtime) (hrt : rt.Lawful) (hY : rt.Typed) (hc : rt.Consumes) (S : List ASTNode) (hA : Accepted S)
    (hN : DartNamed x S) (hH : HasDefaults S) (hD : DistinctNumbers S) (hP : ∀ n, .enum n ∈ S → ∀ i ∈ n.items, i.position < 2 ^ 31)
    (hR : DartRpcNamed x S) (hF : MethodTypesFree S) (hM : methodsOf S ≠ []) (out : String) (hout : DartGen.rpcMethods x S = .ok out) :
    ∃ P C, Dart.Emits x S P ∧ Dart.EmitsRpc x S C ∧
      ∀ (k : Nat) (hd : Int) (rot : Int → Int) (lib : BufLib) (mem : Nat → Bufs) (xs : List AloneAct) (s : Alone),
        (-128 ≤ hd ∧ hd < 128) → AloneRun rt P k hd rot C lib mem xs s →
        ∀ f ∈ methodsOf S, f.isRead = false → ∀ ds, DartArgs x rt.wire S f ds →
          (f.isAsync = true → -(2 ^ 63) ≤ idAt rot (s.callsOf (x.camel f.id)).length ∧ idAt rot (s.callsOf (x.camel f.id)).length < 2 ^ 63) →
          ∀ mem', ∃ N, ∀ k', N ≤ k' →
            (aloneAct rt P k' hd rot C lib s (.call (x.camel f.id) ds mem')).isSome ∨
            (f.isAsync = false ∧ Dart.callMethod rt P k' hd rot C lib (fun _ (_ : Unit) => .ok (mem', ())) (x.camel f.id) ds
                ⟨s.client, s.mem, [], ()⟩ = .error .throws ∧
              ∀ dv a rest, DartAnswer x rt.wire hd S f none dv a → (mem' f.position).client ≠ a ++ rest) := by
  have hS := Dart.plain_of_accepted hA
  obtain ⟨ns, sc, hE, -⟩ := Dart.emitsRpc_of hA.wf hM hout
  refine ⟨_, _, Dart.emits_genProg hA, hE, fun k hd rot lib mem xs s hhd h f hf hr ds hds hid mem' => ?_⟩
  have I := Dart.inv_run (G := fun _ _ _ => True) hR hrt ns sc h (fun _ _ _ _ _ _ _ _ _ _ => trivial)
  obtain ⟨st, hst⟩ := hrt.total "Int8" _ (.int hd) Dart.int8_prim (by simp [LeafVal]; omega)
  obtain ⟨us, hu1, hu2⟩ := hds
  obtain ⟨b, he⟩ := Dart.hasTys_enc hrt hN hS.types hP hu1 (f.args.map (·.typeId)) rfl (by
    intro t ht
    obtain ⟨a, ha, rfl⟩ := List.mem_map.1 ht
    exact (Dart.sizedFn_of_wf hA.wf hf).1 a ha)
  obtain ⟨hl, N, hw⟩ := Dart.args_write (hd := hd) hS hN hR hf (hF.args f hf) he hu2
  cases ha : f.isAsync with
  | true =>
    obtain ⟨m, hm⟩ := hrt.total "Int64" _ (.int (idAt rot (s.callsOf (x.camel f.id)).length)) Dart.int64_prim (by
      have := hid ha
      simp [LeafVal]
      omega)
    refine ⟨N, fun k' hk => .inl ?_⟩
    have := Dart.async_exec (rot := rot) (lib := lib) (loop := fun _ (_ : Unit) => .ok (mem', ())) hR ns sc hf hr ha (k := k') hl (w := ⟨s.client, s.mem, [], ()⟩) hst (by rw [I.last f hf hr ha]; exact hm) (hw k' hk)
    simp [aloneAct, this]
  | false =>
    cases ht : f.returnTypeId with
    | none =>
      refine ⟨N, fun k' hk => .inl ?_⟩
      have := Dart.sync_exec (rot := rot) (lib := lib) (loop := fun _ (_ : Unit) => .ok (mem', ())) hR ns sc hf hr ha (k := k') hl hst (hw k' hk)
        (w := ⟨s.client, s.mem, [], ()⟩) (mem2 := mem') (rest2 := ()) rfl (rv := none) (by rw [ht])
      simp [aloneAct, this]
    | some t =>
      obtain ⟨N', h'⟩ := Dart.sync_progress hrt hY hc hS hN hH hD hF (C := genClient x ns sc S) (hd := hd) (s := s.client) hf ht
        (result_sized hA hf t ht) ha (mem' f.position).client
      refine ⟨max N N', fun k' hk => ?_⟩
      rcases h' k' (by omega) with ⟨d, h1⟩ | ⟨h1, h2⟩
      · left
        have := Dart.sync_exec (rot := rot) (lib := lib) (loop := fun _ (_ : Unit) => .ok (mem', ())) hR ns sc hf hr ha (k := k') hl hst (hw k' (by omega))
          (w := ⟨s.client, s.mem, [], ()⟩) (mem2 := mem') (rest2 := ()) rfl (rv := some d) (by rw [ht]; exact ⟨d, rfl, h1⟩)
        simp [aloneAct, this]
      · right
        exact ⟨rfl, Dart.sync_fails hR ns sc hf hr ha hl hst (hw k' (by omega)) (w := ⟨s.client, s.mem, [], ()⟩) ht h1, h2⟩

/-! ### Non-vacuity of C72 -/

theorem rpcSchema_typesFree : MethodTypesFree rpcSchema where
  args := fun _ hf a ha => ((rpcSchema_portableMethod hf).args a ha).2
  results := fun _ hf t ht => ((rpcSchema_portableMethod hf).result t ht).2

theorem strict_lawful : LE.dart.strict.Lawful := Dart.strict_lawful LE.dart_lawful
theorem strict_canonical : LE.dart.strict.Canonical := Dart.strict_canonical LE.dart_lawful

/-- The hypotheses of the theorems hold of a schema with all kinds of methods. -/
example : ∃ P C, Dart.Emits testExt rpcSchema P ∧ Dart.EmitsRpc testExt rpcSchema C := by
  obtain ⟨out, h⟩ := rpcSchema_dartOut
  have d := rpcSchema_system.defaults
  have h1 := C72_typed_results testExt LE.dart.strict strict_lawful strict_canonical.typed rpcSchema rpcSchema_accepted
    rpcSchema_dartNamed d rpcSchema_client rpcSchema_typesFree rpcSchema_methods out h
  have h2 := C72_answered testExt LE.dart.strict strict_lawful strict_canonical rpcSchema rpcSchema_accepted
    rpcSchema_dartNamed d rpcSchema_client rpcSchema_typesFree rpcSchema_methods out h
  have h3 := C72_completes testExt LE.dart.strict strict_lawful rpcSchema rpcSchema_accepted
    rpcSchema_dartNamed d rpcSchema_ok.distinct rpcSchema_client rpcSchema_typesFree rpcSchema_methods out h
  have h4 := C72_progress testExt LE.dart.strict strict_lawful strict_canonical.typed Dart.le_strict_consumes rpcSchema rpcSchema_accepted
    rpcSchema_dartNamed d rpcSchema_ok.distinct rpcSchema_client rpcSchema_typesFree rpcSchema_methods out h
  have h5 := C72_call_progress testExt LE.dart.strict strict_lawful strict_canonical.typed Dart.le_strict_consumes rpcSchema
    rpcSchema_accepted rpcSchema_dartNamed d rpcSchema_ok.distinct rpcSchema_portable.numbers rpcSchema_client rpcSchema_typesFree
    rpcSchema_methods out h
  obtain ⟨P, C, h1, h2, -⟩ := h1
  exact ⟨P, C, h1, h2⟩

/-- Two calls of an asynchronous method; then its client buffer holds bytes without an answer, an answer to a call
that was never made, twice the answer to the second call (completed once), and the value of a stream; finally a
synchronous call. -/
def arbitraryAnswers : List AloneAct :=
  [.call "slow" [pt 1] (fun _ => ⟨[], []⟩), .call "slow" [pt 2] (fun _ => ⟨[], []⟩),
   .put 1 .client [7, 255, 255], .read "_readSlowTask",
   .put 1 .client (255 :: (LE.le 8 99 ++ ptBytes 5)), .read "_readSlowTask",
   .put 1 .client (255 :: (LE.le 8 1 ++ ptBytes 6)), .read "_readSlowTask", .read "_readSlowTask",
   .put 2 .client (255 :: ptBytes 8), .read "_readNowTask",
   .call "add" [pt 3, .int 5] (fun _ => ⟨[], 255 :: ptBytes 9⟩)]

example : ((Dart.aloneNew LE.dart.strict (Dart.genProg testExt rpcSchema) 10 (-1) (· + 1) (genClient testExt "demo" "8b61" rpcSchema) overwrite
      (fun _ => ⟨[0], [0]⟩)).bind (fun s => Dart.aloneActs LE.dart.strict (Dart.genProg testExt rpcSchema) 10 (-1) (· + 1)
        (genClient testExt "demo" "8b61" rpcSchema) overwrite s arbitraryAnswers)).map
          (fun s => (s.client.done.map (·.1), s.client.events.length, s.calls.length))
    = some ([1], 1, 3) := by
  decide +kernel

end TPB.Props
