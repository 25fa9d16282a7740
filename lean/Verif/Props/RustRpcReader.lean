/- C82: what the generated Rust text for methods says, read without the trees it was printed from. -/
import Verif.Proofs.RustRpcReaderGen
import Verif.Proofs.RustRpcTrim
import Verif.Props.RustReader
import Verif.Props.RpcServer
namespace TPB.Props
open Spec Rust RustRpcReader

/-- The section for methods generated for a schema is read as `R`. -/
def RpcReads (S : List ASTNode) (R : RpcSection) : Prop :=
  ∃ t, RustGen.rpc S = .ok t ∧ readRpc (returnTypes S) t = some R

theorem rpcReads_iff {S : List ASTNode} (hA : Accepted S) (hr : RpcReadable S) (hn : RpcNamed S) (hM : methodsOf S ≠ [])
    {scope : String} (hs : scopeOf S = some scope) (R : RpcSection) : RpcReads S R ↔ R = (genRpc scope S).trim := by
  have h1 := rpc_render S (by rwa [findFnNodes_eq]) scope hs
  have h2 := readRpc_gen hA.wf hr.words hn (hr.scope scope hs) 4
  unfold RpcReads
  rw [h1]
  constructor
  · rintro ⟨t, ht, h3⟩
    cases ht
    rw [h2] at h3
    exact (Option.some.inj h3).symm
  · rintro rfl
    exact ⟨_, rfl, h2⟩

/-- **C82 (partial).** The Rust text generated for the methods of a schema is read as one section, if the names
of the schema can be names in Rust. Missing: schemas with a keyword as a name, whose text is no Rust (`C59_keyword`). -/
theorem C82_is_read_partial (S : List ASTNode) (hA : Accepted S) (hr : RpcReadable S) (hn : RpcNamed S) (hM : methodsOf S ≠ [])
    (out : String) (hout : RustGen.rpc S = .ok out) : ∃ R, RpcReads S R ∧ ∀ R', RpcReads S R' → R' = R := by
  obtain ⟨scope, hs⟩ := rpc_scope hout hM
  exact ⟨_, (rpcReads_iff hA hr hn hM hs _).2 rfl, fun R' h => (rpcReads_iff hA hr hn hM hs R').1 h⟩

theorem tidy_handlers {scope : String} {S : List ASTNode} : ∀ x ∈ (genRpc scope S).handlers, Tidys x.2.body := by
  intro x hx
  obtain ⟨r, _, he⟩ := List.mem_filterMap.1 hx
  cases hm : (genRpc scope S).methods.find? (fun m => m.handler.fn = r.fn) with
  | none => rw [hm] at he; simp at he
  | some m =>
    rw [hm] at he
    simp only [Option.map_some, Option.some.injEq] at he
    subst he
    obtain ⟨f, _, rfl⟩ := List.mem_map.1 (List.mem_of_find?_eq_some hm)
    exact tidy_genHandler f

theorem lookup_trim {scope : String} {S : List ASTNode} {a : Nat} {h : Handler} (hl : (genRpc scope S).handlers.lookup a = some h) :
    (genRpc scope S).trim.handlers.lookup a = some h.trim ∧ Tidys h.body := by
  have hm : ∃ b, (b, h) ∈ (genRpc scope S).handlers := by
    generalize (genRpc scope S).handlers = l at hl
    induction l with
    | nil => simp at hl
    | cons p l ih =>
      obtain ⟨b, q⟩ := p
      rw [List.lookup_cons] at hl
      split at hl
      · cases hl; exact ⟨b, by simp⟩
      · obtain ⟨b, hb⟩ := ih hl
        exact ⟨b, by simp [hb]⟩
  obtain ⟨b, hb⟩ := hm
  refine ⟨?_, tidy_handlers _ hb⟩
  rw [handlers_trim]
  generalize (genRpc scope S).handlers = l at hl
  induction l with
  | nil => simp at hl
  | cons p l ih =>
    obtain ⟨b, q⟩ := p
    rw [List.lookup_cons] at hl
    rw [List.map_cons, List.lookup_cons]
    split at hl
    · next h => cases hl; simp only [h]
    · next h => simp only [h]; exact ih hl

/-- The history of the handlers without empty lines as one of those with them. -/
theorem history_trim {scope : String} {S : List ASTNode} {σ : Type} {C : Codec} {lib : BufLib} {U : User σ} {mem : Nat → Bufs} {u : σ}
    {xs : List Act} {c : Cfg σ} (h : acts C lib U (genRpc scope S).trim.handlers (Cfg.initial mem u) xs = some c) :
    ∃ ys c', (∀ y ∈ ys, y ∈ xs ∨ y.IsStep) ∧ acts C lib U (genRpc scope S).handlers (Cfg.initial mem u) ys = some c' ∧
      c'.log = c.log ∧ c'.mem = c.mem ∧ c'.user = c.user := by
  rw [handlers_trim] at h
  obtain ⟨ys, d, h1, h2, rfl, _⟩ := acts_trim tidy_handlers xs (c := Cfg.initial mem u) ⟨by simp [Cfg.initial], by simp [Cfg.initial]⟩ h
  exact ⟨ys, d, h1, h2, rfl, rfl, rfl⟩

section
variable {rt : Runtime} (hrt : rt.Lawful) {S : List ASTNode} (h : RpcOk rt.wire S) (hr : RpcReadable S) (hM : methodsOf S ≠ [])
  {P : Prog} (hP : RustReads S P) {R : RpcSection} (hR : RpcReads S R)
include h hr hM hP hR

theorem read_is : ∃ scope, P = genProg S ∧ R = (genRpc scope S).trim := by
  obtain ⟨t, ht, _⟩ := id hR
  obtain ⟨scope, hs⟩ := rpc_scope ht hM
  exact ⟨scope, (rustReads_iff h.accepted hr.types P).1 hP, (rpcReads_iff h.accepted hr h.rpcNamed hM hs R).1 hR⟩

end

/-- **C82, registration (C31).** The registration code that is read from the generated text registers the methods in
declaration order, each exactly once, the method with index `i` at the address `i`, in the group of its kind, and
the handler at that address is that of the method. -/
theorem C82_registration (S : List ASTNode) (hA : Accepted S) (hr : RpcReadable S) (hn : RpcNamed S) (hM : methodsOf S ≠ [])
    (R : RpcSection) (hR : RpcReads S R) :
    scopeOf S = some R.scope ∧ R.regs.length = (methodsOf S).length ∧
      ∀ (i : Nat) (f : FnNode), (methodsOf S)[i]? = some f →
        (∃ r, R.regs[i]? = some r ∧ r.addr = i ∧ r.group = groupOf f ∧ r.fn = f.id) ∧
        ∃ hd, R.handlers.lookup i = some hd ∧ hd.fn = f.id := by
  obtain ⟨t, ht, _⟩ := id hR
  obtain ⟨scope, hs⟩ := rpc_scope ht hM
  obtain rfl := (rpcReads_iff hA hr hn hM hs R).1 hR
  refine ⟨hs, by simp [RpcSection.trim, genRpc, findFnNodes_eq], fun i f hf => ?_⟩
  have hp : f.position = i := by
    have h2 := congrArg (fun l => l[i]?) (wfSchema_positions S 0 hA.wf)
    have hi : i < (methodsOf S).length := (List.getElem?_eq_some_iff.1 hf).1
    simpa [List.getElem?_map, hf, List.getElem?_range' hi] using h2
  refine ⟨⟨genReg f, by simp [RpcSection.trim, genRpc, findFnNodes_eq, hf], by rw [(genReg_addr f).1, hp], ?_, (genReg_addr f).2⟩,
    (genHandler f).trim, ?_, genHandler_fn f⟩
  · unfold genReg groupOf
    cases f.isRead <;> cases f.isAsync <;> rfl
  · rw [← hp]
    exact (lookup_trim (handlers_lookup scope hA.wf hn.methods (List.mem_of_getElem? hf))).1

/-- **C82, synchronous calls (C32).** For the handlers that are read from the generated text: a run of the handler
at the address of a synchronous method `f`, with a request with arguments `vs` in the server buffer, calls `f` with
exactly `vs`, and afterwards the client buffer begins with the answer that holds the result of that call. -/
theorem C82_sync_call (rt : Runtime) (hrt : rt.Lawful) (S : List ASTNode) (h : RpcOk rt.wire S) (hr : RpcReadable S)
    (hM : methodsOf S ≠ []) (P : Prog) (hP : RustReads S P) (R : RpcSection) (hR : RpcReads S R) :
    ∀ f ∈ methodsOf S, f.isRead = false → f.isAsync = false →
      ∃ hd, R.handlers.lookup f.position = some hd ∧
      ∀ (σ : Type) (lib : BufLib) (_ : lib.Lawful) (U : User σ) (m : Bufs) (u : σ) (vs : List Val) (req rest : Bytes)
        (v : Option Val) (ans : Bytes),
        Request rt.wire S f none vs req → m.server = req ++ rest →
        RetIs (U f.id vs u).1 v → Spec.Answer rt.wire S f none v ans →
        ∃ N, ∀ k, N ≤ k → ∃ server rest',
          runHandler (codecAt rt (P.withArgs R) k) lib U hd m u
            = .ok ⟨⟨server, ans ++ rest'⟩, (U f.id vs u).2, [(f.id, vs)], [], true⟩ ∧
          NoMessage (rt.readP "u8") server := by
  obtain ⟨scope, rfl, rfl⟩ := read_is h hr hM hP hR
  intro f hf h1 h2
  obtain ⟨hd, h3, h4⟩ := sync_calls hrt h scope _ _ rfl rfl f hf h1 h2
  obtain ⟨h5, h6⟩ := lookup_trim h3
  refine ⟨_, h5, fun σ lib hlib U m u vs req rest v ans g1 g2 g3 g4 => ?_⟩
  obtain ⟨N, hN⟩ := h4 σ lib hlib U m u vs req rest v ans g1 g2 g3 g4
  refine ⟨N, fun k hk => ?_⟩
  obtain ⟨server, rest', g5, g6⟩ := hN k hk
  exact ⟨server, rest', by rw [withArgs_trim, runHandler_trim h6, g5]; rfl, g6⟩

/-- **C82, synchronous methods run exactly once (C33).** -/
theorem C82_sync_exactly_once (rt : Runtime) (hrt : rt.Lawful) (S : List ASTNode) (h : RpcOk rt.wire S) (hr : RpcReadable S)
    (hM : methodsOf S ≠ []) (P : Prog) (hP : RustReads S P) (R : RpcSection) (hR : RpcReads S R) :
    ∀ f ∈ methodsOf S, f.isRead = false → f.isAsync = false →
      ∃ hd, R.handlers.lookup f.position = some hd ∧
      ∀ (σ : Type) (lib : BufLib) (_ : lib.Lawful) (U : User σ) (m : Bufs) (u : σ) (vs : List Val) (req rest : Bytes)
        (v : Option Val) (ans : Bytes),
        Request rt.wire S f none vs req → m.server = req ++ rest →
        RetIs (U f.id vs u).1 v → Spec.Answer rt.wire S f none v ans →
        ∃ N, ∀ k, N ≤ k → ∃ m' u',
          runHandler (codecAt rt (P.withArgs R) k) lib U hd m u = .ok ⟨m', u', [(f.id, vs)], [], true⟩ ∧
          ∀ n, runTimes (codecAt rt (P.withArgs R) k) lib U hd n m' u' = .ok (List.replicate n ⟨m', u', [], [], false⟩) := by
  obtain ⟨scope, rfl, rfl⟩ := read_is h hr hM hP hR
  intro f hf h1 h2
  obtain ⟨hd, h3, h4⟩ := sync_once hrt h scope _ _ rfl rfl f hf h1 h2
  obtain ⟨h5, h6⟩ := lookup_trim h3
  refine ⟨_, h5, fun σ lib hlib U m u vs req rest v ans g1 g2 g3 g4 => ?_⟩
  obtain ⟨N, hN⟩ := h4 σ lib hlib U m u vs req rest v ans g1 g2 g3 g4
  refine ⟨N, fun k hk => ?_⟩
  obtain ⟨m', u', g5, g6⟩ := hN k hk
  refine ⟨m', u', by rw [withArgs_trim, runHandler_trim h6, g5]; rfl, fun n => ?_⟩
  rw [withArgs_trim, runTimes_trim h6, g6 n]
  simp only [Except.map, List.map_replicate]
  rfl

/-- **C82, asynchronous methods run exactly once (C33, C34).** -/
theorem C82_async_exactly_once (rt : Runtime) (hrt : rt.Lawful) (S : List ASTNode) (h : RpcOk rt.wire S) (hr : RpcReadable S)
    (hM : methodsOf S ≠ []) (P : Prog) (hP : RustReads S P) (R : RpcSection) (hR : RpcReads S R) :
    ∀ f ∈ methodsOf S, f.isRead = false → f.isAsync = true →
      ∃ hd, R.handlers.lookup f.position = some hd ∧
      ∀ (σ : Type) (lib : BufLib) (_ : lib.Lawful) (U : User σ) (m : Bufs) (u : σ) (i : Int) (vs : List Val) (req rest : Bytes),
        Request rt.wire S f (some i) vs req → m.server = req ++ rest →
        ∃ N, ∀ k, N ≤ k → ∃ m' t,
          runHandler (codecAt rt (P.withArgs R) k) lib U hd m u = .ok ⟨m', u, [], [t], true⟩ ∧
          (∀ n, runTimes (codecAt rt (P.withArgs R) k) lib U hd n m' u = .ok (List.replicate n ⟨m', u, [], [], false⟩)) ∧
          ∀ (r : Ret) (v : Option Val) (ans : Bytes), RetIs r v → Spec.Answer rt.wire S f (some i) v ans →
            ∃ N', ∀ k', N' ≤ k' → ∀ (m1 : Bufs) (u1 : σ), ∃ n rest',
              runFuture (codecAt rt (P.withArgs R) k') lib U r n m1 u1 t = .ok (⟨m1.server, ans ++ rest'⟩, [(f.id, vs)]) := by
  obtain ⟨scope, rfl, rfl⟩ := read_is h hr hM hP hR
  intro f hf h1 h2
  obtain ⟨hd, h3, h4⟩ := async_once hrt h scope _ _ rfl rfl f hf h1 h2
  obtain ⟨h5, h6⟩ := lookup_trim h3
  refine ⟨_, h5, fun σ lib hlib U m u i vs req rest g1 g2 => ?_⟩
  obtain ⟨N, hN⟩ := h4 σ lib hlib U m u i vs req rest g1 g2
  refine ⟨N, fun k hk => ?_⟩
  obtain ⟨m', t, g5, g6, g7⟩ := hN k hk
  have ht : Tidys t.code := runThread_tidy _ _ _ _ _ _ h6 g5 t (by simp)
  refine ⟨m', t.trim, by rw [withArgs_trim, runHandler_trim h6, g5]; rfl, fun n => ?_, fun r v ans g8 g9 => ?_⟩
  · rw [withArgs_trim, runTimes_trim h6, g6 n]
    simp only [Except.map, List.map_replicate]
    rfl
  · obtain ⟨N', hN'⟩ := g7 r v ans g8 g9
    refine ⟨N', fun k' hk' m1 u1 => ?_⟩
    obtain ⟨n, rest', g10⟩ := hN' k' hk' m1 u1
    obtain ⟨n', g11⟩ := runFuture_trim r n m1 u1 t _ ht g10
    exact ⟨n', rest', by rw [withArgs_trim]; exact g11⟩

/-- **C82, no history executes a request twice (C33).** -/
theorem C82_at_most_once_per_request (rt : Runtime) (hrt : rt.Lawful) (S : List ASTNode) (h : RpcOk rt.wire S) (hr : RpcReadable S)
    (hM : methodsOf S ≠ []) (P : Prog) (hP : RustReads S P) (R : RpcSection) (hR : RpcReads S R) :
    ∀ f ∈ methodsOf S, f.isRead = false →
      ∀ (σ : Type) (lib : BufLib) (_ : lib.Lawful) (U : User σ) (mem : Nat → Bufs) (u : σ) (xs : List Act),
        NoMessage (rt.readP "u8") (mem f.position).server → OnlyRequests rt.wire S f xs →
        ∃ N, ∀ k, N ≤ k → ∀ c, acts (codecAt rt (P.withArgs R) k) lib U R.handlers (Cfg.initial mem u) xs = some c →
          ∀ vs, num (fun e => e = Ev.called f.position f.id vs) c.log
            ≤ num (fun e => ∃ mid bs, e = Ev.requested f.position bs ∧ Request rt.wire S f mid vs bs) c.log := by
  obtain ⟨scope, rfl, rfl⟩ := read_is h hr hM hP hR
  intro f hf h1 σ lib hlib U mem u xs hm hreq
  obtain ⟨N, hN⟩ := at_most_once hrt h scope hf h1 hlib U mem u hm hreq
  refine ⟨N, fun k hk c hc => ?_⟩
  rw [withArgs_trim, withArgs_genProg] at hc
  obtain ⟨ys, c', g1, g2, g3, -, -⟩ := history_trim hc
  have := hN k hk ys (fun bs hbs => (g1 _ hbs).resolve_right (by simp [Act.IsStep])) c' g2
  rwa [g3] at this

/-- **C82, answers belong to requests (C34).** -/
theorem C82_answers_match_requests (rt : Runtime) (hrt : rt.Lawful) (S : List ASTNode) (h : RpcOk rt.wire S) (hr : RpcReadable S)
    (hM : methodsOf S ≠ []) (P : Prog) (hP : RustReads S P) (R : RpcSection) (hR : RpcReads S R) :
    ∀ f ∈ methodsOf S, f.isRead = false → f.isAsync = true →
      ∀ (σ : Type) (lib : BufLib) (_ : lib.Lawful) (U : User σ) (mem : Nat → Bufs) (u : σ) (xs : List Act),
        NoMessage (rt.readP "u8") (mem f.position).server → NoMessage (rt.readP "u8") (mem f.position).client →
        OnlyRequests rt.wire S f xs →
        (∀ bs, Act.clear f.position bs ∈ xs → ∀ r, NoMessage (rt.readP "u8") (bs ++ r)) →
        ∃ N, ∀ k, N ≤ k → ∀ c, acts (codecAt rt (P.withArgs R) k) lib U R.handlers (Cfg.initial mem u) xs = some c →
          (∀ vs r, Ev.finished f.position f.id vs r ∈ c.log → ∃ v b, RetIs r v ∧ ResultIs rt.wire S f v b) →
          ∀ r0, rt.readP "u8" (c.mem f.position).client = some (.int 255, r0) →
            ∃ i vs req r v ans rest, Ev.requested f.position req ∈ c.log ∧ Request rt.wire S f (some i) vs req ∧
              Ev.finished f.position f.id vs r ∈ c.log ∧ RetIs r v ∧
              Spec.Answer rt.wire S f (some i) v ans ∧ (c.mem f.position).client = ans ++ rest := by
  obtain ⟨scope, rfl, rfl⟩ := read_is h hr hM hP hR
  intro f hf h1 h2 σ lib hlib U mem u xs hm hmc hreq hcl
  obtain ⟨N, hN⟩ := answers_match hrt h scope hf h1 h2 hlib U mem u hm hmc hreq hcl
  refine ⟨N, fun k hk c hc => ?_⟩
  rw [withArgs_trim, withArgs_genProg] at hc
  obtain ⟨ys, c', g1, g2, g3, g4, -⟩ := history_trim hc
  have := hN k hk ys (fun bs hbs => (g1 _ hbs).resolve_right (by simp [Act.IsStep]))
    (fun i r hbs => (g1 _ hbs).resolve_right (by simp [Act.IsStep]))
    (fun bs hbs => (g1 _ hbs).resolve_right (by simp [Act.IsStep])) c' g2
  rwa [g3, g4] at this

/-- **C82, one read in flight (C36).** -/
theorem C82_one_read_in_flight (rt : Runtime) (hrt : rt.Lawful) (S : List ASTNode) (h : RpcOk rt.wire S) (hr : RpcReadable S)
    (hM : methodsOf S ≠ []) (P : Prog) (hP : RustReads S P) (R : RpcSection) (hR : RpcReads S R) :
    ∀ f ∈ methodsOf S, f.isRead = true → f.isAsync = true →
      ∀ (σ : Type) (lib : BufLib) (_ : lib.Lawful) (U : User σ) (mem : Nat → Bufs) (u : σ) (xs : List Act) (k : Nat) (c : Cfg σ),
        NoMessage (rt.readP "u8") (mem f.position).server → (∀ bs, Act.request f.position bs ∉ xs) →
        acts (codecAt rt (P.withArgs R) k) lib U R.handlers (Cfg.initial mem u) xs = some c →
        c.log.countP (Ev.calledAt f.position) ≤ c.log.countP (Ev.finishedAt f.position) + 1 := by
  obtain ⟨scope, rfl, rfl⟩ := read_is h hr hM hP hR
  intro f hf h1 h2 σ lib hlib U mem u xs k c hm hx hc
  rw [withArgs_trim] at hc
  obtain ⟨ys, c', g1, g2, g3, -, -⟩ := history_trim hc
  have := one_read hrt h scope _ _ rfl rfl f hf h1 h2 σ lib hlib U mem u ys k c' hm
    (fun bs hbs => hx bs ((g1 _ hbs).resolve_right (by simp [Act.IsStep]))) g2
  rwa [g3] at this

/-- **C82, synchronous reads (C51, partial).** Missing: return types that are built in (`C51_builtin_result_is_rejected`). -/
theorem C82_sync_read_partial (rt : Runtime) (hrt : rt.Lawful) (S : List ASTNode) (h : RpcOk rt.wire S) (hr : RpcReadable S)
    (hM : methodsOf S ≠ []) (P : Prog) (hP : RustReads S P) (R : RpcSection) (hR : RpcReads S R) :
    ∀ f ∈ methodsOf S, f.isRead = true → f.isAsync = false →
      ∀ t, f.returnTypeId = some t → builtin? t = none →
      ∃ hd, R.handlers.lookup f.position = some hd ∧
      ∀ (σ : Type) (lib : BufLib) (_ : lib.Lawful) (U : User σ) (m : Bufs) (u : σ),
        ((U f.id [] u).1 = .opt none → ∀ k,
          runHandler (codecAt rt (P.withArgs R) k) lib U hd m u = .ok ⟨m, (U f.id [] u).2, [(f.id, [])], [], false⟩) ∧
        ∀ v ans, (U f.id [] u).1 = .opt (some v) → Spec.Answer rt.wire S f none (some v) ans →
          ∃ N, ∀ k, N ≤ k → ∃ rest,
            runHandler (codecAt rt (P.withArgs R) k) lib U hd m u
              = .ok ⟨⟨m.server, ans ++ rest⟩, (U f.id [] u).2, [(f.id, [])], [], true⟩ := by
  obtain ⟨scope, rfl, rfl⟩ := read_is h hr hM hP hR
  intro f hf h1 h2 t ht hb
  obtain ⟨hd, h3, h4⟩ := sync_read hrt h scope _ _ rfl rfl f hf h1 h2 t ht hb
  obtain ⟨h5, h6⟩ := lookup_trim h3
  refine ⟨_, h5, fun σ lib hlib U m u => ⟨fun hU k => ?_, fun v ans hU hans => ?_⟩⟩
  · rw [withArgs_trim, runHandler_trim h6, (h4 σ lib hlib U m u).1 hU k]
    rfl
  · obtain ⟨N, hN⟩ := (h4 σ lib hlib U m u).2 v ans hU hans
    refine ⟨N, fun k hk => ?_⟩
    obtain ⟨rest, g⟩ := hN k hk
    exact ⟨rest, by rw [withArgs_trim, runHandler_trim h6, g]; rfl⟩

/-- **C82, asynchronous reads (C51, partial).** -/
theorem C82_async_read_partial (rt : Runtime) (hrt : rt.Lawful) (S : List ASTNode) (h : RpcOk rt.wire S) (hr : RpcReadable S)
    (hM : methodsOf S ≠ []) (P : Prog) (hP : RustReads S P) (R : RpcSection) (hR : RpcReads S R) :
    ∀ f ∈ methodsOf S, f.isRead = true → f.isAsync = true →
      ∀ ty, f.returnTypeId = some ty → builtin? ty = none →
      ∃ hd, R.handlers.lookup f.position = some hd ∧
      ∀ (σ : Type) (lib : BufLib) (_ : lib.Lawful) (U : User σ) (m : Bufs) (u : σ) (k : Nat),
        NoMessage (rt.readP "u8") m.server →
        ∃ m' t, runHandler (codecAt rt (P.withArgs R) k) lib U hd m u = .ok ⟨m', u, [], [t], true⟩ ∧ m'.client = m.client ∧
          ∀ v ans, Spec.Answer rt.wire S f none (some v) ans →
            ∃ N, ∀ k', N ≤ k' → ∀ (m1 : Bufs) (u1 : σ), ∃ n server rest,
              runFuture (codecAt rt (P.withArgs R) k') lib U (.opt (some v)) n m1 u1 t
                = .ok (⟨server, ans ++ rest⟩, [(f.id, [])]) ∧ NoMessage (rt.readP "u8") server := by
  obtain ⟨scope, rfl, rfl⟩ := read_is h hr hM hP hR
  intro f hf h1 h2 ty hty hb
  obtain ⟨hd, h3, h4⟩ := async_read hrt h scope _ _ rfl rfl f hf h1 h2 ty hty hb
  obtain ⟨h5, h6⟩ := lookup_trim h3
  refine ⟨_, h5, fun σ lib hlib U m u k hm => ?_⟩
  obtain ⟨m', t, g5, g6, g7⟩ := h4 σ lib hlib U m u k hm
  have ht : Tidys t.code := runThread_tidy _ _ _ _ _ _ h6 g5 t (by simp)
  refine ⟨m', t.trim, by rw [withArgs_trim, runHandler_trim h6, g5]; rfl, g6, fun v ans hans => ?_⟩
  obtain ⟨N, hN⟩ := g7 v ans hans
  refine ⟨N, fun k' hk m1 u1 => ?_⟩
  obtain ⟨n, server, rest, g8, g9⟩ := hN k' hk m1 u1
  obtain ⟨n', g10⟩ := runFuture_trim _ n m1 u1 t _ ht g8
  exact ⟨n', server, rest, by rw [withArgs_trim]; exact g10, g9⟩

/-! ### The hypotheses can be met -/

theorem rpcSchema_readable : RpcReadable rpcSchema where
  types := by
    intro d hd w hw
    have : ∀ d ∈ rpcSchema, ∀ w ∈ declWords d, isIdent w = true ∧ w ∉ rustKeywords := by
      have h1 : ∀ w ∈ rpcSchema.flatMap declWords, isIdent w = true ∧ w ∉ rustKeywords := by decide +kernel
      exact fun d hd w hw => h1 w (List.mem_flatMap.2 ⟨d, hd, hw⟩)
    exact this d hd w hw
  words := by
    intro f hf w hw
    have h1 : ∀ w ∈ (methodsOf rpcSchema).flatMap (fun f => f.id :: f.args.flatMap (fun a => a.id :: typeWords a.typeId)),
        isIdent w = true ∧ w ∉ rustKeywords := by decide +kernel
    exact h1 w (List.mem_flatMap.2 ⟨f, hf, hw⟩)
  scope := by
    intro s hs
    have : scopeOf rpcSchema = some "8b61" := by rfl
    rw [this] at hs
    cases hs
    decide +kernel

theorem rpcSchema_read_back : ∃ P R, RustReads rpcSchema P ∧ RpcReads rpcSchema R := by
  obtain ⟨out, hout⟩ := rpcSchema_out
  obtain ⟨R, h1, _⟩ := C82_is_read_partial _ rpcSchema_accepted rpcSchema_readable rpcSchema_rpcNamed rpcSchema_methods out hout
  exact ⟨_, R, (rustReads_iff rpcSchema_accepted rpcSchema_readable.types _).2 rfl, h1⟩

/-- The text of the example schema is read, and the handler of `ticks` is registered at address 3. -/
example : ∃ R, RpcReads rpcSchema R ∧ R.scope = "8b61" ∧ R.regs.length = 5 ∧
    ∃ r, R.regs[3]? = some r ∧ r.addr = 3 ∧ r.group = .read ∧ r.fn = "ticks" := by
  obtain ⟨_, R, _, hR⟩ := rpcSchema_read_back
  obtain ⟨h1, h2, h3⟩ := C82_registration _ rpcSchema_accepted rpcSchema_readable rpcSchema_rpcNamed rpcSchema_methods R hR
  exact ⟨R, hR, (Option.some.inj h1).symm, h2, (h3 3 _ rfl).1⟩

/-- The handler of `add` as read from the text, on a request with a point and 5, with leftovers in both buffers. -/
example : ∃ P R, RustReads rpcSchema P ∧ RpcReads rpcSchema R ∧ ∃ hd, R.handlers.lookup 0 = some hd ∧ ∃ N, ∀ k, N ≤ k → ∃ server rest',
    runHandler (codecAt LE.rust (P.withArgs R) k) (fun old bs => bs ++ old.drop bs.length) exampleUser hd
      ⟨255 :: (ptBytes (-2) ++ LE.le 8 5) ++ [9, 9], [1, 2, 3]⟩ 0
      = .ok ⟨⟨server, (255 :: ptBytes 3) ++ rest'⟩, 1, [("add", [pt (-2), .int 5])], [], true⟩ := by
  obtain ⟨P, R, hP, hR⟩ := rpcSchema_read_back
  refine ⟨P, R, hP, hR, ?_⟩
  obtain ⟨hd, h4, h5⟩ := C82_sync_call LE.rust LE.rust_lawful _ rpcSchema_ok rpcSchema_readable rpcSchema_methods P hP R hR
    _ (List.mem_cons_self ..) rfl rfl
  refine ⟨hd, h4, ?_⟩
  obtain ⟨N, h6⟩ := h5 Nat (fun old bs => bs ++ old.drop bs.length) (fun old bs => ⟨_, rfl⟩) exampleUser
    ⟨255 :: (ptBytes (-2) ++ LE.le 8 5) ++ [9, 9], [1, 2, 3]⟩ 0 [pt (-2), .int 5] (255 :: (ptBytes (-2) ++ LE.le 8 5)) [9, 9] (some (pt 3))
    (255 :: ptBytes 3)
    ⟨rfl, [255], [], _, rfl, rfl, pt_enc (by decide) (.leaf _ "i64" _ _ _ _ _ rfl rfl .nil), rfl⟩ rfl rfl
    ⟨[255], [], _, rfl, rfl, ⟨_, rfl, pt_enc (by decide) .nil⟩, rfl⟩
  exact ⟨N, fun k hk => (h6 k hk).imp (fun _ h => h.imp (fun _ h => h.1))⟩

/-- The history of `exampleHistory` for handlers without empty lines. -/
def readHistory : List Act :=
  [.request 1 (255 :: (LE.le 8 6 ++ ptBytes 1)), .poll 1] ++ List.replicate 3 .stepH ++
    [.request 1 (255 :: (LE.le 8 9 ++ ptBytes 2))] ++ List.replicate 2 .stepH ++ [.endH, .poll 1] ++ List.replicate 5 .stepH ++
    [.endH, .stepT 0, .stepT 1, .stepT 0, .stepT 1, .resume 1 (.val (.int 22)), .resume 0 (.val (.int 11)), .stepT 1,
      .clear 1 [0], .stepT 0]

/-- It is possible for the program that is read from the text of the example schema. -/
example : ∀ R, RpcReads rpcSchema R →
    (acts exampleCodec overwrite exampleUser R.handlers (Cfg.initial (fun _ => ⟨[0], [0]⟩) 0)
      readHistory).map (fun c => (c.log.length, c.log.countP (Ev.calledAt 1), (c.mem 1).server.head?, (c.mem 1).client))
    = some (8, 2, some 0, 255 :: (LE.le 8 6 ++ LE.le 8 11)) := by
  intro R hR
  have hs : scopeOf rpcSchema = some "8b61" := rfl
  rw [(rpcReads_iff rpcSchema_accepted rpcSchema_readable rpcSchema_rpcNamed rpcSchema_methods hs R).1 hR]
  decide +kernel

end TPB.Props
