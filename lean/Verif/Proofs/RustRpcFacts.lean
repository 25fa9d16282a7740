/- Facts about the emitted rpc section that the property theorems use. -/
import Verif.Proofs.RustRpcText
import Verif.Proofs.RustRpcReq
import Verif.Proofs.RustCodecFacts
namespace TPB.Rust
open Spec TPB.Props

/-- If the rpc section of a schema with methods can be generated then the schema has an `id`. -/
theorem rpc_scope {S : List ASTNode} {out : String} (h : RustGen.rpc S = .ok out) (hM : methodsOf S ≠ []) :
    ∃ scope, scopeOf S = some scope := by
  have hhas : RustGen.hasRpcMethods S = true := by
    rw [← findFnNodes_eq] at hM
    clear h
    induction S with
    | nil => simp [findFnNodes] at hM
    | cons d S ih => cases d <;> simp [RustGen.hasRpcMethods, findFnNodes] at * <;> exact ih hM
  unfold RustGen.rpc at h
  rw [hhas] at h
  simp only [Bool.not_true, Bool.false_eq_true, if_false] at h
  unfold RustGen.registerFn at h
  unfold scopeOf
  cases hv : findDirectiveValue S "id" with
  | none => simp [hv] at h
  | some v =>
    obtain ⟨l, t⟩ := v
    cases l <;> simp [hv] at h
    exact ⟨_, rfl⟩

theorem genHandler_fn (f : FnNode) : (genHandler f).fn = f.id := by
  unfold genHandler
  cases f.isRead <;> cases f.isAsync <;> rfl

theorem genReg_addr (f : FnNode) : (genReg f).addr = f.position ∧ (genReg f).fn = f.id := by
  unfold genReg
  cases f.isRead <;> cases f.isAsync <;> exact ⟨rfl, rfl⟩

theorem find_method {l : List FnNode} (hn : (l.map (·.id)).Nodup) {f : FnNode} (hf : f ∈ l) :
    (l.map genMethod).find? (fun m => m.handler.fn = f.id) = some (genMethod f) := by
  induction l with
  | nil => simp at hf
  | cons g l ih =>
    simp only [List.map_cons, List.nodup_cons, List.mem_map, not_exists, not_and] at hn
    have hg : (genMethod g).handler.fn = g.id := genHandler_fn g
    rw [List.map_cons, List.find?_cons]
    rcases List.mem_cons.1 hf with rfl | hf
    · simp [hg]
    · have : g.id ≠ f.id := fun e => hn.1 f hf e.symm
      simp only [hg, this, decide_false]
      exact ih hn.2 hf

theorem handlers_genRpc (scope : String) {S : List ASTNode} (hn : ((methodsOf S).map (·.id)).Nodup) :
    (genRpc scope S).handlers = (methodsOf S).map (fun f => (f.position, genHandler f)) := by
  unfold RpcSection.handlers genRpc
  simp only [findFnNodes_eq]
  have key : ∀ l : List FnNode, (∀ f ∈ l, f ∈ methodsOf S) → (l.map genReg).filterMap (fun r =>
      (((methodsOf S).map genMethod).find? (fun m => m.handler.fn = r.fn)).map (fun m => (r.addr, m.handler)))
      = l.map (fun f => (f.position, genHandler f)) := by
    intro l
    induction l with
    | nil => intro _; rfl
    | cons f l ih =>
      intro h
      have h1 := find_method hn (h f (by simp))
      rw [List.map_cons, List.filterMap_cons]
      simp only [(genReg_addr f).1, (genReg_addr f).2, h1, Option.map_some]
      rw [ih (fun g hg => h g (by simp [hg]))]
      rfl
  exact key _ (fun f h => h)

theorem lookup_of_nodup {α β : Type} [BEq α] [LawfulBEq α] {l : List (α × β)} (hn : (l.map (·.1)).Nodup) {k : α} {v : β}
    (h : (k, v) ∈ l) : l.lookup k = some v := by
  induction l with
  | nil => simp at h
  | cons p l ih =>
    obtain ⟨k', v'⟩ := p
    simp only [List.map_cons, List.nodup_cons, List.mem_map, not_exists, not_and] at hn
    rw [List.lookup_cons]
    rcases List.mem_cons.1 h with h | h
    · simp only [Prod.mk.injEq] at h
      simp [h.1, h.2]
    · have : k ≠ k' := fun e => hn.1 (k, v) h e
      rw [show (k == k') = false by simpa using this]
      exact ih hn.2 h

theorem positions_nodup {S : List ASTNode} {k : Nat} (h : WFSchema k S) : ((methodsOf S).map (·.position)).Nodup := by
  rw [wfSchema_positions S k h]
  exact List.nodup_range'

theorem handlers_lookup (scope : String) {S : List ASTNode} {k : Nat} (hA : WFSchema k S) (hn : ((methodsOf S).map (·.id)).Nodup)
    {f : FnNode} (hf : f ∈ methodsOf S) : (genRpc scope S).handlers.lookup f.position = some (genHandler f) := by
  rw [handlers_genRpc scope hn]
  refine lookup_of_nodup ?_ (List.mem_map.2 ⟨f, hf, rfl⟩)
  rw [List.map_map]
  exact positions_nodup hA

section
variable {rt : Runtime} {S : List ASTNode}

theorem enc_length {W : Wire} {ts : List TypeId} {vs : List Val} {bs : Bytes} (h : Enc W S ts vs bs) : ts.length = vs.length := by
  induction h <;> simp [*]

theorem enc_leaf {W : Wire} {t : TypeId} {p : String} (hp : builtin? t = some p) {v : Val} {b : Bytes} (h : Enc W S [t] [v] b) :
    W.prim p v = some b := by
  cases h with
  | leaf _ q _ b _ _ bs hq hb h =>
    cases h
    rw [hp] at hq
    simp only [Option.some.injEq] at hq
    subst hq
    simpa using hb
  | _ => simp [builtin?] at hp

/-- What the emitted code reads of a request. -/
theorem request_reads (hrt : rt.Lawful) {k : Nat} (hA : WFSchema k S) (hN : WellNamed S) (hD : DistinctNumbers S) (hR : RpcNamed S)
    (hX : NoExtArgs rt.wire S) {f : FnNode} (hf : f ∈ methodsOf S) (hr : f.isRead = false) {mid : Option Int} {vs : List Val} {bs : Bytes}
    (h : Request rt.wire S f mid vs bs) : ∃ s b, rt.wire.prim "u8" (.int 255) = some s ∧ bs = s ++ b ∧ RqOk f (mid, vs) ∧
      ∃ N, ∀ k, N ≤ k → ∀ r, readTy rt (genProg (argsSchema S)) k (.named (argsName f)) (b ++ r) = .ok (argsVal f mid vs, r) := by
  obtain ⟨hid, s, m, b, hs, hm, he, rfl⟩ := h
  have hlen : f.args.length = vs.length := by
    have := enc_length he
    simpa [argsOf] using this
  obtain ⟨N, hread⟩ := read_args hrt hA hN hD hR hX hf hr hid (mb := m) (by
    rintro i rfl
    exact hm) (by rintro rfl; exact hm) he
  exact ⟨s, m ++ b, hs, by simp, ⟨hid, hlen⟩, N, fun k hk r => hread k hk r⟩

theorem resultBytes_of {k : Nat} (hA : WFSchema k S) (hN : WellNamed S) (hW : NoWriterClash S) (hR : RpcNamed S)
    (hX : NoExtArgs rt.wire S) {f : FnNode} (hf : f ∈ methodsOf S) {r : Ret} {v : Option Val} {b : Bytes} (hr : RetIs r v)
    (h : ResultIs rt.wire S f v b) : ∃ N, ∀ k, N ≤ k → ResultBytes (codecAt rt (genProg (argsSchema S)) k) f r b := by
  cases v with
  | none =>
    obtain ⟨h1, rfl⟩ := h
    refine ⟨0, fun k _ => ?_⟩
    simp [ResultBytes, h1]
  | some v =>
    obtain ⟨t, h1, h2⟩ := h
    have hrv : r = .val v := by
      cases r <;> simp [RetIs] at hr
      rw [hr]
    subst hrv
    have ht : WFType t := (wf_method hA hf).2.1 t (by simp [h1])
    cases hb : builtin? t with
    | some p =>
      refine ⟨0, fun k _ => ?_⟩
      simp only [ResultBytes, h1]
      refine ⟨v, rfl, ?_⟩
      simp only [hb, codecAt]
      exact enc_leaf hb h2
    | none =>
      obtain ⟨N, hN'⟩ := write_result hA hN hW hR hX ht h2
      refine ⟨N, fun k hk => ?_⟩
      simp only [ResultBytes, h1]
      refine ⟨v, rfl, ?_⟩
      simp only [hb, codecAt, hN' k hk]

end

section
variable {σ : Type} {C : Codec} {lib : BufLib} {U : User σ} {regs : List (Nat × Handler)}

theorem acts_append (xs ys : List Act) (c : Cfg σ) :
    acts C lib U regs c (xs ++ ys) = (acts C lib U regs c xs).bind (fun c => acts C lib U regs c ys) := by
  induction xs generalizing c with
  | nil => rfl
  | cons x xs ih =>
    simp only [List.cons_append, acts]
    cases act C lib U regs c x with
    | none => rfl
    | some c' => exact ih c'

/-- A whole run of a handler is a history. -/
theorem acts_runThread {ret : RetE} {a : Nat} : ∀ (n : Nat) {m : Bufs} {u : σ} {t : Thread} {ran : Ran σ} {c : Cfg σ},
    runThread C lib U ret n m u t = .ok ran → c.run = some ⟨a, ret, t⟩ → c.mem a = m → c.user = u →
    ∃ j, acts C lib U regs c (List.replicate j .stepH ++ [.endH]) = some ⟨setMem c.mem a ran.bufs, ran.user, none,
      c.tasks ++ ran.spawned.map (Task.mk a), c.log ++ ran.calls.map (fun p => .called a p.1 p.2) ++ [.handled a ran.ret]⟩
  | 0, m, u, t, ran, c, h, hr, hm, hu => by
    unfold runThread at h
    split at h
    · rename_i hc
      cases hv : ret.eval t with
      | error e => simp [hv, bind, Except.bind] at h
      | ok b =>
        simp only [hv, bind, Except.bind, Except.ok.injEq] at h
        subst h
        refine ⟨0, ?_⟩
        have : setMem c.mem a m = c.mem := by
          funext b; unfold setMem; split
          · rename_i e; rw [e, hm]
          · rfl
        simp only [List.replicate_zero, List.nil_append, acts, act, hr, hc, hv, this, hu, List.map_nil, List.append_nil]
    · simp at h
  | n + 1, m, u, t, ran, c, h, hr, hm, hu => by
    unfold runThread at h
    split at h
    · rename_i hc
      cases hv : ret.eval t with
      | error e => simp [hv, bind, Except.bind] at h
      | ok b =>
        simp only [hv, bind, Except.bind, Except.ok.injEq] at h
        subst h
        refine ⟨0, ?_⟩
        have : setMem c.mem a m = c.mem := by
          funext b; unfold setMem; split
          · rename_i e; rw [e, hm]
          · rfl
        simp only [List.replicate_zero, List.nil_append, acts, act, hr, hc, hv, this, hu, List.map_nil, List.append_nil]
    · cases ho : step C lib U m u t with
      | error e => simp [ho, bind, Except.bind] at h
      | ok o =>
        simp only [ho, bind, Except.bind] at h
        split at h
        · simp at h
        · cases hr' : runThread C lib U ret n o.bufs o.user o.thread with
          | error e => simp [hr'] at h
          | ok r =>
            simp only [hr', Except.ok.injEq] at h
            subst h
            obtain ⟨j, hj⟩ := acts_runThread (a := a) n (c := { c with
              mem := setMem c.mem a o.bufs, user := o.user, run := some ⟨a, ret, o.thread⟩,
              tasks := c.tasks ++ (o.spawned.toList.map (Task.mk a)),
              log := c.log ++ o.calls.map (fun p => .called a p.1 p.2) }) hr' rfl (setMem_self _ _ _) rfl
            refine ⟨j + 1, ?_⟩
            rw [List.replicate_succ, List.cons_append]
            simp only [acts, act, hr, hm, hu, ho]
            rw [hj]
            have : setMem (setMem c.mem a o.bufs) a r.bufs = setMem c.mem a r.bufs := by
              funext b; unfold setMem; split <;> rfl
            simp [this]

theorem acts_runHandler {a : Nat} {h : Handler} {ran : Ran σ} {c : Cfg σ} (hreg : regs.lookup a = some h) (hc : c.run = none)
    (hrun : runHandler C lib U h (c.mem a) c.user = .ok ran) :
    ∃ j, acts C lib U regs c (.poll a :: (List.replicate j .stepH ++ [.endH])) = some ⟨setMem c.mem a ran.bufs, ran.user, none,
      c.tasks ++ ran.spawned.map (Task.mk a), c.log ++ ran.calls.map (fun p => .called a p.1 p.2) ++ [.handled a ran.ret]⟩ := by
  obtain ⟨j, hj⟩ := acts_runThread (regs := regs) (a := a) (stmtsSize h.body) (c := { c with run := some ⟨a, h.ret, h.start⟩ })
    hrun rfl rfl rfl
  refine ⟨j, ?_⟩
  simp only [acts, act, hc, hreg]
  exact hj

end
end TPB.Rust
