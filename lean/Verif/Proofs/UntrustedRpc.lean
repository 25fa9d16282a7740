/-
Proofs about servers that receive arbitrary bytes.
-/
import Verif.Spec.UntrustedRpc
import Verif.Proofs.Untrusted
import Verif.Proofs.RustRpcFacts
import Verif.Proofs.RustRpcRun
namespace TPB.Rust
open Spec TPB.Props

/-! ### What the code of a method may do -/

section
variable (f : FnNode)

def Stmt.isClone : Stmt → Bool
  | .cloneArgs => true
  | _ => false

mutual
/-- Requests are read as arguments of `f`, only `f` is called, with all its arguments, and (unless `f` is a read
method) only where a request has been read. `h`: is there a request; `o`: is it owned. -/
def stmtFor (h o : Bool) : Stmt → Prop
  | .letArgs b s ty => b = .server ∧ s = .xFF ∧ ty = argsName f ∧ f.isRead = false
  | .call _ g as _ => g = f.id ∧ as = f.args.map (·.id) ∧ (f.isRead = false → h = true)
  | .ifArgs body => codeFor true false body
  | .ifNotBusy body => codeFor h o body
  | .ifResult body => codeFor h o body
  | .spawn body => codeFor (h && o) o body
  | _ => True

def codeFor (h o : Bool) : List Stmt → Prop
  | [] => True
  | s :: ss => stmtFor h o s ∧ codeFor h (o || s.isClone) ss
end

theorem codeFor_handler (hread : f.isRead = true → f.args = []) : codeFor f false false (genHandler f).body := by
  have e : RustGen.argsStructId f = argsName f := by
    unfold RustGen.argsStructId argsName; simp
  unfold genHandler
  cases hr : f.isRead <;> cases ha : f.isAsync <;>
    simp_all [genSyncBody, genAsyncBody, genSyncReadBody, genAsyncReadBody, genCall, codeFor, stmtFor, Stmt.isClone]

/-- A thread that runs code of `f`; `G` holds of every request that it has read. -/
def ThreadFor (G : Val → Prop) (t : Thread) : Prop :=
  ∃ h o, codeFor f h o t.code ∧ (h = true → t.frame.args.isSome) ∧ (o = true → t.frame.owned = true) ∧
    (∀ v, t.frame.argsOpt = some (some v) → G v) ∧ ∀ v, t.frame.args = some v → G v

/-- A call of `f` with the arguments of a request. -/
def CallFor (G : Val → Prop) (p : String × List Val) : Prop :=
  p.1 = f.id ∧ (f.isRead = true → p.2 = []) ∧
    (f.isRead = false → ∃ v, G v ∧ ∃ fr : Frame, fr.args = some v ∧ callArgs fr (f.args.map (·.id)) = .ok p.2)

variable {f}

theorem bindResult_args (res : Bool) (r : Ret) (fr : Frame) :
    (bindResult res r fr).args = fr.args ∧ (bindResult res r fr).argsOpt = fr.argsOpt ∧ (bindResult res r fr).owned = fr.owned := by
  unfold bindResult
  split <;> exact ⟨rfl, rfl, rfl⟩

theorem step_for {σ : Type} {C : Codec} {lib : BufLib} {U : User σ} {m : Bufs} {u : σ} {t : Thread} {out : Out σ} {G : Val → Prop}
    (hread : f.isRead = true → f.args = [])
    (hG : f.isRead = false → ∀ v, evalLetArgs C .xFF (argsName f) m.server = .ok (some v) → G v)
    (ht : ThreadFor f G t) (hs : step C lib U m u t = .ok out) :
    ThreadFor f G out.thread ∧ (∀ s, out.spawned = some s → ThreadFor f G s) ∧ ∀ p ∈ out.calls, CallFor f G p := by
  obtain ⟨h, o, hc, h1, h2, h3, h4⟩ := ht
  unfold step at hs
  cases hcode : t.code with
  | nil => rw [hcode] at hs; simp at hs
  | cons s rest =>
    rw [hcode] at hs hc
    obtain ⟨hs0, hrest⟩ := hc
    cases s with
    | blank =>
      simp only [Except.ok.injEq] at hs
      subst hs
      exact ⟨⟨h, o, by simpa [Stmt.isClone] using hrest, h1, h2, h3, h4⟩, by simp, by simp⟩
    | letArgs b s ty =>
      obtain ⟨rfl, rfl, rfl, hr⟩ := hs0
      simp only [bind, Except.bind, Bufs.get] at hs
      cases he : evalLetArgs C .xFF (argsName f) m.server with
      | error e => rw [he] at hs; simp at hs
      | ok x =>
        rw [he] at hs
        simp only [Except.ok.injEq] at hs
        subst hs
        refine ⟨⟨h, o, by simpa [Stmt.isClone] using hrest, h1, h2, ?_, h4⟩, by simp, by simp⟩
        intro v hv
        simp only [Option.some.injEq] at hv
        subst hv
        exact hG hr v he
    | letBusy b s =>
      simp only [bind, Except.bind] at hs
      split at hs
      · simp at hs
      · simp only [Except.ok.injEq] at hs
        subst hs
        exact ⟨⟨h, o, by simpa [Stmt.isClone] using hrest, h1, h2, h3, h4⟩, by simp, by simp⟩
    | bufWrite b ws =>
      simp only [bind, Except.bind] at hs
      split at hs
      · split at hs
        · simp at hs
        · simp only [Except.ok.injEq] at hs
          subst hs
          exact ⟨⟨h, o, by simpa [Stmt.isClone] using hrest, h1, h2, h3, h4⟩, by simp, by simp⟩
      · simp at hs
    | call res g as aw =>
      obtain ⟨rfl, rfl, hh⟩ := hs0
      simp only [bind, Except.bind] at hs
      split at hs
      · simp at hs
      · split at hs
        · simp at hs
        · rename_i xs hxs
          have hcall : CallFor f G (f.id, xs) := by
            refine ⟨rfl, fun hr => ?_, fun hr => ?_⟩
            · rw [hread hr] at hxs
              simp only [List.map_nil, callArgs, Except.ok.injEq] at hxs
              exact hxs.symm
            · obtain ⟨v, hv⟩ := Option.isSome_iff_exists.1 (h1 (hh hr))
              exact ⟨v, h4 v hv, t.frame, hv, hxs⟩
          split at hs <;> simp only [Except.ok.injEq] at hs <;> subst hs
          · exact ⟨⟨h, o, by simpa [Stmt.isClone] using hrest, h1, h2, h3, h4⟩, by simp, by simpa using hcall⟩
          · obtain ⟨e1, e2, e3⟩ := bindResult_args res (U f.id xs u).1 t.frame
            exact ⟨⟨h, o, by simpa [Stmt.isClone] using hrest, by simpa only [e1] using h1, by simpa only [e3] using h2,
              by simpa only [e2] using h3, by simpa only [e1] using h4⟩, by simp, by simpa using hcall⟩
    | ifArgs body =>
      simp only [stmtFor] at hs0
      simp only at hs
      split at hs <;> simp only [Except.ok.injEq, reduceCtorEq] at hs <;> subst hs
      · rename_i v _ hv
        exact ⟨⟨true, false, hs0, by simp [Thread.enter], by simp, by simpa [Thread.enter] using h3, by
          intro w hw
          simp only [Thread.enter, Option.some.injEq] at hw
          subst hw
          exact h3 _ (by assumption)⟩, by simp, by simp⟩
      · exact ⟨⟨h, o, trivial, h1, h2, h3, h4⟩, by simp, by simp⟩
    | ifNotBusy body =>
      simp only [stmtFor] at hs0
      simp only at hs
      split at hs <;> simp only [Except.ok.injEq, reduceCtorEq] at hs <;> subst hs
      · exact ⟨⟨h, o, hs0, h1, h2, h3, h4⟩, by simp, by simp⟩
      · exact ⟨⟨h, o, trivial, h1, h2, h3, h4⟩, by simp, by simp⟩
    | ifResult body =>
      simp only [stmtFor] at hs0
      simp only at hs
      split at hs <;> simp only [Except.ok.injEq, reduceCtorEq] at hs <;> subst hs
      · exact ⟨⟨h, o, hs0, h1, h2, h3, h4⟩, by simp, by simp⟩
      · exact ⟨⟨h, o, trivial, h1, h2, h3, h4⟩, by simp, by simp⟩
    | cloneArgs =>
      simp only at hs
      split at hs <;> simp only [Except.ok.injEq, reduceCtorEq] at hs
      subst hs
      exact ⟨⟨h, true, by simpa [Stmt.isClone] using hrest, h1, by simp, h3, h4⟩, by simp, by simp⟩
    | spawn body =>
      simp only [stmtFor] at hs0
      simp only at hs
      split at hs <;> simp only [Except.ok.injEq, reduceCtorEq] at hs
      subst hs
      refine ⟨⟨h, o, by simpa [Stmt.isClone] using hrest, h1, h2, h3, h4⟩, ?_, by simp⟩
      intro s hs
      simp only [Option.some.injEq] at hs
      subst hs
      refine ⟨h && o, o, hs0, ?_, h2, by simp [Frame.captured], ?_⟩
      · intro e
        simp only [Bool.and_eq_true] at e
        simp only [Frame.captured, h2 e.2, if_true]
        exact h1 e.1
      · intro v hv
        simp only [Frame.captured] at hv
        split at hv
        · exact h4 v hv
        · simp at hv
    | letMemory =>
      simp only at hs
      split at hs <;> simp only [Except.ok.injEq, reduceCtorEq] at hs
      subst hs
      exact ⟨⟨h, o, by simpa [Stmt.isClone] using hrest, h1, h2, h3, h4⟩, by simp, by simp⟩

end

/-! ### Histories -/

section
variable {S : List ASTNode} {scope : String}

/-- The handler and the futures run code of their methods, and all calls were calls for requests. -/
structure ServerFor (S : List ASTNode) (G : FnNode → Val → Prop) {σ : Type} (c : Cfg σ) : Prop where
  run : ∀ r, c.run = some r → ∃ f ∈ methodsOf S, f.position = r.addr ∧ ThreadFor f (G f) r.thread
  tasks : ∀ t ∈ c.tasks, ∃ f ∈ methodsOf S, f.position = t.addr ∧ ThreadFor f (G f) t.thread
  calls : ∀ a g vs, Ev.called a g vs ∈ c.log → ∃ f ∈ methodsOf S, f.position = a ∧ CallFor f (G f) (g, vs)

theorem lookup_handlers (hA : WFSchema 0 S) (hn : ((methodsOf S).map (·.id)).Nodup) {a : Nat} {h : Handler}
    (hl : (genRpc scope S).handlers.lookup a = some h) : ∃ f ∈ methodsOf S, f.position = a ∧ h = genHandler f := by
  rw [handlers_genRpc scope hn] at hl
  obtain ⟨l1, l2, e, -⟩ := List.lookup_eq_some_iff.1 hl
  have : (a, h) ∈ (methodsOf S).map (fun f => (f.position, genHandler f)) := by rw [e]; simp
  obtain ⟨f, hf, e⟩ := List.mem_map.1 this
  simp only [Prod.mk.injEq] at e
  exact ⟨f, hf, e.1, e.2.symm⟩

theorem act_for {σ : Type} {C : Codec} {lib : BufLib} {U : User σ} (hA : WFSchema 0 S) (hn : ((methodsOf S).map (·.id)).Nodup)
    {G : FnNode → Val → Prop} {c c' : Cfg σ} {x : Act}
    (hG : ∀ f ∈ methodsOf S, f.isRead = false → ∀ v, evalLetArgs C .xFF (argsName f) (c.mem f.position).server = .ok (some v) → G f v)
    (hc : ServerFor S G c) (hx : act C lib U (genRpc scope S).handlers c x = some c') : ServerFor S G c' := by
  have hread : ∀ f ∈ methodsOf S, f.isRead = true → f.args = [] := fun f hf => (wf_method hA hf).2.2
  have called : ∀ (l : List Ev) (cs : List (String × List Val)) (f : FnNode), f ∈ methodsOf S → (∀ p ∈ cs, CallFor f (G f) p) →
      (∀ a g vs, Ev.called a g vs ∈ l → ∃ f ∈ methodsOf S, f.position = a ∧ CallFor f (G f) (g, vs)) →
      ∀ a g vs, Ev.called a g vs ∈ l ++ cs.map (fun p => .called f.position p.1 p.2) →
        ∃ f ∈ methodsOf S, f.position = a ∧ CallFor f (G f) (g, vs) := by
    intro l cs f hf hcs hl a g vs h
    rcases List.mem_append.1 h with h | h
    · exact hl a g vs h
    · obtain ⟨p, hp, e⟩ := List.mem_map.1 h
      simp only [Ev.called.injEq] at e
      obtain ⟨e1, e2, e3⟩ := e
      exact ⟨f, hf, e1, by rw [← e2, ← e3]; exact hcs p hp⟩
  cases x with
  | poll a =>
    simp only [act] at hx
    split at hx <;> simp only [Option.some.injEq, reduceCtorEq] at hx
    subst hx
    rename_i h _ hl
    refine ⟨?_, hc.tasks, hc.calls⟩
    intro r hr
    simp only [Option.some.injEq] at hr
    subst hr
    obtain ⟨f, hf, e, rfl⟩ := lookup_handlers hA hn hl
    exact ⟨f, hf, e, false, false, codeFor_handler f (hread f hf), by simp, by simp, by simp [Handler.start], by simp [Handler.start]⟩
  | stepH =>
    simp only [act] at hx
    split at hx
    · rename_i r hr
      split at hx <;> simp only [Option.some.injEq, reduceCtorEq] at hx
      rename_i o ho
      subst hx
      obtain ⟨f, hf, e, ht⟩ := hc.run r hr
      obtain ⟨k1, k2, k3⟩ := step_for (hread f hf) (by rw [← e]; exact hG f hf) ht ho
      refine ⟨?_, ?_, ?_⟩
      · intro r' hr'
        simp only [Option.some.injEq] at hr'
        subst hr'
        exact ⟨f, hf, e, k1⟩
      · intro t ht
        rcases List.mem_append.1 ht with ht | ht
        · exact hc.tasks t ht
        · obtain ⟨s, hs, rfl⟩ := List.mem_map.1 ht
          exact ⟨f, hf, e, k2 s (by simpa using hs)⟩
      · rw [← e]
        exact called _ _ f hf k3 hc.calls
    · simp at hx
  | endH =>
    simp only [act] at hx
    split at hx
    · split at hx <;> simp only [Option.some.injEq, reduceCtorEq] at hx
      subst hx
      refine ⟨by simp, hc.tasks, ?_⟩
      intro a g vs h
      exact hc.calls a g vs (by simpa using h)
    · simp at hx
  | stepT i =>
    simp only [act] at hx
    split at hx
    · rename_i t ht
      split at hx
      · simp at hx
      · split at hx <;> simp only [Option.some.injEq, reduceCtorEq] at hx
        rename_i o ho
        subst hx
        obtain ⟨f, hf, e, htf⟩ := hc.tasks t (List.mem_of_getElem? ht)
        obtain ⟨k1, k2, k3⟩ := step_for (hread f hf) (by rw [← e]; exact hG f hf) htf ho
        refine ⟨hc.run, ?_, ?_⟩
        · intro t' ht'
          rcases List.mem_append.1 ht' with ht' | ht'
          · rcases List.mem_or_eq_of_mem_set ht' with h | rfl
            · exact hc.tasks t' h
            · exact ⟨f, hf, e, k1⟩
          · obtain ⟨s, hs, rfl⟩ := List.mem_map.1 ht'
            exact ⟨f, hf, e, k2 s (by simpa using hs)⟩
        · rw [← e]
          exact called _ _ f hf k3 hc.calls
    · simp at hx
  | resume i r =>
    simp only [act] at hx
    split at hx
    · rename_i t ht
      split at hx <;> simp only [Option.some.injEq, reduceCtorEq] at hx
      rename_i res g xs hw
      subst hx
      obtain ⟨f, hf, e, h, o, q1, q2, q3, q4, q5⟩ := hc.tasks t (List.mem_of_getElem? ht)
      obtain ⟨e1, e2, e3⟩ := bindResult_args res r t.thread.frame
      refine ⟨hc.run, ?_, ?_⟩
      · intro t' ht'
        rcases List.mem_or_eq_of_mem_set ht' with h | rfl
        · exact hc.tasks t' h
        · exact ⟨f, hf, e, h, o, q1, by simpa only [e1] using q2, by simpa only [e3] using q3, by simpa only [e2] using q4,
            by simpa only [e1] using q5⟩
      · intro a g vs h
        exact hc.calls a g vs (by simpa using h)
    · simp at hx
  | request a bs =>
    simp only [act, Option.some.injEq] at hx
    subst hx
    exact ⟨hc.run, hc.tasks, fun a g vs h => hc.calls a g vs (by simpa using h)⟩
  | clear a bs =>
    simp only [act, Option.some.injEq] at hx
    subst hx
    exact ⟨hc.run, hc.tasks, hc.calls⟩

theorem acts_for {σ : Type} {C : Codec} {lib : BufLib} {U : User σ} (hA : WFSchema 0 S) (hn : ((methodsOf S).map (·.id)).Nodup)
    {G : FnNode → Val → Prop} (xs : List Act) : ∀ {c c' : Cfg σ},
    (∀ f ∈ methodsOf S, f.isRead = false → ∀ bs v, ServerHeld C lib U (genRpc scope S).handlers c xs f.position bs →
      evalLetArgs C .xFF (argsName f) bs = .ok (some v) → G f v) →
    ServerFor S G c → acts C lib U (genRpc scope S).handlers c xs = some c' → ServerFor S G c' := by
  induction xs with
  | nil =>
    intro c c' _ hc h
    simp only [acts, Option.some.injEq] at h
    rw [← h]
    exact hc
  | cons x xs ih =>
    intro c c' hG hc h
    simp only [acts] at h
    split at h
    · rename_i d hd
      refine ih ?_ (act_for hA hn ?_ hc hd) h
      · intro f hf hr bs v hb
        obtain ⟨ys, zs, c0, e1, e2, e3⟩ := hb
        exact hG f hf hr bs v ⟨x :: ys, zs, c0, by rw [e1]; rfl, by simp only [acts, hd]; exact e2, e3⟩
      · intro f hf hr v
        exact hG f hf hr _ v ⟨[], x :: xs, c, rfl, rfl, rfl⟩
    · simp at h

end

/-! ### The arguments of a request -/

section
variable {S : List ASTNode} {W : Wire}

theorem filterMap_inj {α β : Type} {g : α → Option β} {l : List α} (hn : (l.filterMap g).Nodup) {a b : α} {x : β}
    (ha : a ∈ l) (hb : b ∈ l) (ga : g a = some x) (gb : g b = some x) : a = b := by
  induction l with
  | nil => simp at ha
  | cons c l ih =>
    have mem : ∀ d, d ∈ l → g d = some x → x ∈ l.filterMap g := fun d hd e => List.mem_filterMap.2 ⟨d, hd, e⟩
    rw [List.filterMap_cons] at hn
    rcases List.mem_cons.1 ha with rfl | ha' <;> rcases List.mem_cons.1 hb with rfl | hb'
    · rfl
    · rw [ga] at hn
      exact absurd (mem b hb' gb) (List.nodup_cons.1 hn).1
    · rw [gb] at hn
      exact absurd (mem a ha' ga) (List.nodup_cons.1 hn).1
    · refine ih ?_ ha' hb'
      cases hc : g c with
      | none => rw [hc] at hn; exact hn
      | some y => rw [hc] at hn; exact (List.nodup_cons.1 hn).2

def declName : ASTNode → Option String
  | .struct n => some n.id
  | .enum n => some n.id
  | _ => none

theorem decl_by_name (hN : (typeNames S).Nodup) {d e : ASTNode} {x : String} (hd : d ∈ S) (he : e ∈ S)
    (h1 : declName d = some x) (h2 : declName e = some x) : d = e := by
  have e : typeNames S = S.filterMap declName := by
    unfold typeNames declName
    rfl
  rw [e] at hN
  exact filterMap_inj hN hd he h1 h2

theorem hasTys_length {ts : List TypeId} {vs : List Val} (h : HasTys W S ts vs) : ts.length = vs.length := by
  induction h <;> simp [*]

/-- A value of an argument struct. -/
theorem hasTys_args (hN : WellNamed (argsSchema S)) {f : FnNode} (hf : f ∈ methodsOf S) (hr : f.isRead = false) {v : Val}
    (h : HasTys W (argsSchema S) [.other (argsName f)] [v]) : ∃ mid vs, v = argsVal f mid vs ∧ mid.isSome = f.isAsync ∧
      HasTys W (argsSchema S) ((argsOf f).map (·.2)) vs := by
  have hm := args_mem hf hr
  have hin : argsName f ∈ typeNames (argsSchema S) :=
    List.mem_filterMap.2 ⟨_, hm, by simp [argsNode_id]⟩
  generalize ht : TypeId.other (argsName f) = t at h
  cases h with
  | leaf _ _ _ _ h _ => subst ht; cases v <;> exact h.elim
  | struct n fvs _ _ hn h' _ =>
    simp only [TypeId.other.injEq] at ht
    have e : ASTNode.struct n = .struct (argsNode f) :=
      decl_by_name hN.types hn hm (x := argsName f) (by simp [declName, ht]) (by simp [declName, argsNode_id])
    simp only [ASTNode.struct.injEq] at e
    subst e
    rw [fieldsOf_argsNode] at h'
    cases ha : f.isAsync with
    | false =>
      rw [ha] at h'
      refine ⟨none, fvs, ?_, rfl, by simpa using h'⟩
      simp [argsVal, argsNode_id, fieldsOf_argsNode, ha]
    | true =>
      rw [ha] at h'
      simp only [if_true, List.singleton_append, List.map_cons] at h'
      generalize hi : TypeId.integer "i64" 8 true = ti at h'
      cases h' with
      | leaf _ w _ ws hw h'' =>
        subst hi
        cases w with
        | int i =>
          refine ⟨some i, ws, ?_, rfl, h''⟩
          simp [argsVal, argsNode_id, fieldsOf_argsNode, ha]
        | _ => exact hw.elim
      | struct => cases hi
      | enum => cases hi
      | list => cases hi
      | ext => cases hi
  | enum n i pvs _ _ hn hi h' _ =>
    simp only [TypeId.other.injEq] at ht
    have e : ASTNode.enum n = .struct (argsNode f) :=
      decl_by_name hN.types hn hm (x := argsName f) (by simp [declName, ht]) (by simp [declName, argsNode_id])
    simp at e
  | list => cases ht
  | ext id _ _ _ h' =>
    simp only [TypeId.other.injEq] at ht
    exact absurd (ht ▸ hin) h'

/-- The encoding of a value of an argument struct. -/
theorem enc_args_inv (hN : WellNamed (argsSchema S)) {f : FnNode} (hf : f ∈ methodsOf S) (hr : f.isRead = false) {mid : Option Int}
    {vs : List Val} {b : Bytes} (hm : mid.isSome = f.isAsync)
    (hl : vs.length = (argsOf f).length)
    (h : Enc W (argsSchema S) [.other (argsName f)] [argsVal f mid vs] b) : ∃ m b', IdBytes W mid m ∧
      Enc W (argsSchema S) ((argsOf f).map (·.2)) vs b' ∧ b = m ++ b' := by
  have hmem := args_mem hf hr
  have hin : argsName f ∈ typeNames (argsSchema S) :=
    List.mem_filterMap.2 ⟨_, hmem, by simp [argsNode_id]⟩
  generalize ht : TypeId.other (argsName f) = t at h
  generalize hv : argsVal f mid vs = v at h
  cases h with
  | leaf _ p _ _ _ _ _ hp => subst ht; simp [builtin?] at hp
  | struct n fvs b _ _ _ hn h' h'' =>
    cases h''
    simp only [TypeId.other.injEq] at ht
    have e : ASTNode.struct n = .struct (argsNode f) :=
      decl_by_name hN.types hn hmem (x := argsName f) (by simp [declName, ht]) (by simp [declName, argsNode_id])
    simp only [ASTNode.struct.injEq] at e
    subst e
    have hlen := enc_length h'
    simp only [argsVal, Val.struct.injEq] at hv
    have hfvs : mid.toList.map Val.int ++ vs = fvs := by
      have e := congrArg (List.map (·.2)) hv.2
      unfold named at e
      rw [List.map_snd_zip, List.map_snd_zip] at e
      · exact e
      · simp only [List.length_map] at hlen ⊢; omega
      · rw [fieldsOf_argsNode]
        cases mid <;> cases ha : f.isAsync <;> simp_all
    subst hfvs
    rw [fieldsOf_argsNode] at h'
    cases ha : f.isAsync with
    | false =>
      rw [ha] at h' hm
      have : mid = none := by simpa using hm
      subst this
      exact ⟨[], b, rfl, by simpa using h', by simp⟩
    | true =>
      rw [ha] at h' hm
      obtain ⟨i, rfl⟩ := Option.isSome_iff_exists.1 hm
      simp only [if_true, List.singleton_append, List.map_cons, Option.toList_some, List.map_nil] at h'
      generalize hi : TypeId.integer "i64" 8 true = ti at h'
      cases h' with
      | leaf _ p w b1 _ ws b2 hp hw h'' =>
        subst hi
        simp only [builtin?, Option.some.injEq] at hp
        subst hp
        exact ⟨b1, b2, hw, h'', by simp⟩
      | ext => cases hi
  | enum n i tag pvs b _ _ _ hn hi htag h' h'' => simp [argsVal] at hv
  | list => cases ht
  | ext id _ _ _ _ _ h' =>
    simp only [TypeId.other.injEq] at ht
    exact absurd (ht ▸ hin) h'

/-- Types that do not refer to argument structs. -/
def NoArgStruct (S : List ASTNode) (t : TypeId) : Prop := ∀ f ∈ methodsOf S, ¬ Mentions (argsName f) t

theorem noArgStruct_fields (hU : ArgStructsUnused S) {n : StructNode} (hn : .struct n ∈ S) :
    ∀ t ∈ (fieldsOf n).map (·.2), NoArgStruct S t := fun t ht f hf => hU.types f hf _ hn t ht

theorem noArgStruct_payload (hU : ArgStructsUnused S) {n : EnumNode} (hn : .enum n ∈ S) {i : EnumItem} (hi : i ∈ n.items) :
    ∀ t ∈ (payload i).map (·.2), NoArgStruct S t :=
  fun t ht f hf => hU.types f hf _ hn t (List.mem_flatMap.2 ⟨i, hi, ht⟩)

theorem hasTys_without (hU : ArgStructsUnused S) {ts : List TypeId} {vs : List Val} (h : HasTys W (argsSchema S) ts vs) :
    (∀ t ∈ ts, NoArgStruct S t) → HasTys W S ts vs := by
  induction h with
  | nil => exact fun _ => .nil
  | leaf t v ts vs hv _ ih => exact fun h => .leaf _ _ _ _ hv (ih (fun t ht => h t (by simp [ht])))
  | struct n fvs ts vs hn _ _ ih1 ih2 =>
    intro h
    rcases mem_argsSchema_struct hn with hn | ⟨f, hf, -, rfl⟩
    · exact .struct n fvs _ _ hn (ih1 (noArgStruct_fields hU hn)) (ih2 (fun t ht => h t (by simp [ht])))
    · exact absurd (by rw [argsNode_id]; exact .other) (h (.other (argsNode f).id) (by simp) f hf)
  | enum n i pvs ts vs hn hi _ _ ih1 ih2 =>
    intro h
    have hn := mem_argsSchema_enum hn
    exact .enum n i pvs _ _ hn hi (ih1 (noArgStruct_payload hU hn hi)) (ih2 (fun t ht => h t (by simp [ht])))
  | list c gs s its items ts vs hh hp _ _ ih1 ih2 =>
    intro h
    refine .list c gs s its items _ _ hh hp (ih1 (fun t ht f hf hm => ?_)) (ih2 (fun t ht => h t (by simp [ht])))
    exact h (.generic c gs) (by simp) f hf (.argument (pick_mem hp t ht) hm)
  | ext id v ts vs hid hv _ ih =>
    intro h
    refine .ext id v _ _ ?_ hv (ih (fun t ht => h t (by simp [ht])))
    rw [typeNames_argsSchema] at hid
    exact fun e => hid (by simp [e])

theorem enc_without (hU : ArgStructsUnused S) {ts : List TypeId} {vs : List Val} {b : Bytes} (h : Enc W (argsSchema S) ts vs b) :
    (∀ t ∈ ts, NoArgStruct S t) → Enc W S ts vs b := by
  induction h with
  | nil => exact fun _ => .nil
  | leaf t p v b ts vs bs hp hv _ ih => exact fun h => .leaf _ p _ b _ _ _ hp hv (ih (fun t ht => h t (by simp [ht])))
  | struct n fvs b ts vs bs hn _ _ ih1 ih2 =>
    intro h
    rcases mem_argsSchema_struct hn with hn | ⟨f, hf, -, rfl⟩
    · exact .struct n fvs b _ _ _ hn (ih1 (noArgStruct_fields hU hn)) (ih2 (fun t ht => h t (by simp [ht])))
    · exact absurd (by rw [argsNode_id]; exact .other) (h (.other (argsNode f).id) (by simp) f hf)
  | enum n i tag pvs b ts vs bs hn hi ht _ _ ih1 ih2 =>
    intro h
    have hn := mem_argsSchema_enum hn
    exact .enum n i tag pvs b _ _ _ hn hi ht (ih1 (noArgStruct_payload hU hn hi)) (ih2 (fun t ht => h t (by simp [ht])))
  | list c gs s hd its items b ts vs bs hh hp _ _ ih1 ih2 =>
    intro h
    refine .list c gs s hd its items b _ _ _ hh hp (ih1 (fun t ht f hf hm => ?_)) (ih2 (fun t ht => h t (by simp [ht])))
    exact h (.generic c gs) (by simp) f hf (.argument (pick_mem hp t ht) hm)
  | ext id v b ts vs bs hid hv _ ih =>
    intro h
    refine .ext id v b _ _ _ ?_ hv (ih (fun t ht => h t (by simp [ht])))
    rw [typeNames_argsSchema] at hid
    exact fun e => hid (by simp [e])

theorem wf_argsName (f : FnNode) : WFType (.other (argsName f)) := by
  have h := WFType.name (argsName f)
  rwa [show typeOfName (argsName f) = .other (argsName f) by unfold typeOfName; rw [argsName_not_builtin]; rfl] at h

/-- Reading the arguments of a method from any bytes. -/
theorem evalLetArgs_typed {rt : Runtime} (hrt : rt.Typed) (hN : WellNamed S) (hR : RpcNamed S) (hA : WFSchema 0 S)
    (hU : ArgStructsUnused S) {f : FnNode} (hf : f ∈ methodsOf S) (hr : f.isRead = false) {k : Nat} {bs : Bytes} {v : Val}
    (h : evalLetArgs (codecAt rt (genProg (argsSchema S)) k) .xFF (argsName f) bs = .ok (some v)) :
    ∃ mid vs r r', v = argsVal f mid vs ∧ mid.isSome = f.isAsync ∧ HasTys rt.wire S ((argsOf f).map (·.2)) vs ∧
      rt.readP "u8" bs = some (.int 255, r) ∧
      readTy rt (genProg (argsSchema S)) k (genTy (.other (argsName f))) r = .ok (v, r') := by
  simp only [evalLetArgs, bind, Except.bind, readStatus, codecAt] at h
  split at h
  · simp at h
  · rename_i q hq
    split at hq
    · rename_i n r hr'
      simp only [Except.ok.injEq] at hq
      subst hq
      simp only at h
      split at h
      · rename_i hn
        split at h
        · simp at h
        · rename_i w hw
          simp only [Except.ok.injEq, Option.some.injEq] at h
          subst h
          cases hrd : readTy rt (genProg (argsSchema S)) k (.named (argsName f)) r with
          | error e => rw [hrd] at hw; simp [orElse] at hw
          | ok q =>
            rw [hrd] at hw
            simp only [orElse, Except.ok.injEq] at hw
            subst hw
            have hty := (typed_ind hrt).read (wellNamed_args hN hR) (typesOk_args hA) k (.other (argsName f))
              (wf_argsName f) r q.1 q.2 hrd
            obtain ⟨mid, vs, h1, h2, h3⟩ := hasTys_args (wellNamed_args hN hR) hf hr hty.1
            refine ⟨mid, vs, r, q.2, h1, h2, ?_, ?_, hrd⟩
            · exact hasTys_without hU h3 (fun t ht g hg => hU.args g hg f hf t ht)
            · rw [hr', hn]; rfl
      · simp at h
    · simp at hq

end

end TPB.Rust
