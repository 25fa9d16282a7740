/-
C68: servers that receive arbitrary bytes.
-/
import Verif.Proofs.UntrustedRpc
import Verif.Proofs.UntrustedLE
import Verif.Props.RpcServer
namespace TPB.Props
open Spec Rust

/-! ## C68: arbitrary requests -/

/-- **C68** In every history of the server, with arbitrary bytes written to the buffers by anyone: a user function is
called only as a method of the schema at its address, and only with values of the declared types of its arguments. -/
theorem C68_typed_calls (rt : Runtime) (hrt : rt.Typed) (S : List ASTNode) (hA : Accepted S) (hN : WellNamed S)
    (hR : RpcNamed S) (hU : ArgStructsUnused S) (hM : methodsOf S ≠ []) (out : String) (hout : RustGen.rpc S = .ok out) :
    ∃ P R, Emits S P ∧ EmitsRpc S R ∧
      ∀ (σ : Type) (lib : BufLib) (U : User σ) (mem : Nat → Bufs) (u : σ) (xs : List Act) (k : Nat) (c : Cfg σ),
        acts (codecAt rt (P.withArgs R) k) lib U R.handlers (Cfg.initial mem u) xs = some c →
        ∀ a g vs, Ev.called a g vs ∈ c.log →
          ∃ f ∈ methodsOf S, f.position = a ∧ f.id = g ∧ HasTys rt.wire S ((argsOf f).map (·.2)) vs := by
  obtain ⟨scope, hE⟩ := emitsRpc_of hA.wf hout hM
  refine ⟨_, _, emits_genProg S hA, hE, fun σ lib U mem u xs k c hc a g vs hv => ?_⟩
  rw [withArgs_genProg] at hc
  have h := acts_for hA.wf hR.methods (G := fun f v => ∃ mid vs, v = argsVal f mid vs ∧ mid.isSome = f.isAsync ∧
      HasTys rt.wire S ((argsOf f).map (·.2)) vs) xs ?_ ⟨by simp [Cfg.initial], by simp [Cfg.initial], by simp [Cfg.initial]⟩ hc
  · obtain ⟨f, hf, h1, h2, h3, h4⟩ := h.calls a g vs hv
    refine ⟨f, hf, h1, h2.symm, ?_⟩
    cases hr : f.isRead with
    | true =>
      have e : (argsOf f).map (·.2) = [] := by simp [argsOf, (wf_method hA.wf hf).2.2 hr]
      have h3 : vs = [] := h3 hr
      rw [e, h3]
      exact .nil
    | false =>
      obtain ⟨v, ⟨mid, ws, rfl, hm, hty⟩, fr, hfr, hcall⟩ := h4 hr
      have hl := hasTys_length hty
      rw [callArgs_val hm (by simpa [argsOf] using hl) (hR.args f hf).1 (hR.args f hf).2 hfr] at hcall
      simp only [Except.ok.injEq] at hcall
      rw [← hcall]
      exact hty
  · intro f hf hr bs v _ hv
    obtain ⟨mid, vs, _, _, h1, h2, h3, _⟩ := evalLetArgs_typed hrt hN hR hA.wf hU hf hr hv
    exact ⟨mid, vs, h1, h2, h3⟩

/-- C68: if the library accepts only what it writes, then a user function (other than that of a read method) is called
only with the arguments of a request that was in the buffer of its method: no other bytes are taken for a request. -/
theorem C68_only_requests (rt : Runtime) (hrt : rt.Typed) (hC : rt.Canonical) (S : List ASTNode) (hA : Accepted S) (hN : WellNamed S)
    (hR : RpcNamed S) (hU : ArgStructsUnused S) (hM : methodsOf S ≠ []) (out : String) (hout : RustGen.rpc S = .ok out) :
    ∃ P R, Emits S P ∧ EmitsRpc S R ∧
      ∀ (σ : Type) (lib : BufLib) (U : User σ) (mem : Nat → Bufs) (u : σ) (xs : List Act) (k : Nat) (c : Cfg σ),
        acts (codecAt rt (P.withArgs R) k) lib U R.handlers (Cfg.initial mem u) xs = some c →
        ∀ a g vs, Ev.called a g vs ∈ c.log →
          ∃ f ∈ methodsOf S, f.position = a ∧ f.id = g ∧ (f.isRead = true → vs = []) ∧
            (f.isRead = false → ∃ mid req rest, Request rt.wire S f mid vs req ∧
              ServerHeld (codecAt rt (P.withArgs R) k) lib U R.handlers (Cfg.initial mem u) xs a (req ++ rest)) := by
  obtain ⟨scope, hE⟩ := emitsRpc_of hA.wf hout hM
  refine ⟨_, _, emits_genProg S hA, hE, fun σ lib U mem u xs k c hc a g vs hv => ?_⟩
  rw [withArgs_genProg] at hc ⊢
  have h := acts_for hA.wf hR.methods (G := fun f v => ∃ mid vs req rest, v = argsVal f mid vs ∧ vs.length = (argsOf f).length ∧
      Request rt.wire S f mid vs req ∧
      ServerHeld (codecAt rt (genProg (argsSchema S)) k) lib U (genRpc scope S).handlers (Cfg.initial mem u) xs f.position (req ++ rest))
      xs ?_ ⟨by simp [Cfg.initial], by simp [Cfg.initial], by simp [Cfg.initial]⟩ hc
  · obtain ⟨f, hf, rfl, h2, h3, h4⟩ := h.calls a g vs hv
    refine ⟨f, hf, rfl, h2.symm, h3, fun hr => ?_⟩
    obtain ⟨v, ⟨mid, ws, req, rest, rfl, hl, hreq, hheld⟩, fr, hfr, hcall⟩ := h4 hr
    rw [callArgs_val hreq.id (by simpa [argsOf] using hl.symm) (hR.args f hf).1 (hR.args f hf).2 hfr] at hcall
    simp only [Except.ok.injEq] at hcall
    rw [← hcall]
    exact ⟨mid, req, rest, hreq, hheld⟩
  · intro f hf hr bs v hheld hv
    obtain ⟨mid, vs, r, r', rfl, h2, h3, h4, h5⟩ := evalLetArgs_typed hrt hN hR hA.wf hU hf hr hv
    have hl : vs.length = (argsOf f).length := by simpa using (hasTys_length h3).symm
    obtain ⟨s, hs, rfl⟩ := hC.prim "u8" bs _ r h4
    obtain ⟨b, hb, rfl⟩ := (canonical_ind hC).read (wellNamed_args hN hR) (typesOk_args hA.wf) k _ (wf_argsName f) _ _ _ h5
    obtain ⟨m, b', hm, he, rfl⟩ := enc_args_inv (wellNamed_args hN hR) hf hr h2 hl hb
    refine ⟨mid, vs, s ++ m ++ b', r', rfl, hl, ⟨h2, s, m, b', hs, hm, ?_, rfl⟩, ?_⟩
    · exact enc_without hU he (fun t ht g hg => hU.args g hg f hf t ht)
    · simpa using hheld

/-! ### Non-vacuity of C68 -/

theorem mention_named {id x : String} (h : Mentions id (.other x)) : x = id := by
  generalize e : TypeId.other x = t at h
  cases h <;> simp_all

theorem mention_container {id c : String} {gs : List TypeId} (h : Mentions id (.generic c gs)) : c = id ∨ ∃ g ∈ gs, Mentions id g := by
  generalize e : TypeId.generic c gs = t at h
  cases h with
  | other => simp at e
  | container => simp at e; exact .inl e.1
  | argument hg hm => simp at e; obtain ⟨rfl, rfl⟩ := e; exact .inr ⟨_, hg, hm⟩

theorem mention_integer {id x : String} {n : Nat} {s : Bool} (h : Mentions id (.integer x n s)) : False := by
  generalize e : TypeId.integer x n s = t at h
  cases h <;> simp at e

theorem rpcSchema_argsName {f : FnNode} : argsName f ∉ ["Point", "Vec", "String"] := by
  intro h
  have : (argsName f).toList.head? = some '_' := by unfold argsName; simp
  simp only [List.mem_cons, List.not_mem_nil, or_false] at h
  rcases h with e | e | e <;> rw [e] at this <;> simp at this

theorem rpcSchema_unused : ArgStructsUnused rpcSchema where
  types := by
    intro f _ d hd t ht hm
    have key := rpcSchema_argsName (f := f)
    simp only [rpcSchema, List.mem_cons, List.not_mem_nil, or_false] at hd
    rcases hd with rfl | rfl | rfl | rfl | rfl | rfl | rfl | rfl <;> simp [typesOf, fieldsOf] at ht
    rcases ht with rfl | rfl
    · exact mention_integer hm
    · rcases mention_container hm with e | ⟨g, hg, hm⟩
      · simp [← e] at key
      · simp only [List.mem_singleton] at hg
        subst hg
        simp [← mention_named hm] at key
  args := by
    intro f _ g hg t ht hm
    have key := rpcSchema_argsName (f := f)
    simp only [rpcSchema, methodsOf, List.filterMap_cons, List.filterMap_nil, List.mem_cons, List.not_mem_nil, or_false] at hg
    rcases hg with rfl | rfl | rfl | rfl | rfl <;> simp [argsOf] at ht
    · rcases ht with rfl | rfl
      · simp [← mention_named hm] at key
      · exact mention_integer hm
    · subst ht
      simp [← mention_named hm] at key

/-- Bytes that are no request are ignored, a request is executed. -/
def arbitraryHistory : List Act :=
  [.request 0 [7, 255, 255], .poll 0, .stepH, .stepH, .stepH, .endH,
    .request 0 (255 :: (ptBytes 1 ++ LE.le 8 5)), .poll 0] ++ List.replicate 6 .stepH

example : (acts (codecAt LE.rust.strict ((genProg rpcSchema).withArgs (genRpc "8b61" rpcSchema)) 10) overwrite exampleUser
      (genRpc "8b61" rpcSchema).handlers (Cfg.initial (fun _ => ⟨[0], [0]⟩) 0) arbitraryHistory).map
        (fun c => (c.log.length, c.log.countP (Ev.calledAt 0)))
    = some (4, 1) := by
  decide +kernel

end TPB.Props
