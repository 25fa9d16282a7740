/-
Proofs that emitted handlers and futures do not get stuck.
-/
import Verif.Spec.RpcProgress
import Verif.Proofs.UntrustedRpc
namespace TPB.Rust
open Spec TPB.Props

/-! ### Code that can be executed -/

/-- What is known of the variables of a thread. -/
structure VarsKnown where
  names : List String
  argsOpt : Bool
  args : Bool
  owned : Bool
  busy : Bool
  result : Bool
  ref : Bool
  /-- inside of a future -/
  async : Bool

def VarsKnown.captured (Γ : VarsKnown) : VarsKnown :=
  { Γ with argsOpt := false, args := Γ.args && Γ.owned, names := Γ.names.erase "memory", async := true }

def VarsKnown.after (Γ : VarsKnown) : Stmt → VarsKnown
  | .letArgs _ _ _ => { Γ with argsOpt := true, names := "args" :: Γ.names }
  | .letBusy _ _ => { Γ with busy := true, names := "is_busy" :: Γ.names }
  | .call true _ _ _ => { Γ with result := true, ref := false, names := "result" :: Γ.names }
  | .cloneArgs => { Γ with owned := true }
  | .letMemory => { Γ with names := "memory" :: Γ.names }
  | _ => Γ

def VarsKnown.afterAll (Γ : VarsKnown) : List Stmt → VarsKnown
  | [] => Γ
  | s :: ss => (Γ.after s).afterAll ss

def Stmt.isIf : Stmt → Bool
  | .ifArgs _ => true
  | .ifNotBusy _ => true
  | .ifResult _ => true
  | _ => false

section
variable (f : FnNode)

def writeSafe (Γ : VarsKnown) : BufW → Prop
  | .status _ => True
  | .argI64 x => Γ.args = true ∧ x = "__method_id__" ∧ f.isAsync = true
  | .resultPrim m => Γ.ref = false ∧ Γ.result = true ∧ f.isRead = false ∧ ∃ t, f.returnTypeId = some t ∧ builtin? t = some m
  | .resultCall t => f.returnTypeId = some t ∧ builtin? t = none ∧
      (Γ.ref = true ∨ (Γ.ref = false ∧ Γ.result = true ∧ f.isRead = false))

mutual
def stmtSafe (Γ : VarsKnown) : Stmt → Prop
  | .bufWrite _ ws => "memory" ∈ Γ.names ∧ ∀ w ∈ ws, writeSafe f Γ w
  | .call res g as aw => g = f.id ∧ as = f.args.map (·.id) ∧ f.id ∉ Γ.names ∧ (f.isRead = false → Γ.args = true) ∧ aw = f.isAsync ∧
      (aw = true → Γ.async = true) ∧ (f.isRead = true → res = true) ∧ (f.returnTypeId.isSome → res = true)
  | .letArgs b s ty => b = .server ∧ s = .xFF ∧ ty = argsName f ∧ f.isRead = false ∧ Γ.async = false
  | .letBusy b _ => b = .server ∧ Γ.async = false
  | .ifArgs body => Γ.argsOpt = true ∧ codeSafe { Γ with args := true, owned := false } body
  | .ifNotBusy body => Γ.busy = true ∧ codeSafe Γ body
  | .ifResult body => Γ.result = true ∧ f.isRead = true ∧ codeSafe { Γ with ref := true } body
  | .cloneArgs => Γ.args = true
  | .spawn body => "async_context" ∈ Γ.names ∧ codeSafe Γ.captured body
  | .letMemory => "runtime_as_mut" ∈ Γ.names
  | .blank => True

def codeSafe (Γ : VarsKnown) : List Stmt → Prop
  | [] => True
  | s :: ss => stmtSafe Γ s ∧ (s.isIf = true → ss = []) ∧ codeSafe (Γ.after s) ss
end

def retSafe (Γ : VarsKnown) : RetE → Prop
  | .argsIsSome => Γ.argsOpt = true
  | .resultIsSome => Γ.result = true ∧ f.isRead = true
  | .notBusy => Γ.busy = true

/-- What is known where a handler starts. -/
def startVars (h : Handler) : VarsKnown := ⟨h.sig.names, false, false, false, false, false, false, false⟩

theorem genResults_safe (Γ : VarsKnown) (h : f.returnTypeId.isSome → (Γ.ref = true ∧ ∀ t, f.returnTypeId = some t → builtin? t = none) ∨
    (Γ.ref = false ∧ Γ.result = true ∧ f.isRead = false)) : ∀ w ∈ genResults f, writeSafe f Γ w := by
  intro w hw
  unfold genResults at hw
  cases ht : f.returnTypeId with
  | none => rw [ht] at hw; simp at hw
  | some t =>
    rw [ht] at hw
    simp only [List.mem_singleton] at hw
    subst hw
    rcases h (by simp [ht]) with ⟨h1, h2⟩ | ⟨h1, h2, h3⟩
    · have := h2 t ht
      cases t <;> simp [builtin?] at this <;> simp [genResult, writeSafe, ht, h1, builtin?]
    · cases t <;> simp [genResult, writeSafe, ht, h1, h2, h3, builtin?]

theorem handler_safe (hread : f.isRead = true → f.args = []) (hloc : f.id ∉ ["scope_id", "runtime_as_mut", "memory", "async_context",
    "rpc_method_address", "args", "is_busy"]) (hb : f.isRead = true → ∀ t, f.returnTypeId = some t → builtin? t = none) :
    codeSafe f (startVars (genHandler f)) (genHandler f).body ∧
    retSafe f ((startVars (genHandler f)).afterAll (genHandler f).body) (genHandler f).ret := by
  have e : RustGen.argsStructId f = argsName f := by
    unfold RustGen.argsStructId argsName; simp
  simp only [List.mem_cons, List.not_mem_nil, or_false, not_or] at hloc
  obtain ⟨h1, h2, h3, h4, h5, h6, h7⟩ := hloc
  have ws : ∀ Γ s, writeSafe f Γ (.status s) ↔ True := fun _ _ => Iff.rfl
  have wa : ∀ Γ x, writeSafe f Γ (.argI64 x) ↔ (Γ.args = true ∧ x = "__method_id__" ∧ f.isAsync = true) := fun _ _ => Iff.rfl
  unfold genHandler
  cases hr : f.isRead <;> cases ha : f.isAsync <;> cases ht : f.returnTypeId.isSome
  all_goals
    simp_all [genSyncBody, genAsyncBody, genSyncReadBody, genAsyncReadBody, genCall, codeSafe, stmtSafe, Stmt.isIf, startVars,
      VarsKnown.after, VarsKnown.afterAll, retSafe, Sig.names, VarsKnown.captured]
  all_goals
    refine genResults_safe f _ ?_
    simp_all
end

/-! ### Threads -/

section
variable (f : FnNode) (G : Val → Prop) (Q : Ret → Prop) (V : Val → Prop)

/-- The variables of a thread are what is known; `G` holds of requests, `Q` of results, and `V` of the values that
are in the results of read methods. -/
structure FrameOk (Γ : VarsKnown) (fr : Frame) : Prop where
  names : fr.names = Γ.names
  argsOpt : Γ.argsOpt = true → fr.argsOpt.isSome
  argsOptIs : ∀ v, fr.argsOpt = some (some v) → G v
  args : Γ.args = true → fr.args.isSome
  argsIs : ∀ v, fr.args = some v → G v
  owned : Γ.owned = true → fr.owned = true
  busy : Γ.busy = true → fr.busy.isSome
  result : Γ.result = true → ∃ r, fr.result = some r ∧ Q r
  ref : Γ.ref = true → ∃ v, fr.resultRef = some v ∧ V v
  noRef : Γ.ref = false → fr.resultRef = none

/-- A thread that can go on; `a`: it is a future. -/
def ThreadSafe (a : Bool) (t : Thread) : Prop :=
  match t.wait with
  | none => ∃ Γ, Γ.async = a ∧ FrameOk G Q V Γ t.frame ∧ codeSafe f Γ t.code
  | some (res, g, _) => a = true ∧ g = f.id ∧ ∀ r, Q r → ∃ Γ, Γ.async = a ∧ FrameOk G Q V Γ (bindResult res r t.frame) ∧ codeSafe f Γ t.code

/-- A handler whose result can be computed once its code has ended. -/
def RunSafe (ret : RetE) (t : Thread) : Prop :=
  t.wait = none ∧ ∃ Γ, Γ.async = false ∧ FrameOk G Q V Γ t.frame ∧ codeSafe f Γ t.code ∧
    (match t.outer with
     | none => retSafe f (Γ.afterAll t.code) ret
     | some fr => ∃ Γ', FrameOk G Q V Γ' fr ∧ retSafe f Γ' ret)

variable {f G Q V}

theorem FrameOk.bind {Γ : VarsKnown} {fr : Frame} (h : FrameOk G Q V Γ fr) {r : Ret} (hr : Q r) (res : Bool) (g : String) (as : List String)
    (aw : Bool) : FrameOk G Q V (Γ.after (.call res g as aw)) (bindResult res r fr) := by
  cases res with
  | false => exact h
  | true =>
    exact ⟨by simp [bindResult, VarsKnown.after, h.names], h.argsOpt, h.argsOptIs, h.args, h.argsIs, h.owned, h.busy,
      fun _ => ⟨r, rfl, hr⟩, by simp [VarsKnown.after], fun _ => rfl⟩

theorem FrameOk.captured {Γ : VarsKnown} {fr : Frame} (h : FrameOk G Q V Γ fr) : FrameOk G Q V Γ.captured fr.captured where
  names := by simp [Frame.captured, VarsKnown.captured, h.names]
  argsOpt := by simp [VarsKnown.captured]
  argsOptIs := by simp [Frame.captured]
  args := by
    intro e
    simp only [VarsKnown.captured, Bool.and_eq_true] at e
    simp only [Frame.captured, h.owned e.2, if_true]
    exact h.args e.1
  argsIs := by
    intro v hv
    simp only [Frame.captured] at hv
    split at hv
    · exact h.argsIs v hv
    · simp at hv
  owned := h.owned
  busy := h.busy
  result := h.result
  ref := h.ref
  noRef := h.noRef

theorem after_async (Γ : VarsKnown) (s : Stmt) : (Γ.after s).async = Γ.async := by
  unfold VarsKnown.after
  split <;> rfl

/-- The variables after a statement that is not a block. -/
theorem step_known {σ : Type} {C : Codec} {lib : BufLib} {U : User σ} {m : Bufs} {u : σ} {t : Thread} {out : Out σ} {Γ : VarsKnown}
    (hG : f.isRead = false → ∀ v, evalLetArgs C .xFF (argsName f) m.server = .ok (some v) → G v)
    (hQ : f.isAsync = false → ∀ xs, CallFor f G (f.id, xs) → Q (U f.id xs u).1)
    (hV : f.isRead = true → ∀ v, Q (.opt (some v)) → V v)
    (hread : f.isRead = true → f.args = [])
    (hw : t.wait = none) (hF : FrameOk G Q V Γ t.frame) (hS : codeSafe f Γ t.code) (hs : step C lib U m u t = .ok out) :
    (∀ s, out.spawned = some s → ThreadSafe f G Q V true s) ∧ ThreadSafe f G Q V Γ.async out.thread ∧
    (Γ.async = false → ∀ ret, (match t.outer with
       | none => retSafe f (Γ.afterAll t.code) ret
       | some fr => ∃ Γ', FrameOk G Q V Γ' fr ∧ retSafe f Γ' ret) → RunSafe f G Q V ret out.thread) := by
  -- it is enough to find what is known afterwards
  have fin : ∀ (t' : Thread) (Γ' : VarsKnown), t'.wait = none → Γ'.async = Γ.async → FrameOk G Q V Γ' t'.frame → codeSafe f Γ' t'.code →
      (∀ ret, (match t.outer with
       | none => retSafe f (Γ.afterAll t.code) ret
       | some fr => ∃ Γ', FrameOk G Q V Γ' fr ∧ retSafe f Γ' ret) → (match t'.outer with
       | none => retSafe f (Γ'.afterAll t'.code) ret
       | some fr => ∃ Γ', FrameOk G Q V Γ' fr ∧ retSafe f Γ' ret)) →
      ThreadSafe f G Q V Γ.async t' ∧ (Γ.async = false → ∀ ret, (match t.outer with
       | none => retSafe f (Γ.afterAll t.code) ret
       | some fr => ∃ Γ', FrameOk G Q V Γ' fr ∧ retSafe f Γ' ret) → RunSafe f G Q V ret t') := by
    intro t' Γ' h1 h2 h3 h4 h5
    refine ⟨?_, fun ha ret hr => ⟨h1, Γ', by rw [h2, ha], h3, h4, h5 ret hr⟩⟩
    unfold ThreadSafe
    rw [h1]
    exact ⟨Γ', h2, h3, h4⟩
  cases hcode : t.code with
  | nil => unfold step at hs; rw [hcode] at hs; simp at hs
  | cons s rest =>
    have simple : ∀ t' : Thread, t'.wait = none → t'.outer = t.outer → t'.code = rest → FrameOk G Q V (Γ.after s) t'.frame →
        ThreadSafe f G Q V Γ.async t' ∧ (Γ.async = false → ∀ ret, (match t.outer with
         | none => retSafe f (Γ.afterAll t.code) ret
         | some fr => ∃ Γ', FrameOk G Q V Γ' fr ∧ retSafe f Γ' ret) → RunSafe f G Q V ret t') := by
      intro t' h1 h2 h3 h4
      rw [hcode] at hS
      refine fin t' (Γ.after s) h1 (after_async Γ s) h4 (by rw [h3]; exact hS.2.2) ?_
      intro ret hr
      rw [h2, h3]
      rw [hcode] at hr
      exact hr
    have enter : ∀ (fr : Frame) (Γ' : VarsKnown) (body : List Stmt), s.isIf = true → Γ.after s = Γ → Γ'.async = Γ.async → FrameOk G Q V Γ' fr →
        codeSafe f Γ' body → ThreadSafe f G Q V Γ.async (t.enter fr body) ∧ (Γ.async = false → ∀ ret, (match t.outer with
         | none => retSafe f (Γ.afterAll t.code) ret
         | some fr => ∃ Γ', FrameOk G Q V Γ' fr ∧ retSafe f Γ' ret) → RunSafe f G Q V ret (t.enter fr body)) := by
      intro fr Γ' body hi haf h1 h2 h3
      refine fin _ Γ' rfl h1 h2 h3 ?_
      intro ret hr
      rw [hcode] at hS
      have hrest := hS.2.1 hi
      rw [hcode, hrest] at hr
      simp only [VarsKnown.afterAll, haf] at hr
      cases ho : t.outer with
      | none =>
        rw [ho] at hr
        simp only [Thread.enter, ho, Option.getD_none]
        exact ⟨Γ, hF, hr⟩
      | some fr' =>
        rw [ho] at hr
        simp only [Thread.enter, ho, Option.getD_some]
        exact hr
    have leave : s.isIf = true → Γ.after s = Γ → ThreadSafe f G Q V Γ.async { t with code := [] } ∧ (Γ.async = false → ∀ ret, (match t.outer with
         | none => retSafe f (Γ.afterAll t.code) ret
         | some fr => ∃ Γ', FrameOk G Q V Γ' fr ∧ retSafe f Γ' ret) → RunSafe f G Q V ret { t with code := [] }) := by
      intro hi haf
      have hrest : rest = [] := by rw [hcode] at hS; exact hS.2.1 hi
      exact simple _ hw rfl hrest.symm (by rw [haf]; exact hF)
    have hS' := hS
    rw [hcode] at hS'
    obtain ⟨hs0, -, -⟩ := hS'
    unfold step at hs
    rw [hcode] at hs
    rw [← hcode]
    cases s with
    | blank =>
      simp only [Except.ok.injEq] at hs
      subst hs
      exact ⟨by simp, simple _ hw rfl rfl hF⟩
    | letArgs b s ty =>
      obtain ⟨rfl, rfl, rfl, hr, -⟩ := hs0
      simp only [bind, Except.bind, Bufs.get] at hs
      cases he : evalLetArgs C .xFF (argsName f) m.server with
      | error e => rw [he] at hs; simp at hs
      | ok x =>
        rw [he] at hs
        simp only [Except.ok.injEq] at hs
        subst hs
        refine ⟨by simp, simple _ hw rfl rfl ⟨by simp [VarsKnown.after, hF.names], fun _ => rfl, ?_, hF.args, hF.argsIs, hF.owned, hF.busy,
          hF.result, hF.ref, hF.noRef⟩⟩
        intro v hv
        simp only [Option.some.injEq] at hv
        subst hv
        exact hG hr v he
    | letBusy b s =>
      simp only [bind, Except.bind] at hs
      split at hs
      · simp at hs
      · simp only [Except.ok.injEq] at hs
        subst hs
        exact ⟨by simp, simple _ hw rfl rfl ⟨by simp [VarsKnown.after, hF.names], hF.argsOpt, hF.argsOptIs, hF.args, hF.argsIs, hF.owned,
          fun _ => rfl, hF.result, hF.ref, hF.noRef⟩⟩
    | bufWrite b ws =>
      simp only [bind, Except.bind] at hs
      split at hs
      · split at hs
        · simp at hs
        · simp only [Except.ok.injEq] at hs
          subst hs
          exact ⟨by simp, simple _ hw rfl rfl hF⟩
      · simp at hs
    | call res g as aw =>
      obtain ⟨rfl, rfl, hn, hh, rfl, haw, -, -⟩ := hs0
      simp only [bind, Except.bind] at hs
      split at hs
      · simp at hs
      · split at hs
        · simp at hs
        · rename_i xs hxs
          have hcall : CallFor f G (f.id, xs) := by
            refine ⟨rfl, fun hr => ?_, fun hr => ?_⟩
            · rw [hread hr] at hxs
              simp only [List.map_nil, callArgs, Except.ok.injEq] at hxs
              exact hxs.symm
            · obtain ⟨v, hv⟩ := Option.isSome_iff_exists.1 (hF.args (hh hr))
              exact ⟨v, hF.argsIs v hv, t.frame, hv, hxs⟩
          split at hs <;> simp only [Except.ok.injEq] at hs <;> subst hs
          · rename_i ha
            refine ⟨by simp, ?_, fun hna => by rw [haw ha] at hna; simp at hna⟩
            rw [hcode] at hS
            exact ⟨haw ha, rfl, fun r hr => ⟨_, after_async Γ _, hF.bind hr res f.id _ _, hS.2.2⟩⟩
          · rename_i ha
            exact ⟨by simp, simple _ hw rfl rfl (hF.bind (hQ (by simpa using ha) xs hcall) res f.id _ _)⟩
    | ifArgs body =>
      obtain ⟨-, hb⟩ := hs0
      simp only at hs
      split at hs <;> simp only [Except.ok.injEq, reduceCtorEq] at hs <;> subst hs
      · rename_i v _ hv
        refine ⟨by simp, enter _ _ body rfl rfl ?_ ?_ hb⟩
        · rfl
        · refine ⟨hF.names, hF.argsOpt, hF.argsOptIs, fun _ => rfl, ?_, by simp, hF.busy, hF.result, hF.ref, hF.noRef⟩
          intro w hw
          simp only [Option.some.injEq] at hw
          subst hw
          exact hF.argsOptIs _ (by assumption)
      · exact ⟨by simp, leave rfl rfl⟩
    | ifNotBusy body =>
      obtain ⟨-, hb⟩ := hs0
      simp only at hs
      split at hs <;> simp only [Except.ok.injEq, reduceCtorEq] at hs <;> subst hs
      · exact ⟨by simp, enter _ _ body rfl rfl rfl hF hb⟩
      · exact ⟨by simp, leave rfl rfl⟩
    | ifResult body =>
      obtain ⟨h1, hr, hb⟩ := hs0
      simp only at hs
      split at hs <;> simp only [Except.ok.injEq, reduceCtorEq] at hs <;> subst hs
      · rename_i v hv
        refine ⟨by simp, enter _ _ body rfl rfl ?_ ?_ hb⟩
        · rfl
        · refine ⟨hF.names, hF.argsOpt, hF.argsOptIs, hF.args, hF.argsIs, hF.owned, hF.busy, hF.result, fun _ => ⟨_, rfl, ?_⟩, by simp⟩
          obtain ⟨r, e, hq⟩ := hF.result h1
          rw [hv] at e
          simp only [Option.some.injEq] at e
          subst e
          exact hV hr _ hq
      · exact ⟨by simp, leave rfl rfl⟩
    | cloneArgs =>
      simp only at hs
      split at hs <;> simp only [Except.ok.injEq, reduceCtorEq] at hs
      subst hs
      exact ⟨by simp, simple _ hw rfl rfl ⟨hF.names, hF.argsOpt, hF.argsOptIs, hF.args, hF.argsIs, fun _ => rfl, hF.busy,
          hF.result, hF.ref, hF.noRef⟩⟩
    | spawn body =>
      obtain ⟨-, hb⟩ := hs0
      simp only at hs
      split at hs <;> simp only [Except.ok.injEq, reduceCtorEq] at hs
      subst hs
      refine ⟨?_, simple _ hw rfl rfl hF⟩
      intro s hs
      simp only [Option.some.injEq] at hs
      subst hs
      exact ⟨_, rfl, hF.captured, hb⟩
    | letMemory =>
      simp only at hs
      split at hs <;> simp only [Except.ok.injEq, reduceCtorEq] at hs
      subst hs
      exact ⟨by simp, simple _ hw rfl rfl ⟨by simp [VarsKnown.after, hF.names], hF.argsOpt, hF.argsOptIs, hF.args, hF.argsIs, hF.owned, hF.busy,
          hF.result, hF.ref, hF.noRef⟩⟩

end

/-! ### The next statement -/

section
variable {f : FnNode} {G : Val → Prop} {W : Wire} {S : List ASTNode}

/-- A value that a read method has returned. -/
def ValueOf (W : Wire) (S : List ASTNode) (f : FnNode) (v : Val) : Prop := ∀ t, f.returnTypeId = some t → HasTy W S t v

/-- What is used of the codecs. -/
structure CodecOk (f : FnNode) (G : Val → Prop) (W : Wire) (S : List ASTNode) (C : Codec) (fr : Frame) : Prop where
  status : ∀ s : Status, (C.prim "u8" (.int s.val)).isSome
  id : f.isAsync = true → ∀ v, G v → ∃ x, field v "__method_id__" = .ok x ∧ (C.prim "i64" x).isSome
  args : f.isRead = false → ∀ v, G v → fr.args = some v → ∃ xs, callArgs fr (f.args.map (·.id)) = .ok xs
  prim : ∀ t m v, f.returnTypeId = some t → builtin? t = some m → HasTy W S t v → (C.prim m v).isSome
  write : ∀ t v, fr.resultRef = some v ∨ fr.result = some (.val v) → f.returnTypeId = some t → builtin? t = none → HasTy W S t v →
    (C.write t v).isSome

theorem evalBufW_ok {C : Codec} {fr : Frame} {Γ : VarsKnown} (hC : CodecOk f G W S C fr) (hF : FrameOk G (RetOf W S f) (ValueOf W S f) Γ fr)
    {w : BufW} (hw : writeSafe f Γ w) : ∃ b, evalBufW C fr w = .ok b := by
  have val : Γ.result = true → f.isRead = false → ∀ t, f.returnTypeId = some t → ∃ v, fr.result = some (.val v) ∧ HasTy W S t v := by
    intro h1 h2 t ht
    obtain ⟨r, e, hr⟩ := hF.result h1
    cases r with
    | unit => simp [RetOf, ht] at hr
    | opt o => simp [RetOf, h2] at hr
    | val v =>
      obtain ⟨-, t', e', hv⟩ := hr
      rw [ht] at e'
      simp only [Option.some.injEq] at e'
      subst e'
      exact ⟨v, e, hv⟩
  cases w with
  | status s =>
    obtain ⟨b, hb⟩ := Option.isSome_iff_exists.1 (hC.status s)
    exact ⟨b, by simp [evalBufW, hb, orElse]⟩
  | argI64 x =>
    obtain ⟨h1, rfl, h2⟩ := hw
    obtain ⟨v, hv⟩ := Option.isSome_iff_exists.1 (hF.args h1)
    obtain ⟨x, hx, hb⟩ := hC.id h2 v (hF.argsIs v hv)
    obtain ⟨b, hb⟩ := Option.isSome_iff_exists.1 hb
    exact ⟨b, by simp [evalBufW, hv, hx, hb, orElse, bind, Except.bind]⟩
  | resultPrim m =>
    obtain ⟨h1, h2, h3, t, ht, hm⟩ := hw
    obtain ⟨v, hv, hty⟩ := val h2 h3 t ht
    obtain ⟨b, hb⟩ := Option.isSome_iff_exists.1 (hC.prim t m v ht hm hty)
    exact ⟨b, by simp [evalBufW, hF.noRef h1, hv, hb, orElse]⟩
  | resultCall t =>
    obtain ⟨ht, hb, h⟩ := hw
    rcases h with h | ⟨h1, h2, h3⟩
    · obtain ⟨v, hv, hV⟩ := hF.ref h
      obtain ⟨b, hb⟩ := Option.isSome_iff_exists.1 (hC.write t v (.inl hv) ht hb (hV t ht))
      exact ⟨b, by simp [evalBufW, hv, hb, orElse]⟩
    · obtain ⟨v, hv, hty⟩ := val h2 h3 t ht
      obtain ⟨b, hb⟩ := Option.isSome_iff_exists.1 (hC.write t v (.inr hv) ht hb hty)
      exact ⟨b, by simp [evalBufW, hF.noRef h1, hv, hb, orElse]⟩

theorem evalBufWs_ok {C : Codec} {fr : Frame} {Γ : VarsKnown} (hC : CodecOk f G W S C fr) (hF : FrameOk G (RetOf W S f) (ValueOf W S f) Γ fr) :
    ∀ {ws : List BufW}, (∀ w ∈ ws, writeSafe f Γ w) → ∃ b, evalBufWs C fr ws = .ok b
  | [], _ => ⟨[], rfl⟩
  | w :: ws, h => by
    obtain ⟨b, hb⟩ := evalBufW_ok hC hF (h w (by simp))
    obtain ⟨bs, hbs⟩ := evalBufWs_ok (ws := ws) hC hF (fun w hw => h w (by simp [hw]))
    exact ⟨b ++ bs, by simp [evalBufWs, hb, hbs, bind, Except.bind]⟩

theorem readStatus_fault {C : Codec} {bs : Bytes} {e : Fault} (h : readStatus C bs = .error e) : e = .panic := by
  unfold readStatus at h
  split at h <;> simp at h
  exact h.symm

theorem evalLetArgs_fault {C : Codec} {s : Status} {ty : String} {bs : Bytes} {e : Fault} (h : evalLetArgs C s ty bs = .error e) : e = .panic := by
  simp only [evalLetArgs, bind, Except.bind] at h
  split at h
  · simp only [Except.error.injEq] at h
    subst h
    exact readStatus_fault (by assumption)
  · split at h
    · split at h
      · rename_i h'
        simp only [Except.error.injEq] at h
        subst h
        cases hr : C.read ty _ with
        | none => rw [hr] at h'; simpa [orElse] using h'.symm
        | some v => rw [hr] at h'; simp [orElse] at h'
      · simp at h
    · simp at h

theorem step_progress {σ : Type} {C : Codec} {lib : BufLib} {U : User σ} {m : Bufs} {u : σ} {t : Thread} {Γ : VarsKnown}
    (hread : f.isRead = true → f.args = [])
    (hC : CodecOk f G W S C t.frame) (hF : FrameOk G (RetOf W S f) (ValueOf W S f) Γ t.frame) (hS : codeSafe f Γ t.code) (hne : t.code ≠ []) :
    (∃ o, step C lib U m u t = .ok o) ∨
    (Γ.async = false ∧ step C lib U m u t = .error .panic ∧ ((∃ e, readStatus C m.server = .error e) ∨
      (f.isRead = false ∧ ∃ e, evalLetArgs C .xFF (argsName f) m.server = .error e))) := by
  unfold step
  cases hcode : t.code with
  | nil => exact absurd hcode hne
  | cons s rest =>
    rw [hcode] at hS
    obtain ⟨hs0, hif, -⟩ := hS
    cases s with
    | blank => exact .inl ⟨_, rfl⟩
    | letArgs b s ty =>
      obtain ⟨rfl, rfl, rfl, hr, ha⟩ := hs0
      simp only [bind, Except.bind]
      cases he : evalLetArgs C .xFF (argsName f) (m.get .server) with
      | ok o => exact .inl ⟨_, rfl⟩
      | error e => exact .inr ⟨ha, by rw [evalLetArgs_fault he], .inr ⟨hr, e, he⟩⟩
    | letBusy b s =>
      obtain ⟨rfl, ha⟩ := hs0
      simp only [bind, Except.bind]
      cases he : readStatus C (m.get .server) with
      | ok o => exact .inl ⟨_, rfl⟩
      | error e => exact .inr ⟨ha, by rw [readStatus_fault he], .inl ⟨e, he⟩⟩
    | bufWrite b ws =>
      obtain ⟨h1, h2⟩ := hs0
      obtain ⟨bs, hbs⟩ := evalBufWs_ok hC hF h2
      rw [← hF.names] at h1
      exact .inl ⟨_, by simp only [h1, if_true, hbs, bind, Except.bind]; rfl⟩
    | call res g as aw =>
      obtain ⟨rfl, rfl, hn, hh, rfl, -, -, -⟩ := hs0
      rw [← hF.names] at hn
      have hx : ∃ xs, callArgs t.frame (f.args.map (·.id)) = .ok xs := by
        cases hr : f.isRead with
        | true => rw [hread hr]; exact ⟨[], rfl⟩
        | false =>
          obtain ⟨v, hv⟩ := Option.isSome_iff_exists.1 (hF.args (hh hr))
          exact hC.args hr v (hF.argsIs v hv) hv
      obtain ⟨xs, hx⟩ := hx
      left
      simp only [hn, if_false, hx, bind, Except.bind]
      split <;> exact ⟨_, rfl⟩
    | ifArgs body =>
      have e := hif rfl
      subst e
      obtain ⟨o, ho⟩ := Option.isSome_iff_exists.1 (hF.argsOpt hs0.1)
      left
      simp only [ho]
      cases o <;> exact ⟨_, rfl⟩
    | ifNotBusy body =>
      have e := hif rfl
      subst e
      obtain ⟨o, ho⟩ := Option.isSome_iff_exists.1 (hF.busy hs0.1)
      left
      simp only [ho]
      cases o <;> exact ⟨_, rfl⟩
    | ifResult body =>
      have e := hif rfl
      subst e
      obtain ⟨r, hr, hq⟩ := hF.result hs0.1
      left
      simp only [hr]
      cases r with
      | unit => simp [RetOf, hs0.2.1] at hq
      | val v => simp [RetOf, hs0.2.1] at hq
      | opt o => cases o <;> exact ⟨_, rfl⟩
    | cloneArgs =>
      obtain ⟨v, hv⟩ := Option.isSome_iff_exists.1 (hF.args hs0)
      left
      simp only [hv]
      exact ⟨_, rfl⟩
    | spawn body =>
      have h := hs0.1
      rw [← hF.names] at h
      left
      simp only [h, if_true]
      exact ⟨_, rfl⟩
    | letMemory =>
      have h : "runtime_as_mut" ∈ t.frame.names := by rw [hF.names]; exact hs0
      left
      simp only [h, if_true]
      exact ⟨_, rfl⟩

theorem ret_progress {Q : Ret → Prop} {V : Val → Prop} (hQ : ∀ r, Q r → f.isRead = true → ∃ o, r = .opt o) {ret : RetE} {t : Thread} (h : RunSafe f G Q V ret t) (hc : t.code = []) :
    ∃ b, ret.eval t = .ok b := by
  obtain ⟨-, Γ, -, hF, -, ho⟩ := h
  rw [hc] at ho
  have : ∃ Γ', FrameOk G Q V Γ' (t.outer.getD t.frame) ∧ retSafe f Γ' ret := by
    cases he : t.outer with
    | none => rw [he] at ho; exact ⟨Γ, hF, ho⟩
    | some fr => rw [he] at ho; exact ho
  obtain ⟨Γ', hF', hr⟩ := this
  cases ret with
  | argsIsSome =>
    obtain ⟨o, ho⟩ := Option.isSome_iff_exists.1 (hF'.argsOpt hr)
    exact ⟨_, by simp only [RetE.eval, ho]; rfl⟩
  | resultIsSome =>
    obtain ⟨r, ho, hq⟩ := hF'.result hr.1
    obtain ⟨o, rfl⟩ := hQ r hq hr.2
    exact ⟨_, by simp only [RetE.eval, ho]; rfl⟩
  | notBusy =>
    obtain ⟨o, ho⟩ := Option.isSome_iff_exists.1 (hF'.busy hr)
    exact ⟨_, by simp only [RetE.eval, ho]; rfl⟩

end

/-! ### Histories -/

section
variable {S : List ASTNode} {scope : String} {W : Wire} {G : FnNode → Val → Prop}

/-- The handler and the futures can go on. -/
structure ServerSafe (S : List ASTNode) (W : Wire) (G : FnNode → Val → Prop) {σ : Type} (c : Cfg σ) : Prop where
  run : ∀ r, c.run = some r → ∃ f ∈ methodsOf S, f.position = r.addr ∧ RunSafe f (G f) (RetOf W S f) (ValueOf W S f) r.ret r.thread
  tasks : ∀ t ∈ c.tasks, ∃ f ∈ methodsOf S, f.position = t.addr ∧ ThreadSafe f (G f) (RetOf W S f) (ValueOf W S f) true t.thread

/-- What is used of the schema. -/
structure MethodsSafe (S : List ASTNode) : Prop where
  wf : WFSchema 0 S
  named : RpcNamed S
  reads : ∀ f ∈ methodsOf S, f.isRead = true → ∀ t, f.returnTypeId = some t → builtin? t = none

theorem act_logged {σ : Type} {C : Codec} {lib : BufLib} {U : User σ} {regs : List (Nat × Handler)} {c c' : Cfg σ} {x : Act}
    (h : act C lib U regs c x = some c') : ∃ l, c'.log = c.log ++ l := by
  cases x <;> simp only [act] at h <;> repeat' split at h
  all_goals first
    | (simp only [Option.some.injEq] at h; subst h; first | exact ⟨_, rfl⟩ | exact ⟨[], by simp⟩)
    | simp at h

theorem acts_logged {σ : Type} {C : Codec} {lib : BufLib} {U : User σ} {regs : List (Nat × Handler)} (xs : List Act) {c c' : Cfg σ}
    (h : acts C lib U regs c xs = some c') : ∃ l, c'.log = c.log ++ l := by
  induction xs generalizing c with
  | nil => simp only [acts, Option.some.injEq] at h; exact ⟨[], by simp [h]⟩
  | cons x xs ih =>
    simp only [acts] at h
    split at h
    · rename_i d hd
      obtain ⟨l, e⟩ := act_logged hd
      obtain ⟨l', e'⟩ := ih h
      exact ⟨l ++ l', by rw [e', e, List.append_assoc]⟩
    · simp at h

theorem act_safe {σ : Type} {C : Codec} {lib : BufLib} {U : User σ} (hM : MethodsSafe S) {c c' : Cfg σ} {x : Act}
    (hG : ∀ f ∈ methodsOf S, f.isRead = false → ∀ bs v, evalLetArgs C .xFF (argsName f) bs = .ok (some v) → G f v)
    (hU : ∀ f ∈ methodsOf S, f.isAsync = false → ∀ xs u, CallFor f (G f) (f.id, xs) → RetOf W S f (U f.id xs u).1)
    (hL : FuturesTyped W S c'.log)
    (hc : ServerSafe S W G c) (hx : act C lib U (genRpc scope S).handlers c x = some c') : ServerSafe S W G c' := by
  have hread : ∀ f ∈ methodsOf S, f.isRead = true → f.args = [] := fun f hf => (wf_method hM.wf hf).2.2
  have hV : ∀ f ∈ methodsOf S, f.isRead = true → ∀ v, RetOf W S f (.opt (some v)) → ValueOf W S f v :=
    fun f _ _ v h t ht => h.2 v rfl t ht
  cases x with
  | poll a =>
    simp only [act] at hx
    split at hx <;> simp only [Option.some.injEq, reduceCtorEq] at hx
    subst hx
    rename_i h _ hl
    refine ⟨?_, hc.tasks⟩
    intro r hr
    simp only [Option.some.injEq] at hr
    subst hr
    obtain ⟨f, hf, e, rfl⟩ := lookup_handlers hM.wf hM.named.methods hl
    obtain ⟨k1, k2⟩ := handler_safe f (hread f hf) (hM.named.locals f hf) (hM.reads f hf)
    exact ⟨f, hf, e, rfl, startVars (genHandler f), rfl, ⟨rfl, by simp [startVars], by simp [Handler.start], by simp [startVars],
      by simp [Handler.start], by simp [startVars], by simp [startVars], by simp [startVars], by simp [startVars], fun _ => rfl⟩, k1, k2⟩
  | stepH =>
    simp only [act] at hx
    split at hx
    · rename_i r hr
      split at hx <;> simp only [Option.some.injEq, reduceCtorEq] at hx
      rename_i o ho
      subst hx
      obtain ⟨f, hf, e, hw, Γ, ha, hF, hS, hret⟩ := hc.run r hr
      obtain ⟨k1, k2, k3⟩ := step_known (fun hr v => hG f hf hr _ v) (fun ha xs => hU f hf ha xs _) (hV f hf) (hread f hf) hw hF hS ho
      refine ⟨?_, ?_⟩
      · intro r' hr'
        simp only [Option.some.injEq] at hr'
        subst hr'
        exact ⟨f, hf, e, k3 ha _ hret⟩
      · intro t ht
        rcases List.mem_append.1 ht with ht | ht
        · exact hc.tasks t ht
        · obtain ⟨s, hs, rfl⟩ := List.mem_map.1 ht
          exact ⟨f, hf, e, k1 s (by simpa using hs)⟩
    · simp at hx
  | endH =>
    simp only [act] at hx
    split at hx
    · split at hx <;> simp only [Option.some.injEq, reduceCtorEq] at hx
      subst hx
      exact ⟨by simp, hc.tasks⟩
    · simp at hx
  | stepT i =>
    simp only [act] at hx
    split at hx
    · rename_i t ht
      split at hx
      · simp at hx
      · rename_i hw
        split at hx <;> simp only [Option.some.injEq, reduceCtorEq] at hx
        rename_i o ho
        subst hx
        obtain ⟨f, hf, e, htf⟩ := hc.tasks t (List.mem_of_getElem? ht)
        unfold ThreadSafe at htf
        rw [hw] at htf
        obtain ⟨Γ, ha, hF, hS⟩ := htf
        obtain ⟨k1, k2, -⟩ := step_known (fun hr v => hG f hf hr _ v) (fun ha xs => hU f hf ha xs _) (hV f hf) (hread f hf) hw hF hS ho
        rw [ha] at k2
        refine ⟨hc.run, ?_⟩
        intro t' ht'
        rcases List.mem_append.1 ht' with ht' | ht'
        · rcases List.mem_or_eq_of_mem_set ht' with h | rfl
          · exact hc.tasks t' h
          · exact ⟨f, hf, e, k2⟩
        · obtain ⟨s, hs, rfl⟩ := List.mem_map.1 ht'
          exact ⟨f, hf, e, k1 s (by simpa using hs)⟩
    · simp at hx
  | resume i r =>
    simp only [act] at hx
    split at hx
    · rename_i t ht
      split at hx <;> simp only [Option.some.injEq, reduceCtorEq] at hx
      rename_i res g xs hw
      subst hx
      obtain ⟨f, hf, e, htf⟩ := hc.tasks t (List.mem_of_getElem? ht)
      unfold ThreadSafe at htf
      rw [hw] at htf
      obtain ⟨-, rfl, h⟩ := htf
      obtain ⟨Γ, h1, h2, h3⟩ := h r (hL t.addr f.id xs r (by simp) f hf rfl)
      refine ⟨hc.run, ?_⟩
      intro t' ht'
      rcases List.mem_or_eq_of_mem_set ht' with h | rfl
      · exact hc.tasks t' h
      · exact ⟨f, hf, e, Γ, h1, h2, h3⟩
    · simp at hx
  | request a bs =>
    simp only [act, Option.some.injEq] at hx
    subst hx
    exact ⟨hc.run, hc.tasks⟩
  | clear a bs =>
    simp only [act, Option.some.injEq] at hx
    subst hx
    exact ⟨hc.run, hc.tasks⟩

theorem acts_safe {σ : Type} {C : Codec} {lib : BufLib} {U : User σ} (hM : MethodsSafe S)
    (hG : ∀ f ∈ methodsOf S, f.isRead = false → ∀ bs v, evalLetArgs C .xFF (argsName f) bs = .ok (some v) → G f v)
    (hU : ∀ f ∈ methodsOf S, f.isAsync = false → ∀ xs u, CallFor f (G f) (f.id, xs) → RetOf W S f (U f.id xs u).1)
    (xs : List Act) : ∀ {c c' : Cfg σ}, FuturesTyped W S c'.log →
    ServerSafe S W G c → acts C lib U (genRpc scope S).handlers c xs = some c' → ServerSafe S W G c' := by
  induction xs with
  | nil =>
    intro c c' _ hc h
    simp only [acts, Option.some.injEq] at h
    rw [← h]
    exact hc
  | cons x xs ih =>
    intro c c' hL hc h
    simp only [acts] at h
    split at h
    · rename_i d hd
      obtain ⟨l, e⟩ := acts_logged xs h
      refine ih hL (act_safe hM hG hU ?_ hc hd) h
      intro a g vs r hm
      exact hL a g vs r (by rw [e]; simp [hm])
    · simp at h

theorem exists_bound {α : Type} {P : α → Nat → Prop} : ∀ (l : List α), (∀ a ∈ l, ∃ N, ∀ k, N ≤ k → P a k) → ∃ N, ∀ k, N ≤ k → ∀ a ∈ l, P a k
  | [], _ => ⟨0, by simp⟩
  | a :: l, h => by
    obtain ⟨N, hN⟩ := h a (by simp)
    obtain ⟨M, hM⟩ := exists_bound l (fun b hb => h b (by simp [hb]))
    refine ⟨N + M, fun k hk b hb => ?_⟩
    rcases List.mem_cons.1 hb with rfl | hb
    · exact hN k (by omega)
    · exact hM k (by omega) b hb

/-- The method id in a request. -/
theorem args_id (hN : WellNamed (argsSchema S)) {f : FnNode} (hf : f ∈ methodsOf S) (hr : f.isRead = false) (ha : f.isAsync = true) {v : Val}
    (h : HasTy W (argsSchema S) (.other (argsName f)) v) : ∃ i : Int, LeafVal (.integer "i64" 8 true) (.int i) ∧
      field v "__method_id__" = .ok (.int i) := by
  have hm := args_mem hf hr
  have hin : argsName f ∈ typeNames (argsSchema S) :=
    List.mem_filterMap.2 ⟨_, hm, by simp [argsNode_id]⟩
  generalize ht : TypeId.other (argsName f) = t at h
  cases h with
  | leaf _ _ _ _ h _ => subst ht; cases v <;> exact h.elim
  | struct n fvs _ _ hn h' _ =>
    simp only [TypeId.other.injEq] at ht
    have e : ASTNode.struct n = .struct (argsNode f) :=
      decl_by_name hN.types hn hm (x := argsName f) (by simp [declName, ht]) (by simp [declName, argsNode_id])
    simp only [ASTNode.struct.injEq] at e
    subst e
    rw [fieldsOf_argsNode, ha] at h'
    simp only [if_true, List.singleton_append, List.map_cons] at h'
    generalize hi : TypeId.integer "i64" 8 true = ti at h'
    cases h' with
    | leaf _ w _ ws hw h'' =>
      subst hi
      cases w with
      | int i => exact ⟨i, hw, by simp [field, named, fieldsOf_argsNode, ha, orElse]⟩
      | _ => exact hw.elim
    | struct => cases hi
    | enum => cases hi
    | list => cases hi
    | ext => cases hi
  | enum n i pvs _ _ hn hi h' _ =>
    simp only [TypeId.other.injEq] at ht
    have e : ASTNode.enum n = .struct (argsNode f) :=
      decl_by_name hN.types hn hm (x := argsName f) (by simp [declName, ht]) (by simp [declName, argsNode_id])
    simp at e
  | list => cases ht
  | ext id _ _ _ h' =>
    simp only [TypeId.other.injEq] at ht
    exact absurd (ht ▸ hin) h'

/-- With enough stack the codecs can do what a thread asks of them. -/
theorem codecOk_of {rt : Runtime} (hrt : rt.Lawful) (hA : WFSchema 0 S) (hN : WellNamed S) (hW : NoWriterClash S) (hR : RpcNamed S)
    (hX : NoExtArgs rt.wire S) {f : FnNode} (hf : f ∈ methodsOf S) (fr : Frame) :
    ∃ N, ∀ k, N ≤ k → CodecOk f (fun v => f.isRead = false ∧ HasTy rt.wire (argsSchema S) (.other (argsName f)) v) rt.wire S
      (codecAt rt (genProg (argsSchema S)) k) fr := by
  have one : ∀ v, ∃ N, ∀ k, N ≤ k → ∀ t, f.returnTypeId = some t → builtin? t = none → HasTy rt.wire S t v →
      ((codecAt rt (genProg (argsSchema S)) k).write t v).isSome := by
    intro v
    cases ht : f.returnTypeId with
    | none => exact ⟨0, by simp⟩
    | some t =>
      by_cases hv : HasTy rt.wire S t v
      · have hwf : WFType t := (wf_method hA hf).2.1 t (by simp [ht])
        obtain ⟨bs, he⟩ := hasTys_enc hrt.wire hN (typesOk_of_wf hA) hv (by simpa using hwf)
        obtain ⟨N, hN'⟩ := write_result hA hN hW hR hX hwf he
        refine ⟨N, fun k hk t' e _ _ => ?_⟩
        simp only [Option.some.injEq] at e
        subst e
        simp [codecAt, hN' k hk]
      · refine ⟨0, fun k _ t' e _ h => ?_⟩
        simp only [Option.some.injEq] at e
        subst e
        exact absurd h hv
  have vals : ∃ l : List Val, ∀ v, fr.resultRef = some v ∨ fr.result = some (.val v) → v ∈ l := by
    refine ⟨fr.resultRef.toList ++ (match fr.result with | some (.val v) => [v] | _ => []), fun v hv => ?_⟩
    rcases hv with h | h <;> simp [h]
  obtain ⟨l, hl⟩ := vals
  obtain ⟨N, hN'⟩ := exists_bound l (fun v _ => one v)
  obtain ⟨st, hst⟩ := statusOk_codecAt hrt
  refine ⟨N, fun k hk => ⟨fun s => ?_, ?_, ?_, ?_, ?_⟩⟩
  · rw [(hst _ k s).1]; rfl
  · rintro ha v ⟨hr, hv⟩
    obtain ⟨i, hi, hx⟩ := args_id (wellNamed_args hN hR) hf hr ha hv
    refine ⟨.int i, hx, ?_⟩
    obtain ⟨b, hb⟩ := hrt.wire.prim_total (.integer "i64" 8 true) "i64" (.int i) (.name "i64") rfl hi
    simp [codecAt, hb]
  · rintro hr v ⟨-, hv⟩ hfr
    obtain ⟨mid, vs, rfl, hm, hty⟩ := hasTys_args (wellNamed_args hN hR) hf hr hv
    have hlen := hasTys_length hty
    exact ⟨vs, callArgs_val hm (by simpa [argsOf] using hlen) (hR.args f hf).1 (hR.args f hf).2 hfr⟩
  · intro t m v ht hm hv
    have hwf : WFType t := (wf_method hA hf).2.1 t (by simp [ht])
    obtain ⟨bs, he⟩ := hasTys_enc hrt.wire hN (typesOk_of_wf hA) hv (by simpa using hwf)
    simp [codecAt, enc_leaf hm he]
  · intro t v hv ht hb hty
    exact hN' k hk v (hl v hv) t ht hb hty

/-- The requests of a method, as values. -/
def RequestVal (rt : Runtime) (S : List ASTNode) (f : FnNode) (v : Val) : Prop :=
  f.isRead = false ∧ HasTy rt.wire (argsSchema S) (.other (argsName f)) v

theorem requestVal_of {rt : Runtime} (hrt : rt.Typed) (hN : WellNamed S) (hR : RpcNamed S) (hA : WFSchema 0 S)
    (hU : ArgStructsUnused S) {f : FnNode} (hf : f ∈ methodsOf S) (hr : f.isRead = false) {k : Nat} {bs : Bytes} {v : Val}
    (h : evalLetArgs (codecAt rt (genProg (argsSchema S)) k) .xFF (argsName f) bs = .ok (some v)) : RequestVal rt S f v := by
  obtain ⟨_, _, r, r', -, -, -, -, h5⟩ := evalLetArgs_typed hrt hN hR hA hU hf hr h
  exact ⟨hr, ((typed_ind hrt).read (wellNamed_args hN hR) (typesOk_args hA) k _ (wf_argsName f) r v r' h5).1⟩

/-- A handler panics only on malformed contents. -/
theorem malformed_of {rt : Runtime} (hrt : rt.Lawful) (hty : rt.Typed) (hA : WFSchema 0 S) (hN : WellNamed S) (hD : DistinctNumbers S)
    (hR : RpcNamed S) (hX : NoExtArgs rt.wire S) {f : FnNode} (hf : f ∈ methodsOf S) (bs : Bytes) :
    ∃ N, ∀ k, N ≤ k → ((∃ e, readStatus (codecAt rt (genProg (argsSchema S)) k) bs = .error e) ∨
      (f.isRead = false ∧ ∃ e, evalLetArgs (codecAt rt (genProg (argsSchema S)) k) .xFF (argsName f) bs = .error e)) → Malformed rt S f bs := by
  have status : ∀ k e, readStatus (codecAt rt (genProg (argsSchema S)) k) bs = .error e → rt.readP "u8" bs = none := by
    intro k e h
    unfold readStatus at h
    split at h
    · simp at h
    · rename_i h'
      simp only [codecAt] at h'
      cases hr : rt.readP "u8" bs with
      | none => rfl
      | some q =>
        obtain ⟨v, r⟩ := q
        have hl := (hty.prim (.integer "u8" 1 false) "u8" bs v r (.name "u8") rfl hr).1
        cases v with
        | int n => exact absurd hr (h' n r)
        | _ => exact hl.elim
  by_cases hreq : f.isRead = false ∧ ∃ mid vs req rest, Request rt.wire S f mid vs req ∧ bs = req ++ rest
  · obtain ⟨hr, mid, vs, req, rest, hq, rfl⟩ := hreq
    obtain ⟨s, b, hs, rfl, -, N, hrd⟩ := request_reads hrt hA hN hD hR hX hf hr hq
    refine ⟨N, fun k hk h => ?_⟩
    rcases h with ⟨e, h⟩ | ⟨-, e, h⟩
    · exact .inl (status k e h)
    · exfalso
      have h1 := hrt.prim _ _ _ (b ++ rest) hs
      rw [List.append_assoc] at h
      simp [evalLetArgs, readStatus, codecAt, h1, hrd k hk, bind, Except.bind, Status.val, orElse] at h
  · refine ⟨0, fun k _ h => ?_⟩
    rcases h with ⟨e, h⟩ | ⟨hr, e, h⟩
    · exact .inl (status k e h)
    · cases hst : readStatus (codecAt rt (genProg (argsSchema S)) k) bs with
      | error e => exact .inl (status k e hst)
      | ok q =>
        obtain ⟨n, r⟩ := q
        simp only [evalLetArgs, hst, bind, Except.bind] at h
        split at h
        · rename_i hn
          refine .inr ⟨hr, ⟨r, ?_⟩, fun mid vs req rest hq e => hreq ⟨hr, mid, vs, req, rest, hq, e⟩⟩
          unfold readStatus at hst
          split at hst
          · rename_i h'
            simp only [Except.ok.injEq, Prod.mk.injEq] at hst
            obtain ⟨rfl, rfl⟩ := hst
            rw [hn] at h'
            exact h'
          · simp at hst
        · simp at h

theorem server_progress {rt : Runtime} (hrt : rt.Lawful) (hty : rt.Typed) (hM : MethodsSafe S) (hN : WellNamed S) (hD : DistinctNumbers S)
    (hW : NoWriterClash S) (hX : NoExtArgs rt.wire S) {σ : Type} (lib : BufLib) (U : User σ) {c : Cfg σ}
    (hc : ServerSafe S rt.wire (RequestVal rt S) c) :
    ∃ N, ∀ k, N ≤ k → Progress rt S (codecAt rt (genProg (argsSchema S)) k) lib U (genRpc scope S).handlers c := by
  have hread : ∀ f ∈ methodsOf S, f.isRead = true → f.args = [] := fun f hf => (wf_method hM.wf hf).2.2
  have hrun : ∃ N, ∀ k, N ≤ k → ∀ r, c.run = some r →
      (r.thread.code = [] ∧ (act (codecAt rt (genProg (argsSchema S)) k) lib U (genRpc scope S).handlers c .endH).isSome) ∨
      (act (codecAt rt (genProg (argsSchema S)) k) lib U (genRpc scope S).handlers c .stepH).isSome ∨
      (step (codecAt rt (genProg (argsSchema S)) k) lib U (c.mem r.addr) c.user r.thread = .error .panic ∧
        ∃ f ∈ methodsOf S, f.position = r.addr ∧ Malformed rt S f (c.mem r.addr).server) := by
    cases hr : c.run with
    | none => exact ⟨0, by simp⟩
    | some r =>
      obtain ⟨f, hf, e, hsafe⟩ := hc.run r hr
      by_cases hcode : r.thread.code = []
      · obtain ⟨b, hb⟩ := ret_progress (fun q hq h => by cases q <;> simp [RetOf, h] at hq; exact ⟨_, rfl⟩) hsafe hcode
        refine ⟨0, fun k _ r' hr' => ?_⟩
        simp only [Option.some.injEq] at hr'
        subst hr'
        exact .inl ⟨hcode, by simp [act, hr, hcode, hb]⟩
      · obtain ⟨hw, Γ, ha, hF, hS, -⟩ := hsafe
        obtain ⟨N1, h1⟩ := codecOk_of hrt hM.wf hN hW hM.named hX hf r.thread.frame
        obtain ⟨N2, h2⟩ := malformed_of hrt hty hM.wf hN hD hM.named hX hf (c.mem r.addr).server
        refine ⟨N1 + N2, fun k hk r' hr' => ?_⟩
        simp only [Option.some.injEq] at hr'
        subst hr'
        rcases step_progress (lib := lib) (U := U) (m := c.mem r.addr) (u := c.user) (hread f hf) (h1 k (by omega)) hF hS hcode with
          ⟨o, ho⟩ | ⟨-, hp, hb⟩
        · exact .inr (.inl (by simp [act, hr, ho]))
        · exact .inr (.inr ⟨hp, f, hf, e, h2 k (by omega) hb⟩)
  have htask : ∃ N, ∀ k, N ≤ k → ∀ t ∈ c.tasks, t.thread.wait.isSome ∨ t.thread.code = [] ∨
      ∃ o, step (codecAt rt (genProg (argsSchema S)) k) lib U (c.mem t.addr) c.user t.thread = .ok o := by
    refine exists_bound c.tasks (fun t ht => ?_)
    obtain ⟨f, hf, e, hsafe⟩ := hc.tasks t ht
    cases hw : t.thread.wait with
    | some w => exact ⟨0, fun _ _ => .inl rfl⟩
    | none =>
      by_cases hcode : t.thread.code = []
      · exact ⟨0, fun _ _ => .inr (.inl hcode)⟩
      · unfold ThreadSafe at hsafe
        rw [hw] at hsafe
        obtain ⟨Γ, ha, hF, hS⟩ := hsafe
        obtain ⟨N1, h1⟩ := codecOk_of hrt hM.wf hN hW hM.named hX hf t.thread.frame
        refine ⟨N1, fun k hk => .inr (.inr ?_)⟩
        rcases step_progress (lib := lib) (U := U) (m := c.mem t.addr) (u := c.user) (hread f hf) (h1 k hk) hF hS hcode with h | ⟨hna, -⟩
        · exact h
        · rw [ha] at hna; simp at hna
  obtain ⟨N1, h1⟩ := hrun
  obtain ⟨N2, h2⟩ := htask
  refine ⟨N1 + N2, fun k hk => ⟨h1 k (by omega), fun i t hi => ?_⟩⟩
  cases hw : t.thread.wait with
  | some w => exact .inl rfl
  | none =>
    rcases h2 k (by omega) t (List.mem_of_getElem? hi) with h | h | ⟨o, ho⟩
    · rw [hw] at h; simp at h
    · exact .inr (.inl h)
    · exact .inr (.inr (by simp [act, hi, hw, ho]))

end

end TPB.Rust
