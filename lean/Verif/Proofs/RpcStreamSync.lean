/-
The client buffer of a synchronous read method holds nothing but values that the user's function has
returned, in every history of the server.
-/
import Verif.Spec.Recorded
import Verif.Proofs.RpcStream
import Verif.Proofs.UntrustedRpc
import Verif.Proofs.MoreStack
namespace TPB.Rust
open Spec

section
variable {σ : Type} {C : Codec} {lib : BufLib} {U : User σ}

/-! ### The record changes nothing else -/

def Out.forget (o : Out (σ × Record)) : Out σ := ⟨o.bufs, o.user.1, o.thread, o.calls, o.spawned⟩

theorem step_recording (m : Bufs) (u : σ × Record) (t : Thread) :
    (step C lib (recording U) m u t).map Out.forget = step C lib U m u.1 t := by
  unfold step
  cases t.code with
  | nil => rfl
  | cons s rest =>
    cases s with
    | letArgs b st ty =>
      simp only [bind, Except.bind]
      cases evalLetArgs C st ty (m.get b) <;> rfl
    | letBusy b st =>
      simp only [bind, Except.bind]
      cases readStatus C (m.get b) <;> rfl
    | bufWrite b ws =>
      simp only [bind, Except.bind]
      split
      · cases evalBufWs C t.frame ws <;> rfl
      · rfl
    | call res f as aw =>
      simp only [bind, Except.bind]
      split
      · rfl
      · cases callArgs t.frame as with
        | error e => rfl
        | ok xs => cases aw <;> rfl
    | ifArgs b => simp only; split <;> rfl
    | ifNotBusy b => simp only; split <;> rfl
    | ifResult b => simp only; split <;> rfl
    | cloneArgs => simp only; split <;> rfl
    | spawn b => simp only; split <;> rfl
    | letMemory => simp only; split <;> rfl
    | blank => rfl

theorem act_recording (regs : List (Nat × Handler)) (c : Cfg (σ × Record)) (x : Act) :
    (act C lib (recording U) regs c x).map Cfg.forget = act C lib U regs c.forget x := by
  cases x with
  | poll a =>
    simp only [act, Cfg.forget]
    cases c.run <;> cases regs.lookup a <;> rfl
  | stepH =>
    simp only [act, Cfg.forget]
    cases c.run with
    | none => rfl
    | some r =>
      simp only
      rw [← step_recording]
      cases step C lib (recording U) (c.mem r.addr) c.user r.thread <;> rfl
  | endH =>
    simp only [act, Cfg.forget]
    cases c.run with
    | none => rfl
    | some r =>
      simp only
      cases r.thread.code with
      | nil => cases r.ret.eval r.thread <;> rfl
      | cons _ _ => rfl
  | stepT i =>
    simp only [act, Cfg.forget]
    cases c.tasks[i]? with
    | none => rfl
    | some t =>
      simp only
      cases t.thread.wait with
      | some _ => rfl
      | none =>
        simp only
        rw [← step_recording]
        cases step C lib (recording U) (c.mem t.addr) c.user t.thread <;> rfl
  | resume i r =>
    simp only [act, Cfg.forget]
    cases c.tasks[i]? with
    | none => rfl
    | some t =>
      simp only
      cases t.thread.wait <;> rfl
  | request a bs => rfl
  | clear a bs => rfl

/-! ### What is recorded -/

theorem returned_append (g : String) (h h' : Record) : returned g (h ++ h') = returned g h ++ returned g h' := by simp [returned]

theorem returned_other {g f : String} (hne : f ≠ g) (r : Ret) : returned g [(f, r)] = [] := by
  cases r with
  | opt o => cases o <;> simp [returned, hne]
  | _ => rfl

/-- The user's state changes only by the calls. -/
theorem step_user {m : Bufs} {u : σ} {t : Thread} {o : Out σ} (h : step C lib U m u t = .ok o) :
    o.user = u ∨ ∃ g xs, (g, xs) ∈ o.calls ∧ o.user = (U g xs u).2 := by
  unfold step at h
  cases hc : t.code with
  | nil => rw [hc] at h; simp at h
  | cons s rest =>
    rw [hc] at h
    cases s with
    | call res f as aw =>
      simp only [bind, Except.bind] at h
      split at h
      · simp at h
      · split at h
        · simp at h
        · split at h <;> simp only [Except.ok.injEq] at h <;> subst h
          · exact .inl rfl
          · exact .inr ⟨_, _, by simp, rfl⟩
    | _ =>
      simp only [bind, Except.bind] at h
      repeat' split at h
      all_goals first
        | (simp at h; done)
        | (simp only [Except.ok.injEq] at h; subst h; exact .inl rfl)

theorem step_returned {m : Bufs} {u : σ × Record} {t : Thread} {o : Out (σ × Record)} {g : String}
    (h : step C lib (recording U) m u t = .ok o) (hg : ∀ p ∈ o.calls, p.1 ≠ g) : returned g o.user.2 = returned g u.2 := by
  rcases step_user h with e | ⟨g', xs, h1, h2⟩
  · rw [e]
  · rw [h2]
    simp only [recording, returned_append, returned_other (hg _ h1), List.append_nil]

theorem step_returned_grow {m : Bufs} {u : σ × Record} {t : Thread} {o : Out (σ × Record)} (g : String)
    (h : step C lib (recording U) m u t = .ok o) : ∃ vs, returned g o.user.2 = returned g u.2 ++ vs := by
  rcases step_user h with e | ⟨g', xs, -, h2⟩
  · exact ⟨[], by rw [e, List.append_nil]⟩
  · rw [h2]
    exact ⟨_, returned_append _ _ _⟩

theorem act_returned {regs : List (Nat × Handler)} {c c' : Cfg (σ × Record)} {x : Act} (g : String)
    (h : act C lib (recording U) regs c x = some c') : ∃ vs, returned g c'.user.2 = returned g c.user.2 ++ vs := by
  cases x with
  | stepH =>
    simp only [act] at h
    split at h
    · split at h
      · rename_i o ho
        simp only [Option.some.injEq] at h
        subst h
        exact step_returned_grow g ho
      · simp at h
    · simp at h
  | stepT i =>
    simp only [act] at h
    split at h
    · split at h
      · simp at h
      · split at h
        · rename_i o ho
          simp only [Option.some.injEq] at h
          subst h
          exact step_returned_grow g ho
        · simp at h
    · simp at h
  | _ =>
    simp only [act] at h
    repeat' split at h
    all_goals first
      | (simp at h; done)
      | (simp only [Option.some.injEq] at h; subst h; exact ⟨[], by simp⟩)

/-! ### The invariant -/

variable {st : Status → Bytes} {f : FnNode} {a : Nat} {ty : TypeId} {S : List ASTNode} {scope : String}

/-- The last statement of the handler. -/
def syncTail (f : FnNode) : List Stmt := [.bufWrite .client (.status .xFF :: genResults f)]

theorem genSyncReadBody_eq : genSyncReadBody f = [.call true f.id [] false, .blank, .ifResult (syncTail f)] := rfl

/-- The states of the handler of a synchronous read method; `R` is what the user's function has returned last. -/
inductive SyRun (f : FnNode) (R : Ret → Prop) : Thread → Prop
  | s0 (fr o w) : SyRun f R ⟨fr, o, w, genSyncReadBody f⟩
  | s1 (fr o w r) : fr.result = some r → R r → SyRun f R ⟨fr, o, w, [.blank, .ifResult (syncTail f)]⟩
  | s2 (fr o w r) : fr.result = some r → R r → SyRun f R ⟨fr, o, w, [.ifResult (syncTail f)]⟩
  | s3 (fr o w v) : fr.resultRef = some v → R (.opt (some v)) → SyRun f R ⟨fr, o, w, syncTail f⟩
  | s4 (fr o w) : SyRun f R ⟨fr, o, w, []⟩

theorem SyRun.mono {R R' : Ret → Prop} (h : ∀ r, R r → R' r) {t : Thread} : SyRun f R t → SyRun f R' t
  | .s0 fr o w => .s0 fr o w
  | .s1 fr o w r h1 h2 => .s1 fr o w r h1 (h r h2)
  | .s2 fr o w r h1 h2 => .s2 fr o w r h1 (h r h2)
  | .s3 fr o w v h1 h2 => .s3 fr o w v h1 (h _ h2)
  | .s4 fr o w => .s4 fr o w

/-- `r` is the last result: if it is a value, it is the last one that has been returned. -/
def LastRet (f : FnNode) (h : Record) (r : Ret) : Prop := ∀ v, r = .opt (some v) → (returned f.id h).getLast? = some v

theorem SyRun.step (hst : C.StatusOk st) (hty : f.returnTypeId = some ty) {t : Thread} {m : Bufs} {u : σ × Record} {o : Out (σ × Record)}
    (h : SyRun f (LastRet f u.2) t) (hs : step C lib (recording U) m u t = .ok o) :
    SyRun f (LastRet f o.user.2) o.thread ∧ o.spawned = none ∧
      (∃ vs, returned f.id o.user.2 = returned f.id u.2 ++ vs) ∧
      (o.bufs.client = m.client ∨ ∃ v b, (returned f.id o.user.2).getLast? = some v ∧ C.write ty v = some b ∧
        o.bufs.client = lib m.client (st .xFF ++ b)) := by
  cases h with
  | s0 fr ou w =>
    simp only [Rust.step, genSyncReadBody_eq] at hs
    by_cases hf : f.id ∈ fr.names
    · simp [hf] at hs
    · simp only [hf, if_false, callArgs, bind, Except.bind, Bool.false_eq_true, Except.ok.injEq] at hs
      subst hs
      refine ⟨.s1 _ _ _ ((recording U) f.id [] u).1 (by simp [bindResult]) ?_, rfl, ⟨_, returned_append _ _ _⟩, .inl rfl⟩
      intro v hv
      simp only [recording] at hv
      simp [recording, returned, hv]
  | s1 fr ou w r h1 h2 =>
    simp only [Rust.step, Except.ok.injEq] at hs
    subst hs
    exact ⟨.s2 _ _ _ r h1 h2, rfl, ⟨[], by simp⟩, .inl rfl⟩
  | s2 fr ou w r h1 h2 =>
    simp only [Rust.step, h1] at hs
    cases r with
    | unit => simp at hs
    | val => simp at hs
    | opt x =>
      cases x with
      | none =>
        simp only [Except.ok.injEq] at hs
        subst hs
        exact ⟨.s4 _ _ _, rfl, ⟨[], by simp⟩, .inl rfl⟩
      | some x =>
        simp only [Except.ok.injEq] at hs
        subst hs
        exact ⟨.s3 _ _ _ x rfl h2, rfl, ⟨[], by simp⟩, .inl rfl⟩
  | s3 fr ou w v h1 h2 =>
    simp only [Rust.step, syncTail] at hs
    split at hs
    · cases hb : evalBufWs C fr (.status .xFF :: genResults f) with
      | error e => simp [hb, bind, Except.bind] at hs
      | ok bs =>
        simp only [hb, bind, Except.bind, Except.ok.injEq] at hs
        subst hs
        obtain ⟨b, hb1, rfl⟩ := evalRead_inv hst hty h1 hb
        exact ⟨.s4 _ _ _, rfl, ⟨[], by simp⟩, .inr ⟨v, b, h2 v rfl, hb1, rfl⟩⟩
    · simp at hs
  | s4 => simp [Rust.step] at hs

/-- The invariant: an answer in the client buffer is a value that the user's function has returned, not before
the value with number `B`; `W v b`: `b` are the bytes of `v`. -/
structure SyInv (C : Codec) (st : Status → Bytes) (S : List ASTNode) (f : FnNode) (W : Val → Bytes → Prop) (B : Nat) (c : Cfg (σ × Record)) : Prop where
  server : ServerFor S (fun _ _ => True) c
  tasks : ∀ t ∈ c.tasks, t.addr ≠ f.position
  run : ∀ r, c.run = some r → r.addr = f.position → SyRun f (LastRet f c.user.2) r.thread
  bound : B ≤ (returned f.id c.user.2).length - 1
  client : (∃ r, readStatus C (c.mem f.position).client = .ok (255, r)) → ∃ i v b rest, B ≤ i ∧ (returned f.id c.user.2)[i]? = some v ∧
    W v b ∧ (c.mem f.position).client = st .xFF ++ b ++ rest

/-- A call for another address is a call of another function. -/
theorem calls_other (hn : ((methodsOf S).map (·.id)).Nodup) (hf : f ∈ methodsOf S) {G : Val → Prop} {g : FnNode} (hg : g ∈ methodsOf S)
    (hne : g.position ≠ f.position) {cs : List (String × List Val)} (h : ∀ p ∈ cs, CallFor g G p) : ∀ p ∈ cs, p.1 ≠ f.id := by
  intro p hp e
  rw [(h p hp).1] at e
  have : g = f := by
    obtain ⟨i, hi⟩ := List.getElem?_of_mem hg
    obtain ⟨j, hj⟩ := List.getElem?_of_mem hf
    have h1 : ((methodsOf S).map (·.id))[i]? = some g.id := by simp [hi]
    have h2 : ((methodsOf S).map (·.id))[j]? = some g.id := by simp [hj, e]
    have hij : i = j := (List.getElem?_inj (List.getElem?_eq_some_iff.1 h1).1 hn).1 (h1.trans h2.symm)
    subst hij
    rw [hi] at hj
    exact Option.some.inj hj
  exact hne (by rw [this])

theorem SyInv.mk_same {W : Val → Bytes → Prop} {B : Nat} {c c' : Cfg (σ × Record)} (h : SyInv C st S f W B c) (hS : ServerFor S (fun _ _ => True) c')
    (hy : returned f.id c'.user.2 = returned f.id c.user.2) (hT : ∀ t ∈ c'.tasks, t.addr ≠ f.position)
    (hR : ∀ r, c'.run = some r → r.addr = f.position → SyRun f (LastRet f c.user.2) r.thread)
    (hm : (c'.mem f.position).client = (c.mem f.position).client) : SyInv C st S f W B c' where
  server := hS
  tasks := hT
  run r hr e := (hR r hr e).mono (fun r h' => by simpa [LastRet, hy] using h')
  bound := by rw [hy]; exact h.bound
  client := by rw [hy, hm]; exact h.client

theorem syInv_act (hst : C.StatusOk st) (hlib : lib.Lawful) (hA : WFSchema 0 S) (hn : ((methodsOf S).map (·.id)).Nodup)
    (hf : f ∈ methodsOf S) (hr : f.isRead = true) (ha : f.isAsync = false) (hty : f.returnTypeId = some ty)
    {W : Val → Bytes → Prop} (hW : ∀ v b, C.write ty v = some b → W v b)
    (hreg : (genRpc scope S).handlers.lookup f.position = some (genHandler f)) {x : Act}
    (hx : ∀ bs, x = .clear f.position bs → ∀ r, ¬ ∃ r', readStatus C (bs ++ r) = .ok (255, r')) {B : Nat} {c c' : Cfg (σ × Record)}
    (hI : SyInv C st S f W B c) (h : act C lib (recording U) (genRpc scope S).handlers c x = some c') : SyInv C st S f W B c' := by
  have hS := act_for hA hn (fun _ _ _ _ _ => trivial) hI.server h
  have hread : ∀ f ∈ methodsOf S, f.isRead = true → f.args = [] := fun f hf => (wf_method hA hf).2.2
  have hT := hI.tasks
  have hR := hI.run
  cases x with
  | poll b =>
    simp only [act] at h
    split at h
    · rename_i hrun hl
      simp only [Option.some.injEq] at h
      subst h
      refine hI.mk_same hS rfl hT ?_ rfl
      rintro r hr' e
      simp only [Option.some.injEq] at hr'
      subst hr'
      simp only at e
      subst e
      rw [hreg] at hl
      simp only [Option.some.injEq] at hl
      subst hl
      have : genHandler f = ⟨f.id, .syncRead, genSyncReadBody f, .resultIsSome⟩ := by simp [genHandler, hr, ha]
      simp only [this, Handler.start]
      exact .s0 _ _ _
    · simp at h
  | stepH =>
    simp only [act] at h
    split at h
    · rename_i r hrun
      split at h
      · rename_i o ho
        simp only [Option.some.injEq] at h
        subst h
        by_cases hra : r.addr = f.position
        · obtain ⟨h1, h2, ⟨vs, h3⟩, h4⟩ := (hR r hrun hra).step hst hty ho
          refine ⟨hS, ?_, ?_, ?_, ?_⟩
          · simpa [h2] using hT
          · rintro r' hr' -
            simp only [Option.some.injEq] at hr'
            subst hr'
            exact h1
          · have := hI.bound
            simp only [h3, List.length_append]
            omega
          · simp only [hra, setMem_self]
            rcases h4 with h4 | ⟨v, b, hv, hb, h4⟩
            · rw [h4, hra]
              intro hm
              obtain ⟨j, v, b, rest, e1, e2, e3⟩ := hI.client hm
              refine ⟨j, v, b, rest, e1, ?_, e3⟩
              rw [h3, List.getElem?_append_left (List.getElem?_eq_some_iff.1 e2).1]
              exact e2
            · intro _
              rw [List.getLast?_eq_getElem?] at hv
              obtain ⟨rest, hrest⟩ := hlib (c.mem r.addr).client (st .xFF ++ b)
              refine ⟨_, v, b, rest, ?_, hv, hW _ _ hb, by rw [h4, hrest]⟩
              have := hI.bound
              simp only [h3, List.length_append]
              omega
        · obtain ⟨g, hg, e, ht⟩ := hI.server.run r hrun
          obtain ⟨-, k2, k3⟩ := step_for (hread g hg) (fun _ _ _ => trivial) ht ho
          refine hI.mk_same hS (step_returned ho (calls_other hn hf hg (by rw [e]; exact hra) k3)) ?_ ?_ ?_
          · intro t ht
            rcases List.mem_append.1 ht with ht | ht
            · exact hT t ht
            · obtain ⟨y, -, rfl⟩ := List.mem_map.1 ht
              exact hra
          · rintro r' hr' e
            simp only [Option.some.injEq] at hr'
            subst hr'
            exact absurd e hra
          · simp only [setMem_ne _ _ (Ne.symm hra)]
      · simp at h
    · simp at h
  | endH =>
    simp only [act] at h
    split at h
    · split at h
      · simp only [Option.some.injEq] at h
        subst h
        exact hI.mk_same hS rfl hT (by simp) rfl
      · simp at h
    · simp at h
  | stepT i =>
    simp only [act] at h
    split at h
    · rename_i t ht
      split at h
      · simp at h
      · split at h
        · rename_i o ho
          simp only [Option.some.injEq] at h
          subst h
          have htm := List.mem_of_getElem? ht
          have hta := hT t htm
          obtain ⟨g, hg, e, htf⟩ := hI.server.tasks t htm
          obtain ⟨-, k2, k3⟩ := step_for (hread g hg) (fun _ _ _ => trivial) htf ho
          have hret := step_returned ho (calls_other hn hf hg (by rw [e]; exact hta) k3)
          refine hI.mk_same hS hret ?_ hR ?_
          · intro x hx
            rcases List.mem_append.1 hx with hx | hx
            · rcases List.mem_or_eq_of_mem_set hx with hx | rfl
              · exact hT x hx
              · exact hta
            · obtain ⟨y, -, rfl⟩ := List.mem_map.1 hx
              exact hta
          · simp only [setMem_ne _ _ (Ne.symm hta)]
        · simp at h
    · simp at h
  | resume i r =>
    simp only [act] at h
    split at h
    · rename_i t ht
      split at h
      · simp only [Option.some.injEq] at h
        subst h
        refine hI.mk_same hS rfl ?_ hR rfl
        intro x hx
        rcases List.mem_or_eq_of_mem_set hx with hx | rfl
        · exact hT x hx
        · exact hT t (List.mem_of_getElem? ht)
      · simp at h
    · simp at h
  | request b bs =>
    simp only [act, Option.some.injEq] at h
    subst h
    refine hI.mk_same hS rfl hT hR ?_
    by_cases hb : b = f.position
    · subst hb
      simp only [setMem_self]
    · simp only [setMem_ne _ _ (Ne.symm hb)]
  | clear b bs =>
    simp only [act, Option.some.injEq] at h
    subst h
    by_cases hb : b = f.position
    · subst hb
      refine ⟨hS, hT, hR, hI.bound, ?_⟩
      simp only [setMem_self]
      obtain ⟨rest, hrest⟩ := hlib (c.mem f.position).client bs
      intro hm
      simp only [hrest] at hm
      exact absurd hm (hx bs rfl rest)
    · exact hI.mk_same hS rfl hT hR (by simp only [setMem_ne _ _ (Ne.symm hb)])

end
end TPB.Rust

namespace TPB.Rpc
open Spec
open Rust (RetIs Buf Bufs BufLib User setMem codecAt act Act Ev Cfg Status Handler Codec readStatus Record recording returned SyInv)
open Dart (ClientState taskOf genClient ReadsResult)
open DartGen (varReadStreamController varReadTask)
open Props (SystemOk)

variable {σ : Type}
variable {x : Ext} {rr : Rust.Runtime} {rt : Dart.Runtime} {hd : Int} {S : List ASTNode} {f : FnNode} {t : TypeId} {scope : String}
variable {st : Status → Bytes} {lib : BufLib} {U : User σ} {mem : Nat → Bufs} {u : σ} {rot : Int → Int} {xs : List SysAct} {k : Nat}

/-- The record changes nothing else. -/
theorem sysAct_recording (C : Codec) (regs : List (Nat × Handler)) (Q : Dart.Prog) (cl : Dart.Client) (s : Sys (σ × Record)) (a : SysAct) :
    (sysAct C lib (recording U) regs rt Q k hd rot cl s a).map Sys.forget = sysAct C lib U regs rt Q k hd rot cl s.forget a := by
  cases a with
  | server a =>
    simp only [sysAct, Sys.forget]
    rw [← Rust.act_recording]
    cases act C lib (recording U) regs s.server a <;> rfl
  | call name ds =>
    simp only [sysAct, Sys.forget, Cfg.forget]
    split <;> rfl
  | read v =>
    simp only [sysAct, Sys.forget, Cfg.forget]
    cases s.client.tasks.lookup v with
    | none => rfl
    | some tk =>
      simp only
      split <;> rfl

theorem sysActs_recording (C : Codec) (regs : List (Nat × Handler)) (Q : Dart.Prog) (cl : Dart.Client) (s : Sys (σ × Record)) (xs : List SysAct) :
    (sysActs C lib (recording U) regs rt Q k hd rot cl s xs).map Sys.forget = sysActs C lib U regs rt Q k hd rot cl s.forget xs := by
  induction xs generalizing s with
  | nil => rfl
  | cons a xs ih =>
    simp only [sysActs]
    rw [← sysAct_recording]
    cases h : sysAct C lib (recording U) regs rt Q k hd rot cl s a with
    | none => rfl
    | some s1 => exact ih s1

theorem start_recording (Q : Dart.Prog) (cl : Dart.Client) (h : Record) :
    (start lib rt Q k hd rot cl mem (u, h)).map Sys.forget = start lib rt Q k hd rot cl mem u := by
  simp only [start]
  split <;> rfl

theorem sysAct_returned {C : Codec} {regs : List (Nat × Handler)} {Q : Dart.Prog} {cl : Dart.Client} {s s' : Sys (σ × Record)} {a : SysAct} (g : String)
    (h : sysAct C lib (recording U) regs rt Q k hd rot cl s a = some s') :
    ∃ vs, returned g s'.server.user.2 = returned g s.server.user.2 ++ vs := by
  cases a with
  | server a =>
    simp only [sysAct] at h
    split at h
    · rename_i c hc
      simp only [Option.some.injEq] at h
      subst h
      exact Rust.act_returned g hc
    · simp at h
  | call name ds =>
    simp only [sysAct] at h
    split at h
    · simp only [Option.some.injEq] at h
      subst h
      exact ⟨[], by simp⟩
    · simp at h
  | read v =>
    simp only [sysAct] at h
    split at h
    · split at h
      · simp only [Option.some.injEq] at h
        subst h
        exact ⟨[], by simp⟩
      · simp at h
    · simp at h

theorem sysActs_returned {C : Codec} {regs : List (Nat × Handler)} {Q : Dart.Prog} {cl : Dart.Client} {s s' : Sys (σ × Record)} (g : String)
    (h : sysActs C lib (recording U) regs rt Q k hd rot cl s xs = some s') :
    ∃ vs, returned g s'.server.user.2 = returned g s.server.user.2 ++ vs := by
  induction xs generalizing s with
  | nil =>
    simp only [sysActs, Option.some.injEq] at h
    exact ⟨[], by rw [h, List.append_nil]⟩
  | cons a xs ih =>
    simp only [sysActs] at h
    split at h
    case h_2 => simp at h
    case h_1 s1 hs1 =>
    obtain ⟨vs, h1⟩ := sysAct_returned g hs1
    obtain ⟨ws, h2⟩ := ih h
    exact ⟨vs ++ ws, by rw [h2, h1, List.append_assoc]⟩

/-- What the server writes for a value, and what the client makes of it, whatever the stack. -/
theorem written_value (h : SystemOk x rr rt hd S) (hf : f ∈ methodsOf S) (hp : PortableMethod S f) (ht : f.returnTypeId = some t)
    {v : Val} {b b' : Bytes} (he : Enc rr.wire S [t] [v] b') (hw : (codecAt rr (Rust.genProg (Rust.argsSchema S)) k).write t v = some b) :
    ∃ d, ExchangedResult x rr.wire S f (some v) (some d) ∧
      (∃ N, ∀ j, N ≤ j → ∀ rest, ReadsResult rt (Dart.genProg x S) j f (some d) (b ++ rest)) ∧
      ∀ j rest dv, ReadsResult rt (Dart.genProg x S) j f dv (b ++ rest) → dv = some d := by
  obtain ⟨M, hM⟩ := Rust.write_result h.server.accepted.wf h.server.named h.server.noClash h.server.rpcNamed h.server.noExt
    ((Rust.wf_method h.server.accepted.wf hf).2.1 t (by simp [ht])) he
  obtain ⟨d, h3, N, h4⟩ := Props.result_exchange h hp ht he
  have hwk : Rust.writeTy rr (Rust.genProg (Rust.argsSchema S)) k (Rust.genTy t) v = .ok b := by
    simp only [codecAt] at hw
    split at hw
    · rename_i bs e
      rw [e, Option.some.inj hw]
    · simp at hw
  have e : b' = b := by
    have h5 := Rust.writeTy_more (j := max k M) (by rw [hwk]; simp) (Nat.le_max_left _ _)
    rw [hwk, hM _ (Nat.le_max_right _ _)] at h5
    exact Except.ok.inj h5
  subst e
  refine ⟨d, ⟨t, ht, h3⟩, ⟨N, fun j hj rest => ?_⟩, fun j rest dv hr => ?_⟩
  · simp only [ReadsResult, ht]
    exact ⟨d, rest, rfl, h4 j hj rest⟩
  · simp only [ReadsResult, ht] at hr
    obtain ⟨d', r', rfl, hr⟩ := hr
    have h5 := Dart.readE_more (j := max j N) (by rw [hr]; simp) (Nat.le_max_left _ _)
    rw [hr, h4 _ (Nat.le_max_right _ _)] at h5
    simp only [Except.ok.injEq, Prod.mk.injEq] at h5
    rw [h5.1]

variable (rr S t) in
/-- The bytes that the server writes for a value, if its stack is deep enough. -/
def Written (v : Val) (b : Bytes) : Prop := ∃ k, (codecAt rr (Rust.genProg (Rust.argsSchema S)) k).write t v = some b

variable (x rr S f t st k) in
/-- The invariant: the values that come after `E` in the stream are values that have been returned, from the one
with number `m` on, in this order. -/
structure SyncInv (E : List (Option Val)) (m : Nat) (s : Sys (σ × Record)) : Prop where
  tasks : s.client.tasks = (methodsOf S).flatMap (taskOf x)
  stream : ∃ B js es, SyInv (codecAt rr (Rust.genProg (Rust.argsSchema S)) k) st S f (Written rr S t) B s.server ∧ js.Pairwise (· ≤ ·) ∧ (∀ j ∈ js, m ≤ j ∧ j ≤ B) ∧ m ≤ B ∧
    (s.client.events.filter (fun e => e.1 = varReadStreamController x f)).map (·.2) = E ++ es ∧
    Each (fun j dv => ∃ v, (returned f.id s.server.user.2)[j]? = some v ∧ ExchangedResult x rr.wire S f (some v) dv) js es

/-- A value in the client buffer: the client can read it. -/
theorem SyncInv.value (h : SystemOk x rr rt hd S) (hf : f ∈ methodsOf S) (hp : PortableMethod S f) (ht : f.returnTypeId = some t)
    (hst : ∀ P k, (codecAt rr P k).StatusOk st) {s : Sys (σ × Record)} (hT : ∀ v ∈ returned f.id s.server.user.2, ∃ b, Enc rr.wire S [t] [v] b)
    {B : Nat} (hB : SyInv (codecAt rr (Rust.genProg (Rust.argsSchema S)) k) st S f (Written rr S t) B s.server)
    {r0 : Bytes} (hr0 : rr.readP "u8" (s.server.mem f.position).client = some (.int 255, r0)) :
    ∃ i v d b rest, B ≤ i ∧ (returned f.id s.server.user.2)[i]? = some v ∧ ExchangedResult x rr.wire S f (some v) (some d) ∧
      rt.readP "Int8" (s.server.mem f.position).client = some (.int hd, b ++ rest) ∧
      (∃ N, ∀ j, N ≤ j → ReadsResult rt (Dart.genProg x S) j f (some d) (b ++ rest)) ∧
      (∀ j dv, ReadsResult rt (Dart.genProg x S) j f dv (b ++ rest) → dv = some d) ∧
      Written rr S t v b ∧ (s.server.mem f.position).client = st .xFF ++ b ++ rest := by
  obtain ⟨i, v, b, rest, h1, h2, h3, h4⟩ := hB.client ⟨r0, by simp [readStatus, codecAt, hr0]⟩
  obtain ⟨b', hb'⟩ := hT v (List.mem_of_getElem? h2)
  obtain ⟨d, h5, ⟨N, h6⟩, h7⟩ := written_value h hf hp ht hb' h3.choose_spec
  obtain ⟨sb, hs⟩ := Props.status_total h.rust.wire
  obtain ⟨-, hsr⟩ := Dart.status_bytes h.dart h.status hs
  have e := Props.st_eq (hst (Rust.genProg (Rust.argsSchema S)) k) hs
  refine ⟨i, v, d, b, rest, h1, h2, h5, ?_, ⟨N, fun j hj => h6 j hj rest⟩, fun j dv hr => h7 j rest dv hr, h3, h4⟩
  rw [h4, e, List.append_assoc]
  exact hsr _

theorem sync_server (h : SystemOk x rr rt hd S) (hf : f ∈ methodsOf S) (hr : f.isRead = true) (ha : f.isAsync = false)
    (ht : f.returnTypeId = some t) (hst : ∀ P k, (codecAt rr P k).StatusOk st) (hlib : lib.Lawful)
    {E : List (Option Val)} {m : Nat} {s : Sys (σ × Record)} (J : SyncInv x rr S f t st k E m s) {a : Act}
    (hcl : ∀ bs, a = .clear f.position bs → ∀ r, NoMessage (rr.readP "u8") (bs ++ r))
    {c : Cfg (σ × Record)} {cs : List (String × List Val × Nat)} {cl : ClientState}
    (hct : cl.tasks = s.client.tasks) (hce : cl.events = s.client.events)
    (hc : act (codecAt rr (Rust.genProg (Rust.argsSchema S)) k) lib (recording U) (Rust.genRpc scope S).handlers s.server a = some c) :
    SyncInv x rr S f t st k E m ⟨c, cl, cs⟩ := by
  have hreg := Rust.handlers_lookup scope h.server.accepted.wf h.server.rpcNamed.methods hf
  obtain ⟨vs, hvs⟩ := Rust.act_returned f.id hc
  obtain ⟨B, js, es, h1, h2, h3, h3', hn', h4⟩ := J.stream
  refine ⟨hct ▸ J.tasks, B, js, es, ?_, h2, h3, h3', by simpa only [hce] using hn', ?_⟩
  · exact Rust.syInv_act (hst _ k) hlib h.server.accepted.wf h.server.rpcNamed.methods hf hr ha ht (fun _ _ h => ⟨k, h⟩) hreg
      (fun bs e r => noMessage_not_ready (hcl bs e r)) h1 hc
  · refine each_mono ?_ h4
    rintro j dv ⟨v, hv, hx⟩
    refine ⟨v, ?_, hx⟩
    simp only [hvs]
    rw [List.getElem?_append_left (List.getElem?_eq_some_iff.1 hv).1]
    exact hv

theorem sync_read (h : SystemOk x rr rt hd S) (hf : f ∈ methodsOf S) (hp : PortableMethod S f) (hr : f.isRead = true)
    (ht : f.returnTypeId = some t) (hst : ∀ P k, (codecAt rr P k).StatusOk st)
    {E : List (Option Val)} {m : Nat} {s s' : Sys (σ × Record)} (J : SyncInv x rr S f t st k E m s) (hT : ∀ v ∈ returned f.id s.server.user.2, ∃ b, Enc rr.wire S [t] [v] b)
    {C : Codec} {regs : List (Nat × Handler)} (ns sc : String) {v : String}
    (hs : sysAct C lib (recording U) regs rt (Dart.genProg x S) k hd rot (genClient x ns sc S) s (.read v) = some s') :
    SyncInv x rr S f t st k E m s' := by
  simp only [sysAct] at hs
  split at hs
  case h_2 => simp at hs
  case h_1 tk ht' =>
  split at hs
  case h_2 => simp at hs
  case h_1 cl hcl' =>
  simp only [Option.some.injEq] at hs
  subst hs
  rw [J.tasks] at ht'
  obtain ⟨g, hg, hgt⟩ := taskOf_mem ht'
  unfold Dart.runTask at hcl'
  simp only [bind, Except.bind] at hcl'
  split at hcl'
  · simp at hcl'
  rename_i res hrun
  obtain ⟨c1, ov⟩ := res
  simp only [Except.ok.injEq] at hcl'
  subst hcl'
  have same : ∀ c : ClientState, c.tasks = s.client.tasks →
      c.events.filter (fun e => e.1 = varReadStreamController x f) = s.client.events.filter (fun e => e.1 = varReadStreamController x f) →
      SyncInv x rr S f t st k E m { s with client := c } := by
    intro c h1 h2
    refine ⟨h1 ▸ J.tasks, ?_⟩
    simp only [h2]
    exact J.stream
  unfold taskOf at hgt
  split at hgt
  · rename_i gr
    simp only [List.mem_singleton, Prod.mk.injEq] at hgt
    obtain ⟨-, rfl⟩ := hgt
    rcases Dart.add_inv hrun with rfl | ⟨r, dv, e1, e2, rfl⟩
    · exact same _ rfl rfl
    · by_cases hgf : g = f
      · subst hgf
        obtain ⟨B, js, es, h1, h2, h3, h3', hn', h4⟩ := J.stream
        simp only [Bufs.get] at e1
        obtain ⟨r0, hr0⟩ := (h.status.read _).2 ⟨r, e1⟩
        obtain ⟨i, w, d, b, rest, h5, h6, h7, h8, -, h9, h10, h11⟩ := SyncInv.value h hf hp ht hst hT h1 hr0
        rw [e1] at h8
        simp only [Option.some.injEq, Prod.mk.injEq, true_and] at h8
        subst h8
        obtain rfl := h9 _ _ e2
        refine ⟨J.tasks, i, js ++ [i], es ++ [some d], ?_, ?_, ?_, by omega, ?_, ?_⟩
        · refine ⟨h1.server, h1.tasks, h1.run, ?_, ?_⟩
          · have := (List.getElem?_eq_some_iff.1 h6).1
            simp only
            omega
          · exact fun _ => ⟨i, w, b, rest, Nat.le_refl _, h6, h10, h11⟩
        · rw [List.pairwise_append]
          refine ⟨h2, by simp, ?_⟩
          intro a ha b hb
          simp only [List.mem_singleton] at hb
          have := (h3 a ha).2
          omega
        · intro j hj
          rcases List.mem_append.1 hj with hj | hj
          · have := h3 j hj; omega
          · simp only [List.mem_singleton] at hj; omega
        · simp only [List.filter_append, List.map_append, hn', List.append_assoc]
          simp
        · exact each_append h4 (.cons ⟨w, h6, h7⟩ .nil)
      · refine same _ rfl ?_
        have : varReadStreamController x g ≠ varReadStreamController x f := fun e => hgf (Dart.controller_inj h.client hg hf gr hr e)
        simp [this]
  · rename_i gr
    split at hgt
    case isFalse => simp at hgt
    rename_i ga
    simp only [List.mem_singleton, Prod.mk.injEq] at hgt
    obtain ⟨-, rfl⟩ := hgt
    rcases Dart.reader_effect ns sc hrun with rfl | ⟨i, n, dv, h1, hp, hn, rfl⟩
    · exact same _ rfl rfl
    · exact same _ rfl rfl

theorem sync_acts (h : SystemOk x rr rt hd S) (hf : f ∈ methodsOf S) (hp : PortableMethod S f) (hr : f.isRead = true) (ha : f.isAsync = false)
    (ht : f.returnTypeId = some t) (hst : ∀ P k, (codecAt rr P k).StatusOk st) (hlib : lib.Lawful)
    (hcl : ∀ bs, SysAct.server (.clear f.position bs) ∈ xs → ∀ r, NoMessage (rr.readP "u8") (bs ++ r)) (ns sc : String)
    {E : List (Option Val)} {m : Nat} {s s' : Sys (σ × Record)} (J : SyncInv x rr S f t st k E m s)
    (hs : sysActs (codecAt rr (Rust.genProg (Rust.argsSchema S)) k) lib (recording U) (Rust.genRpc scope S).handlers rt (Dart.genProg x S) k hd rot
      (genClient x ns sc S) s xs = some s') (hT : ∀ v ∈ returned f.id s'.server.user.2, ∃ b, Enc rr.wire S [t] [v] b) :
    SyncInv x rr S f t st k E m s' := by
  induction xs generalizing s with
  | nil =>
    simp only [sysActs, Option.some.injEq] at hs
    exact hs ▸ J
  | cons a as ih =>
    obtain ⟨vs, hvs⟩ := sysActs_returned f.id hs
    have hT0 : ∀ v ∈ returned f.id s.server.user.2, ∃ b, Enc rr.wire S [t] [v] b := fun v hv => hT v (by rw [hvs]; simp [hv])
    simp only [sysActs] at hs
    split at hs
    case h_2 => simp at hs
    case h_1 s1 hs1 =>
    refine ih (fun bs hb => hcl bs (by simp [hb])) ?_ hs
    cases a with
    | server a =>
      simp only [sysAct] at hs1
      split at hs1
      · rename_i c hc
        simp only [Option.some.injEq] at hs1
        subst hs1
        exact sync_server h hf hr ha ht hst hlib J (fun bs e => hcl bs (by simp [e])) rfl rfl hc
      · simp at hs1
    | call name ds =>
      simp only [sysAct] at hs1
      split at hs1
      case h_2 => simp at hs1
      case h_1 n w hw =>
      obtain ⟨g, hg, gr, ga, rfl, rfl, bs, hbs, rfl⟩ := Dart.call_inv ns sc (fun _ _ => ⟨_, rfl⟩) hw
      simp only [Option.some.injEq] at hs1
      subst hs1
      exact sync_server (U := U) (scope := scope) (a := .request g.position bs) h hf hr ha ht hst hlib J (by simp) rfl rfl rfl
    | read v => exact sync_read h hf hp hr ht hst J hT0 ns sc hs1

theorem sync_init (h : SystemOk x rr rt hd S) (hmc : NoMessage (rr.readP "u8") (mem f.position).client) (ns sc : String) :
    ∃ s0, start lib rt (Dart.genProg x S) k hd rot (genClient x ns sc S) mem (u, ([] : Record)) = some s0 ∧ SyncInv x rr S f t st k [] 0 s0 := by
  refine ⟨⟨Cfg.initial mem (u, []), { ClientState.fresh with tasks := (methodsOf S).flatMap (taskOf x) }, []⟩, ?_, ?_⟩
  · simp only [start, Dart.create_eq h.client ns sc]
  · refine ⟨rfl, 0, [], [], ⟨⟨by simp [Cfg.initial], by simp [Cfg.initial], by simp [Cfg.initial]⟩, by simp [Cfg.initial], by simp [Cfg.initial],
      by simp, ?_⟩, by simp, by simp, by simp, by simp [ClientState.fresh], .nil⟩
    exact fun hq => absurd hq (noMessage_not_ready hmc)

end TPB.Rpc
