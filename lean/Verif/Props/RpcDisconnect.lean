/-
Property theorems about `disconnect` of the emitted Dart client: C66.
-/
import Verif.Sem.DartDisconnect
import Verif.Props.RpcStream
namespace TPB.Props
open Spec
open Rust (Buf Bufs BufLib User Handler Codec)
open Rpc
open Dart (ClientState Member DiscS Client genClient genDisc genMembers)
open DartGen (varReadTask varReadStreamController)

/-! ### The body of `disconnect` -/

theorem runDisc_ok {cl : Client} {s : ClientState} {ds : List DiscS} {l : Link}
    (h1 : ∀ v, .disconnect v ∈ ds → v ∈ cl.members.filterMap Member.taskOf ∧ v ∈ s.tasks.map (·.1))
    (h2 : ∀ v, .close v ∈ ds → v ∈ cl.members.filterMap Member.controllerOf) :
    ∃ l', runDisc cl s l ds = .ok l' ∧ (∀ v, v ∈ l'.off ↔ v ∈ l.off ∨ .disconnect v ∈ ds) ∧
      ∀ v, v ∈ l'.closed ↔ v ∈ l.closed ∨ .close v ∈ ds := by
  induction ds generalizing l with
  | nil => exact ⟨l, rfl, by simp, by simp⟩
  | cons d ds ih =>
    cases d with
    | disconnect v =>
      obtain ⟨a, b⟩ := h1 v (by simp)
      obtain ⟨l', e1, e2, e3⟩ := ih (l := { l with off := l.off ++ [v] }) (fun w hw => h1 w (by simp [hw])) (fun w hw => h2 w (by simp [hw]))
      refine ⟨l', by simp only [runDisc, if_pos a, if_pos b, e1], fun w => ?_, fun w => ?_⟩
      · rw [e2]; simp [or_assoc]
      · rw [e3]; simp
    | close v =>
      have a := h2 v (by simp)
      obtain ⟨l', e1, e2, e3⟩ := ih (l := { l with closed := l.closed ++ [v] }) (fun w hw => h1 w (by simp [hw])) (fun w hw => h2 w (by simp [hw]))
      refine ⟨l', by simp only [runDisc, if_pos a, e1], fun w => ?_, fun w => ?_⟩
      · rw [e2]; simp
      · rw [e3]; simp [or_assoc]

theorem mem_disc {x : Ext} {S : List ASTNode} (ns scope : String) (d : DiscS) :
    d ∈ (genClient x ns scope S).disconnect ↔ ∃ f ∈ methodsOf S, d ∈ genDisc x f := by
  simp [genClient, findFnNodes_eq, List.mem_flatMap]

theorem disc_task {x : Ext} {S : List ASTNode} (ns scope : String) (v : String) :
    .disconnect v ∈ (genClient x ns scope S).disconnect ↔ v ∈ ((methodsOf S).flatMap (Dart.taskOf x)).map (·.1) := by
  rw [mem_disc]
  simp only [List.mem_map, List.mem_flatMap]
  constructor
  · rintro ⟨f, hf, hd⟩
    unfold genDisc at hd
    cases hr : f.isRead <;> cases ha : f.isAsync <;> simp [hr, ha] at hd <;>
      exact ⟨_, ⟨f, hf, by simp only [Dart.taskOf, hr, ha, if_true, Bool.false_eq_true, if_false, List.mem_singleton]; rfl⟩, hd.symm⟩
  · rintro ⟨p, ⟨f, hf, hp⟩, rfl⟩
    refine ⟨f, hf, ?_⟩
    unfold Dart.taskOf at hp
    unfold genDisc
    cases hr : f.isRead <;> cases ha : f.isAsync <;> simp [hr, ha] at hp <;> simp [hp]

theorem disc_ok {x : Ext} {S : List ASTNode} (ns scope : String) {s : ClientState} (ht : s.tasks = (methodsOf S).flatMap (Dart.taskOf x)) (l : Link) :
    ∃ l', runDisc (genClient x ns scope S) s l (genClient x ns scope S).disconnect = .ok l' ∧
      (∀ v, v ∈ l'.off ↔ v ∈ l.off ∨ v ∈ s.tasks.map (·.1)) ∧
      ∀ v, v ∈ l'.closed ↔ v ∈ l.closed ∨ .close v ∈ (genClient x ns scope S).disconnect := by
  have := runDisc_ok (cl := genClient x ns scope S) (s := s) (ds := (genClient x ns scope S).disconnect) (l := l) ?_ ?_
  · obtain ⟨l', e1, e2, e3⟩ := this
    exact ⟨l', e1, fun v => by rw [e2, disc_task, ht], e3⟩
  · intro v hv
    refine ⟨?_, by rw [ht]; exact (disc_task ns scope v).1 hv⟩
    obtain ⟨f, hf, hd⟩ := (mem_disc ns scope _).1 hv
    refine Dart.mem_members ns scope hf (m := .task v) ?_ rfl
    unfold genDisc at hd
    unfold genMembers
    cases hr : f.isRead <;> cases ha : f.isAsync <;> simp [hr, ha] at hd <;> simp [hd]
  · intro v hv
    obtain ⟨f, hf, hd⟩ := (mem_disc ns scope _).1 hv
    refine Dart.mem_members ns scope hf (m := .controller v (Dart.retTy f)) ?_ rfl
    unfold genDisc at hd
    unfold genMembers
    cases hr : f.isRead <;> cases ha : f.isAsync <;> simp [hr, ha] at hd <;> simp [hd]

/-! ### Histories -/

section
variable {σ : Type} {x : Ext} {S : List ASTNode} {lib : BufLib} {U : User σ} {rt : Dart.Runtime} {k : Nat} {hd : Int} {rot : Int → Int}

/-- What every history keeps: the tasks, and that futures are numbered in the order of creation. -/
structure Numbered (x : Ext) (S : List ASTNode) (c : ClientState) : Prop where
  tasks : c.tasks = (methodsOf S).flatMap (Dart.taskOf x)
  done : ∀ p ∈ c.done, p.1 < c.created
  pend : ∀ w i n, c.pending w i = some n → n < c.created

theorem numbered_act {C : Codec} {regs : List (Nat × Handler)} (ns sc : String) {s s' : Sys σ} {a : SysAct} (B : Numbered x S s.client)
    (hs : sysAct C lib U regs rt (Dart.genProg x S) k hd rot (genClient x ns sc S) s a = some s') :
    Numbered x S s'.client ∧ ((∀ v, a ≠ .read v) → s'.client.done = s.client.done ∧ s'.client.events = s.client.events) := by
  cases a with
  | server a =>
    simp only [sysAct] at hs
    split at hs
    · simp only [Option.some.injEq] at hs
      subst hs
      exact ⟨B, fun _ => ⟨rfl, rfl⟩⟩
    · simp at hs
  | call name ds =>
    simp only [sysAct] at hs
    split at hs
    case h_2 => simp at hs
    case h_1 n w hw =>
    obtain ⟨g, hg, gr, ga, rfl, rfl, bs, hbs, rfl⟩ := Dart.call_inv ns sc (fun _ _ => ⟨_, rfl⟩) hw
    simp only [Option.some.injEq] at hs
    subst hs
    refine ⟨⟨B.tasks, ?_, ?_⟩, fun _ => ⟨rfl, rfl⟩⟩
    · intro p hp
      simp only [ClientState.afterCall] at hp ⊢
      exact Nat.lt_succ_of_lt (B.done p hp)
    · intro w i n hp
      simp only [ClientState.afterCall] at hp ⊢
      split at hp
      · simp only [Option.some.injEq] at hp; omega
      · exact Nat.lt_succ_of_lt (B.pend w i n hp)
  | read v =>
    refine ⟨?_, fun h => absurd rfl (h v)⟩
    obtain ⟨c, rfl, ⟨evs, rfl⟩ | ⟨g, _, _, _, i, n, dv, _, hp, rfl⟩⟩ := read_effect ns sc B.tasks hs
    · exact ⟨B.tasks, B.done, B.pend⟩
    · refine ⟨B.tasks, ?_, ?_⟩
      · intro p hp'
        simp only [ClientState.remove, List.mem_append, List.mem_singleton] at hp' ⊢
        rcases hp' with hp' | rfl
        · exact B.done p hp'
        · exact B.pend _ _ _ hp
      · intro w' i' n' hp'
        simp only [ClientState.remove] at hp' ⊢
        split at hp'
        · simp at hp'
        · exact B.pend _ _ _ hp'

/-- **C66, before `disconnect`.** Histories without `disconnect` are the histories of the other properties. -/
theorem C66_before {C : Codec} {regs : List (Nat × Handler)} {P : Dart.Prog} {cl : Client} (as : List SysAct) (s : Sys σ) :
    linkActs C lib U regs rt P k hd rot cl ⟨s, .on⟩ (as.map .sys) = (sysActs C lib U regs rt P k hd rot cl s as).map (⟨·, .on⟩) := by
  induction as generalizing s with
  | nil => rfl
  | cons a as ih =>
    have : linkAct C lib U regs rt P k hd rot cl ⟨s, .on⟩ (.sys a) = (sysAct C lib U regs rt P k hd rot cl s a).map (⟨·, .on⟩) := by
      have hst : Link.on.stops a = false := by cases a <;> rfl
      simp only [linkAct, hst]
      cases sysAct C lib U regs rt P k hd rot cl s a <;> simp [Link.on]
    simp only [List.map_cons, linkActs, sysActs, this]
    cases sysAct C lib U regs rt P k hd rot cl s a with
    | none => rfl
    | some t => exact ih t

theorem mem_of_lookup {β : Type} {l : List (String × β)} {n : String} {t : β} (h : l.lookup n = some t) : (n, t) ∈ l := by
  induction l with
  | nil => simp at h
  | cons p l ih =>
    obtain ⟨a, b⟩ := p
    simp only [List.lookup] at h
    split at h
    · rename_i e
      simp only [Option.some.injEq] at h
      simp only [beq_iff_eq] at e
      simp [e, ← h]
    · simp [ih h]

/-- One step of a history. -/
theorem linkAct_inv {C : Codec} {regs : List (Nat × Handler)} (ns sc : String) {s s' : Linked σ} {a : LinkAct} (B : Numbered x S s.sys.client)
    (hs : linkAct C lib U regs rt (Dart.genProg x S) k hd rot (genClient x ns sc S) s a = some s') :
    Numbered x S s'.sys.client ∧ (∀ v ∈ s.link.off, v ∈ s'.link.off) ∧ (∀ v ∈ s.link.closed, v ∈ s'.link.closed) ∧
      ((∀ v ∈ s.sys.client.tasks.map (·.1), v ∈ s.link.off) →
        s'.sys.client.done = s.sys.client.done ∧ s'.sys.client.events = s.sys.client.events ∧ ∀ v, a ≠ .sys (.read v)) := by
  cases a with
  | disconnect =>
    obtain ⟨l', e1, e2, e3⟩ := disc_ok ns sc B.tasks s.link
    simp only [linkAct, e1, Option.some.injEq] at hs
    subst hs
    exact ⟨B, fun v hv => (e2 v).2 (.inl hv), fun v hv => (e3 v).2 (.inl hv), fun _ => ⟨rfl, rfl, by simp⟩⟩
  | sys a =>
    simp only [linkAct] at hs
    split at hs
    · simp at hs
    rename_i hoff
    split at hs
    case h_2 => simp at hs
    case h_1 t ht =>
    split at hs
    · simp at hs
    simp only [Option.some.injEq] at hs
    subst hs
    obtain ⟨h1, h2⟩ := numbered_act ns sc B ht
    refine ⟨h1, fun _ h => h, fun _ h => h, fun hall => ?_⟩
    have hr : ∀ v, a ≠ .read v := by
      rintro v rfl
      apply hoff
      simp only [Link.stops, List.contains_iff_mem]
      refine hall v ?_
      simp only [sysAct] at ht
      split at ht
      · rename_i t' ht'
        exact List.mem_map.2 ⟨(v, t'), mem_of_lookup ht', rfl⟩
      · simp at ht
    exact ⟨(h2 hr).1, (h2 hr).2, fun v e => hr v (LinkAct.sys.inj e)⟩

theorem linkActs_inv {C : Codec} {regs : List (Nat × Handler)} (ns sc : String) {as : List LinkAct} {s s' : Linked σ} (B : Numbered x S s.sys.client)
    (hs : linkActs C lib U regs rt (Dart.genProg x S) k hd rot (genClient x ns sc S) s as = some s') :
    Numbered x S s'.sys.client ∧ (∀ v ∈ s.link.off, v ∈ s'.link.off) ∧ (∀ v ∈ s.link.closed, v ∈ s'.link.closed) ∧
      ((∀ v ∈ s.sys.client.tasks.map (·.1), v ∈ s.link.off) →
        s'.sys.client.done = s.sys.client.done ∧ s'.sys.client.events = s.sys.client.events ∧ ∀ v, .sys (.read v) ∉ as) := by
  induction as generalizing s with
  | nil =>
    simp only [linkActs, Option.some.injEq] at hs
    subst hs
    exact ⟨B, fun _ h => h, fun _ h => h, fun _ => ⟨rfl, rfl, by simp⟩⟩
  | cons a as ih =>
    simp only [linkActs] at hs
    split at hs
    case h_2 => simp at hs
    case h_1 s1 hs1 =>
    obtain ⟨b1, b2, b3, b4⟩ := linkAct_inv ns sc B hs1
    obtain ⟨c1, c2, c3, c4⟩ := ih b1 hs
    refine ⟨c1, fun v h => c2 v (b2 v h), fun v h => c3 v (b3 v h), fun hall => ?_⟩
    obtain ⟨d1, d2, d3⟩ := b4 hall
    obtain ⟨e1, e2, e3⟩ := c4 (by rw [b1.tasks, ← B.tasks]; exact fun v hv => b2 v (hall v hv))
    refine ⟨by rw [e1, d1], by rw [e2, d2], fun v hv => ?_⟩
    rcases List.mem_cons.1 hv with e | hv
    · exact d3 v e.symm
    · exact e3 v hv

end

/-! ## C66: after `disconnect` -/

theorem numbered_start {σ : Type} {x : Ext} {S : List ASTNode} (hR : DartRpcNamed x S) (rt : Dart.Runtime) (k : Nat) (hd : Int) (rot : Int → Int)
    (lib : BufLib) (ns sc : String) (mem : Nat → Bufs) (u : σ) :
    ∃ s0, start lib rt (Dart.genProg x S) k hd rot (genClient x ns sc S) mem u = some s0 ∧ Numbered x S s0.client := by
  simp only [start, Dart.create_eq hR ns sc k mem ()]
  exact ⟨_, rfl, ⟨rfl, by simp [ClientState.fresh], by simp [ClientState.fresh]⟩⟩

/-- All tasks are disconnected. -/
theorem disc_all {σ : Type} {x : Ext} {S : List ASTNode} (ns sc : String) {C : Codec} {lib : BufLib} {U : User σ} {regs : List (Nat × Handler)}
    {rt : Dart.Runtime} {k : Nat} {hd : Int} {rot : Int → Int} {s : Linked σ} (B : Numbered x S s.sys.client) :
    ∃ l, linkAct C lib U regs rt (Dart.genProg x S) k hd rot (genClient x ns sc S) s .disconnect = some { s with link := l } ∧
      (∀ v ∈ s.sys.client.tasks.map (·.1), v ∈ l.off) ∧ ∀ g ∈ (genClient x ns sc S).getters, g.controller ∈ l.closed := by
  obtain ⟨l, e1, e2, e3⟩ := disc_ok ns sc B.tasks s.link
  refine ⟨l, by simp only [linkAct, e1], fun v hv => (e2 v).2 (.inr hv), fun g hg => (e3 _).2 (.inr ?_)⟩
  simp only [genClient, findFnNodes_eq, List.mem_flatMap] at hg
  obtain ⟨f, hf, hg⟩ := hg
  refine (mem_disc ns sc _).2 ⟨f, hf, ?_⟩
  cases hr : f.isRead <;> simp [Dart.genGetters, hr] at hg
  subst hg
  simp [genDisc, hr]

theorem linkActs_off {σ : Type} {x : Ext} {S : List ASTNode} (ns sc : String) {C : Codec} {lib : BufLib} {U : User σ} {regs : List (Nat × Handler)}
    {rt : Dart.Runtime} {k : Nat} {hd : Int} {rot : Int → Int} {as : List LinkAct} {s s' : Linked σ} (B : Numbered x S s.sys.client)
    (hs : linkActs C lib U regs rt (Dart.genProg x S) k hd rot (genClient x ns sc S) s as = some s') (hd : .disconnect ∈ as) :
    ∀ v ∈ s'.sys.client.tasks.map (·.1), v ∈ s'.link.off := by
  induction as generalizing s with
  | nil => simp at hd
  | cons a as ih =>
    simp only [linkActs] at hs
    split at hs
    case h_2 => simp at hs
    case h_1 t1 ht1 =>
    obtain ⟨B1, -⟩ := linkAct_inv ns sc B ht1
    rcases List.mem_cons.1 hd with rfl | hdisc
    · obtain ⟨l, e1, e2, e3⟩ := disc_all ns sc (C := C) (lib := lib) (U := U) (regs := regs) (rt := rt) (k := k) (hd := _) (rot := rot) B
      rw [e1, Option.some.injEq] at ht1
      subst ht1
      obtain ⟨b1, b2, -, -⟩ := linkActs_inv ns sc (s := { s with link := l }) B hs
      rw [b1.tasks, ← B.tasks]
      exact fun v hv => b2 v (e2 v hv)
    · exact ih B1 hs hdisc

/-- **C66.** Let a new client and a server share the buffers, and let `as` be any history of server steps,
client calls, runs of the client's read tasks and calls of `disconnect`.  Then `disconnect` is possible, also
repeatedly, and it changes neither the server nor a future nor what the streams have carried.  Whatever
happens afterwards, no future is completed any more, nothing is added to a stream, no read task of the client
can run, and all streams are closed. -/
theorem C66_disconnect (x : Ext) (rt : Dart.Runtime) (hd : Int) (S : List ASTNode) (hA : Accepted S) (hM : methodsOf S ≠ [])
    (hR : DartRpcNamed x S) (out : String) (hout : DartGen.rpcMethods x S = .ok out) :
    ∃ Q C, Dart.Emits x S Q ∧ Dart.EmitsRpc x S C ∧
      ∀ (σ : Type) (codec : Codec) (lib : BufLib) (U : User σ) (regs : List (Nat × Handler)) (k : Nat) (rotate : Int → Int) (mem : Nat → Bufs) (u : σ),
      ∃ s0, start lib rt Q k hd rotate C mem u = some s0 ∧ ∀ as s,
        linkActs codec lib U regs rt Q k hd rotate C ⟨s0, .on⟩ as = some s →
        ∃ s1, linkAct codec lib U regs rt Q k hd rotate C s .disconnect = some s1 ∧ s1.sys = s.sys ∧
          ∀ bs s2, linkActs codec lib U regs rt Q k hd rotate C s1 bs = some s2 →
            s2.sys.client.done = s.sys.client.done ∧ s2.sys.client.events = s.sys.client.events ∧
            (∀ v, linkAct codec lib U regs rt Q k hd rotate C s2 (.sys (.read v)) = none) ∧
            ∀ g ∈ C.getters, g.controller ∈ s2.link.closed := by
  obtain ⟨ns, sc, hC, -⟩ := Dart.emitsRpc_of hA.wf hM hout
  refine ⟨_, _, Dart.emits_genProg hA, hC, fun σ codec lib U regs k rotate mem u => ?_⟩
  obtain ⟨s0, h0, B0⟩ := numbered_start hR rt k hd rotate lib ns sc mem u
  refine ⟨s0, h0, fun as s hs => ?_⟩
  obtain ⟨B, -⟩ := linkActs_inv ns sc B0 hs
  obtain ⟨l, e1, e2, e3⟩ := disc_all ns sc (C := codec) (lib := lib) (U := U) (regs := regs) (rt := rt) (k := k) (hd := hd) (rot := rotate) B
  refine ⟨_, e1, rfl, fun bs s2 hs2 => ?_⟩
  obtain ⟨b1, b2, b3, b4⟩ := linkActs_inv ns sc (s := { s with link := l }) B hs2
  obtain ⟨d1, d2, -⟩ := b4 e2
  refine ⟨d1, d2, fun v => ?_, fun g hg => b3 _ (e3 g hg)⟩
  cases hv : linkAct codec lib U regs rt (Dart.genProg x S) k hd rotate (genClient x ns sc S) s2 (.sys (.read v)) with
  | none => rfl
  | some s3 =>
    obtain ⟨-, -, -, c4⟩ := linkAct_inv ns sc b1 hv
    exact absurd rfl ((c4 (by rw [b1.tasks, ← B.tasks]; exact fun v hv => b2 v (e2 v hv))).2.2 v)

/-- **C66, calls.** `disconnect` does not stop calls: after any history with a `disconnect` a call of an
asynchronous method has the same effect as without it, it writes its request for the server; but its future
is never completed, whatever happens afterwards. -/
theorem C66_calls_never_complete (x : Ext) (rt : Dart.Runtime) (hd : Int) (S : List ASTNode) (hA : Accepted S) (hM : methodsOf S ≠ [])
    (hR : DartRpcNamed x S) (out : String) (hout : DartGen.rpcMethods x S = .ok out) :
    ∃ Q C, Dart.Emits x S Q ∧ Dart.EmitsRpc x S C ∧
      ∀ (σ : Type) (codec : Codec) (lib : BufLib) (U : User σ) (regs : List (Nat × Handler)) (k : Nat) (rotate : Int → Int) (mem : Nat → Bufs) (u : σ),
      ∃ s0, start lib rt Q k hd rotate C mem u = some s0 ∧ ∀ as s,
        linkActs codec lib U regs rt Q k hd rotate C ⟨s0, .on⟩ as = some s → .disconnect ∈ as →
        ∀ name ds,
          (linkAct codec lib U regs rt Q k hd rotate C s (.sys (.call name ds))).map (·.sys)
            = sysAct codec lib U regs rt Q k hd rotate C s.sys (.call name ds) ∧
          ∀ s', linkAct codec lib U regs rt Q k hd rotate C s (.sys (.call name ds)) = some s' →
            (∃ p bs, s'.sys.server.log = s.sys.server.log ++ [.requested p bs]) ∧
            ∃ n, s'.sys.calls = s.sys.calls ++ [(name, ds, n)] ∧
              ∀ bs s'', linkActs codec lib U regs rt Q k hd rotate C s' bs = some s'' → n ∉ s''.sys.client.done.map (·.1) := by
  obtain ⟨ns, sc, hC, -⟩ := Dart.emitsRpc_of hA.wf hM hout
  refine ⟨_, _, Dart.emits_genProg hA, hC, fun σ codec lib U regs k rotate mem u => ?_⟩
  obtain ⟨s0, h0, B0⟩ := numbered_start hR rt k hd rotate lib ns sc mem u
  refine ⟨s0, h0, fun as s hs hdisc name ds => ?_⟩
  obtain ⟨B, -⟩ := linkActs_inv ns sc B0 hs
  have hall := linkActs_off ns sc (s := ⟨s0, .on⟩) B0 hs hdisc
  have hcall : linkAct codec lib U regs rt (Dart.genProg x S) k hd rotate (genClient x ns sc S) s (.sys (.call name ds))
      = (sysAct codec lib U regs rt (Dart.genProg x S) k hd rotate (genClient x ns sc S) s.sys (.call name ds)).map (⟨·, s.link⟩) := by
    simp only [linkAct, Link.stops]
    cases hc : sysAct codec lib U regs rt (Dart.genProg x S) k hd rotate (genClient x ns sc S) s.sys (.call name ds) with
    | none => simp
    | some t =>
      have := ((numbered_act ns sc B hc).2 (by simp)).2
      simp [this]
  refine ⟨by rw [hcall]; simp [Function.comp_def], fun s' hs' => ?_⟩
  obtain ⟨b1, b2, b3, b4⟩ := linkAct_inv ns sc B hs'
  obtain ⟨d1, -⟩ := b4 hall
  rw [hcall] at hs'
  simp only [Option.map_eq_some_iff] at hs'
  obtain ⟨t, ht, rfl⟩ := hs'
  simp only [sysAct] at ht
  split at ht
  case h_2 => simp at ht
  case h_1 n w hw =>
  obtain ⟨g, hg, gr, ga, rfl, rfl, bs, hbs, rfl⟩ := Dart.call_inv ns sc (fun _ _ => ⟨_, rfl⟩) hw
  simp only [Option.some.injEq] at ht
  subst ht
  refine ⟨⟨_, bs, rfl⟩, _, rfl, fun cs s'' hs'' => ?_⟩
  obtain ⟨-, -, -, c4⟩ := linkActs_inv ns sc b1 hs''
  obtain ⟨d1', -⟩ := c4 hall
  rw [d1', d1]
  intro hmem
  obtain ⟨p, hp, hpe⟩ := List.mem_map.1 hmem
  have := B.done p hp
  omega

/-! ### Examples -/

def runLinked (xs : List LinkAct) : Option (Linked Nat) :=
  (start overwrite LE.dart (Dart.genProg testExt rpcSchema) 10 (-1) (· + 1) exampleClient (fun _ => ⟨[0], [0]⟩) 0).bind
    (fun s => linkActs exampleCodec overwrite exampleUser (Rust.genRpc "8b61" rpcSchema).handlers LE.dart (Dart.genProg testExt rpcSchema)
      10 (-1) (· + 1) exampleClient ⟨s, .on⟩ xs)

/-- The stream carries a value; after `disconnect`, also after a second one, the server's values are not seen. -/
example : (runLinked ((tick 0 4 ++ [SysAct.read "_readTicksTask"]).map LinkAct.sys ++ [.disconnect] ++ (tick 1 5).map .sys ++ [.disconnect])).map
    (fun s => (ticksYielded s.sys, ticksSeen s.sys, s.link.closed)) =
      some ([some 4, some 5], some [some 4], ["_readNowStreamController", "_readTicksStreamController", "_readNowStreamController", "_readTicksStreamController"]) := by
  decide +kernel

/-- A disconnected task does not run. -/
example : (runLinked ((tick 0 4).map .sys ++ [.disconnect, .sys (.read "_readTicksTask")])).isNone ∧
    (runLinked ((tick 0 4).map .sys ++ [.sys (.read "_readTicksTask"), .disconnect])).isSome := by
  decide +kernel

/-- The two calls are executed, and the answers arrive, but nothing is completed. -/
example : (runLinked (twoCalls.map .sys ++ [.disconnect] ++ answersAtOnce.map .sys)).map
    (fun s => (s.sys.calls.map (fun c => (c.1, c.2.2)), s.sys.server.log.filterMap Ev.result, s.sys.client.done.map (·.1))) =
      some ([("slow", 0), ("slow", 1)], [("slow", some 22), ("slow", some 11)], []) := by
  decide +kernel

/-- Calls after `disconnect`. -/
example : (runLinked ([.disconnect] ++ twoCalls.map .sys ++ answersAtOnce.map .sys)).map
    (fun s => (s.sys.calls.map (fun c => (c.1, c.2.2)), s.sys.server.log.filterMap Ev.result, s.sys.client.done.map (·.1))) =
      some ([("slow", 0), ("slow", 1)], [("slow", some 22), ("slow", some 11)], []) := by
  decide +kernel

/-- The hypotheses of the theorems hold for the example. -/
example : ∃ Q C, Dart.Emits testExt rpcSchema Q ∧ Dart.EmitsRpc testExt rpcSchema C ∧ ∃ s0 s1,
    start overwrite LE.dart Q 10 (-1) (· + 1) C (fun _ => ⟨[0], [0]⟩) 0 = some s0 ∧
    linkAct exampleCodec overwrite exampleUser (Rust.genRpc "8b61" rpcSchema).handlers LE.dart Q 10 (-1) (· + 1) C ⟨s0, .on⟩ .disconnect = some s1 ∧
    ∀ bs s2, linkActs exampleCodec overwrite exampleUser (Rust.genRpc "8b61" rpcSchema).handlers LE.dart Q 10 (-1) (· + 1) C s1 bs = some s2 →
      s2.sys.client.done = s0.client.done := by
  obtain ⟨outD, hD⟩ := rpcSchema_dartOut
  obtain ⟨Q, C, h1, h2, h3⟩ := C66_disconnect testExt LE.dart (-1) rpcSchema rpcSchema_ok.accepted rpcSchema_methods rpcSchema_client outD hD
  obtain ⟨s0, h4, h5⟩ := h3 Nat exampleCodec overwrite exampleUser (Rust.genRpc "8b61" rpcSchema).handlers 10 (· + 1) (fun _ => ⟨[0], [0]⟩) 0
  obtain ⟨s1, h6, -, h7⟩ := h5 [] ⟨s0, .on⟩ rfl
  exact ⟨Q, C, h1, h2, s0, s1, h4, h6, fun bs s2 h => (h7 bs s2 h).1⟩

end TPB.Props
