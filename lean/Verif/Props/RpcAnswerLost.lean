/-
Property theorems about answers that are never seen: C35, for the emitted client of every schema.
-/
import Verif.Props.RpcLostClient
namespace TPB.Props
open Spec Rust

/-! ### The server, once it has nothing left to do for a method -/

/-- The states of a handler that finds no request. -/
inductive NothingToDo (f : FnNode) : Thread → Prop
  | s0 (fr o w) : NothingToDo f ⟨fr, o, w, rqBody f⟩
  | s1 (fr o w) : fr.argsOpt = some none → NothingToDo f ⟨fr, o, w, [.blank, .ifArgs (rqBlock f)]⟩
  | s2 (fr o w) : fr.argsOpt = some none → NothingToDo f ⟨fr, o, w, [.ifArgs (rqBlock f)]⟩
  | s3 (fr o w) : NothingToDo f ⟨fr, o, w, []⟩

/-- All futures of the method have ended, and its buffer holds no request. -/
structure Finished {σ : Type} (C : Codec) (f : FnNode) (c : Cfg σ) : Prop where
  tasks : ∀ t ∈ c.tasks, t.addr = f.position → t.thread.code = []
  run : ∀ r, c.run = some r → r.addr = f.position → NothingToDo f r.thread
  server : ¬ Busy C (c.mem f.position)

section
variable {σ : Type} {C : Codec} {lib : BufLib} {U : User σ} {f : FnNode} {regs : List (Nat × Handler)}

theorem NothingToDo.step {t : Thread} {m : Bufs} {u : σ} {o : Out σ} (hb : ¬ Busy C m) (h : NothingToDo f t) (hs : step C lib U m u t = .ok o) :
    NothingToDo f o.thread ∧ o.spawned = none ∧ o.bufs = m := by
  cases h with
  | s0 fr ou w =>
    simp only [Rust.step, rqBody, bind, Except.bind, evalLetArgs, Bufs.get] at hs
    cases hst : readStatus C m.server with
    | error e => simp [hst] at hs
    | ok p =>
      obtain ⟨n, r⟩ := p
      have hn : n ≠ Status.val .xFF := by
        rintro rfl
        exact hb ⟨r, hst⟩
      simp only [hst, if_neg hn, Except.ok.injEq] at hs
      subst hs
      exact ⟨.s1 _ _ _ rfl, rfl, rfl⟩
  | s1 fr ou w h1 =>
    simp only [Rust.step, Except.ok.injEq] at hs
    subst hs
    exact ⟨.s2 _ _ _ h1, rfl, rfl⟩
  | s2 fr ou w h1 =>
    simp only [Rust.step, h1, Except.ok.injEq] at hs
    subst hs
    exact ⟨.s3 _ _ _, rfl, rfl⟩
  | s3 => simp [Rust.step] at hs

theorem finished_act (hr : f.isRead = false) (hreg : regs.lookup f.position = some (genHandler f)) {a : Act} (hq : ∀ bs, a ≠ .request f.position bs)
    (hcl : ∀ bs, a ≠ .clear f.position bs) {c c' : Cfg σ} (I : Finished C f c) (h : act C lib U regs c a = some c') :
    Finished C f c' ∧ (c'.mem f.position).client = (c.mem f.position).client := by
  obtain ⟨hT, hR, hB⟩ := I
  cases a with
  | poll b =>
    simp only [act] at h
    split at h
    · rename_i hrun hl
      simp only [Option.some.injEq] at h
      subst h
      refine ⟨⟨hT, ?_, hB⟩, rfl⟩
      rintro r hr' e
      simp only [Option.some.injEq] at hr'
      subst hr'
      simp only at e
      subst e
      rw [hreg] at hl
      simp only [Option.some.injEq] at hl
      subst hl
      simp only [Handler.start, genHandler_body hr]
      exact .s0 _ _ _
    · simp at h
  | stepH =>
    simp only [act] at h
    split at h
    · rename_i r hrun
      split at h
      · rename_i o ho
        simp only [Option.some.injEq] at h
        subst h
        by_cases hra : r.addr = f.position
        · obtain ⟨h1, h2, h3⟩ := (hR r hrun hra).step (by rw [hra]; exact hB) ho
          refine ⟨⟨by simpa [h2] using hT, ?_, ?_⟩, ?_⟩
          · rintro r' hr' -
            simp only [Option.some.injEq] at hr'
            subst hr'
            exact h1
          · simpa only [hra, setMem_self, h3] using hB
          · simp only [hra, setMem_self, h3]
        · refine ⟨⟨?_, ?_, ?_⟩, ?_⟩
          · intro t ht e
            rcases List.mem_append.1 ht with ht | ht
            · exact hT t ht e
            · obtain ⟨y, -, rfl⟩ := List.mem_map.1 ht
              exact absurd e hra
          · rintro r' hr' e
            simp only [Option.some.injEq] at hr'
            subst hr'
            exact absurd e hra
          · simpa only [setMem_ne _ _ (Ne.symm hra)] using hB
          · simp only [setMem_ne _ _ (Ne.symm hra)]
      · simp at h
    · simp at h
  | endH =>
    simp only [act] at h
    split at h
    · split at h
      · simp only [Option.some.injEq] at h
        subst h
        exact ⟨⟨hT, by simp, hB⟩, rfl⟩
      · simp at h
    · simp at h
  | stepT i =>
    simp only [act] at h
    split at h
    · rename_i t ht
      split at h
      · simp at h
      · split at h
        · rename_i o ho
          simp only [Option.some.injEq] at h
          subst h
          have hta : t.addr ≠ f.position := by
            intro e
            have := hT t (List.mem_of_getElem? ht) e
            simp [Rust.step, this] at ho
          refine ⟨⟨?_, hR, ?_⟩, ?_⟩
          · intro x hx e
            rcases List.mem_append.1 hx with hx | hx
            · rcases List.mem_or_eq_of_mem_set hx with hx | rfl
              · exact hT x hx e
              · exact absurd e hta
            · obtain ⟨y, -, rfl⟩ := List.mem_map.1 hx
              exact absurd e hta
          · simpa only [setMem_ne _ _ (Ne.symm hta)] using hB
          · simp only [setMem_ne _ _ (Ne.symm hta)]
        · simp at h
    · simp at h
  | resume i r =>
    simp only [act] at h
    split at h
    · rename_i t ht
      split at h
      · simp only [Option.some.injEq] at h
        subst h
        refine ⟨⟨?_, hR, hB⟩, rfl⟩
        intro x hx e
        rcases List.mem_or_eq_of_mem_set hx with hx | rfl
        · exact hT x hx e
        · exact hT t (List.mem_of_getElem? ht) e
      · simp at h
    · simp at h
  | request b bs =>
    simp only [act, Option.some.injEq] at h
    subst h
    have hb : b ≠ f.position := fun e => hq bs (by rw [e])
    exact ⟨⟨hT, hR, by simpa only [setMem_ne _ _ (Ne.symm hb)] using hB⟩, by simp only [setMem_ne _ _ (Ne.symm hb)]⟩
  | clear b bs =>
    simp only [act, Option.some.injEq] at h
    subst h
    have hb : b ≠ f.position := fun e => hcl bs (by rw [e])
    exact ⟨⟨hT, hR, by simpa only [setMem_ne _ _ (Ne.symm hb)] using hB⟩, by simp only [setMem_ne _ _ (Ne.symm hb)]⟩

end

/-! ### The client -/

section
open Rpc
open Dart (taskOf genClient ClientState)
open DartGen (varMethodCompleters)
variable {σ : Type} {x : Ext} {rr : Rust.Runtime} {rt : Dart.Runtime} {hd : Int} {S : List ASTNode} {f : FnNode} {lib : BufLib} {U : User σ}
  {rot : Int → Int} {k : Nat}

/-- The futures have different numbers. -/
structure CallNumbers (s : Sys σ) : Prop where
  bound : ∀ c ∈ s.calls, c.2.2 < s.client.created
  nodup : (s.calls.map (·.2.2)).Nodup

theorem callNumbers_acts {C : Codec} {regs : List (Nat × Handler)} (ns sc : String) {as : List SysAct} {s s' : Sys σ}
    (ht : s.client.tasks = (methodsOf S).flatMap (taskOf x)) (B : CallNumbers s)
    (hs : sysActs C lib U regs rt (Dart.genProg x S) k hd rot (genClient x ns sc S) s as = some s') : CallNumbers s' := by
  induction as generalizing s with
  | nil =>
    simp only [sysActs, Option.some.injEq] at hs
    exact hs ▸ B
  | cons a as ih =>
    simp only [sysActs] at hs
    split at hs
    case h_2 => simp at hs
    case h_1 s1 hs1 =>
    cases a with
    | server a =>
      simp only [sysAct] at hs1
      split at hs1
      · simp only [Option.some.injEq] at hs1
        subst hs1
        refine ih ?_ ?_ hs
        · exact ht
        · exact ⟨B.bound, B.nodup⟩
      · simp at hs1
    | call name ds =>
      simp only [sysAct] at hs1
      split at hs1
      case h_2 => simp at hs1
      case h_1 n w hw =>
      obtain ⟨g, hg, gr, ga, rfl, rfl, bs, hbs, rfl⟩ := Dart.call_inv ns sc (fun _ _ => ⟨_, rfl⟩) hw
      simp only [Option.some.injEq] at hs1
      subst hs1
      refine ih ?_ ⟨?_, ?_⟩ hs
      · exact ht
      · intro c hc
        simp only [List.mem_append, List.mem_singleton] at hc
        simp only [ClientState.afterCall]
        rcases hc with hc | rfl
        · have := B.bound c hc
          omega
        · simp
      · simp only [List.map_append, List.map_cons, List.map_nil]
        rw [List.nodup_append]
        refine ⟨B.nodup, by simp, ?_⟩
        intro a ha b hb e
        obtain ⟨c, hc, rfl⟩ := List.mem_map.1 ha
        simp only [List.mem_singleton] at hb
        have := B.bound c hc
        omega
    | read v =>
      obtain ⟨c, rfl, ⟨evs, rfl⟩ | ⟨g, _, _, _, i, n, dv, _, _, rfl⟩⟩ := read_effect ns sc ht hs1
      · refine ih ?_ ?_ hs
        · exact ht
        · exact ⟨B.bound, B.nodup⟩
      · refine ih ?_ ?_ hs
        · exact ht
        · exact ⟨B.bound, B.nodup⟩

/-- The call `n` is pending under its id only. -/
structure Waiting (x : Ext) (S : List ASTNode) (f : FnNode) (n : Nat) (i0 : Int) (s : Sys σ) : Prop where
  tasks : s.client.tasks = (methodsOf S).flatMap (taskOf x)
  created : n < s.client.created
  undone : n ∉ s.client.done.map (·.1)
  own : ∀ w i, s.client.pending w i = some n → w = varMethodCompleters x f ∧ i = i0

/-- The client buffer holds an answer with the method id `i`. -/
def HoldsAnswer (rt : Dart.Runtime) (hd : Int) (f : FnNode) (i : Int) (mem : Nat → Bufs) : Prop :=
  ∃ r r', rt.readP "Int8" (mem f.position).client = some (.int hd, r) ∧ rt.readP "Int64" r = some (.int i, r')

theorem waiting_acts (h : SystemOk x rr rt hd S) (hf : f ∈ methodsOf S) (hr : f.isRead = false) (ha : f.isAsync = true)
    {C : Codec} {regs : List (Nat × Handler)} (hreg : regs.lookup f.position = some (genHandler f)) (ns sc : String)
    {n : Nat} {i0 : Int} {zs : List SysAct} (hz : NoCallsOf x f zs) (hcl : ∀ bs, SysAct.server (.clear f.position bs) ∉ zs)
    {s s' : Sys σ} (W : Waiting x S f n i0 s) (I : Finished C f s.server) (hbuf : ¬ HoldsAnswer rt hd f i0 s.server.mem)
    (hs : sysActs C lib U regs rt (Dart.genProg x S) k hd rot (genClient x ns sc S) s zs = some s') :
    n ∉ s'.client.done.map (·.1) := by
  induction zs generalizing s with
  | nil =>
    simp only [sysActs, Option.some.injEq] at hs
    exact hs ▸ W.undone
  | cons a as ih =>
    have hz' : NoCallsOf x f as := fun z hz'' => hz z (by simp [hz''])
    have hcl' : ∀ bs, SysAct.server (.clear f.position bs) ∉ as := fun bs hb => hcl bs (by simp [hb])
    obtain ⟨hc1, hc2⟩ := hz a (by simp)
    simp only [sysActs] at hs
    split at hs
    case h_2 => simp at hs
    case h_1 s1 hs1 =>
    have server : ∀ {b : Act} {c : Cfg σ}, (∀ bs, b ≠ .request f.position bs) → (∀ bs, b ≠ .clear f.position bs) →
        act C lib U regs s.server b = some c → Finished C f c ∧ ¬ HoldsAnswer rt hd f i0 c.mem := by
      intro b c h1 h2 hc
      obtain ⟨I', e⟩ := finished_act hr hreg h1 h2 I hc
      refine ⟨I', ?_⟩
      unfold HoldsAnswer
      rw [e]
      exact hbuf
    cases a with
    | server b =>
      simp only [sysAct] at hs1
      split at hs1
      · rename_i c hc
        simp only [Option.some.injEq] at hs1
        subst hs1
        obtain ⟨I', hb'⟩ := server (fun bs e => hc2 bs (by rw [e])) (fun bs e => hcl bs (by simp [e])) hc
        exact ih hz' hcl' (s := { s with server := c }) ⟨W.tasks, W.created, W.undone, W.own⟩ I' hb' hs
      · simp at hs1
    | call name ds =>
      simp only [sysAct] at hs1
      split at hs1
      case h_2 => simp at hs1
      case h_1 m w hw =>
      obtain ⟨g, hg, gr, ga, rfl, rfl, bs, hbs, rfl⟩ := Dart.call_inv ns sc (fun _ _ => ⟨_, rfl⟩) hw
      simp only [Option.some.injEq] at hs1
      subst hs1
      have hne : g.position ≠ f.position := by
        intro e
        obtain rfl := position_inj h.server.accepted.wf hg hf e
        exact hc1 ds rfl
      obtain ⟨I', hb'⟩ := server (b := .request g.position bs) (by simp [hne]) (by simp) rfl
      refine ih hz' hcl' ?_ ?_ ?_ hs
      rotate_left
      · exact I'
      · exact hb'
      refine ⟨W.tasks, ?_, W.undone, ?_⟩
      · have := W.created
        simp only [ClientState.afterCall]
        omega
      · intro w i hp
        simp only [ClientState.afterCall] at hp
        split at hp
        · simp only [Option.some.injEq] at hp
          have := W.created
          omega
        · exact W.own w i hp
    | read v =>
      obtain ⟨c, rfl, ⟨evs, rfl⟩ | ⟨g, hg, gr, ga, i, m, dv, ⟨r1, r2, e1, e2⟩, hp, rfl⟩⟩ := read_effect ns sc W.tasks hs1
      · exact ih hz' hcl' (s := { s with client := { s.client with events := evs } }) ⟨W.tasks, W.created, W.undone, W.own⟩ I hbuf hs
      · have hne : m ≠ n := by
          rintro rfl
          obtain ⟨e3, e4⟩ := W.own _ _ hp
          obtain rfl := Dart.completers_inj h.client hg hf gr ga hr ha e3
          subst e4
          exact hbuf ⟨r1, r2, e1, e2⟩
        refine ih hz' hcl' (s := { s with client := { s.client with done := s.client.done ++ [(m, dv)] }.remove (varMethodCompleters x g) i })
          ⟨W.tasks, W.created, ?_, ?_⟩ I hbuf hs
        · simp only [ClientState.remove, List.map_append, List.map_cons, List.map_nil, List.mem_append, List.mem_singleton, not_or]
          exact ⟨W.undone, fun e => hne e.symm⟩
        · intro w' i' hp'
          simp only [ClientState.remove] at hp'
          split at hp'
          · simp at hp'
          · exact W.own _ _ hp'

/-- **C35 does not hold of any emitted client.** For every schema, every asynchronous method `f` that does not
read, and after every history: suppose that the server has nothing left to do for `f` (no handler is running,
all futures of `f` have ended, the server buffer holds no request), and that the call of `f` with number `j`
has not been completed, but that the client buffer does not hold an answer with its method id; for example
because the answer to another call has replaced it.  Then that call is never completed: whatever happens
afterwards, as long as `f` is not called again and nobody else writes to its buffers. -/
theorem C35_overwritten (x : Ext) (rr : Rust.Runtime) (rt : Dart.Runtime) (hd : Int) (S : List ASTNode)
    (h : SystemOk x rr rt hd S) (hM : methodsOf S ≠ [])
    (outR outD : String) (hoR : RustGen.rpc S = .ok outR) (hoD : DartGen.rpcMethods x S = .ok outD) :
    ∃ P R Q C, Rust.Emits S P ∧ Rust.EmitsRpc S R ∧ Dart.Emits x S Q ∧ Dart.EmitsRpc x S C ∧
      ∀ f ∈ methodsOf S, f.isRead = false → f.isAsync = true →
      ∀ (σ : Type) (lib : BufLib) (U : User σ) (rotate : Int → Int) (mem : Nat → Bufs) (u : σ) (xs : List SysAct) (k : Nat) (s0 s : Sys σ),
        start lib rt Q k hd rotate C mem u = some s0 →
        sysActs (codecAt rr (P.withArgs R) k) lib U R.handlers rt Q k hd rotate C s0 xs = some s →
        NoMessage (rr.readP "u8") (s.server.mem f.position).server → s.server.run.isNone = true →
        (∀ t ∈ s.server.tasks, t.addr = f.position → t.thread.code = []) →
        ∀ j ds n, (s.calls.filter (fun c => c.1 = x.camel f.id))[j]? = some (x.camel f.id, ds, n) → n ∉ s.client.done.map (·.1) →
          ¬ HoldsAnswer rt hd f (idAt rotate j) s.server.mem →
          ∀ zs, NoCallsOf x f zs → (∀ bs, SysAct.server (.clear f.position bs) ∉ zs) →
          ∀ s', sysActs (codecAt rr (P.withArgs R) k) lib U R.handlers rt Q k hd rotate C s zs = some s' → n ∉ s'.client.done.map (·.1) := by
  have hA := h.server.accepted
  obtain ⟨scope, hR⟩ := Rust.emitsRpc_of hA.wf hoR hM
  obtain ⟨ns, sc, hC, -⟩ := Dart.emitsRpc_of hA.wf hM hoD
  refine ⟨_, _, _, _, emits_genProg S hA, hR, Dart.emits_genProg hA, hC, ?_⟩
  intro f hf hr ha σ lib U rotate mem u xs k s0 s h0 hs hm hrun htasks j ds n hj hn hbuf zs hz hcl s' hs'
  have B0 : Booked x S f rotate s0 ∧ CallNumbers s0 := by
    simp only [start, Dart.create_eq h.client, Option.some.injEq] at h0
    subst h0
    exact ⟨⟨rfl, rfl, by simp [ClientState.fresh], by simp [ClientState.fresh]⟩, by simp, by simp⟩
  have B := booked_acts h.client hf hr ha ns sc B0.1 hs
  have N := callNumbers_acts ns sc B0.1.tasks B0.2 hs
  have hmem : (x.camel f.id, ds, n) ∈ s.calls := (List.mem_filter.1 (List.mem_of_getElem? hj)).1
  have uniq : ∀ c ∈ s.calls, c.2.2 = n → c = (x.camel f.id, ds, n) := by
    intro c hc e
    obtain ⟨a, ha⟩ := List.getElem?_of_mem hc
    obtain ⟨b, hb⟩ := List.getElem?_of_mem hmem
    have h1 : (s.calls.map (·.2.2))[a]? = some n := by simp [ha, e]
    have h2 : (s.calls.map (·.2.2))[b]? = some n := by simp [hb]
    have := (List.getElem?_inj (List.getElem?_eq_some_iff.1 h1).1 N.nodup).1 (h1.trans h2.symm)
    subst this
    rw [ha] at hb
    exact Option.some.inj hb
  have W : Waiting x S f n (idAt rotate j) s := by
    refine ⟨B.tasks, N.bound _ hmem, hn, fun w i hp => ?_⟩
    obtain ⟨g, hg, gr, ga, rfl, ds', hc⟩ := B.owner _ _ _ hp
    have e := uniq _ hc rfl
    simp only [Prod.mk.injEq] at e
    obtain rfl := Dart.camel_inj h.client hg hf gr hr e.1
    refine ⟨rfl, ?_⟩
    obtain ⟨j', ds2, hj', hi⟩ := B.pend _ _ hp
    have hnd : ((callsOf (x.camel g.id) s).map (·.2.2)).Nodup := by
      refine List.Nodup.sublist (List.Sublist.map _ ?_) N.nodup
      exact List.filter_sublist
    have h1 : ((callsOf (x.camel g.id) s).map (·.2.2))[j']? = some n := by simp [hj']
    have h2 : ((callsOf (x.camel g.id) s).map (·.2.2))[j]? = some n := by
      rw [List.getElem?_map, callsOf, hj]
      rfl
    have := (List.getElem?_inj (List.getElem?_eq_some_iff.1 h1).1 hnd).1 (h1.trans h2.symm)
    rw [hi, this]
  have I : Finished (codecAt rr ((genProg S).withArgs (genRpc scope S)) k) f s.server := by
    refine ⟨htasks, fun r hr' => ?_, not_busy hm⟩
    rw [hr'] at hrun
    simp at hrun
  exact waiting_acts h hf hr ha (handlers_lookup scope hA.wf h.server.rpcNamed.methods hf) ns sc hz hcl W I hbuf hs'

/-- After `twoCalls ++ answersAtOnce` in the example, the hypotheses of `C35_overwritten` are met by the first
call of `slow`: no handler is running, all futures have ended, the server buffer starts with 0, the call has
not been completed, and the client buffer holds the answer with the id 1, not 0. -/
example : (runExample (twoCalls ++ answersAtOnce)).map (fun s => (s.server.run.isNone, s.server.tasks.all (fun t => t.thread.code.isEmpty),
      s.server.tasks.length)) = some (true, true, 2) ∧
    (runExample (twoCalls ++ answersAtOnce)).map (fun s => (((s.server.mem 1).server.take 1), s.calls.map (fun c => (c.1, c.2.2)),
      s.client.done.map (·.1))) = some ([0], [("slow", 0), ("slow", 1)], []) ∧
    (∃ s, runExample (twoCalls ++ answersAtOnce) = some s ∧ ¬ HoldsAnswer LE.dart (-1) slow (idAt (· + 1) 0) s.server.mem ∧
      HoldsAnswer LE.dart (-1) slow (idAt (· + 1) 1) s.server.mem) := by
  refine ⟨by decide +kernel, by decide +kernel, ?_⟩
  have hrun : (runExample (twoCalls ++ answersAtOnce)).map (fun s => (s.server.mem 1).client) = some (255 :: (LE.le 8 1 ++ LE.le 8 22)) := by
    decide +kernel
  rw [Option.map_eq_some_iff] at hrun
  obtain ⟨s, hs, e⟩ := hrun
  have e1 : LE.dart.readP "Int8" (s.server.mem 1).client = some (.int (-1), LE.le 8 1 ++ LE.le 8 22) := by rw [e]; rfl
  have e2 : LE.dart.readP "Int64" (LE.le 8 1 ++ LE.le 8 22) = some (.int 1, LE.le 8 22) := by rfl
  refine ⟨s, hs, ?_, _, _, e1, e2⟩
  rintro ⟨r, r', h1, h2⟩
  rw [show slow.position = 1 from rfl, e1] at h1
  simp only [Option.some.injEq, Prod.mk.injEq, true_and] at h1
  rw [← h1, e2] at h2
  simp [idAt] at h2

end

end TPB.Props
