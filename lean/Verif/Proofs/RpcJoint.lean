/-
The invariant of the emitted client and the emitted server running together, for an asynchronous method.
-/
import Verif.Props.RpcClient
import Verif.Proofs.RustActs
namespace TPB.Rpc
open Spec
open Rust (RetIs Buf Bufs BufLib User setMem codecAt act acts Act Ev Cfg Status Handler Codec Ret)
open Dart (ClientState taskOf genClient answerReader ReadsResult)
open DartGen (varMethodCompleters varLastMethodId varReadTask)
open Props (SystemOk ReadableAt)

variable {σ : Type}

/-- The calls of a method of the client, in order. -/
def callsOf (name : String) (s : Sys σ) : List (String × List Val × Nat) := s.calls.filter (fun c => c.1 = name)

theorem callsOf_mem {name : String} {s : Sys σ} {ds : List Val} {n : Nat} : (name, ds, n) ∈ callsOf name s ↔ (name, ds, n) ∈ s.calls := by
  simp [callsOf]

theorem CallResult.mono {x : Ext} {W : Wire} {S : List ASTNode} {f : FnNode} {l l' : List Ev} {ds : List Val} {dv : Option Val}
    (hl : ∀ e ∈ l, e ∈ l') (h : CallResult x W S f l ds dv) : CallResult x W S f l' ds dv := by
  obtain ⟨vs, r, v, h1, h2, h3⟩ := h
  exact ⟨vs, r, v, h1, hl _ h2, h3⟩

section
variable {C : Codec} {lib : BufLib} {U : User σ} {regs : List (Nat × Handler)}

theorem acts_snoc {c c1 c2 : Cfg σ} {ys : List Act} {a : Act} (h : acts C lib U regs c ys = some c1) (ha : act C lib U regs c1 a = some c2) :
    acts C lib U regs c (ys ++ [a]) = some c2 := by
  induction ys generalizing c with
  | nil =>
    simp only [acts, Option.some.injEq] at h
    subst h
    simp [acts, ha]
  | cons y ys ih =>
    simp only [acts, List.cons_append] at h ⊢
    split at h
    · exact ih h
    · simp at h

/-- Events stay in the log, and requests in the log have been made. -/
theorem act_log {c c' : Cfg σ} {a : Act} (h : act C lib U regs c a = some c') :
    (∀ e ∈ c.log, e ∈ c'.log) ∧ ∀ p bs, Ev.requested p bs ∈ c'.log → Ev.requested p bs ∈ c.log ∨ a = .request p bs := by
  cases a <;> simp only [act] at h <;> (repeat' split at h) <;>
    first
      | (simp at h; done)
      | (simp only [Option.some.injEq] at h
         subst h
         simp +contextual [eq_comm])

end

/-! ### The invariant -/

section
variable (x : Ext) (rr : Rust.Runtime) (rt : Dart.Runtime) (S : List ASTNode) (f : FnNode) (scope : String) (st : Status → Bytes)
variable (lib : BufLib) (U : User σ) (mem : Nat → Bufs) (u : σ) (rot : Int → Int) (xs : List SysAct) (N k : Nat)

structure Joint (s : Sys σ) : Prop where
  server : ∃ ys, acts (codecAt rr (Rust.genProg (Rust.argsSchema S)) k) lib U (Rust.genRpc scope S).handlers (Cfg.initial mem u) ys = some s.server ∧
    (∀ bs, Act.request f.position bs ∈ ys → ∃ q, ReadableAt rr S f st N q bs) ∧
    (∀ bs, Act.clear f.position bs ∈ ys → SysAct.server (.clear f.position bs) ∈ xs) ∧
    (∀ i r, Act.resume i r ∈ ys → SysAct.server (.resume i r) ∈ xs)
  tasks : s.client.tasks = (methodsOf S).flatMap (taskOf x)
  last : s.client.last (varLastMethodId x f) = idAt rot (callsOf (x.camel f.id) s).length
  asked : ∀ bs, Ev.requested f.position bs ∈ s.server.log → ∃ j ds n vs, (callsOf (x.camel f.id) s)[j]? = some (x.camel f.id, ds, n) ∧
    Request rr.wire S f (some (idAt rot j)) vs bs ∧ Exchanged x rr.wire S (f.args.map (·.typeId)) vs ds
  pend : ∀ i n, s.client.pending (varMethodCompleters x f) i = some n →
    ∃ j ds, (callsOf (x.camel f.id) s)[j]? = some (x.camel f.id, ds, n) ∧ i = idAt rot j
  live : ∀ j ds n, (callsOf (x.camel f.id) s)[j]? = some (x.camel f.id, ds, n) →
    s.client.pending (varMethodCompleters x f) (idAt rot j) = some n ∨ n ∈ s.client.done.map (·.1)
  futures : (s.calls.map (·.2.2)).Nodup
  bound : ∀ c ∈ s.calls, c.2.2 < s.client.created
  owner : ∀ w i n, s.client.pending w i = some n → ∃ g ∈ methodsOf S, g.isRead = false ∧ g.isAsync = true ∧
    w = varMethodCompleters x g ∧ ∃ ds, (x.camel g.id, ds, n) ∈ s.calls
  unfinished : ∀ w i n, s.client.pending w i = some n → n ∉ s.client.done.map (·.1)
  uniq : ∀ w i w' i' n, s.client.pending w i = some n → s.client.pending w' i' = some n → w = w' ∧ i = i'
  doneBound : ∀ p ∈ s.client.done, p.1 < s.client.created
  doneNodup : (s.client.done.map (·.1)).Nodup
  good : ∀ n dv, (n, dv) ∈ s.client.done → ∀ ds, (x.camel f.id, ds, n) ∈ s.calls → CallResult x rr.wire S f s.server.log ds dv

end

section
variable {x : Ext} {rr : Rust.Runtime} {rt : Dart.Runtime} {hd : Int} {S : List ASTNode} {f : FnNode} {scope : String} {st : Status → Bytes}
variable {lib : BufLib} {U : User σ} {mem : Nat → Bufs} {u : σ} {rot : Int → Int} {xs : List SysAct} {N k : Nat}

/-- A call in the state is determined by its future. -/
theorem Joint.call_unique {s : Sys σ} (J : Joint x rr S f scope st lib U mem u rot xs N k s) {a b : String} {ds ds' : List Val} {n : Nat}
    (h1 : (a, ds, n) ∈ s.calls) (h2 : (b, ds', n) ∈ s.calls) : a = b ∧ ds = ds' := by
  have := J.futures
  clear J
  revert h1 h2 this
  induction s.calls with
  | nil => simp
  | cons c cs ih =>
    intro h1 h2 this
    simp only [List.map_cons, List.nodup_cons, List.mem_map, not_exists, not_and] at this
    rcases List.mem_cons.1 h1 with e1 | h1 <;> rcases List.mem_cons.1 h2 with e2 | h2
    · rw [← e1] at e2
      simp at e2
      exact ⟨e2.1.symm, e2.2.symm⟩
    · exact absurd (by rw [← e1]) (this.1 _ h2)
    · exact absurd (by rw [← e2]) (this.1 _ h1)
    · exact ih h1 h2 this.2

/-- Methods of the same address are equal. -/
theorem position_inj {m : Nat} (hA : WFSchema m S) {f g : FnNode} (hf : f ∈ methodsOf S) (hg : g ∈ methodsOf S) (e : f.position = g.position) : f = g := by
  have := Rust.positions_nodup hA
  revert hf hg this
  induction methodsOf S with
  | nil => simp
  | cons a l ih =>
    intro hf hg h
    simp only [List.map_cons, List.nodup_cons, List.mem_map, not_exists, not_and] at h
    rcases List.mem_cons.1 hf with e1 | hf <;> rcases List.mem_cons.1 hg with e2 | hg
    · rw [e1, e2]
    · exact absurd (by rw [← e, e1]) (h.1 _ hg)
    · exact absurd (by rw [e, e2]) (h.1 _ hf)
    · exact ih hf hg h.2

/-- A request can be read in one way only. -/
theorem request_unique (hrt : rr.Lawful) (h : Props.RpcOk rr.wire S) (hf : f ∈ methodsOf S) (hr : f.isRead = false)
    {i i' : Option Int} {vs vs' : List Val} {bs : Bytes} (h1 : Request rr.wire S f i vs bs) (h2 : Request rr.wire S f i' vs' bs) :
    i = i' ∧ vs = vs' := by
  obtain ⟨s1, b1, hs1, e1, k1, N1, r1⟩ := Rust.request_reads hrt h.accepted.wf h.named h.distinct h.rpcNamed h.noExt hf hr h1
  obtain ⟨s2, b2, hs2, e2, k2, N2, r2⟩ := Rust.request_reads hrt h.accepted.wf h.named h.distinct h.rpcNamed h.noExt hf hr h2
  rw [hs1] at hs2
  obtain rfl := Option.some.inj hs2
  have : b1 = b2 := by rw [e1] at e2; exact List.append_cancel_left e2
  subst this
  have a1 := r1 (max N1 N2) (by omega) []
  have a2 := r2 (max N1 N2) (by omega) []
  rw [a1] at a2
  simp only [Except.ok.injEq, Prod.mk.injEq, and_true] at a2
  have := Rust.argsVal_inj (q := (i, vs)) (q' := (i', vs')) k1 k2 a2
  simpa using this

/-- What is known about the results that user functions yield: how the server writes them and the client
reads them. -/
def Results (x : Ext) (rr : Rust.Runtime) (rt : Dart.Runtime) (S : List ASTNode) (f : FnNode) (xs : List SysAct) (k : Nat) : Prop :=
  ∀ i r, SysAct.server (.resume i r) ∈ xs → ∀ v b, RetIs r v → ResultIs rr.wire S f v b → ∃ b dv, ResultIs rr.wire S f v b ∧
    Rust.ResultBytes (codecAt rr (Rust.genProg (Rust.argsSchema S)) k) f r b ∧ ExchangedResult x rr.wire S f v dv ∧
    ∀ rest, ReadsResult rt (Dart.genProg x S) k f dv (b ++ rest)

/-- An answer in the client buffer belongs to a call, and the client can read it. -/
theorem Joint.answer (h : SystemOk x rr rt hd S) (hf : f ∈ methodsOf S) (hr : f.isRead = false) (ha : f.isAsync = true)
    (hst : ∀ P k, (codecAt rr P k).StatusOk st) (hlib : lib.Lawful) (hk : N ≤ k)
    (hm : NoMessage (rr.readP "u8") (mem f.position).server) (hmc : NoMessage (rr.readP "u8") (mem f.position).client)
    (hcl : ∀ bs, SysAct.server (.clear f.position bs) ∈ xs → ∀ r, NoMessage (rr.readP "u8") (bs ++ r))
    (hres : Results x rr rt S f xs k) {s : Sys σ} (J : Joint x rr S f scope st lib U mem u rot xs N k s)
    (hT : Typed rr.wire S f s.server.log) {r0 : Bytes} (hr0 : rr.readP "u8" (s.server.mem f.position).client = some (.int 255, r0)) :
    ∃ j ds n dv r1 r2, (callsOf (x.camel f.id) s)[j]? = some (x.camel f.id, ds, n) ∧ CallResult x rr.wire S f s.server.log ds dv ∧
      rt.readP "Int8" (s.server.mem f.position).client = some (.int hd, r1) ∧ rt.readP "Int64" r1 = some (.int (idAt rot j), r2) ∧
      ReadsResult rt (Dart.genProg x S) k f dv r2 := by
  obtain ⟨ys, hc, hreq, hclr, hresume⟩ := J.server
  have notReady : ∀ bs, NoMessage (rr.readP "u8") bs → ¬ Rust.Ready (codecAt rr (Rust.genProg (Rust.argsSchema S)) k) bs := by
    rintro bs hbs ⟨b, hb⟩
    obtain ⟨n0, r0, hs0, hn0⟩ := Props.readStatus_noMessage (P := Rust.genProg (Rust.argsSchema S)) (k := k) hbs
    rw [hs0] at hb
    simp at hb
    exact hn0 hb.1
  have hI := Props.requests_inv h.rust h.server hf hr scope hst hlib U mem u True False (by simp) (fun _ bs hbs r => notReady _ (hcl bs (hclr bs hbs) r))
    (k := k) (N := N) hk hreq (notReady _ hm) (fun _ => notReady _ hmc) hc
  obtain ⟨i, vs, r, mb, rb, rest, ⟨req, hq1, hq2⟩, hfn, hmb, hrb, hcli⟩ :=
    hI.client trivial ha ⟨r0, by simp [Rust.readStatus, codecAt, hr0]⟩
  obtain ⟨j, ds, n, vs', hj, hq3, hex⟩ := J.asked req hq1
  obtain ⟨e1, e2⟩ := request_unique h.rust h.server hf hr hq2.1 hq3
  simp only [Option.some.injEq] at e1
  simp only at e2
  subst e1 e2
  obtain ⟨v, b, hv1, hv2⟩ := hT vs r hfn
  obtain ⟨jr, hjr⟩ : ∃ j, Act.resume j r ∈ ys := (Props.finished_resumed hc hfn).resolve_left (by simp [Cfg.initial])
  obtain ⟨b2, dv, hb1, hb2, hxd, hrd⟩ := hres jr r (hresume _ _ hjr) v b hv1 hv2
  have hbb : b2 = rb := by
    have := hb2
    unfold Rust.ResultBytes at this hrb
    cases ht : f.returnTypeId with
    | none => simp only [ht] at this hrb; rw [this, hrb]
    | some t =>
      simp only [ht] at this hrb
      obtain ⟨v1, rfl, h1⟩ := this
      obtain ⟨v2, h3, h2⟩ := hrb
      simp only [Ret.val.injEq] at h3
      subst h3
      cases hb : builtin? t <;> simp only [hb] at h1 h2 <;> rw [h1] at h2 <;> exact Option.some.inj h2
  subst hbb
  obtain ⟨sb, hs⟩ := Props.status_total h.rust.wire
  obtain ⟨-, hsr⟩ := Dart.status_bytes h.dart h.status hs
  have e := Props.st_eq (hst (Rust.genProg (Rust.argsSchema S)) k) hs
  obtain ⟨-, hir⟩ := Dart.id_bytes h.agree h.dart hmb
  refine ⟨j, ds, n, dv, mb ++ (b2 ++ rest), b2 ++ rest, hj, ⟨vs, r, v, hex, hfn, hv1, hxd⟩, ?_, hir _, hrd _⟩
  rw [hcli, e]
  exact hsr _

/-- What is known about the calls of `f`: how the client writes their requests. -/
def Calls (x : Ext) (rr : Rust.Runtime) (rt : Dart.Runtime) (hd : Int) (S : List ASTNode) (f : FnNode) (st : Status → Bytes) (rot : Int → Int)
    (xs : List SysAct) (N k T : Nat) : Prop :=
  ∀ ds, SysAct.call (x.camel f.id) ds ∈ xs → ∀ j, j < T → ∃ vs sb m b, Exchanged x rr.wire S (f.args.map (·.typeId)) vs ds ∧
    rr.wire.prim "u8" (.int 255) = some sb ∧ rr.wire.prim "i64" (.int (idAt rot j)) = some m ∧
    ReadableAt rr S f st N (some (idAt rot j), vs) (sb ++ m ++ b) ∧
    ∀ l, Dart.Visible x l f.args →
      Dart.evalWStmts rt (Dart.genProg x S) k hd (((Dart.genParams x f).map (·.2)).zip ds) l (Dart.genArgWrites x f) = .ok b

theorem callsOf_snoc {name : String} {sv : Cfg σ} {cl cl' : ClientState} {sv' : Cfg σ} {cs : List (String × List Val × Nat)} {c : String × List Val × Nat} :
    callsOf name ⟨sv', cl', cs ++ [c]⟩ = callsOf name ⟨sv, cl, cs⟩ ++ if c.1 = name then [c] else [] := by
  simp only [callsOf, List.filter_append]
  split <;> simp [*]

theorem joint_call (h : SystemOk x rr rt hd S) (hf : f ∈ methodsOf S) (hr : f.isRead = false) (ha : f.isAsync = true)
    {T : Nat} (hcalls : Calls x rr rt hd S f st rot xs N k T) (hids : FreshIds rot T) (ns sc : String)
    {s s' : Sys σ} (J : Joint x rr S f scope st lib U mem u rot xs N k s) {name : String} {ds : List Val}
    (hin : SysAct.call name ds ∈ xs) (hT : (callsOf (x.camel f.id) s).length + (if name = x.camel f.id then 1 else 0) ≤ T)
    (hs : sysAct (codecAt rr (Rust.genProg (Rust.argsSchema S)) k) lib U (Rust.genRpc scope S).handlers rt (Dart.genProg x S) k hd rot
      (genClient x ns sc S) s (.call name ds) = some s') :
    Joint x rr S f scope st lib U mem u rot xs N k s' := by
  simp only [sysAct] at hs
  split at hs
  case h_2 => simp at hs
  case h_1 n w hw =>
  obtain ⟨g, hg, gr, ga, rfl, rfl, bs, hbs, rfl⟩ := Dart.call_inv ns sc (fun _ _ => ⟨_, rfl⟩) hw
  simp only [Option.some.injEq, List.nil_append, sentEvents] at hs
  subst hs
  obtain ⟨sv, cl, cs⟩ := s
  simp only at hbs
  have hfg : x.camel g.id = x.camel f.id ↔ g = f := ⟨fun e => Dart.camel_inj h.client hg hf gr hr e, fun e => by rw [e]⟩
  have hnew : cl.created ∉ cs.map (·.2.2) := by
    intro hm
    obtain ⟨c, h1, h2⟩ := List.mem_map.1 hm
    have := J.bound c h1
    simp only at this h2
    omega
  have hnd : cl.created ∉ cl.done.map (·.1) := by
    intro hm
    obtain ⟨c, h1, h2⟩ := List.mem_map.1 hm
    have := J.doneBound c h1
    simp only at this h2
    omega
  have hcid : g = f → cl.last (varLastMethodId x f) = idAt rot (callsOf (x.camel f.id) ⟨sv, cl, cs⟩).length := fun _ => J.last
  -- the request of a call of `f`
  have hreq : g = f → ∃ vs, Exchanged x rr.wire S (f.args.map (·.typeId)) vs ds ∧
      ReadableAt rr S f st N (some (idAt rot (callsOf (x.camel f.id) ⟨sv, cl, cs⟩).length), vs) bs := by
    rintro rfl
    simp only [if_true] at hT
    obtain ⟨vs, sb, m, b, h1, h2, h3, h4, h5⟩ := hcalls ds hin (callsOf (x.camel g.id) ⟨sv, cl, cs⟩).length (by omega)
    refine ⟨vs, h1, ?_⟩
    obtain ⟨w1, -⟩ := Dart.status_bytes h.dart h.status h2
    obtain ⟨w2, -⟩ := Dart.id_bytes h.agree h.dart h3
    have hl := J.last
    simp only at hl
    have hv : ∀ a ∈ g.args, x.camel a.id ≠ "methodId" := fun a h' e => (h.client.locals g hg a h').2 (by simp [e, ga])
    simp only [Dart.evalWStmts, Dart.evalWStmt, Dart.orElse, w1, hl, w2, h5 _ (.inr hv), bind, Except.bind, Except.ok.injEq] at hbs
    rw [← hbs]
    simpa using h4
  have hlog : ∀ e ∈ sv.log, e ∈ sv.log ++ [Ev.requested g.position bs] := fun e he => by simp [he]
  refine ⟨?_, J.tasks, ?_, ?_, ?_, ?_, ?_, ?_, ?_, ?_, ?_, ?_, J.doneNodup, ?_⟩
  · obtain ⟨ys, h1, h2, h3, h4⟩ := J.server
    refine ⟨ys ++ [.request g.position bs], acts_snoc h1 rfl, fun bs' hb => ?_, fun bs' hb => ?_, fun i r hb => ?_⟩
    · simp only [List.mem_append, List.mem_singleton, Act.request.injEq] at hb
      rcases hb with hb | ⟨e, rfl⟩
      · exact h2 _ hb
      · obtain ⟨vs, -, hq⟩ := hreq (position_inj h.server.accepted.wf hg hf e.symm)
        exact ⟨_, hq⟩
    · simp only [List.mem_append, List.mem_singleton, reduceCtorEq, or_false] at hb
      exact h3 _ hb
    · simp only [List.mem_append, List.mem_singleton, reduceCtorEq, or_false] at hb
      exact h4 _ _ hb
  · have hl := J.last
    simp only at hl
    rw [callsOf_snoc (sv := sv) (cl := cl)]
    simp only [ClientState.afterCall]
    by_cases e : g = f
    · subst e
      simp [hl, idAt]
    · have e' : x.camel g.id ≠ x.camel f.id := fun h => e (hfg.1 h)
      have e2 : varLastMethodId x f ≠ varLastMethodId x g := fun h' => e (Dart.last_inj h.client hg hf gr ga hr ha h'.symm)
      simp [e', e2, hl]
  · intro bs' hb
    rw [callsOf_snoc (sv := sv) (cl := cl)]
    simp only [List.mem_append, List.mem_singleton, Ev.requested.injEq] at hb
    rcases hb with hb | ⟨e, rfl⟩
    · obtain ⟨j, ds', n, vs, h1, h2⟩ := J.asked _ hb
      refine ⟨j, ds', n, vs, ?_, h2⟩
      rw [List.getElem?_append_left (by have := (List.getElem?_eq_some_iff.1 h1).1; exact this)]
      exact h1
    · obtain rfl := position_inj h.server.accepted.wf hg hf e.symm
      obtain ⟨vs, h1, h2⟩ := hreq rfl
      exact ⟨(callsOf (x.camel g.id) ⟨sv, cl, cs⟩).length, ds, cl.created, vs, by simp, h2.1, h1⟩
  · intro i n hp
    rw [callsOf_snoc (sv := sv) (cl := cl)]
    simp only [ClientState.afterCall] at hp
    split at hp
    · rename_i e
      obtain ⟨e1, e2⟩ := e
      have : g = f := Dart.completers_inj h.client hg hf gr ga hr ha e1.symm
      subst this
      simp only [Option.some.injEq] at hp
      subst hp
      exact ⟨(callsOf (x.camel g.id) ⟨sv, cl, cs⟩).length, ds, by simp, by rw [e2, hcid rfl]⟩
    · obtain ⟨j, ds', h1, h2⟩ := J.pend i n hp
      refine ⟨j, ds', ?_, h2⟩
      rw [List.getElem?_append_left (by have := (List.getElem?_eq_some_iff.1 h1).1; exact this)]
      exact h1
  · intro j ds' n hj
    rw [callsOf_snoc (sv := sv) (cl := cl)] at hj
    simp only at hj
    simp only [ClientState.afterCall]
    by_cases hlt : j < (callsOf (x.camel f.id) ⟨sv, cl, cs⟩).length
    · rw [List.getElem?_append_left hlt] at hj
      have hne : ¬ (varMethodCompleters x f = varMethodCompleters x g ∧ idAt rot j = cl.last (varLastMethodId x g)) := by
        rintro ⟨e1, e2⟩
        have : g = f := Dart.completers_inj h.client hg hf gr ga hr ha e1.symm
        subst this
        rw [hcid rfl] at e2
        simp only [if_true] at hT
        have := hids.inj _ _ (by omega) (by omega) e2
        omega
      rw [if_neg hne]
      exact J.live j ds' n hj
    · rw [List.getElem?_append_right (by omega)] at hj
      split at hj
      · rename_i e
        have e := hfg.1 e
        subst e
        obtain ⟨e1, e2⟩ := List.getElem?_eq_some_iff.1 hj
        simp only [List.length_singleton] at e1
        have hj0 : j = (callsOf (x.camel g.id) ⟨sv, cl, cs⟩).length := by omega
        simp [hj0] at e2
        refine .inl ?_
        rw [hj0, hcid rfl, ← e2.2]
        simp
      · simp at hj
  · simp only [List.map_append, List.map_cons, List.map_nil]
    rw [List.nodup_append]
    exact ⟨J.futures, by simp, fun a h1 b h2 => by simp at h2; subst h2; exact fun e => hnew (e ▸ h1)⟩
  · intro c hc
    simp only [List.mem_append, List.mem_singleton] at hc
    simp only [ClientState.afterCall]
    rcases hc with hc | rfl
    · have := J.bound c hc; simp only at this; omega
    · simp
  · intro w i n hp
    simp only [ClientState.afterCall] at hp
    split at hp
    · rename_i e
      simp only [Option.some.injEq] at hp
      exact ⟨g, hg, gr, ga, e.1, ds, by simp [hp]⟩
    · obtain ⟨g', h1, h2, h3, h4, ds', h5⟩ := J.owner w i n hp
      exact ⟨g', h1, h2, h3, h4, ds', by simp only at h5; simp [h5]⟩
  · intro w i n hp
    simp only [ClientState.afterCall] at hp ⊢
    split at hp
    · simp only [Option.some.injEq] at hp
      subst hp
      exact hnd
    · exact J.unfinished w i n hp
  · have hfresh : ∀ w i, cl.pending w i ≠ some cl.created := by
      intro w i hp
      obtain ⟨_, _, _, _, _, ds', h5⟩ := J.owner w i _ hp
      exact hnew (List.mem_map.2 ⟨_, h5, rfl⟩)
    intro w i w' i' n h1 h2
    simp only [ClientState.afterCall] at h1 h2
    split at h1 <;> split at h2
    · rename_i e1 e2
      exact ⟨by rw [e1.1, e2.1], by rw [e1.2, e2.2]⟩
    · simp only [Option.some.injEq] at h1
      subst h1
      exact absurd h2 (hfresh _ _)
    · simp only [Option.some.injEq] at h2
      subst h2
      exact absurd h1 (hfresh _ _)
    · exact J.uniq _ _ _ _ _ h1 h2
  · intro p hp
    have := J.doneBound p hp
    simp only [ClientState.afterCall] at this ⊢
    omega
  · intro n dv hn ds' hc
    simp only [List.mem_append, List.mem_singleton, Prod.mk.injEq] at hc
    rcases hc with hc | ⟨_, _, rfl⟩
    · exact (J.good n dv hn ds' hc).mono hlog
    · exact absurd (List.mem_map.2 ⟨_, hn, rfl⟩) hnd

theorem joint_server {s s' : Sys σ} (J : Joint x rr S f scope st lib U mem u rot xs N k s) {a : Act} (hin : SysAct.server a ∈ xs ∨ a.IsStep)
    (hn : ∀ bs, a ≠ .request f.position bs) (ns sc : String)
    (hs : sysAct (codecAt rr (Rust.genProg (Rust.argsSchema S)) k) lib U (Rust.genRpc scope S).handlers rt (Dart.genProg x S) k hd rot
      (genClient x ns sc S) s (.server a) = some s') :
    Joint x rr S f scope st lib U mem u rot xs N k s' := by
  simp only [sysAct] at hs
  split at hs
  case h_2 => simp at hs
  case h_1 c hc =>
  simp only [Option.some.injEq] at hs
  subst hs
  obtain ⟨l1, l2⟩ := act_log hc
  refine ⟨?_, J.tasks, J.last, ?_, J.pend, J.live, J.futures, J.bound, J.owner, J.unfinished, J.uniq, J.doneBound, J.doneNodup, ?_⟩
  · obtain ⟨ys, h1, h2, h3, h4⟩ := J.server
    refine ⟨ys ++ [a], acts_snoc h1 hc, fun bs' hb => ?_, fun bs' hb => ?_, fun i r hb => ?_⟩
    · rcases List.mem_append.1 hb with hb | hb
      · exact h2 _ hb
      · exact absurd (List.mem_singleton.1 hb).symm (hn _)
    · rcases List.mem_append.1 hb with hb | hb
      · exact h3 _ hb
      · obtain rfl := List.mem_singleton.1 hb
        exact hin.resolve_right (fun h => h)
    · rcases List.mem_append.1 hb with hb | hb
      · exact h4 _ _ hb
      · obtain rfl := List.mem_singleton.1 hb
        exact hin.resolve_right (fun h => h)
  · intro bs hb
    rcases l2 _ _ hb with hb | hb
    · exact J.asked _ hb
    · exact absurd hb (hn _)
  · intro n dv hn ds' hc
    exact (J.good n dv hn ds' hc).mono l1

/-- Completing the pending call of a key. -/
theorem joint_complete (h : SystemOk x rr rt hd S) (hf : f ∈ methodsOf S) (hr : f.isRead = false) {s : Sys σ}
    (J : Joint x rr S f scope st lib U mem u rot xs N k s) {w : String} {i : Int} {n : Nat} {dv : Option Val}
    (hp : s.client.pending w i = some n) (hgood : w = varMethodCompleters x f → ∀ ds, (x.camel f.id, ds, n) ∈ s.calls → CallResult x rr.wire S f s.server.log ds dv) :
    Joint x rr S f scope st lib U mem u rot xs N k { s with client := { s.client with done := s.client.done ++ [(n, dv)] }.remove w i } := by
  obtain ⟨g, hg, gr, ga, hw, dsg, hcall⟩ := J.owner w i n hp
  have hnd := J.unfinished w i n hp
  have hrem : ∀ w' i' n', ({ s.client with done := s.client.done ++ [(n, dv)] }.remove w i).pending w' i' = some n' →
      s.client.pending w' i' = some n' ∧ n' ≠ n := by
    intro w' i' n' hp'
    simp only [ClientState.remove] at hp'
    split at hp'
    · simp at hp'
    · rename_i hne
      refine ⟨hp', fun e => hne ?_⟩
      subst e
      exact J.uniq _ _ _ _ _ hp' hp
  refine ⟨J.server, J.tasks, J.last, J.asked, ?_, ?_, J.futures, J.bound, ?_, ?_, ?_, ?_, ?_, ?_⟩
  · exact fun i' n' hp' => J.pend i' n' (hrem _ _ _ hp').1
  · intro j ds n' hj
    simp only [ClientState.remove, List.map_append, List.map_cons, List.map_nil, List.mem_append, List.mem_singleton]
    rcases J.live j ds n' hj with h1 | h1
    · split
      · rename_i e
        rw [e.1, e.2, hp] at h1
        exact .inr (.inr (Option.some.inj h1).symm)
      · exact .inl h1
    · exact .inr (.inl h1)
  · exact fun w' i' n' hp' => J.owner _ _ _ (hrem _ _ _ hp').1
  · intro w' i' n' hp'
    obtain ⟨h1, h2⟩ := hrem _ _ _ hp'
    simp only [ClientState.remove, List.map_append, List.map_cons, List.map_nil, List.mem_append, List.mem_singleton, not_or]
    exact ⟨J.unfinished _ _ _ h1, h2⟩
  · exact fun w1 i1 w2 i2 n' h1 h2 => J.uniq _ _ _ _ _ (hrem _ _ _ h1).1 (hrem _ _ _ h2).1
  · intro p hp'
    simp only [ClientState.remove, List.mem_append, List.mem_singleton] at hp' ⊢
    rcases hp' with hp' | rfl
    · exact J.doneBound p hp'
    · exact J.bound _ hcall
  · simp only [ClientState.remove, List.map_append, List.map_cons, List.map_nil]
    rw [List.nodup_append]
    exact ⟨J.doneNodup, by simp, fun a h1 b h2 => by simp at h2; subst h2; exact fun e => hnd (e ▸ h1)⟩
  · intro n' dv' hn' ds' hc'
    simp only [ClientState.remove, List.mem_append, List.mem_singleton, Prod.mk.injEq] at hn'
    rcases hn' with hn' | ⟨rfl, rfl⟩
    · exact J.good _ _ hn' _ hc'
    · obtain ⟨e, -⟩ := J.call_unique hcall hc'
      have := Dart.camel_inj h.client hg hf gr hr e
      subst this
      exact hgood hw _ hc'

theorem taskOf_mem {v : String} {t : Dart.RTask} (hv : ((methodsOf S).flatMap (taskOf x)).lookup v = some t) :
    ∃ g ∈ methodsOf S, (v, t) ∈ taskOf x g := by
  have : (v, t) ∈ (methodsOf S).flatMap (taskOf x) := by
    revert hv
    induction (methodsOf S).flatMap (taskOf x) with
    | nil => simp
    | cons p l ih =>
      obtain ⟨a, b⟩ := p
      simp only [List.lookup]
      intro hv
      split at hv
      · rename_i e
        simp only [beq_iff_eq] at e
        simp only [Option.some.injEq] at hv
        subst e hv
        simp
      · exact List.mem_cons_of_mem _ (ih hv)
  simpa using List.mem_flatMap.1 this

theorem joint_read (h : SystemOk x rr rt hd S) (hf : f ∈ methodsOf S) (hr : f.isRead = false) (ha : f.isAsync = true)
    (hst : ∀ P k, (codecAt rr P k).StatusOk st) (hlib : lib.Lawful) (hk : N ≤ k)
    (hm : NoMessage (rr.readP "u8") (mem f.position).server) (hmc : NoMessage (rr.readP "u8") (mem f.position).client)
    (hcl : ∀ bs, SysAct.server (.clear f.position bs) ∈ xs → ∀ r, NoMessage (rr.readP "u8") (bs ++ r))
    (hres : Results x rr rt S f xs k) {T : Nat} (hids : FreshIds rot T) (ns sc : String)
    {s s' : Sys σ} (J : Joint x rr S f scope st lib U mem u rot xs N k s)
    (hT : Typed rr.wire S f s.server.log) (hlen : (callsOf (x.camel f.id) s).length ≤ T) {v : String}
    (hs : sysAct (codecAt rr (Rust.genProg (Rust.argsSchema S)) k) lib U (Rust.genRpc scope S).handlers rt (Dart.genProg x S) k hd rot
      (genClient x ns sc S) s (.read v) = some s') :
    Joint x rr S f scope st lib U mem u rot xs N k s' := by
  simp only [sysAct] at hs
  split at hs
  case h_2 => simp at hs
  case h_1 t ht =>
  split at hs
  case h_2 => simp at hs
  case h_1 cl hcl' =>
  simp only [Option.some.injEq] at hs
  subst hs
  rw [J.tasks] at ht
  obtain ⟨g, hg, hgt⟩ := taskOf_mem ht
  unfold Dart.runTask at hcl'
  simp only [bind, Except.bind] at hcl'
  split at hcl'
  · simp at hcl'
  rename_i res hrun
  obtain ⟨c1, ov⟩ := res
  simp only [Except.ok.injEq] at hcl'
  subst hcl'
  unfold taskOf at hgt
  split at hgt
  · simp only [List.mem_singleton, Prod.mk.injEq] at hgt
    obtain ⟨-, rfl⟩ := hgt
    obtain ⟨evs, rfl⟩ := Dart.add_effect hrun
    exact ⟨J.server, J.tasks, J.last, J.asked, J.pend, J.live, J.futures, J.bound, J.owner, J.unfinished, J.uniq, J.doneBound, J.doneNodup, J.good⟩
  · rename_i gr
    split at hgt
    case isFalse => simp at hgt
    rename_i ga
    simp only [List.mem_singleton, Prod.mk.injEq] at hgt
    obtain ⟨-, rfl⟩ := hgt
    simp only [Bool.not_eq_true] at gr
    rcases Dart.reader_effect ns sc hrun with rfl | ⟨i, n, dv, -, hp, hn, rfl⟩
    · exact J
    · refine joint_complete h hf hr J hp (fun hw ds hcall => ?_)
      obtain rfl := Dart.completers_inj h.client hg hf gr ga hr ha hw
      -- the buffer holds an answer
      have hd0 : ∃ r1, rt.readP "Int8" (s.server.mem g.position).client = some (.int hd, r1) := by
        cases hb : rt.readP "Int8" (s.server.mem g.position).client with
        | none =>
          simp [answerReader, Dart.genReaderHead, Dart.runReader, Dart.readInt, Bufs.get, hb, bind, Except.bind] at hrun
        | some p =>
          obtain ⟨vv, r1⟩ := p
          cases vv with
          | int m =>
            by_cases e : m = hd
            · exact ⟨r1, by rw [e]⟩
            · rw [show Bufs.get (s.server.mem g.position) .client = (s.server.mem g.position).client from rfl, Dart.reader_none ns sc hb e] at hrun
              simp only [Except.ok.injEq, Prod.mk.injEq] at hrun
              have := congrArg (fun c => c.done.length) hrun.1
              simp [ClientState.remove] at this
          | _ => simp [answerReader, Dart.genReaderHead, Dart.runReader, Dart.readInt, Bufs.get, hb, bind, Except.bind] at hrun
      obtain ⟨r0, hr0⟩ := (h.status.read _).2 hd0
      obtain ⟨j, ds', n', dv', r1, r2, hj, hgood, e1, e2, e3⟩ := J.answer h hf hr ha hst hlib hk hm hmc hcl hres hT hr0
      obtain ⟨j', ds'', hj', hi⟩ := J.pend _ _ hp
      cases hpj : s.client.pending (varMethodCompleters x g) (idAt rot j) with
      | none =>
        rw [show Bufs.get (s.server.mem g.position) .client = (s.server.mem g.position).client from rfl, Dart.reader_stale ns sc hf hr ha e1 e2 e3 hpj] at hrun
        simp only [Except.ok.injEq, Prod.mk.injEq] at hrun
        have := congrArg (fun c => c.done.length) hrun.1
        simp [ClientState.remove] at this
      | some n0 =>
        rw [show Bufs.get (s.server.mem g.position) .client = (s.server.mem g.position).client from rfl,
          Dart.reader_pending ns sc hf hr ha e1 e2 e3 hpj (J.unfinished _ _ _ hpj)] at hrun
        simp only [Except.ok.injEq, Prod.mk.injEq] at hrun
        have := congrArg (fun c => c.done) hrun.1
        simp only [ClientState.remove, List.append_cancel_left_eq, List.cons.injEq, Prod.mk.injEq, and_true] at this
        obtain ⟨rfl, rfl⟩ := this
        obtain ⟨e4, e5⟩ := J.uniq _ _ _ _ _ hpj hp
        have hjl := (List.getElem?_eq_some_iff.1 hj).1
        have hjl' := (List.getElem?_eq_some_iff.1 hj').1
        have : j = j' := hids.inj _ _ (by omega) (by omega) (by rw [e5, hi])
        subst this
        rw [hj] at hj'
        simp only [Option.some.injEq, Prod.mk.injEq, true_and] at hj'
        obtain ⟨rfl, rfl⟩ := hj'
        have hm' : (x.camel g.id, ds', n') ∈ s.calls := callsOf_mem.1 (List.mem_of_getElem? hj)
        obtain ⟨-, rfl⟩ := J.call_unique hm' hcall
        exact hgood

theorem joint_init (h : SystemOk x rr rt hd S) (ns sc : String) :
    ∃ s0, start lib rt (Dart.genProg x S) k hd rot (genClient x ns sc S) mem u = some s0 ∧ s0.calls = [] ∧ s0.server.log = [] ∧
      Joint x rr S f scope st lib U mem u rot xs N k s0 := by
  refine ⟨⟨Cfg.initial mem u, { ClientState.fresh with tasks := (methodsOf S).flatMap (taskOf x) }, []⟩, ?_, rfl, rfl, ?_⟩
  · simp only [start, Dart.create_eq h.client ns sc]
  · refine ⟨⟨[], rfl, by simp, by simp, by simp⟩, rfl, rfl, ?_, ?_, ?_, ?_, ?_, ?_, ?_, ?_, ?_, ?_, ?_⟩
    · simp [Cfg.initial]
    all_goals simp [ClientState.fresh, callsOf]

theorem sysAct_log {C : Codec} {regs : List (Nat × Handler)} {P : Dart.Prog} {cl : Dart.Client} {s s' : Sys σ} {a : SysAct}
    (h : sysAct C lib U regs rt P k hd rot cl s a = some s') : ∀ e ∈ s.server.log, e ∈ s'.server.log := by
  cases a with
  | server a =>
    simp only [sysAct] at h
    split at h
    · rename_i hc
      simp only [Option.some.injEq] at h
      subst h
      exact (act_log hc).1
    · simp at h
  | call n ds =>
    simp only [sysAct] at h
    split at h
    · simp only [Option.some.injEq] at h
      subst h
      intro e he
      simp [he]
    · simp at h
  | read v =>
    simp only [sysAct] at h
    split at h
    · split at h
      · simp only [Option.some.injEq] at h
        subst h
        exact fun e he => he
      · simp at h
    · simp at h

theorem sysActs_log {C : Codec} {regs : List (Nat × Handler)} {P : Dart.Prog} {cl : Dart.Client} {s s' : Sys σ} {as : List SysAct}
    (h : sysActs C lib U regs rt P k hd rot cl s as = some s') : ∀ e ∈ s.server.log, e ∈ s'.server.log := by
  induction as generalizing s with
  | nil =>
    simp only [sysActs, Option.some.injEq] at h
    subst h
    exact fun e he => he
  | cons a as ih =>
    simp only [sysActs] at h
    split at h
    · rename_i hs
      exact fun e he => ih h _ (sysAct_log hs e he)
    · simp at h

theorem sysAct_calls {C : Codec} {regs : List (Nat × Handler)} {P : Dart.Prog} {cl : Dart.Client} {s s' : Sys σ} {a : SysAct}
    (h : sysAct C lib U regs rt P k hd rot cl s a = some s') (name : String) :
    (callsOf name s').length = (callsOf name s).length + if a.isCall name then 1 else 0 := by
  cases a with
  | server a =>
    simp only [sysAct] at h
    split at h
    · simp only [Option.some.injEq] at h
      subst h
      simp [callsOf, SysAct.isCall]
    · simp at h
  | call n ds =>
    simp only [sysAct] at h
    split at h
    · simp only [Option.some.injEq] at h
      subst h
      rw [callsOf_snoc (sv := s.server) (cl := s.client)]
      simp only [List.length_append, SysAct.isCall, beq_iff_eq]
      split <;> simp
    · simp at h
  | read v =>
    simp only [sysAct] at h
    split at h
    · split at h
      · simp only [Option.some.injEq] at h
        subst h
        simp [callsOf, SysAct.isCall]
      · simp at h
    · simp at h

theorem joint_acts (h : SystemOk x rr rt hd S) (hf : f ∈ methodsOf S) (hr : f.isRead = false) (ha : f.isAsync = true)
    (hst : ∀ P k, (codecAt rr P k).StatusOk st) (hlib : lib.Lawful) (hk : N ≤ k)
    (hm : NoMessage (rr.readP "u8") (mem f.position).server) (hmc : NoMessage (rr.readP "u8") (mem f.position).client)
    (hcl : ∀ bs, SysAct.server (.clear f.position bs) ∈ xs → ∀ r, NoMessage (rr.readP "u8") (bs ++ r))
    (hnr : ∀ bs, SysAct.server (.request f.position bs) ∉ xs) {T : Nat} (hcalls : Calls x rr rt hd S f st rot xs N k T)
    (hres : Results x rr rt S f xs k) (hids : FreshIds rot T) (ns sc : String) {as : List SysAct} (has : ∀ a ∈ as, a ∈ xs ∨ a.IsStep)
    {s s' : Sys σ} (J : Joint x rr S f scope st lib U mem u rot xs N k s)
    (hT : (callsOf (x.camel f.id) s).length + as.countP (SysAct.isCall (x.camel f.id)) ≤ T)
    (hs : sysActs (codecAt rr (Rust.genProg (Rust.argsSchema S)) k) lib U (Rust.genRpc scope S).handlers rt (Dart.genProg x S) k hd rot
      (genClient x ns sc S) s as = some s') (hty : Typed rr.wire S f s'.server.log) :
    Joint x rr S f scope st lib U mem u rot xs N k s' ∧ (callsOf (x.camel f.id) s').length ≤ T := by
  induction as generalizing s with
  | nil =>
    simp only [sysActs, Option.some.injEq] at hs
    subst hs
    exact ⟨J, by simpa using hT⟩
  | cons a as ih =>
    have hlog := sysActs_log hs
    simp only [sysActs] at hs
    split at hs
    · rename_i s1 hs1
      have hc := sysAct_calls hs1 (x.camel f.id)
      simp only [List.countP_cons] at hT
      refine ih (fun b hb => has b (by simp [hb])) ?_ ?_ hs
      · cases a with
        | server a =>
          refine joint_server J (has _ (by simp)) (fun bs e => ?_) ns sc hs1
          subst e
          exact hnr bs ((has _ (by simp)).resolve_right (fun h => h))
        | call n ds =>
          refine joint_call h hf hr ha hcalls hids ns sc J ((has _ (by simp)).resolve_right (fun h => h)) ?_ hs1
          simp only [SysAct.isCall, beq_iff_eq] at hT
          omega
        | read v =>
          exact joint_read h hf hr ha hst hlib hk hm hmc hcl hres hids ns sc J (fun vs r he => hty vs r (hlog _ he)) (by omega) hs1
      · omega
    · simp at hs

/-- The bounds on the stack that the codecs need. -/
theorem joint_bound (h : SystemOk x rr rt hd S) (hf : f ∈ methodsOf S) (hr : f.isRead = false) (ha : f.isAsync = true)
    (hp : PortableMethod S f) (hst : ∀ P k, (codecAt rr P k).StatusOk st) {T : Nat} (hids : FreshIds rot T)
    (hds : ∀ ds, SysAct.call (x.camel f.id) ds ∈ xs → DartArgs x rt.wire S f ds) :
    ∃ N, ∀ k, N ≤ k → Calls x rr rt hd S f st rot xs N k T ∧ Results x rr rt S f xs k := by
  obtain ⟨sb, hsb⟩ := Props.status_total h.rust.wire
  obtain ⟨N1, hN1⟩ := Props.common_bound (α := SysAct × Nat) (p := fun a N => ∀ ds, a.1 = SysAct.call (x.camel f.id) ds → ∃ vs sb m b,
      Exchanged x rr.wire S (f.args.map (·.typeId)) vs ds ∧
      rr.wire.prim "u8" (.int 255) = some sb ∧ rr.wire.prim "i64" (.int (idAt rot a.2)) = some m ∧
      ReadableAt rr S f st N (some (idAt rot a.2), vs) (sb ++ m ++ b) ∧
      ∀ k, N ≤ k → ∀ l, Dart.Visible x l f.args →
        Dart.evalWStmts rt (Dart.genProg x S) k hd (((Dart.genParams x f).map (·.2)).zip ds) l (Dart.genArgWrites x f) = .ok b)
    (fun a n m hnm hq ds e => by
      obtain ⟨vs, sb, m', b, h1, h2, h3, h4, h5⟩ := hq ds e
      exact ⟨vs, sb, m', b, h1, h2, h3, h4.mono hnm, fun k hk => h5 k (by omega)⟩)
    (xs.flatMap (fun a => (List.range T).map (fun j => (a, j)))) (by
      intro a ham
      obtain ⟨a', ha', hj⟩ := List.mem_flatMap.1 ham
      obtain ⟨j, hjT, rfl⟩ := List.mem_map.1 hj
      simp only [List.mem_range] at hjT
      by_cases e : ∃ ds, a' = SysAct.call (x.camel f.id) ds
      · obtain ⟨ds, rfl⟩ := e
        obtain ⟨vs, b, h1, h2, -, M, h3⟩ := Props.args_exchange h hf hp (hds ds ha')
        obtain ⟨m, hm⟩ := h.rust.wire.prim_total (.integer "i64" 8 true) "i64" (.int (idAt rot j)) (.name "i64") rfl
          (by simpa [LeafVal] using hids.range j hjT)
        have hq : Request rr.wire S f (some (idAt rot j)) vs (sb ++ m ++ b) := ⟨by simp [ha], sb, m, b, hsb, hm, h2, rfl⟩
        obtain ⟨s, b', hs, hb, hok, M', hread⟩ :=
          Rust.request_reads h.rust h.server.accepted.wf h.server.named h.server.distinct h.server.rpcNamed h.server.noExt hf hr hq
        refine ⟨max M M', fun ds' e => ?_⟩
        simp only [SysAct.call.injEq, true_and] at e
        subst e
        exact ⟨vs, sb, m, b, h1, hsb, hm,
          ⟨hq, hok, b', by rw [hb, Props.st_eq (hst (Rust.genProg S) 0) hs], fun k hk => hread k (by omega)⟩, fun k hk => h3 k (by omega)⟩
      · exact ⟨0, fun ds hx => absurd ⟨ds, hx⟩ e⟩)
  obtain ⟨N2, hN2⟩ := Props.common_bound (α := SysAct) (p := fun a N => ∀ i r, a = SysAct.server (.resume i r) → ∀ v b, RetIs r v → ResultIs rr.wire S f v b →
      ∃ b dv, ResultIs rr.wire S f v b ∧ ExchangedResult x rr.wire S f v dv ∧
        ∀ k, N ≤ k → Rust.ResultBytes (codecAt rr (Rust.genProg (Rust.argsSchema S)) k) f r b ∧
          ∀ rest, ReadsResult rt (Dart.genProg x S) k f dv (b ++ rest))
    (fun a n m hnm hq i r hx v b h1 h2 => by
      obtain ⟨b, dv, h3, h4, h5⟩ := hq i r hx v b h1 h2
      exact ⟨b, dv, h3, h4, fun k hk => h5 k (by omega)⟩) xs (by
      intro a _
      by_cases e : ∃ i r v b, a = SysAct.server (.resume i r) ∧ RetIs r v ∧ ResultIs rr.wire S f v b
      · obtain ⟨i, r, v, b, rfl, h1, h2⟩ := e
        obtain ⟨M, hM⟩ := Rust.resultBytes_of h.server.accepted.wf h.server.named h.server.noClash h.server.rpcNamed h.server.noExt hf h1 h2
        have hx : ∃ dv M', ExchangedResult x rr.wire S f v dv ∧ ∀ k, M' ≤ k → ∀ rest, ReadsResult rt (Dart.genProg x S) k f dv (b ++ rest) := by
          cases v with
          | none => exact ⟨none, 0, h2.1, fun k _ rest => by simp [ReadsResult, h2.1]⟩
          | some v =>
            obtain ⟨t, ht, h2⟩ := h2
            obtain ⟨d, h3, M', h4⟩ := Props.result_exchange h hp ht h2
            exact ⟨some d, M', ⟨t, ht, h3⟩, fun k hk rest => by simp only [ReadsResult, ht]; exact ⟨d, rest, rfl, h4 k hk rest⟩⟩
        obtain ⟨dv, M', h3, h4⟩ := hx
        refine ⟨max M M', fun i' r' e v' b' h1' h2' => ⟨b, dv, ?_⟩⟩
        simp only [SysAct.server.injEq, Act.resume.injEq] at e
        obtain ⟨rfl, rfl⟩ := e
        have : v' = v := by
          cases r <;> cases v <;> cases v' <;> simp_all [RetIs]
        subst this
        exact ⟨h2, h3, fun k hk => ⟨hM k (by omega), h4 k (by omega)⟩⟩
      · exact ⟨0, fun i r hx v b h1 h2 => absurd ⟨i, r, v, b, hx, h1, h2⟩ e⟩)
  refine ⟨max N1 N2, fun k hk => ⟨fun ds hin j hj => ?_, fun i r hin v b h1 h2 => ?_⟩⟩
  · obtain ⟨vs, sb, m, b, h1, h2, h3, h4, h5⟩ := hN1 (.call (x.camel f.id) ds, j)
      (List.mem_flatMap.2 ⟨_, hin, List.mem_map.2 ⟨j, List.mem_range.2 hj, rfl⟩⟩) ds rfl
    exact ⟨vs, sb, m, b, h1, h2, h3, h4.mono (by omega), h5 k (by omega)⟩
  · obtain ⟨b, dv, h3, h4, h5⟩ := hN2 _ hin i r rfl v b h1 h2
    exact ⟨b, dv, h3, (h5 k (by omega)).1, h4, (h5 k (by omega)).2⟩

/-! ### Pending calls, whatever the codecs do -/

/-- The pending calls of `f` are calls that have been made, under the method ids they carry. -/
structure Booked (x : Ext) (S : List ASTNode) (f : FnNode) (rot : Int → Int) (s : Sys σ) : Prop where
  tasks : s.client.tasks = (methodsOf S).flatMap (taskOf x)
  last : s.client.last (varLastMethodId x f) = idAt rot (callsOf (x.camel f.id) s).length
  pend : ∀ i n, s.client.pending (varMethodCompleters x f) i = some n →
    ∃ j ds, (callsOf (x.camel f.id) s)[j]? = some (x.camel f.id, ds, n) ∧ i = idAt rot j
  owner : ∀ w i n, s.client.pending w i = some n → ∃ g ∈ methodsOf S, g.isRead = false ∧ g.isAsync = true ∧
    w = varMethodCompleters x g ∧ ∃ ds, (x.camel g.id, ds, n) ∈ s.calls

/-- What a run of a read task can do. -/
theorem read_effect {C : Codec} {regs : List (Nat × Handler)} (ns sc : String) {s s' : Sys σ} {v : String}
    (ht : s.client.tasks = (methodsOf S).flatMap (taskOf x))
    (hs : sysAct C lib U regs rt (Dart.genProg x S) k hd rot (genClient x ns sc S) s (.read v) = some s') :
    ∃ c, s' = { s with client := c } ∧ ((∃ evs, c = { s.client with events := evs }) ∨
      ∃ g ∈ methodsOf S, g.isRead = false ∧ g.isAsync = true ∧ ∃ i n dv,
        (∃ r1 r2, rt.readP "Int8" (s.server.mem g.position).client = some (.int hd, r1) ∧ rt.readP "Int64" r1 = some (.int i, r2)) ∧
        s.client.pending (varMethodCompleters x g) i = some n ∧
        c = { s.client with done := s.client.done ++ [(n, dv)] }.remove (varMethodCompleters x g) i) := by
  simp only [sysAct] at hs
  split at hs
  case h_2 => simp at hs
  case h_1 t ht' =>
  split at hs
  case h_2 => simp at hs
  case h_1 cl hcl' =>
  simp only [Option.some.injEq] at hs
  subst hs
  rw [ht] at ht'
  obtain ⟨g, hg, hgt⟩ := taskOf_mem ht'
  unfold Dart.runTask at hcl'
  simp only [bind, Except.bind] at hcl'
  split at hcl'
  · simp at hcl'
  rename_i res hrun
  obtain ⟨c1, ov⟩ := res
  simp only [Except.ok.injEq] at hcl'
  subst hcl'
  refine ⟨_, rfl, ?_⟩
  unfold taskOf at hgt
  split at hgt
  · simp only [List.mem_singleton, Prod.mk.injEq] at hgt
    obtain ⟨-, rfl⟩ := hgt
    exact .inl (Dart.add_effect hrun)
  · rename_i gr
    split at hgt
    case isFalse => simp at hgt
    rename_i ga
    simp only [List.mem_singleton, Prod.mk.injEq] at hgt
    obtain ⟨-, rfl⟩ := hgt
    simp only [Bool.not_eq_true] at gr
    rcases Dart.reader_effect ns sc hrun with rfl | ⟨i, n, dv, h1, hp, hn, rfl⟩
    · exact .inl ⟨_, rfl⟩
    · exact .inr ⟨g, hg, gr, ga, i, n, dv, h1, hp, rfl⟩

theorem booked_acts (hR : DartRpcNamed x S) (hf : f ∈ methodsOf S) (hr : f.isRead = false) (ha : f.isAsync = true)
    {C : Codec} {regs : List (Nat × Handler)} (ns sc : String) {as : List SysAct} {s s' : Sys σ} (B : Booked x S f rot s)
    (hs : sysActs C lib U regs rt (Dart.genProg x S) k hd rot (genClient x ns sc S) s as = some s') : Booked x S f rot s' := by
  induction as generalizing s with
  | nil =>
    simp only [sysActs, Option.some.injEq] at hs
    exact hs ▸ B
  | cons a as ih =>
    simp only [sysActs] at hs
    split at hs
    case h_2 => simp at hs
    case h_1 s1 hs1 =>
    refine ih ?_ hs
    cases a with
    | server a =>
      simp only [sysAct] at hs1
      split at hs1
      · simp only [Option.some.injEq] at hs1
        subst hs1
        exact ⟨B.tasks, B.last, B.pend, B.owner⟩
      · simp at hs1
    | call name ds =>
      simp only [sysAct] at hs1
      split at hs1
      case h_2 => simp at hs1
      case h_1 n w hw =>
      obtain ⟨g, hg, gr, ga, rfl, rfl, bs, hbs, rfl⟩ := Dart.call_inv ns sc (fun _ _ => ⟨_, rfl⟩) hw
      simp only [Option.some.injEq] at hs1
      subst hs1
      obtain ⟨sv, cl, cs⟩ := s
      have hfg : x.camel g.id = x.camel f.id ↔ g = f := ⟨fun e => Dart.camel_inj hR hg hf gr hr e, fun e => by rw [e]⟩
      have hl := B.last
      simp only at hl
      refine ⟨B.tasks, ?_, ?_, ?_⟩
      · rw [callsOf_snoc (sv := sv) (cl := cl)]
        simp only [ClientState.afterCall]
        by_cases e : g = f
        · subst e
          simp [hl, idAt]
        · have e' : x.camel g.id ≠ x.camel f.id := fun h => e (hfg.1 h)
          have e2 : varLastMethodId x f ≠ varLastMethodId x g := fun h' => e (Dart.last_inj hR hg hf gr ga hr ha h'.symm)
          simp [e', e2, hl]
      · intro i n hp
        rw [callsOf_snoc (sv := sv) (cl := cl)]
        simp only [ClientState.afterCall] at hp
        split at hp
        · rename_i e
          obtain ⟨e1, e2⟩ := e
          have : g = f := Dart.completers_inj hR hg hf gr ga hr ha e1.symm
          subst this
          simp only [Option.some.injEq] at hp
          subst hp
          exact ⟨(callsOf (x.camel g.id) ⟨sv, cl, cs⟩).length, ds, by simp, by rw [e2, hl]⟩
        · obtain ⟨j, ds', h1, h2⟩ := B.pend i n hp
          refine ⟨j, ds', ?_, h2⟩
          rw [List.getElem?_append_left (by have := (List.getElem?_eq_some_iff.1 h1).1; exact this)]
          exact h1
      · intro w i n hp
        simp only [ClientState.afterCall] at hp
        split at hp
        · rename_i e
          simp only [Option.some.injEq] at hp
          exact ⟨g, hg, gr, ga, e.1, ds, by simp [hp]⟩
        · obtain ⟨g', h1, h2, h3, h4, ds', h5⟩ := B.owner w i n hp
          exact ⟨g', h1, h2, h3, h4, ds', by simp only at h5; simp [h5]⟩
    | read v =>
      obtain ⟨c, rfl, ⟨evs, rfl⟩ | ⟨g, _, _, _, i, n, dv, _, _, rfl⟩⟩ := read_effect ns sc B.tasks hs1
      · exact ⟨B.tasks, B.last, B.pend, B.owner⟩
      · have hrem : ∀ w' i' n', ({ s.client with done := s.client.done ++ [(n, dv)] }.remove (varMethodCompleters x g) i).pending w' i' = some n' →
            s.client.pending w' i' = some n' := by
          intro w' i' n' hp'
          simp only [ClientState.remove] at hp'
          split at hp'
          · simp at hp'
          · exact hp'
        exact ⟨B.tasks, B.last, fun i' n' hp' => B.pend i' n' (hrem _ _ _ hp'), fun w' i' n' hp' => B.owner _ _ _ (hrem _ _ _ hp')⟩

/-- While the client buffer of `f` does not hold an answer with the method id of a pending call, no run of
a read task completes that call. -/
theorem not_completed (hR : DartRpcNamed x S) (hf : f ∈ methodsOf S) (hr : f.isRead = false) (ha : f.isAsync = true)
    {C : Codec} {regs : List (Nat × Handler)} (ns sc : String) {n : Nat} {i0 : Int} {vs : List String} {s s' : Sys σ}
    (ht : s.client.tasks = (methodsOf S).flatMap (taskOf x)) (hn : n ∉ s.client.done.map (·.1))
    (hown : ∀ w i, s.client.pending w i = some n → w = varMethodCompleters x f ∧ i = i0)
    (hbuf : ∀ r1 r2 i, rt.readP "Int8" (s.server.mem f.position).client = some (.int hd, r1) → rt.readP "Int64" r1 = some (.int i, r2) → i ≠ i0)
    (hs : sysActs C lib U regs rt (Dart.genProg x S) k hd rot (genClient x ns sc S) s (vs.map .read) = some s') :
    n ∉ s'.client.done.map (·.1) := by
  induction vs generalizing s with
  | nil =>
    simp only [List.map_nil, sysActs, Option.some.injEq] at hs
    exact hs ▸ hn
  | cons v vs ih =>
    simp only [List.map_cons, sysActs] at hs
    split at hs
    case h_2 => simp at hs
    case h_1 s1 hs1 =>
    obtain ⟨c, rfl, ⟨evs, rfl⟩ | ⟨g, hg, gr, ga, i, m, dv, ⟨r1, r2, e1, e2⟩, hp, rfl⟩⟩ := read_effect ns sc ht hs1
    · exact ih (s := { s with client := { s.client with events := evs } }) ht hn hown hbuf hs
    · have hne : m ≠ n := by
        rintro rfl
        obtain ⟨e3, e4⟩ := hown _ _ hp
        have := Dart.completers_inj hR hg hf gr ga hr ha e3
        subst this
        exact hbuf _ _ _ e1 e2 e4
      refine ih (s := { s with client := { s.client with done := s.client.done ++ [(m, dv)] }.remove (varMethodCompleters x g) i }) ht ?_ ?_ hbuf hs
      · simp only [ClientState.remove, List.map_append, List.map_cons, List.map_nil, List.mem_append, List.mem_singleton, not_or]
        exact ⟨hn, fun e => hne e.symm⟩
      · intro w' i' hp'
        simp only [ClientState.remove] at hp'
        split at hp'
        · simp at hp'
        · exact hown _ _ hp'

end

end TPB.Rpc
