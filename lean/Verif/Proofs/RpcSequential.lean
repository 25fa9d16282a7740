/-
The invariant of the emitted client and the emitted server when the calls of an asynchronous method are made one
at a time.
-/
import Verif.Proofs.RpcSolo
import Verif.Props.RpcSystem
namespace TPB.Rpc
open Spec
open Rust (RetIs Buf Bufs BufLib User setMem codecAt act acts Act Ev Cfg Status Handler Codec Ret Rq Phase Solo AnswerTo)
open Dart (ClientState taskOf genClient answerReader ReadsResult)
open DartGen (varMethodCompleters varLastMethodId varReadTask)
open Props (SystemOk ReadableAt)

variable {σ : Type}

/-- The requests so far. -/
def requests (prev : List (Rq × Ret)) (ph : Phase) : List Rq := prev.map (·.1) ++ ph.rq.toList

/-- The requests so far that have been answered are the first ones. -/
theorem requests_of_closed {prev : List (Rq × Ret)} {ph : Phase} {j : Nat} {q : Rq} {r : Ret} (h : (prev ++ ph.closed)[j]? = some (q, r)) :
    (requests prev ph)[j]? = some q := by
  have e : ∃ l, requests prev ph = (prev ++ ph.closed).map (·.1) ++ l := by
    cases ph <;> simp [requests, Phase.rq, Phase.closed]
  obtain ⟨l, e⟩ := e
  rw [e, List.getElem?_append_left (by simpa using (List.getElem?_eq_some_iff.1 h).1), List.getElem?_map, h]
  rfl

section
variable (x : Ext) (rr : Rust.Runtime) (S : List ASTNode) (f : FnNode) (st : Status → Bytes) (rot : Int → Int) (N k : Nat)

structure Single (prev : List (Rq × Ret)) (ph : Phase) (s : Sys σ) : Prop where
  solo : Solo (codecAt rr (Rust.genProg (Rust.argsSchema S)) k) st f f.position (ReadableAt rr S f st N) prev ph s.server
  length : (requests prev ph).length = (callsOf (x.camel f.id) s).length
  sent : ∀ (j : Nat) ds n, (callsOf (x.camel f.id) s)[j]? = some (x.camel f.id, ds, n) →
    ∃ vs, (requests prev ph)[j]? = some (some (idAt rot j), vs) ∧ Exchanged x rr.wire S (f.args.map (·.typeId)) vs ds
  closed : ∀ (j : Nat) ds n, (callsOf (x.camel f.id) s)[j]? = some (x.camel f.id, ds, n) → j < prev.length → n ∈ s.client.done.map (·.1)
  good : ∀ (j : Nat) ds n dv, (callsOf (x.camel f.id) s)[j]? = some (x.camel f.id, ds, n) → (n, dv) ∈ s.client.done →
    ∃ (q : Rq) (r : Ret) (v : Option Val), (prev ++ ph.closed)[j]? = some (q, r) ∧ RetIs r v ∧ ExchangedResult x rr.wire S f v dv

end

section
variable {x : Ext} {rr : Rust.Runtime} {rt : Dart.Runtime} {hd : Int} {S : List ASTNode} {f : FnNode} {scope : String} {st : Status → Bytes}
variable {lib : BufLib} {U : User σ} {mem : Nat → Bufs} {u : σ} {rot : Int → Int} {xs : List SysAct} {N k : Nat}
variable {prev : List (Rq × Ret)} {ph : Phase}

theorem callsOf_get {name : String} {s : Sys σ} {j : Nat} (h : j < (callsOf name s).length) :
    ∃ ds n, (callsOf name s)[j]? = some (name, ds, n) := by
  obtain ⟨c, hc⟩ : ∃ c, (callsOf name s)[j]? = some c := ⟨_, List.getElem?_eq_getElem h⟩
  have := List.mem_of_getElem? hc
  simp only [callsOf, List.mem_filter, decide_eq_true_eq] at this
  obtain ⟨-, rfl⟩ := this
  exact ⟨c.2.1, c.2.2, hc⟩

/-- The answer to a request, as the client reads it. -/
theorem answerTo_reads (h : SystemOk x rr rt hd S) (hst : ∀ P k, (codecAt rr P k).StatusOk st)
    (hres : Results x rr rt S f xs k) {s : Sys σ} (J : Joint x rr S f scope st lib U mem u rot xs N k s)
    (hT : Typed rr.wire S f s.server.log) {cl : Bytes} {q : Rq} {r : Ret}
    (hA : AnswerTo (codecAt rr (Rust.genProg (Rust.argsSchema S)) k) st f cl q r) (hfn : Ev.finished f.position f.id q.2 r ∈ s.server.log) :
    ∃ i v dv r1 r2, q.1 = some i ∧ RetIs r v ∧ ExchangedResult x rr.wire S f v dv ∧
      rt.readP "Int8" cl = some (.int hd, r1) ∧ rt.readP "Int64" r1 = some (.int i, r2) ∧ ReadsResult rt (Dart.genProg x S) k f dv r2 := by
  obtain ⟨ys, hc, hreq, hclr, hresume⟩ := J.server
  obtain ⟨i, mb, rb, rest, hq, hmb, hrb, hcli⟩ := hA
  obtain ⟨v, b, hv1, hv2⟩ := hT q.2 r hfn
  obtain ⟨jr, hjr⟩ : ∃ j, Act.resume j r ∈ ys := (Props.finished_resumed hc hfn).resolve_left (by simp [Cfg.initial])
  obtain ⟨b2, dv, hb1, hb2, hxd, hrd⟩ := hres jr r (hresume _ _ hjr) v b hv1 hv2
  have hbb : b2 = rb := by
    have := hb2
    unfold Rust.ResultBytes at this hrb
    cases ht : f.returnTypeId with
    | none => simp only [ht] at this hrb; rw [this, hrb]
    | some t =>
      simp only [ht] at this hrb
      obtain ⟨v1, rfl, h1⟩ := this
      obtain ⟨v2, h3, h2⟩ := hrb
      simp only [Ret.val.injEq] at h3
      subst h3
      cases hb : builtin? t <;> simp only [hb] at h1 h2 <;> rw [h1] at h2 <;> exact Option.some.inj h2
  subst hbb
  obtain ⟨sb, hs⟩ := Props.status_total h.rust.wire
  obtain ⟨-, hsr⟩ := Dart.status_bytes h.dart h.status hs
  have e := Props.st_eq (hst (Rust.genProg (Rust.argsSchema S)) k) hs
  obtain ⟨-, hir⟩ := Dart.id_bytes h.agree h.dart hmb
  refine ⟨i, v, dv, mb ++ (b2 ++ rest), b2 ++ rest, hq, hv1, hxd, ?_, hir _, hrd _⟩
  rw [hcli, e]
  exact hsr _

/-- A request that has been answered has been executed. -/
theorem Single.finished {s : Sys σ} (I : Single x rr S f st rot N k prev ph s) {q : Rq} {r : Ret} {j : Nat} (h : (prev ++ ph.closed)[j]? = some (q, r)) :
    (Rust.outcomes f.position s.server.log)[j]? = some (f.id, q.2, r) := by
  have e : ∃ l, prev.map (fun p => (f.id, p.1.2, p.2)) ++ ph.result f = (prev ++ ph.closed).map (fun p => (f.id, p.1.2, p.2)) ++ l := by
    cases ph with
    | running q g => simp [Phase.closed]
    | _ => simp [Phase.closed, Phase.result]
  obtain ⟨l, e⟩ := e
  rw [I.solo.results, e, List.getElem?_append_left (by simpa using (List.getElem?_eq_some_iff.1 h).1), List.getElem?_map, h]
  rfl

/-- The requests have been executed in order, except perhaps the last one. -/
theorem Single.executed {s : Sys σ} (I : Single x rr S f st rot N k prev ph s) :
    ∃ m, Rust.executed f.position s.server.log = ((requests prev ph).take m).map (fun q => (f.id, q.2)) ∧
      (m = (requests prev ph).length ∨ m + 1 = (requests prev ph).length) := by
  have hc := I.solo.calls
  clear I
  cases hq : ph.rq with
  | none =>
    have : ph.started f = [] := by cases ph <;> simp [Phase.rq] at hq <;> rfl
    refine ⟨prev.length, ?_, .inl (by simp [requests, hq])⟩
    rw [hc, this, List.take_of_length_le (by simp [requests, hq]), requests, hq]
    simp
  | some q =>
    have h1 : ph.started f = [(f.id, q.2)] ∨ ph.started f = [] := by
      cases ph with
      | running q' g =>
        cases hq
        cases g
        · exact .inr rfl
        · exact .inl rfl
        · exact .inl rfl
      | answered q' r => cases hq; exact .inl rfl
      | _ => exact .inr rfl
    rcases h1 with e | e
    · refine ⟨prev.length + 1, ?_, .inl (by simp [requests, hq])⟩
      rw [hc, e, List.take_of_length_le (by simp [requests, hq]), requests, hq]
      simp
    · refine ⟨prev.length, ?_, .inr (by simp [requests, hq])⟩
      rw [hc, e, requests, List.take_append_of_le_length (by simp), List.take_of_length_le (by simp)]
      simp

/-- The client can read the answers to the requests it has made. -/
theorem Single.reads (h : SystemOk x rr rt hd S) (hst : ∀ P k, (codecAt rr P k).StatusOk st)
    (hres : Results x rr rt S f xs k) {s : Sys σ} (J : Joint x rr S f scope st lib U mem u rot xs N k s)
    (I : Single x rr S f st rot N k prev ph s) (hT : Typed rr.wire S f s.server.log) {cl : Bytes} {q : Rq} {r : Ret} {j : Nat}
    (hj : (prev ++ ph.closed)[j]? = some (q, r))
    (hA : AnswerTo (codecAt rr (Rust.genProg (Rust.argsSchema S)) k) st f cl q r) :
    ∃ ds n v dv r1 r2, (callsOf (x.camel f.id) s)[j]? = some (x.camel f.id, ds, n) ∧ RetIs r v ∧ ExchangedResult x rr.wire S f v dv ∧
      rt.readP "Int8" cl = some (.int hd, r1) ∧ rt.readP "Int64" r1 = some (.int (idAt rot j), r2) ∧
      ReadsResult rt (Dart.genProg x S) k f dv r2 := by
  obtain ⟨i, v, dv, r1, r2, hq, h1, h2, h3, h4, h5⟩ :=
    answerTo_reads h hst hres J hT hA (Rust.mem_outcomes (List.mem_of_getElem? (I.finished hj)))
  have hq' := requests_of_closed hj
  obtain ⟨ds, n, hc⟩ := callsOf_get (name := x.camel f.id) (s := s) (j := j) (by rw [← I.length]; exact (List.getElem?_eq_some_iff.1 hq').1)
  obtain ⟨vs, hs, -⟩ := I.sent _ _ _ hc
  rw [hq'] at hs
  simp only [Option.some.injEq] at hs
  subst hs
  simp only [Option.some.injEq] at hq
  subst hq
  exact ⟨ds, n, v, dv, r1, r2, hc, h1, h2, h3, h4, h5⟩

/-! ### Steps -/

theorem Single.next {ph' : Phase} {sv c' : Cfg σ} {cl cl' : ClientState} {cs cs' : List (String × List Val × Nat)}
    (I : Single x rr S f st rot N k prev ph ⟨sv, cl, cs⟩)
    (hs : Solo (codecAt rr (Rust.genProg (Rust.argsSchema S)) k) st f f.position (ReadableAt rr S f st N) prev ph' c') (hn : ph.Next ph')
    (hdone : cl'.done = cl.done) (hcs : callsOf (x.camel f.id) ⟨c', cl', cs'⟩ = callsOf (x.camel f.id) ⟨sv, cl, cs⟩) :
    Single x rr S f st rot N k prev ph' ⟨c', cl', cs'⟩ := by
  obtain ⟨hrq, hcd, -⟩ := hn
  have e : requests prev ph' = requests prev ph := by simp [requests, hrq]
  refine ⟨hs, ?_, ?_, ?_, ?_⟩
  · rw [e, hcs]; exact I.length
  · rw [e, hcs]; exact I.sent
  · rw [hcs, hdone]; exact I.closed
  · rw [hcs, hdone]
    intro j ds n dv h1 h2
    obtain ⟨q, r, v, h3, h4⟩ := I.good j ds n dv h1 h2
    refine ⟨q, r, v, ?_, h4⟩
    by_cases e : ph.closed = []
    · rw [e, List.append_nil] at h3
      rw [List.getElem?_append_left (List.getElem?_eq_some_iff.1 h3).1]
      exact h3
    · rw [hcd e]
      exact h3

theorem readable_at (hk : N ≤ k) :
    Rust.Readable (codecAt rr (Rust.genProg (Rust.argsSchema S)) k) st f (ReadableAt rr S f st N) := by
  intro q bs hq
  obtain ⟨-, h2, b, h3, h4⟩ := hq
  exact ⟨h2, b, h3, fun r => by simp [codecAt, h4 k hk r]⟩

theorem single_server (h : SystemOk x rr rt hd S) (hf : f ∈ methodsOf S) (hr : f.isRead = false) (ha : f.isAsync = true)
    (hst : ∀ P k, (codecAt rr P k).StatusOk st) (hlib : lib.Lawful) (hk : N ≤ k) {c' : Cfg σ} {a : Act}
    (hn : ∀ bs, a ≠ .request f.position bs) (hcl : ∀ bs, a ≠ .clear f.position bs) {sv : Cfg σ} {cl cl' : ClientState} {cs cs' : List (String × List Val × Nat)}
    (I : Single x rr S f st rot N k prev ph ⟨sv, cl, cs⟩) (hc : act (codecAt rr (Rust.genProg (Rust.argsSchema S)) k) lib U (Rust.genRpc scope S).handlers sv a = some c')
    (hdone : cl'.done = cl.done) (hcs : callsOf (x.camel f.id) ⟨c', cl', cs'⟩ = callsOf (x.camel f.id) ⟨sv, cl, cs⟩) :
    ∃ ph', Single x rr S f st rot N k prev ph' ⟨c', cl', cs'⟩ := by
  obtain ⟨ph', hs, hn⟩ := Rust.solo_act (hst (Rust.genProg (Rust.argsSchema S)) k) hlib hr ha (h.server.rpcNamed.args f hf).1
    (h.server.rpcNamed.args f hf).2 (Rust.handlers_lookup scope h.server.accepted.wf h.server.rpcNamed.methods hf) (readable_at hk) hn hcl I.solo hc
  exact ⟨ph', I.next hs hn hdone hcs⟩

/-- The request that a call of `f` writes. -/
theorem call_request (h : SystemOk x rr rt hd S) (hf : f ∈ methodsOf S) (ha : f.isAsync = true)
    {T : Nat} (hcalls : Calls x rr rt hd S f st rot xs N k T) {s : Sys σ} (J : Joint x rr S f scope st lib U mem u rot xs N k s)
    {ds : List Val} (hin : SysAct.call (x.camel f.id) ds ∈ xs) (hT : (callsOf (x.camel f.id) s).length < T) {bs : Bytes}
    (hbs : Dart.evalWStmts rt (Dart.genProg x S) k hd (((Dart.genParams x f).map (·.2)).zip ds)
      ⟨some (s.client.last (varLastMethodId x f)), none, none⟩ (.status :: .methodId :: Dart.genArgWrites x f) = .ok bs) :
    ∃ vs, Exchanged x rr.wire S (f.args.map (·.typeId)) vs ds ∧
      ReadableAt rr S f st N (some (idAt rot (callsOf (x.camel f.id) s).length), vs) bs := by
  obtain ⟨vs, sb, m, b, h1, h2, h3, h4, h5⟩ := hcalls ds hin (callsOf (x.camel f.id) s).length hT
  refine ⟨vs, h1, ?_⟩
  obtain ⟨w1, -⟩ := Dart.status_bytes h.dart h.status h2
  obtain ⟨w2, -⟩ := Dart.id_bytes h.agree h.dart h3
  have hl := J.last
  have hv : ∀ a ∈ f.args, x.camel a.id ≠ "methodId" := fun a h' e => (h.client.locals f hf a h').2 (by simp [e, ha])
  simp only [Dart.evalWStmts, Dart.evalWStmt, Dart.orElse, w1, hl, w2, h5 _ (.inr hv), bind, Except.bind, Except.ok.injEq] at hbs
  rw [← hbs]
  simpa using h4

theorem single_call (h : SystemOk x rr rt hd S) (hf : f ∈ methodsOf S) (hr : f.isRead = false) (ha : f.isAsync = true)
    (hst : ∀ P k, (codecAt rr P k).StatusOk st) (hlib : lib.Lawful) (hk : N ≤ k)
    {T : Nat} (hcalls : Calls x rr rt hd S f st rot xs N k T) (ns sc : String)
    {s s' : Sys σ} (J : Joint x rr S f scope st lib U mem u rot xs N k s) (I : Single x rr S f st rot N k prev ph s) {name : String} {ds : List Val}
    (hin : SysAct.call name ds ∈ xs) (hT : (callsOf (x.camel f.id) s).length + (if name = x.camel f.id then 1 else 0) ≤ T)
    (hone : name = x.camel f.id → ∀ ds n, (x.camel f.id, ds, n) ∈ s.calls → n ∈ s.client.done.map (·.1))
    (hs : sysAct (codecAt rr (Rust.genProg (Rust.argsSchema S)) k) lib U (Rust.genRpc scope S).handlers rt (Dart.genProg x S) k hd rot
      (genClient x ns sc S) s (.call name ds) = some s') :
    ∃ prev' ph', Single x rr S f st rot N k prev' ph' s' := by
  simp only [sysAct] at hs
  split at hs
  case h_2 => simp at hs
  case h_1 n w hw =>
  obtain ⟨g, hg, gr, ga, rfl, rfl, bs, hbs, rfl⟩ := Dart.call_inv ns sc (fun _ _ => ⟨_, rfl⟩) hw
  simp only [Option.some.injEq, List.nil_append, sentEvents] at hs
  subst hs
  obtain ⟨sv, cl, cs⟩ := s
  simp only at hbs
  have hfg : x.camel g.id = x.camel f.id ↔ g = f := ⟨fun e => Dart.camel_inj h.client hg hf gr hr e, fun e => by rw [e]⟩
  by_cases e : g = f
  · subst e
    simp only [if_true] at hT
    obtain ⟨vs, hex, hq⟩ := call_request h hf ha hcalls J hin (by omega) hbs
    have hlast : ph.rq = none ∨ ph.closed ≠ [] := by
      by_cases hc : ph.closed = []
      · refine .inl ?_
        cases hrq : ph.rq with
        | none => rfl
        | some q =>
          exfalso
          have hl := I.length
          simp only [requests, hrq, Option.toList, List.length_append, List.length_map, List.length_singleton] at hl
          obtain ⟨ds', n, hn⟩ := callsOf_get (name := x.camel g.id) (s := ⟨sv, cl, cs⟩) (j := prev.length) (by omega)
          have := hone rfl ds' n (callsOf_mem.1 (List.mem_of_getElem? hn))
          obtain ⟨⟨n', dv⟩, h1, rfl⟩ := List.mem_map.1 this
          obtain ⟨q', r, v, h2, -⟩ := I.good _ _ _ dv hn h1
          rw [hc, List.append_nil] at h2
          exact absurd (List.getElem?_eq_some_iff.1 h2).1 (by omega)
      · exact .inr hc
    have hS := Rust.solo_request (lib := lib) (C := codecAt rr (Rust.genProg (Rust.argsSchema S)) k) (U := U) (regs := (Rust.genRpc scope S).handlers)
      hlib I.solo hlast hq rfl
    have e1 : requests prev ph = (prev ++ ph.closed).map (·.1) := by
      cases ph <;> simp [requests, Phase.rq, Phase.closed] at hlast ⊢
    have hlen := I.length
    rw [e1, List.length_map] at hlen
    refine ⟨prev ++ ph.closed, .posted _, ⟨hS, ?_, ?_, ?_, ?_⟩⟩
    · rw [callsOf_snoc (sv := sv) (cl := cl)]
      simp only [requests, Phase.rq, Option.toList, if_true, List.length_append, List.length_map, List.length_singleton]
      simp only [List.length_append] at hlen
      omega
    · intro j ds' n hj
      rw [callsOf_snoc (sv := sv) (cl := cl)] at hj
      simp only [if_true] at hj
      by_cases hlt : j < (callsOf (x.camel g.id) ⟨sv, cl, cs⟩).length
      · rw [List.getElem?_append_left hlt] at hj
        obtain ⟨vs', h1, h2⟩ := I.sent j ds' n hj
        refine ⟨vs', ?_, h2⟩
        rw [e1] at h1
        rw [requests, List.getElem?_append_left (by rw [List.length_map]; omega)]
        exact h1
      · rw [List.getElem?_append_right (by omega)] at hj
        obtain ⟨e2, e3⟩ := List.getElem?_eq_some_iff.1 hj
        simp only [List.length_singleton] at e2
        have hj0 : j = (callsOf (x.camel g.id) ⟨sv, cl, cs⟩).length := by omega
        simp [hj0] at e3
        refine ⟨vs, ?_, e3.1 ▸ hex⟩
        rw [requests, List.getElem?_append_right (by rw [List.length_map]; omega), List.length_map, hj0, hlen]
        simp [Phase.rq]
    · intro j ds' n hj hlt
      rw [callsOf_snoc (sv := sv) (cl := cl)] at hj
      rw [List.getElem?_append_left (Nat.lt_of_lt_of_eq hlt hlen)] at hj
      exact hone rfl ds' n (callsOf_mem.1 (List.mem_of_getElem? hj))
    · intro j ds' n dv hj hdn
      rw [callsOf_snoc (sv := sv) (cl := cl)] at hj
      simp only [if_true] at hj
      simp only [Phase.closed, List.append_nil]
      by_cases hlt : j < (callsOf (x.camel g.id) ⟨sv, cl, cs⟩).length
      · rw [List.getElem?_append_left hlt] at hj
        exact I.good j ds' n dv hj hdn
      · exfalso
        rw [List.getElem?_append_right (by omega)] at hj
        obtain ⟨e2, e3⟩ := List.getElem?_eq_some_iff.1 hj
        simp only [List.length_singleton] at e2
        simp only [show j - (callsOf (x.camel g.id) ⟨sv, cl, cs⟩).length = 0 by omega, List.getElem_cons_zero, Prod.mk.injEq] at e3
        have := J.doneBound _ hdn
        simp only at this
        omega
  · have hne : x.camel g.id ≠ x.camel f.id := fun h' => e (hfg.1 h')
    have hpos : g.position ≠ f.position := fun h' => e (position_inj h.server.accepted.wf hg hf h')
    obtain ⟨ph', hI⟩ := single_server (a := .request g.position bs) (cl' := cl.afterCall x rot g) (cs' := cs ++ [(x.camel g.id, ds, cl.created)])
      h hf hr ha hst hlib hk (by intro bs' e; simp only [Act.request.injEq] at e; exact hpos e.1) (by simp) I (U := U) (scope := scope) rfl rfl
      (by rw [callsOf_snoc (sv := sv) (cl := cl)]; simp [hne])
    exact ⟨prev, ph', hI⟩

/-- What a run of a read task does to the calls of `f`. -/
theorem read_calls (hR : DartRpcNamed x S) (hf : f ∈ methodsOf S) (hr : f.isRead = false) (ha : f.isAsync = true) (ns sc : String)
    {C : Codec} {regs : List (Nat × Handler)} {s s' : Sys σ} (J : Joint x rr S f scope st lib U mem u rot xs N k s) {v : String}
    (hs : sysAct C lib U regs rt (Dart.genProg x S) k hd rot (genClient x ns sc S) s (.read v) = some s') :
    ∃ c, s' = { s with client := c } ∧ (c.done = s.client.done ∨
      (∃ n dv, c.done = s.client.done ++ [(n, dv)] ∧ ∀ ds, (x.camel f.id, ds, n) ∉ s.calls) ∨
      ∃ i n dv, c.done = s.client.done ++ [(n, dv)] ∧ s.client.pending (varMethodCompleters x f) i = some n ∧
        ∃ r1 r2, rt.readP "Int8" (s.server.mem f.position).client = some (.int hd, r1) ∧ rt.readP "Int64" r1 = some (.int i, r2) ∧
          ∀ dv', ReadsResult rt (Dart.genProg x S) k f dv' r2 → dv = dv') := by
  simp only [sysAct] at hs
  split at hs
  case h_2 => simp at hs
  case h_1 t ht' =>
  split at hs
  case h_2 => simp at hs
  case h_1 cl hcl' =>
  simp only [Option.some.injEq] at hs
  subst hs
  rw [J.tasks] at ht'
  obtain ⟨g, hg, hgt⟩ := taskOf_mem ht'
  unfold Dart.runTask at hcl'
  simp only [bind, Except.bind] at hcl'
  split at hcl'
  · simp at hcl'
  rename_i res hrun
  obtain ⟨c1, ov⟩ := res
  simp only [Except.ok.injEq] at hcl'
  subst hcl'
  refine ⟨_, rfl, ?_⟩
  unfold taskOf at hgt
  split at hgt
  · simp only [List.mem_singleton, Prod.mk.injEq] at hgt
    obtain ⟨-, rfl⟩ := hgt
    obtain ⟨evs, rfl⟩ := Dart.add_effect hrun
    exact .inl rfl
  · rename_i gr
    split at hgt
    case isFalse => simp at hgt
    rename_i ga
    simp only [List.mem_singleton, Prod.mk.injEq] at hgt
    obtain ⟨-, rfl⟩ := hgt
    simp only [Bool.not_eq_true] at gr
    rcases Dart.reader_effect ns sc hrun with rfl | ⟨i, n, dv, ⟨r1, r2, h1, h2⟩, hp, hn, rfl⟩
    · exact .inl rfl
    · by_cases e : g = f
      · subst e
        refine .inr (.inr ⟨i, n, dv, rfl, hp, r1, r2, h1, h2, fun dv' h3 => ?_⟩)
        simp only [Bufs.get] at hrun h1
        rw [Dart.reader_pending ns sc hf hr ha h1 h2 h3 hp hn] at hrun
        simp only [Except.ok.injEq, Prod.mk.injEq] at hrun
        have := congrArg (fun c => c.done) hrun.1
        simp only [ClientState.remove, List.append_cancel_left_eq, List.cons.injEq, Prod.mk.injEq, true_and, and_true] at this
        exact this.symm
      · refine .inr (.inl ⟨n, dv, rfl, fun ds hc => e ?_⟩)
        obtain ⟨g', hg', gr', ga', hw, dsg, hcall⟩ := J.owner _ _ _ hp
        obtain rfl := Dart.completers_inj hR hg hg' gr ga gr' ga' hw
        exact Dart.camel_inj hR hg hf gr hr (J.call_unique hcall hc).1

theorem single_read (h : SystemOk x rr rt hd S) (hf : f ∈ methodsOf S) (hr : f.isRead = false) (ha : f.isAsync = true)
    (hst : ∀ P k, (codecAt rr P k).StatusOk st) (hres : Results x rr rt S f xs k) {T : Nat} (hids : FreshIds rot T) (ns sc : String)
    {s s' : Sys σ} (J : Joint x rr S f scope st lib U mem u rot xs N k s) (I : Single x rr S f st rot N k prev ph s)
    (hT : Typed rr.wire S f s.server.log) (hlen : (callsOf (x.camel f.id) s).length ≤ T) {v : String}
    (hs : sysAct (codecAt rr (Rust.genProg (Rust.argsSchema S)) k) lib U (Rust.genRpc scope S).handlers rt (Dart.genProg x S) k hd rot
      (genClient x ns sc S) s (.read v) = some s') :
    Single x rr S f st rot N k prev ph s' := by
  obtain ⟨c, rfl, hc⟩ := read_calls h.client hf hr ha ns sc J hs
  have hcl : ∀ n, n ∈ s.client.done.map (·.1) → n ∈ c.done.map (·.1) := by
    intro n hn
    rcases hc with hc | ⟨m, dv, hc, -⟩ | ⟨i, m, dv, hc, -⟩ <;> rw [hc]
    · exact hn
    · rw [List.map_append]; exact List.mem_append_left _ hn
    · rw [List.map_append]; exact List.mem_append_left _ hn
  refine ⟨I.solo, I.length, I.sent, fun j ds n h1 h2 => hcl _ (I.closed j ds n h1 h2), ?_⟩
  intro j ds n dv hj hdn
  have hj' : (callsOf (x.camel f.id) s)[j]? = some (x.camel f.id, ds, n) := hj
  simp only at hdn
  rcases hc with hc | ⟨m, dv', hc, hno⟩ | ⟨i, m, dv', hc, hp, r1, r2, h1, h2, h3⟩
  · rw [hc] at hdn
    exact I.good j ds n dv hj' hdn
  · rw [hc, List.mem_append, List.mem_singleton] at hdn
    rcases hdn with hdn | hdn
    · exact I.good j ds n dv hj' hdn
    · cases hdn
      exact absurd (callsOf_mem.1 (List.mem_of_getElem? hj')) (hno ds)
  · rw [hc, List.mem_append, List.mem_singleton] at hdn
    rcases hdn with hdn | hdn
    · exact I.good j ds n dv hj' hdn
    · cases hdn
      -- the answer in the client buffer is the answer to the last call
      obtain ⟨ji, dsi, hji, rfl⟩ := J.pend _ _ hp
      have hjji : ji = j := by
        have hmem := callsOf_mem.1 (List.mem_of_getElem? hji)
        have hn : ((callsOf (x.camel f.id) s).map (·.2.2)).Nodup :=
          J.futures.sublist (List.filter_sublist.map _)
        have a1 : ((callsOf (x.camel f.id) s).map (·.2.2))[ji]? = some n := by rw [List.getElem?_map, hji]; rfl
        have a2 : ((callsOf (x.camel f.id) s).map (·.2.2))[j]? = some n := by rw [List.getElem?_map, hj']; rfl
        obtain ⟨l1, e1⟩ := List.getElem?_eq_some_iff.1 a1
        obtain ⟨l2, e2⟩ := List.getElem?_eq_some_iff.1 a2
        exact (List.getElem_inj hn).1 (e1.trans e2.symm)
      subst hjji
      have hR : Rust.Ready (codecAt rr (Rust.genProg (Rust.argsSchema S)) k) (s.server.mem f.position).client := by
        obtain ⟨r0, hr0⟩ := (h.status.read _).2 ⟨r1, h1⟩
        exact ⟨r0, by simp [Rust.readStatus, codecAt, hr0]⟩
      have key : ∀ (l : Nat) (q : Rq) (r : Ret), (prev ++ ph.closed)[l]? = some (q, r) →
          AnswerTo (codecAt rr (Rust.genProg (Rust.argsSchema S)) k) st f (s.server.mem f.position).client q r →
          l = ji ∧ ∃ v, RetIs r v ∧ ExchangedResult x rr.wire S f v dv := by
        intro l q r hl hA
        obtain ⟨ds', n', v', dv2, r1', r2', g1, g2, g3, g4, g5, g6⟩ := I.reads h hst hres J hT hl hA
        rw [h1] at g4
        cases g4
        rw [h2] at g5
        simp only [Option.some.injEq, Prod.mk.injEq, Val.int.injEq] at g5
        obtain ⟨g5, rfl⟩ := g5
        have b1 := (List.getElem?_eq_some_iff.1 g1).1
        have b2 := (List.getElem?_eq_some_iff.1 hj').1
        exact ⟨(hids.inj _ _ (by omega) (by omega) g5).symm, v', g2, by rw [h3 _ g6]; exact g3⟩
      have hcl := I.solo.client
      by_cases hph : ph.closed = []
      · exfalso
        have hcl' : ∃ p ∈ prev, AnswerTo (codecAt rr (Rust.genProg (Rust.argsSchema S)) k) st f (s.server.mem f.position).client p.1 p.2 := by
          cases ph <;> simp only [Phase.Client, Phase.closed] at hcl hph <;> first | exact hcl.resolve_left (fun h' => h' hR) | simp at hph
        obtain ⟨p, hp1, hp2⟩ := hcl'
        obtain ⟨l, hl⟩ := List.mem_iff_getElem?.1 hp1
        obtain ⟨rfl, -⟩ := key l p.1 p.2 (by rw [hph, List.append_nil]; exact hl) hp2
        exact J.unfinished _ _ _ hp (I.closed _ _ _ hj' (List.getElem?_eq_some_iff.1 hl).1)
      · cases ph with
        | answered q r =>
          simp only [Phase.Client] at hcl
          have hl : (prev ++ (Phase.answered q r).closed)[prev.length]? = some (q, r) := by simp [Phase.closed]
          obtain ⟨e, v, g1, g2⟩ := key _ q r hl hcl
          exact ⟨q, r, v, e ▸ hl, g1, g2⟩
        | _ => simp [Phase.closed] at hph

theorem single_acts (h : SystemOk x rr rt hd S) (hf : f ∈ methodsOf S) (hr : f.isRead = false) (ha : f.isAsync = true)
    (hst : ∀ P k, (codecAt rr P k).StatusOk st) (hlib : lib.Lawful) (hk : N ≤ k)
    (hm : NoMessage (rr.readP "u8") (mem f.position).server) (hmc : NoMessage (rr.readP "u8") (mem f.position).client)
    (hcl : ∀ bs, SysAct.server (.clear f.position bs) ∉ xs)
    (hnr : ∀ bs, SysAct.server (.request f.position bs) ∉ xs) {T : Nat} (hcalls : Calls x rr rt hd S f st rot xs N k T)
    (hres : Results x rr rt S f xs k) (hids : FreshIds rot T) (ns sc : String) {as : List SysAct} (has : ∀ a ∈ as, a ∈ xs)
    {s s' : Sys σ} (J : Joint x rr S f scope st lib U mem u rot xs N k s) (I : Single x rr S f st rot N k prev ph s)
    (hT : (callsOf (x.camel f.id) s).length + as.countP (SysAct.isCall (x.camel f.id)) ≤ T)
    (hone : OneAtATime (x.camel f.id) (sysActs (codecAt rr (Rust.genProg (Rust.argsSchema S)) k) lib U (Rust.genRpc scope S).handlers rt
      (Dart.genProg x S) k hd rot (genClient x ns sc S) s) as)
    (hs : sysActs (codecAt rr (Rust.genProg (Rust.argsSchema S)) k) lib U (Rust.genRpc scope S).handlers rt (Dart.genProg x S) k hd rot
      (genClient x ns sc S) s as = some s') (hty : Typed rr.wire S f s'.server.log) :
    ∃ prev ph, Single x rr S f st rot N k prev ph s' := by
  induction as generalizing s prev ph with
  | nil =>
    simp only [sysActs, Option.some.injEq] at hs
    subst hs
    exact ⟨prev, ph, I⟩
  | cons a as ih =>
    have hlog := sysActs_log hs
    simp only [sysActs] at hs
    split at hs
    case h_2 => simp at hs
    case h_1 s1 hs1 =>
    have hc := sysAct_calls hs1 (x.camel f.id)
    simp only [List.countP_cons] at hT
    have hty0 : Typed rr.wire S f s.server.log := fun vs r he => hty vs r (hlog _ he)
    have hone' : OneAtATime (x.camel f.id) (sysActs (codecAt rr (Rust.genProg (Rust.argsSchema S)) k) lib U (Rust.genRpc scope S).handlers rt
        (Dart.genProg x S) k hd rot (genClient x ns sc S) s1) as := by
      intro ys ds zs s2 e h2
      refine hone (a :: ys) ds zs s2 (by rw [e]; rfl) ?_
      simp only [sysActs, hs1]
      exact h2
    have J1 : Joint x rr S f scope st lib U mem u rot xs N k s1 := by
      cases a with
      | server a => exact joint_server J (.inl (has _ (by simp))) (fun bs e => hnr bs (e ▸ has _ (by simp))) ns sc hs1
      | call n ds =>
        refine joint_call h hf hr ha hcalls hids ns sc J (has _ (by simp)) ?_ hs1
        simp only [SysAct.isCall, beq_iff_eq] at hT
        omega
      | read v =>
        exact joint_read h hf hr ha hst hlib hk hm hmc (fun bs hb => absurd hb (hcl bs)) hres hids ns sc J hty0 (by omega) hs1
    have I1 : ∃ prev ph, Single x rr S f st rot N k prev ph s1 := by
      cases a with
      | server a =>
        simp only [sysAct] at hs1
        split at hs1
        case h_2 => simp at hs1
        case h_1 c hact =>
        simp only [Option.some.injEq] at hs1
        subst hs1
        obtain ⟨sv, cl, cs⟩ := s
        exact ⟨prev, single_server h hf hr ha hst hlib hk (fun bs e => hnr bs (e ▸ has _ (by simp))) (fun bs e => hcl bs (e ▸ has _ (by simp)))
          I hact rfl rfl⟩
      | call n ds =>
        refine single_call h hf hr ha hst hlib hk hcalls ns sc J I (has _ (by simp)) ?_ ?_ hs1
        · simp only [SysAct.isCall, beq_iff_eq] at hT
          omega
        · rintro rfl
          exact hone [] ds as s rfl rfl
      | read v => exact ⟨prev, ph, single_read h hf hr ha hst hres hids ns sc J I hty0 (by omega) hs1⟩
    obtain ⟨prev1, ph1, I1⟩ := I1
    exact ih (fun b hb => has b (by simp [hb])) J1 I1 (by omega) hone' hs

theorem not_ready {P : Rust.Prog} {bs : Bytes} (h : NoMessage (rr.readP "u8") bs) : ¬ Rust.Ready (codecAt rr P k) bs := by
  rintro ⟨b, hb⟩
  obtain ⟨n0, r0, hs0, hn0⟩ := Props.readStatus_noMessage (P := P) (k := k) h
  rw [hs0] at hb
  simp at hb
  exact hn0 hb.1

theorem start_shape (h : SystemOk x rr rt hd S) (ns sc : String) {s0 : Sys σ}
    (h0 : start lib rt (Dart.genProg x S) k hd rot (genClient x ns sc S) mem u = some s0) : ∃ cl, s0 = ⟨Cfg.initial mem u, cl, []⟩ := by
  simp only [start, Dart.create_eq h.client ns sc, Option.some.injEq] at h0
  exact ⟨_, h0.symm⟩

theorem single_init (hm : NoMessage (rr.readP "u8") (mem f.position).server) (hmc : NoMessage (rr.readP "u8") (mem f.position).client)
    {s0 : Sys σ} {cl : ClientState} (h0 : s0 = ⟨Cfg.initial mem u, cl, []⟩) : Single x rr S f st rot N k [] .idle s0 := by
  subst h0
  exact ⟨Rust.solo_init (not_ready hm) (not_ready hmc), rfl, by simp [callsOf], by simp [callsOf], by simp [callsOf]⟩

/-- When nothing is left to do for the server, the last request has been answered. -/
theorem Single.settled (hst : ∀ P k, (codecAt rr P k).StatusOk st) (hk : N ≤ k)
    {s : Sys σ} (I : Single x rr S f st rot N k prev ph s) (hq : Settled (rr.readP "u8") f s.server) : ph.rq = none ∨ ph.closed ≠ [] := by
  have hQ : Rust.Readable (codecAt rr (Rust.genProg (Rust.argsSchema S)) k) st f (ReadableAt rr S f st N) := by
    intro q bs hq
    obtain ⟨-, h2, b, h3, h4⟩ := hq
    exact ⟨h2, b, h3, fun r => by simp [codecAt, h4 k hk r]⟩
  have hb := I.solo.buf
  have hrun := I.solo.run
  have ht := I.solo.tasks
  cases ph with
  | idle => exact .inl rfl
  | posted q => exact absurd (Rust.holds_busy (hst _ _) hQ hb) (not_ready hq.buffer)
  | read q => exact absurd (Rust.holds_busy (hst _ _) hQ hb) (not_ready hq.buffer)
  | taken q =>
    exfalso
    simp only [Phase.hold] at hrun
    have : ∃ r, s.server.run = some r ∧ r.addr = f.position := by
      generalize s.server.run = R at hrun
      cases hrun <;> exact ⟨_, rfl, rfl⟩
    obtain ⟨r, h1, h2⟩ := this
    exact hq.handler r h1 h2
  | running q g =>
    exfalso
    obtain ⟨l1, t, l2, h1, h2, h3, -⟩ := ht
    have := hq.futures t (by rw [h1]; simp) h2
    obtain ⟨ta, tt⟩ := t
    cases h3 <;> simp [Rust.rqFut] at this
  | answered q r => exact .inr (by simp [Phase.closed])

/-- A run of the read task completes the last call when its request has been answered. -/
theorem completes_last (h : SystemOk x rr rt hd S) (hf : f ∈ methodsOf S) (hr : f.isRead = false) (ha : f.isAsync = true)
    (hst : ∀ P k, (codecAt rr P k).StatusOk st) (hres : Results x rr rt S f xs k) (ns sc : String) {s : Sys σ}
    (J : Joint x rr S f scope st lib U mem u rot xs N k s) (I : Single x rr S f st rot N k prev ph s)
    (hT : Typed rr.wire S f s.server.log) (hph : ph.rq = none ∨ ph.closed ≠ []) {C : Codec} {regs : List (Nat × Handler)}
    {ds : List Val} {n : Nat} (hc : (x.camel f.id, ds, n) ∈ s.calls) (hnd : n ∉ s.client.done.map (·.1)) :
    ∃ c dv, sysAct C lib U regs rt (Dart.genProg x S) k hd rot (genClient x ns sc S) s (.read (Props.readTask x f)) = some { s with client := c } ∧
      (n, dv) ∈ c.done ∧ ∀ ds' n', (x.camel f.id, ds', n') ∈ s.calls → n' ∈ c.done.map (·.1) := by
  obtain ⟨j, hj⟩ := List.mem_iff_getElem?.1 (callsOf_mem.2 hc)
  have hl := I.length
  have hlast : ∀ (j : Nat) ds n, (callsOf (x.camel f.id) s)[j]? = some (x.camel f.id, ds, n) → n ∉ s.client.done.map (·.1) → j = prev.length ∧ ∃ q r, ph = .answered q r := by
    intro j ds n hj hnd
    have h1 : ¬ j < prev.length := fun hlt => hnd (I.closed _ _ _ hj hlt)
    have h2 := (List.getElem?_eq_some_iff.1 hj).1
    cases ph with
    | answered q r =>
      simp only [requests, Phase.rq, Option.toList, List.length_append, List.length_map, List.length_singleton] at hl
      exact ⟨by omega, q, r, rfl⟩
    | idle =>
      simp only [requests, Phase.rq, Option.toList, List.length_append, List.length_map, List.length_nil] at hl
      omega
    | _ => simp [Phase.rq, Phase.closed] at hph
  obtain ⟨rfl, q, r, rfl⟩ := hlast j ds n hj hnd
  obtain ⟨ds', n', v, dv, r1, r2, g1, -, -, g2, g3, g4⟩ := I.reads h hst hres J hT (j := prev.length) (q := q) (r := r) (by simp [Phase.closed]) I.solo.client
  have hp : s.client.pending (varMethodCompleters x f) (idAt rot prev.length) = some n := (J.live _ _ _ hj).resolve_right hnd
  have hlk : s.client.tasks.lookup (Props.readTask x f) = some ⟨f.position, .client, Dart.answerReader x f⟩ := by
    rw [J.tasks]; exact Props.task_lookup h.client hf hr ha
  have e0 : ((s.server.mem f.position).get .client) = (s.server.mem f.position).client := rfl
  refine ⟨_, dv, by
    simp only [sysAct, hlk, Dart.runTask, e0, Dart.reader_pending ns sc hf hr ha g2 g3 g4 hp hnd, bind, Except.bind]
    rfl, by simp [ClientState.remove], fun ds2 n2 hc2 => ?_⟩
  simp only [ClientState.remove, List.map_append, List.map_cons, List.map_nil, List.mem_append, List.mem_singleton]
  by_cases hd2 : n2 ∈ s.client.done.map (·.1)
  · exact .inl hd2
  · obtain ⟨j2, hj2⟩ := List.mem_iff_getElem?.1 (callsOf_mem.2 hc2)
    obtain ⟨rfl, -⟩ := hlast j2 ds2 n2 hj2 hd2
    rw [hj] at hj2
    cases hj2
    exact .inr rfl

end
end TPB.Rpc
