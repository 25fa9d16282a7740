/-
Property theorems about requests that are never executed: C52.
-/
import Verif.Props.RpcSystem
namespace TPB.Props
open Spec Rust

/-! ## C52: no request is lost -/

/-- Requests of `f` are only written into a server buffer that holds no message. -/
def Polite {σ : Type} (rt : Runtime) (f : FnNode) (run : List Act → Option (Cfg σ)) (xs : List Act) : Prop :=
  ∀ ys bs zs c, xs = ys ++ Act.request f.position bs :: zs → run ys = some c → NoMessage (rt.readP "u8") (c.mem f.position).server

/-- Nothing is left to do for the server: its buffer holds no message, no handler is running, and each
future that has been spawned has ended or waits for the user's function. -/
def Idle {σ : Type} (rt : Runtime) (f : FnNode) (c : Cfg σ) : Prop :=
  NoMessage (rt.readP "u8") (c.mem f.position).server ∧ c.run.isNone = true ∧
    ∀ t ∈ c.tasks, t.addr = f.position → t.thread.code = [] ∨ t.thread.wait.isSome = true

theorem not_busy {rt : Runtime} {P : Prog} {k : Nat} {m : Bufs} (h : NoMessage (rt.readP "u8") m.server) : ¬ Busy (codecAt rt P k) m := by
  rintro ⟨b, hb⟩
  obtain ⟨n0, r0, hs0, hn0⟩ := readStatus_noMessage (P := P) (k := k) h
  rw [hs0] at hb
  simp at hb
  exact hn0 hb.1

/-- Requests in the log have been made. -/
theorem requested_mem {σ : Type} {C : Codec} {lib : BufLib} {U : User σ} {regs : List (Nat × Handler)} {xs : List Act} {c c' : Cfg σ}
    (h : acts C lib U regs c xs = some c') {p : Nat} {bs : Bytes} (hb : Ev.requested p bs ∈ c'.log) :
    Ev.requested p bs ∈ c.log ∨ Act.request p bs ∈ xs := by
  induction xs generalizing c with
  | nil =>
    simp only [acts, Option.some.injEq] at h
    subst h
    exact .inl hb
  | cons x xs ih =>
    simp only [acts] at h
    split at h
    · rename_i c1 hx
      rcases ih h with h1 | h1
      · rcases (Rpc.act_log hx).2 _ _ h1 with h2 | h2
        · exact .inl h2
        · exact .inr (by simp [h2])
      · exact .inr (by simp [h1])
    · simp at h

theorem num_congr {α : Type} {p q : α → Prop} {l : List α} (h : ∀ x ∈ l, p x ↔ q x) : num p l = num q l :=
  Nat.le_antisymm (num_mono fun x hx => (h x hx).1) (num_mono fun x hx => (h x hx).2)

/-- In an idle state nothing is held back. -/
theorem idle_count {σ : Type} {rt : Runtime} {P : Prog} {k : Nat} {K E : Prop} {L : List Val → Nat} {st : Status → Bytes} {f : FnNode} {Q : Rq → Bytes → Prop}
    {c : Cfg σ} (hst : (codecAt rt P k).StatusOk st) (hQ : Readable (codecAt rt P k) st f Q) (hE : E)
    (h : RqInv K E L (codecAt rt P k) st f f.position Q c) (hi : Idle rt f c) (vs : List Val) :
    num (Ev.IsCall f.position f.id vs) c.log + L vs = num (Ev.IsRequest Q f.position vs) c.log := by
  obtain ⟨hT, ⟨H, B, D, -, hD, hR, -, hB, -, hC⟩, -⟩ := h
  obtain ⟨h1, h2, h3⟩ := hi
  have hH : H = .no := by
    cases hrun : c.run with
    | some r => simp [hrun] at h2
    | none => rw [hrun] at hR; cases hR; rfl
  subst hH
  have hBn : B = none := by
    cases B with
    | none => rfl
    | some q => exact absurd (holds_busy hst hQ hB) (not_busy h1)
  subst hBn
  have hp : num (Task.Pend f f.position vs) c.tasks = 0 := by
    refine num_zero fun t ht hp => ?_
    obtain ⟨ha, hl, -⟩ := hp
    obtain ⟨-, q, -, hq⟩ := hT t ht ha
    obtain ⟨ta, tt⟩ := t
    rcases h3 _ ht ha with h4 | h4
    · simp only at h4; simp [h4] at hl
    · cases hq <;> simp at h4 hl
  have := hC vs
  rw [hp] at this
  simp only [Hold.count] at this
  rw [one_false (by simp), (hD hE).1] at this
  omega

/-- **C52 for clients that wait, partial.** If each request of `f` is only written while the server buffer
of `f` holds no message, then whatever else happens and in whatever order: whenever the server has nothing
left to do, the method has been called with given arguments exactly as often as it has been requested with
them.  Missing: the emitted client does not wait, see `C52_overwritten` and `C52_calls_at_once`. -/
theorem C52_polite_partial (rt : Runtime) (hrt : rt.Lawful) (S : List ASTNode) (h : RpcOk rt.wire S)
    (hM : methodsOf S ≠ []) (out : String) (hout : RustGen.rpc S = .ok out) :
    ∃ P R, Emits S P ∧ EmitsRpc S R ∧ ∀ f ∈ methodsOf S, f.isRead = false →
      ∀ (σ : Type) (lib : BufLib) (_ : lib.Lawful) (U : User σ) (mem : Nat → Bufs) (u : σ) (xs : List Act),
        NoMessage (rt.readP "u8") (mem f.position).server → OnlyRequests rt.wire S f xs →
        ∃ N, ∀ k, N ≤ k → Polite rt f (acts (codecAt rt (P.withArgs R) k) lib U R.handlers (Cfg.initial mem u)) xs →
          ∀ c, acts (codecAt rt (P.withArgs R) k) lib U R.handlers (Cfg.initial mem u) xs = some c → Idle rt f c →
          ∀ vs, num (fun e => e = Ev.called f.position f.id vs) c.log
            = num (fun e => ∃ mid bs, e = Ev.requested f.position bs ∧ Request rt.wire S f mid vs bs) c.log := by
  obtain ⟨scope, hR⟩ := emitsRpc_of h.accepted.wf hout hM
  obtain ⟨st, hst⟩ := statusOk_codecAt hrt
  refine ⟨_, _, emits_genProg S h.accepted, hR, fun f hf hr σ lib hlib U mem u xs hm hreq => ?_⟩
  rw [withArgs_genProg]
  obtain ⟨N, hN⟩ := readable_requests hrt h hf hr st hst hreq
  refine ⟨N, fun k hk hpol c hc hi vs => ?_⟩
  have hI := requests_inv hrt h hf hr scope hst hlib U mem u False True
    (fun _ ys bs zs c e hc => not_busy (hpol ys bs zs c e hc)) (by simp) hk hN (not_busy hm) (by simp) hc
  have hQ : Readable (codecAt rt (genProg (argsSchema S)) k) st f (ReadableAt rt S f st N) := by
    rintro q bs ⟨_, hok, b, hb, hread⟩
    exact ⟨hok, b, hb, fun r => by simp only [codecAt, hread k hk r]⟩
  have h1 := idle_count (hst _ _) hQ trivial hI hi vs
  rw [Nat.add_zero] at h1
  refine h1.trans (num_congr ?_)
  intro e he
  constructor
  · rintro ⟨i, bs, rfl, hq⟩
    exact ⟨i, bs, rfl, hq.1⟩
  · rintro ⟨i, bs, rfl, hq⟩
    obtain ⟨q, hq'⟩ := hN bs ((requested_mem hc he).resolve_left (by simp [Cfg.initial]))
    obtain ⟨-, rfl⟩ := Rpc.request_unique hrt h hf hr hq'.1 hq
    exact ⟨q.1, bs, rfl, hq'⟩

/-- The invariant goes on to hold. -/
theorem requests_inv_from {rt : Runtime} {S : List ASTNode} (h : RpcOk rt.wire S) {f : FnNode} (hf : f ∈ methodsOf S)
    (hr : f.isRead = false) (scope : String) {st : Status → Bytes} (hst : ∀ P k, (codecAt rt P k).StatusOk st)
    {σ : Type} {lib : BufLib} (hlib : lib.Lawful) {U : User σ} {xs : List Act} {k N : Nat} {L : List Val → Nat} (hk : N ≤ k)
    (hN : ∀ bs, Act.request f.position bs ∈ xs → ∃ q, ReadableAt rt S f st N q bs) {c c' : Cfg σ}
    (hI : RqInv False False L (codecAt rt (genProg (argsSchema S)) k) st f f.position (ReadableAt rt S f st N) c)
    (hc : acts (codecAt rt (genProg (argsSchema S)) k) lib U (genRpc scope S).handlers c xs = some c') :
    RqInv False False L (codecAt rt (genProg (argsSchema S)) k) st f f.position (ReadableAt rt S f st N) c' := by
  refine acts_inv (RqInv False False L (codecAt rt (genProg (argsSchema S)) k) st f f.position (ReadableAt rt S f st N)) ?_ hI hc
  intro x hx c c' hI hact
  refine rqInv_act (Q := ReadableAt rt S f st N) (hst (genProg (argsSchema S)) k) hlib hr (h.rpcNamed.args f hf).1 (h.rpcNamed.args f hf).2
    (handlers_lookup scope h.accepted.wf h.rpcNamed.methods hf) ?_ ?_ (by simp) (by simp) (by simp) hI hact
  · rintro q bs ⟨_, hok, b, hb, hread⟩
    exact ⟨hok, b, hb, fun r => by simp only [codecAt, hread k hk r]⟩
  · rintro bs rfl
    exact hN bs hx

/-- A request that is written over one that has not been read: the latter is lost. -/
theorem overwritten {σ : Type} {C : Codec} {lib : BufLib} (hlib : lib.Lawful) {U : User σ} {regs : List (Nat × Handler)} {st : Status → Bytes}
    {f : FnNode} {a : Nat} {Q : Rq → Bytes → Prop} (hst : C.StatusOk st) (hQ : Readable C st f Q) {c c' : Cfg σ}
    (hI : RqInv False False (fun _ => 0) C st f a Q c) (hrun : c.run = none) {b0 r0 : Bytes} {q0 q : Rq} {bs : Bytes} (hb : (c.mem a).server = b0 ++ r0)
    (hq0 : Q q0 b0) (hq : Q q bs) (hact : act C lib U regs c (.request a bs) = some c') :
    RqInv False False (fun vs => one (q0.2 = vs)) C st f a Q c' := by
  obtain ⟨hT, ⟨H, B, D, hL, hE, hR, hA, hB, hBA, hC⟩, hK⟩ := hI
  have hH : H = .no := by rw [hrun] at hR; cases hR; rfl
  subst hH
  have hB' : B = some q0 := by
    cases B with
    | none => exact absurd (holds_busy hst hQ ⟨b0, r0, hb, hq0⟩) hB
    | some q1 =>
      obtain ⟨b1, r1, e1, h1⟩ := hB
      obtain ⟨k1, x1, rfl, rd1⟩ := hQ _ _ h1
      obtain ⟨k0, x0, rfl, rd0⟩ := hQ _ _ hq0
      rw [hb, List.append_assoc, List.append_assoc] at e1
      have e2 := List.append_cancel_left e1
      have := rd0 r0
      rw [e2, rd1 r1] at this
      rw [argsVal_inj k1 k0 (Option.some.inj this)]
  subst hB'
  simp only [act, Option.some.injEq] at hact
  subst hact
  have hone : ∀ vs, ∃ d, one (Ev.IsRequest Q a vs (.requested a bs)) = one (q.2 = vs) + d := by
    intro vs
    have : one (q.2 = vs) ≤ one (Ev.IsRequest Q a vs (.requested a bs)) := by
      refine one_mono ?_
      rintro rfl
      exact ⟨q.1, bs, rfl, hq⟩
    exact ⟨one (Ev.IsRequest Q a vs (.requested a bs)) - one (q.2 = vs), by omega⟩
  obtain ⟨d, hd⟩ := Classical.axiomOfChoice hone
  refine ⟨?_, ⟨.no, some q, fun vs => D vs + one (q0.2 = vs) + d vs, fun vs => by show _ ≤ D vs + one (q0.2 = vs) + d vs; omega, by simp, hR, trivial, ?_, ?_, ?_⟩, by simp⟩
  · intro x hx e
    obtain ⟨h1, q, hq, hq2⟩ := hT x hx e
    exact ⟨h1, q, hq.mono, hq2.mono (fun r h => by simp [h])⟩
  · obtain ⟨r, hr⟩ := hlib (c.mem a).server bs
    exact ⟨bs, r, by simpa only [setMem_self] using hr, hq⟩
  · intro q' e
    simp only [Option.some.injEq] at e
    subst e
    exact ⟨bs, by simp, hq⟩
  · intro vs
    have hv := hC vs
    have hdv := hd vs
    simp only [Hold.count, Option.some.injEq, exists_eq_left'] at hv ⊢
    simp only [num_append, num_cons, num_nil]
    rw [one_false (p := Ev.IsCall a f.id vs (.requested a bs)) (by simp [Ev.IsCall])]
    omega

/-- **C52 does not hold.** Let the server buffer hold a request with arguments `vs`, and let no handler be
running.  If another request is written now, then whatever happens afterwards, the method has been called
with the arguments `vs` less often than it has been requested with them: a request has been lost for good. -/
theorem C52_overwritten (rt : Runtime) (hrt : rt.Lawful) (S : List ASTNode) (h : RpcOk rt.wire S)
    (hM : methodsOf S ≠ []) (out : String) (hout : RustGen.rpc S = .ok out) :
    ∃ P R, Emits S P ∧ EmitsRpc S R ∧ ∀ f ∈ methodsOf S, f.isRead = false →
      ∀ (σ : Type) (lib : BufLib) (_ : lib.Lawful) (U : User σ) (mem : Nat → Bufs) (u : σ) (xs zs : List Act) (bs : Bytes),
        NoMessage (rt.readP "u8") (mem f.position).server → OnlyRequests rt.wire S f (xs ++ .request f.position bs :: zs) →
        ∀ (mid : Option Int) (vs : List Val) (b rest : Bytes), Request rt.wire S f mid vs b →
        ∃ N, ∀ k, N ≤ k → ∀ c c', acts (codecAt rt (P.withArgs R) k) lib U R.handlers (Cfg.initial mem u) xs = some c →
          c.run.isNone = true → (c.mem f.position).server = b ++ rest →
          acts (codecAt rt (P.withArgs R) k) lib U R.handlers c (.request f.position bs :: zs) = some c' →
          num (fun e => e = Ev.called f.position f.id vs) c'.log
            < num (fun e => ∃ mid bs, e = Ev.requested f.position bs ∧ Request rt.wire S f mid vs bs) c'.log := by
  obtain ⟨scope, hR⟩ := emitsRpc_of h.accepted.wf hout hM
  obtain ⟨st, hst⟩ := statusOk_codecAt hrt
  refine ⟨_, _, emits_genProg S h.accepted, hR, fun f hf hr σ lib hlib U mem u xs zs bs hm hreq mid vs b rest hb => ?_⟩
  rw [withArgs_genProg]
  obtain ⟨N, hN⟩ := readable_requests hrt h hf hr st hst (xs := xs ++ .request f.position bs :: .request f.position b :: zs) (by
    intro x hx
    simp only [List.mem_append, List.mem_cons] at hx
    rcases hx with hx | hx | hx | hx
    · exact hreq x (by simp [hx])
    · exact hreq x (by simp [hx])
    · simp only [Act.request.injEq, true_and] at hx
      subst hx
      exact ⟨mid, vs, hb⟩
    · exact hreq x (by simp [hx]))
  refine ⟨N, fun k hk c c' hc hrun hserver hc' => ?_⟩
  have hI := requests_inv hrt h hf hr scope hst hlib U mem u False False (by simp) (by simp) hk
    (fun bs hbs => hN bs (by simp [hbs])) (not_busy hm) (by simp) hc
  have hQ : Readable (codecAt rt (genProg (argsSchema S)) k) st f (ReadableAt rt S f st N) := by
    rintro q bs ⟨_, hok, b, hb, hread⟩
    exact ⟨hok, b, hb, fun r => by simp only [codecAt, hread k hk r]⟩
  obtain ⟨q0, hq0⟩ := hN b (by simp)
  obtain ⟨q, hq⟩ := hN bs (by simp)
  obtain ⟨-, e0⟩ := Rpc.request_unique hrt h hf hr hq0.1 hb
  simp only [acts] at hc'
  split at hc'
  · rename_i c1 hact
    have hI1 := overwritten hlib (hst _ _) hQ hI (by simpa using hrun) hserver hq0 hq hact
    have hI2 := requests_inv_from h hf hr scope hst hlib hk (fun bs hbs => hN bs (by simp [hbs])) hI1 hc'
    obtain ⟨_, ⟨H, B, D, hL, _, _, _, _, _, hcount⟩, _⟩ := hI2
    have h1 := hcount vs
    have h2 := hL vs
    rw [one_true e0] at h2
    refine Nat.lt_of_lt_of_le (m := num (Ev.IsRequest (ReadableAt rt S f st N) f.position vs) c'.log) ?_ (num_mono ?_)
    · show num (Ev.IsCall f.position f.id vs) c'.log < _
      omega
    · rintro e _ ⟨i, bs, rfl, hq⟩
      exact ⟨i, bs, rfl, hq.1⟩
  · simp at hc'

/-- A history of the example schema in which the client waits: the second request is written after the
first one has been read. -/
def politeHistory : List Act :=
  [.request 1 (255 :: (LE.le 8 6 ++ ptBytes 1)), .poll 1] ++ List.replicate 4 .stepH ++
    [.request 1 (255 :: (LE.le 8 9 ++ ptBytes 2))] ++ List.replicate 4 .stepH ++ [.endH, .poll 1] ++ List.replicate 8 .stepH ++
    [.endH, .stepT 0, .stepT 1, .stepT 0, .stepT 1]

/-- A request of `slow` in the example schema. -/
theorem slow_request (x : Int) (hx : -(2 ^ 31) ≤ x ∧ x < 2 ^ 31) (i : Nat) (hi : i < 100) :
    Request LE.wire rpcSchema slow (some i) [pt x] (255 :: (LE.le 8 i ++ ptBytes x)) := by
  refine ⟨rfl, [255], LE.le 8 i, ptBytes x ++ [], rfl, ?_, pt_enc hx .nil, by simp⟩
  have : builtinTypes.lookup "i64" = some (.integer "i64" 8 true) := rfl
  simp only [IdBytes, LE.wire, this, LE.primOf]
  rw [if_pos (by omega)]
  have : LE.toUnsigned 8 i = i := by simp [LE.toUnsigned]; omega
  rw [this]

def runServer (xs : List Act) : Option (Cfg Nat) :=
  acts exampleCodec overwrite exampleUser (genRpc "8b61" rpcSchema).handlers (Cfg.initial (fun _ => ⟨[0], [0]⟩) 0) xs

theorem noMessage_zero (r : Bytes) : NoMessage (LE.rust.readP "u8") (0 :: r) := ⟨0, r, rfl, by decide⟩

/-- Is the action at `i` not a request, or is there no message in the buffer? -/
def politeAt (xs : List Act) (i : Nat) : Bool :=
  match xs[i]? with
  | some (.request 1 _) => (runServer (xs.take i)).all (fun c => (c.mem 1).server.head? == some 0)
  | _ => true

/-- The hypotheses of `C52_polite_partial` are met, and two calls are made. -/
example : Polite LE.rust slow runServer politeHistory := by
  rintro ys bs zs c e hc
  have key : ∀ i < 26, politeAt politeHistory i = true := by decide +kernel
  have hlen : politeHistory.length = 26 := by decide
  have h1 : politeHistory[ys.length]? = some (.request 1 bs) := by rw [e]; simp [slow]
  have h2 : politeHistory.take ys.length = ys := by rw [e]; simp
  have h3 := key ys.length (by rw [← hlen, e]; simp)
  simp only [politeAt, h1, h2, hc, Option.all_some, beq_iff_eq] at h3
  show NoMessage _ (c.mem 1).server
  cases hs : (c.mem 1).server with
  | nil => simp [hs] at h3
  | cons x r =>
    simp only [hs, List.head?_cons, Option.some.injEq] at h3
    subst h3
    exact noMessage_zero r

example : OnlyRequests LE.wire rpcSchema slow politeHistory := by
  intro bs h
  simp [politeHistory, slow] at h
  rcases h with rfl | rfl
  · exact ⟨_, _, slow_request 1 (by decide) 6 (by decide)⟩
  · exact ⟨_, _, slow_request 2 (by decide) 9 (by decide)⟩

example : (runServer politeHistory).map (fun c => (c.log.countP (Ev.calledAt 1), (c.mem 1).server.head?, c.run.isNone,
      c.tasks.all (fun t => t.thread.code.isEmpty || t.thread.wait.isSome))) = some (2, some 0, true, true) := by
  decide +kernel

/-! ### The emitted client -/

/-- Two calls of `slow` at once. -/
def callsAtOnce : List Rpc.SysAct := [.call "slow" [pt 1], .call "slow" [pt 2]]

/-- What the server sees of them. -/
theorem callsAtOnce_server : (runExample callsAtOnce).map (fun s => s.server)
    = runServer [.request 1 (255 :: (LE.le 8 0 ++ ptBytes 1)), .request 1 (255 :: (LE.le 8 1 ++ ptBytes 2))] := by
  set_option maxRecDepth 100000 in rfl

/-- Nobody writes into the server buffer of `slow`. -/
def NoCalls (zs : List Rpc.SysAct) : Prop := ∀ z ∈ zs, (∃ v, z = .read v) ∨ ∃ a, z = .server a ∧ ∀ bs, a ≠ .request 1 bs

theorem server_of_noCalls {σ : Type} {C : Codec} {lib : BufLib} {U : User σ} {regs : List (Nat × Handler)} {rt : Dart.Runtime} {P : Dart.Prog}
    {k : Nat} {hd : Int} {rot : Int → Int} {cl : Dart.Client} {zs : List Rpc.SysAct} (hz : NoCalls zs) {s s' : Rpc.Sys σ}
    (h : Rpc.sysActs C lib U regs rt P k hd rot cl s zs = some s') :
    ∃ ys, acts C lib U regs s.server ys = some s'.server ∧ ∀ bs, Act.request 1 bs ∉ ys := by
  induction zs generalizing s with
  | nil =>
    simp only [Rpc.sysActs, Option.some.injEq] at h
    subst h
    exact ⟨[], rfl, by simp⟩
  | cons z zs ih =>
    simp only [Rpc.sysActs] at h
    split at h
    · rename_i s1 h1
      obtain ⟨ys, hy, hn⟩ := ih (fun z hz' => hz z (by simp [hz'])) h
      rcases hz z (by simp) with ⟨v, rfl⟩ | ⟨a, rfl, ha⟩
      · simp only [Rpc.sysAct] at h1
        split at h1
        · split at h1
          · simp only [Option.some.injEq] at h1
            subst h1
            exact ⟨ys, hy, hn⟩
          · simp at h1
        · simp at h1
      · simp only [Rpc.sysAct] at h1
        split at h1
        · rename_i c hc
          simp only [Option.some.injEq] at h1
          subst h1
          refine ⟨a :: ys, by simp only [acts, hc]; exact hy, fun bs hb => ?_⟩
          rcases List.mem_cons.1 hb with e | hb
          · exact ha bs e.symm
          · exact hn bs hb
        · simp at h1
    · simp at h

/-- The two requests. -/
def slowRequests (q : Rq) (bs : Bytes) : Prop :=
  (q = (some 0, [pt 1]) ∧ bs = 255 :: (LE.le 8 0 ++ ptBytes 1)) ∨ (q = (some 1, [pt 2]) ∧ bs = 255 :: (LE.le 8 1 ++ ptBytes 2))

def statusByte : Status → Bytes
  | .x00 => [0]
  | .xFF => [255]

theorem exampleCodec_status : exampleCodec.StatusOk statusByte := by
  intro s
  cases s <;> exact ⟨rfl, fun r => rfl⟩

theorem slowRequests_readable : Readable exampleCodec statusByte slow slowRequests := by
  rintro q bs (⟨rfl, rfl⟩ | ⟨rfl, rfl⟩)
  · exact ⟨⟨rfl, rfl⟩, LE.le 8 0 ++ ptBytes 1, rfl, fun r => rfl⟩
  · exact ⟨⟨rfl, rfl⟩, LE.le 8 1 ++ ptBytes 2, rfl, fun r => rfl⟩

/-- Only requests are requests. -/
theorem request_num {σ : Type} {C : Codec} {lib : BufLib} {U : User σ} {regs : List (Nat × Handler)} {Q : Rq → Bytes → Prop} {a : Nat} {vs : List Val}
    {x : Act} (hx : ∀ bs, x ≠ .request a bs) {c c' : Cfg σ} (h : act C lib U regs c x = some c') :
    num (Ev.IsRequest Q a vs) c'.log = num (Ev.IsRequest Q a vs) c.log := by
  have one0 : ∀ e : Ev, (∀ bs, e ≠ .requested a bs) → num (Ev.IsRequest Q a vs) [e] = 0 := by
    intro e he
    refine num_zero ?_
    rintro _ hm ⟨i, bs, rfl, -⟩
    simp only [List.mem_singleton] at hm
    exact he bs hm.symm
  cases x <;> simp only [act] at h <;> (repeat' split at h) <;>
    first
      | (simp at h; done)
      | (simp only [Option.some.injEq] at h
         subst h
         first
           | rfl
           | (simp only [num_append, num_called_request]; rfl)
           | (simp only [num_append]
              rw [one0 _ (by intro bs e; simp at e <;> exact hx bs (by simp [e]))]
              rfl))

/-- **C52 does not hold of the emitted client.** In the example, the client calls `slow` twice, without the
server running in between.  Whatever the server and the scheduler of the client do afterwards: `slow` is
never called with the argument of the first call. -/
theorem C52_client :
    ∃ P R Q C, Rust.Emits rpcSchema P ∧ Rust.EmitsRpc rpcSchema R ∧ Dart.Emits testExt rpcSchema Q ∧ Dart.EmitsRpc testExt rpcSchema C ∧
      ∃ s0 s, Rpc.start overwrite LE.dart Q 10 (-1) (· + 1) C (fun _ => ⟨[0], [0]⟩) 0 = some s0 ∧
        Rpc.sysActs (codecAt LE.rust (P.withArgs R) 10) overwrite exampleUser R.handlers LE.dart Q 10 (-1) (· + 1) C s0
          [.call "slow" [pt 1], .call "slow" [pt 2]] = some s ∧
        s.calls.map (fun c => (c.1, c.2.2)) = [("slow", 0), ("slow", 1)] ∧
        ∀ zs, NoCalls zs → ∀ s', Rpc.sysActs (codecAt LE.rust (P.withArgs R) 10) overwrite exampleUser R.handlers LE.dart Q 10 (-1) (· + 1) C s zs = some s' →
          Ev.called 1 "slow" [pt 1] ∉ s'.server.log := by
  have hmem : ∀ xs (s : Rpc.Sys Nat), runExample xs = some s → ∃ s0,
      Rpc.start overwrite LE.dart (Dart.genProg testExt rpcSchema) 10 (-1) (· + 1) exampleClient (fun _ => ⟨[0], [0]⟩) 0 = some s0 ∧
      Rpc.sysActs exampleCodec overwrite exampleUser (Rust.genRpc "8b61" rpcSchema).handlers LE.dart (Dart.genProg testExt rpcSchema)
        10 (-1) (· + 1) exampleClient s0 xs = some s := by
    intro xs s h
    unfold runExample at h
    rwa [Option.bind_eq_some_iff] at h
  have hrun : (runExample callsAtOnce).map (fun s => (s.calls.map (fun c => (c.1, c.2.2)))) = some [("slow", 0), ("slow", 1)] := by
    decide +kernel
  have hserver := callsAtOnce_server
  rw [Option.map_eq_some_iff] at hrun
  obtain ⟨s, hs, e⟩ := hrun
  rw [hs, Option.map_some] at hserver
  obtain ⟨s0, h0, h1⟩ := hmem _ _ hs
  refine ⟨Rust.genProg rpcSchema, Rust.genRpc "8b61" rpcSchema, Dart.genProg testExt rpcSchema, exampleClient,
    emits_genProg _ rpcSchema_ok.accepted, Rust.emits_genRpc rpcSchema_wf rpcSchema_methods rfl, Dart.emits_genProg rpcSchema_ok.accepted,
    Dart.emits_genClient rpcSchema_wf rpcSchema_methods rfl rfl, s0, s, h0, h1, e, ?_⟩
  intro zs hz s' hs'
  obtain ⟨ys, hy, hn⟩ := server_of_noCalls hz hs'
  have step : ∀ {L : List Val → Nat} (x : Act) (c c' : Cfg Nat), (∀ bs, x = .request 1 bs → ∃ q, slowRequests q bs) →
      RqInv False False L exampleCodec statusByte slow 1 slowRequests c →
      act exampleCodec overwrite exampleUser (genRpc "8b61" rpcSchema).handlers c x = some c' →
      RqInv False False L exampleCodec statusByte slow 1 slowRequests c' := by
    intro L x c c' hx hI hact
    exact rqInv_act exampleCodec_status overwrite_lawful rfl (rpcSchema_ok.rpcNamed.args slow slow_mem).1 (rpcSchema_ok.rpcNamed.args slow slow_mem).2
      (handlers_lookup "8b61" rpcSchema_ok.accepted.wf rpcSchema_ok.rpcNamed.methods slow_mem) slowRequests_readable hx (by simp) (by simp) (by simp)
      hI hact
  simp only [runServer, acts] at hserver
  split at hserver
  · rename_i c1 hc1
    split at hserver
    · rename_i c2 hc2
      simp only [Option.some.injEq] at hserver
      subst hserver
      have I0 : RqInv False False (fun _ => 0) exampleCodec statusByte slow 1 slowRequests (Cfg.initial (fun _ => ⟨[0], [0]⟩) 0) := by
        refine ⟨by simp [Cfg.initial], ⟨.no, none, fun _ => 0, by simp, by simp, .idle, trivial, ?_, by simp, fun vs => ?_⟩, by simp⟩
        · exact not_busy (noMessage_zero [])
        · simp [Cfg.initial, num_nil, Hold.count, one]
      have I1 := step _ _ _ (fun bs hb => by
        simp only [Act.request.injEq, true_and] at hb
        exact ⟨_, .inl ⟨rfl, hb.symm⟩⟩) I0 hc1
      have e1 : c1.run = none ∧ (c1.mem 1).server = 255 :: (LE.le 8 0 ++ ptBytes 1) ++ [] := by
        simp only [act, Option.some.injEq] at hc1
        subst hc1
        exact ⟨rfl, rfl⟩
      have I2 := overwritten overwrite_lawful exampleCodec_status slowRequests_readable I1 e1.1 e1.2 (.inl ⟨rfl, rfl⟩) (.inr ⟨rfl, rfl⟩) hc2
      have hnum : num (Ev.IsRequest slowRequests 1 [pt 1]) s.server.log ≤ 1 := by
        simp only [act, Option.some.injEq] at hc1 hc2
        rw [← hc2, ← hc1]
        simp only [Cfg.initial, num_append, num_cons, num_nil]
        have hle : ∀ p, one p ≤ 1 := fun p => by unfold one; split <;> omega
        have h1 := hle (Ev.IsRequest slowRequests 1 [pt 1] (.requested 1 (255 :: (LE.le 8 0 ++ ptBytes 1))))
        rw [one_false (p := Ev.IsRequest slowRequests 1 [pt 1] (.requested 1 (255 :: (LE.le 8 1 ++ ptBytes 2))))]
        · omega
        · rintro ⟨i, bs, e, hq⟩
          simp only [Ev.requested.injEq, true_and] at e
          subst e
          rcases hq with ⟨-, e⟩ | ⟨e, -⟩
          · exact absurd e (by decide)
          · simp [pt] at e
      obtain ⟨⟨_, ⟨H, B, D, hL, _, _, _, _, _, hcount⟩, _⟩, hn'⟩ := acts_inv
        (fun c => RqInv False False (fun vs => one ([pt 1] = vs)) exampleCodec statusByte slow 1 slowRequests c
          ∧ num (Ev.IsRequest slowRequests 1 [pt 1]) c.log ≤ 1)
        (fun x hx c c' hI ha => ⟨step x c c' (fun bs e => absurd (e ▸ hx) (hn bs)) hI.1 ha,
          (request_num (fun bs e => hn bs (e ▸ hx)) ha).symm ▸ hI.2⟩) ⟨I2, hnum⟩ hy
      have h2 := hcount [pt 1]
      have h3 := hL [pt 1]
      rw [one_true rfl] at h3
      intro hm
      have h4 : 0 < num (Ev.IsCall 1 "slow" [pt 1]) s'.server.log := by
        unfold num
        exact List.countP_pos_iff.2 ⟨_, hm, by simp [Ev.IsCall]⟩
      have h5 : num (Ev.IsCall 1 slow.id [pt 1]) s'.server.log = num (Ev.IsCall 1 "slow" [pt 1]) s'.server.log := rfl
      omega
    · simp at hserver
  · simp at hserver

end TPB.Props
