/- Empty lines of a client class have no effect. -/
import Verif.Sem.DartRpcEval
import Verif.Proofs.DartRpcReader
namespace TPB.Dart
open Spec
open Rust (Buf Bufs BufLib setMem)

/-- A task without the empty lines of its closure. -/
def RTask.trim (t : RTask) : RTask := { t with body := trimR t.body }

abbrev Tasks := List (String × RTask)

def ClientState.mapTasks (g : Tasks → Tasks) (s : ClientState) : ClientState := { s with tasks := g s.tasks }

def World.mapTasks {ω : Type} (g : Tasks → Tasks) (w : World ω) : World ω := { w with client := w.client.mapTasks g }

theorem filterMap_solid {β : Type} {X : Member → Option β} (h : X .blank = none) (ms : List Member) :
    (ms.filter Member.solid).filterMap X = ms.filterMap X := by
  induction ms with
  | nil => rfl
  | cons m ms ih =>
    cases hs : m.solid with
    | true => rw [List.filter_cons_of_pos hs, List.filterMap_cons, List.filterMap_cons, ih]
    | false =>
      have : m = .blank := by cases m <;> simp [Member.solid] at hs ⊢
      rw [List.filter_cons_of_neg (by simp [hs]), List.filterMap_cons, this, h, ih]

section
variable (rt : Runtime) (P : Prog) (k : Nat) (hasData : Int) (rotate : Int → Int) (C : Client) (g : Tasks → Tasks)

theorem runReader_trim : ∀ (ss : List RStmt) (l : RLocals) (bs : Bytes) (s : ClientState),
    runReader rt P k hasData C.trim (trimR ss) l bs (s.mapTasks g)
      = (runReader rt P k hasData C ss l bs s).map (fun p => (p.1.mapTasks g, p.2)) := by
  have m1 : C.trim.members.filterMap Member.completersOf = C.members.filterMap Member.completersOf := filterMap_solid rfl _
  have m2 : C.trim.members.filterMap Member.controllerOf = C.members.filterMap Member.controllerOf := filterMap_solid rfl _
  intro ss
  induction ss with
  | nil => intro l bs s; rfl
  | cons st ss ih =>
    intro l bs s
    cases st with
    | blank => exact ih l bs s
    | letStatus =>
      show runReader rt P k hasData C.trim (.letStatus :: trimR ss) l bs (s.mapTasks g) = _
      rw [runReader, runReader]
      cases readInt rt "Int8" bs with
      | error e => rfl
      | ok p => exact ih _ _ _
    | ifNoData throws =>
      show runReader rt P k hasData C.trim (.ifNoData throws :: trimR ss) l bs (s.mapTasks g) = _
      rw [runReader, runReader]
      cases l.status with
      | none => rfl
      | some n =>
        show (if n = hasData then _ else _) = Except.map _ (if n = hasData then _ else _)
        by_cases hn : n = hasData
        · simp only [hn, if_true]; exact ih _ _ _
        · simp only [hn, if_false]; cases throws <;> rfl
    | letMethodId =>
      show runReader rt P k hasData C.trim (.letMethodId :: trimR ss) l bs (s.mapTasks g) = _
      rw [runReader, runReader]
      cases readInt rt "Int64" bs with
      | error e => rfl
      | ok p => exact ih _ _ _
    | letResult e =>
      show runReader rt P k hasData C.trim (.letResult e :: trimR ss) l bs (s.mapTasks g) = _
      rw [runReader, runReader]
      cases evalReadE rt (readers rt P k) e bs with
      | error e => rfl
      | ok p => exact ih _ _ _
    | complete v res =>
      show runReader rt P k hasData C.trim (.complete v res :: trimR ss) l bs (s.mapTasks g) = _
      rw [runReader, runReader, m1]
      split
      · cases l.methodId with
        | none => rfl
        | some i =>
          have key : ∀ r, (match (s.mapTasks g).pending v i with
                | none => runReader rt P k hasData C.trim (trimR ss) l bs (s.mapTasks g)
                | some n => do let s ← (s.mapTasks g).complete n r; runReader rt P k hasData C.trim (trimR ss) l bs s)
              = Except.map (fun p => (p.1.mapTasks g, p.2)) (match s.pending v i with
                | none => runReader rt P k hasData C ss l bs s
                | some n => do let s ← s.complete n r; runReader rt P k hasData C ss l bs s) := by
            intro r
            show (match s.pending v i with | none => _ | some n => _) = _
            cases s.pending v i with
            | none => exact ih _ _ _
            | some n =>
              simp only [ClientState.complete, ClientState.mapTasks]
              by_cases hd : n ∈ s.done.map (·.1)
              · simp only [hd, if_true]; rfl
              · simp only [hd, if_false]; exact ih _ _ { s with done := s.done ++ [(n, r)] }
          cases res with
          | false => exact key none
          | true =>
            cases l.result with
            | none => rfl
            | some r => exact key (some r)
      · rfl
    | remove v =>
      show runReader rt P k hasData C.trim (.remove v :: trimR ss) l bs (s.mapTasks g) = _
      rw [runReader, runReader, m1]
      split
      · cases l.methodId with
        | none => rfl
        | some i => exact ih _ _ (s.remove v i)
      · rfl
    | add v res =>
      show runReader rt P k hasData C.trim (.add v res :: trimR ss) l bs (s.mapTasks g) = _
      rw [runReader, runReader, m2]
      split
      · cases res with
        | false => exact ih _ _ { s with events := s.events ++ [(v, none)] }
        | true =>
          cases l.result with
          | none => rfl
          | some r => exact ih _ _ { s with events := s.events ++ [(v, some r)] }
      · rfl
    | ret e =>
      show runReader rt P k hasData C.trim (.ret e :: trimR ss) l bs (s.mapTasks g) = _
      rw [runReader, runReader]
      cases evalReadE rt (readers rt P k) e bs with
      | error e => rfl
      | ok p => rfl

theorem runTask_trim (t : RTask) (mem : Nat → Bufs) (s : ClientState) :
    runTask rt P k hasData C.trim t.trim mem (s.mapTasks g) = (runTask rt P k hasData C t mem s).map (ClientState.mapTasks g) := by
  unfold runTask RTask.trim
  simp only
  rw [runReader_trim]
  cases runReader rt P k hasData C t.body .none ((mem t.addr).get t.buf) s <;> rfl

variable {ω : Type} (lib : BufLib) (loop : (Nat → Bufs) → ω → Res ((Nat → Bufs) × ω)) {g}

theorem execD_trim (ps : List (String × Val)) (hk : ∀ ts, (g ts).map (·.1) = ts.map (·.1)) : ∀ (ss : List DStmt) (l : MLocals) (w : World ω),
    (∀ v a b body, DStmt.connect v a b body ∈ ss → ∀ ts, g (ts ++ [(v, ⟨a, b, body⟩)]) = g ts ++ [(v, ⟨a, b, trimR body⟩)]) →
    execD rt P k hasData rotate C.trim lib loop ps (trimD ss) l (w.mapTasks g)
      = (execD rt P k hasData rotate C lib loop ps ss l w).map (fun p => (p.1, p.2.mapTasks g)) := by
  have m1 : C.trim.members.filterMap Member.completersOf = C.members.filterMap Member.completersOf := filterMap_solid rfl _
  have m2 : C.trim.members.filterMap Member.lastOf = C.members.filterMap Member.lastOf := filterMap_solid rfl _
  have m3 : C.trim.members.filterMap Member.taskOf = C.members.filterMap Member.taskOf := filterMap_solid rfl _
  intro ss
  induction ss with
  | nil => intro l w _; rfl
  | cons st ss ih =>
    intro l w hc
    replace ih := fun l w => ih l w (fun v a b body hm => hc v a b body (List.mem_cons_of_mem _ hm))
    cases st with
    | blank => exact ih l w
    | write y a b ws =>
      show execD rt P k hasData rotate C.trim lib loop ps (.write y a b ws :: trimD ss) l (w.mapTasks g) = _
      rw [execD, execD]
      cases evalWStmts rt P k hasData ps l ws with
      | error e => rfl
      | ok bs => exact ih _ { w with mem := setMem w.mem a ((w.mem a).set b (lib ((w.mem a).get b) bs)), sent := w.sent ++ [(a, b, bs)] }
    | loop =>
      show execD rt P k hasData rotate C.trim lib loop ps (.loop :: trimD ss) l (w.mapTasks g) = _
      rw [execD, execD]
      show (loop w.mem w.rest >>= _) = _
      cases loop w.mem w.rest with
      | error e => rfl
      | ok p => exact ih _ { w with mem := p.1, rest := p.2 }
    | syncRead ty a b body =>
      show execD rt P k hasData rotate C.trim lib loop ps (.syncRead ty a b (trimR body) :: trimD ss) l (w.mapTasks g) = _
      rw [execD, execD]
      show (runReader rt P k hasData C.trim (trimR body) .none ((w.mem a).get b) (w.client.mapTasks g) >>= _) = _
      rw [runReader_trim]
      cases runReader rt P k hasData C body .none ((w.mem a).get b) w.client with
      | error e => rfl
      | ok p =>
        obtain ⟨s, v⟩ := p
        cases v with
        | none => rfl
        | some v => exact ih _ { w with client := s }
    | retResult =>
      show execD rt P k hasData rotate C.trim lib loop ps (.retResult :: trimD ss) l (w.mapTasks g) = _
      rw [execD, execD]
      cases l.result <;> rfl
    | letMethodId v =>
      show execD rt P k hasData rotate C.trim lib loop ps (.letMethodId v :: trimD ss) l (w.mapTasks g) = _
      rw [execD, execD, m2]
      split
      · exact ih _ w
      · rfl
    | rotate v =>
      show execD rt P k hasData rotate C.trim lib loop ps (.rotate v :: trimD ss) l (w.mapTasks g) = _
      rw [execD, execD, m2]
      split
      · exact ih _ { w with client := w.client.setLast v (rotate (w.client.last v)) }
      · rfl
    | letCompleter ty =>
      show execD rt P k hasData rotate C.trim lib loop ps (.letCompleter ty :: trimD ss) l (w.mapTasks g) = _
      rw [execD, execD]
      exact ih _ { w with client := { w.client with created := w.client.created + 1 } }
    | store v =>
      show execD rt P k hasData rotate C.trim lib loop ps (.store v :: trimD ss) l (w.mapTasks g) = _
      rw [execD, execD, m1]
      split
      · cases l.methodId with
        | none => rfl
        | some i =>
          cases l.completer with
          | none => rfl
          | some n => exact ih _ { w with client := w.client.store v i n }
      · rfl
    | retFuture =>
      show execD rt P k hasData rotate C.trim lib loop ps (.retFuture :: trimD ss) l (w.mapTasks g) = _
      rw [execD, execD]
      cases l.completer <;> rfl
    | connect v a b body =>
      show execD rt P k hasData rotate C.trim lib loop ps (.connect v a b (trimR body) :: trimD ss) l (w.mapTasks g) = _
      rw [execD, execD, m3]
      split
      · show (if v ∈ (g w.client.tasks).map (·.1) then _ else _) = _
        rw [hk]
        split
        · rfl
        · have e : { w.mapTasks g with client := { (w.mapTasks g).client with tasks := (w.mapTasks g).client.tasks ++ [(v, ⟨a, b, trimR body⟩)] } }
              = World.mapTasks g { w with client := { w.client with tasks := w.client.tasks ++ [(v, ⟨a, b, body⟩)] } } := by
            simp only [World.mapTasks, ClientState.mapTasks]
            rw [hc v a b body (List.mem_cons_self ..)]
          rw [e]
          exact ih _ _
      · rfl

theorem binds_trim (ss : List DStmt) : (trimD ss).flatMap DStmt.binds = ss.flatMap DStmt.binds := by
  induction ss with
  | nil => rfl
  | cons s ss ih =>
    cases s <;> simp only [trimD, List.filter_cons, DStmt.solid, if_true, Bool.false_eq_true, if_false, List.map_cons, List.flatMap_cons,
      DStmt.trim, DStmt.binds, List.nil_append] <;> first | exact ih | rw [← ih]; rfl

theorem paramsOk_trim (m : DMethod) : m.trim.paramsOk = m.paramsOk := by
  unfold DMethod.paramsOk DMethod.trim
  simp only
  rw [binds_trim]

theorem find_trim (name : String) : C.trim.methods.find? (fun m => m.name = name) = (C.methods.find? (fun m => m.name = name)).map DMethod.trim := by
  unfold Client.trim
  simp only
  rw [List.find?_map]
  rfl

theorem callMethod_trim (name : String) (ps : List Val) (w : World ω) (hk : ∀ ts, (g ts).map (·.1) = ts.map (·.1))
    (hc : ∀ m, C.methods.find? (fun m => m.name = name) = some m → ∀ v a b body, DStmt.connect v a b body ∈ m.body →
      ∀ ts, g (ts ++ [(v, ⟨a, b, body⟩)]) = g ts ++ [(v, ⟨a, b, trimR body⟩)]) :
    callMethod rt P k hasData rotate C.trim lib loop name ps (w.mapTasks g)
      = (callMethod rt P k hasData rotate C lib loop name ps w).map (fun p => (p.1, p.2.mapTasks g)) := by
  unfold callMethod
  rw [find_trim]
  cases hf : C.methods.find? (fun m => m.name = name) with
  | none => rfl
  | some m =>
    simp only [Option.map_some, paramsOk_trim]
    show (if m.paramsOk = true ∧ m.params.length = ps.length then _ else _) = _
    split
    · refine execD_trim rt P k hasData rotate C lib loop _ hk m.body _ w ?_
      exact hc m hf
    · rfl

/-- Tasks without empty lines. -/
def trimTasks (ts : Tasks) : Tasks := ts.map (fun p => (p.1, p.2.trim))

theorem trimTasks_keys (ts : Tasks) : (trimTasks ts).map (·.1) = ts.map (·.1) := by
  unfold trimTasks
  rw [List.map_map]
  rfl

theorem trimTasks_append (ts : Tasks) (v : String) (a : Nat) (b : Buf) (body : List RStmt) :
    trimTasks (ts ++ [(v, ⟨a, b, body⟩)]) = trimTasks ts ++ [(v, ⟨a, b, trimR body⟩)] := by
  unfold trimTasks
  rw [List.map_append]
  rfl

theorem trimTasks_lookup (v : String) : ∀ ts : Tasks, (trimTasks ts).lookup v = (ts.lookup v).map RTask.trim
  | [] => rfl
  | (a, t) :: ts => by
    show List.lookup v ((a, t.trim) :: trimTasks ts) = _
    rw [List.lookup_cons, List.lookup_cons]
    cases v == a with
    | true => rfl
    | false => exact trimTasks_lookup v ts

theorem call_trim (name : String) (ps : List Val) (w : World ω) :
    callMethod rt P k hasData rotate C.trim lib loop name ps (w.mapTasks trimTasks)
      = (callMethod rt P k hasData rotate C lib loop name ps w).map (fun p => (p.1, p.2.mapTasks trimTasks)) :=
  callMethod_trim rt P k hasData rotate C lib loop name ps w trimTasks_keys (fun _ _ v a b body _ ts => trimTasks_append ts v a b body)

/-- A method that makes no task does the same in every state. -/
theorem call_same (name : String) (ps : List Val) (w : World ω)
    (hc : ∀ m, C.methods.find? (fun m => m.name = name) = some m → ∀ v a b body, DStmt.connect v a b body ∉ m.body) :
    callMethod rt P k hasData rotate C.trim lib loop name ps w = callMethod rt P k hasData rotate C lib loop name ps w := by
  have := callMethod_trim (g := id) rt P k hasData rotate C lib loop name ps w (fun _ => rfl)
    (fun m h1 v a b body h3 => absurd h3 (hc m h1 v a b body))
  refine (show _ = _ from this).trans ?_
  cases callMethod rt P k hasData rotate C lib loop name ps w <;> rfl

theorem callAll_trim : ∀ (ns : List String) (w : World ω), callAll rt P k hasData rotate C.trim lib loop ns (w.mapTasks trimTasks)
      = (callAll rt P k hasData rotate C lib loop ns w).map (World.mapTasks trimTasks)
  | [], w => rfl
  | n :: ns, w => by
    rw [callAll, callAll, call_trim]
    cases callMethod rt P k hasData rotate C lib loop n [] w with
    | error e => rfl
    | ok p => exact callAll_trim ns p.2

theorem names_trim : C.trim.names = C.names := by
  unfold Client.names Client.trim
  simp only
  rw [filterMap_solid rfl, List.map_map]
  rfl

theorem create_trim (mem : Nat → Bufs) (rest : ω) : C.trim.create rt P k hasData rotate lib loop mem rest
    = (C.create rt P k hasData rotate lib loop mem rest).map (World.mapTasks trimTasks) := by
  unfold Client.create
  rw [names_trim]
  split
  · exact callAll_trim rt P k hasData rotate C lib loop C.connects ⟨.fresh, mem, [], rest⟩
  · rfl

end

end TPB.Dart
