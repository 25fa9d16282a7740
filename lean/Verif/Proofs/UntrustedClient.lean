/-
Lemmas about Dart clients whose buffers hold arbitrary bytes (C72).
-/
import Verif.Spec.UntrustedClient
import Verif.Proofs.DartRpcFacts
import Verif.Proofs.RpcStream
import Verif.Proofs.UntrustedDart
namespace TPB.Dart
open Spec
open Rust (Buf Bufs BufLib setMem)
open DartGen (varLastMethodId varMethodCompleters varReadTask varReadStreamController)

variable {x : Ext} {rt : Runtime} {hd : Int} {S : List ASTNode} {rot : Int → Int} {lib : BufLib}

/-! ### What a run of a reader does, whatever the bytes are -/

/-- Readers of integers return integers. -/
theorem readInt_cases (hrt : rt.Lawful) {m : String} {id : String} {z : Nat} {sg : Bool} (hm : dartPrims.lookup m = some (.integer id z sg)) (bs : Bytes) :
    (rt.readP m bs = none ∧ readInt rt m bs = .error .throws) ∨ ∃ n r, rt.readP m bs = some (.int n, r) ∧ readInt rt m bs = .ok (n, r) := by
  unfold readInt
  cases h : rt.readP m bs with
  | none => exact .inl ⟨rfl, rfl⟩
  | some q =>
    obtain ⟨v, r⟩ := q
    have hv := hrt.range m _ v bs r hm h
    cases v <;> simp only [LeafVal] at hv
    exact .inr ⟨_, r, rfl, rfl⟩

theorem int8_prim : dartPrims.lookup "Int8" = some (.integer "Int8" 1 true) := rfl
theorem int64_prim : dartPrims.lookup "Int64" = some (.integer "Int64" 8 true) := rfl

/-- The state after an answer with the method id `i`. -/
def ClientState.answer (x : Ext) (f : FnNode) (s : ClientState) (i : Int) (dv : Option Val) : ClientState :=
  match s.pending (varMethodCompleters x f) i with
  | none => s
  | some n => { s with done := s.done ++ [(n, dv)] }.remove (varMethodCompleters x f) i

/-- A result is read or the reader fails. -/
theorem result_cases {P : Prog} {k : Nat} (f : FnNode) (r : Bytes) :
    (∃ t e, f.returnTypeId = some t ∧ readT rt P k t r = .error e) ∨ ∃ dv, ReadsResult rt P k f dv r := by
  cases ht : f.returnTypeId with
  | none => exact .inr ⟨none, by simp [ReadsResult, ht]⟩
  | some t =>
    cases he : readT rt P k t r with
    | error e => exact .inl ⟨t, e, rfl, he⟩
    | ok q => exact .inr ⟨some q.1, by simp only [ReadsResult, ht]; exact ⟨q.1, q.2, rfl, he⟩⟩

theorem answer_cases (hrt : rt.Lawful) (ns scope : String) {f : FnNode} (hf : f ∈ methodsOf S) (hr : f.isRead = false)
    (ha : f.isAsync = true) {P : Prog} {k : Nat} {bs : Bytes} {s : ClientState}
    (hn : ∀ i n, s.pending (varMethodCompleters x f) i = some n → n ∉ s.done.map (·.1)) :
    (rt.readP "Int8" bs = none ∧ runReader rt P k hd (genClient x ns scope S) (answerReader x f) .none bs s = .error .throws) ∨
    (∃ n r, rt.readP "Int8" bs = some (.int n, r) ∧ n ≠ hd ∧
      runReader rt P k hd (genClient x ns scope S) (answerReader x f) .none bs s = .ok (s, none)) ∨
    ∃ r1, rt.readP "Int8" bs = some (.int hd, r1) ∧
      ((rt.readP "Int64" r1 = none ∧ runReader rt P k hd (genClient x ns scope S) (answerReader x f) .none bs s = .error .throws) ∨
      ∃ i r2, rt.readP "Int64" r1 = some (.int i, r2) ∧
        ((∃ t e, f.returnTypeId = some t ∧ readT rt P k t r2 = .error e ∧
          runReader rt P k hd (genClient x ns scope S) (answerReader x f) .none bs s = .error e) ∨
        ∃ dv, ReadsResult rt P k f dv r2 ∧
          runReader rt P k hd (genClient x ns scope S) (answerReader x f) .none bs s = .ok (s.answer x f i dv, none))) := by
  rcases readInt_cases hrt int8_prim bs with ⟨h1, h2⟩ | ⟨n, r1, h1, h2⟩
  · exact .inl ⟨h1, by simp [answerReader, genReaderHead, runReader, h2, bind, Except.bind]⟩
  by_cases e : n = hd
  · subst e
    refine .inr (.inr ⟨r1, h1, ?_⟩)
    have hd1 := runReader_data (hd := n) (P := P) (k := k) (C := genClient x ns scope S) (throws := false)
      (ss := [.letMethodId] ++ genComplete x f ++ [.remove (varMethodCompleters x f)]) (s := s) h1
    simp only [answerReader, genReaderHead, List.append_assoc] at hd1 ⊢
    rcases readInt_cases hrt int64_prim r1 with ⟨h3, h4⟩ | ⟨i, r2, h3, h4⟩
    · exact .inl ⟨h3, by rw [hd1]; simp [runReader, h4, bind, Except.bind]⟩
    refine .inr ⟨i, r2, h3, ?_⟩
    rcases result_cases (rt := rt) (P := P) (k := k) f r2 with ⟨t, e, ht, he⟩ | ⟨dv, hdv⟩
    · refine .inl ⟨t, e, ht, he, ?_⟩
      rw [hd1]
      unfold readT at he
      simp [runReader, h4, bind, Except.bind, genComplete, ht, he]
    · refine .inr ⟨dv, hdv, ?_⟩
      have key : runReader rt P k n (genClient x ns scope S) (answerReader x f) .none bs s = .ok (s.answer x f i dv, none) := by
        unfold ClientState.answer
        cases hp : s.pending (varMethodCompleters x f) i with
        | none => exact reader_stale ns scope hf hr ha h1 h3 hdv hp
        | some m => exact reader_pending ns scope hf hr ha h1 h3 hdv hp (hn _ _ hp)
      simpa only [answerReader, genReaderHead, List.append_assoc] using key
  · exact .inr (.inl ⟨n, r1, h1, e, reader_none ns scope h1 e⟩)

theorem stream_cases (hrt : rt.Lawful) (ns scope : String) {f : FnNode} (hf : f ∈ methodsOf S) (hr : f.isRead = true)
    {P : Prog} {k : Nat} {bs : Bytes} {s : ClientState} :
    (rt.readP "Int8" bs = none ∧
      runReader rt P k hd (genClient x ns scope S) (genReaderHead ++ genAdd x f) .none bs s = .error .throws) ∨
    (∃ n r, rt.readP "Int8" bs = some (.int n, r) ∧ n ≠ hd ∧
      runReader rt P k hd (genClient x ns scope S) (genReaderHead ++ genAdd x f) .none bs s = .ok (s, none)) ∨
    ∃ r1, rt.readP "Int8" bs = some (.int hd, r1) ∧
        ((∃ t e, f.returnTypeId = some t ∧ readT rt P k t r1 = .error e ∧
          runReader rt P k hd (genClient x ns scope S) (genReaderHead ++ genAdd x f) .none bs s = .error e) ∨
        ∃ dv, ReadsResult rt P k f dv r1 ∧
          runReader rt P k hd (genClient x ns scope S) (genReaderHead ++ genAdd x f) .none bs s
            = .ok ({ s with events := s.events ++ [(varReadStreamController x f, dv)] }, none)) := by
  rcases readInt_cases hrt int8_prim bs with ⟨h1, h2⟩ | ⟨n, r1, h1, h2⟩
  · exact .inl ⟨h1, by simp [genReaderHead, runReader, h2, bind, Except.bind]⟩
  by_cases e : n = hd
  · subst e
    refine .inr (.inr ⟨r1, h1, ?_⟩)
    rcases result_cases (rt := rt) (P := P) (k := k) f r1 with ⟨t, e, ht, he⟩ | ⟨dv, hdv⟩
    · refine .inl ⟨t, e, ht, he, ?_⟩
      have hd1 := runReader_data (hd := n) (P := P) (k := k) (C := genClient x ns scope S) (throws := false) (ss := genAdd x f) (s := s) h1
      simp only [genReaderHead] at hd1 ⊢
      rw [hd1]
      unfold readT at he
      simp [runReader, bind, Except.bind, genAdd, ht, he]
    · exact .inr ⟨dv, hdv, reader_add ns scope hf hr h1 hdv⟩
  · exact .inr (.inl ⟨n, r1, h1, e, reader_noValue ns scope h1 e⟩)

/-- The closure that reads the result of a synchronous method. -/
theorem sync_cases (hrt : rt.Lawful) {C : Client} {t : TypeId} {P : Prog} {k : Nat} {bs : Bytes} {s : ClientState} :
    (rt.readP "Int8" bs = none ∧
      runReader rt P k hd C [.letStatus, .blank, .ifNoData true, .blank, .ret (genRead t)] .none bs s = .error .throws) ∨
    (∃ n r, rt.readP "Int8" bs = some (.int n, r) ∧ n ≠ hd ∧
      runReader rt P k hd C [.letStatus, .blank, .ifNoData true, .blank, .ret (genRead t)] .none bs s = .error .throws) ∨
    ∃ r1, rt.readP "Int8" bs = some (.int hd, r1) ∧
      ((∃ e, readT rt P k t r1 = .error e ∧
        runReader rt P k hd C [.letStatus, .blank, .ifNoData true, .blank, .ret (genRead t)] .none bs s = .error e) ∨
      ∃ d r, readT rt P k t r1 = .ok (d, r) ∧
        runReader rt P k hd C [.letStatus, .blank, .ifNoData true, .blank, .ret (genRead t)] .none bs s = .ok (s, some d)) := by
  rcases readInt_cases hrt int8_prim bs with ⟨h1, h2⟩ | ⟨n, r1, h1, h2⟩
  · exact .inl ⟨h1, by simp [runReader, h2, bind, Except.bind]⟩
  by_cases e : n = hd
  · subst e
    refine .inr (.inr ⟨r1, h1, ?_⟩)
    cases he : readT rt P k t r1 with
    | error e =>
      refine .inl ⟨e, rfl, ?_⟩
      unfold readT at he
      simp [runReader, h2, bind, Except.bind, orElse, he]
    | ok q =>
      refine .inr ⟨q.1, q.2, rfl, ?_⟩
      unfold readT at he
      simp [runReader, h2, bind, Except.bind, orElse, he]
  · exact .inr (.inl ⟨n, r1, h1, e, by simp [runReader, h2, bind, Except.bind, orElse, e]⟩)

/-! ### What a call does -/

/-- A call of a method: an asynchronous one returns a new future, a synchronous one what it has read. -/
theorem call_cases (hrt : rt.Lawful) (ns scope : String) {k : Nat} {name : String} {ds : List Val} {w w' : World Unit} {r : DRet} {mem : Nat → Bufs}
    (ht : w.client.tasks = (methodsOf S).flatMap (taskOf x))
    (h : callMethod rt (genProg x S) k hd rot (genClient x ns scope S) lib (fun _ (_ : Unit) => .ok (mem, ())) name ds w = .ok (r, w')) :
    ∃ g ∈ methodsOf S, g.isRead = false ∧ name = x.camel g.id ∧
      ((g.isAsync = true ∧ r = .future w.client.created ∧ w'.client = w.client.afterCall x rot g) ∨
       (g.isAsync = false ∧ w'.client = w.client ∧ w'.mem = mem ∧
        ((g.returnTypeId = none ∧ r = .void) ∨ ∃ t d r1 r2, g.returnTypeId = some t ∧ r = .val d ∧
          rt.readP "Int8" (mem g.position).client = some (.int hd, r1) ∧ readT rt (genProg x S) k t r1 = .ok (d, r2)))) := by
  unfold callMethod at h
  cases hf : (genClient x ns scope S).methods.find? (fun m => m.name = name) with
  | none => simp [hf] at h
  | some m =>
    simp only [hf] at h
    split at h
    case isFalse => simp at h
    case isTrue hok =>
    have hmem := List.mem_of_find?_eq_some hf
    have hname : m.name = name := by simpa using List.find?_some hf
    simp only [genClient, Props.findFnNodes_eq, List.mem_flatMap] at hmem
    obtain ⟨g, hg, hm⟩ := hmem
    have hin : ∀ p ∈ taskOf x g, p.1 ∈ w.client.tasks.map (·.1) := by
      intro p hp
      rw [ht]
      exact List.mem_map.2 ⟨p, List.mem_flatMap.2 ⟨g, hg, hp⟩, rfl⟩
    cases hr : g.isRead with
    | true =>
      simp only [genDMethods, hr, if_true, List.mem_singleton] at hm
      subst hm
      simp only [taskOf, hr, if_true, List.mem_singleton, forall_eq] at hin
      simp only [genReadConnect, execD, if_pos hin] at h
      split at h <;> simp at h
    | false =>
      cases ha : g.isAsync with
      | false =>
        simp only [genDMethods, hr, ha, Bool.false_eq_true, if_false, List.mem_singleton] at hm
        subst hm
        refine ⟨g, hg, hr, hname.symm, .inr ⟨ha, ?_⟩⟩
        simp only [genSync, List.cons_append, List.nil_append, execD, bind, Except.bind] at h
        split at h
        · simp at h
        · unfold genSyncResult at h
          cases hret : g.returnTypeId with
          | none =>
            simp only [hret, execD, Except.ok.injEq, Prod.mk.injEq] at h
            obtain ⟨rfl, rfl⟩ := h
            exact ⟨rfl, rfl, .inl ⟨rfl, rfl⟩⟩
          | some t =>
            simp only [hret, execD, bind, Except.bind, Bufs.get] at h
            rcases sync_cases (hd := hd) hrt (C := genClient x ns scope S) (t := t) (P := genProg x S) (k := k)
                (bs := (mem g.position).client) (s := w.client) with
              ⟨-, h2⟩ | ⟨_, _, -, -, h2⟩ | ⟨r1, h1, ⟨e, -, h2⟩ | ⟨d, r2, h2, h3⟩⟩
            · simp [h2] at h
            · simp [h2] at h
            · simp [h2] at h
            · simp only [h3, orElse, Except.ok.injEq, Prod.mk.injEq] at h
              obtain ⟨rfl, rfl⟩ := h
              exact ⟨rfl, rfl, .inr ⟨t, d, r1, r2, rfl, rfl, h1, h2⟩⟩
      | true =>
        simp only [genDMethods, hr, ha, if_true, Bool.false_eq_true, if_false, List.mem_cons, List.not_mem_nil, or_false] at hm
        rcases hm with rfl | rfl
        · simp only [taskOf, hr, ha, if_true, Bool.false_eq_true, if_false, List.mem_singleton, forall_eq] at hin
          simp only [genAsyncConnect, execD, if_pos hin] at h
          split at h <;> simp at h
        · refine ⟨g, hg, hr, hname.symm, .inl ⟨ha, ?_⟩⟩
          have m1 : varLastMethodId x g ∈ (genClient x ns scope S).members.filterMap Member.lastOf :=
            mem_members ns scope hg (m := .lastId (varLastMethodId x g)) (by simp [genMembers, hr, ha]) rfl
          have m2 : varMethodCompleters x g ∈ (genClient x ns scope S).members.filterMap Member.completersOf :=
            mem_members ns scope hg (m := .completers (varMethodCompleters x g) (retTy g)) (by simp [genMembers, hr, ha]) rfl
          simp only [genAsync, execD, if_pos m1, if_pos m2, bind, Except.bind, Bufs.get, orElse] at h
          split at h
          · simp at h
          · simp only [Except.ok.injEq, Prod.mk.injEq] at h
            obtain ⟨rfl, rfl⟩ := h
            exact ⟨rfl, rfl⟩

/-! ### Histories -/

/-- Reading a method id, if there is one. -/
def ReadsId (rt : Runtime) : Option Int → Bytes → Bytes → Prop
  | none, r1, r2 => r2 = r1
  | some i, r1, r2 => rt.readP "Int64" r1 = some (.int i, r2)

/-- What a reader of the method `f` finds in a buffer: a method id if its answers carry one, and a result. -/
def Seen (rt : Runtime) (P : Prog) (k : Nat) (hd : Int) (f : FnNode) (bs : Bytes) (mid : Option Int) (dv : Option Val) : Prop :=
  mid.isSome = CarriesId f ∧ ∃ r1 r2, rt.readP "Int8" bs = some (.int hd, r1) ∧
    ReadsId rt mid r1 r2 ∧ ReadsResult rt P k f dv r2

/-- The state of a client at any moment.  `G f mid dv` is what is known of results. -/
structure AloneInv (x : Ext) (S : List ASTNode) (rot : Int → Int) (G : FnNode → Option Int → Option Val → Prop) (s : Alone) : Prop where
  tasks : s.client.tasks = (methodsOf S).flatMap (taskOf x)
  last : ∀ f ∈ methodsOf S, f.isRead = false → f.isAsync = true →
    s.client.last (varLastMethodId x f) = idAt rot (s.callsOf (x.camel f.id)).length
  pend : ∀ w i n, s.client.pending w i = some n → n ∉ s.client.done.map (·.1) ∧
    ∃ f ∈ methodsOf S, f.isRead = false ∧ f.isAsync = true ∧ w = varMethodCompleters x f ∧
      ∃ j ds, (s.callsOf (x.camel f.id))[j]? = some (x.camel f.id, ds, .future n) ∧ i = idAt rot j
  inj : ∀ w i w' i' n, s.client.pending w i = some n → s.client.pending w' i' = some n → w = w' ∧ i = i'
  live : ∀ f ∈ methodsOf S, f.isRead = false → f.isAsync = true → ∀ j ds n,
    (s.callsOf (x.camel f.id))[j]? = some (x.camel f.id, ds, .future n) →
    (∀ j', j < j' → j' < (s.callsOf (x.camel f.id)).length → idAt rot j' ≠ idAt rot j) →
    n ∉ s.client.done.map (·.1) → s.client.pending (varMethodCompleters x f) (idAt rot j) = some n
  future : ∀ c ∈ s.calls, ∀ n, c.2.2 = .future n → n < s.client.created
  unique : s.calls.Pairwise (fun c c' => ∀ n, c.2.2 = .future n → c'.2.2 ≠ .future n)
  nodup : (s.client.done.map (·.1)).Nodup
  done : ∀ p ∈ s.client.done, ∃ f ∈ methodsOf S, f.isRead = false ∧ f.isAsync = true ∧
    ∃ j ds, (s.callsOf (x.camel f.id))[j]? = some (x.camel f.id, ds, .future p.1) ∧ G f (some (idAt rot j)) p.2
  events : ∀ e ∈ s.client.events, ∃ f ∈ methodsOf S, f.isRead = true ∧ e.1 = varReadStreamController x f ∧ G f none e.2
  results : ∀ c ∈ s.calls, ∃ f ∈ methodsOf S, f.isRead = false ∧ c.1 = x.camel f.id ∧
    ((f.isAsync = true ∧ ∃ n, c.2.2 = .future n) ∨ (f.isAsync = false ∧
      ((f.returnTypeId = none ∧ c.2.2 = .void) ∨ ∃ d, f.returnTypeId.isSome ∧ c.2.2 = .val d ∧ G f none (some d))))

variable {G : FnNode → Option Int → Option Val → Prop} {P : Prog} {k : Nat}

theorem callsOf_snoc {s : Alone} {cl : ClientState} {mem : Nat → Bufs} {c : String × List Val × DRet} (name : String) :
    (Alone.mk cl mem (s.calls ++ [c])).callsOf name = s.callsOf name ++ if c.1 = name then [c] else [] := by
  simp only [Alone.callsOf, List.filter_append, List.filter_cons, List.filter_nil]
  split <;> simp_all

theorem callsOf_keep {s : Alone} {cl : ClientState} {mem : Nat → Bufs} {c c' : String × List Val × DRet} {name : String} {j : Nat}
    (h : (s.callsOf name)[j]? = some c') : ((Alone.mk cl mem (s.calls ++ [c])).callsOf name)[j]? = some c' := by
  rw [callsOf_snoc, List.getElem?_append_left (List.getElem?_eq_some_iff.1 h).1, h]

theorem callsOf_mem {s : Alone} {name : String} {j : Nat} {c : String × List Val × DRet} (h : (s.callsOf name)[j]? = some c) : c ∈ s.calls :=
  (List.mem_filter.1 (List.mem_of_getElem? h)).1

theorem inv_call (hR : DartRpcNamed x S) (hrt : rt.Lawful) (ns sc : String) {s s' : Alone} {name : String} {ds : List Val} {mem : Nat → Bufs}
    (I : AloneInv x S rot G s) (h : aloneAct rt (genProg x S) k hd rot (genClient x ns sc S) lib s (.call name ds mem) = some s')
    (hG : ∀ f ∈ methodsOf S, ∀ mid dv, Seen rt (genProg x S) k hd f (s'.mem f.position).client mid dv → G f mid dv) :
    AloneInv x S rot G s' := by
  simp only [aloneAct] at h
  split at h
  case h_2 => simp at h
  case h_1 r w hw =>
  simp only [Option.some.injEq] at h
  obtain ⟨g, hg, gr, rfl, hcase⟩ := call_cases hrt ns sc I.tasks hw
  rcases hcase with ⟨ga, rfl, hcl⟩ | ⟨ga, hcl, hmem, hres⟩
  · rw [hcl] at h
    subst h
    have hfg : ∀ {f : FnNode}, f ∈ methodsOf S → f.isRead = false → (x.camel g.id = x.camel f.id ↔ g = f) :=
      fun hf hr => ⟨fun e => camel_inj hR hg hf gr hr e, fun e => by rw [e]⟩
    have hlast := I.last g hg gr ga
    have hnew : ∀ w i, s.client.pending w i ≠ some s.client.created := by
      intro w i e
      obtain ⟨-, f, -, -, -, -, j, ds', h1, -⟩ := I.pend w i _ e
      exact Nat.lt_irrefl _ (I.future _ (callsOf_mem h1) _ rfl)
    have hnd : s.client.created ∉ s.client.done.map (·.1) := by
      intro hm
      obtain ⟨p, hp, e⟩ := List.mem_map.1 hm
      obtain ⟨f, -, -, -, j, ds', h1, -⟩ := I.done p hp
      exact Nat.lt_irrefl _ (I.future _ (callsOf_mem h1) _ (by rw [e]))
    constructor
    · exact I.tasks
    · intro f hf hr ha
      rw [callsOf_snoc]
      simp only [ClientState.afterCall]
      by_cases e : g = f
      · subst e
        simp [hlast, idAt]
      · have e1 : x.camel g.id ≠ x.camel f.id := fun h => e ((hfg hf hr).1 h)
        have e2 : varLastMethodId x f ≠ varLastMethodId x g := fun h' => e (last_inj hR hg hf gr ga hr ha h'.symm)
        simp [e1, e2, I.last f hf hr ha]
    · intro w i n hp
      simp only [ClientState.afterCall] at hp ⊢
      split at hp
      · rename_i e
        simp only [Option.some.injEq] at hp
        subst hp
        refine ⟨hnd, g, hg, gr, ga, e.1, (s.callsOf (x.camel g.id)).length, ds, ?_, by rw [e.2, hlast]⟩
        rw [callsOf_snoc]
        simp
      · obtain ⟨h1, f, hf, hr, ha, e1, j, ds', h2, h3⟩ := I.pend w i n hp
        exact ⟨h1, f, hf, hr, ha, e1, j, ds', callsOf_keep h2, h3⟩
    · intro w i w' i' n hp hp'
      simp only [ClientState.afterCall] at hp hp'
      split at hp <;> split at hp'
      · rename_i e e'
        exact ⟨e.1.trans e'.1.symm, e.2.trans e'.2.symm⟩
      · simp only [Option.some.injEq] at hp
        subst hp
        exact absurd hp' (hnew _ _)
      · simp only [Option.some.injEq] at hp'
        subst hp'
        exact absurd hp (hnew _ _)
      · exact I.inj w i w' i' n hp hp'
    · intro f hf hr ha j ds' n hj hu hn
      simp only [ClientState.afterCall] at hn ⊢
      rw [callsOf_snoc] at hj hu
      by_cases e : g = f
      · subst e
        simp only [if_true, List.length_append, List.length_cons, List.length_nil] at hj hu
        by_cases hl : j < (s.callsOf (x.camel g.id)).length
        · rw [List.getElem?_append_left hl] at hj
          have h1 := hu (s.callsOf (x.camel g.id)).length hl (by omega)
          rw [if_neg (by rw [hlast]; exact fun e => h1 e.2.symm)]
          exact I.live g hg gr ga j ds' n hj (fun j' h2 h3 => hu j' h2 (by omega)) hn
        · have hj' : j = (s.callsOf (x.camel g.id)).length := by
            have := (List.getElem?_eq_some_iff.1 hj).1
            simp at this
            omega
          subst hj'
          simp only [List.getElem?_append_right (Nat.le_refl _), Nat.sub_self, List.getElem?_cons_zero, Option.some.injEq, Prod.mk.injEq,
            DRet.future.injEq, true_and] at hj
          rw [if_pos ⟨rfl, hlast.symm⟩, hj.2]
      · have e1 : x.camel g.id ≠ x.camel f.id := fun h => e ((hfg hf hr).1 h)
        simp only [e1, if_false, List.append_nil] at hj hu
        rw [if_neg (fun h => e (completers_inj hR hg hf gr ga hr ha h.1.symm))]
        exact I.live f hf hr ha j ds' n hj hu hn
    · intro c hc n e
      simp only [ClientState.afterCall]
      rcases List.mem_append.1 hc with hc | hc
      · exact Nat.lt_succ_of_lt (I.future c hc n e)
      · simp only [List.mem_singleton] at hc
        subst hc
        simp only [DRet.future.injEq] at e
        omega
    · refine List.pairwise_append.2 ⟨I.unique, by simp, ?_⟩
      intro c hc c' hc' n e e'
      simp only [List.mem_singleton] at hc'
      subst hc'
      simp only [DRet.future.injEq] at e'
      have := I.future c hc n e
      omega
    · exact I.nodup
    · intro p hp
      obtain ⟨f, hf, hr, ha, j, ds', h1, h2⟩ := I.done p hp
      exact ⟨f, hf, hr, ha, j, ds', callsOf_keep h1, h2⟩
    · exact I.events
    · intro c hc
      rcases List.mem_append.1 hc with hc | hc
      · exact I.results c hc
      · simp only [List.mem_singleton] at hc
        subst hc
        exact ⟨g, hg, gr, rfl, .inl ⟨ga, _, rfl⟩⟩
  · rw [hcl, hmem] at h
    subst h
    have hnf : ∀ n, r ≠ .future n := by
      rintro n rfl
      rcases hres with ⟨-, e⟩ | ⟨_, _, _, _, -, e, -⟩ <;> simp at e
    have hfg : ∀ {f : FnNode}, f ∈ methodsOf S → f.isRead = false → f.isAsync = true → x.camel g.id ≠ x.camel f.id := by
      intro f hf hr ha e
      rw [camel_inj hR hg hf gr hr e, ha] at ga
      simp at ga
    have hc : ∀ {f : FnNode}, f ∈ methodsOf S → f.isRead = false → f.isAsync = true →
        (Alone.mk s.client mem (s.calls ++ [(x.camel g.id, ds, r)])).callsOf (x.camel f.id) = s.callsOf (x.camel f.id) := by
      intro f hf hr ha
      rw [callsOf_snoc, if_neg (hfg hf hr ha), List.append_nil]
    constructor
    · exact I.tasks
    · intro f hf hr ha
      rw [hc hf hr ha]
      exact I.last f hf hr ha
    · intro w i n hp
      obtain ⟨h1, f, hf, hr, ha, e1, j, ds', h2, h3⟩ := I.pend w i n hp
      exact ⟨h1, f, hf, hr, ha, e1, j, ds', callsOf_keep h2, h3⟩
    · exact I.inj
    · intro f hf hr ha
      rw [hc hf hr ha]
      exact I.live f hf hr ha
    · intro c hc n e
      rcases List.mem_append.1 hc with hc | hc
      · exact I.future c hc n e
      · simp only [List.mem_singleton] at hc
        subst hc
        exact absurd e (hnf n)
    · refine List.pairwise_append.2 ⟨I.unique, by simp, ?_⟩
      intro c hc c' hc' n e e'
      simp only [List.mem_singleton] at hc'
      subst hc'
      exact absurd e' (hnf n)
    · exact I.nodup
    · intro p hp
      obtain ⟨f, hf, hr, ha, j, ds', h1, h2⟩ := I.done p hp
      exact ⟨f, hf, hr, ha, j, ds', callsOf_keep h1, h2⟩
    · exact I.events
    · intro c hc
      rcases List.mem_append.1 hc with hc | hc
      · exact I.results c hc
      · simp only [List.mem_singleton] at hc
        subst hc
        refine ⟨g, hg, gr, rfl, .inr ⟨ga, ?_⟩⟩
        rcases hres with ⟨e1, e2⟩ | ⟨t, d, r1, r2, ht, e, h1, h2⟩
        · exact .inl ⟨e1, e2⟩
        · refine .inr ⟨d, by simp [ht], e, hG g hg none (some d) ⟨by simp [CarriesId, ga], r1, r1, h1, rfl, ?_⟩⟩
          simp only [ReadsResult, ht]
          exact ⟨d, r2, rfl, h2⟩

theorem inv_read (hR : DartRpcNamed x S) (hrt : rt.Lawful) (ns sc : String) {s s' : Alone} {v : String}
    (I : AloneInv x S rot G s) (h : aloneAct rt P k hd rot (genClient x ns sc S) lib s (.read v) = some s')
    (hG : ∀ f ∈ methodsOf S, ∀ mid dv, Seen rt P k hd f (s'.mem f.position).client mid dv → G f mid dv) :
    AloneInv x S rot G s' := by
  simp only [aloneAct] at h
  split at h
  case h_2 => simp at h
  case h_1 t ht' =>
  split at h
  case h_2 => simp at h
  case h_1 cl hcl' =>
  simp only [Option.some.injEq] at h
  subst h
  rw [I.tasks] at ht'
  obtain ⟨g, hg, hgt⟩ := Rpc.taskOf_mem ht'
  unfold runTask at hcl'
  simp only [bind, Except.bind] at hcl'
  have hN := hG g hg
  simp only at hN
  unfold taskOf at hgt
  split at hgt
  · rename_i gr
    simp only [List.mem_singleton, Prod.mk.injEq] at hgt
    obtain ⟨-, rfl⟩ := hgt
    rcases stream_cases (hd := hd) (x := x) (S := S) hrt ns sc hg gr (P := P) (k := k) (bs := (s.mem g.position).client) (s := s.client) with
      ⟨-, h2⟩ | ⟨_, _, -, -, h2⟩ | ⟨r1, h1, ⟨_, e, -, -, h2⟩ | ⟨dv, h3, h2⟩⟩
    · simp [Bufs.get, h2] at hcl'
    · simp only [Bufs.get, h2, Except.ok.injEq] at hcl'
      subst hcl'
      exact I
    · simp [Bufs.get, h2] at hcl'
    · simp only [Bufs.get, h2, Except.ok.injEq] at hcl'
      subst hcl'
      refine ⟨I.tasks, I.last, I.pend, I.inj, I.live, I.future, I.unique, I.nodup, I.done, ?_, I.results⟩
      intro e he
      simp only [List.mem_append, List.mem_singleton] at he
      rcases he with he | rfl
      · exact I.events e he
      · exact ⟨g, hg, gr, rfl, hN none dv ⟨by simp [CarriesId, gr], r1, r1, h1, rfl, h3⟩⟩
  · rename_i gr
    split at hgt
    case isFalse => simp at hgt
    rename_i ga
    simp only [List.mem_singleton, Prod.mk.injEq] at hgt
    obtain ⟨-, rfl⟩ := hgt
    simp only [Bool.not_eq_true] at gr
    rcases answer_cases (hd := hd) (x := x) (S := S) hrt ns sc hg gr ga (P := P) (k := k) (bs := (s.mem g.position).client) (s := s.client)
        (fun i n hp => (I.pend _ i n hp).1) with
      ⟨-, h2⟩ | ⟨_, _, -, -, h2⟩ | ⟨r1, h1, ⟨-, h2⟩ | ⟨i, r2, h3, ⟨_, e, -, -, h2⟩ | ⟨dv, h4, h2⟩⟩⟩
    · simp [Bufs.get, h2] at hcl'
    · simp only [Bufs.get, h2, Except.ok.injEq] at hcl'
      subst hcl'
      exact I
    · simp [Bufs.get, h2] at hcl'
    · simp [Bufs.get, h2] at hcl'
    · simp only [Bufs.get, h2, Except.ok.injEq] at hcl'
      subst hcl'
      have hg' : G g (some i) dv := hN (some i) dv ⟨by simp [CarriesId, gr, ga], r1, r2, h1, h3, h4⟩
      unfold ClientState.answer
      cases hp : s.client.pending (varMethodCompleters x g) i with
      | none => exact I
      | some n =>
        obtain ⟨hnd, f0, hf0, hr0, ha0, e0, j0, ds0, hj0, hi0⟩ := I.pend _ _ _ hp
        have hrem : ∀ w' i' n', ({ s.client with done := s.client.done ++ [(n, dv)] }.remove (varMethodCompleters x g) i).pending w' i' = some n' →
            s.client.pending w' i' = some n' ∧ n' ≠ n := by
          intro w' i' n' hp'
          simp only [ClientState.remove] at hp'
          split at hp'
          · simp at hp'
          · rename_i hne
            refine ⟨hp', ?_⟩
            rintro rfl
            exact hne (I.inj _ _ _ _ _ hp' hp)
        constructor
        · exact I.tasks
        · exact I.last
        · intro w' i' n' hp'
          obtain ⟨h5, h6⟩ := hrem _ _ _ hp'
          obtain ⟨h7, h8⟩ := I.pend _ _ _ h5
          refine ⟨?_, h8⟩
          simp only [ClientState.remove, List.map_append, List.map_cons, List.map_nil, List.mem_append, List.mem_singleton, not_or]
          exact ⟨h7, h6⟩
        · intro w1 i1 w2 i2 n' hp1 hp2
          exact I.inj _ _ _ _ n' (hrem _ _ _ hp1).1 (hrem _ _ _ hp2).1
        · intro f hf hr ha j ds n' hj hu hn
          simp only [ClientState.remove, List.map_append, List.map_cons, List.map_nil, List.mem_append, List.mem_singleton, not_or] at hn
          have h5 := I.live f hf hr ha j ds n' hj hu hn.1
          simp only [ClientState.remove]
          rw [if_neg ?_]
          · exact h5
          · rintro ⟨e1, e2⟩
            rw [e1, e2, hp] at h5
            simp only [Option.some.injEq] at h5
            exact hn.2 h5.symm
        · exact I.future
        · exact I.unique
        · simp only [ClientState.remove, List.map_append, List.map_cons, List.map_nil]
          refine List.nodup_append.2 ⟨I.nodup, by simp, ?_⟩
          intro a ha b hb e
          simp only [List.mem_singleton] at hb
          subst e hb
          exact hnd ha
        · intro p hp'
          simp only [ClientState.remove, List.mem_append, List.mem_singleton] at hp'
          rcases hp' with hp' | rfl
          · exact I.done p hp'
          · have := completers_inj hR hg hf0 gr ga hr0 ha0 e0
            subst this
            exact ⟨g, hg, gr, ga, j0, ds0, hj0, hi0 ▸ hg'⟩
        · exact I.events
        · exact I.results

theorem inv_acts (hR : DartRpcNamed x S) (hrt : rt.Lawful) (ns sc : String) : ∀ (xs : List AloneAct) {s s' : Alone},
    AloneInv x S rot G s → aloneActs rt (genProg x S) k hd rot (genClient x ns sc S) lib s xs = some s' →
    (∀ ys zs t, xs = ys ++ zs → aloneActs rt (genProg x S) k hd rot (genClient x ns sc S) lib s ys = some t →
      ∀ f ∈ methodsOf S, ∀ mid dv, Seen rt (genProg x S) k hd f (t.mem f.position).client mid dv → G f mid dv) →
    AloneInv x S rot G s'
  | [], s, s', I, h, _ => by
    simp only [aloneActs, Option.some.injEq] at h
    exact h ▸ I
  | a :: as, s, s', I, h, hG => by
    simp only [aloneActs] at h
    split at h
    case h_2 => simp at h
    case h_1 s1 hs1 =>
    have h1 := hG [a] as s1 rfl (by simp only [aloneActs, hs1])
    refine inv_acts hR hrt ns sc as (s := s1) ?_ h (fun ys zs t e ht => hG (a :: ys) zs t (by rw [e]; rfl) (by simp only [aloneActs, hs1, ht]))
    cases a with
    | put a b bs =>
      simp only [aloneAct, Option.some.injEq] at hs1
      subst hs1
      exact ⟨I.tasks, I.last, I.pend, I.inj, I.live, I.future, I.unique, I.nodup, I.done, I.events, I.results⟩
    | call name ds mem => exact inv_call hR hrt ns sc I hs1 h1
    | read v => exact inv_read hR hrt ns sc I hs1 h1

theorem alone_new (hR : DartRpcNamed x S) (ns sc : String) (mem : Nat → Bufs) :
    aloneNew rt (genProg x S) k hd rot (genClient x ns sc S) lib mem =
      some ⟨{ ClientState.fresh with tasks := (methodsOf S).flatMap (taskOf x) }, mem, []⟩ := by
  unfold aloneNew
  rw [create_eq hR]

theorem inv_run (hR : DartRpcNamed x S) (hrt : rt.Lawful) (ns sc : String) {mem : Nat → Bufs} {xs : List AloneAct} {s : Alone}
    (h : AloneRun rt (genProg x S) k hd rot (genClient x ns sc S) lib mem xs s)
    (hG : ∀ ys zs t, xs = ys ++ zs → AloneRun rt (genProg x S) k hd rot (genClient x ns sc S) lib mem ys t →
      ∀ f ∈ methodsOf S, ∀ mid dv, Seen rt (genProg x S) k hd f (t.mem f.position).client mid dv → G f mid dv) :
    AloneInv x S rot G s := by
  obtain ⟨s0, h0, h1⟩ := h
  refine inv_acts hR hrt ns sc xs ?_ h1 (fun ys zs t e ht => hG ys zs t e ⟨s0, h0, ht⟩)
  rw [alone_new hR] at h0
  simp only [Option.some.injEq] at h0
  subst h0
  constructor <;> simp [ClientState.fresh, Alone.callsOf, idAt]

/-! ### Results -/

/-- Results that are read stand for values of the declared types. -/
theorem seen_typed (hrt : rt.Lawful) (hY : rt.Typed) (hS : Plain S) (hN : DartNamed x S) (hH : HasDefaults S) (hF : MethodTypesFree S) {f : FnNode}
    (hf : f ∈ methodsOf S) (hw : ∀ t, f.returnTypeId = some t → Sized t) {r : Bytes} {dv : Option Val}
    (h : ReadsResult rt (genProg x S) k f dv r) : DartResult x rt.wire S f dv := by
  unfold ReadsResult at h
  cases ht : f.returnTypeId with
  | none =>
    simp only [ht] at h
    subst h
    exact ht
  | some t =>
    simp only [ht] at h
    obtain ⟨d, r', rfl, h⟩ := h
    obtain ⟨v, ⟨h1, -⟩, h2⟩ := (((typed_ind (S := S) hY).both hS hN (new_enum hrt hS hN hH) k t (hw t ht) (hF.results f hf t ht)).1 r d r' h).one
    exact ⟨t, v, ht, h1, h2⟩

/-- If the library accepts only what it writes, what is seen is an answer. -/
theorem seen_answer (hrt : rt.Lawful) (hC : rt.Canonical) (hS : Plain S) (hN : DartNamed x S) (hH : HasDefaults S) (hF : MethodTypesFree S)
    {f : FnNode} (hf : f ∈ methodsOf S) (hw : ∀ t, f.returnTypeId = some t → Sized t) {bs : Bytes} {mid : Option Int} {dv : Option Val}
    (h : Seen rt (genProg x S) k hd f bs mid dv) : ∃ a rest, DartAnswer x rt.wire hd S f mid dv a ∧ bs = a ++ rest := by
  obtain ⟨-, r1, r2, h1, h2, h3⟩ := h
  obtain ⟨l1, s, h4, rfl⟩ := hC.prim "Int8" _ _ _ _ int8_prim h1
  have hs : rt.wire.prim "Int8" (.int hd) = some s := by
    simp only [Runtime.wire, if_neg (by decide : ¬ "Int8" = "u32"), int8_prim, if_pos l1, h4]
  have hm : ∃ m, DartIdBytes rt.wire mid m ∧ r1 = m ++ r2 := by
    cases mid with
    | none => exact ⟨[], rfl, h2.symm⟩
    | some i =>
      obtain ⟨l2, m, h5, rfl⟩ := hC.prim "Int64" _ _ _ _ int64_prim h2
      refine ⟨m, ?_, rfl⟩
      simp only [DartIdBytes, Runtime.wire, if_neg (by decide : ¬ "Int64" = "u32"), int64_prim, if_pos l2, h5]
  obtain ⟨m, hm, rfl⟩ := hm
  have hb : ∃ b rest, DartResultIs x rt.wire S f dv b ∧ r2 = b ++ rest := by
    unfold ReadsResult at h3
    cases ht : f.returnTypeId with
    | none =>
      simp only [ht] at h3
      subst h3
      exact ⟨[], r2, ⟨ht, rfl⟩, rfl⟩
    | some t =>
      simp only [ht] at h3
      obtain ⟨d, r', rfl, h3⟩ := h3
      obtain ⟨v, ⟨b, h5, h6⟩, h7⟩ := (((canonical_ind (S := S) hC).both hS hN (new_enum hrt hS hN hH) k t (hw t ht) (hF.results f hf t ht)).1
        r2 d r' h3).one
      exact ⟨b, r', ⟨t, v, ht, h5, h7⟩, h6⟩
  obtain ⟨b, rest, hb, rfl⟩ := hb
  exact ⟨s ++ m ++ b, rest, ⟨s, m, b, hs, hm, hb, rfl⟩, by simp⟩

/-- Answers are read. -/
theorem answer_seen (hrt : rt.Lawful) (hS : Plain S) (hN : DartNamed x S) (hH : HasDefaults S) (hD : DistinctNumbers S) (hF : MethodTypesFree S)
    {f : FnNode} (hf : f ∈ methodsOf S) {mid : Option Int} {dv : Option Val} {a rest : Bytes}
    (hi : mid.isSome = CarriesId f) (h : DartAnswer x rt.wire hd S f mid dv a) :
    ∃ dv', DartAnswer x rt.wire hd S f mid dv' a ∧ ∃ r1 r2, rt.readP "Int8" (a ++ rest) = some (.int hd, r1) ∧
      ReadsId rt mid r1 r2 ∧
      ∃ N, ∀ k, N ≤ k → ReadsResult rt (genProg x S) k f dv' r2 ∧ Seen rt (genProg x S) k hd f (a ++ rest) mid dv' := by
  obtain ⟨s, m, b, hs, hm, hb, rfl⟩ := h
  have h1 := (wire_int hrt (by decide) hs).2 (m ++ b ++ rest)
  have e1 : s ++ m ++ b ++ rest = s ++ (m ++ b ++ rest) := by simp
  have hres : ∃ dv', DartResultIs x rt.wire S f dv' b ∧ ∃ N, ∀ k, N ≤ k → ReadsResult rt (genProg x S) k f dv' (b ++ rest) := by
    cases dv with
    | none => exact ⟨none, hb, 0, fun k _ => by simp [ReadsResult, hb.1]⟩
    | some d =>
      obtain ⟨t, u, ht, he, -⟩ := hb
      obtain ⟨d', h2, h3⟩ := (enc_read_one hrt hS hN hH hD (hF.results f hf t ht) he).1
      obtain ⟨N, h3⟩ := h3 rest
      refine ⟨some d', ⟨t, u, ht, he, h2⟩, N, fun k hk => ?_⟩
      simp only [ReadsResult, ht]
      exact ⟨d', rest, rfl, h3 k hk⟩
  obtain ⟨dv', hb', N, hN'⟩ := hres
  have hmid : ReadsId rt mid (m ++ b ++ rest) (b ++ rest) := by
    cases mid with
    | none =>
      obtain rfl : m = [] := hm
      rfl
    | some i =>
      have := (wire_int hrt (by decide) hm).2 (b ++ rest)
      simpa [ReadsId] using this
  refine ⟨dv', ⟨s, m, b, hs, hm, hb', rfl⟩, m ++ b ++ rest, b ++ rest, by rw [e1, h1], hmid, N, fun k hk => ⟨hN' k hk, hi, m ++ b ++ rest, b ++ rest, by rw [e1, h1], hmid, hN' k hk⟩⟩

/-- With enough stack, reading ends. -/
theorem readT_ends (hrt : rt.Lawful) (hY : rt.Typed) (hc : rt.Consumes) (hS : Plain S) (hN : DartNamed x S) (hH : HasDefaults S) {t : TypeId}
    (ht : Sized t) (hf : LibraryFree S t) (bs : Bytes) :
    (∃ d r, Reads rt (genProg x S) t bs d r) ∨ ReadThrows rt (genProg x S) t bs := by
  obtain ⟨height, hh⟩ := hH.finite
  obtain ⟨H, hHb⟩ := height_bound (typeNames S) height
  obtain ⟨N, hnew⟩ := new_bound (x := x) hrt hS hN hH
  have h := (both_ended hrt hY hc hS hN hH hh hHb hnew _ t ht hf bs (Nat.le_refl _)).1
  generalize hk : N + bs.length * (2 * H + 5) + depthOf S height t + 2 = k at h
  cases hr : readT rt (genProg x S) k t bs with
  | ok q => exact .inl ⟨q.1, q.2, reads_of_eq hr⟩
  | error e =>
    rw [hr] at h
    cases e <;> first | exact h.elim | exact .inr (throws_of_eq hr)

/-- A result is read, or reading it throws. -/
theorem result_ends (hrt : rt.Lawful) (hY : rt.Typed) (hc : rt.Consumes) (hS : Plain S) (hN : DartNamed x S) (hH : HasDefaults S)
    (hF : MethodTypesFree S) {f : FnNode} (hf : f ∈ methodsOf S) (hw : ∀ t, f.returnTypeId = some t → Sized t) (r : Bytes) :
    (∃ dv N, ∀ k, N ≤ k → ReadsResult rt (genProg x S) k f dv r) ∨ ∃ t, f.returnTypeId = some t ∧ ReadThrows rt (genProg x S) t r := by
  cases ht : f.returnTypeId with
  | none => exact .inl ⟨none, 0, fun k _ => by simp [ReadsResult, ht]⟩
  | some t =>
    rcases readT_ends hrt hY hc hS hN hH (hw t ht) (hF.results f hf t ht) r with ⟨d, r', N, h⟩ | h
    · exact .inl ⟨some d, N, fun k hk => by simp only [ReadsResult, ht]; exact ⟨d, r', rfl, h k hk⟩⟩
    · exact .inr ⟨t, rfl, h⟩

/-! ### Progress -/

/-- Bytes on which reading fails after the status are no answer. -/
theorem no_answer (hrt : rt.Lawful) (hS : Plain S) (hN : DartNamed x S) (hH : HasDefaults S) (hD : DistinctNumbers S) (hF : MethodTypesFree S)
    {f : FnNode} (hf : f ∈ methodsOf S) {bs : Bytes}
    (h : ∀ r1 mid r2, mid.isSome = CarriesId f → rt.readP "Int8" bs = some (.int hd, r1) → ReadsId rt mid r1 r2 →
      ∃ t, f.returnTypeId = some t ∧ ReadThrows rt (genProg x S) t r2) :
    ∀ mid dv a rest, mid.isSome = CarriesId f → DartAnswer x rt.wire hd S f mid dv a → bs ≠ a ++ rest := by
  rintro mid dv a rest hi ha rfl
  obtain ⟨dv', -, r1, r2, h1, h2, N, h3⟩ := answer_seen hrt hS hN hH hD hF hf hi ha (rest := rest)
  obtain ⟨t, ht, N', h4⟩ := h r1 mid r2 hi h1 h2
  obtain ⟨h5, -⟩ := h3 (max N N') (by omega)
  have h6 := h4 (max N N') (by omega)
  simp only [ReadsResult, ht] at h5
  obtain ⟨d, r, -, h5⟩ := h5
  unfold readT at h6
  rw [h6] at h5
  simp at h5

theorem answer_progress (hrt : rt.Lawful) (hY : rt.Typed) (hc : rt.Consumes) (hS : Plain S) (hN : DartNamed x S) (hH : HasDefaults S)
    (hD : DistinctNumbers S) (hF : MethodTypesFree S) (ns sc : String) {f : FnNode} (hf : f ∈ methodsOf S)
    (hw : ∀ t, f.returnTypeId = some t → Sized t) (hr : f.isRead = false) (ha : f.isAsync = true) {s : ClientState}
    (hn : ∀ i n, s.pending (varMethodCompleters x f) i = some n → n ∉ s.done.map (·.1)) (bs : Bytes) :
    ∃ N, ∀ k, N ≤ k → (∃ q, runReader rt (genProg x S) k hd (genClient x ns sc S) (answerReader x f) .none bs s = .ok q) ∨
      (runReader rt (genProg x S) k hd (genClient x ns sc S) (answerReader x f) .none bs s = .error .throws ∧ MalformedAnswer x rt hd S f bs) := by
  have hcar : CarriesId f = true := by simp [CarriesId, hr, ha]
  have hmal : (∃ r, rt.readP "Int8" bs = some (.int hd, r)) → (∀ r1 i r2, rt.readP "Int8" bs = some (.int hd, r1) → rt.readP "Int64" r1 = some (.int i, r2) →
      ∃ t, f.returnTypeId = some t ∧ ReadThrows rt (genProg x S) t r2) → MalformedAnswer x rt hd S f bs := by
    refine fun h0 h => .inr ⟨h0, no_answer hrt hS hN hH hD hF hf ?_⟩
    intro r1 mid r2 hi h1 h2
    rw [hcar] at hi
    obtain ⟨i, rfl⟩ := Option.isSome_iff_exists.1 hi
    exact h r1 i r2 h1 h2
  have hcases := fun k => answer_cases (hd := hd) (x := x) hrt ns sc hf hr ha (P := genProg x S) (k := k) (bs := bs) (s := s) hn
  cases h1 : rt.readP "Int8" bs with
  | none =>
    refine ⟨0, fun k _ => ?_⟩
    rcases hcases k with ⟨-, h2⟩ | ⟨_, _, h2, -⟩ | ⟨_, h2, -⟩
    · exact .inr ⟨h2, .inl h1⟩
    · simp [h1] at h2
    · simp [h1] at h2
  | some q =>
    obtain ⟨v, r1⟩ := q
    by_cases hv : v = .int hd
    · subst hv
      cases h2 : rt.readP "Int64" r1 with
      | none =>
        refine ⟨0, fun k _ => ?_⟩
        rcases hcases k with ⟨h3, -⟩ | ⟨n, _, h3, h4, h5⟩ | ⟨r1', h3, ⟨h4, h5⟩ | ⟨_, _, h4, -⟩⟩
        · simp [h1] at h3
        · exact .inl ⟨_, h5⟩
        · refine .inr ⟨h5, hmal ⟨_, h1⟩ ?_⟩
          intro r1'' i r2 h6 h7
          rw [h1] at h6
          simp only [Option.some.injEq, Prod.mk.injEq, true_and] at h6
          rw [← h6, h2] at h7
          simp at h7
        · rw [h1] at h3
          simp only [Option.some.injEq, Prod.mk.injEq, true_and] at h3
          rw [← h3, h2] at h4
          simp at h4
      | some q =>
        obtain ⟨vi, r2⟩ := q
        rcases result_ends hrt hY hc hS hN hH hF hf hw r2 with ⟨dv, N, h3⟩ | ⟨t, ht, N, h3⟩
        · refine ⟨N, fun k hk => ?_⟩
          rcases hcases k with ⟨h4, -⟩ | ⟨n, _, h4, h5, h6⟩ | ⟨r1', h4, ⟨h5, h6⟩ | ⟨i, r2', h5, ⟨t, e, ht, h6, h7⟩ | ⟨dv, h6, h7⟩⟩⟩
          · simp [h1] at h4
          · exact .inl ⟨_, h6⟩
          · rw [h1] at h4
            simp only [Option.some.injEq, Prod.mk.injEq, true_and] at h4
            rw [← h4, h2] at h5
            simp at h5
          · exfalso
            rw [h1] at h4
            simp only [Option.some.injEq, Prod.mk.injEq, true_and] at h4
            rw [← h4, h2] at h5
            simp only [Option.some.injEq, Prod.mk.injEq] at h5
            have h8 := h3 k hk
            simp only [ReadsResult, ht] at h8
            obtain ⟨d, r', -, h8⟩ := h8
            unfold readT at h6
            rw [← h5.2, h8] at h6
            simp at h6
          · exact .inl ⟨_, h7⟩
        · refine ⟨N, fun k hk => ?_⟩
          rcases hcases k with ⟨h4, -⟩ | ⟨n, _, h4, h5, h6⟩ | ⟨r1', h4, ⟨h5, h6⟩ | ⟨i, r2', h5, ⟨t', e, ht', h6, h7⟩ | ⟨dv, h6, h7⟩⟩⟩
          · simp [h1] at h4
          · exact .inl ⟨_, h6⟩
          · rw [h1] at h4
            simp only [Option.some.injEq, Prod.mk.injEq, true_and] at h4
            rw [← h4, h2] at h5
            simp at h5
          · rw [h1] at h4
            simp only [Option.some.injEq, Prod.mk.injEq, true_and] at h4
            rw [← h4, h2] at h5
            simp only [Option.some.injEq, Prod.mk.injEq] at h5
            obtain rfl : t = t' := by rw [ht] at ht'; exact Option.some.inj ht'
            rw [← h5.2, h3 k hk] at h6
            simp only [Except.error.injEq] at h6
            subst h6
            refine .inr ⟨h7, hmal ⟨_, h1⟩ ?_⟩
            intro r1'' i' r2'' h8 h9
            rw [h1] at h8
            simp only [Option.some.injEq, Prod.mk.injEq, true_and] at h8
            rw [← h8, h2] at h9
            simp only [Option.some.injEq, Prod.mk.injEq] at h9
            exact ⟨t, ht, N, by rw [← h9.2]; exact h3⟩
          · exact .inl ⟨_, h7⟩
    · refine ⟨0, fun k _ => ?_⟩
      rcases hcases k with ⟨h4, -⟩ | ⟨n, _, h4, h5, h6⟩ | ⟨r1', h4, -⟩
      · simp [h1] at h4
      · exact .inl ⟨_, h6⟩
      · rw [h1] at h4
        simp only [Option.some.injEq, Prod.mk.injEq] at h4
        exact absurd h4.1 hv

theorem stream_progress (hrt : rt.Lawful) (hY : rt.Typed) (hc : rt.Consumes) (hS : Plain S) (hN : DartNamed x S) (hH : HasDefaults S)
    (hD : DistinctNumbers S) (hF : MethodTypesFree S) (ns sc : String) {f : FnNode} (hf : f ∈ methodsOf S)
    (hw : ∀ t, f.returnTypeId = some t → Sized t) (hr : f.isRead = true) {s : ClientState} (bs : Bytes) :
    ∃ N, ∀ k, N ≤ k → (∃ q, runReader rt (genProg x S) k hd (genClient x ns sc S) (genReaderHead ++ genAdd x f) .none bs s = .ok q) ∨
      (runReader rt (genProg x S) k hd (genClient x ns sc S) (genReaderHead ++ genAdd x f) .none bs s = .error .throws ∧
        MalformedAnswer x rt hd S f bs) := by
  have hcar : CarriesId f = false := by simp [CarriesId, hr]
  have hcases := fun k => stream_cases (hd := hd) (x := x) hrt ns sc hf hr (P := genProg x S) (k := k) (bs := bs) (s := s)
  cases h1 : rt.readP "Int8" bs with
  | none =>
    refine ⟨0, fun k _ => ?_⟩
    rcases hcases k with ⟨-, h2⟩ | ⟨_, _, h2, -⟩ | ⟨_, h2, -⟩
    · exact .inr ⟨h2, .inl h1⟩
    · simp [h1] at h2
    · simp [h1] at h2
  | some q =>
    obtain ⟨v, r1⟩ := q
    by_cases hv : v = .int hd
    · subst hv
      rcases result_ends hrt hY hc hS hN hH hF hf hw r1 with ⟨dv, N, h3⟩ | ⟨t, ht, N, h3⟩
      · exact ⟨N, fun k hk => .inl ⟨_, reader_add ns sc hf hr h1 (h3 k hk)⟩⟩
      · refine ⟨N, fun k hk => ?_⟩
        rcases hcases k with ⟨h4, -⟩ | ⟨n, _, h4, h5, h6⟩ | ⟨r1', h4, ⟨t', e, ht', h6, h7⟩ | ⟨dv, h6, h7⟩⟩
        · simp [h1] at h4
        · exact .inl ⟨_, h6⟩
        · rw [h1] at h4
          simp only [Option.some.injEq, Prod.mk.injEq, true_and] at h4
          obtain rfl : t = t' := by rw [ht] at ht'; exact Option.some.inj ht'
          rw [← h4, h3 k hk] at h6
          simp only [Except.error.injEq] at h6
          subst h6
          refine .inr ⟨h7, .inr ⟨⟨_, h1⟩, no_answer hrt hS hN hH hD hF hf ?_⟩⟩
          intro r1'' mid r2 hi h8 h9
          rw [hcar] at hi
          obtain rfl := Option.not_isSome_iff_eq_none.1 (by rw [hi]; decide)
          rw [h1] at h8
          simp only [Option.some.injEq, Prod.mk.injEq, true_and] at h8
          obtain rfl : r2 = r1'' := h9
          exact ⟨t, ht, N, by rw [← h8]; exact h3⟩
        · exact .inl ⟨_, h7⟩
    · refine ⟨0, fun k _ => ?_⟩
      rcases hcases k with ⟨h4, -⟩ | ⟨n, _, h4, h5, h6⟩ | ⟨r1', h4, -⟩
      · simp [h1] at h4
      · exact .inl ⟨_, h6⟩
      · rw [h1] at h4
        simp only [Option.some.injEq, Prod.mk.injEq] at h4
        exact absurd h4.1 hv

/-- The result of a synchronous method is read, or the buffer holds no answer. -/
theorem sync_progress (hrt : rt.Lawful) (hY : rt.Typed) (hc : rt.Consumes) (hS : Plain S) (hN : DartNamed x S) (hH : HasDefaults S)
    (hD : DistinctNumbers S) (hF : MethodTypesFree S) {C : Client} {f : FnNode} (hf : f ∈ methodsOf S) {t : TypeId} (ht : f.returnTypeId = some t)
    (hw : Sized t) (ha : f.isAsync = false) {s : ClientState} (bs : Bytes) :
    ∃ N, ∀ k, N ≤ k → (∃ d, runReader rt (genProg x S) k hd C [.letStatus, .blank, .ifNoData true, .blank, .ret (genRead t)] .none bs s = .ok (s, some d)) ∨
      (runReader rt (genProg x S) k hd C [.letStatus, .blank, .ifNoData true, .blank, .ret (genRead t)] .none bs s = .error .throws ∧
        ∀ dv a rest, DartAnswer x rt.wire hd S f none dv a → bs ≠ a ++ rest) := by
  have hcar : CarriesId f = false := by simp [CarriesId, ha]
  have hcases := fun k => sync_cases (hd := hd) hrt (C := C) (t := t) (P := genProg x S) (k := k) (bs := bs) (s := s)
  have hno : (∀ r, rt.readP "Int8" bs ≠ some (.int hd, r)) → ∀ dv a rest, DartAnswer x rt.wire hd S f none dv a → bs ≠ a ++ rest :=
    fun h dv a rest h1 => no_answer hrt hS hN hH hD hF hf (fun r1 _ _ _ h2 _ => absurd h2 (h r1)) none dv a rest (by rw [hcar]; rfl) h1
  cases h1 : rt.readP "Int8" bs with
  | none =>
    refine ⟨0, fun k _ => ?_⟩
    rcases hcases k with ⟨-, h2⟩ | ⟨_, _, h2, -⟩ | ⟨_, h2, -⟩
    · exact .inr ⟨h2, hno (by simp [h1])⟩
    · simp [h1] at h2
    · simp [h1] at h2
  | some q =>
    obtain ⟨v, r1⟩ := q
    by_cases hv : v = .int hd
    · subst hv
      rcases readT_ends hrt hY hc hS hN hH hw (hF.results f hf t ht) r1 with ⟨d, r, N, h3⟩ | ⟨N, h3⟩
      · refine ⟨N, fun k hk => ?_⟩
        rcases hcases k with ⟨h4, -⟩ | ⟨n, _, h4, h5, h6⟩ | ⟨r1', h4, ⟨e, h6, h7⟩ | ⟨d, r, h6, h7⟩⟩
        · simp [h1] at h4
        · rw [h1] at h4
          simp only [Option.some.injEq, Prod.mk.injEq, Val.int.injEq] at h4
          exact absurd h4.1.symm h5
        · rw [h1] at h4
          simp only [Option.some.injEq, Prod.mk.injEq, true_and] at h4
          rw [← h4, h3 k hk] at h6
          simp at h6
        · exact .inl ⟨_, h7⟩
      · refine ⟨N, fun k hk => ?_⟩
        rcases hcases k with ⟨h4, -⟩ | ⟨n, _, h4, h5, h6⟩ | ⟨r1', h4, ⟨e, h6, h7⟩ | ⟨d, r, h6, h7⟩⟩
        · simp [h1] at h4
        · rw [h1] at h4
          simp only [Option.some.injEq, Prod.mk.injEq, Val.int.injEq] at h4
          exact absurd h4.1.symm h5
        · rw [h1] at h4
          simp only [Option.some.injEq, Prod.mk.injEq, true_and] at h4
          rw [← h4, h3 k hk] at h6
          simp only [Except.error.injEq] at h6
          subst h6
          refine .inr ⟨h7, fun dv a rest h8 => no_answer hrt hS hN hH hD hF hf ?_ none dv a rest (by rw [hcar]; rfl) h8⟩
          intro r1'' mid r2 hi h8 h9
          rw [hcar] at hi
          obtain rfl := Option.not_isSome_iff_eq_none.1 (by rw [hi]; decide)
          rw [h1] at h8
          simp only [Option.some.injEq, Prod.mk.injEq, true_and] at h8
          obtain rfl : r2 = r1'' := h9
          exact ⟨t, ht, N, by rw [← h8]; exact h3⟩
        · exact .inl ⟨_, h7⟩
    · refine ⟨0, fun k _ => ?_⟩
      have hno' := hno (by simp [h1, hv])
      rcases hcases k with ⟨h4, -⟩ | ⟨n, _, h4, h5, h6⟩ | ⟨r1', h4, -⟩
      · simp [h1] at h4
      · exact .inr ⟨h6, hno'⟩
      · rw [h1] at h4
        simp only [Option.some.injEq, Prod.mk.injEq] at h4
        exact absurd h4.1 hv

/-- A synchronous method fails if reading its result does. -/
theorem sync_fails (hR : DartRpcNamed x S) (ns scope : String) {f : FnNode} (hf : f ∈ methodsOf S) (hr : f.isRead = false)
    (ha : f.isAsync = false) {k : Nat} {ds : List Val} (hl : ds.length = f.args.length) {s b : Bytes}
    (hs : rt.writeP "Int8" (.int hd) = some s)
    (hb : ∀ l, Visible x l f.args →
      evalWStmts rt (genProg x S) k hd (((genParams x f).map (·.2)).zip ds) l (genArgWrites x f) = .ok b)
    {w : World Unit} {mem2 : Nat → Bufs} {t : TypeId} (ht : f.returnTypeId = some t) {e : Fault}
    (hrv : runReader rt (genProg x S) k hd (genClient x ns scope S) [.letStatus, .blank, .ifNoData true, .blank, .ret (genRead t)] .none
      (mem2 f.position).client w.client = .error e) :
    callMethod rt (genProg x S) k hd rot (genClient x ns scope S) lib (fun _ (_ : Unit) => .ok (mem2, ())) (x.camel f.id) ds w = .error e := by
  have hm : genSync x f ∈ genDMethods x f := by simp [genDMethods, hr, ha]
  have hok : (genSync x f).paramsOk = true := by
    refine paramsOk_of hR hf rfl (fun n hn => ?_)
    simp only [genSync, genSyncResult, List.flatMap_append, List.flatMap_cons, DStmt.binds, List.flatMap_nil, List.append_nil,
      List.nil_append] at hn
    simp [ht, DStmt.binds] at hn
    simp [hn, ha]
  unfold callMethod
  rw [find_method hR ns scope hf hm (n := x.camel f.id) rfl]
  simp only [hok, true_and]
  rw [if_pos (by simp [genSync, genParams, hl])]
  have hw : evalWStmts rt (genProg x S) k hd (((genParams x f).map (·.2)).zip ds) ⟨none, none, none⟩ (.status :: genArgWrites x f)
      = .ok (s ++ b) := by
    simp only [evalWStmts, evalWStmt, hs, orElse, bind, Except.bind, hb ⟨none, none, none⟩ (.inl rfl)]
  simp only [genSync, List.cons_append, List.nil_append, execD, hw, bind, Except.bind, Bufs.get, genSyncResult, ht, hrv]

end TPB.Dart
