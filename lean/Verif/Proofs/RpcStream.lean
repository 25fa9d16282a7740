/-
The client buffer of an asynchronous read method holds nothing but values that the user's function has
yielded, in every history of the server.
-/
import Verif.Proofs.RpcJoint
import Verif.Sem.Each
namespace TPB.Rust
open Spec

section
variable {σ : Type} {C : Codec} {lib : BufLib} {U : User σ} {st : Status → Bytes} {f : FnNode} {a : Nat} {ty : TypeId}
  {regs : List (Nat × Handler)}

/-- The states of the spawned future of a read method; `R` are the values that have been yielded. -/
inductive StTask (f : FnNode) (R : Ret → Prop) : Thread → Prop
  | t0 (fr o) : StTask f R ⟨fr, o, none, readFut f⟩
  | t1 (fr o) : StTask f R ⟨fr, o, some (true, f.id, []), [.blank, .ifResult (readTail f)]⟩
  | t2 (fr o r) : fr.result = some r → R r → StTask f R ⟨fr, o, none, [.blank, .ifResult (readTail f)]⟩
  | t3 (fr o r) : fr.result = some r → R r → StTask f R ⟨fr, o, none, [.ifResult (readTail f)]⟩
  | t4 (fr o v) : fr.resultRef = some v → R (.opt (some v)) → StTask f R ⟨fr, o, none, readTail f⟩
  | t5 (fr o v) : fr.resultRef = some v → R (.opt (some v)) →
      StTask f R ⟨fr, o, none, [.bufWrite .client (.status .xFF :: genResults f), .bufWrite .server [.status .x00]]⟩
  | t6 (fr o) : StTask f R ⟨fr, o, none, [.bufWrite .server [.status .x00]]⟩
  | t7 (fr o) : StTask f R ⟨fr, o, none, []⟩

theorem StTask.mono {R R' : Ret → Prop} (h : ∀ r, R r → R' r) {t : Thread} : StTask f R t → StTask f R' t
  | .t0 fr o => .t0 fr o
  | .t1 fr o => .t1 fr o
  | .t2 fr o r h1 h2 => .t2 fr o r h1 (h r h2)
  | .t3 fr o r h1 h2 => .t3 fr o r h1 (h r h2)
  | .t4 fr o v h1 h2 => .t4 fr o v h1 (h _ h2)
  | .t5 fr o v h1 h2 => .t5 fr o v h1 (h _ h2)
  | .t6 fr o => .t6 fr o
  | .t7 fr o => .t7 fr o

/-- The states of the handler of a read method. -/
def StRun (f : FnNode) (c : List Stmt) : Prop :=
  c = genAsyncReadBody f ∨ c = [.blank, .ifNotBusy (readBlock f)] ∨ c = [.ifNotBusy (readBlock f)] ∨ c = readBlock f ∨
  c = [.blank, .spawn (readFut f)] ∨ c = [.spawn (readFut f)] ∨ c = []

/-- The bytes that the future writes for the value `v`. -/
theorem evalRead_inv (hst : C.StatusOk st) (hty : f.returnTypeId = some ty) {fr : Frame} {v : Val} (hv : fr.resultRef = some v) {bs : Bytes}
    (h : evalBufWs C fr (.status .xFF :: genResults f) = .ok bs) : ∃ b, C.write ty v = some b ∧ bs = st .xFF ++ b := by
  simp only [genResults, hty, evalBufWs, evalBufW, (hst .xFF).1, orElse, bind, Except.bind] at h
  cases hw : C.write ty v with
  | none => cases ty <;> simp [genResult, evalBufW, hv, orElse, hw] at h
  | some b =>
    cases ty <;> simp [genResult, evalBufW, hv, orElse, hw] at h <;> exact ⟨b, rfl, h.symm⟩

theorem StTask.step (hst : C.StatusOk st) (hty : f.returnTypeId = some ty) {R : Ret → Prop} {t : Thread} (h : StTask f R t) (hw : t.wait = none)
    {m : Bufs} {u : σ} {o : Out σ} (hs : step C lib U m u t = .ok o) :
    StTask f R o.thread ∧ o.spawned = none ∧
      (o.bufs.client = m.client ∨ ∃ v b, R (.opt (some v)) ∧ C.write ty v = some b ∧ o.bufs.client = lib m.client (st .xFF ++ b)) := by
  cases h with
  | t0 fr ou =>
    simp only [Rust.step, readFut] at hs
    by_cases hf : f.id ∈ fr.names
    · simp [hf] at hs
    · simp only [hf, if_false, callArgs, bind, Except.bind, if_true, Except.ok.injEq] at hs
      subst hs
      exact ⟨.t1 _ _, rfl, .inl rfl⟩
  | t1 => simp at hw
  | t2 fr ou r h1 h2 =>
    simp only [Rust.step, Except.ok.injEq] at hs
    subst hs
    exact ⟨.t3 _ _ r h1 h2, rfl, .inl rfl⟩
  | t3 fr ou r h1 h2 =>
    simp only [Rust.step, h1] at hs
    cases r with
    | unit => simp at hs
    | val => simp at hs
    | opt x =>
      cases x with
      | none =>
        simp only [Except.ok.injEq] at hs
        subst hs
        exact ⟨.t7 _ _, rfl, .inl rfl⟩
      | some x =>
        simp only [Except.ok.injEq] at hs
        subst hs
        exact ⟨.t4 _ _ x rfl h2, rfl, .inl rfl⟩
  | t4 fr ou v h1 h2 =>
    simp only [Rust.step, readTail] at hs
    split at hs
    · simp only [Except.ok.injEq] at hs
      subst hs
      exact ⟨.t5 _ _ v h1 h2, rfl, .inl rfl⟩
    · simp at hs
  | t5 fr ou v h1 h2 =>
    simp only [Rust.step] at hs
    split at hs
    · cases hb : evalBufWs C fr (.status .xFF :: genResults f) with
      | error e => simp [hb, bind, Except.bind] at hs
      | ok bs =>
        simp only [hb, bind, Except.bind, Except.ok.injEq] at hs
        subst hs
        obtain ⟨b, hb1, rfl⟩ := evalRead_inv hst hty h1 hb
        exact ⟨.t6 _ _, rfl, .inr ⟨v, b, h2, hb1, rfl⟩⟩
    · simp at hs
  | t6 fr ou =>
    simp only [Rust.step] at hs
    split at hs
    · simp only [evalBufWs, evalBufW, (hst .x00).1, orElse, bind, Except.bind, Except.ok.injEq] at hs
      subst hs
      exact ⟨.t7 _ _, rfl, .inl rfl⟩
    · simp at hs
  | t7 => simp [Rust.step] at hs

theorem StRun.step (hst : C.StatusOk st) {t : Thread} (h : StRun f t.code) {m : Bufs} {u : σ} {o : Out σ} (hs : step C lib U m u t = .ok o) :
    StRun f o.thread.code ∧ o.bufs.client = m.client ∧ ∀ t', o.spawned = some t' → ∀ R, StTask f R t' := by
  obtain ⟨fr, ou, w, code⟩ := t
  rcases h with h | h | h | h | h | h | h <;> simp only at h <;> subst h
  · simp only [Rust.step, genAsyncReadBody_eq, bind, Except.bind] at hs
    split at hs
    · simp at hs
    · simp only [Except.ok.injEq] at hs
      subst hs
      exact ⟨.inr (.inl rfl), rfl, by simp⟩
  · simp only [Rust.step, Except.ok.injEq] at hs
    subst hs
    exact ⟨.inr (.inr (.inl rfl)), rfl, by simp⟩
  · simp only [Rust.step] at hs
    split at hs
    · simp only [Except.ok.injEq] at hs
      subst hs
      exact ⟨.inr (.inr (.inr (.inl rfl))), rfl, by simp⟩
    · simp only [Except.ok.injEq] at hs
      subst hs
      exact ⟨.inr (.inr (.inr (.inr (.inr (.inr rfl))))), rfl, by simp⟩
    · simp at hs
  · simp only [Rust.step, readBlock] at hs
    split at hs
    · simp only [evalBufWs, evalBufW, (hst .xFF).1, orElse, bind, Except.bind, Except.ok.injEq] at hs
      subst hs
      exact ⟨.inr (.inr (.inr (.inr (.inl rfl)))), rfl, by simp⟩
    · simp at hs
  · simp only [Rust.step, Except.ok.injEq] at hs
    subst hs
    exact ⟨.inr (.inr (.inr (.inr (.inr (.inl rfl))))), rfl, by simp⟩
  · simp only [Rust.step] at hs
    split at hs
    · simp only [Except.ok.injEq] at hs
      subst hs
      exact ⟨.inr (.inr (.inr (.inr (.inr (.inr rfl))))), rfl, by intro t' e R; simp only [Option.some.injEq] at e; subst e; exact .t0 _ _⟩
    · simp at hs
  · simp [Rust.step] at hs

theorem StTask.ended {R R' : Ret → Prop} {t : Thread} (h : StTask f R t) (hc : t.code = []) : StTask f R' t := by
  cases h <;> first | exact .t7 _ _ | simp [readFut, readTail] at hc

/-- At most one future of the method is running: the others have ended. -/
theorem only_live {l1 l2 : List Task} {t : Task} (h : (l1 ++ t :: l2).countP (Task.live a) ≤ 1) (ht : Task.live a t = true) {x : Task}
    (hx : x ∈ l1 ∨ x ∈ l2) (e : x.addr = a) : x.thread.code = [] := by
  have : (l1 ++ l2).countP (Task.live a) = 0 := by
    simp only [List.countP_append, List.countP_cons, ht, if_true] at h ⊢
    omega
  rw [List.countP_eq_zero] at this
  have := this x (by simpa using hx)
  simpa [Task.live, e] using this

/-- The value of a read method that is in progress is the last one that its function has yielded. -/
def Last (f : FnNode) (a : Nat) (log : List Ev) (r : Ret) : Prop := ∀ v, r = .opt (some v) → (yields a f.id log).getLast? = some v

theorem yields_append (g : String) (l l' : List Ev) : yields a g (l ++ l') = yields a g l ++ yields a g l' := by simp [yields]

theorem yields_called (g : String) (b : Nat) (l : List Ev) (ps : List (String × List Val)) :
    yields a g (l ++ ps.map (fun p => Ev.called b p.1 p.2)) = yields a g l := by
  rw [yields_append]
  have : yields a g (ps.map (fun p => Ev.called b p.1 p.2)) = [] := by
    simp only [yields, List.filterMap_eq_nil_iff]
    intro e he
    obtain ⟨p, -, rfl⟩ := List.mem_map.1 he
    rfl
  simp [this]

theorem yields_one (g : String) (l : List Ev) (e : Ev) (he : e.yieldOf a g = none) : yields a g (l ++ [e]) = yields a g l := by
  rw [yields_append]; simp [yields, he]

/-- The invariant: an answer in the client buffer is a value that the user's function has yielded, not before
the value with number `B`. -/
structure StInv (C : Codec) (st : Status → Bytes) (f : FnNode) (ty : TypeId) (a B : Nat) (c : Cfg σ) : Prop where
  tasks : ∀ t ∈ c.tasks, t.addr = a → StTask f (Last f a c.log) t.thread
  run : ∀ r, c.run = some r → r.addr = a → StRun f r.thread.code
  bound : B ≤ (yields a f.id c.log).length - 1
  client : (∃ r, readStatus C (c.mem a).client = .ok (255, r)) → ∃ i v b rest, B ≤ i ∧ (yields a f.id c.log)[i]? = some v ∧
    C.write ty v = some b ∧ (c.mem a).client = st .xFF ++ b ++ rest

theorem StInv.mk_same {B : Nat} {c c' : Cfg σ} (h : StInv C st f ty a B c) (hy : yields a f.id c'.log = yields a f.id c.log)
    (hT : ∀ t ∈ c'.tasks, t.addr = a → StTask f (Last f a c.log) t.thread)
    (hR : ∀ r, c'.run = some r → r.addr = a → StRun f r.thread.code) (hm : (c'.mem a).client = (c.mem a).client) : StInv C st f ty a B c' where
  tasks t ht e := (hT t ht e).mono (fun r h' => by simpa [Last, hy] using h')
  run := hR
  bound := by rw [hy]; exact h.bound
  client := by rw [hy, hm]; exact h.client

theorem stInv_act (hst : C.StatusOk st) (hlib : lib.Lawful) (hr : f.isRead = true) (ha : f.isAsync = true) (hty : f.returnTypeId = some ty)
    (hreg : regs.lookup a = some (genHandler f)) {x : Act}
    (hx : ∀ bs, x = .clear a bs → ∀ r, ¬ ∃ r', readStatus C (bs ++ r) = .ok (255, r')) {B : Nat} {c c' : Cfg σ}
    (hone : c.tasks.countP (Task.live a) ≤ 1) (hI : StInv C st f ty a B c)
    (h : act C lib U regs c x = some c') : StInv C st f ty a B c' := by
  have hT := hI.tasks
  have hR := hI.run
  cases x with
  | poll b =>
    simp only [act] at h
    split at h
    · rename_i hrun hl
      simp only [Option.some.injEq] at h
      subst h
      refine hI.mk_same rfl hT ?_ rfl
      rintro r hr' e
      simp only [Option.some.injEq] at hr'
      subst hr'
      simp only at e
      subst e
      rw [hreg] at hl
      simp only [Option.some.injEq] at hl
      subst hl
      exact .inl (by simp [Handler.start, genHandler, hr, ha])
    · simp at h
  | stepH =>
    simp only [act] at h
    split at h
    · rename_i r hrun
      split at h
      · rename_i o ho
        simp only [Option.some.injEq] at h
        subst h
        by_cases hra : r.addr = a
        · obtain ⟨h1, h2, h3⟩ := (hR r hrun hra).step hst ho
          refine hI.mk_same (yields_called _ _ _ _) ?_ ?_ ?_
          · intro t ht e
            rcases List.mem_append.1 ht with ht | ht
            · exact hT t ht e
            · obtain ⟨y, hy, rfl⟩ := List.mem_map.1 ht
              exact h3 y (by simpa using hy) _
          · rintro r' hr' -
            simp only [Option.some.injEq] at hr'
            subst hr'
            exact h1
          · simp only [hra, setMem_self]
            rw [h2, hra]
        · refine hI.mk_same (yields_called _ _ _ _) ?_ ?_ ?_
          · intro t ht e
            rcases List.mem_append.1 ht with ht | ht
            · exact hT t ht e
            · obtain ⟨y, -, rfl⟩ := List.mem_map.1 ht
              exact absurd e hra
          · rintro r' hr' e
            simp only [Option.some.injEq] at hr'
            subst hr'
            exact absurd e hra
          · simp only [setMem_ne _ _ (Ne.symm hra)]
      · simp at h
    · simp at h
  | endH =>
    simp only [act] at h
    split at h
    · split at h
      · simp only [Option.some.injEq] at h
        subst h
        exact hI.mk_same (yields_one _ _ _ rfl) hT (by simp) rfl
      · simp at h
    · simp at h
  | stepT i =>
    simp only [act] at h
    split at h
    · rename_i t ht
      obtain ⟨l1, l2, hl, hset⟩ := split_set ht
      split at h
      · simp at h
      · rename_i hwait
        split at h
        · rename_i o ho
          simp only [Option.some.injEq] at h
          subst h
          have htm : t ∈ c.tasks := by rw [hl]; simp
          by_cases hta : t.addr = a
          · obtain ⟨h1, h2, h3⟩ := (hT t htm hta).step hst hty hwait ho
            have hT' : ∀ x ∈ c.tasks.set i { t with thread := o.thread } ++ o.spawned.toList.map (Task.mk t.addr), x.addr = a →
                StTask f (Last f a c.log) x.thread := by
              rw [hset]
              intro x hx e
              simp only [h2, Option.toList_none, List.map_nil, List.append_nil, List.mem_append, List.mem_cons] at hx
              rcases hx with hx | rfl | hx
              · exact hT x (by simp [hl, hx]) e
              · exact h1
              · exact hT x (by simp [hl, hx]) e
            rcases h3 with h3 | ⟨v, b, hv, hb, h3⟩
            · refine hI.mk_same (yields_called _ _ _ _) hT' hR ?_
              simp only [hta, setMem_self]
              rw [h3, hta]
            · refine ⟨fun x hx e => (hT' x hx e).mono (fun r h' => by simpa [Last, yields_called] using h'), hR, ?_, ?_⟩
              · simp only [yields_called]; exact hI.bound
              · simp only [yields_called, hta, setMem_self]
                intro _
                have hlast := hv v rfl
                rw [List.getLast?_eq_getElem?] at hlast
                obtain ⟨rest, hrest⟩ := hlib (c.mem t.addr).client (st .xFF ++ b)
                exact ⟨_, v, b, rest, hI.bound, hlast, hb, by rw [h3, hrest]⟩
          · refine hI.mk_same (yields_called _ _ _ _) ?_ hR ?_
            · rw [hset]
              intro x hx e
              simp only [List.mem_append, List.mem_cons, List.mem_map] at hx
              rcases hx with (hx | rfl | hx) | ⟨y, -, rfl⟩
              · exact hT x (by simp [hl, hx]) e
              · exact absurd e hta
              · exact hT x (by simp [hl, hx]) e
              · exact absurd e hta
            · simp only [setMem_ne _ _ (Ne.symm hta)]
        · simp at h
    · simp at h
  | resume i r =>
    simp only [act] at h
    split at h
    · rename_i t ht
      obtain ⟨l1, l2, hl, hset⟩ := split_set ht
      split at h
      · rename_i res g xs hwait
        simp only [Option.some.injEq] at h
        subst h
        have htm : t ∈ c.tasks := by rw [hl]; simp
        by_cases hta : t.addr = a
        · obtain ⟨ad, th⟩ := t
          simp only at hta hwait
          subst hta
          have h1 := hT _ htm rfl
          simp only at h1
          have hlive : Task.live ad ⟨ad, th⟩ = true := by
            cases h1 <;> simp_all [Task.live]
          rw [hl] at hone
          cases h1 with
          | t1 fr ou =>
            simp only [Option.some.injEq, Prod.mk.injEq] at hwait
            obtain ⟨rfl, rfl, rfl⟩ := hwait
            refine ⟨?_, hR, ?_, ?_⟩
            · simp only [hset]
              intro x hx e
              simp only [List.mem_append, List.mem_cons] at hx
              rcases hx with hx | rfl | hx
              · exact (hT x (by simp [hl, hx]) e).ended (only_live hone hlive (.inl hx) e)
              · refine .t2 _ _ r (by simp [bindResult]) ?_
                rintro v rfl
                simp [yields_append, yields, Ev.yieldOf]
              · exact (hT x (by simp [hl, hx]) e).ended (only_live hone hlive (.inr hx) e)
            · have := hI.bound
              simp only [yields_append, List.length_append]
              omega
            · intro hm
              obtain ⟨j, v, b, rest, h1, h2, h3⟩ := hI.client hm
              refine ⟨j, v, b, rest, h1, ?_, h3⟩
              simp only [yields_append]
              rw [List.getElem?_append_left (List.getElem?_eq_some_iff.1 h2).1]
              exact h2
          | t0 => simp at hwait
          | t2 => simp at hwait
          | t3 => simp at hwait
          | t4 => simp at hwait
          | t5 => simp at hwait
          | t6 => simp at hwait
          | t7 => simp at hwait
        · refine hI.mk_same (yields_one _ _ _ (by cases r with | opt v => cases v <;> simp [Ev.yieldOf, hta] | _ => rfl)) ?_ hR rfl
          simp only [hset]
          intro x hx e
          simp only [List.mem_append, List.mem_cons] at hx
          rcases hx with hx | rfl | hx
          · exact hT x (by simp [hl, hx]) e
          · exact absurd e hta
          · exact hT x (by simp [hl, hx]) e
      · simp at h
    · simp at h
  | request b bs =>
    simp only [act, Option.some.injEq] at h
    subst h
    refine hI.mk_same (yields_one _ _ _ rfl) hT hR ?_
    by_cases hb : b = a
    · subst hb
      simp only [setMem_self, Bufs.set]
    · simp only [setMem_ne _ _ (Ne.symm hb)]
  | clear b bs =>
    simp only [act, Option.some.injEq] at h
    subst h
    by_cases hb : b = a
    · subst hb
      refine ⟨hT, hR, hI.bound, ?_⟩
      simp only [setMem_self]
      obtain ⟨rest, hrest⟩ := hlib (c.mem b).client bs
      intro hm
      simp only [Bufs.set, Bufs.get, hrest] at hm
      exact absurd hm (hx bs rfl rest)
    · exact hI.mk_same rfl hT hR (by simp only [setMem_ne _ _ (Ne.symm hb)])

end
end TPB.Rust

/-! ### The reader of a read method's values -/

namespace TPB.Dart
open Spec DartGen

variable {x : Ext} {rt : Runtime} {hd : Int} {S : List ASTNode}

/-- A run of the reader on a buffer that holds a value. -/
theorem reader_add (ns scope : String) {f : FnNode} (hf : f ∈ methodsOf S) (hr : f.isRead = true) {P : Prog} {k : Nat} {bs r : Bytes}
    {dv : Option Val} {s : ClientState} (h1 : rt.readP "Int8" bs = some (.int hd, r)) (h2 : ReadsResult rt P k f dv r) :
    runReader rt P k hd (genClient x ns scope S) (genReaderHead ++ genAdd x f) .none bs s
      = .ok ({ s with events := s.events ++ [(varReadStreamController x f, dv)] }, none) := by
  have m1 : varReadStreamController x f ∈ (genClient x ns scope S).members.filterMap Member.controllerOf :=
    mem_members ns scope hf (m := .controller (varReadStreamController x f) (retTy f)) (by simp [genMembers, hr]) rfl
  have := runReader_data (hd := hd) (P := P) (k := k) (C := genClient x ns scope S) (throws := false) (ss := genAdd x f) (s := s) h1
  simp only [genReaderHead] at this ⊢
  rw [this]
  unfold ReadsResult at h2
  unfold genAdd
  cases ht : f.returnTypeId with
  | none =>
    simp only [ht] at h2
    subst h2
    simp [runReader, if_pos m1, -List.mem_filterMap, bind, Except.bind]
  | some t =>
    simp only [ht] at h2
    obtain ⟨d, r', rfl, h2⟩ := h2
    simp [runReader, if_pos m1, -List.mem_filterMap, bind, Except.bind, h2, orElse, Except.map]

/-- A run of the reader on a buffer that holds none. -/
theorem reader_noValue (ns scope : String) {f : FnNode} {P : Prog} {k : Nat} {bs r : Bytes} {n : Int} {s : ClientState}
    (h : rt.readP "Int8" bs = some (.int n, r)) (hn : n ≠ hd) :
    runReader rt P k hd (genClient x ns scope S) (genReaderHead ++ genAdd x f) .none bs s = .ok (s, none) := by
  have := runReader_noData (hd := hd) (P := P) (k := k) (C := genClient x ns scope S) (ss := genAdd x f) (s := s) h hn
  simpa [genReaderHead] using this

/-- What a run of the reader can do. -/
theorem add_inv {C : Client} {f : FnNode} {P : Prog} {k : Nat} {bs : Bytes} {s s' : ClientState} {v : Option Val}
    (h : runReader rt P k hd C (genReaderHead ++ genAdd x f) .none bs s = .ok (s', v)) :
    s' = s ∨ ∃ r dv, rt.readP "Int8" bs = some (.int hd, r) ∧ ReadsResult rt P k f dv r ∧
      s' = { s with events := s.events ++ [(varReadStreamController x f, dv)] } := by
  have rd : ∀ m b n r, readInt rt m b = .ok (n, r) → rt.readP m b = some (.int n, r) := by
    intro m b n r hn
    unfold readInt at hn
    split at hn
    · rename_i e; simp only [Except.ok.injEq, Prod.mk.injEq] at hn; rw [e, hn.1, hn.2]
    · simp at hn
    · simp at hn
  simp only [genReaderHead, List.cons_append, List.nil_append, runReader, bind, Except.bind, orElse] at h
  split at h
  · simp at h
  · rename_i p hn
    split at h
    · rename_i hp
      have e1 := rd _ _ _ _ hn
      rw [hp] at e1
      unfold genAdd at h
      split at h
      · rename_i t ht
        simp only [runReader, bind, Except.bind] at h
        split at h
        · simp at h
        · rename_i q hq
          split at h
          · simp only [orElse, Except.map, if_true, Except.ok.injEq, Prod.mk.injEq] at h
            exact .inr ⟨_, some q.1, e1, by simp only [ReadsResult, ht]; exact ⟨q.1, q.2, rfl, hq⟩, h.1.symm⟩
          · simp at h
      · rename_i ht
        simp only [runReader, bind, Except.bind] at h
        split at h
        · simp only [Bool.false_eq_true, if_false, Except.ok.injEq, Prod.mk.injEq] at h
          exact .inr ⟨_, none, e1, by simp [ReadsResult, ht], h.1.symm⟩
        · simp at h
    · simp only [Bool.false_eq_true, if_false, Except.ok.injEq, Prod.mk.injEq] at h
      exact .inl h.1.symm

theorem controller_inj (hR : DartRpcNamed x S) {f g : FnNode} (hf : f ∈ methodsOf S) (hg : g ∈ methodsOf S) (fr : f.isRead = true)
    (gr : g.isRead = true) (e : varReadStreamController x f = varReadStreamController x g) : f = g :=
  nodup_flatMap_eq (fields_nodup hR) hf hg (y := varReadStreamController x f)
    (by simp [clientFields, fr, varReadStreamController]) (by rw [e]; simp [clientFields, gr, varReadStreamController])

theorem streams_nodup (hR : DartRpcNamed x S) : ((methodsOf S).flatMap (clientStreams x)).Nodup := by
  have := (List.nodup_append.1 hR.members).1
  exact (List.nodup_append.1 this).2.1

/-- The stream of a read method: what has been added to its controller. -/
theorem stream_eq (hR : DartRpcNamed x S) (ns scope : String) {f : FnNode} (hf : f ∈ methodsOf S) (hr : f.isRead = true) (s : ClientState) :
    (genClient x ns scope S).stream s (x.camel f.id) = some ((s.events.filter (fun e => e.1 = varReadStreamController x f)).map (·.2)) := by
  have hmem : (⟨retTy f, x.camel f.id, varReadStreamController x f⟩ : Getter) ∈ (genClient x ns scope S).getters := by
    simp only [genClient, Props.findFnNodes_eq, List.mem_flatMap]
    exact ⟨f, hf, by simp [genGetters, hr]⟩
  have huniq : ∀ g ∈ (genClient x ns scope S).getters, g.name = x.camel f.id → g.controller = varReadStreamController x f := by
    intro g hg e
    simp only [genClient, Props.findFnNodes_eq, List.mem_flatMap] at hg
    obtain ⟨f', hf', hg⟩ := hg
    cases hr' : f'.isRead with
    | false => simp [genGetters, hr'] at hg
    | true =>
      simp only [genGetters, hr', if_true, List.mem_singleton] at hg
      subst hg
      simp only at e
      have : f' = f := nodup_flatMap_eq (streams_nodup hR) hf' hf (y := x.camel f'.id) (by simp [clientStreams, hr']) (by simp [clientStreams, hr, e])
      rw [this]
  unfold Client.stream
  cases hfind : (genClient x ns scope S).getters.find? (fun g => g.name = x.camel f.id) with
  | none =>
    have := List.find?_eq_none.1 hfind _ hmem
    simp at this
  | some g =>
    have h1 := huniq g (List.mem_of_find?_eq_some hfind) (by simpa using List.find?_some hfind)
    simp [h1]

end TPB.Dart

/-! ### Client and server -/

namespace TPB.Rpc
open Spec
open Rust (RetIs Buf Bufs BufLib User setMem codecAt act acts Act Ev Cfg Status Handler Codec Ret yields RdInv StInv readStatus Task)
open Dart (ClientState taskOf genClient ReadsResult)
open DartGen (varReadStreamController varReadTask)
open Props (SystemOk)

variable {σ : Type}

/-- From numbers of values to the values themselves. -/
theorem stutter_from {α β : Type} {R : α → β → Prop} {ys : List α} {js : List Nat} {ds : List β}
    (h : Each (fun j d => ∃ y, ys[j]? = some y ∧ R y d) js ds) (hs : js.Pairwise (· ≤ ·)) {m : Nat} (hm : ∀ j ∈ js, m ≤ j) : Stutter R (ys.drop m) ds := by
  have skip : ∀ {ds : List β} (zs ys : List α), Stutter R ys ds → Stutter R (zs ++ ys) ds := by
    intro ds zs ys h
    induction zs with
    | nil => exact h
    | cons z zs ih => exact .drop ih
  have key : ∀ off, (∀ j ∈ js, off ≤ j) → Stutter R (ys.drop off) ds := by
    clear hm
    induction h with
    | nil => exact fun off _ => .done _
    | @cons j d js ds h1 h2 ih =>
      intro off hoff
      obtain ⟨y, hy, hd⟩ := h1
      obtain ⟨hj, rfl⟩ := List.getElem?_eq_some_iff.1 hy
      have h3 := ih (List.pairwise_cons.1 hs).2 j (fun j' hj' => (List.pairwise_cons.1 hs).1 j' hj')
      have e : ys.drop off = (ys.drop off).take (j - off) ++ ys.drop j := by
        have h4 := List.take_append_drop (j - off) (ys.drop off)
        rw [List.drop_drop, Nat.add_sub_cancel' (hoff j (by simp))] at h4
        exact h4.symm
      rw [e]
      refine skip _ _ ?_
      rw [List.drop_eq_getElem_cons hj] at h3 ⊢
      exact .take hd h3
  exact key m hm

theorem stutter_of {α β : Type} {R : α → β → Prop} {ys : List α} {js : List Nat} {ds : List β}
    (h : Each (fun j d => ∃ y, ys[j]? = some y ∧ R y d) js ds) (hs : js.Pairwise (· ≤ ·)) : Stutter R ys ds := by
  simpa using stutter_from h hs (m := 0) (by simp)

/-- What is known about the values that the user's function yields: how the server writes them and the client
reads them. -/
def Values (x : Ext) (rr : Rust.Runtime) (rt : Dart.Runtime) (S : List ASTNode) (f : FnNode) (t : TypeId) (xs : List SysAct) (k : Nat) : Prop :=
  ∀ i v, SysAct.server (.resume i (.opt (some v))) ∈ xs → ∀ b, Enc rr.wire S [t] [v] b → ∃ b d,
    (codecAt rr (Rust.genProg (Rust.argsSchema S)) k).write t v = some b ∧ ExchangedResult x rr.wire S f (some v) (some d) ∧
    (∀ rest, ReadsResult rt (Dart.genProg x S) k f (some d) (b ++ rest)) ∧ Enc rr.wire S [t] [v] b

section
variable {x : Ext} {rr : Rust.Runtime} {rt : Dart.Runtime} {hd : Int} {S : List ASTNode} {f : FnNode} {t : TypeId} {scope : String}
variable {st : Status → Bytes} {lib : BufLib} {U : User σ} {mem : Nat → Bufs} {u : σ} {rot : Int → Int} {xs : List SysAct} {k : Nat}

theorem values_bound (h : SystemOk x rr rt hd S) (hf : f ∈ methodsOf S) (hp : PortableMethod S f) (ht : f.returnTypeId = some t)
    (xs : List SysAct) : ∃ N, ∀ k, N ≤ k → Values x rr rt S f t xs k := by
  obtain ⟨N, hN⟩ := Props.common_bound (α := SysAct) (p := fun a N => ∀ i v, a = SysAct.server (.resume i (.opt (some v))) →
      ∀ b, Enc rr.wire S [t] [v] b → ∃ b d, (ExchangedResult x rr.wire S f (some v) (some d) ∧ Enc rr.wire S [t] [v] b) ∧
        ∀ k, N ≤ k → (codecAt rr (Rust.genProg (Rust.argsSchema S)) k).write t v = some b ∧
          ∀ rest, ReadsResult rt (Dart.genProg x S) k f (some d) (b ++ rest))
    (fun a n m hnm hq i v e b hb => by
      obtain ⟨b, d, h3, h4⟩ := hq i v e b hb
      exact ⟨b, d, h3, fun k hk => h4 k (by omega)⟩) xs (by
      intro a _
      by_cases e : ∃ i v b, a = SysAct.server (.resume i (.opt (some v))) ∧ Enc rr.wire S [t] [v] b
      · obtain ⟨i, v, b, rfl, he⟩ := e
        obtain ⟨M, hM⟩ := Rust.write_result h.server.accepted.wf h.server.named h.server.noClash h.server.rpcNamed h.server.noExt
          ((Rust.wf_method h.server.accepted.wf hf).2.1 t (by simp [ht])) he
        obtain ⟨d, h3, M', h4⟩ := Props.result_exchange h hp ht he
        refine ⟨max M M', fun i' v' e b' _ => ⟨b, d, ?_⟩⟩
        simp only [SysAct.server.injEq, Act.resume.injEq, Ret.opt.injEq, Option.some.injEq] at e
        obtain ⟨rfl, rfl⟩ := e
        refine ⟨⟨⟨t, ht, h3⟩, he⟩, fun k hk => ⟨?_, fun rest => ?_⟩⟩
        · simp only [codecAt, hM k (by omega)]
        · simp only [ReadsResult, ht]
          exact ⟨d, rest, rfl, h4 k (by omega) rest⟩
      · exact ⟨0, fun i v hx b hb => absurd ⟨i, v, b, hx, hb⟩ e⟩)
  refine ⟨N, fun k hk i v hin b hb => ?_⟩
  obtain ⟨b, d, h3, h4⟩ := hN _ hin i v rfl b hb
  exact ⟨b, d, (h4 k hk).1, h3.1, (h4 k hk).2, h3.2⟩

variable (x rr S f t st xs k) in
/-- The invariant: the values that come after `E` in the stream are values that have been yielded, from the one
with number `m` on, in this order. -/
structure StreamInv (E : List (Option Val)) (m : Nat) (s : Sys σ) : Prop where
  tasks : s.client.tasks = (methodsOf S).flatMap (taskOf x)
  reads : RdInv (codecAt rr (Rust.genProg (Rust.argsSchema S)) k) f f.position s.server
  resumed : ∀ v ∈ yields f.position f.id s.server.log, ∃ i, SysAct.server (.resume i (.opt (some v))) ∈ xs
  stream : ∃ B js es, StInv (codecAt rr (Rust.genProg (Rust.argsSchema S)) k) st f t f.position B s.server ∧ js.Pairwise (· ≤ ·) ∧ (∀ j ∈ js, m ≤ j ∧ j ≤ B) ∧ m ≤ B ∧
    (s.client.events.filter (fun e => e.1 = varReadStreamController x f)).map (·.2) = E ++ es ∧
    Each (fun j dv => ∃ v, (yields f.position f.id s.server.log)[j]? = some v ∧ ExchangedResult x rr.wire S f (some v) dv) js es

/-- The values in the log grow at the end. -/
theorem act_yields {C : Codec} {regs : List (Nat × Handler)} {c c' : Cfg σ} {y : Act} {a : Nat} {g : String} (h : act C lib U regs c y = some c') :
    ∃ vs, yields a g c'.log = yields a g c.log ++ vs ∧ ∀ v ∈ vs, ∃ i, y = .resume i (.opt (some v)) := by
  cases y with
  | resume i r =>
    simp only [act] at h
    split at h
    · split at h
      · simp only [Option.some.injEq] at h
        subst h
        refine ⟨_, Rust.yields_append _ _ _, ?_⟩
        intro v hv
        simp only [yields, List.mem_filterMap, List.mem_singleton] at hv
        obtain ⟨e, rfl, he⟩ := hv
        cases r with
        | opt o =>
          cases o with
          | none => simp [Ev.yieldOf] at he
          | some w =>
            simp only [Ev.yieldOf] at he
            split at he
            · simp only [Option.some.injEq] at he
              exact ⟨i, by rw [he]⟩
            · simp at he
        | _ => simp [Ev.yieldOf] at he
      · simp at h
    · simp at h
  | _ =>
    simp only [act] at h
    repeat' split at h
    all_goals first
      | (simp at h; done)
      | (simp only [Option.some.injEq] at h
         subst h
         refine ⟨[], ?_, by simp⟩
         rw [List.append_nil] <;> first
           | rfl
           | exact Rust.yields_called _ _ _ _
           | exact Rust.yields_one _ _ _ rfl)

theorem each_mono {α β : Type} {R R' : α → β → Prop} (hR : ∀ a b, R a b → R' a b) {as : List α} {bs : List β} (h : Each R as bs) : Each R' as bs := by
  induction h with
  | nil => exact .nil
  | cons h _ ih => exact .cons (hR _ _ h) ih

theorem noMessage_not_ready {bs : Bytes} {P : Rust.Prog} (hbs : NoMessage (rr.readP "u8") bs) :
    ¬ ∃ r, readStatus (codecAt rr P k) bs = .ok (255, r) := by
  rintro ⟨b, hb⟩
  obtain ⟨n0, r0, hs0, hn0⟩ := Props.readStatus_noMessage (P := P) (k := k) hbs
  rw [hs0] at hb
  simp at hb
  exact hn0 hb.1

theorem stream_server (h : SystemOk x rr rt hd S) (hf : f ∈ methodsOf S) (hr : f.isRead = true) (ha : f.isAsync = true)
    (ht : f.returnTypeId = some t) (hst : ∀ P k, (codecAt rr P k).StatusOk st) (hlib : lib.Lawful)
    (hcl : ∀ bs, SysAct.server (.clear f.position bs) ∈ xs → ∀ r, NoMessage (rr.readP "u8") (bs ++ r))
    {E : List (Option Val)} {m : Nat} {s : Sys σ} (J : StreamInv x rr S f t st xs k E m s) {a : Act} (hin : SysAct.server a ∈ xs ∨ a.IsStep ∨ ∃ b bs, a = .request b bs)
    (hn : ∀ bs, a ≠ .request f.position bs) {c : Cfg σ} {cs : List (String × List Val × Nat)} {cl : ClientState}
    (hct : cl.tasks = s.client.tasks) (hce : cl.events = s.client.events)
    (hc : act (codecAt rr (Rust.genProg (Rust.argsSchema S)) k) lib U (Rust.genRpc scope S).handlers s.server a = some c) :
    StreamInv x rr S f t st xs k E m ⟨c, cl, cs⟩ := by
  have hreg := Rust.handlers_lookup scope h.server.accepted.wf h.server.rpcNamed.methods hf
  obtain ⟨vs, hvs, hres⟩ := act_yields (a := f.position) (g := f.id) hc
  refine ⟨hct ▸ J.tasks, Rust.rdInv_act (hst _ k) hlib hr ha hreg hn J.reads hc, ?_, ?_⟩
  · intro v hv
    simp only [hvs, List.mem_append] at hv
    rcases hv with hv | hv
    · exact J.resumed v hv
    · obtain ⟨i, rfl⟩ := hres v hv
      exact ⟨i, hin.resolve_right (by simp [Rust.Act.IsStep])⟩
  · obtain ⟨B, js, es, h1, h2, h3, h3', hn', h4⟩ := J.stream
    refine ⟨B, js, es, ?_, h2, h3, h3', ?_, ?_⟩
    · refine Rust.stInv_act (hst _ k) hlib hr ha ht hreg ?_ ?_ h1 hc
      · rintro bs rfl r
        exact noMessage_not_ready (hcl bs (hin.resolve_right (by simp [Rust.Act.IsStep])) r)
      · obtain ⟨n, w, -, h5, -⟩ := J.reads.run
        omega
    · simp only [hce]
      exact hn'
    · refine each_mono ?_ h4
      rintro j dv ⟨v, hv, hx⟩
      refine ⟨v, ?_, hx⟩
      simp only [hvs]
      rw [List.getElem?_append_left (List.getElem?_eq_some_iff.1 hv).1]
      exact hv

/-- A value in the client buffer: the client can read it. -/
theorem StreamInv.value (h : SystemOk x rr rt hd S) (hst : ∀ P k, (codecAt rr P k).StatusOk st) (hval : Values x rr rt S f t xs k)
    {E : List (Option Val)} {m : Nat} {s : Sys σ} (J : StreamInv x rr S f t st xs k E m s) (hT : ∀ v ∈ yields f.position f.id s.server.log, ∃ b, Enc rr.wire S [t] [v] b)
    {B : Nat} (hB : StInv (codecAt rr (Rust.genProg (Rust.argsSchema S)) k) st f t f.position B s.server)
    {r0 : Bytes} (hr0 : rr.readP "u8" (s.server.mem f.position).client = some (.int 255, r0)) :
    ∃ i v d r, B ≤ i ∧ (yields f.position f.id s.server.log)[i]? = some v ∧ ExchangedResult x rr.wire S f (some v) (some d) ∧
      rt.readP "Int8" (s.server.mem f.position).client = some (.int hd, r) ∧ ReadsResult rt (Dart.genProg x S) k f (some d) r ∧
      ∃ b rest, (codecAt rr (Rust.genProg (Rust.argsSchema S)) k).write t v = some b ∧ (s.server.mem f.position).client = st .xFF ++ b ++ rest := by
  obtain ⟨i, v, b, rest, h1, h2, h3, h4⟩ := hB.client ⟨r0, by simp [readStatus, codecAt, hr0]⟩
  have hv := List.mem_of_getElem? h2
  obtain ⟨j, hj⟩ := J.resumed v hv
  obtain ⟨b', hb'⟩ := hT v hv
  obtain ⟨b2, d, h5, h6, h7, -⟩ := hval j v hj b' hb'
  rw [h3] at h5
  obtain rfl := Option.some.inj h5
  obtain ⟨sb, hs⟩ := Props.status_total h.rust.wire
  obtain ⟨-, hsr⟩ := Dart.status_bytes h.dart h.status hs
  have e := Props.st_eq (hst (Rust.genProg (Rust.argsSchema S)) k) hs
  refine ⟨i, v, d, b ++ rest, h1, h2, h6, ?_, h7 rest, b, rest, h3, h4⟩
  rw [h4, e, List.append_assoc]
  exact hsr _

theorem readsResult_det {P : Dart.Prog} {r : Bytes} {d d' : Option Val} (ht : f.returnTypeId = some t) (h1 : ReadsResult rt P k f d r)
    (h2 : ReadsResult rt P k f d' r) : d = d' := by
  simp only [ReadsResult, ht] at h1 h2
  obtain ⟨a, ra, rfl, h1⟩ := h1
  obtain ⟨b, rb, rfl, h2⟩ := h2
  rw [h1] at h2
  simp only [Except.ok.injEq, Prod.mk.injEq] at h2
  rw [h2.1]

theorem stream_read (h : SystemOk x rr rt hd S) (hf : f ∈ methodsOf S) (hr : f.isRead = true) (ht : f.returnTypeId = some t)
    (hst : ∀ P k, (codecAt rr P k).StatusOk st) (hval : Values x rr rt S f t xs k)
    {E : List (Option Val)} {m : Nat} {s s' : Sys σ} (J : StreamInv x rr S f t st xs k E m s) (hT : ∀ v ∈ yields f.position f.id s.server.log, ∃ b, Enc rr.wire S [t] [v] b)
    {C : Codec} {regs : List (Nat × Handler)} (ns sc : String) {v : String}
    (hs : sysAct C lib U regs rt (Dart.genProg x S) k hd rot (genClient x ns sc S) s (.read v) = some s') :
    StreamInv x rr S f t st xs k E m s' := by
  simp only [sysAct] at hs
  split at hs
  case h_2 => simp at hs
  case h_1 tk ht' =>
  split at hs
  case h_2 => simp at hs
  case h_1 cl hcl' =>
  simp only [Option.some.injEq] at hs
  subst hs
  rw [J.tasks] at ht'
  obtain ⟨g, hg, hgt⟩ := taskOf_mem ht'
  unfold Dart.runTask at hcl'
  simp only [bind, Except.bind] at hcl'
  split at hcl'
  · simp at hcl'
  rename_i res hrun
  obtain ⟨c1, ov⟩ := res
  simp only [Except.ok.injEq] at hcl'
  subst hcl'
  have same : ∀ c : ClientState, c.tasks = s.client.tasks →
      c.events.filter (fun e => e.1 = varReadStreamController x f) = s.client.events.filter (fun e => e.1 = varReadStreamController x f) →
      StreamInv x rr S f t st xs k E m { s with client := c } := by
    intro c h1 h2
    refine ⟨h1 ▸ J.tasks, J.reads, J.resumed, ?_⟩
    simp only [h2]
    exact J.stream
  unfold taskOf at hgt
  split at hgt
  · rename_i gr
    simp only [List.mem_singleton, Prod.mk.injEq] at hgt
    obtain ⟨-, rfl⟩ := hgt
    rcases Dart.add_inv hrun with rfl | ⟨r, dv, e1, e2, rfl⟩
    · exact same _ rfl rfl
    · by_cases hgf : g = f
      · subst hgf
        obtain ⟨B, js, es, h1, h2, h3, h3', hn', h4⟩ := J.stream
        simp only [Bufs.get] at e1
        obtain ⟨r0, hr0⟩ := (h.status.read _).2 ⟨r, e1⟩
        obtain ⟨i, w, d, r', h5, h6, h7, h8, h9, b, rest, h10, h11⟩ := J.value h hst hval hT h1 hr0
        rw [e1] at h8
        simp only [Option.some.injEq, Prod.mk.injEq, true_and] at h8
        subst h8
        obtain rfl := readsResult_det ht e2 h9
        refine ⟨J.tasks, J.reads, J.resumed, i, js ++ [i], es ++ [some d], ?_, ?_, ?_, by omega, ?_, ?_⟩
        · refine ⟨h1.tasks, h1.run, ?_, ?_⟩
          · have := (List.getElem?_eq_some_iff.1 h6).1
            simp only
            omega
          · exact fun _ => ⟨i, w, b, rest, Nat.le_refl _, h6, h10, h11⟩
        · rw [List.pairwise_append]
          refine ⟨h2, by simp, ?_⟩
          intro a ha b hb
          simp only [List.mem_singleton] at hb
          have := (h3 a ha).2
          omega
        · intro j hj
          rcases List.mem_append.1 hj with hj | hj
          · have := h3 j hj; omega
          · simp only [List.mem_singleton] at hj; omega
        · simp only [List.filter_append, List.map_append, hn', List.append_assoc]
          simp
        · exact each_append h4 (.cons ⟨w, h6, h7⟩ .nil)
      · refine same _ rfl ?_
        have : varReadStreamController x g ≠ varReadStreamController x f := fun e => hgf (Dart.controller_inj h.client hg hf gr hr e)
        simp [this]
  · rename_i gr
    split at hgt
    case isFalse => simp at hgt
    rename_i ga
    simp only [List.mem_singleton, Prod.mk.injEq] at hgt
    obtain ⟨-, rfl⟩ := hgt
    rcases Dart.reader_effect ns sc hrun with rfl | ⟨i, n, dv, h1, hp, hn, rfl⟩
    · exact same _ rfl rfl
    · exact same _ rfl rfl

theorem stream_acts (h : SystemOk x rr rt hd S) (hf : f ∈ methodsOf S) (hr : f.isRead = true) (ha : f.isAsync = true)
    (ht : f.returnTypeId = some t) (hst : ∀ P k, (codecAt rr P k).StatusOk st) (hlib : lib.Lawful)
    (hcl : ∀ bs, SysAct.server (.clear f.position bs) ∈ xs → ∀ r, NoMessage (rr.readP "u8") (bs ++ r))
    (hnr : ∀ bs, SysAct.server (.request f.position bs) ∉ xs) (hval : Values x rr rt S f t xs k) (ns sc : String)
    {as : List SysAct} (has : ∀ a ∈ as, a ∈ xs ∨ a.IsStep) {E : List (Option Val)} {m : Nat} {s s' : Sys σ} (J : StreamInv x rr S f t st xs k E m s)
    (hs : sysActs (codecAt rr (Rust.genProg (Rust.argsSchema S)) k) lib U (Rust.genRpc scope S).handlers rt (Dart.genProg x S) k hd rot
      (genClient x ns sc S) s as = some s') (hT : ∀ v ∈ yields f.position f.id s'.server.log, ∃ b, Enc rr.wire S [t] [v] b) :
    StreamInv x rr S f t st xs k E m s' := by
  induction as generalizing s with
  | nil =>
    simp only [sysActs, Option.some.injEq] at hs
    exact hs ▸ J
  | cons a as ih =>
    have hlog := sysActs_log hs
    have hT0 : ∀ v ∈ yields f.position f.id s.server.log, ∃ b, Enc rr.wire S [t] [v] b := by
      intro v hv
      refine hT v ?_
      simp only [yields, List.mem_filterMap] at hv ⊢
      obtain ⟨e, h1, h2⟩ := hv
      exact ⟨e, hlog e h1, h2⟩
    simp only [sysActs] at hs
    split at hs
    case h_2 => simp at hs
    case h_1 s1 hs1 =>
    refine ih (fun b hb => has b (by simp [hb])) ?_ hs
    cases a with
    | server a =>
      simp only [sysAct] at hs1
      split at hs1
      · rename_i c hc
        simp only [Option.some.injEq] at hs1
        subst hs1
        refine stream_server h hf hr ha ht hst hlib hcl J ((has _ (by simp)).imp id .inl) (fun bs e => ?_) rfl rfl hc
        subst e
        exact hnr bs ((has _ (by simp)).resolve_right (fun h => h))
      · simp at hs1
    | call name ds =>
      simp only [sysAct] at hs1
      split at hs1
      case h_2 => simp at hs1
      case h_1 n w hw =>
      obtain ⟨g, hg, gr, ga, rfl, rfl, bs, hbs, rfl⟩ := Dart.call_inv ns sc (fun _ _ => ⟨_, rfl⟩) hw
      simp only [Option.some.injEq] at hs1
      subst hs1
      have hgf : g.position ≠ f.position := by
        intro e
        have := position_inj h.server.accepted.wf hg hf e
        subst this
        simp [gr] at hr
      exact stream_server (U := U) (scope := scope) (a := .request g.position bs) h hf hr ha ht hst hlib hcl J (.inr (.inr ⟨_, _, rfl⟩))
        (by simp [hgf]) rfl rfl rfl
    | read v => exact stream_read h hf hr ht hst hval J hT0 ns sc hs1

theorem stream_init (h : SystemOk x rr rt hd S) (hm : NoMessage (rr.readP "u8") (mem f.position).server)
    (hmc : NoMessage (rr.readP "u8") (mem f.position).client) (ns sc : String) :
    ∃ s0, start lib rt (Dart.genProg x S) k hd rot (genClient x ns sc S) mem u = some s0 ∧ StreamInv x rr S f t st xs k [] 0 s0 := by
  refine ⟨⟨Cfg.initial mem u, { ClientState.fresh with tasks := (methodsOf S).flatMap (taskOf x) }, []⟩, ?_, ?_⟩
  · simp only [start, Dart.create_eq h.client ns sc]
  · have hfree : Rust.Free (codecAt rr (Rust.genProg (Rust.argsSchema S)) k) (mem f.position) := Props.free_of_noMessage hm
    refine ⟨rfl, ⟨by simp [Cfg.initial], ⟨0, false, .idle, by simp [Cfg.initial], by simp [Cfg.initial], ?_⟩, by simp [Cfg.initial]⟩,
      by simp [Cfg.initial, yields], 0, [], [], ⟨by simp [Cfg.initial], by simp [Cfg.initial], by simp, ?_⟩, by simp, by simp, by simp, by simp [ClientState.fresh], .nil⟩
    · intro _ hb
      exact absurd hb (Rust.not_busy_of_free hfree)
    · exact fun hq => absurd hq (noMessage_not_ready hmc)

end
end TPB.Rpc
