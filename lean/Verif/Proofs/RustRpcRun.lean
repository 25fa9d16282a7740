/- Whole runs of the emitted handlers. -/
import Verif.Proofs.RustRpc
namespace TPB.Rust
open Spec TPB.Props

/-- What is used of the status bytes: the two that occur can be written, and are read back. -/
def Codec.StatusOk (C : Codec) (st : Status → Bytes) : Prop :=
  ∀ s, C.prim "u8" (.int s.val) = some (st s) ∧ ∀ r, C.readP "u8" (st s ++ r) = some (.int s.val, r)

theorem statusOk_codecAt {rt : Runtime} (hrt : rt.Lawful) :
    ∃ st, ∀ P k, (codecAt rt P k).StatusOk st := by
  have key : ∀ s : Status, ∃ b, rt.wire.prim "u8" (.int s.val) = some b := by
    intro s
    refine hrt.wire.prim_total (.integer "u8" 1 false) "u8" _ (.name "u8") rfl ?_
    cases s <;> simp [LeafVal, Status.val]
  obtain ⟨st, hst⟩ : ∃ st : Status → Bytes, ∀ s, rt.wire.prim "u8" (.int s.val) = some (st s) :=
    ⟨fun s => (key s).choose, fun s => (key s).choose_spec⟩
  exact ⟨st, fun P k s => ⟨hst s, fun r => hrt.prim _ _ _ _ (hst s)⟩⟩

theorem readStatus_of {C : Codec} {st : Status → Bytes} (hst : C.StatusOk st) (s : Status) (r : Bytes) :
    readStatus C (st s ++ r) = .ok (s.val, r) := by
  simp only [readStatus, (hst s).2 r]

section
variable {f : FnNode}

theorem callArgs_suffix (fr : Frame) (id : String) (pre : List (String × Val)) :
    ∀ (as : List FnArg) (vs : List Val), as.length = vs.length →
      ∀ done : List (String × Val), fr.args = some (.struct id (pre ++ done ++ (as.map (·.id)).zip vs)) →
      (∀ a ∈ as, a.id ∉ (pre ++ done).map (·.1)) → (as.map (·.id)).Nodup →
      callArgs fr (as.map (·.id)) = .ok vs
  | [], [], _, _, _, _, _ => rfl
  | a :: as, [], h, _, _, _, _ => by simp at h
  | [], v :: vs, h, _, _, _, _ => by simp at h
  | a :: as, v :: vs, hl, done, ha, hn, hd => by
    simp only [List.map_cons, List.nodup_cons, List.mem_map, not_exists, not_and] at hd
    have hlk : (pre ++ done ++ ((a :: as).map (·.id)).zip (v :: vs)).lookup a.id = some v := by
      rw [List.lookup_append]
      have : (pre ++ done).lookup a.id = none := by
        rw [List.lookup_eq_none_iff]
        intro p hp
        rw [bne_iff_ne]
        intro e
        exact hn a (by simp) (List.mem_map.2 ⟨p, hp, e.symm⟩)
      rw [this]
      simp
    have ih := callArgs_suffix fr id pre as vs (by simpa using hl) (done ++ [(a.id, v)])
      (by rw [ha]; simp) (by
        intro b hb
        have h1 := hn b (by simp [hb])
        have h2 : b.id ≠ a.id := fun e => hd.1 b hb e
        simp only [List.map_append, List.mem_append, not_or] at h1 ⊢
        exact ⟨h1.1, h1.2, by simpa using h2⟩) hd.2
    show callArgs fr (a.id :: as.map (·.id)) = .ok (v :: vs)
    simp only [callArgs, ha, orElse, bind, Except.bind, field, hlk, ih]

theorem callArgs_val {fr : Frame} {mid : Option Int} {vs : List Val} (hm : mid.isSome = f.isAsync)
    (hl : f.args.length = vs.length) (hn : ((argsOf f).map (·.1)).Nodup) (hi : "__method_id__" ∉ (argsOf f).map (·.1))
    (hfr : fr.args = some (argsVal f mid vs)) : callArgs fr (f.args.map (·.id)) = .ok vs := by
  have hn' : (f.args.map (·.id)).Nodup := by simpa [argsOf, Function.comp_def] using hn
  refine callArgs_suffix fr (argsName f) (mid.toList.map (fun i => ("__method_id__", .int i))) f.args vs hl [] ?_ ?_ hn'
  · rw [hfr]
    unfold argsVal named
    rw [fieldsOf_argsNode]
    cases mid with
    | none =>
      have ha : f.isAsync = false := by simpa using hm.symm
      simp [ha, argsOf, Function.comp_def]
    | some i =>
      have ha : f.isAsync = true := by simpa using hm.symm
      simp [ha, argsOf, Function.comp_def]
  · intro a ha
    cases mid with
    | none => simp
    | some i =>
      simp only [Option.toList_some, List.map_cons, List.map_nil, List.append_nil, List.mem_singleton]
      intro e
      exact hi (List.mem_map.2 ⟨(a.id, a.typeId), List.mem_map.2 ⟨a, ha, rfl⟩, e⟩)

/-- The bytes of the result: nothing, or the encoding of a value of the return type. -/
def ResultBytes (C : Codec) (f : FnNode) (r : Ret) (rb : Bytes) : Prop :=
  match f.returnTypeId with
  | none => rb = []
  | some t => ∃ v, r = .val v ∧
      (match builtin? t with
        | some p => C.prim p v = some rb
        | none => C.write t v = some rb)

theorem genResult_of {C : Codec} {t : TypeId} {v : Val} {rb : Bytes} (h : match builtin? t with
        | some p => C.prim p v = some rb
        | none => C.write t v = some rb) (fr : Frame) (h1 : fr.resultRef = none) (h2 : fr.result = some (.val v)) :
    evalBufW C fr (genResult t) = .ok rb := by
  cases t <;> simp only [builtin?] at h <;> simp [genResult, evalBufW, h1, h2, h, orElse]

theorem evalResults {C : Codec} {f : FnNode} {r : Ret} {rb : Bytes} (h : ResultBytes C f r rb) (fr : Frame)
    (h1 : fr.resultRef = none) (h2 : f.returnTypeId.isSome → fr.result = some r) :
    evalBufWs C fr (genResults f) = .ok rb := by
  unfold ResultBytes at h
  unfold genResults
  cases ht : f.returnTypeId with
  | none =>
    simp only [ht] at h
    simp [evalBufWs, h]
  | some t =>
    simp only [ht] at h
    obtain ⟨v, rfl, hv⟩ := h
    simp only [evalBufWs, genResult_of hv fr h1 (h2 (by simp [ht])), bind, Except.bind, List.append_nil]

variable {σ : Type} {C : Codec} {lib : BufLib} {U : User σ} {st : Status → Bytes}

/-- A run of a synchronous handler on a request. -/
theorem sync_run (hst : C.StatusOk st) (hr : f.isRead = false) (ha : f.isAsync = false) (hid : f.id ∉ ["scope_id", "runtime_as_mut", "memory",
      "async_context", "rpc_method_address", "args", "is_busy"]) (hn : ((argsOf f).map (·.1)).Nodup)
    (hi : "__method_id__" ∉ (argsOf f).map (·.1)) {m : Bufs} {u : σ} {b : Bytes} {vs : List Val} (hs : m.server = st .xFF ++ b)
    (hread : C.read (argsName f) b = some (argsVal f none vs)) (hl : f.args.length = vs.length)
    {rb : Bytes} (hres : ResultBytes C f (U f.id vs u).1 rb) :
    runHandler C lib U (genHandler f) m u = .ok ⟨⟨lib m.server (st .x00), lib m.client (st .xFF ++ rb)⟩,
      (U f.id vs u).2, [(f.id, vs)], [], true⟩ := by
  simp only [List.mem_cons, List.not_mem_nil, or_false, not_or] at hid
  obtain ⟨i1, i2, i3, i4, i5, i6, i7⟩ := hid
  have e0 := (hst .x00).1
  have e1 := (hst .xFF).1
  have hread' : C.read (RustGen.argsStructId f) b = some (argsVal f none vs) := hread
  have hc : ∀ fr : Frame, fr.args = some (argsVal f none vs) → callArgs fr (f.args.map (·.id)) = .ok vs :=
    fun fr h => callArgs_val (by simp [ha]) hl hn hi h
  have hw := fun fr h1 h2 => evalResults hres fr h1 h2
  simp only [runHandler, genHandler, hr, ha, Bool.false_eq_true, if_false, genSyncBody, genCall, Handler.start, stmtsSize,
    Stmt.size, Sig.names, Nat.reduceAdd]
  simp only [runThread, step, Bufs.get, hs, evalLetArgs, readStatus_of hst, hread', orElse, bind, Except.bind, if_true, Thread.enter,
    List.mem_cons, List.not_mem_nil, or_false, true_or, or_true, evalBufWs, evalBufW, e0, e1, Bufs.set, i1, i3, i5, i6,
    Option.getD_none, hc, Bool.false_eq_true, List.append_nil, if_false, List.nil_append, List.cons_append, Option.toList_none]
  rw [hw]
  · cases f.returnTypeId <;> simp [bindResult, RetE.eval]
  · cases f.returnTypeId <;> simp [bindResult]
  · intro h; simp [bindResult, h]

/-- A run of a synchronous or asynchronous handler without a request. -/
theorem idle_run (hr : f.isRead = false) {m : Bufs} {u : σ} {n : Int} {b : Bytes}
    (hs : readStatus C m.server = .ok (n, b)) (hn : n ≠ 255) :
    runHandler C lib U (genHandler f) m u = .ok ⟨m, u, [], [], false⟩ := by
  have hn' : ¬ n = ((Status.xFF.val : Nat) : Int) := hn
  cases ha : f.isAsync <;>
  simp only [runHandler, genHandler, hr, ha, Bool.false_eq_true, if_false, if_true, genSyncBody, genAsyncBody, genCall, Handler.start,
    stmtsSize, Stmt.size, Sig.names, Nat.reduceAdd] <;>
  simp only [runThread, step, Bufs.get, hs, evalLetArgs, bind, Except.bind, if_neg hn', RetE.eval, Option.getD_none,
    Option.isSome_none, List.nil_append, Option.toList_none]

/-- The future that an asynchronous handler spawns for a request. -/
def asyncTask (f : FnNode) (v : Val) : Thread :=
  ⟨⟨["args", "scope_id", "runtime_as_mut", "async_context", "rpc_method_address"], none, some v, true, none, none, none⟩, none, none,
    [.letMemory, genCall f, .blank, .bufWrite .client (.status .xFF :: .argI64 "__method_id__" :: genResults f)]⟩

theorem erase_memory : ["args", "scope_id", "runtime_as_mut", "memory", "async_context", "rpc_method_address"].erase "memory"
    = ["args", "scope_id", "runtime_as_mut", "async_context", "rpc_method_address"] := by decide

/-- A run of an asynchronous handler on a request. -/
theorem async_run (hst : C.StatusOk st) (hr : f.isRead = false) (ha : f.isAsync = true) {m : Bufs} {u : σ} {b : Bytes} {v : Val}
    (hs : m.server = st .xFF ++ b) (hread : C.read (argsName f) b = some v) :
    runHandler C lib U (genHandler f) m u = .ok ⟨⟨lib m.server (st .x00), m.client⟩, u, [], [asyncTask f v], true⟩ := by
  have e0 := (hst .x00).1
  have hread' : C.read (RustGen.argsStructId f) b = some v := hread
  simp only [runHandler, genHandler, hr, ha, Bool.false_eq_true, if_false, if_true, genAsyncBody, Handler.start, stmtsSize,
    Stmt.size, Sig.names, Nat.reduceAdd, genCall]
  simp only [runThread, step, Bufs.get, hs, evalLetArgs, readStatus_of hst, hread', orElse, bind, Except.bind, if_true, Thread.enter,
    List.mem_cons, List.not_mem_nil, or_false, true_or, or_true, evalBufWs, evalBufW, e0, Bufs.set,
    Option.getD_none, List.append_nil, List.nil_append, Option.toList_none, Option.toList_some, RetE.eval, Option.getD_some,
    Option.isSome_some, Frame.captured, erase_memory, asyncTask, genCall, ha]

/-! The states of a spawned future. -/

def asyncFrame (v : Val) : Frame :=
  ⟨["memory", "args", "scope_id", "runtime_as_mut", "async_context", "rpc_method_address"], none, some v, true, none, none, none⟩

def asyncTask1 (f : FnNode) (v : Val) : Thread :=
  ⟨asyncFrame v, none, none, [genCall f, .blank, .bufWrite .client (.status .xFF :: .argI64 "__method_id__" :: genResults f)]⟩

/-- The user's function has been called. -/
def asyncTask2 (f : FnNode) (v : Val) (vs : List Val) : Thread :=
  ⟨asyncFrame v, none, some (f.returnTypeId.isSome, f.id, vs),
    [.blank, .bufWrite .client (.status .xFF :: .argI64 "__method_id__" :: genResults f)]⟩

/-- It has yielded `r`. -/
def asyncTask3 (f : FnNode) (v : Val) (r : Ret) : Thread :=
  ⟨bindResult f.returnTypeId.isSome r (asyncFrame v), none, none,
    [.blank, .bufWrite .client (.status .xFF :: .argI64 "__method_id__" :: genResults f)]⟩

def asyncTask4 (f : FnNode) (v : Val) (r : Ret) : Thread :=
  { asyncTask3 f v r with code := [.bufWrite .client (.status .xFF :: .argI64 "__method_id__" :: genResults f)] }

def asyncTask5 (f : FnNode) (v : Val) (r : Ret) : Thread := { asyncTask3 f v r with code := [] }

theorem asyncTask_step (m : Bufs) (u : σ) (v : Val) :
    step C lib U m u (asyncTask f v) = .ok ⟨m, u, asyncTask1 f v, [], none⟩ := by
  simp only [step, asyncTask, List.mem_cons, List.not_mem_nil, or_false, true_or, or_true, if_true]
  rfl

theorem asyncTask1_step (ha : f.isAsync = true) (hid : f.id ∉ ["scope_id", "runtime_as_mut",
      "memory", "async_context", "rpc_method_address", "args", "is_busy"]) (hn : ((argsOf f).map (·.1)).Nodup)
    (hi : "__method_id__" ∉ (argsOf f).map (·.1)) {mid : Int} {vs : List Val} (hl : f.args.length = vs.length) (m : Bufs) (u : σ) :
    step C lib U m u (asyncTask1 f (argsVal f (some mid) vs))
      = .ok ⟨m, u, asyncTask2 f (argsVal f (some mid) vs) vs, [(f.id, vs)], none⟩ := by
  simp only [List.mem_cons, List.not_mem_nil, or_false, not_or] at hid
  obtain ⟨i1, i2, i3, i4, i5, i6, i7⟩ := hid
  have hc := callArgs_val (fr := asyncFrame (argsVal f (some mid) vs)) (by simp [ha]) hl hn hi rfl
  simp only [step, asyncTask1, genCall, ha, if_true, hc, bind, Except.bind]
  rw [if_neg (by simp [asyncFrame, i1, i2, i3, i4, i5, i6])]
  rfl

theorem asyncTask2_resume (v : Val) (vs : List Val) (r : Ret) :
    { asyncTask2 f v vs with frame := bindResult f.returnTypeId.isSome r (asyncTask2 f v vs).frame, wait := none } = asyncTask3 f v r := rfl

theorem asyncTask3_step (m : Bufs) (u : σ) (v : Val) (r : Ret) :
    step C lib U m u (asyncTask3 f v r) = .ok ⟨m, u, asyncTask4 f v r, [], none⟩ := rfl

theorem asyncTask4_step (hst : C.StatusOk st) (ha : f.isAsync = true) {mid : Int} {vs : List Val}
    {mb : Bytes} (hmb : C.prim "i64" (.int mid) = some mb) {r : Ret} {rb : Bytes} (hres : ResultBytes C f r rb) (m : Bufs) (u : σ) :
    step C lib U m u (asyncTask4 f (argsVal f (some mid) vs) r)
      = .ok ⟨{ m with client := lib m.client (st .xFF ++ (mb ++ rb)) }, u, asyncTask5 f (argsVal f (some mid) vs) r, [], none⟩ := by
  have e1 := (hst .xFF).1
  have hf : field (argsVal f (some mid) vs) "__method_id__" = .ok (.int mid) := by
    simp [field, argsVal, named, fieldsOf_argsNode, ha, orElse]
  have hmem : "memory" ∈ (bindResult f.returnTypeId.isSome r (asyncFrame (argsVal f (some mid) vs))).names := by
    cases f.returnTypeId <;> simp [bindResult, asyncFrame]
  have hargs : (bindResult f.returnTypeId.isSome r (asyncFrame (argsVal f (some mid) vs))).args = some (argsVal f (some mid) vs) := by
    cases f.returnTypeId <;> rfl
  have hw := evalResults hres (bindResult f.returnTypeId.isSome r (asyncFrame (argsVal f (some mid) vs)))
    (by cases f.returnTypeId <;> rfl) (by intro h; simp [bindResult, h])
  simp only [step, asyncTask4, asyncTask3, hmem, if_true, evalBufWs, evalBufW, hargs, e1, hf, hmb, orElse, bind, Except.bind, hw,
    Bufs.set, Bufs.get]
  rfl

end
end TPB.Rust
