/- The Rust code generated for the methods of a schema can be read back if their names can be names in Rust. -/
import Verif.Proofs.RustRpcReader
import Verif.Proofs.RustReaderGen
import Verif.Proofs.RustRpcFacts
namespace TPB.Spec.RustRpcReader
open Rust Pieces

theorem rustName_args {f : FnNode} (h : isIdent f.id = true) : RustName (RustGen.argsStructId f) := by
  have e : (RustGen.argsStructId f).toList = '_' :: '_' :: (f.id.toList ++ "_rpc_args__".toList) := by
    rw [show RustGen.argsStructId f = "__" ++ f.id ++ "_rpc_args__" from rfl, String.toList_append, String.toList_append]
    rfl
  refine ⟨?_, ?_⟩
  · have ht := RustReader.tail_of_ident h
    unfold Combinators.Tail at ht
    unfold isIdent
    rw [e]
    simp only [Bool.and_eq_true, List.all_cons, List.all_append]
    exact ⟨by decide, by decide, ht, by decide +kernel⟩
  · intro hk
    have : ∀ w ∈ rustKeywords, w.toList.take 2 ≠ ['_', '_'] := by decide +kernel
    exact this _ hk (by rw [e]; rfl)

/-- A struct whose names can be names in Rust. -/
def GoodStruct (n : StructNode) : Prop := RustName n.id ∧ ∀ f ∈ n.fields, RustName f.name ∧ RustReader.GoodT f.typeId

theorem legStructDecl {n : StructNode} (h : GoodStruct n) : RustReader.LegDecl (genStructDecl n) := by
  refine ⟨h.1, ?_⟩
  intro f hf
  obtain ⟨f, hf', rfl⟩ := List.mem_map.1 hf
  exact ⟨(h.2 f hf').1, RustReader.legTy_gen (h.2 f hf').2.1 (h.2 f hf').2.2⟩

theorem legStructImpl {n : StructNode} (h : GoodStruct n) : RustReader.LegImpl (genStructImpl n) := by
  obtain ⟨h1, h2⟩ := h
  unfold genStructImpl
  cases hf : n.fields with
  | nil => exact ⟨h1, h1, trivial, trivial⟩
  | cons f fs =>
    rw [hf] at h2
    refine ⟨h1, fun x hx => ?_, fun s hs => ?_, fun e he => ?_⟩
    · obtain ⟨g, hg, rfl⟩ := List.mem_map.1 hx
      exact ⟨(h2 g hg).1, RustReader.legRead_gen (h2 g hg).2⟩
    · obtain ⟨g, hg, rfl⟩ := List.mem_map.1 hs
      exact RustReader.legWrite_gen (h2 g hg).2 (h2 g hg).1
    · obtain ⟨g, hg, rfl⟩ := List.mem_map.1 he
      exact RustReader.legRead_gen (h2 g hg).2

theorem argFields_mem : ∀ (k : Nat) (as : List FnArg) (x : StructField), x ∈ RustGen.argFields k as →
    ∃ a ∈ as, x.name = a.id ∧ x.typeId = a.typeId
  | _, [], x, h => by simp [RustGen.argFields] at h
  | k, a :: as, x, h => by
    rw [RustGen.argFields] at h
    rcases List.mem_cons.1 h with rfl | h
    · exact ⟨a, by simp, rfl, rfl⟩
    · obtain ⟨b, hb, h⟩ := argFields_mem _ as x h
      exact ⟨b, by simp [hb], h⟩

theorem goodI64 : RustReader.GoodT (.integer "i64" 8 true) := by
  refine ⟨?_, ?_⟩
  · have : typeOfName "i64" = .integer "i64" 8 true := rfl
    rw [← this]
    exact .name _
  · intro w hw
    simp only [typeWords, List.mem_singleton] at hw
    subst hw
    unfold RustName
    decide +kernel

theorem rustName_mid : RustName "__method_id__" := by
  unfold RustName
  decide +kernel

variable {S : List ASTNode} {f : FnNode}

theorem goodArgs (hw : WFSchema 0 S) (hn : RpcWords S) (hf : f ∈ methodsOf S) : GoodStruct (argsNode f) := by
  have hx := hn f hf
  have ht := (wf_method hw hf).1
  have hid := rustName_args (hx f.id (by simp)).1
  have key : ∀ k, ∀ x ∈ RustGen.argFields k f.args, RustName x.name ∧ RustReader.GoodT x.typeId := by
    intro k x h
    obtain ⟨a, ha, h1, h2⟩ := argFields_mem k _ x h
    rw [h1, h2]
    refine ⟨hx _ (List.mem_cons_of_mem _ (List.mem_flatMap.2 ⟨a, ha, by simp⟩)),
      ht (a.id, a.typeId) (List.mem_map.2 ⟨a, ha, rfl⟩), fun w hw => hx w (List.mem_cons_of_mem _ (List.mem_flatMap.2 ⟨a, ha, by simp [hw]⟩))⟩
  unfold argsNode
  split
  · refine ⟨hid, fun x hx => ?_⟩
    rcases List.mem_cons.1 hx with rfl | hx
    · exact ⟨rustName_mid, goodI64⟩
    · exact key _ x hx
  · exact ⟨hid, key 0⟩

theorem returnTypes_of (hn : ((methodsOf S).map (·.id)).Nodup) (hf : f ∈ methodsOf S) :
    returnTypes S f.id = f.returnTypeId.getD (.other "") := by
  have : (methodsOf S).find? (·.id = f.id) = some f := by
    generalize methodsOf S = l at hn hf
    induction l with
    | nil => simp at hf
    | cons g l ih =>
      rw [List.map_cons, List.nodup_cons] at hn
      rcases List.mem_cons.1 hf with rfl | hf
      · simp
      · have : g.id ≠ f.id := fun e => hn.1 (e ▸ List.mem_map_of_mem hf)
        rw [List.find?_cons_of_neg (by simpa using this)]
        exact ih hn.2 hf
  rw [returnTypes, this]
  rfl

theorem builtin_tail {id : String} (h : (builtinTypes.lookup id).isSome) : Combinators.Tail id := by
  have key : ∀ x ∈ builtinTypes, isIdent x.1 = true := by decide +kernel
  obtain ⟨t, ht⟩ := Option.isSome_iff_exists.1 h
  have hm : (id, t) ∈ builtinTypes := by
    clear h key
    generalize builtinTypes = l at ht
    induction l with
    | nil => simp at ht
    | cons x l ih =>
      obtain ⟨a, b⟩ := x
      by_cases e : id = a
      · subst e; simp at ht; simp [ht]
      · rw [List.lookup_cons, beq_eq_false_iff_ne.2 e] at ht
        exact List.mem_cons_of_mem _ (ih ht)
  exact RustReader.tail_of_ident (key _ hm)

theorem legResult {t : TypeId} (h : WFType t) : LegBufW t (genResult t) := by
  rcases wf_cases h with ⟨id, rfl, _⟩ | ⟨id, h1, h2, _⟩ | ⟨c, gs, rfl, _⟩
  · rfl
  · have := builtin_tail (by rw [h2]; rfl : (builtinTypes.lookup id).isSome)
    cases t <;> simp only [builtin?, Option.some.injEq, reduceCtorEq] at h1 <;> subst h1 <;> exact this
  · rfl

theorem legResults (hw : WFSchema 0 S) (hn : ((methodsOf S).map (·.id)).Nodup) (hf : f ∈ methodsOf S) :
    ∀ w ∈ genResults f, LegBufW (returnTypes S f.id) w := by
  intro w h
  unfold genResults at h
  cases ht : f.returnTypeId with
  | none => rw [ht] at h; simp at h
  | some t =>
    rw [ht] at h
    simp only [List.mem_singleton] at h
    rw [returnTypes_of hn hf, ht, h]
    exact legResult ((wf_method hw hf).2.1 t ht)

theorem genHandler_id (f : FnNode) : (genHandler f).fn = f.id := by
  unfold genHandler
  split <;> split <;> rfl

theorem legGenHandler (hw : WFSchema 0 S) (hn : RpcWords S) (hr : RpcNamed S) (hf : f ∈ methodsOf S) :
    LegHandler (returnTypes S) (genHandler f) := by
  have hx := hn f hf
  have hid : RustName f.id := hx f.id (by simp)
  have hl := hr.locals f hf
  have h1 : f.id ≠ "memory" := fun e => hl (by rw [e]; decide)
  have h2 : f.id ≠ "async_context" := fun e => hl (by rw [e]; decide)
  have hs := rustName_args hid.1
  have ha : ∀ a ∈ f.args.map (·.id), RustName a := by
    intro a ha
    obtain ⟨b, hb, rfl⟩ := List.mem_map.1 ha
    exact hx _ (List.mem_cons_of_mem _ (List.mem_flatMap.2 ⟨b, hb, by simp⟩))
  have hrs := legResults hw hr.methods hf
  have hw1 : ∀ b s, LegStmt (returnTypes S f.id) (.bufWrite b [.status s]) := fun b s => .bufWrite _ _ (by simp [LegBufW])
  have hw2 : LegStmt (returnTypes S f.id) (.bufWrite .client (.status .xFF :: genResults f)) := .bufWrite _ _ (by
    intro w h
    rcases List.mem_cons.1 h with rfl | h
    · trivial
    · exact hrs w h)
  have hw3 : LegStmt (returnTypes S f.id) (.bufWrite .client (.status .xFF :: .argI64 "__method_id__" :: genResults f)) := .bufWrite _ _ (by
    intro w h
    rcases List.mem_cons.1 h with rfl | h
    · trivial
    · rcases List.mem_cons.1 h with rfl | h
      · exact rustName_mid
      · exact hrs w h)
  have hc : LegStmt (returnTypes S f.id) (genCall f) := .call _ _ _ _ hid h1 h2 ha
  have hc0 : ∀ b, LegStmt (returnTypes S f.id) (.call true f.id [] b) := fun b => .call _ _ _ _ hid h1 h2 (by simp)
  refine ⟨by rw [genHandler_id]; exact hid, ?_⟩
  rw [genHandler_id]
  have hla : LegStmt (returnTypes S f.id) (.letArgs .server .xFF (RustGen.argsStructId f)) := .letArgs _ _ _ hs
  unfold genHandler
  split <;> split
  · simp only [genAsyncReadBody, trimStmts, Stmt.trims, List.cons_append, List.nil_append, List.append_nil, List.forall_mem_cons]
    refine ⟨.letBusy _ _, .ifNotBusy _ ?_, by simp⟩
    simp only [List.forall_mem_cons]
    refine ⟨hw1 _ _, .spawn _ ?_, by simp⟩
    simp only [List.forall_mem_cons]
    refine ⟨hc0 _, .ifResult _ ?_, by simp⟩
    simp only [List.forall_mem_cons]
    exact ⟨.letMemory, hw2, hw1 _ _, by simp⟩
  · simp only [genSyncReadBody, trimStmts, Stmt.trims, List.cons_append, List.nil_append, List.append_nil, List.forall_mem_cons]
    refine ⟨hc0 _, .ifResult _ ?_, by simp⟩
    simp only [List.forall_mem_cons]
    exact ⟨hw2, by simp⟩
  · simp only [genAsyncBody, genCall, trimStmts, Stmt.trims, List.cons_append, List.nil_append, List.append_nil, List.forall_mem_cons]
    refine ⟨hla, .ifArgs _ ?_, by simp⟩
    simp only [List.forall_mem_cons]
    refine ⟨hw1 _ _, .cloneArgs, .spawn _ ?_, by simp⟩
    simp only [List.forall_mem_cons]
    exact ⟨.letMemory, hc, hw3, by simp⟩
  · simp only [genSyncBody, genCall, trimStmts, Stmt.trims, List.cons_append, List.nil_append, List.append_nil, List.forall_mem_cons]
    refine ⟨hla, .ifArgs _ ?_, by simp⟩
    simp only [List.forall_mem_cons]
    exact ⟨hw1 _ _, hc, hw2, by simp⟩

theorem legGenMethod (hw : WFSchema 0 S) (hn : RpcWords S) (hr : RpcNamed S) (hf : f ∈ methodsOf S) :
    LegMethod (returnTypes S) (genMethod f) := by
  refine ⟨fun a ha => ?_, legGenHandler hw hn hr hf⟩
  unfold genMethod at ha
  split at ha
  · cases ha
  · cases ha
    exact ⟨legStructDecl (goodArgs hw hn hf), legStructImpl (goodArgs hw hn hf)⟩

theorem genReg_fn (f : FnNode) : (genReg f).fn = f.id := by
  unfold genReg
  split
  · rfl
  · split <;> rfl

/-- The generated text for methods is read as the tree of the schema without empty lines. -/
theorem readRpc_gen (hw : WFSchema 0 S) (hn : RpcWords S) (hr : RpcNamed S) {scope : String} (hs : PlainText scope) (u : Nat) :
    readRpc (returnTypes S) (linesText u (genRpc scope S).render) = some (genRpc scope S).trim := by
  refine readRpc_ok u hs (fun x hx => ?_) (fun m hm => ?_)
  · obtain ⟨f, hf, rfl⟩ := List.mem_map.1 hx
    rw [Props.findFnNodes_eq] at hf
    rw [genReg_fn]
    exact hn f hf f.id (by simp)
  · obtain ⟨f, hf, rfl⟩ := List.mem_map.1 hm
    rw [Props.findFnNodes_eq] at hf
    exact legGenMethod hw hn hr hf

end TPB.Spec.RustRpcReader
