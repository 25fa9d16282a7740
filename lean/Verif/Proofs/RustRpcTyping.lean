/- The emitted RPC section and the typing rules of `Spec/RustRpcTyping.lean`. -/
import Verif.Spec.RustRpcTyping
import Verif.Proofs.RustTyping
import Verif.Proofs.RustRpc
import Verif.Proofs.RustRpcFacts
namespace TPB.Rust
open Spec TPB.Props

variable {L : Crates} {S : List ASTNode}

/-! ### Handlers -/

theorem lookup_cons_ite (x y : String) (t : VarTy) (Γ : Vars) :
    List.lookup x ((y, t) :: Γ) = if x = y then some t else List.lookup x Γ := by
  by_cases h : x = y
  · subst h; simp [List.lookup]
  · simp [List.lookup, beq_eq_false_iff_ne.2 h, h]

theorem ite_some_none {p : Prop} [Decidable p] {α : Type} {a : α} {b : Option α} :
    (if p then some a else b) = none ↔ ¬ p ∧ b = none := by
  by_cases h : p <;> simp [h]

/-- The variable `result` where the answer is written. -/
def resultVar (f : FnNode) (t : TypeId) : VarTy :=
  if f.isRead then .resultRef (some (genTy t)) else .result (.val (some (genTy t)))

/-- The result can be written. -/
def ResultOk (X : RpcCtx) (f : FnNode) : Prop :=
  ∀ t, f.returnTypeId = some t → BufWTyped X [("result", resultVar f t)] (genResult t)

/-- The names that the handler binds. -/
def ownVars (f : FnNode) : List String :=
  callScope f ++ ["bytes_writer"] ++
  (if f.isRead then (if f.isAsync then ["bytes_reader", "status"] else []) else ["bytes_reader", "status"]) ++
  (if f.isRead || f.returnTypeId.isSome then ["result"] else [])

/-- The fields of the argument struct. -/
def argTys (f : FnNode) : List (String × Ty) := (argsNode f).fields.map (fun a => (a.name, genTy a.typeId))

theorem argFields_tys (as : List FnArg) : ∀ i, (RustGen.argFields i as).map (fun a => (a.name, genTy a.typeId)) = as.map (fun a => (a.id, genTy a.typeId)) := by
  induction as with
  | nil => intro i; rfl
  | cons a as ih => intro i; simp [RustGen.argFields, ih]

theorem argTys_eq (f : FnNode) : argTys f =
    (if f.isAsync then [("__method_id__", .named "i64")] else []) ++ f.args.map (fun a => (a.id, genTy a.typeId)) := by
  unfold argTys argsNode
  cases f.isAsync
  · simp [RustGen.syncArgs, argFields_tys]
  · simp [RustGen.asyncArgs, argFields_tys, genTy]

theorem each_args {X : RpcCtx} {Γ : Vars} {f : FnNode} (ha : (RustGen.argsStructId f, argTys f) ∈ X.args)
    (h : Γ.lookup "args" = some (.args (RustGen.argsStructId f)) ∨ Γ.lookup "args" = some (.argsRef (RustGen.argsStructId f))) :
    Each (ArgField X Γ) (f.args.map (·.id)) (f.args.map (fun a => genTy a.typeId)) := by
  have key : ∀ a ∈ f.args, ArgField X Γ a.id (genTy a.typeId) := by
    intro a h'
    refine ⟨_, _, h, ha, ?_⟩
    rw [argTys_eq]
    exact List.mem_append_right _ (List.mem_map.2 ⟨a, h', rfl⟩)
  generalize f.args = as at key
  induction as with
  | nil => exact .nil
  | cons a as ih => exact .cons (key a (by simp)) (ih (fun b hb => key b (by simp [hb])))

/-- What is asked of the schema for one handler. -/
def HandlerOk (X : RpcCtx) (f : FnNode) : Prop :=
  RustName (handlerName f.id) ∧ RustName f.id ∧ f.id ∉ callScope f ∧ f.id ∉ X.units ∧ f.id ∉ X.fns ∧
  (∀ x ∈ ownVars f ++ handlerPrelude f, x ∉ X.units) ∧ ResultOk X f ∧ (f.isRead = false → f.isAsync = true → "i64" ∉ X.types)

theorem sync_iff {X : RpcCtx} {f : FnNode} (hr : f.isRead = false) (hy : f.isAsync = false)
    (hu : X.host.functions f.id = some (declaredSig f)) (ha : (RustGen.argsStructId f, argTys f) ∈ X.args) :
    HandlerTyped X (genHandler f) ↔ HandlerOk X f := by
  have hm : ∃ x, (RustGen.argsStructId f, x) ∈ X.args := ⟨_, ha⟩
  have he := fun Γ h => each_args (Γ := Γ) ha h
  cases ho : f.returnTypeId with
  | none =>
    simp [HandlerTyped, HandlerOk, genHandler, hr, hy, genSyncBody, BlockTyped, StmtTyped, varsAfter, varsOf, params, genCall,
      ReachesBuffers, Bindable, RetTyped, keep, VarTy.isCopy, VarTy.isOwned, ho, lookup_cons_ite, ite_some_none, callScope, ownVars, handlerPrelude, ResultOk,
      genResults, BufWTyped, hu, declaredSig, he, hm]
    grind
  | some t =>
    cases ht : t <;> simp [HandlerTyped, HandlerOk, genHandler, hr, hy, genSyncBody, BlockTyped, StmtTyped, varsAfter, varsOf, params, genCall,
      ReachesBuffers, Bindable, RetTyped, keep, VarTy.isCopy, VarTy.isOwned, ho, lookup_cons_ite, ite_some_none, callScope, ownVars, handlerPrelude, ResultOk,
      genResults, BufWTyped, hu, declaredSig, he, hm, ht, genResult, genTy, resultVar]
    all_goals grind

theorem async_iff {X : RpcCtx} {f : FnNode} (hr : f.isRead = false) (hy : f.isAsync = true)
    (hu : X.host.functions f.id = some (declaredSig f)) (ha : (RustGen.argsStructId f, argTys f) ∈ X.args) :
    HandlerTyped X (genHandler f) ↔ HandlerOk X f := by
  have hm : ∃ x, (RustGen.argsStructId f, x) ∈ X.args := ⟨_, ha⟩
  have he := fun Γ h => each_args (Γ := Γ) ha h
  have hi : ∀ Γ : Vars, Γ.lookup "args" = some (.args (RustGen.argsStructId f)) ∨ Γ.lookup "args" = some (.argsRef (RustGen.argsStructId f)) →
      ArgField X Γ "__method_id__" (.named "i64") := fun Γ h => ⟨_, _, h, ha, by rw [argTys_eq]; simp [hy]⟩
  cases ho : f.returnTypeId with
  | none =>
    simp [HandlerTyped, HandlerOk, genHandler, hr, hy, genAsyncBody, BlockTyped, StmtTyped, varsAfter, varsOf, params, genCall,
      ReachesBuffers, Bindable, RetTyped, keep, VarTy.isCopy, VarTy.isOwned, ho, lookup_cons_ite, ite_some_none, callScope, ownVars, handlerPrelude, ResultOk,
      genResults, BufWTyped, hu, declaredSig, he, hi, hm]
    grind
  | some t =>
    cases ht : t <;> simp [HandlerTyped, HandlerOk, genHandler, hr, hy, genAsyncBody, BlockTyped, StmtTyped, varsAfter, varsOf, params, genCall,
      ReachesBuffers, Bindable, RetTyped, keep, VarTy.isCopy, VarTy.isOwned, ho, lookup_cons_ite, ite_some_none, callScope, ownVars, handlerPrelude, ResultOk,
      genResults, BufWTyped, hu, declaredSig, he, hi, hm, ht, genResult, genTy, resultVar]
    all_goals grind

theorem syncRead_iff {X : RpcCtx} {f : FnNode} (hr : f.isRead = true) (hy : f.isAsync = false)
    (hu : X.host.functions f.id = some (declaredSig f)) (ha : f.args = []) :
    HandlerTyped X (genHandler f) ↔ HandlerOk X f := by
  have he : ∀ Γ, Each (ArgField X Γ) [] [] := fun _ => .nil
  cases ho : f.returnTypeId with
  | none =>
    simp [HandlerTyped, HandlerOk, genHandler, hr, hy, genSyncReadBody, BlockTyped, StmtTyped, varsAfter, varsOf, params, genCall,
      ReachesBuffers, Bindable, RetTyped, keep, VarTy.isCopy, VarTy.isOwned, ho, lookup_cons_ite, ite_some_none, callScope, ownVars, handlerPrelude, ResultOk,
      genResults, BufWTyped, hu, declaredSig, he, ha]
    grind
  | some t =>
    cases ht : t <;> simp [HandlerTyped, HandlerOk, genHandler, hr, hy, genSyncReadBody, BlockTyped, StmtTyped, varsAfter, varsOf, params, genCall,
      ReachesBuffers, Bindable, RetTyped, keep, VarTy.isCopy, VarTy.isOwned, ho, lookup_cons_ite, ite_some_none, callScope, ownVars, handlerPrelude, ResultOk,
      genResults, BufWTyped, hu, declaredSig, he, ha, ht, genResult, genTy, resultVar]
    all_goals grind

theorem asyncRead_iff {X : RpcCtx} {f : FnNode} (hr : f.isRead = true) (hy : f.isAsync = true)
    (hu : X.host.functions f.id = some (declaredSig f)) (ha : f.args = []) :
    HandlerTyped X (genHandler f) ↔ HandlerOk X f := by
  have he : ∀ Γ, Each (ArgField X Γ) [] [] := fun _ => .nil
  cases ho : f.returnTypeId with
  | none =>
    simp [HandlerTyped, HandlerOk, genHandler, hr, hy, genAsyncReadBody, BlockTyped, StmtTyped, varsAfter, varsOf, params, genCall,
      ReachesBuffers, Bindable, RetTyped, keep, VarTy.isCopy, VarTy.isOwned, ho, lookup_cons_ite, ite_some_none, callScope, ownVars, handlerPrelude, ResultOk,
      genResults, BufWTyped, hu, declaredSig, he, ha]
    grind
  | some t =>
    cases ht : t <;> simp [HandlerTyped, HandlerOk, genHandler, hr, hy, genAsyncReadBody, BlockTyped, StmtTyped, varsAfter, varsOf, params, genCall,
      ReachesBuffers, Bindable, RetTyped, keep, VarTy.isCopy, VarTy.isOwned, ho, lookup_cons_ite, ite_some_none, callScope, ownVars, handlerPrelude, ResultOk,
      genResults, BufWTyped, hu, declaredSig, he, ha, ht, genResult, genTy, resultVar]
    all_goals grind

theorem handler_iff {X : RpcCtx} {f : FnNode} (hu : X.host.functions f.id = some (declaredSig f))
    (ha : f.isRead = false → (RustGen.argsStructId f, argTys f) ∈ X.args) (hr : f.isRead = true → f.args = []) :
    HandlerTyped X (genHandler f) ↔ HandlerOk X f := by
  cases h1 : f.isRead <;> cases h2 : f.isAsync
  · exact sync_iff h1 h2 hu (ha h1)
  · exact async_iff h1 h2 hu (ha h1)
  · exact syncRead_iff h1 h2 hu (hr h1)
  · exact asyncRead_iff h1 h2 hu (hr h1)

/-! ### Names -/

theorem argsStruct_head (f : FnNode) : (argsName f).toList.head? = some '_' := by simp [argsName]

theorem argsStruct_last (f : FnNode) : (argsName f).toList.getLast? = some '_' := by
  unfold argsName
  rw [String.toList_append, List.getLast?_append]
  rfl

theorem handlerName_last (x : String) : (handlerName x).toList.getLast? = some 'r' := by
  simp [handlerName, List.getLast?_append]

theorem handlerName_inj {x y : String} (h : handlerName x = handlerName y) : x = y := by
  have := congrArg String.toList h
  simp only [handlerName, String.toList_append] at this
  exact String.toList_inj.1 (List.append_cancel_right this)

theorem isIdent_chars {x : String} (h : isIdent x = true) : ∀ c ∈ x.toList, (c.isAlphanum || c == '_') = true := by
  unfold isIdent at h
  cases hx : x.toList with
  | nil => simp
  | cons c cs =>
    simp only [hx, Bool.and_eq_true, List.all_eq_true] at h
    intro d hd
    rcases List.mem_cons.1 hd with rfl | hd
    · have := h.1
      simp only [Char.isAlphanum, Bool.or_eq_true] at this ⊢
      grind
    · exact h.2 d hd

theorem rustName_handler {x : String} (h : RustName x) : RustName (handlerName x) := by
  constructor
  · have h1 := h.1
    unfold isIdent at h1 ⊢
    simp only [handlerName, String.toList_append]
    cases hx : x.toList with
    | nil => simp [hx] at h1
    | cons c cs =>
      simp only [hx, Bool.and_eq_true, List.cons_append, List.all_append] at h1 ⊢
      exact ⟨h1.1, h1.2, by decide⟩
  · intro hk
    have : ∀ k ∈ rustKeywords, k.toList.length < 12 := by decide
    have := this _ hk
    simp [handlerName] at this
    omega

theorem rustName_args {f : FnNode} (h : RustName f.id) : RustName (argsName f) := by
  constructor
  · have h1 := isIdent_chars h.1
    unfold isIdent
    have e : (argsName f).toList = '_' :: ('_' :: (f.id.toList ++ "_rpc_args__".toList)) := by simp [argsName]
    rw [e]
    simp only [Bool.and_eq_true, List.all_cons, List.all_append, List.all_eq_true]
    exact ⟨by decide, by decide, h1, by decide⟩
  · intro hk
    have : ∀ k ∈ rustKeywords, k.toList.length < 12 := by decide
    have := this _ hk
    simp [argsName] at this
    omega

/-! ### The section -/

theorem mem_emptyArgs {x : String} : x ∈ emptyArgs S ↔
    ∃ f ∈ methodsOf S, f.isRead = false ∧ f.isAsync = false ∧ f.args = [] ∧ x = argsName f := by
  simp only [emptyArgs, List.mem_filterMap]
  constructor
  · rintro ⟨f, hf, h⟩
    refine ⟨f, hf, ?_⟩
    split at h
    · rename_i hc
      simp only [Bool.and_eq_true, Bool.not_eq_true', List.isEmpty_iff] at hc
      exact ⟨hc.1.1, hc.1.2, hc.2, by simpa using h.symm⟩
    · cases h
  · rintro ⟨f, hf, h1, h2, h3, rfl⟩
    exact ⟨f, hf, by simp [h1, h2, h3]⟩

theorem not_emptyArgs {x : String} (h : x.toList.head? ≠ some '_') : x ∉ emptyArgs S := by
  intro hx
  obtain ⟨f, -, -, -, -, rfl⟩ := mem_emptyArgs.1 hx
  exact h (argsStruct_head f)

theorem handler_not_emptyArgs (x : String) : handlerName x ∉ emptyArgs S := by
  intro hx
  obtain ⟨f, -, -, -, -, h⟩ := mem_emptyArgs.1 hx
  have := handlerName_last x
  rw [h, argsStruct_last] at this
  cases this

theorem argsItems_gen (scope : String) (S : List ASTNode) :
    argsItems (genRpc scope S) = ((methodsOf S).filter (fun f => !f.isRead)).map genArgs := by
  simp only [argsItems, genRpc, findFnNodes_eq]
  induction methodsOf S with
  | nil => rfl
  | cons f fs ih => cases h : f.isRead <;> simp [genMethod, h, List.filterMap_cons, ih] <;> simpa using ih

theorem genArgs_id (f : FnNode) : (genArgs f).decl.id = argsName f := argsNode_id f

theorem argsNode_fields (f : FnNode) : (argsNode f).fields = [] ↔ f.isAsync = false ∧ f.args = [] := by
  unfold argsNode
  cases f.isAsync <;> cases f.args <;> simp [RustGen.argFields]

theorem unitArgs_gen (scope : String) (S : List ASTNode) : unitArgs (genRpc scope S) = emptyArgs S := by
  unfold unitArgs emptyArgs
  rw [argsItems_gen]
  induction methodsOf S with
  | nil => rfl
  | cons f fs ih =>
    rw [List.filterMap_cons]
    cases h : f.isRead with
    | true => simp [h, ih]
    | false =>
      simp only [List.filter_cons, h, Bool.not_false, if_true, List.map_cons, List.filterMap_cons, ih]
      cases hf : (argsNode f).fields with
      | nil =>
        obtain ⟨h1, h2⟩ := (argsNode_fields f).1 hf
        simp [genArgs, genStructDecl, hf, argsNode_id, h1, h2]
      | cons a as =>
        have : ¬ (f.isAsync = false ∧ f.args = []) := by rw [← argsNode_fields, hf]; simp
        simp only [genArgs, genStructDecl, hf, List.map_cons]
        simp
        grind

theorem sectionFns_gen (scope : String) (S : List ASTNode) :
    sectionFns (genRpc scope S) = "register_rpc" :: (methodsOf S).map (fun f => handlerName f.id) := by
  simp only [sectionFns, genRpc, findFnNodes_eq, List.map_map, Function.comp_def]
  congr 2
  funext f
  simp only [genMethod, genHandler]
  cases f.isRead <;> cases f.isAsync <;> rfl

theorem args_gen (L : Crates) (H : Host) (items : List TypeItem) (impls : List Impl) (scope : String) {f : FnNode} (hf : f ∈ methodsOf S) (hr : f.isRead = false) :
    (RustGen.argsStructId f, argTys f) ∈ (rpcCtx L H items impls (genRpc scope S)).args := by
  simp only [rpcCtx, argsItems_gen, List.map_map, List.mem_map, List.mem_filter]
  refine ⟨f, ⟨hf, by simp [hr]⟩, ?_⟩
  simp only [Function.comp, genArgs, genStructDecl, Decl.id, declFields, argTys, argsNode_id]
  rfl

theorem readPrim_iff {D I : List String} {m : String} {u : Ty} : ReadTyped L D I (.prim m) u ↔ u = .named m ∧ ∃ t, Builtin D m t := by
  constructor
  · intro h
    cases h with
    | prim _ t h => exact ⟨rfl, t, h⟩
  · rintro ⟨rfl, t, h⟩
    exact .prim m t h

theorem readPath_iff {D I : List String} {t u : Ty} : ReadTyped L D I (.path t) u ↔ u = t ∧ Implements L D I t := by
  constructor
  · intro h
    cases h with
    | path _ h => exact ⟨rfl, h⟩
  · rintro ⟨rfl, h⟩
    exact .path _ h

theorem resultOk_iff {X : RpcCtx} {f : FnNode} (hX : X.crates = L) (h1 : X.types = typeNames S) (h2 : X.codecs = typeNames S) (hw : ∀ t ∈ f.returnTypeId, WFType t) :
    ResultOk X f ↔ ∀ t, f.returnTypeId = some t → (TypeExists L S t ∧ NotHidden S t) ∧ (f.isRead = true → builtin? t = none) := by
  have key : ∀ t, f.returnTypeId = some t → (BufWTyped X [("result", resultVar f t)] (genResult t) ↔
      (TypeExists L S t ∧ NotHidden S t) ∧ (f.isRead = true → builtin? t = none)) := by
    intro t ht
    rw [← readTyped_iff (hw t (by simp [ht]))]
    subst hX
    cases hr : f.isRead <;> cases t <;>
      simp [BufWTyped, resultVar, hr, genResult, genRead, genTy, h1, h2, builtin?, List.lookup, readPrim_iff, readPath_iff, genTys_eq]
  exact ⟨fun h t ht => (key t ht).1 (h t ht), fun h t ht => (key t ht).2 (h t ht)⟩

/-- An argument struct and its codec. -/
theorem argsItem_iff {U : List String} {f : FnNode} (hw : ∀ x ∈ fieldsOf (argsNode f), WFType x.2) :
    (DeclTyped L (typeNames S) (genArgs f).decl ∧ (genArgs f).impl.id = (genArgs f).decl.id ∧
      ReadBodyTyped L (typeNames S) (typeNames S) (genArgs f).decl (genArgs f).impl.read ∧
      WriteBodyTyped L (typeNames S) (typeNames S) U (genArgs f).decl (genArgs f).impl.write ∧
      SkipBodyTyped L (typeNames S) (typeNames S) (genArgs f).impl.skip ∧
      ∀ x ∈ (genArgs f).impl.read.locals ++ (genArgs f).impl.write.locals ++ (genArgs f).impl.skip.locals, x ∉ U) ↔
    RustName (argsName f) ∧ ((fieldsOf (argsNode f)).map (·.1)).Nodup ∧
      (∀ x ∈ fieldsOf (argsNode f), RustName x.1 ∧ TypeExists L S x.2 ∧ NotHidden S x.2) ∧
      ((argsNode f).fields ≠ [] → ∀ x ∈ ["bytes_reader", "bytes_writer", "count"], x ∉ U) := by
  have locals : (∀ x ∈ (genArgs f).impl.read.locals ++ (genArgs f).impl.write.locals ++ (genArgs f).impl.skip.locals, x ∉ U) ↔
      ((argsNode f).fields ≠ [] → ∀ x ∈ ["bytes_reader", "bytes_writer", "count"], x ∉ U) := by
    by_cases hf : (argsNode f).fields = []
    · simp [hf, genArgs, genStructImpl, ReadBody.locals, WriteBody.locals, SkipBody.locals]
    · constructor
      · intro h _ x hx
        exact h x ((mem_locals_struct hf).2 hx)
      · intro h x hx
        exact h hf x ((mem_locals_struct hf).1 hx)
  rw [locals]
  constructor
  · rintro ⟨⟨h1, -, h2, h3⟩, -, h4, -, -, h5⟩
    have nd : ((fieldsOf (argsNode f)).map (·.1)).Nodup := by simpa [fieldsOf, List.map_map, Function.comp_def] using h2
    refine ⟨(argsNode_id f) ▸ h1, nd, ?_, h5⟩
    intro x hx
    refine ⟨?_, (readTyped_struct hw nd).1 h4 x hx⟩
    obtain ⟨g, hg, rfl⟩ := List.mem_map.1 hx
    exact h3 _ (List.mem_map.2 ⟨g, hg, rfl⟩)
  · rintro ⟨h1, h2, h3, h4⟩
    have hb : ∀ x ∈ fieldsOf (argsNode f), TypeExists L S x.2 ∧ NotHidden S x.2 := fun x hx => (h3 x hx).2
    refine ⟨⟨?_, ?_, ?_, ?_⟩, genStructImpl_id _, (readTyped_struct hw h2).2 hb, writeTyped_struct hw hb, skipTyped_struct hw hb, h4⟩
    · rw [genArgs_id]; exact h1
    · intro t ht
      obtain ⟨x, hx, rfl⟩ := List.mem_map.1 ht
      obtain ⟨g, hg, rfl⟩ := List.mem_map.1 hx
      have hm : (g.name, g.typeId) ∈ fieldsOf (argsNode f) := List.mem_map.2 ⟨g, hg, rfl⟩
      exact (implements_iff (hw _ hm)).2 (hb _ hm).1
    · simpa [fieldsOf, List.map_map, Function.comp_def] using h2
    · intro x hx
      obtain ⟨g, hg, rfl⟩ := List.mem_map.1 hx
      exact (h3 (g.name, g.typeId) (List.mem_map.2 ⟨g, hg, rfl⟩)).1

theorem fieldsOf_argFields (as : List FnArg) : ∀ i, (RustGen.argFields i as).map (fun f => (f.name, f.typeId)) = as.map (fun a => (a.id, a.typeId)) := by
  induction as with
  | nil => intro i; rfl
  | cons a as ih => intro i; simp [RustGen.argFields, ih]

theorem fieldsOf_args (f : FnNode) : fieldsOf (argsNode f) =
    (if f.isAsync then [("__method_id__", .integer "i64" 8 true)] else []) ++ argsOf f := by
  unfold argsNode fieldsOf argsOf
  cases f.isAsync <;> simp [fieldsOf_argFields]

theorem args_wf {f : FnNode} (h : ∀ t ∈ argsOf f, WFType t.2) : ∀ x ∈ fieldsOf (argsNode f), WFType x.2 := by
  rw [fieldsOf_args]
  intro x hx
  rcases List.mem_append.1 hx with hx | hx
  · cases hy : f.isAsync <;> simp [hy] at hx
    subst hx
    exact .name "i64"
  · exact h x hx

/-- The conditions on arguments, in terms of the schema. -/
theorem argsCond_iff {f : FnNode} :
    (((fieldsOf (argsNode f)).map (·.1)).Nodup ∧ (∀ x ∈ fieldsOf (argsNode f), RustName x.1 ∧ TypeExists L S x.2 ∧ NotHidden S x.2)) ↔
    ((f.args.map (·.id)).Nodup ∧ ∀ a ∈ f.args, RustName a.id ∧ TypeExists L S a.typeId ∧ ∀ b, builtin? a.typeId = some b → b ∉ typeNames S) ∧
      (f.isAsync = true → "__method_id__" ∉ f.args.map (·.id) ∧ "i64" ∉ typeNames S) := by
  have hid : RustName "__method_id__" := ⟨by decide, by decide⟩
  have hi : TypeExists L S (.integer "i64" 8 true) := .builtin _ _ rfl
  have hn : NotHidden S (.integer "i64" 8 true) ↔ "i64" ∉ typeNames S := by simp [NotHidden, builtin?]
  rw [fieldsOf_args]
  cases hy : f.isAsync with
  | false => simp [argsOf, Function.comp_def, NotHidden]
  | true =>
    simp [argsOf, Function.comp_def, hid, hi, hn]
    simp only [NotHidden]
    grind

theorem ownVars_sub {f : FnNode} : ∀ x ∈ ownVars f, x ∈ handlerVars f := by
  intro x hx
  unfold handlerVars
  exact List.mem_append_left _ hx

/-- None of the names that the handlers bind starts with an underscore. -/
theorem vars_head {f : FnNode} : ∀ x ∈ handlerVars f ++ handlerPrelude f, x.toList.head? ≠ some '_' := by
  unfold handlerVars callScope handlerPrelude
  cases f.isRead <;> cases f.isAsync <;> cases f.returnTypeId.isSome <;> cases f.args.isEmpty <;> decide

theorem handlerVars_split {f : FnNode} {P : String → Prop} :
    (∀ x ∈ handlerVars f ++ handlerPrelude f, P x) ↔
      (∀ x ∈ ownVars f ++ handlerPrelude f, P x) ∧
      (f.isRead = false → (argsNode f).fields ≠ [] → ∀ x ∈ ["bytes_reader", "bytes_writer", "count"], P x) := by
  have e := argsNode_fields f
  unfold handlerVars ownVars callScope
  cases hr : f.isRead <;> cases hy : f.isAsync <;> cases ha : f.args <;> simp [hy, ha] at e <;> simp [e, hr] <;> grind

theorem rustRpcTyped_iff {k : Nat} {H : Host} {scope : String} (hwf : WFSchema k S) (hne : ∀ n, .enum n ∈ S → n.items ≠ [])
    (hP : Provides H S) (hs : H.uuid scope) :
    RustRpcTyped L H (genItems S) (genImpls S) (genRpc scope S) ↔ RpcTypable L S := by
  have e1 := items_ids hne
  have e2 : (genImpls S).map (·.id) = typeNames S := impls_ids S
  have e3 := unitStructs_eq S
  have e4 := unitArgs_gen scope S
  have e5 := sectionFns_gen scope S
  have e6 := argsItems_gen scope S
  generalize hX : rpcCtx L H (genItems S) (genImpls S) (genRpc scope S) = X
  have x1 : X.types = typeNames S := by rw [← hX]; exact e1
  have x2 : X.codecs = typeNames S := by rw [← hX]; exact e2
  have x3 : X.units = emptyStructs S ++ emptyArgs S := by rw [← hX]; simp only [rpcCtx, e3, e4]
  have x4 : X.fns = "register_rpc" :: (methodsOf S).map (fun f => handlerName f.id) := by rw [← hX]; exact e5
  have x5 : X.crates = L := by rw [← hX]; rfl
  have x6 : X.host = H := by rw [← hX]; rfl
  have hH : ∀ f ∈ methodsOf S, (HandlerTyped X (genHandler f) ↔ HandlerOk X f) := by
    intro f hf
    refine handler_iff (by rw [x6]; exact hP f hf) ?_ (wf_method hwf hf).2.2
    intro hr
    rw [← hX]
    exact args_gen L H _ _ scope hf hr
  have hA := fun f (hf : f ∈ methodsOf S) => args_wf (wf_method hwf hf).1
  have hR := fun f (hf : f ∈ methodsOf S) => resultOk_iff (S := S) (f := f) x5 x1 x2 (wf_method hwf hf).2.1
  have inA : ∀ f ∈ methodsOf S, f.isRead = false → genArgs f ∈ argsItems (genRpc scope S) := by
    intro f hf hr
    rw [e6]
    exact List.mem_map.2 ⟨f, List.mem_filter.2 ⟨hf, by simp [hr]⟩, rfl⟩
  have inM : ∀ f ∈ methodsOf S, genMethod f ∈ (genRpc scope S).methods := by
    intro f hf
    simp only [genRpc, findFnNodes_eq]
    exact List.mem_map.2 ⟨f, hf, rfl⟩
  have units : ∀ x : String, x.toList.head? ≠ some '_' → (x ∉ X.units ↔ x ∉ emptyStructs S) := by
    intro x hx
    rw [x3]
    simp [not_emptyArgs hx]
  constructor
  · intro h
    have hh : ∀ f ∈ methodsOf S, HandlerOk X f := by
      intro f hf
      have := h.handlers _ (inM f hf)
      rw [hX] at this
      exact (hH f hf).1 this
    have ha : ∀ f ∈ methodsOf S, f.isRead = false → _ := fun f hf hr => (argsItem_iff (L := L) (U := emptyStructs S ++ emptyArgs S) (hA f hf)).1
      (by have := h.args _ (inA f hf hr); rwa [e1, e2, e3, e4] at this)
    have hac : ∀ f ∈ methodsOf S, f.isRead = false → _ := fun f hf hr => (argsCond_iff (f := f)).1 ⟨(ha f hf hr).2.1, (ha f hf hr).2.2.1⟩
    have fnd := h.fnsOnce
    rw [e5] at fnd
    exact {
      base := (rustTyped_iff hwf hne).1 h.base
      bound := by
        intro n hn i hi x hx
        rw [← e4]
        refine h.patterns _ (mem_impls.2 (.inr ⟨n, hn, rfl⟩)) x ?_
        simp only [patternNames, genEnumImpl, List.mem_flatMap, List.mem_map]
        exact ⟨_, ⟨i, hi, rfl⟩, (genWriteArm_names i).2 ▸ hx⟩
      methods := nodup_map_of_inj (g := fun f => handlerName f.id) (fun a b (e : a.id = b.id) => by rw [e]) (List.nodup_cons.1 fnd).2
      names := by
        intro f hf
        obtain ⟨-, h1, h2, h3, h4, -⟩ := hh f hf
        rw [x3] at h3
        rw [x4, List.mem_cons, not_or] at h4
        exact ⟨h1, h2, h3, h4.1, h4.2⟩
      structs := by
        intro f hf hr
        have := h.argsFresh _ (inA f hf hr)
        rwa [e1, genArgs_id] at this
      handlersFresh := by
        intro f hf
        have := h.fnsFresh (handlerName f.id) (by rw [e5]; exact List.mem_cons_of_mem _ (List.mem_map.2 ⟨f, hf, rfl⟩))
        rw [e3] at this
        exact fun hc => this (List.mem_append_left _ hc)
      vars := by
        intro f hf
        rw [handlerVars_split]
        refine ⟨?_, ?_⟩
        · intro x hx
          have := (hh f hf).2.2.2.2.2.1 x hx
          rw [x3] at this
          exact fun hc => this (List.mem_append_left _ hc)
        · intro hr hfs x hx hc
          exact (ha f hf hr).2.2.2 hfs x hx (List.mem_append_left _ hc)
      args := by
        intro f hf
        cases hr : f.isRead with
        | false => exact (hac f hf hr).1
        | true => rw [(wf_method hwf hf).2.2 hr]; simp
      methodId := fun f hf hr hy => (hac f hf hr).2 hy
      results := by
        intro f hf t ht
        exact ((hR f hf).1 (hh f hf).2.2.2.2.2.2.1 t ht).1
      reads := fun f hf hr t ht => ((hR f hf).1 (hh f hf).2.2.2.2.2.2.1 t ht).2 hr
      register := by
        intro x hx
        rw [List.mem_cons] at hx
        rcases hx with rfl | hx
        · have := h.fnsFresh "register_rpc" (by rw [e5]; simp)
          rw [e3] at this
          exact fun hc => this (List.mem_append_left _ hc)
        · have := h.register x hx
          rw [hX, x3] at this
          exact fun hc => this (List.mem_append_left _ hc)
      count := by
        intro f hf
        have := (h.regs (genReg f) (by simp only [genRpc, findFnNodes_eq]; exact List.mem_map.2 ⟨f, hf, rfl⟩)).1
        revert this
        unfold genReg
        cases f.isRead <;> cases f.isAsync <;> exact id }
  · intro h
    have mA : ∀ a ∈ argsItems (genRpc scope S), ∃ f ∈ methodsOf S, f.isRead = false ∧ a = genArgs f := by
      intro a ha
      rw [e6] at ha
      obtain ⟨f, hf, rfl⟩ := List.mem_map.1 ha
      obtain ⟨hf, hr⟩ := List.mem_filter.1 hf
      exact ⟨f, hf, by simpa using hr, rfl⟩
    have vars := fun f hf => handlerVars_split.1 (h.vars f hf)
    exact {
      base := (rustTyped_iff hwf hne).2 h.base
      patterns := by
        intro m hm x hx
        rw [e4]
        rcases mem_impls.1 hm with ⟨n, hn, rfl⟩ | ⟨n, hn, rfl⟩
        · exfalso
          revert hx
          unfold patternNames genStructImpl
          cases n.fields <;> simp
        · simp only [patternNames, genEnumImpl, List.mem_flatMap, List.mem_map] at hx
          obtain ⟨_, ⟨i, hi, rfl⟩, hx⟩ := hx
          exact h.bound n hn i hi x ((genWriteArm_names i).2 ▸ hx)
      argsOnce := by
        rw [e6, List.map_map]
        have := List.Sublist.nodup (List.Sublist.map FnNode.id (List.filter_sublist (p := fun f : FnNode => !f.isRead))) h.methods
        refine nodup_map_of_inj (g := fun f : FnNode => f.id) ?_ this
        intro a b e
        simp only [Function.comp, genArgs_id] at e
        exact argsName_inj e
      argsFresh := by
        intro a ha
        obtain ⟨f, hf, hr, rfl⟩ := mA a ha
        rw [e1, genArgs_id]
        exact h.structs f hf hr
      fnsOnce := by
        rw [e5, List.nodup_cons]
        refine ⟨?_, nodup_map_of_inj (g := fun f : FnNode => f.id) (fun _ _ => handlerName_inj) h.methods⟩
        intro hc
        obtain ⟨f, -, hf⟩ := List.mem_map.1 hc
        have := handlerName_last f.id
        rw [hf] at this
        revert this
        decide
      fnsFresh := by
        rw [e3, e4, e5]
        intro x hx
        rw [List.mem_append, not_or]
        rcases List.mem_cons.1 hx with rfl | hx
        · exact ⟨h.register _ (by simp), not_emptyArgs (by decide)⟩
        · obtain ⟨f, hf, rfl⟩ := List.mem_map.1 hx
          exact ⟨h.handlersFresh f hf, handler_not_emptyArgs _⟩
      args := by
        intro a ha
        obtain ⟨f, hf, hr, rfl⟩ := mA a ha
        rw [e1, e2, e3, e4, argsItem_iff (hA f hf)]
        obtain ⟨h1, h2⟩ := argsCond_iff.2 ⟨h.args f hf, h.methodId f hf hr⟩
        refine ⟨rustName_args (h.names f hf).1, h1, h2, ?_⟩
        intro hfs x hx
        rw [← x3, units x (by revert x; decide)]
        exact (vars f hf).2 hr hfs x hx
      handlers := by
        intro m hm
        simp only [genRpc, findFnNodes_eq, List.mem_map] at hm
        obtain ⟨f, hf, rfl⟩ := hm
        rw [hX]
        refine (hH f hf).2 ?_
        obtain ⟨h1, h2, h3, h4, h5⟩ := h.names f hf
        refine ⟨rustName_handler h1, h1, h2, x3 ▸ h3, ?_, ?_, ?_, ?_⟩
        · rw [x4, List.mem_cons, not_or]
          exact ⟨h4, h5⟩
        · intro x hx
          rw [units x (vars_head (f := f) x ?_)]
          · exact (vars f hf).1 x hx
          · rcases List.mem_append.1 hx with hx | hx
            · exact List.mem_append_left _ (ownVars_sub x hx)
            · exact List.mem_append_right _ hx
        · rw [hR f hf]
          intro t ht
          exact ⟨h.results f hf t ht, fun hr => h.reads f hf hr t ht⟩
        · intro hr hy
          rw [x1]
          exact (h.methodId f hf hr hy).2
      register := by
        rw [hX]
        intro x hx
        rw [units x (by revert x; decide)]
        exact h.register x (List.mem_cons_of_mem _ hx)
      scope := hs
      regs := by
        intro r hr
        simp only [genRpc, findFnNodes_eq, List.mem_map] at hr
        obtain ⟨f, hf, rfl⟩ := hr
        have hc := h.count f hf
        refine ⟨?_, genMethod f, inM f hf, ?_⟩
        · unfold genReg
          cases f.isRead <;> cases f.isAsync <;> exact hc
        · unfold genReg genMethod genHandler
          cases f.isRead <;> cases f.isAsync <;> simp }

end TPB.Rust
