/- The text of the Dart generator's rpc section is the printed form of the trees of `Sem/DartRpc.lean`. -/
import Verif.Sem.DartRpc
import Verif.Proofs.DartText
namespace TPB.Dart
open DartGen

variable {x : Ext}

/-- Types of arguments and results have sizes that the generator knows. -/
def SizedFn (f : FnNode) : Prop := (∀ a ∈ f.args, Sized a.typeId) ∧ ∀ t, f.returnTypeId = some t → Sized t

theorem optionTypeId_render (f : FnNode) : optionTypeId f.returnTypeId = (retTy f).render := by
  unfold optionTypeId retTy
  cases f.returnTypeId with
  | none => simp [Ty.render]
  | some t => exact typeId_render t

theorem rpcFnArgs_render (f : FnNode) :
    rpcFnArgs x f = linesText 2 ((genParams x f).map (fun p => (2, "required " ++ p.1.render ++ " " ++ p.2 ++ ","))) := by
  simp only [rpcFnArgs, new_eq, foldl_line, show_wAt, String.empty_append, genParams, List.map_map, Function.comp_def,
    typeId_render]

theorem rpcWriteArgs_render (f : FnNode) (hs : SizedFn f) (r : String) :
    rpcWriteArgs x f (wAt 2 r) = .ok (wAt 2 (r ++ linesText 2 ((genArgWrites x f).map (fun w => (4, w.render))))) := by
  unfold rpcWriteArgs
  rw [loopM_line 2 4 _ (fun a => (genWrite .into a.typeId (.var (x.camel a.id))).render)]
  · simp only [genArgWrites, List.map_map, Function.comp_def, WStmt.render]
  · intro a ha r
    have := write_render (hs.1 a ha) (.var (x.camel a.id))
    rw [show Acc.render (.var (x.camel a.id)) = x.camel a.id from rfl] at this
    simp only [this, writelnTab_wAt]

/-- The first lines of a method. -/
theorem head_render (f : FnNode) (m : DMethod) (hp : m.params = genParams x f) (r ret : String)
    (hr : ret = (if m.future then "Future<" ++ m.ret.render ++ ">" else m.ret.render)) (hn : m.name = x.camel f.id) :
    (if f.args.isEmpty then (wAt 2 r).writelnTab 1 (ret ++ " " ++ x.camel f.id ++ "() {")
     else (((wAt 2 r).writelnTab 1 (ret ++ " " ++ x.camel f.id ++ "({")).write (rpcFnArgs x f)).writelnTab 1 "}) {")
      = wAt 2 (r ++ linesText 2 m.renderHead) := by
  subst hr
  obtain ⟨id, pos, args, rt, ir, ia⟩ := f
  cases args with
  | nil => simp only [List.isEmpty_nil, if_true, writelnTab_wAt, DMethod.renderHead, hp, genParams, List.map_nil, hn]
  | cons a as =>
    rw [rpcFnArgs_render]
    simp only [List.isEmpty_cons, Bool.false_eq_true, if_false, writelnTab_wAt, write_wAt, DMethod.renderHead, hp,
      genParams, List.map_cons, hn, List.map_map, Function.comp_def]
    simp only [linesText_append, String.append_assoc, List.cons_append, List.nil_append, linesText, String.append_empty]

theorem syncMethod_render (f : FnNode) (hs : SizedFn f) :
    syncMethod x f = .ok (linesText 2 (genSync x f).render) := by
  unfold syncMethod
  simp only [new_eq]
  rw [head_render f (genSync x f) rfl "" _ (by rw [optionTypeId_render]; rfl) rfl]
  simp only [writelnTab_wAt, writeln_wAt, rpcWriteArgs_render f hs]
  cases hret : f.returnTypeId with
  | none =>
    simp only [writelnTab_wAt, show_wAt, DMethod.render, Except.ok.injEq]
    simp only [String.empty_append, ← linesText_append]
    refine congrArg (linesText 2) ?_
    simp only [genSync, genSyncResult, hret, List.flatMap_cons, List.flatMap_nil, DStmt.render, renderWriter, bufText,
      List.map_cons, WStmt.render, List.append_assoc, List.cons_append, List.nil_append, List.append_nil, if_true,
      Nat.reduceAdd, List.map_map, Function.comp_def]
  | some t =>
    simp only [read_render (hs.2 t hret), writelnTab_wAt, writeln_wAt, show_wAt, DMethod.render, Except.ok.injEq]
    simp only [String.empty_append, ← linesText_append]
    refine congrArg (linesText 2) ?_
    simp only [genSync, genSyncResult, hret, List.flatMap_cons, List.flatMap_nil, DStmt.render, renderWriter, bufText,
      renderReader, RStmt.render,
      List.map_cons, WStmt.render, List.append_assoc, List.cons_append, List.nil_append, List.append_nil, if_true,
      Nat.reduceAdd, List.map_map, Function.comp_def, typeId_render]

theorem asyncConnect_render (f : FnNode) (hs : SizedFn f) :
    asyncConnectMethod x f = .ok (linesText 2 (genAsyncConnect x f).render) := by
  unfold asyncConnectMethod
  simp only [new_eq, writelnTab_wAt, writeln_wAt]
  cases hret : f.returnTypeId with
  | none =>
    simp only [writelnTab_wAt, writeln_wAt, show_wAt, DMethod.render, Except.ok.injEq]
    simp only [String.empty_append, ← linesText_append]
    refine congrArg (linesText 2) ?_
    simp only [genAsyncConnect, genReaderHead, genComplete, hret, List.flatMap_cons, List.flatMap_nil, DStmt.render, bufText,
      renderReader, RStmt.render, DMethod.renderHead, Ty.render, connectName,
      List.append_assoc, List.cons_append, List.nil_append, List.append_nil, if_true, Bool.false_eq_true, if_false,
      Nat.reduceAdd]
    simp only [← String.append_assoc]
    rfl
  | some t =>
    simp only [read_render (hs.2 t hret), writelnTab_wAt, writeln_wAt, show_wAt, DMethod.render, Except.ok.injEq]
    simp only [String.empty_append, ← linesText_append]
    refine congrArg (linesText 2) ?_
    simp only [genAsyncConnect, genReaderHead, genComplete, hret, List.flatMap_cons, List.flatMap_nil, DStmt.render, bufText,
      renderReader, RStmt.render, DMethod.renderHead, Ty.render, connectName,
      List.append_assoc, List.cons_append, List.nil_append, List.append_nil, if_true, Bool.false_eq_true, if_false,
      Nat.reduceAdd]
    simp only [← String.append_assoc]
    rfl

theorem lit_future (s n e : String) : "Future<" ++ s ++ "> " ++ n ++ e = "Future<" ++ s ++ ">" ++ " " ++ n ++ e := by
  have : ("> " : String) = ">" ++ " " := by decide
  rw [this]; simp only [String.append_assoc]

theorem asyncMethod_render (f : FnNode) (hs : SizedFn f) :
    asyncMethod x f = .ok (linesText 2 (joinBlocks [(genAsyncConnect x f).render, (genAsync x f).render])) := by
  unfold asyncMethod
  simp only [new_eq, asyncConnect_render f hs, writeln_wAt, lit_future]
  rw [head_render f (genAsync x f) rfl _ _ (by rw [optionTypeId_render]; rfl) rfl]
  simp only [writelnTab_wAt, writeln_wAt, rpcWriteArgs_render f hs, show_wAt, Except.ok.injEq, optionTypeId_render]
  simp only [writeln_block]
  simp only [String.empty_append, ← linesText_append]
  refine congrArg (linesText 2) ?_
  simp only [joinBlocks, List.append_assoc]
  refine congrArg (DMethod.render (genAsyncConnect x f) ++ ·) ?_
  simp only [DMethod.render, List.append_assoc]
  refine congrArg (fun l => [(0, "")] ++ (DMethod.renderHead (genAsync x f) ++ l)) ?_
  simp only [genAsync, List.flatMap_cons, List.flatMap_nil, DStmt.render, renderWriter, bufText,
    List.map_cons, WStmt.render, List.append_assoc, List.cons_append, List.nil_append, List.append_nil,
    Bool.false_eq_true, if_false, Nat.reduceAdd]

theorem readMethod_render (f : FnNode) (hs : SizedFn f) :
    readMethod x f = .ok (linesText 2 (genReadConnect x f).render) := by
  unfold readMethod
  simp only [new_eq, writelnTab_wAt, writeln_wAt]
  cases hret : f.returnTypeId with
  | none =>
    simp only [writelnTab_wAt, show_wAt, DMethod.render, Except.ok.injEq]
    simp only [String.empty_append, ← linesText_append]
    refine congrArg (linesText 2) ?_
    simp only [genReadConnect, genReaderHead, genAdd, hret, List.flatMap_cons, List.flatMap_nil, DStmt.render, bufText,
      renderReader, RStmt.render, DMethod.renderHead, Ty.render, connectName,
      List.cons_append, List.nil_append, List.append_nil, Bool.false_eq_true, if_false, Nat.reduceAdd]
    simp only [← String.append_assoc]
    rfl
  | some t =>
    simp only [read_render (hs.2 t hret), writelnTab_wAt, show_wAt, DMethod.render, Except.ok.injEq]
    simp only [String.empty_append, ← linesText_append]
    refine congrArg (linesText 2) ?_
    simp only [genReadConnect, genReaderHead, genAdd, hret, List.flatMap_cons, List.flatMap_nil, DStmt.render, bufText,
      renderReader, RStmt.render, DMethod.renderHead, Ty.render, connectName,
      List.cons_append, List.nil_append, List.append_nil, if_true, Bool.false_eq_true, if_false, Nat.reduceAdd]
    simp only [← String.append_assoc]
    rfl

theorem rpcMembers_render (f : FnNode) (r : String) :
    rpcMembers x (wAt 2 r) f = wAt 2 (r ++ linesText 2 ((genMembers x f).map Member.render)) := by
  unfold rpcMembers genMembers
  cases f.isRead <;> cases f.isAsync <;>
    simp only [Bool.or_self, Bool.or_true, Bool.or_false, Bool.and_self, Bool.and_false, Bool.and_true, Bool.not_true,
      Bool.not_false, Bool.false_eq_true, if_true, if_false, writeln_wAt,
      writelnTab_wAt, List.map_cons, List.map_nil, Member.render, optionTypeId_render, linesText, String.append_empty,
      String.append_assoc]

theorem rpcGetter_render (f : FnNode) (r : String) :
    rpcGetter x (wAt 2 r) f = wAt 2 (r ++ linesText 2 ((genGetters x f).flatMap Getter.render)) := by
  unfold rpcGetter genGetters
  cases f.isRead <;>
    simp only [Bool.false_eq_true, if_true, if_false, writeln_wAt,
      writelnTab_wAt, List.flatMap_cons, List.flatMap_nil, Getter.render, optionTypeId_render, linesText, String.append_empty,
      String.append_assoc, List.append_nil]

theorem rpcConstructor_render (fs : List FnNode) :
    rpcConstructor x fs = linesText 2 ((fs.flatMap (genConnects x)).map (fun n => (2, n ++ "();"))) := by
  unfold rpcConstructor
  rw [new_eq, foldl_wAt 2 _ (fun f => (genConnects x f).map (fun n => (2, n ++ "();")))]
  · rw [show_wAt, String.empty_append, List.map_flatMap]
  · intro r f
    unfold genConnects
    by_cases h : (f.isAsync || f.isRead) = true
    · simp only [h, if_true, writelnTab_wAt, List.map_cons, List.map_nil, connectName]
    · simp only [h, Bool.false_eq_true, if_false, List.map_nil, linesText, String.append_empty]

theorem rpcDisconnect_render (fs : List FnNode) :
    rpcDisconnect x fs = linesText 2 ([(1, "void disconnect() {")] ++ (fs.flatMap (genDisc x)).map DiscS.render ++ [(1, "}")]) := by
  unfold rpcDisconnect
  simp only [new_eq, writelnTab_wAt]
  rw [foldl_wAt 2 _ (fun f => (genDisc x f).map DiscS.render)]
  · simp only [writelnTab_wAt, show_wAt, String.empty_append, ← linesText_append, List.map_flatMap]
  · intro r f
    unfold genDisc
    cases f.isRead <;> cases f.isAsync <;>
      simp only [Bool.or_self, Bool.or_true, Bool.or_false, Bool.false_eq_true, if_true, if_false, 
        List.map_cons, List.map_nil, DiscS.render, linesText, String.append_empty, String.append_assoc, writelnTab_wAt]

/-- The blocks of lines for one method of the schema. -/
theorem method_render (f : FnNode) (hs : SizedFn f) :
    (if f.isRead then readMethod x f else if f.isAsync then asyncMethod x f else syncMethod x f)
      = .ok (linesText 2 (joinBlocks ((genDMethods x f).map DMethod.render))) := by
  unfold genDMethods
  cases f.isRead <;> cases f.isAsync <;>
    simp only [Bool.false_eq_true, if_true, if_false, List.map_cons, List.map_nil, readMethod_render f hs,
      asyncMethod_render f hs, syncMethod_render f hs] <;> rfl

theorem joinBlocks_append (a b : List (List Line)) (ha : a ≠ []) (hb : b ≠ []) :
    joinBlocks (a ++ b) = joinBlocks a ++ [(0, "")] ++ joinBlocks b := by
  match a, ha with
  | [l], _ =>
    match b, hb with
    | m :: bs, _ => simp [joinBlocks]
  | l :: m :: as, _ =>
    have := joinBlocks_append (m :: as) b (by simp) hb
    simp only [List.cons_append] at this
    simp only [List.cons_append, joinBlocks, this, List.append_assoc, List.nil_append]

theorem genDMethods_ne (f : FnNode) : (genDMethods x f).map DMethod.render ≠ [] := by
  unfold genDMethods
  cases f.isRead <;> cases f.isAsync <;> simp

theorem methods_render (last : Nat) (fs : List FnNode) (hs : ∀ f ∈ fs, SizedFn f) (hne : fs ≠ [])
    (hl : (fs.getLast hne).position = last) (hd : ∀ f ∈ fs.dropLast, f.position ≠ last) (r : String) :
    loopM (rpcMethodItem x last) fs (wAt 2 r)
      = .ok (wAt 2 (r ++ linesText 2 (joinBlocks ((fs.flatMap (genDMethods x)).map DMethod.render)))) := by
  induction fs generalizing r with
  | nil => exact absurd rfl hne
  | cons f fs ih =>
    have hi : rpcMethodItem x last (wAt 2 r) f = .ok (wAt 2 (r ++ linesText 2 (joinBlocks ((genDMethods x f).map DMethod.render)
        ++ if f.position ≠ last then [(0, "")] else []))) := by
      unfold rpcMethodItem
      rw [method_render f (hs f (by simp))]
      by_cases h : f.position ≠ last
      · simp only [write_wAt, if_pos h, writeln_wAt, linesText_append, String.append_assoc]
      · simp only [write_wAt, if_neg h, linesText_append, String.append_assoc, linesText, String.append_empty]
    simp only [loopM, hi]
    cases fs with
    | nil =>
      simp only [List.getLast_singleton] at hl
      simp [loopM, hl]
    | cons g fs =>
      rw [if_pos (hd f (by simp)), ih (fun f hf => hs f (by simp [hf])) (by simp) (by simpa using hl)
        (fun f hf => hd f (by simp [hf]))]
      rw [show (f :: g :: fs).flatMap (genDMethods x) = genDMethods x f ++ (g :: fs).flatMap (genDMethods x) from
        List.flatMap_cons, List.map_append, joinBlocks_append _ _ (genDMethods_ne f)]
      · simp only [linesText_append, String.append_assoc]
      · rw [List.flatMap_cons, List.map_append]
        exact fun h => genDMethods_ne g (List.append_eq_nil_iff.1 h).1

/-- The values of the directives `namespace` and `id`, if they are strings. -/
def stringOf (S : List ASTNode) (name : String) : Option String :=
  match stringDirective S name with
  | .ok s => some s
  | .error _ => none

/-- The rpc section of a schema with methods, `namespace` and `id` is the printed form of its tree. -/
theorem rpc_render (S : List ASTNode) (hs : ∀ f ∈ findFnNodes S, SizedFn f) (hne : findFnNodes S ≠ [])
    (hp : ((findFnNodes S).map (·.position)).Nodup) (ns scope : String)
    (hn : stringDirective S "namespace" = .ok ns) (hi : stringDirective S "id" = .ok scope) :
    rpcMethods x S = .ok (linesText 2 (genClient x ns scope S).render) := by
  unfold rpcMethods
  have hl := List.getLast?_eq_some_getLast hne
  have hd : ∀ f ∈ (findFnNodes S).dropLast, f.position ≠ ((findFnNodes S).getLast hne).position := by
    intro f hf he
    have h1 := List.dropLast_concat_getLast hne
    rw [← h1, List.map_append, List.nodup_append] at hp
    exact hp.2.2 f.position (List.mem_map_of_mem hf) _ (by simp) he
  simp only [hl, hn, hi, new_eq, writeln_wAt, writelnTab_wAt, write_wAt, rpcConstructor_render]
  have hctor : ∀ r : String, (if linesText 2 (((findFnNodes S).flatMap (genConnects x)).map (fun n => (2, n ++ "();"))) = ""
      then wAt 2 (r ++ linesText 2 [(1, x.pascal ns ++ "RpcClient(this._scheduler);")])
      else wAt 2 (r ++ linesText 2 [(1, x.pascal ns ++ "RpcClient(this._scheduler) {")]
        ++ linesText 2 (((findFnNodes S).flatMap (genConnects x)).map (fun n => (2, n ++ "();"))) ++ linesText 2 [(1, "}")]))
      = wAt 2 (r ++ linesText 2 (genClient x ns scope S).renderConstructor) := by
    intro r
    have e1 : "RpcClient(this._scheduler);" = "RpcClient" ++ "(this._scheduler);" := by decide
    have e2 : "RpcClient(this._scheduler) {" = "RpcClient" ++ "(this._scheduler) {" := by decide
    cases hc : (findFnNodes S).flatMap (genConnects x) with
    | nil => simp only [List.map_nil, linesText, if_true, Client.renderConstructor, genClient, hc, e1, String.append_assoc]
    | cons n l =>
      have : linesText 2 ((n :: l).map (fun n => (2, n ++ "();"))) ≠ "" := by
        intro e
        obtain ⟨cs, h⟩ := linesText_ends 2 ((n :: l).map (fun n => (2, n ++ "();"))) (by simp)
        rw [e] at h
        simp at h
      rw [if_neg this]
      simp only [Client.renderConstructor, genClient, hc, linesText_append, e2, String.append_assoc]
  rw [hctor, writeln_wAt, writelnTab_wAt, writelnTab_wAt, foldl_wAt 2 _ _ (fun r f => rpcMembers_render f r),
    foldl_wAt 2 _ _ (fun r f => rpcGetter_render f r), writeln_wAt, rpcDisconnect_render]
  have hsep : ∀ r, (if (findFnNodes S).length > 1 then (wAt 2 r).writeln "" else wAt 2 r)
      = wAt 2 (r ++ linesText 2 (if (genClient x ns scope S).sep then [(0, "")] else [])) := by
    intro r
    by_cases h : (findFnNodes S).length > 1
    · simp only [if_pos h, genClient, decide_eq_true_eq, writeln_wAt]
    · simp only [if_neg h, genClient, decide_eq_true_eq, linesText, String.append_empty]
  rw [write_wAt, hsep, methods_render _ _ hs hne rfl hd]
  simp only [writeln_wAt, show_wAt, Except.ok.injEq]
  simp only [String.empty_append, ← linesText_append]
  refine congrArg (linesText 2) ?_
  have e : ("RpcClient {" : String) = "RpcClient" ++ " {" := by decide
  simp only [Client.render, genClient, List.append_assoc, List.cons_append, List.nil_append, List.map_flatMap,
    List.flatMap_assoc, e, String.append_assoc]

end TPB.Dart
