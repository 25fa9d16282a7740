/- The text of the Rust generator's rpc section is the printed form of the trees of `Sem/RustRpc.lean`. -/
import Verif.Sem.RustRpc
import Verif.Proofs.RustText
namespace TPB.Rust

theorem lit_result : "(" ++ ("result" ++ ");") = "(result);" := by decide
theorem lit_result_call : "result" ++ ".write_to_buffers(bytes_writer);" = "result.write_to_buffers(bytes_writer);" := by
  decide
theorem lit_method_id : "bytes_writer.write_i64(args." ++ ("__method_id__" ++ ");")
    = "bytes_writer.write_i64(args.__method_id__);" := by decide
theorem lit_await : "()" ++ (".await" ++ ";") = "().await;" := by decide
theorem lit_call : "()" ++ ";" = "();" := by decide

theorem BufW.render_status (s : Status) : (BufW.status s).render = "bytes_writer.write_u8(" ++ s.render ++ ");" := rfl
theorem BufW.render_argI64 (f : String) : (BufW.argI64 f).render = "bytes_writer.write_i64(args." ++ f ++ ");" := rfl

theorem write_render_result (t : TypeId) : RustGen.write t "result" false = (genResult t).render := by
  cases t with
  | integer id a b =>
    show "bytes_writer.write_" ++ id ++ "(" ++ "result" ++ ");" = "bytes_writer.write_" ++ id ++ "(result);"
    rw [String.append_assoc, String.append_assoc, lit_result]
  | number id a =>
    show "bytes_writer.write_" ++ id ++ "(" ++ "result" ++ ");" = "bytes_writer.write_" ++ id ++ "(result);"
    rw [String.append_assoc, String.append_assoc, lit_result]
  | bool id =>
    show "bytes_writer.write_" ++ id ++ "(" ++ "result" ++ ");" = "bytes_writer.write_" ++ id ++ "(result);"
    rw [String.append_assoc, String.append_assoc, lit_result]
  | char id =>
    show "bytes_writer.write_" ++ id ++ "(" ++ "result" ++ ");" = "bytes_writer.write_" ++ id ++ "(result);"
    rw [String.append_assoc, String.append_assoc, lit_result]
  | other id => exact lit_result_call
  | generic id gs => exact lit_result_call

theorem rpcWriteResult_render (f : FnNode) (t : Nat) (r : String) :
    RustGen.rpcWriteResult f t (wAt 4 r)
      = wAt 4 (r ++ linesText 4 ((genResults f).map (fun w => (t, w.render)))) := by
  unfold RustGen.rpcWriteResult genResults
  cases f.returnTypeId with
  | none => simp [linesText]
  | some t' => simp only [writelnTab_wAt, write_render_result, List.map_cons, List.map_nil]

/-- The struct model without a default. -/
theorem structModel_plain (n : StructNode) :
    RustGen.structModel n false = linesText 4 (genStructDecl n).render := by
  obtain ⟨id, fields, e, i⟩ := n
  cases fields with
  | nil =>
    simp only [RustGen.structModel, List.isEmpty_nil, if_true, default_eq, writeln_wAt, show_wAt, genStructDecl,
      List.map_nil, Decl.render, Bool.false_eq_true, if_false]
    simp only [linesText_append, String.append_assoc, String.empty_append, linesText, String.append_empty]
  | cons f fs =>
    simp only [RustGen.structModel, List.isEmpty_cons, default_eq, writeln_wAt, write_wAt, show_wAt, genStructDecl,
      List.map_cons, Decl.render, Bool.false_eq_true, if_false, structParameters_render, List.map_map,
      Function.comp_def, if_true]
    simp only [linesText_append, String.append_assoc, String.empty_append, linesText, String.append_empty,
      List.cons_append, List.nil_append]

theorem syncArgs_decl (f : FnNode) (h : f.isAsync = false) : RustGen.syncArgs f = argsNode f := by
  simp [RustGen.syncArgs, argsNode, h]

/-- The generator's type for the method id and the integer type `i64` give the same code. -/
theorem asyncArgs_decl (f : FnNode) (h : f.isAsync = true) :
    genStructDecl (RustGen.asyncArgs f) = genStructDecl (argsNode f) ∧
    genStructImpl (RustGen.asyncArgs f) = genStructImpl (argsNode f) := by
  simp [RustGen.asyncArgs, argsNode, h, genStructDecl, genStructImpl, genTy, genRead, genWrite]

theorem rpcCall_render (f : FnNode) (t : Nat) (aw : Bool) (r : String) :
    RustGen.rpcCall f t (if aw then ".await" else "") (wAt 4 r)
      = wAt 4 (r ++ linesText 4 (renderCall t f.returnTypeId.isSome f.id (f.args.map (·.id)) aw)) := by
  obtain ⟨id, pos, args, ret, ir, ia⟩ := f
  unfold RustGen.rpcCall renderCall
  cases args with
  | nil =>
    cases ret <;>
    simp only [List.isEmpty_nil, if_true, Option.isNone_none, Option.isNone_some, Option.isSome_none,
      Option.isSome_some, Bool.false_eq_true, if_false, writelnTab_wAt, List.map_nil, String.empty_append,
      String.append_assoc]
  | cons a as =>
    simp only [List.isEmpty_cons, Bool.false_eq_true, if_false, List.map_cons]
    cases ret <;>
    simp only [if_true, Option.isNone_none, Option.isNone_some, Option.isSome_none,
      Option.isSome_some, Bool.false_eq_true, if_false, writelnTab_wAt, foldl_line, List.map_map, Function.comp_def,
      linesText_append, String.append_assoc, String.empty_append, List.map_cons]

theorem rpcGetArgs_render (f : FnNode) (r : String) :
    RustGen.rpcGetArgs f (wAt 4 r) = wAt 4 (r ++ linesText 4
      (renderStmts 1 [.letArgs .server .xFF (RustGen.argsStructId f), .blank])) := by
  simp only [RustGen.rpcGetArgs, writeln_wAt, writelnTab_wAt, renderStmts, Stmt.render, RustGen.newDataStatus,
    Status.render, Buf.render, linesText_append, String.append_assoc, linesText, String.append_empty,
    List.append_nil, Nat.reduceAdd]

theorem handler_text (h : Handler) (r : String) :
    ((((wAt 4 r).writeln "").writelnTab 1 h.ret.render).writeln "}")
      = wAt 4 (r ++ linesText 4 [(0, ""), (1, h.ret.render), (0, "}")]) := by
  simp only [writeln_wAt, writelnTab_wAt, linesText, String.append_assoc, String.append_empty]

theorem syncMethod_render (f : FnNode) (h : f.isAsync = false) (hr : f.isRead = false) :
    RustGen.syncMethod f = linesText 4 (genMethod f).render := by
  have hc := rpcCall_render f 2 false
  simp only [Bool.false_eq_true, if_false] at hc
  simp only [RustGen.syncMethod, genMethod, hr, genHandler, h, Bool.false_eq_true, if_false, MethodItem.render,
    ArgsItem.render, Handler.render, genArgs, Sig.render, genSyncBody, genCall, syncArgs_decl f h, structModel_plain,
    structBuffers_render, default_eq, writeln_wAt, writelnTab_wAt, rpcGetArgs_render, RustGen.rpcAck, hc,
    rpcWriteResult_render, show_wAt, writeln_block, RetE.render]
  simp only [String.empty_append, ← linesText_append]
  refine congrArg (linesText 4) ?_
  simp only [renderStmts, Stmt.render, renderBufWrite, List.map_cons, BufW.render_status, BufW.render_argI64, Status.render, Buf.render,
    RustGen.noDataStatus, RustGen.newDataStatus, Nat.reduceAdd, List.append_nil, List.map_nil]
  simp only [List.append_assoc, List.cons_append, List.nil_append, String.append_assoc, List.map_map, Function.comp_def,
    String.empty_append, lit_method_id, lit_await, lit_call]

theorem asyncMethod_render (f : FnNode) (h : f.isAsync = true) (hr : f.isRead = false) :
    RustGen.asyncMethod f = linesText 4 (genMethod f).render := by
  have hc := rpcCall_render f 3 true
  simp only [if_true] at hc
  simp only [RustGen.asyncMethod, genMethod, hr, genHandler, h, Bool.false_eq_true, if_false, if_true, MethodItem.render,
    ArgsItem.render, Handler.render, genArgs, Sig.render, genAsyncBody, genCall, asyncArgs_decl f h, structModel_plain,
    structBuffers_render, default_eq, writeln_wAt, writelnTab_wAt, rpcGetArgs_render, RustGen.rpcAck, hc,
    rpcWriteResult_render, show_wAt, writeln_block, RetE.render]
  simp only [String.empty_append, ← linesText_append]
  refine congrArg (linesText 4) ?_
  simp only [renderStmts, Stmt.render, renderBufWrite, List.map_cons, BufW.render_status, BufW.render_argI64, Status.render, Buf.render,
    RustGen.noDataStatus, RustGen.newDataStatus, Nat.reduceAdd, List.append_nil, List.map_nil]
  simp only [List.append_assoc, List.cons_append, List.nil_append, String.append_assoc, List.map_map, Function.comp_def,
    String.empty_append, lit_method_id, lit_await, lit_call]

theorem syncReadMethod_render (f : FnNode) (h : f.isAsync = false) (hr : f.isRead = true) :
    RustGen.syncReadMethod f = linesText 4 (genMethod f).render := by
  simp only [RustGen.syncReadMethod, genMethod, hr, genHandler, h, Bool.false_eq_true, if_false, if_true, MethodItem.render,
    Handler.render, Sig.render, genSyncReadBody, default_eq, writeln_wAt, writelnTab_wAt, rpcWriteResult_render,
    show_wAt, RetE.render]
  simp only [String.empty_append, ← linesText_append]
  refine congrArg (linesText 4) ?_
  simp only [renderStmts, Stmt.render, renderBufWrite, renderCall, List.map_cons, BufW.render_status, BufW.render_argI64, Status.render, Buf.render,
    RustGen.noDataStatus, RustGen.newDataStatus, Nat.reduceAdd, List.append_nil, List.map_nil, Bool.false_eq_true, if_false, if_true]
  simp only [List.append_assoc, List.cons_append, List.nil_append, String.append_assoc, List.map_map, Function.comp_def,
    String.empty_append, lit_method_id, lit_await, lit_call]

theorem asyncReadMethod_render (f : FnNode) (h : f.isAsync = true) (hr : f.isRead = true) :
    RustGen.asyncReadMethod f = linesText 4 (genMethod f).render := by
  simp only [RustGen.asyncReadMethod, genMethod, hr, genHandler, h, Bool.false_eq_true, if_false, if_true, MethodItem.render,
    Handler.render, Sig.render, genAsyncReadBody, default_eq, writeln_wAt, writelnTab_wAt, rpcWriteResult_render,
    show_wAt, RetE.render]
  simp only [String.empty_append, ← linesText_append]
  refine congrArg (linesText 4) ?_
  simp only [renderStmts, Stmt.render, renderBufWrite, renderCall, List.map_cons, BufW.render_status, BufW.render_argI64, Status.render, Buf.render,
    RustGen.noDataStatus, RustGen.newDataStatus, RustGen.readBusyStatus, RustGen.readFreeStatus,
    Nat.reduceAdd, List.append_nil, List.map_nil, Bool.false_eq_true, if_false, if_true]
  simp only [List.append_assoc, List.cons_append, List.nil_append, String.append_assoc, List.map_map, Function.comp_def,
    String.empty_append, lit_method_id, lit_await, lit_call]

theorem rpcMethod_render (f : FnNode) : RustGen.rpcMethod f = linesText 4 (genMethod f).render := by
  unfold RustGen.rpcMethod
  cases hr : f.isRead <;> cases ha : f.isAsync <;> simp only [Bool.false_eq_true, if_false, if_true]
  · exact syncMethod_render f ha hr
  · exact asyncMethod_render f ha hr
  · exact syncReadMethod_render f ha hr
  · exact asyncReadMethod_render f ha hr

theorem registerItem_render (f : FnNode) (r : String) :
    RustGen.registerItem (wAt 4 r) f = wAt 4 (r ++ linesText 4 (genReg f).render) := by
  unfold RustGen.registerItem RustGen.registerKind genReg Reg.render
  cases f.isRead <;> cases f.isAsync <;>
  simp only [Bool.false_eq_true, if_false, if_true, writelnTab_wAt, Group.render, linesText, String.append_assoc,
    String.append_empty]

theorem MethodItem.render_ne_nil (m : MethodItem) : m.render ≠ [] := by
  simp [MethodItem.render, Handler.render]

/-- The rpc section of a schema with an `id` is the printed form of its tree; without methods it is empty. -/
theorem rpc_render (S : List ASTNode) (hS : findFnNodes S ≠ []) (scope : String) (hs : scopeOf S = some scope) :
    RustGen.rpc S = .ok (linesText 4 (genRpc scope S).render) := by
  have hhas : RustGen.hasRpcMethods S = true := by
    clear hs
    induction S with
    | nil => simp [findFnNodes] at hS
    | cons d S ih => cases d <;> simp [RustGen.hasRpcMethods, findFnNodes] at * <;> exact ih hS
  have hreg : RustGen.registerFn S = .ok (linesText 4 (genRpc scope S).renderRegister) := by
    unfold scopeOf at hs
    unfold RustGen.registerFn
    cases hv : findDirectiveValue S "id" with
    | none => simp [hv] at hs
    | some v =>
      obtain ⟨l, t⟩ := v
      cases l <;> simp [hv] at hs
      subst hs
      simp only [default_eq, writeln_wAt, writelnTab_wAt, foldl_wAt 4 _ _ (fun r x => registerItem_render x r), show_wAt,
        genRpc, RpcSection.renderRegister, List.flatMap_map, String.append_assoc]
      simp only [linesText_append, String.append_assoc, String.empty_append, linesText, String.append_empty]
  have hitem : ∀ r x, RustGen.rpcItem (wAt 4 r) x = wAt 4 (r ++ linesText 4 (match x with
      | .fn f => (genMethod f).render ++ [(0, "")]
      | _ => [])) := by
    intro r x
    cases x with
    | fn f => simp only [RustGen.rpcItem, writeln_wAt, rpcMethod_render, writeln_block]
    | _ => simp [RustGen.rpcItem, linesText]
  unfold RustGen.rpc
  rw [hhas, hreg]
  simp only [Bool.not_true, Bool.false_eq_true, if_false]
  rw [default_eq, writeln_wAt, writeln_block, foldl_wAt 4 _ _ hitem, show_wAt, String.empty_append, ← linesText_append]
  unfold RpcSection.render
  rw [← trimOnce_blocks 4 _ (by
    intro b hb
    rcases List.mem_cons.1 hb with rfl | hb
    · simp [RpcSection.renderRegister]
    · obtain ⟨i, -, rfl⟩ := List.mem_map.1 hb
      exact MethodItem.render_ne_nil i)]
  congr 3
  rw [List.flatMap_cons, List.flatMap_map]
  congr 1
  simp only [genRpc]
  clear hhas hreg hs hS hitem
  induction S with
  | nil => rfl
  | cons d S ih => cases d <;> simp [findFnNodes, ih]

end TPB.Rust
