/-
Property theorems about the emitted Dart RPC client as a compiler sees it: C64.

`DartRpcTyped L items codecs C` are the rules for a file with models, codecs and the client class `C`,
`DartRpcTypable x S ns scope` says in terms of the schema when the client meets them (both in
`Spec/DartRpcTyping.lean`); `L` stands for the imported libraries.
-/
import Verif.Proofs.DartRpcTyping
import Verif.Props.DartTyping
import Verif.Props.RpcClient
import Verif.Proofs.Directives
namespace TPB.Props
open Spec Dart Spec.DartRules

/-- A schema with methods, a namespace and an id. -/
structure HasClient (S : List ASTNode) (ns scope : String) : Prop where
  accepted : Accepted S
  methods : methodsOf S ≠ []
  namespace_ : DirectiveIs S "namespace" ns
  id : DirectiveIs S "id" scope

/-- The sections of the generated Dart file are the text of `P` and `C`. -/
def EmitsDartRpc (x : Ext) (S : List ASTNode) (P : Prog) (C : Client) : Prop := Dart.Emits x S P ∧ Dart.EmitsRpc x S C

theorem emitsDartRpc {x : Ext} {S : List ASTNode} {ns scope : String} (h : HasClient S ns scope) :
    EmitsDartRpc x S (genProg x S) (genClient x ns scope S) := by
  obtain ⟨t, h1⟩ := (directiveIs_iff ..).1 h.namespace_
  obtain ⟨t', h2⟩ := (directiveIs_iff ..).1 h.id
  refine ⟨Dart.emits_genProg h.accepted, emits_genClient h.accepted.wf h.methods ?_ ?_⟩
  · simp [DartGen.stringDirective, h1]
  · simp [DartGen.stringDirective, h2]

/-- **C64 (partial).** Where the Dart models and codecs of a schema are accepted and the types of its methods
can be used in Dart, the file with the client class is accepted by the Dart compiler if and only if the names
of the namespace, methods and arguments are suitable, as described in `DartRpcTypable`.  Missing: the schemas
excluded by this; the theorems below show accepted schemas whose client is rejected. -/
theorem C64_dart_rpc_typed_partial (x : Ext) (L : DartLib) (S : List ASTNode) (ns scope : String) (hS : HasClient S ns scope)
    (hT : DartTypable x (L.hide (x.pascal ns ++ "RpcClient")) S) (hu : RpcTypesUsable (L.hide (x.pascal ns ++ "RpcClient")) S) :
    ∃ P C, EmitsDartRpc x S P C ∧ (DartRpcTyped L P.items P.codecs C ↔ DartRpcTypable x S ns scope) := by
  have hp := plain_of_accepted hS.accepted
  exact ⟨_, _, emitsDartRpc hS, fun h => (client_iff hp hT hu).1 h.2, fun h => ⟨dart_typed hp hT, (client_iff hp hT hu).2 h⟩⟩

/-- The file is emitted and not accepted, whatever the libraries contain. -/
def DartRejects (x : Ext) (S : List ASTNode) : Prop :=
  ∀ L, ∃ P C, EmitsDartRpc x S P C ∧ ¬ DartRpcTyped L P.items P.codecs C

theorem dart_rejects {x : Ext} {S : List ASTNode} {ns scope : String} (hS : HasClient S ns scope)
    (h : ∀ L, ¬ ClientTyped (env x L S ns scope)) : DartRejects x S :=
  fun _ => ⟨_, _, emitsDartRpc hS, fun ht => h _ ht.2⟩

theorem mem_clientNames {x : Ext} {S : List ASTNode} {f : FnNode} (hf : f ∈ methodsOf S) : x.camel f.id ∈ clientNames x S := by
  simp only [clientNames, List.mem_append, List.mem_flatMap]
  cases hr : f.isRead with
  | true => exact .inl (.inr ⟨f, hf, by simp [clientStreams, hr]⟩)
  | false => exact .inr ⟨f, hf, by cases ha : f.isAsync <;> simp [clientMethods, hr, ha]⟩

/-- **C64, refuted: names of methods.** A method whose Dart name is a reserved word, a member of `Object`, or
the name of the client class. -/
theorem C64_method_name (x : Ext) (S : List ASTNode) (ns scope : String) (hS : HasClient S ns scope) (f : FnNode)
    (hf : f ∈ methodsOf S)
    (hn : x.camel f.id ∈ dartReserved ++ ["hashCode", "runtimeType", "noSuchMethod"] ∨ x.camel f.id = x.pascal ns ++ "RpcClient") :
    DartRejects x S :=
  dart_rejects hS fun L h => by
    obtain ⟨h1, h2, h3⟩ := h.names (x.camel f.id) (by rw [classNames_eq]; exact mem_clientNames hf)
    rcases hn with hn | hn
    · rcases List.mem_append.1 hn with hn | hn
      · exact h1.2 hn
      · exact h3.1 hn
    · exact h2 hn

/-- **C64, refuted: repeated names.** Methods whose members in the client class get the same name, such as
`get_a` and `getA`, or a method `disconnect`. -/
theorem C64_repeated (x : Ext) (S : List ASTNode) (ns scope : String) (hS : HasClient S ns scope)
    (hn : ¬ (clientNames x S).Nodup) : DartRejects x S :=
  dart_rejects hS fun L h => hn (by have := h.once; rwa [classNames_eq] at this)

/-- Two methods with one Dart name, or one called `disconnect`, are such schemas. -/
theorem C64_same_name (x : Ext) (S : List ASTNode)
    (hn : ¬ ((methodsOf S).map (fun f => x.camel f.id)).Nodup ∨ ∃ f ∈ methodsOf S, x.camel f.id = "disconnect") :
    ¬ (clientNames x S).Nodup := by
  intro h
  rcases hn with hn | ⟨f, hf, e⟩
  · apply hn
    rw [List.nodup_iff_count] at h ⊢
    intro a
    refine Nat.le_trans ?_ (h a)
    have key : ∀ l : List FnNode, (l.map (fun f => x.camel f.id)).count a
        ≤ (l.flatMap (clientStreams x)).count a + (l.flatMap (clientMethods x)).count a := by
      intro l
      induction l with
      | nil => simp
      | cons f l ih =>
        have h1 : [x.camel f.id].count a ≤ (clientStreams x f).count a + (clientMethods x f).count a := by
          unfold clientStreams clientMethods
          cases f.isRead <;> cases f.isAsync <;> simp [List.count_cons]
        simp only [List.map_cons, List.flatMap_cons, List.count_append]
        rw [show x.camel f.id :: l.map (fun f => x.camel f.id) = [x.camel f.id] ++ l.map (fun f => x.camel f.id) from rfl,
          List.count_append]
        omega
    have := key (methodsOf S)
    simp only [clientNames, List.count_append]
    omega
  · have h' := h
    unfold clientNames at h'
    rw [List.append_assoc, List.append_assoc, List.nodup_append] at h'
    refine h'.2.2 "disconnect" (by simp) "disconnect" ?_ rfl
    have hd : "disconnect" ∈ (methodsOf S).flatMap (clientStreams x) ++ (methodsOf S).flatMap (clientMethods x) := by
      rw [← e]
      simp only [List.mem_append, List.mem_flatMap]
      cases hr : f.isRead with
      | true => exact .inl ⟨f, hf, by simp [clientStreams, hr]⟩
      | false => exact .inr ⟨f, hf, by cases ha : f.isAsync <;> simp [clientMethods, hr, ha]⟩
    exact List.mem_append_right _ hd

/-- **C64, refuted: names of libraries.** A method whose Dart name is `int` or `rotateMethodId` (or `Completer` or
`Future`), next to an asynchronous method, for which the class uses these names. -/
theorem C64_hidden_library (x : Ext) (S : List ASTNode) (ns scope : String) (hS : HasClient S ns scope) (f g : FnNode)
    (hf : f ∈ methodsOf S) (hg : g ∈ methodsOf S) (hr : g.isRead = false) (ha : g.isAsync = true)
    (hn : x.camel f.id ∈ ["int", "rotateMethodId", "Completer", "Future"]) : DartRejects x S :=
  dart_rejects hS fun L h => by
    have hm : x.camel f.id ∈ classNames (genClient x ns scope S) := by rw [classNames_eq]; exact mem_clientNames hf
    have no : ∀ n, (env x L S ns scope).Lib n → x.camel f.id ≠ n := fun n hl e => hl.2 (e ▸ hm)
    have h1 := h.members (.completers (DartGen.varMethodCompleters x g) (retTy g))
      (mem_all_members.2 ⟨g, hg, by simp [genMembers, hr, ha]⟩)
    have h2 := h.methods (genAsync x g) (mem_dmethods.2 ⟨g, hg, by simp [genDMethods, hr, ha]⟩)
    have h3 : (env x L S ns scope).Lib "rotateMethodId" := h2.body.2.2.2.2.1
    simp only [List.mem_cons, List.not_mem_nil, or_false] at hn
    rcases hn with hn | hn | hn | hn
    · exact no _ h1.1 hn
    · exact no _ h3 hn
    · exact no _ h1.2.1 hn
    · exact no _ (h2.ret.2 rfl) hn

/-- **C64, refuted: the client class.** A struct or enum with the name of the client class. -/
theorem C64_client_class (x : Ext) (S : List ASTNode) (ns scope : String) (hS : HasClient S ns scope)
    (hn : x.pascal ns ++ "RpcClient" ∈ dartClasses S) : DartRejects x S :=
  dart_rejects hS fun _ h => h.name.2 ((names_iff (plain_of_accepted hS.accepted) _).2 hn)

/-- **C64, refuted: the id.** An id with a quote or another character that is special in a Dart string. -/
theorem C64_scope (x : Ext) (S : List ASTNode) (ns scope : String) (hS : HasClient S ns scope) (hn : ¬ PlainText scope) :
    DartRejects x S :=
  dart_rejects hS fun _ h => hn h.scope

/-- The method of the client class that takes the arguments. -/
theorem dart_caller {x : Ext} {S : List ASTNode} {f : FnNode} (hf : f ∈ methodsOf S) (hr : f.isRead = false) {L : DartLib}
    {ns scope : String} (h : ClientTyped (env x L S ns scope)) :
    ∃ m, m.params = genParams x f ∧ DMethodTyped (env x L S ns scope) m := by
  cases ha : f.isAsync with
  | true => exact ⟨genAsync x f, rfl, h.methods _ (mem_dmethods.2 ⟨f, hf, by simp [genDMethods, hr, ha]⟩)⟩
  | false => exact ⟨genSync x f, rfl, h.methods _ (mem_dmethods.2 ⟨f, hf, by simp [genDMethods, hr, ha]⟩)⟩

/-- **C64, refuted: names of arguments.** Arguments with the same Dart name, and an argument whose Dart name is a
reserved word or begins with an underscore. -/
theorem C64_argument_name (x : Ext) (S : List ASTNode) (ns scope : String) (hS : HasClient S ns scope) (f : FnNode)
    (hf : f ∈ methodsOf S) (hr : f.isRead = false)
    (hn : ¬ (f.args.map (fun a => x.camel a.id)).Nodup ∨
      ∃ a ∈ f.args, x.camel a.id ∈ dartReserved ∨ (x.camel a.id).toList.head? = some '_') : DartRejects x S :=
  dart_rejects hS fun L h => by
    obtain ⟨m, hp, hm⟩ := dart_caller hf hr h
    obtain ⟨h1, h2⟩ := hm.params
    rcases hn with hn | ⟨a, ha, hn⟩
    · apply hn
      simpa [hp, genParams, Function.comp_def] using h1
    · have := h2 (genTy a.typeId, x.camel a.id) (by rw [hp]; exact List.mem_map.2 ⟨a, ha, rfl⟩)
      rcases hn with hn | hn
      · exact this.1.2 hn
      · exact this.2.1 hn

theorem write_type {L : DartLib} {F : DartFile} {V : List String} {places : List (Acc × Ty)} {t : TypeId} {a : Acc}
    (h : WriteTyped L F V places (genWrite .into t a)) : ∃ T, (a, T) ∈ places ∧ (T = .named "int" → dartTy t = .named "int") := by
  cases t with
  | integer i b c =>
    obtain ⟨T, h, h'⟩ := h
    exact ⟨T, h, fun e => prim_type (t := .integer i b c) rfl h' ▸ e⟩
  | number i b =>
    obtain ⟨T, h, h'⟩ := h
    exact ⟨T, h, fun e => prim_type (t := .number i b) rfl h' ▸ e⟩
  | bool i =>
    obtain ⟨T, h, h'⟩ := h
    exact ⟨T, h, fun e => prim_type (t := .bool i) rfl h' ▸ e⟩
  | char i =>
    obtain ⟨T, h, h'⟩ := h
    exact ⟨T, h, fun e => prim_type (t := .char i) rfl h' ▸ e⟩
  | other id =>
    obtain ⟨-, T, k, h, h'⟩ := h
    exact ⟨T, h, fun e => (codec_type h').symm.trans e⟩
  | generic c gs =>
    obtain ⟨-, T, k, h, h'⟩ := h
    refine ⟨T, h, fun e => ?_⟩
    have : (∃ l n as, genCodecG .into c gs = .generic l n as) ∨ ∃ l a n, genCodecG .into c gs = .list l a n := by
      unfold genCodecG
      split
      · split
        · exact .inr ⟨_, _, _, rfl⟩
        · exact .inl ⟨_, _, _, rfl⟩
      · exact .inl ⟨_, _, _, rfl⟩
    generalize hd : genCodecG .into c gs = d at h' this
    cases h' <;> simp_all

theorem write_place {L : DartLib} {F : DartFile} {V : List String} {places : List (Acc × Ty)} {t : TypeId} {a : Acc}
    (h : DartRules.WriteTyped L F V places (genWrite .into t a)) : ∃ T, (a, T) ∈ places := by
  cases t <;> simp only [genWrite, DartRules.WriteTyped] at h
  case generic => obtain ⟨-, T, -, h, -⟩ := h; exact ⟨T, h⟩
  case other => obtain ⟨-, T, -, h, -⟩ := h; exact ⟨T, h⟩
  all_goals obtain ⟨T, h, -⟩ := h; exact ⟨T, h⟩

/-- **C64, refuted: arguments called like a variable.** An argument whose Dart name is `writer`, `completer` in an
asynchronous method, or `result` in a synchronous method with a result: where it is written, another variable
has the name. -/
theorem C64_argument_hidden (x : Ext) (S : List ASTNode) (ns scope : String) (hS : HasClient S ns scope) (f : FnNode)
    (hf : f ∈ methodsOf S) (hr : f.isRead = false) (a : FnArg) (ha : a ∈ f.args)
    (hn : x.camel a.id = "writer" ∨ (f.isAsync = true ∧ x.camel a.id = "completer") ∨
      (f.isAsync = false ∧ f.returnTypeId ≠ none ∧ x.camel a.id = "result")) : DartRejects x S :=
  dart_rejects hS fun L h => by
    have hw : ∃ w ∈ genArgWrites x f, w = .arg (genWrite .into a.typeId (.var (x.camel a.id))) :=
      ⟨_, List.mem_map.2 ⟨a, ha, rfl⟩, rfl⟩
    obtain ⟨w, hw, rfl⟩ := hw
    cases hy : f.isAsync with
    | true =>
      have hm := h.methods _ (mem_dmethods.2 ⟨f, hf, by simp [genDMethods, hr, hy]⟩ : genAsync x f ∈ _)
      have hb := hm.body.2.2.2.2.2.2.2.1 _ (List.mem_cons_of_mem _ (List.mem_cons_of_mem _ hw))
      obtain ⟨T, hT⟩ := write_place hb
      rw [mem_places] at hT
      simp only [bodyScope, locals_async hy] at hT
      simp only [rpcLocals, hy, if_true, List.map_cons, List.map_nil, List.cons_append, List.nil_append] at hT
      rcases hn with hn | ⟨-, hn⟩ | ⟨hn, -⟩
      · rw [hn] at hT; simp at hT
      · rw [hn] at hT; simp [List.lookup] at hT
      · simp [hy] at hn
    | false =>
      have hm := h.methods _ (mem_dmethods.2 ⟨f, hf, by simp [genDMethods, hr, hy]⟩ : genSync x f ∈ _)
      have hb := hm.body.2.1 _ (List.mem_cons_of_mem _ hw)
      obtain ⟨T, hT⟩ := write_place hb
      rw [mem_places] at hT
      simp only [bodyScope, locals_sync hy] at hT
      rcases hn with hn | ⟨hn, -⟩ | ⟨-, hn', hn⟩
      · rw [hn] at hT; simp at hT
      · simp [hy] at hn
      · simp only [rpcLocals, hy, Bool.false_eq_true, if_false, hn', List.map_cons, List.map_nil, List.cons_append, List.nil_append] at hT
        rw [hn] at hT; simp [List.lookup] at hT

/-- **C64, refuted: the request id.** In an asynchronous method an argument whose Dart name is `methodId` is hidden
by the id of the request; the compiler notices it if the argument is not an integer (for the other case see
`C65_method_id`). -/
theorem C64_method_id (x : Ext) (S : List ASTNode) (ns scope : String) (hS : HasClient S ns scope) (f : FnNode)
    (hf : f ∈ methodsOf S) (hr : f.isRead = false) (hy : f.isAsync = true) (a : FnArg) (ha : a ∈ f.args)
    (hn : x.camel a.id = "methodId") (ht : dartTy a.typeId ≠ .named "int") : DartRejects x S :=
  dart_rejects hS fun L h => by
    have hm := h.methods _ (mem_dmethods.2 ⟨f, hf, by simp [genDMethods, hr, hy]⟩ : genAsync x f ∈ _)
    have hw : .arg (genWrite .into a.typeId (.var (x.camel a.id))) ∈ genArgWrites x f := List.mem_map.2 ⟨a, ha, rfl⟩
    have hb := hm.body.2.2.2.2.2.2.2.1 _ (List.mem_cons_of_mem _ (List.mem_cons_of_mem _ hw))
    obtain ⟨T, hT, hT'⟩ := write_type hb
    rw [mem_places] at hT
    simp only [bodyScope, locals_async hy] at hT
    simp only [rpcLocals, hy, if_true, List.map_cons, List.map_nil, List.cons_append, List.nil_append] at hT
    rw [hn] at hT
    simp [List.lookup] at hT
    exact ht (hT' hT.symm)

/-- **C64, refuted: `to_string`.** Unless it is synchronous, takes no arguments and returns a string, a method
with the Dart name `toString` does not override the one of `Object`. -/
theorem C64_to_string (x : Ext) (S : List ASTNode) (ns scope : String) (hS : HasClient S ns scope) (f : FnNode)
    (hf : f ∈ methodsOf S) (hn : x.camel f.id = "toString")
    (hb : f.isRead = true ∨ f.isAsync = true ∨ f.args ≠ [] ∨ f.returnTypeId ≠ some (.other "String")) : DartRejects x S :=
  dart_rejects hS fun L h => by
    have hp := plain_of_accepted hS.accepted
    have h1 : "toString" ∈ clientNames x S := hn ▸ mem_clientNames hf
    have h2 := (h.names "toString" (by rw [classNames_eq]; exact h1)).2.2.2 rfl
    obtain ⟨k1, k2, k3, k4, -⟩ := (toString_iff (ns := ns) (scope := scope) hp).1 (fun _ => h2) f hf hn
    rcases hb with hb | hb | hb | hb
    · simp [k1] at hb
    · simp [k2] at hb
    · exact hb k3
    · exact hb k4

/-! ### Examples -/

theorem exampleLib_hide : exampleLib.hide "DemoRpcClient" = exampleLib := by
  simp only [exampleLib, DartLib.hide, DartLib.mk.injEq]
  refine ⟨?_, ?_, ?_, ?_, ?_, ?_⟩
  · funext id n
    exact propext ⟨fun h => h.2, fun h => ⟨by rw [h.1]; decide, h⟩⟩
  · funext k id
    exact propext ⟨fun h => h.2.2, fun h => ⟨by rw [h.1]; decide, by rw [h.1, h.2]; decide, h⟩⟩
  · simp
  · funext id
    exact propext ⟨fun h => h.2.2, fun h => ⟨by rw [h]; decide, by rw [h]; decide, h⟩⟩
  · simp
  · funext e t
    exact propext ⟨fun h => h.2.2, fun h => ⟨by rw [h.1]; decide, by rw [h.2]; decide, h⟩⟩

/-- The models of the schema with a struct `Point { x: i32, tags: Vec<String> }` are accepted. -/
theorem rpcSchema_dartTypable : DartTypable testExt exampleLib rpcSchema := by
  refine ⟨by decide +kernel, ?_, ?_, ?_, ?_, ?_, ?_⟩
  · unfold DartTypeName
    decide +kernel
  · intro d hd t ht
    simp only [rpcSchema, List.mem_cons, List.not_mem_nil, or_false] at hd
    rcases hd with rfl | rfl | rfl | rfl | rfl | rfl | rfl | rfl <;> simp [directTypes, fieldsOf] at ht
    rcases ht with rfl | rfl
    · exact ⟨.builtin _ _ rfl, .builtin _ _ rfl⟩
    · exact ⟨.list _ (.lib _ (by decide +kernel) ⟨rfl, rfl⟩), .listLib _ (by decide +kernel) ⟨rfl, rfl⟩⟩
  · intro d hd t ht
    simp only [rpcSchema, List.mem_cons, List.not_mem_nil, or_false] at hd
    rcases hd with rfl | rfl | rfl | rfl | rfl | rfl | rfl | rfl <;> simp [directTypes, fieldsOf] at ht
    rcases ht with rfl | rfl <;> (unfold Free; decide +kernel)
  · intro n hn
    simp only [rpcSchema, List.mem_cons, ASTNode.struct.injEq, reduceCtorEq, List.not_mem_nil, or_false, false_or] at hn
    subst hn
    refine ⟨⟨by decide +kernel, ?_, ?_, by decide +kernel⟩, by unfold Free; decide +kernel⟩
    · unfold MemberName DartName Public; decide +kernel
    · intro f hf
      have : ∀ f ∈ dartFields testExt ⟨"Point", [⟨0, "x", .integer "i32" 4 true⟩, ⟨1, "tags", .generic "Vec" [.other "String"]⟩], true, true⟩,
          f.1 ∉ ["toString", "noSuchMethod", "runtimeType", "hashCode"] := by decide +kernel
      have := this f hf
      refine ⟨fun h => this ?_, fun h => absurd (by simp [h]) this⟩
      simp only [List.mem_cons, List.not_mem_nil, or_false] at h ⊢
      rcases h with h | h | h <;> simp [h]
  · simp [rpcSchema]
  · simp [rpcSchema]

theorem rpcSchema_usable : RpcTypesUsable exampleLib rpcSchema := by
  have hp : "Point" ∈ typeNames rpcSchema := by decide
  have hpt : DartTypeExists exampleLib rpcSchema (.other "Point") ∧ DartUsable exampleLib rpcSchema (.other "Point") :=
    ⟨.own _ hp, .own _ hp⟩
  have hi : DartTypeExists exampleLib rpcSchema (.integer "i64" 8 true) ∧ DartUsable exampleLib rpcSchema (.integer "i64" 8 true) :=
    ⟨.builtin _ _ rfl, .builtin _ _ rfl⟩
  intro f hf
  simp only [rpcSchema, methodsOf, List.filterMap_cons, List.filterMap_nil, List.mem_cons, List.not_mem_nil, or_false] at hf
  rcases hf with rfl | rfl | rfl | rfl | rfl <;> simp [hpt, hi]

theorem rpcSchema_rpcTypable : DartRpcTypable testExt rpcSchema "demo" "8b61" where
  name := by unfold DartTypeName; decide +kernel
  scope := by unfold PlainText; decide +kernel
  once := by decide +kernel
  names := by unfold DartName; decide +kernel
  toString := by
    have : ∀ f ∈ methodsOf rpcSchema, testExt.camel f.id ≠ "toString" := by decide +kernel
    exact fun f hf h => absurd h (this f hf)
  numbers := by decide +kernel
  uses := by unfold Free; decide +kernel
  args := by unfold Free; decide +kernel
  results := by unfold Free; decide +kernel
  bodies := by
    have h1 : ∀ f ∈ methodsOf rpcSchema, ∀ a ∈ f.args, testExt.camel a.id ∉ rpcLocals f := by decide +kernel
    have h0 : ∀ f ∈ methodsOf rpcSchema, ∀ a ∈ f.args, testExt.camel a.id ≠ "writer" := by decide +kernel
    intro f hf hr
    constructor
    · revert f; decide +kernel
    · unfold DartName Public; revert f; decide +kernel
    · exact fun a ha => ⟨h0 f hf a ha, fun h => absurd h (h1 f hf a ha)⟩
    · unfold Free; revert f; decide +kernel
    · unfold Free; revert f; decide +kernel
    · unfold Free; revert f; decide +kernel
  readers := by unfold Free; decide +kernel

theorem rpcSchema_hasClient : HasClient rpcSchema "demo" "8b61" :=
  ⟨rpcSchema_accepted, rpcSchema_methods, (directiveIs_iff ..).2 ⟨_, rfl⟩, (directiveIs_iff ..).2 ⟨_, rfl⟩⟩

/-- The client of the example schema is accepted. -/
example : ∃ P C, EmitsDartRpc testExt rpcSchema P C ∧ DartRpcTyped exampleLib P.items P.codecs C := by
  have e : testExt.pascal "demo" ++ "RpcClient" = "DemoRpcClient" := by decide +kernel
  obtain ⟨P, C, h1, h2⟩ := C64_dart_rpc_typed_partial testExt exampleLib rpcSchema "demo" "8b61" rpcSchema_hasClient
    (by rw [e, exampleLib_hide]; exact rpcSchema_dartTypable) (by rw [e, exampleLib_hide]; exact rpcSchema_usable)
  exact ⟨P, C, h1, h2.2 rpcSchema_rpcTypable⟩

/-- A schema with the namespace `demo`, the given id and the given methods, and a struct. -/
def clientSchema (id : String) (fs : List FnNode) (s : String) : List ASTNode :=
  [.directive (.value "namespace" ⟨.str "demo", .other "String"⟩), .directive (.value "id" ⟨.str id, .other "String"⟩)]
    ++ fs.map .fn ++ [.struct ⟨s, [], true, true⟩]

/-- `fn is();`, `fn get_a(); fn getA();`, `read disconnect -> i64;`, `async fn int();`,
`fn a(b_c: i64, bC: i64);`, `fn a(in: i64);`, `async fn a(completer: i64);`, `fn a(result: i64) -> i64;`,
`async fn a(method_id: String);`, `async fn to_string() -> String;` and `fn a();` -/
def badClients : List (List FnNode) :=
  [[⟨"is", 0, [], none, false, false⟩],
   [⟨"get_a", 0, [], none, false, false⟩, ⟨"getA", 1, [], none, false, false⟩],
   [⟨"disconnect", 0, [], some (.integer "i64" 8 true), true, false⟩],
   [⟨"int", 0, [], none, false, true⟩],
   [⟨"a", 0, [⟨"b_c", .integer "i64" 8 true⟩, ⟨"bC", .integer "i64" 8 true⟩], none, false, false⟩],
   [⟨"a", 0, [⟨"in", .integer "i64" 8 true⟩], none, false, false⟩],
   [⟨"a", 0, [⟨"completer", .integer "i64" 8 true⟩], none, false, true⟩],
   [⟨"a", 0, [⟨"result", .integer "i64" 8 true⟩], some (.integer "i64" 8 true), false, false⟩],
   [⟨"a", 0, [⟨"method_id", .other "String"⟩], none, false, true⟩],
   [⟨"to_string", 0, [], some (.other "String"), false, true⟩],
   [⟨"a", 0, [], none, false, false⟩]]

theorem badClients_hasClient (id s : String) : ∀ fs ∈ badClients, HasClient (clientSchema id fs s) "demo" id := by
  have hi : WFType (.integer "i64" 8 true) := .name "i64"
  have hs : WFType (.other "String") := .name "String"
  have key : ∀ fs ∈ badClients, WFSchema 0 (clientSchema id fs s) := by
    intro fs hfs
    simp only [badClients, List.mem_cons, List.not_mem_nil, or_false] at hfs
    rcases hfs with rfl | rfl | rfl | rfl | rfl | rfl | rfl | rfl | rfl | rfl | rfl <;>
      simp [clientSchema, WFSchema, WFDecl, WFConst, WFFields, fnCount, hi, hs] <;> exact ⟨rfl, rfl, by simp [PosOk]⟩
  intro fs hfs
  refine ⟨?_, ?_, ?_, ?_⟩
  · obtain ⟨ts, _, h⟩ := C09_every_schema _ (key fs hfs)
    exact ⟨_, h⟩
  · simp only [badClients, List.mem_cons, List.not_mem_nil, or_false] at hfs
    rcases hfs with rfl | rfl | rfl | rfl | rfl | rfl | rfl | rfl | rfl | rfl | rfl <;> simp [clientSchema, methodsOf]
  · simp only [badClients, List.mem_cons, List.not_mem_nil, or_false] at hfs
    rcases hfs with rfl | rfl | rfl | rfl | rfl | rfl | rfl | rfl | rfl | rfl | rfl <;> exact (directiveIs_iff ..).2 ⟨_, rfl⟩
  · simp only [badClients, List.mem_cons, List.not_mem_nil, or_false] at hfs
    rcases hfs with rfl | rfl | rfl | rfl | rfl | rfl | rfl | rfl | rfl | rfl | rfl <;> exact (directiveIs_iff ..).2 ⟨_, rfl⟩

example : ∀ fs ∈ badClients.dropLast, DartRejects testExt (clientSchema "8b61" fs "S") := by
  intro fs hfs
  have h := badClients_hasClient "8b61" "S" fs (List.dropLast_subset _ hfs)
  simp only [badClients, List.dropLast, List.mem_cons, List.not_mem_nil, or_false] at hfs
  rcases hfs with rfl | rfl | rfl | rfl | rfl | rfl | rfl | rfl | rfl | rfl
  · exact C64_method_name _ _ _ _ h _ (List.mem_singleton.2 rfl) (.inl (by decide +kernel))
  · exact C64_repeated _ _ _ _ h (C64_same_name _ _ (.inl (by decide +kernel)))
  · exact C64_repeated _ _ _ _ h (C64_same_name _ _ (.inr ⟨_, List.mem_singleton.2 rfl, by decide +kernel⟩))
  · exact C64_hidden_library _ _ _ _ h _ _ (List.mem_singleton.2 rfl) (List.mem_singleton.2 rfl) rfl rfl (by decide +kernel)
  · exact C64_argument_name _ _ _ _ h _ (List.mem_singleton.2 rfl) rfl (.inl (by decide +kernel))
  · exact C64_argument_name _ _ _ _ h _ (List.mem_singleton.2 rfl) rfl (.inr ⟨_, List.mem_singleton.2 rfl, .inl (by decide +kernel)⟩)
  · exact C64_argument_hidden _ _ _ _ h _ (List.mem_singleton.2 rfl) rfl _ (List.mem_singleton.2 rfl) (.inr (.inl ⟨rfl, by decide +kernel⟩))
  · exact C64_argument_hidden _ _ _ _ h _ (List.mem_singleton.2 rfl) rfl _ (List.mem_singleton.2 rfl)
      (.inr (.inr ⟨rfl, by simp, by decide +kernel⟩))
  · exact C64_method_id _ _ _ _ h _ (List.mem_singleton.2 rfl) rfl rfl _ (List.mem_singleton.2 rfl) (by decide +kernel) (by simp [dartTy])
  · exact C64_to_string _ _ _ _ h _ (List.mem_singleton.2 rfl) (by decide +kernel) (.inr (.inl rfl))

example : DartRejects testExt (clientSchema "8b61" [⟨"a", 0, [], none, false, false⟩] "DemoRpcClient") :=
  C64_client_class _ _ _ _ (badClients_hasClient _ _ _ (by simp [badClients])) (by decide +kernel)

example : DartRejects testExt (clientSchema "it's" [⟨"a", 0, [], none, false, false⟩] "S") :=
  C64_scope _ _ _ _ (badClients_hasClient _ _ _ (by simp [badClients])) (by unfold PlainText; decide +kernel)

end TPB.Props
