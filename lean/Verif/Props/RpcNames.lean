/- C50: the names that are generated for methods. -/
import Verif.Props.RpcClient
namespace TPB.Props
open Spec

/-- The name of the function that is emitted for a method. -/
def handlerFn (m : Rust.MethodItem) : String := m.handler.fn ++ "_rpc_handler"

/-- The name of the struct that is emitted for the arguments of a method, if there is one, at its declaration
and at its `impl`. -/
def argsStructs (m : Rust.MethodItem) : List String :=
  match m.args with
  | some a => [match a.decl with
      | .struct id _ => id
      | .enum id _ => id, a.impl.id]
  | none => []

theorem argsStructs_genMethod (f : FnNode) :
    argsStructs (Rust.genMethod f) = if f.isRead then [] else [argsName f, argsName f] := by
  unfold argsStructs Rust.genMethod Rust.genArgs
  cases f.isRead
  · simp only [Rust.genStructDecl, Rust.genStructImpl, Rust.argsNode_id]
    cases (Rust.argsNode f).fields <;> rfl
  · rfl

/-- **C50, Rust.** In the rpc section that is emitted for a schema, the methods have one item each, in order;
the items of two methods with different names have different handler functions and different argument
structs, whatever the names are. -/
theorem C50_rust (S : List ASTNode) (hA : Accepted S) (out : String) (h : RustGen.rpc S = .ok out) (hM : methodsOf S ≠ []) :
    ∃ R, Rust.EmitsRpc S R ∧ R.methods.length = (methodsOf S).length ∧
      ∀ (i j : Nat) (f g : FnNode) (a b : Rust.MethodItem), (methodsOf S)[i]? = some f → (methodsOf S)[j]? = some g → R.methods[i]? = some a →
        R.methods[j]? = some b → f.id ≠ g.id →
        handlerFn a ≠ handlerFn b ∧ ∀ s ∈ argsStructs a, s ∉ argsStructs b := by
  obtain ⟨scope, hE⟩ := Rust.emitsRpc_of hA.wf h hM
  refine ⟨_, hE, by simp [Rust.genRpc, findFnNodes_eq], ?_⟩
  intro i j f g a b hf hg ha hb hne
  simp only [Rust.genRpc, findFnNodes_eq, List.getElem?_map, hf, hg, Option.map_some, Option.some.injEq] at ha hb
  subst ha hb
  constructor
  · intro e
    unfold handlerFn Rust.genMethod at e
    rw [Rust.genHandler_fn, Rust.genHandler_fn] at e
    have e := congrArg String.toList e
    simp only [String.toList_append, List.append_cancel_right_eq] at e
    exact hne (String.toList_inj.1 e)
  · intro s hs hs'
    rw [argsStructs_genMethod] at hs hs'
    cases hrf : f.isRead <;> cases hrg : g.isRead <;> simp [hrf, hrg] at hs hs'
    exact hne (Rust.argsName_inj (hs.symm.trans hs'))

/-- The handler of a method can have the name of another method: handlers and the user's functions share a
namespace, and the file calls both by their names. -/
theorem C50_rust_handler_is_method (f : FnNode) :
    handlerFn (Rust.genMethod f) = (Rust.genMethod { f with id := f.id ++ "_rpc_handler" }).handler.fn := by
  unfold handlerFn Rust.genMethod
  rw [Rust.genHandler_fn, Rust.genHandler_fn]

/-- All members of the client class that belong to a method. -/
def dartNames (x : Ext) (f : FnNode) : List String := clientFields x f ++ clientStreams x f ++ clientMethods x f

theorem mem_dartNames {x : Ext} {f : FnNode} {n : String} (h : n ∈ dartNames x f) :
    n = "_last" ++ x.pascal f.id ++ "MethodId" ∨ n = "_" ++ x.camel f.id ++ "Completers" ∨
    n = "_read" ++ x.pascal f.id ++ "Task" ∨ n = "_read" ++ x.pascal f.id ++ "StreamController" ∨
    n = "_connect" ++ x.pascal f.id ∨ n = x.camel f.id := by
  unfold dartNames clientFields clientStreams clientMethods at h
  cases f.isRead <;> cases f.isAsync <;> simp at h <;> grind

theorem mid_inj {a b u v : String} (h : a ++ u ++ b = a ++ v ++ b) : u = v := by
  have h := congrArg String.toList h
  simp only [String.toList_append, List.append_assoc, List.append_cancel_left_eq, List.append_cancel_right_eq] at h
  exact String.toList_inj.1 h

theorem post_inj {a u v : String} (h : a ++ u = a ++ v) : u = v := by
  have h := congrArg String.toList h
  simp only [String.toList_append, List.append_cancel_left_eq] at h
  exact String.toList_inj.1 h

theorem suffix_ne {a b : String} {c d : Char} {s t : List Char} {e f : String} (he : e.toList = s ++ [c]) (hf : f.toList = t ++ [d])
    (h : a ++ e = b ++ f) : c = d := by
  have h := congrArg (fun s => s.toList.getLast?) h
  simpa [String.toList_append, he, hf, ← List.append_assoc] using h

/-- Two methods whose names do not become the same in Dart. -/
structure DartApart (x : Ext) (f g : FnNode) : Prop where
  camel : x.camel f.id ≠ x.camel g.id
  pascal : x.pascal f.id ≠ x.pascal g.id
  connect : x.camel f.id ++ "Completers" ≠ "connect" ++ x.pascal g.id
  connect' : x.camel g.id ++ "Completers" ≠ "connect" ++ x.pascal f.id
  first : (x.camel f.id).toList.head? ≠ some '_' ∧ (x.camel g.id).toList.head? ≠ some '_'

/-- **C50, Dart, part.** Every member of the emitted client class belongs to a method or is one of three fixed
ones; two methods whose names do not become the same in Dart have no member name in common.  Missing: the Dart
forms of two different names may be the same (`C50_dart_case_clash`), and so may the helper of one method and
the helper of another kind of another method (`C50_dart_completers_clash`). -/
theorem C50_dart_partial (x : Ext) (S : List ASTNode) (hA : Accepted S) (hM : methodsOf S ≠ []) (out : String)
    (h : DartGen.rpcMethods x S = .ok out) :
    ∃ C, Dart.EmitsRpc x S C ∧
      (∀ n, n ∈ C.names ↔ n ∈ ["_scheduler", "_scopeId", "disconnect"] ∨ ∃ f ∈ methodsOf S, n ∈ dartNames x f) ∧
      ∀ f ∈ methodsOf S, ∀ g ∈ methodsOf S, DartApart x f g → ∀ n ∈ dartNames x f, n ∉ dartNames x g := by
  obtain ⟨ns, scope, hC, hs⟩ := Dart.emitsRpc_of hA.wf hM h
  refine ⟨_, hC, ?_, ?_⟩
  · intro n
    rw [Dart.genClient_names]
    simp only [dartNames, List.mem_append, List.mem_flatMap]
    grind
  · intro f _ g _ hap n hn hn'
    obtain ⟨h1, h2, h3, h4, h5, h6⟩ := hap
    have second : ∀ {a b : String}, a = b → a.toList[1]? = b.toList[1]? := fun h => by rw [h]
    rcases mem_dartNames hn with rfl | rfl | rfl | rfl | rfl | rfl <;>
      rcases mem_dartNames hn' with e | e | e | e | e | e <;>
      first
        | exact h2 (mid_inj e)
        | exact h1 (mid_inj e)
        | exact h2 (post_inj e)
        | exact h1 e
        | (refine absurd (suffix_ne (List.dropLast_concat_getLast (l := String.toList _) ?_).symm
            (List.dropLast_concat_getLast (l := String.toList _) ?_).symm e) ?_ <;> decide)
        | (have := second e; simp [String.toList_append] at this; done)
        | (rw [e] at h5; simp at h5; done)
        | (rw [← e] at h6; simp at h6; done)
        | (refine h3 (post_inj (a := "_") ?_); rw [← String.append_assoc, ← String.append_assoc]; exact e)
        | (refine h4 (post_inj (a := "_") ?_); rw [← String.append_assoc, ← String.append_assoc]; exact e.symm)

/-- A schema with two methods. -/
def twoMethods (a b : String) (async : Bool) : List ASTNode :=
  [.directive (.value "namespace" ⟨.str "demo", .other "String"⟩), .directive (.value "id" ⟨.str "8b61", .other "String"⟩),
   .fn ⟨a, 0, [], none, false, async⟩, .fn ⟨b, 1, [], none, false, async⟩]

theorem twoMethods_accepted (a b : String) (async : Bool) : Accepted (twoMethods a b async) := by
  have h : WFSchema 0 (twoMethods a b async) := by
    simp [twoMethods, WFSchema, WFDecl, WFConst, fnCount]
    exact ⟨rfl, rfl⟩
  obtain ⟨ts, _, h⟩ := C09_every_schema _ h
  exact ⟨_, h⟩

theorem twoMethods_emits (a b : String) (async : Bool) :
    Dart.EmitsRpc testExt (twoMethods a b async) (Dart.genClient testExt "demo" "8b61" (twoMethods a b async)) := by
  exact Dart.emits_genClient (twoMethods_accepted a b async).wf (by simp [twoMethods, methodsOf]) rfl rfl

/-- **C50 fails for Dart.** Two methods `get_user` and `getUser` are both emitted as `getUser`. -/
theorem C50_dart_case_clash : ∃ S C, Accepted S ∧ (methodsOf S).map (·.id) = ["get_user", "getUser"] ∧
    Dart.EmitsRpc testExt S C ∧ C.methods.map (·.name) = ["getUser", "getUser"] :=
  ⟨_, _, twoMethods_accepted "get_user" "getUser" false, rfl, twoMethods_emits _ _ _, by decide +kernel⟩

/-- **C50 fails for Dart.** The map of completers of the asynchronous method `connect_x` and the method that
connects `x_completers` have the same name, although the two methods have different names in Dart, too. -/
theorem C50_dart_completers_clash : ∃ S C, Accepted S ∧ (methodsOf S).map (·.id) = ["connect_x", "x_completers"] ∧
    Dart.EmitsRpc testExt S C ∧ "_connectXCompleters" ∈ C.members.filterMap Dart.Member.name? ∧
    "_connectXCompleters" ∈ C.methods.map (·.name) ∧
    toCamel "connect_x" ≠ toCamel "x_completers" ∧ toPascal "connect_x" ≠ toPascal "x_completers" :=
  ⟨_, _, twoMethods_accepted "connect_x" "x_completers" true, rfl, twoMethods_emits _ _ _, by decide +kernel, by decide +kernel,
    by decide +kernel, by decide +kernel⟩

/-- The kinds of methods that have helpers of their own in the client class. -/
def HasHelpers (f : FnNode) : Prop := f.isRead = true ∨ f.isAsync = true

/-- The kind of methods that have a map of completers in the client class. -/
def HasCompleters (f : FnNode) : Prop := f.isRead = false ∧ f.isAsync = true

/-- The names of two methods become the same in Dart, or their helpers' names do. -/
def DartClash (x : Ext) (f g : FnNode) : Prop :=
  x.camel f.id = x.camel g.id ∨
  (HasHelpers f ∧ HasHelpers g ∧ x.pascal f.id = x.pascal g.id) ∨
  (HasCompleters f ∧ HasHelpers g ∧ x.camel f.id ++ "Completers" = "connect" ++ x.pascal g.id) ∨
  (HasCompleters g ∧ HasHelpers f ∧ x.camel g.id ++ "Completers" = "connect" ++ x.pascal f.id)

theorem helper_of_mem {x : Ext} {f : FnNode} {n : String} (h : n ∈ dartNames x f) :
    n = x.camel f.id ∨ (HasHelpers f ∧ (n = "_last" ++ x.pascal f.id ++ "MethodId" ∨
      n = "_read" ++ x.pascal f.id ++ "Task" ∨ n = "_read" ++ x.pascal f.id ++ "StreamController" ∨
      n = "_connect" ++ x.pascal f.id)) ∨ (HasCompleters f ∧ n = "_" ++ x.camel f.id ++ "Completers") := by
  unfold dartNames clientFields clientStreams clientMethods at h
  cases hr : f.isRead <;> cases ha : f.isAsync <;> simp [hr, ha] at h <;> simp [HasHelpers, HasCompleters, hr, ha] <;> grind

theorem camel_mem (x : Ext) (f : FnNode) : x.camel f.id ∈ dartNames x f := by
  unfold dartNames clientFields clientStreams clientMethods
  cases f.isRead <;> cases f.isAsync <;> simp

theorem task_mem (x : Ext) {f : FnNode} (h : HasHelpers f) :
    "_read" ++ x.pascal f.id ++ "Task" ∈ dartNames x f ∧ "_connect" ++ x.pascal f.id ∈ dartNames x f := by
  unfold dartNames clientFields clientStreams clientMethods
  cases hr : f.isRead <;> cases ha : f.isAsync <;> simp [HasHelpers, hr, ha] at h ⊢

theorem completers_mem (x : Ext) {f : FnNode} (h : HasCompleters f) :
    "_" ++ x.camel f.id ++ "Completers" ∈ dartNames x f := by
  unfold dartNames clientFields clientStreams clientMethods
  simp [h.1, h.2]

/-- Two methods have a member name in common exactly if they clash. -/
theorem dart_clash_iff (x : Ext) (f g : FnNode) (hf : (x.camel f.id).toList.head? ≠ some '_')
    (hg : (x.camel g.id).toList.head? ≠ some '_') :
    (∃ n, n ∈ dartNames x f ∧ n ∈ dartNames x g) ↔ DartClash x f g := by
  constructor
  · rintro ⟨n, hn, hn'⟩
    have second : ∀ {a b : String}, a = b → a.toList[1]? = b.toList[1]? := fun h => by rw [h]
    rcases helper_of_mem hn with rfl | ⟨h1, rfl | rfl | rfl | rfl⟩ | ⟨h1, rfl⟩ <;>
      rcases helper_of_mem hn' with e | ⟨h2, e | e | e | e⟩ | ⟨h2, e⟩ <;>
      first
        | exact .inl e
        | exact .inr (.inl ⟨h1, h2, mid_inj e⟩)
        | exact .inr (.inl ⟨h1, h2, post_inj e⟩)
        | exact .inl (mid_inj e)
        | (exfalso; refine absurd (suffix_ne (List.dropLast_concat_getLast (l := String.toList _) ?_).symm
            (List.dropLast_concat_getLast (l := String.toList _) ?_).symm e) ?_ <;> decide)
        | (have := second e; simp [String.toList_append] at this; done)
        | (rw [e] at hf; simp at hf; done)
        | (rw [← e] at hg; simp at hg; done)
        | (refine .inr (.inr (.inl ⟨h1, h2, post_inj (a := "_") ?_⟩)); rw [← String.append_assoc, ← String.append_assoc]; exact e)
        | (refine .inr (.inr (.inr ⟨h2, h1, post_inj (a := "_") ?_⟩)); rw [← String.append_assoc, ← String.append_assoc]; exact e.symm)
  · rintro (e | ⟨h1, h2, e⟩ | ⟨h1, h2, e⟩ | ⟨h1, h2, e⟩)
    · exact ⟨_, camel_mem x f, e ▸ camel_mem x g⟩
    · exact ⟨_, (task_mem x h1).1, e ▸ (task_mem x h2).1⟩
    · refine ⟨_, completers_mem x h1, ?_⟩
      have := (task_mem x h2).2
      rw [show ("_connect" : String) = "_" ++ "connect" from rfl, String.append_assoc, ← e, ← String.append_assoc] at this
      exact this
    · refine ⟨_, ?_, completers_mem x h1⟩
      have := (task_mem x h2).2
      rw [show ("_connect" : String) = "_" ++ "connect" from rfl, String.append_assoc, ← e, ← String.append_assoc] at this
      exact this

theorem flatMap_three {α β : Type} (a b c : α → List β) (xs : List α) :
    (xs.flatMap a ++ xs.flatMap b ++ xs.flatMap c).Perm (xs.flatMap (fun x => a x ++ b x ++ c x)) := by
  induction xs with
  | nil => simp
  | cons x xs ih =>
    simp only [List.flatMap_cons]
    have h1 : (a x ++ xs.flatMap a ++ (b x ++ xs.flatMap b) ++ (c x ++ xs.flatMap c)).Perm
        (a x ++ b x ++ c x ++ (xs.flatMap a ++ xs.flatMap b ++ xs.flatMap c)) := by
      simp only [List.append_assoc, List.perm_append_left_iff]
      refine (List.perm_append_comm_assoc _ _ _).trans ?_
      simp only [List.perm_append_left_iff]
      have : (xs.flatMap a ++ (xs.flatMap b ++ (c x ++ xs.flatMap c))).Perm (c x ++ (xs.flatMap a ++ (xs.flatMap b ++ xs.flatMap c))) := by
        rw [← List.append_assoc (xs.flatMap a)]
        refine (List.perm_append_comm_assoc _ _ _).trans ?_
        simp
      exact this
    exact h1.trans (ih.append_left _)

/-- The members of one method have different names. -/
theorem own_nodup (x : Ext) (f : FnNode) (hf : (x.camel f.id).toList.head? ≠ some '_') :
    (dartNames x f).Nodup ↔ ¬ (HasCompleters f ∧ x.camel f.id ++ "Completers" = "connect" ++ x.pascal f.id) := by
  have second : ∀ {a b : String}, a = b → a.toList[1]? = b.toList[1]? := fun h => by rw [h]
  have n1 : ∀ s t : String, "_" ++ s ++ t ≠ x.camel f.id := fun s t e => by rw [← e] at hf; simp at hf
  have n2 : ∀ s t : String, "_read" ++ s ++ t ≠ x.camel f.id := fun s t e => by rw [← e] at hf; simp at hf
  have n3 : ∀ s t : String, "_last" ++ s ++ t ≠ x.camel f.id := fun s t e => by rw [← e] at hf; simp at hf
  have n4 : ∀ s : String, "_connect" ++ s ≠ x.camel f.id := fun s e => by rw [← e] at hf; simp at hf
  have e1 : "_read" ++ x.pascal f.id ++ "Task" ≠ "_read" ++ x.pascal f.id ++ "StreamController" := by
    intro e
    refine absurd (suffix_ne (List.dropLast_concat_getLast (l := String.toList _) ?_).symm
            (List.dropLast_concat_getLast (l := String.toList _) ?_).symm e) ?_ <;> decide
  have e2 : "_last" ++ x.pascal f.id ++ "MethodId" ≠ "_" ++ x.camel f.id ++ "Completers" := by
    intro e
    refine absurd (suffix_ne (List.dropLast_concat_getLast (l := String.toList _) ?_).symm
            (List.dropLast_concat_getLast (l := String.toList _) ?_).symm e) ?_ <;> decide
  have e3 : "_last" ++ x.pascal f.id ++ "MethodId" ≠ "_read" ++ x.pascal f.id ++ "Task" := by
    intro e; have := second e; simp [String.toList_append] at this
  have e4 : "_" ++ x.camel f.id ++ "Completers" ≠ "_read" ++ x.pascal f.id ++ "Task" := by
    intro e
    refine absurd (suffix_ne (List.dropLast_concat_getLast (l := String.toList _) ?_).symm
            (List.dropLast_concat_getLast (l := String.toList _) ?_).symm e) ?_ <;> decide
  have e5 : ∀ s t : String, "_read" ++ s ++ t ≠ "_connect" ++ x.pascal f.id := by
    intro s t e; have := second e; simp [String.toList_append] at this
  have e6 : ∀ s t : String, "_last" ++ s ++ t ≠ "_connect" ++ x.pascal f.id := by
    intro s t e; have := second e; simp [String.toList_append] at this
  have e7 : "_" ++ x.camel f.id ++ "Completers" = "_connect" ++ x.pascal f.id ↔ x.camel f.id ++ "Completers" = "connect" ++ x.pascal f.id := by
    rw [show ("_connect" : String) = "_" ++ "connect" from rfl, String.append_assoc, String.append_assoc]
    exact ⟨post_inj, fun e => by rw [e]⟩
  unfold dartNames clientFields clientStreams clientMethods
  cases hr : f.isRead <;> cases ha : f.isAsync <;>
    simp [HasCompleters, hr, ha, n1, n2, n3, n4, e1, e2, e3, e4, e5, e6, e7, Ne.symm (n4 _)]

/-- A member of a method has the name of a fixed member. -/
theorem fixed_apart (x : Ext) (f : FnNode) (hf : (x.camel f.id).toList.head? ≠ some '_') :
    (∃ n, n ∈ ["_scheduler", "_scopeId", "disconnect"] ∧ n ∈ dartNames x f) ↔ x.camel f.id = "disconnect" := by
  have second : ∀ {a b : String}, a = b → a.toList[1]? = b.toList[1]? := fun h => by rw [h]
  have first : ∀ {a b : String}, a = b → a.toList[0]? = b.toList[0]? := fun h => by rw [h]
  have last : ∀ {a b : String}, a = b → a.toList.getLast? = b.toList.getLast? := fun h => by rw [h]
  constructor
  · rintro ⟨n, hn, hn'⟩
    simp only [List.mem_cons, List.not_mem_nil, or_false] at hn
    rcases hn with rfl | rfl | rfl <;> rcases helper_of_mem hn' with e | ⟨h2, e | e | e | e⟩ | ⟨h2, e⟩ <;>
      first
        | exact e.symm
        | (rw [← e] at hf; simp at hf; done)
        | (have := first e; simp [String.toList_append] at this; done)
        | (have := second e; simp [String.toList_append] at this; done)
        | (have := last e; simp only [String.toList_append, List.getLast?_append] at this; simp at this; done)
  · intro e
    exact ⟨_, by simp, e ▸ camel_mem x f⟩

theorem nodup_flatMap_iff {α β : Type} (f : α → List β) (xs : List α) :
    (xs.flatMap f).Nodup ↔ (∀ x ∈ xs, (f x).Nodup) ∧ xs.Pairwise (fun x y => ¬ ∃ n, n ∈ f x ∧ n ∈ f y) := by
  induction xs with
  | nil => simp
  | cons x xs ih =>
    simp only [List.flatMap_cons, List.nodup_append, ih, List.mem_flatMap, List.mem_cons, forall_eq_or_imp, List.pairwise_cons]
    grind

/-- **C50, Dart, part: the exact condition.** The emitted client class declares every name once exactly if no two
methods clash, no method is called `disconnect` in Dart, and no map of completers has the name of the method that
connects it.  Missing: the property is false for the other schemas; names that begin with an underscore. -/
theorem C50_dart_iff_partial (x : Ext) (S : List ASTNode) (hA : Accepted S) (hM : methodsOf S ≠ []) (out : String)
    (h : DartGen.rpcMethods x S = .ok out) (hfirst : ∀ f ∈ methodsOf S, (x.camel f.id).toList.head? ≠ some '_') :
    ∃ C, Dart.EmitsRpc x S C ∧
      (C.names.Nodup ↔ (methodsOf S).Pairwise (fun f g => ¬ DartClash x f g) ∧
        ∀ f ∈ methodsOf S, x.camel f.id ≠ "disconnect" ∧
          ¬ (HasCompleters f ∧ x.camel f.id ++ "Completers" = "connect" ++ x.pascal f.id)) := by
  obtain ⟨ns, scope, hC, hs⟩ := Dart.emitsRpc_of hA.wf hM h
  refine ⟨_, hC, ?_⟩
  rw [Dart.genClient_names]
  have hp : (["_scheduler", "_scopeId", "disconnect"] ++ (methodsOf S).flatMap (clientFields x)
      ++ (methodsOf S).flatMap (clientStreams x) ++ (methodsOf S).flatMap (clientMethods x)).Perm
      (["_scheduler", "_scopeId", "disconnect"] ++ (methodsOf S).flatMap (dartNames x)) := by
    rw [List.append_assoc, List.append_assoc, ← List.append_assoc ((methodsOf S).flatMap (clientFields x))]
    exact (flatMap_three _ _ _ _).append_left _
  rw [hp.nodup_iff, List.nodup_append, nodup_flatMap_iff]
  have hfix : (["_scheduler", "_scopeId", "disconnect"] : List String).Nodup := by decide
  constructor
  · rintro ⟨-, ⟨h1, h2⟩, h3⟩
    refine ⟨h2.imp_of_mem (fun hf hg hn hc => hn ((dart_clash_iff x _ _ (hfirst _ hf) (hfirst _ hg)).2 hc)), fun f hf => ⟨fun e => ?_, ?_⟩⟩
    · obtain ⟨n, hn, hn'⟩ := (fixed_apart x f (hfirst f hf)).2 e
      exact h3 n hn n (List.mem_flatMap.2 ⟨f, hf, hn'⟩) rfl
    · exact (own_nodup x f (hfirst f hf)).1 (h1 f hf)
  · rintro ⟨h1, h2⟩
    refine ⟨hfix, ⟨fun f hf => (own_nodup x f (hfirst f hf)).2 (h2 f hf).2,
      h1.imp_of_mem (fun hf hg hn hc => hn ((dart_clash_iff x _ _ (hfirst _ hf) (hfirst _ hg)).1 hc))⟩, ?_⟩
    rintro n hn m hm rfl
    obtain ⟨f, hf, hn'⟩ := List.mem_flatMap.1 hm
    exact (h2 f hf).1 ((fixed_apart x f (hfirst f hf)).1 ⟨n, hn, hn'⟩)

/-- The names clash in the two examples above, and not for `add` and `slow_add`. -/
example : DartClash testExt ⟨"get_user", 0, [], none, false, false⟩ ⟨"getUser", 1, [], none, false, false⟩ ∧
    DartClash testExt ⟨"connect_x", 0, [], none, false, true⟩ ⟨"x_completers", 1, [], none, false, true⟩ ∧
    ¬ DartClash testExt ⟨"add", 0, [], none, false, true⟩ ⟨"slow_add", 1, [], none, false, true⟩ := by
  unfold DartClash HasHelpers HasCompleters
  refine ⟨?_, ?_, ?_⟩ <;> decide +kernel

/-- The hypotheses of `C50_dart_iff_partial` are met by the example schema, and so is the condition. -/
example : ∃ C, Dart.EmitsRpc testExt rpcSchema C ∧ C.names.Nodup := by
  obtain ⟨C, h1, h2⟩ := C50_dart_iff_partial testExt rpcSchema rpcSchema_accepted (by decide) _ rfl (by decide +kernel)
  refine ⟨C, h1, h2.2 ⟨?_, ?_⟩⟩
  · unfold DartClash HasHelpers HasCompleters
    decide +kernel
  · unfold HasCompleters
    decide +kernel

/-- Methods that are told apart. -/
example : DartApart testExt ⟨"add", 0, [], none, false, true⟩ ⟨"slow_add", 1, [], none, false, true⟩ := by
  constructor <;> decide +kernel

/-- The hypotheses of `C50_rust` and `C50_dart_partial` are met by the example schema. -/
example : Accepted rpcSchema ∧ methodsOf rpcSchema ≠ [] ∧ (∃ out, RustGen.rpc rpcSchema = .ok out) ∧
    ∃ out, DartGen.rpcMethods testExt rpcSchema = .ok out := by
  refine ⟨rpcSchema_accepted, by decide, ⟨_, rfl⟩, ⟨_, rfl⟩⟩

end TPB.Props
