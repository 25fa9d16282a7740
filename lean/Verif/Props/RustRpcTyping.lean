/-
Property theorems about the emitted Rust RPC section as a type checker sees it: C62.

`RustRpcTyped L H items impls R` are the typing rules for a file with types, codecs and an RPC section,
`RpcTypable L S` says in terms of the schema when they are met (both in `Spec/RustRpcTyping.lean`); `L`
stands for the imported crates, `H` for the user's functions.
-/
import Verif.Proofs.RustRpcTyping
import Verif.Props.RustTyping
import Verif.Props.RpcServer
import Verif.Proofs.Directives
namespace TPB.Props
open Spec Rust

/-- The sections of the generated Rust file are the text of `items`, `impls` and `R`. -/
def EmitsRustRpc (S : List ASTNode) (items : List TypeItem) (impls : List Impl) (R : RpcSection) : Prop :=
  EmitsRust S items impls ∧ EmitsRpc S R

/-- The user has done their part: the functions have the declared types and the id of the schema is accepted
by `uuid!`. -/
structure HostOk (H : Host) (S : List ASTNode) : Prop where
  provides : Provides H S
  uuid : ∀ v, DirectiveIs S "id" v → H.uuid v

/-- A schema with methods for which the RPC section can be generated. -/
structure HasRpc (S : List ASTNode) : Prop where
  accepted : Accepted S
  methods : methodsOf S ≠ []
  generated : ∃ out, RustGen.rpc S = .ok out

theorem rpc_typed_iff {L : Crates} {H : Host} {S : List ASTNode} (hS : HasRpc S) (hH : HostOk H S) :
    ∃ scope, EmitsRustRpc S (genItems S) (genImpls S) (genRpc scope S) ∧
      (RustRpcTyped L H (genItems S) (genImpls S) (genRpc scope S) ↔ RpcTypable L S) := by
  obtain ⟨out, ho⟩ := hS.generated
  obtain ⟨scope, hs⟩ := rpc_scope ho hS.methods
  refine ⟨scope, ⟨emitsRust S hS.accepted, emits_genRpc hS.accepted.wf hS.methods hs⟩,
    rustRpcTyped_iff hS.accepted.wf (accepted_enums hS.accepted) hH.provides ?_⟩
  unfold scopeOf at hs
  cases hv : findDirectiveValue S "id" with
  | none => simp [hv] at hs
  | some v =>
    obtain ⟨l, t⟩ := v
    cases l <;> simp [hv] at hs
    exact hH.uuid _ ((directiveIs_iff ..).2 ⟨t, hs ▸ hv⟩)

/-- **C62 (partial).** The Rust file generated for a schema with methods, with its types, codecs, argument
structs, handlers and registration function, type-checks against the functions that the schema declares if and
only if the schema is typable: the types and codecs are (C59); names of methods and arguments are distinct, not
keywords, and hide nothing that the handlers use; the types of arguments and results exist; and read methods do
not return built-in types.  Missing: the schemas excluded by this, see the theorems below. -/
theorem C62_rust_rpc_typed_partial (L : Crates) (H : Host) (S : List ASTNode) (hS : HasRpc S) (hH : HostOk H S) :
    ∃ items impls R, EmitsRustRpc S items impls R ∧ (RustRpcTyped L H items impls R ↔ RpcTypable L S) := by
  obtain ⟨scope, h⟩ := rpc_typed_iff hS hH
  exact ⟨_, _, _, h⟩

/-- The functions of any user who did their part do not make the file compile. -/
def NeverCompiles (S : List ASTNode) : Prop :=
  ∀ (L : Crates) (H : Host), HostOk H S → ∃ items impls R, EmitsRustRpc S items impls R ∧ ¬ RustRpcTyped L H items impls R

theorem never {S : List ASTNode} (hS : HasRpc S) (h : ∀ L, ¬ RpcTypable L S) : NeverCompiles S := by
  intro L H hH
  obtain ⟨scope, he, hi⟩ := rpc_typed_iff (L := L) hS hH
  exact ⟨_, _, _, he, fun ht => h L (hi.1 ht)⟩

/-- **C62, refuted: read methods of built-in types.** The handler passes a reference to a function that takes
a number. -/
theorem C62_read_builtin (S : List ASTNode) (hS : HasRpc S) (f : FnNode) (hf : f ∈ methodsOf S) (hr : f.isRead = true)
    (t : TypeId) (ht : f.returnTypeId = some t) (b : String) (hb : builtin? t = some b) : NeverCompiles S :=
  never hS fun L h => by
    have := h.reads f hf hr t ht
    rw [hb] at this
    cases this

/-- **C62, refuted: methods called like a variable.** Where the user's function is called, `memory`, `scope_id`
and `rpc_method_address` are variables, and so is `args` in methods that take requests. -/
theorem C62_method_name (S : List ASTNode) (hS : HasRpc S) (f : FnNode) (hf : f ∈ methodsOf S)
    (hn : f.id ∈ ["scope_id", "memory", "rpc_method_address"] ∨ (f.isRead = false ∧ f.id = "args")) : NeverCompiles S :=
  never hS fun L h => by
    refine (h.names f hf).2.1 ?_
    unfold callScope
    rcases hn with hn | ⟨hr, hn⟩
    · exact List.mem_append_left _ (List.mem_append_left _ hn)
    · rw [hr, hn]
      exact List.mem_append_right _ (List.mem_singleton.2 rfl)

/-- **C62, refuted: methods called like an emitted function.** A method `register_rpc`, or a method
`x_rpc_handler` next to a method `x`: the function of the file hides the user's one. -/
theorem C62_function_name (S : List ASTNode) (hS : HasRpc S) (f : FnNode) (hf : f ∈ methodsOf S)
    (hn : f.id = "register_rpc" ∨ ∃ g ∈ methodsOf S, f.id = g.id ++ "_rpc_handler") : NeverCompiles S :=
  never hS fun L h => by
    obtain ⟨-, -, -, h1, h2⟩ := h.names f hf
    rcases hn with hn | ⟨g, hg, hn⟩
    · exact h1 hn
    · exact h2 (List.mem_map.2 ⟨g, hg, hn.symm⟩)

/-- **C62, refuted: repeated names.** Two methods, or two arguments of a method, with the same name. -/
theorem C62_repeated (S : List ASTNode) (hS : HasRpc S)
    (hn : ¬ ((methodsOf S).map (·.id)).Nodup ∨ ∃ f ∈ methodsOf S, ¬ (f.args.map (·.id)).Nodup) : NeverCompiles S :=
  never hS fun L h => by
    rcases hn with hn | ⟨f, hf, hn⟩
    · exact hn h.methods
    · exact hn (h.args f hf).1

/-- **C62, refuted: keywords.** A method or an argument whose name is a Rust keyword. -/
theorem C62_keyword (S : List ASTNode) (hS : HasRpc S) (f : FnNode) (hf : f ∈ methodsOf S)
    (hn : f.id ∈ rustKeywords ∨ ∃ a ∈ f.args, a.id ∈ rustKeywords) : NeverCompiles S :=
  never hS fun L h => by
    rcases hn with hn | ⟨a, ha, hn⟩
    · exact (h.names f hf).1.2 hn
    · exact ((h.args f hf).2 a ha).1.2 hn

/-- **C62, refuted: the request id.** Argument structs of asynchronous methods have a field `__method_id__`. -/
theorem C62_method_id (S : List ASTNode) (hS : HasRpc S) (f : FnNode) (hf : f ∈ methodsOf S) (hr : f.isRead = false)
    (hy : f.isAsync = true) (a : FnArg) (ha : a ∈ f.args) (hn : a.id = "__method_id__") : NeverCompiles S :=
  never hS fun L h => (h.methodId f hf hr hy).1 (List.mem_map.2 ⟨a, ha, hn⟩)

/-- **C62, refuted: empty structs.** A struct without fields that is called like a variable or a function of the
RPC section. -/
theorem C62_empty_struct (S : List ASTNode) (hS : HasRpc S) (n : StructNode) (hn : .struct n ∈ S) (he : n.fields = [])
    (hx : n.id ∈ ["register_rpc", "runtime", "addr", "scope_id", "memory", "rpc_method_address", "bytes_writer", "Some"] ∨
      ∃ f ∈ methodsOf S, n.id = f.id ∨ n.id = f.id ++ "_rpc_handler") : NeverCompiles S :=
  never hS fun L h => by
    have hm : n.id ∈ emptyStructs S := List.mem_filterMap.2 ⟨_, hn, by simp [he]⟩
    rcases hx with hx | ⟨f, hf, hx | hx⟩
    · obtain ⟨f, hf⟩ := List.exists_mem_of_ne_nil _ hS.methods
      have hv := h.vars f hf n.id
      have hg := h.register n.id
      have h1 : n.id ∈ handlerVars f ++ handlerPrelude f ∨ n.id ∈ ["register_rpc", "runtime", "addr", "scope_id"] := by
        unfold handlerVars callScope handlerPrelude
        cases f.isRead <;> simp at hx ⊢ <;> grind
      exact h1.elim (fun h1 => hv h1 hm) (fun h1 => hg h1 hm)
    · exact (h.names f hf).2.2.1 (List.mem_append_left _ (hx ▸ hm))
    · exact h.handlersFresh f hf (by rw [← show n.id = handlerName f.id from hx]; exact hm)

/-! ### Examples -/

/-- The user's functions for the example. -/
def exampleHost : Host where
  functions x := ((methodsOf rpcSchema).find? (fun f => f.id = x)).map declaredSig
  uuid _ := True

theorem exampleHost_ok : HostOk exampleHost rpcSchema where
  provides := by
    intro f hf
    simp only [rpcSchema, methodsOf, List.filterMap_cons, List.filterMap_nil, List.mem_cons, List.not_mem_nil, or_false] at hf
    rcases hf with rfl | rfl | rfl | rfl | rfl <;> rfl
  uuid _ _ := trivial

theorem rpcSchema_hasRpc : HasRpc rpcSchema := ⟨rpcSchema_accepted, by decide, _, rfl⟩

theorem rpcSchema_rustTypable : RustTypable exampleCrates rpcSchema where
  types := by decide
  fresh := by
    unfold RustName
    decide +kernel
  fields := by
    intro n hn
    simp only [rpcSchema, List.mem_cons, ASTNode.struct.injEq, reduceCtorEq, List.not_mem_nil, or_false, false_or] at hn
    subst hn; unfold RustName; decide +kernel
  variants := by intro n hn; simp [rpcSchema] at hn
  bound := by intro n hn; simp [rpcSchema] at hn
  numbers := by intro n hn; simp [rpcSchema] at hn
  exist := by
    intro d hd t ht
    simp only [rpcSchema, List.mem_cons, List.not_mem_nil, or_false] at hd
    rcases hd with rfl | rfl | rfl | rfl | rfl | rfl | rfl | rfl <;> simp [directTypes, fieldsOf] at ht
    rcases ht with rfl | rfl
    · exact .builtin _ _ rfl
    · exact .generic _ _ (by decide) ⟨.inl rfl, rfl⟩ (by simpa using .lib _ rfl)
  builtins := by
    intro d hd t ht id hid
    simp only [rpcSchema, List.mem_cons, List.not_mem_nil, or_false] at hd
    rcases hd with rfl | rfl | rfl | rfl | rfl | rfl | rfl | rfl <;> simp [directTypes, fieldsOf] at ht
    rcases ht with rfl | rfl <;> simp [builtin?] at hid
    subst hid; decide
  noChar := by
    intro n hn
    simp only [rpcSchema, List.mem_cons, ASTNode.struct.injEq, reduceCtorEq, List.not_mem_nil, or_false, false_or] at hn
    subst hn; simp [fieldsOf]
  noCharFirst := by intro n hn; simp [rpcSchema] at hn
  sized := by
    refine ⟨fun _ => 0, ?_⟩
    intro d hd name hname t ht id hc hid
    simp only [rpcSchema, List.mem_cons, List.not_mem_nil, or_false] at hd
    rcases hd with rfl | rfl | rfl | rfl | rfl | rfl | rfl | rfl <;> simp [directTypes, fieldsOf] at ht
    rcases ht with rfl | rfl
    · cases hc with | builtin _ _ h => simp [builtin?] at h; subst h; exact absurd hid (by decide)
    · cases hc with
      | builtin _ _ h => simp [builtin?] at h
      | arg _ _ _ _ h => exact absurd rfl h
  localsStruct _ := by decide
  localsEnum _ := by decide

theorem rpcSchema_typable : RpcTypable exampleCrates rpcSchema where
  base := rpcSchema_rustTypable
  bound := by intro n hn; simp [rpcSchema] at hn
  methods := by decide
  names := by
    unfold RustName
    decide +kernel
  structs := by decide +kernel
  handlersFresh := by decide +kernel
  vars := by decide +kernel
  args := by
    have hp : TypeExists exampleCrates rpcSchema (.other "Point") := .own _ (by decide)
    have hi : TypeExists exampleCrates rpcSchema (.integer "i64" 8 true) := .builtin _ _ rfl
    intro f hf
    simp only [rpcSchema, methodsOf, List.filterMap_cons, List.filterMap_nil, List.mem_cons, List.not_mem_nil, or_false] at hf
    rcases hf with rfl | rfl | rfl | rfl | rfl <;> unfold RustName
    · refine ⟨by decide, ?_⟩
      intro a ha
      simp at ha
      rcases ha with rfl | rfl
      · exact ⟨by decide +kernel, hp, by simp [builtin?]⟩
      · exact ⟨by decide +kernel, hi, by decide⟩
    · refine ⟨by decide, ?_⟩
      intro a ha
      simp at ha
      subst ha
      exact ⟨by decide +kernel, hp, by simp [builtin?]⟩
    all_goals simp
  methodId := by decide +kernel
  results := by
    have hp : TypeExists exampleCrates rpcSchema (.other "Point") := .own _ (by decide)
    have hi : TypeExists exampleCrates rpcSchema (.integer "i64" 8 true) := .builtin _ _ rfl
    intro f hf
    simp only [rpcSchema, methodsOf, List.filterMap_cons, List.filterMap_nil, List.mem_cons, List.not_mem_nil, or_false] at hf
    rcases hf with rfl | rfl | rfl | rfl | rfl <;> intro t ht <;> simp at ht <;> subst ht
    · exact ⟨hp, by simp [builtin?]⟩
    · exact ⟨hi, by simp [builtin?]; decide⟩
    · exact ⟨hp, by simp [builtin?]⟩
    · exact ⟨hp, by simp [builtin?]⟩
  reads := by
    intro f hf
    simp only [rpcSchema, methodsOf, List.filterMap_cons, List.filterMap_nil, List.mem_cons, List.not_mem_nil, or_false] at hf
    rcases hf with rfl | rfl | rfl | rfl | rfl <;> intro hr t ht <;> simp at ht hr <;> subst ht <;> rfl
  register := by decide +kernel
  count := by decide +kernel

/-- The example schema, with all four kinds of methods, type-checks. -/
example : ∃ items impls R, EmitsRustRpc rpcSchema items impls R ∧ RustRpcTyped exampleCrates exampleHost items impls R := by
  obtain ⟨items, impls, R, h1, h2⟩ := C62_rust_rpc_typed_partial exampleCrates exampleHost rpcSchema rpcSchema_hasRpc exampleHost_ok
  exact ⟨items, impls, R, h1, h2.2 rpcSchema_typable⟩

/-- A schema with an id and the given methods. -/
def methodSchema (fs : List FnNode) : List ASTNode :=
  .directive (.value "id" ⟨.str "8b61", .other "String"⟩) :: fs.map .fn

/-- `read now -> i64;`, `fn memory();`, `fn register_rpc();`, `fn a(x: i64, x: i64);`, `fn match();`
and `async fn a(__method_id__: i64);` -/
def badMethods : List (List FnNode) :=
  [[⟨"now", 0, [], some (.integer "i64" 8 true), true, false⟩], [⟨"memory", 0, [], none, false, false⟩],
   [⟨"register_rpc", 0, [], none, false, false⟩],
   [⟨"a", 0, [⟨"x", .integer "i64" 8 true⟩, ⟨"x", .integer "i64" 8 true⟩], none, false, false⟩],
   [⟨"match", 0, [], none, false, false⟩], [⟨"a", 0, [⟨"__method_id__", .integer "i64" 8 true⟩], none, false, true⟩]]

theorem badMethods_hasRpc : ∀ fs ∈ badMethods, HasRpc (methodSchema fs) := by
  have hi : WFType (.integer "i64" 8 true) := .name "i64"
  have key : ∀ fs ∈ badMethods, WFSchema 0 (methodSchema fs) := by
    intro fs hfs
    simp only [badMethods, List.mem_cons, List.not_mem_nil, or_false] at hfs
    rcases hfs with rfl | rfl | rfl | rfl | rfl | rfl <;> simp [methodSchema, WFSchema, WFDecl, WFConst, fnCount, hi] <;> rfl
  intro fs hfs
  refine ⟨?_, ?_, ?_⟩
  · obtain ⟨ts, _, h⟩ := C09_every_schema _ (key fs hfs)
    exact ⟨_, h⟩
  · simp only [badMethods, List.mem_cons, List.not_mem_nil, or_false] at hfs
    rcases hfs with rfl | rfl | rfl | rfl | rfl | rfl <;> decide
  · simp only [badMethods, List.mem_cons, List.not_mem_nil, or_false] at hfs
    rcases hfs with rfl | rfl | rfl | rfl | rfl | rfl <;> exact ⟨_, rfl⟩

example : ∀ fs ∈ badMethods, NeverCompiles (methodSchema fs) := by
  intro fs hfs
  have h := badMethods_hasRpc fs hfs
  simp only [badMethods, List.mem_cons, List.not_mem_nil, or_false] at hfs
  rcases hfs with rfl | rfl | rfl | rfl | rfl | rfl
  · exact C62_read_builtin _ h _ (List.mem_singleton.2 rfl) rfl _ rfl _ rfl
  · exact C62_method_name _ h _ (List.mem_singleton.2 rfl) (.inl (by decide))
  · exact C62_function_name _ h _ (List.mem_singleton.2 rfl) (.inl rfl)
  · exact C62_repeated _ h (.inr ⟨_, List.mem_singleton.2 rfl, by decide⟩)
  · exact C62_keyword _ h _ (List.mem_singleton.2 rfl) (.inl (by decide +kernel))
  · exact C62_method_id _ h _ (List.mem_singleton.2 rfl) rfl rfl _ (List.mem_singleton.2 rfl) rfl

/-- `NeverCompiles` is not empty talk: there are users who did their part. -/
example : ∃ H, HostOk H (methodSchema [⟨"now", 0, [], some (.integer "i64" 8 true), true, false⟩]) :=
  ⟨⟨fun _ => some (declaredSig ⟨"now", 0, [], some (.integer "i64" 8 true), true, false⟩), fun _ => True⟩,
   by intro f hf; simp [methodSchema, methodsOf] at hf; subst hf; rfl, fun _ _ => trivial⟩

end TPB.Props
