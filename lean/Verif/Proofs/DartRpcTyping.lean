/-
Proofs about the typing of the emitted Dart RPC client.
-/
import Verif.Spec.DartRpcTyping
import Verif.Proofs.DartTyping
import Verif.Proofs.DartRpcFacts
namespace TPB.Spec.DartRules
open Dart
open DartGen (varLastMethodId varMethodCompleters varReadTask varReadStreamController)
variable {x : Ext} {L : DartLib} {S : List ASTNode} {ns scope : String}

/-! ### Scopes -/

theorem mem_places {V : Scope} {n : String} {t : Ty} : (Acc.var n, t) ∈ V.places ↔ V.lookup n = some (some t) := by
  unfold Scope.places
  rw [List.mem_filterMap]
  constructor
  · rintro ⟨v, hv, h⟩
    split at h
    · rename_i t' h'
      simp only [Option.some.injEq, Prod.mk.injEq, Acc.var.injEq] at h
      obtain ⟨rfl, rfl⟩ := h
      exact h'
    · simp at h
  · intro h
    obtain ⟨l1, l2, h1, _⟩ := List.lookup_eq_some_iff.mp h
    refine ⟨(n, some t), by rw [h1]; simp, ?_⟩
    simp [h]

/-! ### Reading and writing -/

theorem codecG_names {c : String} {gs : List TypeId} (k : Kind) (hk : k = .into) (n : String) :
    n ∈ (genCodecG k c gs).names ↔ n ∈ codecNames (.generic c gs) := by
  subst hk
  unfold genCodecG codecNames
  match gs with
  | [] => simp [Codec.names, Kind.suffix, dartTys]
  | [g] => 
    by_cases h : c = "Vec" <;> simp [h, Codec.names, Kind.suffix, genTy_eq, elem_eq, tysNames]
  | g :: h :: gs => simp [Codec.names, Kind.suffix, dartTys_eq, genTy_eq, genTys_map]

/-- The type of a codec. -/
theorem codec_type {F : DartFile} {k k' : Kind} {id : String} {t : Ty} (h : CodecTyped L F (.plain k id) k' t) :
    t = .named id := by
  generalize hc : Codec.plain k id = c at h
  cases h <;> simp_all

theorem codecG_type {F : DartFile} {k k' : Kind} {c : String} {gs : List TypeId} {t : Ty}
    (h : CodecTyped L F (genCodecG k c gs) k' t) (hv : (∃ g, gs = [g]) ∨ c ≠ "Vec") : t = dartTy (.generic c gs) := by
  unfold genCodecG at h
  match gs, h with
  | [], h =>
    have hc : c ≠ "Vec" := by simpa using hv
    simp only at h
    generalize hd : Codec.generic k c _ = d at h
    cases h <;> simp_all [dartTy, dartTys]
  | [g], h =>
    simp only at h
    by_cases hc : c = "Vec"
    · simp only [hc, if_true] at h
      generalize hd : Codec.list k _ _ = d at h
      cases h <;> simp_all [dartTy, dartTys, genTy_eq]
    · simp only [hc, if_false] at h
      generalize hd : Codec.generic k c _ = d at h
      cases h <;> simp_all [dartTy, dartTys, genTy_eq]
  | g :: g' :: gs, h =>
    have hc : c ≠ "Vec" := by simpa using hv
    simp only at h
    generalize hd : Codec.generic k c _ = d at h
    cases h <;> simp_all [dartTy, dartTys_eq, genTy_eq, genTys_map]

theorem prim_type {F : DartFile} {t : TypeId} {id : String} (h : builtin? t = some id) {T : Ty}
    (hp : PrimTyped F (methodOf t) T) : T = dartTy t := by
  obtain ⟨n, hn, _, rfl⟩ := hp
  cases t with
  | generic _ _ => simp [builtin?] at h
  | other _ => simp [builtin?] at h
  | integer id size s =>
    simp only [methodOf, primMethods] at hn
    repeat' split at hn
    all_goals simp_all [dartTy]
  | number id size =>
    simp only [methodOf, primMethods] at hn
    split at hn <;> simp_all [dartTy]
  | bool id => simp_all [methodOf, primMethods, dartTy]
  | char id => simp_all [methodOf, primMethods, dartTy]

section
variable (hS : Plain S) (hT : DartTypable x L S)
include hS hT
variable {t : TypeId} (hx : DartTypeExists L S t) (hu : DartUsable L S t)
include hx hu

theorem read_iff {V : List String} {T : Ty} :
    ReadTyped L (fileOf x S) V (genRead t) T ↔ Free V (codecNames t) ∧ T = dartTy t := by
  cases t with
  | other id =>
    simp only [genRead, ReadTyped, codecNames, Codec.names, Kind.suffix]
    exact ⟨fun h => ⟨h.1, codec_type h.2⟩, fun h => ⟨h.1, h.2 ▸ plain_codec hS hT .into hu (.inl rfl)⟩⟩
  | generic c gs =>
    have hn : Free V (genCodecG .into c gs).names ↔ Free V (codecNames (.generic c gs)) := by
      unfold Free
      simp only [codecG_names .into rfl]
    have hv : (∃ g, gs = [g]) ∨ c ≠ "Vec" := by
      rcases generic_cases hS hT hu with ⟨_, h⟩ | ⟨h, _⟩
      · exact .inl h
      · exact .inr h
    simp only [genRead, ReadTyped, hn]
    exact ⟨fun h => ⟨h.1, codecG_type h.2 hv⟩, fun h => ⟨h.1, h.2 ▸ generic_codec hS hT .into hu hx⟩⟩
  | integer a b c =>
    have := prim_typed hS hT (t := .integer a b c) rfl
    exact ⟨fun h => ⟨by simp [codecNames, Free], prim_type rfl h⟩, fun h => h.2 ▸ this⟩
  | number a b =>
    have := prim_typed hS hT (t := .number a b) rfl
    exact ⟨fun h => ⟨by simp [codecNames, Free], prim_type rfl h⟩, fun h => h.2 ▸ this⟩
  | bool a =>
    have := prim_typed hS hT (t := .bool a) rfl
    exact ⟨fun h => ⟨by simp [codecNames, Free], prim_type rfl h⟩, fun h => h.2 ▸ this⟩
  | char a =>
    have := prim_typed hS hT (t := .char a) rfl
    exact ⟨fun h => ⟨by simp [codecNames, Free], prim_type rfl h⟩, fun h => h.2 ▸ this⟩

theorem write_iff {V : List String} {places : List (Acc × Ty)} {a : Acc} :
    WriteTyped L (fileOf x S) V places (genWrite .into t a) ↔ Free V (codecNames t) ∧ (a, dartTy t) ∈ places := by
  cases t with
  | other id =>
    simp only [genWrite, WriteTyped, codecNames, Codec.names, Kind.suffix]
    refine ⟨fun ⟨h1, t, k, h2, h3⟩ => ⟨h1, ?_⟩, fun h => ⟨h.1, _, .into, h.2, plain_codec hS hT .into hu (.inl rfl)⟩⟩
    have := codec_type h3
    subst this
    exact h2
  | generic c gs =>
    have hn : Free V (genCodecG .into c gs).names ↔ Free V (codecNames (.generic c gs)) := by
      unfold Free
      simp only [codecG_names .into rfl]
    have hv : (∃ g, gs = [g]) ∨ c ≠ "Vec" := by
      rcases generic_cases hS hT hu with ⟨_, h⟩ | ⟨h, _⟩
      · exact .inl h
      · exact .inr h
    simp only [genWrite, WriteTyped, hn]
    refine ⟨fun ⟨h1, t, k, h2, h3⟩ => ⟨h1, ?_⟩, fun h => ⟨h.1, _, .into, h.2, generic_codec hS hT .into hu hx⟩⟩
    have := codecG_type h3 hv
    subst this
    exact h2
  | integer i b c =>
    have := prim_typed hS hT (t := .integer i b c) rfl
    exact ⟨fun ⟨t, h, h'⟩ => ⟨by simp [codecNames, Free], prim_type (t := .integer i b c) rfl h' ▸ h⟩, fun h => ⟨_, h.2, this⟩⟩
  | number i b =>
    have := prim_typed hS hT (t := .number i b) rfl
    exact ⟨fun ⟨t, h, h'⟩ => ⟨by simp [codecNames, Free], prim_type (t := .number i b) rfl h' ▸ h⟩, fun h => ⟨_, h.2, this⟩⟩
  | bool i =>
    have := prim_typed hS hT (t := .bool i) rfl
    exact ⟨fun ⟨t, h, h'⟩ => ⟨by simp [codecNames, Free], prim_type (t := .bool i) rfl h' ▸ h⟩, fun h => ⟨_, h.2, this⟩⟩
  | char i =>
    have := prim_typed hS hT (t := .char i) rfl
    exact ⟨fun ⟨t, h, h'⟩ => ⟨by simp [codecNames, Free], prim_type (t := .char i) rfl h' ▸ h⟩, fun h => ⟨_, h.2, this⟩⟩

end
/-! ### Names of the class -/

theorem memberNames_eq (f : FnNode) : (genMembers x f).flatMap memberName = clientFields x f := by
  unfold genMembers clientFields
  cases f.isRead <;> cases f.isAsync <;> rfl

theorem classNames_eq : classNames (genClient x ns scope S) = clientNames x S := by
  simp only [classNames, clientNames, genClient, Props.findFnNodes_eq, List.map_flatMap, List.flatMap_assoc,
    genDMethods_names, memberNames_eq, genGetters_names]

/-- The client class of a schema in the file of its models. -/
abbrev env (x : Ext) (L : DartLib) (S : List ASTNode) (ns scope : String) : ClassEnv :=
  ⟨L, fileOf x S, genClient x ns scope S⟩

/-- The names of the libraries that the class uses. -/
def rpcLibrary : List String :=
  ["TechPawsRuntimeRpcMethodBuffer", "TechPawsRpcBufferStatus", "TechPawsRuntimeRpcReadTask", "StreamController", "Stream",
   "int", "Completer", "Future", "rotateMethodId", "StateError", "TechPawsRuntimeRpcScheduler"]

theorem lib_iff (hS : Plain S) {n : String} (h : n ∈ rpcLibrary) :
    (env x L S ns scope).Lib n ↔ n ∉ clientNames x S ++ dartClasses S := by
  have hs : ∀ n ∈ rpcLibrary, ¬ "RpcClient".toList <:+ n.toList := by decide +kernel
  have hne : n ≠ x.pascal ns ++ "RpcClient" := by
    rintro rfl
    exact hs _ h (by simp)
  simp only [ClassEnv.Lib, classNames_eq, List.mem_append, List.mem_cons, names_iff hS]
  simp only [genClient, hne, false_or, not_or]
  exact ⟨fun h => ⟨h.2, h.1⟩, fun h => ⟨h.2, h.1⟩⟩

theorem lookup_map {β : Type} (l : List String) (g : String → β) (r : List (String × β)) (k : String) :
    (l.map (fun n => (n, g n)) ++ r).lookup k = if k ∈ l then some (g k) else r.lookup k := by
  induction l with
  | nil => simp
  | cons a l ih =>
    simp only [List.map_cons, List.cons_append, List.lookup_cons, ih]
    by_cases h : k = a
    · subst h; simp
    · rw [show (k == a) = false by simpa using h]
      simp [h]

theorem lookup_params {as : List FnArg} (h : (as.map (fun a => x.camel a.id)).Nodup) {a : FnArg} (ha : a ∈ as) :
    (as.map (fun a => (x.camel a.id, some (genTy a.typeId)))).lookup (x.camel a.id) = some (some (dartTy a.typeId)) := by
  induction as with
  | nil => simp at ha
  | cons b as ih =>
    simp only [List.map_cons, List.nodup_cons] at h
    simp only [List.map_cons, List.lookup_cons]
    rcases List.mem_cons.1 ha with rfl | ha
    · simp [genTy_eq]
    · have hne : x.camel a.id ≠ x.camel b.id := fun e => h.1 (e ▸ List.mem_map.2 ⟨a, ha, rfl⟩)
      rw [show (x.camel a.id == x.camel b.id) = false by simpa using hne]
      exact ih h.2 ha

/-- The names in scope in the body of a method that takes the arguments. -/
def bodyNames (x : Ext) (f : FnNode) : List String := rpcLocals f ++ f.args.map (fun a => x.camel a.id)

/-- A private name is not in scope there. -/
theorem private_free {f : FnNode} (h : ∀ a ∈ f.args, Public (x.camel a.id)) {v : String} (hv : v.toList.head? = some '_') :
    v ∉ bodyNames x f := by
  intro hm
  rcases List.mem_append.1 hm with hm | hm
  · have : ∀ n ∈ ["methodId", "completer", "result"], n.toList.head? ≠ some '_' := by decide
    refine this v ?_ hv
    unfold rpcLocals at hm
    repeat' split at hm
    all_goals (simp only [List.mem_cons, List.not_mem_nil, or_false] at hm ⊢; try grind)
  · obtain ⟨a, ha, rfl⟩ := List.mem_map.1 hm
    exact h a ha hv

theorem locals_sync {f : FnNode} (ha : f.isAsync = false) : bodyLocals (genSync x f).body = rpcLocals f := by
  unfold genSync genSyncResult rpcLocals
  cases h : f.returnTypeId <;> simp [bodyLocals, ha]

theorem scope_names {m : DMethod} {f : FnNode} (h1 : bodyLocals m.body = rpcLocals f) (h2 : m.params = genParams x f)
    (vs : List (String × Ty)) : (bodyScope m vs).names = bodyNames x f := by
  simp [bodyScope, Scope.names, bodyNames, h1, h2, genParams, Function.comp_def]

theorem scope_lookup {m : DMethod} {f : FnNode} (h1 : bodyLocals m.body = rpcLocals f) (h2 : m.params = genParams x f)
    (hn : (f.args.map (fun a => x.camel a.id)).Nodup) {a : FnArg} (ha : a ∈ f.args) (vs : List (String × Ty)) :
    List.lookup (x.camel a.id) (("writer", none) :: bodyScope m vs) = some (some (dartTy a.typeId)) ↔
    x.camel a.id ≠ "writer" ∧ (x.camel a.id ∈ rpcLocals f → vs.lookup (x.camel a.id) = some (dartTy a.typeId)) := by
  have h3 := lookup_params hn ha
  by_cases hw : x.camel a.id = "writer"
  · simp [hw]
  rw [List.lookup_cons, show (x.camel a.id == "writer") = false by simpa using hw]
  simp only [bodyScope, h1, h2, genParams, List.map_map, Function.comp_def, lookup_map, h3]
  split <;> simp_all

theorem locals_async {f : FnNode} (ha : f.isAsync = true) : bodyLocals (genAsync x f).body = rpcLocals f := by
  simp [genAsync, rpcLocals, bodyLocals, ha]

theorem free_append {V names names' : List String} : Free V (names ++ names') ↔ Free V names ∧ Free V names' := by
  simp only [Free, List.mem_append]
  exact ⟨fun h => ⟨fun n hn => h n (.inl hn), fun n hn => h n (.inr hn)⟩, fun h n hn => hn.elim (h.1 n) (h.2 n)⟩

theorem free_union {V W names : List String} : Free (V ++ W) names ↔ Free V names ∧ Free W names := by
  simp only [Free, List.mem_append, not_or]
  exact ⟨fun h => ⟨fun n hn => (h n hn).1, fun n hn => (h n hn).2⟩, fun h n hn => ⟨h.1 n hn, h.2 n hn⟩⟩

theorem free_cons {V names : List String} {a : String} : Free V (a :: names) ↔ a ∉ V ∧ Free V names := by
  simp [Free]

theorem free_nil {V : List String} : Free V [] := by simp [Free]

section
variable (hS : Plain S) (hT : DartTypable x L S) (hu : RpcTypesUsable L S) (hn : ∀ n ∈ clientNames x S, DartName n)
variable {f : FnNode} (hf : f ∈ methodsOf S)
include hS hT hu hf

theorem result_iff (hn : ∀ n ∈ clientNames x S, DartName n) : (env x L S ns scope).Result (retTy f) ↔
    ∀ t ∈ f.returnTypeId, Free (clientNames x S) (dartTy t).names := by
  cases h : f.returnTypeId with
  | none => simp [ClassEnv.Result, retTy, h]
  | some t =>
    have ht := type_typed hS hT ((hu f hf).2 t h).1
    simp only [ClassEnv.Result, retTy, h, classNames_eq, Option.mem_def, Option.some.injEq, forall_eq', genTy_eq]
    constructor
    · rintro (e | e)
      · rw [e]
        intro n hn'
        simp only [Ty.names, List.mem_singleton] at hn'
        subst hn'
        exact fun hm => (hn _ hm).2 (by decide)
      · exact e.2
    · exact fun e => .inr ⟨ht, e⟩

theorem params_iff {m : DMethod} (hp : m.params = genParams x f) :
    ((m.params.map (·.2)).Nodup ∧ ∀ p ∈ m.params, DartName p.2 ∧ Public p.2 ∧
      TypeTyped (env x L S ns scope).L (env x L S ns scope).F.names p.1 ∧ Free (classNames (env x L S ns scope).c) p.1.names) ↔
    (f.args.map (fun a => x.camel a.id)).Nodup ∧ (∀ a ∈ f.args, DartName (x.camel a.id) ∧ Public (x.camel a.id)) ∧
      ∀ a ∈ f.args, Free (clientNames x S) (dartTy a.typeId).names := by
  have ht : ∀ a ∈ f.args, TypeTyped L (fileOf x S).names (dartTy a.typeId) :=
    fun a ha => type_typed hS hT ((hu f hf).1 a ha).1
  simp only [hp, genParams, List.map_map, Function.comp_def, List.forall_mem_map, genTy_eq, classNames_eq]
  constructor
  · exact fun h => ⟨h.1, fun a ha => ⟨(h.2 a ha).1, (h.2 a ha).2.1⟩, fun a ha => (h.2 a ha).2.2.2⟩
  · exact fun h => ⟨h.1, fun a ha => ⟨(h.2.1 a ha).1, (h.2.1 a ha).2, ht a ha, h.2.2 a ha⟩⟩

theorem writes_iff {m : DMethod} (h1 : bodyLocals m.body = rpcLocals f) (h2 : m.params = genParams x f)
    (hd : (f.args.map (fun a => x.camel a.id)).Nodup) (vs : List (String × Ty)) :
    (∀ w ∈ genArgWrites x f, WStmtTyped (env x L S ns scope) (("writer", none) :: bodyScope m vs) w) ↔
    ∀ a ∈ f.args, Free (clientNames x S) (codecNames a.typeId) ∧ Free ("writer" :: bodyNames x f) (codecNames a.typeId) ∧
      x.camel a.id ≠ "writer" ∧ (x.camel a.id ∈ rpcLocals f → vs.lookup (x.camel a.id) = some (dartTy a.typeId)) := by
  have hsn : Scope.names (("writer", none) :: bodyScope m vs) = "writer" :: bodyNames x f := by
    rw [← scope_names h1 h2 vs]; rfl
  simp only [genArgWrites, List.forall_mem_map, WStmtTyped, hsn]
  refine forall_congr' fun a => forall_congr' fun ha => ?_
  have hl := scope_lookup h1 h2 hd ha vs
  rw [write_iff hS hT ((hu f hf).1 a ha).1 ((hu f hf).1 a ha).2, mem_places, hl, classNames_eq, free_union]
  simp only [and_assoc]
  exact ⟨fun h => ⟨h.2.1, h.1, h.2.2⟩, fun h => ⟨h.2.1, h.1, h.2.2⟩⟩

omit hT hu hf in
theorem call_iff {N : List String} (h : ∀ v : String, v.toList.head? = some '_' → v ∉ N) {addr : Nat} :
    CallTyped (env x L S ns scope) N addr ↔ addr < 2 ^ 63 ∧ "TechPawsRuntimeRpcMethodBuffer" ∉ N ∧
      "TechPawsRuntimeRpcMethodBuffer" ∉ clientNames x S ++ dartClasses S := by
  have h1 := h "_scheduler" (by decide)
  have h2 := h "_scopeId" (by decide)
  simp only [CallTyped, lib_iff hS (show "TechPawsRuntimeRpcMethodBuffer" ∈ rpcLibrary by decide), free_cons, free_nil, h1, h2]
  simp

/-- What a method needs. -/
structure MethodOk (x : Ext) (S : List ASTNode) (f : FnNode) : Prop where
  number : f.position < 2 ^ 63
  uses : Free (clientNames x S ++ dartClasses S) (rpcUses f)
  args : f.isRead = false → ∀ a ∈ f.args, Free (clientNames x S) ((dartTy a.typeId).names ++ codecNames a.typeId)
  results : ∀ t ∈ f.returnTypeId, Free (clientNames x S) ((dartTy t).names ++ codecNames t)
  bodies : f.isRead = false → BodyOk x f
  readers : f.isRead = true ∨ f.isAsync = true → ∀ t ∈ f.returnTypeId,
    Free (["reader", "status", "result"] ++ if f.isRead then [] else ["methodId"]) (codecNames t)

theorem sync_iff (hn : ∀ n ∈ clientNames x S, DartName n) (hr : f.isRead = false) (ha : f.isAsync = false) :
    DMethodTyped (env x L S ns scope) (genSync x f) ↔ MethodOk x S f := by
  have hl := locals_sync (x := x) ha
  have hsn := scope_names (x := x) hl rfl
  have hw := fun hd => writes_iff (ns := ns) (scope := scope) hS hT hu hf hl rfl hd []
  have hres := result_iff (ns := ns) (scope := scope) hS hT hu hf hn
  have hpar := params_iff (ns := ns) (scope := scope) hS hT hu hf (m := genSync x f) rfl
  have hst : (env x L S ns scope).Lib "TechPawsRpcBufferStatus" ↔ _ := lib_iff hS (by decide)
  have hse : (env x L S ns scope).Lib "StateError" ↔ _ := lib_iff hS (by decide)
  have hws : Scope.names (("writer", none) :: bodyScope (genSync x f) []) = "writer" :: bodyNames x f := by
    rw [← hsn []]; rfl
  have hbody : BodyStmts (env x L S ns scope) (genSync x f) [] (genSync x f).body ↔
      CallTyped (env x L S ns scope) (bodyNames x f) f.position ∧
      ("TechPawsRpcBufferStatus" ∉ clientNames x S ++ dartClasses S ∧ "TechPawsRpcBufferStatus" ∉ bodyNames x f) ∧
      (∀ w ∈ genArgWrites x f, WStmtTyped (env x L S ns scope) (("writer", none) :: bodyScope (genSync x f) []) w) ∧
      "_scheduler" ∉ bodyNames x f ∧
      ∀ t ∈ f.returnTypeId, Free (clientNames x S) (dartTy t).names ∧ Free (bodyNames x f) (dartTy t).names ∧
        "StateError" ∉ clientNames x S ++ dartClasses S ∧ "StateError" ∉ bodyNames x f ∧
        Free ("reader" :: "status" :: bodyNames x f) (codecNames t) ∧ Free (clientNames x S) (codecNames t) := by
    have hb : (genSync x f).body = [.write true f.position .server (.status :: genArgWrites x f), .blank, .loop, .blank] ++ genSyncResult f := rfl
    have hm : (genSync x f).ret = retTy f ∧ (genSync x f).future = false := ⟨rfl, rfl⟩
    have h2 : WStmtTyped (env x L S ns scope) (("writer", none) :: bodyScope (genSync x f) []) .status ↔
        "TechPawsRpcBufferStatus" ∉ clientNames x S ++ dartClasses S ∧ "TechPawsRpcBufferStatus" ∉ "writer" :: bodyNames x f := by
      rw [← hst, ← hws]; rfl
    rw [hb]
    simp only [List.cons_append, List.nil_append, BodyStmts, hsn, List.forall_mem_cons, h2]
    cases h : f.returnTypeId with
    | none => simp [genSyncResult, h, BodyStmts, hm, retTy, and_assoc]
    | some t =>
      have hx := (hu f hf).2 t h
      have ht := type_typed hS hT hx.1
      simp only [genSyncResult, h, BodyStmts, hsn, ReaderClosure, readerLocals, List.nodup_cons, List.not_mem_nil,
        not_false_eq_true, List.nodup_nil, and_self, ReaderTyped, hst, hse, if_true, Option.some.injEq, exists_eq_left', genTy_eq,
        read_iff hS hT hx.1 hx.2, classNames_eq, free_union, hm, retTy]
      simp [ht]
      grind
  have huses : rpcUses f = ["TechPawsRuntimeRpcMethodBuffer", "TechPawsRpcBufferStatus"] ++
      if f.returnTypeId = none then [] else ["StateError"] := by simp [rpcUses, hr, ha]
  have hbuses : rpcBodyUses f = ["TechPawsRuntimeRpcMethodBuffer", "TechPawsRpcBufferStatus"] ++
      if f.returnTypeId = none then [] else ["StateError"] := by simp [rpcBodyUses, ha]
  have hloc : ∀ n ∈ rpcLibrary, n ∉ rpcLocals f := by
    have : ∀ n ∈ rpcLibrary, n ∉ ["result"] := by decide
    intro n hn'
    unfold rpcLocals
    simp only [ha, Bool.false_eq_true, if_false]
    split
    · simp
    · exact this n hn'
  constructor
  · rintro ⟨⟨h1, -⟩, h2, -, h3⟩
    obtain ⟨p1, p2, p3⟩ := hpar.1 h2
    obtain ⟨b1, b2, b3, -, b5⟩ := hbody.1 h3
    have b1 := (call_iff hS (fun v hv => private_free (fun a ha => (p2 a ha).2) hv)).1 b1
    have b3 := (hw p1).1 b3
    have hsub : ∀ n, n ∉ bodyNames x f → n ∉ f.args.map (fun a => x.camel a.id) := fun n h hm => h (List.mem_append_right _ hm)
    refine ⟨b1.1, ?_, fun _ a ha => free_append.2 ⟨p3 a ha, (b3 a ha).1⟩,
      fun t ht => free_append.2 ⟨(b5 t ht).1, (b5 t ht).2.2.2.2.2⟩, fun _ => ⟨p1, p2, ?_, ?_, fun a ha => (b3 a ha).2.1, ?_⟩, ?_⟩
    · rw [huses, free_append, free_cons, free_cons]
      refine ⟨⟨b1.2.2, b2.1, free_nil⟩, ?_⟩
      cases h : f.returnTypeId with
      | none => simp [free_nil]
      | some t => simpa [free_cons, free_nil] using (b5 t h).2.2.1
    · exact fun a ha => ⟨(b3 a ha).2.2.1, fun hm => by simpa using (b3 a ha).2.2.2 hm⟩
    · rw [hbuses, free_append, free_cons, free_cons]
      refine ⟨⟨hsub _ b1.2.1, hsub _ b2.2, free_nil⟩, ?_⟩
      cases h : f.returnTypeId with
      | none => simp [free_nil]
      | some t => simpa [free_cons, free_nil] using hsub _ (b5 t h).2.2.2.1
    · exact fun t ht => ⟨(b5 t ht).2.1, fun _ => (b5 t ht).2.2.2.2.1⟩
    · simp [hr, ha]
  · intro h
    have hb := h.bodies hr
    have hu1 := h.uses
    have hu2 := hb.uses
    rw [huses, free_append, free_cons, free_cons] at hu1
    rw [hbuses, free_append, free_cons, free_cons] at hu2
    have hsub : ∀ n ∈ rpcLibrary, n ∉ f.args.map (fun a => x.camel a.id) → n ∉ bodyNames x f := fun n hn' h hm =>
      (List.mem_append.1 hm).elim (hloc n hn') h
    have hse' : ∀ t, f.returnTypeId = some t → "StateError" ∉ clientNames x S ++ dartClasses S ∧ "StateError" ∉ bodyNames x f := by
      intro t ht
      simp only [ht, reduceCtorEq, if_false, free_cons] at hu1 hu2
      exact ⟨hu1.2.1, hsub _ (by decide) hu2.2.1⟩
    refine ⟨⟨hres.2 fun t ht => (free_append.1 (h.results t ht)).1, by simp [genSync]⟩,
      hpar.2 ⟨hb.once, hb.names, fun a ha => (free_append.1 (h.args hr a ha)).1⟩, ?_, hbody.2 ⟨?_, ?_, (hw hb.once).2 ?_, ?_, ?_⟩⟩
    · rw [hl]
      unfold rpcLocals
      simp only [ha, Bool.false_eq_true, if_false]
      split <;> simp
    · exact (call_iff hS (fun v hv => private_free (fun a ha => (hb.names a ha).2) hv)).2
        ⟨h.number, hsub _ (by decide) hu2.1.1, hu1.1.1⟩
    · exact ⟨hu1.1.2.1, hsub _ (by decide) hu2.1.2.1⟩
    · intro a hm
      refine ⟨(free_append.1 (h.args hr a hm)).2, hb.writes a hm, (hb.args a hm).1, fun hc => ?_⟩
      have := ((hb.args a hm).2 hc).1
      simp [ha] at this
    · exact private_free (fun a ha => (hb.names a ha).2) (by decide)
    · exact fun t ht => ⟨(free_append.1 (h.results t ht)).1, (hb.result t ht).1, (hse' t ht).1, (hse' t ht).2,
        (hb.result t ht).2 ha, (free_append.1 (h.results t ht)).2⟩

omit hS hT hu in
theorem mem_member {m : Member} (hm : m ∈ genMembers x f) : m ∈ (genClient x ns scope S).members := by
  simp only [genClient, Props.findFnNodes_eq]
  exact List.mem_flatMap.2 ⟨f, hf, hm⟩

theorem asyncConnect_iff (hr : f.isRead = false) (ha : f.isAsync = true) :
    DMethodTyped (env x L S ns scope) (genAsyncConnect x f) ↔
    f.position < 2 ^ 63 ∧ "TechPawsRuntimeRpcMethodBuffer" ∉ clientNames x S ++ dartClasses S ∧
      "TechPawsRpcBufferStatus" ∉ clientNames x S ++ dartClasses S ∧
      ∀ t ∈ f.returnTypeId, Free (clientNames x S) (codecNames t) ∧
        Free ["reader", "status", "result", "methodId"] (codecNames t) := by
  have hst : (env x L S ns scope).Lib "TechPawsRpcBufferStatus" ↔ _ := lib_iff hS (by decide)
  have hbody : BodyStmts (env x L S ns scope) (genAsyncConnect x f) [] (genAsyncConnect x f).body ↔
      CallTyped (env x L S ns scope) [] f.position ∧ "TechPawsRpcBufferStatus" ∉ clientNames x S ++ dartClasses S ∧
      ∀ t ∈ f.returnTypeId, Free (clientNames x S) (codecNames t) ∧ Free ["reader", "status", "result", "methodId"] (codecNames t) := by
    have h1 : (genAsyncConnect x f).ret = .named "void" ∧ (genAsyncConnect x f).future = false := ⟨rfl, rfl⟩
    have hsn : (bodyScope (genAsyncConnect x f) []).names = [] := rfl
    have hb : (genAsyncConnect x f).body = [.connect (varReadTask x f) f.position .client
      (genReaderHead ++ [.letMethodId] ++ genComplete x f ++ [.remove (varMethodCompleters x f)])] := rfl
    have m1 : .task (varReadTask x f) ∈ (genClient x ns scope S).members := mem_member hf (by simp [genMembers, hr, ha])
    have m2 : .completers (varMethodCompleters x f) (retTy f) ∈ (genClient x ns scope S).members :=
      mem_member hf (by simp [genMembers, hr, ha])
    have hv : varMethodCompleters x f ≠ "reader" ∧ varMethodCompleters x f ≠ "status" ∧ varMethodCompleters x f ≠ "result"
        ∧ varMethodCompleters x f ≠ "methodId" := by
      have : ∀ n ∈ ["reader", "status", "result", "methodId"], n.toList.head? ≠ some '_' := by decide
      have h : (varMethodCompleters x f).toList.head? = some '_' := by simp [varMethodCompleters]
      refine ⟨?_, ?_, ?_, ?_⟩ <;> exact fun e => this _ (by decide) (e ▸ h)
    have m3 : ∃ t, .completers (varMethodCompleters x f) t ∈ (genClient x ns scope S).members := ⟨_, m2⟩
    rw [hb]
    simp only [BodyStmts, hsn, h1, and_true, m1, List.not_mem_nil, not_false_eq_true, true_and]
    refine and_congr_right fun _ => ?_
    cases h : f.returnTypeId with
    | none =>
      have m4 : ∃ t, .completers (varMethodCompleters x f) t ∈ (genClient x ns scope S).members ∧ t = .named "void" :=
        ⟨_, m2, by simp [retTy, h]⟩
      simp only [genReaderHead, genComplete, h, List.cons_append, List.nil_append, ReaderClosure, readerLocals, ReaderTyped, hst]
      simp [hv, m3, m4]
    | some t =>
      have hx := (hu f hf).2 t h
      have m4 : .completers (varMethodCompleters x f) (dartTy t) ∈ (genClient x ns scope S).members := by
        simpa [retTy, h, genTy_eq] using m2
      simp only [genReaderHead, genComplete, h, List.cons_append, List.nil_append, ReaderClosure, readerLocals, ReaderTyped, hst,
        read_iff hS hT hx.1 hx.2, classNames_eq]
      simp [hv, m3, Free]
      grind
  have hc := call_iff (x := x) (L := L) (ns := ns) (scope := scope) hS (N := []) (by simp) (addr := f.position)
  constructor
  · rintro ⟨-, -, -, h⟩
    obtain ⟨h1, h2, h3⟩ := hbody.1 h
    have h1 := hc.1 h1
    exact ⟨h1.1, h1.2.2, h2, h3⟩
  · intro h
    exact ⟨⟨.inl rfl, by simp [genAsyncConnect]⟩, ⟨by simp [genAsyncConnect], by simp [genAsyncConnect]⟩, by
      simp [genAsyncConnect, bodyLocals], hbody.2 ⟨hc.2 ⟨h.1, by simp, h.2.1⟩, h.2.2.1, h.2.2.2⟩⟩

theorem readConnect_iff (hr : f.isRead = true) :
    DMethodTyped (env x L S ns scope) (genReadConnect x f) ↔
    f.position < 2 ^ 63 ∧ "TechPawsRuntimeRpcMethodBuffer" ∉ clientNames x S ++ dartClasses S ∧
      "TechPawsRpcBufferStatus" ∉ clientNames x S ++ dartClasses S ∧
      ∀ t ∈ f.returnTypeId, Free (clientNames x S) (codecNames t) ∧ Free ["reader", "status", "result"] (codecNames t) := by
  have hst : (env x L S ns scope).Lib "TechPawsRpcBufferStatus" ↔ _ := lib_iff hS (by decide)
  have hbody : BodyStmts (env x L S ns scope) (genReadConnect x f) [] (genReadConnect x f).body ↔
      CallTyped (env x L S ns scope) [] f.position ∧ "TechPawsRpcBufferStatus" ∉ clientNames x S ++ dartClasses S ∧
      ∀ t ∈ f.returnTypeId, Free (clientNames x S) (codecNames t) ∧ Free ["reader", "status", "result"] (codecNames t) := by
    have h1 : (genReadConnect x f).ret = .named "void" ∧ (genReadConnect x f).future = false := ⟨rfl, rfl⟩
    have hsn : (bodyScope (genReadConnect x f) []).names = [] := rfl
    have hb : (genReadConnect x f).body = [.connect (varReadTask x f) f.position .client (genReaderHead ++ genAdd x f)] := rfl
    have m1 : .task (varReadTask x f) ∈ (genClient x ns scope S).members := mem_member hf (by simp [genMembers, hr])
    have m2 : .controller (varReadStreamController x f) (retTy f) ∈ (genClient x ns scope S).members :=
      mem_member hf (by simp [genMembers, hr])
    have hv : varReadStreamController x f ≠ "reader" ∧ varReadStreamController x f ≠ "status" ∧
        varReadStreamController x f ≠ "result" := by
      have : ∀ n ∈ ["reader", "status", "result"], n.toList.head? ≠ some '_' := by decide
      have h : (varReadStreamController x f).toList.head? = some '_' := by simp [varReadStreamController]
      refine ⟨?_, ?_, ?_⟩ <;> exact fun e => this _ (by decide) (e ▸ h)
    rw [hb]
    simp only [BodyStmts, hsn, h1, and_true, m1, List.not_mem_nil, not_false_eq_true, true_and]
    refine and_congr_right fun _ => ?_
    cases h : f.returnTypeId with
    | none =>
      have m4 : ∃ t, .controller (varReadStreamController x f) t ∈ (genClient x ns scope S).members ∧ t = .named "void" :=
        ⟨_, m2, by simp [retTy, h]⟩
      simp only [genReaderHead, genAdd, h, List.cons_append, List.nil_append, ReaderClosure, readerLocals, ReaderTyped, hst]
      simp [hv, m4]
    | some t =>
      have hx := (hu f hf).2 t h
      have m4 : .controller (varReadStreamController x f) (dartTy t) ∈ (genClient x ns scope S).members := by
        simpa [retTy, h, genTy_eq] using m2
      simp only [genReaderHead, genAdd, h, List.cons_append, List.nil_append, ReaderClosure, readerLocals, ReaderTyped, hst,
        read_iff hS hT hx.1 hx.2, classNames_eq]
      simp [hv, Free]
      grind
  have hc := call_iff (x := x) (L := L) (ns := ns) (scope := scope) hS (N := []) (by simp) (addr := f.position)
  constructor
  · rintro ⟨-, -, -, h⟩
    obtain ⟨h1, h2, h3⟩ := hbody.1 h
    have h1 := hc.1 h1
    exact ⟨h1.1, h1.2.2, h2, h3⟩
  · intro h
    exact ⟨⟨.inl rfl, by simp [genReadConnect]⟩, ⟨by simp [genReadConnect], by simp [genReadConnect]⟩, by
      simp [genReadConnect, bodyLocals], hbody.2 ⟨hc.2 ⟨h.1, by simp, h.2.1⟩, h.2.2.1, h.2.2.2⟩⟩

/-- What the method that sends the request of an asynchronous method needs. -/
structure AsyncOk (x : Ext) (S : List ASTNode) (f : FnNode) : Prop where
  number : f.position < 2 ^ 63
  uses : Free (clientNames x S ++ dartClasses S)
    ["TechPawsRuntimeRpcMethodBuffer", "TechPawsRpcBufferStatus", "Completer", "Future", "rotateMethodId"]
  args : ∀ a ∈ f.args, Free (clientNames x S) ((dartTy a.typeId).names ++ codecNames a.typeId)
  results : ∀ t ∈ f.returnTypeId, Free (clientNames x S) (dartTy t).names
  body : BodyOk x f

theorem async_iff (hn : ∀ n ∈ clientNames x S, DartName n) (hr : f.isRead = false) (ha : f.isAsync = true) :
    DMethodTyped (env x L S ns scope) (genAsync x f) ↔ AsyncOk x S f := by
  have hl := locals_async (x := x) ha
  have hsn := scope_names (x := x) hl rfl
  have hw := fun hd => writes_iff (ns := ns) (scope := scope) hS hT hu hf hl rfl hd [("methodId", .named "int")]
  have hres := result_iff (ns := ns) (scope := scope) hS hT hu hf hn
  have hpar := params_iff (ns := ns) (scope := scope) hS hT hu hf (m := genAsync x f) rfl
  have hst : (env x L S ns scope).Lib "TechPawsRpcBufferStatus" ↔ _ := lib_iff hS (by decide)
  have hco : (env x L S ns scope).Lib "Completer" ↔ _ := lib_iff hS (by decide)
  have hro : (env x L S ns scope).Lib "rotateMethodId" ↔ _ := lib_iff hS (by decide)
  have hfu : (env x L S ns scope).Lib "Future" ↔ _ := lib_iff hS (by decide)
  have hloc : rpcLocals f = ["methodId", "completer"] := by simp [rpcLocals, ha]
  have hws : Scope.names (("writer", none) :: bodyScope (genAsync x f) [("methodId", .named "int")]) = "writer" :: bodyNames x f := by
    rw [← hsn [("methodId", .named "int")]]; rfl
  have hbuses : rpcBodyUses f = ["TechPawsRuntimeRpcMethodBuffer", "TechPawsRpcBufferStatus", "Completer", "rotateMethodId"] := by
    simp [rpcBodyUses, ha]
  have hp1 : (varLastMethodId x f).toList.head? = some '_' := by simp [varLastMethodId]
  have hp2 : (varMethodCompleters x f).toList.head? = some '_' := by simp [varMethodCompleters]
  have hbody : (∀ a ∈ f.args, DartName (x.camel a.id) ∧ Public (x.camel a.id)) →
      (BodyStmts (env x L S ns scope) (genAsync x f) [] (genAsync x f).body ↔
      CallTyped (env x L S ns scope) (bodyNames x f) f.position ∧
      ("TechPawsRpcBufferStatus" ∉ clientNames x S ++ dartClasses S ∧ "TechPawsRpcBufferStatus" ∉ bodyNames x f) ∧
      (∀ w ∈ genArgWrites x f, WStmtTyped (env x L S ns scope)
        (("writer", none) :: bodyScope (genAsync x f) [("methodId", .named "int")]) w) ∧
      ("Completer" ∉ clientNames x S ++ dartClasses S ∧ "Completer" ∉ bodyNames x f) ∧
      ("rotateMethodId" ∉ clientNames x S ++ dartClasses S ∧ "rotateMethodId" ∉ bodyNames x f) ∧
      ∀ t ∈ f.returnTypeId, Free (clientNames x S) (dartTy t).names ∧ Free (bodyNames x f) (dartTy t).names) := by
    intro hpub
    have hb : (genAsync x f).body = [.letMethodId (varLastMethodId x f), .rotate (varLastMethodId x f), .blank,
      .write false f.position .server (.status :: .methodId :: genArgWrites x f), .blank,
      .letCompleter (retTy f), .store (varMethodCompleters x f), .blank, .retFuture] := rfl
    have hm : (genAsync x f).ret = retTy f ∧ (genAsync x f).future = true := ⟨rfl, rfl⟩
    have h2 : WStmtTyped (env x L S ns scope) (("writer", none) :: bodyScope (genAsync x f) [("methodId", .named "int")]) .status ↔
        "TechPawsRpcBufferStatus" ∉ clientNames x S ++ dartClasses S ∧ "TechPawsRpcBufferStatus" ∉ "writer" :: bodyNames x f := by
      rw [← hst, ← hws]; rfl
    have h3 : WStmtTyped (env x L S ns scope) (("writer", none) :: bodyScope (genAsync x f) [("methodId", .named "int")]) .methodId := by
      show List.lookup "methodId" (("writer", none) :: bodyScope (genAsync x f) [("methodId", .named "int")]) = _
      simp only [bodyScope, hl, hloc]
      rfl
    have m1 : .lastId (varLastMethodId x f) ∈ (genClient x ns scope S).members := mem_member hf (by simp [genMembers, hr, ha])
    have m2 : .completers (varMethodCompleters x f) (retTy f) ∈ (genClient x ns scope S).members :=
      mem_member hf (by simp [genMembers, hr, ha])
    have v1 : varLastMethodId x f ∉ bodyNames x f := private_free (fun a ha => (hpub a ha).2) hp1
    have v2 : varMethodCompleters x f ∉ bodyNames x f := private_free (fun a ha => (hpub a ha).2) hp2
    have hvoid : Free (bodyNames x f) (retTy f).names ↔ ∀ t ∈ f.returnTypeId, Free (bodyNames x f) (dartTy t).names := by
      cases h : f.returnTypeId with
      | none =>
        simp only [retTy, h, Ty.names, free_cons, free_nil, and_true, Option.mem_def, reduceCtorEq, false_implies, implies_true, iff_true]
        intro hm
        rcases List.mem_append.1 hm with hm | hm
        · rw [hloc] at hm
          exact absurd hm (by decide)
        · obtain ⟨a, ha, e⟩ := List.mem_map.1 hm
          exact (hpub a ha).1.2 (e ▸ (by decide))
      | some t => simp [retTy, h, genTy_eq]
    have hx : ∃ t, .completers (varMethodCompleters x f) t ∈ (genClient x ns scope S).members ∧
        ("completer", .app "Completer" [t]) ∈ [("completer", Ty.app "Completer" [retTy f]), ("methodId", .named "int")] :=
      ⟨_, m2, by simp⟩
    rw [hb]
    simp only [BodyStmts, hsn, List.forall_mem_cons, h2, h3, m1, v1, v2, hx, hm, hco, hro, hres, hvoid, not_false_eq_true, true_and]
    simp
    grind
  have hsub : ∀ n, n ∉ bodyNames x f → n ∉ f.args.map (fun a => x.camel a.id) := fun n h hm => h (List.mem_append_right _ hm)
  have hsub' : ∀ n ∈ rpcLibrary, n ∉ f.args.map (fun a => x.camel a.id) → n ∉ bodyNames x f := by
    have : ∀ n ∈ rpcLibrary, n ∉ ["methodId", "completer"] := by decide
    intro n hn' h hm
    rcases List.mem_append.1 hm with hm | hm
    · exact this n hn' (hloc ▸ hm)
    · exact h hm
  constructor
  · rintro ⟨⟨h1, h1'⟩, h2, -, h3⟩
    obtain ⟨p1, p2, p3⟩ := hpar.1 h2
    obtain ⟨b1, b2, b3, b4, b5, b6⟩ := (hbody p2).1 h3
    have b1 := (call_iff hS (fun v hv => private_free (fun a ha => (p2 a ha).2) hv)).1 b1
    have b3 := (hw p1).1 b3
    refine ⟨b1.1, ?_, fun a ha => free_append.2 ⟨p3 a ha, (b3 a ha).1⟩, fun t ht => (b6 t ht).1,
      ⟨p1, p2, ?_, ?_, fun a ha => (b3 a ha).2.1, fun t ht => ⟨(b6 t ht).2, by simp [ha]⟩⟩⟩
    · simp only [free_cons, free_nil, and_true]
      exact ⟨b1.2.2, b2.1, b4.1, hfu.1 (h1' rfl), b5.1⟩
    · refine fun a hm => ⟨(b3 a hm).2.2.1, fun hc => ?_⟩
      have hk := (b3 a hm).2.2.2 hc
      rw [hloc, List.mem_cons, List.mem_singleton] at hc
      rcases hc with hc | hc
      · rw [hc] at hk
        simp at hk
        exact ⟨ha, hc, hk.symm⟩
      · rw [hc] at hk
        simp [List.lookup] at hk
    · rw [hbuses]
      simp only [free_cons, free_nil, and_true]
      exact ⟨hsub _ b1.2.1, hsub _ b2.2, hsub _ b4.2, hsub _ b5.2⟩
  · intro h
    have hb := h.body
    have hu1 := h.uses
    have hu2 := hb.uses
    rw [hbuses] at hu2
    simp only [free_cons, free_nil, and_true] at hu1 hu2
    refine ⟨⟨hres.2 h.results, fun _ => hfu.2 hu1.2.2.2.1⟩,
      hpar.2 ⟨hb.once, hb.names, fun a ha => (free_append.1 (h.args a ha)).1⟩, ?_, (hbody hb.names).2 ⟨?_, ?_, (hw hb.once).2 ?_, ?_, ?_, ?_⟩⟩
    · rw [hl, hloc]; decide
    · exact (call_iff hS (fun v hv => private_free (fun a ha => (hb.names a ha).2) hv)).2
        ⟨h.number, hsub' _ (by decide) hu2.1, hu1.1⟩
    · exact ⟨hu1.2.1, hsub' _ (by decide) hu2.2.1⟩
    · intro a hm
      refine ⟨(free_append.1 (h.args a hm)).2, hb.writes a hm, (hb.args a hm).1, fun hc => ?_⟩
      obtain ⟨-, e, e'⟩ := (hb.args a hm).2 hc
      rw [e, e']
      rfl
    · exact ⟨hu1.2.2.1, hsub' _ (by decide) hu2.2.2.1⟩
    · exact ⟨hu1.2.2.2.2, hsub' _ (by decide) hu2.2.2.2⟩
    · exact fun t ht => ⟨h.results t ht, (hb.result t ht).1⟩

theorem method_iff (hn : ∀ n ∈ clientNames x S, DartName n) :
    ((∀ m ∈ genDMethods x f, DMethodTyped (env x L S ns scope) m) ∧
      (∀ m ∈ genMembers x f, MemberTyped (env x L S ns scope) m) ∧
      ∀ g ∈ genGetters x f, (env x L S ns scope).Lib "Stream" ∧ (env x L S ns scope).Result g.ty ∧
        .controller g.controller g.ty ∈ (genClient x ns scope S).members) ↔ MethodOk x S f := by
  have hres := result_iff (ns := ns) (scope := scope) hS hT hu hf hn
  have l1 : (env x L S ns scope).Lib "Stream" ↔ _ := lib_iff hS (by decide)
  have l2 : (env x L S ns scope).Lib "StreamController" ↔ _ := lib_iff hS (by decide)
  have l3 : (env x L S ns scope).Lib "TechPawsRuntimeRpcReadTask" ↔ _ := lib_iff hS (by decide)
  have l4 : (env x L S ns scope).Lib "int" ↔ _ := lib_iff hS (by decide)
  have l5 : (env x L S ns scope).Lib "Completer" ↔ _ := lib_iff hS (by decide)
  cases hr : f.isRead with
  | true =>
    have hd : genDMethods x f = [genReadConnect x f] := by simp [genDMethods, hr]
    have hm : genMembers x f = [.blank, .task (varReadTask x f), .controller (varReadStreamController x f) (retTy f)] := by
      simp [genMembers, hr]
    have hg : genGetters x f = [⟨retTy f, x.camel f.id, varReadStreamController x f⟩] := by simp [genGetters, hr]
    have hc : .controller (varReadStreamController x f) (retTy f) ∈ (genClient x ns scope S).members :=
      mem_member hf (by simp [hm])
    have hb := readConnect_iff (ns := ns) (scope := scope) hS hT hu hf hr
    have huses : rpcUses f = ["TechPawsRuntimeRpcMethodBuffer", "TechPawsRpcBufferStatus", "TechPawsRuntimeRpcReadTask",
      "StreamController", "Stream"] := by simp [rpcUses, hr]
    simp only [hd, hm, hg, List.forall_mem_cons, MemberTyped, hb, hres, l1, l2, l3, hc, and_true, true_and]
    constructor
    · rintro ⟨⟨⟨h1, h2, h3, h4⟩, -⟩, ⟨h5, ⟨h6, h7⟩, -⟩, ⟨h8, -⟩, -⟩
      refine ⟨h1, ?_, by simp [hr], fun t ht => free_append.2 ⟨h7 t ht, (h4 t ht).1⟩, by simp [hr], ?_⟩
      · rw [huses]
        simp only [free_cons, free_nil, and_true]
        exact ⟨h2, h3, h5, h6, h8⟩
      · simpa [hr] using fun t ht => (h4 t ht).2
    · intro h
      have hu' := h.uses
      have hrd := h.readers (.inl hr)
      rw [huses] at hu'
      simp only [free_cons, free_nil, and_true] at hu'
      simp only [hr, if_true, List.append_nil] at hrd
      have hty := fun t ht => (free_append.1 (h.results t ht)).1
      exact ⟨⟨⟨h.number, hu'.1, hu'.2.1, fun t ht => ⟨(free_append.1 (h.results t ht)).2, hrd t ht⟩⟩, by simp⟩,
        ⟨hu'.2.2.1, ⟨hu'.2.2.2.1, hty⟩, by simp⟩, ⟨hu'.2.2.2.2, hty⟩, by simp⟩
  | false =>
    cases ha : f.isAsync with
    | false =>
      have hd : genDMethods x f = [genSync x f] := by simp [genDMethods, hr, ha]
      have hm : genMembers x f = [] := by simp [genMembers, hr, ha]
      have hg : genGetters x f = [] := by simp [genGetters, hr]
      simp [hd, hm, hg, sync_iff hS hT hu hf hn hr ha]
    | true =>
      have hd : genDMethods x f = [genAsyncConnect x f, genAsync x f] := by simp [genDMethods, hr, ha]
      have hm : genMembers x f = [.blank, .lastId (varLastMethodId x f), .completers (varMethodCompleters x f) (retTy f),
        .task (varReadTask x f)] := by simp [genMembers, hr, ha]
      have hg : genGetters x f = [] := by simp [genGetters, hr]
      have hb := asyncConnect_iff (ns := ns) (scope := scope) hS hT hu hf hr ha
      have hb' := async_iff (ns := ns) (scope := scope) hS hT hu hf hn hr ha
      have huses : rpcUses f = ["TechPawsRuntimeRpcMethodBuffer", "TechPawsRpcBufferStatus", "TechPawsRuntimeRpcReadTask",
        "int", "Completer", "Future", "rotateMethodId"] := by simp [rpcUses, hr, ha]
      simp only [hd, hm, hg, List.forall_mem_cons, MemberTyped, hb, hb', hres, l3, l4, l5, true_and]
      constructor
      · rintro ⟨⟨⟨h1, h2, h3, h4⟩, h, -⟩, ⟨h5, ⟨-, -, h7⟩, h8, -⟩, -⟩
        have hu' := h.uses
        simp only [free_cons, free_nil, and_true] at hu'
        refine ⟨h1, ?_, fun _ => h.args, fun t ht => free_append.2 ⟨h7 t ht, (h4 t ht).1⟩, fun _ => h.body, ?_⟩
        · rw [huses]
          simp only [free_cons, free_nil, and_true]
          exact ⟨h2, h3, h8, h5, hu'.2.2.1, hu'.2.2.2.1, hu'.2.2.2.2⟩
        · simpa [hr] using fun _ t ht => (h4 t ht).2
      · intro h
        have hu' := h.uses
        have hrd := h.readers (.inr ha)
        rw [huses] at hu'
        simp only [free_cons, free_nil, and_true] at hu'
        simp only [hr, Bool.false_eq_true, if_false, List.cons_append, List.nil_append] at hrd
        have hty := fun t ht => (free_append.1 (h.results t ht)).1
        refine ⟨⟨⟨h.number, hu'.1, hu'.2.1, fun t ht => ⟨(free_append.1 (h.results t ht)).2, hrd t ht⟩⟩, ?_, by simp⟩,
          ⟨hu'.2.2.2.1, ⟨hu'.2.2.2.1, hu'.2.2.2.2.1, hty⟩, hu'.2.2.1, by simp⟩, by simp⟩
        refine ⟨h.number, ?_, h.args hr, hty, h.bodies hr⟩
        simp only [free_cons, free_nil, and_true]
        exact ⟨hu'.1, hu'.2.1, hu'.2.2.2.2.1, hu'.2.2.2.2.2.1, hu'.2.2.2.2.2.2⟩

end

/-- What the schema says about each method. -/
theorem typable_iff : DartRpcTypable x S ns scope ↔
    (DartTypeName (x.pascal ns ++ "RpcClient") ∧ x.pascal ns ++ "RpcClient" ∉ dartClasses S) ∧ PlainText scope ∧
    (clientNames x S).Nodup ∧
    (∀ n ∈ clientNames x S, DartName n ∧ n ≠ x.pascal ns ++ "RpcClient" ∧ n ∉ ["hashCode", "runtimeType", "noSuchMethod"]) ∧
    (∀ f ∈ methodsOf S, x.camel f.id = "toString" → f.isRead = false ∧ f.isAsync = false ∧ f.args = [] ∧
      f.returnTypeId = some (.other "String") ∧ "String" ∉ dartClasses S) ∧
    "TechPawsRuntimeRpcScheduler" ∉ clientNames x S ++ dartClasses S ∧ ∀ f ∈ methodsOf S, MethodOk x S f := by
  constructor
  · rintro ⟨h1, h2, h3, h4, h5, h6, h7, h8, h9, h10, h11⟩
    rw [free_cons] at h7
    exact ⟨h1, h2, h3, h4, h5, h7.1, fun f hf => ⟨h6 f hf, fun n hn => h7.2 n (List.mem_flatMap.2 ⟨f, hf, hn⟩), h8 f hf, h9 f hf,
      h10 f hf, h11 f hf⟩⟩
  · rintro ⟨h1, h2, h3, h4, h5, h6, h⟩
    refine ⟨h1, h2, h3, h4, h5, fun f hf => (h f hf).number, free_cons.2 ⟨h6, fun n hn => ?_⟩, fun f hf => (h f hf).args,
      fun f hf => (h f hf).results, fun f hf => (h f hf).bodies, fun f hf => (h f hf).readers⟩
    obtain ⟨f, hf, hn⟩ := List.mem_flatMap.1 hn
    exact (h f hf).uses n hn

theorem ty_string {t : TypeId} (h : dartTy t = .named "String") : t = .other "String" := by
  cases t <;> simp_all [dartTy]

theorem private_ne {n m : String} (h : n.toList.head? = some '_') (hm : m.toList.head? ≠ some '_') : n ≠ m :=
  fun e => hm (e ▸ h)

theorem mem_getters {g : Getter} : g ∈ (genClient x ns scope S).getters ↔ ∃ f ∈ methodsOf S, g ∈ genGetters x f := by
  simp only [genClient, Props.findFnNodes_eq, List.mem_flatMap]

theorem mem_dmethods {m : DMethod} : m ∈ (genClient x ns scope S).methods ↔ ∃ f ∈ methodsOf S, m ∈ genDMethods x f := by
  simp only [genClient, Props.findFnNodes_eq, List.mem_flatMap]

theorem mem_all_members {m : Member} : m ∈ (genClient x ns scope S).members ↔ ∃ f ∈ methodsOf S, m ∈ genMembers x f := by
  simp only [genClient, Props.findFnNodes_eq, List.mem_flatMap]

theorem toString_iff (hS : Plain S) :
    ("toString" ∈ clientNames x S → "toString" ∉ (genClient x ns scope S).getters.map (·.name) ∧
      ∀ m ∈ (genClient x ns scope S).methods, m.name = "toString" → m.future = false ∧ m.params = [] ∧ m.ret = .named "String" ∧
        "String" ∉ (fileOf x S).names) ↔
    ∀ f ∈ methodsOf S, x.camel f.id = "toString" → f.isRead = false ∧ f.isAsync = false ∧ f.args = [] ∧
      f.returnTypeId = some (.other "String") ∧ "String" ∉ dartClasses S := by
  have hc : ∀ f, connectName x f ≠ "toString" := fun f => private_ne (by simp [connectName]) (by decide)
  constructor
  · intro h f hf e
    have hm : "toString" ∈ clientNames x S := by
      simp only [clientNames, List.mem_append, List.mem_flatMap]
      cases hr : f.isRead with
      | true => exact .inl (.inr ⟨f, hf, by simp [clientStreams, hr, e]⟩)
      | false => exact .inr ⟨f, hf, by cases ha : f.isAsync <;> simp [clientMethods, hr, ha, e]⟩
    obtain ⟨h1, h2⟩ := h hm
    have hr : f.isRead = false := by
      cases hr : f.isRead with
      | false => rfl
      | true =>
        exact absurd (List.mem_map.2 ⟨_, mem_getters.2 ⟨f, hf, by rw [genGetters, hr, if_pos rfl]; exact List.mem_singleton.2 rfl⟩, e⟩) h1
    have ha : f.isAsync = false := by
      cases ha : f.isAsync with
      | false => rfl
      | true =>
        have := (h2 (genAsync x f) (mem_dmethods.2 ⟨f, hf, by simp [genDMethods, hr, ha]⟩) e).1
        simp [genAsync] at this
    obtain ⟨-, h3, h4, h5⟩ := h2 (genSync x f) (mem_dmethods.2 ⟨f, hf, by simp [genDMethods, hr, ha]⟩) e
    refine ⟨hr, ha, by simpa [genSync, genParams] using h3, ?_, fun hm => h5 ((names_iff hS _).2 hm)⟩
    simp only [genSync, retTy] at h4
    cases ht : f.returnTypeId with
    | none => simp [ht] at h4
    | some t =>
      simp only [ht, genTy_eq] at h4
      rw [ty_string h4]
  · intro h _
    constructor
    · intro hm
      obtain ⟨g, hg, e⟩ := List.mem_map.1 hm
      obtain ⟨f, hf, hg⟩ := mem_getters.1 hg
      unfold genGetters at hg
      cases hr : f.isRead with
      | false => simp [hr] at hg
      | true =>
        simp only [hr, if_true, List.mem_singleton] at hg
        subst hg
        simpa [hr] using (h f hf e).1
    · intro m hm e
      obtain ⟨f, hf, hm⟩ := mem_dmethods.1 hm
      unfold genDMethods at hm
      cases hr : f.isRead with
      | true =>
        simp only [hr, if_true, List.mem_singleton] at hm
        subst hm
        exact absurd e (hc f)
      | false =>
        simp only [hr, Bool.false_eq_true, if_false] at hm
        cases ha : f.isAsync with
        | true =>
          simp only [ha, if_true, List.mem_cons, List.not_mem_nil, or_false] at hm
          rcases hm with rfl | rfl
          · exact absurd e (hc f)
          · simpa [ha] using (h f hf e).2.1
        | false =>
          simp only [ha, Bool.false_eq_true, if_false, List.mem_singleton] at hm
          subst hm
          obtain ⟨-, -, h3, h4, h5⟩ := h f hf e
          exact ⟨rfl, by simp [genSync, genParams, h3], by simp [genSync, retTy, h4, genTy], fun hm => h5 ((names_iff hS _).1 hm)⟩

/-- **The client class is accepted exactly for the schemas described in `DartRpcTypable`.** -/
theorem client_iff (hS : Plain S) (hT : DartTypable x L S) (hu : RpcTypesUsable L S) :
    ClientTyped (env x L S ns scope) ↔ DartRpcTypable x S ns scope := by
  have hnames : (∀ n ∈ classNames (env x L S ns scope).c, DartName n ∧ n ≠ (env x L S ns scope).c.name ∧
      Overrides (env x L S ns scope) n) ↔
      (∀ n ∈ clientNames x S, DartName n ∧ n ≠ x.pascal ns ++ "RpcClient" ∧ n ∉ ["hashCode", "runtimeType", "noSuchMethod"]) ∧
      (∀ f ∈ methodsOf S, x.camel f.id = "toString" → f.isRead = false ∧ f.isAsync = false ∧ f.args = [] ∧
        f.returnTypeId = some (.other "String") ∧ "String" ∉ dartClasses S) := by
    rw [← toString_iff (ns := ns) (scope := scope) hS, classNames_eq]
    constructor
    · exact fun h => ⟨fun n hn => ⟨(h n hn).1, (h n hn).2.1, (h n hn).2.2.1⟩, fun hn => (h _ hn).2.2.2 rfl⟩
    · rintro ⟨h1, h2⟩ n hn
      exact ⟨(h1 n hn).1, (h1 n hn).2.1, (h1 n hn).2.2, fun e => by subst e; exact h2 hn⟩
  have hsch : (env x L S ns scope).Lib "TechPawsRuntimeRpcScheduler" ↔ _ := lib_iff hS (by decide)
  rw [typable_iff]
  constructor
  · rintro ⟨h1, h2, h3, h4, h5, h6, h7, h8, h9, h10⟩
    obtain ⟨h4, h4'⟩ := hnames.1 h4
    refine ⟨⟨h1.1, fun hm => h1.2 ((names_iff hS _).2 hm)⟩, h2, by rwa [classNames_eq] at h3, h4, h4', hsch.1 h5, fun f hf => ?_⟩
    refine (method_iff (ns := ns) (scope := scope) hS hT hu hf (fun n hn => (h4 n hn).1)).1 ⟨?_, ?_, ?_⟩
    · exact fun m hm => h10 m (mem_dmethods.2 ⟨f, hf, hm⟩)
    · exact fun m hm => h7 m (mem_all_members.2 ⟨f, hf, hm⟩)
    · exact fun g hg => h8 g (mem_getters.2 ⟨f, hf, hg⟩)
  · rintro ⟨h1, h2, h3, h4, h4', h5, h⟩
    have hm := fun f hf => (method_iff (ns := ns) (scope := scope) hS hT hu hf (fun n hn => (h4 n hn).1)).2 (h f hf)
    refine ⟨⟨h1.1, fun hm => h1.2 ((names_iff hS _).1 hm)⟩, h2, by rw [classNames_eq]; exact h3, hnames.2 ⟨h4, h4'⟩, hsch.2 h5,
      ?_, ?_, ?_, ?_, ?_⟩
    · intro n hn
      simp only [genClient, Props.findFnNodes_eq, List.mem_flatMap] at hn
      obtain ⟨f, hf, hn⟩ := hn
      unfold genConnects at hn
      split at hn
      · simp only [List.mem_singleton] at hn
        subst hn
        rename_i hk
        cases hr : f.isRead with
        | true => exact ⟨genReadConnect x f, mem_dmethods.2 ⟨f, hf, by simp [genDMethods, hr]⟩, rfl, rfl⟩
        | false =>
          simp only [hr, Bool.or_false] at hk
          exact ⟨genAsyncConnect x f, mem_dmethods.2 ⟨f, hf, by simp [genDMethods, hr, hk]⟩, rfl, rfl⟩
      · simp at hn
    · intro m hm'
      obtain ⟨f, hf, hm'⟩ := mem_all_members.1 hm'
      exact (hm f hf).2.1 m hm'
    · intro g hg
      obtain ⟨f, hf, hg⟩ := mem_getters.1 hg
      exact (hm f hf).2.2 g hg
    · intro d hd
      simp only [genClient, Props.findFnNodes_eq, List.mem_flatMap] at hd
      obtain ⟨f, hf, hd⟩ := hd
      unfold genDisc at hd
      cases hr : f.isRead with
      | true =>
        simp only [hr, if_true, List.mem_cons, List.not_mem_nil, or_false] at hd
        rcases hd with rfl | rfl
        · exact mem_all_members.2 ⟨f, hf, by simp [genMembers, hr]⟩
        · exact ⟨_, mem_all_members.2 ⟨f, hf, by simp [genMembers, hr]; rfl⟩⟩
      | false =>
        cases ha : f.isAsync with
        | false => simp [hr, ha] at hd
        | true =>
          simp only [hr, ha, Bool.false_eq_true, if_false, if_true, List.mem_singleton] at hd
          subst hd
          exact mem_all_members.2 ⟨f, hf, by simp [genMembers, hr, ha]⟩
    · intro m hm'
      obtain ⟨f, hf, hm'⟩ := mem_dmethods.1 hm'
      exact (hm f hf).1 m hm'

end TPB.Spec.DartRules
