/- Facts about the emitted handlers and argument structs. -/
import Verif.Sem.RustRpcEval
import Verif.Spec.Rpc
import Verif.Proofs.RustRpcText
import Verif.Proofs.RustCodecFacts
namespace TPB.Rust
open Spec TPB.Props

/-- The schema with the argument structs of its methods as further structs. -/
def argsSchema (S : List ASTNode) : List ASTNode :=
  S ++ ((methodsOf S).filter (fun f => !f.isRead)).map (fun f => .struct (argsNode f))

theorem argFields_fields : ∀ (as : List FnArg) (i : Nat),
    (RustGen.argFields i as).map (fun f => (f.name, f.typeId)) = as.map (fun a => (a.id, a.typeId))
  | [], _ => rfl
  | a :: as, i => by simp [RustGen.argFields, argFields_fields as (i + 1)]

theorem fieldsOf_argsNode (f : FnNode) : fieldsOf (argsNode f)
    = (if f.isAsync then [("__method_id__", .integer "i64" 8 true)] else []) ++ argsOf f := by
  unfold argsNode fieldsOf argsOf
  cases f.isAsync <;> simp [argFields_fields]

theorem argsNode_id (f : FnNode) : (argsNode f).id = argsName f := by
  unfold argsNode RustGen.argsStructId argsName
  cases f.isAsync <;> simp

theorem filterMap_args (scope : String) (S : List ASTNode) :
    (genRpc scope S).methods.filterMap (·.args) = ((methodsOf S).filter (fun f => !f.isRead)).map genArgs := by
  simp only [genRpc, findFnNodes_eq]
  induction methodsOf S with
  | nil => rfl
  | cons f fs ih =>
    rw [List.map_cons, List.filterMap_cons, ih]
    cases hr : f.isRead <;> simp [genMethod, hr]

theorem withArgs_genProg (scope : String) (S : List ASTNode) :
    (genProg S).withArgs (genRpc scope S) = genProg (argsSchema S) := by
  unfold Prog.withArgs genProg argsSchema genImpls
  rw [filterMap_args]
  simp only [List.filterMap_append, List.map_map]
  congr 1 <;> simp [List.filterMap_map, Function.comp_def, genArgs]

theorem typeNames_argsSchema (S : List ASTNode) :
    typeNames (argsSchema S) = typeNames S ++ ((methodsOf S).filter (fun f => !f.isRead)).map argsName := by
  unfold typeNames argsSchema
  rw [List.filterMap_append]
  congr 1
  simp [List.filterMap_map, Function.comp_def, argsNode_id]

theorem argsName_inj {f g : FnNode} (h : argsName f = argsName g) : f.id = g.id := by
  unfold argsName at h
  have h := congrArg String.toList h
  simp only [String.toList_append] at h
  have h := List.append_inj_left' h rfl
  have h := List.append_inj_right h rfl
  exact String.toList_inj.1 h

theorem argsName_not_builtin (f : FnNode) : builtinTypes.lookup (argsName f) = none := by
  have key : ∀ x : String, x.toList.head? ≠ some '_' → (argsName f == x) = false := by
    intro x hx
    rw [beq_eq_false_iff_ne]
    rintro rfl
    refine hx ?_
    unfold argsName
    simp
  simp only [builtinTypes, List.lookup_cons, List.lookup_nil, key "i8" (by decide), key "i32" (by decide), key "i64" (by decide),
    key "u8" (by decide), key "u32" (by decide), key "u64" (by decide), key "f32" (by decide), key "f64" (by decide),
    key "char" (by decide), key "bool" (by decide)]

theorem wf_method {S : List ASTNode} {k : Nat} (h : WFSchema k S) {f : FnNode} (hf : f ∈ methodsOf S) :
    (∀ t ∈ argsOf f, WFType t.2) ∧ (∀ t ∈ f.returnTypeId, WFType t) ∧ (f.isRead = true → f.args = []) := by
  have : .fn f ∈ S := by
    obtain ⟨d, hd, he⟩ := List.mem_filterMap.1 hf
    cases d <;> simp at he
    rw [← he]
    exact hd
  obtain ⟨j, -, h1, h2, h3⟩ := wfSchema_mem' S k h _ this
  refine ⟨?_, h2, h3⟩
  intro t ht
  obtain ⟨a, ha, rfl⟩ := List.mem_map.1 ht
  exact h1 a ha

theorem mem_argsSchema_enum {S : List ASTNode} {n : EnumNode} (h : .enum n ∈ argsSchema S) : .enum n ∈ S := by
  simpa [argsSchema] using h

theorem mem_argsSchema_struct {S : List ASTNode} {n : StructNode} (h : .struct n ∈ argsSchema S) :
    .struct n ∈ S ∨ ∃ f ∈ methodsOf S, f.isRead = false ∧ n = argsNode f := by
  simp only [argsSchema, List.mem_append, List.mem_map, List.mem_filter] at h
  rcases h with h | ⟨f, ⟨hf, hr⟩, h⟩
  · exact .inl h
  · refine .inr ⟨f, hf, by simpa using hr, by simpa using h.symm⟩

theorem args_mem {S : List ASTNode} {f : FnNode} (hf : f ∈ methodsOf S) (hr : f.isRead = false) :
    .struct (argsNode f) ∈ argsSchema S := by
  simp only [argsSchema, List.mem_append, List.mem_map, List.mem_filter]
  exact .inr ⟨f, ⟨hf, by simp [hr]⟩, rfl⟩

theorem nodup_map_of_inj {α β γ : Type} {g : α → β} {h : α → γ} (e : ∀ a b, h a = h b → g a = g b) :
    ∀ {l : List α}, (l.map g).Nodup → (l.map h).Nodup
  | [], _ => by simp
  | a :: l, hn => by
    simp only [List.map_cons, List.nodup_cons, List.mem_map, not_exists, not_and] at hn ⊢
    exact ⟨fun b hb hab => hn.1 b hb (e _ _ hab), nodup_map_of_inj e hn.2⟩

theorem wellNamed_args {S : List ASTNode} (hN : WellNamed S) (hR : RpcNamed S) : WellNamed (argsSchema S) where
  types := by
    rw [typeNames_argsSchema, List.nodup_append]
    refine ⟨hN.types, ?_, ?_⟩
    · refine nodup_map_of_inj (g := fun f => f.id) (fun _ _ h => argsName_inj h) ?_
      exact List.Sublist.nodup (List.Sublist.map _ List.filter_sublist) hR.methods
    · rintro a ha b hb rfl
      obtain ⟨f, hf, rfl⟩ := List.mem_map.1 hb
      exact hR.structs f (List.mem_filter.1 hf).1 ha
  builtins := by
    rw [typeNames_argsSchema]
    intro x hx
    rcases List.mem_append.1 hx with hx | hx
    · exact hN.builtins x hx
    · obtain ⟨f, -, rfl⟩ := List.mem_map.1 hx
      exact argsName_not_builtin f
  fields := by
    intro n hn
    rcases mem_argsSchema_struct hn with h | ⟨f, hf, -, rfl⟩
    · exact hN.fields n h
    · rw [fieldsOf_argsNode]
      obtain ⟨h1, h2⟩ := hR.args f hf
      cases f.isAsync
      · simpa using h1
      · simpa using ⟨by simpa using h2, h1⟩
  variants := fun n hn => hN.variants n (mem_argsSchema_enum hn)
  payloads := fun n hn => hN.payloads n (mem_argsSchema_enum hn)
  numbers := fun n hn => hN.numbers n (mem_argsSchema_enum hn)

theorem typesOk_args {S : List ASTNode} {k : Nat} (h : WFSchema k S) : TypesOk (argsSchema S) := by
  refine ⟨fun n hn => ?_, fun n hn => (typesOk_of_wf h).2 n (mem_argsSchema_enum hn)⟩
  rcases mem_argsSchema_struct hn with h' | ⟨f, hf, -, rfl⟩
  · exact (typesOk_of_wf h).1 n h'
  · rw [fieldsOf_argsNode]
    intro t ht
    rcases List.mem_append.1 ht with ht | ht
    · simp only [List.mem_ite_nil_right, List.mem_singleton] at ht
      rw [ht.2]
      exact .name "i64"
    · exact (wf_method h hf).1 t ht

theorem distinct_args {S : List ASTNode} (h : DistinctNumbers S) : DistinctNumbers (argsSchema S) :=
  fun n hn => h n (mem_argsSchema_enum hn)

theorem noClash_args {S : List ASTNode} (h : NoWriterClash S) : NoWriterClash (argsSchema S) :=
  fun n hn => h n (mem_argsSchema_enum hn)

/-- An encoding in the schema is an encoding in the extended schema. -/
theorem enc_args {W : Wire} {S : List ASTNode} (hX : NoExtArgs W S) {ts : List TypeId} {vs : List Val} {bs : Bytes}
    (h : Enc W S ts vs bs) : Enc W (argsSchema S) ts vs bs := by
  have sub : ∀ d, d ∈ S → d ∈ argsSchema S := fun d h => List.mem_append.2 (.inl h)
  induction h with
  | nil => exact .nil
  | leaf t p v b ts vs bs hp hb _ ih => exact .leaf t p v b _ _ _ hp hb ih
  | struct n fvs b ts vs bs hn _ _ ih1 ih2 => exact .struct n fvs b _ _ _ (sub _ hn) ih1 ih2
  | enum n i tag pvs b ts vs bs hn hi htag _ _ ih1 ih2 => exact .enum n i tag pvs b _ _ _ (sub _ hn) hi htag ih1 ih2
  | list c gs shape hd its items b ts vs bs hh hp _ _ ih1 ih2 => exact .list c gs shape hd its items b _ _ _ hh hp ih1 ih2
  | ext id v b ts vs bs hid hb _ ih =>
    refine .ext id v b _ _ _ ?_ hb ih
    rw [typeNames_argsSchema]
    intro hm
    rcases List.mem_append.1 hm with hm | hm
    · exact hid hm
    · obtain ⟨f, hf, rfl⟩ := List.mem_map.1 hm
      rw [hX f (List.mem_filter.1 hf).1] at hb
      simp at hb

/-- The value of the argument struct. -/
def argsVal (f : FnNode) (mid : Option Int) (vs : List Val) : Val :=
  .struct (argsName f) (named (fieldsOf (argsNode f)) (mid.toList.map .int ++ vs))

section
variable {rt : Runtime} {S : List ASTNode}

/-- The emitted reader of the argument struct reads encoded arguments. -/
theorem read_args (hrt : rt.Lawful) {k : Nat} (hA : WFSchema k S) (hN : WellNamed S) (hD : DistinctNumbers S) (hR : RpcNamed S)
    (hX : NoExtArgs rt.wire S) {f : FnNode} (hf : f ∈ methodsOf S) (hr : f.isRead = false) {mid : Option Int}
    (hm : mid.isSome = f.isAsync) {mb : Bytes} (hmb : ∀ i, mid = some i → rt.wire.prim "i64" (.int i) = some mb)
    (hmb' : mid = none → mb = [])
    {vs : List Val} {bs : Bytes} (h : Enc rt.wire S ((argsOf f).map (·.2)) vs bs) :
    ∃ N, ∀ k, N ≤ k → ∀ r, readTy rt (genProg (argsSchema S)) k (.named (argsName f)) (mb ++ bs ++ r)
      = .ok (argsVal f mid vs, r) := by
  have he : Enc rt.wire (argsSchema S) ((fieldsOf (argsNode f)).map (·.2)) (mid.toList.map .int ++ vs) (mb ++ bs) := by
    rw [fieldsOf_argsNode]
    cases mid with
    | none =>
      have ha : f.isAsync = false := by simpa using hm.symm
      simp only [ha, Bool.false_eq_true, if_false, List.nil_append, Option.toList_none, List.map_nil]
      rw [hmb' rfl]
      exact enc_args hX h
    | some i =>
      have ha : f.isAsync = true := by simpa using hm.symm
      simp only [ha, if_true, Option.toList_some, List.map_cons, List.map_nil, List.cons_append, List.nil_append]
      exact .leaf _ "i64" _ mb _ _ _ rfl (hmb i rfl) (enc_args hX h)
  have he2 : Enc rt.wire (argsSchema S) [.other (argsName f)] [argsVal f mid vs] (mb ++ bs) := by
    have := Enc.struct (argsNode f) _ _ [] [] [] (args_mem hf hr) he .nil
    rw [argsNode_id, List.append_nil] at this
    exact this
  have hwf : WFType (.other (argsName f)) := by
    have := WFType.name (argsName f)
    rwa [typeOfName, argsName_not_builtin] at this
  obtain ⟨N, hN'⟩ := read_enc hrt (wellNamed_args hN hR) (typesOk_args hA) (distinct_args hD) he2 (by simpa using hwf)
  exact ⟨N, fun k hk r => readMany_single (hN' k hk r)⟩

theorem write_result {k : Nat} (hA : WFSchema k S) (hN : WellNamed S) (hW : NoWriterClash S) (hR : RpcNamed S)
    (hX : NoExtArgs rt.wire S) {t : TypeId} (ht : WFType t) {v : Val} {bs : Bytes} (h : Enc rt.wire S [t] [v] bs) :
    ∃ N, ∀ k, N ≤ k → writeTy rt (genProg (argsSchema S)) k (genTy t) v = .ok bs := by
  obtain ⟨N, hN'⟩ := write_enc (wellNamed_args hN hR) (typesOk_args hA) (noClash_args hW) (enc_args hX h) (by simpa using ht)
  exact ⟨N, fun k hk => writeMany_single (hN' k hk)⟩

end
end TPB.Rust
