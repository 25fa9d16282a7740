/- The Dart client generated for a schema can be read back if the names of the schema can be names in Dart. -/
import Verif.Proofs.DartRpcReaderClass
import Verif.Proofs.DartReaderGen
import Verif.Proofs.RustRpcReaderGen
import Verif.Proofs.DartRpcText
namespace TPB.Spec.DartRpcReader
open Dart DartGen Pieces Combinators DartReader DartRules

theorem tail_private {p : String} (h : isIdent ("_" ++ p) = true) : Combinators.Tail p := by
  have := ident_tail h
  unfold Combinators.Tail at this ⊢
  rw [String.toList_append] at this
  simp only [List.all_append, Bool.and_eq_true] at this
  exact this.2

theorem not_reserved {n : String} (h : n.toList.head? = some '_') : n ∉ dartReserved := by
  intro hn
  have : ∀ w ∈ dartReserved, w.toList.head? ≠ some '_' := by decide +kernel
  exact this n hn h

theorem private_name {start p stop : String} (hs : isIdent start = true) (h0 : start.toList.head? = some '_') (hp : Combinators.Tail p)
    (ht : Combinators.Tail stop) : DartName (start ++ p ++ stop) := by
  refine ⟨?_, not_reserved ?_⟩
  · rw [String.append_assoc]
    exact ident_append hs (hp.append ht)
  · simp only [String.toList_append, List.append_assoc, List.head?_append, h0]
    rfl

theorem differs {start p stop : String} (h : start.toList.isPrefixOf "_scheduler".toList = false) : start ++ p ++ stop ≠ "_scheduler" := by
  intro e
  have : start.toList <+: "_scheduler".toList := by
    rw [← e, String.toList_append, String.toList_append, List.append_assoc]
    exact List.prefix_append _ _
  rw [← List.isPrefixOf_iff_prefix] at this
  rw [h] at this
  cases this

theorem differs_end {start p stop : String} (h : stop.toList.isSuffixOf "_scheduler".toList = false) : start ++ p ++ stop ≠ "_scheduler" := by
  intro e
  have : stop.toList <:+ "_scheduler".toList := by
    rw [← e, String.toList_append]
    exact List.suffix_append _ _
  rw [← List.isSuffixOf_iff_suffix] at this
  rw [h] at this
  cases this

variable {x : Ext} {S : List ASTNode} {ns scope : String} {f : FnNode}

/-- The names that belong to a method can be names in Dart. -/
structure GoodNames (x : Ext) (f : FnNode) : Prop where
  name : DartName (x.camel f.id)
  last : DartName (varLastMethodId x f) ∧ varLastMethodId x f ≠ "_scheduler"
  completers : DartName (varMethodCompleters x f) ∧ varMethodCompleters x f ≠ "_scheduler"
  task : DartName (varReadTask x f) ∧ varReadTask x f ≠ "_scheduler"
  controller : DartName (varReadStreamController x f) ∧ varReadStreamController x f ≠ "_scheduler"
  connect : DartName (connectName x f)

theorem goodNames (h1 : DartName (x.camel f.id)) (h2 : isIdent ("_" ++ x.pascal f.id) = true) : GoodNames x f where
  name := h1
  last := ⟨private_name (by decide) (by decide) (tail_private h2) (by unfold Combinators.Tail; decide +kernel), differs (by decide +kernel)⟩
  completers := ⟨private_name (by decide) (by decide) (ident_tail h1.1) (by unfold Combinators.Tail; decide +kernel), differs_end (by decide +kernel)⟩
  task := ⟨private_name (by decide) (by decide) (tail_private h2) (by unfold Combinators.Tail; decide +kernel), differs (by decide +kernel)⟩
  controller := ⟨private_name (by decide) (by decide) (tail_private h2) (by unfold Combinators.Tail; decide +kernel), differs (by decide +kernel)⟩
  connect := by
    have := private_name (start := "_connect") (p := x.pascal f.id) (stop := "") (by decide) (by decide) (tail_private h2)
      (by unfold Combinators.Tail; decide +kernel)
    rwa [String.append_empty] at this

/-- What a method of a schema needs to be read back. -/
structure GoodMethod (x : Ext) (f : FnNode) : Prop extends GoodNames x f where
  args : ∀ a ∈ f.args, DartName (x.camel a.id) ∧ x.camel a.id ≠ "methodId" ∧ GoodT a.typeId
  result : ∀ t, f.returnTypeId = some t → GoodT t ∧ ∀ w ∈ typeWords t, w ≠ "Future"

theorem goodMethod (hw : WFSchema 0 S) (hR : DartRpcReadable x S ns scope) (hf : f ∈ methodsOf S) : GoodMethod x f where
  toGoodNames := goodNames (hR.methods f hf).1 (hR.methods f hf).2
  args := by
    intro a ha
    have h := hR.args f hf a ha
    exact ⟨h.1, h.2.1, (Rust.wf_method hw hf).1 (a.id, a.typeId) (List.mem_map.2 ⟨a, ha, rfl⟩), h.2.2⟩
  result := by
    intro t ht
    have h := hR.results f hf t ht
    exact ⟨⟨(Rust.wf_method hw hf).2.1 t ht, fun w hw => (h w hw).1⟩, fun w hw => (h w hw).2⟩

theorem leg_ret (h : GoodMethod x f) : LegRes (retTy f) := by
  unfold retTy
  split
  · next t ht => exact .inr (h.result t ht).1.leg
  · exact .inl rfl

theorem ret_head (h : GoodMethod x f) : ∃ w q, tyToks (retTy f) = .word w :: q ∧ w ≠ "Future" := by
  unfold retTy
  split
  · next t ht =>
    have hw := (h.result t ht).2
    cases t with
    | other id => rw [genTy, tyToks]; exact ⟨_, _, rfl, hw id (by simp [typeWords])⟩
    | generic id gs =>
      rw [genTy, tyToks]
      refine ⟨_, _, rfl, ?_⟩
      have := hw id (by simp [typeWords])
      unfold DartGen.listName
      split
      · decide
      · exact this
    | _ => rw [genTy, tyToks]; exact ⟨_, _, rfl, by decide⟩
  · rw [tyToks]; exact ⟨_, _, rfl, by decide⟩

theorem leg_args (h : GoodMethod x f) : ∀ w ∈ genArgWrites x f, LegW w := by
  intro w hw
  obtain ⟨a, ha, rfl⟩ := List.mem_map.1 hw
  obtain ⟨h1, h2, h3⟩ := h.args a ha
  cases ht : a.typeId with
  | other id => rw [ht] at h3; exact ⟨(h3.2 id (by simp [typeWords])).1, h1⟩
  | generic id gs => rw [ht] at h3; exact ⟨legCodec_g .into h3, h1⟩
  | _ => exact ⟨tail_method _, h1, h2⟩

theorem leg_params (h : GoodMethod x f) : ∀ p ∈ genParams x f, LegField p := by
  intro p hp
  obtain ⟨a, ha, rfl⟩ := List.mem_map.1 hp
  exact ⟨(h.args a ha).2.2.leg, (h.args a ha).1⟩

theorem leg_writes {ws : List WStmt} (h : ∀ w ∈ ws, LegW w) : (∀ w ∈ .status :: ws, LegW w) ∧ ∀ w ∈ .status :: .methodId :: ws, LegW w :=
  ⟨by simpa [LegW] using h, by simpa [LegW] using h⟩

theorem leg_method (h : GoodMethod x f) : ∀ m ∈ genDMethods x f, LegMethod m := by
  have hvoid : LegRes (.named "void") := .inl rfl
  have hv : ∃ w q, tyToks (.named "void") = .word w :: q ∧ w ≠ "Future" := by rw [tyToks]; exact ⟨_, _, rfl, by decide⟩
  have hw := leg_writes (leg_args h)
  unfold genDMethods
  intro m hm
  split at hm
  · simp only [List.mem_singleton] at hm
    subst hm
    refine ⟨hvoid, fun _ => hv, h.connect, by simp [genReadConnect], fun s hs => ?_⟩
    simp only [genReadConnect, List.mem_singleton] at hs
    subst hs
    refine ⟨h.task, fun s hs => ?_⟩
    simp only [genReaderHead, genAdd, List.mem_append, List.mem_cons, List.not_mem_nil, or_false] at hs
    rcases hs with (rfl | rfl | rfl | rfl) | hs
    · trivial
    · trivial
    · trivial
    · trivial
    · split at hs
      · next t ht =>
        simp only [List.mem_cons, List.not_mem_nil, or_false] at hs
        rcases hs with rfl | rfl
        · exact legRead_gen (h.result t ht).1
        · exact h.controller.1
      · simp only [List.mem_cons, List.not_mem_nil, or_false] at hs
        subst hs
        exact h.controller.1
  · split at hm
    · simp only [List.mem_cons, List.not_mem_nil, or_false] at hm
      rcases hm with rfl | rfl
      · refine ⟨hvoid, fun _ => hv, h.connect, by simp [genAsyncConnect], fun s hs => ?_⟩
        simp only [genAsyncConnect, List.mem_singleton] at hs
        subst hs
        refine ⟨h.task, fun s hs => ?_⟩
        simp only [genReaderHead, genComplete, List.mem_append, List.mem_cons, List.not_mem_nil, or_false] at hs
        rcases hs with (((rfl | rfl | rfl | rfl) | rfl) | hs) | rfl
        · trivial
        · trivial
        · trivial
        · trivial
        · trivial
        · split at hs
          · next t ht =>
            simp only [List.mem_cons, List.not_mem_nil, or_false] at hs
            rcases hs with rfl | rfl | rfl
            · exact legRead_gen (h.result t ht).1
            · trivial
            · exact h.completers.1
          · simp only [List.mem_cons, List.not_mem_nil, or_false] at hs
            rcases hs with rfl | rfl
            · trivial
            · exact h.completers.1
        · exact h.completers.1
      · refine ⟨leg_ret h, by simp [genAsync], h.name, leg_params h, fun s hs => ?_⟩
        simp only [genAsync, List.mem_cons, List.not_mem_nil, or_false] at hs
        rcases hs with rfl | rfl | rfl | rfl | rfl | rfl | rfl | rfl | rfl
        · exact h.last.1
        · exact h.last
        · trivial
        · exact hw.2
        · trivial
        · exact leg_ret h
        · exact h.completers
        · trivial
        · trivial
    · simp only [List.mem_singleton] at hm
      subst hm
      refine ⟨leg_ret h, fun _ => ret_head h, h.name, leg_params h, fun s hs => ?_⟩
      simp only [genSync, genSyncResult, List.mem_append, List.mem_cons, List.not_mem_nil, or_false] at hs
      rcases hs with (rfl | rfl | rfl | rfl) | hs
      · exact hw.1
      · trivial
      · trivial
      · trivial
      · split at hs
        · next t ht =>
          simp only [List.mem_cons, List.not_mem_nil, or_false] at hs
          rcases hs with rfl | rfl | rfl
          · refine ⟨(h.result t ht).1.leg, fun s hs => ?_⟩
            simp only [List.mem_cons, List.not_mem_nil, or_false] at hs
            rcases hs with rfl | rfl | rfl | rfl | rfl
            · trivial
            · trivial
            · trivial
            · trivial
            · exact legRead_gen (h.result t ht).1
          · trivial
          · trivial
        · simp at hs

theorem leg_client (hw : WFSchema 0 S) (hR : DartRpcReadable x S ns scope) : LegClient (genClient x ns scope S) := by
  have hg : ∀ f ∈ methodsOf S, GoodMethod x f := fun f hf => goodMethod hw hR hf
  refine ⟨hR.client, hR.scope, ?_, ?_, ?_, ?_, ?_⟩ <;> intro m hm <;>
    (simp only [genClient, Props.findFnNodes_eq] at hm; obtain ⟨f, hf, hm⟩ := List.mem_flatMap.1 hm; have h := hg f hf)
  · unfold genConnects at hm
    split at hm
    · simp only [List.mem_singleton] at hm
      subst hm
      exact h.connect
    · simp at hm
  · unfold genMembers at hm
    split at hm
    · simp only [List.mem_cons, List.not_mem_nil, or_false] at hm
      rcases hm with rfl | rfl | rfl
      · trivial
      · exact h.task.1
      · exact ⟨h.controller.1, leg_ret h⟩
    · split at hm
      · simp only [List.mem_cons, List.not_mem_nil, or_false] at hm
        rcases hm with rfl | rfl | rfl | rfl
        · trivial
        · exact h.last.1
        · exact ⟨h.completers.1, leg_ret h⟩
        · exact h.task.1
      · simp at hm
  · unfold genGetters at hm
    split at hm
    · simp only [List.mem_singleton] at hm
      subst hm
      exact ⟨leg_ret h, h.name, h.controller.1⟩
    · simp at hm
  · unfold genDisc at hm
    split at hm
    · simp only [List.mem_cons, List.not_mem_nil, or_false] at hm
      rcases hm with rfl | rfl
      · exact h.task.1
      · exact h.controller
    · split at hm
      · simp only [List.mem_singleton] at hm
        subst hm
        exact h.task.1
      · simp at hm
  · exact leg_method h m hm

/-- The generated text for methods is read as the client of the schema without empty lines. -/
theorem readClient_gen (hw : WFSchema 0 S) (hR : DartRpcReadable x S ns scope) (u : Nat) :
    readClient (linesText u (genClient x ns scope S).render) = some (genClient x ns scope S).trim :=
  readClient_ok u (leg_client hw hR)

end TPB.Spec.DartRpcReader
