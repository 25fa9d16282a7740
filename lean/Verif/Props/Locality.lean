/-
C87: the code generated for a declaration does not depend on the other declarations.
-/
import Verif.Spec.Locality
import Verif.Props.MobileModels
import Verif.Props.RustDefault
import Verif.Props.Evolution
import Verif.Props.RpcClient
import Verif.Proofs.RustRpcFacts
import Verif.Proofs.DartRpcFacts
import Verif.Proofs.Directives
namespace TPB.Props
open Spec

theorem joined_one {seps : List String} {b out : String} (h : Joined seps [b] out) : out = b := by
  cases h; rfl

/-- Sections made of printed items. -/
theorem byDeclaration_of {α : Type} (seps : List String) (gen : List ASTNode → Except Panic String) (S : List ASTNode)
    (it : ASTNode → List α) (text : List α → String) (h0 : text [] = "")
    (hsep : ∀ a b, a ≠ [] → b ≠ [] → ∃ sep ∈ seps, text (a ++ b) = text a ++ sep ++ text b)
    (hg : gen S = .ok (text (S.flatMap it))) (h1 : ∀ d ∈ S, gen [d] = .ok (text (it d)))
    (hne : ∀ d ∈ S, isTypeDecl d = true → it d ≠ []) (hn : ∀ d ∈ S, isTypeDecl d = false → it d = []) :
    ByDeclaration seps gen S := by
  refine ⟨(typeDecls S).map (fun d => text (it d)), _, ?_, hg, ?_⟩
  · rw [List.map_map]
    exact List.map_congr_left (fun d hd => h1 d (List.mem_filter.1 hd).1)
  · have hf : S.flatMap it = (typeDecls S).flatMap it := by
      have : ∀ T : List ASTNode, (∀ d ∈ T, d ∈ S) → T.flatMap it = (typeDecls T).flatMap it := by
        intro T
        induction T with
        | nil => intro _; rfl
        | cons d T ih =>
          intro h
          have hd := h d (by simp)
          have i := ih (fun e he => h e (by simp [he]))
          cases hp : isTypeDecl d with
          | true =>
            have e : typeDecls (d :: T) = d :: typeDecls T := List.filter_cons_of_pos hp
            rw [e, List.flatMap_cons, List.flatMap_cons, i]
          | false =>
            have e : typeDecls (d :: T) = typeDecls T := List.filter_cons_of_neg (by simp [hp])
            rw [e, List.flatMap_cons, hn d hd hp, List.nil_append, i]
      exact this S (fun _ h => h)
    rw [hf]
    have hall : ∀ d ∈ typeDecls S, it d ≠ [] := fun d hd => hne d (List.mem_filter.1 hd).1 (List.mem_filter.1 hd).2
    generalize typeDecls S = T at hall
    induction T with
    | nil => simp [h0]; exact .nil
    | cons d T ih =>
      cases T with
      | nil => simpa using Joined.one _
      | cons e T =>
        have i := ih (fun f hf => hall f (by simp [hf]))
        obtain ⟨sep, hs, e'⟩ := hsep (it d) ((e :: T).flatMap it) (hall d (by simp))
          (by simp [hall e (by simp)])
        rw [List.flatMap_cons, e']
        exact .more hs i

theorem join_text (u : Nat) {α : Type} (f : α → List Line) (a b : List α) (ha : a ≠ []) (hb : b ≠ []) :
    ∃ sep ∈ ["\n"], linesText u (joinBlocks ((a ++ b).map f)) =
      linesText u (joinBlocks (a.map f)) ++ sep ++ linesText u (joinBlocks (b.map f)) := by
  refine ⟨"\n", by simp, ?_⟩
  rw [List.map_append, Dart.joinBlocks_append _ _ (by simpa using ha) (by simpa using hb), linesText_append, linesText_append]
  rfl

theorem decls_dart {S : List ASTNode} (h : Accepted S) : ∀ d ∈ S, WFDecl 0 d ∨ ∃ f, d = .fn f := by
  intro d hd
  obtain ⟨ts, h⟩ := h
  obtain ⟨k, hk⟩ := accepted_decls h d hd
  cases d with
  | fn f => exact .inr ⟨f, rfl⟩
  | struct n => exact .inl hk
  | enum n => exact .inl hk
  | directive n => cases n <;> exact .inl hk
  | const n => exact .inl hk

theorem flatMap_one {α β : Type} (f : α → List β) (a : α) : [a].flatMap f = f a := by simp

/-- One blank line between the declarations of the Rust types. -/
theorem byDecl_rust_models {S : List ASTNode} (h : Accepted S) : ByDeclaration ["\n"] RustGen.models S := by
  have hS := accepted_enums h
  have hi : ∀ T : List ASTNode, Rust.genItems T = T.flatMap (fun d => Rust.genItems [d]) := by
    intro T
    induction T with
    | nil => rfl
    | cons d T ih =>
      rw [List.flatMap_cons, ← ih]
      unfold Rust.genItems
      rw [← List.filterMap_append]
      rfl
  refine byDeclaration_of _ _ S (fun d => Rust.genItems [d]) (fun is => linesText 4 (joinBlocks (is.map Rust.TypeItem.render))) rfl
    (join_text 4 _) ?_ ?_ ?_ ?_
  · rw [← hi]; exact Rust.models_render S hS
  · intro d hd
    exact Rust.models_render [d] (fun n hn => hS n (by simp at hn; rwa [hn]))
  · intro d hd ht
    cases d with
    | struct n => simp [Rust.genItems]
    | enum n =>
      have := hS n hd
      cases hi : n.items with
      | nil => exact absurd hi this
      | cons i is => simp [Rust.genItems, hi]
    | _ => simp [isTypeDecl] at ht
  · intro d hd ht
    cases d <;> first | rfl | simp [isTypeDecl] at ht

theorem byDecl_rust_buffers (S : List ASTNode) : ByDeclaration ["\n"] (fun S => .ok (RustGen.buffers S)) S := by
  have hi : ∀ T : List ASTNode, Rust.genImpls T = T.flatMap (fun d => Rust.genImpls [d]) := by
    intro T
    induction T with
    | nil => rfl
    | cons d T ih =>
      rw [List.flatMap_cons, ← ih]
      unfold Rust.genImpls
      rw [← List.filterMap_append]
      rfl
  refine byDeclaration_of _ _ S (fun d => Rust.genImpls [d]) (fun is => linesText 4 (joinBlocks (is.map Rust.Impl.render))) rfl
    (join_text 4 _) ?_ ?_ ?_ ?_
  · rw [← hi]; exact congrArg _ (Rust.buffers_render S)
  · intro d hd
    exact congrArg _ (Rust.buffers_render [d])
  · intro d hd ht
    cases d <;> first | (simp [isTypeDecl] at ht; done) | simp [Rust.genImpls]
  · intro d hd ht
    cases d <;> first | rfl | simp [isTypeDecl] at ht

theorem byDecl_dart_buffers (x : Ext) {S : List ASTNode} (h : Accepted S) : ByDeclaration ["\n"] (DartGen.buffers x) S := by
  have hS := decls_dart h
  have hi : ∀ T : List ASTNode, Dart.genCodecs x T = T.flatMap (fun d => Dart.genCodecs x [d]) := by
    intro T
    unfold Dart.genCodecs
    simp only [List.flatMap_cons, List.flatMap_nil, List.append_nil]
  refine byDeclaration_of _ _ S (fun d => Dart.genCodecs x [d]) (fun is => linesText 2 (joinBlocks (is.map Dart.CodecClass.render))) rfl
    (join_text 2 _) ?_ ?_ ?_ ?_
  · rw [← hi]; exact Dart.buffers_render x S 0 hS
  · intro d hd
    exact Dart.buffers_render x [d] 0 (fun e he => by simp at he; rw [he]; exact hS d hd)
  · intro d hd ht
    cases d with
    | struct n =>
      rcases hS _ hd with h | ⟨f, h⟩
      · simp [Dart.genCodecs, Dart.genStructCodecs, h.2.1]
      · cases h
    | enum n => simp [Dart.genCodecs, Dart.genEnumCodecs]
    | _ => simp [isTypeDecl] at ht
  · intro d hd ht
    cases d <;> first | rfl | simp [isTypeDecl] at ht

theorem dart_items_append : ∀ a b : List Dart.ClassItem, a ≠ [] → b ≠ [] →
    ∃ sep ∈ ["", "\n"], linesText 2 (Dart.renderItems (a ++ b)) =
      linesText 2 (Dart.renderItems a) ++ sep ++ linesText 2 (Dart.renderItems b)
  | [], _, ha, _ => absurd rfl ha
  | [c], d :: b, _, _ => by
    cases c with
    | struct c =>
      refine ⟨"\n", by simp, ?_⟩
      show linesText 2 (c.render ++ (0, "") :: Dart.renderItems (d :: b)) = _
      rw [linesText_append, String.append_assoc]
      rfl
    | enum c vs =>
      refine ⟨"", by simp, ?_⟩
      show linesText 2 ((Dart.ClassItem.enum c vs).render ++ Dart.renderItems (d :: b)) = _
      rw [linesText_append, String.append_empty]
      rfl
  | c :: e :: a, b, _, hb => by
    obtain ⟨sep, hs, i⟩ := dart_items_append (e :: a) b (by simp) hb
    refine ⟨sep, hs, ?_⟩
    cases c with
    | struct c =>
      show linesText 2 (c.render ++ (0, "") :: Dart.renderItems (e :: a ++ b)) =
        linesText 2 (c.render ++ (0, "") :: Dart.renderItems (e :: a)) ++ sep ++ _
      rw [linesText_append, linesText_append]
      simp only [linesText, i, String.append_assoc]
    | enum c vs =>
      show linesText 2 ((Dart.ClassItem.enum c vs).render ++ Dart.renderItems (e :: a ++ b)) =
        linesText 2 ((Dart.ClassItem.enum c vs).render ++ Dart.renderItems (e :: a)) ++ sep ++ _
      rw [linesText_append, linesText_append]
      simp only [i, String.append_assoc]
  | [_], [], _, hb => absurd rfl hb

theorem byDecl_dart_models (x : Ext) {S : List ASTNode} (h : Accepted S) : ByDeclaration ["", "\n"] (DartGen.models x) S := by
  have hS := decls_dart h
  have hi : ∀ T : List ASTNode, Dart.genItems x T = T.flatMap (fun d => Dart.genItems x [d]) := by
    intro T
    induction T with
    | nil => rfl
    | cons d T ih =>
      rw [List.flatMap_cons, ← ih]
      unfold Dart.genItems
      rw [← List.filterMap_append]
      rfl
  refine byDeclaration_of _ _ S (fun d => Dart.genItems x [d]) (fun is => linesText 2 (Dart.renderItems is)) rfl
    dart_items_append ?_ ?_ ?_ ?_
  · rw [← hi]; exact Dart.models_render x S 0 hS
  · intro d hd
    exact Dart.models_render x [d] 0 (fun e he => by simp at he; rw [he]; exact hS d hd)
  · intro d hd ht
    cases d with
    | struct n => simp [Dart.genItems]
    | enum n =>
      have := accepted_enums h n hd
      cases hi : n.items with
      | nil => exact absurd hi this
      | cons i is => simp [Dart.genItems, hi]
    | _ => simp [isTypeDecl] at ht
  · intro d hd ht
    cases d <;> first | rfl | simp [isTypeDecl] at ht

theorem kotlin_items_append : ∀ a b : List Kotlin.Item, a ≠ [] → b ≠ [] →
    ∃ sep ∈ ["", "\n"], linesText 4 (Kotlin.renderItems (a ++ b)) =
      linesText 4 (Kotlin.renderItems a) ++ sep ++ linesText 4 (Kotlin.renderItems b)
  | [], _, ha, _ => absurd rfl ha
  | [c], d :: b, _, _ => by
    show ∃ sep ∈ ["", "\n"], linesText 4 (c.render ++ (if c.isInterface && d.isInterface then [] else [(0, "")]) ++ Kotlin.renderItems (d :: b))
      = linesText 4 c.render ++ sep ++ linesText 4 (Kotlin.renderItems (d :: b))
    cases c.isInterface && d.isInterface with
    | true => exact ⟨"", by simp, by simp [linesText_append]⟩
    | false =>
      refine ⟨"\n", by simp, ?_⟩
      rw [linesText_append, linesText_append]
      rfl
  | c :: e :: a, b, _, hb => by
    obtain ⟨sep, hs, i⟩ := kotlin_items_append (e :: a) b (by simp) hb
    refine ⟨sep, hs, ?_⟩
    show linesText 4 (c.render ++ (if c.isInterface && e.isInterface then [] else [(0, "")]) ++ Kotlin.renderItems (e :: a ++ b))
      = linesText 4 (c.render ++ (if c.isInterface && e.isInterface then [] else [(0, "")]) ++ Kotlin.renderItems (e :: a)) ++ sep ++ _
    rw [linesText_append, linesText_append, linesText_append, i]
    simp only [String.append_assoc, linesText_append]
  | [_], [], _, hb => absurd rfl hb

theorem kotlin_eq' (x : ExtF) {S : List ASTNode} (h : ∀ d ∈ S, ∃ k, WFDecl k d) :
    KotlinGen.models x S = .ok (linesText 4 (TPB.Kotlin.renderItems (TPB.Kotlin.genItems x S))) := by
  obtain ⟨out, ho⟩ := KotlinGen.ok_models (x := x) h
  rw [ho, KotlinGen.models_text x S out ho]

theorem swift_eq' (x : ExtF) (hx : x.camel "createDefault" = "createDefault") {S : List ASTNode} (h : ∀ d ∈ S, ∃ k, WFDecl k d) :
    SwiftGen.models x S = .ok (linesText 4 (TPB.Swift.renderItems (TPB.Swift.genItems x S))) := by
  obtain ⟨out, ho⟩ := SwiftGen.ok_models (x := x) h
  rw [ho, SwiftGen.models_text x hx S out ho]

theorem byDecl_kotlin (x : ExtF) {S : List ASTNode} (h : Accepted S) : ByDeclaration ["", "\n"] (KotlinGen.models x) S := by
  have hS : ∀ d ∈ S, ∃ k, WFDecl k d := by obtain ⟨ts, h⟩ := h; exact accepted_decls h
  refine byDeclaration_of _ _ S (Kotlin.genItem x) (fun is => linesText 4 (Kotlin.renderItems is)) rfl
    kotlin_items_append (kotlin_eq' x hS) ?_ ?_ ?_
  · intro d hd
    rw [kotlin_eq' x (fun e he => by simp at he; rw [he]; exact hS d hd)]
    simp [Kotlin.genItems]
  · intro d hd ht
    cases d with
    | struct n => simp [Kotlin.genItem]
    | enum n =>
      have := accepted_enums h n hd
      cases hi : n.items with
      | nil => exact absurd hi this
      | cons i is => simp [Kotlin.genItem, Kotlin.genEnum, hi]
    | _ => simp [isTypeDecl] at ht
  · intro d hd ht
    cases d <;> first | rfl | simp [isTypeDecl] at ht

theorem byDecl_swift (x : ExtF) (hx : x.camel "createDefault" = "createDefault") {S : List ASTNode} (h : Accepted S) :
    ByDeclaration ["\n"] (SwiftGen.models x) S := by
  have hS : ∀ d ∈ S, ∃ k, WFDecl k d := by obtain ⟨ts, h⟩ := h; exact accepted_decls h
  refine byDeclaration_of _ _ S (Swift.genItem x) (fun is => linesText 4 (joinBlocks (is.map Swift.Item.render))) rfl
    (join_text 4 _) (swift_eq' x hx hS) ?_ ?_ ?_
  · intro d hd
    rw [swift_eq' x hx (fun e he => by simp at he; rw [he]; exact hS d hd)]
    simp [Swift.genItems, Swift.renderItems]
  · intro d hd ht
    cases d with
    | struct n => simp [Swift.genItem]
    | enum n =>
      have := accepted_enums h n hd
      cases hi : n.items with
      | nil => exact absurd hi this
      | cons i is => simp [Swift.genItem, Swift.genEnum, hi]
    | _ => simp [isTypeDecl] at ht
  · intro d hd ht
    cases d <;> first | rfl | simp [isTypeDecl] at ht

/-- C87, types and codecs with one blank line between two declarations. -/
theorem C87_even_sections (x : ExtF) (hx : x.camel "createDefault" = "createDefault") (S : List ASTNode) (h : Accepted S) :
    ∀ gen ∈ evenSections x, ByDeclaration ["\n"] gen S := by
  intro gen hg
  simp only [evenSections, List.mem_cons, List.not_mem_nil, or_false] at hg
  rcases hg with rfl | rfl | rfl | rfl
  · exact byDecl_rust_models h
  · exact byDecl_rust_buffers S
  · exact byDecl_dart_buffers _ h
  · exact byDecl_swift x hx h

/-- C87, types of Dart and Kotlin. -/
theorem C87_uneven_sections (x : ExtF) (S : List ASTNode) (h : Accepted S) :
    ∀ gen ∈ unevenSections x, ByDeclaration ["", "\n"] gen S := by
  intro gen hg
  simp only [unevenSections, List.mem_cons, List.not_mem_nil, or_false] at hg
  rcases hg with rfl | rfl
  · exact byDecl_dart_models _ h
  · exact byDecl_kotlin x h

theorem joined_mem {seps bs : List String} {out : String} (h : Joined seps bs out) :
    ∀ b ∈ bs, ∃ before after, out = before ++ b ++ after := by
  induction h with
  | nil => simp
  | one b => intro c hc; simp at hc; subst hc; exact ⟨"", "", by simp⟩
  | @more b c sep out bs hs _ ih =>
    intro d hd
    rcases List.mem_cons.1 hd with rfl | hd
    · exact ⟨"", sep ++ out, by simp [String.append_assoc]⟩
    · obtain ⟨u, v, e⟩ := ih d hd
      exact ⟨b ++ sep ++ u, v, by rw [e]; simp [String.append_assoc]⟩

theorem standsIn_of {seps : List String} {gen : List ASTNode → Except Panic String} {S : List ASTNode}
    (h : ByDeclaration seps gen S) {d : ASTNode} (hd : d ∈ typeDecls S) : ∃ b, StandsIn gen d b S := by
  obtain ⟨bs, out, h1, h2, h3⟩ := h
  have : gen [d] ∈ bs.map Except.ok := by rw [← h1]; exact List.mem_map_of_mem hd
  obtain ⟨b, hb, e⟩ := List.mem_map.1 this
  obtain ⟨u, v, e'⟩ := joined_mem h3 b hb
  exact ⟨b, e.symm, u, v, by rw [h2, e']⟩

/-- C87, the code of a declaration stays the same whatever else is in the schema. -/
theorem C87_unchanged (x : ExtF) (hx : x.camel "createDefault" = "createDefault") (S S' : List ASTNode) (h : Accepted S)
    (h' : Accepted S') (d : ASTNode) (hd : d ∈ typeDecls S) (hd' : d ∈ typeDecls S') :
    ∀ gen ∈ evenSections x ++ unevenSections x, ∃ block, StandsIn gen d block S ∧ StandsIn gen d block S' := by
  intro gen hg
  have : ∀ T, Accepted T → d ∈ typeDecls T → ∃ b, StandsIn gen d b T := by
    intro T hT hdT
    rcases List.mem_append.1 hg with hg | hg
    · exact standsIn_of (C87_even_sections x hx T hT gen hg) hdT
    · exact standsIn_of (C87_uneven_sections x T hT gen hg) hdT
  obtain ⟨b, hb⟩ := this S h hd
  obtain ⟨c, hc⟩ := this S' h' hd'
  have e : b = c := Except.ok.inj (hb.1.symm.trans hc.1)
  subst e
  exact ⟨b, hb, hc⟩

theorem joined_blocks (u : Nat) : ∀ bs : List (List Line), Joined ["\n"] (bs.map (linesText u)) (linesText u (joinBlocks bs))
  | [] => .nil
  | [b] => .one _
  | b :: c :: bs => by
    have := joined_blocks u (c :: bs)
    have e : linesText u (joinBlocks (b :: c :: bs)) = linesText u b ++ "\n" ++ linesText u (joinBlocks (c :: bs)) := by
      show linesText u (b ++ (0, "") :: joinBlocks (c :: bs)) = _
      rw [linesText_append, String.append_assoc]
      rfl
    rw [e]
    exact .more (by simp) this

theorem linesText_flatMap (u : Nat) {α : Type} (f : α → List Line) (xs : List α) :
    linesText u (xs.flatMap f) = String.join (xs.map (fun a => linesText u (f a))) := by
  induction xs with
  | nil => rfl
  | cons a xs ih => simp [linesText_append, ih, String.join_cons]

theorem scope_value {S : List ASTNode} {scope : String} (h : Rust.scopeOf S = some scope) :
    DirectiveIs S "id" scope := by
  rw [directiveIs_iff]
  unfold Rust.scopeOf at h
  split at h
  · injection h with h
    subst h
    rename_i t hv
    exact ⟨t, hv⟩
  · cases h

/-- C87, Rust server: a method contributes one entry to the registration and one block of code.  Both depend on nothing
but the method (its number among the methods included). -/
theorem C87_rust_rpc : ∃ register code : FnNode → String, ∀ (S : List ASTNode) (out : String), methodsOf S ≠ [] →
    RustGen.rpc S = .ok out → ∃ scope, DirectiveIs S "id" scope ∧
      Joined ["\n"] (("pub fn register_rpc(runtime: &mut TechPawsRuntime, addr: &TechPawsRpcAddress) {\n" ++
        "    let scope_id = TechPawsScopeId(uuid!(\"" ++ scope ++ "\"));\n" ++
        "    runtime.memory.add_scope(scope_id);\n" ++ String.join ((methodsOf S).map register) ++ "}\n")
        :: (methodsOf S).map code) out := by
  refine ⟨fun f => linesText 4 (Rust.genReg f).render, fun f => linesText 4 (Rust.genMethod f).render, ?_⟩
  intro S out hM hout
  obtain ⟨scope, hs⟩ := Rust.rpc_scope hout hM
  refine ⟨scope, scope_value hs, ?_⟩
  rw [Rust.rpc_render S (by rwa [findFnNodes_eq]) scope hs] at hout
  injection hout with hout
  subst hout
  have := joined_blocks 4 ((Rust.genRpc scope S).renderRegister :: (Rust.genRpc scope S).methods.map Rust.MethodItem.render)
  have e1 : ((Rust.genRpc scope S).methods.map Rust.MethodItem.render).map (linesText 4)
      = (methodsOf S).map (fun f => linesText 4 (Rust.genMethod f).render) := by
    simp [Rust.genRpc, findFnNodes_eq]
  have e2 : linesText 4 (Rust.genRpc scope S).renderRegister = "pub fn register_rpc(runtime: &mut TechPawsRuntime, addr: &TechPawsRpcAddress) {\n" ++
        "    let scope_id = TechPawsScopeId(uuid!(\"" ++ scope ++ "\"));\n" ++
        "    runtime.memory.add_scope(scope_id);\n" ++ String.join ((methodsOf S).map (fun f => linesText 4 (Rust.genReg f).render)) ++ "}\n" := by
    unfold Rust.RpcSection.renderRegister
    rw [linesText_append, linesText_append, linesText_flatMap]
    simp only [Rust.genRpc, findFnNodes_eq, List.map_map]
    simp [linesText, repeatStr, String.append_assoc, Function.comp_def]
    simp [← String.append_assoc]
  rw [List.map_cons, e1, e2] at this
  exact this

theorem joinBlocks_flat {α : Type} (f : α → List (List Line)) : ∀ xs : List α, (∀ a ∈ xs, f a ≠ []) →
    joinBlocks (xs.flatMap f) = joinBlocks (xs.map (fun a => joinBlocks (f a)))
  | [], _ => rfl
  | [a], _ => by simp [joinBlocks]
  | a :: b :: xs, h => by
    have i := joinBlocks_flat f (b :: xs) (fun c hc => h c (by simp [hc]))
    rw [List.flatMap_cons, Dart.joinBlocks_append _ _ (h a (by simp)) (by simp [h b (by simp)]), i]
    simp [joinBlocks]

theorem constructor_text (c : Dart.Client) :
    linesText 2 c.renderConstructor = constructorText c.name (linesText 2 (c.connects.map (fun n => (2, n ++ "();")))) := by
  unfold Dart.Client.renderConstructor constructorText
  cases c.connects with
  | nil => simp [linesText, repeatStr, String.append_assoc]
  | cons n ns =>
    have hne : linesText 2 ((n :: ns).map (fun n => (2, n ++ "();"))) ≠ "" := by
      intro h
      obtain ⟨cs, hcs⟩ := linesText_ends 2 ((n :: ns).map (fun n => (2, n ++ "();"))) (by simp)
      rw [h] at hcs
      simp at hcs
    rw [if_neg hne]
    simp only [linesText_append]
    simp [linesText, repeatStr, String.append_assoc]

/-- C87, Dart client: a method contributes its own calls to the constructor, its own fields, getters, statements of
`disconnect` and methods.  All depend on nothing but the method (its number among the methods included). -/
theorem C87_dart_client (x : Ext) : ∃ connect fields getters disconnect code : FnNode → String,
    ∀ (S : List ASTNode) (out : String), Accepted S → methodsOf S ≠ [] → DartGen.rpcMethods x S = .ok out →
    ∃ ns scope, DirectiveIs S "namespace" ns ∧ DirectiveIs S "id" scope ∧
      ∃ methods, Joined ["\n"] ((methodsOf S).map code) methods ∧
        out = "class " ++ x.pascal ns ++ "RpcClient {\n" ++
          constructorText (x.pascal ns ++ "RpcClient") (String.join ((methodsOf S).map connect)) ++
          "\n  final TechPawsRuntimeRpcScheduler _scheduler;\n" ++
          "  static const _scopeId = '" ++ scope ++ "';\n" ++
          String.join ((methodsOf S).map fields) ++ String.join ((methodsOf S).map getters) ++
          "\n  void disconnect() {\n" ++ String.join ((methodsOf S).map disconnect) ++ "  }\n" ++
          (if (methodsOf S).length > 1 then "\n" else "") ++ methods ++ "}\n" := by
  refine ⟨fun f => linesText 2 ((Dart.genConnects x f).map (fun n => (2, n ++ "();"))),
    fun f => linesText 2 ((Dart.genMembers x f).map Dart.Member.render),
    fun f => linesText 2 ((Dart.genGetters x f).flatMap Dart.Getter.render),
    fun f => linesText 2 ((Dart.genDisc x f).map Dart.DiscS.render),
    fun f => linesText 2 (joinBlocks ((Dart.genDMethods x f).map Dart.DMethod.render)), ?_⟩
  intro S out hA hM hout
  have hdir : ∀ n v, DartGen.stringDirective S n = .ok v → DirectiveIs S n v := by
    intro n v h
    rw [directiveIs_iff]
    unfold DartGen.stringDirective at h
    cases hv : findDirectiveValue S n with
    | none => rw [hv] at h; cases h
    | some c =>
      obtain ⟨l, t⟩ := c
      rw [hv] at h
      cases l <;> simp at h
      exact ⟨t, by rw [h]⟩
  have hne : findFnNodes S ≠ [] := by rwa [findFnNodes_eq]
  have hl := List.getLast?_eq_some_getLast hne
  have hout' := hout
  unfold DartGen.rpcMethods at hout'
  simp only [hl] at hout'
  cases hn : DartGen.stringDirective S "namespace" with
  | error e => simp [hn] at hout'
  | ok ns =>
    cases hi : DartGen.stringDirective S "id" with
    | error e => simp [hn, hi] at hout'
    | ok scope =>
      clear hout'
      refine ⟨ns, scope, hdir _ _ hn, hdir _ _ hi, linesText 2 (joinBlocks ((methodsOf S).map (fun f =>
        joinBlocks ((Dart.genDMethods x f).map Dart.DMethod.render)))), ?_, ?_⟩
      · have := joined_blocks 2 ((methodsOf S).map (fun f => joinBlocks ((Dart.genDMethods x f).map Dart.DMethod.render)))
        simpa [List.map_map, Function.comp_def] using this
      · rw [Dart.rpc_render S (fun f hf => by rw [findFnNodes_eq] at hf; exact Dart.sizedFn_of_wf hA.wf hf) hne
          (by rw [findFnNodes_eq]; exact Rust.positions_nodup hA.wf) ns scope hn hi] at hout
        injection hout with hout
        subst hout
        have e1 : String.join ((methodsOf S).map (fun f => linesText 2 ((Dart.genConnects x f).map (fun n => (2, n ++ "();")))))
            = linesText 2 ((Dart.genClient x ns scope S).connects.map (fun n => (2, n ++ "();"))) := by
          rw [← linesText_flatMap]
          simp [Dart.genClient, findFnNodes_eq, List.map_flatMap]
        have e2 : String.join ((methodsOf S).map (fun f => linesText 2 ((Dart.genMembers x f).map Dart.Member.render)))
            = linesText 2 ((Dart.genClient x ns scope S).members.map Dart.Member.render) := by
          rw [← linesText_flatMap]
          simp [Dart.genClient, findFnNodes_eq, List.map_flatMap]
        have e3 : String.join ((methodsOf S).map (fun f => linesText 2 ((Dart.genGetters x f).flatMap Dart.Getter.render)))
            = linesText 2 ((Dart.genClient x ns scope S).getters.flatMap Dart.Getter.render) := by
          rw [← linesText_flatMap]
          simp [Dart.genClient, findFnNodes_eq, List.flatMap_assoc]
        have e4 : String.join ((methodsOf S).map (fun f => linesText 2 ((Dart.genDisc x f).map Dart.DiscS.render)))
            = linesText 2 ((Dart.genClient x ns scope S).disconnect.map Dart.DiscS.render) := by
          rw [← linesText_flatMap]
          simp [Dart.genClient, findFnNodes_eq, List.map_flatMap]
        have e5 : (joinBlocks ((methodsOf S).map (fun f => joinBlocks ((Dart.genDMethods x f).map Dart.DMethod.render))))
            = joinBlocks ((Dart.genClient x ns scope S).methods.map Dart.DMethod.render) := by
          rw [← joinBlocks_flat]
          · simp [Dart.genClient, findFnNodes_eq, List.map_flatMap]
          · intro f _
            unfold Dart.genDMethods
            cases f.isRead <;> cases f.isAsync <;> simp
        rw [e1, e2, e3, e4, e5, ← show (Dart.genClient x ns scope S).name = x.pascal ns ++ "RpcClient" from rfl, ← constructor_text]
        have e6 : linesText 2 (if (Dart.genClient x ns scope S).sep then [(0, "")] else []) = if (methodsOf S).length > 1 then "\n" else "" := by
          simp only [Dart.genClient, findFnNodes_eq, decide_eq_true_eq]
          split <;> rfl
        rw [← e6]
        unfold Dart.Client.render
        simp only [linesText_append]
        have e7 : linesText 2 [(0, "class " ++ (Dart.genClient x ns scope S).name ++ " {")] = "class " ++ x.pascal ns ++ "RpcClient {\n" := by
          simp [linesText, repeatStr, Dart.genClient, String.append_assoc]
        have e8 : linesText 2 [(0, ""), (1, "final TechPawsRuntimeRpcScheduler _scheduler;"),
            (1, "static const _scopeId = '" ++ (Dart.genClient x ns scope S).scope ++ "';")]
            = "\n  final TechPawsRuntimeRpcScheduler _scheduler;\n" ++ "  static const _scopeId = '" ++ scope ++ "';\n" := by
          simp [linesText, repeatStr, Dart.genClient, String.append_assoc]
          simp [← String.append_assoc]
        have e9 : linesText 2 [(0, ""), (1, "void disconnect() {")] = "\n  void disconnect() {\n" := rfl
        have e10 : linesText 2 [(1, "}")] = "  }\n" := rfl
        have e11 : linesText 2 [(0, "}")] = "}\n" := rfl
        rw [e7, e8, e9, e10, e11]
        simp only [String.append_assoc]

/-- The first declaration of one schema is the third of another; both have three or four declarations of types. -/
example : Accepted dartExample ∧ Accepted nextExample ∧ (typeDecls dartExample).length = 3 ∧ (typeDecls nextExample).length = 4 ∧
    testExtF.camel "createDefault" = "createDefault" ∧
    .struct ⟨"Point", [⟨0, "name", .other "String"⟩, ⟨1, "x_pos", .integer "i32" 4 true⟩,
      ⟨2, "path", .generic "Vec" [.other "Point"]⟩], true, true⟩ ∈ typeDecls dartExample ∧
    .struct ⟨"Point", [⟨0, "name", .other "String"⟩, ⟨1, "x_pos", .integer "i32" 4 true⟩,
      ⟨2, "path", .generic "Vec" [.other "Point"]⟩], true, true⟩ ∈ typeDecls nextExample :=
  ⟨dartExample_accepted, nextExample_accepted, rfl, rfl, by decide +kernel,
    by simp [typeDecls, dartExample, isTypeDecl], by simp [typeDecls, nextExample, isTypeDecl]⟩

example : Accepted rpcSchema ∧ (methodsOf rpcSchema).length = 5 ∧ (∃ out, RustGen.rpc rpcSchema = .ok out) ∧
    ∃ out, DartGen.rpcMethods testExt rpcSchema = .ok out :=
  ⟨rpcSchema_accepted, rfl, rpcSchema_out, rpcSchema_dartOut⟩

end TPB.Props
