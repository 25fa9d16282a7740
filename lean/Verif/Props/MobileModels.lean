/-
C53: what the Kotlin and Swift models declare.  C54: their default values.  C44: declared names are the names that
are used.
-/
import Verif.Spec.MobileModels
import Verif.Proofs.KotlinText
import Verif.Proofs.SwiftText
import Verif.Props.Mobile
namespace TPB.Props
open Spec

/-- The spelling of declared names in Kotlin: structs in Pascal case, enums as they are, variants as the enum's
name and the variant's name together in Pascal case, fields of structs in camel case, of variants as they are. -/
def kotlinDeclared (x : ExtF) : Declared := ⟨x.pascal, id, fun e v => x.pascal (e ++ v), x.camel, id⟩

/-- The spelling of used names in Kotlin: types as they are, variants as the enum's name and the variant's name
together, fields in camel case. -/
def kotlinUsed (x : ExtF) : Used := ⟨id, fun e v => e ++ v, x.camel, x.camel⟩

/-- The spelling of declared names in Swift: types in Pascal case, variants and fields in camel case. -/
def swiftDeclared (x : ExtF) : Declared := ⟨x.pascal, x.pascal, fun _ v => x.camel v, x.camel, id⟩

/-- The spelling of used names in Swift: types as they are, variants and fields in camel case. -/
def swiftUsed (x : ExtF) : Used := ⟨id, fun _ v => x.camel v, x.camel, id⟩

theorem each_of_map {α β : Type} {R : α → β → Prop} (g : α → β) (as : List α) (h : ∀ a ∈ as, R a (g a)) :
    Each R as (as.map g) := by
  induction as with
  | nil => exact .nil
  | cons a as ih => exact .cons (h a (by simp)) (ih (fun b hb => h b (by simp [hb])))

theorem not_builtin {n : String} (h : n ∉ builtinTypes.map (·.1)) : typeOfName n = .other n := by
  have : builtinTypes.lookup n = none := by
    rw [List.lookup_eq_none_iff]
    intro p hp
    have : n ≠ p.1 := fun e => h (e ▸ List.mem_map_of_mem hp)
    simpa using this
  simp [typeOfName, this]

/-! ## Kotlin -/
namespace KotlinModels
open TPB.Kotlin Spec.Kotlin

variable {x : ExtF}

theorem genTys_map (ts : List TypeId) : genTys ts = ts.map genTy := by
  induction ts with
  | nil => rfl
  | cons t ts ih => simp [genTys, ih]

theorem typeIs {t : TypeId} (h : WFType t) : TypeIs (kotlinUsed x) t (genTy t) := by
  induction h with
  | name n =>
    by_cases hn : n ∈ builtinTypes.map (·.1)
    · simp only [builtinTypes, List.map_cons, List.map_nil, List.mem_cons, List.not_mem_nil, or_false] at hn
      rcases hn with h | h | h | h | h | h | h | h | h | h <;> subst h <;>
        (simp only [typeOfName, builtinTypes, List.lookup, genTy, intName]
         first
         | exact TypeIs.builtin (n := "i8") (v := .int 8 true) (by decide) (by decide)
         | exact TypeIs.builtin (n := "i32") (v := .int 32 true) (by decide) (by decide)
         | exact TypeIs.builtin (n := "i64") (v := .int 64 true) (by decide) (by decide)
         | exact TypeIs.builtin (n := "u8") (v := .int 8 false) (by decide) (by decide)
         | exact TypeIs.builtin (n := "u32") (v := .int 32 false) (by decide) (by decide)
         | exact TypeIs.builtin (n := "u64") (v := .int 64 false) (by decide) (by decide)
         | exact TypeIs.builtin (n := "f32") (v := .float 32) (by decide) (by decide)
         | exact TypeIs.builtin (n := "f64") (v := .float 64) (by decide) (by decide)
         | exact TypeIs.builtin (n := "char") (v := .char) (by decide) (by decide)
         | exact TypeIs.builtin (n := "bool") (v := .bool) (by decide) (by decide))
    · rw [not_builtin hn]
      simp only [genTy]
      by_cases ha : IsAddress n
      · have e : n = "GroupAddress" ∨ n = "CommandsBufferAddress" := ha
        rw [if_pos e]; exact .address ha
      · have e : ¬ (n = "GroupAddress" ∨ n = "CommandsBufferAddress") := ha
        rw [if_neg e]; exact .other (U := kotlinUsed x) ha
  | generic n as _ _ ih =>
    simp only [genTy, genTys_map]
    have he := each_of_map (R := TypeIs (kotlinUsed x)) genTy as ih
    by_cases hv : n = "Vec"
    · subst hv; exact .list he
    · rw [if_neg hv]; exact .generic (U := kotlinUsed x) hv he

theorem zeroIs {t : TypeId} (h : WFType t) (hc : ∀ n, t ≠ .char n) (ha : ∀ id, IsAddress id → t ≠ .other id) :
    ZeroIs (kotlinUsed x) t (genDefault t) := by
  cases h with
  | name n =>
    by_cases hn : n ∈ builtinTypes.map (·.1)
    · simp only [builtinTypes, List.map_cons, List.map_nil, List.mem_cons, List.not_mem_nil, or_false] at hn
      rcases hn with h | h | h | h | h | h | h | h | h | h <;> subst h <;>
        (simp only [typeOfName, builtinTypes, List.lookup, genDefault, intZero]
         first
         | exact absurd rfl (hc "char")
         | exact ZeroIs.builtin (n := "i8") (v := .int 8 true) (by decide) (by decide)
         | exact ZeroIs.builtin (n := "i32") (v := .int 32 true) (by decide) (by decide)
         | exact ZeroIs.builtin (n := "i64") (v := .int 64 true) (by decide) (by decide)
         | exact ZeroIs.builtin (n := "u8") (v := .int 8 false) (by decide) (by decide)
         | exact ZeroIs.builtin (n := "u32") (v := .int 32 false) (by decide) (by decide)
         | exact ZeroIs.builtin (n := "u64") (v := .int 64 false) (by decide) (by decide)
         | exact ZeroIs.builtin (n := "f32") (v := .float 32) (by decide) (by decide)
         | exact ZeroIs.builtin (n := "f64") (v := .float 64) (by decide) (by decide)
         | exact ZeroIs.builtin (n := "bool") (v := .bool) (by decide) (by decide))
    · rw [not_builtin hn] at ha ⊢
      simp only [genDefault]
      have : ¬ IsAddress n := fun h => ha n h rfl
      split
      · next e => subst e; exact .string
      · next e1 =>
        split
        · next e => subst e; exact .bareList
        · next e2 => exact .other (U := kotlinUsed x) this e1 e2
  | generic n as _ hw =>
    simp only [genDefault, genTys_map]
    by_cases hv : n = "Vec"
    · subst hv; exact .list
    · rw [if_neg hv]
      exact .generic (U := kotlinUsed x) hv (each_of_map genTy as (fun a h => typeIs (hw a h)))

theorem refersTo {t : TypeId} (h : WFType t) : RefersTo (kotlinUsed x) t (genDefault t) := by
  cases h with
  | name n =>
    rcases typeName_cases n with ⟨i, s, e, _⟩ | ⟨i, e, _⟩ | e | e | e <;> rw [e] <;> try exact trivial
    simp only [genDefault]
    repeat' split
    all_goals first | exact trivial | exact ⟨n, rfl, rfl⟩
  | generic n as _ hw =>
    simp only [genDefault, genTys_map]
    split
    · exact trivial
    · exact ⟨n, as, rfl, rfl, each_of_map genTy as (fun a h => typeIs (hw a h))⟩

theorem genTuple_each (i : Nat) (vs : List TupleField) (h : ∀ v ∈ vs, WFType v.typeId) :
    Each (fun (v : TupleField) (q : String × Ty) => TypeIs (kotlinUsed x) v.typeId q.2) vs (genTuple i vs) := by
  induction vs generalizing i with
  | nil => exact .nil
  | cons v vs ih =>
    exact .cons (typeIs (h v (by simp))) (ih (i + 1) (fun w hw => h w (by simp [hw])))

theorem p_inj {i j : Nat} (h : "p" ++ toString i = "p" ++ toString j) : i = j := by
  have h1 := congrArg String.toList h
  simp only [String.toList_append] at h1
  have h2 := List.append_cancel_left h1
  have h3 : toString i = toString j := String.toList_injective h2
  exact Nat.repr_injective h3

theorem genTuple_names (i : Nat) (vs : List TupleField) :
    ∀ n ∈ (genTuple i vs).map (·.1), ∃ j, i ≤ j ∧ n = "p" ++ toString j := by
  induction vs generalizing i with
  | nil => intro n h; simp [genTuple] at h
  | cons v vs ih =>
    intro n h
    simp only [genTuple, List.map_cons, List.mem_cons] at h
    rcases h with rfl | h
    · exact ⟨i, Nat.le_refl i, rfl⟩
    · obtain ⟨j, hj, e⟩ := ih (i + 1) n h
      exact ⟨j, by omega, e⟩

theorem genTuple_nodup (i : Nat) (vs : List TupleField) : ((genTuple i vs).map (·.1)).Nodup := by
  induction vs generalizing i with
  | nil => simp [genTuple]
  | cons v vs ih =>
    simp only [genTuple, List.map_cons, List.nodup_cons]
    refine ⟨fun h => ?_, ih (i + 1)⟩
    obtain ⟨j, hj, e⟩ := genTuple_names (i + 1) vs _ h
    have := p_inj e
    omega

theorem variantIs (e : String) {i : EnumItem} (h : WFItem i) :
    VariantIs (kotlinDeclared x) (kotlinUsed x) e i (genCase x e i) := by
  cases i with
  | empty p id => exact .empty (D := kotlinDeclared x) (U := kotlinUsed x)
  | tuple p id vs =>
    exact .tuple (D := kotlinDeclared x) (U := kotlinUsed x) (genTuple_each 0 vs h.2) (genTuple_nodup 0 vs)
  | struct p id fs =>
    exact .struct (D := kotlinDeclared x) (U := kotlinUsed x) (each_of_map _ fs (fun f hf => ⟨rfl, typeIs (h.2 f hf)⟩))

theorem declares {k : Nat} {d : ASTNode} (h : WFDecl k d) :
    Declares (kotlinDeclared x) (kotlinUsed x) d (genItem x d) := by
  cases d with
  | struct n =>
    have := Declares.struct (D := kotlinDeclared x) (U := kotlinUsed x) (n := n)
      (c := ⟨genName n.id, .call n.id (genNamedArgs x n.fields)⟩)
      (each_of_map (fun f => (x.camel f.name, genTy f.typeId)) n.fields (fun f hf => ⟨rfl, typeIs (h.1.2 f hf)⟩))
    have e : (n.fields.map (fun f => (x.camel f.name, genTy f.typeId))).isEmpty = n.fields.isEmpty := by
      cases n.fields <;> rfl
    rw [e] at this
    exact this
  | enum n =>
    obtain ⟨hne, -, hi⟩ := h
    simp only [genItem, genEnum]
    cases e : n.items with
    | nil => exact absurd e hne
    | cons i is =>
      have hv := each_of_map (R := VariantIs (kotlinDeclared x) (kotlinUsed x) n.id) (genCase x n.id) n.items
        (fun j hj => variantIs n.id (hi j hj))
      have := Declares.enum (c := ⟨genName n.id, genEnumDefault x n.id i⟩) hv
      rw [e] at this
      exact this
  | fn n => exact .fn
  | const n => exact .const
  | directive n => exact .directive

theorem creates {k : Nat} {d : ASTNode} {Z : TypeId → Expr → Prop} (h : WFDecl k d)
    (hn : ∀ id, Own [d] id → ¬ IsAddress id) (hz : ∀ t ∈ defaulted d, WFType t → Z t (genDefault t)) :
    Creates (kotlinUsed x) Z d (genItem x d) := by
  cases d with
  | struct n =>
    have e : genName n.id = n.id := if_neg (hn n.id (Or.inl ⟨n, by simp, rfl⟩))
    simp only [genItem, genStruct, e]
    exact Creates.struct (U := kotlinUsed x) (each_of_map _ n.fields (fun f hf =>
      ⟨rfl, hz _ (List.mem_map.2 ⟨f, hf, rfl⟩) (h.1.2 f hf)⟩))
  | enum n =>
    obtain ⟨hne, -, hi⟩ := h
    have eN : genName n.id = n.id := if_neg (hn n.id (Or.inr ⟨n, by simp, rfl⟩))
    simp only [genItem, genEnum]
    cases e : n.items with
    | nil => exact absurd e hne
    | cons i is =>
      rw [eN]
      refine Creates.enum (U := kotlinUsed x) e ?_
      have hi := hi i (by simp [e])
      cases i with
      | empty p id => exact .empty (U := kotlinUsed x)
      | tuple p id vs =>
        exact .tuple (U := kotlinUsed x) (each_of_map _ vs (fun v hv =>
          ⟨rfl, hz _ (by simp only [defaulted, e]; exact List.mem_map.2 ⟨v, hv, rfl⟩) (hi.2 v hv)⟩))
      | struct p id fs =>
        exact .struct (U := kotlinUsed x) (each_of_map _ fs (fun f hf =>
          ⟨rfl, hz _ (by simp only [defaulted, e]; exact List.mem_map.2 ⟨f, hf, rfl⟩) (hi.2 f hf)⟩))
  | fn n => exact .fn
  | const n => exact .const
  | directive n => exact .directive

theorem file {P : ASTNode → List Item → Prop} {S : List ASTNode} (h : ∀ d ∈ S, P d (genItem x d)) :
    File P S (genItems x S) :=
  ⟨S.map (genItem x), by rw [genItems, List.flatMap_def], each_of_map _ S h⟩

end KotlinModels

/-! ## Swift -/
namespace SwiftModels
open TPB.Swift Spec.Swift

variable {x : ExtF}

theorem genTys_map (ts : List TypeId) : genTys ts = ts.map genTy := by
  induction ts with
  | nil => rfl
  | cons t ts ih => simp [genTys, ih]

theorem typeIs {t : TypeId} (h : WFType t) : TypeIs namesWithChar (swiftUsed x) t (genTy t) := by
  induction h with
  | name n =>
    by_cases hn : n ∈ builtinTypes.map (·.1)
    · simp only [builtinTypes, List.map_cons, List.map_nil, List.mem_cons, List.not_mem_nil, or_false] at hn
      rcases hn with h | h | h | h | h | h | h | h | h | h <;> subst h <;>
        (simp only [typeOfName, builtinTypes, List.lookup, genTy, intName]
         first
         | exact TypeIs.builtin (n := "i8") (v := .int 8 true) (by decide) (by decide)
         | exact TypeIs.builtin (n := "i32") (v := .int 32 true) (by decide) (by decide)
         | exact TypeIs.builtin (n := "i64") (v := .int 64 true) (by decide) (by decide)
         | exact TypeIs.builtin (n := "u8") (v := .int 8 false) (by decide) (by decide)
         | exact TypeIs.builtin (n := "u32") (v := .int 32 false) (by decide) (by decide)
         | exact TypeIs.builtin (n := "u64") (v := .int 64 false) (by decide) (by decide)
         | exact TypeIs.builtin (n := "f32") (v := .float 32) (by decide) (by decide)
         | exact TypeIs.builtin (n := "f64") (v := .float 64) (by decide) (by decide)
         | exact TypeIs.builtin (n := "char") (v := .char) (by decide) (by decide)
         | exact TypeIs.builtin (n := "bool") (v := .bool) (by decide) (by decide))
    · rw [not_builtin hn]
      simp only [genTy, genName]
      by_cases ha : IsAddress n
      · have e : n = "GroupAddress" ∨ n = "CommandsBufferAddress" := ha
        rw [if_pos e]; exact .address ha
      · have e : ¬ (n = "GroupAddress" ∨ n = "CommandsBufferAddress") := ha
        rw [if_neg e]; exact .other (U := swiftUsed x) ha
  | generic n as _ _ ih =>
    simp only [genTy, genTys_map]
    have he := each_of_map (R := TypeIs namesWithChar (swiftUsed x)) genTy as ih
    by_cases hv : n = "Vec"
    · subst hv; exact .list he
    · rw [if_neg hv]; exact .generic (U := swiftUsed x) hv he

theorem zeroIs {t : TypeId} (h : WFType t) (hc : ∀ n, t ≠ .char n) (ha : ∀ id, IsAddress id → t ≠ .other id) :
    ZeroIs namesWithChar (swiftUsed x) t (genDefault t) := by
  cases h with
  | name n =>
    by_cases hn : n ∈ builtinTypes.map (·.1)
    · simp only [builtinTypes, List.map_cons, List.map_nil, List.mem_cons, List.not_mem_nil, or_false] at hn
      rcases hn with h | h | h | h | h | h | h | h | h | h <;> subst h <;>
        (simp only [typeOfName, builtinTypes, List.lookup, genDefault]
         first
         | exact absurd rfl (hc "char")
         | exact ZeroIs.builtin (n := "i8") (v := .int 8 true) (by decide) (by decide)
         | exact ZeroIs.builtin (n := "i32") (v := .int 32 true) (by decide) (by decide)
         | exact ZeroIs.builtin (n := "i64") (v := .int 64 true) (by decide) (by decide)
         | exact ZeroIs.builtin (n := "u8") (v := .int 8 false) (by decide) (by decide)
         | exact ZeroIs.builtin (n := "u32") (v := .int 32 false) (by decide) (by decide)
         | exact ZeroIs.builtin (n := "u64") (v := .int 64 false) (by decide) (by decide)
         | exact ZeroIs.builtin (n := "f32") (v := .float 32) (by decide) (by decide)
         | exact ZeroIs.builtin (n := "f64") (v := .float 64) (by decide) (by decide)
         | exact ZeroIs.builtin (n := "bool") (v := .bool) (by decide) (by decide))
    · rw [not_builtin hn] at ha ⊢
      simp only [genDefault]
      have : ¬ IsAddress n := fun h => ha n h rfl
      split
      · next e => subst e; exact .string
      · next e1 =>
        split
        · next e => subst e; exact .bareList
        · next e2 => exact .other (U := swiftUsed x) this e1 e2
  | generic n as _ hw =>
    simp only [genDefault, genTys_map]
    by_cases hv : n = "Vec"
    · subst hv; exact .list
    · rw [if_neg hv]
      exact .generic (U := swiftUsed x) hv (each_of_map genTy as (fun a h => typeIs (hw a h)))

theorem refersTo {t : TypeId} (h : WFType t) : RefersTo namesWithChar (swiftUsed x) t (genDefault t) := by
  cases h with
  | name n =>
    rcases typeName_cases n with ⟨i, s, e, _⟩ | ⟨i, e, _⟩ | e | e | e <;> rw [e] <;> try exact trivial
    simp only [genDefault]
    repeat' split
    all_goals first | exact trivial | exact ⟨n, rfl, rfl⟩
  | generic n as _ hw =>
    simp only [genDefault, genTys_map]
    split
    · exact trivial
    · exact ⟨n, as, rfl, rfl, each_of_map genTy as (fun a h => typeIs (hw a h))⟩

theorem variantIs (e : String) {i : EnumItem} (h : WFItem i) :
    VariantIs namesWithChar (swiftDeclared x) (swiftUsed x) e i (genCase x i) := by
  cases i with
  | empty p id => exact .empty (D := swiftDeclared x) (U := swiftUsed x)
  | tuple p id vs =>
    exact .tuple (D := swiftDeclared x) (U := swiftUsed x) (each_of_map _ vs (fun v hv => typeIs (h.2 v hv)))
  | struct p id fs =>
    exact .struct (D := swiftDeclared x) (U := swiftUsed x) (each_of_map _ fs (fun f hf => typeIs (h.2 f hf)))

theorem declares {k : Nat} {d : ASTNode} (h : WFDecl k d) :
    Declares namesWithChar (swiftDeclared x) (swiftUsed x) d (genItem x d) := by
  cases d with
  | struct n =>
    exact Declares.struct (D := swiftDeclared x) (U := swiftUsed x)
      (each_of_map (fun f => (x.camel f.name, genTy f.typeId)) n.fields (fun f hf => ⟨rfl, typeIs (h.1.2 f hf)⟩))
  | enum n =>
    obtain ⟨hne, -, hi⟩ := h
    simp only [genItem, genEnum]
    cases e : n.items with
    | nil => exact absurd e hne
    | cons i is =>
      have := Declares.enum (D := swiftDeclared x) (c := ⟨genName n.id, genEnumDefault x i⟩)
        (each_of_map (genCase x) n.items (fun j hj => variantIs (x := x) n.id (hi j hj)))
      rw [e] at this
      exact this
  | fn n => exact .fn
  | const n => exact .const
  | directive n => exact .directive

theorem creates {k : Nat} {d : ASTNode} {Z : TypeId → Expr → Prop} (h : WFDecl k d)
    (hn : ∀ id, Own [d] id → ¬ IsAddress id) (hz : ∀ t ∈ defaulted d, WFType t → Z t (genDefault t)) :
    Creates (swiftUsed x) Z d (genItem x d) := by
  cases d with
  | struct n =>
    have e : genName n.id = n.id := if_neg (hn n.id (Or.inl ⟨n, by simp, rfl⟩))
    simp only [genItem, genStruct, e]
    exact Creates.struct (U := swiftUsed x) (each_of_map _ n.fields (fun f hf =>
      ⟨_, rfl, hz _ (List.mem_map.2 ⟨f, hf, rfl⟩) (h.1.2 f hf)⟩))
  | enum n =>
    obtain ⟨hne, -, hi⟩ := h
    have eN : genName n.id = n.id := if_neg (hn n.id (Or.inr ⟨n, by simp, rfl⟩))
    simp only [genItem, genEnum]
    cases e : n.items with
    | nil => exact absurd e hne
    | cons i is =>
      rw [eN]
      refine Creates.enum (U := swiftUsed x) e ?_
      have hi := hi i (by simp [e])
      cases i with
      | empty p id => exact .empty (U := swiftUsed x)
      | tuple p id vs =>
        exact .tuple (U := swiftUsed x) (each_of_map _ vs (fun v hv =>
          ⟨_, rfl, hz _ (by simp only [defaulted, e]; exact List.mem_map.2 ⟨v, hv, rfl⟩) (hi.2 v hv)⟩))
      | struct p id fs =>
        exact .struct (U := swiftUsed x) (each_of_map _ fs (fun f hf =>
          ⟨_, rfl, hz _ (by simp only [defaulted, e]; exact List.mem_map.2 ⟨f, hf, rfl⟩) (hi.2 f hf)⟩))
  | fn n => exact .fn
  | const n => exact .const
  | directive n => exact .directive

theorem file {P : ASTNode → List Item → Prop} {S : List ASTNode} (h : ∀ d ∈ S, P d (genItem x d)) :
    File P S (genItems x S) :=
  ⟨S.map (genItem x), by rw [genItems, List.flatMap_def], each_of_map _ S h⟩

end SwiftModels

/-! ## C53: what is declared -/

/-- The emitted text of an accepted schema. -/
theorem kotlin_eq (x : ExtF) {ts : List Token} {S : List ASTNode} (h : parse ts = .ok S) :
    KotlinGen.models x S = .ok (linesText 4 (TPB.Kotlin.renderItems (TPB.Kotlin.genItems x S))) := by
  obtain ⟨out, ho⟩ := KotlinGen.ok_models (x := x) (accepted_decls h)
  rw [ho, KotlinGen.models_text x S out ho]

theorem kotlin_run {ts : List Token} {S : List ASTNode} {text : String} (h : parse ts = .ok S)
    (e : linesText 4 (TPB.Kotlin.renderItems (TPB.Kotlin.genItems testExtF S)) = text) :
    parse ts = .ok S ∧ KotlinGen.models testExtF S = .ok text :=
  ⟨h, (kotlin_eq testExtF h).trans (congrArg _ e)⟩

/-- The emitted text of an accepted schema. -/
theorem swift_eq (x : ExtF) (hx : x.camel "createDefault" = "createDefault") {ts : List Token} {S : List ASTNode}
    (h : parse ts = .ok S) :
    SwiftGen.models x S = .ok (linesText 4 (TPB.Swift.renderItems (TPB.Swift.genItems x S))) := by
  obtain ⟨out, ho⟩ := SwiftGen.ok_models (x := x) (accepted_decls h)
  rw [ho, SwiftGen.models_text x hx S out ho]

theorem own_of_mem {S : List ASTNode} {d : ASTNode} (hd : d ∈ S) {id : String} (h : Own [d] id) : Own S id := by
  rcases h with ⟨n, hn, e⟩ | ⟨n, hn, e⟩
  · exact Or.inl ⟨n, by simp at hn; rwa [hn], e⟩
  · exact Or.inr ⟨n, by simp at hn; rwa [hn], e⟩

theorem kotlin_dataClasses {x : ExtF} {S : List ASTNode} (hp : ∀ n, .enum n ∈ S → ∀ i ∈ n.items, ¬ EmptyParens i) :
    Kotlin.DataClassesOk (TPB.Kotlin.genItems x S) := by
  intro n ps s c hm hps
  subst hps
  obtain ⟨d, hd, hm⟩ := List.mem_flatMap.1 hm
  cases d with
  | struct m =>
    simp only [TPB.Kotlin.genItem, TPB.Kotlin.genStruct, List.mem_singleton, TPB.Kotlin.Item.cls.injEq] at hm
    obtain ⟨-, e1, e2, -⟩ := hm
    cases ef : m.fields with
    | nil => rw [ef] at e1; simp at e1
    | cons f fs => rw [ef] at e2; simp at e2
  | enum m =>
    simp only [TPB.Kotlin.genItem, TPB.Kotlin.genEnum] at hm
    cases e : m.items with
    | nil => rw [e] at hm; simp at hm
    | cons i is =>
      rw [e] at hm
      simp only [List.mem_cons, reduceCtorEq, false_or] at hm
      rw [← e] at hm
      obtain ⟨j, hj, hm⟩ := List.mem_map.1 hm
      have hp := hp m hd j hj
      cases j with
      | empty p id => simp [TPB.Kotlin.genCase] at hm
      | tuple p id vs =>
        simp only [TPB.Kotlin.genCase, TPB.Kotlin.Item.cls.injEq] at hm
        cases vs with
        | nil => exact hp trivial
        | cons v vs => simp [TPB.Kotlin.genTuple] at hm
      | struct p id fs =>
        simp only [TPB.Kotlin.genCase, TPB.Kotlin.Item.cls.injEq] at hm
        cases fs with
        | nil => exact hp trivial
        | cons v vs => simp at hm
  | _ => simp [TPB.Kotlin.genItem] at hm

/-- **C53, Kotlin, part.** For every accepted schema, generation succeeds and the text declares exactly one class
for each struct, with its fields in order and their types, and one interface for each enum, followed by its
variants in order with their values.  Missing: a variant without values that is written with parentheses is
emitted as a data class without parameters, which Kotlin does not allow (`C53_kotlin_empty_variant`). -/
theorem C53_kotlin_partial (x : ExtF) (ts : List Token) (S : List ASTNode) (h : parse ts = .ok S) :
    ∃ out F, KotlinGen.models x S = .ok out ∧ Kotlin.IsText F out ∧
      Kotlin.File (Kotlin.Declares (kotlinDeclared x) (kotlinUsed x)) S F ∧
      ((∀ n, .enum n ∈ S → ∀ i ∈ n.items, ¬ EmptyParens i) → Kotlin.DataClassesOk F) := by
  obtain ⟨out, ho⟩ := KotlinGen.ok_models (x := x) (accepted_decls h)
  refine ⟨out, _, ho, KotlinGen.models_text x S out ho, KotlinModels.file (fun d hd => ?_), kotlin_dataClasses⟩
  obtain ⟨k, hk⟩ := accepted_decls h d hd
  exact KotlinModels.declares hk

/-- **C53, Kotlin.** The property does not hold for `enum My { A() }`: this is its text, and a data class needs a
parameter. -/
theorem C53_kotlin_empty_variant :
    parse [.kwEnum, .id "My", .sym '{', .id "A", .sym '(', .sym ')', .sym '}', .eof] = .ok [.enum ⟨"My", [.tuple 0 "A" []]⟩] ∧
    KotlinGen.models testExtF [.enum ⟨"My", [.tuple 0 "A" []]⟩] =
      .ok "sealed interface My {\n    companion object {\n        fun createDefault(): My = MyA()\n    }\n}\n\ndata class MyA() : My\n" := by
  refine kotlin_run (by rfl) ?_
  simp only [TPB.Kotlin.genItems, List.flatMap_cons, List.flatMap_nil, TPB.Kotlin.genItem, TPB.Kotlin.genStruct, TPB.Kotlin.genEnum,
    List.map_cons, List.map_nil, List.append_nil, TPB.Kotlin.genCase, TPB.Kotlin.genTy, TPB.Kotlin.renderItems, TPB.Kotlin.Item.render,
    TPB.Kotlin.renderBody, TPB.Kotlin.Ty.render]
  decide +kernel

/-- **C53, Swift, part.** The same for Swift: one struct for each struct and one enum for each enum, with fields,
cases and values in order.  Missing: the type `char` is written `char`, which is not a Swift type
(`C43_swift_char`). -/
theorem C53_swift_partial (x : ExtF) (hx : x.camel "createDefault" = "createDefault") (ts : List Token) (S : List ASTNode)
    (h : parse ts = .ok S) :
    ∃ out F, SwiftGen.models x S = .ok out ∧ Swift.IsText F out ∧
      Swift.File (Swift.Declares Swift.namesWithChar (swiftDeclared x) (swiftUsed x)) S F := by
  obtain ⟨out, ho⟩ := SwiftGen.ok_models (x := x) (accepted_decls h)
  refine ⟨out, _, ho, SwiftGen.models_text x hx S out ho, SwiftModels.file (fun d hd => ?_)⟩
  obtain ⟨k, hk⟩ := accepted_decls h d hd
  exact SwiftModels.declares hk

/-! ## C54: default values -/

/-- **C54, Kotlin, part.** For every accepted schema, `createDefault` of a struct gives every field, in order and by
name, the zero value of its type, and `createDefault` of an enum is its first variant with zero values.  Missing:
fields of type `char` (`C54_kotlin_char`) and of the address types (`C54_kotlin_address`), and declarations with the
names of the address types. -/
theorem C54_kotlin_partial (x : ExtF) (ts : List Token) (S : List ASTNode) (h : parse ts = .ok S)
    (hn : ∀ id, Own S id → ¬ IsAddress id)
    (ht : ∀ d ∈ S, ∀ t ∈ defaulted d, (∀ n, t ≠ .char n) ∧ ∀ id, IsAddress id → t ≠ .other id) :
    ∃ out F, KotlinGen.models x S = .ok out ∧ Kotlin.IsText F out ∧
      Kotlin.File (Kotlin.Creates (kotlinUsed x) (Kotlin.ZeroIs (kotlinUsed x))) S F := by
  obtain ⟨out, ho⟩ := KotlinGen.ok_models (x := x) (accepted_decls h)
  refine ⟨out, _, ho, KotlinGen.models_text x S out ho, KotlinModels.file (fun d hd => ?_)⟩
  obtain ⟨k, hk⟩ := accepted_decls h d hd
  exact KotlinModels.creates hk (fun id hi => hn id (own_of_mem hd hi))
    (fun t htd hw => KotlinModels.zeroIs hw (ht d hd t htd).1 (ht d hd t htd).2)

/-- **C54, Kotlin.** A field of type `char` gets the integer `0`. -/
theorem C54_kotlin_char :
    parse [.kwStruct, .id "P", .sym '{', .id "c", .sym ':', .id "char", .sym '}', .eof]
      = .ok [.struct ⟨"P", [⟨0, "c", .char "char"⟩], true, true⟩] ∧
    KotlinGen.models testExtF [.struct ⟨"P", [⟨0, "c", .char "char"⟩], true, true⟩] =
      .ok "data class P(\n    val c: Char,\n) {\n    companion object {\n        fun createDefault(): P = P(\n            c = 0,\n        )\n    }\n}\n" := by
  refine kotlin_run (by rfl) ?_
  simp only [TPB.Kotlin.genItems, List.flatMap_cons, List.flatMap_nil, TPB.Kotlin.genItem, TPB.Kotlin.genStruct, TPB.Kotlin.genEnum,
    List.map_cons, List.map_nil, List.append_nil, TPB.Kotlin.genCase, TPB.Kotlin.genTy, TPB.Kotlin.renderItems, TPB.Kotlin.Item.render,
    TPB.Kotlin.renderBody, TPB.Kotlin.Ty.render]
  decide +kernel

/-- **C54, Kotlin.** A field of an address type is an unsigned number, but gets the default of a class
`GroupAddress`. -/
theorem C54_kotlin_address :
    parse [.kwStruct, .id "P", .sym '{', .id "a", .sym ':', .id "GroupAddress", .sym '}', .eof]
      = .ok [.struct ⟨"P", [⟨0, "a", .other "GroupAddress"⟩], true, true⟩] ∧
    KotlinGen.models testExtF [.struct ⟨"P", [⟨0, "a", .other "GroupAddress"⟩], true, true⟩] =
      .ok "data class P(\n    val a: ULong,\n) {\n    companion object {\n        fun createDefault(): P = P(\n            a = GroupAddress.createDefault(),\n        )\n    }\n}\n" := by
  refine kotlin_run (by rfl) ?_
  simp only [TPB.Kotlin.genItems, List.flatMap_cons, List.flatMap_nil, TPB.Kotlin.genItem, TPB.Kotlin.genStruct, TPB.Kotlin.genEnum,
    List.map_cons, List.map_nil, List.append_nil, TPB.Kotlin.genCase, TPB.Kotlin.genTy, TPB.Kotlin.renderItems, TPB.Kotlin.Item.render,
    TPB.Kotlin.renderBody, TPB.Kotlin.Ty.render]
  decide +kernel

theorem swift_calls {x : ExtF} {S : List ASTNode} (hp : ∀ n, .enum n ∈ S → ∀ i ∈ n.items.head?, ¬ EmptyParens i) :
    Swift.CallsOk (TPB.Swift.genItems x S) := by
  intro n cs t id as hm has
  subst has
  obtain ⟨d, hd, hm⟩ := List.mem_flatMap.1 hm
  cases d with
  | struct m => simp [TPB.Swift.genItem, TPB.Swift.genStruct] at hm
  | enum m =>
    simp only [TPB.Swift.genItem, TPB.Swift.genEnum] at hm
    cases e : m.items with
    | nil => rw [e] at hm; simp at hm
    | cons i is =>
      have hp := hp m hd i (by simp [e])
      rw [e] at hm
      simp only [List.mem_singleton, TPB.Swift.Item.enum.injEq, TPB.Swift.Default.mk.injEq] at hm
      obtain ⟨-, -, -, hm⟩ := hm
      cases i with
      | empty p id => simp [TPB.Swift.genEnumDefault] at hm
      | tuple p id vs =>
        cases vs with
        | nil => exact hp trivial
        | cons v vs => simp [TPB.Swift.genEnumDefault] at hm
      | struct p id fs =>
        cases fs with
        | nil => exact hp trivial
        | cons v vs => simp [TPB.Swift.genEnumDefault] at hm
  | _ => simp [TPB.Swift.genItem] at hm

/-- **C54, Swift, part.** The same for Swift.  Missing also: the first variant is written with parentheses but
without values; then its case, which has no values, is called (`C54_swift_call`). -/
theorem C54_swift_partial (x : ExtF) (hx : x.camel "createDefault" = "createDefault") (ts : List Token) (S : List ASTNode)
    (h : parse ts = .ok S) (hn : ∀ id, Own S id → ¬ IsAddress id)
    (ht : ∀ d ∈ S, ∀ t ∈ defaulted d, (∀ n, t ≠ .char n) ∧ ∀ id, IsAddress id → t ≠ .other id)
    (hp : ∀ n, .enum n ∈ S → ∀ i ∈ n.items.head?, ¬ EmptyParens i) :
    ∃ out F, SwiftGen.models x S = .ok out ∧ Swift.IsText F out ∧
      Swift.File (Swift.Creates (swiftUsed x) (Swift.ZeroIs Swift.namesWithChar (swiftUsed x))) S F ∧ Swift.CallsOk F := by
  obtain ⟨out, ho⟩ := SwiftGen.ok_models (x := x) (accepted_decls h)
  refine ⟨out, _, ho, SwiftGen.models_text x hx S out ho, SwiftModels.file (fun d hd => ?_), swift_calls hp⟩
  obtain ⟨k, hk⟩ := accepted_decls h d hd
  exact SwiftModels.creates hk (fun id hi => hn id (own_of_mem hd hi))
    (fun t htd hw => SwiftModels.zeroIs hw (ht d hd t htd).1 (ht d hd t htd).2)

/-- **C54, Swift.** For `enum My { A() }` the case has no values, but is called. -/
theorem C54_swift_call :
    SwiftGen.models testExtF [.enum ⟨"My", [.tuple 0 "A" []]⟩] =
      .ok "enum My {\n    case a\n\n    static func createDefault() -> My {\n        return .a()\n    }\n}\n" := by
  refine (swift_eq testExtF (by decide +kernel) (ts := [.kwEnum, .id "My", .sym '{', .id "A", .sym '(', .sym ')', .sym '}', .eof])
    (by rfl)).trans (congrArg _ ?_)
  decide +kernel

/-! ## C44: names -/

/-- **C44, Kotlin, part.** For every accepted schema whose struct names, names of first variants (with the enum's name
before them) and field names of first variants are in the case that the generator gives them: every type, variant
and field is declared under the name by which the rest of the text uses it.  Missing: other names
(`C44_kotlin_type`, `C44_kotlin_field`) and declarations with the names of the address types. -/
theorem C44_kotlin_partial (x : ExtF) (ts : List Token) (S : List ASTNode) (h : parse ts = .ok S)
    (hs : ∀ n, .struct n ∈ S → x.pascal n.id = n.id)
    (he : ∀ n, .enum n ∈ S → ∀ i ∈ n.items.head?, x.pascal (n.id ++ i.id) = n.id ++ i.id ∧
      ∀ p fs, i = .struct p i.id fs → ∀ f ∈ fs, x.camel f.name = f.name)
    (hn : ∀ id, Own S id → ¬ IsAddress id) :
    ∃ out F, KotlinGen.models x S = .ok out ∧ Kotlin.IsText F out ∧ Kotlin.Consistent S F := by
  obtain ⟨out, ho⟩ := KotlinGen.ok_models (x := x) (accepted_decls h)
  refine ⟨out, _, ho, KotlinGen.models_text x S out ho, kotlinDeclared x, kotlinUsed x, ?_, KotlinModels.file (fun d hd => ?_)⟩
  · exact ⟨fun n hm => ⟨hs n hm, fun f _ => rfl⟩, fun n hm => rfl,
      fun n hm i hi => ⟨(he n hm i hi).1, fun p fs e f hf => ((he n hm i hi).2 p fs e f hf).symm⟩, fun id _ => rfl⟩
  · obtain ⟨k, hk⟩ := accepted_decls h d hd
    exact ⟨KotlinModels.declares hk, KotlinModels.creates hk (fun id hi => hn id (own_of_mem hd hi))
      (fun t _ hw => KotlinModels.refersTo hw)⟩

/-- **C44, Swift, part.** The same for Swift, for schemas whose struct and enum names are in Pascal case.  Missing:
other names (`C44_swift_type`) and declarations with the names of the address types. -/
theorem C44_swift_partial (x : ExtF) (hx : x.camel "createDefault" = "createDefault") (ts : List Token) (S : List ASTNode)
    (h : parse ts = .ok S) (hs : ∀ id, Own S id → x.pascal id = id) (hn : ∀ id, Own S id → ¬ IsAddress id) :
    ∃ out F, SwiftGen.models x S = .ok out ∧ Swift.IsText F out ∧ Swift.Consistent S F := by
  obtain ⟨out, ho⟩ := SwiftGen.ok_models (x := x) (accepted_decls h)
  refine ⟨out, _, ho, SwiftGen.models_text x hx S out ho, swiftDeclared x, swiftUsed x, ?_, SwiftModels.file (fun d hd => ?_)⟩
  · exact ⟨fun n hm => ⟨hs _ (Or.inl ⟨n, hm, rfl⟩), fun f _ => rfl⟩, fun n hm => hs _ (Or.inr ⟨n, hm, rfl⟩),
      fun n hm i hi => ⟨rfl, fun p fs e f hf => rfl⟩, fun id _ => rfl⟩
  · obtain ⟨k, hk⟩ := accepted_decls h d hd
    exact ⟨SwiftModels.declares hk, SwiftModels.creates hk (fun id hi => hn id (own_of_mem hd hi))
      (fun t _ hw => SwiftModels.refersTo hw)⟩

/-- `struct my_type;` -/
def myType : List ASTNode := [.struct ⟨"my_type", [], true, true⟩]

/-- **C44, Kotlin: types.** `struct my_type;` is declared as `MyType` and used as `my_type`: no declarations with
the emitted text are consistent. -/
theorem C44_kotlin_type :
    parse [.kwStruct, .id "my_type", .sym ';', .eof] = .ok myType ∧
    KotlinGen.models testExtF myType =
      .ok "class MyType() {\n    companion object {\n        fun createDefault(): my_type = my_type()\n    }\n}\n" ∧
    ∀ out, KotlinGen.models testExtF myType = .ok out → ¬ ∃ F, Kotlin.IsText F out ∧ Kotlin.Consistent myType F := by
  have e : KotlinGen.models testExtF myType =
      .ok "class MyType() {\n    companion object {\n        fun createDefault(): my_type = my_type()\n    }\n}\n" := by
    refine (kotlin_eq testExtF (ts := [.kwStruct, .id "my_type", .sym ';', .eof]) (by rfl)).trans (congrArg _ ?_)
    decide +kernel
  refine ⟨rfl, e, ?_⟩
  rintro out ho ⟨F, hF, D, U, hsame, bs, rfl, hb⟩
  rw [e] at ho
  cases ho
  cases hb with
  | cons h1 h2 =>
    cases h2
    obtain ⟨hd, hc⟩ := h1
    cases hd with
    | struct hps =>
      cases hps
      cases hc with
      | struct has =>
        cases has
        have hs : D.struct "my_type" = U.type "my_type" := (hsame.struct ⟨"my_type", [], true, true⟩ (by simp [myType])).1
        have hl := congrArg String.length hF
        simp [TPB.Kotlin.renderItems, TPB.Kotlin.Item.render, TPB.Kotlin.renderBody, TPB.Kotlin.Companion.render,
          TPB.Kotlin.New.render, TPB.Kotlin.renderSuper, linesText, repeatStr, String.length_append, hs] at hl
        have h0 : ("class " : String).length = 6 := by decide +kernel
        have h1 : ("()" : String).length = 2 := by decide +kernel
        have h2 : (" {" : String).length = 2 := by decide +kernel
        have h3 : ("\n" : String).length = 1 := by decide +kernel
        have h4 : ("    companion object {\n" : String).length = 23 := by decide +kernel
        have h5 : ("        " : String).length = 8 := by decide +kernel
        have h6 : ("fun createDefault(): " : String).length = 21 := by decide +kernel
        have h7 : (" = " : String).length = 3 := by decide +kernel
        have h8 : ("    }\n}\n" : String).length = 8 := by decide +kernel
        have h10 : ("class MyType() {\n    companion object {\n        fun createDefault(): my_type = my_type()\n    }\n}\n" : String).length = 97 := by decide +kernel
        omega

/-- **C44, Kotlin: fields.** The field `my_field` of the first variant is declared as `my_field` and used as
`myField`. -/
theorem C44_kotlin_field :
    parse [.kwEnum, .id "My", .sym '{', .id "A", .sym '{', .id "my_field", .sym ':', .id "bool", .sym '}', .sym '}', .eof]
      = .ok [.enum ⟨"My", [.struct 0 "A" [⟨0, "my_field", .bool "bool"⟩]]⟩] ∧
    KotlinGen.models testExtF [.enum ⟨"My", [.struct 0 "A" [⟨0, "my_field", .bool "bool"⟩]]⟩] =
      .ok "sealed interface My {\n    companion object {\n        fun createDefault(): My = MyA(\n            myField = false,\n        )\n    }\n}\n\ndata class MyA(\n    val my_field: Boolean,\n) : My\n" := by
  refine kotlin_run (by rfl) ?_
  simp only [TPB.Kotlin.genItems, List.flatMap_cons, List.flatMap_nil, TPB.Kotlin.genItem, TPB.Kotlin.genStruct, TPB.Kotlin.genEnum,
    List.map_cons, List.map_nil, List.append_nil, TPB.Kotlin.genCase, TPB.Kotlin.genTy, TPB.Kotlin.renderItems, TPB.Kotlin.Item.render,
    TPB.Kotlin.renderBody, TPB.Kotlin.Ty.render]
  decide +kernel

/-- **C44, Swift.** `struct my_type;` is declared as `MyType` and used as `my_type`: no declarations with the
emitted text are consistent. -/
theorem C44_swift_type :
    SwiftGen.models testExtF myType =
      .ok "struct MyType {\n    static func createDefault() -> my_type {\n        return my_type()\n    }\n}\n" ∧
    ∀ out, SwiftGen.models testExtF myType = .ok out → ¬ ∃ F, Swift.IsText F out ∧ Swift.Consistent myType F := by
  have e : SwiftGen.models testExtF myType =
      .ok "struct MyType {\n    static func createDefault() -> my_type {\n        return my_type()\n    }\n}\n" := by
    refine (swift_eq testExtF (by decide +kernel) (ts := [.kwStruct, .id "my_type", .sym ';', .eof]) (by rfl)).trans (congrArg _ ?_)
    decide +kernel
  refine ⟨e, ?_⟩
  rintro out ho ⟨F, hF, D, U, hsame, bs, rfl, hb⟩
  rw [e] at ho
  cases ho
  cases hb with
  | cons h1 h2 =>
    cases h2
    obtain ⟨hd, hc⟩ := h1
    cases hd with
    | struct hps =>
      cases hps
      cases hc with
      | struct has =>
        cases has
        have hs : D.struct "my_type" = U.type "my_type" := (hsame.struct ⟨"my_type", [], true, true⟩ (by simp [myType])).1
        have hl := congrArg String.length hF
        simp [TPB.Swift.renderItems, joinBlocks, TPB.Swift.Item.render, TPB.Swift.renderMembers, TPB.Swift.Default.render,
          TPB.Swift.New.render, TPB.Swift.renderCall, linesText, repeatStr, String.length_append, hs] at hl
        have h0 : ("struct " : String).length = 7 := by decide +kernel
        have h1 : (" {" : String).length = 2 := by decide +kernel
        have h2 : ("\n" : String).length = 1 := by decide +kernel
        have h3 : ("    " : String).length = 4 := by decide +kernel
        have h4 : ("static func createDefault() -> " : String).length = 31 := by decide +kernel
        have h5 : ("        " : String).length = 8 := by decide +kernel
        have h6 : ("return " : String).length = 7 := by decide +kernel
        have h7 : ("()" : String).length = 2 := by decide +kernel
        have h8 : ("    }\n}\n" : String).length = 8 := by decide +kernel
        have h10 : ("struct MyType {\n    static func createDefault() -> my_type {\n        return my_type()\n    }\n}\n" : String).length = 94 := by decide +kernel
        omega

/-! ### A schema that meets the hypotheses -/

/-- `struct Point { my_x: f64, tags: Vec<String>, next: Shape }  enum Shape { Circle { r: Point }, Dot, Pair(u8, Vec<Point>) }` -/
def shapeTokens : List Token :=
  [.kwStruct, .id "Point", .sym '{', .id "my_x", .sym ':', .id "f64", .sym ',', .id "tags", .sym ':', .id "Vec", .sym '<',
   .id "String", .sym '>', .sym ',', .id "next", .sym ':', .id "Shape", .sym '}',
   .kwEnum, .id "Shape", .sym '{', .id "Circle", .sym '{', .id "r", .sym ':', .id "Point", .sym '}', .sym ',', .id "Dot", .sym ',',
   .id "Pair", .sym '(', .id "u8", .sym ',', .id "Vec", .sym '<', .id "Point", .sym '>', .sym ')', .sym '}', .eof]

def shapes : List ASTNode :=
  [.struct ⟨"Point", [⟨0, "my_x", .number "f64" 8⟩, ⟨1, "tags", .generic "Vec" [.other "String"]⟩, ⟨2, "next", .other "Shape"⟩], true, true⟩,
   .enum ⟨"Shape", [.struct 0 "Circle" [⟨0, "r", .other "Point"⟩], .empty 1 "Dot",
     .tuple 2 "Pair" [⟨0, .integer "u8" 1 false⟩, ⟨1, .generic "Vec" [.other "Point"]⟩]]⟩]

theorem shapes_parse : parse shapeTokens = .ok shapes := by rfl

theorem shapes_own (id : String) (h : Own shapes id) : id = "Point" ∨ id = "Shape" := by
  rcases h with ⟨n, hn, rfl⟩ | ⟨n, hn, rfl⟩
  · simp only [shapes, List.mem_cons, List.not_mem_nil, or_false, ASTNode.struct.injEq, reduceCtorEq] at hn
    left; rw [hn]
  · simp only [shapes, List.mem_cons, List.not_mem_nil, or_false, ASTNode.enum.injEq, reduceCtorEq, false_or] at hn
    right; rw [hn]

example : ∃ out F, KotlinGen.models testExtF shapes = .ok out ∧ Kotlin.IsText F out ∧ Kotlin.Consistent shapes F := by
  refine C44_kotlin_partial testExtF shapeTokens shapes shapes_parse ?_ ?_ ?_
  · intro n hn
    simp only [shapes, List.mem_cons, List.not_mem_nil, or_false, ASTNode.struct.injEq, reduceCtorEq] at hn
    subst hn
    decide +kernel
  · intro n hn i hi
    simp only [shapes, List.mem_cons, List.not_mem_nil, or_false, ASTNode.enum.injEq, reduceCtorEq, false_or] at hn
    subst hn
    simp only [List.head?_cons, Option.mem_def, Option.some.injEq] at hi
    subst hi
    refine ⟨by decide +kernel, ?_⟩
    intro p fs e f hf
    cases e
    simp only [List.mem_singleton] at hf
    subst hf
    decide +kernel
  · intro id h
    rcases shapes_own id h with rfl | rfl <;> simp [IsAddress]

example : ∃ out F, SwiftGen.models testExtF shapes = .ok out ∧ Swift.IsText F out ∧ Swift.Consistent shapes F := by
  refine C44_swift_partial testExtF (by decide +kernel) shapeTokens shapes shapes_parse ?_ ?_
  · intro id h
    rcases shapes_own id h with rfl | rfl <;> decide +kernel
  · intro id h
    rcases shapes_own id h with rfl | rfl <;> simp [IsAddress]

theorem shapes_defaulted : ∀ d ∈ shapes, ∀ t ∈ defaulted d, (∀ n, t ≠ .char n) ∧ ∀ id, IsAddress id → t ≠ .other id := by
  intro d hd t ht
  simp only [shapes, List.mem_cons, List.not_mem_nil, or_false] at hd
  rcases hd with rfl | rfl
  · simp only [defaulted, List.map_cons, List.map_nil, List.mem_cons, List.not_mem_nil, or_false] at ht
    rcases ht with rfl | rfl | rfl
    · exact ⟨by simp, by simp⟩
    · exact ⟨by simp, by simp⟩
    · refine ⟨by simp, ?_⟩
      rintro id h e
      cases e
      simp [IsAddress] at h
  · simp only [defaulted, List.map_cons, List.map_nil, List.mem_cons, List.not_mem_nil, or_false] at ht
    subst ht
    refine ⟨by simp, ?_⟩
    rintro id h e
    cases e
    simp [IsAddress] at h

example : ∃ out F, KotlinGen.models testExtF shapes = .ok out ∧ Kotlin.IsText F out ∧
    Kotlin.File (Kotlin.Creates (kotlinUsed testExtF) (Kotlin.ZeroIs (kotlinUsed testExtF))) shapes F :=
  C54_kotlin_partial testExtF shapeTokens shapes shapes_parse
    (fun id h => by rcases shapes_own id h with rfl | rfl <;> simp [IsAddress]) shapes_defaulted

example : ∃ out F, SwiftGen.models testExtF shapes = .ok out ∧ Swift.IsText F out ∧
    Swift.File (Swift.Creates (swiftUsed testExtF) (Swift.ZeroIs Swift.namesWithChar (swiftUsed testExtF))) shapes F ∧
    Swift.CallsOk F := by
  refine C54_swift_partial testExtF (by decide +kernel) shapeTokens shapes shapes_parse
    (fun id h => by rcases shapes_own id h with rfl | rfl <;> simp [IsAddress]) shapes_defaulted ?_
  intro n hn i hi
  simp only [shapes, List.mem_cons, List.not_mem_nil, or_false, ASTNode.enum.injEq, reduceCtorEq, false_or] at hn
  subst hn
  simp only [List.head?_cons, Option.mem_def, Option.some.injEq] at hi
  subst hi
  simp [EmptyParens]

example : ∃ out F, KotlinGen.models testExtF shapes = .ok out ∧ Kotlin.IsText F out ∧
    Kotlin.File (Kotlin.Declares (kotlinDeclared testExtF) (kotlinUsed testExtF)) shapes F ∧ Kotlin.DataClassesOk F := by
  obtain ⟨out, F, h1, h2, h3, h4⟩ := C53_kotlin_partial testExtF shapeTokens shapes shapes_parse
  refine ⟨out, F, h1, h2, h3, h4 (fun n hn i hi => ?_)⟩
  simp only [shapes, List.mem_cons, List.not_mem_nil, or_false, ASTNode.enum.injEq, reduceCtorEq, false_or] at hn
  subst hn
  simp only [List.mem_cons, List.not_mem_nil, or_false] at hi
  rcases hi with rfl | rfl | rfl <;> simp [EmptyParens]

example : ∃ out F, SwiftGen.models testExtF shapes = .ok out ∧ Swift.IsText F out ∧
    Swift.File (Swift.Declares Swift.namesWithChar (swiftDeclared testExtF) (swiftUsed testExtF)) shapes F :=
  C53_swift_partial testExtF (by decide +kernel) shapeTokens shapes shapes_parse

end TPB.Props
