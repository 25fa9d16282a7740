/- The generated Rust types and codecs determine, and are determined by, the types of a schema. -/
import Verif.Spec.TypeView
import Verif.Proofs.RustReaderGen
namespace TPB.Rust
open Spec

/-! ### From the view to the trees -/

def shapeMap {α : Type} (g : TypeId → α) : Shape → Payload α
  | .unit => .unit
  | .tuple ts => .tuple (ts.map g)
  | .fields fs => .named (fs.map (fun f => (f.1, g f.2)))

def itemOfView : TypeView → TypeItem
  | .struct id fs => ⟨.struct id (fs.map (fun f => (f.1, genTy f.2))),
      match fs with
      | [] => .unit
      | fs => .selfLit (fs.map (fun f => (f.1, genDef f.2)))⟩
  | .enum id vs => ⟨.enum id (vs.map (fun v => (v.2.1, shapeMap genTy v.2.2))),
      match vs.head? with
      | none => .unit
      | some v => .variant v.2.1 (shapeMap genDef v.2.2)⟩

def writeArmOf : Nat × String × Shape → String × Payload Unit × List String × List WriteS
  | (p, id, .unit) => (id, .unit, [], [tagWrite p])
  | (p, id, .tuple ts) => (id, .tuple [], (withIdx 0 ts).map (fun v => "v" ++ toString v.1),
      tagWrite p :: (withIdx 0 ts).map (fun v => genWrite v.2 (.var ("v" ++ toString v.1))))
  | (p, id, .fields fs) => (id, .named [], fs.map (fun f => f.1),
      tagWrite p :: fs.map (fun f => genWrite f.2 (.var f.1)))

def skipArmOf : Nat × String × Shape → Nat × Option (List ReadE)
  | (p, _, .unit) => (p, none)
  | (p, _, .tuple ts) => (p, some (ts.map genRead))
  | (p, _, .fields fs) => (p, some (fs.map (fun f => genRead f.2)))

def implOfView : TypeView → Impl
  | .struct id [] => ⟨id, .unit id, .nop, .nop⟩
  | .struct id fs => ⟨id, .selfLit (fs.map (fun f => (f.1, genRead f.2))),
      .stmts (fs.map (fun f => genWrite f.2 (.field f.1))), .loop (fs.map (fun f => genRead f.2))⟩
  | .enum id vs => ⟨id, .matchTag (genRead u32TypeId) id (vs.map (fun v => (v.1, v.2.1, shapeMap genRead v.2.2))),
      .matchSelf id (vs.map writeArmOf), .loopMatch (genRead u32TypeId) (vs.map skipArmOf)⟩

theorem withIdx_map' {α β : Type} (f : α → β) : ∀ (k : Nat) (xs : List α),
    withIdx k (xs.map f) = (withIdx k xs).map (fun p => (p.1, f p.2))
  | _, [] => rfl
  | k, x :: xs => by simp [withIdx, withIdx_map' f (k + 1) xs]

theorem filterMap_congr' {α β : Type} {f g : α → Option β} : ∀ {l : List α}, (∀ a ∈ l, f a = g a) →
    l.filterMap f = l.filterMap g
  | [], _ => rfl
  | a :: l, h => by
    rw [List.filterMap_cons, List.filterMap_cons, h a (by simp), filterMap_congr' (fun b hb => h b (by simp [hb]))]

theorem genItems_view {S : List ASTNode} (hne : ∀ n, .enum n ∈ S → n.items ≠ []) :
    genItems S = (typeViews S).map itemOfView := by
  unfold genItems typeViews
  rw [List.map_filterMap]
  refine filterMap_congr' ?_
  intro d hd
  cases d with
  | struct n =>
    simp only [typeView, Option.map_some, itemOfView, genStructItem, genStructDecl, List.map_map, Option.some.injEq]
    cases n.fields with
    | nil => rfl
    | cons f fs => simp [Function.comp_def]
  | enum n =>
    cases hi : n.items with
    | nil => exact absurd hi (hne n hd)
    | cons i is =>
      have e : ∀ j : EnumItem, ((variantView j).2.1, shapeMap genTy (variantView j).2.2) = genVariant j := by
        intro j
        cases j <;> simp [variantView, shapeMap, genVariant, Function.comp_def]
      simp only [typeView, Option.map_some, itemOfView, genEnumDecl, hi, List.map_map, List.head?_cons, List.map_cons,
        Function.comp_def, e, Option.some.injEq, TypeItem.mk.injEq, true_and]
      cases i <;> simp [variantView, shapeMap, genEnumDefault, Function.comp_def]
  | fn => rfl
  | directive => rfl
  | const => rfl

theorem genImpls_view (S : List ASTNode) : genImpls S = (typeViews S).map implOfView := by
  unfold genImpls typeViews
  rw [List.map_filterMap]
  refine filterMap_congr' ?_
  intro d hd
  cases d with
  | struct n =>
    simp only [typeView, Option.map_some, genStructImpl, Option.some.injEq]
    cases n.fields with
    | nil => rfl
    | cons f fs => simp [implOfView, Function.comp_def]
  | enum n =>
    have e1 : ∀ j : EnumItem, ((variantView j).1, (variantView j).2.1, shapeMap genRead (variantView j).2.2) = genReadArm j := by
      intro j
      cases j <;> simp [variantView, shapeMap, genReadArm, Function.comp_def]
    have e2 : ∀ j : EnumItem, writeArmOf (variantView j) = genWriteArm j := by
      intro j
      cases j <;> simp [variantView, writeArmOf, genWriteArm, withIdx_map', Function.comp_def]
    have e3 : ∀ j : EnumItem, skipArmOf (variantView j) = genSkipArm j := by
      intro j
      cases j <;> simp [variantView, skipArmOf, genSkipArm, Function.comp_def]
    simp only [typeView, Option.map_some, implOfView, genEnumImpl, List.map_map, Function.comp_def, e1, e2, e3]
  | fn => rfl
  | directive => rfl
  | const => rfl

/-! ### From the trees to the view -/

mutual
def unTy : Ty → TypeId
  | .named id => typeOfName id
  | .app id as => .generic id (unTys as)
def unTys : List Ty → List TypeId
  | [] => []
  | t :: ts => unTy t :: unTys ts
end

theorem unTys_eq : ∀ ts, unTys ts = ts.map unTy
  | [] => by rw [unTys]; rfl
  | t :: ts => by rw [unTys, unTys_eq ts]; rfl

theorem unTy_gen {t : TypeId} (h : WFType t) : unTy (genTy t) = t := by
  induction h with
  | name n =>
    rcases wf_cases (.name n) with ⟨id, h1, h2⟩ | ⟨id, h1, h2, h3, _⟩ | ⟨c, gs, h1, _⟩
    · rw [h1, genTy, unTy, typeOfName, h2]; rfl
    · rw [h3, unTy]
      conv => lhs; unfold typeOfName
      rw [h2]; rfl
    · rcases name_cases n with ⟨_, h2⟩ | ⟨_, h2⟩
      · rw [h1] at h2; cases h2
      · rw [h1] at h2; simp [builtin?] at h2
  | generic n as _ _ ih =>
    rw [genTy_generic, unTy, unTys_eq, List.map_map]
    congr 1
    conv => rhs; rw [← List.map_id as]
    exact List.map_congr_left ih

def unShape : Payload Ty → Shape
  | .unit => .unit
  | .tuple ts => .tuple (ts.map unTy)
  | .named fs => .fields (fs.map (fun f => (f.1, unTy f.2)))

def armTags : ReadBody → List Nat
  | .matchTag _ _ arms => arms.map (·.1)
  | _ => []

def unView (i : TypeItem) (m : Impl) : TypeView :=
  match i.decl with
  | .struct id fs => .struct id (fs.map (fun f => (f.1, unTy f.2)))
  | .enum id vs => .enum id (List.zipWith (fun p v => (p, v.1, unShape v.2)) (armTags m.read) vs)

def shapeTypes : Shape → List TypeId
  | .unit => []
  | .tuple ts => ts
  | .fields fs => fs.map (·.2)

def viewTypes : TypeView → List TypeId
  | .struct _ fs => fs.map (·.2)
  | .enum _ vs => vs.flatMap (fun v => shapeTypes v.2.2)

theorem map_id_of {α : Type} {f : α → α} {l : List α} (h : ∀ a ∈ l, f a = a) : l.map f = l := by
  conv => rhs; rw [← List.map_id l]
  exact List.map_congr_left h

theorem unShape_gen {s : Shape} (h : ∀ t ∈ shapeTypes s, WFType t) : unShape (shapeMap genTy s) = s := by
  cases s with
  | unit => rfl
  | tuple ts =>
    simp only [shapeMap, unShape, List.map_map]
    rw [map_id_of]
    exact fun t ht => unTy_gen (h t ht)
  | fields fs =>
    simp only [shapeMap, unShape, List.map_map]
    rw [map_id_of]
    intro f hf
    simp [unTy_gen (h f.2 (List.mem_map.2 ⟨f, hf, rfl⟩))]

theorem unView_gen {v : TypeView} (h : ∀ t ∈ viewTypes v, WFType t) : unView (itemOfView v) (implOfView v) = v := by
  cases v with
  | struct id fs =>
    simp only [itemOfView, unView, List.map_map]
    rw [map_id_of]
    intro f hf
    simp [unTy_gen (h f.2 (List.mem_map.2 ⟨f, hf, rfl⟩))]
  | enum id vs =>
    simp only [itemOfView, unView, implOfView, armTags, List.map_map, List.zipWith_map, List.zipWith_self,
      Function.comp_def]
    rw [map_id_of]
    intro v hv
    rw [unShape_gen (fun t ht => h t (by simp only [viewTypes, List.mem_flatMap]; exact ⟨v, hv, ht⟩))]

theorem views_of_trees {vs ws : List TypeView} (hv : ∀ v ∈ vs, ∀ t ∈ viewTypes v, WFType t)
    (hw : ∀ v ∈ ws, ∀ t ∈ viewTypes v, WFType t) (h1 : vs.map itemOfView = ws.map itemOfView)
    (h2 : vs.map implOfView = ws.map implOfView) : vs = ws := by
  have key : ∀ {l : List TypeView}, (∀ v ∈ l, ∀ t ∈ viewTypes v, WFType t) →
      List.zipWith unView (l.map itemOfView) (l.map implOfView) = l := by
    intro l hl
    rw [List.zipWith_map, List.zipWith_self]
    exact map_id_of (fun v hv => unView_gen (hl v hv))
  rw [← key hv, ← key hw, h1, h2]

theorem views_wf {S : List ASTNode} (hw : WFSchema 0 S) : ∀ v ∈ typeViews S, ∀ t ∈ viewTypes v, WFType t := by
  intro v hv t ht
  obtain ⟨d, hd, he⟩ := List.mem_filterMap.1 hv
  obtain ⟨j, hj⟩ := wfSchema_mem' S 0 hw _ hd
  cases d with
  | struct n =>
    simp only [typeView, Option.some.injEq] at he
    subst he
    simp only [viewTypes, List.map_map, List.mem_map, Function.comp_apply] at ht
    obtain ⟨f, hf, rfl⟩ := ht
    exact hj.1.2 f hf
  | enum n =>
    simp only [typeView, Option.some.injEq] at he
    subst he
    simp only [viewTypes, List.mem_flatMap, List.mem_map] at ht
    obtain ⟨_, ⟨i, hi, rfl⟩, ht⟩ := ht
    have := hj.2.2 i hi
    cases i with
    | empty => simp [variantView, shapeTypes] at ht
    | tuple p id us =>
      simp only [variantView, shapeTypes, List.mem_map] at ht
      obtain ⟨u, hu, rfl⟩ := ht
      exact this.2 u hu
    | struct p id us =>
      simp only [variantView, shapeTypes, List.map_map, List.mem_map, Function.comp_apply] at ht
      obtain ⟨u, hu, rfl⟩ := ht
      exact this.2 u hu
  | fn => simp [typeView] at he
  | directive => simp [typeView] at he
  | const => simp [typeView] at he

end TPB.Rust
