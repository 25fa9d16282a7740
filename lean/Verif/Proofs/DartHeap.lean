/- Dart objects in memory: what the objects stand for, and which objects a run can change. -/
import Verif.Proofs.DartFacts
import Verif.Spec.DartHeap
import Verif.Spec.DartDefault
namespace TPB.Dart
open Spec DartGen

variable {x : Ext} {S : List ASTNode} {rt : Runtime} {T : List ASTNode} {sep : Prop}

/-- From `h` to `h'` only objects of `fp` have changed, and `fp'` has only objects of `fp` and new ones. -/
structure Grow (h h' : Heap) (fp fp' : List Ref) : Prop where
  len : h.length ≤ h'.length
  same : ∀ q, q < h.length → q ∉ fp → h'[q]? = h[q]?
  new : ∀ q ∈ fp', q ∈ fp ∨ h.length ≤ q

theorem lt_of_some {h : Heap} {r : Ref} {c : Cell} (hr : h[r]? = some c) : r < h.length :=
  (List.getElem?_eq_some_iff.1 hr).1

theorem lt_of_bind {β : Type} {h : Heap} {r : Ref} {f : Cell → Option β} {b : β} (hr : (h[r]?).bind f = some b) :
    r < h.length := by
  cases hc : h[r]? with
  | none => simp [hc] at hr
  | some c => exact lt_of_some hc

theorem _root_.TPB.Spec.Stored.lt {h : Heap} {ts : List TypeId} {rs : List Ref} {vs : List Val} {fp : List Ref}
    (hs : Stored sep x T h ts rs vs fp) : ∀ q ∈ fp, q < h.length := by
  induction hs with
  | nil => simp
  | val t r v ts rs vs g _ _ hr _ _ ih =>
    intro q hq
    rcases List.mem_cons.1 hq with rfl | hq
    · exact lt_of_some hr
    · exact ih q hq
  | list e r n es is f ts rs vs g hr _ _ _ ih1 ih2 =>
    intro q hq
    rcases List.mem_cons.1 hq with rfl | hq
    · exact lt_of_bind hr
    · rcases List.mem_append.1 hq with hq | hq
      · exact ih1 q hq
      · exact ih2 q hq
  | obj cls fs r as is f ts rs vs g _ hr _ _ _ ih1 ih2 =>
    intro q hq
    rcases List.mem_cons.1 hq with rfl | hq
    · exact lt_of_some hr
    · rcases List.mem_append.1 hq with hq | hq
      · exact ih1 q hq
      · exact ih2 q hq

/-- What objects stand for depends only on the objects that can be reached from them. -/
theorem _root_.TPB.Spec.Stored.frame {h h' : Heap} {ts : List TypeId} {rs : List Ref} {vs : List Val} {fp : List Ref}
    (hs : Stored sep x T h ts rs vs fp) (he : ∀ q ∈ fp, h'[q]? = h[q]?) : Stored sep x T h' ts rs vs fp := by
  induction hs with
  | nil => exact .nil
  | val t r v ts rs vs g h1 h2 hr _ h3 ih =>
    exact .val t r v ts rs vs g h1 h2 ((he r (by simp)).trans hr) (ih fun q hq => he q (by simp [hq])) h3
  | list e r n es is f ts rs vs g hr _ _ h3 ih1 ih2 =>
    exact .list e r n es is f ts rs vs g (by rw [he r (by simp)]; exact hr) (ih1 fun q hq => he q (by simp [hq]))
      (ih2 fun q hq => he q (by simp [hq])) h3
  | obj cls fs r as is f ts rs vs g h1 hr _ _ h3 ih1 ih2 =>
    exact .obj cls fs r as is f ts rs vs g h1 ((he r (by simp)).trans hr) (ih1 fun q hq => he q (by simp [hq]))
      (ih2 fun q hq => he q (by simp [hq])) h3

theorem _root_.TPB.Spec.Stored.grow {h h' : Heap} {ts : List TypeId} {rs : List Ref} {vs : List Val} {fp gp gp' : List Ref}
    (hs : Stored sep x T h ts rs vs fp) (hg : Grow h h' gp gp') (hd : ∀ q ∈ fp, q ∉ gp) :
    Stored sep x T h' ts rs vs fp :=
  hs.frame fun q hq => hg.same q (hs.lt q hq) (hd q hq)

theorem _root_.TPB.Spec.Stored.weaken {h : Heap} {ts : List TypeId} {rs : List Ref} {vs : List Val} {fp : List Ref} {sep' : Prop}
    (hs : Stored sep x T h ts rs vs fp) (hi : sep' → sep) : Stored sep' x T h ts rs vs fp := by
  induction hs with
  | nil => exact .nil
  | val t r v ts rs vs g h1 h2 hr _ h3 ih => exact .val t r v ts rs vs g h1 h2 hr ih fun a => h3 (hi a)
  | list e r n es is f ts rs vs g hr _ _ h3 ih1 ih2 =>
    exact .list e r n es is f ts rs vs g hr ih1 ih2 fun a => h3 (hi a)
  | obj cls fs r as is f ts rs vs g h1 hr _ _ h3 ih1 ih2 =>
    exact .obj cls fs r as is f ts rs vs g h1 hr ih1 ih2 fun a => h3 (hi a)

theorem _root_.TPB.Spec.Stored.length_eq {h : Heap} {ts : List TypeId} {rs : List Ref} {vs : List Val} {fp : List Ref}
    (hs : Stored sep x T h ts rs vs fp) : rs.length = ts.length ∧ vs.length = ts.length := by
  induction hs with
  | nil => exact ⟨rfl, rfl⟩
  | val => simp only [List.length_cons]; omega
  | list => simp only [List.length_cons]; omega
  | obj => simp only [List.length_cons]; omega

theorem _root_.TPB.Spec.Stored.cons {h : Heap} {t : TypeId} {r : Ref} {v : Val} {f : List Ref} {ts : List TypeId} {rs : List Ref}
    {vs : List Val} {g : List Ref} (h1 : Stored sep x T h [t] [r] [v] f) (h2 : Stored sep x T h ts rs vs g)
    (hd : sep → ∀ q ∈ f, q ∉ g) :
    ∃ fp, Stored sep x T h (t :: ts) (r :: rs) (v :: vs) fp ∧ ∀ q, q ∈ fp ↔ q ∈ f ∨ q ∈ g := by
  cases h1 with
  | val _ _ _ _ _ _ g' a b c h3 d =>
    cases h3
    exact ⟨_, .val _ _ _ _ _ _ _ a b c h2 fun s => hd s r (by simp), by simp⟩
  | list e _ n es is f _ _ _ g' a b h3 d =>
    cases h3
    refine ⟨_, .list e r n es is f _ _ _ _ a b h2 fun s => ⟨(d s).1, hd s r (by simp), fun q hq => hd s q (by simp [hq])⟩, ?_⟩
    intro q
    simp only [List.mem_cons, List.mem_append, List.not_mem_nil, or_false]
    exact or_assoc.symm
  | obj cls fs _ as is f _ _ _ g' a b c h3 d =>
    cases h3
    refine ⟨_, .obj cls fs r as is f _ _ _ _ a b c h2 fun s => ⟨(d s).1, hd s r (by simp), fun q hq => hd s q (by simp [hq])⟩, ?_⟩
    intro q
    simp only [List.mem_cons, List.mem_append, List.not_mem_nil, or_false]
    exact or_assoc.symm

theorem _root_.TPB.Spec.Stored.head {h : Heap} {t : TypeId} {r : Ref} {v : Val} {ts : List TypeId} {rs : List Ref}
    {vs : List Val} {fp : List Ref} (hs : Stored sep x T h (t :: ts) (r :: rs) (v :: vs) fp) :
    ∃ f g, Stored sep x T h [t] [r] [v] f ∧ Stored sep x T h ts rs vs g ∧ (sep → ∀ q ∈ f, q ∉ g) ∧
      ∀ q, q ∈ fp ↔ q ∈ f ∨ q ∈ g := by
  cases hs with
  | val _ _ _ _ _ _ g a b c h3 d =>
    exact ⟨[r], g, .val _ _ _ _ _ _ _ a b c .nil (by simp), h3, fun s q hq => by
      rw [List.mem_singleton.1 hq]; exact d s, by simp⟩
  | list e _ n es is f _ _ _ g a b h3 d =>
    refine ⟨r :: (f ++ []), g, .list e r n es is f _ _ _ _ a b .nil fun s => ⟨(d s).1, by simp, by simp⟩, h3,
      fun s q hq => ?_, ?_⟩
    · simp only [List.mem_cons, List.mem_append, List.not_mem_nil, or_false] at hq
      rcases hq with rfl | hq
      · exact (d s).2.1
      · exact (d s).2.2 q hq
    · intro q
      simp only [List.mem_cons, List.mem_append, List.not_mem_nil, or_false]
      exact or_assoc.symm
  | obj cls fs _ as is f _ _ _ g a b c h3 d =>
    refine ⟨r :: (f ++ []), g, .obj cls fs r as is f _ _ _ _ a b c .nil fun s => ⟨(d s).1, by simp, by simp⟩, h3,
      fun s q hq => ?_, ?_⟩
    · simp only [List.mem_cons, List.mem_append, List.not_mem_nil, or_false] at hq
      rcases hq with rfl | hq
      · exact (d s).2.1
      · exact (d s).2.2 q hq
    · intro q
      simp only [List.mem_cons, List.mem_append, List.not_mem_nil, or_false]
      exact or_assoc.symm

theorem stored_split {h : Heap} : ∀ {ts1 : List TypeId} {rs1 : List Ref} {vs1 : List Val} {ts2 : List TypeId}
    {rs2 : List Ref} {vs2 : List Val} {fp : List Ref}, rs1.length = ts1.length → vs1.length = ts1.length →
    Stored sep x T h (ts1 ++ ts2) (rs1 ++ rs2) (vs1 ++ vs2) fp →
    ∃ f g, Stored sep x T h ts1 rs1 vs1 f ∧ Stored sep x T h ts2 rs2 vs2 g ∧ (sep → ∀ q ∈ f, q ∉ g) ∧
      ∀ q, q ∈ fp ↔ q ∈ f ∨ q ∈ g
  | [], [], [], ts2, rs2, vs2, fp, _, _, hs => ⟨[], fp, .nil, hs, by simp, by simp⟩
  | [], _ :: _, _, _, _, _, _, hl, _, _ => by simp at hl
  | [], [], _ :: _, _, _, _, _, _, hl, _ => by simp at hl
  | _ :: _, [], _, _, _, _, _, hl, _, _ => by simp at hl
  | _ :: _, _ :: _, [], _, _, _, _, _, hl, _ => by simp at hl
  | t :: ts1, r :: rs1, v :: vs1, ts2, rs2, vs2, fp, hl1, hl2, hs => by
    obtain ⟨f, g, h1, h2, h3, h4⟩ := Stored.head hs
    obtain ⟨f', g', h5, h6, h7, h8⟩ := stored_split (by simpa using hl1) (by simpa using hl2) h2
    obtain ⟨fp', h9, h10⟩ := h1.cons h5 fun s q hq hq' => h3 s q hq ((h8 q).2 (.inl hq'))
    refine ⟨fp', g', h9, h6, fun s q hq hq' => ?_, fun q => ?_⟩
    · rcases (h10 q).1 hq with h | h
      · exact h3 s q h ((h8 q).2 (.inr hq'))
      · exact h7 s q h hq'
    · rw [h4, h8, h10, or_assoc]

theorem stored_append {h : Heap} : ∀ {ts1 : List TypeId} {rs1 : List Ref} {vs1 : List Val} {ts2 : List TypeId}
    {rs2 : List Ref} {vs2 : List Val} {f g : List Ref},
    Stored sep x T h ts1 rs1 vs1 f → Stored sep x T h ts2 rs2 vs2 g → (sep → ∀ q ∈ f, q ∉ g) →
    ∃ fp, Stored sep x T h (ts1 ++ ts2) (rs1 ++ rs2) (vs1 ++ vs2) fp ∧ ∀ q, q ∈ fp ↔ q ∈ f ∨ q ∈ g
  | [], [], [], _, _, _, f, g, h1, h2, _ => by
    cases h1
    exact ⟨g, h2, by simp⟩
  | [], _ :: _, _, _, _, _, _, _, h1, _, _ => by cases h1
  | [], [], _ :: _, _, _, _, _, _, h1, _, _ => by cases h1
  | _ :: _, [], _, _, _, _, _, _, h1, _, _ => by cases h1
  | _ :: _, _ :: _, [], _, _, _, _, _, h1, _, _ => by cases h1
  | t :: ts1, r :: rs1, v :: vs1, ts2, rs2, vs2, f, g, h1, h2, hd => by
    obtain ⟨f1, f2, h3, h4, h5, h6⟩ := Stored.head h1
    obtain ⟨fp, h7, h8⟩ := stored_append h4 h2 fun s q hq => hd s q ((h6 q).2 (.inr hq))
    obtain ⟨fp', h9, h10⟩ := h3.cons h7 fun s q hq hq' => by
      rcases (h8 q).1 hq' with h | h
      · exact h5 s q hq h
      · exact hd s q ((h6 q).2 (.inl hq)) h
    exact ⟨fp', h9, fun q => by rw [h10, h8, h6, or_assoc]⟩

/-! ### The classes -/

theorem objects_cons (d : ASTNode) (T : List ASTNode) : dartObjects x (d :: T) = dartObjects x [d] ++ dartObjects x T := by
  simp [dartObjects]

theorem objects_names (S : List ASTNode) (a : String) :
    ((dartObjects x (dartSchema S)).map (·.1)).count a = (typeNames S ++ variantClasses S).count a := by
  induction S with
  | nil => rfl
  | cons d S ih =>
    rw [dartSchema, List.map_cons, objects_cons, typeNames_cons, variantClasses_cons]
    rw [dartSchema] at ih
    simp only [List.map_append, List.count_append] at ih ⊢
    have : ((dartObjects x [viewDecl d]).map (·.1)).count a = (typeNames [d]).count a + (variantClasses [d]).count a := by
      cases d with
      | struct n => simp [dartObjects, viewDecl, typeNames, variantClasses]
      | enum n =>
        simp only [dartObjects, viewDecl, typeNames, variantClasses, List.flatMap_cons, List.flatMap_nil, List.append_nil,
          List.map_cons, List.map_map, List.filterMap_cons, List.filterMap_nil]
        rw [show ((fun c : String × List (String × TypeId) => c.1) ∘
          (fun i : EnumItem => (n.id ++ i.id, (dartPayloadNames x i).zip ((payload i).map (·.2)))) ∘ viewItem)
          = fun i => n.id ++ i.id by funext i; simp [viewItem_id]]
        simp only [List.count_cons, List.count_nil]
        omega
      | _ => simp [dartObjects, viewDecl, typeNames, variantClasses]
    omega

theorem objects_nodup (hN : DartNamed x S) : ((dartObjects x (dartSchema S)).map (·.1)).Nodup := by
  have h := classes_nodup hN
  rw [List.nodup_iff_count] at h ⊢
  intro a
  rw [objects_names]
  exact h a

theorem objects_mem {a : String} : a ∈ (dartObjects x (dartSchema S)).map (·.1) ↔ a ∈ typeNames S ++ variantClasses S := by
  rw [← List.count_pos_iff, ← List.count_pos_iff, objects_names]

theorem key_unique {β : Type} : ∀ {l : List (String × β)}, (l.map (·.1)).Nodup → ∀ {k : String} {a b : β},
    (k, a) ∈ l → (k, b) ∈ l → a = b
  | [], _, _, _, _, h, _ => by simp at h
  | c :: l, hn, k, a, b, ha, hb => by
    rw [List.map_cons, List.nodup_cons] at hn
    have hn1 : ∀ p ∈ l, p.1 ≠ c.1 := fun p hp e => hn.1 (List.mem_map.2 ⟨p, hp, e⟩)
    rcases List.mem_cons.1 ha with rfl | ha' <;> rcases List.mem_cons.1 hb with hb' | hb'
    · simpa using hb'.symm
    · exact absurd rfl (hn1 (k, b) hb')
    · subst hb'; exact absurd rfl (hn1 (k, a) ha')
    · exact key_unique hn.2 ha' hb'

/-- An object of a class of the file. -/
theorem stored_class (hN : DartNamed x S) {h : Heap} {cls : String} {fs : List (String × TypeId)} {r : Ref} {v : Val}
    {fp : List Ref} (hm : (cls, fs) ∈ dartObjects x (dartSchema S))
    (hs : Stored sep x (dartSchema S) h [.other cls] [r] [v] fp) :
    ∃ as is f, h[r]? = some (.obj cls ((fs.map (·.1)).zip as)) ∧ v = .struct cls ((fs.map (·.1)).zip is) ∧
      Stored sep x (dartSchema S) h (fs.map (·.2)) as is f ∧ (sep → r ∉ f) ∧ ∀ q, q ∈ fp ↔ q = r ∨ q ∈ f := by
  generalize ht : TypeId.other cls = t at hs
  cases hs with
  | val _ _ _ _ _ _ _ h1 _ _ _ _ => exact absurd ht.symm (h1 _ hm)
  | list => simp at ht
  | obj cls' fs' _ as is f _ _ _ g h1 h2 h3 h4 h5 =>
    cases h4
    have e : cls = cls' := by simpa using ht
    subst e
    have e2 := key_unique (objects_nodup hN) hm h1
    subst e2
    exact ⟨as, is, f, h2, rfl, h3, fun s => (h5 s).1, by simp⟩

theorem stored_obj {h : Heap} {cls : String} {fs : List (String × TypeId)} {r : Ref} {as : List Ref} {is : List Val}
    {f : List Ref} (hm : (cls, fs) ∈ dartObjects x T) (hr : h[r]? = some (.obj cls ((fs.map (·.1)).zip as)))
    (hs : Stored sep x T h (fs.map (·.2)) as is f) (hd : sep → r ∉ f) :
    ∃ fp, Stored sep x T h [.other cls] [r] [.struct cls ((fs.map (·.1)).zip is)] fp ∧ ∀ q, q ∈ fp ↔ q = r ∨ q ∈ f :=
  ⟨_, .obj cls fs r as is f [] [] [] [] hm hr hs .nil fun s => ⟨hd s, by simp, by simp⟩, by simp⟩

theorem stored_list {h : Heap} {e : TypeId} {r : Ref} {v : Val} {fp : List Ref}
    (hs : Stored sep x T h [.generic "Vec" [e]] [r] [v] fp) :
    ∃ n es is f, (h[r]?).bind Cell.elems = some (n, es) ∧ v = .list n is ∧
      Stored sep x T h (List.replicate es.length e) es is f ∧ (sep → r ∉ f) ∧ ∀ q, q ∈ fp ↔ q = r ∨ q ∈ f := by
  cases hs with
  | val _ _ _ _ _ _ _ _ h1 _ _ _ => exact absurd rfl (h1 e)
  | list _ _ n es is f _ _ _ g h2 h3 h4 h5 =>
    cases h4
    exact ⟨n, es, is, f, h2, rfl, h3, fun s => (h5 s).1, by simp⟩

theorem stored_lib {h : Heap} {t : TypeId} {r : Ref} {v : Val} {fp : List Ref}
    (h1 : ∀ c ∈ dartObjects x T, t ≠ .other c.1) (h2 : ∀ e, t ≠ .generic "Vec" [e])
    (hs : Stored sep x T h [t] [r] [v] fp) : h[r]? = some (.val v) ∧ ∀ q, q ∈ fp ↔ q = r := by
  cases hs with
  | val _ _ _ _ _ _ _ _ _ hr h3 _ => cases h3; exact ⟨hr, by simp⟩
  | list e => exact absurd rfl (h2 e)
  | obj cls fs _ _ _ _ _ _ _ _ hm => exact absurd rfl (h1 _ hm)

/-- Types whose objects belong to the library. -/
def IsLib (x : Ext) (S : List ASTNode) (t : TypeId) : Prop :=
  (∀ c ∈ dartObjects x (dartSchema S), dartView t ≠ .other c.1) ∧ ∀ e, dartView t ≠ .generic "Vec" [e]

theorem stored_val {h : Heap} {t : TypeId} {r : Ref} {v : Val} (hl : IsLib x S t) (hr : h[r]? = some (.val v)) :
    Stored sep x (dartSchema S) h [dartView t] [r] [v] [r] := .val _ _ _ _ _ _ _ hl.1 hl.2 hr .nil (by simp)

theorem isLib_other {id : String} (h1 : id ∉ typeNames S) (h2 : LibraryFree S (.other id)) : IsLib x S (.other id) := by
  refine ⟨fun c hc e => ?_, by simp [dartView]⟩
  simp only [dartView, TypeId.other.injEq] at e
  have := (objects_mem (x := x) (S := S)).1 (List.mem_map.2 ⟨c, hc, e.symm⟩)
  rcases List.mem_append.1 this with h | h
  · exact h1 h
  · exact h2 h

theorem isLib_generic (hN : DartNamed x S) (hV : VariantsPlain S) {c : String} {gs : List TypeId} {id : String}
    (h : dartView (.generic c gs) = .other id) : IsLib x S (.generic c gs) := by
  refine ⟨fun d hd e => ?_, by simp [h]⟩
  rw [h] at e
  simp only [TypeId.other.injEq] at e
  have hlt : '<' ∈ id.toList := by
    rw [(view_libGeneric h .into).2]; exact lt_mem_dartGeneric c gs
  have := (objects_mem (x := x) (S := S)).1 (List.mem_map.2 ⟨d, hd, e.symm⟩)
  rcases List.mem_append.1 this with h | h
  · exact hN.plain _ h hlt
  · exact hV _ h hlt

theorem isLib_builtin {t : TypeId} {p : String} (h : builtin? (dartView t) = some p) : IsLib x S t :=
  ⟨fun c _ e => by rw [e] at h; simp [builtin?] at h, fun e he => by rw [he] at h; simp [builtin?] at h⟩

theorem isLib_const (hN : DartNamed x S) {n : EnumNode} (hn : .enum n ∈ S) : IsLib x S (.other (n.id ++ "Value")) := by
  refine ⟨fun c hc e => ?_, by simp [dartView]⟩
  simp only [dartView, TypeId.other.injEq] at e
  have hm := (objects_mem (x := x) (S := S)).1 (List.mem_map.2 ⟨c, hc, e.symm⟩)
  have h := hN.classes
  unfold dartClasses at h
  have h' := (List.nodup_append.1 (List.nodup_append.1 (List.nodup_append.1 h).1).1).2.2
  exact h' _ hm _ (List.mem_map.2 ⟨n.id, List.mem_filterMap.2 ⟨_, hn, rfl⟩, rfl⟩) rfl

/-- The four kinds of types. -/
inductive TyCase (x : Ext) (S : List ASTNode) : TypeId → Prop
  | builtin (t : TypeId) (p : String) : builtin? (dartView t) = some p → TyCase x S t
  | declared (id : String) : id ∈ typeNames S → TyCase x S (.other id)
  | list (g : TypeId) : TyCase x S (.generic "Vec" [g])
  | ext (t : TypeId) (id : String) : dartView t = .other id → id ∉ typeNames S → IsLib x S t → TyCase x S t

theorem tyCase (hN : DartNamed x S) (hV : VariantsPlain S) {t : TypeId} (hl : LibraryFree S t) : TyCase x S t := by
  cases t with
  | integer a b c => exact .builtin _ _ rfl
  | number a b => exact .builtin _ _ rfl
  | bool a => exact .builtin _ _ rfl
  | char a => exact .builtin _ _ rfl
  | other id =>
    by_cases h : id ∈ typeNames S
    · exact .declared id h
    · exact .ext _ id rfl h (isLib_other h hl)
  | generic c gs =>
    cases hv : dartView (.generic c gs) with
    | other id =>
      refine .ext _ id hv (fun hm => ?_) (isLib_generic hN hV hv)
      have hlt : '<' ∈ id.toList := by
        rw [(view_libGeneric hv .into).2]; exact lt_mem_dartGeneric c gs
      exact hN.plain _ hm hlt
    | generic c' gs' =>
      obtain ⟨g, e, -, -⟩ := view_generic hv
      rw [e]
      exact .list g
    | _ => simp only [dartView] at hv; split at hv <;> (try split at hv) <;> simp at hv

end TPB.Dart
