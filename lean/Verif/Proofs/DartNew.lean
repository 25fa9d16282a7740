/- Default objects of the emitted Dart classes. -/
import Verif.Proofs.DartNames
namespace TPB.Dart
open Spec DartGen

variable {x : Ext} {S : List ASTNode} {rt : Runtime}

theorem each_ok {α β : Type} (f : α → Res β) (g : α → β) : ∀ (l : List α), (∀ a ∈ l, f a = .ok (g a)) →
    each f l = .ok (l.map g)
  | [], _ => rfl
  | a :: l, h => by
    rw [each, h a (by simp), each_ok f g l (fun b hb => h b (by simp [hb]))]
    rfl

theorem lookup_zip_each {β : Type} (mk : String → Val → β) (ns : List String) (vs : List Val) (hn : ns.Nodup)
    (hl : ns.length = vs.length) :
    each (fun n => (orElse .stuck ((ns.zip vs).lookup n)).map (mk n)) ns = .ok (List.zipWith mk ns vs) := by
  let val : String → Val := fun n => ((ns.zip vs).lookup n).getD default
  have h1 : ∀ n ∈ ns, (ns.zip vs).lookup n = some (val n) := by
    intro n hm
    obtain ⟨i, hi, rfl⟩ := List.getElem_of_mem hm
    have h2 := Rust.lookup_zip_of_nodup ns vs hn hl i hi (by omega)
    simp only [val, h2, Option.getD_some]
  have h2 := each_ok (fun n => (orElse .stuck ((ns.zip vs).lookup n)).map (mk n)) (fun n => mk n (val n)) ns
    (fun n hm => by rw [h1 n hm]; rfl)
  rw [h2]
  congr 1
  apply List.ext_getElem
  · simp [hl]
  · intro i h3 h4
    simp only [List.length_map] at h3
    simp only [List.getElem_map, List.getElem_zipWith]
    have h5 := h1 ns[i] (List.getElem_mem _)
    rw [Rust.lookup_zip_of_nodup ns vs hn hl i h3 (by omega)] at h5
    rw [← Option.some.inj h5]

theorem mkRecord_zip (ns : List String) (vs : List Val) (hn : ns.Nodup) (hl : ns.length = vs.length) :
    mkRecord ns (ns.zip vs) = .ok (ns.zip vs) := by
  unfold mkRecord
  rw [if_pos (by simp [List.length_zip, hl])]
  exact lookup_zip_each (fun f v => (f, v)) ns vs hn hl

theorem _root_.TPB.Spec.DObj.length_eq {T : List ASTNode} {ts : List TypeId} {ds : List Val} (h : DObj x T ts ds) :
    ts.length = ds.length := by
  induction h <;> simp_all

theorem _root_.TPB.Spec.DObj.cons {T : List ASTNode} {t : TypeId} {d : Val} {ts : List TypeId} {ds : List Val}
    (h1 : DObj x T [t] [d]) (h2 : DObj x T ts ds) : DObj x T (t :: ts) (d :: ds) := by
  cases h1 with
  | any _ _ _ _ h _ => exact .any _ _ _ _ h h2
  | struct n fds _ _ h h' _ => exact .struct n fds _ _ h h' h2
  | enum n v pls _ _ h1 h3 h4 _ => exact .enum n v pls _ _ h1 h3 h4 h2

theorem _root_.TPB.Spec.DObj.head {T : List ASTNode} {t : TypeId} {d : Val} {ts : List TypeId} {ds : List Val}
    (h : DObj x T (t :: ts) (d :: ds)) : DObj x T [t] [d] ∧ DObj x T ts ds := by
  cases h with
  | any _ _ _ _ h h2 => exact ⟨.any _ _ _ _ h .nil, h2⟩
  | struct n fds _ _ h h' h2 => exact ⟨.struct n fds _ _ h h' .nil, h2⟩
  | enum n v pls _ _ h1 h3 h4 h2 => exact ⟨.enum n v pls _ _ h1 h3 h4 .nil, h2⟩

theorem lt_mem_dartGeneric (id : String) (gs : List TypeId) : '<' ∈ (dartGeneric id gs).toList := by
  simp [dartGeneric]

theorem view_other {t : TypeId} {id : String} (h : dartView t = .other id) :
    t = .other id ∨ ∃ c gs, t = .generic c gs ∧ id = dartGeneric c gs := by
  cases t with
  | other i => simp only [dartView, TypeId.other.injEq] at h; exact .inl (by rw [h])
  | generic c gs =>
    refine .inr ⟨c, gs, rfl, ?_⟩
    simp only [dartView] at h
    split at h
    · split at h
      · simp at h
      · simpa using h.symm
    · simpa using h.symm
  | _ => simp [dartView] at h

theorem view_declared (hN : DartNamed x S) {t : TypeId} {id : String} (h : dartView t = .other id)
    (hid : id ∈ typeNames S) : t = .other id := by
  rcases view_other h with h | ⟨c, gs, rfl, rfl⟩
  · exact h
  · exact absurd (lt_mem_dartGeneric c gs) (hN.plain _ hid)

theorem dobj_any (hN : DartNamed x S) {t : TypeId} (h : ∀ id ∈ typeNames S, t ≠ .other id) (d : Val) :
    DObj x (dartSchema S) [dartView t] [d] := by
  refine .any _ _ _ _ (fun id hid he => ?_) .nil
  rw [typeNames_view] at hid
  exact h id hid (view_declared hN he hid)

/-! ### Default values of fields -/

theorem newVal_library (hS : Plain S) {id : String} (h1 : id ∉ typeNames S) (h2 : id ∉ variantClasses S)
    (k : Nat) : newVal rt (genProg x S) (k + 1) (.factory id) = orElse .throws (rt.newX id) := by
  obtain ⟨h3, h4⟩ := struct_none (x := x) hS (b := id) (by simp [h1, h2])
  simp only [newVal, h3, h4]

theorem new_field (hrt : rt.Lawful) (hS : Plain S) (hN : DartNamed x S) {t : TypeId} (hl : LibraryFree S t)
    (hd : ∀ id, t = .other id → id ∈ typeNames S → ∃ N d, DObj x (dartSchema S) [.other id] [d] ∧
      ∀ k, N ≤ k → newVal rt (genProg x S) k (.factory id) = .ok d) :
    ∃ N d, DObj x (dartSchema S) [dartView t] [d] ∧
      ∀ k, N ≤ k → evalDef rt (newVal rt (genProg x S) k) (genDef t) = .ok d := by
  cases t with
  | integer a b c => exact ⟨0, .int 0, dobj_any hN (by simp) _, fun _ _ => rfl⟩
  | number a b => exact ⟨0, .num 0, dobj_any hN (by simp) _, fun _ _ => rfl⟩
  | bool a => exact ⟨0, .bool false, dobj_any hN (by simp) _, fun _ _ => rfl⟩
  | char a => exact ⟨0, .int 0, dobj_any hN (by simp) _, fun _ _ => rfl⟩
  | generic c gs =>
    obtain ⟨v, hv⟩ := Option.isSome_iff_exists.1 (hrt.new (genericName (listName c) (gs.map genTy)))
    exact ⟨0, v, dobj_any hN (by simp) _, fun _ _ => by simp [genDef, evalDef, hv, orElse]⟩
  | other id =>
    by_cases h : id ∈ typeNames S
    · obtain ⟨N, d, h1, h2⟩ := hd id rfl h
      exact ⟨N, d, h1, fun k hk => h2 k hk⟩
    · obtain ⟨v, hv⟩ := Option.isSome_iff_exists.1 (hrt.new id)
      refine ⟨1, v, dobj_any hN (by intro i hi e; cases e; exact h hi) _, fun k hk => ?_⟩
      obtain ⟨k, rfl⟩ : ∃ j, k = j + 1 := ⟨k - 1, by omega⟩
      simp only [genDef, evalDef]
      rw [newVal_library hS h hl, hv]
      rfl

theorem new_fields (hrt : rt.Lawful) (hS : Plain S) (hN : DartNamed x S) : ∀ (fs : List StructField),
    (∀ f ∈ fs, LibraryFree S f.typeId) →
    (∀ f ∈ fs, ∀ id, f.typeId = .other id → id ∈ typeNames S →
      ∃ N d, DObj x (dartSchema S) [.other id] [d] ∧
        ∀ k, N ≤ k → newVal rt (genProg x S) k (.factory id) = .ok d) →
    ∃ N ds, DObj x (dartSchema S) ((fs.map (·.typeId)).map dartView) ds ∧
      ∀ k, N ≤ k → each (evalInit rt (newVal rt (genProg x S) k))
        (fs.map (fun f => (x.camel f.name, genDef f.typeId))) = .ok ((fs.map (fun f => x.camel f.name)).zip ds)
  | [], _, _ => ⟨0, [], .nil, fun _ _ => rfl⟩
  | f :: fs, hl, hd => by
    obtain ⟨N1, d, h1, h2⟩ := new_field hrt hS hN (hl f (by simp)) (hd f (by simp))
    obtain ⟨N2, ds, h3, h4⟩ := new_fields hrt hS hN fs (fun g hg => hl g (by simp [hg]))
      (fun g hg => hd g (by simp [hg]))
    refine ⟨max N1 N2, d :: ds, h1.cons h3, fun k hk => ?_⟩
    simp only [List.map_cons, each, evalInit, h2 k (by omega), Except.map]
    rw [h4 k (by omega)]
    rfl

/-- `const C()` or `C.createDefault()` for the class of a struct or a variant. -/
theorem new_class (hrt : rt.Lawful) (hS : Plain S) (hN : DartNamed x S) (n : StructNode)
    (hc : (genProg x S).struct? n.id = some (genStructClass x n)) (hn : (dartFieldNames x n).Nodup)
    (hl : ∀ f ∈ n.fields, LibraryFree S f.typeId)
    (hd : ∀ f ∈ n.fields, ∀ id, f.typeId = .other id → id ∈ typeNames S →
      ∃ N d, DObj x (dartSchema S) [.other id] [d] ∧
        ∀ k, N ≤ k → newVal rt (genProg x S) k (.factory id) = .ok d) :
    ∃ N ds, DObj x (dartSchema S) ((n.fields.map (·.typeId)).map dartView) ds ∧
      ∀ k, N ≤ k → newVal rt (genProg x S) k (if n.fields.isEmpty then .const n.id else .createDefault n.id)
        = .ok (.struct n.id ((dartFieldNames x n).zip ds)) := by
  obtain ⟨N, ds, h1, h2⟩ := new_fields hrt hS hN n.fields hl hd
  refine ⟨N + 1, ds, h1, fun k hk => ?_⟩
  obtain ⟨k, rfl⟩ : ∃ j, k = j + 1 := ⟨k - 1, by omega⟩
  cases hf : n.fields.isEmpty with
  | true =>
    have he : n.fields = [] := by simpa using hf
    simp [newVal, hc, genStructClass, he, dartFieldNames]
  | false =>
    have he : ((genStructClass x n).fields).isEmpty = false := by simpa [genStructClass] using hf
    have hlen : (dartFieldNames x n).length = ds.length := by
      have := h1.length_eq
      simpa [dartFieldNames] using this
    simp only [Bool.false_eq_true, if_false, newVal, hc, he]
    rw [show (genStructClass x n).inits = n.fields.map (fun f => (x.camel f.name, genDef f.typeId)) from rfl,
      h2 k (by omega)]
    simp only [bind, Except.bind]
    rw [show ((genStructClass x n).fields.map (·.2)) = dartFieldNames x n by
      simp [genStructClass, dartFieldNames, Function.comp_def]]
    rw [show (n.fields.map (fun f => x.camel f.name)) = dartFieldNames x n from rfl, mkRecord_zip _ _ hn hlen]

theorem enumObj_view (m : EnumNode) (v : Val) (pls : List (List Val)) :
    enumObj x { m with items := m.items.map viewItem } v
      (((m.items.map viewItem).zip pls).map (fun p => payloadObj x { m with items := m.items.map viewItem } p.1 p.2))
    = enumObj x m v ((m.items.zip pls).map (fun p => payloadObj x m p.1 p.2)) := by
  simp only [enumObj, List.map_map]
  congr 3
  · refine List.map_congr_left (fun i _ => ?_)
    simp [viewItem_id]
  · rw [List.zip_map_left, List.map_map]
    refine List.map_congr_left (fun p _ => ?_)
    simp only [Function.comp_apply, Prod.map, id, payloadObj, viewItem_id, dartPayloadNames_view]

theorem mem_zip_view {items : List EnumItem} {pls : List (List Val)} {P : EnumItem → List Val → Prop}
    (h : ∀ p ∈ items.zip pls, P (viewItem p.1) p.2) : ∀ p ∈ (items.map viewItem).zip pls, P p.1 p.2 := by
  intro p hp
  rw [List.zip_map_left] at hp
  obtain ⟨q, hq, rfl⟩ := List.mem_map.1 hp
  exact h q hq

/-- Payload objects of all variants. -/
theorem new_payloads (hrt : rt.Lawful) (hS : Plain S) (hN : DartNamed x S) (n : EnumNode)
    (hn : .enum n ∈ S) (hI : ∀ i ∈ n.items, payload i = [] → ∃ p id, i = .empty p id)
    (hd : ∀ i ∈ n.items, ∀ f ∈ payload i, ∀ id, f.2 = .other id → id ∈ typeNames S →
      ∃ N d, DObj x (dartSchema S) [.other id] [d] ∧
        ∀ k, N ≤ k → newVal rt (genProg x S) k (.factory id) = .ok d) : ∀ (is : List EnumItem),
    (∀ i ∈ is, i ∈ n.items) →
    ∃ N pls, pls.length = is.length ∧
      (∀ p ∈ is.zip pls, DObj x (dartSchema S) ((payload (viewItem p.1)).map (·.2)) p.2) ∧
      ∀ k, N ≤ k → each (evalPayload (newVal rt (genProg x S) k))
        (is.map (fun i => (n.id ++ i.id, x.camel i.id, genNew n i)))
        = .ok ((is.map (fun i => x.camel i.id)).zip ((is.zip pls).map (fun p => payloadObj x n p.1 p.2)))
  | [], _ => ⟨0, [], rfl, by simp, fun _ _ => rfl⟩
  | i :: is, hi => by
    obtain ⟨N1, pls, h1, h2, h3⟩ := new_payloads hrt hS hN n hn hI hd is (fun j hj => hi j (by simp [hj]))
    have him := hi i (by simp)
    have hfields : ∀ f ∈ (enumItemStruct n i).fields, ∃ g ∈ payload i, g.2 = f.typeId := by
      intro f hf
      have : f.typeId ∈ (payload i).map (·.2) := by
        rw [← itemStruct_types n i]; exact List.mem_map.2 ⟨f, hf, rfl⟩
      simpa using this
    obtain ⟨N2, ds, h4, h5⟩ := new_class hrt hS hN (enumItemStruct n i)
      (by rw [itemStruct_id]; exact variant_class hS hN hn him)
      (by
        have := hN.payloads n hn i him
        rwa [← itemStruct_names n i] at this)
      (fun f hf => by
        obtain ⟨g, hg, e⟩ := hfields f hf
        exact e ▸ hN.enumLib n hn i him g hg)
      (fun f hf id he hid => by
        obtain ⟨g, hg, e⟩ := hfields f hf
        exact hd i him g hg id (e.trans he) hid)
    refine ⟨max N1 N2, ds :: pls, by simp [h1], ?_, fun k hk => ?_⟩
    · intro p hp
      simp only [List.zip_cons_cons, List.mem_cons] at hp
      rcases hp with rfl | hp
      · simp only
        rw [payload_view, ← itemStruct_types n i]
        exact h4
      · exact h2 p hp
    · have h6 := h5 k (by omega)
      have h7 : (genNew n i).new = (if (enumItemStruct n i).fields.isEmpty then New.const (n.id ++ i.id)
          else New.createDefault (n.id ++ i.id)) ∧ (genNew n i).cls = n.id ++ i.id := by
        cases i with
        | empty p id => exact ⟨rfl, rfl⟩
        | tuple p id vs =>
          cases vs with
          | nil => obtain ⟨_, _, he⟩ := hI _ him rfl; simp at he
          | cons v vs => exact ⟨rfl, rfl⟩
        | struct p id fs =>
          cases fs with
          | nil => obtain ⟨_, _, he⟩ := hI _ him rfl; simp at he
          | cons v vs => exact ⟨rfl, rfl⟩
      rw [itemStruct_id] at h6
      simp only [List.map_cons, each, evalPayload, h7.2, if_true, h7.1, h6, Except.map]
      rw [h3 k (by omega)]
      have h8 : dartFieldNames x (enumItemStruct n i) = dartPayloadNames x i := itemStruct_names n i
      simp [payloadObj, h8, bind, Except.bind]

theorem typeNames_mem {id : String} (h : id ∈ typeNames S) :
    (∃ n, .struct n ∈ S ∧ n.id = id) ∨ (∃ n, .enum n ∈ S ∧ n.id = id) := by
  obtain ⟨d, hd, he⟩ := List.mem_filterMap.1 h
  cases d <;> simp at he
  · exact .inr ⟨_, hd, he⟩
  · exact .inl ⟨_, hd, he⟩

theorem struct_typeName {n : StructNode} (h : .struct n ∈ S) : n.id ∈ typeNames S :=
  List.mem_filterMap.2 ⟨_, h, rfl⟩
theorem enum_typeName {n : EnumNode} (h : .enum n ∈ S) : n.id ∈ typeNames S :=
  List.mem_filterMap.2 ⟨_, h, rfl⟩

theorem mem_view_struct {n : StructNode} (h : .struct n ∈ S) :
    .struct { n with fields := n.fields.map viewField } ∈ dartSchema S := List.mem_map.2 ⟨_, h, rfl⟩
theorem mem_view_enum {n : EnumNode} (h : .enum n ∈ S) :
    .enum { n with items := n.items.map viewItem } ∈ dartSchema S := List.mem_map.2 ⟨_, h, rfl⟩

theorem dobj_struct {n : StructNode} (hn : .struct n ∈ S) {ds : List Val}
    (h : DObj x (dartSchema S) ((n.fields.map (·.typeId)).map dartView) ds) :
    DObj x (dartSchema S) [.other n.id] [.struct n.id ((dartFieldNames x n).zip ds)] := by
  have := DObj.struct (x := x) (T := dartSchema S) { n with fields := n.fields.map viewField } ds [] []
    (mem_view_struct hn) (by rw [fieldsOf_view]; exact h) .nil
  rwa [dartFieldNames_view] at this

theorem dobj_enum {n : EnumNode} (hn : .enum n ∈ S) (v : Val) {pls : List (List Val)}
    (hl : pls.length = n.items.length)
    (h : ∀ p ∈ n.items.zip pls, DObj x (dartSchema S) ((payload (viewItem p.1)).map (·.2)) p.2) :
    DObj x (dartSchema S) [.other n.id] [enumObj x n v ((n.items.zip pls).map (fun p => payloadObj x n p.1 p.2))] := by
  have := DObj.enum (x := x) (T := dartSchema S) { n with items := n.items.map viewItem } v pls [] []
    (mem_view_enum hn) (by simp [hl])
    (mem_zip_view (P := fun i ds => DObj x (dartSchema S) ((payload i).map (·.2)) ds) h) .nil
  rwa [enumObj_view] at this

theorem built_of_hasDefaults (hH : HasDefaults S) (id : String) : Built S id := by
  obtain ⟨height, hh⟩ := hH.finite
  have key : ∀ h id, height id < h → Built S id := by
    intro h
    induction h with
    | zero => intro id hlt; omega
    | succ h ih =>
      intro id hlt
      refine .mk id (fun n hn _ => hH.inhabited n hn) (fun d hd he t ht htn => ih t ?_)
      have := hh d hd id he t ht htn
      omega
  exact key (height id + 1) id (by omega)

/-- A type that is built of finitely many others has a default object. -/
theorem new_both (hrt : rt.Lawful) (hS : Plain S) (hN : DartNamed x S) {id : String} (hB : Built S id) :
    id ∈ typeNames S → ∃ N d, DObj x (dartSchema S) [.other id] [d] ∧
      ∀ k, N ≤ k → newVal rt (genProg x S) k (.factory id) = .ok d ∧
        (∀ n, .enum n ∈ S → n.id = id → newVal rt (genProg x S) k (.enum id) = .ok d) := by
  induction hB with
  | mk id hI _ ih =>
    intro hid
    rcases typeNames_mem hid with ⟨n, hn, rfl⟩ | ⟨n, hn, rfl⟩
    · obtain ⟨N, ds, h1, h2⟩ := new_class hrt hS hN n (struct_class hS hN hn) (hN.fields n hn).1
        (fun f hf => hN.structLib n hn (f.name, f.typeId) (List.mem_map.2 ⟨f, hf, rfl⟩))
        (fun f hf id he hid => by
          obtain ⟨N, d, h1, h2⟩ := ih _ hn rfl id (by
            simp only [directTypes, List.mem_map]
            exact ⟨(f.name, f.typeId), List.mem_map.2 ⟨f, hf, rfl⟩, he⟩) hid hid
          exact ⟨N, d, h1, fun k hk => (h2 k hk).1⟩)
      refine ⟨N + 1, _, dobj_struct hn h1, fun k hk => ⟨?_, fun m hm he => ?_⟩⟩
      · obtain ⟨k, rfl⟩ : ∃ j, k = j + 1 := ⟨k - 1, by omega⟩
        simp only [newVal, struct_class hS hN hn]
        have : (genStructClass x n).fields.isEmpty = n.fields.isEmpty := by simp [genStructClass]
        rw [this]
        exact h2 k (by omega)
      · have h3 := enum_not_struct hS hN hm
        rw [he, struct_class hS hN hn] at h3
        cases h3
    · obtain ⟨N, pls, h1, h2, h3⟩ := new_payloads hrt hS hN n hn (hI n hn rfl)
        (fun i hi f hf id he hid => by
          obtain ⟨N, d, h1, h2⟩ := ih _ hn rfl id (by
            simp only [directTypes, List.mem_flatMap, List.mem_map]
            exact ⟨i, hi, f, hf, he⟩) hid hid
          exact ⟨N, d, h1, fun k hk => (h2 k hk).1⟩) n.items (fun _ h => h)
      obtain ⟨d, hd1, hd2⟩ := enum_class hS hN hn
      have hfirst : (genEnumClass x n d.id).first ∈ (genEnumClass x n d.id).consts :=
        List.mem_map.2 ⟨d, List.mem_of_mem_head? (by simp [hd1]), rfl⟩
      have hnew : ∀ k, N + 1 ≤ k → newVal rt (genProg x S) k (.enum n.id)
          = .ok (enumObj x n (.enum (n.id ++ "Value") (x.camel d.id) [])
            ((n.items.zip pls).map (fun p => payloadObj x n p.1 p.2))) := by
        intro k hk
        obtain ⟨k, rfl⟩ : ∃ j, k = j + 1 := ⟨k - 1, by omega⟩
        simp only [newVal, hd2, if_pos hfirst]
        rw [show (genEnumClass x n d.id).payloads
          = n.items.map (fun i => (n.id ++ i.id, x.camel i.id, genNew n i)) from rfl, h3 k (by omega)]
        rfl
      refine ⟨N + 2, _, dobj_enum hn _ h1 h2, fun k hk => ⟨?_, fun m _ _ => hnew k (by omega)⟩⟩
      obtain ⟨k, rfl⟩ : ∃ j, k = j + 1 := ⟨k - 1, by omega⟩
      simp only [newVal, enum_not_struct hS hN hn, hd2]
      exact hnew k (by omega)

/-- A factory returns if its type is built of finitely many others. -/
theorem new_built (hrt : rt.Lawful) (hS : Plain S) (hN : DartNamed x S) {id : String} (hB : Built S id)
    (hid : id ∈ typeNames S) : ∃ N d, DObj x (dartSchema S) [.other id] [d] ∧
      ∀ k, N ≤ k → newVal rt (genProg x S) k (.factory id) = .ok d := by
  obtain ⟨N, d, h1, h2⟩ := new_both hrt hS hN hB hid
  exact ⟨N, d, h1, fun k hk => (h2 k hk).1⟩

/-- Every declared type has a default object. -/
theorem new_declared (hrt : rt.Lawful) (hS : Plain S) (hN : DartNamed x S) (hH : HasDefaults S) (id : String)
    (hid : id ∈ typeNames S) : ∃ N d, DObj x (dartSchema S) [.other id] [d] ∧
      ∀ k, N ≤ k → newVal rt (genProg x S) k (.factory id) = .ok d ∧
        (∀ n, .enum n ∈ S → n.id = id → newVal rt (genProg x S) k (.enum id) = .ok d) :=
  new_both hrt hS hN (built_of_hasDefaults hH id) hid

end TPB.Dart
