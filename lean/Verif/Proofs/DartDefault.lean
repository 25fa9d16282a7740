/- The default objects of the emitted Dart classes represent the default values. -/
import Verif.Proofs.DartRead
import Verif.Spec.DartDefault
namespace TPB.Dart
open Spec DartGen

variable {x : Ext} {S : List ASTNode} {rt : Runtime}

theorem defaultOf_cons {D : Defaults} {T : List ASTNode} {t : TypeId} {v : Val} {ts : List TypeId} {vs : List Val}
    (h1 : DefaultOf D T [t] [v]) (h2 : DefaultOf D T ts vs) : DefaultOf D T (t :: ts) (v :: vs) := by
  cases h1 with
  | leaf _ _ _ _ h _ => exact .leaf _ _ _ _ h h2
  | struct n fvs _ _ h h' _ => exact .struct n fvs _ _ h h' h2
  | enum n i pvs _ _ h h' h'' _ => exact .enum n i pvs _ _ h h' h'' h2
  | list c gs s its items _ _ h h' h'' _ => exact .list c gs s its items _ _ h h' h'' h2
  | ext id v _ _ h h' _ => exact .ext id v _ _ h h' h2

/-- `d` represents the default value of the type. -/
def DefRep (x : Ext) (rt : Runtime) (S : List ASTNode) (ts : List TypeId) (ds : List Val) : Prop :=
  ∃ vs, DRep x (dartSchema S) (ts.map dartView) vs ds ∧ DefaultOf (dartDefaults rt) (dartSchema S) (ts.map dartView) vs

theorem DefRep.cons {t : TypeId} {ts : List TypeId} {d : Val} {ds : List Val} (h1 : DefRep x rt S [t] [d])
    (h2 : DefRep x rt S ts ds) : DefRep x rt S (t :: ts) (d :: ds) := by
  obtain ⟨vs, h1, h3⟩ := h1
  obtain ⟨ws, h2, h4⟩ := h2
  obtain ⟨v, rfl⟩ : ∃ v, vs = [v] := List.length_eq_one_iff.1 (by simpa using h1.length_eq.1.symm)
  exact ⟨v :: ws, h1.cons h2, defaultOf_cons h3 h4⟩

theorem def_field (hrt : rt.Lawful) (hlist : EmptyLists rt) (hS : Plain S) (hN : DartNamed x S) {t : TypeId} (hl : LibraryFree S t)
    (h1 : ∀ gs, t = .generic "Vec" gs → gs.length = 1)
    (hd : ∀ id, t = .other id → id ∈ typeNames S → ∃ N d, DefRep x rt S [.other id] [d] ∧
      ∀ k, N ≤ k → newVal rt (genProg x S) k (.factory id) = .ok d) :
    ∃ N d, DefRep x rt S [t] [d] ∧ ∀ k, N ≤ k → evalDef rt (newVal rt (genProg x S) k) (genDef t) = .ok d := by
  cases t with
  | integer a b c => exact ⟨0, .int 0, ⟨_, .leaf _ _ _ _ _ rfl .nil, .leaf _ _ _ _ rfl .nil⟩, fun _ _ => rfl⟩
  | number a b => exact ⟨0, .num 0, ⟨_, .leaf _ _ _ _ _ rfl .nil, .leaf _ _ _ _ rfl .nil⟩, fun _ _ => rfl⟩
  | bool a => exact ⟨0, .bool false, ⟨_, .leaf _ _ _ _ _ rfl .nil, .leaf _ _ _ _ rfl .nil⟩, fun _ _ => rfl⟩
  | char a => exact ⟨0, .int 0, ⟨_, .leaf _ _ _ _ _ rfl .nil, .leaf _ _ _ _ rfl .nil⟩, fun _ _ => rfl⟩
  | generic c gs =>
    by_cases hc : c = "Vec"
    · subst hc
      obtain ⟨g, rfl⟩ := List.length_eq_one_iff.1 (h1 gs rfl)
      refine ⟨0, .list 0 [], ⟨[.list 0 []], ?_, ?_⟩, fun k _ => ?_⟩
      · exact .list _ 0 [] [] _ _ _ .nil .nil
      · exact .list "Vec" [.other (dartElem g)] 0 [] [] _ _ rfl rfl .nil .nil
      · simp only [genDef, evalDef, show listName "Vec" = "List" from rfl]
        rw [genericName, show ("List" ++ "<" : String) = "List<" from rfl, String.append_assoc, hlist]
        rfl
    · obtain ⟨v, hv⟩ := Option.isSome_iff_exists.1 (hrt.new (dartGeneric c gs))
      have hn : dartGeneric c gs ∉ typeNames (dartSchema S) := by
        rw [typeNames_view]
        exact fun h => hN.plain _ h (lt_mem_dartGeneric c gs)
      have hv' : dartView (.generic c gs) = .other (dartGeneric c gs) := by
        rcases gs with _ | ⟨g, _ | ⟨h, gs⟩⟩ <;> simp [dartView, hc]
      refine ⟨0, v, ⟨[v], ?_, ?_⟩, fun k _ => ?_⟩
      · rw [List.map_singleton, hv']; exact .ext _ _ _ _ _ hn .nil
      · rw [List.map_singleton, hv']; exact .ext _ _ _ _ hn hv .nil
      · simp only [genDef, evalDef, show listName c = c by simp [listName, hc], genericName_eq, hv, orElse]
  | other id =>
    by_cases h : id ∈ typeNames S
    · obtain ⟨N, d, h1, h2⟩ := hd id rfl h
      exact ⟨N, d, h1, fun k hk => h2 k hk⟩
    · obtain ⟨v, hv⟩ := Option.isSome_iff_exists.1 (hrt.new id)
      have hn : id ∉ typeNames (dartSchema S) := by rwa [typeNames_view]
      refine ⟨1, v, ⟨[v], .ext _ _ _ _ _ hn .nil, .ext _ _ _ _ hn hv .nil⟩, fun k hk => ?_⟩
      obtain ⟨k, rfl⟩ : ∃ j, k = j + 1 := ⟨k - 1, by omega⟩
      simp only [genDef, evalDef]
      rw [newVal_library hS h hl, hv]
      rfl

/-- Defaults of declared types, as the induction hypothesis gives them. -/
def DefDeclared (x : Ext) (rt : Runtime) (S : List ASTNode) (t : TypeId) : Prop :=
  ∀ id, t = .other id → id ∈ typeNames S → ∃ N d, DefRep x rt S [.other id] [d] ∧
    ∀ k, N ≤ k → newVal rt (genProg x S) k (.factory id) = .ok d

theorem def_fields (hrt : rt.Lawful) (hlist : EmptyLists rt) (hS : Plain S) (hN : DartNamed x S) : ∀ (fs : List StructField),
    (∀ f ∈ fs, LibraryFree S f.typeId) → (∀ f ∈ fs, ∀ gs, f.typeId = .generic "Vec" gs → gs.length = 1) →
    (∀ f ∈ fs, DefDeclared x rt S f.typeId) →
    ∃ N ds, DefRep x rt S (fs.map (·.typeId)) ds ∧
      ∀ k, N ≤ k → each (evalInit rt (newVal rt (genProg x S) k))
        (fs.map (fun f => (x.camel f.name, genDef f.typeId))) = .ok ((fs.map (fun f => x.camel f.name)).zip ds)
  | [], _, _, _ => ⟨0, [], ⟨[], .nil, .nil⟩, fun _ _ => rfl⟩
  | f :: fs, hl, h1, hd => by
    obtain ⟨N1, d, h3, h4⟩ := def_field hrt hlist hS hN (hl f (by simp)) (h1 f (by simp)) (hd f (by simp))
    obtain ⟨N2, ds, h5, h6⟩ := def_fields hrt hlist hS hN fs (fun g hg => hl g (by simp [hg]))
      (fun g hg => h1 g (by simp [hg])) (fun g hg => hd g (by simp [hg]))
    refine ⟨max N1 N2, d :: ds, h3.cons h5, fun k hk => ?_⟩
    simp only [List.map_cons, each, evalInit, h4 k (by omega), Except.map]
    rw [h6 k (by omega)]
    rfl

theorem def_class (hrt : rt.Lawful) (hlist : EmptyLists rt) (hS : Plain S) (hN : DartNamed x S) (n : StructNode)
    (hc : (genProg x S).struct? n.id = some (genStructClass x n)) (hn : (dartFieldNames x n).Nodup)
    (hl : ∀ f ∈ n.fields, LibraryFree S f.typeId) (h1 : ∀ f ∈ n.fields, ∀ gs, f.typeId = .generic "Vec" gs → gs.length = 1)
    (hd : ∀ f ∈ n.fields, DefDeclared x rt S f.typeId) :
    ∃ N ds, DefRep x rt S (n.fields.map (·.typeId)) ds ∧
      ∀ k, N ≤ k → newVal rt (genProg x S) k (if n.fields.isEmpty then .const n.id else .createDefault n.id)
        = .ok (.struct n.id ((dartFieldNames x n).zip ds)) := by
  obtain ⟨N, ds, h1, h2⟩ := def_fields hrt hlist hS hN n.fields hl h1 hd
  refine ⟨N + 1, ds, h1, fun k hk => ?_⟩
  obtain ⟨k, rfl⟩ : ∃ j, k = j + 1 := ⟨k - 1, by omega⟩
  cases hf : n.fields.isEmpty with
  | true =>
    have he : n.fields = [] := by simpa using hf
    simp [newVal, hc, genStructClass, he, dartFieldNames]
  | false =>
    have he : ((genStructClass x n).fields).isEmpty = false := by simpa [genStructClass] using hf
    have hlen : (dartFieldNames x n).length = ds.length := by
      obtain ⟨vs, h1, -⟩ := h1
      have := h1.length_eq.2
      simpa [dartFieldNames] using this
    simp only [Bool.false_eq_true, if_false, newVal, hc, he]
    rw [show (genStructClass x n).inits = n.fields.map (fun f => (x.camel f.name, genDef f.typeId)) from rfl,
      h2 k (by omega)]
    simp only [bind, Except.bind]
    rw [show ((genStructClass x n).fields.map (·.2)) = dartFieldNames x n by
      simp [genStructClass, dartFieldNames, Function.comp_def]]
    rw [show (n.fields.map (fun f => x.camel f.name)) = dartFieldNames x n from rfl, mkRecord_zip _ _ hn hlen]

theorem def_payloads (hrt : rt.Lawful) (hlist : EmptyLists rt) (hS : Plain S) (hN : DartNamed x S)
    (n : EnumNode) (hn : .enum n ∈ S) (hI : ∀ i ∈ n.items, payload i = [] → ∃ p id, i = .empty p id)
    (h1 : ∀ i ∈ n.items, ∀ f ∈ payload i, ∀ gs, f.2 = .generic "Vec" gs → gs.length = 1)
    (hd : ∀ i ∈ n.items, ∀ f ∈ payload i, DefDeclared x rt S f.2) : ∀ (is : List EnumItem), (∀ i ∈ is, i ∈ n.items) →
    ∃ N pls, pls.length = is.length ∧ (∀ p ∈ is.zip pls, DefRep x rt S ((payload p.1).map (·.2)) p.2) ∧
      ∀ k, N ≤ k → each (evalPayload (newVal rt (genProg x S) k))
        (is.map (fun i => (n.id ++ i.id, x.camel i.id, genNew n i)))
        = .ok ((is.map (fun i => x.camel i.id)).zip ((is.zip pls).map (fun p => payloadObj x n p.1 p.2)))
  | [], _ => ⟨0, [], rfl, by simp, fun _ _ => rfl⟩
  | i :: is, hi => by
    obtain ⟨N1, pls, h3, h4, h5⟩ := def_payloads hrt hlist hS hN n hn hI h1 hd is (fun j hj => hi j (by simp [hj]))
    have him := hi i (by simp)
    have hfields : ∀ f ∈ (enumItemStruct n i).fields, ∃ g ∈ payload i, g.2 = f.typeId := by
      intro f hf
      have : f.typeId ∈ (payload i).map (·.2) := by
        rw [← itemStruct_types n i]; exact List.mem_map.2 ⟨f, hf, rfl⟩
      simpa using this
    obtain ⟨N2, ds, h6, h7⟩ := def_class hrt hlist hS hN (enumItemStruct n i)
      (by rw [itemStruct_id]; exact variant_class hS hN hn him)
      (by
        have := hN.payloads n hn i him
        rwa [← itemStruct_names n i] at this)
      (fun f hf => by
        obtain ⟨g, hg, e⟩ := hfields f hf
        exact e ▸ hN.enumLib n hn i him g hg)
      (fun f hf gs he => by
        obtain ⟨g, hg, e⟩ := hfields f hf
        exact h1 i him g hg gs (e.trans he))
      (fun f hf => by
        obtain ⟨g, hg, e⟩ := hfields f hf
        exact e ▸ hd i him g hg)
    refine ⟨max N1 N2, ds :: pls, by simp [h3], ?_, fun k hk => ?_⟩
    · intro p hp
      simp only [List.zip_cons_cons, List.mem_cons] at hp
      rcases hp with rfl | hp
      · simp only
        rw [← itemStruct_types n i]
        exact h6
      · exact h4 p hp
    · have h8 := h7 k (by omega)
      have h9 : (genNew n i).new = (if (enumItemStruct n i).fields.isEmpty then New.const (n.id ++ i.id)
          else New.createDefault (n.id ++ i.id)) ∧ (genNew n i).cls = n.id ++ i.id := by
        cases i with
        | empty p id => exact ⟨rfl, rfl⟩
        | tuple p id vs =>
          cases vs with
          | nil => obtain ⟨_, _, he⟩ := hI _ him rfl; simp at he
          | cons v vs => exact ⟨rfl, rfl⟩
        | struct p id fs =>
          cases fs with
          | nil => obtain ⟨_, _, he⟩ := hI _ him rfl; simp at he
          | cons v vs => exact ⟨rfl, rfl⟩
      rw [itemStruct_id] at h8
      simp only [List.map_cons, each, evalPayload, h9.2, if_true, h9.1, h8, Except.map]
      rw [h5 k (by omega)]
      have h8 : dartFieldNames x (enumItemStruct n i) = dartPayloadNames x i := itemStruct_names n i
      simp [payloadObj, h8, bind, Except.bind]

theorem defRep_struct {n : StructNode} (hn : .struct n ∈ S) {ds : List Val} (h : DefRep x rt S (n.fields.map (·.typeId)) ds) :
    DefRep x rt S [.other n.id] [.struct n.id ((dartFieldNames x n).zip ds)] := by
  obtain ⟨vs, h1, h2⟩ := h
  refine ⟨_, drep_struct hn h1, ?_⟩
  have := DefaultOf.struct (D := dartDefaults rt) (S := dartSchema S) { n with fields := n.fields.map viewField } vs [] []
    (mem_view_struct hn) (by rw [fieldsOf_view]; exact h2) .nil
  rwa [show named (fieldsOf { n with fields := n.fields.map viewField }) vs = named (fieldsOf n) vs by
    simp [named, fieldsOf, viewField, Function.comp_def]] at this

theorem defRep_enum {n : EnumNode} (hn : .enum n ∈ S) {i : EnumItem} (hi : n.items.head? = some i) {pls : List (List Val)}
    (hl : pls.length = n.items.length) (h : ∀ p ∈ n.items.zip pls, DefRep x rt S ((payload p.1).map (·.2)) p.2) :
    DefRep x rt S [.other n.id]
      [enumObj x n (variantConst x n i) ((n.items.zip pls).map (fun p => payloadObj x n p.1 p.2))] := by
  obtain ⟨is, his⟩ : ∃ is, n.items = i :: is := by
    cases hh : n.items with
    | nil => simp [hh] at hi
    | cons j is => exact ⟨is, by simpa [hh] using hi⟩
  obtain ⟨pd, pls', rfl⟩ : ∃ pd pls', pls = pd :: pls' := by
    cases pls with
    | nil => simp [his] at hl
    | cons a b => exact ⟨a, b, rfl⟩
  have hm : (i, pd) ∈ n.items.zip (pd :: pls') := by simp [his]
  obtain ⟨vs, h1, h2⟩ := h _ hm
  refine ⟨_, drep_enum hn hl hm h1 (fun p hp => ?_), ?_⟩
  · obtain ⟨ws, h3, -⟩ := h p hp
    rw [payload_view]
    exact h3.obj
  · have := DefaultOf.enum (D := dartDefaults rt) (S := dartSchema S) { n with items := n.items.map viewItem } (viewItem i) vs
      [] [] (mem_view_enum hn) (by simp [hi]) (by rw [payload_view]; exact h2) .nil
    rwa [named_payload_view, viewItem_id] at this

theorem def_declared (hrt : rt.Lawful) (hlist : EmptyLists rt) (hS : Plain S) (hN : DartNamed x S) (hV : ListsOfOne S)
    {id : String} (hB : Built S id) : id ∈ typeNames S →
    ∃ N d, DefRep x rt S [.other id] [d] ∧ ∀ k, N ≤ k → newVal rt (genProg x S) k (.factory id) = .ok d := by
  induction hB with
  | mk id hI _ ih =>
    intro hid
    rcases typeNames_mem hid with ⟨n, hn, rfl⟩ | ⟨n, hn, rfl⟩
    · obtain ⟨N, ds, h1, h2⟩ := def_class hrt hlist hS hN n (struct_class hS hN hn) (hN.fields n hn).1
        (fun f hf => hN.structLib n hn (f.name, f.typeId) (List.mem_map.2 ⟨f, hf, rfl⟩))
        (fun f hf gs he => hV _ hn gs (by
          simp only [directTypes, List.mem_map]
          exact ⟨(f.name, f.typeId), List.mem_map.2 ⟨f, hf, rfl⟩, he⟩))
        (fun f hf id he hid => ih _ hn rfl id (by
            simp only [directTypes, List.mem_map]
            exact ⟨(f.name, f.typeId), List.mem_map.2 ⟨f, hf, rfl⟩, he⟩) hid hid)
      refine ⟨N + 1, _, defRep_struct hn h1, fun k hk => ?_⟩
      obtain ⟨k, rfl⟩ : ∃ j, k = j + 1 := ⟨k - 1, by omega⟩
      simp only [newVal, struct_class hS hN hn]
      have : (genStructClass x n).fields.isEmpty = n.fields.isEmpty := by simp [genStructClass]
      rw [this]
      exact h2 k (by omega)
    · obtain ⟨N, pls, h1, h2, h3⟩ := def_payloads hrt hlist hS hN n hn (hI n hn rfl)
        (fun i hi f hf gs he => hV _ hn gs (by
          simp only [directTypes, List.mem_flatMap, List.mem_map]
          exact ⟨i, hi, f, hf, he⟩))
        (fun i hi f hf id he hid => ih _ hn rfl id (by
            simp only [directTypes, List.mem_flatMap, List.mem_map]
            exact ⟨i, hi, f, hf, he⟩) hid hid) n.items (fun _ h => h)
      obtain ⟨d, hd1, hd2⟩ := enum_class hS hN hn
      have hfirst : (genEnumClass x n d.id).first ∈ (genEnumClass x n d.id).consts :=
        List.mem_map.2 ⟨d, List.mem_of_mem_head? (by simp [hd1]), rfl⟩
      refine ⟨N + 2, _, defRep_enum hn hd1 h1 h2, fun k hk => ?_⟩
      obtain ⟨k, rfl⟩ : ∃ j, k = j + 2 := ⟨k - 2, by omega⟩
      simp only [newVal, enum_not_struct hS hN hn, hd2, if_pos hfirst]
      rw [show (genEnumClass x n d.id).payloads
        = n.items.map (fun i => (n.id ++ i.id, x.camel i.id, genNew n i)) from rfl, h3 k (by omega)]
      rfl

/-! ### When a factory returns -/

theorem each_ok_inv {α β : Type} {f : α → Res β} : ∀ {l : List α} {bs : List β}, each f l = .ok bs →
    ∀ a ∈ l, ∃ b, f a = .ok b
  | a :: l, bs, h, c, hc => by
    simp only [each, bind, Except.bind] at h
    split at h
    · cases h
    · next b hb =>
      split at h
      · cases h
      · next bs' hbs =>
        rcases List.mem_cons.1 hc with rfl | hc
        · exact ⟨b, hb⟩
        · exact each_ok_inv hbs c hc

/-- If the default object of a class is created, so are those of its fields. -/
theorem class_fields {n : StructNode} (hc : (genProg x S).struct? n.id = some (genStructClass x n)) {k : Nat} {d : Val}
    (h : newVal rt (genProg x S) (k + 1) (.createDefault n.id) = .ok d) {f : StructField} (hf : f ∈ n.fields) {t : String}
    (ht : f.typeId = .other t) : ∃ d', newVal rt (genProg x S) k (.factory t) = .ok d' := by
  simp only [newVal, hc] at h
  split at h
  · cases h
  · simp only [bind, Except.bind] at h
    split at h
    · cases h
    · next vs hvs =>
      obtain ⟨b, hb⟩ := each_ok_inv hvs (x.camel f.name, genDef f.typeId) (List.mem_map.2 ⟨f, hf, rfl⟩)
      simp only [evalInit, ht, genDef, evalDef] at hb
      cases hd : newVal rt (genProg x S) k (.factory t) with
      | ok d' => exact ⟨d', rfl⟩
      | error e => rw [hd] at hb; cases hb

/-- If the default object of an enum is created, so are those of its payloads. -/
theorem enum_payloads (hS : Plain S) (hN : DartNamed x S) {n : EnumNode} (hn : .enum n ∈ S) {k : Nat} {d : Val}
    (h : newVal rt (genProg x S) (k + 1) (.enum n.id) = .ok d) {i : EnumItem} (hi : i ∈ n.items) :
    ∃ d', newVal rt (genProg x S) k (genNew n i).new = .ok d' := by
  obtain ⟨e, -, hc⟩ := enum_class hS hN hn
  simp only [newVal, hc] at h
  split at h
  · simp only [bind, Except.bind] at h
    split at h
    · cases h
    · next vs hvs =>
      obtain ⟨b, hb⟩ := each_ok_inv hvs (n.id ++ i.id, x.camel i.id, genNew n i) (List.mem_map.2 ⟨i, hi, rfl⟩)
      simp only [evalPayload] at hb
      split at hb
      · cases hd : newVal rt (genProg x S) k (genNew n i).new with
        | ok d' => exact ⟨d', rfl⟩
        | error e => rw [hd] at hb; cases hb
      · cases hb
  · cases h

/-- A factory returns only if its type is built of finitely many others. -/
theorem built_of_returns (hS : Plain S) (hN : DartNamed x S) : ∀ (k : Nat) (id : String) (d : Val), id ∈ typeNames S →
    newVal rt (genProg x S) k (.factory id) = .ok d → Built S id := by
  intro k
  induction k using Nat.strongRecOn with
  | ind k ih =>
    intro id d hid h
    have hnd : (typeNames S).Nodup := (List.nodup_append.1 (classes_nodup hN)).1
    cases k with
    | zero => cases h
    | succ k =>
      rcases typeNames_mem hid with ⟨n, hn, rfl⟩ | ⟨n, hn, rfl⟩
      · refine .mk _ (fun m hm he => absurd he.symm (struct_enum_ne hnd hn hm)) (fun e he hen t ht htn => ?_)
        have : e = .struct n := by
          cases e with
          | struct m => simp only [declName, Option.some.injEq] at hen; rw [struct_unique hnd he hn hen]
          | enum m =>
            simp only [declName, Option.some.injEq] at hen
            exact absurd hen.symm (struct_enum_ne hnd hn he)
          | _ => simp [declName] at hen
        subst this
        simp only [directTypes, fieldsOf, List.map_map, List.mem_map, Function.comp] at ht
        obtain ⟨f, hf, hft⟩ := ht
        simp only [newVal, struct_class hS hN hn] at h
        have he : (genStructClass x n).fields.isEmpty = false := by
          cases hh : n.fields with
          | nil => simp [hh] at hf
          | cons a b => simp [genStructClass, hh]
        rw [he] at h
        cases k with
        | zero => cases h
        | succ k =>
          obtain ⟨d', hd'⟩ := class_fields (struct_class hS hN hn) h hf hft
          exact ih k (by omega) t d' htn hd'
      · have key : ∃ k' d, k = k' + 1 ∧ newVal rt (genProg x S) (k' + 1) (.enum n.id) = .ok d := by
          obtain ⟨e, -, hc⟩ := enum_class hS hN hn
          simp only [newVal, enum_not_struct hS hN hn, hc] at h
          cases k with
          | zero => cases h
          | succ k => exact ⟨k, d, rfl, h⟩
        obtain ⟨k', d1, rfl, h1⟩ := key
        have hpay : ∀ i ∈ n.items, ((payload i = [] → ∃ p id, i = .empty p id)) ∧
            ∀ f ∈ payload i, ∀ t, f.2 = .other t → t ∈ typeNames S → Built S t := by
          intro i hi
          obtain ⟨d2, h2⟩ := enum_payloads hS hN hn h1 hi
          have hc := variant_class hS hN hn hi
          have hf : ∀ f ∈ payload i, ∀ t, f.2 = .other t →
              newVal rt (genProg x S) k' (.createDefault (n.id ++ i.id)) = .ok d2 → t ∈ typeNames S → Built S t := by
            intro f hf t ht h2 htn
            have : f.2 ∈ (enumItemStruct n i).fields.map (·.typeId) := by
              rw [itemStruct_types n i]; exact List.mem_map.2 ⟨f, hf, rfl⟩
            obtain ⟨g, hg, hgt⟩ := List.mem_map.1 this
            cases k' with
            | zero => cases h2
            | succ k' =>
              rw [← itemStruct_id n i] at h2 hc
              obtain ⟨d', hd'⟩ := class_fields hc h2 hg (hgt.trans ht)
              exact ih k' (by omega) t d' htn hd'
          have hz : newVal rt (genProg x S) k' (.createDefault (n.id ++ i.id)) = .ok d2 →
              (enumItemStruct n i).fields ≠ [] := by
            intro h2 he
            cases k' with
            | zero => cases h2
            | succ k' => simp [newVal, hc, genStructClass, he] at h2
          cases i with
          | empty p id => exact ⟨fun _ => ⟨p, id, rfl⟩, by simp [payload]⟩
          | tuple p id vs =>
            refine ⟨fun he => absurd ?_ (hz h2), fun f hfm t ht => hf f hfm t ht h2⟩
            have := itemStruct_types n (.tuple p id vs)
            rw [he] at this
            simpa using this
          | struct p id fs =>
            refine ⟨fun he => absurd ?_ (hz h2), fun f hfm t ht => hf f hfm t ht h2⟩
            have := itemStruct_types n (.struct p id fs)
            rw [he] at this
            simpa using this
        refine .mk _ (fun m hm he => ?_) (fun e he hen t ht htn => ?_)
        · have := enum_unique hnd hm hn he
          subst this
          exact fun i hi => (hpay i hi).1
        · have : e = .enum n := by
            cases e with
            | struct m =>
              simp only [declName, Option.some.injEq] at hen
              exact absurd hen (struct_enum_ne hnd he hn)
            | enum m => simp only [declName, Option.some.injEq] at hen; rw [enum_unique hnd he hn hen]
            | _ => simp [declName] at hen
          subst this
          simp only [directTypes, List.mem_flatMap, List.mem_map] at ht
          obtain ⟨i, hi, f, hf, hft⟩ := ht
          exact (hpay i hi).2 f hf t hft htn

end TPB.Dart
