/- Reading: the emitted Dart codecs read back the wire layout, into new and into existing objects. -/
import Verif.Proofs.DartNew
namespace TPB.Dart
open Spec DartGen

variable {x : Ext} {S : List ASTNode} {rt : Runtime}

theorem joinStr_eq (sep : String) : ∀ ss : List String, joinStr sep ss = sep.intercalate ss
  | [] => by simp [joinStr]
  | [s] => by simp [joinStr]
  | s :: t :: ts => by rw [joinStr, joinStr_eq sep (t :: ts), String.intercalate_cons_cons]

/-! ### Types as the codecs see them -/

theorem elem_eq (t : TypeId) : classPrefix t = dartElem t := by cases t <;> rfl

mutual
theorem text_eq : ∀ t : TypeId, (genTy t).render = dartText t
  | .integer _ _ _ => rfl
  | .number _ _ => rfl
  | .bool _ => rfl
  | .char _ => rfl
  | .other _ => rfl
  | .generic id gs => by
    rw [genTy, Ty.render, dartText, texts_eq gs, joinStr_eq]; rfl
theorem texts_eq : ∀ ts : List TypeId, renderTys (genTys ts) = dartTexts ts
  | [] => rfl
  | t :: ts => by rw [genTys, renderTys, dartTexts, text_eq t, texts_eq ts]
end

theorem genericName_eq (c : String) (gs : List TypeId) : genericName c (gs.map genTy) = dartGeneric c gs := by
  rw [genericName, dartGeneric, ← texts_eq, ← genTys_eq, renderTys_eq, joinStr_eq]

theorem view_builtin {t : TypeId} {p : String} (h : builtin? (dartView t) = some p) :
    p ≠ "u32" ∧ genRead t = .prim p ∧ (∀ a, genReadEmplace t a = .assign a (.prim p)) ∧
      (∀ k a, genWrite k t a = .prim p a) ∧ ∀ k, genSkip k t = .prim p := by
  cases t with
  | integer id size s =>
    simp only [dartView, dartPrim, builtin?, Option.some.injEq] at h
    subst h
    refine ⟨?_, rfl, fun _ => rfl, fun _ _ => rfl, fun _ => rfl⟩
    split
    · decide
    · split <;> decide
  | number id size =>
    simp only [dartView, dartPrim, builtin?, Option.some.injEq] at h
    subst h
    refine ⟨?_, rfl, fun _ => rfl, fun _ _ => rfl, fun _ => rfl⟩
    split <;> decide
  | bool id =>
    simp only [dartView, builtin?, Option.some.injEq] at h
    subst h
    exact ⟨by decide, rfl, fun _ => rfl, fun _ _ => rfl, fun _ => rfl⟩
  | char id =>
    simp only [dartView, builtin?, Option.some.injEq] at h
    subst h
    exact ⟨by decide, rfl, fun _ => rfl, fun _ _ => rfl, fun _ => rfl⟩
  | other id => simp [dartView, builtin?] at h
  | generic c gs =>
    simp only [dartView] at h
    split at h
    · split at h <;> simp [builtin?] at h
    · simp [builtin?] at h

theorem view_generic {t : TypeId} {c : String} {gs : List TypeId} (h : dartView t = .generic c gs) :
    ∃ g, t = .generic "Vec" [g] ∧ c = "Vec" ∧ gs = [.other (dartElem g)] := by
  cases t with
  | generic c' gs' =>
    simp only [dartView] at h
    split at h
    · rename_i g
      split at h
      · rename_i e
        simp only [TypeId.generic.injEq] at h
        exact ⟨g, by rw [e], h.1.symm, h.2.symm⟩
      · simp at h
    · simp at h
  | _ => simp [dartView] at h

/-- A generic library type. -/
theorem view_libGeneric {c : String} {gs : List TypeId} {id : String} (h : dartView (.generic c gs) = .other id)
    (k : Kind) : genCodecG k c gs = .generic k c (gs.map genTy) ∧ id = dartGeneric c gs := by
  simp only [dartView] at h
  split at h
  · split at h
    · simp at h
    · rename_i hne
      exact ⟨by simp [genCodecG, hne], by simpa using h.symm⟩
  · rename_i hne
    refine ⟨?_, by simpa using h.symm⟩
    unfold genCodecG
    split
    · rename_i g; exact absurd rfl (hne g)
    · rfl

theorem libGeneric_free {c : String} {gs : List TypeId} {id : String} (h : dartView (.generic c gs) = .other id)
    (hl : LibraryFree S (.generic c gs)) : c ∉ typeNames S ++ variantClasses S := by
  simp only [dartView] at h
  simp only [LibraryFree] at hl
  split at h
  · split at h
    · simp at h
    · rename_i hne
      simpa only [if_neg hne] using hl
  · rename_i hne
    split at hl
    · rename_i g; exact absurd rfl (hne g)
    · exact hl

theorem wire_prim {p : String} {v : Val} {b : Bytes} (h : rt.wire.prim p v = some b) :
    ∃ t, dartPrims.lookup (if p = "u32" then "Int32" else p) = some t ∧ LeafVal t v ∧
      rt.writeP (if p = "u32" then "Int32" else p) v = some b := by
  simp only [Runtime.wire] at h
  split at h
  · rename_i t ht
    split at h
    · rename_i hv; exact ⟨t, ht, hv, h⟩
    · simp at h
  · simp at h

theorem read_prim (hrt : rt.Lawful) {p : String} {v : Val} {b : Bytes} (h : rt.wire.prim p v = some b)
    (r : Bytes) : rt.readP (if p = "u32" then "Int32" else p) (b ++ r) = some (v, r) := by
  obtain ⟨t, h1, h2, h3⟩ := wire_prim h
  exact hrt.prim _ t v b r h1 h2 h3

theorem read_tag (hrt : rt.Lawful) {v : Val} {b : Bytes} (h : rt.wire.prim "u32" v = some b)
    (r : Bytes) : rt.readP "Int32" (b ++ r) = some (v, r) := read_prim hrt h r

/-! ### Objects -/

theorem _root_.TPB.Spec.DRep.length_eq {T : List ASTNode} {ts : List TypeId} {vs ds : List Val} (h : DRep x T ts vs ds) :
    ts.length = vs.length ∧ ts.length = ds.length := by
  induction h with
  | nil => exact ⟨rfl, rfl⟩
  | leaf => simp only [List.length_cons]; omega
  | struct => simp only [List.length_cons]; omega
  | enum => simp only [List.length_cons]; omega
  | list => simp only [List.length_cons]; omega
  | ext => simp only [List.length_cons]; omega

theorem _root_.TPB.Spec.DRep.cons {T : List ASTNode} {t : TypeId} {v d : Val} {ts : List TypeId} {vs ds : List Val}
    (h1 : DRep x T [t] [v] [d]) (h2 : DRep x T ts vs ds) : DRep x T (t :: ts) (v :: vs) (d :: ds) := by
  cases h1 with
  | leaf _ _ _ _ _ h _ => exact .leaf _ _ _ _ _ h h2
  | struct n fvs fds _ _ _ h h' _ => exact .struct n fvs fds _ _ _ h h' h2
  | enum n i pvs pds pls _ _ _ h1 h3 h4 h5 h6 _ => exact .enum n i pvs pds pls _ _ _ h1 h3 h4 h5 h6 h2
  | list e s vis dis _ _ _ h _ => exact .list e s vis dis _ _ _ h h2
  | ext id v _ _ _ h _ => exact .ext id v _ _ _ h h2

theorem _root_.TPB.Spec.DRep.head {T : List ASTNode} {t : TypeId} {v d : Val} {ts : List TypeId} {vs ds : List Val}
    (h : DRep x T (t :: ts) (v :: vs) (d :: ds)) : DRep x T [t] [v] [d] ∧ DRep x T ts vs ds := by
  cases h with
  | leaf _ _ _ _ _ h h2 => exact ⟨.leaf _ _ _ _ _ h .nil, h2⟩
  | struct n fvs fds _ _ _ h h' h2 => exact ⟨.struct n fvs fds _ _ _ h h' .nil, h2⟩
  | enum n i pvs pds pls _ _ _ h1 h3 h4 h5 h6 h2 => exact ⟨.enum n i pvs pds pls _ _ _ h1 h3 h4 h5 h6 .nil, h2⟩
  | list e s vis dis _ _ _ h h2 => exact ⟨.list e s vis dis _ _ _ h .nil, h2⟩
  | ext id v _ _ _ h h2 => exact ⟨.ext id v _ _ _ h .nil, h2⟩

/-- An object that represents a value can be held by a variable of the type. -/
theorem _root_.TPB.Spec.DRep.obj {T : List ASTNode} {ts : List TypeId} {vs ds : List Val} (h : DRep x T ts vs ds) :
    DObj x T ts ds := by
  induction h with
  | nil => exact .nil
  | leaf t v ts vs ds h _ ih =>
    exact .any _ _ _ _ (fun id _ e => by subst e; simp [builtin?] at h) ih
  | struct n fvs fds ts vs ds h _ _ ih1 ih2 => exact .struct n fds _ _ h ih1 ih2
  | enum n i pvs pds pls ts vs ds h1 h2 _ _ h5 _ _ ih2 => exact .enum n _ pls _ _ h1 h2 h5 ih2
  | list e s vis dis ts vs ds _ _ _ ih2 => exact .any _ _ _ _ (by simp) ih2
  | ext id v ts vs ds h _ ih => exact .any _ _ _ _ (fun i hi e => by cases e; exact h hi) ih

theorem lookup_mid {pre rest : List (String × Val)} {f : String} {o : Val} (h : f ∉ pre.map (·.1)) :
    (pre ++ (f, o) :: rest).lookup f = some o := by
  induction pre with
  | nil => simp
  | cons p pre ih =>
    obtain ⟨a, b⟩ := p
    simp only [List.map_cons, List.mem_cons, not_or] at h
    rw [List.cons_append, List.lookup_cons]
    have : (f == a) = false := by simpa using h.1
    simp only [this, ih h.2]

theorem map_set_id {l : List (String × Val)} {f : String} {v : Val} (h : f ∉ l.map (·.1)) :
    l.map (fun p => if p.1 = f then (f, v) else p) = l := by
  induction l with
  | nil => rfl
  | cons p l ih =>
    simp only [List.map_cons, List.mem_cons, not_or] at h
    rw [List.map_cons, ih h.2, if_neg (fun e => h.1 e.symm)]

theorem getField_mid {c : String} {pre rest : List (String × Val)} {f : String} {o : Val}
    (h : f ∉ pre.map (·.1)) : getField f (.struct c (pre ++ (f, o) :: rest)) = .ok o := by
  simp [getField, lookup_mid h, orElse]

theorem setField_mid {c : String} {pre rest : List (String × Val)} {f : String} {o v : Val}
    (h : f ∉ pre.map (·.1)) (h' : f ∉ rest.map (·.1)) :
    setField f v (.struct c (pre ++ (f, o) :: rest)) = .ok (.struct c (pre ++ (f, v) :: rest)) := by
  simp only [setField, lookup_mid h, Option.isSome_some, if_true, List.map_append, List.map_cons,
    map_set_id h, map_set_id h']

/-! ### Emplace statements -/

/-- Read values of the given types into places that hold `olds`. -/
def emplMany (rt : Runtime) (P : Prog) (k : Nat) : List TypeId → List Val → Bytes → Res (List Val × Bytes)
  | t :: ts, o :: os, bs => do
    let (v, bs) ← emplT rt P k t o bs
    let (vs, bs) ← emplMany rt P k ts os bs
    .ok (v :: vs, bs)
  | _, _, bs => .ok ([], bs)

theorem evalEmplS_acc (R : Readers) (old : Val) (t : TypeId) (a b : Acc) (bs : Bytes) :
    evalEmplS rt R old (genReadEmplace t a) bs = evalEmplS rt R old (genReadEmplace t b) bs := by
  cases t <;> simp only [genReadEmplace] <;> try rfl
  split <;> rfl

theorem genReadEmplace_acc (t : TypeId) (a : Acc) : (genReadEmplace t a).acc = a := by
  cases t <;> simp only [genReadEmplace] <;> try rfl
  split <;> rfl

theorem evalEmpls_gen (P : Prog) (k : Nat) (c : String) : ∀ (fs : List StructField)
    (pre : List (String × Val)) (olds : List Val) (bs : Bytes),
    (pre.map (·.1) ++ fs.map (fun f => x.camel f.name)).Nodup → olds.length = fs.length →
    evalEmpls rt (readers rt P k) (fs.map (fun f => genReadEmplace f.typeId (.field (x.camel f.name))))
      (.struct c (pre ++ (fs.map (fun f => x.camel f.name)).zip olds)) bs
    = (do
      let (vs, bs) ← emplMany rt P k (fs.map (·.typeId)) olds bs
      .ok (.struct c (pre ++ (fs.map (fun f => x.camel f.name)).zip vs), bs))
  | [], pre, olds, bs, _, _ => by simp [evalEmpls, emplMany, bind, Except.bind]
  | f :: fs, pre, [], bs, _, hl => by simp at hl
  | f :: fs, pre, o :: olds, bs, hn, hl => by
    have hn' := hn
    simp only [List.map_cons] at hn
    rw [List.nodup_append] at hn
    obtain ⟨h1, h2, h3⟩ := hn
    rw [List.nodup_cons] at h2
    have hpre : x.camel f.name ∉ pre.map (·.1) := fun hm => h3 _ hm _ (by simp) rfl
    have hrest : ∀ os : List Val, x.camel f.name ∉ ((fs.map (fun f => x.camel f.name)).zip os).map (·.1) := by
      intro os hm
      obtain ⟨p, hp, e⟩ := List.mem_map.1 hm
      exact h2.1 (e ▸ (List.of_mem_zip hp).1)
    simp only [List.map_cons, evalEmpls, genReadEmplace_acc, List.zip_cons_cons]
    rw [getField_mid hpre]
    simp only [bind, Except.bind, emplMany]
    rw [evalEmplS_acc _ _ _ _ (.var "model")]
    simp only [emplT]
    cases he : evalEmplS rt (readers rt P k) o (genReadEmplace f.typeId (.var "model")) bs with
    | error e => rfl
    | ok p =>
      obtain ⟨v, bs'⟩ := p
      simp only
      rw [setField_mid hpre (hrest olds)]
      simp only
      have := evalEmpls_gen P k c fs (pre ++ [(x.camel f.name, v)]) olds bs' (by simpa using hn') (by simpa using hl)
      simp only [List.append_assoc, List.cons_append, List.nil_append] at this
      rw [this]
      simp only [bind, Except.bind]
      cases emplMany rt P k (fs.map (·.typeId)) olds bs' with
      | error e => rfl
      | ok q => rfl

theorem emplMany_length (P : Prog) (k : Nat) : ∀ (ts : List TypeId) (os : List Val) (bs : Bytes) (vs : List Val)
    (r : Bytes), ts.length = os.length → emplMany rt P k ts os bs = .ok (vs, r) → vs.length = ts.length
  | [], os, bs, vs, r, _, h => by simp [emplMany] at h; simp [← h.1]
  | t :: ts, [], bs, vs, r, hl, _ => by simp at hl
  | t :: ts, o :: os, bs, vs, r, hl, h => by
    simp only [emplMany, bind, Except.bind] at h
    split at h
    · simp at h
    · rename_i p hp
      split at h
      · simp at h
      · rename_i q hq
        simp only [Except.ok.injEq, Prod.mk.injEq] at h
        rw [← h.1, List.length_cons, List.length_cons,
          emplMany_length P k ts os p.2 q.1 q.2 (by simpa using hl) hq]

theorem evalReads_length (P : Prog) (k : Nat) : ∀ (es : List ReadE) (bs : Bytes) (vs : List Val)
    (r : Bytes), evalReads rt (readers rt P k) es bs = .ok (vs, r) → vs.length = es.length
  | [], bs, vs, r, h => by simp [evalReads] at h; simp [← h.1]
  | t :: ts, bs, vs, r, h => by
    simp only [evalReads, bind, Except.bind] at h
    split at h
    · simp at h
    · rename_i p hp
      split at h
      · simp at h
      · rename_i q hq
        simp only [Except.ok.injEq, Prod.mk.injEq] at h
        rw [← h.1, List.length_cons, List.length_cons, evalReads_length P k ts p.2 q.1 q.2 hq]

/-! ### Reading one declared value -/

theorem read_struct (hS : Plain S) (hN : DartNamed x S) {n : StructNode} (hn : .struct n ∈ S) (k : Nat)
    (bs : Bytes) :
    (readers rt (genProg x S) (k + 1)).read (.plain .into n.id) bs = (do
      let (vs, bs) ← evalReads rt (readers rt (genProg x S) k) ((n.fields.map (·.typeId)).map genRead) bs
      .ok (.struct n.id ((dartFieldNames x n).zip vs), bs)) := by
  obtain ⟨h1, h2⟩ := hN.fields n hn
  have e1 : (n.fields.map (fun f => (x.camel f.name, genRead f.typeId))).map (·.1) = dartFieldNames x n := by
    simp [dartFieldNames, Function.comp_def]
  have e2 : (n.fields.map (fun f => (x.camel f.name, genRead f.typeId))).map (·.2)
      = (n.fields.map (·.typeId)).map genRead := by simp [Function.comp_def]
  have e3 : n.fields.map (fun f => (x.camel f.name, x.camel f.name)) = (dartFieldNames x n).map (fun f => (f, f)) := by
    simp [dartFieldNames, Function.comp_def]
  simp only [readers, codec_struct_into hS hN hn, evalRead, genStructInto]
  rw [e1, e2, e3]
  rw [if_neg (by simp [h1, h2])]
  simp only [struct_class hS hN hn]
  cases hr : evalReads rt (readers rt (genProg x S) k) ((n.fields.map (·.typeId)).map genRead) bs with
  | error e => rfl
  | ok p =>
    obtain ⟨vs, bs'⟩ := p
    have hlen : (dartFieldNames x n).length = vs.length := by
      rw [evalReads_length _ _ _ _ _ _ hr]; simp [dartFieldNames]
    simp only [bind, Except.bind]
    have e4 : each (fun a : String × String => (orElse .stuck (((dartFieldNames x n).zip vs).lookup a.2)).map
        (fun v => (a.1, v))) ((dartFieldNames x n).map (fun f => (f, f)))
        = .ok ((dartFieldNames x n).zip vs) := by
      have key : ∀ l : List String, each (fun a : String × String =>
          (orElse .stuck (((dartFieldNames x n).zip vs).lookup a.2)).map (fun v => (a.1, v))) (l.map (fun f => (f, f)))
          = each (fun a => (orElse .stuck (((dartFieldNames x n).zip vs).lookup a)).map (fun v => (a, v))) l := by
        intro l
        induction l with
        | nil => rfl
        | cons a l ih => simp only [List.map_cons, each, ih]
      rw [key, lookup_zip_each (fun f v => (f, v)) _ _ h1 hlen]
      rfl
    rw [e4]
    simp only
    rw [show (genStructClass x n).ctor = dartFieldNames x n from rfl, mkRecord_zip _ _ h1 hlen]
    simp [genStructClass, dartFieldNames, Function.comp_def]

/-- The emplace codec of a struct or of a variant's payload. -/
theorem empl_class {n : StructNode}
    (hc : (genProg x S).codec? (n.id ++ Kind.emplace.suffix) = some (genStructEmplace x n))
    (hn : (dartFieldNames x n).Nodup) (k : Nat) (olds : List Val) (hl : olds.length = n.fields.length)
    (bs : Bytes) :
    (readers rt (genProg x S) (k + 1)).empl (.plain .emplace n.id) (.struct n.id ((dartFieldNames x n).zip olds)) bs
    = (do
      let (vs, bs) ← emplMany rt (genProg x S) k (n.fields.map (·.typeId)) olds bs
      .ok (.struct n.id ((dartFieldNames x n).zip vs), bs)) := by
  simp only [readers, hc, evalEmpl, genStructEmplace, isClass, decide_true, if_true]
  exact evalEmpls_gen (x := x) (genProg x S) k n.id n.fields [] olds bs hn hl

theorem empl_variant (hS : Plain S) (hN : DartNamed x S) {n : EnumNode} (hn : .enum n ∈ S) {i : EnumItem}
    (hi : i ∈ n.items) (k : Nat) (olds : List Val) (hl : olds.length = (payload i).length) (bs : Bytes) :
    (readers rt (genProg x S) (k + 1)).empl (variantCodec n i) (payloadObj x n i olds) bs = (do
      let (vs, bs) ← emplMany rt (genProg x S) k ((payload i).map (·.2)) olds bs
      .ok (payloadObj x n i vs, bs)) := by
  have h1 : dartFieldNames x (enumItemStruct n i) = dartPayloadNames x i := itemStruct_names n i
  have h2 := empl_class (x := x) (S := S) (rt := rt) (n := enumItemStruct n i)
    (by rw [itemStruct_id]; exact codec_variant hS hN hn hi)
    (by rw [h1]; exact hN.payloads n hn i hi) k olds
    (by
      rw [hl]
      have := congrArg List.length (itemStruct_types n i)
      simpa using this.symm) bs
  rw [itemStruct_id, h1, itemStruct_types] at h2
  exact h2

theorem find_case {α : Type} (l : List α) (pos : α → Nat) (hd : (l.map pos).Nodup) {a : α} (ha : a ∈ l) :
    l.find? (fun b => tagIs (.int (pos a)) (pos b)) = some a := by
  rw [← Rust.find?_key_nat pos l hd a ha]
  congr 1
  funext b
  have : ((pos a : Int) = (pos b : Int)) ↔ pos a = pos b := Int.ofNat_inj
  simp only [tagIs, this]

theorem find_readCase {n : EnumNode} (hd : (n.items.map (·.position)).Nodup) {i : EnumItem} (hi : i ∈ n.items) :
    (n.items.map (genReadCase x n)).find? (fun a => tagIs (.int i.position) a.pos) = some (genReadCase x n i) := by
  rw [List.find?_map]
  have := find_case n.items (·.position) hd hi
  rw [show ((fun a : ReadCase => tagIs (.int i.position) a.pos) ∘ genReadCase x n)
    = fun j => tagIs (.int i.position) j.position from rfl, this]
  rfl

/-- An enum object with the payload of one variant singled out. -/
theorem enumObj_split (n : EnumNode) (v : Val) (l1 l2 : List EnumItem) (i : EnumItem) (p1 p2 : List (List Val))
    (p : List Val) (hl : l1.length = p1.length) (hn : n.items = l1 ++ i :: l2) :
    enumObj x n v ((n.items.zip (p1 ++ p :: p2)).map (fun p => payloadObj x n p.1 p.2))
    = .struct n.id ((("value", v) :: (l1.map (fun i => x.camel i.id)).zip
          ((l1.zip p1).map (fun p => payloadObj x n p.1 p.2)))
        ++ (x.camel i.id, payloadObj x n i p) :: (l2.map (fun i => x.camel i.id)).zip
          ((l2.zip p2).map (fun p => payloadObj x n p.1 p.2))) := by
  rw [enumObj, hn, List.zip_append hl]
  simp only [List.zip_cons_cons, List.map_append, List.map_cons, List.cons_append]
  rw [List.zip_append (by simp [hl])]
  simp

theorem split_mem {items : List EnumItem} {pls : List (List Val)} (hl : pls.length = items.length)
    {i : EnumItem} (hi : i ∈ items) :
    ∃ l1 l2 p1 p p2, items = l1 ++ i :: l2 ∧ pls = p1 ++ p :: p2 ∧ l1.length = p1.length := by
  obtain ⟨l1, l2, rfl⟩ := List.append_of_mem hi
  simp only [List.length_append, List.length_cons] at hl
  refine ⟨l1, l2, pls.take l1.length, pls[l1.length]'(by omega), pls.drop (l1.length + 1), rfl, ?_, ?_⟩
  · rw [List.getElem_cons_drop, List.take_append_drop]
  · simp; omega

/-- The body of the `case` of a variant. -/
theorem readCase_eval (hS : Plain S) (hN : DartNamed x S) {n : EnumNode} (hn : .enum n ∈ S) (v : Val)
    (l1 l2 : List EnumItem) (i : EnumItem) (p1 p2 : List (List Val)) (p : List Val)
    (hl : l1.length = p1.length) (hi : n.items = l1 ++ i :: l2) (hp : p.length = (payload i).length) (k : Nat)
    (bs : Bytes) :
    evalReadCase (genProg x S) (readers rt (genProg x S) (k + 1)) n.id (genReadCase x n i)
      (enumObj x n v ((n.items.zip (p1 ++ p :: p2)).map (fun p => payloadObj x n p.1 p.2))) bs
    = (do
      let (ds, bs) ← emplMany rt (genProg x S) k ((payload i).map (·.2)) p bs
      .ok (enumObj x n (variantConst x n i)
        ((n.items.zip (p1 ++ ds :: p2)).map (fun p => payloadObj x n p.1 p.2)), bs)) := by
  have him : i ∈ n.items := by simp [hi]
  obtain ⟨d, -, he⟩ := enum_class hS hN hn
  have hcn := hN.variants n hn
  rw [hi] at hcn
  simp only [List.map_append, List.map_cons, ← List.cons_append] at hcn
  rw [List.nodup_append] at hcn
  obtain ⟨hc1, hc2, hc3⟩ := hcn
  rw [List.nodup_cons] at hc2
  have hval : ∀ q : List (List Val), "value" ∉ ((l1.map (fun i => x.camel i.id)).zip
      ((l1.zip q).map (fun p => payloadObj x n p.1 p.2))).map (·.1) := by
    intro q hm
    obtain ⟨p, hp, e⟩ := List.mem_map.1 hm
    rw [List.nodup_cons] at hc1
    exact hc1.1 (e ▸ (List.of_mem_zip hp).1)
  have hpre : x.camel i.id ∉ (("value", variantConst x n i) :: (l1.map (fun i => x.camel i.id)).zip
      ((l1.zip p1).map (fun p => payloadObj x n p.1 p.2))).map (·.1) := by
    intro hm
    simp only [List.map_cons, List.mem_cons] at hm
    rcases hm with hm | hm
    · exact hc3 "value" (by simp) (x.camel i.id) (by simp) hm.symm
    · obtain ⟨p, hp, e⟩ := List.mem_map.1 hm
      exact hc3 _ (List.mem_cons_of_mem _ (List.of_mem_zip hp).1) (x.camel i.id) (by simp) e
  have hrest : x.camel i.id ∉ ((l2.map (fun i => x.camel i.id)).zip
      ((l2.zip p2).map (fun p => payloadObj x n p.1 p.2))).map (·.1) := by
    intro hm
    obtain ⟨p, hp, e⟩ := List.mem_map.1 hm
    exact hc2.1 (e ▸ (List.of_mem_zip hp).1)
  have hvr : "value" ∉ (((l1.map (fun i => x.camel i.id)).zip
      ((l1.zip p1).map (fun p => payloadObj x n p.1 p.2))) ++ (x.camel i.id, payloadObj x n i p) ::
        (l2.map (fun i => x.camel i.id)).zip ((l2.zip p2).map (fun p => payloadObj x n p.1 p.2))).map (·.1) := by
    rw [List.map_append, List.mem_append, not_or]
    refine ⟨hval p1, ?_⟩
    simp only [List.map_cons, List.mem_cons, not_or]
    refine ⟨fun e => hc3 "value" (by simp) _ (by simp) e, fun hm => ?_⟩
    obtain ⟨q, hq, e⟩ := List.mem_map.1 hm
    exact hc3 "value" (by simp) _ (List.mem_cons_of_mem _ (List.of_mem_zip hq).1) e.symm
  have hconst : (genReadCase x n i).const ∈ (genEnumClass x n d.id).consts :=
    List.mem_map.2 ⟨i, him, rfl⟩
  rw [enumObj_split n v l1 l2 i p1 p2 p hl hi]
  simp only [evalReadCase, he, if_pos hconst]
  have hset := setField_mid (c := n.id) (pre := []) (f := "value") (o := v)
    (v := .enum (n.id ++ "Value") (genReadCase x n i).const []) (by simp) hvr
  simp only [List.nil_append] at hset
  rw [List.cons_append, hset]
  simp only [bind, Except.bind]
  rw [show Val.enum (n.id ++ "Value") (genReadCase x n i).const [] = variantConst x n i from rfl,
    show (genReadCase x n i).field = x.camel i.id from rfl,
    show (genReadCase x n i).codec = variantCodec n i from rfl, ← List.cons_append, getField_mid hpre]
  simp only
  rw [empl_variant hS hN hn him k p hp]
  cases hem : emplMany rt (genProg x S) k ((payload i).map (·.2)) p bs with
  | error e => rfl
  | ok q =>
    obtain ⟨ds, bs'⟩ := q
    simp only [bind, Except.bind]
    rw [setField_mid hpre hrest]
    simp only
    rw [enumObj_split n (variantConst x n i) l1 l2 i p1 p2 ds hl hi]

/-! ### All values -/

/-- Reading a value of type `t` from its bytes `b`, into a new object. -/
def ReadOne (x : Ext) (rt : Runtime) (S : List ASTNode) (t : TypeId) (v : Val) (b : Bytes) : Prop :=
  ∃ d, DRep x (dartSchema S) [dartView t] [v] [d] ∧
    ∃ N, ∀ k, N ≤ k → ∀ r, readT rt (genProg x S) k t (b ++ r) = .ok (d, r)

/-- Reading a value of type `t` from its bytes `b`, into any object of the type. -/
def EmplOne (x : Ext) (rt : Runtime) (S : List ASTNode) (t : TypeId) (v : Val) (b : Bytes) : Prop :=
  ∀ old, DObj x (dartSchema S) [dartView t] [old] → ∃ d, DRep x (dartSchema S) [dartView t] [v] [d] ∧
    ∃ N, ∀ k, N ≤ k → ∀ r, emplT rt (genProg x S) k t old (b ++ r) = .ok (d, r)

/-- The same for several values. -/
def ReadMany (x : Ext) (rt : Runtime) (S : List ASTNode) (ts : List TypeId) (vs : List Val) (b : Bytes) : Prop :=
  ∃ ds, DRep x (dartSchema S) (ts.map dartView) vs ds ∧ ∃ N, ∀ k, N ≤ k → ∀ r,
    evalReads rt (readers rt (genProg x S) k) (ts.map genRead) (b ++ r) = .ok (ds, r)

def EmplMany (x : Ext) (rt : Runtime) (S : List ASTNode) (ts : List TypeId) (vs : List Val) (b : Bytes) : Prop :=
  ∀ olds, DObj x (dartSchema S) (ts.map dartView) olds → ∃ ds, DRep x (dartSchema S) (ts.map dartView) vs ds ∧
    ∃ N, ∀ k, N ≤ k → ∀ r, emplMany rt (genProg x S) k ts olds (b ++ r) = .ok (ds, r)

theorem readMany_cons {t : TypeId} {v : Val} {b : Bytes} {ts : List TypeId} {vs : List Val} {bs : Bytes}
    (h1 : ReadOne x rt S t v b) (h2 : ReadMany x rt S ts vs bs) : ReadMany x rt S (t :: ts) (v :: vs) (b ++ bs) := by
  obtain ⟨d, hd, N1, h3⟩ := h1
  obtain ⟨ds, hds, N2, h4⟩ := h2
  refine ⟨d :: ds, hd.cons hds, max N1 N2, fun k hk r => ?_⟩
  have h3 := h3 k (by omega) (bs ++ r)
  rw [readT] at h3
  rw [List.map_cons, evalReads, List.append_assoc, h3]
  simp only [bind, Except.bind]
  rw [h4 k (by omega)]

theorem emplMany_cons {t : TypeId} {v : Val} {b : Bytes} {ts : List TypeId} {vs : List Val} {bs : Bytes}
    (h1 : EmplOne x rt S t v b) (h2 : EmplMany x rt S ts vs bs) : EmplMany x rt S (t :: ts) (v :: vs) (b ++ bs) := by
  intro olds ho
  cases olds with
  | nil => exact absurd ho.length_eq (by simp)
  | cons o olds =>
    obtain ⟨ho1, ho2⟩ := ho.head
    obtain ⟨d, hd, N1, h3⟩ := h1 o ho1
    obtain ⟨ds, hds, N2, h4⟩ := h2 olds ho2
    refine ⟨d :: ds, hd.cons hds, max N1 N2, fun k hk r => ?_⟩
    rw [emplMany, List.append_assoc, h3 k (by omega)]
    simp only [bind, Except.bind]
    rw [h4 k (by omega)]

theorem leaf_one (hrt : rt.Lawful) {t : TypeId} {p : String} {v : Val} {b : Bytes}
    (hp : builtin? (dartView t) = some p) (hw : rt.wire.prim p v = some b) :
    ReadOne x rt S t v b ∧ EmplOne x rt S t v b := by
  obtain ⟨h1, h2, h3, -⟩ := view_builtin hp
  have hrep : DRep x (dartSchema S) [dartView t] [v] [v] := .leaf _ _ _ _ _ (by simp [hp]) .nil
  have hr := read_prim hrt hw
  rw [if_neg h1] at hr
  refine ⟨⟨v, hrep, 0, fun k _ r => ?_⟩, fun old _ => ⟨v, hrep, 0, fun k _ r => ?_⟩⟩
  · simp [readT, h2, evalReadE, hr r, orElse]
  · simp [emplT, h3, evalEmplS, evalReadE, hr r, orElse]

theorem drep_struct {n : StructNode} (hn : .struct n ∈ S) {vs ds : List Val}
    (h : DRep x (dartSchema S) ((n.fields.map (·.typeId)).map dartView) vs ds) :
    DRep x (dartSchema S) [.other n.id] [.struct n.id (named (fieldsOf n) vs)]
      [.struct n.id ((dartFieldNames x n).zip ds)] := by
  have := DRep.struct (x := x) (T := dartSchema S) { n with fields := n.fields.map viewField } vs ds [] [] []
    (mem_view_struct hn) (by rw [fieldsOf_view]; exact h) .nil
  rw [dartFieldNames_view] at this
  rwa [show named (fieldsOf { n with fields := n.fields.map viewField }) vs = named (fieldsOf n) vs by
    simp [named, fieldsOf, viewField, Function.comp_def]] at this

theorem payload_names_view (i : EnumItem) : (payload (viewItem i)).map (·.1) = (payload i).map (·.1) := by
  cases i with
  | empty _ _ => rfl
  | tuple p id vs =>
    rw [viewItem, Rust.tuple_payload_names, Rust.tuple_payload_names]; simp
  | struct _ _ fs => simp [viewItem, payload, viewField, Function.comp_def]

theorem named_payload_view (i : EnumItem) (vs : List Val) : named (payload (viewItem i)) vs = named (payload i) vs := by
  simp only [named, payload_names_view]

theorem drep_enum {n : EnumNode} (hn : .enum n ∈ S) {i : EnumItem} {pvs pds : List Val} {pls : List (List Val)}
    (hl : pls.length = n.items.length) (hm : (i, pds) ∈ n.items.zip pls)
    (hp : DRep x (dartSchema S) (((payload i).map (·.2)).map dartView) pvs pds)
    (h : ∀ p ∈ n.items.zip pls, DObj x (dartSchema S) ((payload (viewItem p.1)).map (·.2)) p.2) :
    DRep x (dartSchema S) [.other n.id] [.enum n.id i.id (named (payload i) pvs)]
      [enumObj x n (variantConst x n i) ((n.items.zip pls).map (fun p => payloadObj x n p.1 p.2))] := by
  have := DRep.enum (x := x) (T := dartSchema S) { n with items := n.items.map viewItem } (viewItem i) pvs pds pls
    [] [] [] (mem_view_enum hn) (by simp [hl])
    (by
      simp only
      rw [List.zip_map_left]
      exact List.mem_map.2 ⟨(i, pds), hm, rfl⟩)
    (by rw [payload_view]; exact hp)
    (mem_zip_view (P := fun i ds => DObj x (dartSchema S) ((payload i).map (·.2)) ds) h) .nil
  rw [enumObj_view, named_payload_view, viewItem_id] at this
  have e : variantConst x { n with items := n.items.map viewItem } (viewItem i) = variantConst x n i := by
    simp [variantConst, viewItem_id]
  rwa [e] at this

theorem filterMap_key_unique {α : Type} {g : α → Option String} : ∀ {l : List α}, (l.filterMap g).Nodup →
    ∀ {a b : α} {k : String}, a ∈ l → b ∈ l → g a = some k → g b = some k → a = b
  | [], _, a, _, _, ha, _, _, _ => by simp at ha
  | c :: l, h, a, b, k, ha, hb, ga, gb => by
    rw [List.filterMap_cons] at h
    rcases List.mem_cons.1 ha with rfl | ha' <;> rcases List.mem_cons.1 hb with rfl | hb'
    · rfl
    · simp only [ga, List.nodup_cons] at h
      exact absurd (List.mem_filterMap.2 ⟨b, hb', gb⟩) h.1
    · simp only [gb, List.nodup_cons] at h
      exact absurd (List.mem_filterMap.2 ⟨a, ha', ga⟩) h.1
    · refine filterMap_key_unique (l := l) ?_ ha' hb' ga gb
      split at h
      · exact h
      · exact (List.nodup_cons.1 h).2

theorem struct_unique (h : (typeNames S).Nodup) {n m : StructNode} (hn : .struct n ∈ S) (hm : .struct m ∈ S)
    (e : n.id = m.id) : n = m := by
  have := filterMap_key_unique h hn hm (k := m.id) (by simp [e]) rfl
  simpa using this

theorem enum_unique (h : (typeNames S).Nodup) {n m : EnumNode} (hn : .enum n ∈ S) (hm : .enum m ∈ S)
    (e : n.id = m.id) : n = m := by
  have := filterMap_key_unique h hn hm (k := m.id) (by simp [e]) rfl
  simpa using this

theorem struct_enum_ne (h : (typeNames S).Nodup) {n : StructNode} {m : EnumNode} (hn : .struct n ∈ S)
    (hm : .enum m ∈ S) : n.id ≠ m.id := by
  intro e
  have := filterMap_key_unique h hn hm (k := m.id) (by simp [e]) rfl
  simp at this

/-- The shape of the objects of a struct. -/
theorem dobj_struct_inv (hN : DartNamed x S) {n : StructNode} (hn : .struct n ∈ S) {old : Val}
    (h : DObj x (dartSchema S) [.other n.id] [old]) :
    ∃ ds, old = .struct n.id ((dartFieldNames x n).zip ds) ∧
      DObj x (dartSchema S) ((n.fields.map (·.typeId)).map dartView) ds := by
  have hnd : (typeNames S).Nodup := (List.nodup_append.1 (classes_nodup hN)).1
  generalize hid : n.id = id at h
  cases h with
  | any _ _ _ _ h _ => exact absurd rfl (h id (by rw [typeNames_view, ← hid]; exact struct_typeName hn))
  | struct m fds _ _ hm h _ =>
    obtain ⟨m', hm', rfl⟩ := view_struct_mem hm
    have : m' = n := struct_unique hnd hm' hn hid.symm
    subst this
    refine ⟨fds, by rw [dartFieldNames_view], ?_⟩
    rwa [fieldsOf_view] at h
  | enum m v pls _ _ hm _ _ _ =>
    obtain ⟨m', hm', rfl⟩ := view_enum_mem hm
    exact absurd hid (struct_enum_ne hnd hn hm' :)

theorem dobj_enum_inv (hN : DartNamed x S) {n : EnumNode} (hn : .enum n ∈ S) {old : Val}
    (h : DObj x (dartSchema S) [.other n.id] [old]) :
    ∃ v pls, old = enumObj x n v ((n.items.zip pls).map (fun p => payloadObj x n p.1 p.2)) ∧
      pls.length = n.items.length ∧
      ∀ p ∈ n.items.zip pls, DObj x (dartSchema S) ((payload (viewItem p.1)).map (·.2)) p.2 := by
  have hnd : (typeNames S).Nodup := (List.nodup_append.1 (classes_nodup hN)).1
  generalize hid : n.id = id at h
  cases h with
  | any _ _ _ _ h _ => exact absurd rfl (h id (by rw [typeNames_view, ← hid]; exact enum_typeName hn))
  | struct m fds _ _ hm h _ =>
    obtain ⟨m', hm', rfl⟩ := view_struct_mem hm
    exact absurd hid.symm (struct_enum_ne hnd hm' hn :)
  | enum m v pls _ _ hm hl h _ =>
    obtain ⟨m', hm', rfl⟩ := view_enum_mem hm
    have : m' = n := enum_unique hnd hm' hn hid.symm
    subst this
    refine ⟨v, pls, by rw [enumObj_view], by simpa using hl, fun p hp => ?_⟩
    exact h (viewItem p.1, p.2) (by
      simp only
      rw [List.zip_map_left]
      exact List.mem_map.2 ⟨p, hp, rfl⟩)

theorem struct_one (hS : Plain S) (hN : DartNamed x S) {n : StructNode} (hn : .struct n ∈ S) {vs : List Val}
    {b : Bytes} (h1 : ReadMany x rt S (n.fields.map (·.typeId)) vs b)
    (h2 : EmplMany x rt S (n.fields.map (·.typeId)) vs b) :
    ReadOne x rt S (.other n.id) (.struct n.id (named (fieldsOf n) vs)) b ∧
      EmplOne x rt S (.other n.id) (.struct n.id (named (fieldsOf n) vs)) b := by
  have hr : ReadOne x rt S (.other n.id) (.struct n.id (named (fieldsOf n) vs)) b := by
    obtain ⟨ds, hd, N, h⟩ := h1
    refine ⟨_, drep_struct hn hd, N + 1, fun k hk r => ?_⟩
    obtain ⟨k, rfl⟩ : ∃ j, k = j + 1 := ⟨k - 1, by omega⟩
    simp only [readT, genRead, evalReadE]
    rw [read_struct hS hN hn, h k (by omega)]
    rfl
  refine ⟨hr, fun old ho => ?_⟩
  by_cases hs : n.id = "String"
  · obtain ⟨d, hd, N, h⟩ := hr
    refine ⟨d, hd, N, fun k hk r => ?_⟩
    simp only [emplT, genReadEmplace, if_pos hs, evalEmplS]
    exact h k hk r
  · obtain ⟨olds, rfl, ho'⟩ := dobj_struct_inv hN hn ho
    obtain ⟨ds, hd, N, h⟩ := h2 olds ho'
    refine ⟨_, drep_struct hn hd, N + 1, fun k hk r => ?_⟩
    obtain ⟨k, rfl⟩ : ∃ j, k = j + 1 := ⟨k - 1, by omega⟩
    simp only [emplT, genReadEmplace, if_neg hs, evalEmplS]
    rw [empl_class (codec_struct_emplace hS hN hn) (hN.fields n hn).1 k olds
      (by have := ho'.length_eq; simpa using this.symm), h k (by omega)]
    rfl

theorem enum_one (hrt : rt.Lawful) (hS : Plain S) (hN : DartNamed x S)
    (hD : DistinctNumbers S) {n : EnumNode} (hB : Built S n.id) (hn : .enum n ∈ S) {i : EnumItem} (hi : i ∈ n.items)
    {tag : Bytes} (ht : rt.wire.prim "u32" (.int i.position) = some tag) {vs : List Val} {b : Bytes}
    (h2 : EmplMany x rt S ((payload i).map (·.2)) vs b) :
    ReadOne x rt S (.other n.id) (.enum n.id i.id (named (payload i) vs)) (tag ++ b) ∧
      EmplOne x rt S (.other n.id) (.enum n.id i.id (named (payload i) vs)) (tag ++ b) := by
  -- both kinds of codec run the same `case` on some object of the class
  have key : ∀ old, DObj x (dartSchema S) [.other n.id] [old] →
      ∃ d, DRep x (dartSchema S) [.other n.id] [.enum n.id i.id (named (payload i) vs)] [d] ∧
        ∃ N, ∀ k, N ≤ k → ∀ r, evalReadCase (genProg x S) (readers rt (genProg x S) k) n.id (genReadCase x n i)
          old (b ++ r) = .ok (d, r) := by
    intro old ho
    obtain ⟨v, pls, rfl, hl, hobj⟩ := dobj_enum_inv hN hn ho
    obtain ⟨l1, l2, p1, p, p2, hl1, rfl, hlen⟩ := split_mem hl hi
    have hpobj : DObj x (dartSchema S) (((payload i).map (·.2)).map dartView) p := by
      rw [← payload_view]
      exact hobj (i, p) (by rw [hl1, List.zip_append hlen]; simp)
    obtain ⟨ds, hds, N, h⟩ := h2 p hpobj
    refine ⟨_, drep_enum hn (pls := p1 ++ ds :: p2) (by simpa using hl)
      (by rw [hl1, List.zip_append hlen]; simp) hds ?_, N + 1, fun k hk r => ?_⟩
    · intro q hq
      rw [hl1, List.zip_append hlen] at hq
      simp only [List.zip_cons_cons, List.mem_append, List.mem_cons] at hq
      rcases hq with hq | rfl | hq
      · exact hobj q (by rw [hl1, List.zip_append hlen]; simp [hq])
      · rw [payload_view]; exact hds.obj
      · exact hobj q (by rw [hl1, List.zip_append hlen]; simp [hq])
    · obtain ⟨k, rfl⟩ : ∃ j, k = j + 1 := ⟨k - 1, by omega⟩
      rw [readCase_eval hS hN hn v l1 l2 i p1 p2 p hlen hl1 (by have := hpobj.length_eq; simpa using this.symm),
        h k (by omega)]
      rfl
  have hr : ReadOne x rt S (.other n.id) (.enum n.id i.id (named (payload i) vs)) (tag ++ b) := by
    obtain ⟨N1, old, ho, hnew⟩ := new_both (x := x) hrt hS hN hB (enum_typeName hn)
    obtain ⟨d, hd, N2, h⟩ := key old ho
    refine ⟨d, hd, max N1 N2 + 1, fun k hk r => ?_⟩
    obtain ⟨k, rfl⟩ : ∃ j, k = j + 1 := ⟨k - 1, by omega⟩
    simp only [readT, genRead, evalReadE, readers, codec_enum_into hS hN hn, evalRead, genEnumInto]
    rw [List.append_assoc, read_tag hrt ht]
    simp only [orElse, bind, Except.bind]
    rw [find_readCase (hD n hn) hi]
    simp only
    rw [(hnew k (by omega)).2 n hn rfl]
    exact h k (by omega) r
  refine ⟨hr, fun old ho => ?_⟩
  by_cases hs : n.id = "String"
  · obtain ⟨d, hd, N, h⟩ := hr
    refine ⟨d, hd, N, fun k hk r => ?_⟩
    simp only [emplT, genReadEmplace, if_pos hs, evalEmplS]
    exact h k hk r
  · obtain ⟨d, hd, N, h⟩ := key old ho
    refine ⟨d, hd, N + 1, fun k hk r => ?_⟩
    obtain ⟨k, rfl⟩ : ∃ j, k = j + 1 := ⟨k - 1, by omega⟩
    obtain ⟨v, pls, hold, -, -⟩ := dobj_enum_inv hN hn ho
    have hcls : isClass n.id old = true := by rw [hold]; simp [isClass, enumObj]
    simp only [emplT, genReadEmplace, if_neg hs, evalEmplS, readers, codec_enum_emplace hS hN hn, evalEmpl,
      genEnumEmplace, hcls, if_true]
    rw [List.append_assoc, read_tag hrt ht]
    simp only [orElse, bind, Except.bind]
    rw [find_readCase (hD n hn) hi]
    exact h k (by omega) r

theorem readN_eq (R : Readers) (e : String) : ∀ (s : Nat) (bs : Bytes),
    readN (R.read (.plain .into e)) s bs = evalReads rt R ((List.replicate s (.other e)).map genRead) bs
  | 0, _ => rfl
  | s + 1, bs => by
    simp only [readN, List.replicate_succ, List.map_cons, evalReads, genRead, evalReadE]
    congr 1
    funext p
    obtain ⟨v, bs'⟩ := p
    simp only
    rw [readN_eq R e s bs']

theorem list_one (hrt : rt.Lawful) (hS : Plain S) (hN : DartNamed x S) {g : TypeId} {s : Nat} {h b : Bytes}
    {vs : List Val} (hh : rt.writeL s = some h) (h1 : ReadMany x rt S (List.replicate s (.other (dartElem g))) vs b) :
    ReadOne x rt S (.generic "Vec" [g]) (.list s vs) (h ++ b) ∧
      EmplOne x rt S (.generic "Vec" [g]) (.list s vs) (h ++ b) := by
  obtain ⟨ds, hd, N, hk⟩ := h1
  have hrep : DRep x (dartSchema S) [dartView (.generic "Vec" [g])] [.list s vs] [.list s ds] := by
    have e : dartView (.generic "Vec" [g]) = .generic "Vec" [.other (dartElem g)] := by simp [dartView]
    rw [e]
    refine .list _ s vs ds _ _ _ ?_ .nil
    have e2 : (List.replicate s (TypeId.other (dartElem g))).map dartView
        = List.replicate s (TypeId.other (dartElem g)) := by simp [dartView]
    rwa [e2] at hd
  have hlist : ∀ k, N ≤ k → ∀ r, evalList rt (readers rt (genProg x S) k) (dartElem g) (h ++ b ++ r)
      = .ok (.list s ds, r) := by
    intro k hk' r
    simp only [evalList]
    rw [List.append_assoc, hrt.len s h _ hh]
    simp only [orElse, bind, Except.bind]
    rw [readN_eq (rt := rt), hk k hk']
  refine ⟨⟨_, hrep, N + 1, fun k hk' r => ?_⟩, fun old _ => ⟨_, hrep, N + 1, fun k hk' r => ?_⟩⟩
  · obtain ⟨k, rfl⟩ : ∃ j, k = j + 1 := ⟨k - 1, by omega⟩
    simp only [readT, genRead, genCodecG, if_true, evalReadE, readers, codec_none hS .into hN.lists, elem_eq]
    exact hlist k (by omega) r
  · obtain ⟨k, rfl⟩ : ∃ j, k = j + 1 := ⟨k - 1, by omega⟩
    simp only [emplT, genReadEmplace, genCodecG, if_true, evalEmplS, readers, codec_none hS .emplace hN.lists, elem_eq]
    exact hlist k (by omega) r

theorem ext_one (hrt : rt.Lawful) (hS : Plain S) {t : TypeId} {id : String} (hv : dartView t = .other id)
    (hid : id ∉ typeNames S) (hl : LibraryFree S t) {v : Val} {b : Bytes} (hw : rt.writeX id v = some b) :
    ReadOne x rt S t v b ∧ EmplOne x rt S t v b := by
  have hrep : DRep x (dartSchema S) [dartView t] [v] [v] := by
    rw [hv]; exact .ext id v _ _ _ (by rw [typeNames_view]; exact hid) .nil
  rcases view_other hv with rfl | ⟨c, gs, rfl, rfl⟩
  · have hnone : ∀ kd, (genProg x S).codec? (id ++ Kind.suffix kd) = none := fun kd =>
      codec_none hS kd (by simp only [List.mem_append, not_or]; exact ⟨hid, hl⟩)
    have hr : ∀ k, 1 ≤ k → ∀ r, readT rt (genProg x S) k (.other id) (b ++ r) = .ok (v, r) := by
      intro k hk r
      obtain ⟨k, rfl⟩ : ∃ j, k = j + 1 := ⟨k - 1, by omega⟩
      simp [readT, genRead, evalReadE, readers, hnone, hrt.ext id v b r hw, orElse]
    refine ⟨⟨v, hrep, 1, hr⟩, fun old _ => ⟨v, hrep, 1, fun k hk r => ?_⟩⟩
    by_cases hs : id = "String"
    · simp only [emplT, genReadEmplace, if_pos hs, evalEmplS]
      exact hr k hk r
    · obtain ⟨k, rfl⟩ : ∃ j, k = j + 1 := ⟨k - 1, by omega⟩
      simp [emplT, genReadEmplace, hs, evalEmplS, readers, hnone, hrt.empl id v b r old hw, orElse]
  · have hnone : ∀ kd, (genProg x S).codec? (c ++ Kind.suffix kd) = none := fun kd =>
      codec_none hS kd (libGeneric_free hv hl)
    refine ⟨⟨v, hrep, 1, fun k hk r => ?_⟩, fun old _ => ⟨v, hrep, 1, fun k hk r => ?_⟩⟩
    · obtain ⟨k, rfl⟩ : ∃ j, k = j + 1 := ⟨k - 1, by omega⟩
      simp [readT, genRead, (view_libGeneric hv .into).1, evalReadE, readers, hnone, genericName_eq,
        hrt.ext _ v b r hw, orElse]
    · obtain ⟨k, rfl⟩ : ∃ j, k = j + 1 := ⟨k - 1, by omega⟩
      simp [emplT, genReadEmplace, (view_libGeneric hv .emplace).1, evalEmplS, readers, hnone, genericName_eq,
        hrt.empl _ v b r old hw, orElse]

theorem pick_replicate {e : TypeId} : ∀ {s : Nat} {its : List TypeId},
    pick [e] (List.replicate s 0) = some its → its = List.replicate s e
  | 0, its, h => by simpa [pick] using h.symm
  | s + 1, its, h => by
    simp only [List.replicate_succ, pick, List.getElem?_cons_zero] at h
    cases hp : pick [e] (List.replicate s 0) with
    | none => simp [hp] at h
    | some r =>
      simp only [hp, Option.some.injEq] at h
      rw [← h, pick_replicate hp, List.replicate_succ]

end TPB.Dart
