/- Rust and Dart encodings of the same value. -/
import Verif.Proofs.DartFacts
import Verif.Sem.LittleEndianDart
namespace TPB.Dart
open Spec
open LE (builtin_mem builtin_int builtin_num asSigned_range pow_half)

variable {S : List ASTNode} {W : Wire} {rt : Runtime}

theorem named_view_fields (n : StructNode) (us : List Val) :
    named (fieldsOf { n with fields := n.fields.map viewField }) us = named (fieldsOf n) us := by
  simp [named, fieldsOf, viewField, Function.comp_def]

theorem named_view_payload (i : EnumItem) (us : List Val) :
    named (payload (viewItem i)) us = named (payload i) us := by
  cases i with
  | empty p id => rfl
  | tuple p id vs =>
    simp only [named, viewItem]
    congr 1
    rw [Rust.tuple_payload_names, Rust.tuple_payload_names, List.length_map]
  | struct p id fs => simp [named, payload, viewItem, viewField, Function.comp_def]

theorem wire_u32 (v : Val) : rt.wire.prim "u32" v = rt.wire.prim "Int32" v := rfl

theorem agree_tag (hA : Agree W rt.wire) {p : Nat} (hp : p < 2 ^ 31) :
    W.prim "u32" (.int p) = rt.wire.prim "u32" (.int p) := by
  have h := hA.int "u32" 4 false p (by simp [builtinTypes]) (by show 0 ≤ (p : Int) ∧ (p : Int) < 2 ^ (8 * 4); omega)
  have e : asSigned 4 p = p := by unfold asSigned; rw [if_pos (by show (p : Int) < 2 ^ (8 * 4 - 1); omega)]
  rw [h, e, wire_u32]
  rfl

theorem enc_to_dart (hA : Agree W rt.wire) (hW : W.Lawful) (hP : PortableSchema S)
    {ts : List TypeId} {vs : List Val} {bs : Bytes} (h : Enc W S ts vs bs) : (∀ t ∈ ts, Portable S t) →
    ∃ us, Sees S ts vs us ∧ Enc rt.wire (dartSchema S) (ts.map dartView) us bs ∧
      (NoUnsigned S → (∀ t ∈ ts, NotUnsigned t) → us = vs) := by
  induction h with
  | nil => exact fun _ => ⟨[], .nil, .nil, fun _ _ => rfl⟩
  | leaf t p v b ts vs bs hb hv _ ih =>
    intro hp
    obtain ⟨us, h1, h2, e2⟩ := ih (fun t h => hp t (by simp [h]))
    cases hp t (by simp) with
    | int id size s hm =>
      simp only [builtin?, Option.some.injEq] at hb
      subst hb
      have hl := hA.range _ _ _ _ hm hv
      cases v <;> simp only [LeafVal] at hl
      rename_i n
      refine ⟨_, .int _ _ _ _ _ _ _ h1, .leaf _ _ _ _ _ _ _ rfl ?_ h2, ?_⟩
      · rw [← hA.int id size s n hm (hA.range _ _ _ _ hm hv)]
        exact hv
      · intro hu ht
        rw [e2 hu (fun t h => ht t (by simp [h]))]
        have hs : s = true := by
          cases s with
          | true => rfl
          | false => exact absurd rfl (ht _ (List.mem_cons_self ..) id size)
        subst hs
        rw [show asSigned size n = n from if_pos hl.2]
    | num id size hm =>
      simp only [builtin?, Option.some.injEq] at hb
      subst hb
      refine ⟨_, .num _ _ _ _ _ _ h1, .leaf _ _ _ _ _ _ _ rfl ?_ h2, ?_⟩
      · rw [← hA.num id size v hm]
        exact hv
      · exact fun hu ht => by rw [e2 hu (fun t h => ht t (by simp [h]))]
    | bool =>
      simp only [builtin?, Option.some.injEq] at hb
      subst hb
      refine ⟨_, .bool _ _ _ _ _ h1, .leaf _ _ _ _ _ _ _ rfl ?_ h2, ?_⟩
      · rw [← hA.bool v]
        exact hv
      · exact fun hu ht => by rw [e2 hu (fun t h => ht t (by simp [h]))]
    | other id _ => simp [builtin?] at hb
    | list id _ => simp [builtin?] at hb
  | struct n fvs b ts vs bs hn _ _ ih1 ih2 =>
    intro hp
    obtain ⟨us, h1, h2, e2⟩ := ih2 (fun t h => hp t (by simp [h]))
    obtain ⟨fus, h3, h4, e4⟩ := ih1 (by simpa using fun t k h => hP.fields n hn (k, t) h)
    have h5 := Enc.struct { n with fields := n.fields.map viewField } fus b _ us bs (mem_view_struct hn)
      (by rw [fieldsOf_view]; simpa [fieldsOf, Function.comp_def] using h4) h2
    rw [named_view_fields] at h5
    exact ⟨_, .struct n _ _ _ _ _ hn h3 h1, h5, fun hu ht => by
      rw [e2 hu (fun t h => ht t (by simp [h])), e4 hu (by simpa using fun t k h => hu.1 n hn (k, t) h)]⟩
  | enum n i tag pvs b ts vs bs hn hi htag _ _ ih1 ih2 =>
    intro hp
    obtain ⟨us, h1, h2, e2⟩ := ih2 (fun t h => hp t (by simp [h]))
    obtain ⟨pus, h3, h4, e4⟩ := ih1 (by simpa using fun t k h => hP.payloads n hn i hi (k, t) h)
    rw [agree_tag hA (hP.numbers n hn i hi)] at htag
    have h5 := Enc.enum { n with items := n.items.map viewItem } (viewItem i) tag pus b _ us bs (mem_view_enum hn)
      (List.mem_map.2 ⟨i, hi, rfl⟩) (by rw [viewItem_position]; exact htag) (by rw [payload_view]; exact h4) h2
    rw [named_view_payload, viewItem_id] at h5
    exact ⟨_, .enum n i _ _ _ _ _ hn hi h3 h1, h5, fun hu ht => by
      rw [e2 hu (fun t h => ht t (by simp [h])), e4 hu (by simpa using fun t k h => hu.2 n hn i hi (k, t) h)]⟩
  | list c gs s hd its items b ts vs bs hh hpick _ _ ih1 ih2 =>
    intro hp
    obtain ⟨us, h1, h2, e2⟩ := ih2 (fun t h => hp t (by simp [h]))
    cases hp _ (List.mem_cons_self ..) with
    | list id hid =>
    rw [hW.vec] at hpick
    have hits := pick_replicate hpick
    subst hits
    obtain ⟨uis, h3, h4, e4⟩ := ih1 (fun t ht => by obtain ⟨-, rfl⟩ := List.mem_replicate.1 ht; exact .other id hid)
    rw [hA.vec] at hh
    refine ⟨_, .list id s _ _ _ _ _ h3 h1, .list "Vec" [.other id] s hd _ uis b _ us bs hh hpick ?_ h2, ?_⟩
    · simpa [dartView] using h4
    · exact fun hu ht => by
        rw [e2 hu (fun t h => ht t (by simp [h])),
          e4 hu (fun t ht => by obtain ⟨-, rfl⟩ := List.mem_replicate.1 ht; simp [NotUnsigned])]
  | ext id v b ts vs bs hid hv _ ih =>
    intro hp
    obtain ⟨us, h1, h2, e2⟩ := ih (fun t h => hp t (by simp [h]))
    cases hp _ (List.mem_cons_self ..) with
    | other id hid' =>
      rw [hA.ext id v (hid'.resolve_left hid)] at hv
      exact ⟨_, .ext id v _ _ _ hid h1, .ext id v b _ us bs (by rwa [typeNames_view]) hv h2,
        fun hu ht => by rw [e2 hu (fun t h => ht t (by simp [h]))]⟩

/-- Encoded values are values of their types. -/
theorem enc_hasTys (hA : Agree W rt.wire) (hW : W.Lawful) (hP : PortableSchema S)
    {ts : List TypeId} {vs : List Val} {bs : Bytes} (h : Enc W S ts vs bs) : (∀ t ∈ ts, Portable S t) → HasTys W S ts vs := by
  induction h with
  | nil => exact fun _ => .nil
  | leaf t p v b ts vs bs hb hv _ ih =>
    intro hp
    refine .leaf _ _ _ _ ?_ (ih (fun t h => hp t (by simp [h])))
    have hm : (p, t) ∈ builtinTypes := by
      cases hp t (by simp) with
      | int id size s hm => simp only [builtin?, Option.some.injEq] at hb; subst hb; exact hm
      | num id size hm => simp only [builtin?, Option.some.injEq] at hb; subst hb; exact hm
      | bool => simp only [builtin?, Option.some.injEq] at hb; subst hb; simp [builtinTypes]
      | other id _ => simp [builtin?] at hb
      | list id _ => simp [builtin?] at hb
    exact hA.range _ _ _ _ hm hv
  | struct n fvs b ts vs bs hn _ _ ih1 ih2 =>
    exact fun hp => .struct n _ _ _ hn (ih1 (by simpa using fun t k h => hP.fields n hn (k, t) h)) (ih2 (fun t h => hp t (by simp [h])))
  | enum n i tag pvs b ts vs bs hn hi htag _ _ ih1 ih2 =>
    exact fun hp => .enum n i _ _ _ hn hi (ih1 (by simpa using fun t k h => hP.payloads n hn i hi (k, t) h))
      (ih2 (fun t h => hp t (by simp [h])))
  | list c gs s hd its items b ts vs bs hh hpick _ _ ih1 ih2 =>
    intro hp
    refine .list c gs s its items _ _ (by simp [hh]) hpick (ih1 ?_) (ih2 (fun t h => hp t (by simp [h])))
    cases hp _ (List.mem_cons_self ..) with
    | list id hid =>
    rw [hW.vec] at hpick
    have hits := pick_replicate hpick
    subst hits
    intro t ht
    obtain ⟨-, rfl⟩ := List.mem_replicate.1 ht
    exact .other id hid
  | ext id v b ts vs bs hid hv _ ih =>
    exact fun hp => .ext id v _ _ hid (by simp [hv]) (ih (fun t h => hp t (by simp [h])))

/-- The number with the bits of a signed number. -/
theorem unsigned_exists {id : String} {size : Nat} {s : Bool} (hs : 0 < size) {m : Int}
    (h : -(2 ^ (8 * size - 1) : Int) ≤ m ∧ m < 2 ^ (8 * size - 1)) :
    ∃ n, LeafVal (.integer id size s) (.int n) ∧ asSigned size n = m := by
  have e := pow_half hs
  have e2 : (256 : Int) ^ size = 2 ^ (8 * size) := by
    rw [show (256 : Int) = 2 ^ 8 from rfl, ← Int.pow_mul]
  have hp : (0 : Int) < 2 ^ (8 * size - 1) := Int.pow_pos (by decide)
  rw [e2] at e
  cases s with
  | true => exact ⟨m, h, if_pos h.2⟩
  | false =>
    simp only [LeafVal, asSigned, e]
    generalize (2 : Int) ^ (8 * size - 1) = P at *
    by_cases hm : 0 ≤ m
    · exact ⟨m, by omega, if_pos h.2⟩
    · refine ⟨m + 2 * P, by omega, ?_⟩
      rw [if_neg (by omega)]
      omega

theorem wire_range {m : String} {t : TypeId} {v : Val} {b : Bytes} (hm : dartPrims.lookup m = some t)
    (h1 : m ≠ "u32") (h : rt.wire.prim m v = some b) : LeafVal t v := by
  simp only [Runtime.wire, if_neg h1, hm] at h
  split at h
  · assumption
  · simp at h

theorem enc_of_dart (hA : Agree W rt.wire) (hW : W.Lawful) (hP : PortableSchema S)
    {ts : List TypeId} {us : List Val} {bs : Bytes} (h : Enc rt.wire (dartSchema S) ts us bs) :
    ∀ ts0, ts = ts0.map dartView → (∀ t ∈ ts0, Portable S t) → ∃ vs, Sees S ts0 vs us ∧ Enc W S ts0 vs bs := by
  induction h with
  | nil =>
    intro ts0 h0 _
    have : ts0 = [] := by simpa using h0.symm
    subst this
    exact ⟨[], .nil, .nil⟩
  | leaf t p v b ts vs bs hb hv _ ih =>
    intro ts0 h0 hp
    obtain ⟨t0, ts0, rfl, rfl, rfl⟩ := List.map_eq_cons_iff.1 h0.symm
    obtain ⟨us, h1, h2⟩ := ih ts0 rfl (fun t h => hp t (by simp [h]))
    cases hp t0 (by simp) with
    | int id size s hm =>
      simp only [dartView, builtin?, Option.some.injEq] at hb
      subst hb
      have hs := builtin_int hm
      have key : ∃ m, dartPrims.lookup (dartPrim (.integer id size s)) = some (.integer m size true) ∧
          dartPrim (.integer id size s) ≠ "u32" := by
        rcases hs with rfl | rfl | rfl <;> exact ⟨_, rfl, by simp [dartPrim]⟩
      obtain ⟨m, h3, h4⟩ := key
      have hl := wire_range h3 h4 hv
      cases v <;> simp only [LeafVal] at hl
      rename_i n
      obtain ⟨n', h5, rfl⟩ := unsigned_exists (id := id) (s := s) (by omega : 0 < size) hl
      refine ⟨_, .int _ _ _ n' _ _ _ h1, .leaf _ _ _ _ _ _ _ rfl ?_ h2⟩
      rw [hA.int id size s n' hm h5]
      exact hv
    | num id size hm =>
      simp only [dartView, builtin?, Option.some.injEq] at hb
      subst hb
      refine ⟨_, .num _ _ _ _ _ _ h1, .leaf _ _ _ _ _ _ _ rfl ?_ h2⟩
      rw [hA.num id size v hm]
      exact hv
    | bool =>
      simp only [dartView, builtin?, Option.some.injEq] at hb
      subst hb
      refine ⟨_, .bool _ _ _ _ _ h1, .leaf _ _ _ _ _ _ _ rfl ?_ h2⟩
      rw [hA.bool v]
      exact hv
    | other id _ => simp [dartView, builtin?] at hb
    | list id _ => simp [dartView, builtin?] at hb
  | struct n fvs b ts vs bs hn _ _ ih1 ih2 =>
    intro ts0 h0 hp
    obtain ⟨t0, ts0, rfl, ht0, rfl⟩ := List.map_eq_cons_iff.1 h0.symm
    obtain ⟨us, h1, h2⟩ := ih2 ts0 rfl (fun t h => hp t (by simp [h]))
    obtain ⟨m, hm, rfl⟩ := view_struct_mem hn
    obtain ⟨fus, h3, h4⟩ := ih1 ((fieldsOf m).map (·.2))
      (by rw [fieldsOf_view]; simp [fieldsOf, Function.comp_def])
      (by simpa using fun t k h => hP.fields m hm (k, t) h)
    rw [named_view_fields]
    have hid : t0 = .other m.id := by
      cases hp t0 (by simp) <;> simp [dartView] at ht0
      simp [ht0]
    subst hid
    exact ⟨_, .struct m _ _ _ _ _ hm h3 h1, .struct m fus b _ us bs hm h4 h2⟩
  | enum n i tag pvs b ts vs bs hn hi htag _ _ ih1 ih2 =>
    intro ts0 h0 hp
    obtain ⟨t0, ts0, rfl, ht0, rfl⟩ := List.map_eq_cons_iff.1 h0.symm
    obtain ⟨us, h1, h2⟩ := ih2 ts0 rfl (fun t h => hp t (by simp [h]))
    obtain ⟨m, hm, rfl⟩ := view_enum_mem hn
    obtain ⟨j, hj, rfl⟩ := List.mem_map.1 hi
    obtain ⟨fus, h3, h4⟩ := ih1 ((payload j).map (·.2)) (payload_view j)
      (by simpa using fun t k h => hP.payloads m hm j hj (k, t) h)
    rw [named_view_payload, viewItem_id]
    have hid : t0 = .other m.id := by
      cases hp t0 (by simp) <;> simp [dartView] at ht0
      simp [ht0]
    subst hid
    rw [viewItem_position, ← agree_tag hA (hP.numbers m hm j hj)] at htag
    exact ⟨_, .enum m j _ _ _ _ _ hm hj h3 h1, .enum m j tag fus b _ us bs hm hj htag h4 h2⟩
  | list c gs s hd its items b ts vs bs hh hpick _ _ ih1 ih2 =>
    intro ts0 h0 hp
    obtain ⟨t0, ts0, rfl, ht0, rfl⟩ := List.map_eq_cons_iff.1 h0.symm
    obtain ⟨us, h1, h2⟩ := ih2 ts0 rfl (fun t h => hp t (by simp [h]))
    obtain ⟨id, hid, rfl⟩ : ∃ id, (id ∈ typeNames S ∨ id ∉ dartElems) ∧ t0 = .generic "Vec" [.other id] := by
      cases hp t0 (by simp) <;> simp [dartView] at ht0
      rename_i id hid
      exact ⟨id, hid, rfl⟩
    simp only [dartView, if_true, TypeId.generic.injEq, dartElem] at ht0
    obtain ⟨rfl, rfl⟩ := ht0
    have hits := pick_replicate hpick
    subst hits
    obtain ⟨uis, h3, h4⟩ := ih1 (List.replicate s (.other id)) (by simp [dartView])
      (fun t ht => by obtain ⟨-, rfl⟩ := List.mem_replicate.1 ht; exact .other id hid)
    rw [← hA.vec] at hh
    exact ⟨_, .list id s _ _ _ _ _ h3 h1, .list "Vec" [.other id] s hd _ uis b _ us bs hh (by rw [hW.vec]; exact hpick) h4 h2⟩
  | ext id v b ts vs bs hid hv _ ih =>
    intro ts0 h0 hp
    obtain ⟨t0, ts0, rfl, ht0, rfl⟩ := List.map_eq_cons_iff.1 h0.symm
    obtain ⟨us, h1, h2⟩ := ih ts0 rfl (fun t h => hp t (by simp [h]))
    rw [typeNames_view] at hid
    obtain ⟨rfl, hid'⟩ : t0 = .other id ∧ (id ∈ typeNames S ∨ id ∉ dartElems) := by
      cases hp t0 (by simp) <;> simp [dartView] at ht0
      subst ht0
      exact ⟨rfl, by assumption⟩
    have hv' : rt.wire.ext id v = some b := hv
    rw [← hA.ext id v (hid'.resolve_left hid)] at hv'
    exact ⟨_, .ext id v _ _ _ hid h1, .ext id v b _ us bs hid hv' h2⟩

end TPB.Dart
