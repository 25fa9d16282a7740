/-
Schemas that differ in names only: the same values have the same bytes.
-/
import Verif.Spec.Renaming
import Verif.Props.DartCodec
namespace TPB.Renaming
open Spec

variable {W : Wire} {M : String → String → Prop} {S S' : List ASTNode}

/-- What is needed for values to have bytes: `Ok` holds of all types of the schema. -/
structure Total (W : Wire) (S : List ASTNode) (Ok : TypeId → Prop) : Prop where
  leaf : ∀ t v, Ok t → LeafVal t v → ∃ p b, builtin? t = some p ∧ W.prim p v = some b
  tag : ∀ n, .enum n ∈ S → ∀ i ∈ n.items, ∃ b, W.prim "u32" (.int i.position) = some b
  fields : ∀ n, .struct n ∈ S → ∀ t ∈ (fieldsOf n).map (·.2), Ok t
  payloads : ∀ n, .enum n ∈ S → ∀ i ∈ n.items, ∀ t ∈ (payload i).map (·.2), Ok t
  args : ∀ c gs shape its, Ok (.generic c gs) → pick gs (W.sub c shape) = some its → ∀ t ∈ its, Ok t

/-- The same values have the same bytes. -/
theorem same_enc {Ok : TypeId → Prop} (hT : Total W S Ok) {ts ts' : List TypeId} {vs vs' : List Val}
    (h : SameVals W M S S' ts ts' vs vs') (hts : ∀ t ∈ ts, Ok t) : ∃ bs, Enc W S ts vs bs ∧ Enc W S' ts' vs' bs := by
  induction h with
  | nil => exact ⟨_, .nil, .nil⟩
  | @builtin t v ts ts' vs vs' hv _ ih =>
    obtain ⟨bs, h1, h2⟩ := ih (fun t h => hts t (by simp [h]))
    obtain ⟨p, b, hp, hb⟩ := hT.leaf t v (hts t (by simp)) hv
    exact ⟨_, .leaf t p v b ts vs bs hp hb h1, .leaf t p v b ts' vs' bs hp hb h2⟩
  | @struct n n' fvs fvs' ts ts' vs vs' hn hn' _ _ _ ih1 ih2 =>
    obtain ⟨b, h1, h1'⟩ := ih1 (hT.fields n hn)
    obtain ⟨bs, h2, h2'⟩ := ih2 (fun t h => hts t (by simp [h]))
    exact ⟨_, .struct n fvs b ts vs bs hn h1 h2, .struct n' fvs' b ts' vs' bs hn' h1' h2'⟩
  | @enum n n' i i' pvs pvs' ts ts' vs vs' hn hn' _ hi hi' he _ _ ih1 ih2 =>
    obtain ⟨b, h1, h1'⟩ := ih1 (hT.payloads n hn i hi)
    obtain ⟨bs, h2, h2'⟩ := ih2 (fun t h => hts t (by simp [h]))
    obtain ⟨tag, htag⟩ := hT.tag n hn i hi
    exact ⟨_, .enum n i tag pvs b ts vs bs hn hi htag h1 h2, .enum n' i' tag pvs' b ts' vs' bs hn' hi' (he ▸ htag) h1' h2'⟩
  | @list c gs gs' shape its its' items items' ts ts' vs vs' hh hp hp' _ _ ih1 ih2 =>
    obtain ⟨b, h1, h1'⟩ := ih1 (hT.args c gs shape its (hts _ (by simp)) hp)
    obtain ⟨bs, h2, h2'⟩ := ih2 (fun t h => hts t (by simp [h]))
    obtain ⟨hd, hh⟩ := Option.isSome_iff_exists.1 hh
    exact ⟨_, .list c gs shape hd its items b ts vs bs hh hp h1 h2, .list c gs' shape hd its' items' b ts' vs' bs hh hp' h1' h2'⟩
  | @library id v ts ts' vs vs' hi hi' hv _ ih =>
    obtain ⟨bs, h1, h2⟩ := ih (fun t h => hts t (by simp [h]))
    obtain ⟨b, hb⟩ := Option.isSome_iff_exists.1 hv
    exact ⟨_, .ext id v b ts vs bs hi hb h1, .ext id v b ts' vs' bs hi' hb h2⟩

/-- They are values of their types, on both sides. -/
theorem same_hasTys {ts ts' : List TypeId} {vs vs' : List Val} (h : SameVals W M S S' ts ts' vs vs') :
    HasTys W S ts vs ∧ HasTys W S' ts' vs' := by
  induction h with
  | nil => exact ⟨.nil, .nil⟩
  | builtin t v hv _ ih => exact ⟨.leaf t v _ _ hv ih.1, .leaf t v _ _ hv ih.2⟩
  | struct n n' fvs fvs' hn hn' _ _ _ ih1 ih2 => exact ⟨.struct n fvs _ _ hn ih1.1 ih2.1, .struct n' fvs' _ _ hn' ih1.2 ih2.2⟩
  | enum n n' i i' pvs pvs' hn hn' _ hi hi' _ _ _ ih1 ih2 =>
    exact ⟨.enum n i pvs _ _ hn hi ih1.1 ih2.1, .enum n' i' pvs' _ _ hn' hi' ih1.2 ih2.2⟩
  | list c gs gs' shape its its' items items' hh hp hp' _ _ ih1 ih2 =>
    exact ⟨.list c gs shape its items _ _ hh hp ih1.1 ih2.1, .list c gs' shape its' items' _ _ hh hp' ih1.2 ih2.2⟩
  | library id v hi hi' hv _ ih => exact ⟨.ext id v _ _ hi hv ih.1, .ext id v _ _ hi' hv ih.2⟩

theorem same_length {ts ts' : List TypeId} {vs vs' : List Val} (h : SameVals W M S S' ts ts' vs vs') : vs.length = vs'.length := by
  induction h <;> simp_all

theorem sameTys_cons {t : TypeId} {ts us : List TypeId} (h : SameTys M S S' (t :: ts) us) :
    ∃ u us', us = u :: us' ∧ SameTy M S S' t u ∧ SameTys M S S' ts us' := by
  obtain ⟨h1, h2⟩ := h
  cases us with
  | nil => simp at h1
  | cons u us =>
    refine ⟨u, us, rfl, h2 0 (by simp) (by simp), by simpa using h1, fun i hi hi' => ?_⟩
    exact h2 (i + 1) (by simpa using hi) (by simpa using hi')

theorem sameTys_nil {us : List TypeId} (h : SameTys M S S' [] us) : us = [] := by
  have := h.1
  simpa [eq_comm] using this

theorem sameTys_mk {t u : TypeId} {ts us : List TypeId} (h : SameTy M S S' t u) (hs : SameTys M S S' ts us) :
    SameTys M S S' (t :: ts) (u :: us) := by
  refine ⟨by simp [hs.1], fun i hi hi' => ?_⟩
  cases i with
  | zero => simpa using h
  | succ i => simpa using hs.2 i (by simpa using hi) (by simpa using hi')

theorem same_pick {gs gs' : List TypeId} (h : SameTys M S S' gs gs') {is : List Nat} {its : List TypeId}
    (hp : pick gs is = some its) : ∃ its', pick gs' is = some its' ∧ SameTys M S S' its its' := by
  induction is generalizing its with
  | nil =>
    simp only [pick, Option.some.injEq] at hp
    subst hp
    exact ⟨[], rfl, rfl, by simp⟩
  | cons i is ih =>
    simp only [pick] at hp
    split at hp
    · rename_i x r hx hr
      simp only [Option.some.injEq] at hp
      subst hp
      obtain ⟨r', h1, h2⟩ := ih hr
      obtain ⟨hi, rfl⟩ := List.getElem?_eq_some_iff.1 hx
      have hi' : i < gs'.length := h.1 ▸ hi
      refine ⟨gs'[i] :: r', ?_, sameTys_mk (h.2 i hi hi') h2⟩
      simp only [pick, List.getElem?_eq_getElem hi', h1]
    · simp at hp

/-- Every value has the same value on the other side. -/
theorem same_total (hS : SameShape M S S') {ts : List TypeId} {vs : List Val} (h : HasTys W S ts vs) :
    ∀ ts', SameTys M S S' ts ts' → ∃ vs', SameVals W M S S' ts ts' vs vs' := by
  induction h with
  | nil =>
    intro ts' h
    obtain rfl := sameTys_nil h
    exact ⟨_, .nil⟩
  | leaf t v ts vs hv _ ih =>
    intro ts' h
    obtain ⟨u, us, rfl, h1, h2⟩ := sameTys_cons h
    obtain ⟨vs', h3⟩ := ih us h2
    cases h1 with
    | builtin => exact ⟨_, .builtin t v hv h3⟩
    | declared => simp [LeafVal] at hv
    | library => simp [LeafVal] at hv
    | container => simp [LeafVal] at hv
  | struct n fvs ts vs hn _ _ ih1 ih2 =>
    intro ts' h
    obtain ⟨u, us, rfl, h1, h2⟩ := sameTys_cons h
    obtain ⟨vs', h3⟩ := ih2 us h2
    cases h1 with
    | builtin _ hb => simp [builtin?] at hb
    | declared _ id' _ hm =>
      obtain ⟨n', hn', rfl, hf⟩ := hS.struct n hn id' hm
      obtain ⟨fvs', h4⟩ := ih1 _ hf
      exact ⟨_, .struct n n' fvs fvs' hn hn' hm h4 h3⟩
    | library _ hi => exact absurd (show n.id ∈ typeNames S from List.mem_filterMap.2 ⟨.struct n, hn, rfl⟩) hi
  | enum n i pvs ts vs hn hi _ _ ih1 ih2 =>
    intro ts' h
    obtain ⟨u, us, rfl, h1, h2⟩ := sameTys_cons h
    obtain ⟨vs', h3⟩ := ih2 us h2
    cases h1 with
    | builtin _ hb => simp [builtin?] at hb
    | declared _ id' _ hm =>
      obtain ⟨n', hn', rfl, hf⟩ := hS.enum n hn id' hm
      obtain ⟨i', hi', he, hf⟩ := hf i hi
      obtain ⟨pvs', h4⟩ := ih1 _ hf
      exact ⟨_, .enum n n' i i' pvs pvs' hn hn' hm hi hi' he h4 h3⟩
    | library _ hi => exact absurd (show n.id ∈ typeNames S from List.mem_filterMap.2 ⟨.enum n, hn, rfl⟩) hi
  | list c gs shape its items ts vs hh hp _ _ ih1 ih2 =>
    intro ts' h
    obtain ⟨u, us, rfl, h1, h2⟩ := sameTys_cons h
    obtain ⟨vs', h3⟩ := ih2 us h2
    cases h1 with
    | builtin _ hb => simp [builtin?] at hb
    | container _ _ gs' hl hg =>
      obtain ⟨its', hp', hs⟩ := same_pick ⟨hl, hg⟩ hp
      obtain ⟨items', h4⟩ := ih1 _ hs
      exact ⟨_, .list c gs gs' shape its its' items items' hh hp hp' h4 h3⟩
  | ext id v ts vs hid hv _ ih =>
    intro ts' h
    obtain ⟨u, us, rfl, h1, h2⟩ := sameTys_cons h
    obtain ⟨vs', h3⟩ := ih us h2
    cases h1 with
    | builtin _ hb => simp [builtin?] at hb
    | declared _ id' hi _ => exact absurd hi hid
    | library _ hi hi' => exact ⟨_, .library id v hi hi' hv h3⟩

/-- In Rust all types of an accepted schema have bytes. -/
theorem total_rust (hW : W.Lawful) (hN : WellNamed S) (hT : Rust.TypesOk S) : Total W S WFType where
  leaf t v ht hv := by
    have hp : ∃ p, builtin? t = some p := by
      cases t <;> simp [LeafVal] at hv <;> exact ⟨_, rfl⟩
    obtain ⟨p, hp⟩ := hp
    obtain ⟨b, hb⟩ := hW.prim_total t p v ht hp hv
    exact ⟨p, b, hp, hb⟩
  tag n hn i hi := hW.prim_total (typeOfName "u32") "u32" (.int i.position) (.name _) rfl (by
    have := hN.numbers n hn i hi
    show (0 : Int) ≤ (i.position : Int) ∧ (i.position : Int) < 2 ^ (8 * 4)
    omega)
  fields n hn t ht := by
    obtain ⟨f, hf, rfl⟩ := List.mem_map.1 ht
    exact hT.1 n hn f hf
  payloads n hn i hi t ht := by
    obtain ⟨f, hf, rfl⟩ := List.mem_map.1 ht
    exact hT.2 n hn i hi f hf
  args c gs shape its ht hp t hm := Rust.wfType_args ht t (Rust.pick_mem hp t hm)

/-- In Dart all types of an accepted schema have bytes, if the variant numbers have 31 bits. -/
theorem total_dart {rt : Dart.Runtime} (hrt : rt.Lawful) (hT : Rust.TypesOk S)
    (hP : ∀ n, .enum n ∈ S → ∀ i ∈ n.items, i.position < 2 ^ 31) :
    Total rt.wire (dartSchema S) (fun t => ∃ t0, t = dartView t0 ∧ Dart.Sized t0) where
  leaf t v ht hv := by
    obtain ⟨t0, rfl, hs⟩ := ht
    exact Dart.leaf_total hrt hs hv
  tag n hn i hi := by
    obtain ⟨m, hm, rfl⟩ := Dart.view_enum_mem hn
    obtain ⟨j, hj, rfl⟩ := List.mem_map.1 hi
    rw [Dart.viewItem_position]
    exact Dart.tag_total (rt := rt) hrt (hP m hm j hj)
  fields n hn t ht := by
    obtain ⟨m, hm, rfl⟩ := Dart.view_struct_mem hn
    rw [Dart.fieldsOf_view m] at ht
    obtain ⟨u, hu, rfl⟩ := List.mem_map.1 ht
    obtain ⟨f, hf, rfl⟩ := List.mem_map.1 hu
    exact ⟨_, rfl, Dart.sized_of_wf (hT.1 m hm (f.name, f.typeId) (List.mem_map.2 ⟨f, hf, rfl⟩))⟩
  payloads n hn i hi t ht := by
    obtain ⟨m, hm, rfl⟩ := Dart.view_enum_mem hn
    obtain ⟨j, hj, rfl⟩ := List.mem_map.1 hi
    rw [Dart.payload_view j] at ht
    obtain ⟨u, hu, rfl⟩ := List.mem_map.1 ht
    obtain ⟨f, hf, rfl⟩ := List.mem_map.1 hu
    exact ⟨_, rfl, Dart.sized_of_wf (hT.2 m hm j hj f hf)⟩
  args c gs shape its ht hp t hm := by
    obtain ⟨t0, ht0, hs⟩ := ht
    obtain ⟨g, rfl, rfl, rfl⟩ := Dart.view_generic ht0.symm
    have hits := Dart.pick_replicate hp
    subst hits
    obtain ⟨-, rfl⟩ := List.mem_replicate.1 hm
    exact ⟨.other (dartElem g), rfl, trivial⟩

end TPB.Renaming
