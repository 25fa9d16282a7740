/- The emitted `skip` methods pass over what `Walked` says, for every order of fields. -/
import Verif.Proofs.DartFacts
import Verif.Spec.DartSkip
namespace TPB.Dart
open Spec DartGen

variable {x : Ext} {S : List ASTNode} {rt : Runtime}

theorem isNamed_eq (t : TypeId) : isNamed t = isOther t := by cases t <;> rfl

theorem filter_types (p : TypeId → Bool) (fs : List StructField) :
    (fs.map (·.typeId)).filter p = (fs.filter (fun f => p f.typeId)).map (·.typeId) := by
  rw [List.filter_map]
  rfl

theorem once_eq (kd : Kind) (fs : List StructField) :
    (genSkipBody kd fs).once = ((fs.map (·.typeId)).filter isNamed).map (genSkip kd) := by
  rw [filter_types, List.map_map]
  simp only [genSkipBody, isNamed_eq]
  rfl

theorem loop_eq (kd : Kind) (fs : List StructField) :
    (genSkipBody kd fs).loop = ((fs.map (·.typeId)).filter (fun t => !isNamed t)).map (genSkip kd) := by
  rw [filter_types, List.map_map]
  simp only [genSkipBody, isNamed_eq]
  rfl

theorem skip_body_any (kd : Kind) (fs : List StructField) (rec : Codec → Nat → Bytes → Res Bytes) (bs : Bytes) :
    evalSkipBody rt rec 1 (genSkipBody kd fs) bs = evalSkips rt rec ((namedFirst (fs.map (·.typeId))).map (genSkip kd)) bs := by
  rw [namedFirst, List.map_append, evalSkips_append, ← once_eq, ← loop_eq]
  simp only [evalSkipBody, times_one]

theorem fieldsOf_typeIds (n : StructNode) : (fieldsOf n).map (·.2) = n.fields.map (·.typeId) := by simp [fieldsOf, Function.comp_def]

theorem mem_namedFirst {t : TypeId} {ts : List TypeId} (h : t ∈ namedFirst ts) : t ∈ ts := by
  simp only [namedFirst, List.mem_append, List.mem_filter] at h
  rcases h with h | h <;> exact h.1

theorem walk_skip (hrt : rt.Lawful) (hS : Plain S) (hN : DartNamed x S) (hD : DistinctNumbers S)
    {ts : List TypeId} {bs : Bytes} (h : Walked rt.wire S ts bs) : (∀ t ∈ ts, LibraryFree S t) → SkipMany x rt S ts bs := by
  induction h with
  | nil => exact fun _ kd => ⟨0, fun _ _ _ => rfl⟩
  | leaf t p v b ts bs hp hw _ ih =>
    intro hl
    refine skipMany_cons (fun kd => ⟨0, fun k _ r => ?_⟩) (ih (fun t ht => hl t (by simp [ht])))
    obtain ⟨h1, -, -, -, h5⟩ := view_builtin hp
    have hr := read_prim hrt hw
    rw [if_neg h1] at hr
    simp [skipT, h5, evalSkipS, hr r, orElse, Except.map]
  | struct m b ts bs hm he _ ih1 ih2 =>
    intro hl
    have i1 := ih1 (fun t ht => by
      obtain ⟨f, hf, rfl⟩ := List.mem_map.1 (mem_namedFirst ht)
      exact hN.structLib m hm f hf)
    refine skipMany_cons (fun kd => ?_) (ih2 (fun t ht => hl t (by simp [ht])))
    obtain ⟨N, h⟩ := i1 (kindOf kd m.id)
    refine ⟨N + 1, fun k hk r => ?_⟩
    obtain ⟨k, rfl⟩ : ∃ j, k = j + 1 := ⟨k - 1, by omega⟩
    rw [skipT, genSkip_other, evalSkipS]
    rw [fieldsOf_typeIds] at h
    cases hk' : kindOf kd m.id with
    | into =>
      simp only [skipC, codec_struct_into hS hN hm, evalSkip, genStructInto]
      rw [skip_body_any .into, ← hk']
      exact h k (by omega) r
    | emplace =>
      simp only [skipC, codec_struct_emplace hS hN hm, evalSkip, genStructEmplace]
      rw [skip_body_any .emplace, ← hk']
      exact h k (by omega) r
  | enum m j tag b ts bs hm hj ht he _ ih1 ih2 =>
    intro hl
    have i1 := ih1 (fun t ht => by
      obtain ⟨f, hf, rfl⟩ := List.mem_map.1 (mem_namedFirst ht)
      exact hN.enumLib m hm j hj f hf)
    refine skipMany_cons (fun kd => ?_) (ih2 (fun t ht => hl t (by simp [ht])))
    obtain ⟨N, h⟩ := i1 .emplace
    have hcase : ∀ k, N ≤ k → ∀ r, evalSkipCases rt (skipC rt (genProg x S) (k + 1)) (m.items.map (genSkipCase m))
        (tag ++ b ++ r) = .ok r := by
      intro k hk r
      rw [evalSkipCases, List.append_assoc, read_tag hrt ht]
      simp only [orElse, bind, Except.bind]
      rw [find_skipCase (hD m hm) hj]
      simp only [genSkipCase, variantCodec, skipC, codec_variant hS hN hm hj, evalSkip, genStructEmplace]
      rw [skip_body_any .emplace, itemStruct_types]
      exact h k hk r
    refine ⟨N + 2, fun k hk r => ?_⟩
    obtain ⟨k, rfl⟩ : ∃ j, k = j + 2 := ⟨k - 2, by omega⟩
    rw [skipT, genSkip_other, evalSkipS]
    cases kindOf kd m.id with
    | into =>
      simp only [skipC, codec_enum_into hS hN hm, evalSkip, genEnumInto, times_one]
      exact hcase k (by omega) r
    | emplace =>
      simp only [skipC, codec_enum_emplace hS hN hm, evalSkip, genEnumEmplace, times_one]
      exact hcase k (by omega) r
  | list g s h b ts bs hh he _ ih1 ih2 =>
    intro hl
    have hh' : rt.writeL s = some h := by simpa [Runtime.wire] using hh
    have i1 := ih1 (fun t ht => by
      obtain ⟨-, rfl⟩ := List.mem_replicate.1 ht
      have := hl _ (List.mem_cons_self ..)
      simpa [LibraryFree] using this)
    refine skipMany_cons (fun kd => ?_) (ih2 (fun t ht => hl t (by simp [ht])))
    obtain ⟨N, h6⟩ := i1 .into
    refine ⟨N + 1, fun k hk r => ?_⟩
    obtain ⟨k, rfl⟩ : ∃ j, k = j + 1 := ⟨k - 1, by omega⟩
    simp only [skipT, genSkip, genCodecG, if_true, evalSkipS, skipC, codec_none hS kd hN.lists, elem_eq, times_one]
    rw [skipList, List.append_assoc, hrt.len s h _ hh']
    simp only [orElse, bind, Except.bind]
    rw [skipList_times]
    exact h6 k (by omega) r
  | ext t id v b ts bs ht0 hid hw _ ih =>
    intro hl
    refine skipMany_cons (fun kd => ⟨1, fun k hk r => ?_⟩) (ih (fun t ht => hl t (by simp [ht])))
    obtain ⟨k, rfl⟩ : ∃ j, k = j + 1 := ⟨k - 1, by omega⟩
    replace hw : rt.writeX id v = some b := hw
    have hsk := hrt.skip id v b r hw
    rcases view_other ht0 with rfl | ⟨c, gs, rfl, rfl⟩
    · rw [skipT, genSkip_other, evalSkipS, skipC, codec_none hS _ (by
        simp only [List.mem_append, not_or]; exact ⟨hid, hl _ (List.mem_cons_self ..)⟩)]
      simp only [times_one, hsk, orElse]
    · simp only [skipT, genSkip, (view_libGeneric ht0 kd).1, evalSkipS, skipC,
        codec_none hS kd (libGeneric_free ht0 (hl _ (List.mem_cons_self ..))), genericName_eq, times_one, hsk, orElse]

theorem walk_declared (hrt : rt.Lawful) (hS : Plain S) (hN : DartNamed x S) (hD : DistinctNumbers S) {id : String} (hid : id ∈ typeNames S)
    (hs : id ≠ "String") (kd : Kind) {b : Bytes} (h : Walked rt.wire S [.other id] b) :
    ∃ N, ∀ k, N ≤ k → ∀ r, skipC rt (genProg x S) k (.plain kd id) 1 (b ++ r) = .ok r := by
  obtain ⟨N, h1⟩ := walk_skip hrt hS hN hD h (by simpa using declared_free hN hid) kd
  refine ⟨N, fun k hk r => ?_⟩
  have h2 := h1 k hk r
  simp only [List.map_cons, List.map_nil, evalSkips, genSkip_other, evalSkipS] at h2
  have e : kindOf kd id = kd := by cases kd <;> simp [kindOf, emplKind, hs]
  rw [e] at h2
  cases he : skipC rt (genProg x S) k (.plain kd id) 1 (b ++ r) with
  | error e => rw [he] at h2; simp [bind, Except.bind] at h2
  | ok r' => rw [he] at h2; simpa [bind, Except.bind] using h2

/-- The loop of a struct, for every count. -/
theorem walk_times (hrt : rt.Lawful) (hS : Plain S) (hN : DartNamed x S) (hD : DistinctNumbers S) (kd : Kind) {ts : List TypeId}
    (hl : ∀ t ∈ ts, LibraryFree S t) : ∀ (bss : List Bytes), (∀ b ∈ bss, Walked rt.wire S ts b) →
      ∃ N, ∀ k, N ≤ k → ∀ r, times (evalSkips rt (skipC rt (genProg x S) k) (ts.map (genSkip kd))) bss.length (bss.flatten ++ r) = .ok r
  | [], _ => ⟨0, fun _ _ _ => rfl⟩
  | b :: bss, h => by
    obtain ⟨N1, h1⟩ := walk_skip hrt hS hN hD (h b (by simp)) hl kd
    obtain ⟨N2, h2⟩ := walk_times hrt hS hN hD kd hl bss (fun b hb => h b (by simp [hb]))
    refine ⟨max N1 N2, fun k hk r => ?_⟩
    rw [List.length_cons, times, List.flatten_cons, List.append_assoc, h1 k (by omega)]
    simp only [bind, Except.bind]
    exact h2 k (by omega) r

theorem walk_count (hrt : rt.Lawful) (hS : Plain S) (hN : DartNamed x S) (hD : DistinctNumbers S) (kd : Kind) {n : StructNode}
    (hn : .struct n ∈ S) {b0 : Bytes} {bss : List Bytes} (h0 : Walked rt.wire S (((fieldsOf n).map (·.2)).filter isNamed) b0)
    (h1 : ∀ b ∈ bss, Walked rt.wire S (((fieldsOf n).map (·.2)).filter (fun t => !isNamed t)) b) :
    ∃ N, ∀ k, N ≤ k → ∀ r, skipC rt (genProg x S) k (.plain kd n.id) bss.length (b0 ++ bss.flatten ++ r) = .ok r := by
  have hl : ∀ p t, t ∈ ((fieldsOf n).map (·.2)).filter p → LibraryFree S t := by
    intro p t ht
    obtain ⟨f, hf, rfl⟩ := List.mem_map.1 (List.mem_filter.1 ht).1
    exact hN.structLib n hn f hf
  obtain ⟨N1, h2⟩ := walk_skip hrt hS hN hD h0 (hl _) kd
  obtain ⟨N2, h3⟩ := walk_times hrt hS hN hD kd (hl _) bss h1
  refine ⟨max N1 N2 + 1, fun k hk r => ?_⟩
  obtain ⟨k, rfl⟩ : ∃ j, k = j + 1 := ⟨k - 1, by omega⟩
  have h4 := h2 k (by omega) (bss.flatten ++ r)
  have h5 := h3 k (by omega) r
  rw [fieldsOf_typeIds] at h4 h5
  have key : evalSkipBody rt (skipC rt (genProg x S) k) bss.length (genSkipBody kd n.fields) (b0 ++ bss.flatten ++ r) = .ok r := by
    rw [evalSkipBody, once_eq, loop_eq, List.append_assoc, h4]
    exact h5
  cases kd with
  | into =>
    simp only [skipC, codec_struct_into hS hN hn, evalSkip, genStructInto]
    exact key
  | emplace =>
    simp only [skipC, codec_struct_emplace hS hN hn, evalSkip, genStructEmplace]
    exact key

/-- If all fields are given by names, the count does not matter. -/
theorem count_irrelevant (hS : Plain S) (hN : DartNamed x S) (kd : Kind) {n : StructNode} (hn : .struct n ∈ S)
    (h : ∀ f ∈ fieldsOf n, ∃ id, f.2 = .other id) (k c c' : Nat) (bs : Bytes) :
    skipC rt (genProg x S) k (.plain kd n.id) c bs = skipC rt (genProg x S) k (.plain kd n.id) c' bs := by
  have e : ∀ kd, (genSkipBody kd n.fields).loop = [] := by
    intro kd
    rw [loop_eq, List.map_eq_nil_iff, List.filter_eq_nil_iff, ← fieldsOf_typeIds]
    intro t ht
    obtain ⟨f, hf, rfl⟩ := List.mem_map.1 ht
    obtain ⟨id, e⟩ := h f hf
    simp [e, isNamed]
  have tn : ∀ c bs, times (evalSkips rt (skipC rt (genProg x S) (k - 1)) []) c bs = .ok bs := by
    intro c
    induction c with
    | zero => exact fun _ => rfl
    | succ c ih => exact fun bs => ih bs
  cases k with
  | zero => rfl
  | succ k =>
    cases kd with
    | into =>
      simp only [skipC, codec_struct_into hS hN hn, evalSkip, genStructInto, evalSkipBody, e]
      congr 1
      funext b
      exact (tn c b).trans (tn c' b).symm
    | emplace =>
      simp only [skipC, codec_struct_emplace hS hN hn, evalSkip, genStructEmplace, evalSkipBody, e]
      congr 1
      funext b
      exact (tn c b).trans (tn c' b).symm

end TPB.Dart
