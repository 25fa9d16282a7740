/- The Dart code generated for a schema can be read back if the names of the schema can be names in Dart. -/
import Verif.Proofs.DartReaderModels
import Verif.Proofs.DartTyping
import Verif.Proofs.RustReaderGen
namespace TPB.Spec.DartReader
open Dart DartGen Pieces Combinators DartRules

/-- A type of an accepted schema whose names can be names in Dart. -/
def GoodT (t : TypeId) : Prop := WFType t ∧ ∀ w ∈ typeWords t, DartName w

theorem GoodT.arg {id : String} {gs : List TypeId} (h : GoodT (.generic id gs)) {g : TypeId} (hg : g ∈ gs) : GoodT g := by
  refine ⟨?_, fun w hw => h.2 w (by rw [typeWords]; exact List.mem_cons_of_mem _ ((RustReader.typesWords_mem gs w).2 ⟨g, hg, hw⟩))⟩
  rcases Rust.wf_cases h.1 with ⟨id, h1, _⟩ | ⟨id, h1, _⟩ | ⟨c, gs', h1, h2⟩
  · cases h1
  · simp [builtin?] at h1
  · cases h1; exact h2 g hg

theorem GoodT.args_ne {id : String} {gs : List TypeId} (h : WFType (.generic id gs)) : gs ≠ [] := by
  generalize ht : TypeId.generic id gs = t at h
  cases h with
  | name n =>
    rcases Rust.name_cases n with ⟨_, h2⟩ | ⟨_, h2⟩
    · rw [h2] at ht; cases ht
    · rw [← ht] at h2; simp [builtin?] at h2
  | generic c gs hne _ => cases ht; exact hne

theorem GoodT.head {id : String} {gs : List TypeId} (h : GoodT (.generic id gs)) : DartName id := h.2 _ (by simp [typeWords])

theorem dartName_lit {w : String} (h : isIdent w = true ∧ w ∉ dartReserved) : DartName w := h

theorem listName_ok {id : String} (h : DartName id) : DartName (DartGen.listName id) := by
  unfold DartGen.listName
  split
  · exact dartName_lit (by decide)
  · exact h

theorem legTy_gen {t : TypeId} (hw : WFType t) : (∀ w ∈ typeWords t, DartName w) → LegTy (genTy t) := by
  induction hw with
  | name n =>
    intro h
    cases ht : typeOfName n with
    | other id => rw [genTy]; exact .named _ (h id (by rw [ht]; simp [typeWords]))
    | generic c gs =>
      rcases Rust.name_cases n with ⟨_, h2⟩ | ⟨_, h2⟩
      · rw [ht] at h2; cases h2
      · rw [ht] at h2; simp [builtin?] at h2
    | _ => rw [genTy]; exact .named _ (dartName_lit (by decide))
  | generic n as hne has ih =>
    intro h
    rw [genTy, genTys_eq]
    refine .app _ _ (listName_ok (h n (by simp [typeWords]))) (by simpa using hne) ?_
    intro t ht
    obtain ⟨a, ha, rfl⟩ := List.mem_map.1 ht
    exact ih a ha (fun w hw => h w (by rw [typeWords]; exact List.mem_cons_of_mem _ ((RustReader.typesWords_mem as w).2 ⟨a, ha, hw⟩)))

theorem GoodT.leg {t : TypeId} (h : GoodT t) : LegTy (genTy t) := legTy_gen h.1 h.2

theorem GoodT.legs {id : String} {gs : List TypeId} (h : GoodT (.generic id gs)) : ∀ a ∈ gs.map genTy, LegTy a := by
  intro t ht
  obtain ⟨a, ha, rfl⟩ := List.mem_map.1 ht
  exact (h.arg ha).leg

theorem classPrefix_ok {g : TypeId} (h : GoodT g) : isIdent (DartGen.classPrefix g) = true := by
  cases g with
  | other id => exact (h.2 id (by simp [typeWords])).1
  | generic id gs => exact (listName_ok h.head).1
  | _ => rw [DartGen.classPrefix]; decide

theorem tail_method (t : TypeId) : Tail (methodOf t) := by
  unfold methodOf Tail
  cases t <;> simp only <;> repeat' split
  all_goals decide +kernel

theorem legCodec_g (k : Kind) {id : String} {gs : List TypeId} (h : GoodT (.generic id gs)) : LegCodec (genCodecG k id gs) := by
  have hne : gs ≠ [] := GoodT.args_ne h.1
  have hl := h.legs
  unfold genCodecG
  split
  · next g =>
    split
    · exact ⟨(h.arg (by simp)).leg, classPrefix_ok (h.arg (by simp))⟩
    · exact ⟨h.head.1, by simp, by simpa using hl⟩
  · exact ⟨h.head.1, by simpa using hne, hl⟩

theorem legRead_gen {t : TypeId} (h : GoodT t) : LegRead (genRead t) := by
  cases t with
  | other id => exact (h.2 id (by simp [typeWords])).1
  | generic id gs => exact legCodec_g .into h
  | _ => exact tail_method _

theorem legEmpl_gen {t : TypeId} (h : GoodT t) {f : String} (hf : DartName f) : LegEmpl (genReadEmplace t (.field f)) := by
  cases t with
  | other id =>
    rw [genReadEmplace]
    have : isIdent id = true := (h.2 id (by simp [typeWords])).1
    split
    · exact ⟨hf, this⟩
    · exact ⟨this, hf⟩
  | generic id gs => exact ⟨legCodec_g .emplace h, hf⟩
  | _ => exact ⟨hf, tail_method _⟩

theorem legSkip_gen (k : Kind) {t : TypeId} (h : GoodT t) : LegSkip (genSkip k t) := by
  cases t with
  | other id => exact (h.2 id (by simp [typeWords])).1
  | generic id gs => exact legCodec_g k h
  | _ => exact tail_method _

theorem legWrite_gen (k : Kind) {t : TypeId} (h : GoodT t) {f : String} (hf : DartName f) : LegWrite (genWrite k t (.field f)) := by
  cases t with
  | other id => exact ⟨(h.2 id (by simp [typeWords])).1, hf⟩
  | generic id gs => exact ⟨legCodec_g k h, hf⟩
  | _ => exact ⟨tail_method _, hf⟩

theorem legDef_gen {t : TypeId} (h : GoodT t) : LegDef (genDef t) := by
  cases t with
  | other id => exact (h.2 id (by simp [typeWords])).1
  | generic id gs => exact ⟨(listName_ok h.head).1, by simpa using GoodT.args_ne h.1, h.legs⟩
  | _ => trivial

variable {x : Ext}

/-- A class whose names and types are in order. -/
def GoodClass (x : Ext) (n : StructNode) : Prop := DartName n.id ∧ ∀ f ∈ n.fields, DartName (x.camel f.name) ∧ GoodT f.typeId

theorem legSkips_gen (k : Kind) {n : StructNode} (h : GoodClass x n) : LegSkips (genSkipBody k n.fields) := by
  refine ⟨fun s hs => ?_, fun s hs => ?_⟩ <;>
  · obtain ⟨f, hf, rfl⟩ := List.mem_map.1 hs
    exact legSkip_gen k (h.2 f (List.mem_filter.1 hf).1).2

theorem legInto {n : StructNode} (h : GoodClass x n) : LegClass (genStructInto x n) := by
  refine ⟨h.1.1, fun l hl => ?_, fun a ha => ?_, fun s hs => ?_, legSkips_gen .into h⟩
  · obtain ⟨f, hf, rfl⟩ := List.mem_map.1 hl
    exact ⟨(h.2 f hf).1, legRead_gen (h.2 f hf).2⟩
  · obtain ⟨f, hf, rfl⟩ := List.mem_map.1 ha
    exact ⟨(h.2 f hf).1, (h.2 f hf).1⟩
  · obtain ⟨f, hf, rfl⟩ := List.mem_map.1 hs
    exact legWrite_gen .into (h.2 f hf).2 (h.2 f hf).1

theorem legEmplace {n : StructNode} (h : GoodClass x n) : LegClass (genStructEmplace x n) := by
  refine ⟨h.1.1, fun s hs => ?_, fun s hs => ?_, legSkips_gen .emplace h⟩
  · obtain ⟨f, hf, rfl⟩ := List.mem_map.1 hs
    exact legEmpl_gen (h.2 f hf).2 (h.2 f hf).1
  · obtain ⟨f, hf, rfl⟩ := List.mem_map.1 hs
    exact legWrite_gen .emplace (h.2 f hf).2 (h.2 f hf).1

theorem legStruct_gen {n : StructNode} (h : GoodClass x n) : LegStruct (genStructClass x n) where
  id := h.1
  fields := by
    intro g hg
    obtain ⟨f, hf, rfl⟩ := List.mem_map.1 hg
    exact ⟨(h.2 f hf).2.leg, (h.2 f hf).1⟩
  ctor := by
    intro g hg
    obtain ⟨f, hf, rfl⟩ := List.mem_map.1 hg
    exact (h.2 f hf).1
  inits := by
    intro g hg
    obtain ⟨f, hf, rfl⟩ := List.mem_map.1 hg
    exact ⟨(h.2 f hf).1, legDef_gen (h.2 f hf).2⟩
  none := by
    intro he
    have he : n.fields = [] := by simpa [genStructClass] using he
    simp [genStructClass, he]
  some := by
    intro he
    simpa [genStructClass] using he

/-! ### The trees of a schema -/

section
variable {S : List ASTNode} (hw : WFSchema 0 S) (hR : DartReadable x S)
include hw hR

theorem goodStruct {n : StructNode} (hn : .struct n ∈ S) : GoodClass x n := by
  obtain ⟨j, hj⟩ := Rust.wfSchema_mem' S 0 hw _ hn
  obtain ⟨h1, h2⟩ := hR.structs n hn
  refine ⟨h1, fun f hf => ⟨h2 _ (List.mem_map.2 ⟨f, hf, rfl⟩), hj.1.2 f hf, hR.types _ hn _ ?_⟩⟩
  simp only [directTypes, fieldsOf, List.map_map]
  exact List.mem_map.2 ⟨f, hf, rfl⟩

theorem goodPayload {n : EnumNode} (hn : .enum n ∈ S) {i : EnumItem} (hi : i ∈ n.items) :
    ∀ t ∈ (payload i).map (·.2), GoodT t := by
  obtain ⟨j, hj⟩ := Rust.wfSchema_mem' S 0 hw _ hn
  intro t ht
  refine ⟨?_, hR.types _ hn t (by simp only [directTypes]; exact List.mem_flatMap.2 ⟨i, hi, ht⟩)⟩
  have h2 := hj.2.2 i hi
  cases i with
  | empty => simp [payload] at ht
  | tuple p id vs =>
    have : (payload (.tuple p id vs)).map (·.2) = vs.map (·.typeId) := by simp only [payload]; exact Rust.map_snd_mapIdx vs
    rw [this] at ht
    obtain ⟨v, hv, rfl⟩ := List.mem_map.1 ht
    exact h2.2 v hv
  | struct p id fs =>
    have : (payload (.struct p id fs)).map (·.2) = fs.map (·.typeId) := by simp [payload, Function.comp_def]
    rw [this] at ht
    obtain ⟨v, hv, rfl⟩ := List.mem_map.1 ht
    exact h2.2 v hv

theorem goodItem {n : EnumNode} (hn : .enum n ∈ S) {i : EnumItem} (hi : i ∈ n.items) : GoodClass x (enumItemStruct n i) := by
  obtain ⟨h1, _, _, h4⟩ := hR.variants n hn i hi
  refine ⟨by rw [itemStruct_id]; exact h1, fun f hf => ⟨h4 _ ?_, goodPayload hw hR hn hi _ ?_⟩⟩
  · rw [← itemStruct_names n i]; exact List.mem_map.2 ⟨f, hf, rfl⟩
  · rw [← itemStruct_types n i]; exact List.mem_map.2 ⟨f, hf, rfl⟩

theorem legCodecs : ∀ c ∈ genCodecs x S, LegClass c := by
  intro c hc
  obtain ⟨d, hd, hc⟩ := List.mem_flatMap.1 hc
  cases d with
  | struct n =>
    have h := goodStruct hw hR hd
    rcases List.mem_append.1 hc with hc | hc
    · split at hc
      · rw [List.mem_singleton] at hc; subst hc; exact legEmplace h
      · simp at hc
    · split at hc
      · rw [List.mem_singleton] at hc; subst hc; exact legInto h
      · simp at hc
  | enum n =>
    have hv := hR.variants n hd
    have hread : ∀ r ∈ n.items.map (genReadCase x n), LegReadCase r := by
      intro r hr
      obtain ⟨i, hi, rfl⟩ := List.mem_map.1 hr
      exact ⟨(hv i hi).2.1, (hv i hi).1.1, (hv i hi).2.1⟩
    have hwrite : ∀ r ∈ n.items.map (genWriteCase x n), LegWriteCase r := by
      intro r hr
      obtain ⟨i, hi, rfl⟩ := List.mem_map.1 hr
      exact ⟨(hv i hi).2.1, (hv i hi).1.1, (hv i hi).2.1⟩
    have hskip : ∀ r ∈ n.items.map (genSkipCase n), LegCodec r.codec := by
      intro r hr
      obtain ⟨i, hi, rfl⟩ := List.mem_map.1 hr
      exact (hv i hi).1.1
    rcases List.mem_append.1 hc with hc | hc
    · obtain ⟨i, hi, rfl⟩ := List.mem_map.1 hc
      exact legEmplace (goodItem hw hR hd hi)
    · simp only [List.mem_cons, List.not_mem_nil, or_false] at hc
      rcases hc with rfl | rfl
      · exact ⟨hR.enums n hd, hread, hwrite, hskip⟩
      · exact ⟨hR.enums n hd, hread, hwrite, hskip⟩
  | _ => simp at hc

omit hw hR in
theorem tail_of_to {m : String} (h : isIdent ("to" ++ m) = true) : Tail m := by
  have := ident_tail h
  unfold Tail at *
  rw [String.toList_append, List.all_append, Bool.and_eq_true] at this
  exact this.2

omit hw hR in
theorem dartName_v (n : Nat) : DartName ("v" ++ toString n) := by
  refine ⟨(RustReader.rustName_v n).1, ?_⟩
  have e : (toString n).toList = Nat.toDigits 10 n := by simp [toString, Nat.repr]
  have hd := toDigits_decimal n
  intro hk
  have key : ∀ w ∈ dartReserved, ¬ ∃ c cs, w.toList = 'v' :: c :: cs ∧ c.isDigit = true := by
    have : ∀ w ∈ dartReserved, (match w.toList with | 'v' :: c :: _ => c.isDigit | _ => false) = false := by decide
    rintro w hw ⟨c, cs, h1, h2⟩
    have := this w hw
    rw [h1] at this
    simp [h2] at this
  refine key _ hk ?_
  rw [String.toList_append, e]
  match hm : Nat.toDigits 10 n, hd with
  | [], hd => exact absurd rfl hd.1
  | c :: cs, hd => exact ⟨c, cs, rfl, (isDigit_iff c).2 (hd.2 c (by simp))⟩

theorem legV_gen {n : EnumNode} (hn : .enum n ∈ S) {i : EnumItem} (hi : i ∈ n.items) : LegV (genVMethod x i) := by
  obtain ⟨_, h2, h3, h4⟩ := hR.variants n hn i hi
  have ht := tail_of_to h3
  have hp := goodPayload hw hR hn hi
  cases i with
  | empty p id => exact ⟨ht, h2, h2, trivial, by simp [genVMethod], fun _ => rfl, fun _ => rfl⟩
  | tuple p id vs =>
    have hvs : vs ≠ [] := by rintro rfl; exact hR.payloads n hn p id hi
    have hwi : withIdx 0 vs ≠ [] := by cases vs with
      | nil => exact absurd rfl hvs
      | cons v vs => simp [withIdx]
    have hm : ∀ q ∈ withIdx 0 vs, GoodT q.2.typeId := by
      have key : ∀ (vs : List TupleField) (k : Nat), ∀ q ∈ withIdx k vs, q.2 ∈ vs := by
        intro vs
        induction vs with
        | nil => intro k q hq; simp [withIdx] at hq
        | cons v vs ih =>
          intro k q hq
          rw [withIdx] at hq
          rcases List.mem_cons.1 hq with rfl | hq
          · simp
          · exact List.mem_cons_of_mem _ (ih _ q hq)
      intro q hq
      refine hp _ ?_
      have : (payload (.tuple p id vs)).map (·.2) = vs.map (·.typeId) := by simp only [payload]; exact Rust.map_snd_mapIdx vs
      rw [this]
      exact List.mem_map.2 ⟨q.2, key vs 0 q hq, rfl⟩
    refine ⟨ht, h2, h2, ⟨by simpa using hwi, ?_⟩, ?_, fun _ => rfl, fun h => by simp [genVMethod] at h⟩
    · intro q hq
      obtain ⟨f, hf, rfl⟩ := List.mem_map.1 hq
      exact ⟨(hm f hf).leg, dartName_v _⟩
    · intro q hq
      obtain ⟨f, hf, rfl⟩ := List.mem_map.1 hq
      exact ⟨dartName_v _, dartName_v _⟩
  | struct p id fs =>
    have hn' : ∀ f ∈ fs, DartName (x.camel f.name) := fun f hf => h4 _ (List.mem_map.2 ⟨f, hf, rfl⟩)
    refine ⟨ht, h2, h2, ?_, ?_, fun _ => rfl, fun h => by simp [genVMethod] at h⟩
    · intro q hq
      obtain ⟨f, hf, rfl⟩ := List.mem_map.1 hq
      refine ⟨(hp _ ?_).leg, hn' f hf⟩
      simp only [payload, List.map_map]
      exact List.mem_map.2 ⟨f, hf, rfl⟩
    · intro q hq
      obtain ⟨f, hf, rfl⟩ := List.mem_map.1 hq
      exact ⟨hn' f hf, hn' f hf⟩

theorem legItems : ∀ i ∈ genItems x S, LegItem i := by
  intro i hi
  obtain ⟨d, hd, he⟩ := List.mem_filterMap.1 hi
  cases d with
  | struct n =>
    simp only [Option.some.injEq] at he
    subst he
    exact legStruct_gen (goodStruct hw hR hd)
  | enum n =>
    have hv := hR.variants n hd
    cases hh : n.items.head? with
    | none => simp [hh] at he
    | some j =>
      simp only [hh, Option.map_some, Option.some.injEq] at he
      subst he
      have hj := List.mem_of_mem_head? hh
      have hne : n.items ≠ [] := by rintro h; rw [h] at hj; simp at hj
      refine ⟨⟨hR.enums n hd, ?_, (hv j hj).2.1, ?_, ?_, ?_, ?_, by simpa [genEnumClass] using hne, by simpa [genEnumClass] using hne,
        by simpa [genEnumClass] using hne⟩, ?_, by simp [genVariants, genEnumClass]⟩
      · intro v hvv
        obtain ⟨k, hk, rfl⟩ := List.mem_map.1 hvv
        exact (hv k hk).2.1
      · intro v hvv
        obtain ⟨k, hk, rfl⟩ := List.mem_map.1 hvv
        exact ⟨(hv k hk).1, (hv k hk).2.1, by cases k <;> exact (hv _ hk).1⟩
      · intro v hvv
        obtain ⟨k, hk, rfl⟩ := List.mem_map.1 hvv
        exact legV_gen hw hR hd hk
      · intro v hvv
        obtain ⟨k, hk, rfl⟩ := List.mem_map.1 hvv
        exact ⟨tail_of_to (hv k hk).2.2.1, (hv k hk).2.1⟩
      · intro v hvv
        obtain ⟨k, hk, rfl⟩ := List.mem_map.1 hvv
        exact legV_gen hw hR hd hk
      · intro v hvv
        obtain ⟨k, hk, rfl⟩ := List.mem_map.1 hvv
        exact legStruct_gen (goodItem hw hR hd hk)
  | _ => simp at he

theorem readItems_gen (u : Nat) : readItems (linesText u (renderItems (genItems x S))) = some (genItems x S) :=
  readItems_ok (legItems hw hR) u

theorem readCodecs_gen (u : Nat) :
    readCodecs (linesText u (joinBlocks ((genCodecs x S).map CodecClass.render))) = some (genCodecs x S) :=
  readCodecs_ok (legCodecs hw hR) u
end

end TPB.Spec.DartReader

namespace TPB.Dart
open Spec.DartReader
open Props (Accepted)

/-- The generator prints the program `genProg x S`, and this is what is read. -/
theorem emits_genProg {x : Ext} {S : List ASTNode} (h : Accepted S) : Emits x S (genProg x S) := by
  refine ⟨prints_genProg h, fun hR m b hm hb => ?_⟩
  obtain ⟨h1, h2⟩ := prints_genProg (x := x) h
  rw [h1] at hm
  rw [h2] at hb
  cases hm
  cases hb
  unfold readProgram genProg
  rw [readItems_gen h.wf hR, readCodecs_gen h.wf hR]

end TPB.Dart
