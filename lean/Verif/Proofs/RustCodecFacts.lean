/-
Facts about the code emitted for an accepted schema, used by the property theorems of
`Props/RustCodec.lean`.
-/
import Verif.Proofs.RustText
import Verif.Proofs.RustCodec
import Verif.Props.Parser
namespace TPB.Props
open Spec Rust

/-- The schema is the result of parsing some token sequence. -/
def Accepted (S : List ASTNode) : Prop := ∃ ts, parse ts = .ok S

theorem Accepted.wf {S : List ASTNode} (h : Accepted S) : WFSchema 0 S := by
  obtain ⟨ts, h⟩ := h
  exact C09_results_wellformed ts S h

/-- The buffers section of the generated file is the printed form of the `impl` blocks that are run
by the evaluator. -/
theorem emitted_buffers (S : List ASTNode) :
    RustGen.buffers S = linesText 4 (joinBlocks ((genProg S).impls.map Impl.render)) := buffers_render S

/-- The models section is the printed form of the type declarations (with their `impl Default`). -/
theorem emitted_models (S : List ASTNode) (h : Accepted S) :
    RustGen.models S = .ok (linesText 4 (joinBlocks ((genItems S).map TypeItem.render))) ∧
    (genItems S).map (·.decl) = (genProg S).decls := by
  have hne : ∀ n, .enum n ∈ S → n.items ≠ [] := by
    intro n hn
    obtain ⟨j, hj⟩ := wfSchema_mem S 0 h.wf _ hn
    exact hj.1
  refine ⟨models_render S hne, ?_⟩
  unfold genItems genProg
  rw [List.map_filterMap]
  have hcongr : ∀ (f g : ASTNode → Option Decl) (l : List ASTNode), (∀ d ∈ l, f d = g d) →
      l.filterMap f = l.filterMap g := by
    intro f g l h
    induction l with
    | nil => rfl
    | cons a l ih => simp [List.filterMap_cons, h a (by simp), ih (fun d hd => h d (by simp [hd]))]
  refine hcongr _ _ S ?_
  intro d hd
  cases d with
  | enum n =>
    have := hne n hd
    cases hi : n.items with
    | nil => exact absurd hi this
    | cons i is => simp [hi]
  | _ => rfl

/-- The generator prints the program `genProg S`. -/
theorem prints_genProg (S : List ASTNode) (h : Accepted S) : Prints S (genProg S) :=
  ⟨⟨genItems S, (emitted_models S h).2, (emitted_models S h).1⟩, emitted_buffers S⟩

theorem readMany_single {rec : Ty → Bytes → Res (Val × Bytes)} {t : Ty} {bs : Bytes} {v : Val} {r : Bytes}
    (h : readMany rec [t] bs = .ok ([v], r)) : rec t bs = .ok (v, r) := by
  simp only [readMany, bind, Except.bind] at h
  cases hr : rec t bs with
  | error e => rw [hr] at h; simp at h
  | ok p => rw [hr] at h; simpa [Prod.ext_iff] using h

theorem writeMany_single {rec : Ty → Val → Res Bytes} {t : Ty} {bs : Bytes} {v : Val}
    (h : writeMany rec [t] [v] = .ok bs) : rec t v = .ok bs := by
  simp only [writeMany, bind, Except.bind] at h
  cases hr : rec t v with
  | error e => rw [hr] at h; simp at h
  | ok p => rw [hr] at h; simpa using h

theorem enc_reads {rt : Runtime} (hrt : rt.Lawful) {S : List ASTNode} (hA : Accepted S) (hN : WellNamed S)
    (hD : DistinctNumbers S) {t : TypeId} (ht : WFType t) {v : Val} {bs : Bytes}
    (h : Enc rt.wire S [t] [v] bs) (r : Bytes) : Reads rt (genProg S) t (bs ++ r) v r := by
  obtain ⟨N, hk⟩ := read_enc hrt hN (typesOk_of_wf hA.wf) hD h (by simpa using ht)
  exact ⟨N, fun k hle => readMany_single (hk k hle r)⟩

theorem enc_writes {rt : Runtime} {S : List ASTNode} (hA : Accepted S) (hN : WellNamed S)
    (hW : NoWriterClash S) {t : TypeId} (ht : WFType t) {v : Val} {bs : Bytes}
    (h : Enc rt.wire S [t] [v] bs) : Writes rt (genProg S) t v bs := by
  obtain ⟨N, hk⟩ := write_enc hN (typesOk_of_wf hA.wf) hW h (by simpa using ht)
  exact ⟨N, fun k hle => writeMany_single (hk k hle)⟩

theorem Writes.unique {rt : Runtime} {P : Prog} {t : TypeId} {v : Val} {b b' : Bytes}
    (h : Writes rt P t v b) (h' : Writes rt P t v b') : b = b' := by
  obtain ⟨N, h⟩ := h
  obtain ⟨N', h'⟩ := h'
  have := (h (N + N') (by omega)).symm.trans (h' (N + N') (by omega))
  exact Except.ok.inj this

theorem Reads.unique {rt : Runtime} {P : Prog} {t : TypeId} {v v' : Val} {b r r' : Bytes}
    (h : Reads rt P t b v r) (h' : Reads rt P t b v' r') : v = v' ∧ r = r' := by
  obtain ⟨N, h⟩ := h
  obtain ⟨N', h'⟩ := h'
  have := (h (N + N') (by omega)).symm.trans (h' (N + N') (by omega))
  simpa using Except.ok.inj this

/-- Reading a value `count` times, keeping only the position of the reader. -/
def readTimes (rt : Runtime) (P : Prog) (k : Nat) (t : TypeId) : Nat → Bytes → Res Bytes
  | 0, bs => .ok bs
  | c + 1, bs =>
    match readTy rt P k (genTy t) bs with
    | .ok (_, r) => readTimes rt P k t c r
    | .error e => .error e

theorem times_congr (rt : Runtime) (S : List ASTNode) (k : Nat) (t : TypeId) (f : Bytes → Res Bytes)
    (h : ∀ bs, f bs = (match readTy rt (genProg S) k (genTy t) bs with | .ok (_, r) => .ok r | .error e => .error e)) :
    ∀ c bs, times f c bs = readTimes rt (genProg S) k t c bs
  | 0, _ => rfl
  | c + 1, bs => by
    simp only [times, readTimes, h]
    cases readTy rt (genProg S) k (genTy t) bs with
    | error e => rfl
    | ok p => exact times_congr rt S k t f h c p.2

/-- For every count and every buffer contents, skipping behaves exactly like reading that many
values: it leaves the reader at the same place, and it fails exactly when (and how) reading fails. -/
theorem rust_skip (rt : Runtime) (S : List ASTNode) (hA : Accepted S) (hN : WellNamed S)
    (id : String) (hid : id ∈ typeNames S) (k : Nat) (count : Nat) (bs : Bytes) :
    skipTy rt (genProg S) (k + 1) id count bs = readTimes rt (genProg S) (k + 2) (.other id) count bs := by
  have hT := typesOk_of_wf hA.wf
  obtain ⟨d, hd, hdid⟩ := List.mem_filterMap.1 hid
  cases d with
  | struct n =>
    simp only [Option.some.injEq] at hdid
    subst hdid
    have hts : ∀ t ∈ (fieldsOf n).map (·.2), WFType t := by
      intro t ht
      obtain ⟨f, hf, rfl⟩ := List.mem_map.1 ht
      exact hT.1 n hd f hf
    unfold skipTy
    rw [impl_struct hN hd]
    simp only
    cases hf : n.fields with
    | nil =>
      simp only [genStructImpl, hf, evalSkipBody]
      have : ∀ c, readTimes rt (genProg S) (k + 2) (.other n.id) c bs = .ok bs := by
        intro c
        induction c with
        | zero => rfl
        | succ c ih =>
          simp only [readTimes, genTy, readTy_struct hN hT hd, fieldsOf, hf, List.map_nil, readMany, bind,
            Except.bind]
          exact ih
      rw [this]
    | cons f fs =>
      simp only [genStructImpl, hf, evalSkipBody]
      apply times_congr
      intro bs
      rw [← hf]
      have e1 : n.fields.map (fun f => genRead f.typeId) = ((fieldsOf n).map (·.2)).map genRead := by
        simp [fieldsOf, Function.comp_def]
      rw [e1, evalReads_gen hN k _ hts, genTy, readTy_struct hN hT hd]
      cases readMany (readTy rt (genProg S) (k + 1)) (((fieldsOf n).map (·.2)).map genTy) bs <;> rfl
  | enum n =>
    simp only [Option.some.injEq] at hdid
    subst hdid
    unfold skipTy
    rw [impl_enum hN hd]
    simp only [genEnumImpl, evalSkipBody]
    apply times_congr
    intro bs
    rw [genTy, readTy_enum hN hT hd]
    have e : ∀ bs, evalReadE rt (readTy rt (genProg S) (k + 1)) (genRead u32TypeId) bs
      = orElse .panic (rt.readP "u32" bs) := fun _ => rfl
    rw [e]
    cases orElse .panic (rt.readP "u32" bs) with
    | error e => rfl
    | ok p =>
      obtain ⟨value, bs'⟩ := p
      simp only [bind, Except.bind]
      rw [List.find?_map]
      have e2 : ((fun a : Nat × Option (List ReadE) => tagIs value a.1) ∘ genSkipArm)
          = (fun i => tagIs value i.position) := by
        funext i
        cases i <;> rfl
      rw [e2]
      cases hf : n.items.find? (fun i => tagIs value i.position) with
      | none => rfl
      | some i =>
        have hi := List.mem_of_find?_eq_some hf
        have ht : ∀ t ∈ (payload i).map (·.2), WFType t := by
          intro t ht
          obtain ⟨f, hf, rfl⟩ := List.mem_map.1 ht
          exact hT.2 n hd i hi f hf
        cases i with
        | empty p id => rfl
        | tuple p id vs =>
          simp only [Option.map_some, genSkipArm]
          have e1 : vs.map (fun v => genRead v.typeId) = ((payload (.tuple p id vs)).map (·.2)).map genRead := by
            simp only [payload, map_snd_mapIdx, List.map_map]; rfl
          rw [e1, evalReads_gen hN k _ ht]
          cases readMany (readTy rt (genProg S) (k + 1)) (((payload (.tuple p id vs)).map (·.2)).map genTy) bs' <;> rfl
        | struct p id fs =>
          simp only [Option.map_some, genSkipArm]
          have e1 : fs.map (fun f => genRead f.typeId) = ((payload (.struct p id fs)).map (·.2)).map genRead := by
            simp [payload, Function.comp_def]
          rw [e1, evalReads_gen hN k _ ht]
          cases readMany (readTy rt (genProg S) (k + 1)) (((payload (.struct p id fs)).map (·.2)).map genTy) bs' <;> rfl
  | _ => simp at hdid

/-- On encoded values: skipping `vs.length` values of a type moves past their encodings. -/
theorem rust_skip_values (rt : Runtime) (hrt : rt.Lawful) (S : List ASTNode) (hA : Accepted S) (hN : WellNamed S)
    (hD : DistinctNumbers S) (id : String) (hid : id ∈ typeNames S) (vs : List Val) (bs : Bytes)
    (h : Enc rt.wire S (List.replicate vs.length (.other id)) vs bs) :
    ∃ N, ∀ k, N ≤ k → ∀ r, skipTy rt (genProg S) k id vs.length (bs ++ r) = .ok r := by
  have hb := hN.builtins id hid
  have hwf : WFType (.other id) := by
    have := WFType.name id
    rwa [typeOfName, hb] at this
  obtain ⟨N, hk⟩ := read_enc hrt hN (typesOk_of_wf hA.wf) hD h (by
    intro t ht
    rw [List.eq_of_mem_replicate ht]; exact hwf)
  refine ⟨N + 1, fun k hle r => ?_⟩
  obtain ⟨k, rfl⟩ : ∃ j, k = j + 1 := ⟨k - 1, by omega⟩
  rw [rust_skip rt S hA hN id hid]
  replace hk := hk (k + 2) (by omega) r
  generalize bs ++ r = c at hk
  clear h
  induction vs generalizing c with
  | nil => simp [readMany] at hk; simp [readTimes, hk]
  | cons v vs ih =>
    simp only [List.length_cons, List.replicate_succ, List.map_cons, readMany, bind, Except.bind] at hk
    simp only [List.length_cons, readTimes]
    cases hr : readTy rt (genProg S) (k + 2) (genTy (.other id)) c with
    | error e => rw [hr] at hk; simp at hk
    | ok p =>
      rw [hr] at hk
      simp only at hk
      apply ih
      cases hm : readMany (readTy rt (genProg S) (k + 2)) ((List.replicate vs.length (TypeId.other id)).map genTy) p.2 with
      | error e => rw [hm] at hk; simp at hk
      | ok q =>
        rw [hm] at hk
        simp only [Except.ok.injEq, Prod.mk.injEq, List.cons.injEq] at hk
        simp only [Except.ok.injEq, Prod.ext_iff]
        exact ⟨hk.1.2, hk.2⟩

theorem Enc.append {W : Wire} {S : List ASTNode} {ts us : List TypeId} {vs ws : List Val} {b c : Bytes}
    (h : Enc W S ts vs b) (h' : Enc W S us ws c) : Enc W S (ts ++ us) (vs ++ ws) (b ++ c) := by
  induction h with
  | nil => exact h'
  | leaf t p v b ts vs bs hp hb _ ih => rw [List.append_assoc]; exact .leaf t p v b _ _ _ hp hb ih
  | struct n fvs b ts vs bs hn h1 _ _ ih => rw [List.append_assoc]; exact .struct n fvs b _ _ _ hn h1 ih
  | enum n i tag pvs b ts vs bs hn hi htag h1 _ _ ih =>
    rw [List.append_assoc]; exact .enum n i tag pvs b _ _ _ hn hi htag h1 ih
  | list c gs shape hd its items b ts vs bs hh hp h1 _ _ ih =>
    rw [List.append_assoc]; exact .list c gs shape hd its items b _ _ _ hh hp h1 ih
  | ext id v b ts vs bs hid hb _ ih => rw [List.append_assoc]; exact .ext id v b _ _ _ hid hb ih

/-- Every encoding of several values is the concatenation of encodings of the values. -/
theorem Enc.split {W : Wire} {S : List ASTNode} {ts : List TypeId} {vs : List Val} {b : Bytes}
    (h : Enc W S ts vs b) : ∃ bss : List Bytes, b = bss.flatten ∧ bss.length = vs.length ∧ ts.length = vs.length ∧
      ∀ (i : Nat) (h1 : i < ts.length) (h2 : i < vs.length) (h3 : i < bss.length),
        Enc W S [ts[i]] [vs[i]] bss[i] := by
  have ext : ∀ {t : TypeId} {v : Val} {b : Bytes} {ts : List TypeId} {vs : List Val} {bs : Bytes},
      Enc W S [t] [v] b →
      (∃ bss : List Bytes, bs = bss.flatten ∧ bss.length = vs.length ∧ ts.length = vs.length ∧
        ∀ (i : Nat) (h1 : i < ts.length) (h2 : i < vs.length) (h3 : i < bss.length),
          Enc W S [ts[i]] [vs[i]] bss[i]) →
      ∃ bss : List Bytes, b ++ bs = bss.flatten ∧ bss.length = (v :: vs).length ∧ (t :: ts).length = (v :: vs).length ∧
        ∀ (i : Nat) (h1 : i < (t :: ts).length) (h2 : i < (v :: vs).length) (h3 : i < bss.length),
          Enc W S [(t :: ts)[i]] [(v :: vs)[i]] bss[i] := by
    intro t v b ts vs bs h0 ⟨bss, e1, e2, e3, e4⟩
    refine ⟨b :: bss, by simp [e1], by simp [e2], by simp [e3], ?_⟩
    intro i h1 h2 h3
    cases i with
    | zero => exact h0
    | succ i => exact e4 i (by simpa using h1) (by simpa using h2) (by simpa using h3)
  induction h with
  | nil => exact ⟨[], rfl, rfl, rfl, by simp⟩
  | leaf t p v b ts vs bs hp hb _ ih =>
    exact ext (by simpa using Enc.leaf t p v b [] [] [] hp hb .nil) ih
  | struct n fvs b ts vs bs hn h1 _ _ ih =>
    exact ext (by simpa using Enc.struct n fvs b [] [] [] hn h1 .nil) ih
  | enum n i tag pvs b ts vs bs hn hi htag h1 _ _ ih =>
    exact ext (by simpa using Enc.enum n i tag pvs b [] [] [] hn hi htag h1 .nil) ih
  | list c gs shape hd its items b ts vs bs hh hp h1 _ _ ih =>
    exact ext (by simpa using Enc.list c gs shape hd its items b [] [] [] hh hp h1 .nil) ih
  | ext id v b ts vs bs hid hb _ ih =>
    exact ext (by simpa using Enc.ext id v b [] [] [] hid hb .nil) ih

/-- `bs` consists of what the emitted code writes for the values `vs` of types `ts`, one after the
other with nothing in between. -/
def WritesEach (rt : Runtime) (P : Prog) (ts : List TypeId) (vs : List Val) (bs : Bytes) : Prop :=
  ∃ bss : List Bytes, bs = bss.flatten ∧ bss.length = vs.length ∧ ts.length = vs.length ∧
    ∀ (i : Nat) (h1 : i < ts.length) (h2 : i < vs.length) (h3 : i < bss.length),
      Writes rt P ts[i] vs[i] bss[i]

theorem enc_writesEach {rt : Runtime} {S : List ASTNode} (hA : Accepted S) (hN : WellNamed S)
    (hW : NoWriterClash S) {ts : List TypeId} (ht : ∀ t ∈ ts, WFType t) {vs : List Val} {bs : Bytes}
    (h : Enc rt.wire S ts vs bs) : WritesEach rt (genProg S) ts vs bs := by
  obtain ⟨bss, e1, e2, e3, e4⟩ := Enc.split h
  exact ⟨bss, e1, e2, e3, fun i h1 h2 h3 => enc_writes hA hN hW (ht _ (List.getElem_mem h1)) (e4 i h1 h2 h3)⟩

theorem pick_replicate_zero {α : Type} (a : α) (n : Nat) :
    pick [a] (List.replicate n 0) = some (List.replicate n a) := by
  induction n with
  | zero => rfl
  | succ n ih => simp [List.replicate_succ, pick, ih]


end TPB.Props
