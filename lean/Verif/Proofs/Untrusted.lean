/-
Proofs about reading bytes of unknown origin with the emitted Rust code.
-/
import Verif.Spec.Untrusted
import Verif.Proofs.RustCodecFacts
namespace TPB.Rust
open Spec

section
variable {rt : Runtime} {S : List ASTNode}

/-- Case analysis of the type that is read. -/
theorem readTy_named_cases (hN : WellNamed S) {t : TypeId} (ht : WFType t) :
    (∃ p, builtin? t = some p) ∨ (∃ n, .struct n ∈ S ∧ t = .other n.id) ∨ (∃ n, .enum n ∈ S ∧ t = .other n.id) ∨
      (∃ id, id ∉ typeNames S ∧ t = .other id) ∨ ∃ c gs, t = .generic c gs := by
  cases t with
  | integer id s b => exact .inl ⟨id, rfl⟩
  | number id s => exact .inl ⟨id, rfl⟩
  | bool id => exact .inl ⟨id, rfl⟩
  | char id => exact .inl ⟨id, rfl⟩
  | generic c gs => exact .inr (.inr (.inr (.inr ⟨c, gs, rfl⟩)))
  | other id =>
    by_cases h : id ∈ typeNames S
    · rcases List.mem_filterMap.1 h with ⟨d, hd, e⟩
      cases d <;> simp at e
      · subst e; exact .inr (.inr (.inl ⟨_, hd, rfl⟩))
      · subst e; exact .inr (.inl ⟨_, hd, rfl⟩)
    · exact .inr (.inr (.inr (.inl ⟨id, h, rfl⟩)))

theorem readTy_ext {id : String} (hid : id ∉ typeNames S) (ht : WFType (.other id)) (k : Nat) (bs : Bytes) :
    readTy rt (genProg S) (k + 1) (genTy (.other id)) bs = orElse .panic (rt.readX id bs) := by
  simp [genTy, readTy, impl_none hid, wfType_other ht]

theorem evalReads_length {rec : Ty → Bytes → Res (Val × Bytes)} : ∀ {es : List ReadE} {bs vs bs'},
    evalReads rt rec es bs = .ok (vs, bs') → es.length = vs.length
  | [], bs, vs, bs', h => by
    simp only [evalReads, Except.ok.injEq, Prod.mk.injEq] at h
    simp [← h.1]
  | e :: es, bs, vs, bs', h => by
    simp only [evalReads, bind, Except.bind] at h
    split at h
    · simp at h
    split at h
    · simp at h
    rename_i q hq
    simp only [Except.ok.injEq, Prod.mk.injEq] at h
    obtain ⟨vs', r2⟩ := q
    have := evalReads_length hq
    simp [← h.1, this]

/-- Reading a struct, with any stack. -/
theorem readTy_struct' (hN : WellNamed S) {n : StructNode} (hn : .struct n ∈ S) (k : Nat) (bs : Bytes) :
    readTy rt (genProg S) (k + 1) (.named n.id) bs = (do
      let (vs, bs) ← evalReads rt (readTy rt (genProg S) k) (((fieldsOf n).map (·.2)).map genRead) bs
      .ok (.struct n.id (named (fieldsOf n) vs), bs)) := by
  rw [readTy, impl_struct hN hn]
  simp only [genStructImpl_id]
  cases hf : n.fields with
  | nil =>
    simp only [genStructImpl, hf, evalReadBody]
    rw [decl_struct hN hn]
    simp [genStructDecl, hf, fieldsOf, evalReads, named, bind, Except.bind]
  | cons f fs =>
    simp only [genStructImpl, hf, evalReadBody]
    rw [decl_struct hN hn]
    simp only [genStructDecl]
    rw [← hf]
    have e1 : (n.fields.map (fun f => (f.name, genRead f.typeId))).map (·.2)
        = ((fieldsOf n).map (·.2)).map genRead := by simp [fieldsOf, Function.comp_def]
    have e2 : (n.fields.map (fun f => (f.name, genRead f.typeId))).map (·.1)
        = (n.fields.map (fun f => (f.name, genTy f.typeId))).map (·.1) := by simp [Function.comp_def]
    have e3 : (n.fields.map (fun f => (f.name, genTy f.typeId))).map (·.1)
        = (fieldsOf n).map (·.1) := by simp [fieldsOf, Function.comp_def]
    rw [e1, e2]
    cases hr : evalReads rt (readTy rt (genProg S) k) (((fieldsOf n).map (·.2)).map genRead) bs with
    | error e => rfl
    | ok p =>
      obtain ⟨vs, bs'⟩ := p
      have hl : (fieldsOf n).length = vs.length := by simpa using evalReads_length hr
      simp only [bind, Except.bind]
      rw [mkRecord_zip _ vs (by rw [e3]; exact hN.fields n hn) (by simpa [fieldsOf] using hl)]
      simp [named, e3]

/-- The value built by an arm of the match, with any stack. -/
theorem evalArmValue_gen' (hN : WellNamed S) {n : EnumNode} (hn : .enum n ∈ S) {i : EnumItem} (hi : i ∈ n.items) (k : Nat) (bs : Bytes) :
    evalArmValue rt (genProg S) (readTy rt (genProg S) k) n.id (genReadArm i).2.1 (genReadArm i).2.2 bs
      = (do
        let (vs, bs) ← evalReads rt (readTy rt (genProg S) k) (((payload i).map (·.2)).map genRead) bs
        .ok (.enum n.id i.id (named (payload i) vs), bs)) := by
  have hv := variant_enum hN hn hi
  cases i with
  | empty p id =>
    simp only [EnumItem.id, genVariant] at hv
    simp [evalArmValue, genReadArm, hv, payload, evalReads, bind, Except.bind, named, EnumItem.id]
  | tuple p id vs =>
    simp only [EnumItem.id, genVariant] at hv
    simp only [evalArmValue, genReadArm, hv]
    have e1 : vs.map (fun v => genRead v.typeId) = ((payload (.tuple p id vs)).map (·.2)).map genRead := by
      simp only [payload, map_snd_mapIdx, List.map_map]; rfl
    rw [e1]
    cases hr : evalReads rt (readTy rt (genProg S) k) (((payload (.tuple p id vs)).map (·.2)).map genRead) bs with
    | error e => rfl
    | ok q =>
      obtain ⟨us, bs'⟩ := q
      have hl : vs.length = us.length := by simpa [payload] using evalReads_length hr
      simp only [bind, Except.bind, mkTuple]
      rw [if_pos (by simp [hl])]
      simp only [named, payload, zip_mapIdx vs us hl, EnumItem.id]
  | struct p id fs =>
    simp only [EnumItem.id, genVariant] at hv
    simp only [evalArmValue, genReadArm, hv]
    have e1 : (fs.map (fun f => (f.name, genRead f.typeId))).map (·.2)
        = ((payload (.struct p id fs)).map (·.2)).map genRead := by
      simp [payload, Function.comp_def]
    have e2 : (fs.map (fun f => (f.name, genRead f.typeId))).map (·.1)
        = (fs.map (fun f => (f.name, genTy f.typeId))).map (·.1) := by simp [Function.comp_def]
    have e3 : (fs.map (fun f => (f.name, genTy f.typeId))).map (·.1)
        = (payload (.struct p id fs)).map (·.1) := by simp [payload, Function.comp_def]
    rw [e1, e2]
    cases hr : evalReads rt (readTy rt (genProg S) k) (((payload (.struct p id fs)).map (·.2)).map genRead) bs with
    | error e => rfl
    | ok q =>
      obtain ⟨us, bs'⟩ := q
      have hl : fs.length = us.length := by simpa [payload] using evalReads_length hr
      simp only [bind, Except.bind]
      rw [mkRecord_zip _ us (by rw [e3]; exact payload_nodup hN hn hi) (by simpa using hl)]
      simp [named, e3, EnumItem.id]

/-- Reading an enum, with any stack. -/
theorem readTy_enum' (hN : WellNamed S) {n : EnumNode} (hn : .enum n ∈ S) (k : Nat) (bs : Bytes) :
    readTy rt (genProg S) (k + 1) (.named n.id) bs = (do
      let (value, bs) ← orElse .panic (rt.readP "u32" bs)
      match n.items.find? (fun i => tagIs value i.position) with
      | some i => do
        let (vs, bs) ← evalReads rt (readTy rt (genProg S) k) (((payload i).map (·.2)).map genRead) bs
        .ok (.enum n.id i.id (named (payload i) vs), bs)
      | none => .error .panic) := by
  rw [readTy, impl_enum hN hn]
  simp only [genEnumImpl, evalReadBody]
  have e : ∀ bs, evalReadE rt (readTy rt (genProg S) k) (genRead u32TypeId) bs
      = orElse .panic (rt.readP "u32" bs) := fun _ => rfl
  rw [e]
  congr 1
  funext x
  obtain ⟨value, bs'⟩ := x
  simp only
  rw [List.find?_map]
  have e2 : ((fun a : Nat × String × Payload ReadE => tagIs value a.1) ∘ genReadArm)
      = (fun i => tagIs value i.position) := by
    funext i
    cases i <;> rfl
  rw [e2]
  cases hf : n.items.find? (fun i => tagIs value i.position) with
  | none => rfl
  | some i =>
    simp only [Option.map_some]
    rw [if_pos trivial]
    exact evalArmValue_gen' hN hn (List.mem_of_find?_eq_some hf) k bs'

/-- What is shown of each way of reading. -/
structure ReadInd (rt : Runtime) (S : List ASTNode) (J : List TypeId → List Val → Bytes → Bytes → Prop) : Prop where
  nil : ∀ bs, J [] [] bs bs
  cons : ∀ t v bs r ts vs r', J [t] [v] bs r → J ts vs r r' → J (t :: ts) (v :: vs) bs r'
  leaf : ∀ t p bs v r, WFType t → builtin? t = some p → rt.readP p bs = some (v, r) → J [t] [v] bs r
  struct : ∀ n vs bs r, .struct n ∈ S → J ((fieldsOf n).map (·.2)) vs bs r → J [.other n.id] [.struct n.id (named (fieldsOf n) vs)] bs r
  enum : ∀ n i bs r0 vs r, .enum n ∈ S → i ∈ n.items → rt.readP "u32" bs = some (.int i.position, r0) →
    J ((payload i).map (·.2)) vs r0 r → J [.other n.id] [.enum n.id i.id (named (payload i) vs)] bs r
  list : ∀ c gs s its vs bs r0 r, rt.readH c bs = some (s, r0) → pick gs (rt.wire.sub c s) = some its → J its vs r0 r →
    J [.generic c gs] [.list s vs] bs r
  ext : ∀ id bs v r, id ∉ typeNames S → rt.readX id bs = some (v, r) → J [.other id] [v] bs r

/-- The two ways to read a sequence. -/
theorem ReadInd.readMany {J : List TypeId → List Val → Bytes → Bytes → Prop} (I : ReadInd rt S J) {rec : Ty → Bytes → Res (Val × Bytes)}
    {ts : List TypeId} (h1 : ∀ t ∈ ts, ∀ bs v r, rec (genTy t) bs = .ok (v, r) → J [t] [v] bs r) :
    ∀ {bs vs r}, Rust.readMany rec (ts.map genTy) bs = .ok (vs, r) → J ts vs bs r := by
  induction ts with
  | nil =>
    intro bs vs r h
    simp only [List.map_nil, Rust.readMany, Except.ok.injEq, Prod.mk.injEq] at h
    obtain ⟨rfl, rfl⟩ := h
    exact I.nil _
  | cons t ts ih =>
    intro bs vs r h
    simp only [List.map_cons, Rust.readMany, bind, Except.bind] at h
    split at h
    · simp at h
    rename_i p hp
    obtain ⟨v, r1⟩ := p
    simp only at h
    split at h
    · simp at h
    rename_i q hq
    obtain ⟨vs', r2⟩ := q
    simp only [Except.ok.injEq, Prod.mk.injEq] at h
    obtain ⟨rfl, rfl⟩ := h
    exact I.cons _ _ _ _ _ _ _ (h1 t (by simp) _ _ _ hp) (ih (fun t ht => h1 t (by simp [ht])) hq)

theorem ReadInd.evalReads {J : List TypeId → List Val → Bytes → Bytes → Prop} (I : ReadInd rt S J) {rec : Ty → Bytes → Res (Val × Bytes)}
    {ts : List TypeId} (hts : ∀ t ∈ ts, WFType t) (h1 : ∀ t ∈ ts, ∀ bs v r, rec (genTy t) bs = .ok (v, r) → J [t] [v] bs r) :
    ∀ {bs vs r}, Rust.evalReads rt rec (ts.map genRead) bs = .ok (vs, r) → J ts vs bs r := by
  induction ts with
  | nil =>
    intro bs vs r h
    simp only [List.map_nil, Rust.evalReads, Except.ok.injEq, Prod.mk.injEq] at h
    obtain ⟨rfl, rfl⟩ := h
    exact I.nil _
  | cons t ts ih =>
    intro bs vs r h
    simp only [List.map_cons, Rust.evalReads, bind, Except.bind] at h
    split at h
    · simp at h
    rename_i p hp
    obtain ⟨v, r1⟩ := p
    simp only at h
    split at h
    · simp at h
    rename_i q hq
    obtain ⟨vs', r2⟩ := q
    simp only [Except.ok.injEq, Prod.mk.injEq] at h
    obtain ⟨rfl, rfl⟩ := h
    refine I.cons _ _ _ _ _ _ _ ?_ (ih (fun t ht => hts t (by simp [ht])) (fun t ht => h1 t (by simp [ht])) hq)
    have ht := hts t (by simp)
    cases hb : builtin? t with
    | none =>
      rw [genTy_path hb] at hp
      exact h1 t (by simp) _ _ _ hp
    | some m =>
      obtain ⟨-, -, h3, -⟩ := wfType_builtin ht hb
      rw [h3] at hp
      simp only [evalReadE] at hp
      cases hr : rt.readP m bs with
      | none => simp [hr, orElse] at hp
      | some q =>
        simp only [hr, orElse, Except.ok.injEq] at hp
        subst hp
        exact I.leaf t m bs v r1 ht hb hr

theorem ReadInd.read {J : List TypeId → List Val → Bytes → Bytes → Prop} (I : ReadInd rt S J) (hN : WellNamed S) (hT : TypesOk S) (k : Nat) :
    ∀ t, WFType t → ∀ bs v r, readTy rt (genProg S) k (genTy t) bs = .ok (v, r) → J [t] [v] bs r := by
  induction k with
  | zero => intro t _ bs v r h; simp [readTy] at h
  | succ k ih =>
    intro t ht bs v r h
    rcases readTy_named_cases hN ht with ⟨p, hp⟩ | ⟨n, hn, rfl⟩ | ⟨n, hn, rfl⟩ | ⟨id, hid, rfl⟩ | ⟨c, gs, rfl⟩
    · rw [readTy_builtin hN ht hp] at h
      cases hr : rt.readP p bs with
      | none => simp [hr, orElse] at h
      | some q =>
        simp only [hr, orElse, Except.ok.injEq] at h
        subst h
        exact I.leaf t p bs v r ht hp hr
    · rw [genTy, readTy_struct' hN hn] at h
      simp only [bind, Except.bind] at h
      split at h
      · simp at h
      rename_i q hq
      obtain ⟨vs, r'⟩ := q
      simp only [Except.ok.injEq, Prod.mk.injEq] at h
      obtain ⟨rfl, rfl⟩ := h
      have hw : ∀ t ∈ (fieldsOf n).map (·.2), WFType t := by
        intro t ht'
        obtain ⟨f, hf, rfl⟩ := List.mem_map.1 ht'
        exact hT.1 n hn f hf
      exact I.struct n vs bs r' hn (I.evalReads hw (fun t ht' => ih t (hw t ht')) hq)
    · rw [genTy, readTy_enum' hN hn] at h
      simp only [bind, Except.bind] at h
      split at h
      · simp at h
      rename_i q hq
      obtain ⟨value, r0⟩ := q
      simp only at h
      split at h
      case h_2 => simp at h
      rename_i i hi
      split at h
      · simp at h
      rename_i q2 hq2
      obtain ⟨vs, r'⟩ := q2
      simp only [Except.ok.injEq, Prod.mk.injEq] at h
      obtain ⟨rfl, rfl⟩ := h
      have him := List.mem_of_find?_eq_some hi
      have hv : value = .int i.position := by
        have := List.find?_some hi
        cases value <;> simp [tagIs] at this
        rw [this]
      have hw : ∀ t ∈ (payload i).map (·.2), WFType t := by
        intro t ht'
        obtain ⟨f, hf, rfl⟩ := List.mem_map.1 ht'
        exact hT.2 n hn i him f hf
      refine I.enum n i bs r0 vs r' hn him ?_ (I.evalReads hw (fun t ht' => ih t (hw t ht')) hq2)
      cases hr : rt.readP "u32" bs with
      | none => simp [hr, orElse] at hq
      | some q => simp only [hr, orElse, Except.ok.injEq] at hq; rw [hq, hv]
    · rw [readTy_ext hid ht] at h
      cases hr : rt.readX id bs with
      | none => simp [hr, orElse] at h
      | some q =>
        simp only [hr, orElse, Except.ok.injEq] at h
        subst h
        exact I.ext id bs v r hid hr
    · rw [readTy_list] at h
      simp only [bind, Except.bind] at h
      split at h
      · simp at h
      rename_i q hq
      obtain ⟨s, r0⟩ := q
      simp only at h
      split at h
      · simp at h
      rename_i its hits
      split at h
      · simp at h
      rename_i q2 hq2
      obtain ⟨vs, r'⟩ := q2
      simp only [Except.ok.injEq, Prod.mk.injEq] at h
      obtain ⟨rfl, rfl⟩ := h
      have e1 : rt.readH c bs = some (s, r0) := by
        cases hr : rt.readH c bs with
        | none => simp [hr, orElse] at hq
        | some q => simp only [hr, orElse, Except.ok.injEq] at hq; rw [hq]
      have e2 : pick gs (rt.wire.sub c s) = some its := by
        cases hr : pick gs (rt.wire.sub c s) with
        | none => simp [hr, orElse] at hits
        | some q => simp only [hr, orElse, Except.ok.injEq] at hits; rw [hits]
      exact I.list c gs s its vs bs r0 r' e1 e2 (I.readMany (fun t ht' => ih t (wfType_args ht t (pick_mem e2 t ht'))) hq2)

/-! ### Types -/

theorem HasTys.cons {W : Wire} {t : TypeId} {v : Val} {ts : List TypeId} {vs : List Val} (h1 : HasTys W S [t] [v]) (h2 : HasTys W S ts vs) :
    HasTys W S (t :: ts) (v :: vs) := by
  cases h1 with
  | leaf _ _ _ _ h _ => exact .leaf _ _ _ _ h h2
  | struct n fvs _ _ h h' _ => exact .struct n fvs _ _ h h' h2
  | enum n i pvs _ _ h h' h'' _ => exact .enum n i pvs _ _ h h' h'' h2
  | list c gs s its items _ _ h h' h'' _ => exact .list c gs s its items _ _ h h' h'' h2
  | ext id _ _ _ h h' _ => exact .ext id _ _ _ h h' h2

theorem typed_ind (hrt : rt.Typed) : ReadInd rt S (fun ts vs bs r => HasTys rt.wire S ts vs ∧ r <:+ bs) where
  nil bs := ⟨.nil, List.suffix_refl bs⟩
  cons t v bs r ts vs r' h1 h2 := ⟨HasTys.cons h1.1 h2.1, h2.2.trans h1.2⟩
  leaf t p bs v r ht hp hr := by
    obtain ⟨h1, h2⟩ := hrt.prim t p bs v r ht hp hr
    exact ⟨.leaf _ _ _ _ h1 .nil, h2⟩
  struct n vs bs r hn h := ⟨.struct n vs [] [] hn h.1 .nil, h.2⟩
  enum n i bs r0 vs r hn hi hr h := by
    obtain ⟨-, h2⟩ := hrt.prim (typeOfName "u32") "u32" bs _ r0 (.name _) rfl hr
    exact ⟨.enum n i vs [] [] hn hi h.1 .nil, h.2.trans h2⟩
  list c gs s its vs bs r0 r hr hp h := by
    obtain ⟨h1, h2⟩ := hrt.head c bs s r0 hr
    exact ⟨.list c gs s its vs [] [] h1 hp h.1 .nil, h.2.trans h2⟩
  ext id bs v r hid hr := by
    obtain ⟨h1, h2⟩ := hrt.ext id bs v r hr
    exact ⟨.ext id v [] [] hid h1 .nil, h2⟩

theorem canonical_ind (hrt : rt.Canonical) : ReadInd rt S (fun ts vs bs r => ∃ b, Enc rt.wire S ts vs b ∧ bs = b ++ r) where
  nil bs := ⟨[], .nil, rfl⟩
  cons := by
    rintro t v _ _ ts vs r' ⟨b1, h1, rfl⟩ ⟨b2, h2, rfl⟩
    exact ⟨b1 ++ b2, Props.Enc.append h1 h2, by simp⟩
  leaf t p bs v r ht hp hr := by
    obtain ⟨b, h1, h2⟩ := hrt.prim p bs v r hr
    exact ⟨b ++ [], .leaf _ p _ b _ _ _ hp h1 .nil, by simpa using h2⟩
  struct := by
    rintro n vs _ r hn ⟨b, h, rfl⟩
    exact ⟨b ++ [], .struct n vs b [] [] [] hn h .nil, by simp⟩
  enum := by
    rintro n i bs _ vs r hn hi hr ⟨b, h, rfl⟩
    obtain ⟨tag, h1, rfl⟩ := hrt.prim "u32" bs _ _ hr
    exact ⟨tag ++ b ++ [], .enum n i tag vs b [] [] [] hn hi h1 h .nil, by simp⟩
  list := by
    rintro c gs s its vs bs _ r hr hp ⟨b, h, rfl⟩
    obtain ⟨hd, h1, rfl⟩ := hrt.head c bs _ _ hr
    exact ⟨hd ++ b ++ [], .list c gs s hd its vs b [] [] [] h1 hp h .nil, by simp⟩
  ext id bs v r hid hr := by
    obtain ⟨b, h1, h2⟩ := hrt.ext id bs v r hr
    exact ⟨b ++ [], .ext id v b [] [] [] hid h1 .nil, by simpa using h2⟩

/-! ### Reading ends -/

/-- The result is a value or a panic. -/
def Ended {α : Type} : Res α → Prop
  | .ok _ => True
  | .error .panic => True
  | .error _ => False

theorem Ended.error {α β : Type} {e : Fault} (h : Ended (.error e : Res α)) : Ended (.error e : Res β) := by
  cases e <;> first | trivial | exact h

theorem ended_orElse {α : Type} (o : Option α) : Ended (orElse .panic o) := by
  cases o <;> trivial

theorem ended_many {rec : Ty → Bytes → Res (Val × Bytes)} {ts : List TypeId} {L : Nat}
    (h : ∀ t ∈ ts, ∀ bs : Bytes, bs.length ≤ L → Ended (rec (genTy t) bs) ∧ ∀ v r, rec (genTy t) bs = .ok (v, r) → r.length ≤ bs.length) :
    ∀ bs : Bytes, bs.length ≤ L → Ended (readMany rec (ts.map genTy) bs) := by
  induction ts with
  | nil => intro bs _; trivial
  | cons t ts ih =>
    intro bs hbs
    simp only [List.map_cons, readMany, bind, Except.bind]
    obtain ⟨h1, h2⟩ := h t (by simp) bs hbs
    cases hr : rec (genTy t) bs with
    | error e => rw [hr] at h1; exact Ended.error h1
    | ok q =>
      obtain ⟨v, r⟩ := q
      have := h2 v r hr
      have h3 := ih (fun t ht => h t (by simp [ht])) r (by omega)
      simp only
      cases hr2 : readMany rec (ts.map genTy) r with
      | error e => rw [hr2] at h3; exact Ended.error h3
      | ok q => trivial

open Classical in
/-- How deep the calls for a type go before a byte is taken. -/
noncomputable def depthOf (S : List ASTNode) (rank : String → Nat) : TypeId → Nat
  | .other id => if ∃ n, ASTNode.struct n ∈ S ∧ n.id = id then rank id + 1 else 0
  | _ => 0

theorem rank_bound (S : List ASTNode) (rank : String → Nat) : ∃ R, ∀ n, .struct n ∈ S → rank n.id ≤ R := by
  induction S with
  | nil => exact ⟨0, by simp⟩
  | cons d S ih =>
    obtain ⟨R, ih⟩ := ih
    cases d with
    | struct m =>
      refine ⟨max R (rank m.id), fun n hn => ?_⟩
      rcases List.mem_cons.1 hn with e | hn
      · cases e; omega
      · have := ih n hn; omega
    | _ => exact ⟨R, fun n hn => ih n (by simpa using hn)⟩

open Classical in
theorem depthOf_le {rank : String → Nat} {R : Nat} (hR : ∀ n, .struct n ∈ S → rank n.id ≤ R) (t : TypeId) :
    depthOf S rank t ≤ R + 1 := by
  cases t <;> simp only [depthOf] <;> try omega
  split
  · rename_i h
    obtain ⟨n, hn, rfl⟩ := h
    have := hR n hn
    omega
  · omega

open Classical in
theorem read_ended (hrt : rt.Typed) (hc : rt.Consumes) (hN : WellNamed S) (hT : TypesOk S) (hS : SafeToRead rt.wire S)
    {rank : String → Nat} {R : Nat}
    (hrank : ∀ n, .struct n ∈ S → ∀ m, .struct m ∈ S → .other m.id ∈ (fieldsOf n).map (·.2) → rank m.id < rank n.id)
    (hR : ∀ n, .struct n ∈ S → rank n.id ≤ R) (k : Nat) :
    ∀ t, WFType t → ContainersOk rt.wire t → ∀ bs : Bytes, bs.length * (R + 3) + depthOf S rank t + 2 ≤ k →
      Ended (readTy rt (genProg S) k (genTy t) bs) := by
  have hlen : ∀ k t, WFType t → ∀ bs v r, readTy rt (genProg S) k (genTy t) bs = .ok (v, r) → r.length ≤ bs.length :=
    fun k t ht bs v r h => ((typed_ind hrt).read hN hT k t ht bs v r h).2.length_le
  have hdepth : ∀ t, depthOf S rank t ≤ R + 1 := depthOf_le hR
  induction k with
  | zero => intro t _ _ bs h; omega
  | succ k ih =>
    intro t ht hct bs h
    rcases readTy_named_cases hN ht with ⟨p, hp⟩ | ⟨n, hn, rfl⟩ | ⟨n, hn, rfl⟩ | ⟨id, hid, rfl⟩ | ⟨c, gs, rfl⟩
    · rw [readTy_builtin hN ht hp]
      exact ended_orElse _
    · obtain ⟨k, rfl⟩ : ∃ j, k = j + 1 := ⟨k - 1, by omega⟩
      rw [genTy, readTy_struct hN hT hn]
      have hd : depthOf S rank (.other n.id) = rank n.id + 1 := by
        simp only [depthOf]
        rw [if_pos ⟨n, hn, rfl⟩]
      have := ended_many (rec := readTy rt (genProg S) (k + 1)) (ts := (fieldsOf n).map (·.2)) (L := bs.length) (by
        intro t ht' bs' hbs'
        have hw : WFType t := by
          obtain ⟨f, hf, rfl⟩ := List.mem_map.1 ht'
          exact hT.1 n hn f hf
        refine ⟨ih t hw (hS.fields n hn t ht') bs' ?_, fun v r => hlen _ t hw bs' v r⟩
        have h1 : depthOf S rank t < rank n.id + 1 := by
          cases t with
          | other id =>
            simp only [depthOf]
            split
            · rename_i hm
              obtain ⟨m, hm, rfl⟩ := hm
              have := hrank n hn m hm ht'
              omega
            · omega
          | _ => simp only [depthOf]; omega
        have h2 := Nat.mul_le_mul_right (R + 3) hbs'
        omega) bs (Nat.le_refl _)
      simp only [bind, Except.bind]
      cases hr : readMany (readTy rt (genProg S) (k + 1)) (((fieldsOf n).map (·.2)).map genTy) bs with
      | error e => rw [hr] at this; exact Ended.error this
      | ok q => trivial
    · obtain ⟨k, rfl⟩ : ∃ j, k = j + 1 := ⟨k - 1, by omega⟩
      rw [genTy, readTy_enum hN hT hn]
      simp only [bind, Except.bind]
      cases hr : rt.readP "u32" bs with
      | none => trivial
      | some q =>
        obtain ⟨value, r0⟩ := q
        simp only [orElse]
        have h0 := hc.tag _ _ _ hr
        split
        · rename_i i hi
          have him := List.mem_of_find?_eq_some hi
          have := ended_many (rec := readTy rt (genProg S) (k + 1)) (ts := (payload i).map (·.2)) (L := r0.length) (by
            intro t ht' bs' hbs'
            have hw : WFType t := by
              obtain ⟨f, hf, rfl⟩ := List.mem_map.1 ht'
              exact hT.2 n hn i him f hf
            refine ⟨ih t hw (hS.payloads n hn i him t ht') bs' ?_, fun v r => hlen _ t hw bs' v r⟩
            have h1 := hdepth t
            have h2 : (bs'.length + 1) * (R + 3) ≤ bs.length * (R + 3) := Nat.mul_le_mul_right _ (by omega)
            rw [Nat.add_mul] at h2
            omega) r0 (Nat.le_refl _)
          cases hr : readMany (readTy rt (genProg S) (k + 1)) (((payload i).map (·.2)).map genTy) r0 with
          | error e => rw [hr] at this; exact Ended.error this
          | ok q => trivial
        · trivial
    · rw [readTy_ext hid ht]
      exact ended_orElse _
    · rw [readTy_list]
      simp only [bind, Except.bind]
      cases hr : rt.readH c bs with
      | none => trivial
      | some q =>
        obtain ⟨s, r0⟩ := q
        simp only [orElse]
        have h0 := hc.head _ _ _ _ hr
        obtain ⟨hsub, hgs⟩ : (∀ s, (pick gs (rt.wire.sub c s)).isSome) ∧ ∀ g ∈ gs, ContainersOk rt.wire g := by
          cases hct with
          | leaf _ h => exact absurd rfl (h c gs)
          | generic _ _ h1 h2 => exact ⟨h1, h2⟩
        obtain ⟨its, hits⟩ := Option.isSome_iff_exists.1 (hsub s)
        rw [hits]
        simp only
        have := ended_many (rec := readTy rt (genProg S) k) (ts := its) (L := r0.length) (by
          intro t ht' bs' hbs'
          have hg := pick_mem hits t ht'
          have hw : WFType t := wfType_args ht t hg
          refine ⟨ih t hw (hgs t hg) bs' ?_, fun v r => hlen _ t hw bs' v r⟩
          have h1 := hdepth t
          have h2 : (bs'.length + 1) * (R + 3) ≤ bs.length * (R + 3) := Nat.mul_le_mul_right _ (by omega)
          rw [Nat.add_mul] at h2
          omega) r0 (Nat.le_refl _)
        cases hr : readMany (readTy rt (genProg S) k) (its.map genTy) r0 with
        | error e => rw [hr] at this; exact Ended.error this
        | ok q => trivial

/-! ### More stack changes nothing -/

/-- The second result is the first, unless the stack has overflowed. -/
def Le {α : Type} (r r' : Res α) : Prop := r = .error .fuel ∨ r = r'

theorem Le.refl {α : Type} (r : Res α) : Le r r := .inr rfl

theorem Le.bind {α β : Type} {r r' : Res α} {f f' : α → Res β} (h : Le r r') (hf : ∀ a, Le (f a) (f' a)) :
    Le (r >>= f) (r' >>= f') := by
  rcases h with rfl | rfl
  · exact .inl rfl
  · cases r with
    | error e => exact .inr rfl
    | ok a => exact hf a

theorem Le.many {rec rec' : Ty → Bytes → Res (Val × Bytes)} (h : ∀ t bs, Le (rec t bs) (rec' t bs)) (ts : List Ty) :
    ∀ bs, Le (readMany rec ts bs) (readMany rec' ts bs) := by
  induction ts with
  | nil => exact fun _ => .inr rfl
  | cons t ts ih => exact fun bs => (h t bs).bind (fun a => (ih _).bind (fun _ => .inr rfl))

theorem Le.readE {rec rec' : Ty → Bytes → Res (Val × Bytes)} (h : ∀ t bs, Le (rec t bs) (rec' t bs)) (e : ReadE) (bs : Bytes) :
    Le (evalReadE rt rec e bs) (evalReadE rt rec' e bs) := by
  cases e with
  | prim m => exact .inr rfl
  | path t => exact h t bs

theorem Le.reads {rec rec' : Ty → Bytes → Res (Val × Bytes)} (h : ∀ t bs, Le (rec t bs) (rec' t bs)) (es : List ReadE) :
    ∀ bs, Le (Rust.evalReads rt rec es bs) (Rust.evalReads rt rec' es bs) := by
  induction es with
  | nil => exact fun _ => .inr rfl
  | cons e es ih => exact fun bs => (Le.readE h e bs).bind (fun a => (ih _).bind (fun _ => .inr rfl))

theorem Le.body {P : Prog} {rec rec' : Ty → Bytes → Res (Val × Bytes)} (h : ∀ t bs, Le (rec t bs) (rec' t bs)) (self : String)
    (b : ReadBody) (bs : Bytes) : Le (evalReadBody rt P rec self b bs) (evalReadBody rt P rec' self b bs) := by
  cases b with
  | unit id => exact .inr rfl
  | selfLit es =>
    simp only [evalReadBody]
    split
    · exact (Le.reads h _ bs).bind (fun a => .inr rfl)
    · exact .inr rfl
  | matchTag tag enumId arms =>
    simp only [evalReadBody]
    refine (Le.readE h tag bs).bind (fun a => ?_)
    split
    · split
      · simp only [evalArmValue]
        split
        · exact .inr rfl
        · exact (Le.reads h _ _).bind (fun a => .inr rfl)
        · exact (Le.reads h _ _).bind (fun a => .inr rfl)
        · exact .inr rfl
      · exact .inr rfl
    · exact .inr rfl

theorem readTy_le {P : Prog} (k : Nat) : ∀ t bs, Le (readTy rt P k t bs) (readTy rt P (k + 1) t bs) := by
  induction k with
  | zero => exact fun _ _ => .inl rfl
  | succ k ih =>
    intro t bs
    cases t with
    | named id =>
      simp only [readTy]
      split
      · exact Le.body ih _ _ _
      · exact .inr rfl
    | app c args =>
      simp only [readTy]
      exact (Le.refl _).bind (fun a => (Le.refl _).bind (fun b => (Le.many ih _ _).bind (fun _ => .inr rfl)))

/-- A read that does not overflow the stack gives the same result with more stack. -/
theorem readTy_more {P : Prog} {k j : Nat} {t : Ty} {bs : Bytes} (h : readTy rt P k t bs ≠ .error .fuel) (hj : k ≤ j) :
    readTy rt P j t bs = readTy rt P k t bs := by
  obtain ⟨d, rfl⟩ := Nat.le.dest hj
  clear hj
  induction d with
  | zero => rfl
  | succ d ih =>
    rcases readTy_le (rt := rt) (P := P) (k + d) t bs with e | e
    · rw [ih] at e; exact absurd e h
    · rw [← Nat.add_assoc, ← e, ih]

theorem reads_of_eq {P : Prog} {k : Nat} {t : TypeId} {bs : Bytes} {v : Val} {r : Bytes}
    (h : readTy rt P k (genTy t) bs = .ok (v, r)) : Reads rt P t bs v r :=
  ⟨k, fun j hj => by rw [readTy_more (by rw [h]; simp) hj, h]⟩

theorem panics_of_eq {P : Prog} {k : Nat} {t : TypeId} {bs : Bytes}
    (h : readTy rt P k (genTy t) bs = .error .panic) : ReadPanics rt P t bs :=
  ⟨k, fun j hj => by rw [readTy_more (by rw [h]; simp) hj, h]⟩

end

end TPB.Rust
