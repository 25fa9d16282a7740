import Verif.Sem.RustDefault
import Verif.Proofs.RustCodec
namespace TPB.Rust
open Spec

variable {D : Defaults} {S : List ASTNode}

theorem items_decls (S : List ASTNode) (hne : ∀ n, .enum n ∈ S → n.items ≠ []) :
    (genItems S).map (fun i => i.decl.id) = typeNames S := by
  unfold genItems typeNames
  rw [List.map_filterMap]
  induction S with
  | nil => rfl
  | cons d S ih =>
    have ih := ih (fun n hn => hne n (by simp [hn]))
    cases d with
    | enum n =>
      have := hne n (by simp)
      cases hi : n.items with
      | nil => exact absurd hi this
      | cons i is => simp only [List.filterMap_cons, hi, List.head?_cons, Option.map_some, ih]; rfl
    | struct n => simp only [List.filterMap_cons, Option.map_some, ih]; rfl
    | _ => simpa [List.filterMap_cons] using ih

theorem item_struct (hN : WellNamed S) (hne : ∀ n, .enum n ∈ S → n.items ≠ []) {n : StructNode}
    (hn : .struct n ∈ S) :
    (genItems S).find? (fun i => i.decl.id = n.id) = some (genStructItem n) :=
  find?_key (fun i : TypeItem => i.decl.id) _ (by rw [items_decls S hne]; exact hN.types) (genStructItem n)
    (List.mem_filterMap.2 ⟨_, hn, rfl⟩)

theorem item_enum (hN : WellNamed S) (hne : ∀ n, .enum n ∈ S → n.items ≠ []) {n : EnumNode}
    (hn : .enum n ∈ S) {i : EnumItem} (hi : n.items.head? = some i) :
    (genItems S).find? (fun i => i.decl.id = n.id) = some ⟨genEnumDecl n, genEnumDefault i⟩ :=
  find?_key (fun i : TypeItem => i.decl.id) _ (by rw [items_decls S hne]; exact hN.types)
    ⟨genEnumDecl n, genEnumDefault i⟩
    (List.mem_filterMap.2 ⟨_, hn, by simp [hi]⟩)

theorem item_none (hne : ∀ n, .enum n ∈ S → n.items ≠ []) {x : String} (hx : x ∉ typeNames S) :
    (genItems S).find? (fun i => i.decl.id = x) = none :=
  find?_key_none (fun i : TypeItem => i.decl.id) _ _ (by rw [items_decls S hne]; exact hx)

theorem wfType_lookup {t : TypeId} (h : WFType t) {p : String} (hp : builtin? t = some p) :
    builtinTypes.lookup p = some t ∧ genTy t = .named p := by
  cases h with
  | generic => simp [builtin?] at hp
  | name n =>
    unfold typeOfName at hp ⊢
    cases hl : builtinTypes.lookup n with
    | none => simp [hl, builtin?] at hp
    | some t =>
      rw [hl] at hp
      simp only [Option.getD_some] at hp ⊢
      have key : ∀ q ∈ builtinTypes, builtin? q.2 = some q.1 := by decide
      have hm : (n, t) ∈ builtinTypes := by
        have := List.lookup_eq_some_iff.1 hl
        obtain ⟨l1, l2, h1, _⟩ := this
        rw [h1]; simp
      have := key _ hm
      simp only at this
      rw [hp] at this
      simp only [Option.some.injEq] at this
      subst this
      refine ⟨hl, ?_⟩
      cases t <;> simp_all [builtin?, genTy]

/-- The literal or call emitted for a field has the value of `T::default()`. -/
theorem evalDefE_gen (hN : WellNamed S) (hne : ∀ n, .enum n ∈ S → n.items ≠ []) {t : TypeId} (ht : WFType t)
    (hc : ∀ c, t ≠ .char c) (k : Nat) :
    evalDefE (defTy D (genItems S) (k + 1)) (genTy t) (genDef t) = defTy D (genItems S) (k + 1) (genTy t) := by
  cases hb : builtin? t with
  | none => cases t <;> simp [builtin?] at hb <;> simp [genDef, evalDefE, genTy, genTys_eq]
  | some p =>
    obtain ⟨hl, hg⟩ := wfType_lookup ht hb
    have hnd : p ∉ typeNames S := builtin_not_declared hN (by simp [isBuiltin, hl])
    rw [hg, defTy, item_none hne hnd, hl]
    cases t with
    | integer id size s => simp [genDef, evalDefE, litTy, hl, zeroOf, orElse]
    | number id size => simp [genDef, evalDefE, litTy, hl, zeroOf, orElse]
    | bool id => simp [genDef, evalDefE, litTy, hl, zeroOf, orElse]
    | char c => exact absurd rfl (hc c)
    | _ => simp [builtin?] at hb

theorem evalDefs_gen (hN : WellNamed S) (hne : ∀ n, .enum n ∈ S → n.items ≠ []) (k : Nat) :
    ∀ (ts : List TypeId), (∀ t ∈ ts, WFType t) → (∀ t ∈ ts, ∀ c, t ≠ .char c) →
    evalDefs (defTy D (genItems S) (k + 1)) (ts.map genTy) (ts.map genDef)
      = defMany (defTy D (genItems S) (k + 1)) (ts.map genTy)
  | [], _, _ => rfl
  | t :: ts, h, h' => by
    simp only [List.map_cons, evalDefs, defMany]
    rw [evalDefE_gen hN hne (h t (by simp)) (h' t (by simp)),
      evalDefs_gen hN hne k ts (fun t ht => h t (by simp [ht])) (fun t ht => h' t (by simp [ht]))]

theorem defMany_length {rec : Ty → Res Val} : ∀ {ts : List Ty} {vs : List Val},
    defMany rec ts = .ok vs → ts.length = vs.length
  | [], vs, h => by simp only [defMany, Except.ok.injEq] at h; simp [← h]
  | t :: ts, vs, h => by
    simp only [defMany, bind, Except.bind] at h
    split at h
    · simp at h
    · split at h
      · simp at h
      · rename_i _ _ h2
        simp only [Except.ok.injEq] at h
        rw [← h]
        simp [defMany_length h2]

/-- A record literal with all fields in order. -/
theorem evalDefRecord_gen (hN : WellNamed S) (hne : ∀ n, .enum n ∈ S → n.items ≠ []) (k : Nat)
    (fs : List (String × TypeId)) (hn : (fs.map (·.1)).Nodup) (hw : ∀ f ∈ fs, WFType f.2)
    (hc : ∀ f ∈ fs, ∀ c, f.2 ≠ .char c) :
    evalDefRecord (defTy D (genItems S) (k + 1)) (fs.map (fun f => (f.1, genTy f.2)))
      (fs.map (fun f => (f.1, genDef f.2))) = (do
        let vs ← defMany (defTy D (genItems S) (k + 1)) ((fs.map (·.2)).map genTy)
        .ok (named fs vs)) := by
  unfold evalDefRecord
  have e0 : (fs.map (fun f => (f.1, genDef f.2))).mapM (fun e => orElse .stuck
      ((fs.map (fun f => (f.1, genTy f.2))).lookup e.1)) = .ok ((fs.map (·.2)).map genTy) := by
    rw [mapM_ok (f := fun e : String × DefE => orElse .stuck ((fs.map (fun f => (f.1, genTy f.2))).lookup e.1))
      (g := fun e => ((fs.map (fun f => (f.1, genTy f.2))).lookup e.1).getD (.named "")) ]
    · congr 1
      simp only [List.map_map]
      apply List.map_congr_left
      intro f hf
      simp only [Function.comp]
      rw [lookup_map_key (fun f : String × TypeId => f.1) (fun f => genTy f.2) fs hn f hf]
      rfl
    · intro e he
      obtain ⟨f, hf, rfl⟩ := List.mem_map.1 he
      simp only
      rw [lookup_map_key (fun f : String × TypeId => f.1) (fun f => genTy f.2) fs hn f hf]
      rfl
  have e1 : (fs.map (fun f => (f.1, genDef f.2))).map (·.2) = (fs.map (·.2)).map genDef := by
    simp [Function.comp_def]
  have e2 : (fs.map (fun f => (f.1, genDef f.2))).map (·.1) = (fs.map (fun f => (f.1, genTy f.2))).map (·.1) := by
    simp [Function.comp_def]
  have e3 : (fs.map (fun f => (f.1, genTy f.2))).map (·.1) = fs.map (·.1) := by simp [Function.comp_def]
  rw [e0, e1, e2]
  simp only [bind, Except.bind]
  rw [evalDefs_gen hN hne k _ (by
      intro t ht
      obtain ⟨f, hf, rfl⟩ := List.mem_map.1 ht
      exact hw f hf) (by
      intro t ht
      obtain ⟨f, hf, rfl⟩ := List.mem_map.1 ht
      exact hc f hf)]
  cases hr : defMany (defTy D (genItems S) (k + 1)) ((fs.map (·.2)).map genTy) with
  | error e => rfl
  | ok vs =>
    simp only
    rw [mkRecord_zip _ vs (by rw [e3]; exact hn) (by simpa using defMany_length hr)]
    rw [e3]; rfl

/-- One step of `default()` of a struct. -/
theorem defTy_struct (hN : WellNamed S) (hT : TypesOk S) (hC : NoCharFields S)
    (hne : ∀ n, .enum n ∈ S → n.items ≠ []) {n : StructNode} (hn : .struct n ∈ S) (k : Nat) :
    defTy D (genItems S) (k + 2) (.named n.id) = (do
      let vs ← defMany (defTy D (genItems S) (k + 1)) (((fieldsOf n).map (·.2)).map genTy)
      .ok (.struct n.id (named (fieldsOf n) vs))) := by
  rw [defTy, item_struct hN hne hn]
  simp only [Nat.add_eq_zero_iff, Nat.one_ne_zero, and_false, if_false]
  cases hf : n.fields with
  | nil => simp [genStructItem, genStructDecl, hf, evalDefBody, fieldsOf, defMany, named, bind, Except.bind]
  | cons f fs =>
    have e1 : genStructItem n = ⟨.struct n.id ((fieldsOf n).map (fun f => (f.1, genTy f.2))),
        .selfLit ((fieldsOf n).map (fun f => (f.1, genDef f.2)))⟩ := by
      simp only [genStructItem, hf, genStructDecl, fieldsOf, List.map_map, Function.comp_def]
    rw [e1]
    have e2 : evalDefBody (defTy D (genItems S) (k + 1))
        (.struct n.id ((fieldsOf n).map (fun f => (f.1, genTy f.2))))
        (.selfLit ((fieldsOf n).map (fun f => (f.1, genDef f.2)))) = (do
          let r ← evalDefRecord (defTy D (genItems S) (k + 1)) ((fieldsOf n).map (fun f => (f.1, genTy f.2)))
            ((fieldsOf n).map (fun f => (f.1, genDef f.2)))
          .ok (.struct n.id r)) := by
      simp only [fieldsOf, hf, List.map_cons, evalDefBody]
    simp only
    rw [e2, evalDefRecord_gen hN hne k _ (hN.fields n hn) (hT.1 n hn) (hC.1 n hn)]
    cases defMany (defTy D (genItems S) (k + 1)) (((fieldsOf n).map (·.2)).map genTy) <;> rfl

/-- One step of `default()` of an enum. -/
theorem defTy_enum (hN : WellNamed S) (hT : TypesOk S) (hC : NoCharFields S)
    (hne : ∀ n, .enum n ∈ S → n.items ≠ []) {n : EnumNode} (hn : .enum n ∈ S) {i : EnumItem}
    (hi : n.items.head? = some i) (k : Nat) :
    defTy D (genItems S) (k + 2) (.named n.id) = (do
      let vs ← defMany (defTy D (genItems S) (k + 1)) (((payload i).map (·.2)).map genTy)
      .ok (.enum n.id i.id (named (payload i) vs))) := by
  have hmem : i ∈ n.items := List.mem_of_mem_head? (by simp [hi])
  rw [defTy, item_enum hN hne hn hi]
  simp only [genEnumDecl, Nat.add_eq_zero_iff, Nat.one_ne_zero, and_false, if_false]
  have hv : (n.items.map genVariant).lookup i.id = some (genVariant i).2 := by
    have e : n.items.map genVariant = n.items.map (fun i => (i.id, (genVariant i).2)) := by
      apply List.map_congr_left
      intro i _
      cases i <;> rfl
    rw [e]
    exact lookup_map_key EnumItem.id (fun i => (genVariant i).2) n.items (hN.variants n hn) i hmem
  have hw := hT.2 n hn i hmem
  have hc := hC.2 n hn i hi
  have hnd := payload_nodup hN hn hmem
  cases i with
  | empty p id =>
    simp only [EnumItem.id] at hv
    simp [genEnumDefault, evalDefBody, hv, genVariant, payload, defMany, named, bind, Except.bind, EnumItem.id]
  | tuple p id vs =>
    simp only [EnumItem.id] at hv
    simp only [genEnumDefault, evalDefBody, hv, genVariant, EnumItem.id]
    have e1 : vs.map (fun v => genTy v.typeId) = ((payload (.tuple p id vs)).map (·.2)).map genTy := by
      simp only [payload, map_snd_mapIdx, List.map_map]; rfl
    have e2 : vs.map (fun v => genDef v.typeId) = ((payload (.tuple p id vs)).map (·.2)).map genDef := by
      simp only [payload, map_snd_mapIdx, List.map_map]; rfl
    rw [e1, e2, evalDefs_gen hN hne k _ (by
      intro t ht
      obtain ⟨f, hf, rfl⟩ := List.mem_map.1 ht
      exact hw f hf) (by
      intro t ht
      obtain ⟨f, hf, rfl⟩ := List.mem_map.1 ht
      exact hc f hf)]
    cases hr : defMany (defTy D (genItems S) (k + 1)) (((payload (.tuple p id vs)).map (·.2)).map genTy) with
    | error e => rfl
    | ok us =>
      have hl := defMany_length hr
      simp only [bind, Except.bind, mkTuple]
      rw [if_pos hl.symm]
      have hl' : vs.length = us.length := by simpa [payload] using hl
      simp only [named, payload]
      rw [zip_mapIdx vs us hl']
  | struct p id fs =>
    simp only [EnumItem.id] at hv
    simp only [genEnumDefault, evalDefBody, hv, genVariant, EnumItem.id]
    have e1 : fs.map (fun f => (f.name, genTy f.typeId)) = (payload (.struct p id fs)).map (fun f => (f.1, genTy f.2)) := by
      simp [payload, Function.comp_def]
    have e2 : fs.map (fun f => (f.name, genDef f.typeId)) = (payload (.struct p id fs)).map (fun f => (f.1, genDef f.2)) := by
      simp [payload, Function.comp_def]
    rw [e1, e2, evalDefRecord_gen hN hne k _ hnd hw hc]
    cases defMany (defTy D (genItems S) (k + 1)) (((payload (.struct p id fs)).map (·.2)).map genTy) <;> rfl

theorem defTy_list (c : String) (gs : List TypeId) (k : Nat) (items : List TypeItem) :
    defTy D items (k + 1) (genTy (.generic c gs)) = (do
      let s ← orElse .stuck (D.shape c)
      let ts ← orElse .stuck (pick gs (D.sub c s))
      let vs ← defMany (defTy D items k) (ts.map genTy)
      .ok (.list s vs)) := by
  rw [genTy_generic, defTy]
  cases D.shape c with
  | none => rfl
  | some s =>
    simp only [orElse, bind, Except.bind, pick_map]
    cases pick gs (D.sub c s) <;> rfl

/-- The emitted code computes the default of the specification. -/
theorem default_eval (hN : WellNamed S) (hT : TypesOk S) (hC : NoCharFields S)
    (hne : ∀ n, .enum n ∈ S → n.items ≠ []) {ts : List TypeId} {vs : List Val} (h : DefaultOf D S ts vs)
    (ht : ∀ t ∈ ts, WFType t) :
    ∃ N, ∀ k, N ≤ k → defMany (defTy D (genItems S) k) (ts.map genTy) = .ok vs := by
  induction h with
  | nil => exact ⟨0, fun k _ => rfl⟩
  | leaf t v ts vs hz _ ih =>
    obtain ⟨N, ih⟩ := ih (fun t h => ht t (by simp [h]))
    refine ⟨N + 1, fun k hk => ?_⟩
    obtain ⟨k, rfl⟩ : ∃ j, k = j + 1 := ⟨k - 1, by omega⟩
    have hb : ∃ p, builtin? t = some p := by cases t <;> simp [zeroOf] at hz <;> simp [builtin?]
    obtain ⟨p, hb⟩ := hb
    obtain ⟨hl, hg⟩ := wfType_lookup (ht t (by simp)) hb
    have hnd : p ∉ typeNames S := builtin_not_declared hN (by simp [isBuiltin, hl])
    simp only [List.map_cons, defMany, hg, ih (k + 1) (by omega)]
    rw [defTy, item_none hne hnd, hl]
    simp [hz, orElse, bind, Except.bind]
  | struct n fvs ts vs hn _ _ ih1 ih2 =>
    obtain ⟨N, ih2⟩ := ih2 (fun t h => ht t (by simp [h]))
    obtain ⟨M, ih1⟩ := ih1 (by
      intro t h
      obtain ⟨f, hf, rfl⟩ := List.mem_map.1 h
      exact hT.1 n hn f hf)
    refine ⟨N + M + 2, fun k hk => ?_⟩
    obtain ⟨k, rfl⟩ : ∃ j, k = j + 2 := ⟨k - 2, by omega⟩
    simp only [List.map_cons, defMany, genTy, ih2 (k + 2) (by omega), defTy_struct hN hT hC hne hn,
      ih1 (k + 1) (by omega), bind, Except.bind]
  | enum n i pvs ts vs hn hi _ _ ih1 ih2 =>
    obtain ⟨N, ih2⟩ := ih2 (fun t h => ht t (by simp [h]))
    obtain ⟨M, ih1⟩ := ih1 (by
      intro t h
      obtain ⟨f, hf, rfl⟩ := List.mem_map.1 h
      exact hT.2 n hn i (List.mem_of_mem_head? (by simp [hi])) f hf)
    refine ⟨N + M + 2, fun k hk => ?_⟩
    obtain ⟨k, rfl⟩ : ∃ j, k = j + 2 := ⟨k - 2, by omega⟩
    simp only [List.map_cons, defMany, genTy, ih2 (k + 2) (by omega), defTy_enum hN hT hC hne hn hi,
      ih1 (k + 1) (by omega), bind, Except.bind]
  | list c gs shape its items ts vs hs hp _ _ ih1 ih2 =>
    obtain ⟨N, ih2⟩ := ih2 (fun t h => ht t (by simp [h]))
    obtain ⟨M, ih1⟩ := ih1 (fun t h => wfType_args (ht (.generic c gs) (by simp)) t (pick_mem hp t h))
    refine ⟨N + M + 1, fun k hk => ?_⟩
    obtain ⟨k, rfl⟩ : ∃ j, k = j + 1 := ⟨k - 1, by omega⟩
    rw [List.map_cons, defMany, defTy_list]
    simp only [hs, hp, orElse, ih1 k (by omega), ih2 (k + 1) (by omega), bind, Except.bind]
  | ext id v ts vs hid hx _ ih =>
    obtain ⟨N, ih⟩ := ih (fun t h => ht t (by simp [h]))
    refine ⟨N + 1, fun k hk => ?_⟩
    obtain ⟨k, rfl⟩ : ∃ j, k = j + 1 := ⟨k - 1, by omega⟩
    have hb := wfType_other (ht (.other id) (by simp))
    have hl : builtinTypes.lookup id = none := by simpa [isBuiltin] using hb
    simp only [List.map_cons, defMany, genTy, ih (k + 1) (by omega)]
    rw [defTy, item_none hne hid, hl]
    simp [hx, orElse, bind, Except.bind]

theorem mem_typeNames {x : String} (h : x ∈ typeNames S) :
    (∃ n, .struct n ∈ S ∧ n.id = x) ∨ (∃ n, .enum n ∈ S ∧ n.id = x) := by
  obtain ⟨d, hd, e⟩ := List.mem_filterMap.1 h
  cases d with
  | struct n => left; exact ⟨n, hd, by simpa using e⟩
  | enum n => right; exact ⟨n, hd, by simpa using e⟩
  | _ => simp at e

/-- Conversely, whatever the emitted code returns is the default of the specification. -/
theorem eval_default (hN : WellNamed S) (hT : TypesOk S) (hC : NoCharFields S)
    (hne : ∀ n, .enum n ∈ S → n.items ≠ []) : ∀ (k : Nat) (ts : List TypeId) (vs : List Val),
    (∀ t ∈ ts, WFType t) → defMany (defTy D (genItems S) k) (ts.map genTy) = .ok vs → DefaultOf D S ts vs := by
  intro k
  induction k using Nat.strongRecOn with
  | _ k ihk =>
    intro ts
    induction ts with
    | nil => intro vs _ h; simp only [List.map_nil, defMany, Except.ok.injEq] at h; subst h; exact .nil
    | cons t ts ih =>
      intro vs ht h
      simp only [List.map_cons, defMany, bind, Except.bind] at h
      cases h1 : defTy D (genItems S) k (genTy t) with
      | error e => rw [h1] at h; simp at h
      | ok v =>
        rw [h1] at h
        simp only at h
        cases h2 : defMany (defTy D (genItems S) k) (ts.map genTy) with
        | error e => rw [h2] at h; simp at h
        | ok vs' =>
          rw [h2] at h
          simp only [Except.ok.injEq] at h
          subst h
          have hr := ih vs' (fun t h => ht t (by simp [h])) h2
          have htw := ht t (by simp)
          cases k with
          | zero => simp [defTy] at h1
          | succ k =>
          cases hb : builtin? t with
          | some p =>
            obtain ⟨hl, hg⟩ := wfType_lookup htw hb
            have hnd : p ∉ typeNames S := builtin_not_declared hN (by simp [isBuiltin, hl])
            rw [hg, defTy, item_none hne hnd, hl] at h1
            simp only at h1
            cases hz : zeroOf t with
            | none => rw [hz] at h1; simp [orElse] at h1
            | some z =>
              rw [hz] at h1
              simp only [orElse, Except.ok.injEq] at h1
              subst h1
              exact .leaf t _ ts vs' hz hr
          | none =>
            cases t with
            | generic c gs =>
              rw [defTy_list] at h1
              cases hs : D.shape c with
              | none => rw [hs] at h1; simp [orElse, bind, Except.bind] at h1
              | some s =>
                rw [hs] at h1
                simp only [orElse, bind, Except.bind] at h1
                cases hp : pick gs (D.sub c s) with
                | none => rw [hp] at h1; simp at h1
                | some its =>
                  rw [hp] at h1
                  simp only at h1
                  cases hm : defMany (defTy D (genItems S) k) (its.map genTy) with
                  | error e => rw [hm] at h1; simp at h1
                  | ok items =>
                    rw [hm] at h1
                    simp only [Except.ok.injEq] at h1
                    subst h1
                    exact .list c gs s its items ts vs' hs hp
                      (ihk k (by omega) its items (fun t h => wfType_args htw t (pick_mem hp t h)) hm) hr
            | other id =>
              by_cases hid : id ∈ typeNames S
              · cases k with
                | zero =>
                  simp only [genTy] at h1
                  rcases mem_typeNames hid with ⟨n, hn, rfl⟩ | ⟨n, hn, rfl⟩
                  · simp [defTy, item_struct hN hne hn] at h1
                  · obtain ⟨i, hi⟩ : ∃ i, n.items.head? = some i := by
                      cases hh : n.items with
                      | nil => exact absurd hh (hne n hn)
                      | cons i is => exact ⟨i, rfl⟩
                    simp [defTy, item_enum hN hne hn hi] at h1
                | succ k =>
                  simp only [genTy] at h1
                  rcases mem_typeNames hid with ⟨n, hn, rfl⟩ | ⟨n, hn, rfl⟩
                  · rw [defTy_struct hN hT hC hne hn] at h1
                    cases hm : defMany (defTy D (genItems S) (k + 1)) (((fieldsOf n).map (·.2)).map genTy) with
                    | error e => rw [hm] at h1; simp [bind, Except.bind] at h1
                    | ok fvs =>
                      rw [hm] at h1
                      simp only [bind, Except.bind, Except.ok.injEq] at h1
                      subst h1
                      exact .struct n fvs ts vs' hn (ihk (k + 1) (by omega) _ fvs (by
                        intro t h
                        obtain ⟨f, hf, rfl⟩ := List.mem_map.1 h
                        exact hT.1 n hn f hf) hm) hr
                  · obtain ⟨i, hi⟩ : ∃ i, n.items.head? = some i := by
                      cases hh : n.items with
                      | nil => exact absurd hh (hne n hn)
                      | cons i is => exact ⟨i, rfl⟩
                    rw [defTy_enum hN hT hC hne hn hi] at h1
                    cases hm : defMany (defTy D (genItems S) (k + 1)) (((payload i).map (·.2)).map genTy) with
                    | error e => rw [hm] at h1; simp [bind, Except.bind] at h1
                    | ok fvs =>
                      rw [hm] at h1
                      simp only [bind, Except.bind, Except.ok.injEq] at h1
                      subst h1
                      exact .enum n i fvs ts vs' hn hi (ihk (k + 1) (by omega) _ fvs (by
                        intro t h
                        obtain ⟨f, hf, rfl⟩ := List.mem_map.1 h
                        exact hT.2 n hn i (List.mem_of_mem_head? (by simp [hi])) f hf) hm) hr
              · have hl : builtinTypes.lookup id = none := by simpa [isBuiltin] using wfType_other htw
                simp only [genTy] at h1
                rw [defTy, item_none hne hid, hl] at h1
                simp only at h1
                cases hx : D.ext id with
                | none => rw [hx] at h1; simp [orElse] at h1
                | some x =>
                  rw [hx] at h1
                  simp only [orElse, Except.ok.injEq] at h1
                  subst h1
                  exact .ext id _ ts vs' hid hx hr
            | _ => simp [builtin?] at hb

end TPB.Rust
