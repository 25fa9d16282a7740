/- The emitted Rust code reads and writes the documented wire layout. -/
import Verif.Sem.RustEval
import Verif.Proofs.WellFormed
import Std.Data.String.ToNat
namespace TPB.Rust
open Spec

/-! ### Lookup by distinct keys -/

theorem find?_key {α : Type} (key : α → String) : ∀ (l : List α), (l.map key).Nodup → ∀ a ∈ l,
    l.find? (fun d => decide (key d = key a)) = some a
  | [], _, _, h => by simp at h
  | b :: l, hn, a, h => by
    simp only [List.map_cons, List.nodup_cons, List.mem_map, not_exists, not_and] at hn
    by_cases hba : key b = key a
    · rcases List.mem_cons.1 h with rfl | h
      · simp
      · exact absurd hba.symm (hn.1 a h)
    · rcases List.mem_cons.1 h with rfl | h
      · exact absurd rfl hba
      · rw [List.find?_cons_of_neg (by simpa using hba)]
        exact find?_key key l hn.2 a h

theorem find?_key_nat {α : Type} (key : α → Nat) : ∀ (l : List α), (l.map key).Nodup → ∀ a ∈ l,
    l.find? (fun d => decide (key a = key d)) = some a
  | [], _, _, h => by simp at h
  | b :: l, hn, a, h => by
    simp only [List.map_cons, List.nodup_cons, List.mem_map, not_exists, not_and] at hn
    by_cases hba : key a = key b
    · rcases List.mem_cons.1 h with rfl | h
      · simp
      · exact absurd hba (hn.1 a h)
    · rcases List.mem_cons.1 h with rfl | h
      · exact absurd rfl hba
      · rw [List.find?_cons_of_neg (by simpa using hba)]
        exact find?_key_nat key l hn.2 a h

theorem find?_key_none {α : Type} (key : α → String) (l : List α) (x : String) (h : x ∉ l.map key) :
    l.find? (fun d => decide (key d = x)) = none := by
  rw [List.find?_eq_none]
  intro a ha
  simp only [decide_eq_true_eq]
  intro e
  exact h (List.mem_map.2 ⟨a, ha, e⟩)

theorem lookup_map_key {α β : Type} (key : α → String) (val : α → β) : ∀ (l : List α),
    (l.map key).Nodup → ∀ a ∈ l, (l.map (fun x => (key x, val x))).lookup (key a) = some (val a)
  | [], _, _, h => by simp at h
  | b :: l, hn, a, h => by
    simp only [List.map_cons, List.nodup_cons, List.mem_map, not_exists, not_and] at hn
    rw [List.map_cons, List.lookup_cons]
    by_cases hba : key a = key b
    · rcases List.mem_cons.1 h with rfl | h
      · simp
      · exact absurd hba (hn.1 a h)
    · have : (key a == key b) = false := by simpa using hba
      rw [this]
      rcases List.mem_cons.1 h with rfl | h
      · exact absurd rfl hba
      · exact lookup_map_key key val l hn.2 a h

theorem lookup_zip_of_nodup {κ α : Type} [BEq κ] [LawfulBEq κ] : ∀ (ns : List κ) (vs : List α), ns.Nodup →
    ns.length = vs.length → ∀ (i : Nat) (h : i < ns.length) (h' : i < vs.length),
      (ns.zip vs).lookup ns[i] = some vs[i]
  | [], _, _, _, i, h, _ => by simp at h
  | n :: ns, [], _, hl, _, _, _ => by simp at hl
  | n :: ns, v :: vs, hn, hl, i, h, h' => by
    simp only [List.nodup_cons] at hn
    rw [List.zip_cons_cons, List.lookup_cons]
    cases i with
    | zero => simp
    | succ i =>
      have hi : i < ns.length := by simpa using h
      have : (ns[i] == n) = false := by
        rw [beq_eq_false_iff_ne]
        intro e
        exact hn.1 (e ▸ List.getElem_mem hi)
      simp only [List.getElem_cons_succ, this]
      exact lookup_zip_of_nodup ns vs hn.2 (by simpa using hl) i hi (by simpa using h')

theorem mapM_ok {α β : Type} (f : α → Res β) (g : α → β) : ∀ (l : List α), (∀ a ∈ l, f a = .ok (g a)) →
    l.mapM f = .ok (l.map g)
  | [], _ => rfl
  | a :: l, h => by
    rw [List.mapM_cons, h a (by simp), mapM_ok f g l (fun b hb => h b (by simp [hb]))]
    rfl

/-- Looking every name of a list up in its own zip. -/
theorem mapM_lookup {β : Type} (mk : String → Val → β) (ns : List String) (vs : List Val) (hn : ns.Nodup)
    (hl : ns.length = vs.length) :
    ns.mapM (fun n => match (ns.zip vs).lookup n with
      | some v => (.ok (mk n v) : Res β)
      | none => .error .stuck) = .ok (List.zipWith mk ns vs) := by
  suffices h : ∀ (ms : List String) (us : List Val), ms.length = us.length →
      (∀ (i : Nat) (h : i < ms.length) (h' : i < us.length), (ns.zip vs).lookup ms[i] = some us[i]) →
      ms.mapM (fun n => match (ns.zip vs).lookup n with
      | some v => (.ok (mk n v) : Res β)
      | none => .error .stuck) = .ok (List.zipWith mk ms us) from
    h ns vs hl (lookup_zip_of_nodup ns vs hn hl)
  intro ms
  induction ms with
  | nil => intro us _ _; rfl
  | cons m ms ih =>
    intro us hl h
    match us with
    | [] => simp at hl
    | u :: us =>
      rw [List.mapM_cons]
      have h0 := h 0 (by simp) (by simp)
      simp only [List.getElem_cons_zero] at h0
      rw [ih us (by simpa using hl) (fun i a b => by
        have := h (i + 1) (by simpa using a) (by simpa using b)
        simpa using this), h0]
      rfl

/-! ### Names resolve to the emitted code -/

theorem decls_ids (S : List ASTNode) : (genProg S).decls.map Decl.id = typeNames S := by
  unfold genProg typeNames
  simp only
  rw [List.map_filterMap]
  congr 1
  funext d
  cases d <;> rfl

theorem genStructImpl_id (n : StructNode) : (genStructImpl n).id = n.id := by
  unfold genStructImpl; split <;> rfl

theorem impls_ids (S : List ASTNode) : (genProg S).impls.map Impl.id = typeNames S := by
  unfold genProg genImpls typeNames
  simp only
  rw [List.map_filterMap]
  congr 1
  funext d
  cases d <;> simp [genStructImpl_id, genEnumImpl]

theorem decl_struct {S : List ASTNode} (h : WellNamed S) {n : StructNode} (hn : .struct n ∈ S) :
    (genProg S).decl? n.id = some (genStructDecl n) :=
  find?_key Decl.id _ (by rw [decls_ids]; exact h.types) (genStructDecl n)
    (List.mem_filterMap.2 ⟨_, hn, rfl⟩)

theorem decl_enum {S : List ASTNode} (h : WellNamed S) {n : EnumNode} (hn : .enum n ∈ S) :
    (genProg S).decl? n.id = some (genEnumDecl n) :=
  find?_key Decl.id _ (by rw [decls_ids]; exact h.types) (genEnumDecl n)
    (List.mem_filterMap.2 ⟨_, hn, rfl⟩)

theorem impl_struct {S : List ASTNode} (h : WellNamed S) {n : StructNode} (hn : .struct n ∈ S) :
    (genProg S).impl? n.id = some (genStructImpl n) := by
  have := find?_key Impl.id (genProg S).impls (by rw [impls_ids]; exact h.types) (genStructImpl n)
    (List.mem_filterMap.2 ⟨_, hn, rfl⟩)
  rwa [genStructImpl_id] at this

theorem impl_enum {S : List ASTNode} (h : WellNamed S) {n : EnumNode} (hn : .enum n ∈ S) :
    (genProg S).impl? n.id = some (genEnumImpl n) :=
  find?_key Impl.id _ (by rw [impls_ids]; exact h.types) (genEnumImpl n)
    (List.mem_filterMap.2 ⟨_, hn, rfl⟩)

theorem impl_none {S : List ASTNode} {x : String} (hx : x ∉ typeNames S) :
    (genProg S).impl? x = none :=
  find?_key_none Impl.id _ x (by rw [impls_ids]; exact hx)

theorem typeOfName_cases (n : String) :
    typeOfName n = .other n ∧ isBuiltin n = false ∨ (builtin? (typeOfName n) = some n ∧ isBuiltin n = true) := by
  unfold typeOfName isBuiltin
  cases h : builtinTypes.lookup n with
  | none => left; simp
  | some t =>
    right
    unfold builtinTypes at h
    simp only [List.lookup_cons] at h
    repeat' (split at h)
    all_goals first
      | (simp only [Option.some.injEq] at h; subst h; rename_i e; simp only [beq_iff_eq] at e; subst e; simp [builtin?])
      | simp at h

/-- Built-in types carry a built-in name, other types do not. -/
theorem wfType_builtin {t : TypeId} (h : WFType t) {p : String} (hp : builtin? t = some p) :
    isBuiltin p = true ∧ genTy t = .named p ∧ genRead t = .prim p ∧ ∀ a, genWrite t a = .prim p a := by
  cases h with
  | generic n as _ _ => simp [builtin?] at hp
  | name n =>
    rcases typeOfName_cases n with ⟨h1, _⟩ | ⟨h1, h2⟩
    · rw [h1] at hp; simp [builtin?] at hp
    · rw [h1] at hp
      obtain rfl := Option.some.inj hp
      refine ⟨h2, ?_⟩
      revert h1
      cases typeOfName n <;> simp [builtin?, genTy, genRead, genWrite] <;> exact fun e => e

theorem wfType_other {x : String} (h : WFType (.other x)) : isBuiltin x = false := by
  generalize ht : TypeId.other x = t at h
  cases h with
  | generic n as _ _ => simp at ht
  | name n =>
    rcases typeOfName_cases n with ⟨h1, h2⟩ | ⟨h1, _⟩
    · rw [h1] at ht; cases ht; exact h2
    · rw [← ht] at h1; simp [builtin?] at h1

theorem builtin_not_declared {S : List ASTNode} (h : WellNamed S) {p : String} (hp : isBuiltin p = true) :
    p ∉ typeNames S := by
  intro hm
  have := h.builtins p hm
  simp [isBuiltin, this] at hp

/-- The types that occur in the declarations of a schema are proper types. -/
def TypesOk (S : List ASTNode) : Prop :=
  (∀ n, .struct n ∈ S → ∀ f ∈ fieldsOf n, WFType f.2) ∧
  (∀ n, .enum n ∈ S → ∀ i ∈ n.items, ∀ f ∈ payload i, WFType f.2)

theorem payload_types_wf {i : EnumItem} (h : WFItem i) : ∀ f ∈ payload i, WFType f.2 := by
  intro f hf
  cases i with
  | empty _ _ => simp [payload] at hf
  | tuple p id vs =>
    simp only [payload, List.mem_mapIdx] at hf
    obtain ⟨j, hj, rfl⟩ := hf
    exact h.2 _ (List.getElem_mem hj)
  | struct p id fs =>
    simp only [payload, List.mem_map] at hf
    obtain ⟨g, hg, rfl⟩ := hf
    exact h.2 _ hg

theorem wfSchema_mem' : ∀ (ds : List ASTNode) (k : Nat), WFSchema k ds → ∀ d ∈ ds, ∃ j, WFDecl j d
  | [], _, _, _, h => by simp at h
  | _ :: ds, k, ⟨h1, h2⟩, d, h => by
    rcases List.mem_cons.1 h with rfl | h
    · exact ⟨k, h1⟩
    · exact wfSchema_mem' ds _ h2 d h

theorem typesOk_of_wf {S : List ASTNode} {k : Nat} (h : WFSchema k S) : TypesOk S := by
  constructor
  · intro n hn f hf
    obtain ⟨j, hj⟩ := wfSchema_mem' S k h _ hn
    simp only [fieldsOf, List.mem_map] at hf
    obtain ⟨g, hg, rfl⟩ := hf
    exact hj.1.2 g hg
  · intro n hn i hi
    obtain ⟨j, hj⟩ := wfSchema_mem' S k h _ hn
    exact payload_types_wf (hj.2.2 i hi)

theorem pick_map {α β : Type} (f : α → β) (xs : List α) : ∀ is : List Nat,
    pick (xs.map f) is = (pick xs is).map (List.map f)
  | [] => rfl
  | i :: is => by
    simp only [pick, pick_map f xs is, List.getElem?_map]
    cases xs[i]? <;> cases pick xs is <;> rfl

theorem pick_mem {α : Type} {xs : List α} : ∀ {is : List Nat} {ys : List α}, pick xs is = some ys →
    ∀ y ∈ ys, y ∈ xs
  | [], ys, h, y, hy => by simp [pick] at h; subst h; simp at hy
  | i :: is, ys, h, y, hy => by
    simp only [pick] at h
    split at h
    · rename_i x r h1 h2
      simp only [Option.some.injEq] at h
      subst h
      rcases List.mem_cons.1 hy with rfl | hy
      · exact List.mem_of_getElem? h1
      · exact pick_mem h2 y hy
    · simp at h

theorem Enc.length_eq {W : Wire} {S : List ASTNode} {ts : List TypeId} {vs : List Val} {bs : Bytes}
    (h : Enc W S ts vs bs) : ts.length = vs.length := by
  induction h <;> simp_all

theorem readMany_length {rec : Ty → Bytes → Res (Val × Bytes)} : ∀ {ts : List Ty} {bs vs bs'},
    readMany rec ts bs = .ok (vs, bs') → ts.length = vs.length
  | [], bs, vs, bs', h => by
    simp only [readMany, Except.ok.injEq, Prod.mk.injEq] at h
    simp [← h.1]
  | t :: ts, bs, vs, bs', h => by
    simp only [readMany, bind, Except.bind] at h
    split at h
    · simp at h
    · split at h
      · simp at h
      · rename_i _ _ _ _ h2
        simp only [Except.ok.injEq, Prod.mk.injEq] at h
        rw [← h.1]
        simp [readMany_length h2]

theorem tuple_payload_names (p : Nat) (id : String) (vs : List TupleField) :
    (payload (.tuple p id vs)).map (·.1) = (List.range vs.length).map toString := by
  apply List.ext_getElem <;> simp [payload]

theorem range_toString_nodup (n : Nat) : ((List.range n).map toString).Nodup := by
  rw [List.nodup_iff_pairwise_ne, List.pairwise_map]
  refine List.Pairwise.imp ?_ (List.nodup_iff_pairwise_ne.1 List.nodup_range)
  intro a b h e
  exact h (Nat.repr_injective e)

theorem payload_nodup {S : List ASTNode} (hN : WellNamed S) {n : EnumNode} (hn : .enum n ∈ S)
    {i : EnumItem} (hi : i ∈ n.items) : ((payload i).map (·.1)).Nodup := by
  cases i with
  | empty _ _ => simp [payload]
  | tuple p id vs => rw [tuple_payload_names]; exact range_toString_nodup _
  | struct p id fs =>
    have := hN.payloads n hn p id fs hi
    simpa [payload, Function.comp_def] using this

section
variable {rt : Runtime} {S : List ASTNode}

theorem readTy_builtin (hN : WellNamed S) {t : TypeId} (ht : WFType t) {p : String}
    (hp : builtin? t = some p) (k : Nat) (bs : Bytes) :
    readTy rt (genProg S) (k + 1) (genTy t) bs = orElse .panic (rt.readP p bs) := by
  obtain ⟨h1, h2, -, -⟩ := wfType_builtin ht hp
  rw [h2]
  unfold readTy
  rw [impl_none (builtin_not_declared hN h1)]
  simp [h1]

theorem writeTy_builtin (hN : WellNamed S) {t : TypeId} (ht : WFType t) {p : String}
    (hp : builtin? t = some p) (k : Nat) (v : Val) :
    writeTy rt (genProg S) (k + 1) (genTy t) v = orElse .stuck (rt.wire.prim p v) := by
  obtain ⟨h1, h2, -, -⟩ := wfType_builtin ht hp
  rw [h2]
  unfold writeTy
  rw [impl_none (builtin_not_declared hN h1)]
  simp [h1]

theorem genTy_path {t : TypeId} (h : builtin? t = none) : genRead t = .path (genTy t) := by
  cases t <;> simp [builtin?] at h <;> simp [genRead, genTy, genTys_eq]

theorem genWrite_call {t : TypeId} (h : builtin? t = none) (a : Acc) : genWrite t a = .call a := by
  cases t <;> simp [builtin?] at h <;> rfl

theorem evalReadE_gen (hN : WellNamed S) {t : TypeId} (ht : WFType t) (k : Nat) (bs : Bytes) :
    evalReadE rt (readTy rt (genProg S) (k + 1)) (genRead t) bs
      = readTy rt (genProg S) (k + 1) (genTy t) bs := by
  cases hp : builtin? t with
  | none => rw [genTy_path hp]; rfl
  | some p =>
    rw [readTy_builtin hN ht hp]
    obtain ⟨-, -, h3, -⟩ := wfType_builtin ht hp
    rw [h3]; rfl

theorem evalReads_gen (hN : WellNamed S) (k : Nat) : ∀ (ts : List TypeId), (∀ t ∈ ts, WFType t) →
    ∀ bs, evalReads rt (readTy rt (genProg S) (k + 1)) (ts.map genRead) bs
      = readMany (readTy rt (genProg S) (k + 1)) (ts.map genTy) bs
  | [], _, _ => rfl
  | t :: ts, h, bs => by
    simp only [List.map_cons, evalReads, readMany]
    rw [evalReadE_gen hN (h t (by simp))]
    congr 1
    funext x
    rw [evalReads_gen hN k ts (fun u hu => h u (by simp [hu]))]

theorem mkRecord_zip {α : Type} (fs : List (String × α)) (vs : List Val) (hn : (fs.map (·.1)).Nodup)
    (hl : fs.length = vs.length) :
    mkRecord fs ((fs.map (·.1)).zip vs) = .ok ((fs.map (·.1)).zip vs) := by
  unfold mkRecord
  rw [if_pos (by simp [List.length_zip, hl])]
  have := mapM_lookup (fun n v => (n, v)) (fs.map (·.1)) vs hn (by simpa using hl)
  rw [List.mapM_map] at this
  rw [show (List.zip (fs.map (·.1)) vs) = List.zipWith (fun n v => (n, v)) (fs.map (·.1)) vs from rfl]
  exact this

/-- One step of reading a struct. -/
theorem readTy_struct (hN : WellNamed S) (hT : TypesOk S) {n : StructNode} (hn : .struct n ∈ S) (k : Nat)
    (bs : Bytes) :
    readTy rt (genProg S) (k + 2) (.named n.id) bs = (do
      let (vs, bs) ← readMany (readTy rt (genProg S) (k + 1)) (((fieldsOf n).map (·.2)).map genTy) bs
      .ok (.struct n.id (named (fieldsOf n) vs), bs)) := by
  rw [readTy, impl_struct hN hn]
  simp only [genStructImpl_id]
  cases hf : n.fields with
  | nil =>
    simp only [genStructImpl, hf, evalReadBody]
    rw [decl_struct hN hn]
    simp [genStructDecl, hf, fieldsOf, readMany, named, bind, Except.bind]
  | cons f fs =>
    simp only [genStructImpl, hf, evalReadBody]
    rw [decl_struct hN hn]
    simp only [genStructDecl]
    rw [← hf]
    have e1 : (n.fields.map (fun f => (f.name, genRead f.typeId))).map (·.2)
        = ((fieldsOf n).map (·.2)).map genRead := by simp [fieldsOf, Function.comp_def]
    have e2 : (n.fields.map (fun f => (f.name, genRead f.typeId))).map (·.1)
        = (n.fields.map (fun f => (f.name, genTy f.typeId))).map (·.1) := by simp [Function.comp_def]
    have e3 : (n.fields.map (fun f => (f.name, genTy f.typeId))).map (·.1)
        = (fieldsOf n).map (·.1) := by simp [fieldsOf, Function.comp_def]
    rw [e1, e2, evalReads_gen hN k _ (by
      intro t ht
      obtain ⟨f, hf, rfl⟩ := List.mem_map.1 ht
      exact hT.1 n hn f hf)]
    cases hr : readMany (readTy rt (genProg S) (k + 1)) (((fieldsOf n).map (·.2)).map genTy) bs with
    | error e => rfl
    | ok p =>
      obtain ⟨vs, bs'⟩ := p
      have hl : (fieldsOf n).length = vs.length := by
        simpa using readMany_length hr
      simp only [bind, Except.bind]
      rw [mkRecord_zip _ vs (by rw [e3]; exact hN.fields n hn) (by simpa [fieldsOf] using hl)]
      simp [named, e3]

theorem variant_enum (hN : WellNamed S) {n : EnumNode} (hn : .enum n ∈ S) {i : EnumItem} (hi : i ∈ n.items) :
    (genProg S).variant? n.id i.id = some (genVariant i).2 := by
  unfold Prog.variant?
  rw [decl_enum hN hn]
  simp only [genEnumDecl]
  have e : n.items.map genVariant = n.items.map (fun i => (i.id, (genVariant i).2)) := by
    apply List.map_congr_left
    intro i _
    cases i <;> rfl
  rw [e]
  exact lookup_map_key EnumItem.id _ _ (hN.variants n hn) i hi

theorem map_snd_mapIdx (vs : List TupleField) :
    (vs.mapIdx (fun i v => (toString i, v.typeId))).map (·.2) = vs.map (·.typeId) := by
  apply List.ext_getElem <;> simp

theorem zip_mapIdx (vs : List TupleField) (us : List Val) (h : vs.length = us.length) :
    ((vs.mapIdx (fun i v => (toString i, v.typeId))).map (·.1)).zip us
      = us.mapIdx (fun i v => (toString i, v)) := by
  apply List.ext_getElem <;> simp [h]

/-- The value built by an arm of the match. -/
theorem evalArmValue_gen (hN : WellNamed S) (hT : TypesOk S) {n : EnumNode} (hn : .enum n ∈ S)
    {i : EnumItem} (hi : i ∈ n.items) (k : Nat) (bs : Bytes) :
    evalArmValue rt (genProg S) (readTy rt (genProg S) (k + 1)) n.id (genReadArm i).2.1 (genReadArm i).2.2 bs
      = (do
        let (vs, bs) ← readMany (readTy rt (genProg S) (k + 1)) (((payload i).map (·.2)).map genTy) bs
        .ok (.enum n.id i.id (named (payload i) vs), bs)) := by
  have hv := variant_enum hN hn hi
  have ht : ∀ t ∈ (payload i).map (·.2), WFType t := by
    intro t ht
    obtain ⟨f, hf, rfl⟩ := List.mem_map.1 ht
    exact hT.2 n hn i hi f hf
  cases i with
  | empty p id =>
    simp only [EnumItem.id, genVariant] at hv
    simp [evalArmValue, genReadArm, hv, payload, readMany, bind, Except.bind, named, EnumItem.id]
  | tuple p id vs =>
    simp only [EnumItem.id, genVariant] at hv
    simp only [evalArmValue, genReadArm, hv]
    have e1 : vs.map (fun v => genRead v.typeId) = ((payload (.tuple p id vs)).map (·.2)).map genRead := by
      simp only [payload, map_snd_mapIdx, List.map_map]; rfl
    rw [e1, evalReads_gen hN k _ ht]
    cases hr : readMany (readTy rt (genProg S) (k + 1))
        (((payload (.tuple p id vs)).map (·.2)).map genTy) bs with
    | error e => rfl
    | ok q =>
      obtain ⟨us, bs'⟩ := q
      have hl : vs.length = us.length := by simpa [payload] using readMany_length hr
      simp only [bind, Except.bind, mkTuple]
      rw [if_pos (by simp [hl])]
      simp only [named, payload, zip_mapIdx vs us hl, EnumItem.id]
  | struct p id fs =>
    simp only [EnumItem.id, genVariant] at hv
    simp only [evalArmValue, genReadArm, hv]
    have e1 : (fs.map (fun f => (f.name, genRead f.typeId))).map (·.2)
        = ((payload (.struct p id fs)).map (·.2)).map genRead := by
      simp [payload, Function.comp_def]
    have e2 : (fs.map (fun f => (f.name, genRead f.typeId))).map (·.1)
        = (fs.map (fun f => (f.name, genTy f.typeId))).map (·.1) := by simp [Function.comp_def]
    have e3 : (fs.map (fun f => (f.name, genTy f.typeId))).map (·.1)
        = (payload (.struct p id fs)).map (·.1) := by simp [payload, Function.comp_def]
    rw [e1, e2, evalReads_gen hN k _ ht]
    cases hr : readMany (readTy rt (genProg S) (k + 1))
        (((payload (.struct p id fs)).map (·.2)).map genTy) bs with
    | error e => rfl
    | ok q =>
      obtain ⟨us, bs'⟩ := q
      have hl : fs.length = us.length := by simpa [payload] using readMany_length hr
      simp only [bind, Except.bind]
      rw [mkRecord_zip _ us (by rw [e3]; exact payload_nodup hN hn hi) (by simpa using hl)]
      simp [named, e3, EnumItem.id]

/-- One step of reading an enum. -/
theorem readTy_enum (hN : WellNamed S) (hT : TypesOk S) {n : EnumNode} (hn : .enum n ∈ S) (k : Nat)
    (bs : Bytes) :
    readTy rt (genProg S) (k + 2) (.named n.id) bs = (do
      let (value, bs) ← orElse .panic (rt.readP "u32" bs)
      match n.items.find? (fun i => tagIs value i.position) with
      | some i => do
        let (vs, bs) ← readMany (readTy rt (genProg S) (k + 1)) (((payload i).map (·.2)).map genTy) bs
        .ok (.enum n.id i.id (named (payload i) vs), bs)
      | none => .error .panic) := by
  rw [readTy, impl_enum hN hn]
  simp only [genEnumImpl, evalReadBody]
  have e : ∀ bs, evalReadE rt (readTy rt (genProg S) (k + 1)) (genRead u32TypeId) bs
      = orElse .panic (rt.readP "u32" bs) := fun _ => rfl
  rw [e]
  congr 1
  funext x
  obtain ⟨value, bs'⟩ := x
  simp only
  rw [List.find?_map]
  have e2 : ((fun a : Nat × String × Payload ReadE => tagIs value a.1) ∘ genReadArm)
      = (fun i => tagIs value i.position) := by
    funext i
    cases i <;> rfl
  rw [e2]
  cases hf : n.items.find? (fun i => tagIs value i.position) with
  | none => rfl
  | some i =>
    simp only [Option.map_some]
    rw [if_pos trivial]
    exact evalArmValue_gen hN hT hn (List.mem_of_find?_eq_some hf) k bs'

/-- Reading a container. -/
theorem readTy_list (c : String) (gs : List TypeId) (k : Nat) (bs : Bytes) :
    readTy rt (genProg S) (k + 1) (genTy (.generic c gs)) bs = (do
      let (s, bs) ← orElse .panic (rt.readH c bs)
      let ts ← orElse .stuck (pick gs (rt.wire.sub c s))
      let (vs, bs) ← readMany (readTy rt (genProg S) k) (ts.map genTy) bs
      .ok (.list s vs, bs)) := by
  rw [genTy_generic, readTy]
  congr 1
  funext x
  obtain ⟨s, bs'⟩ := x
  simp only [pick_map]
  cases pick gs (rt.wire.sub c s) <;> rfl

theorem wfType_args {c : String} {gs : List TypeId} (h : WFType (.generic c gs)) : ∀ a ∈ gs, WFType a := by
  generalize ht : TypeId.generic c gs = t at h
  cases h with
  | generic n as _ h => cases ht; exact h
  | name n =>
    rcases typeOfName_cases n with ⟨h1, _⟩ | ⟨h1, _⟩
    · rw [h1] at ht; cases ht
    · rw [← ht] at h1; simp [builtin?] at h1

/-- Every encoding is read back, whatever follows it. -/
theorem read_enc (hrt : rt.Lawful) (hN : WellNamed S) (hT : TypesOk S) (hD : DistinctNumbers S)
    {ts : List TypeId} {vs : List Val} {bs : Bytes} (h : Enc rt.wire S ts vs bs) (hts : ∀ t ∈ ts, WFType t) :
    ∃ N, ∀ k, N ≤ k → ∀ r, readMany (readTy rt (genProg S) k) (ts.map genTy) (bs ++ r) = .ok (vs, r) := by
  induction h with
  | nil => exact ⟨0, fun _ _ _ => rfl⟩
  | leaf t p v b ts vs bs hp hb _ ih =>
    obtain ⟨N, ih⟩ := ih (fun t h => hts t (by simp [h]))
    refine ⟨N + 1, fun k hk r => ?_⟩
    obtain ⟨k, rfl⟩ : ∃ j, k = j + 1 := ⟨k - 1, by omega⟩
    have := ih (k + 1) (by omega) r
    simp only [List.map_cons, readMany, readTy_builtin hN (hts t (by simp)) hp, List.append_assoc,
      hrt.prim p v b _ hb, orElse, bind, Except.bind, this]
  | struct n fvs b ts vs bs hn _ _ ih1 ih2 =>
    obtain ⟨N1, ih1⟩ := ih1 (by
      intro t ht
      obtain ⟨f, hf, rfl⟩ := List.mem_map.1 ht
      exact hT.1 n hn f hf)
    obtain ⟨N2, ih2⟩ := ih2 (fun t h => hts t (by simp [h]))
    refine ⟨N1 + N2 + 2, fun k hk r => ?_⟩
    obtain ⟨k, rfl⟩ : ∃ j, k = j + 2 := ⟨k - 2, by omega⟩
    have h2 := ih2 (k + 2) (by omega) r
    have h1 := ih1 (k + 1) (by omega) (bs ++ r)
    simp only [List.map_cons, readMany, genTy, readTy_struct hN hT hn, List.append_assoc, h1, h2, bind,
      Except.bind]
  | enum n i tag pvs b ts vs bs hn hi htag _ _ ih1 ih2 =>
    obtain ⟨N1, ih1⟩ := ih1 (by
      intro t ht
      obtain ⟨f, hf, rfl⟩ := List.mem_map.1 ht
      exact hT.2 n hn i hi f hf)
    obtain ⟨N2, ih2⟩ := ih2 (fun t h => hts t (by simp [h]))
    refine ⟨N1 + N2 + 2, fun k hk r => ?_⟩
    obtain ⟨k, rfl⟩ : ∃ j, k = j + 2 := ⟨k - 2, by omega⟩
    have h2 := ih2 (k + 2) (by omega) r
    have h1 := ih1 (k + 1) (by omega) (bs ++ r)
    have hf : n.items.find? (fun j => tagIs (.int i.position) j.position) = some i := by
      have := find?_key_nat EnumItem.position n.items (hD n hn) i hi
      simpa only [tagIs, Int.natCast_inj] using this
    simp only [List.map_cons, readMany, genTy, readTy_enum hN hT hn, List.append_assoc,
      hrt.prim _ _ _ _ htag, orElse, hf, h1, h2, bind, Except.bind]
  | list c gs shape hd its items b ts vs bs hh hpick _ _ ih1 ih2 =>
    obtain ⟨N1, ih1⟩ := ih1 (fun t ht => wfType_args (hts (.generic c gs) (by simp)) t (pick_mem hpick t ht))
    obtain ⟨N2, ih2⟩ := ih2 (fun t h => hts t (by simp [h]))
    refine ⟨N1 + N2 + 1, fun k hk r => ?_⟩
    obtain ⟨k, rfl⟩ : ∃ j, k = j + 1 := ⟨k - 1, by omega⟩
    have h2 := ih2 (k + 1) (by omega) r
    have h1 := ih1 k (by omega) (bs ++ r)
    simp only [List.map_cons, readMany, readTy_list, List.append_assoc,
      hrt.head _ _ _ _ hh, orElse, hpick, h1, h2, bind, Except.bind]
  | ext id v b ts vs bs hid hb _ ih =>
    obtain ⟨N, ih⟩ := ih (fun t h => hts t (by simp [h]))
    refine ⟨N + 1, fun k hk r => ?_⟩
    obtain ⟨k, rfl⟩ : ∃ j, k = j + 1 := ⟨k - 1, by omega⟩
    have := ih (k + 1) (by omega) r
    have hnb := wfType_other (hts (.other id) (by simp))
    simp only [List.map_cons, readMany, genTy, readTy, impl_none hid, hnb, Bool.false_eq_true, if_false,
      List.append_assoc, hrt.ext _ _ _ _ hb, orElse, bind, Except.bind, this]

/-! ### Writing -/

theorem genWrite_step (hN : WellNamed S) {t : TypeId} (ht : WFType t) (k : Nat) (env : Env) (a : Acc)
    (v : Val) (ha : env.lookup a = some (genTy t, v)) (hl : ∀ n, a ≠ .lit n) :
    evalWriteS rt (writeTy rt (genProg S) (k + 1)) env (genWrite t a)
      = writeTy rt (genProg S) (k + 1) (genTy t) v := by
  cases hp : builtin? t with
  | none => rw [genWrite_call hp]; simp [evalWriteS, ha]
  | some p =>
    rw [writeTy_builtin hN ht hp]
    obtain ⟨-, -, -, h4⟩ := wfType_builtin ht hp
    rw [h4]
    cases a with
    | lit n => exact absurd rfl (hl n)
    | field x => simp [evalWriteS, ha]
    | var x => simp [evalWriteS, ha]

theorem evalWrites_gen (hN : WellNamed S) (k : Nat) (env : Env) : ∀ (ts : List TypeId) (accs : List Acc)
    (vs : List Val), ts.length = accs.length → ts.length = vs.length → (∀ t ∈ ts, WFType t) →
    (∀ a ∈ accs, ∀ n, a ≠ .lit n) →
    (∀ (i : Nat) (h1 : i < ts.length) (h2 : i < accs.length) (h3 : i < vs.length),
      env.lookup accs[i] = some (genTy ts[i], vs[i])) →
    evalWrites rt (writeTy rt (genProg S) (k + 1)) env (List.zipWith genWrite ts accs)
      = writeMany (writeTy rt (genProg S) (k + 1)) (ts.map genTy) vs
  | [], [], [], _, _, _, _, _ => rfl
  | t :: ts, a :: accs, v :: vs, h1, h2, h3, h4, h5 => by
    simp only [List.zipWith_cons_cons, evalWrites, List.map_cons, writeMany]
    rw [genWrite_step hN (h3 t (by simp)) k env a v (h5 0 (by simp) (by simp) (by simp)) (h4 a (by simp)),
      evalWrites_gen hN k env ts accs vs (by simpa using h1) (by simpa using h2)
        (fun t ht => h3 t (by simp [ht])) (fun a ha => h4 a (by simp [ha]))
        (fun i a b c => h5 (i + 1) (by simpa using a) (by simpa using b) (by simpa using c))]
  | [], _ :: _, _, h, _, _, _, _ => by simp at h
  | [], [], _ :: _, _, h, _, _, _ => by simp at h
  | _ :: _, [], _, h, _, _, _, _ => by simp at h
  | _ :: _, _ :: _, [], _, h, _, _, _ => by simp at h

/-- The same with the environment as a zip. -/
theorem evalWrites_zip (hN : WellNamed S) (k : Nat) (ts : List TypeId) (accs : List Acc)
    (vs : List Val) (h1 : ts.length = accs.length) (h2 : ts.length = vs.length) (h3 : ∀ t ∈ ts, WFType t)
    (h4 : ∀ a ∈ accs, ∀ n, a ≠ .lit n) (h5 : accs.Nodup) :
    evalWrites rt (writeTy rt (genProg S) (k + 1)) (accs.zip ((ts.map genTy).zip vs)) (List.zipWith genWrite ts accs)
      = writeMany (writeTy rt (genProg S) (k + 1)) (ts.map genTy) vs := by
  apply evalWrites_gen hN k _ ts accs vs h1 h2 h3 h4
  intro i a b c
  rw [lookup_zip_of_nodup accs _ h5 (by simp; omega) i b (by simp; omega)]
  simp

theorem fieldEnv_zip (fs : List (String × Ty)) (vs : List Val) (hn : (fs.map (·.1)).Nodup)
    (hl : fs.length = vs.length) :
    fieldEnv fs ((fs.map (·.1)).zip vs)
      = .ok (((fs.map (·.1)).map Acc.field).zip ((fs.map (·.2)).zip vs)) := by
  unfold fieldEnv
  suffices h : ∀ (gs : List (String × Ty)) (us : List Val), gs.length = us.length →
      (∀ (i : Nat) (h : i < gs.length) (h' : i < us.length), ((fs.map (·.1)).zip vs).lookup gs[i].1 = some us[i]) →
      gs.mapM (fun f => match ((fs.map (·.1)).zip vs).lookup f.1 with
        | some v => (.ok (Acc.field f.1, f.2, v) : Res _) | none => .error .stuck)
        = .ok (((gs.map (·.1)).map Acc.field).zip ((gs.map (·.2)).zip us)) by
    refine h fs vs hl ?_
    intro i h1 h2
    have := lookup_zip_of_nodup (fs.map (·.1)) vs hn (by simpa using hl) i (by simpa using h1) h2
    simpa using this
  intro gs
  induction gs with
  | nil => intro us _ _; rfl
  | cons g gs ih =>
    intro us hl h
    match us with
    | [] => simp at hl
    | u :: us =>
      rw [List.mapM_cons]
      have h0 := h 0 (by simp) (by simp)
      simp only [List.getElem_cons_zero] at h0
      rw [ih us (by simpa using hl) (fun i a b => by
        have := h (i + 1) (by simpa using a) (by simpa using b)
        simpa using this), h0]
      rfl

theorem namedEnv_zip (fs : List (String × Ty)) (vs : List Val) (hn : (fs.map (·.1)).Nodup)
    (hl : fs.length = vs.length) :
    namedEnv fs ((fs.map (·.1)).zip vs) (fs.map (·.1))
      = .ok (((fs.map (·.1)).map Acc.var).zip ((fs.map (·.2)).zip vs)) := by
  unfold namedEnv
  suffices h : ∀ (gs : List (String × Ty)) (us : List Val), gs.length = us.length →
      (∀ (i : Nat) (h : i < gs.length) (h' : i < us.length),
        fs.lookup gs[i].1 = some gs[i].2 ∧ ((fs.map (·.1)).zip vs).lookup gs[i].1 = some us[i]) →
      (gs.map (·.1)).mapM (fun x => match fs.lookup x, ((fs.map (·.1)).zip vs).lookup x with
        | some t, some v => (.ok (Acc.var x, t, v) : Res _) | _, _ => .error .stuck)
        = .ok (((gs.map (·.1)).map Acc.var).zip ((gs.map (·.2)).zip us)) by
    refine h fs vs hl ?_
    intro i h1 h2
    constructor
    · have := lookup_zip_of_nodup (fs.map (·.1)) (fs.map (·.2)) hn (by simp) i (by simpa using h1) (by simpa using h1)
      have e : (fs.map (·.1)).zip (fs.map (·.2)) = fs := by
        apply List.ext_getElem <;> simp
      rw [e] at this
      simpa using this
    · have := lookup_zip_of_nodup (fs.map (·.1)) vs hn (by simpa using hl) i (by simpa using h1) h2
      simpa using this
  intro gs
  induction gs with
  | nil => intro us _ _; rfl
  | cons g gs ih =>
    intro us hl h
    match us with
    | [] => simp at hl
    | u :: us =>
      rw [List.map_cons, List.mapM_cons]
      have h0 := h 0 (by simp) (by simp)
      simp only [List.getElem_cons_zero] at h0
      rw [ih us (by simpa using hl) (fun i a b => by
        have := h (i + 1) (by simpa using a) (by simpa using b)
        simpa using this), h0.1, h0.2]
      rfl

theorem zipWith_genWrite_map {α : Type} (f : α → TypeId) (g : α → Acc) (xs : List α) :
    List.zipWith genWrite (xs.map f) (xs.map g) = xs.map (fun x => genWrite (f x) (g x)) := by
  rw [List.zipWith_map, List.zipWith_self]

theorem map_field_not_lit (l : List String) : ∀ a ∈ l.map Acc.field, ∀ n, a ≠ .lit n := by
  intro a ha n
  obtain ⟨x, -, rfl⟩ := List.mem_map.1 ha
  simp

theorem map_var_not_lit (l : List String) : ∀ a ∈ l.map Acc.var, ∀ n, a ≠ .lit n := by
  intro a ha n
  obtain ⟨x, -, rfl⟩ := List.mem_map.1 ha
  simp

theorem nodup_map_inj {α β : Type} (f : α → β) (hf : ∀ a b, f a = f b → a = b) {l : List α} (h : l.Nodup) :
    (l.map f).Nodup := by
  rw [List.nodup_iff_pairwise_ne, List.pairwise_map]
  exact List.Pairwise.imp (fun hab e => hab (hf _ _ e)) (List.nodup_iff_pairwise_ne.1 h)

theorem writeTy_struct (hN : WellNamed S) (hT : TypesOk S) {n : StructNode} (hn : .struct n ∈ S) (k : Nat)
    (fvs : List Val) (hl : (fieldsOf n).length = fvs.length) :
    writeTy rt (genProg S) (k + 2) (.named n.id) (.struct n.id (named (fieldsOf n) fvs))
      = writeMany (writeTy rt (genProg S) (k + 1)) (((fieldsOf n).map (·.2)).map genTy) fvs := by
  rw [writeTy, impl_struct hN hn]
  simp only [genStructImpl_id]
  cases hf : n.fields with
  | nil =>
    have : fvs = [] := by
      rw [fieldsOf, hf] at hl
      exact List.eq_nil_of_length_eq_zero hl.symm
    simp [genStructImpl, hf, evalWriteBody, fieldsOf, writeMany, this]
  | cons f fs =>
    simp only [genStructImpl, hf, evalWriteBody]
    rw [decl_struct hN hn]
    simp only [genStructDecl, if_true]
    rw [← hf]
    have e1 : n.fields.map (fun f => (f.name, genTy f.typeId)) = (fieldsOf n).map (fun f => (f.1, genTy f.2)) := by
      simp [fieldsOf, Function.comp_def]
    have e3 : ((fieldsOf n).map (fun f => (f.1, genTy f.2))).map (·.1) = (fieldsOf n).map (·.1) := by
      simp [Function.comp_def]
    have e4 : ((fieldsOf n).map (fun f => (f.1, genTy f.2))).map (·.2) = ((fieldsOf n).map (·.2)).map genTy := by
      simp [Function.comp_def]
    have hnd := hN.fields n hn
    rw [e1, named, ← e3, fieldEnv_zip _ fvs (by rw [e3]; exact hnd) (by simpa using hl), e3, e4]
    have e5 : n.fields.map (fun f => genWrite f.typeId (.field f.name))
        = List.zipWith genWrite ((fieldsOf n).map (·.2)) (((fieldsOf n).map (·.1)).map Acc.field) := by
      rw [List.map_map, zipWith_genWrite_map]; simp [fieldsOf, Function.comp_def]
    rw [e5]
    refine evalWrites_zip hN k _ _ fvs (by simp) (by simpa using hl) ?_ (map_field_not_lit _) ?_
    · intro t ht
      obtain ⟨f, hf, rfl⟩ := List.mem_map.1 ht
      exact hT.1 n hn f hf
    · exact nodup_map_inj _ (fun a b h => by simpa using h) hnd

/-- No field of a struct variant is named like the writer argument of the emitted code. -/
def NoWriterClash (S : List ASTNode) : Prop :=
  ∀ n, .enum n ∈ S → ∀ p id fs, .struct p id fs ∈ n.items → ∀ f ∈ fs, f.name ≠ "bytes_writer"

theorem withIdx_map_fst {α : Type} (xs : List α) : ∀ i, (withIdx i xs).map (·.1) = (List.range xs.length).map (· + i) := by
  induction xs with
  | nil => intro i; rfl
  | cons x xs ih =>
    intro i
    simp only [withIdx, List.map_cons, ih, List.length_cons, List.range_succ_eq_map, List.map_map]
    simp only [List.cons.injEq, Nat.zero_add, true_and]
    apply List.map_congr_left
    intro a _
    simp only [Function.comp]
    omega

theorem withIdx_map_snd {α : Type} (xs : List α) : ∀ i, (withIdx i xs).map (·.2) = xs := by
  induction xs with
  | nil => intro i; rfl
  | cons x xs ih => intro i; simp [withIdx, ih]

theorem withIdx_length {α : Type} (xs : List α) (i : Nat) : (withIdx i xs).length = xs.length := by
  have := congrArg List.length (withIdx_map_snd xs i)
  simpa using this

theorem bytes_writer_ne_v (n : Nat) : "v" ++ toString n ≠ "bytes_writer" := by
  intro h
  have := congrArg String.toList h
  rw [String.toList_append] at this
  have h0 := congrArg List.head? this
  simp at h0

theorem writeTy_enum (hN : WellNamed S) (hT : TypesOk S) (hW : NoWriterClash S) {n : EnumNode}
    (hn : .enum n ∈ S) {i : EnumItem} (hi : i ∈ n.items) (k : Nat)
    (pvs : List Val) (hl : (payload i).length = pvs.length) :
    writeTy rt (genProg S) (k + 2) (.named n.id) (.enum n.id i.id (named (payload i) pvs)) = (do
      let tag ← orElse .stuck (rt.wire.prim "u32" (.int i.position))
      let b ← writeMany (writeTy rt (genProg S) (k + 1)) (((payload i).map (·.2)).map genTy) pvs
      .ok (tag ++ b)) := by
  rw [writeTy, impl_enum hN hn]
  simp only [genEnumImpl, evalWriteBody]
  rw [if_pos ⟨trivial, trivial⟩, List.find?_map]
  have e2 : ((fun a : String × Payload Unit × List String × List WriteS => decide (a.1 = i.id)) ∘ genWriteArm)
      = (fun j => decide (j.id = i.id)) := by
    funext j
    cases j <;> rfl
  rw [e2, find?_key EnumItem.id _ (hN.variants n hn) i hi]
  have hv := variant_enum hN hn hi
  have hpn := payload_nodup hN hn hi
  have ht : ∀ t ∈ (payload i).map (·.2), WFType t := by
    intro t ht
    obtain ⟨f, hf, rfl⟩ := List.mem_map.1 ht
    exact hT.2 n hn i hi f hf
  have htag : ∀ env p, evalWriteS rt (writeTy rt (genProg S) (k + 1)) env (tagWrite p)
      = orElse .stuck (rt.wire.prim "u32" (.int p)) := fun _ _ => rfl
  cases i with
  | empty p id =>
    simp only [EnumItem.id, genVariant] at hv
    have : pvs = [] := List.eq_nil_of_length_eq_zero hl.symm
    subst this
    simp only [Option.map_some, genWriteArm, EnumItem.id, hv, EnumItem.position]
    simp [armEnv, evalWrites, htag, bind, Except.bind, payload, writeMany]
  | tuple p id vs =>
    simp only [EnumItem.id, genVariant] at hv
    simp only [Option.map_some, genWriteArm, EnumItem.id, hv, EnumItem.position]
    rw [if_neg (by
      intro h
      obtain ⟨q, -, hq⟩ := List.mem_map.1 h
      exact bytes_writer_ne_v _ hq)]
    have hl' : vs.length = pvs.length := by simpa [payload] using hl
    simp only [armEnv, tupleEnv]
    rw [if_pos ⟨by simp [withIdx_length], by simp [named, payload, hl']⟩]
    simp only [bind, Except.bind, evalWrites, htag]
    have e3 : (named (payload (.tuple p id vs)) pvs).map (·.2) = pvs := by
      rw [named, List.map_snd_zip]; simp [payload, hl']
    have e4 : (payload (.tuple p id vs)).map (·.2) = vs.map (·.typeId) := by
      simp only [payload, map_snd_mapIdx]
    have e5 : vs.map (·.typeId) = (withIdx 0 vs).map (fun v => v.2.typeId) := by
      conv => lhs; rw [← withIdx_map_snd vs 0, List.map_map]
      rfl
    have key := evalWrites_zip (rt := rt) hN k (vs.map (·.typeId))
      (((withIdx 0 vs).map (fun v => "v" ++ toString v.1)).map Acc.var) pvs (by simp [withIdx_length])
      (by simpa using hl') (by rw [← e4]; exact ht) (map_var_not_lit _) (by
        have e6 : ((withIdx 0 vs).map (fun v => "v" ++ toString v.1)).map Acc.var
          = (((withIdx 0 vs).map (·.1)).map toString).map (fun s => Acc.var ("v" ++ s)) := by
          simp [Function.comp_def]
        rw [e6, withIdx_map_fst]
        apply nodup_map_inj _ (fun a b h => by
          simp only [Acc.var.injEq] at h
          exact (String.append_right_inj _).1 h)
        simpa using range_toString_nodup vs.length)
    rw [e3, e4]
    have e7 : List.zipWith genWrite (vs.map (·.typeId)) (((withIdx 0 vs).map (fun v => "v" ++ toString v.1)).map Acc.var)
        = (withIdx 0 vs).map (fun v => genWrite v.2.typeId (.var ("v" ++ toString v.1))) := by
      rw [e5, List.map_map, zipWith_genWrite_map]; rfl
    rw [e7] at key
    have e8 : vs.map (fun v => genTy v.typeId) = (vs.map (·.typeId)).map genTy := by simp
    rw [e8, key]
  | struct p id fs =>
    simp only [EnumItem.id, genVariant] at hv
    simp only [Option.map_some, genWriteArm, EnumItem.id, hv, EnumItem.position]
    rw [if_neg (by
      intro h
      obtain ⟨q, hq, e⟩ := List.mem_map.1 h
      exact hW n hn p id fs hi q hq e)]
    have hl' : fs.length = pvs.length := by simpa [payload] using hl
    simp only [armEnv]
    have e1 : fs.map (fun f => (f.name, genTy f.typeId))
        = (payload (.struct p id fs)).map (fun f => (f.1, genTy f.2)) := by simp [payload, Function.comp_def]
    have e2 : fs.map (fun f => f.name)
        = ((payload (.struct p id fs)).map (fun f => (f.1, genTy f.2))).map (·.1) := by simp [payload, Function.comp_def]
    have e3 : ((payload (.struct p id fs)).map (fun f => (f.1, genTy f.2))).map (·.1)
        = (payload (.struct p id fs)).map (·.1) := by simp [Function.comp_def]
    have e4 : ((payload (.struct p id fs)).map (fun f => (f.1, genTy f.2))).map (·.2)
        = ((payload (.struct p id fs)).map (·.2)).map genTy := by simp [Function.comp_def]
    rw [e1, e2, named, ← e3, namedEnv_zip _ pvs (by rw [e3]; exact hpn) (by simpa using hl), e3, e4]
    simp only [bind, Except.bind, evalWrites, htag]
    have e5 : fs.map (fun f => genWrite f.typeId (.var f.name))
        = List.zipWith genWrite ((payload (.struct p id fs)).map (·.2))
          (((payload (.struct p id fs)).map (·.1)).map Acc.var) := by
      rw [List.map_map, zipWith_genWrite_map]; simp [payload, Function.comp_def]
    rw [e5, evalWrites_zip hN k _ _ pvs (by simp) (by simpa using hl) ht (map_var_not_lit _)
      (nodup_map_inj _ (fun a b h => by simpa using h) hpn)]

/-- Writing produces the documented layout. -/
theorem write_enc (hN : WellNamed S) (hT : TypesOk S) (hW : NoWriterClash S)
    {ts : List TypeId} {vs : List Val} {bs : Bytes} (h : Enc rt.wire S ts vs bs) (hts : ∀ t ∈ ts, WFType t) :
    ∃ N, ∀ k, N ≤ k → writeMany (writeTy rt (genProg S) k) (ts.map genTy) vs = .ok bs := by
  induction h with
  | nil => exact ⟨0, fun _ _ => rfl⟩
  | leaf t p v b ts vs bs hp hb _ ih =>
    obtain ⟨N, ih⟩ := ih (fun t h => hts t (by simp [h]))
    refine ⟨N + 1, fun k hk => ?_⟩
    obtain ⟨k, rfl⟩ : ∃ j, k = j + 1 := ⟨k - 1, by omega⟩
    have := ih (k + 1) (by omega)
    simp only [List.map_cons, writeMany, writeTy_builtin hN (hts t (by simp)) hp, hb, orElse, bind,
      Except.bind, this]
  | struct n fvs b ts vs bs hn h1 _ ih1 ih2 =>
    have hlen := Enc.length_eq h1
    obtain ⟨N1, ih1⟩ := ih1 (by
      intro t ht
      obtain ⟨f, hf, rfl⟩ := List.mem_map.1 ht
      exact hT.1 n hn f hf)
    obtain ⟨N2, ih2⟩ := ih2 (fun t h => hts t (by simp [h]))
    refine ⟨N1 + N2 + 2, fun k hk => ?_⟩
    obtain ⟨k, rfl⟩ : ∃ j, k = j + 2 := ⟨k - 2, by omega⟩
    have h2 := ih2 (k + 2) (by omega)
    have h1 := ih1 (k + 1) (by omega)
    simp only [List.map_cons, writeMany, genTy, writeTy_struct hN hT hn k fvs (by simpa using hlen), h1, h2,
      bind, Except.bind]
  | enum n i tag pvs b ts vs bs hn hi htag h1 _ ih1 ih2 =>
    have hlen := Enc.length_eq h1
    obtain ⟨N1, ih1⟩ := ih1 (by
      intro t ht
      obtain ⟨f, hf, rfl⟩ := List.mem_map.1 ht
      exact hT.2 n hn i hi f hf)
    obtain ⟨N2, ih2⟩ := ih2 (fun t h => hts t (by simp [h]))
    refine ⟨N1 + N2 + 2, fun k hk => ?_⟩
    obtain ⟨k, rfl⟩ : ∃ j, k = j + 2 := ⟨k - 2, by omega⟩
    have h2 := ih2 (k + 2) (by omega)
    have h1 := ih1 (k + 1) (by omega)
    simp only [List.map_cons, writeMany, genTy, writeTy_enum hN hT hW hn hi k pvs (by simpa using hlen), htag,
      orElse, h1, h2, bind, Except.bind]
  | list c gs shape hd its items b ts vs bs hh hpick _ _ ih1 ih2 =>
    obtain ⟨N1, ih1⟩ := ih1 (fun t ht => wfType_args (hts (.generic c gs) (by simp)) t (pick_mem hpick t ht))
    obtain ⟨N2, ih2⟩ := ih2 (fun t h => hts t (by simp [h]))
    refine ⟨N1 + N2 + 1, fun k hk => ?_⟩
    obtain ⟨k, rfl⟩ : ∃ j, k = j + 1 := ⟨k - 1, by omega⟩
    have h2 := ih2 (k + 1) (by omega)
    have h1 := ih1 k (by omega)
    simp only [List.map_cons, writeMany, genTy, genTys_eq, writeTy, hh, orElse, pick_map, hpick, Option.map_some, h1, h2,
      bind, Except.bind]
  | ext id v b ts vs bs hid hb _ ih =>
    obtain ⟨N, ih⟩ := ih (fun t h => hts t (by simp [h]))
    refine ⟨N + 1, fun k hk => ?_⟩
    obtain ⟨k, rfl⟩ : ∃ j, k = j + 1 := ⟨k - 1, by omega⟩
    have := ih (k + 1) (by omega)
    have hnb := wfType_other (hts (.other id) (by simp))
    simp only [List.map_cons, writeMany, genTy, writeTy, impl_none hid, hnb, Bool.false_eq_true, if_false,
      hb, orElse, bind, Except.bind, this]

/-- Every value has an encoding. -/
theorem hasTys_enc {W : Wire} (hW : W.Lawful) (hN : WellNamed S) (hT : TypesOk S) {ts : List TypeId}
    {vs : List Val} (h : HasTys W S ts vs) (hts : ∀ t ∈ ts, WFType t) : ∃ bs, Enc W S ts vs bs := by
  induction h with
  | nil => exact ⟨_, .nil⟩
  | leaf t v ts vs hv _ ih =>
    obtain ⟨bs, ih⟩ := ih (fun t h => hts t (by simp [h]))
    have hp : ∃ p, builtin? t = some p := by
      cases t <;> simp [LeafVal] at hv <;> exact ⟨_, rfl⟩
    obtain ⟨p, hp⟩ := hp
    obtain ⟨b, hb⟩ := hW.prim_total t p v (hts t (by simp)) hp hv
    exact ⟨_, .leaf t p v b ts vs bs hp hb ih⟩
  | struct n fvs ts vs hn _ _ ih1 ih2 =>
    obtain ⟨b, ih1⟩ := ih1 (by
      intro t ht
      obtain ⟨f, hf, rfl⟩ := List.mem_map.1 ht
      exact hT.1 n hn f hf)
    obtain ⟨bs, ih2⟩ := ih2 (fun t h => hts t (by simp [h]))
    exact ⟨_, .struct n fvs b ts vs bs hn ih1 ih2⟩
  | enum n i pvs ts vs hn hi _ _ ih1 ih2 =>
    obtain ⟨b, ih1⟩ := ih1 (by
      intro t ht
      obtain ⟨f, hf, rfl⟩ := List.mem_map.1 ht
      exact hT.2 n hn i hi f hf)
    obtain ⟨bs, ih2⟩ := ih2 (fun t h => hts t (by simp [h]))
    obtain ⟨tag, htag⟩ := hW.prim_total (typeOfName "u32") "u32" (.int i.position) (.name _) rfl (by
      have := hN.numbers n hn i hi
      show (0 : Int) ≤ (i.position : Int) ∧ (i.position : Int) < 2 ^ (8 * 4)
      omega)
    exact ⟨_, .enum n i tag pvs b ts vs bs hn hi htag ih1 ih2⟩
  | list c gs shape its items ts vs hh hpick _ _ ih1 ih2 =>
    obtain ⟨b, ih1⟩ := ih1 (fun t ht => wfType_args (hts (.generic c gs) (by simp)) t (pick_mem hpick t ht))
    obtain ⟨bs, ih2⟩ := ih2 (fun t h => hts t (by simp [h]))
    obtain ⟨hd, hh⟩ := Option.isSome_iff_exists.1 hh
    exact ⟨_, .list c gs shape hd its items b ts vs bs hh hpick ih1 ih2⟩
  | ext id v ts vs hid hv _ ih =>
    obtain ⟨bs, ih⟩ := ih (fun t h => hts t (by simp [h]))
    obtain ⟨b, hb⟩ := Option.isSome_iff_exists.1 hv
    exact ⟨_, .ext id v b ts vs bs hid hb ih⟩

end
end TPB.Rust
