/- Reading bytes of unknown origin with the emitted Dart code. -/
import Verif.Proofs.DartFacts
import Verif.Proofs.Untrusted
import Verif.Spec.UntrustedDart
namespace TPB.Dart
open Spec DartGen

variable {x : Ext} {S : List ASTNode} {rt : Runtime}

/-! ### More stack changes nothing -/

/-- The second result is the first, unless the stack has overflowed. -/
def Le {α : Type} (r r' : Res α) : Prop := r = .error .fuel ∨ r = r'

theorem Le.refl {α : Type} (r : Res α) : Le r r := .inr rfl

theorem Le.bind {α β : Type} {r r' : Res α} {f f' : α → Res β} (h : Le r r') (hf : ∀ a, Le (f a) (f' a)) :
    Le (r >>= f) (r' >>= f') := by
  rcases h with rfl | rfl
  · exact .inl rfl
  · cases r with
    | error e => exact .inr rfl
    | ok a => exact hf a

theorem Le.map {α β : Type} {r r' : Res α} (f : α → β) (h : Le r r') : Le (r.map f) (r'.map f) := by
  rcases h with rfl | rfl
  · exact .inl rfl
  · exact .inr rfl

theorem Le.each {α β : Type} {f f' : α → Res β} (h : ∀ a, Le (f a) (f' a)) : ∀ l, Le (each f l) (each f' l)
  | [] => .inr rfl
  | a :: as => (h a).bind (fun _ => (Le.each h as).bind (fun _ => .inr rfl))

theorem newVal_le {P : Prog} (k : Nat) : ∀ n, Le (newVal rt P k n) (newVal rt P (k + 1) n) := by
  induction k with
  | zero => exact fun _ => .inl rfl
  | succ k ih =>
    intro n
    have hdef : ∀ e, Le (evalDef rt (newVal rt P k) e) (evalDef rt (newVal rt P (k + 1)) e) := by
      intro e
      cases e <;> first | exact .inr rfl | exact ih _
    cases n with
    | const c => exact .inr (by simp only [newVal])
    | createDefault c =>
      rw [newVal, newVal]
      split
      · split
        · exact .inr rfl
        · exact (Le.each (fun i : String × DefE => (hdef i.2).map _) _).bind (fun _ => .inr rfl)
      · exact .inr rfl
    | enum e =>
      rw [newVal, newVal]
      split
      · split
        · refine (Le.each (fun p => ?_) _).bind (fun _ => .inr rfl)
          simp only [evalPayload]
          split
          · exact (ih _).map _
          · exact .inr rfl
        · exact .inr rfl
      · exact .inr rfl
    | factory id =>
      rw [newVal, newVal]
      split
      · exact ih _
      · split
        · exact ih _
        · exact .inr rfl

theorem newVal_more {P : Prog} {k j : Nat} {n : New} {d : Val} (h : newVal rt P k n = .ok d) (hj : k ≤ j) :
    newVal rt P j n = .ok d := by
  obtain ⟨e, rfl⟩ := Nat.le.dest hj
  clear hj
  induction e with
  | zero => exact h
  | succ e ih =>
    rcases newVal_le (rt := rt) (P := P) (k + e) n with e' | e'
    · rw [ih] at e'; cases e'
    · rw [← Nat.add_assoc, ← e', ih]

/-- The order on codecs. -/
def LeR (R R' : Readers) : Prop :=
  (∀ c bs, Le (R.read c bs) (R'.read c bs)) ∧ ∀ c old bs, Le (R.empl c old bs) (R'.empl c old bs)

theorem LeR.readE {R R' : Readers} (h : LeR R R') (e : ReadE) (bs : Bytes) : Le (evalReadE rt R e bs) (evalReadE rt R' e bs) := by
  cases e with
  | prim m => exact .inr rfl
  | codec c => exact h.1 c bs

theorem LeR.reads {R R' : Readers} (h : LeR R R') (es : List ReadE) : ∀ bs, Le (evalReads rt R es bs) (evalReads rt R' es bs) := by
  induction es with
  | nil => exact fun _ => .inr rfl
  | cons e es ih => exact fun bs => (h.readE e bs).bind (fun a => (ih _).bind (fun _ => .inr rfl))

theorem LeR.emplS {R R' : Readers} (h : LeR R R') (old : Val) (s : EmplS) (bs : Bytes) :
    Le (evalEmplS rt R old s bs) (evalEmplS rt R' old s bs) := by
  cases s with
  | assign a e => exact h.readE e bs
  | into c a => exact h.2 c old bs

theorem LeR.empls {R R' : Readers} (h : LeR R R') (ss : List EmplS) :
    ∀ model bs, Le (evalEmpls rt R ss model bs) (evalEmpls rt R' ss model bs) := by
  induction ss with
  | nil => exact fun _ _ => .inr rfl
  | cons s ss ih =>
    intro model bs
    simp only [evalEmpls]
    split
    · exact .inr rfl
    · exact (Le.refl _).bind (fun old => (h.emplS old s bs).bind (fun p => (Le.refl _).bind (fun m => ih m _)))

theorem LeR.readCase {R R' : Readers} {P : Prog} (h : LeR R R') (id : String) (c : ReadCase) (model : Val) (bs : Bytes) :
    Le (evalReadCase P R id c model bs) (evalReadCase P R' id c model bs) := by
  simp only [evalReadCase]
  split
  · split
    · exact (Le.refl _).bind (fun m => (Le.refl _).bind (fun old => (h.2 _ _ _).bind (fun p => .inr rfl)))
    · exact .inr rfl
  · exact .inr rfl

theorem LeR.read {R R' : Readers} {P : Prog} (h : LeR R R') {new new' : New → Res Val} (hn : ∀ n, Le (new n) (new' n))
    (c : CodecClass) (bs : Bytes) : Le (evalRead rt P R new c bs) (evalRead rt P R' new' c bs) := by
  simp only [evalRead]
  split
  · split
    · exact .inr rfl
    · split
      · exact (h.reads _ bs).bind (fun a => .inr rfl)
      · exact .inr rfl
  · refine (Le.refl _).bind (fun a => ?_)
    split
    · exact (hn _).bind (fun m => h.readCase _ _ _ _)
    · exact .inr rfl
  · exact .inr rfl

theorem LeR.empl {R R' : Readers} {P : Prog} (h : LeR R R') (c : CodecClass) (model : Val) (bs : Bytes) :
    Le (evalEmpl rt P R c model bs) (evalEmpl rt P R' c model bs) := by
  simp only [evalEmpl]
  split
  · split
    · exact h.empls _ _ _
    · refine (Le.refl _).bind (fun a => ?_)
      split
      · exact h.readCase _ _ _ _
      · exact .inr rfl
    · exact .inr rfl
  · exact .inr rfl

theorem LeR.readN {rd rd' : Bytes → Res (Val × Bytes)} (h : ∀ bs, Le (rd bs) (rd' bs)) (n : Nat) :
    ∀ bs, Le (readN rd n bs) (readN rd' n bs) := by
  induction n with
  | zero => exact fun _ => .inr rfl
  | succ n ih => exact fun bs => (h bs).bind (fun a => (ih _).bind (fun _ => .inr rfl))

theorem LeR.list {R R' : Readers} (h : LeR R R') (e : String) (bs : Bytes) : Le (evalList rt R e bs) (evalList rt R' e bs) :=
  (Le.refl _).bind (fun _ => (LeR.readN (fun bs => h.1 _ bs) _ _).bind (fun _ => .inr rfl))

theorem readers_le {P : Prog} (k : Nat) : LeR (readers rt P k) (readers rt P (k + 1)) := by
  induction k with
  | zero => exact ⟨fun _ _ => .inl rfl, fun _ _ _ => .inl rfl⟩
  | succ k ih =>
    constructor
    · intro c bs
      rw [readers, readers.eq_2 (k := k + 1)]
      cases c with
      | plain kd b =>
        dsimp only
        split <;> first | exact .inr rfl | exact ih.read (newVal_le k) _ _
      | generic kd b args =>
        dsimp only
        split <;> exact .inr rfl
      | list kd a e =>
        dsimp only
        split <;> first | exact .inr rfl | exact ih.list _ _
    · intro c old bs
      rw [readers, readers.eq_2 (k := k + 1)]
      cases c with
      | plain kd b =>
        dsimp only
        split <;> first | exact .inr rfl | exact ih.empl _ _ _
      | generic kd b args =>
        dsimp only
        split <;> exact .inr rfl
      | list kd a e =>
        dsimp only
        split <;> first | exact .inr rfl | exact ih.list _ _

theorem more {α : Type} {f : Nat → Res α} (hf : ∀ k, Le (f k) (f (k + 1))) {k j : Nat} (h : f k ≠ .error .fuel) (hj : k ≤ j) :
    f j = f k := by
  obtain ⟨d, rfl⟩ := Nat.le.dest hj
  clear hj
  induction d with
  | zero => rfl
  | succ d ih =>
    rcases hf (k + d) with e | e
    · rw [ih] at e; exact absurd e h
    · rw [← Nat.add_assoc, ← e, ih]

/-- A read that does not overflow the stack gives the same result with more stack. -/
theorem readT_more {P : Prog} {k j : Nat} {t : TypeId} {bs : Bytes} (h : readT rt P k t bs ≠ .error .fuel) (hj : k ≤ j) :
    readT rt P j t bs = readT rt P k t bs :=
  more (f := fun k => readT rt P k t bs) (fun k => (readers_le k).readE _ _) h hj

theorem emplT_more {P : Prog} {k j : Nat} {t : TypeId} {old : Val} {bs : Bytes} (h : emplT rt P k t old bs ≠ .error .fuel)
    (hj : k ≤ j) : emplT rt P j t old bs = emplT rt P k t old bs :=
  more (f := fun k => emplT rt P k t old bs) (fun k => (readers_le k).emplS _ _ _) h hj

theorem reads_of_eq {P : Prog} {k : Nat} {t : TypeId} {bs : Bytes} {d : Val} {r : Bytes}
    (h : readT rt P k t bs = .ok (d, r)) : Reads rt P t bs d r :=
  ⟨k, fun j hj => by rw [readT_more (by rw [h]; simp) hj, h]⟩

theorem throws_of_eq {P : Prog} {k : Nat} {t : TypeId} {bs : Bytes}
    (h : readT rt P k t bs = .error .throws) : ReadThrows rt P t bs :=
  ⟨k, fun j hj => by rw [readT_more (by rw [h]; simp) hj, h]⟩

/-! ### What is read -/

/-- What is shown of each way of reading; the types are those that Dart sees. -/
structure ReadInd (rt : Runtime) (S : List ASTNode) (J : List TypeId → List Val → Bytes → Bytes → Prop) : Prop where
  nil : ∀ bs, J [] [] bs bs
  cons : ∀ t v bs r ts vs r', J [t] [v] bs r → J ts vs r r' → J (t :: ts) (v :: vs) bs r'
  leaf : ∀ t p bs v r, Sized t → builtin? (dartView t) = some p → rt.readP p bs = some (v, r) → J [dartView t] [v] bs r
  struct : ∀ n vs bs r, .struct n ∈ S → J (((fieldsOf n).map (·.2)).map dartView) vs bs r →
    J [.other n.id] [.struct n.id (named (fieldsOf n) vs)] bs r
  enum : ∀ n i bs r0 vs r, .enum n ∈ S → i ∈ n.items → rt.readP "Int32" bs = some (.int i.position, r0) →
    J (((payload i).map (·.2)).map dartView) vs r0 r → J [.other n.id] [.enum n.id i.id (named (payload i) vs)] bs r
  list : ∀ e s vs bs r0 r, rt.readL bs = some (s, r0) → J (List.replicate s e) vs r0 r → J [.generic "Vec" [e]] [.list s vs] bs r
  ext : ∀ id bs v r, id ∉ typeNames S → rt.readX id bs = some (v, r) → J [.other id] [v] bs r
  empl : ∀ id old bs v r, id ∉ typeNames S → rt.emplX id old bs = some (v, r) → J [.other id] [v] bs r

/-- The object `d` of type `t`, read from `bs` up to `r`, stands for a value with the property `J`. -/
def Stands (x : Ext) (S : List ASTNode) (J : List TypeId → List Val → Bytes → Bytes → Prop) (ts : List TypeId) (bs : Bytes)
    (ds : List Val) (r : Bytes) : Prop :=
  ∃ vs, J (ts.map dartView) vs bs r ∧ DRep x (dartSchema S) (ts.map dartView) vs ds

variable {J : List TypeId → List Val → Bytes → Bytes → Prop}

theorem Stands.one {t : TypeId} {bs r : Bytes} {d : Val} (h : Stands x S J [t] bs [d] r) :
    ∃ v, J [dartView t] [v] bs r ∧ DRep x (dartSchema S) [dartView t] [v] [d] := by
  obtain ⟨vs, h1, h2⟩ := h
  have := h2.length_eq.1
  match vs, this with
  | [v], _ => exact ⟨v, h1, h2⟩

theorem Stands.cons (I : ReadInd rt S J) {t : TypeId} {ts : List TypeId} {bs r0 r : Bytes} {d : Val} {ds : List Val}
    (h1 : Stands x S J [t] bs [d] r0) (h2 : Stands x S J ts r0 ds r) : Stands x S J (t :: ts) bs (d :: ds) r := by
  obtain ⟨v, a1, a2⟩ := h1.one
  obtain ⟨vs, b1, b2⟩ := h2
  exact ⟨v :: vs, I.cons _ _ _ _ _ _ _ a1 b1, a2.cons b2⟩

theorem stands_reads (I : ReadInd rt S J) {R : Readers} {ts : List TypeId}
    (h1 : ∀ t ∈ ts, ∀ bs d r, evalReadE rt R (genRead t) bs = .ok (d, r) → Stands x S J [t] bs [d] r) :
    ∀ {bs ds r}, evalReads rt R (ts.map genRead) bs = .ok (ds, r) → Stands x S J ts bs ds r := by
  induction ts with
  | nil =>
    intro bs ds r h
    simp only [List.map_nil, evalReads, Except.ok.injEq, Prod.mk.injEq] at h
    obtain ⟨rfl, rfl⟩ := h
    exact ⟨[], I.nil _, .nil⟩
  | cons t ts ih =>
    intro bs ds r h
    simp only [List.map_cons, evalReads, bind, Except.bind] at h
    split at h
    · simp at h
    rename_i p hp
    split at h
    · simp at h
    rename_i q hq
    simp only [Except.ok.injEq, Prod.mk.injEq] at h
    obtain ⟨rfl, rfl⟩ := h
    exact Stands.cons I (h1 t (by simp) _ _ _ hp) (ih (fun t ht => h1 t (by simp [ht])) hq)

theorem stands_empls (I : ReadInd rt S J) {P : Prog} {k : Nat} {ts : List TypeId}
    (h1 : ∀ t ∈ ts, ∀ old, DObj x (dartSchema S) [dartView t] [old] → ∀ bs d r,
      emplT rt P k t old bs = .ok (d, r) → Stands x S J [t] bs [d] r) :
    ∀ {olds bs ds r}, DObj x (dartSchema S) (ts.map dartView) olds → emplMany rt P k ts olds bs = .ok (ds, r) →
      Stands x S J ts bs ds r := by
  induction ts with
  | nil =>
    intro olds bs ds r _ h
    simp only [emplMany, Except.ok.injEq, Prod.mk.injEq] at h
    obtain ⟨rfl, rfl⟩ := h
    exact ⟨[], I.nil _, .nil⟩
  | cons t ts ih =>
    intro olds bs ds r ho h
    cases olds with
    | nil => exact absurd ho.length_eq (by simp)
    | cons o olds =>
      obtain ⟨ho1, ho2⟩ := ho.head
      simp only [emplMany, bind, Except.bind] at h
      split at h
      · simp at h
      rename_i p hp
      split at h
      · simp at h
      rename_i q hq
      simp only [Except.ok.injEq, Prod.mk.injEq] at h
      obtain ⟨rfl, rfl⟩ := h
      exact Stands.cons I (h1 t (by simp) o ho1 _ _ _ hp) (ih (fun t ht => h1 t (by simp [ht])) ho2 hq)

theorem orElse_ok {α : Type} {f : Fault} {o : Option α} {a : α} (h : orElse f o = .ok a) : o = some a := by
  cases o <;> simp [orElse] at h
  rw [h]

/-- The kinds of types. -/
theorem type_cases (t : TypeId) : (∃ p, builtin? (dartView t) = some p) ∨ (∃ n, .struct n ∈ S ∧ t = .other n.id) ∨
    (∃ n, .enum n ∈ S ∧ t = .other n.id) ∨ (∃ id, id ∉ typeNames S ∧ t = .other id) ∨
    (∃ g, t = .generic "Vec" [g]) ∨ ∃ c gs, t = .generic c gs ∧ dartView t = .other (dartGeneric c gs) := by
  cases t with
  | integer _ _ _ => exact .inl ⟨_, rfl⟩
  | number _ _ => exact .inl ⟨_, rfl⟩
  | bool _ => exact .inl ⟨_, rfl⟩
  | char _ => exact .inl ⟨_, rfl⟩
  | other id =>
    by_cases h : id ∈ typeNames S
    · rcases typeNames_mem h with ⟨n, hn, rfl⟩ | ⟨n, hn, rfl⟩
      · exact .inr (.inl ⟨n, hn, rfl⟩)
      · exact .inr (.inr (.inl ⟨n, hn, rfl⟩))
    · exact .inr (.inr (.inr (.inl ⟨id, h, rfl⟩)))
  | generic c gs =>
    refine .inr (.inr (.inr (.inr ?_)))
    by_cases h : ∃ g, gs = [g] ∧ c = "Vec"
    · obtain ⟨g, rfl, rfl⟩ := h
      exact .inl ⟨g, rfl⟩
    · refine .inr ⟨c, gs, rfl, ?_⟩
      simp only [dartView]
      split
      · rename_i g
        rw [if_neg (fun e => h ⟨g, rfl, e⟩)]
      · rfl

theorem generic_not_declared (hN : DartNamed x S) (c : String) (gs : List TypeId) : dartGeneric c gs ∉ typeNames S :=
  fun h => hN.plain _ h (lt_mem_dartGeneric c gs)

theorem stands_case (I : ReadInd rt S J) (hS : Plain S) (hN : DartNamed x S) {n : EnumNode} (hn : .enum n ∈ S) {k : Nat}
    (h1 : ∀ i ∈ n.items, ∀ t ∈ (payload i).map (·.2), ∀ old, DObj x (dartSchema S) [dartView t] [old] → ∀ bs d r,
      emplT rt (genProg x S) k t old bs = .ok (d, r) → Stands x S J [t] bs [d] r)
    {old : Val} (ho : DObj x (dartSchema S) [.other n.id] [old]) {tag : Val} {bs r0 : Bytes} {a : ReadCase} {d : Val} {r : Bytes}
    (hr : rt.readP "Int32" bs = some (tag, r0))
    (hf : (n.items.map (genReadCase x n)).find? (fun a => tagIs tag a.pos) = some a)
    (h : evalReadCase (genProg x S) (readers rt (genProg x S) (k + 1)) n.id a old r0 = .ok (d, r)) :
    Stands x S J [.other n.id] bs [d] r := by
  have hm := List.mem_of_find?_eq_some hf
  have ht := List.find?_some hf
  obtain ⟨i, hi, rfl⟩ := List.mem_map.1 hm
  have hv : tag = .int i.position := by
    cases tag <;> simp [tagIs, genReadCase] at ht
    rw [of_decide_eq_true ht]
  subst hv
  obtain ⟨v, pls, rfl, hl, hobj⟩ := dobj_enum_inv hN hn ho
  obtain ⟨l1, l2, p1, p, p2, hl1, rfl, hlen⟩ := split_mem hl hi
  have hpobj : DObj x (dartSchema S) (((payload i).map (·.2)).map dartView) p := by
    rw [← payload_view]
    exact hobj (i, p) (by rw [hl1, List.zip_append hlen]; simp)
  rw [readCase_eval hS hN hn v l1 l2 i p1 p2 p hlen hl1 (by have := hpobj.length_eq; simpa using this.symm)] at h
  simp only [bind, Except.bind] at h
  split at h
  · simp at h
  rename_i q hq
  obtain ⟨ds, r1⟩ := q
  simp only [Except.ok.injEq, Prod.mk.injEq] at h
  obtain ⟨rfl, rfl⟩ := h
  obtain ⟨vs, j1, j2⟩ := stands_empls I (h1 i hi) hpobj hq
  refine ⟨_, I.enum n i bs r0 vs r1 hn hi hr j1, drep_enum hn (pls := p1 ++ ds :: p2) (by simpa using hl)
      (by rw [hl1, List.zip_append hlen]; simp) j2 ?_⟩
  intro q hq
  rw [hl1, List.zip_append hlen] at hq
  simp only [List.zip_cons_cons, List.mem_append, List.mem_cons] at hq
  rcases hq with hq | rfl | hq
  · exact hobj q (by rw [hl1, List.zip_append hlen]; simp [hq])
  · rw [payload_view]; exact j2.obj
  · exact hobj q (by rw [hl1, List.zip_append hlen]; simp [hq])

theorem stands_list (I : ReadInd rt S J) {g : TypeId} {k : Nat}
    (h1 : ∀ bs d r, readT rt (genProg x S) k (.other (dartElem g)) bs = .ok (d, r) → Stands x S J [.other (dartElem g)] bs [d] r)
    {bs : Bytes} {d : Val} {r : Bytes} (h : evalList rt (readers rt (genProg x S) k) (dartElem g) bs = .ok (d, r)) :
    Stands x S J [.generic "Vec" [g]] bs [d] r := by
  simp only [evalList, bind, Except.bind] at h
  split at h
  · simp at h
  rename_i q hq
  obtain ⟨s, r0⟩ := q
  simp only at h
  split at h
  · simp at h
  rename_i q2 hq2
  obtain ⟨ds, r1⟩ := q2
  simp only [Except.ok.injEq, Prod.mk.injEq] at h
  obtain ⟨rfl, rfl⟩ := h
  rw [readN_eq (rt := rt)] at hq2
  obtain ⟨vs, j1, j2⟩ := stands_reads I (fun t ht bs d r hr => by
    obtain ⟨-, rfl⟩ := List.mem_replicate.1 ht
    exact h1 bs d r hr) hq2
  have e : (List.replicate s (TypeId.other (dartElem g))).map dartView = List.replicate s (TypeId.other (dartElem g)) := by
    simp [dartView]
  have e2 : dartView (.generic "Vec" [g]) = .generic "Vec" [.other (dartElem g)] := by simp [dartView]
  rw [e] at j1 j2
  refine ⟨[.list s vs], ?_, ?_⟩
  · rw [List.map_cons, List.map_nil, e2]
    exact I.list _ s vs bs r0 r1 (orElse_ok hq) j1
  · rw [List.map_cons, List.map_nil, e2]
    exact .list _ s vs ds _ _ _ j2 .nil

theorem ReadInd.both (I : ReadInd rt S J) (hS : Plain S) (hN : DartNamed x S)
    (hnew : ∀ k n d, .enum n ∈ S → newVal rt (genProg x S) k (.enum n.id) = .ok d → DObj x (dartSchema S) [.other n.id] [d]) (k : Nat) :
    ∀ t, Sized t → LibraryFree S t → (∀ bs d r, readT rt (genProg x S) k t bs = .ok (d, r) → Stands x S J [t] bs [d] r) ∧
      ∀ old, DObj x (dartSchema S) [dartView t] [old] → ∀ bs d r, emplT rt (genProg x S) k t old bs = .ok (d, r) →
        Stands x S J [t] bs [d] r := by
  induction k using Nat.strongRecOn with
  | _ k ih =>
  intro t hs hl
  rcases type_cases (S := S) t with ⟨p, hp⟩ | ⟨n, hn, rfl⟩ | ⟨n, hn, rfl⟩ | ⟨id, hid, rfl⟩ | ⟨g, rfl⟩ | ⟨c, gs, rfl, hv⟩
  · obtain ⟨-, h2, h3, -⟩ := view_builtin hp
    have key : ∀ bs d r, orElse .throws (rt.readP p bs) = .ok (d, r) → Stands x S J [t] bs [d] r := fun bs d r h =>
      ⟨[d], I.leaf t p bs d r hs hp (orElse_ok h), .leaf _ _ _ _ _ (by simp [hp]) .nil⟩
    refine ⟨fun bs d r h => ?_, fun old _ bs d r h => ?_⟩
    · rw [readT, h2] at h
      exact key bs d r h
    · rw [emplT, h3] at h
      exact key bs d r h
  · have hfs : ∀ t ∈ n.fields.map (·.typeId), Sized t ∧ LibraryFree S t := by
      intro t ht
      obtain ⟨f, hf, rfl⟩ := List.mem_map.1 ht
      have hm : (f.name, f.typeId) ∈ fieldsOf n := List.mem_map.2 ⟨f, hf, rfl⟩
      exact ⟨sized_of_wf (hS.types.1 n hn _ hm), hN.structLib n hn _ hm⟩
    have e1 : n.fields.map (·.typeId) = (fieldsOf n).map (·.2) := by simp [fieldsOf, Function.comp_def]
    have hread : ∀ bs d r, readT rt (genProg x S) k (.other n.id) bs = .ok (d, r) → Stands x S J [.other n.id] bs [d] r := by
      intro bs d r h
      simp only [readT, genRead, evalReadE] at h
      match k, ih, h with
      | 0, _, h => simp [readers] at h
      | k + 1, ih, h =>
      rw [read_struct hS hN hn] at h
      simp only [bind, Except.bind] at h
      split at h
      · simp at h
      rename_i q hq
      obtain ⟨ds, r1⟩ := q
      simp only [Except.ok.injEq, Prod.mk.injEq] at h
      obtain ⟨rfl, rfl⟩ := h
      obtain ⟨vs, j1, j2⟩ := stands_reads I (fun t ht => (ih k (by omega) t (hfs t ht).1 (hfs t ht).2).1) hq
      exact ⟨_, I.struct n vs bs r1 hn (by rw [← e1]; exact j1), drep_struct hn j2⟩
    refine ⟨hread, fun old ho bs d r h => ?_⟩
    by_cases hss : n.id = "String"
    · simp only [emplT, genReadEmplace, if_pos hss, evalEmplS] at h
      exact hread bs d r h
    · simp only [emplT, genReadEmplace, if_neg hss, evalEmplS] at h
      match k, ih, h with
      | 0, _, h => simp [readers] at h
      | k + 1, ih, h =>
      obtain ⟨olds, rfl, ho'⟩ := dobj_struct_inv hN hn ho
      rw [empl_class (codec_struct_emplace hS hN hn) (hN.fields n hn).1 k olds
        (by have := ho'.length_eq; simpa using this.symm)] at h
      simp only [bind, Except.bind] at h
      split at h
      · simp at h
      rename_i q hq
      obtain ⟨ds, r1⟩ := q
      simp only [Except.ok.injEq, Prod.mk.injEq] at h
      obtain ⟨rfl, rfl⟩ := h
      obtain ⟨vs, j1, j2⟩ := stands_empls I (fun t ht => (ih k (by omega) t (hfs t ht).1 (hfs t ht).2).2) ho' hq
      exact ⟨_, I.struct n vs bs r1 hn (by rw [← e1]; exact j1), drep_struct hn j2⟩
  · have hfs : ∀ i ∈ n.items, ∀ t ∈ (payload i).map (·.2), Sized t ∧ LibraryFree S t := by
      intro i hi t ht
      obtain ⟨f, hf, rfl⟩ := List.mem_map.1 ht
      exact ⟨sized_of_wf (hS.types.2 n hn i hi f hf), hN.enumLib n hn i hi f hf⟩
    have hread : ∀ bs d r, readT rt (genProg x S) k (.other n.id) bs = .ok (d, r) → Stands x S J [.other n.id] bs [d] r := by
      intro bs d r h
      simp only [readT, genRead, evalReadE] at h
      match k, ih, h with
      | 0, _, h => simp [readers] at h
      | 1, _, h =>
        simp only [readers, codec_enum_into hS hN hn, evalRead, genEnumInto, bind, Except.bind] at h
        split at h
        · simp at h
        split at h <;> simp [newVal] at h
      | k + 2, ih, h =>
      simp only [readers.eq_2 (k := k + 1), codec_enum_into hS hN hn, evalRead, genEnumInto, bind, Except.bind] at h
      split at h
      · simp at h
      rename_i q hq
      split at h
      case h_2 => simp at h
      rename_i a ha
      split at h
      · simp at h
      rename_i old ho
      exact stands_case I hS hN hn (fun i hi t ht => (ih k (by omega) t (hfs i hi t ht).1 (hfs i hi t ht).2).2)
        (hnew _ n old hn ho) (orElse_ok hq) ha h
    refine ⟨hread, fun old ho bs d r h => ?_⟩
    by_cases hss : n.id = "String"
    · simp only [emplT, genReadEmplace, if_pos hss, evalEmplS] at h
      exact hread bs d r h
    · simp only [emplT, genReadEmplace, if_neg hss, evalEmplS] at h
      obtain ⟨v, pls, hold, -, -⟩ := dobj_enum_inv hN hn ho
      have hcls : isClass n.id old = true := by rw [hold]; simp [isClass, enumObj]
      match k, ih, h with
      | 0, _, h => simp [readers] at h
      | 1, _, h =>
        simp only [readers.eq_2, codec_enum_emplace hS hN hn, evalEmpl, genEnumEmplace, hcls, if_true, bind, Except.bind] at h
        split at h
        · simp at h
        split at h
        · simp only [evalReadCase] at h
          split at h <;> try (simp at h; done)
          split at h <;> try (simp at h; done)
          simp only [bind, Except.bind] at h
          split at h <;> try (simp at h; done)
          split at h <;> try (simp at h; done)
          simp [readers] at h
        · simp at h
      | k + 2, ih, h =>
      simp only [readers.eq_2 (k := k + 1), codec_enum_emplace hS hN hn, evalEmpl, genEnumEmplace, hcls, if_true, bind, Except.bind] at h
      split at h
      · simp at h
      rename_i q hq
      split at h
      case h_2 => simp at h
      rename_i a ha
      exact stands_case I hS hN hn (fun i hi t ht => (ih k (by omega) t (hfs i hi t ht).1 (hfs i hi t ht).2).2)
        ho (orElse_ok hq) ha h
  · have hnone : ∀ kd, (genProg x S).codec? (id ++ Kind.suffix kd) = none := fun kd =>
      codec_none hS kd (by simp only [List.mem_append, not_or]; exact ⟨hid, hl⟩)
    have hrep : ∀ v, DRep x (dartSchema S) [.other id] [v] [v] := fun v => .ext id v _ _ _ (by rw [typeNames_view]; exact hid) .nil
    have hread : ∀ bs d r, readT rt (genProg x S) k (.other id) bs = .ok (d, r) → Stands x S J [.other id] bs [d] r := by
      intro bs d r h
      match k, h with
      | 0, h => simp [readT, genRead, evalReadE, readers] at h
      | k + 1, h =>
        simp only [readT, genRead, evalReadE, readers, hnone] at h
        exact ⟨[d], I.ext id bs d r hid (orElse_ok h), hrep d⟩
    refine ⟨hread, fun old ho bs d r h => ?_⟩
    by_cases hss : id = "String"
    · simp only [emplT, genReadEmplace, if_pos hss, evalEmplS] at h
      exact hread bs d r h
    · simp only [emplT, genReadEmplace, if_neg hss, evalEmplS] at h
      match k, h with
      | 0, h => simp [readers] at h
      | k + 1, h =>
        simp only [readers, hnone] at h
        exact ⟨[d], I.empl id old bs d r hid (orElse_ok h), hrep d⟩
  · have hl' : LibraryFree S (.other (dartElem g)) := by simpa [LibraryFree] using hl
    refine ⟨fun bs d r h => ?_, fun old _ bs d r h => ?_⟩
    · match k, ih, h with
      | 0, _, h => simp [readT, genRead, evalReadE, readers] at h
      | k + 1, ih, h =>
        simp only [readT, genRead, genCodecG, if_true, evalReadE, readers, codec_none hS .into hN.lists, elem_eq] at h
        exact stands_list I (ih k (by omega) (.other (dartElem g)) trivial hl').1 h
    · match k, ih, h with
      | 0, _, h => simp [emplT, genReadEmplace, evalEmplS, readers] at h
      | k + 1, ih, h =>
        simp only [emplT, genReadEmplace, genCodecG, if_true, evalEmplS, readers, codec_none hS .emplace hN.lists, elem_eq] at h
        exact stands_list I (ih k (by omega) (.other (dartElem g)) trivial hl').1 h
  · have hnone : ∀ kd, (genProg x S).codec? (c ++ Kind.suffix kd) = none := fun kd =>
      codec_none hS kd (libGeneric_free hv hl)
    have hid := generic_not_declared hN c gs
    have hrep : ∀ v, DRep x (dartSchema S) [dartView (.generic c gs)] [v] [v] := fun v => by
      rw [hv]; exact .ext _ v _ _ _ (by rw [typeNames_view]; exact hid) .nil
    refine ⟨fun bs d r h => ?_, fun old _ bs d r h => ?_⟩
    · match k, h with
      | 0, h => simp [readT, genRead, evalReadE, readers] at h
      | k + 1, h =>
        simp only [readT, genRead, (view_libGeneric hv .into).1, evalReadE, readers, hnone, genericName_eq] at h
        exact ⟨[d], by rw [List.map_cons, List.map_nil, hv]; exact I.ext _ bs d r hid (orElse_ok h), hrep d⟩
    · match k, h with
      | 0, h => simp [emplT, genReadEmplace, evalEmplS, readers] at h
      | k + 1, h =>
        simp only [emplT, genReadEmplace, (view_libGeneric hv .emplace).1, evalEmplS, readers, hnone, genericName_eq] at h
        exact ⟨[d], by rw [List.map_cons, List.map_nil, hv]; exact I.empl _ old bs d r hid (orElse_ok h), hrep d⟩

/-! ### Types -/

theorem leaf_prim {t : TypeId} (hs : Sized t) {p : String} (hp : builtin? (dartView t) = some p) :
    ∃ t', dartPrims.lookup p = some t' ∧ ∀ v, LeafVal t' v ↔ LeafVal (dartView t) v := by
  cases t with
  | integer id size s =>
    simp only [dartView, builtin?, Option.some.injEq] at hp
    subst hp
    rcases hs with rfl | rfl | rfl <;> exact ⟨_, rfl, fun v => by cases v <;> simp [dartView, LeafVal]⟩
  | number id size =>
    simp only [dartView, builtin?, Option.some.injEq] at hp
    subst hp
    rcases hs with rfl | rfl <;> exact ⟨_, rfl, fun v => by cases v <;> simp [dartView, LeafVal]⟩
  | bool id =>
    simp only [dartView, builtin?, Option.some.injEq] at hp
    subst hp
    exact ⟨_, rfl, fun v => by cases v <;> simp [dartView, LeafVal]⟩
  | char id =>
    simp only [dartView, builtin?, Option.some.injEq] at hp
    subst hp
    exact ⟨_, rfl, fun v => by cases v <;> simp [dartView, LeafVal]⟩
  | other id => simp [dartView, builtin?] at hp
  | generic c gs =>
    simp only [dartView] at hp
    split at hp
    · split at hp <;> simp [builtin?] at hp
    · simp [builtin?] at hp

theorem named_fields_view (n : StructNode) (vs : List Val) :
    named (fieldsOf { n with fields := n.fields.map viewField }) vs = named (fieldsOf n) vs := by
  simp [named, fieldsOf, viewField, Function.comp_def]

theorem fieldsOf_types (n : StructNode) : n.fields.map (·.typeId) = (fieldsOf n).map (·.2) := by
  simp [fieldsOf, Function.comp_def]

theorem pick_list (e : TypeId) (s : Nat) : pick [e] (List.replicate s 0) = some (List.replicate s e) := by
  induction s with
  | zero => rfl
  | succ s ih => simp [List.replicate_succ, pick, ih]

theorem typed_ind (hrt : rt.Typed) :
    ReadInd rt S (fun ts vs bs r => HasTys rt.wire (dartSchema S) ts vs ∧ r <:+ bs) where
  nil bs := ⟨.nil, List.suffix_refl bs⟩
  cons t v bs r ts vs r' h1 h2 := ⟨Rust.HasTys.cons h1.1 h2.1, h2.2.trans h1.2⟩
  leaf t p bs v r hs hp hr := by
    obtain ⟨t', h1, h2⟩ := leaf_prim hs hp
    obtain ⟨h3, h4⟩ := hrt.prim p t' bs v r h1 hr
    exact ⟨.leaf _ _ _ _ ((h2 v).1 h3) .nil, h4⟩
  struct n vs bs r hn h := by
    have := HasTys.struct (W := rt.wire) (S := dartSchema S) { n with fields := n.fields.map viewField } vs [] []
      (mem_view_struct hn) (by rw [fieldsOf_view, fieldsOf_types]; exact h.1) .nil
    rw [named_fields_view] at this
    exact ⟨this, h.2⟩
  enum n i bs r0 vs r hn hi hr h := by
    obtain ⟨-, h2⟩ := hrt.prim "Int32" _ bs _ r0 rfl hr
    have := HasTys.enum (W := rt.wire) (S := dartSchema S) { n with items := n.items.map viewItem } (viewItem i) vs [] []
      (mem_view_enum hn) (List.mem_map.2 ⟨i, hi, rfl⟩) (by rw [payload_view]; exact h.1) .nil
    rw [named_payload_view, viewItem_id] at this
    exact ⟨this, h.2.trans h2⟩
  list e s vs bs r0 r hr h := by
    obtain ⟨h1, h2⟩ := hrt.len bs s r0 hr
    exact ⟨.list "Vec" [e] s _ vs [] [] (by simpa [Runtime.wire] using h1) (pick_list e s) h.1 .nil, h.2.trans h2⟩
  ext id bs v r hid hr := by
    obtain ⟨h1, h2⟩ := hrt.ext id bs v r hr
    exact ⟨.ext id v [] [] (by rw [typeNames_view]; exact hid) h1 .nil, h2⟩
  empl id old bs v r hid hr := by
    obtain ⟨h1, h2⟩ := hrt.empl id old bs v r hr
    exact ⟨.ext id v [] [] (by rw [typeNames_view]; exact hid) h1 .nil, h2⟩

theorem canonical_ind (hrt : rt.Canonical) :
    ReadInd rt S (fun ts vs bs r => ∃ b, Enc rt.wire (dartSchema S) ts vs b ∧ bs = b ++ r) where
  nil bs := ⟨[], .nil, rfl⟩
  cons := by
    rintro t v _ _ ts vs r' ⟨b1, h1, rfl⟩ ⟨b2, h2, rfl⟩
    exact ⟨b1 ++ b2, Props.Enc.append h1 h2, by simp⟩
  leaf t p bs v r hs hp hr := by
    obtain ⟨t', h1, h2⟩ := leaf_prim hs hp
    obtain ⟨h3, b, h4, h5⟩ := hrt.prim p t' bs v r h1 hr
    refine ⟨b ++ [], .leaf _ p _ b _ _ _ hp ?_ .nil, by simpa using h5⟩
    simp only [Runtime.wire, if_neg (view_builtin hp).1, h1, if_pos h3, h4]
  struct := by
    rintro n vs _ r hn ⟨b, h, rfl⟩
    have := Enc.struct (W := rt.wire) (S := dartSchema S) { n with fields := n.fields.map viewField } vs b [] [] []
      (mem_view_struct hn) (by rw [fieldsOf_view, fieldsOf_types]; exact h) .nil
    rw [named_fields_view] at this
    exact ⟨b ++ [], this, by simp⟩
  enum := by
    rintro n i bs _ vs r hn hi hr ⟨b, h, rfl⟩
    obtain ⟨hl, tag, h1, rfl⟩ := hrt.prim "Int32" _ bs _ _ rfl hr
    have hw : rt.wire.prim "u32" (.int i.position) = some tag := by
      have e : dartPrims.lookup "Int32" = some (.integer "Int32" 4 true) := rfl
      simp only [Runtime.wire, if_true, e, if_pos hl, h1]
    have := Enc.enum (W := rt.wire) (S := dartSchema S) { n with items := n.items.map viewItem } (viewItem i) tag vs b [] [] []
      (mem_view_enum hn) (List.mem_map.2 ⟨i, hi, rfl⟩) (by rw [viewItem_position]; exact hw) (by rw [payload_view]; exact h) .nil
    rw [named_payload_view, viewItem_id] at this
    exact ⟨tag ++ b ++ [], this, by simp⟩
  list := by
    rintro e s vs bs _ r hr ⟨b, h, rfl⟩
    obtain ⟨hd, h1, rfl⟩ := hrt.len bs _ _ hr
    exact ⟨hd ++ b ++ [], .list "Vec" [e] s hd _ vs b [] [] [] (by simpa [Runtime.wire] using h1) (pick_list e s) h .nil, by simp⟩
  ext id bs v r hid hr := by
    obtain ⟨b, h1, h2⟩ := hrt.ext id bs v r hr
    exact ⟨b ++ [], .ext id v b [] [] [] (by rw [typeNames_view]; exact hid) h1 .nil, by simpa using h2⟩
  empl id old bs v r hid hr := by
    obtain ⟨b, h1, h2⟩ := hrt.empl id old bs v r hr
    exact ⟨b ++ [], .ext id v b [] [] [] (by rw [typeNames_view]; exact hid) h1 .nil, by simpa using h2⟩

theorem new_enum (hrt : rt.Lawful) (hS : Plain S) (hN : DartNamed x S) (hH : HasDefaults S) (k : Nat) (n : EnumNode) (d : Val)
    (hn : .enum n ∈ S) (h : newVal rt (genProg x S) k (.enum n.id) = .ok d) : DObj x (dartSchema S) [.other n.id] [d] := by
  obtain ⟨N, d', h1, h2⟩ := new_declared hrt hS hN hH n.id (enum_typeName hn)
  have h3 := (h2 (max N k) (by omega)).2 n hn rfl
  rw [newVal_more h (by omega)] at h3
  cases h3
  exact h1

/-! ### Reading ends -/

/-- The result is a value or an exception. -/
def Ended {α : Type} : Res α → Prop
  | .ok _ => True
  | .error .throws => True
  | .error _ => False

theorem Ended.error {α β : Type} {e : Fault} (h : Ended (.error e : Res α)) : Ended (.error e : Res β) := by
  cases e <;> first | trivial | exact h

theorem ended_orElse {α : Type} (o : Option α) : Ended (orElse .throws o) := by
  cases o <;> trivial

theorem ended_reads {R : Readers} {ts : List TypeId} {L : Nat}
    (h : ∀ t ∈ ts, ∀ bs : Bytes, bs.length ≤ L → Ended (evalReadE rt R (genRead t) bs) ∧
      ∀ v r, evalReadE rt R (genRead t) bs = .ok (v, r) → r.length ≤ bs.length) :
    ∀ bs : Bytes, bs.length ≤ L → Ended (evalReads rt R (ts.map genRead) bs) := by
  induction ts with
  | nil => intro bs _; trivial
  | cons t ts ih =>
    intro bs hbs
    simp only [List.map_cons, evalReads, bind, Except.bind]
    obtain ⟨h1, h2⟩ := h t (by simp) bs hbs
    cases hr : evalReadE rt R (genRead t) bs with
    | error e => rw [hr] at h1; exact Ended.error h1
    | ok q =>
      obtain ⟨v, r⟩ := q
      have := h2 v r hr
      have h3 := ih (fun t ht => h t (by simp [ht])) r (by omega)
      simp only
      cases hr2 : evalReads rt R (ts.map genRead) r with
      | error e => rw [hr2] at h3; exact Ended.error h3
      | ok q => trivial

theorem ended_empls {P : Prog} {k : Nat} {ts : List TypeId} {L : Nat}
    (h : ∀ t ∈ ts, ∀ old, DObj x (dartSchema S) [dartView t] [old] → ∀ bs : Bytes, bs.length ≤ L →
      Ended (emplT rt P k t old bs) ∧ ∀ v r, emplT rt P k t old bs = .ok (v, r) → r.length ≤ bs.length) :
    ∀ olds, DObj x (dartSchema S) (ts.map dartView) olds → ∀ bs : Bytes, bs.length ≤ L → Ended (emplMany rt P k ts olds bs) := by
  induction ts with
  | nil => intro olds _ bs _; simp [emplMany, Ended]
  | cons t ts ih =>
    intro olds ho bs hbs
    cases olds with
    | nil => exact absurd ho.length_eq (by simp)
    | cons o olds =>
      obtain ⟨ho1, ho2⟩ := ho.head
      simp only [emplMany, bind, Except.bind]
      obtain ⟨h1, h2⟩ := h t (by simp) o ho1 bs hbs
      cases hr : emplT rt P k t o bs with
      | error e => rw [hr] at h1; exact Ended.error h1
      | ok q =>
        obtain ⟨v, r⟩ := q
        have := h2 v r hr
        have h3 := ih (fun t ht => h t (by simp [ht])) olds ho2 r (by omega)
        simp only
        cases hr2 : emplMany rt P k ts olds r with
        | error e => rw [hr2] at h3; exact Ended.error h3
        | ok q => trivial

theorem ended_case (hS : Plain S) (hN : DartNamed x S) {n : EnumNode} (hn : .enum n ∈ S) {k : Nat} {r0 : Bytes}
    (h1 : ∀ i ∈ n.items, ∀ olds, DObj x (dartSchema S) (((payload i).map (·.2)).map dartView) olds →
      Ended (emplMany rt (genProg x S) k ((payload i).map (·.2)) olds r0))
    {old : Val} (ho : DObj x (dartSchema S) [.other n.id] [old]) {tag : Val} {a : ReadCase}
    (hf : (n.items.map (genReadCase x n)).find? (fun a => tagIs tag a.pos) = some a) :
    Ended (evalReadCase (genProg x S) (readers rt (genProg x S) (k + 1)) n.id a old r0) := by
  obtain ⟨i, hi, rfl⟩ := List.mem_map.1 (List.mem_of_find?_eq_some hf)
  obtain ⟨v, pls, rfl, hl, hobj⟩ := dobj_enum_inv hN hn ho
  obtain ⟨l1, l2, p1, p, p2, hl1, rfl, hlen⟩ := split_mem hl hi
  have hpobj : DObj x (dartSchema S) (((payload i).map (·.2)).map dartView) p := by
    rw [← payload_view]
    exact hobj (i, p) (by rw [hl1, List.zip_append hlen]; simp)
  rw [readCase_eval hS hN hn v l1 l2 i p1 p2 p hlen hl1 (by have := hpobj.length_eq; simpa using this.symm)]
  have := h1 i hi p hpobj
  simp only [bind, Except.bind]
  cases hr : emplMany rt (genProg x S) k ((payload i).map (·.2)) p r0 with
  | error e => rw [hr] at this; exact Ended.error this
  | ok q => trivial

open Classical in
/-- How deep the calls for a type go before a list is read. -/
noncomputable def depthOf (S : List ASTNode) (height : String → Nat) : TypeId → Nat
  | .other id => if id ∈ typeNames S then 2 * (height id + 1) else 0
  | _ => 0

theorem height_bound (l : List String) (height : String → Nat) : ∃ H, ∀ id ∈ l, height id ≤ H := by
  induction l with
  | nil => exact ⟨0, by simp⟩
  | cons a l ih =>
    obtain ⟨H, ih⟩ := ih
    refine ⟨max H (height a), fun id hid => ?_⟩
    rcases List.mem_cons.1 hid with rfl | h
    · omega
    · have := ih id h; omega

theorem new_bound (hrt : rt.Lawful) (hS : Plain S) (hN : DartNamed x S) (hH : HasDefaults S) :
    ∃ N, ∀ n, .enum n ∈ S → ∀ k, N ≤ k → ∃ d, newVal rt (genProg x S) k (.enum n.id) = .ok d := by
  have key : ∀ l : List String, (∀ id ∈ l, id ∈ typeNames S) → ∃ N, ∀ id ∈ l, ∀ n, .enum n ∈ S → n.id = id → ∀ k, N ≤ k →
      ∃ d, newVal rt (genProg x S) k (.enum id) = .ok d := by
    intro l
    induction l with
    | nil => intro _; exact ⟨0, by simp⟩
    | cons a l ih =>
      intro hl
      obtain ⟨N, ih⟩ := ih (fun id h => hl id (by simp [h]))
      obtain ⟨N', d, -, h2⟩ := new_declared hrt hS hN hH a (hl a (by simp))
      refine ⟨max N N', fun id hid n hn e k hk => ?_⟩
      rcases List.mem_cons.1 hid with rfl | h
      · exact ⟨d, (h2 k (by omega)).2 n hn e⟩
      · exact ih id h n hn e k (by omega)
  obtain ⟨N, h⟩ := key (typeNames S) (fun _ h => h)
  exact ⟨N, fun n hn k hk => h n.id (enum_typeName hn) n hn rfl k hk⟩

open Classical in
theorem depthOf_le {height : String → Nat} {H : Nat} (hH : ∀ id ∈ typeNames S, height id ≤ H) (t : TypeId) :
    depthOf S height t ≤ 2 * (H + 1) := by
  cases t <;> simp only [depthOf] <;> try omega
  split
  · rename_i h
    have := hH _ h
    omega
  · omega

open Classical in
theorem depthOf_direct {height : String → Nat} (hh : ∀ d ∈ S, ∀ id, declName d = some id →
    ∀ t, .other t ∈ directTypes d → t ∈ typeNames S → height t < height id) {d : ASTNode} (hd : d ∈ S) {id : String}
    (hid : declName d = some id) {t : TypeId} (ht : t ∈ directTypes d) : depthOf S height t ≤ 2 * height id := by
  cases t <;> simp only [depthOf] <;> try omega
  split
  · rename_i h
    have := hh d hd id hid _ ht h
    omega
  · omega

open Classical in
theorem both_ended (hrt : rt.Lawful) (hY : rt.Typed) (hc : rt.Consumes) (hS : Plain S) (hN : DartNamed x S) (hD : HasDefaults S)
    {height : String → Nat} {H : Nat} (hh : ∀ d ∈ S, ∀ id, declName d = some id →
      ∀ t, .other t ∈ directTypes d → t ∈ typeNames S → height t < height id)
    (hH : ∀ id ∈ typeNames S, height id ≤ H) {N : Nat}
    (hnew : ∀ n, .enum n ∈ S → ∀ k, N ≤ k → ∃ d, newVal rt (genProg x S) k (.enum n.id) = .ok d) (k : Nat) :
    ∀ t, Sized t → LibraryFree S t → ∀ bs : Bytes, N + bs.length * (2 * H + 5) + depthOf S height t + 2 ≤ k →
      Ended (readT rt (genProg x S) k t bs) ∧
      ∀ old, DObj x (dartSchema S) [dartView t] [old] → Ended (emplT rt (genProg x S) k t old bs) := by
  have hlen : ∀ k t, Sized t → LibraryFree S t → (∀ bs d r, readT rt (genProg x S) k t bs = .ok (d, r) → r.length ≤ bs.length) ∧
      ∀ old, DObj x (dartSchema S) [dartView t] [old] → ∀ bs d r, emplT rt (genProg x S) k t old bs = .ok (d, r) →
        r.length ≤ bs.length := by
    intro k t hs hl
    obtain ⟨h1, h2⟩ := (typed_ind (S := S) hY).both hS hN (new_enum hrt hS hN hD) k t hs hl
    refine ⟨fun bs d r h => ?_, fun old ho bs d r h => ?_⟩
    · obtain ⟨vs, ⟨-, h3⟩, -⟩ := h1 bs d r h
      exact h3.length_le
    · obtain ⟨vs, ⟨-, h3⟩, -⟩ := h2 old ho bs d r h
      exact h3.length_le
  induction k using Nat.strongRecOn with
  | _ k ih =>
  intro t hs hl bs hk
  rcases type_cases (S := S) t with ⟨p, hp⟩ | ⟨n, hn, rfl⟩ | ⟨n, hn, rfl⟩ | ⟨id, hid, rfl⟩ | ⟨g, rfl⟩ | ⟨c, gs, rfl, hv⟩
  · obtain ⟨-, h2, h3, -⟩ := view_builtin hp
    refine ⟨?_, fun old _ => ?_⟩
    · rw [readT, h2]; exact ended_orElse _
    · rw [emplT, h3]; exact ended_orElse _
  · have hfs : ∀ t ∈ n.fields.map (·.typeId), Sized t ∧ LibraryFree S t := by
      intro t ht
      obtain ⟨f, hf, rfl⟩ := List.mem_map.1 ht
      have hm : (f.name, f.typeId) ∈ fieldsOf n := List.mem_map.2 ⟨f, hf, rfl⟩
      exact ⟨sized_of_wf (hS.types.1 n hn _ hm), hN.structLib n hn _ hm⟩
    have hd : depthOf S height (.other n.id) = 2 * (height n.id + 1) := by
      simp only [depthOf]
      rw [if_pos (struct_typeName hn)]
    obtain ⟨k, rfl⟩ : ∃ j, k = j + 1 := ⟨k - 1, by omega⟩
    have hneed : ∀ t ∈ n.fields.map (·.typeId), ∀ bs' : Bytes, bs'.length ≤ bs.length →
        N + bs'.length * (2 * H + 5) + depthOf S height t + 2 ≤ k := by
      intro t ht bs' hb
      have h1 := depthOf_direct hh hn (id := n.id) rfl (t := t) (by rw [fieldsOf_types] at ht; exact ht)
      have h2 := Nat.mul_le_mul_right (2 * H + 5) hb
      omega
    have hread : Ended (readT rt (genProg x S) (k + 1) (.other n.id) bs) := by
      simp only [readT, genRead, evalReadE]
      rw [read_struct hS hN hn]
      have := ended_reads (rt := rt) (R := readers rt (genProg x S) k) (ts := n.fields.map (·.typeId)) (L := bs.length)
        (fun t ht bs' hb => ⟨(ih k (by omega) t (hfs t ht).1 (hfs t ht).2 bs' (hneed t ht bs' hb)).1,
          fun v r => (hlen k t (hfs t ht).1 (hfs t ht).2).1 bs' v r⟩) bs (Nat.le_refl _)
      simp only [bind, Except.bind]
      cases hr : evalReads rt (readers rt (genProg x S) k) ((n.fields.map (·.typeId)).map genRead) bs with
      | error e => rw [hr] at this; exact Ended.error this
      | ok q => trivial
    refine ⟨hread, fun old ho => ?_⟩
    by_cases hss : n.id = "String"
    · simp only [emplT, genReadEmplace, if_pos hss, evalEmplS]
      exact hread
    · simp only [emplT, genReadEmplace, if_neg hss, evalEmplS]
      obtain ⟨olds, rfl, ho'⟩ := dobj_struct_inv hN hn ho
      rw [empl_class (codec_struct_emplace hS hN hn) (hN.fields n hn).1 k olds
        (by have := ho'.length_eq; simpa using this.symm)]
      have := ended_empls (P := genProg x S) (k := k) (ts := n.fields.map (·.typeId)) (L := bs.length)
        (fun t ht o ho bs' hb => ⟨(ih k (by omega) t (hfs t ht).1 (hfs t ht).2 bs' (hneed t ht bs' hb)).2 o ho,
          fun v r => (hlen k t (hfs t ht).1 (hfs t ht).2).2 o ho bs' v r⟩) olds ho' bs (Nat.le_refl _)
      simp only [bind, Except.bind]
      cases hr : emplMany rt (genProg x S) k (n.fields.map (·.typeId)) olds bs with
      | error e => rw [hr] at this; exact Ended.error this
      | ok q => trivial
  · have hfs : ∀ i ∈ n.items, ∀ t ∈ (payload i).map (·.2), Sized t ∧ LibraryFree S t := by
      intro i hi t ht
      obtain ⟨f, hf, rfl⟩ := List.mem_map.1 ht
      exact ⟨sized_of_wf (hS.types.2 n hn i hi f hf), hN.enumLib n hn i hi f hf⟩
    have hd : depthOf S height (.other n.id) = 2 * (height n.id + 1) := by
      simp only [depthOf]
      rw [if_pos (enum_typeName hn)]
    obtain ⟨k, rfl⟩ : ∃ j, k = j + 2 := ⟨k - 2, by omega⟩
    have hmany : ∀ i ∈ n.items, ∀ bs' : Bytes, bs'.length ≤ bs.length → ∀ olds,
        DObj x (dartSchema S) (((payload i).map (·.2)).map dartView) olds →
        Ended (emplMany rt (genProg x S) k ((payload i).map (·.2)) olds bs') := by
      intro i hi bs' hb olds ho
      refine ended_empls (P := genProg x S) (k := k) (L := bs.length)
        (fun t ht o ho bs' hb => ⟨(ih k (by omega) t (hfs i hi t ht).1 (hfs i hi t ht).2 bs' ?_).2 o ho,
          fun v r => (hlen k t (hfs i hi t ht).1 (hfs i hi t ht).2).2 o ho bs' v r⟩) olds ho bs' hb
      have h1 := depthOf_direct hh hn (id := n.id) rfl (t := t) (List.mem_flatMap.2 ⟨i, hi, ht⟩)
      have h2 := Nat.mul_le_mul_right (2 * H + 5) hb
      omega
    have htag : ∀ tag r0, orElse .throws (rt.readP "Int32" bs) = .ok (tag, r0) → r0.length ≤ bs.length :=
      fun tag r0 h => (hY.prim "Int32" _ _ _ _ rfl (orElse_ok h)).2.length_le
    have hread : Ended (readT rt (genProg x S) (k + 2) (.other n.id) bs) := by
      simp only [readT, genRead, evalReadE]
      simp only [readers.eq_2 (k := k + 1), codec_enum_into hS hN hn, evalRead, genEnumInto, bind, Except.bind]
      split
      · rename_i e he
        have := ended_orElse (rt.readP "Int32" bs)
        rw [he] at this
        exact Ended.error this
      rename_i q hq
      obtain ⟨tag, r0⟩ := q
      split
      case h_2 => trivial
      rename_i a ha
      obtain ⟨d, hd⟩ := hnew n hn (k + 1) (by omega)
      rw [hd]
      exact ended_case hS hN hn (fun i hi => hmany i hi r0 (htag _ _ hq)) (new_enum hrt hS hN hD _ n d hn hd) ha
    refine ⟨hread, fun old ho => ?_⟩
    by_cases hss : n.id = "String"
    · simp only [emplT, genReadEmplace, if_pos hss, evalEmplS]
      exact hread
    · simp only [emplT, genReadEmplace, if_neg hss, evalEmplS]
      obtain ⟨v, pls, hold, -, -⟩ := dobj_enum_inv hN hn ho
      have hcls : isClass n.id old = true := by rw [hold]; simp [isClass, enumObj]
      simp only [readers.eq_2 (k := k + 1), codec_enum_emplace hS hN hn, evalEmpl, genEnumEmplace, hcls, if_true, bind, Except.bind]
      split
      · rename_i e he
        have := ended_orElse (rt.readP "Int32" bs)
        rw [he] at this
        exact Ended.error this
      rename_i q hq
      obtain ⟨tag, r0⟩ := q
      split
      case h_2 => trivial
      rename_i a ha
      exact ended_case hS hN hn (fun i hi => hmany i hi r0 (htag _ _ hq)) ho ha
  · have hnone : ∀ kd, (genProg x S).codec? (id ++ Kind.suffix kd) = none := fun kd =>
      codec_none hS kd (by simp only [List.mem_append, not_or]; exact ⟨hid, hl⟩)
    obtain ⟨k, rfl⟩ : ∃ j, k = j + 1 := ⟨k - 1, by omega⟩
    have hread : Ended (readT rt (genProg x S) (k + 1) (.other id) bs) := by
      simp only [readT, genRead, evalReadE, readers, hnone]
      exact ended_orElse _
    refine ⟨hread, fun old ho => ?_⟩
    by_cases hss : id = "String"
    · simp only [emplT, genReadEmplace, if_pos hss, evalEmplS]
      exact hread
    · simp only [emplT, genReadEmplace, if_neg hss, evalEmplS, readers, hnone]
      exact ended_orElse _
  · have hl' : LibraryFree S (.other (dartElem g)) := by simpa [LibraryFree] using hl
    obtain ⟨k, rfl⟩ : ∃ j, k = j + 1 := ⟨k - 1, by omega⟩
    have key : Ended (evalList rt (readers rt (genProg x S) k) (dartElem g) bs) := by
      simp only [evalList, bind, Except.bind]
      cases hr : rt.readL bs with
      | none => trivial
      | some q =>
        obtain ⟨s, r0⟩ := q
        simp only [orElse]
        have h0 := hc _ _ _ hr
        rw [readN_eq (rt := rt)]
        have := ended_reads (rt := rt) (R := readers rt (genProg x S) k) (ts := List.replicate s (.other (dartElem g))) (L := r0.length)
          (fun t ht bs' hb => by
            obtain ⟨-, rfl⟩ := List.mem_replicate.1 ht
            refine ⟨(ih k (by omega) (.other (dartElem g)) trivial hl' bs' ?_).1,
              fun v r => (hlen k (.other (dartElem g)) trivial hl').1 bs' v r⟩
            have h1 := depthOf_le hH (.other (dartElem g))
            have h2 : (bs'.length + 1) * (2 * H + 5) ≤ bs.length * (2 * H + 5) := Nat.mul_le_mul_right _ (by omega)
            rw [Nat.add_mul] at h2
            omega) r0 (Nat.le_refl _)
        cases hr : evalReads rt (readers rt (genProg x S) k) ((List.replicate s (.other (dartElem g))).map genRead) r0 with
        | error e => rw [hr] at this; exact Ended.error this
        | ok q => trivial
    refine ⟨?_, fun old _ => ?_⟩
    · simp only [readT, genRead, genCodecG, if_true, evalReadE, readers, codec_none hS .into hN.lists, elem_eq]
      exact key
    · simp only [emplT, genReadEmplace, genCodecG, if_true, evalEmplS, readers, codec_none hS .emplace hN.lists, elem_eq]
      exact key
  · have hnone : ∀ kd, (genProg x S).codec? (c ++ Kind.suffix kd) = none := fun kd =>
      codec_none hS kd (libGeneric_free hv hl)
    obtain ⟨k, rfl⟩ : ∃ j, k = j + 1 := ⟨k - 1, by omega⟩
    refine ⟨?_, fun old _ => ?_⟩
    · simp only [readT, genRead, (view_libGeneric hv .into).1, evalReadE, readers, hnone, genericName_eq]
      exact ended_orElse _
    · simp only [emplT, genReadEmplace, (view_libGeneric hv .emplace).1, evalEmplS, readers, hnone, genericName_eq]
      exact ended_orElse _

end TPB.Dart
