/-
Proofs about the typing of generated constants.
-/
import Verif.Spec.ConstTyping
import Verif.Proofs.ConstsDart
import Verif.Proofs.ConstStrings
namespace TPB.Spec

/-! ### The modules of the Rust text -/

mutual
theorem readRustMods_item (x : Ext) (path : List String) (i : ConstItem) (rest : List Stmt) :
    readRustModsFrom path (rustItemStmts x i ++ rest) = (itemBlocks path i ++ ·) <$> readRustModsFrom path rest := by
  match i with
  | .value n t v =>
    simp only [rustItemStmts, List.singleton_append]
    rw [show rustConstStmt x n t v = ((rustConstStmt x n t v).1, ';') from rfl, readRustModsFrom]
    simp [itemBlocks]
  | .node n is =>
    have ih := readRustMods_items x (path ++ [n]) is (([], '}') :: rest)
    simp only [rustItemStmts, List.cons_append, List.append_assoc, List.nil_append]
    rw [readRustModsFrom]
    simp only [if_true, readRustMod, and_self]
    rw [ih, readRustModsFrom]
    simp [itemBlocks, Function.comp_def]
theorem readRustMods_items (x : Ext) (path : List String) (is : List ConstItem) (rest : List Stmt) :
    readRustModsFrom path (rustItemsStmts x is ++ rest) = (itemsBlocks path is ++ ·) <$> readRustModsFrom path rest := by
  match is with
  | [] => simp [rustItemsStmts, itemsBlocks]
  | i :: is =>
    have h1 := readRustMods_item x path i (rustItemsStmts x is ++ rest)
    have h2 := readRustMods_items x path is rest
    simp only [rustItemsStmts, List.append_assoc]
    rw [h1, h2]
    cases readRustModsFrom path rest <;> simp [itemsBlocks]
end

theorem readRustMods_decls (x : Ext) (S : List ASTNode) :
    readRustModsFrom [] (S.flatMap (rustDeclStmts x)) = some (schemaBlocks S) := by
  induction S with
  | nil => rfl
  | cons d S ih =>
    cases d with
    | const n =>
      have h1 := readRustMods_item x [] (.node n.id n.items) (S.flatMap (rustDeclStmts x))
      simp only [List.flatMap_cons, rustDeclStmts, h1, ih]
      simp [schemaBlocks, declBlocks]
    | enum n => simpa [rustDeclStmts, schemaBlocks, declBlocks] using ih
    | struct n => simpa [rustDeclStmts, schemaBlocks, declBlocks] using ih
    | fn n => simpa [rustDeclStmts, schemaBlocks, declBlocks] using ih
    | directive n => simpa [rustDeclStmts, schemaBlocks, declBlocks] using ih

/-- The constants section of generated Rust code declares a module for every block. -/
theorem readRustMods_consts (x : Ext) (S : List ASTNode) (h : ∀ d ∈ S, PrintableDecl x d) :
    readRustMods (RustGen.consts x S) = some (schemaBlocks S) := by
  obtain ⟨s, e, hem⟩ := emits_rustDecls x S h ""
  unfold RustGen.consts readRustMods
  rw [default_eq, e, show_wAt, String.empty_append, hem.trim.stmts]
  exact readRustMods_decls x S

/-! ### Types of constants -/

mutual
theorem legalConsts_item (path : List String) (i : ConstItem) (h : LegalConstItem i) :
    ∀ c ∈ itemConsts path i, LegalType c.type := by
  match i with
  | .value n t v =>
    cases h with
    | value _ _ _ hn ht hv => simpa [itemConsts] using ht
  | .node n is =>
    cases h with
    | node _ _ hn his => simpa [itemConsts] using legalConsts_items (path ++ [n]) is his
theorem legalConsts_items (path : List String) (is : List ConstItem) (h : ∀ i ∈ is, LegalConstItem i) :
    ∀ c ∈ itemsConsts path is, LegalType c.type := by
  match is with
  | [] => simp [itemsConsts]
  | i :: is =>
    intro c hc
    simp only [itemsConsts, List.mem_append] at hc
    rcases hc with hc | hc
    · exact legalConsts_item path i (h i (by simp)) c hc
    · exact legalConsts_items path is (fun j hj => h j (by simp [hj])) c hc
end

theorem legalConsts (S : List ASTNode) (hl : ∀ d ∈ S, LegalDecl d) : ∀ c ∈ schemaConsts S, LegalType c.type := by
  intro c hc
  simp only [schemaConsts, List.mem_flatMap] at hc
  obtain ⟨d, hd, hc⟩ := hc
  cases d with
  | const n => exact legalConsts_items [n.id] n.items (hl _ hd).2 c hc
  | _ => simp [declConsts] at hc

/-- The plain names denote built-in types or themselves. -/
theorem typeOfName_cases (n : String) :
    (n, typeOfName n) ∈ builtinTypes ∨ (typeOfName n = .other n ∧ ∀ p ∈ builtinTypes, p.1 ≠ n) := by
  unfold typeOfName
  cases h : builtinTypes.lookup n with
  | none =>
    refine .inr ⟨rfl, fun p hp e => ?_⟩
    have := List.lookup_eq_none_iff.mp h p hp
    simp [e] at this
  | some t =>
    left
    obtain ⟨l1, l2, h1, _⟩ := List.lookup_eq_some_iff.mp h
    simp only [Option.getD_some]
    rw [h1]
    simp

theorem legalType_cases (t : TypeId) (h : LegalType t) : (∃ n, t = typeOfName n) ∨ ∃ n as, t = .generic n as := by
  cases h with
  | name n hn => exact .inl ⟨n, rfl⟩
  | generic n as hn has => exact .inr ⟨n, as, rfl⟩

/-- A literal as a value of a constant's Rust type. -/
theorem rustConstOk_iff (K : ConstLib) (ms : List (List String)) (c : SchemaConst) (h : LegalType c.type) :
    RustConstOk K ms c.rust ↔ SuitsRust K c.type c.value ∧
      ((isAddress c.type).isSome → c.path ++ ["tech_paws_runtime"] ∉ ms) := by
  obtain ⟨p, m, t, l⟩ := c
  simp only at h ⊢
  rcases legalType_cases t h with ⟨n, e⟩ | ⟨n, as, rfl⟩
  case inr => simp [SchemaConst.rust, isAddress, RustConstOk, typeToks, SuitsRust]
  case inl =>
    clear h
    rcases typeOfName_cases n with h | ⟨h, hb⟩
    · rw [← e] at h
      clear e
      simp only [builtinTypes, List.mem_cons, Prod.mk.injEq, List.not_mem_nil, or_false] at h
      rcases h with ⟨_, rfl⟩ | ⟨_, rfl⟩ | ⟨_, rfl⟩ | ⟨_, rfl⟩ | ⟨_, rfl⟩ | ⟨_, rfl⟩ | ⟨_, rfl⟩ | ⟨_, rfl⟩ | ⟨_, rfl⟩ | ⟨_, rfl⟩ <;>
        cases l <;> simp [SchemaConst.rust, isAddress, RustConstOk, typeToks, SuitsRust, RustLitOk, rustIntegers,
          List.lookup]
    · rw [e, h]
      simp only [SchemaConst.rust, isAddress, SuitsRust]
      by_cases ha : n = "GroupAddress" ∨ n = "CommandsBufferAddress"
      · simp only [ha, if_true, RustConstOk, runtimeToks]
        simp
        grind
      · simp [ha, RustConstOk, typeToks]

/-- The Rust rules hold exactly if the schema meets the condition. -/
theorem rustConstsTyped_iff (K : ConstLib) (x : Ext) (S : List ASTNode) (hl : ∀ d ∈ S, LegalDecl d) :
    RustConstsTyped K ((schemaConsts S).map (fun c => (c.asPrinted x).rust)) (schemaBlocks S) ↔ RustConstSchema K x S := by
  have hk : ∀ c : SchemaConst, (c.asPrinted x).rust.path = c.path ∧ (c.asPrinted x).rust.name = c.name := by
    intro c
    unfold SchemaConst.rust SchemaConst.asPrinted
    simp only
    split <;> exact ⟨rfl, rfl⟩
  have hm : ((schemaConsts S).map (fun c => (c.asPrinted x).rust)).map (fun r => (r.path, r.name))
      = (schemaConsts S).map (fun c => (c.path, c.name)) := by
    simp [Function.comp_def, hk]
  have hv := fun c (hc : c ∈ schemaConsts S) => rustConstOk_iff K (schemaBlocks S) (c.asPrinted x) (legalConsts S hl c hc)
  constructor
  · rintro ⟨h1, h2, h3, h4, h5⟩
    refine ⟨hm ▸ h1, h2, fun c hc => ?_, h4, fun c hc => ?_, fun c hc => ?_⟩
    · have := h3 _ (List.mem_map_of_mem (f := fun c => (c.asPrinted x).rust) hc)
      rwa [(hk c).2] at this
    · exact ((hv c hc).mp (h5 _ (List.mem_map_of_mem (f := fun c => (c.asPrinted x).rust) hc))).1
    · exact ((hv c hc).mp (h5 _ (List.mem_map_of_mem (f := fun c => (c.asPrinted x).rust) hc))).2
  · rintro ⟨h1, h2, h3, h4, h5, h6⟩
    refine ⟨hm ▸ h1, h2, ?_, h4, ?_⟩
    · intro r hr
      simp only [List.mem_map] at hr
      obtain ⟨c, hc, rfl⟩ := hr
      rw [(hk c).2]
      exact h3 c hc
    · intro r hr
      simp only [List.mem_map] at hr
      obtain ⟨c, hc, rfl⟩ := hr
      exact (hv c hc).mpr ⟨h5 c hc, h6 c hc⟩

/-! ### Dart -/

theorem blockClass_eq (x : Ext) (p : List String) : "_" ++ pathWord x p = blockClass x p := by
  unfold pathWord blockClass
  have : ∀ (a b : String), a ++ p.foldl (fun a n => a ++ x.pascal n) b = p.foldl (fun a n => a ++ x.pascal n) (a ++ b) := by
    induction p with
    | nil => intro a b; rfl
    | cons n p ih => intro a b; simp only [List.foldl_cons]; rw [ih, String.append_assoc]
  simpa using this "_" ""

/-- The class of a block. -/
def classOf (x : Ext) (b : List String × List ConstItem) : DartClass :=
  ⟨blockClass x b.1, b.2.map (dartMember x (pathWord x b.1))⟩

mutual
theorem dartBlock_members (x : Ext) (path : List String) (i : ConstItem) :
    dartBlock x (pathWord x path) i = (itemMembers path i).map (classOf x) := by
  match i with
  | .value n t v => simp [dartBlock, itemMembers]
  | .node n is =>
    have := dartBlocks_members x (path ++ [n]) is
    simp only [dartBlock, itemMembers, List.map_cons, ← pathWord_snoc]
    rw [this, blockClass_eq]
    rfl
theorem dartBlocks_members (x : Ext) (path : List String) (is : List ConstItem) :
    dartBlocks x (pathWord x path) is = (itemsMembers path is).map (classOf x) := by
  match is with
  | [] => simp [dartBlocks, itemsMembers]
  | i :: is => simp [dartBlocks, itemsMembers, dartBlock_members x path i, dartBlocks_members x path is]
end

theorem dartConsts_classes (x : Ext) (S : List ASTNode) :
    (dartConsts x S).classes = (schemaMembers S).map (classOf x) := by
  simp only [dartConsts, schemaMembers]
  induction S with
  | nil => rfl
  | cons d S ih =>
    simp only [List.flatMap_cons, List.map_append, ih]
    congr 1
    cases d with
    | const n => exact dartBlock_members x [] (.node n.id n.items)
    | _ => rfl

theorem dartConsts_vars (x : Ext) (S : List ASTNode) :
    (dartConsts x S).vars = (outerBlocks S).map (fun n => (x.camel n, blockClass x [n])) := by
  simp only [dartConsts, outerBlocks]
  induction S with
  | nil => rfl
  | cons d S ih =>
    simp only [List.flatMap_cons, List.map_append, ih]
    congr 1
    cases d <;> simp [blockClass]

theorem dartMember_camel (x : Ext) (pre : String) (i : ConstItem) : (dartMember x pre i).name = x.camel i.itemName := by
  cases i <;> rfl

/-- The blocks in a block are blocks. -/
theorem schemaMembers_outer (S : List ASTNode) (n : String) (h : n ∈ outerBlocks S) : ∃ is, ([n], is) ∈ schemaMembers S := by
  simp only [outerBlocks, List.mem_flatMap] at h
  obtain ⟨d, hd, h⟩ := h
  cases d with
  | const m =>
    simp only [List.mem_singleton] at h
    subst h
    exact ⟨m.items, by simp only [schemaMembers, List.mem_flatMap]; exact ⟨_, hd, by simp [itemMembers]⟩⟩
  | _ => simp at h

theorem itemsMembers_child (path : List String) (is : List ConstItem) (n : String) (js : List ConstItem)
    (h : .node n js ∈ is) : (path ++ [n], js) ∈ itemsMembers path is := by
  induction is with
  | nil => simp at h
  | cons i is ih =>
    simp only [List.mem_cons] at h
    simp only [itemsMembers, List.mem_append]
    rcases h with rfl | h
    · exact .inl (by simp [itemMembers])
    · exact .inr (ih h)

mutual
theorem itemMembers_closed (path : List String) (i : ConstItem) (b : List String × List ConstItem)
    (hb : b ∈ itemMembers path i) (n : String) (js : List ConstItem) (h : .node n js ∈ b.2) :
    (b.1 ++ [n], js) ∈ itemMembers path i := by
  match i with
  | .value m t v => simp [itemMembers] at hb
  | .node m is =>
    simp only [itemMembers, List.mem_cons] at hb ⊢
    rcases hb with rfl | hb
    · exact .inr (itemsMembers_child _ _ _ _ h)
    · exact .inr (itemsMembers_closed (path ++ [m]) is b hb n js h)
theorem itemsMembers_closed (path : List String) (is : List ConstItem) (b : List String × List ConstItem)
    (hb : b ∈ itemsMembers path is) (n : String) (js : List ConstItem) (h : .node n js ∈ b.2) :
    (b.1 ++ [n], js) ∈ itemsMembers path is := by
  match is with
  | [] => simp [itemsMembers] at hb
  | i :: is =>
    simp only [itemsMembers, List.mem_append] at hb ⊢
    rcases hb with hb | hb
    · exact .inl (itemMembers_closed path i b hb n js h)
    · exact .inr (itemsMembers_closed path is b hb n js h)
end

theorem schemaMembers_child (S : List ASTNode) (b : List String × List ConstItem) (hb : b ∈ schemaMembers S)
    (n : String) (js : List ConstItem) (h : .node n js ∈ b.2) : (b.1 ++ [n], js) ∈ schemaMembers S := by
  simp only [schemaMembers, List.mem_flatMap] at hb ⊢
  obtain ⟨d, hd, hb⟩ := hb
  refine ⟨d, hd, ?_⟩
  cases d with
  | const m => exact itemMembers_closed [] _ b hb n js h
  | _ => simp at hb

mutual
theorem itemMembers_paths (path : List String) (i : ConstItem) : (itemMembers path i).map (·.1) = itemBlocks path i := by
  match i with
  | .value m t v => simp [itemMembers, itemBlocks]
  | .node m is => simp [itemMembers, itemBlocks, itemsMembers_paths (path ++ [m]) is]
theorem itemsMembers_paths (path : List String) (is : List ConstItem) : (itemsMembers path is).map (·.1) = itemsBlocks path is := by
  match is with
  | [] => simp [itemsMembers, itemsBlocks]
  | i :: is => simp [itemsMembers, itemsBlocks, itemMembers_paths path i, itemsMembers_paths path is]
end

theorem schemaMembers_paths (S : List ASTNode) : (schemaMembers S).map (·.1) = schemaBlocks S := by
  simp only [schemaMembers, schemaBlocks, List.map_flatMap]
  congr 1
  funext d
  cases d with
  | const n => exact itemMembers_paths [] _
  | _ => rfl

theorem itemsConsts_mem (path : List String) (is : List ConstItem) (n : String) (t : TypeId) (v : ConstValue)
    (h : .value n t v ∈ is) : ⟨path, n, t, v.literal⟩ ∈ itemsConsts path is := by
  induction is with
  | nil => simp at h
  | cons i is ih =>
    simp only [List.mem_cons] at h
    simp only [itemsConsts, List.mem_append]
    rcases h with rfl | h
    · exact .inl (by simp [itemConsts])
    · exact .inr (ih h)

mutual
theorem itemMembers_consts (path : List String) (i : ConstItem) (b : List String × List ConstItem)
    (hb : b ∈ itemMembers path i) (n : String) (t : TypeId) (v : ConstValue) (h : .value n t v ∈ b.2) :
    ⟨b.1, n, t, v.literal⟩ ∈ itemConsts path i := by
  match i with
  | .value m t v => simp [itemMembers] at hb
  | .node m is =>
    simp only [itemMembers, List.mem_cons] at hb
    simp only [itemConsts]
    rcases hb with rfl | hb
    · exact itemsConsts_mem _ _ _ _ _ h
    · exact itemsMembers_consts (path ++ [m]) is b hb n t v h
theorem itemsMembers_consts (path : List String) (is : List ConstItem) (b : List String × List ConstItem)
    (hb : b ∈ itemsMembers path is) (n : String) (t : TypeId) (v : ConstValue) (h : .value n t v ∈ b.2) :
    ⟨b.1, n, t, v.literal⟩ ∈ itemsConsts path is := by
  match is with
  | [] => simp [itemsMembers] at hb
  | i :: is =>
    simp only [itemsMembers, itemsConsts, List.mem_append] at hb ⊢
    rcases hb with hb | hb
    · exact .inl (itemMembers_consts path i b hb n t v h)
    · exact .inr (itemsMembers_consts path is b hb n t v h)
end

theorem schemaMembers_consts (S : List ASTNode) (b : List String × List ConstItem) (hb : b ∈ schemaMembers S)
    (n : String) (t : TypeId) (v : ConstValue) (h : .value n t v ∈ b.2) : ⟨b.1, n, t, v.literal⟩ ∈ schemaConsts S := by
  simp only [schemaMembers, schemaConsts, List.mem_flatMap] at hb ⊢
  obtain ⟨d, hd, hb⟩ := hb
  refine ⟨d, hd, ?_⟩
  cases d with
  | const m => exact itemMembers_consts [] _ b hb n t v h
  | _ => simp at hb

/-- What `CaseOk` says about the members of blocks. -/
structure CaseOk' (x : Ext) (S : List ASTNode) : Prop where
  blocks : ∀ b ∈ schemaMembers S, ∀ n ∈ b.1, Wordy (x.pascal n)
  outer : ∀ n ∈ outerBlocks S, IsIdent (x.camel n).toList ∧ DartRules.Public (x.camel n)
  members : ∀ b ∈ schemaMembers S, ∀ i ∈ b.2, IsIdent (x.camel i.itemName).toList ∧ DartRules.Public (x.camel i.itemName)

theorem CaseOk.members' {x : Ext} {S : List ASTNode} (h : CaseOk x S) : CaseOk' x S := by
  have hp : ∀ b ∈ schemaMembers S, b.1 ∈ schemaBlocks S := by
    intro b hb
    rw [← schemaMembers_paths]
    exact List.mem_map_of_mem (f := fun b : List String × List ConstItem => b.1) hb
  refine ⟨fun b hb n hn => (h.blocks _ (hp b hb) n hn).2.2, fun n hn => ?_, fun b hb i hi => ?_⟩
  · obtain ⟨is, his⟩ := schemaMembers_outer S n hn
    have := h.blocks _ (hp _ his) n (by simp)
    exact ⟨this.1, this.2.1⟩
  · cases i with
    | value n t v => exact h.consts _ (schemaMembers_consts S b hb n t v hi)
    | node n js =>
      have := h.blocks _ (hp _ (schemaMembers_child S b hb n js hi)) n (by simp)
      exact ⟨this.1, this.2.1⟩

theorem isIdent_of (s : String) (h : IsIdent s.toList) : isIdent s = true := by
  unfold isIdent
  cases hs : s.toList with
  | nil => rw [hs] at h; exact h.elim
  | cons c cs =>
    rw [hs] at h
    obtain ⟨h1, h2⟩ := h
    have hl : ∀ d, IsLetter d → (d.isAlpha || d == '_') = true := by
      intro d hd
      simp only [Char.isAlpha, Char.isUpper, Char.isLower, Bool.or_eq_true, Bool.and_eq_true, decide_eq_true_eq, beq_iff_eq]
      rcases hd with h | h | h
      · exact .inl (.inr ⟨h.1, h.2⟩)
      · exact .inl (.inl ⟨h.1, h.2⟩)
      · exact .inr h
    simp only [Bool.and_eq_true, List.all_eq_true]
    refine ⟨hl c h1, fun d hd => ?_⟩
    rcases h2 d hd with h | h
    · have := hl d h
      simp only [Char.isAlphanum, Bool.or_eq_true] at this ⊢
      rcases this with h | h
      · exact .inl (.inl h)
      · exact .inr h
    · simp only [Char.isAlphanum, Char.isDigit, Bool.or_eq_true, Bool.and_eq_true, decide_eq_true_eq]
      exact .inl (.inr ⟨h.1, h.2⟩)

theorem blockClass_toList (x : Ext) (p : List String) : (blockClass x p).toList = '_' :: (pathWord x p).toList := by
  rw [← blockClass_eq]
  simp

theorem public_ne (n : String) (h : DartRules.Public n) (x : Ext) (p : List String) : n ≠ blockClass x p := by
  intro e
  apply h
  rw [e, blockClass_toList]
  rfl

theorem pathWord_wordy (x : Ext) (p : List String) (h : ∀ n ∈ p, Wordy (x.pascal n)) : Wordy (pathWord x p) := by
  have : ∀ (a : String), Wordy a → Wordy (p.foldl (fun a n => a ++ x.pascal n) a) := by
    induction p with
    | nil => intro a ha; exact ha
    | cons n p ih =>
      intro a ha
      refine ih (fun m hm => h m (by simp [hm])) _ ?_
      intro c hc
      simp only [String.toList_append, List.mem_append] at hc
      exact hc.elim (ha c) (h n (by simp) c)
  exact this "" (by simp [Wordy])

theorem blockClass_ident (x : Ext) (p : List String) (h : ∀ n ∈ p, Wordy (x.pascal n)) :
    DartRules.DartTypeName (blockClass x p) := by
  refine ⟨isIdent_of _ ?_, fun hm => ?_⟩
  · rw [blockClass_toList]
    exact ⟨.inr (.inr rfl), pathWord_wordy x p h⟩
  · have h1 : (blockClass x p).toList.head? = some '_' := by rw [blockClass_toList]; rfl
    have h2 : ∀ n ∈ DartRules.dartReserved ++ DartRules.dartBuiltIn, n.toList.head? ≠ some '_' := by decide
    exact h2 _ hm h1

/-- The Dart rules hold exactly if the schema meets the condition. -/
theorem dartConstsTyped_iff (other : List Tok → Literal → Prop) (x : Ext) (S : List ASTNode) (hc : CaseOk x S) :
    DartConstsTyped other (dartConsts x S) ↔ DartConstSchema other x S := by
  replace hc := hc.members'
  have hcn : (dartConsts x S).classes.map (·.name) = (schemaMembers S).map (fun b => blockClass x b.1) := by
    rw [dartConsts_classes]
    simp [Function.comp_def, classOf]
  have hmn : ∀ b : List String × List ConstItem, (classOf x b).members.map (·.name) = b.2.map (fun i => x.camel i.itemName) := by
    intro b
    simp [classOf, Function.comp_def, dartMember_camel]
  constructor
  · rintro ⟨h1, _, h3, _, _, h6, h7⟩
    obtain ⟨d1, d2, d3⟩ := h1
    rw [dartConsts_vars] at d1 h3
    rw [hcn] at d2 h7
    rw [dartConsts_classes] at d3 h6 h7
    simp only [List.mem_map, forall_exists_index, and_imp, forall_apply_eq_imp_iff₂] at d3 h3 h6 h7
    refine ⟨by simpa [Function.comp_def] using d1, d2, fun b hb => by simpa [hmn] using d3 b hb, fun n hn => (h3 n hn).2,
      fun b hb i hi => ?_, fun b hb n t v hi => ?_, fun b hb n t v hi w hw i' hi' e => ?_⟩
    · have := h6 b hb _ (List.mem_map_of_mem (f := dartMember x (pathWord x b.1)) hi)
      rw [dartMember_camel] at this
      exact ⟨this.1.2, this.2.2⟩
    · exact (h7 b hb _ (List.mem_map_of_mem (f := dartMember x (pathWord x b.1)) hi)).1
    · refine (h7 b hb _ (List.mem_map_of_mem (f := dartMember x (pathWord x b.1)) hi)).2 w hw ?_
      rw [hmn, ← e]
      exact List.mem_map_of_mem (f := fun i => x.camel i.itemName) hi'
  · rintro ⟨h1, h2, h3, h4, h5, h6, h7⟩
    refine ⟨⟨?_, hcn ▸ h2, ?_⟩, ?_, ?_, ?_, ?_, ?_, ?_⟩
    · rw [dartConsts_vars]
      simpa [Function.comp_def] using h1
    · rw [dartConsts_classes]
      simp only [List.mem_map, forall_exists_index, and_imp, forall_apply_eq_imp_iff₂]
      intro b hb
      rw [hmn]
      exact h3 b hb
    · rw [dartConsts_vars, hcn]
      simp only [List.mem_map, forall_exists_index, and_imp, forall_apply_eq_imp_iff₂]
      rintro n hn ⟨b, hb, e⟩
      exact public_ne _ (hc.outer n hn).2 x b.1 e.symm
    · rw [dartConsts_vars]
      simp only [List.mem_map, forall_exists_index, and_imp, forall_apply_eq_imp_iff₂]
      exact fun n hn => ⟨isIdent_of _ (hc.outer n hn).1, h4 n hn⟩
    · rw [dartConsts_vars, hcn]
      simp only [List.mem_map, forall_exists_index, and_imp, forall_apply_eq_imp_iff₂]
      intro n hn
      obtain ⟨is, his⟩ := schemaMembers_outer S n hn
      exact ⟨_, his, rfl⟩
    · rw [dartConsts_classes]
      simp only [List.mem_map, forall_exists_index, and_imp, forall_apply_eq_imp_iff₂]
      exact fun b hb => blockClass_ident x b.1 (hc.blocks b hb)
    · rw [dartConsts_classes]
      simp only [List.mem_map, forall_exists_index, and_imp, forall_apply_eq_imp_iff₂]
      intro b hb m hm
      simp only [classOf, List.mem_map] at hm ⊢
      obtain ⟨i, hi, rfl⟩ := hm
      rw [dartMember_camel]
      exact ⟨⟨isIdent_of _ (hc.members b hb i hi).1, (h5 b hb i hi).1⟩, public_ne _ (hc.members b hb i hi).2 x b.1,
        (h5 b hb i hi).2⟩
    · rw [hcn, dartConsts_classes]
      simp only [List.mem_map, forall_exists_index, and_imp, forall_apply_eq_imp_iff₂]
      intro b hb m hm
      rw [hmn]
      simp only [classOf, List.mem_map] at hm
      obtain ⟨i, hi, rfl⟩ := hm
      cases i with
      | value n t v =>
        refine ⟨h6 b hb n t v hi, fun w hw hm => ?_⟩
        simp only [List.mem_map] at hm
        obtain ⟨i', hi', e⟩ := hm
        exact h7 b hb n t v hi w hw i' hi' e
      | node n js =>
        have hcl : "_" ++ (pathWord x b.1 ++ x.pascal n) = blockClass x (b.1 ++ [n]) := by
          rw [← blockClass_eq, pathWord_snoc]
        simp only [dartMember, DartMemberOk, hcl, List.mem_map]
        refine ⟨⟨_, schemaMembers_child S b hb n js hi, rfl⟩, ?_⟩
        rintro ⟨i', hi', e⟩
        exact public_ne _ (hc.members b hb i' hi').2 x _ e

end TPB.Spec
