/- How the constants section of generated Dart code is read. -/
import Verif.Proofs.Consts
namespace TPB.Spec

theorem wordy_append {a b : String} (ha : Wordy a) (hb : Wordy b) : Wordy (a ++ b) := by
  intro c hc
  rw [String.toList_append, List.mem_append] at hc
  exact hc.elim (ha c) (hb c)

theorem ident_underscore {s : String} (h : Wordy s) : IsIdent ("_" ++ s).toList := by
  rw [String.toList_append]
  exact ⟨by decide, h⟩

/-- Members of blocks whose Dart names are identifiers and whose literals are read back. -/
inductive DartItem (x : Ext) : ConstItem → Prop
  | value (n : String) (t : TypeId) (v : ConstValue) : IsIdent (x.camel n).toList → NamedType t →
      Printable x v.literal → DartItem x (.value n t v)
  | node (n : String) (is : List ConstItem) : IsIdent (x.camel n).toList → Wordy (x.pascal n) →
      (∀ i ∈ is, DartItem x i) → DartItem x (.node n is)

theorem piece_dartType (t : TypeId) (h : NamedType t) : Piece (DartGen.typeId t).toList (dartTypeToks t) := by
  induction h with
  | integer id n s h => simpa [DartGen.typeId, dartTypeToks] using piece_ident "int" (by decide)
  | number id n h => simpa [DartGen.typeId, dartTypeToks] using piece_ident "double" (by decide)
  | bool id h => simpa [DartGen.typeId, dartTypeToks] using piece_ident "bool" (by decide)
  | char id h => simpa [DartGen.typeId, dartTypeToks] using piece_ident "int" (by decide)
  | other id h => simpa [DartGen.typeId, dartTypeToks] using piece_ident id h
  | generic id as h _ ih =>
    have h1 := piece_join DartGen.typeId dartTypeToks as ih
    have h3 := h1.piece (show isBreak '>' by decide) (show Runs .idle ['>'] [.sym '>'] .idle by decide).toPiece
    have h4 := (show Runs .idle ['<'] [.sym '<'] .idle by decide).piece h3
    have h0 : IsIdent (if id = "Vec" then "List" else id).toList := by
      split
      · decide
      · exact h
    have h5 := (piece_ident _ h0).piece (show isBreak '<' by decide) h4
    simpa [DartGen.typeId, DartGen.listName, dartTypeToks, String.toList_append, List.append_assoc] using h5

theorem dartTypeToks_inner (t : TypeId) (h : NamedType t) : ∀ u ∈ dartTypeToks t, Inner u ∧ u ≠ .sym '=' := by
  induction h with
  | integer id n s h => simp [dartTypeToks, Inner, isEnd]
  | number id n h => simp [dartTypeToks, Inner, isEnd]
  | bool id h => simp [dartTypeToks, Inner, isEnd]
  | char id h => simp [dartTypeToks, Inner, isEnd]
  | other id h => simp [dartTypeToks, Inner, isEnd]
  | generic id as h _ ih =>
    intro u hu
    simp only [dartTypeToks, List.mem_cons, List.mem_append, List.not_mem_nil, or_false] at hu
    rcases hu with hu | hu | hu | hu
    · subst hu; simp [Inner, isEnd]
    · subst hu; decide
    · refine joinToks_all (fun u => Inner u ∧ u ≠ .sym '=') (by decide) _ (fun t ht => ?_) u hu
      simp only [List.mem_map] at ht
      obtain ⟨a, ha, rfl⟩ := ht
      exact ih a ha
    · subst hu; decide

theorem constType_eq (t : TypeId) : (∃ a, isAddress t = some a ∧ DartGen.constType t = "int") ∨
    (isAddress t = none ∧ DartGen.constType t = DartGen.typeId t) := by
  cases t with
  | other id =>
    by_cases h1 : id = "GroupAddress"
    · exact .inl ⟨id, by simp [isAddress, h1], by simp [DartGen.constType, h1]⟩
    · by_cases h2 : id = "CommandsBufferAddress"
      · exact .inl ⟨id, by simp [isAddress, h2], by simp [DartGen.constType, h2]⟩
      · exact .inr ⟨by simp [isAddress, h1, h2], by simp [DartGen.constType, h1, h2]⟩
  | _ => exact .inr ⟨rfl, rfl⟩

theorem piece_dartConstType (t : TypeId) (h : NamedType t) :
    Piece (DartGen.constType t).toList (dartConstType t) := by
  rcases constType_eq t with ⟨a, h1, h2⟩ | ⟨h1, h2⟩
  · simpa [h2, dartConstType, h1] using piece_ident "int" (by decide)
  · simpa [h2, dartConstType, h1] using piece_dartType t h

theorem dartConstType_inner (t : TypeId) (h : NamedType t) : ∀ u ∈ dartConstType t, Inner u ∧ u ≠ .sym '=' := by
  unfold dartConstType
  cases isAddress t with
  | some a => simp [Inner, isEnd]
  | none => exact dartTypeToks_inner t h

theorem dartConstType_ne (t : TypeId) : dartConstType t ≠ [] := by
  unfold dartConstType
  cases isAddress t with
  | some a => simp
  | none => cases t <;> simp [dartTypeToks]

/-! ### Statements -/

def dartMemberStmt (x : Ext) (pre : String) : ConstItem → Stmt
  | .value n t v =>
    (.word "final" :: (dartConstType t ++ .word (x.camel n) :: .sym '=' :: litToks x v.literal), ';')
  | .node n _ =>
    ([.word "final", .word (x.camel n), .sym '=', .word "const", .word ("_" ++ (pre ++ x.pascal n)), .sym '(', .sym ')'], ';')

mutual
def dartBlockStmts (x : Ext) (pre : String) : ConstItem → List Stmt
  | .value _ _ _ => []
  | .node n is => ([.word "class", .word ("_" ++ (pre ++ x.pascal n))], '{') ::
      ([.word "const", .word ("_" ++ (pre ++ x.pascal n)), .sym '(', .sym ')'], ';') ::
      (is.map (dartMemberStmt x (pre ++ x.pascal n)) ++ ([], '}') :: dartBlocksStmts x (pre ++ x.pascal n) is)
def dartBlocksStmts (x : Ext) (pre : String) : List ConstItem → List Stmt
  | [] => []
  | i :: is => dartBlockStmts x pre i ++ dartBlocksStmts x pre is
end

theorem emits_dartMember (x : Ext) (pre : String) (hp : Wordy pre) (i : ConstItem) (h : DartItem x i) (r : String) :
    ∃ s, DartGen.constMember x pre (wAt 2 r) i = wAt 2 (r ++ s) ∧ Emits s.toList [dartMemberStmt x pre i] := by
  cases h with
  | value n t v hn ht hv =>
    refine ⟨_, writelnTab_wAt 2 r _ 1, emits_line 2 1 _ _ ';' ?_ ?_ (by decide)⟩
    · have a1 : Runs .idle "final ".toList [.word "final"] .idle := by decide
      have a2 : Runs .idle [' '] [] .idle := by decide
      have a3 : Runs .idle [' ', '=', ' '] [.sym '='] .idle := by decide
      have a4 : Runs .idle [';'] [.sym ';'] .idle := by decide
      have b1 := (piece_lit x v hv).runs (show isBreak ';' by decide) a4
      have b2 := (piece_ident _ hn).runs (show isBreak ' ' by decide) (a3.append b1)
      have b3 := (piece_dartConstType t ht).runs (show isBreak ' ' by decide) (a2.append b2)
      have b4 := a1.append b3
      simpa [String.toList_append, List.append_assoc, dart_constValue] using b4
    · intro u hu
      simp only [List.mem_cons, List.mem_append] at hu
      rcases hu with hu | hu | hu | hu | hu
      · subst hu; decide
      · exact (dartConstType_inner t ht u hu).1
      · subst hu; simp [Inner, isEnd]
      · subst hu; decide
      · exact (litToks_inner x _ u hu).1
  | node n is hn hw his =>
    refine ⟨_, writelnTab_wAt 2 r _ 1, emits_line 2 1 _ _ ';' ?_ ?_ (by decide)⟩
    · have a1 : Runs .idle "final ".toList [.word "final"] .idle := by decide
      have a3 : Runs .idle (" = const ".toList) [.sym '=', .word "const"] .idle := by decide
      have a3' : (" = const ".toList) = ' ' :: "= const ".toList := by decide
      have a4 : Runs .idle ['(', ')', ';'] [.sym '(', .sym ')', .sym ';'] .idle := by decide
      have b1 := (piece_ident _ (ident_underscore (wordy_append hp hw))).runs (show isBreak '(' by decide) a4
      have b2 := a3.append b1
      rw [a3'] at b2
      have b3 := a1.append ((piece_ident _ hn).runs (show isBreak ' ' by decide) b2)
      simpa [String.toList_append, List.append_assoc] using b3
    · intro u hu
      simp only [List.mem_cons, List.not_mem_nil, or_false] at hu
      rcases hu with hu | hu | hu | hu | hu | hu | hu
      all_goals subst hu
      all_goals simp [Inner, isEnd]

theorem emits_dartMembers (x : Ext) (pre : String) (hp : Wordy pre) (is : List ConstItem)
    (h : ∀ i ∈ is, DartItem x i) (r : String) :
    ∃ s, is.foldl (DartGen.constMember x pre) (wAt 2 r) = wAt 2 (r ++ s) ∧
      Emits s.toList (is.map (dartMemberStmt x pre)) := by
  induction is generalizing r with
  | nil => exact ⟨"", by simp, Emits.nil⟩
  | cons i is ih =>
    obtain ⟨s1, e1, h1⟩ := emits_dartMember x pre hp i (h i (by simp)) r
    obtain ⟨s2, e2, h2⟩ := ih (fun j hj => h j (by simp [hj])) (r ++ s1)
    exact ⟨s1 ++ s2, by simp [e1, e2, String.append_assoc], by simpa [String.toList_append] using h1.append h2⟩

theorem blank_wAt2 (b : Bool) (r : String) : ∃ s, (if b then wAt 2 r else (wAt 2 r).writeln "") = wAt 2 (r ++ s) ∧
    Emits s.toList [] := by
  cases b
  · exact ⟨_, writeln_wAt 2 r "", emits_blank 2⟩
  · exact ⟨"", by simp, Emits.nil⟩

mutual
theorem emits_dartBlock (x : Ext) (pre n : String) (hp : Wordy pre) (is : List ConstItem) (hw : Wordy (x.pascal n))
    (h : ∀ i ∈ is, DartItem x i) :
    Emits (DartGen.constClassImpl x pre n is).toList (dartBlockStmts x pre (.node n is)) := by
  have hp' := wordy_append hp hw
  have hid := piece_ident _ (ident_underscore hp')
  rw [DartGen.constClassImpl, new_eq]
  simp only [writeln_wAt, writelnTab_wAt]
  obtain ⟨s1, e1, h1⟩ := blank_wAt2 is.isEmpty ("" ++ linesText 2 [(0, "class _" ++ (pre ++ x.pascal n) ++ " {")]
    ++ linesText 2 [(1, "const _" ++ (pre ++ x.pascal n) ++ "();")])
  rw [writeln_wAt] at e1
  rw [e1]
  obtain ⟨s2, e2, h2⟩ := emits_dartMembers x (pre ++ x.pascal n) hp' is h ("" ++ linesText 2 [(0, "class _" ++ (pre ++ x.pascal n) ++ " {")]
    ++ linesText 2 [(1, "const _" ++ (pre ++ x.pascal n) ++ "();")] ++ s1)
  rw [e2, writeln_wAt]
  obtain ⟨s3, e3, h3⟩ := emits_dartBlocks x (pre ++ x.pascal n) hp' is h ("" ++ linesText 2 [(0, "class _" ++ (pre ++ x.pascal n) ++ " {")]
    ++ linesText 2 [(1, "const _" ++ (pre ++ x.pascal n) ++ "();")] ++ s1 ++ s2 ++ linesText 2 [(0, "}")])
  rw [e3, show_wAt]
  have l1 : Emits (linesText 2 [(0, "class _" ++ (pre ++ x.pascal n) ++ " {")]).toList
      [([.word "class", .word ("_" ++ (pre ++ x.pascal n))], '{')] := by
    refine emits_line 2 0 _ _ '{' ?_ ?_ (by decide)
    · have a1 : Runs .idle "class ".toList [.word "class"] .idle := by decide
      have a2 : Runs .idle [' ', '{'] [.sym '{'] .idle := by decide
      have b := a1.append (hid.runs (show isBreak ' ' by decide) a2)
      simpa [String.toList_append, List.append_assoc] using b
    · intro u hu
      simp only [List.mem_cons, List.not_mem_nil, or_false] at hu
      rcases hu with hu | hu
      all_goals subst hu
      all_goals simp [Inner, isEnd]
  have l2 : Emits (linesText 2 [(1, "const _" ++ (pre ++ x.pascal n) ++ "();")]).toList
      [([.word "const", .word ("_" ++ (pre ++ x.pascal n)), .sym '(', .sym ')'], ';')] := by
    refine emits_line 2 1 _ _ ';' ?_ ?_ (by decide)
    · have a1 : Runs .idle "const ".toList [.word "const"] .idle := by decide
      have a2 : Runs .idle ['(', ')', ';'] [.sym '(', .sym ')', .sym ';'] .idle := by decide
      have b := a1.append (hid.runs (show isBreak '(' by decide) a2)
      simpa [String.toList_append, List.append_assoc] using b
    · intro u hu
      simp only [List.mem_cons, List.not_mem_nil, or_false] at hu
      rcases hu with hu | hu | hu | hu
      all_goals subst hu
      all_goals simp [Inner, isEnd]
  have l3 : Emits (linesText 2 [(0, "}")]).toList [([], '}')] :=
    emits_line 2 0 _ [] '}' (by decide) (by simp) (by decide)
  have := ((((l1.append l2).append h1).append h2).append l3).append h3
  simp only [String.empty_append, String.toList_append]
  simpa [dartBlockStmts, String.toList_append] using this
termination_by (sizeOf is, 1)

theorem emits_dartBlocks (x : Ext) (pre : String) (hp : Wordy pre) (is : List ConstItem)
    (h : ∀ i ∈ is, DartItem x i) (r : String) :
    ∃ s, DartGen.constChildren x pre (wAt 2 r) is = wAt 2 (r ++ s) ∧ Emits s.toList (dartBlocksStmts x pre is) := by
  match is with
  | [] => exact ⟨"", by simp [DartGen.constChildren], Emits.nil⟩
  | .value n t v :: rest =>
    obtain ⟨s, e, hs⟩ := emits_dartBlocks x pre hp rest (fun i hi => h i (by simp [hi])) r
    exact ⟨s, by rw [DartGen.constChildren]; exact e, by simpa [dartBlocksStmts, dartBlockStmts] using hs⟩
  | .node n is :: rest =>
    cases h (.node n is) (by simp) with
    | node _ _ hn hw his =>
      have hb := emits_dartBlock x pre n hp is hw his
      obtain ⟨s, e, hs⟩ := emits_dartBlocks x pre hp rest (fun i hi => h i (by simp [hi]))
        (r ++ linesText 2 [(0, "")] ++ DartGen.constClassImpl x pre n is)
      refine ⟨linesText 2 [(0, "")] ++ DartGen.constClassImpl x pre n is ++ s, ?_, ?_⟩
      · rw [DartGen.constChildren]
        simp only [writeln_wAt, write_wAt]
        rw [e]
        simp only [String.append_assoc]
      · have := ((emits_blank 2).append hb).append hs
        rw [String.toList_append, String.toList_append]
        simpa [dartBlocksStmts] using this
termination_by (sizeOf is, 0)
end

/-! ### Reading the statements back -/

theorem readDartMember_stmt (x : Ext) (pre : String) (i : ConstItem) (h : DartItem x i)
    (hs : ∀ n t v s, i = .value n t v → v.literal = .str s → dartString s = some s) :
    readDartMember (dartMemberStmt x pre i).1 = some (dartMember x pre i) := by
  cases h with
  | value n t v hn ht hv =>
    have h2 := takeWhile_stop (fun u => decide (u ≠ Tok.sym '=')) (dartConstType t ++ [.word (x.camel n)]) (.sym '=')
      (litToks x v.literal) (fun u hu => by
        simp only [List.mem_append, List.mem_singleton] at hu
        rcases hu with hu | hu
        · simpa using (dartConstType_inner t ht u hu).2
        · subst hu; simp) (by simp)
    rw [List.append_assoc, List.singleton_append] at h2
    simp only [dartMemberStmt, readDartMember, if_true, h2.1, h2.2]
    simp [dartConstType_ne, readLit_litToks x dartString v.literal hv (fun s e => hs n t v s rfl e), dartMember]
  | node n is hn hw his =>
    simp [dartMemberStmt, readDartMember, readDartNew, dartMember]

theorem readDart_members (x : Ext) (pre : String) (is : List ConstItem) (h : ∀ i ∈ is, DartItem x i)
    (hs : ∀ n t v s, .value n t v ∈ is → v.literal = .str s → dartString s = some s) (c : DartClass)
    (rest : List Stmt) :
    readDartFrom (some c) (is.map (dartMemberStmt x pre) ++ rest)
      = readDartFrom (some ⟨c.name, c.members ++ is.map (dartMember x pre)⟩) rest := by
  induction is generalizing c with
  | nil => simp
  | cons i is ih =>
    have hm := readDartMember_stmt x pre i (h i (by simp)) (fun n t v s e => hs n t v s (by simp [e]))
    have e2 : (dartMemberStmt x pre i).2 = ';' := by cases i <;> rfl
    have e1 : (dartMemberStmt x pre i).1 ≠ [.word "const", .word c.name, .sym '(', .sym ')'] := by
      cases i <;> simp [dartMemberStmt]
    rw [List.map_cons, List.cons_append,
      show dartMemberStmt x pre i = ((dartMemberStmt x pre i).1, ';') from Prod.ext rfl e2, readDartFrom]
    simp only [e1, hm, false_and, if_false, show (';' = '}') = False by decide]
    simp only [if_true, Option.bind_some]
    rw [ih (fun j hj => h j (by simp [hj])) (fun n t v s hm => hs n t v s (by simp [hm]))]
    simp

/-- The strings among the constants are read back by Dart. -/
inductive DartStrings : ConstItem → Prop
  | value (n : String) (t : TypeId) (v : ConstValue) : (∀ s, v.literal = .str s → dartString s = some s) →
      DartStrings (.value n t v)
  | node (n : String) (is : List ConstItem) : (∀ i ∈ is, DartStrings i) → DartStrings (.node n is)

def addClasses (cs : List DartClass) (lib : DartLibrary) : DartLibrary := ⟨lib.vars, cs ++ lib.classes⟩

mutual
theorem readDart_block (x : Ext) (pre : String) (i : ConstItem) (h : DartItem x i) (hs : DartStrings i)
    (rest : List Stmt) :
    readDartFrom none (dartBlockStmts x pre i ++ rest) = addClasses (dartBlock x pre i) <$> readDartFrom none rest := by
  match i with
  | .value n t v => cases hr : readDartFrom none rest <;> simp [dartBlockStmts, dartBlock, addClasses, hr]
  | .node n is =>
    cases h with
    | node _ _ hn hw his =>
      cases hs with
      | node _ _ hss =>
        have ih := readDart_blocks x (pre ++ x.pascal n) is his hss rest
        have hm := readDart_members x (pre ++ x.pascal n) is his
          (fun n t v s hm e => by cases hss _ hm with | value _ _ _ h => exact h s e)
          ⟨"_" ++ (pre ++ x.pascal n), []⟩ (([], '}') :: (dartBlocksStmts x (pre ++ x.pascal n) is ++ rest))
        simp only [dartBlockStmts, List.cons_append, List.append_assoc]
        rw [readDartFrom]
        simp only [if_true, readDartClass]
        rw [readDartFrom]
        simp only [and_self, if_true]
        simp only [show (';' = '}') = False by decide, if_false]
        rw [hm, readDartFrom]
        simp only [if_true]
        rw [ih]
        cases readDartFrom none rest <;> simp [dartBlock, addClasses]
theorem readDart_blocks (x : Ext) (pre : String) (is : List ConstItem) (h : ∀ i ∈ is, DartItem x i)
    (hs : ∀ i ∈ is, DartStrings i) (rest : List Stmt) :
    readDartFrom none (dartBlocksStmts x pre is ++ rest)
      = addClasses (dartBlocks x pre is) <$> readDartFrom none rest := by
  match is with
  | [] => cases hr : readDartFrom none rest <;> simp [dartBlocksStmts, dartBlocks, addClasses, hr]
  | i :: is =>
    have h1 := readDart_block x pre i (h i (by simp)) (hs i (by simp)) (dartBlocksStmts x pre is ++ rest)
    have h2 := readDart_blocks x pre is (fun j hj => h j (by simp [hj])) (fun j hj => hs j (by simp [hj])) rest
    simp only [dartBlocksStmts, List.append_assoc]
    rw [h1, h2]
    cases readDartFrom none rest <;> simp [dartBlocks, addClasses]
end

/-! ### The whole section -/

/-- Declarations whose constants are read back in Dart. -/
def DartDecl (x : Ext) : ASTNode → Prop
  | .const n => DartItem x (.node n.id n.items)
  | _ => True

def declVars (x : Ext) : ASTNode → List (String × String)
  | .const n => [(x.camel n.id, "_" ++ x.pascal n.id)]
  | _ => []

def declClasses (x : Ext) : ASTNode → List DartClass
  | .const n => dartBlock x "" (.node n.id n.items)
  | _ => []

def declVarStmts (x : Ext) : ASTNode → List Stmt
  | .const n => [([.word "const", .word (x.camel n.id), .sym '=', .word ("_" ++ x.pascal n.id), .sym '(', .sym ')'], ';')]
  | _ => []

def declClassStmts (x : Ext) : ASTNode → List Stmt
  | .const n => dartBlockStmts x "" (.node n.id n.items)
  | _ => []

theorem emits_dartVars (x : Ext) (S : List ASTNode) (h : ∀ d ∈ S, DartDecl x d) (r : String) :
    ∃ s, S.foldl (DartGen.constsDeclItem x) (wAt 2 r) = wAt 2 (r ++ s) ∧ Emits s.toList (S.flatMap (declVarStmts x)) := by
  induction S generalizing r with
  | nil => exact ⟨"", by simp, Emits.nil⟩
  | cons d S ih =>
    have hd := h d (by simp)
    have hS : ∀ d ∈ S, DartDecl x d := fun e he => h e (by simp [he])
    cases d with
    | const n =>
      obtain ⟨s, e, hs⟩ := ih hS (r ++ DartGen.constClassDecl x n.id)
      refine ⟨DartGen.constClassDecl x n.id ++ s, ?_, ?_⟩
      · simp only [List.foldl_cons, DartGen.constsDeclItem, write_wAt, e, String.append_assoc]
      · cases hd with
        | node _ _ hn hw his =>
          have h1 : Emits (DartGen.constClassDecl x n.id).toList (declVarStmts x (.const n)) := by
            unfold DartGen.constClassDecl
            rw [new_eq, writelnTab_wAt, show_wAt, String.empty_append]
            refine emits_line 2 0 _ _ ';' ?_ ?_ (by decide)
            · have a1 : Runs .idle "const ".toList [.word "const"] .idle := by decide
              have a2 : Runs .idle [' ', '=', ' '] [.sym '='] .idle := by decide
              have a3 : Runs .idle ['(', ')', ';'] [.sym '(', .sym ')', .sym ';'] .idle := by decide
              have b1 := (piece_ident _ (ident_underscore hw)).runs (show isBreak '(' by decide) a3
              have b2 := a1.append ((piece_ident _ hn).runs (show isBreak ' ' by decide) (a2.append b1))
              simpa [String.toList_append, List.append_assoc] using b2
            · intro u hu
              simp only [List.mem_cons, List.not_mem_nil, or_false] at hu
              rcases hu with hu | hu | hu | hu | hu | hu
              all_goals subst hu
              all_goals simp [Inner, isEnd]
          simpa [String.toList_append] using h1.append hs
    | enum n => simpa [DartGen.constsDeclItem, declVarStmts] using ih hS r
    | struct n => simpa [DartGen.constsDeclItem, declVarStmts] using ih hS r
    | fn n => simpa [DartGen.constsDeclItem, declVarStmts] using ih hS r
    | directive n => simpa [DartGen.constsDeclItem, declVarStmts] using ih hS r

theorem emits_dartClasses (x : Ext) (S : List ASTNode) (h : ∀ d ∈ S, DartDecl x d) (r : String) :
    ∃ s, S.foldl (DartGen.constsImplItem x) (wAt 2 r) = wAt 2 (r ++ s) ∧
      Emits s.toList (S.flatMap (declClassStmts x)) := by
  induction S generalizing r with
  | nil => exact ⟨"", by simp, Emits.nil⟩
  | cons d S ih =>
    have hd := h d (by simp)
    have hS : ∀ d ∈ S, DartDecl x d := fun e he => h e (by simp [he])
    cases d with
    | const n =>
      obtain ⟨s, e, hs⟩ := ih hS (r ++ linesText 2 [(0, "")] ++ DartGen.constClassImpl x "" n.id n.items)
      refine ⟨linesText 2 [(0, "")] ++ DartGen.constClassImpl x "" n.id n.items ++ s, ?_, ?_⟩
      · simp only [List.foldl_cons, DartGen.constsImplItem, writeln_wAt, write_wAt]
        rw [e]
        simp only [String.append_assoc]
      · cases hd with
        | node _ _ hn hw his =>
          have h1 := emits_dartBlock x "" n.id (by intro c hc; simp at hc) n.items hw his
          have := ((emits_blank 2).append h1).append hs
          rw [String.toList_append, String.toList_append]
          simpa [declClassStmts] using this
    | enum n => simpa [DartGen.constsImplItem, declClassStmts] using ih hS r
    | struct n => simpa [DartGen.constsImplItem, declClassStmts] using ih hS r
    | fn n => simpa [DartGen.constsImplItem, declClassStmts] using ih hS r
    | directive n => simpa [DartGen.constsImplItem, declClassStmts] using ih hS r

/-- The strings of a schema are read back by Dart. -/
def DartStringsDecl : ASTNode → Prop
  | .const n => ∀ i ∈ n.items, DartStrings i
  | _ => True

theorem readDart_classes (x : Ext) (S : List ASTNode) (h : ∀ d ∈ S, DartDecl x d) (hs : ∀ d ∈ S, DartStringsDecl d) :
    readDartFrom none (S.flatMap (declClassStmts x)) = some ⟨[], S.flatMap (declClasses x)⟩ := by
  induction S with
  | nil => rfl
  | cons d S ih =>
    have hd := h d (by simp)
    have hsd := hs d (by simp)
    have hS := ih (fun e he => h e (by simp [he])) (fun e he => hs e (by simp [he]))
    cases d with
    | const n =>
      have h1 := readDart_block x "" (.node n.id n.items) hd (.node _ _ hsd) (S.flatMap (declClassStmts x))
      simp only [List.flatMap_cons, declClassStmts, h1, hS]
      simp [addClasses, declClasses]
    | enum n => simpa [declClassStmts, declClasses] using hS
    | struct n => simpa [declClassStmts, declClasses] using hS
    | fn n => simpa [declClassStmts, declClasses] using hS
    | directive n => simpa [declClassStmts, declClasses] using hS

theorem readDart_vars (x : Ext) (S : List ASTNode) (rest : List Stmt) :
    readDartFrom none (S.flatMap (declVarStmts x) ++ rest)
      = (fun lib => ⟨S.flatMap (declVars x) ++ lib.vars, lib.classes⟩) <$> readDartFrom none rest := by
  induction S with
  | nil => cases hr : readDartFrom none rest <;> simp [hr]
  | cons d S ih =>
    cases d with
    | const n =>
      simp only [List.flatMap_cons, declVarStmts, List.append_assoc, List.singleton_append, List.cons_append,
        List.nil_append]
      rw [readDartFrom]
      simp only [show (';' = '{') = False by decide, if_false, if_true, readDartVar, and_self]
      rw [ih]
      cases readDartFrom none rest <;> simp [declVars]
    | enum n => simpa [declVarStmts, declVars] using ih
    | struct n => simpa [declVarStmts, declVars] using ih
    | fn n => simpa [declVarStmts, declVars] using ih
    | directive n => simpa [declVarStmts, declVars] using ih

/-- The constants section of generated Dart code declares the classes of the schema's blocks. -/
theorem readDart_consts (x : Ext) (S : List ASTNode) (h : ∀ d ∈ S, DartDecl x d) (hs : ∀ d ∈ S, DartStringsDecl d) :
    readDart (DartGen.consts x S) = some (dartConsts x S) := by
  obtain ⟨s1, e1, h1⟩ := emits_dartVars x S h ""
  obtain ⟨s2, e2, h2⟩ := emits_dartClasses x S h ("" ++ s1)
  unfold DartGen.consts readDart
  simp only []
  rw [new_eq, e1, e2, show_wAt, String.empty_append]
  have h3 : Emits (s1 ++ s2).toList (S.flatMap (declVarStmts x) ++ S.flatMap (declClassStmts x)) := by
    rw [String.toList_append]; exact h1.append h2
  rw [h3.trim.stmts]
  simp only [Option.bind_some]
  rw [readDart_vars, readDart_classes x S h hs]
  simp only [Option.map_eq_map, Option.map_some, List.append_nil, dartConsts, Option.some.injEq, DartLibrary.mk.injEq]
  constructor
  · trivial
  · trivial

/-! ### Values of expressions -/

theorem find_nodup {α : Type} (f : α → String) (l : List α) (h : (l.map f).Nodup) (a : α) (ha : a ∈ l) :
    l.find? (fun b => f b = f a) = some a := by
  induction l with
  | nil => simp at ha
  | cons b l ih =>
    simp only [List.map_cons, List.nodup_cons] at h
    rw [List.mem_cons] at ha
    rcases ha with rfl | ha
    · simp
    · rw [List.find?_cons_of_neg (by
        simp only [decide_eq_true_eq]
        exact fun e => h.1 (e ▸ List.mem_map_of_mem ha))]
      exact ih h.2 ha

theorem cls_mem (L : DartLibrary) (h : L.Distinct) (c : DartClass) (hc : c ∈ L.classes) : L.cls c.name = some c :=
  find_nodup DartClass.name L.classes h.2.1 c hc

/-- Name of a member of a block. -/
def itemName : ConstItem → String
  | .value n _ _ => n
  | .node n _ => n

theorem dartMember_name (x : Ext) (pre : String) (i : ConstItem) : (dartMember x pre i).name = x.camel (itemName i) := by
  cases i <;> rfl

/-- The class of a block is in the library and so are those of the blocks in it. -/
theorem get_items (x : Ext) (L : DartLibrary) (h : L.Distinct) (all : List ConstItem) (pre : String)
    (path : List String) (hc : (⟨"_" ++ pre, all.map (dartMember x pre)⟩ : DartClass) ∈ L.classes)
    (is : List ConstItem) (hm : ∀ i ∈ is, i ∈ all) (hsub : ∀ c ∈ dartBlocks x pre is, c ∈ L.classes)
    (c : SchemaConst) (hcc : c ∈ itemsConsts path is) :
    ∃ p, c.path = path ++ p ∧ L.get ("_" ++ pre) ((p ++ [c.name]).map x.camel) = some (printed x c.value) := by
  have hget (i : ConstItem) (hi : i ∈ all) :
      (⟨"_" ++ pre, all.map (dartMember x pre)⟩ : DartClass).member (x.camel (itemName i))
        = some (dartMember x pre i) := by
    have hmem := find_nodup DartMember.name _ (h.2.2 _ hc) (dartMember x pre i) (List.mem_map_of_mem hi)
    rw [dartMember_name] at hmem
    exact hmem
  have hcls : L.cls ("_" ++ pre) = some _ := cls_mem L h _ hc
  match is with
  | [] => simp [itemsConsts] at hcc
  | .value n t v :: is =>
    simp only [itemsConsts, List.mem_append] at hcc
    rcases hcc with hcc | hcc
    · have hmem := hget _ (hm (.value n t v) (by simp))
      simp only [itemConsts, List.mem_singleton] at hcc
      subst hcc
      refine ⟨[], by simp, ?_⟩
      simp only [List.nil_append, List.map_cons, List.map_nil, DartLibrary.get, hcls, Option.bind_some]
      simp only [itemName] at hmem
      rw [hmem]
      simp [dartMember]
    · exact get_items x L h all pre path hc is (fun j hj => hm j (by simp [hj]))
        (fun c hc => hsub c (by simp only [dartBlocks, List.mem_append]; exact .inr hc)) c hcc
  | .node n js :: is =>
    simp only [itemsConsts, List.mem_append] at hcc
    rcases hcc with hcc | hcc
    · have hmem := hget _ (hm (.node n js) (by simp))
      simp only [itemConsts] at hcc
      have hsub' : ∀ c ∈ dartBlock x pre (.node n js), c ∈ L.classes :=
        fun c hc => hsub c (by simp only [dartBlocks, List.mem_append]; exact .inl hc)
      simp only [dartBlock] at hsub'
      obtain ⟨p, e1, e2⟩ := get_items x L h js (pre ++ x.pascal n) (path ++ [n]) (hsub' _ (by simp)) js
        (fun _ h => h) (fun c hc => hsub' c (by simp [hc])) c hcc
      refine ⟨n :: p, by simp [e1], ?_⟩
      simp only [List.cons_append, List.map_cons, DartLibrary.get, hcls, Option.bind_some]
      simp only [itemName] at hmem
      rw [hmem]
      simpa [dartMember] using e2
    · exact get_items x L h all pre path hc is (fun j hj => hm j (by simp [hj]))
        (fun c hc => hsub c (by simp only [dartBlocks, List.mem_append]; exact .inr hc)) c hcc
termination_by sizeOf is

/-- Every constant of the schema can be reached by its path. -/
theorem eval_consts (x : Ext) (S : List ASTNode) (h : (dartConsts x S).Distinct) (c : SchemaConst)
    (hc : c ∈ schemaConsts S) :
    (dartConsts x S).eval ((c.path ++ [c.name]).map x.camel) = some (printed x c.value) := by
  simp only [schemaConsts, List.mem_flatMap] at hc
  obtain ⟨d, hd, hc⟩ := hc
  cases d with
  | const n =>
    simp only [declConsts] at hc
    have hb : ∀ c ∈ dartBlock x "" (.node n.id n.items), c ∈ (dartConsts x S).classes := by
      intro c hc
      simp only [dartConsts, List.mem_flatMap]
      exact ⟨_, hd, hc⟩
    simp only [dartBlock, String.empty_append] at hb
    obtain ⟨p, e1, e2⟩ := get_items x _ h n.items (x.pascal n.id) [n.id] (hb _ (by simp)) n.items
      (fun _ h => h) (fun c hc => hb c (by simp [hc])) c hc
    have hv := find_nodup (Prod.fst) _ h.1 (x.camel n.id, "_" ++ x.pascal n.id) (by
      simp only [dartConsts, List.mem_flatMap]
      exact ⟨_, hd, by simp⟩)
    simp only [e1, List.cons_append, List.map_cons, DartLibrary.eval, hv]
    exact e2
  | _ => simp [declConsts] at hc

/-! ### From conditions on lists of constants and blocks -/

mutual
theorem dartItem_of (x : Ext) (path : List String) (i : ConstItem) (hl : LegalConstItem i)
    (hb : ∀ p ∈ itemBlocks path i, ∀ n ∈ p.getLast?, IsIdent (x.camel n).toList ∧ Wordy (x.pascal n))
    (hc : ∀ c ∈ itemConsts path i, IsIdent (x.camel c.name).toList ∧ Printable x c.value) : DartItem x i := by
  match i with
  | .value n t v =>
    cases hl with
    | value _ _ _ h1 h2 h3 =>
      have := hc ⟨path, n, t, v.literal⟩ (by simp [itemConsts])
      exact .value n t v this.1 h2.named this.2
  | .node n is =>
    cases hl with
    | node _ _ h1 h2 =>
      have h3 := hb (path ++ [n]) (by simp [itemBlocks]) n (by simp)
      exact .node n is h3.1 h3.2 (dartItems_of x (path ++ [n]) is h2
        (fun p hp => hb p (by simp [itemBlocks, hp])) (fun c h => hc c (by simpa [itemConsts] using h)))
theorem dartItems_of (x : Ext) (path : List String) (is : List ConstItem) (hl : ∀ i ∈ is, LegalConstItem i)
    (hb : ∀ p ∈ itemsBlocks path is, ∀ n ∈ p.getLast?, IsIdent (x.camel n).toList ∧ Wordy (x.pascal n))
    (hc : ∀ c ∈ itemsConsts path is, IsIdent (x.camel c.name).toList ∧ Printable x c.value) :
    ∀ i ∈ is, DartItem x i := by
  match is with
  | [] => simp
  | i :: is =>
    intro j hj
    rw [List.mem_cons] at hj
    rcases hj with rfl | hj
    · exact dartItem_of x path j (hl j (by simp)) (fun p hp => hb p (by simp [itemsBlocks, hp]))
        (fun c h => hc c (by simp [itemsConsts, h]))
    · exact dartItems_of x path is (fun k hk => hl k (by simp [hk])) (fun p hp => hb p (by simp [itemsBlocks, hp]))
        (fun c h => hc c (by simp [itemsConsts, h])) j hj
end

mutual
theorem dartStrings_of (path : List String) (i : ConstItem)
    (hc : ∀ c ∈ itemConsts path i, ∀ s, c.value = .str s → dartString s = some s) : DartStrings i := by
  match i with
  | .value n t v => exact .value n t v (hc ⟨path, n, t, v.literal⟩ (by simp [itemConsts]))
  | .node n is =>
    exact .node n is (dartStringss_of (path ++ [n]) is (fun c h => hc c (by simpa [itemConsts] using h)))
theorem dartStringss_of (path : List String) (is : List ConstItem)
    (hc : ∀ c ∈ itemsConsts path is, ∀ s, c.value = .str s → dartString s = some s) : ∀ i ∈ is, DartStrings i := by
  match is with
  | [] => simp
  | i :: is =>
    intro j hj
    rw [List.mem_cons] at hj
    rcases hj with rfl | hj
    · exact dartStrings_of path j (fun c h => hc c (by simp [itemsConsts, h]))
    · exact dartStringss_of path is (fun c h => hc c (by simp [itemsConsts, h])) j hj
end

mutual
theorem printableItem_of (x : Ext) (path : List String) (i : ConstItem) (hl : LegalConstItem i)
    (hc : ∀ c ∈ itemConsts path i, Printable x c.value) : PrintableItem x i := by
  match i with
  | .value n t v =>
    cases hl with
    | value _ _ _ h1 h2 h3 => exact .value n t v h1.1 h2.named (hc ⟨path, n, t, v.literal⟩ (by simp [itemConsts]))
  | .node n is =>
    cases hl with
    | node _ _ h1 h2 =>
      exact .node n is h1.1 (printableItems_of x (path ++ [n]) is h2 (fun c h => hc c (by simpa [itemConsts] using h)))
theorem printableItems_of (x : Ext) (path : List String) (is : List ConstItem) (hl : ∀ i ∈ is, LegalConstItem i)
    (hc : ∀ c ∈ itemsConsts path is, Printable x c.value) : ∀ i ∈ is, PrintableItem x i := by
  match is with
  | [] => simp
  | i :: is =>
    intro j hj
    rw [List.mem_cons] at hj
    rcases hj with rfl | hj
    · exact printableItem_of x path j (hl j (by simp)) (fun c h => hc c (by simp [itemsConsts, h]))
    · exact printableItems_of x path is (fun k hk => hl k (by simp [hk])) (fun c h => hc c (by simp [itemsConsts, h])) j hj
end

theorem printableDecl_of (x : Ext) (S : List ASTNode) (hl : ∀ d ∈ S, LegalDecl d)
    (hc : ∀ c ∈ schemaConsts S, Printable x c.value) : ∀ d ∈ S, PrintableDecl x d := by
  intro d hd
  have h1 := hl d hd
  cases d with
  | const n =>
    exact ⟨h1.1.1, printableItems_of x [n.id] n.items h1.2 (fun c h => hc c (by
      simp only [schemaConsts, List.mem_flatMap]
      exact ⟨_, hd, h⟩))⟩
  | _ => trivial

theorem dartDecl_of (x : Ext) (S : List ASTNode) (hl : ∀ d ∈ S, LegalDecl d)
    (hb : ∀ p ∈ schemaBlocks S, ∀ n ∈ p.getLast?, IsIdent (x.camel n).toList ∧ Wordy (x.pascal n))
    (hc : ∀ c ∈ schemaConsts S, IsIdent (x.camel c.name).toList ∧ Printable x c.value) : ∀ d ∈ S, DartDecl x d := by
  intro d hd
  have h1 := hl d hd
  cases d with
  | const n =>
    refine dartItem_of x [] (.node n.id n.items) (.node _ _ h1.1 h1.2) (fun p hp => hb p ?_) (fun c h => hc c ?_)
    · simp only [schemaBlocks, List.mem_flatMap]
      exact ⟨_, hd, hp⟩
    · simp only [schemaConsts, List.mem_flatMap]
      exact ⟨_, hd, h⟩
  | _ => trivial

theorem dartStringsDecl_of (S : List ASTNode)
    (hc : ∀ c ∈ schemaConsts S, ∀ s, c.value = .str s → dartString s = some s) : ∀ d ∈ S, DartStringsDecl d := by
  intro d hd
  cases d with
  | const n =>
    exact dartStringss_of [n.id] n.items (fun c h => hc c (by
      simp only [schemaConsts, List.mem_flatMap]
      exact ⟨_, hd, h⟩))
  | _ => trivial

/-! ### Class names -/

/-- Pascal-cased names of a path, run together. -/
def pathWord (x : Ext) (p : List String) : String := p.foldl (fun a n => a ++ x.pascal n) ""

theorem pathWord_snoc (x : Ext) (p : List String) (n : String) : pathWord x (p ++ [n]) = pathWord x p ++ x.pascal n := by
  simp [pathWord]

mutual
theorem dartBlock_names (x : Ext) (path : List String) (i : ConstItem) :
    (dartBlock x (pathWord x path) i).map (·.name) = (itemBlocks path i).map (fun p => "_" ++ pathWord x p) := by
  match i with
  | .value n t v => simp [dartBlock, itemBlocks]
  | .node n is =>
    have := dartBlocks_names x (path ++ [n]) is
    simp only [dartBlock, itemBlocks, List.map_cons, ← pathWord_snoc]
    rw [this]
theorem dartBlocks_names (x : Ext) (path : List String) (is : List ConstItem) :
    (dartBlocks x (pathWord x path) is).map (·.name) = (itemsBlocks path is).map (fun p => "_" ++ pathWord x p) := by
  match is with
  | [] => simp [dartBlocks, itemsBlocks]
  | i :: is => simp [dartBlocks, itemsBlocks, dartBlock_names x path i, dartBlocks_names x path is]
end

theorem dartConsts_names (x : Ext) (S : List ASTNode) :
    (dartConsts x S).classes.map (·.name) = (schemaBlocks S).map (fun p => "_" ++ pathWord x p) := by
  simp only [dartConsts, schemaBlocks]
  induction S with
  | nil => rfl
  | cons d S ih =>
    simp only [List.flatMap_cons, List.map_append, ih]
    congr 1
    cases d with
    | const n => exact dartBlock_names x [] (.node n.id n.items)
    | _ => rfl

theorem cap_split (c : Char) (r a : List Char) (d : Char) (r' b : List Char)
    (hr : ∀ e ∈ r, e.isUpper = false) (hr' : ∀ e ∈ r', e.isUpper = false)
    (ha : ∀ e ∈ a.head?, e.isUpper = true) (hb : ∀ e ∈ b.head?, e.isUpper = true)
    (h : c :: r ++ a = d :: r' ++ b) : c :: r = d :: r' ∧ a = b := by
  simp only [List.cons_append, List.cons.injEq] at h
  obtain ⟨rfl, h⟩ := h
  have : r = r' ∧ a = b := by
    induction r generalizing r' with
    | nil =>
      cases r' with
      | nil => exact ⟨rfl, h⟩
      | cons e r' =>
        simp only [List.nil_append] at h
        subst h
        have h1 := ha e (by simp)
        have h2 := hr' e (by simp)
        simp [h1] at h2
    | cons e r ih =>
      cases r' with
      | nil =>
        simp only [List.nil_append] at h
        subst h
        have h1 := hb e (by simp)
        have h2 := hr e (by simp)
        simp [h1] at h2
      | cons e' r' =>
        simp only [List.cons_append, List.cons.injEq] at h
        obtain ⟨rfl, h⟩ := h
        have := ih r' (fun f hf => hr f (by simp [hf])) (fun f hf => hr' f (by simp [hf])) h
        exact ⟨by rw [this.1], this.2⟩
  exact ⟨by rw [this.1], this.2⟩

theorem pathWord_toList (x : Ext) (p : List String) : (pathWord x p).toList = p.flatMap (fun n => (x.pascal n).toList) := by
  have : ∀ a, (p.foldl (fun a n => a ++ x.pascal n) a).toList = a.toList ++ p.flatMap (fun n => (x.pascal n).toList) := by
    induction p with
    | nil => simp
    | cons n p ih => intro a; simp [ih]
  simpa [pathWord] using this ""

theorem flat_head (x : Ext) (p : List String) (h : ∀ n ∈ p, IsCapWord (x.pascal n).toList) :
    ∀ e ∈ (p.flatMap (fun n => (x.pascal n).toList)).head?, e.isUpper = true := by
  cases p with
  | nil => simp
  | cons n p =>
    obtain ⟨c, r, e1, e2, e3⟩ := h n (by simp)
    simp [e1, e2]

theorem flat_inj (x : Ext) (p q : List String) (hp : ∀ n ∈ p, IsCapWord (x.pascal n).toList)
    (hq : ∀ n ∈ q, IsCapWord (x.pascal n).toList)
    (hi : ∀ m ∈ p, ∀ n ∈ q, x.pascal m = x.pascal n → m = n)
    (h : p.flatMap (fun n => (x.pascal n).toList) = q.flatMap (fun n => (x.pascal n).toList)) : p = q := by
  induction p generalizing q with
  | nil =>
    cases q with
    | nil => rfl
    | cons n q =>
      obtain ⟨c, r, e1, e2, e3⟩ := hq n (by simp)
      simp [e1] at h
  | cons m p ih =>
    cases q with
    | nil =>
      obtain ⟨c, r, e1, e2, e3⟩ := hp m (by simp)
      simp [e1] at h
    | cons n q =>
      obtain ⟨c, r, e1, e2, e3⟩ := hp m (by simp)
      obtain ⟨c', r', e1', e2', e3'⟩ := hq n (by simp)
      simp only [List.flatMap_cons, e1, e1'] at h
      have hs := cap_split c r _ c' r' _ e3 e3' (flat_head x p (fun n hn => hp n (by simp [hn])))
        (flat_head x q (fun n hn => hq n (by simp [hn]))) h
      have hmn : m = n := hi m (by simp) n (by simp) (String.toList_inj.mp (by rw [e1, e1', hs.1]))
      rw [hmn, ih q (fun n hn => hp n (by simp [hn])) (fun n hn => hq n (by simp [hn]))
        (fun a ha b hb => hi a (by simp [ha]) b (by simp [hb])) hs.2]

theorem nodup_map {α β : Type} (f : α → β) (l : List α) (hf : ∀ a ∈ l, ∀ b ∈ l, f a = f b → a = b) (h : l.Nodup) :
    (l.map f).Nodup := by
  induction l with
  | nil => simp
  | cons a l ih =>
    simp only [List.nodup_cons, List.map_cons] at *
    refine ⟨?_, ih (fun b hb c hc => hf b (by simp [hb]) c (by simp [hc])) h.2⟩
    intro hm
    rw [List.mem_map] at hm
    obtain ⟨b, hb, e⟩ := hm
    exact h.1 (hf a (by simp) b (by simp [hb]) e.symm ▸ hb)

end TPB.Spec
