/- How the constants section of generated Rust code is read. -/
import Verif.Proofs.Reader
import Verif.Spec.Consts
import Verif.Model.RustGen
import Verif.Model.DartGen
namespace TPB.Spec

/-! ### Literals -/

/-- The pieces of the printed form of a literal. -/
def litToks (x : Ext) : Literal → List Tok
  | .str s => [.str s]
  | .int (.ofNat n) => [.word (toString n)]
  | .int (.negSucc n) => [.sym '-', .word (toString (n + 1))]
  | .num t => [.word (x.fmtF64 t)]
  | .bool b => [.word (toString b)]

theorem piece_nat (n : Nat) : Piece (toString n).toList [.word (toString n)] := by
  have e : (toString n).toList = Nat.toDigits 10 n := by simp [Nat.toString_eq_ofList_toDigits]
  have h := toDigits_decimal n
  rw [← e] at h
  match hs : (toString n).toList with
  | [] => rw [hs] at h; exact absurd rfl h.1
  | c :: cs =>
    rw [hs] at h
    have := piece_number c cs (h.2 c (by simp)) (fun d hd => .inl (h.2 d (by simp [hd])))
    rwa [← hs, String.ofList_toList, hs] at this

theorem fraction_chars (cs : List Char) (h : IsFraction cs) : ∃ c ds, cs = c :: ds ∧ IsDigit c ∧
    ∀ d ∈ ds, IsDigit d ∨ d = '.' := by
  obtain ⟨⟨h1, h2⟩, fs, h3, h4⟩ := h
  have e := List.takeWhile_append_dropWhile (p := (· ≠ '.')) (l := cs)
  match hs : cs.takeWhile (· ≠ '.') with
  | [] => exact absurd hs h1
  | c :: ds =>
    rw [hs] at h2
    rw [hs, h3] at e
    refine ⟨c, ds ++ '.' :: fs, by rw [← e]; rfl, h2 c (by simp), fun d hd => ?_⟩
    simp only [List.mem_append, List.mem_cons] at hd
    rcases hd with hd | hd | hd
    · exact .inl (h2 d (by simp [hd]))
    · exact .inr hd
    · exact .inl (h4.2 d hd)

theorem piece_numText (s : String) (h : IsNumText s) : Piece s.toList [.word s] := by
  rcases h with h | h
  · match hs : s.toList with
    | [] => rw [hs] at h; exact absurd rfl h.1
    | c :: cs =>
      rw [hs] at h
      have := piece_number c cs (h.2 c (by simp)) (fun d hd => .inl (h.2 d (by simp [hd])))
      rwa [← hs, String.ofList_toList, hs] at this
  · obtain ⟨c, ds, e, h1, h2⟩ := fraction_chars _ h
    have := piece_number c ds h1 h2
    rwa [← e, String.ofList_toList] at this

theorem piece_bool (b : Bool) : Piece (toString b).toList [.word (toString b)] :=
  piece_ident _ (by cases b <;> decide)

theorem piece_lit (x : Ext) (v : ConstValue) (h : Printable x v.literal) :
    Piece (RustGen.constValue x v).toList (litToks x v.literal) := by
  unfold RustGen.constValue
  match hl : v.literal with
  | .str s =>
    rw [hl] at h
    have := (runs_string s h.1 h.2).toPiece
    simpa [litToks, String.toList_append] using this
  | .int (.ofNat n) => exact piece_nat n
  | .int (.negSucc n) =>
    have := (show Runs .idle ['-'] [.sym '-'] .idle by decide).piece (piece_nat (n + 1))
    have e : (toString (Int.negSucc n)).toList = ['-'] ++ (toString (n + 1)).toList := by
      show ("-" ++ toString (n + 1)).toList = _
      simp [String.toList_append]
    simp only [litToks, e]
    exact this
  | .num t => rw [hl] at h; exact piece_numText _ h
  | .bool b => exact piece_bool b

theorem dart_constValue (x : Ext) (v : ConstValue) : DartGen.constValue x v = RustGen.constValue x v := rfl

theorem isDecimal_toString (n : Nat) : IsDecimal (toString n).toList ∧ decimal (toString n).toList = n := by
  have e : (toString n).toList = Nat.toDigits 10 n := by simp [Nat.toString_eq_ofList_toDigits]
  rw [e]
  exact ⟨toDigits_decimal n, decimal_toDigits n⟩

theorem digit_not_t (s : String) (h : IsDecimal s.toList ∨ IsFraction s.toList) : s ≠ "true" ∧ s ≠ "false" := by
  have hc : ∃ c ds, s.toList = c :: ds ∧ IsDigit c := by
    rcases h with h | h
    · match hs : s.toList with
      | [] => rw [hs] at h; exact absurd rfl h.1
      | c :: cs => rw [hs] at h; exact ⟨c, cs, rfl, h.2 c (by simp)⟩
    · obtain ⟨c, ds, e, h1, _⟩ := fraction_chars _ h
      exact ⟨c, ds, e, h1⟩
  obtain ⟨c, ds, e, hd⟩ := hc
  constructor <;> (rintro rfl; simp at e; rw [← e.1] at hd; exact absurd hd (by decide))

theorem readLit_litToks (x : Ext) (dec : String → Option String) (l : Literal) (h : Printable x l)
    (hs : ∀ s, l = .str s → dec s = some s) : readLit dec (litToks x l) = some (printed x l) := by
  match l with
  | .str s => simp [litToks, readLit, hs s rfl, printed]
  | .int (.ofNat n) =>
    have := isDecimal_toString n
    have hb := digit_not_t _ (.inl this.1)
    simp only [litToks, readLit, wordLit, hb.1, hb.2, this.1, this.2, printed, if_true, if_false]
    rfl
  | .int (.negSucc n) =>
    have := isDecimal_toString (n + 1)
    simp only [litToks, readLit, this, if_true, printed]
    rfl
  | .num t =>
    have hb := digit_not_t _ h
    rcases h with h | h
    · simp [litToks, readLit, wordLit, hb, h, printed]
    · by_cases hd : IsDecimal (x.fmtF64 t).toList
      · simp [litToks, readLit, wordLit, hb, hd, printed]
      · simp [litToks, readLit, wordLit, hb, h, hd, printed]
  | .bool true => rfl
  | .bool false => rfl

theorem litToks_inner (x : Ext) (l : Literal) : ∀ t ∈ litToks x l, Inner t ∧ t ≠ .sym '=' ∧ t ≠ .sym '(' := by
  match l with
  | .str s => simp [litToks, Inner, isEnd]
  | .int (.ofNat n) => simp [litToks, Inner, isEnd]
  | .int (.negSucc n) => simp [litToks, Inner, isEnd]
  | .num t => simp [litToks, Inner, isEnd]
  | .bool b => simp [litToks, Inner, isEnd]

/-! ### Types -/

theorem LegalType.named {t : TypeId} (h : LegalType t) : NamedType t := by
  induction h with
  | name n hn =>
    unfold typeOfName
    cases hl : List.lookup n builtinTypes with
    | none => exact .other n hn.1
    | some t =>
      simp only [builtinTypes, List.lookup] at hl
      repeat' split at hl
      all_goals first
        | (simp only [Option.some.injEq] at hl; subst hl; first
          | exact .integer _ _ _ (by decide)
          | exact .number _ _ (by decide)
          | exact .bool _ (by decide)
          | exact .char _ (by decide))
        | simp at hl
  | generic n as hn _ ih => exact .generic n as hn.1 ih

theorem piece_join (f : α → String) (g : α → List Tok) (as : List α) (h : ∀ a ∈ as, Piece (f a).toList (g a)) :
    Piece (joinStr ", " (as.map f)).toList (joinToks (as.map g)) := by
  match as with
  | [] => exact (Runs.nil .idle).toPiece
  | [a] => exact h a (by simp)
  | a :: b :: r =>
    have ih := piece_join f g (b :: r) (fun c hc => h c (by simp [hc]))
    have h1 := (show Runs .idle [',', ' '] [.sym ','] .idle by decide).piece ih
    have h2 := (h a (by simp)).piece (by decide) h1
    simpa [joinStr, joinToks, String.toList_append] using h2

theorem piece_type (t : TypeId) (h : NamedType t) : Piece (RustGen.typeId t).toList (typeToks t) := by
  induction h with
  | integer id n s h => simpa [RustGen.typeId, typeToks] using piece_ident id h
  | number id n h => simpa [RustGen.typeId, typeToks] using piece_ident id h
  | bool id h => simpa [RustGen.typeId, typeToks] using piece_ident id h
  | char id h => simpa [RustGen.typeId, typeToks] using piece_ident id h
  | other id h => simpa [RustGen.typeId, typeToks] using piece_ident id h
  | generic id as h _ ih =>
    have h1 := piece_join RustGen.typeId typeToks as ih
    have h2 : Piece ['<'] [.sym '<'] := (show Runs .idle ['<'] [.sym '<'] .idle by decide).toPiece
    have h3 := h1.piece (show isBreak '>' by decide) (show Runs .idle ['>'] [.sym '>'] .idle by decide).toPiece
    have h4 := (show Runs .idle ['<'] [.sym '<'] .idle by decide).piece h3
    have h5 := (piece_ident id h).piece (show isBreak '<' by decide) h4
    simpa [RustGen.typeId, typeToks, String.toList_append, List.append_assoc] using h5

theorem joinToks_all (p : Tok → Prop) (hc : p (.sym ',')) (ts : List (List Tok)) (h : ∀ t ∈ ts, ∀ u ∈ t, p u) :
    ∀ u ∈ joinToks ts, p u := by
  match ts with
  | [] => simp [joinToks]
  | [t] => exact h t (by simp)
  | t :: v :: r =>
    intro u hu
    simp only [joinToks, List.mem_append, List.mem_cons] at hu
    rcases hu with hu | hu | hu
    · exact h t (by simp) u hu
    · exact hu ▸ hc
    · exact joinToks_all p hc (v :: r) (fun t ht => h t (by simp at ht ⊢; exact .inr ht)) u hu

theorem typeToks_inner (t : TypeId) (h : NamedType t) : ∀ u ∈ typeToks t, Inner u ∧ u ≠ .sym '=' := by
  induction h with
  | integer id n s h => simp [typeToks, Inner, isEnd]
  | number id n h => simp [typeToks, Inner, isEnd]
  | bool id h => simp [typeToks, Inner, isEnd]
  | char id h => simp [typeToks, Inner, isEnd]
  | other id h => simp [typeToks, Inner, isEnd]
  | generic id as h _ ih =>
    intro u hu
    simp only [typeToks, List.mem_cons, List.mem_append, List.not_mem_nil, or_false] at hu
    rcases hu with hu | hu | hu | hu
    · subst hu; simp [Inner, isEnd]
    · subst hu; decide
    · refine joinToks_all (fun u => Inner u ∧ u ≠ .sym '=') (by decide) _ (fun t ht => ?_) u hu
      simp only [List.mem_map] at ht
      obtain ⟨a, ha, rfl⟩ := ht
      exact ih a ha
    · subst hu; decide

/-! ### The Rust section -/

/-- The pieces of the type of a constant. -/
def constTypeToks (t : TypeId) : List Tok :=
  match isAddress t with
  | some a => runtimeToks a
  | none => typeToks t

/-- The pieces of the value of a constant. -/
def constValueToks (x : Ext) (t : TypeId) (v : ConstValue) : List Tok :=
  match isAddress t with
  | some a => runtimeToks a ++ .sym '(' :: (litToks x v.literal ++ [.sym ')'])
  | none => litToks x v.literal

theorem piece_runtime (n : String) (h : IsIdent n.toList) :
    Piece ("tech_paws_runtime::".toList ++ n.toList) (runtimeToks n) := by
  have h1 : Runs .idle "tech_paws_runtime::".toList [.word "tech_paws_runtime", .sym ':', .sym ':'] .idle := by
    decide
  exact h1.piece (piece_ident n h)

theorem constParts_cases (x : Ext) (t : TypeId) (v : ConstValue) :
    (∃ a, isAddress t = some a ∧ IsIdent a.toList ∧
      RustGen.constParts x t v = ("tech_paws_runtime::" ++ a, "tech_paws_runtime::" ++ a ++ "(" ++ RustGen.constValue x v ++ ")")) ∨
    (isAddress t = none ∧ RustGen.constParts x t v = (RustGen.typeId t, RustGen.constValue x v)) := by
  cases t with
  | other id =>
    by_cases h1 : id = "GroupAddress"
    · subst h1
      refine .inl ⟨"GroupAddress", by simp [isAddress], by decide, ?_⟩
      have e1 : "tech_paws_runtime::" ++ "GroupAddress" = "tech_paws_runtime::GroupAddress" := by decide
      have e2 : "tech_paws_runtime::" ++ "GroupAddress" ++ "(" = "tech_paws_runtime::GroupAddress(" := by decide
      rw [RustGen.constParts, if_pos rfl, e2, e1]
    · by_cases h2 : id = "CommandsBufferAddress"
      · subst h2
        refine .inl ⟨"CommandsBufferAddress", by simp [isAddress], by decide, ?_⟩
        have e1 : "tech_paws_runtime::" ++ "CommandsBufferAddress" = "tech_paws_runtime::CommandsBufferAddress" := by
          decide
        have e2 : "tech_paws_runtime::" ++ "CommandsBufferAddress" ++ "("
            = "tech_paws_runtime::CommandsBufferAddress(" := by decide
        rw [RustGen.constParts, if_neg (by decide), if_pos rfl, e2, e1]
      · exact .inr ⟨by simp [isAddress, h1, h2], by simp [RustGen.constParts, h1, h2]⟩
  | _ => exact .inr ⟨rfl, rfl⟩

theorem piece_constParts (x : Ext) (t : TypeId) (v : ConstValue) (ht : NamedType t) (hv : Printable x v.literal) :
    Piece (RustGen.constParts x t v).1.toList (constTypeToks t) ∧
      Piece (RustGen.constParts x t v).2.toList (constValueToks x t v) := by
  rcases constParts_cases x t v with ⟨a, h1, h2, h3⟩ | ⟨h1, h3⟩
  · rw [h3]
    constructor
    · simpa [constTypeToks, h1, String.toList_append] using piece_runtime a h2
    · have p1 := (piece_lit x v hv).piece (show isBreak ')' by decide)
        (show Runs .idle [')'] [.sym ')'] .idle by decide).toPiece
      have p2 := (show Runs .idle ['('] [.sym '('] .idle by decide).piece p1
      have p3 := (piece_runtime a h2).piece (show isBreak '(' by decide) p2
      simpa [constValueToks, h1, String.toList_append, List.append_assoc] using p3
  · rw [h3]
    simp only [constTypeToks, constValueToks, h1]
    exact ⟨piece_type t ht, piece_lit x v hv⟩

theorem constTypeToks_inner (t : TypeId) (h : NamedType t) : ∀ u ∈ constTypeToks t, Inner u ∧ u ≠ .sym '=' := by
  unfold constTypeToks
  cases hA : isAddress t with
  | some a => simp [runtimeToks, Inner, isEnd]
  | none => exact typeToks_inner t h

theorem constValueToks_inner (x : Ext) (t : TypeId) (v : ConstValue) : ∀ u ∈ constValueToks x t v, Inner u := by
  unfold constValueToks
  cases hA : isAddress t with
  | some a =>
    intro u hu
    simp only [runtimeToks, List.mem_append, List.mem_cons, List.not_mem_nil, or_false] at hu
    rcases hu with (hu | hu | hu | hu) | hu | hu | hu
    · subst hu; decide
    · subst hu; decide
    · subst hu; decide
    · subst hu; simp [Inner, isEnd]
    · subst hu; decide
    · exact (litToks_inner x _ u hu).1
    · subst hu; decide
  | none => exact fun u hu => (litToks_inner x _ u hu).1

/-- The statement of a constant. -/
def rustConstStmt (x : Ext) (n : String) (t : TypeId) (v : ConstValue) : Stmt :=
  (.word "pub" :: .word "const" :: .word n :: .sym ':' :: (constTypeToks t ++ .sym '=' :: constValueToks x t v), ';')

mutual
def rustItemStmts (x : Ext) : ConstItem → List Stmt
  | .value n t v => [rustConstStmt x n t v]
  | .node n is => ([.word "pub", .word "mod", .word n], '{') :: (rustItemsStmts x is ++ [([], '}')])
def rustItemsStmts (x : Ext) : List ConstItem → List Stmt
  | [] => []
  | i :: is => rustItemStmts x i ++ rustItemsStmts x is
end

theorem emits_rustConst (x : Ext) (k : Nat) (n : String) (t : TypeId) (v : ConstValue) (hn : IsIdent n.toList)
    (ht : NamedType t) (hv : Printable x v.literal) :
    Emits (linesText 4 [(k, "pub const " ++ n ++ ": " ++ (RustGen.constParts x t v).1 ++ " = "
      ++ (RustGen.constParts x t v).2 ++ ";")]).toList [rustConstStmt x n t v] := by
  obtain ⟨p1, p2⟩ := piece_constParts x t v ht hv
  refine emits_line 4 k _ _ ';' ?_ ?_ (by decide)
  · have a1 : Runs .idle "pub const ".toList [.word "pub", .word "const"] .idle := by decide
    have a2 : Runs .idle [':', ' '] [.sym ':'] .idle := by decide
    have a3 : Runs .idle [' ', '=', ' '] [.sym '='] .idle := by decide
    have a4 : Runs .idle [';'] [.sym ';'] .idle := by decide
    have b1 := p2.runs (show isBreak ';' by decide) a4
    have b2 := p1.runs (show isBreak ' ' by decide) (a3.append b1)
    have b3 := (piece_ident n hn).runs (show isBreak ':' by decide) (a2.append b2)
    have b4 := a1.append b3
    simpa [String.toList_append, List.append_assoc] using b4
  · intro u hu
    simp only [List.mem_cons, List.mem_append] at hu
    rcases hu with hu | hu | hu | hu | hu | hu | hu
    · subst hu; decide
    · subst hu; decide
    · subst hu; simp [Inner, isEnd]
    · subst hu; decide
    · exact (constTypeToks_inner t ht u hu).1
    · subst hu; decide
    · exact constValueToks_inner x t v u hu

/-- A writer at a blank line or not. -/
theorem blank_wAt (b : Bool) (r : String) : ∃ s, (if b then (wAt 4 r).writeln "" else wAt 4 r) = wAt 4 (r ++ s) ∧
    Emits s.toList [] := by
  cases b
  · exact ⟨"", by simp, Emits.nil⟩
  · exact ⟨_, writeln_wAt 4 r "", emits_blank 4⟩

mutual
theorem emits_rustBlock (x : Ext) (tab : Nat) (n : String) (items : List ConstItem) (hn : IsIdent n.toList)
    (h : ∀ i ∈ items, PrintableItem x i) :
    Emits (RustGen.constBlock x tab n items).toList (rustItemStmts x (.node n items)) := by
  rw [RustGen.constBlock, default_eq]
  simp only [writelnTab_wAt]
  obtain ⟨s, e, hs⟩ := emits_rustItems x tab true false items h ("" ++ linesText 4 [(tab, "pub mod " ++ n ++ " {")])
  rw [e]
  simp only [writelnTab_wAt, show_wAt, String.empty_append, String.toList_append, rustItemStmts]
  have h1 : Emits (linesText 4 [(tab, "pub mod " ++ n ++ " {")]).toList [([.word "pub", .word "mod", .word n], '{')] := by
    refine emits_line 4 tab _ _ '{' ?_ ?_ (by decide)
    · have a1 : Runs .idle "pub mod ".toList [.word "pub", .word "mod"] .idle := by decide
      have a2 : Runs .idle [' ', '{'] [.sym '{'] .idle := by decide
      have b := a1.append ((piece_ident n hn).runs (show isBreak ' ' by decide) a2)
      simpa [String.toList_append, List.append_assoc] using b
    · intro u hu
      simp only [List.mem_cons, List.not_mem_nil, or_false] at hu
      rcases hu with hu | hu | hu
      · subst hu; decide
      · subst hu; decide
      · subst hu; simp [Inner, isEnd]
  have h2 : Emits (linesText 4 [(tab, "}")]).toList [([], '}')] :=
    emits_line 4 tab _ [] '}' (by decide) (by simp) (by decide)
  have h3 := (h1.append hs).append h2
  simpa [List.append_assoc, String.toList_append] using h3
termination_by (sizeOf items, 1)

theorem emits_rustItems (x : Ext) (tab : Nat) (f v : Bool) (items : List ConstItem)
    (h : ∀ i ∈ items, PrintableItem x i) (r : String) :
    ∃ s, RustGen.constItemsLoop x tab f v (wAt 4 r) items = wAt 4 (r ++ s) ∧
      Emits s.toList (rustItemsStmts x items) := by
  match items with
  | [] => exact ⟨"", by simp [RustGen.constItemsLoop], Emits.nil⟩
  | .value id t val :: rest =>
    rw [RustGen.constItemsLoop]
    cases h (.value id t val) (by simp) with
    | value _ _ _ hn ht hv =>
      obtain ⟨s1, e1, h1⟩ := blank_wAt (!v && !f) r
      rw [e1]
      simp only [writelnTab_wAt]
      obtain ⟨s2, e2, h2⟩ := emits_rustItems x tab false true rest (fun i hi => h i (by simp [hi]))
        (r ++ s1 ++ linesText 4 [(tab + 1, "pub const " ++ id ++ ": " ++ (RustGen.constParts x t val).1 ++ " = "
          ++ (RustGen.constParts x t val).2 ++ ";")])
      rw [e2]
      refine ⟨s1 ++ linesText 4 [(tab + 1, "pub const " ++ id ++ ": " ++ (RustGen.constParts x t val).1 ++ " = "
          ++ (RustGen.constParts x t val).2 ++ ";")] ++ s2, by simp [String.append_assoc], ?_⟩
      have := (h1.append (emits_rustConst x (tab + 1) id t val hn ht hv)).append h2
      rw [String.toList_append, String.toList_append]
      simpa [rustItemsStmts, rustItemStmts] using this
  | .node id is :: rest =>
    rw [RustGen.constItemsLoop]
    cases h (.node id is) (by simp) with
    | node _ _ hn his =>
      obtain ⟨s1, e1, h1⟩ := blank_wAt (v && !f) r
      rw [e1]
      simp only [write_wAt]
      have hb := emits_rustBlock x (tab + 1) id is hn his
      obtain ⟨s2, e2, h2⟩ := emits_rustItems x tab false false rest (fun i hi => h i (by simp [hi]))
        (r ++ s1 ++ RustGen.constBlock x (tab + 1) id is)
      rw [e2]
      refine ⟨s1 ++ RustGen.constBlock x (tab + 1) id is ++ s2, by simp [String.append_assoc], ?_⟩
      have := (h1.append hb).append h2
      rw [String.toList_append, String.toList_append]
      simpa [rustItemsStmts] using this
termination_by (sizeOf items, 0)
end

/-! ### Reading the statements back -/

theorem takeWhile_stop {α : Type} (p : α → Bool) (a : List α) (b : α) (c : List α) (h : ∀ u ∈ a, p u = true)
    (hb : p b = false) : (a ++ b :: c).takeWhile p = a ∧ (a ++ b :: c).dropWhile p = b :: c := by
  induction a with
  | nil => simp [hb]
  | cons u us ih =>
    have := ih (fun v hv => h v (by simp [hv]))
    have hu := h u (by simp)
    simp [hu, this]

theorem readRustValue_const (x : Ext) (t : TypeId) (v : ConstValue) (hv : Printable x v.literal)
    (hs : ∀ s, v.literal = .str s → rustString s = some s) :
    readRustValue (constValueToks x t v) = some ((isAddress t).map runtimeToks, printed x v.literal) := by
  unfold constValueToks readRustValue
  have hr := readLit_litToks x rustString v.literal hv hs
  cases hA : isAddress t with
  | none => simp [hr]
  | some a =>
    have h1 : readLit rustString (runtimeToks a ++ .sym '(' :: (litToks x v.literal ++ [.sym ')'])) = none := by
      simp [runtimeToks, readLit]
    have h2 := takeWhile_stop (fun u => decide (u ≠ Tok.sym '(')) (runtimeToks a) (.sym '(')
      (litToks x v.literal ++ [.sym ')']) (by simp [runtimeToks]) (by simp)
    simp only [h1]
    simp only [h2.1, h2.2]
    simp [hr]

theorem readRustConst_stmt (x : Ext) (path : List String) (n : String) (t : TypeId) (v : ConstValue)
    (ht : NamedType t) (hv : Printable x v.literal) (hs : ∀ s, v.literal = .str s → rustString s = some s) :
    readRustConst path (rustConstStmt x n t v).1 = some (SchemaConst.rust ⟨path, n, t, printed x v.literal⟩) := by
  have h2 := takeWhile_stop (fun u => decide (u ≠ Tok.sym '=')) (constTypeToks t) (.sym '=')
    (constValueToks x t v) (fun u hu => by simpa using (constTypeToks_inner t ht u hu).2) (by simp)
  simp only [rustConstStmt, readRustConst, and_self, if_true, h2.1, h2.2, readRustValue_const x t v hv hs,
    Option.map_some, Option.some.injEq]
  cases hA : isAddress t <;> simp [SchemaConst.rust, hA, constTypeToks]

mutual
theorem readRust_item (x : Ext) (path : List String) (i : ConstItem) (h : PrintableItem x i)
    (hs : ∀ c ∈ itemConsts path i, ∀ s, c.value = .str s → rustString s = some s) (rest : List Stmt) :
    readRustFrom path (rustItemStmts x i ++ rest)
      = ((itemConsts path i).map (fun c => (c.asPrinted x).rust) ++ ·) <$> readRustFrom path rest := by
  match i with
  | .value n t v =>
    cases h with
    | value _ _ _ hn ht hv =>
      have e : (rustConstStmt x n t v).2 = ';' := rfl
      have := readRustConst_stmt x path n t v ht hv (fun s h => hs ⟨path, n, t, v.literal⟩ (by simp [itemConsts]) s h)
      simp only [rustItemStmts, List.singleton_append]
      rw [show rustConstStmt x n t v = ((rustConstStmt x n t v).1, ';') from rfl, readRustFrom]
      rw [this]
      simp [itemConsts, SchemaConst.asPrinted]
  | .node n is =>
    cases h with
    | node _ _ hn his =>
      have ih := readRust_items x (path ++ [n]) is his (by simpa [itemConsts] using hs) (([], '}') :: rest)
      simp only [rustItemStmts, List.cons_append, List.append_assoc, List.nil_append]
      rw [readRustFrom]
      simp only [if_true, readRustMod, and_self]
      rw [ih, readRustFrom]
      simp [itemConsts]
theorem readRust_items (x : Ext) (path : List String) (is : List ConstItem) (h : ∀ i ∈ is, PrintableItem x i)
    (hs : ∀ c ∈ itemsConsts path is, ∀ s, c.value = .str s → rustString s = some s) (rest : List Stmt) :
    readRustFrom path (rustItemsStmts x is ++ rest)
      = ((itemsConsts path is).map (fun c => (c.asPrinted x).rust) ++ ·) <$> readRustFrom path rest := by
  match is with
  | [] => simp [rustItemsStmts, itemsConsts]
  | i :: is =>
    have h1 := readRust_item x path i (h i (by simp)) (fun c hc => hs c (by simp [itemsConsts, hc]))
      (rustItemsStmts x is ++ rest)
    have h2 := readRust_items x path is (fun j hj => h j (by simp [hj])) (fun c hc => hs c (by simp [itemsConsts, hc])) rest
    simp only [rustItemsStmts, List.append_assoc]
    rw [h1, h2]
    cases readRustFrom path rest <;> simp [itemsConsts]
end

/-! ### The whole section -/

/-- The statements of a declaration. -/
def rustDeclStmts (x : Ext) : ASTNode → List Stmt
  | .const n => rustItemStmts x (.node n.id n.items)
  | _ => []

theorem emits_rustDecls (x : Ext) (S : List ASTNode) (h : ∀ d ∈ S, PrintableDecl x d) (r : String) :
    ∃ s, S.foldl (RustGen.constsItem x) (wAt 4 r) = wAt 4 (r ++ s) ∧ Emits s.toList (S.flatMap (rustDeclStmts x)) := by
  induction S generalizing r with
  | nil => exact ⟨"", by simp, Emits.nil⟩
  | cons d S ih =>
    have hd := h d (by simp)
    have hS : ∀ d ∈ S, PrintableDecl x d := fun e he => h e (by simp [he])
    cases d with
    | const n =>
      obtain ⟨s, e, hs⟩ := ih hS (r ++ linesText 4 [(0, RustGen.constBlock x 0 n.id n.items)])
      refine ⟨linesText 4 [(0, RustGen.constBlock x 0 n.id n.items)] ++ s, ?_, ?_⟩
      · simp only [List.foldl_cons, RustGen.constsItem, writeln_wAt, e, String.append_assoc]
      · have h1 := emits_rustBlock x 0 n.id n.items hd.1 hd.2
        have h2 : Emits (linesText 4 [(0, RustGen.constBlock x 0 n.id n.items)]).toList (rustDeclStmts x (.const n)) := by
          have := h1.append (emits_blank 4)
          simpa [linesText, repeatStr, rustDeclStmts, String.toList_append] using this
        simpa [String.toList_append] using h2.append hs
    | enum n => simpa [RustGen.constsItem, rustDeclStmts] using ih hS r
    | struct n => simpa [RustGen.constsItem, rustDeclStmts] using ih hS r
    | fn n => simpa [RustGen.constsItem, rustDeclStmts] using ih hS r
    | directive n => simpa [RustGen.constsItem, rustDeclStmts] using ih hS r

theorem readRust_decls (x : Ext) (S : List ASTNode) (h : ∀ d ∈ S, PrintableDecl x d)
    (hs : ∀ c ∈ schemaConsts S, ∀ s, c.value = .str s → rustString s = some s) :
    readRustFrom [] (S.flatMap (rustDeclStmts x)) = some ((schemaConsts S).map (fun c => (c.asPrinted x).rust)) := by
  induction S with
  | nil => rfl
  | cons d S ih =>
    have hd := h d (by simp)
    have hS := ih (fun e he => h e (by simp [he])) (fun c hc => hs c (by simp [schemaConsts] at hc ⊢; exact .inr hc))
    cases d with
    | const n =>
      have h1 := readRust_item x [] (.node n.id n.items) (.node _ _ hd.1 hd.2)
        (fun c hc => hs c (by simp [schemaConsts, declConsts]; exact .inl hc)) (S.flatMap (rustDeclStmts x))
      simp only [List.flatMap_cons, rustDeclStmts, h1, hS]
      simp [schemaConsts, declConsts, itemConsts]
    | enum n => simpa [rustDeclStmts, schemaConsts, declConsts] using hS
    | struct n => simpa [rustDeclStmts, schemaConsts, declConsts] using hS
    | fn n => simpa [rustDeclStmts, schemaConsts, declConsts] using hS
    | directive n => simpa [rustDeclStmts, schemaConsts, declConsts] using hS

/-- The constants section of generated Rust code declares the constants of the schema. -/
theorem readRust_consts (x : Ext) (S : List ASTNode) (h : ∀ d ∈ S, PrintableDecl x d)
    (hs : ∀ c ∈ schemaConsts S, ∀ s, c.value = .str s → rustString s = some s) :
    readRust (RustGen.consts x S) = some ((schemaConsts S).map (fun c => (c.asPrinted x).rust)) := by
  obtain ⟨s, e, hem⟩ := emits_rustDecls x S h ""
  unfold RustGen.consts readRust
  rw [default_eq, e, show_wAt, String.empty_append, hem.trim.stmts]
  exact readRust_decls x S h hs

end TPB.Spec
