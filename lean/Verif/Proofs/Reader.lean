/- How texts put together from words, literals and symbols are read by the reader of `Spec/Reader.lean`. -/
import Verif.Spec.Reader
import Verif.Sem.Text
namespace TPB.Spec

/-- Pieces read and state reached after some characters. -/
def run : ScanState → List Char → List Tok × ScanState
  | s, [] => ([], s)
  | s, c :: cs => ((scanStep s c).1 ++ (run (scanStep s c).2 cs).1, (run (scanStep s c).2 cs).2)

theorem run_append (s : ScanState) (a b : List Char) :
    run s (a ++ b) = ((run s a).1 ++ (run (run s a).2 b).1, (run (run s a).2 b).2) := by
  induction a generalizing s with
  | nil => simp [run]
  | cons c cs ih => simp [run, ih]

theorem scanFrom_run (s : ScanState) (a b : List Char) :
    scanFrom s (a ++ b) = ((run s a).1 ++ ·) <$> scanFrom (run s a).2 b := by
  induction a generalizing s with
  | nil => simp [run]
  | cons c cs ih =>
    simp only [List.cons_append]
    cases s <;> simp [scanFrom, run, ih] <;> cases scanFrom _ b <;> simp

/-- Reading `cs` in state `s` yields the pieces `ts` and leads to state `s'`. -/
def Runs (s : ScanState) (cs : List Char) (ts : List Tok) (s' : ScanState) : Prop := run s cs = (ts, s')

instance (s cs ts s') : Decidable (Runs s cs ts s') := by unfold Runs; infer_instance

theorem Runs.append {s s' s'' : ScanState} {a b : List Char} {ta tb : List Tok}
    (ha : Runs s a ta s') (hb : Runs s' b tb s'') : Runs s (a ++ b) (ta ++ tb) s'' := by
  unfold Runs at *; rw [run_append, ha, hb]

theorem Runs.nil (s : ScanState) : Runs s [] [] s := rfl

/-- A character that ends a word. -/
def isBreak (c : Char) : Prop := isWordChar c = false ∧ c ≠ '.'

instance (c : Char) : Decidable (isBreak c) := by unfold isBreak; infer_instance

/-- `cs` is read as the pieces `ts` whenever a character that ends a word follows. -/
def Piece (cs : List Char) (ts : List Tok) : Prop :=
  ∀ c, isBreak c → Runs .idle (cs ++ [c]) (ts ++ (scanStart c).1) (scanStart c).2

theorem Piece.runs {a b : List Char} {ta tb : List Tok} {c : Char} {s : ScanState} (h : Piece a ta)
    (hc : isBreak c) (hb : Runs .idle (c :: b) tb s) : Runs .idle (a ++ c :: b) (ta ++ tb) s := by
  have h1 := h c hc
  unfold Runs at *
  rw [show a ++ c :: b = (a ++ [c]) ++ b by simp, run_append, h1]
  simp only [run, scanStep] at hb
  simp only [Prod.mk.injEq] at hb
  simp [← hb.1, ← hb.2]

/-- A piece after characters that leave the reader between pieces. -/
theorem Runs.piece {a b : List Char} {ta tb : List Tok} (ha : Runs .idle a ta .idle) (hb : Piece b tb) :
    Piece (a ++ b) (ta ++ tb) := by
  intro c hc
  have h := ha.append (hb c hc)
  simpa [List.append_assoc] using h

theorem Piece.piece {a b : List Char} {ta tb : List Tok} {c : Char} (ha : Piece a ta) (hc : isBreak c)
    (hb : Piece (c :: b) tb) : Piece (a ++ c :: b) (ta ++ tb) := by
  intro d hd
  have h := ha.runs hc (hb d hd)
  simpa [List.append_assoc] using h

/-- Characters that leave the reader between pieces. -/
theorem Runs.toPiece {a : List Char} {ta : List Tok} (ha : Runs .idle a ta .idle) : Piece a ta := by
  intro c _
  have : Runs .idle [c] (scanStart c).1 (scanStart c).2 := by simp [Runs, run, scanStep]
  exact ha.append this

theorem runs_word (num : Bool) (acc cs : List Char) (h : ∀ c ∈ cs, isWordChar c = true ∨ (num = true ∧ c = '.')) :
    Runs (.word num acc) cs [] (.word num (acc ++ cs)) := by
  induction cs generalizing acc with
  | nil => simp [Runs, run]
  | cons c cs ih =>
    have := ih (acc ++ [c]) (fun d hd => h d (by simp [hd]))
    unfold Runs at *
    have hc := h c (by simp)
    simp [run, scanStep, hc, this]

theorem break_word (num : Bool) (acc : List Char) (c : Char) (hc : isBreak c) :
    Runs (.word num acc) [c] (.word (String.ofList acc) :: (scanStart c).1) (scanStart c).2 := by
  obtain ⟨h1, h2⟩ := hc
  simp [Runs, run, scanStep, h1, h2]

theorem piece_wordlike (num : Bool) (c : Char) (cs : List Char) (hc : isWordChar c = true)
    (hn : decide (IsDigit c) = num)
    (h : ∀ d ∈ cs, isWordChar d = true ∨ (num = true ∧ d = '.')) :
    Piece (c :: cs) [.word (String.ofList (c :: cs))] := by
  intro d hd
  have h1 : Runs .idle [c] [] (.word num [c]) := by
    have hs : c ≠ ' ' ∧ c ≠ '\r' ∧ c ≠ '\t' ∧ c ≠ '"' := by
      refine ⟨?_, ?_, ?_, ?_⟩ <;> (rintro rfl; exact absurd hc (by decide))
    simp [Runs, run, scanStep, scanStart, hs, hc, hn]
  have h2 := runs_word num [c] cs h
  have h3 := (h1.append h2).append (break_word num _ d hd)
  simpa using h3

theorem wordChar_of (c : Char) (h : IsLetter c ∨ IsDigit c) : isWordChar c = true := by
  simpa [isWordChar] using h

/-- An identifier is read as one word. -/
theorem piece_ident (n : String) (h : IsIdent n.toList) : Piece n.toList [.word n] := by
  match hn : n.toList with
  | [] => rw [hn] at h; exact h.elim
  | c :: cs =>
    rw [hn] at h
    obtain ⟨h1, h2⟩ := h
    have hd : ¬ IsDigit c := by
      have h9 : ('9' : Char).val.toNat = 57 := rfl
      have hA : ('A' : Char).val.toNat = 65 := rfl
      have ha : ('a' : Char).val.toNat = 97 := rfl
      rintro ⟨_, h⟩
      have h' : c.val.toNat ≤ 57 := by simpa [h9] using (UInt32.le_iff_toNat_le.1 h)
      rcases h1 with ⟨h, _⟩ | ⟨h, _⟩ | h
      · have : 97 ≤ c.val.toNat := by simpa [ha] using (UInt32.le_iff_toNat_le.1 h)
        omega
      · have : 65 ≤ c.val.toNat := by simpa [hA] using (UInt32.le_iff_toNat_le.1 h)
        omega
      · subst h; exact absurd h' (by decide)
    have h3 := piece_wordlike false c cs (wordChar_of c (.inl h1)) (by simpa using hd)
      (fun d hd => .inl (wordChar_of d (h2 d hd)))
    rw [← hn, String.ofList_toList] at h3
    rwa [← hn]

/-- A text of digits and points that begins with a digit is read as one word. -/
theorem piece_number (c : Char) (cs : List Char) (hc : IsDigit c) (h : ∀ d ∈ cs, IsDigit d ∨ d = '.') :
    Piece (c :: cs) [.word (String.ofList (c :: cs))] := by
  refine piece_wordlike true c cs (wordChar_of c (.inr hc)) (by simpa using hc) (fun d hd => ?_)
  rcases h d hd with h | h
  · exact .inl (wordChar_of d (.inr h))
  · exact .inr ⟨rfl, h⟩

theorem runs_str (acc cs : List Char) (h1 : '"' ∉ cs) (h2 : '\\' ∉ cs) :
    Runs (.str acc) cs [] (.str (acc ++ cs)) := by
  induction cs generalizing acc with
  | nil => simp [Runs, run]
  | cons c cs ih =>
    simp only [List.mem_cons, not_or] at h1 h2
    have := ih (acc ++ [c]) h1.2 h2.2
    unfold Runs at *
    simp [run, scanStep, Ne.symm h1.1, Ne.symm h2.1, this]

/-- A string literal without quotes and backslashes inside. -/
theorem runs_string (s : String) (h1 : '"' ∉ s.toList) (h2 : '\\' ∉ s.toList) :
    Runs .idle ('"' :: (s.toList ++ ['"'])) [.str s] .idle := by
  have a : Runs .idle ['"'] [] (.str []) := by decide
  have b := runs_str [] s.toList h1 h2
  have c : Runs (.str ([] ++ s.toList)) ['"'] [.str s] .idle := by
    simp [Runs, run, scanStep]
  simpa using (a.append b).append c

/-! ### Statements -/

/-- `cs` is read as the statements `ss`, whatever follows. -/
def Emits (cs : List Char) (ss : List Stmt) : Prop :=
  ∃ ts, Runs .idle cs ts .idle ∧ ∀ more, stmtsFrom [] (ts ++ more) = (ss ++ ·) <$> stmtsFrom [] more

theorem Emits.nil : Emits [] [] :=
  ⟨[], Runs.nil _, fun more => by cases h : stmtsFrom [] more <;> simp [h]⟩

theorem Emits.append {a b : List Char} {sa sb : List Stmt} (ha : Emits a sa) (hb : Emits b sb) :
    Emits (a ++ b) (sa ++ sb) := by
  obtain ⟨ta, ra, ea⟩ := ha
  obtain ⟨tb, rb, eb⟩ := hb
  refine ⟨ta ++ tb, ra.append rb, fun more => ?_⟩
  rw [List.append_assoc, ea, eb]
  cases stmtsFrom [] more <;> simp

/-- Pieces that neither end a statement nor a line. -/
def Inner (t : Tok) : Prop := isEnd t = none ∧ t ≠ .sym '\n'

instance (t : Tok) : Decidable (Inner t) := by unfold Inner; infer_instance

theorem stmtsFrom_inner (acc ts more : List Tok) (h : ∀ t ∈ ts, Inner t) :
    stmtsFrom acc (ts ++ more) = stmtsFrom (acc ++ ts) more := by
  induction ts generalizing acc with
  | nil => simp
  | cons t ts ih =>
    have ht := h t (by simp)
    simp [stmtsFrom, ht.1, ht.2, ih (acc ++ [t]) (fun u hu => h u (by simp [hu]))]

theorem runs_spaces (k : Nat) : Runs .idle (repeatStr " " k).toList [] .idle := by
  induction k with
  | zero => exact Runs.nil _
  | succ k ih =>
    have e : (repeatStr " " (k + 1)).toList = [' '] ++ (repeatStr " " k).toList := by simp [repeatStr]
    rw [e]
    exact (show Runs .idle [' '] [] .idle by decide).append ih

theorem runs_indent (u k : Nat) : Runs .idle (repeatStr (repeatStr " " u) k).toList [] .idle := by
  induction k with
  | zero => exact Runs.nil _
  | succ k ih =>
    have e : (repeatStr (repeatStr " " u) (k + 1)).toList
        = (repeatStr " " u).toList ++ (repeatStr (repeatStr " " u) k).toList := by simp [repeatStr]
    rw [e]
    exact (runs_spaces u).append ih

theorem emits_line (u k : Nat) (body : String) (ts : List Tok) (e : Char)
    (h : Runs .idle body.toList (ts ++ [.sym e]) .idle) (hi : ∀ t ∈ ts, Inner t) (he : isEnd (.sym e) = some e) :
    Emits (linesText u [(k, body)]).toList [(ts, e)] := by
  have e1 : (linesText u [(k, body)]).toList
      = (repeatStr (repeatStr " " u) k).toList ++ (body.toList ++ ['\n']) := by
    simp [linesText]
  rw [e1]
  refine ⟨_, (runs_indent u k).append (h.append (show Runs .idle ['\n'] [.sym '\n'] .idle by decide)), fun more => ?_⟩
  simp only [List.nil_append, List.append_assoc]
  rw [stmtsFrom_inner _ _ _ hi]
  have hn : isEnd (.sym '\n') = none := by decide
  simp [stmtsFrom, he, hn]

theorem emits_blank (u : Nat) : Emits (linesText u [(0, "")]).toList [] := by
  refine ⟨[.sym '\n'], by simp only [linesText, repeatStr]; decide, fun more => ?_⟩
  have hn : isEnd (.sym '\n') = none := by decide
  cases h : stmtsFrom [] more <;> simp [stmtsFrom, hn, h]

/-- A whole text. -/
theorem Emits.stmts {text : String} {ss : List Stmt} (h : Emits text.toList ss) : stmts text = some ss := by
  obtain ⟨ts, r, e⟩ := h
  have h1 : scanFrom .idle text.toList = some ts := by
    have := scanFrom_run .idle text.toList []
    rw [List.append_nil, r] at this
    simpa [scanFrom] using this
  have h2 := e []
  simp only [List.append_nil] at h2
  simp [Spec.stmts, scan, h1, h2, stmtsFrom]

/-! ### Trimming -/

theorem stmtsFrom_newline (acc a b : List Tok) : stmtsFrom acc (a ++ .sym '\n' :: b) = stmtsFrom acc (a ++ b) := by
  induction a generalizing acc with
  | nil =>
    have hn : isEnd (.sym '\n') = none := by decide
    simp [stmtsFrom, hn]
  | cons t ts ih =>
    simp only [List.cons_append, stmtsFrom, ih]

theorem run_newline (s : ScanState) (num : Bool) (acc : List Char) : (scanStep s '\n').2 ≠ .word num acc := by
  have h : isWordChar '\n' = false := by decide
  cases s with
  | idle => simp [scanStep, scanStart, h]
  | word n a => simp [scanStep, scanStart, h]
  | str a => simp [scanStep]
  | esc a => simp [scanStep]

theorem Emits.drop_newline {u : List Char} {ss : List Stmt} (h : Emits (u ++ ['\n', '\n']) ss) :
    Emits (u ++ ['\n']) ss := by
  obtain ⟨ts, r, e⟩ := h
  unfold Runs at r
  rw [show u ++ ['\n', '\n'] = (u ++ ['\n']) ++ ['\n'] by simp, run_append] at r
  have h1 : (run .idle (u ++ ['\n'])).2 = (scanStep (run .idle u).2 '\n').2 := by
    rw [run_append]; simp [run]
  cases hs : (run .idle (u ++ ['\n'])).2 with
  | idle =>
    rw [hs] at r
    have hr : run .idle ['\n'] = ([.sym '\n'], .idle) := by decide
    simp only [hr, Prod.mk.injEq, and_true] at r
    refine ⟨(run .idle (u ++ ['\n'])).1, Prod.ext rfl hs, fun more => ?_⟩
    have := e more
    rw [← r, List.append_assoc, List.singleton_append, stmtsFrom_newline] at this
    exact this
  | word n a => exact absurd (h1 ▸ hs) (run_newline _ n a)
  | str a => rw [hs] at r; simp [run, scanStep] at r
  | esc a => rw [hs] at r; simp [run, scanStep] at r

theorem Emits.trim {t : String} {ss : List Stmt} (h : Emits t.toList ss) : Emits (trimOnce t).toList ss := by
  unfold trimOnce
  split
  · rename_i cs hcs
    have e : t.toList = cs.reverse ++ ['\n', '\n'] := by
      have := congrArg List.reverse hcs
      simpa using this
    rw [e] at h
    simpa using h.drop_newline
  · exact h

/-! ### Numbers -/

theorem decimal_toDigits (n : Nat) : decimal (Nat.toDigits 10 n) = n := by
  have h := Nat.ofDigitChars_ten_toDigits (n := n)
  unfold decimal
  have : ∀ (cs : List Char) (a : Nat), cs.foldl (fun a c => a * 10 + (c.toNat - 48)) a = Nat.ofDigitChars 10 cs a := by
    intro cs a
    simp [Nat.ofDigitChars, Nat.mul_comm]
  rw [this, h]

theorem isDigit_iff (c : Char) : c.isDigit = true ↔ IsDigit c := by
  simp [Char.isDigit, IsDigit, Char.le_def, UInt32.le_iff_toNat_le]

theorem toDigits_decimal (n : Nat) : IsDecimal (Nat.toDigits 10 n) :=
  ⟨Nat.toDigits_ne_nil, fun _ hc => (isDigit_iff _).1 (Nat.isDigit_of_mem_toDigits (by decide) (by decide) hc)⟩

end TPB.Spec
