/- Text as a list of indented lines; how `Writer` chains produce it. -/
import Verif.Model.Writer
namespace TPB

/-- A line: indentation level and contents. -/
abbrev Line := Nat × String

/-- The text of a list of lines, each level of indentation being `u` spaces. -/
def linesText (u : Nat) : List Line → String
  | [] => ""
  | (n, s) :: ls => repeatStr (repeatStr " " u) n ++ s ++ "\n" ++ linesText u ls

/-- A writer with tab size `u`, no standing indentation and contents `r`. -/
def wAt (u : Nat) (r : String) : Writer := ⟨r, repeatStr " " u, 0⟩

theorem linesText_append (u : Nat) (a b : List Line) :
    linesText u (a ++ b) = linesText u a ++ linesText u b := by
  induction a with
  | nil => simp [linesText]
  | cons l ls ih => obtain ⟨n, s⟩ := l; simp [linesText, ih, String.append_assoc]

theorem new_eq (u : Nat) : Writer.new u = wAt u "" := rfl
theorem default_eq : Writer.default = wAt 4 "" := rfl

@[simp] theorem show_wAt (u : Nat) (r : String) : (wAt u r).show = r := rfl

theorem writeln_wAt (u : Nat) (r s : String) :
    (wAt u r).writeln s = wAt u (r ++ linesText u [(0, s)]) := by
  simp [wAt, Writer.writeln, linesText, repeatStr, String.append_assoc]

theorem writelnTab_wAt (u : Nat) (r s : String) (t : Nat) :
    (wAt u r).writelnTab t s = wAt u (r ++ linesText u [(t, s)]) := by
  simp [wAt, Writer.writelnTab, linesText, String.append_assoc]

theorem write_wAt (u : Nat) (r s : String) : (wAt u r).write s = wAt u (r ++ s) := rfl

theorem writeTab_wAt (u : Nat) (r s : String) (t : Nat) :
    (wAt u r).writeTab t s = wAt u (r ++ repeatStr (repeatStr " " u) t ++ s) := by
  simp [wAt, Writer.writeTab]

theorem writeln_block (u : Nat) (ls : List Line) :
    linesText u [(0, linesText u ls)] = linesText u (ls ++ [(0, "")]) := by
  simp [linesText, linesText_append, repeatStr]

theorem foldl_wAt {α : Type} (u : Nat) (f : Writer → α → Writer) (L : α → List Line)
    (h : ∀ r x, f (wAt u r) x = wAt u (r ++ linesText u (L x))) (xs : List α) (r : String) :
    xs.foldl f (wAt u r) = wAt u (r ++ linesText u (xs.flatMap L)) := by
  induction xs generalizing r with
  | nil => simp [linesText]
  | cons x xs ih => simp [h, ih, linesText_append, String.append_assoc]

theorem foldl_line {α : Type} (u : Nat) (t : Nat) (g : α → String) (xs : List α) (r : String) :
    xs.foldl (fun w x => Writer.writelnTab w t (g x)) (wAt u r)
      = wAt u (r ++ linesText u (xs.map (fun x => (t, g x)))) := by
  rw [foldl_wAt u _ (fun x => [(t, g x)]) (fun r x => writelnTab_wAt u r (g x) t)]
  rw [List.map_eq_flatMap]

/-- Positions paired with elements, counting from `i`. -/
def withIdx {α : Type} : Nat → List α → List (Nat × α)
  | _, [] => []
  | i, x :: xs => (i, x) :: withIdx (i + 1) xs

theorem foldIdx_wAt {α : Type} (u : Nat) (f : Writer → Nat → α → Writer) (L : Nat → α → List Line)
    (h : ∀ r i x, f (wAt u r) i x = wAt u (r ++ linesText u (L i x))) (xs : List α) (r : String)
    (i : Nat) :
    foldIdx f i xs (wAt u r) = wAt u (r ++ linesText u ((withIdx i xs).flatMap (fun p => L p.1 p.2)))
    := by
  induction xs generalizing r i with
  | nil => simp [linesText, foldIdx, withIdx]
  | cons x xs ih => simp [h, ih, foldIdx, withIdx, linesText_append, String.append_assoc]

theorem foldIdx_line {α : Type} (u : Nat) (t : Nat) (g : Nat → α → String) (xs : List α) (r : String)
    (i : Nat) :
    foldIdx (fun w i x => Writer.writelnTab w t (g i x)) i xs (wAt u r)
      = wAt u (r ++ linesText u ((withIdx i xs).map (fun p => (t, g p.1 p.2)))) := by
  rw [foldIdx_wAt u _ (fun i x => [(t, g i x)]) (fun r i x => writelnTab_wAt u r (g i x) t)]
  rw [List.map_eq_flatMap]

/-- Blocks of lines separated by blank lines. -/
def joinBlocks : List (List Line) → List Line
  | [] => []
  | [b] => b
  | b :: c :: bs => b ++ (0, "") :: joinBlocks (c :: bs)

theorem flatMap_blocks (bs : List (List Line)) (h : bs ≠ []) :
    bs.flatMap (fun b => b ++ [(0, "")]) = joinBlocks bs ++ [(0, "")] := by
  induction bs with
  | nil => exact absurd rfl h
  | cons b bs ih =>
    cases bs with
    | nil => simp [joinBlocks]
    | cons c bs =>
      rw [List.flatMap_cons, ih (by simp), joinBlocks]
      simp

theorem joinBlocks_ne_nil (bs : List (List Line)) (h : bs ≠ []) (hb : ∀ b ∈ bs, b ≠ []) :
    joinBlocks bs ≠ [] := by
  match bs with
  | [] => exact absurd rfl h
  | [b] => exact hb b (by simp)
  | b :: c :: bs => simp [joinBlocks]

/-- Text of lines ends in a newline. -/
theorem linesText_ends (u : Nat) (ls : List Line) (h : ls ≠ []) :
    ∃ cs, (linesText u ls).toList = cs ++ ['\n'] := by
  induction ls with
  | nil => exact absurd rfl h
  | cons l ls ih =>
    obtain ⟨n, s⟩ := l
    cases ls with
    | nil =>
      refine ⟨(repeatStr (repeatStr " " u) n ++ s).toList, ?_⟩
      simp [linesText]
    | cons m ls =>
      obtain ⟨cs, hcs⟩ := ih (by simp)
      refine ⟨(repeatStr (repeatStr " " u) n ++ s ++ "\n").toList ++ cs, ?_⟩
      rw [linesText, String.toList_append, hcs, List.append_assoc]

theorem trimOnce_blank (u : Nat) (ls : List Line) (h : ls ≠ []) :
    trimOnce (linesText u (ls ++ [(0, "")])) = linesText u ls := by
  obtain ⟨cs, hcs⟩ := linesText_ends u ls h
  have e : (linesText u (ls ++ [(0, "")])).toList = cs ++ ['\n', '\n'] := by
    rw [linesText_append, String.toList_append, hcs]
    simp [linesText, repeatStr]
  unfold trimOnce
  rw [e]
  simp only [List.reverse_append, List.reverse_cons, List.reverse_nil, List.nil_append, List.cons_append]
  simp only [List.reverse_reverse]
  rw [← hcs, String.ofList_toList]

/-- The shape of a section of a generated file: blocks, each followed by a blank line, with the last
blank line removed. -/
theorem trimOnce_blocks (u : Nat) (bs : List (List Line)) (hb : ∀ b ∈ bs, b ≠ []) :
    trimOnce (linesText u (bs.flatMap (fun b => b ++ [(0, "")]))) = linesText u (joinBlocks bs) := by
  by_cases h : bs = []
  · subst h; rfl
  · rw [flatMap_blocks bs h, trimOnce_blank u _ (joinBlocks_ne_nil bs h hb)]

end TPB
