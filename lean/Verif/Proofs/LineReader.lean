/- The readers of `Spec/LineReader.lean` on the pieces that they read, and the pieces of lines with their ends. -/
import Verif.Spec.LineReader
import Verif.Proofs.Blocks
namespace TPB.Spec.Pieces
open Combinators

/-- The text of parts. -/
macro "segs_text" "[" ls:Lean.Parser.Tactic.simpLemma,* "]" : tactic =>
  `(tactic| (apply String.toList_inj.1; simp [segsText, Seg.text, segsText_append, $ls,*]))

/-- Pieces of parts in normal form. -/
macro "segs_toks" "[" ls:Lean.Parser.Tactic.simpLemma,* "]" : tactic =>
  `(tactic| simp only [segsToks_append, segsToks, Seg.toks, List.append_assoc, List.cons_append, List.nil_append,
      List.append_nil, $ls,*])

/-- The pieces of lines, with the ends of the lines. -/
def lineToks (b : Block) : List Tok := b.flatMap (fun l => segsToks l.2 ++ [.sym '\n'])

theorem lineToks_nil : lineToks [] = [] := rfl

theorem lineToks_cons (n : Nat) (ss : List Seg) (b : Block) :
    lineToks ((n, ss) :: b) = segsToks ss ++ .sym '\n' :: lineToks b := by simp [lineToks]

theorem lineToks_append (a b : Block) : lineToks (a ++ b) = lineToks a ++ lineToks b := by simp [lineToks]

theorem lineToks_map {α : Type} (as : List α) (f : α → Nat × List Seg) :
    lineToks (as.map f) = as.flatMap (fun a => segsToks (f a).2 ++ [.sym '\n']) := by
  simp [lineToks, List.flatMap_map]

theorem lineToks_flatMap {α : Type} (as : List α) (f : α → Block) :
    lineToks (as.flatMap f) = as.flatMap (fun a => lineToks (f a)) := by
  simp [lineToks, List.flatMap_assoc]

theorem line_runs (u n : Nat) {ss : List Seg} (hg : Good ss) :
    Runs .idle (linesText u [(n, segsText ss)]).toList (segsToks ss ++ [.sym '\n']) .idle := by
  have e : (linesText u [(n, segsText ss)]).toList
      = (repeatStr (repeatStr " " u) n).toList ++ ((segsText ss).toList ++ ['\n']) := by
    simp [linesText]
  rw [e]
  exact (runs_indent u n).append (good_piece ss hg '\n' (by decide))

theorem lines_runs (u : Nat) {b : Block} (h : GoodBlock b) :
    Runs .idle (linesText u (blockLines b)).toList (lineToks b) .idle := by
  induction b with
  | nil => simpa [linesText, blockLines, lineToks] using Runs.nil .idle
  | cons l b ih =>
    obtain ⟨n, ss⟩ := l
    rw [blockLines_cons, ← List.singleton_append, linesText_append, String.toList_append]
    have h1 := line_runs u n (h (n, ss) (by simp))
    have h2 := ih (fun l hl => h l (by simp [hl]))
    have := h1.append h2
    rwa [show lineToks ((n, ss) :: b) = segsToks ss ++ [.sym '\n'] ++ lineToks b by simp [lineToks]]

theorem scan_lines (u : Nat) {b : Block} (h : GoodBlock b) : scan (linesText u (blockLines b)) = some (lineToks b) := by
  have := scanFrom_run .idle (linesText u (blockLines b)).toList []
  rw [List.append_nil, lines_runs u h] at this
  simpa [scanFrom, scan] using this

end TPB.Spec.Pieces

namespace TPB.Spec.Combinators
open Pieces

theorem endLine_ok (r : List Tok) : endLine (.sym '\n' :: r) = some ((), r) := rfl

theorem mayEndLine_yes (r : List Tok) : mayEndLine (.sym '\n' :: r) = some ((), r) := next_yes (endLine_ok r)

theorem mayEndLine_no {r : List Tok} (h : r.head? ≠ some (.sym '\n')) : mayEndLine r = some ((), r) := next_no h rfl

theorem second_yes {α : Type} {t u : Tok} {p q : P α} {r : List Tok} {x : Option (α × List Tok)} (h : p (u :: t :: r) = x) :
    (do if ← second t then p else q) (u :: t :: r) = x :=
  bind_ok (a := true) (r := u :: t :: r) (by simp [second]) h

theorem second_no {α : Type} {t : Tok} {p q : P α} {ts : List Tok} {x : Option (α × List Tok)}
    (hn : ts.tail.head? ≠ some t) (h : q ts = x) : (do if ← second t then p else q) ts = x :=
  bind_ok (a := false) (r := ts) (by rw [second, decide_eq_false hn]) h

theorem orBlank_none {α : Type} (item : P α) (r : List Tok) : orBlank item (.sym '\n' :: r) = some (none, r) :=
  next_yes (bind_ok (endLine_ok r) rfl)

theorem orBlank_some {α : Type} {item : P α} {ts r : List Tok} {a : α} (h : item ts = some (a, r))
    (hn : ts.head? ≠ some (.sym '\n')) : orBlank item ts = some (some a, r) :=
  next_no hn (bind_ok h rfl)

/-- The pieces of an item or of an empty line. -/
def blankToks {α : Type} (toks : α → List Tok) : Option α → List Tok
  | none => [.sym '\n']
  | some a => toks a

theorem orBlank_ok {α : Type} {item : P α} (toks : α → List Tok) (o : Option α)
    (h : ∀ a ∈ o, ∀ r, item (toks a ++ r) = some (a, r))
    (hs : ∀ a ∈ o, ∃ t ts, toks a = t :: ts ∧ t ≠ .sym '\n') (r : List Tok) :
    orBlank item (blankToks toks o ++ r) = some (o, r) := by
  cases o with
  | none => exact orBlank_none item r
  | some a =>
    obtain ⟨t, ts, ht, hn⟩ := hs a rfl
    exact orBlank_some (h a rfl r) (by simpa [blankToks, ht] using hn)

theorem wholeLines_ok {α : Type} {item : P α} {s : String} (toks : α → List Tok) (os : List (Option α))
    (hp : scan s = some (os.flatMap (blankToks toks)))
    (h : ∀ a, some a ∈ os → ∀ r, item (toks a ++ r) = some (a, r))
    (hs : ∀ a, some a ∈ os → ∃ t ts, toks a = t :: ts ∧ t ≠ .sym '\n') : wholeLines item s = some (os.filterMap id) := by
  unfold wholeLines
  rw [hp, Option.bind_some, toEndAll_ok (blankToks toks) os]
  · rfl
  · intro o ho r
    exact orBlank_ok toks o (fun a ha => h a (by cases ha; exact ho)) (fun a ha => hs a (by cases ha; exact ho)) r
  · intro o ho
    cases o with
    | none => exact ⟨_, _, rfl⟩
    | some a => obtain ⟨t, ts, h, _⟩ := hs a ho; exact ⟨t, ts, h⟩

/-- Rows of items, each after the end of a line. -/
def rowToks {α : Type} (toks : α → List Tok) (stop : Char) : List α → List Tok
  | [] => []
  | [a] => .sym '\n' :: (toks a ++ [.sym '\n', .sym stop])
  | a :: b :: as => .sym '\n' :: (toks a ++ .sym ',' :: rowToks toks stop (b :: as))

theorem rowsFrom_ok {α : Type} {item : P α} {stop : Char} (toks : α → List Tok) (r : List Tok)
    (as : List α) (hne : as ≠ [])
    (h : ∀ a ∈ as, ∀ c r, c = '\n' ∨ c = ',' → item (toks a ++ .sym c :: r) = some (a, .sym c :: r)) :
    ∀ fuel, as.length ≤ fuel → rowsFrom item stop fuel (rowToks toks stop as ++ r) = some (as, r) := by
  induction as with
  | nil => exact absurd rfl hne
  | cons a as ih =>
    intro fuel hf
    match fuel, hf with
    | fuel + 1, hf =>
      cases as with
      | nil =>
        rw [rowToks, List.cons_append, List.append_assoc, rowsFrom]
        exact bind_ok (endLine_ok _) <| bind_ok (h a (by simp) '\n' _ (.inl rfl)) <| next_no (by simp) <|
          bind_ok (endLine_ok _) (by simp [eat])
      | cons b bs =>
        rw [rowToks, List.cons_append, List.append_assoc, List.cons_append, rowsFrom]
        exact bind_ok (endLine_ok _) <| bind_ok (h a (by simp) ',' _ (.inr rfl)) <| next_yes <|
          bind_ok (text_ok' "," (us := [.sym ',']) (by decide +kernel) _) <|
          bind_ok (ih (by simp) (fun c hc => h c (by simp [hc])) fuel (by simp only [List.length_cons] at hf ⊢; omega)) rfl

theorem rowToks_length {α : Type} (toks : α → List Tok) (stop : Char) (as : List α) :
    as.length ≤ (rowToks toks stop as).length := by
  induction as with
  | nil => simp
  | cons a as ih =>
    cases as with
    | nil => rw [rowToks]; simp
    | cons b bs => rw [rowToks]; simp only [List.length_cons, List.length_append] at ih ⊢; omega

theorem rows_ok {α : Type} {item : P α} {stop : Char} (toks : α → List Tok) (r : List Tok)
    (as : List α) (hne : as ≠ [])
    (h : ∀ a ∈ as, ∀ c r, c = '\n' ∨ c = ',' → item (toks a ++ .sym c :: r) = some (a, .sym c :: r)) :
    rows item stop (rowToks toks stop as ++ r) = some (as, r) :=
  rowsFrom_ok toks r as hne h _ (by
    have := rowToks_length toks stop as
    rw [List.length_append]; omega)

theorem literal_name {w : String} (h : isIdent w = true) (ht : w ≠ "true") (hf : w ≠ "false") (r : List Tok) :
    literal (.word w :: r) = none := by
  rw [literal, if_neg]
  rintro (h1 | h1 | h1)
  · exact ht h1
  · exact hf h1
  · have hi := isIdent_spec h
    unfold IsIdent at hi
    cases hw : w.toList with
    | nil => simp [hw] at h1
    | cons c cs =>
      rw [hw] at hi h1
      simp only [List.head?_cons, Option.any_some, decide_eq_true_eq] at h1
      have h9 : ('9' : Char).val.toNat = 57 := rfl
      have hA : ('A' : Char).val.toNat = 65 := rfl
      have ha : ('a' : Char).val.toNat = 97 := rfl
      obtain ⟨_, h⟩ := h1
      have h' : c.val.toNat ≤ 57 := by simpa [h9] using (UInt32.le_iff_toNat_le.1 h)
      rcases hi.1 with ⟨h, _⟩ | ⟨h, _⟩ | h
      · have : 97 ≤ c.val.toNat := by simpa [ha] using (UInt32.le_iff_toNat_le.1 h)
        omega
      · have : 65 ≤ c.val.toNat := by simpa [hA] using (UInt32.le_iff_toNat_le.1 h)
        omega
      · subst h; exact absurd h' (by decide)

theorem literal_sym (c : Char) (r : List Tok) : literal (.sym c :: r) = none := rfl

end TPB.Spec.Combinators
