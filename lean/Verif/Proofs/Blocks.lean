/- Lines given by their parts: their text, their pieces, and that the pieces are found in the text. -/
import Verif.Proofs.Combinators
namespace TPB.Spec.Pieces
open Combinators

theorem segsToks_append (a b : List Seg) : segsToks (a ++ b) = segsToks a ++ segsToks b := by
  induction a with
  | nil => rfl
  | cons s ss ih => simp [segsToks, ih]

theorem segsText_append (a b : List Seg) : segsText (a ++ b) = segsText a ++ segsText b := by
  induction a with
  | nil => simp [segsText]
  | cons s ss ih => simp [segsText, ih, String.append_assoc]

/-- The last part is a fixed text. -/
def closed : List Seg → Bool
  | [] => true
  | [.k _] => true
  | [_] => false
  | _ :: s :: ss => closed (s :: ss)

theorem begins_append {ok : Char → Bool} {s : Seg} {ss b : List Seg} (h : begins ok (s :: ss) = true) :
    begins ok (s :: ss ++ b) = true := by
  cases s <;> simpa [begins] using h

theorem Good.append {a b : List Seg} (ha : Good a) (hc : closed a = true) (hb : Good b) : Good (a ++ b) := by
  induction a with
  | nil => exact hb
  | cons s ss ih =>
    cases ss with
    | nil =>
      cases s with
      | k t => exact ⟨ha.1, hb⟩
      | w t => simp [closed] at hc
      | p t ts => simp [closed] at hc
    | cons u us =>
      have hc' : closed (u :: us) = true := by
        cases s <;> simpa [closed] using hc
      cases s with
      | k t => exact ⟨ha.1, ih ha.2 hc'⟩
      | w t => exact ⟨ha.1, begins_append ha.2.1, ih ha.2.2 hc'⟩
      | p t ts => exact ⟨ha.1, ha.2.1, begins_append ha.2.2.1, ih ha.2.2.2 hc'⟩

theorem closed_append {a b : List Seg} (hb : closed b = true) (hne : b ≠ []) : closed (a ++ b) = true := by
  induction a with
  | nil => exact hb
  | cons s ss ih =>
    cases hss : ss ++ b with
    | nil => simp [hne] at hss
    | cons u us => rw [hss] at ih; rw [List.cons_append, hss]; cases s <;> simpa [closed] using ih

/-- Indented lines. -/
abbrev Block := List (Nat × List Seg)

def blockLines (b : Block) : List Line := b.map (fun l => (l.1, segsText l.2))

def blockToks (b : Block) : List Tok := b.flatMap (fun l => segsToks l.2)

def GoodBlock (b : Block) : Prop := ∀ l ∈ b, Good l.2

theorem block_lexes {b : Block} (h : GoodBlock b) : Lexes (blockLines b) (blockToks b) :=
  Lexes.map b (fun l => (l.1, segsText l.2)) (fun l => segsToks l.2) (fun l hl => Lexes.line l.1 l.2 (h l hl) rfl rfl)

theorem blockLines_append (a b : Block) : blockLines (a ++ b) = blockLines a ++ blockLines b := by simp [blockLines]

theorem blockToks_append (a b : Block) : blockToks (a ++ b) = blockToks a ++ blockToks b := by simp [blockToks]

theorem blockToks_cons (n : Nat) (ss : List Seg) (b : Block) : blockToks ((n, ss) :: b) = segsToks ss ++ blockToks b := rfl

theorem blockToks_nil : blockToks [] = [] := rfl

theorem blockLines_cons (n : Nat) (ss : List Seg) (b : Block) : blockLines ((n, ss) :: b) = (n, segsText ss) :: blockLines b := rfl

theorem blockLines_nil : blockLines [] = [] := rfl

theorem GoodBlock.append {a b : Block} (ha : GoodBlock a) (hb : GoodBlock b) : GoodBlock (a ++ b) := by
  intro l hl
  rcases List.mem_append.1 hl with h | h
  · exact ha l h
  · exact hb l h

theorem GoodBlock.cons {n : Nat} {ss : List Seg} {b : Block} (hs : Good ss) (hb : GoodBlock b) : GoodBlock ((n, ss) :: b) := by
  intro l hl
  rcases List.mem_cons.1 hl with rfl | h
  · exact hs
  · exact hb l h

theorem GoodBlock.nil : GoodBlock [] := by intro l hl; simp at hl

theorem GoodBlock.map {α : Type} {as : List α} {f : α → Nat × List Seg} (h : ∀ a ∈ as, Good (f a).2) : GoodBlock (as.map f) := by
  intro l hl
  obtain ⟨a, ha, rfl⟩ := List.mem_map.1 hl
  exact h a ha

theorem GoodBlock.flatMap {α : Type} {as : List α} {f : α → Block} (h : ∀ a ∈ as, GoodBlock (f a)) :
    GoodBlock (as.flatMap f) := by
  intro l hl
  obtain ⟨a, ha, hl⟩ := List.mem_flatMap.1 hl
  exact h a ha l hl

theorem blockToks_map {α : Type} (as : List α) (f : α → Nat × List Seg) :
    blockToks (as.map f) = as.flatMap (fun a => segsToks (f a).2) := by
  simp [blockToks, List.flatMap_map]

theorem blockToks_flatMap {α : Type} (as : List α) (f : α → Block) :
    blockToks (as.flatMap f) = as.flatMap (fun a => blockToks (f a)) := by
  simp [blockToks, List.flatMap_assoc]

theorem blockLines_map {α : Type} (as : List α) (f : α → Nat × List Seg) :
    blockLines (as.map f) = as.map (fun a => ((f a).1, segsText (f a).2)) := by
  simp [blockLines]

theorem blockLines_flatMap {α : Type} (as : List α) (f : α → Block) :
    blockLines (as.flatMap f) = as.flatMap (fun a => blockLines (f a)) := by
  simp [blockLines, List.map_flatMap]

/-- Blocks with blank lines between them. -/
def blankJoin : List Block → Block
  | [] => []
  | [b] => b
  | b :: c :: bs => b ++ (0, []) :: blankJoin (c :: bs)

theorem blockLines_join (bs : List Block) : blockLines (blankJoin bs) = joinBlocks (bs.map blockLines) := by
  induction bs with
  | nil => rfl
  | cons b bs ih =>
    cases bs with
    | nil => rfl
    | cons c cs =>
      rw [blankJoin, blockLines_append, blockLines_cons, ih]
      rfl

theorem blockToks_join (bs : List Block) : blockToks (blankJoin bs) = bs.flatMap blockToks := by
  induction bs with
  | nil => rfl
  | cons b bs ih =>
    cases bs with
    | nil => simp [blankJoin]
    | cons c cs =>
      rw [blankJoin, blockToks_append, blockToks_cons, ih]
      simp [segsToks]

theorem GoodBlock.join {bs : List Block} (h : ∀ b ∈ bs, GoodBlock b) : GoodBlock (blankJoin bs) := by
  induction bs with
  | nil => exact GoodBlock.nil
  | cons b bs ih =>
    cases bs with
    | nil => exact h b (by simp)
    | cons c cs => exact (h b (by simp)).append (GoodBlock.cons trivial (ih (fun d hd => h d (by simp [hd]))))

/-- Facts about parts of lines. -/
macro "good" : tactic => `(tactic| repeat' first
  | exact trivial
  | (with_reducible assumption)
  | ((with_reducible show Clean _); decide +kernel)
  | ((with_reducible show isIdent _ = true); decide +kernel)
  | (simp only [begins] <;> decide)
  | refine And.intro ?_ ?_)

theorem text2 {s a b : String} (h : code s = code a ++ code b) (r : List Tok) :
    text s (code a ++ (code b ++ r)) = some ((), r) := by
  rw [← List.append_assoc, ← h]; exact text_ok s r

theorem text3 {s a b c : String} (h : code s = code a ++ code b ++ code c) (r : List Tok) :
    text s (code a ++ (code b ++ (code c ++ r))) = some ((), r) := by
  rw [← List.append_assoc, ← List.append_assoc, ← h]; exact text_ok s r

theorem text4 {s a b c d : String} (h : code s = code a ++ code b ++ code c ++ code d) (r : List Tok) :
    text s (code a ++ (code b ++ (code c ++ (code d ++ r)))) = some ((), r) := by
  rw [← List.append_assoc, ← List.append_assoc, ← List.append_assoc, ← h]; exact text_ok s r

end TPB.Spec.Pieces
