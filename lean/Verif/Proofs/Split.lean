/- Reading a fixed text piece by piece. -/
import Verif.Proofs.Blocks
namespace TPB.Spec.Pieces
open Combinators

/-- Pieces of lines in normal form. -/
macro "ptoks" "[" ls:Lean.Parser.Tactic.simpLemma,* "]" : tactic =>
  `(tactic| simp only [blockToks_append, blockToks_cons, blockToks_nil, blockToks_map, blockToks_flatMap, segsToks_append,
      segsToks, Seg.toks, List.append_assoc, List.cons_append, List.nil_append, List.append_nil, $ls,*])

/-- Lines in normal form. -/
macro "plines" "[" ls:Lean.Parser.Tactic.simpLemma,* "]" : tactic =>
  `(tactic| simp only [blockLines_append, blockLines_cons, blockLines_nil, blockLines_map, blockLines_flatMap,
      segsText_append, segsText, Seg.text, String.append_assoc, String.append_empty, List.append_assoc, List.cons_append,
      List.nil_append, List.append_nil, $ls,*])

macro "pgood" : tactic => `(tactic| repeat' first
  | exact GoodBlock.nil
  | refine GoodBlock.cons ?_ ?_
  | (with_reducible assumption)
  | ((with_reducible show Good _); good))

theorem text_split {s a : String} (b : String) (h : code a = code s ++ code b) (r : List Tok) :
    text s (code a ++ r) = some ((), code b ++ r) := by
  rw [h, List.append_assoc]; exact text_ok s _

theorem the_split {w a : String} (b : String) (h : code a = .word w :: code b) (r : List Tok) :
    the w (code a ++ r) = some ((), code b ++ r) := by
  rw [h]; exact the_ok w _

theorem head_code {s : String} {t : Tok} (h : (code s).head? = some t) (r : List Tok) : (code s ++ r).head? = some t := by
  rw [List.head?_append, h]; rfl

/-- A choice by the next piece, which is `t`. -/
theorem next_is {α : Type} {t : Tok} {p q : P α} {ts : List Tok} {x : Option (α × List Tok)} (hh : ts.head? = some t)
    (h : p ts = x) : (do if ← next t then p else q) ts = x := by
  match ts, hh with
  | u :: us, hh =>
    simp only [List.head?_cons, Option.some.injEq] at hh
    subst hh
    exact next_yes h

/-- A choice by the next piece, which is another one. -/
theorem next_not {α : Type} {t u : Tok} {p q : P α} {ts : List Tok} {x : Option (α × List Tok)} (hh : ts.head? = some u)
    (hne : u ≠ t) (h : q ts = x) : (do if ← next t then p else q) ts = x :=
  next_no (by rw [hh]; simpa using hne) h

theorem text_wrong {s : String} {p t : Tok} {ts : List Tok} (h : (code s).head? = some p) (ht : ts.head? = some t) (hne : p ≠ t) :
    text s ts = none := by
  match ts, ht with
  | u :: us, ht =>
    simp only [List.head?_cons, Option.some.injEq] at ht
    subst ht
    exact text_none h hne

end TPB.Spec.Pieces
