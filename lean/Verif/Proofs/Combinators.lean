/- The readers of `Spec/Combinators.lean` on the pieces that they read. -/
import Verif.Spec.Combinators
import Verif.Proofs.Pieces
namespace TPB.Spec.Combinators
open Pieces

theorem bind_ok {α β : Type} {p : P α} {k : α → P β} {ts r : List Tok} {a : α} {x : Option (β × List Tok)}
    (h : p ts = some (a, r)) (h2 : k a r = x) : (p >>= k) ts = x := by
  show (p ts).bind (fun y => k y.1 y.2) = x
  rw [h]; exact h2

theorem bind_none {α β : Type} {p : P α} {k : α → P β} {ts : List Tok} (h : p ts = none) : (p >>= k) ts = none := by
  show (p ts).bind (fun y => k y.1 y.2) = none
  rw [h]; rfl

theorem pure_ok {α : Type} (a : α) (ts : List Tok) : (pure a : P α) ts = some (a, ts) := rfl

theorem text_ok (s : String) (r : List Tok) : text s (code s ++ r) = some ((), r) := by
  simp [text, eat_ok]

/-- The same pieces in another layout. -/
theorem text_ok' (s : String) {us : List Tok} (h : code s = us) (r : List Tok) : text s (us ++ r) = some ((), r) := by
  subst h; exact text_ok s r

theorem text_none {s : String} {p t : Tok} {r : List Tok} (h : (code s).head? = some p) (hne : p ≠ t) :
    text s (t :: r) = none := by
  unfold text
  match hc : code s, h with
  | q :: qs, h =>
    simp only [List.head?_cons, Option.some.injEq] at h
    subst h
    rw [eat, if_neg hne]; rfl

theorem text_nil {s : String} (h : code s ≠ []) : text s [] = none := by
  unfold text
  match hc : code s, h with
  | [], h => exact absurd rfl h
  | _ :: _, _ => rfl

theorem the_ok (w : String) (r : List Tok) : the w (.word w :: r) = some ((), r) := by
  simp [the, eat]

theorem the_none {w : String} {t : Tok} {r : List Tok} (h : t ≠ .word w) : the w (t :: r) = none := by
  simp [the, eat, Ne.symm h]

theorem word_ok (w : String) (r : List Tok) : word (.word w :: r) = some (w, r) := rfl

theorem num_ok (n : Nat) (r : List Tok) : num (.word (toString n) :: r) = some (n, r) := number_ok n r

theorem fits_ok {c : Bool} (h : c = true) (r : List Tok) : fits c r = some ((), r) := by
  subst h; rfl

theorem some!_ok {α : Type} {o : Option α} {a : α} (h : o = some a) (r : List Tok) : some! o r = some (a, r) := by
  subst h; rfl

/-- A choice by the next piece. -/
theorem next_yes {α : Type} {t : Tok} {p q : P α} {r : List Tok} {x : Option (α × List Tok)} (h : p (t :: r) = x) :
    (do if ← next t then p else q) (t :: r) = x :=
  bind_ok (a := true) (r := t :: r) (by simp [next]) h

theorem next_no {α : Type} {t : Tok} {p q : P α} {ts : List Tok} {x : Option (α × List Tok)}
    (hn : ts.head? ≠ some t) (h : q ts = x) : (do if ← next t then p else q) ts = x :=
  bind_ok (a := false) (r := ts) (by simp [next, hn]) h

theorem until_ok {α : Type} {item : P α} {stop : Tok} (toks : α → List Tok) (r : List Tok) (as : List α)
    (h : ∀ a ∈ as, ∀ r, item (toks a ++ r) = some (a, r))
    (hs : ∀ a ∈ as, ∃ t ts, toks a = t :: ts ∧ t ≠ stop) :
    until_ stop item (as.flatMap toks ++ stop :: r) = some (as, r) :=
  manyAll_ok toks r as h hs

theorem starFrom_ok {α : Type} {item : P α} (toks : α → List Tok) (r : List Tok) (hr : item r = none) (as : List α)
    (h : ∀ a ∈ as, ∀ r, item (toks a ++ r) = some (a, r)) :
    ∀ fuel, as.length < fuel → starFrom item fuel (as.flatMap toks ++ r) = some (as, r) := by
  induction as with
  | nil =>
    intro fuel hf
    match fuel, hf with
    | fuel + 1, _ => simp [starFrom, hr]
  | cons a as ih =>
    intro fuel hf
    match fuel, hf with
    | fuel + 1, hf =>
      rw [List.flatMap_cons, List.append_assoc, starFrom, h a (by simp)]
      simp only
      rw [ih (fun b hb => h b (by simp [hb])) fuel (by simp only [List.length_cons] at hf; omega)]

theorem star_ok {α : Type} {item : P α} (toks : α → List Tok) (r : List Tok) (hr : item r = none) (hne : r ≠ [])
    (as : List α) (h : ∀ a ∈ as, ∀ r, item (toks a ++ r) = some (a, r))
    (hs : ∀ a ∈ as, ∃ t ts, toks a = t :: ts) : star item (as.flatMap toks ++ r) = some (as, r) := by
  refine starFrom_ok toks r hr as h _ ?_
  have := length_flatMap_le toks as hs
  rw [List.length_append]
  have : r.length ≠ 0 := by simpa using hne
  omega

theorem times_ok {α : Type} {item : P α} (toks : α → List Tok) (r : List Tok) (as : List α)
    (h : ∀ a ∈ as, ∀ r, item (toks a ++ r) = some (a, r)) :
    times item as.length (as.flatMap toks ++ r) = some (as, r) := by
  induction as with
  | nil => rfl
  | cons a as ih =>
    rw [List.flatMap_cons, List.append_assoc, List.length_cons, times]
    exact bind_ok (h a (by simp) _) (bind_ok (ih (fun b hb => h b (by simp [hb]))) rfl)

/-- Items separated by commas, with the symbol after the last. -/
def sepToks {α : Type} (toks : α → List Tok) (stop : Char) : List α → List Tok
  | [] => []
  | [a] => toks a ++ [.sym stop]
  | a :: b :: as => toks a ++ .sym ',' :: sepToks toks stop (b :: as)

theorem sepFrom_ok {α : Type} {item : P α} {stop : Char} (hstop : stop ≠ ',') (toks : α → List Tok) (r : List Tok)
    (as : List α) (hne : as ≠ [])
    (h : ∀ a ∈ as, ∀ c r, c = stop ∨ c = ',' → item (toks a ++ .sym c :: r) = some (a, .sym c :: r)) :
    ∀ fuel, as.length ≤ fuel → sepFrom item stop fuel (sepToks toks stop as ++ r) = some (as, r) := by
  induction as with
  | nil => exact absurd rfl hne
  | cons a as ih =>
    intro fuel hf
    match fuel, hf with
    | fuel + 1, hf =>
      cases as with
      | nil =>
        rw [sepToks, List.append_assoc, List.singleton_append, sepFrom, h a (by simp) stop r (.inl rfl)]
        simp
      | cons b bs =>
        rw [sepToks, List.append_assoc, List.cons_append, sepFrom, h a (by simp) ',' _ (.inr rfl)]
        simp only [if_neg hstop.symm, if_true]
        rw [ih (by simp) (fun c hc => h c (by simp [hc])) fuel (by simp only [List.length_cons] at hf ⊢; omega)]

theorem sepToks_length {α : Type} (toks : α → List Tok) (stop : Char) (as : List α) :
    as.length ≤ (sepToks toks stop as).length := by
  induction as with
  | nil => simp
  | cons a as ih =>
    cases as with
    | nil => rw [sepToks, List.length_append]; simp
    | cons b bs => rw [sepToks, List.length_append]; simp only [List.length_cons] at ih ⊢; omega

theorem sep_ok {α : Type} {item : P α} {stop : Char} (hstop : stop ≠ ',') (toks : α → List Tok) (r : List Tok)
    (as : List α) (hne : as ≠ [])
    (h : ∀ a ∈ as, ∀ c r, c = stop ∨ c = ',' → item (toks a ++ .sym c :: r) = some (a, .sym c :: r)) :
    sep item stop (sepToks toks stop as ++ r) = some (as, r) :=
  sepFrom_ok hstop toks r as hne h _ (by
    have := sepToks_length toks stop as
    rw [List.length_append]; omega)

theorem whole_ok {α : Type} {item : P α} {s : String} (toks : α → List Tok) (as : List α)
    (hp : pieces s = some (as.flatMap toks)) (h : ∀ a ∈ as, ∀ r, item (toks a ++ r) = some (a, r))
    (hs : ∀ a ∈ as, ∃ t ts, toks a = t :: ts) : whole item s = some as := by
  unfold whole
  rw [hp]
  exact toEndAll_ok toks as h hs

theorem dropEnd_ok (stop id : String) : dropEnd stop (id ++ stop) = some id := by
  unfold dropEnd
  rw [String.toList_append, List.reverse_append,
    if_pos (by rw [List.isPrefixOf_iff_prefix]; exact ⟨_, rfl⟩)]
  rw [← String.length_toList, ← List.length_reverse, List.drop_left, List.reverse_reverse, String.ofList_toList]

theorem dropStart_ok (start m : String) : dropStart start (start ++ m) = some m := by
  unfold dropStart
  rw [String.toList_append, if_pos (by rw [List.isPrefixOf_iff_prefix]; exact ⟨_, rfl⟩)]
  rw [← String.length_toList, List.drop_left, String.ofList_toList]

theorem dropEnd_none (stop id other : String)
    (h : ∀ cs, stop.toList.reverse.isPrefixOf (other.toList.reverse ++ cs) = false) : dropEnd stop (id ++ other) = none := by
  unfold dropEnd
  rw [String.toList_append, List.reverse_append, h]
  rfl

/-- Letters, digits and underscores. -/
def Tail (m : String) : Prop := m.toList.all (fun d => d.isAlphanum || d == '_') = true

theorem ident_append {start m : String} (hs : isIdent start = true) (h : Tail m) : isIdent (start ++ m) = true := by
  unfold isIdent at *
  unfold Tail at h
  rw [String.toList_append]
  cases hc : start.toList with
  | nil => simp [hc] at hs
  | cons c cs =>
    rw [hc] at hs
    simp only [List.cons_append, List.all_append, Bool.and_eq_true] at hs ⊢
    exact ⟨hs.1, hs.2, h⟩

theorem ident_tail {m : String} (h : isIdent m = true) : Tail m := by
  unfold isIdent at h
  unfold Tail
  cases hm : m.toList with
  | nil => simp
  | cons c cs =>
    rw [hm] at h
    simp only [Bool.and_eq_true, List.all_cons] at h ⊢
    refine ⟨?_, h.2⟩
    rcases (Bool.or_eq_true _ _).mp h.1 with h | h
    · simp [Char.isAlphanum, h]
    · simp [h]

theorem Tail.append {a b : String} (ha : Tail a) (hb : Tail b) : Tail (a ++ b) := by
  unfold Tail at *
  rw [String.toList_append, List.all_append, ha, hb]; rfl

/-- Items separated by commas and blanks, and the symbol after the last. -/
theorem sep_runs {α : Type} (render : α → String) (toks : α → List Tok) (stop : Char) (hb : isBreak stop)
    (hs : Runs .idle [stop] [.sym stop] .idle) (hn : stop ≠ '\n') (as : List α) (hne : as ≠ [])
    (h : ∀ a ∈ as, Piece (render a).toList (toks a) ∧ noNL (toks a)) :
    Runs .idle ((joinStr ", " (as.map render)).toList ++ [stop]) (sepToks toks stop as) .idle ∧ noNL (sepToks toks stop as) := by
  induction as with
  | nil => exact absurd rfl hne
  | cons a as ih =>
    obtain ⟨hp, hl⟩ := h a (by simp)
    cases as with
    | nil =>
      refine ⟨?_, hl.append (by intro t ht; simp at ht; subst ht; simpa using hn)⟩
      simpa [joinStr, sepToks] using hp.runs hb hs
    | cons b bs =>
      obtain ⟨h1, h2⟩ := ih (by simp) (fun c hc => h c (by simp [hc]))
      refine ⟨?_, hl.append (noNL.append (a := [.sym ',']) (by intro t ht; simp at ht; simp [ht]) h2)⟩
      have e : (joinStr ", " ((a :: b :: bs).map render)).toList ++ [stop]
          = (render a).toList ++ ',' :: ' ' :: ((joinStr ", " ((b :: bs).map render)).toList ++ [stop]) := by
        simp [joinStr, String.toList_append]
      rw [e, sepToks]
      exact hp.runs (by decide) ((show Runs .idle [',', ' '] [.sym ','] .idle by decide).append h1)

end TPB.Spec.Combinators
