/- How the pieces of lines put together from fixed texts, names and other pieces are found again. -/
import Verif.Spec.Pieces
import Verif.Spec.Idents
import Verif.Proofs.Reader
namespace TPB.Spec.Pieces

/-! ### Texts -/

/-- A part of a line: a fixed text that ends between pieces, a name, or some text with its pieces. -/
inductive Seg where
  | k (s : String)
  | w (s : String)
  | p (s : String) (ts : List Tok)

def Seg.text : Seg → String
  | .k s => s
  | .w s => s
  | .p s _ => s

def Seg.toks : Seg → List Tok
  | .k s => code s
  | .w s => [.word s]
  | .p _ ts => ts

def segsText : List Seg → String
  | [] => ""
  | s :: ss => s.text ++ segsText ss

def segsToks : List Seg → List Tok
  | [] => []
  | s :: ss => s.toks ++ segsToks ss

/-- A fixed text after which the reader is between pieces. -/
def Clean (s : String) : Prop := run .idle s.toList = (code s, .idle)

instance (s : String) : Decidable (Clean s) := by unfold Clean; infer_instance

def noNL (ts : List Tok) : Prop := ∀ t ∈ ts, t ≠ .sym '\n'

theorem noNL_code (s : String) : noNL (code s) := by
  intro t ht
  unfold code pieces at ht
  cases h : scan s with
  | none => simp [h] at ht
  | some us =>
    simp only [h, Option.map_some, Option.getD_some, List.mem_filter, decide_eq_true_eq] at ht
    exact ht.2

theorem noNL.append {a b : List Tok} (ha : noNL a) (hb : noNL b) : noNL (a ++ b) := by
  intro t ht
  rcases List.mem_append.1 ht with h | h
  · exact ha t h
  · exact hb t h

theorem noNL.filter {ts : List Tok} (h : noNL ts) : ts.filter (· ≠ .sym '\n') = ts :=
  List.filter_eq_self.2 (fun t ht => by simpa using h t ht)

/-- What follows begins with a fixed text whose first character satisfies `ok`, or is the end of the line. -/
def begins (ok : Char → Bool) : List Seg → Bool
  | [] => true
  | .k s :: _ => s.toList.head?.any ok
  | _ => false

def Good : List Seg → Prop
  | [] => True
  | .k s :: ss => Clean s ∧ Good ss
  | .w s :: ss => isIdent s = true ∧ begins (fun c => !isWordChar c) ss = true ∧ Good ss
  | .p s ts :: ss => Piece s.toList ts ∧ noNL ts ∧ begins (fun c => decide (isBreak c)) ss = true ∧ Good ss

theorem isIdent_spec {s : String} (h : isIdent s = true) : IsIdent s.toList := by
  unfold isIdent at h
  unfold IsIdent
  have al : ∀ c : Char, (c.isAlpha || c == '_') = true → IsLetter c := by
    intro c hc
    simp only [Char.isAlpha, Char.isUpper, Char.isLower, Bool.or_eq_true, Bool.and_eq_true, decide_eq_true_eq,
      beq_iff_eq] at hc
    unfold IsLetter
    rcases hc with (⟨h1, h2⟩ | ⟨h1, h2⟩) | h
    · exact .inr (.inl ⟨h1, h2⟩)
    · exact .inl ⟨h1, h2⟩
    · exact .inr (.inr h)
  have ad : ∀ c : Char, (c.isAlphanum || c == '_') = true → IsLetter c ∨ IsDigit c := by
    intro c hc
    simp only [Char.isAlphanum, Bool.or_eq_true] at hc
    rcases hc with (h | h) | h
    · exact .inl (al c (by simp [h]))
    · exact .inr ((isDigit_iff c).1 h)
    · exact .inl (al c (by rw [h]; simp))
  cases hs : s.toList with
  | nil => simp [hs] at h
  | cons c cs =>
    rw [hs] at h
    simp only [Bool.and_eq_true, List.all_eq_true] at h
    exact ⟨al c h.1, fun d hd => ad d (h.2 d hd)⟩

/-- An identifier is one piece even if a point follows. -/
theorem word_runs (n : String) (h : isIdent n = true) (c : Char) (hc : isWordChar c = false) :
    Runs .idle (n.toList ++ [c]) (.word n :: (scanStart c).1) (scanStart c).2 := by
  have hi := isIdent_spec h
  have hp := piece_ident n hi
  match hn : n.toList with
  | [] => rw [hn] at hi; exact hi.elim
  | d :: ds =>
    rw [hn] at hi
    obtain ⟨h1, h2⟩ := hi
    have hw : isWordChar d = true := wordChar_of d (.inl h1)
    have hd : ¬ IsDigit d := by
      intro hd
      have hb : (('0' : Char) ≤ d ∧ d ≤ '9') := hd
      have : ∀ c : Char, IsLetter c → ¬ IsDigit c := by
        intro c h1
        have h9 : ('9' : Char).val.toNat = 57 := rfl
        have hA : ('A' : Char).val.toNat = 65 := rfl
        have ha : ('a' : Char).val.toNat = 97 := rfl
        rintro ⟨_, h⟩
        have h' : c.val.toNat ≤ 57 := by simpa [h9] using (UInt32.le_iff_toNat_le.1 h)
        rcases h1 with ⟨h, _⟩ | ⟨h, _⟩ | h
        · have : 97 ≤ c.val.toNat := by simpa [ha] using (UInt32.le_iff_toNat_le.1 h)
          omega
        · have : 65 ≤ c.val.toNat := by simpa [hA] using (UInt32.le_iff_toNat_le.1 h)
          omega
        · subst h; exact absurd h' (by decide)
      exact this d h1 hd
    have r1 : Runs .idle [d] [] (.word false [d]) := by
      have hs : d ≠ ' ' ∧ d ≠ '\r' ∧ d ≠ '\t' ∧ d ≠ '"' := by
        refine ⟨?_, ?_, ?_, ?_⟩ <;> (rintro rfl; exact absurd hw (by decide))
      simp [Runs, run, scanStep, scanStart, hs, hw, hd]
    have r2 := runs_word false [d] ds (fun e he => .inl (wordChar_of e (h2 e he)))
    have r3 : Runs (.word false ([d] ++ ds)) [c] (.word (String.ofList ([d] ++ ds)) :: (scanStart c).1) (scanStart c).2 := by
      simp [Runs, run, scanStep, hc]
    have h3 := (r1.append r2).append r3
    have e : String.ofList ([d] ++ ds) = n := by
      rw [List.singleton_append, ← hn, String.ofList_toList]
    rw [e] at h3
    simpa using h3

theorem good_piece (ss : List Seg) (h : Good ss) : Piece (segsText ss).toList (segsToks ss) := by
  induction ss with
  | nil => exact (Runs.nil .idle).toPiece
  | cons s ss ih =>
    rw [segsText, segsToks, String.toList_append]
    cases s with
    | k s => exact Runs.piece h.1 (ih h.2)
    | w s =>
      obtain ⟨h1, h2, h3⟩ := h
      intro c hc
      match ss, h2 with
      | [], _ => simpa [segsText, segsToks, Seg.text, Seg.toks] using word_runs s h1 c hc.1
      | .k t :: ss, h2 =>
        have hp := ih h3 c hc
        rw [begins] at h2
        rw [segsText, String.toList_append] at hp ⊢
        simp only [Seg.text, Seg.toks] at hp ⊢
        match ht : t.toList, h2 with
        | d :: ds, h2 =>
          have hd : isWordChar d = false := by simpa [ht] using h2
          rw [ht] at hp
          have h1 := word_runs s h1 d hd
          unfold Runs at *
          rw [show s.toList ++ (d :: ds ++ (segsText ss).toList) ++ [c]
            = (s.toList ++ [d]) ++ (ds ++ (segsText ss).toList ++ [c]) by simp, run_append, h1]
          simp only [List.cons_append, run, scanStep, Prod.mk.injEq] at hp
          simp [← hp.1, ← hp.2]
        | [], h2 => simp at h2
    | p s ts =>
      obtain ⟨h1, _, h2, h3⟩ := h
      match ss, h2 with
      | [], _ => simpa [segsText, segsToks, Seg.text, Seg.toks] using h1
      | .k t :: ss, h2 =>
        have hp := ih h3
        rw [begins] at h2
        rw [segsText, String.toList_append] at hp ⊢
        simp only [Seg.text] at hp ⊢
        match ht : t.toList, h2 with
        | d :: ds, h2 =>
          have hd : isBreak d := by simpa [ht] using h2
          rw [ht] at hp
          exact h1.piece hd hp
        | [], h2 => simp at h2

theorem good_noNL (ss : List Seg) (h : Good ss) : noNL (segsToks ss) := by
  induction ss with
  | nil => intro t ht; exact absurd ht (by simp [segsToks])
  | cons s ss ih =>
    rw [segsToks]
    cases s with
    | k s => exact (noNL_code s).append (ih h.2)
    | w s => exact noNL.append (by intro t ht; simp [Seg.toks] at ht; simp [ht]) (ih h.2.2)
    | p s ts => exact h.2.1.append (ih h.2.2.2)

/-- The lines are read as the pieces. -/
def Lexes (ls : List Line) (ts : List Tok) : Prop :=
  ∀ u, ∃ us, Runs .idle (linesText u ls).toList us .idle ∧ us.filter (· ≠ .sym '\n') = ts

theorem Lexes.nil : Lexes [] [] := fun _ => ⟨[], by simpa [linesText] using Runs.nil .idle, rfl⟩

theorem Lexes.append {a b : List Line} {ta tb : List Tok} (ha : Lexes a ta) (hb : Lexes b tb) :
    Lexes (a ++ b) (ta ++ tb) := by
  intro u
  obtain ⟨ua, ra, ea⟩ := ha u
  obtain ⟨ub, rb, eb⟩ := hb u
  refine ⟨ua ++ ub, ?_, by rw [List.filter_append, ea, eb]⟩
  rw [linesText_append, String.toList_append]
  exact ra.append rb

theorem Lexes.blank : Lexes [(0, "")] [] := by
  intro u
  refine ⟨[.sym '\n'], ?_, by decide⟩
  simp only [linesText, repeatStr]; decide

/-- A line given by its parts. -/
theorem Lexes.line (n : Nat) (ss : List Seg) {s : String} {ts : List Tok} (hg : Good ss) (hs : s = segsText ss)
    (ht : segsToks ss = ts) : Lexes [(n, s)] ts := by
  subst hs ht
  intro u
  have e : (linesText u [(n, segsText ss)]).toList
      = (repeatStr (repeatStr " " u) n).toList ++ ((segsText ss).toList ++ ['\n']) := by
    simp [linesText]
  have hp := good_piece ss hg '\n' (by decide)
  refine ⟨segsToks ss ++ [.sym '\n'], ?_, ?_⟩
  · rw [e]
    exact (runs_indent u n).append hp
  · rw [List.filter_append, (good_noNL ss hg).filter]
    simp

theorem Lexes.flatMap {α : Type} (as : List α) (f : α → List Line) (g : α → List Tok)
    (h : ∀ a ∈ as, Lexes (f a) (g a)) : Lexes (as.flatMap f) (as.flatMap g) := by
  induction as with
  | nil => exact Lexes.nil
  | cons a as ih =>
    rw [List.flatMap_cons, List.flatMap_cons]
    exact (h a (by simp)).append (ih (fun b hb => h b (by simp [hb])))

theorem Lexes.map {α : Type} (as : List α) (f : α → Line) (g : α → List Tok)
    (h : ∀ a ∈ as, Lexes [f a] (g a)) : Lexes (as.map f) (as.flatMap g) := by
  rw [List.map_eq_flatMap]
  exact Lexes.flatMap as (fun a => [f a]) g h

theorem Lexes.blocks {α : Type} (as : List α) (f : α → List Line) (g : α → List Tok)
    (h : ∀ a ∈ as, Lexes (f a) (g a)) : Lexes (joinBlocks (as.map f)) (as.flatMap g) := by
  induction as with
  | nil => exact Lexes.nil
  | cons a as ih =>
    have ha := h a (by simp)
    cases as with
    | nil => simpa [joinBlocks] using ha
    | cons b bs =>
      have hb := ih (fun c hc => h c (by simp [hc]))
      rw [List.map_cons, List.map_cons, joinBlocks, List.flatMap_cons]
      exact ha.append (Lexes.blank.append hb)

/-- A whole text. -/
theorem Lexes.pieces {u : Nat} {ls : List Line} {ts : List Tok} (h : Lexes ls ts) :
    pieces (linesText u ls) = some ts := by
  obtain ⟨us, r, e⟩ := h u
  have h1 : scanFrom .idle (linesText u ls).toList = some us := by
    have := scanFrom_run .idle (linesText u ls).toList []
    rw [List.append_nil, r] at this
    simpa [scanFrom] using this
  simp only [Pieces.pieces, scan, h1, Option.map_some, e]

theorem piece_of (ss : List Seg) {s : String} {ts : List Tok} (hg : Good ss) (hs : s = segsText ss)
    (ht : segsToks ss = ts) : Piece s.toList ts ∧ noNL ts := by
  subst hs ht
  exact ⟨good_piece ss hg, good_noNL ss hg⟩

theorem Lexes.of_eq {ls : List Line} {ts ts' : List Tok} (h : Lexes ls ts) (e : ts = ts') : Lexes ls ts' := e ▸ h

theorem line_k (n : Nat) (s : String) (h : Clean s) : Lexes [(n, s)] (code s) :=
  Lexes.line n [.k s] ⟨h, trivial⟩ (by simp [segsText, Seg.text]) (by simp [segsToks, Seg.toks])

theorem line_piece (n : Nat) {s : String} {ts : List Tok} (h : Piece s.toList ts ∧ noNL ts) : Lexes [(n, s)] ts :=
  Lexes.line n [.p s ts] ⟨h.1, h.2, rfl, trivial⟩ (by simp only [segsText, Seg.text, String.append_empty])
    (by simp [segsToks, Seg.toks])

/-- A name between fixed texts. -/
theorem line_name (n : Nat) (a w b : String) (hw : isIdent w = true) (ha : Clean a) (hb : Clean b)
    (hbreak : b.toList.head?.any (fun c => !isWordChar c) = true) :
    Lexes [(n, a ++ w ++ b)] (code a ++ .word w :: code b) :=
  Lexes.line n [.k a, .w w, .k b] ⟨ha, hw, hbreak, hb, trivial⟩
    (by simp only [segsText, Seg.text, String.append_empty, String.append_assoc])
    (by simp [segsToks, Seg.toks])

theorem line_start (n : Nat) (w b : String) (hw : isIdent w = true) (hb : Clean b)
    (hbreak : b.toList.head?.any (fun c => !isWordChar c) = true) :
    Lexes [(n, w ++ b)] (.word w :: code b) :=
  Lexes.line n [.w w, .k b] ⟨hw, hbreak, hb, trivial⟩
    (by simp only [segsText, Seg.text, String.append_empty]) (by simp [segsToks, Seg.toks])

/-! ### Readers -/

theorem eat_ok (ps ts : List Tok) : eat ps (ps ++ ts) = some ts := by
  induction ps with
  | nil => rfl
  | cons p ps ih => simp [eat, ih]

theorem before_ok {α : Type} {item : Reader α} {after ts r : List Tok} {a : α}
    (h : item ts = some (a, after ++ r)) : before after item ts = some (a, r) := by
  simp [before, h, eat_ok]

theorem many_ok {α : Type} {item : Reader α} {stop : Tok} (toks : α → List Tok) (r : List Tok) (as : List α)
    (h : ∀ a ∈ as, ∀ r, item (toks a ++ r) = some (a, r))
    (hs : ∀ a ∈ as, ∃ t ts, toks a = t :: ts ∧ t ≠ stop) :
    ∀ fuel, as.length < fuel → many item stop fuel (as.flatMap toks ++ stop :: r) = some (as, r) := by
  induction as with
  | nil =>
    intro fuel hf
    match fuel, hf with
    | fuel + 1, _ => simp [many]
  | cons a as ih =>
    intro fuel hf
    match fuel, hf with
    | fuel + 1, hf =>
      obtain ⟨t, ts, ht, hn⟩ := hs a (by simp)
      have h1 := h a (by simp) (as.flatMap toks ++ stop :: r)
      rw [List.flatMap_cons, List.append_assoc]
      rw [ht] at h1 ⊢
      rw [List.cons_append] at h1 ⊢
      rw [many, if_neg hn, h1]
      simp only
      rw [ih (fun b hb => h b (by simp [hb])) (fun b hb => hs b (by simp [hb])) fuel
        (by simp only [List.length_cons] at hf; omega)]

theorem length_flatMap_le {α : Type} (toks : α → List Tok) (as : List α)
    (hs : ∀ a ∈ as, ∃ t ts, toks a = t :: ts) : as.length ≤ (as.flatMap toks).length := by
  induction as with
  | nil => simp
  | cons a as ih =>
    obtain ⟨t, ts, ht⟩ := hs a (by simp)
    have := ih (fun b hb => hs b (by simp [hb]))
    rw [List.flatMap_cons, ht, List.length_append, List.length_cons, List.length_cons]
    omega

theorem manyAll_ok {α : Type} {item : Reader α} {stop : Tok} (toks : α → List Tok) (r : List Tok) (as : List α)
    (h : ∀ a ∈ as, ∀ r, item (toks a ++ r) = some (a, r))
    (hs : ∀ a ∈ as, ∃ t ts, toks a = t :: ts ∧ t ≠ stop) :
    many item stop (as.flatMap toks ++ stop :: r).length (as.flatMap toks ++ stop :: r) = some (as, r) := by
  refine many_ok toks r as h hs _ ?_
  have := length_flatMap_le toks as (fun a ha => by obtain ⟨t, ts, h, _⟩ := hs a ha; exact ⟨t, ts, h⟩)
  rw [List.length_append, List.length_cons]
  omega

theorem upTo_ok {α : Type} {item : Reader α} {stop : Char} (toks : α → List Tok) (r : List Tok) (as : List α)
    (h : ∀ a ∈ as, ∀ r, item (toks a ++ r) = some (a, r))
    (hs : ∀ a ∈ as, ∃ t ts, toks a = t :: ts ∧ t ≠ .sym stop) :
    upTo stop item (as.flatMap toks ++ .sym stop :: r) = some (as, r) :=
  manyAll_ok toks r as h hs

theorem toEnd_ok {α : Type} {item : Reader α} (toks : α → List Tok) (as : List α)
    (h : ∀ a ∈ as, ∀ r, item (toks a ++ r) = some (a, r)) (hs : ∀ a ∈ as, ∃ t ts, toks a = t :: ts) :
    ∀ fuel, as.length ≤ fuel → toEnd item fuel (as.flatMap toks) = some as := by
  induction as with
  | nil => intro fuel _; cases fuel <;> rfl
  | cons a as ih =>
    intro fuel hf
    match fuel, hf with
    | fuel + 1, hf =>
      obtain ⟨t, ts, ht⟩ := hs a (by simp)
      have h1 := h a (by simp) (as.flatMap toks)
      rw [List.flatMap_cons]
      rw [ht] at h1 ⊢
      rw [List.cons_append] at h1 ⊢
      rw [toEnd, h1]
      simp only
      rw [ih (fun b hb => h b (by simp [hb])) (fun b hb => hs b (by simp [hb])) fuel
        (by simp only [List.length_cons] at hf; omega)]
      rfl

theorem toEndAll_ok {α : Type} {item : Reader α} (toks : α → List Tok) (as : List α)
    (h : ∀ a ∈ as, ∀ r, item (toks a ++ r) = some (a, r)) (hs : ∀ a ∈ as, ∃ t ts, toks a = t :: ts) :
    toEnd item (as.flatMap toks).length (as.flatMap toks) = some as :=
  toEnd_ok toks as h hs _ (length_flatMap_le toks as hs)

theorem number_ok (n : Nat) (r : List Tok) : number (.word (toString n) :: r) = some (n, r) := by
  have e : (toString n).toList = Nat.toDigits 10 n := by simp [toString, Nat.repr]
  rw [number, e, if_pos (toDigits_decimal n), decimal_toDigits]

theorem piece_nat (n : Nat) : Piece (toString n).toList [.word (toString n)] := by
  have e : (toString n).toList = Nat.toDigits 10 n := by simp [toString, Nat.repr]
  have h := toDigits_decimal n
  have e' : String.ofList (Nat.toDigits 10 n) = toString n := by rw [← e, String.ofList_toList]
  match hd : Nat.toDigits 10 n, h with
  | [], h => exact absurd rfl h.1
  | c :: cs, h =>
    have := piece_number c cs (h.2 c (by simp)) (fun d hd => .inl (h.2 d (by simp [hd])))
    rw [← hd, e'] at this
    rw [e]
    exact this

theorem noNL_word (s : String) : noNL [.word s] := by intro t ht; simp at ht; simp [ht]

end TPB.Spec.Pieces
