/- How the constants that the Kotlin and Swift generators emit are read. -/
import Verif.Spec.MobileConsts
import Verif.Proofs.Consts
import Verif.Proofs.ConstStrings
import Verif.Proofs.KotlinText
import Verif.Proofs.SwiftText
import Verif.Proofs.MobileOk
namespace TPB.Spec

/-! ### Lines -/

/-- `cs` is read as the lines `ls`, whatever follows. -/
def LinesOf (cs : List Char) (ls : List (List Tok)) : Prop :=
  ∃ ts, Runs .idle cs ts .idle ∧ ∀ more, linesFrom [] (ts ++ more) = ls ++ linesFrom [] more

theorem LinesOf.nil : LinesOf [] [] := ⟨[], Runs.nil _, fun _ => rfl⟩

theorem LinesOf.append {a b : List Char} {la lb : List (List Tok)} (ha : LinesOf a la) (hb : LinesOf b lb) :
    LinesOf (a ++ b) (la ++ lb) := by
  obtain ⟨ta, ra, ea⟩ := ha
  obtain ⟨tb, rb, eb⟩ := hb
  exact ⟨ta ++ tb, ra.append rb, fun more => by rw [List.append_assoc, ea, eb, List.append_assoc]⟩

theorem linesFrom_inner (acc ts more : List Tok) (h : ∀ t ∈ ts, t ≠ .sym '\n') :
    linesFrom acc (ts ++ more) = linesFrom (acc ++ ts) more := by
  induction ts generalizing acc with
  | nil => simp
  | cons t ts ih => simp [linesFrom, h t (by simp), ih (acc ++ [t]) (fun u hu => h u (by simp [hu]))]

theorem linesOf_line (u k : Nat) (body : String) (ts : List Tok) (h : Piece body.toList ts) (hne : ts ≠ [])
    (hi : ∀ t ∈ ts, t ≠ .sym '\n') : LinesOf (linesText u [(k, body)]).toList [ts] := by
  have e1 : (linesText u [(k, body)]).toList
      = (repeatStr (repeatStr " " u) k).toList ++ (body.toList ++ ['\n']) := by
    simp [linesText]
  rw [e1]
  have hb : isBreak '\n' := by decide
  refine ⟨_, (runs_indent u k).append (h '\n' hb), fun more => ?_⟩
  have e2 : (scanStart '\n').1 = [.sym '\n'] := by decide
  rw [List.nil_append, e2, List.append_assoc, linesFrom_inner _ _ _ hi]
  simp [linesFrom, hne]

theorem linesOf_blank : LinesOf ['\n'] [] := ⟨[.sym '\n'], by decide, fun more => by simp [linesFrom]⟩

/-! ### Reading lines -/

/-- `cs`, standing in the objects `path`, declares `ds`. -/
def TextReads (L : MobileLang) (path : List String) (cs : List Char) (ds : List MobileDecl) : Prop :=
  ∃ ls, LinesOf cs ls ∧ ∀ rest, readMobileFrom L path (ls ++ rest) = (ds ++ ·) <$> readMobileFrom L path rest

theorem TextReads.nil (L : MobileLang) (path : List String) : TextReads L path [] [] :=
  ⟨[], LinesOf.nil, fun rest => by cases h : readMobileFrom L path rest <;> simp [h]⟩

theorem TextReads.append {L : MobileLang} {path : List String} {a b : List Char} {da db : List MobileDecl}
    (ha : TextReads L path a da) (hb : TextReads L path b db) : TextReads L path (a ++ b) (da ++ db) := by
  obtain ⟨la, ra, ea⟩ := ha
  obtain ⟨lb, rb, eb⟩ := hb
  refine ⟨la ++ lb, ra.append rb, fun rest => ?_⟩
  rw [List.append_assoc, ea, eb]
  cases readMobileFrom L path rest <;> simp

theorem TextReads.newlines (L : MobileLang) (path : List String) (k : Nat) :
    TextReads L path (List.replicate k '\n') [] := by
  induction k with
  | zero => exact .nil L path
  | succ k ih =>
    have : TextReads L path ['\n'] [] :=
      ⟨[], linesOf_blank, fun rest => by cases h : readMobileFrom L path rest <;> simp [h]⟩
    exact this.append ih

/-- A whole text. -/
theorem TextReads.read {L : MobileLang} {text : String} {ds : List MobileDecl} (h : TextReads L [] text.toList ds) :
    readMobile L text = some ds := by
  obtain ⟨ls, ⟨ts, r, e⟩, h⟩ := h
  have h1 : scanFrom .idle text.toList = some ts := by
    have := scanFrom_run .idle text.toList []
    rw [List.append_nil, r] at this
    simpa [scanFrom] using this
  have h2 := e []
  have h3 := h []
  simp only [List.append_nil, linesFrom, if_true] at h2
  simp only [List.append_nil, readMobileFrom, if_true] at h3
  simp [readMobile, textLines, scan, h1, h2, h3]

theorem TextReads.close {L : MobileLang} {path : List String} {a b c : List Char} {n : String} {ds : List MobileDecl}
    (l : List Tok) (ha : LinesOf a [l]) (hl : L.head l = some (n, true)) (hn : l ≠ [.sym '}'])
    (hb : TextReads L (path ++ [n]) b ds) (hc : LinesOf c [[.sym '}']]) :
    TextReads L path (a ++ (b ++ c)) (.block (path ++ [n]) :: ds) := by
  obtain ⟨lb, rb, eb⟩ := hb
  refine ⟨[l] ++ (lb ++ [[.sym '}']]), ha.append (rb.append hc), fun rest => ?_⟩
  have e : readMobileFrom L (path ++ [n]) ([.sym '}'] :: rest) = readMobileFrom L path rest := by
    simp [readMobileFrom]
  have e1 := eb ([.sym '}'] :: rest)
  rw [e] at e1
  rw [show [l] ++ (lb ++ [[Tok.sym '}']]) ++ rest = l :: (lb ++ ([.sym '}'] :: rest)) by simp]
  rw [readMobileFrom]
  simp only [hn, if_false, hl, e1]
  cases readMobileFrom L path rest <;> simp

theorem TextReads.empty {L : MobileLang} {path : List String} {a : List Char} {n : String}
    (l : List Tok) (ha : LinesOf a [l]) (hl : L.head l = some (n, false)) (hn : l ≠ [.sym '}']) :
    TextReads L path a [.block (path ++ [n])] := by
  refine ⟨[l], ha, fun rest => ?_⟩
  simp only [List.singleton_append, readMobileFrom, hn, if_false, hl]

theorem TextReads.const {L : MobileLang} {path : List String} {a : List Char} {c : MobileConst}
    (l : List Tok) (ha : LinesOf a [l]) (hl : L.head l = none) (hn : l ≠ [.sym '}'])
    (hc : readMobileConst L path l = some c) : TextReads L path a [.const c] := by
  refine ⟨[l], ha, fun rest => ?_⟩
  simp only [List.singleton_append, readMobileFrom, hn, if_false, hl, hc]

/-! ### Numbers with suffixes -/

/-- Digits and points, beginning with a digit. -/
def NumChars (cs : List Char) : Prop := ∃ c ds, cs = c :: ds ∧ IsDigit c ∧ ∀ d ∈ ds, IsDigit d ∨ d = '.'

theorem numChars_decimal {cs : List Char} (h : IsDecimal cs) : NumChars cs := by
  match cs, h with
  | [], h => exact absurd rfl h.1
  | c :: ds, h => exact ⟨c, ds, rfl, h.2 c (by simp), fun d hd => .inl (h.2 d (by simp [hd]))⟩

theorem numChars_fraction {cs : List Char} (h : IsFraction cs) : NumChars cs := fraction_chars cs h

/-- The suffixes of numbers. -/
def IsSuffix (s : String) : Prop := s ∈ ["", "L", "U", "UL", "f"]

theorem suffix_chars {s : String} (h : IsSuffix s) : ∀ d ∈ s.toList, isWordChar d = true ∧ ¬ IsDigit d ∧ d ≠ '.' := by
  simp only [IsSuffix, List.mem_cons, List.not_mem_nil, or_false] at h
  rcases h with rfl | rfl | rfl | rfl | rfl <;> decide

theorem piece_suffixed (p suf : String) (hp : NumChars p.toList) (hs : IsSuffix suf) :
    Piece (p ++ suf).toList [.word (p ++ suf)] := by
  obtain ⟨c, ds, e, h1, h2⟩ := hp
  have h := piece_wordlike true c (ds ++ suf.toList) (wordChar_of c (.inr h1)) (by simpa using h1) (fun d hd => by
    rw [List.mem_append] at hd
    rcases hd with hd | hd
    · rcases h2 d hd with h | h
      · exact .inl (wordChar_of d (.inr h))
      · exact .inr ⟨rfl, h⟩
    · exact .inl (suffix_chars hs d hd).1)
  have e2 : (p ++ suf).toList = c :: (ds ++ suf.toList) := by rw [String.toList_append, e]; rfl
  rw [e2]
  rwa [← e2, String.ofList_toList, e2] at h

theorem numChars_all {cs : List Char} (h : NumChars cs) : ∀ d ∈ cs, (decide (IsDigit d) || d == '.') = true := by
  obtain ⟨c, ds, rfl, h1, h2⟩ := h
  intro d hd
  rw [List.mem_cons] at hd
  rcases hd with rfl | hd
  · simp [h1]
  · rcases h2 d hd with h | h <;> simp [h]

theorem takeWhile_whole (p : Char → Bool) (cs : List Char) (h : ∀ c ∈ cs, p c = true) :
    cs.takeWhile p = cs ∧ cs.dropWhile p = [] := by
  induction cs with
  | nil => exact ⟨rfl, rfl⟩
  | cons c cs ih =>
    have := ih (fun d hd => h d (by simp [hd]))
    simp [h c (by simp), this.1, this.2]

theorem num_parts (p suf : String) (hp : NumChars p.toList) (hs : IsSuffix suf) :
    numPart (p ++ suf) = p.toList ∧ numSuffix (p ++ suf) = suf := by
  have ha := numChars_all hp
  unfold numPart numSuffix
  rw [String.toList_append]
  match hsuf : suf.toList with
  | [] =>
    have : suf = "" := by rw [← String.toList_inj, hsuf]; rfl
    subst this
    rw [List.append_nil]
    have h := takeWhile_whole (fun c => decide (IsDigit c) || c == '.') p.toList ha
    rw [h.1, h.2]
    exact ⟨rfl, rfl⟩
  | d :: ds =>
    have hd := suffix_chars hs d (by simp [hsuf])
    have := takeWhile_stop (fun c => decide (IsDigit c) || c == '.') p.toList d ds ha (by simp [hd])
    rw [this.1, this.2]
    refine ⟨rfl, ?_⟩
    rw [← hsuf, String.ofList_toList]

theorem read_plain (str : String → Option String) (p : String) (hp : NumChars p.toList) :
    readMobileLit str [.word p] = (wordLit p).map (fun l => (l, "")) := by
  have h := num_parts p "" hp (by simp [IsSuffix])
  rw [String.append_empty] at h
  simp [readMobileLit, h.2]

theorem read_suffixed_int (str : String → Option String) (p suf : String) (hp : IsDecimal p.toList)
    (hs : suf ∈ ["L", "U", "UL"]) :
    readMobileLit str [.word (p ++ suf)] = some (.int (decimal p.toList), suf) := by
  have hs' : IsSuffix suf := by
    simp only [IsSuffix, List.mem_cons, List.not_mem_nil, or_false] at hs ⊢
    rcases hs with rfl | rfl | rfl <;> simp
  have h := num_parts p suf (numChars_decimal hp) hs'
  have h1 : ¬ (numPart (p ++ suf) = [] ∨ numSuffix (p ++ suf) = "") := by
    rw [h.1, h.2]
    rintro (e | e)
    · exact hp.1 e
    · subst e; simp at hs
  have h2 : numSuffix (p ++ suf) ≠ "f" := by
    rw [h.2]; rintro rfl; simp at hs
  simp only [readMobileLit, h1, if_false, h2]
  rw [h.1, h.2, if_pos hs, if_pos hp]

theorem read_suffixed_float (str : String → Option String) (p : String)
    (hp : IsDecimal p.toList ∨ IsFraction p.toList) :
    readMobileLit str [.word (p ++ "f")] = some (.num p, "f") := by
  have hn : NumChars p.toList := hp.elim numChars_decimal numChars_fraction
  have h := num_parts p "f" hn (by simp [IsSuffix])
  have h1 : ¬ (numPart (p ++ "f") = [] ∨ numSuffix (p ++ "f") = "") := by
    rw [h.1, h.2]
    rintro (e | e)
    · obtain ⟨c, ds, e2, _⟩ := hn; rw [e] at e2; cases e2
    · simp at e
  simp only [readMobileLit, h1, if_false]
  rw [h.1, h.2, if_pos rfl, if_pos hp, String.ofList_toList]

theorem wordLit_nat (n : Nat) : wordLit (toString n) = some (.int n) := by
  have h := isDecimal_toString n
  have hb := digit_not_t _ (.inl h.1)
  unfold wordLit
  rw [if_neg hb.1, if_neg hb.2, if_pos h.1, h.2]

theorem fraction_not_decimal {cs : List Char} (h : IsFraction cs) : ¬ IsDecimal cs := by
  intro h1
  obtain ⟨_, fs, h2, h3⟩ := h
  have hm : '.' ∈ cs := by
    have : '.' ∈ cs.dropWhile (· ≠ '.') := by rw [h2]; simp
    exact List.dropWhile_sublist _ |>.subset this
  exact absurd (h1.2 '.' hm) (by decide)

theorem wordLit_fraction {p : String} (h : IsFraction p.toList) : wordLit p = some (.num p) := by
  have hb := digit_not_t _ (.inr h)
  simp [wordLit, hb, h, fraction_not_decimal h]

theorem fraction_point {p : String} (h : IsDecimal p.toList) : IsFraction (p ++ ".0").toList := by
  have ha : ∀ c ∈ p.toList, decide (c ≠ '.') = true := by
    intro c hc
    have := h.2 c hc
    simp only [decide_eq_true_eq]
    rintro rfl
    exact absurd this (by decide)
  have e : (p ++ ".0").toList = p.toList ++ '.' :: ['0'] := by simp [String.toList_append]
  have := takeWhile_stop (fun c => decide (c ≠ '.')) p.toList '.' ['0'] ha (by simp)
  unfold IsFraction
  rw [e, this.1, this.2]
  exact ⟨h, ['0'], rfl, by decide⟩

/-! ### Strings -/

/-- Text that a Kotlin string keeps; `d` says that a `$` stands before it. -/
def GoodKotlin : Bool → List Char → Prop
  | _, [] => True
  | d, c :: cs => ¬ (d = true ∧ beginsTemplate c = true) ∧ c ≠ '\\' ∧ c ≠ '\n' ∧ c ≠ '\r' ∧ c ≠ '"' ∧ GoodKotlin (c == '$') cs

theorem goodKotlin_iff (d : Bool) (cs : List Char) : GoodKotlin d cs ↔
    ('\\' ∉ cs ∧ '\n' ∉ cs ∧ '\r' ∉ cs ∧ '"' ∉ cs) ∧ (d = true → ∀ c b, cs = c :: b → beginsTemplate c = false) ∧
      ¬ ∃ a c b, cs = a ++ '$' :: c :: b ∧ beginsTemplate c = true := by
  induction cs generalizing d with
  | nil => simp [GoodKotlin]
  | cons c cs ih =>
    have key : (¬ ∃ a e b, c :: cs = a ++ '$' :: e :: b ∧ beginsTemplate e = true) ↔
        (c = '$' → ∀ e b, cs = e :: b → beginsTemplate e = false) ∧
          ¬ ∃ a e b, cs = a ++ '$' :: e :: b ∧ beginsTemplate e = true := by
      constructor
      · intro h
        refine ⟨fun hc e b hb => ?_, ?_⟩
        · cases ht : beginsTemplate e with
          | false => rfl
          | true => exact absurd ⟨[], e, b, by simp [hc, hb], ht⟩ h
        · rintro ⟨a, e, b, h1, h2⟩
          exact h ⟨c :: a, e, b, by simp [h1], h2⟩
      · rintro ⟨h1, h2⟩ ⟨a, e, b, h3, h4⟩
        cases a with
        | nil =>
          simp only [List.nil_append, List.cons.injEq] at h3
          have := h1 h3.1 e b h3.2
          simp [this] at h4
        | cons a' a =>
          simp only [List.cons_append, List.cons.injEq] at h3
          exact h2 ⟨a, e, b, h3.2, h4⟩
    rw [key, GoodKotlin, ih]
    simp only [List.mem_cons, not_or, beq_iff_eq, List.cons.injEq, and_imp, forall_eq', Ne, eq_comm (b := c)]
    have e : (¬ (d = true ∧ beginsTemplate c = true)) ↔ (d = true → ∀ c_1 b, c = c_1 → cs = b → beginsTemplate c_1 = false) := by
      cases d <;> simp
    rw [e]
    clear ih key e
    constructor
    · rintro ⟨h1, h2, h3, h4, h5, ⟨h6, h7, h8, h9⟩, h10, h11⟩
      exact ⟨⟨⟨h2, h6⟩, ⟨h3, h7⟩, ⟨h4, h8⟩, ⟨h5, h9⟩⟩, h1, h10, h11⟩
    · rintro ⟨⟨⟨h2, h6⟩, ⟨h3, h7⟩, ⟨h4, h8⟩, ⟨h5, h9⟩⟩, h1, h10, h11⟩
      exact ⟨h1, h2, h3, h4, h5, ⟨h6, h7, h8, h9⟩, h10, h11⟩

theorem kotlinPlain_len (c : Char) (out : List Char) (s : KStrState) (h : kotlinStep.plain c = some (out, s)) :
    out.length ≤ 1 := by
  unfold kotlinStep.plain at h
  repeat' split at h
  all_goals first | (simp at h; done) | (simp at h; simp [← h.1]; done) | (simp at h; simp [h.1]; done)

theorem kotlinStep_len (s : KStrState) (c : Char) (out : List Char) (s' : KStrState) (h : kotlinStep s c = some (out, s')) :
    out.length ≤ 1 := by
  cases s <;> simp only [kotlinStep] at h <;> repeat' split at h
  all_goals first
    | exact kotlinPlain_len _ _ _ h
    | (simp at h; done)
    | (simp at h; simp [← h.1]; done)
    | (simp at h; simp [h.1]; done)

theorem swiftStep_len (s : DecState) (c : Char) (out : List Char) (s' : DecState) (h : swiftStep s c = some (out, s')) :
    out.length ≤ 1 := by
  cases s <;> simp only [swiftStep] at h <;> repeat' split at h
  all_goals first
    | exact codePoint_len _ _ _ h
    | (simp at h; done)
    | (simp at h; simp [← h.1]; done)
    | (simp at h; simp [h.1]; done)

/-- The two states in plain text. -/
def kState (d : Bool) : KStrState := if d then .dollar else .plain

theorem kotlin_decode (d : Bool) (cs : List Char) (h : GoodKotlin d cs) :
    decodeWith kotlinStep (fun s => s = .plain || s = .dollar) (kState d) cs = some cs := by
  induction cs generalizing d with
  | nil => cases d <;> rfl
  | cons c cs ih =>
    obtain ⟨h1, h2, h3, h4, h5, h6⟩ := h
    have e : kotlinStep (kState d) c = some ([c], kState (c == '$')) := by
      have e1 : kotlinStep.plain c = some ([c], kState (c == '$')) := by
        by_cases hd : c = '$'
        · subst hd; rfl
        · simp [kotlinStep.plain, h2, h3, h4, h5, hd, kState]
      cases d with
      | false => exact e1
      | true =>
        have : beginsTemplate c = false := by simpa using h1
        simp [kState, kotlinStep, this]
        simpa [kState] using e1
    simp [decodeWith, e, ih _ h6]

theorem kotlin_decode_conv (d : Bool) (cs out : List Char)
    (h : decodeWith kotlinStep (fun s => s = .plain || s = .dollar) (kState d) cs = some out)
    (hl : out.length = cs.length) : GoodKotlin d cs := by
  induction cs generalizing d out with
  | nil => trivial
  | cons c cs ih =>
    simp only [decodeWith] at h
    cases hs : kotlinStep (kState d) c with
    | none => simp [hs] at h
    | some r =>
      obtain ⟨o, s'⟩ := r
      simp only [hs, Option.map_eq_map, Option.map_eq_some_iff] at h
      obtain ⟨o2, h1, rfl⟩ := h
      have hlen := decode_length _ _ kotlinStep_len s' cs o2 h1
      have ht : ¬ (d = true ∧ beginsTemplate c = true) := by
        rintro ⟨rfl, h2⟩
        simp [kState, kotlinStep, h2] at hs
      have hp : kotlinStep.plain c = some (o, s') := by
        cases d with
        | false => exact hs
        | true =>
          have h2 : beginsTemplate c = false := by simpa using ht
          simpa [kState, kotlinStep, h2] using hs
      unfold kotlinStep.plain at hp
      split at hp
      · simp only [Option.some.injEq, Prod.mk.injEq] at hp
        rw [← hp.1] at hl
        simp at hl
        omega
      · next hb =>
        split at hp
        · next hd =>
          simp only [Option.some.injEq, Prod.mk.injEq] at hp
          subst hd
          rw [← hp.2] at h1
          rw [← hp.1] at hl
          exact ⟨ht, by decide, by decide, by decide, by decide, ih true o2 h1 (by simpa using hl)⟩
        · next hd =>
          split at hp
          · cases hp
          · next hq =>
            simp only [Option.some.injEq, Prod.mk.injEq] at hp
            rw [← hp.2] at h1
            rw [← hp.1] at hl
            simp only [not_or] at hq
            have e : (c == '$') = false := by simpa using hd
            refine ⟨ht, hb, hq.1, hq.2.1, hq.2.2, ?_⟩
            rw [e]
            exact ih false o2 h1 (by simpa using hl)

/-- Which texts a Kotlin string keeps. -/
theorem kotlinString_iff (s : String) : kotlinString s = some s ↔
    ('\\' ∉ s.toList ∧ '\n' ∉ s.toList ∧ '\r' ∉ s.toList ∧ '"' ∉ s.toList) ∧ ¬ HasTemplate s := by
  have key := goodKotlin_iff false s.toList
  simp only [Bool.false_eq_true, false_implies, true_and] at key
  rw [show HasTemplate s = ∃ a c b, s.toList = a ++ '$' :: c :: b ∧ beginsTemplate c = true from rfl, ← key]
  constructor
  · intro h
    simp only [kotlinString, Option.map_eq_some_iff] at h
    obtain ⟨out, h1, h2⟩ := h
    have : out = s.toList := by rw [← h2]; simp
    exact kotlin_decode_conv false s.toList out h1 (by rw [this])
  · intro h
    have := kotlin_decode false s.toList h
    simp only [kState, Bool.false_eq_true, if_false] at this
    simp [kotlinString, this]

theorem swift_nonplain {c : Char} (h : c = '\\' ∨ c = '\n' ∨ c = '\r' ∨ c = '"') (o : List Char) (s' : DecState)
    (e : swiftStep .plain c = some (o, s')) : o = [] := by
  rcases h with rfl | rfl | rfl | rfl <;> simp [swiftStep] at e
  · exact e.1

theorem swift_plain {c : Char} (h : ¬ (c = '\\' ∨ c = '\n' ∨ c = '\r' ∨ c = '"')) :
    swiftStep .plain c = some ([c], .plain) := by
  simp only [not_or] at h
  simp [swiftStep, h]

/-- Which texts a Swift string keeps. -/
theorem swiftString_iff (s : String) : swiftString s = some s ↔
    '\\' ∉ s.toList ∧ '\n' ∉ s.toList ∧ '\r' ∉ s.toList ∧ '"' ∉ s.toList := by
  constructor
  · intro h
    simp only [swiftString, Option.map_eq_some_iff] at h
    obtain ⟨out, h1, h2⟩ := h
    have key (c : Char) (hc : c = '\\' ∨ c = '\n' ∨ c = '\r' ∨ c = '"') : c ∉ s.toList := by
      intro hm
      have := decode_short _ _ _ swiftStep_len s.toList out c hm (fun o s' => swift_nonplain hc o s')
        (fun d => by
          by_cases hd : d = '\\' ∨ d = '\n' ∨ d = '\r' ∨ d = '"'
          · exact .inr (fun o s' => swift_nonplain hd o s')
          · exact .inl (swift_plain hd)) h1
      rw [← h2] at this
      simp at this
    exact ⟨key _ (by simp), key _ (by simp), key _ (by simp), key _ (by simp)⟩
  · rintro ⟨h1, h2, h3, h4⟩
    have := decode_plain swiftStep (fun s => s = .plain) .plain rfl s.toList (fun c hc =>
      swift_plain (by rintro (rfl | rfl | rfl | rfl) <;> contradiction))
    simp [swiftString, this]

/-! ### Types -/

/-- Pieces of types and values on a line. -/
def Calm (ts : List Tok) : Prop := ∀ u ∈ ts, u ≠ .sym '\n' ∧ u ≠ .sym '='

theorem calm_word (w : String) : Calm [.word w] := by intro u hu; simp at hu; subst hu; simp

theorem calm_join {ts : List (List Tok)} (h : ∀ t ∈ ts, Calm t) : Calm (joinToks ts) :=
  joinToks_all (fun u => u ≠ .sym '\n' ∧ u ≠ .sym '=') (by decide) ts h

/-- The text of a result. -/
def okText (e : Except Panic String) : String := match e with | .ok s => s | .error _ => ""

theorem kotlin_typeIds {ts : List TypeId} {ss : List String} (h : KotlinGen.typeIds ts = .ok ss) :
    ss = ts.map (fun t => okText (KotlinGen.typeId t)) ∧ ∀ t ∈ ts, ∃ s, KotlinGen.typeId t = .ok s := by
  induction ts generalizing ss with
  | nil => simp only [KotlinGen.typeIds, Except.ok.injEq] at h; subst h; simp
  | cons t ts ih =>
    simp only [KotlinGen.typeIds] at h
    cases e : KotlinGen.typeId t with
    | error => rw [e] at h; cases h
    | ok s =>
      rw [e] at h
      cases e' : KotlinGen.typeIds ts with
      | error => rw [e'] at h; cases h
      | ok ss' =>
        rw [e'] at h
        cases h
        obtain ⟨h1, h2⟩ := ih e'
        refine ⟨by simp [e, okText]; simpa [okText] using h1, ?_⟩
        intro u hu
        rw [List.mem_cons] at hu
        rcases hu with rfl | hu
        · exact ⟨s, e⟩
        · exact h2 u hu

theorem swift_typeIds {ts : List TypeId} {ss : List String} (h : SwiftGen.typeIds ts = .ok ss) :
    ss = ts.map (fun t => okText (SwiftGen.typeId t)) ∧ ∀ t ∈ ts, ∃ s, SwiftGen.typeId t = .ok s := by
  induction ts generalizing ss with
  | nil => simp only [SwiftGen.typeIds, Except.ok.injEq] at h; subst h; simp
  | cons t ts ih =>
    simp only [SwiftGen.typeIds] at h
    cases e : SwiftGen.typeId t with
    | error => rw [e] at h; cases h
    | ok s =>
      rw [e] at h
      cases e' : SwiftGen.typeIds ts with
      | error => rw [e'] at h; cases h
      | ok ss' =>
        rw [e'] at h
        cases h
        obtain ⟨h1, h2⟩ := ih e'
        refine ⟨by simp [e, okText]; simpa [okText] using h1, ?_⟩
        intro u hu
        rw [List.mem_cons] at hu
        rcases hu with rfl | hu
        · exact ⟨s, e⟩
        · exact h2 u hu

theorem piece_angles (id : String) (hid : IsIdent id.toList) (body : String) (ts : List Tok) (h : Piece body.toList ts) :
    Piece (id ++ "<" ++ body ++ ">").toList (.word id :: .sym '<' :: (ts ++ [.sym '>'])) := by
  have h3 := h.piece (show isBreak '>' by decide) (show Runs .idle ['>'] [.sym '>'] .idle by decide).toPiece
  have h4 := (show Runs .idle ['<'] [.sym '<'] .idle by decide).piece h3
  have h5 := (piece_ident id hid).piece (show isBreak '<' by decide) h4
  simpa [String.toList_append, List.append_assoc] using h5

theorem piece_square (body : String) (ts : List Tok) (h : Piece body.toList ts) :
    Piece ("[" ++ body ++ "]").toList (.sym '[' :: (ts ++ [.sym ']'])) := by
  have h3 := h.piece (show isBreak ']' by decide) (show Runs .idle [']'] [.sym ']'] .idle by decide).toPiece
  have h4 := (show Runs .idle ['['] [.sym '['] .idle by decide).piece h3
  simpa [String.toList_append, List.append_assoc] using h4

theorem calm_angles {id : String} {ts : List Tok} (h : Calm ts) : Calm (.word id :: .sym '<' :: (ts ++ [.sym '>'])) := by
  intro u hu
  simp only [List.mem_cons, List.mem_append, List.not_mem_nil, or_false] at hu
  rcases hu with rfl | rfl | hu | rfl
  · simp
  · decide
  · exact h u hu
  · decide

theorem calm_square {ts : List Tok} (h : Calm ts) : Calm (.sym '[' :: (ts ++ [.sym ']'])) := by
  intro u hu
  simp only [List.mem_cons, List.mem_append, List.not_mem_nil, or_false] at hu
  rcases hu with rfl | hu | rfl
  · decide
  · exact h u hu
  · decide

theorem ident_toks {ts : List Tok} {w : String} (e : ts = [.word w]) (h : IsIdent w.toList) : Piece w.toList ts ∧ Calm ts := by
  subst e
  exact ⟨piece_ident w h, calm_word w⟩

theorem kotlin_type {t : TypeId} (ht : NamedType t) {s : String} (h : KotlinGen.typeId t = .ok s) :
    Piece s.toList (kotlinTypeToks t) ∧ Calm (kotlinTypeToks t) := by
  induction ht generalizing s with
  | integer id n sg hid =>
    simp only [KotlinGen.typeId] at h
    cases sg
    all_goals
      repeat' split at h
      all_goals first | (cases h; done) | skip
      all_goals
        next hc =>
          obtain ⟨rfl, hb⟩ := hc
          first
          | (cases hb; done)
          | (cases h; exact ident_toks (by simp only [kotlinTypeToks]; rfl) (by decide))
  | number id n hid =>
    simp only [KotlinGen.typeId] at h
    repeat' split at h
    all_goals first | (cases h; done) | skip
    all_goals
      next hc =>
        subst hc
        cases h
        exact ident_toks (by simp only [kotlinTypeToks]; rfl) (by decide)
  | bool id hid => cases h; exact ident_toks (by simp only [kotlinTypeToks]) (by decide)
  | char id hid => cases h; exact ident_toks (by simp only [kotlinTypeToks]) (by decide)
  | other id hid =>
    simp only [KotlinGen.typeId] at h
    split at h
    · next hc => subst hc; cases h; exact ident_toks (by simp only [kotlinTypeToks]; rfl) (by decide)
    · next hc =>
      split at h
      · next hd => subst hd; cases h; exact ident_toks (by simp only [kotlinTypeToks]; rfl) (by decide)
      · next hd => cases h; exact ident_toks (by simp only [kotlinTypeToks]; rw [if_neg (by simp [hc, hd])]) hid
  | generic id as hid has ih =>
    simp only [KotlinGen.typeId] at h
    cases e : KotlinGen.typeIds as with
    | error => rw [e] at h; cases h
    | ok ss =>
      rw [e] at h
      obtain ⟨h1, h2⟩ := kotlin_typeIds e
      have hp : ∀ a ∈ as, Piece (okText (KotlinGen.typeId a)).toList (kotlinTypeToks a) ∧ Calm (kotlinTypeToks a) := by
        intro a ha
        obtain ⟨s, hs⟩ := h2 a ha
        rw [hs]
        exact ih a ha hs
      have hj := piece_join (fun t => okText (KotlinGen.typeId t)) kotlinTypeToks as (fun a ha => (hp a ha).1)
      have hc : Calm (joinToks (as.map kotlinTypeToks)) := calm_join (by
        intro t ht
        obtain ⟨a, ha, rfl⟩ := List.mem_map.1 ht
        exact (hp a ha).2)
      rw [← h1] at hj
      unfold kotlinTypeToks
      refine ⟨?_, calm_angles hc⟩
      dsimp only at h
      split at h
      · next hv =>
        cases h
        rw [if_pos hv]
        exact piece_angles "List" (by decide) _ _ hj
      · next hv =>
        cases h
        rw [if_neg hv]
        exact piece_angles id hid _ _ hj

theorem swift_type {t : TypeId} (ht : LegalType t) {s : String} (h : SwiftGen.typeId t = .ok s) :
    Piece s.toList (swiftTypeToks "char" t) ∧ Calm (swiftTypeToks "char" t) := by
  induction ht generalizing s with
  | name n hn =>
    rcases typeName_cases n with ⟨i, sg, e, hi⟩ | ⟨i, e, hi⟩ | e | e | e
    · rw [e] at h ⊢
      simp only [SwiftGen.typeId] at h
      cases sg
      all_goals
        repeat' split at h
        all_goals first | (cases h; done) | skip
        all_goals
          next hc =>
            obtain ⟨rfl, hb⟩ := hc
            first
            | (cases hb; done)
            | (cases h; exact ident_toks (by simp only [swiftTypeToks]; rfl) (by decide))
    · rw [e] at h ⊢
      simp only [SwiftGen.typeId] at h
      repeat' split at h
      all_goals first | (cases h; done) | skip
      all_goals
        next hc =>
          subst hc
          cases h
          exact ident_toks (by simp only [swiftTypeToks]; rfl) (by decide)
    · rw [e] at h ⊢
      cases h; exact ident_toks (by simp only [swiftTypeToks]) (by decide)
    · rw [e] at h ⊢
      have hc : n = "char" := by
        unfold typeOfName at e
        cases hl : List.lookup n builtinTypes with
        | none => simp [hl] at e
        | some t =>
          simp only [hl, Option.getD_some] at e
          simp only [builtinTypes, List.lookup] at hl
          repeat' split at hl
          all_goals first
            | (simp only [Option.some.injEq] at hl; subst hl; first | (cases e; done) | (cases e; rfl))
            | simp at hl
      subst hc
      cases h; exact ident_toks (by simp only [swiftTypeToks]) (by decide)
    · rw [e] at h ⊢
      simp only [SwiftGen.typeId] at h
      split at h
      · next hc => subst hc; cases h; exact ident_toks (by simp only [swiftTypeToks]; rfl) (by decide)
      · next hc =>
        split at h
        · next hd => subst hd; cases h; exact ident_toks (by simp only [swiftTypeToks]; rfl) (by decide)
        · next hd => cases h; exact ident_toks (by simp only [swiftTypeToks]; rw [if_neg (by simp [hc, hd])]) hn.1
  | generic id as hid has ih =>
    simp only [SwiftGen.typeId] at h
    cases e : SwiftGen.typeIds as with
    | error => rw [e] at h; cases h
    | ok ss =>
      rw [e] at h
      obtain ⟨h1, h2⟩ := swift_typeIds e
      have hp : ∀ a ∈ as, Piece (okText (SwiftGen.typeId a)).toList (swiftTypeToks "char" a) ∧
          Calm (swiftTypeToks "char" a) := by
        intro a ha
        obtain ⟨s, hs⟩ := h2 a ha
        rw [hs]
        exact ih a ha hs
      have hj := piece_join (fun t => okText (SwiftGen.typeId t)) (swiftTypeToks "char") as (fun a ha => (hp a ha).1)
      have hc : Calm (joinToks (as.map (swiftTypeToks "char"))) := calm_join (by
        intro t ht
        obtain ⟨a, ha, rfl⟩ := List.mem_map.1 ht
        exact (hp a ha).2)
      rw [← h1] at hj
      unfold swiftTypeToks
      dsimp only at h
      split at h
      · next hv =>
        cases h
        rw [if_pos hv]
        exact ⟨piece_square _ _ hj, calm_square hc⟩
      · next hv =>
        cases h
        rw [if_neg hv]
        exact ⟨piece_angles id hid.1 _ _ hj, calm_angles hc⟩

/-! ### Values -/

/-- A value that is printed as a literal of the language. -/
def GoodLit (x : ExtF) (str : String → Option String) : Literal → Prop
  | .str s => str s = some s ∧ '"' ∉ s.toList ∧ '\\' ∉ s.toList
  | .int v => 0 ≤ v
  | .num t => PrintsNumber (x.whole t) (x.fmtF64 t)
  | .bool _ => True

/-- The literal as it is printed. -/
def mobileLit (x : ExtF) : Literal → Literal
  | .num t => .num (if x.whole t then x.fmtF64 t ++ ".0" else x.fmtF64 t)
  | l => l

/-- The suffix of a literal in Kotlin. -/
def kotlinSuffix : TypeId → Literal → String
  | .integer _ n s, .int _ => if n = 8 then (if s then "L" else "UL") else if s then "" else "U"
  | .other _, .int _ => "UL"
  | .number _ n, .num _ => if n = 4 then "f" else ""
  | _, _ => ""

/-- The suffix of a literal in Swift. -/
def swiftSuffix : TypeId → Literal → String
  | .number _ n, .num _ => if n = 4 then "f" else ""
  | _, _ => ""

/-- The text `s` is read as one literal. -/
def ReadsLit (str : String → Option String) (s : String) (l : Literal) (suffix : String) : Prop :=
  ∃ t, Piece s.toList [t] ∧ t ≠ .sym '\n' ∧ readMobileLit str [t] = some (l, suffix)

theorem readsLit_str {str : String → Option String} {s : String} (h : str s = some s) (h1 : '"' ∉ s.toList)
    (h2 : '\\' ∉ s.toList) : ReadsLit str ("\"" ++ s ++ "\"") (.str s) "" := by
  refine ⟨.str s, ?_, by simp, by simp [readMobileLit, h]⟩
  have := (runs_string s h1 h2).toPiece
  simpa [String.toList_append] using this

theorem readsLit_bool {str : String → Option String} (b : Bool) : ReadsLit str (toString b) (.bool b) "" := by
  refine ⟨.word (toString b), piece_bool b, by simp, ?_⟩
  have h : numPart (toString b) = [] := by cases b <;> decide
  simp only [readMobileLit, h, true_or, if_true]
  cases b <;> rfl

theorem readsLit_nat {str : String → Option String} (n : Nat) : ReadsLit str (toString n) (.int n) "" := by
  refine ⟨.word (toString n), piece_nat n, by simp, ?_⟩
  rw [read_plain str _ (numChars_decimal (isDecimal_toString n).1), wordLit_nat]
  rfl

theorem readsLit_int {str : String → Option String} (n : Nat) (suf : String) (hs : suf ∈ ["L", "U", "UL"]) :
    ReadsLit str (toString n ++ suf) (.int n) suf := by
  have h := isDecimal_toString n
  have hs' : IsSuffix suf := by
    simp only [IsSuffix, List.mem_cons, List.not_mem_nil, or_false] at hs ⊢
    rcases hs with rfl | rfl | rfl <;> simp
  refine ⟨.word (toString n ++ suf), piece_suffixed _ _ (numChars_decimal h.1) hs', by simp, ?_⟩
  rw [read_suffixed_int str _ suf h.1 hs, h.2]

theorem readsLit_double {str : String → Option String} {p : String} (h : IsFraction p.toList) :
    ReadsLit str p (.num p) "" := by
  refine ⟨.word p, piece_numText p (.inr h), by simp, ?_⟩
  rw [read_plain str _ (numChars_fraction h), wordLit_fraction h]
  rfl

theorem readsLit_float {str : String → Option String} {p : String} (h : IsFraction p.toList) :
    ReadsLit str (p ++ "f") (.num p) "f" := by
  refine ⟨.word (p ++ "f"), piece_suffixed _ _ (numChars_fraction h) (by simp [IsSuffix]), by simp, ?_⟩
  rw [read_suffixed_float str p (.inr h)]

/-- How a number is printed. -/
theorem prints_fraction {x : ExtF} {t : String} (h : PrintsNumber (x.whole t) (x.fmtF64 t)) :
    IsFraction (if x.whole t then x.fmtF64 t ++ ".0" else x.fmtF64 t).toList := by
  unfold PrintsNumber at h
  cases hw : x.whole t with
  | true => simp only [hw, if_true] at h ⊢; exact fraction_point h
  | false => simpa [hw] using h

theorem point_f (s : String) : s ++ ".0f" = (s ++ ".0") ++ "f" := by
  rw [String.append_assoc]; rfl

theorem kotlin_value {x : ExtF} {t : TypeId} {v : ConstValue} {s : String} (hv : GoodLit x kotlinString v.literal)
    (h : KotlinGen.constValue x t v = .ok s) :
    ReadsLit kotlinString s (mobileLit x v.literal) (kotlinSuffix t v.literal) := by
  obtain ⟨l, vt⟩ := v
  simp only [KotlinGen.constValue] at h
  dsimp only at hv ⊢
  match l with
  | .str r =>
    cases h
    have e : kotlinSuffix t (.str r) = "" := by cases t <;> rfl
    rw [e]
    exact readsLit_str hv.1 hv.2.1 hv.2.2
  | .bool b =>
    cases h
    have e : kotlinSuffix t (.bool b) = "" := by cases t <;> rfl
    rw [e]
    exact readsLit_bool b
  | .int (.negSucc n) => exact absurd hv (by simp [GoodLit])
  | .int (.ofNat n) =>
    have en : toString (Int.ofNat n) = toString n := rfl
    simp only [en] at h
    match t with
    | .other id =>
      dsimp only at h
      split at h
      · cases h; exact readsLit_int n "UL" (by simp)
      · split at h
        · cases h; exact readsLit_int n "UL" (by simp)
        · cases h
    | .integer id size sg =>
      dsimp only at h
      cases sg
      all_goals
        repeat' split at h
        all_goals first | (cases h; done) | skip
        all_goals
          next hc =>
            obtain ⟨rfl, hb⟩ := hc
            first
            | (cases hb; done)
            | (cases h; exact readsLit_nat n)
            | (cases h; exact readsLit_int n _ (by decide))
    | .number _ _ => cases h
    | .bool _ => cases h
    | .char _ => cases h
    | .generic _ _ => cases h
  | .num d =>
    have hp := prints_fraction (x := x) (t := d) hv
    match t with
    | .number id size =>
      dsimp only at h
      split at h
      · next hc =>
        cases h
        simp only [hc.2, if_true] at hp
        simp only [mobileLit, kotlinSuffix, hc.1, hc.2, if_true, point_f]
        exact readsLit_float hp
      · next hc =>
        split at h
        · next hd =>
          cases h
          subst hd
          have hw : x.whole d = false := by simpa using hc
          simp only [hw] at hp
          simp only [mobileLit, kotlinSuffix, hw, if_true]
          exact readsLit_float hp
        · next hd =>
          split at h
          · next he =>
            cases h
            simp only [he.2, if_true] at hp
            simp only [mobileLit, kotlinSuffix, he.2, if_true, hd, if_false]
            exact readsLit_double hp
          · next he =>
            split at h
            · next hf =>
              cases h
              subst hf
              have hw : x.whole d = false := by simpa using he
              simp only [hw] at hp
              simp only [mobileLit, kotlinSuffix, hw, hd, if_false]
              exact readsLit_double hp
            · cases h
    | .other _ => cases h
    | .integer _ _ _ => cases h
    | .bool _ => cases h
    | .char _ => cases h
    | .generic _ _ => cases h

theorem swift_value {x : ExtF} {t : TypeId} {v : ConstValue} {s : String} (hv : GoodLit x swiftString v.literal)
    (h : SwiftGen.constValue x v t = .ok s) :
    ReadsLit swiftString s (mobileLit x v.literal) (swiftSuffix t v.literal) := by
  obtain ⟨l, vt⟩ := v
  simp only [SwiftGen.constValue] at h
  dsimp only at hv ⊢
  match l with
  | .str r =>
    cases h
    have e : swiftSuffix t (.str r) = "" := by cases t <;> rfl
    rw [e]
    exact readsLit_str hv.1 hv.2.1 hv.2.2
  | .bool b =>
    cases h
    have e : swiftSuffix t (.bool b) = "" := by cases t <;> rfl
    rw [e]
    exact readsLit_bool b
  | .int (.negSucc n) => exact absurd hv (by simp [GoodLit])
  | .int (.ofNat n) =>
    have en : toString (Int.ofNat n) = toString n := rfl
    simp only [en] at h
    match t with
    | .other id =>
      dsimp only at h
      split at h
      · cases h; exact readsLit_nat n
      · split at h
        · cases h; exact readsLit_nat n
        · cases h
    | .integer id size sg => cases h; exact readsLit_nat n
    | .number _ _ => cases h
    | .bool _ => cases h
    | .char _ => cases h
    | .generic _ _ => cases h
  | .num d =>
    have hp := prints_fraction (x := x) (t := d) hv
    match t with
    | .number id size =>
      dsimp only at h
      split at h
      · next hc =>
        cases h
        simp only [hc.2, if_true] at hp
        simp only [mobileLit, swiftSuffix, hc.1, hc.2, if_true, point_f]
        exact readsLit_float hp
      · next hc =>
        split at h
        · next hd =>
          cases h
          subst hd
          have hw : x.whole d = false := by simpa using hc
          simp only [hw] at hp
          simp only [mobileLit, swiftSuffix, hw, if_true]
          exact readsLit_float hp
        · next hd =>
          split at h
          · next he =>
            cases h
            simp only [he.2, if_true] at hp
            simp only [mobileLit, swiftSuffix, he.2, if_true, hd, if_false]
            exact readsLit_double hp
          · next he =>
            split at h
            · next hf =>
              cases h
              subst hf
              have hw : x.whole d = false := by simpa using he
              simp only [hw] at hp
              simp only [mobileLit, swiftSuffix, hw, hd, if_false]
              exact readsLit_double hp
            · cases h
    | .other _ => cases h
    | .integer _ _ _ => cases h
    | .bool _ => cases h
    | .char _ => cases h
    | .generic _ _ => cases h

/-! ### Lines of declarations -/

/-- Members of blocks that are read back: `name` is the change of case of names of constants. -/
inductive GoodItem (x : ExtF) (str : String → Option String) (name : String → String) : ConstItem → Prop
  | value (n : String) (t : TypeId) (v : ConstValue) : IsIdent (name n).toList → LegalType t → GoodLit x str v.literal →
      GoodItem x str name (.value n t v)
  | node (n : String) (is : List ConstItem) : IsIdent (x.pascal n).toList → (∀ i ∈ is, GoodItem x str name i) →
      GoodItem x str name (.node n is)

theorem piece_constLine (m k n ty lit : String) (hm : IsIdent m.toList) (hk : IsIdent k.toList) (hn : IsIdent n.toList)
    (tt lt : List Tok) (ht : Piece ty.toList tt) (hl : Piece lit.toList lt) :
    Piece (m ++ " " ++ k ++ " " ++ n ++ ": " ++ ty ++ " = " ++ lit).toList
      (.word m :: .word k :: .word n :: .sym ':' :: (tt ++ .sym '=' :: lt)) := by
  have h1 := (show Runs .idle [' ', '=', ' '] [.sym '='] .idle by decide).piece hl
  have h2 := ht.piece (show isBreak ' ' by decide) h1
  have h3 := (show Runs .idle [':', ' '] [.sym ':'] .idle by decide).piece h2
  have h4 := (piece_ident n hn).piece (show isBreak ':' by decide) h3
  have h5 := (show Runs .idle [' '] [] .idle by decide).piece h4
  have h6 := (piece_ident k hk).piece (show isBreak ' ' by decide) h5
  have h7 := (show Runs .idle [' '] [] .idle by decide).piece h6
  have h8 := (piece_ident m hm).piece (show isBreak ' ' by decide) h7
  simpa [String.toList_append, List.append_assoc] using h8

theorem reads_const (L : MobileLang) (hm : IsIdent L.modifier.toList) (hk : IsIdent L.keyword.toList)
    (hh : ∀ a b c r, L.head (.word a :: .word b :: .word c :: r) = none)
    (u n : Nat) (path : List String) (name ty lit : String) (hn : IsIdent name.toList) (tt : List Tok)
    (ht : Piece ty.toList tt) (hc : Calm tt) (l : Literal) (suf : String) (hl : ReadsLit L.str lit l suf) :
    TextReads L path
      (linesText u [(n, L.modifier ++ " " ++ L.keyword ++ " " ++ name ++ ": " ++ ty ++ " = " ++ lit)]).toList
      [.const ⟨path, name, tt, l, suf⟩] := by
  obtain ⟨t, h1, h2, h3⟩ := hl
  have hp := piece_constLine L.modifier L.keyword name ty lit hm hk hn tt [t] ht h1
  refine TextReads.const _ (linesOf_line u n _ _ hp (by simp) ?_) (hh _ _ _ _) (by simp) ?_
  · intro u hu
    simp only [List.mem_cons, List.mem_append, List.not_mem_nil, or_false] at hu
    rcases hu with rfl | rfl | rfl | rfl | hu | rfl | rfl
    · simp
    · simp
    · simp
    · decide
    · exact (hc u hu).1
    · decide
    · exact h2
  · have e := takeWhile_stop (fun u => decide (u ≠ Tok.sym '=')) tt (.sym '=') [t]
      (fun u hu => by simpa using (hc u hu).2) (by simp)
    simp only [readMobileConst, and_self, if_true, e.1, e.2, h3, Option.map_some]

theorem linesOf_brace (u n : Nat) : LinesOf (linesText u [(n, "}")]).toList [[.sym '}']] :=
  linesOf_line u n "}" _ ((show Runs .idle ['}'] [.sym '}'] .idle by decide).toPiece) (by simp) (by decide)

theorem linesOf_head (u n : Nat) (k name : String) (hk : IsIdent k.toList) (hn : IsIdent name.toList) :
    LinesOf (linesText u [(n, k ++ " " ++ name ++ " {")]).toList [[.word k, .word name, .sym '{']] := by
  have h3 := (show Runs .idle [' ', '{'] [.sym '{'] .idle by decide).toPiece
  have h4 := (piece_ident name hn).piece (show isBreak ' ' by decide) h3
  have h5 := (show Runs .idle [' '] [] .idle by decide).piece h4
  have h6 := (piece_ident k hk).piece (show isBreak ' ' by decide) h5
  refine linesOf_line u n _ _ ?_ (by simp) (by simp)
  simpa [String.toList_append, List.append_assoc] using h6

theorem linesOf_bare (u n : Nat) (k name : String) (hk : IsIdent k.toList) (hn : IsIdent name.toList) :
    LinesOf (linesText u [(n, k ++ " " ++ name)]).toList [[.word k, .word name]] := by
  have h5 := (show Runs .idle [' '] [] .idle by decide).piece (piece_ident name hn)
  have h6 := (piece_ident k hk).piece (show isBreak ' ' by decide) h5
  refine linesOf_line u n _ _ ?_ (by simp) (by simp)
  simpa [String.toList_append, List.append_assoc] using h6

theorem gapSteps (last cur : String) (ps : List (String × String)) (n : Nat) (r : String) :
    ∃ k, ps.foldl (KotlinGen.gapStep last cur) (wTab n r) = wTab n (r ++ String.ofList (List.replicate k '\n')) := by
  induction ps generalizing r with
  | nil => exact ⟨0, by simp⟩
  | cons p ps ih =>
    simp only [List.foldl_cons]
    by_cases hp : (p.1 = last ∧ p.2 = cur) ∨ (p.2 = last ∧ p.1 = cur)
    · obtain ⟨k, e⟩ := ih (r ++ "\n")
      refine ⟨k + 1, ?_⟩
      rw [KotlinGen.gapStep, if_pos hp, wTab_newLine, e, String.append_assoc, List.replicate_succ]
      congr 2
      rw [← String.toList_inj]
      simp [String.toList_append]
    · obtain ⟨k, e⟩ := ih r
      refine ⟨k, ?_⟩
      rw [KotlinGen.gapStep, if_neg hp, e]

theorem kotlin_gaps (last : Option String) (cur : String) (n : Nat) (r : String) :
    ∃ k, KotlinGen.gaps last cur (wTab n r) = wTab n (r ++ String.ofList (List.replicate k '\n')) := by
  cases last with
  | none => exact ⟨0, by simp [KotlinGen.gaps]⟩
  | some l => exact gapSteps l cur _ n r

theorem swift_gaps (last : Option String) (cur : String) (n : Nat) (r : String) :
    ∃ k, SwiftGen.gaps last cur (wTab n r) = wTab n (r ++ String.ofList (List.replicate k '\n')) := by
  cases last with
  | none => exact ⟨0, by simp [SwiftGen.gaps]⟩
  | some l => exact gapSteps l cur _ n r

/-! ### Kotlin -/

/-- The Kotlin constant for a constant of the schema. -/
def kotlinConst (x : ExtF) (c : SchemaConst) : MobileConst :=
  ⟨c.path.map x.pascal, c.name, kotlinTypeToks c.type, mobileLit x c.value, kotlinSuffix c.type c.value⟩

mutual
theorem kotlin_item (x : ExtF) (n : Nat) (path : List String) (i : ConstItem) (h : GoodItem x kotlinString id i)
    (r : String) (w : Writer) (hw : KotlinGen.writeToken x (wTab n r) (KotlinGen.constItem i) = .ok w) :
    ∃ s, w = wTab n (r ++ s) ∧
      TextReads kotlinLang (path.map x.pascal) s.toList (itemDecls x.pascal (kotlinConst x) path i) := by
  match i with
  | .value nm t v =>
    cases h with
    | value _ _ _ hn ht hv =>
      simp only [KotlinGen.constItem, KotlinGen.constDecl, KotlinGen.writeToken] at hw
      obtain ⟨w1, e1, e2⟩ := bind_ok hw
      obtain ⟨w2, e3, e4⟩ := bind_ok e1
      cases hty : KotlinGen.typeId t with
      | error => rw [hty] at e3; cases e3
      | ok ty =>
        rw [hty] at e3
        cases e3
        cases hlit : KotlinGen.constValue x t v with
        | error => rw [hlit] at e4; cases e4
        | ok lit =>
          rw [hlit] at e4
          cases e4
          cases e2
          have h1 := kotlin_type ht.named hty
          have h2 := kotlin_value hv hlit
          have h3 := reads_const kotlinLang (by decide) (by decide) (fun _ _ _ _ => rfl) 4 n (path.map x.pascal) nm ty lit
            hn _ h1.1 h1.2 _ _ h2
          refine ⟨_, ?_, h3⟩
          simp [wTab_write, wTab_newLine, wTab_tabs, linesText, kotlinLang, String.append_assoc]
          congr 2
  | .node nm is =>
    cases h with
    | node _ _ hn his =>
      simp only [KotlinGen.constItem, KotlinGen.writeToken, List.isEmpty_nil, if_true] at hw
      obtain ⟨w1, e1, e2⟩ := bind_ok hw
      cases e1
      rw [wTab_tabs, wTab_write] at e2
      cases is with
      | nil =>
        simp only [KotlinGen.constItems, List.isEmpty_nil, if_true] at e2
        cases e2
        refine ⟨linesText 4 [(n, "object" ++ " " ++ x.pascal nm)], ?_, ?_⟩
        · rw [wTab_newLine]
          simp [linesText, String.append_assoc]
        · have := TextReads.empty (L := kotlinLang) (path := path.map x.pascal) _
            (linesOf_bare 4 n "object" (x.pascal nm) (by decide) hn) rfl (by simp)
          simpa [itemDecls, itemsDecls] using this
      | cons i is =>
        have hne : (KotlinGen.constItems (i :: is)).isEmpty = false := by rw [KotlinGen.constItems]; rfl
        rw [hne] at e2
        simp only [Bool.false_eq_true, if_false] at e2
        rw [wTab_write, wTab_newLine, wTab_push] at e2
        obtain ⟨w3, e3, e4⟩ := bind_ok e2
        obtain ⟨s, rfl, hs⟩ := kotlin_items x (n + 1) (path ++ [nm]) (i :: is) his _ _ _ e3
        rw [wTab_pop] at e4
        cases e4
        refine ⟨linesText 4 [(n, "object" ++ " " ++ x.pascal nm ++ " {")] ++ (s ++ linesText 4 [(n, "}")]), ?_, ?_⟩
        · rw [wTab_writeln]
          simp [linesText, String.append_assoc]
        · rw [List.map_append] at hs
          have := TextReads.close (L := kotlinLang) (path := path.map x.pascal) _
            (linesOf_head 4 n "object" (x.pascal nm) (by decide) hn) rfl (by simp) hs (linesOf_brace 4 n)
          rw [String.toList_append, String.toList_append]
          simpa [itemDecls] using this
theorem kotlin_items (x : ExtF) (n : Nat) (path : List String) (is : List ConstItem)
    (h : ∀ i ∈ is, GoodItem x kotlinString id i) (last : Option String)
    (r : String) (w : Writer) (hw : KotlinGen.writeTokens x last (wTab n r) (KotlinGen.constItems is) = .ok w) :
    ∃ s, w = wTab n (r ++ s) ∧
      TextReads kotlinLang (path.map x.pascal) s.toList (itemsDecls x.pascal (kotlinConst x) path is) := by
  match is with
  | [] =>
    simp only [KotlinGen.constItems, KotlinGen.writeTokens] at hw
    cases hw
    exact ⟨"", by simp, by simpa [itemsDecls] using TextReads.nil _ _⟩
  | i :: is =>
    simp only [KotlinGen.constItems, KotlinGen.writeTokens] at hw
    obtain ⟨w1, e1, e2⟩ := bind_ok hw
    obtain ⟨k, ek⟩ := kotlin_gaps last (KotlinGen.constItem i).kind n r
    rw [ek] at e1
    obtain ⟨s1, rfl, h1⟩ := kotlin_item x n path i (h i (by simp)) _ _ e1
    obtain ⟨s2, rfl, h2⟩ := kotlin_items x n path is (fun j hj => h j (by simp [hj])) _ _ _ e2
    refine ⟨String.ofList (List.replicate k '\n') ++ (s1 ++ s2), by simp [String.append_assoc], ?_⟩
    have := (TextReads.newlines kotlinLang (path.map x.pascal) k).append (h1.append h2)
    simpa [itemsDecls, String.toList_append] using this
end

/-- A declaration whose constants are read back. -/
def GoodDecl (x : ExtF) (str : String → Option String) (name : String → String) : ASTNode → Prop
  | .const n => GoodItem x str name (.node n.id n.items)
  | _ => True

theorem kotlin_decls (x : ExtF) (S : List ASTNode) (h : ∀ d ∈ S, GoodDecl x kotlinString id d) (last : Option String)
    (r : String) (w : Writer) (hw : KotlinGen.writeTokens x last (wTab 0 r) (S.flatMap KotlinGen.constsItem) = .ok w) :
    ∃ s, w = wTab 0 (r ++ s) ∧ TextReads kotlinLang [] s.toList (schemaDecls x.pascal (kotlinConst x) S) := by
  induction S generalizing last r w with
  | nil =>
    simp only [List.flatMap_nil, KotlinGen.writeTokens] at hw
    cases hw
    exact ⟨"", by simp, by simpa [schemaDecls] using TextReads.nil _ _⟩
  | cons d S ih =>
    have hS := ih (fun e he => h e (by simp [he]))
    have skip : (KotlinGen.constsItem d = []) → (schemaDecls x.pascal (kotlinConst x) (d :: S)
        = schemaDecls x.pascal (kotlinConst x) S) → ∃ s, w = wTab 0 (r ++ s) ∧
          TextReads kotlinLang [] s.toList (schemaDecls x.pascal (kotlinConst x) (d :: S)) := by
      intro e1 e2
      rw [List.flatMap_cons, e1, List.nil_append] at hw
      rw [e2]
      exact hS last r w hw
    cases d with
    | const c =>
      have hg := h (.const c) (by simp)
      rw [List.flatMap_cons, KotlinGen.constsItem, List.singleton_append, KotlinGen.writeTokens] at hw
      obtain ⟨w1, e1, e2⟩ := bind_ok hw
      obtain ⟨k, ek⟩ := kotlin_gaps last (KotlinGen.KIR.object c.id (KotlinGen.constItems c.items) []).kind 0 r
      rw [ek] at e1
      obtain ⟨s1, rfl, h1⟩ := kotlin_item x 0 [] (.node c.id c.items) hg _ _ (by rw [KotlinGen.constItem]; exact e1)
      obtain ⟨s2, rfl, h2⟩ := hS _ _ _ e2
      refine ⟨String.ofList (List.replicate k '\n') ++ (s1 ++ s2), by simp [String.append_assoc], ?_⟩
      have := (TextReads.newlines kotlinLang [] k).append (h1.append h2)
      simpa [schemaDecls, String.toList_append] using this
    | enum _ => exact skip rfl rfl
    | struct _ => exact skip rfl rfl
    | fn _ => exact skip rfl rfl
    | directive _ => exact skip rfl rfl

/-! ### Swift -/

/-- The Swift constant for a constant of the schema. -/
def swiftConst (x : ExtF) (c : SchemaConst) : MobileConst :=
  ⟨c.path.map x.pascal, x.camel c.name, swiftTypeToks "char" c.type, mobileLit x c.value, swiftSuffix c.type c.value⟩

mutual
theorem swift_item (x : ExtF) (n : Nat) (path : List String) (i : ConstItem) (h : GoodItem x swiftString x.camel i)
    (r : String) (w : Writer) (hw : SwiftGen.writeToken x (wTab n r) (SwiftGen.constItem i) = .ok w) :
    ∃ s, w = wTab n (r ++ s) ∧
      TextReads swiftLang (path.map x.pascal) s.toList (itemDecls x.pascal (swiftConst x) path i) := by
  match i with
  | .value nm t v =>
    cases h with
    | value _ _ _ hn ht hv =>
      simp only [SwiftGen.constItem, SwiftGen.writeToken, SwiftGen.constLine] at hw
      cases hty : SwiftGen.typeId t with
      | error => rw [hty] at hw; cases hw
      | ok ty =>
        rw [hty] at hw
        cases hlit : SwiftGen.constValue x v t with
        | error => rw [hlit] at hw; cases hw
        | ok lit =>
          rw [hlit] at hw
          cases hw
          have h1 := swift_type ht hty
          have h2 := swift_value hv hlit
          have h3 := reads_const swiftLang (by decide) (by decide) (fun _ _ _ _ => rfl) 4 n (path.map x.pascal)
            (x.camel nm) ty lit hn _ h1.1 h1.2 _ _ h2
          refine ⟨_, ?_, h3⟩
          rw [wTab_writeln]
          simp [linesText, swiftLang, String.append_assoc]
  | .node nm is =>
    cases h with
    | node _ _ hn his =>
      simp only [SwiftGen.constItem, SwiftGen.writeToken] at hw
      rw [wTab_writeln, wTab_push] at hw
      obtain ⟨w3, e3, e4⟩ := bind_ok hw
      obtain ⟨s, rfl, hs⟩ := swift_items x (n + 1) (path ++ [nm]) is his _ _ _ e3
      rw [wTab_pop] at e4
      cases e4
      refine ⟨linesText 4 [(n, "struct" ++ " " ++ x.pascal nm ++ " {")] ++ (s ++ linesText 4 [(n, "}")]), ?_, ?_⟩
      · rw [wTab_writeln]
        simp [linesText, String.append_assoc]
      · rw [List.map_append] at hs
        have := TextReads.close (L := swiftLang) (path := path.map x.pascal) _
          (linesOf_head 4 n "struct" (x.pascal nm) (by decide) hn) rfl (by simp) hs (linesOf_brace 4 n)
        rw [String.toList_append, String.toList_append]
        simpa [itemDecls] using this
theorem swift_items (x : ExtF) (n : Nat) (path : List String) (is : List ConstItem)
    (h : ∀ i ∈ is, GoodItem x swiftString x.camel i) (last : Option String)
    (r : String) (w : Writer) (hw : SwiftGen.writeTokens x last (wTab n r) (SwiftGen.constItems is) = .ok w) :
    ∃ s, w = wTab n (r ++ s) ∧
      TextReads swiftLang (path.map x.pascal) s.toList (itemsDecls x.pascal (swiftConst x) path is) := by
  match is with
  | [] =>
    simp only [SwiftGen.constItems, SwiftGen.writeTokens] at hw
    cases hw
    exact ⟨"", by simp, by simpa [itemsDecls] using TextReads.nil _ _⟩
  | i :: is =>
    simp only [SwiftGen.constItems, SwiftGen.writeTokens] at hw
    obtain ⟨w1, e1, e2⟩ := bind_ok hw
    obtain ⟨k, ek⟩ := swift_gaps last (SwiftGen.constItem i).kind n r
    rw [ek] at e1
    obtain ⟨s1, rfl, h1⟩ := swift_item x n path i (h i (by simp)) _ _ e1
    obtain ⟨s2, rfl, h2⟩ := swift_items x n path is (fun j hj => h j (by simp [hj])) _ _ _ e2
    refine ⟨String.ofList (List.replicate k '\n') ++ (s1 ++ s2), by simp [String.append_assoc], ?_⟩
    have := (TextReads.newlines swiftLang (path.map x.pascal) k).append (h1.append h2)
    simpa [itemsDecls, String.toList_append] using this
end

theorem swift_decls (x : ExtF) (S : List ASTNode) (h : ∀ d ∈ S, GoodDecl x swiftString x.camel d) (last : Option String)
    (r : String) (w : Writer) (hw : SwiftGen.writeTokens x last (wTab 0 r) (S.flatMap SwiftGen.constsItem) = .ok w) :
    ∃ s, w = wTab 0 (r ++ s) ∧ TextReads swiftLang [] s.toList (schemaDecls x.pascal (swiftConst x) S) := by
  induction S generalizing last r w with
  | nil =>
    simp only [List.flatMap_nil, SwiftGen.writeTokens] at hw
    cases hw
    exact ⟨"", by simp, by simpa [schemaDecls] using TextReads.nil _ _⟩
  | cons d S ih =>
    have hS := ih (fun e he => h e (by simp [he]))
    have skip : (SwiftGen.constsItem d = []) → (schemaDecls x.pascal (swiftConst x) (d :: S)
        = schemaDecls x.pascal (swiftConst x) S) → ∃ s, w = wTab 0 (r ++ s) ∧
          TextReads swiftLang [] s.toList (schemaDecls x.pascal (swiftConst x) (d :: S)) := by
      intro e1 e2
      rw [List.flatMap_cons, e1, List.nil_append] at hw
      rw [e2]
      exact hS last r w hw
    cases d with
    | const c =>
      have hg := h (.const c) (by simp)
      rw [List.flatMap_cons, SwiftGen.constsItem, List.singleton_append, SwiftGen.writeTokens] at hw
      obtain ⟨w1, e1, e2⟩ := bind_ok hw
      obtain ⟨k, ek⟩ := swift_gaps last (SwiftGen.SIR.struct c.id (SwiftGen.constItems c.items)).kind 0 r
      rw [ek] at e1
      obtain ⟨s1, rfl, h1⟩ := swift_item x 0 [] (.node c.id c.items) hg _ _ (by rw [SwiftGen.constItem]; exact e1)
      obtain ⟨s2, rfl, h2⟩ := hS _ _ _ e2
      refine ⟨String.ofList (List.replicate k '\n') ++ (s1 ++ s2), by simp [String.append_assoc], ?_⟩
      have := (TextReads.newlines swiftLang [] k).append (h1.append h2)
      simpa [schemaDecls, String.toList_append] using this
    | enum _ => exact skip rfl rfl
    | struct _ => exact skip rfl rfl
    | fn _ => exact skip rfl rfl
    | directive _ => exact skip rfl rfl

/-! ### Whole texts -/

theorem kotlin_read (x : ExtF) (S : List ASTNode) (h : ∀ d ∈ S, GoodDecl x kotlinString id d) (out : String)
    (ho : KotlinGen.consts x S = .ok out) :
    readMobile kotlinLang out = some (schemaDecls x.pascal (kotlinConst x) S) := by
  unfold KotlinGen.consts KotlinGen.stringify at ho
  cases e : KotlinGen.writeTokens x none Writer.default (S.flatMap KotlinGen.constsItem) with
  | error => rw [e] at ho; cases ho
  | ok w =>
    rw [e] at ho
    cases ho
    obtain ⟨s, rfl, hs⟩ := kotlin_decls x S h none "" w e
    have : (wTab 0 ("" ++ s)).show = s := by simp [Writer.show, wTab]
    rw [this]
    exact hs.read

theorem swift_read (x : ExtF) (S : List ASTNode) (h : ∀ d ∈ S, GoodDecl x swiftString x.camel d) (out : String)
    (ho : SwiftGen.consts x S = .ok out) :
    readMobile swiftLang out = some (schemaDecls x.pascal (swiftConst x) S) := by
  unfold SwiftGen.consts SwiftGen.stringify at ho
  cases e : SwiftGen.writeTokens x none Writer.default (S.flatMap SwiftGen.constsItem) with
  | error => rw [e] at ho; cases ho
  | ok w =>
    rw [e] at ho
    cases ho
    obtain ⟨s, rfl, hs⟩ := swift_decls x S h none "" w e
    have : (wTab 0 ("" ++ s)).show = s := by simp [Writer.show, wTab]
    rw [this]
    exact hs.read

mutual
theorem goodItem_of (x : ExtF) (str : String → Option String) (name : String → String) (path : List String) (i : ConstItem)
    (hl : LegalConstItem i) (hb : ∀ p ∈ itemBlocks path i, ∀ n ∈ p.getLast?, IsIdent (x.pascal n).toList)
    (hc : ∀ c ∈ itemConsts path i, IsIdent (name c.name).toList ∧ GoodLit x str c.value) : GoodItem x str name i := by
  match i with
  | .value n t v =>
    cases hl with
    | value _ _ _ h1 h2 h3 =>
      have := hc ⟨path, n, t, v.literal⟩ (by simp [itemConsts])
      exact .value n t v this.1 h2 this.2
  | .node n is =>
    cases hl with
    | node _ _ h1 h2 =>
      have h3 := hb (path ++ [n]) (by simp [itemBlocks]) n (by simp)
      exact .node n is h3 (goodItems_of x str name (path ++ [n]) is h2
        (fun p hp => hb p (by simp [itemBlocks, hp])) (fun c h => hc c (by simpa [itemConsts] using h)))
theorem goodItems_of (x : ExtF) (str : String → Option String) (name : String → String) (path : List String)
    (is : List ConstItem) (hl : ∀ i ∈ is, LegalConstItem i)
    (hb : ∀ p ∈ itemsBlocks path is, ∀ n ∈ p.getLast?, IsIdent (x.pascal n).toList)
    (hc : ∀ c ∈ itemsConsts path is, IsIdent (name c.name).toList ∧ GoodLit x str c.value) :
    ∀ i ∈ is, GoodItem x str name i := by
  match is with
  | [] => simp
  | i :: is =>
    intro j hj
    rw [List.mem_cons] at hj
    rcases hj with rfl | hj
    · exact goodItem_of x str name path j (hl j (by simp)) (fun p hp => hb p (by simp [itemsBlocks, hp]))
        (fun c h => hc c (by simp [itemsConsts, h]))
    · exact goodItems_of x str name path is (fun k hk => hl k (by simp [hk])) (fun p hp => hb p (by simp [itemsBlocks, hp]))
        (fun c h => hc c (by simp [itemsConsts, h])) j hj
end

theorem goodDecl_of (x : ExtF) (str : String → Option String) (name : String → String) (S : List ASTNode)
    (hl : ∀ d ∈ S, LegalDecl d) (hb : ∀ p ∈ schemaBlocks S, ∀ n ∈ p.getLast?, IsIdent (x.pascal n).toList)
    (hc : ∀ c ∈ schemaConsts S, IsIdent (name c.name).toList ∧ GoodLit x str c.value) :
    ∀ d ∈ S, GoodDecl x str name d := by
  intro d hd
  have h1 := hl d hd
  cases d with
  | const n =>
    refine goodItem_of x str name [] (.node n.id n.items) (.node _ _ h1.1 h1.2) (fun p hp => hb p ?_) (fun c h => hc c ?_)
    · simp only [schemaBlocks, List.mem_flatMap]
      exact ⟨_, hd, hp⟩
    · simp only [schemaConsts, List.mem_flatMap]
      exact ⟨_, hd, h⟩
  | _ => trivial

/-! ### What is declared -/

theorem constsOf_append (a b : List MobileDecl) : constsOf (a ++ b) = constsOf a ++ constsOf b := by simp [constsOf]
theorem blocksOf_append (a b : List MobileDecl) : blocksOf (a ++ b) = blocksOf a ++ blocksOf b := by simp [blocksOf]

mutual
theorem itemDecls_parts (block : String → String) (const : SchemaConst → MobileConst) (path : List String) (i : ConstItem) :
    constsOf (itemDecls block const path i) = (itemConsts path i).map const ∧
      blocksOf (itemDecls block const path i) = (itemBlocks path i).map (·.map block) := by
  match i with
  | .value n t v => exact ⟨by simp [itemDecls, itemConsts, constsOf], by simp [itemDecls, itemBlocks, blocksOf]⟩
  | .node n is =>
    have h := itemsDecls_parts block const (path ++ [n]) is
    simp only [itemDecls, itemConsts, itemBlocks, List.map_cons]
    exact ⟨h.1, congrArg _ h.2⟩
theorem itemsDecls_parts (block : String → String) (const : SchemaConst → MobileConst) (path : List String)
    (is : List ConstItem) :
    constsOf (itemsDecls block const path is) = (itemsConsts path is).map const ∧
      blocksOf (itemsDecls block const path is) = (itemsBlocks path is).map (·.map block) := by
  match is with
  | [] => exact ⟨rfl, rfl⟩
  | i :: is =>
    have h1 := itemDecls_parts block const path i
    have h2 := itemsDecls_parts block const path is
    simp [itemsDecls, itemsConsts, itemsBlocks, constsOf_append, blocksOf_append, h1.1, h1.2, h2.1, h2.2]
end

theorem schemaDecls_parts (block : String → String) (const : SchemaConst → MobileConst) (S : List ASTNode) :
    constsOf (schemaDecls block const S) = (schemaConsts S).map const ∧
      blocksOf (schemaDecls block const S) = (schemaBlocks S).map (·.map block) := by
  induction S with
  | nil => exact ⟨rfl, rfl⟩
  | cons d S ih =>
    have e : schemaDecls block const (d :: S) = schemaDecls block const [d] ++ schemaDecls block const S := by
      simp [schemaDecls]
    rw [e, constsOf_append, blocksOf_append, ih.1, ih.2]
    cases d with
    | const n =>
      have h := itemDecls_parts block const [] (.node n.id n.items)
      have h3 : schemaDecls block const [.const n] = itemDecls block const [] (.node n.id n.items) := by simp [schemaDecls]
      rw [h3, h.1, h.2]
      simp [schemaConsts, schemaBlocks, declConsts, declBlocks, itemConsts]
    | _ => simp [schemaDecls, schemaConsts, schemaBlocks, declConsts, declBlocks, constsOf, blocksOf]

/-- The name a declaration declares, with the objects it is in. -/
def declPath : MobileDecl → List String
  | .const c => c.path ++ [c.name]
  | .block p => p

theorem declPaths_perm (ds : List MobileDecl) :
    (ds.map declPath).Perm (blocksOf ds ++ (constsOf ds).map (fun c => c.path ++ [c.name])) := by
  induction ds with
  | nil => exact .refl _
  | cons d ds ih =>
    cases d with
    | const c =>
      have e1 : blocksOf (.const c :: ds) = blocksOf ds := rfl
      have e2 : constsOf (.const c :: ds) = c :: constsOf ds := rfl
      rw [e1, e2, List.map_cons, List.map_cons]
      exact (ih.cons _).trans List.perm_middle.symm
    | block p =>
      have e1 : blocksOf (.block p :: ds) = p :: blocksOf ds := rfl
      have e2 : constsOf (.block p :: ds) = constsOf ds := rfl
      rw [e1, e2, List.map_cons]
      exact ih.cons _

/-! ### Typing -/

theorem typed_iff (Name inner : String → Prop) (LitOk : String → String → Literal → Prop) (Suits : TypeId → Literal → Prop)
    (type : TypeId → List Tok) (block name : String → String) (const : SchemaConst → MobileConst) (S : List ASTNode)
    (h1 : ∀ c, (const c).path = c.path.map block ∧ (const c).name = name c.name ∧ (const c).type = type c.type)
    (h2 : ∀ c ∈ schemaConsts S, (∃ T, type c.type = [.word T] ∧ LitOk T (const c).suffix (const c).value) ↔ Suits c.type c.value) :
    MobileTyped Name inner LitOk (schemaDecls block const S) ↔ ConstsFit Name inner Suits type block name S := by
  have hp := schemaDecls_parts block const S
  have hd : ((schemaDecls block const S).map (fun | .const c => c.path ++ [c.name] | .block p => p)).Nodup ↔
      ((schemaBlocks S).map (·.map block) ++ (schemaConsts S).map (fun c => c.path.map block ++ [name c.name])).Nodup := by
    have e : (schemaDecls block const S).map (fun | .const c => c.path ++ [c.name] | .block p => p)
        = (schemaDecls block const S).map declPath := by
      apply List.map_congr_left
      intro d _
      cases d <;> rfl
    rw [e, (declPaths_perm _).nodup_iff, hp.1, hp.2, List.map_map]
    have e2 : (fun c => c.path ++ [c.name]) ∘ const = fun c => c.path.map block ++ [name c.name] := by
      funext c
      simp [(h1 c).1, (h1 c).2.1]
    rw [e2]
  have hlast : ∀ p : List String, ∀ n, n ∈ (p.map block).getLast? ↔ ∃ m ∈ p.getLast?, n = block m := by
    intro p n
    rw [List.getLast?_map]
    cases p.getLast? with
    | none => simp
    | some m => simp [eq_comm]
  constructor
  · intro h
    obtain ⟨g1, g2, g3, g4, g5⟩ := h
    rw [hp.1] at g2 g5
    rw [hp.2] at g3 g4 g5
    refine ⟨hd.1 g1, ?_, ?_, ?_, ?_, ?_⟩
    · intro c hc
      have := g2 (const c) (List.mem_map.2 ⟨c, hc, rfl⟩)
      rwa [(h1 c).2.1] at this
    · intro p hpb n hn
      exact g3 _ (List.mem_map.2 ⟨p, hpb, rfl⟩) _ ((hlast p _).2 ⟨n, hn, rfl⟩)
    · intro p hpb hlen n hn
      exact g4 _ (List.mem_map.2 ⟨p, hpb, rfl⟩) (by simpa using hlen) _ ((hlast p _).2 ⟨n, hn, rfl⟩)
    · intro c hc
      obtain ⟨T, e1, e2, _⟩ := g5 (const c) (List.mem_map.2 ⟨c, hc, rfl⟩)
      rw [(h1 c).2.2] at e1
      exact (h2 c hc).1 ⟨T, e1, e2⟩
    · intro c hc T hT
      obtain ⟨T', e1, _, e3⟩ := g5 (const c) (List.mem_map.2 ⟨c, hc, rfl⟩)
      rw [(h1 c).2.2, hT] at e1
      cases e1
      rwa [(h1 c).1] at e3
  · intro h
    obtain ⟨g1, g2, g3, g4, g5, g6⟩ := h
    refine ⟨hd.2 g1, ?_, ?_, ?_, ?_⟩
    · rw [hp.1]
      intro r hr
      obtain ⟨c, hc, rfl⟩ := List.mem_map.1 hr
      rw [(h1 c).2.1]
      exact g2 c hc
    · rw [hp.2]
      intro p hpb n hn
      obtain ⟨q, hq, rfl⟩ := List.mem_map.1 hpb
      obtain ⟨m, hm, rfl⟩ := (hlast q n).1 hn
      exact g3 q hq m hm
    · rw [hp.2]
      intro p hpb hlen n hn
      obtain ⟨q, hq, rfl⟩ := List.mem_map.1 hpb
      obtain ⟨m, hm, rfl⟩ := (hlast q n).1 hn
      exact g4 q hq (by simpa using hlen) m hm
    · rw [hp.1, hp.2]
      intro r hr
      obtain ⟨c, hc, rfl⟩ := List.mem_map.1 hr
      obtain ⟨T, e1, e2⟩ := (h2 c hc).2 (g5 c hc)
      refine ⟨T, by rw [(h1 c).2.2]; exact e1, e2, ?_⟩
      rw [(h1 c).1]
      exact g6 c hc T e1

theorem int_lt_63 {v : Int} (h : v < 2 ^ 63) : v < 2 ^ 64 := by omega

theorem kotlin_suits {x : ExtF} {t : TypeId} {l : Literal} (ht : LegalType t) (hl : LegalLit l) (hf : LiteralFits t l) :
    (∃ T, kotlinTypeToks t = [.word T] ∧ KotlinLitOk T (kotlinSuffix t l) (mobileLit x l)) ↔ SuitsKotlin t l := by
  cases ht with
  | generic n as hn has =>
    simp only [kotlinTypeToks]
    constructor
    · rintro ⟨T, h, _⟩; simp at h
    · intro h; cases l <;> exact h.elim
  | name n hn =>
    rcases typeName_cases n with ⟨i, sg, e, hi⟩ | ⟨i, e, hi⟩ | e | e | e
    · rw [e] at hf ⊢
      simp only [kotlinTypeToks, List.cons.injEq, Tok.word.injEq, and_true, exists_eq_left']
      cases l with
      | int v =>
        rcases hi with rfl | rfl | rfl <;> cases sg <;>
          simp only [kotlinNames, kotlinSuffix, mobileLit, KotlinLitOk, SuitsKotlin]
        all_goals
          constructor
          · rintro ⟨bits, e1, e2, e3⟩
            first
            | (have e1 : some 8 = some bits := e1; cases e1; exact e3)
            | (have e1 : some 7 = some bits := e1; cases e1; exact e3)
            | (have e1 : some 32 = some bits := e1; cases e1; exact e3)
            | (have e1 : some 31 = some bits := e1; cases e1; exact e3)
            | (have e1 : some 64 = some bits := e1; cases e1; exact e3)
            | (have e1 : some 63 = some bits := e1; cases e1; exact e3)
          · intro h
            exact ⟨_, rfl, hl.1, h⟩
      | num d => exact hf.elim
      | bool b =>
        refine ⟨fun h => ?_, fun h => h.elim⟩
        simp only [KotlinLitOk, mobileLit] at h
        rcases hi with rfl | rfl | rfl <;> cases sg <;> exact absurd h (by decide)
      | str r =>
        refine ⟨fun h => ?_, fun h => h.elim⟩
        simp only [KotlinLitOk, mobileLit] at h
        rcases hi with rfl | rfl | rfl <;> cases sg <;> exact absurd h (by decide)
    · rw [e] at hf ⊢
      simp only [kotlinTypeToks, List.cons.injEq, Tok.word.injEq, and_true, exists_eq_left']
      cases l with
      | int v => exact hf.elim
      | num d =>
        refine ⟨fun _ => trivial, fun _ => ?_⟩
        simp only [KotlinLitOk, mobileLit, kotlinSuffix]
        rcases hi with rfl | rfl <;> decide
      | bool b =>
        refine ⟨fun h => ?_, fun h => h.elim⟩
        simp only [KotlinLitOk, mobileLit] at h
        rcases hi with rfl | rfl <;> exact absurd h (by decide)
      | str r =>
        refine ⟨fun h => ?_, fun h => h.elim⟩
        simp only [KotlinLitOk, mobileLit] at h
        rcases hi with rfl | rfl <;> exact absurd h (by decide)
    · rw [e] at hf ⊢
      simp only [kotlinTypeToks, List.cons.injEq, Tok.word.injEq, and_true, exists_eq_left']
      cases l with
      | int v => exact hf.elim
      | num d => exact hf.elim
      | bool b => exact ⟨fun _ => trivial, fun _ => rfl⟩
      | str r =>
        refine ⟨fun h => ?_, fun h => h.elim⟩
        simp [KotlinLitOk, mobileLit] at h
    · rw [e] at hf ⊢
      simp only [kotlinTypeToks, List.cons.injEq, Tok.word.injEq, and_true, exists_eq_left']
      cases l with
      | int v => exact hf.elim
      | num d => exact hf.elim
      | bool b =>
        refine ⟨fun h => ?_, fun h => h.elim⟩
        simp [KotlinLitOk, mobileLit] at h
      | str r =>
        refine ⟨fun h => ?_, fun h => h.elim⟩
        simp [KotlinLitOk, mobileLit] at h
    · rw [e] at hf ⊢
      simp only [kotlinTypeToks, List.cons.injEq, Tok.word.injEq, and_true, exists_eq_left']
      cases l with
      | int v =>
        have hf : n = "GroupAddress" ∨ n = "CommandsBufferAddress" := hf
        rw [if_pos hf]
        exact ⟨fun _ => hf, fun _ => ⟨64, rfl, hl.1, int_lt_63 hl.2⟩⟩
      | num d => exact hf.elim
      | bool b =>
        simp only [KotlinLitOk, mobileLit, SuitsKotlin]
        split
        · next h => rcases h with rfl | rfl <;> decide
        · exact Iff.rfl
      | str r =>
        simp only [KotlinLitOk, mobileLit, SuitsKotlin]
        split
        · next h => rcases h with rfl | rfl <;> decide
        · exact Iff.rfl

theorem suitsKotlin_fits {t : TypeId} {l : Literal} (h : SuitsKotlin t l) : LiteralFits t l := by
  cases t <;> cases l <;> first | exact h.elim | trivial | exact h

theorem suitsSwift_fits {t : TypeId} {l : Literal} (h : SuitsSwift t l) : LiteralFits t l := by
  cases t <;> cases l <;> first | exact h.elim | trivial | exact h

theorem swift_suits {x : ExtF} {t : TypeId} {l : Literal} (ht : LegalType t) (hl : LegalLit l) (hf : LiteralFits t l) :
    (∃ T, swiftTypeToks "char" t = [.word T] ∧ SwiftLitOk T (swiftSuffix t l) (mobileLit x l)) ↔ SuitsSwift t l := by
  cases ht with
  | generic n as hn has =>
    constructor
    · rintro ⟨T, h, _⟩
      simp only [swiftTypeToks] at h
      split at h <;> simp at h
    · intro h; cases l <;> exact h.elim
  | name n hn =>
    rcases typeName_cases n with ⟨i, sg, e, hi⟩ | ⟨i, e, hi⟩ | e | e | e
    · rw [e] at hf ⊢
      simp only [swiftTypeToks, List.cons.injEq, Tok.word.injEq, and_true, exists_eq_left']
      cases l with
      | int v =>
        rcases hi with rfl | rfl | rfl <;> cases sg <;>
          simp only [swiftNames, swiftSuffix, mobileLit, SwiftLitOk, SuitsSwift, true_and]
        all_goals
          constructor
          · rintro (⟨bits, e1, e2, e3⟩ | e1 | e1)
            · first
              | (have e1 : some 8 = some bits := e1; cases e1; exact e3)
              | (have e1 : some 7 = some bits := e1; cases e1; exact e3)
              | (have e1 : some 32 = some bits := e1; cases e1; exact e3)
              | (have e1 : some 31 = some bits := e1; cases e1; exact e3)
              | (have e1 : some 64 = some bits := e1; cases e1; exact e3)
              | (have e1 : some 63 = some bits := e1; cases e1; exact e3)
            · exact absurd e1 (by decide)
            · exact absurd e1 (by decide)
          · intro h
            exact .inl ⟨_, rfl, hl.1, h⟩
      | num d => exact hf.elim
      | bool b =>
        refine ⟨fun h => ?_, fun h => h.elim⟩
        simp only [SwiftLitOk, mobileLit] at h
        rcases hi with rfl | rfl | rfl <;> cases sg <;> exact absurd h (by decide)
      | str r =>
        refine ⟨fun h => ?_, fun h => h.elim⟩
        simp only [SwiftLitOk, mobileLit] at h
        rcases hi with rfl | rfl | rfl <;> cases sg <;> exact absurd h (by decide)
    · rw [e] at hf ⊢
      simp only [swiftTypeToks, List.cons.injEq, Tok.word.injEq, and_true, exists_eq_left']
      cases l with
      | int v => exact hf.elim
      | num d =>
        simp only [SwiftLitOk, mobileLit, swiftSuffix, SuitsSwift]
        rcases hi with rfl | rfl <;> decide
      | bool b =>
        refine ⟨fun h => ?_, fun h => h.elim⟩
        simp only [SwiftLitOk, mobileLit] at h
        rcases hi with rfl | rfl <;> exact absurd h (by decide)
      | str r =>
        refine ⟨fun h => ?_, fun h => h.elim⟩
        simp only [SwiftLitOk, mobileLit] at h
        rcases hi with rfl | rfl <;> exact absurd h (by decide)
    · rw [e] at hf ⊢
      simp only [swiftTypeToks, List.cons.injEq, Tok.word.injEq, and_true, exists_eq_left']
      cases l with
      | int v => exact hf.elim
      | num d => exact hf.elim
      | bool b => exact ⟨fun _ => trivial, fun _ => rfl⟩
      | str r =>
        refine ⟨fun h => ?_, fun h => h.elim⟩
        simp [SwiftLitOk, mobileLit] at h
    · rw [e] at hf ⊢
      simp only [swiftTypeToks, List.cons.injEq, Tok.word.injEq, and_true, exists_eq_left']
      cases l with
      | int v => exact hf.elim
      | num d => exact hf.elim
      | bool b =>
        refine ⟨fun h => ?_, fun h => h.elim⟩
        simp [SwiftLitOk, mobileLit] at h
      | str r =>
        refine ⟨fun h => ?_, fun h => h.elim⟩
        simp [SwiftLitOk, mobileLit] at h
    · rw [e] at hf ⊢
      simp only [swiftTypeToks, List.cons.injEq, Tok.word.injEq, and_true, exists_eq_left']
      cases l with
      | int v =>
        have hf : n = "GroupAddress" ∨ n = "CommandsBufferAddress" := hf
        rw [if_pos hf]
        exact ⟨fun _ => hf, fun _ => ⟨rfl, .inl ⟨64, rfl, hl.1, int_lt_63 hl.2⟩⟩⟩
      | num d => exact hf.elim
      | bool b =>
        simp only [SwiftLitOk, mobileLit, SuitsSwift]
        split
        · next h => rcases h with rfl | rfl <;> decide
        · exact Iff.rfl
      | str r =>
        simp only [SwiftLitOk, mobileLit, SuitsSwift]
        split
        · next h => rcases h with rfl | rfl <;> decide
        · exact Iff.rfl

end TPB.Spec
