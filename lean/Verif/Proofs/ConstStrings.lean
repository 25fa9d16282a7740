/- Which texts a string literal made of the text itself between quotes denotes. -/
import Verif.Spec.Reader
namespace TPB.Spec

section
variable {σ : Type} (step : σ → Char → Option (List Char × σ)) (ok : σ → Bool) (s0 : σ)

theorem decode_plain (hok : ok s0 = true) (cs : List Char) (h : ∀ c ∈ cs, step s0 c = some ([c], s0)) :
    decodeWith step ok s0 cs = some cs := by
  induction cs with
  | nil => simp [decodeWith, hok]
  | cons c cs ih => simp [decodeWith, h c (by simp), ih (fun d hd => h d (by simp [hd]))]

theorem decode_length (h1 : ∀ s c out s', step s c = some (out, s') → out.length ≤ 1) (s : σ) (cs out : List Char)
    (h : decodeWith step ok s cs = some out) : out.length ≤ cs.length := by
  induction cs generalizing s out with
  | nil =>
    simp only [decodeWith] at h
    split at h
    · simp at h; simp [← h]
    · simp at h
  | cons c cs ih =>
    simp only [decodeWith] at h
    split at h
    · simp at h
    · rename_i o s' hs
      cases hr : decodeWith step ok s' cs with
      | none => simp [hr] at h
      | some r =>
        simp [hr] at h
        have := ih s' r hr
        have := h1 s c o s' hs
        subst h
        simp; omega

theorem decode_short (h1 : ∀ s c out s', step s c = some (out, s') → out.length ≤ 1)
    (cs out : List Char) (c : Char) (hc : c ∈ cs) (hn : ∀ o s', step s0 c = some (o, s') → o = [])
    (hd : ∀ c, step s0 c = some ([c], s0) ∨ ∀ o s', step s0 c = some (o, s') → o = [])
    (h : decodeWith step ok s0 cs = some out) : out.length < cs.length := by
  induction cs generalizing out with
  | nil => simp at hc
  | cons d cs ih =>
    simp only [decodeWith] at h
    split at h
    · simp at h
    · rename_i o s' hs
      cases hr : decodeWith step ok s' cs with
      | none => simp [hr] at h
      | some r =>
        simp [hr] at h
        subst h
        have hlen := decode_length step ok h1 s' cs r hr
        by_cases he : o = []
        · subst he; simp; omega
        · rcases hd d with hp | hp
          · rw [hp] at hs
            simp only [Option.some.injEq, Prod.mk.injEq] at hs
            obtain ⟨rfl, rfl⟩ := hs
            rw [List.mem_cons] at hc
            rcases hc with rfl | hc
            · exact absurd (hn _ _ hp) he
            · have := ih r hc hr
              simp; omega
          · exact absurd (hp _ _ hs) he
end

theorem codePoint_len (n : Nat) (out : List Char) (s : DecState) (h : codePoint n = some (out, s)) : out.length ≤ 1 := by
  unfold codePoint at h
  split at h
  · simp at h; simp [← h.1]
  · simp at h

theorem rustPlain_len (c : Char) (out : List Char) (s : DecState) (h : rustStep.plain c = some (out, s)) :
    out.length ≤ 1 := by
  unfold rustStep.plain at h
  repeat' split at h
  all_goals first | (simp at h; done) | (simp at h; simp [← h.1]; done) | (simp at h; simp [h.1]; done)

theorem rustStep_len (s : DecState) (c : Char) (out : List Char) (s' : DecState) (h : rustStep s c = some (out, s')) :
    out.length ≤ 1 := by
  cases s <;> simp only [rustStep] at h <;> repeat' split at h
  all_goals first
    | exact codePoint_len _ _ _ h
    | exact rustPlain_len _ _ _ h
    | (simp at h; done)
    | (simp at h; simp [← h.1]; done)
    | (simp at h; simp [h.1]; done)

theorem dartStep_len (s : DecState) (c : Char) (out : List Char) (s' : DecState) (h : dartStep s c = some (out, s')) :
    out.length ≤ 1 := by
  cases s <;> simp only [dartStep] at h <;> repeat' split at h
  all_goals first
    | exact codePoint_len _ _ _ h
    | (simp at h; done)
    | (simp at h; simp [← h.1]; done)
    | (simp at h; simp [h.1]; done)

theorem rust_nonplain {c : Char} (h : c = '\\' ∨ c = '\r' ∨ c = '"') (o : List Char) (s' : DecState)
    (e : rustStep .plain c = some (o, s')) : o = [] := by
  rcases h with rfl | rfl | rfl <;> simp [rustStep, rustStep.plain] at e
  · exact e.1
  · exact e.1

theorem rust_plain {c : Char} (h : ¬ (c = '\\' ∨ c = '\r' ∨ c = '"')) : rustStep .plain c = some ([c], .plain) := by
  rw [not_or, not_or] at h
  simp [rustStep, rustStep.plain, h]

theorem dart_nonplain {c : Char} (h : c = '\\' ∨ c = '$' ∨ c = '\n' ∨ c = '\r' ∨ c = '"') (o : List Char) (s' : DecState)
    (e : dartStep .plain c = some (o, s')) : o = [] := by
  rcases h with rfl | rfl | rfl | rfl | rfl <;> simp [dartStep] at e
  · exact e.1

theorem dart_plain {c : Char} (h : ¬ (c = '\\' ∨ c = '$' ∨ c = '\n' ∨ c = '\r' ∨ c = '"')) :
    dartStep .plain c = some ([c], .plain) := by
  simp only [not_or] at h
  simp [dartStep, h]

theorem rustString_iff (s : String) :
    rustString s = some s ↔ '\\' ∉ s.toList ∧ '\r' ∉ s.toList ∧ '"' ∉ s.toList := by
  constructor
  · intro h
    simp only [rustString, Option.map_eq_some_iff] at h
    obtain ⟨out, h1, h2⟩ := h
    have key (c : Char) (hc : c = '\\' ∨ c = '\r' ∨ c = '"') : c ∉ s.toList := by
      intro hm
      have := decode_short rustStep _ .plain rustStep_len s.toList out c hm (rust_nonplain hc)
        (fun d => if hd : d = '\\' ∨ d = '\r' ∨ d = '"' then .inr (rust_nonplain hd) else .inl (rust_plain hd)) h1
      rw [← h2, String.toList_ofList] at this
      omega
    exact ⟨key _ (by simp), key _ (by simp), key _ (by simp)⟩
  · intro ⟨h1, h2, h3⟩
    have := decode_plain rustStep (fun s => s = .plain || s = .skip) .plain rfl s.toList (fun c hc => rust_plain (by
      rintro (rfl | rfl | rfl)
      · exact h1 hc
      · exact h2 hc
      · exact h3 hc))
    simp [rustString, this]

theorem dartString_iff (s : String) :
    dartString s = some s ↔ '\\' ∉ s.toList ∧ '$' ∉ s.toList ∧ '\n' ∉ s.toList ∧ '\r' ∉ s.toList ∧ '"' ∉ s.toList := by
  constructor
  · intro h
    simp only [dartString, Option.map_eq_some_iff] at h
    obtain ⟨out, h1, h2⟩ := h
    have key (c : Char) (hc : c = '\\' ∨ c = '$' ∨ c = '\n' ∨ c = '\r' ∨ c = '"') : c ∉ s.toList := by
      intro hm
      have := decode_short dartStep _ .plain dartStep_len s.toList out c hm (dart_nonplain hc)
        (fun d => if hd : d = '\\' ∨ d = '$' ∨ d = '\n' ∨ d = '\r' ∨ d = '"' then .inr (dart_nonplain hd)
          else .inl (dart_plain hd)) h1
      rw [← h2, String.toList_ofList] at this
      omega
    exact ⟨key _ (by simp), key _ (by simp), key _ (by simp), key _ (by simp), key _ (by simp)⟩
  · intro ⟨h1, h2, h3, h4, h5⟩
    have := decode_plain dartStep (fun s => s = .plain) .plain rfl s.toList (fun c hc => dart_plain (by
      rintro (rfl | rfl | rfl | rfl | rfl)
      · exact h1 hc
      · exact h2 hc
      · exact h3 hc
      · exact h4 hc
      · exact h5 hc))
    simp [dartString, this]

/-- A text between quotes, without a quote in it, is read as a string literal with that raw text, or is
not closed. -/
theorem scan_quoted (cs : List Char) (h : '"' ∉ cs) (acc : List Char) :
    (scanFrom (.str acc) (cs ++ ['"']) = some [.str (String.ofList (acc ++ cs))] ∨ scanFrom (.str acc) (cs ++ ['"']) = none) ∧
    (scanFrom (.esc acc) (cs ++ ['"']) = some [.str (String.ofList (acc ++ cs))] ∨ scanFrom (.esc acc) (cs ++ ['"']) = none) := by
  induction cs generalizing acc with
  | nil => simp [scanFrom, scanStep]
  | cons c cs ih =>
    simp only [List.mem_cons, not_or] at h
    have ih1 := (ih h.2 (acc ++ [c])).1
    have ih2 := (ih h.2 (acc ++ [c])).2
    rw [List.append_assoc, List.singleton_append] at ih1 ih2
    refine ⟨?_, ?_⟩
    · simp only [List.cons_append, scanFrom, scanStep, Ne.symm h.1, if_false]
      split
      · rcases ih2 with e | e <;> simp [e]
      · rcases ih1 with e | e <;> simp [e]
    · simp only [List.cons_append, scanFrom, scanStep]
      rcases ih1 with e | e <;> simp [e]

theorem scan_quoted_text (s : String) (h : '"' ∉ s.toList) :
    scan ("\"" ++ s ++ "\"") = some [.str s] ∨ scan ("\"" ++ s ++ "\"") = none := by
  have := (scan_quoted s.toList h []).1
  have e : ("\"" ++ s ++ "\"").toList = '"' :: (s.toList ++ ['"']) := by simp
  unfold scan
  rw [e]
  simp only [scanFrom, scanStep, scanStart]
  rcases this with e | e <;> simp [e]

/-- Reading back a quoted text. -/
theorem quoted_iff (str : String → Option String) (s : String) (h : '"' ∉ s.toList)
    (hb : str s = some s → '\\' ∉ s.toList)
    (hok : '\\' ∉ s.toList → scan ("\"" ++ s ++ "\"") = some [.str s]) :
    (scan ("\"" ++ s ++ "\"")).bind (readLit str) = some (.str s) ↔ str s = some s := by
  constructor
  · intro e
    rcases scan_quoted_text s h with h1 | h1
    · rw [h1] at e
      simpa [readLit] using e
    · rw [h1] at e
      simp at e
  · intro e
    rw [hok (hb e)]
    simp [readLit, e]

end TPB.Spec
