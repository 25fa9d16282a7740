/-
Facts about derivations of whole schemas: appending, renumbering methods, where they can end.
-/
import Verif.Proofs.ParserSound
import Verif.Proofs.ParserComplete
import Verif.Proofs.ParserFuel
import Verif.Proofs.WellFormed
import Verif.Proofs.Balance
namespace TPB
open Spec

theorem schemaG_append {q : Bool} {k k' k'' : Nat} {ts us : List Token} {ds es : List ASTNode}
    (h : SchemaG q k ts ds k') (g : SchemaG q k' us es k'') : SchemaG q k (ts ++ us) (ds ++ es) k'' := by
  induction h with
  | nil k => exact g
  | cons k k1 k2 ts vs d ds hd _ ih =>
    rw [List.append_assoc]
    exact .cons _ _ _ _ _ _ _ hd (ih g)

theorem declG_shift {q : Bool} {k k' : Nat} {ts : List Token} {d : ASTNode} (n : Nat) (h : DeclG q k ts d k') :
    DeclG q (k + n) ts (shiftDecl n d) (k' + n) := by
  cases h with
  | unit => exact .unit _ _
  | struct _ ts fs h hne => exact .struct _ _ _ _ h hne
  | enum _ ts is h hne => exact .enum _ _ _ _ h hne
  | fn a _ ts us as e r h h2 =>
    rw [show k + 1 + n = k + n + 1 by omega]
    exact .fn _ _ _ _ _ _ _ _ h h2
  | read a _ us r h2 =>
    rw [show k + 1 + n = k + n + 1 by omega]
    exact .read _ _ _ _ _ h2
  | const _ ts is h => exact .const _ _ _ _ h
  | valueDirective _ l => exact .valueDirective _ _ _
  | groupDirective _ ts ps e x h hx => exact .groupDirective _ _ _ _ _ _ h hx

theorem schemaG_shift {q : Bool} {k k' : Nat} {ts : List Token} {ds : List ASTNode} (n : Nat)
    (h : SchemaG q k ts ds k') : SchemaG q (k + n) ts (ds.map (shiftDecl n)) (k' + n) := by
  induction h with
  | nil k => exact .nil _
  | cons k k1 k2 ts us d ds hd _ ih => exact .cons _ _ _ _ _ _ _ (declG_shift n hd) ih

/-- Undo a shift. -/
theorem declG_unshift {q : Bool} {k k' : Nat} {ts : List Token} {d : ASTNode} (n : Nat)
    (h : DeclG q (k + n) ts d k') : ∃ d' k1, k' = k1 + n ∧ d = shiftDecl n d' ∧ DeclG q k ts d' k1 := by
  cases h with
  | unit => exact ⟨_, k, rfl, rfl, .unit _ _⟩
  | struct _ ts fs h hne => exact ⟨_, k, rfl, rfl, .struct _ _ _ _ h hne⟩
  | enum _ ts is h hne => exact ⟨_, k, rfl, rfl, .enum _ _ _ _ h hne⟩
  | fn a _ ts us as e r h h2 => exact ⟨_, k + 1, by omega, rfl, .fn _ _ _ _ _ _ _ _ h h2⟩
  | read a _ us r h2 => exact ⟨_, k + 1, by omega, rfl, .read _ _ _ _ _ h2⟩
  | const _ ts is h => exact ⟨_, k, rfl, rfl, .const _ _ _ _ h⟩
  | valueDirective _ l => exact ⟨_, k, rfl, rfl, .valueDirective _ _ _⟩
  | groupDirective _ ts ps e x h hx => exact ⟨_, k, rfl, rfl, .groupDirective _ _ _ _ _ _ h hx⟩

theorem schemaG_unshift {q : Bool} {k k' : Nat} {ts : List Token} {ds : List ASTNode} (n : Nat)
    (h : SchemaG q (k + n) ts ds k') :
    ∃ ds' k1, k' = k1 + n ∧ ds = ds'.map (shiftDecl n) ∧ SchemaG q k ts ds' k1 := by
  generalize hm : k + n = m at h
  induction h generalizing k with
  | nil m => exact ⟨[], k, hm.symm, rfl, .nil _⟩
  | cons m k1 k2 ts us d ds hd _ ih =>
    subst hm
    obtain ⟨d', k3, h1, h2, h3⟩ := declG_unshift n hd
    obtain ⟨ds', k4, g1, g2, g3⟩ := ih h1.symm
    exact ⟨d' :: ds', k4, g1, by rw [h2, g2]; rfl, .cons _ _ _ _ _ _ _ h3 g3⟩

theorem retG_last {q : Bool} {us : List Token} {r : Option TypeId} (h : RetG q us r) :
    ∃ vs, us = vs ++ [.sym ';'] := by
  cases h with
  | none => exact ⟨[], rfl⟩
  | some t ts ht => exact ⟨_ :: _ :: ts, rfl⟩

/-- A declaration ends in one of three symbols, so never in end-of-file. -/
theorem declG_last {q : Bool} {k k' : Nat} {ts : List Token} {d : ASTNode} (h : DeclG q k ts d k') :
    ∃ us c, ts = us ++ [.sym c] := by
  cases h with
  | unit n => exact ⟨[.kwStruct, .id n], ';', rfl⟩
  | struct n ts fs h hne => exact ⟨.kwStruct :: .id n :: .sym '{' :: ts, '}', by simp⟩
  | enum n ts is h hne => exact ⟨.kwEnum :: .id n :: .sym '{' :: ts, '}', by simp⟩
  | fn a n ts us as e r h h2 =>
    obtain ⟨vs, rfl⟩ := retG_last h2
    exact ⟨asyncTokens a ++ .kwFn :: .id n :: .sym '(' :: (ts ++ .sym ')' :: vs), ';', by simp⟩
  | read a n us r h2 =>
    obtain ⟨vs, rfl⟩ := retG_last h2
    exact ⟨asyncTokens a ++ .kwRead :: .id n :: vs, ';', by simp⟩
  | const n ts is h => exact ⟨.kwConst :: .id n :: .sym '{' :: ts, '}', by simp⟩
  | valueDirective n l => exact ⟨[.sym '#', .sym '[', .id n, .sym '=', .lit l], ']', rfl⟩
  | groupDirective n ts ps e x h hx =>
    exact ⟨.sym '#' :: .sym '[' :: .id n :: .sym '(' :: (ts ++ [x]), ']', by simp⟩

theorem schemaG_last {q : Bool} {k k' : Nat} {ts : List Token} {ds : List ASTNode} (h : SchemaG q k ts ds k') :
    ts = [] ∨ ∃ us c, ts = us ++ [.sym c] := by
  induction h with
  | nil => exact .inl rfl
  | cons k k1 k2 ts us d ds hd _ ih =>
    right
    obtain ⟨vs, c, rfl⟩ := declG_last hd
    rcases ih with rfl | ⟨ws, c', rfl⟩
    · exact ⟨vs, c, by simp⟩
    · exact ⟨vs ++ [.sym c] ++ ws, c', by simp⟩

/-- What `parse` accepts, for any token vector. -/
theorem parse_sound {ts : List Token} {ast : List ASTNode} (h : parse ts = .ok ast) :
    ∃ us r k, ts = us ++ r ∧ (r = [] ∨ r.head? = some .eof) ∧ SchemaG true 0 us ast k := by
  unfold parse at h
  cases heq : parseLoop (ts.length + 1) ⟨ts, 0, []⟩ with
  | error e => simp [heq] at h
  | ok p =>
    obtain ⟨ds, s'⟩ := p
    simp [heq] at h
    subst h
    obtain ⟨us, h1, h2, h3⟩ := parseLoop_sound _ _ _ _ rfl heq
    refine ⟨us, s'.rest, _, h1, ?_, h3⟩
    unfold PS.cur at h2
    cases hr : s'.rest with
    | nil => exact .inl rfl
    | cons t r => rw [hr] at h2; right; simpa using h2

theorem parse_complete {q : Bool} {k : Nat} {us r : List Token} {ast : List ASTNode}
    (hr : r = [] ∨ r.head? = some .eof) (h : SchemaG q 0 us ast k) : parse (us ++ r) = .ok ast := by
  unfold parse
  have hcur : (PS.at ⟨us ++ r, 0, []⟩ r).cur = .eof := by
    rcases hr with rfl | hr
    · rfl
    · cases r with
      | nil => rfl
      | cons t r => simpa using hr
  have := parseLoop_complete h ((us ++ r).length + 1) ⟨us ++ r, 0, []⟩ r rfl rfl (by simp; omega) hcur
  have e : PS.at ⟨us ++ r, 0, []⟩ (us ++ r) = ⟨us ++ r, 0, []⟩ := rfl
  rw [e] at this
  rw [this]

/-- `parse` accepts a token vector ending in its only EOF exactly when the rest is a (lenient) schema. -/
theorem parse_iff {ts : List Token} (he : Token.eof ∉ ts) (ast : List ASTNode) :
    parse (ts ++ [.eof]) = .ok ast ↔ ∃ k, SchemaG true 0 ts ast k := by
  constructor
  · intro h
    obtain ⟨us, r, k, h1, h2, h3⟩ := parse_sound h
    refine ⟨k, ?_⟩
    rcases h2 with rfl | h2
    · rcases schemaG_last h3 with h4 | ⟨vs, c, h4⟩
      · subst h4; simp at h1
      · subst h4
        have := congrArg List.getLast? h1
        simp at this
    · cases r with
      | nil => simp at h2
      | cons t r =>
        simp only [List.head?_cons, Option.some.injEq] at h2
        subst h2
        have : us = ts := by
          rcases List.append_eq_append_iff.1 h1 with ⟨a, h4, h5⟩ | ⟨a, h4, h5⟩
          · cases a with
            | nil => simpa using h4
            | cons x a =>
              have := congrArg List.length h5
              simp at this
          · cases a with
            | nil => simpa using h4.symm
            | cons x a =>
              simp at h5
              exact absurd (by rw [h4, ← h5.1]; simp) he
        exact this ▸ h3
  · rintro ⟨k, h⟩
    exact parse_complete (.inr rfl) h

/-- Parsing a schema followed by anything reads the schema first. -/
theorem parseLoop_prefix {q : Bool} {k k' : Nat} {ts : List Token} {ds : List ASTNode}
    (h : SchemaG q k ts ds k') : ∀ (n : Nat) (s : PS) (r : List Token) (cs : List ASTNode) (s' : PS),
      s.registered = [] → s.lastFn = k → ts.length < n → parseLoop n (s.at (ts ++ r)) = .ok (cs, s') →
      ∃ m bs, cs = ds ++ bs ∧ parseLoop m (s.atF k' r) = .ok (bs, s') := by
  induction h with
  | nil k =>
    intro n s r cs s' hreg hk hn hp
    subst hk
    exact ⟨n, cs, rfl, hp⟩
  | cons k k1 k2 ts us d ds hd _ ih =>
    intro n s r cs s' hreg hk hn hp
    obtain ⟨t, vs, hts, ht⟩ := declG_ne_nil hd
    have hlen : 0 < ts.length := by rw [hts]; simp
    simp only [List.length_append] at hn
    obtain ⟨n, rfl⟩ : ∃ k, n = k + 1 := ⟨n - 1, by omega⟩
    have hne : (s.at (ts ++ (us ++ r))).cur ≠ .eof := by rw [hts]; exact ht
    simp only [parseLoop, List.append_assoc] at hp
    by_cases hn2 : ts.length ≤ n
    · rw [if_neg hne, parseDecl_complete hd (n := n) (s := s) (r := us ++ r) hreg hk hn2] at hp
      simp only at hp
      have e : s.atF k1 (us ++ r) = (s.atF k1 r).at (us ++ r) := rfl
      rw [e] at hp
      cases heq : parseLoop n ((s.atF k1 r).at (us ++ r)) with
      | error e => simp [heq] at hp
      | ok p =>
        obtain ⟨as, s2⟩ := p
        simp [heq] at hp
        obtain ⟨rfl, rfl⟩ := hp
        obtain ⟨m, bs, h1, h2⟩ := ih n (s.atF k1 r) r as s2 hreg rfl (by omega) heq
        exact ⟨m, bs, by rw [h1]; rfl, h2⟩
    · omega

theorem prefix_parse {q : Bool} {k : Nat} {ts us : List Token} {ast c : List ASTNode}
    (h : SchemaG q 0 ts ast k) (hc : parse (ts ++ us) = .ok c) :
    ∃ vs r k' bs, us = vs ++ r ∧ (r = [] ∨ r.head? = some .eof) ∧ SchemaG true k vs bs k' ∧ c = ast ++ bs := by
  unfold parse at hc
  cases heq : parseLoop ((ts ++ us).length + 1) ⟨ts ++ us, 0, []⟩ with
  | error e => simp only [heq, Except.ok.injEq, reduceCtorEq] at hc
  | ok p =>
    obtain ⟨ds, s'⟩ := p
    simp only [heq, Except.ok.injEq, reduceCtorEq] at hc
    subst hc
    have e : PS.at ⟨ts ++ us, 0, []⟩ (ts ++ us) = ⟨ts ++ us, 0, []⟩ := rfl
    rw [← e] at heq
    obtain ⟨m, bs, h1, h2⟩ := parseLoop_prefix h _ _ us ds s' rfl rfl (by simp; omega) heq
    obtain ⟨vs, g1, g2, g3⟩ := parseLoop_sound _ _ _ _ rfl h2
    refine ⟨vs, s'.rest, _, bs, g1, ?_, g3, h1⟩
    unfold PS.cur at g2
    cases hr : s'.rest with
    | nil => exact .inl rfl
    | cons t r => rw [hr] at g2; right; simpa using g2

/-! ### Layouts of appended texts -/

theorem sep_append {s t : List Char} (h : Sep s) (g : Sep t) : Sep (s ++ t) := by
  induction h with
  | nil => exact g
  | white c r hc _ ih => exact .white _ _ hc ih
  | line body nl r h1 h2 h3 _ ih => simpa using Sep.line body nl _ h1 h2 h3 ih
  | block body r h1 _ ih => simpa using Sep.block body _ h1 ih

theorem layout_sep {us : List Token} {s y : List Char} (h : Sep s) (g : Layout us y) : Layout us (s ++ y) := by
  cases g with
  | nil t ht => exact .nil _ (sep_append h ht)
  | eofComment t body ht h1 h2 =>
    rw [← List.append_assoc]
    exact .eofComment _ _ (sep_append h ht) h1 h2
  | cons t x r tk ts ht h1 h2 h3 =>
    rw [← List.append_assoc]
    exact .cons _ _ _ _ _ (sep_append h ht) h1 h2 h3

theorem stops_append {t : Token} {r z : List Char} (h : Stops t r) : Stops t (r ++ '\n' :: z) := by
  cases t <;> cases r <;> simp_all [Stops] <;> (try decide)
  all_goals (rename_i l; cases l <;> simp_all [Stops] <;> (try decide))

theorem layout_append {ts us : List Token} {x y : List Char} (h : Layout ts x) (g : Layout us y) :
    Layout (ts ++ us) (x ++ '\n' :: y) := by
  have gy : Layout us ('\n' :: y) := layout_sep (s := ['\n']) (.white _ _ (by simp) .nil) g
  induction h with
  | nil s hs => exact layout_sep hs gy
  | eofComment s body hs h1 h2 =>
    have : Sep (s ++ ('/' :: '/' :: (body ++ '\n' :: []))) := sep_append hs (.line _ _ _ h1 h2 (by simp) .nil)
    have := layout_sep this g
    simpa using this
  | cons s x r t ts hs hx hst _ ih =>
    have := Layout.cons s x (r ++ '\n' :: y) t (ts ++ us) hs hx (stops_append hst) ih
    simpa using this

end TPB
