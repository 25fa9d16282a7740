/-
The parser model's state `PS` is a faithful view of the token cursor of lexer.rs: every cursor
operation used by parser.rs commutes with the view.
-/
import Verif.Model.Parser
namespace TPB

/-- The view of a cursor: the tokens from the cursor on. -/
def Lexer.view (l : Lexer) : PS := ⟨l.tokens.drop l.cursor, l.lastFn, l.registered⟩

/-- Token vectors made by `tokenize` end in EOF (`C01_tokenize_total`). -/
def Lexer.EndsInEof (l : Lexer) : Prop := ∃ ts, l.tokens = ts ++ [.eof]

theorem view_ofTokens (ts : List Token) : (Lexer.ofTokens ts).view = ⟨ts, 0, []⟩ := rfl

theorem view_cur (l : Lexer) (h : l.EndsInEof) : l.view.cur = l.currentToken := by
  obtain ⟨ts, hts⟩ := h
  unfold Lexer.currentToken PS.cur Lexer.view
  simp only
  split
  · rename_i hl
    rw [List.drop_eq_nil_of_le hl, hts]
    simp
  · rename_i hl
    have hl' : l.cursor < l.tokens.length := by omega
    rw [List.drop_eq_getElem_cons hl']
    simp [List.getD, hl']

theorem view_next (l : Lexer) : l.nextToken.view = l.view.adv := by
  simp [Lexer.nextToken, Lexer.view, PS.adv, List.tail_drop]

theorem next_endsInEof (l : Lexer) (h : l.EndsInEof) : l.nextToken.EndsInEof := h

theorem view_nextFn (l : Lexer) :
    l.nextFnPosition.1 = l.view.nextFn.1 ∧ l.nextFnPosition.2.view = l.view.nextFn.2 := ⟨rfl, rfl⟩

theorem nextFn_endsInEof (l : Lexer) (h : l.EndsInEof) : l.nextFnPosition.2.EndsInEof := h

end TPB
