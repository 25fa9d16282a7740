/- C79: the names of an accepted schema. -/
import Verif.Proofs.Names
import Verif.Proofs.ConstTyping
import Verif.Spec.RustReader
namespace TPB.Props
open Spec

/-- **C79.** Every name in a schema that is read from a text, whatever its bytes are, is an identifier of ASCII
letters, digits and underscores, does not start with a digit, and is not a reserved word. -/
theorem C79_names_legal (src : String) (S : List ASTNode) (h : parseSource src = .ok S) :
    ∀ d ∈ S, ∀ w ∈ nodeWords d, LegalName w :=
  parseSource_names h

/-- Every name in a declaration that is read from tokens is one of these tokens. -/
theorem C79_names_from_text (ts : List Token) (S : List ASTNode) (h : parse ts = .ok S) :
    ∀ d ∈ S, ∀ w ∈ nodeWords d, .id w ∈ ts := by
  obtain ⟨us, r, k, h1, _, h3⟩ := parse_sound h
  intro d hd w hw
  rw [h1]
  simp [schemaG_words h3 d hd w hw]

/-- The names of the types of a schema read from a text can be names in Rust unless they are keywords of Rust. -/
theorem rustNamed_of_source {src : String} {S : List ASTNode} (h : parseSource src = .ok S)
    (hk : ∀ d ∈ S, ∀ w ∈ declWords d, w ∉ rustKeywords) : RustNamed S :=
  fun d hd w hw => ⟨isIdent_of w (C79_names_legal src S h d hd w (declWords_node d w hw)).1, hk d hd w hw⟩

/-- Non-vacuity of C79: a text with a struct, a method and constants. -/
example : ∃ S, parseSource "struct Ab { x_1: Vec<u32> } fn m(a: Ab) -> bool; const K { n: u8 = 1; }" = .ok S ∧
    S.flatMap nodeWords = ["Ab", "x_1", "Vec", "u32", "m", "a", "Ab", "bool", "K", "n", "u8"] := ⟨_, rfl, by decide⟩

end TPB.Props
