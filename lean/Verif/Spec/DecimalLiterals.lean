/- Specification of decimal literals (C92). -/
import Verif.Spec.Spelling
import Verif.Model.Ast
namespace TPB.Spec

def Digits (cs : List Char) : Prop := ∀ c ∈ cs, IsDigit c

/-- The exponent of a number: a letter, at most one sign and at least one digit. -/
def IsExponent (cs : List Char) : Prop :=
  ∃ e sign ds, (e = 'e' ∨ e = 'E') ∧ (sign = [] ∨ sign = ['+'] ∨ sign = ['-']) ∧ ds ≠ [] ∧ Digits ds ∧ cs = e :: (sign ++ ds)

/-- A number with a decimal point: at least one digit, a point, digits, and possibly an exponent. -/
def IsPointNumber (cs : List Char) : Prop :=
  ∃ int frac exp, int ≠ [] ∧ Digits int ∧ Digits frac ∧ (exp = [] ∨ IsExponent exp) ∧ cs = int ++ '.' :: (frac ++ exp)

end TPB.Spec

namespace TPB.Spec

mutual
/-- The literals of a constant, and of the constants in a block. -/
def constLiterals : ConstItem → List Literal
  | .value _ _ v => [v.literal]
  | .node _ is => blockLiterals is
def blockLiterals : List ConstItem → List Literal
  | [] => []
  | i :: is => constLiterals i ++ blockLiterals is
end

end TPB.Spec
