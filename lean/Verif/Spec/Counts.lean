import Verif.Spec.Text
/-!
# Vocabulary for statements about host counts
-/
namespace Ripcalc

/-- A decimal numeral with underscores anywhere but in front. -/
def SeparatedNumeral (s : Str) (v : Nat) : Prop := s.head? ≠ some '_' ∧ Numeral 10 (s.filter (· ≠ '_')) v

/-- A decimal integer, possibly with one sign in front. -/
def CountText (s : Str) (c : Int) : Prop :=
  (∃ v : Nat, c = v ∧ (SeparatedNumeral s v ∨ ∃ t, s = '+' :: t ∧ SeparatedNumeral t v)) ∨
  (∃ v : Nat, c = -v ∧ ∃ t, s = '-' :: t ∧ SeparatedNumeral t v)

end Ripcalc
