import Verif.Spec.Text
/-!
# Vocabulary for C122: zeros in front of numbers
-/
namespace Ripcalc

/-- A digit of some base up to sixteen. -/
def digitChars : List Char := lowerDigits ++ upperDigits

/-- A character inside a number: a digit or an underscore. -/
def insideChars : List Char := '_' :: digitChars

/-- The second text is the first with zeros added in front of numbers: in front of digits that do not follow a digit or an underscore.
The flag says whether the text follows one. -/
inductive ZerosAdded : Bool → Str → Str → Prop
  | nil {b} : ZerosAdded b [] []
  | keep {b c s s'} : ZerosAdded (decide (c ∈ insideChars)) s s' → ZerosAdded b (c :: s) (c :: s')
  | zero {c s s'} : c ∈ digitChars → ZerosAdded false (c :: s) s' → ZerosAdded false (c :: s) ('0' :: s')

end Ripcalc
