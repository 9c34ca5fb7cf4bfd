import Verif.Model.Stdio
/-!
# Vocabulary: devices
-/
namespace Ripcalc

/-- `lines` is the part of `bs` up to its last line end and `tail` the rest. -/
structure LinesOf (bs lines tail : List Byte) : Prop where
  append : bs = lines ++ tail
  tail : (10 : Byte) ∉ tail
  lines : lines = [] ∨ ∃ l, lines = l ++ [10]

/-- Every write takes at least one byte. -/
def Reliable (d : Device σ) : Prop := ∀ s bs, bs ≠ [] → ∃ n, (d s bs).1 = some (n + 1)

/-- A device that takes as many bytes as it has room for and then fails. -/
def limited : Device Nat := fun k bs => if k = 0 then (none, 0) else (some (min k bs.length), k - bs.length)

end Ripcalc
