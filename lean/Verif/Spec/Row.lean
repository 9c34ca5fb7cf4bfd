import Verif.Spec.Listing
/-!
# Networks one after the other
-/
namespace Ripcalc
open AddrSpec

/-- CIDR networks one directly after the other, the first at `lo`, with the given numbers of host bits. -/
inductive InRow {A : Type} [AddrSpec A] : Nat → List Nat → List (Net A) → Prop
  | nil {lo} : InRow lo [] []
  | cons {lo i n es ns} : i ≤ width A → IsCidr (width A - i) n → val n.baseAddr = lo → InRow (lo + 2 ^ i) es ns → InRow lo (i :: es) (n :: ns)

/-- The number of addresses of networks with these numbers of host bits. -/
def rowSize (es : List Nat) : Nat := (es.map (2 ^ ·)).sum

/-- The places of the ones of a number of at most `k` binary digits, the lowest first. -/
def onesOf (k d : Nat) : List Nat := (List.range k).filter (Nat.testBit d)

end Ripcalc
