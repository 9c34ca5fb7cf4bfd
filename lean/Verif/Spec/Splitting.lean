import Verif.Spec.Listing
/-!
# Vocabulary: how a network is split
-/
namespace Ripcalc
open AddrSpec

/-- To each number of hosts the smallest CIDR network with enough addresses, one directly after the other, from the address number
`b` up to, but not including, `e`. -/
inductive Allotted [AddrSpec A] : Nat → List (Int × Net A) → Nat → Prop
  | nil (b : Nat) : Allotted b [] b
  | cons {c : Int} {n : Net A} {rest : List (Int × Net A)} {q e : Nat} :
    IsCidr q n → HostBitsFor c (width A - q) → Allotted (val n.baseAddr + 2 ^ (width A - q)) rest e →
    Allotted (val n.baseAddr) ((c, n) :: rest) e

/-- `ns` are networks for the numbers of hosts `hcs`: they are allotted in descending order of the numbers, from the base address of
`n` rounded down to the size of the largest, and end before the end of the address space. -/
def SplitInto [AddrSpec A] (n : Net A) (hcs : List Int) (ns : List (Net A)) : Prop :=
  ns.length = hcs.length ∧ ∃ rs E e, rs.Perm (hcs.zip ns) ∧ rs.Pairwise (fun x y => y.1 ≤ x.1) ∧
    (∀ r, rs.head? = some r → HostBitsFor r.1 E) ∧ Allotted (val n.baseAddr / 2 ^ E * 2 ^ E) rs e ∧ e < 2 ^ width A

end Ripcalc
