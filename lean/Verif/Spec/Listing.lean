import Verif.Spec.Basic
/-!
# Vocabulary for statements about lists of addresses and networks
-/
namespace Ripcalc
open AddrSpec

/-- `xs` is the list of all members of the network in ascending order, each once. -/
def Listing [AddrSpec A] (n : Net A) (xs : List A) : Prop :=
  (∀ a, a ∈ xs ↔ Member n a) ∧ xs.Pairwise (fun a b => val a < val b)

/-- The networks contain together exactly the addresses satisfying `P`. -/
def Covers [AddrSpec A] (ns : List (Net A)) (P : A → Prop) : Prop := ∀ a, (∃ n ∈ ns, Member n a) ↔ P a

/-- No address is in both networks. -/
def Disjoint [AddrSpec A] (n o : Net A) : Prop := ∀ a : A, ¬ (Member n a ∧ Member o a)

/-- Every member of the network is numerically below every member of the other. -/
def Below [AddrSpec A] (n o : Net A) : Prop := ∀ a b : A, Member n a → Member o b → val a < val b

/-- Strictly before: smaller base address, or the same and smaller mask. -/
def KeyLt [AddrSpec A] (n o : Net A) : Prop :=
  val n.baseAddr < val o.baseAddr ∨ (val n.baseAddr = val o.baseAddr ∧ val n.subnetMask < val o.subnetMask)

/-- Every member of `o` is a member of `n`. -/
def Includes [AddrSpec A] (n o : Net A) : Prop := ∀ a : A, Member o a → Member n a

/-- The mask of `n` is `M` with the bits below some position cleared.  For `M` of all ones these are the CIDR masks. -/
def InChain [AddrSpec A] (M : Nat) (n : Net A) : Prop :=
  ∃ j, j ≤ width A ∧ ∀ i, i < width A → (val n.subnetMask).testBit i = (M.testBit i && decide (j ≤ i))

/-- The number of host bits (zeros) of a mask. -/
def hostBitCount [AddrSpec A] (m : A) : Nat := countBelow (width A) (fun i => !(val m).testBit i)

/-- The network number: the base address read at the network bits (mask bit one) only, most significant first. -/
def networkNumber [AddrSpec A] (n : Net A) : Nat :=
  bigEndian 2 ((bitsAt (val n.baseAddr) ((positions (width A)).filter (fun i => (val n.subnetMask).testBit i))).map Bool.toNat)

/-- CIDR networks following each other without a gap: from the address number `b` up to, but not including, `e`. -/
inductive Tiles [AddrSpec A] : Nat → List (Net A) → Nat → Prop
  | nil (b : Nat) : Tiles b [] b
  | cons {n : Net A} {ns : List (Net A)} {p e : Nat} :
    IsCidr p n → Tiles (val n.baseAddr + 2 ^ (width A - p)) ns e → Tiles (val n.baseAddr) (n :: ns) e

/-- `e` is the least number of host bits whose addresses, without the two special ones, suffice for `c` hosts. -/
def HostBitsFor (c : Int) (e : Nat) : Prop := c + 2 ≤ 2 ^ e ∧ ∀ e' : Nat, c + 2 ≤ 2 ^ e' → e ≤ e'

end Ripcalc
