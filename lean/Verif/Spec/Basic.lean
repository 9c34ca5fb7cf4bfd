import Verif.Model.Net
/-!
# Vocabulary of the property statements

Independent of the functions under test: addresses are looked at through their numeric value (`val`), their bits
(`Nat.testBit`) and nothing else.
-/
namespace Ripcalc

/-- The numeric reading of an address type: number of bits, and the value of an address. -/
class AddrSpec (A : Type) where
  width : Nat
  val : A → Nat

open AddrSpec

instance : AddrSpec V4 := ⟨32, fun a => a.addrValue.toNat⟩
instance : AddrSpec V6 := ⟨128, fun a => a.topHalf.toNat * 2 ^ 64 + a.bottomHalf.toNat⟩

/-- The value of a digit string, most significant digit first. -/
def bigEndian (base : Nat) (digits : List Nat) : Nat := digits.foldl (fun acc d => acc * base + d) 0

/-- `r` is the exact integer `z` if that is an address, otherwise `None`. -/
def IsExact [AddrSpec A] (r : Option A) (z : Int) : Prop :=
  match r with
  | some a => (val a : Int) = z
  | none => z < 0 ∨ (2 ^ width A : Nat) ≤ z

/-- The address `a` belongs to the network: it agrees with the base on every network bit (mask bit one). -/
def Member [AddrSpec A] (n : Net A) (a : A) : Prop :=
  ∀ i, i < width A → (val n.subnetMask).testBit i = true → (val a).testBit i = (val n.baseAddr).testBit i

/-- The `w`-bit number `m` is `p` ones followed by zeros. -/
def IsPrefixMask (w p m : Nat) : Prop :=
  p ≤ w ∧ ∀ i, i < w → (m.testBit i = true ↔ w - p ≤ i)

/-- A network as the constructors make it: no host bit in the base, and the recorded prefix is that of the mask
(absent exactly if the mask is not contiguous). -/
structure WF [AddrSpec A] (n : Net A) : Prop where
  host_zero : ∀ i, i < width A → (val n.subnetMask).testBit i = false → (val n.baseAddr).testBit i = false
  prefix_iff : ∀ p, n.cidrPrefix = some p ↔ IsPrefixMask (width A) p (val n.subnetMask)

/-- A well-formed network with a contiguous mask of `p` ones. -/
def IsCidr [AddrSpec A] (p : Nat) (n : Net A) : Prop := WF n ∧ n.cidrPrefix = some p

/-- Bit `i` of a byte string, counted from the most significant bit of the first byte. -/
def byteStringBit (bs : List Byte) (i : Nat) : Bool := (bs.getD (i / 8) 0).getLsbD (7 - i % 8)

/-- The bit positions of a `w`-bit number, most significant first. -/
def positions (w : Nat) : List Nat := (List.range w).reverse

/-- The bits of `v` at the given positions. -/
def bitsAt (v : Nat) (ps : List Nat) : List Bool := ps.map v.testBit

/-- The number of members of a finite range satisfying a predicate, used for counting addresses. -/
def countBelow (bound : Nat) (P : Nat → Bool) : Nat := (List.range bound).countP P

end Ripcalc
