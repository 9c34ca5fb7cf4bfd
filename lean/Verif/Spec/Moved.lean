import Verif.Spec.Listing
/-!
# Vocabulary: the same place in another part of the address space, or in the address space of the other family
-/
namespace Ripcalc
open AddrSpec

/-- The addresses have the same place in blocks of `2 ^ k` addresses: `a` in the block number `g` of its address space and `b` in the
block number `h` of its address space.  For `k = 32` and `g = 0`, `a` is any IPv4 address and `b` the address with `a` in the last 32
bits and `h` in the others. -/
def Moved {A B : Type} [AddrSpec A] [AddrSpec B] (k g h : Nat) (a : A) (b : B) : Prop :=
  k ≤ width A ∧ k ≤ width B ∧ ∃ x, x < 2 ^ k ∧ val a = 2 ^ k * g + x ∧ val b = 2 ^ k * h + x

/-- The masks agree in the lowest `k` bits, and all other bits are ones. -/
def MovedMask {A B : Type} [AddrSpec A] [AddrSpec B] (k : Nat) (a : A) (b : B) : Prop :=
  (∀ i, i < k → (val a).testBit i = (val b).testBit i) ∧ (∀ i, k ≤ i → i < width A → (val a).testBit i = true) ∧
    ∀ i, k ≤ i → i < width B → (val b).testBit i = true

/-- The networks are well formed and have the same place in such blocks. -/
structure MovedNet {A B : Type} [AddrSpec A] [AddrSpec B] (k g h : Nat) (n : Net A) (m : Net B) : Prop where
  left : WF n
  right : WF m
  base : Moved k g h n.baseAddr m.baseAddr
  mask : MovedMask k n.subnetMask m.subnetMask

end Ripcalc
