import Verif.Model.Addr
/-!
# Model of `/repo/src/cidr.rs`
-/
namespace Ripcalc

/-- `XXX`, `src/cidr.rs:1`. -/
abbrev xxx : Nat := 9

/-- `SUBNET_MASK_BYTE_TO_PREFIX`, `src/cidr.rs:2-19`. -/
def subnetMaskByteToPrefix : List Nat :=
  [ 0, xxx, xxx, xxx, xxx, xxx, xxx, xxx, xxx, xxx, xxx, xxx, xxx, xxx, xxx, xxx,
    xxx, xxx, xxx, xxx, xxx, xxx, xxx, xxx, xxx, xxx, xxx, xxx, xxx, xxx, xxx, xxx,
    xxx, xxx, xxx, xxx, xxx, xxx, xxx, xxx, xxx, xxx, xxx, xxx, xxx, xxx, xxx, xxx,
    xxx, xxx, xxx, xxx, xxx, xxx, xxx, xxx, xxx, xxx, xxx, xxx, xxx, xxx, xxx, xxx,
    xxx, xxx, xxx, xxx, xxx, xxx, xxx, xxx, xxx, xxx, xxx, xxx, xxx, xxx, xxx, xxx,
    xxx, xxx, xxx, xxx, xxx, xxx, xxx, xxx, xxx, xxx, xxx, xxx, xxx, xxx, xxx, xxx,
    xxx, xxx, xxx, xxx, xxx, xxx, xxx, xxx, xxx, xxx, xxx, xxx, xxx, xxx, xxx, xxx,
    xxx, xxx, xxx, xxx, xxx, xxx, xxx, xxx, xxx, xxx, xxx, xxx, xxx, xxx, xxx, xxx,
    1, xxx, xxx, xxx, xxx, xxx, xxx, xxx, xxx, xxx, xxx, xxx, xxx, xxx, xxx, xxx,
    xxx, xxx, xxx, xxx, xxx, xxx, xxx, xxx, xxx, xxx, xxx, xxx, xxx, xxx, xxx, xxx,
    xxx, xxx, xxx, xxx, xxx, xxx, xxx, xxx, xxx, xxx, xxx, xxx, xxx, xxx, xxx, xxx,
    xxx, xxx, xxx, xxx, xxx, xxx, xxx, xxx, xxx, xxx, xxx, xxx, xxx, xxx, xxx, xxx,
    2, xxx, xxx, xxx, xxx, xxx, xxx, xxx, xxx, xxx, xxx, xxx, xxx, xxx, xxx, xxx,
    xxx, xxx, xxx, xxx, xxx, xxx, xxx, xxx, xxx, xxx, xxx, xxx, xxx, xxx, xxx, xxx,
    3, xxx, xxx, xxx, xxx, xxx, xxx, xxx, xxx, xxx, xxx, xxx, xxx, xxx, xxx, xxx,
    4, xxx, xxx, xxx, xxx, xxx, xxx, xxx,   5, xxx, xxx, xxx,   6, xxx,   7,   8 ]

/-- `CIDR_BYTE_TO_PREFIX`, `src/cidr.rs:20`. -/
def cidrByteToPrefix : List Byte := [0x00, 0x80, 0xC0, 0xE0, 0xF0, 0xF8, 0xFC, 0xFE, 0xFF]

/-- The loop of `prefix_from_subnet_mask_bytes`, `src/cidr.rs:25-58`; state `ones_over`, `cidr`.  The table index is a
byte and the table has 256 entries, so the lookup cannot fail. -/
def prefixLoop : Bool → Nat → List Byte → Option Nat
  | _, cidr, [] => some cidr
  | onesOver, cidr, b :: bs =>
    let n := subnetMaskByteToPrefix.getD b.toNat xxx
    if n = xxx then none
    else if n = 8 then (if onesOver then none else prefixLoop onesOver (cidr + 8) bs)
    else if n = 0 then prefixLoop true cidr bs
    else (if onesOver then none else prefixLoop true (cidr + n) bs)

/-- `prefix_from_subnet_mask_bytes`, `src/cidr.rs:24-59`. -/
def prefixFromSubnetMaskBytes (bs : List Byte) : Option Nat := prefixLoop false 0 bs

/-- `subnet_mask_bytes_from_prefix`, `src/cidr.rs:62-79`: the second argument is the number of bytes still to be
pushed (`byte_count - ret.len()`), the recursion is the first `while`, `replicate` is the second one.  The index
of `CIDR_BYTE_TO_PREFIX` is at most 7 there. -/
def subnetMaskBytesFromPrefix : Nat → Nat → List Byte
  | _, 0 => []
  | p, n + 1 =>
    if p > 0 then
      if p ≥ 8 then 0xFF#8 :: subnetMaskBytesFromPrefix (p - 8) n
      else cidrByteToPrefix.getD p 0 :: List.replicate n 0x00#8
    else List.replicate (n + 1) 0x00#8

end Ripcalc
