import Verif.Model.Cidr
/-!
# Model of `/repo/src/bit_manip.rs`
-/
namespace Ripcalc

/-- The eight bits pushed for one byte, inner loop of `bytes_to_bits`, `src/bit_manip.rs:11-15`:
`byte & (1 << (7 - bit_idx)) != 0` for `bit_idx` in `0..8`. -/
def byteBits (b : Byte) : List Bool :=
  (List.range 8).map (fun bitIdx => decide (b &&& (1#8 <<< (7 - bitIdx)) ≠ 0#8))

/-- `bytes_to_bits`, `src/bit_manip.rs:8-18`. -/
def bytesToBits (bytes : List Byte) : List Bool := bytes.flatMap byteBits

/-- `bytes_to_binary`, `src/bit_manip.rs:22-28`. -/
def bytesToBinary (bytes : List Byte) : Str := (bytesToBits bytes).map (fun b => if b then '1' else '0')

/-- The loop of `bits_to_bytes`, `src/bit_manip.rs:40-51`: index, `cur_byte`, `bytes`, remaining bits. -/
def bitsToBytesLoop : Nat → Byte → List Byte → List Bool → Byte × List Byte
  | _, cur, bytes, [] => (cur, bytes)
  | i, cur, bytes, bit :: rest =>
    let cur := if bit then cur ||| (1#8 <<< (7 - i % 8)) else cur
    if i % 8 = 7 then bitsToBytesLoop (i + 1) 0#8 (bytes ++ [cur]) rest
    else bitsToBytesLoop (i + 1) cur bytes rest

/-- `bits_to_bytes`, `src/bit_manip.rs:33-59`. -/
def bitsToBytes (bits : List Bool) : List Byte :=
  let (cur, bytes) := bitsToBytesLoop 0 0#8 [] bits
  if bits.length % 8 ≠ 0 then bytes ++ [cur] else bytes

/-- The splitting loop of `unravel_address`, `src/bit_manip.rs:75-83`. -/
def partitionBits : List (Bool × Bool) → List Bool × List Bool
  | [] => ([], [])
  | (addrBit, isNet) :: rest =>
    let (net, host) := partitionBits rest
    if isNet then (addrBit :: net, host) else (net, addrBit :: host)

/-- `unravel_address`, `src/bit_manip.rs:63-91`. -/
def unravelAddress [IpAddr A] (addr subnetMask : A) : Exec A :=
  let maskBytes := IpAddr.toBytes subnetMask
  if (prefixFromSubnetMaskBytes maskBytes).isSome then pure addr
  else
    let addrBits := bytesToBits (IpAddr.toBytes addr)
    let maskBits := bytesToBits maskBytes
    let (netBits, hostBits) := partitionBits (addrBits.zip maskBits)
    Exec.unwrap (IpAddr.fromBytes (bitsToBytes (netBits ++ hostBits)))

/-- The splitting loop of `weave_address`, `src/bit_manip.rs:114-123`: `i` is the index of the head. -/
def splitAtPrefix (cidrPrefix : Nat) : Nat → List Bool → List Bool × List Bool
  | _, [] => ([], [])
  | i, b :: rest =>
    let (net, host) := splitAtPrefix cidrPrefix (i + 1) rest
    if i < cidrPrefix then (b :: net, host) else (net, b :: host)

/-- The weaving loop of `weave_address`, `src/bit_manip.rs:126-140`; indexing panics when out of bounds. -/
def weaveLoop (netBits hostBits : List Bool) : Nat → Nat → List Bool → Exec (List Bool)
  | _, _, [] => pure []
  | netIndex, hostIndex, isNet :: rest =>
    if isNet then do
      let b ← Exec.index netBits netIndex
      let r ← weaveLoop netBits hostBits (netIndex + 1) hostIndex rest
      pure (b :: r)
    else do
      let b ← Exec.index hostBits hostIndex
      let r ← weaveLoop netBits hostBits netIndex (hostIndex + 1) rest
      pure (b :: r)

/-- `weave_address`, `src/bit_manip.rs:95-144`. -/
def weaveAddress [IpAddr A] (addr subnetMask : A) : Exec A :=
  let maskBytes := IpAddr.toBytes subnetMask
  if (prefixFromSubnetMaskBytes maskBytes).isSome then pure addr
  else do
    let addrBits := bytesToBits (IpAddr.toBytes addr)
    let cidrPrefix := (maskBytes.map popcount).sum
    let maskBits := bytesToBits maskBytes
    let (netBits, hostBits) := splitAtPrefix cidrPrefix 0 addrBits
    let retBits ← weaveLoop netBits hostBits 0 0 maskBits
    Exec.unwrap (IpAddr.fromBytes (bitsToBytes retBits))

end Ripcalc
