import Verif.Model.Exec
import Verif.Model.Text
/-!
# Model of `/repo/src/addr.rs`
-/
namespace Ripcalc

/-- One byte. -/
abbrev Byte := BitVec 8

/-- `uN::count_ones` (std). -/
def popcount {w : Nat} (x : BitVec w) : Nat := (List.range w).countP (fun i => x.getLsbD i)

/-- `uN::count_zeros` (std). -/
def zerocount {w : Nat} (x : BitVec w) : Nat := (List.range w).countP (fun i => !x.getLsbD i)

/-- `IpAddressParseError`, `src/addr.rs:579-587`. -/
inductive AddrErr where
  | unknownAddressType
  | incorrectChunkCount (got expected : Nat)
  | emptyChunk (idx : Nat)
  | chunkParseError (idx : Nat) (chunk : Str) (e : IntErr)
  | chunkOutOfRange (idx got min max : Nat)
  | tooManyShorteningElements (got max : Nat)
  deriving DecidableEq, Repr

/-- `trait IpAddress`, `src/addr.rs:11-47`, with the supertraits `BitAnd`, `BitOr`, `BitXor`, `Display`
and `Ord` (`le` is `a <= b`; the other comparisons follow).  `Hash` is not modelled. Functions taking an `i32`
offset can overflow, so they take the build profile. -/
class IpAddr (A : Type) where
  deq : DecidableEq A
  and : A → A → A
  or : A → A → A
  xor : A → A → A
  le : A → A → Bool
  display : A → Str
  byteCount : A → Nat
  countOnes : A → Nat
  countZeros : A → Nat
  toBytes : A → List Byte
  fromBytes : List Byte → Option A
  negate : A → A
  addAddr : A → A → Option A
  addOffset : Profile → A → Int32 → Exec (Option A)
  subtractAddr : A → A → Option A
  subtractOffset : Profile → A → Int32 → Exec (Option A)

instance (priority := low) instDecidableEqOfIpAddr [IpAddr A] : DecidableEq A := IpAddr.deq

/-! ## IPv4 -/

/-- `struct Ipv4Address`, `src/addr.rs:49-53`; its constructor is `Ipv4Address::new`, `src/addr.rs:58-67`. -/
structure V4 where
  addrValue : BitVec 32
  deriving DecidableEq, Repr

namespace V4

/-- `Ipv4Address::add_internal`, `src/addr.rs:69-78`.  The `i64` sum of two values below `2^33` in absolute
value cannot overflow, so it is an `Int`; `try_into().unwrap()` cannot fail on `0..=0xFFFFFFFF`, so it is `ofInt`. -/
def addInternal (addr64 offset64 : Int) : Option V4 :=
  let sum := addr64 + offset64
  if sum < 0 then none
  else if sum > 0xFFFFFFFF then none
  else some ⟨BitVec.ofInt 32 sum⟩

/-- `Ipv4Address::to_bytes`, `src/addr.rs:87-94`.  The operand of each `try_into().unwrap()` is at most `0xFF`, so it
cannot fail and is a truncation. -/
def toBytes (a : V4) : List Byte :=
  [ ((a.addrValue >>> 24) &&& 0xFF#32).setWidth 8,
    ((a.addrValue >>> 16) &&& 0xFF#32).setWidth 8,
    ((a.addrValue >>> 8) &&& 0xFF#32).setWidth 8,
    ((a.addrValue >>> 0) &&& 0xFF#32).setWidth 8 ]

/-- `Ipv4Address::from_bytes`, `src/addr.rs:96-108`; the length test is the pattern. -/
def fromBytes : List Byte → Option V4
  | [b0, b1, b2, b3] =>
    some ⟨(b0.setWidth 32 <<< 24) ||| (b1.setWidth 32 <<< 16) ||| (b2.setWidth 32 <<< 8) ||| (b3.setWidth 32 <<< 0)⟩
  | _ => none

/-- `Ipv4Address::bitwise_negate`, `src/addr.rs:110-112`. -/
def negate (a : V4) : V4 := ⟨a.addrValue ^^^ 0xFFFFFFFF#32⟩

/-- `Ipv4Address::add_addr`, `src/addr.rs:114-116`. -/
def addAddr (a other : V4) : Option V4 := addInternal a.addrValue.toNat other.addrValue.toNat

/-- `Ipv4Address::add_offset`, `src/addr.rs:118-120`. -/
def addOffset (a : V4) (offset : Int32) : Option V4 := addInternal a.addrValue.toNat offset.toInt

/-- `Ipv4Address::subtract_addr`, `src/addr.rs:122-125`. -/
def subtractAddr (a other : V4) : Option V4 := addInternal a.addrValue.toNat (-(other.addrValue.toNat : Int))

/-- `Ipv4Address::subtract_offset`, `src/addr.rs:127-130`. The negation is on `i64`, so it cannot overflow. -/
def subtractOffset (a : V4) (offset : Int32) : Option V4 := addInternal a.addrValue.toNat (-offset.toInt)

/-- The loop of `Ipv4Address::from_str`, `src/addr.rs:142-157`: `i` is the loop index, `acc` is `addr_val`. -/
def parseLoop : Nat → List Str → BitVec 32 → Except AddrErr (BitVec 32)
  | _, [], acc => .ok acc
  | i, chunk :: rest, acc =>
    let shiftCount := 24 - i * 8
    if chunk.length = 0 then .error (.emptyChunk i)
    else match parseUnsigned 10 (2 ^ 32 - 1) chunk with
      | .error e => .error (.chunkParseError i chunk e)
      | .ok v =>
        if v > 255 then .error (.chunkOutOfRange i v 0 255)
        else parseLoop (i + 1) rest (acc ||| (BitVec.ofNat 32 v <<< shiftCount))

/-- `Ipv4Address::from_str`, `src/addr.rs:136-160`. -/
def parse (s : Str) : Except AddrErr V4 :=
  let chunks := splitChar '.' s
  if chunks.length ≠ 4 then .error (.incorrectChunkCount chunks.length 4)
  else match parseLoop 0 chunks 0#32 with
    | .error e => .error e
    | .ok v => .ok ⟨v⟩

/-- `Display for Ipv4Address`, `src/addr.rs:163-168`: the four bytes in decimal joined by dots. -/
def display (a : V4) : Str :=
  match a.toBytes with
  | [b0, b1, b2, b3] =>
    showNat 10 b0.toNat ++ ['.'] ++ showNat 10 b1.toNat ++ ['.'] ++ showNat 10 b2.toNat ++ ['.'] ++ showNat 10 b3.toNat
  | _ => []  -- not reached: `to_bytes` has four elements

end V4

/-- `impl IpAddress for Ipv4Address`, `src/addr.rs:81-131`, with `BitAnd`/`BitOr`/`BitXor` of lines 170-192 and the
derived `Ord` of line 50. -/
instance : IpAddr V4 where
  deq := inferInstance
  and a b := ⟨a.addrValue &&& b.addrValue⟩
  or a b := ⟨a.addrValue ||| b.addrValue⟩
  xor a b := ⟨a.addrValue ^^^ b.addrValue⟩
  le a b := decide (a.addrValue ≤ b.addrValue)
  display := V4.display
  byteCount _ := 4
  countOnes a := popcount a.addrValue
  countZeros a := zerocount a.addrValue
  toBytes := V4.toBytes
  fromBytes := V4.fromBytes
  negate := V4.negate
  addAddr := V4.addAddr
  addOffset _ a o := .ok (V4.addOffset a o)
  subtractAddr := V4.subtractAddr
  subtractOffset _ a o := .ok (V4.subtractOffset a o)

/-! ## IPv6 -/

/-- `struct Ipv6Address`, `src/addr.rs:194-199`; its constructor is `Ipv6Address::new`, `src/addr.rs:204-216`. -/
structure V6 where
  topHalf : BitVec 64
  bottomHalf : BitVec 64
  deriving DecidableEq, Repr

/-- `-x` on `i32`. -/
def negI32 (pr : Profile) (x : Int32) : Exec Int32 :=
  if x = Int32.minValue then
    match pr with
    | .checked => .panic .overflow
    | .wrapping => .ok x
  else .ok (-x)

/-- `u64::checked_add`. -/
def checkedAdd64 (a b : BitVec 64) : Option (BitVec 64) :=
  if a.toNat + b.toNat < 2 ^ 64 then some (a + b) else none

/-- `u64::checked_sub`. -/
def checkedSub64 (a b : BitVec 64) : Option (BitVec 64) :=
  if b.toNat ≤ a.toNat then some (a - b) else none

namespace V6

/-- `Ipv6Address::to_chunks`, `src/addr.rs:230-241`; the operands of `try_into` are at most `0xFFFF`. -/
def toChunks (a : V6) : List (BitVec 16) :=
  [ ((a.topHalf >>> 48) &&& 0xFFFF#64).setWidth 16,
    ((a.topHalf >>> 32) &&& 0xFFFF#64).setWidth 16,
    ((a.topHalf >>> 16) &&& 0xFFFF#64).setWidth 16,
    ((a.topHalf >>> 0) &&& 0xFFFF#64).setWidth 16,
    ((a.bottomHalf >>> 48) &&& 0xFFFF#64).setWidth 16,
    ((a.bottomHalf >>> 32) &&& 0xFFFF#64).setWidth 16,
    ((a.bottomHalf >>> 16) &&& 0xFFFF#64).setWidth 16,
    ((a.bottomHalf >>> 0) &&& 0xFFFF#64).setWidth 16 ]

/-- `Ipv6Address::from_chunks`, `src/addr.rs:245-263`. -/
def fromChunks : List (BitVec 16) → Option V6
  | [c0, c1, c2, c3, c4, c5, c6, c7] =>
    some ⟨(c0.setWidth 64 <<< 48) ||| (c1.setWidth 64 <<< 32) ||| (c2.setWidth 64 <<< 16) ||| (c3.setWidth 64 <<< 0),
          (c4.setWidth 64 <<< 48) ||| (c5.setWidth 64 <<< 32) ||| (c6.setWidth 64 <<< 16) ||| (c7.setWidth 64 <<< 0)⟩
  | _ => none

/-- `Ipv6Address::to_full_string`, `src/addr.rs:220-227`.  As in the source, the loop runs over the length of the
*result* vector, which is empty. -/
def toFullString (a : V6) : Str :=
  let chunks := a.toChunks
  let chunkStrings : List Str := []
  let chunkStrings := (List.range chunkStrings.length).foldl
    (fun acc i => acc ++ [showHex4 (chunks.getD i 0).toNat]) chunkStrings
  joinWith [':'] chunkStrings

/-- `Ipv6Address::add_internal`, `src/addr.rs:265-274`. -/
def addInternal (addrTop addrBot offTop offBot : BitVec 64) : Option V6 := do
  let botSum := addrBot + offBot
  let isCarry := botSum < addrBot ∨ botSum < offBot
  let topSum ← checkedAdd64 addrTop offTop
  let topSum ← if isCarry then checkedAdd64 topSum 1#64 else some topSum
  some ⟨topSum, botSum⟩

/-- `Ipv6Address::sub_internal`, `src/addr.rs:276-291`, with the borrow test as written there. -/
def subInternal (addrTop addrBot offTop offBot : BitVec 64) : Option V6 := do
  let botDiff := addrBot - offBot
  let isBorrow := addrTop < offTop ∨ (addrTop = offTop ∧ addrBot < offBot)
  let topDiff ← checkedSub64 addrTop offTop
  let topDiff ← if isBorrow then checkedSub64 topDiff 1#64 else some topDiff
  some ⟨topDiff, botDiff⟩

/-- `Ipv6Address::to_bytes`, `src/addr.rs:300-319`. -/
def toBytes (a : V6) : List Byte :=
  [ ((a.topHalf >>> 56) &&& 0xFF#64).setWidth 8, ((a.topHalf >>> 48) &&& 0xFF#64).setWidth 8,
    ((a.topHalf >>> 40) &&& 0xFF#64).setWidth 8, ((a.topHalf >>> 32) &&& 0xFF#64).setWidth 8,
    ((a.topHalf >>> 24) &&& 0xFF#64).setWidth 8, ((a.topHalf >>> 16) &&& 0xFF#64).setWidth 8,
    ((a.topHalf >>> 8) &&& 0xFF#64).setWidth 8, ((a.topHalf >>> 0) &&& 0xFF#64).setWidth 8,
    ((a.bottomHalf >>> 56) &&& 0xFF#64).setWidth 8, ((a.bottomHalf >>> 48) &&& 0xFF#64).setWidth 8,
    ((a.bottomHalf >>> 40) &&& 0xFF#64).setWidth 8, ((a.bottomHalf >>> 32) &&& 0xFF#64).setWidth 8,
    ((a.bottomHalf >>> 24) &&& 0xFF#64).setWidth 8, ((a.bottomHalf >>> 16) &&& 0xFF#64).setWidth 8,
    ((a.bottomHalf >>> 8) &&& 0xFF#64).setWidth 8, ((a.bottomHalf >>> 0) &&& 0xFF#64).setWidth 8 ]

/-- `Ipv6Address::from_bytes`, `src/addr.rs:321-347`. -/
def fromBytes : List Byte → Option V6
  | [b0, b1, b2, b3, b4, b5, b6, b7, b8, b9, b10, b11, b12, b13, b14, b15] =>
    some ⟨(b0.setWidth 64 <<< 56) ||| (b1.setWidth 64 <<< 48) ||| (b2.setWidth 64 <<< 40) ||| (b3.setWidth 64 <<< 32) |||
          (b4.setWidth 64 <<< 24) ||| (b5.setWidth 64 <<< 16) ||| (b6.setWidth 64 <<< 8) ||| (b7.setWidth 64 <<< 0),
          (b8.setWidth 64 <<< 56) ||| (b9.setWidth 64 <<< 48) ||| (b10.setWidth 64 <<< 40) ||| (b11.setWidth 64 <<< 32) |||
          (b12.setWidth 64 <<< 24) ||| (b13.setWidth 64 <<< 16) ||| (b14.setWidth 64 <<< 8) ||| (b15.setWidth 64 <<< 0)⟩
  | _ => none

/-- `Ipv6Address::bitwise_negate`, `src/addr.rs:349-354`. -/
def negate (a : V6) : V6 := ⟨a.topHalf ^^^ 0xFFFFFFFFFFFFFFFF#64, a.bottomHalf ^^^ 0xFFFFFFFFFFFFFFFF#64⟩

/-- `Ipv6Address::add_addr`, `src/addr.rs:356-361`. -/
def addAddr (a other : V6) : Option V6 := addInternal a.topHalf a.bottomHalf other.topHalf other.bottomHalf

/-- `Ipv6Address::subtract_addr`, `src/addr.rs:374-379`. -/
def subtractAddr (a other : V6) : Option V6 := subInternal a.topHalf a.bottomHalf other.topHalf other.bottomHalf

mutual
/-- `Ipv6Address::add_offset`, `src/addr.rs:363-372` (mutually recursive with `subtract_offset`). -/
def addOffset (pr : Profile) (a : V6) (offset : Int32) : Exec (Option V6) :=
  if offset < 0 then do
    let n ← negI32 pr offset
    subtractOffset pr a n
  else pure (addInternal a.topHalf a.bottomHalf 0#64 (BitVec.ofInt 64 offset.toInt))
partial_fixpoint

/-- `Ipv6Address::subtract_offset`, `src/addr.rs:381-390`. -/
def subtractOffset (pr : Profile) (a : V6) (offset : Int32) : Exec (Option V6) :=
  if offset < 0 then do
    let n ← negI32 pr offset
    addOffset pr a n
  else pure (subInternal a.topHalf a.bottomHalf 0#64 (BitVec.ofInt 64 offset.toInt))
partial_fixpoint
end

/-- "copy from front", `src/addr.rs:437-442`: `i` is the loop index, the list is `chunks[i..]`. -/
def copyFront : Nat → List Str → List Str → Exec (List Str)
  | _, [], actual => .ok actual
  | i, c :: cs, actual =>
    if c.length = 0 then .ok actual
    else do
      let actual ← Exec.setIndex actual i c
      copyFront (i + 1) cs actual

/-- "copy from back", `src/addr.rs:445-451`: the list is the reversed rest, so its head is
`chunks[chunks.len() - i - 1]`.  `actual_chunks.len() - i - 1` cannot underflow because there are at most 8 chunks. -/
def copyBack : Nat → List Str → List Str → Exec (List Str)
  | _, [], actual => .ok actual
  | i, c :: cs, actual =>
    if c.length = 0 then .ok actual
    else do
      let j := actual.length - i - 1
      let actual ← Exec.setIndex actual j c
      copyBack (i + 1) cs actual

/-- The final loop of `from_str`, `src/addr.rs:456-474`; `is` are the remaining loop indices. -/
def parseChunks (actual : List Str) : List Nat → BitVec 64 → BitVec 64 → Exec (Except AddrErr V6)
  | [], top, bottom => .ok (.ok ⟨top, bottom⟩)
  | i :: is, top, bottom => do
    let shiftCount := 112 - i * 16
    let shiftWithinHalf := shiftCount % 64
    let chunk ← Exec.index actual i
    match parseUnsigned 16 (2 ^ 16 - 1) chunk with
    | .error e => pure (.error (.chunkParseError i chunk e))
    | .ok v =>
      if i < 4 then parseChunks actual is (top ||| (BitVec.ofNat 64 v <<< shiftWithinHalf)) bottom
      else parseChunks actual is top (bottom ||| (BitVec.ofNat 64 v <<< shiftWithinHalf))

/-- `Ipv6Address::from_str`, `src/addr.rs:396-477`. -/
def parse (s : Str) : Exec (Except AddrErr V6) := do
  let addrStr := if s.head? = some ':' then '0' :: s else s
  let addrStr := if addrStr.getLast? = some ':' then addrStr ++ ['0'] else addrStr
  let chunks := splitChar ':' addrStr
  if chunks.length > 8 then pure (.error (.incorrectChunkCount chunks.length 8))
  else
    let shorteningCount := (chunks.filter (fun x => x.length == 0)).length
    if shorteningCount > 1 then pure (.error (.tooManyShorteningElements shorteningCount 1))
    else if shorteningCount = 0 then
      if chunks.length ≠ 8 then pure (.error (.incorrectChunkCount chunks.length 8))
      else parseChunks chunks (List.range 8) 0#64 0#64
    else do
      let actual := List.replicate 8 ['0']
      let actual ← copyFront 0 chunks actual
      let actual ← copyBack 0 chunks.reverse actual
      parseChunks actual (List.range 8) 0#64 0#64

/-- Inner loop of the zero-run search, `src/addr.rs:499-505`: first `j` from the given one on that is 8 or has a
non-zero chunk.  `fuel` bounds the iterations; `j` grows each time, so 8 suffice. -/
def runEnd (chunks : List (BitVec 16)) : Nat → Nat → Nat
  | 0, j => j
  | fuel + 1, j => if j < 8 then (if chunks.getD j 0 ≠ 0 then j else runEnd chunks fuel (j + 1)) else j

/-- Outer loop of the zero-run search, `src/addr.rs:489-515`: state `i`, `zero_index`, `zero_length`.
`fuel` as above. Indexing is in bounds because `i < 8` and there are 8 chunks. -/
def findRun (chunks : List (BitVec 16)) : Nat → Nat → Option Nat → Nat → Option Nat × Nat
  | 0, _, zi, zl => (zi, zl)
  | fuel + 1, i, zi, zl =>
    if i < 8 then
      if chunks.getD i 0 ≠ 0 then findRun chunks fuel (i + 1) zi zl
      else
        let j := runEnd chunks 8 (i + 1)
        if zl < j - i then findRun chunks fuel j (some i) (j - i)
        else findRun chunks fuel j zi zl
    else (zi, zl)

/-- The loop building `chunk_strings`, `src/addr.rs:517-540`. `fuel` as above. -/
def buildStrings (chunks : List (BitVec 16)) (zi : Option Nat) (zl : Nat) : Nat → Nat → List Str
  | 0, _ => []
  | fuel + 1, i =>
    if i < 8 then
      if zi = some i then
        (if i = 0 then [[]] else []) ++ [[]] ++ (if i + zl = 8 then [[]] else []) ++ buildStrings chunks zi zl fuel (i + zl)
      else showNat 16 (chunks.getD i 0).toNat :: buildStrings chunks zi zl fuel (i + 1)
    else []

/-- `Display for Ipv6Address`, `src/addr.rs:480-544`. -/
def display (a : V6) : Str :=
  if a.topHalf = 0#64 ∧ a.bottomHalf = 0#64 then [':', ':']
  else
    let chunks := a.toChunks
    let (zi, zl) := findRun chunks 8 0 none 0
    joinWith [':'] (buildStrings chunks zi zl 8 0)

end V6

/-- `impl IpAddress for Ipv6Address`, `src/addr.rs:294-391`, with `BitAnd`/`BitOr`/`BitXor` of lines 546-577 and the
derived (lexicographic) `Ord` of line 195. -/
instance : IpAddr V6 where
  deq := inferInstance
  and a b := ⟨a.topHalf &&& b.topHalf, a.bottomHalf &&& b.bottomHalf⟩
  or a b := ⟨a.topHalf ||| b.topHalf, a.bottomHalf ||| b.bottomHalf⟩
  xor a b := ⟨a.topHalf ^^^ b.topHalf, a.bottomHalf ^^^ b.bottomHalf⟩
  le a b := decide (a.topHalf < b.topHalf ∨ (a.topHalf = b.topHalf ∧ a.bottomHalf ≤ b.bottomHalf))
  display := V6.display
  byteCount _ := 16
  countOnes a := popcount a.topHalf + popcount a.bottomHalf
  countZeros a := zerocount a.topHalf + zerocount a.bottomHalf
  toBytes := V6.toBytes
  fromBytes := V6.fromBytes
  negate := V6.negate
  addAddr := V6.addAddr
  addOffset := V6.addOffset
  subtractAddr := V6.subtractAddr
  subtractOffset := V6.subtractOffset

end Ripcalc
