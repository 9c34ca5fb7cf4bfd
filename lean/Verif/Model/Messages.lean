import Verif.Model.Split
import Verif.Model.Enumerate
/-!
# The wording of the messages on standard error

`format!`/`eprintln!` templates of `/repo/src`, and the behaviour of `core::fmt` and of the error types of `core` and
`num-bigint` they rely on.
-/
namespace Ripcalc

/-- `chars! "abc"` is `['a', 'b', 'c']` (it evaluates faster than `"abc".toList`, to which it is equal by `rfl`). -/
macro:max "chars! " s:str : term => do
  s.getString.toList.foldrM (fun c t => `(List.cons $(Lean.Syntax.mkCharLit c) $t)) (← `(List.nil))

/-- Which characters beyond ASCII `{:?}` writes as themselves (`core::unicode`: printable and not a combining mark).  The
tables depend on the version of the standard library; the field says the part of them that is used: control characters,
line and paragraph separators are never printed raw. -/
structure CharTable where
  printable : Char → Bool
  hidden : ∀ c : Char, (0x7F ≤ c.toNat ∧ c.toNat < 0xA0) ∨ c.toNat = 0x2028 ∨ c.toNat = 0x2029 → printable c = false

/-- `char::escape_unicode`: `\u{` hexadecimal digits `}`. -/
def escapeUnicode (c : Char) : Str := ['\\', 'u', '{'] ++ showNat 16 c.toNat ++ ['}']

/-- One character in `impl Debug for str` (`char::escape_debug_ext` with double quotes escaped and single quotes not). -/
def escapeChar (u : CharTable) (c : Char) : Str :=
  if c.toNat = 0 then ['\\', '0']
  else if c = '\t' then ['\\', 't']
  else if c = '\r' then ['\\', 'r']
  else if c = '\n' then ['\\', 'n']
  else if c = '\\' then ['\\', '\\']
  else if c = '"' then ['\\', '"']
  else if c.toNat < 0x20 then escapeUnicode c
  else if c.toNat < 0x7F then [c]
  else if u.printable c then [c]
  else escapeUnicode c

/-- `{:?}` of a `str`. -/
def quoteStr (u : CharTable) (s : Str) : Str := ['"'] ++ s.flatMap (escapeChar u) ++ ['"']

/-- `{}` of a `ParseIntError` (`core::num::error`). -/
def intErrText : IntErr → Str
  | .empty => chars! "cannot parse integer from empty string"
  | .invalidDigit => chars! "invalid digit found in string"
  | .posOverflow => chars! "number too large to fit in target type"

/-- `{:?}` of a `ParseIntError` (derived). -/
def intErrDebug : IntErr → Str
  | .empty => chars! "ParseIntError { kind: Empty }"
  | .invalidDigit => chars! "ParseIntError { kind: InvalidDigit }"
  | .posOverflow => chars! "ParseIntError { kind: PosOverflow }"

/-- `{}` of the `ParseBigIntError` for a text that is not a `BigInt` (num-bigint 0.4: the text is empty after removing the
sign, or it is not). -/
def bigIntErrText (s : Str) : Str :=
  if s = [] ∨ s = ['+'] ∨ s = ['-'] then chars! "cannot parse integer from empty string"
  else chars! "invalid digit found in string"

/-- `{}` of an `IpAddressParseError`, `src/addr.rs:587-605`. -/
def addrErrText (u : CharTable) : AddrErr → Str
  | .unknownAddressType => chars! "unknown IP address type"
  | .incorrectChunkCount got expected =>
    chars! "IP address has " ++ showNat 10 got ++ chars! " chunk(s); expected " ++ showNat 10 expected
  | .emptyChunk idx => chars! "IP address chunk with index " ++ showNat 10 idx ++ chars! " is empty"
  | .chunkParseError idx chunk e =>
    chars! "failed to parse IP address chunk with index " ++ showNat 10 idx ++ chars! " (" ++ quoteStr u chunk ++
      chars! "): " ++ intErrText e
  | .chunkOutOfRange idx got min max =>
    chars! "IP address chunk with index " ++ showNat 10 idx ++ chars! " (" ++ showNat 10 got ++ chars! ") is out of range " ++
      showNat 10 min ++ chars! " <= n <= " ++ showNat 10 max ++ chars! " chunk"
  | .tooManyShorteningElements got max =>
    chars! "IP address has " ++ showNat 10 got ++ chars! " shortening elements; expected maximum " ++ showNat 10 max

/-- `{:?}` of an `IpAddressParseError` (derived), `src/addr.rs:578-586`. -/
def addrErrDebug (u : CharTable) : AddrErr → Str
  | .unknownAddressType => chars! "UnknownAddressType"
  | .incorrectChunkCount got expected =>
    chars! "IncorrectChunkCount(" ++ showNat 10 got ++ chars! ", " ++ showNat 10 expected ++ chars! ")"
  | .emptyChunk idx => chars! "EmptyChunk(" ++ showNat 10 idx ++ chars! ")"
  | .chunkParseError idx chunk e =>
    chars! "ChunkParseError(" ++ showNat 10 idx ++ chars! ", " ++ quoteStr u chunk ++ chars! ", " ++ intErrDebug e ++ chars! ")"
  | .chunkOutOfRange idx got min max =>
    chars! "ChunkOutOfRange(" ++ showNat 10 idx ++ chars! ", " ++ showNat 10 got ++ chars! ", " ++ showNat 10 min ++
      chars! ", " ++ showNat 10 max ++ chars! ")"
  | .tooManyShorteningElements got max =>
    chars! "TooManyShorteningElements(" ++ showNat 10 got ++ chars! ", " ++ showNat 10 max ++ chars! ")"

/-- `{}` of a `ParseNetspecError`, `src/cmds/mod.rs:99-114`. -/
def netspecErrText (u : CharTable) : NetspecErr → Str
  | .unrecognized spec => chars! "unrecognized network specification: " ++ quoteStr u spec
  | .address e => chars! "failed to parse address: " ++ addrErrDebug u e
  | .mask e => chars! "failed to parse mask: " ++ addrErrDebug u e
  | .cidrParse e => chars! "failed to parse CIDR prefix: " ++ intErrDebug e
  | .cidrRange got max =>
    chars! "CIDR prefix " ++ showNat 10 got ++ chars! " is greater than the maximum (" ++ showNat 10 max ++ chars! ")"

/-- The lines of `usage()`, `src/main.rs:30-45`.  The feature `num-bigint` is on (a default feature). -/
def usageLines : List Str :=
  [chars! "Usage: ripcalc IPADDRESS/SUBNET...",
   chars! "       ripcalc -m|--minimize IPADDRESS/SUBNET...",
   chars! "       ripcalc -d|--derange IPADDRESS IPADDRESS...",
   chars! "       ripcalc -s|--split IPADDRESS/CIDRPREFIX HOSTCOUNT...",
   chars! "       ripcalc -r|--resize IPADDRESS/SUBNET SUBNET",
   chars! "       ripcalc -e|--enumerate IPADDRESS/SUBNET",
   [],
   chars! "SUBNET is one of: SUBNETMASK",
   chars! "                  CIDRPREFIX",
   chars! "                  -WILDCARD",
   [],
   chars! "IPv4 and IPv6 are supported, but cannot be mixed within an invocation."]

/-- The lines a message consists of, at the source lines named at `ErrMsg`. -/
def ErrMsg.lines (u : CharTable) : ErrMsg → List Str
  | .usage => usageLines
  | .showParse e => [netspecErrText u e]
  | .mixed => [chars! "mixing IPv4 and IPv6 is not supported"]
  | .minimizeParse e => [chars! "parsing error: " ++ netspecErrText u e]
  | .derangeFirst e => [chars! "failed to parse first address: " ++ addrErrText u e]
  | .derangeSecond e => [chars! "failed to parse second address: " ++ addrErrText u e]
  | .derangeVersion => [chars! "both addresses must be the same version"]
  | .resizeNet spec e => [chars! "failed to parse network spec " ++ quoteStr u spec ++ chars! ": " ++ netspecErrText u e]
  | .resizeSubnet spec e => [chars! "failed to parse subnet " ++ quoteStr u spec ++ chars! ": " ++ netspecErrText u e]
  | .resizeRangeV4 got => [chars! "CIDR value " ++ showNat 10 got ++ chars! " is greater than maximum for IPv4 (32)"]
  | .resizeRangeV6 got => [chars! "CIDR value " ++ showNat 10 got ++ chars! " is greater than maximum for IPv6 (128)"]
  | .resizeV4ToV6 => [chars! "cannot resize an IPv4 subnet to an IPv6 mask"]
  | .resizeV6ToV4 => [chars! "cannot resize an IPv6 subnet to an IPv4 mask"]
  | .splitCount s => [chars! "failed to parse host count " ++ quoteStr u s ++ chars! ": " ++ bigIntErrText s]
  | .splitNegative => [chars! "host counts must be zero or greater"]
  | .splitNet spec e =>
    [chars! "failed to parse network specification " ++ quoteStr u spec ++ chars! ": " ++ netspecErrText u e]
  | .enumerateNet spec e => [chars! "failed to parse network " ++ quoteStr u spec ++ chars! ": " ++ netspecErrText u e]

/-- `eprintln!` of each line. -/
def ErrMsg.text (u : CharTable) (m : ErrMsg) : Str := (m.lines u).flatMap (· ++ ['\n'])

/-- All that is written to standard error. -/
def stderrText (u : CharTable) : List OutEv → Str
  | [] => []
  | .err m :: evs => m.text u ++ stderrText u evs
  | .out _ :: evs => stderrText u evs
  | .styled _ _ :: evs => stderrText u evs

end Ripcalc
