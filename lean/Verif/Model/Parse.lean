import Verif.Model.Net
/-!
# Model of `/repo/src/cmds/mod.rs`
-/
namespace Ripcalc

/-- `enum ParsedIpAddress`, `src/cmds/mod.rs:36-40`. -/
inductive ParsedIpAddress where
  | ipv4 (a : V4)
  | ipv6 (a : V6)
  deriving DecidableEq, Repr

/-- `ParsedIpAddress::version`, `src/cmds/mod.rs:42-47`. -/
def ParsedIpAddress.version : ParsedIpAddress → Nat
  | .ipv4 _ => 4
  | .ipv6 _ => 6

/-- `enum NetworkSpec`, `src/cmds/mod.rs:52-56`. -/
inductive NetworkSpec where
  | ipv4 (a : V4) (n : Net V4)
  | ipv6 (a : V6) (n : Net V6)
  deriving DecidableEq, Repr

/-- `enum NetworkSpecs`, `src/cmds/mod.rs:59-65`. -/
inductive NetworkSpecs where
  | nothing
  | mixedSpecs
  | ipv4 (l : List (V4 × Net V4))
  | ipv6 (l : List (V6 × Net V6))
  deriving DecidableEq, Repr

/-- `enum ParsedSubnet`, `src/cmds/mod.rs:69-74`. -/
inductive ParsedSubnet where
  | cidr (p : Nat)
  | ipv4Mask (m : V4)
  | ipv6Mask (m : V6)
  deriving DecidableEq, Repr

/-- `enum ParseNetspecError`, `src/cmds/mod.rs:77-98`. -/
inductive NetspecErr where
  | unrecognized (s : Str)
  | address (e : AddrErr)
  | mask (e : AddrErr)
  | cidrParse (e : IntErr)
  | cidrRange (got max : Nat)
  deriving DecidableEq, Repr

/-! ## The four regular expressions

Each is anchored and consists of an address part, `/`, an optional `-` and a last part; no part can contain `/` and the
last part cannot start with `-`, so the match, if any, is unique: cut at the first `/`, drop one `-`. `Proofs/Regex.lean`
proves these matchers equal to the regular expressions of the source. -/

/-- `[0-9]`. -/
def isDigit09 (c : Char) : Bool := decide ('0'.toNat ≤ c.toNat) && decide (c.toNat ≤ '9'.toNat)

/-- `[0-9a-f:]`. -/
def isV6Char (c : Char) : Bool :=
  isDigit09 c || (decide ('a'.toNat ≤ c.toNat) && decide (c.toNat ≤ 'f'.toNat)) || c == ':'

/-- `[0-9]+`. -/
def matchDigits (s : Str) : Bool := !s.isEmpty && s.all isDigit09

/-- `[0-9]+(?:[.][0-9]+){3}`. -/
def matchQuad (s : Str) : Bool :=
  let chunks := splitChar '.' s
  chunks.length == 4 && chunks.all matchDigits

/-- `[0-9a-f:]+`. -/
def matchV6Addr (s : Str) : Bool := !s.isEmpty && s.all isV6Char

/-- `[0-9a-f:]*:[0-9a-f:]*`. -/
def matchV6Mask (s : Str) : Bool := s.all isV6Char && hasChar ':' s

/-- Text before and after the first `/`. -/
def cutSlash : Str → Option (Str × Str)
  | [] => none
  | c :: cs => if c = '/' then some ([], cs) else (cutSlash cs).map (fun (a, b) => (c :: a, b))

/-- `(?P<wildcard>-)?` at the start of the part after the slash. -/
def cutMinus : Str → Bool × Str
  | '-' :: cs => (true, cs)
  | cs => (false, cs)

/-- `^(?P<addr>X)/(?P<wildcard>-)?(?P<last>Y)$`: captures `addr`, whether `wildcard` took part, and `last`. -/
def netspecMatch (mAddr mLast : Str → Bool) (s : Str) : Option (Str × Bool × Str) :=
  match cutSlash s with
  | none => none
  | some (a, r) =>
    let (w, l) := cutMinus r
    if mAddr a && mLast l then some (a, w, l) else none

/-- `IPV4_WITH_SUBNET_REGEX`, `src/cmds/mod.rs:21-23`. -/
def ipv4WithSubnet : Str → Option (Str × Bool × Str) := netspecMatch matchQuad matchQuad
/-- `IPV4_WITH_CIDR_REGEX`, `src/cmds/mod.rs:24-26`. -/
def ipv4WithCidr : Str → Option (Str × Bool × Str) := netspecMatch matchQuad matchDigits
/-- `IPV6_WITH_SUBNET_REGEX`, `src/cmds/mod.rs:27-29`. -/
def ipv6WithSubnet : Str → Option (Str × Bool × Str) := netspecMatch matchV6Addr matchV6Mask
/-- `IPV6_WITH_CIDR_REGEX`, `src/cmds/mod.rs:30-32`. -/
def ipv6WithCidr : Str → Option (Str × Bool × Str) := netspecMatch matchV6Addr matchDigits

/-- `str::parse::<usize>()` on a 64-bit target. -/
def parseUsize (s : Str) : Except IntErr Nat := parseUnsigned 10 (2 ^ 64 - 1) s

/-! ## The parsers -/

/-- `parse_addr`, `src/cmds/mod.rs:120-135`. -/
def parseAddr (spec : Str) : Exec (Except AddrErr ParsedIpAddress) :=
  if hasChar '.' spec then
    if hasChar ':' spec then pure (.error .unknownAddressType)
    else match V4.parse spec with
      | .ok a => pure (.ok (.ipv4 a))
      | .error e => pure (.error e)
  else if hasChar ':' spec then do
    match ← V6.parse spec with
    | .ok a => pure (.ok (.ipv6 a))
    | .error e => pure (.error e)
  else pure (.error .unknownAddressType)

/-- The IPv4 address/mask branch of `parse_netspec`, `src/cmds/mod.rs:140-153`. -/
def parseV4Mask (addrStr : Str) (isWildcard : Bool) (maskStr : Str) : Except NetspecErr NetworkSpec :=
  match V4.parse addrStr with
  | .error e => .error (.address e)
  | .ok addr =>
    match V4.parse maskStr with
    | .error e => .error (.mask e)
    | .ok mask =>
      let mask := if isWildcard then IpAddr.negate mask else mask
      .ok (.ipv4 addr (Net.newWithMask addr mask))

/-- The IPv4 address/prefix branch, `src/cmds/mod.rs:155-171`. -/
def parseV4Cidr (addrStr : Str) (isWildcard : Bool) (cidrStr : Str) : Exec (Except NetspecErr NetworkSpec) :=
  match V4.parse addrStr with
  | .error e => pure (.error (.address e))
  | .ok addr =>
    match parseUsize cidrStr with
    | .error e => pure (.error (.cidrParse e))
    | .ok cidr =>
      if cidr > 32 then pure (.error (.cidrRange cidr 32))
      else do
        let cidr := if isWildcard then 32 - cidr else cidr
        let net ← Net.newWithPrefix addr cidr
        pure (.ok (.ipv4 addr net))

/-- The IPv6 address/mask branch, `src/cmds/mod.rs:173-186`. -/
def parseV6Mask (addrStr : Str) (isWildcard : Bool) (maskStr : Str) : Exec (Except NetspecErr NetworkSpec) := do
  match ← V6.parse addrStr with
  | .error e => pure (.error (.address e))
  | .ok addr =>
    match ← V6.parse maskStr with
    | .error e => pure (.error (.mask e))
    | .ok mask =>
      let mask := if isWildcard then IpAddr.negate mask else mask
      pure (.ok (.ipv6 addr (Net.newWithMask addr mask)))

/-- The IPv6 address/prefix branch, `src/cmds/mod.rs:188-204`. -/
def parseV6Cidr (addrStr : Str) (isWildcard : Bool) (cidrStr : Str) : Exec (Except NetspecErr NetworkSpec) := do
  match ← V6.parse addrStr with
  | .error e => pure (.error (.address e))
  | .ok addr =>
    match parseUsize cidrStr with
    | .error e => pure (.error (.cidrParse e))
    | .ok cidr =>
      if cidr > 128 then pure (.error (.cidrRange cidr 128))
      else do
        let cidr := if isWildcard then 128 - cidr else cidr
        let net ← Net.newWithPrefix addr cidr
        pure (.ok (.ipv6 addr net))

/-- `parse_netspec`, `src/cmds/mod.rs:138-208`. -/
def parseNetspec (spec : Str) : Exec (Except NetspecErr NetworkSpec) :=
  match ipv4WithSubnet spec with
  | some (a, w, m) => pure (parseV4Mask a w m)
  | none =>
    match ipv4WithCidr spec with
    | some (a, w, m) => parseV4Cidr a w m
    | none =>
      match ipv6WithSubnet spec with
      | some (a, w, m) => parseV6Mask a w m
      | none =>
        match ipv6WithCidr spec with
        | some (a, w, m) => parseV6Cidr a w m
        | none => pure (.error (.unrecognized spec))

/-- The IPv4 loop of `parse_same_family_netspecs`, `src/cmds/mod.rs:222-233`; `specs` as accumulated. -/
def sameFamilyLoop4 : List (V4 × Net V4) → List Str → Exec (Except NetspecErr NetworkSpecs)
  | specs, [] => pure (.ok (.ipv4 specs))
  | specs, s :: rest => do
    match ← parseNetspec s with
    | .error e => pure (.error e)
    | .ok (.ipv4 a n) => sameFamilyLoop4 (specs ++ [(a, n)]) rest
    | .ok (.ipv6 _ _) => pure (.ok .mixedSpecs)

/-- The IPv6 loop, `src/cmds/mod.rs:239-250`. -/
def sameFamilyLoop6 : List (V6 × Net V6) → List Str → Exec (Except NetspecErr NetworkSpecs)
  | specs, [] => pure (.ok (.ipv6 specs))
  | specs, s :: rest => do
    match ← parseNetspec s with
    | .error e => pure (.error e)
    | .ok (.ipv6 a n) => sameFamilyLoop6 (specs ++ [(a, n)]) rest
    | .ok (.ipv4 _ _) => pure (.ok .mixedSpecs)

/-- `parse_same_family_netspecs`, `src/cmds/mod.rs:212-253`. -/
def parseSameFamilyNetspecs : List Str → Exec (Except NetspecErr NetworkSpecs)
  | [] => pure (.ok .nothing)
  | s :: rest => do
    match ← parseNetspec s with
    | .error e => pure (.error e)
    | .ok (.ipv4 a n) => sameFamilyLoop4 [(a, n)] rest
    | .ok (.ipv6 a n) => sameFamilyLoop6 [(a, n)] rest

/-- `parse_subnet`, `src/cmds/mod.rs:256-282`. -/
def parseSubnet (spec : Str) : Exec (Except NetspecErr ParsedSubnet) :=
  if hasChar ':' spec then do
    match ← V6.parse spec with
    | .ok a => pure (.ok (.ipv6Mask a))
    | .error e => pure (.error (.mask e))
  else if hasChar '.' spec then
    match V4.parse spec with
    | .ok a => pure (.ok (.ipv4Mask a))
    | .error e => pure (.error (.mask e))
  else
    match parseUsize spec with
    | .ok p => pure (.ok (.cidr p))
    | .error e => pure (.error (.cidrParse e))

end Ripcalc
