import Verif.Model.Main
/-!
# The model for other word sizes

`usize` has 64 bits in the other files.  Here the number of bits is a parameter: the functions that depend on it, directly or through
others, are repeated with it; C112 says that `doMainOn 64` is `doMain` and what changes for other sizes.  (Counters and lengths are
numbers without bound here as well.)
-/
namespace Ripcalc
variable {A : Type} [IpAddr A]

/-- `a - b` on `usize` (used at `src/cmds/derange.rs:69`). -/
def usizeSubOn (bits : Nat) (pr : Profile) (a b : Nat) : Exec Nat :=
  if b ≤ a then .ok (a - b)
  else match pr with
    | .checked => .panic .overflow
    | .wrapping => .ok (a + 2 ^ bits - b)

/-- `str::parse::<usize>()` (used at `src/cmds/mod.rs:161,194,274`). -/
def parseUsizeOn (bits : Nat) (s : Str) : Except IntErr Nat := parseUnsigned 10 (2 ^ bits - 1) s

/-- The IPv4 address/prefix branch, `src/cmds/mod.rs:155-171`. -/
def parseV4CidrOn (bits : Nat) (addrStr : Str) (isWildcard : Bool) (cidrStr : Str) : Exec (Except NetspecErr NetworkSpec) :=
  match V4.parse addrStr with
  | .error e => pure (.error (.address e))
  | .ok addr =>
    match parseUsizeOn bits cidrStr with
    | .error e => pure (.error (.cidrParse e))
    | .ok cidr =>
      if cidr > 32 then pure (.error (.cidrRange cidr 32))
      else do
        let cidr := if isWildcard then 32 - cidr else cidr
        let net ← Net.newWithPrefix addr cidr
        pure (.ok (.ipv4 addr net))

/-- The IPv6 address/prefix branch, `src/cmds/mod.rs:188-204`. -/
def parseV6CidrOn (bits : Nat) (addrStr : Str) (isWildcard : Bool) (cidrStr : Str) : Exec (Except NetspecErr NetworkSpec) := do
  match ← V6.parse addrStr with
  | .error e => pure (.error (.address e))
  | .ok addr =>
    match parseUsizeOn bits cidrStr with
    | .error e => pure (.error (.cidrParse e))
    | .ok cidr =>
      if cidr > 128 then pure (.error (.cidrRange cidr 128))
      else do
        let cidr := if isWildcard then 128 - cidr else cidr
        let net ← Net.newWithPrefix addr cidr
        pure (.ok (.ipv6 addr net))

/-- `parse_netspec`, `src/cmds/mod.rs:138-208`. -/
def parseNetspecOn (bits : Nat) (spec : Str) : Exec (Except NetspecErr NetworkSpec) :=
  match ipv4WithSubnet spec with
  | some (a, w, m) => pure (parseV4Mask a w m)
  | none =>
    match ipv4WithCidr spec with
    | some (a, w, m) => parseV4CidrOn bits a w m
    | none =>
      match ipv6WithSubnet spec with
      | some (a, w, m) => parseV6Mask a w m
      | none =>
        match ipv6WithCidr spec with
        | some (a, w, m) => parseV6CidrOn bits a w m
        | none => pure (.error (.unrecognized spec))

/-- The IPv4 loop of `parse_same_family_netspecs`, `src/cmds/mod.rs:222-233`; `specs` as accumulated. -/
def sameFamilyLoop4On (bits : Nat) : List (V4 × Net V4) → List Str → Exec (Except NetspecErr NetworkSpecs)
  | specs, [] => pure (.ok (.ipv4 specs))
  | specs, s :: rest => do
    match ← parseNetspecOn bits s with
    | .error e => pure (.error e)
    | .ok (.ipv4 a n) => sameFamilyLoop4On bits (specs ++ [(a, n)]) rest
    | .ok (.ipv6 _ _) => pure (.ok .mixedSpecs)

/-- The IPv6 loop, `src/cmds/mod.rs:239-250`. -/
def sameFamilyLoop6On (bits : Nat) : List (V6 × Net V6) → List Str → Exec (Except NetspecErr NetworkSpecs)
  | specs, [] => pure (.ok (.ipv6 specs))
  | specs, s :: rest => do
    match ← parseNetspecOn bits s with
    | .error e => pure (.error e)
    | .ok (.ipv6 a n) => sameFamilyLoop6On bits (specs ++ [(a, n)]) rest
    | .ok (.ipv4 _ _) => pure (.ok .mixedSpecs)

/-- `parse_same_family_netspecs`, `src/cmds/mod.rs:212-253`. -/
def parseSameFamilyNetspecsOn (bits : Nat) : List Str → Exec (Except NetspecErr NetworkSpecs)
  | [] => pure (.ok .nothing)
  | s :: rest => do
    match ← parseNetspecOn bits s with
    | .error e => pure (.error e)
    | .ok (.ipv4 a n) => sameFamilyLoop4On bits [(a, n)] rest
    | .ok (.ipv6 a n) => sameFamilyLoop6On bits [(a, n)] rest

/-- `parse_subnet`, `src/cmds/mod.rs:256-282`. -/
def parseSubnetOn (bits : Nat) (spec : Str) : Exec (Except NetspecErr ParsedSubnet) :=
  if hasChar ':' spec then do
    match ← V6.parse spec with
    | .ok a => pure (.ok (.ipv6Mask a))
    | .error e => pure (.error (.mask e))
  else if hasChar '.' spec then
    match V4.parse spec with
    | .ok a => pure (.ok (.ipv4Mask a))
    | .error e => pure (.error (.mask e))
  else
    match parseUsizeOn bits spec with
    | .ok p => pure (.ok (.cidr p))
    | .error e => pure (.error (.cidrParse e))

/-- The parsing loop of `show_net`, `src/cmds/show_net.rs:23-32`; `Except.error` is the early return. -/
def showParseLoopOn (bits : Nat) : List Str → Exec (Except NetspecErr (List NetworkSpec))
  | [] => pure (.ok [])
  | arg :: rest => do
    match ← parseNetspecOn bits arg with
    | .error e => pure (.error e)
    | .ok spec => do
      match ← showParseLoopOn bits rest with
      | .error e => pure (.error e)
      | .ok specs => pure (.ok (spec :: specs))

/-- `show_net`, `src/cmds/show_net.rs:22-48`. -/
def showNetOn (bits : Nat) (rt : Runtime) (args : List Str) : Cli Nat := do
  match ← (showParseLoopOn bits (args.drop 1) : Exec _) with
  | .error e => do
    Cli.eprint (.showParse e)
    pure 1
  | .ok specs => do
    showPrintLoop rt true specs
    pure 0

/-- `minimize`, `src/cmds/minimize.rs:9-49`. -/
def minimizeOn (bits : Nat) (rt : Runtime) (args : List Str) : Cli Nat := do
  if args.length < 3 then
    Cli.eprint .usage
    return 1
  match ← (parseSameFamilyNetspecsOn bits (args.drop 2) : Exec _) with
  | .ok .nothing => return 0
  | .ok .mixedSpecs => do
    Cli.eprint .mixed
    return 1
  | .ok (.ipv4 l) => do
    let minimized ← (minimizeSubnets rt (l.map (·.2)) : Exec (List (Net V4)))
    printNets minimized
    return 0
  | .ok (.ipv6 l) => do
    let minimized ← (minimizeSubnets rt (l.map (·.2)) : Exec (List (Net V6)))
    printNets minimized
    return 0
  | .error e => do
    Cli.eprint (.minimizeParse e)
    return 1

/-- The loop test and body of `range_to_subnets`, `src/cmds/derange.rs:67-79`. -/
def rangeStepOn (bits : Nat) (pr : Profile) (lastAddr : A) (s : RangeState A) : Exec (RangeState A ⊕ List (Net A)) :=
  if IpAddr.le s.firstAddr lastAddr then do
    let pfx ← Exec.unwrap s.current.cidrPrefix
    let shorter ← usizeSubOn bits pr pfx 1
    let larger ← Net.newWithPrefix s.firstAddr shorter
    let beyond ← (if larger.baseAddr ≠ s.firstAddr then pure true
      else do
        let l ← larger.lastAddrOfSubnet
        pure (!IpAddr.le l lastAddr) : Exec Bool)
    if beyond then do
      let nsba? ← s.current.nextSubnetBaseAddr pr
      let first ← Exec.unwrap nsba?
      let current ← Net.newWithPrefix first (IpAddr.byteCount lastAddr * 8)
      pure (.inl ⟨first, current, s.ret ++ [s.current]⟩)
    else pure (.inl ⟨s.firstAddr, larger, s.ret⟩)
  else pure (.inr s.ret)

/-- `range_to_subnets`, `src/cmds/derange.rs:56-82`. -/
def rangeToSubnetsOn (bits : Nat) (pr : Profile) (endOne endTwo : A) : Exec (List (Net A)) := do
  let firstAddr := minAddr endOne endTwo
  let lastAddr := maxAddr endOne endTwo
  let current ← Net.newWithPrefix firstAddr (IpAddr.byteCount lastAddr * 8)
  loopM (rangeStepOn bits pr lastAddr) ⟨firstAddr, current, []⟩

/-- `derange`, `src/cmds/derange.rs:9-51`. -/
def derangeOn (bits : Nat) (rt : Runtime) (args : List Str) : Cli Nat := do
  if args.length ≠ 4 then
    Cli.eprint .usage
    return 1
  match ← (parseAddr (args.getD 2 []) : Exec _) with
  | .error e => do
    Cli.eprint (.derangeFirst e)
    return 1
  | .ok one =>
    match ← (parseAddr (args.getD 3 []) : Exec _) with
    | .error e => do
      Cli.eprint (.derangeSecond e)
      return 1
    | .ok other =>
      if one.version ≠ other.version then
        Cli.eprint .derangeVersion
        return 1
      else
        match one, other with
        | .ipv4 a, .ipv4 b => do
          let subnets ← (rangeToSubnetsOn bits rt.profile a b : Exec (List (Net V4)))
          printNets subnets
          return 0
        | .ipv6 a, .ipv6 b => do
          let subnets ← (rangeToSubnetsOn bits rt.profile a b : Exec (List (Net V6)))
          printNets subnets
          return 0
        | _, _ => return 0

/-- The target mask for an IPv4 network, `src/cmds/resize.rs:26-46`; `Except.error` is the early return with a message. -/
def resizeMask4On (bits : Nat) (spec : Str) : Exec (Except ErrMsg V4) := do
  match ← parseSubnetOn bits spec with
  | .error e => pure (.error (.resizeSubnet spec e))
  | .ok (.cidr cidr) =>
    if cidr > 32 then pure (.error (.resizeRangeV4 cidr))
    else do
      let m : V4 ← Exec.unwrap (IpAddr.fromBytes (subnetMaskBytesFromPrefix cidr 4))
      pure (.ok m)
  | .ok (.ipv4Mask m) => pure (.ok m)
  | .ok (.ipv6Mask _) => pure (.error .resizeV4ToV6)

/-- The target mask for an IPv6 network, `src/cmds/resize.rs:51-71`. -/
def resizeMask6On (bits : Nat) (spec : Str) : Exec (Except ErrMsg V6) := do
  match ← parseSubnetOn bits spec with
  | .error e => pure (.error (.resizeSubnet spec e))
  | .ok (.cidr cidr) =>
    if cidr > 128 then pure (.error (.resizeRangeV6 cidr))
    else do
      let m : V6 ← Exec.unwrap (IpAddr.fromBytes (subnetMaskBytesFromPrefix cidr 16))
      pure (.ok m)
  | .ok (.ipv6Mask m) => pure (.ok m)
  | .ok (.ipv4Mask _) => pure (.error .resizeV6ToV4)

/-- `resize`, `src/cmds/resize.rs:13-76`. -/
def resizeOn (bits : Nat) (rt : Runtime) (args : List Str) : Cli Nat := do
  if args.length ≠ 4 then
    Cli.eprint .usage
    return 1
  match ← (parseNetspecOn bits (args.getD 2 []) : Exec _) with
  | .error e => do
    Cli.eprint (.resizeNet (args.getD 2 []) e)
    return 1
  | .ok (.ipv4 _ net) =>
    match ← (resizeMask4On bits (args.getD 3 []) : Exec _) with
    | .error m => do
      Cli.eprint m
      return 1
    | .ok mask => do
      resizeAndOutput rt net mask (outputIpv4Network rt)
      return 0
  | .ok (.ipv6 _ net) =>
    match ← (resizeMask6On bits (args.getD 3 []) : Exec _) with
    | .error m => do
      Cli.eprint m
      return 1
    | .ok mask => do
      resizeAndOutput rt net mask (outputIpv6Network rt)
      return 0

/-- `output_split`, `src/cmds/split.rs:52-87`. -/
def outputSplitOn (bits : Nat) (rt : Runtime) (subnet : Net A) (hostCounts : List Int)
    (outputNetwork : Net A → Option A → Cli Unit) : Cli Nat := do
  Cli.println "Subnet to split:".toList
  outputNetwork subnet none
  Cli.println []
  match ← (splitSubnet rt subnet hostCounts : Exec (Option (List (Net A)))) with
  | none => do
    Cli.println "Not enough addresses available for this split.".toList
    return 1
  | some splitSubnets => do
    printSplit outputNetwork (hostCounts.zip splitSubnets)
    let lasts ← (lastAddrs splitSubnets : Exec (List A))
    let maxUsedAddress ← (Exec.unwrap (maxOf lasts) : Exec A)
    if !subnet.contains maxUsedAddress then
      Cli.println "Network is too small".toList
    else
      match ← (IpAddr.addOffset rt.profile maxUsedAddress 1 : Exec (Option A)) with
      | none => pure ()
      | some nextUnusedAddress => do
        Cli.println "Unused networks:".toList
        let lastAddress ← (subnet.lastAddrOfSubnet : Exec A)
        let unused ← (rangeToSubnetsOn bits rt.profile nextUnusedAddress lastAddress : Exec (List (Net A)))
        printNets unused
    return 0

/-- `split`, `src/cmds/split.rs:13-50`. -/
def splitOn (bits : Nat) (rt : Runtime) (args : List Str) : Cli Nat := do
  if args.length < 4 then
    Cli.eprint .usage
    return 1
  match parseHostCounts (args.drop 3) with
  | .error m => do
    Cli.eprint m
    return 1
  | .ok hostCounts =>
    match ← (parseNetspecOn bits (args.getD 2 []) : Exec _) with
    | .error e => do
      Cli.eprint (.splitNet (args.getD 2 []) e)
      return 1
    | .ok (.ipv4 _ net) => outputSplitOn bits rt net hostCounts (outputIpv4Network rt)
    | .ok (.ipv6 _ net) => outputSplitOn bits rt net hostCounts (outputIpv6Network rt)

/-- The argument loop of `enumerate`, `src/cmds/enumerate.rs:58-80`; `ret` as in the source. -/
def enumerateLoopOn (bits : Nat) (rt : Runtime) : Nat → List Str → Cli Nat
  | ret, [] => pure ret
  | ret, s :: rest => do
    match ← (parseNetspecOn bits s : Exec _) with
    | .error e => do
      Cli.eprint (.enumerateNet s e)
      enumerateLoopOn bits rt 1 rest
    | .ok (.ipv4 _ net) => do
      printNet rt.profile net
      enumerateLoopOn bits rt ret rest
    | .ok (.ipv6 _ net) => do
      printNet rt.profile net
      enumerateLoopOn bits rt ret rest

/-- `enumerate`, `src/cmds/enumerate.rs:51-81`. -/
def enumerateOn (bits : Nat) (rt : Runtime) (args : List Str) : Cli Nat := do
  if args.length < 3 then
    Cli.eprint .usage
    return 1
  enumerateLoopOn bits rt 0 (args.drop 2)

/-- `do_main`, `src/main.rs:47-74`: the exit code for the argument vector (program name included). -/
def doMainOn (bits : Nat) (rt : Runtime) (args : List Str) : Cli Nat := do
  if args.length < 2 then
    Cli.eprint .usage
    return 1
  let mode := args.getD 1 []
  if mode = "-m".toList ∨ mode = "--minimize".toList then minimizeOn bits rt args
  else if mode = "-d".toList ∨ mode = "--derange".toList then derangeOn bits rt args
  else if mode = "-s".toList ∨ mode = "--split".toList then splitOn bits rt args
  else if mode = "-r".toList ∨ mode = "--resize".toList then resizeOn bits rt args
  else if mode = "-e".toList ∨ mode = "--enumerate".toList then enumerateOn bits rt args
  else if mode = "--color-test".toList then do
    colorTest rt
    return 0
  else if mode = "--help".toList then do
    Cli.eprint .usage
    return 0
  else showNetOn bits rt args

end Ripcalc
