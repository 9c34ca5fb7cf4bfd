import Verif.Model.ShowNet
/-!
# Model of `/repo/src/cmds/resize.rs`
-/
namespace Ripcalc
section
variable {A : Type} [IpAddr A]

/-- One round of the subnet loop of `resize_network`, `src/cmds/resize.rs:141-153`; the state is
`current_unraveled_base_addr` and `nets`. -/
def resizeStep (pr : Profile) (newSubnetMask unraveledLastAddr : A) (s : A × List (Net A)) :
    Exec ((A × List (Net A)) ⊕ List (Net A)) :=
  if IpAddr.le s.1 unraveledLastAddr then do
    let wovenNewBaseAddr ← weaveAddress s.1 newSubnetMask
    let newNet := Net.newWithMask wovenNewBaseAddr newSubnetMask
    let nets := s.2 ++ [newNet]
    match ← newNet.nextSubnetBaseAddr pr with
    | some nsba => do
      let unraveledNsba ← unravelAddress nsba newNet.subnetMask
      pure (.inl (unraveledNsba, nets))
    | none => pure (.inr nets)
  else pure (.inr s.2)

/-- `resize_network`, `src/cmds/resize.rs:108-156`. -/
def resizeNetwork (pr : Profile) (initialNet : Net A) (newSubnetMask : A) : Exec (List (Net A) × Ordering) :=
  let initialHostBits := IpAddr.countZeros initialNet.subnetMask
  let newNetBits := IpAddr.countOnes newSubnetMask
  let newHostBits := IpAddr.countZeros newSubnetMask
  if newHostBits > initialHostBits then do
    let unraveledInitialBaseAddr ← unravelAddress initialNet.baseAddr initialNet.subnetMask
    let unraveledShortenedNet ← Net.newWithPrefix unraveledInitialBaseAddr newNetBits
    let wovenNewBaseAddr ← weaveAddress unraveledShortenedNet.baseAddr newSubnetMask
    pure ([Net.newWithMask wovenNewBaseAddr newSubnetMask], .lt)
  else if newHostBits = initialHostBits then do
    let unraveledBaseAddr ← unravelAddress initialNet.baseAddr initialNet.subnetMask
    let wovenNewBaseAddr ← weaveAddress unraveledBaseAddr newSubnetMask
    pure ([Net.newWithMask wovenNewBaseAddr newSubnetMask], .eq)
  else do
    let unraveledBaseAddr ← unravelAddress initialNet.baseAddr initialNet.subnetMask
    let last ← initialNet.lastAddrOfSubnet
    let unraveledLastAddr ← unravelAddress last initialNet.subnetMask
    let nets ← loopM (resizeStep pr newSubnetMask unraveledLastAddr) (unraveledBaseAddr, [])
    pure (nets, .gt)

/-- The loop printing the subnets, `src/cmds/resize.rs:97-101`; `i` is the loop index. -/
def printSubnets (outputNetwork : Net A → Option A → Cli Unit) : Nat → List (Net A) → Cli Unit
  | _, [] => pure ()
  | i, n :: rest => do
    Cli.println ("Subnet ".toList ++ showNat 10 (i + 1) ++ [':'])
    outputNetwork n none
    Cli.println []
    printSubnets outputNetwork (i + 1) rest

/-- `resize_and_output`, `src/cmds/resize.rs:78-104`. -/
def resizeAndOutput (rt : Runtime) (initialNet : Net A) (newSubnetMask : A)
    (outputNetwork : Net A → Option A → Cli Unit) : Cli Unit := do
  let (resized, netOrdering) ← (resizeNetwork rt.profile initialNet newSubnetMask : Exec _)
  Cli.println "Original network:".toList
  outputNetwork initialNet none
  Cli.println []
  match netOrdering with
  | .lt => do
    Cli.println "Supernet:".toList
    outputNetwork (← (Exec.index resized 0 : Exec (Net A))) none
    Cli.println []
  | .eq => do
    Cli.println "Same-sized net:".toList
    outputNetwork (← (Exec.index resized 0 : Exec (Net A))) none
    Cli.println []
  | .gt => printSubnets outputNetwork 0 resized

end

/-- The target mask for an IPv4 network, `src/cmds/resize.rs:26-46`; `Except.error` is the early return with a message. -/
def resizeMask4 (spec : Str) : Exec (Except ErrMsg V4) := do
  match ← parseSubnet spec with
  | .error e => pure (.error (.resizeSubnet spec e))
  | .ok (.cidr cidr) =>
    if cidr > 32 then pure (.error (.resizeRangeV4 cidr))
    else do
      let m : V4 ← Exec.unwrap (IpAddr.fromBytes (subnetMaskBytesFromPrefix cidr 4))
      pure (.ok m)
  | .ok (.ipv4Mask m) => pure (.ok m)
  | .ok (.ipv6Mask _) => pure (.error .resizeV4ToV6)

/-- The target mask for an IPv6 network, `src/cmds/resize.rs:51-71`. -/
def resizeMask6 (spec : Str) : Exec (Except ErrMsg V6) := do
  match ← parseSubnet spec with
  | .error e => pure (.error (.resizeSubnet spec e))
  | .ok (.cidr cidr) =>
    if cidr > 128 then pure (.error (.resizeRangeV6 cidr))
    else do
      let m : V6 ← Exec.unwrap (IpAddr.fromBytes (subnetMaskBytesFromPrefix cidr 16))
      pure (.ok m)
  | .ok (.ipv6Mask m) => pure (.ok m)
  | .ok (.ipv4Mask _) => pure (.error .resizeV6ToV4)

/-- `resize`, `src/cmds/resize.rs:13-76`. -/
def resize (rt : Runtime) (args : List Str) : Cli Nat := do
  if args.length ≠ 4 then
    Cli.eprint .usage
    return 1
  match ← (parseNetspec (args.getD 2 []) : Exec _) with
  | .error e => do
    Cli.eprint (.resizeNet (args.getD 2 []) e)
    return 1
  | .ok (.ipv4 _ net) =>
    match ← (resizeMask4 (args.getD 3 []) : Exec _) with
    | .error m => do
      Cli.eprint m
      return 1
    | .ok mask => do
      resizeAndOutput rt net mask (outputIpv4Network rt)
      return 0
  | .ok (.ipv6 _ net) =>
    match ← (resizeMask6 (args.getD 3 []) : Exec _) with
    | .error m => do
      Cli.eprint m
      return 1
    | .ok mask => do
      resizeAndOutput rt net mask (outputIpv6Network rt)
      return 0

end Ripcalc
