import Verif.Model.Output
/-!
# Model of `/repo/src/cmds/derange.rs`
-/
namespace Ripcalc
variable {A : Type} [IpAddr A]

/-- `std::cmp::min`: the first argument when equal. -/
def minAddr (a b : A) : A := if IpAddr.le a b then a else b

/-- `std::cmp::max`: the second argument when equal. -/
def maxAddr (a b : A) : A := if IpAddr.le a b then b else a

/-- The variables of the loop in `range_to_subnets`. -/
structure RangeState (A : Type) where
  firstAddr : A
  current : Net A
  ret : List (Net A)

/-- The loop test and body of `range_to_subnets`, `src/cmds/derange.rs:67-79`. -/
def rangeStep (pr : Profile) (lastAddr : A) (s : RangeState A) : Exec (RangeState A ⊕ List (Net A)) :=
  if IpAddr.le s.firstAddr lastAddr then do
    let pfx ← Exec.unwrap s.current.cidrPrefix
    let shorter ← usizeSub pr pfx 1
    let larger ← Net.newWithPrefix s.firstAddr shorter
    let beyond ← (if larger.baseAddr ≠ s.firstAddr then pure true
      else do
        let l ← larger.lastAddrOfSubnet
        pure (!IpAddr.le l lastAddr) : Exec Bool)
    if beyond then do
      let nsba? ← s.current.nextSubnetBaseAddr pr
      let first ← Exec.unwrap nsba?
      let current ← Net.newWithPrefix first (IpAddr.byteCount lastAddr * 8)
      pure (.inl ⟨first, current, s.ret ++ [s.current]⟩)
    else pure (.inl ⟨s.firstAddr, larger, s.ret⟩)
  else pure (.inr s.ret)

/-- `range_to_subnets`, `src/cmds/derange.rs:56-82`. -/
def rangeToSubnets (pr : Profile) (endOne endTwo : A) : Exec (List (Net A)) := do
  let firstAddr := minAddr endOne endTwo
  let lastAddr := maxAddr endOne endTwo
  let current ← Net.newWithPrefix firstAddr (IpAddr.byteCount lastAddr * 8)
  loopM (rangeStep pr lastAddr) ⟨firstAddr, current, []⟩

/-- `for net in nets { println!("{}", net); }` (several places). -/
def printNets : List (Net A) → Cli Unit
  | [] => pure ()
  | n :: rest => do
    Cli.println n.display
    printNets rest

/-- `derange`, `src/cmds/derange.rs:9-51`. -/
def derange (rt : Runtime) (args : List Str) : Cli Nat := do
  if args.length ≠ 4 then
    Cli.eprint .usage
    return 1
  match ← (parseAddr (args.getD 2 []) : Exec _) with
  | .error e => do
    Cli.eprint (.derangeFirst e)
    return 1
  | .ok one =>
    match ← (parseAddr (args.getD 3 []) : Exec _) with
    | .error e => do
      Cli.eprint (.derangeSecond e)
      return 1
    | .ok other =>
      if one.version ≠ other.version then
        Cli.eprint .derangeVersion
        return 1
      else
        match one, other with
        | .ipv4 a, .ipv4 b => do
          let subnets ← (rangeToSubnets rt.profile a b : Exec (List (Net V4)))
          printNets subnets
          return 0
        | .ipv6 a, .ipv6 b => do
          let subnets ← (rangeToSubnets rt.profile a b : Exec (List (Net V6)))
          printNets subnets
          return 0
        | _, _ => return 0

end Ripcalc
