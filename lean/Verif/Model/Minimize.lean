import Verif.Model.Derange
/-!
# Model of `/repo/src/cmds/minimize.rs`
-/
namespace Ripcalc
variable {A : Type} [IpAddr A]

/-- The comparison of the sort key `(base_addr, subnet_mask)`, `src/cmds/minimize.rs:57,80,134`. -/
def netKeyLe (a b : Net A) : Bool :=
  if a.baseAddr = b.baseAddr then IpAddr.le a.subnetMask b.subnetMask else IpAddr.le a.baseAddr b.baseAddr

/-- Inner elimination loop for a fixed `i`, `src/cmds/minimize.rs:64-69`; the list is `subnets[i+1..]`. -/
def elimInner (a : Net A) : List (Net A) → List (Net A) → List (Net A)
  | [], filtered => filtered
  | b :: rest, filtered =>
    elimInner a rest (if a.isSupersetOf b && decide (a ≠ b) then setRemove b filtered else filtered)

/-- Elimination of covered subnets, `src/cmds/minimize.rs:63-70`. -/
def elimOuter : List (Net A) → List (Net A) → List (Net A)
  | [], filtered => filtered
  | a :: rest, filtered => elimOuter rest (elimInner a rest filtered)

/-- The part of the merge loop after the adjacency test, `src/cmds/minimize.rs:98-116`: the merged network, or `none` for
`continue`. -/
def tryMerge (a b : Net A) : Exec (Option (Net A)) :=
  let differBit := IpAddr.xor a.baseAddr b.baseAddr
  if IpAddr.countOnes differBit > 1 then pure none
  else do
    let newMask := IpAddr.and a.subnetMask (IpAddr.negate differBit)
    let newSubnet := Net.newWithMask a.baseAddr newMask
    Exec.assert (newSubnet.isSupersetOf a)
    Exec.assert (newSubnet.isSupersetOf b)
    pure (some newSubnet)

/-- Inner merge loop for a fixed `i`, `src/cmds/minimize.rs:83-125`: the partner and the merged network, or `none` when the
loop ends without a merge. -/
def mergeInner (pr : Profile) (a : Net A) : List (Net A) → Exec (Option (Net A × Net A))
  | [] => pure none
  | b :: rest =>
    if a.subnetMask ≠ b.subnetMask then mergeInner pr a rest
    else do
      let next ← a.nextSubnetBaseAddr pr
      let notAdjacent := match next with
        | some lastIpPlusOne => decide (lastIpPlusOne ≠ b.baseAddr)
        | none => false
      if notAdjacent then mergeInner pr a rest
      else
        match ← tryMerge a b with
        | none => mergeInner pr a rest
        | some new => pure (some (b, new))

/-- Outer merge loop, `src/cmds/minimize.rs:82-130`: the merged pair and the new network. -/
def mergeOuter (pr : Profile) : List (Net A) → Exec (Option (Net A × Net A × Net A))
  | [] => pure none
  | a :: rest => do
    match ← mergeInner pr a rest with
    | some (b, new) => pure (some (a, b, new))
    | none => mergeOuter pr rest

/-- One round of `while subnets_merged`, `src/cmds/minimize.rs:74-131`.  The state is the number of the round and the hash
set. -/
def minimizeStep (rt : Runtime) (s : Nat × List (Net A)) : Exec ((Nat × List (Net A)) ⊕ (Nat × List (Net A))) := do
  let subnets := rt.sortUnstable netKeyLe (rt.hashIter s.1 s.2)
  match ← mergeOuter rt.profile subnets with
  | none => pure (.inr (s.1 + 1, s.2))
  | some (a, b, new) => pure (.inl (s.1 + 1, setInsert new (setRemove b (setRemove a s.2))))

/-- `minimize_subnets`, `src/cmds/minimize.rs:54-136`. -/
def minimizeSubnets (rt : Runtime) (subnets : List (Net A)) : Exec (List (Net A)) := do
  let subnets := rt.sortUnstable netKeyLe subnets
  let filtered := elimOuter subnets (setOf subnets)
  let (t, filtered) ← loopM (minimizeStep rt) (0, filtered)
  pure (rt.sortUnstable netKeyLe (rt.hashIter t filtered))

/-- `minimize`, `src/cmds/minimize.rs:9-49`. -/
def minimize (rt : Runtime) (args : List Str) : Cli Nat := do
  if args.length < 3 then
    Cli.eprint .usage
    return 1
  match ← (parseSameFamilyNetspecs (args.drop 2) : Exec _) with
  | .ok .nothing => return 0
  | .ok .mixedSpecs => do
    Cli.eprint .mixed
    return 1
  | .ok (.ipv4 l) => do
    let minimized ← (minimizeSubnets rt (l.map (·.2)) : Exec (List (Net V4)))
    printNets minimized
    return 0
  | .ok (.ipv6 l) => do
    let minimized ← (minimizeSubnets rt (l.map (·.2)) : Exec (List (Net V6)))
    printNets minimized
    return 0
  | .error e => do
    Cli.eprint (.minimizeParse e)
    return 1

end Ripcalc
