import Verif.Model.ShowNet
import Verif.Model.Derange
/-!
# Model of `/repo/src/cmds/split.rs`
-/
namespace Ripcalc

/-- The digit loop of `BigUint::from_str_radix(_, 10)` (num-bigint 0.4): underscores are skipped. -/
def bigDigits : Nat → Str → Option Nat
  | acc, [] => some acc
  | acc, c :: cs =>
    if c = '_' then bigDigits acc cs
    else match toDigit 10 c with
      | some d => bigDigits (acc * 10 + d) cs
      | none => none

/-- `BigUint::from_str_radix(_, 10)` (num-bigint 0.4): one leading `+` unless followed by another, not empty, no
leading underscore.  The error value is `bigIntErrText` (`Model/Messages.lean`). -/
def parseBigUint (s : Str) : Option Nat :=
  let s := match s with
    | '+' :: tail => if tail.head? = some '+' then s else tail
    | _ => s
  match s with
  | [] => none
  | '_' :: _ => none
  | _ => bigDigits 0 s

/-- `str::parse::<BigInt>()` (num-bigint 0.4), used at `src/cmds/split.rs:24`: one leading `-` unless followed by `+`. -/
def parseBigInt (s : Str) : Option Int :=
  match s with
  | '-' :: tail =>
    if tail.head? = some '+' then (parseBigUint s).map (fun n : Nat => -(n : Int))
    else (parseBigUint tail).map (fun n : Nat => -(n : Int))
  | _ => (parseBigUint s).map (fun n : Nat => (n : Int))

section
variable {A : Type} [IpAddr A]

/-- One round of the growing loop, `src/cmds/split.rs:105-111`. -/
def growStep (hostCount : Int) (cur : Net A) : Exec (Net A ⊕ Net A) :=
  if cur.hostCount < hostCount then do
    let cidrPrefix ← Exec.unwrap cur.cidrPrefix
    if cidrPrefix = 0 then pure (.inr cur)
    else do
      let larger ← Net.newWithPrefix cur.baseAddr (cidrPrefix - 1)
      pure (.inl larger)
  else pure (.inr cur)

/-- The allocation loop of `split_subnet`, `src/cmds/split.rs:104-125`: `current_net`, the map so far, the remaining
requests; `none` is the early `return None`. -/
def splitLoop (pr : Profile) : Net A → List (Nat × Net A) → List (Nat × Int) → Exec (Option (List (Nat × Net A)))
  | _, m, [] => pure (some m)
  | cur, m, (i, hostCount) :: rest => do
    let cur ← loopM (growStep hostCount) cur
    let pfx ← Exec.unwrap cur.cidrPrefix
    if pfx = 0 then pure none
    else do
      let m := mapInsert i cur m
      match ← cur.nextSubnetBaseAddr pr with
      | none => pure none
      | some nsba => do
        let next ← Net.newWithPrefix nsba (IpAddr.byteCount cur.subnetMask * 8)
        splitLoop pr next m rest

/-- `split_subnet`, `src/cmds/split.rs:90-136`. -/
def splitSubnet (rt : Runtime) (subnet : Net A) (hostCounts : List Int) : Exec (Option (List (Net A))) := do
  let indexed := hostCounts.zipIdx.map (fun (num, i) => (i, num))
  let sorted := rt.sortUnstable (fun x y : Nat × Int => decide (y.2 ≤ x.2)) indexed
  let cur ← Net.newWithPrefix subnet.baseAddr (IpAddr.byteCount subnet.subnetMask * 8)
  match ← splitLoop rt.profile cur [] sorted with
  | none => pure none
  | some indexToSubnet =>
    let ordered := rt.sortUnstable (fun x y : Nat × Net A => decide (x.1 ≤ y.1)) (rt.hashIter 0 indexToSubnet)
    pure (some (ordered.map (·.2)))

/-- `for (host_count, splitnet) in …` of `output_split`, `src/cmds/split.rs:64-68`. -/
def printSplit (outputNetwork : Net A → Option A → Cli Unit) : List (Int × Net A) → Cli Unit
  | [] => pure ()
  | (hc, n) :: rest => do
    Cli.println ("Subnet for ".toList ++ showInt hc ++ " hosts:".toList)
    outputNetwork n none
    Cli.println []
    printSplit outputNetwork rest

/-- `iter().map(last_addr_of_subnet)`, `src/cmds/split.rs:70-71`. -/
def lastAddrs : List (Net A) → Exec (List A)
  | [] => pure []
  | n :: rest => do
    let l ← n.lastAddrOfSubnet
    let ls ← lastAddrs rest
    pure (l :: ls)

/-- `Iterator::max` (the last of equal maxima; equal addresses are indistinguishable). -/
def maxOf : List A → Option A
  | [] => none
  | a :: rest => some (rest.foldl (fun m x => if IpAddr.le m x then x else m) a)

/-- `output_split`, `src/cmds/split.rs:52-87`. -/
def outputSplit (rt : Runtime) (subnet : Net A) (hostCounts : List Int)
    (outputNetwork : Net A → Option A → Cli Unit) : Cli Nat := do
  Cli.println "Subnet to split:".toList
  outputNetwork subnet none
  Cli.println []
  match ← (splitSubnet rt subnet hostCounts : Exec (Option (List (Net A)))) with
  | none => do
    Cli.println "Not enough addresses available for this split.".toList
    return 1
  | some splitSubnets => do
    printSplit outputNetwork (hostCounts.zip splitSubnets)
    let lasts ← (lastAddrs splitSubnets : Exec (List A))
    let maxUsedAddress ← (Exec.unwrap (maxOf lasts) : Exec A)
    if !subnet.contains maxUsedAddress then
      Cli.println "Network is too small".toList
    else
      match ← (IpAddr.addOffset rt.profile maxUsedAddress 1 : Exec (Option A)) with
      | none => pure ()
      | some nextUnusedAddress => do
        Cli.println "Unused networks:".toList
        let lastAddress ← (subnet.lastAddrOfSubnet : Exec A)
        let unused ← (rangeToSubnets rt.profile nextUnusedAddress lastAddress : Exec (List (Net A)))
        printNets unused
    return 0

end

/-- The loop parsing the host counts, `src/cmds/split.rs:22-36`; `Except.error` is the early return. -/
def parseHostCounts : List Str → Except ErrMsg (List Int)
  | [] => .ok []
  | s :: rest =>
    match parseBigInt s with
    | none => .error (.splitCount s)
    | some hc =>
      if hc < 0 then .error .splitNegative
      else match parseHostCounts rest with
        | .error m => .error m
        | .ok hcs => .ok (hc :: hcs)

/-- `split`, `src/cmds/split.rs:13-50`. -/
def split (rt : Runtime) (args : List Str) : Cli Nat := do
  if args.length < 4 then
    Cli.eprint .usage
    return 1
  match parseHostCounts (args.drop 3) with
  | .error m => do
    Cli.eprint m
    return 1
  | .ok hostCounts =>
    match ← (parseNetspec (args.getD 2 []) : Exec _) with
    | .error e => do
      Cli.eprint (.splitNet (args.getD 2 []) e)
      return 1
    | .ok (.ipv4 _ net) => outputSplit rt net hostCounts (outputIpv4Network rt)
    | .ok (.ipv6 _ net) => outputSplit rt net hostCounts (outputIpv6Network rt)

end Ripcalc
