import Verif.Model.Main
import Verif.Proofs.AddrMore
/-!
# A version of the model that the kernel can evaluate

Not a model of a file in `/repo`, and no property is proved here: the definitions of this file repeat those of the model with
loops that stop after a given number of rounds and with non-recursive IPv6 offsets.  The theorems say that what they compute
is what the model computes.  They serve to run the model on concrete inputs in the other files of this directory.
-/
namespace Ripcalc.Conformance
open Ripcalc

/-! ## Approximation -/

/-- The first computation ran out of rounds, or the two are equal. -/
def Approx (x y : Exec α) : Prop := x = .diverge ∨ x = y

/-- The same for computations with output. -/
def ApproxC (x y : Cli α) : Prop := x.res = .diverge ∨ x = y

theorem Approx.refl (x : Exec α) : Approx x x := .inr rfl
theorem ApproxC.refl (x : Cli α) : ApproxC x x := .inr rfl

theorem Approx.bind {x y : Exec α} {f g : α → Exec β} (h : Approx x y) (hf : ∀ a, Approx (f a) (g a)) :
    Approx (x >>= f) (y >>= g) := by
  rcases h with rfl | rfl
  · exact .inl rfl
  · cases x with
    | ok a => exact hf a
    | panic p => exact .refl _
    | diverge => exact .refl _

theorem ApproxC.bind {x y : Cli α} {f g : α → Cli β} (h : ApproxC x y) (hf : ∀ a, ApproxC (f a) (g a)) :
    ApproxC (x >>= f) (y >>= g) := by
  rcases h with h | rfl
  · left; show (Cli.bind x f).res = _; simp [Cli.bind, h]
  · cases hx : x.res with
    | ok a =>
      have e : ∀ f : α → Cli β, x >>= f = ⟨x.out ++ (f a).out, (f a).res⟩ := fun f => by
        show Cli.bind x f = _; simp [Cli.bind, hx]
      rw [e, e]
      rcases hf a with h | h
      · exact .inl h
      · rw [h]; exact .refl _
    | panic p =>
      right
      show Cli.bind x f = Cli.bind x g
      simp [Cli.bind, hx]
    | diverge => left; show (Cli.bind x f).res = _; simp [Cli.bind, hx]

theorem ApproxC.lift {x y : Exec α} (h : Approx x y) : ApproxC (liftM x : Cli α) (liftM y) := by
  rcases h with rfl | rfl
  · exact .inl rfl
  · exact .refl _

theorem Approx.eq {x y : Exec α} {r : Exec α} (h : Approx x y) (hx : x = r) (hr : r ≠ .diverge) : y = r := by
  rcases h with h | h
  · exact absurd (hx ▸ h) hr
  · exact h ▸ hx

theorem ApproxC.eq {x y : Cli α} {r : Cli α} (h : ApproxC x y) (hx : x = r) (hr : r.res ≠ .diverge) : y = r := by
  rcases h with h | h
  · exact absurd (hx ▸ h) hr
  · exact h ▸ hx

/-- A loop that stops after `k` rounds. -/
def loopE (step : σ → Exec (σ ⊕ ρ)) (k : Nat) (s : σ) : Exec ρ := (loopFuel step k s).getD .diverge

theorem loopE_approx (step : σ → Exec (σ ⊕ ρ)) (k : Nat) (s : σ) : Approx (loopE step k s) (loopM step s) := by
  unfold loopE
  cases h : loopFuel step k s with
  | none => exact .inl rfl
  | some r => exact .inr (loopM_of_fuel h).symm

/-! ## IPv6 offsets -/

/-- `V6.addOffset` without recursion. -/
def addOffsetE (pr : Profile) (a : V6) (k : Int32) : Exec (Option V6) :=
  if k = Int32.minValue then (match pr with | .checked => .panic .overflow | .wrapping => .diverge)
  else .ok (if k.toInt < 0
      then V6.subInternal a.topHalf a.bottomHalf 0#64 (BitVec.ofInt 64 (-k.toInt))
      else V6.addInternal a.topHalf a.bottomHalf 0#64 (BitVec.ofInt 64 k.toInt))

/-- `V6.subtractOffset` without recursion. -/
def subtractOffsetE (pr : Profile) (a : V6) (k : Int32) : Exec (Option V6) :=
  if k = Int32.minValue then (match pr with | .checked => .panic .overflow | .wrapping => .diverge)
  else .ok (if k.toInt < 0
      then V6.addInternal a.topHalf a.bottomHalf 0#64 (BitVec.ofInt 64 (-k.toInt))
      else V6.subInternal a.topHalf a.bottomHalf 0#64 (BitVec.ofInt 64 k.toInt))

theorem addOffsetE_eq : addOffsetE = V6.addOffset := by
  funext pr a k
  unfold addOffsetE
  split
  · next h =>
    subst h
    cases pr
    · exact (V6.offset_min_checked a).1.symm
    · exact (V6.offset_min_wrapping a).1.symm
  · next h => exact (V6.addOffset_eq pr a k h).symm

theorem subtractOffsetE_eq : subtractOffsetE = V6.subtractOffset := by
  funext pr a k
  unfold subtractOffsetE
  split
  · next h =>
    subst h
    cases pr
    · exact (V6.offset_min_checked a).2.symm
    · exact (V6.offset_min_wrapping a).2.symm
  · next h => exact (V6.subtractOffset_eq pr a k h).symm

/-- The IPv6 family with these offsets. -/
@[reducible] def v6E : IpAddr V6 :=
  { (inferInstance : IpAddr V6) with addOffset := addOffsetE, subtractOffset := subtractOffsetE }

theorem v6E_eq : (inferInstance : IpAddr V6) = v6E := by
  unfold v6E
  rw [addOffsetE_eq, subtractOffsetE_eq]
  rfl

/-- To evaluate a statement about IPv6, evaluate it for `v6E`. -/
theorem evalV6 (P : IpAddr V6 → Prop) (h : P v6E) : P inferInstance := v6E_eq ▸ h

/-! ## Functions -/

section
variable {A : Type} [IpAddr A]

def rangeToSubnetsE (k : Nat) (pr : Profile) (endOne endTwo : A) : Exec (List (Net A)) := do
  let firstAddr := minAddr endOne endTwo
  let lastAddr := maxAddr endOne endTwo
  let current ← Net.newWithPrefix firstAddr (IpAddr.byteCount lastAddr * 8)
  loopE (rangeStep pr lastAddr) k ⟨firstAddr, current, []⟩

theorem rangeToSubnetsE_approx (k : Nat) (pr : Profile) (a b : A) :
    Approx (rangeToSubnetsE k pr a b) (rangeToSubnets pr a b) :=
  .bind (.refl _) fun _ => loopE_approx _ _ _

def enumerateNetE (k : Nat) (pr : Profile) (net : Net A) : Exec (List A) := do
  let it ← NetworkIter.new net
  loopE (enumStep pr) k (it, [])

theorem enumerateNetE_approx (k : Nat) (pr : Profile) (net : Net A) :
    Approx (enumerateNetE k pr net) (enumerateNet pr net) :=
  .bind (.refl _) fun _ => loopE_approx _ _ _

def printNetE (k : Nat) (pr : Profile) (net : Net A) : Cli Unit := do
  let it ← (NetworkIter.new net : Exec _)
  match loopE (Cli.loopStep (printStep pr)) k (it, []) with
  | .ok (o, r) => ⟨o, r⟩
  | .panic q => ⟨[], .panic q⟩
  | .diverge => ⟨[], .diverge⟩

theorem printNetE_approx (k : Nat) (pr : Profile) (net : Net A) : ApproxC (printNetE k pr net) (printNet pr net) := by
  refine .bind (.refl _) fun it => ?_
  rw [Cli.loop]
  rcases loopE_approx (Cli.loopStep (printStep pr)) k (it, []) with h | h
  · rw [h]; exact .inl rfl
  · rw [h]; right; cases loopM (Cli.loopStep (printStep pr)) (it, []) <;> rfl

def minimizeSubnetsE (k : Nat) (rt : Runtime) (subnets : List (Net A)) : Exec (List (Net A)) := do
  let subnets := rt.sortUnstable netKeyLe subnets
  let filtered := elimOuter subnets (setOf subnets)
  let (t, filtered) ← loopE (minimizeStep rt) k (0, filtered)
  pure (rt.sortUnstable netKeyLe (rt.hashIter t filtered))

theorem minimizeSubnetsE_approx (k : Nat) (rt : Runtime) (l : List (Net A)) :
    Approx (minimizeSubnetsE k rt l) (minimizeSubnets rt l) :=
  .bind (loopE_approx _ _ _) fun _ => .refl _

def resizeNetworkE (k : Nat) (pr : Profile) (initialNet : Net A) (newSubnetMask : A) : Exec (List (Net A) × Ordering) :=
  let initialHostBits := IpAddr.countZeros initialNet.subnetMask
  let newNetBits := IpAddr.countOnes newSubnetMask
  let newHostBits := IpAddr.countZeros newSubnetMask
  if newHostBits > initialHostBits then do
    let unraveledInitialBaseAddr ← unravelAddress initialNet.baseAddr initialNet.subnetMask
    let unraveledShortenedNet ← Net.newWithPrefix unraveledInitialBaseAddr newNetBits
    let wovenNewBaseAddr ← weaveAddress unraveledShortenedNet.baseAddr newSubnetMask
    pure ([Net.newWithMask wovenNewBaseAddr newSubnetMask], .lt)
  else if newHostBits = initialHostBits then do
    let unraveledBaseAddr ← unravelAddress initialNet.baseAddr initialNet.subnetMask
    let wovenNewBaseAddr ← weaveAddress unraveledBaseAddr newSubnetMask
    pure ([Net.newWithMask wovenNewBaseAddr newSubnetMask], .eq)
  else do
    let unraveledBaseAddr ← unravelAddress initialNet.baseAddr initialNet.subnetMask
    let last ← initialNet.lastAddrOfSubnet
    let unraveledLastAddr ← unravelAddress last initialNet.subnetMask
    let nets ← loopE (resizeStep pr newSubnetMask unraveledLastAddr) k (unraveledBaseAddr, [])
    pure (nets, .gt)

theorem resizeNetworkE_approx (k : Nat) (pr : Profile) (n : Net A) (m : A) :
    Approx (resizeNetworkE k pr n m) (resizeNetwork pr n m) := by
  unfold resizeNetworkE resizeNetwork
  dsimp only
  split
  · exact .refl _
  split
  · exact .refl _
  exact .bind (.refl _) fun _ => .bind (.refl _) fun _ => .bind (.refl _) fun _ => .bind (loopE_approx _ _ _) fun _ => .refl _

def splitLoopE (k : Nat) (pr : Profile) :
    Net A → List (Nat × Net A) → List (Nat × Int) → Exec (Option (List (Nat × Net A)))
  | _, m, [] => pure (some m)
  | cur, m, (i, hostCount) :: rest => do
    let cur ← loopE (growStep hostCount) k cur
    let pfx ← Exec.unwrap cur.cidrPrefix
    if pfx = 0 then pure none
    else do
      let m := mapInsert i cur m
      match ← cur.nextSubnetBaseAddr pr with
      | none => pure none
      | some nsba => do
        let next ← Net.newWithPrefix nsba (IpAddr.byteCount cur.subnetMask * 8)
        splitLoopE k pr next m rest

theorem splitLoopE_approx (k : Nat) (pr : Profile) (cur : Net A) (m : List (Nat × Net A)) (l : List (Nat × Int)) :
    Approx (splitLoopE k pr cur m l) (splitLoop pr cur m l) := by
  induction l generalizing cur m with
  | nil => exact .refl _
  | cons x l ih =>
    obtain ⟨i, hc⟩ := x
    refine .bind (loopE_approx _ _ _) fun cur => .bind (.refl _) fun pfx => ?_
    dsimp only
    split
    · exact .refl _
    · refine .bind (.refl _) fun o => ?_
      cases o with
      | none => exact .refl _
      | some nsba => exact .bind (.refl _) fun next => ih next _

def splitSubnetE (k : Nat) (rt : Runtime) (subnet : Net A) (hostCounts : List Int) : Exec (Option (List (Net A))) := do
  let indexed := hostCounts.zipIdx.map (fun (num, i) => (i, num))
  let sorted := rt.sortUnstable (fun x y : Nat × Int => decide (y.2 ≤ x.2)) indexed
  let cur ← Net.newWithPrefix subnet.baseAddr (IpAddr.byteCount subnet.subnetMask * 8)
  match ← splitLoopE k rt.profile cur [] sorted with
  | none => pure none
  | some indexToSubnet =>
    let ordered := rt.sortUnstable (fun x y : Nat × Net A => decide (x.1 ≤ y.1)) (rt.hashIter 0 indexToSubnet)
    pure (some (ordered.map (·.2)))

theorem splitSubnetE_approx (k : Nat) (rt : Runtime) (n : Net A) (l : List Int) :
    Approx (splitSubnetE k rt n l) (splitSubnet rt n l) :=
  .bind (.refl _) fun _ => .bind (splitLoopE_approx _ _ _ _ _) fun _ => .refl _

/-! ## Commands -/

def resizeAndOutputE (k : Nat) (rt : Runtime) (initialNet : Net A) (newSubnetMask : A)
    (outputNetwork : Net A → Option A → Cli Unit) : Cli Unit := do
  let (resized, netOrdering) ← (resizeNetworkE k rt.profile initialNet newSubnetMask : Exec _)
  Cli.println "Original network:".toList
  outputNetwork initialNet none
  Cli.println []
  match netOrdering with
  | .lt => do
    Cli.println "Supernet:".toList
    outputNetwork (← (Exec.index resized 0 : Exec (Net A))) none
    Cli.println []
  | .eq => do
    Cli.println "Same-sized net:".toList
    outputNetwork (← (Exec.index resized 0 : Exec (Net A))) none
    Cli.println []
  | .gt => printSubnets outputNetwork 0 resized

theorem resizeAndOutputE_approx (k : Nat) (rt : Runtime) (n : Net A) (m : A) (f : Net A → Option A → Cli Unit) :
    ApproxC (resizeAndOutputE k rt n m f) (resizeAndOutput rt n m f) :=
  .bind (.lift (resizeNetworkE_approx _ _ _ _)) fun _ => .refl _

def outputSplitE (k : Nat) (rt : Runtime) (subnet : Net A) (hostCounts : List Int)
    (outputNetwork : Net A → Option A → Cli Unit) : Cli Nat := do
  Cli.println "Subnet to split:".toList
  outputNetwork subnet none
  Cli.println []
  match ← (splitSubnetE k rt subnet hostCounts : Exec (Option (List (Net A)))) with
  | none => do
    Cli.println "Not enough addresses available for this split.".toList
    return 1
  | some splitSubnets => do
    printSplit outputNetwork (hostCounts.zip splitSubnets)
    let lasts ← (lastAddrs splitSubnets : Exec (List A))
    let maxUsedAddress ← (Exec.unwrap (maxOf lasts) : Exec A)
    if !subnet.contains maxUsedAddress then
      Cli.println "Network is too small".toList
    else
      match ← (IpAddr.addOffset rt.profile maxUsedAddress 1 : Exec (Option A)) with
      | none => pure ()
      | some nextUnusedAddress => do
        Cli.println "Unused networks:".toList
        let lastAddress ← (subnet.lastAddrOfSubnet : Exec A)
        let unused ← (rangeToSubnetsE k rt.profile nextUnusedAddress lastAddress : Exec (List (Net A)))
        printNets unused
    return 0

theorem outputSplitE_approx (k : Nat) (rt : Runtime) (n : Net A) (l : List Int) (f : Net A → Option A → Cli Unit) :
    ApproxC (outputSplitE k rt n l f) (outputSplit rt n l f) := by
  refine .bind (.refl _) fun _ => .bind (.refl _) fun _ => .bind (.refl _) fun _ =>
    .bind (.lift (splitSubnetE_approx _ _ _ _)) fun o => ?_
  cases o with
  | none => exact .refl _
  | some nets =>
    refine .bind (.refl _) fun _ => .bind (.refl _) fun _ => .bind (.refl _) fun _ => ?_
    dsimp only
    split
    · exact .refl _
    · refine .bind (.refl _) fun o => ?_
      cases o with
      | none => exact .refl _
      | some a =>
        exact .bind (.refl _) fun _ => .bind (.refl _) fun _ => .bind (.lift (rangeToSubnetsE_approx _ _ _ _)) fun _ => .refl _

end

/-- `outputIpv6Network` with `v6E`. -/
def outputIpv6NetworkE (rt : Runtime) (net : Net V6) (addr : Option V6) : Cli Unit :=
  @outputNetwork V6 v6E rt 11 46 (outputBinaryIpv6Address rt) (fun _ _ => pure ()) net addr

theorem outputIpv6NetworkE_eq : outputIpv6NetworkE = outputIpv6Network := by
  funext rt net addr
  unfold outputIpv6NetworkE outputIpv6Network
  rw [← v6E_eq]

def derangeE (k : Nat) (rt : Runtime) (args : List Str) : Cli Nat := do
  if args.length ≠ 4 then
    Cli.eprint .usage
    return 1
  match ← (parseAddr (args.getD 2 []) : Exec _) with
  | .error e => do
    Cli.eprint (.derangeFirst e)
    return 1
  | .ok one =>
    match ← (parseAddr (args.getD 3 []) : Exec _) with
    | .error e => do
      Cli.eprint (.derangeSecond e)
      return 1
    | .ok other =>
      if one.version ≠ other.version then
        Cli.eprint .derangeVersion
        return 1
      else
        match one, other with
        | .ipv4 a, .ipv4 b => do
          let subnets ← (rangeToSubnetsE k rt.profile a b : Exec (List (Net V4)))
          printNets subnets
          return 0
        | .ipv6 a, .ipv6 b => do
          let subnets ← (@rangeToSubnetsE V6 v6E k rt.profile a b : Exec (List (Net V6)))
          printNets subnets
          return 0
        | _, _ => return 0

theorem derangeE_approx (k : Nat) (rt : Runtime) (args : List Str) : ApproxC (derangeE k rt args) (derange rt args) := by
  unfold derangeE derange
  split
  · exact .refl _
  refine .bind (.refl _) fun r => ?_
  cases r with
  | error e => exact .refl _
  | ok one =>
    refine .bind (.refl _) fun r => ?_
    cases r with
    | error e => exact .refl _
    | ok other =>
      dsimp only
      split
      · exact .refl _
      · cases one <;> cases other
        · exact .bind (.lift (rangeToSubnetsE_approx _ _ _ _)) fun _ => .refl _
        · exact .refl _
        · exact .refl _
        · rw [← v6E_eq]
          exact .bind (.lift (rangeToSubnetsE_approx _ _ _ _)) fun _ => .refl _

def minimizeE (k : Nat) (rt : Runtime) (args : List Str) : Cli Nat := do
  if args.length < 3 then
    Cli.eprint .usage
    return 1
  match ← (parseSameFamilyNetspecs (args.drop 2) : Exec _) with
  | .ok .nothing => return 0
  | .ok .mixedSpecs => do
    Cli.eprint .mixed
    return 1
  | .ok (.ipv4 l) => do
    let minimized ← (minimizeSubnetsE k rt (l.map (·.2)) : Exec (List (Net V4)))
    printNets minimized
    return 0
  | .ok (.ipv6 l) => do
    let minimized ← (@minimizeSubnetsE V6 v6E k rt (l.map (·.2)) : Exec (List (Net V6)))
    printNets minimized
    return 0
  | .error e => do
    Cli.eprint (.minimizeParse e)
    return 1

theorem minimizeE_approx (k : Nat) (rt : Runtime) (args : List Str) : ApproxC (minimizeE k rt args) (minimize rt args) := by
  unfold minimizeE minimize
  split
  · exact .refl _
  refine .bind (.refl _) fun r => ?_
  rcases r with e | ⟨_ | _ | _ | _⟩
  · exact .refl _
  all_goals first
    | exact .refl _
    | exact .bind (.lift (minimizeSubnetsE_approx _ _ _)) fun _ => .refl _
    | (rw [← v6E_eq]; exact .bind (.lift (minimizeSubnetsE_approx _ _ _)) fun _ => .refl _)

def enumerateLoopE (k : Nat) (rt : Runtime) : Nat → List Str → Cli Nat
  | ret, [] => pure ret
  | ret, s :: rest => do
    match ← (parseNetspec s : Exec _) with
    | .error e => do
      Cli.eprint (.enumerateNet s e)
      enumerateLoopE k rt 1 rest
    | .ok (.ipv4 _ net) => do
      printNetE k rt.profile net
      enumerateLoopE k rt ret rest
    | .ok (.ipv6 _ net) => do
      @printNetE V6 v6E k rt.profile net
      enumerateLoopE k rt ret rest

theorem enumerateLoopE_approx (k : Nat) (rt : Runtime) (ret : Nat) (l : List Str) :
    ApproxC (enumerateLoopE k rt ret l) (enumerateLoop rt ret l) := by
  induction l generalizing ret with
  | nil => exact .refl _
  | cons s l ih =>
    unfold enumerateLoopE enumerateLoop
    refine .bind (.refl _) fun r => ?_
    rcases r with e | ⟨_ | _⟩
    · exact .bind (.refl _) fun _ => ih _
    · exact .bind (printNetE_approx _ _ _) fun _ => ih _
    · rw [← v6E_eq]
      exact .bind (printNetE_approx _ _ _) fun _ => ih _

def enumerateE (k : Nat) (rt : Runtime) (args : List Str) : Cli Nat := do
  if args.length < 3 then
    Cli.eprint .usage
    return 1
  enumerateLoopE k rt 0 (args.drop 2)

theorem enumerateE_approx (k : Nat) (rt : Runtime) (args : List Str) : ApproxC (enumerateE k rt args) (enumerate rt args) := by
  unfold enumerateE enumerate
  split
  · exact .refl _
  · exact enumerateLoopE_approx _ _ _ _

def resizeE (k : Nat) (rt : Runtime) (args : List Str) : Cli Nat := do
  if args.length ≠ 4 then
    Cli.eprint .usage
    return 1
  match ← (parseNetspec (args.getD 2 []) : Exec _) with
  | .error e => do
    Cli.eprint (.resizeNet (args.getD 2 []) e)
    return 1
  | .ok (.ipv4 _ net) =>
    match ← (resizeMask4 (args.getD 3 []) : Exec _) with
    | .error m => do
      Cli.eprint m
      return 1
    | .ok mask => do
      resizeAndOutputE k rt net mask (outputIpv4Network rt)
      return 0
  | .ok (.ipv6 _ net) =>
    match ← (resizeMask6 (args.getD 3 []) : Exec _) with
    | .error m => do
      Cli.eprint m
      return 1
    | .ok mask => do
      @resizeAndOutputE V6 v6E k rt net mask (outputIpv6NetworkE rt)
      return 0

theorem resizeE_approx (k : Nat) (rt : Runtime) (args : List Str) : ApproxC (resizeE k rt args) (resize rt args) := by
  unfold resizeE resize
  split
  · exact .refl _
  refine .bind (.refl _) fun r => ?_
  rcases r with e | ⟨_ | _⟩
  · exact .refl _
  · refine .bind (.refl _) fun r => ?_
    cases r with
    | error m => exact .refl _
    | ok mask => exact .bind (resizeAndOutputE_approx _ _ _ _ _) fun _ => .refl _
  · refine .bind (.refl _) fun r => ?_
    cases r with
    | error m => exact .refl _
    | ok mask =>
      rw [← v6E_eq, outputIpv6NetworkE_eq]
      exact .bind (resizeAndOutputE_approx _ _ _ _ _) fun _ => .refl _

def splitE (k : Nat) (rt : Runtime) (args : List Str) : Cli Nat := do
  if args.length < 4 then
    Cli.eprint .usage
    return 1
  match parseHostCounts (args.drop 3) with
  | .error m => do
    Cli.eprint m
    return 1
  | .ok hostCounts =>
    match ← (parseNetspec (args.getD 2 []) : Exec _) with
    | .error e => do
      Cli.eprint (.splitNet (args.getD 2 []) e)
      return 1
    | .ok (.ipv4 _ net) => outputSplitE k rt net hostCounts (outputIpv4Network rt)
    | .ok (.ipv6 _ net) => @outputSplitE V6 v6E k rt net hostCounts (outputIpv6NetworkE rt)

theorem splitE_approx (k : Nat) (rt : Runtime) (args : List Str) : ApproxC (splitE k rt args) (split rt args) := by
  unfold splitE split
  split
  · exact .refl _
  cases parseHostCounts (args.drop 3) with
  | error m => exact .refl _
  | ok hcs =>
    refine .bind (.refl _) fun r => ?_
    rcases r with e | ⟨_ | _⟩
    · exact .refl _
    · exact outputSplitE_approx _ _ _ _ _
    · rw [← v6E_eq, outputIpv6NetworkE_eq]
      exact outputSplitE_approx _ _ _ _ _

def showPrintLoopE (rt : Runtime) : Bool → List NetworkSpec → Cli Unit
  | _, [] => pure ()
  | isFirst, spec :: rest => do
    if !isFirst then Cli.println []
    match spec with
    | .ipv4 a n => outputIpv4Network rt n (some a)
    | .ipv6 a n => outputIpv6NetworkE rt n (some a)
    showPrintLoopE rt false rest

theorem showPrintLoopE_eq (rt : Runtime) (first : Bool) (l : List NetworkSpec) :
    showPrintLoopE rt first l = showPrintLoop rt first l := by
  induction l generalizing first with
  | nil => rfl
  | cons s l ih => unfold showPrintLoopE showPrintLoop; rw [outputIpv6NetworkE_eq, ih]; cases s <;> rfl

def showNetE (rt : Runtime) (args : List Str) : Cli Nat := do
  match ← (showParseLoop (args.drop 1) : Exec _) with
  | .error e => do
    Cli.eprint (.showParse e)
    pure 1
  | .ok specs => do
    showPrintLoopE rt true specs
    pure 0

theorem showNetE_eq (rt : Runtime) (args : List Str) : showNetE rt args = showNet rt args := by
  unfold showNetE showNet
  simp only [showPrintLoopE_eq]
  rfl

def doMainE (k : Nat) (rt : Runtime) (args : List Str) : Cli Nat := do
  if args.length < 2 then
    Cli.eprint .usage
    return 1
  let mode := args.getD 1 []
  if mode = "-m".toList ∨ mode = "--minimize".toList then minimizeE k rt args
  else if mode = "-d".toList ∨ mode = "--derange".toList then derangeE k rt args
  else if mode = "-s".toList ∨ mode = "--split".toList then splitE k rt args
  else if mode = "-r".toList ∨ mode = "--resize".toList then resizeE k rt args
  else if mode = "-e".toList ∨ mode = "--enumerate".toList then enumerateE k rt args
  else if mode = "--color-test".toList then do
    colorTest rt
    return 0
  else if mode = "--help".toList then do
    Cli.eprint .usage
    return 0
  else showNetE rt args

theorem doMainE_approx (k : Nat) (rt : Runtime) (args : List Str) : ApproxC (doMainE k rt args) (doMain rt args) := by
  unfold doMainE doMain
  split
  · exact .refl _
  dsimp only
  split
  · exact minimizeE_approx _ _ _
  split
  · exact derangeE_approx _ _ _
  split
  · exact splitE_approx _ _ _
  split
  · exact resizeE_approx _ _ _
  split
  · exact enumerateE_approx _ _ _
  split
  · exact .refl _
  split
  · exact .refl _
  · rw [showNetE_eq]; exact .refl _

end Ripcalc.Conformance
