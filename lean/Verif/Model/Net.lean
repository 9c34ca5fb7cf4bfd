import Verif.Model.BitManip
/-!
# Model of `/repo/src/net.rs`
-/
namespace Ripcalc

/-- `struct IpNetwork`, `src/net.rs:9-14`; the fields are also its accessors `base_addr`, `subnet_mask` and `cidr_prefix`,
`src/net.rs:77-85`. -/
structure Net (A : Type) where
  baseAddr : A
  subnetMask : A
  cidrPrefix : Option Nat
  deriving DecidableEq, Repr

namespace Net
variable {A : Type} [IpAddr A]

/-- `IpNetwork::new_with_mask`, `src/net.rs:18-30`. -/
def newWithMask (addr subnetMask : A) : Net A :=
  { baseAddr := IpAddr.and addr subnetMask
    subnetMask := subnetMask
    cidrPrefix := prefixFromSubnetMaskBytes (IpAddr.toBytes subnetMask) }

/-- `IpNetwork::new_with_prefix`, `src/net.rs:33-47`. -/
def newWithPrefix (addr : A) (cidrPrefix : Nat) : Exec (Net A) := do
  let maskBytes := subnetMaskBytesFromPrefix cidrPrefix (IpAddr.byteCount addr)
  let subnetMask : A ← Exec.unwrap (IpAddr.fromBytes maskBytes)
  pure { baseAddr := IpAddr.and addr subnetMask, subnetMask := subnetMask, cidrPrefix := some cidrPrefix }

/-- `IpNetwork::new_with_mask_strict`, `src/net.rs:51-61`. -/
def newWithMaskStrict (addr subnetMask : A) : Option (Net A) :=
  let net := newWithMask addr subnetMask
  if net.baseAddr = addr then some net else none

/-- `IpNetwork::new_with_prefix_strict`, `src/net.rs:65-75`. -/
def newWithPrefixStrict (addr : A) (cidrPrefix : Nat) : Exec (Option (Net A)) := do
  let net ← newWithPrefix addr cidrPrefix
  pure (if net.baseAddr = addr then some net else none)

/-- `IpNetwork::cisco_wildcard`, `src/net.rs:88-90`. -/
def ciscoWildcard (n : Net A) : A := IpAddr.negate n.subnetMask

/-- `IpNetwork::address_count`, `src/net.rs:94-103`: one doubling per one bit of each wildcard byte. -/
def addressCount (n : Net A) : Nat :=
  (IpAddr.toBytes n.ciscoWildcard).foldl
    (fun ret b => (List.range (popcount b)).foldl (fun r _ => r * 2) ret) 1

/-- `IpNetwork::host_count`, `src/net.rs:107-110` (a `BigInt`). -/
def hostCount (n : Net A) : Int := (n.addressCount : Int) - 2

/-- `host_bits_available`, computed identically in `src/net.rs:115-118,135-138,160-163,187-190`. -/
def hostBitsAvailable (n : Net A) : Nat := ((IpAddr.toBytes n.ciscoWildcard).map popcount).sum

/-- `host_count_address`, computed identically in `src/net.rs:146-152,172-178,192-198`.  The `usize` subtraction cannot
underflow: each of the `len` bytes contributes at most 8 host bits. -/
def hostCountAddress (n : Net A) : Exec A := do
  let hcaBytes := subnetMaskBytesFromPrefix ((IpAddr.toBytes n.baseAddr).length * 8 - n.hostBitsAvailable)
    (IpAddr.byteCount n.baseAddr)
  let m : A ← Exec.unwrap (IpAddr.fromBytes hcaBytes)
  pure (IpAddr.negate m)

/-- `IpNetwork::first_host_addr`, `src/net.rs:114-130`. -/
def firstHostAddr (pr : Profile) (n : Net A) : Exec (Option A) :=
  if n.hostBitsAvailable < 2 then pure none
  else do
    let unraveledBase ← unravelAddress n.baseAddr n.subnetMask
    match ← IpAddr.addOffset pr unraveledBase 1 with
    | none => pure none
    | some unraveledFirstHost => some <$> weaveAddress unraveledFirstHost n.subnetMask

/-- `IpNetwork::broadcast_addr`, `src/net.rs:134-155`. -/
def broadcastAddr (n : Net A) : Exec (Option A) :=
  if n.hostBitsAvailable < 1 then pure none
  else do
    let unraveledBase ← unravelAddress n.baseAddr n.subnetMask
    let hostCountAddr ← n.hostCountAddress
    match IpAddr.addAddr unraveledBase hostCountAddr with
    | none => pure none
    | some unraveledBroadcast => some <$> weaveAddress unraveledBroadcast n.subnetMask

/-- `IpNetwork::last_host_addr`, `src/net.rs:159-182`. -/
def lastHostAddr (pr : Profile) (n : Net A) : Exec (Option A) :=
  if n.hostBitsAvailable < 2 then pure none
  else do
    let unraveledBase ← unravelAddress n.baseAddr n.subnetMask
    let hostCountAddr ← n.hostCountAddress
    match IpAddr.addAddr unraveledBase hostCountAddr with
    | none => pure none
    | some unraveledBroadcast =>
      match ← IpAddr.subtractOffset pr unraveledBroadcast 1 with
      | none => pure none
      | some unraveledLastHost => some <$> weaveAddress unraveledLastHost n.subnetMask

/-- `IpNetwork::next_subnet_base_addr`, `src/net.rs:186-202`. -/
def nextSubnetBaseAddr (pr : Profile) (n : Net A) : Exec (Option A) := do
  let unraveledBase ← unravelAddress n.baseAddr n.subnetMask
  let hostCountAddr ← n.hostCountAddress
  match IpAddr.addAddr unraveledBase hostCountAddr with
  | none => pure none
  | some unraveledBroadcast =>
    match ← IpAddr.addOffset pr unraveledBroadcast 1 with
    | none => pure none
    | some unraveledNextBase => some <$> weaveAddress unraveledNextBase n.subnetMask

/-- `IpNetwork::last_addr_of_subnet`, `src/net.rs:206-208`. -/
def lastAddrOfSubnet (n : Net A) : Exec A := do
  pure ((← n.broadcastAddr).getD n.baseAddr)

/-- `IpNetwork::contains`, `src/net.rs:211-213`. -/
def contains (n : Net A) (addr : A) : Bool := decide (IpAddr.and addr n.subnetMask = n.baseAddr)

/-- `IpNetwork::is_superset_of`, `src/net.rs:217-225`. -/
def isSupersetOf (n other : Net A) : Bool :=
  decide (IpAddr.and other.baseAddr n.subnetMask = n.baseAddr) &&
  decide (IpAddr.and other.subnetMask n.subnetMask = n.subnetMask)

/-- `IpNetwork::is_subset_of`, `src/net.rs:229-231`. -/
def isSubsetOf (n other : Net A) : Bool := other.isSupersetOf n

/-- `IpNetwork::intersects`, `src/net.rs:235-243`. -/
def intersects (n other : Net A) : Exec Bool := do
  let selfFirst := n.baseAddr
  let selfLast ← n.lastAddrOfSubnet
  let otherFirst := other.baseAddr
  let otherLast ← other.lastAddrOfSubnet
  pure (IpAddr.le selfFirst otherLast && IpAddr.le otherFirst selfLast)

/-- `Display for IpNetwork`, `src/net.rs:245-253`. -/
def display (n : Net A) : Str :=
  match n.cidrPrefix with
  | some pfx => IpAddr.display n.baseAddr ++ ['/'] ++ showNat 10 pfx
  | none => IpAddr.display n.baseAddr ++ ['/'] ++ IpAddr.display n.subnetMask

end Net
end Ripcalc
