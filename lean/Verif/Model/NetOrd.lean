import Verif.Model.Net
/-!
# Model of the derived order of `IpNetwork`, `/repo/src/net.rs:9-14`
-/
namespace Ripcalc
variable {A : Type} [IpAddr A]

/-- `Ord::cmp` of addresses, derived at `src/addr.rs:50` and `src/addr.rs:195`, given by the derived `<=`. -/
def addrCmp (a b : A) : Ordering := if a = b then .eq else if IpAddr.le a b then .lt else .gt

/-- The derived `Ord::cmp` of `Option<usize>`: `None` first. -/
def prefixCmp : Option Nat → Option Nat → Ordering
  | none, none => .eq
  | none, some _ => .lt
  | some _, none => .gt
  | some p, some q => compare p q

/-- The derived `Ord::cmp` of `IpNetwork`: the fields in the order in which they are declared, `src/net.rs:9-14`. -/
def Net.cmp (n o : Net A) : Ordering :=
  match addrCmp n.baseAddr o.baseAddr with
  | .eq =>
    match addrCmp n.subnetMask o.subnetMask with
    | .eq => prefixCmp n.cidrPrefix o.cidrPrefix
    | r => r
  | r => r

end Ripcalc
