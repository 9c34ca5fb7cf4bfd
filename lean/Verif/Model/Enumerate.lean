import Verif.Model.Output
/-!
# Model of `/repo/src/cmds/enumerate.rs`
-/
namespace Ripcalc
variable {A : Type} [IpAddr A]

/-- `struct NetworkIter`, `src/cmds/enumerate.rs:10-15`. -/
structure NetworkIter (A : Type) where
  isEmpty : Bool
  unraveledAddr : A
  lastUnraveledAddr : A
  subnetMask : A
  deriving DecidableEq, Repr

/-- `NetworkIter::new`, `src/cmds/enumerate.rs:17-26`. -/
def NetworkIter.new (network : Net A) : Exec (NetworkIter A) := do
  let unraveledAddr ← unravelAddress network.baseAddr network.subnetMask
  let last ← network.lastAddrOfSubnet
  let lastUnraveledAddr ← unravelAddress last network.subnetMask
  pure ⟨false, unraveledAddr, lastUnraveledAddr, network.subnetMask⟩

/-- `NetworkIter::next`, `src/cmds/enumerate.rs:31-48`: the item and the new iterator. -/
def NetworkIter.next (pr : Profile) (it : NetworkIter A) : Exec (Option A × NetworkIter A) :=
  if it.isEmpty then pure (none, it)
  else if !IpAddr.le it.unraveledAddr it.lastUnraveledAddr then pure (none, it)
  else do
    let wovenAddr ← weaveAddress it.unraveledAddr it.subnetMask
    match ← IpAddr.addOffset pr it.unraveledAddr 1 with
    | some nextAddr => pure (some wovenAddr, { it with unraveledAddr := nextAddr })
    | none => pure (some wovenAddr, { it with isEmpty := true })

/-- One round of `iterator.collect()`; the addresses so far are kept. -/
def enumStep (pr : Profile) (s : NetworkIter A × List A) : Exec ((NetworkIter A × List A) ⊕ List A) := do
  match ← s.1.next pr with
  | (some a, it) => pure (.inl (it, s.2 ++ [a]))
  | (none, _) => pure (.inr s.2)

/-- All addresses of `NetworkIter::new(net).collect()`.  Not used by the program, which prints them one by one (`printNet`); it
serves to state what the iterator yields, as the tests of `src/cmds/enumerate.rs:85-171` do. -/
def enumerateNet (pr : Profile) (net : Net A) : Exec (List A) := do
  let it ← NetworkIter.new net
  loopM (enumStep pr) (it, [])

/-- One round of `for addr in iterator { println!("{}", addr); }`, `src/cmds/enumerate.rs:66-68,72-74`. -/
def printStep (pr : Profile) (it : NetworkIter A) : Cli (NetworkIter A ⊕ Unit) := do
  match ← (it.next pr : Exec _) with
  | (some a, it) => do
    Cli.println (IpAddr.display a)
    pure (.inl it)
  | (none, _) => pure (.inr ())

/-- `let iterator = NetworkIter::new(net); for addr in iterator { ... }`, `src/cmds/enumerate.rs:65-68,71-74`. -/
def printNet (pr : Profile) (net : Net A) : Cli Unit := do
  let it ← (NetworkIter.new net : Exec _)
  Cli.loop (printStep pr) it

/-- The argument loop of `enumerate`, `src/cmds/enumerate.rs:58-80`; `ret` as in the source. -/
def enumerateLoop (rt : Runtime) : Nat → List Str → Cli Nat
  | ret, [] => pure ret
  | ret, s :: rest => do
    match ← (parseNetspec s : Exec _) with
    | .error e => do
      Cli.eprint (.enumerateNet s e)
      enumerateLoop rt 1 rest
    | .ok (.ipv4 _ net) => do
      printNet rt.profile net
      enumerateLoop rt ret rest
    | .ok (.ipv6 _ net) => do
      printNet rt.profile net
      enumerateLoop rt ret rest

/-- `enumerate`, `src/cmds/enumerate.rs:51-81`. -/
def enumerate (rt : Runtime) (args : List Str) : Cli Nat := do
  if args.length < 3 then
    Cli.eprint .usage
    return 1
  enumerateLoop rt 0 (args.drop 2)

end Ripcalc
