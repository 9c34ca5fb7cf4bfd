import Verif.Model.Runtime
import Verif.Model.Parse
/-!
# Output events, and the model of `/repo/src/console.rs`
-/
namespace Ripcalc

/-- What is written to standard error: the constructor tells which message it is.  `Model/Messages.lean` gives the
wording. -/
inductive ErrMsg where
  /-- `usage()`, `src/main.rs:30-45` -/
  | usage
  /-- `src/cmds/show_net.rs:28` -/
  | showParse (e : NetspecErr)
  /-- `src/cmds/minimize.rs:22` -/
  | mixed
  /-- `src/cmds/minimize.rs:46` -/
  | minimizeParse (e : NetspecErr)
  /-- `src/cmds/derange.rs:19` -/
  | derangeFirst (e : AddrErr)
  /-- `src/cmds/derange.rs:26` -/
  | derangeSecond (e : AddrErr)
  /-- `src/cmds/derange.rs:32` -/
  | derangeVersion
  /-- `src/cmds/resize.rs:22` -/
  | resizeNet (spec : Str) (e : NetspecErr)
  /-- `src/cmds/resize.rs:28,53` -/
  | resizeSubnet (spec : Str) (e : NetspecErr)
  /-- `src/cmds/resize.rs:33` -/
  | resizeRangeV4 (got : Nat)
  /-- `src/cmds/resize.rs:58` -/
  | resizeRangeV6 (got : Nat)
  /-- `src/cmds/resize.rs:43` -/
  | resizeV4ToV6
  /-- `src/cmds/resize.rs:68` -/
  | resizeV6ToV4
  /-- `src/cmds/split.rs:27` -/
  | splitCount (s : Str)
  /-- `src/cmds/split.rs:32` -/
  | splitNegative
  /-- `src/cmds/split.rs:40` -/
  | splitNet (spec : Str) (e : NetspecErr)
  /-- `src/cmds/enumerate.rs:62` -/
  | enumerateNet (spec : Str) (e : NetspecErr)
  deriving DecidableEq, Repr

/-- One observable output event. -/
inductive OutEv where
  /-- `print!`/`println!` of plain text (`println!` includes the newline) -/
  | out (s : Str)
  /-- `print!` of text styled with a colour: the visible characters are `s` -/
  | styled (c : Color) (s : Str)
  /-- a message on standard error -/
  | err (m : ErrMsg)
  deriving DecidableEq, Repr

/-- A computation with output: events in order, then how it ended.  Output before a panic is kept. -/
structure Cli (α : Type) where
  out : List OutEv
  res : Exec α
  deriving DecidableEq, Repr

namespace Cli

def bind (x : Cli α) (f : α → Cli β) : Cli β :=
  match x.res with
  | .ok a => ⟨x.out ++ (f a).out, (f a).res⟩
  | .panic p => ⟨x.out, .panic p⟩
  | .diverge => ⟨x.out, .diverge⟩

instance : Monad Cli where
  pure a := ⟨[], .ok a⟩
  bind := bind

/-- Runs a computation without output. -/
def lift (x : Exec α) : Cli α := ⟨[], x⟩

instance : MonadLift Exec Cli := ⟨lift⟩

def emit (e : OutEv) : Cli Unit := ⟨[e], .ok ()⟩

/-- `println!("{}", s)`. -/
def println (s : Str) : Cli Unit := emit (.out (s ++ ['\n']))

/-- `eprintln!(...)`. -/
def eprint (m : ErrMsg) : Cli Unit := emit (.err m)

/-- One round of a loop whose body writes output: the state and the output so far; a panic of the body ends the loop. -/
def loopStep (step : σ → Cli (σ ⊕ ρ)) (p : σ × List OutEv) : Exec ((σ × List OutEv) ⊕ (List OutEv × Exec ρ)) :=
  match step p.1 with
  | ⟨o, .ok (.inl s)⟩ => .ok (.inl (s, p.2 ++ o))
  | ⟨o, .ok (.inr r)⟩ => .ok (.inr (p.2 ++ o, .ok r))
  | ⟨o, .panic q⟩ => .ok (.inr (p.2 ++ o, .panic q))
  | ⟨o, .diverge⟩ => .ok (.inr (p.2 ++ o, .diverge))

/-- A loop whose body writes output.  The output of a loop that does not end is not kept (no loop with output is such a loop). -/
def loop (step : σ → Cli (σ ⊕ ρ)) (s : σ) : Cli ρ :=
  match loopM (loopStep step) (s, []) with
  | .ok (o, r) => ⟨o, r⟩
  | .panic q => ⟨[], .panic q⟩
  | .diverge => ⟨[], .diverge⟩

end Cli

/-- The padding part of `write_in_color`, `src/console.rs:31-51`.  All texts passed are ASCII, so the byte length is the
number of characters. -/
def padText (text : Str) (padTo : Int) : Str :=
  let len : Int := text.length
  if padTo > 0 then
    if padTo > len then text ++ List.replicate (padTo - len).toNat ' ' else text
  else if padTo < 0 then
    if padTo < -len then List.replicate ((-padTo) - len).toNat ' ' ++ text else text
  else text

/-- `write_in_color`, `src/console.rs:29-82`.  The feature `console` is on (a default feature). -/
def writeInColor (rt : Runtime) (text : Str) (color : Option Color) (padTo : Int) : Cli Unit :=
  let padded := padText text padTo
  if rt.colorsEnabled then
    match color with
    | some clr => Cli.emit (.styled clr padded)
    | none => Cli.println padded
  else Cli.println padded

end Ripcalc
