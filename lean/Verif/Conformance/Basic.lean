import Verif.Conformance.Eval
import Verif.Model.Messages
import Verif.Spec.Listing
import Verif.Spec.Output
import Verif.Proofs.Enumerate
import Verif.Props.Minimize
/-!
# Helpers of the unit tests of `/repo`

`/repo/src/net.rs:264-289`; `unwrap`/`expect` on an error would give `0.0.0.0`, `::` or a network with an impossible prefix
here, so that the test does not hold by accident.
-/
namespace Ripcalc.Conformance
open Ripcalc

/-- `parse_ipv4`. -/
def ip4 (s : Str) : V4 :=
  match V4.parse s with
  | .ok a => a
  | _ => ⟨0⟩

/-- `parse_ipv6`. -/
def ip6 (s : Str) : V6 :=
  match V6.parse s with
  | .ok (.ok a) => a
  | _ => ⟨0, 0⟩

/-- `parse_ipv4net`. -/
def net4 (s : Str) (p : Nat) : Net V4 :=
  match Net.newWithPrefixStrict (ip4 s) p with
  | .ok (some n) => n
  | _ => ⟨⟨0⟩, ⟨0⟩, some 1000⟩

/-- `parse_ipv6net`. -/
def net6 (s : Str) (p : Nat) : Net V6 :=
  match Net.newWithPrefixStrict (ip6 s) p with
  | .ok (some n) => n
  | _ => ⟨⟨0, 0⟩, ⟨0, 0⟩, some 1000⟩

/-- `parse_ipv4netm`. -/
def netm4 (s m : Str) : Net V4 :=
  match Net.newWithMaskStrict (ip4 s) (ip4 m) with
  | some n => n
  | _ => ⟨⟨0⟩, ⟨0⟩, some 1000⟩

/-- `parse_ipv6netm`. -/
def netm6 (s m : Str) : Net V6 :=
  match Net.newWithMaskStrict (ip6 s) (ip6 m) with
  | some n => n
  | _ => ⟨⟨0, 0⟩, ⟨0, 0⟩, some 1000⟩

/-- `net.contains(&x.unwrap())`. -/
def containsE [IpAddr A] (n : Net A) (x : Exec (Option A)) : Exec Bool := do
  let a ← Exec.unwrap (← x)
  pure (n.contains a)

/-- The computation returns a value with the property. -/
def Holds (x : Exec α) (P : α → Prop) : Prop :=
  match x with
  | .ok a => P a
  | _ => False

instance (x : Exec α) (P : α → Prop) [∀ a, Decidable (P a)] : Decidable (Holds x P) :=
  match x with
  | .ok a => inferInstanceAs (Decidable (P a))
  | .panic _ => .isFalse id
  | .diverge => .isFalse id

theorem holdsOf {x : Exec α} {P : α → Prop} (h : Holds x P) : ∃ a, x = .ok a ∧ P a := by
  cases x with
  | ok a => exact ⟨a, rfl, h⟩
  | panic _ => exact h.elim
  | diverge => exact h.elim

/-- A text without trailing blanks. -/
def trimEnd (s : Str) : Str := (s.reverse.dropWhile (· == ' ')).reverse

/-- The program ends with this exit code, writes nothing to standard error, and these lines are visible on standard
output. -/
def ShowsLines (x : Cli Nat) (code : Nat) (lines : List Str) : Prop :=
  x.res = .ok code ∧ messages x.out = [] ∧ (splitChar '\n' (visible x.out)).map trimEnd = lines

instance (x : Cli Nat) (code : Nat) (lines : List Str) : Decidable (ShowsLines x code lines) :=
  inferInstanceAs (Decidable (_ ∧ _ ∧ _))

theorem ApproxC.shows {x y : Cli Nat} {code : Nat} {lines : List Str} (h : ApproxC x y) (hx : ShowsLines x code lines) :
    ShowsLines y code lines := by
  rcases h with h | rfl
  · exact absurd (hx.1.symm.trans h) (by intro h; cases h)
  · exact hx

end Ripcalc.Conformance
