import Verif.Spec.Listing
import Verif.Spec.Basic
import Verif.Model.Derange
/-!
# Vocabulary for C120: what is left of a network when another is taken out of it
-/
namespace Ripcalc
open AddrSpec

variable {A : Type} [IpAddr A] [AddrSpec A]

/-- The address is in the network but not in the one taken out of it. -/
def Rest (n x : Net A) (a : A) : Prop := Member n a ∧ ¬ Member x a

/-- The part of the rest before the network taken out. -/
def RestBefore (n x : Net A) (a : A) : Prop := Member n a ∧ ∀ b, Member x b → val a < val b

/-- The part of the rest behind the network taken out. -/
def RestBehind (n x : Net A) (a : A) : Prop := Member n a ∧ ∀ b, Member x b → val b < val a

/-- The networks have the prefix lengths from `p + 1` to `q`, every one once. -/
def EachOnce (p q : Nat) (l : List (Net A)) : Prop :=
  (∀ n ∈ l, ∃ k, IsCidr k n) ∧ (l.map (·.cidrPrefix)).Perm ((List.range (q - p)).map (fun i => some (p + 1 + i)))

/-- The list for the range of the addresses with a property: no network if there are none, otherwise what the conversion of the
range from the first to the last returns. -/
def ListFor (pr : Profile) (P : A → Prop) (l : List (Net A)) : Prop :=
  ((∀ a, ¬ P a) ∧ l = []) ∨
  ∃ a b, (∀ y, P y ↔ min (val a) (val b) ≤ val y ∧ val y ≤ max (val a) (val b)) ∧ rangeToSubnets pr a b = .ok l

end Ripcalc
