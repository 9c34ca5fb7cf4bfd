import Verif.Spec.Listing
/-!
# Vocabulary: renaming addresses without changing which of them are close to each other
-/
namespace Ripcalc
open AddrSpec

/-- Two addresses are equal without their last `k` bits exactly if the renamed addresses are.  (Such renamings are used to make
addresses in logs anonymous.) -/
def KeepsPrefixes {A : Type} [AddrSpec A] (f : A → A) : Prop :=
  ∀ (a b : A) (k : Nat), val a / 2 ^ k = val b / 2 ^ k ↔ val (f a) / 2 ^ k = val (f b) / 2 ^ k

/-- The addresses of `m` are the renamed addresses of `n`. -/
def Renamed {A : Type} [AddrSpec A] (f : A → A) (n m : Net A) : Prop := ∀ b, Member m b ↔ ∃ a, Member n a ∧ f a = b

end Ripcalc
