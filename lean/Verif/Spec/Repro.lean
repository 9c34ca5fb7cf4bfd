import Verif.Spec.Text
import Verif.Spec.Listing
import Verif.Spec.Output
import Verif.Model.Parse
/-!
# Vocabulary: what the output depends on
-/
namespace Ripcalc
open AddrSpec

/-- The two addresses after the mode are the least and the greatest address of a family, in either order. -/
def WholeRange (args : List Str) : Prop :=
  ∃ prog mode u v, args = [prog, mode, u, v] ∧
    ((∃ a b : V4, parseAddr u = .ok (.ok (.ipv4 a)) ∧ parseAddr v = .ok (.ok (.ipv4 b)) ∧
        min (val a) (val b) = 0 ∧ max (val a) (val b) = 2 ^ 32 - 1) ∨
     (∃ a b : V6, parseAddr u = .ok (.ok (.ipv6 a)) ∧ parseAddr v = .ok (.ok (.ipv6 b)) ∧
        min (val a) (val b) = 0 ∧ max (val a) (val b) = 2 ^ 128 - 1))

/-- Blocks of addresses for these numbers of hosts, laid out from `base` rounded down to the size of the largest, end before the
end of an address space with `w` bits. -/
def Fits (w base : Nat) (hcs : List Int) : Prop :=
  ∃ es E, Pointwise HostBitsFor hcs es ∧ (∀ e ∈ es, e ≤ E) ∧ E ∈ es ∧ base / 2 ^ E * 2 ^ E + (es.map (fun e => 2 ^ e)).sum < 2 ^ w

/-- The outputs agree except that blocks with the same first event have changed places; both runs end alike. -/
def Reordered (x y : Cli α) : Prop :=
  ∃ pre post bs bs' res, x = ⟨pre ++ bs.flatten ++ post, res⟩ ∧ y = ⟨pre ++ bs'.flatten ++ post, res⟩ ∧ bs.Perm bs' ∧
    Pointwise (fun b b' => b.head? = b'.head?) bs bs'

end Ripcalc
