import Verif.Spec.Alike
import Verif.Spec.Program
/-!
# The characters of arguments
-/
namespace Ripcalc

/-- Only characters of the list. -/
def MadeOf (cs : String) (s : Str) : Prop := ∀ c ∈ s, c ∈ cs.toList

/-- Exactly these characters occur in texts with the property. -/
def Alphabet (P : Str → Prop) (cs : String) : Prop := ∀ c, (∃ s, P s ∧ c ∈ s) ↔ c ∈ cs.toList

end Ripcalc
