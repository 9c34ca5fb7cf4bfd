import Verif.Spec.Output
import Verif.Spec.Text
/-!
# Vocabulary: whole lines
-/
namespace Ripcalc

/-- Nothing, or lines each of which has its line end. -/
def WholeLines (t : Str) : Prop := ∃ lines : List Str, t = lines.flatMap (· ++ ['\n'])

/-- The network has at most two addresses. -/
def AtMostTwo [AddrSpec A] (n : Net A) : Prop := ∃ a b, ∀ x, Member n x → x = a ∨ x = b

/-- The network of an argument has at most two addresses. -/
def NetworkSpec.AtMostTwo : NetworkSpec → Prop
  | .ipv4 _ n => Ripcalc.AtMostTwo n
  | .ipv6 _ n => Ripcalc.AtMostTwo n

/-- The runs whose output does not end with a line end: colours are enabled and it is the colour test, or the display of networks
the last of which has at most two addresses. -/
def OpenEnd (colors : Bool) (args : List Str) : Prop :=
  colors = true ∧ ∃ prog mode rest, args = prog :: mode :: rest ∧
    (mode = "--color-test".toList ∨
     mode ∉ ["-m", "--minimize", "-d", "--derange", "-s", "--split", "-r", "--resize", "-e", "--enumerate", "--color-test",
      "--help"].map String.toList ∧
     ∃ specs last, Pointwise (fun s x => parseNetspec s = .ok (.ok x)) (mode :: rest) (specs ++ [last]) ∧ last.AtMostTwo)

end Ripcalc
