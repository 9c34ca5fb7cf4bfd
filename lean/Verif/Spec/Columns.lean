import Verif.Spec.Output
import Verif.Spec.Text
/-!
# Vocabulary: lines and columns
-/
namespace Ripcalc

/-- One of the lines of a text: it stands between line ends, or between the beginning or the end of the text and a line end.  At
the end of the text a line without line end counts only if there is something in it. -/
def IsLine (t line : Str) : Prop :=
  '\n' ∉ line ∧ ∃ pre post, t = pre ++ line ++ post ∧ (pre = [] ∨ ∃ p, pre = p ++ ['\n']) ∧
    ((post = [] ∧ line ≠ []) ∨ ∃ q, post = '\n' :: q)

/-- The first column of a display. -/
def columnLabels : List Str :=
  ["Address:", "Netmask:", "Wildcard:", "Network:", "HostMin:", "HostMax:", "Broadcast:", "Hosts/Net:"].map String.toList

/-- The lines of a display that have no columns. -/
def remarks : List Str := ["=>", "no hosts", "no broadcast", "no hosts/net"].map String.toList

/-- The line has three columns, which begin at the places 0, 11 and 11 + `aw`.  Before the second and the third there is at least
one blank; the first is a label; the second is not empty and has no blank at its ends; the third has `tw` characters and no blank,
or is the address class or empty (in the line with the number of hosts). -/
def InColumns (aw tw : Nat) (line : Str) : Prop :=
  ∃ label text third i j, line = label ++ List.replicate (i + 1) ' ' ++ text ++ List.replicate (j + 1) ' ' ++ third ∧
    label.length + (i + 1) = 11 ∧ text.length + (j + 1) = aw ∧ label ∈ columnLabels ∧
    (∃ c u, text = c :: u ∧ c ≠ ' ') ∧ (∃ u c, text = u ++ [c] ∧ c ≠ ' ') ∧
    ((label ≠ "Hosts/Net:".toList ∧ third.length = tw ∧ ' ' ∉ third) ∨
     (label = "Hosts/Net:".toList ∧ (third = [] ∨ third ∈ classTable.map Prod.fst)))

/-- A line of the resize and split modes that is no part of a display: the heading of one, perhaps with a number, or a remark. -/
def IsHeading (line : Str) : Prop :=
  line ∈ ["Original network:", "Supernet:", "Same-sized net:", "Subnet to split:", "Unused networks:", "Network is too small",
    "Not enough addresses available for this split."].map String.toList ∨
  (∃ i t, 0 < i ∧ CanonicalNumeral 10 t i ∧ line = "Subnet ".toList ++ t ++ ":".toList) ∨
  (∃ c t, CanonicalNumeral 10 t c ∧ line = "Subnet for ".toList ++ t ++ " hosts:".toList)

end Ripcalc
