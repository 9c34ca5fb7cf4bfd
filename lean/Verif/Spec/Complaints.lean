import Verif.Spec.Errors
import Verif.Spec.Counts
import Verif.Spec.Output
/-!
# Which arguments lead to which message
-/
namespace Ripcalc
open AddrSpec

/-- The text of an IPv4 network: an address, and a mask or prefix length, or the complement of one after a minus sign. -/
def V4Network (s : Str) (a : V4) (n : Net V4) : Prop :=
  ∃ t w l, s = specText t w l ∧ QuadText t ∧ V4Reading t a ∧
    ((∃ m, QuadText l ∧ V4Reading l m ∧ NetOfMask n a (if w then 2 ^ 32 - 1 - val m else val m)) ∨
     (∃ p, Numeral 10 l p ∧ p ≤ 32 ∧ NetOfPrefix n a (if w then 32 - p else p)))

/-- The text of an IPv6 network. -/
def V6Network (s : Str) (a : V6) (n : Net V6) : Prop :=
  ∃ t w l, s = specText t w l ∧ HexColonText t ∧ V6Reading t a ∧
    ((∃ m, HexColonText l ∧ ':' ∈ l ∧ V6Reading l m ∧ NetOfMask n a (if w then 2 ^ 128 - 1 - val m else val m)) ∨
     (∃ p, Numeral 10 l p ∧ p ≤ 128 ∧ NetOfPrefix n a (if w then 128 - p else p)))

def IsV4Network (s : Str) : Prop := ∃ a n, V4Network s a n
def IsV6Network (s : Str) : Prop := ∃ a n, V6Network s a n

/-- The text of an IPv4 address on its own. -/
def IsV4Address (s : Str) : Prop := '.' ∈ s ∧ ':' ∉ s ∧ ∃ a, V4Reading s a
/-- The text of an IPv6 address on its own. -/
def IsV6Address (s : Str) : Prop := ':' ∈ s ∧ '.' ∉ s ∧ ∃ a, V6Reading s a

/-- What is wrong with the text of an address: it has no separator or both, or it is not of the family that the separator
suggests. -/
def AddressFault (s : Str) (e : AddrErr) : Prop :=
  (('.' ∈ s ↔ ':' ∈ s) ∧ e = .unknownAddressType) ∨ ('.' ∈ s ∧ ':' ∉ s ∧ V4Fault s e) ∨ (':' ∈ s ∧ '.' ∉ s ∧ V6Fault s e)

/-- What is wrong with the text of a mask or prefix length. -/
def SubnetFault (s : Str) (e : NetspecErr) : Prop :=
  (∃ f, e = .mask f ∧ ((':' ∈ s ∧ V6Fault s f) ∨ (':' ∉ s ∧ '.' ∈ s ∧ V4Fault s f))) ∨
  (∃ f, e = .cidrParse f ∧ ':' ∉ s ∧ '.' ∉ s ∧ NumberFault 10 (2 ^ 64 - 1) s f)

/-- A prefix length on its own. -/
def PrefixText (s : Str) (p : Nat) : Prop := ':' ∉ s ∧ '.' ∉ s ∧ PlusNumeral 10 s p ∧ p < 2 ^ 64

/-- No special mode: the first network that is malformed. -/
def ShowComplaint (ss : List Str) (m : ErrMsg) : Prop :=
  ∃ pre x post e, ss = pre ++ x :: post ∧ (∀ y ∈ pre, IsV4Network y ∨ IsV6Network y) ∧ NetspecFault x e ∧ m = .showParse e

/-- The minimize mode: no arguments, or the first that is malformed or of the other family. -/
def MinimizeComplaint (ss : List Str) (m : ErrMsg) : Prop :=
  (ss = [] ∧ m = .usage) ∨
  ∃ pre x post, ss = pre ++ x :: post ∧
    ((∃ e, ((∀ y ∈ pre, IsV4Network y) ∨ (∀ y ∈ pre, IsV6Network y)) ∧ NetspecFault x e ∧ m = .minimizeParse e) ∨
     (pre ≠ [] ∧ (((∀ y ∈ pre, IsV4Network y) ∧ IsV6Network x) ∨ ((∀ y ∈ pre, IsV6Network y) ∧ IsV4Network x)) ∧ m = .mixed))

/-- The derange mode. -/
def DerangeComplaint (ss : List Str) (m : ErrMsg) : Prop :=
  (ss.length ≠ 2 ∧ m = .usage) ∨
  ∃ u v, ss = [u, v] ∧
    ((∃ e, AddressFault u e ∧ m = .derangeFirst e) ∨
     (∃ e, (IsV4Address u ∨ IsV6Address u) ∧ AddressFault v e ∧ m = .derangeSecond e) ∨
     (((IsV4Address u ∧ IsV6Address v) ∨ (IsV6Address u ∧ IsV4Address v)) ∧ m = .derangeVersion))

/-- The resize mode. -/
def ResizeComplaint (ss : List Str) (m : ErrMsg) : Prop :=
  (ss.length ≠ 2 ∧ m = .usage) ∨
  ∃ s k, ss = [s, k] ∧
    ((∃ e, NetspecFault s e ∧ m = .resizeNet s e) ∨
     (∃ e, (IsV4Network s ∨ IsV6Network s) ∧ SubnetFault k e ∧ m = .resizeSubnet k e) ∨
     (∃ p, IsV4Network s ∧ PrefixText k p ∧ 32 < p ∧ m = .resizeRangeV4 p) ∨
     (∃ p, IsV6Network s ∧ PrefixText k p ∧ 128 < p ∧ m = .resizeRangeV6 p) ∨
     (∃ a, IsV4Network s ∧ ':' ∈ k ∧ V6Reading k a ∧ m = .resizeV4ToV6) ∨
     (∃ a, IsV6Network s ∧ ':' ∉ k ∧ '.' ∈ k ∧ V4Reading k a ∧ m = .resizeV6ToV4))

/-- A host count that can be used. -/
def GoodCount (s : Str) : Prop := ∃ c : Int, CountText s c ∧ 0 ≤ c

/-- The split mode: the counts come before the network. -/
def SplitComplaint (ss : List Str) (m : ErrMsg) : Prop :=
  (ss.length < 2 ∧ m = .usage) ∨
  ∃ s counts, ss = s :: counts ∧ counts ≠ [] ∧
    ((∃ pre x post, counts = pre ++ x :: post ∧ (∀ y ∈ pre, GoodCount y) ∧
       (((∀ c, ¬ CountText x c) ∧ m = .splitCount x) ∨ (∃ c, CountText x c ∧ c < 0 ∧ m = .splitNegative))) ∨
     (∃ e, (∀ y ∈ counts, GoodCount y) ∧ NetspecFault s e ∧ m = .splitNet s e))

/-- The enumerate mode: the complaints about the arguments, in order. -/
inductive EnumerateComplaints : List Str → List ErrMsg → Prop
  | nil : EnumerateComplaints [] []
  | good {s ss ms} : IsV4Network s ∨ IsV6Network s → EnumerateComplaints ss ms → EnumerateComplaints (s :: ss) ms
  | bad {s e ss ms} : NetspecFault s e → EnumerateComplaints ss ms → EnumerateComplaints (s :: ss) (.enumerateNet s e :: ms)

end Ripcalc
