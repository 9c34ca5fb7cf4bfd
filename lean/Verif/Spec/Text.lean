import Verif.Spec.Basic
/-!
# Vocabulary for statements about text

Numerals are described by tables of digit characters and positional value, texts by `List.intercalate`; nothing here uses the
functions under test.
-/
namespace Ripcalc
open AddrSpec

def lowerDigits : List Char := ['0', '1', '2', '3', '4', '5', '6', '7', '8', '9', 'a', 'b', 'c', 'd', 'e', 'f']
def upperDigits : List Char := ['0', '1', '2', '3', '4', '5', '6', '7', '8', '9', 'A', 'B', 'C', 'D', 'E', 'F']

/-- The character `c` stands for the digit value `d`. -/
def DigitIs (c : Char) (d : Nat) : Prop := lowerDigits[d]? = some c ∨ upperDigits[d]? = some c

/-- Character by character, `s` are the digits `ds` of the radix. -/
inductive Digits (radix : Nat) : Str → List Nat → Prop
  | nil : Digits radix [] []
  | cons {c d cs ds} : DigitIs c d → d < radix → Digits radix cs ds → Digits radix (c :: cs) (d :: ds)

/-- `s` is a numeral (one digit or more) with value `v`. -/
def Numeral (radix : Nat) (s : Str) (v : Nat) : Prop :=
  s ≠ [] ∧ ∃ ds, Digits radix s ds ∧ bigEndian radix ds = v

/-- A numeral, possibly after one plus sign. -/
def PlusNumeral (radix : Nat) (s : Str) (v : Nat) : Prop :=
  Numeral radix s v ∨ ∃ t, s = '+' :: t ∧ Numeral radix t v

/-- A numeral as it is printed: lower-case digits, no superfluous leading zero. -/
def CanonicalNumeral (radix : Nat) (s : Str) (v : Nat) : Prop :=
  Numeral radix s v ∧ (∀ c ∈ s, c ∈ lowerDigits) ∧ (s.head? = some '0' → s = ['0'])

/-- Element by element related lists. -/
inductive Pointwise (R : α → β → Prop) : List α → List β → Prop
  | nil : Pointwise R [] []
  | cons {a b as bs} : R a b → Pointwise R as bs → Pointwise R (a :: as) (b :: bs)

/-- Chunk `i` (0 is the most significant) of an IPv6 address. -/
def chunkOf (a : V6) (i : Nat) : Nat := val a / 65536 ^ (7 - i) % 65536

/-- All eight chunks. -/
def chunkVals (a : V6) : List Nat := (List.range 8).map (chunkOf a)

/-- A leading and a trailing colon is completed with a zero. -/
def completeColons (s : Str) : Str :=
  (if s.head? = some ':' then ['0'] else []) ++ s ++ (if s.getLast? = some ':' then ['0'] else [])

/-- A group of an IPv6 text: a hexadecimal number of at most `ffff`. -/
def Group (t : Str) (v : Nat) : Prop := PlusNumeral 16 t v ∧ v ≤ 65535

/-- `len` chunks from `start` on are zero. -/
def ZeroRun (cs : List Nat) (start len : Nat) : Prop :=
  start + len ≤ cs.length ∧ ∀ i, start ≤ i → i < start + len → cs[i]? = some 0

/-- The first one of the longest runs of zero chunks. -/
def FirstLongestZeroRun (cs : List Nat) (start len : Nat) : Prop :=
  0 < len ∧ ZeroRun cs start len ∧ ∀ s l, 0 < l → ZeroRun cs s l → l ≤ len ∧ (l = len → start ≤ s)

/-- The addresses whose displayed text is not accepted by the parser: a single zero chunk at an end gets shortened to a
double colon. -/
def SingleZeroAtEnd (cs : List Nat) : Prop :=
  (cs[0]? = some 0 ∧ ∀ i, ¬ (cs[i]? = some 0 ∧ cs[i + 1]? = some 0)) ∨
  (cs[7]? = some 0 ∧ ∀ i, i < 7 → cs[i]? ≠ some 0)

end Ripcalc
