import Verif.Spec.Output
/-!
# UTF-8

The distribution of the bits of a character over bytes (Unicode standard, table 3-6).
-/
namespace Ripcalc

/-- The number with the binary digits `bits`, most significant first. -/
def binary (bits : List Bool) : Nat := bits.foldl (fun n b => 2 * n + b.toNat) 0

/-- The bytes stand for the character: the shortest of the four forms `0xxxxxxx`, `110xxxxx 10xxxxxx`,
`1110xxxx 10xxxxxx 10xxxxxx` and `11110xxx 10xxxxxx 10xxxxxx 10xxxxxx` that has room for its number. -/
inductive Utf8Char : Char → List Byte → Prop
  | one {c : Char} {x : List Bool} : x.length = 7 → c.toNat = binary x →
      Utf8Char c [BitVec.ofNat 8 (binary ([false] ++ x))]
  | two {c : Char} {x y : List Bool} : x.length = 5 → y.length = 6 → c.toNat = binary (x ++ y) → 2 ^ 7 ≤ c.toNat →
      Utf8Char c [BitVec.ofNat 8 (binary ([true, true, false] ++ x)), BitVec.ofNat 8 (binary ([true, false] ++ y))]
  | three {c : Char} {x y z : List Bool} : x.length = 4 → y.length = 6 → z.length = 6 → c.toNat = binary (x ++ y ++ z) → 2 ^ 11 ≤ c.toNat →
      Utf8Char c [BitVec.ofNat 8 (binary ([true, true, true, false] ++ x)), BitVec.ofNat 8 (binary ([true, false] ++ y)),
        BitVec.ofNat 8 (binary ([true, false] ++ z))]
  | four {c : Char} {x y z w : List Bool} : x.length = 3 → y.length = 6 → z.length = 6 → w.length = 6 → c.toNat = binary (x ++ y ++ z ++ w) →
      2 ^ 16 ≤ c.toNat →
      Utf8Char c [BitVec.ofNat 8 (binary ([true, true, true, true, false] ++ x)), BitVec.ofNat 8 (binary ([true, false] ++ y)),
        BitVec.ofNat 8 (binary ([true, false] ++ z)), BitVec.ofNat 8 (binary ([true, false] ++ w))]

/-- The bytes stand for the text. -/
inductive Utf8 : Str → List Byte → Prop
  | nil : Utf8 [] []
  | cons {c : Char} {s : Str} {x y : List Byte} : Utf8Char c x → Utf8 s y → Utf8 (c :: s) (x ++ y)

end Ripcalc
