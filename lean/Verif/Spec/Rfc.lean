import Verif.Spec.Errors
/-!
# The texts of IPv6 addresses according to RFC 4291 and RFC 5952
-/
namespace Ripcalc

/-- One to four hexadecimal digits of either case. -/
def HexGroup (t : Str) (v : Nat) : Prop := Numeral 16 t v ∧ t.length ≤ 4

/-- RFC 4291, section 2.2, forms 1 and 2: eight groups, or fewer with one `::` that stands for one or more groups of zeros. -/
def Rfc4291 (s : Str) (a : V6) : Prop :=
  (∃ gs, s = List.intercalate [':'] gs ∧ Pointwise HexGroup gs (chunkVals a)) ∨
  (∃ pre post vs ws, s = List.intercalate [':'] pre ++ [':', ':'] ++ List.intercalate [':'] post ∧ pre.length + post.length < 8 ∧
    Pointwise HexGroup pre vs ∧ Pointwise HexGroup post ws ∧
    chunkVals a = vs ++ List.replicate (8 - (pre.length + post.length)) 0 ++ ws)

/-- What RFC 4291 does not allow but the parser does: nothing at all, a lone colon at an end, more than four digits, plus signs. -/
def Sloppy (s : Str) : Prop :=
  s = [] ∨ (∃ u, s = ':' :: u ∧ u.head? ≠ some ':') ∨ (∃ u, s = u ++ [':'] ∧ u.getLast? ≠ some ':') ∨
  ∃ ps, Pieces ':' s ps ∧ ∃ t ∈ ps, 4 < t.length ∨ '+' ∈ t

/-- RFC 5952, section 4: lower-case groups without leading zeros; the first of the longest runs of zero groups is shortened if it
has two groups or more, and nothing else. -/
def Rfc5952 (a : V6) (t : Str) : Prop :=
  ∃ hs, Pointwise (CanonicalNumeral 16) hs (chunkVals a) ∧
    (((∀ i, ¬ ZeroRun (chunkVals a) i 2) ∧ t = List.intercalate [':'] hs) ∨
     (∃ start len, 2 ≤ len ∧ FirstLongestZeroRun (chunkVals a) start len ∧
        t = List.intercalate [':'] (hs.take start) ++ [':', ':'] ++ List.intercalate [':'] (hs.drop (start + len))))

end Ripcalc
