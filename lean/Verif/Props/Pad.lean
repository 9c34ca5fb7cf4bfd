import Verif.Model.Pad
import Verif.Props.Process
/-!
# Padding
-/
namespace Ripcalc

/-- The text with `k` blanks, behind it if the width is positive and before it if it is negative. -/
def Blanks (w : Int) (k : Nat) (t r : Str) : Prop :=
  (0 ≤ w → r = t ++ List.replicate k ' ') ∧ (w < 0 → r = List.replicate k ' ' ++ t)

/-- The function that counts bytes is the one that counts characters if the text is ASCII. -/
theorem padTextBytes_ascii {t : Str} (h : ∀ c ∈ t, c.toNat < 0x80) (w : Int) : padTextBytes t w = padText t w := by
  unfold padTextBytes padText
  rw [encode_ascii h, List.length_map]

/-- Padding, whatever the text and the width: exactly as many blanks as bytes are missing to the width, on the side that the sign of
the width says. -/
theorem C102_bytes (t : Str) (w : Int) (bs : List Byte) (h : Utf8 t bs) :
    ∃ k, bs.length + k = max bs.length w.natAbs ∧ Blanks w k t (padTextBytes t w) := by
  have hb := (utf8_iff t bs).mp h
  subst hb
  generalize hn : (utf8Encode t).length = n
  unfold padTextBytes Blanks
  rw [hn]
  dsimp only
  split
  · next h1 =>
    split
    · exact ⟨(w - n).toNat, by omega, fun _ => rfl, fun h => by omega⟩
    · exact ⟨0, by omega, fun _ => by simp, fun h => by omega⟩
  · next h1 =>
    split
    · next h2 =>
      split
      · exact ⟨(-w - n).toNat, by omega, fun h => by omega, fun _ => rfl⟩
      · exact ⟨0, by omega, fun h => by omega, fun _ => by simp⟩
    · exact ⟨0, by omega, fun _ => by simp, fun h => by omega⟩

/-- What the output function writes, for any ASCII text, width and colour: the text filled up to the width, in the colour if there
is one and colours are on, and as a line of its own otherwise. -/
theorem C102_write (rt : Runtime) (t : Str) (h : ∀ c ∈ t, c.toNat < 0x80) (col : Option Color) (w : Int) :
    ∃ k r, t.length + k = max t.length w.natAbs ∧ Blanks w k t r ∧
      (writeInColor rt t col w).res = .ok () ∧
      ((∃ c, col = some c ∧ rt.colorsEnabled = true ∧ (writeInColor rt t col w).out = [.styled c r]) ∨
       ((col = none ∨ rt.colorsEnabled = false) ∧ (writeInColor rt t col w).out = [.out (r ++ ['\n'])])) := by
  obtain ⟨k, hk, hb⟩ := C102_bytes t w _ ((utf8_iff t _).mpr rfl)
  rw [encode_ascii h, List.length_map] at hk
  rw [padTextBytes_ascii h] at hb
  refine ⟨k, _, hk, hb, ?_⟩
  unfold writeInColor
  dsimp only
  cases hc : rt.colorsEnabled with
  | false => exact ⟨rfl, .inr ⟨.inr rfl, rfl⟩⟩
  | true =>
    cases col with
    | none => exact ⟨rfl, .inr ⟨.inl rfl, rfl⟩⟩
    | some c => exact ⟨rfl, .inl ⟨c, rfl, rfl, rfl⟩⟩

/-- The result is the only text with this property. -/
theorem C102_unique {w : Int} {n k k' : Nat} {t r r' : Str} (hk : n + k = max n w.natAbs) (hk' : n + k' = max n w.natAbs)
    (h : Blanks w k t r) (h' : Blanks w k' t r') : r = r' := by
  have e : k = k' := by omega
  subst e
  by_cases hw : 0 ≤ w
  · rw [h.1 hw, h'.1 hw]
  · rw [h.2 (by omega), h'.2 (by omega)]

-- a text that is shorter than the width, with either sign, and one that is longer
example : padTextBytes "ab".toList 4 = "ab  ".toList ∧ padTextBytes "ab".toList (-4) = "  ab".toList ∧
    padTextBytes "abcde".toList 4 = "abcde".toList ∧ padTextBytes "ab".toList 0 = "ab".toList := by decide +kernel
-- a text with a two-byte character gets one blank less than its characters suggest
example : padTextBytes ['é'] 3 = ['é', ' '] ∧ Utf8 ['é'] [0xC3, 0xA9] := ⟨by decide +kernel, (utf8_iff _ _).mpr (by decide +kernel)⟩
-- the hypothesis of `C102_write`
example : ∀ c ∈ "HostMin:".toList, c.toNat < 0x80 := by decide +kernel

end Ripcalc
