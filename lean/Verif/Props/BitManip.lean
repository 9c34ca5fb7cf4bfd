import Verif.Proofs.BitManip
/-!
# Properties of `cidr.rs` and `bit_manip.rs`: C15–C19
-/
namespace Ripcalc
open AddrSpec

theorem positions_succ (w : Nat) : positions (w + 1) = w :: positions w := by
  simp [positions, List.range_succ]

theorem natBits_eq_bitsAt (w v : Nat) : natBits w v = bitsAt v (positions w) := by
  induction w with
  | zero => rfl
  | succ w ih => rw [natBits, ih, positions_succ]; rfl

theorem select_natBits (w m v : Nat) :
    select (natBits w m) (natBits w v) = bitsAt v ((positions w).filter (fun i => m.testBit i)) ∧
    select (mnot (natBits w m)) (natBits w v) = bitsAt v ((positions w).filter (fun i => !m.testBit i)) := by
  induction w with
  | zero => exact ⟨rfl, rfl⟩
  | succ w ih =>
    rw [positions_succ]
    simp only [natBits, mnot_cons]
    cases h : m.testBit w <;> simp [select, ih, bitsAt, h]

theorem bytesToBits_get (bs : List Byte) (i : Nat) (h : i < 8 * bs.length) :
    (bytesToBits bs)[i]? = some (byteStringBit bs i) := by
  induction bs generalizing i with
  | nil => simp at h
  | cons b bs ih =>
    rw [bytesToBits_cons, List.getElem?_append, byteBits_length]
    split
    · rename_i h8
      have h0 : i / 8 = 0 := by omega
      have hm : i % 8 = i := by omega
      rw [byteStringBit, h0, hm, List.getElem?_eq_getElem (by simpa)]
      simp only [byteBits_eq]
      rw [natBits_get 8 _ i h8]
      simp only [List.getD_cons_zero, BitVec.getLsbD]
    · rename_i h8
      rw [ih (i - 8) (by simp at h; omega), byteStringBit, byteStringBit]
      have h1 : i / 8 = (i - 8) / 8 + 1 := by omega
      have h2 : i % 8 = (i - 8) % 8 := by omega
      rw [h1, h2]; simp

theorem onesZeros_iff_get (l : List Bool) (p : Nat) :
    OnesZeros l p ↔ p ≤ l.length ∧ ∀ i, i < l.length → l[i]? = some (decide (i < p)) := by
  rw [OnesZeros]
  refine and_congr_right fun hp => ?_
  constructor
  · intro h i hi
    rw [h, List.getElem?_append, List.length_replicate]
    split
    · rename_i h1; rw [List.getElem?_replicate]; simp [h1]
    · rename_i h1; rw [List.getElem?_replicate, if_pos (by omega)]; simp [h1]
  · intro h
    apply List.ext_getElem?
    intro i
    rcases Nat.lt_or_ge i l.length with hi | hi
    · rw [h i hi, List.getElem?_append, List.length_replicate]
      split
      · rename_i h1; rw [List.getElem?_replicate]; simp [h1]
      · rename_i h1; rw [List.getElem?_replicate, if_pos (by omega)]; simp [h1]
    · rw [List.getElem?_eq_none hi, List.getElem?_eq_none (by simp; omega)]

/-! ## C15: prefix to mask to prefix round-trips -/

theorem C15_prefix_mask_prefix (p n : Nat) :
    (subnetMaskBytesFromPrefix p n).length = n ∧
    (p ≤ 8 * n → prefixFromSubnetMaskBytes (subnetMaskBytesFromPrefix p n) = some p) ∧
    (8 * n ≤ p → subnetMaskBytesFromPrefix p n = List.replicate n 0xFF#8) := by
  refine ⟨subnetMaskBytes_length p n, fun h => ?_, fun h => ?_⟩
  · rw [prefixFromSubnetMaskBytes_iff, subnetMaskBytes_bits, show min p (8 * n) = p by omega]
    exact onesZeros_mk _ _
  · apply bytesToBits_inj
    rw [subnetMaskBytes_bits, show min p (8 * n) = 8 * n by omega, show 8 * n - p = 0 by omega]
    clear h
    induction n with
    | zero => rfl
    | succ n ih =>
      rw [List.replicate_succ (n := n), bytesToBits_cons, ← ih, show byteBits 0xFF#8 = List.replicate 8 true by decide]
      simp only [List.replicate_zero, List.append_nil, List.replicate_append_replicate]
      congr 1; omega

example : subnetMaskBytesFromPrefix 20 4 = [0xFF#8, 0xFF#8, 0xF0#8, 0#8] ∧ 20 ≤ 8 * 4 := by decide

/-! ## C16: prefix detection recognises exactly contiguous masks -/

theorem C16_prefix_detection (bs : List Byte) (p : Nat) :
    prefixFromSubnetMaskBytes bs = some p ↔
      p ≤ 8 * bs.length ∧ ∀ i, i < 8 * bs.length → byteStringBit bs i = decide (i < p) := by
  rw [prefixFromSubnetMaskBytes_iff, onesZeros_iff_get, bytesToBits_length]
  refine and_congr_right fun _ => forall_congr' fun i => forall_congr' fun hi => ?_
  rw [bytesToBits_get bs i hi, Option.some.injEq]

theorem C16_prefix_detection_none (bs : List Byte) :
    prefixFromSubnetMaskBytes bs = none ↔
      ¬ ∃ p, p ≤ 8 * bs.length ∧ ∀ i, i < 8 * bs.length → byteStringBit bs i = decide (i < p) := by
  simp only [← C16_prefix_detection]
  cases prefixFromSubnetMaskBytes bs <;> simp

example : prefixFromSubnetMaskBytes [0xFF#8, 0x80#8] = some 9 ∧ prefixFromSubnetMaskBytes [0x7F#8] = none
    ∧ prefixFromSubnetMaskBytes [0x80#8, 0x80#8] = none := by decide +kernel

/-! ## C17: bits and bytes convert losslessly -/

theorem C17_bytes_to_bits (bs : List Byte) :
    (bytesToBits bs).length = 8 * bs.length ∧
    (∀ i, i < 8 * bs.length → (bytesToBits bs)[i]? = some (byteStringBit bs i)) ∧
    bitsToBytes (bytesToBits bs) = bs ∧
    (bytesToBinary bs).length = 8 * bs.length ∧
    (∀ i, i < 8 * bs.length → (bytesToBinary bs)[i]? = some (if byteStringBit bs i then '1' else '0')) := by
  refine ⟨bytesToBits_length bs, bytesToBits_get bs, bitsToBytes_bytesToBits bs, ?_, fun i hi => ?_⟩
  · rw [bytesToBinary, List.length_map, bytesToBits_length]
  · rw [bytesToBinary, List.getElem?_map, bytesToBits_get bs i hi]; rfl

theorem C17_bits_to_bytes (bits : List Bool) :
    (bitsToBytes bits).length = (bits.length + 7) / 8 ∧
    bytesToBits (bitsToBytes bits) = bits ++ List.replicate ((8 - bits.length % 8) % 8) false :=
  ⟨bitsToBytes_length bits, bytesToBits_bitsToBytes bits⟩

example : bitsToBytes [true, false, true, true, false, false, false, false, true] = [0xB0#8, 0x80#8] ∧
    bytesToBinary [0xB0#8] = ['1', '0', '1', '1', '0', '0', '0', '0'] := by decide

section generic
variable {A : Type} [IpAddr A] [AddrSpec A] [LawfulIpAddr A]

/-! ## C18: unravel and weave are inverse for every mask -/

theorem C18_unravel_weave (a m : A) :
    (∃ u, unravelAddress a m = .ok u ∧ weaveAddress u m = .ok a) ∧
    (∃ v, weaveAddress a m = .ok v ∧ unravelAddress v m = .ok a) := by
  have hs1 : (select (abits m) (abits a)).length = ones (abits m) := select_length (by simp)
  have hs2 : (select (mnot (abits m)) (abits a)).length = ones (mnot (abits m)) := select_length (by simp)
  constructor
  · obtain ⟨u, h1, h2⟩ := unravel_spec a m
    obtain ⟨v, h3, h4⟩ := weave_spec u m
    refine ⟨u, h1, ?_⟩
    rw [h3]
    congr 1
    apply abits_inj
    rw [h4, h2, ← hs1, List.take_left, List.drop_left, interleave_select (by simp)]
  · obtain ⟨v, h1, h2⟩ := weave_spec a m
    obtain ⟨u, h3, h4⟩ := unravel_spec v m
    refine ⟨v, h1, ?_⟩
    rw [h3]
    congr 1
    apply abits_inj
    have hle := ones_le (abits m)
    have hadd := ones_mnot (abits m)
    simp only [abits_length] at hle hadd
    have hsi := select_interleave (m := abits m) (n := (abits a).take (ones (abits m)))
      (h := (abits a).drop (ones (abits m))) (by simp; omega) (by simp; omega)
    rw [h4, h2, hsi.1, hsi.2, List.take_append_drop]

example : unravelAddress (⟨0xAABBCCDD#32⟩ : V4) ⟨0xFF00FF00#32⟩ = .ok ⟨0xAACCBBDD#32⟩ ∧
    weaveAddress (⟨0xAACCBBDD#32⟩ : V4) ⟨0xFF00FF00#32⟩ = .ok ⟨0xAABBCCDD#32⟩ := by decide +kernel

/-! ## C19: unravel moves network bits to the front and keeps order -/

theorem C19_unravel_bits (a m : A) :
    ∃ u, unravelAddress a m = .ok u ∧
      bitsAt (val u) (positions (width A)) =
        bitsAt (val a) ((positions (width A)).filter (fun i => (val m).testBit i)) ++
        bitsAt (val a) ((positions (width A)).filter (fun i => !(val m).testBit i)) := by
  obtain ⟨u, h1, h2⟩ := unravel_spec a m
  refine ⟨u, h1, ?_⟩
  rw [← natBits_eq_bitsAt, ← (select_natBits (width A) (val m) (val a)).1, ← (select_natBits (width A) (val m) (val a)).2]
  exact h2

theorem select_self (m : List Bool) : select m m = List.replicate (ones m) true ∧
    select (mnot m) m = List.replicate (ones (mnot m)) false := by
  induction m with
  | nil => exact ⟨rfl, rfl⟩
  | cons b m ih => cases b <;> simp [select, ones, ih, List.replicate_succ]

theorem ones_natBits (w v : Nat) : ones (natBits w v) = countBelow w (fun i => v.testBit i) := by
  induction w with
  | zero => rfl
  | succ w ih =>
    simp only [natBits, countBelow, List.range_succ, List.countP_append] at *
    cases h : v.testBit w <;> simp [ones, h, ih]

/-- The unraveled mask is contiguous with the same number of ones. -/
theorem C19_unravel_mask (m : A) :
    ∃ c, unravelAddress m m = .ok c ∧
      IsPrefixMask (width A) (countBelow (width A) (fun i => (val m).testBit i)) (val c) := by
  obtain ⟨u, h1, h2⟩ := unravel_spec m m
  refine ⟨u, h1, ?_⟩
  rw [← onesZeros_natBits_iff, ← ones_natBits]
  show OnesZeros (abits u) (ones (abits m))
  rw [h2, (select_self _).1, (select_self _).2]
  exact onesZeros_mk _ _

example : unravelAddress (⟨0xFF00FF00#32⟩ : V4) ⟨0xFF00FF00#32⟩ = .ok ⟨0xFFFF0000#32⟩ := by decide +kernel

end generic
end Ripcalc
