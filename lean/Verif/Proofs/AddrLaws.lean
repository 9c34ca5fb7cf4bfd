import Verif.Spec.Basic
import Verif.Proofs.Bits
/-!
# The laws of `IpAddr` the generic code relies on, proved for both families
-/
namespace Ripcalc
open AddrSpec

/-- Laws of the address operations in terms of the numeric value. -/
class LawfulIpAddr (A : Type) [IpAddr A] [AddrSpec A] : Prop where
  width_eq : width A = 8 * (width A / 8)
  width_pos : 8 ≤ width A
  width_le : width A ≤ 128
  val_lt : ∀ a : A, val a < 2 ^ width A
  val_inj : ∀ a b : A, val a = val b → a = b
  val_surj : ∀ n, n < 2 ^ width A → ∃ a : A, val a = n
  val_and : ∀ a b : A, val (IpAddr.and a b) = val a &&& val b
  val_or : ∀ a b : A, val (IpAddr.or a b) = val a ||| val b
  val_xor : ∀ a b : A, val (IpAddr.xor a b) = val a ^^^ val b
  val_negate : ∀ a : A, val (IpAddr.negate a) = 2 ^ width A - 1 - val a
  le_iff : ∀ a b : A, IpAddr.le a b = true ↔ val a ≤ val b
  byteCount_eq : ∀ a : A, IpAddr.byteCount a = width A / 8
  toBytes_length : ∀ a : A, (IpAddr.toBytes a).length = width A / 8
  toBytes_val : ∀ a : A, bigEndian 256 ((IpAddr.toBytes a).map BitVec.toNat) = val a
  fromBytes_some : ∀ bs : List Byte, bs.length = width A / 8 →
    ∃ a : A, IpAddr.fromBytes bs = some a ∧ val a = bigEndian 256 (bs.map BitVec.toNat)
  fromBytes_none : ∀ bs : List Byte, bs.length ≠ width A / 8 → (IpAddr.fromBytes bs : Option A) = none
  countOnes_eq : ∀ a : A, IpAddr.countOnes a = countBelow (width A) (fun i => (val a).testBit i)
  countZeros_eq : ∀ a : A, IpAddr.countZeros a = countBelow (width A) (fun i => !(val a).testBit i)
  addAddr_exact : ∀ a b : A, IsExact (IpAddr.addAddr a b) (val a + val b)
  addOffset_nonneg : ∀ (pr : Profile) (a : A) (k : Int32), 0 ≤ k.toInt →
    ∃ r, IpAddr.addOffset pr a k = .ok r ∧ IsExact r (val a + k.toInt)
  subtractOffset_low : ∀ (pr : Profile) (a : A) (k : Int32), 0 ≤ k.toInt → k.toInt ≤ (val a % 2 ^ 64 : Nat) →
    ∃ r, IpAddr.subtractOffset pr a k = .ok r ∧ IsExact r (val a - k.toInt)

/-! ## Auxiliary facts about machine integers -/

theorem or_shift_byte (x y k : Nat) (hy : y < 256) : (x <<< (k + 8)) ||| (y <<< k) = (x * 256 + y) <<< k := by
  rw [Nat.add_comm k 8, Nat.shiftLeft_add, ← Nat.shiftLeft_or_distrib]
  congr 1
  rw [Nat.shiftLeft_eq]
  have := Nat.shiftLeft_add_eq_or_of_lt (a := x) (b := y) (i := 8) (by simpa using hy)
  rw [Nat.shiftLeft_eq] at this
  omega

theorem or_shift_chunk (x y k : Nat) (hy : y < 65536) : (x <<< (k + 16)) ||| (y <<< k) = (x * 65536 + y) <<< k := by
  rw [Nat.add_comm k 16, Nat.shiftLeft_add, ← Nat.shiftLeft_or_distrib]
  congr 1
  rw [Nat.shiftLeft_eq]
  have := Nat.shiftLeft_add_eq_or_of_lt (a := x) (b := y) (i := 16) (by simpa using hy)
  rw [Nat.shiftLeft_eq] at this
  omega

theorem toNat_shl (w n : Nat) (b : BitVec n) (k : Nat) (h : n + k ≤ w) :
    (b.setWidth w <<< k).toNat = b.toNat <<< k := by
  have hb := b.isLt
  have h1 : 2 ^ n ≤ 2 ^ w := Nat.pow_le_pow_right (by omega) (by omega)
  rw [BitVec.toNat_shiftLeft, BitVec.toNat_setWidth, Nat.mod_eq_of_lt (a := b.toNat) (by omega), Nat.mod_eq_of_lt]
  rw [Nat.shiftLeft_eq]
  calc b.toNat * 2 ^ k < 2 ^ n * 2 ^ k := Nat.mul_lt_mul_of_pos_right hb (Nat.two_pow_pos k)
    _ = 2 ^ (n + k) := (Nat.pow_add ..).symm
    _ ≤ 2 ^ w := Nat.pow_le_pow_right (by omega) h

theorem toNat_byte (w : Nat) (x : BitVec w) (k : Nat) (hw : 8 ≤ w) :
    (((x >>> k) &&& BitVec.ofNat w 0xFF).setWidth 8).toNat = x.toNat / 2 ^ k % 256 := by
  have : (0xFF : Nat) < 2 ^ w := Nat.lt_of_lt_of_le (by decide) (Nat.pow_le_pow_right (by omega) hw)
  rw [BitVec.toNat_setWidth, BitVec.toNat_and, BitVec.toNat_ushiftRight, BitVec.toNat_ofNat,
    Nat.mod_eq_of_lt this, Nat.shiftRight_eq_div_pow]
  have : x.toNat / 2 ^ k &&& 255 = x.toNat / 2 ^ k % 256 := Nat.and_two_pow_sub_one_eq_mod _ 8
  rw [this]; omega

theorem toNat_chunk (w : Nat) (x : BitVec w) (k : Nat) (hw : 16 ≤ w) :
    (((x >>> k) &&& BitVec.ofNat w 0xFFFF).setWidth 16).toNat = x.toNat / 2 ^ k % 65536 := by
  have : (0xFFFF : Nat) < 2 ^ w := Nat.lt_of_lt_of_le (by decide) (Nat.pow_le_pow_right (by omega) hw)
  rw [BitVec.toNat_setWidth, BitVec.toNat_and, BitVec.toNat_ushiftRight, BitVec.toNat_ofNat,
    Nat.mod_eq_of_lt this, Nat.shiftRight_eq_div_pow]
  have : x.toNat / 2 ^ k &&& 65535 = x.toNat / 2 ^ k % 65536 := Nat.and_two_pow_sub_one_eq_mod _ 16
  rw [this]; omega

theorem nat_ones_xor {w x : Nat} (h : x < 2 ^ w) : x ^^^ (2 ^ w - 1) = 2 ^ w - 1 - x := by
  apply Nat.eq_of_testBit_eq
  intro i
  have e : 2 ^ w - 1 - x = 2 ^ w - (x + 1) := by omega
  rw [e, Nat.testBit_xor, Nat.testBit_two_pow_sub_succ h, Nat.testBit_two_pow_sub_one]
  by_cases hi : i < w
  · cases x.testBit i <;> simp [hi]
  · have : x.testBit i = false := Nat.testBit_lt_two_pow (Nat.lt_of_lt_of_le h (Nat.pow_le_pow_right (by omega) (by omega)))
    simp [hi, this]

theorem countP_range_add (m n : Nat) (P : Nat → Bool) :
    (List.range (m + n)).countP P = (List.range m).countP P + (List.range n).countP (fun i => P (m + i)) := by
  rw [List.range_add, List.countP_append, List.countP_map]; rfl

theorem digit_step (x k : Nat) : x / 2 ^ (k + 8) * 256 + x / 2 ^ k % 256 = x / 2 ^ k := by
  rw [Nat.pow_add, ← Nat.div_div_eq_div_mul]; omega

theorem digit_step16 (x k : Nat) : x / 2 ^ (k + 16) * 65536 + x / 2 ^ k % 65536 = x / 2 ^ k := by
  rw [Nat.pow_add, ← Nat.div_div_eq_div_mul]; omega

theorem bigEndian_append (b : Nat) (x y : List Nat) :
    bigEndian b (x ++ y) = bigEndian b x * b ^ y.length + bigEndian b y := by
  have gen : ∀ (l : List Nat) (acc : Nat), l.foldl (fun acc d => acc * b + d) acc = acc * b ^ l.length + bigEndian b l := by
    intro l
    induction l with
    | nil => intro acc; simp [bigEndian]
    | cons d l ih =>
      intro acc
      simp only [bigEndian, List.foldl_cons, List.length_cons] at *
      rw [ih, ih (0 * b + d), Nat.pow_succ, Nat.add_mul, Nat.mul_assoc, Nat.mul_comm b]
      simp [Nat.add_assoc]
  rw [bigEndian, List.foldl_append]
  exact gen y _

theorem IsExact.of_eq [AddrSpec A] {r : Option A} {z z' : Int} (h : IsExact r z) (e : z = z') : IsExact r z' := e ▸ h

/-! ## IPv4 -/
namespace V4

theorem val_def (a : V4) : val a = a.addrValue.toNat := rfl

theorem toBytes_val (a : V4) : bigEndian 256 (a.toBytes.map BitVec.toNat) = val a := by
  have h := a.addrValue.isLt
  simp only [toBytes, List.map, bigEndian, List.foldl, val_def,
    toNat_byte 32 a.addrValue 24 (by decide), toNat_byte 32 a.addrValue 16 (by decide),
    toNat_byte 32 a.addrValue 8 (by decide), toNat_byte 32 a.addrValue 0 (by decide)]
  omega

theorem fromBytes_some (bs : List Byte) (h : bs.length = 4) :
    ∃ a : V4, fromBytes bs = some a ∧ val a = bigEndian 256 (bs.map BitVec.toNat) := by
  match bs, h with
  | [b0, b1, b2, b3], _ =>
    refine ⟨_, rfl, ?_⟩
    have h1 := b1.isLt
    have h2 := b2.isLt
    have h3 := b3.isLt
    simp only [val_def, BitVec.toNat_or, toNat_shl 32 8 _ _ (by decide : 8 + 24 ≤ 32),
      toNat_shl 32 8 _ _ (by decide : 8 + 16 ≤ 32), toNat_shl 32 8 _ _ (by decide : 8 + 8 ≤ 32),
      toNat_shl 32 8 _ _ (by decide : 8 + 0 ≤ 32), List.map, bigEndian, List.foldl]
    rw [or_shift_byte _ _ 16 h1, or_shift_byte _ _ 8 h2, or_shift_byte _ _ 0 h3]
    simp

theorem fromBytes_none (bs : List Byte) (h : bs.length ≠ 4) : fromBytes bs = none := by
  unfold fromBytes
  split
  · simp at h
  · rfl

theorem addInternal_exact (x y : Int) : IsExact (addInternal x y) (x + y) := by
  unfold addInternal
  simp only
  split
  · left; assumption
  · split
    · right; simp only [width]; omega
    · simp only [IsExact, val_def]
      rw [BitVec.toNat_ofInt]
      omega

end V4

instance : LawfulIpAddr V4 where
  width_eq := rfl
  width_pos := by decide
  width_le := by decide
  val_lt a := a.addrValue.isLt
  val_inj a b h := by cases a; cases b; simp only [V4.val_def] at h; congr; exact BitVec.eq_of_toNat_eq h
  val_surj n h := ⟨⟨BitVec.ofNat 32 n⟩, by simpa [V4.val_def, width] using h⟩
  val_and a b := BitVec.toNat_and ..
  val_or a b := BitVec.toNat_or ..
  val_xor a b := BitVec.toNat_xor ..
  val_negate a := by
    show (a.addrValue ^^^ 0xFFFFFFFF#32).toNat = _
    rw [BitVec.toNat_xor]
    exact nat_ones_xor a.addrValue.isLt
  le_iff a b := by simp [IpAddr.le, V4.val_def, BitVec.le_def]
  byteCount_eq _ := rfl
  toBytes_length a := show a.toBytes.length = 4 from rfl
  toBytes_val := V4.toBytes_val
  fromBytes_some := V4.fromBytes_some
  fromBytes_none := V4.fromBytes_none
  countOnes_eq _ := rfl
  countZeros_eq _ := rfl
  addAddr_exact a b := V4.addInternal_exact (val a) (val b)
  addOffset_nonneg _ a k _ := ⟨_, rfl, V4.addInternal_exact ..⟩
  subtractOffset_low _ a k _ _ := ⟨_, rfl, V4.addInternal_exact ..⟩

/-! ## IPv6 -/
namespace V6

theorem val_def (a : V6) : val a = a.topHalf.toNat * 2 ^ 64 + a.bottomHalf.toNat := rfl

theorem testBit_val (a : V6) (i : Nat) :
    (val a).testBit i = if i < 64 then a.bottomHalf.toNat.testBit i else a.topHalf.toNat.testBit (i - 64) := by
  rw [val_def, Nat.mul_comm, Nat.testBit_two_pow_mul_add _ a.bottomHalf.isLt]

theorem val_lt (a : V6) : val a < 2 ^ 128 := by
  have h1 := a.topHalf.isLt
  have h2 := a.bottomHalf.isLt
  rw [val_def]; omega

theorem half_value (z : Nat) (hz : z < 2 ^ 64) :
    bigEndian 256 [z / 2 ^ 56 % 256, z / 2 ^ 48 % 256, z / 2 ^ 40 % 256, z / 2 ^ 32 % 256,
      z / 2 ^ 24 % 256, z / 2 ^ 16 % 256, z / 2 ^ 8 % 256, z / 2 ^ 0 % 256] = z := by
  simp only [bigEndian, List.foldl]
  rw [Nat.zero_mul, Nat.zero_add, Nat.mod_eq_of_lt (a := z / 2 ^ 56) (by omega), digit_step z 48, digit_step z 40,
    digit_step z 32, digit_step z 24, digit_step z 16, digit_step z 8, digit_step z 0]
  simp

theorem pow256_8 : 256 ^ 8 = 2 ^ 64 := by decide

theorem toBytes_val (a : V6) : bigEndian 256 (a.toBytes.map BitVec.toNat) = val a := by
  have hx := half_value _ a.topHalf.isLt
  have hy := half_value _ a.bottomHalf.isLt
  simp only [toBytes, List.map, toNat_byte 64 _ _ (by decide : 8 ≤ 64)]
  have := bigEndian_append 256 [a.topHalf.toNat / 2 ^ 56 % 256, a.topHalf.toNat / 2 ^ 48 % 256,
      a.topHalf.toNat / 2 ^ 40 % 256, a.topHalf.toNat / 2 ^ 32 % 256,
      a.topHalf.toNat / 2 ^ 24 % 256, a.topHalf.toNat / 2 ^ 16 % 256, a.topHalf.toNat / 2 ^ 8 % 256,
      a.topHalf.toNat / 2 ^ 0 % 256]
    [a.bottomHalf.toNat / 2 ^ 56 % 256, a.bottomHalf.toNat / 2 ^ 48 % 256,
      a.bottomHalf.toNat / 2 ^ 40 % 256, a.bottomHalf.toNat / 2 ^ 32 % 256,
      a.bottomHalf.toNat / 2 ^ 24 % 256, a.bottomHalf.toNat / 2 ^ 16 % 256, a.bottomHalf.toNat / 2 ^ 8 % 256,
      a.bottomHalf.toNat / 2 ^ 0 % 256]
  rw [hx, hy, show ∀ a b c d e f g h : Nat, [a, b, c, d, e, f, g, h].length = 8 from fun _ _ _ _ _ _ _ _ => rfl,
    pow256_8] at this
  rw [val_def]
  exact this

theorem half_bytes (b0 b1 b2 b3 b4 b5 b6 b7 : Byte) :
    ((b0.setWidth 64 <<< 56) ||| (b1.setWidth 64 <<< 48) ||| (b2.setWidth 64 <<< 40) ||| (b3.setWidth 64 <<< 32) |||
      (b4.setWidth 64 <<< 24) ||| (b5.setWidth 64 <<< 16) ||| (b6.setWidth 64 <<< 8) ||| (b7.setWidth 64 <<< 0) : BitVec 64).toNat =
      bigEndian 256 [b0.toNat, b1.toNat, b2.toNat, b3.toNat, b4.toNat, b5.toNat, b6.toNat, b7.toNat] := by
  simp only [BitVec.toNat_or, bigEndian, List.foldl]
  rw [toNat_shl 64 8 _ _ (by decide), toNat_shl 64 8 _ _ (by decide), toNat_shl 64 8 _ _ (by decide),
    toNat_shl 64 8 _ _ (by decide), toNat_shl 64 8 _ _ (by decide), toNat_shl 64 8 _ _ (by decide),
    toNat_shl 64 8 _ _ (by decide), toNat_shl 64 8 _ _ (by decide)]
  rw [or_shift_byte _ _ 48 b1.isLt, or_shift_byte _ _ 40 b2.isLt, or_shift_byte _ _ 32 b3.isLt,
    or_shift_byte _ _ 24 b4.isLt, or_shift_byte _ _ 16 b5.isLt, or_shift_byte _ _ 8 b6.isLt, or_shift_byte _ _ 0 b7.isLt]
  simp

theorem fromBytes_some (bs : List Byte) (h : bs.length = 16) :
    ∃ a : V6, fromBytes bs = some a ∧ val a = bigEndian 256 (bs.map BitVec.toNat) := by
  match bs, h with
  | [b0, b1, b2, b3, b4, b5, b6, b7, b8, b9, b10, b11, b12, b13, b14, b15], _ =>
    refine ⟨_, rfl, ?_⟩
    rw [val_def, half_bytes, half_bytes]
    have := bigEndian_append 256 [b0.toNat, b1.toNat, b2.toNat, b3.toNat, b4.toNat, b5.toNat, b6.toNat, b7.toNat]
      [b8.toNat, b9.toNat, b10.toNat, b11.toNat, b12.toNat, b13.toNat, b14.toNat, b15.toNat]
    rw [show ∀ a b c d e f g h : Nat, [a, b, c, d, e, f, g, h].length = 8 from fun _ _ _ _ _ _ _ _ => rfl,
      pow256_8] at this
    exact this.symm

theorem fromBytes_none (bs : List Byte) (h : bs.length ≠ 16) : fromBytes bs = none := by
  unfold fromBytes
  split
  · simp at h
  · rfl

theorem addInternal_exact (a b c d : BitVec 64) :
    IsExact (addInternal a b c d) (((a.toNat + c.toNat) * 2 ^ 64 + (b.toNat + d.toNat) : Nat) : Int) := by
  have ha := a.isLt
  have hb := b.isLt
  have hc := c.isLt
  have hd := d.isLt
  simp only [addInternal, checkedAdd64, BitVec.lt_def, BitVec.toNat_add]
  by_cases h1 : a.toNat + c.toNat < 2 ^ 64
  · by_cases h2 : (b.toNat + d.toNat) % 2 ^ 64 < b.toNat ∨ (b.toNat + d.toNat) % 2 ^ 64 < d.toNat
    · by_cases h3 : (a.toNat + c.toNat) % 2 ^ 64 + (1#64).toNat < 2 ^ 64
      · simp only [h1, h2, h3, if_true, Option.bind_eq_bind, Option.bind_some, IsExact, val_def, BitVec.toNat_add]
        simp only [BitVec.toNat_ofNat] at *
        omega
      · simp only [h1, h2, h3, if_true, if_false, Option.bind_eq_bind, Option.bind_some, Option.bind_none, IsExact, width, BitVec.toNat_add]
        simp only [BitVec.toNat_ofNat] at *
        omega
    · simp only [h1, h2, if_true, if_false, Option.bind_eq_bind, Option.bind_some, IsExact, val_def, BitVec.toNat_add]
      omega
  · simp only [h1, if_false, Option.bind_eq_bind, Option.bind_none, IsExact, width]
    omega

/-- `sub_internal` is right whenever no borrow is needed, or the top halves are equal. -/
theorem subInternal_exact (a b c d : BitVec 64) (h : ¬ (c.toNat < a.toNat ∧ b.toNat < d.toNat)) :
    IsExact (subInternal a b c d) ((a.toNat * 2 ^ 64 + b.toNat : Nat) - (c.toNat * 2 ^ 64 + d.toNat : Nat) : Int) := by
  have ha := a.isLt
  have hb := b.isLt
  have hc := c.isLt
  have hd := d.isLt
  have e : a = c ↔ a.toNat = c.toNat := BitVec.toNat_inj.symm
  simp only [subInternal, checkedSub64, BitVec.lt_def, e]
  by_cases h1 : c.toNat ≤ a.toNat
  · by_cases h2 : a.toNat < c.toNat ∨ a.toNat = c.toNat ∧ b.toNat < d.toNat
    · by_cases h3 : (1#64).toNat ≤ (2 ^ 64 - c.toNat + a.toNat) % 2 ^ 64
      · simp only [h1, h2, h3, if_true, Option.bind_eq_bind, Option.bind_some, IsExact, val_def, BitVec.toNat_sub]
        simp only [BitVec.toNat_ofNat] at *
        omega
      · simp only [h1, h2, h3, if_true, if_false, Option.bind_eq_bind, Option.bind_some, Option.bind_none, IsExact, width, BitVec.toNat_sub]
        simp only [BitVec.toNat_ofNat] at *
        omega
    · simp only [h1, h2, if_true, if_false, Option.bind_eq_bind, Option.bind_some, IsExact, val_def, BitVec.toNat_sub]
      omega
  · simp only [h1, if_false, Option.bind_eq_bind, Option.bind_none, IsExact, width]
    omega

/-- In the remaining case (top half greater, bottom half smaller) the answer is too large by exactly `2^64`. -/
theorem subInternal_wrong (a b c d : BitVec 64) (h : c.toNat < a.toNat ∧ b.toNat < d.toNat) :
    ∃ r, subInternal a b c d = some r ∧
      (val r : Int) = (a.toNat * 2 ^ 64 + b.toNat : Nat) - (c.toNat * 2 ^ 64 + d.toNat : Nat) + 2 ^ 64 := by
  have ha := a.isLt
  have hb := b.isLt
  have hc := c.isLt
  have hd := d.isLt
  have e : a = c ↔ a.toNat = c.toNat := BitVec.toNat_inj.symm
  have h2 : ¬ (a.toNat < c.toNat ∨ a.toNat = c.toNat ∧ b.toNat < d.toNat) := by omega
  have h1 : c.toNat ≤ a.toNat := by omega
  refine ⟨⟨a - c, b - d⟩, ?_, ?_⟩
  · simp only [subInternal, checkedSub64, BitVec.lt_def, e, h1, h2, if_true, if_false, Option.bind_eq_bind, Option.bind_some]
  · simp only [val_def, BitVec.toNat_sub]
    omega

theorem int32_lt_zero (k : Int32) : k < 0 ↔ k.toInt < 0 := by
  rw [Int32.lt_iff_toInt_lt]; rfl

theorem ofInt64_toNat (k : Int32) (h : 0 ≤ k.toInt) : ((BitVec.ofInt 64 k.toInt).toNat : Int) = k.toInt := by
  have h2 := k.toInt_lt
  rw [BitVec.toNat_ofInt]
  omega

theorem addOffset_nonneg (pr : Profile) (a : V6) (k : Int32) (h : 0 ≤ k.toInt) :
    ∃ r, addOffset pr a k = .ok r ∧ IsExact r (val a + k.toInt) := by
  rw [addOffset]
  rw [if_neg (by rw [int32_lt_zero]; omega)]
  refine ⟨_, rfl, ?_⟩
  have := addInternal_exact a.topHalf a.bottomHalf 0#64 (BitVec.ofInt 64 k.toInt)
  have e := ofInt64_toNat k h
  refine this.of_eq ?_
  rw [val_def]
  simp only [BitVec.toNat_ofNat]
  omega

theorem subtractOffset_nonneg (pr : Profile) (a : V6) (k : Int32) (h : 0 ≤ k.toInt) :
    subtractOffset pr a k = .ok (subInternal a.topHalf a.bottomHalf 0#64 (BitVec.ofInt 64 k.toInt)) := by
  rw [subtractOffset, if_neg (by rw [int32_lt_zero]; omega)]; rfl

theorem subtractOffset_low (pr : Profile) (a : V6) (k : Int32) (h : 0 ≤ k.toInt) (h2 : k.toInt ≤ (val a % 2 ^ 64 : Nat)) :
    ∃ r, subtractOffset pr a k = .ok r ∧ IsExact r (val a - k.toInt) := by
  rw [subtractOffset_nonneg pr a k h]
  refine ⟨_, rfl, ?_⟩
  have e := ofInt64_toNat k h
  have hb := a.bottomHalf.isLt
  have hm : val a % 2 ^ 64 = a.bottomHalf.toNat := by rw [val_def]; omega
  have := subInternal_exact a.topHalf a.bottomHalf 0#64 (BitVec.ofInt 64 k.toInt) (by omega)
  refine this.of_eq ?_
  rw [val_def]
  simp only [BitVec.toNat_ofNat]
  omega

theorem val_inj (a b : V6) (h : val a = val b) : a = b := by
  have h1 := a.topHalf.isLt
  have h2 := a.bottomHalf.isLt
  have h3 := b.topHalf.isLt
  have h4 := b.bottomHalf.isLt
  rw [val_def, val_def] at h
  cases a; cases b; simp only at *
  congr <;> apply BitVec.eq_of_toNat_eq <;> omega

theorem val_negate (a : V6) : val (negate a) = 2 ^ 128 - 1 - val a := by
  have h1 := a.topHalf.isLt
  have h2 := a.bottomHalf.isLt
  have e1 := nat_ones_xor a.topHalf.isLt
  have e2 := nat_ones_xor a.bottomHalf.isLt
  simp only [negate, val_def, BitVec.toNat_xor, BitVec.toNat_ofNat]
  rw [show 18446744073709551615 % 2 ^ 64 = 2 ^ 64 - 1 by decide, e1, e2]
  omega

theorem le_iff (a b : V6) : IpAddr.le a b = true ↔ val a ≤ val b := by
  have h1 := a.topHalf.isLt
  have h2 := a.bottomHalf.isLt
  have h3 := b.topHalf.isLt
  have h4 := b.bottomHalf.isLt
  simp only [IpAddr.le, val_def, BitVec.le_def, BitVec.lt_def, decide_eq_true_eq, ← BitVec.toNat_inj]
  omega

theorem addAddr_exact (a b : V6) : IsExact (addAddr a b) (val a + val b) := by
  refine (addInternal_exact a.topHalf a.bottomHalf b.topHalf b.bottomHalf).of_eq ?_
  simp only [val_def]; omega

theorem val_ofHalves (n : Nat) (h : n < 2 ^ 128) :
    val (⟨BitVec.ofNat 64 (n / 2 ^ 64), BitVec.ofNat 64 n⟩ : V6) = n := by
  simp only [val_def, BitVec.toNat_ofNat]; omega

theorem countOnes_eq (a : V6) :
    popcount a.topHalf + popcount a.bottomHalf = countBelow 128 (fun i => (val a).testBit i) := by
  simp only [countBelow, testBit_val, popcount]
  rw [show (128 : Nat) = 64 + 64 by rfl, countP_range_add 64 64, Nat.add_comm]
  refine congr (congrArg HAdd.hAdd ?_) ?_
  · apply List.countP_congr
    intro i hi
    rw [List.mem_range] at hi
    simp [hi, BitVec.getLsbD]
  · apply List.countP_congr
    intro i hi
    simp [BitVec.getLsbD]
    omega

theorem countZeros_eq (a : V6) :
    zerocount a.topHalf + zerocount a.bottomHalf = countBelow 128 (fun i => !(val a).testBit i) := by
  simp only [countBelow, testBit_val, zerocount]
  rw [show (128 : Nat) = 64 + 64 by rfl, countP_range_add 64 64, Nat.add_comm]
  refine congr (congrArg HAdd.hAdd ?_) ?_
  · apply List.countP_congr
    intro i hi
    rw [List.mem_range] at hi
    simp [hi, BitVec.getLsbD]
  · apply List.countP_congr
    intro i hi
    simp [BitVec.getLsbD]
    omega

end V6

instance : LawfulIpAddr V6 where
  width_eq := rfl
  width_pos := by decide
  width_le := by decide
  val_lt := V6.val_lt
  val_inj := V6.val_inj
  val_surj n h := ⟨_, V6.val_ofHalves n h⟩
  val_and a b := by
    apply Nat.eq_of_testBit_eq; intro i
    rw [Nat.testBit_and, V6.testBit_val, V6.testBit_val, V6.testBit_val]
    simp only [IpAddr.and, BitVec.toNat_and]
    split <;> rw [Nat.testBit_and]
  val_or a b := by
    apply Nat.eq_of_testBit_eq; intro i
    rw [Nat.testBit_or, V6.testBit_val, V6.testBit_val, V6.testBit_val]
    simp only [IpAddr.or, BitVec.toNat_or]
    split <;> rw [Nat.testBit_or]
  val_xor a b := by
    apply Nat.eq_of_testBit_eq; intro i
    rw [Nat.testBit_xor, V6.testBit_val, V6.testBit_val, V6.testBit_val]
    simp only [IpAddr.xor, BitVec.toNat_xor]
    split <;> rw [Nat.testBit_xor]
  val_negate := V6.val_negate
  le_iff := V6.le_iff
  byteCount_eq _ := rfl
  toBytes_length a := show a.toBytes.length = 16 from rfl
  toBytes_val := V6.toBytes_val
  fromBytes_some := V6.fromBytes_some
  fromBytes_none := V6.fromBytes_none
  countOnes_eq := V6.countOnes_eq
  countZeros_eq := V6.countZeros_eq
  addAddr_exact := V6.addAddr_exact
  addOffset_nonneg := V6.addOffset_nonneg
  subtractOffset_low := V6.subtractOffset_low

end Ripcalc
