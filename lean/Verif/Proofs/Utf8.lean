import Verif.Model.Process
import Verif.Spec.Utf8
/-!
# Lemmas about UTF-8
-/
namespace Ripcalc

theorem binary_from (x : List Bool) : ∀ n, x.foldl (fun n b => 2 * n + b.toNat) n = n * 2 ^ x.length + binary x := by
  induction x with
  | nil => intro n; simp [binary]
  | cons b x ih =>
    intro n
    rw [List.foldl_cons, ih, List.length_cons, Nat.pow_succ]
    rw [show binary (b :: x) = x.foldl (fun n b => 2 * n + b.toNat) (2 * 0 + b.toNat) from rfl, ih]
    generalize 2 ^ x.length = k
    generalize binary x = m
    rw [Nat.add_mul, Nat.add_mul, Nat.mul_zero, Nat.zero_mul, Nat.mul_comm 2 n, Nat.mul_assoc, Nat.mul_comm 2 k]
    omega

theorem binary_append (x y : List Bool) : binary (x ++ y) = binary x * 2 ^ y.length + binary y := by
  rw [binary, List.foldl_append, binary_from]; rfl

theorem binary_lt (x : List Bool) : binary x < 2 ^ x.length := by
  induction x with
  | nil => decide
  | cons b x ih =>
    rw [show b :: x = [b] ++ x from rfl, binary_append, List.length_append, List.length_singleton, Nat.pow_add]
    have : binary [b] ≤ 1 := by cases b <;> decide
    have := Nat.mul_le_mul_right (2 ^ x.length) this
    omega

theorem binary_surj (k : Nat) : ∀ n, n < 2 ^ k → ∃ x : List Bool, x.length = k ∧ binary x = n := by
  induction k with
  | zero => intro n h; exact ⟨[], rfl, by rw [Nat.pow_zero] at h; show 0 = n; omega⟩
  | succ k ih =>
    intro n h
    rw [Nat.pow_succ] at h
    obtain ⟨x, h1, h2⟩ := ih (n / 2) (by omega)
    refine ⟨x ++ [decide (n % 2 = 1)], by simp [h1], ?_⟩
    rw [binary_append, h2]
    have : binary [decide (n % 2 = 1)] = n % 2 := by
      rcases Nat.mod_two_eq_zero_or_one n with h | h <;> rw [h] <;> decide
    rw [this]
    simp only [List.length_singleton]
    omega

theorem utf8Char_iff (c : Char) (bs : List Byte) : Utf8Char c bs ↔ bs = utf8EncodeChar c := by
  have hv : c.toNat < 0xD800 ∨ (0xDFFF < c.toNat ∧ c.toNat < 0x110000) := c.valid
  constructor
  · intro h
    cases h with
    | @one x h1 h2 =>
      have k := binary_lt x
      rw [h1] at k
      rw [utf8EncodeChar, if_pos (by omega), binary_append, ← h2, show binary [false] = 0 from rfl, Nat.zero_mul, Nat.zero_add]
    | @two x y h1 h2 h3 h4 =>
      have kx := binary_lt x
      have ky := binary_lt y
      rw [h1] at kx
      rw [h2] at ky
      rw [binary_append, h2] at h3
      rw [utf8EncodeChar, if_neg (by omega), if_pos (by omega)]
      simp only [binary_append, h1, h2]
      rw [show binary [true, true, false] = 6 from rfl, show binary [true, false] = 2 from rfl]
      rw [show 6 * 2 ^ 5 + binary x = c.toNat / 64 % 32 + 0xC0 by omega, show 2 * 2 ^ 6 + binary y = c.toNat % 64 + 0x80 by omega]
    | @three x y z h1 h2 h3 h4 h5 =>
      have kx := binary_lt x
      have ky := binary_lt y
      have kz := binary_lt z
      rw [h1] at kx
      rw [h2] at ky
      rw [h3] at kz
      rw [binary_append, binary_append, h2, h3] at h4
      rw [utf8EncodeChar, if_neg (by omega), if_neg (by omega), if_pos (by omega)]
      simp only [binary_append, h1, h2, h3]
      rw [show binary [true, true, true, false] = 14 from rfl, show binary [true, false] = 2 from rfl]
      rw [show 14 * 2 ^ 4 + binary x = c.toNat / 4096 % 16 + 0xE0 by omega, show 2 * 2 ^ 6 + binary y = c.toNat / 64 % 64 + 0x80 by omega,
        show 2 * 2 ^ 6 + binary z = c.toNat % 64 + 0x80 by omega]
    | @four x y z w h1 h2 h3 h4 h5 h6 =>
      have kx := binary_lt x
      have ky := binary_lt y
      have kz := binary_lt z
      have kw := binary_lt w
      rw [h1] at kx
      rw [h2] at ky
      rw [h3] at kz
      rw [h4] at kw
      rw [binary_append, binary_append, binary_append, h2, h3, h4] at h5
      rw [utf8EncodeChar, if_neg (by omega), if_neg (by omega), if_neg (by omega)]
      simp only [binary_append, h1, h2, h3, h4]
      rw [show binary [true, true, true, true, false] = 30 from rfl, show binary [true, false] = 2 from rfl]
      rw [show 30 * 2 ^ 3 + binary x = c.toNat / 262144 % 8 + 0xF0 by omega, show 2 * 2 ^ 6 + binary y = c.toNat / 4096 % 64 + 0x80 by omega,
        show 2 * 2 ^ 6 + binary z = c.toNat / 64 % 64 + 0x80 by omega, show 2 * 2 ^ 6 + binary w = c.toNat % 64 + 0x80 by omega]
  · rintro rfl
    unfold utf8EncodeChar
    dsimp only
    split
    · rename_i h
      obtain ⟨x, h1, h2⟩ := binary_surj 7 c.toNat (by omega)
      have := Utf8Char.one (c := c) h1 h2.symm
      rwa [binary_append, h2, show binary [false] = 0 from rfl, Nat.zero_mul, Nat.zero_add] at this
    · split
      · obtain ⟨x, h1, h2⟩ := binary_surj 5 (c.toNat / 64 % 32) (by omega)
        obtain ⟨y, h3, h4⟩ := binary_surj 6 (c.toNat % 64) (by omega)
        have := Utf8Char.two (c := c) h1 h3 (by rw [binary_append, h2, h3, h4]; omega) (by omega)
        simp only [binary_append, h1, h2, h3, h4] at this
        rw [show binary [true, true, false] = 6 from rfl, show binary [true, false] = 2 from rfl, Nat.add_comm, Nat.add_comm _ (c.toNat % 64)] at this
        exact this
      · split
        · obtain ⟨x, h1, h2⟩ := binary_surj 4 (c.toNat / 4096 % 16) (by omega)
          obtain ⟨y, h3, h4⟩ := binary_surj 6 (c.toNat / 64 % 64) (by omega)
          obtain ⟨z, h5, h6⟩ := binary_surj 6 (c.toNat % 64) (by omega)
          have := Utf8Char.three (c := c) h1 h3 h5 (by rw [binary_append, binary_append, h2, h3, h4, h5, h6]; omega) (by omega)
          simp only [binary_append, h1, h2, h3, h4, h5, h6] at this
          rw [show binary [true, true, true, false] = 14 from rfl, show binary [true, false] = 2 from rfl, Nat.add_comm, Nat.add_comm _ (c.toNat % 64),
            Nat.add_comm _ (c.toNat / 64 % 64)] at this
          exact this
        · obtain ⟨x, h1, h2⟩ := binary_surj 3 (c.toNat / 262144 % 8) (by omega)
          obtain ⟨y, h3, h4⟩ := binary_surj 6 (c.toNat / 4096 % 64) (by omega)
          obtain ⟨z, h5, h6⟩ := binary_surj 6 (c.toNat / 64 % 64) (by omega)
          obtain ⟨w, h7, h8⟩ := binary_surj 6 (c.toNat % 64) (by omega)
          have := Utf8Char.four (c := c) h1 h3 h5 h7 (by rw [binary_append, binary_append, binary_append, h2, h3, h4, h5, h6, h7, h8]; omega) (by omega)
          simp only [binary_append, h1, h2, h3, h4, h5, h6, h7, h8] at this
          rw [show binary [true, true, true, true, false] = 30 from rfl, show binary [true, false] = 2 from rfl, Nat.add_comm, Nat.add_comm _ (c.toNat % 64),
            Nat.add_comm _ (c.toNat / 64 % 64), Nat.add_comm _ (c.toNat / 4096 % 64)] at this
          exact this

theorem utf8_iff (s : Str) : ∀ bs, Utf8 s bs ↔ bs = utf8Encode s := by
  induction s with
  | nil =>
    intro bs
    constructor
    · rintro ⟨⟩; rfl
    · rintro rfl; exact .nil
  | cons c s ih =>
    intro bs
    rw [utf8Encode, List.flatMap_cons]
    constructor
    · rintro (_ | ⟨h1, h2⟩)
      rw [(utf8Char_iff _ _).mp h1, (ih _).mp h2]; rfl
    · rintro rfl
      exact .cons ((utf8Char_iff _ _).mpr rfl) ((ih _).mpr rfl)

theorem ofNat_toNat (c : Char) : Char.ofNat c.toNat = c := Char.ofNat_toNat c

theorem toNat_ofNat {n : Nat} (h : n < 0xD800 ∨ (0xDFFF < n ∧ n < 0x110000)) : (Char.ofNat n).toNat = n := by
  rw [Char.ofNat, dif_pos h]; rfl

theorem byte_toNat {n : Nat} (h : n < 256) : (BitVec.ofNat 8 n).toNat = n := by
  rw [BitVec.toNat_ofNat]; exact Nat.mod_eq_of_lt h

theorem byte_ofNat {n : Nat} (b : Byte) (h : n = b.toNat) : BitVec.ofNat 8 n = b := by
  subst h; exact BitVec.ofNat_toNat ..

theorem isCont_iff (b : Byte) : isCont b = true ↔ 0x80 ≤ b.toNat ∧ b.toNat ≤ 0xBF := by simp [isCont]

theorem secondOfThree_iff (b0 b1 : Byte) : secondOfThree b0 b1 = true ↔
    0x80 ≤ b1.toNat ∧ b1.toNat ≤ 0xBF ∧ (b0.toNat = 0xE0 → 0xA0 ≤ b1.toNat) ∧ (b0.toNat = 0xED → b1.toNat ≤ 0x9F) := by
  rw [secondOfThree]
  split
  · simp only [Bool.and_eq_true, decide_eq_true_eq]; omega
  · split
    · simp only [Bool.and_eq_true, decide_eq_true_eq]; omega
    · rw [isCont_iff]; omega

theorem secondOfFour_iff (b0 b1 : Byte) : secondOfFour b0 b1 = true ↔
    0x80 ≤ b1.toNat ∧ b1.toNat ≤ 0xBF ∧ (b0.toNat = 0xF0 → 0x90 ≤ b1.toNat) ∧ (b0.toNat = 0xF4 → b1.toNat ≤ 0x8F) := by
  rw [secondOfFour]
  split
  · simp only [Bool.and_eq_true, decide_eq_true_eq]; omega
  · split
    · simp only [Bool.and_eq_true, decide_eq_true_eq]; omega
    · rw [isCont_iff]; omega

theorem utf8Decode_char (c : Char) (bs : List Byte) : utf8Decode (utf8EncodeChar c ++ bs) = (utf8Decode bs).map (c :: ·) := by
  have hv : c.toNat < 0xD800 ∨ (0xDFFF < c.toNat ∧ c.toNat < 0x110000) := c.valid
  unfold utf8EncodeChar
  dsimp only
  split
  · rename_i h
    rw [List.singleton_append, utf8Decode.eq_def]
    dsimp only
    rw [byte_toNat (by omega), if_pos h, ofNat_toNat]
  · split
    · simp only [List.cons_append, List.nil_append]
      rw [utf8Decode.eq_def]
      dsimp only
      have e0 := byte_toNat (show c.toNat / 64 % 32 + 0xC0 < 256 by omega)
      have e1 := byte_toNat (show c.toNat % 64 + 0x80 < 256 by omega)
      rw [if_neg (by omega), if_pos (by omega), if_pos (by rw [isCont_iff]; omega), e0, e1]
      rw [show (c.toNat / 64 % 32 + 192) % 32 * 64 + (c.toNat % 64 + 128) % 64 = c.toNat by omega, ofNat_toNat]
    · split
      · simp only [List.cons_append, List.nil_append]
        rw [utf8Decode.eq_def]
        dsimp only
        have e0 := byte_toNat (show c.toNat / 4096 % 16 + 0xE0 < 256 by omega)
        have e1 := byte_toNat (show c.toNat / 64 % 64 + 0x80 < 256 by omega)
        have e2 := byte_toNat (show c.toNat % 64 + 0x80 < 256 by omega)
        rw [if_neg (by omega), if_neg (by omega), if_pos (by omega),
          if_pos (by rw [Bool.and_eq_true, isCont_iff, secondOfThree_iff, e0, e1, e2]; omega), e0, e1, e2]
        rw [show (c.toNat / 4096 % 16 + 224) % 16 * 4096 + (c.toNat / 64 % 64 + 128) % 64 * 64 + (c.toNat % 64 + 128) % 64 = c.toNat by omega, ofNat_toNat]
      · simp only [List.cons_append, List.nil_append]
        rw [utf8Decode.eq_def]
        dsimp only
        have e0 := byte_toNat (show c.toNat / 262144 % 8 + 0xF0 < 256 by omega)
        have e1 := byte_toNat (show c.toNat / 4096 % 64 + 0x80 < 256 by omega)
        have e2 := byte_toNat (show c.toNat / 64 % 64 + 0x80 < 256 by omega)
        have e3 := byte_toNat (show c.toNat % 64 + 0x80 < 256 by omega)
        rw [if_neg (by omega), if_neg (by omega), if_neg (by omega), if_pos (by omega),
          if_pos (by rw [Bool.and_eq_true, Bool.and_eq_true, isCont_iff, isCont_iff, secondOfFour_iff, e0, e1, e2, e3]; omega), e0, e1, e2, e3]
        rw [show (c.toNat / 262144 % 8 + 240) % 8 * 262144 + (c.toNat / 4096 % 64 + 128) % 64 * 4096 + (c.toNat / 64 % 64 + 128) % 64 * 64 +
          (c.toNat % 64 + 128) % 64 = c.toNat by omega, ofNat_toNat]

theorem utf8Decode_encode (s : Str) : utf8Decode (utf8Encode s) = some s := by
  induction s with
  | nil => rfl
  | cons c s ih => rw [utf8Encode, List.flatMap_cons, utf8Decode_char, show s.flatMap utf8EncodeChar = utf8Encode s from rfl, ih]; rfl

theorem utf8Decode_some (k : Nat) : ∀ bs : List Byte, bs.length ≤ k → ∀ s, utf8Decode bs = some s → bs = utf8Encode s := by
  induction k with
  | zero =>
    intro bs hl s h
    have hb : bs = [] := List.length_eq_zero_iff.mp (by omega)
    subst hb
    cases h; rfl
  | succ k ih =>
    intro bs hl s h
    have key : ∀ (pre rest : List Byte) (n : Nat), bs = pre ++ rest → 0 < pre.length → (utf8Decode rest).map (Char.ofNat n :: ·) = some s →
        utf8EncodeChar (Char.ofNat n) = pre → bs = utf8Encode s := by
      intro pre rest n e1 e2 e3 e4
      obtain ⟨t, h1, h2⟩ := Option.map_eq_some_iff.mp e3
      rw [← h2, e1, utf8Encode, List.flatMap_cons, e4]
      congr 1
      exact ih rest (by rw [e1, List.length_append] at hl; omega) t h1
    match bs, hl, h, key with
    | [], _, h, _ => cases h; rfl
    | b0 :: bs0, _, h, key =>
      have l0 := b0.isLt
      unfold utf8Decode at h
      split at h
      · refine key [b0] bs0 _ rfl (by simp) h ?_
        rw [utf8EncodeChar, toNat_ofNat (by omega), if_pos ‹_›, byte_ofNat b0 rfl]
      · match bs0, h, key with
        | [], h, _ => cases h
        | b1 :: bs1, h, key =>
          dsimp only at h
          have l1 := b1.isLt
          split at h
          · split at h
            · rename_i h2 h3
              rw [isCont_iff] at h3
              refine key [b0, b1] bs1 _ rfl (by simp) h ?_
              rw [utf8EncodeChar, toNat_ofNat (by omega), if_neg (by omega), if_pos (by omega), byte_ofNat b0 (by omega), byte_ofNat b1 (by omega)]
            · cases h
          · match bs1, h, key with
            | [], h, _ => cases h
            | b2 :: bs2, h, key =>
              dsimp only at h
              have l2 := b2.isLt
              split at h
              · split at h
                · rename_i h2 h3
                  rw [Bool.and_eq_true, isCont_iff, secondOfThree_iff] at h3
                  refine key [b0, b1, b2] bs2 _ rfl (by simp) h ?_
                  rw [utf8EncodeChar, toNat_ofNat (by omega), if_neg (by omega), if_neg (by omega), if_pos (by omega), byte_ofNat b0 (by omega),
                    byte_ofNat b1 (by omega), byte_ofNat b2 (by omega)]
                · cases h
              · match bs2, h, key with
                | [], h, _ => cases h
                | b3 :: bs3, h, key =>
                  dsimp only at h
                  have l3 := b3.isLt
                  split at h
                  · split at h
                    · rename_i h2 h3
                      rw [Bool.and_eq_true, Bool.and_eq_true, isCont_iff, isCont_iff, secondOfFour_iff] at h3
                      refine key [b0, b1, b2, b3] bs3 _ rfl (by simp) h ?_
                      rw [utf8EncodeChar, toNat_ofNat (by omega), if_neg (by omega), if_neg (by omega), if_neg (by omega), byte_ofNat b0 (by omega),
                        byte_ofNat b1 (by omega), byte_ofNat b2 (by omega), byte_ofNat b3 (by omega)]
                    · cases h
                  · cases h

theorem utf8Decode_iff (bs : List Byte) (s : Str) : utf8Decode bs = some s ↔ Utf8 s bs := by
  rw [utf8_iff]
  exact ⟨utf8Decode_some _ bs (Nat.le_refl _) s, fun h => h ▸ utf8Decode_encode s⟩

end Ripcalc
