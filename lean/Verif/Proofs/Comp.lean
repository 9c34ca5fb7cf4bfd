import Verif.Proofs.Net
/-!
# Compressing a number to the bits selected by a mask
-/
namespace Ripcalc

/-- The number formed by the bits of `x` below `w` at the positions where `m` is one. -/
def comp (w m x : Nat) : Nat := ofBits (select (natBits w m) (natBits w x))

/-- The number of ones of `m` below `j`. -/
def cntb (j m : Nat) : Nat := ones (natBits j m)

theorem cntb_succ (j m : Nat) : cntb (j + 1) m = cntb j m + (m.testBit j).toNat := by
  rw [cntb, natBits]
  cases m.testBit j <;> rfl

theorem comp_length (w m x : Nat) : (select (natBits w m) (natBits w x)).length = cntb w m := select_length (by simp)

theorem comp_succ (w m x : Nat) :
    comp (w + 1) m x = (if m.testBit w then (x.testBit w).toNat * 2 ^ cntb w m else 0) + comp w m x := by
  rw [comp, natBits, natBits]
  cases h : m.testBit w
  · simp [select, comp]
  · simp [select, ofBits, comp_length, comp]

theorem comp_lt (w m x : Nat) : comp w m x < 2 ^ cntb w m := by
  have := ofBits_lt (select (natBits w m) (natBits w x))
  rwa [comp_length] at this

theorem cntb_mono {i j : Nat} (m : Nat) (h : i ≤ j) : cntb i m ≤ cntb j m := by
  induction h with
  | refl => exact Nat.le_refl _
  | step _ ih => rw [cntb_succ]; omega

theorem cntb_zero (m : Nat) : cntb 0 m = 0 := rfl

theorem cntb_eq_iff {i j : Nat} (m : Nat) (h : i ≤ j) : cntb i m = cntb j m ↔ ∀ t, i ≤ t → t < j → m.testBit t = false := by
  induction h with
  | refl => exact ⟨fun _ t h1 h2 => absurd h1 (by omega), fun _ => rfl⟩
  | @step j hij ih =>
    have := cntb_mono m hij
    rw [cntb_succ]
    constructor
    · intro h t h1 h2
      by_cases ht : t = j
      · subst ht
        cases hb : m.testBit t
        · rfl
        · rw [hb] at h; simp at h; omega
      · refine ih.mp ?_ t h1 (by omega)
        cases hb : m.testBit j <;> rw [hb] at h <;> simp at h <;> omega
    · intro h
      rw [h j hij (by omega)]
      simpa using ih.mpr (fun t h1 h2 => h t h1 (by omega))

/-- Equality of the high parts is agreement on the selected high bits. -/
theorem comp_div_eq_iff {w j : Nat} (m x y : Nat) (h : j ≤ w) :
    comp w m x / 2 ^ cntb j m = comp w m y / 2 ^ cntb j m ↔
      ∀ i, j ≤ i → i < w → m.testBit i = true → x.testBit i = y.testBit i := by
  induction h with
  | refl =>
    rw [Nat.div_eq_of_lt (comp_lt ..), Nat.div_eq_of_lt (comp_lt ..)]
    exact ⟨fun _ i h1 h2 => absurd h1 (by omega), fun _ => rfl⟩
  | @step w hjw ih =>
    have hmono := cntb_mono m hjw
    have key : ∀ b : Nat, ∀ z, (b * 2 ^ cntb w m + z) / 2 ^ cntb j m = b * 2 ^ (cntb w m - cntb j m) + z / 2 ^ cntb j m := by
      intro b z
      have e : b * 2 ^ cntb w m = 2 ^ cntb j m * (b * 2 ^ (cntb w m - cntb j m)) := by
        rw [Nat.mul_left_comm, ← Nat.pow_add, Nat.add_sub_cancel' hmono]
      rw [e, Nat.mul_add_div (Nat.two_pow_pos _)]
    have hlt : ∀ z, comp w m z / 2 ^ cntb j m < 2 ^ (cntb w m - cntb j m) := by
      intro z
      rw [Nat.div_lt_iff_lt_mul (Nat.two_pow_pos _), ← Nat.pow_add, Nat.sub_add_cancel hmono]
      exact comp_lt ..
    rw [comp_succ, comp_succ]
    cases hb : m.testBit w
    · simp only [Bool.false_eq_true, if_false, Nat.zero_add]
      rw [ih]
      constructor
      · intro h i h1 h2 h3
        by_cases hi : i = w
        · subst hi; rw [hb] at h3; cases h3
        · exact h i h1 (by omega) h3
      · intro h i h1 h2 h3
        exact h i h1 (by omega) h3
    · simp only [if_true, key]
      have hx := hlt x
      have hy := hlt y
      have : ∀ (b c : Bool) (p u v : Nat), u < p → v < p → (b.toNat * p + u = c.toNat * p + v ↔ b = c ∧ u = v) := by
        intro b c p u v hu hv
        cases b <;> cases c <;> simp <;> omega
      rw [this _ _ _ _ _ hx hy, ih]
      constructor
      · rintro ⟨h1, h2⟩ i h3 h4 h5
        by_cases hi : i = w
        · subst hi; exact h1
        · exact h2 i h3 (by omega) h5
      · intro h
        exact ⟨h w hjw (by omega) hb, fun i h1 h2 h3 => h i h1 (by omega) h3⟩

theorem comp_congr {w m x y : Nat} (h : ∀ i, i < w → m.testBit i = true → x.testBit i = y.testBit i) :
    comp w m x = comp w m y := by
  have := (comp_div_eq_iff (j := 0) m x y (Nat.zero_le w)).mpr (fun i _ => h i)
  rwa [cntb_zero, Nat.pow_zero, Nat.div_one, Nat.div_one] at this

/-- Setting one selected bit. -/
theorem comp_set {w m x y i : Nat} (hi : i < w) (hm : m.testBit i = true) (hx : x.testBit i = false) (hy : y.testBit i = true)
    (h : ∀ t, t < w → t ≠ i → m.testBit t = true → x.testBit t = y.testBit t) :
    comp w m y = comp w m x + 2 ^ cntb i m := by
  induction w with
  | zero => omega
  | succ w ih =>
    rw [comp_succ, comp_succ]
    by_cases hiw : i = w
    · subst hiw
      rw [hm, hx, hy, comp_congr (x := x) (y := y) (fun t ht => h t (by omega) (by omega))]
      simp; omega
    · rw [ih (by omega) (fun t ht => h t (by omega))]
      cases hb : m.testBit w
      · simp
      · rw [h w (by omega) (by omega) hb]; simp; omega

/-- Every number of the right size is a compressed one. -/
theorem comp_surj {w m v : Nat} (hv : v < 2 ^ cntb w m) : ∃ x, x < 2 ^ w ∧ comp w m x = v := by
  induction w generalizing v with
  | zero => exact ⟨0, by simp, by simp [cntb, natBits, ones] at hv; simp [comp, natBits, select, ofBits, hv]⟩
  | succ w ih =>
    rw [cntb_succ] at hv
    have tb : ∀ x, x < 2 ^ w → x.testBit w = false := fun x hx => Nat.testBit_lt_two_pow hx
    cases hb : m.testBit w
    · rw [hb] at hv
      obtain ⟨x, h1, h2⟩ := ih (v := v) (by simpa using hv)
      refine ⟨x, by rw [Nat.pow_succ]; omega, ?_⟩
      rw [comp_succ, hb, h2]; simp
    · rw [hb] at hv
      have hv : v < 2 ^ cntb w m * 2 := by simpa [Nat.pow_succ] using hv
      by_cases hlt : v < 2 ^ cntb w m
      · obtain ⟨x, h1, h2⟩ := ih hlt
        refine ⟨x, by rw [Nat.pow_succ]; omega, ?_⟩
        rw [comp_succ, hb, h2, tb x h1]; simp
      · obtain ⟨x, h1, h2⟩ := ih (v := v - 2 ^ cntb w m) (by omega)
        refine ⟨2 ^ w + x, by rw [Nat.pow_succ]; omega, ?_⟩
        have hcong : comp w m (2 ^ w + x) = comp w m x := comp_congr fun i hi _ => by
          rw [Nat.testBit_two_pow_add_gt hi]
        have ht : (2 ^ w + x).testBit w = true := by
          rw [Nat.testBit_two_pow_add_eq, tb x h1]; rfl
        rw [comp_succ, hb, hcong, h2, ht]; simp; omega

end Ripcalc
