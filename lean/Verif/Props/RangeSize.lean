import Verif.Props.Derange
/-!
# How many networks a range needs
-/
namespace Ripcalc
open AddrSpec LawfulIpAddr

section generic
variable {A : Type} [IpAddr A] [AddrSpec A] [LawfulIpAddr A]

/-- The addresses from `lo` to `hi` can be covered with at most `c` CIDR networks. -/
def CanCover (A : Type) [AddrSpec A] (lo hi c : Nat) : Prop :=
  ∃ l : List (Net A), (∀ n ∈ l, ∃ p, IsCidr p n) ∧ Covers l (fun a => lo ≤ val a ∧ val a ≤ hi) ∧ l.length ≤ c

omit [IpAddr A] [LawfulIpAddr A] in
theorem CanCover.mono {lo hi c d : Nat} (h : CanCover A lo hi c) (hcd : c ≤ d) : CanCover A lo hi d := by
  obtain ⟨l, h1, h2, h3⟩ := h
  exact ⟨l, h1, h2, by omega⟩

omit [IpAddr A] [LawfulIpAddr A] in
theorem CanCover.append {lo m hi c d : Nat} (h : CanCover A lo m c) (h' : CanCover A (m + 1) hi d) (h1 : lo ≤ m + 1) (h2 : m ≤ hi) :
    CanCover A lo hi (c + d) := by
  obtain ⟨l, a1, a2, a3⟩ := h
  obtain ⟨l', b1, b2, b3⟩ := h'
  refine ⟨l ++ l', fun n hn => ?_, fun a => ?_, by rw [List.length_append]; omega⟩
  · rcases List.mem_append.mp hn with hn | hn
    · exact a1 n hn
    · exact b1 n hn
  · have ha := a2 a
    have hb := b2 a
    simp only [List.mem_append, or_and_right, exists_or, ha, hb]
    omega

theorem canCover_block {k B : Nat} (hk : k ≤ width A) (hd : 2 ^ k ∣ B) (hB : B + 2 ^ k ≤ 2 ^ width A) : CanCover A B (B + 2 ^ k - 1) 1 := by
  have hpos := Nat.two_pow_pos k
  obtain ⟨a, ha⟩ := val_surj (A := A) B (by omega)
  obtain ⟨n, -, h2, -, h4⟩ := cidr_of_addr a (p := width A - k) (by omega)
  have hw : width A - (width A - k) = k := by omega
  rw [hw] at h4
  have hb := h4.mpr (by rwa [ha])
  refine ⟨[n], by simpa using ⟨_, h2⟩, fun x => ?_, by simp⟩
  simp only [List.mem_singleton, exists_eq_left]
  rw [cidr_member_iff h2, hw, hb, ha]
  omega

theorem pow_dvd_half {k B : Nat} (hd : 2 ^ (k + 1) ∣ B) : 2 ^ k ∣ B ∧ 2 ^ k ∣ B + 2 ^ k := by
  have h : 2 ^ k ∣ B := Nat.dvd_trans (Nat.pow_dvd_pow 2 (by omega)) hd
  exact ⟨h, Nat.dvd_add h (Nat.dvd_refl _)⟩

/-- From the start of a block. -/
theorem canCover_front (k : Nat) : ∀ B x : Nat, k ≤ width A → 2 ^ k ∣ B → B + 2 ^ k ≤ 2 ^ width A → B ≤ x → x < B + 2 ^ k →
    CanCover A B x (max k 1) := by
  induction k with
  | zero =>
    intro B x hk hd hB h1 h2
    have := canCover_block hk hd hB
    rw [Nat.pow_zero] at *
    obtain rfl : x = B + 1 - 1 := by omega
    exact this
  | succ k ih =>
    intro B x hk hd hB h1 h2
    obtain ⟨d1, d2⟩ := pow_dvd_half hd
    rw [Nat.pow_succ] at hB h2
    rcases Nat.lt_or_ge x (B + 2 ^ k) with h | h
    · exact (ih B x (by omega) d1 (by omega) h1 h).mono (by omega)
    · match k with
      | 0 =>
        have := canCover_block hk hd (by rw [Nat.pow_succ]; exact hB)
        simp only [Nat.reduceAdd, Nat.pow_zero, Nat.pow_one] at *
        obtain rfl : x = B + 2 - 1 := by omega
        exact this
      | k + 1 =>
        have hpos := Nat.two_pow_pos (k + 1)
        have e1 := canCover_block (A := A) (k := k + 1) (by omega) d1 (by omega)
        have e2 := ih (B + 2 ^ (k + 1)) x (by omega) d2 (by omega) h (by omega)
        rw [show B + 2 ^ (k + 1) = (B + 2 ^ (k + 1) - 1) + 1 by omega] at e2
        exact (e1.append e2 (by omega) (by omega)).mono (by omega)

/-- To the end of a block. -/
theorem canCover_back (k : Nat) : ∀ B x : Nat, k ≤ width A → 2 ^ k ∣ B → B + 2 ^ k ≤ 2 ^ width A → B ≤ x → x < B + 2 ^ k →
    CanCover A x (B + 2 ^ k - 1) (max k 1) := by
  induction k with
  | zero =>
    intro B x hk hd hB h1 h2
    have := canCover_block hk hd hB
    rw [Nat.pow_zero] at *
    obtain rfl : x = B := by omega
    exact this
  | succ k ih =>
    intro B x hk hd hB h1 h2
    obtain ⟨d1, d2⟩ := pow_dvd_half hd
    rw [Nat.pow_succ] at hB h2
    have hee : B + 2 ^ (k + 1) - 1 = B + 2 ^ k + 2 ^ k - 1 := by rw [Nat.pow_succ]; omega
    rcases Nat.lt_or_ge x (B + 2 ^ k) with h | h
    · match k with
      | 0 =>
        have := canCover_block hk hd (by rw [Nat.pow_succ]; exact hB)
        simp only [Nat.reduceAdd, Nat.pow_zero, Nat.pow_one] at *
        obtain rfl : x = B := by omega
        exact this
      | k + 1 =>
        have hpos := Nat.two_pow_pos (k + 1)
        have e1 := canCover_block (A := A) (k := k + 1) (by omega) d2 (by omega)
        have e2 := ih B x (by omega) d1 (by omega) h1 h
        have e1 : CanCover A ((B + 2 ^ (k + 1) - 1) + 1) (B + 2 ^ (k + 1) + 2 ^ (k + 1) - 1) 1 := by
          rwa [show (B + 2 ^ (k + 1) - 1) + 1 = B + 2 ^ (k + 1) by omega]
        rw [hee]
        exact (e2.append e1 (by omega) (by omega)).mono (by omega)
    · rw [hee]
      exact (ih (B + 2 ^ k) x (by omega) d2 (by omega) h (by omega)).mono (by omega)

/-- Inside a block. -/
theorem canCover_inside (k : Nat) : ∀ B x y : Nat, k ≤ width A → 2 ^ k ∣ B → B + 2 ^ k ≤ 2 ^ width A → B ≤ x → x ≤ y → y < B + 2 ^ k →
    CanCover A x y (max (2 * k - 2) 1) := by
  induction k with
  | zero =>
    intro B x y hk hd hB h1 h2 h3
    have := canCover_block hk hd hB
    rw [Nat.pow_zero] at *
    obtain rfl : x = B := by omega
    obtain rfl : y = x + 1 - 1 := by omega
    exact this
  | succ k ih =>
    intro B x y hk hd hB h1 h2 h3
    obtain ⟨d1, d2⟩ := pow_dvd_half hd
    rw [Nat.pow_succ] at hB h3
    rcases Nat.lt_or_ge y (B + 2 ^ k) with hy | hy
    · exact (ih B x y (by omega) d1 (by omega) h1 h2 hy).mono (by omega)
    rcases Nat.lt_or_ge x (B + 2 ^ k) with hx | hx
    · match k with
      | 0 =>
        have := canCover_block hk hd (by rw [Nat.pow_succ]; exact hB)
        simp only [Nat.reduceAdd, Nat.pow_zero, Nat.pow_one] at *
        obtain rfl : x = B := by omega
        obtain rfl : y = x + 2 - 1 := by omega
        exact this
      | k + 1 =>
        have hpos := Nat.two_pow_pos (k + 1)
        have e1 := canCover_back (A := A) (k + 1) B x (by omega) d1 (by omega) h1 hx
        have e2 := canCover_front (A := A) (k + 1) (B + 2 ^ (k + 1)) y (by omega) d2 (by omega) hy (by omega)
        rw [show B + 2 ^ (k + 1) = (B + 2 ^ (k + 1) - 1) + 1 by omega] at e2
        exact (e1.append e2 (by omega) (by omega)).mono (by omega)
    · exact (ih (B + 2 ^ k) x y (by omega) d2 (by omega) hx h2 (by omega)).mono (by omega)

/-! ## C86: how many networks derange returns -/

/-- If the two addresses agree in all but the lowest `k` bits, at most `2k - 2` networks are returned (or one). -/
theorem C86_at_most (pr : Profile) (a b : A) (k : Nat) (hk : k ≤ width A) (hab : ∀ i, k ≤ i → (val a).testBit i = (val b).testBit i)
    (ns : List (Net A)) (h : rangeToSubnets pr a b = .ok ns) : ns.length ≤ max (2 * k - 2) 1 := by
  have hdiv : val a / 2 ^ k = val b / 2 ^ k := by
    apply Nat.eq_of_testBit_eq
    intro i
    rw [Nat.testBit_div_two_pow, Nat.testBit_div_two_pow]
    exact hab _ (by omega)
  have hpos := Nat.two_pow_pos k
  have ha := Nat.div_add_mod (val a) (2 ^ k)
  have hb := Nat.div_add_mod (val b) (2 ^ k)
  have ha' := Nat.mod_lt (val a) hpos
  have hb' := Nat.mod_lt (val b) hpos
  have hB : 2 ^ k * (val a / 2 ^ k) + 2 ^ k ≤ 2 ^ width A := by
    have h1 : val a / 2 ^ k < 2 ^ (width A - k) := by
      rw [Nat.div_lt_iff_lt_mul hpos, ← Nat.pow_add, Nat.sub_add_cancel hk]
      exact val_lt a
    have h2 := Nat.mul_le_mul_left (2 ^ k) h1
    rw [← Nat.pow_add, Nat.add_sub_cancel' hk, Nat.mul_succ] at h2
    exact h2
  rw [← hdiv] at hb
  obtain ⟨l, l1, l2, l3⟩ := canCover_inside (A := A) k _ (min (val a) (val b)) (max (val a) (val b)) hk (Nat.dvd_mul_right _ _) hB
    (by omega) (by omega) (by omega)
  refine Nat.le_trans (C40_minimal pr a b ns h l l1 fun x => ?_).1 l3
  rw [l2 x, Between]
  omega

omit [LawfulIpAddr A] in
theorem covered_length {S : List Nat} {l : List (Net A)} (hS : S.Nodup) (hcov : ∀ x ∈ S, ∃ n ∈ l, ∃ a : A, val a = x ∧ Member n a)
    (hsep : ∀ x ∈ S, ∀ y ∈ S, x ≠ y → ∀ n ∈ l, ¬ ∃ a b : A, val a = x ∧ val b = y ∧ Member n a ∧ Member n b) : S.length ≤ l.length := by
  induction S generalizing l with
  | nil => simp
  | cons x S ih =>
    obtain ⟨n, hn, a, ha, hm⟩ := hcov x (by simp)
    obtain ⟨hx, hS⟩ := List.nodup_cons.mp hS
    have := ih (l := l.erase n) hS ?_ ?_
    · have h1 := List.length_erase_of_mem hn
      have h2 := List.length_pos_iff.mpr (List.ne_nil_of_mem hn)
      simp only [List.length_cons]; omega
    · intro y hy
      obtain ⟨m, hm', b, hb, hmb⟩ := hcov y (by simp [hy])
      refine ⟨m, (List.mem_erase_of_ne ?_).mpr hm', b, hb, hmb⟩
      rintro rfl
      exact hsep x (by simp) y (by simp [hy]) (by rintro rfl; exact hx hy) m hn ⟨a, b, ha, hb, hm, hmb⟩
    · intro y hy z hz hne m hm'
      exact hsep y (by simp [hy]) z (by simp [hz]) hne m (List.mem_of_mem_erase hm')

/-- Two multiples of the size of a block inside it (counting from its start) are equal. -/
theorem block_point {k B x y : Nat} (hd : 2 ^ k ∣ B) (hx : 2 ^ k ∣ x) (hy : 2 ^ k ∣ y) (h1 : B ≤ x) (h2 : x < B + 2 ^ k) (h3 : B ≤ y)
    (h4 : y < B + 2 ^ k) : x = y := by
  obtain ⟨b, rfl⟩ := hd
  obtain ⟨c, rfl⟩ := hx
  obtain ⟨d, rfl⟩ := hy
  have hpos := Nat.two_pow_pos k
  rw [← Nat.mul_succ] at h2 h4
  have := Nat.le_of_mul_le_mul_left h1 hpos
  have := Nat.le_of_mul_le_mul_left h3 hpos
  have := Nat.lt_of_mul_lt_mul_left h2
  have := Nat.lt_of_mul_lt_mul_left h4
  congr 1
  omega

theorem dvd_two_pow {k i : Nat} (h : 2 ^ k ≤ 2 ^ i) : 2 ^ k ∣ 2 ^ i :=
  Nat.pow_dvd_pow 2 ((Nat.pow_le_pow_iff_right (by decide)).mp h)

/-- The numbers `2^i` and `2^w - 1 - 2^i` are in different blocks, for blocks that contain neither 0 nor `2^w - 1`. -/
theorem separated {w k B x y : Nat} (hw : 2 ≤ w) (hk : k ≤ w) (hd : 2 ^ k ∣ B) (h0 : 1 ≤ B) (hE : B + 2 ^ k ≤ 2 ^ w - 1)
    (hx : ∃ i, i < w - 1 ∧ (x = 2 ^ i ∨ x + 1 + 2 ^ i = 2 ^ w)) (hy : ∃ i, i < w - 1 ∧ (y = 2 ^ i ∨ y + 1 + 2 ^ i = 2 ^ w))
    (h1 : B ≤ x) (h2 : x < B + 2 ^ k) (h3 : B ≤ y) (h4 : y < B + 2 ^ k) : x = y := by
  have hkw : 2 ^ k ∣ 2 ^ w := Nat.pow_dvd_pow 2 hk
  have hB : 2 ^ k ≤ B := Nat.le_of_dvd h0 hd
  have hEd : 2 ^ k ∣ B + 2 ^ k := Nat.dvd_add hd (Nat.dvd_refl _)
  have hrest : 2 ^ k ≤ 2 ^ w - (B + 2 ^ k) := Nat.le_of_dvd (by omega) (Nat.dvd_sub hkw hEd)
  have hpos := Nat.two_pow_pos k
  have low : ∀ x i, x = 2 ^ i → B ≤ x → 2 ^ k ∣ x := by
    rintro x i rfl h
    exact dvd_two_pow (by omega)
  have high : ∀ x i, x + 1 + 2 ^ i = 2 ^ w → x < B + 2 ^ k → 2 ^ k ∣ x + 1 := by
    intro x i h h'
    have h5 : 2 ^ k ∣ 2 ^ i := dvd_two_pow (by omega)
    have := Nat.dvd_sub hkw h5
    rwa [show 2 ^ w - 2 ^ i = x + 1 by omega] at this
  have mixed : ∀ x y i j, i < w - 1 → j < w - 1 → x = 2 ^ i → y + 1 + 2 ^ j = 2 ^ w → B ≤ x → y < B + 2 ^ k → False := by
    intro x y i j hi hj hxi hyj h5 h6
    have hhalf : 2 ^ w = 2 * 2 ^ (w - 1) := by rw [Nat.mul_comm, ← Nat.pow_succ]; congr 1; omega
    have hhalf2 : 2 ^ (w - 1) = 2 * 2 ^ (w - 2) := by rw [Nat.mul_comm, ← Nat.pow_succ]; congr 1; omega
    have e1 : 2 ^ i ≤ 2 ^ (w - 2) := Nat.pow_le_pow_right (by decide) (by omega)
    have e2 : 2 ^ j ≤ 2 ^ (w - 2) := Nat.pow_le_pow_right (by decide) (by omega)
    have e3 := Nat.two_pow_pos (w - 2)
    have hk1 : 2 ^ k ∣ 2 ^ (w - 1) := dvd_two_pow (by omega)
    have h7 : 2 ^ k ≤ 2 ^ (w - 1) - B := Nat.le_of_dvd (by omega) (Nat.dvd_sub hk1 hd)
    omega
  obtain ⟨i, hi, hx⟩ := hx
  obtain ⟨j, hj, hy⟩ := hy
  rcases hx with hx | hx <;> rcases hy with hy | hy
  · exact block_point hd (low x i hx h1) (low y j hy h3) h1 h2 h3 h4
  · exact (mixed x y i j hi hj hx hy h1 h4).elim
  · exact (mixed y x j i hj hi hy hx h3 h2).elim
  · have e1 := high x i hx h2
    have e2 := high y j hy h4
    have : x + 1 = y + 1 := by
      obtain ⟨b, rfl⟩ := hd
      obtain ⟨c, hc⟩ := e1
      obtain ⟨d, hd⟩ := e2
      rw [hc, hd]
      have l1 : 2 ^ k * b < 2 ^ k * c := by omega
      have l2 : 2 ^ k * b < 2 ^ k * d := by omega
      have l3 : 2 ^ k * c ≤ 2 ^ k * (b + 1) := by rw [Nat.mul_succ]; omega
      have l4 : 2 ^ k * d ≤ 2 ^ k * (b + 1) := by rw [Nat.mul_succ]; omega
      have := Nat.lt_of_mul_lt_mul_left l1
      have := Nat.lt_of_mul_lt_mul_left l2
      have := Nat.le_of_mul_le_mul_left l3 hpos
      have := Nat.le_of_mul_le_mul_left l4 hpos
      congr 1
      omega
    omega

/-- The bound is attained by the range from the second address to the second last of the address space. -/
theorem C86_attained (pr : Profile) (a b : A) (ha : val a = 1) (hb : val b = 2 ^ width A - 2) (hw : 2 ≤ width A) :
    ∃ ns, rangeToSubnets pr a b = .ok ns ∧ ns.length = 2 * width A - 2 := by
  have h4 : 2 ^ 2 ≤ 2 ^ width A := Nat.pow_le_pow_right (by decide) hw
  obtain ⟨ns, h1, h2, -, -, h3⟩ := C39_range_partial pr a b (by
    intro x hx
    rw [Between] at hx
    omega)
  refine ⟨ns, h1, Nat.le_antisymm ?_ ?_⟩
  · have := C86_at_most pr a b (width A) (Nat.le_refl _) (fun i hi => by
      rw [Nat.testBit_lt_two_pow (Nat.lt_of_lt_of_le (val_lt a) (Nat.pow_le_pow_right (by decide) hi)),
        Nat.testBit_lt_two_pow (Nat.lt_of_lt_of_le (val_lt b) (Nat.pow_le_pow_right (by decide) hi))]) ns h1
    omega
  · have hin : ∀ x : A, Between a b x ↔ 1 ≤ val x ∧ val x ≤ 2 ^ width A - 2 := by
      intro x; rw [Between]; omega
    have hpow : ∀ i, i < width A - 1 → 2 ^ i ≤ 2 ^ (width A - 2) := fun i hi => Nat.pow_le_pow_right (by decide) (by omega)
    have hq : 2 ^ width A = 4 * 2 ^ (width A - 2) := by
      rw [show (4 : Nat) = 2 ^ 2 by rfl, ← Nat.pow_add]; congr 1; omega
    have hS : ((List.range (width A - 1)).map (fun i => 2 ^ i) ++ (List.range (width A - 1)).map (fun i => 2 ^ width A - 1 - 2 ^ i)).Nodup := by
      rw [List.nodup_append]
      have inj : ∀ i j, 2 ^ i = 2 ^ j → i = j := fun i j h => (Nat.pow_right_inj (by decide)).mp h
      refine ⟨?_, ?_, ?_⟩
      · rw [List.nodup_iff_pairwise_ne, List.pairwise_map]
        exact List.nodup_range.imp fun h e => h (inj _ _ e)
      · rw [List.nodup_iff_pairwise_ne, List.pairwise_map]
        refine List.Pairwise.imp_of_mem ?_ (List.nodup_range (n := width A - 1))
        intro i j hi hj hne e
        have hi := hpow i (List.mem_range.mp hi)
        have hj := hpow j (List.mem_range.mp hj)
        exact hne (inj i j (by omega))
      · intro x hx y hy
        obtain ⟨i, hi, rfl⟩ := List.mem_map.mp hx
        obtain ⟨j, hj, rfl⟩ := List.mem_map.mp hy
        have hi := hpow i (List.mem_range.mp hi)
        have hj := hpow j (List.mem_range.mp hj)
        have := Nat.two_pow_pos (width A - 2)
        omega
    have hshape : ∀ x ∈ (List.range (width A - 1)).map (fun i => 2 ^ i) ++ (List.range (width A - 1)).map (fun i => 2 ^ width A - 1 - 2 ^ i),
        1 ≤ x ∧ x ≤ 2 ^ width A - 2 ∧ ∃ i, i < width A - 1 ∧ (x = 2 ^ i ∨ x + 1 + 2 ^ i = 2 ^ width A) := by
      intro x hx
      rcases List.mem_append.mp hx with hx | hx
      · obtain ⟨i, hi, rfl⟩ := List.mem_map.mp hx
        have hi := List.mem_range.mp hi
        have := hpow i hi
        have := Nat.two_pow_pos i
        exact ⟨by omega, by omega, i, hi, .inl rfl⟩
      · obtain ⟨i, hi, rfl⟩ := List.mem_map.mp hx
        have hi := List.mem_range.mp hi
        have := hpow i hi
        have := Nat.two_pow_pos i
        exact ⟨by omega, by omega, i, hi, .inr (by omega)⟩
    have := covered_length hS (l := ns) ?_ ?_
    · simp only [List.length_append, List.length_map, List.length_range] at this
      omega
    · intro x hx
      obtain ⟨e1, e2, -⟩ := hshape x hx
      obtain ⟨c, hc⟩ := val_surj (A := A) x (by omega)
      obtain ⟨n, hn, hm⟩ := (h3 c).mpr ((hin c).mpr (by omega))
      exact ⟨n, hn, c, hc, hm⟩
    · rintro x hx y hy hne n hn ⟨c, d, rfl, rfl, hmc, hmd⟩
      obtain ⟨p, hp⟩ := h2 n hn
      have hbase := (hin _).mp ((h3 _).mp ⟨n, hn, base_member n⟩)
      obtain ⟨l, hl1, hl2⟩ := cidr_last hp
      have hpos := Nat.two_pow_pos (width A - p)
      have hlast := (hin l).mp ((h3 l).mp ⟨n, hn, (cidr_member_iff hp l).mpr ⟨by omega, by omega⟩⟩)
      rw [cidr_member_iff hp] at hmc hmd
      exact hne (separated hw (Nat.sub_le _ p) (cidr_dvd hp) hbase.1 (by omega) (hshape _ hx).2.2 (hshape _ hy).2.2 hmc.1 hmc.2 hmd.1 hmd.2)

end generic

/-- At most 62 networks for IPv4 and 254 for IPv6, and these numbers occur. -/
theorem C86_families (pr : Profile) :
    (∀ (a b : V4) ns, rangeToSubnets pr a b = .ok ns → ns.length ≤ 62) ∧ (∃ (a b : V4) (ns : List (Net V4)), rangeToSubnets pr a b = .ok ns ∧ ns.length = 62) ∧
    (∀ (a b : V6) ns, rangeToSubnets pr a b = .ok ns → ns.length ≤ 254) ∧
    (∃ (a b : V6) (ns : List (Net V6)), rangeToSubnets pr a b = .ok ns ∧ ns.length = 254) := by
  refine ⟨fun a b ns h => ?_, ?_, fun a b ns h => ?_, ?_⟩
  · have := C86_at_most pr a b 32 (Nat.le_refl _) (fun i hi => by
      rw [Nat.testBit_lt_two_pow (Nat.lt_of_lt_of_le (val_lt a) (Nat.pow_le_pow_right (by decide) hi)),
        Nat.testBit_lt_two_pow (Nat.lt_of_lt_of_le (val_lt b) (Nat.pow_le_pow_right (by decide) hi))]) ns h
    omega
  · obtain ⟨ns, h1, h2⟩ := C86_attained (A := V4) pr ⟨1#32⟩ ⟨0xFFFFFFFE#32⟩ (by decide) (by decide) (by decide)
    exact ⟨_, _, ns, h1, h2⟩
  · have := C86_at_most pr a b 128 (Nat.le_refl _) (fun i hi => by
      rw [Nat.testBit_lt_two_pow (Nat.lt_of_lt_of_le (val_lt a) (Nat.pow_le_pow_right (by decide) hi)),
        Nat.testBit_lt_two_pow (Nat.lt_of_lt_of_le (val_lt b) (Nat.pow_le_pow_right (by decide) hi))]) ns h
    omega
  · obtain ⟨ns, h1, h2⟩ := C86_attained (A := V6) pr ⟨0, 1#64⟩ ⟨0xFFFFFFFFFFFFFFFF#64, 0xFFFFFFFFFFFFFFFE#64⟩ (by decide) (by decide) (by decide)
    exact ⟨_, _, ns, h1, h2⟩

/-- Inside a /24 at most 14 networks. -/
example (pr : Profile) (ns : List (Net V4)) (h : rangeToSubnets pr (⟨0xC0000201#32⟩ : V4) ⟨0xC00002FE#32⟩ = .ok ns) : ns.length ≤ 14 :=
  C86_at_most pr _ _ 8 (by decide) (fun i hi => by
    have key : ∀ v w : Nat, v / 2 ^ 8 = w / 2 ^ 8 → v.testBit i = w.testBit i := by
      intro v w h
      have := congrArg (fun n => n.testBit (i - 8)) h
      simp only [Nat.testBit_div_two_pow] at this
      rwa [Nat.sub_add_cancel hi] at this
    exact key _ _ (by decide)) ns h

end Ripcalc
