import Verif.Props.RangeSize
import Verif.Props.Maximal
/-!
# Exactly how many networks a range needs
-/
namespace Ripcalc
open AddrSpec LawfulIpAddr

/-! ## Ones in base two -/

theorem ones_succ (k : Nat) (P : Nat → Bool) : countBelow (k + 1) P = countBelow k P + if P k then 1 else 0 := by
  rw [countBelow, countBelow, List.range_succ, List.countP_append]
  simp [List.countP_cons]

theorem ones_low {k d : Nat} (h : d < 2 ^ k) : countBelow (k + 1) (Nat.testBit d) = countBelow k (Nat.testBit d) := by
  rw [ones_succ, Nat.testBit_lt_two_pow h]
  rfl

theorem ones_high {k d : Nat} (h : d < 2 ^ k) : countBelow (k + 1) (Nat.testBit (2 ^ k + d)) = countBelow k (Nat.testBit d) + 1 := by
  rw [ones_succ, Nat.testBit_two_pow_add_eq, Nat.testBit_lt_two_pow h]
  congr 1
  rw [countBelow, countBelow]
  apply List.countP_congr
  intro i hi
  rw [Nat.testBit_two_pow_add_gt (List.mem_range.mp hi)]

theorem ones_more {k d : Nat} (h : d < 2 ^ k) (j : Nat) : countBelow (k + j) (Nat.testBit d) = countBelow k (Nat.testBit d) := by
  induction j with
  | zero => rfl
  | succ j ih =>
    rw [← ih, ← Nat.add_assoc]
    exact ones_low (Nat.lt_of_lt_of_le h (Nat.pow_le_pow_right (by decide) (by omega)))

theorem ones_any {k l d : Nat} (h : d < 2 ^ k) (h' : d < 2 ^ l) : countBelow k (Nat.testBit d) = countBelow l (Nat.testBit d) := by
  rw [← ones_more h l, ← ones_more h' k, Nat.add_comm]

/-! ## Points in different networks -/

/-- No block of a power of two with its start at a multiple of its size that lies between `lo` and `hi` contains two of the points. -/
def Apart (lo hi : Nat) (S : List Nat) : Prop :=
  ∀ x ∈ S, ∀ y ∈ S, ∀ s B, 2 ^ s ∣ B → lo ≤ B → B + 2 ^ s ≤ hi → B ≤ x → x < B + 2 ^ s → B ≤ y → y < B + 2 ^ s → x = y

/-- A block does not extend across a multiple of its size. -/
theorem block_across {s B m : Nat} (hB : 2 ^ s ∣ B) (hm : 2 ^ s ∣ m) (h : B < m) : B + 2 ^ s ≤ m := by
  have := Nat.le_of_dvd (by omega) (Nat.dvd_sub hm hB)
  omega

theorem marks_front (k : Nat) : ∀ m d, 2 ^ k ∣ m → d < 2 ^ k →
    ∃ S : List Nat, S.length = countBelow k (Nat.testBit d) ∧ S.Nodup ∧ (∀ x ∈ S, m ≤ x ∧ x < m + d) ∧ ∀ lo, Apart lo (m + d) S := by
  induction k with
  | zero => exact fun m d _ hd => ⟨[], rfl, List.nodup_nil, by simp, by simp [Apart]⟩
  | succ k ih =>
    intro m d hm hd
    obtain ⟨d1, d2⟩ := pow_dvd_half hm
    rw [Nat.pow_succ] at hd
    rcases Nat.lt_or_ge d (2 ^ k) with h | h
    · obtain ⟨S, h1, h2⟩ := ih m d d1 h
      exact ⟨S, by rw [h1, ones_low h], h2⟩
    · obtain ⟨d', rfl⟩ := Nat.exists_eq_add_of_le h
      obtain ⟨S, h1, h2, h3, h4⟩ := ih (m + 2 ^ k) d' d2 (by omega)
      have hpos := Nat.two_pow_pos k
      have hfar : ∀ x ∈ S, ∀ s B, 2 ^ s ∣ B → B + 2 ^ s ≤ m + (2 ^ k + d') → B ≤ m → m < B + 2 ^ s → x < B + 2 ^ s → False := by
        intro x hx s B hB he hBm hmB hxB
        have := h3 x hx
        rcases Nat.lt_or_ge k s with hs | hs
        · have hk : 2 ^ (k + 1) ∣ 2 ^ s := Nat.pow_dvd_pow 2 hs
          have := block_across hm (Nat.dvd_add (Nat.dvd_trans hk hB) hk) hmB
          rw [Nat.pow_succ] at this
          omega
        · have hs' : 2 ^ s ∣ m := Nat.dvd_trans (Nat.pow_dvd_pow 2 hs) d1
          have : 2 ^ s ≤ 2 ^ k := Nat.pow_le_pow_right (by decide) hs
          have : B = m := by
            rcases Nat.lt_or_ge B m with hlt | hge
            · have := block_across hB hs' hlt
              omega
            · omega
          omega
      refine ⟨m :: S, by rw [List.length_cons, h1, ones_high (by omega)], List.nodup_cons.mpr ⟨fun hmem => ?_, h2⟩, ?_, ?_⟩
      · have := h3 m hmem
        omega
      · intro x hx
        rcases List.mem_cons.mp hx with rfl | hx
        · omega
        · have := h3 x hx
          omega
      · intro lo x hx y hy s B hB hlo he hx1 hx2 hy1 hy2
        rcases List.mem_cons.mp hx with rfl | hx' <;> rcases List.mem_cons.mp hy with rfl | hy'
        · rfl
        · exact (hfar y hy' s B hB he hx1 hx2 hy2).elim
        · exact (hfar x hx' s B hB he hy1 hy2 hx2).elim
        · exact h4 lo x hx' y hy' s B hB hlo (by omega) hx1 hx2 hy1 hy2

theorem marks_back (k : Nat) : ∀ a d, 2 ^ k ∣ a + d → d < 2 ^ k →
    ∃ S : List Nat, S.length = countBelow k (Nat.testBit d) ∧ S.Nodup ∧ (∀ x ∈ S, a ≤ x ∧ x < a + d) ∧ ∀ hi, Apart a hi S := by
  induction k with
  | zero => exact fun a d _ hd => ⟨[], rfl, List.nodup_nil, by simp, by simp [Apart]⟩
  | succ k ih =>
    intro a d hm hd
    obtain ⟨d1, -⟩ := pow_dvd_half hm
    rw [Nat.pow_succ] at hd
    rcases Nat.lt_or_ge d (2 ^ k) with h | h
    · obtain ⟨S, h1, h2⟩ := ih a d d1 h
      exact ⟨S, by rw [h1, ones_low h], h2⟩
    · obtain ⟨d', rfl⟩ := Nat.exists_eq_add_of_le h
      have hpos := Nat.two_pow_pos k
      obtain ⟨S, h1, h2, h3, h4⟩ := ih a d' (by
        have := Nat.dvd_sub d1 (Nat.dvd_refl (2 ^ k))
        rwa [show a + (2 ^ k + d') - 2 ^ k = a + d' by omega] at this) (by omega)
      have hfar : ∀ x ∈ S, ∀ s B, 2 ^ s ∣ B → a ≤ B → B ≤ x → B ≤ a + (2 ^ k + d') - 1 → a + (2 ^ k + d') - 1 < B + 2 ^ s → False := by
        intro x hx s B hB hlo hBx hBm hmB
        have := h3 x hx
        rcases Nat.lt_or_ge k s with hs | hs
        · have hk : 2 ^ (k + 1) ∣ B := Nat.dvd_trans (Nat.pow_dvd_pow 2 hs) hB
          have := block_across hk hm (by omega)
          rw [Nat.pow_succ] at this
          omega
        · have hs' : 2 ^ s ∣ a + (2 ^ k + d') := Nat.dvd_trans (Nat.pow_dvd_pow 2 hs) d1
          have hle : 2 ^ s ≤ 2 ^ k := Nat.pow_le_pow_right (by decide) hs
          have := block_across hB hs' (by omega)
          omega
      refine ⟨(a + (2 ^ k + d') - 1) :: S, by rw [List.length_cons, h1, ones_high (by omega)], List.nodup_cons.mpr ⟨fun hmem => ?_, h2⟩, ?_, ?_⟩
      · have := h3 _ hmem
        omega
      · intro x hx
        rcases List.mem_cons.mp hx with rfl | hx
        · omega
        · have := h3 x hx
          omega
      · intro hi x hx y hy s B hB hlo he hx1 hx2 hy1 hy2
        rcases List.mem_cons.mp hx with rfl | hx' <;> rcases List.mem_cons.mp hy with rfl | hy'
        · rfl
        · exact (hfar y hy' s B hB hlo hy1 hx1 hx2).elim
        · exact (hfar x hx' s B hB hlo hx1 hy1 hy2).elim
        · exact h4 hi x hx' y hy' s B hB hlo he hx1 hx2 hy1 hy2

/-- As many points in different networks as there are ones in the lengths of the two parts. -/
theorem marks_both {k a m y : Nat} (hm : 2 ^ k ∣ m) (ha : a ≤ m) (hy : m ≤ y) (h1 : m < a + 2 ^ k) (h2 : y < m + 2 ^ k) :
    ∃ S : List Nat, S.length = countBelow k (Nat.testBit (m - a)) + countBelow k (Nat.testBit (y - m)) ∧ S.Nodup ∧
      (∀ x ∈ S, a ≤ x ∧ x < y) ∧ Apart a y S := by
  obtain ⟨S, s1, s2, s3, s4⟩ := marks_back k a (m - a) (by rwa [Nat.add_sub_cancel' ha]) (by omega)
  obtain ⟨T, t1, t2, t3, t4⟩ := marks_front k m (y - m) hm (by omega)
  rw [Nat.add_sub_cancel' ha] at s3
  rw [Nat.add_sub_cancel' hy] at t3 t4
  have hfar : ∀ x ∈ S, ∀ z ∈ T, ∀ s B, 2 ^ s ∣ B → a ≤ B → B ≤ x → z < B + 2 ^ s → False := by
    intro x hx z hz s B hB hlo hBx hzB
    have := s3 x hx
    have := t3 z hz
    rcases Nat.lt_or_ge k s with hs | hs
    · have := block_across (Nat.dvd_trans (Nat.pow_dvd_pow 2 (Nat.le_of_lt hs)) hB) hm (by omega)
      omega
    · have := block_across hB (Nat.dvd_trans (Nat.pow_dvd_pow 2 hs) hm) (by omega)
      omega
  refine ⟨S ++ T, by rw [List.length_append, s1, t1], List.nodup_append.mpr ⟨s2, t2, fun x hx z hz => ?_⟩, fun x hx => ?_, ?_⟩
  · have := s3 x hx
    have := t3 z hz
    omega
  · rcases List.mem_append.mp hx with hx | hx
    · have := s3 x hx
      omega
    · have := t3 x hx
      omega
  · intro x hx z hz s B hB hlo he hx1 hx2 hz1 hz2
    rcases List.mem_append.mp hx with hx | hx <;> rcases List.mem_append.mp hz with hz | hz
    · exact s4 y x hx z hz s B hB hlo he hx1 hx2 hz1 hz2
    · exact (hfar x hx z hz s B hB hlo hx1 hz2).elim
    · exact (hfar z hz x hx s B hB hlo hz1 hx2).elim
    · exact t4 a x hx z hz s B hB hlo he hx1 hx2 hz1 hz2

section generic
variable {A : Type} [IpAddr A] [AddrSpec A] [LawfulIpAddr A]

/-! ## As few networks -/

/-- The addresses from `lo` on and below `hi` can be covered with at most `c` CIDR networks. -/
def CanFill (A : Type) [AddrSpec A] (lo hi c : Nat) : Prop :=
  ∃ l : List (Net A), (∀ n ∈ l, ∃ p, IsCidr p n) ∧ Covers l (fun a => lo ≤ val a ∧ val a < hi) ∧ l.length ≤ c

omit [IpAddr A] [LawfulIpAddr A] in
theorem CanFill.append {lo m hi c d : Nat} (h : CanFill A lo m c) (h' : CanFill A m hi d) (h1 : lo ≤ m) (h2 : m ≤ hi) :
    CanFill A lo hi (c + d) := by
  obtain ⟨l, a1, a2, a3⟩ := h
  obtain ⟨l', b1, b2, b3⟩ := h'
  refine ⟨l ++ l', fun n hn => ?_, fun a => ?_, by rw [List.length_append]; omega⟩
  · rcases List.mem_append.mp hn with hn | hn
    · exact a1 n hn
    · exact b1 n hn
  · have ha := a2 a
    have hb := b2 a
    simp only [List.mem_append, or_and_right, exists_or, ha, hb]
    omega

omit [IpAddr A] [LawfulIpAddr A] in
theorem canFill_nothing (lo : Nat) : CanFill A lo lo 0 :=
  ⟨[], by simp, fun a => by simp only [List.not_mem_nil, false_and, exists_false, false_iff]; omega, by simp⟩

theorem canFill_block {k B : Nat} (hd : 2 ^ k ∣ B) (hB : B + 2 ^ k ≤ 2 ^ width A) : CanFill A B (B + 2 ^ k) 1 := by
  have hpos := Nat.two_pow_pos k
  have hk : k ≤ width A := (Nat.pow_le_pow_iff_right (a := 2) (by decide)).mp (by omega)
  obtain ⟨l, h1, h2, h3⟩ := canCover_block hk hd hB
  refine ⟨l, h1, fun a => (h2 a).trans ?_, h3⟩
  omega

theorem canFill_front (k : Nat) : ∀ m d, 2 ^ k ∣ m → d < 2 ^ k → m + d ≤ 2 ^ width A →
    CanFill A m (m + d) (countBelow k (Nat.testBit d)) := by
  induction k with
  | zero =>
    intro m d _ hd _
    obtain rfl : d = 0 := by omega
    exact canFill_nothing m
  | succ k ih =>
    intro m d hm hd hw
    obtain ⟨d1, d2⟩ := pow_dvd_half hm
    rw [Nat.pow_succ] at hd
    rcases Nat.lt_or_ge d (2 ^ k) with h | h
    · rw [ones_low h]
      exact ih m d d1 h hw
    · obtain ⟨d', rfl⟩ := Nat.exists_eq_add_of_le h
      rw [ones_high (by omega), Nat.add_comm (countBelow _ _)]
      have := (canFill_block (A := A) d1 (by omega)).append (ih (m + 2 ^ k) d' d2 (by omega) (by omega)) (by omega) (by omega)
      rwa [Nat.add_assoc] at this

theorem canFill_back (k : Nat) : ∀ a d, 2 ^ k ∣ a + d → d < 2 ^ k → a + d ≤ 2 ^ width A →
    CanFill A a (a + d) (countBelow k (Nat.testBit d)) := by
  induction k with
  | zero =>
    intro m d _ hd _
    obtain rfl : d = 0 := by omega
    exact canFill_nothing m
  | succ k ih =>
    intro a d hm hd hw
    obtain ⟨d1, -⟩ := pow_dvd_half hm
    rw [Nat.pow_succ] at hd
    rcases Nat.lt_or_ge d (2 ^ k) with h | h
    · rw [ones_low h]
      exact ih a d d1 h hw
    · obtain ⟨d', rfl⟩ := Nat.exists_eq_add_of_le h
      have hdv : 2 ^ k ∣ a + d' := by
        have := Nat.dvd_sub d1 (Nat.dvd_refl (2 ^ k))
        rwa [show a + (2 ^ k + d') - 2 ^ k = a + d' by omega] at this
      rw [ones_high (by omega)]
      have := (ih a d' hdv (by omega) (by omega)).append (canFill_block (A := A) hdv (by omega)) (by omega) (by omega)
      rwa [show a + d' + 2 ^ k = a + (2 ^ k + d') by omega] at this

/-! ## C86: the exact number -/

/-- In every range there is a place, the end included, that is divisible by a power of two by which neither the addresses before it
in the range nor those after it are divisible: it is less than this power away from both ends. -/
theorem middle_exists {w a y : Nat} (hay : a < y) (hy : y < 2 ^ w) :
    ∃ m k, 2 ^ k ∣ m ∧ a ≤ m ∧ m ≤ y ∧ m < a + 2 ^ k ∧ y < m + 2 ^ k := by
  rcases Nat.eq_zero_or_pos a with rfl | ha
  · exact ⟨0, w, Nat.dvd_zero _, by omega, by omega, by omega, by omega⟩
  have key : ∀ n, (¬ ∃ m, 2 ^ n ∣ m ∧ a ≤ m ∧ m ≤ y) → ∃ k, (∃ m, 2 ^ k ∣ m ∧ a ≤ m ∧ m ≤ y) ∧ ¬ ∃ m, 2 ^ (k + 1) ∣ m ∧ a ≤ m ∧ m ≤ y := by
    intro n
    induction n with
    | zero => exact fun h => (h ⟨a, by simp, by omega, by omega⟩).elim
    | succ n ih =>
      intro h
      by_cases h' : ∃ m, 2 ^ n ∣ m ∧ a ≤ m ∧ m ≤ y
      · exact ⟨n, h', h⟩
      · exact ih h'
  obtain ⟨k, ⟨m, h1, h2, h3⟩, h4⟩ := key w (by
    rintro ⟨m, h1, h2, h3⟩
    have := Nat.le_of_dvd (by omega) h1
    omega)
  have hpos := Nat.two_pow_pos k
  have hodd : 2 ^ (k + 1) ∣ m + 2 ^ k := by
    obtain ⟨c, rfl⟩ := h1
    rcases Nat.mod_two_eq_zero_or_one c with hc | hc
    · exact (h4 ⟨2 ^ k * c, by
        rw [Nat.pow_succ]
        exact Nat.mul_dvd_mul_left _ (Nat.dvd_of_mod_eq_zero hc), h2, h3⟩).elim
    · rw [Nat.pow_succ, ← Nat.mul_succ]
      exact Nat.mul_dvd_mul_left _ (by omega)
  have hle : 2 ^ k ≤ m := Nat.le_of_dvd (by omega) h1
  have hback : 2 ^ (k + 1) ∣ m - 2 ^ k := by
    have := Nat.dvd_sub hodd (Nat.dvd_refl (2 ^ (k + 1)))
    rw [Nat.pow_succ] at *
    rwa [show m + 2 ^ k - 2 ^ k * 2 = m - 2 ^ k by omega] at this
  refine ⟨m, k, h1, h2, h3, ?_, ?_⟩
  · rcases Nat.lt_or_ge m (a + 2 ^ k) with h | h
    · exact h
    · exact (h4 ⟨m - 2 ^ k, hback, by omega, by omega⟩).elim
  · rcases Nat.lt_or_ge y (m + 2 ^ k) with h | h
    · exact h
    · exact (h4 ⟨m + 2 ^ k, hodd, by omega, by omega⟩).elim

/-- Exactly how many networks are returned.  Let `m` be in the range or just after it, divisible by a power of two that is greater
than the distance of `m` from the first address of the range and from the address after the last.  There are as many networks
before `m` as there are ones in the number of addresses before `m`, and as many behind. -/
theorem C86_exactly (pr : Profile) (a b : A) (ns : List (Net A)) (h : rangeToSubnets pr a b = .ok ns) (m k : Nat) (hd : 2 ^ k ∣ m)
    (h1 : min (val a) (val b) ≤ m) (h2 : m ≤ max (val a) (val b) + 1) (h3 : m < min (val a) (val b) + 2 ^ k)
    (h4 : max (val a) (val b) + 1 < m + 2 ^ k) :
    ns.length = countBelow k (Nat.testBit (m - min (val a) (val b))) + countBelow k (Nat.testBit (max (val a) (val b) + 1 - m)) := by
  have hva := val_lt a
  have hvb := val_lt b
  have hin : ∀ x : A, Between a b x ↔ min (val a) (val b) ≤ val x ∧ val x < max (val a) (val b) + 1 := by
    exact between_iff a b
  obtain ⟨c1, c2⟩ := range_covers h
  refine Nat.le_antisymm ?_ ?_
  · have e1 := canFill_back (A := A) k (min (val a) (val b)) (m - min (val a) (val b)) (by rwa [Nat.add_sub_cancel' h1]) (by omega) (by omega)
    have e2 := canFill_front (A := A) k m (max (val a) (val b) + 1 - m) hd (by omega) (by omega)
    rw [Nat.add_sub_cancel' h1] at e1
    rw [Nat.add_sub_cancel' h2] at e2
    obtain ⟨l, l1, l2, l3⟩ := e1.append e2 h1 h2
    exact Nat.le_trans (C40_minimal pr a b ns h l l1 fun x => (l2 x).trans (hin x).symm).1 l3
  · obtain ⟨S, s1, s2, s3, s4⟩ := marks_both hd h1 h2 h3 h4
    rw [← s1]
    refine covered_length s2 (fun x hx => ?_) ?_
    · have := s3 x hx
      obtain ⟨c, hc⟩ := val_surj (A := A) x (by omega)
      obtain ⟨n, hn, hm⟩ := (c2 c).mpr ((hin c).mpr (by omega))
      exact ⟨n, hn, c, hc, hm⟩
    · rintro x hx y hy hne n hn ⟨c, d, rfl, rfl, hmc, hmd⟩
      obtain ⟨p, hp⟩ := c1 n hn
      have hbase := (hin _).mp ((c2 _).mp ⟨n, hn, base_member n⟩)
      obtain ⟨l, hl1, hl2⟩ := cidr_last hp
      have hpos := Nat.two_pow_pos (width A - p)
      have hlast := (hin l).mp ((c2 l).mp ⟨n, hn, (cidr_member_iff hp l).mpr ⟨by omega, by omega⟩⟩)
      rw [cidr_member_iff hp] at hmc hmd
      exact hne (s4 _ hx _ hy (width A - p) _ (cidr_dvd hp) hbase.1 (by omega) hmc.1 hmc.2 hmd.1 hmd.2)

/-- There is such a place in every range that is converted. -/
theorem C86_middle (pr : Profile) (a b : A) (ns : List (Net A)) (h : rangeToSubnets pr a b = .ok ns) :
    ∃ m k, 2 ^ k ∣ m ∧ min (val a) (val b) ≤ m ∧ m ≤ max (val a) (val b) + 1 ∧ m < min (val a) (val b) + 2 ^ k ∧
      max (val a) (val b) + 1 < m + 2 ^ k := by
  have ht := (C39_returns_iff pr a b).mp ⟨ns, h⟩
  have ha := ht a (by rw [Between]; omega)
  have hb := ht b (by rw [Between]; omega)
  have ha' := val_lt a
  have hb' := val_lt b
  exact middle_exists (w := width A) (by omega) (by omega)

end generic

theorem C86_exactly_families : (type_of% (@C86_exactly V4 _ _ _)) ∧ (type_of% (@C86_exactly V6 _ _ _)) :=
  ⟨@C86_exactly V4 _ _ _, @C86_exactly V6 _ _ _⟩

theorem C86_middle_families : (type_of% (@C86_middle V4 _ _ _)) ∧ (type_of% (@C86_middle V6 _ _ _)) :=
  ⟨@C86_middle V4 _ _ _, @C86_middle V6 _ _ _⟩

/-- From 10.0.0.3 to 10.0.0.17 there are 13 addresses before 10.0.0.16 (8 + 4 + 1) and 2 behind: four networks. -/
example (pr : Profile) (ns : List (Net V4)) (h : rangeToSubnets pr (⟨0x0A000003#32⟩ : V4) ⟨0x0A000011#32⟩ = .ok ns) : ns.length = 4 :=
  C86_exactly pr _ _ ns h 0x0A000010 4 (by decide) (by decide) (by decide) (by decide) (by decide)

/-- The hypothesis is met: this range is converted. -/
example (pr : Profile) : ∃ ns, rangeToSubnets pr (⟨0x0A000003#32⟩ : V4) ⟨0x0A000011#32⟩ = .ok ns :=
  (C39_returns_iff pr _ _).mpr fun x hx => by
    rw [between_iff] at hx
    have h2 : val x < 0x0A000011 + 1 := hx.2
    change val x ≠ 0xFFFFFFFF
    omega

end Ripcalc
