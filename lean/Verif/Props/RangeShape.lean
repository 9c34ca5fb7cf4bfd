import Verif.Spec.Row
import Verif.Props.RangeCount
/-!
# C114: the shape of the list for a range
-/
namespace Ripcalc
open AddrSpec LawfulIpAddr

theorem onesOf_low {k d : Nat} (h : d < 2 ^ k) : onesOf (k + 1) d = onesOf k d := by
  rw [onesOf, onesOf, List.range_succ, List.filter_append]
  simp [Nat.testBit_lt_two_pow h]

theorem onesOf_high {k d : Nat} (h : d < 2 ^ k) : onesOf (k + 1) (2 ^ k + d) = onesOf k d ++ [k] := by
  rw [onesOf, onesOf, List.range_succ, List.filter_append, show List.filter (2 ^ k + d).testBit [k] = [k] by
    simp [Nat.testBit_two_pow_add_eq, Nat.testBit_lt_two_pow h]]
  congr 1
  apply List.filter_congr
  intro i hi
  rw [Nat.testBit_two_pow_add_gt (List.mem_range.mp hi)]

theorem rowSize_append (es fs : List Nat) : rowSize (es ++ fs) = rowSize es + rowSize fs := by
  rw [rowSize, List.map_append, List.sum_append]; rfl

theorem rowSize_cons (i : Nat) (es : List Nat) : rowSize (i :: es) = 2 ^ i + rowSize es := rfl

theorem rowSize_reverse (es : List Nat) : rowSize es.reverse = rowSize es := by
  induction es with
  | nil => rfl
  | cons i es ih => rw [List.reverse_cons, rowSize_append, ih, rowSize_cons, Nat.add_comm]; rfl

theorem rowSize_onesOf (k : Nat) : ∀ d, d < 2 ^ k → rowSize (onesOf k d) = d := by
  induction k with
  | zero =>
    intro d hd
    obtain rfl : d = 0 := by omega
    rfl
  | succ k ih =>
    intro d hd
    rw [Nat.pow_succ] at hd
    rcases Nat.lt_or_ge d (2 ^ k) with h | h
    · rw [onesOf_low h, ih d h]
    · obtain ⟨d', rfl⟩ := Nat.exists_eq_add_of_le h
      rw [onesOf_high (by omega), rowSize_append, ih d' (by omega), rowSize_cons]
      change d' + (2 ^ k + 0) = _
      omega

section generic
variable {A : Type} [IpAddr A] [AddrSpec A] [LawfulIpAddr A]

omit [IpAddr A] [LawfulIpAddr A] in
theorem InRow.length {lo : Nat} {es : List Nat} {ns : List (Net A)} (h : InRow lo es ns) : ns.length = es.length := by
  induction h with
  | nil => rfl
  | cons _ _ _ _ ih => rw [List.length_cons, List.length_cons, ih]

omit [IpAddr A] [LawfulIpAddr A] in
theorem InRow.cidr {lo : Nat} {es : List Nat} {ns : List (Net A)} (h : InRow lo es ns) : ∀ n ∈ ns, ∃ p, IsCidr p n := by
  induction h with
  | nil => simp
  | cons _ h _ _ ih =>
    intro n hn
    rcases List.mem_cons.mp hn with rfl | hn
    · exact ⟨_, h⟩
    · exact ih n hn

omit [IpAddr A] [LawfulIpAddr A] in
theorem InRow.append {lo : Nat} {es fs : List Nat} {ns os : List (Net A)} (h : InRow lo es ns) (h' : InRow (lo + rowSize es) fs os) :
    InRow lo (es ++ fs) (ns ++ os) := by
  induction h with
  | nil => exact h'
  | cons h1 h2 h3 _ ih =>
    rw [rowSize_cons, ← Nat.add_assoc] at h'
    exact .cons h1 h2 h3 (ih h')

theorem InRow.covers {lo : Nat} {es : List Nat} {ns : List (Net A)} (h : InRow lo es ns) :
    Covers ns (fun a => lo ≤ val a ∧ val a < lo + rowSize es) := by
  induction h with
  | nil =>
    intro a
    change _ ↔ _ ∧ _ < _ + 0
    simp only [List.not_mem_nil, false_and, exists_false, false_iff]
    omega
  | @cons lo i n es ns h1 h2 h3 _ ih =>
    intro a
    have := ih a
    have e : Member n a ↔ lo ≤ val a ∧ val a < lo + 2 ^ i := by
      rw [cidr_member_iff h2, h3, show width A - (width A - i) = i by omega]
    have hpos := Nat.two_pow_pos i
    simp only [List.mem_cons, or_and_right, exists_or, exists_eq_left, this, e, rowSize_cons]
    omega

theorem InRow.from {lo : Nat} {es : List Nat} {ns : List (Net A)} (h : InRow lo es ns) : ∀ n ∈ ns, lo ≤ val n.baseAddr :=
  fun n hn => ((h.covers n.baseAddr).mp ⟨n, hn, base_member n⟩).1

theorem InRow.ordered {lo : Nat} {es : List Nat} {ns : List (Net A)} (h : InRow lo es ns) : ns.Pairwise Below := by
  induction h with
  | nil => exact .nil
  | @cons lo i n es ns h1 h2 h3 h4 ih =>
    refine .cons (fun o ho a b ha hb => ?_) ih
    have hb := ((h4.covers b).mp ⟨o, ho, hb⟩).1
    rw [cidr_member_iff h2, h3, show width A - (width A - i) = i by omega] at ha
    omega

theorem InRow.keyLt {lo : Nat} {es : List Nat} {ns : List (Net A)} (h : InRow lo es ns) : ns.Pairwise KeyLt :=
  h.ordered.imp fun h => .inl (h _ _ (base_member _) (base_member _))

theorem row_block {k B : Nat} (hd : 2 ^ k ∣ B) (hB : B + 2 ^ k ≤ 2 ^ width A) :
    ∃ n : Net A, k ≤ width A ∧ IsCidr (width A - k) n ∧ val n.baseAddr = B := by
  have hpos := Nat.two_pow_pos k
  have hk : k ≤ width A := (Nat.pow_le_pow_iff_right (a := 2) (by decide)).mp (by omega)
  obtain ⟨a, ha⟩ := val_surj (A := A) B (by omega)
  obtain ⟨n, -, h2, -, h4⟩ := cidr_of_addr a (p := width A - k) (by omega)
  rw [show width A - (width A - k) = k by omega] at h4
  exact ⟨n, hk, h2, by rw [h4.mpr (by rwa [ha]), ha]⟩

theorem row_front (k : Nat) : ∀ m d, 2 ^ k ∣ m → d < 2 ^ k → m + d ≤ 2 ^ width A → ∃ ns : List (Net A), InRow m (onesOf k d).reverse ns := by
  induction k with
  | zero => exact fun m d _ _ _ => ⟨[], .nil⟩
  | succ k ih =>
    intro m d hm hd hw
    obtain ⟨d1, d2⟩ := pow_dvd_half hm
    rw [Nat.pow_succ] at hd
    rcases Nat.lt_or_ge d (2 ^ k) with h | h
    · rw [onesOf_low h]
      exact ih m d d1 h hw
    · obtain ⟨d', rfl⟩ := Nat.exists_eq_add_of_le h
      rw [onesOf_high (by omega), List.reverse_append]
      obtain ⟨n, n1, n2, n3⟩ := row_block (A := A) d1 (by omega)
      obtain ⟨ns, hns⟩ := ih (m + 2 ^ k) d' d2 (by omega) (by omega)
      exact ⟨n :: ns, .cons n1 n2 n3 hns⟩

theorem row_back (k : Nat) : ∀ a d, 2 ^ k ∣ a + d → d < 2 ^ k → a + d ≤ 2 ^ width A → ∃ ns : List (Net A), InRow a (onesOf k d) ns := by
  induction k with
  | zero => exact fun m d _ _ _ => ⟨[], .nil⟩
  | succ k ih =>
    intro a d hm hd hw
    obtain ⟨d1, -⟩ := pow_dvd_half hm
    rw [Nat.pow_succ] at hd
    rcases Nat.lt_or_ge d (2 ^ k) with h | h
    · rw [onesOf_low h]
      exact ih a d d1 h hw
    · obtain ⟨d', rfl⟩ := Nat.exists_eq_add_of_le h
      have hdv : 2 ^ k ∣ a + d' := by
        have := Nat.dvd_sub d1 (Nat.dvd_refl (2 ^ k))
        rwa [show a + (2 ^ k + d') - 2 ^ k = a + d' by omega] at this
      rw [onesOf_high (by omega)]
      obtain ⟨n, n1, n2, n3⟩ := row_block (A := A) hdv (by omega)
      obtain ⟨ns, hns⟩ := ih a d' hdv (by omega) (by omega)
      refine ⟨ns ++ [n], hns.append (.cons n1 n2 ?_ .nil)⟩
      rw [n3, rowSize_onesOf k d' (by omega)]

/-! ## C114 -/

/-- The list in full.  Let `m` be in the range or just after it, divisible by a power of two greater than its distances from the first
address and from the address after the last.  The networks follow one another from the first address on; before `m` their sizes are
the powers of two of which the first distance is the sum, the smallest first, and behind it those of the second distance, the
greatest first. -/
theorem C114_shape (pr : Profile) (a b : A) (ns : List (Net A)) (h : rangeToSubnets pr a b = .ok ns) (m k : Nat) (hd : 2 ^ k ∣ m)
    (h1 : min (val a) (val b) ≤ m) (h2 : m ≤ max (val a) (val b) + 1) (h3 : m < min (val a) (val b) + 2 ^ k)
    (h4 : max (val a) (val b) + 1 < m + 2 ^ k) :
    InRow (min (val a) (val b))
      (onesOf k (m - min (val a) (val b)) ++ (onesOf k (max (val a) (val b) + 1 - m)).reverse) ns := by
  have hva := val_lt a
  have hvb := val_lt b
  obtain ⟨c1, c2⟩ := range_covers h
  obtain ⟨l, hl⟩ := row_back (A := A) k (min (val a) (val b)) (m - min (val a) (val b)) (by rwa [Nat.add_sub_cancel' h1]) (by omega) (by omega)
  obtain ⟨r, hr⟩ := row_front (A := A) k m (max (val a) (val b) + 1 - m) hd (by omega) (by omega)
  have hs : rowSize (onesOf k (m - min (val a) (val b))) = m - min (val a) (val b) := rowSize_onesOf k _ (by omega)
  have hs' : rowSize (onesOf k (max (val a) (val b) + 1 - m)) = max (val a) (val b) + 1 - m := rowSize_onesOf k _ (by omega)
  have hrow := hl.append (by rw [hs, Nat.add_sub_cancel' h1]; exact hr)
  have hcov : Covers (l ++ r) (Between a b) := fun x => by
    rw [hrow.covers x, rowSize_append, rowSize_reverse, hs, hs', between_iff]
    omega
  obtain ⟨-, hp⟩ := C40_minimal pr a b ns h (l ++ r) hrow.cidr hcov
  have hlen : (l ++ r).length ≤ ns.length := by
    rw [hrow.length, C86_exactly pr a b ns h m k hd h1 h2 h3 h4, List.length_append, List.length_reverse, onesOf, onesOf,
      ← List.countP_eq_length_filter, ← List.countP_eq_length_filter]
    exact Nat.le_refl _
  obtain ⟨ns', z1, -, z2, -⟩ := C39_range_partial pr a b ((C39_returns_iff pr a b).mp ⟨ns, h⟩)
  rw [h] at z1
  cases z1
  rwa [(hp hlen).eq_of_pairwise (le := fun a b => Below a b) (fun a b _ _ hab hba => ?_) z2 hrow.ordered]
  have := hab _ _ (base_member a) (base_member b)
  have := hba _ _ (base_member b) (base_member a)
  omega

/-- A smaller CIDR network. -/
def Smaller (n o : Net A) : Prop := ∃ p q, IsCidr p n ∧ IsCidr q o ∧ q < p

omit [IpAddr A] [LawfulIpAddr A] in
theorem row_split {lo : Nat} {es fs : List Nat} {ns : List (Net A)} (h : InRow lo (es ++ fs) ns) :
    ∃ l r, ns = l ++ r ∧ InRow lo es l ∧ InRow (lo + rowSize es) fs r := by
  induction es generalizing lo ns with
  | nil => exact ⟨[], ns, rfl, .nil, h⟩
  | cons i es ih =>
    cases h with
    | cons h1 h2 h3 h4 =>
      obtain ⟨l, r, rfl, hl, hr⟩ := ih h4
      exact ⟨_ :: l, r, rfl, .cons h1 h2 h3 hl, by rwa [rowSize_cons, ← Nat.add_assoc]⟩

omit [IpAddr A] [LawfulIpAddr A] in
theorem row_pairwise {R : Nat → Nat → Prop} {S : Net A → Net A → Prop}
    (hRS : ∀ i j n o, i ≤ width A → j ≤ width A → IsCidr (width A - i) n → IsCidr (width A - j) o → R i j → S n o)
    {lo : Nat} {es : List Nat} {ns : List (Net A)} (h : InRow lo es ns) (hp : es.Pairwise R) : ns.Pairwise S := by
  have mem : ∀ {lo : Nat} {es : List Nat} {ns : List (Net A)}, InRow lo es ns → ∀ o ∈ ns, ∃ j ∈ es, j ≤ width A ∧ IsCidr (width A - j) o := by
    intro lo es ns h
    induction h with
    | nil => simp
    | cons h1 h2 _ _ ih =>
      intro o ho
      rcases List.mem_cons.mp ho with rfl | ho
      · exact ⟨_, List.mem_cons_self, h1, h2⟩
      · obtain ⟨j, hj, h⟩ := ih o ho
        exact ⟨j, List.mem_cons_of_mem _ hj, h⟩
  induction h with
  | nil => exact .nil
  | cons h1 h2 _ h4 ih =>
    obtain ⟨p1, p2⟩ := List.pairwise_cons.mp hp
    refine .cons (fun o ho => ?_) (ih p2)
    obtain ⟨j, hj, g1, g2⟩ := mem h4 o ho
    exact hRS _ _ _ _ h1 g1 h2 g2 (p1 j hj)

/-- The networks become greater and greater up to some place and smaller and smaller from there on. -/
theorem C114_up_and_down (pr : Profile) (a b : A) (ns : List (Net A)) (h : rangeToSubnets pr a b = .ok ns) :
    ∃ l r, ns = l ++ r ∧ l.Pairwise Smaller ∧ r.Pairwise (fun n o => Smaller o n) := by
  obtain ⟨m, k, hd, h1, h2, h3, h4⟩ := C86_middle pr a b ns h
  obtain ⟨l, r, e, hl, hr⟩ := row_split (C114_shape pr a b ns h m k hd h1 h2 h3 h4)
  have up : ∀ d, (onesOf k d).Pairwise (· < ·) := fun d => List.pairwise_lt_range.filter _
  refine ⟨l, r, e, row_pairwise (R := (· < ·)) (fun i j n o hi hj hn ho hij => ⟨_, _, hn, ho, by omega⟩) hl (up _),
    row_pairwise (R := (· > ·)) (fun i j n o hi hj hn ho hij => ⟨_, _, ho, hn, by omega⟩) hr (List.pairwise_reverse.mpr (up _))⟩

/-- Exactly the lists of CIDR networks that follow one another, do not reach the end of the address space and contain no two networks
that together form one are the lists for ranges. -/
theorem C114_results (pr : Profile) (ns : List (Net A)) :
    (∃ a b, rangeToSubnets pr a b = .ok ns) ↔
      ns ≠ [] ∧ (∃ lo es, InRow lo es ns ∧ lo + rowSize es < 2 ^ width A) ∧
      ∀ n ∈ ns, ∀ o ∈ ns, n ≠ o → ¬ ∃ p s, IsCidr p s ∧ ∀ a, Member s a ↔ Member n a ∨ Member o a := by
  constructor
  · rintro ⟨a, b, h⟩
    obtain ⟨m, k, hd, h1, h2, h3, h4⟩ := C86_middle pr a b ns h
    have hr := C114_shape pr a b ns h m k hd h1 h2 h3 h4
    obtain ⟨c1, c2⟩ := range_covers h
    refine ⟨?_, ⟨_, _, hr, ?_⟩, ?_⟩
    · rintro rfl
      obtain ⟨n, hn, -⟩ := (c2 a).mpr (by rw [Between]; omega)
      cases hn
    · rw [rowSize_append, rowSize_reverse, rowSize_onesOf k _ (by omega), rowSize_onesOf k _ (by omega)]
      have ht := (C39_returns_iff pr a b).mp ⟨ns, h⟩
      have ha := ht a (by rw [Between]; omega)
      have hb := ht b (by rw [Between]; omega)
      have ha' := val_lt a
      have hb' := val_lt b
      omega
    · exact ((C84_nothing_to_merge (evalRuntime .checked true) ns ns c1).mp (C85_derange_minimal _ pr a b ns h)).2.2.2
  · rintro ⟨hne, ⟨lo, es, hr, hlt⟩, hno⟩
    have hpos : 0 < rowSize es := by
      cases hr with
      | nil => exact absurd rfl hne
      | cons =>
        rw [rowSize_cons]
        have := Nat.two_pow_pos
        exact Nat.lt_of_lt_of_le (this _) (Nat.le_add_right _ _)
    obtain ⟨a, ha⟩ := val_surj (A := A) lo (by omega)
    obtain ⟨b, hb⟩ := val_surj (A := A) (lo + rowSize es - 1) (by omega)
    have hbet : ∀ x : A, Between a b x ↔ lo ≤ val x ∧ val x < lo + rowSize es := fun x => by rw [between_iff, ha, hb]; omega
    obtain ⟨ns', h'⟩ := (C39_returns_iff pr a b).mpr fun x hx => by
      have := (hbet x).mp hx
      omega
    obtain ⟨c1, c2⟩ := range_covers h'
    have e1 := C85_derange_minimal (evalRuntime .checked true) pr a b ns' h'
    have e2 := (C84_nothing_to_merge (evalRuntime .checked true) ns ns hr.cidr).mpr ⟨hr.cidr, hr.keyLt, fun _ => Iff.rfl, hno⟩
    rw [C84_addresses_only _ (evalRuntime .checked true) ns' ns c1 hr.cidr fun x => by rw [c2 x, hr.covers x, hbet x], e2] at e1
    cases e1
    exact ⟨a, b, h'⟩

end generic

theorem C114_shape_families : (type_of% (@C114_shape V4 _ _ _)) ∧ (type_of% (@C114_shape V6 _ _ _)) :=
  ⟨@C114_shape V4 _ _ _, @C114_shape V6 _ _ _⟩

theorem C114_up_and_down_families : (type_of% (@C114_up_and_down V4 _ _ _)) ∧ (type_of% (@C114_up_and_down V6 _ _ _)) :=
  ⟨@C114_up_and_down V4 _ _ _, @C114_up_and_down V6 _ _ _⟩

theorem C114_results_families : (type_of% (@C114_results V4 _ _ _)) ∧ (type_of% (@C114_results V6 _ _ _)) :=
  ⟨@C114_results V4 _ _ _, @C114_results V6 _ _ _⟩

/-- From 10.0.0.3 to 10.0.0.17 there are networks of 1, 4, 8 and 2 addresses. -/
example (pr : Profile) (ns : List (Net V4)) (h : rangeToSubnets pr (⟨0x0A000003#32⟩ : V4) ⟨0x0A000011#32⟩ = .ok ns) :
    InRow 0x0A000003 [0, 2, 3, 1] ns :=
  C114_shape pr _ _ ns h 0x0A000010 4 (by decide) (by decide) (by decide) (by decide) (by decide)

end Ripcalc
