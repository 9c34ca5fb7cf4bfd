/-!
# Aligned blocks of numbers

A block is `2 ^ k` consecutive numbers from a multiple of `2 ^ k` on.
-/
namespace Ripcalc

/-- `x` is in the block of size `2 ^ k` starting at `b`. -/
def InBlk (k b x : Nat) : Prop := b ≤ x ∧ x < b + 2 ^ k

theorem inBlk_base (k b : Nat) : InBlk k b b := ⟨Nat.le_refl _, by have := Nat.two_pow_pos k; omega⟩

/-- The block of size `2 ^ k` around `x`. -/
theorem inBlk_iff_div {k b x : Nat} (hb : 2 ^ k ∣ b) : InBlk k b x ↔ x / 2 ^ k = b / 2 ^ k := by
  obtain ⟨c, rfl⟩ := hb
  have hpos := Nat.two_pow_pos k
  rw [InBlk, Nat.mul_div_cancel_left _ hpos]
  constructor
  · rintro ⟨h1, h2⟩
    apply Nat.div_eq_of_lt_le
    · rw [Nat.mul_comm]; exact h1
    · rw [Nat.add_mul, Nat.one_mul, Nat.mul_comm]; exact h2
  · intro h
    have h1 := Nat.div_add_mod x (2 ^ k)
    have h2 := Nat.mod_lt x hpos
    rw [h] at h1
    omega

/-- Blocks that meet are nested. -/
theorem blk_nested {k b j c x : Nat} (hb : 2 ^ k ∣ b) (hc : 2 ^ j ∣ c) (hkj : k ≤ j) (h1 : InBlk k b x) (h2 : InBlk j c x) :
    b - c + 2 ^ k ≤ 2 ^ j ∧ c ≤ b := by
  have hd : (2 : Nat) ^ k ∣ 2 ^ j := Nat.pow_dvd_pow 2 hkj
  obtain ⟨d, hd'⟩ := hd
  obtain ⟨c', rfl⟩ := hc
  obtain ⟨b', rfl⟩ := hb
  have hpos := Nat.two_pow_pos k
  rw [inBlk_iff_div ⟨b', rfl⟩, Nat.mul_div_cancel_left _ hpos] at h1
  obtain ⟨h3, h4⟩ := h2
  rw [hd', Nat.mul_assoc] at h3 h4
  have h5 : d * c' ≤ b' := by rw [← h1, Nat.le_div_iff_mul_le hpos, Nat.mul_comm]; exact h3
  have h6 : b' < d * c' + d := by
    rw [← h1, Nat.div_lt_iff_lt_mul hpos, Nat.mul_comm, Nat.mul_add]; exact h4
  have h7 : 2 ^ k * (d * c') ≤ 2 ^ k * b' := Nat.mul_le_mul_left _ h5
  have h8 : 2 ^ k * (b' + 1) ≤ 2 ^ k * (d * c' + d) := Nat.mul_le_mul_left _ h6
  rw [Nat.mul_add, Nat.mul_add, Nat.mul_one] at h8
  rw [hd', Nat.mul_assoc]
  omega

theorem blk_subset {k b j c x : Nat} (hb : 2 ^ k ∣ b) (hc : 2 ^ j ∣ c) (hkj : k ≤ j) (h1 : InBlk k b x) (h2 : InBlk j c x) :
    ∀ y, InBlk k b y → InBlk j c y := by
  obtain ⟨h3, h4⟩ := blk_nested hb hc hkj h1 h2
  rintro y ⟨h5, h6⟩
  exact ⟨by omega, by omega⟩

theorem blk_eq {k b c x : Nat} (hb : 2 ^ k ∣ b) (hc : 2 ^ k ∣ c) (h1 : InBlk k b x) (h2 : InBlk k c x) : b = c := by
  have := blk_nested hb hc (Nat.le_refl _) h1 h2
  have := blk_nested hc hb (Nat.le_refl _) h2 h1
  omega

/-- The start of the block of twice the size. -/
def parentBase (k b : Nat) : Nat := b - b % 2 ^ (k + 1)

theorem parentBase_dvd (k b : Nat) : 2 ^ (k + 1) ∣ parentBase k b := Nat.dvd_sub_mod b

theorem parentBase_mem (k b : Nat) : InBlk (k + 1) (parentBase k b) b := by
  have := Nat.mod_lt b (Nat.two_pow_pos (k + 1))
  have := Nat.mod_le b (2 ^ (k + 1))
  rw [parentBase]
  exact ⟨by omega, by omega⟩

/-- Either the lower or the upper half. -/
theorem parentBase_cases {k b : Nat} (hb : 2 ^ k ∣ b) :
    (2 ^ (k + 1) ∣ b ∧ parentBase k b = b) ∨ (¬ 2 ^ (k + 1) ∣ b ∧ parentBase k b + 2 ^ k = b) := by
  have hpos := Nat.two_pow_pos k
  obtain ⟨c, rfl⟩ := hb
  have hm : 2 ^ k * c % 2 ^ (k + 1) = 2 ^ k * (c % 2) := by rw [Nat.pow_succ, Nat.mul_mod_mul_left]
  rcases Nat.mod_two_eq_zero_or_one c with h | h
  · left
    rw [h, Nat.mul_zero] at hm
    exact ⟨Nat.dvd_of_mod_eq_zero hm, by rw [parentBase, hm]; rfl⟩
  · right
    rw [h, Nat.mul_one] at hm
    refine ⟨fun hd => ?_, ?_⟩
    · rw [Nat.mod_eq_zero_of_dvd hd] at hm; omega
    · have := Nat.mod_le (2 ^ k * c) (2 ^ (k + 1))
      rw [parentBase, hm]; omega

theorem nodup_subset_length [DecidableEq α] {l T : List α} (hn : l.Nodup) (hs : ∀ a ∈ l, a ∈ T) :
    l.length ≤ T.length ∧ (T.length ≤ l.length → l.Perm T) := by
  induction l generalizing T with
  | nil =>
    refine ⟨by simp, fun h => ?_⟩
    have : T = [] := List.length_eq_zero_iff.mp (by simpa using h)
    rw [this]
  | cons a l ih =>
    rw [List.nodup_cons] at hn
    have ha := hs a List.mem_cons_self
    have hl : ∀ b ∈ l, b ∈ T.erase a := by
      intro b hb
      have hne : b ≠ a := by rintro rfl; exact hn.1 hb
      rw [List.mem_erase_of_ne hne]
      exact hs b (List.mem_cons_of_mem _ hb)
    have hp := List.perm_cons_erase ha
    have hlen := hp.length_eq
    obtain ⟨h1, h2⟩ := ih hn.2 hl
    simp only [List.length_cons] at hlen ⊢
    refine ⟨by omega, fun h => ?_⟩
    exact ((h2 (by omega)).cons a).trans hp.symm

theorem pairwise_mem {R : α → α → Prop} (symm : ∀ a b, R a b → R b a) {l : List α} (h : l.Pairwise R) :
    ∀ a ∈ l, ∀ b ∈ l, a ≠ b → R a b := by
  induction h with
  | nil => intro a ha; exact absurd ha (by simp)
  | @cons x l h1 _ ih =>
    intro a ha b hb hne
    rcases List.mem_cons.mp ha with rfl | ha' <;> rcases List.mem_cons.mp hb with rfl | hb'
    · exact absurd rfl hne
    · exact h1 b hb'
    · exact symm _ _ (h1 a ha')
    · exact ih a ha' b hb' hne

/-- A list of disjoint blocks, each maximal in the union, is the unique shortest list of blocks with this union. -/
theorem blocks_minimal {α : Type} (kk bb : α → Nat) (S T : List α)
    (hS : ∀ s ∈ S, 2 ^ kk s ∣ bb s) (hT : ∀ t ∈ T, 2 ^ kk t ∣ bb t)
    (hinj : ∀ s ∈ S, ∀ t ∈ T, kk s = kk t → bb s = bb t → s = t)
    (hd : S.Pairwise (fun s s' => ∀ x, ¬ (InBlk (kk s) (bb s) x ∧ InBlk (kk s') (bb s') x)))
    (hc : ∀ x, (∃ s ∈ S, InBlk (kk s) (bb s) x) ↔ (∃ t ∈ T, InBlk (kk t) (bb t) x))
    (hm : ∀ s ∈ S, ∃ x, InBlk (kk s + 1) (parentBase (kk s) (bb s)) x ∧ ¬ ∃ s' ∈ S, InBlk (kk s') (bb s') x) :
    S.length ≤ T.length ∧ (T.length ≤ S.length → S.Perm T) := by
  classical
  have ex : ∀ s ∈ S, ∃ t ∈ T, InBlk (kk t) (bb t) (bb s) := fun s hs => (hc _).mp ⟨s, hs, inBlk_base _ _⟩
  have sub : ∀ s ∈ S, ∀ t ∈ T, InBlk (kk t) (bb t) (bb s) → kk t ≤ kk s := by
    intro s hs t ht hi
    rcases Nat.lt_or_ge (kk s) (kk t) with hlt | hge
    · exfalso
      obtain ⟨x, h1, h2⟩ := hm s hs
      apply h2
      rw [hc]
      exact ⟨t, ht, blk_subset (parentBase_dvd _ _) (hT t ht) hlt (parentBase_mem _ _) hi x h1⟩
    · exact hge
  let f : α → α := fun s => if h : s ∈ S then Classical.choose (ex s h) else s
  have hf : ∀ s ∈ S, f s ∈ T ∧ InBlk (kk (f s)) (bb (f s)) (bb s) := by
    intro s hs
    have := Classical.choose_spec (ex s hs)
    simp only [f, dif_pos hs]
    exact this
  have hsub : ∀ s ∈ S, ∀ y, InBlk (kk (f s)) (bb (f s)) y → InBlk (kk s) (bb s) y := by
    intro s hs
    exact blk_subset (hT _ (hf s hs).1) (hS s hs) (sub s hs _ (hf s hs).1 (hf s hs).2) (hf s hs).2 (inBlk_base _ _)
  have hnd : (S.map f).Nodup := by
    rw [List.Nodup, List.pairwise_map]
    refine hd.imp_of_mem ?_
    intro s s' hs hs' hdis he
    apply hdis (bb (f s))
    refine ⟨hsub s hs _ (inBlk_base _ _), ?_⟩
    have := hsub s' hs' (bb (f s')) (inBlk_base _ _)
    rwa [← he] at this
  have hmem : ∀ t ∈ S.map f, t ∈ T := by
    intro t ht
    obtain ⟨s, hs, rfl⟩ := List.mem_map.mp ht
    exact (hf s hs).1
  obtain ⟨h1, h2⟩ := nodup_subset_length hnd hmem
  rw [List.length_map] at h1 h2
  refine ⟨h1, fun hlen => ?_⟩
  have hperm := h2 hlen
  have heq : ∀ s ∈ S, f s = s := by
    intro s hs
    have hle := sub s hs _ (hf s hs).1 (hf s hs).2
    rcases Nat.lt_or_eq_of_le hle with hlt | he
    · exfalso
      -- some address of `s` is outside `f s`
      have hpow : 2 ^ kk (f s) < 2 ^ kk s := Nat.pow_lt_pow_right (by omega) hlt
      have hx : ∃ x, InBlk (kk s) (bb s) x ∧ ¬ InBlk (kk (f s)) (bb (f s)) x := by
        have hb := (hf s hs).2
        rw [InBlk] at hb
        rcases Nat.lt_or_ge (bb (f s)) (bb s) with h | h
        · exact absurd (hsub s hs _ (inBlk_base _ _)).1 (by omega)
        · refine ⟨bb s + (2 ^ kk s - 1), ⟨by omega, by omega⟩, ?_⟩
          rintro ⟨-, h4⟩
          omega
      obtain ⟨x, hx1, hx2⟩ := hx
      obtain ⟨t, ht, hxt⟩ := (hc x).mp ⟨s, hs, hx1⟩
      obtain ⟨s', hs', rfl⟩ := List.mem_map.mp (hperm.mem_iff.mpr ht)
      have hxs' := hsub s' hs' x hxt
      have hne : s ≠ s' := by rintro rfl; exact hx2 hxt
      have key := pairwise_mem (fun a b h x hx => h x hx.symm) hd
      exact key s hs s' hs' hne x ⟨hx1, hxs'⟩
    · have hbb : bb (f s) = bb s := by
        have hdv := hT _ (hf s hs).1
        have hin := (hf s hs).2
        rw [he] at hdv hin
        exact blk_eq hdv (hS s hs) hin (inBlk_base _ _)
      exact (hinj s hs _ (hf s hs).1 he.symm hbb.symm).symm
  have : S.map f = S := by
    conv => rhs; rw [← List.map_id S]
    exact List.map_congr_left heq
  rwa [this] at hperm

/-- Disjoint blocks of which no two are the halves of one block are maximal in their union. -/
theorem no_sib_maximal {α : Type} (kk bb : α → Nat) (S : List α) (hS : ∀ s ∈ S, 2 ^ kk s ∣ bb s)
    (hd : ∀ s ∈ S, ∀ t ∈ S, s ≠ t → ∀ x, ¬ (InBlk (kk s) (bb s) x ∧ InBlk (kk t) (bb t) x))
    (hns : ∀ s ∈ S, ∀ t ∈ S, kk s = kk t → 2 ^ (kk s + 1) ∣ bb s → bb t = bb s + 2 ^ kk s → False) :
    ∀ s ∈ S, ∃ x, InBlk (kk s + 1) (parentBase (kk s) (bb s)) x ∧ ¬ ∃ s' ∈ S, InBlk (kk s') (bb s') x := by
  intro s hs
  apply Classical.byContradiction
  intro hno
  have hall : ∀ x, InBlk (kk s + 1) (parentBase (kk s) (bb s)) x → ∃ s' ∈ S, InBlk (kk s') (bb s') x := fun x hx =>
    Classical.byContradiction fun hn => hno ⟨x, hx, hn⟩
  clear hno
  generalize hk : kk s = k at hall
  induction k using Nat.strongRecOn generalizing s with
  | ind k ih =>
    have hpos := Nat.two_pow_pos k
    have hsa := hS s hs
    rw [hk] at hsa
    have hpd := parentBase_dvd k (bb s)
    have hpm := parentBase_mem k (bb s)
    -- the other half
    obtain ⟨c, hc1, hc2, hc3⟩ : ∃ c, 2 ^ k ∣ c ∧ InBlk (k + 1) (parentBase k (bb s)) c ∧
        ((2 ^ (k + 1) ∣ bb s ∧ c = bb s + 2 ^ k) ∨ (2 ^ (k + 1) ∣ c ∧ bb s = c + 2 ^ k)) := by
      rcases parentBase_cases hsa with ⟨h1, h2⟩ | ⟨h1, h2⟩
      · refine ⟨bb s + 2 ^ k, Nat.dvd_add hsa (Nat.dvd_refl _), ?_, .inl ⟨h1, rfl⟩⟩
        rw [h2, InBlk, Nat.pow_succ]; omega
      · refine ⟨parentBase k (bb s), Nat.dvd_trans (Nat.pow_dvd_pow 2 (Nat.le_succ k)) hpd, inBlk_base _ _, .inr ⟨hpd, h2.symm⟩⟩
    obtain ⟨t, ht, htc⟩ := hall c hc2
    rcases Nat.lt_trichotomy (kk t) k with hlt | heq | hgt
    · -- a smaller block inside the other half
      refine ih (kk t) hlt t ht rfl ?_
      intro x hx
      have h1 : InBlk k c (bb t) := blk_subset (hS t ht) hc1 (by omega) htc (inBlk_base _ _) _ (inBlk_base _ _)
      have h2 : InBlk k c x := blk_subset (parentBase_dvd _ _) hc1 hlt (parentBase_mem _ _) h1 x hx
      exact hall x (blk_subset hc1 hpd (by omega) (inBlk_base _ _) hc2 x h2)
    · have hbt : bb t = c := by
        have := hS t ht
        rw [heq] at this htc
        exact blk_eq this hc1 htc (inBlk_base _ _)
      rcases hc3 with ⟨h1, h2⟩ | ⟨h1, h2⟩
      · exact hns s hs t ht (by omega) (by rw [hk]; exact h1) (by rw [hk, hbt, h2])
      · exact hns t ht s hs (by omega) (by rw [heq, hbt]; exact h1) (by rw [heq, hbt, h2])
    · have hne : s ≠ t := by rintro rfl; omega
      refine hd s hs t ht hne (bb s) ⟨inBlk_base _ _, ?_⟩
      exact blk_subset hpd (hS t ht) hgt hc2 htc _ hpm

end Ripcalc
