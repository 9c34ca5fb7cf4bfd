import Verif.Model.Derange
import Verif.Proofs.CidrBlocks
import Verif.Proofs.Cli
/-!
# Lemmas about `range_to_subnets`
-/
set_option linter.unusedSectionVars false
namespace Ripcalc
open AddrSpec LawfulIpAddr
variable {A : Type} [IpAddr A] [AddrSpec A] [LawfulIpAddr A]

/-- The next larger block at the same start is not aligned or reaches beyond `l`. -/
def Greedy (l k b : Nat) : Prop := ¬ (2 ^ (k + 1) ∣ b ∧ b + 2 ^ (k + 1) ≤ l + 1)

instance : Decidable (Greedy l k b) := inferInstanceAs (Decidable (¬ _))

/-- One emitted network. -/
def RangeItem (f l : Nat) (n : Net A) : Prop :=
  ∃ p, IsCidr p n ∧ f ≤ val n.baseAddr ∧ Greedy l (width A - p) (val n.baseAddr)

/-- The networks emitted so far. -/
structure RangeRet (f l F : Nat) (ret : List (Net A)) : Prop where
  item : ∀ n ∈ ret, RangeItem f l n
  below : ret.Pairwise Below
  covers : Covers ret (fun a => f ≤ val a ∧ val a < F)

structure RangeInv (f l : Nat) (s : RangeState A) : Prop where
  ge : f ≤ val s.firstAddr
  le : val s.firstAddr ≤ l + 1
  cur : ∃ p, IsCidr p s.current ∧ s.current.baseAddr = s.firstAddr ∧
    (val s.firstAddr ≤ l → val s.firstAddr + 2 ^ (width A - p) ≤ l + 1)
  ret : RangeRet f l (val s.firstAddr) s.ret

/-- The test for exceeding the range. -/
theorem range_beyond (last a : A) {p : Nat} (hp : p ≤ width A) (hp1 : 1 ≤ p) :
    ∃ larger : Net A, Net.newWithPrefix a (p - 1) = .ok larger ∧ IsCidr (p - 1) larger ∧
      (if larger.baseAddr ≠ a then pure true
        else do
          let l ← larger.lastAddrOfSubnet
          pure (!IpAddr.le l last) : Exec Bool) = .ok (decide (Greedy (val last) (width A - p) (val a))) ∧
      (¬ Greedy (val last) (width A - p) (val a) → larger.baseAddr = a) := by
  obtain ⟨larger, h1, h2, h3, h4⟩ := cidr_of_addr a (p := p - 1) (by omega)
  have e : width A - (p - 1) = width A - p + 1 := by omega
  rw [e] at h3 h4
  refine ⟨larger, h1, h2, ?_, ?_⟩
  · by_cases hb : larger.baseAddr = a
    · obtain ⟨l, hl1, hl2⟩ := cidr_last h2
      rw [if_neg (by simpa using hb), hl1]
      simp only [Exec.ok_bind, Exec.pure_eq, Exec.ok.injEq]
      rw [e, hb] at hl2
      have hpos := Nat.two_pow_pos (width A - p + 1)
      have hle := le_iff l last
      rw [hl2] at hle
      rw [Bool.eq_iff_iff]
      simp only [Bool.not_eq_true', decide_eq_true_eq, Greedy, h4.mp hb, true_and]
      rw [← Bool.not_eq_true, hle]
      constructor <;> intro h h' <;> omega
    · rw [if_pos hb]
      simp only [Exec.pure_eq, Exec.ok.injEq]
      symm
      simp only [decide_eq_true_eq]
      rintro ⟨hd, -⟩
      exact hb (h4.mpr hd)
  · intro h
    by_cases hd : 2 ^ (width A - p + 1) ∣ val a
    · exact h4.mpr hd
    · exact absurd (fun hh => hd hh.1) h

theorem two_pow_le {a b : Nat} (h : a ≤ b) : 2 ^ a ≤ 2 ^ b := Nat.pow_le_pow_right (by omega) h

/-- Emitting the current network. -/
theorem rangeRet_snoc {f l F : Nat} {ret : List (Net A)} (h : RangeRet f l F ret) {n : Net A} {p : Nat} (hc : IsCidr p n)
    (hb : val n.baseAddr = F) (hf : f ≤ F) (hg : Greedy l (width A - p) F) :
    RangeRet f l (F + 2 ^ (width A - p)) (ret ++ [n]) := by
  refine ⟨?_, ?_, ?_⟩
  · intro m hm
    rcases List.mem_append.mp hm with hm | hm
    · exact h.item m hm
    · cases List.mem_singleton.mp hm
      exact ⟨p, hc, by omega, by rw [hb]; exact hg⟩
  · rw [List.pairwise_append]
    refine ⟨h.below, List.pairwise_singleton _ _, ?_⟩
    intro m hm n' hn' a b ha hb'
    cases List.mem_singleton.mp hn'
    have h1 := ((h.covers a).mp ⟨m, hm, ha⟩).2
    have h2 := ((cidr_inBlk hc b).mp hb').1
    omega
  · intro a
    have h1 := h.covers a
    have h2 := cidr_inBlk hc a
    rw [hb] at h2
    simp only [List.mem_append, List.mem_singleton]
    constructor
    · rintro ⟨m, hm | rfl, ha⟩
      · have := h1.mp ⟨m, hm, ha⟩; exact ⟨this.1, Nat.lt_of_lt_of_le this.2 (Nat.le_add_right _ _)⟩
      · have := h2.mp ha; exact ⟨by have := this.1; omega, this.2⟩
    · rintro ⟨ha, hb'⟩
      by_cases hlt : val a < F
      · obtain ⟨m, hm, hma⟩ := h1.mpr ⟨ha, hlt⟩
        exact ⟨m, .inl hm, hma⟩
      · exact ⟨n, .inr rfl, h2.mpr ⟨by omega, hb'⟩⟩

theorem byteCount_mul (a : A) : IpAddr.byteCount a * 8 = width A := by
  have := width_eq (A := A)
  rw [byteCount_eq]; omega

/-- The result of the loop. -/
def RangePost (A : Type) [IpAddr A] [AddrSpec A] (f l : Nat) (r : Exec (List (Net A))) : Prop :=
  (l + 1 < 2 ^ width A → ∃ ret, r = .ok ret ∧ RangeRet f l (l + 1) ret) ∧
  (l + 1 = 2 ^ width A → r = .panic .unwrapNone)

theorem rangeLoop (pr : Profile) (f : Nat) (last : A) (hnf : ¬ (f = 0 ∧ val last + 1 = 2 ^ width A)) (s : RangeState A)
    (hs : RangeInv f (val last) s) : RangePost A f (val last) (loopM (rangeStep pr last) s) := by
  refine loopM_spec (RangeInv f (val last)) (RangePost A f (val last))
    (fun s => (val last + 1 - val s.firstAddr) * (width A + 1) + s.current.cidrPrefix.getD 0) ?_ s hs
  intro s hs
  obtain ⟨hge, hle, ⟨p, hc, hb, hfit⟩, hret⟩ := hs
  rw [rangeStep]
  have hv := val_lt s.firstAddr
  have hv' := val_lt last
  by_cases hF : val s.firstAddr ≤ val last
  · rw [if_pos ((le_iff _ _).mpr hF)]
    have hfit := hfit hF
    have hpw := cidr_le hc
    have hp1 : 1 ≤ p := by
      rcases Nat.eq_zero_or_pos p with h0 | h0
      · subst h0
        rw [Nat.sub_zero] at hfit
        exact absurd ⟨by omega, by omega⟩ hnf
      · exact h0
    obtain ⟨larger, hl1, hl2, hl3, hl4⟩ := range_beyond last s.firstAddr hpw hp1
    have hus : usizeSub pr p 1 = .ok (p - 1) := by unfold usizeSub; exact if_pos hp1
    simp only [hc.2, Exec.unwrap_some, Exec.ok_bind, hus, hl1, hl3, Option.getD_some]
    by_cases hg : Greedy (val last) (width A - p) (val s.firstAddr)
    · rw [if_pos (decide_eq_true hg)]
      have hcn := cidr_next pr hc
      rw [hb] at hcn
      by_cases htop : val s.firstAddr + 2 ^ (width A - p) < 2 ^ width A
      · obtain ⟨b, hb1, hb2⟩ := hcn.2 htop
        obtain ⟨c, hc1, hc2, hc3, hc4⟩ := cidr_of_addr b (p := width A) (Nat.le_refl _)
        simp only [hb1, Exec.ok_bind, Exec.unwrap_some, byteCount_mul, hc1, Exec.pure_eq, Option.getD_some, hc2.2]
        have hcb : c.baseAddr = b := hc4.mpr (by rw [Nat.sub_self]; exact Nat.one_dvd _)
        have hpos := Nat.two_pow_pos (width A - p)
        constructor
        · refine ⟨?_, ?_, ⟨width A, hc2, hcb, ?_⟩, ?_⟩
          · show f ≤ val b
            omega
          · show val b ≤ _
            omega
          · intro h; rw [Nat.sub_self]; exact Nat.succ_le_succ h
          · show RangeRet f (val last) (val b) (s.ret ++ [s.current])
            rw [hb2]
            exact rangeRet_snoc hret hc (by rw [hb]) hge hg
        · show (val last + 1 - val b) * (width A + 1) + width A < _
          have : (val last + 1 - val b) + 1 ≤ val last + 1 - val s.firstAddr := by omega
          have := Nat.mul_le_mul_right (width A + 1) this
          rw [Nat.add_mul, Nat.one_mul] at this
          omega
      · have htop' : val s.firstAddr + 2 ^ (width A - p) = 2 ^ width A := by omega
        simp only [hcn.1 htop', Exec.ok_bind, Exec.unwrap_none, Exec.panic_bind]
        refine ⟨fun h => by omega, fun _ => rfl⟩
    · rw [if_neg (by simpa using hg)]
      simp only [Exec.pure_eq]
      have hg' : 2 ^ (width A - p + 1) ∣ val s.firstAddr ∧ val s.firstAddr + 2 ^ (width A - p + 1) ≤ val last + 1 :=
        Decidable.of_not_not hg
      refine ⟨⟨hge, hle, ⟨p - 1, hl2, hl4 hg, fun _ => ?_⟩, hret⟩, ?_⟩
      · rw [show width A - (p - 1) = width A - p + 1 by omega]
        exact hg'.2
      · show _ * _ + larger.cidrPrefix.getD 0 < _
        rw [hl2.2, Option.getD_some]
        show (val last + 1 - val s.firstAddr) * (width A + 1) + (p - 1) < (val last + 1 - val s.firstAddr) * (width A + 1) + p
        omega
  · rw [if_neg (by rw [le_iff]; exact hF)]
    have e : val s.firstAddr = val last + 1 := by omega
    refine ⟨fun _ => ⟨_, rfl, e ▸ hret⟩, fun h => by omega⟩

theorem val_minAddr (a b : A) : val (minAddr a b) = min (val a) (val b) := by
  rw [minAddr]
  by_cases h : val a ≤ val b
  · rw [if_pos ((le_iff _ _).mpr h)]; omega
  · rw [if_neg (by rw [le_iff]; exact h)]; omega

theorem val_maxAddr (a b : A) : val (maxAddr a b) = max (val a) (val b) := by
  rw [maxAddr]
  by_cases h : val a ≤ val b
  · rw [if_pos ((le_iff _ _).mpr h)]; omega
  · rw [if_neg (by rw [le_iff]; exact h)]; omega

theorem rangeToSubnets_comm (pr : Profile) (a b : A) : rangeToSubnets pr a b = rangeToSubnets pr b a := by
  have h1 : minAddr a b = minAddr b a := val_inj _ _ (by rw [val_minAddr, val_minAddr, Nat.min_comm])
  have h2 : maxAddr a b = maxAddr b a := val_inj _ _ (by rw [val_maxAddr, val_maxAddr, Nat.max_comm])
  rw [rangeToSubnets, rangeToSubnets, h1, h2]

theorem rangeToSubnets_spec (pr : Profile) (a b : A)
    (hnf : ¬ (min (val a) (val b) = 0 ∧ max (val a) (val b) + 1 = 2 ^ width A)) :
    RangePost A (min (val a) (val b)) (max (val a) (val b)) (rangeToSubnets pr a b) := by
  obtain ⟨c, hc1, hc2, hc3, hc4⟩ := cidr_of_addr (minAddr a b) (p := width A) (Nat.le_refl _)
  rw [rangeToSubnets]
  simp only [byteCount_mul, hc1, Exec.ok_bind]
  have hcb : c.baseAddr = minAddr a b := hc4.mpr (by rw [Nat.sub_self]; exact Nat.one_dvd _)
  have hmin := val_minAddr a b
  have hmax := val_maxAddr a b
  rw [← hmin, ← hmax] at hnf ⊢
  refine rangeLoop pr _ _ hnf _ ⟨Nat.le_refl _, ?_, ⟨width A, hc2, hcb, ?_⟩, ⟨?_, ?_, ?_⟩⟩
  · show val (minAddr a b) ≤ _
    rw [hmin, hmax]; omega
  · intro h; rw [Nat.sub_self]; exact Nat.succ_le_succ h
  · intro n hn; cases hn
  · exact .nil
  · intro x
    constructor
    · rintro ⟨n, hn, -⟩; cases hn
    · rintro ⟨h1, h2⟩
      exact absurd h1 (Nat.not_le.mpr h2)

theorem disjoint_symm (n o : Net A) (h : Disjoint n o) : Disjoint o n := fun a ⟨h1, h2⟩ => h a ⟨h2, h1⟩

theorem below_disjoint {ns : List (Net A)} (h : ns.Pairwise Below) : ns.Pairwise Disjoint :=
  h.imp (fun h a ⟨h1, h2⟩ => Nat.lt_irrefl _ (h a a h1 h2))

/-- No emitted network can be replaced by the network twice its size. -/
theorem rangeRet_maximal {f l : Nat} {ret : List (Net A)} (h : RangeRet f l (l + 1) ret) :
    ∀ s ∈ ret, ∀ p, IsCidr p s → ∀ o, IsCidr (p - 1) o → p ≠ 0 → Member o s.baseAddr →
      ∃ a : A, Member o a ∧ ¬ ∃ s' ∈ ret, Member s' a := by
  intro s hs p hp o ho hp0 hmem
  apply Classical.byContradiction
  intro hno
  have hall : ∀ a : A, Member o a → ∃ s' ∈ ret, Member s' a := fun a ha =>
    Classical.byContradiction fun hn => hno ⟨a, ha, hn⟩
  have hpw := cidr_le hp
  have e : width A - (p - 1) = width A - p + 1 := by omega
  have hod := cidr_dvd ho
  rw [cidr_inBlk ho, e] at hmem
  rw [e] at hod
  have hpos := Nat.two_pow_pos (width A - p + 1)
  -- the block of `o` ends within the range
  have hend : val o.baseAddr + 2 ^ (width A - p + 1) ≤ l + 1 := by
    obtain ⟨a, ha1, ha2⟩ := cidr_inBlk_addr ho (x := val o.baseAddr + 2 ^ (width A - p + 1) - 1) (by rw [e]; exact ⟨by omega, by omega⟩)
    have := ((h.covers a).mp (hall a ha2)).2
    omega
  have greedy : ∀ {t q}, t ∈ ret → IsCidr q t → Greedy l (width A - q) (val t.baseAddr) := by
    intro t q ht hq
    obtain ⟨q', hq', -, hg⟩ := h.item t ht
    have := hq'.2.symm.trans hq.2
    cases this
    exact hg
  rcases Nat.lt_or_ge (val o.baseAddr) (val s.baseAddr) with hlt | hge
  · obtain ⟨t, ht, htm⟩ := hall o.baseAddr (by rw [cidr_inBlk ho]; exact inBlk_base _ _)
    obtain ⟨q, hq, -, hg⟩ := h.item t ht
    have htb := (cidr_inBlk hq _).mp htm
    have hts : t ≠ s := by
      rintro rfl
      have := htb.1
      omega
    have hdis := pairwise_mem disjoint_symm (below_disjoint h.below) t ht s hs hts
    have hqw := cidr_le hq
    rcases Nat.lt_or_ge q p with hqp | hqp
    · refine hdis s.baseAddr ⟨?_, ?_⟩
      · refine cidr_subset ho hq (by omega) (a := o.baseAddr) ?_ htm _ ?_
        · rw [cidr_inBlk ho]; exact inBlk_base _ _
        · rw [cidr_inBlk ho, e]; exact hmem
      · rw [cidr_inBlk hp]; exact inBlk_base _ _
    · have hk : width A - q + 1 ≤ width A - p + 1 := by omega
      have hn := blk_nested (cidr_dvd hq) hod (by omega) htb (inBlk_base _ _)
      have htb' : val t.baseAddr = val o.baseAddr := Nat.le_antisymm htb.1 hn.2
      refine hg ⟨?_, ?_⟩
      · rw [htb']; exact Nat.dvd_trans (Nat.pow_dvd_pow 2 hk) hod
      · rw [htb']; have := two_pow_le hk; omega
  · have hbe : val o.baseAddr = val s.baseAddr := Nat.le_antisymm hmem.1 hge
    exact greedy hs hp ⟨hbe ▸ hod, hbe ▸ hend⟩

/-- The whole address space with overflow checks. -/
theorem rangeLoop_full_checked (last : A) (hl : val last + 1 = 2 ^ width A) (s : RangeState A)
    (hs : val s.firstAddr = 0 ∧ ∃ p, IsCidr p s.current) :
    loopM (rangeStep .checked last) s = .panic .overflow := by
  refine loopM_spec (fun s => val s.firstAddr = 0 ∧ ∃ p, IsCidr p s.current)
    (fun r => r = .panic .overflow) (fun s => s.current.cidrPrefix.getD 0) ?_ s hs
  rintro s ⟨h0, p, hc⟩
  rw [rangeStep, if_pos ((le_iff _ _).mpr (by omega))]
  simp only [hc.2, Exec.unwrap_some, Exec.ok_bind, Option.getD_some]
  have hpw := cidr_le hc
  rcases Nat.eq_zero_or_pos p with hp | hp
  · subst hp
    have : usizeSub .checked 0 1 = .panic .overflow := by decide
    simp only [this, Exec.panic_bind]
  · have hus : usizeSub .checked p 1 = .ok (p - 1) := by unfold usizeSub; exact if_pos hp
    obtain ⟨larger, hl1, hl2, hl3, hl4⟩ := range_beyond last s.firstAddr hpw hp
    simp only [hus, hl1, hl3, Exec.ok_bind]
    have hng : ¬ Greedy (val last) (width A - p) (val s.firstAddr) := by
      intro h
      refine h ⟨h0 ▸ Nat.dvd_zero _, ?_⟩
      have := two_pow_le (a := width A - p + 1) (b := width A) (by omega)
      omega
    rw [if_neg (by simpa using hng)]
    simp only [Exec.pure_eq]
    refine ⟨⟨h0, p - 1, hl2⟩, ?_⟩
    show larger.cidrPrefix.getD 0 < p
    rw [hl2.2, Option.getD_some]
    omega

/-- The whole address space without overflow checks. -/
theorem rangeLoop_full_wrapping (last : A) (hl : val last + 1 = 2 ^ width A) (s : RangeState A)
    (hs : val s.firstAddr = 0 ∧ ∃ p, s.current.cidrPrefix = some p) :
    loopM (rangeStep .wrapping last) s = .diverge := by
  refine loopM_diverge (fun s => val s.firstAddr = 0 ∧ ∃ p, s.current.cidrPrefix = some p) ?_ s hs
  rintro s ⟨h0, p, hc⟩
  rw [rangeStep, if_pos ((le_iff _ _).mpr (by omega))]
  have hus : ∃ q, usizeSub .wrapping p 1 = .ok q := by
    unfold usizeSub
    split
    · exact ⟨_, rfl⟩
    · exact ⟨_, rfl⟩
  obtain ⟨q, hq⟩ := hus
  obtain ⟨m, hm, hn⟩ := newWithPrefix_spec s.firstAddr q
  have hz : HostZero (⟨IpAddr.and s.firstAddr m, m, some q⟩ : Net A) := (newWithMask_wf s.firstAddr m).hz
  have hb : IpAddr.and s.firstAddr m = s.firstAddr := val_inj _ _ (by rw [val_and, h0, Nat.zero_and])
  obtain ⟨l, hl1, -⟩ := lastAddr_spec hz
  have hle : IpAddr.le l last = true := (le_iff _ _).mpr (by have := val_lt l; omega)
  simp only [hc, Exec.unwrap_some, Exec.ok_bind, hq, hn, hl1]
  refine ⟨⟨s.firstAddr, ⟨IpAddr.and s.firstAddr m, m, some q⟩, s.ret⟩, ?_, h0, q, rfl⟩
  simp only [hle, hb, ne_eq, not_true, if_false, Exec.pure_eq, Exec.ok_bind, Bool.not_true, Bool.false_eq_true]

theorem rangeToSubnets_full (a b : A) (h0 : min (val a) (val b) = 0) (h1 : max (val a) (val b) + 1 = 2 ^ width A) :
    rangeToSubnets .checked a b = .panic .overflow ∧ rangeToSubnets .wrapping a b = .diverge := by
  obtain ⟨c, hc1, hc2, -, -⟩ := cidr_of_addr (minAddr a b) (p := width A) (Nat.le_refl _)
  rw [rangeToSubnets, rangeToSubnets]
  simp only [byteCount_mul, hc1, Exec.ok_bind]
  rw [← val_minAddr] at h0
  rw [← val_maxAddr] at h1
  exact ⟨rangeLoop_full_checked _ h1 _ ⟨h0, _, hc2⟩, rangeLoop_full_wrapping _ h1 _ ⟨h0, _, hc2.2⟩⟩

end Ripcalc
