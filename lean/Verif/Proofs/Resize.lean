import Verif.Model.Resize
import Verif.Proofs.Enumerate
import Verif.Proofs.CidrBlocks
import Verif.Proofs.MinimizeMerge
/-!
# `resize_network`
-/
set_option linter.unusedSectionVars false
namespace Ripcalc
open AddrSpec LawfulIpAddr
variable {A : Type} [IpAddr A] [AddrSpec A] [LawfulIpAddr A]

/-- Some network with the given mask. -/
def maskNet (m : A) : Net A := Net.newWithMask m m

/-- The network with mask `m` and network number `y`. -/
noncomputable def numNet (m : A) (y : Nat) : Net A := Net.newWithMask (addrOf A (wval (maskNet m) y 0)) m

theorem ones_natBits (w m : Nat) : ones (natBits w m) = countBelow w (fun i => m.testBit i) := by
  induction w with
  | zero => rfl
  | succ w ih =>
    rw [natBits, countBelow_succ, ← ih]
    cases m.testBit w <;> rfl

theorem ones_mnot_natBits (w m : Nat) : ones (mnot (natBits w m)) = countBelow w (fun i => !m.testBit i) := by
  induction w with
  | zero => rfl
  | succ w ih =>
    rw [natBits, countBelow_succ, ← ih]
    cases m.testBit w <;> rfl

theorem countOnes_netBits (n : Net A) : IpAddr.countOnes n.subnetMask = netBits n := by
  rw [countOnes_eq, netBits, mbits, abits, ones_natBits]

theorem countZeros_hostBits (n : Net A) : IpAddr.countZeros n.subnetMask = hostBits n := by
  rw [countZeros_eq, hostBits, mbits, abits, ones_mnot_natBits]

theorem hostBits_congr {a b : Net A} (h : a.subnetMask = b.subnetMask) : hostBits a = hostBits b := by
  rw [hostBits, hostBits, mbits, mbits, h]

/-- A network with base `wval x 0` has number `x`. -/
theorem netNum_of_base {n : Net A} {x : Nat} (hx : x < 2 ^ netBits n) (h : val n.baseAddr = wval n x 0) : netNum n = x := by
  have e : n.baseAddr = addrOf A (wval n x 0) := by rw [← h, addrOf_val]
  rw [netNum, e, (parts_of_wval n).1, ofBits_natBits_of_lt hx]

theorem wf_of_netNum {n o : Net A} (hn : WF n) (ho : WF o) (hm : n.subnetMask = o.subnetMask) (h : netNum n = netNum o) : n = o := by
  refine wf_ext hn ho (val_inj _ _ ?_) hm
  rw [base_eq_wval hn.hz, base_eq_wval ho.hz, wval_congr hm, h]

/-- What is known about a network made from an unraveled number. -/
structure Numbered (m : A) (y : Nat) (o : Net A) : Prop where
  wf : WF o
  mask : o.subnetMask = m
  num : netNum o = y

theorem Numbered.unique {m : A} {y : Nat} {o o' : Net A} (h : Numbered m y o) (h' : Numbered m y o') : o = o' :=
  wf_of_netNum h.wf h'.wf (h.mask.trans h'.mask.symm) (h.num.trans h'.num.symm)

theorem numbered_of_val {m v : A} {y : Nat} (hy : y < 2 ^ netBits (maskNet m)) (hv : val v = wval (maskNet m) y 0) :
    Numbered m y (Net.newWithMask v m) where
  wf := newWithMask_wf v m
  mask := rfl
  num := by
    refine netNum_of_base hy ?_
    have hz := newWithMask_wf v m
    have hv' : v = addrOf A (wval (maskNet m) y 0) := by rw [← hv, addrOf_val]
    have hmem : Member (Net.newWithMask v m) v := by
      rw [← and_mask_eq_iff _ hz.hz]; rfl
    obtain ⟨p1, p2⟩ := parts_of_wval (maskNet m) (x := y) (h := 0)
    rw [← hv'] at p1 p2
    rw [member_iff_netPart] at hmem
    have hn : netNum (Net.newWithMask v m) = y := by
      have e : netPart (Net.newWithMask v m) v = netPart (maskNet m) v := rfl
      rw [netNum, ← hmem, e, p1, ofBits_natBits_of_lt hy]
    rw [base_eq_wval hz.hz, hn]

theorem numNet_spec (m : A) {y : Nat} (hy : y < 2 ^ netBits (maskNet m)) : Numbered m y (numNet m y) :=
  numbered_of_val hy (val_addrOf (wval_lt _ _ _))

/-- Weaving an unraveled base gives the network of that number. -/
theorem weave_numNet {m u : A} {y : Nat} (hu : val u = y * 2 ^ hostBits (maskNet m)) :
    ∃ v : A, weaveAddress u m = .ok v ∧ Net.newWithMask v m = numNet m y ∧ y < 2 ^ netBits (maskNet m) := by
  have hpos := Nat.two_pow_pos (hostBits (maskNet m))
  have hy : y < 2 ^ netBits (maskNet m) := by
    have h1 := val_lt u
    rw [hu, ← netBits_add_hostBits (maskNet m), Nat.pow_add] at h1
    exact Nat.lt_of_mul_lt_mul_right h1
  obtain ⟨v, h1, h2⟩ := weave_val (maskNet m) hpos (by rw [hu]; rfl : val u = y * 2 ^ hostBits (maskNet m) + 0)
  exact ⟨v, h1, (numbered_of_val hy h2).unique (numNet_spec m hy), hy⟩

/-- The first network number and the count of the result. -/
def resizeFirst (n : Net A) (m : A) : Nat := netNum n * 2 ^ hostBits n / 2 ^ hostBits (maskNet m)

/-- The number of networks of the result. -/
def resizeCount (n : Net A) (m : A) : Nat := 2 ^ (hostBits n - hostBits (maskNet m))

/-- The direction reported. -/
def resizeDir (n : Net A) (m : A) : Ordering := compare (hostBits n) (hostBits (maskNet m))

/-- The networks of the result. -/
noncomputable def resizeNets (n : Net A) (m : A) : List (Net A) :=
  (List.range' (resizeFirst n m) (resizeCount n m)).map (numNet m)

theorem resizeFirst_smaller {n : Net A} {m : A} (h : hostBits (maskNet m) ≤ hostBits n) :
    resizeFirst n m = netNum n * 2 ^ (hostBits n - hostBits (maskNet m)) := by
  have e : (2 : Nat) ^ hostBits n = 2 ^ (hostBits n - hostBits (maskNet m)) * 2 ^ hostBits (maskNet m) := by
    rw [← Nat.pow_add]; congr 1; omega
  rw [resizeFirst, e, ← Nat.mul_assoc, Nat.mul_div_cancel _ (Nat.two_pow_pos _)]

/-- The numbers are network numbers. -/
theorem resizeFirst_add_count {n : Net A} {m : A} : resizeFirst n m + resizeCount n m ≤ 2 ^ netBits (maskNet m) := by
  have h1 := netNum_lt n
  have h2 := netBits_add_hostBits n
  have h3 := netBits_add_hostBits (maskNet m)
  rcases Nat.le_total (hostBits (maskNet m)) (hostBits n) with h | h
  · rw [resizeFirst_smaller h, resizeCount, ← Nat.succ_mul]
    refine Nat.le_trans (Nat.mul_le_mul_right _ h1) ?_
    rw [← Nat.pow_add]
    exact Nat.pow_le_pow_right (by omega) (by omega)
  · rw [resizeCount, Nat.sub_eq_zero_of_le h]
    show resizeFirst n m + 1 ≤ _
    rw [Nat.add_one_le_iff, resizeFirst, Nat.div_lt_iff_lt_mul (Nat.two_pow_pos _), ← Nat.pow_add, h3, ← h2, Nat.pow_add]
    exact Nat.mul_lt_mul_of_pos_right h1 (Nat.two_pow_pos _)

theorem resizeLoop (pr : Profile) {n : Net A} {m l : A} (hlt : hostBits (maskNet m) < hostBits n)
    (hl : val l = netNum n * 2 ^ hostBits n + (2 ^ hostBits n - 1)) (u : A) (hu : val u = netNum n * 2 ^ hostBits n) :
    loopM (resizeStep pr m l) (u, []) = .ok (resizeNets n m) := by
  have hpos := Nat.two_pow_pos (hostBits (maskNet m))
  have hfc := resizeFirst_add_count (n := n) (m := m)
  have hfirst : netNum n * 2 ^ hostBits n = resizeFirst n m * 2 ^ hostBits (maskNet m) := by
    rw [resizeFirst_smaller (Nat.le_of_lt hlt), Nat.mul_assoc, ← Nat.pow_add, Nat.sub_add_cancel (Nat.le_of_lt hlt)]
  have hcount : 2 ^ hostBits n = resizeCount n m * 2 ^ hostBits (maskNet m) := by
    rw [resizeCount, ← Nat.pow_add, Nat.sub_add_cancel (Nat.le_of_lt hlt)]
  generalize hF : resizeFirst n m = F at *
  generalize hC : resizeCount n m = C at *
  have hCpos : 0 < C := by rw [← hC]; exact Nat.two_pow_pos _
  have hlast : val l + 1 = (F + C) * 2 ^ hostBits (maskNet m) := by
    have := Nat.two_pow_pos (hostBits n)
    rw [hl, Nat.add_mul, ← hcount, ← hfirst]; omega
  have hres : resizeNets n m = (List.range' F C).map (numNet m) := by rw [resizeNets, hF, hC]
  have hstep : ∀ s : A × List (Net A),
      (∃ k, k ≤ C ∧ val s.1 = (F + k) * 2 ^ hostBits (maskNet m) ∧ s.2 = (List.range' F k).map (numNet m)) →
      (∃ s', resizeStep pr m l s = .ok (.inl s') ∧
        (∃ k, k ≤ C ∧ val s'.1 = (F + k) * 2 ^ hostBits (maskNet m) ∧ s'.2 = (List.range' F k).map (numNet m)) ∧
        (val l + 1 - val s'.1 < val l + 1 - val s.1)) ∨
      (resizeStep pr m l s = .ok (.inr (resizeNets n m))) := by
    rintro ⟨c, ns⟩ ⟨k, hk, hc, hns⟩
    have hc : val c = (F + k) * 2 ^ hostBits (maskNet m) := hc
    have hns : ns = (List.range' F k).map (numNet m) := hns
    rw [resizeStep]
    by_cases hle : IpAddr.le c l = true
    · have hle' := (le_iff c l).mp hle
      have hkC : k < C := by
        have h1 : (F + k) * 2 ^ hostBits (maskNet m) < (F + C) * 2 ^ hostBits (maskNet m) := by rw [← hc, ← hlast]; omega
        have := Nat.lt_of_mul_lt_mul_right h1
        omega
      obtain ⟨v, hv1, hv2, hv3⟩ := weave_numNet hc
      have hnum := numNet_spec m hv3
      have hnb : netBits (numNet m (F + k)) = netBits (maskNet m) := netBits_congr hnum.mask
      have hhb : hostBits (numNet m (F + k)) = hostBits (maskNet m) := hostBits_congr hnum.mask
      have hns' : ns ++ [numNet m (F + k)] = (List.range' F (k + 1)).map (numNet m) := by
        rw [hns, List.range'_concat]; simp
      obtain ⟨x1, x2⟩ := nextSubnet_spec pr hnum.wf.hz
      rw [hnum.num, hnb] at x1 x2
      simp only [hle, if_true, hv1, Exec.ok_bind, hv2]
      rcases Nat.lt_or_ge (F + k + 1) (2 ^ netBits (maskNet m)) with hn | hn
      · obtain ⟨b, hb1, hb2⟩ := x2 hn
        obtain ⟨u', hu1, hu2⟩ := unravel_wval (numNet m (F + k)) (by rw [hnb]; exact hn) (by rw [hhb]; exact hpos) hb2
        left
        refine ⟨(u', ns ++ [numNet m (F + k)]), ?_, ⟨k + 1, hkC, ?_, hns'⟩, ?_⟩
        · simp only [hb1, Exec.ok_bind, hu1]; rfl
        · show val u' = _
          rw [hu2, hhb]; rfl
        · show val l + 1 - val u' < val l + 1 - val c
          have : val u' = val c + 2 ^ hostBits (maskNet m) := by
            rw [hu2, hhb, hc, Nat.add_mul (F + k) 1, Nat.one_mul]; rfl
          omega
      · right
        have : k + 1 = C := by omega
        simp only [x1 (by omega), Exec.ok_bind]
        rw [hns', this, hres]; rfl
    · right
      have hle' : ¬ val c ≤ val l := fun h => hle ((le_iff c l).mpr h)
      have hkC : k = C := by
        rcases Nat.lt_or_ge k C with h | h
        · have h1 : (F + k + 1) * 2 ^ hostBits (maskNet m) ≤ (F + C) * 2 ^ hostBits (maskNet m) :=
            Nat.mul_le_mul_right _ (by omega)
          rw [← hlast, Nat.add_mul (F + k) 1, ← hc] at h1
          omega
        · omega
      have hf : IpAddr.le c l = false := by simpa using hle
      simp only [hf, Bool.false_eq_true, if_false]
      rw [hns, hkC, hres]; rfl
  refine loopM_spec (fun s : A × List (Net A) =>
      ∃ k, k ≤ C ∧ val s.1 = (F + k) * 2 ^ hostBits (maskNet m) ∧ s.2 = (List.range' F k).map (numNet m))
    (fun r => r = .ok (resizeNets n m)) (fun s => val l + 1 - val s.1) ?_ (u, []) ⟨0, by omega, ?_, rfl⟩
  · intro s hs
    rcases hstep s hs with ⟨s', h1, h2, h3⟩ | h1
    · rw [h1]; exact ⟨h2, h3⟩
    · rw [h1]
  · show val u = _
    rw [hu, hfirst]; rfl

theorem resizeNetwork_spec (pr : Profile) {n : Net A} (hn : HostZero n) (m : A) :
    resizeNetwork pr n m = .ok (resizeNets n m, resizeDir n m) := by
  obtain ⟨u, hu1, hu2⟩ := unravel_base hn
  have z : IpAddr.countZeros m = hostBits (maskNet m) := countZeros_hostBits (maskNet m)
  have o : IpAddr.countOnes m = netBits (maskNet m) := countOnes_netBits (maskNet m)
  have hw := netBits_add_hostBits (maskNet m)
  rw [resizeNetwork]
  simp only [countZeros_hostBits, z, o]
  rcases Nat.lt_trichotomy (hostBits n) (hostBits (maskNet m)) with h | h | h
  · rw [if_pos h]
    obtain ⟨s, hs1, hs2, hs3, -⟩ := cidr_of_addr u (show netBits (maskNet m) ≤ width A by omega)
    have hsh : width A - netBits (maskNet m) = hostBits (maskNet m) := by omega
    have hb := cidr_base hs2
    rw [hsh] at hb hs3
    have hnum : netNum s = resizeFirst n m := by
      rw [hb] at hs3
      rw [resizeFirst, ← hu2]
      obtain ⟨a1, a2⟩ := hs3
      symm
      refine Nat.div_eq_of_lt_le a1 ?_
      rw [Nat.add_mul, Nat.one_mul]; exact a2
    rw [hnum] at hb
    obtain ⟨v, hv1, hv2, -⟩ := weave_numNet hb
    simp only [hu1, Exec.ok_bind, hs1, hv1, hv2]
    rw [resizeNets, resizeCount, Nat.sub_eq_zero_of_le (Nat.le_of_lt h), resizeDir, Nat.compare_eq_lt.mpr h]
    rfl
  · rw [if_neg (by omega), if_pos h.symm]
    have hf : resizeFirst n m = netNum n := by rw [resizeFirst_smaller (by omega), h]; simp
    rw [h, ← hf] at hu2
    obtain ⟨v, hv1, hv2, -⟩ := weave_numNet hu2
    simp only [hu1, Exec.ok_bind, hv1, hv2]
    rw [resizeNets, resizeCount, Nat.sub_eq_zero_of_le (by omega), resizeDir, Nat.compare_eq_eq.mpr h]
    rfl
  · rw [if_neg (by omega), if_neg (by omega)]
    obtain ⟨l, hl1, hl2⟩ := lastAddr_spec hn
    have hp := Nat.two_pow_pos (hostBits n)
    obtain ⟨l', hl3, hl4⟩ := unravel_wval n (netNum_lt n) (by omega) hl2
    simp only [hu1, Exec.ok_bind, hl1, hl3, resizeLoop pr h hl4 u hu2]
    rw [resizeDir, Nat.compare_eq_gt.mpr h]
    rfl

theorem mem_resizeNets {n o : Net A} {m : A} : o ∈ resizeNets n m ↔
    ∃ k, k < resizeCount n m ∧ Numbered m (resizeFirst n m + k) o := by
  have hb := resizeFirst_add_count (n := n) (m := m)
  rw [resizeNets, List.mem_map]
  constructor
  · rintro ⟨y, hy, rfl⟩
    rw [List.mem_range'_1] at hy
    refine ⟨y - resizeFirst n m, by omega, ?_⟩
    rw [show resizeFirst n m + (y - resizeFirst n m) = y by omega]
    exact numNet_spec m (by omega)
  · rintro ⟨k, hk, h⟩
    refine ⟨resizeFirst n m + k, by rw [List.mem_range'_1]; omega, ?_⟩
    exact (numNet_spec m (by omega)).unique h

theorem length_resizeNets (n : Net A) (m : A) : (resizeNets n m).length = resizeCount n m := by simp [resizeNets]

theorem resizeNets_ascending (n : Net A) (m : A) : (resizeNets n m).Pairwise (fun a b => netNum a < netNum b) := by
  have hb := resizeFirst_add_count (n := n) (m := m)
  rw [resizeNets, List.pairwise_map]
  refine (List.pairwise_lt_range' (s := resizeFirst n m) (n := resizeCount n m)).imp_of_mem ?_
  intro a b ha hb' hlt
  rw [List.mem_range'_1] at ha hb'
  rw [(numNet_spec m (by omega : a < _)).num, (numNet_spec m (by omega : b < _)).num]
  exact hlt

/-- Networks with the same mask and different numbers have no common address. -/
theorem disjoint_of_netNum {a b : Net A} (hm : a.subnetMask = b.subnetMask) (h : netNum a ≠ netNum b) : Disjoint a b := by
  intro x ⟨h1, h2⟩
  rw [member_iff_netPart] at h1 h2
  apply h
  have e : netPart b x = netPart a x := by simp only [netPart, mbits, hm]
  rw [netNum, netNum, ← h1, ← h2, e]

theorem base_lt_of_netNum {a b : Net A} (ha : WF a) (hb : WF b) (hm : a.subnetMask = b.subnetMask) :
    val a.baseAddr < val b.baseAddr ↔ netNum a < netNum b := by
  have h1 := netNum_lt b
  rw [← netBits_congr hm] at h1
  rw [base_eq_wval ha.hz, base_eq_wval hb.hz, ← wval_congr hm, wval_lt_net a 0 (netNum_lt a) h1]

end Ripcalc
