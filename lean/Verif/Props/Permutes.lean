import Verif.Props.BitManip
import Verif.Props.Net
import Verif.Props.Addr
import Verif.Proofs.Resize
/-!
# C125: unraveling permutes the bits
-/
namespace Ripcalc
open AddrSpec LawfulIpAddr

section generic
variable {A : Type} [IpAddr A] [AddrSpec A] [LawfulIpAddr A]

/-- A mask determines to which place each bit goes: every address is unraveled by the same rearrangement of its bits. -/
theorem C125_permutation (m : A) :
    ∃ σ : Nat → Nat, (∀ i, i < width A → σ i < width A) ∧ (∀ i j, i < width A → j < width A → σ i = σ j → i = j) ∧
      ∀ a : A, ∃ u, unravelAddress a m = .ok u ∧ ∀ i, i < width A → (val u).testBit i = (val a).testBit (σ i) := by
  let π := (positions (width A)).filter (fun i => (val m).testBit i) ++ (positions (width A)).filter (fun i => !(val m).testBit i)
  have hp : π.Perm (positions (width A)) := List.filter_append_perm _ _
  have hpos : (positions (width A)).length = width A := by simp [positions]
  have hlen : π.length = width A := hp.length_eq.trans hpos
  have hnd : π.Nodup := hp.nodup_iff.mpr ((List.reverse_perm _).symm.nodup List.nodup_range)
  refine ⟨fun i => π.getD (width A - 1 - i) 0, fun i hi => ?_, fun i j hi hj h => ?_, fun a => ?_⟩
  · have hb : width A - 1 - i < π.length := by omega
    show π.getD (width A - 1 - i) 0 < width A
    rw [show π.getD (width A - 1 - i) 0 = π[width A - 1 - i] by simp [List.getD, hb]]
    have := hp.mem_iff.mp (List.getElem_mem hb)
    simpa [positions] using this
  · have hb : width A - 1 - i < π.length := by omega
    have hb' : width A - 1 - j < π.length := by omega
    have h' : π[width A - 1 - i] = π[width A - 1 - j] := by
      simpa [List.getD, hb, hb'] using h
    have hne := List.pairwise_iff_getElem.mp hnd
    rcases Nat.lt_trichotomy (width A - 1 - i) (width A - 1 - j) with c | c | c
    · exact absurd h' (hne _ _ hb hb' c)
    · omega
    · exact absurd h'.symm (hne _ _ hb' hb c)
  · obtain ⟨u, h1, h2⟩ := C19_unravel_bits a m
    refine ⟨u, h1, fun i hi => ?_⟩
    have h2 : bitsAt (val u) (positions (width A)) = bitsAt (val a) π := by rw [h2, bitsAt, bitsAt, bitsAt, ← List.map_append]
    have hb : width A - 1 - i < π.length := by omega
    have hb' : width A - 1 - i < (positions (width A)).length := by omega
    have h3 : (bitsAt (val u) (positions (width A)))[width A - 1 - i]'(by simpa [bitsAt] using hb') =
        (bitsAt (val a) π)[width A - 1 - i]'(by simpa [bitsAt] using hb) := by simp only [h2]
    simp only [bitsAt, List.getElem_map] at h3
    have h4 : (positions (width A))[width A - 1 - i] = i := by simp [positions]; omega
    rw [h4] at h3
    have h5 : π.getD (width A - 1 - i) 0 = π[width A - 1 - i] := by simp [List.getD, hb]
    exact h3.trans (congrArg _ h5.symm)

/-- So unraveling and weaving can be done before or after `&`, `|`, `^` and `!`. -/
theorem C125_bitwise (a b m : A) :
    (∃ u v, unravelAddress a m = .ok u ∧ unravelAddress b m = .ok v ∧ unravelAddress (IpAddr.and a b) m = .ok (IpAddr.and u v) ∧
      unravelAddress (IpAddr.or a b) m = .ok (IpAddr.or u v) ∧ unravelAddress (IpAddr.xor a b) m = .ok (IpAddr.xor u v) ∧
      unravelAddress (IpAddr.negate a) m = .ok (IpAddr.negate u)) ∧
    (∃ u v, weaveAddress a m = .ok u ∧ weaveAddress b m = .ok v ∧ weaveAddress (IpAddr.and a b) m = .ok (IpAddr.and u v) ∧
      weaveAddress (IpAddr.or a b) m = .ok (IpAddr.or u v) ∧ weaveAddress (IpAddr.xor a b) m = .ok (IpAddr.xor u v) ∧
      weaveAddress (IpAddr.negate a) m = .ok (IpAddr.negate u)) := by
  obtain ⟨σ, hσ, -, hu⟩ := C125_permutation m
  have key : ∀ a b : A, ∃ u v, unravelAddress a m = .ok u ∧ unravelAddress b m = .ok v ∧ unravelAddress (IpAddr.and a b) m = .ok (IpAddr.and u v) ∧
      unravelAddress (IpAddr.or a b) m = .ok (IpAddr.or u v) ∧ unravelAddress (IpAddr.xor a b) m = .ok (IpAddr.xor u v) ∧
      unravelAddress (IpAddr.negate a) m = .ok (IpAddr.negate u) := by
    intro a b
    obtain ⟨u, h1, h2⟩ := hu a
    obtain ⟨v, h3, h4⟩ := hu b
    refine ⟨u, v, h1, h3, ?_, ?_, ?_, ?_⟩
    · obtain ⟨x, e, hx⟩ := hu (IpAddr.and a b)
      refine e.trans (congrArg _ (addr_ext fun i hi => ?_))
      rw [hx i hi, (C14_bitwise a b _ (hσ i hi)).1, (C14_bitwise u v i hi).1, h2 i hi, h4 i hi]
    · obtain ⟨x, e, hx⟩ := hu (IpAddr.or a b)
      refine e.trans (congrArg _ (addr_ext fun i hi => ?_))
      rw [hx i hi, (C14_bitwise a b _ (hσ i hi)).2.1, (C14_bitwise u v i hi).2.1, h2 i hi, h4 i hi]
    · obtain ⟨x, e, hx⟩ := hu (IpAddr.xor a b)
      refine e.trans (congrArg _ (addr_ext fun i hi => ?_))
      rw [hx i hi, (C14_bitwise a b _ (hσ i hi)).2.2.1, (C14_bitwise u v i hi).2.2.1, h2 i hi, h4 i hi]
    · obtain ⟨x, e, hx⟩ := hu (IpAddr.negate a)
      refine e.trans (congrArg _ (addr_ext fun i hi => ?_))
      rw [hx i hi, (C14_bitwise a b _ (hσ i hi)).2.2.2, (C14_bitwise u v i hi).2.2.2, h2 i hi]
  have back : ∀ x y : A, unravelAddress x m = .ok y → weaveAddress y m = .ok x := by
    intro x y h
    obtain ⟨u, h1, h2⟩ := (C18_unravel_weave x m).1
    rw [h] at h1
    rwa [Exec.ok.inj h1]
  refine ⟨key a b, ?_⟩
  obtain ⟨u, hu1, hu2⟩ := (C18_unravel_weave a m).2
  obtain ⟨v, hv1, hv2⟩ := (C18_unravel_weave b m).2
  obtain ⟨u', v', k1, k2, k3, k4, k5, k6⟩ := key u v
  rw [hu2] at k1
  rw [hv2] at k2
  cases k1
  cases k2
  exact ⟨u, v, hu1, hv1, back _ _ k3, back _ _ k4, back _ _ k5, back _ _ k6⟩

/-- The number of ones stays the same. -/
theorem C125_ones (a m : A) : ∃ u, unravelAddress a m = .ok u ∧ IpAddr.countOnes u = IpAddr.countOnes a ∧ IpAddr.countZeros u = IpAddr.countZeros a := by
  obtain ⟨u, h1, h2⟩ := C19_unravel_bits a m
  refine ⟨u, h1, ?_⟩
  have h2 : bitsAt (val u) (positions (width A)) = bitsAt (val a)
      ((positions (width A)).filter (fun i => (val m).testBit i) ++ (positions (width A)).filter (fun i => !(val m).testBit i)) := by
    rw [h2, bitsAt, bitsAt, bitsAt, ← List.map_append]
  have hp := (List.filter_append_perm (fun i => (val m).testBit i) (positions (width A))).map (val a).testBit
  rw [bitsAt, bitsAt] at h2
  rw [← h2] at hp
  have hc : ∀ (x : A) (P : Bool → Bool), ((positions (width A)).map (val x).testBit).countP P = countBelow (width A) (fun i => P ((val x).testBit i)) := by
    intro x P
    rw [List.countP_map, positions, List.countP_reverse, countBelow]
    rfl
  have k1 := hp.countP_eq (fun b => b)
  have k2 := hp.countP_eq (fun b => !b)
  rw [hc, hc] at k1 k2
  rw [(C14_counts u).1, (C14_counts a).1, (C14_counts u).2.1, (C14_counts a).2.1]
  exact ⟨k1, k2⟩

/-- The addresses of a network are unraveled to those of a CIDR network with as many addresses, and to no others. -/
theorem C125_network (n : Net A) (hn : WF n) :
    ∃ o p, IsCidr p o ∧ p = countBelow (width A) (fun i => (val n.subnetMask).testBit i) ∧ o.addressCount = n.addressCount ∧
      unravelAddress n.baseAddr n.subnetMask = .ok o.baseAddr ∧
      ∀ a, ∃ u, unravelAddress a n.subnetMask = .ok u ∧ (Member n a ↔ Member o u) := by
  obtain ⟨c, hc, hp⟩ := C19_unravel_mask n.subnetMask
  obtain ⟨b, hb, -⟩ := (C18_unravel_weave n.baseAddr n.subnetMask).1
  have inj : ∀ x y z : A, unravelAddress x n.subnetMask = .ok z → unravelAddress y n.subnetMask = .ok z → x = y := by
    intro x y z h h'
    obtain ⟨u, h1, h2⟩ := (C18_unravel_weave x n.subnetMask).1
    obtain ⟨v, h3, h4⟩ := (C18_unravel_weave y n.subnetMask).1
    rw [h] at h1
    rw [h'] at h3
    cases h1
    cases h3
    rw [h2] at h4
    exact Exec.ok.inj h4
  have meet : ∀ x u : A, unravelAddress x n.subnetMask = .ok u → unravelAddress (IpAddr.and x n.subnetMask) n.subnetMask = .ok (IpAddr.and u c) := by
    intro x u h
    obtain ⟨⟨u', v', h1, h2, h3, -⟩, -⟩ := C125_bitwise x n.subnetMask n.subnetMask
    rw [h] at h1
    rw [hc] at h2
    cases h1
    cases h2
    exact h3
  have hbase : IpAddr.and n.baseAddr n.subnetMask = n.baseAddr := by
    have := (contains_iff hn.hz n.baseAddr).mpr (base_member n)
    simpa [Net.contains] using this
  have hbc : IpAddr.and b c = b := by
    have := meet _ _ hb
    rw [hbase, hb] at this
    exact (Exec.ok.inj this).symm
  have ho : IsCidr _ (Net.newWithMask b c) := ⟨newWithMask_wf b c, ((newWithMask_wf b c).prefix_iff _).mpr hp⟩
  refine ⟨Net.newWithMask b c, _, ho, rfl, ?_, ?_, fun a => ?_⟩
  · rw [addressCount_eq, addressCount_eq]
    congr 1
    have h1 := (isCidr_netBits ho).1
    have h2 := netBits_add_hostBits (Net.newWithMask b c)
    have h3 := netBits_add_hostBits n
    have h4 : netBits n = countBelow (width A) (fun i => (val n.subnetMask).testBit i) := by
      rw [← countOnes_netBits, countOnes_eq]
    omega
  · rw [hb]
    exact congrArg _ hbc.symm
  · obtain ⟨u, hu, -⟩ := (C18_unravel_weave a n.subnetMask).1
    refine ⟨u, hu, ?_⟩
    rw [← contains_iff hn.hz, ← contains_iff ho.1.hz, Net.contains, Net.contains, decide_eq_true_iff, decide_eq_true_iff]
    show _ ↔ IpAddr.and u c = IpAddr.and b c
    rw [hbc]
    have := meet _ _ hu
    constructor
    · intro h
      rw [h, hb] at this
      exact (Exec.ok.inj this).symm
    · intro h
      rw [h] at this
      exact inj _ _ _ this hb

theorem unravel_val (n : Net A) (a u : A) (h : unravelAddress a n.subnetMask = .ok u) :
    val u = ofBits (netPart n a) * 2 ^ hostBits n + ofBits (hostPart n a) := by
  obtain ⟨u', h1, h2⟩ := unravel_spec a n.subnetMask
  rw [h] at h1
  cases h1
  have h3 : abits u = netPart n a ++ hostPart n a := h2
  rw [← ofBits_abits, h3, ofBits_append, hostPart_length]

/-- The order of the addresses of a network is kept; so is the order of addresses that differ in network bits only. -/
theorem C125_order (n : Net A) (a b u v : A) (hu : unravelAddress a n.subnetMask = .ok u) (hv : unravelAddress b n.subnetMask = .ok v)
    (h : (∀ i, i < width A → (val n.subnetMask).testBit i = true → (val a).testBit i = (val b).testBit i) ∨
      (∀ i, i < width A → (val n.subnetMask).testBit i = false → (val a).testBit i = (val b).testBit i)) :
    val a < val b ↔ val u < val v := by
  rw [unravel_val n a u hu, unravel_val n b v hv, val_eq_wval n a, val_eq_wval n b]
  have la := ofBits_lt (hostPart n a)
  have lb := ofBits_lt (hostPart n b)
  have ma := ofBits_lt (netPart n a)
  have mb := ofBits_lt (netPart n b)
  rw [hostPart_length] at la lb
  rw [netPart_length] at ma mb
  rcases h with h | h
  · have e : netPart n a = netPart n b := by
      have := (member_iff_netPart { n with baseAddr := b } a).mp h
      exact this
    rw [e, wval_lt_host n _ la lb]
    omega
  · have e : hostPart n a = hostPart n b := by
      have := (member_iff_netPart { n with baseAddr := b, subnetMask := IpAddr.negate n.subnetMask } a).mp fun i hi hb =>
        h i hi (by rw [testBit_negate _ i hi] at hb; simpa using hb)
      simpa [netPart, hostPart, mbits, abits_negate] using this
    rw [e, wval_lt_net n _ ma mb]
    constructor
    · intro hlt
      exact Nat.add_lt_add_right (Nat.mul_lt_mul_of_pos_right hlt (Nat.two_pow_pos _)) _
    · intro hlt
      exact Nat.lt_of_mul_lt_mul_right (Nat.lt_of_add_lt_add_right hlt)

end generic

theorem C125_permutation_families : (type_of% (@C125_permutation V4 _ _ _)) ∧ (type_of% (@C125_permutation V6 _ _ _)) :=
  ⟨@C125_permutation V4 _ _ _, @C125_permutation V6 _ _ _⟩

theorem C125_bitwise_families : (type_of% (@C125_bitwise V4 _ _ _)) ∧ (type_of% (@C125_bitwise V6 _ _ _)) :=
  ⟨@C125_bitwise V4 _ _ _, @C125_bitwise V6 _ _ _⟩

theorem C125_ones_families : (type_of% (@C125_ones V4 _ _ _)) ∧ (type_of% (@C125_ones V6 _ _ _)) := ⟨@C125_ones V4 _ _ _, @C125_ones V6 _ _ _⟩

theorem C125_network_families : (type_of% (@C125_network V4 _ _ _)) ∧ (type_of% (@C125_network V6 _ _ _)) :=
  ⟨@C125_network V4 _ _ _, @C125_network V6 _ _ _⟩

theorem C125_order_families : (type_of% (@C125_order V4 _ _ _)) ∧ (type_of% (@C125_order V6 _ _ _)) :=
  ⟨@C125_order V4 _ _ _, @C125_order V6 _ _ _⟩

/-! ## Non-vacuity -/

/-- With mask 255.0.255.0 the second byte goes behind the third. -/
example : unravelAddress (⟨0x0A141E28#32⟩ : V4) ⟨0xFF00FF00#32⟩ = .ok ⟨0x0A1E1428#32⟩ := by decide +kernel

/-- The order of addresses that differ in both kinds of bits is not kept. -/
example : unravelAddress (⟨0x00010000#32⟩ : V4) ⟨0xFF00FF00#32⟩ = .ok ⟨0x00000100#32⟩ ∧
    unravelAddress (⟨0x00000100#32⟩ : V4) ⟨0xFF00FF00#32⟩ = .ok ⟨0x00010000#32⟩ := by decide +kernel

/-- Two addresses of one network with mask 255.0.255.0, and their order before and after. -/
example : WF (Net.newWithMask (⟨0x0A001E00#32⟩ : V4) ⟨0xFF00FF00#32⟩) ∧
    (∀ i, i < width V4 → (val (⟨0xFF00FF00#32⟩ : V4)).testBit i = true →
      (val (⟨0x0A021E07#32⟩ : V4)).testBit i = (val (⟨0x0A031E05#32⟩ : V4)).testBit i) ∧
    unravelAddress (⟨0x0A021E07#32⟩ : V4) ⟨0xFF00FF00#32⟩ = .ok ⟨0x0A1E0207#32⟩ ∧
    unravelAddress (⟨0x0A031E05#32⟩ : V4) ⟨0xFF00FF00#32⟩ = .ok ⟨0x0A1E0305#32⟩ :=
  ⟨newWithMask_wf _ _, by decide +kernel, by decide +kernel, by decide +kernel⟩

end Ripcalc
