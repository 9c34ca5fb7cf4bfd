import Verif.Proofs.Resize
import Verif.Props.Parse
import Verif.Props.BitManip
/-!
# Properties of `--resize`: C48–C50 (and the resize part of C34)
-/
set_option linter.unusedSectionVars false
namespace Ripcalc
open AddrSpec LawfulIpAddr

theorem ofBits_eq_bigEndian (l : List Bool) : ofBits l = bigEndian 2 (l.map Bool.toNat) := by
  induction l with
  | nil => rfl
  | cons b l ih =>
    have h := bigEndian_append 2 [b.toNat] (l.map Bool.toNat)
    rw [ofBits, ih, List.map_cons]
    simpa [bigEndian] using h.symm

section generic
variable {A : Type} [IpAddr A] [AddrSpec A] [LawfulIpAddr A]

theorem netNum_eq (n : Net A) : netNum n = networkNumber n := by
  rw [netNum, netPart, mbits, abits, abits, (select_natBits _ _ _).1, ofBits_eq_bigEndian]; rfl

theorem hostBits_eq (n : Net A) : hostBits n = hostBitCount n.subnetMask := by
  rw [hostBits, mbits, abits, ones_mnot_natBits]; rfl

theorem isCidr_of_mask {o : Net A} {m : A} {q : Nat} (hw : WF o) (hm : o.subnetMask = m) (hq : IsPrefixMask (width A) q (val m)) :
    IsCidr q o := ⟨hw, (hw.prefix_iff q).mpr (hm ▸ hq)⟩

theorem prefix_hostBits {m : A} {q : Nat} (hq : IsPrefixMask (width A) q (val m)) : hostBits (maskNet m) = width A - q :=
  (isCidr_netBits (isCidr_of_mask (newWithMask_wf m m) rfl hq)).2.1

/-! ## C48: resizing to a longer prefix -/

/-- C48. -/
theorem C48_subnets (pr : Profile) (n : Net A) (m : A) (p q : Nat) (hn : IsCidr p n) (hm : IsPrefixMask (width A) q (val m))
    (hpq : p < q) :
    ∃ ns, resizeNetwork pr n m = .ok (ns, .gt) ∧ ns.length = 2 ^ (q - p) ∧ (∀ o ∈ ns, IsCidr q o) ∧
      ns.Pairwise Below ∧ ns.Pairwise Disjoint ∧ Covers ns (Member n) := by
  have hq := hm.1
  have hb := prefix_hostBits hm
  have hnb := (isCidr_netBits hn).2.1
  have hcidr : ∀ o ∈ resizeNets n m, IsCidr q o := by
    intro o ho
    obtain ⟨k, -, h⟩ := mem_resizeNets.mp ho
    exact isCidr_of_mask h.wf h.mask hm
  have hbelow : (resizeNets n m).Pairwise Below := by
    refine (resizeNets_ascending n m).imp_of_mem ?_
    intro a b ha hb' hlt x y hx hy
    have ca := hcidr a ha
    have cb := hcidr b hb'
    rw [cidr_member_iff ca, cidr_base ca] at hx
    rw [cidr_member_iff cb, cidr_base cb] at hy
    have := Nat.mul_le_mul_right (2 ^ (width A - q)) hlt
    rw [Nat.succ_mul] at this
    omega
  refine ⟨resizeNets n m, ?_, ?_, hcidr, hbelow, ?_, ?_⟩
  · rw [resizeNetwork_spec pr hn.1.hz, resizeDir, Nat.compare_eq_gt.mpr (by omega)]
  · rw [length_resizeNets, resizeCount, hb, hnb]; congr 1; omega
  · exact hbelow.imp (fun h x hx => Nat.lt_irrefl _ (h x x hx.1 hx.2))
  · intro a
    have hC : resizeCount n m * 2 ^ (width A - q) = 2 ^ (width A - p) := by
      rw [resizeCount, hb, hnb, ← Nat.pow_add]; congr 1; omega
    have hF : resizeFirst n m * 2 ^ (width A - q) = val n.baseAddr := by
      rw [resizeFirst_smaller (by omega), hb, hnb, cidr_base hn, Nat.mul_assoc, ← Nat.pow_add]; congr 2; omega
    have hpos := Nat.two_pow_pos (width A - q)
    rw [cidr_member_iff hn, ← hC, ← hF, ← Nat.add_mul]
    constructor
    · rintro ⟨o, ho, hmem⟩
      have co := hcidr o ho
      obtain ⟨k, hk, h⟩ := mem_resizeNets.mp ho
      rw [cidr_member_iff co, cidr_base co, h.num] at hmem
      have h1 := Nat.mul_le_mul_right (2 ^ (width A - q)) (Nat.le_add_right (resizeFirst n m) k)
      have h2 := Nat.mul_le_mul_right (2 ^ (width A - q)) (by omega : resizeFirst n m + k + 1 ≤ resizeFirst n m + resizeCount n m)
      rw [Nat.add_mul (_ + _) 1, Nat.one_mul] at h2
      omega
    · rintro ⟨h1, h2⟩
      have h3 : resizeFirst n m ≤ val a / 2 ^ (width A - q) := (Nat.le_div_iff_mul_le hpos).mpr h1
      have h4 : val a / 2 ^ (width A - q) < resizeFirst n m + resizeCount n m := (Nat.div_lt_iff_lt_mul hpos).mpr h2
      have hy : val a / 2 ^ (width A - q) < 2 ^ netBits (maskNet m) :=
        Nat.lt_of_lt_of_le h4 resizeFirst_add_count
      have hmem : numNet m (val a / 2 ^ (width A - q)) ∈ resizeNets n m := by
        refine mem_resizeNets.mpr ⟨val a / 2 ^ (width A - q) - resizeFirst n m, by omega, ?_⟩
        rw [show resizeFirst n m + (val a / 2 ^ (width A - q) - resizeFirst n m) = val a / 2 ^ (width A - q) by omega]
        exact numNet_spec m hy
      refine ⟨_, hmem, ?_⟩
      have co := hcidr _ hmem
      rw [cidr_member_iff co, cidr_base co, (numNet_spec m hy).num]
      have h5 := Nat.div_add_mod (val a) (2 ^ (width A - q))
      have h6 := Nat.mod_lt (val a) hpos
      rw [Nat.mul_comm] at h5
      omega

/-! ## C49: resizing to a shorter or the same prefix -/

/-- C49, shorter prefix: the only network of that prefix that contains the given one. -/
theorem C49_supernet (pr : Profile) (n : Net A) (m : A) (p q : Nat) (hn : IsCidr p n) (hm : IsPrefixMask (width A) q (val m))
    (hpq : q < p) :
    ∃ o, resizeNetwork pr n m = .ok ([o], .lt) ∧ IsCidr q o ∧ Includes o n ∧
      ∀ o', IsCidr q o' → Includes o' n → o' = o := by
  have hq := hm.1
  have hp := cidr_le hn
  have hb := prefix_hostBits hm
  have hnb := (isCidr_netBits hn).2.1
  have hcount : resizeCount n m = 1 := by rw [resizeCount, Nat.sub_eq_zero_of_le (by omega)]
  have hy : resizeFirst n m < 2 ^ netBits (maskNet m) := by
    have := resizeFirst_add_count (n := n) (m := m)
    omega
  have ho := numNet_spec m hy
  have co := isCidr_of_mask ho.wf ho.mask hm
  have hpos := Nat.two_pow_pos (width A - q)
  have hinc : Includes (numNet m (resizeFirst n m)) n := by
    intro a ha
    rw [cidr_member_iff hn] at ha
    rw [cidr_member_iff co, cidr_base co, ho.num, resizeFirst, hb, hnb, ← cidr_base hn]
    have hd : 2 ^ (width A - p) ∣ 2 ^ (width A - q) := Nat.pow_dvd_pow 2 (by omega)
    have h5 := Nat.div_add_mod (val n.baseAddr) (2 ^ (width A - q))
    have h6 := Nat.mod_lt (val n.baseAddr) hpos
    have hd2 : 2 ^ (width A - p) ∣ val n.baseAddr % 2 ^ (width A - q) := (Nat.dvd_mod_iff hd).mpr (cidr_dvd hn)
    obtain ⟨s, hs⟩ := hd
    obtain ⟨t, ht⟩ := hd2
    rw [Nat.mul_comm] at h5
    have hts : t < s := by
      rw [ht, hs] at h6
      exact Nat.lt_of_mul_lt_mul_left h6
    have := Nat.mul_le_mul_left (2 ^ (width A - p)) hts
    rw [← hs, Nat.mul_succ, ← ht] at this
    omega
  refine ⟨numNet m (resizeFirst n m), ?_, co, hinc, ?_⟩
  · rw [resizeNetwork_spec pr hn.1.hz, resizeDir, Nat.compare_eq_lt.mpr (by omega), resizeNets, hcount]; rfl
  · intro o' co' hinc'
    have h1 := hinc _ (base_member n)
    have h2 := hinc' _ (base_member n)
    rw [cidr_member_iff co, cidr_base co] at h1
    rw [cidr_member_iff co', cidr_base co'] at h2
    have e : netNum o' = netNum (numNet m (resizeFirst n m)) := by
      rw [← Nat.succ_mul] at h1 h2
      have a1 := Nat.div_eq_of_lt_le h1.1 h1.2
      have a2 := Nat.div_eq_of_lt_le h2.1 h2.2
      rw [← a1, ← a2]
    refine wf_of_netNum co'.1 ho.wf ?_ e
    rw [ho.mask]
    exact isPrefixMask_inj ((co'.1.prefix_iff q).mp co'.2) hm

/-- C49, same prefix. -/
theorem C49_same (pr : Profile) (n : Net A) (m : A) (p : Nat) (hn : IsCidr p n) (hm : IsPrefixMask (width A) p (val m)) :
    resizeNetwork pr n m = .ok ([n], .eq) := by
  have hb := prefix_hostBits hm
  have hnb := (isCidr_netBits hn).2.1
  have hcount : resizeCount n m = 1 := by rw [resizeCount, Nat.sub_eq_zero_of_le (by omega)]
  have hf : resizeFirst n m = netNum n := by rw [resizeFirst_smaller (by omega), hb, hnb]; simp
  have hy : netNum n < 2 ^ netBits (maskNet m) := by
    have := resizeFirst_add_count (n := n) (m := m)
    omega
  have ho := numNet_spec m hy
  have e : numNet m (netNum n) = n :=
    wf_of_netNum ho.wf hn.1 (by rw [ho.mask]; exact isPrefixMask_inj hm ((hn.1.prefix_iff p).mp hn.2)) ho.num
  rw [resizeNetwork_spec pr hn.1.hz, resizeDir, Nat.compare_eq_eq.mpr (by omega), resizeNets, hcount, hf]
  show Exec.ok ([numNet m (netNum n)], Ordering.eq) = _
  rw [e]

/-! ## C50: arbitrary masks -/

/-- The addresses of disjoint networks in one list. -/
theorem union_list {ns : List (Net A)} (hd : ns.Pairwise Disjoint) {h : Nat} (hh : ∀ o ∈ ns, hostBits o = h) :
    ∃ ys : List A, ys.Nodup ∧ (∀ a, a ∈ ys ↔ ∃ o ∈ ns, Member o a) ∧ ys.length = ns.length * 2 ^ h := by
  induction ns with
  | nil => exact ⟨[], .nil, by simp, by simp⟩
  | cons o ns ih =>
    obtain ⟨hd1, hd2⟩ := List.pairwise_cons.mp hd
    obtain ⟨ys, h1, h2, h3⟩ := ih hd2 (fun o ho => hh o (List.mem_cons_of_mem _ ho))
    obtain ⟨l1, l2⟩ := memberList_listing o
    refine ⟨memberList o ++ ys, ?_, ?_, ?_⟩
    · rw [List.nodup_append]
      refine ⟨l2.imp (fun hab e => by rw [e] at hab; exact Nat.lt_irrefl _ hab), h1, ?_⟩
      intro a ha b hb e
      subst e
      obtain ⟨o', ho', hm⟩ := (h2 a).mp hb
      exact hd1 o' ho' a ⟨(l1 a).mp ha, hm⟩
    · intro a
      rw [List.mem_append, l1, h2]; simp
    · rw [List.length_append, memberList_length, h3, hh o (by simp), List.length_cons, Nat.succ_mul, Nat.add_comm]

/-- C50: the complete result for any mask.  The direction compares the numbers of host bits, and the `k`-th network of the
result has the new mask and the `k`-th network number counted from that of the given network rescaled to the new size. -/
theorem C50_result (pr : Profile) (n : Net A) (m : A) (hn : WF n) :
    ∃ ns, resizeNetwork pr n m = .ok (ns, compare (hostBitCount n.subnetMask) (hostBitCount m)) ∧
      ns.length = 2 ^ (hostBitCount n.subnetMask - hostBitCount m) ∧
      (∀ o ∈ ns, WF o ∧ o.subnetMask = m) ∧
      ns.map networkNumber =
        List.range' (networkNumber n * 2 ^ hostBitCount n.subnetMask / 2 ^ hostBitCount m)
          (2 ^ (hostBitCount n.subnetMask - hostBitCount m)) ∧
      ns.Pairwise (fun a b => val a.baseAddr < val b.baseAddr) ∧ ns.Pairwise Disjoint := by
  have hb : hostBits (maskNet m) = hostBitCount m := hostBits_eq (maskNet m)
  have hN : ∀ o ∈ resizeNets n m, WF o ∧ o.subnetMask = m := by
    intro o ho
    obtain ⟨k, -, h⟩ := mem_resizeNets.mp ho
    exact ⟨h.wf, h.mask⟩
  refine ⟨resizeNets n m, ?_, ?_, hN, ?_, ?_, ?_⟩
  · rw [resizeNetwork_spec pr hn.hz, resizeDir, hostBits_eq n, hb]
  · rw [length_resizeNets, resizeCount, hostBits_eq n, hb]
  · rw [← netNum_eq, ← hostBits_eq n, ← hb, resizeNets, List.map_map]
    show List.map _ (List.range' (resizeFirst n m) (resizeCount n m)) = List.range' (resizeFirst n m) (resizeCount n m)
    have hfc := resizeFirst_add_count (n := n) (m := m)
    conv => rhs; rw [← List.map_id (List.range' (resizeFirst n m) (resizeCount n m))]
    refine List.map_congr_left ?_
    intro y hy
    rw [List.mem_range'_1] at hy
    show networkNumber (numNet m y) = y
    rw [← netNum_eq, (numNet_spec m (by omega)).num]
  · refine (resizeNets_ascending n m).imp_of_mem ?_
    intro a b ha hb' hlt
    exact (base_lt_of_netNum (hN a ha).1 (hN b hb').1 ((hN a ha).2.trans (hN b hb').2.symm)).mpr hlt
  · refine (resizeNets_ascending n m).imp_of_mem ?_
    intro a b ha hb' hlt
    exact disjoint_of_netNum ((hN a ha).2.trans (hN b hb').2.symm) (by omega)

/-- C50: to an equal or smaller size, the networks have together as many addresses as the original. -/
theorem C50_count (pr : Profile) (n : Net A) (m : A) (ns : List (Net A)) (d : Ordering) (hn : WF n)
    (hr : resizeNetwork pr n m = .ok (ns, d)) (hle : hostBitCount m ≤ hostBitCount n.subnetMask)
    (xs ys : List A) (hx : xs.Nodup) (hy : ys.Nodup) (hxs : ∀ a, a ∈ xs ↔ Member n a)
    (hys : ∀ a, a ∈ ys ↔ ∃ o ∈ ns, Member o a) : xs.length = ys.length := by
  obtain ⟨ns', h1, h2, h3, -, -, h4⟩ := C50_result pr n m hn
  rw [hr] at h1
  have e : ns = ns' := by injection h1 with h1; exact congrArg Prod.fst h1
  subst e
  have hh : ∀ o ∈ ns, hostBits o = hostBitCount m := fun o ho => by rw [hostBits_eq, (h3 o ho).2]
  obtain ⟨zs, z1, z2, z3⟩ := union_list h4 hh
  have hp : ys.Perm zs := (List.perm_ext_iff_of_nodup hy z1).mpr (fun a => (hys a).trans (z2 a).symm)
  obtain ⟨l1, l2⟩ := memberList_listing n
  have hp' : xs.Perm (memberList n) := (List.perm_ext_iff_of_nodup hx
    (l2.imp (fun hab e => by rw [e] at hab; exact Nat.lt_irrefl _ hab))).mpr (fun a => (hxs a).trans (l1 a).symm)
  rw [hp.length_eq, hp'.length_eq, z3, memberList_length, h2, hostBits_eq, ← Nat.pow_add, Nat.sub_add_cancel hle]

/-- C50: to a mask of the same size and back. -/
theorem C50_back (pr : Profile) (n : Net A) (m : A) (hn : WF n) (hs : hostBitCount m = hostBitCount n.subnetMask) :
    ∃ o, resizeNetwork pr n m = .ok ([o], .eq) ∧ o.subnetMask = m ∧ resizeNetwork pr o n.subnetMask = .ok ([n], .eq) := by
  have key : ∀ (n : Net A) (m : A), WF n → hostBitCount m = hostBitCount n.subnetMask →
      ∃ o, resizeNetwork pr n m = .ok ([o], .eq) ∧ WF o ∧ o.subnetMask = m ∧ networkNumber o = networkNumber n := by
    intro n m hn hs
    obtain ⟨ns, h1, h2, h3, h4, -⟩ := C50_result pr n m hn
    rw [hs, Nat.sub_self] at h2
    rw [hs, Nat.sub_self, Nat.mul_div_cancel _ (Nat.two_pow_pos _)] at h4
    obtain ⟨o, rfl⟩ := List.length_eq_one_iff.mp h2
    rw [hs, Nat.compare_eq_eq.mpr rfl] at h1
    refine ⟨o, h1, (h3 o (by simp)).1, (h3 o (by simp)).2, ?_⟩
    simpa using h4
  obtain ⟨o, h1, h2, h3, h4⟩ := key n m hn hs
  obtain ⟨o', i1, i2, i3, i4⟩ := key o n.subnetMask h2 (by rw [h3]; exact hs.symm)
  refine ⟨o, h1, h3, ?_⟩
  rw [i1, wf_of_netNum i2 hn i3 (by rw [netNum_eq, netNum_eq, i4, h4])]

/-- C50: to a larger size there is one network. -/
theorem C50_larger (pr : Profile) (n : Net A) (m : A) (hn : WF n) (hlt : hostBitCount n.subnetMask < hostBitCount m) :
    ∃ o, resizeNetwork pr n m = .ok ([o], .lt) ∧ WF o ∧ o.subnetMask = m := by
  obtain ⟨ns, h1, h2, h3, -⟩ := C50_result pr n m hn
  rw [Nat.sub_eq_zero_of_le (Nat.le_of_lt hlt)] at h2
  obtain ⟨o, rfl⟩ := List.length_eq_one_iff.mp h2
  rw [Nat.compare_eq_lt.mpr hlt] at h1
  exact ⟨o, h1, h3 o (by simp)⟩

end generic

/-! ## Concrete cases -/

theorem resize_of_fuel {A : Type} [IpAddr A] (fuel : Nat) (pr : Profile) (n : Net A) (m u l l' : A) (r : List (Net A))
    (h0 : IpAddr.countZeros m < IpAddr.countZeros n.subnetMask)
    (h1 : unravelAddress n.baseAddr n.subnetMask = .ok u) (h2 : n.lastAddrOfSubnet = .ok l) (h3 : unravelAddress l n.subnetMask = .ok l')
    (h : loopFuel (resizeStep pr m l') fuel (u, []) = some (.ok r)) : resizeNetwork pr n m = .ok (r, .gt) := by
  rw [resizeNetwork]
  simp only [h1, h2, h3, Exec.ok_bind, loopM_of_fuel h]
  rw [if_neg (by omega), if_neg (by omega)]
  rfl

/-- 10.0.0.0/24 split into four; the hypotheses of `C48_subnets` hold. -/
example : IsCidr 24 (Net.newWithMask (⟨0x0A000000#32⟩ : V4) ⟨0xFFFFFF00#32⟩) ∧ IsPrefixMask (width V4) 26 (val (⟨0xFFFFFFC0#32⟩ : V4)) ∧
    resizeNetwork .checked (Net.newWithMask (⟨0x0A000000#32⟩ : V4) ⟨0xFFFFFF00#32⟩) ⟨0xFFFFFFC0#32⟩ =
      .ok ([⟨⟨0x0A000000#32⟩, ⟨0xFFFFFFC0#32⟩, some 26⟩, ⟨⟨0x0A000040#32⟩, ⟨0xFFFFFFC0#32⟩, some 26⟩,
            ⟨⟨0x0A000080#32⟩, ⟨0xFFFFFFC0#32⟩, some 26⟩, ⟨⟨0x0A0000C0#32⟩, ⟨0xFFFFFFC0#32⟩, some 26⟩], .gt) :=
  ⟨⟨newWithMask_wf _ _, by decide +kernel⟩, by unfold IsPrefixMask; decide +kernel,
    resize_of_fuel 6 _ _ _ ⟨0x0A000000#32⟩ ⟨0x0A0000FF#32⟩ ⟨0x0A0000FF#32⟩ _ (by decide +kernel) (by decide +kernel)
      (by decide +kernel) (by decide +kernel) (by decide +kernel)⟩

/-- At the top of the address space the loop ends because there is no next network. -/
example : resizeNetwork .checked (Net.newWithMask (⟨0xFFFFFFFE#32⟩ : V4) ⟨0xFFFFFFFE#32⟩) ⟨0xFFFFFFFF#32⟩ =
      .ok ([⟨⟨0xFFFFFFFE#32⟩, ⟨0xFFFFFFFF#32⟩, some 32⟩, ⟨⟨0xFFFFFFFF#32⟩, ⟨0xFFFFFFFF#32⟩, some 32⟩], .gt) :=
  resize_of_fuel 6 _ _ _ ⟨0xFFFFFFFE#32⟩ ⟨0xFFFFFFFF#32⟩ ⟨0xFFFFFFFF#32⟩ _ (by decide +kernel) (by decide +kernel)
      (by decide +kernel) (by decide +kernel) (by decide +kernel)

/-- A supernet, and a move to a lopsided mask of the same size. -/
example : resizeNetwork .checked (Net.newWithMask (⟨0x0A000300#32⟩ : V4) ⟨0xFFFFFF00#32⟩) ⟨0xFFFFFC00#32⟩ =
      .ok ([⟨⟨0x0A000000#32⟩, ⟨0xFFFFFC00#32⟩, some 22⟩], .lt) ∧
    resizeNetwork .checked (Net.newWithMask (⟨0x0A000300#32⟩ : V4) ⟨0xFFFFFF00#32⟩) ⟨0xFFFF00FF#32⟩ =
      .ok ([⟨⟨0x0A000003#32⟩, ⟨0xFFFF00FF#32⟩, none⟩], .eq) ∧
    hostBitCount (⟨0xFFFF00FF#32⟩ : V4) = 8 := by decide +kernel

/-! ## C34: the target of a resize -/

/-- The target mask of an IPv4 resize: a dotted mask, or a number up to 32. -/
theorem C34_resize_ipv4 (s : Str) :
    (∃ r, resizeMask4 s = .ok r) ∧
    ∀ m, resizeMask4 s = .ok (.ok m) ↔ ':' ∉ s ∧
      (('.' ∈ s ∧ V4Reading s m) ∨ ('.' ∉ s ∧ ∃ p, PlusNumeral 10 s p ∧ p ≤ 32 ∧ IsPrefixMask 32 p (val m))) := by
  obtain ⟨⟨r, hr⟩, h6, h4, hp⟩ := C36_parse_subnet s
  rw [resizeMask4, hr, Exec.ok_bind]
  rw [hr] at h6 h4 hp
  cases r with
  | error e =>
    refine ⟨⟨_, rfl⟩, fun m => ⟨fun h => by simp at h, ?_⟩⟩
    rintro ⟨hc, ⟨hd, hv⟩ | ⟨hd, p, hv, hle, -⟩⟩
    · have := (h4 m).mpr ⟨hc, hd, hv⟩; simp at this
    · have := (hp p).mpr ⟨hc, hd, hv, by omega⟩; simp at this
  | ok x =>
    cases x with
    | ipv6Mask m' =>
      obtain ⟨hc, -⟩ := (h6 m').mp rfl
      exact ⟨⟨_, rfl⟩, fun m => ⟨fun h => by simp at h, fun h => absurd hc h.1⟩⟩
    | ipv4Mask m' =>
      obtain ⟨hc, hd, hv⟩ := (h4 m').mp rfl
      refine ⟨⟨_, rfl⟩, fun m => ⟨fun h => ?_, ?_⟩⟩
      · simp at h; subst h; exact ⟨hc, .inl ⟨hd, hv⟩⟩
      · rintro ⟨-, ⟨-, hv'⟩ | ⟨hd', -⟩⟩
        · rw [(v4Reading_iff _ _).symm] at hv hv'
          rw [hv] at hv'
          cases hv'; rfl
        · exact absurd hd hd'
    | cidr p =>
      obtain ⟨hc, hd, hv, -⟩ := (hp p).mp rfl
      have uniq : ∀ q, PlusNumeral 10 s q → q ≤ 32 → q = p := by
        intro q hq hle
        have := (hp q).mpr ⟨hc, hd, hq, by omega⟩
        simp at this; exact this.symm
      by_cases h32 : p > 32
      · simp only [if_pos h32]
        refine ⟨⟨_, rfl⟩, fun m => ⟨fun h => by simp at h, ?_⟩⟩
        rintro ⟨-, ⟨hd', -⟩ | ⟨-, q, hq, hle, -⟩⟩
        · exact absurd hd' hd
        · have := uniq q hq hle; omega
      · simp only [if_neg h32]
        obtain ⟨m', h1, h2⟩ := maskOfPrefix V4 p
        have h1 : IpAddr.fromBytes (subnetMaskBytesFromPrefix p 4) = some m' := h1
        have h2 : IsPrefixMask 32 p (val m') := by rwa [show min p (width V4) = p from Nat.min_eq_left (by show p ≤ 32; omega)] at h2
        rw [h1]
        refine ⟨⟨_, rfl⟩, fun m => ⟨fun h => ?_, ?_⟩⟩
        · simp at h; subst h; exact ⟨hc, .inr ⟨hd, p, hv, by omega, h2⟩⟩
        · rintro ⟨-, ⟨hd', -⟩ | ⟨-, q, hq, hle, hm⟩⟩
          · exact absurd hd' hd
          · have := uniq q hq hle
            subst this
            rw [isPrefixMask_inj (A := V4) hm h2]; rfl

/-- The target mask of an IPv6 resize: a mask with colons, or a number up to 128. -/
theorem C34_resize_ipv6 (s : Str) :
    (∃ r, resizeMask6 s = .ok r) ∧
    ∀ m, resizeMask6 s = .ok (.ok m) ↔
      (':' ∈ s ∧ V6Reading s m) ∨ (':' ∉ s ∧ '.' ∉ s ∧ ∃ p, PlusNumeral 10 s p ∧ p ≤ 128 ∧ IsPrefixMask 128 p (val m)) := by
  obtain ⟨⟨r, hr⟩, h6, h4, hp⟩ := C36_parse_subnet s
  rw [resizeMask6, hr, Exec.ok_bind]
  rw [hr] at h6 h4 hp
  cases r with
  | error e =>
    refine ⟨⟨_, rfl⟩, fun m => ⟨fun h => by simp at h, ?_⟩⟩
    rintro (⟨hc, hv⟩ | ⟨hc, hd, p, hv, hle, -⟩)
    · have := (h6 m).mpr ⟨hc, hv⟩; simp at this
    · have := (hp p).mpr ⟨hc, hd, hv, by omega⟩; simp at this
  | ok x =>
    cases x with
    | ipv6Mask m' =>
      obtain ⟨hc, hv⟩ := (h6 m').mp rfl
      refine ⟨⟨_, rfl⟩, fun m => ⟨fun h => ?_, ?_⟩⟩
      · simp at h; subst h; exact .inl ⟨hc, hv⟩
      · rintro (⟨-, hv'⟩ | ⟨hc', -⟩)
        · rw [(v6Reading_iff _ _).symm] at hv hv'
          rw [hv] at hv'
          cases hv'; rfl
        · exact absurd hc hc'
    | ipv4Mask m' =>
      obtain ⟨hc, hd, -⟩ := (h4 m').mp rfl
      refine ⟨⟨_, rfl⟩, fun m => ⟨fun h => by simp at h, ?_⟩⟩
      rintro (⟨hc', -⟩ | ⟨-, hd', -⟩)
      · exact absurd hc' hc
      · exact absurd hd hd'
    | cidr p =>
      obtain ⟨hc, hd, hv, -⟩ := (hp p).mp rfl
      have uniq : ∀ q, PlusNumeral 10 s q → q ≤ 128 → q = p := by
        intro q hq hle
        have := (hp q).mpr ⟨hc, hd, hq, by omega⟩
        simp at this; exact this.symm
      by_cases h32 : p > 128
      · simp only [if_pos h32]
        refine ⟨⟨_, rfl⟩, fun m => ⟨fun h => by simp at h, ?_⟩⟩
        rintro (⟨hc', -⟩ | ⟨-, -, q, hq, hle, -⟩)
        · exact absurd hc' hc
        · have := uniq q hq hle; omega
      · simp only [if_neg h32]
        obtain ⟨m', h1, h2⟩ := maskOfPrefix V6 p
        have h1 : IpAddr.fromBytes (subnetMaskBytesFromPrefix p 16) = some m' := h1
        have h2 : IsPrefixMask 128 p (val m') := by rwa [show min p (width V6) = p from Nat.min_eq_left (by show p ≤ 128; omega)] at h2
        rw [h1]
        refine ⟨⟨_, rfl⟩, fun m => ⟨fun h => ?_, ?_⟩⟩
        · simp at h; subst h; exact .inr ⟨hc, hd, p, hv, by omega, h2⟩
        · rintro (⟨hc', -⟩ | ⟨-, -, q, hq, hle, hm⟩)
          · exact absurd hc' hc
          · have := uniq q hq hle
            subst this
            rw [isPrefixMask_inj (A := V6) hm h2]; rfl

/-- Digits worth more than the number of bits are refused as a target, however long they are. -/
theorem C34_resize_target (l : Str) (p : Nat) (hl : Numeral 10 l p) :
    (32 < p → ∃ e, resizeMask4 l = .ok (.error e)) ∧ (128 < p → ∃ e, resizeMask6 l = .ok (.error e)) := by
  have hd := numeral_digitText hl
  have hu : ∀ q, PlusNumeral 10 l q → q = p := by
    rintro q (h | ⟨r, e, -⟩)
    · exact h.unique hl
    · have hplus : '+' ∉ l := hd.not_mem (by decide)
      exact absurd (by rw [e]; simp) hplus
  constructor
  · intro hp
    obtain ⟨⟨r, hr⟩, h⟩ := C34_resize_ipv4 l
    cases r with
    | error e => exact ⟨e, hr⟩
    | ok m =>
      obtain ⟨-, ⟨hdot, -⟩ | ⟨-, q, hq, hle, -⟩⟩ := (h m).mp hr
      · exact absurd hdot hd.no_dot
      · have := hu q hq; omega
  · intro hp
    obtain ⟨⟨r, hr⟩, h⟩ := C34_resize_ipv6 l
    cases r with
    | error e => exact ⟨e, hr⟩
    | ok m =>
      obtain ⟨hc, -⟩ | ⟨-, -, q, hq, hle, -⟩ := (h m).mp hr
      · exact absurd hc hd.no_colon
      · have := hu q hq; omega

example : resizeMask4 "26".toList = .ok (.ok ⟨0xFFFFFFC0#32⟩) ∧ resizeMask4 "255.0.255.0".toList = .ok (.ok ⟨0xFF00FF00#32⟩) ∧
    resizeMask4 "33".toList = .ok (.error (.resizeRangeV4 33)) ∧ resizeMask4 "ffff::".toList = .ok (.error .resizeV4ToV6) ∧
    resizeMask6 "129".toList = .ok (.error (.resizeRangeV6 129)) := by decide +kernel

end Ripcalc
