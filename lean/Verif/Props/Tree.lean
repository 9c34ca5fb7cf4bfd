import Verif.Model.NetOrd
import Verif.Props.Added
import Verif.Props.Resize
/-!
# C123: the order of networks and the tree of CIDR networks
-/
namespace Ripcalc
open AddrSpec LawfulIpAddr

section generic
variable {A : Type} [IpAddr A] [AddrSpec A] [LawfulIpAddr A]

theorem addrCmp_cases (a b : A) : (addrCmp a b = .lt ∧ val a < val b) ∨ (addrCmp a b = .eq ∧ a = b) ∨ (addrCmp a b = .gt ∧ val b < val a) := by
  rw [addrCmp]
  by_cases h : a = b
  · exact .inr (.inl ⟨if_pos h, h⟩)
  · have hv : val a ≠ val b := fun e => h (val_inj _ _ e)
    rw [if_neg h]
    by_cases hl : IpAddr.le a b = true
    · rw [if_pos hl]
      have := (le_iff a b).mp hl
      exact .inl ⟨rfl, by omega⟩
    · rw [if_neg hl]
      have : ¬ val a ≤ val b := fun e => hl ((le_iff a b).mpr e)
      exact .inr (.inr ⟨rfl, by omega⟩)

theorem cmp_cases {n o : Net A} (hn : WF n) (ho : WF o) :
    (n.cmp o = .lt ∧ KeyLt n o) ∨ (n.cmp o = .eq ∧ n = o) ∨ (n.cmp o = .gt ∧ KeyLt o n) := by
  rw [Net.cmp, KeyLt, KeyLt]
  rcases addrCmp_cases n.baseAddr o.baseAddr with ⟨h, hv⟩ | ⟨h, hv⟩ | ⟨h, hv⟩ <;> rw [h]
  · exact .inl ⟨rfl, .inl hv⟩
  · rcases addrCmp_cases n.subnetMask o.subnetMask with ⟨h', hv'⟩ | ⟨h', hv'⟩ | ⟨h', hv'⟩ <;> rw [h']
    · exact .inl ⟨rfl, .inr ⟨by rw [hv], hv'⟩⟩
    · have := wf_ext hn ho hv hv'
      subst this
      refine .inr (.inl ⟨?_, rfl⟩)
      cases n.cidrPrefix with
      | none => rfl
      | some p => exact Nat.compare_eq_eq.mpr rfl
    · exact .inr (.inr ⟨rfl, .inr ⟨by rw [hv], hv'⟩⟩)
  · exact .inr (.inr ⟨rfl, .inl hv⟩)

omit [IpAddr A] [LawfulIpAddr A] in
theorem keyLt_ne {n o : Net A} (h : KeyLt n o) : n ≠ o := by
  rintro rfl; rw [KeyLt] at h; omega

/-- The derived order compares the first addresses and then the masks: networks are equal in it exactly if they are the same, that is,
have the same addresses. -/
theorem C123_order (n o : Net A) (hn : WF n) (ho : WF o) :
    (n.cmp o = .lt ↔ KeyLt n o) ∧ (n.cmp o = .gt ↔ KeyLt o n) ∧ (n.cmp o = .eq ↔ n = o) ∧
    (n.cmp o = .eq ↔ ∀ a : A, Member n a ↔ Member o a) := by
  have h4 : n = o ↔ ∀ a : A, Member n a ↔ Member o a :=
    ⟨fun h _ => h ▸ Iff.rfl, fun h => includes_antisymm hn ho (fun a => (h a).mpr) (fun a => (h a).mp)⟩
  rw [← h4]
  rcases cmp_cases hn ho with ⟨h, hk⟩ | ⟨h, hk⟩ | ⟨h, hk⟩ <;> rw [h]
  · have h1 := keyLt_asymm hk
    have h2 := keyLt_ne hk
    simp [hk, h1, h2]
  · subst hk
    have : ¬ KeyLt n n := fun h => keyLt_ne h rfl
    simp [this]
  · have h1 := keyLt_asymm hk
    have h2 := (keyLt_ne hk).symm
    simp [hk, h1, h2]

/-- A network comes before every other network inside it, whatever the masks. -/
theorem C123_before (n o : Net A) (hn : WF n) (ho : WF o) (h : Includes n o) (hne : n ≠ o) : n.cmp o = .lt :=
  (C123_order n o hn ho).1.mpr (includes_keyLt hn ho h hne).1

/-- Two CIDR networks: one lies before the other, or one is inside the other. -/
theorem cidr_trichotomy {n o : Net A} {p q : Nat} (hn : IsCidr p n) (ho : IsCidr q o) :
    (Below n o ∧ val n.baseAddr < val o.baseAddr) ∨ (Below o n ∧ val o.baseAddr < val n.baseAddr) ∨ Includes n o ∨ Includes o n := by
  by_cases h : ∃ a, Member n a ∧ Member o a
  · obtain ⟨a, h1, h2⟩ := h
    rcases cidr_common hn ho h1 h2 with h | h
    · exact .inr (.inr (.inr h.2))
    · exact .inr (.inr (.inl h.2))
  · have key : ∀ {n o : Net A} {p q : Nat}, IsCidr p n → IsCidr q o → (¬ ∃ a, Member n a ∧ Member o a) → val n.baseAddr ≤ val o.baseAddr →
        Below n o ∧ val n.baseAddr < val o.baseAddr := by
      intro n o p q hn ho h hle
      have hend : val n.baseAddr + 2 ^ (width A - p) ≤ val o.baseAddr := by
        refine Nat.le_of_not_lt fun hlt => h ⟨o.baseAddr, ?_, base_member o⟩
        exact (cidr_inBlk hn _).mpr ⟨hle, hlt⟩
      have hp : 0 < 2 ^ (width A - p) := Nat.two_pow_pos _
      refine ⟨fun a b ha hb => ?_, by omega⟩
      have h1 := ((cidr_inBlk hn a).mp ha).2
      have h2 := ((cidr_inBlk ho b).mp hb).1
      omega
    rcases Nat.le_total (val n.baseAddr) (val o.baseAddr) with hle | hle
    · exact .inl (key hn ho h hle)
    · exact .inr (.inl (key ho hn (fun ⟨a, h1, h2⟩ => h ⟨a, h2, h1⟩) hle))

/-- CIDR networks: the earlier one lies before the other or strictly includes it. -/
theorem C123_cidr_order (n o : Net A) (p q : Nat) (hn : IsCidr p n) (ho : IsCidr q o) :
    n.cmp o = .lt ↔ Below n o ∨ (Includes n o ∧ n ≠ o) := by
  constructor
  · intro h
    have hk := (C123_order n o hn.1 ho.1).1.mp h
    have hne := keyLt_ne hk
    rcases cidr_trichotomy hn ho with h | h | h | h
    · exact .inl h.1
    · exfalso; rw [KeyLt] at hk; omega
    · exact .inr ⟨h, hne⟩
    · exact absurd (includes_keyLt ho.1 hn.1 h hne.symm).1 (keyLt_asymm hk)
  · rintro (h | ⟨h, hne⟩)
    · exact (C123_order n o hn.1 ho.1).1.mpr (.inl (h _ _ (base_member n) (base_member o)))
    · exact C123_before n o hn.1 ho.1 h hne

/-- CIDR networks have a common address exactly if one is inside the other, and this is what `intersects` answers. -/
theorem C123_intersects (n o : Net A) (p q : Nat) (hn : IsCidr p n) (ho : IsCidr q o) :
    n.intersects o = .ok (n.isSupersetOf o || n.isSubsetOf o) := by
  obtain ⟨r, h1, h2⟩ := C29_intersects_cidr n o p q hn ho
  rw [h1]
  congr 1
  have hs := C28_superset n o hn.1 ho.1
  simp only [contains_iff hn.1.hz, contains_iff ho.1.hz] at h2 hs
  apply Bool.eq_iff_iff.mpr
  rw [h2, Bool.or_eq_true, hs.1, hs.2]
  constructor
  · rintro ⟨a, ha, hb⟩
    rcases cidr_common hn ho ha hb with h | h
    · exact .inr h.2
    · exact .inl h.2
  · rintro (h | h)
    · exact ⟨_, h _ (base_member o), base_member o⟩
    · exact ⟨_, base_member n, h _ (base_member n)⟩

/-- What comes between a CIDR network and one inside it is inside it. -/
theorem C123_between (n o x : Net A) (p q r : Nat) (hn : IsCidr p n) (ho : IsCidr q o) (hx : IsCidr r x) (h1 : n.cmp o ≠ .gt)
    (h2 : o.cmp x ≠ .gt) (h : Includes n x) : Includes n o := by
  have hno : val n.baseAddr ≤ val o.baseAddr := by
    rcases cmp_cases hn.1 ho.1 with ⟨-, hk⟩ | ⟨-, hk⟩ | ⟨hk, -⟩
    · rw [KeyLt] at hk; omega
    · rw [hk]; exact Nat.le_refl _
    · exact absurd hk h1
  have hox : val o.baseAddr ≤ val x.baseAddr := by
    rcases cmp_cases ho.1 hx.1 with ⟨-, hk⟩ | ⟨-, hk⟩ | ⟨hk, -⟩
    · rw [KeyLt] at hk; omega
    · rw [hk]; exact Nat.le_refl _
    · exact absurd hk h2
  have hb := ((cidr_inBlk hn _).mp (h _ (base_member x))).2
  have hm : Member n o.baseAddr := (cidr_inBlk hn _).mpr ⟨hno, by omega⟩
  rcases cidr_common hn ho hm (base_member o) with h' | h'
  · by_cases he : n = o
    · exact he ▸ includes_refl n
    · exact absurd ((C123_order n o hn.1 ho.1).2.1.mpr (includes_keyLt ho.1 hn.1 h'.2 (Ne.symm he)).1) h1
  · exact h'.2

/-- In a sorted list of CIDR networks the networks inside one of them follow it without interruption. -/
theorem C123_block (l : List (Net A)) (hl : ∀ n ∈ l, ∃ p, IsCidr p n) (hs : l.Pairwise (fun n o => n.cmp o ≠ .gt)) (i j k : Nat) (hij : i ≤ j)
    (hjk : j ≤ k) (hk : k < l.length) (h : Includes l[i] l[k]) : Includes l[i] l[j] := by
  have ord : ∀ (a b : Nat) (hb : b < l.length) (hab : a ≤ b), l[a].cmp l[b] ≠ .gt := by
    intro a b hb hab
    rcases Nat.lt_or_eq_of_le hab with hlt | rfl
    · exact List.pairwise_iff_getElem.mp hs a b (by omega) hb hlt
    · obtain ⟨p, hp⟩ := hl l[a] (List.getElem_mem hb)
      rw [((C123_order l[a] l[a] hp.1 hp.1).2.2.1).mpr rfl]
      decide
  obtain ⟨p, hp⟩ := hl l[i] (List.getElem_mem _)
  obtain ⟨q, hq⟩ := hl l[j] (List.getElem_mem _)
  obtain ⟨r, hr⟩ := hl l[k] (List.getElem_mem _)
  exact C123_between _ _ _ p q r hp hq hr (ord i j (by omega) hij) (ord j k hk hjk) h

/-- The CIDR networks that include a CIDR network with prefix length `p`: exactly one for every length up to `p`, each inside those with
shorter lengths. -/
theorem C123_above (n : Net A) (p : Nat) (hn : IsCidr p n) :
    (∀ q, q ≤ p → ∃ m, IsCidr q m ∧ Includes m n ∧ ∀ m', IsCidr q m' → Includes m' n → m' = m) ∧
    (∀ q m, IsCidr q m → Includes m n → q ≤ p) ∧
    (∀ q r m m', IsCidr q m → IsCidr r m' → Includes m n → Includes m' n → q ≤ r → Includes m m') := by
  refine ⟨fun q hq => ?_, fun q m hm h => cidr_prefix_le hn hm h, fun q r m m' hm hm' h h' hqr => ?_⟩
  · obtain ⟨m, -, hm, hb, -⟩ := cidr_of_addr n.baseAddr (p := q) (Nat.le_trans hq (cidr_le hn))
    have hmem := (cidr_inBlk hm _).mpr hb
    refine ⟨m, hm, cidr_subset hn hm hq (base_member n) hmem, fun m' hm' h' => ?_⟩
    have h1 := cidr_subset hm hm' (Nat.le_refl q) hmem (h' _ (base_member n))
    have h2 := cidr_subset hm' hm (Nat.le_refl q) (h' _ (base_member n)) hmem
    exact includes_antisymm hm'.1 hm.1 h1 h2
  · exact cidr_subset hm' hm hqr (h' _ (base_member n)) (h _ (base_member n))

/-- Two networks, one of them CIDR, have a smallest CIDR network that includes both, and it is inside every other one. -/
theorem C123_common (n o : Net A) (p : Nat) (hn : IsCidr p n) :
    ∃ c s, IsCidr s c ∧ Includes c n ∧ Includes c o ∧ ∀ m r, IsCidr r m → Includes m n → Includes m o → Includes m c ∧ r ≤ s := by
  have top : ∀ k, k ≤ p → (∃ s c, s ≤ k ∧ IsCidr s c ∧ Includes c n ∧ Includes c o ∧
      ∀ m r, r ≤ k → IsCidr r m → Includes m n → Includes m o → r ≤ s) := by
    intro k
    induction k with
    | zero =>
      intro _
      obtain ⟨c, hc, hcn, -⟩ := (C123_above n p hn).1 0 (Nat.zero_le _)
      refine ⟨0, c, Nat.le_refl _, hc, hcn, fun a ha => ?_, fun _ _ h _ _ _ => h⟩
      have hz := cidr_dvd hc
      have he := cidr_end hc
      rw [Nat.sub_zero] at hz he
      rw [cidr_inBlk hc, Nat.sub_zero]
      have := val_lt a
      exact ⟨by omega, by omega⟩
    | succ k ih =>
      intro hk
      obtain ⟨s, c, hs, hc, hcn, hco, hmax⟩ := ih (by omega)
      obtain ⟨d, hd, hdn, hdu⟩ := (C123_above n p hn).1 (k + 1) hk
      by_cases hdo : Includes d o
      · exact ⟨k + 1, d, Nat.le_refl _, hd, hdn, hdo, fun _ _ h _ _ _ => h⟩
      · refine ⟨s, c, by omega, hc, hcn, hco, fun m r hr hm hmn hmo => ?_⟩
        rcases Nat.lt_or_eq_of_le hr with h | rfl
        · exact hmax m r (by omega) hm hmn hmo
        · exact absurd (hdu m hm hmn ▸ hmo) hdo
  obtain ⟨s, c, -, hc, hcn, hco, hmax⟩ := top p (Nat.le_refl p)
  refine ⟨c, s, hc, hcn, hco, fun m r hm hmn hmo => ?_⟩
  have hr := hmax m r (cidr_prefix_le hn hm hmn) hm hmn hmo
  exact ⟨(C123_above n p hn).2.2 r s m c hm hc hmn hcn hr, hr⟩

/-- Resizing two CIDR networks to a shorter prefix gives the same exactly for the lengths up to that of the smallest network that
includes both. -/
theorem C123_resize (pr : Profile) (n o c : Net A) (p q s : Nat) (hn : IsCidr p n) (ho : IsCidr q o) (hc : IsCidr s c) (hcn : Includes c n)
    (hco : Includes c o) (hmin : ∀ m r, IsCidr r m → Includes m n → Includes m o → Includes m c) (k : Nat) (m : A)
    (hm : IsPrefixMask (width A) k (val m)) (hkp : k < p) (hkq : k < q) :
    resizeNetwork pr n m = resizeNetwork pr o m ↔ k ≤ s := by
  obtain ⟨x, hx, hxc, hxn, hxu⟩ := C49_supernet pr n m p k hn hm hkp
  obtain ⟨y, hy, hyc, hyo, hyu⟩ := C49_supernet pr o m q k ho hm hkq
  rw [hx, hy]
  constructor
  · intro h
    have : x = y := by
      have := Exec.ok.inj h
      simpa using this
    subst this
    exact cidr_prefix_le hc hxc (hmin x k hxc hxn hyo)
  · intro h
    obtain ⟨z, hz, hzc, -⟩ := (C123_above c s hc).1 k h
    have h1 := hxu z hz (includes_trans hzc hcn)
    have h2 := hyu z hz (includes_trans hzc hco)
    rw [← h1, ← h2]

/-- What minimizing yields is sorted in the derived order. -/
theorem C123_minimize (rt : Runtime) (l out : List (Net A)) (hw : ∀ n ∈ l, WF n) (h : minimizeSubnets rt l = .ok out) :
    out.Pairwise (fun n o => n.cmp o = .lt) := by
  obtain ⟨h1, -, h2, -⟩ := C44_sorted rt l out hw h
  exact h1.imp_of_mem fun ha hb hk => (C123_order _ _ (h2 _ ha) (h2 _ hb)).1.mpr hk

end generic

theorem C123_order_families : (type_of% (@C123_order V4 _ _ _)) ∧ (type_of% (@C123_order V6 _ _ _)) := ⟨@C123_order V4 _ _ _, @C123_order V6 _ _ _⟩

theorem C123_before_families : (type_of% (@C123_before V4 _ _ _)) ∧ (type_of% (@C123_before V6 _ _ _)) :=
  ⟨@C123_before V4 _ _ _, @C123_before V6 _ _ _⟩

theorem C123_cidr_order_families : (type_of% (@C123_cidr_order V4 _ _ _)) ∧ (type_of% (@C123_cidr_order V6 _ _ _)) :=
  ⟨@C123_cidr_order V4 _ _ _, @C123_cidr_order V6 _ _ _⟩

theorem C123_intersects_families : (type_of% (@C123_intersects V4 _ _ _)) ∧ (type_of% (@C123_intersects V6 _ _ _)) :=
  ⟨@C123_intersects V4 _ _ _, @C123_intersects V6 _ _ _⟩

theorem C123_between_families : (type_of% (@C123_between V4 _ _ _)) ∧ (type_of% (@C123_between V6 _ _ _)) :=
  ⟨@C123_between V4 _ _ _, @C123_between V6 _ _ _⟩

theorem C123_block_families : (type_of% (@C123_block V4 _ _ _)) ∧ (type_of% (@C123_block V6 _ _ _)) :=
  ⟨@C123_block V4 _ _ _, @C123_block V6 _ _ _⟩

theorem C123_above_families : (type_of% (@C123_above V4 _ _ _)) ∧ (type_of% (@C123_above V6 _ _ _)) :=
  ⟨@C123_above V4 _ _ _, @C123_above V6 _ _ _⟩

theorem C123_common_families : (type_of% (@C123_common V4 _ _ _)) ∧ (type_of% (@C123_common V6 _ _ _)) :=
  ⟨@C123_common V4 _ _ _, @C123_common V6 _ _ _⟩

theorem C123_resize_families : (type_of% (@C123_resize V4 _ _ _)) ∧ (type_of% (@C123_resize V6 _ _ _)) :=
  ⟨@C123_resize V4 _ _ _, @C123_resize V6 _ _ _⟩

theorem C123_minimize_families : (type_of% (@C123_minimize V4 _ _ _)) ∧ (type_of% (@C123_minimize V6 _ _ _)) :=
  ⟨@C123_minimize V4 _ _ _, @C123_minimize V6 _ _ _⟩

/-! ## Non-vacuity -/

/-- 10.0.0.0/8 comes before 10.0.0.0/16, this before 10.1.0.0/16, and that before 11.0.0.0/8. -/
example :
    let n : List (Net V4) := [.newWithMask ⟨0x0a000000#32⟩ ⟨0xff000000#32⟩, .newWithMask ⟨0x0a000000#32⟩ ⟨0xffff0000#32⟩,
      .newWithMask ⟨0x0a010000#32⟩ ⟨0xffff0000#32⟩, .newWithMask ⟨0x0b000000#32⟩ ⟨0xff000000#32⟩]
    n.Pairwise (fun n o => n.cmp o = .lt) ∧ n.map Net.cidrPrefix = [some 8, some 16, some 16, some 8] := by decide +kernel

/-- For other masks what lies between need not be inside: 10.0.0.0/255.255.0.255 includes 10.0.9.0/32, and 10.0.8.1/32 comes between. -/
example :
    let n : Net V4 := .newWithMask ⟨0x0a000000#32⟩ ⟨0xffff00ff#32⟩
    let o : Net V4 := .newWithMask ⟨0x0a000801#32⟩ ⟨0xffffffff#32⟩
    let x : Net V4 := .newWithMask ⟨0x0a000900#32⟩ ⟨0xffffffff#32⟩
    n.cmp o = .lt ∧ o.cmp x = .lt ∧ n.isSupersetOf x = true ∧ n.isSupersetOf o = false := by decide +kernel

end Ripcalc
