import Verif.Proofs.Net
/-!
# Properties of networks: C20–C29
-/
set_option linter.unusedSectionVars false
namespace Ripcalc
open AddrSpec LawfulIpAddr

section generic
variable {A : Type} [IpAddr A] [AddrSpec A] [LawfulIpAddr A]

/-! ## C20: building a network keeps the address in it -/

theorem C20_new_with_mask (a m : A) :
    WF (Net.newWithMask a m) ∧ (Net.newWithMask a m).subnetMask = m ∧ Member (Net.newWithMask a m) a ∧
    Member (Net.newWithMask a m) (Net.newWithMask a m).baseAddr ∧
    (∀ b, Member (Net.newWithMask a m) b → val (Net.newWithMask a m).baseAddr ≤ val b) := by
  have hwf := newWithMask_wf a m
  refine ⟨hwf, rfl, ?_, base_member _, fun b hb => member_ge_base hwf.hz hb⟩
  rw [← and_mask_eq_iff _ hwf.hz]; rfl

/-- The prefix constructor never panics; a prefix above the width acts as the width (only the recorded prefix keeps
the given number). -/
theorem C20_new_with_prefix (a : A) (p : Nat) :
    ∃ n, Net.newWithPrefix a p = .ok n ∧ n.cidrPrefix = some p ∧
      IsPrefixMask (width A) (min p (width A)) (val n.subnetMask) ∧ HostZero n ∧ Member n a ∧ Member n n.baseAddr ∧
      (∀ b, Member n b → val n.baseAddr ≤ val b) := by
  obtain ⟨m, h1, h2⟩ := newWithPrefix_spec a p
  have hz : HostZero (⟨IpAddr.and a m, m, some p⟩ : Net A) := fun i hi hm => by
    show (val (IpAddr.and a m)).testBit i = false
    have hm : (val m).testBit i = false := hm
    rw [val_and, Nat.testBit_and, hm, Bool.and_false]
  refine ⟨_, h2, rfl, h1, hz, ?_, base_member _, fun b hb => member_ge_base hz hb⟩
  rw [← and_mask_eq_iff _ hz]

example : Net.newWithMask (⟨0xC0000265#32⟩ : V4) ⟨0xFFFFFF00#32⟩ = ⟨⟨0xC0000200#32⟩, ⟨0xFFFFFF00#32⟩, some 24⟩ ∧
    Net.newWithPrefix (⟨0xC0000265#32⟩ : V4) 24 = .ok ⟨⟨0xC0000200#32⟩, ⟨0xFFFFFF00#32⟩, some 24⟩ := by decide +kernel

/-! ## C21: strict constructors accept exactly base addresses -/

theorem and_eq_self_iff (a m : A) :
    IpAddr.and a m = a ↔ ∀ i, i < width A → (val m).testBit i = false → (val a).testBit i = false := by
  constructor
  · intro h i _ hm
    rw [← h, val_and, Nat.testBit_and, hm, Bool.and_false]
  · intro h
    apply addr_ext
    intro i hi
    rw [val_and, Nat.testBit_and]
    cases hm : (val m).testBit i with
    | true => rw [Bool.and_true]
    | false => rw [Bool.and_false, h i hi hm]

theorem C21_mask_strict (a m : A) :
    (∀ n, Net.newWithMaskStrict a m = some n ↔
      (n = Net.newWithMask a m ∧ ∀ i, i < width A → (val m).testBit i = false → (val a).testBit i = false)) := by
  intro n
  rw [← and_eq_self_iff]
  simp only [Net.newWithMaskStrict, Net.newWithMask]
  by_cases h : IpAddr.and a m = a
  · simp [h, eq_comm]
  · simp [h]

theorem C21_prefix_strict (a : A) (p : Nat) :
    ∃ n r, Net.newWithPrefix a p = .ok n ∧ Net.newWithPrefixStrict a p = .ok r ∧
      (∀ n', r = some n' ↔ (n' = n ∧ ∀ i, i < width A - min p (width A) → (val a).testBit i = false)) := by
  obtain ⟨m, h1, h2⟩ := newWithPrefix_spec a p
  refine ⟨_, if IpAddr.and a m = a then some ⟨IpAddr.and a m, m, some p⟩ else none, h2, ?_, ?_⟩
  · simp [Net.newWithPrefixStrict, h2]
  · intro n'
    have key : IpAddr.and a m = a ↔ ∀ i, i < width A - min p (width A) → (val a).testBit i = false := by
      rw [and_eq_self_iff]
      constructor
      · intro h i hi
        apply h i (by omega)
        rw [Bool.eq_false_iff, ne_eq, h1.2 i (by omega)]; omega
      · intro h i hi hm
        apply h i
        rw [Bool.eq_false_iff, ne_eq, h1.2 i hi] at hm; omega
    rw [← key]
    split
    · rename_i h; simp [h, eq_comm]
    · rename_i h; simp [h]

example : Net.newWithMaskStrict (⟨0xC0000200#32⟩ : V4) ⟨0xFFFFFF00#32⟩ ≠ none ∧
    Net.newWithMaskStrict (⟨0xC0000201#32⟩ : V4) ⟨0xFFFFFF00#32⟩ = none := by decide +kernel

/-! ## C22: prefix and mask constructors agree -/

theorem C22_constructors_agree (a m : A) (p : Nat) :
    (IsPrefixMask (width A) p (val m) → Net.newWithPrefix a p = .ok (Net.newWithMask a m)) ∧
    ((Net.newWithMask a m).cidrPrefix = some p ↔ IsPrefixMask (width A) p (val m)) ∧
    (p ≤ width A → ∃ m' : A, IsPrefixMask (width A) p (val m')) := by
  refine ⟨newWithPrefix_eq_mask a m, prefix_mask_iff' m p, fun hp => ?_⟩
  obtain ⟨m', _, h⟩ := maskOfPrefix A p
  rw [show min p (width A) = p by omega] at h
  exact ⟨m', h⟩

example : IsPrefixMask 32 24 0xFFFFFF00 := by
  have : ∀ i : Fin 32, (0xFFFFFF00 : Nat).testBit i.val = true ↔ 32 - 24 ≤ i.val := by decide
  exact ⟨by decide, fun i hi => this ⟨i, hi⟩⟩

/-! ## C23: contains is bitwise membership -/

theorem C23_contains (n : Net A) (hn : WF n) (a : A) :
    n.contains a = true ↔
      ∀ i, i < width A → (val n.subnetMask).testBit i = true → (val a).testBit i = (val n.baseAddr).testBit i :=
  contains_iff hn.hz a

theorem C23_same_mask (n o : Net A) (hn : WF n) (ho : WF o) (hm : n.subnetMask = o.subnetMask) :
    n = o ∨ ∀ a, ¬ (n.contains a = true ∧ o.contains a = true) := by
  by_cases h : n.baseAddr = o.baseAddr
  · left
    have hp : n.cidrPrefix = o.cidrPrefix := by
      apply Option.ext
      intro p
      rw [hn.prefix_iff, ho.prefix_iff, hm]
    cases n; cases o; simp_all
  · right
    rintro a ⟨h1, h2⟩
    simp only [Net.contains, decide_eq_true_eq] at h1 h2
    apply h
    rw [← h1, ← h2, hm]

example : WF (Net.newWithMask (⟨0xC0000265#32⟩ : V4) ⟨0xFF00FF00#32⟩) ∧
    (Net.newWithMask (⟨0xC0000265#32⟩ : V4) ⟨0xFF00FF00#32⟩).contains ⟨0xC0AA0277#32⟩ = true :=
  ⟨newWithMask_wf _ _, by decide⟩

/-! ## C24: address_count is the number of contained addresses -/

/-- The members in ascending order. -/
theorem C24_address_count (n : Net A) (hn : WF n) :
    (∃ l : List A, l.Nodup ∧ (∀ a, a ∈ l ↔ n.contains a = true) ∧ l.length = n.addressCount) ∧
    n.hostCount = (n.addressCount : Int) - 2 := by
  refine ⟨⟨(List.range (2 ^ hostBits n)).map (fun h => addrOf A (wval n (netNum n) h)), ?_, ?_, ?_⟩, rfl⟩
  · refine List.pairwise_map.mpr (List.pairwise_lt_range.imp_of_mem fun {h h'} h1 h2 hlt e => ?_)
    have h3 := (wval_lt_host n (netNum n) (by simpa using h1) (by simpa using h2)).mpr hlt
    rw [← val_addrOf (wval_lt n (netNum n) h), e, val_addrOf (wval_lt n (netNum n) h')] at h3
    omega
  · intro a
    rw [contains_iff hn.hz, member_iff_wval, List.mem_map]
    constructor
    · rintro ⟨h, h1, rfl⟩
      exact ⟨h, by simpa using h1, val_addrOf (wval_lt n _ _)⟩
    · rintro ⟨h, h1, h2⟩
      exact ⟨h, by simpa using h1, by rw [← h2, addrOf_val]⟩
  · rw [addressCount_eq]; simp

example : (Net.newWithMask (⟨0xC0000265#32⟩ : V4) ⟨0xFF00FF00#32⟩).addressCount = 65536 := by decide +kernel

/-! ## C25: broadcast and last address are the greatest member -/

theorem C25_broadcast (n : Net A) (hn : WF n) :
    (∃ r, n.broadcastAddr = .ok r ∧
      (∀ b, r = some b → n.contains b = true ∧ ∀ a, n.contains a = true → val a ≤ val b) ∧
      (r = none ↔ ∀ a, n.contains a = true → a = n.baseAddr)) ∧
    (∃ l, n.lastAddrOfSubnet = .ok l ∧ n.contains l = true ∧ ∀ a, n.contains a = true → val a ≤ val l) := by
  have hpos := Nat.two_pow_pos (hostBits n)
  have hb := broadcastAddr_spec hn.hz
  have hlast : ∀ b : A, val b = wval n (netNum n) (2 ^ hostBits n - 1) →
      n.contains b = true ∧ ∀ a, n.contains a = true → val a ≤ val b := by
    intro b h
    refine ⟨?_, fun a ha => ?_⟩
    · rw [contains_iff hn.hz, member_iff_wval]
      exact ⟨_, by omega, h⟩
    · rw [h]
      exact member_le_last ((contains_iff hn.hz a).mp ha)
  constructor
  · rcases Nat.eq_zero_or_pos (hostBits n) with h | h
    · refine ⟨none, hb.1 h, by simp, fun _ a ha => ?_, fun _ => rfl⟩
      obtain ⟨x, h1, h2⟩ := (member_iff_wval n a).mp ((contains_iff hn.hz a).mp ha)
      have hx : x = 0 := by rw [h] at h1; simpa using h1
      exact val_inj _ _ (by rw [h2, hx, base_eq_wval hn.hz])
    · obtain ⟨b, h1, h2⟩ := hb.2 h
      refine ⟨some b, h1, ?_, ?_⟩
      · rintro _ ⟨⟩; exact hlast b h2
      · simp only [reduceCtorEq, false_iff]
        intro hall
        have e := hall b (hlast b h2).1
        have h3 := base_eq_wval hn.hz
        rw [← e, h2] at h3
        have h4 : 1 < 2 ^ hostBits n := Nat.one_lt_two_pow (by omega)
        have := wval_lt_host n (netNum n) hpos (show 2 ^ hostBits n - 1 < 2 ^ hostBits n by omega)
        omega
  · obtain ⟨l, h1, h2⟩ := lastAddr_spec hn.hz
    exact ⟨l, h1, hlast l h2⟩

example : (Net.newWithMask (⟨0xC0000265#32⟩ : V4) ⟨0xFF00FF00#32⟩).broadcastAddr = .ok (some ⟨0xC0FF02FF#32⟩) := by
  decide +kernel

/-- `host_count` (C24) is the number of addresses that are neither the base address nor the broadcast address; it is -1 for a network
with a single address. -/
theorem C24_host_count (n : Net A) (hn : WF n) (last : A) (hl : n.lastAddrOfSubnet = .ok last) :
    (last ≠ n.baseAddr → ∃ l : List A, l.Nodup ∧ (∀ a, a ∈ l ↔ n.contains a = true ∧ a ≠ n.baseAddr ∧ a ≠ last) ∧
      (l.length : Int) = n.hostCount) ∧
    (last = n.baseAddr → n.hostCount = -1) := by
  obtain ⟨⟨l, h1, h2, h3⟩, h4⟩ := C24_address_count n hn
  obtain ⟨-, last', k1, k2, k3⟩ := C25_broadcast n hn
  have : last' = last := by rw [hl] at k1; exact (Exec.ok.inj k1).symm
  subst this
  have hb : n.contains n.baseAddr = true := (contains_iff hn.hz _).mpr (base_member n)
  have hbl := (h2 _).mpr hb
  have hll := (h2 _).mpr k2
  constructor
  · intro hne
    have hle : last' ∈ l.erase n.baseAddr := h1.mem_erase_iff.mpr ⟨hne, hll⟩
    refine ⟨(l.erase n.baseAddr).erase last', (h1.erase _).erase _, fun a => ?_, ?_⟩
    · rw [(h1.erase _).mem_erase_iff, h1.mem_erase_iff, h2]
      exact ⟨fun h => ⟨h.2.2, h.2.1, h.1⟩, fun h => ⟨h.2.2, h.2.1, h.1⟩⟩
    · have e1 := List.length_erase_of_mem hbl
      have e2 := List.length_erase_of_mem hle
      have e3 := List.length_pos_of_mem hle
      omega
  · intro he
    have hall : ∀ a ∈ l, a = n.baseAddr := by
      intro a ha
      have h5 := k3 a ((h2 a).mp ha)
      have h6 := member_ge_base hn.hz ((contains_iff hn.hz a).mp ((h2 a).mp ha))
      rw [he] at h5
      exact val_inj _ _ (Nat.le_antisymm h5 h6)
    have : l.length = 1 := by
      cases l with
      | nil => cases hbl
      | cons x xs =>
        cases xs with
        | nil => rfl
        | cons y ys =>
          have e1 := hall x (by simp)
          have e2 := hall y (by simp)
          rw [List.nodup_cons] at h1
          exact absurd (by rw [e1, e2]; simp) h1.1
    omega

example : (Net.newWithMask (⟨0xC0000264#32⟩ : V4) ⟨0xFFFFFFFC#32⟩).hostCount = 2 ∧ (Net.newWithMask (⟨0xC0000264#32⟩ : V4) ⟨0xFFFFFFFF#32⟩).hostCount = -1 ∧
    (Net.newWithMask (⟨0xC0000264#32⟩ : V4) ⟨0xFFFFFFFC#32⟩).lastAddrOfSubnet = .ok ⟨0xC0000267#32⟩ ∧
    (Net.newWithMask (⟨0xC0000264#32⟩ : V4) ⟨0xFFFFFFFF#32⟩).lastAddrOfSubnet = .ok ⟨0xC0000264#32⟩ ∧
    (Net.newWithMask (⟨0x0A000000#32⟩ : V4) ⟨0xFF00FF00#32⟩).hostCount = 65534 := by decide +kernel

/-! ## C26: host range excludes exactly network and broadcast address -/

/-- `x` is the least element of `P`. -/
def Least (P : A → Prop) (x : A) : Prop := P x ∧ ∀ a, P a → val x ≤ val a
/-- `x` is the greatest element of `P`. -/
def Greatest (P : A → Prop) (x : A) : Prop := P x ∧ ∀ a, P a → val a ≤ val x

theorem C26_first_host (pr : Profile) (n : Net A) (hn : WF n) :
    ∃ r, n.firstHostAddr pr = .ok r ∧ (r.isSome = true ↔ 4 ≤ n.addressCount) ∧
      (∀ f, r = some f → Least (fun a => n.contains a = true ∧ a ≠ n.baseAddr) f) := by
  have hs := firstHostAddr_spec pr hn.hz
  rw [addressCount_eq]
  rcases Nat.lt_or_ge (hostBits n) 2 with h | h
  · refine ⟨none, hs.1 h, ?_, by simp⟩
    have : 2 ^ hostBits n ≤ 2 ^ 1 := Nat.pow_le_pow_right (by omega) (by omega)
    simp; omega
  · obtain ⟨b, h1, h2⟩ := hs.2 h
    have h4 : 2 ^ 2 ≤ 2 ^ hostBits n := Nat.pow_le_pow_right (by omega) h
    refine ⟨some b, h1, by simp; omega, ?_⟩
    rintro _ ⟨⟩
    refine ⟨⟨?_, ?_⟩, ?_⟩
    · rw [contains_iff hn.hz, member_iff_wval]; exact ⟨1, by omega, h2⟩
    · intro e
      have h3 := base_eq_wval hn.hz
      rw [← e, h2] at h3
      have := wval_lt_host n (netNum n) (show 0 < 2 ^ hostBits n by omega) (show 1 < 2 ^ hostBits n by omega)
      omega
    · rintro a ⟨ha, hne⟩
      obtain ⟨x, hx1, hx2⟩ := (member_iff_wval n a).mp ((contains_iff hn.hz a).mp ha)
      rw [hx2, h2, wval_le_host n _ (by omega) hx1]
      rcases Nat.eq_zero_or_pos x with h0 | h0
      · exact absurd (val_inj _ _ (by rw [hx2, h0, base_eq_wval hn.hz])) hne
      · omega

theorem C26_last_host (pr : Profile) (n : Net A) (hn : WF n) :
    ∃ r l, n.lastHostAddr pr = .ok r ∧ n.lastAddrOfSubnet = .ok l ∧ (r.isSome = true ↔ 4 ≤ n.addressCount) ∧
      (∀ f, r = some f → Greatest (fun a => n.contains a = true ∧ a ≠ l) f) := by
  have hs := lastHostAddr_spec pr hn.hz
  obtain ⟨l, hl1, hl2⟩ := lastAddr_spec hn.hz
  rw [addressCount_eq]
  rcases Nat.lt_or_ge (hostBits n) 2 with h | h
  · refine ⟨none, l, hs.1 h, hl1, ?_, by simp⟩
    have : 2 ^ hostBits n ≤ 2 ^ 1 := Nat.pow_le_pow_right (by omega) (by omega)
    simp; omega
  · obtain ⟨b, h1, h2⟩ := hs.2 h
    have h4 : 2 ^ 2 ≤ 2 ^ hostBits n := Nat.pow_le_pow_right (by omega) h
    refine ⟨some b, l, h1, hl1, by simp; omega, ?_⟩
    rintro _ ⟨⟩
    refine ⟨⟨?_, ?_⟩, ?_⟩
    · rw [contains_iff hn.hz, member_iff_wval]; exact ⟨_, by omega, h2⟩
    · intro e
      rw [← e, h2] at hl2
      have := wval_lt_host n (netNum n) (show 2 ^ hostBits n - 2 < 2 ^ hostBits n by omega)
        (show 2 ^ hostBits n - 1 < 2 ^ hostBits n by omega)
      omega
    · rintro a ⟨ha, hne⟩
      obtain ⟨x, hx1, hx2⟩ := (member_iff_wval n a).mp ((contains_iff hn.hz a).mp ha)
      rw [hx2, h2, wval_le_host n _ hx1 (by omega)]
      rcases Nat.lt_or_ge x (2 ^ hostBits n - 1) with h0 | h0
      · omega
      · exact absurd (val_inj _ _ (by rw [hx2, hl2, show x = 2 ^ hostBits n - 1 by omega])) hne

/-- Both are present or both are absent. -/
theorem C26_host_pair (pr : Profile) (n : Net A) (hn : WF n) :
    ∃ r r', n.firstHostAddr pr = .ok r ∧ n.lastHostAddr pr = .ok r' ∧ r.isSome = r'.isSome := by
  obtain ⟨r, h1, h2, _⟩ := C26_first_host pr n hn
  obtain ⟨r', l, h3, _, h4, _⟩ := C26_last_host pr n hn
  exact ⟨r, r', h1, h3, by rw [Bool.eq_iff_iff, h2, h4]⟩

example : (Net.newWithMask (⟨0xC0000265#32⟩ : V4) ⟨0xFF00FF00#32⟩).firstHostAddr .checked = .ok (some ⟨0xC0000201#32⟩) ∧
    (Net.newWithMask (⟨0xC0000265#32⟩ : V4) ⟨0xFF00FF00#32⟩).lastHostAddr .checked = .ok (some ⟨0xC0FF02FE#32⟩) ∧
    (Net.newWithMask (⟨0xC0000265#32⟩ : V4) ⟨0xFFFFFFFE#32⟩).firstHostAddr .checked = .ok none := by
  decide +kernel

/-! ## C27: next_subnet_base_addr is the next base of the same mask -/

/-- `b` is the base of some network with the mask of `n`: it has no host bits. -/
def IsBaseFor (n : Net A) (b : A) : Prop :=
  ∀ i, i < width A → (val n.subnetMask).testBit i = false → (val b).testBit i = false

theorem isBaseFor_iff (n : Net A) (b : A) :
    IsBaseFor n b ↔ ∃ x, x < 2 ^ netBits n ∧ val b = wval n x 0 := by
  constructor
  · intro h
    have hz : HostZero ({ n with baseAddr := b } : Net A) := h
    refine ⟨netNum ({ n with baseAddr := b } : Net A), netNum_lt ({ n with baseAddr := b } : Net A), ?_⟩
    exact base_eq_wval hz
  · rintro ⟨x, hx, e⟩ i hi hm
    have hp := (parts_of_wval n (x := x) (h := 0)).2
    rw [← e, addrOf_val, natBits_zero] at hp
    -- compare with the zero address on the host positions
    have h2 : select (mnot (mbits n)) (abits b) = select (mnot (mbits n)) (natBits (width A) 0) := by
      have key : ∀ m : List Bool, select m (List.replicate m.length false) = List.replicate (ones m) false := by
        intro m
        induction m with
        | nil => rfl
        | cons b m ih => cases b <;> simp [select, ones, List.replicate_succ, ih]
      have := key (mnot (mbits n))
      rw [mnot_length, mbits_length] at this
      rw [natBits_zero, this]; exact hp
    rw [select_eq_iff (by simp) (by simp)] at h2
    have h3 := h2 (width A - 1 - i) (by simp; omega)
    simp only [mbits, abits, mnot_get] at h3
    rw [natBits_get _ _ _ (by omega), natBits_get _ _ _ (by omega), natBits_get _ _ _ (by omega),
      show width A - 1 - (width A - 1 - i) = i by omega, hm] at h3
    simpa using h3 rfl

theorem C27_next_subnet (pr : Profile) (n : Net A) (hn : WF n) :
    ∃ r, n.nextSubnetBaseAddr pr = .ok r ∧
      (∀ b, r = some b → Least (fun a => IsBaseFor n a ∧ val n.baseAddr < val a) b) ∧
      (r = none ↔ ¬ ∃ a, IsBaseFor n a ∧ val n.baseAddr < val a) := by
  have hs := nextSubnet_spec pr hn.hz
  have hlt := netNum_lt n
  have hbase := base_eq_wval hn.hz
  rcases Nat.lt_or_ge (netNum n + 1) (2 ^ netBits n) with h | h
  · obtain ⟨b, h1, h2⟩ := hs.2 h
    have hb : IsBaseFor n b ∧ val n.baseAddr < val b := by
      refine ⟨(isBaseFor_iff n b).mpr ⟨_, h, h2⟩, ?_⟩
      rw [hbase, h2, wval_lt_net n 0 hlt h]; omega
    refine ⟨some b, h1, ?_, ?_⟩
    · rintro _ ⟨⟩
      refine ⟨hb, ?_⟩
      rintro a ⟨ha, hgt⟩
      obtain ⟨x, hx, e⟩ := (isBaseFor_iff n a).mp ha
      rw [hbase, e, wval_lt_net n 0 hlt hx] at hgt
      rw [h2, e, wval_le_net n 0 h hx]
      omega
    · simp only [reduceCtorEq, false_iff, Classical.not_not]
      exact ⟨b, hb⟩
  · refine ⟨none, hs.1 (by omega), by simp, fun _ => ?_, fun _ => rfl⟩
    rintro ⟨a, ha, hgt⟩
    obtain ⟨x, hx, e⟩ := (isBaseFor_iff n a).mp ha
    rw [hbase, e, wval_lt_net n 0 hlt hx] at hgt
    omega

example : (Net.newWithMask (⟨0xC000FF65#32⟩ : V4) ⟨0xFF00FF00#32⟩).nextSubnetBaseAddr .checked = .ok (some ⟨0xC1000000#32⟩) ∧
    (Net.newWithMask (⟨0xFF00FF65#32⟩ : V4) ⟨0xFF00FF00#32⟩).nextSubnetBaseAddr .checked = .ok none := by
  decide +kernel

/-! ## C28: is_superset_of and is_subset_of are set inclusion -/

theorem C28_superset (n o : Net A) (hn : WF n) (ho : WF o) :
    (n.isSupersetOf o = true ↔ ∀ a, o.contains a = true → n.contains a = true) ∧
    (n.isSubsetOf o = true ↔ ∀ a, n.contains a = true → o.contains a = true) := by
  have key : ∀ n o : Net A, WF n → WF o →
      (n.isSupersetOf o = true ↔ ∀ a, o.contains a = true → n.contains a = true) := by
    intro n o hn ho
    simp only [contains_iff hn.hz, contains_iff ho.hz, Net.isSupersetOf, Bool.and_eq_true, decide_eq_true_eq]
    rw [and_mask_eq_iff n hn.hz]
    constructor
    · rintro ⟨h1, h2⟩ a ha i hi hm
      rw [← h1 i hi hm]
      apply ha i hi
      rw [← h2, val_and, Nat.testBit_and, Bool.and_eq_true] at hm
      exact hm.1
    · intro h
      refine ⟨h _ (base_member o), ?_⟩
      apply addr_ext
      intro i hi
      rw [val_and, Nat.testBit_and]
      cases hm : (val n.subnetMask).testBit i with
      | false => rw [Bool.and_false]
      | true =>
        rw [Bool.and_true]
        cases ho' : (val o.subnetMask).testBit i with
        | true => rfl
        | false =>
          -- flipping bit `i` stays in `o` but leaves `n`
          exfalso
          have hlt : val o.baseAddr ^^^ 2 ^ i < 2 ^ width A :=
            Nat.xor_lt_two_pow (val_lt _) (Nat.pow_lt_pow_right (by omega) hi)
          have hmem : Member o (addrOf A (val o.baseAddr ^^^ 2 ^ i)) := by
            intro j hj hmj
            rw [val_addrOf hlt, Nat.testBit_xor, Nat.testBit_two_pow]
            have : i ≠ j := by rintro rfl; rw [ho'] at hmj; cases hmj
            simp [this]
          have h1 := h _ hmem i hi hm
          have h2 := h _ (base_member o) i hi hm
          rw [val_addrOf hlt, Nat.testBit_xor, Nat.testBit_two_pow, ← h2] at h1
          simp at h1
  exact ⟨key n o hn ho, key o n ho hn⟩

theorem C28_antisymm (n o : Net A) (hn : WF n) (ho : WF o) :
    (n.isSupersetOf o = true ∧ n.isSubsetOf o = true) ↔ n = o := by
  constructor
  · rintro ⟨h1, h2⟩
    simp only [Net.isSubsetOf, Net.isSupersetOf, Bool.and_eq_true, decide_eq_true_eq] at h1 h2
    have hm : n.subnetMask = o.subnetMask := by
      rw [← h1.2, ← h2.2]
      apply addr_ext; intro i _
      simp only [val_and, Nat.testBit_and]
      cases (val n.subnetMask).testBit i <;> cases (val o.subnetMask).testBit i <;> rfl
    have hb : n.baseAddr = o.baseAddr := by
      rw [← h1.1, hm]
      exact (and_mask_eq_iff o ho.hz o.baseAddr).mpr (base_member o)
    have hp : n.cidrPrefix = o.cidrPrefix := by
      apply Option.ext
      intro p
      rw [hn.prefix_iff, ho.prefix_iff, hm]
    cases n; cases o; simp_all
  · rintro rfl
    have hs := C28_superset n n hn hn
    exact ⟨hs.1.mpr fun _ h => h, hs.2.mpr fun _ h => h⟩

example : (Net.newWithMask (⟨0xC0000265#32⟩ : V4) ⟨0xFF00FF00#32⟩).isSupersetOf
    (Net.newWithMask (⟨0xC0AA0265#32⟩ : V4) ⟨0xFFFFFF00#32⟩) = true := by decide +kernel

/-! ## C29: intersects detects a common address

False for lopsided masks: `intersects` compares the ranges from first to last address (`src/net.rs:235-243`). -/

/-- The full claim is false. -/
theorem C29_counterexample :
    ¬ ∀ n o : Net V4, WF n → WF o → (n.intersects o = .ok true ↔ ∃ a, n.contains a = true ∧ o.contains a = true) := by
  intro h
  have h1 := h (Net.newWithMask ⟨0#32⟩ ⟨0xFFFFFFFD#32⟩) (Net.newWithMask ⟨1#32⟩ ⟨0xFFFFFFFF#32⟩)
    (newWithMask_wf _ _) (newWithMask_wf _ _)
  obtain ⟨a, ha, hb⟩ := h1.mp (by decide +kernel)
  simp only [Net.contains, decide_eq_true_eq] at ha hb
  have e : a = ⟨1#32⟩ := by
    have : (⟨a.addrValue &&& 0xFFFFFFFF#32⟩ : V4) = ⟨1#32⟩ := hb
    have h2 : a.addrValue &&& 0xFFFFFFFF#32 = a.addrValue := BitVec.and_allOnes
    rw [h2] at this
    exact this
  subst e
  revert ha
  decide +kernel

/-- It never misses a common address, never panics, and answers exactly whether the ranges from first to last address
overlap. Missing from the full claim: for lopsided masks overlapping ranges may have no common address. -/
theorem C29_intersects_partial (n o : Net A) (hn : WF n) (ho : WF o) :
    ∃ r, n.intersects o = .ok r ∧
      ((∃ a, n.contains a = true ∧ o.contains a = true) → r = true) ∧
      (r = true ↔ ∃ v, (∃ a b, n.contains a = true ∧ n.contains b = true ∧ val a ≤ v ∧ v ≤ val b) ∧
        (∃ a b, o.contains a = true ∧ o.contains b = true ∧ val a ≤ v ∧ v ≤ val b)) := by
  obtain ⟨l, h1, h2⟩ := lastAddr_spec hn.hz
  obtain ⟨l', h3, h4⟩ := lastAddr_spec ho.hz
  refine ⟨_, by simp [Net.intersects, h1, h3]; rfl, ?_, ?_⟩
  · rintro ⟨a, ha, hb⟩
    rw [contains_iff hn.hz] at ha
    rw [contains_iff ho.hz] at hb
    rw [Bool.and_eq_true, le_iff, le_iff]
    have e1 := member_ge_base hn.hz ha
    have e2 := member_ge_base ho.hz hb
    have e3 := member_le_last ha
    have e4 := member_le_last hb
    omega
  · have hl : n.contains l = true := by
      rw [contains_iff hn.hz, member_iff_wval]
      exact ⟨_, by have := Nat.two_pow_pos (hostBits n); omega, h2⟩
    have hl' : o.contains l' = true := by
      rw [contains_iff ho.hz, member_iff_wval]
      exact ⟨_, by have := Nat.two_pow_pos (hostBits o); omega, h4⟩
    rw [Bool.and_eq_true, le_iff, le_iff]
    constructor
    · rintro ⟨e1, e2⟩
      have e3 := member_ge_base hn.hz ((contains_iff hn.hz l).mp hl)
      have e4 := member_ge_base ho.hz ((contains_iff ho.hz l').mp hl')
      refine ⟨max (val n.baseAddr) (val o.baseAddr), ⟨n.baseAddr, l, (contains_iff hn.hz _).mpr (base_member n), hl, ?_, ?_⟩,
        ⟨o.baseAddr, l', (contains_iff ho.hz _).mpr (base_member o), hl', ?_, ?_⟩⟩ <;> omega
    · rintro ⟨v, ⟨a, b, ha, hb, e1, e2⟩, ⟨c, d, hc, hd, e3, e4⟩⟩
      have f1 := member_ge_base hn.hz ((contains_iff hn.hz a).mp ha)
      have f2 := member_ge_base ho.hz ((contains_iff ho.hz c).mp hc)
      have f3 := member_le_last ((contains_iff hn.hz b).mp hb)
      have f4 := member_le_last ((contains_iff ho.hz d).mp hd)
      omega

/-- The full claim holds for CIDR networks. -/
theorem C29_intersects_cidr (n o : Net A) (p q : Nat) (hn : IsCidr p n) (ho : IsCidr q o) :
    ∃ r, n.intersects o = .ok r ∧ (r = true ↔ ∃ a, n.contains a = true ∧ o.contains a = true) := by
  obtain ⟨r, h1, h2, h3⟩ := C29_intersects_partial n o hn.1 ho.1
  refine ⟨r, h1, ?_, h2⟩
  intro hr
  obtain ⟨v, ⟨a, b, ha, hb, e1, e2⟩, ⟨c, d, hc, hd, e3, e4⟩⟩ := h3.mp hr
  rw [contains_iff hn.1.hz, cidr_member_iff hn] at ha hb
  rw [contains_iff ho.1.hz, cidr_member_iff ho] at hc hd
  have hv : v < 2 ^ width A := by have := val_lt b; omega
  refine ⟨addrOf A v, ?_, ?_⟩
  · rw [contains_iff hn.1.hz, cidr_member_iff hn, val_addrOf hv]; omega
  · rw [contains_iff ho.1.hz, cidr_member_iff ho, val_addrOf hv]; omega

example : IsCidr 24 (Net.newWithMask (⟨0xC0000265#32⟩ : V4) ⟨0xFFFFFF00#32⟩) ∧
    IsCidr 26 (Net.newWithMask (⟨0xC0000265#32⟩ : V4) ⟨0xFFFFFFC0#32⟩) ∧
    (Net.newWithMask (⟨0xC0000265#32⟩ : V4) ⟨0xFFFFFF00#32⟩).intersects
      (Net.newWithMask (⟨0xC0000265#32⟩ : V4) ⟨0xFFFFFFC0#32⟩) = .ok true :=
  ⟨⟨newWithMask_wf _ _, by decide +kernel⟩, ⟨newWithMask_wf _ _, by decide +kernel⟩, by decide +kernel⟩

end generic
end Ripcalc
