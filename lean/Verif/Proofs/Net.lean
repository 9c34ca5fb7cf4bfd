import Verif.Proofs.BitManip
/-!
# Networks on bit strings
-/
set_option linter.unusedSectionVars false
namespace Ripcalc
open AddrSpec

section generic
variable {A : Type} [IpAddr A] [AddrSpec A] [LawfulIpAddr A]
open LawfulIpAddr

theorem addr_ext {a b : A} (h : ∀ i, i < width A → (val a).testBit i = (val b).testBit i) : a = b :=
  val_inj a b (eq_of_testBit_lt (val_lt a) (val_lt b) h)

variable (A) in
/-- The address with a given value. -/
noncomputable def addrOf (v : Nat) : A :=
  Classical.choose (val_surj (A := A) (v % 2 ^ width A) (Nat.mod_lt _ (Nat.two_pow_pos _)))

theorem val_addrOf {v : Nat} (h : v < 2 ^ width A) : val (addrOf A v) = v := by
  have := Classical.choose_spec (val_surj (A := A) (v % 2 ^ width A) (Nat.mod_lt _ (Nat.two_pow_pos _)))
  rw [addrOf, this, Nat.mod_eq_of_lt h]

@[simp] theorem addrOf_val (a : A) : addrOf A (val a) = a := val_inj _ _ (val_addrOf (val_lt a))

theorem abits_addrOf {l : List Bool} (h : l.length = width A) : abits (addrOf A (ofBits l)) = l := by
  rw [abits, val_addrOf (by rw [← h]; exact ofBits_lt l), natBits_ofBits' h]

theorem testBit_negate (a : A) (i : Nat) (hi : i < width A) :
    (val (IpAddr.negate a)).testBit i = !(val a).testBit i := by
  have h := val_lt a
  rw [val_negate, show 2 ^ width A - 1 - val a = 2 ^ width A - (val a + 1) by omega, Nat.testBit_two_pow_sub_succ h]
  simp [hi]

theorem mnot_get (m : List Bool) (i : Nat) (h : i < (mnot m).length) : (mnot m)[i] = !m[i]'(by simpa using h) := by
  simp [mnot]

theorem abits_negate (a : A) : abits (IpAddr.negate a) = mnot (abits a) := by
  apply List.ext_getElem
  · simp
  · intro i h1 h2
    have hi : i < width A := by simpa using h1
    rw [mnot_get]
    simp only [abits]
    rw [natBits_get _ _ i hi, natBits_get _ _ i hi, testBit_negate a _ (by omega)]

/-! ## Shape of a network -/

/-- The base has no host bits. -/
def HostZero (n : Net A) : Prop :=
  ∀ i, i < width A → (val n.subnetMask).testBit i = false → (val n.baseAddr).testBit i = false

omit [IpAddr A] [LawfulIpAddr A] in
theorem WF.hz {n : Net A} (h : WF n) : HostZero n := h.host_zero

/-- Mask bits. -/
def mbits (n : Net A) : List Bool := abits n.subnetMask
/-- Number of network bits. -/
def netBits (n : Net A) : Nat := ones (mbits n)
/-- Number of host bits. -/
def hostBits (n : Net A) : Nat := ones (mnot (mbits n))
/-- The network part of an address. -/
def netPart (n : Net A) (a : A) : List Bool := select (mbits n) (abits a)
/-- The host part of an address. -/
def hostPart (n : Net A) (a : A) : List Bool := select (mnot (mbits n)) (abits a)
/-- The value of the address with network part of value `x` and host part of value `h`. -/
def wval (n : Net A) (x h : Nat) : Nat :=
  ofBits (interleave (mbits n) (natBits (netBits n) x) (natBits (hostBits n) h))
/-- The network number of the network. -/
def netNum (n : Net A) : Nat := ofBits (netPart n n.baseAddr)

omit [IpAddr A] [LawfulIpAddr A] in
@[simp] theorem mbits_length (n : Net A) : (mbits n).length = width A := by simp [mbits]

omit [IpAddr A] [LawfulIpAddr A] in
theorem netBits_add_hostBits (n : Net A) : netBits n + hostBits n = width A := by
  have := ones_mnot (mbits n)
  simpa [netBits, hostBits] using this

omit [IpAddr A] [LawfulIpAddr A] in
theorem netPart_length (n : Net A) (a : A) : (netPart n a).length = netBits n := select_length (by simp)
omit [IpAddr A] [LawfulIpAddr A] in
theorem hostPart_length (n : Net A) (a : A) : (hostPart n a).length = hostBits n := select_length (by simp)

omit [IpAddr A] [LawfulIpAddr A] in
theorem netNum_lt (n : Net A) : netNum n < 2 ^ netBits n := by
  have := ofBits_lt (netPart n n.baseAddr)
  rwa [netPart_length] at this

omit [IpAddr A] [LawfulIpAddr A] in
theorem wval_lt (n : Net A) (x h : Nat) : wval n x h < 2 ^ width A := by
  have := ofBits_lt (interleave (mbits n) (natBits (netBits n) x) (natBits (hostBits n) h))
  rwa [interleave_length (by simp [netBits]) (by simp [hostBits]), mbits_length] at this

/-- Every address is woven from its parts. -/
theorem val_eq_wval (n : Net A) (a : A) : val a = wval n (ofBits (netPart n a)) (ofBits (hostPart n a)) := by
  rw [wval, natBits_ofBits' (netPart_length n a), natBits_ofBits' (hostPart_length n a), netPart, hostPart,
    interleave_select (by simp), ofBits_abits]

omit [IpAddr A] [LawfulIpAddr A] in
theorem wval_lt_host (n : Net A) (x : Nat) {h h' : Nat} (hh : h < 2 ^ hostBits n) (hh' : h' < 2 ^ hostBits n) :
    wval n x h < wval n x h' ↔ h < h' := by
  rw [wval, wval, interleave_lt_host (by simp [netBits]) (by simp [hostBits]) (by simp [hostBits]),
    ofBits_natBits_of_lt hh, ofBits_natBits_of_lt hh']

omit [IpAddr A] [LawfulIpAddr A] in
theorem wval_lt_net (n : Net A) {x x' : Nat} (h : Nat) (hx : x < 2 ^ netBits n) (hx' : x' < 2 ^ netBits n) :
    wval n x h < wval n x' h ↔ x < x' := by
  rw [wval, wval, interleave_lt_net (by simp [netBits]) (by simp [netBits]) (by simp [hostBits]),
    ofBits_natBits_of_lt hx, ofBits_natBits_of_lt hx']

omit [IpAddr A] [LawfulIpAddr A] in
theorem wval_le_host (n : Net A) (x : Nat) {h h' : Nat} (hh : h < 2 ^ hostBits n) (hh' : h' < 2 ^ hostBits n) :
    wval n x h ≤ wval n x h' ↔ h ≤ h' := by
  have := wval_lt_host n x hh' hh
  omega

omit [IpAddr A] [LawfulIpAddr A] in
theorem wval_le_net (n : Net A) {x x' : Nat} (h : Nat) (hx : x < 2 ^ netBits n) (hx' : x' < 2 ^ netBits n) :
    wval n x h ≤ wval n x' h ↔ x ≤ x' := by
  have := wval_lt_net n h hx' hx
  omega

theorem parts_of_wval (n : Net A) {x h : Nat} :
    netPart n (addrOf A (wval n x h)) = natBits (netBits n) x ∧
    hostPart n (addrOf A (wval n x h)) = natBits (hostBits n) h := by
  have hl : (interleave (mbits n) (natBits (netBits n) x) (natBits (hostBits n) h)).length = width A := by
    rw [interleave_length (by simp [netBits]) (by simp [hostBits]), mbits_length]
  have hs := select_interleave (m := mbits n) (n := natBits (netBits n) x) (h := natBits (hostBits n) h)
    (by simp [netBits]) (by simp [hostBits])
  rw [netPart, hostPart, wval, abits_addrOf hl]
  exact hs

omit [IpAddr A] [LawfulIpAddr A] in
/-- Membership is equality of the network parts. -/
theorem member_iff_netPart (n : Net A) (a : A) : Member n a ↔ netPart n a = netPart n n.baseAddr := by
  rw [netPart, netPart, select_eq_iff (by simp) (by simp)]
  simp only [mbits, abits]
  constructor
  · intro h i hi hm
    have hi' : i < width A := by simpa using hi
    rw [natBits_get _ _ _ hi'] at hm
    rw [natBits_get _ _ _ hi', natBits_get _ _ _ hi']
    exact h _ (by omega) hm
  · intro h i hi hm
    have h1 := h (width A - 1 - i) (by simp; omega)
    rw [natBits_get _ _ _ (by omega), natBits_get _ _ _ (by omega), natBits_get _ _ _ (by omega),
      show width A - 1 - (width A - 1 - i) = i by omega] at h1
    exact h1 hm

omit [IpAddr A] [LawfulIpAddr A] in
theorem hostPart_base {n : Net A} (hz : HostZero n) : hostPart n n.baseAddr = List.replicate (hostBits n) false := by
  have h : select (mnot (mbits n)) (abits n.baseAddr) = select (mnot (mbits n)) (natBits (width A) 0) := by
    rw [select_eq_iff (by simp) (by simp)]
    simp only [mbits, abits]
    intro i hi hm
    have hi' : i < width A := by simpa using hi
    rw [mnot_get, natBits_get _ _ _ hi'] at hm
    rw [natBits_get _ _ _ hi', natBits_get _ _ _ hi', hz _ (by omega) (by simpa using hm)]
    simp
  rw [hostPart, h, natBits_zero]
  have key : ∀ m : List Bool, select m (List.replicate m.length false) = List.replicate (ones m) false := by
    intro m
    induction m with
    | nil => rfl
    | cons b m ih => cases b <;> simp [select, ones, List.replicate_succ, ih]
  have := key (mnot (mbits n))
  rwa [mnot_length, mbits_length] at this

theorem base_eq_wval {n : Net A} (hz : HostZero n) : val n.baseAddr = wval n (netNum n) 0 := by
  rw [val_eq_wval n n.baseAddr, hostPart_base hz, ofBits_replicate_false]; rfl

/-- The members are the woven values of the network number with every host number. -/
theorem member_iff_wval (n : Net A) (a : A) :
    Member n a ↔ ∃ h, h < 2 ^ hostBits n ∧ val a = wval n (netNum n) h := by
  constructor
  · intro hm
    rw [member_iff_netPart] at hm
    refine ⟨ofBits (hostPart n a), ?_, ?_⟩
    · have := ofBits_lt (hostPart n a)
      rwa [hostPart_length] at this
    · rw [val_eq_wval n a, hm]; rfl
  · rintro ⟨h, _, e⟩
    rw [member_iff_netPart, ← addrOf_val a, e, (parts_of_wval n).1, netNum, natBits_ofBits' (netPart_length n n.baseAddr)]

theorem member_addrOf_wval (n : Net A) {h : Nat} (hh : h < 2 ^ hostBits n) : Member n (addrOf A (wval n (netNum n) h)) := by
  rw [member_iff_wval]
  exact ⟨h, hh, val_addrOf (wval_lt n _ _)⟩

theorem member_ge_base {n : Net A} (hz : HostZero n) {a : A} (h : Member n a) : val n.baseAddr ≤ val a := by
  obtain ⟨x, hx, e⟩ := (member_iff_wval n a).mp h
  rw [e, base_eq_wval hz, wval_le_host n _ (Nat.two_pow_pos _) hx]
  omega

theorem member_le_last {n : Net A} {a : A} (h : Member n a) : val a ≤ wval n (netNum n) (2 ^ hostBits n - 1) := by
  obtain ⟨x, hx, e⟩ := (member_iff_wval n a).mp h
  rw [e, wval_le_host n _ hx (by have := Nat.two_pow_pos (hostBits n); omega)]
  omega

omit [IpAddr A] [LawfulIpAddr A] in
theorem base_member (n : Net A) : Member n n.baseAddr := fun _ _ _ => rfl

/-! ## The model functions -/

theorem hostBitsAvailable_eq (n : Net A) : n.hostBitsAvailable = hostBits n := by
  rw [Net.hostBitsAvailable, Net.ciscoWildcard, sum_popcount, bytesToBits_toBytes, abits_negate]; rfl

theorem hostCountAddress_spec (n : Net A) : ∃ c : A, n.hostCountAddress = .ok c ∧ val c = 2 ^ hostBits n - 1 := by
  have hw := width_eq (A := A)
  have hadd := netBits_add_hostBits n
  obtain ⟨m, h1, h2⟩ := fromBytes_some (A := A)
    (subnetMaskBytesFromPrefix ((IpAddr.toBytes n.baseAddr).length * 8 - n.hostBitsAvailable) (IpAddr.byteCount n.baseAddr))
    (by rw [subnetMaskBytes_length, byteCount_eq])
  refine ⟨IpAddr.negate m, by simp [Net.hostCountAddress, h1], ?_⟩
  have hb : abits m = List.replicate (netBits n) true ++ List.replicate (hostBits n) false := by
    rw [← bytesToBits_toBytes, toBytes_of_fromBytes h1, subnetMaskBytes_bits, byteCount_eq, toBytes_length,
      hostBitsAvailable_eq]
    congr 2 <;> omega
  rw [← ofBits_abits, abits_negate, hb]
  have : mnot (List.replicate (netBits n) true ++ List.replicate (hostBits n) false) =
      List.replicate (netBits n) false ++ List.replicate (hostBits n) true := by simp [mnot]
  rw [this, ofBits_append, ofBits_replicate_false, ofBits_replicate_true]
  simp

/-- The unraveled base is network number followed by zeros. -/
theorem unravel_base {n : Net A} (hz : HostZero n) :
    ∃ u : A, unravelAddress n.baseAddr n.subnetMask = .ok u ∧ val u = netNum n * 2 ^ hostBits n := by
  obtain ⟨u, h1, h2⟩ := unravel_spec n.baseAddr n.subnetMask
  refine ⟨u, h1, ?_⟩
  have h3 : abits u = netPart n n.baseAddr ++ hostPart n n.baseAddr := h2
  rw [← ofBits_abits, h3, ofBits_append, hostPart_base hz, ofBits_replicate_false]
  simp [netNum]

/-- Weaving a number split at the host bits. -/
theorem weave_val (n : Net A) {u : A} {x h : Nat} (hh : h < 2 ^ hostBits n) (hu : val u = x * 2 ^ hostBits n + h) :
    ∃ v : A, weaveAddress u n.subnetMask = .ok v ∧ val v = wval n x h := by
  obtain ⟨v, h1, h2⟩ := weave_spec u n.subnetMask
  refine ⟨v, h1, ?_⟩
  have h3 : abits u = natBits (netBits n) x ++ natBits (hostBits n) h := by
    rw [abits, hu, ← netBits_add_hostBits n, natBits_append hh]
  have hn : ones (abits n.subnetMask) = (natBits (netBits n) x).length := by simp [netBits, mbits]
  rw [← ofBits_abits, h2, h3, hn, List.take_left, List.drop_left]; rfl

theorem unraveled_lt (n : Net A) {x h : Nat} (hx : x < 2 ^ netBits n) (hh : h < 2 ^ hostBits n) :
    x * 2 ^ hostBits n + h < 2 ^ width A := by
  rw [← netBits_add_hostBits n, Nat.pow_add]
  calc x * 2 ^ hostBits n + h < x * 2 ^ hostBits n + 2 ^ hostBits n := by omega
    _ = (x + 1) * 2 ^ hostBits n := by rw [Nat.add_mul, Nat.one_mul]
    _ ≤ 2 ^ netBits n * 2 ^ hostBits n := Nat.mul_le_mul_right _ hx

omit [LawfulIpAddr A] in
theorem isExact_some {r : Option A} {v : Nat} (h : IsExact r v) (hv : v < 2 ^ width A) : ∃ a, r = some a ∧ val a = v := by
  cases r with
  | none => simp only [IsExact] at h; omega
  | some a => simp only [IsExact] at h; exact ⟨a, rfl, by omega⟩

theorem isExact_none {r : Option A} {v : Nat} (h : IsExact r v) (hv : 2 ^ width A ≤ v) : r = none := by
  cases r with
  | none => rfl
  | some a => have := val_lt a; simp only [IsExact] at h; omega

theorem unraveledBroadcast {n : Net A} (u c : A) (hu : val u = netNum n * 2 ^ hostBits n)
    (hc : val c = 2 ^ hostBits n - 1) :
    ∃ b, IpAddr.addAddr u c = some b ∧ val b = netNum n * 2 ^ hostBits n + (2 ^ hostBits n - 1) := by
  have := addAddr_exact u c
  rw [hu, hc] at this
  exact isExact_some this (unraveled_lt n (netNum_lt n) (by have := Nat.two_pow_pos (hostBits n); omega))

theorem broadcastAddr_spec {n : Net A} (hz : HostZero n) :
    (hostBits n = 0 → n.broadcastAddr = .ok none) ∧
    (1 ≤ hostBits n → ∃ b : A, n.broadcastAddr = .ok (some b) ∧ val b = wval n (netNum n) (2 ^ hostBits n - 1)) := by
  rw [Net.broadcastAddr, hostBitsAvailable_eq]
  constructor
  · intro h; simp [h]
  · intro h
    rw [if_neg (by omega)]
    obtain ⟨u, hu, hu'⟩ := unravel_base hz
    obtain ⟨c, hc, hc'⟩ := hostCountAddress_spec n
    obtain ⟨b, hb, hb'⟩ := unraveledBroadcast u c hu' hc'
    obtain ⟨v, hv, hv'⟩ := weave_val n (u := b) (by have := Nat.two_pow_pos (hostBits n); omega) hb'
    exact ⟨v, by simp [hu, hc, hb, hv], hv'⟩

theorem lastAddr_spec {n : Net A} (hz : HostZero n) :
    ∃ l : A, n.lastAddrOfSubnet = .ok l ∧ val l = wval n (netNum n) (2 ^ hostBits n - 1) := by
  have hb := broadcastAddr_spec hz
  rcases Nat.eq_zero_or_pos (hostBits n) with h | h
  · refine ⟨n.baseAddr, by simp [Net.lastAddrOfSubnet, hb.1 h], ?_⟩
    rw [base_eq_wval hz, h]
  · obtain ⟨b, h1, h2⟩ := hb.2 h
    exact ⟨b, by simp [Net.lastAddrOfSubnet, h1], h2⟩

theorem firstHostAddr_spec (pr : Profile) {n : Net A} (hz : HostZero n) :
    (hostBits n < 2 → n.firstHostAddr pr = .ok none) ∧
    (2 ≤ hostBits n → ∃ b : A, n.firstHostAddr pr = .ok (some b) ∧ val b = wval n (netNum n) 1) := by
  rw [Net.firstHostAddr, hostBitsAvailable_eq]
  constructor
  · intro h; simp [h]
  · intro h
    have h1 : 1 < 2 ^ hostBits n := Nat.one_lt_two_pow (by omega)
    rw [if_neg (by omega)]
    obtain ⟨u, hu, hu'⟩ := unravel_base hz
    obtain ⟨r, hr, hr'⟩ := addOffset_nonneg pr u 1 (by decide)
    have e : (1 : Int32).toInt = 1 := by decide
    rw [e, hu'] at hr'
    obtain ⟨b, rfl, hb⟩ := isExact_some (v := netNum n * 2 ^ hostBits n + 1) hr' (unraveled_lt n (netNum_lt n) h1)
    obtain ⟨v, hv, hv'⟩ := weave_val n (u := b) h1 hb
    exact ⟨v, by simp [hu, hr, hv], hv'⟩

theorem two_pow_even {k : Nat} (h : 1 ≤ k) : ∃ j, 2 ^ k = 2 * j := by
  obtain ⟨k, rfl⟩ := Nat.exists_eq_add_of_le h
  exact ⟨2 ^ k, by rw [Nat.pow_add]⟩

theorem lastHostAddr_spec (pr : Profile) {n : Net A} (hz : HostZero n) :
    (hostBits n < 2 → n.lastHostAddr pr = .ok none) ∧
    (2 ≤ hostBits n → ∃ b : A, n.lastHostAddr pr = .ok (some b) ∧ val b = wval n (netNum n) (2 ^ hostBits n - 2)) := by
  rw [Net.lastHostAddr, hostBitsAvailable_eq]
  constructor
  · intro h; simp [h]
  · intro h
    have h1 : 1 < 2 ^ hostBits n := Nat.one_lt_two_pow (by omega)
    rw [if_neg (by omega)]
    obtain ⟨u, hu, hu'⟩ := unravel_base hz
    obtain ⟨c, hc, hc'⟩ := hostCountAddress_spec n
    obtain ⟨b, hb, hb'⟩ := unraveledBroadcast u c hu' hc'
    have e : (1 : Int32).toInt = 1 := by decide
    have hodd : 1 ≤ val b % 2 ^ 64 := by
      obtain ⟨j, hj⟩ := two_pow_even (k := hostBits n) (by omega)
      have h2 : val b % 2 = 1 := by
        rw [hb', hj, show netNum n * (2 * j) = 2 * (netNum n * j) by rw [Nat.mul_left_comm]]
        omega
      omega
    obtain ⟨r, hr, hr'⟩ := subtractOffset_low pr b 1 (by decide) (by rw [e]; omega)
    rw [e] at hr'
    obtain ⟨l, rfl, hl⟩ := isExact_some (v := netNum n * 2 ^ hostBits n + (2 ^ hostBits n - 2))
      (hr'.of_eq (by omega)) (unraveled_lt n (netNum_lt n) (by omega))
    obtain ⟨v, hv, hv'⟩ := weave_val n (u := l) (by omega) hl
    exact ⟨v, by simp [hu, hc, hb, hr, hv], hv'⟩

theorem nextSubnet_spec (pr : Profile) {n : Net A} (hz : HostZero n) :
    (netNum n + 1 = 2 ^ netBits n → n.nextSubnetBaseAddr pr = .ok none) ∧
    (netNum n + 1 < 2 ^ netBits n →
      ∃ b : A, n.nextSubnetBaseAddr pr = .ok (some b) ∧ val b = wval n (netNum n + 1) 0) := by
  have hpos := Nat.two_pow_pos (hostBits n)
  rw [Net.nextSubnetBaseAddr]
  obtain ⟨u, hu, hu'⟩ := unravel_base hz
  obtain ⟨c, hc, hc'⟩ := hostCountAddress_spec n
  obtain ⟨b, hb, hb'⟩ := unraveledBroadcast u c hu' hc'
  obtain ⟨r, hr, hr'⟩ := addOffset_nonneg pr b 1 (by decide)
  have e : (1 : Int32).toInt = 1 := by decide
  have hsum : (val b : Int) + (1 : Int32).toInt = ((netNum n + 1) * 2 ^ hostBits n + 0 : Nat) := by
    rw [e, hb', Nat.add_mul]; omega
  rw [hsum] at hr'
  constructor
  · intro h
    have : r = none := isExact_none hr' (by rw [h, ← Nat.pow_add, netBits_add_hostBits]; omega)
    subst this
    simp [hu, hc, hb, hr]
  · intro h
    obtain ⟨l, rfl, hl⟩ := isExact_some hr' (unraveled_lt n h hpos)
    obtain ⟨v, hv, hv'⟩ := weave_val n (u := l) hpos hl
    exact ⟨v, by simp [hu, hc, hb, hr, hv], hv'⟩

theorem foldl_double (k : Nat) (r : Nat) : (List.range k).foldl (fun r _ => r * 2) r = r * 2 ^ k := by
  induction k with
  | zero => simp
  | succ k ih => rw [List.range_succ, List.foldl_append, ih]; simp [Nat.pow_succ, Nat.mul_assoc]

theorem addressCount_eq (n : Net A) : n.addressCount = 2 ^ hostBits n := by
  have key : ∀ (bs : List Byte) (r : Nat), bs.foldl (fun ret b => (List.range (popcount b)).foldl (fun r _ => r * 2) ret) r =
      r * 2 ^ (bs.map popcount).sum := by
    intro bs
    induction bs with
    | nil => intro r; simp
    | cons b bs ih =>
      intro r
      rw [List.foldl_cons, ih, foldl_double, List.map_cons, List.sum_cons, Nat.pow_add, Nat.mul_assoc]
  rw [Net.addressCount, key, Nat.one_mul, ← hostBitsAvailable_eq]; rfl

/-! ## Constructors -/

theorem and_mask_eq_iff (n : Net A) (hz : HostZero n) (a : A) :
    IpAddr.and a n.subnetMask = n.baseAddr ↔ Member n a := by
  constructor
  · intro h i hi hm
    rw [← h, val_and, Nat.testBit_and, hm, Bool.and_true]
  · intro h
    apply addr_ext
    intro i hi
    rw [val_and, Nat.testBit_and]
    cases hm : (val n.subnetMask).testBit i with
    | true => rw [Bool.and_true]; exact h i hi hm
    | false => rw [Bool.and_false, hz i hi hm]

theorem contains_iff {n : Net A} (hz : HostZero n) (a : A) : n.contains a = true ↔ Member n a := by
  rw [Net.contains, decide_eq_true_eq, and_mask_eq_iff n hz]

theorem isPrefixMask_unique {w p q m : Nat} (h : IsPrefixMask w p m) (h' : IsPrefixMask w q m) : p = q := by
  rw [← onesZeros_natBits_iff] at h h'
  exact onesZeros_unique h h'

theorem newWithMask_wf (a m : A) : WF (Net.newWithMask a m) where
  host_zero i hi hm := by
    show (val (IpAddr.and a m)).testBit i = false
    have hm : (val m).testBit i = false := hm
    rw [val_and, Nat.testBit_and, hm, Bool.and_false]
  prefix_iff p := prefix_mask_iff' m p

/-- The mask of a given prefix. -/
theorem maskOfPrefix (A : Type) [IpAddr A] [AddrSpec A] [LawfulIpAddr A] (p : Nat) :
    ∃ m : A, IpAddr.fromBytes (subnetMaskBytesFromPrefix p (width A / 8)) = some m ∧
      IsPrefixMask (width A) (min p (width A)) (val m) := by
  have hw := width_eq (A := A)
  obtain ⟨m, h1, h2⟩ := fromBytes_some (A := A) (subnetMaskBytesFromPrefix p (width A / 8)) (subnetMaskBytes_length ..)
  refine ⟨m, h1, ?_⟩
  rw [← onesZeros_natBits_iff]
  show OnesZeros (abits m) _
  rw [← bytesToBits_toBytes, toBytes_of_fromBytes h1, subnetMaskBytes_bits, ← hw]
  exact onesZeros_mk _ _

theorem newWithPrefix_spec (a : A) (p : Nat) :
    ∃ m : A, IsPrefixMask (width A) (min p (width A)) (val m) ∧
      Net.newWithPrefix a p = .ok ⟨IpAddr.and a m, m, some p⟩ := by
  obtain ⟨m, h1, h2⟩ := maskOfPrefix A p
  exact ⟨m, h2, by simp [Net.newWithPrefix, byteCount_eq, h1]⟩

theorem isPrefixMask_inj {m m' : A} {p : Nat} (h : IsPrefixMask (width A) p (val m)) (h' : IsPrefixMask (width A) p (val m')) :
    m = m' := by
  apply addr_ext
  intro i hi
  rw [Bool.eq_iff_iff, h.2 i hi, h'.2 i hi]

theorem newWithPrefix_eq_mask (a m : A) {p : Nat} (hm : IsPrefixMask (width A) p (val m)) :
    Net.newWithPrefix a p = .ok (Net.newWithMask a m) := by
  obtain ⟨m', h1, h2⟩ := newWithPrefix_spec a p
  have hp := hm.1
  rw [show min p (width A) = p by omega] at h1
  have : m' = m := isPrefixMask_inj h1 hm
  subst this
  rw [h2, Net.newWithMask, (prefix_mask_iff' m' p).mpr hm]

theorem newWithPrefix_wf {a : A} {p : Nat} (hp : p ≤ width A) :
    ∃ n, Net.newWithPrefix a p = .ok n ∧ IsCidr p n ∧ Member n a := by
  obtain ⟨m, h1, h2⟩ := newWithPrefix_spec a p
  rw [show min p (width A) = p by omega] at h1
  refine ⟨_, newWithPrefix_eq_mask a m h1, ⟨newWithMask_wf a m, (prefix_mask_iff' m p).mpr h1⟩, ?_⟩
  rw [← and_mask_eq_iff _ (newWithMask_wf a m).hz]; rfl

/-! ## CIDR networks are aligned blocks -/

omit [IpAddr A] [LawfulIpAddr A] in
theorem isCidr_bits {n : Net A} {p : Nat} (h : IsCidr p n) : OnesZeros (mbits n) p := by
  have := (h.1.prefix_iff p).mp h.2
  rwa [← onesZeros_natBits_iff] at this

omit [IpAddr A] [LawfulIpAddr A] in
theorem isCidr_netBits {n : Net A} {p : Nat} (h : IsCidr p n) : netBits n = p ∧ hostBits n = width A - p ∧ p ≤ width A := by
  have h1 : netBits n = p := onesZeros_ones (isCidr_bits h)
  have := netBits_add_hostBits n
  exact ⟨h1, by omega, by omega⟩

omit [IpAddr A] [LawfulIpAddr A] in
theorem interleave_contiguous {p q : Nat} {n h : List Bool} (hn : n.length = p) (hh : h.length = q) :
    interleave (List.replicate p true ++ List.replicate q false) n h = n ++ h := by
  induction p generalizing n with
  | zero =>
    have : n = [] := List.length_eq_zero_iff.mp hn
    subst this
    simp only [List.replicate_zero, List.nil_append]
    induction q generalizing h with
    | zero => have : h = [] := List.length_eq_zero_iff.mp hh; simp [this, interleave]
    | succ q ih =>
      cases h with
      | nil => simp at hh
      | cons a h => simp [List.replicate_succ, interleave, ih (h := h) (by simpa using hh)]
  | succ p ih =>
    cases n with
    | nil => simp at hn
    | cons a n => simp [List.replicate_succ, interleave, ih (n := n) (by simpa using hn)]

omit [IpAddr A] [LawfulIpAddr A] in
theorem cidr_wval {n : Net A} {p : Nat} (hc : IsCidr p n) {x h : Nat} (hx : x < 2 ^ p) (hh : h < 2 ^ (width A - p)) :
    wval n x h = x * 2 ^ (width A - p) + h := by
  have hb := isCidr_netBits hc
  have ho := (isCidr_bits hc).2
  rw [mbits_length] at ho
  rw [wval, hb.1, hb.2.1, ho, interleave_contiguous (by simp) (by simp), ofBits_append, natBits_length,
    ofBits_natBits_of_lt hx, ofBits_natBits_of_lt hh]

omit [IpAddr A] [LawfulIpAddr A] in
theorem cidr_netNum_lt {n : Net A} {p : Nat} (hc : IsCidr p n) : netNum n < 2 ^ p := by
  have := netNum_lt n
  rwa [(isCidr_netBits hc).1] at this

theorem cidr_base {n : Net A} {p : Nat} (hc : IsCidr p n) : val n.baseAddr = netNum n * 2 ^ (width A - p) := by
  rw [base_eq_wval hc.1.hz, cidr_wval hc (cidr_netNum_lt hc) (Nat.two_pow_pos _)]; rfl

/-- The members of a CIDR network are a block. -/
theorem cidr_member_iff {n : Net A} {p : Nat} (hc : IsCidr p n) (a : A) :
    Member n a ↔ val n.baseAddr ≤ val a ∧ val a < val n.baseAddr + 2 ^ (width A - p) := by
  rw [member_iff_wval, (isCidr_netBits hc).2.1, cidr_base hc]
  constructor
  · rintro ⟨h, h1, h2⟩
    rw [h2, cidr_wval hc (cidr_netNum_lt hc) h1]
    omega
  · rintro ⟨h1, h2⟩
    refine ⟨val a - netNum n * 2 ^ (width A - p), by omega, ?_⟩
    rw [cidr_wval hc (cidr_netNum_lt hc) (by omega)]
    omega

end generic
end Ripcalc
