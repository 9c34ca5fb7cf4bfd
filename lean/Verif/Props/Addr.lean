import Verif.Proofs.AddrMore
/-!
# Properties of addresses: C01–C07, C14
-/
namespace Ripcalc
open AddrSpec

/-! ## C01: IPv4 byte serialisation is a big-endian bijection -/

theorem C01_ipv4_bytes :
    (∀ a : V4, a.toBytes.length = 4 ∧ bigEndian 256 (a.toBytes.map BitVec.toNat) = a.addrValue.toNat
      ∧ V4.fromBytes a.toBytes = some a) ∧
    (∀ (bs : List Byte) (a : V4), V4.fromBytes bs = some a → a.toBytes = bs) ∧
    (∀ bs : List Byte, V4.fromBytes bs = none ↔ bs.length ≠ 4) :=
  ⟨fun a => ⟨rfl, V4.toBytes_val a, fromBytes_toBytes a⟩,
   fun _ a h => toBytes_of_fromBytes (A := V4) (a := a) h, fun bs => fromBytes_eq_none_iff (A := V4) bs⟩

example : V4.fromBytes [192#8, 0#8, 2#8, 1#8] = some ⟨0xC0000201#32⟩ ∧ V4.fromBytes [1#8] = none := by decide

/-! ## C02: IPv6 byte and chunk serialisation are big-endian bijections -/

theorem C02_ipv6_bytes :
    (∀ a : V6, a.toBytes.length = 16
      ∧ bigEndian 256 (a.toBytes.map BitVec.toNat) = a.topHalf.toNat * 2 ^ 64 + a.bottomHalf.toNat
      ∧ V6.fromBytes a.toBytes = some a) ∧
    (∀ (bs : List Byte) (a : V6), V6.fromBytes bs = some a → a.toBytes = bs) ∧
    (∀ bs : List Byte, V6.fromBytes bs = none ↔ bs.length ≠ 16) :=
  ⟨fun a => ⟨rfl, V6.toBytes_val a, fromBytes_toBytes a⟩,
   fun _ a h => toBytes_of_fromBytes (A := V6) (a := a) h, fun bs => fromBytes_eq_none_iff (A := V6) bs⟩

theorem C02_ipv6_chunks :
    (∀ a : V6, a.toChunks.length = 8
      ∧ bigEndian 65536 (a.toChunks.map BitVec.toNat) = a.topHalf.toNat * 2 ^ 64 + a.bottomHalf.toNat
      ∧ V6.fromChunks a.toChunks = some a) ∧
    (∀ (cs : List (BitVec 16)) (a : V6), V6.fromChunks cs = some a → a.toChunks = cs) ∧
    (∀ cs : List (BitVec 16), V6.fromChunks cs = none ↔ cs.length ≠ 8) :=
  ⟨fun a => ⟨rfl, V6.toChunks_val a, V6.fromChunks_toChunks a⟩,
   fun _ _ h => V6.toChunks_of_fromChunks h,
   fun cs => ⟨fun h hl => (by obtain ⟨b, h1, _⟩ := V6.fromChunks_some cs hl; rw [h] at h1; cases h1),
     V6.fromChunks_none cs⟩⟩

example : V6.fromChunks [0x2001#16, 0xdb8#16, 0, 0, 0, 0, 0, 1] = some ⟨0x20010db800000000#64, 1#64⟩
    ∧ V6.fromChunks [1#16] = none := by decide

/-! ## C03: address order is numeric order -/

theorem C03_order_v4 (a b : V4) :
    (IpAddr.le a b = true ↔ a.addrValue.toNat ≤ b.addrValue.toNat) ∧ (a = b ↔ a.addrValue.toNat = b.addrValue.toNat) :=
  ⟨LawfulIpAddr.le_iff a b, fun h => h ▸ rfl, LawfulIpAddr.val_inj a b⟩

theorem C03_order_v6 (a b : V6) :
    (IpAddr.le a b = true ↔
      a.topHalf.toNat * 2 ^ 64 + a.bottomHalf.toNat ≤ b.topHalf.toNat * 2 ^ 64 + b.bottomHalf.toNat) ∧
    (a = b ↔ a.topHalf.toNat * 2 ^ 64 + a.bottomHalf.toNat = b.topHalf.toNat * 2 ^ 64 + b.bottomHalf.toNat) :=
  ⟨LawfulIpAddr.le_iff a b, fun h => h ▸ rfl, LawfulIpAddr.val_inj a b⟩

example : IpAddr.le (⟨1, 0⟩ : V6) ⟨0, 5⟩ = false ∧ IpAddr.le (⟨0, 5⟩ : V6) ⟨1, 0⟩ = true := by decide

/-! ## C04: IPv4 address arithmetic is exact or None -/

theorem C04_ipv4_arithmetic (a b : V4) (k : Int32) (pr : Profile) :
    IsExact (IpAddr.addAddr a b) (val a + val b) ∧
    IsExact (IpAddr.subtractAddr a b) (val a - val b) ∧
    (∃ r, IpAddr.addOffset pr a k = .ok r ∧ IsExact r (val a + k.toInt)) ∧
    (∃ r, IpAddr.subtractOffset pr a k = .ok r ∧ IsExact r (val a - k.toInt)) :=
  ⟨V4.addInternal_exact (val a) (val b), V4.addInternal_exact (val a) (-(val b : Int)),
   ⟨_, rfl, V4.addInternal_exact ..⟩, ⟨_, rfl, V4.addInternal_exact ..⟩⟩

example : IpAddr.addAddr (⟨0xC0000200#32⟩ : V4) ⟨5⟩ = some ⟨0xC0000205#32⟩
    ∧ IpAddr.addAddr (⟨0xFFFFFFFF#32⟩ : V4) ⟨1⟩ = none
    ∧ IpAddr.subtractOffset .checked (⟨0#32⟩ : V4) 1 = .ok none
    ∧ IpAddr.subtractOffset .checked (⟨0#32⟩ : V4) Int32.minValue = .ok (some ⟨0x80000000#32⟩) := by decide

/-! ## C05: IPv6 addition is exact or None -/

theorem C05_ipv6_addition (a b : V6) (k : Int32) (pr : Profile) :
    IsExact (IpAddr.addAddr a b) (val a + val b) ∧
    (0 ≤ k.toInt → ∃ r, IpAddr.addOffset pr a k = .ok r ∧ IsExact r (val a + k.toInt)) :=
  ⟨V6.addAddr_exact a b, V6.addOffset_nonneg pr a k⟩

example : IpAddr.addAddr (⟨1, 0xFFFFFFFFFFFFFFFF#64⟩ : V6) ⟨0, 1⟩ = some ⟨2, 0⟩
    ∧ IpAddr.addAddr (⟨0xFFFFFFFFFFFFFFFF#64, 0xFFFFFFFFFFFFFFFF#64⟩ : V6) ⟨0, 1⟩ = none := by decide

/-! ## C06: IPv6 subtraction is exact or None

False: `sub_internal` (`src/addr.rs:276-291`) borrows only if the top halves are equal.  The full claim is
`∀ a b, IsExact (subtractAddr a b) (val a - val b)`; what holds is the exact set of arguments where it is right. -/

/-- The full claim is false. -/
theorem C06_counterexample : ¬ ∀ a b : V6, IsExact (IpAddr.subtractAddr a b) (val a - val b) := by
  intro h
  have h1 := h ⟨1#64, 0#64⟩ ⟨0#64, 1#64⟩
  have h2 : IpAddr.subtractAddr (⟨1#64, 0#64⟩ : V6) ⟨0#64, 1#64⟩ = some ⟨1#64, 0xFFFFFFFFFFFFFFFF#64⟩ := by decide
  rw [h2] at h1
  simp [IsExact, V6.val_def] at h1

/-- Exactly when it is right: unless the top half is greater *and* the bottom half smaller. -/
theorem C06_ipv6_subtraction_partial (a b : V6) :
    IsExact (IpAddr.subtractAddr a b) (val a - val b) ↔
      ¬ (b.topHalf.toNat < a.topHalf.toNat ∧ a.bottomHalf.toNat < b.bottomHalf.toNat) := by
  constructor
  · intro h hc
    obtain ⟨r, h1, h2⟩ := V6.subInternal_wrong a.topHalf a.bottomHalf b.topHalf b.bottomHalf hc
    have h' : IsExact (V6.subInternal a.topHalf a.bottomHalf b.topHalf b.bottomHalf) (val a - val b) := h
    rw [h1] at h'
    simp only [IsExact, V6.val_def] at h' h2
    omega
  · exact V6.subInternal_exact a.topHalf a.bottomHalf b.topHalf b.bottomHalf

/-- In every other case the result is too large by `2^64`. -/
theorem C06_ipv6_subtraction_error (a b : V6)
    (h : b.topHalf.toNat < a.topHalf.toNat ∧ a.bottomHalf.toNat < b.bottomHalf.toNat) :
    ∃ r, IpAddr.subtractAddr a b = some r ∧ (val r : Int) = val a - val b + 2 ^ 64 :=
  V6.subInternal_wrong a.topHalf a.bottomHalf b.topHalf b.bottomHalf h

/-- Offsets of either sign (all but the minimum): adding is exact, subtracting is exact unless a borrow out of a
nonzero top half is needed. -/
theorem C06_ipv6_offsets_partial (pr : Profile) (a : V6) (k : Int32) (hk : k ≠ Int32.minValue) :
    (∃ r, IpAddr.addOffset pr a k = .ok r ∧
      (IsExact r (val a + k.toInt) ↔ ¬ (0 < a.topHalf.toNat ∧ (a.bottomHalf.toNat : Int) < -k.toInt))) ∧
    (∃ r, IpAddr.subtractOffset pr a k = .ok r ∧
      (IsExact r (val a - k.toInt) ↔ ¬ (0 < a.topHalf.toNat ∧ (a.bottomHalf.toNat : Int) < k.toInt))) := by
  have hb := V6.int32_bounds k
  have hadd : ∀ z : Int, 0 ≤ z → z < 2 ^ 64 →
      IsExact (V6.addInternal a.topHalf a.bottomHalf 0#64 (BitVec.ofInt 64 z)) (val a + z) := by
    intro z h1 h2
    have e := V6.ofInt64_toNat' z h1 h2
    refine (V6.addInternal_exact a.topHalf a.bottomHalf 0#64 (BitVec.ofInt 64 z)).of_eq ?_
    rw [V6.val_def, BitVec.toNat_ofNat]
    omega
  have hsub : ∀ z : Int, 0 ≤ z → z < 2 ^ 64 →
      (IsExact (V6.subInternal a.topHalf a.bottomHalf 0#64 (BitVec.ofInt 64 z)) (val a - z) ↔
        ¬ (0 < a.topHalf.toNat ∧ (a.bottomHalf.toNat : Int) < z)) := by
    intro z h1 h2
    have e := V6.ofInt64_toNat' z h1 h2
    have := C06_ipv6_subtraction_partial a ⟨0#64, BitVec.ofInt 64 z⟩
    rw [show val (⟨0#64, BitVec.ofInt 64 z⟩ : V6) = (BitVec.ofInt 64 z).toNat by simp [V6.val_def]] at this
    rw [e] at this
    refine Iff.trans this ?_
    simp only [BitVec.toNat_ofNat]
    omega
  refine ⟨⟨_, V6.addOffset_eq pr a k hk, ?_⟩, ⟨_, V6.subtractOffset_eq pr a k hk, ?_⟩⟩
  · split
    · rename_i h
      have := hsub (-k.toInt) (by omega) (by omega)
      rwa [Int.sub_neg] at this
    · exact ⟨fun _ => by omega, fun _ => hadd k.toInt (by omega) (by omega)⟩
  · split
    · rename_i h
      have := hadd (-k.toInt) (by omega) (by omega)
      rw [← Int.sub_eq_add_neg] at this
      exact ⟨fun _ => by omega, fun _ => this⟩
    · exact hsub k.toInt (by omega) (by omega)

example : IpAddr.subtractAddr (⟨1, 5⟩ : V6) ⟨1, 3⟩ = some ⟨0, 2⟩ ∧ IpAddr.subtractAddr (⟨1, 2⟩ : V6) ⟨1, 3⟩ = none
    ∧ IpAddr.subtractAddr (⟨1, 0⟩ : V6) ⟨0, 1⟩ = some ⟨1, 0xFFFFFFFFFFFFFFFF#64⟩ := by decide

/-! ## C07: IPv6 offsets accept every i32

False for `i32::MIN` (`src/addr.rs:363-372,381-390`). -/

/-- The full claim is false in both build profiles: a panic with overflow checks, unbounded mutual recursion without. -/
theorem C07_counterexample (a : V6) :
    IpAddr.addOffset .checked a Int32.minValue = .panic .overflow ∧
    IpAddr.subtractOffset .checked a Int32.minValue = .panic .overflow ∧
    IpAddr.addOffset .wrapping a Int32.minValue = .diverge ∧
    IpAddr.subtractOffset .wrapping a Int32.minValue = .diverge :=
  ⟨(V6.offset_min_checked a).1, (V6.offset_min_checked a).2, (V6.offset_min_wrapping a).1, (V6.offset_min_wrapping a).2⟩

/-- It holds exactly for the other offsets. -/
theorem C07_ipv6_offsets_return_partial (pr : Profile) (a : V6) (k : Int32) :
    ((∃ r, IpAddr.addOffset pr a k = .ok r) ↔ k ≠ Int32.minValue) ∧
    ((∃ r, IpAddr.subtractOffset pr a k = .ok r) ↔ k ≠ Int32.minValue) := by
  refine ⟨⟨?_, fun h => ⟨_, V6.addOffset_eq pr a k h⟩⟩, ⟨?_, fun h => ⟨_, V6.subtractOffset_eq pr a k h⟩⟩⟩
  · rintro ⟨r, hr⟩ rfl
    cases pr
    · rw [(C07_counterexample a).1] at hr; cases hr
    · rw [(C07_counterexample a).2.2.1] at hr; cases hr
  · rintro ⟨r, hr⟩ rfl
    cases pr
    · rw [(C07_counterexample a).2.1] at hr; cases hr
    · rw [(C07_counterexample a).2.2.2] at hr; cases hr

example : (5 : Int32) ≠ Int32.minValue ∧ (-5 : Int32) ≠ Int32.minValue := by decide

/-! ## C14: bitwise operators act on every bit -/

theorem C14_bitwise [IpAddr A] [AddrSpec A] [LawfulIpAddr A] (a b : A) (i : Nat) (hi : i < width A) :
    (val (IpAddr.and a b)).testBit i = ((val a).testBit i && (val b).testBit i) ∧
    (val (IpAddr.or a b)).testBit i = ((val a).testBit i || (val b).testBit i) ∧
    (val (IpAddr.xor a b)).testBit i = ((val a).testBit i ^^ (val b).testBit i) ∧
    (val (IpAddr.negate a)).testBit i = !(val a).testBit i := by
  refine ⟨by rw [LawfulIpAddr.val_and, Nat.testBit_and], by rw [LawfulIpAddr.val_or, Nat.testBit_or],
    by rw [LawfulIpAddr.val_xor, Nat.testBit_xor], ?_⟩
  have h := LawfulIpAddr.val_lt a
  rw [LawfulIpAddr.val_negate, show 2 ^ width A - 1 - val a = 2 ^ width A - (val a + 1) by omega,
    Nat.testBit_two_pow_sub_succ h]
  simp [hi]

theorem C14_counts [IpAddr A] [AddrSpec A] [LawfulIpAddr A] (a : A) :
    IpAddr.countOnes a = countBelow (width A) (fun i => (val a).testBit i) ∧
    IpAddr.countZeros a = countBelow (width A) (fun i => !(val a).testBit i) ∧
    IpAddr.countOnes a + IpAddr.countZeros a = width A := by
  refine ⟨LawfulIpAddr.countOnes_eq a, LawfulIpAddr.countZeros_eq a, ?_⟩
  rw [LawfulIpAddr.countOnes_eq, LawfulIpAddr.countZeros_eq, countBelow, countBelow]
  have := List.length_eq_countP_add_countP (fun i => (val a).testBit i) (l := List.range (width A))
  rw [List.length_range] at this
  refine Eq.trans ?_ this.symm
  refine congrArg _ (List.countP_congr fun x _ => ?_)
  simp

/-- Both families satisfy the laws, so the two theorems above speak about both. -/
theorem C14_families : LawfulIpAddr V4 ∧ LawfulIpAddr V6 ∧ width V4 = 32 ∧ width V6 = 128 :=
  ⟨inferInstance, inferInstance, rfl, rfl⟩

example : IpAddr.countOnes (⟨0xFFFFFF00#32⟩ : V4) = 24 ∧ IpAddr.negate (⟨0xFFFFFF00#32⟩ : V4) = ⟨0xFF#32⟩ := by decide

end Ripcalc
