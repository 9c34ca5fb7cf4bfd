import Verif.Proofs.AddrMore
/-!
# `cidr.rs` and `bit_manip.rs` on bit strings
-/
namespace Ripcalc
open AddrSpec

/-! ## Bytes and bits -/

theorem byteBits_eq (b : Byte) : byteBits b = natBits 8 b.toNat := by
  have : ∀ b : Byte, byteBits b = natBits 8 b.toNat := by decide +kernel
  exact this b

@[simp] theorem byteBits_length (b : Byte) : (byteBits b).length = 8 := by simp [byteBits]

@[simp] theorem bytesToBits_nil : bytesToBits [] = [] := rfl
@[simp] theorem bytesToBits_cons (b : Byte) (bs : List Byte) : bytesToBits (b :: bs) = byteBits b ++ bytesToBits bs := rfl
theorem bytesToBits_append (x y : List Byte) : bytesToBits (x ++ y) = bytesToBits x ++ bytesToBits y := by
  simp [bytesToBits]

@[simp] theorem bytesToBits_length (bs : List Byte) : (bytesToBits bs).length = 8 * bs.length := by
  induction bs with
  | nil => rfl
  | cons b bs ih => simp [ih]; omega

theorem bytesToBits_eq (bs : List Byte) :
    bytesToBits bs = natBits (8 * bs.length) (bigEndian 256 (bs.map BitVec.toNat)) := by
  induction bs with
  | nil => rfl
  | cons b bs ih =>
    rw [bytesToBits_cons, List.map_cons, bigEndian_cons, List.length_cons, byteBits_eq, ih, List.length_map,
      show 8 * (bs.length + 1) = 8 + 8 * bs.length by omega, show (256 : Nat) = 2 ^ 8 from rfl, ← Nat.pow_mul]
    rw [natBits_append]
    have := bigEndian_lt (b := 2 ^ 8) (l := bs.map BitVec.toNat) (by
      intro d hd
      obtain ⟨b, _, rfl⟩ := List.mem_map.mp hd
      exact b.isLt)
    rwa [List.length_map, ← Nat.pow_mul] at this

theorem bytesToBits_inj {x y : List Byte} (h : bytesToBits x = bytesToBits y) : x = y := by
  have hl : x.length = y.length := by
    have := congrArg List.length h
    simp at this; omega
  rw [bytesToBits_eq, bytesToBits_eq, hl] at h
  apply bytes_eq_of_value hl
  have bound : ∀ z : List Byte, bigEndian (2 ^ 8) (z.map BitVec.toNat) < 2 ^ (8 * z.length) := by
    intro z
    have := bigEndian_lt (b := 2 ^ 8) (l := z.map BitVec.toNat) (by
      intro d hd
      obtain ⟨b, _, rfl⟩ := List.mem_map.mp hd
      exact b.isLt)
    rwa [List.length_map, ← Nat.pow_mul] at this
  have h1 := ofBits_natBits_of_lt (bound x)
  have h2 := ofBits_natBits_of_lt (bound y)
  rw [← h1, ← h2, hl]
  exact congrArg ofBits h

/-- Number of zero bits needed to fill up to a byte boundary. -/
def padBits (n : Nat) : Nat := (8 - n % 8) % 8

theorem setBit_eq (cur : Byte) (k : Nat) (hk : k < 8) :
    byteBits (cur ||| (1#8 <<< (7 - k))) = (byteBits cur).set k true := by
  have h2 : ∀ k : Fin 8, (1#8 <<< (7 - k.val)).toNat = 2 ^ (7 - k.val) := by decide
  apply List.ext_getElem (by simp)
  intro i h1 _
  have hi : i < 8 := by simpa using h1
  rw [List.getElem_set]
  simp only [byteBits_eq, BitVec.toNat_or]
  rw [natBits_get 8 _ i hi, natBits_get 8 _ i hi, Nat.testBit_or, h2 ⟨k, hk⟩, Nat.testBit_two_pow]
  split
  · subst k; simp
  · rw [show decide (7 - k = 8 - 1 - i) = false by simp; omega, Bool.or_false]

theorem bitsToBytesLoop_spec (rest : List Bool) : ∀ (i : Nat) (cur : Byte) (bytes : List Byte) (pre : List Bool),
    byteBits cur = pre ++ List.replicate (8 - i % 8) false → pre.length = i % 8 →
    bytesToBits (if (i + rest.length) % 8 ≠ 0 then (bitsToBytesLoop i cur bytes rest).2 ++ [(bitsToBytesLoop i cur bytes rest).1]
      else (bitsToBytesLoop i cur bytes rest).2) =
    bytesToBits bytes ++ pre ++ rest ++ List.replicate (padBits (i + rest.length)) false := by
  induction rest with
  | nil =>
    intro i cur bytes pre hc hp
    simp only [bitsToBytesLoop, List.length_nil, Nat.add_zero, List.append_nil, padBits]
    split
    · rename_i h
      rw [bytesToBits_append, bytesToBits_cons, bytesToBits_nil, List.append_nil, hc, List.append_assoc,
        show (8 - i % 8) % 8 = 8 - i % 8 by omega]
    · rename_i h
      have h0 : i % 8 = 0 := by omega
      have : pre = [] := List.length_eq_zero_iff.mp (by omega)
      simp [this, h0]
  | cons b rest ih =>
    intro i cur bytes pre hc hp
    simp only [bitsToBytesLoop]
    have hi : i + (b :: rest).length = i + 1 + rest.length := by simp; omega
    rw [hi]
    have hk : i % 8 < 8 := by omega
    have hcur : byteBits (if b then cur ||| (1#8 <<< (7 - i % 8)) else cur) =
        (pre ++ [b]) ++ List.replicate (7 - i % 8) false := by
      have e : List.replicate (8 - i % 8) false = false :: List.replicate (7 - i % 8) false := by
        rw [← List.replicate_succ]; congr 1; omega
      cases b with
      | false => simp [hc, e]
      | true =>
        simp only [if_true]
        rw [setBit_eq cur _ hk, hc, e, List.set_append_right _ _ (by omega), hp]
        simp
    by_cases h7 : i % 8 = 7
    · rw [if_pos h7]
      rw [ih (i + 1) 0#8 _ [] (by rw [show (i + 1) % 8 = 0 by omega]; rfl) (by simp; omega)]
      rw [bytesToBits_append, bytesToBits_cons, hcur, h7]
      simp
    · rw [if_neg h7]
      rw [ih (i + 1) _ bytes (pre ++ [b]) (by
        rw [hcur]; congr 2; omega) (by simp; omega)]
      simp

theorem bytesToBits_bitsToBytes (bits : List Bool) :
    bytesToBits (bitsToBytes bits) = bits ++ List.replicate (padBits bits.length) false := by
  have := bitsToBytesLoop_spec bits 0 0#8 [] [] (by decide) rfl
  simp only [Nat.zero_add, bytesToBits_nil, List.nil_append] at this
  rw [← this, bitsToBytes]

theorem bitsToBytes_length (bits : List Bool) : (bitsToBytes bits).length = (bits.length + 7) / 8 := by
  have := congrArg List.length (bytesToBits_bitsToBytes bits)
  simp [padBits] at this
  omega

theorem bitsToBytes_bytesToBits (bs : List Byte) : bitsToBytes (bytesToBits bs) = bs := by
  apply bytesToBits_inj
  rw [bytesToBits_bitsToBytes]
  simp [padBits]

/-! ## Prefixes and masks -/

/-- `p` ones followed by zeros. -/
def OnesZeros (l : List Bool) (p : Nat) : Prop :=
  p ≤ l.length ∧ l = List.replicate p true ++ List.replicate (l.length - p) false

theorem onesZeros_unique {l : List Bool} {p q : Nat} (h : OnesZeros l p) (h' : OnesZeros l q) : p = q := by
  have h1 := congrArg ones h.2
  have h2 := congrArg ones h'.2
  rw [ones_append, ones_replicate_true, ones_replicate_false] at h1 h2
  omega

theorem onesZeros_ones {l : List Bool} {p : Nat} (h : OnesZeros l p) : ones l = p := by
  rw [h.2, ones_append, ones_replicate_true, ones_replicate_false]; rfl

theorem onesZeros_mk (p q : Nat) : OnesZeros (List.replicate p true ++ List.replicate q false) p :=
  ⟨by simp, by simp⟩

theorem replicate_append_inj {p q r s : Nat} {y : List Bool}
    (h : List.replicate p true ++ List.replicate q false = List.replicate r true ++ List.replicate s false ++ y)
    (hs : 0 < s) : p = r ∧ y = List.replicate (q - s) false := by
  induction p generalizing r with
  | zero =>
    cases r with
    | zero =>
      simp only [List.replicate_zero, List.nil_append] at h
      have hl := congrArg List.length h
      simp at hl
      rw [show q = s + (q - s) by omega, ← List.replicate_append_replicate] at h
      exact ⟨rfl, (List.append_cancel_left h).symm⟩
    | succ r => cases q <;> simp [List.replicate_succ] at h
  | succ p ih =>
    cases r with
    | zero => cases s <;> simp [List.replicate_succ] at h hs
    | succ r =>
      simp only [List.replicate_succ, List.cons_append, List.cons.injEq, true_and] at h
      have := ih h
      exact ⟨by omega, this.2⟩

theorem table_spec (b : Byte) :
    let n := subnetMaskByteToPrefix.getD b.toNat xxx
    (n = 9 ∧ ∀ p, ¬ OnesZeros (byteBits b) p) ∨ (n ≤ 8 ∧ byteBits b = List.replicate n true ++ List.replicate (8 - n) false) := by
  have hb : ∀ b : Byte, subnetMaskByteToPrefix.getD b.toNat xxx = 9 ∨ (subnetMaskByteToPrefix.getD b.toNat xxx ≤ 8 ∧
      b = cidrByteToPrefix.getD (subnetMaskByteToPrefix.getD b.toNat xxx) 0) := by decide +kernel
  have hc : ∀ p : Fin 9, byteBits (cidrByteToPrefix.getD p.val 0) =
      List.replicate p.val true ++ List.replicate (8 - p.val) false ∧
      subnetMaskByteToPrefix.getD (cidrByteToPrefix.getD p.val 0).toNat xxx = p.val := by decide +kernel
  rcases hb b with h | ⟨h1, h2⟩
  · left
    refine ⟨h, fun p hp => ?_⟩
    have hp1 := hp.1
    have hp2 := hp.2
    rw [byteBits_length] at hp1 hp2
    have h3 := hc ⟨p, by omega⟩
    have h4 : b = cidrByteToPrefix.getD p 0 := by
      have : bytesToBits [b] = bytesToBits [cidrByteToPrefix.getD p 0] := by
        simp only [bytesToBits_cons, h3.1, hp2]
      simpa using bytesToBits_inj this
    have h5 := h3.2
    simp only at h5
    rw [← h4, h] at h5
    omega
  · right
    refine ⟨h1, ?_⟩
    have h3 := (hc ⟨subnetMaskByteToPrefix.getD b.toNat xxx, by omega⟩).1
    simp only at h3
    rw [← h3, ← h2]

theorem allZero_iff {l : List Bool} : OnesZeros l 0 ↔ l = List.replicate l.length false := by
  simp [OnesZeros]

theorem allZero_append {x y : List Bool} : OnesZeros (x ++ y) 0 ↔ OnesZeros x 0 ∧ OnesZeros y 0 := by
  rw [allZero_iff, allZero_iff, allZero_iff, List.length_append, ← List.replicate_append_replicate]
  exact ⟨fun h => List.append_inj h (by simp), fun ⟨h1, h2⟩ => by rw [← h1, ← h2]⟩

theorem prefixLoop_true (bs : List Byte) (c p : Nat) :
    prefixLoop true c bs = some p ↔ p = c ∧ OnesZeros (bytesToBits bs) 0 := by
  induction bs generalizing c with
  | nil => simp [prefixLoop, OnesZeros]; exact eq_comm
  | cons b bs ih =>
    rw [prefixLoop, bytesToBits_cons, allZero_append]
    have ht := table_spec b
    simp only at ht
    generalize subnetMaskByteToPrefix.getD b.toNat xxx = n at ht
    rcases ht with ⟨h1, h2⟩ | ⟨h1, h2⟩
    · simp [h1, h2]
    · have hn : n ≠ xxx := by simp [xxx]; omega
      have hz : OnesZeros (byteBits b) 0 ↔ n = 0 := by
        constructor
        · intro h
          have := onesZeros_mk n (8 - n)
          rw [← h2] at this
          exact onesZeros_unique this h
        · intro h; subst h
          rw [h2]; exact onesZeros_mk 0 8
      rw [hz]
      by_cases h8 : n = 8
      · simp [h8]
      · by_cases h0 : n = 0
        · simp [h0, ih]
        · simp [hn, h8, h0]

theorem onesZeros_cons8 {x : List Bool} {q : Nat} :
    OnesZeros (List.replicate 8 true ++ x) q ↔ ∃ r, q = 8 + r ∧ OnesZeros x r := by
  constructor
  · rintro ⟨h1, h2⟩
    simp only [List.length_append, List.length_replicate] at h1 h2
    have hq : 8 ≤ q := by
      rcases Nat.lt_or_ge q 8 with h | h
      · have := congrArg (fun l => l[q]?) h2
        simp only [List.getElem?_append, List.length_replicate, h, if_true, Nat.lt_irrefl, if_false,
          List.getElem?_replicate, Nat.sub_self] at this
        rw [if_pos (by omega)] at this
        simp at this
      · exact h
    refine ⟨q - 8, by omega, by omega, ?_⟩
    rw [show q = 8 + (q - 8) by omega, ← List.replicate_append_replicate, List.append_assoc] at h2
    have := List.append_cancel_left h2
    rw [this]; simp
  · rintro ⟨r, rfl, h1, h2⟩
    refine ⟨by simp; omega, ?_⟩
    rw [← List.replicate_append_replicate, List.append_assoc]
    congr 1
    simp only [List.length_append, List.length_replicate]
    rw [show 8 + x.length - (8 + r) = x.length - r by omega]
    exact h2

theorem onesZeros_partial {x : List Bool} {n q : Nat} (hn : n < 8) :
    OnesZeros ((List.replicate n true ++ List.replicate (8 - n) false) ++ x) q ↔ q = n ∧ OnesZeros x 0 := by
  constructor
  · rintro ⟨h1, h2⟩
    have := replicate_append_inj h2.symm (by omega)
    refine ⟨this.1, allZero_iff.mpr ?_⟩
    have h3 := this.2
    rw [h3]; simp
  · rintro ⟨rfl, h⟩
    rw [allZero_iff] at h
    refine ⟨by simp, ?_⟩
    rw [h, List.append_assoc, List.replicate_append_replicate]
    congr 2
    simp

theorem prefixLoop_false (bs : List Byte) (c p : Nat) :
    prefixLoop false c bs = some p ↔ ∃ q, p = c + q ∧ OnesZeros (bytesToBits bs) q := by
  induction bs generalizing c with
  | nil =>
    simp only [prefixLoop, bytesToBits_nil, OnesZeros, Option.some.injEq]
    constructor
    · rintro rfl; exact ⟨0, rfl, by simp, by simp⟩
    · rintro ⟨q, rfl, hq, _⟩; simp at hq; omega
  | cons b bs ih =>
    rw [prefixLoop, bytesToBits_cons]
    have ht := table_spec b
    simp only at ht
    generalize subnetMaskByteToPrefix.getD b.toNat xxx = n at ht
    rcases ht with ⟨h1, h2⟩ | ⟨h1, h2⟩
    · simp only [h1, if_true, reduceCtorEq, false_iff, not_exists, not_and]
      intro q _ hq
      have h3 := hq.2
      rcases Nat.lt_or_ge q 8 with hq8 | hq8
      · apply h2 q
        have := congrArg (List.take 8) h3
        rw [List.take_append_of_le_length (by simp), List.take_of_length_le (by simp), List.take_append] at this
        rw [this]
        simp only [List.take_replicate, List.length_replicate, List.length_append, byteBits_length]
        rw [show min 8 q = q by omega]
        exact onesZeros_mk _ _
      · apply h2 8
        have := congrArg (List.take 8) h3
        rw [List.take_append_of_le_length (by simp), List.take_of_length_le (by simp), List.take_append_of_le_length (by simpa)] at this
        rw [this]
        simp only [List.take_replicate]
        rw [show min 8 q = 8 by omega]
        exact onesZeros_mk 8 0
    · have hn : n ≠ xxx := by simp [xxx]; omega
      by_cases h8 : n = 8
      · subst h8
        rw [h2]
        simp only [hn, if_false, if_true, Bool.false_eq_true, ih]
        simp only [show 8 - 8 = 0 from rfl, List.replicate_zero, List.append_nil, onesZeros_cons8]
        constructor
        · rintro ⟨q, rfl, h⟩; exact ⟨8 + q, by omega, q, rfl, h⟩
        · rintro ⟨q, rfl, r, rfl, h⟩; exact ⟨r, by omega, h⟩
      · rw [h2]
        simp only [onesZeros_partial (show n < 8 by omega), hn, h8, if_false]
        by_cases h0 : n = 0
        · simp only [h0, if_true, prefixLoop_true]
          constructor
          · rintro ⟨rfl, h⟩; exact ⟨0, rfl, rfl, h⟩
          · rintro ⟨q, rfl, rfl, h⟩; exact ⟨rfl, h⟩
        · simp only [h0, if_false, Bool.false_eq_true, prefixLoop_true]
          constructor
          · rintro ⟨rfl, h⟩; exact ⟨n, rfl, rfl, h⟩
          · rintro ⟨q, rfl, rfl, h⟩; exact ⟨rfl, h⟩

theorem prefixFromSubnetMaskBytes_iff (bs : List Byte) (p : Nat) :
    prefixFromSubnetMaskBytes bs = some p ↔ OnesZeros (bytesToBits bs) p := by
  rw [prefixFromSubnetMaskBytes, prefixLoop_false]
  simp

theorem bytesToBits_zeros (n : Nat) : bytesToBits (List.replicate n 0x00#8) = List.replicate (8 * n) false := by
  induction n with
  | zero => rfl
  | succ n ih =>
    rw [List.replicate_succ, bytesToBits_cons, ih, show byteBits 0#8 = List.replicate 8 false by decide,
      List.replicate_append_replicate]
    congr 1; omega

theorem subnetMaskBytes_length (p n : Nat) : (subnetMaskBytesFromPrefix p n).length = n := by
  induction n generalizing p with
  | zero => rfl
  | succ n ih =>
    rw [subnetMaskBytesFromPrefix]
    split
    · split
      · simp [ih]
      · simp
    · simp

theorem subnetMaskBytes_bits (p n : Nat) :
    bytesToBits (subnetMaskBytesFromPrefix p n) =
      List.replicate (min p (8 * n)) true ++ List.replicate (8 * n - p) false := by
  induction n generalizing p with
  | zero => simp [subnetMaskBytesFromPrefix]
  | succ n ih =>
    rw [subnetMaskBytesFromPrefix]
    split
    · split
      · rename_i h8
        rw [bytesToBits_cons, ih, show byteBits 0xFF#8 = List.replicate 8 true by decide, ← List.append_assoc,
          List.replicate_append_replicate]
        congr 2 <;> omega
      · rename_i h0 h8
        have key : ∀ p : Fin 8, byteBits (cidrByteToPrefix.getD p.val 0) =
            List.replicate p.val true ++ List.replicate (8 - p.val) false := by decide
        rw [bytesToBits_cons, key ⟨p, by omega⟩, bytesToBits_zeros, List.append_assoc, List.replicate_append_replicate]
        simp only
        congr 2 <;> omega
    · rename_i h0
      rw [bytesToBits_zeros]
      have : p = 0 := by omega
      simp [this]

/-! ## Addresses as bit strings -/

section generic
variable {A : Type} [IpAddr A] [AddrSpec A] [LawfulIpAddr A]
open LawfulIpAddr

/-- The bits of an address. -/
def abits (a : A) : List Bool := natBits (width A) (val a)

omit [IpAddr A] [LawfulIpAddr A] in
@[simp] theorem abits_length (a : A) : (abits a).length = width A := by simp [abits]

theorem ofBits_abits (a : A) : ofBits (abits a) = val a := ofBits_natBits_of_lt (val_lt a)

theorem abits_inj {a b : A} (h : abits a = abits b) : a = b := by
  apply val_inj
  rw [← ofBits_abits, ← ofBits_abits, h]

theorem bytesToBits_toBytes (a : A) : bytesToBits (IpAddr.toBytes a) = abits a := by
  rw [bytesToBits_eq, toBytes_val, toBytes_length, ← width_eq (A := A)]; rfl

theorem exists_of_bits (l : List Bool) (h : l.length = width A) :
    ∃ a : A, abits a = l ∧ val a = ofBits l ∧ IpAddr.fromBytes (bitsToBytes l) = some a := by
  have hw := width_eq (A := A)
  have hlen : (bitsToBytes l).length = width A / 8 := by rw [bitsToBytes_length, h]; omega
  obtain ⟨a, h1, h2⟩ := fromBytes_some (A := A) (bitsToBytes l) hlen
  have h3 : abits a = l := by
    rw [← bytesToBits_toBytes, toBytes_of_fromBytes h1, bytesToBits_bitsToBytes]
    have : padBits l.length = 0 := by rw [h, padBits]; omega
    simp [this]
  refine ⟨a, h3, ?_, h1⟩
  rw [← ofBits_abits, h3]

theorem prefix_mask_iff (m : A) (p : Nat) :
    prefixFromSubnetMaskBytes (IpAddr.toBytes m) = some p ↔ OnesZeros (abits m) p := by
  rw [prefixFromSubnetMaskBytes_iff, bytesToBits_toBytes]

theorem onesZeros_natBits_iff (w v p : Nat) : OnesZeros (natBits w v) p ↔ IsPrefixMask w p v := by
  rw [OnesZeros, IsPrefixMask, natBits_length]
  refine and_congr_right fun hp => ?_
  constructor
  · intro h i hi
    have h1 := natBits_get w v (w - 1 - i) (by omega)
    rw [show w - 1 - (w - 1 - i) = i by omega] at h1
    rw [← h1]
    simp only [h, List.getElem_append, List.getElem_replicate, List.length_replicate]
    split <;> simp <;> omega
  · intro h
    apply List.ext_getElem
    · simp; omega
    · intro i h1 h2
      simp at h1
      rw [natBits_get w v i h1, List.getElem_append]
      have := h (w - 1 - i) (by omega)
      split
      · rename_i h3
        simp at h3
        rw [List.getElem_replicate, this]; omega
      · rename_i h3
        simp at h3
        rw [List.getElem_replicate, Bool.eq_false_iff, ne_eq, this]; omega

theorem prefix_mask_iff' (m : A) (p : Nat) :
    prefixFromSubnetMaskBytes (IpAddr.toBytes m) = some p ↔ IsPrefixMask (width A) p (val m) := by
  rw [prefix_mask_iff, abits, onesZeros_natBits_iff]

/-! ## Unravel and weave -/

theorem partitionBits_eq (x m : List Bool) (h : m.length = x.length) :
    partitionBits (x.zip m) = (select m x, select (mnot m) x) := by
  induction m generalizing x with
  | nil => cases x <;> simp_all [partitionBits, select]
  | cons b m ih =>
    cases x with
    | nil => simp at h
    | cons a x =>
      have := ih x (by simpa using h)
      cases b <;> simp [partitionBits, this, select]

theorem splitAtPrefix_eq (p : Nat) (l : List Bool) : ∀ i, splitAtPrefix p i l = (l.take (p - i), l.drop (p - i)) := by
  induction l with
  | nil => intro i; simp [splitAtPrefix]
  | cons b l ih =>
    intro i
    rw [splitAtPrefix, ih]
    simp only
    split
    · rw [show p - i = (p - (i + 1)) + 1 by omega]; simp
    · rw [show p - (i + 1) = 0 by omega, show p - i = 0 by omega]; simp

theorem index_drop {l : List Bool} {i : Nat} {b : Bool} {t : List Bool} (h : l.drop i = b :: t) :
    Exec.index l i = .ok b ∧ l.drop (i + 1) = t := by
  have h1 : l[i]? = some b := by
    rw [← Nat.add_zero i, ← List.getElem?_drop, h]; rfl
  refine ⟨by simp [Exec.index, h1], ?_⟩
  rw [← List.drop_drop, h]; rfl

theorem weaveLoop_eq (net host : List Bool) (m : List Bool) : ∀ i j,
    (net.drop i).length = ones m → (host.drop j).length = ones (mnot m) →
    weaveLoop net host i j m = .ok (interleave m (net.drop i) (host.drop j)) := by
  induction m with
  | nil => intro i j _ _; simp [weaveLoop, interleave]
  | cons b m ih =>
    intro i j h1 h2
    cases b with
    | true =>
      cases hn : net.drop i with
      | nil => simp [hn, ones] at h1
      | cons c t =>
        have := index_drop hn
        simp only [weaveLoop, if_true, this.1, Exec.ok_bind]
        have e1 : (net.drop (i + 1)).length = ones m := by rw [this.2]; simpa [hn, ones] using h1
        rw [ih (i + 1) j e1 (by simpa [ones] using h2)]
        simp [interleave, this.2]
    | false =>
      cases hn : host.drop j with
      | nil => simp [hn, ones] at h2
      | cons c t =>
        have := index_drop hn
        simp only [weaveLoop, this.1, Exec.ok_bind, Bool.false_eq_true, if_false]
        have e1 : (host.drop (j + 1)).length = ones (mnot m) := by rw [this.2]; simpa [hn, ones] using h2
        rw [ih i (j + 1) (by simpa [ones] using h1) e1]
        simp [interleave, this.2]

theorem popcount_byte (b : Byte) : popcount b = ones (byteBits b) := by
  have : ∀ b : Byte, popcount b = ones (byteBits b) := by decide +kernel
  exact this b

theorem sum_popcount (bs : List Byte) : (bs.map popcount).sum = ones (bytesToBits bs) := by
  induction bs with
  | nil => rfl
  | cons b bs ih => rw [List.map_cons, List.sum_cons, ih, bytesToBits_cons, ones_append, popcount_byte]

/-- In the contiguous case selecting and appending changes nothing. -/
theorem select_append_contiguous {m x : List Bool} {p : Nat} (h : OnesZeros m p) (hl : m.length = x.length) :
    select m x = x.take p ∧ select (mnot m) x = x.drop p := by
  have key : ∀ (p q : Nat) (x : List Bool), x.length = p + q →
      select (List.replicate p true ++ List.replicate q false) x = x.take p ∧
      select (mnot (List.replicate p true ++ List.replicate q false)) x = x.drop p := by
    intro p
    induction p with
    | zero =>
      intro q
      induction q with
      | zero => intro x hx; have : x = [] := List.length_eq_zero_iff.mp (by omega); simp [this, select]
      | succ q ihq =>
        intro x hx
        cases x with
        | nil => simp at hx
        | cons a x =>
          have := ihq x (by simpa using hx)
          simp at this
          simp [List.replicate_succ, select, this]
    | succ p ih =>
      intro q x hx
      cases x with
      | nil => simp at hx; omega
      | cons a x =>
        have := ih q x (by simp at hx; omega)
        simp [List.replicate_succ, select, this]
  have := key p (m.length - p) x (by have := h.1; omega)
  rw [← h.2] at this
  exact this

theorem unravel_spec (a m : A) :
    ∃ u : A, unravelAddress a m = .ok u ∧ abits u = select (abits m) (abits a) ++ select (mnot (abits m)) (abits a) := by
  rw [unravelAddress]
  simp only
  split
  · rename_i h
    obtain ⟨p, hp⟩ := Option.isSome_iff_exists.mp h
    rw [prefix_mask_iff] at hp
    have := select_append_contiguous hp (x := abits a) (by simp)
    exact ⟨a, rfl, by rw [this.1, this.2, List.take_append_drop]⟩
  · rw [bytesToBits_toBytes, bytesToBits_toBytes, partitionBits_eq _ _ (by simp)]
    have hl : (select (abits m) (abits a) ++ select (mnot (abits m)) (abits a)).length = width A := by
      rw [List.length_append, select_length (by simp), select_length (by simp), ones_mnot]; simp
    obtain ⟨u, h1, _, h3⟩ := exists_of_bits (A := A) _ hl
    exact ⟨u, by simp only [h3, Exec.unwrap_some], h1⟩

theorem weave_spec (a m : A) :
    ∃ u : A, weaveAddress a m = .ok u ∧
      abits u = interleave (abits m) ((abits a).take (ones (abits m))) ((abits a).drop (ones (abits m))) := by
  rw [weaveAddress]
  simp only
  split
  · rename_i h
    obtain ⟨p, hp⟩ := Option.isSome_iff_exists.mp h
    rw [prefix_mask_iff] at hp
    have := select_append_contiguous hp (x := abits a) (by simp)
    refine ⟨a, rfl, ?_⟩
    rw [onesZeros_ones hp, ← this.1, ← this.2, interleave_select (by simp)]
  · have hle := ones_le (abits m)
    have hadd := ones_mnot (abits m)
    simp only [abits_length] at hle hadd
    have hn : ((abits a).take (ones (abits m))).length = ones (abits m) := by simp; omega
    have hh : ((abits a).drop (ones (abits m))).length = ones (mnot (abits m)) := by simp; omega
    rw [bytesToBits_toBytes, bytesToBits_toBytes, splitAtPrefix_eq, sum_popcount, bytesToBits_toBytes, Nat.sub_zero]
    simp only
    rw [weaveLoop_eq _ _ _ 0 0 (by simpa using hn) (by simpa using hh)]
    obtain ⟨u, h1, _, h3⟩ := exists_of_bits (A := A)
      (interleave (abits m) ((abits a).take (ones (abits m))) ((abits a).drop (ones (abits m))))
      (by rw [interleave_length hn hh]; simp)
    refine ⟨u, ?_, h1⟩
    simp [h3]

end generic
end Ripcalc
