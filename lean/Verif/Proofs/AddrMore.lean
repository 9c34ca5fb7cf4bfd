import Verif.Proofs.AddrLaws
/-!
# Byte and chunk strings as numbers; IPv6 offsets of either sign
-/
namespace Ripcalc
open AddrSpec

theorem bigEndian_cons (b d : Nat) (l : List Nat) : bigEndian b (d :: l) = d * b ^ l.length + bigEndian b l := by
  have := bigEndian_append b [d] l
  simpa [bigEndian] using this

theorem bigEndian_lt {b : Nat} {l : List Nat} (h : ∀ d ∈ l, d < b) : bigEndian b l < b ^ l.length := by
  induction l with
  | nil => simp [bigEndian]
  | cons d l ih =>
    rw [bigEndian_cons, List.length_cons, Nat.pow_succ]
    have h1 := ih (fun d hd => h d (List.mem_cons_of_mem _ hd))
    have h2 : d + 1 ≤ b := h d List.mem_cons_self
    calc d * b ^ l.length + bigEndian b l < d * b ^ l.length + b ^ l.length := by omega
      _ = (d + 1) * b ^ l.length := by rw [Nat.add_mul, Nat.one_mul]
      _ ≤ b * b ^ l.length := Nat.mul_le_mul_right _ h2
      _ = b ^ l.length * b := Nat.mul_comm ..

theorem bigEndian_inj {b : Nat} {x y : List Nat} (hl : x.length = y.length) (hx : ∀ d ∈ x, d < b)
    (hy : ∀ d ∈ y, d < b) (h : bigEndian b x = bigEndian b y) : x = y := by
  induction x generalizing y with
  | nil => cases y <;> simp_all
  | cons d x ih =>
    cases y with
    | nil => simp at hl
    | cons e y =>
      have hl' : x.length = y.length := by simpa using hl
      have h1 := bigEndian_lt (fun d hd => hx d (List.mem_cons_of_mem _ hd))
      have h2 := bigEndian_lt (fun d hd => hy d (List.mem_cons_of_mem _ hd))
      rw [bigEndian_cons, bigEndian_cons] at h
      rw [← hl'] at h2 h
      have hpos : 0 < b ^ x.length := by omega
      have hd : d = e := by
        have e1 : (d * b ^ x.length + bigEndian b x) / b ^ x.length = d := by
          rw [Nat.mul_comm, Nat.mul_add_div hpos, Nat.div_eq_of_lt h1]; simp
        have e2 : (e * b ^ x.length + bigEndian b y) / b ^ x.length = e := by
          rw [Nat.mul_comm, Nat.mul_add_div hpos, Nat.div_eq_of_lt h2]; simp
        rw [← e1, ← e2, h]
      subst hd
      congr 1
      exact ih hl' (fun d hd => hx d (List.mem_cons_of_mem _ hd)) (fun d hd => hy d (List.mem_cons_of_mem _ hd)) (by omega)

theorem map_toNat_inj {w : Nat} {x y : List (BitVec w)} (h : x.map BitVec.toNat = y.map BitVec.toNat) : x = y :=
  List.map_inj_right (fun _ _ e => BitVec.eq_of_toNat_eq e) |>.mp h

theorem bytes_eq_of_value {w : Nat} {x y : List (BitVec w)} (hl : x.length = y.length)
    (h : bigEndian (2 ^ w) (x.map BitVec.toNat) = bigEndian (2 ^ w) (y.map BitVec.toNat)) : x = y := by
  apply map_toNat_inj
  apply bigEndian_inj (by simpa using hl) _ _ h
  · intro d hd
    obtain ⟨b, _, rfl⟩ := List.mem_map.mp hd
    exact b.isLt
  · intro d hd
    obtain ⟨b, _, rfl⟩ := List.mem_map.mp hd
    exact b.isLt

section generic
variable {A : Type} [IpAddr A] [AddrSpec A] [LawfulIpAddr A]
open LawfulIpAddr

theorem fromBytes_toBytes (a : A) : IpAddr.fromBytes (IpAddr.toBytes a) = some a := by
  obtain ⟨b, h1, h2⟩ := fromBytes_some (A := A) (IpAddr.toBytes a) (toBytes_length a)
  rw [h1, val_inj b a (by rw [h2, toBytes_val])]

theorem toBytes_of_fromBytes {bs : List Byte} {a : A} (h : IpAddr.fromBytes bs = some a) : IpAddr.toBytes a = bs := by
  by_cases hl : bs.length = width A / 8
  · obtain ⟨b, h1, h2⟩ := fromBytes_some (A := A) bs hl
    rw [h] at h1
    cases h1
    apply bytes_eq_of_value (by rw [toBytes_length, hl])
    exact (toBytes_val a).trans h2
  · rw [fromBytes_none bs hl] at h; cases h

theorem fromBytes_eq_none_iff (bs : List Byte) : (IpAddr.fromBytes bs : Option A) = none ↔ bs.length ≠ width A / 8 := by
  constructor
  · intro h hl
    obtain ⟨b, h1, _⟩ := fromBytes_some (A := A) bs hl
    rw [h] at h1; cases h1
  · exact fromBytes_none bs

theorem isExact_some_iff {r : Option A} {z : Int} (h : IsExact r z) : (∃ a, r = some a) ↔ 0 ≤ z ∧ z < (2 ^ width A : Nat) := by
  cases r with
  | none =>
    simp only [IsExact] at h
    exact ⟨fun ⟨_, h'⟩ => absurd h' (by simp), fun h' => by omega⟩
  | some a =>
    have := val_lt a
    simp only [IsExact] at h
    exact ⟨fun _ => by omega, fun _ => ⟨a, rfl⟩⟩

theorem isExact_unique {r r' : Option A} {z : Int} (h : IsExact r z) (h' : IsExact r' z) : r = r' := by
  cases r with
  | none =>
    cases r' with
    | none => rfl
    | some b => have := val_lt b; simp only [IsExact] at h h'; omega
  | some a =>
    cases r' with
    | none => have := val_lt a; simp only [IsExact] at h h'; omega
    | some b => simp only [IsExact] at h h'; congr 1; exact val_inj a b (by omega)

end generic

namespace V6

theorem toChunks_val_half (z : Nat) (hz : z < 2 ^ 64) :
    bigEndian 65536 [z / 2 ^ 48 % 65536, z / 2 ^ 32 % 65536, z / 2 ^ 16 % 65536, z / 2 ^ 0 % 65536] = z := by
  simp only [bigEndian, List.foldl]
  rw [Nat.zero_mul, Nat.zero_add, Nat.mod_eq_of_lt (a := z / 2 ^ 48) (by omega), digit_step16 z 32, digit_step16 z 16,
    digit_step16 z 0]
  simp

theorem pow65536_4 : 65536 ^ 4 = 2 ^ 64 := by decide

theorem toChunks_val (a : V6) : bigEndian 65536 (a.toChunks.map BitVec.toNat) = val a := by
  have hx := toChunks_val_half _ a.topHalf.isLt
  have hy := toChunks_val_half _ a.bottomHalf.isLt
  simp only [toChunks, List.map, toNat_chunk 64 _ _ (by decide : 16 ≤ 64)]
  have := bigEndian_append 65536
    [a.topHalf.toNat / 2 ^ 48 % 65536, a.topHalf.toNat / 2 ^ 32 % 65536, a.topHalf.toNat / 2 ^ 16 % 65536,
      a.topHalf.toNat / 2 ^ 0 % 65536]
    [a.bottomHalf.toNat / 2 ^ 48 % 65536, a.bottomHalf.toNat / 2 ^ 32 % 65536, a.bottomHalf.toNat / 2 ^ 16 % 65536,
      a.bottomHalf.toNat / 2 ^ 0 % 65536]
  rw [hx, hy, show ∀ a b c d : Nat, [a, b, c, d].length = 4 from fun _ _ _ _ => rfl, pow65536_4] at this
  rw [val_def]
  exact this

theorem half_chunks (c0 c1 c2 c3 : BitVec 16) :
    ((c0.setWidth 64 <<< 48) ||| (c1.setWidth 64 <<< 32) ||| (c2.setWidth 64 <<< 16) |||
      (c3.setWidth 64 <<< 0) : BitVec 64).toNat = bigEndian 65536 [c0.toNat, c1.toNat, c2.toNat, c3.toNat] := by
  simp only [BitVec.toNat_or, bigEndian, List.foldl]
  rw [toNat_shl 64 16 _ _ (by decide), toNat_shl 64 16 _ _ (by decide), toNat_shl 64 16 _ _ (by decide),
    toNat_shl 64 16 _ _ (by decide)]
  rw [or_shift_chunk _ _ 32 c1.isLt, or_shift_chunk _ _ 16 c2.isLt, or_shift_chunk _ _ 0 c3.isLt]
  simp

theorem fromChunks_some (cs : List (BitVec 16)) (h : cs.length = 8) :
    ∃ a : V6, fromChunks cs = some a ∧ val a = bigEndian 65536 (cs.map BitVec.toNat) := by
  match cs, h with
  | [c0, c1, c2, c3, c4, c5, c6, c7], _ =>
    refine ⟨_, rfl, ?_⟩
    rw [val_def, half_chunks, half_chunks]
    have := bigEndian_append 65536 [c0.toNat, c1.toNat, c2.toNat, c3.toNat] [c4.toNat, c5.toNat, c6.toNat, c7.toNat]
    rw [show ∀ a b c d : Nat, [a, b, c, d].length = 4 from fun _ _ _ _ => rfl, pow65536_4] at this
    exact this.symm

theorem fromChunks_none (cs : List (BitVec 16)) (h : cs.length ≠ 8) : fromChunks cs = none := by
  unfold fromChunks
  split
  · simp at h
  · rfl

theorem toChunks_length (a : V6) : a.toChunks.length = 8 := rfl

theorem fromChunks_toChunks (a : V6) : fromChunks a.toChunks = some a := by
  obtain ⟨b, h1, h2⟩ := fromChunks_some a.toChunks rfl
  rw [h1, val_inj b a (by rw [h2, toChunks_val])]

theorem toChunks_of_fromChunks {cs : List (BitVec 16)} {a : V6} (h : fromChunks cs = some a) : a.toChunks = cs := by
  by_cases hl : cs.length = 8
  · obtain ⟨b, h1, h2⟩ := fromChunks_some cs hl
    rw [h] at h1
    cases h1
    apply bytes_eq_of_value (by rw [toChunks_length, hl])
    exact (toChunks_val a).trans h2
  · rw [fromChunks_none cs hl] at h; cases h

/-! ## Offsets -/

theorem int32_bounds (k : Int32) : -2147483648 ≤ k.toInt ∧ k.toInt < 2147483648 :=
  ⟨k.le_toInt, k.toInt_lt⟩

theorem min_iff (k : Int32) : k = Int32.minValue ↔ k.toInt = -2147483648 := by
  rw [← Int32.toInt_inj]; rfl

theorem negI32_ok (pr : Profile) (k : Int32) (h : k ≠ Int32.minValue) :
    ∃ n, negI32 pr k = .ok n ∧ n.toInt = -k.toInt := by
  refine ⟨-k, by simp [negI32, h], ?_⟩
  have hb := int32_bounds k
  rw [ne_eq, min_iff] at h
  rw [Int32.toInt_neg, Int.bmod_eq_of_le] <;> omega

/-- `subtract_offset` for every offset but the minimum. -/
theorem subtractOffset_eq (pr : Profile) (a : V6) (k : Int32) (h : k ≠ Int32.minValue) :
    subtractOffset pr a k = .ok (if k.toInt < 0
      then addInternal a.topHalf a.bottomHalf 0#64 (BitVec.ofInt 64 (-k.toInt))
      else subInternal a.topHalf a.bottomHalf 0#64 (BitVec.ofInt 64 k.toInt)) := by
  rw [subtractOffset]
  simp only [int32_lt_zero]
  split
  · obtain ⟨n, h1, h2⟩ := negI32_ok pr k h
    rw [h1, Exec.ok_bind, addOffset, if_neg (by rw [int32_lt_zero]; omega), h2]; rfl
  · rfl

/-- `add_offset` for every offset but the minimum. -/
theorem addOffset_eq (pr : Profile) (a : V6) (k : Int32) (h : k ≠ Int32.minValue) :
    addOffset pr a k = .ok (if k.toInt < 0
      then subInternal a.topHalf a.bottomHalf 0#64 (BitVec.ofInt 64 (-k.toInt))
      else addInternal a.topHalf a.bottomHalf 0#64 (BitVec.ofInt 64 k.toInt)) := by
  rw [addOffset]
  simp only [int32_lt_zero]
  split
  · obtain ⟨n, h1, h2⟩ := negI32_ok pr k h
    rw [h1, Exec.ok_bind, subtractOffset, if_neg (by rw [int32_lt_zero]; omega), h2]; rfl
  · rfl

theorem ofInt64_toNat' (z : Int) (h : 0 ≤ z) (h2 : z < 2 ^ 64) : ((BitVec.ofInt 64 z).toNat : Int) = z := by
  rw [BitVec.toNat_ofInt]
  omega

theorem offset_min_checked (a : V6) :
    addOffset .checked a Int32.minValue = .panic .overflow ∧ subtractOffset .checked a Int32.minValue = .panic .overflow := by
  constructor
  · rw [addOffset]; rfl
  · rw [subtractOffset]; rfl

theorem offset_min_wrapping (a : V6) :
    addOffset .wrapping a Int32.minValue = .diverge ∧ subtractOffset .wrapping a Int32.minValue = .diverge := by
  have adm : ∀ x : Int32, Lean.Order.admissible (fun f : Int32 → Exec (Option V6) => f x = .diverge) := by
    intro x
    have := Lean.Order.admissible_pi_apply
      (fun (y : Int32) (r : Exec (Option V6)) => y = x → r = .diverge)
      (fun y => Lean.Order.admissible_flatOrder (b := (Exec.diverge : Exec (Option V6))) _ (fun _ => rfl))
    intro c hc h
    exact this c hc (fun f hf y hy => by subst hy; exact h f hf) x rfl
  exact addOffset.mutual_fixpoint_induct .wrapping a
    (fun f => f Int32.minValue = .diverge) (fun f => f Int32.minValue = .diverge)
    (adm _) (adm _) (fun f hf => hf) (fun f hf => hf)

end V6
end Ripcalc
