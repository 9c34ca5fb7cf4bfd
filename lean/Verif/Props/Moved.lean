import Verif.Spec.Moved
import Verif.Proofs.Rfc
import Verif.Props.Joining
import Verif.Props.Compose
import Verif.Props.Splitting
/-!
# C108: the operations do the same everywhere in the address space, and in both families
-/
namespace Ripcalc
open AddrSpec LawfulIpAddr
section
variable {A B : Type} [IpAddr A] [AddrSpec A] [LawfulIpAddr A] [IpAddr B] [AddrSpec B] [LawfulIpAddr B]
variable {k g h : Nat}

/-! ## Addresses -/

omit [IpAddr A] [LawfulIpAddr A] [IpAddr B] [LawfulIpAddr B] in
theorem Moved.symm {a : A} {b : B} (m : Moved k g h a b) : Moved k h g b a := by
  obtain ⟨h1, h2, x, hx, ha, hb⟩ := m
  exact ⟨h2, h1, x, hx, hb, ha⟩

omit [IpAddr A] [LawfulIpAddr A] [IpAddr B] [LawfulIpAddr B] in
theorem MovedMask.symm {a : A} {b : B} (m : MovedMask k a b) : MovedMask k b a := ⟨fun i hi => (m.1 i hi).symm, m.2.2, m.2.1⟩

omit [IpAddr A] [LawfulIpAddr A] [IpAddr B] [LawfulIpAddr B] in
theorem MovedNet.symm {n : Net A} {m : Net B} (h1 : MovedNet k g h n m) : MovedNet k h g m n :=
  ⟨h1.right, h1.left, h1.base.symm, h1.mask.symm⟩

omit [IpAddr A] [LawfulIpAddr A] [IpAddr B] [LawfulIpAddr B] in
theorem moved_low {a : A} {b : B} (m : Moved k g h a b) {i : Nat} (hi : i < k) : (val a).testBit i = (val b).testBit i := by
  obtain ⟨-, -, x, hx, ha, hb⟩ := m
  rw [ha, hb, Nat.testBit_two_pow_mul_add _ hx, Nat.testBit_two_pow_mul_add _ hx, if_pos hi, if_pos hi]

omit [IpAddr A] [LawfulIpAddr A] [IpAddr B] [LawfulIpAddr B] in
theorem moved_high {a : A} {b : B} (m : Moved k g h a b) {i : Nat} (hi : k ≤ i) : (val a).testBit i = g.testBit (i - k) := by
  obtain ⟨-, -, x, hx, ha, hb⟩ := m
  rw [ha, Nat.testBit_two_pow_mul_add _ hx, if_neg (by omega)]

omit [IpAddr A] [LawfulIpAddr A] [IpAddr B] [LawfulIpAddr B] in
theorem moved_block {a : A} {b : B} (m : Moved k g h a b) : val a / 2 ^ k = g := by
  obtain ⟨-, -, x, hx, ha, hb⟩ := m
  rw [ha, Nat.mul_add_div (Nat.two_pow_pos k), Nat.div_eq_of_lt hx, Nat.add_zero]

/-- A block that contains an address is wholly in the address space. -/
theorem block_room {b : B} (hk : k ≤ width B) (hb : val b / 2 ^ k = h) : 2 ^ k * h + 2 ^ k ≤ 2 ^ width B := by
  have h1 := val_lt b
  have e : 2 ^ width B = 2 ^ k * 2 ^ (width B - k) := by rw [← Nat.pow_add]; congr 1; omega
  have h2 : h < 2 ^ (width B - k) := by
    rw [← hb]
    exact Nat.div_lt_of_lt_mul (by rw [← e]; exact h1)
  rw [e, ← Nat.mul_succ]
  exact Nat.mul_le_mul_left _ h2

omit [IpAddr A] [LawfulIpAddr A] in
/-- Every address of the one block has its counterpart in the other. -/
theorem exists_moved (hk : k ≤ width A) (hk' : k ≤ width B) (hroom : 2 ^ k * h + 2 ^ k ≤ 2 ^ width B) (a : A)
    (ha : val a / 2 ^ k = g) : ∃ b : B, Moved k g h a b := by
  have hx := Nat.mod_lt (val a) (Nat.two_pow_pos k)
  obtain ⟨b, hb⟩ := val_surj (A := B) (2 ^ k * h + val a % 2 ^ k) (by omega)
  refine ⟨b, hk, hk', _, hx, ?_, hb⟩
  rw [← ha, Nat.div_add_mod]

omit [IpAddr A] [LawfulIpAddr A] in
theorem moved_unique {a : A} {b b' : B} (m : Moved k g h a b) (m' : Moved k g h a b') : b = b' := by
  obtain ⟨-, -, x, hx, ha, hb⟩ := m
  obtain ⟨-, -, x', hx', ha', hb'⟩ := m'
  exact val_inj _ _ (by omega)

omit [IpAddr A] [LawfulIpAddr A] in
theorem movedMask_unique {a : A} {b b' : B} (m : MovedMask k a b) (m' : MovedMask k a b') : b = b' := by
  refine addr_ext fun i hi => ?_
  by_cases hk : i < k
  · rw [← m.1 i hk, ← m'.1 i hk]
  · rw [m.2.2 i (by omega) hi, m'.2.2 i (by omega) hi]

/-- In numbers: the bits above are ones. -/
theorem mask_val {a : A} (hk : k ≤ width A) (ha : ∀ i, k ≤ i → i < width A → (val a).testBit i = true) :
    val a = 2 ^ k * (2 ^ (width A - k) - 1) + val a % 2 ^ k := by
  refine Nat.eq_of_testBit_eq fun i => ?_
  rw [Nat.testBit_two_pow_mul_add _ (Nat.mod_lt _ (Nat.two_pow_pos k)), Nat.testBit_mod_two_pow, Nat.testBit_two_pow_sub_one]
  by_cases hi : i < k
  · simp [hi]
  · rw [if_neg hi]
    by_cases hw : i < width A
    · rw [ha i (by omega) hw]
      simp
      omega
    · rw [Nat.testBit_lt_two_pow (Nat.lt_of_lt_of_le (val_lt a) (Nat.pow_le_pow_right (by decide) (by omega)))]
      simp
      omega

theorem mod_eq_of_bits {v w : Nat} (hm : ∀ i, i < k → v.testBit i = w.testBit i) : v % 2 ^ k = w % 2 ^ k := by
  refine Nat.eq_of_testBit_eq fun i => ?_
  rw [Nat.testBit_mod_two_pow, Nat.testBit_mod_two_pow]
  by_cases hi : i < k
  · rw [hm i hi]
  · simp [hi]

omit [IpAddr A] [LawfulIpAddr A] in
theorem exists_movedMask (hk' : k ≤ width B) (a : A) (ha : ∀ i, k ≤ i → i < width A → (val a).testBit i = true) :
    ∃ b : B, MovedMask k a b := by
  have hx := Nat.mod_lt (val a) (Nat.two_pow_pos k)
  have e : 2 ^ width B = 2 ^ k * 2 ^ (width B - k) := by rw [← Nat.pow_add]; congr 1; omega
  obtain ⟨c, hc⟩ : ∃ c, 2 ^ (width B - k) = c + 1 := ⟨2 ^ (width B - k) - 1, by have := Nat.two_pow_pos (width B - k); omega⟩
  obtain ⟨b, hb⟩ := val_surj (A := B) (2 ^ k * (2 ^ (width B - k) - 1) + val a % 2 ^ k) (by
    rw [e, hc, Nat.mul_succ, Nat.add_sub_cancel]
    omega)
  refine ⟨b, fun i hi => ?_, ha, fun i hi hi' => ?_⟩
  · rw [hb, Nat.testBit_two_pow_mul_add _ hx, if_pos hi, Nat.testBit_mod_two_pow]
    simp [hi]
  · rw [hb, Nat.testBit_two_pow_mul_add _ hx, if_neg (by omega), Nat.testBit_two_pow_sub_one]
    simp
    omega

/-! ## Networks -/

omit [IpAddr A] [LawfulIpAddr A] in
theorem movedNet_unique {n : Net A} {m m' : Net B} (h1 : MovedNet k g h n m) (h2 : MovedNet k g h n m') : m = m' :=
  wf_ext h1.right h2.right (moved_unique h1.base h2.base) (movedMask_unique h1.mask h2.mask)

/-- The members of such a network are in the block. -/
theorem member_block {n : Net A} (hm : ∀ i, k ≤ i → i < width A → (val n.subnetMask).testBit i = true)
    (hb : val n.baseAddr / 2 ^ k = g) {a : A} (ha : Member n a) : val a / 2 ^ k = g := by
  rw [← hb]
  refine Nat.eq_of_testBit_eq fun i => ?_
  rw [Nat.testBit_div_two_pow, Nat.testBit_div_two_pow]
  by_cases hi : i + k < width A
  · exact ha _ hi (hm _ (by omega) hi)
  · rw [Nat.testBit_lt_two_pow (Nat.lt_of_lt_of_le (val_lt a) (Nat.pow_le_pow_right (by decide) (by omega))),
      Nat.testBit_lt_two_pow (Nat.lt_of_lt_of_le (val_lt _) (Nat.pow_le_pow_right (by decide) (by omega)))]

omit [IpAddr B] [LawfulIpAddr B] in
theorem MovedNet.block {n : Net A} {m : Net B} (h1 : MovedNet k g h n m) {a : A} (ha : Member n a) : val a / 2 ^ k = g :=
  member_block h1.mask.2.1 (moved_block h1.base) ha

omit [IpAddr A] [LawfulIpAddr A] in
theorem MovedNet.room {n : Net A} {m : Net B} (h1 : MovedNet k g h n m) : 2 ^ k * h + 2 ^ k ≤ 2 ^ width B :=
  block_room h1.base.2.1 (moved_block h1.base.symm)

omit [IpAddr A] [LawfulIpAddr A] in
/-- Every address of a network has its counterpart. -/
theorem MovedNet.partner {n : Net A} {m : Net B} (h1 : MovedNet k g h n m) {a : A} (ha : val a / 2 ^ k = g) :
    ∃ b : B, Moved k g h a b := exists_moved h1.base.1 h1.base.2.1 h1.room a ha

theorem MovedNet.member {n : Net A} {m : Net B} (h1 : MovedNet k g h n m) {a : A} {b : B} (h2 : Moved k g h a b) :
    Member n a ↔ Member m b := by
  have key : ∀ {A B : Type} [IpAddr A] [AddrSpec A] [LawfulIpAddr A] [IpAddr B] [AddrSpec B] [LawfulIpAddr B] {g h : Nat} {n : Net A} {m : Net B},
      MovedNet k g h n m → ∀ {a : A} {b : B}, Moved k g h a b → Member n a → Member m b := by
    intro A B _ _ _ _ _ _ g h n m h1 a b h2 ha i hi hm
    by_cases hk : i < k
    · rw [← moved_low h2 hk, ← moved_low h1.base hk]
      rw [← h1.mask.1 i hk] at hm
      exact ha i (by have := h1.base.1; omega) hm
    · rw [moved_high h2.symm (by omega), moved_high h1.base.symm (by omega)]
  exact ⟨key h1 h2, key h1.symm h2.symm⟩

theorem MovedNet.includes {n n' : Net A} {m m' : Net B} (h1 : MovedNet k g h n m) (h2 : MovedNet k g h n' m') :
    Includes n n' ↔ Includes m m' := by
  have key : ∀ {A B : Type} [IpAddr A] [AddrSpec A] [LawfulIpAddr A] [IpAddr B] [AddrSpec B] [LawfulIpAddr B] {g h : Nat} {n n' : Net A} {m m' : Net B},
      MovedNet k g h n m → MovedNet k g h n' m' → Includes n n' → Includes m m' := by
    intro A B _ _ _ _ _ _ g h n n' m m' h1 h2 hi x hx
    obtain ⟨a, ha⟩ := h2.symm.partner (h2.symm.block hx)
    exact (h1.member ha.symm).mp (hi a ((h2.symm.member ha).mp hx))
  exact ⟨key h1 h2, key h1.symm h2.symm⟩

theorem MovedNet.disjoint {n n' : Net A} {m m' : Net B} (h1 : MovedNet k g h n m) (h2 : MovedNet k g h n' m') :
    Disjoint n n' ↔ Disjoint m m' := by
  have key : ∀ {A B : Type} [IpAddr A] [AddrSpec A] [LawfulIpAddr A] [IpAddr B] [AddrSpec B] [LawfulIpAddr B] {g h : Nat} {n n' : Net A} {m m' : Net B},
      MovedNet k g h n m → MovedNet k g h n' m' → Disjoint n n' → Disjoint m m' := by
    intro A B _ _ _ _ _ _ g h n n' m m' h1 h2 hi x hx
    obtain ⟨a, ha⟩ := h2.symm.partner (h2.symm.block hx.2)
    exact hi a ⟨(h1.symm.member ha).mp hx.1, (h2.symm.member ha).mp hx.2⟩
  exact ⟨key h1 h2, key h1.symm h2.symm⟩

theorem MovedNet.twins {n n' : Net A} {m m' : Net B} (h1 : MovedNet k g h n m) (h2 : MovedNet k g h n' m') :
    Twins n n' ↔ Twins m m' := by
  have key : ∀ {A B : Type} [IpAddr A] [AddrSpec A] [LawfulIpAddr A] [IpAddr B] [AddrSpec B] [LawfulIpAddr B] {g h : Nat} {n n' : Net A} {m m' : Net B},
      MovedNet k g h n m → MovedNet k g h n' m' → Twins n n' → Twins m m' := by
    intro A B _ _ _ _ _ _ g h n n' m m' h1 h2 ⟨he, i, hi, hb, hl, hd⟩
    have hik : i < k := by
      refine Nat.lt_of_not_le fun hki => ?_
      exact (hd i hi).mp (by rw [moved_high h1.base hki, moved_high h2.base hki]) rfl
    have hkB := h1.base.2.1
    refine ⟨movedMask_unique (he ▸ h1.mask) h2.mask, i, by omega, by rw [← h1.mask.1 i hik]; exact hb, fun t ht => ?_, fun t ht => ?_⟩
    · rw [← h1.mask.1 t (by omega)]
      exact hl t ht
    · by_cases htk : t < k
      · rw [← moved_low h1.base htk, ← moved_low h2.base htk]
        exact hd t (by have := h1.base.1; omega)
      · rw [moved_high h1.base.symm (by omega), moved_high h2.base.symm (by omega)]
        simp
        omega
  exact ⟨key h1 h2, key h1.symm h2.symm⟩

theorem MovedNet.keyLt {n n' : Net A} {m m' : Net B} (h1 : MovedNet k g h n m) (h2 : MovedNet k g h n' m') :
    KeyLt n n' ↔ KeyLt m m' := by
  have e1 := mask_val h1.base.1 h1.mask.2.1
  have e2 := mask_val h2.base.1 h2.mask.2.1
  have e3 := mask_val h1.base.2.1 h1.mask.2.2
  have e4 := mask_val h2.base.2.1 h2.mask.2.2
  have f1 := mod_eq_of_bits h1.mask.1
  have f2 := mod_eq_of_bits h2.mask.1
  obtain ⟨-, -, x, hx, ha, hb⟩ := h1.base
  obtain ⟨-, -, x', hx', ha', hb'⟩ := h2.base
  unfold KeyLt
  omega

omit [IpAddr A] [LawfulIpAddr A] in
/-- A network inside the block has its counterpart. -/
theorem exists_movedNet (hk : k ≤ width A) (hk' : k ≤ width B) (hroom : 2 ^ k * h + 2 ^ k ≤ 2 ^ width B) {n : Net A} (hn : WF n)
    (hm : ∀ i, k ≤ i → i < width A → (val n.subnetMask).testBit i = true) (hb : val n.baseAddr / 2 ^ k = g) :
    ∃ m : Net B, MovedNet k g h n m := by
  obtain ⟨b, hb'⟩ := exists_moved (B := B) hk hk' hroom n.baseAddr hb
  obtain ⟨c, hc⟩ := exists_movedMask (B := B) hk' n.subnetMask hm
  have e : (Net.newWithMask b c).baseAddr = b := by
    refine addr_ext fun i hi => ?_
    show (val (IpAddr.and b c)).testBit i = _
    rw [val_and, Nat.testBit_and]
    by_cases hik : i < k
    · rw [← hc.1 i hik, ← moved_low hb' hik]
      cases hx : (val n.subnetMask).testBit i with
      | true => simp
      | false => rw [hn.host_zero i (by omega) hx]; rfl
    · rw [hc.2.2 i (by omega) hi]; simp
  exact ⟨Net.newWithMask b c, hn, newWithMask_wf _ _, e.symm ▸ hb', hc⟩

/-- A network with all its members in the block has ones above. -/
theorem mask_of_block {n : Net A} (hn : WF n) (hb : ∀ a, Member n a → val a / 2 ^ k = g) :
    ∀ i, k ≤ i → i < width A → (val n.subnetMask).testBit i = true := by
  intro i hi hw
  cases hx : (val n.subnetMask).testBit i with
  | true => rfl
  | false =>
    exfalso
    have h0 := hn.host_zero i hw hx
    obtain ⟨a, ha⟩ := val_surj (A := A) (val n.baseAddr ^^^ 2 ^ i) (Nat.xor_lt_two_pow (val_lt _) (Nat.pow_lt_pow_right (by decide) hw))
    have hm : Member n a := by
      intro j hj hmj
      rw [ha, Nat.testBit_xor, Nat.testBit_two_pow]
      have : i ≠ j := by rintro rfl; rw [hx] at hmj; exact absurd hmj (by decide)
      simp [this]
    have h1 := hb a hm
    rw [← hb _ (base_member n)] at h1
    have h2 := congrArg (fun v => v.testBit (i - k)) h1
    simp only [Nat.testBit_div_two_pow, Nat.sub_add_cancel hi, ha, Nat.testBit_xor, Nat.testBit_two_pow, h0] at h2
    simp at h2

theorem exists_movedNet' (hk : k ≤ width A) (hk' : k ≤ width B) (hroom : 2 ^ k * h + 2 ^ k ≤ 2 ^ width B) {n : Net A} (hn : WF n)
    (hb : ∀ a, Member n a → val a / 2 ^ k = g) : ∃ m : Net B, MovedNet k g h n m :=
  exists_movedNet hk hk' hroom hn (mask_of_block hn hb) (hb _ (base_member n))

theorem MovedNet.joins {a b n : Net A} {a' b' : Net B} (h1 : MovedNet k g h a a') (h2 : MovedNet k g h b b') (hj : Joins a b n) :
    ∃ n' : Net B, MovedNet k g h n n' ∧ Joins a' b' n' := by
  obtain ⟨ht, hn, hm⟩ := hj
  obtain ⟨n', h3⟩ := exists_movedNet' h1.base.1 h1.base.2.1 h1.room hn (fun x hx => ((hm x).mp hx).elim h1.block h2.block)
  refine ⟨n', h3, (h1.twins h2).mp ht, h3.right, fun x => ?_⟩
  constructor
  · intro hx
    obtain ⟨y, hy⟩ := h3.symm.partner (h3.symm.block hx)
    exact ((hm y).mp ((h3.symm.member hy).mp hx)).imp (h1.symm.member hy).mpr (h2.symm.member hy).mpr
  · intro hx
    obtain ⟨y, hy⟩ := h3.symm.partner (hx.elim h1.symm.block h2.symm.block)
    exact (h3.symm.member hy).mpr ((hm y).mpr (hx.imp (h1.symm.member hy).mp (h2.symm.member hy).mp))

/-! ## Lists of networks -/

theorem exists_pointwise {α β : Type} {R : α → β → Prop} : ∀ {l : List α}, (∀ a ∈ l, ∃ b, R a b) → ∃ l', Pointwise R l l'
  | [], _ => ⟨[], .nil⟩
  | a :: l, hl => by
    obtain ⟨b, hb⟩ := hl a (by simp)
    obtain ⟨l', hl'⟩ := exists_pointwise (l := l) (fun x hx => hl x (by simp [hx]))
    exact ⟨b :: l', .cons hb hl'⟩

theorem pointwise_symm {α β : Type} {R : α → β → Prop} {S : β → α → Prop} (hRS : ∀ a b, R a b → S b a) {l : List α} {l' : List β}
    (hl : Pointwise R l l') : Pointwise S l' l := by
  induction hl with
  | nil => exact .nil
  | cons hab _ ih => exact .cons (hRS _ _ hab) ih

theorem pointwise_pairwise {α β : Type} {R : α → β → Prop} {S : α → α → Prop} {T : β → β → Prop}
    (hST : ∀ a b c d, R a b → R c d → S a c → T b d) {l : List α} {l' : List β} (hl : Pointwise R l l') (hp : l.Pairwise S) :
    l'.Pairwise T := by
  induction hl with
  | nil => exact .nil
  | cons hab hl ih =>
    obtain ⟨h1, h2⟩ := List.pairwise_cons.mp hp
    refine List.pairwise_cons.mpr ⟨fun d hd => ?_, ih h2⟩
    obtain ⟨c, hc, hcd⟩ := hl.mem_right d hd
    exact hST _ _ _ _ hab hcd (h1 c hc)

theorem moved_mem {l : List (Net A)} {l' : List (Net B)} (hl : Pointwise (MovedNet k g h) l l') {n : Net A} {m : Net B}
    (hnm : MovedNet k g h n m) : n ∈ l ↔ m ∈ l' := by
  constructor
  · intro hn
    obtain ⟨m', hm', h'⟩ := hl.mem n hn
    rw [movedNet_unique hnm h']; exact hm'
  · intro hm
    obtain ⟨n', hn', h'⟩ := hl.mem_right m hm
    rw [movedNet_unique hnm.symm h'.symm]; exact hn'

theorem moved_eq {n n' : Net A} {m m' : Net B} (h1 : MovedNet k g h n m) (h2 : MovedNet k g h n' m') : n = n' ↔ m = m' := by
  constructor
  · rintro rfl; exact movedNet_unique h1 h2
  · rintro rfl; exact movedNet_unique h1.symm h2.symm

theorem joinFirst_moved {l l1 : List (Net A)} {l' : List (Net B)} (hl : Pointwise (MovedNet k g h) l l') (hj : JoinFirst l l1) :
    ∃ l1' : List (Net B), Pointwise (MovedNet k g h) l1 l1' ∧ JoinFirst l' l1' := by
  obtain ⟨a, ha, b, hb, hab, hf, n, hn, hs, hm⟩ := hj
  obtain ⟨a', ha', ra⟩ := hl.mem a ha
  obtain ⟨b', hb', rb⟩ := hl.mem b hb
  obtain ⟨n', rn, hn'⟩ := ra.joins rb hn
  obtain ⟨l1', hl1⟩ := exists_pointwise (R := MovedNet (B := B) k g h) (l := l1) (by
    intro x hx
    rcases (hm x).mp hx with rfl | ⟨hx, -, -⟩
    · exact ⟨n', rn⟩
    · obtain ⟨y, -, hy⟩ := hl.mem x hx
      exact ⟨y, hy⟩)
  refine ⟨l1', hl1, a', ha', b', hb', (ra.keyLt rb).mp hab, ?_, n', hn', pointwise_pairwise (fun _ _ _ _ r1 r2 => (r1.keyLt r2).mp) hl1 hs, ?_⟩
  · intro c' hc' d' hd' hcd ht
    obtain ⟨c, hc, rc⟩ := hl.mem_right c' hc'
    obtain ⟨d, hd, rd⟩ := hl.mem_right d' hd'
    exact (hf c hc d hd ((rc.keyLt rd).mpr hcd) ((rc.twins rd).mpr ht)).imp (moved_eq rc ra).mp (ra.keyLt rc).mp
  · intro y
    constructor
    · intro hy
      obtain ⟨x, hx, r⟩ := hl1.mem_right y hy
      refine ((hm x).mp hx).imp (moved_eq r rn).mp fun ⟨h1, h2, h3⟩ => ⟨(moved_mem hl r).mp h1, fun e => h2 ?_, fun e => h3 ?_⟩
      · exact (moved_eq r ra).mpr e
      · exact (moved_eq r rb).mpr e
    · rintro (rfl | ⟨hy, h2, h3⟩)
      · exact (moved_mem hl1 rn).mp ((hm n).mpr (.inl rfl))
      · obtain ⟨x, hx, r⟩ := hl.mem_right y hy
        refine (moved_mem hl1 r).mp ((hm x).mpr (.inr ⟨hx, fun e => h2 ((moved_eq r ra).mp e), fun e => h3 ((moved_eq r rb).mp e)⟩))

theorem joinAll_moved {l out : List (Net A)} (hj : JoinAll l out) : ∀ {l' : List (Net B)}, Pointwise (MovedNet k g h) l l' →
    ∃ out' : List (Net B), Pointwise (MovedNet k g h) out out' ∧ JoinAll l' out' := by
  induction hj with
  | done hd =>
    intro l' hl
    refine ⟨l', hl, .done fun a' ha' b' hb' ht => ?_⟩
    obtain ⟨a, ha, ra⟩ := hl.mem_right a' ha'
    obtain ⟨b, hb, rb⟩ := hl.mem_right b' hb'
    exact hd a ha b hb ((ra.twins rb).mpr ht)
  | step hf _ ih =>
    intro l' hl
    obtain ⟨l1', hl1, hf'⟩ := joinFirst_moved hl hf
    obtain ⟨out', ho, hj'⟩ := ih hl1
    exact ⟨out', ho, .step hf' hj'⟩

theorem minimized_moved {l out : List (Net A)} {l' : List (Net B)} (hl : Pointwise (MovedNet k g h) l l') (hm : Minimized l out) :
    ∃ out' : List (Net B), Pointwise (MovedNet k g h) out out' ∧ Minimized l' out' := by
  obtain ⟨l0, hs, hm0, hj⟩ := hm
  obtain ⟨l0', hl0⟩ := exists_pointwise (R := MovedNet (B := B) k g h) (l := l0) (by
    intro x hx
    obtain ⟨y, -, hy⟩ := hl.mem x ((hm0 x).mp hx).1
    exact ⟨y, hy⟩)
  obtain ⟨out', ho, hj'⟩ := joinAll_moved hj hl0
  refine ⟨out', ho, l0', pointwise_pairwise (fun _ _ _ _ r1 r2 => (r1.keyLt r2).mp) hl0 hs, fun y => ?_, hj'⟩
  constructor
  · intro hy
    obtain ⟨x, hx, r⟩ := hl0.mem_right y hy
    obtain ⟨h1, h2⟩ := (hm0 x).mp hx
    refine ⟨(moved_mem hl r).mp h1, fun o' ho' hi => ?_⟩
    obtain ⟨o, ho, ro⟩ := hl.mem_right o' ho'
    exact (moved_eq ro r).mp (h2 o ho ((ro.includes r).mpr hi))
  · rintro ⟨hy, h2⟩
    obtain ⟨x, hx, r⟩ := hl.mem_right y hy
    refine (moved_mem hl0 r).mp ((hm0 x).mpr ⟨hx, fun o ho hi => ?_⟩)
    obtain ⟨o', ho', ro⟩ := hl.mem o ho
    exact (moved_eq ro r).mpr (h2 o' ho' ((ro.includes r).mp hi))

/-! ## The operations -/

/-- Minimizing networks that lie in one block and minimizing the networks at the same places in another block, or in a block of the
other family, gives networks at the same places, whatever the masks within the block. -/
theorem C108_minimize (rt rt' : Runtime) (l : List (Net A)) (l' : List (Net B)) (hl : Pointwise (MovedNet k g h) l l')
    (out : List (Net A)) (ho : minimizeSubnets rt l = .ok out) :
    ∃ out' : List (Net B), minimizeSubnets rt' l' = .ok out' ∧ Pointwise (MovedNet k g h) out out' := by
  have hw : ∀ n ∈ l, WF n := fun n hn => by obtain ⟨_, _, r⟩ := hl.mem n hn; exact r.left
  have hw' : ∀ n ∈ l', WF n := fun n hn => by obtain ⟨_, _, r⟩ := hl.mem_right n hn; exact r.right
  obtain ⟨out', h1, h2⟩ := minimized_moved hl ((C88_steps rt l out hw).mp ho)
  exact ⟨out', (C88_steps rt' l' out' hw').mpr h2, h1⟩

omit [IpAddr A] [LawfulIpAddr A] [IpAddr B] [LawfulIpAddr B] in
/-- The counterpart of a CIDR network is a CIDR network with as many host bits. -/
theorem MovedNet.cidr {n : Net A} {m : Net B} (h1 : MovedNet k g h n m) {p : Nat} (hp : IsCidr p n) :
    width A - p ≤ k ∧ IsCidr (width B - (width A - p)) m ∧ width B - (width B - (width A - p)) = width A - p := by
  obtain ⟨hpw, hb⟩ := (hp.1.prefix_iff p).mp hp.2
  have hkA := h1.base.1
  have hkB := h1.base.2.1
  have hle : width A - p ≤ k := by
    by_cases hk : k < width A
    · exact (hb k hk).mp (h1.mask.2.1 k (Nat.le_refl _) hk)
    · omega
  have e : width B - (width B - (width A - p)) = width A - p := by omega
  refine ⟨hle, ⟨h1.right, (h1.right.prefix_iff _).mpr ⟨by omega, fun i hi => ?_⟩⟩, e⟩
  rw [e]
  by_cases hik : i < k
  · rw [← h1.mask.1 i hik]
    exact hb i (by omega)
  · rw [h1.mask.2.2 i (by omega) hi]
    simp
    omega

omit [IpAddr A] [LawfulIpAddr A] in
theorem between_block {a b x : A} (ha : val a / 2 ^ k = g) (hb : val b / 2 ^ k = g) (hx : Between a b x) : val x / 2 ^ k = g := by
  rcases hx with ⟨h1, h2⟩ | ⟨h1, h2⟩
  · have := Nat.div_le_div_right (c := 2 ^ k) h1
    have := Nat.div_le_div_right (c := 2 ^ k) h2
    omega
  · have := Nat.div_le_div_right (c := 2 ^ k) h1
    have := Nat.div_le_div_right (c := 2 ^ k) h2
    omega

omit [IpAddr A] [LawfulIpAddr A] [IpAddr B] [LawfulIpAddr B] in
theorem moved_between {a b x : A} {a' b' x' : B} (ha : Moved k g h a a') (hb : Moved k g h b b') (hx : Moved k g h x x') :
    Between a b x ↔ Between a' b' x' := by
  obtain ⟨-, -, _, -, h1, h2⟩ := ha
  obtain ⟨-, -, _, -, h3, h4⟩ := hb
  obtain ⟨-, -, _, -, h5, h6⟩ := hx
  unfold Between
  omega

/-- The same for converting a range, unless the range ends with the last address of all (see C39). -/
theorem C108_derange (pr pr' : Profile) (a b : A) (a' b' : B) (ha : Moved k g h a a') (hb : Moved k g h b b')
    (htop : ∀ x : B, Between a' b' x → val x ≠ 2 ^ width B - 1) (ns : List (Net A)) (hn : rangeToSubnets pr a b = .ok ns) :
    ∃ ns' : List (Net B), rangeToSubnets pr' a' b' = .ok ns' ∧ Pointwise (MovedNet k g h) ns ns' := by
  have hroom := block_room ha.2.1 (moved_block ha.symm)
  obtain ⟨ms, hms, hc, -, -, hcov⟩ := C39_range_partial pr a b ((C39_returns_iff pr a b).mp ⟨ns, hn⟩)
  rw [hn] at hms
  cases hms
  have hin : ∀ n ∈ ns, ∀ x, Member n x → val x / 2 ^ k = g := fun n hn x hx =>
    between_block (moved_block ha) (moved_block hb) ((hcov x).mp ⟨n, hn, hx⟩)
  obtain ⟨ns2, h2⟩ := exists_pointwise (R := MovedNet (B := B) k g h) (l := ns)
    (fun n hn => exists_movedNet' ha.1 ha.2.1 hroom (by obtain ⟨p, hp⟩ := hc n hn; exact hp.1) (hin n hn))
  obtain ⟨ns', hns', -⟩ := C39_range_partial pr' a' b' htop
  have rt : Runtime := Runtime.reference .checked true
  obtain ⟨out', ho, hp⟩ := C108_minimize rt rt ns ns2 h2 ns (C85_derange_minimal rt pr a b ns hn)
  have := C85_minimize_derange rt pr' a' b' ns' hns' ns2 (fun m hm => by
    obtain ⟨n, hn, r⟩ := h2.mem_right m hm
    obtain ⟨p, hp⟩ := hc n hn
    exact ⟨_, (r.cidr hp).2.1⟩) (fun x => by
    constructor
    · rintro ⟨m, hm, hx⟩
      obtain ⟨n, hn, r⟩ := h2.mem_right m hm
      obtain ⟨y, hy⟩ := r.symm.partner (r.symm.block hx)
      exact (moved_between ha hb hy.symm).mp ((hcov y).mp ⟨n, hn, (r.symm.member hy).mp hx⟩)
    · intro hx
      obtain ⟨y, hy⟩ := exists_moved (A := B) (B := A) ha.2.1 ha.1 (block_room ha.1 (moved_block ha)) x
        (between_block (moved_block ha.symm) (moved_block hb.symm) hx)
      obtain ⟨n, hn, hm⟩ := (hcov y).mpr ((moved_between ha hb hy.symm).mpr hx)
      obtain ⟨m, hm', r⟩ := h2.mem n hn
      exact ⟨m, hm', (r.member hy.symm).mp hm⟩)
  rw [ho] at this
  cases this
  exact ⟨_, hns', hp⟩

/-- The same for the addresses of a network. -/
theorem C108_enumerate (pr pr' : Profile) (n : Net A) (m : Net B) (hnm : MovedNet k g h n m) :
    ∃ xs ys, enumerateNet pr n = .ok xs ∧ enumerateNet pr' m = .ok ys ∧ Pointwise (Moved k g h) xs ys := by
  obtain ⟨xs, h1, h2, h3, -⟩ := C37_enumerate pr n hnm.left
  obtain ⟨ys, g1, g2, g3, -⟩ := C37_enumerate pr' m hnm.right
  refine ⟨xs, ys, h1, g1, ?_⟩
  obtain ⟨zs, hz⟩ := exists_pointwise (R := Moved (B := B) k g h) (l := xs) (fun a ha => hnm.partner (hnm.block ((h2 a).mp ha)))
  have hl : Listing m zs := by
    refine ⟨fun y => ⟨fun hy => ?_, fun hy => ?_⟩, pointwise_pairwise ?_ hz h3⟩
    · obtain ⟨x, hx, r⟩ := hz.mem_right y hy
      exact (hnm.member r).mp ((h2 x).mp hx)
    · obtain ⟨x, r⟩ := hnm.symm.partner (hnm.symm.block hy)
      obtain ⟨y', hy', r'⟩ := hz.mem x ((h2 x).mpr ((hnm.symm.member r).mp hy))
      rw [moved_unique r.symm r']
      exact hy'
    · rintro a b c d ⟨-, -, _, -, e1, e2⟩ ⟨-, -, _, -, e3, e4⟩ hlt
      omega
  rw [Listing.unique (n := m) ⟨g2, g3⟩ hl]
  exact hz

/-! ## Resizing -/

/-- The number read at the network bits below `w`. -/
theorem number_split (v m w : Nat) (hk : k ≤ w) (hm : ∀ i, k ≤ i → i < w → m.testBit i = true) :
    bigEndian 2 ((bitsAt v ((positions w).filter (fun i => m.testBit i))).map Bool.toNat) =
      v % 2 ^ w / 2 ^ k * 2 ^ ((positions k).filter (fun i => m.testBit i)).length +
        bigEndian 2 ((bitsAt v ((positions k).filter (fun i => m.testBit i))).map Bool.toNat) ∧
    ((positions w).filter (fun i => m.testBit i)).length = ((positions k).filter (fun i => m.testBit i)).length + (w - k) ∧
    countBelow w (fun i => !m.testBit i) = countBelow k (fun i => !m.testBit i) := by
  induction w with
  | zero =>
    obtain rfl : k = 0 := by omega
    simp [Nat.mod_one]
  | succ w ih =>
    by_cases hw : k = w + 1
    · subst hw
      rw [Nat.div_eq_of_lt (Nat.mod_lt _ (Nat.two_pow_pos _))]
      simp
    · obtain ⟨i1, i2, i3⟩ := ih (by omega) (fun i h1 h2 => hm i h1 (by omega))
      have hb := hm w (by omega) (by omega)
      rw [positions_succ, List.filter_cons_of_pos hb]
      refine ⟨?_, ?_, ?_⟩
      · show bigEndian 2 ((v.testBit w).toNat :: (bitsAt v ((positions w).filter (fun i => m.testBit i))).map Bool.toNat) = _
        rw [bigEndian_cons, i1]
        have hlen : ((bitsAt v ((positions w).filter (fun i => m.testBit i))).map Bool.toNat).length =
            ((positions k).filter (fun i => m.testBit i)).length + (w - k) := by
          rw [List.length_map, bitsAt, List.length_map, i2]
        rw [hlen, Nat.pow_add]
        have e : v % 2 ^ (w + 1) / 2 ^ k = (v.testBit w).toNat * 2 ^ (w - k) + v % 2 ^ w / 2 ^ k := by
          rw [Nat.mod_pow_succ, ← Nat.toNat_testBit]
          have : 2 ^ w * (v.testBit w).toNat = 2 ^ k * ((v.testBit w).toNat * 2 ^ (w - k)) := by
            rw [Nat.mul_left_comm, ← Nat.pow_add, Nat.mul_comm]
            congr 2
            omega
          rw [this, Nat.add_comm, Nat.mul_add_div (Nat.two_pow_pos k)]
        rw [e, Nat.add_mul, Nat.add_assoc, Nat.mul_assoc, Nat.mul_comm (2 ^ (w - k))]
      · rw [List.length_cons, i2]
        omega
      · rw [countBelow_succ, i3, hb]
        simp

theorem count_low (m : Nat) : ((positions k).filter (fun i => m.testBit i)).length + countBelow k (fun i => !m.testBit i) = k := by
  induction k with
  | zero => simp [positions, countBelow]
  | succ k ih =>
    rw [positions_succ, countBelow_succ, List.filter_cons]
    cases hb : m.testBit k
    · have : ∀ a b : Nat, a + b = k → a + (b + 1) = k + 1 := by intros; omega
      simpa using this _ _ ih
    · have : ∀ a b : Nat, a + b = k → a + 1 + (b + 0) = k + 1 := by intros; omega
      simpa using this _ _ ih

omit [IpAddr A] [LawfulIpAddr A] [IpAddr B] [LawfulIpAddr B] in
theorem movedMask_count {a : A} {b : B} (hk : k ≤ width A) (hk' : k ≤ width B) (hm : MovedMask k a b) :
    hostBitCount b = hostBitCount a := by
  have h1 := (number_split (k := k) 0 (val a) (width A) hk hm.2.1).2.2
  have h2 := (number_split (k := k) 0 (val b) (width B) hk' hm.2.2).2.2
  rw [hostBitCount, hostBitCount, h1, h2]
  exact List.countP_congr fun i hi => by rw [hm.1 i (List.mem_range.mp hi)]

/-- The network number of a network with ones above bit `k`: the number of the block, and the rest. -/
theorem number_parts (hk : k ≤ width A) {n : Net A} (hm : ∀ i, k ≤ i → i < width A → (val n.subnetMask).testBit i = true) :
    hostBitCount n.subnetMask ≤ k ∧ ∃ r, r < 2 ^ (k - hostBitCount n.subnetMask) ∧
      r = bigEndian 2 ((bitsAt (val n.baseAddr) ((positions k).filter (fun i => (val n.subnetMask).testBit i))).map Bool.toNat) ∧
      networkNumber n = val n.baseAddr / 2 ^ k * 2 ^ (k - hostBitCount n.subnetMask) + r := by
  obtain ⟨h1, -, h3⟩ := number_split (k := k) (val n.baseAddr) (val n.subnetMask) (width A) hk hm
  have h4 := count_low (k := k) (val n.subnetMask)
  have e : hostBitCount n.subnetMask = countBelow k (fun i => !(val n.subnetMask).testBit i) := h3
  have e' : k - hostBitCount n.subnetMask = ((positions k).filter (fun i => (val n.subnetMask).testBit i)).length := by omega
  refine ⟨by omega, _, ?_, rfl, ?_⟩
  · refine Nat.lt_of_lt_of_eq (bigEndian_lt (b := 2) ?_) ?_
    · intro d hd
      obtain ⟨x, -, rfl⟩ := List.mem_map.mp hd
      cases x <;> decide
    · rw [List.length_map, bitsAt, List.length_map, e']
  · rw [networkNumber, h1, Nat.mod_eq_of_lt (val_lt _), e']

/-- Counterparts have network numbers with the same rest. -/
theorem MovedNet.number {n : Net A} {m : Net B} (h1 : MovedNet k g h n m) :
    hostBitCount n.subnetMask ≤ k ∧ hostBitCount m.subnetMask = hostBitCount n.subnetMask ∧
    ∃ r, r < 2 ^ (k - hostBitCount n.subnetMask) ∧ networkNumber n = g * 2 ^ (k - hostBitCount n.subnetMask) + r ∧
      networkNumber m = h * 2 ^ (k - hostBitCount n.subnetMask) + r := by
  obtain ⟨a1, r, a2, a3, a4⟩ := number_parts h1.base.1 h1.mask.2.1
  obtain ⟨b1, s, b2, b3, b4⟩ := number_parts h1.base.2.1 h1.mask.2.2
  have e : hostBitCount m.subnetMask = hostBitCount n.subnetMask := movedMask_count h1.base.1 h1.base.2.1 h1.mask
  rw [e] at b2 b4
  rw [moved_block h1.base] at a4
  rw [moved_block h1.base.symm] at b4
  refine ⟨a1, e, r, a2, a4, ?_⟩
  rw [b4, a3, b3]
  have : ∀ (l : List Nat), (∀ i ∈ l, i < k) → (l.filter (fun i => (val m.subnetMask).testBit i)) = l.filter (fun i => (val n.subnetMask).testBit i) :=
    fun l hl => List.filter_congr fun i hi => (h1.mask.1 i (hl i hi)).symm
  have hp : ∀ i ∈ positions k, i < k := fun i hi => by simpa [positions] using hi
  rw [this _ hp]
  congr 3
  exact List.map_congr_left fun i hi => (moved_low h1.base (hp i (List.mem_filter.mp hi).1)).symm

theorem pointwise_of_get {α β : Type} {R : α → β → Prop} : ∀ {l : List α} {l' : List β}, l.length = l'.length →
    (∀ (i : Nat) (hi : i < l.length) (hi' : i < l'.length), R l[i] l'[i]) → Pointwise R l l'
  | [], [], _, _ => .nil
  | a :: l, b :: l', hl, hg => .cons (hg 0 (by simp) (by simp)) (pointwise_of_get (by simpa using hl)
      (fun i hi hi' => hg (i + 1) (by simpa using hi) (by simpa using hi')))

/-- The same for resizing to masks of equal low bits, whatever the masks within the block. -/
theorem C108_resize (pr pr' : Profile) (n : Net A) (m : Net B) (hnm : MovedNet k g h n m) (c : A) (d : B) (hcd : MovedMask k c d) :
    ∃ ns ns' o, resizeNetwork pr n c = .ok (ns, o) ∧ resizeNetwork pr' m d = .ok (ns', o) ∧ Pointwise (MovedNet k g h) ns ns' := by
  obtain ⟨ns, a1, a2, a3, a4, -⟩ := C50_result pr n c hnm.left
  obtain ⟨ns', b1, b2, b3, b4, -⟩ := C50_result pr' m d hnm.right
  obtain ⟨e1, e2, r, hr, e3, e4⟩ := hnm.number
  have f : hostBitCount d = hostBitCount c := movedMask_count hnm.base.1 hnm.base.2.1 hcd
  refine ⟨ns, ns', _, a1, by rw [b1, e2, f], ?_⟩
  rw [e2, f] at b2 b4
  rw [e3] at a4
  rw [e4] at b4
  -- the masks have no more than `k` host bits
  have hck : hostBitCount c ≤ k := by
    have := (number_split (k := k) 0 (val c) (width A) hnm.base.1 hcd.2.1).2.2
    have h2 := count_low (k := k) (val c)
    rw [hostBitCount, this]; omega
  generalize hp : hostBitCount n.subnetMask = p at *
  generalize hq : hostBitCount c = q at *
  have start : ∀ x, (x * 2 ^ (k - p) + r) * 2 ^ p / 2 ^ q = x * 2 ^ (k - q) + r * 2 ^ p / 2 ^ q := by
    intro x
    have e : x * 2 ^ (k - p) * 2 ^ p = 2 ^ q * (x * 2 ^ (k - q)) := by
      rw [Nat.mul_assoc, ← Nat.pow_add, Nat.mul_left_comm, ← Nat.pow_add]
      congr 2
      omega
    rw [Nat.add_mul, e, Nat.mul_add_div (Nat.two_pow_pos q)]
  have fits : r * 2 ^ p / 2 ^ q + 2 ^ (p - q) ≤ 2 ^ (k - q) := by
    by_cases hpq : q ≤ p
    · have e : 2 ^ p = 2 ^ (p - q) * 2 ^ q := by rw [← Nat.pow_add]; congr 1; omega
      have e' : 2 ^ (k - q) = 2 ^ (k - p) * 2 ^ (p - q) := by rw [← Nat.pow_add]; congr 1; omega
      rw [e, ← Nat.mul_assoc, Nat.mul_div_cancel _ (Nat.two_pow_pos q), e', ← Nat.succ_mul]
      exact Nat.mul_le_mul_right _ hr
    · have e : p - q = 0 := by omega
      have : r * 2 ^ p / 2 ^ q < 2 ^ (k - q) := by
        refine Nat.div_lt_of_lt_mul ?_
        rw [← Nat.pow_add]
        have : 2 ^ (q + (k - q)) = 2 ^ (k - p) * 2 ^ p := by rw [← Nat.pow_add]; congr 1; omega
        rw [this]
        exact Nat.mul_lt_mul_of_pos_right hr (Nat.two_pow_pos p)
      rw [e]
      omega
  rw [start] at a4 b4
  generalize r * 2 ^ p / 2 ^ q = s at *
  have hlen : ns.length = ns'.length := by omega
  refine pointwise_of_get hlen fun i hi hi' => ?_
  have ha := congrArg (fun l => l[i]?) a4
  have hb := congrArg (fun l => l[i]?) b4
  simp only [List.getElem?_map, List.getElem?_eq_getElem hi, List.getElem?_eq_getElem hi', Option.map_some] at ha hb
  rw [List.getElem?_range' (by omega)] at ha hb
  simp only [Option.some.injEq, Nat.one_mul] at ha hb
  obtain ⟨w1, m1⟩ := a3 _ (List.getElem_mem hi)
  obtain ⟨w2, m2⟩ := b3 _ (List.getElem_mem hi')
  have hm1 : ∀ t, k ≤ t → t < width A → (val ns[i].subnetMask).testBit t = true := by rw [m1]; exact hcd.2.1
  obtain ⟨-, t, ht, -, hn⟩ := number_parts hnm.base.1 hm1
  rw [m1, hq, ha] at hn
  rw [m1, hq] at ht
  have hblock : val ns[i].baseAddr / 2 ^ k = g := by
    have h1 := congrArg (· / 2 ^ (k - q)) hn
    simp only [Nat.mul_comm _ (2 ^ (k - q)), Nat.add_assoc, Nat.mul_add_div (Nat.two_pow_pos _)] at h1
    rw [Nat.div_eq_of_lt (a := s + i) (by omega), Nat.div_eq_of_lt ht] at h1
    omega
  obtain ⟨o, ro⟩ := exists_movedNet (B := B) hnm.base.1 hnm.base.2.1 hnm.room w1 hm1 hblock
  have hmask : o.subnetMask = d := movedMask_unique ro.mask (m1 ▸ hcd)
  obtain ⟨-, -, t', ht', hn', hm'⟩ := ro.number
  rw [m1, hq] at hn' hm'
  have : o = ns'[i] := by
    refine wf_of_netNum ro.right w2 (hmask.trans m2.symm) ?_
    rw [netNum_eq, netNum_eq, hb, hm']
    omega
  rw [← this]
  exact ro

/-! ## Splitting -/

omit [IpAddr B] [LawfulIpAddr B] in
/-- The allotment at the same place. -/
theorem allotted_moved {b e : Nat} {rs : List (Int × Net A)} (ha : Allotted b rs e) : ∀ {rs' : List (Int × Net B)},
    Pointwise (fun x y => x.1 = y.1 ∧ MovedNet k g h x.2 y.2) rs rs' → ∀ y, b = 2 ^ k * g + y → y ≤ 2 ^ k →
    ∃ z, e = 2 ^ k * g + z ∧ z ≤ 2 ^ k ∧ Allotted (2 ^ k * h + y) rs' (2 ^ k * h + z) := by
  induction ha with
  | nil b =>
    intro rs' hr y hy hk
    cases hr
    exact ⟨y, hy, hk, .nil _⟩
  | @cons c n rest q e hq hc _ ih =>
    intro rs' hr y hy hk
    cases hr with
    | @cons _ r' _ rest' h1 h2 =>
      obtain ⟨c', m⟩ := r'
      obtain ⟨rfl, r⟩ := h1
      obtain ⟨hle, hq', he⟩ := r.cidr hq
      obtain ⟨-, -, x, hx, hb, hb'⟩ := r.base
      have hxy : x = y := by simp only at hb; omega
      subst hxy
      have hfit : x + 2 ^ (width A - q) ≤ 2 ^ k := by
        obtain ⟨a, hab⟩ := val_surj (A := A) (val n.baseAddr + 2 ^ (width A - q) - 1) (by
          have := cidr_end hq
          have := Nat.two_pow_pos (width A - q)
          omega)
        have hp := Nat.two_pow_pos (width A - q)
        have hm : Member n a := (cidr_member_iff hq a).mpr (by omega)
        have := r.block hm
        have h3 := Nat.lt_mul_div_succ (val a) (Nat.two_pow_pos k)
        rw [this, Nat.mul_add] at h3
        simp only at hb
        omega
      obtain ⟨z, hz, hzk, hz'⟩ := ih h2 (x + 2 ^ (width A - q)) (by simp only at hb; omega) hfit
      refine ⟨z, hz, hzk, ?_⟩
      have := Allotted.cons (rest := rest') (e := 2 ^ k * h + z) hq' (c := c) (by rw [he]; exact hc) (by
        rw [he]
        simp only at hb'
        rw [hb', Nat.add_assoc]
        exact hz')
      simp only at hb'
      rw [hb'] at this
      exact this

omit [IpAddr A] [LawfulIpAddr A] in
theorem allotted_wf {b e : Nat} {rs : List (Int × Net A)} (ha : Allotted b rs e) : ∀ r ∈ rs, WF r.2 := by
  induction ha with
  | nil => simp
  | cons hq _ _ ih =>
    intro r hr
    rcases List.mem_cons.mp hr with rfl | hr
    · exact hq.1
    · exact ih r hr

omit [IpAddr A] [LawfulIpAddr A] in
theorem allotted_nil {b e : Nat} (ha : Allotted (A := A) b [] e) : b = e := by cases ha; rfl

omit [IpAddr A] [LawfulIpAddr A] in
theorem allotted_head {b e : Nat} {c : Int} {o : Net A} {rest : List (Int × Net A)} (ha : Allotted b ((c, o) :: rest) e) :
    ∃ q, IsCidr q o ∧ HostBitsFor c (width A - q) := by cases ha; exact ⟨_, ‹_›, ‹_›⟩

omit [IpAddr A] [LawfulIpAddr A] in
theorem Allotted.le {b e : Nat} {rs : List (Int × Net A)} (ha : Allotted b rs e) : b ≤ e := by
  induction ha with
  | nil => exact Nat.le_refl _
  | cons _ _ _ ih => exact Nat.le_trans (Nat.le_add_right _ _) ih

omit [IpAddr A] [LawfulIpAddr A] in
theorem Allotted.lt {b e : Nat} {rs : List (Int × Net A)} (ha : Allotted b rs e) (hne : rs ≠ []) : b < e := by
  cases ha with
  | nil => exact absurd rfl hne
  | @cons c n rest q e hq hc hr =>
    have := hr.le
    have := Nat.two_pow_pos (width A - q)
    omega

theorem allotted_last {b e : Nat} {rs : List (Int × Net A)} (ha : Allotted b rs e) (hne : rs ≠ []) :
    ∃ r ∈ rs, ∀ a, val a + 1 = e → Member r.2 a := by
  induction ha with
  | nil => exact absurd rfl hne
  | @cons c n rest q e hq hc hr ih =>
    cases rest with
    | nil =>
      have := allotted_nil hr
      refine ⟨(c, n), by simp, fun a ha => (cidr_member_iff hq a).mpr ?_⟩
      have := Nat.two_pow_pos (width A - q)
      omega
    | cons r rest =>
      obtain ⟨r', h1, h2⟩ := ih (by simp)
      exact ⟨r', by simp at h1 ⊢; exact .inr h1, h2⟩

theorem perm_pointwise {α β : Type} {R : α → β → Prop} {l m : List α} (hp : l.Perm m) : ∀ {m' : List β}, Pointwise R m m' →
    ∃ l', l'.Perm m' ∧ Pointwise R l l' := by
  induction hp with
  | nil => intro m' hm; exact ⟨m', .refl _, hm⟩
  | cons x _ ih =>
    intro m' hm
    cases hm with
    | cons h1 h2 =>
      obtain ⟨l', p1, p2⟩ := ih h2
      exact ⟨_ :: l', p1.cons _, .cons h1 p2⟩
  | swap x y l =>
    intro m' hm
    cases hm with
    | cons h1 h2 =>
      cases h2 with
      | cons h3 h4 => exact ⟨_, .swap _ _ _, .cons h3 (.cons h1 h4)⟩
  | trans _ _ ih1 ih2 =>
    intro m' hm
    obtain ⟨l1, p1, q1⟩ := ih2 hm
    obtain ⟨l2, p2, q2⟩ := ih1 q1
    exact ⟨l2, p2.trans p1, q2⟩

theorem pointwise_zip {α β γ : Type} {R : α → β → Prop} : ∀ {cs : List γ} {l : List α} {l' : List β}, Pointwise R l l' →
    Pointwise (fun (x : γ × α) (y : γ × β) => x.1 = y.1 ∧ R x.2 y.2) (cs.zip l) (cs.zip l')
  | [], _, _, _ => .nil
  | _ :: _, [], _, .nil => .nil
  | _ :: _, _ :: _, _, .cons h1 h2 => .cons ⟨rfl, h1⟩ (pointwise_zip h2)

theorem round_down {x E : Nat} (hE : E ≤ k) : (2 ^ k * g + x) / 2 ^ E * 2 ^ E = 2 ^ k * g + x / 2 ^ E * 2 ^ E := by
  have e : 2 ^ k = 2 ^ E * 2 ^ (k - E) := by rw [← Nat.pow_add]; congr 1; omega
  rw [e, Nat.mul_assoc, Nat.mul_add_div (Nat.two_pow_pos E), Nat.add_mul, Nat.mul_comm (2 ^ (k - E) * g)]

/-- The lists of networks that splitting can return, at the same places. -/
theorem splitInto_moved {n : Net A} {m : Net B} (hnm : MovedNet k g h n m) {hcs : List Int} {ns : List (Net A)} (hs : SplitInto n hcs ns)
    (hin : ∀ o ∈ ns, ∀ a, Member o a → val a / 2 ^ k = g)
    (hlast : ∀ o ∈ ns, ∀ a, Member o a → ∀ b : B, Moved k g h a b → val b ≠ 2 ^ width B - 1) :
    ∃ ns' : List (Net B), SplitInto m hcs ns' ∧ Pointwise (MovedNet k g h) ns ns' := by
  obtain ⟨hl, rs, E, e, hp, hsort, hhead, ha, he⟩ := hs
  have hmem : ∀ r ∈ rs, r.2 ∈ ns := fun r hr => (List.of_mem_zip (hp.mem_iff.mp hr)).2
  obtain ⟨ns', hns⟩ := exists_pointwise (R := MovedNet (B := B) k g h) (l := ns) (by
    intro o ho
    refine exists_movedNet' hnm.base.1 hnm.base.2.1 hnm.room ?_ (hin o ho)
    obtain ⟨i, hi, rfl⟩ := List.mem_iff_getElem.mp ho
    have : (hcs[i]'(by omega), ns[i]) ∈ rs := by
      rw [hp.mem_iff]
      have := List.getElem_mem (l := hcs.zip ns) (n := i) (by simp; omega)
      rwa [List.getElem_zip] at this
    exact allotted_wf ha _ this)
  obtain ⟨rs', hp', hr⟩ := perm_pointwise hp (pointwise_zip (cs := hcs) hns)
  have hl' : ns'.length = hcs.length := by rw [← hns.length, hl]
  have hsort' : rs'.Pairwise (fun x y => y.1 ≤ x.1) :=
    pointwise_pairwise (fun a b c d r1 r2 hle => by rw [← r1.1, ← r2.1]; exact hle) hr hsort
  obtain ⟨-, -, x, hx, hb, hb'⟩ := hnm.base
  cases rs with
  | nil =>
    cases hr
    refine ⟨ns', ⟨hl', [], 0, val m.baseAddr, hp', .nil, (by simp), ?_, val_lt _⟩, hns⟩
    simpa using Allotted.nil (A := B) (val m.baseAddr)
  | cons r rest =>
    obtain ⟨c, o⟩ := r
    obtain ⟨q, hq, hc⟩ := allotted_head ha
    have hEk : E ≤ k := by
      have h1 := (hostBitsFor_iff _ _).mp (hhead _ rfl)
      have h2 := (hostBitsFor_iff _ _).mp hc
      obtain ⟨m', -, r'⟩ := hns.mem o (hmem (c, o) (by simp))
      have := (r'.cidr hq).1
      simp only at h1
      omega
    rw [hb, round_down hEk] at ha
    have hle := Nat.div_mul_le_self x (2 ^ E)
    obtain ⟨z, hz, hzk, ha'⟩ := allotted_moved ha hr _ rfl (by omega)
    rw [← round_down hEk, ← hb'] at ha'
    refine ⟨ns', ⟨hl', rs', E, _, hp', hsort', ?_, ha', ?_⟩, hns⟩
    · intro r' hr'
      cases hr with
      | cons h1 h2 =>
        cases hr'
        rw [← h1.1]
        exact hhead _ rfl
    · have hroom := hnm.room
      have hpos : e ≠ 0 := by
        have := Allotted.lt ha (by simp)
        omega
      obtain ⟨r', hr', hm'⟩ := allotted_last ha (by simp)
      obtain ⟨a, haa⟩ := val_surj (A := A) (e - 1) (by omega)
      have hma := hm' a (by omega)
      obtain ⟨b, hab⟩ := hnm.partner (hin _ (hmem _ hr') a hma)
      have h1 := hlast _ (hmem _ hr') a hma b hab
      obtain ⟨-, -, y, hy, e1, e2⟩ := hab
      omega

/-- The same for splitting, if the networks lie in the block and the last address of all is not used; of the lists that can be
returned for equal requests, one is at the same places, and for different requests the only one is. -/
theorem C108_split (rt : Runtime) (pr : Profile) (colors : Bool) (n : Net A) (m : Net B) (hnm : MovedNet k g h n m) (hcs : List Int)
    (ns : List (Net A)) (hs : splitSubnet rt n hcs = .ok (some ns)) (hin : ∀ o ∈ ns, ∀ a, Member o a → val a / 2 ^ k = g)
    (hlast : ∀ o ∈ ns, ∀ a, Member o a → ∀ b : B, Moved k g h a b → val b ≠ 2 ^ width B - 1) :
    ∃ ns' : List (Net B), Pointwise (MovedNet k g h) ns ns' ∧
      (∃ rt' : Runtime, rt'.profile = pr ∧ rt'.colorsEnabled = colors ∧ splitSubnet rt' m hcs = .ok (some ns')) ∧
      (hcs.Nodup → ∀ rt' : Runtime, splitSubnet rt' m hcs = .ok (some ns')) := by
  obtain ⟨ns', h1, h2⟩ := splitInto_moved hnm ((C52_exactly rt.profile rt.colorsEnabled n hcs ns).mp ⟨rt, rfl, rfl, hs⟩) hin hlast
  refine ⟨ns', h2, (C52_exactly pr colors m hcs ns').mpr h1, fun hnd rt' => ?_⟩
  obtain ⟨r, hr, -⟩ := C51_requests rt' m hcs
  cases r with
  | none => exact absurd ⟨ns', h1⟩ ((C54_refused rt' m hcs).mp hr)
  | some l =>
    rw [hr, (C52_unique m hcs l ns' ((C52_exactly rt'.profile rt'.colorsEnabled m hcs l).mp ⟨rt', rfl, rfl, hr⟩) h1).2 hnd]

/-! ## Single networks -/

/-- Counterparts contain counterparts of the same addresses and networks, have as many addresses, and their last addresses are
counterparts. -/
theorem C108_network (n o : Net A) (m q : Net B) (hnm : MovedNet k g h n m) (hoq : MovedNet k g h o q) :
    (∀ (a : A) (b : B), Moved k g h a b → n.contains a = m.contains b) ∧ n.isSupersetOf o = m.isSupersetOf q ∧
    n.isSubsetOf o = m.isSubsetOf q ∧ n.addressCount = m.addressCount ∧ n.hostCount = m.hostCount ∧
    ∃ a b, n.lastAddrOfSubnet = .ok a ∧ m.lastAddrOfSubnet = .ok b ∧ Moved k g h a b := by
  have hc : n.addressCount = m.addressCount := by
    rw [addressCount_eq, addressCount_eq, hostBits_eq, hostBits_eq, hnm.number.2.1]
  refine ⟨fun a b hab => Bool.eq_iff_iff.mpr ?_, Bool.eq_iff_iff.mpr ?_, Bool.eq_iff_iff.mpr ?_, hc, by rw [Net.hostCount, Net.hostCount, hc], ?_⟩
  · rw [contains_iff hnm.left.hz, contains_iff hnm.right.hz]
    exact hnm.member hab
  · rw [superset_iff hnm.left hoq.left, superset_iff hnm.right hoq.right]
    exact hnm.includes hoq
  · show o.isSupersetOf n = true ↔ q.isSupersetOf m = true
    rw [superset_iff hoq.left hnm.left, superset_iff hoq.right hnm.right]
    exact hoq.includes hnm
  · obtain ⟨-, a, ha, ha1, ha2⟩ := C25_broadcast n hnm.left
    obtain ⟨-, b, hb, hb1, hb2⟩ := C25_broadcast m hnm.right
    simp only [contains_iff hnm.left.hz] at ha1 ha2
    simp only [contains_iff hnm.right.hz] at hb1 hb2
    refine ⟨a, b, ha, hb, ?_⟩
    obtain ⟨b', hab⟩ := hnm.partner (hnm.block ha1)
    have : b' = b := by
      refine val_inj _ _ (Nat.le_antisymm (hb2 _ ((hnm.member hab).mp ha1)) ?_)
      obtain ⟨a', hba⟩ := hnm.symm.partner (hnm.symm.block hb1)
      have := ha2 _ ((hnm.member hba.symm).mpr hb1)
      obtain ⟨-, -, _, -, _, _⟩ := hab
      obtain ⟨-, -, _, -, _, _⟩ := hba
      omega
    rw [← this]
    exact hab

end

/-! ## IPv4 as a part of IPv6 -/

/-- Every IPv4 address and network has exactly one counterpart for each choice of the other 96 bits of an IPv6 address. -/
theorem C108_ipv4_in_ipv6 (h : Nat) (hh : h < 2 ^ 96) :
    (∀ (a : V4) (b : V6), Moved 32 0 h a b ↔ val b = 2 ^ 32 * h + val a) ∧
    ∀ n : Net V4, WF n → ∃ m : Net V6, MovedNet 32 0 h n m ∧ ∀ m', MovedNet 32 0 h n m' → m' = m := by
  refine ⟨fun a b => ⟨?_, fun hb => ⟨by decide, by decide, val a, val_lt a, by simp, hb⟩⟩, fun n hn => ?_⟩
  · rintro ⟨-, -, x, -, h1, h2⟩
    omega
  · obtain ⟨m, hm⟩ := exists_movedNet (A := V4) (B := V6) (k := 32) (g := 0) (h := h) (by decide) (by decide)
      (by have : width V6 = 128 := rfl; rw [this]; omega) hn (fun i h1 h2 => absurd h2 (Nat.not_lt.mpr h1))
      (Nat.div_eq_of_lt (val_lt n.baseAddr))
    exact ⟨m, hm, fun m' hm' => movedNet_unique hm' hm⟩

/-! ## For all pairs of families -/

theorem C108_network_families : (type_of% (@C108_network V4 V6 _ _ _ _ _ _)) ∧ (type_of% (@C108_network V4 V4 _ _ _ _ _ _)) ∧
    (type_of% (@C108_network V6 V6 _ _ _ _ _ _)) ∧ (type_of% (@C108_network V6 V4 _ _ _ _ _ _)) :=
  ⟨@C108_network V4 V6 _ _ _ _ _ _, @C108_network V4 V4 _ _ _ _ _ _, @C108_network V6 V6 _ _ _ _ _ _, @C108_network V6 V4 _ _ _ _ _ _⟩

theorem C108_minimize_families : (type_of% (@C108_minimize V4 V6 _ _ _ _ _ _)) ∧ (type_of% (@C108_minimize V4 V4 _ _ _ _ _ _)) ∧
    (type_of% (@C108_minimize V6 V6 _ _ _ _ _ _)) ∧ (type_of% (@C108_minimize V6 V4 _ _ _ _ _ _)) :=
  ⟨@C108_minimize V4 V6 _ _ _ _ _ _, @C108_minimize V4 V4 _ _ _ _ _ _, @C108_minimize V6 V6 _ _ _ _ _ _, @C108_minimize V6 V4 _ _ _ _ _ _⟩

theorem C108_derange_families : (type_of% (@C108_derange V4 V6 _ _ _ _ _ _)) ∧ (type_of% (@C108_derange V4 V4 _ _ _ _ _ _)) ∧
    (type_of% (@C108_derange V6 V6 _ _ _ _ _ _)) ∧ (type_of% (@C108_derange V6 V4 _ _ _ _ _ _)) :=
  ⟨@C108_derange V4 V6 _ _ _ _ _ _, @C108_derange V4 V4 _ _ _ _ _ _, @C108_derange V6 V6 _ _ _ _ _ _, @C108_derange V6 V4 _ _ _ _ _ _⟩

theorem C108_enumerate_families : (type_of% (@C108_enumerate V4 V6 _ _ _ _ _ _)) ∧ (type_of% (@C108_enumerate V4 V4 _ _ _ _ _ _)) ∧
    (type_of% (@C108_enumerate V6 V6 _ _ _ _ _ _)) ∧ (type_of% (@C108_enumerate V6 V4 _ _ _ _ _ _)) :=
  ⟨@C108_enumerate V4 V6 _ _ _ _ _ _, @C108_enumerate V4 V4 _ _ _ _ _ _, @C108_enumerate V6 V6 _ _ _ _ _ _, @C108_enumerate V6 V4 _ _ _ _ _ _⟩

theorem C108_resize_families : (type_of% (@C108_resize V4 V6 _ _ _ _ _ _)) ∧ (type_of% (@C108_resize V4 V4 _ _ _ _ _ _)) ∧
    (type_of% (@C108_resize V6 V6 _ _ _ _ _ _)) ∧ (type_of% (@C108_resize V6 V4 _ _ _ _ _ _)) :=
  ⟨@C108_resize V4 V6 _ _ _ _ _ _, @C108_resize V4 V4 _ _ _ _ _ _, @C108_resize V6 V6 _ _ _ _ _ _, @C108_resize V6 V4 _ _ _ _ _ _⟩

theorem C108_split_families : (type_of% (@C108_split V4 V6 _ _ _ _ _ _)) ∧ (type_of% (@C108_split V4 V4 _ _ _ _ _ _)) ∧
    (type_of% (@C108_split V6 V6 _ _ _ _ _ _)) ∧ (type_of% (@C108_split V6 V4 _ _ _ _ _ _)) :=
  ⟨@C108_split V4 V6 _ _ _ _ _ _, @C108_split V4 V4 _ _ _ _ _ _, @C108_split V6 V6 _ _ _ _ _ _, @C108_split V6 V4 _ _ _ _ _ _⟩

/-! ## Concrete cases -/

/-- 10.0.0.0/25 and ::ffff:10.0.0.0/121 have the same place. -/
theorem moved_example1 : MovedNet 32 0 0xFFFF (mk4 0x0A000000#32 0xFFFFFF80#32)
    (Net.newWithMask ⟨0#64, 0x0000FFFF0A000000#64⟩ ⟨0xFFFFFFFFFFFFFFFF#64, 0xFFFFFFFFFFFFFF80#64⟩ : Net V6) :=
  ⟨mk4_wf _ _, newWithMask_wf _ _, ⟨by decide, by decide, 0x0A000000, by decide +kernel, by decide +kernel, by decide +kernel⟩,
    by decide +kernel, by intro i h1 h2; exact absurd h2 (Nat.not_lt.mpr h1),
    fun i h1 h2 => by have := (show ∀ i, i < 128 → 32 ≤ i → (val (⟨0xFFFFFFFFFFFFFFFF#64, 0xFFFFFFFFFFFFFF80#64⟩ : V6)).testBit i = true by decide +kernel); exact this i h2 h1⟩

/-- So do 10.0.0.128/25 and ::ffff:10.0.0.128/121. -/
theorem moved_example2 : MovedNet 32 0 0xFFFF (mk4 0x0A000080#32 0xFFFFFF80#32)
    (Net.newWithMask ⟨0#64, 0x0000FFFF0A000080#64⟩ ⟨0xFFFFFFFFFFFFFFFF#64, 0xFFFFFFFFFFFFFF80#64⟩ : Net V6) :=
  ⟨mk4_wf _ _, newWithMask_wf _ _, ⟨by decide, by decide, 0x0A000080, by decide +kernel, by decide +kernel, by decide +kernel⟩,
    moved_example1.mask⟩

/-- Minimizing the two is to the same effect in both families. -/
example (rt rt' : Runtime) (out : List (Net V4)) (h : minimizeSubnets rt [mk4 0x0A000000#32 0xFFFFFF80#32, mk4 0x0A000080#32 0xFFFFFF80#32] = .ok out) :
    ∃ out' : List (Net V6), minimizeSubnets rt' [Net.newWithMask ⟨0#64, 0x0000FFFF0A000000#64⟩ ⟨0xFFFFFFFFFFFFFFFF#64, 0xFFFFFFFFFFFFFF80#64⟩,
      Net.newWithMask ⟨0#64, 0x0000FFFF0A000080#64⟩ ⟨0xFFFFFFFFFFFFFFFF#64, 0xFFFFFFFFFFFFFF80#64⟩] = .ok out' ∧
      Pointwise (MovedNet 32 0 0xFFFF) out out' :=
  C108_minimize rt rt' _ _ (.cons moved_example1 (.cons moved_example2 .nil)) out h

/-- For a range up to 255.255.255.255 the families differ: it cannot be converted, but its counterpart can. -/
theorem C108_end_differs : rangeToSubnets .checked (⟨0xFFFFFFFE#32⟩ : V4) ⟨0xFFFFFFFF#32⟩ = .panic .unwrapNone ∧
    ∃ ns, rangeToSubnets .checked (⟨0#64, 0x0000FFFFFFFFFFFE#64⟩ : V6) ⟨0#64, 0x0000FFFFFFFFFFFF#64⟩ = .ok ns :=
  ⟨C39_counterexample, (C39_returns_iff _ _ _).mpr fun x hx => by
    have e1 : val (⟨0#64, 0x0000FFFFFFFFFFFE#64⟩ : V6) = 0xFFFFFFFFFFFE := by decide +kernel
    have e2 : val (⟨0#64, 0x0000FFFFFFFFFFFF#64⟩ : V6) = 0xFFFFFFFFFFFF := by decide +kernel
    have hw : width V6 = 128 := rfl
    rw [hw]
    unfold Between at hx
    omega⟩

end Ripcalc
