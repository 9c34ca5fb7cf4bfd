import Verif.Proofs.MinimizeSet
import Verif.Proofs.Comp
/-!
# The merging phase of `minimize_subnets`
-/
set_option linter.unusedSectionVars false
namespace Ripcalc
open AddrSpec LawfulIpAddr

theorem countBelow_succ (w : Nat) (P : Nat → Bool) : countBelow (w + 1) P = countBelow w P + (P w).toNat := by
  rw [countBelow, List.range_succ, List.countP_append, countBelow]
  cases h : P w <;> simp [h]

theorem countBelow_pos {w : Nat} {P : Nat → Bool} {i : Nat} (hi : i < w) (h : P i = true) : 1 ≤ countBelow w P := by
  induction w with
  | zero => omega
  | succ w ih =>
    rw [countBelow_succ]
    by_cases hiw : i = w
    · subst hiw; rw [h]; simp
    · have := ih (by omega); omega

theorem countBelow_le_one (w : Nat) (P : Nat → Bool) :
    countBelow w P ≤ 1 ↔ ∀ i, i < w → ∀ j, j < w → P i = true → P j = true → i = j := by
  induction w with
  | zero => exact ⟨fun _ i hi => absurd hi (by omega), fun _ => by simp [countBelow]⟩
  | succ w ih =>
    rw [countBelow_succ]
    constructor
    · intro h i hi j hj h1 h2
      by_cases hiw : i = w <;> by_cases hjw : j = w
      · omega
      · subst hiw
        have := countBelow_pos (by omega : j < i) h2
        rw [h1] at h; simp at h; omega
      · subst hjw
        have := countBelow_pos (by omega : i < j) h1
        rw [h2] at h; simp at h; omega
      · exact ih.mp (by omega) i (by omega) j (by omega) h1 h2
    · intro h
      have h1 := ih.mpr (fun i hi j hj => h i (by omega) j (by omega))
      cases hb : P w
      · simpa using h1
      · have : countBelow w P = 0 := by
          rcases Nat.eq_zero_or_pos (countBelow w P) with h0 | h0
          · exact h0
          · obtain ⟨i, hi, hp⟩ := List.countP_pos_iff.mp h0
            rw [List.mem_range] at hi
            have := h i (by omega) w (by omega) hp hb
            omega
        rw [this]; simp

section generic
variable {A : Type} [IpAddr A] [AddrSpec A] [LawfulIpAddr A]

/-- The networks have the same mask and differ only in its lowest one, bit `i`. -/
structure Sib (i : Nat) (a b : Net A) : Prop where
  lt : i < width A
  mask : a.subnetMask = b.subnetMask
  bit : (val a.subnetMask).testBit i = true
  low : ∀ t, t < i → (val a.subnetMask).testBit t = false
  bitA : (val a.baseAddr).testBit i = false
  bitB : (val b.baseAddr).testBit i = true
  rest : ∀ t, t < width A → t ≠ i → (val a.baseAddr).testBit t = (val b.baseAddr).testBit t

/-- What replaces a pair. -/
def mergedNet (a b : Net A) : Net A :=
  Net.newWithMask a.baseAddr (IpAddr.and a.subnetMask (IpAddr.negate (IpAddr.xor a.baseAddr b.baseAddr)))

theorem Sib.xor {i : Nat} {a b : Net A} (h : Sib i a b) {t : Nat} (ht : t < width A) :
    (val (IpAddr.xor a.baseAddr b.baseAddr)).testBit t = decide (t = i) := by
  rw [val_xor, Nat.testBit_xor]
  by_cases hti : t = i
  · subst hti; rw [h.bitA, h.bitB]; simp
  · rw [h.rest t ht hti]; simp [hti]

theorem merged_mask {i : Nat} {a b : Net A} (h : Sib i a b) {t : Nat} (ht : t < width A) :
    (val (mergedNet a b).subnetMask).testBit t = ((val a.subnetMask).testBit t && decide (t ≠ i)) := by
  show (val (IpAddr.and a.subnetMask (IpAddr.negate (IpAddr.xor a.baseAddr b.baseAddr)))).testBit t = _
  rw [val_and, Nat.testBit_and, testBit_negate _ _ ht, h.xor ht]
  simp

theorem merged_wf (a b : Net A) : WF (mergedNet a b) := newWithMask_wf _ _

theorem merged_base {i : Nat} {a b : Net A} (ha : WF a) (h : Sib i a b) : (mergedNet a b).baseAddr = a.baseAddr := by
  apply addr_ext
  intro t ht
  show (val (IpAddr.and a.baseAddr (mergedNet a b).subnetMask)).testBit t = _
  rw [val_and, Nat.testBit_and, merged_mask h ht]
  cases hm : (val a.subnetMask).testBit t
  · rw [ha.host_zero t ht hm]; rfl
  · by_cases hti : t = i
    · subst hti; rw [h.bitA]; rfl
    · simp [hti]

theorem merged_member {i : Nat} {a b : Net A} (ha : WF a) (h : Sib i a b) (x : A) :
    Member (mergedNet a b) x ↔ Member a x ∨ Member b x := by
  constructor
  · intro hx
    cases hb : (val x).testBit i
    · left
      intro t ht hm
      by_cases hti : t = i
      · subst hti; rw [hb, h.bitA]
      · rw [hx t ht (by rw [merged_mask h ht, hm]; simp [hti]), merged_base ha h]
    · right
      intro t ht hm
      rw [← h.mask] at hm
      by_cases hti : t = i
      · subst hti; rw [hb, h.bitB]
      · rw [hx t ht (by rw [merged_mask h ht, hm]; simp [hti]), merged_base ha h, h.rest t ht hti]
  · rintro (hx | hx) t ht hm
    · rw [merged_mask h ht, Bool.and_eq_true] at hm
      rw [merged_base ha h, hx t ht hm.1]
    · rw [merged_mask h ht, Bool.and_eq_true, decide_eq_true_eq] at hm
      rw [merged_base ha h, h.rest t ht hm.2, hx t ht (by rw [← h.mask]; exact hm.1)]

theorem Sib.ne {i : Nat} {a b : Net A} (h : Sib i a b) : a ≠ b := by
  rintro rfl
  have := h.bitA
  rw [h.bitB] at this; cases this

theorem merged_ne {i : Nat} {a b : Net A} (h : Sib i a b) : (val (mergedNet a b).subnetMask).testBit i = false := by
  rw [merged_mask h h.lt]; simp

theorem netNum_eq_comp (n : Net A) : netNum n = comp (width A) (val n.subnetMask) (val n.baseAddr) := rfl

theorem wval_congr {a b : Net A} (h : a.subnetMask = b.subnetMask) (x y : Nat) : wval a x y = wval b x y := by
  simp only [wval, mbits, netBits, hostBits, h]

theorem netBits_congr {a b : Net A} (h : a.subnetMask = b.subnetMask) : netBits a = netBits b := by
  simp only [netBits, mbits, h]

theorem wval_net_inj (n : Net A) {x y : Nat} (hx : x < 2 ^ netBits n) (hy : y < 2 ^ netBits n) (h : wval n x 0 = wval n y 0) : x = y := by
  have h1 := wval_lt_net n 0 hx hy
  have h2 := wval_lt_net n 0 hy hx
  omega

theorem Sib.netNum {i : Nat} {a b : Net A} (h : Sib i a b) : netNum b = netNum a + 1 := by
  rw [netNum_eq_comp, netNum_eq_comp, ← h.mask,
    comp_set h.lt h.bit h.bitA h.bitB (fun t ht hti _ => h.rest t ht hti)]
  have : cntb 0 (val a.subnetMask) = cntb i (val a.subnetMask) :=
    (cntb_eq_iff _ (Nat.zero_le i)).mpr (fun t _ ht => h.low t ht)
  rw [← this, cntb_zero, Nat.pow_zero]

/-- Adjacent networks differing in one bit are siblings. -/
theorem sib_of_adjacent {a b : Net A} (ha : WF a) (hb : WF b) (hm : a.subnetMask = b.subnetMask) (hn : netNum b = netNum a + 1)
    (h1 : IpAddr.countOnes (IpAddr.xor a.baseAddr b.baseAddr) ≤ 1) : ∃ i, Sib i a b := by
  rw [countOnes_eq, countBelow_le_one] at h1
  have hx : ∀ t, (val (IpAddr.xor a.baseAddr b.baseAddr)).testBit t = true ↔ (val a.baseAddr).testBit t ≠ (val b.baseAddr).testBit t := by
    intro t
    rw [val_xor, Nat.testBit_xor]
    cases (val a.baseAddr).testBit t <;> cases (val b.baseAddr).testBit t <;> simp
  have hex : ∃ i, i < width A ∧ (val a.baseAddr).testBit i ≠ (val b.baseAddr).testBit i := by
    apply Classical.byContradiction
    intro hno
    have hb' : a.baseAddr = b.baseAddr := addr_ext fun i hi => Classical.byContradiction fun hne => hno ⟨i, hi, hne⟩
    rw [netNum_eq_comp, netNum_eq_comp, hb', hm] at hn
    omega
  obtain ⟨i, hi, hd⟩ := hex
  have hrest : ∀ t, t < width A → t ≠ i → (val a.baseAddr).testBit t = (val b.baseAddr).testBit t := by
    intro t ht hti
    apply Classical.byContradiction
    intro hne
    exact hti (h1 t ht i hi ((hx t).mpr hne) ((hx i).mpr hd))
  have hbit : (val a.subnetMask).testBit i = true := by
    cases hmi : (val a.subnetMask).testBit i
    · exfalso
      apply hd
      rw [ha.host_zero i hi hmi, hb.host_zero i hi (by rw [← hm]; exact hmi)]
    · rfl
  rw [netNum_eq_comp, netNum_eq_comp, ← hm] at hn
  have hpos := Nat.two_pow_pos (cntb i (val a.subnetMask))
  cases hai : (val a.baseAddr).testBit i
  · have hbi : (val b.baseAddr).testBit i = true := by
      cases hbi : (val b.baseAddr).testBit i
      · rw [hai, hbi] at hd; exact absurd rfl hd
      · rfl
    rw [comp_set hi hbit hai hbi (fun t ht hti _ => hrest t ht hti)] at hn
    have h0 : cntb i (val a.subnetMask) = 0 := by
      rcases Nat.eq_zero_or_pos (cntb i (val a.subnetMask)) with h0 | h0
      · exact h0
      · have := Nat.one_lt_two_pow (n := cntb i (val a.subnetMask)) (by omega)
        omega
    refine ⟨i, hi, hm, hbit, ?_, hai, hbi, hrest⟩
    intro t ht
    exact (cntb_eq_iff _ (Nat.zero_le i)).mp (by rw [h0, cntb_zero]) t (Nat.zero_le _) ht
  · have hbi : (val b.baseAddr).testBit i = false := by
      cases hbi : (val b.baseAddr).testBit i
      · rfl
      · rw [hai, hbi] at hd; exact absurd rfl hd
    rw [comp_set hi hbit hbi hai (fun t ht hti _ => (hrest t ht hti).symm)] at hn
    omega

theorem Sib.countOnes {i : Nat} {a b : Net A} (h : Sib i a b) : IpAddr.countOnes (IpAddr.xor a.baseAddr b.baseAddr) ≤ 1 := by
  rw [countOnes_eq, countBelow_le_one]
  intro s hs t ht h1 h2
  rw [h.xor hs, decide_eq_true_eq] at h1
  rw [h.xor ht, decide_eq_true_eq] at h2
  omega

theorem tryMerge_sib {i : Nat} {a b : Net A} (ha : WF a) (hb : WF b) (h : Sib i a b) : tryMerge a b = .ok (some (mergedNet a b)) := by
  have h1 : (mergedNet a b).isSupersetOf a = true :=
    (superset_iff (merged_wf a b) ha).mpr fun x hx => (merged_member ha h x).mpr (.inl hx)
  have h2 : (mergedNet a b).isSupersetOf b = true :=
    (superset_iff (merged_wf a b) hb).mpr fun x hx => (merged_member ha h x).mpr (.inr hx)
  rw [tryMerge]
  rw [if_neg (by have := h.countOnes; omega)]
  show (do Exec.assert ((mergedNet a b).isSupersetOf a); Exec.assert ((mergedNet a b).isSupersetOf b); pure (some (mergedNet a b))) = _
  rw [h1, h2]; rfl

/-- One step of the inner loop. -/
theorem mergeInner_cons (pr : Profile) {a b : Net A} (ha : WF a) (hb : WF b) (hlt : KeyLt a b) (rest : List (Net A)) :
    ((∃ i, Sib i a b) → mergeInner pr a (b :: rest) = .ok (some (b, mergedNet a b))) ∧
    ((¬ ∃ i, Sib i a b) → mergeInner pr a (b :: rest) = mergeInner pr a rest) := by
  rw [mergeInner]
  by_cases hm : a.subnetMask = b.subnetMask
  · rw [if_neg (fun h => h hm)]
    have hbase : val a.baseAddr < val b.baseAddr := by
      rw [KeyLt, hm] at hlt; omega
    have hnb := netNum_lt b
    have hna := netNum_lt a
    rw [← netBits_congr hm] at hnb
    have hnum : netNum a < netNum b := by
      rw [base_eq_wval ha.hz, base_eq_wval hb.hz, ← wval_congr hm, wval_lt_net a 0 hna hnb] at hbase
      exact hbase
    obtain ⟨nb, hnx, hnv⟩ := (nextSubnet_spec pr ha.hz).2 (by omega)
    have hadj : nb = b.baseAddr ↔ netNum b = netNum a + 1 := by
      constructor
      · rintro rfl
        rw [base_eq_wval hb.hz, ← wval_congr hm] at hnv
        exact wval_net_inj a hnb (by omega) hnv
      · intro h
        apply val_inj
        rw [hnv, base_eq_wval hb.hz, ← wval_congr hm, h]
    simp only [hnx, Exec.ok_bind]
    by_cases hab : nb = b.baseAddr
    · rw [if_neg (by simpa using hab)]
      by_cases hc : IpAddr.countOnes (IpAddr.xor a.baseAddr b.baseAddr) ≤ 1
      · obtain ⟨i, hs⟩ := sib_of_adjacent ha hb hm (hadj.mp hab) hc
        rw [tryMerge_sib ha hb hs]
        exact ⟨fun _ => rfl, fun h => absurd ⟨i, hs⟩ h⟩
      · have : tryMerge a b = .ok none := by rw [tryMerge, if_pos (by omega)]; rfl
        rw [this]
        exact ⟨fun ⟨i, h⟩ => absurd h.countOnes hc, fun _ => rfl⟩
    · rw [if_pos (by simpa using hab)]
      exact ⟨fun ⟨i, h⟩ => absurd (hadj.mpr h.netNum) hab, fun _ => rfl⟩
  · rw [if_pos hm]
    exact ⟨fun ⟨i, h⟩ => absurd h.mask hm, fun _ => rfl⟩

/-- The inner loop finds a sibling or there is none. -/
theorem mergeInner_spec {a : Net A} (ha : WF a) (l : List (Net A)) (hw : AllWF l) (hlt : ∀ b ∈ l, KeyLt a b) :
    ∃ r, (∀ pr, mergeInner pr a l = .ok r) ∧
      match r with
      | none => ∀ b ∈ l, ¬ ∃ i, Sib i a b
      | some (b, n) => b ∈ l ∧ (∃ i, Sib i a b) ∧ n = mergedNet a b := by
  induction l with
  | nil => exact ⟨none, fun _ => rfl, fun b hb => absurd hb (by simp)⟩
  | cons b l ih =>
    obtain ⟨r, h1, h2⟩ := ih (fun n hn => hw n (List.mem_cons_of_mem _ hn)) (fun n hn => hlt n (List.mem_cons_of_mem _ hn))
    have hwb := hw b List.mem_cons_self
    have hltb := hlt b List.mem_cons_self
    by_cases hs : ∃ i, Sib i a b
    · exact ⟨some (b, mergedNet a b), fun pr => (mergeInner_cons pr ha hwb hltb l).1 hs, List.mem_cons_self, hs, rfl⟩
    · refine ⟨r, fun pr => by rw [(mergeInner_cons pr ha hwb hltb l).2 hs, h1 pr], ?_⟩
      match r, h2 with
      | none, h2 =>
        intro c hc
        rcases List.mem_cons.mp hc with rfl | hc
        · exact hs
        · exact h2 c hc
      | some (c, n), h2 => exact ⟨List.mem_cons_of_mem _ h2.1, h2.2⟩

/-- The outer loop finds a pair of siblings or there is none. -/
theorem mergeOuter_spec (l : List (Net A)) (hw : AllWF l) (hs : l.Pairwise KeyLt) :
    ∃ r, (∀ pr, mergeOuter pr l = .ok r) ∧
      match r with
      | none => ∀ a ∈ l, ∀ b ∈ l, ¬ ∃ i, Sib i a b
      | some (a, b, n) => a ∈ l ∧ b ∈ l ∧ (∃ i, Sib i a b) ∧ n = mergedNet a b := by
  induction l with
  | nil => exact ⟨none, fun _ => rfl, fun b hb => absurd hb (by simp)⟩
  | cons a l ih =>
    have hwa := hw a List.mem_cons_self
    have hwl : AllWF l := fun n hn => hw n (List.mem_cons_of_mem _ hn)
    rw [List.pairwise_cons] at hs
    obtain ⟨r, h1, h2⟩ := ih hwl hs.2
    obtain ⟨r', h1', h2'⟩ := mergeInner_spec hwa l hwl hs.1
    match r', h1', h2' with
    | some (b, n), h1', h2' =>
      exact ⟨some (a, b, n), fun pr => by simp [mergeOuter, h1' pr], List.mem_cons_self, List.mem_cons_of_mem _ h2'.1, h2'.2⟩
    | none, h1', h2' =>
      refine ⟨r, fun pr => by simp [mergeOuter, h1' pr, h1 pr], ?_⟩
      match r, h2 with
      | some (x, y, n), h2 => exact ⟨List.mem_cons_of_mem _ h2.1, List.mem_cons_of_mem _ h2.2.1, h2.2.2⟩
      | none, h2 =>
        rintro x hx y hy ⟨i, hsib⟩
        rcases List.mem_cons.mp hx with rfl | hx' <;> rcases List.mem_cons.mp hy with rfl | hy'
        · exact hsib.ne rfl
        · exact h2' y hy' ⟨i, hsib⟩
        · have hk := hs.1 x hx'
          have h3 := hsib.netNum
          have hle : val x.baseAddr < val y.baseAddr := by
            have hb := netNum_lt y
            rw [base_eq_wval (hwl x hx').hz, base_eq_wval hwa.hz, wval_congr hsib.mask, wval_lt_net y 0 (by omega) hb]
            omega
          rw [KeyLt] at hk
          omega
        · exact h2 x hx' y hy' ⟨i, hsib⟩

end generic
end Ripcalc
