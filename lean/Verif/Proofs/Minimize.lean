import Verif.Proofs.MinimizeMerge
/-!
# `minimize_subnets`
-/
set_option linter.unusedSectionVars false
namespace Ripcalc
open AddrSpec LawfulIpAddr

/-- Two loops in lock step, both terminating. -/
theorem loopM_sim {σ ρ σ' ρ' : Type} {step : σ → Exec (σ ⊕ ρ)} {step' : σ' → Exec (σ' ⊕ ρ')} (R : σ → σ' → Prop) (Q : ρ → ρ' → Prop)
    (μ : σ → Nat)
    (h : ∀ s s', R s s' → (∃ t t', step s = .ok (.inl t) ∧ step' s' = .ok (.inl t') ∧ R t t' ∧ μ t < μ s) ∨
      (∃ r r', step s = .ok (.inr r) ∧ step' s' = .ok (.inr r') ∧ Q r r'))
    (s : σ) (s' : σ') (hs : R s s') : ∃ r r', loopM step s = .ok r ∧ loopM step' s' = .ok r' ∧ Q r r' := by
  generalize hn : μ s = n
  induction n using Nat.strongRecOn generalizing s s' with
  | ind n ih =>
    rcases h s s' hs with ⟨t, t', h1, h2, h3, h4⟩ | ⟨r, r', h1, h2, h3⟩
    · obtain ⟨r, r', h5, h6, h7⟩ := ih (μ t) (hn ▸ h4) t t' h3 rfl
      refine ⟨r, r', ?_, ?_, h7⟩
      · rw [loopM, h1]; exact h5
      · rw [loopM, h2]; exact h6
    · exact ⟨r, r', by rw [loopM, h1]; rfl, by rw [loopM, h2]; rfl, h3⟩

section generic
variable {A : Type} [IpAddr A] [AddrSpec A] [LawfulIpAddr A]

/-- The set after one merge. -/
def replaced (S : List (Net A)) (a b : Net A) : List (Net A) := setInsert (mergedNet a b) (setRemove b (setRemove a S))

theorem mem_replaced {S : List (Net A)} {a b x : Net A} : x ∈ replaced S a b ↔ x = mergedNet a b ∨ (x ∈ S ∧ x ≠ a ∧ x ≠ b) := by
  rw [replaced, mem_setInsert, mem_setRemove, mem_setRemove, and_assoc]

theorem nodup_replaced {S : List (Net A)} (a b : Net A) (h : S.Nodup) : (replaced S a b).Nodup :=
  nodup_setInsert (nodup_setRemove (nodup_setRemove h))

theorem wf_replaced {S : List (Net A)} (a b : Net A) (h : AllWF S) : AllWF (replaced S a b) := by
  intro x hx
  rcases mem_replaced.mp hx with rfl | hx
  · exact merged_wf a b
  · exact h x hx.1

theorem covers_replaced {S : List (Net A)} {a b : Net A} {i : Nat} (hw : AllWF S) (ha : a ∈ S) (hb : b ∈ S) (h : Sib i a b) (x : A) :
    (∃ n ∈ replaced S a b, Member n x) ↔ ∃ n ∈ S, Member n x := by
  constructor
  · rintro ⟨n, hn, hx⟩
    rcases mem_replaced.mp hn with rfl | hn
    · rcases (merged_member (hw a ha) h x).mp hx with hx | hx
      · exact ⟨a, ha, hx⟩
      · exact ⟨b, hb, hx⟩
    · exact ⟨n, hn.1, hx⟩
  · rintro ⟨n, hn, hx⟩
    by_cases hna : n = a
    · exact ⟨_, mem_replaced.mpr (.inl rfl), (merged_member (hw a ha) h x).mpr (.inl (hna ▸ hx))⟩
    · by_cases hnb : n = b
      · exact ⟨_, mem_replaced.mpr (.inl rfl), (merged_member (hw a ha) h x).mpr (.inr (hnb ▸ hx))⟩
      · exact ⟨n, mem_replaced.mpr (.inr ⟨hn, hna, hnb⟩), hx⟩

theorem length_replaced {S : List (Net A)} {a b : Net A} {i : Nat} (hn : S.Nodup) (ha : a ∈ S) (hb : b ∈ S) (h : Sib i a b) :
    (replaced S a b).length < S.length := by
  have h1 := length_setRemove_lt hn ha
  have h2 := length_setRemove_lt (nodup_setRemove (x := a) hn) (mem_setRemove.mpr ⟨hb, Ne.symm h.ne⟩)
  have h3 := length_setInsert_le (mergedNet a b) (setRemove b (setRemove a S))
  rw [replaced]
  omega

theorem perm_replaced {S S' : List (Net A)} (a b : Net A) (hn : S.Nodup) (hp : S'.Perm S) : (replaced S' a b).Perm (replaced S a b) := by
  rw [List.perm_ext_iff_of_nodup (nodup_replaced a b (hn.perm hp.symm)) (nodup_replaced a b hn)]
  intro x
  rw [mem_replaced, mem_replaced, hp.mem_iff]

theorem sorted_perm (rt : Runtime) (t : Nat) {S S' : List (Net A)} (hp : S'.Perm S) :
    (rt.sortUnstable netKeyLe (rt.hashIter t S')).Perm S :=
  (rt.sortUnstable_perm _ _).trans ((rt.hashIter_perm t S').trans hp)

theorem sorted_same (rt rt' : Runtime) (t t' : Nat) {S S' : List (Net A)} (hw : AllWF S) (hp : S'.Perm S) :
    rt'.sortUnstable netKeyLe (rt'.hashIter t' S') = rt.sortUnstable netKeyLe (rt.hashIter t S) := by
  have h1 := sorted_perm rt' t' hp
  have h2 := sorted_perm rt t (.refl S)
  exact sort_unique (fun n hn => hw n (h1.mem_iff.mp hn)) (h1.trans h2.symm) (sorted_sort rt' _) (sorted_sort rt _)

/-- The result of one round. -/
def roundResult (t : Nat) (S : List (Net A)) : Option (Net A × Net A) → (Nat × List (Net A)) ⊕ (Nat × List (Net A))
  | none => .inr (t + 1, S)
  | some (a, b) => .inl (t + 1, replaced S a b)

theorem minimizeStep_spec {S : List (Net A)} (hw : AllWF S) (hn : S.Nodup) :
    ∃ r, (∀ (rt : Runtime) t S', S'.Perm S → minimizeStep rt (t, S') = .ok (roundResult t S' r)) ∧
      match r with
      | none => ∀ a ∈ S, ∀ b ∈ S, ¬ ∃ i, Sib i a b
      | some (a, b) => a ∈ S ∧ b ∈ S ∧ ∃ i, Sib i a b := by
  let ref := Runtime.reference .checked true
  have hp := sorted_perm ref 0 (.refl S)
  have hw' : AllWF (ref.sortUnstable netKeyLe (ref.hashIter 0 S)) := fun n hn => hw n (hp.mem_iff.mp hn)
  obtain ⟨r, h1, h2⟩ := mergeOuter_spec (ref.sortUnstable netKeyLe (ref.hashIter 0 S)) hw'
    (sort_nodup_lt ref (fun n hn => hw n ((ref.hashIter_perm 0 S).mem_iff.mp hn)) (hn.perm (ref.hashIter_perm 0 S).symm))
  match r, h1, h2 with
  | none, h1, h2 =>
    refine ⟨none, fun rt t S' hS => ?_, fun a ha b hb => h2 a (hp.mem_iff.mpr ha) b (hp.mem_iff.mpr hb)⟩
    rw [minimizeStep, sorted_same ref rt 0 t hw hS, h1]; rfl
  | some (a, b, n), h1, h2 =>
    refine ⟨some (a, b), fun rt t S' hS => ?_, hp.mem_iff.mp h2.1, hp.mem_iff.mp h2.2.1, h2.2.2.1⟩
    rw [minimizeStep, sorted_same ref rt 0 t hw hS, h1, h2.2.2.2]; rfl

/-- What the result has in common with the set of networks the merging starts with. -/
structure MinResult (I : List (Net A) → Prop) (S0 S : List (Net A)) : Prop where
  inv : I S
  wf : AllWF S
  nodup : S.Nodup
  covers : ∀ a : A, (∃ n ∈ S, Member n a) ↔ ∃ n ∈ S0, Member n a
  len : S.length ≤ S0.length
  noSib : ∀ a ∈ S, ∀ b ∈ S, ¬ ∃ i, Sib i a b

theorem mergeLoop_spec (I : List (Net A) → Prop)
    (hI : ∀ S a b i, AllWF S → S.Nodup → I S → a ∈ S → b ∈ S → Sib i a b → I (replaced S a b))
    (S0 S0' : List (Net A)) (hp : S0'.Perm S0) (hw : AllWF S0) (hn : S0.Nodup) (h0 : I S0) (rt rt' : Runtime) :
    ∃ t t' S S', loopM (minimizeStep rt) (0, S0) = .ok (t, S) ∧ loopM (minimizeStep rt') (0, S0') = .ok (t', S') ∧ S'.Perm S ∧
      MinResult I S0 S := by
  have key := loopM_sim (step := minimizeStep (A := A) rt) (step' := minimizeStep (A := A) rt')
    (fun s s' => s'.2.Perm s.2 ∧ I s.2 ∧ AllWF s.2 ∧ s.2.Nodup ∧ (∀ a : A, (∃ n ∈ s.2, Member n a) ↔ ∃ n ∈ S0, Member n a) ∧
      s.2.length ≤ S0.length)
    (fun r r' => r'.2.Perm r.2 ∧ MinResult I S0 r.2) (fun s => s.2.length) ?_ (0, S0) (0, S0')
    ⟨hp, h0, hw, hn, fun _ => Iff.rfl, Nat.le_refl _⟩
  · obtain ⟨r, r', h1, h2, h3, h4⟩ := key
    exact ⟨r.1, r'.1, r.2, r'.2, h1, h2, h3, h4⟩
  · rintro ⟨t, S⟩ ⟨t', S'⟩ ⟨h1, h2, h3, h4, h5, h6⟩
    obtain ⟨r, h7, h8⟩ := minimizeStep_spec h3 h4
    have e1 := h7 rt t S (.refl S)
    have e2 := h7 rt' t' S' h1
    match r, h8 with
    | none, h8 => exact .inr ⟨_, _, e1, e2, h1, ⟨h2, h3, h4, h5, h6, h8⟩⟩
    | some (a, b), h8 =>
      obtain ⟨ha, hb, i, hs⟩ := h8
      have hl : (replaced S a b).length < S.length := length_replaced h4 ha hb hs
      have h6 : S.length ≤ S0.length := h6
      refine .inl ⟨_, _, e1, e2, ⟨perm_replaced a b h4 h1, hI S a b i h3 h4 h2 ha hb hs, wf_replaced a b h3, nodup_replaced a b h4,
        fun x => ?_, ?_⟩, hl⟩
      · rw [← h5 x]; exact covers_replaced h3 ha hb hs x
      · show (replaced S a b).length ≤ _
        omega

/-- `minimize_subnets` on two lists with the same elements and two platforms. -/
theorem minimize_spec (I : List (Net A) → Prop)
    (hI : ∀ S a b i, AllWF S → S.Nodup → I S → a ∈ S → b ∈ S → Sib i a b → I (replaced S a b))
    (rt rt' : Runtime) (l l' : List (Net A)) (hw : AllWF l) (hmem : ∀ n, n ∈ l' ↔ n ∈ l) (h0 : I (eliminated rt l)) :
    ∃ out S, minimizeSubnets rt l = .ok out ∧ minimizeSubnets rt' l' = .ok out ∧ out.Perm S ∧ out.Pairwise KeyLt ∧
      MinResult I (eliminated rt l) S := by
  have hw' : AllWF l' := fun n hn => hw n ((hmem n).mp hn)
  have hp : (eliminated rt' l').Perm (eliminated rt l) := by
    rw [List.perm_ext_iff_of_nodup (nodup_eliminated _ _) (nodup_eliminated _ _)]
    intro x
    rw [mem_eliminated rt' hw', mem_eliminated rt hw]
    simp only [hmem]
  have hwe : AllWF (eliminated rt l) := fun n hn => hw n ((mem_eliminated rt hw n).mp hn).1
  obtain ⟨t, t', S, S', h1, h2, h3, h4⟩ := mergeLoop_spec I hI _ _ hp hwe (nodup_eliminated rt l) h0 rt rt'
  refine ⟨rt.sortUnstable netKeyLe (rt.hashIter t S), S, ?_, ?_, sorted_perm rt t (.refl S), ?_, h4⟩
  · rw [minimizeSubnets]
    show (loopM (minimizeStep rt) (0, eliminated rt l) >>= _) = _
    rw [h1]; rfl
  · rw [minimizeSubnets]
    show (loopM (minimizeStep rt') (0, eliminated rt' l') >>= _) = _
    rw [h2]
    show Exec.ok (rt'.sortUnstable netKeyLe (rt'.hashIter t' S')) = _
    rw [sorted_same rt rt' t t' h4.wf h3]
  · exact sort_nodup_lt rt (fun n hn => h4.wf n ((rt.hashIter_perm t S).mem_iff.mp hn)) (h4.nodup.perm (rt.hashIter_perm t S).symm)

/-! ## Masks obtained from one another by clearing low bits -/

theorem inChain_merged {M : Nat} {a b : Net A} {i : Nat} (ha : InChain M a) (h : Sib i a b) : InChain M (mergedNet a b) := by
  obtain ⟨j, hj, hm⟩ := ha
  have hi := h.lt
  refine ⟨i + 1, by omega, fun t ht => ?_⟩
  rw [merged_mask h ht, hm t ht]
  have hbit := h.bit
  rw [hm i hi, Bool.and_eq_true, decide_eq_true_eq] at hbit
  rcases Nat.lt_trichotomy t i with hlt | heq | hgt
  · have := h.low t hlt
    rw [hm t ht] at this
    rw [this]
    have : decide (i + 1 ≤ t) = false := by simp; omega
    rw [this]; simp
  · subst heq
    have : decide (t + 1 ≤ t) = false := by simp
    rw [this]; simp
  · have h1 : decide (i + 1 ≤ t) = true := by simp; omega
    have h2 : decide (j ≤ t) = true := by simp; omega
    have h3 : decide (t ≠ i) = true := by simp; omega
    rw [h1, h2, h3]; simp

/-- Networks of a chain are nested or disjoint. -/
theorem chain_nested {M : Nat} {n o : Net A} (hn : InChain M n) (ho : InChain M o) {a : A} (h1 : Member n a) (h2 : Member o a) :
    Includes n o ∨ Includes o n := by
  obtain ⟨j, -, hm⟩ := hn
  obtain ⟨k, -, hk⟩ := ho
  rcases Nat.le_total j k with h | h
  · right
    refine includes_of_mask (fun i hi hb => ?_) h2 h1
    rw [hk i hi] at hb
    rw [hm i hi]
    simp at hb ⊢
    exact ⟨hb.1, by omega⟩
  · left
    refine includes_of_mask (fun i hi hb => ?_) h1 h2
    rw [hm i hi] at hb
    rw [hk i hi]
    simp at hb ⊢
    exact ⟨hb.1, by omega⟩

/-- The invariant for such masks. -/
def ChainInv (M : Nat) (S : List (Net A)) : Prop :=
  (∀ n ∈ S, InChain M n) ∧ ∀ n ∈ S, ∀ o ∈ S, n ≠ o → Disjoint n o

theorem chainInv_replaced (M : Nat) (S : List (Net A)) (a b : Net A) (i : Nat) (hw : AllWF S) (_hn : S.Nodup) (h : ChainInv M S)
    (ha : a ∈ S) (hb : b ∈ S) (hs : Sib i a b) : ChainInv M (replaced S a b) := by
  have key : ∀ o ∈ S, o ≠ a → o ≠ b → Disjoint (mergedNet a b) o := by
    rintro o ho hoa hob x ⟨h1, h2⟩
    rcases (merged_member (hw a ha) hs x).mp h1 with h1 | h1
    · exact h.2 a ha o ho (Ne.symm hoa) x ⟨h1, h2⟩
    · exact h.2 b hb o ho (Ne.symm hob) x ⟨h1, h2⟩
  refine ⟨fun n hn => ?_, fun n hn o ho hne => ?_⟩
  · rcases mem_replaced.mp hn with rfl | hn
    · exact inChain_merged (h.1 a ha) hs
    · exact h.1 n hn.1
  · rcases mem_replaced.mp hn with rfl | hn' <;> rcases mem_replaced.mp ho with rfl | ho'
    · exact absurd rfl hne
    · exact key o ho'.1 ho'.2.1 ho'.2.2
    · exact disjoint_symm _ _ (key n hn'.1 hn'.2.1 hn'.2.2)
    · exact h.2 n hn'.1 o ho'.1 hne

theorem chainInv_eliminated (M : Nat) (rt : Runtime) {l : List (Net A)} (hw : AllWF l) (hc : ∀ n ∈ l, InChain M n) :
    ChainInv M (eliminated rt l) := by
  refine ⟨fun n hn => hc n ((mem_eliminated rt hw n).mp hn).1, fun n hn o ho hne x ⟨h1, h2⟩ => ?_⟩
  have hn' := (mem_eliminated rt hw n).mp hn
  have ho' := (mem_eliminated rt hw o).mp ho
  rcases chain_nested (hc n hn'.1) (hc o ho'.1) h1 h2 with h | h
  · exact ho'.2 ⟨n, hn'.1, hne, h⟩
  · exact hn'.2 ⟨o, ho'.1, Ne.symm hne, h⟩

/-! ## Networks of a chain as blocks -/

/-- The number of ones of `M` below the lowest one of the mask. -/
def chainExp (M : Nat) (n : Net A) : Nat := cntb (width A) M - netBits n

/-- The address read through `M`. -/
def through (M : Nat) (a : A) : Nat := comp (width A) M (val a)

theorem netBits_eq_cntb (n : Net A) : netBits n = cntb (width A) (val n.subnetMask) := rfl

theorem cntb_chain {w j M m : Nat} (hj : j ≤ w) (hm : ∀ i, i < w → m.testBit i = (M.testBit i && decide (j ≤ i))) :
    cntb w m + cntb j M = cntb w M := by
  induction w with
  | zero =>
    have : j = 0 := by omega
    subst this; rfl
  | succ w ih =>
    rw [cntb_succ, cntb_succ]
    rcases Nat.lt_or_ge w j with h | h
    · have : j = w + 1 := by omega
      subst this
      have h0 : ∀ k, k ≤ w → cntb k m = 0 := by
        intro k hk
        have := (cntb_eq_iff m (Nat.zero_le k)).mpr (fun t _ ht => by
          rw [hm t (by omega)]
          have : decide (w + 1 ≤ t) = false := by simp; omega
          rw [this, Bool.and_false])
        rw [← this]; rfl
      rw [h0 w (Nat.le_refl _), hm w (by omega), cntb_succ]
      have : decide (w + 1 ≤ w) = false := by simp
      rw [this]; simp
    · have h1 := ih h (fun i hi => hm i (by omega))
      rw [hm w (by omega)]
      have : decide (j ≤ w) = true := by simpa using h
      rw [this]; simp; omega

theorem chain_exp {M : Nat} {n : Net A} {j : Nat} (hj : j ≤ width A)
    (hm : ∀ i, i < width A → (val n.subnetMask).testBit i = (M.testBit i && decide (j ≤ i))) : chainExp M n = cntb j M := by
  have := cntb_chain hj hm
  rw [chainExp, netBits_eq_cntb]; omega

theorem chain_dvd {M : Nat} {n : Net A} (hw : WF n) (hc : InChain M n) : 2 ^ chainExp M n ∣ through M n.baseAddr := by
  obtain ⟨j, hj, hm⟩ := hc
  rw [chain_exp hj hm]
  -- the bits below `j` are zero
  have low : ∀ k, k ≤ j → comp k M (val n.baseAddr) = 0 := by
    intro k hk
    induction k with
    | zero => rfl
    | succ k ih =>
      rw [comp_succ, ih (by omega)]
      have : (val n.baseAddr).testBit k = false := hw.host_zero k (by omega) (by
        rw [hm k (by omega)]
        have : decide (j ≤ k) = false := by simp; omega
        rw [this, Bool.and_false])
      rw [this]; simp
  have high : ∀ k, j ≤ k → 2 ^ cntb j M ∣ comp k M (val n.baseAddr) := by
    intro k hk
    induction hk with
    | refl => rw [low j (Nat.le_refl _)]; exact Nat.dvd_zero _
    | @step k hk ih =>
      rw [comp_succ]
      refine Nat.dvd_add ?_ ih
      split
      · exact Nat.dvd_trans (Nat.pow_dvd_pow 2 (cntb_mono M hk)) (Nat.dvd_mul_left _ _)
      · exact Nat.dvd_zero _
  exact high _ hj

theorem chain_inBlk {M : Nat} {n : Net A} (hw : WF n) (hc : InChain M n) (a : A) :
    Member n a ↔ InBlk (chainExp M n) (through M n.baseAddr) (through M a) := by
  rw [inBlk_iff_div (chain_dvd hw hc)]
  obtain ⟨j, hj, hm⟩ := hc
  rw [chain_exp hj hm, through, through, comp_div_eq_iff _ _ _ hj]
  constructor
  · intro h i h1 h2 h3
    exact h i h2 (by rw [hm i h2, h3]; simpa using h1)
  · intro h i h1 h2
    rw [hm i h1, Bool.and_eq_true, decide_eq_true_eq] at h2
    exact h i h2.2 h1 h2.1

/-- The numbers of the block belong to addresses. -/
theorem chain_inBlk_addr {M : Nat} {n : Net A} (hw : WF n) (hc : InChain M n) {x : Nat}
    (hx : InBlk (chainExp M n) (through M n.baseAddr) x) : ∃ a : A, through M a = x ∧ Member n a := by
  have hlt : through M n.baseAddr < 2 ^ cntb (width A) M := comp_lt ..
  have hle : chainExp M n ≤ cntb (width A) M := Nat.sub_le _ _
  have hxl : x < 2 ^ cntb (width A) M := by
    have := blk_nested (chain_dvd hw hc) (Nat.dvd_zero _) hle (inBlk_base _ _) (c := 0) ⟨Nat.zero_le _, by omega⟩
    have := hx.2
    omega
  obtain ⟨v, hv, hv'⟩ := comp_surj hxl
  obtain ⟨a, ha⟩ := val_surj (A := A) v hv
  have ht : through M a = x := by rw [through, ha, hv']
  exact ⟨a, ht, by rw [chain_inBlk hw hc, ht]; exact hx⟩

/-- Same exponent, same mask. -/
theorem chain_mask {M : Nat} {n o : Net A} (hn : InChain M n) (ho : InChain M o) (h : chainExp M n = chainExp M o) :
    n.subnetMask = o.subnetMask := by
  obtain ⟨j, hj, hm⟩ := hn
  obtain ⟨k, hk, hm'⟩ := ho
  rw [chain_exp hj hm, chain_exp hk hm'] at h
  apply addr_ext
  intro i hi
  rw [hm i hi, hm' i hi]
  cases hb : M.testBit i
  · rfl
  · rw [Bool.true_and, Bool.true_and, decide_eq_decide]
    rcases Nat.le_total j k with hjk | hjk
    · have := (cntb_eq_iff M hjk).mp h i
      constructor
      · intro h1
        rcases Nat.lt_or_ge i k with h2 | h2
        · have := this h1 h2; rw [hb] at this; cases this
        · exact h2
      · intro h1; omega
    · have := (cntb_eq_iff M hjk).mp h.symm i
      constructor
      · intro h1; omega
      · intro h1
        rcases Nat.lt_or_ge i j with h2 | h2
        · have := this h1 h2; rw [hb] at this; cases this
        · exact h2

theorem chain_ext {M : Nat} {n o : Net A} (hn : WF n) (ho : WF o) (hcn : InChain M n) (hco : InChain M o)
    (h : chainExp M n = chainExp M o) (hb : through M n.baseAddr = through M o.baseAddr) : n = o := by
  apply includes_antisymm hn ho
  · intro a ha
    rw [chain_inBlk ho hco] at ha
    rw [chain_inBlk hn hcn, h, hb]; exact ha
  · intro a ha
    rw [chain_inBlk hn hcn] at ha
    rw [chain_inBlk ho hco, ← h, ← hb]; exact ha

/-- The two halves of a block are siblings. -/
theorem chain_sib {M : Nat} {n o : Net A} (hn : WF n) (ho : WF o) (hcn : InChain M n) (hco : InChain M o)
    (h : chainExp M n = chainExp M o) (hd : 2 ^ (chainExp M n + 1) ∣ through M n.baseAddr)
    (hb : through M o.baseAddr = through M n.baseAddr + 2 ^ chainExp M n) : ∃ i, Sib i n o := by
  have hmask := chain_mask hcn hco h
  obtain ⟨j, hj, hm⟩ := hcn
  rw [chain_exp hj hm] at hd hb
  have hpos := Nat.two_pow_pos (cntb j M)
  have hltw : through M o.baseAddr < 2 ^ cntb (width A) M := comp_lt ..
  -- the lowest one of the mask
  have hex : ∃ i, j ≤ i ∧ i < width A ∧ M.testBit i = true ∧ ∀ t, j ≤ t → t < i → M.testBit t = false := by
    have hne : cntb j M ≠ cntb (width A) M := by
      intro he
      rw [← he] at hltw; omega
    have : ¬ ∀ t, j ≤ t → t < width A → M.testBit t = false := fun hh => hne ((cntb_eq_iff M hj).mpr hh)
    have hex' : ∃ i, j ≤ i ∧ i < width A ∧ M.testBit i = true := by
      apply Classical.byContradiction
      intro hno
      apply this
      intro t h1 h2
      cases hb : M.testBit t
      · rfl
      · exact absurd ⟨t, h1, h2, hb⟩ hno
    obtain ⟨i, h1, h2, h3⟩ := hex'
    induction i using Nat.strongRecOn with
    | ind i ih =>
      by_cases hs : ∃ t, t < i ∧ j ≤ t ∧ M.testBit t = true
      · obtain ⟨t, ht1, ht2, ht3⟩ := hs
        exact ih t ht1 ht2 (by omega) ht3
      · refine ⟨i, h1, h2, h3, fun t ht1 ht2 => ?_⟩
        cases hb : M.testBit t
        · rfl
        · exact absurd ⟨t, ht2, ht1, hb⟩ hs
  obtain ⟨i, hji, hiw, hMi, hlow⟩ := hex
  have hcj : cntb j M = cntb i M := (cntb_eq_iff M hji).mpr hlow
  have hci : cntb (i + 1) M = cntb j M + 1 := by rw [cntb_succ, hMi, hcj]; rfl
  have hbit : (val n.subnetMask).testBit i = true := by rw [hm i hiw, hMi]; simpa using hji
  have hlow' : ∀ t, t < i → (val n.subnetMask).testBit t = false := by
    intro t ht
    rw [hm t (by omega)]
    by_cases hjt : j ≤ t
    · rw [hlow t hjt ht]; rfl
    · have : decide (j ≤ t) = false := by simpa using hjt
      rw [this, Bool.and_false]
  -- agreement above `i`
  have hdiv : through M n.baseAddr / 2 ^ cntb (i + 1) M = through M o.baseAddr / 2 ^ cntb (i + 1) M := by
    rw [hci]
    symm
    rw [← inBlk_iff_div hd, hb, InBlk, Nat.pow_succ]
    omega
  have hhigh := (comp_div_eq_iff M (val n.baseAddr) (val o.baseAddr) (show i + 1 ≤ width A by omega)).mp hdiv
  have hrest : ∀ t, t < width A → t ≠ i → (val n.baseAddr).testBit t = (val o.baseAddr).testBit t := by
    intro t ht hti
    cases hmt : (val n.subnetMask).testBit t
    · rw [hn.host_zero t ht hmt, ho.host_zero t ht (by rw [← hmask]; exact hmt)]
    · have hgt : i + 1 ≤ t := by
        rcases Nat.lt_or_ge t i with h1 | h1
        · rw [hlow' t h1] at hmt; cases hmt
        · omega
      rw [hm t ht, Bool.and_eq_true] at hmt
      exact hhigh t hgt ht hmt.1
  have hne : (val n.baseAddr).testBit i ≠ (val o.baseAddr).testBit i := by
    intro he
    have : n.baseAddr = o.baseAddr := addr_ext fun t ht => by
      by_cases hti : t = i
      · rw [hti]; exact he
      · exact hrest t ht hti
    rw [this] at hb
    omega
  cases hni : (val n.baseAddr).testBit i
  · refine ⟨i, hiw, hmask, hbit, hlow', hni, ?_, hrest⟩
    cases hoi : (val o.baseAddr).testBit i
    · rw [hni, hoi] at hne; exact absurd rfl hne
    · rfl
  · exfalso
    have hoi : (val o.baseAddr).testBit i = false := by
      cases hoi : (val o.baseAddr).testBit i
      · rfl
      · rw [hni, hoi] at hne; exact absurd rfl hne
    have := comp_set (w := width A) hiw hMi hoi hni (fun t ht hti _ => (hrest t ht hti).symm)
    have hpos' := Nat.two_pow_pos (cntb i M)
    rw [through, through] at hb
    omega

/-- Disjoint networks of a chain without siblings are the unique shortest list of networks of the chain with this union. -/
theorem chain_minimal {M : Nat} (S T : List (Net A)) (hwS : AllWF S) (hwT : AllWF T) (hnS : S.Nodup) (hS : ChainInv M S)
    (hT : ∀ t ∈ T, InChain M t) (hns : ∀ a ∈ S, ∀ b ∈ S, ¬ ∃ i, Sib i a b)
    (hc : ∀ a : A, (∃ s ∈ S, Member s a) ↔ (∃ t ∈ T, Member t a)) :
    S.length ≤ T.length ∧ (T.length ≤ S.length → S.Perm T) := by
  have hdis : ∀ s ∈ S, ∀ t ∈ S, s ≠ t → ∀ x, ¬ (InBlk (chainExp M s) (through M s.baseAddr) x ∧
      InBlk (chainExp M t) (through M t.baseAddr) x) := by
    rintro s hs t ht hne x ⟨h1, h2⟩
    obtain ⟨a, rfl, ha⟩ := chain_inBlk_addr (hwS s hs) (hS.1 s hs) h1
    exact hS.2 s hs t ht hne a ⟨ha, (chain_inBlk (hwS t ht) (hS.1 t ht) a).mpr h2⟩
  refine blocks_minimal (chainExp M) (fun n => through M n.baseAddr) S T ?_ ?_ ?_ ?_ ?_ ?_
  · intro s hs; exact chain_dvd (hwS s hs) (hS.1 s hs)
  · intro t ht; exact chain_dvd (hwT t ht) (hT t ht)
  · intro s hs t ht h1 h2
    exact chain_ext (hwS s hs) (hwT t ht) (hS.1 s hs) (hT t ht) h1 h2
  · refine List.Pairwise.imp_of_mem ?_ hnS
    intro s t hs ht hne
    exact hdis s hs t ht hne
  · intro x
    constructor
    · rintro ⟨s, hs, hx⟩
      obtain ⟨a, rfl, ha⟩ := chain_inBlk_addr (hwS s hs) (hS.1 s hs) hx
      obtain ⟨t, ht, hta⟩ := (hc a).mp ⟨s, hs, ha⟩
      exact ⟨t, ht, (chain_inBlk (hwT t ht) (hT t ht) a).mp hta⟩
    · rintro ⟨t, ht, hx⟩
      obtain ⟨a, rfl, ha⟩ := chain_inBlk_addr (hwT t ht) (hT t ht) hx
      obtain ⟨s, hs, hsa⟩ := (hc a).mpr ⟨t, ht, ha⟩
      exact ⟨s, hs, (chain_inBlk (hwS s hs) (hS.1 s hs) a).mp hsa⟩
  · refine no_sib_maximal (chainExp M) (fun n => through M n.baseAddr) S (fun s hs => chain_dvd (hwS s hs) (hS.1 s hs)) hdis ?_
    intro s hs t ht h1 h2 h3
    exact hns s hs t ht (chain_sib (hwS s hs) (hwS t ht) (hS.1 s hs) (hS.1 t ht) h1 h2 h3)

/-- CIDR networks are the chain of the mask of all ones. -/
theorem cidr_inChain {n : Net A} {p : Nat} (h : IsCidr p n) : InChain (2 ^ width A - 1) n := by
  have hm := (h.1.prefix_iff p).mp h.2
  refine ⟨width A - p, by omega, fun i hi => ?_⟩
  rw [Nat.testBit_two_pow_sub_one, Bool.eq_iff_iff, hm.2 i hi]
  simp [hi]

theorem inChain_cidr {n : Net A} (hw : WF n) (h : InChain (2 ^ width A - 1) n) : ∃ p, IsCidr p n := by
  obtain ⟨j, hj, hm⟩ := h
  refine ⟨width A - j, hw, (hw.prefix_iff _).mpr ⟨by omega, fun i hi => ?_⟩⟩
  rw [hm i hi, Nat.testBit_two_pow_sub_one]
  simp [hi]; omega

end generic
end Ripcalc
