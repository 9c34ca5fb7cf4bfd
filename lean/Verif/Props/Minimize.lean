import Verif.Proofs.Minimize
/-!
# Properties C42 to C47: minimizing a list of networks

`rt` ranges over all platforms (`Runtime`): every hash iteration order, every unstable sort, both overflow settings.
-/
set_option linter.unusedSectionVars false
namespace Ripcalc
open AddrSpec LawfulIpAddr

section generic
variable {A : Type} [IpAddr A] [AddrSpec A] [LawfulIpAddr A]

theorem minimize_basic (rt rt' : Runtime) (l l' : List (Net A)) (hw : ∀ n ∈ l, WF n) (hmem : ∀ n, n ∈ l' ↔ n ∈ l) :
    ∃ out S, minimizeSubnets rt l = .ok out ∧ minimizeSubnets rt' l' = .ok out ∧ out.Perm S ∧ out.Pairwise KeyLt ∧
      MinResult (fun _ => True) (eliminated rt l) S :=
  minimize_spec (fun _ => True) (fun _ _ _ _ _ _ _ _ _ _ => trivial) rt rt' l l' hw hmem trivial

/-! ## C42: minimize preserves the set of addresses -/

/-- Terminates without panicking (so the assertions hold), and covers the same addresses. -/
theorem C42_same_addresses (rt : Runtime) (l : List (Net A)) (hw : ∀ n ∈ l, WF n) :
    ∃ out, minimizeSubnets rt l = .ok out ∧ Covers out (fun a => ∃ n ∈ l, Member n a) := by
  obtain ⟨out, S, h1, -, h2, -, h3⟩ := minimize_basic rt rt l l hw (fun _ => Iff.rfl)
  refine ⟨out, h1, fun a => ?_⟩
  show (∃ n ∈ out, Member n a) ↔ ∃ n ∈ l, Member n a
  rw [← covers_eliminated rt hw a, ← h3.covers a]
  simp only [h2.mem_iff]

/-! ## C43: minimize depends only on the set of networks -/

theorem C43_set_function (rt rt' : Runtime) (l l' : List (Net A)) (hw : ∀ n ∈ l, WF n) (hmem : ∀ n, n ∈ l' ↔ n ∈ l) :
    minimizeSubnets rt' l' = minimizeSubnets rt l := by
  obtain ⟨out, S, h1, h2, -⟩ := minimize_basic rt rt' l l' hw hmem
  rw [h1, h2]

/-! ## C44: minimize output is sorted and free of duplicates -/

theorem C44_sorted (rt : Runtime) (l out : List (Net A)) (hw : ∀ n ∈ l, WF n) (h : minimizeSubnets rt l = .ok out) :
    out.Pairwise KeyLt ∧ out.Nodup ∧ (∀ n ∈ out, WF n) ∧ out.length ≤ l.length := by
  obtain ⟨out', S, h1, -, h2, h3, h4⟩ := minimize_basic rt rt l l hw (fun _ => Iff.rfl)
  rw [h] at h1
  cases h1
  refine ⟨h3, ?_, fun n hn => h4.wf n (h2.mem_iff.mp hn), ?_⟩
  · exact h4.nodup.perm h2.symm
  · rw [h2.length_eq]
    exact Nat.le_trans h4.len (length_eliminated rt hw)

/-! ## C45: minimize removes networks covered by another

False in general (`C45_counterexample`): a merge can produce a network that includes a third one, and inclusion is only
checked before merging.  True whenever the masks of the input arise from one mask by clearing low bits, in particular for
CIDR masks and for lists with one common lopsided mask. -/

theorem C45_no_inclusion_partial (rt : Runtime) (M : Nat) (l out : List (Net A)) (hw : ∀ n ∈ l, WF n) (hc : ∀ n ∈ l, InChain M n)
    (h : minimizeSubnets rt l = .ok out) :
    ∀ n ∈ out, ∀ o ∈ out, n ≠ o → ¬ Includes n o ∧ Disjoint n o := by
  obtain ⟨out', S, h1, -, h2, h3, h4⟩ := minimize_spec (ChainInv M) (chainInv_replaced M) rt rt l l hw (fun _ => Iff.rfl)
    (chainInv_eliminated M rt hw hc)
  rw [h] at h1
  cases h1
  intro n hn o ho hne
  have hd := h4.inv.2 n (h2.mem_iff.mp hn) o (h2.mem_iff.mp ho) hne
  exact ⟨fun hi => hd o.baseAddr ⟨hi _ (base_member o), base_member o⟩, hd⟩

/-- For CIDR input. -/
theorem C45_cidr_partial (rt : Runtime) (l out : List (Net A)) (hc : ∀ n ∈ l, ∃ p, IsCidr p n) (h : minimizeSubnets rt l = .ok out) :
    ∀ n ∈ out, ∀ o ∈ out, n ≠ o → ¬ Includes n o ∧ Disjoint n o :=
  C45_no_inclusion_partial rt (2 ^ width A - 1) l out (fun n hn => (hc n hn).choose_spec.1)
    (fun n hn => cidr_inChain (hc n hn).choose_spec) h

/-- For all masks: no output network is properly included in a network of the input. -/
theorem C45_input_partial (rt : Runtime) (l out : List (Net A)) (hw : ∀ n ∈ l, WF n) (h : minimizeSubnets rt l = .ok out) :
    ∀ n ∈ out, ∀ o ∈ l, Includes o n → o = n := by
  have hstep : ∀ (S : List (Net A)) (a b : Net A) (i : Nat), AllWF S → S.Nodup → (∀ n ∈ S, ∀ o ∈ l, Includes o n → o = n) →
      a ∈ S → b ∈ S → Sib i a b → ∀ n ∈ replaced S a b, ∀ o ∈ l, Includes o n → o = n := by
    intro S a b i hwS _ hI ha hb hs n hn o ho hinc
    rcases mem_replaced.mp hn with rfl | hn'
    · exfalso
      have hia : Includes (mergedNet a b) a := fun x hx => (merged_member (hwS a ha) hs x).mpr (.inl hx)
      have hoa := hI a ha o ho (includes_trans hinc hia)
      subst hoa
      have hb' := hinc b.baseAddr ((merged_member (hwS o ha) hs _).mpr (.inr (base_member b)))
      have := hb' i hs.lt hs.bit
      rw [hs.bitA, hs.bitB] at this
      cases this
    · exact hI n hn'.1 o ho hinc
  have hstart : ∀ n ∈ eliminated rt l, ∀ o ∈ l, Includes o n → o = n := by
    intro n hn o ho hinc
    apply Classical.byContradiction
    intro hne
    exact ((mem_eliminated rt hw n).mp hn).2 ⟨o, ho, hne, hinc⟩
  obtain ⟨out', S, h1, -, h2, h3, h4⟩ := minimize_spec (fun S => ∀ n ∈ S, ∀ o ∈ l, Includes o n → o = n) hstep rt rt l l hw
    (fun _ => Iff.rfl) hstart
  rw [h] at h1
  cases h1
  intro n hn
  exact h4.inv n (h2.mem_iff.mp hn)

/-! ## C46: minimize yields the smallest list for CIDR input -/

/-- More generally for masks arising from one mask `M` by clearing low bits. -/
theorem C46_chain_minimal (rt : Runtime) (M : Nat) (l out : List (Net A)) (hw : ∀ n ∈ l, WF n) (hc : ∀ n ∈ l, InChain M n)
    (h : minimizeSubnets rt l = .ok out) :
    (∀ n ∈ out, InChain M n) ∧ out.Pairwise Disjoint ∧
    ∀ other : List (Net A), (∀ n ∈ other, WF n ∧ InChain M n) → Covers other (fun a => ∃ n ∈ l, Member n a) →
      out.length ≤ other.length ∧ (other.length ≤ out.length → out.Perm other) := by
  obtain ⟨out', S, h1, -, h2, h3, h4⟩ := minimize_spec (ChainInv M) (chainInv_replaced M) rt rt l l hw (fun _ => Iff.rfl)
    (chainInv_eliminated M rt hw hc)
  rw [h] at h1
  cases h1
  refine ⟨fun n hn => h4.inv.1 n (h2.mem_iff.mp hn), ?_, fun other ho hcov => ?_⟩
  · have hnd : out.Nodup := h4.nodup.perm h2.symm
    refine List.Pairwise.imp_of_mem ?_ hnd
    intro n o hn ho hne
    exact h4.inv.2 n (h2.mem_iff.mp hn) o (h2.mem_iff.mp ho) hne
  · have := chain_minimal S other h4.wf (fun n hn => (ho n hn).1) h4.nodup h4.inv (fun n hn => (ho n hn).2) h4.noSib (fun a => by
      rw [h4.covers a, covers_eliminated rt hw a, hcov a])
    rw [h2.length_eq]
    exact ⟨this.1, fun hl => h2.trans (this.2 hl)⟩

theorem C46_cidr_minimal (rt : Runtime) (l out : List (Net A)) (hc : ∀ n ∈ l, ∃ p, IsCidr p n) (h : minimizeSubnets rt l = .ok out) :
    (∀ n ∈ out, ∃ p, IsCidr p n) ∧ out.Pairwise Disjoint ∧
    ∀ other : List (Net A), (∀ n ∈ other, ∃ p, IsCidr p n) → Covers other (fun a => ∃ n ∈ l, Member n a) →
      out.length ≤ other.length ∧ (other.length ≤ out.length → out.Perm other) := by
  have hw : ∀ n ∈ l, WF n := fun n hn => (hc n hn).choose_spec.1
  obtain ⟨h1, h2, h3⟩ := C46_chain_minimal rt (2 ^ width A - 1) l out hw (fun n hn => cidr_inChain (hc n hn).choose_spec) h
  refine ⟨fun n hn => inChain_cidr ((C44_sorted rt l out hw h).2.2.1 n hn) (h1 n hn), h2, fun other ho hcov => ?_⟩
  exact h3 other (fun n hn => ⟨(ho n hn).choose_spec.1, cidr_inChain (ho n hn).choose_spec⟩) hcov

/-! ## C47: minimize is idempotent

False in general (`C47_counterexample`); it holds exactly for the outputs satisfying C45. -/

theorem C47_iff (rt rt' : Runtime) (l out : List (Net A)) (hw : ∀ n ∈ l, WF n) (h : minimizeSubnets rt l = .ok out) :
    minimizeSubnets rt' out = .ok out ↔ ∀ n ∈ out, ∀ o ∈ out, n ≠ o → ¬ Includes n o := by
  obtain ⟨out0, S, h1, -, h2, h3, h4⟩ := minimize_basic rt rt l l hw (fun _ => Iff.rfl)
  rw [h] at h1
  cases h1
  have hwo : AllWF out := fun n hn => h4.wf n (h2.mem_iff.mp hn)
  have hno : out.Nodup := h4.nodup.perm h2.symm
  constructor
  · intro hid n hn o ho hne hinc
    obtain ⟨out', S', h1', -, h2', -, h4'⟩ := minimize_basic rt' rt' out out hwo (fun _ => Iff.rfl)
    rw [hid] at h1'
    cases h1'
    have hsub : ∀ x ∈ eliminated rt' out, x ∈ out := fun x hx => ((mem_eliminated rt' hwo x).mp hx).1
    have hlen := nodup_subset_length (nodup_eliminated rt' out) hsub
    have hle : out.length ≤ (eliminated rt' out).length := by rw [h2'.length_eq]; exact h4'.len
    have hmem := (hlen.2 hle).mem_iff.mpr ho
    exact ((mem_eliminated rt' hwo o).mp hmem).2 ⟨n, hn, hne, hinc⟩
  · intro hni
    have helim : (eliminated rt' out).Perm S := by
      rw [List.perm_ext_iff_of_nodup (nodup_eliminated _ _) h4.nodup]
      intro x
      rw [mem_eliminated rt' hwo, h2.mem_iff]
      constructor
      · exact fun h => h.1
      · intro hx
        refine ⟨hx, ?_⟩
        rintro ⟨a, ha, hne, hinc⟩
        exact hni a ha x (h2.mem_iff.mpr hx) hne hinc
    obtain ⟨r, h5, h6⟩ := minimizeStep_spec h4.wf h4.nodup
    match r, h6 with
    | some (a, b), h6 => exact absurd h6.2.2 (h4.noSib a h6.1 b h6.2.1)
    | none, _ =>
      have hstep := h5 rt' 0 _ helim
      rw [minimizeSubnets]
      show (loopM (minimizeStep rt') (0, eliminated rt' out) >>= _) = _
      rw [loopM, hstep]
      show Exec.ok (rt'.sortUnstable netKeyLe (rt'.hashIter 1 (eliminated rt' out))) = _
      congr 1
      have hp := (sorted_perm rt' 1 helim).trans h2.symm
      exact sort_unique (fun n hn => hwo n (hp.mem_iff.mp hn)) hp (sorted_sort rt' _) (h3.imp keyLt_le)

theorem C47_idempotent_partial (rt rt' : Runtime) (M : Nat) (l out : List (Net A)) (hw : ∀ n ∈ l, WF n) (hc : ∀ n ∈ l, InChain M n)
    (h : minimizeSubnets rt l = .ok out) : minimizeSubnets rt' out = .ok out :=
  (C47_iff rt rt' l out hw h).mpr fun n hn o ho hne => (C45_no_inclusion_partial rt M l out hw hc h n hn o ho hne).1

theorem C47_cidr_partial (rt rt' : Runtime) (l out : List (Net A)) (hc : ∀ n ∈ l, ∃ p, IsCidr p n) (h : minimizeSubnets rt l = .ok out) :
    minimizeSubnets rt' out = .ok out :=
  C47_idempotent_partial rt rt' (2 ^ width A - 1) l out (fun n hn => (hc n hn).choose_spec.1)
    (fun n hn => cidr_inChain (hc n hn).choose_spec) h

end generic

/-! ## Concrete cases

Evaluated with a platform that sorts by insertion; by C43 every platform gives the same result. -/

def insertSorted (le : α → α → Bool) (x : α) : List α → List α
  | [] => [x]
  | y :: l => if le x y then x :: y :: l else y :: insertSorted le x l

theorem insertSorted_perm (le : α → α → Bool) (x : α) (l : List α) : (insertSorted le x l).Perm (x :: l) := by
  induction l with
  | nil => exact .refl _
  | cons y l ih =>
    rw [insertSorted]
    split
    · exact .refl _
    · exact (ih.cons y).trans (.swap x y l)

theorem insertSorted_sorted (le : α → α → Bool) (ht : ∀ a b c, le a b → le b c → le a c) (hT : ∀ a b, le a b || le b a) (x : α)
    (l : List α) (h : l.Pairwise (fun a b => le a b)) : (insertSorted le x l).Pairwise (fun a b => le a b) := by
  induction l with
  | nil => exact List.pairwise_singleton _ _
  | cons y l ih =>
    rw [List.pairwise_cons] at h
    rw [insertSorted]
    by_cases hxy : le x y = true
    · rw [if_pos hxy, List.pairwise_cons, List.pairwise_cons]
      refine ⟨fun z hz => ?_, h⟩
      rcases List.mem_cons.mp hz with rfl | hz
      · exact hxy
      · exact ht x y z hxy (h.1 z hz)
    · rw [if_neg hxy, List.pairwise_cons]
      refine ⟨fun z hz => ?_, ih h.2⟩
      rcases List.mem_cons.mp ((insertSorted_perm le x l).mem_iff.mp hz) with rfl | hz
      · have := hT z y
        rw [Bool.or_eq_true] at this
        exact this.resolve_left hxy
      · exact h.1 z hz

def insertionSort (le : α → α → Bool) : List α → List α
  | [] => []
  | x :: l => insertSorted le x (insertionSort le l)

/-- A platform whose functions the kernel can evaluate. -/
def evalRuntime (pr : Profile) (colors : Bool) : Runtime where
  profile := pr
  colorsEnabled := colors
  hashIter := fun _ l => l
  hashIter_perm := fun _ _ => .refl _
  sortUnstable := fun le l => insertionSort le l
  sortUnstable_perm := fun le l => by
    induction l with
    | nil => exact .refl _
    | cons x l ih => exact (insertSorted_perm le x _).trans (ih.cons x)
  sortUnstable_sorted := fun le l ht hT => by
    induction l with
    | nil => exact .nil
    | cons x l ih => exact insertSorted_sorted le ht hT x _ ih

/-- Evaluation with fuel. -/
theorem minimize_of_fuel {A : Type} [IpAddr A] (fuel t : Nat) (rt : Runtime) (l S out : List (Net A))
    (h : loopFuel (minimizeStep rt) fuel (0, elimOuter (rt.sortUnstable netKeyLe l) (setOf (rt.sortUnstable netKeyLe l))) = some (.ok (t, S)))
    (h' : rt.sortUnstable netKeyLe (rt.hashIter t S) = out) : minimizeSubnets rt l = .ok out := by
  rw [minimizeSubnets]
  simp only [loopM_of_fuel h, Exec.ok_bind, h', Exec.pure_eq]

/-- A network with a mask, for the examples. -/
def mk4 (a m : BitVec 32) : Net V4 := Net.newWithMask ⟨a⟩ ⟨m⟩

/-- Three networks: the first two merge to 0.0.0.0/30, which includes the third. -/
def lopsidedInput : List (Net V4) :=
  [mk4 0x00000000#32 0xFFFFFFFE#32, mk4 0x00000002#32 0xFFFFFFFE#32, mk4 0x00000000#32 0xFFFFFFFD#32]

/-- What minimize makes of them. -/
def lopsidedOutput : List (Net V4) := [mk4 0x00000000#32 0xFFFFFFFC#32, mk4 0x00000000#32 0xFFFFFFFD#32]

theorem lopsided_wf : ∀ n ∈ lopsidedInput, WF n := by
  intro n hn
  simp only [lopsidedInput, List.mem_cons, List.not_mem_nil, or_false] at hn
  rcases hn with rfl | rfl | rfl <;> exact newWithMask_wf _ _

theorem lopsided_result (rt : Runtime) : minimizeSubnets rt lopsidedInput = .ok lopsidedOutput := by
  rw [C43_set_function (evalRuntime .checked true) rt lopsidedInput lopsidedInput lopsided_wf (fun _ => Iff.rfl)]
  exact minimize_of_fuel 5 2 _ _ [mk4 0x00000000#32 0xFFFFFFFD#32, mk4 0x00000000#32 0xFFFFFFFC#32] _ (by decide +kernel) (by decide +kernel)

theorem lopsided_inclusion : ∃ n ∈ lopsidedOutput, ∃ o ∈ lopsidedOutput, n ≠ o ∧ Includes n o := by
  refine ⟨mk4 0x00000000#32 0xFFFFFFFC#32, by decide, mk4 0x00000000#32 0xFFFFFFFD#32, by decide, by decide, ?_⟩
  exact (superset_iff (newWithMask_wf _ _) (newWithMask_wf _ _)).mp (by decide +kernel)

/-- The full statement of C45 is false. -/
theorem C45_counterexample (rt : Runtime) : ∃ l out : List (Net V4), (∀ n ∈ l, WF n) ∧ minimizeSubnets rt l = .ok out ∧
    ∃ n ∈ out, ∃ o ∈ out, n ≠ o ∧ Includes n o :=
  ⟨lopsidedInput, lopsidedOutput, lopsided_wf, lopsided_result rt, lopsided_inclusion⟩

/-- The full statement of C47 is false. -/
theorem C47_counterexample (rt : Runtime) :
    ∃ l out : List (Net V4), (∀ n ∈ l, WF n) ∧ minimizeSubnets rt l = .ok out ∧ minimizeSubnets rt out ≠ .ok out := by
  refine ⟨lopsidedInput, lopsidedOutput, lopsided_wf, lopsided_result rt, fun h => ?_⟩
  have := (C47_iff rt rt _ _ lopsided_wf (lopsided_result rt)).mp h
  obtain ⟨n, hn, o, ho, hne, hinc⟩ := lopsided_inclusion
  exact this n hn o ho hne hinc

/-- The hypotheses of the chain theorems hold for a list with one lopsided mask (the test `test_minimize_mixed`), and the
merge happens. -/
example : (∀ n ∈ [mk4 0x80000082#32 0xFF0000FF#32, mk4 0x80000084#32 0xFF0000FF#32, mk4 0x80000083#32 0xFF0000FF#32],
      WF n ∧ InChain 0xFF0000FF n) ∧
    minimizeSubnets (evalRuntime .checked true)
      [mk4 0x80000082#32 0xFF0000FF#32, mk4 0x80000084#32 0xFF0000FF#32, mk4 0x80000083#32 0xFF0000FF#32] =
      .ok [mk4 0x80000082#32 0xFF0000FE#32, mk4 0x80000084#32 0xFF0000FF#32] := by
  refine ⟨?_, ?_⟩
  · intro n hn
    have key : ∀ a, WF (mk4 a 0xFF0000FF#32) ∧ InChain 0xFF0000FF (mk4 a 0xFF0000FF#32) := fun a =>
      ⟨newWithMask_wf _ _, 0, Nat.zero_le _, fun i _ => by simp [show val (mk4 a 0xFF0000FF#32).subnetMask = 0xFF0000FF from rfl]⟩
    simp only [List.mem_cons, List.not_mem_nil, or_false] at hn
    rcases hn with rfl | rfl | rfl <;> exact key _
  · exact minimize_of_fuel 5 2 _ _ [mk4 0x80000084#32 0xFF0000FF#32, mk4 0x80000082#32 0xFF0000FE#32] _ (by decide +kernel) (by decide +kernel)

/-- CIDR input with duplicates, inclusion and a chain of two merges. -/
example : minimizeSubnets (evalRuntime .wrapping false)
      [mk4 0x0A000100#32 0xFFFFFF00#32, mk4 0x0A000040#32 0xFFFFFFC0#32, mk4 0x0A000000#32 0xFFFFFF80#32,
       mk4 0x0A000080#32 0xFFFFFF80#32, mk4 0x0A000080#32 0xFFFFFF80#32] = .ok [mk4 0x0A000000#32 0xFFFFFE00#32] :=
  minimize_of_fuel 5 3 _ _ [mk4 0x0A000000#32 0xFFFFFE00#32] _ (by decide +kernel) (by decide +kernel)

end Ripcalc
