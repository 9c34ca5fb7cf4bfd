import Verif.Model.Minimize
import Verif.Props.Net
import Verif.Proofs.Derange
/-!
# Sorting, sets and the elimination phase of `minimize_subnets`
-/
set_option linter.unusedSectionVars false
namespace Ripcalc
open AddrSpec LawfulIpAddr

/-! ## Sets as lists -/

theorem mem_setInsert [DecidableEq α] {x y : α} {s : List α} : y ∈ setInsert x s ↔ y = x ∨ y ∈ s := by
  rw [setInsert]
  split
  · constructor
    · exact .inr
    · rintro (rfl | h)
      · assumption
      · exact h
  · simp [or_comm]

theorem nodup_setInsert [DecidableEq α] {x : α} {s : List α} (h : s.Nodup) : (setInsert x s).Nodup := by
  rw [setInsert]
  split
  · exact h
  · rw [List.nodup_append]
    exact ⟨h, by simp, by rintro a ha b hb rfl; simp at hb; subst hb; contradiction⟩

theorem mem_setRemove [DecidableEq α] {x y : α} {s : List α} : y ∈ setRemove x s ↔ y ∈ s ∧ y ≠ x := by
  simp [setRemove]

theorem nodup_setRemove [DecidableEq α] {x : α} {s : List α} (h : s.Nodup) : (setRemove x s).Nodup := by
  exact h.sublist List.filter_sublist

theorem foldl_setInsert_mem [DecidableEq α] (l : List α) (s : List α) (y : α) :
    y ∈ l.foldl (fun s x => setInsert x s) s ↔ y ∈ l ∨ y ∈ s := by
  induction l generalizing s with
  | nil => simp
  | cons a l ih => rw [List.foldl_cons, ih, mem_setInsert, List.mem_cons, ← or_assoc, or_comm (a := y ∈ l)]

theorem foldl_setInsert_nodup [DecidableEq α] (l : List α) (s : List α) (h : s.Nodup) :
    (l.foldl (fun s x => setInsert x s) s).Nodup := by
  induction l generalizing s with
  | nil => exact h
  | cons a l ih => exact ih _ (nodup_setInsert h)

theorem mem_setOf [DecidableEq α] {l : List α} {y : α} : y ∈ setOf l ↔ y ∈ l := by
  rw [setOf, foldl_setInsert_mem]; simp

theorem nodup_setOf [DecidableEq α] (l : List α) : (setOf l).Nodup := foldl_setInsert_nodup l [] .nil

theorem length_setRemove_lt [DecidableEq α] {x : α} {s : List α} (h : s.Nodup) (hx : x ∈ s) :
    (setRemove x s).length + 1 = s.length := by
  have h1 := nodup_setRemove (x := x) h
  have hp : (x :: setRemove x s).Perm s := by
    rw [List.perm_ext_iff_of_nodup (by rw [List.nodup_cons]; exact ⟨by simp [mem_setRemove], h1⟩) h]
    intro a
    rw [List.mem_cons, mem_setRemove]
    by_cases ha : a = x <;> simp [ha, hx]
  have := hp.length_eq
  rw [List.length_cons] at this
  exact this

theorem length_setInsert_le [DecidableEq α] (x : α) (s : List α) : (setInsert x s).length ≤ s.length + 1 := by
  rw [setInsert]; split
  · omega
  · simp

section generic
variable {A : Type} [IpAddr A] [AddrSpec A] [LawfulIpAddr A]

/-! ## Networks are determined by base and mask -/

theorem wf_ext {n o : Net A} (hn : WF n) (ho : WF o) (hb : n.baseAddr = o.baseAddr) (hm : n.subnetMask = o.subnetMask) : n = o := by
  have hp : n.cidrPrefix = o.cidrPrefix := by
    apply Option.ext
    intro p
    rw [hn.prefix_iff, ho.prefix_iff, hm]
  cases n; cases o; simp_all

theorem superset_iff {n o : Net A} (hn : WF n) (ho : WF o) : n.isSupersetOf o = true ↔ Includes n o := by
  rw [(C28_superset n o hn ho).1]
  simp only [contains_iff hn.hz, contains_iff ho.hz]; rfl

theorem includes_mask {n o : Net A} (hn : WF n) (ho : WF o) (h : Includes n o) :
    ∀ i, i < width A → (val n.subnetMask).testBit i = true → (val o.subnetMask).testBit i = true := by
  have h1 := (superset_iff hn ho).mpr h
  simp only [Net.isSupersetOf, Bool.and_eq_true, decide_eq_true_eq] at h1
  intro i hi hm
  rw [← h1.2, val_and, Nat.testBit_and, Bool.and_eq_true] at hm
  exact hm.1

/-- Inclusion from the masks and one common address. -/
theorem includes_of_mask {n o : Net A} (h : ∀ i, i < width A → (val n.subnetMask).testBit i = true → (val o.subnetMask).testBit i = true)
    {a : A} (hna : Member n a) (hoa : Member o a) : Includes n o := by
  intro b hb i hi hm
  rw [hb i hi (h i hi hm), ← hoa i hi (h i hi hm), hna i hi hm]

theorem includes_antisymm {n o : Net A} (hn : WF n) (ho : WF o) (h1 : Includes n o) (h2 : Includes o n) : n = o :=
  (C28_antisymm n o hn ho).mp ⟨(superset_iff hn ho).mpr h1,
    ((C28_superset n o hn ho).2).mpr (by simp only [contains_iff hn.hz, contains_iff ho.hz]; exact h2)⟩

theorem includes_refl (n : Net A) : Includes n n := fun _ h => h

theorem includes_trans {n o q : Net A} (h1 : Includes n o) (h2 : Includes o q) : Includes n q := fun a h => h1 a (h2 a h)

theorem val_le_of_bits {a b : A} (h : ∀ i, i < width A → (val a).testBit i = true → (val b).testBit i = true) : val a ≤ val b := by
  have : val a &&& val b = val a := eq_of_testBit_lt (Nat.and_lt_two_pow _ (val_lt b)) (val_lt a) fun i hi => by
    rw [Nat.testBit_and]
    cases hb : (val a).testBit i
    · rfl
    · rw [h i hi hb]; rfl
  rw [← this]
  exact Nat.and_le_right

/-- A network comes before any other it includes. -/
theorem includes_keyLt {n o : Net A} (hn : WF n) (ho : WF o) (h : Includes n o) (hne : n ≠ o) :
    KeyLt n o ∧ val n.subnetMask < val o.subnetMask := by
  have h1 := member_ge_base hn.hz (h _ (base_member o))
  have h2 := val_le_of_bits (includes_mask hn ho h)
  have h3 : val n.subnetMask < val o.subnetMask := by
    rcases Nat.lt_or_eq_of_le h2 with h | he
    · exact h
    · exfalso
      have hm := val_inj _ _ he
      apply hne
      refine includes_antisymm hn ho h ?_
      refine includes_of_mask (fun i hi hb => ?_) (base_member o) (h _ (base_member o))
      rw [hm]; exact hb
  exact ⟨by rw [KeyLt]; omega, h3⟩

/-! ## The sort key -/

theorem netKeyLe_iff (a b : Net A) : netKeyLe a b = true ↔
    val a.baseAddr < val b.baseAddr ∨ (val a.baseAddr = val b.baseAddr ∧ val a.subnetMask ≤ val b.subnetMask) := by
  rw [netKeyLe]
  by_cases h : a.baseAddr = b.baseAddr
  · rw [if_pos h, le_iff, h]; omega
  · rw [if_neg h, le_iff]
    have : val a.baseAddr ≠ val b.baseAddr := fun he => h (val_inj _ _ he)
    omega

theorem netKeyLe_trans (a b c : Net A) (h1 : netKeyLe a b = true) (h2 : netKeyLe b c = true) : netKeyLe a c = true := by
  rw [netKeyLe_iff] at *; omega

theorem netKeyLe_total (a b : Net A) : (netKeyLe a b || netKeyLe b a) = true := by
  rw [Bool.or_eq_true, netKeyLe_iff, netKeyLe_iff]; omega

theorem netKeyLe_antisymm {a b : Net A} (ha : WF a) (hb : WF b) (h1 : netKeyLe a b = true) (h2 : netKeyLe b a = true) : a = b := by
  rw [netKeyLe_iff] at *
  exact wf_ext ha hb (val_inj _ _ (by omega)) (val_inj _ _ (by omega))

theorem keyLt_of_le {a b : Net A} (ha : WF a) (hb : WF b) (h : netKeyLe a b = true) (hne : a ≠ b) : KeyLt a b := by
  rw [netKeyLe_iff] at h
  rw [KeyLt]
  have : ¬ (val a.baseAddr = val b.baseAddr ∧ val a.subnetMask = val b.subnetMask) := fun ⟨h1, h2⟩ =>
    hne (wf_ext ha hb (val_inj _ _ h1) (val_inj _ _ h2))
  omega

theorem keyLt_le {a b : Net A} (h : KeyLt a b) : netKeyLe a b = true := by
  rw [netKeyLe_iff]; rw [KeyLt] at h; omega

theorem keyLt_asymm {a b : Net A} (h : KeyLt a b) : ¬ KeyLt b a := by
  rw [KeyLt] at *; omega

def AllWF (l : List (Net A)) : Prop := ∀ n ∈ l, WF n

/-- Sorting. -/
theorem sorted_sort (rt : Runtime) (l : List (Net A)) : (rt.sortUnstable netKeyLe l).Pairwise (fun a b => netKeyLe a b = true) :=
  rt.sortUnstable_sorted netKeyLe l netKeyLe_trans netKeyLe_total

theorem sort_mem (rt : Runtime) (l : List (Net A)) (n : Net A) : n ∈ rt.sortUnstable netKeyLe l ↔ n ∈ l :=
  (rt.sortUnstable_perm netKeyLe l).mem_iff

theorem sort_nodup_lt (rt : Runtime) {l : List (Net A)} (hw : AllWF l) (hn : l.Nodup) :
    (rt.sortUnstable netKeyLe l).Pairwise KeyLt := by
  have hn' : (rt.sortUnstable netKeyLe l).Nodup := hn.perm (rt.sortUnstable_perm netKeyLe l).symm
  refine ((sorted_sort rt l).and hn').imp_of_mem ?_
  intro a b ha hb h
  exact keyLt_of_le (hw a ((sort_mem rt l a).mp ha)) (hw b ((sort_mem rt l b).mp hb)) h.1 h.2

/-- The sorted list depends only on the elements. -/
theorem sort_unique {l l' : List (Net A)} (hw : AllWF l) (hp : l.Perm l') (h : l.Pairwise (fun a b => netKeyLe a b = true))
    (h' : l'.Pairwise (fun a b => netKeyLe a b = true)) : l = l' :=
  hp.eq_of_pairwise (fun a b ha hb h1 h2 => netKeyLe_antisymm (hw a ha) (hw b (hp.mem_iff.mpr hb)) h1 h2) h h'

/-! ## Elimination -/

theorem mem_elimInner (a : Net A) (l f : List (Net A)) (x : Net A) :
    x ∈ elimInner a l f ↔ x ∈ f ∧ ¬ (x ∈ l ∧ a.isSupersetOf x = true ∧ a ≠ x) := by
  induction l generalizing f with
  | nil => simp [elimInner]
  | cons b l ih =>
    rw [elimInner, ih]
    by_cases hc : (a.isSupersetOf b && decide (a ≠ b)) = true
    · rw [if_pos hc, mem_setRemove]
      rw [Bool.and_eq_true, decide_eq_true_eq] at hc
      by_cases hx : x = b
      · subst hx; simp [hc]
      · simp [hx]
    · rw [if_neg hc]
      rw [Bool.and_eq_true, decide_eq_true_eq] at hc
      by_cases hx : x = b
      · subst hx
        constructor
        · rintro ⟨h1, -⟩; exact ⟨h1, fun h => hc h.2⟩
        · rintro ⟨h1, -⟩; exact ⟨h1, fun h => hc h.2⟩
      · simp [hx]

theorem nodup_elimInner (a : Net A) (l f : List (Net A)) (h : f.Nodup) : (elimInner a l f).Nodup := by
  induction l generalizing f with
  | nil => exact h
  | cons b l ih =>
    rw [elimInner]
    apply ih
    split
    · exact nodup_setRemove h
    · exact h

theorem nodup_elimOuter (l f : List (Net A)) (h : f.Nodup) : (elimOuter l f).Nodup := by
  induction l generalizing f with
  | nil => exact h
  | cons a l ih => exact ih _ (nodup_elimInner a l f h)

theorem mem_elimOuter (l f : List (Net A)) (hw : AllWF l) (hs : l.Pairwise (fun a b => netKeyLe a b = true)) (x : Net A) :
    x ∈ elimOuter l f ↔ x ∈ f ∧ ¬ (x ∈ l ∧ ∃ a ∈ l, a ≠ x ∧ Includes a x) := by
  induction l generalizing f with
  | nil => simp [elimOuter]
  | cons a l ih =>
    have hwl : AllWF l := fun n hn => hw n (List.mem_cons_of_mem _ hn)
    have hwa := hw a List.mem_cons_self
    rw [List.pairwise_cons] at hs
    rw [elimOuter, ih _ hwl hs.2, mem_elimInner]
    constructor
    · rintro ⟨⟨h1, h2⟩, h3⟩
      refine ⟨h1, ?_⟩
      rintro ⟨hx, b, hb, hne, hinc⟩
      rcases List.mem_cons.mp hx with rfl | hx'
      · -- `x` is the head: nothing later includes it
        rcases List.mem_cons.mp hb with rfl | hb
        · exact hne rfl
        · have h4 := (includes_keyLt (hwl b hb) hwa hinc hne).1
          exact keyLt_asymm h4 (keyLt_of_le hwa (hwl b hb) (hs.1 b hb) (Ne.symm hne))
      · rcases List.mem_cons.mp hb with rfl | hb
        · exact h2 ⟨hx', (superset_iff hwa (hwl x hx')).mpr hinc, hne⟩
        · exact h3 ⟨hx', b, hb, hne, hinc⟩
    · rintro ⟨h1, h2⟩
      refine ⟨⟨h1, ?_⟩, ?_⟩
      · rintro ⟨hx, hsup, hne⟩
        exact h2 ⟨List.mem_cons_of_mem _ hx, a, List.mem_cons_self, hne, (superset_iff hwa (hwl x hx)).mp hsup⟩
      · rintro ⟨hx, b, hb, hne, hinc⟩
        exact h2 ⟨List.mem_cons_of_mem _ hx, b, List.mem_cons_of_mem _ hb, hne, hinc⟩

/-- Every network is included in one that no other includes. -/
theorem exists_maximal {l : List (Net A)} (hw : AllWF l) : ∀ x ∈ l, ∃ y ∈ l, Includes y x ∧ ¬ ∃ a ∈ l, a ≠ y ∧ Includes a y := by
  intro x hx
  generalize hm : val x.subnetMask = m
  induction m using Nat.strongRecOn generalizing x with
  | ind m ih =>
    by_cases h : ∃ a ∈ l, a ≠ x ∧ Includes a x
    · obtain ⟨a, ha, hne, hinc⟩ := h
      have := (includes_keyLt (hw a ha) (hw x hx) hinc hne).2
      obtain ⟨y, hy, h1, h2⟩ := ih _ (by omega) a ha rfl
      exact ⟨y, hy, includes_trans h1 hinc, h2⟩
    · exact ⟨x, hx, includes_refl x, h⟩

/-- The elimination phase of `minimize_subnets`. -/
def eliminated (rt : Runtime) (l : List (Net A)) : List (Net A) :=
  elimOuter (rt.sortUnstable netKeyLe l) (setOf (rt.sortUnstable netKeyLe l))

theorem mem_eliminated (rt : Runtime) {l : List (Net A)} (hw : AllWF l) (x : Net A) :
    x ∈ eliminated rt l ↔ x ∈ l ∧ ¬ ∃ a ∈ l, a ≠ x ∧ Includes a x := by
  have hw' : AllWF (rt.sortUnstable netKeyLe l) := fun n hn => hw n ((sort_mem rt l n).mp hn)
  rw [eliminated, mem_elimOuter _ _ hw' (sorted_sort rt l), mem_setOf, sort_mem]
  simp only [sort_mem]
  constructor
  · rintro ⟨h1, h2⟩; exact ⟨h1, fun h => h2 ⟨h1, h⟩⟩
  · rintro ⟨h1, h2⟩; exact ⟨h1, fun h => h2 h.2⟩

theorem nodup_eliminated (rt : Runtime) (l : List (Net A)) : (eliminated rt l).Nodup := nodup_elimOuter _ _ (nodup_setOf _)

theorem covers_eliminated (rt : Runtime) {l : List (Net A)} (hw : AllWF l) (a : A) :
    (∃ n ∈ eliminated rt l, Member n a) ↔ ∃ n ∈ l, Member n a := by
  constructor
  · rintro ⟨n, hn, ha⟩
    exact ⟨n, ((mem_eliminated rt hw n).mp hn).1, ha⟩
  · rintro ⟨n, hn, ha⟩
    obtain ⟨y, hy, h1, h2⟩ := exists_maximal hw n hn
    exact ⟨y, (mem_eliminated rt hw y).mpr ⟨hy, h2⟩, h1 a ha⟩

theorem length_eliminated (rt : Runtime) {l : List (Net A)} (hw : AllWF l) : (eliminated rt l).length ≤ l.length := by
  exact (nodup_subset_length (nodup_eliminated rt l) (fun a ha => ((mem_eliminated rt hw a).mp ha).1)).1

end generic
end Ripcalc
