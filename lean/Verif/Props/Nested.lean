import Verif.Props.Joining
import Verif.Props.Compose
/-!
# Minimizing networks that are nested or disjoint
-/
namespace Ripcalc
open AddrSpec LawfulIpAddr

/-- Of any two networks of the list, one is inside the other or they have no address in common. -/
def NestedOrDisjoint [AddrSpec A] (l : List (Net A)) : Prop :=
  ∀ n ∈ l, ∀ o ∈ l, Includes n o ∨ Includes o n ∨ Disjoint n o

section generic
variable {A : Type} [IpAddr A] [AddrSpec A] [LawfulIpAddr A]

omit [IpAddr A] [LawfulIpAddr A] in
/-- Joining twins keeps networks apart. -/
theorem joinFirst_disjoint {l m : List (Net A)} (h : JoinFirst l m) (hd : ∀ n ∈ l, ∀ o ∈ l, n ≠ o → Disjoint n o) :
    ∀ n ∈ m, ∀ o ∈ m, n ≠ o → Disjoint n o := by
  obtain ⟨a, ha, b, hb, -, -, j, h3, -, h5⟩ := h
  have key : ∀ o ∈ l, o ≠ a → o ≠ b → Disjoint j o := by
    intro o ho h1 h2 x ⟨hj, hx⟩
    rcases (h3.2.2 x).mp hj with hj | hj
    · exact hd a ha o ho (Ne.symm h1) x ⟨hj, hx⟩
    · exact hd b hb o ho (Ne.symm h2) x ⟨hj, hx⟩
  intro n hn o ho hne
  rcases (h5 n).mp hn with rfl | ⟨hn, h1, h2⟩ <;> rcases (h5 o).mp ho with rfl | ⟨ho, h1', h2'⟩
  · exact absurd rfl hne
  · exact key o ho h1' h2'
  · exact fun x hx => key n hn h1 h2 x hx.symm
  · exact hd n hn o ho hne

omit [IpAddr A] [LawfulIpAddr A] in
theorem joinAll_disjoint {l m : List (Net A)} (h : JoinAll l m) (hd : ∀ n ∈ l, ∀ o ∈ l, n ≠ o → Disjoint n o) :
    ∀ n ∈ m, ∀ o ∈ m, n ≠ o → Disjoint n o := by
  induction h with
  | done _ => exact hd
  | step hs _ ih => exact ih (joinFirst_disjoint hs hd)

/-! ## C45, C47: nested or disjoint networks with any masks -/

/-- Whatever the masks: if any two networks of the input are nested or disjoint, no network of the output is inside another, and
they are disjoint. -/
theorem C45_nested_partial (rt : Runtime) (l out : List (Net A)) (hw : ∀ n ∈ l, WF n) (hc : NestedOrDisjoint l)
    (h : minimizeSubnets rt l = .ok out) : ∀ n ∈ out, ∀ o ∈ out, n ≠ o → ¬ Includes n o ∧ Disjoint n o := by
  obtain ⟨l0, -, h2, h3⟩ := (C88_steps rt l out hw).mp h
  have hd := joinAll_disjoint h3 fun n hn o ho hne => by
    obtain ⟨hn, hn'⟩ := (h2 n).mp hn
    obtain ⟨ho, ho'⟩ := (h2 o).mp ho
    rcases hc n hn o ho with h | h | h
    · exact absurd (ho' n hn h) hne
    · exact absurd (hn' o ho h).symm hne
    · exact h
  refine fun n hn o ho hne => ⟨fun hi => ?_, hd n hn o ho hne⟩
  exact hd n hn o ho hne o.baseAddr ⟨hi _ (base_member o), base_member o⟩

/-- Whatever the masks: if any two networks of the input are nested or disjoint, minimizing the output returns it unchanged. -/
theorem C47_nested_partial (rt rt' : Runtime) (l out : List (Net A)) (hw : ∀ n ∈ l, WF n) (hc : NestedOrDisjoint l)
    (h : minimizeSubnets rt l = .ok out) : minimizeSubnets rt' out = .ok out :=
  (C47_iff rt rt' l out hw h).mpr fun n hn o ho hne => (C45_nested_partial rt l out hw hc h n hn o ho hne).1

omit [IpAddr A] [LawfulIpAddr A] in
/-- A bit that is a network bit of both networks and different in their base addresses keeps them apart. -/
theorem disjoint_of_bit {n o : Net A} (i : Nat) (hi : i < width A) (hn : (val n.subnetMask).testBit i = true)
    (ho : (val o.subnetMask).testBit i = true) (h : (val n.baseAddr).testBit i ≠ (val o.baseAddr).testBit i) : Disjoint n o :=
  fun _ hx => h ((hx.1 i hi hn).symm.trans (hx.2 i hi ho))

/-- Masks obtained from one another by clearing low bits are a special case. -/
theorem nested_of_chain {M : Nat} {l : List (Net A)} (h : ∀ n ∈ l, InChain M n) : NestedOrDisjoint l := by
  intro n hn o ho
  by_cases hd : Disjoint n o
  · exact .inr (.inr hd)
  · simp only [Disjoint, Classical.not_forall, Classical.not_not] at hd
    obtain ⟨a, h1, h2⟩ := hd
    rcases chain_nested (h n hn) (h o ho) h1 h2 with h | h
    · exact .inl h
    · exact .inr (.inl h)

/-- Where C45 fails, whatever the masks: if a network that arises is inside another that arises, and its twin does not arise, then a
network of the output is inside another. -/
theorem C45_fails_partial (rt : Runtime) (l out : List (Net A)) (hw : ∀ n ∈ l, WF n) (h : minimizeSubnets rt l = .ok out) (n o : Net A)
    (hn : Arises l n) (ho : Arises l o) (ht : ∀ t, Twins o t → ¬ Arises l t) (hne : n ≠ o) (hi : Includes n o) :
    ∃ m ∈ out, o ∈ out ∧ m ≠ o ∧ Includes m o := by
  have ho' := (C88_complete rt l out hw h o ho).1 ht
  obtain ⟨m, hm, hmn⟩ : ∃ m ∈ out, Includes m n := by
    rcases (C88_complete rt l out hw h n hn).2 with hn' | ⟨m, hm, hp⟩
    · exact ⟨n, hn', includes_refl n⟩
    · exact ⟨m, hm, partOf_includes hp⟩
  refine ⟨m, hm, ho', ?_, includes_trans hmn hi⟩
  rintro rfl
  exact hne (includes_antisymm (arises_wf hw hn) (arises_wf hw ho) hi hmn)

/-- When exactly it fails, if no network arises by joining different twins. -/
theorem C45_exact_partial (rt : Runtime) (l out : List (Net A)) (hw : ∀ n ∈ l, WF n) (h : minimizeSubnets rt l = .ok out)
    (hu : ∀ a b c d n, Arises l a → Arises l b → Arises l c → Arises l d → Joins a b n → Joins c d n → c = a ∨ c = b) :
    (∃ n ∈ out, ∃ o ∈ out, n ≠ o ∧ Includes n o) ↔
      ∃ n o, Arises l n ∧ Arises l o ∧ (∀ t, Twins o t → ¬ Arises l t) ∧ n ≠ o ∧ Includes n o := by
  constructor
  · rintro ⟨n, hn, o, ho, hne, hi⟩
    exact ⟨n, o, ((C88_exact rt l out hw h hu n).mp hn).1, ((C88_exact rt l out hw h hu o).mp ho).1,
      ((C88_exact rt l out hw h hu o).mp ho).2, hne, hi⟩
  · rintro ⟨n, o, hn, ho, ht, hne, hi⟩
    obtain ⟨m, hm, ho', h1, h2⟩ := C45_fails_partial rt l out hw h n o hn ho ht hne hi
    exact ⟨m, hm, o, ho', h1, h2⟩

end generic

theorem C45_fails_families_partial : (type_of% (@C45_fails_partial V4 _ _ _)) ∧ (type_of% (@C45_fails_partial V6 _ _ _)) :=
  ⟨@C45_fails_partial V4 _ _ _, @C45_fails_partial V6 _ _ _⟩

theorem C45_exact_families_partial : (type_of% (@C45_exact_partial V4 _ _ _)) ∧ (type_of% (@C45_exact_partial V6 _ _ _)) :=
  ⟨@C45_exact_partial V4 _ _ _, @C45_exact_partial V6 _ _ _⟩

theorem C45_nested_families_partial : (type_of% (@C45_nested_partial V4 _ _ _)) ∧ (type_of% (@C45_nested_partial V6 _ _ _)) :=
  ⟨@C45_nested_partial V4 _ _ _, @C45_nested_partial V6 _ _ _⟩

theorem C47_nested_families_partial : (type_of% (@C47_nested_partial V4 _ _ _)) ∧ (type_of% (@C47_nested_partial V6 _ _ _)) :=
  ⟨@C47_nested_partial V4 _ _ _, @C47_nested_partial V6 _ _ _⟩

/-- Networks with masks that are not obtained from one another by clearing low bits: two that are joined, one beside them, and one
inside that one. -/
def nestedInput : List (Net V4) :=
  [mk4 0x0A000000#32 0xFF00FF00#32, mk4 0x0A000100#32 0xFF00FF00#32, mk4 0x0B000000#32 0xFFFF0000#32, mk4 0x0B000001#32 0xFFFF0FFF#32]

/-- Non-vacuity: the networks are nested or disjoint, two are joined and one is dropped, and the masks are in no chain. -/
example : (∀ n ∈ nestedInput, WF n) ∧ NestedOrDisjoint nestedInput ∧ (¬ ∃ M, ∀ n ∈ nestedInput, InChain M n) ∧
    minimizeSubnets (evalRuntime .checked true) nestedInput = .ok [mk4 0x0A000000#32 0xFF00FE00#32, mk4 0x0B000000#32 0xFFFF0000#32] := by
  have hw : ∀ n ∈ nestedInput, WF n := by
    intro n hn
    simp only [nestedInput, List.mem_cons, List.not_mem_nil, or_false] at hn
    rcases hn with rfl | rfl | rfl | rfl <;> exact newWithMask_wf _ _
  refine ⟨hw, ?_, ?_, ?_⟩
  · have hd : ∀ n ∈ nestedInput, ∀ o ∈ nestedInput, n.isSupersetOf o = true ∨ o.isSupersetOf n = true ∨
        ∃ i ∈ [8, 24], ((val n.subnetMask).testBit i = true ∧ (val o.subnetMask).testBit i = true ∧
          (val n.baseAddr).testBit i ≠ (val o.baseAddr).testBit i) := by decide +kernel
    intro n hn o ho
    rcases hd n hn o ho with h | h | ⟨i, hi, h1, h2, h3⟩
    · exact .inl ((superset_iff (hw n hn) (hw o ho)).mp h)
    · exact .inr (.inl ((superset_iff (hw o ho) (hw n hn)).mp h))
    · refine .inr (.inr (disjoint_of_bit i ?_ h1 h2 h3))
      simp only [List.mem_cons, List.not_mem_nil, or_false] at hi
      rcases hi with rfl | rfl <;> decide
  · rintro ⟨M, hM⟩
    obtain ⟨i, -, h1⟩ := hM (mk4 0x0A000000#32 0xFF00FF00#32) (by decide)
    obtain ⟨j, -, h2⟩ := hM (mk4 0x0B000000#32 0xFFFF0000#32) (by decide)
    have a1 := h1 8 (by decide)
    have a2 := h1 16 (by decide)
    have a3 := h2 16 (by decide)
    rw [show (val (mk4 0x0A000000#32 0xFF00FF00#32).subnetMask).testBit 8 = true by decide +kernel] at a1
    rw [show (val (mk4 0x0A000000#32 0xFF00FF00#32).subnetMask).testBit 16 = false by decide +kernel] at a2
    rw [show (val (mk4 0x0B000000#32 0xFFFF0000#32).subnetMask).testBit 16 = true by decide +kernel] at a3
    simp at a1 a2 a3
    have := a2 a3.1
    omega
  · exact minimize_of_fuel 5 2 _ _ [mk4 0x0B000000#32 0xFFFF0000#32, mk4 0x0A000000#32 0xFF00FE00#32] _ (by decide +kernel) (by decide +kernel)

theorem lopsided_arises (t : Net V4) (h : Arises lopsidedInput t) : t ∈ mk4 0x00000000#32 0xFFFFFFFC#32 :: lopsidedInput := by
  have key : ∀ a ∈ mk4 0x00000000#32 0xFFFFFFFC#32 :: lopsidedInput, ∀ b ∈ mk4 0x00000000#32 0xFFFFFFFC#32 :: lopsidedInput,
      a.subnetMask = b.subnetMask → a = b ∨ (a = mk4 0x00000000#32 0xFFFFFFFE#32 ∧ b = mk4 0x00000002#32 0xFFFFFFFE#32) ∨
        (b = mk4 0x00000000#32 0xFFFFFFFE#32 ∧ a = mk4 0x00000002#32 0xFFFFFFFE#32) := by decide +kernel
  have hc : Covers [mk4 0x00000000#32 0xFFFFFFFC#32] (fun x => ∃ n ∈ [mk4 0x00000000#32 0xFFFFFFFE#32, mk4 0x00000002#32 0xFFFFFFFE#32],
      Member n x) := by
    obtain ⟨out, h1, h2⟩ := C42_same_addresses (evalRuntime .checked true)
      [mk4 0x00000000#32 0xFFFFFFFE#32, mk4 0x00000002#32 0xFFFFFFFE#32] fun n hn => lopsided_wf n (by
        simp only [List.mem_cons, List.not_mem_nil, or_false] at hn
        rcases hn with rfl | rfl <;> decide)
    rw [minimize_of_fuel 5 2 _ _ [mk4 0x00000000#32 0xFFFFFFFC#32] [mk4 0x00000000#32 0xFFFFFFFC#32] (by decide +kernel) (by decide +kernel)] at h1
    cases h1
    exact h2
  have hj : ∀ n : Net V4, WF n → (∀ x, Member n x ↔ Member (mk4 0x00000000#32 0xFFFFFFFE#32) x ∨ Member (mk4 0x00000002#32 0xFFFFFFFE#32) x) →
      n = mk4 0x00000000#32 0xFFFFFFFC#32 := by
    intro n hn hm
    have hm' : ∀ x, Member n x ↔ Member (mk4 0x00000000#32 0xFFFFFFFC#32) x := fun x => by
      have := hc x
      simp only [List.mem_cons, List.not_mem_nil, or_false, exists_eq_or_imp, exists_eq_left] at this
      exact (hm x).trans this.symm
    exact includes_antisymm hn (newWithMask_wf _ _) (fun x hx => (hm' x).mpr hx) (fun x hx => (hm' x).mp hx)
  induction h with
  | given h _ => exact List.mem_cons_of_mem _ h
  | @join a b n _ _ h iha ihb =>
    rcases key a iha b ihb h.1.1 with rfl | ⟨rfl, rfl⟩ | ⟨rfl, rfl⟩
    · exact absurd (base_member _) (twins_apart h.1)
    · rw [hj n h.2.1 h.2.2]; exact List.mem_cons_self
    · rw [hj n h.2.1 fun x => (h.2.2 x).trans Or.comm]; exact List.mem_cons_self

/-- Non-vacuity: of the counterexample to C45, the network with the gap has no twin that arises and is inside the joined network. -/
example : ∃ n o, Arises lopsidedInput n ∧ Arises lopsidedInput o ∧ (∀ t, Twins o t → ¬ Arises lopsidedInput t) ∧ n ≠ o ∧ Includes n o := by
  have hs := C88_sound (evalRuntime .checked true) _ _ lopsided_wf (lopsided_result _)
  refine ⟨mk4 0x00000000#32 0xFFFFFFFC#32, mk4 0x00000000#32 0xFFFFFFFD#32, hs _ (by decide), hs _ (by decide), fun t ht ha => ?_, by decide,
    (superset_iff (newWithMask_wf _ _) (newWithMask_wf _ _)).mp (by decide +kernel)⟩
  have h1 := lopsided_arises t ha
  have h2 : ∀ t ∈ mk4 0x00000000#32 0xFFFFFFFC#32 :: lopsidedInput, (mk4 0x00000000#32 0xFFFFFFFD#32).subnetMask = t.subnetMask →
      t = mk4 0x00000000#32 0xFFFFFFFD#32 := by decide +kernel
  rw [h2 t h1 ht.1] at ht
  exact twins_apart ht (base_member _)

end Ripcalc
