import Verif.Props.Compose
/-!
# What minimizing yields, for all masks
-/
namespace Ripcalc
open AddrSpec LawfulIpAddr

section generic
variable {A : Type} [IpAddr A] [AddrSpec A] [LawfulIpAddr A]

omit [IpAddr A] [LawfulIpAddr A] in
theorem Twins.symm {a b : Net A} (h : Twins a b) : Twins b a := by
  obtain ⟨i, h | h⟩ := twins_sib.mp h
  · exact twins_sib.mpr ⟨i, .inr h⟩
  · exact twins_sib.mpr ⟨i, .inl h⟩

omit [IpAddr A] [LawfulIpAddr A] in
theorem Joins.symm {a b n : Net A} (h : Joins a b n) : Joins b a n := ⟨h.1.symm, h.2.1, fun x => (h.2.2 x).trans Or.comm⟩

theorem twins_unique {n a b : Net A} (ha : WF a) (hb : WF b) (h : Twins n a) (h' : Twins n b) : a = b := by
  obtain ⟨h1, i, h2, h3, h4, h5⟩ := h
  obtain ⟨h1', j, h2', h3', h4', h5'⟩ := h'
  have hij : i = j := by
    rcases Nat.lt_trichotomy i j with h | h | h
    · rw [h4' i h] at h3; cases h3
    · exact h
    · rw [h4 j h] at h3'; cases h3'
  subst hij
  have hbase : a.baseAddr = b.baseAddr := by
    apply val_inj
    apply Nat.eq_of_testBit_eq
    intro t
    by_cases ht : t < width A
    · by_cases hti : t = i
      · subst hti
        have k1 : (val n.baseAddr).testBit t ≠ (val a.baseAddr).testBit t := fun he => (h5 t ht).mp he rfl
        have k2 : (val n.baseAddr).testBit t ≠ (val b.baseAddr).testBit t := fun he => (h5' t ht).mp he rfl
        revert k1 k2
        cases (val n.baseAddr).testBit t <;> cases (val a.baseAddr).testBit t <;> cases (val b.baseAddr).testBit t <;> simp
      · rw [← (h5 t ht).mpr hti, (h5' t ht).mpr hti]
    · rw [Nat.testBit_lt_two_pow (Nat.lt_of_lt_of_le (val_lt _) (Nat.pow_le_pow_right (by decide) (Nat.not_lt.mp ht))),
        Nat.testBit_lt_two_pow (Nat.lt_of_lt_of_le (val_lt _) (Nat.pow_le_pow_right (by decide) (Nat.not_lt.mp ht)))]
  exact wf_ext ha hb hbase (h1.symm.trans h1')

theorem joins_merged {i : Nat} {a b : Net A} (ha : WF a) (hs : Sib i a b) : Joins a b (mergedNet a b) :=
  ⟨twins_sib.mpr ⟨i, .inl hs⟩, merged_wf a b, merged_member ha hs⟩

theorem joins_unique {a b n m : Net A} (h : Joins a b n) (h' : Joins a b m) : n = m :=
  includes_antisymm h.2.1 h'.2.1 (fun x hx => (h.2.2 x).mpr ((h'.2.2 x).mp hx)) (fun x hx => (h'.2.2 x).mpr ((h.2.2 x).mp hx))

omit [IpAddr A] [LawfulIpAddr A] in
theorem arises_wf {l : List (Net A)} (hw : ∀ n ∈ l, WF n) {n : Net A} (h : Arises l n) : WF n := by
  cases h with
  | given h _ => exact hw n h
  | join _ _ h => exact h.2.1

/-- `n` is in the list, or something it is a part of. -/
def Climbs (l S : List (Net A)) (n : Net A) : Prop := n ∈ S ∨ ∃ m ∈ S, PartOf l n m

omit [IpAddr A] [LawfulIpAddr A] in
theorem climbs_join {l S : List (Net A)} {n t p : Net A} (ht : Arises l t) (hj : Joins n t p) (h : Climbs l S p) : Climbs l S n := by
  rcases h with h | ⟨m, hm, h⟩
  · exact .inr ⟨p, h, .one ht hj⟩
  · exact .inr ⟨m, hm, .more ht hj h⟩

/-- Whatever is a part of something goes through its join with its twin. -/
theorem partOf_join {l S : List (Net A)} (hw : ∀ n ∈ l, WF n) {n t p : Net A} (ht : Arises l t) (hj : Joins n t p) {m : Net A} (hm : m ∈ S)
    (h : PartOf l n m) : Climbs l S p := by
  cases h with
  | one ht' hj' =>
    rw [twins_unique (arises_wf hw ht') (arises_wf hw ht) hj'.1 hj.1] at hj'
    rw [joins_unique hj hj']
    exact .inl hm
  | more ht' hj' h =>
    rw [twins_unique (arises_wf hw ht') (arises_wf hw ht) hj'.1 hj.1] at hj'
    rw [joins_unique hj hj']
    exact .inr ⟨m, hm, h⟩

/-- What the merge loop maintains. -/
structure ArisesInv (l S0 S : List (Net A)) : Prop where
  arises : ∀ n ∈ S, Arises l n
  climbs : ∀ n ∈ S0, Climbs l S n

theorem climbs_replaced {l S : List (Net A)} {i : Nat} {a b : Net A} (hwS : AllWF S) (hS : ∀ n ∈ S, Arises l n) (ha : a ∈ S) (hb : b ∈ S)
    (hs : Sib i a b) {n : Net A} (h : Climbs l S n) : Climbs l (replaced S a b) n := by
  have hj := joins_merged (hwS a ha) hs
  have key : ∀ m ∈ S, Climbs l (replaced S a b) m := by
    intro m hm
    by_cases h1 : m = a
    · subst h1
      exact climbs_join (hS b hb) hj (.inl (mem_replaced.mpr (.inl rfl)))
    · by_cases h2 : m = b
      · subst h2
        exact climbs_join (hS a ha) hj.symm (.inl (mem_replaced.mpr (.inl rfl)))
      · exact .inl (mem_replaced.mpr (.inr ⟨hm, h1, h2⟩))
  rcases h with h | ⟨m, hm, h⟩
  · exact key n h
  · induction h with
    | one ht hj' => exact climbs_join ht hj' (key _ hm)
    | more ht hj' _ ih => exact climbs_join ht hj' (ih hm)

theorem arisesInv_replaced (l S0 S : List (Net A)) (a b : Net A) (i : Nat) (hwS : AllWF S) (_ : S.Nodup) (h : ArisesInv l S0 S)
    (ha : a ∈ S) (hb : b ∈ S) (hs : Sib i a b) : ArisesInv l S0 (replaced S a b) := by
  refine ⟨fun n hn => ?_, fun n hn => climbs_replaced hwS h.arises ha hb hs (h.climbs n hn)⟩
  rcases mem_replaced.mp hn with rfl | hn
  · exact .join (h.arises a ha) (h.arises b hb) (joins_merged (hwS a ha) hs)
  · exact h.arises n hn.1

theorem eliminated_arises (rt : Runtime) {l : List (Net A)} (hw : ∀ n ∈ l, WF n) (n : Net A) :
    n ∈ eliminated rt l ↔ n ∈ l ∧ ∀ o ∈ l, Includes o n → o = n := by
  rw [mem_eliminated rt hw]
  refine and_congr_right fun hn => ⟨fun h o ho hi => ?_, fun h ⟨a, ha, hne, hi⟩ => hne (h a ha hi)⟩
  exact Classical.byContradiction fun hne => h ⟨o, ho, hne, hi⟩

theorem arises_climbs {l S0 S : List (Net A)} (hw : ∀ n ∈ l, WF n) (hS0 : ∀ n, n ∈ S0 ↔ n ∈ l ∧ ∀ o ∈ l, Includes o n → o = n)
    (h : ArisesInv l S0 S) (hno : ∀ a ∈ S, ∀ b ∈ S, ¬ Twins a b) {n : Net A} (hn : Arises l n) : Climbs l S n := by
  induction hn with
  | given h1 h2 => exact h.climbs _ ((hS0 _).mpr ⟨h1, h2⟩)
  | join ha hb hj iha ihb =>
    rcases iha with iha | ⟨m, hm, iha⟩
    · rcases ihb with ihb | ⟨m, hm, ihb⟩
      · exact absurd hj.1 (hno _ iha _ ihb)
      · exact partOf_join hw ha hj.symm hm ihb
    · exact partOf_join hw hb hj hm iha

theorem minimize_arises (rt : Runtime) (l out : List (Net A)) (hw : ∀ n ∈ l, WF n) (h : minimizeSubnets rt l = .ok out) :
    (∀ n ∈ out, Arises l n) ∧ ∀ n, Arises l n → Climbs l out n := by
  have h0 : ArisesInv l (eliminated rt l) (eliminated rt l) := by
    refine ⟨fun n hn => ?_, fun n hn => .inl hn⟩
    obtain ⟨h1, h2⟩ := (eliminated_arises rt hw n).mp hn
    exact .given h1 h2
  obtain ⟨out', S, h1, -, h2, -, h4⟩ := minimize_spec (ArisesInv l (eliminated rt l)) (arisesInv_replaced l _) rt rt l l hw (fun _ => Iff.rfl) h0
  rw [h] at h1
  cases h1
  refine ⟨fun n hn => h4.inv.arises n (h2.mem_iff.mp hn), fun n hn => ?_⟩
  have := arises_climbs hw (eliminated_arises rt hw) h4.inv (fun a ha b hb ht => ?_) hn
  · rcases this with hc | ⟨m, hm, hc⟩
    · exact .inl (h2.mem_iff.mpr hc)
    · exact .inr ⟨m, h2.mem_iff.mpr hm, hc⟩
  · obtain ⟨i, hs | hs⟩ := twins_sib.mp ht
    · exact h4.noSib a ha b hb ⟨i, hs⟩
    · exact h4.noSib b hb a ha ⟨i, hs⟩

/-! ## C88: what minimizing yields, for all masks -/

/-- Every network of the result arises from the input by joining twins. -/
theorem C88_sound (rt : Runtime) (l out : List (Net A)) (hw : ∀ n ∈ l, WF n) (h : minimizeSubnets rt l = .ok out) :
    ∀ n ∈ out, Arises l n := (minimize_arises rt l out hw h).1

/-- Every network that arises and whose twin does not is in the result; every other one is a part of a network in the result, or in
it. -/
theorem C88_complete (rt : Runtime) (l out : List (Net A)) (hw : ∀ n ∈ l, WF n) (h : minimizeSubnets rt l = .ok out) (n : Net A)
    (hn : Arises l n) : ((∀ t, Twins n t → ¬ Arises l t) → n ∈ out) ∧ (n ∈ out ∨ ∃ m ∈ out, PartOf l n m) := by
  have hc := (minimize_arises rt l out hw h).2 n hn
  refine ⟨fun ht => ?_, hc⟩
  rcases hc with hc | ⟨m, hm, hc⟩
  · exact hc
  · cases hc with
    | one ht' hj => exact absurd ht' (ht _ hj.1)
    | more ht' hj _ => exact absurd ht' (ht _ hj.1)

omit [IpAddr A] in
theorem partOf_trans_last {l : List (Net A)} {n m : Net A} (h : PartOf l n m) (hn : Arises l n) :
    ∃ q t, Joins q t m ∧ Arises l q ∧ Arises l t ∧ (q = n ∨ PartOf l n q) := by
  induction h with
  | one ht hj => exact ⟨_, _, hj, hn, ht, .inl rfl⟩
  | more ht hj _ ih =>
    obtain ⟨q, t, h1, h2, h3, h4⟩ := ih (.join hn ht hj)
    refine ⟨q, t, h1, h2, h3, .inr ?_⟩
    rcases h4 with rfl | h4
    · exact .one ht hj
    · exact .more ht hj h4

omit [IpAddr A] [LawfulIpAddr A] in
theorem partOf_includes {l : List (Net A)} {n m : Net A} (h : PartOf l n m) : Includes m n := by
  induction h with
  | one _ hj => exact fun x hx => (hj.2.2 x).mpr (.inl hx)
  | more _ hj _ ih => exact fun x hx => ih x ((hj.2.2 x).mpr (.inl hx))

omit [IpAddr A] [LawfulIpAddr A] in
theorem twins_apart {n t : Net A} (h : Twins n t) : ¬ Member n t.baseAddr := by
  obtain ⟨-, i, h1, h2, -, h3⟩ := h
  exact fun hm => (h3 i h1).mp (hm i h1 h2).symm rfl

omit [IpAddr A] [LawfulIpAddr A] in
theorem partOf_irrefl {l : List (Net A)} {n : Net A} (h : PartOf l n n) : False := by
  cases h with
  | one _ hj => exact twins_apart hj.1 ((hj.2.2 _).mpr (.inr (base_member _)))
  | more _ hj h => exact twins_apart hj.1 (partOf_includes h _ ((hj.2.2 _).mpr (.inr (base_member _))))

/-- If no network arises by joining different twins, the result consists of exactly the networks that arise and whose twins do not. -/
theorem C88_exact (rt : Runtime) (l out : List (Net A)) (hw : ∀ n ∈ l, WF n) (h : minimizeSubnets rt l = .ok out)
    (hu : ∀ a b c d n, Arises l a → Arises l b → Arises l c → Arises l d → Joins a b n → Joins c d n → c = a ∨ c = b) (n : Net A) :
    n ∈ out ↔ Arises l n ∧ ∀ t, Twins n t → ¬ Arises l t := by
  have h0 : (∀ n ∈ eliminated rt l, Arises l n) ∧ ∀ n ∈ eliminated rt l, ∀ m ∈ eliminated rt l, ¬ PartOf l n m := by
    refine ⟨fun n hn => ?_, fun n hn m hm hp => ?_⟩
    · obtain ⟨h1, h2⟩ := (eliminated_arises rt hw n).mp hn
      exact .given h1 h2
    · obtain ⟨h1, h2⟩ := (eliminated_arises rt hw n).mp hn
      have := h2 m ((eliminated_arises rt hw m).mp hm).1 (partOf_includes hp)
      subst this
      exact partOf_irrefl hp
  obtain ⟨out', S, h1, -, h2, -, h4⟩ := minimize_spec (fun S => (∀ n ∈ S, Arises l n) ∧ ∀ n ∈ S, ∀ m ∈ S, ¬ PartOf l n m) (by
    intro S a b i hwS _ hI ha hb hs
    have hj := joins_merged (hwS a ha) hs
    have hm : Arises l (mergedNet a b) := .join (hI.1 a ha) (hI.1 b hb) hj
    refine ⟨fun n hn => ?_, fun n hn m hmem hp => ?_⟩
    · rcases mem_replaced.mp hn with rfl | hn
      · exact hm
      · exact hI.1 n hn.1
    · have up : ∀ n ∈ S, n ≠ a → n ≠ b → ¬ PartOf l n (mergedNet a b) := by
        intro n hn hna hnb hp
        obtain ⟨q, t, k1, k2, k3, k4⟩ := partOf_trans_last hp (hI.1 n hn)
        rcases hu a b q t _ (hI.1 a ha) (hI.1 b hb) k2 k3 hj k1 with h | h <;> rw [h] at k4
        · rcases k4 with k4 | k4
          · exact hna k4.symm
          · exact hI.2 n hn a ha k4
        · rcases k4 with k4 | k4
          · exact hnb k4.symm
          · exact hI.2 n hn b hb k4
      rcases mem_replaced.mp hn with rfl | hn
      · rcases mem_replaced.mp hmem with rfl | hmem
        · exact partOf_irrefl hp
        · exact hI.2 a ha m hmem.1 (.more (hI.1 b hb) hj hp)
      · rcases mem_replaced.mp hmem with rfl | hmem
        · exact up n hn.1 hn.2.1 hn.2.2 hp
        · exact hI.2 n hn.1 m hmem.1 hp) rt rt l l hw (fun _ => Iff.rfl) h0
  rw [h] at h1
  cases h1
  constructor
  · intro hn
    refine ⟨h4.inv.1 n (h2.mem_iff.mp hn), fun t ht hat => ?_⟩
    have hn' := h2.mem_iff.mp hn
    rcases (minimize_arises rt l out hw h).2 t hat with hc | ⟨m, hm, hc⟩
    · exact C45_nothing_to_merge rt l out hw h n hn t hc ht
    · refine h4.inv.2 n hn' m (h2.mem_iff.mp hm) ?_
      cases hc with
      | one k1 k2 =>
        rw [twins_unique (arises_wf hw k1) (h4.wf n hn') k2.1 ht.symm] at k2
        exact .one hat k2.symm
      | more k1 k2 k3 =>
        rw [twins_unique (arises_wf hw k1) (h4.wf n hn') k2.1 ht.symm] at k2
        exact .more hat k2.symm k3
  · rintro ⟨ha, ht⟩
    exact (C88_complete rt l out hw h n ha).1 ht

theorem joins_merged_or {a b n : Net A} (ha : WF a) (hb : WF b) (h : Joins a b n) : ∃ i, i < width A ∧ (val a.subnetMask).testBit i = true ∧
    ∀ t, t < width A → (val n.subnetMask).testBit t = ((val a.subnetMask).testBit t && decide (t ≠ i)) := by
  obtain ⟨i, hs | hs⟩ := twins_sib.mp h.1
  · refine ⟨i, hs.lt, hs.bit, fun t ht => ?_⟩
    rw [joins_unique h (joins_merged ha hs), merged_mask hs ht]
  · refine ⟨i, hs.lt, hs.mask ▸ hs.bit, fun t ht => ?_⟩
    rw [joins_unique h.symm (joins_merged hb hs), merged_mask hs ht, hs.mask]

theorem inChain_joins {M : Nat} {a b n : Net A} (ha : WF a) (hb : WF b) (hca : InChain M a) (hcb : InChain M b) (h : Joins a b n) : InChain M n := by
  obtain ⟨i, hs | hs⟩ := twins_sib.mp h.1
  · rw [joins_unique h (joins_merged ha hs)]; exact inChain_merged hca hs
  · rw [joins_unique h.symm (joins_merged hb hs)]; exact inChain_merged hcb hs

theorem inChain_unique {M : Nat} {a b c d n : Net A} (ha : WF a) (hb : WF b) (hc : WF c) (hd : WF d) (hca : InChain M a) (hcc : InChain M c)
    (h : Joins a b n) (h' : Joins c d n) : c = a ∨ c = b := by
  have hmask : c.subnetMask = a.subnetMask := by
    obtain ⟨i, h1, h2, h3⟩ := joins_merged_or ha hb h
    obtain ⟨i', h1', h2', h3'⟩ := joins_merged_or hc hd h'
    obtain ⟨j, -, hj⟩ := hca
    obtain ⟨j', -, hj'⟩ := hcc
    have hii : i = i' := by
      have e1 := h2
      have e2 := h2'
      rw [hj i h1, Bool.and_eq_true, decide_eq_true_eq] at e1
      rw [hj' i' h1', Bool.and_eq_true, decide_eq_true_eq] at e2
      rcases Nat.lt_trichotomy i i' with hlt | heq | hgt
      · have k1 := h3 i' h1'
        have k2 := h3' i' h1'
        rw [hj i' h1', e2.1] at k1
        rw [k1, h2'] at k2
        have : decide (j ≤ i') = true := by rw [decide_eq_true_eq]; omega
        rw [this] at k2
        simp at k2
        omega
      · exact heq
      · have k1 := h3' i h1
        have k2 := h3 i h1
        rw [hj' i h1, e1.1] at k1
        rw [k1, h2] at k2
        have : decide (j' ≤ i) = true := by rw [decide_eq_true_eq]; omega
        rw [this] at k2
        simp at k2
        omega
    subst hii
    apply addr_ext
    intro t ht
    by_cases hti : t = i
    · subst hti; rw [h2, h2']
    · have k1 := h3 t ht
      have k2 := h3' t ht
      rw [k1] at k2
      simpa [hti] using k2.symm
  have key : ∀ e : Net A, WF e → c.subnetMask = e.subnetMask → Member e c.baseAddr → c = e := by
    intro e he hm hmem
    refine wf_ext hc he (addr_ext fun t ht => ?_) hm
    cases hb : (val e.subnetMask).testBit t
    · rw [he.host_zero t ht hb, hc.host_zero t ht (by rw [hm]; exact hb)]
    · exact hmem t ht hb
  rcases (h.2.2 _).mp ((h'.2.2 _).mpr (.inl (base_member c))) with hm | hm
  · exact .inl (key a ha hmask hm)
  · exact .inr (key b hb (hmask.trans h.1.1) hm)

/-- So for masks that are obtained from one another by clearing low bits, in particular for CIDR masks, or one common mask. -/
theorem C88_chain (rt : Runtime) (M : Nat) (l out : List (Net A)) (hw : ∀ n ∈ l, WF n) (hc : ∀ n ∈ l, InChain M n)
    (h : minimizeSubnets rt l = .ok out) (n : Net A) : n ∈ out ↔ Arises l n ∧ ∀ t, Twins n t → ¬ Arises l t := by
  have hch : ∀ n, Arises l n → InChain M n := by
    intro n hn
    induction hn with
    | given h _ => exact hc _ h
    | join ha hb hj iha ihb => exact inChain_joins (arises_wf hw ha) (arises_wf hw hb) iha ihb hj
  exact C88_exact rt l out hw h (fun a b c d n ha hb hc hd hj hj' => inChain_unique (arises_wf hw ha) (arises_wf hw hb) (arises_wf hw hc)
    (arises_wf hw hd) (hch a ha) (hch c hc) hj hj') n

end generic

/-! ## Both families -/

theorem C88_sound_families : (type_of% (@C88_sound V4 _ _ _)) ∧ (type_of% (@C88_sound V6 _ _ _)) :=
  ⟨@C88_sound V4 _ _ _, @C88_sound V6 _ _ _⟩

theorem C88_complete_families : (type_of% (@C88_complete V4 _ _ _)) ∧ (type_of% (@C88_complete V6 _ _ _)) :=
  ⟨@C88_complete V4 _ _ _, @C88_complete V6 _ _ _⟩

theorem C88_exact_families : (type_of% (@C88_exact V4 _ _ _)) ∧ (type_of% (@C88_exact V6 _ _ _)) :=
  ⟨@C88_exact V4 _ _ _, @C88_exact V6 _ _ _⟩

theorem C88_chain_families : (type_of% (@C88_chain V4 _ _ _)) ∧ (type_of% (@C88_chain V6 _ _ _)) :=
  ⟨@C88_chain V4 _ _ _, @C88_chain V6 _ _ _⟩

/-! ## Concrete cases -/

/-- Five networks: a network arises in two ways, first before and then after it is joined with its twin. -/
def twoWays : List (Net V4) :=
  [mk4 0x00000000#32 0xFFFFFFFE#32, mk4 0x00000002#32 0xFFFFFFFE#32, mk4 0x00000000#32 0xFFFFFFFD#32, mk4 0x00000001#32 0xFFFFFFFD#32,
   mk4 0x00000004#32 0xFFFFFFFC#32]

theorem twoWays_wf : ∀ n ∈ twoWays, WF n := by
  intro n hn
  simp only [twoWays, List.mem_cons, List.not_mem_nil, or_false] at hn
  rcases hn with rfl | rfl | rfl | rfl | rfl <;> exact newWithMask_wf _ _

theorem twoWays_result (rt : Runtime) : minimizeSubnets rt twoWays = .ok [mk4 0x00000000#32 0xFFFFFFF8#32, mk4 0x00000000#32 0xFFFFFFFC#32] := by
  rw [C43_set_function (evalRuntime .checked true) rt twoWays twoWays twoWays_wf (fun _ => Iff.rfl)]
  exact minimize_of_fuel 8 4 _ _ [mk4 0x00000000#32 0xFFFFFFF8#32, mk4 0x00000000#32 0xFFFFFFFC#32] _ (by decide +kernel) (by decide +kernel)
/-- For masks with gaps the result can also contain a network whose twin arises: the hypothesis of `C88_exact` is needed. -/
theorem C88_two_ways (rt : Runtime) : ∃ l out : List (Net V4), (∀ n ∈ l, WF n) ∧ minimizeSubnets rt l = .ok out ∧
    ∃ n ∈ out, ∃ t, Twins n t ∧ Arises l t := by
  refine ⟨twoWays, _, twoWays_wf, twoWays_result rt, mk4 0x00000000#32 0xFFFFFFFC#32, by simp, mk4 0x00000004#32 0xFFFFFFFC#32, ?_,
    .given (by simp [twoWays]) fun o ho hi => ?_⟩
  · refine ⟨rfl, 2, by decide, by decide +kernel, ?_, ?_⟩
    · show ∀ t, t < 2 → (val (mk4 0x00000000#32 0xFFFFFFFC#32).subnetMask).testBit t = false
      decide +kernel
    · show ∀ t, t < 32 → ((val (mk4 0x00000000#32 0xFFFFFFFC#32).baseAddr).testBit t = (val (mk4 0x00000004#32 0xFFFFFFFC#32).baseAddr).testBit t ↔ t ≠ 2)
      decide +kernel
  · have hs := (superset_iff (twoWays_wf o ho) (newWithMask_wf _ _)).mpr hi
    revert hs
    revert o
    show ∀ o ∈ twoWays, _
    have : ∀ o ∈ twoWays, o.isSupersetOf (mk4 0x00000004#32 0xFFFFFFFC#32) = true → o = mk4 0x00000004#32 0xFFFFFFFC#32 := by decide +kernel
    intro o ho _ hs
    exact this o ho hs

/-- A join of CIDR networks, as in the hypotheses: 10.0.0.0/24 arises from its halves. -/
example : Arises [mk4 0x0A000000#32 0xFFFFFF80#32, mk4 0x0A000080#32 0xFFFFFF80#32] (mk4 0x0A000000#32 0xFFFFFF00#32) := by
  have hs : Sib 7 (mk4 0x0A000000#32 0xFFFFFF80#32) (mk4 0x0A000080#32 0xFFFFFF80#32) := by
    refine ⟨by decide, rfl, by decide +kernel, ?_, by decide +kernel, by decide +kernel, ?_⟩
    · show ∀ t, t < 7 → (val (mk4 0x0A000000#32 0xFFFFFF80#32).subnetMask).testBit t = false
      decide +kernel
    · show ∀ t, t < 32 → t ≠ 7 → (val (mk4 0x0A000000#32 0xFFFFFF80#32).baseAddr).testBit t = (val (mk4 0x0A000080#32 0xFFFFFF80#32).baseAddr).testBit t
      decide +kernel
  have h : mk4 0x0A000000#32 0xFFFFFF00#32 = mergedNet (mk4 0x0A000000#32 0xFFFFFF80#32) (mk4 0x0A000080#32 0xFFFFFF80#32) := by decide +kernel
  rw [h]
  refine .join (.given (by simp) fun o ho hi => ?_) (.given (by simp) fun o ho hi => ?_) (joins_merged (newWithMask_wf _ _) hs)
  all_goals
    have hs := (superset_iff (n := o) (by simp only [List.mem_cons, List.not_mem_nil, or_false] at ho; rcases ho with rfl | rfl <;> exact newWithMask_wf _ _)
      (newWithMask_wf _ _)).mpr hi
    simp only [List.mem_cons, List.not_mem_nil, or_false] at ho
    rcases ho with rfl | rfl
    all_goals first | rfl | (revert hs; decide +kernel)

end Ripcalc
