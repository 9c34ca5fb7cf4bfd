import Verif.Props.MergeAll
import Verif.Proofs.Loop
/-!
# The steps of minimizing
-/
namespace Ripcalc
open AddrSpec LawfulIpAddr

section generic
variable {A : Type} [IpAddr A] [AddrSpec A] [LawfulIpAddr A]

theorem sib_keyLt {i : Nat} {a b : Net A} (ha : WF a) (hb : WF b) (h : Sib i a b) : KeyLt a b := by
  have h3 := h.netNum
  have hlt := netNum_lt b
  left
  rw [base_eq_wval ha.hz, base_eq_wval hb.hz, wval_congr h.mask, wval_lt_net b 0 (by omega) hlt]
  omega

/-- Twins in ascending order. -/
theorem twins_lt {a b : Net A} (ha : WF a) (hb : WF b) : (∃ i, Sib i a b) ↔ KeyLt a b ∧ Twins a b := by
  constructor
  · rintro ⟨i, h⟩
    exact ⟨sib_keyLt ha hb h, twins_sib.mpr ⟨i, .inl h⟩⟩
  · rintro ⟨hk, ht⟩
    obtain ⟨i, h | h⟩ := twins_sib.mp ht
    · exact ⟨i, h⟩
    · exact absurd (sib_keyLt hb ha h) (keyLt_asymm hk)

/-- The pair the outer loop finds is the first one. -/
theorem mergeOuter_first (l : List (Net A)) (hw : AllWF l) (hs : l.Pairwise KeyLt) {pr : Profile} {a b n : Net A}
    (h : mergeOuter pr l = .ok (some (a, b, n))) : ∀ c ∈ l, ∀ d ∈ l, (∃ i, Sib i c d) → c = a ∨ KeyLt a c := by
  induction l with
  | nil => exact fun c hc => absurd hc (by simp)
  | cons x l ih =>
    have hwx := hw x List.mem_cons_self
    have hwl : AllWF l := fun n hn => hw n (List.mem_cons_of_mem _ hn)
    rw [List.pairwise_cons] at hs
    obtain ⟨r', h1', h2'⟩ := mergeInner_spec hwx l hwl hs.1
    match r', h1', h2' with
    | some (b', n'), h1', h2' =>
      simp [mergeOuter, h1' pr] at h
      obtain ⟨rfl, -, -⟩ := h
      intro c hc _ _ _
      rcases List.mem_cons.mp hc with rfl | hc
      · exact .inl rfl
      · exact .inr (hs.1 c hc)
    | none, h1', h2' =>
      simp [mergeOuter, h1' pr] at h
      intro c hc d hd hsib
      rcases List.mem_cons.mp hc with rfl | hc' <;> rcases List.mem_cons.mp hd with rfl | hd'
      · exact absurd rfl hsib.choose_spec.ne
      · exact absurd hsib (h2' d hd')
      · exact absurd (sib_keyLt (hwl c hc') hwx hsib.choose_spec) (keyLt_asymm (hs.1 c hc'))
      · exact ih hwl hs.2 h c hc' d hd' hsib

/-- One round of the loop. -/
theorem minimizeStep_first (rt : Runtime) {t : Nat} {S : List (Net A)} (hw : AllWF S) (hn : S.Nodup) :
    (minimizeStep rt (t, S) = .ok (.inr (t + 1, S)) ∧ ∀ a ∈ S, ∀ b ∈ S, ¬ ∃ i, Sib i a b) ∨
    ∃ a ∈ S, ∃ b ∈ S, minimizeStep rt (t, S) = .ok (.inl (t + 1, replaced S a b)) ∧ (∃ i, Sib i a b) ∧
      ∀ c ∈ S, ∀ d ∈ S, (∃ i, Sib i c d) → c = a ∨ KeyLt a c := by
  have hp := sorted_perm rt t (.refl S)
  have hw' : AllWF (rt.sortUnstable netKeyLe (rt.hashIter t S)) := fun n hn => hw n (hp.mem_iff.mp hn)
  have hs := sort_nodup_lt rt (fun n hn => hw n ((rt.hashIter_perm t S).mem_iff.mp hn)) (hn.perm (rt.hashIter_perm t S).symm)
  obtain ⟨r, h1, h2⟩ := mergeOuter_spec (rt.sortUnstable netKeyLe (rt.hashIter t S)) hw' hs
  match r, h1, h2 with
  | none, h1, h2 =>
    refine .inl ⟨?_, fun a ha b hb => h2 a (hp.mem_iff.mpr ha) b (hp.mem_iff.mpr hb)⟩
    rw [minimizeStep, h1]; rfl
  | some (a, b, n), h1, h2 =>
    refine .inr ⟨a, hp.mem_iff.mp h2.1, b, hp.mem_iff.mp h2.2.1, ?_, h2.2.2.1, fun c hc d hd h => ?_⟩
    · rw [minimizeStep, h1, h2.2.2.2]; rfl
    · exact mergeOuter_first _ hw' hs (h1 rt.profile) c (hp.mem_iff.mpr hc) d (hp.mem_iff.mpr hd) h

/-- The rounds of the loop join the first twins until there are none. -/
theorem rounds_joinAll (rt : Runtime) {s r : Nat × List (Net A)} {k : Nat} (h : Rounds (minimizeStep rt) s k r) (hw : AllWF s.2)
    (hn : s.2.Nodup) : AllWF r.2 ∧ r.2.Nodup ∧ ∀ L, L.Perm s.2 → L.Pairwise KeyLt → ∀ L', L'.Perm r.2 → L'.Pairwise KeyLt → JoinAll L L' := by
  induction h with
  | @last s r h =>
    obtain ⟨t, S⟩ := s
    rcases minimizeStep_first rt (t := t) hw hn with ⟨h1, h2⟩ | ⟨a, -, b, -, h1, -⟩
    · rw [h] at h1
      cases h1
      refine ⟨hw, hn, fun L hL hL1 L' hL' hL1' => ?_⟩
      rw [perm_sorted hL1' hL1 (hL'.trans hL.symm)]
      refine .done fun a ha b hb ht => ?_
      obtain ⟨i, hs | hs⟩ := twins_sib.mp ht
      · exact h2 a (hL.mem_iff.mp ha) b (hL.mem_iff.mp hb) ⟨i, hs⟩
      · exact h2 b (hL.mem_iff.mp hb) a (hL.mem_iff.mp ha) ⟨i, hs⟩
    · rw [h] at h1; cases h1
  | @again s s' n r h _ ih =>
    obtain ⟨t, S⟩ := s
    rcases minimizeStep_first rt (t := t) hw hn with ⟨h1, h2⟩ | ⟨a, ha, b, hb, h1, hs, hf⟩
    · rw [h] at h1; cases h1
    · rw [h] at h1
      cases h1
      obtain ⟨k1, k2, k3⟩ := ih (wf_replaced a b hw) (nodup_replaced a b hn)
      refine ⟨k1, k2, fun L hL hL1 L' hL' hL1' => ?_⟩
      have hmid := rt.sortUnstable_perm netKeyLe (replaced S a b)
      have hsorted := sort_nodup_lt rt (wf_replaced a b hw) (nodup_replaced a b hn)
      refine .step (l' := rt.sortUnstable netKeyLe (replaced S a b)) ?_ (k3 _ hmid hsorted L' hL' hL1')
      refine ⟨a, hL.mem_iff.mpr ha, b, hL.mem_iff.mpr hb, ((twins_lt (hw a ha) (hw b hb)).mp hs).1, fun c hc d hd h1 h2 => ?_,
        mergedNet a b, joins_merged (hw a ha) hs.choose_spec, hsorted, fun x => ?_⟩
      · have hc := hL.mem_iff.mp hc
        have hd := hL.mem_iff.mp hd
        exact hf c hc d hd ((twins_lt (hw c hc) (hw d hd)).mpr ⟨h1, h2⟩)
      · rw [hmid.mem_iff, mem_replaced, hL.mem_iff]

omit [IpAddr A] [LawfulIpAddr A] in
theorem sorted_nodup {l : List (Net A)} (h : l.Pairwise KeyLt) : l.Nodup :=
  h.imp fun {a b} h e => by subst e; rw [KeyLt] at h; omega

theorem sorted_ext {l l' : List (Net A)} (h : l.Pairwise KeyLt) (h' : l'.Pairwise KeyLt) (hm : ∀ x, x ∈ l ↔ x ∈ l') : l = l' :=
  perm_sorted h h' ((List.perm_ext_iff_of_nodup (sorted_nodup h) (sorted_nodup h')).mpr hm)

/-- Which twins are joined is determined. -/
theorem joinFirst_unique {l m m' : List (Net A)} (hw : AllWF l) (h : JoinFirst l m) (h' : JoinFirst l m') : m = m' := by
  obtain ⟨a, ha, b, hb, h1, h2, n, h3, h4, h5⟩ := h
  obtain ⟨a', ha', b', hb', h1', h2', n', h3', h4', h5'⟩ := h'
  have hab : a' = a := by
    rcases h2 a' ha' b' hb' h1' h3'.1 with h | h
    · exact h
    · rcases h2' a ha b hb h1 h3.1 with h' | h'
      · exact h'.symm
      · exact absurd h' (keyLt_asymm h)
  subst hab
  have hbb := twins_unique (hw b hb) (hw b' hb') h3.1 h3'.1
  subst hbb
  rw [joins_unique h3 h3'] at h5
  exact sorted_ext h4 h4' fun x => (h5 x).trans (h5' x).symm

omit [LawfulIpAddr A] [IpAddr A] in
theorem joinFirst_wf {l m : List (Net A)} (hw : AllWF l) (h : JoinFirst l m) : AllWF m := by
  obtain ⟨a, ha, b, hb, h1, h2, n, h3, h4, h5⟩ := h
  intro x hx
  rcases (h5 x).mp hx with rfl | hx
  · exact h3.2.1
  · exact hw x hx.1

theorem joinAll_unique {l m m' : List (Net A)} (hw : AllWF l) (h : JoinAll l m) (h' : JoinAll l m') : m = m' := by
  induction h with
  | done hno =>
    cases h' with
    | done => rfl
    | step hs _ =>
      obtain ⟨a, ha, b, hb, -, -, n, h3, -⟩ := hs
      exact absurd h3.1 (hno a ha b hb)
  | step hs _ ih =>
    cases h' with
    | done hno =>
      obtain ⟨a, ha, b, hb, -, -, n, h3, -⟩ := hs
      exact absurd h3.1 (hno a ha b hb)
    | step hs' h' =>
      rw [joinFirst_unique hw hs' hs] at h'
      exact ih (joinFirst_wf hw hs) h'

theorem minimized_unique {l m m' : List (Net A)} (hw : AllWF l) (h : Minimized l m) (h' : Minimized l m') : m = m' := by
  obtain ⟨l0, h1, h2, h3⟩ := h
  obtain ⟨l0', h1', h2', h3'⟩ := h'
  rw [sorted_ext h1' h1 fun x => (h2' x).trans (h2 x).symm] at h3'
  exact joinAll_unique (fun n hn => hw n ((h2 n).mp hn).1) h3 h3'

/-! ## C88: the steps, for all masks -/

/-- The result of minimizing, exactly and for all masks: from the networks that are inside no other, the first network that has its
twin behind it is replaced, together with its twin, by their join, until there are no twins. -/
theorem C88_steps (rt : Runtime) (l out : List (Net A)) (hw : ∀ n ∈ l, WF n) : minimizeSubnets rt l = .ok out ↔ Minimized l out := by
  have key : ∃ out, minimizeSubnets rt l = .ok out ∧ Minimized l out := by
    obtain ⟨t, -, S, -, h1, -, -, h4⟩ := mergeLoop_spec (fun _ => True) (fun _ _ _ _ _ _ _ _ _ _ => trivial) (eliminated rt l) (eliminated rt l)
      (.refl _) (fun n hn => hw n ((mem_eliminated rt hw n).mp hn).1) (nodup_eliminated rt l) trivial rt rt
    refine ⟨rt.sortUnstable netKeyLe (rt.hashIter t S), ?_, ?_⟩
    · rw [minimizeSubnets]
      show (loopM (minimizeStep rt) (0, eliminated rt l) >>= _) = _
      rw [h1]; rfl
    · obtain ⟨k, hk⟩ := loopM_rounds h1
      have hwe : AllWF (eliminated rt l) := fun n hn => hw n ((mem_eliminated rt hw n).mp hn).1
      obtain ⟨k1, k2, k3⟩ := rounds_joinAll rt hk hwe (nodup_eliminated rt l)
      have hs := sort_nodup_lt rt hwe (nodup_eliminated rt l)
      refine ⟨_, hs, fun n => ?_, k3 _ (rt.sortUnstable_perm _ _) hs _ (sorted_perm rt t (.refl S)) ?_⟩
      · rw [sort_mem, eliminated_arises rt hw]
      · exact sort_nodup_lt rt (fun n hn => k1 n ((rt.hashIter_perm t S).mem_iff.mp hn)) (k2.perm (rt.hashIter_perm t S).symm)
  obtain ⟨out', h1, h2⟩ := key
  constructor
  · intro h
    rw [h] at h1
    cases h1
    exact h2
  · intro h
    rw [minimized_unique hw h h2]
    exact h1

end generic

theorem C88_steps_families : (type_of% (@C88_steps V4 _ _ _)) ∧ (type_of% (@C88_steps V6 _ _ _)) :=
  ⟨@C88_steps V4 _ _ _, @C88_steps V6 _ _ _⟩

/-- Non-vacuity: five networks, one of which arises in two ways, are joined to two. -/
example : Minimized twoWays [mk4 0x00000000#32 0xFFFFFFF8#32, mk4 0x00000000#32 0xFFFFFFFC#32] :=
  (C88_steps (Runtime.reference .checked true) _ _ twoWays_wf).mp (twoWays_result _)

end Ripcalc
