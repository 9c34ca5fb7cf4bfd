import Verif.Props.Compose

/-!
# C105: minimizing gives the greatest networks

Which networks `minimize_subnets` and `range_to_subnets` return, said network by network instead of for the list as a whole: those
that lie within the given addresses and are inside no other network that does.
-/

namespace Ripcalc
open AddrSpec

section generic
variable {A : Type} [IpAddr A] [AddrSpec A] [LawfulIpAddr A]

/-- No network is lost: each given network is inside one of the results, whatever the masks. -/
theorem C105_inside (rt : Runtime) (l out : List (Net A)) (hw : ∀ n ∈ l, WF n) (h : minimizeSubnets rt l = .ok out) :
    ∀ n ∈ l, ∃ o ∈ out, Includes o n := by
  obtain ⟨r, S, h1, -, hp, -, hr⟩ := minimize_spec (fun S => ∀ n ∈ l, ∃ o ∈ S, Includes o n)
    (by
      intro S a b i hS _ hI ha hb hs n hn
      obtain ⟨o, ho, hi⟩ := hI n hn
      by_cases hoa : o = a
      · exact ⟨mergedNet a b, mem_replaced.mpr (Or.inl rfl),
          fun x hx => (merged_member (hS a ha) hs x).mpr (Or.inl (hoa ▸ hi x hx))⟩
      · by_cases hob : o = b
        · exact ⟨mergedNet a b, mem_replaced.mpr (Or.inl rfl),
            fun x hx => (merged_member (hS a ha) hs x).mpr (Or.inr (hob ▸ hi x hx))⟩
        · exact ⟨o, mem_replaced.mpr (Or.inr ⟨ho, hoa, hob⟩), hi⟩)
    rt rt l l hw (fun _ => Iff.rfl)
    (by
      intro n hn
      obtain ⟨y, hy, h1, h2⟩ := exists_maximal hw n hn
      exact ⟨y, (mem_eliminated rt hw y).mpr ⟨hy, h2⟩, h1⟩)
  obtain rfl : r = out := by rw [h] at h1; cases h1; rfl
  intro n hn
  obtain ⟨o, ho, hi⟩ := hr.inv n hn
  exact ⟨o, hp.mem_iff.mpr ho, hi⟩

/-- Adding a network of the chain whose addresses are given anyway changes nothing. -/
theorem minimize_cons_chain (rt : Runtime) (M : Nat) (l out : List (Net A)) (hw : ∀ n ∈ l, WF n) (hc : ∀ n ∈ l, InChain M n)
    (h : minimizeSubnets rt l = .ok out) (m : Net A) (hm : WF m) (hmc : InChain M m)
    (hin : ∀ a : A, Member m a → ∃ n ∈ l, Member n a) : minimizeSubnets rt (m :: l) = .ok out := by
  have hw' : ∀ n ∈ m :: l, WF n := by
    intro n hn
    rcases List.mem_cons.mp hn with rfl | hn
    · exact hm
    · exact hw n hn
  have hc' : ∀ n ∈ m :: l, InChain M n := by
    intro n hn
    rcases List.mem_cons.mp hn with rfl | hn
    · exact hmc
    · exact hc n hn
  have hsame : ∀ a : A, (∃ n ∈ m :: l, Member n a) ↔ ∃ n ∈ l, Member n a := by
    intro a
    constructor
    · rintro ⟨n, hn, ha⟩
      rcases List.mem_cons.mp hn with rfl | hn
      · exact hin a ha
      · exact ⟨n, hn, ha⟩
    · rintro ⟨n, hn, ha⟩
      exact ⟨n, List.mem_cons_of_mem _ hn, ha⟩
  obtain ⟨r, hr, hrc⟩ := C42_same_addresses rt l hw
  obtain rfl : r = out := by rw [h] at hr; cases hr; rfl
  obtain ⟨r', hr', hrc'⟩ := C42_same_addresses rt (m :: l) hw'
  obtain ⟨g1, -, g2⟩ := C46_chain_minimal rt M l r hw hc h
  obtain ⟨g1', -, g2'⟩ := C46_chain_minimal rt M (m :: l) r' hw' hc' hr'
  have s := C44_sorted rt l r hw h
  have s' := C44_sorted rt (m :: l) r' hw' hr'
  have e1 := g2 r' (fun n hn => ⟨s'.2.2.1 n hn, g1' n hn⟩) (fun a => (hrc' a).trans (hsame a))
  have e2 := g2' r (fun n hn => ⟨s.2.2.1 n hn, g1 n hn⟩) (fun a => (hrc a).trans (hsame a).symm)
  rw [hr', perm_sorted s.1 s'.1 (e1.2 e2.1)]

/-- A network of the chain all of whose addresses are given is inside one of the results. -/
theorem C105_chain_within (rt : Runtime) (M : Nat) (l out : List (Net A)) (hw : ∀ n ∈ l, WF n) (hc : ∀ n ∈ l, InChain M n)
    (h : minimizeSubnets rt l = .ok out) (m : Net A) (hm : WF m) (hmc : InChain M m)
    (hin : ∀ a : A, Member m a → ∃ n ∈ l, Member n a) : ∃ o ∈ out, Includes o m ∧ ∀ o' ∈ out, Includes o' m → o' = o := by
  have h' := minimize_cons_chain rt M l out hw hc h m hm hmc hin
  obtain ⟨o, ho, hi⟩ := C105_inside rt (m :: l) out
    (by
      intro n hn
      rcases List.mem_cons.mp hn with rfl | hn
      · exact hm
      · exact hw n hn) h' m List.mem_cons_self
  refine ⟨o, ho, hi, fun o' ho' hi' => ?_⟩
  by_cases he : o' = o
  · exact he
  · exact absurd ⟨hi' _ (base_member m), hi _ (base_member m)⟩
      ((C45_no_inclusion_partial rt M l out hw hc h o' ho' o ho he).2 m.baseAddr)

/-- The networks of the result are exactly the greatest ones of the chain within the given addresses. -/
theorem C105_chain_greatest (rt : Runtime) (M : Nat) (l out : List (Net A)) (hw : ∀ n ∈ l, WF n) (hc : ∀ n ∈ l, InChain M n)
    (h : minimizeSubnets rt l = .ok out) (n : Net A) :
    n ∈ out ↔ (WF n ∧ InChain M n) ∧ (∀ a : A, Member n a → ∃ o ∈ l, Member o a) ∧
      ∀ m : Net A, WF m → InChain M m → (∀ a : A, Member m a → ∃ o ∈ l, Member o a) → Includes m n → m = n := by
  have s := C44_sorted rt l out hw h
  obtain ⟨g1, -, -⟩ := C46_chain_minimal rt M l out hw hc h
  obtain ⟨r, hr, hrc⟩ := C42_same_addresses rt l hw
  obtain rfl : r = out := by rw [h] at hr; cases hr; rfl
  constructor
  · intro hn
    refine ⟨⟨s.2.2.1 n hn, g1 n hn⟩, fun a ha => (hrc a).mp ⟨n, hn, ha⟩, fun m hm hmc hin hinc => ?_⟩
    obtain ⟨o, ho, hi, hu⟩ := C105_chain_within rt M l r hw hc h m hm hmc hin
    by_cases he : n = o
    · subst he
      exact includes_antisymm hm (s.2.2.1 n hn) hinc hi
    · exact absurd (includes_trans hi hinc) (C45_no_inclusion_partial rt M l r hw hc h o ho n hn (Ne.symm he)).1
  · rintro ⟨⟨hn, hnc⟩, hin, hmax⟩
    obtain ⟨o, ho, hi, -⟩ := C105_chain_within rt M l r hw hc h n hn hnc hin
    rw [← hmax o (s.2.2.1 o ho) (g1 o ho) (fun a ha => (hrc a).mp ⟨o, ho, ha⟩) hi]
    exact ho

/-! ## CIDR networks -/

theorem cidr_wf_chain {n : Net A} : (∃ p, IsCidr p n) ↔ WF n ∧ InChain (2 ^ width A - 1) n :=
  ⟨fun ⟨_, h⟩ => ⟨h.1, cidr_inChain h⟩, fun h => inChain_cidr h.1 h.2⟩

/-- A CIDR network all of whose addresses are given is inside exactly one of the results. -/
theorem C105_cidr_within (rt : Runtime) (l out : List (Net A)) (hc : ∀ n ∈ l, ∃ p, IsCidr p n) (h : minimizeSubnets rt l = .ok out)
    (p : Nat) (m : Net A) (hm : IsCidr p m) (hin : ∀ a : A, Member m a → ∃ n ∈ l, Member n a) :
    ∃ o ∈ out, Includes o m ∧ ∀ o' ∈ out, Includes o' m → o' = o :=
  C105_chain_within rt (2 ^ width A - 1) l out (fun n hn => (cidr_wf_chain.mp (hc n hn)).1)
    (fun n hn => (cidr_wf_chain.mp (hc n hn)).2) h m hm.1 (cidr_inChain hm) hin

/-- The networks of the result are exactly the greatest CIDR networks within the given addresses. -/
theorem C105_cidr_greatest (rt : Runtime) (l out : List (Net A)) (hc : ∀ n ∈ l, ∃ p, IsCidr p n) (h : minimizeSubnets rt l = .ok out)
    (n : Net A) :
    n ∈ out ↔ (∃ p, IsCidr p n) ∧ (∀ a : A, Member n a → ∃ o ∈ l, Member o a) ∧
      ∀ (p : Nat) (m : Net A), IsCidr p m → (∀ a : A, Member m a → ∃ o ∈ l, Member o a) → Includes m n → m = n := by
  rw [C105_chain_greatest rt (2 ^ width A - 1) l out (fun n hn => (cidr_wf_chain.mp (hc n hn)).1)
    (fun n hn => (cidr_wf_chain.mp (hc n hn)).2) h n, cidr_wf_chain]
  refine and_congr_right fun _ => and_congr_right fun _ => ?_
  constructor
  · exact fun k p m hm => k m hm.1 (cidr_inChain hm)
  · exact fun k m hm hmc => (inChain_cidr hm hmc).elim fun p hp => k p m hp

/-- More addresses give greater networks: if every address of one list is in the other, each result for the first is inside exactly
one result for the second. -/
theorem C105_cidr_monotone (rt rt' : Runtime) (l l' out out' : List (Net A)) (hc : ∀ n ∈ l, ∃ p, IsCidr p n)
    (hc' : ∀ n ∈ l', ∃ p, IsCidr p n) (h : minimizeSubnets rt l = .ok out) (h' : minimizeSubnets rt' l' = .ok out')
    (hsub : ∀ a : A, (∃ n ∈ l, Member n a) → ∃ n ∈ l', Member n a) :
    ∀ n ∈ out, ∃ o ∈ out', Includes o n ∧ ∀ o' ∈ out', Includes o' n → o' = o := by
  intro n hn
  obtain ⟨⟨p, hp⟩, hin, -⟩ := (C105_cidr_greatest rt l out hc h n).mp hn
  exact C105_cidr_within rt' l' out' hc' h' p n hp fun a ha => hsub a (hin a ha)

/-! ## Ranges -/

theorem range_covers {pr : Profile} {a b : A} {ns : List (Net A)} (h : rangeToSubnets pr a b = .ok ns) :
    (∀ n ∈ ns, ∃ p, IsCidr p n) ∧ Covers ns (Between a b) := by
  obtain ⟨ns', h1, h2, -, -, h4⟩ := C39_range_partial pr a b ((C39_returns_iff pr a b).mp ⟨ns, h⟩)
  rw [h] at h1
  cases h1
  exact ⟨h2, h4⟩

/-- A CIDR network within the range is inside exactly one of the results. -/
theorem C105_range_within (pr : Profile) (a b : A) (ns : List (Net A)) (h : rangeToSubnets pr a b = .ok ns)
    (p : Nat) (m : Net A) (hm : IsCidr p m) (hin : ∀ x : A, Member m x → Between a b x) :
    ∃ o ∈ ns, Includes o m ∧ ∀ o' ∈ ns, Includes o' m → o' = o := by
  obtain ⟨h1, h2⟩ := range_covers h
  exact C105_cidr_within (evalRuntime .checked true) ns ns h1 (C85_derange_minimal _ pr a b ns h) p m hm
    fun x hx => (h2 x).mpr (hin x hx)

/-- The results for a range are exactly the greatest CIDR networks within it. -/
theorem C105_range_greatest (pr : Profile) (a b : A) (ns : List (Net A)) (h : rangeToSubnets pr a b = .ok ns) (n : Net A) :
    n ∈ ns ↔ (∃ p, IsCidr p n) ∧ (∀ x : A, Member n x → Between a b x) ∧
      ∀ (p : Nat) (m : Net A), IsCidr p m → (∀ x : A, Member m x → Between a b x) → Includes m n → m = n := by
  obtain ⟨h1, h2⟩ := range_covers h
  rw [C105_cidr_greatest (evalRuntime .checked true) ns ns h1 (C85_derange_minimal _ pr a b ns h) n]
  have e : ∀ m : Net A, (∀ x : A, Member m x → ∃ o ∈ ns, Member o x) ↔ ∀ x : A, Member m x → Between a b x :=
    fun m => forall_congr' fun x => imp_congr_right fun _ => h2 x
  simp only [e]

/-- Each network of a range is inside exactly one network of a range that goes at least as far at both ends. -/
theorem C105_range_monotone (pr pr' : Profile) (a b a' b' : A) (ns ns' : List (Net A)) (h : rangeToSubnets pr a b = .ok ns)
    (h' : rangeToSubnets pr' a' b' = .ok ns') (ha : Between a' b' a) (hb : Between a' b' b) :
    ∀ n ∈ ns, ∃ o ∈ ns', Includes o n ∧ ∀ o' ∈ ns', Includes o' n → o' = o := by
  intro n hn
  obtain ⟨⟨p, hp⟩, hin, -⟩ := (C105_range_greatest pr a b ns h n).mp hn
  refine C105_range_within pr' a' b' ns' h' p n hp fun x hx => ?_
  have := hin x hx
  rw [Between] at *
  omega

end generic

/-! ## For both families -/

theorem C105_inside_families : (type_of% (@C105_inside V4 _ _ _)) ∧ (type_of% (@C105_inside V6 _ _ _)) :=
  ⟨@C105_inside V4 _ _ _, @C105_inside V6 _ _ _⟩

theorem C105_chain_within_families : (type_of% (@C105_chain_within V4 _ _ _)) ∧ (type_of% (@C105_chain_within V6 _ _ _)) :=
  ⟨@C105_chain_within V4 _ _ _, @C105_chain_within V6 _ _ _⟩

theorem C105_chain_greatest_families : (type_of% (@C105_chain_greatest V4 _ _ _)) ∧ (type_of% (@C105_chain_greatest V6 _ _ _)) :=
  ⟨@C105_chain_greatest V4 _ _ _, @C105_chain_greatest V6 _ _ _⟩

theorem C105_cidr_within_families : (type_of% (@C105_cidr_within V4 _ _ _)) ∧ (type_of% (@C105_cidr_within V6 _ _ _)) :=
  ⟨@C105_cidr_within V4 _ _ _, @C105_cidr_within V6 _ _ _⟩

theorem C105_cidr_greatest_families : (type_of% (@C105_cidr_greatest V4 _ _ _)) ∧ (type_of% (@C105_cidr_greatest V6 _ _ _)) :=
  ⟨@C105_cidr_greatest V4 _ _ _, @C105_cidr_greatest V6 _ _ _⟩

theorem C105_cidr_monotone_families : (type_of% (@C105_cidr_monotone V4 _ _ _)) ∧ (type_of% (@C105_cidr_monotone V6 _ _ _)) :=
  ⟨@C105_cidr_monotone V4 _ _ _, @C105_cidr_monotone V6 _ _ _⟩

theorem C105_range_within_families : (type_of% (@C105_range_within V4 _ _ _)) ∧ (type_of% (@C105_range_within V6 _ _ _)) :=
  ⟨@C105_range_within V4 _ _ _, @C105_range_within V6 _ _ _⟩

theorem C105_range_greatest_families : (type_of% (@C105_range_greatest V4 _ _ _)) ∧ (type_of% (@C105_range_greatest V6 _ _ _)) :=
  ⟨@C105_range_greatest V4 _ _ _, @C105_range_greatest V6 _ _ _⟩

theorem C105_range_monotone_families : (type_of% (@C105_range_monotone V4 _ _ _)) ∧ (type_of% (@C105_range_monotone V6 _ _ _)) :=
  ⟨@C105_range_monotone V4 _ _ _, @C105_range_monotone V6 _ _ _⟩

/-! ## Concrete cases -/

/-- Four networks that leave one: the result is the greatest CIDR network within them, and each of the four is inside it. -/
example : (∀ n ∈ [mk4 0x0A000100#32 0xFFFFFF00#32, mk4 0x0A000040#32 0xFFFFFFC0#32, mk4 0x0A000000#32 0xFFFFFF80#32,
      mk4 0x0A000080#32 0xFFFFFF80#32], Includes (mk4 0x0A000000#32 0xFFFFFE00#32) n) ∧
    ∀ (p : Nat) (m : Net V4), IsCidr p m → Includes m (mk4 0x0A000000#32 0xFFFFFE00#32) →
      (∀ a : V4, Member m a → ∃ o ∈ [mk4 0x0A000100#32 0xFFFFFF00#32, mk4 0x0A000040#32 0xFFFFFFC0#32,
        mk4 0x0A000000#32 0xFFFFFF80#32, mk4 0x0A000080#32 0xFFFFFF80#32], Member o a) → m = mk4 0x0A000000#32 0xFFFFFE00#32 := by
  have hc : ∀ n ∈ [mk4 0x0A000100#32 0xFFFFFF00#32, mk4 0x0A000040#32 0xFFFFFFC0#32, mk4 0x0A000000#32 0xFFFFFF80#32,
      mk4 0x0A000080#32 0xFFFFFF80#32], ∃ p, IsCidr p n := by
    intro n hn
    simp only [List.mem_cons, List.not_mem_nil, or_false] at hn
    rcases hn with rfl | rfl | rfl | rfl
    · exact ⟨24, newWithMask_wf _ _, rfl⟩
    · exact ⟨26, newWithMask_wf _ _, rfl⟩
    · exact ⟨25, newWithMask_wf _ _, rfl⟩
    · exact ⟨25, newWithMask_wf _ _, rfl⟩
  have h : minimizeSubnets (evalRuntime .checked true) [mk4 0x0A000100#32 0xFFFFFF00#32, mk4 0x0A000040#32 0xFFFFFFC0#32,
      mk4 0x0A000000#32 0xFFFFFF80#32, mk4 0x0A000080#32 0xFFFFFF80#32] = .ok [mk4 0x0A000000#32 0xFFFFFE00#32] :=
    minimize_of_fuel 5 3 _ _ [mk4 0x0A000000#32 0xFFFFFE00#32] _ (by decide +kernel) (by decide +kernel)
  refine ⟨fun n hn => ?_, fun p m hm hinc hin => ?_⟩
  · obtain ⟨o, ho, hi⟩ := C105_inside _ _ _ (fun n hn => (cidr_wf_chain.mp (hc n hn)).1) h n hn
    obtain rfl := List.mem_singleton.mp ho
    exact hi
  · exact ((C105_cidr_greatest _ _ _ hc h _).mp (List.mem_singleton.mpr rfl)).2.2 p m hm hin hinc

/-- The networks from 192.0.2.3 to 192.0.2.12; 192.0.2.8/30 is one of them, so no CIDR network around it stays within the range, and
those of the range from 192.0.2.5 to 192.0.2.11 are inside them. -/
example : (∀ (p : Nat) (m : Net V4), IsCidr p m → Includes m ⟨⟨0xC0000208#32⟩, ⟨0xFFFFFFFC#32⟩, some 30⟩ →
      (∀ x : V4, Member m x → Between ⟨0xC0000203#32⟩ ⟨0xC000020C#32⟩ x) → m = ⟨⟨0xC0000208#32⟩, ⟨0xFFFFFFFC#32⟩, some 30⟩) ∧
    ∃ ns ns' : List (Net V4), rangeToSubnets .checked (⟨0xC0000205#32⟩ : V4) ⟨0xC000020B#32⟩ = .ok ns ∧ ns.length = 3 ∧
      rangeToSubnets .checked (⟨0xC0000203#32⟩ : V4) ⟨0xC000020C#32⟩ = .ok ns' ∧ ∀ n ∈ ns, ∃ o ∈ ns', Includes o n := by
  have hr : rangeToSubnets .checked (⟨0xC0000203#32⟩ : V4) ⟨0xC000020C#32⟩ = .ok [⟨⟨0xC0000203#32⟩, ⟨0xFFFFFFFF#32⟩, some 32⟩,
      ⟨⟨0xC0000204#32⟩, ⟨0xFFFFFFFC#32⟩, some 30⟩, ⟨⟨0xC0000208#32⟩, ⟨0xFFFFFFFC#32⟩, some 30⟩,
      ⟨⟨0xC000020C#32⟩, ⟨0xFFFFFFFF#32⟩, some 32⟩] :=
    range_of_fuel 20 _ _ _ ⟨⟨0xC0000203#32⟩, ⟨0xFFFFFFFF#32⟩, some 32⟩ _ (by decide +kernel) (by decide +kernel)
  have hr' : rangeToSubnets .checked (⟨0xC0000205#32⟩ : V4) ⟨0xC000020B#32⟩ = .ok [⟨⟨0xC0000205#32⟩, ⟨0xFFFFFFFF#32⟩, some 32⟩,
      ⟨⟨0xC0000206#32⟩, ⟨0xFFFFFFFE#32⟩, some 31⟩, ⟨⟨0xC0000208#32⟩, ⟨0xFFFFFFFC#32⟩, some 30⟩] :=
    range_of_fuel 20 _ _ _ ⟨⟨0xC0000205#32⟩, ⟨0xFFFFFFFF#32⟩, some 32⟩ _ (by decide +kernel) (by decide +kernel)
  refine ⟨fun p m hm hinc hin => ?_, _, _, hr', rfl, hr, fun n hn => ?_⟩
  · exact ((C105_range_greatest _ _ _ _ hr _).mp (by decide)).2.2 p m hm hin hinc
  · obtain ⟨o, ho, hi, -⟩ := C105_range_monotone _ _ _ _ _ _ _ _ hr' hr (by rw [Between]; decide) (by rw [Between]; decide) n hn
    exact ⟨o, ho, hi⟩

end Ripcalc
