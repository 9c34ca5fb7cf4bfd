import Verif.Props.Commands
import Verif.Props.Main
/-!
# C53, C55 for every mask: when exactly the claims hold
-/
namespace Ripcalc
open AddrSpec LawfulIpAddr

section
variable {A : Type} [IpAddr A] [AddrSpec A] [LawfulIpAddr A]

/-- The allocated addresses: from the base address rounded down to the greatest used. -/
theorem split_covers (rt : Runtime) (n : Net A) (hcs : List Int) (hne : hcs ≠ []) (ns : List (Net A))
    (h : splitSubnet rt n hcs = .ok (some ns)) (mx : A) (hmx : IsGreatestUsed ns mx) :
    ∃ E, (∀ c ∈ hcs, needBits c ≤ E) ∧ (∃ c ∈ hcs, needBits c = E) ∧ val n.baseAddr < val n.baseAddr / 2 ^ E * 2 ^ E + 2 ^ E ∧
      val n.baseAddr / 2 ^ E * 2 ^ E + 2 ^ E ≤ val mx + 1 ∧
      Covers ns (fun x : A => val n.baseAddr / 2 ^ E * 2 ^ E ≤ val x ∧ val x ≤ val mx) := by
  obtain ⟨E, b, e, g1, g2, g3, g4, h1, h2⟩ := split_outcome rt n hcs hne
  have hlt : e < 2 ^ width A := by
    refine Nat.not_le.mp fun hge => ?_
    rw [h2 hge] at h; cases h
  obtain ⟨ms, ns', x1, x2, x3, x4, x5, -⟩ := h1 hlt
  rw [x1] at h
  cases h
  clear h1 h2
  have hcov : ∀ x : A, (∃ m ∈ ns, Member m x) ↔ b ≤ val x ∧ val x < e := by
    intro x
    refine Iff.trans ?_ (x3.covers x)
    exact ⟨fun ⟨m, h3, h4⟩ => ⟨m, x2.mem_iff.mpr h3, h4⟩, fun ⟨m, h3, h4⟩ => ⟨m, x2.mem_iff.mp h3, h4⟩⟩
  have hsum : 2 ^ E ≤ (hcs.map (fun c => 2 ^ needBits c)).sum := by
    obtain ⟨c, hc, hcE⟩ := g2
    have := sum_ge (f := fun c => 2 ^ needBits c) hc
    rwa [hcE] at this
  have hpos := Nat.two_pow_pos E
  have hme : val mx + 1 = e := by
    obtain ⟨h3, h4⟩ := hmx
    have h5 := (hcov mx).mp h3
    obtain ⟨y, hy⟩ := val_surj (A := A) (e - 1) (by omega)
    obtain ⟨m, hm, hmy⟩ := (hcov y).mpr (by omega)
    have := h4 m hm y hmy
    omega
  have := Nat.div_add_mod (val n.baseAddr) (2 ^ E)
  have := Nat.mod_lt (val n.baseAddr) hpos
  rw [Nat.mul_comm (2 ^ E)] at *
  refine ⟨E, g1, g2, by omega, by omega, fun x => (hcov x).trans (by omega)⟩

/-- For every mask: the results are inside the network exactly if the base address is a multiple of the size of the largest
block and every address from it to the greatest used is in the network. -/
theorem C53_exactly_when (rt : Runtime) (n : Net A) (hn : WF n) (hcs : List Int) (es : List Nat)
    (hes : Pointwise HostBitsFor hcs es) (E : Nat) (hE1 : ∀ e ∈ es, e ≤ E) (hE2 : E ∈ es) (ns : List (Net A))
    (h : splitSubnet rt n hcs = .ok (some ns)) (mx : A) (hmx : IsGreatestUsed ns mx) :
    (∀ m ∈ ns, Includes n m) ↔ 2 ^ E ∣ val n.baseAddr ∧ ∀ x : A, val n.baseAddr ≤ val x → val x ≤ val mx → Member n x := by
  have he := pointwise_need hes
  subst he
  have hne : hcs ≠ [] := by rintro rfl; simp at hE2
  obtain ⟨F, g1, g2, g3, g4, g5⟩ := split_covers rt n hcs hne ns h mx hmx
  have hF : F = E := by
    obtain ⟨c, hc, hcF⟩ := g2
    obtain ⟨d, hd, hdE⟩ := List.mem_map.mp hE2
    have := g1 d hd
    have := hE1 _ (List.mem_map_of_mem hc)
    omega
  subst hF
  have hb : val n.baseAddr / 2 ^ F * 2 ^ F ≤ val n.baseAddr := Nat.div_mul_le_self _ _
  constructor
  · intro hin
    have key : ∀ x : A, val n.baseAddr / 2 ^ F * 2 ^ F ≤ val x → val x ≤ val mx → Member n x := by
      intro x h1 h2
      obtain ⟨m, hm, hmx⟩ := (g5 x).mpr ⟨h1, h2⟩
      exact hin m hm x hmx
    refine ⟨?_, fun x h1 h2 => key x (by omega) h2⟩
    obtain ⟨y, hy⟩ := val_surj (A := A) (val n.baseAddr / 2 ^ F * 2 ^ F) (Nat.lt_of_le_of_lt hb (val_lt _))
    have h1 := member_ge_base hn.hz (key y (by omega) (by omega))
    exact ⟨val n.baseAddr / 2 ^ F, by rw [Nat.mul_comm]; omega⟩
  · rintro ⟨hd, hin⟩ m hm x hx
    have h1 := (g5 x).mp ⟨m, hm, hx⟩
    rw [Nat.div_mul_cancel hd] at h1
    exact hin x h1.1 h1.2

/-- For CIDR networks, when the greatest used address is in the network: the results are inside it exactly if no request is larger
than the network. -/
theorem C53_exactly_when_cidr (rt : Runtime) (n : Net A) (p : Nat) (hn : IsCidr p n) (hcs : List Int) (hne : hcs ≠ [])
    (ns : List (Net A)) (h : splitSubnet rt n hcs = .ok (some ns)) (mx : A)
    (hmx : IsGreatestUsed ns mx) :
    (∀ m ∈ ns, Includes n m) ↔ Member n mx ∧ ∀ c ∈ hcs, c + 2 ≤ 2 ^ (width A - p) := by
  obtain ⟨E, g1, g2, g3, g4, g5⟩ := split_covers rt n hcs hne ns h mx hmx
  have hmlt := cidr_end hn
  have hb : val n.baseAddr / 2 ^ E * 2 ^ E ≤ val n.baseAddr := Nat.div_mul_le_self _ _
  have hmem := cidr_member_iff hn mx
  constructor
  · intro hin
    obtain ⟨m, hm, hmm⟩ := hmx.1
    have h1 := hin m hm mx hmm
    refine ⟨h1, fun c hc => ?_⟩
    have h2 := hmem.mp h1
    obtain ⟨y, hy⟩ := val_surj (A := A) (val n.baseAddr / 2 ^ E * 2 ^ E) (Nat.lt_of_le_of_lt hb (val_lt _))
    obtain ⟨m', hm', hmy⟩ := (g5 y).mpr (by omega)
    have h3 := (cidr_member_iff hn y).mp (hin m' hm' y hmy)
    have h4 : 2 ^ E ≤ 2 ^ (width A - p) := by omega
    have h5 : needBits c ≤ width A - p := Nat.le_trans (g1 c hc) ((Nat.pow_le_pow_iff_right (by omega)).mp h4)
    exact (needBits_le_iff _ _).mp h5
  · rintro ⟨h1, h2⟩ m hm x hx
    have hE : E ≤ width A - p := by
      obtain ⟨c, hc, rfl⟩ := g2
      exact (needBits_le_iff _ _).mpr (h2 c hc)
    have hd : 2 ^ E ∣ val n.baseAddr := Nat.dvd_trans (Nat.pow_dvd_pow 2 hE) (cidr_dvd hn)
    have h3 := (g5 x).mp ⟨m, hm, hx⟩
    rw [Nat.div_mul_cancel hd] at h3
    have h4 := hmem.mp h1
    exact (cidr_member_iff hn x).mpr (by omega)

/-- For every mask: the list of the rest is the list of the unused addresses exactly if some address after the greatest used is in
the network and the network has no gap after it. -/
theorem C55_exactly_when (rt : Runtime) (n : Net A) (hn : WF n) (hcs : List Int) (hne : hcs ≠ []) (ns : List (Net A))
    (h : splitSubnet rt n hcs = .ok (some ns)) (mx : A) (hmx : IsGreatestUsed ns mx) (hm : Member n mx) (us : List (Net A))
    (hus : ListsRest n mx us) :
    Covers us (Unused n ns) ↔ (∃ x, Member n x ∧ val mx < val x) ∧
      ∀ x y : A, val mx < val x → val x ≤ val y → Member n y → Member n x := by
  obtain ⟨E, g1, g2, g3, g4, g5⟩ := split_covers rt n hcs hne ns h mx hmx
  obtain ⟨-, -, hr⟩ := hus
  obtain ⟨-, last, hl, -⟩ := C25_broadcast n hn
  obtain ⟨hl1, hl2⟩ := last_greatest n hn hl
  have hr := (hr last hl1 hl2).1
  have hb : val n.baseAddr / 2 ^ E * 2 ^ E ≤ val n.baseAddr := Nat.div_mul_le_self _ _
  have hun : ∀ x : A, Unused n ns x ↔ Member n x ∧ val mx < val x := by
    intro x
    have h1 := g5 x
    constructor
    · rintro ⟨h2, h3⟩
      have h4 := member_ge_base hn.hz h2
      refine ⟨h2, Nat.not_le.mp fun h5 => ?_⟩
      obtain ⟨m, hm, hx⟩ := h1.mpr (by omega)
      exact h3 m hm hx
    · rintro ⟨h2, h3⟩
      refine ⟨h2, fun m hm hx => ?_⟩
      have := h1.mp ⟨m, hm, hx⟩
      omega
  have hml := hl2 mx hm
  constructor
  · intro hc
    have key : ∀ x, (val mx + 1 ≤ val x ∧ val x ≤ val last) ∨ (val last ≤ val x ∧ val x ≤ val mx + 1) → Member n x ∧ val mx < val x :=
      fun x hx => (hun x).mp ((hc x).mp ((hr x).mpr hx))
    have h1 : val mx < val last := by
      refine Nat.not_le.mp fun h2 => ?_
      have := key last (by omega)
      omega
    refine ⟨⟨last, hl1, h1⟩, fun x y h2 h3 h4 => (key x ?_).1⟩
    have := hl2 y h4
    omega
  · rintro ⟨⟨z, hz1, hz2⟩, h1⟩ x
    have hzl := hl2 z hz1
    rw [hun, hr]
    constructor
    · rintro (h2 | h2)
      · exact ⟨h1 x last (by omega) (by omega) hl1, by omega⟩
      · have hx : x = last := val_inj _ _ (by omega)
        subst hx
        exact ⟨hl1, by omega⟩
    · rintro ⟨h2, h3⟩
      have := hl2 x h2
      omega

omit [LawfulIpAddr A] in
theorem display_ends (m : Net A) (q : Nat) (h : IsCidr q m) : ∃ t d, m.display = t ++ [d] ∧ d ≠ 'l' := by
  have h2 : m.cidrPrefix = some q := h.2
  have hs := showNat_ne_nil 10 q
  refine ⟨IpAddr.display m.baseAddr ++ '/' :: (showNat 10 q).dropLast, (showNat 10 q).getLast hs, ?_, ?_⟩
  · rw [Net.display, h2]
    simp [List.dropLast_concat_getLast]
  · intro hl
    have := showNat_mem (radix := 10) (by decide) (by decide) (List.getLast_mem hs)
    rw [hl] at this
    revert this
    decide

omit [LawfulIpAddr A] in
theorem netLines_ends (us : List (Net A)) (hne : us ≠ []) (hc : ∀ m ∈ us, ∃ q, IsCidr q m) :
    ∃ t d, netLines us = t ++ [d, '\n'] ∧ d ≠ 'l' := by
  obtain ⟨q, hq⟩ := hc _ (List.getLast_mem hne)
  obtain ⟨t, d, h1, h2⟩ := display_ends _ q hq
  refine ⟨netLines us.dropLast ++ t, d, ?_, h2⟩
  have h3 : netLines us = netLines (us.dropLast ++ [us.getLast hne]) := by rw [List.dropLast_concat_getLast hne]
  rw [h3]
  simp [netLines, h1]

theorem listsRest_ne_nil {n : Net A} (hn : WF n) {mx : A} {us : List (Net A)} (h : ListsRest n mx us) : us ≠ [] := by
  rintro rfl
  obtain ⟨-, last, hl, -⟩ := C25_broadcast n hn
  obtain ⟨hl1, hl2⟩ := last_greatest n hn hl
  obtain ⟨m, hm, -⟩ := ((h.2.2 last hl1 hl2).1 last).mpr (by omega)
  cases hm

/-- A run that lists the rest does not say that the network is too small. -/
theorem rest_not_small {n : Net A} (hn : WF n) {mx : A} {us : List (Net A)} (h : ListsRest n mx us) {x : Cli Nat} {t : Str}
    (hx : Shows x 0 (t ++ netLines us)) : ¬ SaysTooSmall x := by
  rintro ⟨u, -, hu, -⟩
  obtain ⟨v, d, h1, h2⟩ := netLines_ends us (listsRest_ne_nil hn h) h.1
  rw [hx.2.1, h1] at hu
  have hu := congrArg (fun l : Str => l.reverse) hu
  simp at hu
  exact h2 hu.1

end

/-- Every outcome of the split command for an IPv4 network that is not a failed allocation: what it says is decided by the
greatest used address `mx` alone; whether the claims about containment and about the unused networks hold, is decided by the
conditions of `C53_exactly_when` and `C55_exactly_when`. -/
theorem C55_command_exact_v4 (rt : Runtime) (prog mode s : Str) (counts : List Str)
    (hne : counts ≠ []) (hcs : List Int) (hc : Counts counts hcs) (a : V4) (n : Net V4)
    (hp : parseNetspec s = .ok (.ok (.ipv4 a n))) (ns : List (Net V4)) (h : splitSubnet rt n hcs = .ok (some ns)) :
    ∃ mx, IsGreatestUsed ns mx ∧
      (SaysTooSmall (split rt (prog :: mode :: s :: counts)) ↔ ¬ Member n mx) ∧
      ((split rt (prog :: mode :: s :: counts)).res = .panic .unwrapNone ↔ Member n mx ∧ ∃ a, Member n a ∧ val a = 2 ^ 32 - 1) ∧
      (Member n mx → (∀ a, Member n a → val a ≠ 2 ^ 32 - 1) → ∃ us : List (Net V4),
        ListsUnused (split rt (prog :: mode :: s :: counts)) us ∧ (∀ m ∈ us, ∃ q, IsCidr q m) ∧ us.Pairwise Below ∧
        (Covers us (Unused n ns) ↔ (∃ x, Member n x ∧ val mx < val x) ∧
          ∀ x y : V4, val mx < val x → val x ≤ val y → Member n y → Member n x)) := by
  have hn := (C33_parsed_good _ _ hp).2.1
  rcases C65_any_v4 rt prog mode s counts hne hcs hc a n hp with ⟨h1, -⟩ | ⟨ns', mx, t, u, h1, h2, -, -, h3, h4, h5⟩
  · rw [h] at h1; cases h1
  rw [h] at h1
  cases h1
  refine ⟨mx, h2, ?_, ?_, ?_⟩
  · constructor
    · intro hs hm
      by_cases htop : ∃ a, Member n a ∧ val a = 2 ^ 32 - 1
      · obtain ⟨_, hs, -⟩ := hs
        rw [(h5 hm htop).1] at hs
        cases hs
      · obtain ⟨us, h6, h7⟩ := h4 hm (fun a ha hv => htop ⟨a, ha, hv⟩)
        exact rest_not_small hn h7 h6 hs
    · intro hm
      exact ⟨_, h3 hm⟩
  · constructor
    · intro hs
      by_cases hm : Member n mx
      · refine ⟨hm, ?_⟩
        by_cases htop : ∃ a, Member n a ∧ val a = 2 ^ 32 - 1
        · exact htop
        · obtain ⟨us, h6, -⟩ := h4 hm (fun a ha hv => htop ⟨a, ha, hv⟩)
          rw [h6.1] at hs
          cases hs
      · have := (h3 hm).1
        rw [hs] at this
        cases this
    · exact fun ⟨hm, ht⟩ => (h5 hm ht).1
  · intro hm ht
    obtain ⟨us, h6, h7⟩ := h4 hm ht
    exact ⟨us, ⟨_, h6⟩, h7.1, h7.2.1, C55_exactly_when rt n hn hcs (hc.ne_nil hne) ns h mx h2 hm us h7⟩

/-- For IPv4 CIDR networks the report about containment is right exactly if no request is larger than the network, or the
greatest used address is outside. -/
theorem C53_command_exact_v4 (rt : Runtime) (prog mode s : Str) (counts : List Str)
    (hne : counts ≠ []) (hcs : List Int) (hc : Counts counts hcs) (a : V4) (n : Net V4)
    (hp : parseNetspec s = .ok (.ok (.ipv4 a n))) (p : Nat) (hn : IsCidr p n) (ns : List (Net V4))
    (h : splitSubnet rt n hcs = .ok (some ns)) :
    ∃ mx, IsGreatestUsed ns mx ∧
    ((SaysTooSmall (split rt (prog :: mode :: s :: counts)) ↔ ∃ m ∈ ns, ¬ Includes n m) ↔
      ¬ Member n mx ∨ ∀ c ∈ hcs, c + 2 ≤ 2 ^ (32 - p)) := by
  obtain ⟨mx, h1, h2, -⟩ := C55_command_exact_v4 rt prog mode s counts hne hcs hc a n hp ns h
  refine ⟨mx, h1, ?_⟩
  have h3 := C53_exactly_when_cidr rt n p hn hcs (hc.ne_nil hne) ns h mx h1
  have h4 : (∃ m ∈ ns, ¬ Includes n m) ↔ ¬ ∀ m ∈ ns, Includes n m := by
    constructor
    · rintro ⟨m, hm, hx⟩ hall
      exact hx (hall m hm)
    · intro hx
      exact Classical.byContradiction fun hcon => hx fun m hm => Classical.byContradiction fun h5 => hcon ⟨m, hm, h5⟩
  rw [h2, h4, h3]
  show _ ↔ ¬ Member n mx ∨ ∀ c ∈ hcs, c + 2 ≤ 2 ^ (width V4 - p)
  by_cases hm : Member n mx
  · simp only [hm, true_and, not_true, false_or, false_iff, Classical.not_not]
  · simp only [hm, false_and, not_false_iff, true_or]

/-- Every outcome of the split command for an IPv6 network that is not a failed allocation: what it says is decided by the
greatest used address `mx` alone; whether the claims about containment and about the unused networks hold, is decided by the
conditions of `C53_exactly_when` and `C55_exactly_when`. -/
theorem C55_command_exact_v6 (rt : Runtime) (prog mode s : Str) (counts : List Str)
    (hne : counts ≠ []) (hcs : List Int) (hc : Counts counts hcs) (a : V6) (n : Net V6)
    (hp : parseNetspec s = .ok (.ok (.ipv6 a n))) (ns : List (Net V6)) (h : splitSubnet rt n hcs = .ok (some ns)) :
    ∃ mx, IsGreatestUsed ns mx ∧
      (SaysTooSmall (split rt (prog :: mode :: s :: counts)) ↔ ¬ Member n mx) ∧
      ((split rt (prog :: mode :: s :: counts)).res = .panic .unwrapNone ↔ Member n mx ∧ ∃ a, Member n a ∧ val a = 2 ^ 128 - 1) ∧
      (Member n mx → (∀ a, Member n a → val a ≠ 2 ^ 128 - 1) → ∃ us : List (Net V6),
        ListsUnused (split rt (prog :: mode :: s :: counts)) us ∧ (∀ m ∈ us, ∃ q, IsCidr q m) ∧ us.Pairwise Below ∧
        (Covers us (Unused n ns) ↔ (∃ x, Member n x ∧ val mx < val x) ∧
          ∀ x y : V6, val mx < val x → val x ≤ val y → Member n y → Member n x)) := by
  have hn := (C33_parsed_good _ _ hp).2.1
  rcases C65_any_v6 rt prog mode s counts hne hcs hc a n hp with ⟨h1, -⟩ | ⟨ns', mx, t, u, h1, h2, -, -, h3, h4, h5⟩
  · rw [h] at h1; cases h1
  rw [h] at h1
  cases h1
  refine ⟨mx, h2, ?_, ?_, ?_⟩
  · constructor
    · intro hs hm
      by_cases htop : ∃ a, Member n a ∧ val a = 2 ^ 128 - 1
      · obtain ⟨_, hs, -⟩ := hs
        rw [(h5 hm htop).1] at hs
        cases hs
      · obtain ⟨us, h6, h7⟩ := h4 hm (fun a ha hv => htop ⟨a, ha, hv⟩)
        exact rest_not_small hn h7 h6 hs
    · intro hm
      exact ⟨_, h3 hm⟩
  · constructor
    · intro hs
      by_cases hm : Member n mx
      · refine ⟨hm, ?_⟩
        by_cases htop : ∃ a, Member n a ∧ val a = 2 ^ 128 - 1
        · exact htop
        · obtain ⟨us, h6, -⟩ := h4 hm (fun a ha hv => htop ⟨a, ha, hv⟩)
          rw [h6.1] at hs
          cases hs
      · have := (h3 hm).1
        rw [hs] at this
        cases this
    · exact fun ⟨hm, ht⟩ => (h5 hm ht).1
  · intro hm ht
    obtain ⟨us, h6, h7⟩ := h4 hm ht
    exact ⟨us, ⟨_, h6⟩, h7.1, h7.2.1, C55_exactly_when rt n hn hcs (hc.ne_nil hne) ns h mx h2 hm us h7⟩

/-- For IPv6 CIDR networks the report about containment is right exactly if no request is larger than the network, or the
greatest used address is outside. -/
theorem C53_command_exact_v6 (rt : Runtime) (prog mode s : Str) (counts : List Str)
    (hne : counts ≠ []) (hcs : List Int) (hc : Counts counts hcs) (a : V6) (n : Net V6)
    (hp : parseNetspec s = .ok (.ok (.ipv6 a n))) (p : Nat) (hn : IsCidr p n) (ns : List (Net V6))
    (h : splitSubnet rt n hcs = .ok (some ns)) :
    ∃ mx, IsGreatestUsed ns mx ∧
    ((SaysTooSmall (split rt (prog :: mode :: s :: counts)) ↔ ∃ m ∈ ns, ¬ Includes n m) ↔
      ¬ Member n mx ∨ ∀ c ∈ hcs, c + 2 ≤ 2 ^ (128 - p)) := by
  obtain ⟨mx, h1, h2, -⟩ := C55_command_exact_v6 rt prog mode s counts hne hcs hc a n hp ns h
  refine ⟨mx, h1, ?_⟩
  have h3 := C53_exactly_when_cidr rt n p hn hcs (hc.ne_nil hne) ns h mx h1
  have h4 : (∃ m ∈ ns, ¬ Includes n m) ↔ ¬ ∀ m ∈ ns, Includes n m := by
    constructor
    · rintro ⟨m, hm, hx⟩ hall
      exact hx (hall m hm)
    · intro hx
      exact Classical.byContradiction fun hcon => hx fun m hm => Classical.byContradiction fun h5 => hcon ⟨m, hm, h5⟩
  rw [h2, h4, h3]
  show _ ↔ ¬ Member n mx ∨ ∀ c ∈ hcs, c + 2 ≤ 2 ^ (width V6 - p)
  by_cases hm : Member n mx
  · simp only [hm, true_and, not_true, false_or, false_iff, Classical.not_not]
  · simp only [hm, false_and, not_false_iff, true_or]

/-! ## Both address families -/

theorem C53_exactly_when_families : (type_of% (@C53_exactly_when V4 _ _ _)) ∧ (type_of% (@C53_exactly_when V6 _ _ _)) :=
  ⟨@C53_exactly_when V4 _ _ _, @C53_exactly_when V6 _ _ _⟩

theorem C53_exactly_when_cidr_families : (type_of% (@C53_exactly_when_cidr V4 _ _ _)) ∧ (type_of% (@C53_exactly_when_cidr V6 _ _ _)) :=
  ⟨@C53_exactly_when_cidr V4 _ _ _, @C53_exactly_when_cidr V6 _ _ _⟩

theorem C55_exactly_when_families : (type_of% (@C55_exactly_when V4 _ _ _)) ∧ (type_of% (@C55_exactly_when V6 _ _ _)) :=
  ⟨@C55_exactly_when V4 _ _ _, @C55_exactly_when V6 _ _ _⟩

/-! ## Concrete cases -/

/-- `10.0.0.0/255.255.5.0`: a mask with gaps. -/
def gappy : Net V4 := ⟨⟨0x0A000000#32⟩, ⟨0xFFFF0500#32⟩, none⟩

theorem gappy_parse : parseNetspec "10.0.0.0/255.255.5.0".toList = .ok (.ok (.ipv4 ⟨0x0A000000#32⟩ gappy)) := by decide +kernel

/-- One network of 60 hosts from it: the listed networks contain addresses that are not in the network. -/
example (rt : Runtime) : ∃ ns us, splitSubnet rt gappy [60] = .ok (some ns) ∧
    (∀ m ∈ ns, Includes gappy m) ∧
    ListsUnused (split rt ["ripcalc".toList, "-s".toList, "10.0.0.0/255.255.5.0".toList, "60".toList]) us ∧
    ¬ Covers us (Unused gappy ns) := by
  have hn : WF gappy := (C33_parsed_good _ _ gappy_parse).2.1
  have hc : Counts ["60".toList] [60] := counts_of [("60".toList, 60)] (by decide +kernel)
  have hval : val gappy.baseAddr = 0x0A000000 := rfl
  obtain ⟨E, b, e, g1, g2, g3, g4, k1, -⟩ := split_outcome rt gappy [60] (by simp)
  have hE : E = 6 := needMax_eq g1 g2 (by decide +kernel) ⟨60, by simp, by decide +kernel⟩
  subst hE
  have hS : ([60].map (fun c : Int => 2 ^ needBits c)).sum = 64 := by decide +kernel
  rw [hval] at g3
  rw [hS, g3] at g4
  obtain ⟨ms, ns, x1, x2, x3, -⟩ := k1 (by rw [g4]; decide)
  obtain ⟨mx, y1, y2, y3, y4⟩ := C55_command_exact_v4 rt "ripcalc".toList "-s".toList "10.0.0.0/255.255.5.0".toList ["60".toList] (by simp)
    [60] hc _ gappy gappy_parse ns x1
  obtain ⟨F, z1, z2, z3, z4, z5⟩ := split_covers rt gappy [60] (by simp) ns x1 mx y1
  have hF : F = 6 := needMax_eq z1 z2 (by decide +kernel) ⟨60, by simp, by decide +kernel⟩
  subst hF
  rw [hval] at z3 z4
  have hlt : val mx < e := by
    obtain ⟨m, hm, hmm⟩ := y1.1
    exact ((x3.covers mx).mp ⟨m, x2.mem_iff.mpr hm, hmm⟩).2
  have hmx : mx = ⟨0x0A00003F#32⟩ := val_inj _ _ (by show val mx = 0x0A00003F; omega)
  have hmem : ∀ x, gappy.contains x = true → Member gappy x := fun x hx => (contains_iff hn.hz x).mp hx
  have hm : Member gappy mx := by rw [hmx]; exact hmem _ (by decide +kernel)
  obtain ⟨us, w1, -, -, w2⟩ := y4 hm (by
    intro x hx hv
    have hx : gappy.contains x = true := (contains_iff hn.hz x).mpr hx
    rw [val_inj x ⟨0xFFFFFFFF#32⟩ hv] at hx
    revert hx
    decide +kernel)
  refine ⟨ns, us, x1, ?_, w1, fun hcov => ?_⟩
  · refine (C53_exactly_when rt gappy hn [60] [6] (.cons ((hostBitsFor_iff _ _).mpr (by decide +kernel)) .nil) 6 (by simp) (by simp) ns x1 mx y1).mpr ?_
    refine ⟨by rw [hval]; decide, fun x h1 h2 => ?_⟩
    rw [hval] at h1
    rw [hmx] at h2
    have h2 : val x ≤ 0x0A00003F := h2
    intro i _ hi
    have h6 : 6 ≤ i := by
      refine Nat.not_lt.mp fun h => ?_
      have hall : ∀ i < 6, (val gappy.subnetMask).testBit i = false := by decide +kernel
      rw [hall i h] at hi
      cases hi
    rw [hval, ← Nat.sub_add_cancel h6, ← Nat.testBit_div_two_pow, ← Nat.testBit_div_two_pow]
    congr 1
    omega
  · have h1 := (w2.mp hcov).2 ⟨0x0A000100#32⟩ ⟨0x0A000200#32⟩ (by rw [hmx]; decide +kernel) (by decide +kernel) (hmem _ (by decide +kernel))
    have h2 : gappy.contains ⟨0x0A000100#32⟩ = true := (contains_iff hn.hz _).mpr h1
    revert h2
    decide +kernel

end Ripcalc
