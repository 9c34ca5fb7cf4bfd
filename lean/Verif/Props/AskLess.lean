import Verif.Props.SplitExact
/-!
# C106: asking for less

What splitting does for two lists of host counts of which one asks for no more than the other.
-/
namespace Ripcalc
open AddrSpec LawfulIpAddr

/-- `less` asks for no more than `more`: each of its counts can be paired with another count of `more` that is at least as great.
So it arises from `more` by dropping counts, lowering counts and reordering. -/
def AsksNoMore (less more : List Int) : Prop := ∃ picked rest, (picked ++ rest).Perm more ∧ Pointwise (· ≤ ·) less picked

theorem sum_less {less picked : List Int} (h : Pointwise (· ≤ ·) less picked) :
    (less.map (fun c => 2 ^ needBits c)).sum ≤ (picked.map (fun c => 2 ^ needBits c)).sum := by
  induction h with
  | nil => exact Nat.le_refl _
  | cons h _ ih =>
    have := Nat.pow_le_pow_right (n := 2) (by decide) (needBits_mono h)
    simp only [List.map_cons, List.sum_cons]
    omega

/-- Besides, the difference makes up for the greater of the largest blocks. -/
theorem sum_less_max {less picked : List Int} (h : Pointwise (· ≤ ·) less picked) {F : Nat} (hF : ∀ c ∈ less, needBits c ≤ F)
    {d : Int} (hd : d ∈ picked) :
    (less.map (fun c => 2 ^ needBits c)).sum + 2 ^ needBits d ≤ (picked.map (fun c => 2 ^ needBits c)).sum + 2 ^ F := by
  induction h with
  | nil => cases hd
  | @cons a b as bs h hr ih =>
    have h1 := Nat.pow_le_pow_right (n := 2) (by decide) (needBits_mono h)
    simp only [List.map_cons, List.sum_cons]
    rcases List.mem_cons.mp hd with rfl | hd
    · have h2 := Nat.pow_le_pow_right (n := 2) (by decide) (hF a List.mem_cons_self)
      have h3 := sum_less hr
      omega
    · have := ih (fun c hc => hF c (List.mem_cons_of_mem _ hc)) hd
      omega

theorem asksNoMore_sum {less more : List Int} (h : AsksNoMore less more) {F : Nat} (hF : ∀ c ∈ less, needBits c ≤ F)
    {d : Int} (hd : d ∈ more) :
    (less.map (fun c => 2 ^ needBits c)).sum + 2 ^ needBits d ≤ (more.map (fun c => 2 ^ needBits c)).sum + 2 ^ F := by
  obtain ⟨picked, rest, hp, hle⟩ := h
  rw [← (hp.map (fun c => 2 ^ needBits c)).sum_nat, List.map_append, List.sum_append_nat]
  rcases List.mem_append.mp (hp.mem_iff.mpr hd) with hd | hd
  · have := sum_less_max hle hF hd
    omega
  · have := sum_less hle
    have := sum_ge (f := fun c => 2 ^ needBits c) hd
    have := Nat.two_pow_pos F
    omega

theorem asksNoMore_le {less more : List Int} (h : AsksNoMore less more) {c : Int} (hc : c ∈ less) : ∃ d ∈ more, c ≤ d := by
  obtain ⟨picked, rest, hp, hle⟩ := h
  obtain ⟨d, hd, hcd⟩ := hle.mem c hc
  exact ⟨d, hp.mem_iff.mp (List.mem_append_left _ hd), hcd⟩

/-- Rounding down to a smaller power of two, and adding. -/
theorem round_less {b E F S T : Nat} (hEF : F ≤ E) (h : T + 2 ^ E ≤ S + 2 ^ F) :
    b / 2 ^ E * 2 ^ E ≤ b / 2 ^ F * 2 ^ F ∧ b / 2 ^ F * 2 ^ F + T ≤ b / 2 ^ E * 2 ^ E + S := by
  obtain ⟨k, rfl⟩ : ∃ k, E = F + k := ⟨E - F, by omega⟩
  have hF := Nat.two_pow_pos F
  have hk := Nat.two_pow_pos k
  rw [Nat.pow_add] at *
  rw [← Nat.div_div_eq_div_mul]
  have h1 := Nat.div_add_mod (b / 2 ^ F) (2 ^ k)
  have h2 := Nat.mod_lt (b / 2 ^ F) hk
  generalize b / 2 ^ F = q at *
  generalize q / 2 ^ k = r at *
  generalize q % 2 ^ k = s at *
  subst h1
  have h3 : (2 ^ k * r + s) * 2 ^ F = r * (2 ^ F * 2 ^ k) + s * 2 ^ F := by
    rw [Nat.add_mul, Nat.mul_comm (2 ^ k) r, Nat.mul_assoc, Nat.mul_comm (2 ^ k) (2 ^ F)]
  have h4 : s * 2 ^ F + 2 ^ F ≤ 2 ^ F * 2 ^ k := by
    rw [← Nat.succ_mul, Nat.mul_comm (2 ^ F)]
    exact Nat.mul_le_mul_right _ h2
  rw [h3]
  omega

section
variable {A : Type} [IpAddr A] [AddrSpec A] [LawfulIpAddr A]

/-- The addresses of the results, without naming the greatest. -/
theorem split_uses (rt : Runtime) (n : Net A) (hcs : List Int) (hne : hcs ≠ []) :
    ∃ E, (∀ c ∈ hcs, needBits c ≤ E) ∧ (∃ c ∈ hcs, needBits c = E) ∧
      ((∃ ns, splitSubnet rt n hcs = .ok (some ns)) ↔
        val n.baseAddr / 2 ^ E * 2 ^ E + (hcs.map (fun c => 2 ^ needBits c)).sum < 2 ^ width A) ∧
      ∀ ns, splitSubnet rt n hcs = .ok (some ns) → Covers ns (fun x : A => val n.baseAddr / 2 ^ E * 2 ^ E ≤ val x ∧
        val x < val n.baseAddr / 2 ^ E * 2 ^ E + (hcs.map (fun c => 2 ^ needBits c)).sum) := by
  obtain ⟨E, b, e, g1, g2, rfl, rfl, h1, h2⟩ := split_outcome rt n hcs hne
  refine ⟨E, g1, g2, ⟨fun ⟨ns, h⟩ => Nat.not_le.mp fun hge => ?_, fun h => ?_⟩, fun ns h x => ?_⟩
  · rw [h2 hge] at h; cases h
  · obtain ⟨-, ns, h, -⟩ := h1 h
    exact ⟨ns, h⟩
  · have hlt : val n.baseAddr / 2 ^ E * 2 ^ E + (hcs.map (fun c => 2 ^ needBits c)).sum < 2 ^ width A := by
      refine Nat.not_le.mp fun hge => ?_
      rw [h2 hge] at h; cases h
    obtain ⟨ms, ns', x1, x2, x3, -⟩ := h1 hlt
    rw [x1] at h
    cases h
    refine Iff.trans ?_ (x3.covers x)
    exact ⟨fun ⟨m, h3, h4⟩ => ⟨m, x2.mem_iff.mpr h3, h4⟩, fun ⟨m, h3, h4⟩ => ⟨m, x2.mem_iff.mp h3, h4⟩⟩

/-- If splitting succeeds for some host counts, it succeeds for every list that asks for no more, on every platform, and uses no
address that it did not use before. -/
theorem C106_less (rt rt' : Runtime) (n : Net A) (less more : List Int) (hne : less ≠ []) (hl : AsksNoMore less more)
    (ns : List (Net A)) (h : splitSubnet rt n more = .ok (some ns)) :
    ∃ ns', splitSubnet rt' n less = .ok (some ns') ∧ ∀ x : A, (∃ m ∈ ns', Member m x) → ∃ m ∈ ns, Member m x := by
  obtain ⟨c, hc⟩ := List.exists_mem_of_ne_nil _ hne
  obtain ⟨d, hd, -⟩ := asksNoMore_le hl hc
  obtain ⟨E, h1, ⟨d', hd', h2⟩, h3, h4⟩ := split_uses rt n more (List.ne_nil_of_mem hd)
  obtain ⟨F, k1, ⟨c', hc', k2⟩, k3, k4⟩ := split_uses rt' n less hne
  have hFE : F ≤ E := by
    obtain ⟨e, he, hle⟩ := asksNoMore_le hl hc'
    have := needBits_mono hle
    have := h1 e he
    omega
  have hs := asksNoMore_sum hl k1 hd'
  rw [h2] at hs
  have hr := round_less (b := val n.baseAddr) hFE hs
  have hlt := h3.mp ⟨ns, h⟩
  obtain ⟨ns', hns'⟩ := k3.mpr (by omega)
  refine ⟨ns', hns', fun x hx => (h4 ns h x).mpr ?_⟩
  have := (k4 ns' hns' x).mp hx
  omega

/-- The other way round: if there are not enough addresses, there are not enough for a list that asks for no less. -/
theorem C106_more (rt rt' : Runtime) (n : Net A) (less more : List Int) (hne : less ≠ []) (hl : AsksNoMore less more)
    (h : splitSubnet rt n less = .ok none) : splitSubnet rt' n more = .ok none := by
  obtain ⟨r, hr, -⟩ := C51_requests rt' n more
  rcases r with _ | ns
  · exact hr
  · obtain ⟨ns', h', -⟩ := C106_less rt' rt n less more hne hl ns hr
    rw [h] at h'
    cases h'

/-- The results stay inside the network, and inside any other. -/
theorem C106_contained (rt rt' : Runtime) (n o : Net A) (less more : List Int) (hne : less ≠ []) (hl : AsksNoMore less more)
    (ns ns' : List (Net A)) (h : splitSubnet rt n more = .ok (some ns)) (h' : splitSubnet rt' n less = .ok (some ns'))
    (hin : ∀ m ∈ ns, Includes o m) : ∀ m ∈ ns', Includes o m := by
  obtain ⟨ns'', h1, h2⟩ := C106_less rt rt' n less more hne hl ns h
  obtain rfl : ns'' = ns' := by rw [h'] at h1; cases h1; rfl
  intro m hm x hx
  obtain ⟨m', hm', hx'⟩ := h2 x ⟨m, hm, hx⟩
  exact hin m' hm' x hx'

/-- The greatest used address of a CIDR network stays in the network. -/
theorem greatest_less (rt rt' : Runtime) (n : Net A) (p : Nat) (hn : IsCidr p n) (less more : List Int) (hne : less ≠ [])
    (hl : AsksNoMore less more) (ns ns' : List (Net A)) (h : splitSubnet rt n more = .ok (some ns))
    (h' : splitSubnet rt' n less = .ok (some ns')) (mx mx' : A) (hmx : IsGreatestUsed ns mx) (hmx' : IsGreatestUsed ns' mx')
    (hin : Member n mx) : Member n mx' := by
  obtain ⟨ns'', h1, h2⟩ := C106_less rt rt' n less more hne hl ns h
  obtain rfl : ns'' = ns' := by rw [h'] at h1; cases h1; rfl
  obtain ⟨E, -, -, h3, h4, -⟩ := split_covers rt' n less hne ns'' h' mx' hmx'
  obtain ⟨m, hm, hx⟩ := h2 mx' hmx'.1
  have h5 := hmx.2 m hm mx' hx
  have h6 := (cidr_member_iff hn mx).mp hin
  exact (cidr_member_iff hn mx').mpr (by omega)

end

/-! ## The command -/

/-- The output ends with the report that there are not enough addresses, and the exit code is 1. -/
def SaysNotEnough (x : Cli Nat) : Prop := ∃ t, Shows x 1 (t ++ "Not enough addresses available for this split.\n".toList)

/-- The command for an IPv4 CIDR network: if it says for some host counts that there are not enough addresses or that the network
is too small, it says one of these for every list that asks for no less; and if it says neither for the greater counts, it goes on
to the unused networks for the smaller. -/
theorem C106_command_v4 (rt : Runtime) (prog mode s : Str) (a : V4) (n : Net V4)
    (hp : parseNetspec s = .ok (.ok (.ipv4 a n))) (p : Nat) (hn : IsCidr p n) (counts counts' : List Str) (hne : counts' ≠ [])
    (less more : List Int) (hc : Counts counts more) (hc' : Counts counts' less) (hl : AsksNoMore less more) :
    (SaysNotEnough (split rt (prog :: mode :: s :: counts')) → SaysNotEnough (split rt (prog :: mode :: s :: counts))) ∧
    (SaysTooSmall (split rt (prog :: mode :: s :: counts')) →
      SaysNotEnough (split rt (prog :: mode :: s :: counts)) ∨ SaysTooSmall (split rt (prog :: mode :: s :: counts))) ∧
    (¬ SaysNotEnough (split rt (prog :: mode :: s :: counts)) → ¬ SaysTooSmall (split rt (prog :: mode :: s :: counts)) →
      ((∃ x, Member n x ∧ val x = 2 ^ 32 - 1) ∧ (split rt (prog :: mode :: s :: counts')).res = .panic .unwrapNone) ∨
      ((∀ x, Member n x → val x ≠ 2 ^ 32 - 1) ∧ ∃ us : List (Net V4), ListsUnused (split rt (prog :: mode :: s :: counts')) us)) := by
  have hle := hc'.ne_nil hne
  have hne' : counts ≠ [] := by
    rintro rfl
    cases hc
    obtain ⟨c, hcm⟩ := List.exists_mem_of_ne_nil _ hle
    obtain ⟨d, hd, -⟩ := asksNoMore_le hl hcm
    cases hd
  have S := C65_any_v4 rt prog mode s counts hne' more hc a n hp
  have S' := C65_any_v4 rt prog mode s counts' hne less hc' a n hp
  have small : ∀ ns', splitSubnet rt n less = .ok (some ns') → ¬ SaysNotEnough (split rt (prog :: mode :: s :: counts')) := by
    intro ns' h' ⟨t, ht⟩
    rcases S' with ⟨h1, -⟩ | ⟨ns, mx, t, u, h1, h2, -, -, h3, h4, h5⟩
    · rw [h'] at h1; cases h1
    · by_cases hm : Member n mx
      · by_cases htop : ∃ x, Member n x ∧ val x = 2 ^ 32 - 1
        · have := (h5 hm htop).1
          rw [ht.1] at this; cases this
        · obtain ⟨us, h6, -⟩ := h4 hm (fun x hx hv => htop ⟨x, hx, hv⟩)
          have := h6.1
          rw [ht.1] at this; cases this
      · have := (h3 hm).1
        rw [ht.1] at this; cases this
  have notEnough : splitSubnet rt n more = .ok none → SaysNotEnough (split rt (prog :: mode :: s :: counts)) := by
    intro h
    rcases S with ⟨-, t, -, h2⟩ | ⟨ns, mx, t, u, h1, -⟩
    · exact ⟨_, h2⟩
    · rw [h] at h1; cases h1
  refine ⟨fun hs => ?_, fun hs => ?_, fun hs1 hs2 => ?_⟩
  · rcases S' with ⟨h1, -⟩ | ⟨ns, mx, t, u, h1, -⟩
    · exact notEnough (C106_more rt rt n less more hle hl h1)
    · exact absurd hs (small ns h1)
  · rcases S with ⟨h, -⟩ | ⟨ns, mx, t, u, h, hmx, -, -, h3, -⟩
    · exact Or.inl (notEnough h)
    · right
      refine ⟨_, h3 fun hm => ?_⟩
      obtain ⟨ns', h', -⟩ := C106_less rt rt n less more hle hl ns h
      obtain ⟨mx', hmx', k1, -⟩ := C55_command_exact_v4 rt prog mode s counts' hne less hc' a n hp ns' h'
      exact k1.mp hs (greatest_less rt rt n p hn less more hle hl ns ns' h h' mx mx' hmx hmx' hm)
  · rcases S with ⟨h, -⟩ | ⟨ns, mx, t, u, h, hmx, -, -, h3, -⟩
    · exact absurd (notEnough h) hs1
    · have hm : Member n mx := Classical.byContradiction fun hm => hs2 ⟨_, h3 hm⟩
      obtain ⟨ns', h', -⟩ := C106_less rt rt n less more hle hl ns h
      obtain ⟨mx', hmx', -, k2, k3⟩ := C55_command_exact_v4 rt prog mode s counts' hne less hc' a n hp ns' h'
      have hm' := greatest_less rt rt n p hn less more hle hl ns ns' h h' mx mx' hmx hmx' hm
      by_cases htop : ∃ x, Member n x ∧ val x = 2 ^ 32 - 1
      · exact Or.inl ⟨htop, k2.mpr ⟨hm', htop⟩⟩
      · have ht : ∀ x, Member n x → val x ≠ 2 ^ 32 - 1 := fun x hx hv => htop ⟨x, hx, hv⟩
        obtain ⟨us, hus, -⟩ := k3 hm' ht
        exact Or.inr ⟨ht, us, hus⟩

/-- The command for an IPv6 CIDR network: if it says for some host counts that there are not enough addresses or that the network
is too small, it says one of these for every list that asks for no less; and if it says neither for the greater counts, it goes on
to the unused networks for the smaller. -/
theorem C106_command_v6 (rt : Runtime) (prog mode s : Str) (a : V6) (n : Net V6)
    (hp : parseNetspec s = .ok (.ok (.ipv6 a n))) (p : Nat) (hn : IsCidr p n) (counts counts' : List Str) (hne : counts' ≠ [])
    (less more : List Int) (hc : Counts counts more) (hc' : Counts counts' less) (hl : AsksNoMore less more) :
    (SaysNotEnough (split rt (prog :: mode :: s :: counts')) → SaysNotEnough (split rt (prog :: mode :: s :: counts))) ∧
    (SaysTooSmall (split rt (prog :: mode :: s :: counts')) →
      SaysNotEnough (split rt (prog :: mode :: s :: counts)) ∨ SaysTooSmall (split rt (prog :: mode :: s :: counts))) ∧
    (¬ SaysNotEnough (split rt (prog :: mode :: s :: counts)) → ¬ SaysTooSmall (split rt (prog :: mode :: s :: counts)) →
      ((∃ x, Member n x ∧ val x = 2 ^ 128 - 1) ∧ (split rt (prog :: mode :: s :: counts')).res = .panic .unwrapNone) ∨
      ((∀ x, Member n x → val x ≠ 2 ^ 128 - 1) ∧ ∃ us : List (Net V6), ListsUnused (split rt (prog :: mode :: s :: counts')) us)) := by
  have hle := hc'.ne_nil hne
  have hne' : counts ≠ [] := by
    rintro rfl
    cases hc
    obtain ⟨c, hcm⟩ := List.exists_mem_of_ne_nil _ hle
    obtain ⟨d, hd, -⟩ := asksNoMore_le hl hcm
    cases hd
  have S := C65_any_v6 rt prog mode s counts hne' more hc a n hp
  have S' := C65_any_v6 rt prog mode s counts' hne less hc' a n hp
  have small : ∀ ns', splitSubnet rt n less = .ok (some ns') → ¬ SaysNotEnough (split rt (prog :: mode :: s :: counts')) := by
    intro ns' h' ⟨t, ht⟩
    rcases S' with ⟨h1, -⟩ | ⟨ns, mx, t, u, h1, h2, -, -, h3, h4, h5⟩
    · rw [h'] at h1; cases h1
    · by_cases hm : Member n mx
      · by_cases htop : ∃ x, Member n x ∧ val x = 2 ^ 128 - 1
        · have := (h5 hm htop).1
          rw [ht.1] at this; cases this
        · obtain ⟨us, h6, -⟩ := h4 hm (fun x hx hv => htop ⟨x, hx, hv⟩)
          have := h6.1
          rw [ht.1] at this; cases this
      · have := (h3 hm).1
        rw [ht.1] at this; cases this
  have notEnough : splitSubnet rt n more = .ok none → SaysNotEnough (split rt (prog :: mode :: s :: counts)) := by
    intro h
    rcases S with ⟨-, t, -, h2⟩ | ⟨ns, mx, t, u, h1, -⟩
    · exact ⟨_, h2⟩
    · rw [h] at h1; cases h1
  refine ⟨fun hs => ?_, fun hs => ?_, fun hs1 hs2 => ?_⟩
  · rcases S' with ⟨h1, -⟩ | ⟨ns, mx, t, u, h1, -⟩
    · exact notEnough (C106_more rt rt n less more hle hl h1)
    · exact absurd hs (small ns h1)
  · rcases S with ⟨h, -⟩ | ⟨ns, mx, t, u, h, hmx, -, -, h3, -⟩
    · exact Or.inl (notEnough h)
    · right
      refine ⟨_, h3 fun hm => ?_⟩
      obtain ⟨ns', h', -⟩ := C106_less rt rt n less more hle hl ns h
      obtain ⟨mx', hmx', k1, -⟩ := C55_command_exact_v6 rt prog mode s counts' hne less hc' a n hp ns' h'
      exact k1.mp hs (greatest_less rt rt n p hn less more hle hl ns ns' h h' mx mx' hmx hmx' hm)
  · rcases S with ⟨h, -⟩ | ⟨ns, mx, t, u, h, hmx, -, -, h3, -⟩
    · exact absurd (notEnough h) hs1
    · have hm : Member n mx := Classical.byContradiction fun hm => hs2 ⟨_, h3 hm⟩
      obtain ⟨ns', h', -⟩ := C106_less rt rt n less more hle hl ns h
      obtain ⟨mx', hmx', -, k2, k3⟩ := C55_command_exact_v6 rt prog mode s counts' hne less hc' a n hp ns' h'
      have hm' := greatest_less rt rt n p hn less more hle hl ns ns' h h' mx mx' hmx hmx' hm
      by_cases htop : ∃ x, Member n x ∧ val x = 2 ^ 128 - 1
      · exact Or.inl ⟨htop, k2.mpr ⟨hm', htop⟩⟩
      · have ht : ∀ x, Member n x → val x ≠ 2 ^ 128 - 1 := fun x hx hv => htop ⟨x, hx, hv⟩
        obtain ⟨us, hus, -⟩ := k3 hm' ht
        exact Or.inr ⟨ht, us, hus⟩

/-! ## For both families -/

theorem C106_less_families : (type_of% (@C106_less V4 _ _ _)) ∧ (type_of% (@C106_less V6 _ _ _)) :=
  ⟨@C106_less V4 _ _ _, @C106_less V6 _ _ _⟩

theorem C106_more_families : (type_of% (@C106_more V4 _ _ _)) ∧ (type_of% (@C106_more V6 _ _ _)) :=
  ⟨@C106_more V4 _ _ _, @C106_more V6 _ _ _⟩

theorem C106_contained_families : (type_of% (@C106_contained V4 _ _ _)) ∧ (type_of% (@C106_contained V6 _ _ _)) :=
  ⟨@C106_contained V4 _ _ _, @C106_contained V6 _ _ _⟩

/-! ## Concrete cases -/

/-- One count dropped, two lowered, and reordered. -/
example : AsksNoMore [20, 28] [28, 100, 20] ∧ AsksNoMore [6, 100] [28, 100, 20] ∧ ¬ AsksNoMore [28, 28] [28, 20] := by
  refine ⟨⟨[20, 28], [100], by decide, .cons (by decide) (.cons (by decide) .nil)⟩,
    ⟨[28, 100], [20], by decide, .cons (by decide) (.cons (by decide) .nil)⟩, ?_⟩
  rintro ⟨picked, rest, hp, h⟩
  obtain ⟨c, d, rfl⟩ : ∃ c d, picked = [c, d] := by
    cases h with | cons _ h => cases h with | cons _ h => cases h; exact ⟨_, _, rfl⟩
  have h1 : (28 : Int) ≤ c := by cases h; assumption
  have h2 : (28 : Int) ≤ d := by cases h with | cons _ h => cases h; assumption
  have hl := hp.length_eq
  simp at hl
  subst hl
  have hc := hp.mem_iff (a := c)
  have hd := hp.mem_iff (a := d)
  have h20 := hp.mem_iff (a := 20)
  simp at hc hd h20
  omega

/-- 192.0.2.0/24 has room for 20, 100 and 28 hosts, so it has room for 6 and 100. -/
example : ∃ ns', splitSubnet (evalRuntime .wrapping false) (net24 0xC0000200#32) [6, 100] = .ok (some ns') ∧
    ∀ m ∈ ns', Includes (net24 0xC0000200#32) m := by
  have hl : AsksNoMore [6, 100] [20, 100, 28] := ⟨[20, 100], [28], .refl _, .cons (by decide) (.cons (by decide) .nil)⟩
  obtain ⟨ns', h, hu⟩ := C106_less _ (evalRuntime .wrapping false) _ _ _ (by decide) hl _ split_example
  have hp : parseNetspec "192.0.2.1/24".toList = .ok (.ok (.ipv4 ⟨0xC0000201#32⟩ (net24 0xC0000200#32))) := by decide +kernel
  refine ⟨ns', h, C106_contained _ _ _ _ _ _ (by decide) hl _ _ split_example h fun m hm => ?_⟩
  have hw : WF m := by
    simp only [List.mem_cons, List.not_mem_nil, or_false] at hm
    rcases hm with rfl | rfl | rfl <;> exact mk4_wf _ _
  refine (superset_iff (C33_parsed_good _ _ hp).2.1 hw).mp ?_
  clear hw
  revert m
  decide +kernel

theorem greatest_value (rt : Runtime) (n : Net V4) (hcs : List Int) (hne : hcs ≠ []) (E S : Nat) (h1 : ∀ c ∈ hcs, needBits c ≤ E)
    (h2 : ∃ c ∈ hcs, needBits c = E) (hS : (hcs.map (fun c => 2 ^ needBits c)).sum = S)
    (hlt : val n.baseAddr / 2 ^ E * 2 ^ E + S < 2 ^ 32) :
    ∃ ns, splitSubnet rt n hcs = .ok (some ns) ∧ ∀ mx, IsGreatestUsed ns mx → val mx + 1 = val n.baseAddr / 2 ^ E * 2 ^ E + S := by
  obtain ⟨F, k1, k2, k3, k4⟩ := split_uses rt n hcs hne
  obtain rfl := needMax_eq k1 k2 h1 h2
  rw [hS] at k3 k4
  obtain ⟨ns, h⟩ := k3.mpr hlt
  refine ⟨ns, h, fun mx hmx => ?_⟩
  have hcov := k4 ns h
  have h3 := (hcov mx).mp hmx.1
  have h5 : val n.baseAddr / 2 ^ F * 2 ^ F + S ≤ 2 ^ width V4 := Nat.le_of_lt hlt
  obtain ⟨y, hy⟩ := val_surj (A := V4) (val n.baseAddr / 2 ^ F * 2 ^ F + S - 1) (by omega)
  obtain ⟨m, hm, hmy⟩ := (hcov y).mpr (by omega)
  have := hmx.2 m hm y hmy
  omega

/-- For a mask with gaps the report can change for the worse: `10.0.0.0/255.255.5.0` is said to be too small for two networks of 254
hosts, but not for three. -/
theorem C106_gaps (rt : Runtime) :
    AsksNoMore [254, 254] [254, 254, 254] ∧
    SaysTooSmall (split rt ["ripcalc".toList, "-s".toList, "10.0.0.0/255.255.5.0".toList, "254".toList, "254".toList]) ∧
    ¬ SaysTooSmall (split rt ["ripcalc".toList, "-s".toList, "10.0.0.0/255.255.5.0".toList, "254".toList, "254".toList, "254".toList]) ∧
    ¬ SaysNotEnough (split rt ["ripcalc".toList, "-s".toList, "10.0.0.0/255.255.5.0".toList, "254".toList, "254".toList, "254".toList]) := by
  have hn : WF gappy := (C33_parsed_good _ _ gappy_parse).2.1
  obtain ⟨ns, h, hg⟩ := greatest_value rt gappy [254, 254] (by simp) 8 512 (by decide +kernel) ⟨254, by simp, by decide +kernel⟩
    (by decide +kernel) (by decide +kernel)
  obtain ⟨ns', h', hg'⟩ := greatest_value rt gappy [254, 254, 254] (by simp) 8 768 (by decide +kernel) ⟨254, by simp, by decide +kernel⟩
    (by decide +kernel) (by decide +kernel)
  obtain ⟨mx, y1, y2, -⟩ := C55_command_exact_v4 rt "ripcalc".toList "-s".toList "10.0.0.0/255.255.5.0".toList
    ["254".toList, "254".toList] (by simp) [254, 254] (counts_of [("254".toList, 254), ("254".toList, 254)] (by decide +kernel)) _ gappy
    gappy_parse ns h
  obtain ⟨mx', z1, z2, -⟩ := C55_command_exact_v4 rt "ripcalc".toList "-s".toList "10.0.0.0/255.255.5.0".toList
    ["254".toList, "254".toList, "254".toList] (by simp) [254, 254, 254]
    (counts_of [("254".toList, 254), ("254".toList, 254), ("254".toList, 254)] (by decide +kernel)) _ gappy gappy_parse ns' h'
  have hv : val gappy.baseAddr / 2 ^ 8 * 2 ^ 8 = 0x0A000000 := by decide +kernel
  have e1 : mx = ⟨0x0A0001FF#32⟩ := val_inj _ _ (by have := hg mx y1; rw [hv] at this; show val mx = 0x0A0001FF; omega)
  have e2 : mx' = ⟨0x0A0002FF#32⟩ := val_inj _ _ (by have := hg' mx' z1; rw [hv] at this; show val mx' = 0x0A0002FF; omega)
  have hm : ¬ Member gappy mx := by
    rw [← contains_iff hn.hz, e1]
    decide +kernel
  have hm' : Member gappy mx' := by
    rw [← contains_iff hn.hz, e2]
    decide +kernel
  refine ⟨⟨[254, 254], [254], .refl _, .cons (by decide) (.cons (by decide) .nil)⟩, y2.mpr hm, fun hs => z2.mp hs hm', ?_⟩
  rintro ⟨t, ht⟩
  rcases C65_any_v4 rt "ripcalc".toList "-s".toList "10.0.0.0/255.255.5.0".toList ["254".toList, "254".toList, "254".toList] (by simp)
    [254, 254, 254] (counts_of [("254".toList, 254), ("254".toList, 254), ("254".toList, 254)] (by decide +kernel)) _ gappy gappy_parse with
    ⟨h1, -⟩ | ⟨ns'', mx'', t', u, h1, h2, -, -, h3, h4, h5⟩
  · rw [h'] at h1; cases h1
  · have ht1 := ht.1
    by_cases hmm : Member gappy mx''
    · by_cases htop : ∃ x, Member gappy x ∧ val x = 2 ^ 32 - 1
      · have := (h5 hmm htop).1
        rw [ht1] at this; cases this
      · obtain ⟨us, h6, -⟩ := h4 hmm (fun x hx hv => htop ⟨x, hx, hv⟩)
        have := h6.1
        rw [ht1] at this; cases this
    · have := (h3 hmm).1
      rw [ht1] at this; cases this

/-- `192.0.2.1/24` is too small for 200 and 100 hosts, and so it is for 28, 150 and 200. -/
example (rt : Runtime) :
    SaysTooSmall (split rt ["ripcalc".toList, "-s".toList, "192.0.2.1/24".toList, "200".toList, "100".toList]) ∧
    (SaysNotEnough (split rt ["ripcalc".toList, "-s".toList, "192.0.2.1/24".toList, "28".toList, "150".toList, "200".toList]) ∨
    SaysTooSmall (split rt ["ripcalc".toList, "-s".toList, "192.0.2.1/24".toList, "28".toList, "150".toList, "200".toList])) := by
  have hp : parseNetspec "192.0.2.1/24".toList = .ok (.ok (.ipv4 ⟨0xC0000201#32⟩ (net24 0xC0000200#32))) := by decide +kernel
  have hn := (C33_parsed_good _ _ hp).2.1
  have hc : Counts ["200".toList, "100".toList] [200, 100] := counts_of [("200".toList, 200), ("100".toList, 100)] (by decide +kernel)
  obtain ⟨ns, h, hg⟩ := greatest_value rt (net24 0xC0000200#32) [200, 100] (by simp) 8 384 (by decide +kernel) ⟨200, by simp, by decide +kernel⟩
    (by decide +kernel) (by decide +kernel)
  obtain ⟨mx, y1, y2, -⟩ := C55_command_exact_v4 rt "ripcalc".toList "-s".toList "192.0.2.1/24".toList
    ["200".toList, "100".toList] (by simp) [200, 100] hc _ _ hp ns h
  have hv : val (net24 0xC0000200#32).baseAddr / 2 ^ 8 * 2 ^ 8 = 0xC0000200 := by decide +kernel
  have e1 : mx = ⟨0xC000037F#32⟩ := val_inj _ _ (by have := hg mx y1; rw [hv] at this; show val mx = 0xC000037F; omega)
  have hs := y2.mpr (by rw [← contains_iff hn.hz, e1]; decide +kernel)
  exact ⟨hs, (C106_command_v4 rt "ripcalc".toList "-s".toList "192.0.2.1/24".toList _ _ hp 24 ⟨hn, rfl⟩
    ["28".toList, "150".toList, "200".toList] ["200".toList, "100".toList] (by simp) [200, 100] [28, 150, 200]
    (counts_of [("28".toList, 28), ("150".toList, 150), ("200".toList, 200)] (by decide +kernel)) hc
    ⟨[200, 150], [28], by decide, .cons (by decide) (.cons (by decide) .nil)⟩).2.1 hs⟩

end Ripcalc
