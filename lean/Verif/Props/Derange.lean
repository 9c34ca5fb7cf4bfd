import Verif.Proofs.Derange
import Verif.Proofs.Parse
/-!
# Properties C39 to C41: converting a range into networks
-/
set_option linter.unusedSectionVars false
namespace Ripcalc
open AddrSpec LawfulIpAddr

/-- The address is between the two ends, inclusive, whichever end comes first. -/
def Between {A : Type} [AddrSpec A] (a b x : A) : Prop :=
  (val a ≤ val x ∧ val x ≤ val b) ∨ (val b ≤ val x ∧ val x ≤ val a)

section generic
variable {A : Type} [IpAddr A] [AddrSpec A] [LawfulIpAddr A]

theorem between_iff (a b x : A) : Between a b x ↔ min (val a) (val b) ≤ val x ∧ val x < max (val a) (val b) + 1 := by
  rw [Between]; omega

/-! ## C39: derange covers the range exactly

The full statement has no hypothesis about the ends.  It fails (see below) for every range ending at the greatest
address, and only for these. -/

theorem C39_range_partial (pr : Profile) (a b : A) (h : ∀ x : A, Between a b x → val x ≠ 2 ^ width A - 1) :
    ∃ ns, rangeToSubnets pr a b = .ok ns ∧ (∀ n ∈ ns, ∃ p, IsCidr p n) ∧ ns.Pairwise Below ∧ ns.Pairwise Disjoint ∧
      Covers ns (Between a b) := by
  have ha := h a (by rw [Between]; omega)
  have hb := h b (by rw [Between]; omega)
  have ha' := val_lt a
  have hb' := val_lt b
  obtain ⟨ns, h1, h2⟩ := (rangeToSubnets_spec pr a b (by omega)).1 (by omega)
  refine ⟨ns, h1, fun n hn => ?_, h2.below, below_disjoint h2.below, fun x => ?_⟩
  · obtain ⟨p, hp, -⟩ := h2.item n hn
    exact ⟨p, hp⟩
  · rw [h2.covers x, between_iff]

/-- A range reaching the greatest address but not covering everything panics in `Option::unwrap`. -/
theorem C39_top_panics (pr : Profile) (a b : A) (h1 : max (val a) (val b) = 2 ^ width A - 1) (h0 : min (val a) (val b) ≠ 0) :
    rangeToSubnets pr a b = .panic .unwrapNone := by
  have := Nat.two_pow_pos (width A)
  exact (rangeToSubnets_spec pr a b (by omega)).2 (by omega)

/-- The whole address space panics on the subtraction, or loops for ever if overflow is not checked. -/
theorem C39_whole_space (a b : A) (h1 : max (val a) (val b) = 2 ^ width A - 1) (h0 : min (val a) (val b) = 0) :
    rangeToSubnets .checked a b = .panic .overflow ∧ rangeToSubnets .wrapping a b = .diverge := by
  have := Nat.two_pow_pos (width A)
  exact rangeToSubnets_full a b h0 (by omega)

/-- So the outcome is a result exactly for ranges not containing the greatest address. -/
theorem C39_returns_iff (pr : Profile) (a b : A) :
    (∃ ns, rangeToSubnets pr a b = .ok ns) ↔ ∀ x : A, Between a b x → val x ≠ 2 ^ width A - 1 := by
  constructor
  · rintro ⟨ns, hns⟩ x hx hx'
    rw [between_iff] at hx
    have ha' := val_lt a
    have hb' := val_lt b
    by_cases h0 : min (val a) (val b) = 0
    · have := C39_whole_space a b (by omega) h0
      cases pr
      · rw [this.1] at hns; cases hns
      · rw [this.2] at hns; cases hns
    · rw [C39_top_panics pr a b (by omega) h0] at hns; cases hns
  · intro h
    obtain ⟨ns, hns, -⟩ := C39_range_partial pr a b h
    exact ⟨ns, hns⟩

/-! ## C40: derange uses the fewest networks -/

/-- No shorter list of CIDR networks covers the range, and any equally short one is the same up to order. -/
theorem C40_minimal (pr : Profile) (a b : A) (ns : List (Net A)) (h : rangeToSubnets pr a b = .ok ns)
    (other : List (Net A)) (ho : ∀ n ∈ other, ∃ p, IsCidr p n) (hc : Covers other (Between a b)) :
    ns.length ≤ other.length ∧ (other.length ≤ ns.length → ns.Perm other) := by
  have ht := (C39_returns_iff pr a b).mp ⟨ns, h⟩
  have ha := ht a (by rw [Between]; omega)
  have hb := ht b (by rw [Between]; omega)
  have ha' := val_lt a
  have hb' := val_lt b
  obtain ⟨ns', h1, h2⟩ := (rangeToSubnets_spec pr a b (by omega)).1 (by omega)
  rw [h1] at h
  cases h
  refine cidr_minimal ns other (fun n hn => ?_) ho (below_disjoint h2.below) (fun x => ?_)
    (rangeRet_maximal h2)
  · obtain ⟨p, hp, -⟩ := h2.item n hn
    exact ⟨p, hp⟩
  · rw [h2.covers x, hc x, between_iff]

/-! ## C41: derange ignores the order of its ends -/

theorem C41_symmetric (pr : Profile) (a b : A) : rangeToSubnets pr a b = rangeToSubnets pr b a := rangeToSubnets_comm pr a b

end generic

/-! ## The command -/

theorem printNets_eq {A : Type} [IpAddr A] (ns : List (Net A)) :
    printNets ns = ⟨ns.map (fun n => .out (n.display ++ ['\n'])), .ok ()⟩ := by
  induction ns with
  | nil => rfl
  | cons n ns ih => rw [printNets, Cli.println_bind, ih]; rfl

/-- What the command does with two addresses of one family: one line per network and exit code 0, or the same
abnormal outcome as `range_to_subnets` with nothing printed. -/
theorem C39_command_v4 (rt : Runtime) (s t u v : Str) (a b : V4) (ha : parseAddr u = .ok (.ok (.ipv4 a)))
    (hb : parseAddr v = .ok (.ok (.ipv4 b))) :
    (∀ ns, rangeToSubnets rt.profile a b = .ok ns →
      derange rt [s, t, u, v] = ⟨ns.map (fun n => .out (n.display ++ ['\n'])), .ok 0⟩) ∧
    (∀ p, rangeToSubnets rt.profile a b = .panic p → derange rt [s, t, u, v] = ⟨[], .panic p⟩) ∧
    (rangeToSubnets rt.profile a b = .diverge → derange rt [s, t, u, v] = ⟨[], .diverge⟩) := by
  rw [derange, if_neg (by simp)]
  simp only [List.getD_cons_succ, List.getD_cons_zero, ha, hb, Cli.lift_ok_bind]
  refine ⟨fun ns h => ?_, fun p h => ?_, fun h => ?_⟩ <;> rw [if_neg (fun hne => hne rfl), h]
  · simp [printNets_eq]
  · rfl
  · rfl

theorem C39_command_v6 (rt : Runtime) (s t u v : Str) (a b : V6) (ha : parseAddr u = .ok (.ok (.ipv6 a)))
    (hb : parseAddr v = .ok (.ok (.ipv6 b))) :
    (∀ ns, rangeToSubnets rt.profile a b = .ok ns →
      derange rt [s, t, u, v] = ⟨ns.map (fun n => .out (n.display ++ ['\n'])), .ok 0⟩) ∧
    (∀ p, rangeToSubnets rt.profile a b = .panic p → derange rt [s, t, u, v] = ⟨[], .panic p⟩) ∧
    (rangeToSubnets rt.profile a b = .diverge → derange rt [s, t, u, v] = ⟨[], .diverge⟩) := by
  rw [derange, if_neg (by simp)]
  simp only [List.getD_cons_succ, List.getD_cons_zero, ha, hb, Cli.lift_ok_bind]
  refine ⟨fun ns h => ?_, fun p h => ?_, fun h => ?_⟩ <;> rw [if_neg (fun hne => hne rfl), h]
  · simp [printNets_eq]
  · rfl
  · rfl

/-! ## Concrete cases -/

theorem range_of_fuel {A : Type} [IpAddr A] (fuel : Nat) (pr : Profile) (a b : A) (c : Net A) (r : Exec (List (Net A)))
    (h : Net.newWithPrefix (minAddr a b) (IpAddr.byteCount (maxAddr a b) * 8) = .ok c)
    (h' : loopFuel (rangeStep pr (maxAddr a b)) fuel ⟨minAddr a b, c, []⟩ = some r) : rangeToSubnets pr a b = r := by
  rw [rangeToSubnets]
  simp only [h, Exec.ok_bind]
  exact loopM_of_fuel h'

/-- The example of the README's kind: 192.0.2.3 to 192.0.2.12 needs four networks; the ends are in the wrong order. -/
example : (∃ n1 n2 n3 n4 : Net V4, rangeToSubnets .checked ⟨0xC000020C#32⟩ ⟨0xC0000203#32⟩ = .ok [n1, n2, n3, n4] ∧
      n1.display = "192.0.2.3/32".toList ∧ n2.display = "192.0.2.4/30".toList ∧ n3.display = "192.0.2.8/30".toList ∧
      n4.display = "192.0.2.12/32".toList) := by
  refine ⟨⟨⟨0xC0000203#32⟩, ⟨0xFFFFFFFF#32⟩, some 32⟩, ⟨⟨0xC0000204#32⟩, ⟨0xFFFFFFFC#32⟩, some 30⟩,
    ⟨⟨0xC0000208#32⟩, ⟨0xFFFFFFFC#32⟩, some 30⟩, ⟨⟨0xC000020C#32⟩, ⟨0xFFFFFFFF#32⟩, some 32⟩,
    range_of_fuel 20 _ _ _ ⟨⟨0xC0000203#32⟩, ⟨0xFFFFFFFF#32⟩, some 32⟩ _ (by decide +kernel) (by decide +kernel), ?_⟩
  decide +kernel

/-- The hypothesis of `C39_range_partial` holds for this range. -/
example : ∀ x : V4, Between ⟨0xC000020C#32⟩ ⟨0xC0000203#32⟩ x → val x ≠ 2 ^ width V4 - 1 := by
  intro x hx
  have h1 : val (⟨0xC000020C#32⟩ : V4) = 0xC000020C := rfl
  have h2 : val (⟨0xC0000203#32⟩ : V4) = 0xC0000203 := rfl
  have h3 : (2 : Nat) ^ width V4 - 1 = 4294967295 := rfl
  rw [Between, h1, h2] at hx
  rw [h3]
  omega

/-- The full statement of C39 is false: `--derange 255.255.255.254 255.255.255.255` panics. -/
theorem C39_counterexample : rangeToSubnets .checked (⟨0xFFFFFFFE#32⟩ : V4) ⟨0xFFFFFFFF#32⟩ = .panic .unwrapNone :=
  C39_top_panics _ _ _ (by decide) (by decide)

end Ripcalc
