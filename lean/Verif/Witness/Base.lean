import Verif.Conformance.Eval
import Verif.Conformance.Basic
import Verif.Proofs.Resize
import Verif.Props.Net
import Verif.Props.Minimize
import Verif.Props.Derange
import Verif.Props.Resize
import Verif.Props.Commands
/-!
# Networks and results to apply the theorems to

The files of this directory apply every property theorem that has hypotheses to a concrete case in which they hold: the
theorem is not about nothing.  This file has the networks and addresses the cases are about and what the functions return for
them, by evaluation.
-/
namespace Ripcalc.Witness
open Ripcalc AddrSpec LawfulIpAddr Conformance

/-- The runtime of the cases: overflow checks, colors. -/
abbrev rt : Runtime := evalRuntime .checked true

/-- Another one: no overflow checks, no colors. -/
abbrev rt' : Runtime := evalRuntime .wrapping false

/-- 10.1.0.0/16, 10.1.2.0/24, 10.1.2.0/25, 10.1.2.128/25. -/
abbrev a16 : Net V4 := .newWithMask ⟨0x0A010000#32⟩ ⟨0xFFFF0000#32⟩
abbrev a24 : Net V4 := .newWithMask ⟨0x0A010200#32⟩ ⟨0xFFFFFF00#32⟩
abbrev a25 : Net V4 := .newWithMask ⟨0x0A010200#32⟩ ⟨0xFFFFFF80#32⟩
abbrev b25 : Net V4 := .newWithMask ⟨0x0A010280#32⟩ ⟨0xFFFFFF80#32⟩

/-- 10.1.3.0/24. -/
abbrev b24 : Net V4 := .newWithMask ⟨0x0A010300#32⟩ ⟨0xFFFFFF00#32⟩

/-- 10.0.2.0/255.0.255.252, the host bits in two places. -/
abbrev lop : Net V4 := .newWithMask ⟨0x0A000200#32⟩ ⟨0xFF00FFFC#32⟩

/-- 2001:db8::/32 and 2001:db8:0:1::/64. -/
abbrev s32 : Net V6 := .newWithMask ⟨0x20010DB800000000#64, 0#64⟩ ⟨0xFFFFFFFF00000000#64, 0#64⟩
abbrev s64 : Net V6 := .newWithMask ⟨0x20010DB800000001#64, 0#64⟩ ⟨0xFFFFFFFFFFFFFFFF#64, 0#64⟩

theorem wf {A : Type} [IpAddr A] [AddrSpec A] [LawfulIpAddr A] {b m : A} : WF (Net.newWithMask b m) := newWithMask_wf b m

theorem a16_cidr : IsCidr 16 a16 := ⟨wf, by decide +kernel⟩
theorem a24_cidr : IsCidr 24 a24 := ⟨wf, by decide +kernel⟩
theorem b24_cidr : IsCidr 24 b24 := ⟨wf, by decide +kernel⟩
theorem a25_cidr : IsCidr 25 a25 := ⟨wf, by decide +kernel⟩
theorem b25_cidr : IsCidr 25 b25 := ⟨wf, by decide +kernel⟩
theorem s32_cidr : IsCidr 32 s32 := ⟨wf, by decide +kernel⟩
theorem s64_cidr : IsCidr 64 s64 := ⟨wf, by decide +kernel⟩

section generic
variable {A : Type} [IpAddr A] [AddrSpec A] [LawfulIpAddr A]

theorem includes {n o : Net A} (hn : WF n) (ho : WF o) (h : n.isSupersetOf o = true) : Includes n o := fun a ha =>
  (contains_iff hn.hz a).1 ((C28_superset n o hn ho).1.1 h a ((contains_iff ho.hz a).2 ha))

omit [IpAddr A] [AddrSpec A] [LawfulIpAddr A] in
theorem forall_two {P : Net A → Prop} {n o : Net A} (hn : P n) (ho : P o) : ∀ m ∈ [n, o], P m := by
  intro m hm
  simp only [List.mem_cons, List.not_mem_nil, or_false] at hm
  rcases hm with rfl | rfl <;> assumption

end generic

theorem a16_a24 : Includes a16 a24 := includes wf wf (by decide +kernel)
theorem a16_b24 : Includes a16 b24 := includes wf wf (by decide +kernel)
theorem a16_a25 : Includes a16 a25 := includes wf wf (by decide +kernel)
theorem a24_a25 : Includes a24 a25 := includes wf wf (by decide +kernel)
theorem a24_b25 : Includes a24 b25 := includes wf wf (by decide +kernel)
theorem s32_s64 : Includes s32 s64 := includes wf wf (by decide +kernel)

/-- 10.1.2.128/26 and 10.1.2.192/26. -/
abbrev a26 : Net V4 := .newWithMask ⟨0x0A010280#32⟩ ⟨0xFFFFFFC0#32⟩
abbrev b26 : Net V4 := .newWithMask ⟨0x0A0102C0#32⟩ ⟨0xFFFFFFC0#32⟩

theorem a26_cidr : IsCidr 26 a26 := ⟨wf, by decide +kernel⟩
theorem b26_cidr : IsCidr 26 b26 := ⟨wf, by decide +kernel⟩
theorem a24_a26 : Includes a24 a26 := includes wf wf (by decide +kernel)

theorem halves_cidr : ∀ n ∈ [a25, b25], ∃ p, IsCidr p n := forall_two ⟨25, a25_cidr⟩ ⟨25, b25_cidr⟩
theorem halves_wf : ∀ n ∈ [a25, b25], WF n := forall_two wf wf

/-- The two halves are merged. -/
theorem halves_min : minimizeSubnets rt [a25, b25] = .ok [a24] :=
  (minimizeSubnetsE_approx 10 rt [a25, b25]).eq (by decide +kernel) (by simp)

/-- 10.1.2.0 to 10.1.2.191, and the other way around. -/
theorem range : rangeToSubnets .checked (⟨0x0A010200#32⟩ : V4) ⟨0x0A0102BF#32⟩ = .ok [a25, a26] :=
  (rangeToSubnetsE_approx 60 .checked (⟨0x0A010200#32⟩ : V4) ⟨0x0A0102BF#32⟩).eq (by decide +kernel) (by simp)

/-- 10.1.2.192 to 10.1.2.255. -/
theorem range_rest : rangeToSubnets .checked (⟨0x0A0102C0#32⟩ : V4) ⟨0x0A0102FF#32⟩ = .ok [b26] :=
  (rangeToSubnetsE_approx 60 .checked (⟨0x0A0102C0#32⟩ : V4) ⟨0x0A0102FF#32⟩).eq (by decide +kernel) (by simp)

/-- A network of 256 addresses resized to 128 addresses. -/
theorem resized : resizeNetwork .checked a24 ⟨0xFFFFFF80#32⟩ = .ok ([a25, b25], .gt) :=
  (resizeNetworkE_approx 10 .checked a24 ⟨0xFFFFFF80#32⟩).eq (by decide +kernel) (by simp)

/-- A network of 256 addresses split for 100 and 50 hosts. -/
theorem splitted : splitSubnet rt a24 [100, 50] = .ok (some [a25, a26]) :=
  (splitSubnetE_approx 10 rt a24 [100, 50]).eq (by decide +kernel) (by simp)

theorem halves_cover : Covers [a25, b25] (Member a24) := by
  obtain ⟨out, h, hc⟩ := C42_same_addresses rt [a25, b25] halves_wf
  rw [halves_min] at h
  cases h
  exact fun a => (hc a).symm.trans (by simp)

theorem range_covers : Covers [a25, a26] (Between (⟨0x0A010200#32⟩ : V4) ⟨0x0A0102BF#32⟩) := by
  obtain ⟨ns, h, -, -, -, hc⟩ := C39_range_partial .checked (⟨0x0A010200#32⟩ : V4) ⟨0x0A0102BF#32⟩ (by
    rintro x (⟨-, h⟩ | ⟨-, h⟩) e <;> rw [e] at h <;> exact absurd h (by decide +kernel))
  rw [range] at h
  cases h
  exact hc

theorem mask25 : IsPrefixMask (width V4) 25 (val (⟨0xFFFFFF80#32⟩ : V4)) := ⟨by decide, by decide +kernel⟩
theorem mask24 : IsPrefixMask (width V4) 24 (val (⟨0xFFFFFF00#32⟩ : V4)) := ⟨by decide, by decide +kernel⟩
theorem mask16 : IsPrefixMask (width V4) 16 (val (⟨0xFFFF0000#32⟩ : V4)) := ⟨by decide, by decide +kernel⟩

/-- The greatest address of the split. -/
theorem greatest : IsGreatestUsed [a25, a26] (⟨0x0A0102BF#32⟩ : V4) := by
  refine ⟨⟨a26, by simp, (contains_iff (wf : WF a26).hz _).1 (by decide +kernel)⟩, forall_two (fun x hx => ?_) fun x hx => ?_⟩
  · have h := ((cidr_member_iff a25_cidr x).1 hx).2
    have e : val a25.baseAddr + 2 ^ (width V4 - 25) = 0x0A010280 := by decide +kernel
    have e' : val (⟨0x0A0102BF#32⟩ : V4) = 0x0A0102BF := rfl
    omega
  · have h := ((cidr_member_iff a26_cidr x).1 hx).2
    have e : val a26.baseAddr + 2 ^ (width V4 - 26) = 0x0A0102C0 := by decide +kernel
    have e' : val (⟨0x0A0102BF#32⟩ : V4) = 0x0A0102BF := rfl
    omega

/-- No address of the network is the greatest of all. -/
theorem a24_top (x : V4) (hx : Member a24 x) : val x ≠ 2 ^ 32 - 1 := by
  have h := ((cidr_member_iff a24_cidr x).1 hx).2
  have e : val a24.baseAddr + 2 ^ (width V4 - 24) = 0x0A010300 := by decide +kernel
  omega

theorem num24 : Numeral 10 "24".toList 24 :=
  ⟨by decide, [2, 4], .cons (.inl rfl) (by decide) (.cons (.inl rfl) (by decide) .nil), rfl⟩

end Ripcalc.Witness
