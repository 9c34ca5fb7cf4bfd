import Verif.Witness.Base
import Verif.Props.Compose
import Verif.Props.Nested
import Verif.Props.MergeAll
import Verif.Props.Maximal
import Verif.Props.Added
import Verif.Props.CutOut
import Verif.Props.Agreement
import Verif.Props.AnyMasks
import Verif.Props.InSteps
import Verif.Props.RangeCount
import Verif.Props.RangeShape
import Verif.Props.RangeSize
/-!
# Cases of the theorems about lists of networks and about ranges
-/
namespace Ripcalc.Witness
open Ripcalc AddrSpec LawfulIpAddr Conformance

section generic
variable {A : Type} [IpAddr A] [AddrSpec A] [LawfulIpAddr A]

theorem below {n o : Net A} {p q : Nat} (hn : IsCidr p n) (ho : IsCidr q o)
    (h : val n.baseAddr + 2 ^ (width A - p) ≤ val o.baseAddr) : Below n o := by
  intro a b ha hb
  have h1 := ((cidr_member_iff hn a).1 ha).2
  have h2 := ((cidr_member_iff ho b).1 hb).1
  omega

end generic

/-! ## Networks with any masks -/

/-- The two masks are 255.255.255.255 with the last bits cleared. -/
theorem halves_chain : ∀ n ∈ [a25, b25], InChain 0xFFFFFFFF n :=
  forall_two ⟨7, by decide, by decide +kernel⟩ ⟨7, by decide, by decide +kernel⟩

theorem halves_arise {n : Net V4} (h : Arises [a25, b25] n) : WF n ∧ InChain 0xFFFFFFFF n := by
  induction h with
  | given h _ => exact ⟨halves_wf _ h, halves_chain _ h⟩
  | join _ _ hj iha ihb => exact ⟨hj.2.1, inChain_joins iha.1 ihb.1 iha.2 ihb.2 hj⟩

/-- A network arises by joining one pair of twins only. -/
theorem halves_unique : ∀ a b c d n, Arises [a25, b25] a → Arises [a25, b25] b → Arises [a25, b25] c → Arises [a25, b25] d →
    Joins a b n → Joins c d n → c = a ∨ c = b := fun _ _ _ _ _ ha hb hc hd hj hj' =>
  inChain_unique (halves_arise ha).1 (halves_arise hb).1 (halves_arise hc).1 (halves_arise hd).1 (halves_arise ha).2 (halves_arise hc).2
    hj hj'

theorem halves_nested : NestedOrDisjoint [a25, b25] := by
  have hd : Below a25 b25 := below a25_cidr b25_cidr (by decide +kernel)
  have h1 : Disjoint a25 b25 := fun x hx => Nat.lt_irrefl _ (hd x x hx.1 hx.2)
  exact forall_two (forall_two (.inl fun _ h => h) (.inr (.inr h1)))
    (forall_two (.inr (.inr fun x hx => h1 x hx.symm)) (.inl fun _ h => h))

example := C45_exact_partial rt [a25, b25] [a24] halves_wf halves_min halves_unique
example := C45_nested_partial rt [a25, b25] [a24] halves_wf halves_nested halves_min
example := C47_nested_partial rt rt' [a25, b25] [a24] halves_wf halves_nested halves_min
example := C88_chain rt 0xFFFFFFFF [a25, b25] [a24] halves_wf halves_chain halves_min a24
example := C88_complete rt [a25, b25] [a24] halves_wf halves_min a24
  (C88_sound rt [a25, b25] [a24] halves_wf halves_min a24 (by simp))
example := C88_exact rt [a25, b25] [a24] halves_wf halves_min halves_unique a24

/-- The counterexample to C45: the network with the gap has no twin that arises and is inside the joined network. -/
example := C45_fails_partial rt lopsidedInput lopsidedOutput lopsided_wf (lopsided_result rt)
  (mk4 0x00000000#32 0xFFFFFFFC#32) (mk4 0x00000000#32 0xFFFFFFFD#32)
  (C88_sound rt _ _ lopsided_wf (lopsided_result rt) _ (by decide)) (C88_sound rt _ _ lopsided_wf (lopsided_result rt) _ (by decide))
  (by
    intro t ht ha
    have h1 := lopsided_arises t ha
    have h2 : ∀ t ∈ mk4 0x00000000#32 0xFFFFFFFC#32 :: lopsidedInput, (mk4 0x00000000#32 0xFFFFFFFD#32).subnetMask = t.subnetMask →
        t = mk4 0x00000000#32 0xFFFFFFFD#32 := by decide +kernel
    obtain rfl := h2 t h1 ht.1
    obtain ⟨-, i, hi, -, -, h⟩ := ht
    exact (h i hi).1 rfl rfl)
  (by decide) (includes wf wf (by decide +kernel))

/-! ## Greatest networks -/

example := C105_chain_greatest rt 0xFFFFFFFF [a25, b25] [a24] halves_wf halves_chain halves_min a24
example := C105_chain_within rt 0xFFFFFFFF [a25, b25] [a24] halves_wf halves_chain halves_min a26 wf
  ⟨6, by decide, by decide +kernel⟩ (fun a h => (halves_cover a).2 (a24_a26 a h))
example := C105_cidr_monotone rt rt [a25] [a25, b25] [a25] [a24] (by simpa using ⟨25, a25_cidr⟩) halves_cidr
  ((minimizeSubnetsE_approx 10 rt [a25]).eq (by decide +kernel) (by simp)) halves_min (by simp; tauto)
example := C105_cidr_within rt [a25, b25] [a24] halves_cidr halves_min 26 a26 a26_cidr (fun a h => (halves_cover a).2 (a24_a26 a h))
example := C105_range_within .checked (⟨0x0A010200#32⟩ : V4) ⟨0x0A0102BF#32⟩ [a25, a26] range 25 a25 a25_cidr
  (fun x h => (range_covers x).1 ⟨a25, by simp, h⟩)

/-! ## One network added -/

theorem one_min : minimizeSubnets rt [a25] = .ok [a25] :=
  (minimizeSubnetsE_approx 10 rt [a25]).eq (by decide +kernel) (by simp)
theorem two_min : minimizeSubnets rt [b25, a25] = .ok [a24] :=
  (minimizeSubnetsE_approx 10 rt [b25, a25]).eq (by decide +kernel) (by simp)
theorem one_cidr : ∀ n ∈ [a25], ∃ p, IsCidr p n := by simpa using ⟨25, a25_cidr⟩
theorem one_new : ∃ a : V4, Member b25 a ∧ ∀ o ∈ [a25], ¬ Member o a := by
  refine ⟨b25.baseAddr, base_member b25, ?_⟩
  simp only [List.mem_singleton, forall_eq]
  rw [← contains_iff (wf : WF a25).hz]
  decide +kernel

example := C115_added rt rt [a25] [a25] [a24] b25 25 one_cidr b25_cidr one_min two_min
example := C115_count rt rt [a25] [a25] [a24] b25 25 one_cidr b25_cidr one_min two_min one_new
example := C115_disappear rt rt [a25] [a25] [a24] b25 25 one_cidr b25_cidr one_min two_min one_new
example := C115_nothing_new rt rt' [a25, b25] a26 26 halves_cidr a26_cidr (fun a h => (halves_cover a).2 (a24_a26 a h))
example := C115_together rt rt rt [a25] [b25] [a25] [b25] [a24] one_cidr (by simpa using ⟨25, b25_cidr⟩) one_min
  ((minimizeSubnetsE_approx 10 rt [b25]).eq (by decide +kernel) (by simp)) halves_min

/-! ## One network taken out of another -/

theorem rest_covers : Covers [a25, b26] (Rest a24 a26) := by
  intro a
  have e1 : val a25.baseAddr = 0x0A010200 := by decide +kernel
  have e2 : val b26.baseAddr = 0x0A0102C0 := by decide +kernel
  have e3 : val a24.baseAddr = 0x0A010200 := by decide +kernel
  have e4 : val a26.baseAddr = 0x0A010280 := by decide +kernel
  have w : width V4 = 32 := rfl
  rw [Rest, cidr_member_iff a24_cidr, cidr_member_iff a26_cidr, e3, e4, w]
  simp only [List.mem_cons, List.not_mem_nil, or_false, exists_eq_or_imp, exists_eq_left]
  rw [cidr_member_iff a25_cidr, cidr_member_iff b26_cidr, e1, e2, w]
  omega

example := C120_converted .checked a24 a26 24 26 a24_cidr a26_cidr a24_a26 a24_top
example := C120_minimize rt a24 a26 24 26 a24_cidr a26_cidr a24_a26 [a25, b26]
  (forall_two ⟨25, a25_cidr⟩ ⟨26, b26_cidr⟩) rest_covers
example := C120_derange rt .checked a24 a26 24 26 a24_cidr a26_cidr a24_a26 _ _
  (C120_converted .checked a24 a26 24 26 a24_cidr a26_cidr a24_a26 a24_top).1.choose_spec
  (C120_converted .checked a24 a26 24 26 a24_cidr a26_cidr a24_a26 a24_top).2.choose_spec

/-! ## Display and lists agree -/

example := C121_parts .checked .wrapping a24 wf [a25, b25] halves_wf
  (.cons (by simpa using below a25_cidr b25_cidr (by decide +kernel)) (.cons (by simp) .nil)) halves_cover
example := C121_pieces .checked .wrapping .checked a24 ⟨0xFFFFFF80#32⟩ 24 25 a24_cidr mask25 (by decide) _ _ resized

/-! ## Ranges -/

example := C39_range_partial .checked (⟨0x0A010200#32⟩ : V4) ⟨0x0A0102BF#32⟩ (by
  rintro x (⟨-, h⟩ | ⟨-, h⟩) e <;> rw [e] at h <;> exact absurd h (by decide +kernel))
example := C40_minimal .checked (⟨0x0A010200#32⟩ : V4) ⟨0x0A0102BF#32⟩ [a25, a26] range [a25, a26]
  (forall_two ⟨25, a25_cidr⟩ ⟨26, a26_cidr⟩) range_covers
example := C111_twice .checked (⟨0x0A010200#32⟩ : V4) ⟨0x0A0102BF#32⟩ [a25, a26] range [a25, a26] range_covers
example := C86_middle .checked (⟨0x0A010200#32⟩ : V4) ⟨0x0A0102BF#32⟩ [a25, a26] range
example := C114_up_and_down .checked (⟨0x0A010200#32⟩ : V4) ⟨0x0A0102BF#32⟩ [a25, a26] range
example := C86_attained .checked (⟨1#32⟩ : V4) ⟨0xFFFFFFFE#32⟩ (by decide +kernel) (by decide +kernel) (by decide)

/-! ## In steps -/

theorem resized26 : Resizes .checked a24 ⟨0xFFFFFFC0#32⟩ (resizeNets a24 ⟨0xFFFFFFC0#32⟩) := (resizes_iff wf).2 rfl

example := C103_between .checked .checked a24 ⟨0xFFFFFFC0#32⟩ ⟨0xFFFFFF80#32⟩ wf (by decide +kernel) (by decide +kernel) _ _
  resized26 ⟨_, resized⟩
example := C103_minimize rt rt rt rt' [a25, b25] [a25] [a24] [a25] halves_cidr one_cidr halves_min one_min
example := C103_ranges rt .checked .checked .checked (⟨0x0A010200#32⟩ : V4) ⟨0x0A0102BF#32⟩ ⟨0x0A0102C0#32⟩ ⟨0x0A0102FF#32⟩
  (by decide +kernel) (by decide +kernel) (by decide +kernel) (by decide +kernel) (by decide +kernel) _ _ range range_rest

end Ripcalc.Witness
