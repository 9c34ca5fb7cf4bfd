import Verif.Witness.Base
import Verif.Props.Addr
import Verif.Props.Tree
import Verif.Props.Permutes
import Verif.Props.Enumerate
import Verif.Props.Rounds
import Verif.Props.Compose
/-!
# Cases of the theorems about addresses, networks, resizing, enumerating and minimizing
-/
namespace Ripcalc.Witness
open Ripcalc AddrSpec LawfulIpAddr Conformance

/-! ## Addresses -/

example := C06_ipv6_offsets_partial .checked ⟨0x20010DB800000000#64, 0xFFFFFFFFFFFFFFFF#64⟩ 1 (by decide)
example := C06_ipv6_subtraction_error ⟨1#64, 0#64⟩ ⟨0#64, 1#64⟩ (by decide)
example := C14_bitwise (⟨0x0A010200#32⟩ : V4) ⟨0xFFFFFF00#32⟩ 9 (by decide)

/-! ## Networks -/

example := C23_contains a24 wf ⟨0x0A0102FE#32⟩
example := C23_same_mask a25 b25 wf wf rfl
example := C24_address_count lop wf
example := C24_host_count a24 wf ⟨0x0A0102FF#32⟩ (by decide +kernel)
example := C25_broadcast lop wf
example := C26_first_host .checked lop wf
example := C26_last_host .checked lop wf
example := C26_host_pair .checked lop wf
example := C27_next_subnet .checked lop wf
example := C28_antisymm a24 a25 wf wf
example := C28_superset a24 lop wf wf
example := C29_intersects_cidr a24 a25 24 25 a24_cidr a25_cidr
example := C29_intersects_partial a16 lop wf wf

/-! ## The order and the tree of the networks -/

example := C123_above a24 24 a24_cidr
example := C123_before a16 a24 wf wf a16_a24 (by decide +kernel)
example := C123_between a16 a24 b24 16 24 24 a16_cidr a24_cidr b24_cidr (by decide +kernel) (by decide +kernel) a16_b24
example := C123_block [a16, a24, b24]
  (by
    intro n hn
    simp only [List.mem_cons, List.not_mem_nil, or_false] at hn
    rcases hn with rfl | rfl | rfl
    · exact ⟨16, a16_cidr⟩
    · exact ⟨24, a24_cidr⟩
    · exact ⟨24, b24_cidr⟩)
  (by decide +kernel) 0 1 2 (by decide) (by decide) (by decide) a16_b24
example := C123_cidr_order a24 b24 24 24 a24_cidr b24_cidr
example := C123_common a25 b25 25 a25_cidr
example := C123_intersects a16 b24 16 24 a16_cidr b24_cidr
example := C123_minimize rt [a25, b25] [a24] halves_wf halves_min
example := C123_order lop a24 wf wf
/-- Some network contains both halves and is inside any other that does; resizing gives the same for both. -/
example : ∃ c s, IsCidr s c ∧ Includes c a25 ∧ Includes c b25 ∧
    (resizeNetwork .checked a25 ⟨0xFFFF0000#32⟩ = resizeNetwork .checked b25 ⟨0xFFFF0000#32⟩ ↔ 16 ≤ s) := by
  obtain ⟨c, s, hc, h1, h2, h3⟩ := C123_common a25 b25 25 a25_cidr
  exact ⟨c, s, hc, h1, h2, C123_resize .checked a25 b25 c 25 25 s a25_cidr b25_cidr hc h1 h2
    (fun m r h h' h'' => (h3 m r h h' h'').1) 16 ⟨0xFFFF0000#32⟩ mask16 (by decide) (by decide)⟩

/-! ## Resizing -/

example := C34_resize_target "24".toList 24 num24
example := C48_subnets .checked a24 ⟨0xFFFFFF80#32⟩ 24 25 a24_cidr mask25 (by decide)
example := C49_same .checked a24 ⟨0xFFFFFF00#32⟩ 24 a24_cidr mask24
example := C49_supernet .checked a24 ⟨0xFFFF0000#32⟩ 24 16 a24_cidr mask16 (by decide)
example := C50_back .checked lop ⟨0xFFFFFC00#32⟩ wf (by decide +kernel)
example := C50_larger .checked lop ⟨0xFF000000#32⟩ wf (by decide +kernel)
example := C50_result .checked lop ⟨0xFFFFFF00#32⟩ wf
/-- The addresses of a network and of what it is resized to. -/
example (xs ys : List V4) (h : enumerateNet .checked a24 = .ok xs) (h' : enumerateNet .wrapping a24 = .ok ys) :
    xs.length = ys.length := by
  obtain ⟨xs', e, hx, hs, -⟩ := C37_enumerate .checked a24 wf
  rw [h] at e
  cases e
  obtain ⟨ys', e, hy, ht, -⟩ := C37_enumerate .wrapping a24 wf
  rw [h'] at e
  cases e
  have nd : ∀ {l : List V4}, l.Pairwise (fun a b => val a < val b) → l.Nodup := fun h =>
    h.imp fun h e => by subst e; exact Nat.lt_irrefl _ h
  exact C50_count .checked a24 ⟨0xFFFFFF80#32⟩ _ _ wf resized (by decide +kernel) xs ys (nd hs) (nd ht) hx fun a =>
    (hy a).trans (halves_cover a).symm

/-! ## Unraveling -/

example := C125_network lop wf
example := C125_order lop ⟨0x0A000201#32⟩ ⟨0x0A010200#32⟩ ⟨0x0A020001#32⟩ ⟨0x0A020004#32⟩ (by decide +kernel) (by decide +kernel)
  (.inl (by decide +kernel))

/-! ## Enumerating -/

example := C37_enumerate .checked lop wf
example := C37_iterator .checked lop wf
example := C38_enumerate rt ["ripcalc".toList, "--enumerate".toList, "10.0.0.0/24".toList] (by decide)
example := C38_usage rt ["ripcalc".toList, "--enumerate".toList] (by decide)

/-! ## Rounds of the loops -/

example := C91_enumerate_print .checked lop wf
example := C91_grow 200 a25 25 a25_cidr
example := C91_minimize rt [a25, b25] [a24] halves_wf halves_min
example := C91_range .checked (⟨0x0A010200#32⟩ : V4) ⟨0x0A0102BF#32⟩ [a25, a26] range
example := C91_range_at_most .checked (⟨0x0A010200#32⟩ : V4) ⟨0x0A0102BF#32⟩ [a25, a26] range
example := C91_resize .checked a24 ⟨0xFFFFFF80#32⟩ [a25, b25] resized

/-! ## Minimizing -/

example := C42_same_addresses rt [a25, b25] halves_wf
example := C43_set_function rt rt' [a25, b25] [b25, a25, a25] halves_wf (by simp; tauto)
example := C44_sorted rt [a25, b25] [a24] halves_wf halves_min
example := C45_cidr_partial rt [a25, b25] [a24] halves_cidr halves_min
example := C45_input_partial rt [a25, b25] [a24] halves_wf halves_min
example := C46_cidr_minimal rt [a25, b25] [a24] halves_cidr halves_min
example := C47_cidr_partial rt rt' [a25, b25] [a24] halves_cidr halves_min
example := C47_iff rt rt' [a25, b25] [a24] halves_wf halves_min
example := C45_nothing_to_merge rt [a25, b25] [a24] halves_wf halves_min
example := C47_fixed_points rt [a25, b25] halves_wf

/-- Masks 255.0.255.254 and 255.0.255.252 are 255.0.255.255 with the last bits cleared. -/
theorem lop_chain : ∀ n ∈ [lop, .newWithMask ⟨0x0A000204#32⟩ ⟨0xFF00FFFE#32⟩], InChain 0xFF00FFFF n :=
  forall_two ⟨2, by decide, by decide +kernel⟩ ⟨1, by decide, by decide +kernel⟩

theorem lop_min : minimizeSubnets rt [lop, .newWithMask ⟨0x0A000204#32⟩ ⟨0xFF00FFFE#32⟩] =
    .ok [lop, .newWithMask ⟨0x0A000204#32⟩ ⟨0xFF00FFFE#32⟩] :=
  (minimizeSubnetsE_approx 10 rt _).eq (by decide +kernel) (by simp)

example := C45_no_inclusion_partial rt 0xFF00FFFF _ _ (forall_two wf wf) lop_chain lop_min
example := C46_chain_minimal rt 0xFF00FFFF _ _ (forall_two wf wf) lop_chain lop_min
example := C47_idempotent_partial rt rt' 0xFF00FFFF _ _ (forall_two wf wf) lop_chain lop_min

example := C84_addresses_only rt rt' [a25, b25] [a24] halves_cidr (by simpa using ⟨24, a24_cidr⟩)
  (fun a => (halves_cover a).trans (by simp))
example := C84_characterised rt [a25, b25] [a24] halves_cidr
example := C84_nothing_to_merge rt [a25, b25] [a24] halves_cidr
example := C84_single rt [a25, b25] halves_cidr a24 24 a24_cidr halves_cover

/-! ## Commands behind each other -/

example := C85_derange_enumerate .checked .wrapping (⟨0x0A010200#32⟩ : V4) ⟨0x0A0102BF#32⟩ [a25, a26] range
example := C85_derange_minimal rt .checked (⟨0x0A010200#32⟩ : V4) ⟨0x0A0102BF#32⟩ [a25, a26] range
example : ∃ xs l, enumerateNet .checked a24 = .ok xs ∧ Pointwise (fun x m => Net.newWithPrefix x 32 = .ok m) xs l ∧
    minimizeSubnets rt l = .ok [a24] := by
  obtain ⟨xs, h, -⟩ := C37_enumerate .checked a24 wf
  obtain ⟨l, h1, h2⟩ := C85_enumerate_minimize rt .checked a24 24 a24_cidr xs h
  exact ⟨xs, l, h, h1, h2⟩
example := C85_minimize_derange rt .checked (⟨0x0A010200#32⟩ : V4) ⟨0x0A0102BF#32⟩ [a25, a26] range [a25, a26]
  (forall_two ⟨25, a25_cidr⟩ ⟨26, a26_cidr⟩) range_covers
example := C85_resize_back .checked a24 ⟨0xFFFFFF80#32⟩ 24 25 a24_cidr mask25 (by decide) _ _ resized
example := C85_resize_minimize rt .checked a24 ⟨0xFFFFFF80#32⟩ 24 25 a24_cidr mask25 (by decide) _ _ resized

end Ripcalc.Witness
