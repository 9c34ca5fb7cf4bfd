import Verif.Props.Addr
import Verif.Props.BitManip
import Verif.Props.Net
import Verif.Props.Parse
import Verif.Props.Enumerate
import Verif.Props.Derange
import Verif.Props.Minimize
import Verif.Props.Resize
import Verif.Props.Split
/-!
# The generic theorems, for both address families

Many theorems are stated for every address type that satisfies `LawfulIpAddr`.  Here each of them is instantiated with the two
address types of the program, so that nothing remains conditional: these theorems fail if an operation of either type does
not satisfy the laws.  `type_of%` stands for the statement of the generic theorem at the given type.
-/
namespace Ripcalc

theorem C14_bitwise_families : (type_of% (@C14_bitwise V4 _ _ _)) ∧ (type_of% (@C14_bitwise V6 _ _ _)) :=
  ⟨@C14_bitwise V4 _ _ _, @C14_bitwise V6 _ _ _⟩

theorem C14_counts_families : (type_of% (@C14_counts V4 _ _ _)) ∧ (type_of% (@C14_counts V6 _ _ _)) :=
  ⟨@C14_counts V4 _ _ _, @C14_counts V6 _ _ _⟩

theorem C18_unravel_weave_families : (type_of% (@C18_unravel_weave V4 _ _ _)) ∧ (type_of% (@C18_unravel_weave V6 _ _ _)) :=
  ⟨@C18_unravel_weave V4 _ _ _, @C18_unravel_weave V6 _ _ _⟩

theorem C19_unravel_bits_families : (type_of% (@C19_unravel_bits V4 _ _ _)) ∧ (type_of% (@C19_unravel_bits V6 _ _ _)) :=
  ⟨@C19_unravel_bits V4 _ _ _, @C19_unravel_bits V6 _ _ _⟩

theorem C19_unravel_mask_families : (type_of% (@C19_unravel_mask V4 _ _ _)) ∧ (type_of% (@C19_unravel_mask V6 _ _ _)) :=
  ⟨@C19_unravel_mask V4 _ _ _, @C19_unravel_mask V6 _ _ _⟩

theorem C20_new_with_mask_families : (type_of% (@C20_new_with_mask V4 _ _ _)) ∧ (type_of% (@C20_new_with_mask V6 _ _ _)) :=
  ⟨@C20_new_with_mask V4 _ _ _, @C20_new_with_mask V6 _ _ _⟩

theorem C20_new_with_prefix_families : (type_of% (@C20_new_with_prefix V4 _ _ _)) ∧ (type_of% (@C20_new_with_prefix V6 _ _ _)) :=
  ⟨@C20_new_with_prefix V4 _ _ _, @C20_new_with_prefix V6 _ _ _⟩

theorem C21_mask_strict_families : (type_of% (@C21_mask_strict V4 _ _ _)) ∧ (type_of% (@C21_mask_strict V6 _ _ _)) :=
  ⟨@C21_mask_strict V4 _ _ _, @C21_mask_strict V6 _ _ _⟩

theorem C21_prefix_strict_families : (type_of% (@C21_prefix_strict V4 _ _ _)) ∧ (type_of% (@C21_prefix_strict V6 _ _ _)) :=
  ⟨@C21_prefix_strict V4 _ _ _, @C21_prefix_strict V6 _ _ _⟩

theorem C22_constructors_agree_families : (type_of% (@C22_constructors_agree V4 _ _ _)) ∧ (type_of% (@C22_constructors_agree V6 _ _ _)) :=
  ⟨@C22_constructors_agree V4 _ _ _, @C22_constructors_agree V6 _ _ _⟩

theorem C23_contains_families : (type_of% (@C23_contains V4 _ _ _)) ∧ (type_of% (@C23_contains V6 _ _ _)) :=
  ⟨@C23_contains V4 _ _ _, @C23_contains V6 _ _ _⟩

theorem C23_same_mask_families : (type_of% (@C23_same_mask V4 _ _ _)) ∧ (type_of% (@C23_same_mask V6 _ _ _)) :=
  ⟨@C23_same_mask V4 _ _ _, @C23_same_mask V6 _ _ _⟩

theorem C24_address_count_families : (type_of% (@C24_address_count V4 _ _ _)) ∧ (type_of% (@C24_address_count V6 _ _ _)) :=
  ⟨@C24_address_count V4 _ _ _, @C24_address_count V6 _ _ _⟩

theorem C24_host_count_families : (type_of% (@C24_host_count V4 _ _ _)) ∧ (type_of% (@C24_host_count V6 _ _ _)) :=
  ⟨@C24_host_count V4 _ _ _, @C24_host_count V6 _ _ _⟩

theorem C25_broadcast_families : (type_of% (@C25_broadcast V4 _ _ _)) ∧ (type_of% (@C25_broadcast V6 _ _ _)) :=
  ⟨@C25_broadcast V4 _ _ _, @C25_broadcast V6 _ _ _⟩

theorem C26_first_host_families : (type_of% (@C26_first_host V4 _ _ _)) ∧ (type_of% (@C26_first_host V6 _ _ _)) :=
  ⟨@C26_first_host V4 _ _ _, @C26_first_host V6 _ _ _⟩

theorem C26_host_pair_families : (type_of% (@C26_host_pair V4 _ _ _)) ∧ (type_of% (@C26_host_pair V6 _ _ _)) :=
  ⟨@C26_host_pair V4 _ _ _, @C26_host_pair V6 _ _ _⟩

theorem C26_last_host_families : (type_of% (@C26_last_host V4 _ _ _)) ∧ (type_of% (@C26_last_host V6 _ _ _)) :=
  ⟨@C26_last_host V4 _ _ _, @C26_last_host V6 _ _ _⟩

theorem C27_next_subnet_families : (type_of% (@C27_next_subnet V4 _ _ _)) ∧ (type_of% (@C27_next_subnet V6 _ _ _)) :=
  ⟨@C27_next_subnet V4 _ _ _, @C27_next_subnet V6 _ _ _⟩

theorem C28_antisymm_families : (type_of% (@C28_antisymm V4 _ _ _)) ∧ (type_of% (@C28_antisymm V6 _ _ _)) :=
  ⟨@C28_antisymm V4 _ _ _, @C28_antisymm V6 _ _ _⟩

theorem C28_superset_families : (type_of% (@C28_superset V4 _ _ _)) ∧ (type_of% (@C28_superset V6 _ _ _)) :=
  ⟨@C28_superset V4 _ _ _, @C28_superset V6 _ _ _⟩

theorem C29_intersects_cidr_families : (type_of% (@C29_intersects_cidr V4 _ _ _)) ∧ (type_of% (@C29_intersects_cidr V6 _ _ _)) :=
  ⟨@C29_intersects_cidr V4 _ _ _, @C29_intersects_cidr V6 _ _ _⟩

theorem C29_intersects_families_partial : (type_of% (@C29_intersects_partial V4 _ _ _)) ∧ (type_of% (@C29_intersects_partial V6 _ _ _)) :=
  ⟨@C29_intersects_partial V4 _ _ _, @C29_intersects_partial V6 _ _ _⟩

theorem C31_net_unique_families : (type_of% (@C31_net_unique V4 _ _ _)) ∧ (type_of% (@C31_net_unique V6 _ _ _)) :=
  ⟨@C31_net_unique V4 _ _ _, @C31_net_unique V6 _ _ _⟩

theorem C37_enumerate_families : (type_of% (@C37_enumerate V4 _ _ _)) ∧ (type_of% (@C37_enumerate V6 _ _ _)) :=
  ⟨@C37_enumerate V4 _ _ _, @C37_enumerate V6 _ _ _⟩

theorem C37_iterator_families : (type_of% (@C37_iterator V4 _ _ _)) ∧ (type_of% (@C37_iterator V6 _ _ _)) :=
  ⟨@C37_iterator V4 _ _ _, @C37_iterator V6 _ _ _⟩

theorem C39_range_families_partial : (type_of% (@C39_range_partial V4 _ _ _)) ∧ (type_of% (@C39_range_partial V6 _ _ _)) :=
  ⟨@C39_range_partial V4 _ _ _, @C39_range_partial V6 _ _ _⟩

theorem C39_returns_iff_families : (type_of% (@C39_returns_iff V4 _ _ _)) ∧ (type_of% (@C39_returns_iff V6 _ _ _)) :=
  ⟨@C39_returns_iff V4 _ _ _, @C39_returns_iff V6 _ _ _⟩

theorem C39_top_panics_families : (type_of% (@C39_top_panics V4 _ _ _)) ∧ (type_of% (@C39_top_panics V6 _ _ _)) :=
  ⟨@C39_top_panics V4 _ _ _, @C39_top_panics V6 _ _ _⟩

theorem C39_whole_space_families : (type_of% (@C39_whole_space V4 _ _ _)) ∧ (type_of% (@C39_whole_space V6 _ _ _)) :=
  ⟨@C39_whole_space V4 _ _ _, @C39_whole_space V6 _ _ _⟩

theorem C40_minimal_families : (type_of% (@C40_minimal V4 _ _ _)) ∧ (type_of% (@C40_minimal V6 _ _ _)) :=
  ⟨@C40_minimal V4 _ _ _, @C40_minimal V6 _ _ _⟩

theorem C41_symmetric_families : (type_of% (@C41_symmetric V4 _ _ _)) ∧ (type_of% (@C41_symmetric V6 _ _ _)) :=
  ⟨@C41_symmetric V4 _ _ _, @C41_symmetric V6 _ _ _⟩

theorem C42_same_addresses_families : (type_of% (@C42_same_addresses V4 _ _ _)) ∧ (type_of% (@C42_same_addresses V6 _ _ _)) :=
  ⟨@C42_same_addresses V4 _ _ _, @C42_same_addresses V6 _ _ _⟩

theorem C43_set_function_families : (type_of% (@C43_set_function V4 _ _ _)) ∧ (type_of% (@C43_set_function V6 _ _ _)) :=
  ⟨@C43_set_function V4 _ _ _, @C43_set_function V6 _ _ _⟩

theorem C44_sorted_families : (type_of% (@C44_sorted V4 _ _ _)) ∧ (type_of% (@C44_sorted V6 _ _ _)) :=
  ⟨@C44_sorted V4 _ _ _, @C44_sorted V6 _ _ _⟩

theorem C45_cidr_families_partial : (type_of% (@C45_cidr_partial V4 _ _ _)) ∧ (type_of% (@C45_cidr_partial V6 _ _ _)) :=
  ⟨@C45_cidr_partial V4 _ _ _, @C45_cidr_partial V6 _ _ _⟩

theorem C45_input_families_partial : (type_of% (@C45_input_partial V4 _ _ _)) ∧ (type_of% (@C45_input_partial V6 _ _ _)) :=
  ⟨@C45_input_partial V4 _ _ _, @C45_input_partial V6 _ _ _⟩

theorem C45_no_inclusion_families_partial : (type_of% (@C45_no_inclusion_partial V4 _ _ _)) ∧ (type_of% (@C45_no_inclusion_partial V6 _ _ _)) :=
  ⟨@C45_no_inclusion_partial V4 _ _ _, @C45_no_inclusion_partial V6 _ _ _⟩

theorem C46_chain_minimal_families : (type_of% (@C46_chain_minimal V4 _ _ _)) ∧ (type_of% (@C46_chain_minimal V6 _ _ _)) :=
  ⟨@C46_chain_minimal V4 _ _ _, @C46_chain_minimal V6 _ _ _⟩

theorem C46_cidr_minimal_families : (type_of% (@C46_cidr_minimal V4 _ _ _)) ∧ (type_of% (@C46_cidr_minimal V6 _ _ _)) :=
  ⟨@C46_cidr_minimal V4 _ _ _, @C46_cidr_minimal V6 _ _ _⟩

theorem C47_cidr_families_partial : (type_of% (@C47_cidr_partial V4 _ _ _)) ∧ (type_of% (@C47_cidr_partial V6 _ _ _)) :=
  ⟨@C47_cidr_partial V4 _ _ _, @C47_cidr_partial V6 _ _ _⟩

theorem C47_idempotent_families_partial : (type_of% (@C47_idempotent_partial V4 _ _ _)) ∧ (type_of% (@C47_idempotent_partial V6 _ _ _)) :=
  ⟨@C47_idempotent_partial V4 _ _ _, @C47_idempotent_partial V6 _ _ _⟩

theorem C47_iff_families : (type_of% (@C47_iff V4 _ _ _)) ∧ (type_of% (@C47_iff V6 _ _ _)) :=
  ⟨@C47_iff V4 _ _ _, @C47_iff V6 _ _ _⟩

theorem C48_subnets_families : (type_of% (@C48_subnets V4 _ _ _)) ∧ (type_of% (@C48_subnets V6 _ _ _)) :=
  ⟨@C48_subnets V4 _ _ _, @C48_subnets V6 _ _ _⟩

theorem C49_same_families : (type_of% (@C49_same V4 _ _ _)) ∧ (type_of% (@C49_same V6 _ _ _)) :=
  ⟨@C49_same V4 _ _ _, @C49_same V6 _ _ _⟩

theorem C49_supernet_families : (type_of% (@C49_supernet V4 _ _ _)) ∧ (type_of% (@C49_supernet V6 _ _ _)) :=
  ⟨@C49_supernet V4 _ _ _, @C49_supernet V6 _ _ _⟩

theorem C50_back_families : (type_of% (@C50_back V4 _ _ _)) ∧ (type_of% (@C50_back V6 _ _ _)) :=
  ⟨@C50_back V4 _ _ _, @C50_back V6 _ _ _⟩

theorem C50_count_families : (type_of% (@C50_count V4 _ _ _)) ∧ (type_of% (@C50_count V6 _ _ _)) :=
  ⟨@C50_count V4 _ _ _, @C50_count V6 _ _ _⟩

theorem C50_larger_families : (type_of% (@C50_larger V4 _ _ _)) ∧ (type_of% (@C50_larger V6 _ _ _)) :=
  ⟨@C50_larger V4 _ _ _, @C50_larger V6 _ _ _⟩

theorem C50_result_families : (type_of% (@C50_result V4 _ _ _)) ∧ (type_of% (@C50_result V6 _ _ _)) :=
  ⟨@C50_result V4 _ _ _, @C50_result V6 _ _ _⟩

theorem C51_host_count_families : (type_of% (@C51_host_count V4 _ _ _)) ∧ (type_of% (@C51_host_count V6 _ _ _)) :=
  ⟨@C51_host_count V4 _ _ _, @C51_host_count V6 _ _ _⟩

theorem C51_requests_families : (type_of% (@C51_requests V4 _ _ _)) ∧ (type_of% (@C51_requests V6 _ _ _)) :=
  ⟨@C51_requests V4 _ _ _, @C51_requests V6 _ _ _⟩

theorem C52_layout_families : (type_of% (@C52_layout V4 _ _ _)) ∧ (type_of% (@C52_layout V6 _ _ _)) :=
  ⟨@C52_layout V4 _ _ _, @C52_layout V6 _ _ _⟩

theorem C54_exact_families : (type_of% (@C54_exact V4 _ _ _)) ∧ (type_of% (@C54_exact V6 _ _ _)) :=
  ⟨@C54_exact V4 _ _ _, @C54_exact V6 _ _ _⟩

theorem C54_fits_families_partial : (type_of% (@C54_fits_partial V4 _ _ _)) ∧ (type_of% (@C54_fits_partial V6 _ _ _)) :=
  ⟨@C54_fits_partial V4 _ _ _, @C54_fits_partial V6 _ _ _⟩

theorem C54_top_fails_families : (type_of% (@C54_top_fails V4 _ _ _)) ∧ (type_of% (@C54_top_fails V6 _ _ _)) :=
  ⟨@C54_top_fails V4 _ _ _, @C54_top_fails V6 _ _ _⟩

end Ripcalc
