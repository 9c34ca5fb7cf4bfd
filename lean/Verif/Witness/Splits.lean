import Verif.Witness.Lists
import Verif.Props.Split
import Verif.Props.SplitExact
import Verif.Props.EqualParts
import Verif.Props.Room
import Verif.Props.AskLess
/-!
# Cases of the theorems about splitting
-/
namespace Ripcalc.Witness
open Ripcalc AddrSpec LawfulIpAddr Conformance

/-! ## Networks, texts and results -/

theorem two_in {n : Net V4} (h : n ∈ [a25, a26]) : Includes a24 n := forall_two (P := Includes a24) a24_a25 a24_a26 n h

theorem parse24 : parseNetspec "10.1.2.3/24".toList = .ok (.ok (.ipv4 ⟨0x0A010203#32⟩ a24)) := by decide +kernel

theorem counts_100_50 : Counts ["100".toList, "50".toList] [100, 50] :=
  counts_of [("100".toList, 100), ("50".toList, 50)] (by decide +kernel)
theorem counts_100_90 : Counts ["100".toList, "90".toList] [100, 90] :=
  counts_of [("100".toList, 100), ("90".toList, 90)] (by decide +kernel)
theorem counts_100 : Counts ["100".toList] [100] := counts_of [("100".toList, 100)] (by decide +kernel)

/-- Split for 100 and 90 hosts: both halves. -/
theorem split_halves : splitSubnet rt a24 [100, 90] = .ok (some [a25, b25]) :=
  (splitSubnetE_approx 10 rt a24 [100, 90]).eq (by decide +kernel) (by simp)

/-- 255.255.255.0/24 and its first half. -/
abbrev t24 : Net V4 := .newWithMask ⟨0xFFFFFF00#32⟩ ⟨0xFFFFFF00#32⟩
abbrev t25 : Net V4 := .newWithMask ⟨0xFFFFFF00#32⟩ ⟨0xFFFFFF80#32⟩
theorem t24_cidr : IsCidr 24 t24 := ⟨wf, by decide +kernel⟩
theorem t25_cidr : IsCidr 25 t25 := ⟨wf, by decide +kernel⟩
theorem t24_t25 : Includes t24 t25 := includes wf wf (by decide +kernel)
theorem parse_t24 : parseNetspec "255.255.255.0/24".toList = .ok (.ok (.ipv4 ⟨0xFFFFFF00#32⟩ t24)) := by decide +kernel
theorem split_top : splitSubnet rt t24 [100] = .ok (some [t25]) :=
  (splitSubnetE_approx 10 rt t24 [100]).eq (by decide +kernel) (by simp)

/-- 2001:db8:0:1::/120, its first and second half and the first half of the latter. -/
abbrev s120 : Net V6 := .newWithMask ⟨0x20010DB800000001#64, 0#64⟩ ⟨0xFFFFFFFFFFFFFFFF#64, 0xFFFFFFFFFFFFFF00#64⟩
abbrev s121 : Net V6 := .newWithMask ⟨0x20010DB800000001#64, 0#64⟩ ⟨0xFFFFFFFFFFFFFFFF#64, 0xFFFFFFFFFFFFFF80#64⟩
abbrev r121 : Net V6 := .newWithMask ⟨0x20010DB800000001#64, 0x80#64⟩ ⟨0xFFFFFFFFFFFFFFFF#64, 0xFFFFFFFFFFFFFF80#64⟩
abbrev s122 : Net V6 := .newWithMask ⟨0x20010DB800000001#64, 0x80#64⟩ ⟨0xFFFFFFFFFFFFFFFF#64, 0xFFFFFFFFFFFFFFC0#64⟩
theorem s120_cidr : IsCidr 120 s120 := ⟨wf, by decide +kernel⟩
theorem s121_cidr : IsCidr 121 s121 := ⟨wf, by decide +kernel⟩
theorem r121_cidr : IsCidr 121 r121 := ⟨wf, by decide +kernel⟩
theorem s122_cidr : IsCidr 122 s122 := ⟨wf, by decide +kernel⟩
theorem s120_s121 : Includes s120 s121 := includes wf wf (by decide +kernel)
theorem s120_r121 : Includes s120 r121 := includes wf wf (by decide +kernel)
theorem s120_s122 : Includes s120 s122 := includes wf wf (by decide +kernel)
theorem parse120 : parseNetspec "2001:db8:0:1::7/120".toList = .ok (.ok (.ipv6 ⟨0x20010DB800000001#64, 7#64⟩ s120)) := by
  decide +kernel

theorem split6 : splitSubnet rt s120 [100, 50] = .ok (some [s121, s122]) :=
  evalV6 (fun i => @splitSubnet V6 i rt s120 [100, 50] = .ok (some [s121, s122]))
    ((@splitSubnetE_approx V6 v6E 20 _ _ _).eq (by decide +kernel) (by simp))
theorem split6_halves : splitSubnet rt s120 [100, 90] = .ok (some [s121, r121]) :=
  evalV6 (fun i => @splitSubnet V6 i rt s120 [100, 90] = .ok (some [s121, r121]))
    ((@splitSubnetE_approx V6 v6E 20 _ _ _).eq (by decide +kernel) (by simp))

/-- The last /120 and its first half. -/
abbrev u120 : Net V6 := .newWithMask ⟨0xFFFFFFFFFFFFFFFF#64, 0xFFFFFFFFFFFFFF00#64⟩ ⟨0xFFFFFFFFFFFFFFFF#64, 0xFFFFFFFFFFFFFF00#64⟩
abbrev u121 : Net V6 := .newWithMask ⟨0xFFFFFFFFFFFFFFFF#64, 0xFFFFFFFFFFFFFF00#64⟩ ⟨0xFFFFFFFFFFFFFFFF#64, 0xFFFFFFFFFFFFFF80#64⟩
theorem u120_cidr : IsCidr 120 u120 := ⟨wf, by decide +kernel⟩
theorem u120_u121 : Includes u120 u121 := includes wf wf (by decide +kernel)
theorem parse_u120 : parseNetspec "ffff:ffff:ffff:ffff:ffff:ffff:ffff:ff00/120".toList =
    .ok (.ok (.ipv6 ⟨0xFFFFFFFFFFFFFFFF#64, 0xFFFFFFFFFFFFFF00#64⟩ u120)) := by decide +kernel
theorem split6_top : splitSubnet rt u120 [100] = .ok (some [u121]) :=
  evalV6 (fun i => @splitSubnet V6 i rt u120 [100] = .ok (some [u121]))
    ((@splitSubnetE_approx V6 v6E 20 _ _ _).eq (by decide +kernel) (by simp))

/-- An address of the network in none of the parts. -/
theorem unused {A : Type} [IpAddr A] [AddrSpec A] [LawfulIpAddr A] {n : Net A} {ns : List (Net A)} (hn : WF n) (hw : ∀ m ∈ ns, WF m)
    (a : A) (h : n.contains a = true) (h' : ns.all (fun m => !m.contains a) = true) : ∃ a, Unused n ns a := by
  refine ⟨a, (contains_iff hn.hz a).1 h, fun m hm hx => ?_⟩
  have := List.all_eq_true.1 h' m hm
  rw [(contains_iff (hw m hm).hz a).2 hx] at this
  cases this

theorem a24_unused : ∃ a, Unused a24 [a25, a26] a := unused wf (forall_two wf wf) ⟨0x0A0102C0#32⟩ (by decide +kernel) (by decide +kernel)
theorem t24_unused : ∃ a, Unused t24 [t25] a := unused wf (by simpa using wf) ⟨0xFFFFFF80#32⟩ (by decide +kernel) (by decide +kernel)
theorem s120_unused : ∃ a, Unused s120 [s121, s122] a :=
  unused wf (forall_two wf wf) ⟨0x20010DB800000001#64, 0xC0#64⟩ (by decide +kernel) (by decide +kernel)
theorem u120_unused : ∃ a, Unused u120 [u121] a :=
  unused wf (by simpa using wf) ⟨0xFFFFFFFFFFFFFFFF#64, 0xFFFFFFFFFFFFFF80#64⟩ (by decide +kernel) (by decide +kernel)

theorem a24_full : ¬ ∃ a, Unused a24 [a25, b25] a := by
  rintro ⟨a, h, h'⟩
  obtain ⟨m, hm, hx⟩ := (halves_cover a).2 h
  exact h' m hm hx

theorem s120_full : ¬ ∃ a, Unused s120 [s121, r121] a := by
  rintro ⟨a, h, h'⟩
  have h1 := h' s121 (by simp)
  have h2 := h' r121 (by simp)
  have e1 : val s120.baseAddr = 0x20010DB8000000010000000000000000 := by decide +kernel
  have e2 : val s121.baseAddr = 0x20010DB8000000010000000000000000 := by decide +kernel
  have e3 : val r121.baseAddr = 0x20010DB8000000010000000000000080 := by decide +kernel
  have w : width V6 = 128 := rfl
  rw [cidr_member_iff s120_cidr, e1, w] at h
  rw [cidr_member_iff s121_cidr, e2, w] at h1
  rw [cidr_member_iff r121_cidr, e3, w] at h2
  omega

/-! ## What is allocated -/

example := C51_host_count rt a24 [100, 50] [a25, a26] splitted 1 50 a26 rfl rfl
example := C52_layout rt a24 [100, 50] [a25, a26] splitted (by decide)
example := C53_contained_partial_v4 rt "ripcalc".toList "-s".toList "10.1.2.3/24".toList _ (by decide) _ counts_100_50 _ a24 parse24 24
  a24_cidr (by decide) _ splitted
example := C53_contained_partial_v6 rt "ripcalc".toList "-s".toList "2001:db8:0:1::7/120".toList _ (by decide) _ counts_100_50 _ s120
  parse120 120 s120_cidr (by decide) _ split6
example := C54_fits_partial rt a24 24 a24_cidr [100, 50] [7, 6]
  (.cons ((hostBitsFor_iff _ _).2 (by decide +kernel)) (.cons ((hostBitsFor_iff _ _).2 (by decide +kernel)) .nil))
  (by decide +kernel) (by decide +kernel)
example := C54_top_fails rt t24 24 t24_cidr [100, 90] [7, 7]
  (.cons ((hostBitsFor_iff _ _).2 (by decide +kernel)) (.cons ((hostBitsFor_iff _ _).2 (by decide +kernel)) .nil))
  (by decide +kernel) (by decide +kernel)

/-! ## What is left -/

example := C55_full_v4 rt "ripcalc".toList "-s".toList "10.1.2.3/24".toList _ (by decide) _ counts_100_90 _ a24 parse24 24
  a24_cidr _ split_halves (forall_two a24_a25 a24_b25) a24_full
example := C55_full_v6 rt "ripcalc".toList "-s".toList "2001:db8:0:1::7/120".toList _ (by decide) _ counts_100_90 _ s120 parse120 120
  s120_cidr _ split6_halves (forall_two s120_s121 s120_r121) s120_full
example := C55_top_panics_v4 rt "ripcalc".toList "-s".toList "255.255.255.0/24".toList _ (by decide) _ counts_100 _ t24 parse_t24 24
  t24_cidr _ split_top (by simpa using t24_t25) t24_unused (by decide +kernel)
example := C55_top_panics_v6 rt "ripcalc".toList "-s".toList "ffff:ffff:ffff:ffff:ffff:ffff:ffff:ff00/120".toList _ (by decide) _
  counts_100 _ u120 parse_u120 120 u120_cidr _ split6_top (by simpa using u120_u121) u120_unused (by decide +kernel)
example := C55_unused_partial_v4 rt "ripcalc".toList "-s".toList "10.1.2.3/24".toList _ (by decide) _ counts_100_50 _ a24 parse24 24
  a24_cidr _ splitted (forall_two a24_a25 a24_a26) a24_unused (by decide +kernel)
example := C55_unused_partial_v6 rt "ripcalc".toList "-s".toList "2001:db8:0:1::7/120".toList _ (by decide) _ counts_100_50 _ s120
  parse120 120 s120_cidr _ split6 (forall_two s120_s121 s120_s122) s120_unused (by decide +kernel)

/-! ## When exactly -/

example := C53_command_exact_v4 rt "ripcalc".toList "-s".toList "10.1.2.3/24".toList _ (by decide) _ counts_100_50 _ a24 parse24 24
  a24_cidr _ splitted
example := C53_command_exact_v6 rt "ripcalc".toList "-s".toList "2001:db8:0:1::7/120".toList _ (by decide) _ counts_100_50 _ s120
  parse120 120 s120_cidr _ split6
example := C53_exactly_when_cidr rt a24 24 a24_cidr [100, 50] (by decide) _ splitted _ greatest
example := C55_command_exact_v6 rt "ripcalc".toList "-s".toList "2001:db8:0:1::7/120".toList _ (by decide) _ counts_100_50 _ s120
  parse120 _ split6

/-- The rest after the split for 100 and 50 hosts. -/
theorem rest : ListsRest a24 (⟨0x0A0102BF#32⟩ : V4) [b26] := by
  have w : width V4 = 32 := rfl
  have e1 : val a24.baseAddr = 0x0A010200 := by decide +kernel
  have e2 : val b26.baseAddr = 0x0A0102C0 := by decide +kernel
  refine ⟨by simpa using ⟨26, b26_cidr⟩, by simp, fun last hl hg => ⟨fun x => ?_, fun other _ hc => ?_⟩⟩
  · have h1 := hg ⟨0x0A0102FF#32⟩ ((contains_iff (wf : WF a24).hz _).1 (by decide +kernel))
    rw [cidr_member_iff a24_cidr, e1, w] at hl
    have e3 : val (⟨0x0A0102FF#32⟩ : V4) = 0x0A0102FF := by decide +kernel
    have e4 : val (⟨0x0A0102BF#32⟩ : V4) = 0x0A0102BF := by decide +kernel
    simp only [List.mem_singleton, exists_eq_left]
    rw [cidr_member_iff b26_cidr, e2, w, e4]
    omega
  · obtain ⟨m, hm, -⟩ := (hc b26.baseAddr).2 ⟨b26, by simp, base_member b26⟩
    exact List.length_pos_of_mem hm

example := C55_exactly_when rt a24 wf [100, 50] (by decide) _ splitted _ greatest
  ((contains_iff (wf : WF a24).hz _).1 (by decide +kernel)) [b26] rest
example := C85_split_minimize rt rt' a24 24 a24_cidr [100, 50] (by decide) _ splitted (forall_two a24_a25 a24_a26) _ ⟨0x0A0102C0#32⟩
  ⟨0x0A0102FF#32⟩ greatest (by decide +kernel) (by decide +kernel) (by decide +kernel) [b26] range_rest

/-! ## Equal parts -/

theorem hosts7 : ∀ c ∈ ([100, 90] : List Int), HostBitsFor c 7 := by
  intro c hc
  rw [hostBitsFor_iff]
  simp only [List.mem_cons, List.not_mem_nil, or_false] at hc
  rcases hc with rfl | rfl <;> decide +kernel

example := C124_all rt .checked a24 24 25 a24_cidr ⟨0xFFFFFF80#32⟩ mask25 (by decide) [100, 90] hosts7 (by decide) (by decide +kernel)
example := C124_top rt .checked t24 24 25 t24_cidr ⟨0xFFFFFF80#32⟩ mask25 (by decide) [100, 90] hosts7 (by decide) (by decide +kernel)
example := C124_each rt .checked a24 24 a24_cidr [100, 50] _ splitted a26 (by simp) a24_a26

/-! ## Room -/

theorem serves {A : Type} [IpAddr A] [AddrSpec A] [LawfulIpAddr A] {n o : Net A} {p q : Nat} (hn : IsCidr p n) (ho : IsCidr q o)
    (h : val n.baseAddr + 2 ^ (width A - p) ≤ val o.baseAddr) {c d : Int} (hc : c + 2 ≤ n.addressCount) (hd : d + 2 ≤ o.addressCount) :
    Serves [c, d] [n, o] := by
  have hb := below hn ho h
  have key : ∀ m : Net A, WF m → ∀ c : Int, c + 2 ≤ m.addressCount →
      ∃ xs : List A, xs.Nodup ∧ (∀ x ∈ xs, Member m x) ∧ c + 2 ≤ xs.length := by
    intro m hm c hc
    obtain ⟨xs, -, h1, h2, h3⟩ := C37_enumerate .checked m hm
    exact ⟨xs, h2.imp fun h e => by subst e; exact Nat.lt_irrefl _ h, fun x hx => (h1 x).1 hx, by rw [h3]; exact hc⟩
  have hd' : Disjoint n o := fun x hx => Nat.lt_irrefl _ (hb x x hx.1 hx.2)
  exact ⟨.cons (by simpa using hd') (.cons (by simp) .nil),
    .cons (key n hn.1 c hc) (.cons (key o ho.1 d hd) .nil)⟩

theorem serves4 : Serves [100, 50] [a25, a26] := serves a25_cidr a26_cidr (by decide +kernel) (by decide +kernel) (by decide +kernel)
theorem serves6 : Serves [100, 50] [s121, s122] := serves s121_cidr s122_cidr (by decide +kernel) (by decide +kernel) (by decide +kernel)

example := C107_room rt a24 24 a24_cidr [100, 50] [7, 6]
  (.cons ((hostBitsFor_iff _ _).2 (by decide +kernel)) (.cons ((hostBitsFor_iff _ _).2 (by decide +kernel)) .nil)) _ serves4
  (forall_two a24_a25 a24_a26)
example := C107_compact rt a24 [100, 50] (by decide) _ splitted _ serves4 (fun m hm x hx => ⟨m, hm, x, hx, Nat.le_refl _⟩)
example := C107_command_v6 rt "ripcalc".toList "-s".toList "2001:db8:0:1::7/120".toList _ (by decide) _ counts_100_50 _ s120 parse120 120
  s120_cidr
  (by
    intro x hx
    have h := ((cidr_member_iff s120_cidr x).1 hx).2
    have e : val s120.baseAddr + 2 ^ (width V6 - 120) = 0x20010DB8000000010000000000000100 := by decide +kernel
    omega)
  _ serves6 (forall_two s120_s121 s120_s122)

/-! ## Asking for less -/

example := C106_command_v6 rt "ripcalc".toList "-s".toList "2001:db8:0:1::7/120".toList _ s120 parse120 120 s120_cidr _ _ (by decide) _ _
  counts_100_90 counts_100 ⟨[100], [90], .refl _, .cons (by decide) .nil⟩
example := C106_more rt rt' t24 [100, 90] [110, 100, 3] (by decide) ⟨[110, 100], [3], .refl _, .cons (by decide) (.cons (by decide) .nil)⟩
  (C54_top_fails rt t24 24 t24_cidr [100, 90] [7, 7]
    (.cons ((hostBitsFor_iff _ _).2 (by decide +kernel)) (.cons ((hostBitsFor_iff _ _).2 (by decide +kernel)) .nil))
    (by decide +kernel) (by decide +kernel))

end Ripcalc.Witness
