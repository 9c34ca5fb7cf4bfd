import Verif.Witness.Runs
import Verif.Props.Stdio
import Verif.Props.Shared
import Verif.Props.Renaming
import Verif.Props.Moved
import Verif.Props.Terminal
import Verif.Props.Program
import Verif.Props.Process
import Verif.Props.Rfc
import Verif.Props.Pad
import Verif.Props.Text
import Verif.Props.Pattern
/-!
# Cases of the theorems about processes, renamed and moved networks, and texts of addresses
-/
namespace Ripcalc.Witness
open Ripcalc AddrSpec LawfulIpAddr Conformance

/-! ## Processes -/

abbrev showArgv : List (List Byte) := ["ripcalc", "10.1.2.3/24"].map fun s => utf8Encode s.toList
abbrev minArgv : List (List Byte) := ["ripcalc", "-m", "10.1.2.3/25", "10.1.2.130/25"].map fun s => utf8Encode s.toList
abbrev badArgv : List (List Byte) := ["ripcalc", "10.1.2.3/33"].map fun s => utf8Encode s.toList
abbrev enumArgv : List (List Byte) := ["ripcalc", "-e", "10.1.2.3/30", "x"].map fun s => utf8Encode s.toList
abbrev colorArgv : List (List Byte) := ["ripcalc", "--color-test"].map fun s => utf8Encode s.toList

theorem showArgv_texts : ArgTexts showArgv show24 := (envArgs_iff _ _).mp (by decide +kernel)
theorem minArgv_texts : ArgTexts minArgv minimize4 := (envArgs_iff _ _).mp (by decide +kernel)
theorem enumArgv_texts : ArgTexts enumArgv enumerate4 := (envArgs_iff _ _).mp (by decide +kernel)
theorem badArgv_texts : ArgTexts badArgv [prog, "10.1.2.3/33".toList] := (envArgs_iff _ _).mp (by decide +kernel)
theorem colorArgv_texts : ArgTexts colorArgv [prog, "--color-test".toList] := (envArgs_iff _ _).mp (by decide +kernel)

/-- A device that takes one byte at a time. -/
abbrev slow : Device Unit := fun _ _ => (some 1, ())
theorem slow_reliable : Reliable slow := fun _ _ _ => ⟨0, rfl⟩

theorem show_ending : (process rt asciiTable showArgv).ending = .status 0 :=
  (C89_runs rt asciiTable _ _ showArgv_texts).2.2.1 _ show24_res
theorem min_ending : (process rt asciiTable minArgv).ending = .status 0 :=
  (C89_runs rt asciiTable _ _ minArgv_texts).2.2.1 _ minimize4_res
theorem color_res : (doMain rt [prog, "--color-test".toList]).res = .ok 0 := by
  rw [ended_run rt [prog, "--color-test".toList] (by decide +kernel)]; decide +kernel
theorem bad_res : (doMain rt [prog, "10.1.2.3/33".toList]).res = .ok 1 := by
  rw [ended_run rt [prog, "10.1.2.3/33".toList] (by decide +kernel)]; decide +kernel
theorem bad_ending : (process rt asciiTable badArgv).ending = .status 1 :=
  (C89_runs rt asciiTable _ _ badArgv_texts).2.2.1 _ bad_res

theorem open_end : OpenEnd rt.colorsEnabled [prog, "--color-test".toList] := ⟨rfl, _, _, [], rfl, .inl rfl⟩
theorem closed_end : ¬ OpenEnd rt.colorsEnabled minimize4 := by
  rintro ⟨-, _, _, _, h, h'⟩
  cases h
  rcases h' with h' | ⟨h', -⟩
  · exact absurd h' (by decide)
  · exact h' (by decide +kernel)

theorem slow_ending : (deliver rt asciiTable (onePiece _) slow slow () () minArgv).ending ≠ .status 101 := by
  rw [C93_reliable rt _ _ _ slow_reliable slow_reliable, min_ending]
  decide
theorem shared_ending : (deliverShared rt asciiTable (onePiece _) slow () minArgv).2 ≠ .status 101 := by
  rw [(C101_order rt _ _ slow_reliable () _ _ minArgv_texts).2, min_ending]
  decide

example := C93_color_test rt rfl (onePiece asciiTable) limited limited 5 0 _ _ _ colorArgv_texts
example := C93_complete rt (onePiece asciiTable) slow slow () () _ slow_ending
example := C93_counterexample rt rfl (onePiece asciiTable) 0
example := C93_limited rt (onePiece asciiTable) 100 0 showArgv _ _ (linesOf _)
example := C93_noticed_partial rt (onePiece asciiTable) slow slow () () _ _ minArgv_texts closed_end slow_ending
example := C93_reliable rt (onePiece asciiTable) slow slow slow_reliable slow_reliable () () showArgv
example := C93_silent rt (onePiece asciiTable) _ _ colorArgv_texts open_end _ color_res _ _ (linesOf _)
example := C93_stderr rt (onePiece asciiTable) _ 3 badArgv (Nat.lt_succ_self _)
example := C93_stdout rt (onePiece asciiTable) 100 _ showArgv (Nat.le_refl _)

example := C101_apart rt (onePiece asciiTable) slow slow_reliable () _ _ showArgv_texts (by decide +kernel)
example := C101_complete rt (onePiece asciiTable) slow () _ _ minArgv_texts shared_ending
example := C101_enumerate rt (onePiece asciiTable) slow slow_reliable () _ _ _ _ enumArgv_texts (.inl rfl) (by decide) shownTexts
  ((texts_right _).mpr rfl)
example := C101_noticed rt (onePiece asciiTable) slow () _ _ minArgv_texts closed_end shared_ending
example := C101_prefix rt (onePiece asciiTable) limited 5 _ _ enumArgv_texts
example := C101_received rt (onePiece asciiTable) 5 _ _ enumArgv_texts

example := C89_failure rt asciiTable _ bad_ending
example := C89_success rt asciiTable _ show_ending
theorem not_utf8 : ∀ s, ¬ Utf8 s [0xC0, 0xAF] := fun s h => by
  have := (utf8Decode_iff _ _).mpr h
  rw [show utf8Decode [0xC0, 0xAF] = none by decide +kernel] at this
  cases this
example := C89_not_text rt asciiTable [[0x72], [0xC0, 0xAF]] _ (by simp) not_utf8

example := C78_distinct .green .green rfl
example := C78_prefix rt show24 ((doMain rt show24).out.take 3) _ (List.take_append_drop 3 _).symm
example := C78_uncolored rt' rfl show24

example := C100_determined .checked (["ripcalc", "-d", "192.0.2.0", "192.0.2.5"].map String.toList) (by
    rintro ⟨_, _, _, _, _, h, h', -⟩
    cases h
    exact absurd h' (by decide)) _ _
  (program_run 100 _ _ _ ⟨rfl, by decide +kernel⟩) (program_run 100 _ _ _ ⟨rfl, by decide +kernel⟩)
example := C100_piped rt' rfl asciiTable _ _ showArgv_texts
example := C100_process rt rfl asciiTable _ _ showArgv_texts

/-! ## Renamed networks: the two halves of 10.1.2.0/24 exchanged -/

abbrev swap (a : V4) : V4 := IpAddr.xor a ⟨0x80#32⟩
theorem swap_keeps : KeepsPrefixes swap := C116_xor _
theorem swapped {p : Nat} {a b m : V4} (hp : IsCidr p (Net.newWithMask a m)) (he : Net.newWithPrefix (swap a) p = .ok (Net.newWithMask b m)) :
    Renamed swap (Net.newWithMask a m) (Net.newWithMask b m) := by
  obtain ⟨o, -, h2, h3, -⟩ := C116_network _ swap_keeps _ p hp
  have := h3 a (C20_new_with_mask a m).2.2.1
  rw [he] at this
  cases this
  exact h2
theorem swap25 : Renamed swap a25 b25 := swapped a25_cidr (by decide +kernel)
theorem swap25' : Renamed swap b25 a25 := swapped b25_cidr (by decide +kernel)
theorem swap24 : Renamed swap a24 a24 := swapped a24_cidr (by decide +kernel)
theorem swap_member (a : V4) : Member a24 (swap a) ↔ Member a24 a := swap24.member swap_keeps a

example := C116_network swap swap_keeps a25 25 a25_cidr
example := C116_only swap (fun _ _ => swap_keeps.inj)
example := C116_relations swap swap_keeps a24 a25 a24 b25 24 25 a24_cidr a25_cidr a24_cidr b25_cidr swap24 swap25
example := C116_minimize rt rt swap swap_keeps [a25, b25] [b25, a25] _ _ halves_cidr (forall_two ⟨25, b25_cidr⟩ ⟨25, a25_cidr⟩)
  (fun a => by simp only [List.mem_cons, List.not_mem_nil, or_false, exists_eq_or_imp, exists_eq_left, swap25.member swap_keeps, swap25'.member swap_keeps])
  halves_min two_min
example := C116_resize .checked .checked swap swap_keeps a24 a24 24 25 _ _ _ _ _ a24_cidr a24_cidr swap24 mask25 resized resized
example := C116_enumerate .checked .checked swap swap_keeps a25 b25 wf wf swap25 _ _
  (enumerate_listing .checked a25 wf).choose_spec.1 (enumerate_listing .checked b25 wf).choose_spec.1
theorem whole_range : rangeToSubnets .checked (⟨0x0A010200#32⟩ : V4) ⟨0x0A0102FF#32⟩ = .ok [a24] :=
  ((rangeToSubnetsE_approx 60 _ _ _).eq (by decide +kernel) (by simp))
theorem whole_between (x : V4) : Between (⟨0x0A010200#32⟩ : V4) ⟨0x0A0102FF#32⟩ x ↔ Member a24 x := by
  rw [between_iff, cidr_member_iff a24_cidr]
  have e : val a24.baseAddr = 0x0A010200 := by decide +kernel
  have e1 : val (⟨0x0A010200#32⟩ : V4) = 0x0A010200 := rfl
  have e2 : val (⟨0x0A0102FF#32⟩ : V4) = 0x0A0102FF := rfl
  have e3 : 2 ^ (width V4 - 24) = 256 := rfl
  omega
example := C116_range .checked .checked swap swap_keeps _ _ _ _ _ _
  (fun x => by rw [whole_between, whole_between, swap_member]) whole_range whole_range

/-! ## Moved networks: 10.0.0.0/25 and ::ffff:10.0.0.0/121 -/

abbrev v25 : Net V4 := mk4 0x0A000000#32 0xFFFFFF80#32
abbrev w25 : Net V4 := mk4 0x0A000080#32 0xFFFFFF80#32
abbrev v121 : Net V6 := .newWithMask ⟨0#64, 0x0000FFFF0A000000#64⟩ ⟨0xFFFFFFFFFFFFFFFF#64, 0xFFFFFFFFFFFFFF80#64⟩
abbrev w121 : Net V6 := .newWithMask ⟨0#64, 0x0000FFFF0A000080#64⟩ ⟨0xFFFFFFFFFFFFFFFF#64, 0xFFFFFFFFFFFFFF80#64⟩

theorem v25_cidr : IsCidr 25 v25 := ⟨wf, by decide +kernel⟩
abbrev v27 : Net V4 := mk4 0x0A000000#32 0xFFFFFFE0#32
theorem v27_cidr : IsCidr 27 v27 := ⟨wf, by decide +kernel⟩
theorem v25_split : splitSubnet rt v25 [20] = .ok (some [v27]) :=
  (splitSubnetE_approx 20 _ _ _).eq (by decide +kernel) (by simp)
theorem v27_block (a : V4) (h : Member v27 a) : val a / 2 ^ 32 = 0 := by
  have := ((cidr_member_iff v27_cidr a).1 h).2
  have e : val v27.baseAddr + 2 ^ (width V4 - 27) = 0x0A000020 := by decide +kernel
  omega
theorem moved_range : rangeToSubnets .checked (⟨0x0A000000#32⟩ : V4) ⟨0x0A00007F#32⟩ = .ok [v25] :=
  ((rangeToSubnetsE_approx 60 _ _ _).eq (by decide +kernel) (by simp))
theorem moved4 (x : BitVec 32) (h : val (⟨0#64, 0x0000FFFF00000000#64 + x.setWidth 64⟩ : V6) = 2 ^ 32 * 0xFFFF + x.toNat) :
    Moved 32 0 0xFFFF (⟨x⟩ : V4) (⟨0#64, 0x0000FFFF00000000#64 + x.setWidth 64⟩ : V6) :=
  ⟨by decide, by decide, x.toNat, x.isLt, by simp [show val (⟨x⟩ : V4) = x.toNat from rfl], h⟩

example := C108_derange .checked .wrapping (⟨0x0A000000#32⟩ : V4) ⟨0x0A00007F#32⟩ _ _ (moved4 _ (by decide +kernel)) (moved4 _ (by decide +kernel))
  (fun x hx => by
    rw [between_iff] at hx
    have e1 : val (⟨0#64, 0x0000FFFF00000000#64 + (0x0A000000#32).setWidth 64⟩ : V6) = 0xFFFF0A000000 := by decide +kernel
    have e2 : val (⟨0#64, 0x0000FFFF00000000#64 + (0x0A00007F#32).setWidth 64⟩ : V6) = 0xFFFF0A00007F := by decide +kernel
    rw [e1, e2] at hx
    simp only [width]
    omega) _ moved_range
example := C108_enumerate .checked .wrapping _ _ moved_example1
example := C108_ipv4_in_ipv6 0xFFFF (by decide)
example := C108_network _ _ _ _ moved_example1 moved_example2
example := C108_resize .checked .wrapping _ _ moved_example1 _ _ moved_example2.mask
example := C108_split rt .wrapping false _ _ moved_example1 [20] _ v25_split
  (fun o ho => by cases List.mem_singleton.mp ho; exact v27_block)
  (fun o ho a ha b hb => by
    cases List.mem_singleton.mp ho
    have h1 := ((cidr_member_iff v27_cidr a).1 ha).2
    have e : val v27.baseAddr + 2 ^ (width V4 - 27) = 0x0A000020 := by decide +kernel
    have h2 := ((C108_ipv4_in_ipv6 0xFFFF (by decide)).1 a b).mp hb
    simp only [width]
    omega)

/-! ## Texts of addresses -/

example := C08_ipv4_injective ⟨0x0A010203#32⟩ ⟨0x0A010203#32⟩ rfl
example := C12_ipv6_injective ⟨0x20010DB800000000#64, 1#64⟩ ⟨0x20010DB800000000#64, 1#64⟩ rfl
example := C10_ipv6_round_trip_common ⟨0x20010DB800000000#64, 1#64⟩ (.inl ⟨2, by decide, by decide +kernel, by decide +kernel⟩)
theorem first_run : FirstLongestZeroRun [1, 0, 0, 2, 0, 3, 4, 5] 1 2 := by
  refine ⟨by decide, ⟨by decide, fun i h1 h2 => ?_⟩, fun s l h1 h2 => ?_⟩
  · have : i = 1 ∨ i = 2 := by omega
    rcases this with rfl | rfl <;> rfl
  · obtain ⟨h2, h3⟩ := h2
    have key : ∀ (s : Fin 8) (l : Fin 9), 0 < l.val ∧ s.val + l.val ≤ 8 ∧
        (∀ k : Fin 9, k < l → ([1, 0, 0, 2, 0, 3, 4, 5] : List Nat)[s.val + k.val]? = some 0) → l.val ≤ 2 ∧ (l.val = 2 → 1 ≤ s.val) := by decide +kernel
    simp only [List.length_cons, List.length_nil] at h2
    refine key ⟨s, by omega⟩ ⟨l, by omega⟩ ⟨h1, by omega, fun k hk => h3 _ (Nat.le_add_right _ _) (Nat.add_lt_add_left hk s)⟩
example := C12_run_unique _ _ _ _ _ first_run first_run
example := C82_strict_partial "2001:db8::1".toList ⟨0x20010DB800000000#64, 1#64⟩ (by decide +kernel)
example := C82_unambiguous _ _ _ (rfc_abcd false) (rfc_abcd false)
example := C102_bytes ['é'] 3 [0xC3, 0xA9] ((utf8_iff _ _).mpr (by decide +kernel))
theorem two_blanks : Blanks 4 2 "ab".toList "ab  ".toList := ⟨fun _ => by decide, fun h => absurd h (by decide)⟩
example := C102_unique (n := 2) (by decide) (by decide) two_blanks two_blanks

theorem items : Pat.ItemsText "^ab*".toList [.start, .cls [('a', 'a')], .star (.cls [('b', 'b')])] :=
  .cons (s := ['^']) (.once .start) (.cons (s := ['a']) (.once (.literal (by unfold Pat.Literal; decide)))
    (.cons (s := ['b', '*']) (.star (s := ['b']) (.literal (by unfold Pat.Literal; decide))) .nil))
example := C90_unambiguous _ _ _ items items

end Ripcalc.Witness
