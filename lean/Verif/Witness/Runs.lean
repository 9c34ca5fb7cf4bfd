import Verif.Witness.Texts
import Verif.Props.Enumerate
import Verif.Props.Compose
import Verif.Props.InSteps
import Verif.Props.Together
import Verif.Props.Lists
import Verif.Props.LineCount
import Verif.Props.Main
import Verif.Props.Widths
import Verif.Props.Requests
import Verif.Props.Panics
import Verif.Props.Complaints
import Verif.Props.WordSize
import Verif.Props.Headings
import Verif.Props.ColorTest
import Verif.Props.Repro
import Verif.Props.Characters
import Verif.Props.Lines
import Verif.Props.Errors
/-!
# Cases of the theorems about runs of the program
-/
namespace Ripcalc.Witness
open Ripcalc AddrSpec LawfulIpAddr Conformance

/-! ## What some runs do -/

abbrev show24 : List Str := [prog, "10.1.2.3/24".toList]
abbrev derange4 : List Str := [prog, "-d".toList, "10.1.2.0".toList, "10.1.2.191".toList]
abbrev derange4' : List Str := [prog, "--derange".toList, "10.1.2.191".toList, "010.1.2.0".toList]
abbrev derange6 : List Str := [prog, "-d".toList, "2001:db8::".toList, "2001:db8::5".toList]
abbrev derange6' : List Str := [prog, "-d".toList, "2001:db8::5".toList, "2001:0db8::".toList]
abbrev minimize4 : List Str := [prog, "-m".toList, "10.1.2.3/25".toList, "10.1.2.130/25".toList]
abbrev minimize6 : List Str := [prog, "-m".toList, "2001:db8::8/125".toList, "2001:db8::1/125".toList]
abbrev enumerate4 : List Str := [prog, "-e".toList, "10.1.2.3/30".toList, "x".toList]
abbrev resize4 : List Str := [prog, "-r".toList, "10.1.2.3/24".toList, "25".toList]
abbrev split4 : List Str := [prog, "-s".toList, "10.1.2.3/24".toList, "100".toList, "50".toList]

theorem derange4_run : derange rt derange4 = ⟨lineEvents ["10.1.2.0/25".toList, "10.1.2.128/26".toList], .ok 0⟩ := by
  have h : doMain rt derange4 = _ := ended_run rt derange4 (by decide +kernel)
  rw [doMain_cons] at h
  exact h.trans (by decide +kernel)
theorem derange6_run : derange rt derange6 = ⟨lineEvents ["2001:db8::/126".toList, "2001:db8::4/127".toList], .ok 0⟩ := by
  have h : doMain rt derange6 = _ := ended_run rt derange6 (by decide +kernel)
  rw [doMain_cons] at h
  exact h.trans (by decide +kernel)
theorem minimize4_run : minimize rt minimize4 = ⟨lineEvents ["10.1.2.0/24".toList], .ok 0⟩ := by
  have h : doMain rt minimize4 = _ := ended_run rt minimize4 (by decide +kernel)
  rw [doMain_cons] at h
  exact h.trans (by decide +kernel)
theorem minimize6_run : minimize rt minimize6 = ⟨lineEvents ["2001:db8::/124".toList], .ok 0⟩ := by
  have h : doMain rt minimize6 = _ := ended_run rt minimize6 (by decide +kernel)
  rw [doMain_cons] at h
  exact h.trans (by decide +kernel)
theorem show24_res : (doMain rt show24).res = .ok 0 := by rw [ended_run rt show24 (by decide +kernel)]; decide +kernel
theorem show24_res' : (doMain rt' show24).res = .ok 0 := by rw [ended_run rt' show24 (by decide +kernel)]; decide +kernel
theorem derange4_res : (doMain rt derange4).res = .ok 0 := by rw [ended_run rt derange4 (by decide +kernel)]; decide +kernel
theorem derange4_res' : (doMain rt' derange4').res = .ok 0 := by rw [ended_run rt' derange4' (by decide +kernel)]; decide +kernel
theorem derange6_res : (doMain rt derange6).res = .ok 0 := by rw [ended_run rt derange6 (by decide +kernel)]; decide +kernel
theorem derange6_res' : (doMain rt' derange6').res = .ok 0 := by rw [ended_run rt' derange6' (by decide +kernel)]; decide +kernel
theorem minimize4_res : (doMain rt minimize4).res = .ok 0 := by rw [ended_run rt minimize4 (by decide +kernel)]; decide +kernel
theorem resize4_res : (doMain rt resize4).res = .ok 0 := by rw [ended_run rt resize4 (by decide +kernel)]; decide +kernel

/-! ## Lists of addresses and networks -/

theorem arg_output : ∃ evs, ArgOutput "10.1.2.3/24".toList evs := by
  obtain ⟨xs, -, h⟩ := enumerate_listing .checked a24 wf
  exact ⟨_, .inr (.inl ⟨_, _, xs, parse24, h, rfl⟩)⟩
example := C38_output_unique "10.1.2.3/24".toList _ _ arg_output.choose_spec arg_output.choose_spec

theorem four : parseNetspec "10.1.2.3/25".toList = .ok (.ok (.ipv4 ⟨0x0A010203#32⟩ a25)) := by decide +kernel
theorem halves4 : Pointwise Is4 ["10.1.2.3/25".toList, "10.1.2.130/25".toList] [(⟨0x0A010203#32⟩, a25), (⟨0x0A010282#32⟩, b25)] :=
  .cons four (.cons parse25 .nil)
theorem halves4_cidr : ∀ x ∈ [((⟨0x0A010203#32⟩ : V4), a25), (⟨0x0A010282#32⟩, b25)], ∃ p, IsCidr p x.2 := by
  intro x hx
  simp only [List.mem_cons, List.not_mem_nil, or_false] at hx
  rcases hx with rfl | rfl
  · exact ⟨25, a25_cidr⟩
  · exact ⟨25, b25_cidr⟩

abbrev e0 : Net V6 := .newWithMask ⟨0x20010DB800000000#64, 0#64⟩ ⟨0xFFFFFFFFFFFFFFFF#64, 0xFFFFFFFFFFFFFFF8#64⟩
abbrev e8 : Net V6 := .newWithMask ⟨0x20010DB800000000#64, 8#64⟩ ⟨0xFFFFFFFFFFFFFFFF#64, 0xFFFFFFFFFFFFFFF8#64⟩
theorem halves6 : Pointwise Is6 ["2001:db8::8/125".toList, "2001:db8::1/125".toList]
    [(⟨0x20010DB800000000#64, 8#64⟩, e8), (⟨0x20010DB800000000#64, 1#64⟩, e0)] :=
  .cons (by unfold Is6; decide +kernel) (.cons (by unfold Is6; decide +kernel) .nil)
theorem halves6_cidr : ∀ x ∈ [((⟨0x20010DB800000000#64, 8#64⟩ : V6), e8), (⟨0x20010DB800000000#64, 1#64⟩, e0)], ∃ p, IsCidr p x.2 := by
  intro x hx
  simp only [List.mem_cons, List.not_mem_nil, or_false] at hx
  rcases hx with rfl | rfl
  · exact ⟨125, wf, by decide +kernel⟩
  · exact ⟨125, wf, by decide +kernel⟩

example := C85_derange_then_enumerate_v4 rt rt' _ _ _ _ prog "-e".toList ⟨0x0A010200#32⟩ ⟨0x0A0102BF#32⟩ (by decide +kernel) (by decide +kernel)
  _ _ derange4_run
example := C85_derange_then_minimize_v6 rt rt' _ _ _ _ prog "-m".toList ⟨0x20010DB800000000#64, 0#64⟩ ⟨0x20010DB800000000#64, 5#64⟩
  (by decide +kernel) (by decide +kernel) _ _ derange6_run
example := C85_minimize_twice_v4 rt rt' _ _ prog "-m".toList _ _ halves4 halves4_cidr _ _ minimize4_run
example := C85_network_then_derange_v4 rt prog "-d".toList a24 24 a24_cidr ⟨0x0A0102FF#32⟩ (by decide +kernel) (by decide +kernel)
example := C103_minimize_portions_v4 rt rt rt rt' prog "-m".toList _ _ _ _ prog "-m".toList _ _ _ _ halves4 halves4 halves4_cidr halves4_cidr
  _ _ _ _ minimize4_run minimize4_run
example := C103_minimize_portions_v6 rt rt rt rt' prog "-m".toList _ _ _ _ prog "-m".toList _ _ _ _ halves6 halves6 halves6_cidr halves6_cidr
  _ _ _ _ minimize6_run minimize6_run

/-! ## Several arguments together -/

example := C109_each_enumerated rt prog "-e".toList (.inl rfl) ["10.1.2.3/30".toList, "x".toList] (by decide)
example := C109_each_shown rt prog ["10.1.2.3/24".toList, "2001:db8::1/64".toList] (by decide) (by decide +kernel)
example := C109_enumerate rt prog prog prog "--enumerate".toList (.inr rfl) ["10.1.2.3/30".toList] ["x".toList] (by decide) (by decide)
example := C109_order rt prog "-e".toList (.inl rfl) ["10.1.2.3/30".toList, "x".toList] ["x".toList, "10.1.2.3/30".toList] (.swap _ _ _)
example := C109_show rt prog prog prog "10.1.2.3/24".toList "2001:db8::1/64".toList [] [] (by decide +kernel) (by decide +kernel)
example := C36_version "10.1.2.3".toList (.ipv4 ⟨0x0A010203#32⟩) (by decide +kernel)

example := C96_derange_v4 rt rt' _ _ _ _ _ _ _ _ (.inl rfl) (.inr rfl) ⟨0x0A010200#32⟩ ⟨0x0A0102BF#32⟩ ⟨0x0A0102BF#32⟩ ⟨0x0A010200#32⟩
  (by decide +kernel) (by decide +kernel) (by decide +kernel)
  (by decide +kernel) _ _ derange4_res derange4_res'
example := C96_derange_v6 rt rt' _ _ _ _ _ _ _ _ (.inl rfl) (.inl rfl) ⟨0x20010DB800000000#64, 0#64⟩ ⟨0x20010DB800000000#64, 5#64⟩
  ⟨0x20010DB800000000#64, 5#64⟩ ⟨0x20010DB800000000#64, 0#64⟩ (by decide +kernel) (by decide +kernel) (by decide +kernel)
  (by decide +kernel) _ _ derange6_res derange6_res'
example := C96_enumerate rt rt' prog prog "-e".toList "--enumerate".toList (.inl rfl) (.inr rfl) _ _ _ _ parse_both parse_both _ _
  (C96_listed _ _ parse_both).choose_spec (C96_listed _ _ parse_both).choose_spec
example := C96_enumerate_one rt rt' prog prog "-e".toList "--enumerate".toList "10.1.2.3/24".toList "10.1.2.9/24".toList (.inl rfl) (.inr rfl)
example := C96_listed _ _ parse_both
example := C96_minimize_v4 rt rt' prog prog "-m".toList "--minimize".toList (.inl rfl) (.inr rfl) _ ["10.1.2.3/24".toList] (by decide) (by decide) _
  [(⟨0x0A010203#32⟩, a24)] halves4 (.cons parse24 .nil)
example := C96_minimize_v6 rt rt' prog prog "-m".toList "--minimize".toList (.inl rfl) (.inr rfl) _ _ (by decide) (by decide) _ _ halves6 halves6

/-! ## How many lines -/

theorem free24 : FreeBits "10.1.2.3/24".toList 8 := .inl ⟨_, _, (v4Network_iff _ _ _).mp parse24, by decide +kernel⟩
theorem free30 : FreeBits "10.1.2.3/30".toList 2 :=
  .inl ⟨⟨0x0A010203#32⟩, .newWithMask ⟨0x0A010200#32⟩ ⟨0xFFFFFFFC#32⟩, (v4Network_iff _ _ _).mp (by decide +kernel), by decide +kernel⟩
theorem not_free (h : Nat) : ¬ FreeBits "x".toList h := by
  rintro (⟨a, n, hn, -⟩ | ⟨a, n, hn, -⟩)
  · have := (v4Network_iff _ _ _).mpr hn
    rw [show parseNetspec "x".toList = .ok (.error (.unrecognized "x".toList)) by decide +kernel] at this
    cases this
  · have := (v6Network_iff _ _ _).mpr hn
    rw [show parseNetspec "x".toList = .ok (.error (.unrecognized "x".toList)) by decide +kernel] at this
    cases this
theorem bits_100_50 : Pointwise HostBitsFor [100, 50] [7, 6] :=
  .cons ((hostBitsFor_iff _ _).mpr (by decide +kernel)) (.cons ((hostBitsFor_iff _ _).mpr (by decide +kernel)) .nil)
theorem split4_quiet : messages (doMain rt split4).out = [] := by rw [ended_run rt split4 (by decide +kernel)]; decide +kernel

example := C119_derange rt prog "-d".toList (.inl rfl) _ derange4_res
example := C119_enumerate rt prog "-e".toList (.inl rfl) ["10.1.2.3/30".toList, "x".toList] (by decide) [4, 0]
  (.cons (.inl ⟨2, free30, rfl⟩) (.cons (.inr ⟨not_free, rfl⟩) .nil))
example := C119_minimize rt prog "-m".toList (.inl rfl) _ minimize4_res
example := C119_resize rt rfl prog "-r".toList (.inl rfl) _ _ resize4_res
example := C119_show rt rfl prog "10.1.2.3/24".toList (by decide +kernel) [] [8] (.cons free24 .nil) show24_res
example := C119_split rt rfl prog "-s".toList (.inl rfl) _ _ 8 free24 _ counts_100_50 _ bits_100_50 split4_quiet

/-! ## Ends and complaints -/

theorem bad33 : BadSpec "10.1.2.3/33".toList := ⟨.cidrRange 33 32, by decide +kernel⟩
theorem not33 : ¬ IsV4Network "10.1.2.3/33".toList ∧ ¬ IsV6Network "10.1.2.3/33".toList := by
  have h : parseNetspec "10.1.2.3/33".toList = .ok (.error (.cidrRange 33 32)) := by decide +kernel
  constructor
  · rintro ⟨a, n, hn⟩
    have := (v4Network_iff _ _ _).mpr hn
    rw [h] at this
    cases this
  · rintro ⟨a, n, hn⟩
    have := (v6Network_iff _ _ _).mpr hn
    rw [h] at this
    cases this

example := C56_exit_codes rt _ _ show24_res
example := C57_malformed rt prog "10.1.2.3/33".toList [] (.inl ⟨by decide +kernel, _, .head _, bad33⟩)
example := C57_malformed rt prog "-m".toList ["10.1.2.3/33".toList] (.inr (.inl ⟨.inl rfl, _, .head _, bad33⟩))
example := C57_texts rt prog "10.1.2.3/33".toList [] (.inl ⟨by decide +kernel, _, .head _, not33⟩)
example := C61_plain_modes rt prog "-m".toList ["10.1.2.3/25".toList] (by decide +kernel)
example := C66_returns rt show24 (by
  rintro _ _ _ h
  cases h
  decide +kernel)
example := C66_split rt prog "-s".toList ["10.1.2.3/24".toList, "100".toList] (.inl rfl)
example := C79_every "24".toList 24 num24
example := C79_unique "100".toList 100 100 ((C79_count _ _).1 (by decide +kernel)) ((C79_count _ _).1 (by decide +kernel))
example := C80_enumerate rt prog "-e".toList ["10.1.2.3/30".toList, "x".toList] (.inl rfl)
example := C70_digits_overflow "+300".toList 300 (.inr ⟨"300".toList, rfl, by decide, [3, 0, 0],
  .cons (.inl rfl) (by decide) (.cons (.inl rfl) (by decide) (.cons (.inl rfl) (by decide) .nil)), rfl⟩) 255 (by decide)
example := C70_number_total 16 65535 (by decide) (by decide) "12x".toList
example := C72_prefix_overflow "10.1.2.3/99999999999999999999".toList .posOverflow (by decide +kernel)
example := C113_accepted rt prog "-s".toList _ split4_quiet

/-! ## Lines -/

example := C117_color_test rt prog [] _ (first_line _ (by
  rw [ended_run rt [prog, "--color-test".toList] (by decide +kernel)]; decide +kernel))
example := C117_colors rt rfl show24 (by
  rintro _ _ h
  simp only [List.cons.injEq] at h
  exact absurd h.2.1 (by decide)) _ (first_line _ (by rw [ended_run rt show24 (by decide +kernel)]; decide +kernel))
example := C117_plain rt' rfl show24 _ (first_line _ (by rw [ended_run rt' show24 (by decide +kernel)]; decide +kernel))
example := C92_counterexample rt rfl
example := C92_lines_partial rt _ _ show24_res
example := C92_plain rt' rfl _ _ show24_res'
example := C94_resize rt rfl resize4
example := C94_split rt rfl split4
example := C87_plain rt' rfl prog []
example := C87_shown rt rfl prog []

/-! ## Splitting -/

theorem same_sizes : SameSizes [100, 50] [62, 126] := by
  rw [sameSizes_iff]
  decide +kernel
theorem counts_62_126 : Counts ["62".toList, "126".toList] [62, 126] :=
  counts_of [("62".toList, 62), ("126".toList, 126)] (by decide +kernel)

example := C118_only rt rt a24 a24 _ _ _ _ splitted splitted (.refl _)
example := C118_order rt rt' a24 [100, 50] [50, 100] (.swap _ _ _)
example := C118_sizes rt rt' a24 _ _ same_sizes
example := C118_program rt rt rfl prog "-s".toList "10.1.2.3/24".toList (.inl rfl) _ _ _ _ (by decide) counts_100_50 counts_62_126 same_sizes

theorem tied : TiedSplit [prog, "-s".toList, "10.1.2.3/24".toList, "20".toList, "20".toList] :=
  ⟨_, _, _, _, [20, 20], rfl, .inl rfl, counts_of [("20".toList, 20), ("20".toList, 20)] (by decide +kernel), by decide,
    .inl ⟨_, a24, parse24, ⟨[5, 5], 5, .cons ((hostBitsFor_iff _ _).mpr (by decide +kernel))
      (.cons ((hostBitsFor_iff _ _).mpr (by decide +kernel)) .nil), by decide, by decide, by decide +kernel⟩⟩⟩
example := C97_visible .checked _ tied

/-! ## Panics -/

theorem top_panic : (doMain rt [prog, "-d".toList, "255.255.255.0".toList, "255.255.255.255".toList]).res = .panic .unwrapNone := by
  rw [ended_run rt [prog, "-d".toList, "255.255.255.0".toList, "255.255.255.255".toList] (by decide +kernel)]
  decide +kernel
theorem top_panic6 : (split rt (prog :: "-s".toList :: "ffff:ffff:ffff:ffff:ffff:ffff:ffff:ff00/120".toList :: ["100".toList])).res =
    .panic .unwrapNone := by
  have h : doMain rt [prog, "-s".toList, "ffff:ffff:ffff:ffff:ffff:ffff:ffff:ff00/120".toList, "100".toList] = _ :=
    ended_run rt [prog, "-s".toList, "ffff:ffff:ffff:ffff:ffff:ffff:ffff:ff00/120".toList, "100".toList] (by decide +kernel)
  rw [doMain_cons] at h
  have h' := congrArg Cli.res h
  exact h'.trans (by decide +kernel)

theorem greatest6 : IsGreatestUsed [s121, s122] (⟨0x20010DB800000001#64, 191#64⟩ : V6) := by
  refine ⟨⟨s122, by simp, (contains_iff (wf (A := V6)).hz _).1 (by decide +kernel)⟩, ?_⟩
  intro m hm a ha
  simp only [List.mem_cons, List.not_mem_nil, or_false] at hm
  rcases hm with rfl | rfl
  · have := (cidr_member_iff s121_cidr a).1 ha
    have e : val s121.baseAddr = 0x20010DB8000000010000000000000000 := by decide +kernel
    have e' : val (⟨0x20010DB800000001#64, 191#64⟩ : V6) = 0x20010DB80000000100000000000000BF := by decide +kernel
    simp only [width] at this
    omega
  · have := (cidr_member_iff s122_cidr a).1 ha
    have e : val s122.baseAddr = 0x20010DB8000000010000000000000080 := by decide +kernel
    have e' : val (⟨0x20010DB800000001#64, 191#64⟩ : V6) = 0x20010DB80000000100000000000000BF := by decide +kernel
    simp only [width] at this
    omega
theorem s120_last (a : V6) (ha : Member s120 a) : val a ≤ val (⟨0x20010DB800000001#64, 255#64⟩ : V6) := by
  have := (cidr_member_iff s120_cidr a).1 ha
  have e : val s120.baseAddr = 0x20010DB8000000010000000000000000 := by decide +kernel
  have e' : val (⟨0x20010DB800000001#64, 255#64⟩ : V6) = 0x20010DB80000000100000000000000FF := by decide +kernel
  simp only [width] at this
  omega

example := C98_before rt _ _ top_panic
example := C98_process rt asciiTable (["ripcalc", "-d", "255.255.255.0", "255.255.255.255"].map fun s => utf8Encode s.toList) (by
  refine (C89_runs rt asciiTable _ _ ((envArgs_iff _ _).mp (by decide +kernel))).2.2.2.1 _ top_panic)
example := C98_split_v6 rt prog "-s".toList _ _ (by decide) _ counts_100 _ u120 parse_u120 _ top_panic6
example := C99_unused_v6 rt prog "-s".toList _ _ (by decide) _ counts_100_50 _ s120 parse120 _ split6 _ greatest6
  ((contains_iff (wf (A := V6)).hz _).1 (by decide +kernel)) ⟨0x20010DB800000001#64, 255#64⟩
  ((contains_iff (wf (A := V6)).hz _).1 (by decide +kernel)) s120_last (by decide +kernel)

/-! ## Words of other sizes -/

example := C112_differs (b := 32) (b' := 64) (by decide) (by decide) rt prog
example := C112_word_size (b := 32) (b' := 64) (by decide) (by decide) rt show24
example := C112_stdout (b := 32) (b' := 64) (by decide) (by decide) rt show24

end Ripcalc.Witness
