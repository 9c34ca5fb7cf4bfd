import Verif.Witness.Splits
import Verif.Props.Wording
import Verif.Props.Zeros
import Verif.Props.Alike
import Verif.Props.Show
import Verif.Props.Columns
import Verif.Props.BinaryColumn
import Verif.Props.Parse
import Verif.Props.Commands
import Verif.Props.Messages
import Verif.Props.Colors
/-!
# Cases of the theorems about the texts that are read and written
-/
namespace Ripcalc.Witness
open Ripcalc AddrSpec LawfulIpAddr Conformance

/-- The name of the program. -/
abbrev prog : Str := "ripcalc".toList

/-! ## Wording -/

example := C81_address asciiTable "10.256.0.1".toList _ (.inr (.inl ⟨by decide, by decide, (C70_ipv4_error _ (.chunkOutOfRange 1 256 0 255)).1
  (by decide +kernel)⟩))
example := C81_count "1x".toList (fun c h => by
  have := (C79_count _ _).2 h
  rw [show parseBigInt "1x".toList = none by decide +kernel] at this
  cases this)
example := C81_derange asciiTable rt prog "-d".toList ["10.0.0.1".toList, "10.0.0.300".toList] rfl (.inl rfl)
example := C81_enumerate asciiTable rt prog "-e".toList ["10.0.0.1/33".toList] (by decide) (.inl rfl)
example := C81_minimize asciiTable rt prog "-m".toList ["10.0.0.1/33".toList] (by decide) (.inl rfl)
example := C81_network asciiTable "10.0.0.1/33".toList (.cidrRange 33 32) ((C72_netspec_error _ _).1 (by decide +kernel))
example := C81_resize asciiTable rt prog "--resize".toList ["10.0.0.1/24".toList, "33".toList] rfl (.inr rfl)
example := C81_show asciiTable rt prog "10.0.0.1/33".toList [] (by decide +kernel)
example := C81_split asciiTable rt prog "-s".toList ["10.0.0.1/24".toList, "x".toList] (by decide) (.inl rfl)
example := C81_subnet asciiTable "255.256.0.0".toList _ (.inl ⟨_, rfl, .inr ⟨by decide, by decide,
  (C70_ipv4_error _ (.chunkOutOfRange 1 256 0 255)).1 (by decide +kernel)⟩⟩)
example := C81_v4 asciiTable "10.256.0.1".toList (.chunkOutOfRange 1 256 0 255) ((C70_ipv4_error _ _).1 (by decide +kernel))
example := C81_v6 asciiTable "1::2::3".toList (.tooManyShorteningElements 2 1) ((C71_ipv6_error _ _).1 (by decide +kernel))

/-! ## Zeros in front of numbers -/

theorem zeros4 : ZerosAdded false "10.1.2.3/24".toList "010.1.2.3/024".toList :=
  .zero (by decide) (.keep (.keep (.keep (.keep (.keep (.keep (.keep (.keep (.keep (.zero (by decide) (.keep (.keep .nil))))))))))))
theorem zeros4a : ZerosAdded false "10.1.2.3".toList "010.1.2.3".toList :=
  .zero (by decide) (.keep (.keep (.keep (.keep (.keep (.keep (.keep (.keep .nil))))))))
theorem zeros6 : ZerosAdded false "fe80::a/64".toList "fe80::0a/64".toList :=
  .keep (.keep (.keep (.keep (.keep (.keep (.zero (by decide) (.keep (.keep (.keep (.keep .nil))))))))))
theorem zeros_num : ZerosAdded false "25".toList "0025".toList := .zero (by decide) (.zero (by decide) (.keep (.keep .nil)))
theorem net24 : IsV4Network "10.1.2.3/24".toList := ⟨_, _, (v4Network_iff _ _ _).1 parse24⟩
theorem zeros_net : NetworkZeros "10.1.2.3/24".toList "010.1.2.3/024".toList := .inr ⟨.inl net24, zeros4⟩
theorem zeros_addr : AddressZeros "10.1.2.3".toList "010.1.2.3".toList :=
  .inr ⟨.inl ⟨by decide, by decide, ⟨0x0A010203#32⟩, (v4Reading_iff _ _).1 (by decide +kernel)⟩, zeros4a⟩

example := C122_addresses _ _ zeros4a
example := C122_counts _ _ zeros_num 25
example := C122_derange rt prog "-d".toList (.inl rfl) _ _ "10.1.2.9".toList "10.1.2.9".toList zeros_addr (.inl rfl)
example := C122_ipv4 _ _ zeros4 ⟨0x0A010203#32⟩ a24
example := C122_ipv6 _ _ zeros6 ⟨0xFE80000000000000#64, 0xA#64⟩ (.newWithMask ⟨0xFE80000000000000#64, 0#64⟩ ⟨0xFFFFFFFFFFFFFFFF#64, 0#64⟩)
example := C122_lengths _ net24 1000
example := C122_lists rt prog "-e".toList _ _ (.cons zeros_net .nil) (by decide)
example := C122_masks _ _ zeros_num
example := C122_resize rt prog "-r".toList (.inl rfl) _ _ "25".toList "0025".toList zeros_net
  (.inr ⟨.inl ⟨net24, ⟨0xFFFFFF80#32⟩, ((C34_resize_ipv4 _).2 _).1 (by decide +kernel)⟩, zeros_num⟩)
example := C122_show rt prog _ _ _ _ (by decide +kernel) zeros_net (.cons zeros_net .nil)
example := C122_split rt prog "-s".toList (.inl rfl) _ _ _ _ zeros_net
  (.cons (.inr ⟨⟨25, (C79_count _ _).1 (by decide +kernel)⟩, zeros_num⟩) .nil)

/-! ## Several texts for the same -/

instance (s : Str) : Decidable (HexColonText s) := inferInstanceAs (Decidable (s ≠ [] ∧ ∀ c ∈ s, c ∈ ':' :: lowerDigits))


theorem same_spec : SameSpec "10.1.2.3/24".toList "10.1.2.3/-0.0.0.255".toList :=
  .inr (.inl ⟨⟨0x0A010203#32⟩, a24, (v4Network_iff _ _ _).1 (by decide +kernel), (v4Network_iff _ _ _).1 (by decide +kernel)⟩)
theorem same_net : SameNetwork "10.1.2.3/24".toList "10.1.2.9/255.255.255.0".toList :=
  .inr (.inl ⟨⟨0x0A010203#32⟩, ⟨0x0A010209#32⟩, a24, (v4Network_iff _ _ _).1 (by decide +kernel),
    (v4Network_iff _ _ _).1 (by decide +kernel)⟩)
theorem same_addr : SameAddress "2001:db8:0:0::1".toList "2001:0DB8::0001".toList :=
  .inr (.inr ⟨⟨0x20010DB800000000#64, 1#64⟩, ((C36_parse_addr _).2.2.1 _).mp (by decide +kernel),
    ((C36_parse_addr _).2.2.1 _).mp (by decide +kernel)⟩)
theorem same_mask : SameMask "10.1.2.3/24".toList "25".toList "255.255.255.128".toList :=
  .inr (.inl ⟨net24, ⟨0xFFFFFF80#32⟩, ((C34_resize_ipv4 _).2 _).mp (by decide +kernel), ((C34_resize_ipv4 _).2 _).mp (by decide +kernel)⟩)
theorem same_count : SameCount "100".toList "+1_00".toList :=
  .inr ⟨100, (C79_count _ _).mp (by decide +kernel), (C79_count _ _).mp (by decide +kernel)⟩

example := C110_derange rt prog "x".toList "-d".toList "--derange".toList (.inl rfl) (.inr rfl) _ _ _ _ same_addr same_addr
example := C110_enumerate rt prog "x".toList "-e".toList "--enumerate".toList (.inl rfl) (.inr rfl) _ _ (.cons same_net .nil)
example := C110_lopsided rt prog ["10.1.2.3/24".toList] (by decide) (by simpa using .inl net24)
example := C110_minimize rt prog "x".toList "-m".toList "--minimize".toList (.inl rfl) (.inr rfl) _ _ (.cons same_net .nil)
example := C110_prefix_only "10.1.2.3".toList "24".toList (by decide) (by decide) (by decide)
example := C110_resize rt prog "x".toList "-r".toList "--resize".toList (.inl rfl) (.inr rfl) _ _ _ _ same_net same_mask
example := C110_show rt prog "x".toList _ _ _ _ (by decide +kernel) same_spec (.cons same_spec .nil)
example := C110_split rt prog "x".toList "-s".toList "--split".toList (.inl rfl) (.inr rfl) _ _ _ _ same_net (.cons same_count .nil)

theorem num8 : Numeral 10 "8".toList (32 - 24) := ⟨by decide, [8], .cons (.inl rfl) (by decide) .nil, rfl⟩
theorem num64 : Numeral 10 "64".toList 64 :=
  ⟨by decide, [6, 4], .cons (.inl rfl) (by decide) (.cons (.inl rfl) (by decide) .nil), rfl⟩

example := C110_syntax_ipv4 "10.1.2.3".toList "24".toList "8".toList "255.255.255.0".toList "0.0.0.255".toList ⟨0x0A010203#32⟩
  ⟨0xFFFFFF00#32⟩ ⟨0x000000FF#32⟩ 24 ((matchQuad_iff _).1 (by decide +kernel)) ((v4Reading_iff _ _).1 (by decide +kernel))
  ((matchQuad_iff _).1 (by decide +kernel)) ((v4Reading_iff _ _).1 (by decide +kernel)) ((matchQuad_iff _).1 (by decide +kernel))
  ((v4Reading_iff _ _).1 (by decide +kernel)) num24 num8 mask24 (by decide +kernel)
example := C110_syntax_ipv6 "2001:db8::1".toList "64".toList "64".toList "ffff:ffff:ffff:ffff::".toList "::ffff:ffff:ffff:ffff".toList
  ⟨0x20010DB800000000#64, 1#64⟩ ⟨0xFFFFFFFFFFFFFFFF#64, 0#64⟩ ⟨0#64, 0xFFFFFFFFFFFFFFFF#64⟩ 64 (by decide +kernel)
  ((v6Reading_iff _ _).1 (by decide +kernel)) (by decide +kernel) ((v6Reading_iff _ _).1 (by decide +kernel)) (by decide +kernel)
  ((v6Reading_iff _ _).1 (by decide +kernel)) num64 num64 ⟨by decide, by decide +kernel⟩ (by decide +kernel)

/-! ## Parsing -/

example := C30_ipv4 lop wf
example := C30_ipv6_partial s64 wf
example := C30_ipv6_short_prefix s64 64 s64_cidr (by decide)
example := C32_mask_wildcard_ipv4 "10.1.2.3".toList "255.0.255.0".toList "0.255.0.255".toList ⟨0x0A010203#32⟩
  ⟨0xFF00FF00#32⟩ ⟨0x00FF00FF#32⟩ ((matchQuad_iff _).1 (by decide +kernel)) ((v4Reading_iff _ _).1 (by decide +kernel))
  ((matchQuad_iff _).1 (by decide +kernel)) ((v4Reading_iff _ _).1 (by decide +kernel)) ((matchQuad_iff _).1 (by decide +kernel))
  ((v4Reading_iff _ _).1 (by decide +kernel)) (by decide +kernel)
example := C32_mask_wildcard_ipv6 "2001:db8::1".toList "ffff:ffff:ffff:ffff::".toList "::ffff:ffff:ffff:ffff".toList
  ⟨0x20010DB800000000#64, 1#64⟩ ⟨0xFFFFFFFFFFFFFFFF#64, 0#64⟩ ⟨0#64, 0xFFFFFFFFFFFFFFFF#64⟩ (by decide +kernel)
  ((v6Reading_iff _ _).1 (by decide +kernel)) (by decide +kernel) ((v6Reading_iff _ _).1 (by decide +kernel)) (by decide +kernel)
  ((v6Reading_iff _ _).1 (by decide +kernel)) (by decide +kernel)
example := C32_prefix_ipv4 "10.1.2.3".toList "24".toList "8".toList "255.255.255.0".toList ⟨0x0A010203#32⟩
  ⟨0xFFFFFF00#32⟩ 24 ((matchQuad_iff _).1 (by decide +kernel)) ((v4Reading_iff _ _).1 (by decide +kernel))
  ((matchQuad_iff _).1 (by decide +kernel)) ((v4Reading_iff _ _).1 (by decide +kernel)) num24 num8 mask24
example := C32_prefix_ipv6 "2001:db8::1".toList "64".toList "64".toList "ffff:ffff:ffff:ffff::".toList
  ⟨0x20010DB800000000#64, 1#64⟩ ⟨0xFFFFFFFFFFFFFFFF#64, 0#64⟩ 64 (by decide +kernel)
  ((v6Reading_iff _ _).1 (by decide +kernel)) (by decide +kernel) ((v6Reading_iff _ _).1 (by decide +kernel)) num64 num64
  ⟨by decide, by decide +kernel⟩
example := C34_error "10.1.2.3".toList "64".toList false 64 num64
example := C34_prefix_syntax "10.1.2.3".toList "24".toList true 24 num24

/-! ## Display -/

theorem parse_both : Pointwise (fun s x => parseNetspec s = .ok (.ok x)) ["10.1.2.3/24".toList, "2001:db8:0:1::7/120".toList]
    [.ipv4 ⟨0x0A010203#32⟩ a24, .ipv6 ⟨0x20010DB800000001#64, 7#64⟩ s120] := .cons parse24 (.cons parse120 .nil)

example := C58_any rt' prog _ _ parse_both
example := C58_blocks rt rfl prog _ _ parse_both
example := C58_error rt prog ["10.1.2.3/24".toList] ["1.2.3.4/8".toList] "10.0.0.1/33".toList (.cidrRange 33 32)
  (by simpa using ⟨_, parse24⟩) (by decide +kernel)
example := C59_binary_v4 rt rfl ⟨0x0A010203#32⟩ (some ⟨0xFF00FFFC#32⟩) true (some .green)
example := C59_binary_v6 rt rfl ⟨0x20010DB800000001#64, 7#64⟩ (some ⟨0xFFFFFFFFFFFFFFFF#64, 0#64⟩) false none
example := C60_printed rt a24 wf (by decide +kernel) none
example := C60_class_label rt rfl lop
example := C62_any_v4 rt' lop wf (some ⟨0x0A010203#32⟩)
example := C62_any_v6 rt' s64 wf none
example := C62_block_v4 rt rfl lop wf (some ⟨0x0A010203#32⟩)
example := C62_block_v6 rt rfl s64 wf none

theorem first_line (t : Str) (h : t.takeWhile (· ≠ '\n') ≠ []) : IsLine t (t.takeWhile (· ≠ '\n')) := by
  refine ⟨fun hm => ?_, [], t.dropWhile (· ≠ '\n'), by simp [List.takeWhile_append_dropWhile], .inl rfl, ?_⟩
  · simpa using List.all_eq_true.1 (List.all_takeWhile (p := (· ≠ '\n')) (l := t)) _ hm
  · cases hd : t.dropWhile (· ≠ '\n') with
    | nil => exact .inl ⟨rfl, h⟩
    | cons c q =>
      right
      have := List.head?_dropWhile_not (p := (· ≠ '\n')) t
      rw [hd] at this
      simp at this
      exact ⟨q, by rw [this]⟩

example := C94_columns_v4 rt rfl lop wf (some ⟨0x0A010203#32⟩) _ (first_line _ (by decide +kernel))
example := C94_columns_v6 rt rfl s64 wf none _ (first_line _ (by rw [← outputIpv6NetworkE_eq]; decide +kernel))
example := C59_rows_v4 rt rfl lop wf (some ⟨0x0A010203#32⟩) _ (first_line _ (by decide +kernel))
example := C59_rows_v6 rt rfl s64 wf none _ (first_line _ (by rw [← outputIpv6NetworkE_eq]; decide +kernel))
example := C94_show rt rfl prog ["10.1.2.3/24".toList] _ (first_line _ (by rw [← showNetE_eq]; decide +kernel))

/-! ## Commands -/

theorem parse25 : parseNetspec "10.1.2.130/25".toList = .ok (.ok (.ipv4 ⟨0x0A010282#32⟩ b25)) := by decide +kernel

example := C63_minimize_v4 rt prog "-m".toList ["10.1.2.3/24".toList, "10.1.2.130/25".toList] (by decide) [(_, _), (_, _)]
  (.cons parse24 (.cons parse25 .nil))
example := C63_minimize_v6 rt prog "-m".toList ["2001:db8:0:1::7/120".toList] (by decide) [(_, _)] (.cons parse120 .nil)

theorem target25 : resizeMask4 "25".toList = .ok (.ok ⟨0xFFFFFF80#32⟩) := by decide +kernel
theorem target122 : resizeMask6 "122".toList = .ok (.ok ⟨0xFFFFFFFFFFFFFFFF#64, 0xFFFFFFFFFFFFFFC0#64⟩) := by decide +kernel

example := C64_any_v4 rt' prog "-r".toList _ _ _ a24 parse24 _ target25
example := C64_any_v6 rt' prog "-r".toList _ _ _ s120 parse120 _ target122
example := C64_resize_v4 rt rfl prog "-r".toList _ _ _ a24 parse24 _ target25
example := C64_resize_v6 rt rfl prog "-r".toList _ _ _ s120 parse120 _ target122
example := C65_any_v4 rt' prog "-s".toList _ _ (by decide) _ counts_100_50 _ a24 parse24
example := C65_any_v6 rt' prog "-s".toList _ _ (by decide) _ counts_100_50 _ s120 parse120
example := C65_split_v6 rt rfl prog "-s".toList _ _ (by decide) _ counts_100_50 _ s120 parse120

/-! ## Reading the output back -/

theorem same_show : doMain rt [prog, "10.1.2.3/24".toList] = doMain rt ["x".toList, "10.1.2.3/-0.0.0.255".toList] :=
  C110_show rt prog "x".toList _ _ [] [] (by decide +kernel) same_spec .nil
theorem parse_wild : parseNetspec "10.1.2.3/-0.0.0.255".toList = .ok (.ok (.ipv4 ⟨0x0A010203#32⟩ a24)) := by decide +kernel
theorem parse_other : parseNetspec "10.1.2.9/255.255.255.0".toList = .ok (.ok (.ipv4 ⟨0x0A010209#32⟩ a24)) := by decide +kernel
theorem target_quad : resizeMask4 "255.255.255.128".toList = .ok (.ok ⟨0xFFFFFF80#32⟩) := by decide +kernel

example := C95_read_back rt rt prog "x".toList ["10.1.2.3/24".toList] ["10.1.2.3/-0.0.0.255".toList] _ _ (.cons parse24 .nil)
  (.cons parse_wild .nil) (by rw [same_show])
example := C95_read_stdout rt rt prog "x".toList ["10.1.2.3/24".toList] ["10.1.2.3/-0.0.0.255".toList] _ _ (.cons parse24 .nil)
  (.cons parse_wild .nil) (by rw [same_show])
example := C95_resize_v4 rt rt prog "x".toList "-r".toList "--resize".toList _ _ _ _ _ _ a24 a24 _ _ (.inl rfl) (.inr rfl) parse24
  parse_other target25 target_quad
  (by rw [C110_resize rt prog "x".toList "-r".toList "--resize".toList (.inl rfl) (.inr rfl) _ _ _ _ same_net same_mask])

/-- The arguments of the two runs as bytes. -/
theorem same_stdout : (process rt asciiTable (["ripcalc", "10.1.2.3/24"].map fun s => utf8Encode s.toList)).stdout =
    (process rt asciiTable (["x", "10.1.2.3/-0.0.0.255"].map fun s => utf8Encode s.toList)).stdout := by
  rw [process, process, show envArgs (["ripcalc", "10.1.2.3/24"].map fun s => utf8Encode s.toList) =
      some [prog, "10.1.2.3/24".toList] by decide +kernel,
    show envArgs (["x", "10.1.2.3/-0.0.0.255"].map fun s => utf8Encode s.toList) = some ["x".toList, "10.1.2.3/-0.0.0.255".toList] by
      decide +kernel]
  show utf8Encode (stdoutText (doMain rt _).out) = utf8Encode (stdoutText (doMain rt _).out)
  rw [same_show]

example := C95_read_bytes rt rt asciiTable asciiTable _ _ prog "x".toList ["10.1.2.3/24".toList] ["10.1.2.3/-0.0.0.255".toList] _ _
  ((envArgs_iff _ _).1 (by decide +kernel)) ((envArgs_iff _ _).1 (by decide +kernel)) (.cons parse24 .nil) (.cons parse_wild .nil)
  same_stdout

theorem parse120' : parseNetspec "2001:0db8:0:1::9/-8".toList = .ok (.ok (.ipv6 ⟨0x20010DB800000001#64, 9#64⟩ s120)) := by decide +kernel
theorem same_net6 : SameNetwork "2001:db8:0:1::7/120".toList "2001:0db8:0:1::9/-8".toList :=
  .inr (.inr ⟨_, _, s120, (v6Network_iff _ _ _).1 parse120, (v6Network_iff _ _ _).1 parse120'⟩)

example := C95_resize_v6 rt rt prog "x".toList "-r".toList "--resize".toList _ _ _ _ _ _ s120 s120 _ _ (.inl rfl) (.inr rfl) parse120
  parse120' target122 target122
  (by rw [C110_resize rt prog "x".toList "-r".toList "--resize".toList (.inl rfl) (.inr rfl) _ _ _ _ same_net6 (.inl rfl)])

theorem split_same4 (counts : List Str) : doMain rt (prog :: "-s".toList :: "10.1.2.3/24".toList :: counts) =
    doMain rt ("x".toList :: "--split".toList :: "10.1.2.9/255.255.255.0".toList :: counts) :=
  C110_split rt prog "x".toList "-s".toList "--split".toList (.inl rfl) (.inr rfl) _ _ _ _ same_net
    (by induction counts with | nil => exact .nil | cons _ _ ih => exact .cons (.inl rfl) ih)
theorem split_same6 (counts : List Str) : doMain rt (prog :: "-s".toList :: "2001:db8:0:1::7/120".toList :: counts) =
    doMain rt ("x".toList :: "--split".toList :: "2001:0db8:0:1::9/-8".toList :: counts) :=
  C110_split rt prog "x".toList "-s".toList "--split".toList (.inl rfl) (.inr rfl) _ _ _ _ same_net6
    (by induction counts with | nil => exact .nil | cons _ _ ih => exact .cons (.inl rfl) ih)

/-- The two runs end with 0. -/
theorem split_res4 : (doMain rt (prog :: "-s".toList :: "10.1.2.3/24".toList :: ["100".toList, "50".toList])).res = .ok 0 := by
  obtain ⟨us, ⟨t, h⟩, -⟩ := C55_unused_partial_v4 rt prog "-s".toList _ _ (by decide) _ counts_100_50 _ a24 parse24 24
    a24_cidr _ splitted (forall_two a24_a25 a24_a26) a24_unused (by decide +kernel)
  rw [doMain_cons]
  exact h.1
theorem split_res6 : (doMain rt (prog :: "-s".toList :: "2001:db8:0:1::7/120".toList :: ["100".toList, "50".toList])).res = .ok 0 := by
  obtain ⟨us, ⟨t, h⟩, -⟩ := C55_unused_partial_v6 rt prog "-s".toList _ _ (by decide) _ counts_100_50 _ s120
    parse120 120 s120_cidr _ split6 (forall_two s120_s121 s120_s122) s120_unused (by decide +kernel)
  rw [doMain_cons]
  exact h.1

example := C95_split_v4 rt rt prog "x".toList "-s".toList "--split".toList _ _ _ _ (by decide) (by decide) _ _ counts_100_50
  counts_100_50 _ _ a24 a24 (.inl rfl) (.inr rfl) parse24 parse_other 0 0 split_res4 (split_same4 _ ▸ split_res4) (by rw [split_same4])
example := C95_split_v6 rt rt prog "x".toList "-s".toList "--split".toList _ _ _ _ (by decide) (by decide) _ _ counts_100_50
  counts_100_50 _ _ s120 s120 (.inl rfl) (.inr rfl) parse120 parse120' 0 0 split_res6 (split_same6 _ ▸ split_res6) (by rw [split_same6])

/-! ## Messages -/

/-- Another table of printable characters: it has the letter e with an acute accent. -/
def otherTable : CharTable := ⟨fun c => decide (c = 'é'), fun c h => by
  have : c ≠ 'é' := by rintro rfl; revert h; decide
  simpa using this⟩

example := C75_message asciiTable otherTable (.enumerateNet "x".toList (.unrecognized "x".toList))
  (.enumerateNet "x".toList (.unrecognized "x".toList)) (by decide +kernel)
example := C75_stderr asciiTable otherTable [.err (.enumerateNet "x".toList (.unrecognized "x".toList))]
  [.out "1".toList, .err (.enumerateNet "x".toList (.unrecognized "x".toList))] rfl

example := C74_message asciiTable (.enumerateNet "x".toList (.unrecognized "x".toList)) (by simp)
example := C76_failure rt [prog] (by decide +kernel)
example := C76_success rt [prog, "--help".toList] (by decide +kernel)
example := C76_message rt [prog] .usage (by decide +kernel)
example := C77_characters rt [prog]
example := C77_printable rt [prog]

/-! ## Colors -/

example := C67_mask_colors rt rfl
example := C67_override rt rfl .green
example := C68_class_colors_partial rt rfl lop
example := C68_class_colors_sound rt rfl lop
example := C68_counterexample rt rfl
example := C68_exactly_when rt rfl lop
example := C69_display_v4 rt rfl lop wf (some ⟨0x0A010203#32⟩)
example := C69_display_v6 rt rfl s64 wf none

end Ripcalc.Witness
