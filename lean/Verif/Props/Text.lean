import Verif.Proofs.V6RoundTrip
/-!
# Properties C08–C13: text of addresses
-/
namespace Ripcalc
open AddrSpec

/-! ## C08: IPv4 text round-trips -/

theorem C08_ipv4_round_trip (a : V4) : V4.parse (IpAddr.display a) = .ok a := by
  obtain ⟨b0, b1, b2, b3, h1, h2⟩ := V4.display_eq a
  change V4.parse a.display = _
  rw [h2, V4.parse_iff]
  have num : ∀ b : Byte, PlusNumeral 10 (showNat 10 b.toNat) b.toNat ∧ b.toNat ≤ 255 := fun b =>
    ⟨.inl (showNat_canonical (by decide) (by decide) _).1, by have := b.isLt; omega⟩
  refine ⟨_, _, _, _, _, _, _, _, rfl, num b0, num b1, num b2, num b3, ?_⟩
  have := V4.toBytes_val a
  rw [h1] at this
  exact this.symm

/-- The text is the four bytes as decimal numbers without leading zeros, separated by dots. -/
theorem C08_ipv4_shape (a : V4) :
    ∃ t0 t1 t2 t3 v0 v1 v2 v3, IpAddr.display a = t0 ++ '.' :: t1 ++ '.' :: t2 ++ '.' :: t3 ∧
      (CanonicalNumeral 10 t0 v0 ∧ v0 < 256) ∧ (CanonicalNumeral 10 t1 v1 ∧ v1 < 256) ∧
      (CanonicalNumeral 10 t2 v2 ∧ v2 < 256) ∧ (CanonicalNumeral 10 t3 v3 ∧ v3 < 256) ∧
      val a = bigEndian 256 [v0, v1, v2, v3] := by
  obtain ⟨b0, b1, b2, b3, h1, h2⟩ := V4.display_eq a
  have num : ∀ b : Byte, CanonicalNumeral 10 (showNat 10 b.toNat) b.toNat ∧ b.toNat < 256 := fun b =>
    ⟨showNat_canonical (by decide) (by decide) _, b.isLt⟩
  refine ⟨_, _, _, _, _, _, _, _, h2, num b0, num b1, num b2, num b3, ?_⟩
  have := V4.toBytes_val a
  rw [h1] at this
  exact this.symm

theorem C08_ipv4_injective (a b : V4) (h : IpAddr.display a = IpAddr.display b) : a = b := by
  have h1 := C08_ipv4_round_trip a
  rw [h, C08_ipv4_round_trip b] at h1
  cases h1; rfl

example : IpAddr.display (⟨0xC0A80001#32⟩ : V4) = "192.168.0.1".toList := by decide +kernel

/-! ## C09: the IPv4 parser accepts exactly dotted quads -/

theorem C09_ipv4_parser (s : Str) (a : V4) :
    V4.parse s = .ok a ↔ ∃ t0 t1 t2 t3 v0 v1 v2 v3, s = t0 ++ '.' :: t1 ++ '.' :: t2 ++ '.' :: t3 ∧
      (PlusNumeral 10 t0 v0 ∧ v0 ≤ 255) ∧ (PlusNumeral 10 t1 v1 ∧ v1 ≤ 255) ∧
      (PlusNumeral 10 t2 v2 ∧ v2 ≤ 255) ∧ (PlusNumeral 10 t3 v3 ∧ v3 ≤ 255) ∧ val a = bigEndian 256 [v0, v1, v2, v3] :=
  V4.parse_iff s a

/-- Everything else is an error. -/
theorem C09_ipv4_parser_error (s : Str) :
    (∃ e, V4.parse s = .error e) ↔ ¬ ∃ t0 t1 t2 t3 v0 v1 v2 v3, s = t0 ++ '.' :: t1 ++ '.' :: t2 ++ '.' :: t3 ∧
      (PlusNumeral 10 t0 v0 ∧ v0 ≤ 255) ∧ (PlusNumeral 10 t1 v1 ∧ v1 ≤ 255) ∧
      (PlusNumeral 10 t2 v2 ∧ v2 ≤ 255) ∧ (PlusNumeral 10 t3 v3 ∧ v3 ≤ 255) := by
  constructor
  · rintro ⟨e, he⟩ ⟨t0, t1, t2, t3, v0, v1, v2, v3, hs, h0, h1, h2, h3⟩
    have hv : bigEndian 256 [v0, v1, v2, v3] < 2 ^ width V4 := by
      have := h0.2; have := h1.2; have := h2.2; have := h3.2
      simp only [bigEndian, List.foldl, width]
      omega
    obtain ⟨a, ha⟩ := LawfulIpAddr.val_surj (A := V4) _ hv
    rw [(V4.parse_iff s a).mpr ⟨t0, t1, t2, t3, v0, v1, v2, v3, hs, h0, h1, h2, h3, ha⟩] at he
    cases he
  · intro h
    cases hp : V4.parse s with
    | error e => exact ⟨e, rfl⟩
    | ok a =>
      obtain ⟨t0, t1, t2, t3, v0, v1, v2, v3, hs, h0, h1, h2, h3, -⟩ := (V4.parse_iff s a).mp hp
      exact absurd ⟨t0, t1, t2, t3, v0, v1, v2, v3, hs, h0, h1, h2, h3⟩ h

example : V4.parse "+1.002.3.255".toList = .ok ⟨0x010203FF#32⟩ := by decide +kernel
example : V4.parse "1.2.3.256".toList = .error (.chunkOutOfRange 3 256 0 255) := by decide +kernel

/-! ## C10: IPv6 text round-trips

False for addresses whose text starts or ends with a double colon that stands for a single zero chunk. -/

theorem C10_counterexample : ¬ ∀ a : V6, V6.parse (IpAddr.display a) = .ok (.ok a) := by
  intro h
  have := h ⟨0x0000000200030004#64, 0x0005000600070008#64⟩
  revert this
  decide +kernel

/-- Exactly which addresses round-trip; the others give an error. Missing from the full claim: addresses with
`SingleZeroAtEnd`. -/
theorem C10_ipv6_round_trip_partial (a : V6) :
    (V6.parse (IpAddr.display a) = .ok (.ok a) ↔ ¬ SingleZeroAtEnd (chunkVals a)) ∧
    (SingleZeroAtEnd (chunkVals a) → V6.parse (IpAddr.display a) = .ok (.error (.incorrectChunkCount 9 8))) := by
  obtain ⟨h1, h2⟩ := V6.parse_display a
  change (V6.parse a.display = _ ↔ _) ∧ (_ → V6.parse a.display = _)
  refine ⟨⟨fun h hs => ?_, h2⟩, h1⟩
  rw [h1 hs] at h
  cases h

/-- Two adjacent zero chunks anywhere suffice, as does having no zero chunk at either end. -/
theorem C10_ipv6_round_trip_common (a : V6)
    (h : (∃ i, i < 7 ∧ chunkOf a i = 0 ∧ chunkOf a (i + 1) = 0) ∨ (chunkOf a 0 ≠ 0 ∧ chunkOf a 7 ≠ 0)) :
    V6.parse (IpAddr.display a) = .ok (.ok a) := by
  rw [(C10_ipv6_round_trip_partial a).1]
  have hg : ∀ i, i < 8 → (chunkVals a)[i]? = some (chunkOf a i) := by
    intro i hi; simp [chunkVals, hi]
  rcases h with ⟨i, hi, h1, h2⟩ | ⟨h1, h2⟩
  · rintro (⟨-, h⟩ | ⟨-, h⟩)
    · exact h i ⟨by rw [hg i (by omega), h1], by rw [hg _ (by omega), h2]⟩
    · exact h i hi (by rw [hg i (by omega), h1])
  · rintro (⟨h, -⟩ | ⟨h, -⟩)
    · rw [hg 0 (by omega)] at h; exact h1 (Option.some.inj h)
    · rw [hg 7 (by omega)] at h; exact h2 (Option.some.inj h)

example : IpAddr.display (⟨0x20010DB800000000#64, 1#64⟩ : V6) = "2001:db8::1".toList ∧
    V6.parse "2001:db8::1".toList = .ok (.ok ⟨0x20010DB800000000#64, 1#64⟩) := by decide +kernel
example : IpAddr.display (⟨0x0000000200030004#64, 0x0005000600070008#64⟩ : V6) = "::2:3:4:5:6:7:8".toList := by decide +kernel

/-! ## C11: IPv6 parser meaning -/

theorem C11_ipv6_parser_total (s : Str) : ∃ r, V6.parse s = .ok r := V6.parse_total s

theorem C11_ipv6_parser (s : Str) (a : V6) :
    V6.parse s = .ok (.ok a) ↔
      (∃ gs, completeColons s = List.intercalate [':'] gs ∧ gs.length = 8 ∧ Pointwise Group gs (chunkVals a)) ∨
      (∃ pre post vs ws, completeColons s = List.intercalate [':'] (pre ++ [[]] ++ post) ∧ pre.length + post.length < 8 ∧
        Pointwise Group pre vs ∧ Pointwise Group post ws ∧
        chunkVals a = vs ++ List.replicate (8 - (pre.length + post.length)) 0 ++ ws) := by
  rw [V6.parse_iff]
  simp only [List.append_assoc, List.singleton_append, Nat.lt_succ_iff, Nat.sub_sub]

/-- The chunks determine the address, so the previous theorem fixes the result. -/
theorem C11_chunks_determine (a b : V6) : chunkVals a = chunkVals b ↔ a = b :=
  ⟨V6.chunkVals_inj, fun h => h ▸ rfl⟩

example : V6.parse "::".toList = .ok (.ok ⟨0#64, 0#64⟩) ∧ V6.parse "1::2".toList = .ok (.ok ⟨0x0001000000000000#64, 2#64⟩) ∧
    V6.parse "1:2:3:4:5:6:7:8".toList = .ok (.ok ⟨0x0001000200030004#64, 0x0005000600070008#64⟩) ∧
    V6.parse "1::2::3".toList = .ok (.error (.tooManyShorteningElements 2 1)) := by decide +kernel

/-! ## C12: IPv6 display is canonical -/

theorem C12_ipv6_display (a : V6) :
    ∃ hs, Pointwise (CanonicalNumeral 16) hs (chunkVals a) ∧
      (((∀ i, i < 8 → chunkOf a i ≠ 0) ∧ IpAddr.display a = List.intercalate [':'] hs) ∨
       (∃ start len, FirstLongestZeroRun (chunkVals a) start len ∧
          IpAddr.display a = List.intercalate [':'] (hs.take start) ++ [':', ':'] ++ List.intercalate [':'] (hs.drop (start + len)))) := by
  refine ⟨V6.hexes a, ?_, ?_⟩
  · have key : ∀ l : List Nat, Pointwise (CanonicalNumeral 16) (l.map (showNat 16)) l := by
      intro l
      induction l with
      | nil => exact .nil
      | cons v l ih => exact .cons (showNat_canonical (by decide) (by decide) v) ih
    exact key _
  · rcases V6.display_spec a with ⟨h1, h2⟩ | ⟨s, l, h1, h2⟩
    · refine .inl ⟨fun i hi => h1 _ ?_, h2⟩
      simp only [chunkVals, List.mem_map, List.mem_range]
      exact ⟨i, hi, rfl⟩
    · exact .inr ⟨s, l, h1, h2⟩

/-- The run that is shortened is determined by the address. -/
theorem C12_run_unique (cs : List Nat) (s l s' l' : Nat) (h : FirstLongestZeroRun cs s l) (h' : FirstLongestZeroRun cs s' l') :
    s = s' ∧ l = l' := by
  have h1 := h.2.2 s' l' h'.1 h'.2.1
  have h2 := h'.2.2 s l h.1 h.2.1
  have hl : l = l' := by omega
  have := h1.2 hl.symm
  have := h2.2 hl
  exact ⟨by omega, hl⟩

theorem C12_ipv6_injective (a b : V6) (h : IpAddr.display a = IpAddr.display b) : a = b := V6.display_inj h

example : IpAddr.display (⟨0x0001000000000002#64, 0x0003000000000004#64⟩ : V6) = "1::2:3:0:0:4".toList := by decide +kernel

/-! ## C13: full IPv6 text

False: the loop of `to_full_string` runs over the empty result vector. -/

/-- The intended text. -/
def fullText (a : V6) : Str :=
  List.intercalate [':'] ((chunkVals a).map fun v =>
    [v / 4096 % 16, v / 256 % 16, v / 16 % 16, v % 16].map (fun d => lowerDigits.getD d '0'))

theorem C13_full_string_is_empty (a : V6) : V6.toFullString a = [] := rfl

theorem C13_counterexample (a : V6) : V6.toFullString a ≠ fullText a := by
  rw [C13_full_string_is_empty]
  intro h
  have := congrArg List.length h
  simp [fullText, chunkVals, List.range_succ, List.intercalate_cons_cons] at this

example : fullText ⟨0x20010DB800000000#64, 1#64⟩ = "2001:0db8:0000:0000:0000:0000:0000:0001".toList := by decide +kernel

end Ripcalc
