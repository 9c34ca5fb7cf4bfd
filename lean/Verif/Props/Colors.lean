import Verif.Props.Show
import Verif.Proofs.ShowColors
/-!
# Properties of the colours of the binary column
-/
namespace Ripcalc
open AddrSpec

/-! ## C67: network bits and host bits -/

/-- Without class colouring the colour of a bit says whether the mask fixes it. -/
theorem C67_mask_colors (rt : Runtime) (hc : rt.colorsEnabled = true) :
    (∀ a m : V4, cells (outputBinaryIpv4Address rt a (some m) false none).out =
      grouped 32 8 (some .white, '.') (fun p => (some (maskColor (val m) p), bitChar (val a) p))) ∧
    (∀ a m : V6, ∀ cc, cells (outputBinaryIpv6Address rt a (some m) cc none).out =
      grouped 128 16 (some .white, ':') (fun p => (some (maskColor (val m) p), bitChar (val a) p))) := by
  constructor
  · intro a m
    obtain ⟨evs, h1, -, h2⟩ := binary4_eq hc a (some m) false none
    rw [h1, h2]
    simp only [columnColor4, Option.map_some, Bool.false_eq_true, false_and, if_false]
    rfl
  · intro a m cc
    obtain ⟨evs, h1, -, h2⟩ := binary6_eq hc a (some m) cc none
    rw [h1, h2]
    rfl

/-- With a given colour (for the netmask) all bits have it. -/
theorem C67_override (rt : Runtime) (hc : rt.colorsEnabled = true) (c : Color) :
    (∀ (a : V4) m cc, cells (outputBinaryIpv4Address rt a m cc (some c)).out =
      grouped 32 8 (some .white, '.') (fun p => (some c, bitChar (val a) p))) ∧
    (∀ (a : V6) m cc, cells (outputBinaryIpv6Address rt a m cc (some c)).out =
      grouped 128 16 (some .white, ':') (fun p => (some c, bitChar (val a) p))) := by
  constructor
  · intro a m cc
    obtain ⟨evs, h1, -, h2⟩ := binary4_eq hc a m cc (some c)
    rw [h1, h2]
    simp only [columnColor4]
    rfl
  · intro a m cc
    obtain ⟨evs, h1, -, h2⟩ := binary6_eq hc a m cc (some c)
    rw [h1, h2]
    rfl

/-! ## C68: class bits -/

theorem definesClass_iff (m v p : Nat) : DefinesClass m v p ↔
    (m.testBit 31 = true ∧ v.testBit 31 = false) ∧ 31 ≤ p ∧ p < 32 ∨
    (m.testBit 31 = true ∧ v.testBit 31 = true) ∧ (m.testBit 30 = true ∧ v.testBit 30 = false) ∧ 30 ≤ p ∧ p < 32 ∨
    (m.testBit 31 = true ∧ v.testBit 31 = true) ∧ (m.testBit 30 = true ∧ v.testBit 30 = true) ∧
      (m.testBit 29 = true ∧ v.testBit 29 = false) ∧ 29 ≤ p ∧ p < 32 ∨
    (m.testBit 31 = true ∧ v.testBit 31 = true) ∧ (m.testBit 30 = true ∧ v.testBit 30 = true) ∧
      (m.testBit 29 = true ∧ v.testBit 29 = true) ∧ m.testBit 28 = true ∧ 28 ≤ p ∧ p < 32 := by
  simp only [DefinesClass, fixesLeading_iff, classTable, List.mem_cons, List.not_mem_nil, or_false, exists_eq_or_imp,
    exists_eq_left, forall_eq_or_imp, forall_eq, List.zipIdx_cons, List.zipIdx_nil, Nat.zero_add, Nat.reduceAdd, Nat.reduceSub,
    Nat.sub_zero, List.length_cons, List.length_nil]
  cases v.testBit 28 <;> simp [and_assoc]

/-- The bit is magenta in the network line. -/
theorem magenta_iff (m v p : Nat) : columnColor4 v (some m) true none p = .magenta ↔ ClassBit v p ∧ m.testBit 31 = true ∧
    (v.testBit 31 = true → m.testBit 30 = true) ∧ (v.testBit 30 = true → m.testBit 29 = true) ∧
    (v.testBit 29 = true → m.testBit 28 = true) := by
  simp only [columnColor4, true_and]
  by_cases h : ClassBit v p ∧ m.testBit 31 = true ∧ (v.testBit 31 = true → m.testBit 30 = true) ∧
    (v.testBit 30 = true → m.testBit 29 = true) ∧ (v.testBit 29 = true → m.testBit 28 = true)
  · rw [if_pos h]; exact ⟨fun _ => h, fun _ => rfl⟩
  · rw [if_neg h]
    refine ⟨fun h' => ?_, fun h' => absurd h' h⟩
    split at h' <;> cases h'

theorem not_magenta (m v p : Nat) (h : columnColor4 v (some m) true none p ≠ .magenta) :
    columnColor4 v (some m) true none p = maskColor m p := by
  rw [ne_eq, magenta_iff] at h
  simp only [columnColor4, true_and]
  rw [if_neg h]
  rfl

theorem classBit_cases (v p : Nat) : ClassBit v p ↔ p = 31 ∨ (p = 30 ∧ v.testBit 31 = true) ∨
    (p = 29 ∧ v.testBit 31 = true ∧ v.testBit 30 = true) ∨
    (p = 28 ∧ v.testBit 31 = true ∧ v.testBit 30 = true ∧ v.testBit 29 = true) := by
  constructor
  · rintro ⟨h1, h2, h3⟩
    have : p = 31 ∨ p = 30 ∨ p = 29 ∨ p = 28 := by omega
    rcases this with rfl | rfl | rfl | rfl
    · exact .inl rfl
    · exact .inr (.inl ⟨rfl, h3 31 (by omega) (by omega)⟩)
    · exact .inr (.inr (.inl ⟨rfl, h3 31 (by omega) (by omega), h3 30 (by omega) (by omega)⟩))
    · exact .inr (.inr (.inr ⟨rfl, h3 31 (by omega) (by omega), h3 30 (by omega) (by omega), h3 29 (by omega) (by omega)⟩))
  · rintro (rfl | ⟨rfl, h⟩ | ⟨rfl, h, h'⟩ | ⟨rfl, h, h', h''⟩)
    · exact ⟨by omega, by omega, fun q h1 h2 => by omega⟩
    · exact ⟨by omega, by omega, fun q h1 h2 => by rw [show q = 31 by omega]; exact h⟩
    · refine ⟨by omega, by omega, fun q h1 h2 => ?_⟩
      have : q = 30 ∨ q = 31 := by omega
      rcases this with rfl | rfl <;> assumption
    · refine ⟨by omega, by omega, fun q h1 h2 => ?_⟩
      have : q = 29 ∨ q = 30 ∨ q = 31 := by omega
      rcases this with rfl | rfl | rfl <;> assumption

theorem magenta_sound (m v p : Nat) (h : columnColor4 v (some m) true none p = .magenta) : DefinesClass m v p := by
  have h := (magenta_iff _ _ p).mp h
  rw [definesClass_iff]
  obtain ⟨h3, h4, h5, h6, h7⟩ := h
  rw [classBit_cases] at h3
  cases e1 : v.testBit 31 <;> cases e2 : v.testBit 30 <;> cases e3 : v.testBit 29 <;> simp_all <;> omega

theorem not_looseLeading (m v : Nat) : ¬ LooseLeading m v ↔ (v.testBit 31 = true → m.testBit 30 = true) ∧
    (v.testBit 30 = true → m.testBit 29 = true) ∧ (v.testBit 29 = true → m.testBit 28 = true) := by
  constructor
  · intro h
    refine ⟨fun h' => ?_, fun h' => ?_, fun h' => ?_⟩
    · cases e : m.testBit 30
      · exact (h ⟨31, by omega, by omega, h', e⟩).elim
      · rfl
    · cases e : m.testBit 29
      · exact (h ⟨30, by omega, by omega, h', e⟩).elim
      · rfl
    · cases e : m.testBit 28
      · exact (h ⟨29, by omega, by omega, h', e⟩).elim
      · rfl
  · rintro ⟨h1, h2, h3⟩ ⟨q, hq1, hq2, h4, h5⟩
    have : q = 31 ∨ q = 30 ∨ q = 29 := by omega
    rcases this with rfl | rfl | rfl
    · rw [h1 h4] at h5; cases h5
    · rw [h2 h4] at h5; cases h5
    · rw [h3 h4] at h5; cases h5

theorem magenta_exact (m v p : Nat) :
    columnColor4 v (some m) true none p = .magenta ↔ DefinesClass m v p ∧ ¬ LooseLeading m v := by
  refine (magenta_iff _ _ p).trans ?_
  rw [definesClass_iff, classBit_cases, not_looseLeading]
  cases e1 : v.testBit 31 <;> cases e2 : v.testBit 30 <;> cases e3 : v.testBit 29 <;> cases f0 : m.testBit 31 <;>
    cases f1 : m.testBit 30 <;> cases f2 : m.testBit 29 <;> cases f3 : m.testBit 28 <;> simp <;> omega

/-- In the network line the bits coloured as class bits are among those that define the class of the label; every other bit
is coloured by the mask. -/
theorem C68_class_colors_sound (rt : Runtime) (hc : rt.colorsEnabled = true) (n : Net V4) :
    ∃ col : Nat → Color, cells (outputBinaryIpv4Address rt n.baseAddr (some n.subnetMask) true none).out =
        grouped 32 8 (some .white, '.') (fun p => (some (col p), bitChar (val n.baseAddr) p)) ∧
      ∀ p, (col p = .magenta → DefinesClass (val n.subnetMask) (val n.baseAddr) p) ∧
        (col p ≠ .magenta → col p = maskColor (val n.subnetMask) p) := by
  obtain ⟨evs, h1, -, h2⟩ := binary4_eq hc n.baseAddr (some n.subnetMask) true none
  exact ⟨_, by rw [h1]; exact h2, fun p => ⟨magenta_sound _ _ p, not_magenta _ _ p⟩⟩

/-- The full claim: the bits coloured as class bits are exactly those that define the class of the label.  It is false in general
(`C68_counterexample`).  For every network, a bit is coloured as a class bit exactly if it defines the class and no one among
the first bits of the address is followed by a host bit. -/
theorem C68_class_colors_partial (rt : Runtime) (hc : rt.colorsEnabled = true) (n : Net V4) :
    ∃ col : Nat → Color, cells (outputBinaryIpv4Address rt n.baseAddr (some n.subnetMask) true none).out =
        grouped 32 8 (some .white, '.') (fun p => (some (col p), bitChar (val n.baseAddr) p)) ∧
      ∀ p, (col p = .magenta ↔ DefinesClass (val n.subnetMask) (val n.baseAddr) p ∧ ¬ LooseLeading (val n.subnetMask) (val n.baseAddr)) ∧
        (col p ≠ .magenta → col p = maskColor (val n.subnetMask) p) := by
  obtain ⟨evs, h1, -, h2⟩ := binary4_eq hc n.baseAddr (some n.subnetMask) true none
  exact ⟨_, by rw [h1]; exact h2, fun p => ⟨magenta_exact _ _ p, not_magenta _ _ p⟩⟩

theorem isClassLabel_nil (m v : Nat) : IsClassLabel m v [] ↔ ∀ p, ¬ DefinesClass m v p := by
  have h0 : ∀ e ∈ classTable, ([] : Str) ≠ e.1 := by decide
  have h1 : ∀ e ∈ classTable, 32 - e.2.length ≤ 31 := by decide
  constructor
  · rintro h p ⟨e, he, hf, -⟩
    exact h0 e he ((h.1 e he).mpr hf)
  · intro h
    have hn : ∀ e ∈ classTable, ¬ FixesLeading m v e.2 := fun e he hf => h 31 ⟨e, he, hf, h1 e he, by omega⟩
    exact ⟨fun e he => ⟨fun h => (h0 e he h).elim, fun h => (hn e he h).elim⟩, ⟨fun _ => hn, fun _ => rfl⟩, .inl rfl⟩

/-- The claim holds of exactly the networks that have no class or no such bit: in particular of all networks whose mask fixes
the first four bits. -/
theorem C68_exactly_when (rt : Runtime) (hc : rt.colorsEnabled = true) (n : Net V4) :
    (∃ col : Nat → Color, cells (outputBinaryIpv4Address rt n.baseAddr (some n.subnetMask) true none).out =
        grouped 32 8 (some .white, '.') (fun p => (some (col p), bitChar (val n.baseAddr) p)) ∧
      ∀ p, p < 32 → (col p = .magenta ↔ DefinesClass (val n.subnetMask) (val n.baseAddr) p)) ↔
    IsClassLabel (val n.subnetMask) (val n.baseAddr) [] ∨ ¬ LooseLeading (val n.subnetMask) (val n.baseAddr) := by
  obtain ⟨evs, h1, -, h2⟩ := binary4_eq hc n.baseAddr (some n.subnetMask) true none
  rw [h1, h2]
  constructor
  · rintro ⟨col, h3, h4⟩
    have h5 : columnColor4 (val n.baseAddr) (some (val n.subnetMask)) true none 31 = col 31 := by
      have := congrArg List.head? h3
      exact Option.some.inj (Prod.mk.inj (Option.some.inj this)).1
    rw [isClassLabel_nil]
    by_cases hl : LooseLeading (val n.subnetMask) (val n.baseAddr)
    · refine .inl fun p hp => ?_
      have h31 : DefinesClass (val n.subnetMask) (val n.baseAddr) 31 := by
        obtain ⟨e, he, hf, -, -⟩ := hp
        have hlen : ∀ e ∈ classTable, 32 - e.2.length ≤ 31 := by decide
        exact ⟨e, he, hf, hlen e he, by omega⟩
      exact ((magenta_exact _ _ 31).mp (h5.trans ((h4 31 (by omega)).mpr h31))).2 hl
    · exact .inr hl
  · intro h
    refine ⟨_, rfl, fun p _ => (magenta_exact _ _ p).trans ⟨fun h' => h'.1, fun h' => ⟨h', ?_⟩⟩⟩
    rcases h with h | h
    · exact ((isClassLabel_nil _ _).mp h p h').elim
    · exact h

/-- `64.0.0.0/2` is labelled as class A, which its first bit defines, but no bit is coloured as a class bit. -/
theorem C68_counterexample (rt : Runtime) (hc : rt.colorsEnabled = true) : ∃ n : Net V4,
    parseNetspec "64.0.0.0/2".toList = .ok (.ok (.ipv4 n.baseAddr n)) ∧
    IsClassLabel (val n.subnetMask) (val n.baseAddr) "Class A".toList ∧
    DefinesClass (val n.subnetMask) (val n.baseAddr) 31 ∧
    ∀ c ∈ cells (outputBinaryIpv4Address rt n.baseAddr (some n.subnetMask) true none).out, c.1 ≠ some .magenta := by
  refine ⟨⟨⟨0x40000000#32⟩, ⟨0xC0000000#32⟩, some 2⟩, by decide +kernel, ?_, ?_, ?_⟩
  · have h := labelOf_spec (val (⟨0xC0000000#32⟩ : V4)) (val (⟨0x40000000#32⟩ : V4))
    rwa [show labelOf _ _ _ _ _ _ _ _ = "Class A".toList by decide +kernel] at h
  · rw [definesClass_iff]; exact .inl (by decide +kernel)
  · intro c hcm
    obtain ⟨evs, h1, -, h2⟩ := binary4_eq hc ⟨0x40000000#32⟩ (some ⟨0xC0000000#32⟩) true none
    rw [h1, h2] at hcm
    revert c
    decide +kernel

/-- Of the networks with a class, `64.0.0.0/2` has such a bit and `192.0.2.0/24` and `0.0.0.0/1` have none. -/
example : LooseLeading 0xC0000000 0x40000000 ∧ ¬ LooseLeading 0xFFFFFF00 0xC0000200 ∧ ¬ LooseLeading 0x80000000 0 := by
  refine ⟨⟨30, by decide⟩, ?_, ?_⟩ <;> rw [not_looseLeading] <;> decide

/-! ## C69: the colours of the display -/

theorem paints_class {rt : Runtime} (hc : rt.colorsEnabled = true) (v m : Nat) :
    Paints (outputIpv4Class rt (byteText 32 v 0) (byteText 32 m 0)) ()
      (paint .magenta (labelOf (v.testBit 31) (v.testBit 30) (v.testBit 29) (v.testBit 28)
        (m.testBit 31) (m.testBit 30) (m.testBit 29) (m.testBit 28))) := by
  have hw : ∀ t : Str, Paints (writeInColor rt t (some classBitsColor) 0) () (paint .magenta t) := fun t =>
    .of_eq (paints_write hc _ _ _) (by rw [padText_zero]; rfl)
  have hb : ∀ x : Nat, byteText 32 x 0 = bitChar x 31 :: bitChar x 30 :: bitChar x 29 :: bitChar x 28 ::
    [bitChar x 27, bitChar x 26, bitChar x 25, bitChar x 24] := fun x => rfl
  have h1 : ∀ x p, ('1' == bitChar x p) = x.testBit p := by intro x p; rw [bitChar]; split <;> simp_all
  have h0 : ∀ x p, ('0' == bitChar x p) = !x.testBit p := by intro x p; rw [bitChar]; split <;> simp_all
  rw [hb, hb, outputIpv4Class, labelOf]
  simp only [startsWith, List.isPrefixOf_cons_cons, List.isPrefixOf_nil_left, h1, h0, Bool.and_true]
  generalize v.testBit 31 = v0
  generalize v.testBit 30 = v1
  generalize v.testBit 29 = v2
  generalize v.testBit 28 = v3
  generalize m.testBit 31 = m0
  generalize m.testBit 30 = m1
  generalize m.testBit 29 = m2
  generalize m.testBit 28 = m3
  cases v0 <;> cases v1 <;> cases v2 <;> cases v3 <;> cases m0 <;> cases m1 <;> cases m2 <;> cases m3 <;>
    first | exact hw _ | exact paints_pure _

/-- The display of an IPv4 network with all its colours.  In the network line the class bits may be magenta, as far as they
define the class of the label. -/
theorem C69_display_v4 (rt : Runtime) (hc : rt.colorsEnabled = true) (n : Net V4) (hn : WF n) (addr : Option V4) :
    ∃ (b : BlockText V4) (col : Nat → Color), b.Describes n addr ∧ IsClassLabel (val n.subnetMask) (val n.baseAddr) b.cls ∧
      (∀ p, (col p = .magenta ↔ DefinesClass (val n.subnetMask) (val n.baseAddr) p ∧ ¬ LooseLeading (val n.subnetMask) (val n.baseAddr)) ∧
        (col p ≠ .magenta → col p = maskColor (val n.subnetMask) p)) ∧
      (outputIpv4Network rt n addr).res = .ok () ∧
      cells (outputIpv4Network rt n addr).out = b.cells 21 IpAddr.display (fun a => binaryCells 32 8 '.' (val a))
        (maskColor (val n.subnetMask)) col := by
  obtain ⟨hosts, bc, hd, h1, h2, h3⟩ := exists_block rt.profile n hn addr (labelOf ((val n.baseAddr).testBit 31)
    ((val n.baseAddr).testBit 30) ((val n.baseAddr).testBit 29) ((val n.baseAddr).testBit 28) ((val n.subnetMask).testBit 31)
    ((val n.subnetMask).testBit 30) ((val n.subnetMask).testBit 29) ((val n.subnetMask).testBit 28))
  obtain ⟨evs, e1, -, e2⟩ := binary4_eq hc n.baseAddr (some n.subnetMask) true none
  have hok : ∀ a m cc ov, (outputBinaryIpv4Address rt a m cc ov).res = .ok () := fun a m cc ov => (shows_binary4 hc a m cc ov).1
  have hb : PaintsBinary (outputBinaryIpv4Address rt) (fun a => binaryCells 32 8 '.' (val a)) n (maskColor (val n.subnetMask))
      (columnColor4 (val n.baseAddr) (some (val n.subnetMask)) true none) := by
    refine ⟨fun a => ⟨hok _ _ _ _, (C67_mask_colors rt hc).1 a _⟩, ⟨hok _ _ _ _, by rw [e1]; exact e2⟩, fun a => ⟨hok _ _ _ _, ?_⟩,
      fun a => ⟨hok _ _ _ _, (C67_override rt hc .red).1 a _ _⟩⟩
    obtain ⟨evs, e1, -, e2⟩ := binary4_eq hc a none false none
    rw [e1, e2]
    rfl
  have h := paints_network hc 21 _ (outputIpv4Class rt) _ n _ _ hb addr _
    (by rw [topBits_eq, topBits_eq]; exact paints_class hc _ _) h1 h2 h3
  exact ⟨_, _, hd, labelOf_spec _ _, fun p => ⟨magenta_exact _ _ p, not_magenta _ _ p⟩, h.1, h.2⟩

/-- The display of an IPv6 network with all its colours. -/
theorem C69_display_v6 (rt : Runtime) (hc : rt.colorsEnabled = true) (n : Net V6) (hn : WF n) (addr : Option V6) :
    ∃ b : BlockText V6, b.Describes n addr ∧ b.cls = [] ∧ (outputIpv6Network rt n addr).res = .ok () ∧
      cells (outputIpv6Network rt n addr).out = b.cells 46 IpAddr.display (fun a => binaryCells 128 16 ':' (val a))
        (maskColor (val n.subnetMask)) (maskColor (val n.subnetMask)) := by
  obtain ⟨hosts, bc, hd, h1, h2, h3⟩ := exists_block rt.profile n hn addr []
  have hok : ∀ a m cc ov, (outputBinaryIpv6Address rt a m cc ov).res = .ok () := fun a m cc ov => (shows_binary6 hc a m cc ov).1
  have hb : PaintsBinary (outputBinaryIpv6Address rt) (fun a => binaryCells 128 16 ':' (val a)) n (maskColor (val n.subnetMask))
      (maskColor (val n.subnetMask)) := by
    refine ⟨fun a => ⟨hok _ _ _ _, (C67_mask_colors rt hc).2 a _ _⟩, ⟨hok _ _ _ _, (C67_mask_colors rt hc).2 _ _ _⟩,
      fun a => ⟨hok _ _ _ _, ?_⟩, fun a => ⟨hok _ _ _ _, (C67_override rt hc .red).2 a _ _⟩⟩
    obtain ⟨evs, e1, -, e2⟩ := binary6_eq hc a none false none
    rw [e1, e2]
    rfl
  have h := paints_network hc 46 _ (fun _ _ => pure ()) _ n _ _ hb addr [] (paints_pure ()) h1 h2 h3
  exact ⟨_, hd, rfl, h.1, h.2⟩

/-- The colours of a concrete network line: three class bits, then network bits, then host bits. -/
example : (cells (outputIpv4Network (evalRuntime .checked true) (mk4 0xC0000200 0xFFFFFF00) none).out).take 50 =
    paint .white "Network:   ".toList ++ paint .blue "192.0.2.0/24         ".toList ++
      (paint .magenta "110".toList ++ paint .green "00000".toList ++ paint .white ['.'] ++ paint .green "00000000".toList ++
        paint .white ['.']) := by decide +kernel

example : DefinesClass 0xFFFFFF00 0xC0000200 29 ∧ ¬ DefinesClass 0xFFFFFF00 0xC0000200 28 := by
  rw [definesClass_iff, definesClass_iff]; decide +kernel

end Ripcalc
