import Verif.Spec.Characters
import Verif.Props.Program
import Verif.Props.Usage
/-!
# C113: the characters of arguments
-/
namespace Ripcalc

/-! ## Numbers and addresses -/

theorem plus_madeOf {s : Str} {v : Nat} (h : PlusNumeral 10 s v) : MadeOf "0123456789+" s := by
  have key : ∀ {t}, DigitText t → MadeOf "0123456789+" t := fun ht c hc => by
    have := ht.2 c hc
    revert this
    simp only [List.mem_cons, List.not_mem_nil]
    rintro (rfl | rfl | rfl | rfl | rfl | rfl | rfl | rfl | rfl | rfl | h) <;> first | decide | cases h
  rcases h with h | ⟨t, rfl, h⟩
  · exact key (numeral_digitText h)
  · intro c hc
    rcases List.mem_cons.mp hc with rfl | hc
    · decide
    · exact key (numeral_digitText h) c hc

theorem mem_of_subset {cs ds : String} (h : ∀ c ∈ cs.toList, c ∈ ds.toList) {s : Str} (hs : MadeOf cs s) : MadeOf ds s :=
  fun c hc => h c (hs c hc)

theorem v4Reading_madeOf {s : Str} {a : V4} (h : V4Reading s a) : MadeOf "0123456789.+" s := by
  obtain ⟨t0, t1, t2, t3, v0, v1, v2, v3, rfl, h0, h1, h2, h3, -⟩ := h
  have key : ∀ {t v}, PlusNumeral 10 t v → MadeOf "0123456789.+" t := fun ht => mem_of_subset (by decide) (plus_madeOf ht)
  intro c hc
  simp only [List.mem_append, List.mem_cons] at hc
  rcases hc with ((hc | rfl | hc) | rfl | hc) | rfl | hc
  · exact key h0.1 c hc
  · decide
  · exact key h1.1 c hc
  · decide
  · exact key h2.1 c hc
  · decide
  · exact key h3.1 c hc

theorem hex_plus_madeOf {s : Str} {v : Nat} (h : PlusNumeral 16 s v) : MadeOf "0123456789abcdefABCDEF:+" s := by
  have hl : ∀ c ∈ lowerDigits, c ∈ "0123456789abcdefABCDEF:+".toList := by decide
  have hu : ∀ c ∈ upperDigits, c ∈ "0123456789abcdefABCDEF:+".toList := by decide
  intro c hc
  rcases h.chars.2 c hc with rfl | h | h
  · decide
  · exact hl c h
  · exact hu c h

theorem v6Reading_madeOf {s : Str} {a : V6} (h : V6Reading s a) : MadeOf "0123456789abcdefABCDEF:+" s := by
  have hg : ∀ {gs : List Str} {vs : List Nat}, Pointwise Group gs vs → ∀ g ∈ gs, MadeOf "0123456789abcdefABCDEF:+" g := by
    intro gs vs hp g hgm
    obtain ⟨v, -, hv⟩ := hp.mem_left g hgm
    exact hex_plus_madeOf hv.1
  intro c hk
  have hk := mem_completeColons hk
  rcases h with ⟨gs, e, -, hp⟩ | ⟨pre, post, vs, ws, e, -, hp, hq, -⟩
  · rw [e] at hk
    rcases mem_intercalate_colon hk with rfl | ⟨g, hgm, h⟩
    · decide
    · exact hg hp g hgm c h
  · rw [e] at hk
    rcases mem_intercalate_colon hk with rfl | ⟨g, hgm, h⟩
    · decide
    · rcases List.mem_append.mp hgm with hgm | hgm
      · rcases List.mem_append.mp hgm with hgm | hgm
        · exact hg hp g hgm c h
        · rw [List.mem_singleton.mp hgm] at h; cases h
      · exact hg hq g hgm c h

/-! ## Networks -/

theorem digitText_madeOf {s : Str} (h : DigitText s) : MadeOf "0123456789" s := h.2

theorem quadText_madeOf {s : Str} (h : QuadText s) : MadeOf "0123456789./-" s := by
  intro c hc
  by_cases h1 : c = '.'
  · subst h1; decide
  · by_cases h2 : c ∈ ['0', '1', '2', '3', '4', '5', '6', '7', '8', '9']
    · have key : ∀ c ∈ ['0', '1', '2', '3', '4', '5', '6', '7', '8', '9'], c ∈ "0123456789./-".toList := by decide
      exact key c h2
    · exact absurd hc (h.not_mem ⟨h2, h1⟩)

theorem hexColonText_madeOf {s : Str} (h : HexColonText s) : MadeOf "0123456789abcdef:/-" s := by
  have key : ∀ c ∈ ':' :: lowerDigits, c ∈ "0123456789abcdef:/-".toList := by decide
  exact fun c hc => key c (h.2 c hc)

theorem specText_madeOf {cs : String} {t l : Str} {w : Bool} (ht : MadeOf cs t) (hl : MadeOf cs l) (h1 : '/' ∈ cs.toList)
    (h2 : '-' ∈ cs.toList) : MadeOf cs (specText t w l) := by
  intro c hc
  rw [specText, List.mem_append, List.mem_cons, List.mem_append] at hc
  rcases hc with hc | rfl | hc | hc
  · exact ht c hc
  · exact h1
  · cases w
    · cases hc
    · rw [if_pos rfl, List.mem_singleton] at hc
      exact hc ▸ h2
  · exact hl c hc

theorem v4Network_madeOf {s : Str} (h : IsV4Network s) : MadeOf "0123456789./-" s := by
  obtain ⟨a, n, t, w, l, rfl, ht, -, h⟩ := h
  refine specText_madeOf (quadText_madeOf ht) ?_ (by decide) (by decide)
  rcases h with ⟨m, hl, -⟩ | ⟨p, hl, -⟩
  · exact quadText_madeOf hl
  · exact mem_of_subset (by decide) (digitText_madeOf (numeral_digitText hl))

theorem v6Network_madeOf {s : Str} (h : IsV6Network s) : MadeOf "0123456789abcdef:/-" s := by
  obtain ⟨a, n, t, w, l, rfl, ht, -, h⟩ := h
  refine specText_madeOf (hexColonText_madeOf ht) ?_ (by decide) (by decide)
  rcases h with ⟨m, hl, -⟩ | ⟨p, hl, -⟩
  · exact hexColonText_madeOf hl
  · exact mem_of_subset (by decide) (digitText_madeOf (numeral_digitText hl))

theorem v4Mask_madeOf {s : Str} {m : V4} (h : V4MaskText s m) : MadeOf "0123456789.+" s := by
  rcases h with ⟨-, ⟨-, h⟩ | ⟨-, p, h, -⟩⟩
  · exact v4Reading_madeOf h
  · exact mem_of_subset (by decide) (plus_madeOf h)

theorem v6Mask_madeOf {s : Str} {m : V6} (h : V6MaskText s m) : MadeOf "0123456789abcdefABCDEF:+" s := by
  rcases h with ⟨-, h⟩ | ⟨-, -, p, h, -⟩
  · exact v6Reading_madeOf h
  · exact mem_of_subset (by decide) (plus_madeOf h)

theorem count_madeOf {s : Str} {c : Int} (h : CountText s c) : MadeOf "0123456789_+-" s := by
  have key : ∀ {t v}, SeparatedNumeral t v → MadeOf "0123456789_+-" t := by
    rintro t v ⟨-, h⟩ c hc
    by_cases h1 : c = '_'
    · subst h1; decide
    · exact mem_of_subset (by decide) (digitText_madeOf (numeral_digitText h)) c (List.mem_filter.mpr ⟨hc, by simpa using h1⟩)
  have cons : ∀ {t : Str} {d : Char}, d ∈ "0123456789_+-".toList → MadeOf "0123456789_+-" t → MadeOf "0123456789_+-" (d :: t) := by
    intro t d hd ht c hc
    rcases List.mem_cons.mp hc with rfl | hc
    · exact hd
    · exact ht c hc
  rcases h with ⟨v, -, h | ⟨t, rfl, h⟩⟩ | ⟨v, -, t, rfl, h⟩
  · exact key h
  · exact cons (by decide) (key h)
  · exact cons (by decide) (key h)

/-! ## C113 -/

theorem alphabet_of {P : Str → Prop} {cs : String} (h : ∀ s, P s → MadeOf cs s) (ws : List String) (hw : ∀ s ∈ ws, P s.toList)
    (hall : ∀ c ∈ cs.toList, ∃ s ∈ ws, c ∈ s.toList) : Alphabet P cs := by
  intro c
  constructor
  · rintro ⟨s, hs, hc⟩
    exact h s hs c hc
  · intro hc
    obtain ⟨s, hs, hc⟩ := hall c hc
    exact ⟨_, hw s hs, hc⟩

/-- Exactly these characters occur in networks. -/
theorem C113_networks : Alphabet IsV4Network "0123456789./-" ∧ Alphabet IsV6Network "0123456789abcdef:/-" := by
  refine ⟨alphabet_of (fun s h => v4Network_madeOf h) ["12.34.56.78/-09"] ?_ (by decide),
    alphabet_of (fun s h => v6Network_madeOf h) ["123:4567:89ab:cdef::/-10"] ?_ (by decide)⟩
  · simp only [List.mem_singleton, forall_eq]
    refine (isV4Network_iff _).mp ⟨⟨0x0c22384e#32⟩, Net.newWithMask ⟨0x0c22384e#32⟩ ⟨0xfffffe00#32⟩, ?_⟩
    decide +kernel
  · simp only [List.mem_singleton, forall_eq]
    refine (isV6Network_iff _).mp ⟨⟨0x0123456789abcdef#64, 0#64⟩,
      Net.newWithMask ⟨0x0123456789abcdef#64, 0#64⟩ ⟨0xffffffffffffffff#64, 0xfffffffffffffc00#64⟩, ?_⟩
    decide +kernel

/-- Exactly these characters occur in addresses. -/
theorem C113_addresses : Alphabet IsV4Address "0123456789.+" ∧ Alphabet IsV6Address "0123456789abcdefABCDEF:+" := by
  refine ⟨alphabet_of (fun s h => v4Reading_madeOf h.2.2.choose_spec) ["163.204.75.+89"] ?_ (by decide),
    alphabet_of (fun s h => v6Reading_madeOf h.2.2.choose_spec) ["0123:4567:89ab:cdef:AB:CDEF:+0:1"] ?_ (by decide)⟩
  · simp only [List.mem_singleton, forall_eq]
    obtain ⟨h1, h2, h3⟩ := ((C36_parse_addr "163.204.75.+89".toList).2.1 ⟨0xa3cc4b59#32⟩).mp (by decide +kernel)
    exact ⟨h1, h2, _, h3⟩
  · simp only [List.mem_singleton, forall_eq]
    obtain ⟨h1, h2, h3⟩ := ((C36_parse_addr "0123:4567:89ab:cdef:AB:CDEF:+0:1".toList).2.2.1
      ⟨0x0123456789abcdef#64, 0x00abcdef00000001#64⟩).mp (by decide +kernel)
    exact ⟨h1, h2, _, h3⟩

/-- Exactly these characters occur in what a network is resized to. -/
theorem C113_masks : Alphabet (fun s => ∃ m, V4MaskText s m) "0123456789.+" ∧
    Alphabet (fun s => ∃ m, V6MaskText s m) "0123456789abcdefABCDEF:+" := by
  refine ⟨alphabet_of (fun s h => v4Mask_madeOf h.choose_spec) ["163.204.75.+89"] ?_ (by decide),
    alphabet_of (fun s h => v6Mask_madeOf h.choose_spec) ["0123:4567:89ab:cdef:AB:CDEF:+0:1"] ?_ (by decide)⟩
  · simp only [List.mem_singleton, forall_eq]
    obtain ⟨h1, h2, h3⟩ := ((C36_parse_addr "163.204.75.+89".toList).2.1 ⟨0xa3cc4b59#32⟩).mp (by decide +kernel)
    exact ⟨_, h2, .inl ⟨h1, h3⟩⟩
  · simp only [List.mem_singleton, forall_eq]
    obtain ⟨h1, h2, h3⟩ := ((C36_parse_addr "0123:4567:89ab:cdef:AB:CDEF:+0:1".toList).2.2.1
      ⟨0x0123456789abcdef#64, 0x00abcdef00000001#64⟩).mp (by decide +kernel)
    exact ⟨_, .inl ⟨h1, h3⟩⟩

/-- Exactly these characters occur in numbers of hosts that can be used. -/
theorem C113_counts : Alphabet GoodCount "0123456789_+-" := by
  refine alphabet_of (fun s h => count_madeOf h.choose_spec.1) ["+12_34567890", "-0"] ?_ (by decide)
  intro s hs
  simp only [List.mem_cons, List.not_mem_nil, or_false] at hs
  rcases hs with rfl | rfl
  · exact ⟨1234567890, (C79_count _ _).mp (by decide +kernel), by decide⟩
  · exact ⟨0, (C79_count _ _).mp (by decide +kernel), by decide⟩

/-- A run has an outcome with the same messages as in the description of the program. -/
theorem described_messages (rt : Runtime) (args : List Str) :
    ∃ r, Program rt.profile args r ∧ r.messages = messages (doMain rt args).out := by
  refine ⟨_, (C100_program rt.profile args _).mpr ⟨rt.withColors true, rfl, rfl, rfl⟩, ?_⟩
  change messages (doMain (rt.withColors true) args).out = _
  cases h : rt.colorsEnabled with
  | true => rw [show rt.withColors true = rt by rw [Runtime.withColors, ← h]]
  | false => rw [← (C61_uncolored_partial rt args).2.1, show rt.withColors false = rt by rw [Runtime.withColors, ← h]]

/-- A network, of either family. -/
theorem network_madeOf {s : Str} (h : IsV4Network s ∨ IsV6Network s) :
    MadeOf "0123456789./-" s ∨ MadeOf "0123456789abcdef:/-" s := h.imp v4Network_madeOf v6Network_madeOf

/-- A run without a message is the colour test or has arguments that consist of the characters of networks, addresses, masks and
numbers of hosts, each in its place. -/
theorem C113_accepted (rt : Runtime) (prog mode : Str) (rest : List Str) (h : messages (doMain rt (prog :: mode :: rest)).out = []) :
    mode = "--color-test".toList ∨
    (mode ∈ ["-m", "--minimize"].map String.toList ∧
      ((∀ s ∈ rest, MadeOf "0123456789./-" s) ∨ (∀ s ∈ rest, MadeOf "0123456789abcdef:/-" s))) ∨
    (mode ∈ ["-d", "--derange"].map String.toList ∧
      ((∀ s ∈ rest, MadeOf "0123456789.+" s) ∨ (∀ s ∈ rest, MadeOf "0123456789abcdefABCDEF:+" s))) ∨
    (mode ∈ ["-r", "--resize"].map String.toList ∧
      ∃ s k, rest = [s, k] ∧ ((MadeOf "0123456789./-" s ∧ MadeOf "0123456789.+" k) ∨
        (MadeOf "0123456789abcdef:/-" s ∧ MadeOf "0123456789abcdefABCDEF:+" k))) ∨
    (mode ∈ ["-s", "--split"].map String.toList ∧
      ∃ s counts, rest = s :: counts ∧ (MadeOf "0123456789./-" s ∨ MadeOf "0123456789abcdef:/-" s) ∧
        ∀ k ∈ counts, MadeOf "0123456789_+-" k) ∨
    (mode ∈ ["-e", "--enumerate"].map String.toList ∧ ∀ s ∈ rest, MadeOf "0123456789./-" s ∨ MadeOf "0123456789abcdef:/-" s) ∨
    (mode ∉ modeWords ∧ ∀ s ∈ mode :: rest, MadeOf "0123456789./-" s ∨ MadeOf "0123456789abcdef:/-" s) := by
  obtain ⟨r, ⟨T, -, hr⟩, hm⟩ := described_messages rt (prog :: mode :: rest)
  rw [h] at hm
  have hne : ∀ m, r ≠ .complaint m := by rintro m rfl; cases hm
  cases hr with
  | none h => exact absurd h (by simp only [List.length_cons]; omega)
  | help => cases hm
  | colours => exact .inl rfl
  | minimize h1 h2 =>
    refine .inr (.inl ⟨h1, ?_⟩)
    rcases h2 with ⟨m, -, h2⟩ | ⟨-, ns, out, h2, -⟩ | ⟨-, ns, out, h2, -⟩
    · exact absurd h2 (hne m)
    · refine .inl fun s hs => ?_
      obtain ⟨n, -, a, hn⟩ := h2.mem_left s hs
      exact v4Network_madeOf ⟨a, n, hn⟩
    · refine .inr fun s hs => ?_
      obtain ⟨n, -, a, hn⟩ := h2.mem_left s hs
      exact v6Network_madeOf ⟨a, n, hn⟩
  | derange h1 h2 =>
    refine .inr (.inr (.inl ⟨h1, ?_⟩))
    rcases h2 with ⟨m, -, h2⟩ | ⟨u, v, a, b, rfl, hu, hv, -⟩ | ⟨u, v, a, b, rfl, hu, hv, -⟩
    · exact absurd h2 (hne m)
    · refine .inl fun s hs => ?_
      simp only [List.mem_cons, List.not_mem_nil, or_false] at hs
      rcases hs with rfl | rfl
      · exact v4Reading_madeOf hu.2.2
      · exact v4Reading_madeOf hv.2.2
    · refine .inr fun s hs => ?_
      simp only [List.mem_cons, List.not_mem_nil, or_false] at hs
      rcases hs with rfl | rfl
      · exact v6Reading_madeOf hu.2.2
      · exact v6Reading_madeOf hv.2.2
  | resize h1 h2 =>
    refine .inr (.inr (.inr (.inl ⟨h1, ?_⟩)))
    rcases h2 with ⟨m, -, h2⟩ | ⟨s, k, a, n, m, ns, t, ts, rfl, hn, hk, -⟩ | ⟨s, k, a, n, m, ns, t, ts, rfl, hn, hk, -⟩
    · exact absurd h2 (hne m)
    · exact ⟨s, k, rfl, .inl ⟨v4Network_madeOf ⟨a, n, hn⟩, v4Mask_madeOf hk⟩⟩
    · exact ⟨s, k, rfl, .inr ⟨v6Network_madeOf ⟨a, n, hn⟩, v6Mask_madeOf hk⟩⟩
  | split h1 h2 =>
    refine .inr (.inr (.inr (.inr (.inl ⟨h1, ?_⟩))))
    have key : ∀ {counts : List Str} {hcs : List Int}, Pointwise (fun s c => CountText s c ∧ 0 ≤ c) counts hcs →
        ∀ k ∈ counts, MadeOf "0123456789_+-" k := by
      intro counts hcs hp k hk
      obtain ⟨c, -, hc, -⟩ := hp.mem_left k hk
      exact count_madeOf hc
    rcases h2 with ⟨m, -, h2⟩ | ⟨s, counts, hcs, a, n, rfl, -, hc, hn, -⟩ | ⟨s, counts, hcs, a, n, rfl, -, hc, hn, -⟩
    · exact absurd h2 (hne m)
    · exact ⟨s, counts, rfl, .inl (v4Network_madeOf ⟨a, n, hn⟩), key hc⟩
    · exact ⟨s, counts, rfl, .inr (v6Network_madeOf ⟨a, n, hn⟩), key hc⟩
  | enumerate h1 h2 h3 h4 =>
    refine .inr (.inr (.inr (.inr (.inr (.inl ⟨h1, ?_⟩)))))
    change _ = [] at hm
    subst hm
    clear h2 h4 h1 hne h
    generalize hl : ([] : List ErrMsg) = ms at h3
    induction h3 with
    | nil => exact fun s hs => by cases hs
    | good hg _ ih =>
      intro s hs
      rcases List.mem_cons.mp hs with rfl | hs
      · exact network_madeOf hg
      · exact ih hl s hs
    | bad => cases hl
  | enumerateNone => exact absurd rfl (hne _)
  | showBad => exact absurd rfl (hne _)
  | shows h1 h2 =>
    refine .inr (.inr (.inr (.inr (.inr (.inr ⟨h1, fun s hs => ?_⟩)))))
    obtain ⟨t, -, ⟨a, n, hn, -⟩ | ⟨a, n, hn, -⟩⟩ := h2.mem_left s hs
    · exact .inl (v4Network_madeOf ⟨a, n, hn⟩)
    · exact .inr (v6Network_madeOf ⟨a, n, hn⟩)

/-- So an argument with any other character, a space for instance or a digit of another script, brings a message, unless the colours
are tested. -/
theorem C113_foreign (rt : Runtime) (prog mode : Str) (rest : List Str) (hm : mode ≠ "--color-test".toList) (s : Str) (hs : s ∈ rest)
    (c : Char) (hc : c ∈ s) (hf : c ∉ "0123456789abcdefABCDEF.:/+-_".toList) : messages (doMain rt (prog :: mode :: rest)).out ≠ [] := by
  intro h
  have key : ∀ cs : String, (∀ c ∈ cs.toList, c ∈ "0123456789abcdefABCDEF.:/+-_".toList) → ¬ MadeOf cs s := fun cs hcs h => hf (hcs c (h c hc))
  have n4 := key "0123456789./-" (by decide)
  have n6 := key "0123456789abcdef:/-" (by decide)
  have a4 := key "0123456789.+" (by decide)
  have a6 := key "0123456789abcdefABCDEF:+" (by decide)
  have k := key "0123456789_+-" (by decide)
  rcases C113_accepted rt prog mode rest h with h | ⟨-, h | h⟩ | ⟨-, h | h⟩ | ⟨-, t, l, rfl, h'⟩ | ⟨-, t, l, rfl, h1, h2⟩ | ⟨-, h⟩ | ⟨-, h⟩
  · exact hm h
  · exact n4 (h s hs)
  · exact n6 (h s hs)
  · exact a4 (h s hs)
  · exact a6 (h s hs)
  · simp only [List.mem_cons, List.not_mem_nil, or_false] at hs
    rcases hs with rfl | rfl
    · exact h'.elim (fun h => n4 h.1) (fun h => n6 h.1)
    · exact h'.elim (fun h => a4 h.2) (fun h => a6 h.2)
  · rcases List.mem_cons.mp hs with rfl | hs
    · exact h1.elim n4 n6
    · exact k (h2 s hs)
  · exact (h s hs).elim n4 n6
  · exact (h s (List.mem_cons_of_mem _ hs)).elim n4 n6

/-- A space after the prefix length. -/
example (rt : Runtime) : messages (doMain rt ["ripcalc".toList, "-m".toList, "192.0.2.0/24 ".toList]).out ≠ [] :=
  C113_foreign rt _ _ _ (by decide) _ List.mem_cons_self ' ' (by decide) (by decide)

end Ripcalc
