import Verif.Spec.Alike
import Verif.Props.Together
/-!
# The program works with what its arguments say

Other texts for the same networks, addresses, masks and numbers give the same run: the same on both streams, and the same end.
-/
namespace Ripcalc
open AddrSpec LawfulIpAddr

/-! ## The parsers -/

theorem SameSpec.parse {s s' : Str} (h : SameSpec s s') : parseNetspec s = parseNetspec s' := by
  rcases h with rfl | ⟨a, n, h1, h2⟩ | ⟨a, n, h1, h2⟩
  · rfl
  · rw [(v4Network_iff s a n).mpr h1, (v4Network_iff s' a n).mpr h2]
  · rw [(v6Network_iff s a n).mpr h1, (v6Network_iff s' a n).mpr h2]

theorem SameNetwork.parse {s s' : Str} (h : SameNetwork s s') :
    s = s' ∨ (∃ a a' n, parseNetspec s = .ok (.ok (.ipv4 a n)) ∧ parseNetspec s' = .ok (.ok (.ipv4 a' n))) ∨
      (∃ a a' n, parseNetspec s = .ok (.ok (.ipv6 a n)) ∧ parseNetspec s' = .ok (.ok (.ipv6 a' n))) := by
  simpa only [SameNetwork, ← v4Network_iff, ← v6Network_iff] using h

theorem SameSpec.network {s s' : Str} (h : SameSpec s s') : SameNetwork s s' := by
  rcases h with h | ⟨a, n, h⟩ | ⟨a, n, h⟩
  · exact .inl h
  · exact .inr (.inl ⟨a, a, n, h⟩)
  · exact .inr (.inr ⟨a, a, n, h⟩)

theorem SameAddress.parse {s s' : Str} (h : SameAddress s s') : parseAddr s = parseAddr s' := by
  rcases h with rfl | ⟨a, h1, h2⟩ | ⟨a, h1, h2⟩
  · rfl
  · rw [((C36_parse_addr s).2.1 a).mpr h1, ((C36_parse_addr s').2.1 a).mpr h2]
  · rw [((C36_parse_addr s).2.2.1 a).mpr h1, ((C36_parse_addr s').2.2.1 a).mpr h2]

theorem SameCount.parse {cs cs' : List Str} (h : Pointwise SameCount cs cs') : parseHostCounts cs = parseHostCounts cs' := by
  induction h with
  | nil => rfl
  | @cons s s' cs cs' h _ ih =>
    rcases h with rfl | ⟨c, h1, h2⟩
    · rw [parseHostCounts, parseHostCounts, ih]
    · rw [parseHostCounts, parseHostCounts, ih, (parseBigInt_iff s c).mpr h1, (parseBigInt_iff s' c).mpr h2]

theorem pointwise_length {α β : Type} {R : α → β → Prop} {l : List α} {l' : List β} (h : Pointwise R l l') : l.length = l'.length := by
  induction h with
  | nil => rfl
  | cons _ _ ih => simp [ih]

theorem sameLoop4 {ss ss' : List Str} (h : Pointwise SameNetwork ss ss') :
    ∀ acc acc' : List (V4 × Net V4), acc.map (·.2) = acc'.map (·.2) →
      sameFamilyLoop4 acc ss = sameFamilyLoop4 acc' ss' ∨
      ∃ l l', sameFamilyLoop4 acc ss = .ok (.ok (.ipv4 l)) ∧ sameFamilyLoop4 acc' ss' = .ok (.ok (.ipv4 l')) ∧ l.map (·.2) = l'.map (·.2) := by
  induction h with
  | nil => intro acc acc' he; exact .inr ⟨acc, acc', rfl, rfl, he⟩
  | @cons s s' ss ss' h _ ih =>
    intro acc acc' he
    rw [sameFamilyLoop4, sameFamilyLoop4]
    rcases h.parse with rfl | ⟨a, a', n, h1, h2⟩ | ⟨a, a', n, h1, h2⟩
    · obtain ⟨r, hr⟩ := parseNetspec_total s
      rw [hr, Exec.ok_bind, Exec.ok_bind]
      match r with
      | .error e => exact .inl rfl
      | .ok (.ipv4 a n) => exact ih _ _ (by simp [he])
      | .ok (.ipv6 a n) => exact .inl rfl
    · rw [h1, h2, Exec.ok_bind, Exec.ok_bind]
      exact ih _ _ (by simp [he])
    · rw [h1, h2, Exec.ok_bind, Exec.ok_bind]
      exact .inl rfl

theorem sameLoop6 {ss ss' : List Str} (h : Pointwise SameNetwork ss ss') :
    ∀ acc acc' : List (V6 × Net V6), acc.map (·.2) = acc'.map (·.2) →
      sameFamilyLoop6 acc ss = sameFamilyLoop6 acc' ss' ∨
      ∃ l l', sameFamilyLoop6 acc ss = .ok (.ok (.ipv6 l)) ∧ sameFamilyLoop6 acc' ss' = .ok (.ok (.ipv6 l')) ∧ l.map (·.2) = l'.map (·.2) := by
  induction h with
  | nil => intro acc acc' he; exact .inr ⟨acc, acc', rfl, rfl, he⟩
  | @cons s s' ss ss' h _ ih =>
    intro acc acc' he
    rw [sameFamilyLoop6, sameFamilyLoop6]
    rcases h.parse with rfl | ⟨a, a', n, h1, h2⟩ | ⟨a, a', n, h1, h2⟩
    · obtain ⟨r, hr⟩ := parseNetspec_total s
      rw [hr, Exec.ok_bind, Exec.ok_bind]
      match r with
      | .error e => exact .inl rfl
      | .ok (.ipv6 a n) => exact ih _ _ (by simp [he])
      | .ok (.ipv4 a n) => exact .inl rfl
    · rw [h1, h2, Exec.ok_bind, Exec.ok_bind]
      exact .inl rfl
    · rw [h1, h2, Exec.ok_bind, Exec.ok_bind]
      exact ih _ _ (by simp [he])

theorem sameFamily {ss ss' : List Str} (h : Pointwise SameNetwork ss ss') :
    parseSameFamilyNetspecs ss = parseSameFamilyNetspecs ss' ∨
    (∃ l l', parseSameFamilyNetspecs ss = .ok (.ok (.ipv4 l)) ∧ parseSameFamilyNetspecs ss' = .ok (.ok (.ipv4 l')) ∧
      l.map (·.2) = l'.map (·.2)) ∨
    (∃ l l', parseSameFamilyNetspecs ss = .ok (.ok (.ipv6 l)) ∧ parseSameFamilyNetspecs ss' = .ok (.ok (.ipv6 l')) ∧
      l.map (·.2) = l'.map (·.2)) := by
  cases h with
  | nil => exact .inl rfl
  | @cons s s' ss ss' h hs =>
    rw [parseSameFamilyNetspecs, parseSameFamilyNetspecs]
    have k4 : ∀ a a' n, sameFamilyLoop4 [(a, n)] ss = sameFamilyLoop4 [(a', n)] ss' ∨ _ := fun a a' n => sameLoop4 hs [(a, n)] [(a', n)] rfl
    have k6 : ∀ a a' n, sameFamilyLoop6 [(a, n)] ss = sameFamilyLoop6 [(a', n)] ss' ∨ _ := fun a a' n => sameLoop6 hs [(a, n)] [(a', n)] rfl
    rcases h.parse with rfl | ⟨a, a', n, h1, h2⟩ | ⟨a, a', n, h1, h2⟩
    · obtain ⟨r, hr⟩ := parseNetspec_total s
      rw [hr, Exec.ok_bind, Exec.ok_bind]
      match r with
      | .error e => exact .inl rfl
      | .ok (.ipv4 a n) => exact (k4 a a n).imp_right .inl
      | .ok (.ipv6 a n) => exact (k6 a a n).imp_right .inr
    · rw [h1, h2, Exec.ok_bind, Exec.ok_bind]
      exact (k4 a a' n).imp_right .inl
    · rw [h1, h2, Exec.ok_bind, Exec.ok_bind]
      exact (k6 a a' n).imp_right .inr

/-! ## C110 -/

/-- Showing networks. -/
theorem C110_show (rt : Runtime) (prog prog' s s' : Str) (ss ss' : List Str) (hs : s ∉ modeWords) (h : SameSpec s s')
    (hss : Pointwise SameSpec ss ss') : doMain rt (prog :: s :: ss) = doMain rt (prog' :: s' :: ss') := by
  have hs' : s' ∉ modeWords := by
    intro hm
    have := C109_words s' hm
    rcases h with rfl | ⟨a, n, -, h2⟩ | ⟨a, n, -, h2⟩
    · exact hs hm
    · rw [(v4Network_iff s' a n).mpr h2] at this; cases this
    · rw [(v6Network_iff s' a n).mpr h2] at this; cases this
  rw [(C56_dispatch rt prog s ss).2.2.2.2.2.2 hs, (C56_dispatch rt prog' s' ss').2.2.2.2.2.2 hs']
  have key : ∀ {l l' : List Str}, Pointwise SameSpec l l' → showParseLoop l = showParseLoop l' := by
    intro l l' h
    induction h with
    | nil => rfl
    | cons h _ ih => rw [showParseLoop, showParseLoop, h.parse, ih]
  rw [showNet, showNet, List.drop_succ_cons, List.drop_zero, List.drop_succ_cons, List.drop_zero, key (.cons h hss)]

/-- Enumerating. -/
theorem C110_enumerate (rt : Runtime) (prog prog' mode mode' : Str) (hm : mode = "-e".toList ∨ mode = "--enumerate".toList)
    (hm' : mode' = "-e".toList ∨ mode' = "--enumerate".toList) (ss ss' : List Str) (h : Pointwise SameNetwork ss ss') :
    doMain rt (prog :: mode :: ss) = doMain rt (prog' :: mode' :: ss') := by
  rw [(C56_dispatch rt prog mode ss).2.2.2.2.1 hm, (C56_dispatch rt prog' mode' ss').2.2.2.2.1 hm']
  have key : ∀ {l l' : List Str}, Pointwise SameNetwork l l' → ∀ r, enumerateLoop rt r l = enumerateLoop rt r l' := by
    intro l l' h
    induction h with
    | nil => intro r; rfl
    | cons h _ ih =>
      intro r
      rw [enumerateLoop, enumerateLoop]
      rcases h.parse with rfl | ⟨a, a', n, h1, h2⟩ | ⟨a, a', n, h1, h2⟩
      · simp only [ih]
      · simp only [h1, h2, Cli.lift_ok_bind, ih]
      · simp only [h1, h2, Cli.lift_ok_bind, ih]
  have hl := pointwise_length h
  simp only [enumerate, List.length_cons, hl, List.drop_succ_cons, List.drop_zero, key h]

/-- Minimizing. -/
theorem C110_minimize (rt : Runtime) (prog prog' mode mode' : Str) (hm : mode = "-m".toList ∨ mode = "--minimize".toList)
    (hm' : mode' = "-m".toList ∨ mode' = "--minimize".toList) (ss ss' : List Str) (h : Pointwise SameNetwork ss ss') :
    doMain rt (prog :: mode :: ss) = doMain rt (prog' :: mode' :: ss') := by
  rw [(C56_dispatch rt prog mode ss).1 hm, (C56_dispatch rt prog' mode' ss').1 hm']
  have hl := pointwise_length h
  simp only [minimize, List.length_cons, hl, List.drop_succ_cons, List.drop_zero]
  rcases sameFamily h with he | ⟨l, l', h1, h2, he⟩ | ⟨l, l', h1, h2, he⟩
  · rw [he]
  · rw [h1, h2]; simp only [Cli.lift_ok_bind, he]
  · rw [h1, h2]; simp only [Cli.lift_ok_bind, he]

/-- Converting a range. -/
theorem C110_derange (rt : Runtime) (prog prog' mode mode' : Str) (hm : mode = "-d".toList ∨ mode = "--derange".toList)
    (hm' : mode' = "-d".toList ∨ mode' = "--derange".toList) (s s' t t' : Str) (hs : SameAddress s s') (ht : SameAddress t t') :
    doMain rt [prog, mode, s, t] = doMain rt [prog', mode', s', t'] := by
  rw [(C56_dispatch rt prog mode [s, t]).2.1 hm, (C56_dispatch rt prog' mode' [s', t']).2.1 hm']
  simp only [derange, List.length_cons, List.getD_cons_succ, List.getD_cons_zero, hs.parse, ht.parse]

/-- Resizing. -/
theorem C110_resize (rt : Runtime) (prog prog' mode mode' : Str) (hm : mode = "-r".toList ∨ mode = "--resize".toList)
    (hm' : mode' = "-r".toList ∨ mode' = "--resize".toList) (s s' k k' : Str) (hs : SameNetwork s s') (hk : SameMask s k k') :
    doMain rt [prog, mode, s, k] = doMain rt [prog', mode', s', k'] := by
  rw [(C56_dispatch rt prog mode [s, k]).2.2.2.1 hm, (C56_dispatch rt prog' mode' [s', k']).2.2.2.1 hm']
  have k4 : ∀ a n, parseNetspec s = .ok (.ok (.ipv4 a n)) → resizeMask4 k = resizeMask4 k' := by
    intro a n h
    rcases hk with rfl | ⟨-, m, h1, h2⟩ | ⟨⟨b, n', h1⟩, -⟩
    · rfl
    · rw [((C34_resize_ipv4 k).2 m).mpr h1, ((C34_resize_ipv4 k').2 m).mpr h2]
    · rw [(v6Network_iff s b n').mpr h1] at h; cases h
  have k6 : ∀ a n, parseNetspec s = .ok (.ok (.ipv6 a n)) → resizeMask6 k = resizeMask6 k' := by
    intro a n h
    rcases hk with rfl | ⟨⟨b, n', h1⟩, -⟩ | ⟨-, m, h1, h2⟩
    · rfl
    · rw [(v4Network_iff s b n').mpr h1] at h; cases h
    · rw [((C34_resize_ipv6 k).2 m).mpr h1, ((C34_resize_ipv6 k').2 m).mpr h2]
  simp only [resize, List.length_cons, List.getD_cons_succ, List.getD_cons_zero]
  rcases hs.parse with rfl | ⟨a, a', n, h1, h2⟩ | ⟨a, a', n, h1, h2⟩
  · obtain ⟨r, hr⟩ := parseNetspec_total s
    rw [hr]
    match r with
    | .error e => rfl
    | .ok (.ipv4 a n) => simp only [Cli.lift_ok_bind, k4 a n hr]
    | .ok (.ipv6 a n) => simp only [Cli.lift_ok_bind, k6 a n hr]
  · rw [h1, h2]; simp only [Cli.lift_ok_bind, k4 a n h1]
  · rw [h1, h2]; simp only [Cli.lift_ok_bind, k6 a n h1]

/-- Splitting. -/
theorem C110_split (rt : Runtime) (prog prog' mode mode' : Str) (hm : mode = "-s".toList ∨ mode = "--split".toList)
    (hm' : mode' = "-s".toList ∨ mode' = "--split".toList) (s s' : Str) (cs cs' : List Str) (hs : SameNetwork s s')
    (hc : Pointwise SameCount cs cs') :
    doMain rt (prog :: mode :: s :: cs) = doMain rt (prog' :: mode' :: s' :: cs') := by
  rw [(C56_dispatch rt prog mode (s :: cs)).2.2.1 hm, (C56_dispatch rt prog' mode' (s' :: cs')).2.2.1 hm']
  have hl := pointwise_length hc
  simp only [split, List.length_cons, hl, List.getD_cons_succ, List.getD_cons_zero, List.drop_succ_cons, List.drop_zero,
    SameCount.parse hc]
  rcases hs.parse with rfl | ⟨a, a', n, h1, h2⟩ | ⟨a, a', n, h1, h2⟩
  · rfl
  · rw [h1, h2]; simp only [Cli.lift_ok_bind]
  · rw [h1, h2]; simp only [Cli.lift_ok_bind]

/-! ## The three ways to write a network -/

/-- A prefix length, the mask with as many leading ones, its complement after a minus sign, and the number of zeros after a minus
sign say the same about an IPv4 address. -/
theorem C110_syntax_ipv4 (t tp tq tm tw : Str) (a m w : V4) (p : Nat) (ht : QuadText t) (ha : V4Reading t a) (htm : QuadText tm)
    (hm : V4Reading tm m) (htw : QuadText tw) (hw : V4Reading tw w) (hp : Numeral 10 tp p) (hq : Numeral 10 tq (32 - p))
    (hpm : IsPrefixMask 32 p (val m)) (hc : ∀ i, i < 32 → (val w).testBit i = !(val m).testBit i) :
    SameSpec (t ++ '/' :: tp) (t ++ '/' :: tm) ∧ SameSpec (t ++ '/' :: tp) (t ++ '/' :: '-' :: tw) ∧
    SameSpec (t ++ '/' :: tp) (t ++ '/' :: '-' :: tq) := by
  obtain ⟨n, -, h1, h2, h3⟩ := C32_prefix_ipv4 t tp tq tm a m p ht ha htm hm hp hq hpm
  obtain ⟨n', -, h4, h5⟩ := C32_mask_wildcard_ipv4 t tm tw a m w ht ha htm hm htw hw hc
  obtain rfl : n' = n := by rw [h2] at h4; cases h4; rfl
  rw [v4Network_iff] at h1 h2 h3 h5
  exact ⟨.inr (.inl ⟨a, n', h1, h2⟩), .inr (.inl ⟨a, n', h1, h5⟩), .inr (.inl ⟨a, n', h1, h3⟩)⟩

theorem C110_syntax_ipv6 (t tp tq tm tw : Str) (a m w : V6) (p : Nat) (ht : HexColonText t) (ha : V6Reading t a)
    (htm : HexColonText tm ∧ ':' ∈ tm) (hm : V6Reading tm m) (htw : HexColonText tw ∧ ':' ∈ tw) (hw : V6Reading tw w)
    (hp : Numeral 10 tp p) (hq : Numeral 10 tq (128 - p)) (hpm : IsPrefixMask 128 p (val m))
    (hc : ∀ i, i < 128 → (val w).testBit i = !(val m).testBit i) :
    SameSpec (t ++ '/' :: tp) (t ++ '/' :: tm) ∧ SameSpec (t ++ '/' :: tp) (t ++ '/' :: '-' :: tw) ∧
    SameSpec (t ++ '/' :: tp) (t ++ '/' :: '-' :: tq) := by
  obtain ⟨n, -, h1, h2, h3⟩ := C32_prefix_ipv6 t tp tq tm a m p ht ha htm hm hp hq hpm
  obtain ⟨n', -, h4, h5⟩ := C32_mask_wildcard_ipv6 t tm tw a m w ht ha htm hm htw hw hc
  obtain rfl : n' = n := by rw [h2] at h4; cases h4; rfl
  rw [v6Network_iff] at h1 h2 h3 h5
  exact ⟨.inr (.inr ⟨a, n', h1, h2⟩), .inr (.inr ⟨a, n', h1, h5⟩), .inr (.inr ⟨a, n', h1, h3⟩)⟩

/-- Lopsided networks cannot be written with a prefix length: a network that is written without dots and colons behind the slash
has a mask whose ones are the leading bits. -/
theorem C110_prefix_only (t l : Str) (hl : '.' ∉ l) (hl' : ':' ∉ l) (hs : '/' ∉ l) :
    (∀ a n, V4Network (t ++ '/' :: l) a n → ∃ p, IsPrefixMask 32 p (val n.subnetMask)) ∧
    (∀ a n, V6Network (t ++ '/' :: l) a n → ∃ p, IsPrefixMask 128 p (val n.subnetMask)) := by
  have key : ∀ {t' : Str} {w : Bool} {l' : Str}, t ++ '/' :: l = specText t' w l' → '/' ∉ l' → l' <:+ l := by
    intro t' w l' he hsl
    have hn : '/' ∉ (if w then ['-'] else []) ++ l' := by cases w <;> simp [hsl]
    obtain ⟨-, rfl⟩ := append_slash_inj hs hn he
    exact List.suffix_append _ _
  constructor
  · rintro a n ⟨t', w, l', he, -, -, ⟨m, hq, -⟩ | ⟨p, -, -, h⟩⟩
    · exact absurd ((key he hq.no_slash).mem hq.dot) hl
    · exact ⟨_, (h.1.1.prefix_iff _).mp h.1.2⟩
  · rintro a n ⟨t', w, l', he, -, -, ⟨m, hq, hc, -⟩ | ⟨p, -, -, h⟩⟩
    · exact absurd ((key he hq.no_slash).mem hc) hl'
    · exact ⟨_, (h.1.1.prefix_iff _).mp h.1.2⟩

theorem no_message_ok (rt : Runtime) (prog mode : Str) (rest : List Str) (hm : mode ∉ ["-d", "--derange", "-s", "--split"].map String.toList)
    (h : ∀ m, m ∉ messages (doMain rt (prog :: mode :: rest)).out) :
    (doMain rt (prog :: mode :: rest)).res = .ok 0 ∧ messages (doMain rt (prog :: mode :: rest)).out = [] := by
  have h0 := List.eq_nil_iff_forall_not_mem.mpr h
  refine ⟨?_, h0⟩
  rcases main_cases rt (prog :: mode :: rest) with h1 | h1 | ⟨-, p, m, r, he, h1⟩
  · exact h1
  · rcases C76_failure rt _ h1 with h2 | ⟨⟨p, m, r, he, h2⟩, -⟩
    · exact absurd h0 h2
    · cases he
      exact absurd (by rcases h2 with rfl | rfl <;> decide) hm
  · cases he
    exact absurd h1 hm

/-- All modes that take networks except for splitting work with any masks, lopsided or not: they succeed without a message. -/
theorem C110_lopsided (rt : Runtime) (prog : Str) (ss : List Str) (hne : ss ≠ []) (h : ∀ s ∈ ss, IsV4Network s ∨ IsV6Network s) :
    ((doMain rt (prog :: ss)).res = .ok 0 ∧ messages (doMain rt (prog :: ss)).out = []) ∧
    (∀ mode, mode = "-e".toList ∨ mode = "--enumerate".toList →
      (doMain rt (prog :: mode :: ss)).res = .ok 0 ∧ messages (doMain rt (prog :: mode :: ss)).out = []) ∧
    (∀ mode, mode = "-m".toList ∨ mode = "--minimize".toList → (∀ s ∈ ss, IsV4Network s) ∨ (∀ s ∈ ss, IsV6Network s) →
      (doMain rt (prog :: mode :: ss)).res = .ok 0 ∧ messages (doMain rt (prog :: mode :: ss)).out = []) ∧
    (∀ mode s k, mode = "-r".toList ∨ mode = "--resize".toList →
      (IsV4Network s ∧ ∃ m, V4MaskText k m) ∨ (IsV6Network s ∧ ∃ m, V6MaskText k m) →
      (doMain rt [prog, mode, s, k]).res = .ok 0 ∧ messages (doMain rt [prog, mode, s, k]).out = []) := by
  have nofault : ∀ s, IsV4Network s ∨ IsV6Network s → ∀ e, ¬ NetspecFault s e := by
    intro s hs e he
    rcases C80_network_texts s with ⟨-, -, h⟩ | ⟨-, -, h⟩ | ⟨h1, h2, -⟩
    · exact h e he
    · exact h e he
    · exact hs.elim h1 h2
  have not_both : ∀ s, ¬ (IsV4Network s ∧ IsV6Network s) := by
    rintro s ⟨h4, h6⟩
    rcases C80_network_texts s with ⟨-, h, -⟩ | ⟨h, -⟩ | ⟨h, -⟩
    · exact h h6
    · exact h h4
    · exact h h4
  refine ⟨?_, fun mode hm => ?_, fun mode hm hf => ?_, fun mode s k hm hk => ?_⟩
  · match ss, hne with
    | s :: ss, _ =>
      have hw : s ∉ modeWords := by
        intro hw
        obtain ⟨x, hx⟩ := (isNetwork_iff s).mpr (h s (by simp))
        rw [C109_words s hw] at hx
        cases hx
      refine no_message_ok rt prog s ss (fun hc => hw ?_) fun m hmem => ?_
      · revert hc
        simp only [modeWords, List.map_cons, List.map_nil, List.mem_cons, List.not_mem_nil, or_false]
        rintro (h | h | h | h) <;> simp [h]
      · obtain ⟨pre, x, post, e, he, -, hf, -⟩ := (C80_show rt prog s ss hw m).mp hmem
        exact nofault x (h x (by rw [he]; simp)) e hf
  · refine no_message_ok rt prog mode ss (by rcases hm with rfl | rfl <;> decide) fun m hmem => ?_
    have hc : EnumerateComplaints ss [] := by
      clear hne hmem
      induction ss with
      | nil => exact .nil
      | cons s ss ih => exact .good (h s (by simp)) (ih fun t ht => h t (by simp [ht]))
    rw [((C80_enumerate rt prog mode ss hm).2 hne []).mpr hc] at hmem
    cases hmem
  · refine no_message_ok rt prog mode ss (by rcases hm with rfl | rfl <;> decide) fun m hmem => ?_
    rcases (C80_minimize rt prog mode ss hm m).mp hmem with ⟨h0, -⟩ | ⟨pre, x, post, he, ⟨e, -, h1, -⟩ | ⟨hp, hx, -⟩⟩
    · exact hne h0
    · exact nofault x (h x (by rw [he]; simp)) e h1
    · obtain ⟨y, hy⟩ := List.exists_mem_of_ne_nil _ hp
      have hy' : y ∈ ss := by rw [he]; simp [hy]
      have hx' : x ∈ ss := by rw [he]; simp
      rcases hf with hf | hf <;> rcases hx with ⟨h1, h2⟩ | ⟨h1, h2⟩
      · exact not_both x ⟨hf x hx', h2⟩
      · exact not_both y ⟨hf y hy', h1 y hy⟩
      · exact not_both y ⟨h1 y hy, hf y hy'⟩
      · exact not_both x ⟨h2, hf x hx'⟩
  · refine no_message_ok rt prog mode [s, k] (by rcases hm with rfl | rfl <;> decide) fun m hmem => ?_
    have hc := (C80_resize rt prog mode [s, k] hm m).mp hmem
    rcases hk with ⟨hs, t, ht⟩ | ⟨hs, t, ht⟩
    · have hno : ∀ m, resizeMask4 k ≠ .ok (.error m) := fun m hm => by
        rw [((C34_resize_ipv4 k).2 t).mpr ht] at hm; cases hm
      rcases hc with ⟨h0, -⟩ | ⟨s', k', he, ⟨e, h1, -⟩ | ⟨e, -, h1, rfl⟩ | ⟨p, -, h1, h2, rfl⟩ | ⟨p, h1, -⟩ | ⟨a, -, h1, h2, rfl⟩ | ⟨a, h1, -⟩⟩
      · exact h0 rfl
      all_goals cases he
      · exact nofault s (.inl hs) e h1
      · exact hno _ ((resizeMask4_error k _).mpr (.inl ⟨e, h1, rfl⟩))
      · exact hno _ ((resizeMask4_error k _).mpr (.inr (.inl ⟨p, h1, h2, rfl⟩)))
      · exact not_both s ⟨hs, h1⟩
      · exact hno _ ((resizeMask4_error k _).mpr (.inr (.inr ⟨a, h1, h2, rfl⟩)))
      · exact not_both s ⟨hs, h1⟩
    · have hno : ∀ m, resizeMask6 k ≠ .ok (.error m) := fun m hm => by
        rw [((C34_resize_ipv6 k).2 t).mpr ht] at hm; cases hm
      rcases hc with ⟨h0, -⟩ | ⟨s', k', he, ⟨e, h1, -⟩ | ⟨e, -, h1, rfl⟩ | ⟨p, h1, -⟩ | ⟨p, -, h1, h2, rfl⟩ | ⟨a, h1, -⟩ | ⟨a, -, h1, h2, h3, rfl⟩⟩
      · exact h0 rfl
      all_goals cases he
      · exact nofault s (.inr hs) e h1
      · exact hno _ ((resizeMask6_error k _).mpr (.inl ⟨e, h1, rfl⟩))
      · exact not_both s ⟨h1, hs⟩
      · exact hno _ ((resizeMask6_error k _).mpr (.inr (.inl ⟨p, h1, h2, rfl⟩)))
      · exact not_both s ⟨h1, hs⟩
      · exact hno _ ((resizeMask6_error k _).mpr (.inr (.inr ⟨a, h1, h2, h3, rfl⟩)))

/-- The texts of the examples below, and a lopsided network. -/
theorem alike_examples : V4Network "192.168.2.7/24".toList ⟨0xC0A80207#32⟩ ⟨⟨0xC0A80200#32⟩, ⟨0xFFFFFF00#32⟩, some 24⟩ ∧
    V4Network "192.168.02.7/255.255.255.0".toList ⟨0xC0A80207#32⟩ ⟨⟨0xC0A80200#32⟩, ⟨0xFFFFFF00#32⟩, some 24⟩ ∧
    V4Network "192.168.2.7/-0.0.0.255".toList ⟨0xC0A80207#32⟩ ⟨⟨0xC0A80200#32⟩, ⟨0xFFFFFF00#32⟩, some 24⟩ ∧
    V4Network "192.168.2.99/-8".toList ⟨0xC0A80263#32⟩ ⟨⟨0xC0A80200#32⟩, ⟨0xFFFFFF00#32⟩, some 24⟩ ∧
    V4Network "192.168.0.2/255.255.240.255".toList ⟨0xC0A80002#32⟩ ⟨⟨0xC0A80002#32⟩, ⟨0xFFFFF0FF#32⟩, none⟩ := by
  simp only [← v4Network_iff]
  decide +kernel

example : SameSpec "192.168.2.7/24".toList "192.168.02.7/255.255.255.0".toList ∧
    SameSpec "192.168.2.7/24".toList "192.168.2.7/-0.0.0.255".toList ∧
    SameNetwork "192.168.2.7/24".toList "192.168.2.99/-8".toList ∧ ¬ SameSpec "192.168.2.7/24".toList "192.168.2.99/-8".toList ∧
    IsV4Network "192.168.0.2/255.255.240.255".toList := by
  obtain ⟨h1, h2, h3, h4, h5⟩ := alike_examples
  refine ⟨.inr (.inl ⟨_, _, h1, h2⟩), .inr (.inl ⟨_, _, h1, h3⟩), .inr (.inl ⟨_, _, _, h1, h4⟩), ?_, ⟨_, _, h5⟩⟩
  intro h
  have := h.parse
  rw [(v4Network_iff _ _ _).mpr h1, (v4Network_iff _ _ _).mpr h4] at this
  exact absurd this (by decide)

example : SameCount "1000".toList "+1_000".toList := .inr ⟨1000, (C79_count _ _).mp (by decide +kernel), (C79_count _ _).mp (by decide +kernel)⟩

example : SameMask "192.168.2.7/24".toList "26".toList "255.255.255.192".toList :=
  .inr (.inl ⟨⟨_, _, alike_examples.1⟩, ⟨0xFFFFFFC0#32⟩, ((C34_resize_ipv4 _).2 _).mp (by decide +kernel),
    ((C34_resize_ipv4 _).2 _).mp (by decide +kernel)⟩)

example : SameAddress "2001:db8:0:0::1".toList "2001:0DB8::0001".toList :=
  .inr (.inr ⟨⟨0x20010DB800000000#64, 1#64⟩, ((C36_parse_addr _).2.2.1 _).mp (by decide +kernel),
    ((C36_parse_addr _).2.2.1 _).mp (by decide +kernel)⟩)

/-- In the main mode the address matters: another address in the same network is shown. -/
theorem C110_show_address : ∃ s s', SameNetwork s s' ∧
    doMain (Runtime.reference .checked true) ["ripcalc".toList, s] ≠ doMain (Runtime.reference .checked true) ["ripcalc".toList, s'] :=
  ⟨"192.168.2.7/24".toList, "192.168.2.99/-8".toList, .inr (.inl ⟨_, _, _, alike_examples.1, alike_examples.2.2.2.1⟩), by decide +kernel⟩

end Ripcalc
