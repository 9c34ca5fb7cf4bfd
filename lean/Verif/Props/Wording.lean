import Verif.Spec.Wording
import Verif.Props.Complaints
import Verif.Props.Messages
/-!
# C81: the messages say what is wrong with the arguments
-/
namespace Ripcalc

theorem numberText (n : Nat) : NumberText (showNat 10 n) n := showNat_canonical (by decide) (by decide) n

theorem quotedText (u : CharTable) (s : Str) : QuotedText (quoteStr u s) s :=
  ⟨by rw [← List.append_nil (quoteStr u s)]; exact readQuoted_quoteStr u s [], visible_quoteStr u s⟩

theorem numberSays_text {radix max : Nat} {s : Str} {f : IntErr} (h : NumberFault radix max s f) :
    NumberSays false radix max s (intErrText f) := by
  cases f
  · exact .inl ⟨h, rfl⟩
  · exact .inr (.inl ⟨h, rfl⟩)
  · exact .inr (.inr ⟨h, rfl⟩)

theorem numberSays_debug {radix max : Nat} {s : Str} {f : IntErr} (h : NumberFault radix max s f) :
    NumberSays true radix max s (intErrDebug f) := by
  cases f
  · exact .inl ⟨h, rfl⟩
  · exact .inr (.inl ⟨h, rfl⟩)
  · exact .inr (.inr ⟨h, rfl⟩)

theorem chunkSays_text (u : CharTable) {radix max i : Nat} {t : Str} {f : IntErr} (h : NumberFault radix max t f) :
    ChunkSays false radix max i t (addrErrText u (.chunkParseError i t f)) :=
  ⟨_, _, _, numberText i, quotedText u t, numberSays_text h, rfl⟩

theorem chunkSays_debug (u : CharTable) {radix max i : Nat} {t : Str} {f : IntErr} (h : NumberFault radix max t f) :
    ChunkSays true radix max i t (addrErrDebug u (.chunkParseError i t f)) :=
  ⟨_, _, _, numberText i, quotedText u t, numberSays_debug h, rfl⟩

theorem showNat_literals : showNat 10 0 = ['0'] ∧ showNat 10 1 = ['1'] ∧ showNat 10 4 = ['4'] ∧ showNat 10 8 = ['8'] ∧
    showNat 10 32 = ['3', '2'] ∧ showNat 10 128 = ['1', '2', '8'] ∧ showNat 10 255 = ['2', '5', '5'] := by decide

macro "wording" : tactic =>
  `(tactic| simp [addrErrText, addrErrDebug, netspecErrText, showNat_literals])

/-- What is said about a malformed IPv4 address is true of it, in both wordings. -/
theorem C81_v4 (u : CharTable) (s : Str) (e : AddrErr) (h : V4Fault s e) :
    V4Says false s (addrErrText u e) ∧ V4Says true s (addrErrDebug u e) := by
  obtain ⟨ps, hp, h⟩ := h
  rcases h with ⟨h, rfl⟩ | ⟨hl, i, t, hb, ⟨ht, rfl⟩ | ⟨ht, f, hf, rfl⟩ | ⟨v, hv, h1, h2, rfl⟩⟩
  · exact ⟨⟨ps, hp, .inl ⟨h, _, numberText _, (by wording)⟩⟩, ⟨ps, hp, .inl ⟨h, _, numberText _, (by wording)⟩⟩⟩
  · exact ⟨⟨ps, hp, .inr ⟨hl, i, t, hb, .inl ⟨ht, _, numberText _, (by wording)⟩⟩⟩, ⟨ps, hp, .inr ⟨hl, i, t, hb, .inl ⟨ht, _, numberText _, (by wording)⟩⟩⟩⟩
  · exact ⟨⟨ps, hp, .inr ⟨hl, i, t, hb, .inr (.inl ⟨ht, chunkSays_text u hf⟩)⟩⟩,
      ⟨ps, hp, .inr ⟨hl, i, t, hb, .inr (.inl ⟨ht, chunkSays_debug u hf⟩)⟩⟩⟩
  · exact ⟨⟨ps, hp, .inr ⟨hl, i, t, hb, .inr (.inr ⟨v, _, _, hv, h1, h2, numberText i, numberText v, (by wording)⟩)⟩⟩,
      ⟨ps, hp, .inr ⟨hl, i, t, hb, .inr (.inr ⟨v, _, _, hv, h1, h2, numberText i, numberText v, (by wording)⟩)⟩⟩⟩

/-- What is said about a malformed IPv6 address is true of it, in both wordings. -/
theorem C81_v6 (u : CharTable) (s : Str) (e : AddrErr) (h : V6Fault s e) :
    V6Says false s (addrErrText u e) ∧ V6Says true s (addrErrDebug u e) := by
  obtain ⟨ps, hp, h⟩ := h
  rcases h with ⟨h, rfl⟩ | ⟨h1, h2, rfl⟩ | ⟨h1, h2, rfl⟩ | ⟨gs, i, t, f, h1, h2, hf, rfl⟩
  · exact ⟨⟨ps, hp, .inl ⟨.inl h, _, numberText _, (by wording)⟩⟩, ⟨ps, hp, .inl ⟨.inl h, _, numberText _, (by wording)⟩⟩⟩
  · exact ⟨⟨ps, hp, .inr (.inl ⟨h1, h2, _, numberText _, (by wording)⟩)⟩, ⟨ps, hp, .inr (.inl ⟨h1, h2, _, numberText _, (by wording)⟩)⟩⟩
  · exact ⟨⟨ps, hp, .inl ⟨.inr ⟨h1, h2⟩, _, numberText _, (by wording)⟩⟩, ⟨ps, hp, .inl ⟨.inr ⟨h1, h2⟩, _, numberText _, (by wording)⟩⟩⟩
  · exact ⟨⟨ps, hp, .inr (.inr ⟨gs, i, t, h1, h2, chunkSays_text u hf⟩)⟩, ⟨ps, hp, .inr (.inr ⟨gs, i, t, h1, h2, chunkSays_debug u hf⟩)⟩⟩

/-- What is said about a malformed address on its own is true of it. -/
theorem C81_address (u : CharTable) (s : Str) (e : AddrErr) (h : AddressFault s e) : AddressSays s (addrErrText u e) := by
  rcases h with ⟨h, rfl⟩ | ⟨h1, h2, h⟩ | ⟨h1, h2, h⟩
  · exact .inl ⟨h, rfl⟩
  · exact .inr (.inl ⟨h1, h2, (C81_v4 u s e h).1⟩)
  · exact .inr (.inr ⟨h1, h2, (C81_v6 u s e h).1⟩)

theorem partsSay (u : CharTable) {addr : Str → Prop} {fault : Str → AddrErr → Prop} {says : Bool → Str → Str → Prop}
    {isMask : Str → Prop} {max : Nat} {maxText t l : Str} {e : NetspecErr} (hs : ∀ t e, fault t e → says true t (addrErrDebug u e))
    (hm : maxText = showNat 10 max) (h : PartsFault addr fault isMask max t l e) :
    PartsSay addr says isMask max maxText t l (netspecErrText u e) := by
  subst hm
  cases e with
  | unrecognized _ => exact h.elim
  | address e => exact .inl ⟨_, hs _ _ h, rfl⟩
  | mask e => exact .inr (.inl ⟨h.1, h.2.1, _, hs _ _ h.2.2, rfl⟩)
  | cidrParse f => exact .inr (.inr (.inl ⟨h.1, h.2.1, _, numberSays_debug h.2.2, rfl⟩))
  | cidrRange p m =>
    obtain ⟨h1, h2, h3, -, rfl⟩ := h
    exact .inr (.inr (.inr ⟨h1, p, _, h2, h3, numberText p, rfl⟩))

/-- What is said about a malformed network is true of it. -/
theorem C81_network (u : CharTable) (s : Str) (e : NetspecErr) (h : NetspecFault s e) : NetworkSays s (netspecErrText u e) := by
  rcases h with ⟨rfl, h⟩ | ⟨t, b, l, h1, h2, h3, h⟩ | ⟨t, b, l, h1, h2, h3, h⟩
  · exact .inl ⟨h, _, quotedText u s, rfl⟩
  · exact .inr (.inl ⟨t, b, l, h1, h2, h3, partsSay u (fun t e h => (C81_v4 u t e h).2) showNat_literals.2.2.2.2.1.symm h⟩)
  · exact .inr (.inr ⟨t, b, l, h1, h2, h3, partsSay u (fun t e h => (C81_v6 u t e h).2) showNat_literals.2.2.2.2.2.1.symm h⟩)

/-- What is said about a malformed mask or prefix length is true of it. -/
theorem C81_subnet (u : CharTable) (s : Str) (e : NetspecErr) (h : SubnetFault s e) : SubnetSays s (netspecErrText u e) := by
  rcases h with ⟨f, rfl, h⟩ | ⟨f, rfl, h1, h2, h⟩
  · refine .inl ⟨_, ?_, rfl⟩
    rcases h with ⟨h1, h⟩ | ⟨h1, h2, h⟩
    · exact .inl ⟨h1, (C81_v6 u s f h).2⟩
    · exact .inr ⟨h1, h2, (C81_v4 u s f h).2⟩
  · exact .inr ⟨_, h1, h2, numberSays_debug h, rfl⟩

/-- What is said about a text that is not a host count is true of it. -/
theorem C81_count (s : Str) (h : ∀ c, ¬ CountText s c) : CountSays s (bigIntErrText s) := by
  refine ⟨h, ?_⟩
  unfold bigIntErrText
  by_cases hs : s = [] ∨ s = ['+'] ∨ s = ['-']
  · exact .inl ⟨by simpa using hs, if_pos hs⟩
  · exact .inr ⟨by simpa using hs, if_neg hs⟩

/-! ## Standard error as a whole -/

/-- A mode that writes exactly one message if there is a complaint, and none otherwise. -/
theorem stderr_of_complaints {rt : Runtime} {args : List Str} {P : ErrMsg → Prop} (u : CharTable)
    (he : ∀ prog mode s rest, args = prog :: mode :: s :: rest → mode ≠ "-e".toList ∧ mode ≠ "--enumerate".toList)
    (h : ∀ m, m ∈ messages (doMain rt args).out ↔ P m) :
    ((∀ m, ¬ P m) ∧ stderrText u (doMain rt args).out = []) ∨ (∃ m, P m ∧ stderrText u (doMain rt args).out = m.text u) := by
  rw [stderrText_messages]
  rcases main_outcome rt args with ⟨h1, -⟩ | ⟨m, h1⟩ | ⟨h1, -⟩ | ⟨prog, mode, s, rest, h1, hm, -⟩
  · rw [tidy_messages h1] at h ⊢
    exact .inl ⟨fun m hp => (by cases (h m).mpr hp), rfl⟩
  · rw [h1] at h ⊢
    exact .inr ⟨m, (h m).mp (List.mem_singleton.mpr rfl), List.append_nil _⟩
  · rw [h1] at h ⊢
    exact .inr ⟨.usage, (h _).mp (List.mem_singleton.mpr rfl), List.append_nil _⟩
  · obtain ⟨h2, h3⟩ := he _ _ _ _ h1
    exact (hm.elim h2 h3).elim

theorem text_one {u : CharTable} {m : ErrMsg} {l : Str} (h : m.lines u = [l]) : m.text u = l ++ ['\n'] := by
  rw [ErrMsg.text, h]; exact List.append_nil _

/-- Without a mode, standard error is empty if all arguments are networks, and otherwise it is one line with what is wrong with
the first that is not. -/
theorem C81_show (u : CharTable) (rt : Runtime) (prog mode : Str) (rest : List Str)
    (hm : mode ∉ ["-m", "--minimize", "-d", "--derange", "-s", "--split", "-r", "--resize", "-e", "--enumerate", "--color-test",
      "--help"].map String.toList) :
    (stderrText u (doMain rt (prog :: mode :: rest)).out = [] ∧ ∀ y ∈ mode :: rest, IsV4Network y ∨ IsV6Network y) ∨
    ∃ line, stderrText u (doMain rt (prog :: mode :: rest)).out = line ++ ['\n'] ∧ ShowLine (mode :: rest) line := by
  have he : ∀ p m s r, prog :: mode :: rest = p :: m :: s :: r → m ≠ "-e".toList ∧ m ≠ "--enumerate".toList := by
    intro p m s r h
    cases h
    exact ⟨fun h => hm (h ▸ by decide), fun h => hm (h ▸ by decide)⟩
  rcases stderr_of_complaints u he (C80_show rt prog mode rest hm) with ⟨h1, h2⟩ | ⟨m, ⟨pre, x, post, e, h1, h3, h4, rfl⟩, h2⟩
  · refine .inl ⟨h2, ?_⟩
    have key : ∀ pre post, (∀ y ∈ pre, IsV4Network y ∨ IsV6Network y) → mode :: rest = pre ++ post →
        ∀ y ∈ post, IsV4Network y ∨ IsV6Network y := by
      intro pre post
      induction post generalizing pre with
      | nil => intro _ _ y hy; cases hy
      | cons x post ih =>
        intro hp he
        have hx : IsV4Network x ∨ IsV6Network x := by
          rcases C80_network_texts x with ⟨h, -⟩ | ⟨-, h, -⟩ | ⟨-, -, e, h⟩
          · exact .inl h
          · exact .inr h
          · exact (h1 _ ⟨pre, x, post, e, he, hp, h, rfl⟩).elim
        intro y hy
        rcases List.mem_cons.mp hy with rfl | hy
        · exact hx
        · refine ih (pre ++ [x]) ?_ (by simpa using he) y hy
          intro z hz
          rcases List.mem_append.mp hz with hz | hz
          · exact hp z hz
          · rw [List.mem_singleton.mp hz]; exact hx
    exact key [] _ (by simp) rfl
  · exact .inr ⟨_, h2.trans (text_one rfl), pre, x, post, h1, h3, C81_network u x e h4⟩

/-- In the minimize mode with arguments: what is wrong with the first argument that is malformed or of the other family. -/
theorem C81_minimize (u : CharTable) (rt : Runtime) (prog mode : Str) (rest : List Str) (hne : rest ≠ [])
    (hm : mode = "-m".toList ∨ mode = "--minimize".toList) :
    (stderrText u (doMain rt (prog :: mode :: rest)).out = [] ∧ ∀ m, ¬ MinimizeComplaint rest m) ∨
    ∃ line, stderrText u (doMain rt (prog :: mode :: rest)).out = line ++ ['\n'] ∧ MinimizeLine rest line := by
  have he : ∀ p m s r, prog :: mode :: rest = p :: m :: s :: r → m ≠ "-e".toList ∧ m ≠ "--enumerate".toList := by
    intro p m s r h
    cases h
    rcases hm with rfl | rfl <;> decide
  rcases stderr_of_complaints u he (C80_minimize rt prog mode rest hm) with
    ⟨h1, h2⟩ | ⟨m, ⟨h1, -⟩ | ⟨pre, x, post, h1, ⟨e, h3, h4, rfl⟩ | ⟨h3, h4, rfl⟩⟩, h2⟩
  · exact .inl ⟨h2, h1⟩
  · exact (hne h1).elim
  · exact .inr ⟨_, h2.trans (text_one rfl), pre, x, post, h1, .inl ⟨h3, _, C81_network u x e h4, rfl⟩⟩
  · exact .inr ⟨_, h2.trans (text_one rfl), pre, x, post, h1, .inr ⟨h3, h4, rfl⟩⟩

/-- In the derange mode with two arguments: what is wrong with the first that is no address, or that they are of two families. -/
theorem C81_derange (u : CharTable) (rt : Runtime) (prog mode : Str) (rest : List Str) (hl : rest.length = 2)
    (hm : mode = "-d".toList ∨ mode = "--derange".toList) :
    (stderrText u (doMain rt (prog :: mode :: rest)).out = [] ∧ ∀ m, ¬ DerangeComplaint rest m) ∨
    ∃ line, stderrText u (doMain rt (prog :: mode :: rest)).out = line ++ ['\n'] ∧ DerangeLine rest line := by
  have he : ∀ p m s r, prog :: mode :: rest = p :: m :: s :: r → m ≠ "-e".toList ∧ m ≠ "--enumerate".toList := by
    intro p m s r h
    cases h
    rcases hm with rfl | rfl <;> decide
  rcases stderr_of_complaints u he (C80_derange rt prog mode rest hm) with
    ⟨h1, h2⟩ | ⟨m, ⟨h1, -⟩ | ⟨a, b, h1, ⟨e, h3, rfl⟩ | ⟨e, h3, h4, rfl⟩ | ⟨h3, rfl⟩⟩, h2⟩
  · exact .inl ⟨h2, h1⟩
  · exact (h1 hl).elim
  · exact .inr ⟨_, h2.trans (text_one rfl), a, b, h1, .inl ⟨_, C81_address u a e h3, rfl⟩⟩
  · exact .inr ⟨_, h2.trans (text_one rfl), a, b, h1, .inr (.inl ⟨_, h3, C81_address u b e h4, rfl⟩)⟩
  · exact .inr ⟨_, h2.trans (text_one rfl), a, b, h1, .inr (.inr ⟨h3, rfl⟩)⟩

/-- In the resize mode with two arguments: what is wrong with the network or the new subnet. -/
theorem C81_resize (u : CharTable) (rt : Runtime) (prog mode : Str) (rest : List Str) (hl : rest.length = 2)
    (hm : mode = "-r".toList ∨ mode = "--resize".toList) :
    (stderrText u (doMain rt (prog :: mode :: rest)).out = [] ∧ ∀ m, ¬ ResizeComplaint rest m) ∨
    ∃ line, stderrText u (doMain rt (prog :: mode :: rest)).out = line ++ ['\n'] ∧ ResizeLine rest line := by
  have he : ∀ p m s r, prog :: mode :: rest = p :: m :: s :: r → m ≠ "-e".toList ∧ m ≠ "--enumerate".toList := by
    intro p m s r h
    cases h
    rcases hm with rfl | rfl <;> decide
  rcases stderr_of_complaints u he (C80_resize rt prog mode rest hm) with
    ⟨h1, h2⟩ | ⟨m, ⟨h1, -⟩ | ⟨s, k, h1, ⟨e, h3, rfl⟩ | ⟨e, h3, h4, rfl⟩ | ⟨p, h3, h4, h5, rfl⟩ | ⟨p, h3, h4, h5, rfl⟩ |
      ⟨a, h3, h4, h5, rfl⟩ | ⟨a, h3, h4, h5, h6, rfl⟩⟩, h2⟩
  · exact .inl ⟨h2, h1⟩
  · exact (h1 hl).elim
  · exact .inr ⟨_, h2.trans (text_one rfl), s, k, h1, .inl ⟨_, _, quotedText u s, C81_network u s e h3, rfl⟩⟩
  · exact .inr ⟨_, h2.trans (text_one rfl), s, k, h1, .inr (.inl ⟨_, _, h3, quotedText u k, C81_subnet u k e h4, rfl⟩)⟩
  · exact .inr ⟨_, h2.trans (text_one rfl), s, k, h1, .inr (.inr (.inl ⟨p, _, h3, h4, h5, numberText p, rfl⟩))⟩
  · exact .inr ⟨_, h2.trans (text_one rfl), s, k, h1, .inr (.inr (.inr (.inl ⟨p, _, h3, h4, h5, numberText p, rfl⟩)))⟩
  · exact .inr ⟨_, h2.trans (text_one rfl), s, k, h1, .inr (.inr (.inr (.inr (.inl ⟨a, h3, h4, h5, rfl⟩))))⟩
  · exact .inr ⟨_, h2.trans (text_one rfl), s, k, h1, .inr (.inr (.inr (.inr (.inr ⟨a, h3, h4, h5, h6, rfl⟩))))⟩

/-- In the split mode with a network and counts: what is wrong with the first count that cannot be used, or else the network. -/
theorem C81_split (u : CharTable) (rt : Runtime) (prog mode : Str) (rest : List Str) (hl : 2 ≤ rest.length)
    (hm : mode = "-s".toList ∨ mode = "--split".toList) :
    (stderrText u (doMain rt (prog :: mode :: rest)).out = [] ∧ ∀ m, ¬ SplitComplaint rest m) ∨
    ∃ line, stderrText u (doMain rt (prog :: mode :: rest)).out = line ++ ['\n'] ∧ SplitLine rest line := by
  have he : ∀ p m s r, prog :: mode :: rest = p :: m :: s :: r → m ≠ "-e".toList ∧ m ≠ "--enumerate".toList := by
    intro p m s r h
    cases h
    rcases hm with rfl | rfl <;> decide
  rcases stderr_of_complaints u he (C80_split rt prog mode rest hm) with
    ⟨h1, h2⟩ | ⟨m, ⟨h1, -⟩ | ⟨s, counts, h1, -, ⟨pre, x, post, h3, h4, ⟨h5, rfl⟩ | ⟨c, h5, h6, rfl⟩⟩ | ⟨e, h3, h4, rfl⟩⟩, h2⟩
  · exact .inl ⟨h2, h1⟩
  · omega
  · exact .inr ⟨_, h2.trans (text_one rfl), s, counts, h1, .inl ⟨pre, x, post, _, _, h3, h4, quotedText u x, C81_count x h5, rfl⟩⟩
  · exact .inr ⟨_, h2.trans (text_one rfl), s, counts, h1, .inr (.inl ⟨pre, x, post, c, h3, h4, h5, h6, rfl⟩)⟩
  · exact .inr ⟨_, h2.trans (text_one rfl), s, counts, h1, .inr (.inr ⟨_, _, h3, quotedText u s, C81_network u s e h4, rfl⟩)⟩

theorem enumerateLines (u : CharTable) {ss : List Str} {ms : List ErrMsg} (h : EnumerateComplaints ss ms) :
    ∃ ls, ms.flatMap (ErrMsg.text u) = ls.flatMap (· ++ ['\n']) ∧ EnumerateLines ss ls := by
  induction h with
  | nil => exact ⟨[], rfl, .nil⟩
  | good h _ ih =>
    obtain ⟨ls, h1, h2⟩ := ih
    exact ⟨ls, h1, .good h h2⟩
  | @bad s e ss ms h _ ih =>
    obtain ⟨ls, h1, h2⟩ := ih
    refine ⟨_ :: ls, ?_, .bad (quotedText u s) (C81_network u s e h) h2⟩
    rw [List.flatMap_cons, List.flatMap_cons, h1, text_one rfl]

/-- In the enumerate mode with arguments: one line for each argument that is not a network, in order. -/
theorem C81_enumerate (u : CharTable) (rt : Runtime) (prog mode : Str) (rest : List Str) (hne : rest ≠ [])
    (hm : mode = "-e".toList ∨ mode = "--enumerate".toList) :
    ∃ ls, stderrText u (doMain rt (prog :: mode :: rest)).out = ls.flatMap (· ++ ['\n']) ∧ EnumerateLines rest ls := by
  rw [stderrText_messages]
  exact enumerateLines u (((C80_enumerate rt prog mode rest hm).2 hne _).mp rfl)

/-- The usage text names both flags of each mode in one line. -/
theorem C81_usage (u : CharTable) : ∃ lines : List Str, ErrMsg.text u .usage = lines.flatMap (· ++ ['\n']) ∧
    ∀ f ∈ [("-m", "--minimize"), ("-d", "--derange"), ("-s", "--split"), ("-r", "--resize"), ("-e", "--enumerate")],
      ∃ l ∈ lines, ("       ripcalc ".toList ++ f.1.toList ++ ['|'] ++ f.2.toList ++ [' ']) <+: l :=
  ⟨usageLines, rfl, by decide +kernel⟩

/-- In the remaining cases: the usage text if arguments are missing or there are too many, and when asked for help; nothing in the
colour test. -/
theorem C81_otherwise (u : CharTable) (rt : Runtime) :
    (∀ args : List Str, args.length < 2 → stderrText u (doMain rt args).out = ErrMsg.text u .usage) ∧
    ∀ (prog mode : Str) (rest : List Str),
      ((mode = "-m".toList ∨ mode = "--minimize".toList) ∧ rest = [] ∨
       (mode = "-e".toList ∨ mode = "--enumerate".toList) ∧ rest = [] ∨
       (mode = "-d".toList ∨ mode = "--derange".toList) ∧ rest.length ≠ 2 ∨
       (mode = "-r".toList ∨ mode = "--resize".toList) ∧ rest.length ≠ 2 ∨
       (mode = "-s".toList ∨ mode = "--split".toList) ∧ rest.length < 2 →
        stderrText u (doMain rt (prog :: mode :: rest)).out = ErrMsg.text u .usage) ∧
      (mode = "--help".toList → stderrText u (doMain rt (prog :: mode :: rest)).out = ErrMsg.text u .usage) ∧
      (mode = "--color-test".toList → stderrText u (doMain rt (prog :: mode :: rest)).out = []) := by
  have hu : ∀ c : Nat, stderrText u (⟨[.err .usage], .ok c⟩ : Cli Nat).out = ErrMsg.text u .usage := by
    intro c
    rw [stderrText_messages]
    exact List.append_nil _
  refine ⟨fun args h => ?_, fun prog mode rest => ⟨fun h => ?_, ?_, ?_⟩⟩
  · rw [(C56_usage rt).1 args h, hu]
  · rw [(C56_usage rt).2 prog mode rest h, hu]
  · intro h
    rw [(C56_dispatch rt prog mode rest).2.2.2.2.2.1 h, hu]
  · rintro rfl
    rw [stderrText_messages, (C80_rest rt prog rest).2.2]
    rfl

/-! Runs with a line of each kind. -/

example : stderrText asciiTable (doMain (evalRuntime .checked false) ["ripcalc".toList, "1.2.3/24".toList]).out =
    chars! "unrecognized network specification: \"1.2.3/24\"\n" := by decide +kernel
example : stderrText asciiTable (doMain (evalRuntime .checked false) ["ripcalc".toList, "1.2.3.0/24".toList, "1.2.3.256/24".toList]).out =
    chars! "failed to parse address: ChunkOutOfRange(3, 256, 0, 255)\n" := by decide +kernel
example : stderrText asciiTable (doMain (evalRuntime .checked false) ["ripcalc".toList, "-m".toList, "1.2.3.0/33".toList]).out =
    chars! "parsing error: CIDR prefix 33 is greater than the maximum (32)\n" := by decide +kernel
example : stderrText asciiTable (doMain (evalRuntime .checked false) ["ripcalc".toList, "-m".toList, "1.2.3.0/24".toList, "1::/64".toList]).out =
    chars! "mixing IPv4 and IPv6 is not supported\n" := by decide +kernel
example : stderrText asciiTable (doMain (evalRuntime .checked false) ["ripcalc".toList, "-d".toList, "1.2.3".toList, "1.2.3.4".toList]).out =
    chars! "failed to parse first address: IP address has 3 chunk(s); expected 4\n" := by decide +kernel
example : stderrText asciiTable (doMain (evalRuntime .checked false) ["ripcalc".toList, "-d".toList, "1.2.3.4".toList, "1::2::3".toList]).out =
    chars! "failed to parse second address: IP address has 2 shortening elements; expected maximum 1\n" := by decide +kernel
example : stderrText asciiTable (doMain (evalRuntime .checked false) ["ripcalc".toList, "-r".toList, "1.2.3.0/24".toList, "33".toList]).out =
    chars! "CIDR value 33 is greater than maximum for IPv4 (32)\n" := by decide +kernel
example : stderrText asciiTable (doMain (evalRuntime .checked false) ["ripcalc".toList, "-r".toList, "1.2.3.0/24".toList, "1.2..0".toList]).out =
    chars! "failed to parse subnet \"1.2..0\": failed to parse mask: EmptyChunk(2)\n" := by decide +kernel
example : stderrText asciiTable (doMain (evalRuntime .checked false) ["ripcalc".toList, "-s".toList, "1.2.3.0/24".toList, "1".toList, "x".toList]).out =
    chars! "failed to parse host count \"x\": invalid digit found in string\n" := by decide +kernel
example : stderrText asciiTable (doMain (evalRuntime .checked false) ["ripcalc".toList, "-s".toList, "1.2.3.0/99999999999999999999".toList, "1".toList]).out =
    chars! "failed to parse network specification \"1.2.3.0/99999999999999999999\": failed to parse CIDR prefix: ParseIntError { kind: PosOverflow }\n" := by decide +kernel
example : stderrText asciiTable (doMain (evalRuntime .checked false) ["ripcalc".toList, "-e".toList, "a".toList, "b".toList]).out =
    chars! "failed to parse network \"a\": unrecognized network specification: \"a\"\nfailed to parse network \"b\": unrecognized network specification: \"b\"\n" := by decide +kernel

end Ripcalc
