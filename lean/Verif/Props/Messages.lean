import Verif.Proofs.Messages
import Verif.Proofs.Tidy
import Verif.Props.Errors
import Verif.Props.Main
import Verif.Props.Minimize
/-!
# C74–C77: messages, exit codes and printable output
-/
namespace Ripcalc

/-! ## The outcomes of a run -/

theorem Pointwise.mem_left {R : α → β → Prop} {as : List α} {bs : List β} (h : Pointwise R as bs) : ∀ a ∈ as, ∃ b ∈ bs, R a b := by
  induction h with
  | nil => simp
  | cons h1 _ ih =>
    intro a ha
    rcases List.mem_cons.mp ha with rfl | ha
    · exact ⟨_, by simp, h1⟩
    · obtain ⟨b, h2, h3⟩ := ih a ha
      exact ⟨b, by simp [h2], h3⟩

/-- The line on standard output with which a split is refused. -/
abbrev splitRefused : Str := "Not enough addresses available for this split.".toList

theorem tidy_enumerate (s : Str) (evs : List OutEv) (h : ArgOutput s evs) :
    (∀ e ∈ evs, TidyEvent e) ∨ ∃ e, NetspecFault s e ∧ evs = [.err (.enumerateNet s e)] := by
  rcases h with ⟨e, h, rfl⟩ | ⟨a, n, xs, h1, h2, rfl⟩ | ⟨a, n, xs, h1, h2, rfl⟩
  · exact .inr ⟨e, (parseNetspec_error s e).mp h, rfl⟩
  · refine .inl fun e he => ?_
    obtain ⟨x, -, rfl⟩ := List.mem_map.mp he
    exact ⟨_, rfl, plain_display4 x⟩
  · refine .inl fun e he => ?_
    obtain ⟨x, -, rfl⟩ := List.mem_map.mp he
    exact ⟨_, rfl, plain_display6 x⟩

/-- What the events of the enumerate mode are. -/
def EnumerateEvent (ss : List Str) (ev : OutEv) : Prop :=
  TidyEvent ev ∨ ∃ s ∈ ss, ∃ e, NetspecFault s e ∧ ev = .err (.enumerateNet s e)

theorem main_outcome (rt : Runtime) (args : List Str) :
    (Tidy (doMain rt args) ∧ (EndsWith none (doMain rt args) ∨ EndsWith (some splitRefused) (doMain rt args) ∧
      ∃ prog mode rest, args = prog :: mode :: rest ∧ (mode = "-s".toList ∨ mode = "--split".toList))) ∨
    (∃ m, doMain rt args = ⟨[.err m], .ok 1⟩) ∨
    (doMain rt args = ⟨[.err .usage], .ok 0⟩ ∧ ∃ prog rest, args = prog :: "--help".toList :: rest) ∨
    (∃ prog mode s rest, args = prog :: mode :: s :: rest ∧ (mode = "-e".toList ∨ mode = "--enumerate".toList) ∧
      (∀ ev ∈ (doMain rt args).out, EnumerateEvent (s :: rest) ev) ∧
      (∀ x ∈ s :: rest, ∀ e, NetspecFault x e → .err (.enumerateNet x e) ∈ (doMain rt args).out) ∧
      ((∃ x ∈ s :: rest, ∃ e, NetspecFault x e) → (doMain rt args).res = .ok 1) ∧
      ((¬ ∃ x ∈ s :: rest, ∃ e, NetspecFault x e) → (doMain rt args).res = .ok 0)) := by
  match args with
  | [] => exact .inr (.inl ⟨_, rfl⟩)
  | [_] => exact .inr (.inl ⟨_, rfl⟩)
  | prog :: mode :: rest =>
    have hd := doMain_cons rt prog mode rest
    have plain : ∀ {x : Cli Nat}, TidyOrMessage x → CommandEnd none x →
        (Tidy x ∧ EndsWith none x) ∨ (∃ m, x = ⟨[.err m], .ok 1⟩) := by
      rintro x (h1 | h1) (h2 | h2)
      · exact .inl ⟨h1, h2⟩
      · exact .inr h2
      · exact .inr h1
      · exact .inr h1
    by_cases hm : mode = "-m".toList ∨ mode = "--minimize".toList
    · rw [hd, if_pos hm]
      rcases plain (command_minimize rt (prog :: mode :: rest)) (end_minimize rt _) with ⟨h1, h2⟩ | h
      · exact .inl ⟨h1, .inl h2⟩
      · exact .inr (.inl h)
    rw [if_neg hm] at hd
    by_cases hm : mode = "-d".toList ∨ mode = "--derange".toList
    · rw [hd, if_pos hm]
      rcases plain (command_derange rt (prog :: mode :: rest)) (end_derange rt _) with ⟨h1, h2⟩ | h
      · exact .inl ⟨h1, .inl h2⟩
      · exact .inr (.inl h)
    rw [if_neg hm] at hd
    by_cases hm : mode = "-s".toList ∨ mode = "--split".toList
    · rw [hd, if_pos hm]
      rcases command_split rt (prog :: mode :: rest) with h1 | h1
      · rcases end_split rt (prog :: mode :: rest) with h2 | h2
        · exact .inl ⟨h1, .inr ⟨h2, _, _, _, rfl, hm⟩⟩
        · exact .inr (.inl h2)
      · exact .inr (.inl h1)
    rw [if_neg hm] at hd
    by_cases hm : mode = "-r".toList ∨ mode = "--resize".toList
    · rw [hd, if_pos hm]
      rcases plain (command_resize rt (prog :: mode :: rest)) (end_resize rt _) with ⟨h1, h2⟩ | h
      · exact .inl ⟨h1, .inl h2⟩
      · exact .inr (.inl h)
    rw [if_neg hm] at hd
    by_cases hm : mode = "-e".toList ∨ mode = "--enumerate".toList
    · rw [hd, if_pos hm]
      match rest with
      | [] => exact .inr (.inl ⟨_, C38_usage rt _ (by simp)⟩)
      | s :: rest =>
        obtain ⟨evss, code, h1, h2, h3, h4⟩ := C38_enumerate rt (prog :: mode :: s :: rest) (by simp)
        simp only [List.drop_succ_cons, List.drop_zero] at h1 h3 h4
        rw [h2]
        refine .inr (.inr (.inr ⟨prog, mode, s, rest, rfl, hm, fun ev hev => ?_, fun x hx e he => ?_, fun ⟨x, hx, e, he⟩ => ?_, fun hno => ?_⟩))
        · obtain ⟨evs, hevs, hev⟩ := List.mem_flatten.mp hev
          obtain ⟨x, hx, ho⟩ := h1.mem_right evs hevs
          rcases tidy_enumerate x evs ho with h | ⟨e, he, rfl⟩
          · exact .inl (h ev hev)
          · exact .inr ⟨x, hx, e, he, List.mem_singleton.mp hev⟩
        · obtain ⟨evs, hevs, ho⟩ := h1.mem_left x hx
          rw [← parseNetspec_error] at he
          rcases ho with ⟨e', h, rfl⟩ | ⟨a, n, xs, h, -, -⟩ | ⟨a, n, xs, h, -, -⟩ <;> rw [he] at h <;> cases h
          exact List.mem_flatten.mpr ⟨_, hevs, by simp⟩
        · rw [h3 ⟨x, hx, e, (parseNetspec_error x e).mpr he⟩]
        · rw [h4 fun x hx => ?_]
          obtain ⟨r, hr⟩ := parseNetspec_total x
          cases r with
          | ok y => exact ⟨y, hr⟩
          | error e => exact absurd ⟨x, hx, e, (parseNetspec_error x e).mp hr⟩ hno
    rw [if_neg hm] at hd
    by_cases hm : mode = "--color-test".toList
    · rw [hd, if_pos hm]
      exact .inl ⟨(tidy_colorTest rt).bind fun _ => tidy_pure _, .inl (EndsWith.bind fun _ => endsWith_zero _)⟩
    rw [if_neg hm] at hd
    by_cases hm : mode = "--help".toList
    · rw [hd, if_pos hm]
      exact .inr (.inr (.inl ⟨rfl, prog, rest, by rw [hm]⟩))
    rw [hd, if_neg hm]
    rcases plain (command_show rt (prog :: mode :: rest)) (end_show rt _) with ⟨h1, h2⟩ | h
    · exact .inl ⟨h1, .inl h2⟩
    · exact .inr (.inl h)

theorem tidy_messages {evs : List OutEv} (h : ∀ e ∈ evs, TidyEvent e) : messages evs = [] := by
  rw [messages, List.filterMap_eq_nil_iff]
  intro e he
  have := h e he
  cases e with
  | out s => rfl
  | styled c s => rfl
  | err m => exact this.elim

theorem mem_messages {evs : List OutEv} {m : ErrMsg} : m ∈ messages evs ↔ .err m ∈ evs := by
  rw [messages, List.mem_filterMap]
  constructor
  · rintro ⟨e, he, h⟩
    cases e with
    | err m' => cases h; exact he
    | out s => cases h
    | styled c s => cases h
  · intro h; exact ⟨_, h, rfl⟩

theorem stderrText_messages (u : CharTable) (evs : List OutEv) : stderrText u evs = (messages evs).flatMap (ErrMsg.text u) := by
  induction evs with
  | nil => rfl
  | cons e evs ih =>
    cases e with
    | out s => exact ih
    | styled c s => exact ih
    | err m =>
      show m.text u ++ stderrText u evs = _
      rw [ih]; rfl

/-! ## C74: a message is one line -/

/-- Whatever the arguments contain (newlines, control characters, escape sequences), a message other than the usage text is
one non-empty line of visible characters. -/
theorem C74_message (u : CharTable) (m : ErrMsg) (hm : m ≠ .usage) : OneLine (m.text u) := message_one_line u m hm

/-- The usage text is twelve lines of visible characters. -/
theorem C74_usage (u : CharTable) : ∃ lines : List Str, (ErrMsg.usage).text u = lines.flatMap (· ++ ['\n']) ∧ lines.length = 12 ∧
    ∀ l ∈ lines, ∀ c ∈ l, Visible c := ⟨usageLines, rfl, rfl, by decide +kernel⟩

/-- Lines below each other, with the heading before the first. -/
def indented (head : Str) : List Str → List Str
  | [] => []
  | x :: xs => (head ++ x) :: xs.map (List.replicate head.length ' ' ++ ·)

/-- The layout of the usage text: the ways to call the program stand below each other, the first without a word for a mode and the
others with the two words for it, and so do the three ways to write a mask. -/
theorem C74_layout (u : CharTable) : ∃ (show_ : Str) (modes : List (Str × Str × Str)) (note : Str),
    (ErrMsg.usage).text u = (indented "Usage: ".toList
        (("ripcalc ".toList ++ show_) :: modes.map (fun m : Str × Str × Str => "ripcalc ".toList ++ m.1 ++ ['|'] ++ m.2.1 ++ [' '] ++ m.2.2)) ++ [[]] ++
      indented "SUBNET is one of: ".toList (["SUBNETMASK", "CIDRPREFIX", "-WILDCARD"].map String.toList) ++ [[], note]).flatMap (· ++ ['\n']) ∧
    modes.map (fun m => (m.1, m.2.1)) = [("-m", "--minimize"), ("-d", "--derange"), ("-s", "--split"), ("-r", "--resize"),
      ("-e", "--enumerate")].map (fun w => (w.1.toList, w.2.toList)) ∧
    (∀ c ∈ show_.head?, c ≠ ' ' ∧ c ≠ '-') ∧ ∀ m ∈ modes, ∀ c ∈ m.2.2.head?, c ≠ ' ' :=
  ⟨"IPADDRESS/SUBNET...".toList,
    [("-m", "--minimize", "IPADDRESS/SUBNET..."), ("-d", "--derange", "IPADDRESS IPADDRESS..."),
     ("-s", "--split", "IPADDRESS/CIDRPREFIX HOSTCOUNT..."), ("-r", "--resize", "IPADDRESS/SUBNET SUBNET"),
     ("-e", "--enumerate", "IPADDRESS/SUBNET")].map (fun m => (m.1.toList, m.2.1.toList, m.2.2.toList)),
    "IPv4 and IPv6 are supported, but cannot be mixed within an invocation.".toList,
    congrArg (List.flatMap (· ++ ['\n'])) (show usageLines = _ by decide +kernel), by decide +kernel, by decide +kernel, by decide +kernel⟩

/-- What any run writes to standard error is nothing, the usage text, or lines of visible characters. -/
theorem C74_stderr (u : CharTable) (rt : Runtime) (args : List Str) :
    stderrText u (doMain rt args).out = (ErrMsg.usage).text u ∨
    ∃ lines : List Str, stderrText u (doMain rt args).out = lines.flatten ∧ ∀ l ∈ lines, OneLine l := by
  have key : ∀ ms : List ErrMsg, .usage ∉ ms → ∃ lines : List Str, ms.flatMap (ErrMsg.text u) = lines.flatten ∧ ∀ l ∈ lines, OneLine l :=
    fun ms h => ⟨ms.map (ErrMsg.text u), by rw [List.flatMap], fun l hl => by
      obtain ⟨m, hm, rfl⟩ := List.mem_map.mp hl
      exact C74_message u m fun he => h (he ▸ hm)⟩
  rw [stderrText_messages]
  rcases main_outcome rt args with ⟨h, -⟩ | ⟨m, h⟩ | ⟨h, -⟩ | ⟨prog, mode, s, rest, -, -, h, -⟩
  · rw [tidy_messages h]; exact .inr (key [] (by simp))
  · rw [h]
    by_cases hm : m = .usage
    · left; rw [hm]; exact List.append_nil _
    · exact .inr (key [m] (by simpa using Ne.symm hm))
  · left; rw [h]; exact List.append_nil _
  · refine .inr (key _ fun hu => ?_)
    rcases h _ (mem_messages.mp hu) with h | ⟨x, -, e, -, h⟩
    · exact h
    · cases h

/-! ## C75: a message can be read back -/

/-- A quoted argument can be read back, whatever it contains and whatever follows it. -/
theorem C75_quote (u : CharTable) (s r : Str) : readQuoted (quoteStr u s ++ r) = some (s, r) := readQuoted_quoteStr u s r

/-- Different messages have different texts: the wording tells the message apart from every other, with all its details. -/
theorem C75_message (u u' : CharTable) (m m' : ErrMsg) (h : m.text u = m'.text u') : m = m' := text_inj h

theorem text_cancel {u u' : CharTable} {m m' : ErrMsg} {r r' : Str} (h : m.text u ++ r = m'.text u' ++ r') : m = m' ∧ r = r' := by
  have head : ∀ (u : CharTable) (m : ErrMsg), m ≠ .usage → (m.text u).head? ≠ some 'U' ∧ m.text u ≠ [] := by
    intro u m hm
    cases m
    case usage => exact absurd rfl hm
    case showParse e => cases e <;> exact ⟨by simp [ErrMsg.text, ErrMsg.lines, netspecErrText], by simp [ErrMsg.text, ErrMsg.lines]⟩
    all_goals exact ⟨by simp [ErrMsg.text, ErrMsg.lines], by simp [ErrMsg.text, ErrMsg.lines]⟩
  have line : ∀ {u u' : CharTable} {m m' : ErrMsg} {r r' : Str}, m ≠ .usage → m' ≠ .usage →
      m.text u ++ r = m'.text u' ++ r' → m.text u = m'.text u' ∧ r = r' := by
    intro u u' m m' r r' hm hm' h
    obtain ⟨b, h1, -, h2⟩ := C74_message u m hm
    obtain ⟨b', h1', -, h2'⟩ := C74_message u' m' hm'
    rw [h1, h1', List.append_assoc, List.append_assoc] at h
    have hb : ∀ c ∈ b, c ≠ '\n' := fun c hc he => by have := (h2 c hc).1; rw [he] at this; revert this; decide
    have hb' : ∀ c ∈ b', c ≠ '\n' := fun c hc he => by have := (h2' c hc).1; rw [he] at this; revert this; decide
    rw [h1, h1']
    clear h1 h1' h2 h2'
    induction b generalizing b' with
    | nil =>
      cases b' with
      | nil => simp only [List.nil_append, List.cons_append, List.cons.injEq, true_and] at h; exact ⟨rfl, h⟩
      | cons c b' => simp only [List.nil_append, List.cons_append, List.cons.injEq] at h; exact absurd h.1.symm (hb' c (by simp))
    | cons c b ih =>
      cases b' with
      | nil => simp only [List.nil_append, List.cons_append, List.cons.injEq] at h; exact absurd h.1 (hb c (by simp))
      | cons c' b' =>
        simp only [List.cons_append, List.cons.injEq] at h
        have := ih b' h.2 (fun x hx => hb x (by simp [hx])) (fun x hx => hb' x (by simp [hx]))
        exact ⟨by rw [h.1]; simpa using this.1, this.2⟩
  have uhead : ∀ (u : CharTable) (r : Str), ((ErrMsg.usage).text u ++ r).head? = some 'U' := fun u r => by
    obtain ⟨t, ht⟩ := usage_text u
    rw [ht]; rfl
  by_cases hm : m = .usage
  · subst hm
    by_cases hm' : m' = .usage
    · subst hm'
      exact ⟨rfl, List.append_cancel_left (show (ErrMsg.usage).text u ++ r = (ErrMsg.usage).text u ++ r' from h)⟩
    · have := uhead u r
      rw [h, List.head?_append] at this
      obtain ⟨h1, h2⟩ := head u' m' hm'
      cases ht : m'.text u' with
      | nil => exact absurd ht h2
      | cons c t => rw [ht] at this h1; exact absurd this h1
  · by_cases hm' : m' = .usage
    · subst hm'
      have := uhead u' r'
      rw [← h, List.head?_append] at this
      obtain ⟨h1, h2⟩ := head u m hm
      cases ht : m.text u with
      | nil => exact absurd ht h2
      | cons c t => rw [ht] at this h1; exact absurd this h1
    · obtain ⟨h1, h2⟩ := line hm hm' h
      exact ⟨text_inj h1, h2⟩

/-- All of standard error can be read back: the text determines the messages, in order. -/
theorem C75_stderr (u u' : CharTable) (evs evs' : List OutEv) (h : stderrText u evs = stderrText u' evs') : messages evs = messages evs' := by
  rw [stderrText_messages, stderrText_messages] at h
  have hne : ∀ (u : CharTable) (m : ErrMsg), m.text u ≠ [] := by
    intro u m
    by_cases hm : m = .usage
    · subst hm; obtain ⟨t, ht⟩ := usage_text u; rw [ht]; simp
    · obtain ⟨b, h1, -⟩ := C74_message u m hm; rw [h1]; simp
  generalize messages evs = ms at h
  generalize messages evs' = ms' at h
  induction ms generalizing ms' with
  | nil =>
    cases ms' with
    | nil => rfl
    | cons m ms' => exact absurd (List.append_eq_nil_iff.mp h.symm).1 (hne u' m)
  | cons m ms ih =>
    cases ms' with
    | nil => exact absurd (List.append_eq_nil_iff.mp h).1 (hne u m)
    | cons m' ms' =>
      obtain ⟨rfl, h2⟩ := text_cancel (show m.text u ++ ms.flatMap (ErrMsg.text u) = m'.text u' ++ ms'.flatMap (ErrMsg.text u') from h)
      rw [ih ms' h2]

/-! ## C76: messages and exit codes -/

/-- When a message is written, it is all the output and the exit code is 1; the exceptions are the help text, and the
enumerate mode, which has a message for every malformed argument. -/
theorem C76_message (rt : Runtime) (args : List Str) (m : ErrMsg) (h : m ∈ messages (doMain rt args).out) :
    doMain rt args = ⟨[.err m], .ok 1⟩ ∨
    (doMain rt args = ⟨[.err .usage], .ok 0⟩ ∧ ∃ prog rest, args = prog :: "--help".toList :: rest) ∨
    (∃ prog mode ss s e, args = prog :: mode :: ss ∧ (mode = "-e".toList ∨ mode = "--enumerate".toList) ∧ s ∈ ss ∧
      NetspecFault s e ∧ m = .enumerateNet s e ∧ (doMain rt args).res = .ok 1) := by
  rcases main_outcome rt args with ⟨h1, -⟩ | ⟨m', h1⟩ | h1 | ⟨prog, mode, s, rest, rfl, hm, h1, -, h2, -⟩
  · rw [tidy_messages h1] at h; cases h
  · rw [h1] at h ⊢
    rw [List.mem_singleton.mp (show m ∈ [m'] from h)]
    exact .inl rfl
  · exact .inr (.inl h1)
  · refine .inr (.inr ?_)
    rcases h1 _ (mem_messages.mp h) with h' | ⟨x, hx, e, he, h'⟩
    · exact h'.elim
    · cases h'
      exact ⟨prog, mode, s :: rest, x, e, rfl, hm, hx, he, rfl, h2 ⟨x, hx, e, he⟩⟩

/-- A run that ends with exit code 1 says why: there is a message on standard error, or, in the split mode, the line that
there are not enough addresses is the end of standard output. -/
theorem C76_failure (rt : Runtime) (args : List Str) (h : (doMain rt args).res = .ok 1) :
    messages (doMain rt args).out ≠ [] ∨
    ((∃ prog mode rest, args = prog :: mode :: rest ∧ (mode = "-s".toList ∨ mode = "--split".toList)) ∧
      ∃ pre, visible (doMain rt args).out = pre ++ "Not enough addresses available for this split.\n".toList) := by
  rcases main_outcome rt args with ⟨-, h1 | ⟨h1, hs⟩⟩ | ⟨m', h1⟩ | ⟨h1, -⟩ | ⟨prog, mode, s, rest, rfl, hm, h1, h2, h3, h4⟩
  · rcases h1 1 h with h | ⟨-, _, _, h, -⟩ <;> cases h
  · rcases h1 1 h with h | ⟨-, line, pre, hl, ho⟩
    · cases h
    · cases hl
      refine .inr ⟨hs, visible pre, ?_⟩
      rw [ho, visible, visible, cells, List.flatMap_append, List.map_append]
      rfl
  · rw [h1]; exact .inl (by simp [messages, messageOf])
  · rw [h1] at h; cases h
  · left
    by_cases he : ∃ x ∈ s :: rest, ∃ e, NetspecFault x e
    · obtain ⟨x, hx, e, he⟩ := he
      exact List.ne_nil_of_mem (mem_messages.mpr (h2 x hx e he))
    · rw [h4 he] at h; cases h

/-- A run that ends with exit code 0 has written no message, unless it was asked for help. -/
theorem C76_success (rt : Runtime) (args : List Str) (h : (doMain rt args).res = .ok 0) :
    messages (doMain rt args).out = [] ∨ (∃ prog rest, args = prog :: "--help".toList :: rest) ∧ messages (doMain rt args).out = [.usage] := by
  by_cases hm : messages (doMain rt args).out = []
  · exact .inl hm
  · obtain ⟨m, hm⟩ := List.exists_mem_of_ne_nil _ hm
    rcases C76_message rt args m hm with h1 | ⟨h1, h2⟩ | ⟨_, _, _, _, _, -, -, -, -, -, h1⟩
    · rw [h1] at h; cases h
    · refine .inr ⟨h2, by rw [h1]; rfl⟩
    · rw [h1] at h; cases h

/-! ## C77: printable output -/

/-- Every run writes only printable ASCII and line ends to standard output, whatever the arguments contain; coloured text
contains no line end. -/
theorem C77_printable (rt : Runtime) (args : List Str) :
    ∀ ev ∈ (doMain rt args).out, TidyEvent ev ∨ ∃ m, ev = .err m := by
  rcases main_outcome rt args with ⟨h, -⟩ | ⟨m, h⟩ | ⟨h, -⟩ | ⟨_, _, _, _, -, -, h, -⟩
  · exact fun ev hev => .inl (h ev hev)
  · rw [h]; exact fun ev hev => .inr ⟨m, List.mem_singleton.mp hev⟩
  · rw [h]; exact fun ev hev => .inr ⟨_, List.mem_singleton.mp hev⟩
  · intro ev hev
    rcases h ev hev with h | ⟨x, -, e, -, h⟩
    · exact .inl h
    · exact .inr ⟨_, h⟩

/-- The same for the characters. -/
theorem C77_characters (rt : Runtime) (args : List Str) :
    ∀ x ∈ cells (doMain rt args).out, (0x20 ≤ x.2.toNat ∧ x.2.toNat < 0x7F) ∨ x = (none, '\n') := by
  intro x hx
  obtain ⟨ev, hev, hx⟩ := List.mem_flatMap.mp hx
  rcases C77_printable rt args ev hev with h | ⟨m, rfl⟩
  · cases ev with
    | out s =>
      obtain ⟨line, rfl, hl⟩ := h
      obtain ⟨c, hc, rfl⟩ := List.mem_map.mp hx
      rcases List.mem_append.mp hc with hc | hc
      · exact .inl (hl c hc)
      · rw [List.mem_singleton.mp hc]; exact .inr rfl
    | styled clr s =>
      obtain ⟨c, hc, rfl⟩ := List.mem_map.mp hx
      exact .inl (h c hc)
    | err m => exact h.elim
  · cases hx

/-- An ASCII table, for the examples. -/
def asciiTable : CharTable := ⟨fun _ => false, fun _ _ => rfl⟩

/-- An argument with a newline and an escape character. -/
example : ErrMsg.text asciiTable (.showParse (.unrecognized ['1', '\n', '\x1b', '[', '"'])) =
    "unrecognized network specification: \"1\\n\\u{1b}[\\\"\"\n".toList := by decide +kernel
example : ErrMsg.text asciiTable (.derangeFirst (.chunkOutOfRange 1 256 0 255)) =
    "failed to parse first address: IP address chunk with index 1 (256) is out of range 0 <= n <= 255 chunk\n".toList := by
  decide +kernel
example : ErrMsg.text asciiTable (.resizeNet "é".toList (.address (.chunkParseError 2 "x".toList .invalidDigit))) =
    "failed to parse network spec \"\\u{e9}\": failed to parse address: ChunkParseError(2, \"x\", ParseIntError { kind: InvalidDigit })\n".toList := by
  decide +kernel

/-- One good and one malformed argument in the enumerate mode. -/
example : NetspecFault "bad".toList (.unrecognized "bad".toList) := (parseNetspec_error _ _).mp (by decide +kernel)

example : (doMain (evalRuntime .checked true) ["ripcalc".toList, "x\ny".toList]).out = [.err (.showParse (.unrecognized "x\ny".toList))] := by
  decide +kernel

end Ripcalc
