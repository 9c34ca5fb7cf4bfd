import Verif.Proofs.Utf8
import Verif.Props.Terminal
/-!
# Properties of the process
-/
namespace Ripcalc
open AddrSpec LawfulIpAddr

/-- The arguments of a process are the bytes of these texts. -/
def ArgTexts (argv : List (List Byte)) (args : List Str) : Prop := Pointwise (fun bs s => Utf8 s bs) argv args

theorem envArgs_iff (argv : List (List Byte)) : ∀ args, envArgs argv = some args ↔ ArgTexts argv args := by
  induction argv with
  | nil =>
    intro args
    constructor
    · rintro ⟨⟩; exact .nil
    · rintro ⟨⟩; rfl
  | cons a as ih =>
    intro args
    rw [envArgs]
    constructor
    · intro h
      cases hd : utf8Decode a with
      | none => rw [hd] at h; cases h
      | some s =>
        rw [hd] at h
        obtain ⟨l, h1, rfl⟩ := Option.map_eq_some_iff.mp h
        exact .cons ((utf8Decode_iff _ _).mp hd) ((ih l).mp h1)
    · rintro (_ | ⟨h1, h2⟩)
      rw [(utf8Decode_iff _ _).mpr h1, (ih _).mpr h2]
      rfl

/-! ## C89: the process -/

/-- A byte string is the text of at most one string, and a string has exactly one byte string. -/
theorem C89_text (bs : List Byte) (s : Str) : (∀ t, Utf8 s bs → Utf8 t bs → s = t) ∧ ∃ b, Utf8 s b ∧ ∀ b', Utf8 s b' → b' = b := by
  refine ⟨fun t h1 h2 => ?_, utf8Encode s, (utf8_iff _ _).mpr rfl, fun b' h => (utf8_iff _ _).mp h⟩
  have e1 := (utf8Decode_iff _ _).mpr h1
  rw [(utf8Decode_iff _ _).mpr h2] at e1
  exact (Option.some.inj e1).symm

/-- If an argument is not UTF-8, nothing is written to standard output and the status is 101. -/
theorem C89_not_text (rt : Runtime) (u : CharTable) (argv : List (List Byte)) (bs : List Byte) (h : bs ∈ argv) (hn : ∀ s, ¬ Utf8 s bs) :
    process rt u argv = ⟨[], [], .status 101⟩ := by
  have : envArgs argv = none := by
    cases he : envArgs argv with
    | none => rfl
    | some args =>
      obtain ⟨s, -, hs⟩ := Pointwise.mem ((envArgs_iff _ _).mp he) bs h
      exact absurd hs (hn s)
  rw [process, this]

/-- Otherwise the process writes what `do_main` writes for these texts, in UTF-8, and ends as it ends. -/
theorem C89_runs (rt : Runtime) (u : CharTable) (argv : List (List Byte)) (args : List Str) (h : ArgTexts argv args) :
    Utf8 (stdoutText (doMain rt args).out) (process rt u argv).stdout ∧ Utf8 (stderrText u (doMain rt args).out) (process rt u argv).stderr ∧
    (∀ c, (doMain rt args).res = .ok c → (process rt u argv).ending = .status c) ∧
    (∀ p, (doMain rt args).res = .panic p → (process rt u argv).ending = .status 101) ∧
    ((doMain rt args).res = .diverge → (process rt u argv).ending = .never) := by
  rw [process, (envArgs_iff _ _).mpr h]
  refine ⟨(utf8_iff _ _).mpr rfl, (utf8_iff _ _).mpr rfl, fun c hc => ?_, fun p hp => ?_, fun hd => ?_⟩
  · dsimp only; rw [hc]
  · dsimp only; rw [hp]
  · dsimp only; rw [hd]

theorem texts_or (argv : List (List Byte)) : (∃ args, ArgTexts argv args) ∨ ∃ bs ∈ argv, ∀ s, ¬ Utf8 s bs := by
  induction argv with
  | nil => exact .inl ⟨[], .nil⟩
  | cons a as ih =>
    cases hd : utf8Decode a with
    | none => exact .inr ⟨a, by simp, fun s hs => by rw [(utf8Decode_iff _ _).mpr hs] at hd; cases hd⟩
    | some s =>
      rcases ih with ⟨args, h⟩ | ⟨bs, h1, h2⟩
      · exact .inl ⟨s :: args, .cons ((utf8Decode_iff _ _).mp hd) h⟩
      · exact .inr ⟨bs, by simp [h1], h2⟩

/-- The status is 0, 1 or 101. -/
theorem C89_status (rt : Runtime) (u : CharTable) (argv : List (List Byte)) :
    (process rt u argv).ending ∈ [.status 0, .status 1, .status 101, .never] := by
  rcases texts_or argv with ⟨args, h⟩ | ⟨bs, h1, h2⟩
  · obtain ⟨-, -, k1, k2, k3⟩ := C89_runs rt u argv args h
    rcases main_cases rt args with h | h | ⟨⟨p, h⟩ | h, -⟩
    · rw [k1 _ h]; simp
    · rw [k1 _ h]; simp
    · rw [k2 _ h]; simp
    · rw [k3 h]; simp
  · rw [C89_not_text rt u argv bs h1 h2]; simp

/-- The status is 101 exactly if an argument is not UTF-8 or `do_main` panics. -/
theorem C89_panics (rt : Runtime) (u : CharTable) (argv : List (List Byte)) : (process rt u argv).ending = .status 101 ↔
    (∃ bs ∈ argv, ∀ s, ¬ Utf8 s bs) ∨ ∃ args p, ArgTexts argv args ∧ (doMain rt args).res = .panic p := by
  constructor
  · intro he
    rcases texts_or argv with ⟨args, h⟩ | h
    · obtain ⟨-, -, k1, k2, k3⟩ := C89_runs rt u argv args h
      rcases main_cases rt args with h' | h' | ⟨⟨p, h'⟩ | h', -⟩
      · rw [k1 _ h'] at he; cases he
      · rw [k1 _ h'] at he; cases he
      · exact .inr ⟨args, p, h, h'⟩
      · rw [k3 h'] at he; cases he
    · exact .inl h
  · rintro (⟨bs, h1, h2⟩ | ⟨args, p, h1, h2⟩)
    · rw [C89_not_text rt u argv bs h1 h2]
    · exact (C89_runs rt u argv args h1).2.2.2.1 p h2

theorem range_diverge {A : Type} [IpAddr A] [AddrSpec A] [LawfulIpAddr A] (pr : Profile) (a b : A) :
    rangeToSubnets pr a b = .diverge ↔ pr = .wrapping ∧ min (val a) (val b) = 0 ∧ max (val a) (val b) = 2 ^ width A - 1 := by
  constructor
  · intro h
    by_cases hmax : max (val a) (val b) = 2 ^ width A - 1
    · by_cases hmin : min (val a) (val b) = 0
      · refine ⟨?_, hmin, hmax⟩
        cases pr with
        | checked => rw [(C39_whole_space a b hmax hmin).1] at h; cases h
        | wrapping => rfl
      · rw [C39_top_panics pr a b hmax hmin] at h; cases h
    · obtain ⟨ns, h'⟩ := (C39_returns_iff pr a b).mpr (by
        intro x hx
        rw [between_iff] at hx
        have := val_lt a
        have := val_lt b
        omega)
      rw [h'] at h; cases h
  · rintro ⟨rfl, h1, h2⟩
    exact (C39_whole_space a b h2 h1).2

/-- The process never ends exactly if it is a build without overflow checks and is asked to convert the range of all addresses. -/
theorem C89_endless (rt : Runtime) (u : CharTable) (argv : List (List Byte)) : (process rt u argv).ending = .never ↔
    rt.profile = .wrapping ∧ ∃ prog mode x y, ArgTexts argv [prog, mode, x, y] ∧ (mode = "-d".toList ∨ mode = "--derange".toList) ∧
      ((∃ a b : V4, parseAddr x = .ok (.ok (.ipv4 a)) ∧ parseAddr y = .ok (.ok (.ipv4 b)) ∧ min (val a) (val b) = 0 ∧ max (val a) (val b) = 2 ^ 32 - 1) ∨
       (∃ a b : V6, parseAddr x = .ok (.ok (.ipv6 a)) ∧ parseAddr y = .ok (.ok (.ipv6 b)) ∧ min (val a) (val b) = 0 ∧ max (val a) (val b) = 2 ^ 128 - 1)) := by
  constructor
  · intro he
    rcases texts_or argv with ⟨args, h⟩ | ⟨bs, h1, h2⟩
    · obtain ⟨-, -, k1, k2, k3⟩ := C89_runs rt u argv args h
      rcases main_cases rt args with h' | h' | ⟨⟨p, h'⟩ | h', prog, mode, rest, rfl, hm⟩
      · rw [k1 _ h'] at he; cases he
      · rw [k1 _ h'] at he; cases he
      · rw [k2 _ h'] at he; cases he
      · simp only [List.map_cons, List.map_nil, List.mem_cons, List.not_mem_nil, or_false] at hm
        have hm : (mode = "-d".toList ∨ mode = "--derange".toList) ∨ (mode = "-s".toList ∨ mode = "--split".toList) := by
          rcases hm with hm | hm | hm | hm
          · exact .inl (.inl hm)
          · exact .inl (.inr hm)
          · exact .inr (.inl hm)
          · exact .inr (.inr hm)
        rcases hm with hm | hm
        · rw [(C56_dispatch rt prog mode rest).2.1 hm] at h'
          by_cases hlen : rest.length = 2
          · obtain ⟨x, y, rfl⟩ : ∃ u v, rest = [u, v] := by
              match rest, hlen with
              | [u, v], _ => exact ⟨u, v, rfl⟩
            obtain ⟨e1, e2, e3, e4⟩ := (derange_errors rt [prog, mode, x, y]).2 prog mode x y rfl
            obtain ⟨r, hr⟩ := (C36_parse_addr x).1
            obtain ⟨r', hr'⟩ := (C36_parse_addr y).1
            cases r with
            | error e => rw [e1 e hr] at h'; cases h'
            | ok c =>
              cases r' with
              | error e => rw [e2 c e hr hr'] at h'; cases h'
              | ok d =>
                cases c with
                | ipv4 a =>
                  cases d with
                  | ipv4 b =>
                    obtain ⟨c1, c2, c3⟩ := C39_command_v4 rt prog mode x y a b hr hr'
                    cases hq : rangeToSubnets rt.profile a b with
                    | ok ns => rw [c1 ns hq] at h'; cases h'
                    | panic p => rw [c2 p hq] at h'; cases h'
                    | diverge =>
                      obtain ⟨q1, q2, q3⟩ := (range_diverge _ _ _).mp hq
                      exact ⟨q1, prog, mode, x, y, h, hm, .inl ⟨a, b, hr, hr', q2, q3⟩⟩
                  | ipv6 b => rw [e3 a b hr hr'] at h'; cases h'
                | ipv6 a =>
                  cases d with
                  | ipv6 b =>
                    obtain ⟨c1, c2, c3⟩ := C39_command_v6 rt prog mode x y a b hr hr'
                    cases hq : rangeToSubnets rt.profile a b with
                    | ok ns => rw [c1 ns hq] at h'; cases h'
                    | panic p => rw [c2 p hq] at h'; cases h'
                    | diverge =>
                      obtain ⟨q1, q2, q3⟩ := (range_diverge _ _ _).mp hq
                      exact ⟨q1, prog, mode, x, y, h, hm, .inr ⟨a, b, hr, hr', q2, q3⟩⟩
                  | ipv4 b => rw [e4 a b hr hr'] at h'; cases h'
          · rw [(derange_errors rt _).1 (by simp [hlen])] at h'; cases h'
        · rcases (C66_split rt prog mode rest hm).1 with ⟨c, hc⟩ | hc
          · rw [hc] at h'; cases h'
          · rw [hc] at h'; cases h'
    · rw [C89_not_text rt u argv bs h1 h2] at he; cases he
  · rintro ⟨hp, prog, mode, x, y, h, hm, h'⟩
    refine (C89_runs rt u argv _ h).2.2.2.2 ?_
    rw [(C56_dispatch rt prog mode [x, y]).2.1 hm]
    rcases h' with ⟨a, b, h1, h2, h3, h4⟩ | ⟨a, b, h1, h2, h3, h4⟩
    · rw [(C39_command_v4 rt prog mode x y a b h1 h2).2.2 ((range_diverge _ _ _).mpr ⟨hp, h3, h4⟩)]
    · rw [(C39_command_v6 rt prog mode x y a b h1 h2).2.2 ((range_diverge _ _ _).mpr ⟨hp, h3, h4⟩)]

theorem encode_ascii {s : Str} (h : ∀ c ∈ s, c.toNat < 0x80) : utf8Encode s = s.map fun c => BitVec.ofNat 8 c.toNat := by
  induction s with
  | nil => rfl
  | cons c s ih =>
    rw [utf8Encode, List.flatMap_cons, utf8EncodeChar, if_pos (h c (by simp))]
    exact congrArg (_ :: ·) (ih fun c hc => h c (by simp [hc]))

theorem stdout_chars (evs : List OutEv) (h : ∀ e ∈ evs, TidyEvent e ∨ ∃ m, e = .err m) :
    ∀ c ∈ stdoutText evs, (0x20 ≤ c.toNat ∧ c.toNat < 0x7F) ∨ c = '\n' ∨ c = '\x1b' := by
  induction evs with
  | nil => intro c hc; cases hc
  | cons e evs ih =>
    have ih := ih fun e he => h e (by simp [he])
    intro c hc
    rcases h e (by simp) with he | ⟨m, rfl⟩
    · cases e with
      | out s =>
        obtain ⟨line, rfl, hl⟩ := he
        rw [stdoutText, List.mem_append, List.mem_append] at hc
        rcases hc with (hc | hc) | hc
        · exact .inl (hl c hc)
        · rw [List.mem_singleton.mp hc]; exact .inr (.inl rfl)
        · exact ih c hc
      | styled clr s =>
        rw [stdoutText, List.mem_append] at hc
        rcases hc with hc | hc
        · have hpre : ∃ p, styledText clr s = p ++ s ++ ['\x1b', '[', '0', 'm'] ∧
              ∀ c ∈ p, (0x20 ≤ c.toNat ∧ c.toNat < 0x7F) ∨ c = '\n' ∨ c = '\x1b' := by
            cases clr <;> exact ⟨_, rfl, by decide +kernel⟩
          obtain ⟨p, h1, h2⟩ := hpre
          rw [h1, List.mem_append, List.mem_append] at hc
          rcases hc with (hc | hc) | hc
          · exact h2 c hc
          · exact .inl (he c hc)
          · revert hc; revert c; decide +kernel
        · exact ih c hc
      | err m => exact he.elim
    · exact ih c hc

/-- Every byte on standard output is printable ASCII, a line end or, with colours, the escape character; there is one byte for
each character. -/
theorem C89_stdout (rt : Runtime) (u : CharTable) (argv : List (List Byte)) :
    (∀ b ∈ (process rt u argv).stdout, (0x20 ≤ b.toNat ∧ b.toNat < 0x7F) ∨ b.toNat = 10 ∨ (rt.colorsEnabled = true ∧ b.toNat = 27)) ∧
    ∀ args, ArgTexts argv args → (process rt u argv).stdout = (stdoutText (doMain rt args).out).map fun c => BitVec.ofNat 8 c.toNat := by
  have key : ∀ args, ArgTexts argv args → (process rt u argv).stdout = (stdoutText (doMain rt args).out).map fun c => BitVec.ofNat 8 c.toNat := by
    intro args h
    rw [(utf8_iff _ _).mp (C89_runs rt u argv args h).1, encode_ascii]
    intro c hc
    rcases stdout_chars _ (C77_printable rt args) c hc with h | rfl | rfl
    · omega
    · decide
    · decide
  refine ⟨fun b hb => ?_, key⟩
  rcases texts_or argv with ⟨args, h⟩ | ⟨bs, h1, h2⟩
  · rw [key args h] at hb
    obtain ⟨c, hc, rfl⟩ := List.mem_map.mp hb
    rcases stdout_chars _ (C77_printable rt args) c hc with h | rfl | rfl
    · rw [byte_toNat (by omega)]; exact .inl h
    · exact .inr (.inl rfl)
    · refine .inr (.inr ⟨?_, rfl⟩)
      cases hcol : rt.colorsEnabled with
      | true => rfl
      | false => exact absurd hc (C78_uncolored rt hcol args)
  · rw [C89_not_text rt u argv bs h1 h2] at hb; cases hb

theorem stderr_nil (u : CharTable) (evs : List OutEv) (h : messages evs = []) : stderrText u evs = [] := by
  induction evs with
  | nil => rfl
  | cons e evs ih =>
    cases e with
    | out s => exact ih h
    | styled c s => exact ih h
    | err m => cases h

/-- With status 0 standard error is empty, except for `--help`. -/
theorem C89_success (rt : Runtime) (u : CharTable) (argv : List (List Byte)) (h : (process rt u argv).ending = .status 0) :
    (process rt u argv).stderr = [] ∨ ∃ prog rest, ArgTexts argv (prog :: "--help".toList :: rest) ∧ (process rt u argv).stdout = [] := by
  rcases texts_or argv with ⟨args, ha⟩ | ⟨bs, h1, h2⟩
  · obtain ⟨k1, k2, k3, k4, k5⟩ := C89_runs rt u argv args ha
    cases hr : (doMain rt args).res with
    | ok c =>
      rw [k3 c hr] at h
      cases h
      rcases C76_success rt args hr with hm | ⟨⟨prog, rest, rfl⟩, -⟩
      · left
        rw [(utf8_iff _ _).mp k2, stderr_nil u _ hm]; rfl
      · refine .inr ⟨prog, rest, ha, ?_⟩
        rw [(utf8_iff _ _).mp k1, (C56_dispatch rt prog "--help".toList rest).2.2.2.2.2.1 rfl]
        rfl
    | panic p => rw [k4 p hr] at h; cases h
    | diverge => rw [k5 hr] at h; cases h
  · rw [C89_not_text rt u argv bs h1 h2] at h; cases h

theorem stderr_cons (u : CharTable) (evs : List OutEv) (h : messages evs ≠ []) : stderrText u evs ≠ [] := by
  rw [stderrText_messages]
  cases hm : messages evs with
  | nil => exact absurd hm h
  | cons m ms =>
    rw [List.flatMap_cons]
    have : m.text u ≠ [] := by
      by_cases hu : m = .usage
      · subst hu
        obtain ⟨lines, h1, h2, -⟩ := C74_usage u
        rw [h1]
        cases lines with
        | nil => cases h2
        | cons l ls => simp
      · obtain ⟨body, h1, -⟩ := C74_message u m hu
        rw [h1]; simp
    intro he
    exact this (List.append_eq_nil_iff.mp he).1

theorem encode_nil {s : Str} (h : utf8Encode s = []) : s = [] := by
  have := utf8Decode_encode s
  rw [h] at this
  exact (Option.some.inj this).symm

/-- Status 1 is never silent: there is something on standard error, or what a terminal shows of standard output ends with the
line that there are not enough addresses. -/
theorem C89_failure (rt : Runtime) (u : CharTable) (argv : List (List Byte)) (h : (process rt u argv).ending = .status 1) :
    (process rt u argv).stderr ≠ [] ∨
    ∃ t pre, Utf8 t (process rt u argv).stdout ∧
      (Terminal.initial.run t).2.map (·.2) = pre ++ "Not enough addresses available for this split.\n".toList := by
  rcases texts_or argv with ⟨args, ha⟩ | ⟨bs, h1, h2⟩
  · obtain ⟨k1, k2, k3, k4, k5⟩ := C89_runs rt u argv args ha
    cases hr : (doMain rt args).res with
    | ok c =>
      rw [k3 c hr] at h
      cases h
      rcases C76_failure rt args hr with hm | ⟨-, pre, hv⟩
      · left
        rw [(utf8_iff _ _).mp k2]
        exact fun he => stderr_cons u _ hm (encode_nil he)
      · refine .inr ⟨_, pre, k1, ?_⟩
        rw [C78_terminal rt args, ← hv, visible, List.map_map]
        rfl
    | panic p => rw [k4 p hr] at h; cases h
    | diverge => rw [k5 hr] at h; cases h
  · rw [C89_not_text rt u argv bs h1 h2] at h; cases h

/-! The cases exist: a text outside ASCII and bytes that are no text; a run of every ending. -/

/-- The bytes of a text, for the examples. -/
def argOf (s : String) : List Byte := utf8Encode s.toList

theorem argTexts_four (a b c d : String) : ArgTexts [argOf a, argOf b, argOf c, argOf d] [a.toList, b.toList, c.toList, d.toList] :=
  .cons ((utf8_iff _ _).mpr rfl) (.cons ((utf8_iff _ _).mpr rfl) (.cons ((utf8_iff _ _).mpr rfl) (.cons ((utf8_iff _ _).mpr rfl) .nil)))

example : Utf8 "ä€😀".toList [0xC3, 0xA4, 0xE2, 0x82, 0xAC, 0xF0, 0x9F, 0x98, 0x80] := (utf8Decode_iff _ _).mp (by decide +kernel)

example : ∀ s, ¬ Utf8 s [0xC0, 0xAF] := fun s h => by
  have := (utf8Decode_iff _ _).mpr h
  rw [show utf8Decode [0xC0, 0xAF] = none by decide +kernel] at this
  cases this

/-- A surrogate is no text. -/
example : ∀ s, ¬ Utf8 s [0xED, 0xA0, 0x80] := fun s h => by
  have := (utf8Decode_iff _ _).mpr h
  rw [show utf8Decode [0xED, 0xA0, 0x80] = none by decide +kernel] at this
  cases this

example (u : CharTable) : (process (evalRuntime .checked false) u [argOf "ripcalc", argOf "-d", argOf "192.0.2.9", argOf "192.0.2.77"]).ending = .status 0 :=
  (C89_runs _ u _ _ (argTexts_four _ _ _ _)).2.2.1 0 (by
    obtain ⟨ns, h⟩ := (C39_returns_iff .checked (V4.mk 0xC0000209) (V4.mk 0xC000024D)).mpr (fun x hx => by
      rw [between_iff] at hx
      have h1 : val (V4.mk 0xC0000209) = 0xC0000209 := rfl
      have h2 : val (V4.mk 0xC000024D) = 0xC000024D := rfl
      have h3 : width V4 = 32 := rfl
      rw [h1, h2] at hx
      rw [h3]
      omega)
    rw [(C56_dispatch _ _ _ _).2.1 (.inl rfl),
      (C39_command_v4 _ _ _ _ _ (V4.mk 0xC0000209) (V4.mk 0xC000024D) (by decide +kernel) (by decide +kernel)).1 _ h])

example (u : CharTable) : (process (evalRuntime .checked false) u [argOf "ripcalc", argOf "-d", argOf "192.0.2.0", argOf "::1"]).ending = .status 1 :=
  (C89_runs _ u _ _ (argTexts_four _ _ _ _)).2.2.1 1 (by
    rw [(C56_dispatch _ _ _ _).2.1 (.inl rfl), ((derange_errors _ _).2 _ _ _ _ rfl).2.2.1 (V4.mk 0xC0000200) (V6.mk 0 1) (by decide +kernel) (by decide +kernel)])

example (u : CharTable) : (process (evalRuntime .checked false) u [argOf "ripcalc", argOf "-d", argOf "0.0.0.0", argOf "255.255.255.255"]).ending = .status 101 := by
  rw [C89_panics]
  refine .inr ⟨["ripcalc".toList, "-d".toList, "0.0.0.0".toList, "255.255.255.255".toList], .overflow,
    argTexts_four _ _ _ _, ?_⟩
  rw [(C56_dispatch _ _ _ _).2.1 (.inl rfl)]
  rw [(C39_command_v4 _ _ _ _ _ (V4.mk 0) (V4.mk 0xFFFFFFFF) (by decide +kernel) (by decide +kernel)).2.1 .overflow
    ((C39_whole_space _ _ (by decide +kernel) (by decide +kernel)).1)]

example (u : CharTable) : (process (evalRuntime .wrapping false) u [argOf "ripcalc", argOf "-d", argOf "0.0.0.0", argOf "255.255.255.255"]).ending = .never := by
  rw [C89_endless]
  exact ⟨rfl, "ripcalc".toList, "-d".toList, "0.0.0.0".toList, "255.255.255.255".toList,
    argTexts_four _ _ _ _,
    .inl rfl, .inl ⟨(V4.mk 0), (V4.mk 0xFFFFFFFF), by decide +kernel, by decide +kernel, by decide +kernel, by decide +kernel⟩⟩

end Ripcalc
