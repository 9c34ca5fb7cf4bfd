import Verif.Props.Commands
/-!
# Properties of the program
-/
namespace Ripcalc
open AddrSpec LawfulIpAddr

/-! ## C56: dispatch and exit codes -/

theorem doMain_cons (rt : Runtime) (prog mode : Str) (rest : List Str) : doMain rt (prog :: mode :: rest) =
    if mode = "-m".toList ∨ mode = "--minimize".toList then minimize rt (prog :: mode :: rest)
    else if mode = "-d".toList ∨ mode = "--derange".toList then derange rt (prog :: mode :: rest)
    else if mode = "-s".toList ∨ mode = "--split".toList then split rt (prog :: mode :: rest)
    else if mode = "-r".toList ∨ mode = "--resize".toList then resize rt (prog :: mode :: rest)
    else if mode = "-e".toList ∨ mode = "--enumerate".toList then enumerate rt (prog :: mode :: rest)
    else if mode = "--color-test".toList then do colorTest rt; pure 0
    else if mode = "--help".toList then do Cli.eprint .usage; pure 0
    else showNet rt (prog :: mode :: rest) := by
  rw [doMain, if_neg (by simp)]
  rfl

theorem C56_dispatch (rt : Runtime) (prog mode : Str) (rest : List Str) :
    (mode = "-m".toList ∨ mode = "--minimize".toList → doMain rt (prog :: mode :: rest) = minimize rt (prog :: mode :: rest)) ∧
    (mode = "-d".toList ∨ mode = "--derange".toList → doMain rt (prog :: mode :: rest) = derange rt (prog :: mode :: rest)) ∧
    (mode = "-s".toList ∨ mode = "--split".toList → doMain rt (prog :: mode :: rest) = split rt (prog :: mode :: rest)) ∧
    (mode = "-r".toList ∨ mode = "--resize".toList → doMain rt (prog :: mode :: rest) = resize rt (prog :: mode :: rest)) ∧
    (mode = "-e".toList ∨ mode = "--enumerate".toList → doMain rt (prog :: mode :: rest) = enumerate rt (prog :: mode :: rest)) ∧
    (mode = "--help".toList → doMain rt (prog :: mode :: rest) = ⟨[.err .usage], .ok 0⟩) ∧
    (mode ∉ ["-m", "--minimize", "-d", "--derange", "-s", "--split", "-r", "--resize", "-e", "--enumerate", "--color-test",
      "--help"].map String.toList → doMain rt (prog :: mode :: rest) = showNet rt (prog :: mode :: rest)) := by
  rw [doMain_cons]
  refine ⟨?_, ?_, ?_, ?_, ?_, ?_, ?_⟩
  · intro h; rw [if_pos h]
  · rintro (rfl | rfl) <;> rw [if_neg (by decide), if_pos (by decide)]
  · rintro (rfl | rfl) <;> rw [if_neg (by decide), if_neg (by decide), if_pos (by decide)]
  · rintro (rfl | rfl) <;> rw [if_neg (by decide), if_neg (by decide), if_neg (by decide), if_pos (by decide)]
  · rintro (rfl | rfl) <;> rw [if_neg (by decide), if_neg (by decide), if_neg (by decide), if_neg (by decide), if_pos (by decide)]
  · rintro rfl
    rw [if_neg (by decide), if_neg (by decide), if_neg (by decide), if_neg (by decide), if_neg (by decide), if_neg (by decide),
      if_pos rfl]
    rfl
  · intro h
    simp only [List.map_cons, List.map_nil, List.mem_cons, List.not_mem_nil, or_false, not_or] at h
    obtain ⟨h1, h2, h3, h4, h5, h6, h7, h8, h9, h10, h11, h12⟩ := h
    rw [if_neg (not_or.mpr ⟨h1, h2⟩), if_neg (not_or.mpr ⟨h3, h4⟩), if_neg (not_or.mpr ⟨h5, h6⟩), if_neg (not_or.mpr ⟨h7, h8⟩),
      if_neg (not_or.mpr ⟨h9, h10⟩), if_neg h11, if_neg h12]

theorem enumerateLoop_congr {rt rt' : Runtime} (h : rt.profile = rt'.profile) (l : List Str) : ∀ ret,
    enumerateLoop rt ret l = enumerateLoop rt' ret l := by
  induction l with
  | nil => intro ret; rfl
  | cons s l ih => intro ret; simp only [enumerateLoop, ih, h]

theorem enumerate_congr {rt rt' : Runtime} (h : rt.profile = rt'.profile) (args : List Str) : enumerate rt args = enumerate rt' args := by
  simp only [enumerate, enumerateLoop_congr h]

/-- The modes that print no colours print the same text whether or not colours are enabled. -/
theorem C61_plain_modes (rt : Runtime) (prog mode : Str) (args : List Str)
    (hm : mode ∈ ["-m", "--minimize", "-d", "--derange", "-e", "--enumerate", "--help"].map String.toList) :
    doMain (rt.withColors false) (prog :: mode :: args) = doMain (rt.withColors true) (prog :: mode :: args) := by
  have h := C56_dispatch (rt.withColors false) prog mode args
  have h' := C56_dispatch (rt.withColors true) prog mode args
  simp only [List.map_cons, List.map_nil, List.mem_cons, List.not_mem_nil, or_false] at hm
  rcases hm with e | e | e | e | e | e | e
  · rw [h.1 (.inl e), h'.1 (.inl e)]; rfl
  · rw [h.1 (.inr e), h'.1 (.inr e)]; rfl
  · rw [h.2.1 (.inl e), h'.2.1 (.inl e)]; rfl
  · rw [h.2.1 (.inr e), h'.2.1 (.inr e)]; rfl
  · rw [h.2.2.2.2.1 (.inl e), h'.2.2.2.2.1 (.inl e)]; exact enumerate_congr (rt := rt.withColors false) (rt' := rt.withColors true) rfl _
  · rw [h.2.2.2.2.1 (.inr e), h'.2.2.2.2.1 (.inr e)]; exact enumerate_congr (rt := rt.withColors false) (rt' := rt.withColors true) rfl _
  · rw [h.2.2.2.2.2.1 e, h'.2.2.2.2.2.1 e]

/-- The wrong number of arguments: the usage text, nothing on standard output, exit code 1. -/
theorem C56_usage (rt : Runtime) :
    (∀ args : List Str, args.length < 2 → doMain rt args = ⟨[.err .usage], .ok 1⟩) ∧
    (∀ prog mode : Str, ∀ rest : List Str,
      (mode = "-m".toList ∨ mode = "--minimize".toList) ∧ rest = [] ∨
      (mode = "-e".toList ∨ mode = "--enumerate".toList) ∧ rest = [] ∨
      (mode = "-d".toList ∨ mode = "--derange".toList) ∧ rest.length ≠ 2 ∨
      (mode = "-r".toList ∨ mode = "--resize".toList) ∧ rest.length ≠ 2 ∨
      (mode = "-s".toList ∨ mode = "--split".toList) ∧ rest.length < 2 →
      doMain rt (prog :: mode :: rest) = ⟨[.err .usage], .ok 1⟩) := by
  constructor
  · intro args h
    rw [doMain, if_pos h]
    rfl
  · intro prog mode rest h
    obtain ⟨h1, h2, h3, h4, h5, -, -⟩ := C56_dispatch rt prog mode rest
    rcases h with ⟨hm, hr⟩ | ⟨hm, hr⟩ | ⟨hm, hr⟩ | ⟨hm, hr⟩ | ⟨hm, hr⟩
    · rw [h1 hm]; subst hr; rfl
    · rw [h5 hm]; exact C38_usage rt _ (by simp [hr])
    · rw [h2 hm]; exact (derange_errors rt _).1 (by simp only [List.length_cons]; omega)
    · rw [h4 hm]; exact (C64_errors rt _).1 (by simp only [List.length_cons]; omega)
    · rw [h3 hm]; exact (C65_errors rt _).1 (by simp only [List.length_cons]; omega)

theorem writeInColor_res (rt : Runtime) (t : Str) (c : Option Color) (p : Int) : (writeInColor rt t c p).res = .ok () := by
  unfold writeInColor
  cases rt.colorsEnabled <;> cases c <;> rfl

theorem Cli.bind_res {x : Cli α} {f : α → Cli β} {a : α} (h : x.res = .ok a) : (x >>= f).res = (f a).res := by
  obtain ⟨o, r⟩ := x
  cases h
  rfl

theorem colorTest_res (rt : Runtime) : (colorTest rt).res = .ok () := by
  unfold colorTest
  simp only [Cli.bind_res (writeInColor_res ..), writeInColor_res]

/-- How a run can end: exit code 0 without messages in every mode but enumerate, exit code 1, a panic, or never. -/
theorem main_cases (rt : Runtime) (args : List Str) :
    (doMain rt args).res = .ok 0 ∨ (doMain rt args).res = .ok 1 ∨
    ((∃ p, (doMain rt args).res = .panic p) ∨ (doMain rt args).res = .diverge) ∧
      ∃ prog mode rest, args = prog :: mode :: rest ∧ mode ∈ ["-d", "--derange", "-s", "--split"].map String.toList := by
  match args with
  | [] => exact .inr (.inl rfl)
  | [_] => exact .inr (.inl rfl)
  | prog :: mode :: rest =>
    have hd := doMain_cons rt prog mode rest
    by_cases hm : mode = "-m".toList ∨ mode = "--minimize".toList
    · rw [hd, if_pos hm]
      rcases C63_minimize rt prog mode rest with ⟨-, h⟩ | ⟨_, _, -, -, h⟩ | ⟨_, _, -, -, h⟩ | ⟨_, _, _, -, -, -, h⟩ | ⟨_, _, _, _, -, -, -, h⟩
      all_goals rw [h]
      · exact .inr (.inl rfl)
      · exact .inl rfl
      · exact .inl rfl
      · exact .inr (.inl rfl)
      · exact .inr (.inl rfl)
    rw [if_neg hm] at hd
    by_cases hm : mode = "-d".toList ∨ mode = "--derange".toList
    · rw [hd, if_pos hm]
      have hmem : mode ∈ ["-d", "--derange", "-s", "--split"].map String.toList := by
        rcases hm with h | h <;> rw [h] <;> decide
      rcases derange_cases rt (prog :: mode :: rest) with ⟨_, h, -⟩ | ⟨_, h⟩ | ⟨p, h⟩ | h
      all_goals rw [h]
      · exact .inl rfl
      · exact .inr (.inl rfl)
      · exact .inr (.inr ⟨.inl ⟨p, rfl⟩, _, _, _, rfl, hmem⟩)
      · exact .inr (.inr ⟨.inr rfl, _, _, _, rfl, hmem⟩)
    rw [if_neg hm] at hd
    by_cases hm : mode = "-s".toList ∨ mode = "--split".toList
    · rw [hd, if_pos hm]
      have hmem : mode ∈ ["-d", "--derange", "-s", "--split"].map String.toList := by
        rcases hm with h | h <;> rw [h] <;> decide
      have hres : (split rt (prog :: mode :: rest)).res = (split (rt.withColors true) (prog :: mode :: rest)).res := by
        cases hc : rt.colorsEnabled with
        | true => rw [← hc]; rfl
        | false =>
          have := (uncolored_split rt (prog :: mode :: rest)).res
          rw [← this, ← hc]; rfl
      rw [hres]
      rcases split_cases (rt.withColors true) rfl (prog :: mode :: rest) with ⟨t, c, hc, h, -⟩ | ⟨m, h⟩ | h
      · rcases hc with rfl | rfl
        · exact .inl h
        · exact .inr (.inl h)
      · rw [h]; exact .inr (.inl rfl)
      · exact .inr (.inr ⟨.inl ⟨_, h⟩, _, _, _, rfl, hmem⟩)
    rw [if_neg hm] at hd
    by_cases hm : mode = "-r".toList ∨ mode = "--resize".toList
    · rw [hd, if_pos hm]
      have hres : (resize rt (prog :: mode :: rest)).res = (resize (rt.withColors true) (prog :: mode :: rest)).res := by
        cases hc : rt.colorsEnabled with
        | true => rw [← hc]; rfl
        | false =>
          have := (uncolored_resize rt (prog :: mode :: rest)).res
          rw [← this, ← hc]; rfl
      rw [hres]
      rcases resize_total (rt.withColors true) rfl (prog :: mode :: rest) with ⟨t, h, -⟩ | ⟨m, h⟩
      · exact .inl h
      · rw [h]; exact .inr (.inl rfl)
    rw [if_neg hm] at hd
    by_cases hm : mode = "-e".toList ∨ mode = "--enumerate".toList
    · rw [hd, if_pos hm]
      by_cases hlen : 3 ≤ (prog :: mode :: rest).length
      · obtain ⟨evss, code, -, h1, h2, h3⟩ := C38_enumerate rt (prog :: mode :: rest) hlen
        rw [h1]
        by_cases he : ∃ s ∈ (prog :: mode :: rest).drop 2, ∃ e, parseNetspec s = .ok (.error e)
        · rw [h2 he]; exact .inr (.inl rfl)
        · refine .inl ?_
          rw [h3 ?_]
          intro s hs
          obtain ⟨r, hr⟩ := parseNetspec_total s
          cases r with
          | error e => exact absurd ⟨s, hs, e, hr⟩ he
          | ok x => exact ⟨x, hr⟩
      · rw [C38_usage rt _ (by omega)]; exact .inr (.inl rfl)
    rw [if_neg hm] at hd
    by_cases hm : mode = "--color-test".toList
    · rw [hd, if_pos hm, Cli.bind_res (colorTest_res rt)]
      exact .inl rfl
    rw [if_neg hm] at hd
    by_cases hm : mode = "--help".toList
    · rw [hd, if_pos hm]
      exact .inl rfl
    rw [hd, if_neg hm]
    rcases C58_total rt (prog :: mode :: rest) with ⟨h, -⟩ | ⟨h, -⟩
    · exact .inl h
    · exact .inr (.inl h)

/-- Whenever the program ends normally, the exit code is 0 or 1. -/
theorem C56_exit_codes (rt : Runtime) (args : List Str) (code : Nat) (h : (doMain rt args).res = .ok code) : code = 0 ∨ code = 1 := by
  rcases main_cases rt args with h' | h' | ⟨⟨p, h'⟩ | h', -⟩ <;> rw [h] at h' <;> cases h'
  · exact .inl rfl
  · exact .inr rfl

/-! ## C66: the program ends normally except in two modes -/

theorem C66_returns (rt : Runtime) (args : List Str)
    (h : ∀ prog mode rest, args = prog :: mode :: rest → mode ∉ ["-d", "--derange", "-s", "--split"].map String.toList) :
    ∃ code, (doMain rt args).res = .ok code := by
  rcases main_cases rt args with h' | h' | ⟨-, prog, mode, rest, h1, h2⟩
  · exact ⟨_, h'⟩
  · exact ⟨_, h'⟩
  · exact absurd h2 (h prog mode rest h1)

/-- In the derange mode the exceptions are exactly the ranges that contain the greatest address. -/
theorem C66_derange (rt : Runtime) (prog mode : Str) (rest : List Str) (hm : mode = "-d".toList ∨ mode = "--derange".toList) :
    (∃ code, (doMain rt (prog :: mode :: rest)).res = .ok code) ↔
    ¬ ((∃ u v a b, rest = [u, v] ∧ parseAddr u = .ok (.ok (.ipv4 a)) ∧ parseAddr v = .ok (.ok (.ipv4 b)) ∧
          max (val a) (val b) = 2 ^ 32 - 1) ∨
       (∃ u v a b, rest = [u, v] ∧ parseAddr u = .ok (.ok (.ipv6 a)) ∧ parseAddr v = .ok (.ok (.ipv6 b)) ∧
          max (val a) (val b) = 2 ^ 128 - 1)) := by
  rw [(C56_dispatch rt prog mode rest).2.1 hm]
  have hret : ∀ {A : Type} [IpAddr A] [AddrSpec A] [LawfulIpAddr A] (a b : A), (∃ ns, rangeToSubnets rt.profile a b = .ok ns) ↔
      max (val a) (val b) ≠ 2 ^ width A - 1 := by
    intro A _ _ _ a b
    rw [C39_returns_iff]
    have ha := val_lt a
    have hb := val_lt b
    constructor
    · intro h hmax
      rcases Nat.le_total (val a) (val b) with hle | hle
      · exact h b (by rw [between_iff]; omega) (by omega)
      · exact h a (by rw [between_iff]; omega) (by omega)
    · intro h x hx
      rw [between_iff] at hx
      omega
  constructor
  · rintro ⟨code, hc⟩ (⟨u, v, a, b, rfl, h1, h2, h3⟩ | ⟨u, v, a, b, rfl, h1, h2, h3⟩)
    · obtain ⟨-, k2, k3⟩ := C39_command_v4 rt prog mode u v a b h1 h2
      have hno := mt (hret a b).mp (not_not_intro h3)
      cases h : rangeToSubnets rt.profile a b with
      | ok ns => exact hno ⟨ns, h⟩
      | panic p => rw [k2 p h] at hc; cases hc
      | diverge => rw [k3 h] at hc; cases hc
    · obtain ⟨-, k2, k3⟩ := C39_command_v6 rt prog mode u v a b h1 h2
      have hno := mt (hret a b).mp (not_not_intro h3)
      cases h : rangeToSubnets rt.profile a b with
      | ok ns => exact hno ⟨ns, h⟩
      | panic p => rw [k2 p h] at hc; cases hc
      | diverge => rw [k3 h] at hc; cases hc
  · intro hno
    by_cases hlen : rest.length = 2
    · obtain ⟨u, v, rfl⟩ : ∃ u v, rest = [u, v] := by
        match rest, hlen with
        | [u, v], _ => exact ⟨u, v, rfl⟩
      obtain ⟨e1, e2, e3, e4⟩ := (derange_errors rt [prog, mode, u, v]).2 prog mode u v rfl
      obtain ⟨r, hr⟩ := (C36_parse_addr u).1
      obtain ⟨r', hr'⟩ := (C36_parse_addr v).1
      cases r with
      | error e => exact ⟨1, by rw [e1 e hr]⟩
      | ok x =>
        cases r' with
        | error e => exact ⟨1, by rw [e2 x e hr hr']⟩
        | ok y =>
          cases x with
          | ipv4 a =>
            cases y with
            | ipv4 b =>
              obtain ⟨ns, h⟩ := (hret a b).mpr fun h3 => hno (.inl ⟨u, v, a, b, rfl, hr, hr', h3⟩)
              exact ⟨0, by rw [(C39_command_v4 rt prog mode u v a b hr hr').1 ns h]⟩
            | ipv6 b => exact ⟨1, by rw [e3 a b hr hr']⟩
          | ipv6 a =>
            cases y with
            | ipv6 b =>
              obtain ⟨ns, h⟩ := (hret a b).mpr fun h3 => hno (.inr ⟨u, v, a, b, rfl, hr, hr', h3⟩)
              exact ⟨0, by rw [(C39_command_v6 rt prog mode u v a b hr hr').1 ns h]⟩
            | ipv4 b => exact ⟨1, by rw [e4 a b hr hr']⟩
    · exact ⟨1, by rw [(derange_errors rt _).1 (by simp only [List.length_cons]; omega)]⟩

theorem res_withColors (rt : Runtime) (args : List Str) : (split rt args).res = (split (rt.withColors true) args).res := by
  cases hc : rt.colorsEnabled with
  | true => rw [← hc]; rfl
  | false =>
    have := (uncolored_split rt args).res
    rw [← this, ← hc]; rfl

/-- The splits that make the program panic: the greatest address of the results is in the network, and so is the greatest
address there is. -/
def SplitPanics {A : Type} [IpAddr A] [AddrSpec A] (rt : Runtime) (n : Net A) (hcs : List Int) : Prop :=
  ∃ ns mx top, splitSubnet rt n hcs = .ok (some ns) ∧ IsGreatestUsed ns mx ∧ Member n mx ∧ Member n top ∧ val top = 2 ^ width A - 1

/-- In the split mode the exceptions are exactly these, and they are panics. -/
theorem C66_split (rt : Runtime) (prog mode : Str) (rest : List Str) (hm : mode = "-s".toList ∨ mode = "--split".toList) :
    ((∃ code, (doMain rt (prog :: mode :: rest)).res = .ok code) ∨ (doMain rt (prog :: mode :: rest)).res = .panic .unwrapNone) ∧
    ((doMain rt (prog :: mode :: rest)).res = .panic .unwrapNone ↔
      ∃ s counts hcs, rest = s :: counts ∧ counts ≠ [] ∧ Counts counts hcs ∧
        ((∃ a n, parseNetspec s = .ok (.ok (.ipv4 a n)) ∧ SplitPanics rt n hcs) ∨
         (∃ a n, parseNetspec s = .ok (.ok (.ipv6 a n)) ∧ SplitPanics rt n hcs))) := by
  rw [(C56_dispatch rt prog mode rest).2.2.1 hm, res_withColors]
  constructor
  · rcases split_cases (rt.withColors true) rfl (prog :: mode :: rest) with ⟨t, c, -, h, -⟩ | ⟨m, h⟩ | h
    · exact .inl ⟨c, h⟩
    · exact .inl ⟨1, by rw [h]⟩
    · exact .inr h
  constructor
  · intro hp
    by_cases hlen : (prog :: mode :: rest).length < 4
    · rw [(C65_errors _ _).1 hlen] at hp; cases hp
    obtain ⟨s, x, counts, rfl⟩ : ∃ c d e, rest = c :: d :: e := by
      match rest, hlen with
      | c :: d :: e, _ => exact ⟨c, d, e, rfl⟩
      | [], h => simp at h
      | [_], h => simp at h
    have hne : x :: counts ≠ [] := List.cons_ne_nil _ _
    obtain ⟨h1, h2⟩ := (C65_errors (rt.withColors true) _).2 prog mode s (x :: counts) rfl hne
    rcases parseHostCounts_cases (x :: counts) with ⟨hcs, hc, -⟩ | ⟨pre, y, post, k1, k2, k3⟩
    · refine ⟨s, x :: counts, hcs, rfl, hne, hc, ?_⟩
      obtain ⟨r, hr⟩ := parseNetspec_total s
      cases r with
      | error e => rw [h2 hcs e hc hr] at hp; cases hp
      | ok sp =>
        cases sp with
        | ipv4 a n =>
          refine .inl ⟨a, n, hr, ?_⟩
          rcases C65_split_v4 (rt.withColors true) rfl prog mode s _ hne hcs hc a n hr with ⟨-, t, -, h, -⟩ | ⟨ns, mx, t, u, k1, k2, -, -, h3, h4, -⟩
          · rw [h] at hp; cases hp
          · by_cases hmx : Member n mx
            · by_cases htop : ∃ a, Member n a ∧ val a = 2 ^ 32 - 1
              · obtain ⟨top, t1, t2⟩ := htop
                exact ⟨ns, mx, top, k1, k2, hmx, t1, t2⟩
              · obtain ⟨us, ⟨h6, -⟩, -⟩ := h4 hmx (fun a ha hv => htop ⟨a, ha, hv⟩)
                rw [h6] at hp; cases hp
            · rw [(h3 hmx).1] at hp; cases hp
        | ipv6 a n =>
          refine .inr ⟨a, n, hr, ?_⟩
          rcases C65_split_v6 (rt.withColors true) rfl prog mode s _ hne hcs hc a n hr with ⟨-, t, -, h, -⟩ | ⟨ns, mx, t, u, k1, k2, -, -, h3, h4, -⟩
          · rw [h] at hp; cases hp
          · by_cases hmx : Member n mx
            · by_cases htop : ∃ a, Member n a ∧ val a = 2 ^ 128 - 1
              · obtain ⟨top, t1, t2⟩ := htop
                exact ⟨ns, mx, top, k1, k2, hmx, t1, t2⟩
              · obtain ⟨us, ⟨h6, -⟩, -⟩ := h4 hmx (fun a ha hv => htop ⟨a, ha, hv⟩)
                rw [h6] at hp; cases hp
            · rw [(h3 hmx).1] at hp; cases hp
    · obtain ⟨h3, h4⟩ := h1 pre y post k1 k2
      rcases k3 with ⟨k4, -⟩ | ⟨c, k4, k5, -⟩
      · rw [h3 k4] at hp; cases hp
      · rw [h4 c k4 k5] at hp; cases hp
  · rintro ⟨s, counts, hcs, rfl, hne, hc, ⟨a, n, hr, ns, mx, top, k1, k2, k3, k4, k5⟩ | ⟨a, n, hr, ns, mx, top, k1, k2, k3, k4, k5⟩⟩
    · have k1 : splitSubnet (rt.withColors true) n hcs = .ok (some ns) := k1
      rcases C65_split_v4 (rt.withColors true) rfl prog mode s _ hne hcs hc a n hr with ⟨h, -⟩ | ⟨ns', mx', t, u, j1, j2, -, -, -, -, h5⟩
      · rw [k1] at h; cases h
      · rw [k1] at j1
        cases j1
        rw [← isGreatestUsed_unique k2 j2] at h5
        exact (h5 k3 ⟨top, k4, k5⟩).1
    · have k1 : splitSubnet (rt.withColors true) n hcs = .ok (some ns) := k1
      rcases C65_split_v6 (rt.withColors true) rfl prog mode s _ hne hcs hc a n hr with ⟨h, -⟩ | ⟨ns', mx', t, u, j1, j2, -, -, -, -, h5⟩
      · rw [k1] at h; cases h
      · rw [k1] at j1
        cases j1
        rw [← isGreatestUsed_unique k2 j2] at h5
        exact (h5 k3 ⟨top, k4, k5⟩).1

/-! ## C57: malformed input -/

/-- An argument that is no network specification. -/
def BadSpec (s : Str) : Prop := ∃ e, parseNetspec s = .ok (.error e)

/-- In all modes but enumerate: one message, nothing on standard output, exit code 1. -/
theorem C57_malformed (rt : Runtime) (prog mode : Str) (rest : List Str)
    (h : (mode ∉ ["-m", "--minimize", "-d", "--derange", "-s", "--split", "-r", "--resize", "-e", "--enumerate", "--color-test",
        "--help"].map String.toList ∧ ∃ s ∈ mode :: rest, BadSpec s) ∨
      ((mode = "-m".toList ∨ mode = "--minimize".toList) ∧ ∃ s ∈ rest, BadSpec s) ∨
      ((mode = "-d".toList ∨ mode = "--derange".toList) ∧ ∃ s ∈ rest, ∃ e, parseAddr s = .ok (.error e)) ∨
      ((mode = "-r".toList ∨ mode = "--resize".toList) ∧ ∃ s k, rest = [s, k] ∧ (BadSpec s ∨ ∃ e, parseSubnet k = .ok (.error e))) ∨
      ((mode = "-s".toList ∨ mode = "--split".toList) ∧ ∃ s counts, rest = s :: counts ∧
        (BadSpec s ∨ ∃ x ∈ counts, ¬ ∃ c, CountText x c ∧ 0 ≤ c))) :
    ∃ m, doMain rt (prog :: mode :: rest) = ⟨[.err m], .ok 1⟩ := by
  obtain ⟨d1, d2, d3, d4, -, -, d7⟩ := C56_dispatch rt prog mode rest
  rcases h with ⟨hm, s, hs, e, he⟩ | ⟨hm, s, hs, e, he⟩ | ⟨hm, s, hs, e, he⟩ | ⟨hm, s, k, rfl, h⟩ | ⟨hm, s, counts, rfl, h⟩
  · rw [d7 hm]
    rcases showParseLoop_cases (mode :: rest) with ⟨specs, h1, -⟩ | ⟨pre, s', post, e', h1, h2, h3, -⟩
    · exfalso
      have : ∀ (l : List Str) (xs : List NetworkSpec), Pointwise (fun s x => parseNetspec s = .ok (.ok x)) l xs → s ∉ l := by
        intro l xs hp
        induction hp with
        | nil => simp
        | cons h4 _ ih =>
          intro hmem
          rcases List.mem_cons.mp hmem with rfl | hmem
          · rw [he] at h4; cases h4
          · exact ih hmem
      exact this _ _ h1 hs
    · rw [h1]; exact ⟨_, C58_error rt prog pre post s' e' h2 h3⟩
  · rw [d1 hm]
    have no4 : ∀ (l : List Str) (xs : List (V4 × Net V4)), Pointwise Is4 l xs → s ∉ l := by
      intro l xs hp
      induction hp with
      | nil => simp
      | cons h4 _ ih =>
        intro hmem
        rcases List.mem_cons.mp hmem with rfl | hmem
        · rw [Is4, he] at h4; cases h4
        · exact ih hmem
    have no6 : ∀ (l : List Str) (xs : List (V6 × Net V6)), Pointwise Is6 l xs → s ∉ l := by
      intro l xs hp
      induction hp with
      | nil => simp
      | cons h4 _ ih =>
        intro hmem
        rcases List.mem_cons.mp hmem with rfl | hmem
        · rw [Is6, he] at h4; cases h4
        · exact ih hmem
    rcases C63_minimize rt prog mode rest with ⟨-, h⟩ | ⟨_, _, h, -⟩ | ⟨_, _, h, -⟩ | ⟨_, _, _, -, -, -, h⟩ | ⟨_, _, _, _, -, -, -, h⟩
    · exact ⟨_, h⟩
    · exact absurd hs (no4 _ _ h)
    · exact absurd hs (no6 _ _ h)
    · exact ⟨_, h⟩
    · exact ⟨_, h⟩
  · rw [d2 hm]
    by_cases hlen : rest.length = 2
    · obtain ⟨u, v, rfl⟩ : ∃ u v, rest = [u, v] := by
        match rest, hlen with
        | [u, v], _ => exact ⟨u, v, rfl⟩
      obtain ⟨e1, e2, -⟩ := (derange_errors rt [prog, mode, u, v]).2 prog mode u v rfl
      simp only [List.mem_cons, List.not_mem_nil, or_false] at hs
      rcases hs with rfl | rfl
      · exact ⟨_, e1 e he⟩
      · obtain ⟨r, hr⟩ := (C36_parse_addr u).1
        cases r with
        | error e' => exact ⟨_, e1 e' hr⟩
        | ok x => exact ⟨_, e2 x e hr he⟩
    · exact ⟨_, (derange_errors rt _).1 (by simp only [List.length_cons]; omega)⟩
  · rw [d4 hm]
    obtain ⟨e1, e2, e3⟩ := (C64_errors rt [prog, mode, s, k]).2 prog mode s k rfl
    obtain ⟨r, hr⟩ := parseNetspec_total s
    cases r with
    | error e => exact ⟨_, e1 e hr⟩
    | ok x =>
      rcases h with ⟨e, he⟩ | ⟨e, he⟩
      · rw [he] at hr; cases hr
      · cases x with
        | ipv4 a n => exact ⟨_, e2 a n (.resizeSubnet k e) hr (by rw [resizeMask4, he]; rfl)⟩
        | ipv6 a n => exact ⟨_, e3 a n (.resizeSubnet k e) hr (by rw [resizeMask6, he]; rfl)⟩
  · rw [d3 hm]
    by_cases hne : counts = []
    · exact ⟨_, (C65_errors rt _).1 (by simp [hne])⟩
    obtain ⟨h1, h2⟩ := (C65_errors rt _).2 prog mode s counts rfl hne
    rcases parseHostCounts_cases counts with ⟨hcs, hc, -⟩ | ⟨pre, y, post, k1, k2, k3⟩
    · rcases h with ⟨e, he⟩ | ⟨x, hx, hno⟩
      · exact ⟨_, h2 hcs e hc he⟩
      · exfalso
        have : ∀ (l : List Str) (cs : List Int), Counts l cs → x ∉ l := by
          intro l cs hp
          induction hp with
          | nil => simp
          | cons h4 _ ih =>
            intro hmem
            rcases List.mem_cons.mp hmem with rfl | hmem
            · exact hno ⟨_, h4⟩
            · exact ih hmem
        exact this _ _ hc hx
    · obtain ⟨h3, h4⟩ := h1 pre y post k1 k2
      rcases k3 with ⟨k4, -⟩ | ⟨c, k4, k5, -⟩
      · exact ⟨_, h3 k4⟩
      · exact ⟨_, h4 c k4 k5⟩

/-- Concrete malformed input for each mode. -/
example : BadSpec "10.0.0.0/33".toList ∧ (∃ e, parseAddr "10.0.0".toList = .ok (.error e)) ∧
    (∃ e, parseSubnet "x".toList = .ok (.error e)) ∧ ¬ (∃ c, CountText "-1".toList c ∧ 0 ≤ c) := by
  refine ⟨⟨.cidrRange 33 32, by decide +kernel⟩, ⟨_, rfl⟩, ⟨_, rfl⟩, ?_⟩
  rintro ⟨c, h, h0⟩
  rw [← parseBigInt_iff, show parseBigInt "-1".toList = some (-1) by decide +kernel] at h
  cases h
  omega

end Ripcalc
