import Verif.Spec.Complaints
import Verif.Props.Messages
/-!
# C79–C80: host counts, and which message is written
-/
namespace Ripcalc
open AddrSpec

/-! ## C79: the text of a host count -/

/-- Which texts are host counts, and which number they are. -/
theorem C79_count (s : Str) (c : Int) : parseBigInt s = some c ↔ CountText s c := parseBigInt_iff s c

/-- A text stands for at most one number. -/
theorem C79_unique (s : Str) (c c' : Int) (h : CountText s c) (h' : CountText s c') : c = c' := by
  rw [← parseBigInt_iff] at h h'
  rw [h] at h'
  exact Option.some.inj h'

/-- The counts that the split mode works with are the numbers written in its arguments, in order, if all of them are numbers
that are not negative. -/
theorem C79_counts (counts : List Str) (hcs : List Int) :
    parseHostCounts counts = .ok hcs ↔ Pointwise (fun s c => CountText s c ∧ 0 ≤ c) counts hcs := parseHostCounts_spec counts hcs

/-- Every natural number can be given, however large. -/
theorem C79_every (s : Str) (v : Nat) (h : Numeral 10 s v) : CountText s v := by
  have hd := numeral_digitText h
  have hf : s.filter (· ≠ '_') = s := by
    rw [List.filter_eq_self]
    intro c hc
    have : c ≠ '_' := fun he => hd.not_mem (c := '_') (by decide) (he ▸ hc)
    simpa using this
  refine .inl ⟨v, rfl, .inl ⟨?_, by rw [hf]; exact h⟩⟩
  intro he
  exact hd.not_mem (c := '_') (by decide) (List.mem_of_mem_head? he)

example : CountText "+1_000_".toList 1000 := (C79_count _ _).mp (by decide +kernel)
example : CountText "-0".toList 0 := (C79_count _ _).mp (by decide +kernel)
example : ∀ s ∈ ["", "+", "-", "_1", "-+1", "++1", "1.0", "0x10", " 1"].map String.toList, ∀ c, ¬ CountText s c := by
  intro s hs c h
  rw [← parseBigInt_iff] at h
  have : ∀ s ∈ ["", "+", "-", "_1", "-+1", "++1", "1.0", "0x10", " 1"].map String.toList, parseBigInt s = none := by decide +kernel
  rw [this s hs] at h
  cases h

/-! ## C80: which message -/

theorem v4Network_iff (s : Str) (a : V4) (n : Net V4) : parseNetspec s = .ok (.ok (.ipv4 a n)) ↔ V4Network s a n := parseNetspec_ipv4 s a n
theorem v6Network_iff (s : Str) (a : V6) (n : Net V6) : parseNetspec s = .ok (.ok (.ipv6 a n)) ↔ V6Network s a n := parseNetspec_ipv6 s a n

theorem isV4Network_iff (s : Str) : (∃ a n, parseNetspec s = .ok (.ok (.ipv4 a n))) ↔ IsV4Network s := by
  simp only [v4Network_iff, IsV4Network]
theorem isV6Network_iff (s : Str) : (∃ a n, parseNetspec s = .ok (.ok (.ipv6 a n))) ↔ IsV6Network s := by
  simp only [v6Network_iff, IsV6Network]

theorem isNetwork_iff (s : Str) : (∃ x, parseNetspec s = .ok (.ok x)) ↔ IsV4Network s ∨ IsV6Network s := by
  rw [← isV4Network_iff, ← isV6Network_iff]
  constructor
  · rintro ⟨x, h⟩
    cases x with
    | ipv4 a n => exact .inl ⟨a, n, h⟩
    | ipv6 a n => exact .inr ⟨a, n, h⟩
  · rintro (⟨a, n, h⟩ | ⟨a, n, h⟩) <;> exact ⟨_, h⟩

/-- Every text is an IPv4 network, an IPv6 network, or has a fault, and only one of the three. -/
theorem C80_network_texts (s : Str) :
    (IsV4Network s ∧ ¬ IsV6Network s ∧ ∀ e, ¬ NetspecFault s e) ∨ (¬ IsV4Network s ∧ IsV6Network s ∧ ∀ e, ¬ NetspecFault s e) ∨
    (¬ IsV4Network s ∧ ¬ IsV6Network s ∧ ∃ e, NetspecFault s e) := by
  simp only [← isV4Network_iff, ← isV6Network_iff, ← parseNetspec_error]
  obtain ⟨r, hr⟩ := parseNetspec_total s
  rw [hr]
  rcases r with e | ⟨a, n⟩ | ⟨a, n⟩
  · exact .inr (.inr ⟨by simp, by simp, e, rfl⟩)
  · exact .inl ⟨⟨a, n, rfl⟩, by simp, by simp⟩
  · exact .inr (.inl ⟨by simp, ⟨a, n, rfl⟩, by simp⟩)

theorem isV4Address_iff (s : Str) : (∃ a, parseAddr s = .ok (.ok (.ipv4 a))) ↔ IsV4Address s := by
  constructor
  · rintro ⟨a, h⟩
    obtain ⟨h1, h2, h3⟩ := ((C36_parse_addr s).2.1 a).mp h
    exact ⟨h1, h2, a, h3⟩
  · rintro ⟨h1, h2, a, h3⟩; exact ⟨a, ((C36_parse_addr s).2.1 a).mpr ⟨h1, h2, h3⟩⟩

theorem isV6Address_iff (s : Str) : (∃ a, parseAddr s = .ok (.ok (.ipv6 a))) ↔ IsV6Address s := by
  constructor
  · rintro ⟨a, h⟩
    obtain ⟨h1, h2, h3⟩ := ((C36_parse_addr s).2.2.1 a).mp h
    exact ⟨h1, h2, a, h3⟩
  · rintro ⟨h1, h2, a, h3⟩; exact ⟨a, ((C36_parse_addr s).2.2.1 a).mpr ⟨h1, h2, h3⟩⟩

theorem isAddress_iff (s : Str) : (∃ x, parseAddr s = .ok (.ok x)) ↔ IsV4Address s ∨ IsV6Address s := by
  rw [← isV4Address_iff, ← isV6Address_iff]
  constructor
  · rintro ⟨x, h⟩
    cases x with
    | ipv4 a => exact .inl ⟨a, h⟩
    | ipv6 a => exact .inr ⟨a, h⟩
  · rintro (⟨a, h⟩ | ⟨a, h⟩) <;> exact ⟨_, h⟩

/-- From a decision procedure: a command that writes `m` for every complaint `m`, and no message if there is none. -/
theorem complaint_iff {x : Cli Nat} {P : ErrMsg → Prop} (h1 : ∀ m, P m → x = ⟨[.err m], .ok 1⟩)
    (h2 : (∃ m, P m) ∨ messages x.out = []) (m : ErrMsg) : m ∈ messages x.out ↔ P m := by
  constructor
  · intro hm
    rcases h2 with ⟨m', hp⟩ | h
    · rw [h1 m' hp] at hm
      rw [List.mem_singleton.mp (show m ∈ [m'] from hm)]
      exact hp
    · rw [h] at hm; cases hm
  · intro hp
    rw [h1 m hp]
    exact List.mem_singleton.mpr rfl

theorem pair_of_length {l : List Str} (h : l.length = 2) : ∃ a b, l = [a, b] := by
  match l, h with
  | [a, b], _ => exact ⟨a, b, rfl⟩

/-- Without a mode. -/
theorem C80_show (rt : Runtime) (prog mode : Str) (rest : List Str)
    (hm : mode ∉ ["-m", "--minimize", "-d", "--derange", "-s", "--split", "-r", "--resize", "-e", "--enumerate", "--color-test",
      "--help"].map String.toList) (m : ErrMsg) :
    m ∈ messages (doMain rt (prog :: mode :: rest)).out ↔ ShowComplaint (mode :: rest) m := by
  rw [(C56_dispatch rt prog mode rest).2.2.2.2.2.2 hm]
  refine complaint_iff (fun m h => ?_) ?_ m
  · obtain ⟨pre, x, post, e, h1, h2, h3, rfl⟩ := h
    rw [h1]
    exact C58_error rt prog pre post x e (fun y hy => (isNetwork_iff y).mpr (h2 y hy)) ((parseNetspec_error x e).mpr h3)
  · rcases showParseLoop_cases (mode :: rest) with ⟨specs, -, h⟩ | ⟨pre, x, post, e, h1, h2, h3, -⟩
    · right
      rw [showNet]
      simp only [List.drop_succ_cons, List.drop_zero, h, Cli.lift_ok_bind]
      exact tidy_messages ((tidy_printLoop rt _ _).bind fun _ => tidy_pure _)
    · exact .inl ⟨_, pre, x, post, e, h1, fun y hy => (isNetwork_iff y).mp (h2 y hy), (parseNetspec_error x e).mp h3, rfl⟩

theorem pointwise4_iff (pre : List Str) : (∃ ys, Pointwise Is4 pre ys) ↔ ∀ y ∈ pre, IsV4Network y := by
  constructor
  · rintro ⟨ys, h⟩ y hy
    obtain ⟨b, -, hb⟩ := h.mem_left y hy
    exact (isV4Network_iff y).mp ⟨_, _, hb⟩
  · intro h
    induction pre with
    | nil => exact ⟨[], .nil⟩
    | cons y pre ih =>
      obtain ⟨ys, hys⟩ := ih fun z hz => h z (by simp [hz])
      obtain ⟨a, n, hn⟩ := (isV4Network_iff y).mpr (h y (by simp))
      exact ⟨(a, n) :: ys, .cons hn hys⟩

theorem pointwise6_iff (pre : List Str) : (∃ ys, Pointwise Is6 pre ys) ↔ ∀ y ∈ pre, IsV6Network y := by
  constructor
  · rintro ⟨ys, h⟩ y hy
    obtain ⟨b, -, hb⟩ := h.mem_left y hy
    exact (isV6Network_iff y).mp ⟨_, _, hb⟩
  · intro h
    induction pre with
    | nil => exact ⟨[], .nil⟩
    | cons y pre ih =>
      obtain ⟨ys, hys⟩ := ih fun z hz => h z (by simp [hz])
      obtain ⟨a, n, hn⟩ := (isV6Network_iff y).mpr (h y (by simp))
      exact ⟨(a, n) :: ys, .cons hn hys⟩

theorem messages_netOutput {A : Type} [IpAddr A] (ns : List (Net A)) : messages (netOutput ns) = [] := by
  rw [messages, List.filterMap_eq_nil_iff]
  intro e he
  obtain ⟨n, -, rfl⟩ := List.mem_map.mp he
  rfl

/-- The first place where a list of networks goes wrong is unique. -/
theorem minimize_unique {ss : List Str} {m m' : ErrMsg} (h : MinimizeComplaint ss m) (h' : MinimizeComplaint ss m') : m = m' := by
  have nonet : ∀ {y : Str} {e}, NetspecFault y e → ¬ IsV4Network y ∧ ¬ IsV6Network y := by
    intro y e he
    rcases C80_network_texts y with ⟨-, -, h⟩ | ⟨-, -, h⟩ | ⟨h1, h2, -⟩
    · exact absurd he (h e)
    · exact absurd he (h e)
    · exact ⟨h1, h2⟩
  have noboth : ∀ {y : Str}, IsV4Network y → IsV6Network y → False := by
    intro y h4 h6
    rcases C80_network_texts y with ⟨-, h, -⟩ | ⟨h, -, -⟩ | ⟨h, -, -⟩
    · exact h h6
    · exact h h4
    · exact h h4
  have funique : ∀ {y : Str} {e e'}, NetspecFault y e → NetspecFault y e' → e = e' := by
    intro y e e' he he'
    rw [← parseNetspec_error] at he he'
    rw [he] at he'
    cases he'
    rfl
  -- the complaint is about the first position that breaks the family of the ones before
  let Good (pre : List Str) : Prop := (∀ y ∈ pre, IsV4Network y) ∨ (∀ y ∈ pre, IsV6Network y)
  let Bad (pre : List Str) (x : Str) (m : ErrMsg) : Prop :=
    (∃ e, NetspecFault x e ∧ m = .minimizeParse e) ∨
    (pre ≠ [] ∧ (((∀ y ∈ pre, IsV4Network y) ∧ IsV6Network x) ∨ ((∀ y ∈ pre, IsV6Network y) ∧ IsV4Network x)) ∧ m = .mixed)
  have key : ∀ {pre x post m}, ss = pre ++ x :: post → Good pre → Bad pre x m →
      ∀ {pre' x' post' m'}, ss = pre' ++ x' :: post' → Good pre' → Bad pre' x' m' → pre.length < pre'.length → False := by
    intro pre x post m e1 g1 b1 pre' x' post' m' e2 g2 b2 hlt
    rw [e1] at e2
    obtain ⟨d, hd⟩ : ∃ d, pre' = pre ++ x :: d := by
      have hp : pre <+: pre' := List.prefix_of_prefix_length_le (List.prefix_append pre _) (e2 ▸ List.prefix_append pre' _) (by omega)
      obtain ⟨d, rfl⟩ := hp
      rw [List.append_assoc] at e2
      have e3 := List.append_cancel_left e2
      cases d with
      | nil => simp at hlt
      | cons c d => simp only [List.cons_append, List.cons.injEq] at e3; exact ⟨d, by rw [e3.1]⟩
    have hx : x ∈ pre' := by simp [hd]
    have hsub : ∀ y ∈ pre, y ∈ pre' := fun y hy => by simp [hd, hy]
    rcases b1 with ⟨e, he, -⟩ | ⟨hne, h1, -⟩
    · rcases g2 with g | g
      · exact (nonet he).1 (g x hx)
      · exact (nonet he).2 (g x hx)
    · obtain ⟨y, hy⟩ := List.exists_mem_of_ne_nil _ hne
      rcases h1 with ⟨h1, h2⟩ | ⟨h1, h2⟩ <;> rcases g2 with g | g
      · exact noboth (g x hx) h2
      · exact noboth (h1 y hy) (g y (hsub y hy))
      · exact noboth (g y (hsub y hy)) (h1 y hy)
      · exact noboth h2 (g x hx)
  rcases h with ⟨rfl, rfl⟩ | ⟨pre, x, post, e1, h1⟩
  · rcases h' with ⟨-, rfl⟩ | ⟨pre', x', post', e2, -⟩
    · rfl
    · simp at e2
  rcases h' with ⟨rfl, rfl⟩ | ⟨pre', x', post', e2, h2⟩
  · simp at e1
  have gb : ∀ {pre x m}, ((∃ e, ((∀ y ∈ pre, IsV4Network y) ∨ (∀ y ∈ pre, IsV6Network y)) ∧ NetspecFault x e ∧ m = .minimizeParse e) ∨
      (pre ≠ [] ∧ (((∀ y ∈ pre, IsV4Network y) ∧ IsV6Network x) ∨ ((∀ y ∈ pre, IsV6Network y) ∧ IsV4Network x)) ∧ m = .mixed)) →
      Good pre ∧ Bad pre x m := by
    rintro pre x m (⟨e, h1, h2, h3⟩ | ⟨h1, h2, h3⟩)
    · exact ⟨h1, .inl ⟨e, h2, h3⟩⟩
    · refine ⟨?_, .inr ⟨h1, h2, h3⟩⟩
      rcases h2 with ⟨h, -⟩ | ⟨h, -⟩
      · exact .inl h
      · exact .inr h
  obtain ⟨g1, b1⟩ := gb h1
  obtain ⟨g2, b2⟩ := gb h2
  rcases Nat.lt_trichotomy pre.length pre'.length with hlt | heq | hlt
  · exact (key e1 g1 b1 e2 g2 b2 hlt).elim
  · rw [e1] at e2
    obtain ⟨rfl, e3⟩ := List.append_inj e2 heq
    cases e3
    rcases b1 with ⟨e, he, k1⟩ | ⟨-, f1, k1⟩ <;> rcases b2 with ⟨e', he', k2⟩ | ⟨-, f2, k2⟩ <;> rw [k1, k2]
    · rw [funique he he']
    · rcases f2 with ⟨-, f2⟩ | ⟨-, f2⟩
      · exact absurd f2 (nonet he).2
      · exact absurd f2 (nonet he).1
    · rcases f1 with ⟨-, f1⟩ | ⟨-, f1⟩
      · exact absurd f1 (nonet he').2
      · exact absurd f1 (nonet he').1
  · exact (key e2 g2 b2 e1 g1 b1 hlt).elim

/-- In the minimize mode. -/
theorem C80_minimize (rt : Runtime) (prog mode : Str) (rest : List Str) (hm : mode = "-m".toList ∨ mode = "--minimize".toList)
    (m : ErrMsg) : m ∈ messages (doMain rt (prog :: mode :: rest)).out ↔ MinimizeComplaint rest m := by
  rw [(C56_dispatch rt prog mode rest).1 hm]
  have total : (∃ m, MinimizeComplaint rest m ∧ minimize rt (prog :: mode :: rest) = ⟨[.err m], .ok 1⟩) ∨
      ((∀ m, ¬ MinimizeComplaint rest m) ∧ messages (minimize rt (prog :: mode :: rest)).out = []) := by
    have none_of : ((rest ≠ [] ∧ ∀ y ∈ rest, IsV4Network y) ∨ (rest ≠ [] ∧ ∀ y ∈ rest, IsV6Network y)) → ∀ m, ¬ MinimizeComplaint rest m := by
      rintro h m (⟨rfl, -⟩ | ⟨pre, x, post, rfl, h2⟩)
      · rcases h with ⟨h, -⟩ | ⟨h, -⟩ <;> exact h rfl
      · have hx : IsV4Network x ∨ IsV6Network x := by
          rcases h with ⟨-, h⟩ | ⟨-, h⟩
          · exact .inl (h x (by simp))
          · exact .inr (h x (by simp))
        rcases h2 with ⟨e, -, he, -⟩ | ⟨hne, h2, -⟩
        · rcases C80_network_texts x with ⟨-, -, h⟩ | ⟨-, -, h⟩ | ⟨h1, h2, -⟩
          · exact h e he
          · exact h e he
          · exact hx.elim h1 h2
        · obtain ⟨y, hy⟩ := List.exists_mem_of_ne_nil _ hne
          have both : ∀ z, IsV4Network z → IsV6Network z → False := by
            intro z h4 h6
            rcases C80_network_texts z with ⟨-, h, -⟩ | ⟨h, -, -⟩ | ⟨h, -, -⟩
            · exact h h6
            · exact h h4
            · exact h h4
          rcases h with ⟨-, h⟩ | ⟨-, h⟩ <;> rcases h2 with ⟨h3, h4⟩ | ⟨h3, h4⟩
          · exact both x (h x (by simp)) h4
          · exact both y (h y (by simp [hy])) (h3 y hy)
          · exact both y (h3 y hy) (h y (by simp [hy]))
          · exact both x h4 (h x (by simp))
    rcases C63_minimize rt prog mode rest with ⟨h1, h⟩ | ⟨xs, out, h1, -, h⟩ | ⟨xs, out, h1, -, h⟩ | ⟨pre, x, post, h1, h0, h2, h⟩ | ⟨pre, x, post, e, h1, h2, h3, h⟩
    · exact .inl ⟨_, .inl ⟨h1, rfl⟩, h⟩
    · by_cases hne : rest = []
      · subst hne; exact .inl ⟨.usage, .inl ⟨rfl, rfl⟩, rfl⟩
      · exact .inr ⟨none_of (.inl ⟨hne, (pointwise4_iff rest).mp ⟨xs, h1⟩⟩), by rw [h]; exact messages_netOutput _⟩
    · by_cases hne : rest = []
      · subst hne; exact .inl ⟨.usage, .inl ⟨rfl, rfl⟩, rfl⟩
      · exact .inr ⟨none_of (.inr ⟨hne, (pointwise6_iff rest).mp ⟨xs, h1⟩⟩), by rw [h]; exact messages_netOutput _⟩
    · refine .inl ⟨.mixed, .inr ⟨pre, x, post, h1, .inr ⟨h0, ?_, rfl⟩⟩, h⟩
      rcases h2 with ⟨ys, y, h3, h4⟩ | ⟨ys, y, h3, h4⟩
      · exact .inl ⟨(pointwise4_iff pre).mp ⟨ys, h3⟩, (isV6Network_iff x).mp ⟨_, _, h4⟩⟩
      · exact .inr ⟨(pointwise6_iff pre).mp ⟨ys, h3⟩, (isV4Network_iff x).mp ⟨_, _, h4⟩⟩
    · refine .inl ⟨_, .inr ⟨pre, x, post, h1, .inl ⟨e, ?_, (parseNetspec_error x e).mp h3, rfl⟩⟩, h⟩
      rw [← pointwise4_iff, ← pointwise6_iff]; exact h2
  rcases total with ⟨m', h1, h2⟩ | ⟨h1, h2⟩
  · rw [h2]
    constructor
    · intro h
      rw [List.mem_singleton.mp (show m ∈ [m'] from h)]; exact h1
    · intro h
      rw [minimize_unique h h1]
      exact List.mem_singleton.mpr rfl
  · rw [h2]
    exact ⟨fun h => (by cases h), fun h => absurd h (h1 m)⟩

/-- In the derange mode. -/
theorem C80_derange (rt : Runtime) (prog mode : Str) (rest : List Str) (hm : mode = "-d".toList ∨ mode = "--derange".toList)
    (m : ErrMsg) : m ∈ messages (doMain rt (prog :: mode :: rest)).out ↔ DerangeComplaint rest m := by
  rw [(C56_dispatch rt prog mode rest).2.1 hm]
  refine complaint_iff (fun m h => ?_) ?_ m
  · rcases h with ⟨hl, rfl⟩ | ⟨u, v, rfl, h⟩
    · exact (derange_errors rt _).1 (by simp only [List.length_cons]; omega)
    · obtain ⟨h1, h2, h3, h4⟩ := (derange_errors rt [prog, mode, u, v]).2 prog mode u v rfl
      rcases h with ⟨e, he, rfl⟩ | ⟨e, ha, he, rfl⟩ | ⟨⟨ha, hb⟩ | ⟨ha, hb⟩, rfl⟩
      · exact h1 e ((parseAddr_error u e).mpr he)
      · obtain ⟨x, hx⟩ := (isAddress_iff u).mpr ha
        exact h2 x e hx ((parseAddr_error v e).mpr he)
      · obtain ⟨a, ha⟩ := (isV4Address_iff u).mpr ha
        obtain ⟨b, hb⟩ := (isV6Address_iff v).mpr hb
        exact h3 a b ha hb
      · obtain ⟨a, ha⟩ := (isV6Address_iff u).mpr ha
        obtain ⟨b, hb⟩ := (isV4Address_iff v).mpr hb
        exact h4 a b ha hb
  · by_cases hl : rest.length = 2
    · obtain ⟨u, v, rfl⟩ := pair_of_length hl
      obtain ⟨r, hr⟩ := (C36_parse_addr u).1
      obtain ⟨r', hr'⟩ := (C36_parse_addr v).1
      rcases r with e | x
      · exact .inl ⟨_, .inr ⟨u, v, rfl, .inl ⟨e, (parseAddr_error u e).mp hr, rfl⟩⟩⟩
      rcases r' with e | y
      · exact .inl ⟨_, .inr ⟨u, v, rfl, .inr (.inl ⟨e, (isAddress_iff u).mp ⟨x, hr⟩, (parseAddr_error v e).mp hr', rfl⟩)⟩⟩
      rcases x with a | a <;> rcases y with b | b
      · right
        rw [derange, if_neg (by simp)]
        simp only [List.getD_cons_succ, List.getD_cons_zero, hr, hr', Cli.lift_ok_bind]
        rw [if_neg (fun hne => hne rfl)]
        exact tidy_messages ((tidy_lift _).bind fun _ => (tidy_printNets plain_display4 _).bind fun _ => tidy_pure _)
      · exact .inl ⟨_, .inr ⟨u, v, rfl, .inr (.inr ⟨.inl ⟨(isV4Address_iff u).mp ⟨a, hr⟩, (isV6Address_iff v).mp ⟨b, hr'⟩⟩, rfl⟩)⟩⟩
      · exact .inl ⟨_, .inr ⟨u, v, rfl, .inr (.inr ⟨.inr ⟨(isV6Address_iff u).mp ⟨a, hr⟩, (isV4Address_iff v).mp ⟨b, hr'⟩⟩, rfl⟩)⟩⟩
      · right
        rw [derange, if_neg (by simp)]
        simp only [List.getD_cons_succ, List.getD_cons_zero, hr, hr', Cli.lift_ok_bind]
        rw [if_neg (fun hne => hne rfl)]
        exact tidy_messages ((tidy_lift _).bind fun _ => (tidy_printNets plain_display6 _).bind fun _ => tidy_pure _)
    · exact .inl ⟨_, .inl ⟨hl, rfl⟩⟩

/-- What can be wrong with the target of a resize of an IPv4 network. -/
theorem resizeMask4_error (k : Str) (m : ErrMsg) : resizeMask4 k = .ok (.error m) ↔
    (∃ e, SubnetFault k e ∧ m = .resizeSubnet k e) ∨ (∃ p, PrefixText k p ∧ 32 < p ∧ m = .resizeRangeV4 p) ∨
    (∃ a, ':' ∈ k ∧ V6Reading k a ∧ m = .resizeV4ToV6) := by
  obtain ⟨⟨r, hr⟩, h6, -, hp⟩ := C36_parse_subnet k
  have hf : ∀ e, SubnetFault k e ↔ parseSubnet k = .ok (.error e) := fun e => (parseSubnet_error k e).symm
  have hp' : ∀ p, PrefixText k p ↔ parseSubnet k = .ok (.ok (.cidr p)) := fun p => (hp p).symm
  have h6' : ∀ a, (':' ∈ k ∧ V6Reading k a ∧ m = .resizeV4ToV6) ↔ (parseSubnet k = .ok (.ok (.ipv6Mask a)) ∧ m = .resizeV4ToV6) :=
    fun a => by rw [h6 a, and_assoc]
  simp only [hf, hp', h6', resizeMask4, hr, Exec.ok_bind]
  rcases r with e | p | a | a
  · simp [eq_comm]
  · by_cases hlt : p > 32
    · simp [hlt, eq_comm]
    · have : ∀ q, p = q → ¬ 32 < q := by intro q hq; omega
      simp only [if_neg hlt]
      constructor
      · intro h
        cases hu : (Exec.unwrap (IpAddr.fromBytes (subnetMaskBytesFromPrefix p 4)) : Exec V4) <;> rw [hu] at h <;> cases h
      · rintro (⟨e, h, -⟩ | ⟨q, h, h', -⟩ | ⟨a, h, -⟩) <;> cases h
        exact absurd h' hlt
  · simp
  · simp [eq_comm]

/-- What can be wrong with the target of a resize of an IPv6 network. -/
theorem resizeMask6_error (k : Str) (m : ErrMsg) : resizeMask6 k = .ok (.error m) ↔
    (∃ e, SubnetFault k e ∧ m = .resizeSubnet k e) ∨ (∃ p, PrefixText k p ∧ 128 < p ∧ m = .resizeRangeV6 p) ∨
    (∃ a, ':' ∉ k ∧ '.' ∈ k ∧ V4Reading k a ∧ m = .resizeV6ToV4) := by
  obtain ⟨⟨r, hr⟩, -, h4, hp⟩ := C36_parse_subnet k
  have hf : ∀ e, SubnetFault k e ↔ parseSubnet k = .ok (.error e) := fun e => (parseSubnet_error k e).symm
  have hp' : ∀ p, PrefixText k p ↔ parseSubnet k = .ok (.ok (.cidr p)) := fun p => (hp p).symm
  have h4' : ∀ a, (':' ∉ k ∧ '.' ∈ k ∧ V4Reading k a ∧ m = .resizeV6ToV4) ↔
      (parseSubnet k = .ok (.ok (.ipv4Mask a)) ∧ m = .resizeV6ToV4) := fun a => by rw [h4 a, and_assoc, and_assoc]
  simp only [hf, hp', h4', resizeMask6, hr, Exec.ok_bind]
  rcases r with e | p | a | a
  · simp [eq_comm]
  · by_cases hlt : p > 128
    · simp [hlt, eq_comm]
    · simp only [if_neg hlt]
      constructor
      · intro h
        cases hu : (Exec.unwrap (IpAddr.fromBytes (subnetMaskBytesFromPrefix p 16)) : Exec V6) <;> rw [hu] at h <;> cases h
      · rintro (⟨e, h, -⟩ | ⟨q, h, h', -⟩ | ⟨a, h, -⟩) <;> cases h
        exact absurd h' hlt
  · simp [eq_comm]
  · simp

/-- In the resize mode. -/
theorem C80_resize (rt : Runtime) (prog mode : Str) (rest : List Str) (hm : mode = "-r".toList ∨ mode = "--resize".toList)
    (m : ErrMsg) : m ∈ messages (doMain rt (prog :: mode :: rest)).out ↔ ResizeComplaint rest m := by
  rw [(C56_dispatch rt prog mode rest).2.2.2.1 hm]
  refine complaint_iff (fun m h => ?_) ?_ m
  · rcases h with ⟨hl, rfl⟩ | ⟨s, k, rfl, h⟩
    · exact (C64_errors rt _).1 (by simp only [List.length_cons]; omega)
    · obtain ⟨h1, h2, h3⟩ := (C64_errors rt [prog, mode, s, k]).2 prog mode s k rfl
      have r4 : IsV4Network s → ∀ m, resizeMask4 k = .ok (.error m) → resize rt [prog, mode, s, k] = ⟨[.err m], .ok 1⟩ := by
        intro hs m hm
        obtain ⟨a, n, hn⟩ := (isV4Network_iff s).mpr hs
        exact h2 a n m hn hm
      have r6 : IsV6Network s → ∀ m, resizeMask6 k = .ok (.error m) → resize rt [prog, mode, s, k] = ⟨[.err m], .ok 1⟩ := by
        intro hs m hm
        obtain ⟨a, n, hn⟩ := (isV6Network_iff s).mpr hs
        exact h3 a n m hn hm
      rcases h with ⟨e, he, rfl⟩ | ⟨e, hs | hs, he⟩ | ⟨p, hs, hp⟩ | ⟨p, hs, hp⟩ | ⟨a, hs, ha⟩ | ⟨a, hs, ha⟩
      · exact h1 e ((parseNetspec_error s e).mpr he)
      · exact r4 hs m ((resizeMask4_error k m).mpr (.inl ⟨e, he⟩))
      · exact r6 hs m ((resizeMask6_error k m).mpr (.inl ⟨e, he⟩))
      · exact r4 hs m ((resizeMask4_error k m).mpr (.inr (.inl ⟨p, hp⟩)))
      · exact r6 hs m ((resizeMask6_error k m).mpr (.inr (.inl ⟨p, hp⟩)))
      · exact r4 hs m ((resizeMask4_error k m).mpr (.inr (.inr ⟨a, ha⟩)))
      · exact r6 hs m ((resizeMask6_error k m).mpr (.inr (.inr ⟨a, ha⟩)))
  · by_cases hl : rest.length = 2
    · obtain ⟨s, k, rfl⟩ := pair_of_length hl
      obtain ⟨r, hr⟩ := parseNetspec_total s
      rcases r with e | ⟨a, n⟩ | ⟨a, n⟩
      · exact .inl ⟨_, .inr ⟨s, k, rfl, .inl ⟨e, (parseNetspec_error s e).mp hr, rfl⟩⟩⟩
      · have hs := (isV4Network_iff s).mp ⟨a, n, hr⟩
        obtain ⟨r', hr'⟩ := (C34_resize_ipv4 k).1
        rcases r' with m | mask
        · left
          rcases (resizeMask4_error k m).mp hr' with ⟨e, h⟩ | ⟨p, h⟩ | ⟨x, h⟩
          · exact ⟨m, .inr ⟨s, k, rfl, .inr (.inl ⟨e, .inl hs, h⟩)⟩⟩
          · exact ⟨m, .inr ⟨s, k, rfl, .inr (.inr (.inl ⟨p, hs, h⟩))⟩⟩
          · exact ⟨m, .inr ⟨s, k, rfl, .inr (.inr (.inr (.inr (.inl ⟨x, hs, h⟩))))⟩⟩
        · right
          rw [resize, if_neg (by simp)]
          simp only [List.getD_cons_succ, List.getD_cons_zero, hr, hr', Cli.lift_ok_bind]
          exact tidy_messages ((tidy_resizeAndOutput rt _ _ (tidy_network4 rt)).bind fun _ => tidy_pure _)
      · have hs := (isV6Network_iff s).mp ⟨a, n, hr⟩
        obtain ⟨r', hr'⟩ := (C34_resize_ipv6 k).1
        rcases r' with m | mask
        · left
          rcases (resizeMask6_error k m).mp hr' with ⟨e, h⟩ | ⟨p, h⟩ | ⟨x, h⟩
          · exact ⟨m, .inr ⟨s, k, rfl, .inr (.inl ⟨e, .inr hs, h⟩)⟩⟩
          · exact ⟨m, .inr ⟨s, k, rfl, .inr (.inr (.inr (.inl ⟨p, hs, h⟩)))⟩⟩
          · exact ⟨m, .inr ⟨s, k, rfl, .inr (.inr (.inr (.inr (.inr ⟨x, hs, h⟩))))⟩⟩
        · right
          rw [resize, if_neg (by simp)]
          simp only [List.getD_cons_succ, List.getD_cons_zero, hr, hr', Cli.lift_ok_bind]
          exact tidy_messages ((tidy_resizeAndOutput rt _ _ (tidy_network6 rt)).bind fun _ => tidy_pure _)
    · exact .inl ⟨_, .inl ⟨hl, rfl⟩⟩

theorem counts_exists (counts : List Str) : (∃ hcs, Counts counts hcs) ↔ ∀ y ∈ counts, GoodCount y := by
  constructor
  · rintro ⟨hcs, h⟩ y hy
    obtain ⟨c, -, hc⟩ := h.mem_left y hy
    exact ⟨c, hc⟩
  · intro h
    induction counts with
    | nil => exact ⟨[], .nil⟩
    | cons y counts ih =>
      obtain ⟨hcs, hh⟩ := ih fun z hz => h z (by simp [hz])
      obtain ⟨c, hc⟩ := h y (by simp)
      exact ⟨c :: hcs, .cons hc hh⟩

/-- In the split mode. -/
theorem C80_split (rt : Runtime) (prog mode : Str) (rest : List Str) (hm : mode = "-s".toList ∨ mode = "--split".toList)
    (m : ErrMsg) : m ∈ messages (doMain rt (prog :: mode :: rest)).out ↔ SplitComplaint rest m := by
  rw [(C56_dispatch rt prog mode rest).2.2.1 hm]
  refine complaint_iff (fun m h => ?_) ?_ m
  · rcases h with ⟨hl, rfl⟩ | ⟨s, counts, rfl, hne, h⟩
    · exact (C65_errors rt _).1 (by simp only [List.length_cons]; omega)
    · obtain ⟨h1, h2⟩ := (C65_errors rt (prog :: mode :: s :: counts)).2 prog mode s counts rfl hne
      rcases h with ⟨pre, x, post, e1, hg, ⟨hx, rfl⟩ | ⟨c, hx, hc, rfl⟩⟩ | ⟨e, hg, he, rfl⟩
      · exact (h1 pre x post e1 hg).1 hx
      · exact (h1 pre x post e1 hg).2 c hx hc
      · obtain ⟨hcs, hh⟩ := (counts_exists counts).mpr hg
        exact h2 hcs e hh ((parseNetspec_error s e).mpr he)
  · by_cases hl : rest.length < 2
    · exact .inl ⟨_, .inl ⟨hl, rfl⟩⟩
    · obtain ⟨s, x, counts, rfl⟩ : ∃ s x counts, rest = s :: x :: counts := by
        match rest, hl with
        | s :: x :: counts, _ => exact ⟨s, x, counts, rfl⟩
        | [], h => simp at h
        | [_], h => simp at h
      have hne : x :: counts ≠ [] := List.cons_ne_nil _ _
      rcases parseHostCounts_cases (x :: counts) with ⟨hcs, hc, hp⟩ | ⟨pre, y, post, h1, h2, h3⟩
      · obtain ⟨r, hr⟩ := parseNetspec_total s
        have hlen : ¬ (prog :: mode :: s :: x :: counts).length < 4 := by simp only [List.length_cons]; omega
        rcases r with e | ⟨a, n⟩ | ⟨a, n⟩
        · exact .inl ⟨_, .inr ⟨s, x :: counts, rfl, hne, .inr ⟨e, (counts_exists _).mp ⟨hcs, hc⟩, (parseNetspec_error s e).mp hr, rfl⟩⟩⟩
        · right
          rw [split, if_neg hlen]
          simp only [List.drop_succ_cons, List.drop_zero, List.getD_cons_succ, List.getD_cons_zero, hp, hr, Cli.lift_ok_bind]
          exact tidy_messages (tidy_outputSplit rt plain_display4 _ _ (tidy_network4 rt))
        · right
          rw [split, if_neg hlen]
          simp only [List.drop_succ_cons, List.drop_zero, List.getD_cons_succ, List.getD_cons_zero, hp, hr, Cli.lift_ok_bind]
          exact tidy_messages (tidy_outputSplit rt plain_display6 _ _ (tidy_network6 rt))
      · left
        rcases h3 with ⟨h3, -⟩ | ⟨c, h3, h4, -⟩
        · exact ⟨_, .inr ⟨s, x :: counts, rfl, hne, .inl ⟨pre, y, post, h1, h2, .inl ⟨h3, rfl⟩⟩⟩⟩
        · exact ⟨_, .inr ⟨s, x :: counts, rfl, hne, .inl ⟨pre, y, post, h1, h2, .inr ⟨c, h3, h4, rfl⟩⟩⟩⟩

theorem enumerateComplaints_iff {ss : List Str} {evss : List (List OutEv)} (h : Pointwise ArgOutput ss evss) (ms : List ErrMsg) :
    messages evss.flatten = ms ↔ EnumerateComplaints ss ms := by
  have hout : ∀ {B : Type} (f : B → Str) (xs : List B), messages (xs.map fun x => OutEv.out (f x)) = [] := by
    intro B f xs
    rw [messages, List.filterMap_eq_nil_iff]
    intro e he
    obtain ⟨x, -, rfl⟩ := List.mem_map.mp he
    rfl
  have happ : ∀ a b : List OutEv, messages (a ++ b) = messages a ++ messages b := fun a b => List.filterMap_append
  induction h generalizing ms with
  | nil =>
    constructor
    · rintro rfl; exact .nil
    · intro h; cases h; rfl
  | @cons s evs ss evss hs _ ih =>
    rw [List.flatten_cons, happ]
    have good : (∃ x, parseNetspec s = .ok (.ok x)) → messages evs = [] →
        (messages evs ++ messages evss.flatten = ms ↔ EnumerateComplaints (s :: ss) ms) := by
      intro hx he
      rw [he, List.nil_append]
      refine (ih ms).trans ?_
      constructor
      · exact fun h => .good ((isNetwork_iff s).mp hx) h
      · intro h
        cases h with
        | good _ h => exact h
        | bad hf _ =>
          obtain ⟨x, hx⟩ := hx
          rw [← parseNetspec_error, hx] at hf
          cases hf
    rcases hs with ⟨e, h1, rfl⟩ | ⟨a, n, xs, h1, -, rfl⟩ | ⟨a, n, xs, h1, -, rfl⟩
    · have hm : messages [OutEv.err (.enumerateNet s e)] = [.enumerateNet s e] := rfl
      rw [hm]
      constructor
      · rintro rfl
        exact .bad ((parseNetspec_error s e).mp h1) ((ih _).mp rfl)
      · intro h
        cases h with
        | good hg _ =>
          obtain ⟨x, hx⟩ := (isNetwork_iff s).mpr hg
          rw [h1] at hx
          cases hx
        | bad hf h =>
          rw [← parseNetspec_error, h1] at hf
          cases hf
          rw [(ih _).mpr h]
          rfl
    · exact good ⟨_, h1⟩ (hout _ xs)
    · exact good ⟨_, h1⟩ (hout _ xs)

/-- In the enumerate mode: one message for each malformed argument, in order. -/
theorem C80_enumerate (rt : Runtime) (prog mode : Str) (rest : List Str) (hm : mode = "-e".toList ∨ mode = "--enumerate".toList) :
    (rest = [] → messages (doMain rt (prog :: mode :: rest)).out = [.usage]) ∧
    (rest ≠ [] → ∀ ms, messages (doMain rt (prog :: mode :: rest)).out = ms ↔ EnumerateComplaints rest ms) := by
  rw [(C56_dispatch rt prog mode rest).2.2.2.2.1 hm]
  refine ⟨?_, fun hne ms => ?_⟩
  · rintro rfl
    rw [C38_usage rt _ (by simp)]
    rfl
  · have := List.length_pos_iff.mpr hne
    obtain ⟨evss, code, h1, h2, -⟩ := C38_enumerate rt (prog :: mode :: rest) (by simp only [List.length_cons]; omega)
    rw [h2]
    exact enumerateComplaints_iff h1 ms

/-- Without arguments, and when asked for help, the usage text is written; the colour test writes no message. -/
theorem C80_rest (rt : Runtime) (prog : Str) (rest : List Str) :
    messages (doMain rt [prog]).out = [.usage] ∧ messages (doMain rt (prog :: "--help".toList :: rest)).out = [.usage] ∧
    messages (doMain rt (prog :: "--color-test".toList :: rest)).out = [] := by
  refine ⟨rfl, ?_, ?_⟩
  · rw [(C56_dispatch rt prog _ rest).2.2.2.2.2.1 rfl]; rfl
  · rw [doMain_cons]
    rw [if_neg (by decide), if_neg (by decide), if_neg (by decide), if_neg (by decide), if_neg (by decide), if_pos (by decide)]
    exact tidy_messages ((tidy_colorTest rt).bind fun _ => tidy_pure _)

/-! Cases with a complaint in each mode, and with none. -/

example : ShowComplaint ["192.0.2.0/24".toList, "192.0.2.0/33".toList] (.showParse (.cidrRange 33 32)) :=
  (C80_show (evalRuntime .checked false) [] "192.0.2.0/24".toList ["192.0.2.0/33".toList] (by decide +kernel) _).mp (by decide +kernel)

example : MinimizeComplaint ["192.0.2.0/24".toList, "::/64".toList, "x".toList] .mixed :=
  (C80_minimize (evalRuntime .checked false) [] "-m".toList _ (.inl rfl) _).mp (by decide +kernel)

example : DerangeComplaint ["192.0.2.0".toList, "::1".toList] .derangeVersion :=
  (C80_derange (evalRuntime .checked false) [] "-d".toList _ (.inl rfl) _).mp (by decide +kernel)

example : ResizeComplaint ["192.0.2.0/24".toList, "33".toList] (.resizeRangeV4 33) :=
  (C80_resize (evalRuntime .checked false) [] "-r".toList _ (.inl rfl) _).mp (by decide +kernel)

example : SplitComplaint ["192.0.2.0/24".toList, "1_0".toList, "-1".toList, "x".toList] .splitNegative :=
  (C80_split (evalRuntime .checked false) [] "-s".toList _ (.inl rfl) _).mp (by decide +kernel)

example : EnumerateComplaints ["x".toList, "192.0.2.0/31".toList, "192.0.2.0".toList]
    [.enumerateNet "x".toList (.unrecognized "x".toList), .enumerateNet "192.0.2.0".toList (.unrecognized "192.0.2.0".toList)] :=
  .bad ((parseNetspec_error _ _).mp (by decide +kernel))
    (.good (.inl ((isV4Network_iff _).mp ⟨⟨0xC0000200#32⟩, ⟨⟨0xC0000200#32⟩, ⟨0xFFFFFFFE#32⟩, some 31⟩, by decide +kernel⟩))
      (.bad ((parseNetspec_error _ _).mp (by decide +kernel)) .nil))

example (m : ErrMsg) : ¬ ShowComplaint ["192.0.2.0/24".toList] m := by
  rw [← C80_show (evalRuntime .checked false) [] _ _ (by decide +kernel)]
  have : messages (doMain (evalRuntime .checked false) [[], "192.0.2.0/24".toList]).out = [] := by decide +kernel
  rw [this]
  simp

/-! ## C57 again, with what the arguments should have been -/

theorem badSpec_iff (s : Str) : BadSpec s ↔ ¬ IsV4Network s ∧ ¬ IsV6Network s := by
  have h := C80_network_texts s
  have he : BadSpec s ↔ ∃ e, NetspecFault s e := by simp only [BadSpec, parseNetspec_error]
  rw [he]
  rcases h with ⟨h1, -, h3⟩ | ⟨-, h2, h3⟩ | ⟨h1, h2, h3⟩
  · exact ⟨fun ⟨e, h⟩ => absurd h (h3 e), fun h => absurd h1 h.1⟩
  · exact ⟨fun ⟨e, h⟩ => absurd h (h3 e), fun h => absurd h2 h.2⟩
  · exact ⟨fun _ => ⟨h1, h2⟩, fun _ => h3⟩

theorem badAddr_iff (s : Str) : (∃ e, parseAddr s = .ok (.error e)) ↔ ¬ IsV4Address s ∧ ¬ IsV6Address s := by
  rw [← not_or, ← isAddress_iff]
  obtain ⟨r, hr⟩ := (C36_parse_addr s).1
  rw [hr]
  cases r with
  | error e => simp
  | ok x => simp

/-- The text of a mask or prefix length, of any family. -/
def IsMaskText (k : Str) : Prop :=
  (∃ m, ':' ∈ k ∧ V6Reading k m) ∨ (∃ m, ':' ∉ k ∧ '.' ∈ k ∧ V4Reading k m) ∨ ∃ p, PrefixText k p

theorem badSubnet_iff (k : Str) : (∃ e, parseSubnet k = .ok (.error e)) ↔ ¬ IsMaskText k := by
  obtain ⟨⟨r, hr⟩, h6, h4, hp⟩ := C36_parse_subnet k
  have : IsMaskText k ↔ ∃ x, parseSubnet k = .ok (.ok x) := by
    simp only [IsMaskText, PrefixText, ← h6, ← h4, ← hp]
    constructor
    · rintro (⟨m, h⟩ | ⟨m, h⟩ | ⟨p, h⟩) <;> exact ⟨_, h⟩
    · rintro ⟨x, h⟩
      cases x with
      | ipv6Mask m => exact .inl ⟨m, h⟩
      | ipv4Mask m => exact .inr (.inl ⟨m, h⟩)
      | cidr p => exact .inr (.inr ⟨p, h⟩)
  rw [this, hr]
  cases r with
  | error e => simp
  | ok x => simp

/-- An argument that is not what its mode takes: one message, nothing on standard output, exit code 1. -/
theorem C57_texts (rt : Runtime) (prog mode : Str) (rest : List Str)
    (h : (mode ∉ ["-m", "--minimize", "-d", "--derange", "-s", "--split", "-r", "--resize", "-e", "--enumerate", "--color-test",
        "--help"].map String.toList ∧ ∃ s ∈ mode :: rest, ¬ IsV4Network s ∧ ¬ IsV6Network s) ∨
      ((mode = "-m".toList ∨ mode = "--minimize".toList) ∧ ∃ s ∈ rest, ¬ IsV4Network s ∧ ¬ IsV6Network s) ∨
      ((mode = "-d".toList ∨ mode = "--derange".toList) ∧ ∃ s ∈ rest, ¬ IsV4Address s ∧ ¬ IsV6Address s) ∨
      ((mode = "-r".toList ∨ mode = "--resize".toList) ∧ ∃ s k, rest = [s, k] ∧
        ((¬ IsV4Network s ∧ ¬ IsV6Network s) ∨ ¬ IsMaskText k)) ∨
      ((mode = "-s".toList ∨ mode = "--split".toList) ∧ ∃ s counts, rest = s :: counts ∧
        ((¬ IsV4Network s ∧ ¬ IsV6Network s) ∨ ∃ x ∈ counts, ¬ GoodCount x))) :
    ∃ m, doMain rt (prog :: mode :: rest) = ⟨[.err m], .ok 1⟩ := by
  refine C57_malformed rt prog mode rest ?_
  simp only [badSpec_iff, badAddr_iff, badSubnet_iff]
  exact h

example : ¬ IsV4Network "192.0.2.0/33".toList ∧ ¬ IsV6Network "192.0.2.0/33".toList :=
  (badSpec_iff _).mp ⟨.cidrRange 33 32, by decide +kernel⟩
example : ¬ IsV4Address "192.0.2.0/24".toList ∧ ¬ IsV6Address "192.0.2.0/24".toList := by
  rw [← badAddr_iff]
  exact ⟨_, (by decide +kernel : parseAddr "192.0.2.0/24".toList = .ok (.error (.chunkParseError 3 "0/24".toList .invalidDigit)))⟩

end Ripcalc
