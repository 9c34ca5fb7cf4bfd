import Verif.Conformance.Eval
import Verif.Proofs.Program
import Verif.Props.Process
/-!
# C100: the whole program

The description of `Verif/Spec/Program.lean` holds of exactly the outcomes that the model has on some platform.
-/
namespace Ripcalc
open AddrSpec

/-! ## The modes -/

section
variable {prog mode : Str} {rest : List Str}

theorem minimize_shape (rest : List Str) : (∃ m, MinimizeComplaint rest m) ∨
    (rest ≠ [] ∧ ∀ y ∈ rest, IsV4Network y) ∨ (rest ≠ [] ∧ ∀ y ∈ rest, IsV6Network y) := by
  by_cases hne : rest = []
  · exact .inl ⟨_, .inl ⟨hne, rfl⟩⟩
  rcases C63_minimize (Runtime.reference .checked true) [] [] rest with ⟨h1, -⟩ | ⟨xs, -, h1, -⟩ | ⟨xs, -, h1, -⟩ |
    ⟨pre, x, post, h1, h0, h2, -⟩ | ⟨pre, x, post, e, h1, h2, h3, -⟩
  · exact absurd h1 hne
  · exact .inr (.inl ⟨hne, (pointwise4_iff rest).mp ⟨xs, h1⟩⟩)
  · exact .inr (.inr ⟨hne, (pointwise6_iff rest).mp ⟨xs, h1⟩⟩)
  · refine .inl ⟨.mixed, .inr ⟨pre, x, post, h1, .inr ⟨h0, ?_, rfl⟩⟩⟩
    rcases h2 with ⟨ys, y, h3, h4⟩ | ⟨ys, y, h3, h4⟩
    · exact .inl ⟨(pointwise4_iff pre).mp ⟨ys, h3⟩, (isV6Network_iff x).mp ⟨_, _, h4⟩⟩
    · exact .inr ⟨(pointwise6_iff pre).mp ⟨ys, h3⟩, (isV4Network_iff x).mp ⟨_, _, h4⟩⟩
  · refine .inl ⟨_, .inr ⟨pre, x, post, h1, .inl ⟨e, ?_, (parseNetspec_error x e).mp h3, rfl⟩⟩⟩
    rw [← pointwise4_iff, ← pointwise6_iff]; exact h2

theorem minimize_outcome (rt : Runtime) (hm : mode ∈ ["-m", "--minimize"].map String.toList) (r : Outcome) :
    ((∃ m, MinimizeComplaint rest m ∧ r = .complaint m) ∨ shownTexts.ipv4.Minimizes rest r ∨ shownTexts.ipv6.Minimizes rest r) ↔
      r = Outcome.of (doMain rt (prog :: mode :: rest)) := by
  have hm' : mode = "-m".toList ∨ mode = "--minimize".toList := by simpa using hm
  have hd := (C56_dispatch rt prog mode rest).1 hm'
  have sound : ∀ r, ((∃ m, MinimizeComplaint rest m ∧ r = .complaint m) ∨ shownTexts.ipv4.Minimizes rest r ∨
      shownTexts.ipv6.Minimizes rest r) → r = Outcome.of (doMain rt (prog :: mode :: rest)) := by
    rintro r (⟨m, h, rfl⟩ | h | h)
    · exact (of_complaint ((C80_minimize rt prog mode rest hm' m).mpr h) (by rcases hm' with rfl | rfl <;> decide)).symm
    · rw [hd]; exact ((minimizes4 rt prog mode rest r).mp h).2.2
    · rw [hd]; exact ((minimizes6 rt prog mode rest r).mp h).2.2
  refine ⟨sound r, ?_⟩
  rintro rfl
  rcases minimize_shape rest with ⟨m, h⟩ | ⟨h1, h2⟩ | ⟨h1, h2⟩
  · exact .inl ⟨m, h, (sound _ (.inl ⟨m, h, rfl⟩)).symm⟩
  · rw [hd]; exact .inr (.inl ((minimizes4 rt prog mode rest _).mpr ⟨h1, h2, rfl⟩))
  · rw [hd]; exact .inr (.inr ((minimizes6 rt prog mode rest _).mpr ⟨h1, h2, rfl⟩))

theorem derange_shape (rest : List Str) : (∃ m, DerangeComplaint rest m) ∨
    (∃ u v a b, rest = [u, v] ∧ parseAddr u = .ok (.ok (.ipv4 a)) ∧ parseAddr v = .ok (.ok (.ipv4 b))) ∨
    (∃ u v a b, rest = [u, v] ∧ parseAddr u = .ok (.ok (.ipv6 a)) ∧ parseAddr v = .ok (.ok (.ipv6 b))) := by
  by_cases hl : rest.length = 2
  · obtain ⟨u, v, rfl⟩ := pair_of_length hl
    obtain ⟨r, hr⟩ := (C36_parse_addr u).1
    obtain ⟨r', hr'⟩ := (C36_parse_addr v).1
    rcases r with e | x
    · exact .inl ⟨_, .inr ⟨u, v, rfl, .inl ⟨e, (parseAddr_error u e).mp hr, rfl⟩⟩⟩
    rcases r' with e | y
    · exact .inl ⟨_, .inr ⟨u, v, rfl, .inr (.inl ⟨e, (isAddress_iff u).mp ⟨x, hr⟩, (parseAddr_error v e).mp hr', rfl⟩)⟩⟩
    rcases x with a | a <;> rcases y with b | b
    · exact .inr (.inl ⟨u, v, a, b, rfl, hr, hr'⟩)
    · exact .inl ⟨_, .inr ⟨u, v, rfl, .inr (.inr ⟨.inl ⟨(isV4Address_iff u).mp ⟨a, hr⟩, (isV6Address_iff v).mp ⟨b, hr'⟩⟩, rfl⟩)⟩⟩
    · exact .inl ⟨_, .inr ⟨u, v, rfl, .inr (.inr ⟨.inr ⟨(isV6Address_iff u).mp ⟨a, hr⟩, (isV4Address_iff v).mp ⟨b, hr'⟩⟩, rfl⟩)⟩⟩
    · exact .inr (.inr ⟨u, v, a, b, rfl, hr, hr'⟩)
  · exact .inl ⟨_, .inl ⟨hl, rfl⟩⟩

theorem derange_outcome (rt : Runtime) (hm : mode ∈ ["-d", "--derange"].map String.toList) (r : Outcome) :
    ((∃ m, DerangeComplaint rest m ∧ r = .complaint m) ∨ shownTexts.ipv4.Deranges rt.profile rest r ∨
      shownTexts.ipv6.Deranges rt.profile rest r) ↔ r = Outcome.of (doMain rt (prog :: mode :: rest)) := by
  have hm' : mode = "-d".toList ∨ mode = "--derange".toList := by simpa using hm
  have hd := (C56_dispatch rt prog mode rest).2.1 hm'
  have sound : ∀ r, ((∃ m, DerangeComplaint rest m ∧ r = .complaint m) ∨ shownTexts.ipv4.Deranges rt.profile rest r ∨
      shownTexts.ipv6.Deranges rt.profile rest r) → r = Outcome.of (doMain rt (prog :: mode :: rest)) := by
    rintro r (⟨m, h, rfl⟩ | h | h)
    · exact (of_complaint ((C80_derange rt prog mode rest hm' m).mpr h) (by rcases hm' with rfl | rfl <;> decide)).symm
    · obtain ⟨_, _, _, _, -, -, -, h⟩ := (deranges4 rt prog mode rest r).mp h
      rw [hd]; exact h
    · obtain ⟨_, _, _, _, -, -, -, h⟩ := (deranges6 rt prog mode rest r).mp h
      rw [hd]; exact h
  refine ⟨sound r, ?_⟩
  rintro rfl
  rcases derange_shape rest with ⟨m, h⟩ | ⟨u, v, a, b, h⟩ | ⟨u, v, a, b, h⟩
  · exact .inl ⟨m, h, (sound _ (.inl ⟨m, h, rfl⟩)).symm⟩
  · rw [hd]; exact .inr (.inl ((deranges4 rt prog mode rest _).mpr ⟨u, v, a, b, h.1, h.2.1, h.2.2, rfl⟩))
  · rw [hd]; exact .inr (.inr ((deranges6 rt prog mode rest _).mpr ⟨u, v, a, b, h.1, h.2.1, h.2.2, rfl⟩))

theorem resize_shape (rest : List Str) : (∃ m, ResizeComplaint rest m) ∨
    (∃ s k a n m, rest = [s, k] ∧ parseNetspec s = .ok (.ok (.ipv4 a n)) ∧ resizeMask4 k = .ok (.ok m)) ∨
    (∃ s k a n m, rest = [s, k] ∧ parseNetspec s = .ok (.ok (.ipv6 a n)) ∧ resizeMask6 k = .ok (.ok m)) := by
  by_cases hl : rest.length = 2
  · obtain ⟨s, k, rfl⟩ := pair_of_length hl
    obtain ⟨r, hr⟩ := parseNetspec_total s
    rcases r with e | ⟨a, n⟩ | ⟨a, n⟩
    · exact .inl ⟨_, .inr ⟨s, k, rfl, .inl ⟨e, (parseNetspec_error s e).mp hr, rfl⟩⟩⟩
    · have hs := (isV4Network_iff s).mp ⟨a, n, hr⟩
      obtain ⟨r', hr'⟩ := (C34_resize_ipv4 k).1
      rcases r' with m | mask
      · left
        rcases (resizeMask4_error k m).mp hr' with ⟨e, h⟩ | ⟨p, h⟩ | ⟨x, h⟩
        · exact ⟨m, .inr ⟨s, k, rfl, .inr (.inl ⟨e, .inl hs, h⟩)⟩⟩
        · exact ⟨m, .inr ⟨s, k, rfl, .inr (.inr (.inl ⟨p, hs, h⟩))⟩⟩
        · exact ⟨m, .inr ⟨s, k, rfl, .inr (.inr (.inr (.inr (.inl ⟨x, hs, h⟩))))⟩⟩
      · exact .inr (.inl ⟨s, k, a, n, mask, rfl, hr, hr'⟩)
    · have hs := (isV6Network_iff s).mp ⟨a, n, hr⟩
      obtain ⟨r', hr'⟩ := (C34_resize_ipv6 k).1
      rcases r' with m | mask
      · left
        rcases (resizeMask6_error k m).mp hr' with ⟨e, h⟩ | ⟨p, h⟩ | ⟨x, h⟩
        · exact ⟨m, .inr ⟨s, k, rfl, .inr (.inl ⟨e, .inr hs, h⟩)⟩⟩
        · exact ⟨m, .inr ⟨s, k, rfl, .inr (.inr (.inr (.inl ⟨p, hs, h⟩)))⟩⟩
        · exact ⟨m, .inr ⟨s, k, rfl, .inr (.inr (.inr (.inr (.inr ⟨x, hs, h⟩))))⟩⟩
      · exact .inr (.inr ⟨s, k, a, n, mask, rfl, hr, hr'⟩)
  · exact .inl ⟨_, .inl ⟨hl, rfl⟩⟩

theorem resize_outcome (rt : Runtime) (hcol : rt.colorsEnabled = true) (hm : mode ∈ ["-r", "--resize"].map String.toList) (r : Outcome) :
    ((∃ m, ResizeComplaint rest m ∧ r = .complaint m) ∨ shownTexts.ipv4.Resizes rest r ∨ shownTexts.ipv6.Resizes rest r) ↔
      r = Outcome.of (doMain rt (prog :: mode :: rest)) := by
  have hm' : mode = "-r".toList ∨ mode = "--resize".toList := by simpa using hm
  have hd := (C56_dispatch rt prog mode rest).2.2.2.1 hm'
  have sound : ∀ r, ((∃ m, ResizeComplaint rest m ∧ r = .complaint m) ∨ shownTexts.ipv4.Resizes rest r ∨
      shownTexts.ipv6.Resizes rest r) → r = Outcome.of (doMain rt (prog :: mode :: rest)) := by
    rintro r (⟨m, h, rfl⟩ | h | h)
    · exact (of_complaint ((C80_resize rt prog mode rest hm' m).mpr h) (by rcases hm' with rfl | rfl <;> decide)).symm
    · obtain ⟨_, _, _, _, _, -, -, -, h⟩ := (resizes4 rt hcol prog mode rest r).mp h
      rw [hd]; exact h
    · obtain ⟨_, _, _, _, _, -, -, -, h⟩ := (resizes6 rt hcol prog mode rest r).mp h
      rw [hd]; exact h
  refine ⟨sound r, ?_⟩
  rintro rfl
  rcases resize_shape rest with ⟨m, h⟩ | ⟨s, k, a, n, m, h⟩ | ⟨s, k, a, n, m, h⟩
  · exact .inl ⟨m, h, (sound _ (.inl ⟨m, h, rfl⟩)).symm⟩
  · rw [hd]; exact .inr (.inl ((resizes4 rt hcol prog mode rest _).mpr ⟨s, k, a, n, m, h.1, h.2.1, h.2.2, rfl⟩))
  · rw [hd]; exact .inr (.inr ((resizes6 rt hcol prog mode rest _).mpr ⟨s, k, a, n, m, h.1, h.2.1, h.2.2, rfl⟩))

theorem split_shape (rest : List Str) : (∃ m, SplitComplaint rest m) ∨
    (∃ s counts hcs a n, rest = s :: counts ∧ counts ≠ [] ∧ Counts counts hcs ∧ parseNetspec s = .ok (.ok (.ipv4 a n))) ∨
    (∃ s counts hcs a n, rest = s :: counts ∧ counts ≠ [] ∧ Counts counts hcs ∧ parseNetspec s = .ok (.ok (.ipv6 a n))) := by
  by_cases hl : rest.length < 2
  · exact .inl ⟨_, .inl ⟨hl, rfl⟩⟩
  · obtain ⟨s, x, counts, rfl⟩ : ∃ s x counts, rest = s :: x :: counts := by
      match rest, hl with
      | s :: x :: counts, _ => exact ⟨s, x, counts, rfl⟩
      | [], h => simp at h
      | [_], h => simp at h
    have hne : x :: counts ≠ [] := List.cons_ne_nil _ _
    rcases parseHostCounts_cases (x :: counts) with ⟨hcs, hc, hp⟩ | ⟨pre, y, post, h1, h2, h3⟩
    · obtain ⟨r, hr⟩ := parseNetspec_total s
      rcases r with e | ⟨a, n⟩ | ⟨a, n⟩
      · exact .inl ⟨_, .inr ⟨s, x :: counts, rfl, hne, .inr ⟨e, (counts_exists _).mp ⟨hcs, hc⟩, (parseNetspec_error s e).mp hr, rfl⟩⟩⟩
      · exact .inr (.inl ⟨s, _, hcs, a, n, rfl, hne, hc, hr⟩)
      · exact .inr (.inr ⟨s, _, hcs, a, n, rfl, hne, hc, hr⟩)
    · left
      rcases h3 with ⟨h3, -⟩ | ⟨c, h3, h4, -⟩
      · exact ⟨_, .inr ⟨s, x :: counts, rfl, hne, .inl ⟨pre, y, post, h1, h2, .inl ⟨h3, rfl⟩⟩⟩⟩
      · exact ⟨_, .inr ⟨s, x :: counts, rfl, hne, .inl ⟨pre, y, post, h1, h2, .inr ⟨c, h3, h4, rfl⟩⟩⟩⟩

theorem splits_outcome (pr : Profile) (hm : mode ∈ ["-s", "--split"].map String.toList) (r : Outcome) :
    ((∃ m, SplitComplaint rest m ∧ r = .complaint m) ∨ shownTexts.ipv4.Splits rest r ∨ shownTexts.ipv6.Splits rest r) ↔
      ∃ rt : Runtime, rt.profile = pr ∧ rt.colorsEnabled = true ∧ r = Outcome.of (doMain rt (prog :: mode :: rest)) := by
  have hm' : mode = "-s".toList ∨ mode = "--split".toList := by simpa using hm
  have hd := fun rt => (C56_dispatch rt prog mode rest).2.2.1 hm'
  have hne : mode ∉ ["-e", "--enumerate", "--help"].map String.toList := by rcases hm' with rfl | rfl <;> decide
  constructor
  · rintro (⟨m, h, rfl⟩ | h | h)
    · exact ⟨Runtime.reference pr true, rfl, rfl, (of_complaint ((C80_split _ prog mode rest hm' m).mpr h) hne).symm⟩
    · simp only [hd]; exact splits4_arise pr prog mode rest r h
    · simp only [hd]; exact splits6_arise pr prog mode rest r h
  · rintro ⟨rt, -, hcol, rfl⟩
    rcases split_shape rest with ⟨m, h⟩ | ⟨s, counts, hcs, a, n, rfl, h1, h2, h3⟩ | ⟨s, counts, hcs, a, n, rfl, h1, h2, h3⟩
    · exact .inl ⟨m, h, of_complaint ((C80_split rt prog mode rest hm' m).mpr h) hne⟩
    · rw [hd]; exact .inr (.inl (splits4_shown rt hcol prog mode s counts h1 hcs h2 a n h3))
    · rw [hd]; exact .inr (.inr (splits6_shown rt hcol prog mode s counts h1 hcs h2 a n h3))

theorem Pointwise.factor {α β γ : Type} {R : α → β → Prop} {S : β → γ → Prop} {as : List α} {cs : List γ} :
    Pointwise (fun a c => ∃ b, R a b ∧ S b c) as cs ↔ ∃ bs, Pointwise R as bs ∧ Pointwise S bs cs := by
  constructor
  · intro h
    induction h with
    | nil => exact ⟨[], .nil, .nil⟩
    | cons h _ ih =>
      obtain ⟨b, h1, h2⟩ := h
      obtain ⟨bs, h3, h4⟩ := ih
      exact ⟨b :: bs, .cons h1 h3, .cons h2 h4⟩
  · rintro ⟨bs, h1, h2⟩
    induction h1 generalizing cs with
    | nil => cases h2; exact .nil
    | cons h _ ih =>
      cases h2 with
      | cons h3 h4 => exact .cons ⟨_, h, h3⟩ (ih h4)

/-- The display of a network as an argument of the main mode. -/
def MarksFor : NetworkSpec → List Mark → Prop
  | .ipv4 a n, t => shownTexts.ipv4.Block n (some a) t
  | .ipv6 a n, t => shownTexts.ipv6.Block n (some a) t

theorem shown_iff (s : Str) (t : List Mark) : (shownTexts.ipv4.Shown s t ∨ shownTexts.ipv6.Shown s t) ↔
    ∃ x, parseNetspec s = .ok (.ok x) ∧ MarksFor x t := by
  rw [shown4_iff, shown6_iff]
  constructor
  · rintro (⟨a, n, h⟩ | ⟨a, n, h⟩)
    · exact ⟨_, h⟩
    · exact ⟨_, h⟩
  · rintro ⟨x, h⟩
    cases x with
    | ipv4 a n => exact .inl ⟨a, n, h⟩
    | ipv6 a n => exact .inr ⟨a, n, h⟩

theorem marksFor_unique (x : NetworkSpec) (t t' : List Mark) (h : MarksFor x t) (h' : MarksFor x t') : t = t' := by
  cases x with
  | ipv4 a n => exact (displayed4 (Runtime.reference .checked true) rfl).unique h h'
  | ipv6 a n => exact (displayed6 (Runtime.reference .checked true) rfl).unique h h'

theorem views_spec {rt : Runtime} (hc : rt.colorsEnabled = true) (x : NetworkSpec) (hx : GoodSpec x) :
    ∃ t, MarksFor x t ∧ Views (match x with
      | .ipv4 a n => outputIpv4Network rt n (some a)
      | .ipv6 a n => outputIpv6Network rt n (some a)) () t := by
  cases x with
  | ipv4 a n => exact (displayed4 rt hc).block n hx.2.1 (some a)
  | ipv6 a n => exact (displayed6 rt hc).block n hx.2.1 (some a)

theorem views_printLoop {rt : Runtime} (hc : rt.colorsEnabled = true) (specs : List NetworkSpec) (hs : ∀ x ∈ specs, GoodSpec x) :
    ∀ first, ∃ ts, Pointwise MarksFor specs ts ∧ Views (showPrintLoop rt first specs) ()
      (if first then List.intercalate (plainly ['\n']) ts else ts.flatMap (fun t => plainly ['\n'] ++ t)) := by
  induction specs with
  | nil =>
    intro first
    exact ⟨[], .nil, .of_eq (views_pure ()) (by cases first <;> rfl)⟩
  | cons x specs ih =>
    intro first
    obtain ⟨t, h1, h2⟩ := views_spec hc x (hs x (by simp))
    obtain ⟨ts, h3, h4⟩ := ih (fun y hy => hs y (by simp [hy])) false
    refine ⟨t :: ts, .cons h1 h3, ?_⟩
    have h5 : ∀ (t : List Mark) (ts : List (List Mark)),
        t ++ ts.flatMap (fun t => plainly ['\n'] ++ t) = List.intercalate (plainly ['\n']) (t :: ts) := by
      intro t ts
      induction ts generalizing t with
      | nil => simp
      | cons u ts ih2 => simp [List.intercalate_cons_cons, ← ih2]
    have h6 : Views (showPrintLoop rt true (x :: specs)) () (t ++ ts.flatMap (fun t => plainly ['\n'] ++ t)) := by
      cases x <;> exact .bind h2 h4
    cases first with
    | true => exact .of_eq h6 (h5 t ts)
    | false => exact .of_eq (.bind (f := fun _ => showPrintLoop rt true (x :: specs)) (views_println []) h6) (by simp)

theorem views_show (rt : Runtime) (hc : rt.colorsEnabled = true) (prog : Str) (args : List Str) (specs : List NetworkSpec)
    (h : Pointwise (fun s x => parseNetspec s = .ok (.ok x)) args specs) :
    ∃ ts, Pointwise MarksFor specs ts ∧ Views (showNet rt (prog :: args)) 0 (List.intercalate (plainly ['\n']) ts) := by
  have hgood : ∀ (args : List Str) (specs : List NetworkSpec),
      Pointwise (fun s x => parseNetspec s = .ok (.ok x)) args specs → showParseLoop args = .ok (.ok specs) ∧ ∀ x ∈ specs, GoodSpec x := by
    intro args specs h
    induction h with
    | nil => exact ⟨rfl, by simp⟩
    | @cons s x ss xs h1 _ ih =>
      refine ⟨by simp [showParseLoop, h1, ih.1], ?_⟩
      intro y hy
      rcases List.mem_cons.mp hy with rfl | hy
      · exact C33_parsed_good s _ h1
      · exact ih.2 y hy
  obtain ⟨h1, h2⟩ := hgood args specs h
  obtain ⟨ts, h3, h4⟩ := views_printLoop hc specs h2 true
  refine ⟨ts, h3, ?_⟩
  simp only [showNet, List.drop_succ_cons, List.drop_zero, h1, Cli.lift_ok_bind]
  exact .of_eq (.bind h4 (views_pure 0)) (by simp)

theorem show_outcome (rt : Runtime) (hcol : rt.colorsEnabled = true) (hm : mode ∉ modeWords) (r : Outcome) :
    ((∃ m, ShowComplaint (mode :: rest) m ∧ r = .complaint m) ∨
      ∃ ts, Pointwise (fun s t => shownTexts.ipv4.Shown s t ∨ shownTexts.ipv6.Shown s t) (mode :: rest) ts ∧
        r = .shown (List.intercalate (plainly ['\n']) ts)) ↔ r = Outcome.of (doMain rt (prog :: mode :: rest)) := by
  have hd := (C56_dispatch rt prog mode rest).2.2.2.2.2.2 hm
  have hne : mode ∉ ["-e", "--enumerate", "--help"].map String.toList := fun h => hm (by
    simp only [List.map_cons, List.map_nil, List.mem_cons, List.not_mem_nil, or_false] at h
    rcases h with rfl | rfl | rfl <;> decide)
  simp only [shown_iff, Pointwise.factor]
  constructor
  · rintro (⟨m, h, rfl⟩ | ⟨ts, ⟨specs, h1, h2⟩, rfl⟩)
    · exact (of_complaint ((C80_show rt prog mode rest hm m).mpr h) hne).symm
    · obtain ⟨ts', h3, h4⟩ := views_show rt hcol prog (mode :: rest) specs h1
      cases Pointwise.unique marksFor_unique h2 h3
      rw [hd]
      exact (of_views h4).symm
  · rintro rfl
    rcases showParseLoop_cases (mode :: rest) with ⟨specs, h1, -⟩ | ⟨pre, x, post, e, h1, h2, h3, -⟩
    · obtain ⟨ts, h3, h4⟩ := views_show rt hcol prog (mode :: rest) specs h1
      rw [hd]
      exact .inr ⟨ts, ⟨specs, h1, h3⟩, of_views h4⟩
    · have hc : ShowComplaint (mode :: rest) (.showParse e) :=
        ⟨pre, x, post, e, h1, fun y hy => (isNetwork_iff y).mp (h2 y hy), (parseNetspec_error x e).mp h3, rfl⟩
      exact .inl ⟨_, hc, of_complaint ((C80_show rt prog mode rest hm _).mpr hc) hne⟩

theorem enumerated_iff (s t : Str) :
    (shownTexts.ipv4.Enumerated s t ∨ shownTexts.ipv6.Enumerated s t ∨ (∃ e, NetspecFault s e) ∧ t = []) ↔
      ∃ evs, ArgOutput s evs ∧ t = visible evs := by
  rw [enumerated4_iff, enumerated6_iff]
  constructor
  · rintro (⟨a, n, xs, h1, h2, rfl⟩ | ⟨a, n, xs, h1, h2, rfl⟩ | ⟨⟨e, h⟩, rfl⟩)
    · exact ⟨_, .inr (.inl ⟨a, n, xs, h1, h2, rfl⟩), rfl⟩
    · exact ⟨_, .inr (.inr ⟨a, n, xs, h1, h2, rfl⟩), rfl⟩
    · exact ⟨_, .inl ⟨e, (parseNetspec_error s e).mpr h, rfl⟩, rfl⟩
  · rintro ⟨evs, ⟨e, h, rfl⟩ | ⟨a, n, xs, h1, h2, rfl⟩ | ⟨a, n, xs, h1, h2, rfl⟩, rfl⟩
    · exact .inr (.inr ⟨⟨e, (parseNetspec_error s e).mp h⟩, rfl⟩)
    · exact .inl ⟨a, n, xs, h1, h2, rfl⟩
    · exact .inr (.inl ⟨a, n, xs, h1, h2, rfl⟩)

theorem visible_flatten {evss : List (List OutEv)} {ts : List Str} (h : Pointwise (fun evs t => t = visible evs) evss ts) :
    visible evss.flatten = ts.flatten := by
  induction h with
  | nil => rfl
  | cons h _ ih => rw [List.flatten_cons, List.flatten_cons, visible_append, ih, h]

theorem visible_each (evss : List (List OutEv)) : Pointwise (fun evs t => t = visible evs) evss (evss.map visible) := by
  induction evss with
  | nil => exact .nil
  | cons _ _ ih => exact .cons rfl ih

theorem no_faults {ss : List Str} {ms : List ErrMsg} (h : EnumerateComplaints ss ms) (hz : ms = []) :
    ∀ s ∈ ss, ∃ x, parseNetspec s = .ok (.ok x) := by
  induction h with
  | nil => intro s hs; cases hs
  | good h _ ih =>
    intro s hs
    rcases List.mem_cons.mp hs with rfl | hs
    · exact (isNetwork_iff s).mpr h
    · exact ih hz s hs
  | bad _ _ _ => cases hz

theorem some_fault {ss : List Str} {ms : List ErrMsg} (h : EnumerateComplaints ss ms) (hne : ms ≠ []) :
    ∃ s ∈ ss, ∃ e, parseNetspec s = .ok (.error e) := by
  induction h with
  | nil => exact absurd rfl hne
  | good _ _ ih =>
    obtain ⟨s, hs, h⟩ := ih hne
    exact ⟨s, List.mem_cons_of_mem _ hs, h⟩
  | @bad s e _ _ h _ _ => exact ⟨s, by simp, e, (parseNetspec_error s e).mpr h⟩

theorem plain_args {ss : List Str} {evss : List (List OutEv)} (h : Pointwise ArgOutput ss evss) : AllPlain evss.flatten := by
  induction h with
  | nil => exact .nil
  | cons h _ ih =>
    rw [List.flatten_cons]
    refine .append ?_ ih
    rcases h with ⟨e, -, rfl⟩ | ⟨a, n, xs, -, -, rfl⟩ | ⟨a, n, xs, -, -, rfl⟩
    · intro e he c t h
      rw [List.mem_singleton.mp he] at h
      cases h
    all_goals
      intro e he c t h
      obtain ⟨x, -, rfl⟩ := List.mem_map.mp he
      cases h

theorem enumerate_outcome (rt : Runtime) (hm : mode ∈ ["-e", "--enumerate"].map String.toList) (hne : rest ≠ []) (r : Outcome) :
    (∃ ts ms, EnumerateComplaints rest ms ∧
      Pointwise (fun s t => shownTexts.ipv4.Enumerated s t ∨ shownTexts.ipv6.Enumerated s t ∨ (∃ e, NetspecFault s e) ∧ t = []) rest ts ∧
      r = ⟨plainly ts.flatten, ms, .status (if ms = [] then 0 else 1)⟩) ↔ r = Outcome.of (doMain rt (prog :: mode :: rest)) := by
  have hm' : mode = "-e".toList ∨ mode = "--enumerate".toList := by simpa using hm
  have hd := (C56_dispatch rt prog mode rest).2.2.2.2.1 hm'
  obtain ⟨evss, code, h1, h2, h3, h4⟩ := C38_enumerate rt (prog :: mode :: rest) (by
    have := List.length_pos_iff.mpr hne
    simp only [List.length_cons]; omega)
  simp only [List.drop_succ_cons, List.drop_zero] at h1 h3 h4
  simp only [enumerated_iff, Pointwise.factor]
  have code_eq : ∀ ms, EnumerateComplaints rest ms → code = if ms = [] then 0 else 1 := by
    intro ms h
    by_cases hz : ms = []
    · subst hz; rw [if_pos rfl]; exact h4 (no_faults h rfl)
    · rw [if_neg hz]; exact h3 (some_fault h hz)
  constructor
  · rintro ⟨ts, ms, k1, ⟨evss', k2, k3⟩, rfl⟩
    cases Pointwise.unique C38_output_unique h1 k2
    rw [hd, h2, ← visible_flatten k3, ← code_eq ms k1, ← (enumerateComplaints_iff h1 ms).mpr k1, ← (plain_args h1).marks]
    rfl
  · rintro rfl
    have k := (enumerateComplaints_iff h1 _).mp rfl
    refine ⟨evss.map visible, messages evss.flatten, k, ⟨evss, h1, visible_each evss⟩, ?_⟩
    rw [hd, h2, ← visible_flatten (visible_each evss), ← code_eq _ k, ← (plain_args h1).marks]
    rfl

end

/-! ## The program -/

theorem colours_outcome (rt : Runtime) (hcol : rt.colorsEnabled = true) (prog : Str) (rest : List Str) :
    Outcome.of (doMain rt (prog :: "--color-test".toList :: rest)) = .shown (colourNames.map fun x => .piece x.1 (padRight 20 x.2.toList)) := by
  rw [doMain_colorTest, colorTest_eq]
  simp only [hcol, if_true]
  have e1 : marks (consoleOrder.map fun c => OutEv.styled c (padText (colourName c).toList 20)) =
      colourNames.map fun x => .piece x.1 (padRight 20 x.2.toList) := by decide +kernel
  have e2 : messages (consoleOrder.map fun c => OutEv.styled c (padText (colourName c).toList 20)) = [] := by decide +kernel
  rw [Outcome.of, e1, e2]
  rfl

theorem runs_iff (pr : Profile) (args : List Str) (r : Outcome) : Runs pr shownTexts args r ↔
    ∃ rt : Runtime, rt.profile = pr ∧ rt.colorsEnabled = true ∧ r = Outcome.of (doMain rt args) := by
  constructor
  · have plain : (r = Outcome.of (doMain (Runtime.reference pr true) args)) →
        ∃ rt : Runtime, rt.profile = pr ∧ rt.colorsEnabled = true ∧ r = Outcome.of (doMain rt args) :=
      fun h => ⟨_, rfl, rfl, h⟩
    intro h
    cases h with
    | none h => exact plain (by rw [(C56_usage _).1 args h]; rfl)
    | help => exact plain (by rw [(C56_dispatch _ _ _ _).2.2.2.2.2.1 rfl]; rfl)
    | colours => exact plain (colours_outcome _ rfl _ _).symm
    | minimize hm h => exact plain ((minimize_outcome _ hm r).mp h)
    | derange hm h => exact plain ((derange_outcome _ hm r).mp h)
    | resize hm h => exact plain ((resize_outcome _ rfl hm r).mp h)
    | split hm h => exact (splits_outcome pr hm r).mp h
    | enumerate hm hne h1 h2 => exact plain ((enumerate_outcome _ hm hne _).mp ⟨_, _, h1, h2, rfl⟩)
    | enumerateNone hm =>
      exact plain (by rw [(C56_usage _).2 _ _ _ (.inr (.inl ⟨by simpa using hm, rfl⟩))]; rfl)
    | showBad hm h => exact plain ((show_outcome _ rfl hm _).mp (.inl ⟨_, h, rfl⟩))
    | shows hm h => exact plain ((show_outcome _ rfl hm _).mp (.inr ⟨_, h, rfl⟩))
  · rintro ⟨rt, rfl, hcol, rfl⟩
    match args with
    | [] => rw [(C56_usage rt).1 [] (by simp)]; exact .none (by simp)
    | [p] => rw [(C56_usage rt).1 [p] (by simp)]; exact .none (by simp)
    | prog :: mode :: rest =>
      by_cases h1 : mode ∈ ["-m", "--minimize"].map String.toList
      · exact .minimize h1 ((minimize_outcome rt h1 _).mpr rfl)
      by_cases h2 : mode ∈ ["-d", "--derange"].map String.toList
      · exact .derange h2 ((derange_outcome rt h2 _).mpr rfl)
      by_cases h3 : mode ∈ ["-r", "--resize"].map String.toList
      · exact .resize h3 ((resize_outcome rt hcol h3 _).mpr rfl)
      by_cases h4 : mode ∈ ["-s", "--split"].map String.toList
      · exact .split h4 ((splits_outcome rt.profile h4 _).mpr ⟨rt, rfl, hcol, rfl⟩)
      by_cases h5 : mode ∈ ["-e", "--enumerate"].map String.toList
      · by_cases hne : rest = []
        · subst hne
          rw [(C56_usage rt).2 _ _ _ (.inr (.inl ⟨by simpa using h5, rfl⟩))]
          exact .enumerateNone h5
        · obtain ⟨ts, ms, k1, k2, k3⟩ := (enumerate_outcome rt h5 hne _).mpr rfl
          rw [k3]
          exact .enumerate h5 hne k1 k2
      by_cases h6 : mode = "--color-test".toList
      · subst h6
        rw [colours_outcome rt hcol]
        exact .colours
      by_cases h7 : mode = "--help".toList
      · subst h7
        rw [(C56_dispatch rt prog _ rest).2.2.2.2.2.1 rfl]
        exact .help
      have hm : mode ∉ modeWords := by
        simp only [modeWords, List.map_cons, List.map_nil, List.mem_cons, List.not_mem_nil, or_false, not_or] at h1 h2 h3 h4 h5 ⊢
        exact ⟨h1.1, h1.2, h2.1, h2.2, h4.1, h4.2, h3.1, h3.2, h5.1, h5.2, h6, h7⟩
      rcases (show_outcome rt hcol hm _).mpr rfl with ⟨m, k1, k2⟩ | ⟨ts, k1, k2⟩
      · rw [k2]; exact .showBad hm k1
      · rw [k2]; exact .shows hm k1

/-- The described outcomes are the possible ones: the description allows an outcome exactly if on some platform, with colours, the
run of the program has it. -/
theorem C100_program (pr : Profile) (args : List Str) (r : Outcome) :
    Program pr args r ↔ ∃ rt : Runtime, rt.profile = pr ∧ rt.colorsEnabled = true ∧ r = Outcome.of (doMain rt args) := by
  rw [← runs_iff]
  constructor
  · rintro ⟨T, hT, h⟩
    cases (texts_right T).mp hT
    exact h
  · exact fun h => ⟨shownTexts, (texts_right _).mpr rfl, h⟩

/-- The description is complete: there is an outcome for all arguments. -/
theorem C100_total (pr : Profile) (args : List Str) : ∃ r, Program pr args r :=
  ⟨_, (C100_program pr args _).mpr ⟨Runtime.reference pr true, rfl, rfl, rfl⟩⟩

/-- It leaves nothing open, unless a split succeeds in which a number of hosts occurs twice. -/
theorem C100_determined (pr : Profile) (args : List Str) (h : ¬ TiedSplit args) (r r' : Outcome) (h1 : Program pr args r)
    (h2 : Program pr args r') : r = r' := by
  obtain ⟨rt, e1, e2, rfl⟩ := (C100_program pr args r).mp h1
  obtain ⟨rt', e1', e2', rfl⟩ := (C100_program pr args r').mp h2
  rcases C97_same rt rt' args (e2.trans e2'.symm) (.inl (e1.trans e1'.symm)) with h3 | ⟨h3, -⟩
  · rw [h3]
  · exact absurd h3 h

/-! ## The process -/

theorem mark_chars (ms : List Mark) : ms.flatMap Mark.text = (ms.flatMap Mark.cells).map Prod.snd := by
  induction ms with
  | nil => rfl
  | cons m ms ih =>
    rw [List.flatMap_cons, List.flatMap_cons, List.map_append, ih]
    cases m with
    | char x => rfl
    | piece c s =>
      congr 1
      simp [Mark.text, Mark.cells, paint, Function.comp_def]

theorem joined_lines (ms : List Mark) : joined (ms.flatMap Mark.line) = joined (ms.flatMap Mark.text) := by
  induction ms with
  | nil => rfl
  | cons m ms ih =>
    rw [List.flatMap_cons, List.flatMap_cons, joined_append, joined_append, ih]
    cases m with
    | char x => rfl
    | piece c s => rw [Mark.line, joined_append]; simp [Mark.text, joined]

theorem stdout_lines (evs : List OutEv) : stdoutText (evs.map fun e => match e with
      | .styled _ s => .out (s ++ ['\n'])
      | e => e) = (marks evs).flatMap Mark.line := by
  induction evs with
  | nil => rfl
  | cons e evs ih =>
    rw [List.map_cons, marks_cons, List.flatMap_append, ← ih]
    cases e with
    | out s => simp [stdoutText, marksOf, plainly, List.flatMap_map, Mark.line]
    | styled c s => simp [stdoutText, marksOf, Mark.line]
    | err m => simp [stdoutText, marksOf]

/-- The text, apart from line ends, tells which of the possible outputs of a split it is. -/
theorem outputSplit_text {A : Type} [IpAddr A] [AddrSpec A] [LawfulIpAddr A] [ProfileFree A] {on : Net A → Option A → Cli Unit}
    {D : Net A → Str → Prop} (hD : Readable D) (hon : ∀ m, WF m → ∃ t, D m t ∧ Shows (on m none) () t) (rt rt' : Runtime)
    (n : Net A) (hn : WF n) (hcs : List Int) (hne : hcs ≠ [])
    (he : joined (visible (outputSplit rt n hcs on).out) = joined (visible (outputSplit rt' n hcs on).out)) :
    outputSplit rt n hcs on = outputSplit rt' n hcs on := by
  have hok : ∀ m : Net A, WF m → (on m none).res = .ok () := fun m hm => (hon m hm).choose_spec.2.1
  rcases outputSplit_any rt rt' n hn hcs hne hok with ⟨-, -, h⟩ | ⟨ns, ns', pre, post, res, h1, h2, h3, h4, hw, hw', h5, h6, h7⟩
  · exact h
  · rw [h6, h7] at he
    simp only [visible_append, joined_append] at he
    have he := List.append_cancel_left (List.append_cancel_right he)
    obtain ⟨t, k1, k2⟩ := shows_printSplit hon hcs ns h3 hw
    obtain ⟨t', k1', k2'⟩ := shows_printSplit hon hcs ns' h4 hw'
    have ho : joined (visible (printSplit on (hcs.zip ns)).out) = joined (visible (printSplit on (hcs.zip ns')).out) := by
      rw [printSplit_blocks (fun x hx => hok _ (hw _ (List.of_mem_zip hx).2)), printSplit_blocks (fun x hx => hok _ (hw' _ (List.of_mem_zip hx).2))]
      exact he
    have ht : joined t = joined t' := by rw [← k2.2.1, ← k2'.2.1, ho]
    rw [h6, h7, splitBlocks_nets hD k1 k1' hw hw' ht]

/-- The text, apart from line ends, tells which of the possible outputs it is. -/
theorem doMain_text (rt rt' : Runtime) (hp : rt.profile = rt'.profile) (hc : rt.colorsEnabled = true) (hc' : rt'.colorsEnabled = true)
    (args : List Str) (he : joined (visible (doMain rt args).out) = joined (visible (doMain rt' args).out)) :
    doMain rt args = doMain rt' args := by
  rcases C97_same rt rt' args (hc.trans hc'.symm) (.inl hp) with h | ⟨h, -⟩
  · exact h
  obtain ⟨prog, mode, s, counts, hcs, rfl, hm, hcs', hnd, hab⟩ := h
  have hne : counts ≠ [] := by
    rintro rfl
    cases hcs'
    exact hnd List.nodup_nil
  rw [doMain_split _ hm, doMain_split _ hm] at he ⊢
  rcases hab with ⟨a, n, h1, h2⟩ | ⟨a, n, h1, h2⟩
  · rw [split_v4 _ prog mode s counts hne hcs hcs' a n h1, split_v4 _ prog mode s counts hne hcs hcs' a n h1,
      network4_congr (rt := rt') (rt' := rt) (hc'.trans hc.symm)] at he ⊢
    exact outputSplit_text readable4 (display_none_v4 _ hc) _ _ n (C33_parsed_good _ _ h1).2.1 hcs (hcs'.ne_nil hne) he
  · rw [split_v6 _ prog mode s counts hne hcs hcs' a n h1, split_v6 _ prog mode s counts hne hcs hcs' a n h1,
      network6_congr (rt := rt') (rt' := rt) (hc'.trans hc.symm)] at he ⊢
    exact outputSplit_text readable6 (display_none_v6 _ hc) _ _ n (C33_parsed_good _ _ h1).2.1 hcs (hcs'.ne_nil hne) he

theorem program_text {pr : Profile} {args : List Str} {r r' : Outcome} (h : Program pr args r) (h' : Program pr args r')
    (he : joined (r.out.flatMap Mark.text) = joined (r'.out.flatMap Mark.text)) : r = r' := by
  obtain ⟨rt, e1, e2, rfl⟩ := (C100_program _ _ _).mp h
  obtain ⟨rt', e1', e2', rfl⟩ := (C100_program _ _ _).mp h'
  simp only [Outcome.of, marks_text] at he
  rw [doMain_text rt rt' (e1.trans e1'.symm) e2 e2' args he]

theorem ending_of {rt : Runtime} {u : CharTable} {argv : List (List Byte)} {args : List Str} (h : ArgTexts argv args) {x : Cli Nat}
    (hx : (doMain rt args).res = x.res) : (process rt u argv).ending =
      (match (Outcome.of x).ending with | .status c => .status c | .panics => .status 101 | .never => .never) := by
  obtain ⟨-, -, k3, k4, k5⟩ := C89_runs rt u argv args h
  rw [Outcome.of, ← hx]
  cases hr : (doMain rt args).res with
  | ok c => exact k3 c hr
  | panic p => exact k4 p hr
  | diverge => exact k5 hr

/-- From the bytes of the arguments to what a terminal shows, in its colours: the process has a described outcome, and no other. -/
theorem C100_process (rt : Runtime) (hcol : rt.colorsEnabled = true) (u : CharTable) (argv : List (List Byte)) (args : List Str)
    (h : ArgTexts argv args) :
    ∃ r, Program rt.profile args r ∧ r.Seen u (process rt u argv) ∧
      ∀ r', Program rt.profile args r' → r'.Seen u (process rt u argv) → r' = r := by
  have seen : Outcome.Seen u (Outcome.of (doMain rt args)) (process rt u argv) := by
    obtain ⟨k1, k2, -⟩ := C89_runs rt u argv args h
    refine ⟨⟨_, k1, ?_⟩, ?_, ending_of h rfl⟩
    · rw [C78_terminal rt args, Outcome.of, marks_cells]
    · rw [stderrText_messages] at k2
      exact k2
  refine ⟨_, (C100_program _ _ _).mpr ⟨rt, rfl, hcol, rfl⟩, seen, ?_⟩
  rintro r' h' ⟨⟨t, s1, s2⟩, -, -⟩
  obtain ⟨⟨t', s1', s2'⟩, -, -⟩ := seen
  cases (C89_text _ t).1 t' s1 s1'
  refine program_text h' ((C100_program _ _ _).mpr ⟨rt, rfl, hcol, rfl⟩) (congrArg joined ?_)
  have e := congrArg (List.map Prod.snd) (congrArg Prod.snd (s2.symm.trans s2'))
  simp only [List.map_map] at e
  rw [mark_chars, mark_chars]
  exact e

/-- Without colours, as when standard output is not a terminal: what the process writes is a described outcome, in which every
coloured piece has a line of its own, and it is no other described outcome. -/
theorem C100_piped (rt : Runtime) (hcol : rt.colorsEnabled = false) (u : CharTable) (argv : List (List Byte)) (args : List Str)
    (h : ArgTexts argv args) :
    ∃ r, Program rt.profile args r ∧ r.Written u (process rt u argv) ∧
      ∀ r', Program rt.profile args r' → r'.Written u (process rt u argv) → r' = r := by
  obtain ⟨g1, g2, -, -, g5⟩ := C61_uncolored_partial rt args
  have hrt : rt.withColors false = rt := by
    rw [Runtime.withColors, ← hcol]
  rw [hrt] at g1 g2 g5
  have prog : Program rt.profile args (Outcome.of (doMain (rt.withColors true) args)) :=
    (C100_program _ _ _).mpr ⟨rt.withColors true, rfl, rfl, rfl⟩
  have written : Outcome.Written u (Outcome.of (doMain (rt.withColors true) args)) (process rt u argv) := by
    obtain ⟨k1, k2, -⟩ := C89_runs rt u argv args h
    refine ⟨?_, ?_, ending_of h g1⟩
    · rw [(congrArg stdoutText g5).trans (stdout_lines _)] at k1
      exact k1
    · rw [stderrText_messages, g2] at k2
      exact k2
  refine ⟨_, prog, written, ?_⟩
  rintro r' h' ⟨s1, -, -⟩
  refine program_text h' prog ?_
  have e := congrArg joined ((C89_text _ _).1 _ s1 written.1)
  rwa [joined_lines, joined_lines] at e

/-- The description leaves something open for a split that succeeds and in which a number of hosts occurs twice: there are two
outcomes, which differ in the text. -/
theorem C100_open (pr : Profile) (args : List Str) (h : TiedSplit args) :
    ∃ r r', Program pr args r ∧ Program pr args r' ∧ r.out.flatMap Mark.text ≠ r'.out.flatMap Mark.text := by
  refine ⟨_, _, (C100_program pr args _).mpr ⟨.reference pr true, rfl, rfl, rfl⟩,
    (C100_program pr args _).mpr ⟨.reversed pr true, rfl, rfl, rfl⟩, ?_⟩
  rw [Outcome.of, Outcome.of, marks_text, marks_text]
  exact C97_visible pr args h

/-! ## Instances -/

/-- A run of the model that comes to an end is described. -/
theorem program_run (k : Nat) (pr : Profile) (args : List Str) (r : Outcome)
    (h : Outcome.of (Conformance.doMainE k (evalRuntime pr true) args) = r ∧ r.ending ≠ .never) : Program pr args r := by
  obtain ⟨rfl, h2⟩ := h
  refine (C100_program _ _ _).mpr ⟨evalRuntime pr true, rfl, rfl, ?_⟩
  rcases Conformance.doMainE_approx k (evalRuntime pr true) args with h3 | h3
  · exact absurd (by rw [Outcome.of, h3]) h2
  · rw [h3]

/-- The same where only the text is of interest. -/
theorem program_shows (k : Nat) (pr : Profile) (args : List Str) (t : Str)
    (h : (Outcome.of (Conformance.doMainE k (evalRuntime pr true) args)).out.flatMap Mark.text = t ∧
      (Outcome.of (Conformance.doMainE k (evalRuntime pr true) args)).ending = .status 0) :
    ∃ r, Program pr args r ∧ r.out.flatMap Mark.text = t ∧ r.ending = .status 0 :=
  ⟨_, program_run k pr args _ ⟨rfl, by rw [h.2]; decide⟩, h⟩

example : ∃ r, Program .checked (["ripcalc", "192.0.2.7/28"].map String.toList) r ∧ r.out.flatMap Mark.text = (
    "Address:   192.0.2.7            11000000.00000000.00000010.00000111\n".toList ++
    "Netmask:   255.255.255.240 = 28 11111111.11111111.11111111.11110000\n".toList ++
    "Wildcard:  0.0.0.15             00000000.00000000.00000000.00001111\n=>\n".toList ++
    "Network:   192.0.2.0/28         11000000.00000000.00000010.00000000\n".toList ++
    "HostMin:   192.0.2.1            11000000.00000000.00000010.00000001\n".toList ++
    "HostMax:   192.0.2.14           11000000.00000000.00000010.00001110\n".toList ++
    "Broadcast: 192.0.2.15           11000000.00000000.00000010.00001111\n".toList ++
    "Hosts/Net: 14                   Class C\n".toList) ∧ r.ending = .status 0 :=
  program_shows 100 _ _ _ (by decide +kernel)

/-- The pieces of the second line for a network without a prefix length. -/
example : ∃ r, Program .checked (["ripcalc", "10.1.2.3/-255.0.255.15"].map String.toList) r ∧
    (r.out.drop 37).take 12 = [.char '\n', .piece .white "Netmask:   ".toList, .piece .blue "0.255.0.240          ".toList,
      .piece .red "00000000".toList, .piece .white ".".toList, .piece .red "11111111".toList, .piece .white ".".toList,
      .piece .red "00000000".toList, .piece .white ".".toList, .piece .red "11110000".toList, .char '\n',
      .piece .white "Wildcard:  ".toList] :=
  ⟨_, program_run 100 _ _ _ ⟨rfl, by decide +kernel⟩, by decide +kernel⟩

example : Program .checked (["ripcalc", "-d", "192.0.2.0", "192.0.2.5"].map String.toList)
    (.shown (plainly "192.0.2.0/30\n192.0.2.4/31\n".toList)) := program_run 100 _ _ _ (by decide +kernel)

example : Program .checked (["ripcalc", "-m", "192.0.2.128/25", "192.0.2.0/25"].map String.toList)
    (.shown (plainly "192.0.2.0/24\n".toList)) := program_run 100 _ _ _ (by decide +kernel)

example : Program .wrapping (["ripcalc", "-e", "192.0.2.4/30", "x", "192.0.2.0/31"].map String.toList)
    ⟨plainly "192.0.2.4\n192.0.2.5\n192.0.2.6\n192.0.2.7\n192.0.2.0\n192.0.2.1\n".toList,
      [.enumerateNet "x".toList (.unrecognized "x".toList)], .status 1⟩ := program_run 100 _ _ _ (by decide +kernel)

example : Program .checked (["ripcalc", "-r", "192.0.2.0/24", "33"].map String.toList) (.complaint (.resizeRangeV4 33)) :=
  program_run 100 _ _ _ (by decide +kernel)

/-- The whole address space, by the description. -/
example : Program .checked (["ripcalc", "-d", "255.255.255.255", "0.0.0.0"].map String.toList) ⟨[], [], .panics⟩ ∧
    Program .wrapping (["ripcalc", "-d", "255.255.255.255", "0.0.0.0"].map String.toList) ⟨[], [], .never⟩ := by
  have hT := (texts_right shownTexts).mpr rfl
  have h1 : shownTexts.ipv4.address "255.255.255.255".toList ⟨0xFFFFFFFF#32⟩ :=
    ⟨by decide, by decide, (v4Reading_iff _ _).mp (by decide +kernel)⟩
  have h2 : shownTexts.ipv4.address "0.0.0.0".toList ⟨0#32⟩ := ⟨by decide, by decide, (v4Reading_iff _ _).mp (by decide +kernel)⟩
  exact ⟨⟨_, hT, .derange (by simp) (.inr (.inl ⟨_, _, _, _, rfl, h1, h2, .inl ⟨by decide +kernel, by decide +kernel⟩⟩))⟩,
    ⟨_, hT, .derange (by simp) (.inr (.inl ⟨_, _, _, _, rfl, h1, h2, .inl ⟨by decide +kernel, by decide +kernel⟩⟩))⟩⟩

/-- The text of a split with equal requests is left open; other texts are not. -/
example : ∃ r r', Program .checked ["ripcalc".toList, "--split".toList, "192.0.2.0/24".toList, "20".toList, "20".toList] r ∧
    Program .checked ["ripcalc".toList, "--split".toList, "192.0.2.0/24".toList, "20".toList, "20".toList] r' ∧
    r.out.flatMap Mark.text ≠ r'.out.flatMap Mark.text :=
  C100_open _ _ tied_example

example : ¬ TiedSplit (["ripcalc", "-m", "192.0.2.128/25", "192.0.2.0/25"].map String.toList) := by
  rintro ⟨prog, mode, s, counts, hcs, h, hm, -⟩
  cases h
  revert hm
  decide

example : ArgTexts [argOf "ripcalc", argOf "-d", argOf "192.0.2.0", argOf "192.0.2.5"]
    ["ripcalc".toList, "-d".toList, "192.0.2.0".toList, "192.0.2.5".toList] := argTexts_four _ _ _ _

end Ripcalc
