import Verif.Spec.Lines
import Verif.Proofs.Lines
/-!
# Whole lines
-/
namespace Ripcalc
open AddrSpec LawfulIpAddr

theorem wholeLines_iff (t : Str) : WholeLines t ↔ t = [] ∨ ∃ p, t = p ++ ['\n'] := by
  constructor
  · rintro ⟨lines, rfl⟩
    by_cases h : lines = []
    · subst h; exact .inl rfl
    · right
      refine ⟨lines.dropLast.flatMap (· ++ ['\n']) ++ lines.getLast h, ?_⟩
      have e : lines = lines.dropLast ++ [lines.getLast h] := (List.dropLast_concat_getLast h).symm
      have : lines.flatMap (· ++ ['\n']) = (lines.dropLast ++ [lines.getLast h]).flatMap (· ++ ['\n']) := by rw [← e]
      rw [this, List.flatMap_append]
      simp
  · rintro (rfl | ⟨p, rfl⟩)
    · exact ⟨[], rfl⟩
    · exact ⟨[p], by simp⟩

theorem atMostTwo_iff {A : Type} [IpAddr A] [AddrSpec A] [LawfulIpAddr A] (n : Net A) (hn : WF n) : AtMostTwo n ↔ n.hostCount ≤ 0 := by
  obtain ⟨⟨l, h1, h2, h3⟩, h4⟩ := C24_address_count n hn
  have h5 : n.hostCount ≤ 0 ↔ l.length ≤ 2 := by omega
  have hm : ∀ a, a ∈ l ↔ Member n a := fun a => (h2 a).trans (contains_iff hn.hz a)
  rw [h5]
  constructor
  · rintro ⟨a, b, h⟩
    match l, h1, hm with
    | [], _, _ => simp
    | [_], _, _ => simp
    | [_, _], _, _ => simp
    | x :: y :: z :: _, h1, hm =>
      exfalso
      have hx := h x ((hm x).mp (by simp))
      have hy := h y ((hm y).mp (by simp))
      have hz := h z ((hm z).mp (by simp))
      simp only [List.nodup_cons, List.mem_cons, not_or] at h1
      obtain ⟨⟨n1, n2, -⟩, ⟨n3, -⟩, -⟩ := h1
      rcases hx with rfl | rfl <;> rcases hy with rfl | rfl <;> rcases hz with rfl | rfl <;> simp_all
  · intro hl
    match l, hl, hm with
    | [], _, hm => exact ⟨n.baseAddr, n.baseAddr, fun x hx => absurd ((hm x).mpr hx) (by simp)⟩
    | [a], _, hm => exact ⟨a, a, fun x hx => by have := (hm x).mpr hx; simp at this; exact .inl this⟩
    | [a, b], _, hm => exact ⟨a, b, fun x hx => by have := (hm x).mpr hx; simpa using this⟩

theorem few_iff (s : Str) (x : NetworkSpec) (h : parseNetspec s = .ok (.ok x)) : x.AtMostTwo ↔ x.hosts ≤ 0 := by
  have := C33_parsed_good s x h
  cases x with
  | ipv4 a n => exact atMostTwo_iff n this.2.1
  | ipv6 a n => exact atMostTwo_iff n this.2.1

/-- The two texts that can stand after the last line end. -/
def openTexts : List Str := [noHostsNet, consoleOrder.flatMap fun c => styledText c (padText (colourName c).toList 20)]

theorem stdout_colorTest (rt : Runtime) (hc : rt.colorsEnabled = true) :
    stdoutText (colorTest rt).out = consoleOrder.flatMap fun c => styledText c (padText (colourName c).toList 20) := by
  rw [colorTest_eq]
  simp only [hc, if_true]
  decide +kernel

theorem closed_colorTest (rt : Runtime) (hc : rt.colorsEnabled = false) : Closed (colorTest rt) := by
  intro a _
  right
  rw [colorTest_eq]
  simp only [hc]
  exact List.getLast?_eq_some_iff.mp (by decide +kernel)

theorem pointwise_last {R : α → β → Prop} {a : α} {as : List α} {bs : List β} (h : Pointwise R (a :: as) bs) : ∃ front last, bs = front ++ [last] := by
  have hne : bs ≠ [] := by rintro rfl; cases h
  exact ⟨bs.dropLast, bs.getLast hne, (List.dropLast_concat_getLast hne).symm⟩

theorem pointwise_right {R : α → β → Prop} {as : List α} {bs : List β} (h : Pointwise R as bs) (b : β) (hb : b ∈ bs) : ∃ a, R a b := by
  induction h with
  | nil => cases hb
  | cons h1 _ ih =>
    rcases List.mem_cons.mp hb with rfl | hb
    · exact ⟨_, h1⟩
    · exact ih hb

theorem pointwise_unique {args : List Str} {xs ys : List NetworkSpec} (h : Pointwise (fun s x => parseNetspec s = .ok (.ok x)) args xs)
    (h' : Pointwise (fun s x => parseNetspec s = .ok (.ok x)) args ys) : xs = ys := by
  induction h generalizing ys with
  | nil => cases h'; rfl
  | cons h1 _ ih =>
    cases h' with
    | cons h2 h3 =>
      rw [h1] at h2
      cases h2
      rw [ih h3]

theorem showNet_suf {rt : Runtime} {t prog : Str} {args : List Str} {specs : List NetworkSpec} (hp : showParseLoop args = .ok (.ok specs))
    (h : Suf t (showPrintLoop rt true specs)) (c : Nat) (hc : (showNet rt (prog :: args)).res = .ok c) :
    ∃ p, stdoutText (showNet rt (prog :: args)).out = p ++ t := by
  have e : showNet rt (prog :: args) = (showPrintLoop rt true specs >>= fun _ => pure 0) := by
    show ((liftM (showParseLoop args) : Cli _) >>= _) = _
    rw [hp]; rfl
  rw [e] at hc ⊢
  generalize showPrintLoop rt true specs = x at h hc
  obtain ⟨o, r⟩ := x
  cases r with
  | ok a =>
    obtain ⟨p, hp⟩ := h () rfl
    refine ⟨p, ?_⟩
    show stdoutText (o ++ []) = _
    rw [List.append_nil]; exact hp
  | panic p => cases hc
  | diverge => cases hc

/-- How the output of a run that ends with an exit code ends. -/
theorem main_tail (rt : Runtime) (args : List Str) (c : Nat) (h : (doMain rt args).res = .ok c) :
    (¬ OpenEnd rt.colorsEnabled args ∧ (stdoutText (doMain rt args).out = [] ∨ ∃ p, stdoutText (doMain rt args).out = p ++ ['\n'])) ∨
    (OpenEnd rt.colorsEnabled args ∧ ∃ p, ∃ t ∈ openTexts, stdoutText (doMain rt args).out = p ++ t ∧ (p = [] ∨ ∃ q, p = q ++ ['\n'])) := by
  match args, h with
  | [], _ => exact .inl ⟨(by rintro ⟨-, _, _, _, h, -⟩; cases h), .inl rfl⟩
  | [a], _ => exact .inl ⟨(by rintro ⟨-, _, _, _, h, -⟩; cases h), .inl rfl⟩
  | prog :: mode :: rest, h =>
    have closedCase : ∀ x : Cli Nat, Closed x → doMain rt (prog :: mode :: rest) = x →
        mode ∈ ["-m", "--minimize", "-d", "--derange", "-s", "--split", "-r", "--resize", "-e", "--enumerate", "--help"].map String.toList →
        ((¬ OpenEnd rt.colorsEnabled (prog :: mode :: rest) ∧ (stdoutText (doMain rt (prog :: mode :: rest)).out = [] ∨
          ∃ p, stdoutText (doMain rt (prog :: mode :: rest)).out = p ++ ['\n']))) := by
      intro x hx he hm
      refine ⟨?_, ?_⟩
      · rintro ⟨-, prog', mode', rest', e, h1⟩
        cases e
        rcases h1 with rfl | ⟨h1, -⟩
        · exact absurd hm (by decide +kernel)
        · refine h1 ?_
          simp only [List.map_cons, List.map_nil, List.mem_cons, List.not_mem_nil, or_false] at hm ⊢
          grind
      · rw [he] at h ⊢
        exact hx c h
    obtain ⟨d1, d2, d3, d4, d5, d6, d7⟩ := C56_dispatch rt prog mode rest
    by_cases hm : mode ∈ ["-m", "--minimize", "-d", "--derange", "-s", "--split", "-r", "--resize", "-e", "--enumerate", "--help"].map String.toList
    · left
      have hm' := hm
      simp only [List.map_cons, List.map_nil, List.mem_cons, List.not_mem_nil, or_false] at hm'
      rcases hm' with e | e | e | e | e | e | e | e | e | e | e
      · exact closedCase _ (closed_minimize rt _) (d1 (.inl e)) hm
      · exact closedCase _ (closed_minimize rt _) (d1 (.inr e)) hm
      · exact closedCase _ (closed_derange rt _) (d2 (.inl e)) hm
      · exact closedCase _ (closed_derange rt _) (d2 (.inr e)) hm
      · exact closedCase _ (closed_split rt _) (d3 (.inl e)) hm
      · exact closedCase _ (closed_split rt _) (d3 (.inr e)) hm
      · exact closedCase _ (closed_resize rt _) (d4 (.inl e)) hm
      · exact closedCase _ (closed_resize rt _) (d4 (.inr e)) hm
      · exact closedCase _ (closed_enumerate rt _) (d5 (.inl e)) hm
      · exact closedCase _ (closed_enumerate rt _) (d5 (.inr e)) hm
      · exact closedCase _ (fun _ _ => .inl rfl) (d6 e) hm
    · by_cases hct : mode = "--color-test".toList
      · subst hct
        cases hc : rt.colorsEnabled with
        | true =>
          refine .inr ⟨⟨rfl, _, _, _, rfl, .inl rfl⟩, [], _, List.mem_cons_of_mem _ (List.mem_singleton_self _), ?_, .inl rfl⟩
          rw [doMain_colorTest]
          exact stdout_colorTest rt hc
        | false =>
          refine .inl ⟨(fun h => by cases h.1), ?_⟩
          rw [doMain_colorTest]
          exact closed_colorTest rt hc () (colorTest_res rt)
      · have hall : mode ∉ ["-m", "--minimize", "-d", "--derange", "-s", "--split", "-r", "--resize", "-e", "--enumerate", "--color-test",
            "--help"].map String.toList := by
          simp only [List.map_cons, List.map_nil, List.mem_cons, List.not_mem_nil, or_false] at hm ⊢
          grind
        rw [d7 hall] at h ⊢
        rcases showParseLoop_cases (mode :: rest) with ⟨specs, h1, h2⟩ | ⟨pre, s, post, e, h1, h2, h3, h4⟩
        · obtain ⟨front, last, rfl⟩ := pointwise_last h1
          obtain ⟨s, hs⟩ := pointwise_right h1 last (by simp)
          have hf := few_iff s last hs
          by_cases hop : rt.colorsEnabled = true ∧ last.hosts ≤ 0
          · right
            obtain ⟨p, hp⟩ := showNet_suf h2 (showLoop_open rt last hop.1 hop.2 front true) c h
            refine ⟨⟨hop.1, _, _, _, rfl, .inr ⟨hall, front, last, h1, hf.mpr hop.2⟩⟩, p ++ ['\n'], noHostsNet, List.mem_cons_self .., ?_, .inr ⟨p, rfl⟩⟩
            rw [hp]; simp
          · left
            refine ⟨?_, .inr (showNet_suf h2 (showLoop_closed rt last ?_ front true) c h)⟩
            · rintro ⟨hc, prog', mode', rest', e, h5⟩
              cases e
              rcases h5 with h5 | ⟨-, specs', last', h5, h6⟩
              · exact hct h5
              · have := pointwise_unique h1 h5
                obtain ⟨-, h7⟩ := List.append_inj' this rfl
                cases h7
                exact hop ⟨hc, hf.mp h6⟩
            · cases hc : rt.colorsEnabled with
              | false => exact .inl rfl
              | true => exact .inr (Int.not_le.mp fun h => hop ⟨hc, h⟩)
        · left
          have e' : showNet rt (prog :: mode :: rest) = ⟨[.err (.showParse e)], .ok 1⟩ := by
            show ((liftM (showParseLoop (mode :: rest)) : Cli _) >>= _) = _
            rw [h4]; rfl
          refine ⟨?_, .inl (by rw [e']; rfl)⟩
          rintro ⟨hc, prog', mode', rest', e, h5⟩
          cases e
          rcases h5 with h5 | ⟨-, specs', last', h5, h6⟩
          · exact hct h5
          · rw [h1] at h5
            obtain ⟨x, hx⟩ : ∃ x, parseNetspec s = .ok (.ok x) := by
              obtain ⟨x, -, hx⟩ := Pointwise.mem h5 s (by simp)
              exact ⟨x, hx⟩
            rw [h3] at hx
            cases hx

/-! ## C92: whole lines -/

/-- A run that ends with an exit code writes whole lines to standard output, except for the runs of `OpenEnd`, which leave the last line open. -/
theorem C92_lines_partial (rt : Runtime) (args : List Str) (c : Nat) (h : (doMain rt args).res = .ok c) :
    WholeLines (stdoutText (doMain rt args).out) ↔ ¬ OpenEnd rt.colorsEnabled args := by
  rcases main_tail rt args c h with ⟨h1, h2⟩ | ⟨h1, p, t, ht, h2, -⟩
  · exact ⟨fun _ => h1, fun _ => (wholeLines_iff _).mpr h2⟩
  · refine ⟨fun hw => ?_, fun hn => absurd h1 hn⟩
    exfalso
    rw [h2, wholeLines_iff] at hw
    have hm : ∀ t ∈ openTexts, t.getLast? = some 'm' := by decide +kernel
    have hl : (p ++ t).getLast? = some 'm' := by rw [List.getLast?_append, hm t ht]; rfl
    rcases hw with hw | ⟨q, hw⟩
    · rw [hw] at hl; cases hl
    · rw [hw] at hl; simp at hl

/-- Without colours every run that ends with an exit code writes whole lines. -/
theorem C92_plain (rt : Runtime) (hc : rt.colorsEnabled = false) (args : List Str) (c : Nat) (h : (doMain rt args).res = .ok c) :
    WholeLines (stdoutText (doMain rt args).out) :=
  (C92_lines_partial rt args c h).mpr fun ho => by rw [hc] at ho; cases ho.1

/-- With colours, the colour test and the display of a single address leave their last line open. -/
theorem C92_counterexample (rt : Runtime) (hc : rt.colorsEnabled = true) :
    ((doMain rt ["ripcalc".toList, "--color-test".toList]).res = .ok 0 ∧
     ¬ WholeLines (stdoutText (doMain rt ["ripcalc".toList, "--color-test".toList]).out)) ∧
    ((doMain rt ["ripcalc".toList, "192.0.2.1/32".toList]).res = .ok 0 ∧
     ¬ WholeLines (stdoutText (doMain rt ["ripcalc".toList, "192.0.2.1/32".toList]).out)) := by
  have hr : (doMain rt ["ripcalc".toList, "--color-test".toList]).res = .ok 0 := by rw [doMain_colorTest]
  have hp : Pointwise (fun s x => parseNetspec s = .ok (.ok x)) ["192.0.2.1/32".toList]
      [.ipv4 ⟨0xC0000201#32⟩ (Net.newWithMask ⟨0xC0000201#32⟩ ⟨0xFFFFFFFF#32⟩)] := .cons (by decide +kernel) .nil
  have hs : (doMain rt ["ripcalc".toList, "192.0.2.1/32".toList]).res = .ok 0 := by
    rw [(C56_dispatch rt _ _ _).2.2.2.2.2.2 (by decide +kernel)]
    obtain ⟨ts, -, h⟩ := C58_blocks rt hc "ripcalc".toList _ _ hp
    exact h.1
  refine ⟨⟨hr, fun h => ?_⟩, hs, fun h => ?_⟩
  · exact (C92_lines_partial rt _ 0 hr).mp h ⟨hc, _, _, _, rfl, .inl rfl⟩
  · exact (C92_lines_partial rt _ 0 hs).mp h ⟨hc, _, _, _, rfl, .inr ⟨by decide +kernel, [], _, hp,
      (atMostTwo_iff _ (newWithMask_wf _ _)).mpr (by decide +kernel)⟩⟩

/-! Both kinds of open end occur, and the display of a larger network is closed. -/

example : OpenEnd true ["ripcalc".toList, "192.0.2.1/32".toList] := by
  refine ⟨rfl, _, _, _, rfl, .inr ⟨by decide +kernel, [], .ipv4 ⟨0xC0000201#32⟩ (Net.newWithMask ⟨0xC0000201#32⟩ ⟨0xFFFFFFFF#32⟩), .cons ?_ .nil, ?_⟩⟩
  · decide +kernel
  · exact (atMostTwo_iff _ (newWithMask_wf _ _)).mpr (by decide +kernel)

example : ¬ OpenEnd true ["ripcalc".toList, "192.0.2.1/24".toList] := by
  rintro ⟨-, prog, mode, rest, e, h⟩
  cases e
  rcases h with h | ⟨-, specs, last, h1, h2⟩
  · exact absurd h (by decide +kernel)
  · have hp : Pointwise (fun s x => parseNetspec s = .ok (.ok x)) ["192.0.2.1/24".toList]
        [.ipv4 ⟨0xC0000201#32⟩ (Net.newWithMask ⟨0xC0000201#32⟩ ⟨0xFFFFFF00#32⟩)] := .cons (by decide +kernel) .nil
    have := pointwise_unique hp h1
    obtain ⟨-, h7⟩ := List.append_inj' (s₁ := []) this rfl
    cases h7
    exact absurd ((atMostTwo_iff _ (newWithMask_wf _ _)).mp h2) (by decide +kernel)

end Ripcalc
