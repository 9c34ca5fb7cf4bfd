import Verif.Props.Usage
import Verif.Props.Agreement
/-!
# C104: the synopses are those of the usage text

`C104_arguments_partial` speaks of synopses with which the usage text can be put together.  There is only one way to do so.
-/
namespace Ripcalc

/-- The synopses and the note are determined by the text. -/
theorem C104_synopses_unique (text s s' : Str) (ms ms' : List (Str × Str × Str)) (n n' : Str) (h : UsageText text s ms n)
    (h' : UsageText text s' ms' n') : s = s' ∧ ms = ms' ∧ n = n' := by
  obtain ⟨e, ⟨hs, hn, hm⟩, hw⟩ := h
  obtain ⟨e', ⟨hs', hn', hm'⟩, hw'⟩ := h'
  have five : ∀ l : List (Str × Str × Str), l.map (fun m => (m.1, m.2.1)) = [("-m", "--minimize"), ("-d", "--derange"), ("-s", "--split"),
      ("-r", "--resize"), ("-e", "--enumerate")].map (fun w => (w.1.toList, w.2.toList)) →
      ∃ a b c d x, l = [("-m".toList, "--minimize".toList, a), ("-d".toList, "--derange".toList, b), ("-s".toList, "--split".toList, c),
        ("-r".toList, "--resize".toList, d), ("-e".toList, "--enumerate".toList, x)] := by
    intro l hl
    have len := congrArg List.length hl
    simp only [List.length_map, List.length_cons, List.length_nil] at len
    match l, len with
    | [(a1, a2, a), (b1, b2, b), (c1, c2, c), (d1, d2, d), (x1, x2, x)], _ =>
      simp only [List.map, List.cons.injEq, Prod.mk.injEq, and_true] at hl
      obtain ⟨⟨rfl, rfl⟩, ⟨rfl, rfl⟩, ⟨rfl, rfl⟩, ⟨rfl, rfl⟩, ⟨rfl, rfl⟩⟩ := hl
      exact ⟨a, b, c, d, x, rfl⟩
  obtain ⟨a, b, c, d, x, rfl⟩ := five ms hw
  obtain ⟨a', b', c', d', x', rfl⟩ := five ms' hw'
  rw [e] at e'
  simp only [List.mem_cons, List.not_mem_nil, or_false, forall_eq_or_imp, forall_eq] at hm hm'
  have := asLines_inj ?_ ?_ e'
  · simpa [indented, and_assoc] using this
  · simp [indented, hs, hn, hm]
  · simp [indented, hs', hn', hm']

example (u : CharTable) : ∃ s ms n, UsageText ((ErrMsg.usage).text u) s ms n ∧
    ∀ s' ms' n', UsageText ((ErrMsg.usage).text u) s' ms' n' → s' = s ∧ ms' = ms ∧ n' = n := by
  obtain ⟨s, ms, n, h, -⟩ := C104_arguments_partial u (evalRuntime .checked true) []
  exact ⟨s, ms, n, h, fun s' ms' n' h' => C104_synopses_unique _ _ _ _ _ _ _ h' h⟩

end Ripcalc
