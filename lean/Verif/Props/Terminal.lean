import Verif.Model.Terminal
import Verif.Spec.Terminal
import Verif.Props.Messages
/-!
# C78: what a terminal shows
-/
namespace Ripcalc

theorem Terminal.run_append (t : Terminal) (s s' : Str) :
    t.run (s ++ s') = (((t.run s).1.run s').1, (t.run s).2 ++ ((t.run s).1.run s').2) := by
  induction s generalizing t with
  | nil => rfl
  | cons c s ih => rw [List.cons_append, Terminal.run, ih]; simp [Terminal.run]

theorem Terminal.run_plain (clr : Option Nat) (s : Str) (hs : '\x1b' ∉ s) :
    Terminal.run ⟨clr, .text⟩ s = (⟨clr, .text⟩, s.map (fun c => (clr, c))) := by
  induction s with
  | nil => rfl
  | cons c s ih =>
    have hc : c ≠ '\x1b' := fun h => hs (by simp [h])
    have hstep : Terminal.step ⟨clr, .text⟩ c = (⟨clr, .text⟩, [(clr, c)]) := by simp [Terminal.step, hc]
    rw [Terminal.run, hstep, ih fun h => hs (by simp [h])]
    rfl

theorem run_styled (clr : Color) (s : Str) (hs : '\x1b' ∉ s) :
    Terminal.initial.run (styledText clr s) = (Terminal.initial, s.map (fun c => (some (paletteNumber clr), c))) := by
  have hpre : ∃ p, styledText clr s = p ++ s ++ ['\x1b', '[', '0', 'm'] ∧
      Terminal.initial.run p = (⟨some (paletteNumber clr), .text⟩, []) := by
    cases clr <;> exact ⟨_, rfl, by decide +kernel⟩
  obtain ⟨p, h1, h2⟩ := hpre
  rw [h1, Terminal.run_append, Terminal.run_append, h2, Terminal.run_plain _ _ hs]
  simp only [List.nil_append]
  have hend : Terminal.run ⟨some (paletteNumber clr), .text⟩ ['\x1b', '[', '0', 'm'] = (Terminal.initial, []) := by
    cases clr <;> decide +kernel
  rw [hend, List.append_nil]

theorem plain_escape {s : Str} (h : PlainText s) : '\x1b' ∉ s := fun hm => by have := (h _ hm).1; revert this; decide

theorem run_events (evs : List OutEv) (h : ∀ e ∈ evs, TidyEvent e ∨ ∃ m, e = .err m) :
    Terminal.initial.run (stdoutText evs) = (Terminal.initial, (cells evs).map (fun x => (x.1.map paletteNumber, x.2))) := by
  induction evs with
  | nil => rfl
  | cons e evs ih =>
    have ih := ih fun e he => h e (by simp [he])
    have hcells : cells (e :: evs) = cellsOf e ++ cells evs := by simp [cells]
    rw [hcells, List.map_append]
    rcases h e (by simp) with he | ⟨m, rfl⟩
    · cases e with
      | out s =>
        obtain ⟨line, rfl, hl⟩ := he
        have hn : '\x1b' ∉ line ++ ['\n'] := by
          rw [List.mem_append, not_or]
          exact ⟨plain_escape hl, by decide⟩
        have hrun := Terminal.run_plain none _ hn
        rw [stdoutText, Terminal.run_append, Terminal.initial, hrun]
        rw [Terminal.initial] at ih
        rw [ih]
        simp [cellsOf]
      | styled c s =>
        rw [stdoutText, Terminal.run_append, run_styled c s (plain_escape he), ih]
        simp [cellsOf]
      | err m => exact he.elim
    · rw [stdoutText, ih]; rfl

/-- Every run leaves the terminal in the default colour, and what appears are the characters of the output in their colours
and nothing else: no control sequence is cut off, shown, or smuggled in through an argument. -/
theorem C78_terminal (rt : Runtime) (args : List Str) :
    Terminal.initial.run (stdoutText (doMain rt args).out) =
      (Terminal.initial, (cells (doMain rt args).out).map (fun x => (x.1.map paletteNumber, x.2))) :=
  run_events _ (C77_printable rt args)

/-- The same at every moment between two writes, so also when the run panics, does not end, or is interrupted there. -/
theorem C78_prefix (rt : Runtime) (args : List Str) (done rest : List OutEv) (h : (doMain rt args).out = done ++ rest) :
    Terminal.initial.run (stdoutText done) =
      (Terminal.initial, (cells done).map (fun x => (x.1.map paletteNumber, x.2))) :=
  run_events _ fun e he => C77_printable rt args e (by rw [h]; simp [he])

/-- Different colours look different. -/
theorem C78_distinct (c c' : Color) (h : paletteNumber c = paletteNumber c') : c = c' := by
  revert h; cases c <;> cases c' <;> decide

/-- The colours are the sixteen of the palette. -/
theorem C78_palette (n : Nat) : n < 16 ↔ ∃ c, paletteNumber c = n := by
  constructor
  · intro h
    have key : ∀ n < 16, ∃ c ∈ [Color.black, .darkRed, .darkGreen, .darkYellow, .darkBlue, .darkMagenta, .darkCyan, .gray,
        .darkGray, .red, .green, .yellow, .blue, .magenta, .cyan, .white], paletteNumber c = n := by decide
    obtain ⟨c, -, h⟩ := key n h
    exact ⟨c, h⟩
  · rintro ⟨c, rfl⟩; cases c <;> decide

/-- Without colours no control sequence is written. -/
theorem C78_uncolored (rt : Runtime) (hc : rt.colorsEnabled = false) (args : List Str) :
    '\x1b' ∉ stdoutText (doMain rt args).out := by
  have key : ∀ evs : List OutEv, (∀ e ∈ evs, TidyEvent e ∨ ∃ m, e = .err m) → (∀ e ∈ evs, ∀ c s, e ≠ .styled c s) →
      '\x1b' ∉ stdoutText evs := by
    intro evs h1 h2
    induction evs with
    | nil => exact List.not_mem_nil
    | cons e evs ih =>
      have ih := ih (fun e he => h1 e (by simp [he])) (fun e he => h2 e (by simp [he]))
      cases e with
      | out s =>
        rcases h1 _ (List.mem_cons_self ..) with ⟨line, rfl, hl⟩ | ⟨m, hm⟩
        · rw [stdoutText, List.mem_append, List.mem_append, not_or, not_or]
          exact ⟨⟨plain_escape hl, by decide⟩, ih⟩
        · cases hm
      | styled c s => exact absurd rfl (h2 _ (List.mem_cons_self ..) c s)
      | err m => exact ih
  refine key _ (C77_printable rt args) ?_
  have hu := uncolored_main rt args
  rw [← rt.withColors_self, hc, show doMain (rt.withColors false) args = _ from hu]
  intro e he c s hs
  obtain ⟨e', -, rfl⟩ := List.mem_map.mp (show e ∈ ((doMain (rt.withColors true) args).out).map uncolor from he)
  cases e' <;> cases hs

/-- A run of the program on the bits of an address: there are styled fragments. -/
example : stdoutText [.styled .green "ab".toList, .out "c\n".toList, .styled .darkRed "d".toList] =
    "\x1b[38;5;10mab\x1b[0mc\n\x1b[31md\x1b[0m".toList := by decide +kernel
example : Terminal.initial.run "\x1b[38;5;10mab\x1b[0mc\n\x1b[31md\x1b[0m".toList =
    (Terminal.initial, [(some 10, 'a'), (some 10, 'b'), (none, 'c'), (none, '\n'), (some 1, 'd')]) := by decide +kernel
example : ∃ s, OutEv.styled .darkRed s ∈ (doMain (evalRuntime .checked true) ["ripcalc".toList, "--color-test".toList]).out :=
  ⟨"DarkRed             ".toList, by decide +kernel⟩

end Ripcalc
