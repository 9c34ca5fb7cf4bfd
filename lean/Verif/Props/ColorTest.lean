import Verif.Props.Terminal
/-!
# The test of the colours
-/
namespace Ripcalc

/-- The name of a colour, as a reader of the test expects it. -/
def colourName : Color → String
  | .black => "Black" | .darkBlue => "DarkBlue" | .darkGreen => "DarkGreen" | .darkCyan => "DarkCyan"
  | .darkRed => "DarkRed" | .darkMagenta => "DarkMagenta" | .darkYellow => "DarkYellow" | .gray => "Gray"
  | .darkGray => "DarkGray" | .blue => "Blue" | .green => "Green" | .cyan => "Cyan"
  | .red => "Red" | .magenta => "Magenta" | .yellow => "Yellow" | .white => "White"

/-- The colours in the order of their numbers on a console with red, green, blue and light bits (4, 2, 1 and 8), where the brightest
of the dark colours is called gray and the lightest of the black ones dark gray. -/
def consoleOrder : List Color :=
  [.black, .darkBlue, .darkGreen, .darkCyan, .darkRed, .darkMagenta, .darkYellow, .gray,
   .darkGray, .blue, .green, .cyan, .red, .magenta, .yellow, .white]

/-- The palette number of a terminal, with its red, green, blue bits (1, 2, 4), as a number of the console. -/
def swapRedBlue (n : Nat) : Nat := n / 8 * 8 + n % 2 * 4 + n / 2 % 2 * 2 + n / 4 % 2

theorem colorTest_eq (rt : Runtime) : (colorTest rt).out =
    consoleOrder.map (fun c => if rt.colorsEnabled then OutEv.styled c (padText (colourName c).toList 20)
      else OutEv.out (padText (colourName c).toList 20 ++ ['\n'])) := by
  cases h : rt.colorsEnabled <;> simp only [colorTest, writeInColor, h] <;> rfl

theorem doMain_colorTest (rt : Runtime) (prog : Str) (rest : List Str) : doMain rt (prog :: "--color-test".toList :: rest) =
    ⟨(colorTest rt).out, .ok 0⟩ := by
  rw [doMain_cons, if_neg (by decide), if_neg (by decide), if_neg (by decide), if_neg (by decide), if_neg (by decide), if_pos rfl]
  have key : ∀ x : Cli Unit, x.res = .ok () → (do x; pure 0 : Cli Nat) = ⟨x.out, .ok 0⟩ := by
    rintro ⟨o, r⟩ h
    cases h
    show (⟨o ++ [], Exec.ok 0⟩ : Cli Nat) = _
    rw [List.append_nil]
  exact key _ (colorTest_res rt)

/-- Every colour occurs once in the test, and the `i`-th has the number `i`. -/
theorem C87_order : consoleOrder.length = 16 ∧ (∀ c, consoleOrder.count c = 1) ∧
    ∀ c, consoleOrder.idxOf c = swapRedBlue (paletteNumber c) := by
  refine ⟨rfl, fun c => ?_, fun c => ?_⟩ <;> cases c <;> decide

/-- With colours, whatever further arguments there are, a terminal shows the names of all colours one after the other on one line,
each in its own colour and filled up with spaces to 20 characters; the terminal is left in its default colour and the exit code is 0. -/
theorem C87_shown (rt : Runtime) (hc : rt.colorsEnabled = true) (prog : Str) (rest : List Str) :
    (doMain rt (prog :: "--color-test".toList :: rest)).res = .ok 0 ∧
    Terminal.initial.run (stdoutText (doMain rt (prog :: "--color-test".toList :: rest)).out) =
      (Terminal.initial, consoleOrder.flatMap fun c =>
        (List.range 20).map fun i => (some (paletteNumber c), (colourName c).toList.getD i ' ')) := by
  refine ⟨by rw [doMain_colorTest], ?_⟩
  rw [C78_terminal, doMain_colorTest]
  show (Terminal.initial, (cells (colorTest rt).out).map _) = _
  rw [colorTest_eq]
  simp only [hc, if_true]
  exact congrArg (Prod.mk _) (by decide +kernel)

/-- Without colours there are sixteen lines with the names, filled up with spaces to 20 characters. -/
theorem C87_plain (rt : Runtime) (hc : rt.colorsEnabled = false) (prog : Str) (rest : List Str) :
    (doMain rt (prog :: "--color-test".toList :: rest)).res = .ok 0 ∧
    stdoutText (doMain rt (prog :: "--color-test".toList :: rest)).out =
      consoleOrder.flatMap fun c => ((List.range 20).map fun i => (colourName c).toList.getD i ' ') ++ ['\n'] := by
  refine ⟨by rw [doMain_colorTest], ?_⟩
  rw [doMain_colorTest]
  show stdoutText (colorTest rt).out = _
  rw [colorTest_eq]
  simp only [hc]
  decide +kernel

example : (evalRuntime .checked true).colorsEnabled = true ∧ (evalRuntime .checked false).colorsEnabled = false := ⟨rfl, rfl⟩

end Ripcalc
