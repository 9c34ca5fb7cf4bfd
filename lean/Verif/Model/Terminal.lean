import Verif.Model.Messages
/-!
# The characters written to standard output

The style selection of `/repo/src/console.rs:56-75`, and the rendering of a styled text by the crate `console` (0.15).
-/
namespace Ripcalc

/-- `console::Color`: the colours that the style methods `black()`, `red()`, … select. -/
inductive ConsoleColor where
  | black | red | green | yellow | blue | magenta | cyan | white
  deriving DecidableEq, Repr

/-- `console::Color::ansi_num`. -/
def ConsoleColor.ansiNum : ConsoleColor → Nat
  | .black => 0
  | .red => 1
  | .green => 2
  | .yellow => 3
  | .blue => 4
  | .magenta => 5
  | .cyan => 6
  | .white => 7

/-- The `match` in `write_in_color`, `src/console.rs:57-74`: whether `bright()` is called, and the colour method. -/
def consoleStyle : Color → Bool × ConsoleColor
  | .black => (false, .black)
  | .darkBlue => (false, .blue)
  | .darkGreen => (false, .green)
  | .darkCyan => (false, .cyan)
  | .darkRed => (false, .red)
  | .darkMagenta => (false, .magenta)
  | .darkYellow => (false, .yellow)
  | .gray => (false, .white)
  | .darkGray => (true, .black)
  | .blue => (true, .blue)
  | .green => (true, .green)
  | .cyan => (true, .cyan)
  | .red => (true, .red)
  | .magenta => (true, .magenta)
  | .yellow => (true, .yellow)
  | .white => (true, .white)

/-- `impl Display for console::StyledObject` with a foreground colour only and colours enabled: a control sequence, the text,
and the control sequence that ends the style. -/
def styledText (clr : Color) (s : Str) : Str :=
  (match consoleStyle clr with
   | (true, c) => ['\x1b'] ++ chars! "[38;5;" ++ showNat 10 (c.ansiNum + 8) ++ ['m']
   | (false, c) => ['\x1b', '['] ++ showNat 10 (c.ansiNum + 30) ++ ['m']) ++ s ++ ['\x1b', '[', '0', 'm']

/-- All that is written to standard output. -/
def stdoutText : List OutEv → Str
  | [] => []
  | .out s :: evs => s ++ stdoutText evs
  | .styled c s :: evs => styledText c s ++ stdoutText evs
  | .err _ :: evs => stdoutText evs

end Ripcalc
