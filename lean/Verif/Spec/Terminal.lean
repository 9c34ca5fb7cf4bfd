import Verif.Spec.Output
/-!
# A terminal

What a terminal shows for the characters it receives: ECMA-48 control sequences `ESC [ … m` set the colour of the characters
that follow, with the usual 16-colour palette and its extension `38;5;n`.
-/
namespace Ripcalc

/-- Where the terminal is within a control sequence. -/
inductive TermMode where
  | text
  /-- after the escape character -/
  | escape
  /-- in a control sequence: the parameters before the current one, and the current one -/
  | control (done : List Nat) (current : Nat)
  deriving DecidableEq, Repr

/-- A terminal: the number of the current foreground colour (`none`: the default), and the mode. -/
structure Terminal where
  colour : Option Nat
  mode : TermMode
  deriving DecidableEq, Repr

/-- A terminal in the default colour. -/
def Terminal.initial : Terminal := ⟨none, .text⟩

/-- The colour after the control sequence "select graphic rendition" with the given parameters. -/
def selectColour : List Nat → Option Nat → Option Nat
  | 38 :: 5 :: n :: ps, _ => selectColour ps (some n)
  | p :: ps, c =>
    if p = 0 ∨ p = 39 then selectColour ps none
    else if 30 ≤ p ∧ p ≤ 37 then selectColour ps (some (p - 30))
    else if 90 ≤ p ∧ p ≤ 97 then selectColour ps (some (p - 90 + 8))
    else selectColour ps c
  | [], c => c

/-- The terminal receives a character: its new state, and the character that appears, with its colour. -/
def Terminal.step (t : Terminal) (c : Char) : Terminal × List (Option Nat × Char) :=
  match t.mode with
  | .text => if c = '\x1b' then ({t with mode := .escape}, []) else (t, [(t.colour, c)])
  | .escape => if c = '[' then ({t with mode := .control [] 0}, []) else ({t with mode := .text}, [])
  | .control ps n =>
    if '0'.toNat ≤ c.toNat ∧ c.toNat ≤ '9'.toNat then ({t with mode := .control ps (n * 10 + (c.toNat - '0'.toNat))}, [])
    else if c = ';' then ({t with mode := .control (ps ++ [n]) 0}, [])
    else if c = 'm' then (⟨selectColour (ps ++ [n]) t.colour, .text⟩, [])
    else ({t with mode := .text}, [])

/-- The terminal receives a text: its state at the end, and the characters that appear. -/
def Terminal.run (t : Terminal) : Str → Terminal × List (Option Nat × Char)
  | [] => (t, [])
  | c :: cs => (((t.step c).1.run cs).1, (t.step c).2 ++ ((t.step c).1.run cs).2)

/-- The number of a colour in the palette: the dark colours, then the light ones, each in the order black, red, green, yellow,
blue, magenta, cyan, white.  (`Gray` is the dark white, `DarkGray` the light black.) -/
def paletteNumber (c : Color) : Nat :=
  [Color.black, .darkRed, .darkGreen, .darkYellow, .darkBlue, .darkMagenta, .darkCyan, .gray,
   .darkGray, .red, .green, .yellow, .blue, .magenta, .cyan, .white].idxOf c

end Ripcalc
