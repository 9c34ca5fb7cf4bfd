import Verif.Spec.Text
/-!
# Vocabulary for statements about messages
-/
namespace Ripcalc

/-- Not a control character and no line or paragraph separator. -/
def Visible (c : Char) : Prop :=
  0x20 ≤ c.toNat ∧ ¬ (0x7F ≤ c.toNat ∧ c.toNat < 0xA0) ∧ c.toNat ≠ 0x2028 ∧ c.toNat ≠ 0x2029

instance : DecidablePred Visible := fun c => by unfold Visible; infer_instance

/-- One non-empty line of visible characters. -/
def OneLine (t : Str) : Prop := ∃ body : Str, t = body ++ ['\n'] ∧ body ≠ [] ∧ ∀ c ∈ body, Visible c

/-- Where a reader of a quoted text is. -/
inductive QuoteState where
  /-- between characters -/
  | plain
  /-- after a backslash -/
  | escape
  /-- after `\u` -/
  | brace
  /-- within the braces of `\u{…}`, with the number read so far -/
  | hex (n : Nat)

/-- The characters that are written with a backslash and one letter. -/
def shortEscapes : List (Char × Char) :=
  [('0', Char.ofNat 0), ('t', '\t'), ('r', '\r'), ('n', '\n'), ('\\', '\\'), ('"', '"')]

/-- Reads a text in double quotes with backslash escapes, after the opening quote: the quoted text and what follows the
closing quote. -/
def readQuote : QuoteState → Str → Option (Str × Str)
  | _, [] => none
  | .plain, c :: r =>
    if c = '"' then some ([], r)
    else if c = '\\' then readQuote .escape r
    else (readQuote .plain r).map (fun x => (c :: x.1, x.2))
  | .escape, c :: r =>
    if c = 'u' then readQuote .brace r
    else match shortEscapes.lookup c with
      | some d => (readQuote .plain r).map (fun x => (d :: x.1, x.2))
      | none => none
  | .brace, c :: r => if c = '{' then readQuote (.hex 0) r else none
  | .hex n, c :: r =>
    if c = '}' then (readQuote .plain r).map (fun x => (Char.ofNat n :: x.1, x.2))
    else match lowerDigits.idxOf? c with
      | some d => readQuote (.hex (n * 16 + d)) r
      | none => none

/-- Reads a quoted text: the text and what follows it. -/
def readQuoted : Str → Option (Str × Str)
  | '"' :: r => readQuote .plain r
  | _ => none

end Ripcalc
