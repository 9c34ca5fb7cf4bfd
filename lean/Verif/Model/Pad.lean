import Verif.Model.Output
import Verif.Model.Process
/-!
# Padding of any text

Model of `src/console.rs`, lines 30-51, for texts that need not be ASCII.
-/
namespace Ripcalc

/-- The padding part of `write_in_color`, `src/console.rs:31-51`, with `String::len`, which counts bytes.  `padText` is the same
function for the texts of the program, which are ASCII (`padTextBytes_ascii`).  The width is an unbounded integer here: for
`isize::MIN`, whose negation overflows, and for widths that do not fit into memory the code fails. -/
def padTextBytes (text : Str) (padTo : Int) : Str :=
  let len : Int := (utf8Encode text).length
  if padTo > 0 then
    if padTo > len then text ++ List.replicate (padTo - len).toNat ' ' else text
  else if padTo < 0 then
    if padTo < -len then List.replicate ((-padTo) - len).toNat ' ' ++ text else text
  else text

end Ripcalc
