import Verif.Model.Minimize
import Verif.Model.Enumerate
import Verif.Model.Resize
import Verif.Model.Split
/-!
# Model of `/repo/src/main.rs`
-/
namespace Ripcalc

/-- `color_test`, `src/main.rs:11-28`. -/
def colorTest (rt : Runtime) : Cli Unit := do
  writeInColor rt "Black".toList (some .black) 20
  writeInColor rt "DarkBlue".toList (some .darkBlue) 20
  writeInColor rt "DarkGreen".toList (some .darkGreen) 20
  writeInColor rt "DarkCyan".toList (some .darkCyan) 20
  writeInColor rt "DarkRed".toList (some .darkRed) 20
  writeInColor rt "DarkMagenta".toList (some .darkMagenta) 20
  writeInColor rt "DarkYellow".toList (some .darkYellow) 20
  writeInColor rt "Gray".toList (some .gray) 20
  writeInColor rt "DarkGray".toList (some .darkGray) 20
  writeInColor rt "Blue".toList (some .blue) 20
  writeInColor rt "Green".toList (some .green) 20
  writeInColor rt "Cyan".toList (some .cyan) 20
  writeInColor rt "Red".toList (some .red) 20
  writeInColor rt "Magenta".toList (some .magenta) 20
  writeInColor rt "Yellow".toList (some .yellow) 20
  writeInColor rt "White".toList (some .white) 20

/-- `do_main`, `src/main.rs:47-74`: the exit code for the argument vector (program name included). -/
def doMain (rt : Runtime) (args : List Str) : Cli Nat := do
  if args.length < 2 then
    Cli.eprint .usage
    return 1
  let mode := args.getD 1 []
  if mode = "-m".toList ∨ mode = "--minimize".toList then minimize rt args
  else if mode = "-d".toList ∨ mode = "--derange".toList then derange rt args
  else if mode = "-s".toList ∨ mode = "--split".toList then split rt args
  else if mode = "-r".toList ∨ mode = "--resize".toList then resize rt args
  else if mode = "-e".toList ∨ mode = "--enumerate".toList then enumerate rt args
  else if mode = "--color-test".toList then do
    colorTest rt
    return 0
  else if mode = "--help".toList then do
    Cli.eprint .usage
    return 0
  else showNet rt args

end Ripcalc
