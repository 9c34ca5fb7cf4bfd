import Verif.Spec.Output
/-!
# Vocabulary for statements about coloured output
-/
namespace Ripcalc

/-- A visible character with its colour. -/
abbrev Cell := Option Color × Char

/-- Text in one colour. -/
def paint (c : Color) (s : Str) : List Cell := s.map (fun x => (some c, x))

/-- The end of a line, which has no colour. -/
def newline : List Cell := [(none, '\n')]

/-- The colours of the bits of an address with a mask: the bits fixed by the mask are green, the others yellow. -/
def maskColor (m p : Nat) : Color := if m.testBit p then .green else .yellow

/-- The binary column: one colour per bit, white separators. -/
def binaryCells (w g : Nat) (sep : Char) (v : Nat) (col : Nat → Color) : List Cell :=
  grouped w g (some .white, sep) (fun p => (some (col p), bitChar v p))

/-- A line of a display: white label, blue text, then the third column. -/
def cellLine (aw : Nat) (label text : Str) (third : List Cell) : List Cell :=
  paint .white (padRight 11 label) ++ paint .blue (padRight aw text) ++ third ++ newline

section
variable (aw : Nat) (show_ : A → Str) (binary : A → (Nat → Color) → List Cell)

/-- The lines for a given address of a network: the address by the mask, the mask in red, the wildcard in yellow. -/
def addressCells (n : Net A) (wildcard : A) (byMask : Nat → Color) : Option A → List Cell
  | some a =>
    cellLine aw "Address:".toList (show_ a) (binary a byMask) ++
    cellLine aw "Netmask:".toList (match n.cidrPrefix with
      | some p => show_ n.subnetMask ++ " = ".toList ++ showNat 10 p
      | none => show_ n.subnetMask) (binary n.subnetMask (fun _ => .red)) ++
    cellLine aw "Wildcard:".toList (show_ wildcard) (binary wildcard (fun _ => .yellow)) ++ paint .white "=>".toList ++ newline
  | none => []

/-- The line for the network itself. -/
def networkCells (n : Net A) (col : Nat → Color) : List Cell :=
  cellLine aw "Network:".toList (match n.cidrPrefix with
    | some p => show_ n.baseAddr ++ ['/'] ++ showNat 10 p
    | none => show_ n.baseAddr) (binary n.baseAddr col)

/-- The lines for first and last host. -/
def hostCells : Option (A × A) → List Cell
  | some (f, l) => cellLine aw "HostMin:".toList (show_ f) (binary f (fun _ => .yellow)) ++
    cellLine aw "HostMax:".toList (show_ l) (binary l (fun _ => .yellow))
  | none => paint .white "no hosts".toList ++ newline

/-- The line for the broadcast address. -/
def broadcastCells : Option A → List Cell
  | some x => cellLine aw "Broadcast:".toList (show_ x) (binary x (fun _ => .yellow))
  | none => paint .white "no broadcast".toList ++ newline

/-- The line with the number of hosts and the class. -/
def countCells (count : Int) (cls : Str) : List Cell :=
  if count > 0 then cellLine aw "Hosts/Net:".toList (showInt count) (paint .magenta cls) else paint .white "no hosts/net".toList

/-- The coloured lines displayed for a network: `byMask` colours the bits of the address line, `col` those of the network
line. -/
def BlockText.cells (b : BlockText A) (byMask col : Nat → Color) : List Cell :=
  addressCells aw show_ binary b.network b.wildcard byMask b.address ++ networkCells aw show_ binary b.network col ++
  hostCells aw show_ binary b.hosts ++ broadcastCells aw show_ binary b.broadcast ++ countCells aw b.hostCount b.cls

end

/-- The bits that define the class whose label is displayed. -/
def DefinesClass (m v p : Nat) : Prop := ∃ e ∈ classTable, FixesLeading m v e.2 ∧ 32 - e.2.length ≤ p ∧ p < 32

/-- Among the first four bits of the address, a one is followed by a bit that is not fixed by the mask. -/
def LooseLeading (m v : Nat) : Prop := ∃ q, 29 ≤ q ∧ q ≤ 31 ∧ v.testBit q = true ∧ m.testBit (q - 1) = false

end Ripcalc
