import Verif.Model.Output
import Verif.Spec.Listing
/-!
# Vocabulary for statements about output
-/
namespace Ripcalc

/-- The visible characters on standard output of one event, each with its colour. -/
def cellsOf : OutEv → List (Option Color × Char)
  | .out s => s.map (fun c => (none, c))
  | .styled clr s => s.map (fun c => (some clr, c))
  | .err _ => []

/-- The visible characters on standard output, each with its colour. -/
def cells (evs : List OutEv) : List (Option Color × Char) := evs.flatMap cellsOf

/-- The visible characters on standard output. -/
def visible (evs : List OutEv) : Str := (cells evs).map Prod.snd

/-- The message of an event on standard error. -/
def messageOf : OutEv → Option ErrMsg
  | .err m => some m
  | _ => none

/-- The messages on standard error. -/
def messages (evs : List OutEv) : List ErrMsg := evs.filterMap messageOf

/-- Only printable ASCII characters. -/
def PlainText (s : Str) : Prop := ∀ c ∈ s, 0x20 ≤ c.toNat ∧ c.toNat < 0x7F

/-- On standard output: printable ASCII in a colour, or a line of printable ASCII without one. -/
def TidyEvent : OutEv → Prop
  | .out s => ∃ line, s = line ++ ['\n'] ∧ PlainText line
  | .styled _ s => PlainText s
  | .err _ => False

/-- The digit of a number in base two at a position (0 is the least significant). -/
def bitChar (v i : Nat) : Char := if v.testBit i then '1' else '0'

/-- What stands for the `w` positions from the most significant to the least, in groups of `g` with a separator
between. -/
def grouped (w g : Nat) (sep : α) (f : Nat → α) : List α :=
  List.intercalate [sep] ((List.range (w / g)).map (fun i => (List.range g).map (fun j => f (w - 1 - (i * g + j)))))

/-- The `w`-bit number `v` in base two, in groups of `g` digits. -/
def binaryText (w g : Nat) (sep : Char) (v : Nat) : Str := grouped w g sep (bitChar v)

/-- Filled with spaces on the right to a width. -/
def padRight (k : Nat) (s : Str) : Str := s ++ List.replicate (k - s.length) ' '

/-- The computation ends with the value, with the visible text on standard output and nothing on standard error. -/
def Shows (x : Cli α) (a : α) (t : Str) : Prop := x.res = .ok a ∧ visible x.out = t ∧ messages x.out = []

/-- The computation panics after showing the text, with nothing on standard error; the last thing it wrote is a line. -/
def Aborts (x : Cli α) (p : Panic) (t : Str) : Prop :=
  x.res = .panic p ∧ visible x.out = t ∧ messages x.out = [] ∧ ∃ evs line, x.out = evs ++ [.out (line ++ ['\n'])]

/-- The second text is the first one with line breaks inserted. -/
inductive LineBreaks : Str → Str → Prop
  | nil : LineBreaks [] []
  | keep {c t u} : LineBreaks t u → LineBreaks (c :: t) (c :: u)
  | insert {t u} : LineBreaks t u → LineBreaks t ('\n' :: u)

/-- What is to be shown, and what is written for it: the same with colours, and the same up to line breaks that are inserted
without. -/
def Rendered (colors : Bool) (t u : Str) : Prop := if colors = true then u = t else LineBreaks t u

/-- The text displayed for a network: `binary` gives the binary column, `cls` the class label. -/
structure BlockText (A : Type) where
  /-- the given address, if it is displayed, and its text -/
  address : Option A
  network : Net A
  wildcard : A
  /-- first and last host address -/
  hosts : Option (A × A)
  broadcast : Option A
  hostCount : Int
  cls : Str

/-- A line of a display: the label filled to 11 characters, the second column filled to `aw`, the third column. -/
def blockLine (aw : Nat) (label text third : Str) : Str := padRight 11 label ++ padRight aw text ++ third ++ ['\n']

section
variable (aw : Nat) (show_ binary : A → Str)

/-- The lines for a given address of a network. -/
def addressLines (n : Net A) (wildcard : A) : Option A → Str
  | some a =>
    blockLine aw "Address:".toList (show_ a) (binary a) ++
    blockLine aw "Netmask:".toList (match n.cidrPrefix with
      | some p => show_ n.subnetMask ++ " = ".toList ++ showNat 10 p
      | none => show_ n.subnetMask) (binary n.subnetMask) ++
    blockLine aw "Wildcard:".toList (show_ wildcard) (binary wildcard) ++ "=>\n".toList
  | none => []

/-- The line for the network itself. -/
def networkLine (n : Net A) : Str :=
  blockLine aw "Network:".toList (match n.cidrPrefix with
    | some p => show_ n.baseAddr ++ ['/'] ++ showNat 10 p
    | none => show_ n.baseAddr) (binary n.baseAddr)

/-- The lines for first and last host. -/
def hostLines : Option (A × A) → Str
  | some (f, l) => blockLine aw "HostMin:".toList (show_ f) (binary f) ++ blockLine aw "HostMax:".toList (show_ l) (binary l)
  | none => "no hosts\n".toList

/-- The line for the broadcast address. -/
def broadcastLine : Option A → Str
  | some x => blockLine aw "Broadcast:".toList (show_ x) (binary x)
  | none => "no broadcast\n".toList

/-- The line with the number of hosts and the class. -/
def countLine (count : Int) (cls : Str) : Str :=
  if count > 0 then blockLine aw "Hosts/Net:".toList (showInt count) cls else "no hosts/net".toList

/-- The lines displayed for a network.  `show_` is the text form of an address, `binary` the binary column. -/
def BlockText.render (b : BlockText A) : Str :=
  addressLines aw show_ binary b.network b.wildcard b.address ++ networkLine aw show_ binary b.network ++
  hostLines aw show_ binary b.hosts ++ broadcastLine aw show_ binary b.broadcast ++ countLine aw b.hostCount b.cls

end

/-- The address classes: label, and the leading bits that define the class. -/
def classTable : List (Str × List Bool) :=
  [("Class A".toList, [false]), ("Class B".toList, [true, false]), ("Class C".toList, [true, true, false]),
   ("Class D (multicast)".toList, [true, true, true, false]), ("Class E (reserved)".toList, [true, true, true, true])]

/-- The mask `m` fixes the leading bits of a 32-bit address, and in `v` they are the given ones. -/
def FixesLeading (m v : Nat) (bits : List Bool) : Prop :=
  ∀ i b, bits[i]? = some b → m.testBit (31 - i) = true ∧ v.testBit (31 - i) = b

/-- The text is the label of the class whose bits the mask `m` fixes in `v`, and is empty if there is none. -/
def IsClassLabel (m v : Nat) (t : Str) : Prop :=
  (∀ e ∈ classTable, t = e.1 ↔ FixesLeading m v e.2) ∧
  (t = [] ↔ ∀ e ∈ classTable, ¬ FixesLeading m v e.2) ∧ (t = [] ∨ t ∈ classTable.map Prod.fst)

/-- The block shows the right things for network `n` and the optional address: the complement of the mask; first and last
host address when the network has at least four addresses; the last address when there is more than one; the number of
addresses less two. -/
structure BlockText.Describes [AddrSpec A] (b : BlockText A) (n : Net A) (addr : Option A) : Prop where
  address : b.address = addr
  network : b.network = n
  wildcard : ∀ i, i < AddrSpec.width A → (AddrSpec.val b.wildcard).testBit i = !(AddrSpec.val n.subnetMask).testBit i
  no_hosts : b.hosts = none ↔ hostBitCount n.subnetMask < 2
  first_host : ∀ f l, b.hosts = some (f, l) → Member n f ∧ f ≠ n.baseAddr ∧
    ∀ a, Member n a → a ≠ n.baseAddr → AddrSpec.val f ≤ AddrSpec.val a
  last_host : ∀ f l, b.hosts = some (f, l) → Member n l ∧ (∃ a, Member n a ∧ AddrSpec.val l < AddrSpec.val a) ∧
    ∀ a a', Member n a → Member n a' → AddrSpec.val a < AddrSpec.val a' → AddrSpec.val a ≤ AddrSpec.val l
  no_broadcast : b.broadcast = none ↔ ∀ a, Member n a → a = n.baseAddr
  broadcast : ∀ x, b.broadcast = some x → Member n x ∧ ∀ a, Member n a → AddrSpec.val a ≤ AddrSpec.val x
  hostCount : b.hostCount = 2 ^ hostBitCount n.subnetMask - 2

end Ripcalc
