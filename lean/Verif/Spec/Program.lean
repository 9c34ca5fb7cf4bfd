import Verif.Spec.Complaints
import Verif.Spec.Joining
import Verif.Spec.Splitting
import Verif.Spec.Utf8
import Verif.Spec.Terminal
import Verif.Spec.Colors
import Verif.Model.Process
/-!
# What the program does

A description of everything the program writes and of how it ends, for all arguments, in the words of the other files of this
directory.
-/
namespace Ripcalc
open AddrSpec

/-! ## Marks -/

/-- What is written to standard output: a character without colour, or a piece of text in a colour. -/
inductive Mark where
  | char (x : Char)
  | piece (c : Color) (s : Str)
deriving DecidableEq

/-- Text without colour. -/
def plainly (s : Str) : List Mark := s.map .char

/-- The marks of an event. -/
def marksOf : OutEv → List Mark
  | .out s => plainly s
  | .styled c s => [.piece c s]
  | .err _ => []

/-- The marks of a run. -/
def marks (evs : List OutEv) : List Mark := evs.flatMap marksOf

/-- The characters of a mark with their colours. -/
def Mark.cells : Mark → List Cell
  | .char x => [(none, x)]
  | .piece c s => paint c s

/-- The characters of a mark. -/
def Mark.text : Mark → Str
  | .char x => [x]
  | .piece _ s => s

/-- What is written of a mark when there are no colours: a piece gets a line of its own. -/
def Mark.line : Mark → Str
  | .char x => [x]
  | .piece _ s => s ++ ['\n']

/-! ## Texts -/

/-- The text of an IPv4 address: the four bytes in base ten without leading zeros, separated by dots. -/
def V4Text (a : V4) (t : Str) : Prop :=
  ∃ t0 t1 t2 t3 v0 v1 v2 v3, t = t0 ++ '.' :: t1 ++ '.' :: t2 ++ '.' :: t3 ∧
    (CanonicalNumeral 10 t0 v0 ∧ v0 < 256) ∧ (CanonicalNumeral 10 t1 v1 ∧ v1 < 256) ∧
    (CanonicalNumeral 10 t2 v2 ∧ v2 < 256) ∧ (CanonicalNumeral 10 t3 v3 ∧ v3 < 256) ∧ val a = bigEndian 256 [v0, v1, v2, v3]

/-- The text of an IPv6 address: the eight groups in base sixteen without leading zeros, separated by colons; two colons stand for
the first of the longest runs of zeros. -/
def V6Text (a : V6) (t : Str) : Prop :=
  ∃ hs, Pointwise (CanonicalNumeral 16) hs (chunkVals a) ∧
    (((∀ i, i < 8 → chunkOf a i ≠ 0) ∧ t = List.intercalate [':'] hs) ∨
     (∃ start len, FirstLongestZeroRun (chunkVals a) start len ∧
        t = List.intercalate [':'] (hs.take start) ++ [':', ':'] ++ List.intercalate [':'] (hs.drop (start + len))))

/-- Texts for addresses and numbers. -/
structure Texts where
  v4 : V4 → Str
  v6 : V6 → Str
  num : Nat → Str

/-- They are the right ones. -/
structure Texts.Right (T : Texts) : Prop where
  v4 : ∀ a, V4Text a (T.v4 a)
  v6 : ∀ a, V6Text a (T.v6 a)
  num : ∀ n, CanonicalNumeral 10 (T.num n) n

/-- What differs between the families: the texts of addresses, the width of the second column, the groups of digits in the third and
what separates them, the label of a network, the bits that are shown as the bits of its class, and how networks, addresses and masks
are given on the command line. -/
structure Family (A : Type) where
  num : Nat → Str
  text : A → Str
  column : Nat
  group : Nat
  sep : Char
  label : Net A → Str → Prop
  classBit : Net A → Nat → Prop
  network : Str → A → Net A → Prop
  address : Str → A → Prop
  mask : Str → A → Prop

/-- IPv4. -/
def Texts.ipv4 (T : Texts) : Family V4 where
  num := T.num
  text := T.v4
  column := 21
  group := 8
  sep := '.'
  label := fun n t => IsClassLabel (val n.subnetMask) (val n.baseAddr) t
  classBit := fun n p =>
    DefinesClass (val n.subnetMask) (val n.baseAddr) p ∧ ¬ LooseLeading (val n.subnetMask) (val n.baseAddr)
  network := V4Network
  address := fun s a => '.' ∈ s ∧ ':' ∉ s ∧ V4Reading s a
  mask := fun s m => ':' ∉ s ∧
    (('.' ∈ s ∧ V4Reading s m) ∨ ('.' ∉ s ∧ ∃ p, PlusNumeral 10 s p ∧ p ≤ 32 ∧ IsPrefixMask 32 p (val m)))

/-- IPv6. -/
def Texts.ipv6 (T : Texts) : Family V6 where
  num := T.num
  text := T.v6
  column := 46
  group := 16
  sep := ':'
  label := fun _ t => t = []
  classBit := fun _ _ => False
  network := V6Network
  address := fun s a => ':' ∈ s ∧ '.' ∉ s ∧ V6Reading s a
  mask := fun s m =>
    (':' ∈ s ∧ V6Reading s m) ∨ (':' ∉ s ∧ '.' ∉ s ∧ ∃ p, PlusNumeral 10 s p ∧ p ≤ 128 ∧ IsPrefixMask 128 p (val m))

/-- Lines of text. -/
def asLines (ls : List Str) : Str := ls.flatMap (· ++ ['\n'])

/-- Paragraphs, each with a heading and followed by an empty line. -/
def paragraphs (ps : List (Str × List Mark)) : List Mark := ps.flatMap fun p => plainly (p.1 ++ ":\n".toList) ++ p.2 ++ plainly ['\n']

/-! ## Networks -/

section
variable {A : Type} [AddrSpec A] (F : Family A)

/-- A line: a white label, a blue text, both filled up to a width, and the third column. -/
def Family.line (label text : Str) (third : List Mark) : List Mark :=
  [.piece .white (padRight 11 label), .piece .blue (padRight F.column text)] ++ third ++ plainly ['\n']

/-- The address in base two, one piece for each digit. -/
def Family.digits (col : Nat → Color) (a : A) : List Mark :=
  grouped (width A) F.group (.piece .white [F.sep]) fun p => .piece (col p) [bitChar (val a) p]

/-- The address in base two, one piece for each byte. -/
def Family.bytes (c : Color) (a : A) : List Mark :=
  grouped (width A / 8) (F.group / 8) (.piece .white [F.sep]) fun k =>
    .piece c ((List.range 8).map fun j => bitChar (val a) (8 * k + 7 - j))

/-- The lines displayed for a network, where the bits of the base address have the colours `col`. -/
def Family.render (col : Nat → Color) (b : BlockText A) : List Mark :=
  (match b.address with
    | some a =>
      F.line "Address:".toList (F.text a) (F.digits (maskColor (val b.network.subnetMask)) a) ++
      F.line "Netmask:".toList
        (F.text b.network.subnetMask ++ (match b.network.cidrPrefix with | some p => " = ".toList ++ F.num p | none => []))
        (F.bytes .red b.network.subnetMask) ++
      F.line "Wildcard:".toList (F.text b.wildcard) (F.bytes .yellow b.wildcard) ++ [.piece .white "=>".toList] ++ plainly ['\n']
    | none => []) ++
  F.line "Network:".toList
    (F.text b.network.baseAddr ++ (match b.network.cidrPrefix with | some p => ['/'] ++ F.num p | none => []))
    (F.digits col b.network.baseAddr) ++
  (match b.hosts with
    | some (f, l) => F.line "HostMin:".toList (F.text f) (F.bytes .yellow f) ++ F.line "HostMax:".toList (F.text l) (F.bytes .yellow l)
    | none => [.piece .white "no hosts".toList] ++ plainly ['\n']) ++
  (match b.broadcast with
    | some x => F.line "Broadcast:".toList (F.text x) (F.bytes .yellow x)
    | none => [.piece .white "no broadcast".toList] ++ plainly ['\n']) ++
  (if 0 < b.hostCount then
    F.line "Hosts/Net:".toList (F.num b.hostCount.toNat) (if b.cls = [] then [] else [.piece .magenta b.cls])
  else [.piece .white "no hosts/net".toList])

/-- The display of the network, with the optional address: the bits of the class are magenta, the others have the colours of the
mask. -/
def Family.Block (n : Net A) (addr : Option A) (t : List Mark) : Prop :=
  ∃ (b : BlockText A) (col : Nat → Color), b.Describes n addr ∧ F.label n b.cls ∧
    (∀ p, F.classBit n p ∧ col p = .magenta ∨ ¬ F.classBit n p ∧ col p = maskColor (val n.subnetMask) p) ∧ t = F.render col b

/-- A network in a list: the base address, and the prefix length or, if there is none, the mask. -/
def Family.netText (n : Net A) : Str :=
  F.text n.baseAddr ++ ['/'] ++ (match n.cidrPrefix with | some p => F.num p | none => F.text n.subnetMask)

/-- A list of networks. -/
def Family.netLines (ns : List (Net A)) : Str := asLines (ns.map F.netText)

omit F in
/-- A shortest list of CIDR networks, in ascending order, that contain together exactly the addresses with numbers from `lo` to
`hi`. -/
def Shortest (lo hi : Nat) (ns : List (Net A)) : Prop :=
  (∀ n ∈ ns, ∃ p, IsCidr p n) ∧ ns.Pairwise Below ∧ Covers ns (fun x => lo ≤ val x ∧ val x ≤ hi) ∧
  ∀ other : List (Net A), (∀ n ∈ other, ∃ p, IsCidr p n) → Covers other (fun x => lo ≤ val x ∧ val x ≤ hi) → ns.length ≤ other.length

omit F in
/-- The networks with mask `m` that replace `n`: as many as have the size of `n` together, at least one, and numbered on from the
network in which the base address of `n` lies in this sense. -/
def Resized (n : Net A) (m : A) (ns : List (Net A)) : Prop :=
  (∀ o ∈ ns, WF o ∧ o.subnetMask = m) ∧
  ns.map networkNumber = List.range' (networkNumber n * 2 ^ hostBitCount n.subnetMask / 2 ^ hostBitCount m)
    (2 ^ (hostBitCount n.subnetMask - hostBitCount m))

end

/-! ## Outcomes -/

/-- How a run ends. -/
inductive Finish where
  | status (code : Nat)
  | panics
  | never
deriving DecidableEq

/-- The marks on standard output, the messages on standard error, and the end. -/
structure Outcome where
  out : List Mark
  messages : List ErrMsg
  ending : Finish
deriving DecidableEq

/-- The outcome of a command. -/
def Outcome.of (x : Cli Nat) : Outcome :=
  ⟨marks x.out, Ripcalc.messages x.out, match x.res with | .ok c => .status c | .panic _ => .panics | .diverge => .never⟩

/-- A message and nothing else. -/
def Outcome.complaint (m : ErrMsg) : Outcome := ⟨[], [m], .status 1⟩

/-- Output and nothing else. -/
def Outcome.shown (t : List Mark) : Outcome := ⟨t, [], .status 0⟩

section
variable {A : Type} [AddrSpec A] (F : Family A)

/-- Minimizing networks of one family. -/
def Family.Minimizes (ss : List Str) (r : Outcome) : Prop :=
  ss ≠ [] ∧ ∃ ns out, Pointwise (fun s n => ∃ a, F.network s a n) ss ns ∧ Minimized ns out ∧ r = .shown (plainly (F.netLines out))

/-- Ranges of addresses: those with the greatest address cause a panic, or, if it is everything and overflow is not checked, an
endless loop. -/
def Family.Deranges (pr : Profile) (ss : List Str) (r : Outcome) : Prop :=
  ∃ u v a b, ss = [u, v] ∧ F.address u a ∧ F.address v b ∧
    ((max (val a) (val b) = 2 ^ width A - 1 ∧
        r = ⟨[], [], if min (val a) (val b) = 0 ∧ pr = .wrapping then .never else .panics⟩) ∨
     (max (val a) (val b) ≠ 2 ^ width A - 1 ∧
        ∃ ns, Shortest (min (val a) (val b)) (max (val a) (val b)) ns ∧ r = .shown (plainly (F.netLines ns))))

/-- The headings of the resized networks, by the numbers of host bits before and after. -/
def resizeHeadings (num : Nat → Str) (before after count : Nat) : List Str :=
  if before < after then ["Supernet".toList] else if before = after then ["Same-sized net".toList]
  else (List.range count).map fun i => "Subnet ".toList ++ num (i + 1)

/-- Resizing a network. -/
def Family.Resizes (ss : List Str) (r : Outcome) : Prop :=
  ∃ s k a n m ns t ts, ss = [s, k] ∧ F.network s a n ∧ F.mask k m ∧ Resized n m ns ∧ F.Block n none t ∧
    Pointwise (fun n t => F.Block n none t) ns ts ∧
    r = .shown (paragraphs (("Original network".toList, t) ::
      (resizeHeadings F.num (hostBitCount n.subnetMask) (hostBitCount m) ns.length).zip ts))

/-- The heading of a network for hosts. -/
def splitHeading (num : Nat → Str) (c : Int) : Str := "Subnet for ".toList ++ num c.toNat ++ " hosts".toList

/-- The displays of the network and of the networks for the numbers of hosts. -/
def Family.SplitText (n : Net A) (hcs : List Int) (ns : List (Net A)) (text : List Mark) : Prop :=
  ∃ t ts, F.Block n none t ∧ Pointwise (fun n t => F.Block n none t) ns ts ∧
    text = paragraphs (("Subnet to split".toList, t) :: (hcs.map (splitHeading F.num)).zip ts)

/-- What comes after `text` if the network `n` is split into `ns`: the remark that they do not fit in, or the networks between the
last address used and the last address, unless this is the greatest, which causes a panic. -/
def Family.SplitRest (n : Net A) (ns : List (Net A)) (text : List Mark) (r : Outcome) : Prop :=
  ∃ used, (∃ m ∈ ns, Member m used) ∧ (∀ m ∈ ns, ∀ x, Member m x → val x ≤ val used) ∧
    ((¬ Member n used ∧ r = .shown (text ++ plainly "Network is too small\n".toList)) ∨
     (Member n used ∧ ∃ last, Member n last ∧ (∀ x, Member n x → val x ≤ val last) ∧
      ((val last = 2 ^ width A - 1 ∧ r = ⟨text ++ plainly "Unused networks:\n".toList, [], .panics⟩) ∨
       (val last ≠ 2 ^ width A - 1 ∧ ∃ us, Shortest (min (val used + 1) (val last)) (max (val used + 1) (val last)) us ∧
          r = .shown (text ++ plainly ("Unused networks:\n".toList ++ F.netLines us))))))

/-- Splitting a network: there are too few addresses, or the networks and the rest are shown. -/
def Family.Splits (ss : List Str) (r : Outcome) : Prop :=
  ∃ s counts hcs a n, ss = s :: counts ∧ counts ≠ [] ∧ Pointwise (fun s c => CountText s c ∧ 0 ≤ c) counts hcs ∧ F.network s a n ∧
    (((∀ ns, ¬ SplitInto n hcs ns) ∧ ∃ t, F.Block n none t ∧ r = ⟨paragraphs [("Subnet to split".toList, t)] ++
        plainly "Not enough addresses available for this split.\n".toList, [], .status 1⟩) ∨
     ∃ ns text, SplitInto n hcs ns ∧ F.SplitText n hcs ns text ∧ F.SplitRest n ns text r)

/-- A network as an argument of the main mode. -/
def Family.Shown (s : Str) (t : List Mark) : Prop := ∃ a n, F.network s a n ∧ F.Block n (some a) t

/-- A network whose addresses are listed. -/
def Family.Enumerated (s t : Str) : Prop := ∃ a n xs, F.network s a n ∧ Listing n xs ∧ t = asLines (xs.map F.text)

end

/-! ## Modes -/

/-- The colours in the order of the test, with their names. -/
def colourNames : List (Color × String) :=
  [(.black, "Black"), (.darkBlue, "DarkBlue"), (.darkGreen, "DarkGreen"), (.darkCyan, "DarkCyan"), (.darkRed, "DarkRed"),
   (.darkMagenta, "DarkMagenta"), (.darkYellow, "DarkYellow"), (.gray, "Gray"), (.darkGray, "DarkGray"), (.blue, "Blue"),
   (.green, "Green"), (.cyan, "Cyan"), (.red, "Red"), (.magenta, "Magenta"), (.yellow, "Yellow"), (.white, "White")]

/-- The words for the modes. -/
def modeWords : List Str :=
  ["-m", "--minimize", "-d", "--derange", "-s", "--split", "-r", "--resize", "-e", "--enumerate", "--color-test", "--help"].map String.toList

/-- What happens with arguments, the first of which is the name of the program, where the build checks for overflow or does not. -/
inductive Runs (pr : Profile) (T : Texts) : List Str → Outcome → Prop
  | none {args : List Str} : args.length < 2 → Runs pr T args (.complaint .usage)
  | help {prog : Str} {rest : List Str} : Runs pr T (prog :: "--help".toList :: rest) ⟨[], [.usage], .status 0⟩
  | colours {prog : Str} {rest : List Str} :
    Runs pr T (prog :: "--color-test".toList :: rest) (.shown (colourNames.map fun x => .piece x.1 (padRight 20 x.2.toList)))
  | minimize {prog mode : Str} {rest : List Str} {r : Outcome} : mode ∈ ["-m", "--minimize"].map String.toList →
    ((∃ m, MinimizeComplaint rest m ∧ r = .complaint m) ∨ T.ipv4.Minimizes rest r ∨ T.ipv6.Minimizes rest r) →
    Runs pr T (prog :: mode :: rest) r
  | derange {prog mode : Str} {rest : List Str} {r : Outcome} : mode ∈ ["-d", "--derange"].map String.toList →
    ((∃ m, DerangeComplaint rest m ∧ r = .complaint m) ∨ T.ipv4.Deranges pr rest r ∨ T.ipv6.Deranges pr rest r) →
    Runs pr T (prog :: mode :: rest) r
  | resize {prog mode : Str} {rest : List Str} {r : Outcome} : mode ∈ ["-r", "--resize"].map String.toList →
    ((∃ m, ResizeComplaint rest m ∧ r = .complaint m) ∨ T.ipv4.Resizes rest r ∨ T.ipv6.Resizes rest r) →
    Runs pr T (prog :: mode :: rest) r
  | split {prog mode : Str} {rest : List Str} {r : Outcome} : mode ∈ ["-s", "--split"].map String.toList →
    ((∃ m, SplitComplaint rest m ∧ r = .complaint m) ∨ T.ipv4.Splits rest r ∨ T.ipv6.Splits rest r) →
    Runs pr T (prog :: mode :: rest) r
  | enumerate {prog mode : Str} {rest : List Str} {ts : List Str} {ms : List ErrMsg} :
    mode ∈ ["-e", "--enumerate"].map String.toList → rest ≠ [] → EnumerateComplaints rest ms →
    Pointwise (fun s t => T.ipv4.Enumerated s t ∨ T.ipv6.Enumerated s t ∨ (∃ e, NetspecFault s e) ∧ t = []) rest ts →
    Runs pr T (prog :: mode :: rest) ⟨plainly ts.flatten, ms, .status (if ms = [] then 0 else 1)⟩
  | enumerateNone {prog mode : Str} : mode ∈ ["-e", "--enumerate"].map String.toList →
    Runs pr T [prog, mode] (.complaint .usage)
  | showBad {prog mode : Str} {rest : List Str} {m : ErrMsg} : mode ∉ modeWords → ShowComplaint (mode :: rest) m →
    Runs pr T (prog :: mode :: rest) (.complaint m)
  | shows {prog mode : Str} {rest : List Str} {ts : List (List Mark)} : mode ∉ modeWords →
    Pointwise (fun s t => T.ipv4.Shown s t ∨ T.ipv6.Shown s t) (mode :: rest) ts →
    Runs pr T (prog :: mode :: rest) (.shown (List.intercalate (plainly ['\n']) ts))

/-- What the program does. -/
def Program (pr : Profile) (args : List Str) (r : Outcome) : Prop := ∃ T : Texts, T.Right ∧ Runs pr T args r

/-- A process has this outcome, on a terminal: the terminal shows the marks of standard output in their colours, the messages are on
standard error, and a panic ends the process with status 101. -/
def Outcome.Seen (u : CharTable) (r : Outcome) (p : Process) : Prop :=
  (∃ t, Utf8 t p.stdout ∧
    Terminal.initial.run t = (Terminal.initial, (r.out.flatMap Mark.cells).map fun x => (x.1.map paletteNumber, x.2))) ∧
  Utf8 (r.messages.flatMap (ErrMsg.text u)) p.stderr ∧
  p.ending = (match r.ending with | .status c => .status c | .panics => .status 101 | .never => .never)

/-- A process has this outcome, without colours: every piece is on a line of its own. -/
def Outcome.Written (u : CharTable) (r : Outcome) (p : Process) : Prop :=
  Utf8 (r.out.flatMap Mark.line) p.stdout ∧ Utf8 (r.messages.flatMap (ErrMsg.text u)) p.stderr ∧
  p.ending = (match r.ending with | .status c => .status c | .panics => .status 101 | .never => .never)

end Ripcalc
