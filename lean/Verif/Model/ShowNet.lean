import Verif.Model.Output
/-!
# Model of `/repo/src/cmds/show_net.rs`
-/
namespace Ripcalc

/-- `LABEL_COLOR` … `ADDR_SEP_COLOR`, `src/cmds/show_net.rs:13-19`. -/
def labelColor : Color := .white
@[inherit_doc labelColor] def ipAddressColor : Color := .blue
@[inherit_doc labelColor] def hostBitsColor : Color := .yellow
@[inherit_doc labelColor] def netBitsColor : Color := .green
@[inherit_doc labelColor] def maskBitsColor : Color := .red
@[inherit_doc labelColor] def classBitsColor : Color := .magenta
@[inherit_doc labelColor] def addrSepColor : Color := .white

/-- `s.starts_with(p)`. -/
def startsWith (p s : Str) : Bool := p.isPrefixOf s

/-- `output_ipv4_class`, `src/cmds/show_net.rs:127-141`. -/
def outputIpv4Class (rt : Runtime) (topBits topMaskBits : Str) : Cli Unit :=
  if startsWith ['0'] topBits && startsWith ['1'] topMaskBits then
    writeInColor rt "Class A".toList (some classBitsColor) 0
  else if startsWith ['1', '0'] topBits && startsWith ['1', '1'] topMaskBits then
    writeInColor rt "Class B".toList (some classBitsColor) 0
  else if startsWith ['1', '1', '0'] topBits && startsWith ['1', '1', '1'] topMaskBits then
    writeInColor rt "Class C".toList (some classBitsColor) 0
  else if startsWith ['1', '1', '1', '1'] topMaskBits then
    if startsWith ['1', '1', '1', '0'] topBits then
      writeInColor rt "Class D (multicast)".toList (some classBitsColor) 0
    else if startsWith ['1', '1', '1', '1'] topBits then
      writeInColor rt "Class E (reserved)".toList (some classBitsColor) 0
    else pure ()
  else pure ()

/-- The class colouring decision, `src/cmds/show_net.rs:172-185`: the new value of `color_class`. -/
def checkColorClass (bitvec maskBitvec : Str) : Exec Bool := do
  if (← Exec.index maskBitvec 0) = '0' then pure false
  else if (← Exec.index bitvec 0) = '1' ∧ (← Exec.index maskBitvec 1) = '0' then pure false
  else if (← Exec.index bitvec 1) = '1' ∧ (← Exec.index maskBitvec 2) = '0' then pure false
  else if (← Exec.index bitvec 2) = '1' ∧ (← Exec.index maskBitvec 3) = '0' then pure false
  else pure true

/-- `class_color` for one bit, `src/cmds/show_net.rs:200-216`. -/
def classColor (isFirst colorClass : Bool) (bit : Nat) (bits : Str) : Exec (Option Color) := do
  if isFirst && colorClass then
    if bit = 0 then pure (some classBitsColor)
    else if bit = 1 ∧ (← Exec.index bits 0) = '1' then pure (some classBitsColor)
    else if bit = 2 ∧ startsWith ['1', '1'] bits then pure (some classBitsColor)
    else if bit = 3 ∧ startsWith ['1', '1', '1'] bits then pure (some classBitsColor)
    else pure none
  else pure none

/-- The per-bit loop of `output_binary_ipv4_address`, `src/cmds/show_net.rs:188-219`; the list is the remaining bit
indices. -/
def outputBits4 (rt : Runtime) (isFirst colorClass : Bool) (bits maskBits : Str) : List Nat → Cli Unit
  | [] => pure ()
  | bit :: rest => do
    let mb ← (Exec.unwrap maskBits[bit]? : Exec Char)
    let color := if mb = '1' then netBitsColor else hostBitsColor
    let cls ← (classColor isFirst colorClass bit bits : Exec (Option Color))
    let c ← (Exec.index bits bit : Exec Char)
    writeInColor rt [c] (cls.or (some color)) 0
    outputBits4 rt isFirst colorClass bits maskBits rest

/-- The body of the byte loop of `output_binary_ipv4_address` without the separator, `src/cmds/show_net.rs:153-220`: loop
index, byte, `color_class`; the result is the new `color_class`. -/
def outputByte4 (rt : Runtime) (maskBytes : Option (List Byte)) (override : Option Color) (i : Nat) (b : Byte)
    (colorClass : Bool) : Cli Bool := do
  let m ← (match maskBytes with
    | none => pure none
    | some mbs => some <$> Exec.index mbs i : Exec (Option Byte))
  let bits := bytesToBinary [b]
  let maskBits := m.map (fun mb => bytesToBinary [mb])
  match override, maskBits with
  | some _, _ => do
    writeInColor rt bits override 0
    pure colorClass
  | none, none => do
    writeInColor rt bits (some hostBitsColor) 0
    pure colorClass
  | none, some mb => do
    let colorClass ← (if i = 0 ∧ colorClass then checkColorClass bits mb else pure colorClass : Exec Bool)
    outputBits4 rt (decide (i = 0)) colorClass bits mb (List.range 8)
    pure colorClass

/-- The byte loop of `output_binary_ipv4_address`, `src/cmds/show_net.rs:152-226`: loop index, `addr_bytes.len()`,
remaining bytes, `color_class`. -/
def outputBytes4 (rt : Runtime) (maskBytes : Option (List Byte)) (override : Option Color) (len : Nat) :
    Nat → List Byte → Bool → Cli Unit
  | _, [], _ => pure ()
  | i, b :: rest, colorClass => do
    let colorClass ← outputByte4 rt maskBytes override i b colorClass
    if i < len - 1 then writeInColor rt ['.'] (some addrSepColor) 0
    outputBytes4 rt maskBytes override len (i + 1) rest colorClass

/-- `output_binary_ipv4_address`, `src/cmds/show_net.rs:143-227`. -/
def outputBinaryIpv4Address (rt : Runtime) (addr : V4) (subnetMask : Option V4) (colorClass : Bool)
    (override : Option Color) : Cli Unit :=
  let addrBytes := IpAddr.toBytes addr
  let maskBytes := subnetMask.map IpAddr.toBytes
  outputBytes4 rt maskBytes override addrBytes.length 0 addrBytes colorClass

/-- The per-bit loop of `output_binary_ipv6_address`, `src/cmds/show_net.rs:255-268`. -/
def outputBits6 (rt : Runtime) (bits maskBits : Str) : List Nat → Cli Unit
  | [] => pure ()
  | bit :: rest => do
    let mb ← (Exec.index maskBits bit : Exec Char)
    let color := if mb = '1' then netBitsColor else hostBitsColor
    let c ← (Exec.index bits bit : Exec Char)
    writeInColor rt [c] (some color) 0
    outputBits6 rt bits maskBits rest

/-- The body of the byte loop of `output_binary_ipv6_address` without the separator, `src/cmds/show_net.rs:239-269`. -/
def outputByte6 (rt : Runtime) (maskBytes : Option (List Byte)) (override : Option Color) (i : Nat) (b : Byte) :
    Cli Unit := do
  let m ← (match maskBytes with
    | none => pure none
    | some mbs => some <$> Exec.index mbs i : Exec (Option Byte))
  let bits := bytesToBinary [b]
  let maskBits := m.map (fun mb => bytesToBinary [mb])
  match override, maskBits with
  | some _, _ => writeInColor rt bits override 0
  | none, none => writeInColor rt bits (some hostBitsColor) 0
  | none, some mb => outputBits6 rt bits mb (List.range 8)

/-- The byte loop of `output_binary_ipv6_address`, `src/cmds/show_net.rs:238-275`. -/
def outputBytes6 (rt : Runtime) (maskBytes : Option (List Byte)) (override : Option Color) (len : Nat) :
    Nat → List Byte → Cli Unit
  | _, [] => pure ()
  | i, b :: rest => do
    outputByte6 rt maskBytes override i b
    if i < len - 1 ∧ i % 2 = 1 then writeInColor rt [':'] (some addrSepColor) 0
    outputBytes6 rt maskBytes override len (i + 1) rest

/-- `output_binary_ipv6_address`, `src/cmds/show_net.rs:229-276`. -/
def outputBinaryIpv6Address (rt : Runtime) (addr : V6) (subnetMask : Option V6) (_colorClass : Bool)
    (override : Option Color) : Cli Unit :=
  let addrBytes := IpAddr.toBytes addr
  let maskBytes := subnetMask.map IpAddr.toBytes
  outputBytes6 rt maskBytes override addrBytes.length 0 addrBytes

section
variable {A : Type} [IpAddr A]

/-- `output_initial_columns`, `src/cmds/show_net.rs:58-61`. -/
def outputInitialColumns (rt : Runtime) (labelWidth addressWidth : Int) (label address : Str) : Cli Unit := do
  writeInColor rt label (some labelColor) labelWidth
  writeInColor rt address (some ipAddressColor) addressWidth

/-- The part of `output_network` for a given address, `src/cmds/show_net.rs:63-83`. -/
def outputAddressPart (rt : Runtime) (labelWidth addressWidth : Int)
    (oba : A → Option A → Bool → Option Color → Cli Unit) (net : Net A) (a : A) : Cli Unit := do
  outputInitialColumns rt labelWidth addressWidth "Address:".toList (IpAddr.display a)
  oba a (some net.subnetMask) false none
  Cli.println []
  let netmaskAddrStr := match net.cidrPrefix with
    | some pfx => IpAddr.display net.subnetMask ++ " = ".toList ++ showNat 10 pfx
    | none => IpAddr.display net.subnetMask
  outputInitialColumns rt labelWidth addressWidth "Netmask:".toList netmaskAddrStr
  oba net.subnetMask none false (some maskBitsColor)
  Cli.println []
  outputInitialColumns rt labelWidth addressWidth "Wildcard:".toList (IpAddr.display net.ciscoWildcard)
  oba net.ciscoWildcard none false none
  Cli.println []
  writeInColor rt "=>".toList (some labelColor) 0
  Cli.println []

/-- The network line of `output_network`, `src/cmds/show_net.rs:85-92`. -/
def outputNetworkPart (rt : Runtime) (labelWidth addressWidth : Int)
    (oba : A → Option A → Bool → Option Color → Cli Unit) (net : Net A) : Cli Unit := do
  let netStr := match net.cidrPrefix with
    | some pfx => IpAddr.display net.baseAddr ++ ['/'] ++ showNat 10 pfx
    | none => IpAddr.display net.baseAddr
  outputInitialColumns rt labelWidth addressWidth "Network:".toList netStr
  oba net.baseAddr (some net.subnetMask) true none
  Cli.println []

/-- The host lines of `output_network`, `src/cmds/show_net.rs:94-103`. -/
def outputHostsPart (rt : Runtime) (labelWidth addressWidth : Int)
    (oba : A → Option A → Bool → Option Color → Cli Unit) (net : Net A) : Cli Unit := do
  match ← (net.firstHostAddr rt.profile : Exec (Option A)) with
  | some fha => do
    outputInitialColumns rt labelWidth addressWidth "HostMin:".toList (IpAddr.display fha)
    oba fha none false none
    Cli.println []
    let lha? ← (net.lastHostAddr rt.profile : Exec (Option A))
    let lha ← (Exec.unwrap lha? : Exec A)
    outputInitialColumns rt labelWidth addressWidth "HostMax:".toList (IpAddr.display lha)
    oba lha none false none
  | none => writeInColor rt "no hosts".toList (some labelColor) 0

/-- The broadcast line of `output_network`, `src/cmds/show_net.rs:106-111`. -/
def outputBroadcastPart (rt : Runtime) (labelWidth addressWidth : Int)
    (oba : A → Option A → Bool → Option Color → Cli Unit) (net : Net A) : Cli Unit := do
  match ← (net.broadcastAddr : Exec (Option A)) with
  | some bc => do
    outputInitialColumns rt labelWidth addressWidth "Broadcast:".toList (IpAddr.display bc)
    oba bc none false none
  | none => writeInColor rt "no broadcast".toList (some labelColor) 0

/-- The last line of `output_network`, `src/cmds/show_net.rs:114-124`.  The feature `num-bigint` is on (a default
feature); slicing `[0..1]` is `take 1` because addresses have at least one byte. -/
def outputCountPart (rt : Runtime) (labelWidth addressWidth : Int) (outputClass : Str → Str → Cli Unit)
    (net : Net A) : Cli Unit :=
  if net.hostCount > 0 then do
    outputInitialColumns rt labelWidth addressWidth "Hosts/Net:".toList (showInt net.hostCount)
    let topBits := bytesToBinary ((IpAddr.toBytes net.baseAddr).take 1)
    let topMaskBits := bytesToBinary ((IpAddr.toBytes net.subnetMask).take 1)
    outputClass topBits topMaskBits
    Cli.println []
  else writeInColor rt "no hosts/net".toList (some labelColor) 0

/-- `output_network`, `src/cmds/show_net.rs:50-125`. -/
def outputNetwork (rt : Runtime) (labelWidth addressWidth : Int)
    (oba : A → Option A → Bool → Option Color → Cli Unit) (outputClass : Str → Str → Cli Unit)
    (net : Net A) (addr : Option A) : Cli Unit := do
  (match addr with
    | some a => outputAddressPart rt labelWidth addressWidth oba net a
    | none => pure () : Cli Unit)
  outputNetworkPart rt labelWidth addressWidth oba net
  outputHostsPart rt labelWidth addressWidth oba net
  Cli.println []
  outputBroadcastPart rt labelWidth addressWidth oba net
  Cli.println []
  outputCountPart rt labelWidth addressWidth outputClass net

end

/-- `output_ipv4_network`, `src/cmds/show_net.rs:279-288`. -/
def outputIpv4Network (rt : Runtime) (net : Net V4) (addr : Option V4) : Cli Unit :=
  outputNetwork rt 11 21 (outputBinaryIpv4Address rt) (outputIpv4Class rt) net addr

/-- `output_ipv6_network`, `src/cmds/show_net.rs:291-300`. -/
def outputIpv6Network (rt : Runtime) (net : Net V6) (addr : Option V6) : Cli Unit :=
  outputNetwork rt 11 46 (outputBinaryIpv6Address rt) (fun _ _ => pure ()) net addr

/-- The parsing loop of `show_net`, `src/cmds/show_net.rs:23-32`; `Except.error` is the early return. -/
def showParseLoop : List Str → Exec (Except NetspecErr (List NetworkSpec))
  | [] => pure (.ok [])
  | arg :: rest => do
    match ← parseNetspec arg with
    | .error e => pure (.error e)
    | .ok spec => do
      match ← showParseLoop rest with
      | .error e => pure (.error e)
      | .ok specs => pure (.ok (spec :: specs))

/-- The printing loop of `show_net`, `src/cmds/show_net.rs:34-45`. -/
def showPrintLoop (rt : Runtime) : Bool → List NetworkSpec → Cli Unit
  | _, [] => pure ()
  | isFirst, spec :: rest => do
    if !isFirst then Cli.println []
    match spec with
    | .ipv4 a n => outputIpv4Network rt n (some a)
    | .ipv6 a n => outputIpv6Network rt n (some a)
    showPrintLoop rt false rest

/-- `show_net`, `src/cmds/show_net.rs:22-48`. -/
def showNet (rt : Runtime) (args : List Str) : Cli Nat := do
  match ← (showParseLoop (args.drop 1) : Exec _) with
  | .error e => do
    Cli.eprint (.showParse e)
    pure 1
  | .ok specs => do
    showPrintLoop rt true specs
    pure 0

end Ripcalc
