import Verif.Spec.Program
import Verif.Props.Columns
/-!
# C59: the binary column of the display
-/
namespace Ripcalc
open AddrSpec LawfulIpAddr

/-- What may follow the address in the second column: nothing, or the length of the prefix. -/
def AddressSuffix (rest : Str) : Prop :=
  rest = [] ∨ ∃ p t, CanonicalNumeral 10 t p ∧ (rest = '/' :: t ∨ rest = " = ".toList ++ t)

/-- A line with an address: a label, the address, perhaps the length of the prefix, and the bits of the same address. -/
def AddressRow (aw : Nat) (text : A → Str → Prop) (binary : A → Str) (line : Str) : Prop :=
  ∃ label a t rest, label ∈ columnLabels ∧ label ≠ "Hosts/Net:".toList ∧ text a t ∧ AddressSuffix rest ∧
    line = padRight 11 label ++ padRight aw (t ++ rest) ++ binary a

section generic
variable {A : Type} [IpAddr A] [AddrSpec A] [LawfulIpAddr A] {aw tw : Nat} {show_ binary : A → Str}

theorem Layout.rows (L : Layout A aw tw show_ binary) {P : Str → Prop} (hrem : ∀ r ∈ remarks, P r)
    (hrow : ∀ label ∈ columnLabels, label ≠ "Hosts/Net:".toList → ∀ (x : A) (rest : Str), AddressSuffix rest →
      P (padRight 11 label ++ padRight aw (show_ x ++ rest) ++ binary x))
    (hcnt : ∀ rest, P (padRight 11 "Hosts/Net:".toList ++ rest)) {n : Net A} (hn : WF n) {addr : Option A} {b : BlockText A}
    (hd : b.Describes n addr) (hcls : b.cls = [] ∨ b.cls ∈ classTable.map Prod.fst) : AllLines P (b.render aw show_ binary) := by
  have hnet := hd.network
  have hrow' : ∀ label ∈ columnLabels, label ≠ "Hosts/Net:".toList → ∀ x : A, P (padRight 11 label ++ padRight aw (show_ x) ++ binary x) := by
    intro label h1 h2 x
    have := hrow label h1 h2 x [] (.inl rfl)
    rwa [List.append_nil] at this
  have hclsp : PlainText b.cls := by
    rcases hcls with h | h
    · rw [h]; intro c hc; cases hc
    · have tab : ∀ t ∈ classTable.map Prod.fst, PlainText t := by decide +kernel
      exact tab _ h
  have hcount : AllLines P (countLine aw b.hostCount b.cls) := by
    rw [countLine]
    split
    · rename_i hpos
      rw [← List.append_nil (blockLine ..)]
      obtain ⟨v, hv⟩ := Int.eq_ofNat_of_zero_le (show 0 ≤ b.hostCount by omega)
      have hs : showInt b.hostCount = showNat 10 v := by rw [hv]; rfl
      rw [hs]
      exact allLines_block (by decide) (plain_showNat _) hclsp (by rw [List.append_assoc]; exact hcnt _) (allLines_nil _)
    · intro line h
      rw [isLine_open (by decide) h]
      exact hrem _ (by decide)
  have hbc : AllLines P (broadcastLine aw show_ binary b.broadcast ++ countLine aw b.hostCount b.cls) := by
    cases b.broadcast with
    | none => exact allLines_remark (r := "no broadcast".toList) (by decide) (hrem _ (by decide)) hcount
    | some x => exact allLines_block (by decide) (L.plain x) (L.binPlain x) (hrow' _ (by decide) (by decide) x) hcount
  have hhosts : AllLines P (hostLines aw show_ binary b.hosts ++ (broadcastLine aw show_ binary b.broadcast ++
      countLine aw b.hostCount b.cls)) := by
    rcases b.hosts with _ | ⟨f, l⟩
    · exact allLines_remark (r := "no hosts".toList) (by decide) (hrem _ (by decide)) hbc
    · have h2 := allLines_block (P := P) (aw := aw) (l := "HostMax:".toList) (by decide)
        (L.plain l) (L.binPlain l) (hrow' _ (by decide) (by decide) l) hbc
      have h1 := allLines_block (P := P) (aw := aw) (l := "HostMin:".toList) (by decide)
        (L.plain f) (L.binPlain f) (hrow' _ (by decide) (by decide) f) h2
      rw [← List.append_assoc] at h1
      exact h1
  have hnetw : AllLines P (networkLine aw show_ binary n ++
      (hostLines aw show_ binary b.hosts ++ (broadcastLine aw show_ binary b.broadcast ++ countLine aw b.hostCount b.cls))) := by
    refine allLines_block (by decide) (L.netText hn).2.2.1 (L.binPlain _) ?_ hhosts
    have h := hrow "Network:".toList (by decide) (by decide) n.baseAddr
    split
    · rename_i p _
      have := h ('/' :: showNat 10 p) (.inr ⟨p, _, showNat_canonical (by decide) (by decide) p, .inl rfl⟩)
      rw [List.append_assoc (show_ _)]
      exact this
    · have := h [] (.inl rfl)
      rwa [List.append_nil] at this
  rw [BlockText.render, hnet, List.append_assoc, List.append_assoc, List.append_assoc]
  cases b.address with
  | none => exact hnetw
  | some a =>
    have h3 := allLines_remark (P := P) (r := "=>".toList) (by decide) (hrem _ (by decide)) hnetw
    have h2 := allLines_block (P := P) (aw := aw) (l := "Wildcard:".toList) (by decide)
      (L.plain b.wildcard) (L.binPlain b.wildcard) (hrow' _ (by decide) (by decide) _) h3
    have h1 := allLines_block (P := P) (aw := aw) (l := "Netmask:".toList) (t := Ripcalc.maskText show_ n) (by decide)
      (L.maskText hn).2.2 (L.binPlain n.subnetMask) (by
        have h := hrow "Netmask:".toList (by decide) (by decide) n.subnetMask
        rw [Ripcalc.maskText]
        split
        · rename_i p _
          have := h (" = ".toList ++ showNat 10 p) (.inr ⟨p, _, showNat_canonical (by decide) (by decide) p, .inr rfl⟩)
          rw [List.append_assoc (show_ _)]
          exact this
        · have := h [] (.inl rfl)
          rwa [List.append_nil] at this) h2
    have h0 := allLines_block (P := P) (aw := aw) (l := "Address:".toList) (by decide)
      (L.plain a) (L.binPlain a) (hrow' _ (by decide) (by decide) _) h1
    have he : "=>\n".toList = "=>".toList ++ ['\n'] := rfl
    rw [addressLines, he, List.append_assoc, List.append_assoc, List.append_assoc]
    exact h0

end generic

/-- In the display of an IPv4 network every line is a remark, the line with the number of hosts, or shows an address and the bits of the
same address. -/
theorem C59_rows_v4 (rt : Runtime) (hc : rt.colorsEnabled = true) (n : Net V4) (hn : WF n) (addr : Option V4) (line : Str)
    (hl : IsLine (visible (outputIpv4Network rt n addr).out) line) :
    line ∈ remarks ∨ "Hosts/Net:".toList <+: line ∨ AddressRow 21 V4Text (fun a : V4 => binaryText 32 8 '.' (val a)) line := by
  obtain ⟨t, ⟨b, hd, hk, rfl⟩, -, h2, -⟩ := C62_block_v4 rt hc n hn addr
  rw [h2] at hl
  exact layout4.rows (P := fun line => line ∈ remarks ∨ "Hosts/Net:".toList <+: line ∨
      AddressRow 21 V4Text (fun a : V4 => binaryText 32 8 '.' (val a)) line)
    (fun r hr => .inl hr) (fun label h1 h2 x rest hr => .inr (.inr ⟨label, x, _, rest, h1, h2, C08_ipv4_shape x, hr, rfl⟩))
    (fun rest => .inr (.inl ⟨[' '] ++ rest, by rw [← List.append_assoc]; rfl⟩)) hn hd hk.2.2 line hl

/-- The same for IPv6. -/
theorem C59_rows_v6 (rt : Runtime) (hc : rt.colorsEnabled = true) (n : Net V6) (hn : WF n) (addr : Option V6) (line : Str)
    (hl : IsLine (visible (outputIpv6Network rt n addr).out) line) :
    line ∈ remarks ∨ "Hosts/Net:".toList <+: line ∨ AddressRow 46 V6Text (fun a : V6 => binaryText 128 16 ':' (val a)) line := by
  obtain ⟨t, ⟨b, hd, hk, rfl⟩, -, h2, -⟩ := C62_block_v6 rt hc n hn addr
  rw [h2] at hl
  exact layout6.rows (P := fun line => line ∈ remarks ∨ "Hosts/Net:".toList <+: line ∨
      AddressRow 46 V6Text (fun a : V6 => binaryText 128 16 ':' (val a)) line)
    (fun r hr => .inl hr) (fun label h1 h2 x rest hr => .inr (.inr ⟨label, x, _, rest, h1, h2, C12_ipv6_display x, hr, rfl⟩))
    (fun rest => .inr (.inl ⟨[' '] ++ rest, by rw [← List.append_assoc]; rfl⟩)) hn hd (.inl hk) line hl

/-- No address line is a remark or the line with the number of hosts. -/
theorem addressRow_other {aw : Nat} {text : A → Str → Prop} {binary : A → Str} {line : Str} (h : AddressRow aw text binary line) :
    line ∉ remarks ∧ ¬ "Hosts/Net:".toList <+: line := by
  obtain ⟨label, a, t, rest, h1, h2, -, -, rfl⟩ := h
  have tab : ∀ label ∈ columnLabels, label ≠ "Hosts/Net:".toList → (padRight 11 label).length = 11 ∧
      (∀ r ∈ remarks, r.take 11 ≠ padRight 11 label) ∧ (padRight 11 label).take 10 ≠ "Hosts/Net:".toList := by decide +kernel
  obtain ⟨k1, k2, k3⟩ := tab label h1 h2
  rw [List.append_assoc]
  constructor
  · intro h
    refine k2 _ h ?_
    rw [List.take_append_of_le_length (by omega), List.take_of_length_le (by omega)]
  · rintro ⟨u, hu⟩
    apply k3
    have := congrArg (List.take 10) hu
    rw [List.take_append_of_le_length (by decide), List.take_append_of_le_length (by omega)] at this
    exact this.symm

/-- A line that shows 10.1.2.0/24. -/
example : AddressRow 21 V4Text (fun a : V4 => binaryText 32 8 '.' (val a))
    "Network:   10.1.2.0/24          00001010.00000001.00000010.00000000".toList :=
  ⟨"Network:".toList, ⟨0x0A010200#32⟩, "10.1.2.0".toList, "/24".toList, by decide, by decide,
    (show "10.1.2.0".toList = IpAddr.display (⟨0x0A010200#32⟩ : V4) by decide +kernel) ▸ C08_ipv4_shape _,
    .inr ⟨24, "24".toList, showNat_canonical (by decide) (by decide) 24, .inl rfl⟩, by decide +kernel⟩

end Ripcalc
