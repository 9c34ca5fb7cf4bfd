import Verif.Proofs.Marks
/-!
# Lemmas about the displays of networks, mark by mark
-/
set_option linter.unusedSectionVars false
namespace Ripcalc
open AddrSpec LawfulIpAddr
variable {rt : Runtime}

theorem shownInt_pos {c : Int} (h : 0 ≤ c) : showInt c = showNat 10 c.toNat := by
  obtain ⟨n, rfl⟩ := Int.eq_ofNat_of_zero_le h
  rfl

section generic
variable {A : Type} [IpAddr A] [AddrSpec A] [LawfulIpAddr A]

/-- What the display needs to know about the function that prints the binary column of an address. -/
structure ViewsBinary (F : Family A) (oba : A → Option A → Bool → Option Color → Cli Unit) (n : Net A) (col : Nat → Color) : Prop where
  masked : ∀ a, Views (oba a (some n.subnetMask) false none) () (F.digits (maskColor (val n.subnetMask)) a)
  network : Views (oba n.baseAddr (some n.subnetMask) true none) () (F.digits col n.baseAddr)
  plain : ∀ a, Views (oba a none false none) () (F.bytes .yellow a)
  mask : ∀ a, Views (oba a none false (some .red)) () (F.bytes .red a)

theorem views_line (hc : rt.colorsEnabled = true) (F : Family A) {x : Cli Unit} {g : List Mark} (ho : Views x () g) (l t : Str) :
    Views (do outputInitialColumns rt 11 F.column l t; x; Cli.println []) () (F.line l t g) :=
  .of_eq (.bind (views_cols hc 11 F.column l t) <| .bind ho (views_println [])) (by unfold Family.line; rw [List.append_assoc]; rfl)

theorem views_network (hc : rt.colorsEnabled = true) (F : Family A) (hnum : F.num = showNat 10) (htext : F.text = IpAddr.display)
    (oba : A → Option A → Bool → Option Color → Cli Unit) (outputClass : Str → Str → Cli Unit) (n : Net A) (col : Nat → Color)
    (ho : ViewsBinary F oba n col) (addr : Option A) (cls : Str)
    (hcls : Views (outputClass (bytesToBinary ((IpAddr.toBytes n.baseAddr).take 1)) (bytesToBinary ((IpAddr.toBytes n.subnetMask).take 1)))
      () (if cls = [] then [] else [.piece .magenta cls]))
    {hosts : Option (A × A)} {bc : Option A}
    (h1 : n.firstHostAddr rt.profile = .ok (hosts.map Prod.fst)) (h2 : n.lastHostAddr rt.profile = .ok (hosts.map Prod.snd))
    (h3 : n.broadcastAddr = .ok bc) :
    Views (outputNetwork rt 11 F.column oba outputClass n addr) ()
      (F.render col ⟨addr, n, n.ciscoWildcard, hosts, bc, n.hostCount, cls⟩) := by
  have hword : ∀ s : Str, Views (do writeInColor rt s (some labelColor) 0; Cli.println []) () ([.piece .white s] ++ plainly ['\n']) :=
    fun s => .of_eq (.bind (views_write hc _ _ _) (views_println [])) (by rw [padText_zero]; rfl)
  have hcount : Views (outputCountPart rt 11 F.column outputClass n) () (if 0 < n.hostCount then
      F.line "Hosts/Net:".toList (F.num n.hostCount.toNat) (if cls = [] then [] else [.piece .magenta cls])
      else [.piece .white "no hosts/net".toList]) := by
    rw [outputCountPart]
    by_cases h : n.hostCount > 0
    · rw [if_pos h, if_pos h, hnum, ← shownInt_pos (Int.le_of_lt h)]; exact views_line hc F hcls _ _
    · rw [if_neg h, if_neg h]; exact .of_eq (views_write hc _ _ _) (by rw [padText_zero]; rfl)
  have haddr : Views (match addr with
      | some a => outputAddressPart rt 11 F.column oba n a
      | none => pure () : Cli Unit) () (match addr with
      | some a =>
        F.line "Address:".toList (F.text a) (F.digits (maskColor (val n.subnetMask)) a) ++
        F.line "Netmask:".toList
          (F.text n.subnetMask ++ (match n.cidrPrefix with | some p => " = ".toList ++ F.num p | none => []))
          (F.bytes .red n.subnetMask) ++
        F.line "Wildcard:".toList (F.text n.ciscoWildcard) (F.bytes .yellow n.ciscoWildcard) ++ [.piece .white "=>".toList] ++ plainly ['\n']
      | none => []) := by
    cases addr with
    | none => exact views_pure _
    | some a =>
      simp only [outputAddressPart]
      refine .of_eq (.bind3 (views_line hc F (ho.masked a) _ _) <| .bind3 (views_line hc F (ho.mask _) _ _) <|
        .bind3 (views_line hc F (ho.plain _) _ _) (hword _)) ?_
      rw [htext, hnum]
      cases n.cidrPrefix <;> simp only [List.append_assoc, List.append_nil]
  have hnet : Views (outputNetworkPart rt 11 F.column oba n) () (F.line "Network:".toList
      (F.text n.baseAddr ++ (match n.cidrPrefix with | some p => ['/'] ++ F.num p | none => [])) (F.digits col n.baseAddr)) := by
    refine .of_eq (views_line hc F ho.network _ _) ?_
    rw [htext, hnum]
    cases n.cidrPrefix <;> simp only [List.append_assoc, List.append_nil]
  have hhosts : Views (do outputHostsPart rt 11 F.column oba n; Cli.println []) () (match (generalizing := false) hosts with
      | some (f, l) => F.line "HostMin:".toList (F.text f) (F.bytes .yellow f) ++ F.line "HostMax:".toList (F.text l) (F.bytes .yellow l)
      | none => [.piece .white "no hosts".toList] ++ plainly ['\n']) := by
    rw [outputHostsPart, h1, Cli.lift_ok_bind, htext]
    cases hosts with
    | none => exact hword _
    | some p =>
      obtain ⟨f, l⟩ := p
      simp only [Option.map_some, h2, Cli.lift_ok_bind, Exec.unwrap_some, bind_assoc]
      exact .bind3 (views_line hc F (ho.plain _) _ _) (views_line hc F (ho.plain _) _ _)
  have hbc : Views (do outputBroadcastPart rt 11 F.column oba n; Cli.println []) () (match (generalizing := false) bc with
      | some x => F.line "Broadcast:".toList (F.text x) (F.bytes .yellow x)
      | none => [.piece .white "no broadcast".toList] ++ plainly ['\n']) := by
    rw [outputBroadcastPart, h3, Cli.lift_ok_bind, htext]
    cases bc with
    | none => exact hword _
    | some x =>
      simp only [bind_assoc]
      exact views_line hc F (ho.plain _) _ _
  rw [outputNetwork.eq_def]
  refine .of_eq (.bind haddr <| .bind hnet <| .bind2 hhosts <| .bind2 hbc hcount) ?_
  unfold Family.render
  cases addr <;> cases hosts <;> cases bc <;> cases n.cidrPrefix <;> simp only [List.append_assoc]

/-- What the commands need to know about a family and the function that displays its networks. -/
structure Family.Displayed (F : Family A) (on : Net A → Option A → Cli Unit) : Prop where
  num : F.num = showNat 10
  text : F.text = IpAddr.display
  label : ∀ m t u, F.label m t → F.label m u → t = u
  block : ∀ m, WF m → ∀ addr, ∃ t, F.Block m addr t ∧ Views (on m addr) () t

theorem Family.Displayed.unique {F : Family A} {on : Net A → Option A → Cli Unit} (h : F.Displayed on) {n : Net A} {addr : Option A}
    {t u : List Mark} (ht : F.Block n addr t) (hu : F.Block n addr u) : t = u := by
  obtain ⟨b, col, h1, h2, h3, rfl⟩ := ht
  obtain ⟨b', col', h1', h2', h3', rfl⟩ := hu
  cases describes_unique h1 h1' (h.label n _ _ h2 h2')
  have : col = col' := by
    funext p
    rcases h3 p with ⟨k1, k2⟩ | ⟨k1, k2⟩ <;> rcases h3' p with ⟨k3, k4⟩ | ⟨k3, k4⟩
    · rw [k2, k4]
    · exact absurd k1 k3
    · exact absurd k3 k1
    · rw [k2, k4]
  rw [this]

theorem Family.Displayed.unique_all {F : Family A} {on : Net A → Option A → Cli Unit} (h : F.Displayed on) {ns : List (Net A)}
    {ts us : List (List Mark)} (ht : Pointwise (fun n t => F.Block n none t) ns ts) (hu : Pointwise (fun n t => F.Block n none t) ns us) :
    ts = us :=
  Pointwise.unique (R := fun n t => F.Block n none t) (fun _ _ _ h1 h2 => h.unique h1 h2) ht hu

theorem Family.Displayed.netText {F : Family A} {on : Net A → Option A → Cli Unit} (h : F.Displayed on) (n : Net A) :
    F.netText n = n.display := by
  unfold Family.netText Net.display
  rw [h.text, h.num]
  cases n.cidrPrefix <;> rfl

theorem Family.Displayed.netLines {F : Family A} {on : Net A → Option A → Cli Unit} (h : F.Displayed on) (ns : List (Net A)) :
    F.netLines ns = Ripcalc.netLines ns := by
  unfold Family.netLines Ripcalc.netLines asLines
  rw [List.flatMap_map]
  simp only [h.netText]

end generic

/-! ## The families -/

theorem views_class (hc : rt.colorsEnabled = true) (v m : Nat) :
    Views (outputIpv4Class rt (byteText 32 v 0) (byteText 32 m 0)) ()
      (if labelOf (v.testBit 31) (v.testBit 30) (v.testBit 29) (v.testBit 28)
        (m.testBit 31) (m.testBit 30) (m.testBit 29) (m.testBit 28) = [] then [] else
        [.piece .magenta (labelOf (v.testBit 31) (v.testBit 30) (v.testBit 29) (v.testBit 28)
        (m.testBit 31) (m.testBit 30) (m.testBit 29) (m.testBit 28))]) := by
  have hw : ∀ t : Str, t ≠ [] → Views (writeInColor rt t (some classBitsColor) 0) () (if t = [] then [] else [.piece .magenta t]) :=
    fun t h => .of_eq (views_write hc _ _ _) (by rw [padText_zero, if_neg h]; rfl)
  have hb : ∀ x : Nat, byteText 32 x 0 = bitChar x 31 :: bitChar x 30 :: bitChar x 29 :: bitChar x 28 ::
    [bitChar x 27, bitChar x 26, bitChar x 25, bitChar x 24] := fun x => rfl
  have h1 : ∀ x p, ('1' == bitChar x p) = x.testBit p := by intro x p; rw [bitChar]; split <;> simp_all
  have h0 : ∀ x p, ('0' == bitChar x p) = !x.testBit p := by intro x p; rw [bitChar]; split <;> simp_all
  rw [hb, hb, outputIpv4Class, labelOf]
  simp only [startsWith, List.isPrefixOf_cons_cons, List.isPrefixOf_nil_left, h1, h0, Bool.and_true]
  generalize v.testBit 31 = v0
  generalize v.testBit 30 = v1
  generalize v.testBit 29 = v2
  generalize v.testBit 28 = v3
  generalize m.testBit 31 = m0
  generalize m.testBit 30 = m1
  generalize m.testBit 29 = m2
  generalize m.testBit 28 = m3
  cases v0 <;> cases v1 <;> cases v2 <;> cases v3 <;> cases m0 <;> cases m1 <;> cases m2 <;> cases m3 <;>
    first | exact hw _ (by decide) | exact views_pure _

/-- The texts that the model shows. -/
def shownTexts : Texts := ⟨IpAddr.display, IpAddr.display, showNat 10⟩

theorem displayed4 (rt : Runtime) (hc : rt.colorsEnabled = true) : shownTexts.ipv4.Displayed (outputIpv4Network rt) := by
  refine ⟨rfl, rfl, fun m t u h h' => classLabel_unique h h', fun n hn addr => ?_⟩
  obtain ⟨hosts, bc, hd, h1, h2, h3⟩ := exists_block rt.profile n hn addr (labelOf ((val n.baseAddr).testBit 31)
    ((val n.baseAddr).testBit 30) ((val n.baseAddr).testBit 29) ((val n.baseAddr).testBit 28) ((val n.subnetMask).testBit 31)
    ((val n.subnetMask).testBit 30) ((val n.subnetMask).testBit 29) ((val n.subnetMask).testBit 28))
  have hb : ViewsBinary shownTexts.ipv4 (outputBinaryIpv4Address rt) n
      (columnColor4 (val n.baseAddr) (some (val n.subnetMask)) true none) := by
    refine ⟨fun a => .of_eq (views_digits4 hc a _ false) ?_, views_digits4 hc _ _ true, fun a => views_whole4 hc a false none,
      fun a => views_whole4 hc a false (some .red)⟩
    unfold Family.digits
    congr 1
  have h := views_network hc shownTexts.ipv4 rfl rfl _ (outputIpv4Class rt) n _ hb addr _
    (by rw [topBits_eq, topBits_eq]; exact views_class hc _ _) h1 h2 h3
  refine ⟨_, ⟨_, _, hd, labelOf_spec _ _, fun p => ?_, rfl⟩, h⟩
  by_cases hp : columnColor4 (val n.baseAddr) (some (val n.subnetMask)) true none p = .magenta
  · exact .inl ⟨(magenta_exact _ _ p).mp hp, hp⟩
  · exact .inr ⟨fun h => hp ((magenta_exact _ _ p).mpr h), not_magenta _ _ p hp⟩

theorem displayed6 (rt : Runtime) (hc : rt.colorsEnabled = true) : shownTexts.ipv6.Displayed (outputIpv6Network rt) := by
  refine ⟨rfl, rfl, fun m t u h h' => h.trans h'.symm, fun n hn addr => ?_⟩
  obtain ⟨hosts, bc, hd, h1, h2, h3⟩ := exists_block rt.profile n hn addr []
  have hb : ViewsBinary shownTexts.ipv6 (outputBinaryIpv6Address rt) n (maskColor (val n.subnetMask)) :=
    ⟨fun a => views_digits6 hc a _ false, views_digits6 hc _ _ true, fun a => views_whole6 hc a false none,
      fun a => views_whole6 hc a false (some .red)⟩
  have h := views_network hc shownTexts.ipv6 rfl rfl _ (fun _ _ => pure ()) n _ hb addr [] (views_pure ()) h1 h2 h3
  exact ⟨_, ⟨_, _, hd, rfl, fun p => .inr ⟨fun h => h, rfl⟩, rfl⟩, h⟩

end Ripcalc
