import Verif.Proofs.Show
import Verif.Props.Resize
import Verif.Props.Parse
import Verif.Props.Minimize
/-!
# Properties of the network display
-/
set_option linter.unusedSectionVars false
namespace Ripcalc
open AddrSpec LawfulIpAddr

section generic
variable {A : Type} [IpAddr A] [AddrSpec A] [LawfulIpAddr A]

/-- The facts of a network, and that the functions that display it obtain them. -/
theorem exists_block (pr : Profile) (n : Net A) (hn : WF n) (addr : Option A) (cls : Str) :
    ∃ hosts bc, (BlockText.mk addr n n.ciscoWildcard hosts bc n.hostCount cls).Describes n addr ∧
      n.firstHostAddr pr = .ok (hosts.map Prod.fst) ∧ n.lastHostAddr pr = .ok (hosts.map Prod.snd) ∧ n.broadcastAddr = .ok bc := by
  have hf := firstHostAddr_spec pr hn.hz
  have hl := lastHostAddr_spec pr hn.hz
  have hbit := hostBits_eq n
  have hbase := base_eq_wval hn.hz
  have hw : ∀ i, i < width A → (val n.ciscoWildcard).testBit i = !(val n.subnetMask).testBit i := by
    intro i hi
    rw [Net.ciscoWildcard, val_negate, Nat.sub_sub, Nat.add_comm 1, Nat.testBit_two_pow_sub_succ (val_lt _)]
    simp [hi]
  have hcount : n.hostCount = 2 ^ hostBitCount n.subnetMask - 2 := by
    rw [(C24_address_count n hn).2, addressCount_eq, hbit]; push_cast; rfl
  obtain ⟨⟨bc, hb1, hb2, hb3⟩, -⟩ := C25_broadcast n hn
  have hmem : ∀ a, n.contains a = true ↔ Member n a := fun a => contains_iff hn.hz a
  simp only [hmem] at hb2 hb3
  rcases Nat.lt_or_ge (hostBits n) 2 with h | h
  · exact ⟨none, bc, ⟨rfl, rfl, hw, by simp; omega, by simp, by simp, hb3, hb2, hcount⟩, hf.1 h, hl.1 h, hb1⟩
  · obtain ⟨f, f1, f2⟩ := hf.2 h
    obtain ⟨l, l1, l2⟩ := hl.2 h
    have h4 : 2 ^ 2 ≤ 2 ^ hostBits n := Nat.pow_le_pow_right (by omega) h
    refine ⟨some (f, l), bc, ⟨rfl, rfl, hw, by simp; omega, ?_, ?_, hb3, hb2, hcount⟩, f1, l1, hb1⟩
    · rintro f' l' e
      obtain ⟨rfl, rfl⟩ := Prod.mk.inj (Option.some.inj e)
      refine ⟨(member_iff_wval n f).mpr ⟨1, by omega, f2⟩, ?_, ?_⟩
      · intro e
        have := (wval_lt_host n (netNum n) (h := 0) (h' := 1) (by omega) (by omega)).mpr (by omega)
        rw [← hbase, ← f2, e] at this
        omega
      · intro a ha hne
        obtain ⟨x, hx, e⟩ := (member_iff_wval n a).mp ha
        rw [f2, e, wval_le_host n _ (by omega) hx]
        rcases Nat.eq_zero_or_pos x with rfl | hpos
        · exact absurd (val_inj _ _ (e.trans hbase.symm)) hne
        · omega
    · rintro f' l' e
      obtain ⟨rfl, rfl⟩ := Prod.mk.inj (Option.some.inj e)
      refine ⟨(member_iff_wval n l).mpr ⟨_, by omega, l2⟩, ?_, ?_⟩
      · refine ⟨_, member_addrOf_wval n (h := 2 ^ hostBits n - 1) (by omega), ?_⟩
        rw [l2, val_addrOf (wval_lt _ _ _), wval_lt_host n _ (by omega) (by omega)]
        omega
      · intro a a' ha ha' hlt
        obtain ⟨x, hx, e⟩ := (member_iff_wval n a).mp ha
        obtain ⟨x', hx', e'⟩ := (member_iff_wval n a').mp ha'
        rw [e, e', wval_lt_host n _ hx hx'] at hlt
        rw [l2, e, wval_le_host n _ hx (by omega)]
        omega

end generic

/-! ## C60: the class label -/

theorem topBits_eq (a : V4) : bytesToBinary ((IpAddr.toBytes a).take 1) = byteText 32 (val a) 0 := by
  obtain ⟨b, h1, h2⟩ := byteText_eq a 0 (show 0 < 32 / 8 by omega)
  have : (IpAddr.toBytes a).take 1 = [b] := by
    cases h : IpAddr.toBytes a with
    | nil => rw [h] at h1; simp at h1
    | cons x xs => rw [h] at h1; simp at h1; simp [h1]
  rw [this]; exact h2

theorem fixesLeading_iff (m v : Nat) (bits : List Bool) :
    FixesLeading m v bits ↔ ∀ x ∈ bits.zipIdx, m.testBit (31 - x.2) = true ∧ v.testBit (31 - x.2) = x.1 := by
  constructor
  · rintro h ⟨b, i⟩ hx
    rw [List.mem_zipIdx_iff_getElem?] at hx
    exact h i b hx
  · intro h i b hi
    exact h (b, i) (by rw [List.mem_zipIdx_iff_getElem?]; exact hi)

/-- The label for four leading address bits and four leading mask bits. -/
def labelOf (v0 v1 v2 v3 m0 m1 m2 m3 : Bool) : Str :=
  if !v0 && m0 then "Class A".toList
  else if v0 && !v1 && m0 && m1 then "Class B".toList
  else if v0 && v1 && !v2 && m0 && m1 && m2 then "Class C".toList
  else if m0 && m1 && m2 && m3 then
    if v0 && v1 && v2 && !v3 then "Class D (multicast)".toList
    else if v0 && v1 && v2 && v3 then "Class E (reserved)".toList
    else []
  else []

set_option synthInstance.maxSize 10000 in
set_option synthInstance.maxHeartbeats 400000 in
theorem labelOf_spec (m v : Nat) : IsClassLabel m v (labelOf (v.testBit 31) (v.testBit 30) (v.testBit 29) (v.testBit 28)
    (m.testBit 31) (m.testBit 30) (m.testBit 29) (m.testBit 28)) := by
  simp only [IsClassLabel, fixesLeading_iff, classTable, List.mem_cons, List.not_mem_nil, or_false, forall_eq_or_imp, forall_eq,
    List.zipIdx_cons, List.zipIdx_nil, Nat.zero_add, Nat.reduceAdd, Nat.reduceSub, List.map_cons, List.map_nil, Nat.sub_zero]
  generalize v.testBit 31 = v0
  generalize v.testBit 30 = v1
  generalize v.testBit 29 = v2
  generalize v.testBit 28 = v3
  generalize m.testBit 31 = m0
  generalize m.testBit 30 = m1
  generalize m.testBit 29 = m2
  generalize m.testBit 28 = m3
  revert v0 v1 v2 v3 m0 m1 m2 m3
  decide +kernel

theorem shows_class {rt : Runtime} (hc : rt.colorsEnabled = true) (v m : Nat) :
    Shows (outputIpv4Class rt (byteText 32 v 0) (byteText 32 m 0)) ()
      (labelOf (v.testBit 31) (v.testBit 30) (v.testBit 29) (v.testBit 28)
        (m.testBit 31) (m.testBit 30) (m.testBit 29) (m.testBit 28)) := by
  have hw : ∀ t : Str, Shows (writeInColor rt t (some classBitsColor) 0) () t := fun t =>
    .of_eq (shows_write hc _ _ _) (padText_zero _)
  have hb : ∀ x : Nat, byteText 32 x 0 = bitChar x 31 :: bitChar x 30 :: bitChar x 29 :: bitChar x 28 ::
    [bitChar x 27, bitChar x 26, bitChar x 25, bitChar x 24] := fun x => rfl
  have h1 : ∀ x p, ('1' == bitChar x p) = x.testBit p := by intro x p; rw [bitChar]; split <;> simp_all
  have h0 : ∀ x p, ('0' == bitChar x p) = !x.testBit p := by intro x p; rw [bitChar]; split <;> simp_all
  rw [hb, hb, outputIpv4Class, labelOf]
  simp only [startsWith, List.isPrefixOf_cons_cons, List.isPrefixOf_nil_left, h1, h0, Bool.and_true]
  generalize v.testBit 31 = v0
  generalize v.testBit 30 = v1
  generalize v.testBit 29 = v2
  generalize v.testBit 28 = v3
  generalize m.testBit 31 = m0
  generalize m.testBit 30 = m1
  generalize m.testBit 29 = m2
  generalize m.testBit 28 = m3
  cases v0 <;> cases v1 <;> cases v2 <;> cases v3 <;> cases m0 <;> cases m1 <;> cases m2 <;> cases m3 <;>
    first | exact hw _ | exact shows_pure _

/-! ## Without colours -/

theorem Uncolored.messages {x y : Cli α} (h : Uncolored x y) : messages y.out = messages x.out := by
  rw [show y = _ from h, Cli.mapOut, Ripcalc.messages, Ripcalc.messages, List.filterMap_map]
  congr 1
  funext e
  cases e <;> rfl

theorem Uncolored.res {x y : Cli α} (h : Uncolored x y) : y.res = x.res := by
  rw [show y = _ from h]; rfl

theorem Runtime.withColors_self (rt : Runtime) : rt.withColors rt.colorsEnabled = rt := rfl

theorem LineBreaks.refl (t : Str) : LineBreaks t t := by
  induction t with
  | nil => exact .nil
  | cons c t ih => exact .keep ih

theorem LineBreaks.append {t u t' u' : Str} (h : LineBreaks t u) (h' : LineBreaks t' u') : LineBreaks (t ++ t') (u ++ u') := by
  induction h with
  | nil => exact h'
  | keep _ ih => exact .keep ih
  | insert _ ih => exact .insert ih

theorem lineBreaks_uncolor (evs : List OutEv) : LineBreaks (visible evs) (visible (evs.map uncolor)) := by
  induction evs with
  | nil => exact .nil
  | cons e evs ih =>
    rw [List.map_cons, visible_cons, visible_cons]
    refine .append ?_ ih
    cases e with
    | styled c s =>
      have h := LineBreaks.append (LineBreaks.refl s) (LineBreaks.insert .nil)
      simpa [uncolor, cellsOf, Function.comp_def] using h
    | out s => exact .refl _
    | err m => exact .nil

/-- What is shown with colours is shown without, up to line breaks. -/
theorem Shows.rendered {f : Runtime → Cli α} (hu : ∀ rt : Runtime, Uncolored (f (rt.withColors true)) (f (rt.withColors false)))
    (rt : Runtime) {a : α} {t : Str} (h : Shows (f (rt.withColors true)) a t) :
    ∃ u, Rendered rt.colorsEnabled t u ∧ Shows (f rt) a u := by
  cases hc : rt.colorsEnabled with
  | true => exact ⟨t, rfl, by rw [← rt.withColors_self, hc]; exact h⟩
  | false =>
    refine ⟨visible ((f (rt.withColors true)).out.map uncolor), h.2.1 ▸ lineBreaks_uncolor _, ?_⟩
    rw [← rt.withColors_self, hc]
    refine ⟨(hu rt).res.trans h.1, ?_, (hu rt).messages.trans h.2.2⟩
    rw [show f (rt.withColors false) = _ from hu rt]
    rfl

/-- The label printed for a network: the label of class A–E exactly when the mask fixes the defining bits and they have the
value of the class, and nothing otherwise. -/
theorem C60_class_label (rt : Runtime) (hc : rt.colorsEnabled = true) (n : Net V4) :
    ∃ t, Shows (outputIpv4Class rt (bytesToBinary ((IpAddr.toBytes n.baseAddr).take 1))
        (bytesToBinary ((IpAddr.toBytes n.subnetMask).take 1))) () t ∧ IsClassLabel (val n.subnetMask) (val n.baseAddr) t := by
  rw [topBits_eq, topBits_eq]
  exact ⟨_, shows_class hc _ _, labelOf_spec _ _⟩

/-- The same whether colours are enabled or not. -/
theorem C60_any (rt : Runtime) (n : Net V4) :
    ∃ t u, IsClassLabel (val n.subnetMask) (val n.baseAddr) t ∧ Rendered rt.colorsEnabled t u ∧
      Shows (outputIpv4Class rt (bytesToBinary ((IpAddr.toBytes n.baseAddr).take 1))
        (bytesToBinary ((IpAddr.toBytes n.subnetMask).take 1))) () u := by
  obtain ⟨t, h1, h2⟩ := C60_class_label (rt.withColors true) rfl n
  obtain ⟨u, h3, h4⟩ := Shows.rendered (f := fun rt => outputIpv4Class rt _ _) (fun rt => uncolored_class rt _ _) rt h1
  exact ⟨t, u, h2, h3, h4⟩

/-! ## C59: the binary column -/

/-- Whatever the mask, the class flag and the override colour, the column is the address in base two. -/
theorem C59_binary_v4 (rt : Runtime) (hc : rt.colorsEnabled = true) (a : V4) (m : Option V4) (cc : Bool) (ov : Option Color) :
    Shows (outputBinaryIpv4Address rt a m cc ov) () (binaryText 32 8 '.' (val a)) := shows_binary4 hc a m cc ov

theorem C59_binary_v6 (rt : Runtime) (hc : rt.colorsEnabled = true) (a : V6) (m : Option V6) (cc : Bool) (ov : Option Color) :
    Shows (outputBinaryIpv6Address rt a m cc ov) () (binaryText 128 16 ':' (val a)) := shows_binary6 hc a m cc ov

/-- The same whether colours are enabled or not. -/
theorem C59_any_v4 (rt : Runtime) (a : V4) (m : Option V4) (cc : Bool) (ov : Option Color) :
    ∃ u, Rendered rt.colorsEnabled (binaryText 32 8 '.' (val a)) u ∧ Shows (outputBinaryIpv4Address rt a m cc ov) () u :=
  Shows.rendered (f := fun rt => outputBinaryIpv4Address rt a m cc ov) (fun rt => uncolored_binary4 rt a m cc ov) rt
    (C59_binary_v4 _ rfl a m cc ov)

theorem C59_any_v6 (rt : Runtime) (a : V6) (m : Option V6) (cc : Bool) (ov : Option Color) :
    ∃ u, Rendered rt.colorsEnabled (binaryText 128 16 ':' (val a)) u ∧ Shows (outputBinaryIpv6Address rt a m cc ov) () u :=
  Shows.rendered (f := fun rt => outputBinaryIpv6Address rt a m cc ov) (fun rt => uncolored_binary6 rt a m cc ov) rt
    (C59_binary_v6 _ rfl a m cc ov)

example : binaryText 32 8 '.' (val (⟨0xC0000201#32⟩ : V4)) = "11000000.00000000.00000010.00000001".toList := by decide +kernel
example : binaryText 128 16 ':' (val (⟨0x20010db800000000#64, 1#64⟩ : V6)) =
    ("0010000000000001:0000110110111000:0000000000000000:0000000000000000:" ++
     "0000000000000000:0000000000000000:0000000000000000:0000000000000001").toList := by decide +kernel

example : IsClassLabel (val (⟨0xFFFFFF00#32⟩ : V4)) (val (⟨0xC0000200#32⟩ : V4)) "Class C".toList := by
  have h := labelOf_spec (val (⟨0xFFFFFF00#32⟩ : V4)) (val (⟨0xC0000200#32⟩ : V4))
  rwa [show labelOf _ _ _ _ _ _ _ _ = "Class C".toList by decide +kernel] at h

/-! ## C62: the text of the display -/

/-- The text is a display of the IPv4 network, with the optional address. -/
def Display4 (n : Net V4) (addr : Option V4) (t : Str) : Prop :=
  ∃ b : BlockText V4, b.Describes n addr ∧ IsClassLabel (val n.subnetMask) (val n.baseAddr) b.cls ∧
    t = b.render 21 IpAddr.display (fun a => binaryText 32 8 '.' (val a))

/-- The text is a display of the IPv6 network, with the optional address. -/
def Display6 (n : Net V6) (addr : Option V6) (t : Str) : Prop :=
  ∃ b : BlockText V6, b.Describes n addr ∧ b.cls = [] ∧
    t = b.render 46 IpAddr.display (fun a => binaryText 128 16 ':' (val a))

/-- The block displayed for an IPv4 network, with any mask. -/
theorem C62_block_v4 (rt : Runtime) (hc : rt.colorsEnabled = true) (n : Net V4) (hn : WF n) (addr : Option V4) :
    ∃ t, Display4 n addr t ∧ Shows (outputIpv4Network rt n addr) () t := by
  obtain ⟨t, ht, hlab⟩ := C60_class_label rt hc n
  obtain ⟨hosts, bc, hd, h1, h2, h3⟩ := exists_block rt.profile n hn addr t
  exact ⟨_, ⟨_, hd, hlab, rfl⟩, shows_network hc 21 _ _ _ (shows_binary4 hc) n addr t ht h1 h2 h3⟩

/-- The block displayed for an IPv6 network, with any mask. -/
theorem C62_block_v6 (rt : Runtime) (hc : rt.colorsEnabled = true) (n : Net V6) (hn : WF n) (addr : Option V6) :
    ∃ t, Display6 n addr t ∧ Shows (outputIpv6Network rt n addr) () t := by
  obtain ⟨hosts, bc, hd, h1, h2, h3⟩ := exists_block rt.profile n hn addr []
  exact ⟨_, ⟨_, hd, rfl, rfl⟩, shows_network hc 46 _ _ _ (shows_binary6 hc) n addr [] (shows_pure ()) h1 h2 h3⟩

/-- The text is a display of the IPv4 network with the colour setting. -/
def Display4In (colors : Bool) (n : Net V4) (addr : Option V4) (u : Str) : Prop :=
  ∃ t, Display4 n addr t ∧ Rendered colors t u

/-- The text is a display of the IPv6 network with the colour setting. -/
def Display6In (colors : Bool) (n : Net V6) (addr : Option V6) (u : Str) : Prop :=
  ∃ t, Display6 n addr t ∧ Rendered colors t u

/-- The block displayed for an IPv4 network whether colours are enabled or not. -/
theorem C62_any_v4 (rt : Runtime) (n : Net V4) (hn : WF n) (addr : Option V4) :
    ∃ t, Display4In rt.colorsEnabled n addr t ∧ Shows (outputIpv4Network rt n addr) () t := by
  obtain ⟨t, h1, h2⟩ := C62_block_v4 (rt.withColors true) rfl n hn addr
  obtain ⟨u, h3, h4⟩ := Shows.rendered (f := fun rt => outputIpv4Network rt n addr) (fun rt => uncolored_network4 rt n addr) rt h2
  exact ⟨u, ⟨t, h1, h3⟩, h4⟩

/-- The label stands in the last line of the display of a network with hosts, after their number; if colours are disabled, up to the
line breaks. -/
theorem C60_printed (rt : Runtime) (n : Net V4) (hn : WF n) (h : 2 ≤ hostBitCount n.subnetMask) (addr : Option V4) :
    ∃ above label u, IsClassLabel (val n.subnetMask) (val n.baseAddr) label ∧
      Rendered rt.colorsEnabled (above ++ (padRight 11 "Hosts/Net:".toList ++
        padRight 21 (showInt (2 ^ hostBitCount n.subnetMask - 2)) ++ label ++ ['\n'])) u ∧
      Shows (outputIpv4Network rt n addr) () u := by
  obtain ⟨u, ⟨t, ⟨b, hd, hl, rfl⟩, hr⟩, hs⟩ := C62_any_v4 rt n hn addr
  have hp : (2 : Int) ^ hostBitCount n.subnetMask - 2 > 0 := by
    have := Nat.pow_le_pow_right (n := 2) (by decide) h
    have h2 : ((2 ^ hostBitCount n.subnetMask : Nat) : Int) = 2 ^ hostBitCount n.subnetMask := by simp
    omega
  have hc := hd.hostCount
  unfold BlockText.render countLine at hr
  rw [hc, if_pos hp] at hr
  exact ⟨_, b.cls, u, hl, hr, hs⟩

/-- The block displayed for an IPv6 network whether colours are enabled or not. -/
theorem C62_any_v6 (rt : Runtime) (n : Net V6) (hn : WF n) (addr : Option V6) :
    ∃ t, Display6In rt.colorsEnabled n addr t ∧ Shows (outputIpv6Network rt n addr) () t := by
  obtain ⟨t, h1, h2⟩ := C62_block_v6 (rt.withColors true) rfl n hn addr
  obtain ⟨u, h3, h4⟩ := Shows.rendered (f := fun rt => outputIpv6Network rt n addr) (fun rt => uncolored_network6 rt n addr) rt h2
  exact ⟨u, ⟨t, h1, h3⟩, h4⟩

example : Rendered true "no hosts".toList "no hosts".toList ∧ Rendered false "Class A".toList "Class A\n".toList ∧
    ¬ Rendered true "Class A".toList "Class A\n".toList ∧ ¬ Rendered false "Class A".toList "Class \nB\n".toList := by
  refine ⟨rfl, .keep <| .keep <| .keep <| .keep <| .keep <| .keep <| .keep <| .insert .nil, nofun, fun h => ?_⟩
  have hf : ∀ t u, LineBreaks t u → t.filter (· ≠ '\n') = u.filter (· ≠ '\n') := by
    intro t u h
    induction h with
    | nil => rfl
    | keep _ ih => simp only [List.filter_cons, ih]
    | insert _ ih => simpa using ih
  exact absurd (hf _ _ h) (by decide +kernel)

/-! ## C58: the command -/

/-- The text is the display of the parsed argument. -/
def BlockFor : NetworkSpec → Str → Prop
  | .ipv4 a n, t => Display4 n (some a) t
  | .ipv6 a n, t => Display6 n (some a) t

/-- The text is the display of the parsed argument with the colour setting. -/
def BlockForIn (colors : Bool) : NetworkSpec → Str → Prop
  | .ipv4 a n, t => Display4In colors n (some a) t
  | .ipv6 a n, t => Display6In colors n (some a) t

theorem blockForIn_true {x : NetworkSpec} {t : Str} (h : BlockForIn true x t) : BlockFor x t := by
  cases x with
  | ipv4 a n => obtain ⟨t', h1, h2⟩ := h; cases (show t = t' from h2); exact h1
  | ipv6 a n => obtain ⟨t', h1, h2⟩ := h; cases (show t = t' from h2); exact h1

theorem showParseLoop_cases (args : List Str) :
    (∃ specs, Pointwise (fun s x => parseNetspec s = .ok (.ok x)) args specs ∧ showParseLoop args = .ok (.ok specs)) ∨
    (∃ pre s post e, args = pre ++ s :: post ∧ (∀ s' ∈ pre, ∃ x, parseNetspec s' = .ok (.ok x)) ∧ parseNetspec s = .ok (.error e) ∧
      showParseLoop args = .ok (.error e)) := by
  induction args with
  | nil => exact .inl ⟨[], .nil, rfl⟩
  | cons a args ih =>
    obtain ⟨r, hr⟩ := parseNetspec_total a
    cases r with
    | error e => exact .inr ⟨[], a, args, e, rfl, by simp, hr, by simp [showParseLoop, hr]⟩
    | ok x =>
      rcases ih with ⟨specs, h1, h2⟩ | ⟨pre, s, post, e, h1, h2, h3, h4⟩
      · exact .inl ⟨x :: specs, .cons hr h1, by simp [showParseLoop, hr, h2]⟩
      · refine .inr ⟨a :: pre, s, post, e, by simp [h1], ?_, h3, by simp [showParseLoop, hr, h4]⟩
        intro s' hs'
        rcases List.mem_cons.mp hs' with rfl | h
        · exact ⟨x, hr⟩
        · exact h2 s' h

theorem shows_spec (rt : Runtime) (x : NetworkSpec) (hx : GoodSpec x) :
    ∃ t, BlockForIn rt.colorsEnabled x t ∧ Shows (match x with
      | .ipv4 a n => outputIpv4Network rt n (some a)
      | .ipv6 a n => outputIpv6Network rt n (some a)) () t := by
  cases x with
  | ipv4 a n => exact C62_any_v4 rt n hx.2.1 (some a)
  | ipv6 a n => exact C62_any_v6 rt n hx.2.1 (some a)

theorem shows_printLoop (rt : Runtime) (specs : List NetworkSpec) (hs : ∀ x ∈ specs, GoodSpec x) :
    ∀ first, ∃ ts, Pointwise (BlockForIn rt.colorsEnabled) specs ts ∧
      Shows (showPrintLoop rt first specs) () (if first then List.intercalate ['\n'] ts else ts.flatMap (fun t => '\n' :: t)) := by
  induction specs with
  | nil =>
    intro first
    exact ⟨[], .nil, .of_eq (shows_pure ()) (by cases first <;> rfl)⟩
  | cons x specs ih =>
    intro first
    obtain ⟨t, h1, h2⟩ := shows_spec rt x (hs x (by simp))
    obtain ⟨ts, h3, h4⟩ := ih (fun y hy => hs y (by simp [hy])) false
    refine ⟨t :: ts, .cons h1 h3, ?_⟩
    have h5 : ∀ (t : Str) (ts : List Str), t ++ ts.flatMap (fun t => '\n' :: t) = List.intercalate ['\n'] (t :: ts) := by
      intro t ts
      induction ts generalizing t with
      | nil => simp
      | cons u ts ih2 => simp [List.intercalate_cons_cons, ← ih2]
    have h6 : Shows (showPrintLoop rt true (x :: specs)) () (t ++ ts.flatMap (fun t => '\n' :: t)) := by
      cases x <;> exact .bind h2 h4
    cases first with
    | true => exact .of_eq h6 (h5 t ts)
    | false =>
      refine .of_eq (.bind (f := fun _ => showPrintLoop rt true (x :: specs)) (shows_println []) h6) rfl

/-- Every argument parses: the blocks of the networks in order, separated by an empty line, and exit code 0; whether colours are
enabled or not. -/
theorem C58_any (rt : Runtime) (prog : Str) (args : List Str) (specs : List NetworkSpec)
    (h : Pointwise (fun s x => parseNetspec s = .ok (.ok x)) args specs) :
    ∃ ts, Pointwise (BlockForIn rt.colorsEnabled) specs ts ∧ Shows (showNet rt (prog :: args)) 0 (List.intercalate ['\n'] ts) := by
  have hgood : ∀ (args : List Str) (specs : List NetworkSpec),
      Pointwise (fun s x => parseNetspec s = .ok (.ok x)) args specs → showParseLoop args = .ok (.ok specs) ∧ ∀ x ∈ specs, GoodSpec x := by
    intro args specs h
    induction h with
    | nil => exact ⟨rfl, by simp⟩
    | @cons s x ss xs h1 _ ih =>
      refine ⟨by simp [showParseLoop, h1, ih.1], ?_⟩
      intro y hy
      rcases List.mem_cons.mp hy with rfl | hy
      · exact C33_parsed_good s _ h1
      · exact ih.2 y hy
  obtain ⟨h1, h2⟩ := hgood args specs h
  obtain ⟨ts, h3, h4⟩ := shows_printLoop rt specs h2 true
  refine ⟨ts, h3, ?_⟩
  simp only [showNet, List.drop_succ_cons, List.drop_zero, h1, Cli.lift_ok_bind]
  exact .of_eq (.bind h4 (shows_pure 0)) (by simp)

/-- With colours the blocks are the displays themselves. -/
theorem C58_blocks (rt : Runtime) (hc : rt.colorsEnabled = true) (prog : Str) (args : List Str) (specs : List NetworkSpec)
    (h : Pointwise (fun s x => parseNetspec s = .ok (.ok x)) args specs) :
    ∃ ts, Pointwise BlockFor specs ts ∧ Shows (showNet rt (prog :: args)) 0 (List.intercalate ['\n'] ts) := by
  obtain ⟨ts, h1, h2⟩ := C58_any rt prog args specs h
  rw [hc] at h1
  refine ⟨ts, ?_, h2⟩
  clear h h2
  induction h1 with
  | nil => exact .nil
  | cons h1 _ ih => exact .cons (blockForIn_true h1) ih

/-- Otherwise the first argument that does not parse is reported and nothing else is printed; the exit code is 1. -/
theorem C58_error (rt : Runtime) (prog : Str) (pre post : List Str) (s : Str) (e : NetspecErr)
    (hpre : ∀ s' ∈ pre, ∃ x, parseNetspec s' = .ok (.ok x)) (hs : parseNetspec s = .ok (.error e)) :
    showNet rt (prog :: (pre ++ s :: post)) = ⟨[.err (.showParse e)], .ok 1⟩ := by
  have h : showParseLoop (pre ++ s :: post) = .ok (.error e) := by
    induction pre with
    | nil => simp [showParseLoop, hs]
    | cons a pre ih =>
      obtain ⟨x, hx⟩ := hpre a (by simp)
      simp [showParseLoop, hx, ih (fun s' h => hpre s' (by simp [h]))]
  simp only [showNet, List.drop_succ_cons, List.drop_zero, h, Cli.lift_ok_bind]
  rfl

theorem showNet_cases (rt : Runtime) (hc : rt.colorsEnabled = true) (args : List Str) :
    (∃ t, Shows (showNet rt args) 0 t) ∨ (∃ e, showNet rt args = ⟨[.err (.showParse e)], .ok 1⟩) := by
  rcases showParseLoop_cases (args.drop 1) with ⟨specs, h1, h2⟩ | ⟨pre, s, post, e, h1, h2, h3, h4⟩
  · obtain ⟨ts, h3, h4⟩ := C58_blocks rt hc [] _ specs h1
    exact .inl ⟨_, by simpa [showNet] using h4⟩
  · have := C58_error rt [] pre post s e h2 h3
    rw [← h1] at this
    exact .inr ⟨e, by simpa [showNet] using this⟩

/-- For every argument list and colour setting the command ends normally: with exit code 0 and no message, or with exit
code 1, one message and nothing on standard output. -/
theorem C58_total (rt : Runtime) (args : List Str) :
    ((showNet rt args).res = .ok 0 ∧ messages (showNet rt args).out = []) ∨
    ((showNet rt args).res = .ok 1 ∧ visible (showNet rt args).out = [] ∧ ∃ e, messages (showNet rt args).out = [.showParse e]) := by
  have hu := uncolored_show rt args
  rcases showNet_cases (rt.withColors true) rfl args with ⟨t, h1, h2, h3⟩ | ⟨e, h⟩
  · left
    cases hc : rt.colorsEnabled with
    | true => rw [← rt.withColors_self, hc]; exact ⟨h1, h3⟩
    | false => rw [← rt.withColors_self, hc, hu.res, hu.messages]; exact ⟨h1, h3⟩
  · right
    cases hc : rt.colorsEnabled with
    | true => rw [← rt.withColors_self, hc, h]; exact ⟨rfl, rfl, e, rfl⟩
    | false => rw [← rt.withColors_self, hc, show showNet (rt.withColors false) args = _ from hu, h]; exact ⟨rfl, rfl, e, rfl⟩

/-- A concrete run: one address with a prefix and one with a discontiguous mask. -/
example : Shows (showNet (evalRuntime .checked true) ["ripcalc".toList, "192.0.2.1/31".toList, "10.0.0.1/255.0.0.255".toList]) 0
    (["Address:   192.0.2.1            11000000.00000000.00000010.00000001\n",
     "Netmask:   255.255.255.254 = 31 11111111.11111111.11111111.11111110\n",
     "Wildcard:  0.0.0.1              00000000.00000000.00000000.00000001\n",
     "=>\n",
     "Network:   192.0.2.0/31         11000000.00000000.00000010.00000000\n",
     "no hosts\n",
     "Broadcast: 192.0.2.1            11000000.00000000.00000010.00000001\n",
     "no hosts/net",
     "\n",
     "Address:   10.0.0.1             00001010.00000000.00000000.00000001\n",
     "Netmask:   255.0.0.255          11111111.00000000.00000000.11111111\n",
     "Wildcard:  0.255.255.0          00000000.11111111.11111111.00000000\n",
     "=>\n",
     "Network:   10.0.0.1             00001010.00000000.00000000.00000001\n",
     "HostMin:   10.0.1.1             00001010.00000000.00000001.00000001\n",
     "HostMax:   10.255.254.1         00001010.11111111.11111110.00000001\n",
     "Broadcast: 10.255.255.1         00001010.11111111.11111111.00000001\n",
     "Hosts/Net: 65534                Class A\n"].flatMap String.toList) := by
  unfold Shows
  decide +kernel

/-! ## C61: without colours -/

theorem filter_uncolor (evs : List OutEv) :
    (visible (evs.map uncolor)).filter (· ≠ '\n') = (visible evs).filter (· ≠ '\n') := by
  induction evs with
  | nil => rfl
  | cons e evs ih =>
    have h : ((cellsOf (uncolor e)).map Prod.snd).filter (· ≠ '\n') = ((cellsOf e).map Prod.snd).filter (· ≠ '\n') := by
      cases e <;> simp [uncolor]
    simp only [List.map_cons, visible_cons, List.filter_append, ih, h]

theorem sublist_uncolor (evs : List OutEv) : (visible evs).Sublist (visible (evs.map uncolor)) := by
  induction evs with
  | nil => exact .refl _
  | cons e evs ih =>
    rw [List.map_cons, visible_cons, visible_cons]
    refine .append ?_ ih
    cases e <;> simp [uncolor]

/-- The full claim is that the visible text is the same.  It is false (`C61_counterexample`); what holds is that exit code
and messages are the same and that the text differs only in newlines, which are added after each fragment that would have
been coloured. -/
theorem C61_uncolored_partial (rt : Runtime) (args : List Str) :
    (doMain (rt.withColors false) args).res = (doMain (rt.withColors true) args).res ∧
    messages (doMain (rt.withColors false) args).out = messages (doMain (rt.withColors true) args).out ∧
    (visible (doMain (rt.withColors false) args).out).filter (· ≠ '\n') =
      (visible (doMain (rt.withColors true) args).out).filter (· ≠ '\n') ∧
    (visible (doMain (rt.withColors true) args).out).Sublist (visible (doMain (rt.withColors false) args).out) ∧
    (doMain (rt.withColors false) args).out = (doMain (rt.withColors true) args).out.map (fun e => match e with
      | .styled _ s => .out (s ++ ['\n'])
      | e => e) := by
  have h := uncolored_main rt args
  refine ⟨h.res, h.messages, ?_, ?_, ?_⟩
  · rw [show doMain (rt.withColors false) args = _ from h]; exact filter_uncolor _
  · rw [show doMain (rt.withColors false) args = _ from h]; exact sublist_uncolor _
  · rw [show doMain (rt.withColors false) args = _ from h]
    apply List.map_congr_left
    intro e _
    cases e <;> rfl

/-- The full claim is false. -/
theorem C61_counterexample (pr : Profile) : ∃ (rt : Runtime) (args : List Str), rt.profile = pr ∧
    visible (doMain (rt.withColors false) args).out ≠ visible (doMain (rt.withColors true) args).out := by
  refine ⟨evalRuntime pr true, ["ripcalc".toList, "192.0.2.0/24".toList], rfl, ?_⟩
  cases pr <;> decide +kernel

end Ripcalc
