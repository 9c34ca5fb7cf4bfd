import Verif.Proofs.Parse
/-!
# Properties C30–C36: parsing of network specifications
-/
namespace Ripcalc
open AddrSpec LawfulIpAddr

/-! ## C31: network syntax is recognised exactly -/

/-- The function always returns; it answers "unrecognised" exactly for the strings that are none of
`quad/quad`, `quad/digits`, `word/word` (with a colon in the second word) and `word/digits`, each possibly with a minus sign
after the slash. -/
theorem C31_recognition (s : Str) :
    (∃ r, parseNetspec s = .ok r) ∧
    (∀ u, parseNetspec s = .ok (.error (.unrecognized u)) ↔ u = s ∧ ¬ ∃ t w l, s = specText t w l ∧
      ((QuadText t ∧ (QuadText l ∨ DigitText l)) ∨ (HexColonText t ∧ ((HexColonText l ∧ ':' ∈ l) ∨ DigitText l)))) := by
  refine ⟨parseNetspec_total s, fun u => ?_⟩
  rcases parseNetspec_cases s with ⟨t, w, l, rfl, h⟩ | ⟨h, h2⟩
  · constructor
    · intro he
      exfalso
      rcases h with ⟨ht, hl | hl⟩ | ⟨ht, ⟨hl, hc⟩ | hl⟩
      · rw [parseNetspec_v4mask ht hl] at he
        have he := Exec.ok.inj he
        rw [parseV4Mask] at he
        repeat (first | split at he | cases he)
      · rw [parseNetspec_v4cidr ht hl, parseV4Cidr] at he
        split at he
        · cases he
        · rename_i a _
          split at he
          · cases he
          · rename_i p _
            split at he
            · cases he
            · obtain ⟨n, h1, -⟩ := newWithPrefix_wf (a := a) (p := if w then 32 - p else p) (show _ ≤ 32 by split <;> omega)
              simp only [h1, Exec.ok_bind] at he
              cases he
      · rw [parseNetspec_v6mask ht hl hc, parseV6Mask] at he
        obtain ⟨r, hr⟩ := V6.parse_total t
        obtain ⟨r', hr'⟩ := V6.parse_total l
        rw [hr, hr', Exec.ok_bind] at he
        cases r with
        | error e => cases he
        | ok a =>
          simp only [Exec.ok_bind] at he
          cases r' with
          | error e => cases he
          | ok m => cases he
      · rw [parseNetspec_v6cidr ht hl, parseV6Cidr] at he
        obtain ⟨r, hr⟩ := V6.parse_total t
        rw [hr, Exec.ok_bind] at he
        cases r with
        | error e => cases he
        | ok a =>
          simp only at he
          split at he
          · cases he
          · rename_i p _
            split at he
            · cases he
            · obtain ⟨n, h1, -⟩ := newWithPrefix_wf (a := a) (p := if w then 128 - p else p)
                (show _ ≤ 128 by split <;> omega)
              simp only [h1, Exec.ok_bind] at he
              cases he
    · rintro ⟨-, hn⟩
      exact absurd ⟨t, w, l, rfl, h⟩ hn
  · rw [h2]
    constructor
    · intro he; cases he; exact ⟨rfl, h⟩
    · rintro ⟨rfl, -⟩; rfl

/-- The matchers used by the model are the regular expressions of the source, including the text of each group. -/
theorem C31_regexes (s : Str) (x : List (String × Str)) :
    (Re.Matches .ipv4WithSubnet s x ↔ ∃ a w l, ipv4WithSubnet s = some (a, w, l) ∧ x = netspecCaps "mask" a w l) ∧
    (Re.Matches .ipv4WithCidr s x ↔ ∃ a w l, ipv4WithCidr s = some (a, w, l) ∧ x = netspecCaps "cidr" a w l) ∧
    (Re.Matches .ipv6WithSubnet s x ↔ ∃ a w l, ipv6WithSubnet s = some (a, w, l) ∧ x = netspecCaps "mask" a w l) ∧
    (Re.Matches .ipv6WithCidr s x ↔ ∃ a w l, ipv6WithCidr s = some (a, w, l) ∧ x = netspecCaps "cidr" a w l) :=
  ⟨re_ipv4WithSubnet s x, re_ipv4WithCidr s x, re_ipv6WithSubnet s x, re_ipv6WithCidr s x⟩

/-- Full meaning, IPv4: which strings give a network, and which. `NetOfMask`/`NetOfPrefix` determine the network
(`C31_net_unique`). -/
theorem C31_meaning_ipv4 (s : Str) (a : V4) (n : Net V4) :
    parseNetspec s = .ok (.ok (.ipv4 a n)) ↔ ∃ t w l, s = specText t w l ∧ QuadText t ∧ V4Reading t a ∧
      ((∃ m, QuadText l ∧ V4Reading l m ∧ NetOfMask n a (if w then 2 ^ 32 - 1 - val m else val m)) ∨
       (∃ p, Numeral 10 l p ∧ p ≤ 32 ∧ NetOfPrefix n a (if w then 32 - p else p))) :=
  parseNetspec_ipv4 s a n

/-- Full meaning, IPv6. -/
theorem C31_meaning_ipv6 (s : Str) (a : V6) (n : Net V6) :
    parseNetspec s = .ok (.ok (.ipv6 a n)) ↔ ∃ t w l, s = specText t w l ∧ HexColonText t ∧ V6Reading t a ∧
      ((∃ m, HexColonText l ∧ ':' ∈ l ∧ V6Reading l m ∧ NetOfMask n a (if w then 2 ^ 128 - 1 - val m else val m)) ∨
       (∃ p, Numeral 10 l p ∧ p ≤ 128 ∧ NetOfPrefix n a (if w then 128 - p else p))) :=
  parseNetspec_ipv6 s a n

/-- The descriptions used above determine the network. -/
theorem C31_net_unique {A : Type} [IpAddr A] [AddrSpec A] [LawfulIpAddr A] (n n' : Net A) (a : A) :
    (∀ m, NetOfMask n a m → NetOfMask n' a m → n = n') ∧ (∀ p, NetOfPrefix n a p → NetOfPrefix n' a p → n = n') := by
  constructor
  · intro m h h'
    have e : n'.subnetMask = n.subnetMask := val_inj _ _ (by rw [h'.2.2, h.2.2])
    have h1 := (newWithMask_iff n a n.subnetMask).mpr ⟨h.1, h.2.1, rfl⟩
    have h2 := (newWithMask_iff n' a n.subnetMask).mpr ⟨h'.1, h'.2.1, by rw [e]⟩
    exact h1.trans h2.symm
  · intro p h h'
    have hp := ((h.1.1.prefix_iff p).mp h.1.2).1
    have h1 := (newWithPrefix_iff n a p hp).mpr h
    rw [(newWithPrefix_iff n' a p hp).mpr h'] at h1
    cases h1; rfl

example : parseNetspec "192.0.2.1/24".toList = .ok (.ok (.ipv4 ⟨0xC0000201#32⟩ ⟨⟨0xC0000200#32⟩, ⟨0xFFFFFF00#32⟩, some 24⟩)) ∧
    parseNetspec "192.0.2.1 /24".toList = .ok (.error (.unrecognized "192.0.2.1 /24".toList)) ∧
    parseNetspec "2001:DB8::/32".toList = .ok (.error (.unrecognized "2001:DB8::/32".toList)) := by decide +kernel

/-! ## C32: prefix, mask and wildcard syntax are equivalent -/

/-- A mask and its complement, each in the matching syntax, give the same result. -/
theorem C32_mask_wildcard_ipv4 (t tm tw : Str) (a m w : V4) (ht : QuadText t) (ha : V4Reading t a)
    (htm : QuadText tm) (hm : V4Reading tm m) (htw : QuadText tw) (hw : V4Reading tw w)
    (hc : ∀ i, i < 32 → (val w).testBit i = !(val m).testBit i) :
    ∃ n, NetOfMask n a (val m) ∧ parseNetspec (t ++ '/' :: tm) = .ok (.ok (.ipv4 a n)) ∧
      parseNetspec (t ++ '/' :: '-' :: tw) = .ok (.ok (.ipv4 a n)) := by
  have hn := (newWithMask_iff _ a m).mp rfl
  have hwm : IpAddr.negate w = m := by
    apply addr_ext
    intro i hi
    rw [testBit_negate _ _ hi, hc i hi, Bool.not_not]
  have hv : 2 ^ 32 - 1 - val w = val m := by
    rw [← hwm, val_negate]; rfl
  refine ⟨_, hn, (parseNetspec_ipv4 _ _ _).mpr ⟨t, false, tm, rfl, ht, ha, .inl ⟨m, htm, hm, hn⟩⟩,
    (parseNetspec_ipv4 _ _ _).mpr ⟨t, true, tw, rfl, ht, ha, .inl ⟨w, htw, hw, ?_⟩⟩⟩
  rw [if_pos rfl, hv]; exact hn

/-- Prefix `p`, the mask with `p` leading ones, and the "wildcard prefix" `32 - p` give the same result. -/
theorem C32_prefix_ipv4 (t tp tq tm : Str) (a m : V4) (p : Nat) (ht : QuadText t) (ha : V4Reading t a)
    (htm : QuadText tm) (hm : V4Reading tm m) (hp : Numeral 10 tp p) (hq : Numeral 10 tq (32 - p))
    (hpm : IsPrefixMask 32 p (val m)) :
    ∃ n, NetOfPrefix n a p ∧ parseNetspec (t ++ '/' :: tp) = .ok (.ok (.ipv4 a n)) ∧
      parseNetspec (t ++ '/' :: tm) = .ok (.ok (.ipv4 a n)) ∧
      parseNetspec (t ++ '/' :: '-' :: tq) = .ok (.ok (.ipv4 a n)) := by
  have hn := (newWithMask_iff _ a m).mp rfl
  have hle := hpm.1
  have hn' : NetOfPrefix (Net.newWithMask a m) a p := ⟨⟨hn.1, (hn.1.prefix_iff p).mpr hpm⟩, hn.2.1⟩
  refine ⟨_, hn', (parseNetspec_ipv4 _ _ _).mpr ⟨t, false, tp, rfl, ht, ha, .inr ⟨p, hp, hle, hn'⟩⟩,
    (parseNetspec_ipv4 _ _ _).mpr ⟨t, false, tm, rfl, ht, ha, .inl ⟨m, htm, hm, hn⟩⟩,
    (parseNetspec_ipv4 _ _ _).mpr ⟨t, true, tq, rfl, ht, ha, .inr ⟨32 - p, hq, by omega, ?_⟩⟩⟩
  rw [if_pos rfl, show 32 - (32 - p) = p by omega]; exact hn'

theorem C32_mask_wildcard_ipv6 (t tm tw : Str) (a m w : V6) (ht : HexColonText t) (ha : V6Reading t a)
    (htm : HexColonText tm ∧ ':' ∈ tm) (hm : V6Reading tm m) (htw : HexColonText tw ∧ ':' ∈ tw) (hw : V6Reading tw w)
    (hc : ∀ i, i < 128 → (val w).testBit i = !(val m).testBit i) :
    ∃ n, NetOfMask n a (val m) ∧ parseNetspec (t ++ '/' :: tm) = .ok (.ok (.ipv6 a n)) ∧
      parseNetspec (t ++ '/' :: '-' :: tw) = .ok (.ok (.ipv6 a n)) := by
  have hn := (newWithMask_iff _ a m).mp rfl
  have hwd : width V6 = 128 := rfl
  have hwm : IpAddr.negate w = m := by
    apply addr_ext
    intro i hi
    rw [testBit_negate _ _ hi, hc i (by rw [← hwd]; exact hi), Bool.not_not]
  have hv : 2 ^ 128 - 1 - val w = val m := by
    rw [← hwm, val_negate, hwd]
  refine ⟨_, hn, (parseNetspec_ipv6 _ _ _).mpr ⟨t, false, tm, rfl, ht, ha, .inl ⟨m, htm.1, htm.2, hm, ?_⟩⟩,
    (parseNetspec_ipv6 _ _ _).mpr ⟨t, true, tw, rfl, ht, ha, .inl ⟨w, htw.1, htw.2, hw, ?_⟩⟩⟩
  · rw [if_neg (by decide)]; exact hn
  · rw [if_pos rfl, hv]; exact hn

theorem C32_prefix_ipv6 (t tp tq tm : Str) (a m : V6) (p : Nat) (ht : HexColonText t) (ha : V6Reading t a)
    (htm : HexColonText tm ∧ ':' ∈ tm) (hm : V6Reading tm m) (hp : Numeral 10 tp p) (hq : Numeral 10 tq (128 - p))
    (hpm : IsPrefixMask 128 p (val m)) :
    ∃ n, NetOfPrefix n a p ∧ parseNetspec (t ++ '/' :: tp) = .ok (.ok (.ipv6 a n)) ∧
      parseNetspec (t ++ '/' :: tm) = .ok (.ok (.ipv6 a n)) ∧
      parseNetspec (t ++ '/' :: '-' :: tq) = .ok (.ok (.ipv6 a n)) := by
  have hn := (newWithMask_iff _ a m).mp rfl
  have hle := hpm.1
  have hn' : NetOfPrefix (Net.newWithMask a m) a p := ⟨⟨hn.1, (hn.1.prefix_iff p).mpr hpm⟩, hn.2.1⟩
  refine ⟨_, hn', (parseNetspec_ipv6 _ _ _).mpr ⟨t, false, tp, rfl, ht, ha, .inr ⟨p, hp, hle, hn'⟩⟩,
    (parseNetspec_ipv6 _ _ _).mpr ⟨t, false, tm, rfl, ht, ha, .inl ⟨m, htm.1, htm.2, hm, ?_⟩⟩,
    (parseNetspec_ipv6 _ _ _).mpr ⟨t, true, tq, rfl, ht, ha, .inr ⟨128 - p, hq, by omega, ?_⟩⟩⟩
  · rw [if_neg (by decide)]; exact hn
  · rw [if_pos rfl, show 128 - (128 - p) = p by omega]; exact hn'

example : parseNetspec "192.0.2.1/24".toList = parseNetspec "192.0.2.1/255.255.255.0".toList ∧
    parseNetspec "192.0.2.1/24".toList = parseNetspec "192.0.2.1/-0.0.0.255".toList ∧
    parseNetspec "192.0.2.1/24".toList = parseNetspec "192.0.2.1/-8".toList ∧
    parseNetspec "2001:db8::1/32".toList = parseNetspec "2001:db8::1/ffff:ffff::".toList ∧
    parseNetspec "2001:db8::1/32".toList = parseNetspec "2001:db8::1/-::ffff:ffff:ffff:ffff:ffff:ffff".toList ∧
    parseNetspec "2001:db8::1/32".toList = parseNetspec "2001:db8::1/-96".toList := by decide +kernel

/-! ## C33: a parsed network contains its address and is well formed -/

/-- The conditions of the property, for either family. -/
def GoodSpec : NetworkSpec → Prop
  | .ipv4 a n => n.contains a = true ∧ WF n ∧ ∀ p, n.cidrPrefix = some p → p ≤ 32
  | .ipv6 a n => n.contains a = true ∧ WF n ∧ ∀ p, n.cidrPrefix = some p → p ≤ 128

theorem C33_parsed_good (s : Str) (x : NetworkSpec) (h : parseNetspec s = .ok (.ok x)) : GoodSpec x := by
  cases x with
  | ipv4 a n =>
    obtain ⟨t, w, l, -, -, -, ⟨m, -, -, h⟩ | ⟨p, -, -, h⟩⟩ := (parseNetspec_ipv4 s a n).mp h
    · exact ⟨(contains_iff h.1.hz a).mpr h.2.1, h.1, fun p hp => ((h.1.prefix_iff p).mp hp).1⟩
    · exact ⟨(contains_iff h.1.1.hz a).mpr h.2, h.1.1, fun p hp => ((h.1.1.prefix_iff p).mp hp).1⟩
  | ipv6 a n =>
    obtain ⟨t, w, l, -, -, -, ⟨m, -, -, -, h⟩ | ⟨p, -, -, h⟩⟩ := (parseNetspec_ipv6 s a n).mp h
    · exact ⟨(contains_iff h.1.hz a).mpr h.2.1, h.1, fun p hp => ((h.1.prefix_iff p).mp hp).1⟩
    · exact ⟨(contains_iff h.1.1.hz a).mpr h.2, h.1.1, fun p hp => ((h.1.1.prefix_iff p).mp hp).1⟩

example : ∃ x, parseNetspec "10.1.2.3/255.0.255.0".toList = .ok (.ok x) :=
  ⟨.ipv4 ⟨0x0A010203#32⟩ ⟨⟨0x0A000200#32⟩, ⟨0xFF00FF00#32⟩, none⟩, by decide +kernel⟩

/-! ## C34: out-of-range prefixes are rejected -/

/-- Whatever stands before the slash, and with or without a minus sign: digits worth more than 32 never give an IPv4 network,
digits worth more than 128 never give a network at all. -/
theorem C34_prefix_syntax (t l : Str) (w : Bool) (p : Nat) (hl : Numeral 10 l p) :
    (32 < p → ∀ a n, parseNetspec (specText t w l) ≠ .ok (.ok (.ipv4 a n))) ∧
    (128 < p → ∃ e, parseNetspec (specText t w l) = .ok (.error e)) := by
  have hd := numeral_digitText hl
  have v4 : 32 < p → ∀ a n, parseNetspec (specText t w l) ≠ .ok (.ok (.ipv4 a n)) := by
    intro hp a n h
    obtain ⟨t', w', l', e, ht, -, ⟨m, hl', -⟩ | ⟨q, hl', hq, -⟩⟩ := (parseNetspec_ipv4 _ a n).mp h
    · obtain ⟨rfl, rfl, rfl⟩ := specText_inj e hd.no_slash hl'.no_slash (digit_head hd) (quad_head hl')
      exact hd.no_dot hl'.dot
    · have hd' := numeral_digitText hl'
      obtain ⟨rfl, rfl, rfl⟩ := specText_inj e hd.no_slash hd'.no_slash (digit_head hd) (digit_head hd')
      have := hl.unique hl'
      omega
  refine ⟨v4, fun hp => ?_⟩
  obtain ⟨r, hr⟩ := parseNetspec_total (specText t w l)
  cases r with
  | error e => exact ⟨e, hr⟩
  | ok x =>
    exfalso
    cases x with
    | ipv4 a n => exact v4 (by omega) a n hr
    | ipv6 a n =>
      obtain ⟨t', w', l', e, ht, -, ⟨m, hl', hc, -⟩ | ⟨q, hl', hq, -⟩⟩ := (parseNetspec_ipv6 _ a n).mp hr
      · obtain ⟨rfl, rfl, rfl⟩ := specText_inj e hd.no_slash hl'.no_slash (digit_head hd) (hexColon_head hl')
        exact hd.no_colon hc
      · have hd' := numeral_digitText hl'
        obtain ⟨rfl, rfl, rfl⟩ := specText_inj e hd.no_slash hd'.no_slash (digit_head hd) (digit_head hd')
        have := hl.unique hl'
        omega

/-- For a readable address the error is about the prefix: it names the range when the number fits the machine word. -/
theorem C34_error (t l : Str) (w : Bool) (p : Nat) (hl : Numeral 10 l p) :
    (QuadText t → (∃ a, V4Reading t a) → 32 < p →
      (p < 2 ^ 64 → parseNetspec (specText t w l) = .ok (.error (.cidrRange p 32))) ∧
      (2 ^ 64 ≤ p → ∃ e, parseNetspec (specText t w l) = .ok (.error (.cidrParse e)))) ∧
    (HexColonText t → (∃ a, V6Reading t a) → 128 < p →
      (p < 2 ^ 64 → parseNetspec (specText t w l) = .ok (.error (.cidrRange p 128))) ∧
      (2 ^ 64 ≤ p → ∃ e, parseNetspec (specText t w l) = .ok (.error (.cidrParse e)))) := by
  have hd := numeral_digitText hl
  have big : 2 ^ 64 ≤ p → ∃ e, parseUsize l = .error e := by
    intro hp
    cases hu : parseUsize l with
    | error e => exact ⟨e, rfl⟩
    | ok v =>
      obtain ⟨h1, h2⟩ := (parseUsize_iff hd v).mp hu
      have := h1.unique hl
      omega
  constructor
  · rintro ht ⟨a, ha⟩ hp
    rw [parseNetspec_v4cidr ht hd, parseV4Cidr, (v4Reading_iff _ _).mpr ha]
    constructor
    · intro h64
      simp only [(parseUsize_iff hd p).mpr ⟨hl, h64⟩, if_pos hp]; rfl
    · intro h64
      obtain ⟨e, he⟩ := big h64
      simp only [he]; exact ⟨e, rfl⟩
  · rintro ht ⟨a, ha⟩ hp
    rw [parseNetspec_v6cidr ht hd, parseV6Cidr, (v6Reading_iff _ _).mpr ha, Exec.ok_bind]
    constructor
    · intro h64
      simp only [(parseUsize_iff hd p).mpr ⟨hl, h64⟩, if_pos hp]; rfl
    · intro h64
      obtain ⟨e, he⟩ := big h64
      simp only [he]; exact ⟨e, rfl⟩

example : parseNetspec "1.2.3.4/33".toList = .ok (.error (.cidrRange 33 32)) ∧
    parseNetspec "1.2.3.4/99999999999999999999".toList = .ok (.error (.cidrParse .posOverflow)) ∧
    parseNetspec "::1/-129".toList = .ok (.error (.cidrRange 129 128)) := by decide +kernel

/-! ## C30: displayed networks parse back -/

theorem C30_ipv4 (n : Net V4) (hn : WF n) : parseNetspec n.display = .ok (.ok (.ipv4 n.baseAddr n)) := by
  have hq := v4_display_quad n.baseAddr
  have hr : V4Reading (IpAddr.display n.baseAddr) n.baseAddr := by
    obtain ⟨b0, b1, b2, b3, h1, h2⟩ := V4.display_eq n.baseAddr
    exact ⟨_, _, _, _, _, _, _, _, h2, ⟨.inl (showNat_canonical (by decide) (by decide) _).1, by have := b0.isLt; omega⟩,
      ⟨.inl (showNat_canonical (by decide) (by decide) _).1, by have := b1.isLt; omega⟩,
      ⟨.inl (showNat_canonical (by decide) (by decide) _).1, by have := b2.isLt; omega⟩,
      ⟨.inl (showNat_canonical (by decide) (by decide) _).1, by have := b3.isLt; omega⟩,
      by have := V4.toBytes_val n.baseAddr; rw [h1] at this; exact this.symm⟩
  rw [parseNetspec_ipv4]
  cases hp : n.cidrPrefix with
  | some p =>
    refine ⟨_, false, showNat 10 p, by simp only [Net.display, hp, specText]; simp, hq, hr,
      .inr ⟨p, (showNat_canonical (by decide) (by decide) _).1, ((hn.prefix_iff p).mp hp).1, ⟨hn, hp⟩, base_member n⟩⟩
  | none =>
    have hr' : V4Reading (IpAddr.display n.subnetMask) n.subnetMask := by
      obtain ⟨b0, b1, b2, b3, h1, h2⟩ := V4.display_eq n.subnetMask
      exact ⟨_, _, _, _, _, _, _, _, h2, ⟨.inl (showNat_canonical (by decide) (by decide) _).1, by have := b0.isLt; omega⟩,
        ⟨.inl (showNat_canonical (by decide) (by decide) _).1, by have := b1.isLt; omega⟩,
        ⟨.inl (showNat_canonical (by decide) (by decide) _).1, by have := b2.isLt; omega⟩,
        ⟨.inl (showNat_canonical (by decide) (by decide) _).1, by have := b3.isLt; omega⟩,
        by have := V4.toBytes_val n.subnetMask; rw [h1] at this; exact this.symm⟩
    exact ⟨_, false, IpAddr.display n.subnetMask, by simp only [Net.display, hp, specText]; simp, hq, hr,
      .inl ⟨n.subnetMask, v4_display_quad _, hr', hn, base_member n, rfl⟩⟩

/-- IPv6: exactly which networks parse back. Missing from the full claim: networks whose base (or displayed mask) has the
text that C10 shows the address parser to reject; for them the result is an error. -/
theorem C30_ipv6_partial (n : Net V6) (hn : WF n) :
    (parseNetspec n.display = .ok (.ok (.ipv6 n.baseAddr n)) ↔
      ¬ SingleZeroAtEnd (chunkVals n.baseAddr) ∧ (n.cidrPrefix = none → ¬ SingleZeroAtEnd (chunkVals n.subnetMask))) ∧
    (parseNetspec n.display ≠ .ok (.ok (.ipv6 n.baseAddr n)) → ∃ e, parseNetspec n.display = .ok (.error e)) := by
  obtain ⟨b1, b2⟩ := V6.parse_display n.baseAddr
  obtain ⟨m1, m2⟩ := V6.parse_display n.subnetMask
  change SingleZeroAtEnd (chunkVals n.baseAddr) → V6.parse (IpAddr.display n.baseAddr) = _ at b1
  change ¬ SingleZeroAtEnd (chunkVals n.baseAddr) → V6.parse (IpAddr.display n.baseAddr) = _ at b2
  change SingleZeroAtEnd (chunkVals n.subnetMask) → V6.parse (IpAddr.display n.subnetMask) = _ at m1
  change ¬ SingleZeroAtEnd (chunkVals n.subnetMask) → V6.parse (IpAddr.display n.subnetMask) = _ at m2
  obtain ⟨hb, -⟩ := v6_display_hexColon n.baseAddr
  obtain ⟨hm, hmc⟩ := v6_display_hexColon n.subnetMask
  cases hp : n.cidrPrefix with
  | some p =>
    have hd : DigitText (showNat 10 p) := numeral_digitText (showNat_canonical (by decide) (by decide) _).1
    have ht : n.display = specText (IpAddr.display n.baseAddr) false (showNat 10 p) := by
      simp only [Net.display, hp, specText]; simp
    by_cases hs : SingleZeroAtEnd (chunkVals n.baseAddr)
    · have he : parseNetspec n.display = .ok (.error (.address (.incorrectChunkCount 9 8))) := by
        rw [ht, parseNetspec_v6cidr hb hd, parseV6Cidr, b1 hs]; rfl
      rw [he]
      exact ⟨⟨fun h => (by cases h), fun h => absurd hs h.1⟩, fun _ => ⟨_, rfl⟩⟩
    · have he : parseNetspec n.display = .ok (.ok (.ipv6 n.baseAddr n)) := by
        rw [ht, parseNetspec_v6cidr hb hd, parseV6Cidr_ok hd]
        exact ⟨_, p, n, rfl, (v6Reading_iff _ _).mp (b2 hs), (showNat_canonical (by decide) (by decide) _).1,
          ((hn.prefix_iff p).mp hp).1, ⟨hn, hp⟩, base_member n⟩
      exact ⟨⟨fun _ => ⟨hs, by simp⟩, fun _ => he⟩, fun h => absurd he h⟩
  | none =>
    have ht : n.display = specText (IpAddr.display n.baseAddr) false (IpAddr.display n.subnetMask) := by
      simp only [Net.display, hp, specText]; simp
    by_cases hs : SingleZeroAtEnd (chunkVals n.baseAddr)
    · have he : parseNetspec n.display = .ok (.error (.address (.incorrectChunkCount 9 8))) := by
        rw [ht, parseNetspec_v6mask hb hm hmc, parseV6Mask, b1 hs]; rfl
      rw [he]
      exact ⟨⟨fun h => (by cases h), fun h => absurd hs h.1⟩, fun _ => ⟨_, rfl⟩⟩
    · by_cases hs' : SingleZeroAtEnd (chunkVals n.subnetMask)
      · have he : parseNetspec n.display = .ok (.error (.mask (.incorrectChunkCount 9 8))) := by
          rw [ht, parseNetspec_v6mask hb hm hmc, parseV6Mask, b2 hs, m1 hs']; rfl
        rw [he]
        exact ⟨⟨fun h => (by cases h), fun h => absurd hs' (h.2 rfl)⟩, fun _ => ⟨_, rfl⟩⟩
      · have he : parseNetspec n.display = .ok (.ok (.ipv6 n.baseAddr n)) := by
          rw [ht, parseNetspec_v6mask hb hm hmc, parseV6Mask_ok]
          exact ⟨_, _, n, rfl, (v6Reading_iff _ _).mp (b2 hs), (v6Reading_iff _ _).mp (m2 hs'), hn, base_member n,
            by rw [if_neg (by decide)]⟩
        exact ⟨⟨fun _ => ⟨hs, fun _ => hs'⟩, fun _ => he⟩, fun h => absurd he h⟩

/-- In particular every IPv6 network with a prefix of at most 96 parses back: its last two chunks are zero. -/
theorem C30_ipv6_short_prefix (n : Net V6) (p : Nat) (hn : IsCidr p n) (hp : p ≤ 96) :
    parseNetspec n.display = .ok (.ok (.ipv6 n.baseAddr n)) := by
  rw [(C30_ipv6_partial n hn.1).1]
  refine ⟨?_, by rw [hn.2]; simp⟩
  have hpm := (hn.1.prefix_iff p).mp hn.2
  have hz : ∀ i, i < 32 → (val n.baseAddr).testBit i = false := by
    intro i hi
    apply hn.1.host_zero i (by show i < 128; omega)
    rw [Bool.eq_false_iff, ne_eq, hpm.2 i (by show i < 128; omega)]
    show ¬ 128 - p ≤ i
    omega
  have hmod : val n.baseAddr % 2 ^ 32 = 0 := by
    apply Nat.eq_of_testBit_eq
    intro i
    rw [Nat.testBit_mod_two_pow, Nat.zero_testBit]
    by_cases h : i < 32
    · rw [hz i h, Bool.and_false]
    · simp [h]
  have h7 : (chunkVals n.baseAddr)[7]? = some 0 := by
    show some (val n.baseAddr / 65536 ^ 0 % 65536) = _
    congr 1; omega
  have h6 : (chunkVals n.baseAddr)[6]? = some 0 := by
    show some (val n.baseAddr / 65536 ^ 1 % 65536) = _
    congr 1; omega
  rintro (⟨-, h⟩ | ⟨-, h⟩)
  · exact h 6 ⟨h6, h7⟩
  · exact h 6 (by omega) h6

theorem C30_counterexample : ¬ ∀ n : Net V6, WF n → parseNetspec n.display = .ok (.ok (.ipv6 n.baseAddr n)) := by
  intro h
  have := h (Net.newWithMask ⟨0x0001000200030004#64, 0x0005000600070000#64⟩ ⟨0xFFFFFFFFFFFFFFFF#64, 0xFFFFFFFFFFFF0000#64⟩)
    (newWithMask_wf _ _)
  revert this
  decide +kernel

example : parseNetspec "10.0.2.0/255.0.255.0".toList = .ok (.ok (.ipv4 ⟨0x0A000200#32⟩ ⟨⟨0x0A000200#32⟩, ⟨0xFF00FF00#32⟩, none⟩)) ∧
    (⟨⟨0x0A000200#32⟩, ⟨0xFF00FF00#32⟩, none⟩ : Net V4).display = "10.0.2.0/255.0.255.0".toList := by decide +kernel

/-! ## C35: lists of networks never mix families -/

/-- `s` parses as the IPv4 pair `x`. -/
def Is4 (s : Str) (x : V4 × Net V4) : Prop := parseNetspec s = .ok (.ok (.ipv4 x.1 x.2))
/-- `s` parses as the IPv6 pair `x`. -/
def Is6 (s : Str) (x : V6 × Net V6) : Prop := parseNetspec s = .ok (.ok (.ipv6 x.1 x.2))

theorem sameFamilyLoop4_spec (acc : List (V4 × Net V4)) (ss : List Str) :
    (∃ xs, Pointwise Is4 ss xs ∧ sameFamilyLoop4 acc ss = .ok (.ok (.ipv4 (acc ++ xs)))) ∨
    (∃ pre x post ys y, ss = pre ++ x :: post ∧ Pointwise Is4 pre ys ∧ Is6 x y ∧ sameFamilyLoop4 acc ss = .ok (.ok .mixedSpecs)) ∨
    (∃ pre x post ys e, ss = pre ++ x :: post ∧ Pointwise Is4 pre ys ∧ parseNetspec x = .ok (.error e) ∧
      sameFamilyLoop4 acc ss = .ok (.error e)) := by
  induction ss generalizing acc with
  | nil => exact .inl ⟨[], .nil, by simp [sameFamilyLoop4]⟩
  | cons s rest ih =>
    obtain ⟨r, hr⟩ := parseNetspec_total s
    rw [sameFamilyLoop4, hr, Exec.ok_bind]
    cases r with
    | error e => exact .inr (.inr ⟨[], s, rest, [], e, rfl, .nil, hr, rfl⟩)
    | ok x =>
      cases x with
      | ipv6 a n => exact .inr (.inl ⟨[], s, rest, [], (a, n), rfl, .nil, hr, rfl⟩)
      | ipv4 a n =>
        rcases ih (acc ++ [(a, n)]) with ⟨xs, h1, h2⟩ | ⟨pre, x, post, ys, y, h1, h2, h3, h4⟩ | ⟨pre, x, post, ys, e, h1, h2, h3, h4⟩
        · exact .inl ⟨(a, n) :: xs, .cons hr h1, by simpa using h2⟩
        · exact .inr (.inl ⟨s :: pre, x, post, (a, n) :: ys, y, by rw [h1]; rfl, .cons hr h2, h3, h4⟩)
        · exact .inr (.inr ⟨s :: pre, x, post, (a, n) :: ys, e, by rw [h1]; rfl, .cons hr h2, h3, h4⟩)

theorem sameFamilyLoop6_spec (acc : List (V6 × Net V6)) (ss : List Str) :
    (∃ xs, Pointwise Is6 ss xs ∧ sameFamilyLoop6 acc ss = .ok (.ok (.ipv6 (acc ++ xs)))) ∨
    (∃ pre x post ys y, ss = pre ++ x :: post ∧ Pointwise Is6 pre ys ∧ Is4 x y ∧ sameFamilyLoop6 acc ss = .ok (.ok .mixedSpecs)) ∨
    (∃ pre x post ys e, ss = pre ++ x :: post ∧ Pointwise Is6 pre ys ∧ parseNetspec x = .ok (.error e) ∧
      sameFamilyLoop6 acc ss = .ok (.error e)) := by
  induction ss generalizing acc with
  | nil => exact .inl ⟨[], .nil, by simp [sameFamilyLoop6]⟩
  | cons s rest ih =>
    obtain ⟨r, hr⟩ := parseNetspec_total s
    rw [sameFamilyLoop6, hr, Exec.ok_bind]
    cases r with
    | error e => exact .inr (.inr ⟨[], s, rest, [], e, rfl, .nil, hr, rfl⟩)
    | ok x =>
      cases x with
      | ipv4 a n => exact .inr (.inl ⟨[], s, rest, [], (a, n), rfl, .nil, hr, rfl⟩)
      | ipv6 a n =>
        rcases ih (acc ++ [(a, n)]) with ⟨xs, h1, h2⟩ | ⟨pre, x, post, ys, y, h1, h2, h3, h4⟩ | ⟨pre, x, post, ys, e, h1, h2, h3, h4⟩
        · exact .inl ⟨(a, n) :: xs, .cons hr h1, by simpa using h2⟩
        · exact .inr (.inl ⟨s :: pre, x, post, (a, n) :: ys, y, by rw [h1]; rfl, .cons hr h2, h3, h4⟩)
        · exact .inr (.inr ⟨s :: pre, x, post, (a, n) :: ys, e, by rw [h1]; rfl, .cons hr h2, h3, h4⟩)

/-- One of these five cases always holds, with the result given; `C35_lists` reads it from the result. -/
theorem C35_same_family (ss : List Str) :
    (ss = [] ∧ parseSameFamilyNetspecs ss = .ok (.ok .nothing)) ∨
    (∃ xs, xs ≠ [] ∧ Pointwise Is4 ss xs ∧ parseSameFamilyNetspecs ss = .ok (.ok (.ipv4 xs))) ∨
    (∃ xs, xs ≠ [] ∧ Pointwise Is6 ss xs ∧ parseSameFamilyNetspecs ss = .ok (.ok (.ipv6 xs))) ∨
    (∃ pre x post, ss = pre ++ x :: post ∧ pre ≠ [] ∧
      ((∃ ys y, Pointwise Is4 pre ys ∧ Is6 x y) ∨ (∃ ys y, Pointwise Is6 pre ys ∧ Is4 x y)) ∧
      parseSameFamilyNetspecs ss = .ok (.ok .mixedSpecs)) ∨
    (∃ pre x post e, ss = pre ++ x :: post ∧ ((∃ ys, Pointwise Is4 pre ys) ∨ (∃ ys, Pointwise Is6 pre ys)) ∧
      parseNetspec x = .ok (.error e) ∧ parseSameFamilyNetspecs ss = .ok (.error e)) := by
  cases ss with
  | nil => exact .inl ⟨rfl, rfl⟩
  | cons s rest =>
    right
    obtain ⟨r, hr⟩ := parseNetspec_total s
    rw [parseSameFamilyNetspecs, hr, Exec.ok_bind]
    cases r with
    | error e => exact .inr (.inr (.inr ⟨[], s, rest, e, rfl, .inl ⟨[], .nil⟩, hr, rfl⟩))
    | ok x =>
      cases x with
      | ipv4 a n =>
        rcases sameFamilyLoop4_spec [(a, n)] rest with ⟨xs, h1, h2⟩ | ⟨pre, x, post, ys, y, h1, h2, h3, h4⟩ |
          ⟨pre, x, post, ys, e, h1, h2, h3, h4⟩
        · exact .inl ⟨(a, n) :: xs, by simp, .cons hr h1, by simpa using h2⟩
        · exact .inr (.inr (.inl ⟨s :: pre, x, post, by rw [h1]; rfl, by simp, .inl ⟨(a, n) :: ys, y, .cons hr h2, h3⟩, h4⟩))
        · exact .inr (.inr (.inr ⟨s :: pre, x, post, e, by rw [h1]; rfl, .inl ⟨(a, n) :: ys, .cons hr h2⟩, h3, h4⟩))
      | ipv6 a n =>
        rcases sameFamilyLoop6_spec [(a, n)] rest with ⟨xs, h1, h2⟩ | ⟨pre, x, post, ys, y, h1, h2, h3, h4⟩ |
          ⟨pre, x, post, ys, e, h1, h2, h3, h4⟩
        · exact .inr (.inl ⟨(a, n) :: xs, by simp, .cons hr h1, by simpa using h2⟩)
        · exact .inr (.inr (.inl ⟨s :: pre, x, post, by rw [h1]; rfl, by simp, .inr ⟨(a, n) :: ys, y, .cons hr h2, h3⟩, h4⟩))
        · exact .inr (.inr (.inr ⟨s :: pre, x, post, e, by rw [h1]; rfl, .inr ⟨(a, n) :: ys, .cons hr h2⟩, h3, h4⟩))

/-- Hence, read from the result: all of one family if and only if a list is returned, in input order. -/
theorem C35_lists (ss : List Str) :
    (∀ xs, parseSameFamilyNetspecs ss = .ok (.ok (.ipv4 xs)) ↔ ss ≠ [] ∧ Pointwise Is4 ss xs) ∧
    (∀ xs, parseSameFamilyNetspecs ss = .ok (.ok (.ipv6 xs)) ↔ ss ≠ [] ∧ Pointwise Is6 ss xs) ∧
    (parseSameFamilyNetspecs ss = .ok (.ok .nothing) ↔ ss = []) := by
  have u4 : ∀ s a b, Is4 s a → Is4 s b → a = b := by
    intro s a b h h'
    rw [Is4, h] at h'
    simp only [Exec.ok.injEq, Except.ok.injEq, NetworkSpec.ipv4.injEq] at h'
    exact Prod.ext h'.1 h'.2
  have u6 : ∀ s a b, Is6 s a → Is6 s b → a = b := by
    intro s a b h h'
    rw [Is6, h] at h'
    simp only [Exec.ok.injEq, Except.ok.injEq, NetworkSpec.ipv6.injEq] at h'
    exact Prod.ext h'.1 h'.2
  have x46 : ∀ s a b, Is4 s a → Is6 s b → False := by
    intro s a b h h'
    rw [Is6, h] at h'
    cases h'
  have mem {α : Type} {R : Str → α → Prop} {l : List Str} {k : List α} (h : Pointwise R l k) : ∀ s ∈ l, ∃ x, R s x :=
    fun s hs => (Pointwise.mem h s hs).imp fun _ h => h.2
  have ne {α : Type} {R : Str → α → Prop} {l : List Str} {k : List α} (h : Pointwise R l k) (hk : k ≠ []) : l ≠ [] := by
    rintro rfl; cases h; exact hk rfl
  refine ⟨fun xs => ⟨fun h => ?_, ?_⟩, fun xs => ⟨fun h => ?_, ?_⟩, ⟨fun h => ?_, ?_⟩⟩
  · rcases C35_same_family ss with ⟨-, h'⟩ | ⟨ys, h1, h2, h'⟩ | ⟨ys, h1, h2, h'⟩ | ⟨_, _, _, -, -, -, h'⟩ | ⟨_, _, _, _, -, -, -, h'⟩ <;>
      rw [h] at h' <;> cases h'
    exact ⟨ne h2 h1, h2⟩
  · rintro ⟨hne, hp⟩
    rcases C35_same_family ss with ⟨h, -⟩ | ⟨ys, h1, h2, h'⟩ | ⟨ys, h1, h2, h'⟩ | ⟨pre, x, post, rfl, hp', h2, -⟩ | ⟨pre, x, post, e, rfl, h2, h3, -⟩
    · exact absurd h hne
    · rw [h', Pointwise.unique u4 hp h2]
    · obtain ⟨s, hs⟩ := List.exists_mem_of_ne_nil ss hne
      obtain ⟨a, ha⟩ := mem hp s hs
      obtain ⟨b, hb⟩ := mem h2 s hs
      exact (x46 s a b ha hb).elim
    · rcases h2 with ⟨ys, y, h3, h4⟩ | ⟨ys, y, h3, h4⟩
      · obtain ⟨a, ha⟩ := mem hp x (by simp)
        exact (x46 x a y ha h4).elim
      · obtain ⟨s, hs⟩ := List.exists_mem_of_ne_nil pre hp'
        obtain ⟨a, ha⟩ := mem hp s (by simp [hs])
        obtain ⟨b, hb⟩ := mem h3 s hs
        exact (x46 s a b ha hb).elim
    · obtain ⟨a, ha⟩ := mem hp x (by simp)
      rw [Is4, h3] at ha; cases ha
  · rcases C35_same_family ss with ⟨-, h'⟩ | ⟨ys, h1, h2, h'⟩ | ⟨ys, h1, h2, h'⟩ | ⟨_, _, _, -, -, -, h'⟩ | ⟨_, _, _, _, -, -, -, h'⟩ <;>
      rw [h] at h' <;> cases h'
    exact ⟨ne h2 h1, h2⟩
  · rintro ⟨hne, hp⟩
    rcases C35_same_family ss with ⟨h, -⟩ | ⟨ys, h1, h2, h'⟩ | ⟨ys, h1, h2, h'⟩ | ⟨pre, x, post, rfl, hp', h2, -⟩ | ⟨pre, x, post, e, rfl, h2, h3, -⟩
    · exact absurd h hne
    · obtain ⟨s, hs⟩ := List.exists_mem_of_ne_nil ss hne
      obtain ⟨a, ha⟩ := mem hp s hs
      obtain ⟨b, hb⟩ := mem h2 s hs
      exact (x46 s b a hb ha).elim
    · rw [h', Pointwise.unique u6 hp h2]
    · rcases h2 with ⟨ys, y, h3, h4⟩ | ⟨ys, y, h3, h4⟩
      · obtain ⟨s, hs⟩ := List.exists_mem_of_ne_nil pre hp'
        obtain ⟨a, ha⟩ := mem hp s (by simp [hs])
        obtain ⟨b, hb⟩ := mem h3 s hs
        exact (x46 s b a hb ha).elim
      · obtain ⟨a, ha⟩ := mem hp x (by simp)
        exact (x46 x y a h4 ha).elim
    · obtain ⟨a, ha⟩ := mem hp x (by simp)
      rw [Is6, h3] at ha; cases ha
  · rcases C35_same_family ss with ⟨h1, h'⟩ | ⟨ys, h1, h2, h'⟩ | ⟨ys, h1, h2, h'⟩ | ⟨_, _, _, -, -, -, h'⟩ | ⟨_, _, _, _, -, -, -, h'⟩ <;>
      rw [h] at h' <;> cases h'
    exact h1
  · rintro rfl; rfl

example : parseSameFamilyNetspecs ["1.2.3.4/8".toList, "::1/8".toList, "bad".toList] = .ok (.ok .mixedSpecs) ∧
    parseSameFamilyNetspecs ["1.2.3.4/8".toList, "bad".toList, "::1/8".toList] = .ok (.error (.unrecognized "bad".toList)) := by
  decide +kernel

/-! ## C36: single addresses are classified by their separator -/

theorem V4Reading.chars {s : Str} {a : V4} (h : V4Reading s a) : '.' ∈ s ∧ ':' ∉ s := by
  obtain ⟨t0, t1, t2, t3, v0, v1, v2, v3, rfl, h0, h1, h2, h3, -⟩ := h
  have nc : ∀ {t : Str} {v : Nat}, PlusNumeral 10 t v → ':' ∉ t := fun h => h.not_mem (by decide)
  simp [nc h0.1, nc h1.1, nc h2.1, nc h3.1]

theorem C36_parse_addr (s : Str) :
    (∃ r, parseAddr s = .ok r) ∧
    (∀ a, parseAddr s = .ok (.ok (.ipv4 a)) ↔ '.' ∈ s ∧ ':' ∉ s ∧ V4Reading s a) ∧
    (∀ a, parseAddr s = .ok (.ok (.ipv6 a)) ↔ ':' ∈ s ∧ '.' ∉ s ∧ V6Reading s a) ∧
    (('.' ∈ s ↔ ':' ∈ s) → parseAddr s = .ok (.error .unknownAddressType)) := by
  obtain ⟨r, hr⟩ := V6.parse_total s
  by_cases hd : '.' ∈ s <;> by_cases hc : ':' ∈ s
  · have : parseAddr s = .ok (.error .unknownAddressType) := by
      rw [parseAddr, if_pos ((hasChar_iff _ _).mpr hd), if_pos ((hasChar_iff _ _).mpr hc)]; rfl
    simp [this, hd, hc]
  · have hc' : ¬ hasChar ':' s = true := by rw [hasChar_iff]; exact hc
    rw [parseAddr, if_pos ((hasChar_iff _ _).mpr hd), if_neg hc']
    simp only [← v4Reading_iff]
    cases hp : V4.parse s with
    | ok a => simp [hd, hc]
    | error e => simp [hd, hc]
  · have hd' : ¬ hasChar '.' s = true := by rw [hasChar_iff]; exact hd
    rw [parseAddr, if_neg hd', if_pos ((hasChar_iff _ _).mpr hc)]
    simp only [← v6Reading_iff, hr, Exec.ok_bind]
    cases r with
    | ok a => simp [hd, hc]
    | error e => simp [hd, hc]
  · have hd' : ¬ hasChar '.' s = true := by rw [hasChar_iff]; exact hd
    have hc' : ¬ hasChar ':' s = true := by rw [hasChar_iff]; exact hc
    have : parseAddr s = .ok (.error .unknownAddressType) := by
      rw [parseAddr, if_neg hd', if_neg hc']; rfl
    simp [this, hd, hc]

theorem C36_parse_subnet (s : Str) :
    (∃ r, parseSubnet s = .ok r) ∧
    (∀ m, parseSubnet s = .ok (.ok (.ipv6Mask m)) ↔ ':' ∈ s ∧ V6Reading s m) ∧
    (∀ m, parseSubnet s = .ok (.ok (.ipv4Mask m)) ↔ ':' ∉ s ∧ '.' ∈ s ∧ V4Reading s m) ∧
    (∀ p, parseSubnet s = .ok (.ok (.cidr p)) ↔ ':' ∉ s ∧ '.' ∉ s ∧ PlusNumeral 10 s p ∧ p < 2 ^ 64) := by
  obtain ⟨r, hr⟩ := V6.parse_total s
  have hu : ∀ p, (PlusNumeral 10 s p ∧ p < 2 ^ 64) ↔ parseUsize s = .ok p := by
    intro p
    rw [parseUsize, parseUnsigned_iff (by decide) (by decide)]
    constructor
    · rintro ⟨h1, h2⟩; exact ⟨h1, by omega⟩
    · rintro ⟨h1, h2⟩; exact ⟨h1, by omega⟩
  simp only [hu]
  by_cases hc : ':' ∈ s
  · rw [parseSubnet, if_pos ((hasChar_iff _ _).mpr hc)]
    simp only [← v6Reading_iff, hr, Exec.ok_bind]
    cases r with
    | ok a => simp [hc]
    | error e => simp [hc]
  · have hc' : ¬ hasChar ':' s = true := by rw [hasChar_iff]; exact hc
    by_cases hd : '.' ∈ s
    · rw [parseSubnet, if_neg hc', if_pos ((hasChar_iff _ _).mpr hd)]
      simp only [← v4Reading_iff]
      cases hp : V4.parse s with
      | ok a => simp [hd, hc]
      | error e => simp [hd, hc]
    · have hd' : ¬ hasChar '.' s = true := by rw [hasChar_iff]; exact hd
      rw [parseSubnet, if_neg hc', if_neg hd']
      cases hp : parseUsize s with
      | ok a => simp [hd, hc]
      | error e => simp [hd, hc]

example : parseAddr "::1".toList = .ok (.ok (.ipv6 ⟨0#64, 1#64⟩)) ∧ parseAddr "1.2.3.4".toList = .ok (.ok (.ipv4 ⟨0x01020304#32⟩)) ∧
    parseAddr "::1.2.3.4".toList = .ok (.error .unknownAddressType) ∧ parseSubnet "+24".toList = .ok (.ok (.cidr 24)) := by
  decide +kernel

end Ripcalc
