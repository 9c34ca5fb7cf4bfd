import Verif.Proofs.Regex
import Verif.Proofs.V6RoundTrip
import Verif.Proofs.Net
/-!
# Lemmas about `parse_netspec` and its relatives
-/
set_option linter.unusedSectionVars false
namespace Ripcalc
open AddrSpec LawfulIpAddr

theorem v4Reading_iff (s : Str) (a : V4) : V4.parse s = .ok a ↔ V4Reading s a := V4.parse_iff s a

theorem v6Reading_iff (s : Str) (a : V6) : V6.parse s = .ok (.ok a) ↔ V6Reading s a := by
  rw [V6.parse_iff, V6Reading]
  simp only [List.append_assoc, List.singleton_append, Nat.lt_succ_iff, Nat.sub_sub]

theorem V4Reading.unique {s : Str} {a b : V4} (h : V4Reading s a) (h' : V4Reading s b) : a = b := by
  rw [← v4Reading_iff] at h h'
  rw [h] at h'; cases h'; rfl

theorem V6Reading.unique {s : Str} {a b : V6} (h : V6Reading s a) (h' : V6Reading s b) : a = b := by
  rw [← v6Reading_iff] at h h'
  rw [h] at h'; cases h'; rfl

/-! ## the frame -/

theorem append_slash_inj {a b x y : Str} (hx : '/' ∉ x) (hy : '/' ∉ y) (h : a ++ '/' :: x = b ++ '/' :: y) : a = b ∧ x = y := by
  have h' := congrArg List.reverse h
  simp only [List.reverse_append, List.reverse_cons, List.append_assoc, List.singleton_append] at h'
  have h1 : cutSlash (x.reverse ++ '/' :: a.reverse) = some (x.reverse, a.reverse) :=
    (cutSlash_iff _ _ _).mpr ⟨by simpa using hx, rfl⟩
  have h2 : cutSlash (y.reverse ++ '/' :: b.reverse) = some (y.reverse, b.reverse) :=
    (cutSlash_iff _ _ _).mpr ⟨by simpa using hy, rfl⟩
  rw [h', h2] at h1
  simp only [Option.some.injEq, Prod.mk.injEq, List.reverse_inj] at h1
  exact ⟨h1.2.symm, h1.1.symm⟩

theorem specText_inj {a a' l l' : Str} {w w' : Bool} (h : specText a w l = specText a' w' l') (hl : '/' ∉ l) (hl' : '/' ∉ l')
    (hm : l.head? ≠ some '-') (hm' : l'.head? ≠ some '-') : a = a' ∧ w = w' ∧ l = l' := by
  have n : ∀ (w : Bool) (l : Str), '/' ∉ l → '/' ∉ (if w then ['-'] else []) ++ l := by
    intro w l h; cases w <;> simp [h]
  obtain ⟨h1, h2⟩ := append_slash_inj (n w l hl) (n w' l' hl') h
  refine ⟨h1, ?_⟩
  cases w <;> cases w' <;> simp at h2
  · exact ⟨rfl, h2⟩
  · subst h2; simp at hm
  · subst h2; simp at hm'
  · exact ⟨rfl, h2⟩

theorem DigitText.no_slash {s : Str} (h : DigitText s) : '/' ∉ s := h.not_mem (by decide)
theorem QuadText.no_slash {s : Str} (h : QuadText s) : '/' ∉ s := h.not_mem (by decide)
theorem HexColonText.no_slash {s : Str} (h : HexColonText s) : '/' ∉ s := h.not_mem (by decide)
theorem QuadText.dot {s : Str} (h : QuadText s) : '.' ∈ s := by
  obtain ⟨t0, t1, t2, t3, rfl, -⟩ := h; simp
theorem DigitText.no_dot {s : Str} (h : DigitText s) : '.' ∉ s := h.not_mem (by decide)
theorem DigitText.no_colon {s : Str} (h : DigitText s) : ':' ∉ s := h.not_mem (by decide)
theorem HexColonText.no_dot {s : Str} (h : HexColonText s) : '.' ∉ s := h.not_mem (by decide)

theorem parseNetspec_v4mask {t l : Str} {w : Bool} (ht : QuadText t) (hl : QuadText l) :
    parseNetspec (specText t w l) = .ok (parseV4Mask t w l) := by
  rw [parseNetspec, (ipv4WithSubnet_iff _ _ _ _).mpr ⟨rfl, ht, hl⟩]; rfl

theorem none_of {α : Type} {o : Option α} (h : ∀ x, o ≠ some x) : o = none := by
  cases o with
  | none => rfl
  | some x => exact absurd rfl (h x)

theorem parseNetspec_v4cidr {t l : Str} {w : Bool} (ht : QuadText t) (hl : DigitText l) :
    parseNetspec (specText t w l) = parseV4Cidr t w l := by
  have h1 : ipv4WithSubnet (specText t w l) = none := by
    apply none_of
    rintro ⟨a, w', l'⟩ h
    obtain ⟨e, h1, h2⟩ := (ipv4WithSubnet_iff _ _ _ _).mp h
    obtain ⟨rfl, rfl, rfl⟩ := specText_inj e hl.no_slash h2.no_slash (digit_head hl) (quad_head h2)
    exact hl.no_dot h2.dot
  rw [parseNetspec, h1, (ipv4WithCidr_iff _ _ _ _).mpr ⟨rfl, ht, hl⟩]

theorem not_v4 {t l : Str} {w : Bool} (ht : HexColonText t) (hs : '/' ∉ l) (hm : l.head? ≠ some '-') :
    ipv4WithSubnet (specText t w l) = none ∧ ipv4WithCidr (specText t w l) = none := by
  constructor
  · apply none_of
    rintro ⟨a, w', l'⟩ h
    obtain ⟨e, h1, h2⟩ := (ipv4WithSubnet_iff _ _ _ _).mp h
    obtain ⟨rfl, rfl, rfl⟩ := specText_inj e hs h2.no_slash hm (quad_head h2)
    exact ht.no_dot h1.dot
  · apply none_of
    rintro ⟨a, w', l'⟩ h
    obtain ⟨e, h1, h2⟩ := (ipv4WithCidr_iff _ _ _ _).mp h
    obtain ⟨rfl, rfl, rfl⟩ := specText_inj e hs h2.no_slash hm (digit_head h2)
    exact ht.no_dot h1.dot

theorem parseNetspec_v6mask {t l : Str} {w : Bool} (ht : HexColonText t) (hl : HexColonText l) (hc : ':' ∈ l) :
    parseNetspec (specText t w l) = parseV6Mask t w l := by
  obtain ⟨h1, h2⟩ := not_v4 (w := w) ht hl.no_slash (hexColon_head hl)
  rw [parseNetspec, h1, h2, (ipv6WithSubnet_iff _ _ _ _).mpr ⟨rfl, ht, hl, hc⟩]

theorem parseNetspec_v6cidr {t l : Str} {w : Bool} (ht : HexColonText t) (hl : DigitText l) :
    parseNetspec (specText t w l) = parseV6Cidr t w l := by
  obtain ⟨h1, h2⟩ := not_v4 (w := w) ht hl.no_slash (digit_head hl)
  have h3 : ipv6WithSubnet (specText t w l) = none := by
    apply none_of
    rintro ⟨a, w', l'⟩ h
    obtain ⟨e, h1, h2, h4⟩ := (ipv6WithSubnet_iff _ _ _ _).mp h
    obtain ⟨rfl, rfl, rfl⟩ := specText_inj e hl.no_slash h2.no_slash (digit_head hl) (hexColon_head h2)
    exact hl.no_colon h4
  rw [parseNetspec, h1, h2, h3, (ipv6WithCidr_iff _ _ _ _).mpr ⟨rfl, ht, hl⟩]

/-- The shape of the strings that one of the four regular expressions recognises. -/
def NetspecShape (t l : Str) : Prop :=
  (QuadText t ∧ (QuadText l ∨ DigitText l)) ∨ (HexColonText t ∧ ((HexColonText l ∧ ':' ∈ l) ∨ DigitText l))

theorem parseNetspec_cases (s : Str) :
    (∃ t w l, s = specText t w l ∧ NetspecShape t l) ∨
    ((¬ ∃ t w l, s = specText t w l ∧ NetspecShape t l) ∧ parseNetspec s = .ok (.error (.unrecognized s))) := by
  by_cases h : ∃ t w l, s = specText t w l ∧ NetspecShape t l
  · exact .inl h
  · refine .inr ⟨h, ?_⟩
    have h1 : ipv4WithSubnet s = none := none_of fun ⟨a, w, l⟩ e =>
      have ⟨e, h1, h2⟩ := (ipv4WithSubnet_iff _ _ _ _).mp e
      h ⟨a, w, l, e, .inl ⟨h1, .inl h2⟩⟩
    have h2 : ipv4WithCidr s = none := none_of fun ⟨a, w, l⟩ e =>
      have ⟨e, h1, h2⟩ := (ipv4WithCidr_iff _ _ _ _).mp e
      h ⟨a, w, l, e, .inl ⟨h1, .inr h2⟩⟩
    have h3 : ipv6WithSubnet s = none := none_of fun ⟨a, w, l⟩ e =>
      have ⟨e, h1, h2, h3⟩ := (ipv6WithSubnet_iff _ _ _ _).mp e
      h ⟨a, w, l, e, .inr ⟨h1, .inl ⟨h2, h3⟩⟩⟩
    have h4 : ipv6WithCidr s = none := none_of fun ⟨a, w, l⟩ e =>
      have ⟨e, h1, h2⟩ := (ipv6WithCidr_iff _ _ _ _).mp e
      h ⟨a, w, l, e, .inr ⟨h1, .inr h2⟩⟩
    rw [parseNetspec, h1, h2, h3, h4]; rfl

/-! ## the network of an address -/

section generic
variable {A : Type} [IpAddr A] [AddrSpec A] [LawfulIpAddr A]

theorem newWithMask_iff (n : Net A) (a m : A) : n = Net.newWithMask a m ↔ NetOfMask n a (val m) := by
  constructor
  · rintro rfl
    refine ⟨newWithMask_wf a m, ?_, rfl⟩
    rw [← and_mask_eq_iff _ (newWithMask_wf a m).hz]; rfl
  · rintro ⟨h1, h2, h3⟩
    have hm : n.subnetMask = m := val_inj _ _ h3
    have hb : IpAddr.and a n.subnetMask = n.baseAddr := (and_mask_eq_iff n h1.hz a).mpr h2
    have hp : n.cidrPrefix = (Net.newWithMask a m).cidrPrefix := by
      apply Option.ext
      intro p
      rw [h1.prefix_iff, (newWithMask_wf a m).prefix_iff, hm]; rfl
    cases n
    simp only at hm hb hp
    subst hm
    rw [Net.newWithMask, ← hb]
    rw [hp]; rfl

theorem newWithPrefix_iff (n : Net A) (a : A) (p : Nat) (hp : p ≤ width A) :
    Net.newWithPrefix a p = .ok n ↔ NetOfPrefix n a p := by
  obtain ⟨m, _, hm⟩ := maskOfPrefix A p
  rw [show min p (width A) = p by omega] at hm
  rw [newWithPrefix_eq_mask a m hm]
  constructor
  · intro h
    cases h
    obtain ⟨h1, h2, h3⟩ := (newWithMask_iff _ a m).mp rfl
    exact ⟨⟨h1, (h1.prefix_iff p).mpr hm⟩, h2⟩
  · rintro ⟨⟨h1, h2⟩, h3⟩
    have : n.subnetMask = m := isPrefixMask_inj ((h1.prefix_iff p).mp h2) hm
    rw [(newWithMask_iff n a m).mpr ⟨h1, h3, by rw [this]⟩]

end generic

theorem numeral_digitText {s : Str} {v : Nat} (h : Numeral 10 s v) : DigitText s := by
  obtain ⟨h1, ds, h2, -⟩ := h
  refine ⟨h1, ?_⟩
  clear h1
  induction h2 with
  | nil => simp
  | cons h3 h4 _ ih =>
    intro c hc
    rcases List.mem_cons.mp hc with rfl | hc
    · rename_i d _ _ _
      have t : ∀ d, d < 10 → ∃ c, lowerDigits[d]? = some c ∧ upperDigits[d]? = some c ∧
          c ∈ ['0', '1', '2', '3', '4', '5', '6', '7', '8', '9'] := by
        intro d hd
        match d, hd with
        | 0, _ => exact ⟨_, rfl, rfl, by simp⟩
        | 1, _ => exact ⟨_, rfl, rfl, by simp⟩
        | 2, _ => exact ⟨_, rfl, rfl, by simp⟩
        | 3, _ => exact ⟨_, rfl, rfl, by simp⟩
        | 4, _ => exact ⟨_, rfl, rfl, by simp⟩
        | 5, _ => exact ⟨_, rfl, rfl, by simp⟩
        | 6, _ => exact ⟨_, rfl, rfl, by simp⟩
        | 7, _ => exact ⟨_, rfl, rfl, by simp⟩
        | 8, _ => exact ⟨_, rfl, rfl, by simp⟩
        | 9, _ => exact ⟨_, rfl, rfl, by simp⟩
        | n + 10, h => omega
      obtain ⟨c', h5, h6, h7⟩ := t d h4
      rcases h3 with h3 | h3
      · rw [h5] at h3; cases h3; exact h7
      · rw [h6] at h3; cases h3; exact h7
    · exact ih c hc

theorem digitText_numeral {s : Str} (h : DigitText s) : ∃ v, Numeral 10 s v := by
  obtain ⟨h1, h2⟩ := h
  have : ∃ ds, Digits 10 s ds := by
    clear h1
    induction s with
    | nil => exact ⟨[], .nil⟩
    | cons c s ih =>
      obtain ⟨ds, hd⟩ := ih fun d hd => h2 d (List.mem_cons_of_mem _ hd)
      have hc := h2 c List.mem_cons_self
      have hk : ∃ k, k < 10 ∧ lowerDigits[k]? = some c := by
        have t : ∀ d ∈ ['0', '1', '2', '3', '4', '5', '6', '7', '8', '9'], ∃ k ∈ List.range 10, lowerDigits[k]? = some d := by decide
        obtain ⟨k, hk, h⟩ := t c hc
        exact ⟨k, List.mem_range.mp hk, h⟩
      obtain ⟨k, hk, hk'⟩ := hk
      exact ⟨k :: ds, .cons (.inl hk') hk hd⟩
  obtain ⟨ds, h⟩ := this
  exact ⟨_, h1, ds, h, rfl⟩

theorem plusNumeral_of_digitText {s : Str} {v : Nat} (hd : DigitText s) (h : PlusNumeral 10 s v) : Numeral 10 s v := by
  rcases h with h | ⟨t, rfl, -⟩
  · exact h
  · exact absurd List.mem_cons_self (hd.not_mem (c := '+') (by decide))

theorem parseUsize_iff {s : Str} (hd : DigitText s) (v : Nat) : parseUsize s = .ok v ↔ Numeral 10 s v ∧ v < 2 ^ 64 := by
  rw [parseUsize, parseUnsigned_iff (by decide) (by decide)]
  constructor
  · rintro ⟨h, h2⟩; exact ⟨plusNumeral_of_digitText hd h, by omega⟩
  · rintro ⟨h, h2⟩; exact ⟨.inl h, by omega⟩

/-! ## the branches -/

theorem maskValV4 (w : Bool) (m : V4) : val (if w then IpAddr.negate m else m) = if w then 2 ^ 32 - 1 - val m else val m := by
  have hw : width V4 = 32 := rfl
  cases w
  · simp only [Bool.false_eq_true, if_false]
  · simp only [if_true]; rw [val_negate, hw]

theorem parseV4Mask_ok {t l : Str} {w : Bool} {x : NetworkSpec} :
    parseV4Mask t w l = .ok x ↔ ∃ a m n, x = .ipv4 a n ∧ V4Reading t a ∧ V4Reading l m ∧
      NetOfMask n a (if w then 2 ^ 32 - 1 - val m else val m) := by
  simp only [← v4Reading_iff]
  rw [parseV4Mask]
  constructor
  · intro h
    split at h
    · cases h
    · rename_i a ha
      split at h
      · cases h
      · rename_i m hm
        cases h
        refine ⟨a, m, _, rfl, ha, hm, ?_⟩
        rw [← maskValV4]; exact (newWithMask_iff _ _ _).mp rfl
  · rintro ⟨a, m, n, rfl, ha, hm, hn⟩
    rw [ha, hm]
    rw [(newWithMask_iff n a (if w then IpAddr.negate m else m)).mpr (by rw [maskValV4]; exact hn)]

theorem parseV4Cidr_ok {t l : Str} {w : Bool} {x : NetworkSpec} (hl : DigitText l) :
    parseV4Cidr t w l = .ok (.ok x) ↔ ∃ a p n, x = .ipv4 a n ∧ V4Reading t a ∧ Numeral 10 l p ∧ p ≤ 32 ∧
      NetOfPrefix n a (if w then 32 - p else p) := by
  simp only [← v4Reading_iff]
  rw [parseV4Cidr]
  constructor
  · intro h
    split at h
    · cases h
    · rename_i a ha
      split at h
      · cases h
      · rename_i p hp
        split at h
        · cases h
        · rename_i hle
          obtain ⟨n, h1, h2, h3⟩ := newWithPrefix_wf (a := a) (p := if w then 32 - p else p)
            (show _ ≤ 32 by split <;> omega)
          simp only [h1, Exec.ok_bind] at h
          cases h
          exact ⟨a, p, n, rfl, ha, ((parseUsize_iff hl p).mp hp).1, by omega, h2, h3⟩
  · rintro ⟨a, p, n, rfl, ha, hp, hle, hn⟩
    have hp' := (parseUsize_iff hl p).mpr ⟨hp, by omega⟩
    have hn' := (newWithPrefix_iff n a (if w then 32 - p else p) (show _ ≤ 32 by split <;> omega)).mpr hn
    simp only [ha, hp', hn', if_neg (show ¬ p > 32 by omega), Exec.ok_bind]
    rfl

theorem parseV4Cidr_total (t l : Str) (w : Bool) : ∃ r, parseV4Cidr t w l = .ok r := by
  rw [parseV4Cidr]
  split
  · exact ⟨_, rfl⟩
  · rename_i a _
    split
    · exact ⟨_, rfl⟩
    · rename_i p _
      split
      · exact ⟨_, rfl⟩
      · obtain ⟨n, h1, -⟩ := newWithPrefix_wf (a := a) (p := if w then 32 - p else p) (show _ ≤ 32 by split <;> omega)
        simp only [h1, Exec.ok_bind]
        exact ⟨_, rfl⟩

theorem maskValV6 (w : Bool) (m : V6) : val (if w then IpAddr.negate m else m) = if w then 2 ^ 128 - 1 - val m else val m := by
  have hw : width V6 = 128 := rfl
  cases w
  · simp only [Bool.false_eq_true, if_false]
  · simp only [if_true]; rw [val_negate, hw]

theorem parseV6Mask_ok {t l : Str} {w : Bool} {x : NetworkSpec} :
    parseV6Mask t w l = .ok (.ok x) ↔ ∃ a m n, x = .ipv6 a n ∧ V6Reading t a ∧ V6Reading l m ∧
      NetOfMask n a (if w then 2 ^ 128 - 1 - val m else val m) := by
  simp only [← v6Reading_iff]
  rw [parseV6Mask]
  obtain ⟨r, hr⟩ := V6.parse_total t
  obtain ⟨r', hr'⟩ := V6.parse_total l
  rw [hr, hr', Exec.ok_bind]
  constructor
  · intro h
    cases r with
    | error e => cases h
    | ok a =>
      simp only [Exec.ok_bind] at h
      cases r' with
      | error e => cases h
      | ok m =>
        cases h
        refine ⟨a, m, _, rfl, rfl, rfl, ?_⟩
        rw [← maskValV6]; exact (newWithMask_iff _ _ _).mp rfl
  · rintro ⟨a, m, n, rfl, ha, hm, hn⟩
    cases ha; cases hm
    simp only [Exec.ok_bind]
    rw [(newWithMask_iff n a (if w then IpAddr.negate m else m)).mpr (by rw [maskValV6]; exact hn)]
    rfl

theorem parseV6Mask_total (t l : Str) (w : Bool) : ∃ r, parseV6Mask t w l = .ok r := by
  rw [parseV6Mask]
  obtain ⟨r, hr⟩ := V6.parse_total t
  obtain ⟨r', hr'⟩ := V6.parse_total l
  rw [hr, hr', Exec.ok_bind]
  cases r with
  | error e => exact ⟨_, rfl⟩
  | ok a =>
    simp only [Exec.ok_bind]
    cases r' with
    | error e => exact ⟨_, rfl⟩
    | ok m => exact ⟨_, rfl⟩

theorem parseV6Cidr_ok {t l : Str} {w : Bool} {x : NetworkSpec} (hl : DigitText l) :
    parseV6Cidr t w l = .ok (.ok x) ↔ ∃ a p n, x = .ipv6 a n ∧ V6Reading t a ∧ Numeral 10 l p ∧ p ≤ 128 ∧
      NetOfPrefix n a (if w then 128 - p else p) := by
  simp only [← v6Reading_iff]
  rw [parseV6Cidr]
  obtain ⟨r, hr⟩ := V6.parse_total t
  rw [hr, Exec.ok_bind]
  constructor
  · intro h
    cases r with
    | error e => cases h
    | ok a =>
      simp only at h
      split at h
      · cases h
      · rename_i p hp
        split at h
        · cases h
        · rename_i hle
          obtain ⟨n, h1, h2, h3⟩ := newWithPrefix_wf (a := a) (p := if w then 128 - p else p)
            (show _ ≤ 128 by split <;> omega)
          simp only [h1, Exec.ok_bind] at h
          cases h
          exact ⟨a, p, n, rfl, rfl, ((parseUsize_iff hl p).mp hp).1, by omega, h2, h3⟩
  · rintro ⟨a, p, n, rfl, ha, hp, hle, hn⟩
    cases ha
    have hp' := (parseUsize_iff hl p).mpr ⟨hp, by omega⟩
    have hn' := (newWithPrefix_iff n a (if w then 128 - p else p) (show _ ≤ 128 by split <;> omega)).mpr hn
    simp only [hp', hn', if_neg (show ¬ p > 128 by omega), Exec.ok_bind]
    rfl

theorem parseV6Cidr_total (t l : Str) (w : Bool) : ∃ r, parseV6Cidr t w l = .ok r := by
  rw [parseV6Cidr]
  obtain ⟨r, hr⟩ := V6.parse_total t
  rw [hr, Exec.ok_bind]
  cases r with
  | error e => exact ⟨_, rfl⟩
  | ok a =>
    simp only
    split
    · exact ⟨_, rfl⟩
    · rename_i p _
      split
      · exact ⟨_, rfl⟩
      · obtain ⟨n, h1, -⟩ := newWithPrefix_wf (a := a) (p := if w then 128 - p else p) (show _ ≤ 128 by split <;> omega)
        simp only [h1, Exec.ok_bind]
        exact ⟨_, rfl⟩

/-! ## the whole function -/

theorem parseNetspec_total (s : Str) : ∃ r, parseNetspec s = .ok r := by
  rcases parseNetspec_cases s with ⟨t, w, l, rfl, h⟩ | ⟨-, h⟩
  · rcases h with ⟨ht, hl | hl⟩ | ⟨ht, ⟨hl, hc⟩ | hl⟩
    · exact ⟨_, parseNetspec_v4mask ht hl⟩
    · rw [parseNetspec_v4cidr ht hl]; exact parseV4Cidr_total t l w
    · rw [parseNetspec_v6mask ht hl hc]; exact parseV6Mask_total t l w
    · rw [parseNetspec_v6cidr ht hl]; exact parseV6Cidr_total t l w
  · exact ⟨_, h⟩

theorem parseNetspec_ipv4 (s : Str) (a : V4) (n : Net V4) :
    parseNetspec s = .ok (.ok (.ipv4 a n)) ↔ ∃ t w l, s = specText t w l ∧ QuadText t ∧ V4Reading t a ∧
      ((∃ m, QuadText l ∧ V4Reading l m ∧ NetOfMask n a (if w then 2 ^ 32 - 1 - val m else val m)) ∨
       (∃ p, Numeral 10 l p ∧ p ≤ 32 ∧ NetOfPrefix n a (if w then 32 - p else p))) := by
  constructor
  · intro h
    rcases parseNetspec_cases s with ⟨t, w, l, rfl, h'⟩ | ⟨-, h'⟩
    · refine ⟨t, w, l, rfl, ?_⟩
      rcases h' with ⟨ht, hl | hl⟩ | ⟨ht, ⟨hl, hc⟩ | hl⟩
      · rw [parseNetspec_v4mask ht hl] at h
        have h := Exec.ok.inj h
        obtain ⟨a, m, n, e, h1, h2, h3⟩ := parseV4Mask_ok.mp h
        cases e
        exact ⟨ht, h1, .inl ⟨m, hl, h2, h3⟩⟩
      · rw [parseNetspec_v4cidr ht hl] at h
        obtain ⟨a, p, n, e, h1, h2, h3⟩ := (parseV4Cidr_ok hl).mp h
        cases e
        exact ⟨ht, h1, .inr ⟨p, h2, h3⟩⟩
      · rw [parseNetspec_v6mask ht hl hc] at h
        obtain ⟨a, m, n, e, -⟩ := parseV6Mask_ok.mp h
        cases e
      · rw [parseNetspec_v6cidr ht hl] at h
        obtain ⟨a, m, n, e, -⟩ := (parseV6Cidr_ok hl).mp h
        cases e
    · rw [h'] at h; cases h
  · rintro ⟨t, w, l, rfl, ht, ha, ⟨m, hl, hm, hn⟩ | ⟨p, hl, hp, hn⟩⟩
    · rw [parseNetspec_v4mask ht hl, parseV4Mask_ok.mpr ⟨a, m, n, rfl, ha, hm, hn⟩]
    · have hl' := numeral_digitText hl
      rw [parseNetspec_v4cidr ht hl', (parseV4Cidr_ok hl').mpr ⟨a, p, n, rfl, ha, hl, hp, hn⟩]

theorem parseNetspec_ipv6 (s : Str) (a : V6) (n : Net V6) :
    parseNetspec s = .ok (.ok (.ipv6 a n)) ↔ ∃ t w l, s = specText t w l ∧ HexColonText t ∧ V6Reading t a ∧
      ((∃ m, HexColonText l ∧ ':' ∈ l ∧ V6Reading l m ∧ NetOfMask n a (if w then 2 ^ 128 - 1 - val m else val m)) ∨
       (∃ p, Numeral 10 l p ∧ p ≤ 128 ∧ NetOfPrefix n a (if w then 128 - p else p))) := by
  constructor
  · intro h
    rcases parseNetspec_cases s with ⟨t, w, l, rfl, h'⟩ | ⟨-, h'⟩
    · refine ⟨t, w, l, rfl, ?_⟩
      rcases h' with ⟨ht, hl | hl⟩ | ⟨ht, ⟨hl, hc⟩ | hl⟩
      · rw [parseNetspec_v4mask ht hl] at h
        have h := Exec.ok.inj h
        obtain ⟨a, m, n, e, h1, h2, h3⟩ := parseV4Mask_ok.mp h
        cases e
      · rw [parseNetspec_v4cidr ht hl] at h
        obtain ⟨a, p, n, e, h1, h2, h3⟩ := (parseV4Cidr_ok hl).mp h
        cases e
      · rw [parseNetspec_v6mask ht hl hc] at h
        obtain ⟨a, m, n, e, h1, h2, h3⟩ := parseV6Mask_ok.mp h
        cases e
        exact ⟨ht, h1, .inl ⟨m, hl, hc, h2, h3⟩⟩
      · rw [parseNetspec_v6cidr ht hl] at h
        obtain ⟨a, m, n, e, h1, h2, h3⟩ := (parseV6Cidr_ok hl).mp h
        cases e
        exact ⟨ht, h1, .inr ⟨m, h2, h3⟩⟩
    · rw [h'] at h; cases h
  · rintro ⟨t, w, l, rfl, ht, ha, ⟨m, hl, hc, hm, hn⟩ | ⟨p, hl, hp, hn⟩⟩
    · rw [parseNetspec_v6mask ht hl hc, parseV6Mask_ok.mpr ⟨a, m, n, rfl, ha, hm, hn⟩]
    · have hl' := numeral_digitText hl
      rw [parseNetspec_v6cidr ht hl', (parseV6Cidr_ok hl').mpr ⟨a, p, n, rfl, ha, hl, hp, hn⟩]

/-! ## displayed addresses -/

theorem v4_display_quad (a : V4) : QuadText (IpAddr.display a) := by
  obtain ⟨b0, b1, b2, b3, -, h2⟩ := V4.display_eq a
  exact ⟨_, _, _, _, h2, numeral_digitText (showNat_canonical (by decide) (by decide) _).1,
    numeral_digitText (showNat_canonical (by decide) (by decide) _).1,
    numeral_digitText (showNat_canonical (by decide) (by decide) _).1,
    numeral_digitText (showNat_canonical (by decide) (by decide) _).1⟩

theorem mem_intercalate {c : Char} {sep : Str} {l : List Str} (h : c ∈ List.intercalate sep l) : c ∈ sep ∨ ∃ t ∈ l, c ∈ t := by
  induction l with
  | nil => simp at h
  | cons x l ih =>
    cases l with
    | nil => right; exact ⟨x, by simp, by simpa using h⟩
    | cons y l =>
      rw [List.intercalate_cons_cons] at h
      rcases List.mem_append.mp h with h | h
      · rcases List.mem_append.mp h with h | h
        · exact .inr ⟨x, by simp, h⟩
        · exact .inl h
      · rcases ih h with h | ⟨t, h1, h2⟩
        · exact .inl h
        · exact .inr ⟨t, List.mem_cons_of_mem _ h1, h2⟩

theorem v6_display_hexColon (a : V6) : HexColonText (IpAddr.display a) ∧ ':' ∈ IpAddr.display a := by
  have hh : ∀ t ∈ V6.hexes a, ∀ c ∈ t, c ∈ ':' :: lowerDigits := by
    intro t ht c hc
    obtain ⟨v, -, rfl⟩ := List.mem_map.mp ht
    exact List.mem_cons_of_mem _ (showNat_mem (by decide) (by decide) hc)
  have hlen := V6.hexes_length a
  have hi : ∀ l : List Str, (∀ t ∈ l, ∀ c ∈ t, c ∈ ':' :: lowerDigits) → ∀ c ∈ List.intercalate [':'] l, c ∈ ':' :: lowerDigits := by
    intro l hl c hc
    rcases mem_intercalate hc with h | ⟨t, h1, h2⟩
    · rw [List.mem_singleton] at h; rw [h]; exact List.mem_cons_self
    · exact hl t h1 c h2
  have h8 : ∀ l : List Str, l.length = 8 → ':' ∈ List.intercalate [':'] l := by
    intro l hl
    match l, hl with
    | x :: y :: l, _ => rw [List.intercalate_cons_cons]; simp
  change HexColonText a.display ∧ ':' ∈ a.display
  have key : ':' ∈ a.display ∧ ∀ c ∈ a.display, c ∈ ':' :: lowerDigits := by
    rcases V6.display_spec a with ⟨-, h2⟩ | ⟨s, l, -, h2⟩
    · rw [h2]
      exact ⟨h8 _ hlen, hi _ hh⟩
    · rw [h2]
      refine ⟨by simp, ?_⟩
      intro c hc
      rcases List.mem_append.mp hc with hc | hc
      · rcases List.mem_append.mp hc with hc | hc
        · exact hi _ (fun t ht => hh t (List.mem_of_mem_take ht)) c hc
        · have : c = ':' := by simpa using hc
          rw [this]; exact List.mem_cons_self
      · exact hi _ (fun t ht => hh t (List.mem_of_mem_drop ht)) c hc
  refine ⟨⟨?_, key.2⟩, key.1⟩
  intro h; rw [h] at key; simp at key

end Ripcalc
