import Verif.Model.Parse
import Verif.Spec.Regex
import Verif.Proofs.Text
/-!
# The hand-written matchers are the regular expressions of the source
-/
namespace Ripcalc
open Re

theorem isDigit09_iff (c : Char) : isDigit09 c = true ↔ 48 ≤ c.toNat ∧ c.toNat ≤ 57 := by
  simp [isDigit09, show '0'.toNat = 48 from rfl, show '9'.toNat = 57 from rfl]

theorem char_range {c : Char} {lo n : Nat} (h : lo ≤ c.toNat) (h2 : c.toNat < lo + n) :
    c ∈ (List.range n).map (fun k => Char.ofNat (lo + k)) := by
  rw [List.mem_map]
  exact ⟨c.toNat - lo, by simp; omega, by rw [show lo + (c.toNat - lo) = c.toNat by omega, Char.ofNat_toNat]⟩

theorem isDigit09_mem (c : Char) : isDigit09 c = true ↔ c ∈ ['0', '1', '2', '3', '4', '5', '6', '7', '8', '9'] := by
  rw [isDigit09_iff]
  constructor
  · rintro ⟨h1, h2⟩
    exact char_range (n := 10) h1 (by omega)
  · intro h
    have t : ∀ d ∈ ['0', '1', '2', '3', '4', '5', '6', '7', '8', '9'], 48 ≤ d.toNat ∧ d.toNat ≤ 57 := by decide
    exact t c h

theorem isV6Char_iff (c : Char) :
    isV6Char c = true ↔ (48 ≤ c.toNat ∧ c.toNat ≤ 57) ∨ (97 ≤ c.toNat ∧ c.toNat ≤ 102) ∨ c = ':' := by
  simp [isV6Char, isDigit09_iff, show 'a'.toNat = 97 from rfl, show 'f'.toNat = 102 from rfl, or_assoc]

theorem isV6Char_mem (c : Char) : isV6Char c = true ↔ c ∈ ':' :: lowerDigits := by
  rw [isV6Char_iff]
  constructor
  · rintro (⟨h1, h2⟩ | ⟨h1, h2⟩ | rfl)
    · have := char_range (n := 10) h1 (by omega)
      have t : ∀ d ∈ (List.range 10).map (fun k => Char.ofNat (48 + k)), d ∈ ':' :: lowerDigits := by decide
      exact t c this
    · have := char_range (n := 6) h1 (by omega)
      have t : ∀ d ∈ (List.range 6).map (fun k => Char.ofNat (97 + k)), d ∈ ':' :: lowerDigits := by decide
      exact t c this
    · simp
  · intro h
    have t : ∀ d ∈ ':' :: lowerDigits, (48 ≤ d.toNat ∧ d.toNat ≤ 57) ∨ (97 ≤ d.toNat ∧ d.toNat ≤ 102) ∨ d = ':' := by decide
    exact t c h

theorem matchDigits_iff (s : Str) : matchDigits s = true ↔ DigitText s := by
  simp only [matchDigits, DigitText, Bool.and_eq_true, List.all_eq_true, isDigit09_mem]
  simp

theorem matchV6Addr_iff (s : Str) : matchV6Addr s = true ↔ HexColonText s := by
  simp only [matchV6Addr, HexColonText, Bool.and_eq_true, List.all_eq_true, isV6Char_mem]
  simp

theorem matchV6Mask_iff (s : Str) : matchV6Mask s = true ↔ HexColonText s ∧ ':' ∈ s := by
  simp only [matchV6Mask, HexColonText, Bool.and_eq_true, List.all_eq_true, isV6Char_mem, hasChar_iff]
  constructor
  · rintro ⟨h1, h2⟩; exact ⟨⟨by rintro rfl; simp at h2, h1⟩, h2⟩
  · rintro ⟨⟨_, h1⟩, h2⟩; exact ⟨h1, h2⟩

theorem DigitText.not_mem {s : Str} (h : DigitText s) {c : Char} (hc : c ∉ ['0', '1', '2', '3', '4', '5', '6', '7', '8', '9']) :
    c ∉ s := fun hm => hc (h.2 c hm)

theorem HexColonText.not_mem {s : Str} (h : HexColonText s) {c : Char} (hc : c ∉ ':' :: lowerDigits) :
    c ∉ s := fun hm => hc (h.2 c hm)

theorem QuadText.not_mem {s : Str} (h : QuadText s) {c : Char}
    (hc : c ∉ ['0', '1', '2', '3', '4', '5', '6', '7', '8', '9'] ∧ c ≠ '.') : c ∉ s := by
  obtain ⟨t0, t1, t2, t3, rfl, h0, h1, h2, h3⟩ := h
  simp [h0.not_mem hc.1, h1.not_mem hc.1, h2.not_mem hc.1, h3.not_mem hc.1, hc.2]

theorem matchQuad_iff (s : Str) : matchQuad s = true ↔ QuadText s := by
  simp only [matchQuad, Bool.and_eq_true, List.all_eq_true, matchDigits_iff, beq_iff_eq]
  constructor
  · rintro ⟨h1, h2⟩
    generalize hc : splitChar '.' s = chunks at h1 h2
    match chunks, h1 with
    | [t0, t1, t2, t3], _ =>
      have := ((splitChar_eq_iff _ _ _).mp hc).2.2
      exact ⟨t0, t1, t2, t3, by simpa [List.intercalate_cons_cons] using this, h2 t0 (by simp), h2 t1 (by simp), h2 t2 (by simp),
        h2 t3 (by simp)⟩
  · rintro ⟨t0, t1, t2, t3, rfl, h0, h1, h2, h3⟩
    have hs : splitChar '.' (t0 ++ '.' :: t1 ++ '.' :: t2 ++ '.' :: t3) = [t0, t1, t2, t3] := by
      rw [splitChar_eq_iff]
      refine ⟨by simp, ?_, by simp [List.intercalate_cons_cons]⟩
      intro p hp
      simp only [List.mem_cons, List.not_mem_nil, or_false] at hp
      rcases hp with rfl | rfl | rfl | rfl
      · exact h0.not_mem (by decide)
      · exact h1.not_mem (by decide)
      · exact h2.not_mem (by decide)
      · exact h3.not_mem (by decide)
    rw [hs]
    refine ⟨rfl, ?_⟩
    intro p hp
    simp only [List.mem_cons, List.not_mem_nil, or_false] at hp
    rcases hp with rfl | rfl | rfl | rfl <;> assumption

/-! ## address, slash, optional minus, last part -/

theorem cutSlash_iff (s a r : Str) : cutSlash s = some (a, r) ↔ '/' ∉ a ∧ s = a ++ '/' :: r := by
  induction s generalizing a with
  | nil => simp [cutSlash]
  | cons c cs ih =>
    simp only [cutSlash]
    by_cases h : c = '/'
    · subst h
      rw [if_pos rfl]
      constructor
      · intro h; cases h; simp
      · rintro ⟨h1, h2⟩
        cases a with
        | nil => simp at h2; simp [h2]
        | cons x a =>
          simp only [List.cons_append, List.cons.injEq] at h2
          exact absurd (h2.1 ▸ by simp) h1
    · rw [if_neg h]
      simp only [Option.map_eq_some_iff, Prod.exists, Prod.mk.injEq]
      constructor
      · rintro ⟨x, y, h1, rfl, rfl⟩
        obtain ⟨h2, h3⟩ := (ih x).mp h1
        exact ⟨by simp [h2, Ne.symm h], by rw [h3]; rfl⟩
      · rintro ⟨h1, h2⟩
        cases a with
        | nil => simp at h2; exact absurd h2.1 h
        | cons x a =>
          simp only [List.cons_append, List.cons.injEq] at h2
          refine ⟨a, r, (ih a).mpr ⟨fun hm => h1 (by simp [hm]), h2.2⟩, by rw [h2.1], rfl⟩

theorem netspecMatch_iff (mA mL : Str → Bool) (hA : ∀ a, mA a = true → '/' ∉ a)
    (hL : ∀ l, mL l = true → l.head? ≠ some '-') (s a l : Str) (w : Bool) :
    netspecMatch mA mL s = some (a, w, l) ↔ s = specText a w l ∧ mA a = true ∧ mL l = true := by
  simp only [netspecMatch, specText]
  constructor
  · intro h
    split at h
    · cases h
    · rename_i a' r hc
      obtain ⟨h1, rfl⟩ := (cutSlash_iff _ _ _).mp hc
      have hm : r = (if (cutMinus r).1 then ['-'] else []) ++ (cutMinus r).2 := by
        unfold cutMinus; split <;> rfl
      by_cases hb : (mA a' && mL (cutMinus r).2) = true
      · rw [if_pos hb] at h
        cases h
        rw [Bool.and_eq_true] at hb
        exact ⟨by rw [← hm], hb⟩
      · rw [if_neg hb] at h; cases h
  · rintro ⟨rfl, h1, h2⟩
    rw [(cutSlash_iff _ a _).mpr ⟨hA a h1, rfl⟩]
    have hc : cutMinus ((if w = true then ['-'] else []) ++ l) = (w, l) := by
      cases w
      · simp only [Bool.false_eq_true, if_false, List.nil_append]
        unfold cutMinus
        split
        · exact absurd rfl (hL _ h2)
        · rfl
      · rfl
    simp [hc, h1, h2]

theorem digit_head {l : Str} (h : DigitText l) : l.head? ≠ some '-' := by
  intro h2
  cases l with
  | nil => simp at h2
  | cons c l => cases h2; exact h.not_mem (by decide) (List.mem_cons_self)

theorem hexColon_head {l : Str} (h : HexColonText l) : l.head? ≠ some '-' := by
  intro h2
  cases l with
  | nil => simp at h2
  | cons c l => cases h2; exact h.not_mem (by decide) (List.mem_cons_self)

theorem quad_head {l : Str} (h : QuadText l) : l.head? ≠ some '-' := by
  intro h2
  cases l with
  | nil => simp at h2
  | cons c l => cases h2; exact h.not_mem (by decide) (List.mem_cons_self)

theorem ipv4WithSubnet_iff (s a l : Str) (w : Bool) :
    ipv4WithSubnet s = some (a, w, l) ↔ s = specText a w l ∧ QuadText a ∧ QuadText l := by
  rw [ipv4WithSubnet, netspecMatch_iff, matchQuad_iff, matchQuad_iff]
  · intro a h; rw [matchQuad_iff] at h; exact h.not_mem (by decide)
  · intro a h; rw [matchQuad_iff] at h; exact quad_head h

theorem ipv4WithCidr_iff (s a l : Str) (w : Bool) :
    ipv4WithCidr s = some (a, w, l) ↔ s = specText a w l ∧ QuadText a ∧ DigitText l := by
  rw [ipv4WithCidr, netspecMatch_iff, matchQuad_iff, matchDigits_iff]
  · intro a h; rw [matchQuad_iff] at h; exact h.not_mem (by decide)
  · intro a h; rw [matchDigits_iff] at h; exact digit_head h

theorem ipv6WithSubnet_iff (s a l : Str) (w : Bool) :
    ipv6WithSubnet s = some (a, w, l) ↔ s = specText a w l ∧ HexColonText a ∧ HexColonText l ∧ ':' ∈ l := by
  rw [ipv6WithSubnet, netspecMatch_iff, matchV6Addr_iff, matchV6Mask_iff]
  · intro a h; rw [matchV6Addr_iff] at h; exact h.not_mem (by decide)
  · intro a h; rw [matchV6Mask_iff] at h; exact hexColon_head h.1

theorem ipv6WithCidr_iff (s a l : Str) (w : Bool) :
    ipv6WithCidr s = some (a, w, l) ↔ s = specText a w l ∧ HexColonText a ∧ DigitText l := by
  rw [ipv6WithCidr, netspecMatch_iff, matchV6Addr_iff, matchDigits_iff]
  · intro a h; rw [matchV6Addr_iff] at h; exact h.not_mem (by decide)
  · intro a h; rw [matchDigits_iff] at h; exact digit_head h

/-! ## the regular expressions -/

theorem matches_seq (a b : Re) (s : Str) (x : List (String × Str)) :
    Matches (.seq a b) s x ↔ ∃ s1 s2 x1 x2, s = s1 ++ s2 ∧ x = x1 ++ x2 ∧ Matches a s1 x1 ∧ Matches b s2 x2 := by
  constructor
  · intro h; cases h with
    | seq h1 h2 => exact ⟨_, _, _, _, rfl, rfl, h1, h2⟩
  · rintro ⟨s1, s2, x1, x2, rfl, rfl, h1, h2⟩; exact .seq h1 h2

theorem matches_group (n : String) (a : Re) (s : Str) (x : List (String × Str)) :
    Matches (.group n a) s x ↔ ∃ y, x = (n, s) :: y ∧ Matches a s y := by
  constructor
  · intro h; cases h with
    | group h => exact ⟨_, rfl, h⟩
  · rintro ⟨y, rfl, h⟩; exact .group h

theorem matches_opt (a : Re) (s : Str) (x : List (String × Str)) :
    Matches (.opt a) s x ↔ (s = [] ∧ x = []) ∨ Matches a s x := by
  constructor
  · intro h; cases h with
    | optNone => exact .inl ⟨rfl, rfl⟩
    | optSome h => exact .inr h
  · rintro (⟨rfl, rfl⟩ | h)
    · exact .optNone
    · exact .optSome h

theorem matches_lit (c : Char) (s : Str) (x : List (String × Str)) : Matches (.lit c) s x ↔ s = [c] ∧ x = [] := by
  constructor
  · intro h
    cases h with
    | cls h1 h2 h3 =>
      rename_i d lo hi
      simp only [List.mem_singleton, Prod.mk.injEq] at h1
      obtain ⟨rfl, rfl⟩ := h1
      refine ⟨?_, rfl⟩
      rw [← Char.ofNat_toNat d, show d.toNat = hi.toNat by omega, Char.ofNat_toNat]
  · rintro ⟨rfl, rfl⟩
    exact .cls (List.mem_singleton.mpr rfl) (Nat.le_refl _) (Nat.le_refl _)

/-- The characters of a class. -/
def inCls (rs : List (Char × Char)) (c : Char) : Prop := ∃ lo hi, (lo, hi) ∈ rs ∧ lo.toNat ≤ c.toNat ∧ c.toNat ≤ hi.toNat

theorem matches_cls (rs : List (Char × Char)) (s : Str) (x : List (String × Str)) :
    Matches (.cls rs) s x ↔ ∃ c, s = [c] ∧ x = [] ∧ inCls rs c := by
  constructor
  · intro h; cases h with
    | cls h1 h2 h3 => exact ⟨_, rfl, rfl, _, _, h1, h2, h3⟩
  · rintro ⟨c, rfl, rfl, lo, hi, h1, h2, h3⟩; exact .cls h1 h2 h3

theorem matches_star_cls (rs : List (Char × Char)) (s : Str) (x : List (String × Str)) :
    Matches (.star (.cls rs)) s x ↔ x = [] ∧ ∀ c ∈ s, inCls rs c := by
  constructor
  · intro h
    generalize hr : Re.star (.cls rs) = r at h
    induction h with
    | starNil => simp
    | starCons h1 _ _ ih2 =>
      cases hr
      obtain ⟨c, rfl, rfl, hc⟩ := (matches_cls _ _ _).mp h1
      obtain ⟨rfl, h⟩ := ih2 rfl
      refine ⟨rfl, ?_⟩
      intro d hd
      simp only [List.singleton_append, List.mem_cons] at hd
      rcases hd with rfl | hd
      · exact hc
      · exact h d hd
    | _ => cases hr
  · rintro ⟨rfl, h⟩
    induction s with
    | nil => exact .starNil
    | cons c s ih =>
      have h1 : Matches (.cls rs) [c] [] := (matches_cls _ _ _).mpr ⟨c, rfl, rfl, h c (by simp)⟩
      exact Matches.starCons (s := [c]) (x := []) h1 (ih fun d hd => h d (by simp [hd]))

theorem matches_plus_cls (rs : List (Char × Char)) (s : Str) (x : List (String × Str)) :
    Matches (.plus (.cls rs)) s x ↔ x = [] ∧ s ≠ [] ∧ ∀ c ∈ s, inCls rs c := by
  rw [Re.plus, matches_seq]
  constructor
  · rintro ⟨s1, s2, x1, x2, rfl, rfl, h1, h2⟩
    obtain ⟨c, rfl, rfl, hc⟩ := (matches_cls _ _ _).mp h1
    obtain ⟨rfl, h⟩ := (matches_star_cls _ _ _).mp h2
    refine ⟨rfl, by simp, ?_⟩
    intro d hd
    simp only [List.singleton_append, List.mem_cons] at hd
    rcases hd with rfl | hd
    · exact hc
    · exact h d hd
  · rintro ⟨rfl, hne, h⟩
    cases s with
    | nil => exact absurd rfl hne
    | cons c s =>
      exact ⟨[c], s, [], [], rfl, rfl, (matches_cls _ _ _).mpr ⟨c, rfl, rfl, h c (by simp)⟩,
        (matches_star_cls _ _ _).mpr ⟨rfl, fun d hd => h d (by simp [hd])⟩⟩

theorem inCls_digit (c : Char) : inCls [('0', '9')] c ↔ c ∈ ['0', '1', '2', '3', '4', '5', '6', '7', '8', '9'] := by
  rw [← isDigit09_mem, isDigit09_iff]
  constructor
  · rintro ⟨lo, hi, h, h1, h2⟩
    simp only [List.mem_singleton, Prod.mk.injEq] at h
    obtain ⟨rfl, rfl⟩ := h
    exact ⟨h1, h2⟩
  · rintro ⟨h1, h2⟩
    exact ⟨'0', '9', by simp, h1, h2⟩

theorem inCls_hexColon (c : Char) : inCls [('0', '9'), ('a', 'f'), (':', ':')] c ↔ c ∈ ':' :: lowerDigits := by
  rw [← isV6Char_mem, isV6Char_iff]
  constructor
  · rintro ⟨lo, hi, h, h1, h2⟩
    simp only [List.mem_cons, Prod.mk.injEq, List.not_mem_nil, or_false] at h
    rcases h with ⟨rfl, rfl⟩ | ⟨rfl, rfl⟩ | ⟨rfl, rfl⟩
    · exact .inl ⟨h1, h2⟩
    · exact .inr (.inl ⟨h1, h2⟩)
    · refine .inr (.inr ?_)
      rw [← Char.ofNat_toNat c, show c.toNat = ':'.toNat by omega, Char.ofNat_toNat]
  · rintro (⟨h1, h2⟩ | ⟨h1, h2⟩ | rfl)
    · exact ⟨'0', '9', by simp, h1, h2⟩
    · exact ⟨'a', 'f', by simp, h1, h2⟩
    · exact ⟨':', ':', by simp, Nat.le_refl _, Nat.le_refl _⟩

theorem matches_digits (s : Str) (x : List (String × Str)) : Matches (.plus .digit) s x ↔ x = [] ∧ DigitText s := by
  rw [Re.digit, matches_plus_cls, DigitText]
  simp only [inCls_digit]

theorem matches_v6addr (s : Str) (x : List (String × Str)) : Matches (.plus .hexColon) s x ↔ x = [] ∧ HexColonText s := by
  rw [Re.hexColon, matches_plus_cls, HexColonText]
  simp only [inCls_hexColon]

theorem matches_v6mask (s : Str) (x : List (String × Str)) :
    Matches (.seq (.star .hexColon) (.seq (.lit ':') (.star .hexColon))) s x ↔ x = [] ∧ HexColonText s ∧ ':' ∈ s := by
  simp only [Re.hexColon, matches_seq, matches_star_cls, matches_lit, inCls_hexColon, HexColonText]
  constructor
  · rintro ⟨s1, s2, x1, x2, rfl, rfl, ⟨rfl, h1⟩, s3, s4, x3, x4, rfl, rfl, ⟨rfl, rfl⟩, rfl, h2⟩
    refine ⟨rfl, ⟨by simp, ?_⟩, by simp⟩
    intro c hc
    simp only [List.singleton_append, List.mem_append, List.mem_cons] at hc
    rcases hc with hc | rfl | hc
    · exact h1 c hc
    · simp
    · exact h2 c hc
  · rintro ⟨rfl, ⟨-, h⟩, hm⟩
    obtain ⟨s1, s2, rfl⟩ := List.append_of_mem hm
    exact ⟨s1, _, [], [], rfl, rfl, ⟨rfl, fun c hc => h c (by simp [hc])⟩, [':'], s2, [], [], rfl, rfl, ⟨rfl, rfl⟩, rfl,
      fun c hc => h c (by simp [hc])⟩

theorem matches_quad (s : Str) (x : List (String × Str)) : Matches .quad s x ↔ x = [] ∧ QuadText s := by
  have hdot : ∀ s x, Matches (.seq (.cls [('.', '.')]) (.plus .digit)) s x ↔ x = [] ∧ ∃ t, s = '.' :: t ∧ DigitText t := by
    intro s x
    rw [matches_seq]
    constructor
    · rintro ⟨s1, s2, x1, x2, rfl, rfl, h1, h2⟩
      obtain ⟨rfl, rfl⟩ := (matches_lit '.' _ _).mp h1
      obtain ⟨rfl, h⟩ := (matches_digits _ _).mp h2
      exact ⟨rfl, s2, rfl, h⟩
    · rintro ⟨rfl, t, rfl, h⟩
      exact ⟨['.'], t, [], [], rfl, rfl, (matches_lit '.' _ _).mpr ⟨rfl, rfl⟩, (matches_digits _ _).mpr ⟨rfl, h⟩⟩
  rw [Re.quad, Re.three, matches_seq]
  constructor
  · rintro ⟨s1, s2, x1, x2, rfl, rfl, h1, h2⟩
    obtain ⟨rfl, h0⟩ := (matches_digits _ _).mp h1
    obtain ⟨s3, s4, x3, x4, rfl, rfl, h3, h4⟩ := (matches_seq _ _ _ _).mp h2
    obtain ⟨rfl, t1, rfl, g1⟩ := (hdot _ _).mp h3
    obtain ⟨s5, s6, x5, x6, rfl, rfl, h5, h6⟩ := (matches_seq _ _ _ _).mp h4
    obtain ⟨rfl, t2, rfl, g2⟩ := (hdot _ _).mp h5
    obtain ⟨rfl, t3, rfl, g3⟩ := (hdot _ _).mp h6
    exact ⟨rfl, s1, t1, t2, t3, by simp, h0, g1, g2, g3⟩
  · rintro ⟨rfl, t0, t1, t2, t3, rfl, h0, h1, h2, h3⟩
    refine ⟨t0, '.' :: t1 ++ ('.' :: t2 ++ '.' :: t3), [], [], by simp, rfl, (matches_digits _ _).mpr ⟨rfl, h0⟩, ?_⟩
    refine (matches_seq _ _ _ _).mpr ⟨_, _, [], [], rfl, rfl, (hdot _ _).mpr ⟨rfl, t1, rfl, h1⟩, ?_⟩
    exact (matches_seq _ _ _ _).mpr ⟨_, _, [], [], rfl, rfl, (hdot _ _).mpr ⟨rfl, t2, rfl, h2⟩, (hdot _ _).mpr ⟨rfl, t3, rfl, h3⟩⟩

theorem matches_netspec (A L : Re) (PA PL : Str → Prop) (hA : ∀ s x, Matches A s x ↔ x = [] ∧ PA s)
    (hL : ∀ s x, Matches L s x ↔ x = [] ∧ PL s) (n : String) (s : Str) (x : List (String × Str)) :
    Matches (.netspec A n L) s x ↔ ∃ a w l, s = specText a w l ∧ x = netspecCaps n a w l ∧ PA a ∧ PL l := by
  simp only [Re.netspec, matches_seq, matches_group, matches_opt, matches_lit, hA, hL]
  constructor
  · rintro ⟨a, r, x1, x2, rfl, rfl, ⟨y, rfl, rfl, h1⟩, sl, r2, x3, x4, rfl, rfl, ⟨rfl, rfl⟩, m, l, x5, x6, rfl, rfl, h2, z, rfl, rfl, h3⟩
    rcases h2 with ⟨rfl, rfl⟩ | ⟨y, rfl, rfl, rfl⟩
    · exact ⟨a, false, l, rfl, rfl, h1, h3⟩
    · exact ⟨a, true, l, rfl, rfl, h1, h3⟩
  · rintro ⟨a, w, l, rfl, rfl, h1, h2⟩
    refine ⟨a, '/' :: ((if w then ['-'] else []) ++ l), [("addr", a)], (if w then [("wildcard", ['-'])] else []) ++ [(n, l)], rfl, rfl,
      ⟨[], rfl, rfl, h1⟩, ['/'], (if w then ['-'] else []) ++ l, [], _, rfl, rfl, ⟨rfl, rfl⟩,
      (if w then ['-'] else []), l, if w then [("wildcard", ['-'])] else [], [(n, l)], rfl, rfl, ?_, [], rfl, rfl, h2⟩
    cases w
    · exact .inl ⟨rfl, rfl⟩
    · exact .inr ⟨[], rfl, rfl, rfl⟩

theorem re_ipv4WithSubnet (s : Str) (x : List (String × Str)) :
    Matches .ipv4WithSubnet s x ↔ ∃ a w l, ipv4WithSubnet s = some (a, w, l) ∧ x = netspecCaps "mask" a w l := by
  rw [Re.ipv4WithSubnet, matches_netspec _ _ _ _ matches_quad matches_quad]
  simp only [ipv4WithSubnet_iff]
  constructor
  · rintro ⟨a, w, l, h1, h2, h3⟩; exact ⟨a, w, l, ⟨h1, h3⟩, h2⟩
  · rintro ⟨a, w, l, ⟨h1, h3⟩, h2⟩; exact ⟨a, w, l, h1, h2, h3⟩

theorem re_ipv4WithCidr (s : Str) (x : List (String × Str)) :
    Matches .ipv4WithCidr s x ↔ ∃ a w l, ipv4WithCidr s = some (a, w, l) ∧ x = netspecCaps "cidr" a w l := by
  rw [Re.ipv4WithCidr, matches_netspec _ _ _ _ matches_quad matches_digits]
  simp only [ipv4WithCidr_iff]
  constructor
  · rintro ⟨a, w, l, h1, h2, h3⟩; exact ⟨a, w, l, ⟨h1, h3⟩, h2⟩
  · rintro ⟨a, w, l, ⟨h1, h3⟩, h2⟩; exact ⟨a, w, l, h1, h2, h3⟩

theorem re_ipv6WithSubnet (s : Str) (x : List (String × Str)) :
    Matches .ipv6WithSubnet s x ↔ ∃ a w l, ipv6WithSubnet s = some (a, w, l) ∧ x = netspecCaps "mask" a w l := by
  rw [Re.ipv6WithSubnet, matches_netspec _ _ _ _ matches_v6addr matches_v6mask]
  simp only [ipv6WithSubnet_iff]
  constructor
  · rintro ⟨a, w, l, h1, h2, h3⟩; exact ⟨a, w, l, ⟨h1, h3⟩, h2⟩
  · rintro ⟨a, w, l, ⟨h1, h3⟩, h2⟩; exact ⟨a, w, l, h1, h2, h3⟩

theorem re_ipv6WithCidr (s : Str) (x : List (String × Str)) :
    Matches .ipv6WithCidr s x ↔ ∃ a w l, ipv6WithCidr s = some (a, w, l) ∧ x = netspecCaps "cidr" a w l := by
  rw [Re.ipv6WithCidr, matches_netspec _ _ _ _ matches_v6addr matches_digits]
  simp only [ipv6WithCidr_iff]
  constructor
  · rintro ⟨a, w, l, h1, h2, h3⟩; exact ⟨a, w, l, ⟨h1, h3⟩, h2⟩
  · rintro ⟨a, w, l, ⟨h1, h3⟩, h2⟩; exact ⟨a, w, l, h1, h2, h3⟩

end Ripcalc
