import Verif.Spec.Rfc
import Verif.Proofs.V6RoundTrip
import Verif.Proofs.Errors
/-!
# Lemmas about RFC texts
-/
namespace Ripcalc
open AddrSpec

theorem splitChar_append (sep : Char) (x y : Str) : splitChar sep (x ++ sep :: y) = splitChar sep x ++ splitChar sep y := by
  induction x with
  | nil => simp [splitChar]
  | cons c cs ih =>
    simp only [List.cons_append, splitChar]
    split
    · rw [ih]; rfl
    · rw [ih]
      have := splitChar_ne_nil sep cs
      cases h : splitChar sep cs with
      | nil => exact absurd h this
      | cons p ps => rfl

theorem count_intercalate (sep : Char) (ps : List Str) (hne : ps ≠ []) (hp : ∀ p ∈ ps, sep ∉ p) :
    (List.intercalate [sep] ps).count sep + 1 = ps.length := by
  induction ps with
  | nil => exact absurd rfl hne
  | cons x xs ih =>
    have hx : x.count sep = 0 := List.count_eq_zero.mpr (hp x (by simp))
    cases xs with
    | nil => simp [hx]
    | cons y ys =>
      have := ih (by simp) (fun p h => hp p (by simp [h]))
      rw [List.intercalate_cons_cons]
      simp only [List.count_append, List.length_cons] at *
      simp [hx]
      omega

theorem digits_length {r : Nat} {s : Str} {ds : List Nat} (h : Digits r s ds) : ds.length = s.length ∧ ∀ d ∈ ds, d < r := by
  induction h with
  | nil => simp
  | cons h1 h2 h3 ih => simp [ih.1]; exact ⟨h2, ih.2⟩

theorem digits_mem {r : Nat} {s : Str} {ds : List Nat} (h : Digits r s ds) : ∀ c ∈ s, ∃ d, DigitIs c d := by
  induction h with
  | nil => simp
  | cons h1 h2 h3 ih =>
    intro c hc
    rcases List.mem_cons.mp hc with rfl | hc
    · exact ⟨_, h1⟩
    · exact ih c hc

theorem digitIs_lower {c : Char} {d : Nat} (h : DigitIs c d) (hc : c ∈ lowerDigits) : lowerDigits[d]? = some c := by
  rcases h with h | h
  · exact h
  · have hd : d < 16 := (List.getElem?_eq_some_iff.mp h).1
    have key : ∀ d < 16, ∀ c ∈ lowerDigits, upperDigits[d]? = some c → lowerDigits[d]? = some c := by decide
    exact key d hd c hc h

theorem digits_lower_inj {r : Nat} {s t : Str} {ds : List Nat} (hs : Digits r s ds) (ht : Digits r t ds)
    (h1 : ∀ c ∈ s, c ∈ lowerDigits) (h2 : ∀ c ∈ t, c ∈ lowerDigits) : s = t := by
  induction hs generalizing t with
  | nil => cases ht; rfl
  | cons a1 a2 a3 ih =>
    cases ht with
    | cons b1 b2 b3 =>
      have e1 := digitIs_lower a1 (h1 _ (by simp))
      have e2 := digitIs_lower b1 (h2 _ (by simp))
      rw [e1] at e2
      rw [ih b3 (fun c hc => h1 c (by simp [hc])) (fun c hc => h2 c (by simp [hc])), Option.some.inj e2]

theorem CanonicalNumeral.digits {r : Nat} {s : Str} {v : Nat} (hs : CanonicalNumeral r s v) :
    ∃ ds, Digits r s ds ∧ bigEndian r ds = v ∧ (∀ d ∈ ds, d < r) ∧ ((ds = [0] ∧ v = 0) ∨ (ds ≠ [] ∧ r ^ (ds.length - 1) ≤ v)) := by
  obtain ⟨⟨h1, ds, h2, h3⟩, h4, h5⟩ := hs
  refine ⟨ds, h2, h3, (digits_length h2).2, ?_⟩
  cases h2 with
  | nil => exact absurd rfl h1
  | @cons c d cs ds a1 a2 a3 =>
    by_cases hd : d = 0
    · subst hd
      have hc : c = '0' := by
        rcases a1 with h | h <;> exact (Option.some.inj h).symm
      subst hc
      have := h5 rfl
      cases this
      cases a3
      exact .inl ⟨rfl, by simpa [bigEndian] using h3.symm⟩
    · refine .inr ⟨by simp, ?_⟩
      rw [bigEndian_cons] at h3
      have : 1 * r ^ ds.length ≤ d * r ^ ds.length := Nat.mul_le_mul_right _ (by omega)
      simp only [List.length_cons, Nat.add_sub_cancel]
      omega

theorem CanonicalNumeral.length_le {r : Nat} (hr : 1 < r) {s : Str} {v k : Nat} (hs : CanonicalNumeral r s v) (hk : 0 < k) (hv : v < r ^ k) :
    s.length ≤ k := by
  obtain ⟨ds, a1, -, -, a4⟩ := hs.digits
  rw [← (digits_length a1).1]
  rcases a4 with ⟨rfl, -⟩ | ⟨-, h⟩
  · exact hk
  · have := (Nat.pow_lt_pow_iff_right hr).mp (Nat.lt_of_le_of_lt h hv)
    omega

/-- A number is printed in one way only. -/
theorem CanonicalNumeral.text_unique {r : Nat} (hr : 1 < r) {s t : Str} {v : Nat} (hs : CanonicalNumeral r s v) (ht : CanonicalNumeral r t v) :
    s = t := by
  obtain ⟨ds, a1, a2, a3, a4⟩ := hs.digits
  obtain ⟨es, b1, b2, b3, b4⟩ := ht.digits
  have hlen : ds.length = es.length := by
    have hd := bigEndian_lt a3
    have he := bigEndian_lt b3
    rw [a2] at hd
    rw [b2] at he
    rcases a4 with ⟨rfl, h0⟩ | ⟨hne, hle⟩ <;> rcases b4 with ⟨rfl, h0'⟩ | ⟨hne', hle'⟩
    · rfl
    · have := Nat.pow_pos (n := es.length - 1) (show 0 < r by omega)
      omega
    · have := Nat.pow_pos (n := ds.length - 1) (show 0 < r by omega)
      omega
    · have h1 := (Nat.pow_lt_pow_iff_right hr).mp (Nat.lt_of_le_of_lt hle he)
      have h2 := (Nat.pow_lt_pow_iff_right hr).mp (Nat.lt_of_le_of_lt hle' hd)
      have := List.length_pos_iff.mpr hne
      have := List.length_pos_iff.mpr hne'
      omega
  have hds : ds = es := bigEndian_inj hlen a3 b3 (by rw [a2, b2])
  subst hds
  exact digits_lower_inj a1 b1 hs.2.1 ht.2.1

theorem HexGroup.group {t : Str} {v : Nat} (h : HexGroup t v) : Group t v := by
  refine ⟨.inl h.1, ?_⟩
  obtain ⟨⟨-, ds, h1, rfl⟩, h2⟩ := h
  have h3 := bigEndian_lt (b := 16) (digits_length h1).2
  rw [(digits_length h1).1] at h3
  have : 16 ^ t.length ≤ 16 ^ 4 := Nat.pow_le_pow_right (by decide) h2
  omega

theorem HexGroup.no_plus {t : Str} {v : Nat} (h : HexGroup t v) : '+' ∉ t := by
  obtain ⟨⟨-, ds, h1, -⟩, -⟩ := h
  intro hm
  obtain ⟨d, hd⟩ := digits_mem h1 _ hm
  rcases hd with hd | hd
  · have := List.mem_of_getElem? hd; revert this; decide
  · have := List.mem_of_getElem? hd; revert this; decide

theorem Group.hexGroup {t : Str} {v : Nat} (h : Group t v) (h1 : t.length ≤ 4) (h2 : '+' ∉ t) : HexGroup t v := by
  rcases h.1 with h3 | ⟨u, rfl, -⟩
  · exact ⟨h3, h1⟩
  · simp at h2

theorem Pointwise.imp {R S : α → β → Prop} {l : List α} {m : List β} (h : Pointwise R l m) (hi : ∀ a ∈ l, ∀ b, R a b → S a b) :
    Pointwise S l m := by
  induction h with
  | nil => exact .nil
  | cons h1 h2 ih => exact .cons (hi _ (by simp) _ h1) (ih fun a ha => hi a (by simp [ha]))

/-- The pieces of a shortened text. -/
theorem splitChar_double (pre post : List Str) (hc1 : ∀ p ∈ pre, ':' ∉ p) (hc2 : ∀ p ∈ post, ':' ∉ p) :
    splitChar ':' (List.intercalate [':'] pre ++ [':', ':'] ++ List.intercalate [':'] post) =
      (if pre = [] then [[]] else pre) ++ [] :: (if post = [] then [[]] else post) := by
  have h : ∀ l : List Str, (∀ p ∈ l, ':' ∉ p) → splitChar ':' (List.intercalate [':'] l) = if l = [] then [[]] else l := by
    intro l hl
    split
    · rename_i h; subst h; rfl
    · rename_i h; exact splitChar_join _ _ h hl
  rw [show List.intercalate [':'] pre ++ [':', ':'] ++ List.intercalate [':'] post =
    List.intercalate [':'] pre ++ ':' :: ([] ++ ':' :: List.intercalate [':'] post) by simp, splitChar_append, splitChar_append,
    h pre hc1, h post hc2]
  rfl

end Ripcalc
