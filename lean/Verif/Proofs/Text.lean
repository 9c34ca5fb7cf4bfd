import Verif.Model.Text
import Verif.Spec.Text
import Verif.Proofs.AddrMore
/-!
# Lemmas about text primitives
-/
namespace Ripcalc
open AddrSpec

/-! ## digits -/

theorem toDigit_some {radix : Nat} (hr : radix ≤ 16) {c : Char} {d : Nat} (h : toDigit radix c = some d) :
    DigitIs c d ∧ d < radix := by
  have hc : Char.ofNat c.toNat = c := Char.ofNat_toNat c
  have t1 : ∀ k, k < 10 → lowerDigits[k]? = some (Char.ofNat (48 + k)) := by decide
  have t2 : ∀ k, k < 6 → lowerDigits[k + 10]? = some (Char.ofNat (97 + k)) := by decide
  have t3 : ∀ k, k < 6 → upperDigits[k + 10]? = some (Char.ofNat (65 + k)) := by decide
  simp only [toDigit, show '0'.toNat = 48 from rfl, show '9'.toNat = 57 from rfl, show 'a'.toNat = 97 from rfl,
    show 'z'.toNat = 122 from rfl, show 'A'.toNat = 65 from rfl, show 'Z'.toNat = 90 from rfl] at h
  split at h
  · rename_i v hv
    split at h
    · rename_i hlt
      cases h
      refine ⟨?_, hlt⟩
      split at hv
      · cases hv
        left
        rw [t1 _ (by omega), show 48 + (c.toNat - 48) = c.toNat by omega, hc]
      · split at hv
        · cases hv
          left
          rw [t2 _ (by omega), show 97 + (c.toNat - 97) = c.toNat by omega, hc]
        · split at hv
          · cases hv
            right
            rw [t3 _ (by omega), show 65 + (c.toNat - 65) = c.toNat by omega, hc]
          · cases hv
    · cases h
  · cases h

theorem DigitIs.lt {c : Char} {d : Nat} (h : DigitIs c d) : d < 16 := by
  rcases h with h | h
  · exact (List.getElem?_eq_some_iff.mp h).1
  · exact (List.getElem?_eq_some_iff.mp h).1

theorem toDigit_of_digitIs {radix : Nat} {c : Char} {d : Nat} (h : DigitIs c d) (hd : d < radix) :
    toDigit radix c = some d := by
  have t1 : ∀ k, k < 16 → ∀ c, c ∈ lowerDigits[k]? → toDigit 16 c = some k := by decide
  have t2 : ∀ k, k < 16 → ∀ c, c ∈ upperDigits[k]? → toDigit 16 c = some k := by decide
  have h16 : toDigit 16 c = some d := by
    rcases h with h' | h'
    · exact t1 d (DigitIs.lt (.inl h')) c h'
    · exact t2 d (DigitIs.lt (.inr h')) c h'
  simp only [toDigit] at h16 ⊢
  split at h16
  · split at h16
    · cases h16
      simp [hd]
    · cases h16
  · cases h16

theorem foldl_digits_ge (radix : Nat) (hr : 0 < radix) (ds : List Nat) (acc : Nat) :
    acc ≤ ds.foldl (fun a d => a * radix + d) acc := by
  induction ds generalizing acc with
  | nil => simp
  | cons d ds ih =>
    simp only [List.foldl_cons]
    have h1 := ih (acc * radix + d)
    have h2 : acc * 1 ≤ acc * radix := Nat.mul_le_mul_left _ hr
    omega

theorem parseDigits_iff {radix max : Nat} (hr0 : 0 < radix) (hr : radix ≤ 16) (s : Str) (acc v : Nat) (hacc : acc ≤ max) :
    parseDigits radix max acc s = .ok v ↔
      ∃ ds, Digits radix s ds ∧ ds.foldl (fun a d => a * radix + d) acc = v ∧ v ≤ max := by
  induction s generalizing acc with
  | nil =>
    simp only [parseDigits]
    constructor
    · rintro ⟨⟩; exact ⟨[], .nil, rfl, hacc⟩
    · rintro ⟨ds, hd, h, -⟩; cases hd; simp at h; rw [h]
  | cons c cs ih =>
    simp only [parseDigits]
    constructor
    · intro h
      cases hd : toDigit radix c with
      | none => rw [hd] at h; cases h
      | some d =>
        rw [hd] at h
        simp only at h
        by_cases hle : acc * radix + d ≤ max
        · rw [if_pos hle, ih _ hle] at h
          obtain ⟨ds, h1, h2, h3⟩ := h
          have := toDigit_some hr hd
          exact ⟨d :: ds, .cons this.1 this.2 h1, h2, h3⟩
        · rw [if_neg hle] at h; cases h
    · rintro ⟨ds, hd, h, hv⟩
      cases hd with
      | cons h1 h2 h3 =>
        rename_i d ds
        rw [toDigit_of_digitIs h1 h2]
        simp only [List.foldl_cons] at h
        have := foldl_digits_ge radix hr0 ds (acc * radix + d)
        have hle : acc * radix + d ≤ max := by omega
        simp only [if_pos hle]
        rw [ih _ hle]
        exact ⟨ds, h3, h, hv⟩

theorem plus_not_digit (d : Nat) : ¬ DigitIs '+' d := by
  intro h
  have t : ∀ k, k < 16 → lowerDigits[k]? ≠ some '+' ∧ upperDigits[k]? ≠ some '+' := by decide
  have := t d h.lt
  rcases h with h | h
  · exact this.1 h
  · exact this.2 h

theorem parseUnsigned_iff {radix max : Nat} (hr0 : 0 < radix) (hr : radix ≤ 16) (s : Str) (v : Nat) :
    parseUnsigned radix max s = .ok v ↔ PlusNumeral radix s v ∧ v ≤ max := by
  have key := fun t => parseDigits_iff (max := max) hr0 hr t 0 v (Nat.zero_le _)
  have hnum : ∀ t, t ≠ [] → (parseDigits radix max 0 t = .ok v ↔ Numeral radix t v ∧ v ≤ max) := by
    intro t ht
    rw [key t]
    constructor
    · rintro ⟨ds, h1, h2, h3⟩; exact ⟨⟨ht, ds, h1, h2⟩, h3⟩
    · rintro ⟨⟨-, ds, h1, h2⟩, h3⟩; exact ⟨ds, h1, h2, h3⟩
  have hplus : ∀ t, ¬ Numeral radix ('+' :: t) v := by
    rintro t ⟨-, ds, hd, -⟩
    cases hd with
    | cons h1 _ _ => exact plus_not_digit _ h1
  unfold parseUnsigned
  split
  · constructor
    · intro h; cases h
    · rintro ⟨h | ⟨t, h, -⟩, -⟩
      · exact absurd rfl h.1
      · cases h
  · constructor
    · intro h; cases h
    · rintro ⟨h | ⟨t, h, h2⟩, -⟩
      · exact absurd h (hplus _)
      · cases h; exact absurd rfl h2.1
  · rename_i rest hne
    have hr' : rest ≠ [] := by rintro rfl; exact hne rfl
    rw [hnum rest hr']
    constructor
    · rintro ⟨h, h2⟩; exact ⟨.inr ⟨rest, rfl, h⟩, h2⟩
    · rintro ⟨h | ⟨t, h, h2⟩, h3⟩
      · exact absurd h (hplus _)
      · cases h; exact ⟨h2, h3⟩
  · rename_i h1 h2 h3
    rw [hnum s (by rintro rfl; exact h1 rfl)]
    constructor
    · rintro ⟨h, h2⟩; exact ⟨.inl h, h2⟩
    · rintro ⟨h | ⟨t, h, -⟩, h4⟩
      · exact ⟨h, h4⟩
      · exact absurd h (h3 t)

theorem Digits.append {radix : Nat} {s t : Str} {ds es : List Nat} (h : Digits radix s ds) (h' : Digits radix t es) :
    Digits radix (s ++ t) (ds ++ es) := by
  induction h with
  | nil => exact h'
  | cons h1 h2 _ ih => exact .cons h1 h2 ih

theorem Digits.length {radix : Nat} {s : Str} {ds : List Nat} (h : Digits radix s ds) : s.length = ds.length := by
  induction h with
  | nil => rfl
  | cons _ _ _ ih => simp [ih]

theorem Digits.lt {radix : Nat} {s : Str} {ds : List Nat} (h : Digits radix s ds) : ∀ d ∈ ds, d < radix := by
  induction h with
  | nil => simp
  | cons _ h2 _ ih => intro x hx; exact (List.mem_cons.mp hx).elim (fun e => e ▸ h2) (ih x)

theorem showNat_spec {radix : Nat} (h1 : 1 < radix) (h16 : radix ≤ 16) (n : Nat) :
    CanonicalNumeral radix (showNat radix n) n ∧ (n ≠ 0 → (showNat radix n).head? ≠ some '0') := by
  have tdig : ∀ k, k < 16 → lowerDigits[k]? = some k.digitChar := by decide
  have t0 : ∀ k, k < 16 → k ≠ 0 → k.digitChar ≠ '0' := by decide
  have dig : ∀ k, k < radix → DigitIs k.digitChar k := fun k hk => .inl (tdig k (by omega))
  have mem : ∀ k, k < radix → k.digitChar ∈ lowerDigits := fun k hk => List.mem_of_getElem? (tdig k (by omega))
  induction n using Nat.strongRecOn with
  | ind n ih =>
    rcases Nat.lt_or_ge n radix with h | h
    · rw [showNat, Nat.toDigits_of_lt_base h]
      refine ⟨⟨⟨by simp, [n], .cons (dig n h) h .nil, by simp [bigEndian]⟩, by simpa using mem n h, ?_⟩, ?_⟩
      · simp
      · intro h0; simpa using t0 n (by omega) h0
    · have hq : 0 < n / radix := Nat.div_pos h (by omega)
      have hm : n % radix < radix := Nat.mod_lt _ (by omega)
      obtain ⟨⟨⟨hne, ds, hd, hv⟩, hlow, hz⟩, hz'⟩ := ih (n / radix) (Nat.div_lt_self (by omega) h1)
      have hz'' := hz' (by omega)
      rw [showNat, Nat.toDigits_of_base_le h1 h]
      rw [showNat] at hne hd hlow hz hz''
      refine ⟨⟨⟨by simp, ds ++ [n % radix], hd.append (.cons (dig _ hm) hm .nil), ?_⟩, ?_, ?_⟩, ?_⟩
      · rw [bigEndian_append, hv]
        simp only [bigEndian, List.length_cons, List.length_nil, List.foldl_cons, List.foldl_nil]
        simp
        rw [Nat.mul_comm]; exact Nat.div_add_mod n radix
      · intro c hc
        rcases List.mem_append.mp hc with hc | hc
        · exact hlow c hc
        · rw [List.mem_singleton.mp hc]; exact mem _ hm
      · intro hh
        exfalso
        rw [List.head?_append, Option.or_of_isSome (by simp)] at hh
        exact hz'' hh
      · intro _
        rw [List.head?_append, Option.or_of_isSome (by simp)]
        exact hz''

theorem showNat_canonical {radix : Nat} (h1 : 1 < radix) (h16 : radix ≤ 16) (n : Nat) :
    CanonicalNumeral radix (showNat radix n) n := (showNat_spec h1 h16 n).1

theorem Digits.unique {radix : Nat} {s : Str} {ds es : List Nat} (h : Digits radix s ds) (h' : Digits radix s es) : ds = es := by
  induction h generalizing es with
  | nil => cases h'; rfl
  | cons h1 h2 _ ih =>
    cases h' with
    | cons h1' h2' h3' =>
      have e := toDigit_of_digitIs h1 h2
      rw [toDigit_of_digitIs h1' h2'] at e
      cases e
      rw [ih h3']

theorem Numeral.unique {radix : Nat} {s : Str} {v w : Nat} (h : Numeral radix s v) (h' : Numeral radix s w) : v = w := by
  obtain ⟨-, ds, h1, rfl⟩ := h
  obtain ⟨-, es, h2, rfl⟩ := h'
  rw [h1.unique h2]

theorem showNat_inj {radix : Nat} (h1 : 1 < radix) (h16 : radix ≤ 16) {m n : Nat} (h : showNat radix m = showNat radix n) : m = n := by
  have hm := (showNat_canonical h1 h16 m).1
  rw [h] at hm
  exact hm.unique (showNat_canonical h1 h16 n).1

theorem parseUnsigned_showNat {radix max : Nat} (h1 : 1 < radix) (h16 : radix ≤ 16) {n : Nat} (h : n ≤ max) :
    parseUnsigned radix max (showNat radix n) = .ok n :=
  (parseUnsigned_iff (by omega) h16 _ _).mpr ⟨.inl (showNat_canonical h1 h16 n).1, h⟩

theorem showNat_ne_nil (radix n : Nat) : showNat radix n ≠ [] := Nat.toDigits_ne_nil

theorem showNat_mem {radix : Nat} (h1 : 1 < radix) (h16 : radix ≤ 16) {n : Nat} {c : Char} (h : c ∈ showNat radix n) :
    c ∈ lowerDigits := (showNat_canonical h1 h16 n).2.1 c h

/-! ## split and join -/

theorem splitChar_ne_nil (sep : Char) (s : Str) : splitChar sep s ≠ [] := by
  cases s with
  | nil => simp [splitChar]
  | cons c cs =>
    simp only [splitChar]
    split
    · simp
    · split <;> simp

theorem join_splitChar (sep : Char) (s : Str) : List.intercalate [sep] (splitChar sep s) = s := by
  induction s with
  | nil => rfl
  | cons c cs ih =>
    simp only [splitChar]
    split
    · rename_i h; subst h
      cases hs : splitChar c cs with
      | nil => exact absurd hs (splitChar_ne_nil _ _)
      | cons x xs =>
        rw [hs] at ih
        rw [List.intercalate_cons_cons, ih]
        rfl
    · cases hs : splitChar sep cs with
      | nil => exact absurd hs (splitChar_ne_nil _ _)
      | cons x xs =>
        rw [hs] at ih
        simp only
        cases xs with
        | nil => simpa using ih
        | cons y ys =>
          rw [List.intercalate_cons_cons] at ih ⊢
          simp [← ih]

theorem splitChar_not_mem (sep : Char) (s : Str) : ∀ p ∈ splitChar sep s, sep ∉ p := by
  induction s with
  | nil => simp [splitChar]
  | cons c cs ih =>
    simp only [splitChar]
    split
    · intro p hp
      rcases List.mem_cons.mp hp with rfl | hp
      · simp
      · exact ih p hp
    · rename_i hne
      cases hs : splitChar sep cs with
      | nil => exact absurd hs (splitChar_ne_nil _ _)
      | cons x xs =>
        rw [hs] at ih
        intro p hp
        rcases List.mem_cons.mp hp with rfl | hp
        · have := ih x (by simp)
          simp [this, Ne.symm hne]
        · exact ih p (by simp [hp])

theorem splitChar_append_sep (sep : Char) (x : Str) (hx : sep ∉ x) (s : Str) :
    splitChar sep (x ++ sep :: s) = x :: splitChar sep s := by
  induction x with
  | nil => simp [splitChar]
  | cons c cs ih =>
    have h1 : c ≠ sep := by rintro rfl; simp at hx
    have h2 : sep ∉ cs := by intro h; exact hx (by simp [h])
    simp only [List.cons_append, splitChar, if_neg h1, ih h2]

theorem splitChar_of_not_mem (sep : Char) (x : Str) (hx : sep ∉ x) : splitChar sep x = [x] := by
  induction x with
  | nil => simp [splitChar]
  | cons c cs ih =>
    have h1 : c ≠ sep := by rintro rfl; simp at hx
    have h2 : sep ∉ cs := by intro h; exact hx (by simp [h])
    simp only [splitChar, if_neg h1, ih h2]

theorem splitChar_join (sep : Char) (ps : List Str) (hne : ps ≠ []) (hp : ∀ p ∈ ps, sep ∉ p) :
    splitChar sep (List.intercalate [sep] ps) = ps := by
  induction ps with
  | nil => exact absurd rfl hne
  | cons x xs ih =>
    cases xs with
    | nil => simpa using splitChar_of_not_mem sep x (hp x (by simp))
    | cons y ys =>
      rw [List.intercalate_cons_cons, show x ++ [sep] ++ List.intercalate [sep] (y :: ys) =
        x ++ sep :: List.intercalate [sep] (y :: ys) by simp, splitChar_append_sep _ _ (hp x (by simp)),
        ih (by simp) (fun p h => hp p (by simp [List.mem_cons.mp h]))]

theorem splitChar_eq_iff (sep : Char) (s : Str) (ps : List Str) :
    splitChar sep s = ps ↔ ps ≠ [] ∧ (∀ p ∈ ps, sep ∉ p) ∧ s = List.intercalate [sep] ps := by
  constructor
  · rintro rfl
    exact ⟨splitChar_ne_nil _ _, splitChar_not_mem _ _, (join_splitChar _ _).symm⟩
  · rintro ⟨h1, h2, rfl⟩
    exact splitChar_join sep ps h1 h2

theorem joinWith_eq (sep : Str) (ps : List Str) : joinWith sep ps = List.intercalate sep ps := by
  induction ps with
  | nil => simp [joinWith]
  | cons x xs ih =>
    cases xs with
    | nil => simp [joinWith]
    | cons y ys =>
      rw [joinWith, ih, List.intercalate_cons_cons]

theorem intercalate_append (sep : Str) {xs ys : List Str} (hx : xs ≠ []) (hy : ys ≠ []) :
    List.intercalate sep (xs ++ ys) = List.intercalate sep xs ++ sep ++ List.intercalate sep ys := by
  induction xs with
  | nil => exact absurd rfl hx
  | cons x xs ih =>
    cases xs with
    | nil =>
      cases ys with
      | nil => exact absurd rfl hy
      | cons y ys => simp [List.intercalate_cons_cons]
    | cons y zs =>
      simp only [List.cons_append] at ih ⊢
      rw [List.intercalate_cons_cons, ih (by simp), List.intercalate_cons_cons]
      simp

theorem hasChar_iff (c : Char) (s : Str) : hasChar c s = true ↔ c ∈ s := by simp [hasChar]

theorem PlusNumeral.chars {radix : Nat} {s : Str} {v : Nat} (h : PlusNumeral radix s v) :
    s ≠ [] ∧ ∀ c ∈ s, c = '+' ∨ c ∈ lowerDigits ∨ c ∈ upperDigits := by
  have key : ∀ {t : Str} {ds}, Digits radix t ds → ∀ c ∈ t, c ∈ lowerDigits ∨ c ∈ upperDigits := by
    intro t ds hd
    induction hd with
    | nil => simp
    | cons h1 _ _ ih =>
      intro x hx
      rcases List.mem_cons.mp hx with rfl | hx
      · rcases h1 with h | h
        · exact .inl (List.mem_of_getElem? h)
        · exact .inr (List.mem_of_getElem? h)
      · exact ih x hx
  rcases h with ⟨hne, ds, hd, -⟩ | ⟨t, rfl, hne, ds, hd, -⟩
  · exact ⟨hne, fun c hc => .inr (key hd c hc)⟩
  · refine ⟨by simp, fun c hc => ?_⟩
    rcases List.mem_cons.mp hc with rfl | hc
    · exact .inl rfl
    · exact .inr (key hd c hc)

theorem PlusNumeral.not_mem {radix : Nat} {s : Str} {v : Nat} (h : PlusNumeral radix s v) {c : Char}
    (hc : c ≠ '+' ∧ c ∉ lowerDigits ∧ c ∉ upperDigits) : c ∉ s := by
  intro hm
  rcases h.chars.2 c hm with h | h | h
  · exact hc.1 h
  · exact hc.2.1 h
  · exact hc.2.2 h

theorem PlusNumeral.unique {radix : Nat} {s : Str} {v w : Nat} (h : PlusNumeral radix s v) (h' : PlusNumeral radix s w) :
    v = w := by
  have hplus : ∀ t x, ¬ Numeral radix ('+' :: t) x := by
    rintro t x ⟨-, ds, hd, -⟩
    cases hd with
    | cons h1 _ _ => exact plus_not_digit _ h1
  rcases h with h | ⟨t, rfl, h⟩
  · rcases h' with h' | ⟨t, rfl, h'⟩
    · exact h.unique h'
    · exact absurd h (hplus _ _)
  · rcases h' with h' | ⟨t', e, h'⟩
    · exact absurd h' (hplus _ _)
    · cases e; exact h.unique h'

end Ripcalc
