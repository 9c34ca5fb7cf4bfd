import Verif.Model.Split
import Verif.Spec.Counts
import Verif.Proofs.Errors
/-!
# Host counts
-/
namespace Ripcalc

theorem bigDigits_iff (s : Str) (acc n : Nat) : bigDigits acc s = some n ↔
    ∃ ds, Digits 10 (s.filter (· ≠ '_')) ds ∧ ds.foldl (fun a d => a * 10 + d) acc = n := by
  induction s generalizing acc with
  | nil =>
    rw [bigDigits]
    constructor
    · intro h; cases h; exact ⟨[], .nil, rfl⟩
    · rintro ⟨ds, h, h'⟩; cases h; rw [← h']; rfl
  | cons c cs ih =>
    rw [bigDigits]
    by_cases hc : c = '_'
    · rw [if_pos hc, ih, List.filter_cons_of_neg (by simp [hc])]
    · rw [if_neg hc, List.filter_cons_of_pos (by simp [hc])]
      constructor
      · intro h
        cases hd : toDigit 10 c with
        | none => rw [hd] at h; cases h
        | some d =>
          rw [hd] at h
          obtain ⟨ds, h1, h2⟩ := (ih _).mp h
          obtain ⟨h3, h4⟩ := toDigit_some (by decide) hd
          exact ⟨d :: ds, .cons h3 h4 h1, h2⟩
      · rintro ⟨ds, h, h'⟩
        cases h with
        | cons h1 h2 h3 =>
          rw [toDigit_of_digitIs h1 h2]
          exact (ih _).mpr ⟨_, h3, h'⟩

theorem separated_head {s : Str} {v : Nat} (h : SeparatedNumeral s v) : ∃ c t d, s = c :: t ∧ DigitIs c d ∧ d < 10 := by
  obtain ⟨h1, h2, ds, h3, -⟩ := h
  cases s with
  | nil => exact absurd rfl h2
  | cons c t =>
    have hc : c ≠ '_' := fun he => h1 (by simp [he])
    rw [List.filter_cons_of_pos (by simp [hc])] at h3
    cases h3 with
    | cons h4 h5 _ => exact ⟨c, t, _, rfl, h4, h5⟩

theorem sign_not_digit {c : Char} {d : Nat} (hc : c = '+' ∨ c = '-') : ¬ DigitIs c d := by
  intro h
  have t : ∀ k, k < 16 → (lowerDigits[k]? ≠ some '+' ∧ upperDigits[k]? ≠ some '+') ∧ (lowerDigits[k]? ≠ some '-' ∧ upperDigits[k]? ≠ some '-') := by
    decide
  have := t d h.lt
  rcases hc with rfl | rfl <;> rcases h with h | h
  · exact this.1.1 h
  · exact this.1.2 h
  · exact this.2.1 h
  · exact this.2.2 h

theorem not_separated_sign {c : Char} {t : Str} {v : Nat} (hc : c = '+' ∨ c = '-') : ¬ SeparatedNumeral (c :: t) v := by
  intro h
  obtain ⟨c', t', d, e, h1, -⟩ := separated_head h
  cases e
  exact sign_not_digit hc h1

/-- The unsigned part, without a sign in front. -/
theorem body_iff (s : Str) (n : Nat) :
    (match s with | [] => none | '_' :: _ => none | _ => bigDigits 0 s) = some n ↔ SeparatedNumeral s n := by
  constructor
  · intro h
    split at h
    · cases h
    · cases h
    · rename_i h1 h2
      obtain ⟨ds, h3, h4⟩ := (bigDigits_iff s 0 n).mp h
      cases s with
      | nil => exact absurd rfl h1
      | cons c t =>
        have hc : c ≠ '_' := fun he => h2 t (by rw [he])
        refine ⟨by simp [hc], ?_, ds, h3, h4⟩
        rw [List.filter_cons_of_pos (by simp [hc])]
        simp
  · intro h
    obtain ⟨c, t, d, rfl, -⟩ := separated_head h
    obtain ⟨h1, h2, ds, h3, h4⟩ := h
    have hc : c ≠ '_' := fun he => h1 (by simp [he])
    have := (bigDigits_iff (c :: t) 0 n).mpr ⟨ds, h3, h4⟩
    split
    · rename_i e; cases e
    · rename_i e; cases e; exact absurd rfl hc
    · exact this

theorem parseBigUint_iff (s : Str) (n : Nat) : parseBigUint s = some n ↔
    SeparatedNumeral s n ∨ ∃ t, s = '+' :: t ∧ SeparatedNumeral t n := by
  unfold parseBigUint
  dsimp only
  refine (body_iff _ n).trans ?_
  split
  · rename_i tail
    split
    · rename_i hh
      constructor
      · exact .inl
      · rintro (h | ⟨t, e, h⟩)
        · exact h
        · cases e
          cases tail with
          | nil => cases hh
          | cons c tl => cases hh; exact absurd h (not_separated_sign (.inl rfl))
    · constructor
      · intro h; exact .inr ⟨_, rfl, h⟩
      · rintro (h | ⟨t, e, h⟩)
        · exact absurd h (not_separated_sign (.inl rfl))
        · cases e; exact h
  · rename_i hno
    constructor
    · exact .inl
    · rintro (h | ⟨t, e, h⟩)
      · exact h
      · exact absurd e (hno t)

theorem parseBigInt_iff (s : Str) (c : Int) : parseBigInt s = some c ↔ CountText s c := by
  unfold parseBigInt CountText
  split
  · rename_i tail
    split
    · rename_i hh
      rw [show parseBigUint ('-' :: tail) = none from ?_]
      · constructor
        · intro h; cases h
        · rintro (⟨v, -, h | ⟨t, e, -⟩⟩ | ⟨v, -, t, e, h⟩)
          · exact absurd h (not_separated_sign (.inr rfl))
          · cases e
          · cases e
            cases tail with
            | nil => cases hh
            | cons c tl => cases hh; exact absurd h (not_separated_sign (.inl rfl))
      · cases hp : parseBigUint ('-' :: tail) with
        | none => rfl
        | some n =>
          rcases (parseBigUint_iff _ n).mp hp with h | ⟨t, e, -⟩
          · exact absurd h (not_separated_sign (.inr rfl))
          · cases e
    · rename_i hh
      rw [Option.map_eq_some_iff]
      constructor
      · rintro ⟨v, h, rfl⟩
        rcases (parseBigUint_iff _ v).mp h with h | ⟨t, rfl, -⟩
        · exact .inr ⟨v, rfl, tail, rfl, h⟩
        · exact absurd rfl hh
      · rintro (⟨v, -, h | ⟨t, e, -⟩⟩ | ⟨v, rfl, t, e, h⟩)
        · exact absurd h (not_separated_sign (.inr rfl))
        · cases e
        · cases e; exact ⟨v, (parseBigUint_iff _ v).mpr (.inl h), rfl⟩
  · rename_i hno
    rw [Option.map_eq_some_iff]
    simp only [parseBigUint_iff]
    constructor
    · rintro ⟨v, h, rfl⟩; exact .inl ⟨v, rfl, h⟩
    · rintro (⟨v, rfl, h⟩ | ⟨v, -, t, e, -⟩)
      · exact ⟨v, h, rfl⟩
      · exact absurd e (hno t)

theorem parseBigInt_none (s : Str) : parseBigInt s = none ↔ ∀ c, ¬ CountText s c := by
  rw [Option.eq_none_iff_forall_ne_some]
  simp only [ne_eq, parseBigInt_iff]

end Ripcalc
