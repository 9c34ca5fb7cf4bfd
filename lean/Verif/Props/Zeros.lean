import Verif.Spec.Zeros
import Verif.Props.Alike
/-!
# C122: zeros in front of numbers
-/
namespace Ripcalc
open AddrSpec

/-! ## Texts -/

theorem ZerosAdded.refl : ∀ (b : Bool) (s : Str), ZerosAdded b s s
  | _, [] => .nil
  | _, _ :: s => .keep (.refl _ s)

theorem ZerosAdded.nil_left {b : Bool} {s' : Str} (h : ZerosAdded b [] s') : s' = [] := by cases h; rfl

theorem ZerosAdded.nil_right {b : Bool} {s : Str} (h : ZerosAdded b s []) : s = [] := by cases h; rfl

theorem ZerosAdded.last {b : Bool} {s s' : Str} (h : ZerosAdded b s s') : s.getLast? = s'.getLast? := by
  induction h with
  | nil => rfl
  | @keep b c s s' h ih =>
    cases s with
    | nil => rw [h.nil_left]
    | cons d s =>
      cases s' with
      | nil => cases h.nil_right
      | cons d' s' => rw [List.getLast?_cons_cons, List.getLast?_cons_cons, ih]
  | @zero c s s' _ h ih =>
    cases s' with
    | nil => cases h.nil_right
    | cons d' s' => rw [List.getLast?_cons_cons, ih]

theorem ZerosAdded.snoc {b : Bool} {s s' : Str} (h : ZerosAdded b s s') (c : Char) : ZerosAdded b (s ++ [c]) (s' ++ [c]) := by
  induction h with
  | nil => exact .keep .nil
  | keep _ ih => exact .keep ih
  | zero hc _ ih => exact .zero hc ih

theorem not_digit_of_not_inside {c : Char} (h : c ∉ insideChars) : c ∉ digitChars := fun hd => h (List.mem_cons_of_mem _ hd)

/-- A character that is not in numbers stays in front. -/
theorem ZerosAdded.sep_left {b : Bool} {c : Char} (hc : c ∉ insideChars) {s s' : Str} (h : ZerosAdded b (c :: s) s') :
    ∃ t, s' = c :: t ∧ ZerosAdded false s t := by
  cases h with
  | keep h => exact ⟨_, rfl, by rwa [decide_eq_false hc] at h⟩
  | zero hd _ => exact absurd hd (not_digit_of_not_inside hc)

theorem ZerosAdded.sep_right {b : Bool} {c : Char} (hc : c ∉ insideChars) {s s' : Str} (h : ZerosAdded b s (c :: s')) :
    ∃ t, s = c :: t ∧ ZerosAdded false t s' := by
  cases h with
  | keep h => exact ⟨_, rfl, by rwa [decide_eq_false hc] at h⟩
  | zero hd _ => exact absurd (by decide) hc

theorem ZerosAdded.sep {b : Bool} {c : Char} (hc : c ∉ insideChars) {s s' : Str} (h : ZerosAdded false s s') :
    ZerosAdded b (c :: s) (c :: s') := .keep (by rwa [decide_eq_false hc])

theorem ZerosAdded.split_left {c : Char} (hc : c ∉ insideChars) {y : Str} : ∀ {b : Bool} {u s' : Str}, ZerosAdded b u s' → ∀ {x : Str},
    u = x ++ c :: y → ∃ x' y', s' = x' ++ c :: y' ∧ ZerosAdded b x x' ∧ ZerosAdded false y y' := by
  intro b u s' h
  induction h with
  | nil => intro x e; cases x <;> cases e
  | @keep b d s s' h ih =>
    intro x e
    cases x with
    | nil =>
      cases e
      exact ⟨[], s', rfl, .nil, by rwa [decide_eq_false hc] at h⟩
    | cons d' x =>
      cases e
      obtain ⟨x', y', e, h1, h2⟩ := ih rfl
      exact ⟨d :: x', y', by rw [e]; rfl, .keep h1, h2⟩
  | @zero d s s' hd h ih =>
    intro x e
    obtain ⟨x', y', e', h1, h2⟩ := ih e
    cases x with
    | nil =>
      cases e
      exact absurd hd (not_digit_of_not_inside hc)
    | cons d' x =>
      cases e
      exact ⟨'0' :: x', y', by rw [e']; rfl, .zero hd h1, h2⟩

theorem ZerosAdded.split_right {c : Char} (hc : c ∉ insideChars) {y : Str} : ∀ {b : Bool} {s u : Str}, ZerosAdded b s u → ∀ {x : Str},
    u = x ++ c :: y → ∃ x' y', s = x' ++ c :: y' ∧ ZerosAdded b x' x ∧ ZerosAdded false y' y := by
  intro b s u h
  induction h with
  | nil => intro x e; cases x <;> cases e
  | @keep b d s s' h ih =>
    intro x e
    cases x with
    | nil =>
      cases e
      exact ⟨[], s, rfl, .nil, by rwa [decide_eq_false hc] at h⟩
    | cons d' x =>
      cases e
      obtain ⟨x', y', e, h1, h2⟩ := ih rfl
      exact ⟨d :: x', y', by rw [e]; rfl, .keep h1, h2⟩
  | @zero d s s' hd h ih =>
    intro x e
    cases x with
    | nil =>
      cases e
      exact absurd (by decide) hc
    | cons d' x =>
      cases e
      obtain ⟨x', y', e', h1, h2⟩ := ih rfl
      cases x' with
      | nil =>
        cases e'
        exact absurd hd (not_digit_of_not_inside hc)
      | cons d' x' =>
        cases e'
        exact ⟨d :: x', y', rfl, .zero hd h1, h2⟩

theorem inside_same {s s' : Str} {b : Bool} (h : ZerosAdded b s s') (hb : b = true) (ha : (∀ c ∈ s, c ∈ insideChars) ∨ ∀ c ∈ s', c ∈ insideChars) :
    s' = s := by
  induction h with
  | nil => rfl
  | @keep b c s s' _ ih =>
    have hc : c ∈ insideChars := ha.elim (fun h => h c (by simp)) (fun h => h c (by simp))
    rw [ih (decide_eq_true hc) (ha.imp (fun h x hx => h x (List.mem_cons_of_mem _ hx)) (fun h x hx => h x (List.mem_cons_of_mem _ hx)))]
  | zero => cases hb

/-- Within one number, zeros in front. -/
theorem inside_zeros {s s' : Str} {b : Bool} (h : ZerosAdded b s s') (ha : (∀ c ∈ s, c ∈ insideChars) ∨ ∀ c ∈ s', c ∈ insideChars) :
    ∃ k, s' = List.replicate k '0' ++ s ∧ (k = 0 ∨ ∃ c t, s = c :: t ∧ c ∈ digitChars) := by
  induction h with
  | nil => exact ⟨0, rfl, .inl rfl⟩
  | @keep b c s s' h ih =>
    have hc : c ∈ insideChars := ha.elim (fun h => h c (by simp)) (fun h => h c (by simp))
    rw [inside_same h (decide_eq_true hc) (ha.imp (fun h x hx => h x (List.mem_cons_of_mem _ hx)) (fun h x hx => h x (List.mem_cons_of_mem _ hx)))]
    exact ⟨0, rfl, .inl rfl⟩
  | @zero c s s' hc _ ih =>
    obtain ⟨k, e, -⟩ := ih (ha.imp id fun h x hx => h x (List.mem_cons_of_mem _ hx))
    exact ⟨k + 1, by rw [e]; rfl, .inr ⟨c, s, rfl, hc⟩⟩

/-! ## What stays the same -/

/-- Zeros in front of numbers make no difference. -/
def Unmoved (P : Str → Prop) : Prop := ∀ s s', ZerosAdded false s s' → (P s ↔ P s')

theorem digits_chars {r : Nat} {s : Str} {ds : List Nat} (h : Digits r s ds) : ∀ c ∈ s, c ∈ digitChars := by
  induction h with
  | nil => simp
  | @cons c d cs ds hd _ _ ih =>
    intro x hx
    rcases List.mem_cons.mp hx with rfl | hx
    · exact List.mem_append.mpr (hd.imp (fun h => List.mem_of_getElem? h) (fun h => List.mem_of_getElem? h))
    · exact ih x hx

theorem digits_inside {r : Nat} {s : Str} {ds : List Nat} (h : Digits r s ds) : ∀ c ∈ s, c ∈ insideChars :=
  fun c hc => List.mem_cons_of_mem _ (digits_chars h c hc)

theorem zero_digit {d : Nat} (h : DigitIs '0' d) : d = 0 := by
  have hd : d < 16 := by
    rcases h with h | h <;> exact (List.getElem?_eq_some_iff.mp h).1
  revert h
  have : ∀ d, d < 16 → DigitIs '0' d → d = 0 := by
    unfold DigitIs
    decide
  exact this d hd

theorem digits_zeros {r : Nat} (hr : 0 < r) (s : Str) (v : Nat) : ∀ k, (∃ ds, Digits r (List.replicate k '0' ++ s) ds ∧ bigEndian r ds = v) ↔
    ∃ ds, Digits r s ds ∧ bigEndian r ds = v
  | 0 => Iff.rfl
  | k + 1 => by
    rw [← digits_zeros hr s v k, List.replicate_succ, List.cons_append]
    constructor
    · rintro ⟨ds, h, e⟩
      cases h with
      | @cons _ d _ ds hd _ h =>
        obtain rfl := zero_digit hd
        exact ⟨ds, h, by rw [← e, bigEndian_cons]; simp⟩
    · rintro ⟨ds, h, e⟩
      exact ⟨0 :: ds, .cons (.inl rfl) hr h, by rw [← e, bigEndian_cons]; simp⟩

theorem numeral_zeros {r : Nat} (hr : 0 < r) {s : Str} {k : Nat} (h : k = 0 ∨ s ≠ []) (v : Nat) :
    Numeral r (List.replicate k '0' ++ s) v ↔ Numeral r s v := by
  rw [Numeral, Numeral, digits_zeros hr s v k]
  refine and_congr_left fun _ => ?_
  rcases h with rfl | h
  · exact Iff.rfl
  · simp [h]

theorem unmoved_numeral {r : Nat} (hr : 0 < r) (v : Nat) : Unmoved (Numeral r · v) := by
  intro s s' h
  have key : ((∀ c ∈ s, c ∈ insideChars) ∨ ∀ c ∈ s', c ∈ insideChars) → (Numeral r s v ↔ Numeral r s' v) := fun ha => by
    obtain ⟨k, rfl, hk⟩ := inside_zeros h ha
    refine (numeral_zeros hr (hk.imp id ?_) v).symm
    rintro ⟨c, t, rfl, -⟩
    simp
  constructor
  · intro hn
    obtain ⟨-, ds, hd, -⟩ := id hn
    exact (key (.inl (digits_inside hd))).mp hn
  · intro hn
    obtain ⟨-, ds, hd, -⟩ := id hn
    exact (key (.inr (digits_inside hd))).mpr hn

theorem unmoved_plus {r : Nat} (hr : 0 < r) (v : Nat) : Unmoved (PlusNumeral r · v) := by
  intro s s' h
  refine or_congr (unmoved_numeral hr v s s' h) ⟨?_, ?_⟩
  · rintro ⟨t, rfl, ht⟩
    obtain ⟨t', rfl, h'⟩ := h.sep_left (by decide)
    exact ⟨t', rfl, (unmoved_numeral hr v t t' h').mp ht⟩
  · rintro ⟨t', rfl, ht⟩
    obtain ⟨t, rfl, h'⟩ := h.sep_right (by decide)
    exact ⟨t, rfl, (unmoved_numeral hr v t t' h').mpr ht⟩

theorem ZerosAdded.chars {b : Bool} {s s' : Str} (h : ZerosAdded b s s') (c : Char) : c ∈ s → c ∈ s' := by
  induction h with
  | nil => exact id
  | keep _ ih =>
    intro hc
    rcases List.mem_cons.mp hc with rfl | hc
    · simp
    · exact List.mem_cons_of_mem _ (ih hc)
  | zero _ _ ih => exact fun hc => List.mem_cons_of_mem _ (ih hc)

theorem ZerosAdded.chars_back {b : Bool} {s s' : Str} (h : ZerosAdded b s s') (c : Char) : c ∈ s' → c = '0' ∨ c ∈ s := by
  induction h with
  | nil => exact .inr
  | keep _ ih =>
    intro hc
    rcases List.mem_cons.mp hc with rfl | hc
    · simp
    · exact (ih hc).imp id (List.mem_cons_of_mem _)
  | zero _ _ ih =>
    intro hc
    rcases List.mem_cons.mp hc with rfl | hc
    · exact .inl rfl
    · exact ih hc

theorem ZerosAdded.empty {b : Bool} {s s' : Str} (h : ZerosAdded b s s') : s = [] ↔ s' = [] :=
  ⟨fun e => by subst e; exact h.nil_left, fun e => by subst e; exact h.nil_right⟩

theorem unmoved_chars {l : List Char} (h0 : '0' ∈ l) : Unmoved (fun s => s ≠ [] ∧ ∀ c ∈ s, c ∈ l) := by
  intro s s' h
  refine and_congr (not_congr h.empty) ⟨fun ha c hc => ?_, fun ha c hc => ha c (h.chars c hc)⟩
  rcases h.chars_back c hc with rfl | hc
  · exact h0
  · exact ha c hc

theorem unmoved_digitText : Unmoved DigitText := unmoved_chars (by decide)

theorem unmoved_hexColon : Unmoved HexColonText := unmoved_chars (by decide)

theorem unmoved_mem {c : Char} (hc : c ≠ '0') : Unmoved (c ∈ ·) := fun _ _ h =>
  ⟨h.chars c, fun hm => (h.chars_back c hm).resolve_left hc⟩

theorem unmoved_quad : Unmoved QuadText := by
  have hd : '.' ∉ insideChars := by decide
  intro s s' h
  constructor
  · rintro ⟨t0, t1, t2, t3, e, h0, h1, h2, h3⟩
    obtain ⟨x, u3, rfl, hx, k3⟩ := h.split_left hd e
    obtain ⟨x, u2, rfl, hx, k2⟩ := hx.split_left hd rfl
    obtain ⟨u0, u1, rfl, k0, k1⟩ := hx.split_left hd rfl
    exact ⟨u0, u1, u2, u3, rfl, (unmoved_digitText _ _ k0).mp h0, (unmoved_digitText _ _ k1).mp h1, (unmoved_digitText _ _ k2).mp h2,
      (unmoved_digitText _ _ k3).mp h3⟩
  · rintro ⟨t0, t1, t2, t3, e, h0, h1, h2, h3⟩
    obtain ⟨x, u3, rfl, hx, k3⟩ := h.split_right hd e
    obtain ⟨x, u2, rfl, hx, k2⟩ := hx.split_right hd rfl
    obtain ⟨u0, u1, rfl, k0, k1⟩ := hx.split_right hd rfl
    exact ⟨u0, u1, u2, u3, rfl, (unmoved_digitText _ _ k0).mpr h0, (unmoved_digitText _ _ k1).mpr h1, (unmoved_digitText _ _ k2).mpr h2,
      (unmoved_digitText _ _ k3).mpr h3⟩

theorem unmoved_reading4 (a : V4) : Unmoved (V4Reading · a) := by
  have hd : '.' ∉ insideChars := by decide
  have hp := fun v => unmoved_plus (r := 10) (by decide) v
  intro s s' h
  constructor
  · rintro ⟨t0, t1, t2, t3, v0, v1, v2, v3, e, ⟨h0, b0⟩, ⟨h1, b1⟩, ⟨h2, b2⟩, ⟨h3, b3⟩, hv⟩
    obtain ⟨x, u3, rfl, hx, k3⟩ := h.split_left hd e
    obtain ⟨x, u2, rfl, hx, k2⟩ := hx.split_left hd rfl
    obtain ⟨u0, u1, rfl, k0, k1⟩ := hx.split_left hd rfl
    exact ⟨u0, u1, u2, u3, v0, v1, v2, v3, rfl, ⟨(hp _ _ _ k0).mp h0, b0⟩, ⟨(hp _ _ _ k1).mp h1, b1⟩, ⟨(hp _ _ _ k2).mp h2, b2⟩,
      ⟨(hp _ _ _ k3).mp h3, b3⟩, hv⟩
  · rintro ⟨t0, t1, t2, t3, v0, v1, v2, v3, e, ⟨h0, b0⟩, ⟨h1, b1⟩, ⟨h2, b2⟩, ⟨h3, b3⟩, hv⟩
    obtain ⟨x, u3, rfl, hx, k3⟩ := h.split_right hd e
    obtain ⟨x, u2, rfl, hx, k2⟩ := hx.split_right hd rfl
    obtain ⟨u0, u1, rfl, k0, k1⟩ := hx.split_right hd rfl
    exact ⟨u0, u1, u2, u3, v0, v1, v2, v3, rfl, ⟨(hp _ _ _ k0).mpr h0, b0⟩, ⟨(hp _ _ _ k1).mpr h1, b1⟩, ⟨(hp _ _ _ k2).mpr h2, b2⟩,
      ⟨(hp _ _ _ k3).mpr h3, b3⟩, hv⟩

theorem inter_left {c : Char} (hc : c ∉ insideChars) : ∀ {gs : List Str}, gs ≠ [] → ∀ {s' : Str}, ZerosAdded false (List.intercalate [c] gs) s' →
    ∃ gs', s' = List.intercalate [c] gs' ∧ Pointwise (ZerosAdded false) gs gs'
  | [], h, _, _ => absurd rfl h
  | [g], _, s', h => ⟨[s'], by simp [List.intercalate], .cons (by simpa [List.intercalate] using h) .nil⟩
  | g :: g' :: gs, _, s', h => by
    rw [List.intercalate_cons_cons, List.append_assoc] at h
    obtain ⟨x, y, rfl, h1, h2⟩ := h.split_left hc rfl
    obtain ⟨gs', rfl, h3⟩ := inter_left hc (gs := g' :: gs) (by simp) h2
    cases h3 with
    | cons h3 h4 =>
      exact ⟨x :: _ :: _, by rw [List.intercalate_cons_cons, List.append_assoc]; rfl, .cons h1 (.cons h3 h4)⟩

theorem inter_right {c : Char} (hc : c ∉ insideChars) : ∀ {gs : List Str}, gs ≠ [] → ∀ {s : Str}, ZerosAdded false s (List.intercalate [c] gs) →
    ∃ gs', s = List.intercalate [c] gs' ∧ Pointwise (ZerosAdded false) gs' gs
  | [], h, _, _ => absurd rfl h
  | [g], _, s', h => ⟨[s'], by simp [List.intercalate], .cons (by simpa [List.intercalate] using h) .nil⟩
  | g :: g' :: gs, _, s', h => by
    rw [List.intercalate_cons_cons, List.append_assoc] at h
    obtain ⟨x, y, rfl, h1, h2⟩ := h.split_right hc rfl
    obtain ⟨gs', rfl, h3⟩ := inter_right hc (gs := g' :: gs) (by simp) h2
    cases h3 with
    | cons h3 h4 =>
      exact ⟨x :: _ :: _, by rw [List.intercalate_cons_cons, List.append_assoc]; rfl, .cons h1 (.cons h3 h4)⟩

theorem pointwise_through {α β γ : Type} {R : α → β → Prop} {P : α → γ → Prop} {Q : β → γ → Prop} (hR : ∀ a b c, R a b → P a c → Q b c) :
    ∀ {as : List α} {bs : List β} {cs : List γ}, Pointwise R as bs → Pointwise P as cs → Pointwise Q bs cs := by
  intro as bs cs h
  induction h generalizing cs with
  | nil => intro h; cases h; exact .nil
  | cons h _ ih => intro h'; cases h' with | cons h1 h2 => exact .cons (hR _ _ _ h h1) (ih h2)

theorem pointwise_swap {α β : Type} {R : α → β → Prop} {as : List α} {bs : List β} (h : Pointwise R as bs) : Pointwise (fun b a => R a b) bs as := by
  induction h with
  | nil => exact .nil
  | cons h _ ih => exact .cons h ih

theorem pointwise_parts {α β : Type} {R : α → β → Prop} : ∀ {as as' : List α} {bs : List β}, Pointwise R (as ++ as') bs →
    ∃ cs cs', bs = cs ++ cs' ∧ Pointwise R as cs ∧ Pointwise R as' cs'
  | [], _, bs, h => ⟨[], bs, rfl, .nil, h⟩
  | a :: as, as', _, h => by
    cases h with
    | cons h1 h2 =>
      obtain ⟨cs, cs', rfl, h3, h4⟩ := pointwise_parts h2
      exact ⟨_ :: cs, cs', rfl, .cons h1 h3, h4⟩

theorem unmoved_group (v : Nat) : Unmoved (Group · v) := fun s s' h => and_congr_left fun _ => unmoved_plus (by decide) v s s' h

theorem ZerosAdded.head {b : Bool} {c : Char} (hc : c ∉ insideChars) {s s' : Str} (h : ZerosAdded b s s') : s.head? = some c ↔ s'.head? = some c := by
  constructor
  · intro e
    cases s with
    | nil => cases e
    | cons d s =>
      cases e
      obtain ⟨t, rfl, -⟩ := h.sep_left hc
      rfl
  · intro e
    cases s' with
    | nil => cases e
    | cons d s' =>
      cases e
      obtain ⟨t, rfl, -⟩ := h.sep_right hc
      rfl

theorem ZerosAdded.complete {s s' : Str} (h : ZerosAdded false s s') : ZerosAdded false (completeColons s) (completeColons s') := by
  have hc : ':' ∉ insideChars := by decide
  have h1 : ZerosAdded false ((if s.head? = some ':' then ['0'] else []) ++ s) ((if s'.head? = some ':' then ['0'] else []) ++ s') := by
    by_cases e : s.head? = some ':'
    · rw [if_pos e, if_pos ((h.head hc).mp e)]
      cases s with
      | nil => cases e
      | cons d s =>
        cases e
        obtain ⟨t, rfl, ht⟩ := h.sep_left hc
        exact .keep (ht.sep hc)
    · rw [if_neg e, if_neg (mt (h.head hc).mpr e)]
      exact h
  rw [completeColons, completeColons, ← h.last]
  by_cases e : s.getLast? = some ':'
  · rw [if_pos e]
    exact h1.snoc _
  · rw [if_neg e, List.append_nil, List.append_nil]
    exact h1

theorem unmoved_reading6 (a : V6) : Unmoved (V6Reading · a) := by
  have hc : ':' ∉ insideChars := by decide
  have fwd : ∀ (g g' : Str) (v : Nat), ZerosAdded false g g' → Group g v → Group g' v := fun g g' v h => (unmoved_group v g g' h).mp
  have bwd : ∀ (g g' : Str) (v : Nat), ZerosAdded false g' g → Group g v → Group g' v := fun g g' v h => (unmoved_group v g' g h).mpr
  intro s s' h
  have h := h.complete
  constructor
  · rintro (⟨gs, e, hl, hg⟩ | ⟨pre, post, vs, ws, e, hl, hpre, hpost, hv⟩)
    · rw [e] at h
      obtain ⟨gs', e', hp⟩ := inter_left hc (by rintro rfl; cases hl) h
      exact .inl ⟨gs', e', by rw [← pointwise_length hp, hl], pointwise_through fwd hp hg⟩
    · rw [e] at h
      obtain ⟨gs', e', hp⟩ := inter_left hc (by simp) h
      obtain ⟨x, post', rfl, hx, h2⟩ := pointwise_parts hp
      obtain ⟨pre', m, rfl, h1, hm⟩ := pointwise_parts hx
      cases hm with
      | cons hm hm' =>
        cases hm'
        obtain rfl := hm.nil_left
        exact .inr ⟨pre', post', vs, ws, e', by rw [← pointwise_length h1, ← pointwise_length h2]; exact hl, pointwise_through fwd h1 hpre,
          pointwise_through fwd h2 hpost, by rw [← pointwise_length h1, ← pointwise_length h2]; exact hv⟩
  · rintro (⟨gs, e, hl, hg⟩ | ⟨pre, post, vs, ws, e, hl, hpre, hpost, hv⟩)
    · rw [e] at h
      obtain ⟨gs', e', hp⟩ := inter_right hc (by rintro rfl; cases hl) h
      exact .inl ⟨gs', e', by rw [pointwise_length hp, hl], pointwise_through bwd (pointwise_swap hp) hg⟩
    · rw [e] at h
      obtain ⟨gs', e', hp⟩ := inter_right hc (by simp) h
      obtain ⟨x, post', rfl, hx, h2⟩ := pointwise_parts (pointwise_swap hp)
      obtain ⟨pre', m, rfl, h1, hm⟩ := pointwise_parts hx
      cases hm with
      | cons hm hm' =>
        cases hm'
        obtain rfl := hm.nil_right
        exact .inr ⟨pre', post', vs, ws, e', by rw [← pointwise_length h1, ← pointwise_length h2]; exact hl, pointwise_through bwd h1 hpre,
          pointwise_through bwd h2 hpost, by rw [← pointwise_length h1, ← pointwise_length h2]; exact hv⟩

theorem spec_left {t : Str} {w : Bool} {l s' : Str} (h : ZerosAdded false (specText t w l) s') :
    ∃ t' l', s' = specText t' w l' ∧ ZerosAdded false t t' ∧ ZerosAdded false l l' := by
  obtain ⟨t', y, rfl, h1, h2⟩ := h.split_left (c := '/') (by decide) rfl
  cases w with
  | false => exact ⟨t', y, rfl, h1, h2⟩
  | true =>
    obtain ⟨l', rfl, h3⟩ := h2.sep_left (by decide)
    exact ⟨t', l', rfl, h1, h3⟩

theorem spec_right {t : Str} {w : Bool} {l s : Str} (h : ZerosAdded false s (specText t w l)) :
    ∃ t' l', s = specText t' w l' ∧ ZerosAdded false t' t ∧ ZerosAdded false l' l := by
  obtain ⟨t', y, rfl, h1, h2⟩ := h.split_right (c := '/') (by decide) rfl
  cases w with
  | false => exact ⟨t', y, rfl, h1, h2⟩
  | true =>
    obtain ⟨l', rfl, h3⟩ := h2.sep_right (by decide)
    exact ⟨t', l', rfl, h1, h3⟩

theorem mem_zeros {c : Char} (hc : c ≠ '0') {s s' : Str} (h : ZerosAdded false s s') : c ∈ s ↔ c ∈ s' := unmoved_mem hc s s' h

theorem reading4_zeros (a : V4) {s s' : Str} (h : ZerosAdded false s s') : V4Reading s a ↔ V4Reading s' a := unmoved_reading4 a s s' h

theorem reading6_zeros (a : V6) {s s' : Str} (h : ZerosAdded false s s') : V6Reading s a ↔ V6Reading s' a := unmoved_reading6 a s s' h

theorem number_zeros (p : Nat) {s s' : Str} (h : ZerosAdded false s s') : Numeral 10 s p ↔ Numeral 10 s' p := unmoved_numeral (by decide) p s s' h

theorem plus_zeros (p : Nat) {s s' : Str} (h : ZerosAdded false s s') : PlusNumeral 10 s p ↔ PlusNumeral 10 s' p :=
  unmoved_plus (by decide) p s s' h

/-! ## C122 -/

/-- Zeros in front of numbers: a text is an IPv4 network with them exactly if it is one without them, and it is the same network with
the same address. -/
theorem C122_ipv4 (s s' : Str) (h : ZerosAdded false s s') (a : V4) (n : Net V4) : V4Network s a n ↔ V4Network s' a n := by
  have key : ∀ t t' l l' : Str, ZerosAdded false t t' → ZerosAdded false l l' → ∀ w : Bool,
      (QuadText t ∧ V4Reading t a ∧ ((∃ m, QuadText l ∧ V4Reading l m ∧ NetOfMask n a (if w then 2 ^ 32 - 1 - val m else val m)) ∨
       (∃ p, Numeral 10 l p ∧ p ≤ 32 ∧ NetOfPrefix n a (if w then 32 - p else p)))) ↔
      (QuadText t' ∧ V4Reading t' a ∧ ((∃ m, QuadText l' ∧ V4Reading l' m ∧ NetOfMask n a (if w then 2 ^ 32 - 1 - val m else val m)) ∨
       (∃ p, Numeral 10 l' p ∧ p ≤ 32 ∧ NetOfPrefix n a (if w then 32 - p else p)))) := by
    intro t t' l l' ht hl w
    rw [unmoved_quad t t' ht, reading4_zeros a ht, unmoved_quad l l' hl]
    simp only [reading4_zeros _ hl, number_zeros _ hl]
  constructor
  · rintro ⟨t, w, l, rfl, hr⟩
    obtain ⟨t', l', rfl, h1, h2⟩ := spec_left h
    exact ⟨t', w, l', rfl, (key t t' l l' h1 h2 w).mp hr⟩
  · rintro ⟨t, w, l, rfl, hr⟩
    obtain ⟨t', l', rfl, h1, h2⟩ := spec_right h
    exact ⟨t', w, l', rfl, (key t' t l' l h1 h2 w).mpr hr⟩

/-- The same for IPv6. -/
theorem C122_ipv6 (s s' : Str) (h : ZerosAdded false s s') (a : V6) (n : Net V6) : V6Network s a n ↔ V6Network s' a n := by
  have key : ∀ t t' l l' : Str, ZerosAdded false t t' → ZerosAdded false l l' → ∀ w : Bool,
      (HexColonText t ∧ V6Reading t a ∧
        ((∃ m, HexColonText l ∧ ':' ∈ l ∧ V6Reading l m ∧ NetOfMask n a (if w then 2 ^ 128 - 1 - val m else val m)) ∨
       (∃ p, Numeral 10 l p ∧ p ≤ 128 ∧ NetOfPrefix n a (if w then 128 - p else p)))) ↔
      (HexColonText t' ∧ V6Reading t' a ∧
        ((∃ m, HexColonText l' ∧ ':' ∈ l' ∧ V6Reading l' m ∧ NetOfMask n a (if w then 2 ^ 128 - 1 - val m else val m)) ∨
       (∃ p, Numeral 10 l' p ∧ p ≤ 128 ∧ NetOfPrefix n a (if w then 128 - p else p)))) := by
    intro t t' l l' ht hl w
    rw [unmoved_hexColon t t' ht, reading6_zeros a ht, unmoved_hexColon l l' hl, mem_zeros (c := ':') (by decide) hl]
    simp only [reading6_zeros _ hl, number_zeros _ hl]
  constructor
  · rintro ⟨t, w, l, rfl, hr⟩
    obtain ⟨t', l', rfl, h1, h2⟩ := spec_left h
    exact ⟨t', w, l', rfl, (key t t' l l' h1 h2 w).mp hr⟩
  · rintro ⟨t, w, l, rfl, hr⟩
    obtain ⟨t', l', rfl, h1, h2⟩ := spec_right h
    exact ⟨t', w, l', rfl, (key t' t l' l h1 h2 w).mpr hr⟩

/-- The same for addresses on their own. -/
theorem C122_addresses (s s' : Str) (h : ZerosAdded false s s') :
    (∀ a : V4, ('.' ∈ s ∧ ':' ∉ s ∧ V4Reading s a) ↔ ('.' ∈ s' ∧ ':' ∉ s' ∧ V4Reading s' a)) ∧
    (∀ a : V6, (':' ∈ s ∧ '.' ∉ s ∧ V6Reading s a) ↔ (':' ∈ s' ∧ '.' ∉ s' ∧ V6Reading s' a)) := by
  have h1 := mem_zeros (c := '.') (by decide) h
  have h2 := mem_zeros (c := ':') (by decide) h
  exact ⟨fun a => by rw [h1, h2, reading4_zeros a h], fun a => by rw [h1, h2, reading6_zeros a h]⟩

/-- The same for masks. -/
theorem C122_masks (s s' : Str) (h : ZerosAdded false s s') :
    (∀ m : V4, V4MaskText s m ↔ V4MaskText s' m) ∧ ∀ m : V6, V6MaskText s m ↔ V6MaskText s' m := by
  have h1 := mem_zeros (c := '.') (by decide) h
  have h2 := mem_zeros (c := ':') (by decide) h
  have hp := fun p => plus_zeros p h
  refine ⟨fun m => ?_, fun m => ?_⟩
  · rw [V4MaskText, V4MaskText, h1, h2, reading4_zeros m h]
    simp only [hp]
  · rw [V6MaskText, V6MaskText, h1, h2, reading6_zeros m h]
    simp only [hp]

theorem unmoved_separated (v : Nat) : Unmoved (SeparatedNumeral · v) := by
  have inner : ∀ s : Str, SeparatedNumeral s v → ∀ c ∈ s, c ∈ insideChars := by
    rintro s ⟨-, -, ds, hd, -⟩ c hc
    by_cases e : c = '_'
    · rw [e]; decide
    · exact digits_inside hd c (List.mem_filter.mpr ⟨hc, by simpa using e⟩)
  intro s s' h
  have key : ((∀ c ∈ s, c ∈ insideChars) ∨ ∀ c ∈ s', c ∈ insideChars) → (SeparatedNumeral s v ↔ SeparatedNumeral s' v) := fun ha => by
    obtain ⟨k, rfl, hk⟩ := inside_zeros h ha
    rcases hk with rfl | ⟨c, t, rfl, hc⟩
    · exact Iff.rfl
    · have hcu : c ≠ '_' := by rintro rfl; revert hc; decide
      have e : (List.replicate k '0' ++ c :: t).filter (· ≠ '_') = List.replicate k '0' ++ (c :: t).filter (· ≠ '_') := by
        rw [List.filter_append]
        congr 1
        exact List.filter_eq_self.mpr fun x hx => by rw [List.eq_of_mem_replicate hx]; decide
      rw [SeparatedNumeral, SeparatedNumeral, e, numeral_zeros (by decide) (.inr (by simp [hcu]))]
      refine and_congr_left fun _ => ⟨fun _ => ?_, fun _ => by simpa using hcu⟩
      cases k with
      | zero => simpa using hcu
      | succ k => simp [List.replicate_succ]
  exact ⟨fun hn => (key (.inl (inner s hn))).mp hn, fun hn => (key (.inr (inner s' hn))).mpr hn⟩

/-- The same for numbers of hosts. -/
theorem C122_counts (s s' : Str) (h : ZerosAdded false s s') (c : Int) : CountText s c ↔ CountText s' c := by
  have sign : ∀ (x : Char), x ∉ insideChars → ∀ v, (∃ t, s = x :: t ∧ SeparatedNumeral t v) ↔ ∃ t, s' = x :: t ∧ SeparatedNumeral t v := by
    intro x hx v
    constructor
    · rintro ⟨t, rfl, ht⟩
      obtain ⟨t', rfl, h'⟩ := h.sep_left hx
      exact ⟨t', rfl, (unmoved_separated v t t' h').mp ht⟩
    · rintro ⟨t', rfl, ht⟩
      obtain ⟨t, rfl, h'⟩ := h.sep_right hx
      exact ⟨t, rfl, (unmoved_separated v t t' h').mpr ht⟩
  have separated : ∀ v, SeparatedNumeral s v ↔ SeparatedNumeral s' v := fun v => unmoved_separated v s s' h
  unfold CountText
  simp only [sign '+' (by decide), sign '-' (by decide), separated]

/-! ## The program -/

/-- The same text, or a network with zeros added in front of its numbers. -/
def NetworkZeros (s s' : Str) : Prop := s = s' ∨ ((IsV4Network s ∨ IsV6Network s) ∧ ZerosAdded false s s')

/-- The same for a number of hosts. -/
def CountZeros (s s' : Str) : Prop := s = s' ∨ ((∃ c, CountText s c) ∧ ZerosAdded false s s')

/-- The same for an address. -/
def AddressZeros (s s' : Str) : Prop := s = s' ∨ ((IsV4Address s ∨ IsV6Address s) ∧ ZerosAdded false s s')

/-- The same for a mask of a network `s`. -/
def MaskZeros (s k k' : Str) : Prop :=
  k = k' ∨ (((IsV4Network s ∧ ∃ m, V4MaskText k m) ∨ (IsV6Network s ∧ ∃ m, V6MaskText k m)) ∧ ZerosAdded false k k')

theorem NetworkZeros.same {s s' : Str} (h : NetworkZeros s s') : SameSpec s s' := by
  rcases h with h | ⟨⟨a, n, h1⟩ | ⟨a, n, h1⟩, h2⟩
  · exact .inl h
  · exact .inr (.inl ⟨a, n, h1, (C122_ipv4 s s' h2 a n).mp h1⟩)
  · exact .inr (.inr ⟨a, n, h1, (C122_ipv6 s s' h2 a n).mp h1⟩)

theorem CountZeros.same {s s' : Str} (h : CountZeros s s') : SameCount s s' := by
  rcases h with h | ⟨⟨c, h1⟩, h2⟩
  · exact .inl h
  · exact .inr ⟨c, h1, (C122_counts s s' h2 c).mp h1⟩

theorem AddressZeros.same {s s' : Str} (h : AddressZeros s s') : SameAddress s s' := by
  rcases h with h | ⟨⟨x, y, a, h1⟩ | ⟨x, y, a, h1⟩, h2⟩
  · exact .inl h
  · exact .inr (.inl ⟨a, ⟨x, y, h1⟩, ((C122_addresses s s' h2).1 a).mp ⟨x, y, h1⟩⟩)
  · exact .inr (.inr ⟨a, ⟨x, y, h1⟩, ((C122_addresses s s' h2).2 a).mp ⟨x, y, h1⟩⟩)

theorem MaskZeros.same {s k k' : Str} (h : MaskZeros s k k') : SameMask s k k' := by
  rcases h with h | ⟨⟨hs, m, h1⟩ | ⟨hs, m, h1⟩, h2⟩
  · exact .inl h
  · exact .inr (.inl ⟨hs, m, h1, ((C122_masks k k' h2).1 m).mp h1⟩)
  · exact .inr (.inr ⟨hs, m, h1, ((C122_masks k k' h2).2 m).mp h1⟩)

theorem pointwise_imp {α β : Type} {R S : α → β → Prop} (hRS : ∀ a b, R a b → S a b) {as : List α} {bs : List β} (h : Pointwise R as bs) :
    Pointwise S as bs := by
  induction h with
  | nil => exact .nil
  | cons h _ ih => exact .cons (hRS _ _ h) ih

/-- Displaying networks: the same run. -/
theorem C122_show (rt : Runtime) (prog s s' : Str) (ss ss' : List Str) (hs : s ∉ modeWords) (h : NetworkZeros s s')
    (hss : Pointwise NetworkZeros ss ss') : doMain rt (prog :: s :: ss) = doMain rt (prog :: s' :: ss') :=
  C110_show rt prog prog s s' ss ss' hs h.same (pointwise_imp (fun _ _ => NetworkZeros.same) hss)

/-- Listing addresses and minimizing networks: the same run. -/
theorem C122_lists (rt : Runtime) (prog mode : Str) (ss ss' : List Str) (h : Pointwise NetworkZeros ss ss')
    (hm : mode ∈ ["-e", "--enumerate", "-m", "--minimize"].map String.toList) : doMain rt (prog :: mode :: ss) = doMain rt (prog :: mode :: ss') := by
  have h' := pointwise_imp (fun _ _ h => (NetworkZeros.same h).network) h
  have hm : (mode = "-e".toList ∨ mode = "--enumerate".toList) ∨ (mode = "-m".toList ∨ mode = "--minimize".toList) := by
    simpa [or_assoc] using hm
  rcases hm with hm | hm
  · exact C110_enumerate rt prog prog mode mode hm hm ss ss' h'
  · exact C110_minimize rt prog prog mode mode hm hm ss ss' h'

/-- Ranges: the same run. -/
theorem C122_derange (rt : Runtime) (prog mode : Str) (hm : mode = "-d".toList ∨ mode = "--derange".toList) (s s' t t' : Str)
    (hs : AddressZeros s s') (ht : AddressZeros t t') : doMain rt [prog, mode, s, t] = doMain rt [prog, mode, s', t'] :=
  C110_derange rt prog prog mode mode hm hm s s' t t' hs.same ht.same

/-- Resizing: the same run. -/
theorem C122_resize (rt : Runtime) (prog mode : Str) (hm : mode = "-r".toList ∨ mode = "--resize".toList) (s s' k k' : Str)
    (hs : NetworkZeros s s') (hk : MaskZeros s k k') : doMain rt [prog, mode, s, k] = doMain rt [prog, mode, s', k'] :=
  C110_resize rt prog prog mode mode hm hm s s' k k' hs.same.network hk.same

/-- Splitting: the same run. -/
theorem C122_split (rt : Runtime) (prog mode : Str) (hm : mode = "-s".toList ∨ mode = "--split".toList) (s s' : Str) (cs cs' : List Str)
    (hs : NetworkZeros s s') (hc : Pointwise CountZeros cs cs') : doMain rt (prog :: mode :: s :: cs) = doMain rt (prog :: mode :: s' :: cs') :=
  C110_split rt prog prog mode mode hm hm s s' cs cs' hs.same.network (pointwise_imp (fun _ _ => CountZeros.same) hc)

/-- Every IPv4 network has arguments of every greater length. -/
theorem C122_lengths (s : Str) (h : IsV4Network s) (k : Nat) : ∃ s', s'.length = s.length + k ∧ ZerosAdded false s s' := by
  obtain ⟨a, n, t, w, l, rfl, ⟨t0, t1, t2, t3, rfl, ⟨hne, hd⟩, -⟩, -⟩ := h
  cases t0 with
  | nil => exact absurd rfl hne
  | cons c t0 =>
    have hc : c ∈ digitChars := by
      have := hd c (by simp)
      have sub : ∀ x ∈ ['0', '1', '2', '3', '4', '5', '6', '7', '8', '9'], x ∈ digitChars := by decide
      exact sub c this
    obtain ⟨u, hu⟩ : ∃ u, specText (c :: t0 ++ '.' :: t1 ++ '.' :: t2 ++ '.' :: t3) w l = c :: u := ⟨_, rfl⟩
    rw [hu]
    refine ⟨List.replicate k '0' ++ c :: u, by simp [Nat.add_comm], ?_⟩
    induction k with
    | zero => exact .refl _ _
    | succ k ih => exact .zero hc ih

/-! ## Non-vacuity -/

/-- Zeros at several places. -/
example : ZerosAdded false "10.1.2.3/8".toList "0010.1.02.3/008".toList :=
  .zero (by decide) (.zero (by decide) (.keep (.keep (.keep (.keep (.keep (.zero (by decide) (.keep (.keep (.keep (.keep (.zero (by decide)
    (.zero (by decide) (.keep .nil))))))))))))))

/-- In front of a group of an IPv6 address. -/
example : ZerosAdded false "fe80::a/64".toList "fe80::000a/64".toList :=
  .keep (.keep (.keep (.keep (.keep (.keep (.zero (by decide) (.zero (by decide) (.zero (by decide) (.keep (.keep (.keep (.keep .nil))))))))))))

/-- A zero behind a digit is not a zero in front of a number. -/
example : ¬ ZerosAdded false "1".toList "10".toList := by
  intro h
  cases h with
  | keep h => cases h

end Ripcalc
