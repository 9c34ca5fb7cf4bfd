/-!
# Bit strings (most significant bit first)
-/
namespace Ripcalc

/-- The low `w` bits of `v`, most significant first. -/
def natBits : Nat → Nat → List Bool
  | 0, _ => []
  | w + 1, v => v.testBit w :: natBits w v

/-- The value of a bit string. -/
def ofBits : List Bool → Nat
  | [] => 0
  | b :: l => b.toNat * 2 ^ l.length + ofBits l

@[simp] theorem natBits_length (w v : Nat) : (natBits w v).length = w := by
  induction w with
  | zero => rfl
  | succ w ih => simp [natBits, ih]

theorem ofBits_lt (l : List Bool) : ofBits l < 2 ^ l.length := by
  induction l with
  | nil => simp [ofBits]
  | cons b l ih => cases b <;> simp [ofBits, Nat.pow_succ] <;> omega

theorem ofBits_natBits (w v : Nat) : ofBits (natBits w v) = v % 2 ^ w := by
  induction w with
  | zero => simp [natBits, ofBits, Nat.mod_one]
  | succ w ih =>
    simp only [natBits, ofBits, natBits_length, ih]
    rw [Nat.pow_succ, Nat.mod_mul, Nat.testBit_eq_decide_div_mod_eq]
    have := Nat.mod_two_eq_zero_or_one (v / 2 ^ w)
    rcases this with h | h <;> simp [h, Nat.add_comm]

theorem testBit_ofBits_cons (b : Bool) (l : List Bool) (i : Nat) :
    (ofBits (b :: l)).testBit i = if i < l.length then (ofBits l).testBit i else b.toNat.testBit (i - l.length) := by
  rw [ofBits, Nat.mul_comm, Nat.testBit_two_pow_mul_add _ (ofBits_lt l)]

theorem ofBits_natBits_of_lt {w v : Nat} (h : v < 2 ^ w) : ofBits (natBits w v) = v := by
  rw [ofBits_natBits, Nat.mod_eq_of_lt h]

theorem testBit_ofBits (l : List Bool) (i : Nat) (h : i < l.length) :
    (ofBits l).testBit i = l[l.length - 1 - i]'(by omega) := by
  induction l with
  | nil => simp at h
  | cons b l ih =>
    rw [testBit_ofBits_cons]
    simp only [List.length_cons] at h
    split
    · rename_i hi
      rw [ih hi]
      have : (b :: l).length - 1 - i = (l.length - 1 - i) + 1 := by simp; omega
      simp only [this, List.getElem_cons_succ]
    · have : i = l.length := by omega
      subst this
      cases b <;> simp

theorem natBits_ext {w a b : Nat} (h : ∀ i, i < w → a.testBit i = b.testBit i) : natBits w a = natBits w b := by
  induction w with
  | zero => rfl
  | succ w ih => simp [natBits, h w (by omega), ih (fun i hi => h i (by omega))]

theorem natBits_ofBits (l : List Bool) : natBits l.length (ofBits l) = l := by
  induction l with
  | nil => rfl
  | cons b l ih =>
    simp only [List.length_cons, natBits]
    congr 1
    · rw [testBit_ofBits_cons]
      cases b <;> simp
    · conv => rhs; rw [← ih]
      apply natBits_ext
      intro i hi
      rw [testBit_ofBits_cons]; simp [hi]

theorem natBits_ofBits' {l : List Bool} {w : Nat} (h : l.length = w) : natBits w (ofBits l) = l := by
  subst h; exact natBits_ofBits l

theorem ofBits_append (x y : List Bool) : ofBits (x ++ y) = ofBits x * 2 ^ y.length + ofBits y := by
  induction x with
  | nil => simp [ofBits]
  | cons b x ih =>
    simp only [List.cons_append, ofBits, ih, List.length_append]
    rw [Nat.pow_add, Nat.add_mul]; cases b <;> simp [Nat.add_assoc]

theorem ofBits_inj {x y : List Bool} (hl : x.length = y.length) (h : ofBits x = ofBits y) : x = y := by
  rw [← natBits_ofBits x, ← natBits_ofBits y, h, hl]

theorem natBits_get (w v i : Nat) (h : i < w) : (natBits w v)[i]'(by simpa) = v.testBit (w - 1 - i) := by
  induction w generalizing i with
  | zero => omega
  | succ w ih =>
    cases i with
    | zero => simp [natBits]
    | succ i =>
      simp only [natBits, List.getElem_cons_succ]
      rw [ih i (by omega)]
      congr 1; omega

theorem natBits_inj {w a b : Nat} (h : natBits w a = natBits w b) : ∀ i, i < w → a.testBit i = b.testBit i := by
  intro i hi
  have h1 := natBits_get w a (w - 1 - i) (by omega)
  have h2 := natBits_get w b (w - 1 - i) (by omega)
  have h3 : w - 1 - (w - 1 - i) = i := by omega
  rw [h3] at h1 h2
  rw [← h1, ← h2]; simp [h]

theorem eq_of_testBit_lt {w a b : Nat} (ha : a < 2 ^ w) (hb : b < 2 ^ w)
    (h : ∀ i, i < w → a.testBit i = b.testBit i) : a = b := by
  rw [← ofBits_natBits_of_lt ha, ← ofBits_natBits_of_lt hb, natBits_ext h]

theorem ofBits_replicate_false (n : Nat) : ofBits (List.replicate n false) = 0 := by
  induction n with
  | zero => rfl
  | succ n ih => simp [List.replicate_succ, ofBits, ih]

theorem ofBits_replicate_true (n : Nat) : ofBits (List.replicate n true) = 2 ^ n - 1 := by
  induction n with
  | zero => rfl
  | succ n ih =>
    have := Nat.two_pow_pos n
    simp only [List.replicate_succ, ofBits, ih, List.length_replicate, Nat.pow_succ, Bool.toNat_true]; omega

theorem natBits_zero (w : Nat) : natBits w 0 = List.replicate w false := by
  induction w with
  | zero => rfl
  | succ w ih => simp [natBits, ih, List.replicate_succ]

theorem natBits_ones (w : Nat) : natBits w (2 ^ w - 1) = List.replicate w true := by
  have := natBits_ofBits (List.replicate w true)
  rwa [ofBits_replicate_true, List.length_replicate] at this

theorem natBits_append {a b n h : Nat} (hh : h < 2 ^ b) :
    natBits (a + b) (n * 2 ^ b + h) = natBits a n ++ natBits b h := by
  have e : n * 2 ^ b + h = 2 ^ b * n + h := by rw [Nat.mul_comm]
  induction a with
  | zero =>
    simp only [Nat.zero_add, natBits, List.nil_append]
    apply natBits_ext
    intro i hi
    rw [e, Nat.testBit_two_pow_mul_add _ hh]; simp [hi]
  | succ a ih =>
    have : a + 1 + b = (a + b) + 1 := by omega
    rw [this]
    simp only [natBits, ih, List.cons_append]
    congr 1
    rw [e, Nat.testBit_two_pow_mul_add _ hh, if_neg (by omega)]
    congr 1; omega

/-! ## Comparing bit strings -/

theorem ofBits_cons_lt {b c : Bool} {x y : List Bool} (h : x.length = y.length) :
    ofBits (b :: x) < ofBits (c :: y) ↔ (b = false ∧ c = true) ∨ (b = c ∧ ofBits x < ofBits y) := by
  have hx := ofBits_lt x
  have hy := ofBits_lt y
  rw [h] at hx
  cases b <;> cases c <;> simp [ofBits, h] <;> omega

/-! ## Selecting and interleaving -/

/-- The elements at the positions where the mask is one. -/
def select : List Bool → List α → List α
  | true :: m, x :: xs => x :: select m xs
  | false :: m, _ :: xs => select m xs
  | _, _ => []

/-- The complementary mask. -/
def mnot (m : List Bool) : List Bool := m.map not

/-- `n` at the positions where the mask is one, `h` at the others. -/
def interleave : List Bool → List α → List α → List α
  | true :: m, n :: ns, hs => n :: interleave m ns hs
  | false :: m, ns, h :: hs => h :: interleave m ns hs
  | _, _, _ => []

/-- The number of ones. -/
def ones : List Bool → Nat
  | [] => 0
  | true :: l => ones l + 1
  | false :: l => ones l

@[simp] theorem mnot_length (m : List Bool) : (mnot m).length = m.length := by simp [mnot]
@[simp] theorem mnot_nil : mnot [] = [] := rfl
@[simp] theorem mnot_cons (b : Bool) (m : List Bool) : mnot (b :: m) = (!b) :: mnot m := rfl
@[simp] theorem mnot_mnot (m : List Bool) : mnot (mnot m) = m := by
  induction m with
  | nil => rfl
  | cons b m ih => simp [ih]

theorem ones_le (m : List Bool) : ones m ≤ m.length := by
  induction m with
  | nil => simp [ones]
  | cons b m ih => cases b <;> simp [ones] <;> omega

theorem ones_mnot (m : List Bool) : ones m + ones (mnot m) = m.length := by
  induction m with
  | nil => rfl
  | cons b m ih => cases b <;> simp [ones] <;> omega

theorem ones_append (a b : List Bool) : ones (a ++ b) = ones a + ones b := by
  induction a with
  | nil => simp [ones]
  | cons x a ih => cases x <;> simp [ones, ih] <;> omega

theorem ones_replicate_true (n : Nat) : ones (List.replicate n true) = n := by
  induction n with
  | zero => rfl
  | succ n ih => simp [List.replicate_succ, ones, ih]

theorem ones_replicate_false (n : Nat) : ones (List.replicate n false) = 0 := by
  induction n with
  | zero => rfl
  | succ n ih => simp [List.replicate_succ, ones, ih]

theorem select_length {m : List Bool} {x : List α} (h : m.length = x.length) : (select m x).length = ones m := by
  induction m generalizing x with
  | nil => cases x <;> simp_all [select, ones]
  | cons b m ih =>
    cases x with
    | nil => simp at h
    | cons a x =>
      have := ih (x := x) (by simpa using h)
      cases b <;> simp [select, ones, this]

theorem interleave_length {m : List Bool} {n h : List α} (hn : n.length = ones m) (hh : h.length = ones (mnot m)) :
    (interleave m n h).length = m.length := by
  induction m generalizing n h with
  | nil => simp [interleave]
  | cons b m ih =>
    cases b with
    | true =>
      cases n with
      | nil => simp [ones] at hn
      | cons a n => simp [interleave]; exact ih (by simpa [ones] using hn) (by simpa [ones] using hh)
    | false =>
      cases h with
      | nil => simp [ones] at hh
      | cons a h => simp [interleave]; exact ih (by simpa [ones] using hn) (by simpa [ones] using hh)

theorem select_interleave {m : List Bool} {n h : List α} (hn : n.length = ones m) (hh : h.length = ones (mnot m)) :
    select m (interleave m n h) = n ∧ select (mnot m) (interleave m n h) = h := by
  induction m generalizing n h with
  | nil =>
    simp [ones] at hn hh
    subst hn; subst hh; simp [select]
  | cons b m ih =>
    cases b with
    | true =>
      cases n with
      | nil => simp [ones] at hn
      | cons a n =>
        have := ih (n := n) (h := h) (by simpa [ones] using hn) (by simpa [ones] using hh)
        simp [interleave, select, this]
    | false =>
      cases h with
      | nil => simp [ones] at hh
      | cons a h =>
        have := ih (n := n) (h := h) (by simpa [ones] using hn) (by simpa [ones] using hh)
        simp [interleave, select, this]

theorem interleave_select {m : List Bool} {x : List α} (h : m.length = x.length) :
    interleave m (select m x) (select (mnot m) x) = x := by
  induction m generalizing x with
  | nil => cases x <;> simp_all [interleave]
  | cons b m ih =>
    cases x with
    | nil => simp at h
    | cons a x =>
      have := ih (x := x) (by simpa using h)
      cases b <;> simp [select, interleave, this]

/-- For fixed network bits the woven value grows exactly with the host bits. -/
theorem interleave_lt_host {m n h h' : List Bool} (hn : n.length = ones m)
    (hh : h.length = ones (mnot m)) (hh' : h'.length = ones (mnot m)) :
    ofBits (interleave m n h) < ofBits (interleave m n h') ↔ ofBits h < ofBits h' := by
  induction m generalizing n h h' with
  | nil =>
    simp [ones] at hh hh'
    subst hh; subst hh'; simp [interleave]
  | cons b m ih =>
    cases b with
    | true =>
      cases n with
      | nil => simp [ones] at hn
      | cons a n =>
        have hn' : n.length = ones m := by simpa [ones] using hn
        have hh1 : h.length = ones (mnot m) := by simpa [ones] using hh
        have hh2 : h'.length = ones (mnot m) := by simpa [ones] using hh'
        simp only [interleave]
        rw [ofBits_cons_lt (by rw [interleave_length hn' hh1, interleave_length hn' hh2]), ih hn' hh1 hh2]
        cases a <;> simp
    | false =>
      cases h with
      | nil => simp [ones] at hh
      | cons c h =>
        cases h' with
        | nil => simp [ones] at hh'
        | cons c' h' =>
          have hn' : n.length = ones m := by simpa [ones] using hn
          have hh1 : h.length = ones (mnot m) := by simpa [ones] using hh
          have hh2 : h'.length = ones (mnot m) := by simpa [ones] using hh'
          simp only [interleave]
          rw [ofBits_cons_lt (by rw [interleave_length hn' hh1, interleave_length hn' hh2]), ih hn' hh1 hh2,
            ofBits_cons_lt (by omega)]

/-- For fixed host bits the woven value grows exactly with the network bits. -/
theorem interleave_lt_net {m n n' h : List Bool} (hn : n.length = ones m) (hn' : n'.length = ones m)
    (hh : h.length = ones (mnot m)) :
    ofBits (interleave m n h) < ofBits (interleave m n' h) ↔ ofBits n < ofBits n' := by
  induction m generalizing n n' h with
  | nil =>
    simp [ones] at hn hn'
    subst hn; subst hn'; simp [interleave]
  | cons b m ih =>
    cases b with
    | false =>
      cases h with
      | nil => simp [ones] at hh
      | cons a h =>
        have h1 : n.length = ones m := by simpa [ones] using hn
        have h2 : n'.length = ones m := by simpa [ones] using hn'
        have h3 : h.length = ones (mnot m) := by simpa [ones] using hh
        simp only [interleave]
        rw [ofBits_cons_lt (by rw [interleave_length h1 h3, interleave_length h2 h3]), ih h1 h2 h3]
        cases a <;> simp
    | true =>
      cases n with
      | nil => simp [ones] at hn
      | cons c n =>
        cases n' with
        | nil => simp [ones] at hn'
        | cons c' n' =>
          have h1 : n.length = ones m := by simpa [ones] using hn
          have h2 : n'.length = ones m := by simpa [ones] using hn'
          have h3 : h.length = ones (mnot m) := by simpa [ones] using hh
          simp only [interleave]
          rw [ofBits_cons_lt (by rw [interleave_length h1 h3, interleave_length h2 h3]), ih h1 h2 h3,
            ofBits_cons_lt (by omega)]

/-- Equal selected bits means equal bits at the selected positions. -/
theorem select_eq_iff {m x y : List Bool} (hx : m.length = x.length) (hy : m.length = y.length) :
    select m x = select m y ↔ ∀ i (h : i < m.length), m[i] = true → x[i] = y[i] := by
  induction m generalizing x y with
  | nil => simp [select]
  | cons b m ih =>
    cases x with
    | nil => simp at hx
    | cons a x =>
      cases y with
      | nil => simp at hy
      | cons c y =>
        have hx' : m.length = x.length := by simpa using hx
        have hy' : m.length = y.length := by simpa using hy
        have := ih hx' hy'
        cases b with
        | true =>
          simp only [select, List.cons.injEq, this]
          constructor
          · rintro ⟨h0, h⟩ i hi hm
            cases i with
            | zero => exact h0
            | succ i => simpa using h i (by simpa using hi) (by simpa using hm)
          · intro h
            exact ⟨by simpa using h 0 (by simp) rfl, fun i hi hm => by simpa using h (i + 1) (by simpa using hi) (by simpa using hm)⟩
        | false =>
          simp only [select, this]
          constructor
          · intro h i hi hm
            cases i with
            | zero => simp at hm
            | succ i => simpa using h i (by simpa using hi) (by simpa using hm)
          · intro h i hi hm
            simpa using h (i + 1) (by simpa using hi) (by simpa using hm)

end Ripcalc
