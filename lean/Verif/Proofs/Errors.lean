import Verif.Spec.Errors
import Verif.Proofs.Parse
/-!
# Lemmas about reported errors
-/
namespace Ripcalc
open AddrSpec

theorem toDigit_none {radix : Nat} (hr : radix ≤ 16) (c : Char) : toDigit radix c = none ↔ ∀ d, DigitIs c d → radix ≤ d := by
  constructor
  · intro h d hd
    rcases Nat.lt_or_ge d radix with hlt | hge
    · rw [toDigit_of_digitIs hd hlt] at h; cases h
    · exact hge
  · intro h
    cases hd : toDigit radix c with
    | none => rfl
    | some d =>
      have := toDigit_some hr hd
      have := h d this.1
      omega

/-- The fault of a digit text with a value already read. -/
def DigitsFault (radix max acc : Nat) (s : Str) (e : IntErr) : Prop :=
  ∃ pre c post ds, s = pre ++ c :: post ∧ Digits radix pre ds ∧ ds.foldl (fun a d => a * radix + d) acc ≤ max ∧
    ((e = .invalidDigit ∧ ∀ d, DigitIs c d → radix ≤ d) ∨
     (e = .posOverflow ∧ ∃ d, DigitIs c d ∧ d < radix ∧ max < (ds ++ [d]).foldl (fun a d => a * radix + d) acc))

theorem parseDigits_error {radix max : Nat} (hr0 : 0 < radix) (hr : radix ≤ 16) (s : Str) (acc : Nat) (hacc : acc ≤ max) (e : IntErr) :
    parseDigits radix max acc s = .error e ↔ DigitsFault radix max acc s e := by
  induction s generalizing acc with
  | nil =>
    simp only [parseDigits]
    constructor
    · intro h; cases h
    · rintro ⟨pre, c, post, ds, h, -⟩; simp at h
  | cons c cs ih =>
    simp only [parseDigits]
    cases hd : toDigit radix c with
    | none =>
      have hn := (toDigit_none hr c).mp hd
      simp only
      constructor
      · intro h
        cases h
        exact ⟨[], c, cs, [], rfl, .nil, hacc, .inl ⟨rfl, hn⟩⟩
      · rintro ⟨pre, c', post, ds, h, hp, -, h2⟩
        cases hp with
        | nil =>
          simp only [List.nil_append, List.cons.injEq] at h
          obtain ⟨rfl, rfl⟩ := h
          rcases h2 with ⟨rfl, -⟩ | ⟨-, d, h3, h4, -⟩
          · rfl
          · have := hn d h3; omega
        | cons h3 h4 _ =>
          simp only [List.cons_append, List.cons.injEq] at h
          obtain ⟨rfl, rfl⟩ := h
          have := hn _ h3; omega
    | some d =>
      have ⟨hd1, hd2⟩ := toDigit_some hr hd
      have huniq : ∀ d', DigitIs c d' → d' < radix → d' = d := by
        intro d' h1 h2
        have := toDigit_of_digitIs h1 h2
        rw [hd] at this; cases this; rfl
      simp only
      by_cases hle : acc * radix + d ≤ max
      · rw [if_pos hle, ih _ hle]
        constructor
        · rintro ⟨pre, c', post, ds, rfl, hp, hv, h2⟩
          exact ⟨c :: pre, c', post, d :: ds, rfl, .cons hd1 hd2 hp, hv, h2⟩
        · rintro ⟨pre, c', post, ds, h, hp, hv, h2⟩
          cases hp with
          | nil =>
            simp only [List.nil_append, List.cons.injEq] at h
            obtain ⟨rfl, rfl⟩ := h
            rcases h2 with ⟨-, h3⟩ | ⟨-, d', h3, h4, h5⟩
            · have := h3 d hd1; omega
            · obtain rfl := huniq d' h3 h4
              simp at h5
              omega
          | cons h3 h4 h5 =>
            simp only [List.cons_append, List.cons.injEq] at h
            obtain ⟨rfl, rfl⟩ := h
            obtain rfl := huniq _ h3 h4
            exact ⟨_, c', post, _, rfl, h5, hv, h2⟩
      · rw [if_neg hle]
        constructor
        · intro h
          cases h
          exact ⟨[], c, cs, [], rfl, .nil, hacc, .inr ⟨rfl, d, hd1, hd2, by simp; omega⟩⟩
        · rintro ⟨pre, c', post, ds, h, hp, hv, h2⟩
          cases hp with
          | nil =>
            simp only [List.nil_append, List.cons.injEq] at h
            obtain ⟨rfl, rfl⟩ := h
            rcases h2 with ⟨-, h3⟩ | ⟨rfl, -⟩
            · have := h3 d hd1; omega
            · rfl
          | cons h3 h4 h5 =>
            simp only [List.cons_append, List.cons.injEq] at h
            obtain ⟨rfl, rfl⟩ := h
            rename_i d' _ ds
            have hd' : d' = d := huniq _ h3 h4
            rw [hd'] at hv
            simp only [List.foldl_cons] at hv
            have := foldl_digits_ge radix hr0 ds (acc * radix + d)
            omega

theorem numberFault_of_body {radix max : Nat} {s body : Str} (hb : ∀ b, NumberBody s b ↔ b = body) (hs : s ≠ []) (e : IntErr) :
    NumberFault radix max s e ↔ DigitsFault radix max 0 body e := by
  cases e with
  | empty =>
    simp only [NumberFault]
    constructor
    · intro h; exact absurd h hs
    · rintro ⟨_, _, _, _, _, _, _, ⟨h, -⟩ | ⟨h, -⟩⟩ <;> cases h
  | invalidDigit =>
    simp only [NumberFault, hb]
    constructor
    · rintro ⟨pre, c, post, ds, h1, h2, h3, h4⟩; exact ⟨pre, c, post, ds, h1.symm, h2, h3, .inl ⟨rfl, h4⟩⟩
    · rintro ⟨pre, c, post, ds, h1, h2, h3, ⟨-, h4⟩ | ⟨h, -⟩⟩
      · exact ⟨pre, c, post, ds, h1.symm, h2, h3, h4⟩
      · cases h
  | posOverflow =>
    simp only [NumberFault, hb]
    constructor
    · rintro ⟨pre, c, post, ds, d, h1, h2, h3, h4⟩; exact ⟨pre, c, post, ds, h1.symm, h2, h3, .inr ⟨rfl, d, h4⟩⟩
    · rintro ⟨pre, c, post, ds, h1, h2, h3, ⟨h, -⟩ | ⟨-, d, h4⟩⟩
      · cases h
      · exact ⟨pre, c, post, ds, d, h1.symm, h2, h3, h4⟩

theorem parseUnsigned_error {radix max : Nat} (hr0 : 0 < radix) (hr : radix ≤ 16) (s : Str) (e : IntErr) :
    parseUnsigned radix max s = .error e ↔ NumberFault radix max s e := by
  have key := fun t => parseDigits_error (max := max) hr0 hr t 0 (Nat.zero_le _) e
  unfold parseUnsigned
  split
  · cases e with
    | empty => simp [NumberFault]
    | invalidDigit =>
      simp only [NumberFault, NumberBody]
      constructor
      · intro h; cases h
      · rintro ⟨pre, c, post, ds, ⟨-, h⟩ | ⟨h, -⟩, -⟩ <;> simp at h
    | posOverflow =>
      simp only [NumberFault, NumberBody]
      constructor
      · intro h; cases h
      · rintro ⟨pre, c, post, ds, d, ⟨-, h⟩ | ⟨h, -⟩, -⟩ <;> simp at h
  · rw [numberFault_of_body (body := ['+']) (fun b => ?_) (by simp), ← key]
    · have : toDigit radix '+' = none := (toDigit_none hr _).mpr fun d hd => absurd hd (plus_not_digit d)
      simp only [parseDigits, this]
    · simp only [NumberBody]
      constructor
      · rintro (⟨h1, h2⟩ | ⟨h, -⟩)
        · simp only [List.cons.injEq, true_and] at h2; exact absurd h2.symm h1
        · exact h
      · rintro rfl
        refine .inr ⟨rfl, fun t ht h => ?_⟩
        simp only [List.cons.injEq, true_and] at h; exact ht h.symm
  · rename_i rest hne
    have hr' : rest ≠ [] := by rintro rfl; exact hne rfl
    rw [key, numberFault_of_body (body := rest) (fun b => ?_) (by simp)]
    simp only [NumberBody]
    constructor
    · rintro (⟨h1, h2⟩ | ⟨-, h⟩)
      · simp only [List.cons.injEq, true_and] at h2; exact h2.symm
      · exact absurd rfl (h rest hr')
    · rintro rfl; exact .inl ⟨hr', rfl⟩
  · rename_i h1 h2 h3
    rw [key, numberFault_of_body (body := s) (fun b => ?_) h1]
    simp only [NumberBody]
    constructor
    · rintro (⟨_, h⟩ | ⟨h, -⟩)
      · exact absurd h (h3 b)
      · exact h
    · rintro rfl; exact .inr ⟨rfl, fun t _ => h3 t⟩

/-! ## the first bad piece -/

theorem firstBad_cons_good {good : Str → Prop} {p : Str} {ps : List Str} {i : Nat} {x : Str} (hp : good p) :
    FirstBad good (p :: ps) (i + 1) x ↔ FirstBad good ps i x := by
  constructor
  · rintro ⟨pre, post, h1, h2, h3, h4⟩
    cases pre with
    | nil => simp at h2
    | cons q pre =>
      simp only [List.cons_append, List.cons.injEq] at h1
      obtain ⟨rfl, rfl⟩ := h1
      exact ⟨pre, post, rfl, by simpa using h2, fun y hy => h3 y (by simp [hy]), h4⟩
  · rintro ⟨pre, post, rfl, h2, h3, h4⟩
    refine ⟨p :: pre, post, rfl, by simp [h2], ?_, h4⟩
    intro y hy
    rcases List.mem_cons.mp hy with rfl | hy
    · exact hp
    · exact h3 y hy

theorem not_firstBad_zero {good : Str → Prop} {p : Str} {ps : List Str} {x : Str} (hp : good p) :
    ¬ FirstBad good (p :: ps) 0 x := by
  rintro ⟨pre, post, h1, h2, -, h4⟩
  rw [List.length_eq_zero_iff] at h2
  subst h2
  simp only [List.nil_append, List.cons.injEq] at h1
  exact h4 (h1.1 ▸ hp)

theorem firstBad_cons_bad {good : Str → Prop} {p : Str} {ps : List Str} {i : Nat} {x : Str} (hp : ¬ good p) :
    FirstBad good (p :: ps) i x ↔ i = 0 ∧ x = p := by
  constructor
  · rintro ⟨pre, post, h1, h2, h3, h4⟩
    cases pre with
    | nil => simp only [List.nil_append, List.cons.injEq] at h1; exact ⟨h2.symm, h1.1.symm⟩
    | cons q pre =>
      simp only [List.cons_append, List.cons.injEq] at h1
      exact absurd (h1.1 ▸ h3 q (by simp)) hp
  · rintro ⟨rfl, rfl⟩; exact ⟨[], ps, rfl, rfl, by simp, hp⟩

theorem not_firstBad_nil {good : Str → Prop} {i : Nat} {x : Str} : ¬ FirstBad good [] i x := by
  rintro ⟨pre, post, h, -⟩; simp at h

theorem pieces_iff (sep : Char) (s : Str) (ps : List Str) : Pieces sep s ps ↔ splitChar sep s = ps := by
  rw [splitChar_eq_iff]; rfl

/-! ## IPv4 -/

/-- The error for one piece. -/
def ByteFault (i : Nat) (t : Str) (e : AddrErr) : Prop :=
  (t = [] ∧ e = .emptyChunk i) ∨
  (t ≠ [] ∧ ∃ f, NumberFault 10 (2 ^ 32 - 1) t f ∧ e = .chunkParseError i t f) ∨
  (∃ v, PlusNumeral 10 t v ∧ 255 < v ∧ v < 2 ^ 32 ∧ e = .chunkOutOfRange i v 0 255)

theorem V4.parseLoop_error (k : Nat) (ps : List Str) (acc : BitVec 32) (e : AddrErr) :
    V4.parseLoop k ps acc = .error e ↔ ∃ i t, FirstBad ByteText ps i t ∧ ByteFault (k + i) t e := by
  induction ps generalizing k acc with
  | nil =>
    simp only [V4.parseLoop]
    constructor
    · intro h; cases h
    · rintro ⟨i, t, h, -⟩; exact absurd h not_firstBad_nil
  | cons c rest ih =>
    rw [V4.parseLoop]
    by_cases h0 : c.length = 0
    · simp only [if_pos h0]
      have h0 : c = [] := List.length_eq_zero_iff.mp h0
      subst h0
      have hb : ¬ ByteText [] := fun ⟨v, h, _⟩ => h.chars.1 rfl
      simp only [firstBad_cons_bad hb]
      constructor
      · intro h; cases h; exact ⟨0, _, ⟨rfl, rfl⟩, .inl ⟨rfl, rfl⟩⟩
      · rintro ⟨i, t, ⟨rfl, rfl⟩, ⟨-, rfl⟩ | ⟨h, -⟩ | ⟨v, h, -⟩⟩
        · rfl
        · exact absurd rfl h
        · exact absurd rfl h.chars.1
    · simp only [if_neg h0]
      have h0 : c ≠ [] := fun h => h0 (by rw [h]; rfl)
      cases hp : parseUnsigned 10 (2 ^ 32 - 1) c with
      | error f =>
        have hf := (parseUnsigned_error (by decide) (by decide) c f).mp hp
        have hv : ∀ v, PlusNumeral 10 c v → ¬ v < 2 ^ 32 := by
          intro v hv hlt
          rw [(parseUnsigned_iff (by decide) (by decide) c v).mpr ⟨hv, by omega⟩] at hp
          cases hp
        have hb : ¬ ByteText c := fun ⟨v, h, hle⟩ => hv v h (by omega)
        simp only [firstBad_cons_bad hb]
        constructor
        · intro h; cases h; exact ⟨0, _, ⟨rfl, rfl⟩, .inr (.inl ⟨h0, f, hf, rfl⟩)⟩
        · rintro ⟨i, t, ⟨rfl, rfl⟩, ⟨rfl, -⟩ | ⟨-, g, hg, rfl⟩ | ⟨v, h, -, hlt, -⟩⟩
          · exact absurd rfl h0
          · rw [← parseUnsigned_error (by decide) (by decide), hp] at hg
            cases hg; rfl
          · exact absurd hlt (hv v h)
      | ok v =>
        have ⟨hv, hlt⟩ := (parseUnsigned_iff (by decide) (by decide) c v).mp hp
        simp only
        by_cases h255 : v > 255
        · rw [if_pos h255]
          have hb : ¬ ByteText c := fun ⟨w, h, hle⟩ => by have := h.unique hv; omega
          simp only [firstBad_cons_bad hb]
          constructor
          · intro h; cases h; exact ⟨0, _, ⟨rfl, rfl⟩, .inr (.inr ⟨v, hv, h255, by omega, rfl⟩)⟩
          · rintro ⟨i, t, ⟨rfl, rfl⟩, ⟨rfl, -⟩ | ⟨-, g, hg, rfl⟩ | ⟨w, h, -, -, rfl⟩⟩
            · exact absurd rfl h0
            · rw [← parseUnsigned_error (by decide) (by decide), hp] at hg
              cases hg
            · rw [h.unique hv]; rfl
        · rw [if_neg h255, ih]
          have hb : ByteText c := ⟨v, hv, by omega⟩
          constructor
          · rintro ⟨i, t, h1, h2⟩
            exact ⟨i + 1, t, (firstBad_cons_good hb).mpr h1, by rwa [show k + (i + 1) = k + 1 + i by omega]⟩
          · rintro ⟨i, t, h1, h2⟩
            cases i with
            | zero => exact absurd h1 (not_firstBad_zero hb)
            | succ i => exact ⟨i, t, (firstBad_cons_good hb).mp h1, by rwa [show k + 1 + i = k + (i + 1) by omega]⟩

theorem V4.parse_error (s : Str) (e : AddrErr) : V4.parse s = .error e ↔ V4Fault s e := by
  have hl := V4.parseLoop_error 0 (splitChar '.' s) 0#32 e
  simp only [Nat.zero_add] at hl
  simp only [V4.parse, V4Fault, pieces_iff, exists_eq_left']
  by_cases h4 : (splitChar '.' s).length = 4
  · rw [if_neg (by simpa using h4)]
    simp only [ne_eq, h4, not_true_eq_false, false_and, false_or, true_and]
    refine Iff.trans ?_ hl
    cases V4.parseLoop 0 (splitChar '.' s) 0#32 <;> simp
  · rw [if_pos h4]
    simp only [ne_eq, h4, not_false_eq_true, true_and, false_and, or_false, Except.error.injEq]
    exact eq_comm

/-! ## IPv6 -/

theorem V6.parseChunks_error (ps pre : List Str) (top bot : BitVec 64) (e : AddrErr) :
    V6.parseChunks (pre ++ ps) (List.range' pre.length ps.length) top bot = .ok (.error e) ↔
      ∃ i t f, FirstBad GroupText ps i t ∧ NumberFault 16 65535 t f ∧ e = .chunkParseError (pre.length + i) t f := by
  induction ps generalizing pre top bot with
  | nil =>
    simp only [List.length_nil, List.range'_zero, V6.parseChunks]
    constructor
    · intro h; cases h
    · rintro ⟨i, t, f, h, -⟩; exact absurd h not_firstBad_nil
  | cons c rest ih =>
    rw [List.length_cons, List.range'_succ, V6.parseChunks]
    have hi : (pre ++ c :: rest)[pre.length]? = some c := by simp
    simp only [Exec.index, hi, Exec.ok_bind]
    cases hp : parseUnsigned 16 (2 ^ 16 - 1) c with
    | error f =>
      have hf := (parseUnsigned_error (by decide) (by decide) c f).mp hp
      have hb : ¬ GroupText c := by
        rintro ⟨v, hv⟩
        rw [(V6.parseGroup_iff c v).mpr hv] at hp; cases hp
      simp only [firstBad_cons_bad hb]
      constructor
      · intro h; cases h; exact ⟨0, c, f, ⟨rfl, rfl⟩, hf, rfl⟩
      · rintro ⟨i, t, g, ⟨rfl, rfl⟩, hg, rfl⟩
        have hg := (parseUnsigned_error (by decide) (by decide) t g).mpr hg
        rw [show (65535 : Nat) = 2 ^ 16 - 1 from rfl, hp] at hg
        cases hg; rfl
    | ok v =>
      have hb : GroupText c := ⟨v, (V6.parseGroup_iff c v).mp hp⟩
      have key : ∀ t b, V6.parseChunks (pre ++ c :: rest) (List.range' (pre.length + 1) rest.length) t b = .ok (.error e) ↔
          ∃ i t f, FirstBad GroupText (c :: rest) i t ∧ NumberFault 16 65535 t f ∧
            e = .chunkParseError (pre.length + i) t f := by
        intro t b
        have := ih (pre ++ [c]) t b
        rw [List.length_append, List.length_singleton, List.append_assoc, List.singleton_append] at this
        rw [this]
        constructor
        · rintro ⟨i, t, f, h1, h2, h3⟩
          exact ⟨i + 1, t, f, (firstBad_cons_good hb).mpr h1, h2, by rw [h3, show pre.length + 1 + i = pre.length + (i + 1) by omega]⟩
        · rintro ⟨i, t, f, h1, h2, h3⟩
          cases i with
          | zero => exact absurd h1 (not_firstBad_zero hb)
          | succ i =>
            exact ⟨i, t, f, (firstBad_cons_good hb).mp h1, h2, by rw [h3, show pre.length + 1 + i = pre.length + (i + 1) by omega]⟩
      simp only
      split
      · exact key _ _
      · exact key _ _

theorem V6.parseChunks_error8 (ps : List Str) (h8 : ps.length = 8) (e : AddrErr) :
    V6.parseChunks ps (List.range 8) 0#64 0#64 = .ok (.error e) ↔
      ∃ i t f, FirstBad GroupText ps i t ∧ NumberFault 16 65535 t f ∧ e = .chunkParseError i t f := by
  have := V6.parseChunks_error ps [] 0#64 0#64 e
  simpa [h8, List.range_eq_range'] using this

theorem filter_empty_count (l : List Str) : (l.filter (fun x => x.length == 0)).length = l.count [] := by
  rw [List.count, List.countP_eq_length_filter]
  congr 2
  funext x
  cases x <;> rfl

theorem V6.parse_error (s : Str) (e : AddrErr) : V6.parse s = .ok (.error e) ↔ V6Fault s e := by
  simp only [V6Fault, pieces_iff, exists_eq_left']
  generalize hc : splitChar ':' (completeColons s) = ps
  by_cases hl : 8 < ps.length
  · rw [V6.parse_eq]
    simp only [hc, if_pos hl]
    constructor
    · intro h; cases h; exact .inl ⟨hl, rfl⟩
    · rintro (⟨-, rfl⟩ | ⟨h, -⟩ | ⟨h, -⟩ | ⟨gs, i, t, f, ⟨-, h, -⟩ | ⟨_, _, _, _, _, h, -⟩, -⟩)
      · rfl
      all_goals omega
  · by_cases hk : 1 < ps.count []
    · have hmem : [] ∈ ps := List.count_pos_iff.mp (by omega)
      rw [V6.parse_eq]
      simp only [hc, if_neg hl, filter_empty_count]
      rw [if_pos hk]
      constructor
      · intro h; cases h; exact .inr (.inl ⟨by omega, hk, rfl⟩)
      · rintro (⟨h, -⟩ | ⟨-, -, rfl⟩ | ⟨-, h, -⟩ | ⟨gs, i, t, f, ⟨-, -, h⟩ | ⟨pre, post, rfl, h1, h2, -⟩, -⟩)
        · omega
        · rfl
        · exact absurd hmem h
        · exact absurd hmem h
        · rw [List.count_append, List.count_cons_self, List.count_eq_zero.mpr h1, List.count_eq_zero.mpr h2] at hk
          omega
    · by_cases hk0 : ps.count [] = 0
      · have hmem : [] ∉ ps := List.count_eq_zero.mp hk0
        have hn : ∀ pre post, ps ≠ pre ++ [] :: post := by
          rintro pre post rfl; exact hmem (by simp)
        rw [V6.parse_eq]
        simp only [hc, if_neg hl, filter_empty_count]
        rw [if_neg hk, if_pos hk0]
        by_cases h8 : ps.length = 8
        · rw [if_neg (by omega), V6.parseChunks_error8 ps h8]
          constructor
          · rintro ⟨i, t, f, h⟩; exact .inr (.inr (.inr ⟨ps, i, t, f, .inl ⟨rfl, h8, hmem⟩, h⟩))
          · rintro (⟨h, -⟩ | ⟨-, h, -⟩ | ⟨h, -⟩ | ⟨gs, i, t, f, ⟨rfl, -⟩ | ⟨pre, post, h, -⟩, h2⟩)
            · omega
            · omega
            · omega
            · exact ⟨i, t, f, h2⟩
            · exact absurd h (hn _ _)
        · rw [if_pos h8]
          constructor
          · intro h; cases h; exact .inr (.inr (.inl ⟨by omega, hmem, rfl⟩))
          · rintro (⟨h, -⟩ | ⟨-, h, -⟩ | ⟨-, -, rfl⟩ | ⟨gs, i, t, f, ⟨rfl, h, -⟩ | ⟨pre, post, h, -⟩, h2⟩)
            · omega
            · omega
            · rfl
            · omega
            · exact absurd h (hn _ _)
      · obtain ⟨pre, post, hs, h1, h2⟩ := V6.filter_empty_one ps (by rw [filter_empty_count]; omega)
        subst hs
        simp only [List.length_append, List.length_cons] at hl
        have h1' : [] ∉ pre := fun h => h1 _ h rfl
        have h2' : [] ∉ post := fun h => h2 _ h rfl
        rw [V6.parse_short hc h1 h2 (by omega), V6.parseChunks_error8 _ (by simp; omega), Nat.sub_sub]
        constructor
        · rintro ⟨i, t, f, h⟩
          exact .inr (.inr (.inr ⟨_, i, t, f, .inr ⟨pre, post, rfl, h1', h2', by simp; omega, rfl⟩, h⟩))
        · rintro (⟨h, -⟩ | ⟨-, h, -⟩ | ⟨-, h, -⟩ | ⟨gs, i, t, f, ⟨-, -, h⟩ | ⟨pre', post', h, h3, h4, -, rfl⟩, h5⟩)
          · simp at h; omega
          · omega
          · simp at h
          · simp at h
          · have : pre = pre' ∧ post = post' := by
              clear h5 hc hl hk hk0 h1 h2
              induction pre generalizing pre' with
              | nil =>
                cases pre' with
                | nil => simpa using h
                | cons q pre' =>
                  simp only [List.nil_append, List.cons_append, List.cons.injEq] at h
                  exact absurd (h.1 ▸ List.mem_cons_self) h3
              | cons p pre ih =>
                cases pre' with
                | nil =>
                  simp only [List.nil_append, List.cons_append, List.cons.injEq] at h
                  exact absurd (h.1 ▸ List.mem_cons_self) h1'
                | cons q pre' =>
                  simp only [List.cons_append, List.cons.injEq] at h
                  have := ih (fun hm => h1' (List.mem_cons_of_mem _ hm)) pre' h.2 (fun hm => h3 (List.mem_cons_of_mem _ hm))
                  rw [h.1, this.1]; exact ⟨rfl, this.2⟩
            obtain ⟨rfl, rfl⟩ := this
            exact ⟨i, t, f, h5⟩

/-! ## network texts -/

theorem v4_cases (t : Str) : (∃ a, V4.parse t = .ok a ∧ V4Reading t a ∧ ∀ e, ¬ V4Fault t e) ∨
    ∃ e, V4.parse t = .error e ∧ V4Fault t e ∧ (∀ e', V4Fault t e' → e' = e) ∧ ∀ a, ¬ V4Reading t a := by
  cases h : V4.parse t with
  | ok a =>
    refine .inl ⟨a, rfl, (v4Reading_iff t a).mp h, fun e he => ?_⟩
    rw [← V4.parse_error, h] at he; cases he
  | error e =>
    refine .inr ⟨e, rfl, (V4.parse_error t e).mp h, fun e' he => ?_, fun a ha => ?_⟩
    · rw [← V4.parse_error, h] at he; cases he; rfl
    · rw [← v4Reading_iff, h] at ha; cases ha

theorem v6_cases (t : Str) : (∃ a, V6.parse t = .ok (.ok a) ∧ V6Reading t a ∧ ∀ e, ¬ V6Fault t e) ∨
    ∃ e, V6.parse t = .ok (.error e) ∧ V6Fault t e ∧ (∀ e', V6Fault t e' → e' = e) ∧ ∀ a, ¬ V6Reading t a := by
  obtain ⟨r, h⟩ := V6.parse_total t
  cases r with
  | ok a =>
    refine .inl ⟨a, h, (v6Reading_iff t a).mp h, fun e he => ?_⟩
    rw [← V6.parse_error, h] at he; cases he
  | error e =>
    refine .inr ⟨e, h, (V6.parse_error t e).mp h, fun e' he => ?_, fun a ha => ?_⟩
    · rw [← V6.parse_error, h] at he; cases he; rfl
    · rw [← v6Reading_iff, h] at ha; cases ha

theorem usize_cases {l : Str} (hl : DigitText l) :
    (∃ p, parseUsize l = .ok p ∧ Numeral 10 l p ∧ p < 2 ^ 64 ∧ ∀ f, ¬ NumberFault 10 (2 ^ 64 - 1) l f) ∨
    ∃ f, parseUsize l = .error f ∧ NumberFault 10 (2 ^ 64 - 1) l f ∧ (∀ g, NumberFault 10 (2 ^ 64 - 1) l g → g = f) ∧
      ∀ p, Numeral 10 l p → ¬ p < 2 ^ 64 := by
  cases h : parseUsize l with
  | ok p =>
    have := (parseUsize_iff hl p).mp h
    refine .inl ⟨p, rfl, this.1, this.2, fun f hf => ?_⟩
    rw [← parseUnsigned_error (by decide) (by decide), ← parseUsize, h] at hf; cases hf
  | error f =>
    refine .inr ⟨f, rfl, (parseUnsigned_error (by decide) (by decide) l f).mp h, fun g hg => ?_, fun p hp hlt => ?_⟩
    · rw [← parseUnsigned_error (by decide) (by decide), ← parseUsize, h] at hg; cases hg; rfl
    · rw [(parseUsize_iff hl p).mpr ⟨hp, hlt⟩] at h; cases h

section parts
variable {addr : Str → Prop} {fault : Str → AddrErr → Prop} {isMask : Str → Prop} {max : Nat} {t l : Str}

theorem partsFault_bad_addr {e : AddrErr} (ha : ¬ addr t) (hf : fault t e) (hu : ∀ e', fault t e' → e' = e) (E : NetspecErr) :
    PartsFault addr fault isMask max t l E ↔ NetspecErr.address e = E := by
  cases E with
  | address e' =>
    simp only [PartsFault, NetspecErr.address.injEq]
    exact ⟨fun h => (hu e' h).symm, fun h => h ▸ hf⟩
  | _ => simp [PartsFault, ha]

theorem partsFault_bad_mask {e : AddrErr} (ha : addr t) (hf : ∀ e, ¬ fault t e) (hm : isMask l) (hd : ¬ DigitText l)
    (hl : fault l e) (hu : ∀ e', fault l e' → e' = e) (E : NetspecErr) :
    PartsFault addr fault isMask max t l E ↔ NetspecErr.mask e = E := by
  have hnum : ∀ p, ¬ Numeral 10 l p := fun p hp => hd (numeral_digitText hp)
  cases E with
  | mask e' =>
    simp only [PartsFault, NetspecErr.mask.injEq, ha, hm, true_and]
    exact ⟨fun h => (hu e' h).symm, fun h => h ▸ hl⟩
  | _ => simp [PartsFault, ha, hf, hd, hnum]

theorem partsFault_good_mask (hf : ∀ e, ¬ fault t e) (hd : ¬ DigitText l) (hl : ∀ e, ¬ fault l e) (E : NetspecErr) :
    ¬ PartsFault addr fault isMask max t l E := by
  have hnum : ∀ p, ¬ Numeral 10 l p := fun p hp => hd (numeral_digitText hp)
  cases E <;> simp [PartsFault, hf, hd, hnum, hl]

theorem partsFault_bad_number {f : IntErr} (ha : addr t) (hf : ∀ e, ¬ fault t e) (hm : ¬ isMask l) (hd : DigitText l)
    (hn : NumberFault 10 (2 ^ 64 - 1) l f) (hu : ∀ g, NumberFault 10 (2 ^ 64 - 1) l g → g = f)
    (hlt : ∀ p, Numeral 10 l p → ¬ p < 2 ^ 64) (E : NetspecErr) :
    PartsFault addr fault isMask max t l E ↔ NetspecErr.cidrParse f = E := by
  cases E with
  | cidrParse g =>
    simp only [PartsFault, NetspecErr.cidrParse.injEq, ha, hd, true_and]
    exact ⟨fun h => (hu g h).symm, fun h => h ▸ hn⟩
  | cidrRange p m =>
    simp only [PartsFault, reduceCtorEq, iff_false]
    rintro ⟨-, h1, -, h2, -⟩
    exact hlt p h1 h2
  | _ => simp [PartsFault, hf, hm]

theorem partsFault_number (ha : addr t) (hf : ∀ e, ¬ fault t e) (hm : ¬ isMask l) {p : Nat} (hp : Numeral 10 l p)
    (hlt : p < 2 ^ 64) (hn : ∀ f, ¬ NumberFault 10 (2 ^ 64 - 1) l f) (E : NetspecErr) :
    PartsFault addr fault isMask max t l E ↔ max < p ∧ NetspecErr.cidrRange p max = E := by
  cases E with
  | cidrRange q m =>
    simp only [PartsFault, NetspecErr.cidrRange.injEq, ha, true_and]
    constructor
    · rintro ⟨h1, h2, -, rfl⟩; rw [hp.unique h1]; exact ⟨h2, rfl, rfl⟩
    · rintro ⟨h1, rfl, rfl⟩; exact ⟨hp, h1, hlt, rfl⟩
  | _ => simp [PartsFault, hf, hm, hn]

end parts

theorem quad_not_digit {l : Str} (h : QuadText l) : ¬ DigitText l := fun hd => hd.no_dot h.dot

theorem parseV4Mask_error {t l : Str} {w : Bool} (hl : QuadText l) (E : NetspecErr) :
    parseV4Mask t w l = .error E ↔ PartsFault (fun t => ∃ a, V4Reading t a) V4Fault QuadText 32 t l E := by
  rw [parseV4Mask]
  rcases v4_cases t with ⟨a, h1, h2, h3⟩ | ⟨e, h1, h2, h3, h4⟩
  · rw [h1]
    rcases v4_cases l with ⟨m, h5, h6, h7⟩ | ⟨e, h5, h6, h7, h8⟩
    · rw [h5]
      simp only [reduceCtorEq, false_iff]
      exact partsFault_good_mask h3 (quad_not_digit hl) h7 E
    · rw [h5, partsFault_bad_mask ⟨a, h2⟩ h3 hl (quad_not_digit hl) h6 h7]
      simp
  · rw [h1, partsFault_bad_addr (fun ⟨a, ha⟩ => h4 a ha) h2 h3]
    simp

theorem parseV4Cidr_error {t l : Str} {w : Bool} (hl : DigitText l) (E : NetspecErr) :
    parseV4Cidr t w l = .ok (.error E) ↔ PartsFault (fun t => ∃ a, V4Reading t a) V4Fault QuadText 32 t l E := by
  rw [parseV4Cidr]
  have hm : ¬ QuadText l := fun h => quad_not_digit h hl
  rcases v4_cases t with ⟨a, h1, h2, h3⟩ | ⟨e, h1, h2, h3, h4⟩
  · rw [h1]
    rcases usize_cases hl with ⟨p, h5, h6, h7, h8⟩ | ⟨f, h5, h6, h7, h8⟩
    · rw [h5, partsFault_number ⟨a, h2⟩ h3 hm h6 h7 h8]
      simp only
      by_cases hp : p > 32
      · rw [if_pos hp]
        simp only [show 32 < p from hp, true_and]
        show Exec.ok _ = _ ↔ _
        simp
      · rw [if_neg hp]
        obtain ⟨n, h1, -⟩ := newWithPrefix_wf (a := a) (p := if w then 32 - p else p) (show _ ≤ 32 by split <;> omega)
        simp only [h1, Exec.ok_bind, show ¬ 32 < p from hp, false_and, iff_false]
        intro h; cases h
    · rw [h5, partsFault_bad_number ⟨a, h2⟩ h3 hm hl h6 h7 h8]
      show Exec.ok _ = _ ↔ _
      simp
  · rw [h1, partsFault_bad_addr (fun ⟨a, ha⟩ => h4 a ha) h2 h3]
    show Exec.ok _ = _ ↔ _
    simp

theorem parseV6Mask_error {t l : Str} {w : Bool} (hl : HexColonText l ∧ ':' ∈ l) (E : NetspecErr) :
    parseV6Mask t w l = .ok (.error E) ↔
      PartsFault (fun t => ∃ a, V6Reading t a) V6Fault (fun l => HexColonText l ∧ ':' ∈ l) 128 t l E := by
  have hd : ¬ DigitText l := fun h => h.no_colon hl.2
  rw [parseV6Mask]
  rcases v6_cases t with ⟨a, h1, h2, h3⟩ | ⟨e, h1, h2, h3, h4⟩
  · rw [h1]
    simp only [Exec.ok_bind]
    rcases v6_cases l with ⟨m, h5, h6, h7⟩ | ⟨e, h5, h6, h7, h8⟩
    · rw [h5]
      simp only [Exec.ok_bind]
      refine ⟨fun h => (by cases h), fun h => absurd h (partsFault_good_mask h3 hd h7 E)⟩
    · rw [h5, partsFault_bad_mask ⟨a, h2⟩ h3 hl hd h6 h7]
      show Exec.ok _ = _ ↔ _
      simp
  · rw [h1, partsFault_bad_addr (fun ⟨a, ha⟩ => h4 a ha) h2 h3]
    show Exec.ok _ = _ ↔ _
    simp

theorem parseV6Cidr_error {t l : Str} {w : Bool} (hl : DigitText l) (E : NetspecErr) :
    parseV6Cidr t w l = .ok (.error E) ↔
      PartsFault (fun t => ∃ a, V6Reading t a) V6Fault (fun l => HexColonText l ∧ ':' ∈ l) 128 t l E := by
  rw [parseV6Cidr]
  have hm : ¬ (HexColonText l ∧ ':' ∈ l) := fun h => hl.no_colon h.2
  rcases v6_cases t with ⟨a, h1, h2, h3⟩ | ⟨e, h1, h2, h3, h4⟩
  · rw [h1]
    simp only [Exec.ok_bind]
    rcases usize_cases hl with ⟨p, h5, h6, h7, h8⟩ | ⟨f, h5, h6, h7, h8⟩
    · rw [h5, partsFault_number ⟨a, h2⟩ h3 hm h6 h7 h8]
      simp only
      by_cases hp : p > 128
      · rw [if_pos hp]
        simp only [show 128 < p from hp, true_and]
        show Exec.ok _ = _ ↔ _
        simp
      · rw [if_neg hp]
        obtain ⟨n, h1, -⟩ := newWithPrefix_wf (a := a) (p := if w then 128 - p else p) (show _ ≤ 128 by split <;> omega)
        simp only [h1, Exec.ok_bind, show ¬ 128 < p from hp, false_and, iff_false]
        intro h; cases h
    · rw [h5, partsFault_bad_number ⟨a, h2⟩ h3 hm hl h6 h7 h8]
      show Exec.ok _ = _ ↔ _
      simp
  · rw [h1, partsFault_bad_addr (fun ⟨a, ha⟩ => h4 a ha) h2 h3]
    show Exec.ok _ = _ ↔ _
    simp

theorem SpecShape.last {t l : Str} (h : SpecShape t l) : '/' ∉ l ∧ l.head? ≠ some '-' := by
  rcases h with ⟨-, h | h⟩ | ⟨-, ⟨h, -⟩ | h⟩
  · exact ⟨h.no_slash, quad_head h⟩
  · exact ⟨h.no_slash, digit_head h⟩
  · exact ⟨h.no_slash, hexColon_head h⟩
  · exact ⟨h.no_slash, digit_head h⟩

theorem parseNetspec_error (s : Str) (E : NetspecErr) : parseNetspec s = .ok (.error E) ↔ NetspecFault s E := by
  rcases parseNetspec_cases s with ⟨t, w, l, rfl, h⟩ | ⟨h, hu⟩
  · have hsh : SpecShape t l := h
    have hex : ∃ t' w' l', specText t w l = specText t' w' l' ∧ SpecShape t' l' := ⟨t, w, l, rfl, h⟩
    have inj : ∀ t' w' l', specText t w l = specText t' w' l' → SpecShape t' l' → t = t' ∧ l = l' := by
      intro t' w' l' e h'
      obtain ⟨e1, -, e2⟩ := specText_inj e hsh.last.1 h'.last.1 hsh.last.2 h'.last.2
      exact ⟨e1, e2⟩
    have v4 : QuadText t → (QuadText l ∨ DigitText l) → (NetspecFault (specText t w l) E ↔
        PartsFault (fun t => ∃ a, V4Reading t a) V4Fault QuadText 32 t l E) := by
      intro ht hl
      constructor
      · rintro (⟨-, h⟩ | ⟨t', w', l', e, ht', hl', h⟩ | ⟨t', w', l', e, ht', hl', h⟩)
        · exact absurd hex h
        · obtain ⟨rfl, rfl⟩ := inj t' w' l' e (.inl ⟨ht', hl'⟩); exact h
        · obtain ⟨rfl, rfl⟩ := inj t' w' l' e (.inr ⟨ht', hl'⟩)
          exact absurd ht.dot ht'.no_dot
      · intro h; exact .inr (.inl ⟨t, w, l, rfl, ht, hl, h⟩)
    have v6 : HexColonText t → ((HexColonText l ∧ ':' ∈ l) ∨ DigitText l) → (NetspecFault (specText t w l) E ↔
        PartsFault (fun t => ∃ a, V6Reading t a) V6Fault (fun l => HexColonText l ∧ ':' ∈ l) 128 t l E) := by
      intro ht hl
      constructor
      · rintro (⟨-, h⟩ | ⟨t', w', l', e, ht', hl', h⟩ | ⟨t', w', l', e, ht', hl', h⟩)
        · exact absurd hex h
        · obtain ⟨rfl, rfl⟩ := inj t' w' l' e (.inl ⟨ht', hl'⟩)
          exact absurd ht'.dot ht.no_dot
        · obtain ⟨rfl, rfl⟩ := inj t' w' l' e (.inr ⟨ht', hl'⟩); exact h
      · intro h; exact .inr (.inr ⟨t, w, l, rfl, ht, hl, h⟩)
    rcases h with ⟨ht, hl | hl⟩ | ⟨ht, hl | hl⟩
    · rw [v4 ht (.inl hl), parseNetspec_v4mask ht hl, ← parseV4Mask_error hl (w := w)]; simp
    · rw [v4 ht (.inr hl), parseNetspec_v4cidr ht hl, parseV4Cidr_error hl]
    · rw [v6 ht (.inl hl), parseNetspec_v6mask ht hl.1 hl.2, parseV6Mask_error hl]
    · rw [v6 ht (.inr hl), parseNetspec_v6cidr ht hl, parseV6Cidr_error hl]
  · rw [hu]
    constructor
    · intro he; cases he; exact .inl ⟨rfl, h⟩
    · rintro (⟨rfl, -⟩ | ⟨t, w, l, e, ht, hl, -⟩ | ⟨t, w, l, e, ht, hl, -⟩)
      · rfl
      · exact absurd ⟨t, w, l, e, .inl ⟨ht, hl⟩⟩ h
      · exact absurd ⟨t, w, l, e, .inr ⟨ht, hl⟩⟩ h

theorem parseAddr_error (s : Str) (e : AddrErr) : parseAddr s = .ok (.error e) ↔
    (('.' ∈ s ↔ ':' ∈ s) ∧ e = .unknownAddressType) ∨ ('.' ∈ s ∧ ':' ∉ s ∧ V4Fault s e) ∨ (':' ∈ s ∧ '.' ∉ s ∧ V6Fault s e) := by
  have h4 := V4.parse_error s e
  have h6 := V6.parse_error s e
  rw [parseAddr]
  by_cases hd : '.' ∈ s <;> by_cases hc : ':' ∈ s
  · rw [if_pos ((hasChar_iff _ _).mpr hd), if_pos ((hasChar_iff _ _).mpr hc)]
    simp only [hd, hc, not_true_eq_false, false_and, and_false, or_false, true_and]
    show Exec.ok _ = _ ↔ _
    simp [eq_comm]
  · rw [if_pos ((hasChar_iff _ _).mpr hd), if_neg (fun h => hc ((hasChar_iff _ _).mp h))]
    simp only [hd, hc, not_false_eq_true, true_and, false_and, or_false, iff_false, not_true_eq_false, false_or, ← h4]
    cases V4.parse s with
    | ok a => exact ⟨fun h => (by cases h), fun h => (by cases h)⟩
    | error e' => show Exec.ok _ = _ ↔ _; simp
  · rw [if_neg (fun h => hd ((hasChar_iff _ _).mp h)), if_pos ((hasChar_iff _ _).mpr hc)]
    simp only [hd, hc, not_false_eq_true, true_and, false_and, iff_true, false_or, ← h6]
    obtain ⟨r, hr⟩ := V6.parse_total s
    rw [hr, Exec.ok_bind]
    cases r with
    | ok a => exact ⟨fun h => (by cases h), fun h => (by cases h)⟩
    | error e' => show Exec.ok _ = _ ↔ _; simp
  · rw [if_neg (fun h => hd ((hasChar_iff _ _).mp h)), if_neg (fun h => hc ((hasChar_iff _ _).mp h))]
    simp only [hd, hc, false_and, or_false, true_and]
    show Exec.ok _ = _ ↔ _
    simp [eq_comm]

theorem parseSubnet_error (s : Str) (E : NetspecErr) : parseSubnet s = .ok (.error E) ↔
    (∃ e, E = .mask e ∧ ((':' ∈ s ∧ V6Fault s e) ∨ (':' ∉ s ∧ '.' ∈ s ∧ V4Fault s e))) ∨
    (∃ f, E = .cidrParse f ∧ ':' ∉ s ∧ '.' ∉ s ∧ NumberFault 10 (2 ^ 64 - 1) s f) := by
  rw [parseSubnet]
  by_cases hc : ':' ∈ s
  · rw [if_pos ((hasChar_iff _ _).mpr hc)]
    simp only [hc, not_true_eq_false, true_and, false_and, and_false, or_false, exists_false]
    rcases v6_cases s with ⟨a, h1, h2, h3⟩ | ⟨e, h1, h2, h3, h4⟩
    · rw [h1, Exec.ok_bind]
      exact ⟨fun h => (by cases h), fun ⟨e, _, h⟩ => absurd h (h3 e)⟩
    · rw [h1, Exec.ok_bind]
      constructor
      · intro h; cases h; exact ⟨e, rfl, h2⟩
      · rintro ⟨e', rfl, h⟩; rw [h3 e' h]; rfl
  · rw [if_neg (fun h => hc ((hasChar_iff _ _).mp h))]
    by_cases hd : '.' ∈ s
    · rw [if_pos ((hasChar_iff _ _).mpr hd)]
      simp only [hc, hd, not_true_eq_false, not_false_eq_true, true_and, false_and, and_false, or_false, false_or, exists_false]
      rcases v4_cases s with ⟨a, h1, h2, h3⟩ | ⟨e, h1, h2, h3, h4⟩
      · rw [h1]
        exact ⟨fun h => (by cases h), fun ⟨e, _, h⟩ => absurd h (h3 e)⟩
      · rw [h1]
        constructor
        · intro h; cases h; exact ⟨e, rfl, h2⟩
        · rintro ⟨e', rfl, h⟩; rw [h3 e' h]; rfl
    · rw [if_neg (fun h => hd ((hasChar_iff _ _).mp h))]
      simp only [hc, hd, not_false_eq_true, true_and, false_and, and_false, or_false, false_or, exists_false,
        ← parseUnsigned_error (radix := 10) (by decide) (by decide)]
      rw [← parseUsize]
      cases parseUsize s with
      | ok p => exact ⟨fun h => (by cases h), fun ⟨e, _, h⟩ => (by cases h)⟩
      | error f =>
        constructor
        · intro h; cases h; exact ⟨f, rfl, rfl⟩
        · rintro ⟨g, rfl, h⟩; cases h; rfl

end Ripcalc
