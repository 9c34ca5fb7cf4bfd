import Verif.Spec.Pattern
import Verif.Props.Parse
/-!
# Properties of the pattern texts
-/
namespace Ripcalc
namespace Pat

/-! ## The parser follows the grammar -/

theorem parseClass_text (n : Nat) : ∀ s rs r, s.length ≤ n → parseClass s = some (rs, r) → ∃ t, s = t ++ ']' :: r ∧ ClassText t rs := by
  induction n with
  | zero =>
    intro s rs r hl h
    cases s with
    | nil => cases h
    | cons c s => simp at hl
  | succ n ih =>
    intro s rs r hl h
    rw [parseClass.eq_def] at h
    split at h
    · cases h
    · cases h; exact ⟨[], rfl, .nil⟩
    · cases h
    · cases h
    · cases h
    · cases h
    · cases h
    · cases h
    · rename_i lo hi s' h1 h2 h3 h4 h5 h6 h7
      split at h
      · cases h
      · rename_i hn
        obtain ⟨⟨cs, r'⟩, h', he⟩ := Option.map_eq_some_iff.mp h
        cases he
        obtain ⟨t, rfl, ht⟩ := ih s' cs r (by simp only [List.length_cons] at hl; omega) h'
        refine ⟨lo :: '-' :: hi :: t, rfl, .range ?_ (fun h => hn (.inl h)) (Nat.le_of_not_lt fun h => hn (.inr h)) ht⟩
        simp_all [ClassLiteral]
    · rename_i c s' h1 h2 h3 h4 h5 h6 h7 h8
      obtain ⟨⟨cs, r'⟩, h', he⟩ := Option.map_eq_some_iff.mp h
      cases he
      obtain ⟨t, rfl, ht⟩ := ih s' cs r (by simp only [List.length_cons] at hl; omega) h'
      refine ⟨c :: t, rfl, .one ?_ ht⟩
      simp_all [ClassLiteral]

theorem parseName_text (s : Str) : ∀ n r, parseName s = some (n, r) → s = n ++ '>' :: r ∧ ∀ c ∈ n, c.isAlpha = true := by
  induction s with
  | nil => intro n r h; cases h
  | cons c s ih =>
    intro n r h
    rw [parseName.eq_def] at h
    split at h
    · cases h
    · rename_i he; cases he; cases h; exact ⟨rfl, by simp⟩
    · rename_i c' s' _ he
      cases he
      split at h
      · rename_i hc
        obtain ⟨⟨n', r'⟩, h', he⟩ := Option.map_eq_some_iff.mp h
        cases he
        obtain ⟨rfl, h2⟩ := ih n' r h'
        exact ⟨rfl, by simpa using ⟨hc, h2⟩⟩
      · cases h

theorem parseRepeat_text {p q : Pat} {s a : Str} {r : Str} (ha : AtomText a p) (h : parseRepeat p s = some (q, r)) :
    ∃ t, s = t ++ r ∧ ItemText (a ++ t) q := by
  rw [parseRepeat.eq_def] at h
  split at h
  · cases h; exact ⟨['*'], rfl, .star ha⟩
  · cases h; exact ⟨['+'], rfl, .plus ha⟩
  · cases h; exact ⟨['?'], rfl, .opt ha⟩
  · rename_i d r'
    split at h
    · rename_i hd
      cases h
      have hd' : 48 ≤ d.toNat ∧ d.toNat ≤ 57 := by
        exact ⟨by simp only [Char.isDigit, ge_iff_le, Bool.and_eq_true, decide_eq_true_eq] at hd; exact hd.1, by simp only [Char.isDigit, ge_iff_le, Bool.and_eq_true, decide_eq_true_eq] at hd; exact hd.2⟩
      refine ⟨['{', d, '}'], rfl, ?_⟩
      have := ItemText.times (d.toNat - '0'.toNat) (by show d.toNat - 48 < 10; omega) ha
      have he : Char.ofNat (48 + (d.toNat - '0'.toNat)) = d := by
        rw [show 48 + (d.toNat - '0'.toNat) = d.toNat by show 48 + (d.toNat - 48) = _; omega]
        exact Char.ofNat_toNat d
      rwa [he] at this
    · cases h
  · cases h
  · cases h; exact ⟨[], rfl, by simpa using .once ha⟩

theorem parseGroup_text {inner : Str → Option (List Pat × Str)} (hi : ∀ s ps r, inner s = some (ps, r) → ∃ t, s = t ++ r ∧ ItemsText t ps)
    {s r : Str} {p : Pat} (h : parseGroup inner s = some (p, r)) : ∃ t ps, s = t ++ ')' :: r ∧ ItemsText t ps ∧ p = seqs ps := by
  rw [parseGroup] at h
  split at h
  · rename_i ps r' he
    cases h
    obtain ⟨t, h1, h2⟩ := hi _ _ _ he
    exact ⟨t, ps, h1, h2, rfl⟩
  · cases h

theorem parseAtom_text {inner : Str → Option (List Pat × Str)} (hi : ∀ s ps r, inner s = some (ps, r) → ∃ t, s = t ++ r ∧ ItemsText t ps)
    {s r : Str} {p : Pat} (h : parseAtom inner s = some (p, r)) : ∃ t, s = t ++ r ∧ AtomText t p := by
  rw [parseAtom.eq_def] at h
  split at h
  · cases h
  · cases h; exact ⟨['^'], rfl, .start⟩
  · cases h; exact ⟨['$'], rfl, .finish⟩
  · rename_i s'
    split at h
    · rename_i c cs r' h'
      cases h
      obtain ⟨t, rfl, ht⟩ := parseClass_text _ _ _ _ (Nat.le_refl _) h'
      exact ⟨'[' :: t ++ [']'], by simp, .cls (fun e => by subst e; cases ht) ht⟩
    · cases h
  · rename_i s'
    obtain ⟨t, ps, rfl, ht, rfl⟩ := parseGroup_text hi h
    exact ⟨"(?:".toList ++ t ++ [')'], by simp, .plain ht⟩
  · rename_i s'
    split at h
    · cases h
    · cases h
    · rename_i name r' hne hn
      obtain ⟨rfl, ha⟩ := parseName_text _ _ _ hn
      obtain ⟨⟨p', r''⟩, h', he⟩ := Option.map_eq_some_iff.mp h
      cases he
      obtain ⟨t, ps, rfl, ht, rfl⟩ := parseGroup_text hi h'
      exact ⟨"(?P<".toList ++ name ++ '>' :: t ++ [')'], by simp, .group (fun e => hne e) ha ht⟩
  · rename_i c s' h1 h2 h3 h4 h5
    split at h
    · cases h
    · rename_i hc
      cases h
      refine ⟨[c], rfl, .literal ?_⟩
      simp_all [Literal]

theorem parseItems_text (fuel : Nat) : ∀ s ps r, parseItems fuel s = some (ps, r) → ∃ t, s = t ++ r ∧ ItemsText t ps := by
  induction fuel with
  | zero => intro s ps r h; cases h
  | succ fuel ih =>
    intro s ps r h
    rw [parseItems.eq_def] at h
    split at h
    · cases h
    · cases h; exact ⟨[], rfl, .nil⟩
    · cases h; exact ⟨[], rfl, .nil⟩
    · rename_i hf _ _
      cases hf
      split at h
      · cases h
      · rename_i p r1 h1
        split at h
        · cases h
        · rename_i q r2 h2
          split at h
          · obtain ⟨⟨ps', r3⟩, h3, he⟩ := Option.map_eq_some_iff.mp h
            cases he
            obtain ⟨t3, rfl, ht3⟩ := ih _ _ _ h3
            obtain ⟨a, rfl, ha⟩ := parseAtom_text ih h1
            obtain ⟨t2, rfl, ht2⟩ := parseRepeat_text ha h2
            exact ⟨a ++ t2 ++ t3, by simp, .cons ht2 ht3⟩
          · cases h

/-! ## The parser reads everything of the grammar -/

theorem parseClass_complete {t : Str} {rs : List (Char × Char)} (h : ClassText t rs) (r : Str) : parseClass (t ++ ']' :: r) = some (rs, r) := by
  induction h with
  | nil => rfl
  | @one c s rs hc hs ih =>
    rw [List.cons_append, parseClass.eq_def]
    have hm : ∀ hi u, s ++ ']' :: r ≠ '-' :: hi :: u := by
      intro hi u e
      cases hs with
      | nil => cases e
      | one h _ => simp only [List.cons_append, List.cons.injEq] at e; exact h (by rw [e.1]; decide)
      | range h _ _ _ => simp only [List.cons_append, List.cons.injEq] at e; exact h (by rw [e.1]; decide)
    split
    all_goals rename_i e
    all_goals simp_all [ClassLiteral]
  | @range lo hi s rs hl hh ho hs ih =>
    rw [List.cons_append, List.cons_append, List.cons_append, parseClass.eq_def]
    split
    all_goals rename_i e
    all_goals first
      | (simp_all [ClassLiteral]; done)
      | (rename_i hx; simp only [List.cons.injEq] at e; exact absurd e.2.symm (hx _ _))

theorem parseName_complete {n : Str} (h : ∀ c ∈ n, c.isAlpha = true) (r : Str) : parseName (n ++ '>' :: r) = some (n, r) := by
  induction n with
  | nil => rfl
  | cons c n ih =>
    have hc := h c (by simp)
    have : c ≠ '>' := fun e => by subst e; exact absurd hc (by decide)
    rw [List.cons_append, parseName.eq_def]
    split
    · rename_i e; cases e
    · rename_i e; cases e; exact absurd rfl this
    · rename_i e
      cases e
      rw [if_pos hc, ih fun c hm => h c (by simp [hm])]; rfl

/-- Nothing that begins with a repetition sign. -/
def Plain (r : Str) : Prop := ∀ c u, r = c :: u → c ∉ ['*', '+', '?', '{']

theorem plain_noRepeat {r : Str} (h : Plain r) : noRepeat r = true := by
  cases r with
  | nil => rfl
  | cons c u => exact decide_eq_true (h c u rfl)

theorem plain_repeat {r : Str} (h : Plain r) (p : Pat) : parseRepeat p r = some (p, r) := by
  rw [parseRepeat.eq_def]
  split
  · exact absurd (by simp) (h _ _ rfl)
  · exact absurd (by simp) (h _ _ rfl)
  · exact absurd (by simp) (h _ _ rfl)
  · exact absurd (by simp) (h _ _ rfl)
  · exact absurd (by simp) (h _ _ rfl)
  · rfl

theorem atom_plain {s : Str} {p : Pat} (h : AtomText s p) (r : Str) : Plain (s ++ r) ∧ s ≠ [] ∧ ∀ u, s ++ r ≠ ')' :: u := by
  cases h with
  | start => exact ⟨fun c u e => by cases e; decide, by simp, fun u e => by cases e⟩
  | finish => exact ⟨fun c u e => by cases e; decide, by simp, fun u e => by cases e⟩
  | @literal c hc =>
    refine ⟨fun c u e => ?_, by simp, fun u e => ?_⟩
    · cases e; intro hm; simp only [List.mem_cons, List.not_mem_nil, or_false] at hm; exact hc (by rcases hm with h | h | h | h <;> rw [h] <;> decide)
    · cases e; exact hc (by decide)
  | cls _ => exact ⟨fun c u e => by cases e; decide, by simp, fun u e => by cases e⟩
  | plain _ => exact ⟨fun c u e => by cases e; decide, by simp, fun u e => by cases e⟩
  | group _ _ _ => exact ⟨fun c u e => by cases e; decide, by simp, fun u e => by cases e⟩

theorem item_atom {s : Str} {p : Pat} (h : ItemText s p) : ∃ a q t, s = a ++ t ∧ AtomText a q := by
  cases h with
  | once h => exact ⟨_, _, [], (List.append_nil _).symm, h⟩
  | star h => exact ⟨_, _, _, rfl, h⟩
  | plus h => exact ⟨_, _, _, rfl, h⟩
  | opt h => exact ⟨_, _, _, rfl, h⟩
  | times n _ h => exact ⟨_, _, _, rfl, h⟩

/-- The end of the text or of a group. -/
def Ends (r : Str) : Prop := r = [] ∨ ∃ u, r = ')' :: u

theorem items_plain {s : Str} {ps : List Pat} (h : ItemsText s ps) {r : Str} (hr : Ends r) : Plain (s ++ r) := by
  cases h with
  | nil =>
    rcases hr with rfl | ⟨u, rfl⟩
    · intro c u e; cases e
    · intro c u e; cases e; decide
  | cons h _ =>
    obtain ⟨a, q, t, rfl, ha⟩ := item_atom h
    rw [List.append_assoc, List.append_assoc]
    exact (atom_plain ha _).1

theorem parseAtom_complete {inner : Str → Option (List Pat × Str)} {s : Str} {p : Pat} (h : AtomText s p)
    (hi : ∀ t ps r, ItemsText t ps → t.length + 4 ≤ s.length → inner (t ++ ')' :: r) = some (ps, ')' :: r)) (r : Str) :
    parseAtom inner (s ++ r) = some (p, r) := by
  cases h with
  | start => rfl
  | finish => rfl
  | @literal c hc =>
    rw [List.cons_append, List.nil_append, parseAtom.eq_def]
    split
    all_goals rename_i e
    all_goals simp_all [Literal]
  | @cls t rs hne ht =>
    have := parseClass_complete ht r
    rw [show '[' :: t ++ [']'] ++ r = '[' :: (t ++ ']' :: r) by simp, parseAtom, this]
    cases ht with
    | nil => exact absurd rfl hne
    | one _ _ => rfl
    | range _ _ _ _ => rfl
  | @plain t ps ht =>
    rw [show "(?:".toList ++ t ++ [')'] ++ r = '(' :: '?' :: ':' :: (t ++ ')' :: r) by simp, parseAtom, parseGroup, hi t ps r ht (by simp)]; rfl
  | @group name t ps hne ha ht =>
    rw [show "(?P<".toList ++ name ++ '>' :: t ++ [')'] ++ r = '(' :: '?' :: 'P' :: '<' :: (name ++ '>' :: (t ++ ')' :: r)) by simp, parseAtom,
      parseName_complete ha]
    cases name with
    | nil => exact absurd rfl hne
    | cons c cs =>
      dsimp only
      rw [parseGroup, hi t ps r ht (by simp; omega)]
      rfl

theorem parseRepeat_complete {s : Str} {p : Pat} (h : ItemText s p) {r : Str} (hr : Plain r) :
    ∃ a q t, s = a ++ t ∧ AtomText a q ∧ parseRepeat q (t ++ r) = some (p, r) := by
  cases h with
  | once h => exact ⟨_, _, [], (List.append_nil _).symm, h, plain_repeat hr _⟩
  | star h => exact ⟨_, _, _, rfl, h, rfl⟩
  | plus h => exact ⟨_, _, _, rfl, h, rfl⟩
  | opt h => exact ⟨_, _, _, rfl, h, rfl⟩
  | times n hn h =>
    refine ⟨_, _, _, rfl, h, ?_⟩
    have hd : ∀ n < 10, (Char.ofNat (48 + n)).isDigit = true ∧ (Char.ofNat (48 + n)).toNat - '0'.toNat = n := by decide
    rw [List.cons_append, List.cons_append, List.cons_append, List.nil_append, parseRepeat, if_pos (hd n hn).1, (hd n hn).2]

theorem parseItems_complete (fuel : Nat) : ∀ s ps r, ItemsText s ps → Ends r → s.length < fuel → parseItems fuel (s ++ r) = some (ps, r) := by
  induction fuel with
  | zero => intro s ps r _ _ h; omega
  | succ fuel ih =>
    intro s ps r h hr hl
    cases h with
    | nil =>
      rcases hr with rfl | ⟨u, rfl⟩
      · rfl
      · rfl
    | @cons s p t ps h1 h2 =>
      obtain ⟨a, q, b, rfl, ha, hb⟩ := parseRepeat_complete h1 (items_plain h2 hr)
      obtain ⟨-, g2, g3⟩ := atom_plain ha (b ++ (t ++ r))
      have hpos := List.length_pos_iff.mpr g2
      simp only [List.length_append] at hl
      rw [show a ++ b ++ t ++ r = a ++ (b ++ (t ++ r)) by simp, parseItems.eq_def]
      split
      · rename_i e; cases e
      · rename_i _ e
        have := congrArg List.length e
        simp only [List.length_append, List.length_nil] at this
        omega
      · rename_i u e
        exact absurd e (g3 _)
      · rename_i hf _ _
        cases hf
        rw [parseAtom_complete ha fun t' ps' r' ht' hl' => ih t' ps' _ ht' (.inr ⟨_, rfl⟩) (by omega)]
        dsimp only
        rw [hb]
        dsimp only
        rw [if_pos (plain_noRepeat (items_plain h2 hr)), ih t ps r h2 hr (by omega)]
        rfl

theorem named_iff (p : Pat) (x : List Str) : Named p x ↔ x = groupNames p := by
  constructor
  · intro h
    induction h with
    | empty | start | finish | cls => rfl
    | seq _ _ h1 h2 => rw [h1, h2]; rfl
    | star _ h | plus _ h | opt _ h | times _ h => rw [h]; rfl
    | group _ h => rw [h]; rfl
  · rintro rfl
    induction p with
    | empty => exact .empty
    | start => exact .start
    | finish => exact .finish
    | cls => exact .cls
    | seq _ _ h1 h2 => exact .seq h1 h2
    | star _ h => exact .star h
    | plus _ h => exact .plus h
    | opt _ h => exact .opt h
    | times _ _ h => exact .times h
    | group _ _ h => exact .group h

/-! ## Anchored patterns -/

/-- `n` times the same. -/
def timesRe (r : Re) : Nat → Option Re
  | 0 => none
  | 1 => some r
  | n + 1 => (timesRe r n).map (.seq r)

/-- A pattern without anchors as an expression that does not depend on the place. -/
def toRe : Pat → Option Re
  | .empty => none
  | .start => none
  | .finish => none
  | .cls rs => some (.cls rs)
  | .seq a b => do some (.seq (← toRe a) (← toRe b))
  | .star a => (toRe a).map .star
  | .plus a => (toRe a).map .plus
  | .opt a => (toRe a).map .opt
  | .times n a => do timesRe (← toRe a) n
  | .group n a => (toRe a).map (.group (String.ofList n))

/-- The groups with their names as texts. -/
def names (x : List (String × Str)) : List (Str × Str) := x.map fun g => (g.1.toList, g.2)

theorem matches_re {p : Pat} {b s a : Str} {x : List (Str × Str)} (h : Matches p b s a x) :
    ∀ r, toRe p = some r → ∃ y, Re.Matches r s y ∧ x = names y := by
  induction h with
  | empty => intro r h; cases h
  | start => intro r h; cases h
  | finish => intro r h; cases h
  | cls h1 h2 h3 => intro r h; cases h; exact ⟨[], .cls h1 h2 h3, rfl⟩
  | seq _ _ ih1 ih2 =>
    intro r h
    obtain ⟨r1, h1, h⟩ := Option.bind_eq_some_iff.mp h
    obtain ⟨r2, h2, h⟩ := Option.bind_eq_some_iff.mp h
    cases h
    obtain ⟨y1, k1, rfl⟩ := ih1 r1 h1
    obtain ⟨y2, k2, rfl⟩ := ih2 r2 h2
    exact ⟨y1 ++ y2, .seq k1 k2, by simp [names]⟩
  | starNil => intro r h; obtain ⟨r1, h1, rfl⟩ := Option.map_eq_some_iff.mp h; exact ⟨[], .starNil, rfl⟩
  | starCons _ _ ih1 ih2 =>
    intro r h
    obtain ⟨r1, h1, rfl⟩ := Option.map_eq_some_iff.mp h
    obtain ⟨y1, k1, rfl⟩ := ih1 r1 h1
    obtain ⟨y2, k2, rfl⟩ := ih2 _ h
    exact ⟨y1 ++ y2, .starCons k1 k2, by simp [names]⟩
  | plus _ _ ih1 ih2 =>
    intro r h
    obtain ⟨r1, h1, rfl⟩ := Option.map_eq_some_iff.mp h
    obtain ⟨y1, k1, rfl⟩ := ih1 r1 h1
    obtain ⟨y2, k2, rfl⟩ := ih2 (.star r1) (by rw [toRe, h1]; rfl)
    exact ⟨y1 ++ y2, .seq k1 k2, by simp [names]⟩
  | optNone => intro r h; obtain ⟨r1, h1, rfl⟩ := Option.map_eq_some_iff.mp h; exact ⟨[], .optNone, rfl⟩
  | optSome _ ih =>
    intro r h
    obtain ⟨r1, h1, rfl⟩ := Option.map_eq_some_iff.mp h
    obtain ⟨y1, k1, rfl⟩ := ih r1 h1
    exact ⟨y1, .optSome k1, rfl⟩
  | timesNil =>
    intro r h
    obtain ⟨r1, h1, h⟩ := Option.bind_eq_some_iff.mp h
    cases h
  | @timesCons n p b s t a x y m1 m2 ih1 ih2 =>
    intro r h
    obtain ⟨r1, h1, h⟩ := Option.bind_eq_some_iff.mp h
    obtain ⟨y1, k1, rfl⟩ := ih1 r1 h1
    cases n with
    | zero =>
      cases h
      cases m2
      exact ⟨y1, by simpa using k1, by simp⟩
    | succ n =>
      obtain ⟨r2, h2, rfl⟩ := Option.map_eq_some_iff.mp h
      obtain ⟨y2, k2, rfl⟩ := ih2 r2 (by rw [toRe, h1]; exact h2)
      exact ⟨y1 ++ y2, .seq k1 k2, by simp [names]⟩
  | group _ ih =>
    intro r h
    obtain ⟨r1, h1, rfl⟩ := Option.map_eq_some_iff.mp h
    obtain ⟨y1, k1, rfl⟩ := ih r1 h1
    exact ⟨_, .group k1, by simp [names]⟩

theorem re_star {p : Pat} {r : Re} (ih : ∀ s y, Re.Matches r s y → ∀ b a, Matches p b s a (names y)) {q : Re} {s : Str}
    {y : List (String × Str)} (h : Re.Matches q s y) : q = .star r → ∀ b a, Matches (.star p) b s a (names y) := by
  induction h with
  | starNil => intro _ b a; exact .starNil
  | starCons h1 h2 _ ih2 =>
    intro he b a
    cases he
    rw [names, List.map_append]
    exact .starCons (ih _ _ h1 _ _) (ih2 rfl _ _)
  | cls => intro he; cases he
  | seq => intro he; cases he
  | optNone => intro he; cases he
  | optSome => intro he; cases he
  | group => intro he; cases he

theorem re_times {p : Pat} {r : Re} (ih : ∀ s y, Re.Matches r s y → ∀ b a, Matches p b s a (names y)) (n : Nat) :
    ∀ q, timesRe r n = some q → ∀ s y, Re.Matches q s y → ∀ b a, Matches (.times n p) b s a (names y) := by
  induction n with
  | zero => intro q h; cases h
  | succ n ihn =>
    intro q h s y hm b a
    cases n with
    | zero =>
      cases h
      have := Matches.timesCons (n := 0) (ih s y hm b ([] ++ a)) .timesNil
      simpa using this
    | succ n =>
      obtain ⟨r2, h2, rfl⟩ := Option.map_eq_some_iff.mp h
      cases hm with
      | seq k1 k2 =>
        rw [names, List.map_append]
        exact .timesCons (ih _ _ k1 _ _) (ihn r2 h2 _ _ k2 _ _)

theorem re_matches (p : Pat) : ∀ r, toRe p = some r → ∀ s y, Re.Matches r s y → ∀ b a, Matches p b s a (names y) := by
  induction p with
  | empty => intro r h; cases h
  | start => intro r h; cases h
  | finish => intro r h; cases h
  | cls rs =>
    intro r h s y hm b a
    cases h
    cases hm with
    | cls h1 h2 h3 => exact .cls h1 h2 h3
  | seq p q ih1 ih2 =>
    intro r h s y hm b a
    obtain ⟨r1, h1, h⟩ := Option.bind_eq_some_iff.mp h
    obtain ⟨r2, h2, h⟩ := Option.bind_eq_some_iff.mp h
    cases h
    cases hm with
    | seq k1 k2 =>
      rw [names, List.map_append]
      exact .seq (ih1 r1 h1 _ _ k1 _ _) (ih2 r2 h2 _ _ k2 _ _)
  | star p ih =>
    intro r h s y hm b a
    obtain ⟨r1, h1, rfl⟩ := Option.map_eq_some_iff.mp h
    exact re_star (ih r1 h1) hm rfl b a
  | plus p ih =>
    intro r h s y hm b a
    obtain ⟨r1, h1, rfl⟩ := Option.map_eq_some_iff.mp h
    cases hm with
    | seq k1 k2 =>
      rw [names, List.map_append]
      exact .plus (ih r1 h1 _ _ k1 _ _) (re_star (ih r1 h1) k2 rfl _ _)
  | opt p ih =>
    intro r h s y hm b a
    obtain ⟨r1, h1, rfl⟩ := Option.map_eq_some_iff.mp h
    cases hm with
    | optNone => exact .optNone
    | optSome k => exact .optSome (ih r1 h1 _ _ k _ _)
  | times n p ih =>
    intro r h
    obtain ⟨r1, h1, h⟩ := Option.bind_eq_some_iff.mp h
    exact fun s y hm b a => re_times (ih r1 h1) n r h s y hm b a
  | group n p ih =>
    intro r h s y hm b a
    obtain ⟨r1, h1, rfl⟩ := Option.map_eq_some_iff.mp h
    cases hm with
    | group k =>
      have := Matches.group (n := n) (ih r1 h1 _ _ k b a)
      simpa [names] using this

/-- A pattern between `^` and `$` matches the whole text or not at all. -/
theorem found_anchored {p1 p2 p3 p4 : Pat} {r1 r2 r3 r4 : Re} (h1 : toRe p1 = some r1) (h2 : toRe p2 = some r2) (h3 : toRe p3 = some r3)
    (h4 : toRe p4 = some r4) (s : Str) (x : List (Str × Str)) :
    Found (.seq .start (.seq p1 (.seq p2 (.seq p3 (.seq p4 .finish))))) s x ↔
      ∃ y, Re.Matches (.seq r1 (.seq r2 (.seq r3 r4))) s y ∧ x = names y := by
  constructor
  · rintro ⟨b, m, a, rfl, h⟩
    obtain _ | _ | _ | _ | ⟨k0, k⟩ := h
    cases k0
    obtain _ | _ | _ | _ | ⟨k1, k⟩ := k
    obtain _ | _ | _ | _ | ⟨k2, k⟩ := k
    obtain _ | _ | _ | _ | ⟨k3, k⟩ := k
    obtain _ | _ | _ | _ | ⟨k4, k5⟩ := k
    cases k5
    obtain ⟨y1, l1, rfl⟩ := matches_re k1 _ h1
    obtain ⟨y2, l2, rfl⟩ := matches_re k2 _ h2
    obtain ⟨y3, l3, rfl⟩ := matches_re k3 _ h3
    obtain ⟨y4, l4, rfl⟩ := matches_re k4 _ h4
    exact ⟨y1 ++ (y2 ++ (y3 ++ y4)), by simpa using .seq l1 (.seq l2 (.seq l3 l4)), by simp [names]⟩
  · rintro ⟨y, h, rfl⟩
    obtain _ | ⟨l1, h⟩ := h
    obtain _ | ⟨l2, h⟩ := h
    obtain _ | ⟨l3, l4⟩ := h
    have := Matches.seq (Matches.start) (.seq (re_matches p1 _ h1 _ _ l1 _ _) (.seq (re_matches p2 _ h2 _ _ l2 _ _) (.seq (re_matches p3 _ h3 _ _ l3 _ _)
      (.seq (re_matches p4 _ h4 _ _ l4 _ _) (Matches.finish)))))
    exact ⟨[], _, [], (List.append_nil _).symm, by simpa [names] using this⟩

end Pat

/-! ## C90: the pattern texts -/

/-- The parser of patterns reads exactly the texts of the grammar in which no name is used twice, as the grammar says. -/
theorem C90_grammar (s : Str) (p : Pat) :
    Pat.parse s = some p ↔ ∃ ps names, Pat.ItemsText s ps ∧ p = Pat.seqs ps ∧ Pat.Named p names ∧ names.Nodup := by
  constructor
  · intro h
    rw [Pat.parse] at h
    split at h
    · rename_i ps he
      split at h
      · rename_i hn
        cases h
        obtain ⟨t, h1, h2⟩ := Pat.parseItems_text _ _ _ _ he
        rw [List.append_nil] at h1
        subst h1
        exact ⟨ps, _, h2, rfl, (Pat.named_iff _ _).mpr rfl, hn⟩
      · cases h
    · cases h
  · rintro ⟨ps, names, h1, rfl, h2, h3⟩
    rw [(Pat.named_iff _ _).mp h2] at h3
    have := Pat.parseItems_complete (s.length + 1) s ps [] h1 (.inl rfl) (Nat.lt_succ_self _)
    rw [List.append_nil] at this
    rw [Pat.parse, this]
    exact if_pos h3

/-- A text stands for at most one sequence of items. -/
theorem C90_unambiguous (s : Str) (ps qs : List Pat) (h : Pat.ItemsText s ps) (h' : Pat.ItemsText s qs) : ps = qs := by
  have h1 := Pat.parseItems_complete (s.length + 1) s ps [] h (.inl rfl) (Nat.lt_succ_self _)
  have h2 := Pat.parseItems_complete (s.length + 1) s qs [] h' (.inl rfl) (Nat.lt_succ_self _)
  rw [h1] at h2
  simpa using h2

/-- The groups by name of a text with an address, perhaps the minus sign, and a last part. -/
def specGroups (lastName : String) (addr : Str) (wildcard : Bool) (last : Str) : List (Str × Str) :=
  ("addr".toList, addr) :: ((if wildcard then [("wildcard".toList, "-".toList)] else []) ++ [(lastName.toList, last)])

theorem names_caps (n : String) (a : Str) (w : Bool) (l : Str) : Pat.names (netspecCaps n a w l) = specGroups n a w l := by
  cases w <;> rfl

theorem found_of {p : Pat} {r : Re} {f : Str → Option (Str × Bool × Str)} {n : String} {s : Str} {x : List (Str × Str)}
    (h : Pat.Found p s x ↔ ∃ y, Re.Matches r s y ∧ x = Pat.names y)
    (h' : ∀ y, Re.Matches r s y ↔ ∃ a w l, f s = some (a, w, l) ∧ y = netspecCaps n a w l) :
    Pat.Found p s x ↔ ∃ a w l, f s = some (a, w, l) ∧ x = specGroups n a w l := by
  rw [h]
  constructor
  · rintro ⟨y, h1, rfl⟩
    obtain ⟨a, w, l, h2, rfl⟩ := (h' y).mp h1
    exact ⟨a, w, l, h2, names_caps _ _ _ _⟩
  · rintro ⟨a, w, l, h2, rfl⟩
    exact ⟨_, (h' _).mpr ⟨a, w, l, h2, rfl⟩, (names_caps _ _ _ _).symm⟩

/-- The four texts are patterns (so `unwrap` does not panic), and wherever they match in a text, they match with exactly the
groups the model uses; so it does not matter which match is preferred. -/
theorem C90_patterns : ∃ p1 p2 p3 p4, Pat.parse ipv4SubnetPattern = some p1 ∧ Pat.parse ipv4CidrPattern = some p2 ∧
    Pat.parse ipv6SubnetPattern = some p3 ∧ Pat.parse ipv6CidrPattern = some p4 ∧ ∀ (s : Str) (x : List (Str × Str)),
    (Pat.Found p1 s x ↔ ∃ a w l, ipv4WithSubnet s = some (a, w, l) ∧ x = specGroups "mask" a w l) ∧
    (Pat.Found p2 s x ↔ ∃ a w l, ipv4WithCidr s = some (a, w, l) ∧ x = specGroups "cidr" a w l) ∧
    (Pat.Found p3 s x ↔ ∃ a w l, ipv6WithSubnet s = some (a, w, l) ∧ x = specGroups "mask" a w l) ∧
    (Pat.Found p4 s x ↔ ∃ a w l, ipv6WithCidr s = some (a, w, l) ∧ x = specGroups "cidr" a w l) := by
  refine ⟨_, _, _, _, rfl, rfl, rfl, rfl, fun s x => ⟨?_, ?_, ?_, ?_⟩⟩
  · exact found_of (Pat.found_anchored rfl rfl rfl rfl s x) fun y => (C31_regexes s y).1
  · exact found_of (Pat.found_anchored rfl rfl rfl rfl s x) fun y => (C31_regexes s y).2.1
  · exact found_of (Pat.found_anchored rfl rfl rfl rfl s x) fun y => (C31_regexes s y).2.2.1
  · exact found_of (Pat.found_anchored rfl rfl rfl rfl s x) fun y => (C31_regexes s y).2.2.2

/-- A text is no network specification exactly if none of the four patterns is found in it. -/
theorem C90_unrecognized (s : Str) : (∃ u, parseNetspec s = .ok (.error (.unrecognized u))) ↔
    ∀ t ∈ [ipv4SubnetPattern, ipv4CidrPattern, ipv6SubnetPattern, ipv6CidrPattern], ∀ p, Pat.parse t = some p → ∀ x, ¬ Pat.Found p s x := by
  obtain ⟨p1, p2, p3, p4, e1, e2, e3, e4, h⟩ := C90_patterns
  have key : ∀ {p : Pat} {f : Str → Option (Str × Bool × Str)} {n : String},
      (∀ x, Pat.Found p s x ↔ ∃ a w l, f s = some (a, w, l) ∧ x = specGroups n a w l) → ((∀ x, ¬ Pat.Found p s x) ↔ f s = none) := by
    intro p f n h
    constructor
    · intro hn
      cases hf : f s with
      | none => rfl
      | some v => exact absurd ((h _).mpr ⟨v.1, v.2.1, v.2.2, hf, rfl⟩) (hn _)
    · intro hf x hx
      obtain ⟨a, w, l, h1, -⟩ := (h x).mp hx
      rw [hf] at h1; cases h1
  have k1 := key fun x => (h s x).1
  have k2 := key fun x => (h s x).2.1
  have k3 := key fun x => (h s x).2.2.1
  have k4 := key fun x => (h s x).2.2.2
  have hall : (∀ t ∈ [ipv4SubnetPattern, ipv4CidrPattern, ipv6SubnetPattern, ipv6CidrPattern], ∀ p, Pat.parse t = some p → ∀ x, ¬ Pat.Found p s x) ↔
      ipv4WithSubnet s = none ∧ ipv4WithCidr s = none ∧ ipv6WithSubnet s = none ∧ ipv6WithCidr s = none := by
    rw [← k1, ← k2, ← k3, ← k4]
    simp only [List.mem_cons, List.not_mem_nil, or_false, forall_eq_or_imp, forall_eq, e1, e2, e3, e4, Option.some.injEq, forall_eq']
  rw [hall]
  constructor
  · rintro ⟨u, hu⟩
    have hno := (((C31_recognition s).2 u).mp hu).2
    refine ⟨none_of fun ⟨a, w, l⟩ e => ?_, none_of fun ⟨a, w, l⟩ e => ?_, none_of fun ⟨a, w, l⟩ e => ?_, none_of fun ⟨a, w, l⟩ e => ?_⟩
    · obtain ⟨e, h1, h2⟩ := (ipv4WithSubnet_iff _ _ _ _).mp e
      exact hno ⟨a, w, l, e, .inl ⟨h1, .inl h2⟩⟩
    · obtain ⟨e, h1, h2⟩ := (ipv4WithCidr_iff _ _ _ _).mp e
      exact hno ⟨a, w, l, e, .inl ⟨h1, .inr h2⟩⟩
    · obtain ⟨e, h1, h2⟩ := (ipv6WithSubnet_iff _ _ _ _).mp e
      exact hno ⟨a, w, l, e, .inr ⟨h1, .inl h2⟩⟩
    · obtain ⟨e, h1, h2⟩ := (ipv6WithCidr_iff _ _ _ _).mp e
      exact hno ⟨a, w, l, e, .inr ⟨h1, .inr h2⟩⟩
  · rintro ⟨h1, h2, h3, h4⟩
    exact ⟨s, by rw [parseNetspec, h1, h2, h3, h4]; rfl⟩

/-- A concrete match. -/
example : ∃ p, Pat.parse ipv4CidrPattern = some p ∧
    Pat.Found p "192.0.2.1/-8".toList [("addr".toList, "192.0.2.1".toList), ("wildcard".toList, "-".toList), ("cidr".toList, "8".toList)] := by
  obtain ⟨p1, p2, p3, p4, e1, e2, e3, e4, h⟩ := C90_patterns
  exact ⟨p2, e2, (h _ _).2.1.mpr ⟨"192.0.2.1".toList, true, "8".toList, by decide +kernel, rfl⟩⟩

/-- What the grammar does not cover is no pattern here. -/
example : Pat.parse "a|b".toList = none ∧ Pat.parse "(a".toList = none ∧ Pat.parse "a**".toList = none ∧ Pat.parse "[a".toList = none ∧
    Pat.parse "[]".toList = none ∧ Pat.parse "[z-a]".toList = none ∧ Pat.parse "(?P<a>x)(?P<a>y)".toList = none := by
  decide +kernel

end Ripcalc
