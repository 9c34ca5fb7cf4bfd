import Verif.Proofs.V6Display
/-!
# Parsing the displayed IPv6 text
-/
namespace Ripcalc
open AddrSpec
namespace V6

theorem hexes_group (a : V6) : Pointwise Group (hexes a) (chunkVals a) := by
  have key : ∀ l : List Nat, (∀ v ∈ l, v < 65536) → Pointwise Group (l.map (showNat 16)) l := by
    intro l
    induction l with
    | nil => intro _; exact .nil
    | cons v l ih =>
      intro h
      exact .cons ⟨.inl (showNat_canonical (by decide) (by decide) v).1, by have := h v (by simp); omega⟩
        (ih fun w hw => h w (by simp [hw]))
  exact key _ (chunkVals_lt a)

theorem Pointwise.take {R : α → β → Prop} {l : List α} {l' : List β} (h : Pointwise R l l') (n : Nat) :
    Pointwise R (l.take n) (l'.take n) := by
  induction h generalizing n with
  | nil => rw [List.take_nil, List.take_nil]; exact .nil
  | cons h1 _ ih =>
    cases n with
    | zero => exact .nil
    | succ n => exact .cons h1 (ih n)

theorem Pointwise.drop {R : α → β → Prop} {l : List α} {l' : List β} (h : Pointwise R l l') (n : Nat) :
    Pointwise R (l.drop n) (l'.drop n) := by
  induction h generalizing n with
  | nil => rw [List.drop_nil, List.drop_nil]; exact .nil
  | cons h1 h2 ih =>
    cases n with
    | zero => exact .cons h1 h2
    | succ n => exact ih n

theorem hexes_ne_nil (a : V6) : ∀ p ∈ hexes a, p ≠ [] :=
  fun p hp => (Pointwise.mem (hexes_group a) p hp).elim fun _ h => Group.ne_nil h.2

theorem hexes_ne (a : V6) : hexes a ≠ [] := by
  intro h
  have := hexes_length a
  rw [h] at this
  simp at this

theorem hexes_no_colon (a : V6) : ∀ p ∈ hexes a, ':' ∉ p :=
  fun p hp => (Pointwise.mem (hexes_group a) p hp).elim fun _ h => Group.no_colon h.2

/-- The chunks around and inside a zero run. -/
theorem chunkVals_run (a : V6) {s l : Nat} (h : ZeroRun (chunkVals a) s l) :
    chunkVals a = (chunkVals a).take s ++ List.replicate l 0 ++ (chunkVals a).drop (s + l) := by
  have h1 := h.1
  have h3 : ((chunkVals a).drop s).take l = List.replicate l 0 := by
    apply List.ext_getElem?
    intro i
    rw [List.getElem?_take, List.getElem?_replicate, List.getElem?_drop]
    split
    · exact h.2 (s + i) (by omega) (by omega)
    · rfl
  rw [← h3, List.append_assoc, show (chunkVals a).drop (s + l) = ((chunkVals a).drop s).drop l by rw [List.drop_drop],
    List.take_append_drop, List.take_append_drop]

theorem head_ne_colon {ps : List Str} (hne : ps ≠ []) (h1 : ∀ p ∈ ps, p ≠ []) (h2 : ∀ p ∈ ps, ':' ∉ p) (t : Str) :
    (List.intercalate [':'] ps ++ t).head? ≠ some ':' := by
  cases ps with
  | nil => exact absurd rfl hne
  | cons p ps =>
    have hp := h1 p (by simp)
    have hq := h2 p (by simp)
    cases p with
    | nil => exact absurd rfl hp
    | cons c p =>
      have hc : c ≠ ':' := by rintro rfl; simp at hq
      cases ps with
      | nil => simpa using hc
      | cons q qs => simpa [List.intercalate_cons_cons] using hc

theorem last_ne_colon {ps : List Str} (hne : ps ≠ []) (h1 : ∀ p ∈ ps, p ≠ []) (h2 : ∀ p ∈ ps, ':' ∉ p) (t : Str) :
    (t ++ List.intercalate [':'] ps).getLast? ≠ some ':' := by
  have hl := List.dropLast_concat_getLast hne
  have hp := h1 _ (List.getLast_mem hne)
  have hq := h2 _ (List.getLast_mem hne)
  generalize ps.getLast hne = p at hl hp hq
  have hpl : p.getLast? ≠ some ':' := by
    intro h; exact hq (List.mem_of_getLast? h)
  have hpn : p.getLast?.isSome := by simpa using hp
  rw [← hl]
  by_cases hd : ps.dropLast = []
  · rw [hd]
    simp only [List.nil_append, List.intercalate_singleton, List.getLast?_append, Option.or_of_isSome hpn]
    exact hpl
  · rw [intercalate_append _ hd (by simp)]
    simp only [List.intercalate_singleton, List.getLast?_append, Option.or_of_isSome hpn]
    exact hpl

/-- The displayed text with its colons completed. -/
theorem complete_full (ps : List Str) (hne : ps ≠ []) (h1 : ∀ p ∈ ps, p ≠ []) (h2 : ∀ p ∈ ps, ':' ∉ p) :
    completeColons (List.intercalate [':'] ps) = List.intercalate [':'] ps := by
  have h3 := head_ne_colon hne h1 h2 []
  have h4 := last_ne_colon hne h1 h2 []
  rw [List.append_nil] at h3
  rw [List.nil_append] at h4
  rw [completeColons, if_neg h3, if_neg h4, List.nil_append, List.append_nil]

/-- A shortened text with its colons completed, as pieces. -/
theorem complete_short (pre post : List Str) (hn1 : ∀ p ∈ pre, p ≠ []) (hn2 : ∀ p ∈ post, p ≠ [])
    (hc1 : ∀ p ∈ pre, ':' ∉ p) (hc2 : ∀ p ∈ post, ':' ∉ p) :
    completeColons (List.intercalate [':'] pre ++ [':', ':'] ++ List.intercalate [':'] post) =
      List.intercalate [':'] ((if pre = [] then [['0']] else pre) ++ [] :: (if post = [] then [['0']] else post)) := by
  have hh : (List.intercalate [':'] pre ++ [':', ':'] ++ List.intercalate [':'] post).head? = some ':' ↔ pre = [] := by
    constructor
    · intro h
      apply Classical.byContradiction
      intro hne
      rw [List.append_assoc] at h
      exact head_ne_colon hne hn1 hc1 _ h
    · rintro rfl; rfl
  have hl : (List.intercalate [':'] pre ++ [':', ':'] ++ List.intercalate [':'] post).getLast? = some ':' ↔ post = [] := by
    constructor
    · intro h
      apply Classical.byContradiction
      intro hne
      exact last_ne_colon hne hn2 hc2 _ h
    · rintro rfl; simp
  simp only [completeColons, hh, hl]
  have hpost : ∀ xs : List Str, xs ≠ [] → List.intercalate [':'] ([] :: xs) = ':' :: List.intercalate [':'] xs := by
    intro xs hx
    cases xs with
    | nil => exact absurd rfl hx
    | cons x xs => rw [List.intercalate_cons_cons]; rfl
  rw [intercalate_append _ (by split <;> simp_all) (by simp), hpost _ (by split <;> simp_all)]
  by_cases h1 : pre = [] <;> by_cases h2 : post = [] <;> simp [h1, h2]

theorem splitChar_short (pre post : List Str) (hc1 : ∀ p ∈ pre, ':' ∉ p) (hc2 : ∀ p ∈ post, ':' ∉ p) :
    splitChar ':' (List.intercalate [':'] ((if pre = [] then [['0']] else pre) ++ [] :: (if post = [] then [['0']] else post))) =
      (if pre = [] then [['0']] else pre) ++ [] :: (if post = [] then [['0']] else post) := by
  apply splitChar_join _ _ (by simp)
  intro p hp
  rcases List.mem_append.mp hp with hp | hp
  · split at hp
    · rw [List.mem_singleton.mp hp]; decide
    · exact hc1 p hp
  · rcases List.mem_cons.mp hp with rfl | hp
    · simp
    · split at hp
      · rw [List.mem_singleton.mp hp]; decide
      · exact hc2 p hp

/-- Parsing the display: which addresses come back. -/
theorem parse_display (a : V6) :
    (SingleZeroAtEnd (chunkVals a) → parse a.display = .ok (.error (.incorrectChunkCount 9 8))) ∧
    (¬ SingleZeroAtEnd (chunkVals a) → parse a.display = .ok (.ok a)) := by
  have hlen := chunkVals_length a
  rcases display_spec a with ⟨hnz, hd⟩ | ⟨s, l, hrun, hd⟩
  · constructor
    · rintro (⟨h, -⟩ | ⟨h, -⟩)
      · exact absurd rfl (hnz 0 (List.mem_of_getElem? h))
      · exact absurd rfl (hnz 0 (List.mem_of_getElem? h))
    · intro _
      rw [hd, parse_iff]
      exact .inl ⟨hexes a, complete_full _ (hexes_ne a) (hexes_ne_nil a) (hexes_no_colon a), hexes_length a, hexes_group a⟩
  · have hsl := hrun.2.1.1
    rw [hlen] at hsl
    have hl := hrun.1
    have hn1 : ∀ p ∈ (hexes a).take s, p ≠ [] := fun p hp => hexes_ne_nil a p (List.mem_of_mem_take hp)
    have hn2 : ∀ p ∈ (hexes a).drop (s + l), p ≠ [] := fun p hp => hexes_ne_nil a p (List.mem_of_mem_drop hp)
    have hc1 : ∀ p ∈ (hexes a).take s, ':' ∉ p := fun p hp => hexes_no_colon a p (List.mem_of_mem_take hp)
    have hc2 : ∀ p ∈ (hexes a).drop (s + l), ':' ∉ p := fun p hp => hexes_no_colon a p (List.mem_of_mem_drop hp)
    have hcomp := complete_short _ _ hn1 hn2 hc1 hc2
    have hsplit := splitChar_short _ _ hc1 hc2
    have e1 : (hexes a).take s = [] ↔ s = 0 := by
      rw [List.take_eq_nil_iff]
      constructor
      · rintro (h | h)
        · exact h
        · have := hexes_length a; rw [h] at this; simp at this
      · exact .inl
    have e2 : (hexes a).drop (s + l) = [] ↔ s + l = 8 := by
      rw [List.drop_eq_nil_iff, hexes_length]; omega
    have hzero := hrun.2.1.2
    -- the shapes that fail are single zero chunks at an end
    have hbad : SingleZeroAtEnd (chunkVals a) ↔ l = 1 ∧ (s = 0 ∨ s = 7) := by
      constructor
      · rintro (⟨h0, hadj⟩ | ⟨h7, hoth⟩)
        · have hl1 : l = 1 := by
            rcases Nat.lt_or_ge 1 l with h | h
            · exact absurd ⟨hzero s (by omega) (by omega), hzero (s + 1) (by omega) (by omega)⟩ (hadj s)
            · omega
          refine ⟨hl1, .inl ?_⟩
          have := (hrun.2.2 0 1 (by omega) ⟨by rw [hlen]; omega, fun i h h' => by
            rw [show i = 0 by omega]; exact h0⟩).2 hl1.symm
          omega
        · have hs7 : s = 7 := by
            rcases Nat.lt_or_ge s 7 with h | h
            · exact absurd (hzero s (by omega) (by omega)) (hoth s h)
            · omega
          exact ⟨by omega, .inr hs7⟩
      · rintro ⟨rfl, rfl | rfl⟩
        · left
          refine ⟨hzero 0 (by omega) (by omega), ?_⟩
          rintro i ⟨h1, h2⟩
          have hi : i + 1 < 8 := by
            have := (List.getElem?_eq_some_iff.mp h2).1; omega
          have := (hrun.2.2 i 2 (by omega) ⟨by rw [hlen]; omega, fun j h h' => by
            rcases (show j = i ∨ j = i + 1 by omega) with rfl | rfl
            · exact h1
            · exact h2⟩).1
          omega
        · right
          refine ⟨hzero 7 (by omega) (by omega), ?_⟩
          intro i hi h
          have := (hrun.2.2 i 1 (by omega) ⟨by rw [hlen]; omega, fun j h1 h2 => by
            rw [show j = i by omega]; exact h⟩).2 rfl
          omega
    rw [hbad, hd]
    constructor
    · rintro ⟨rfl, h⟩
      rw [parse_eq, hcomp, hsplit]
      have hlen9 : ((if (hexes a).take s = [] then [['0']] else (hexes a).take s) ++
          [] :: (if (hexes a).drop (s + 1) = [] then [['0']] else (hexes a).drop (s + 1))).length = 9 := by
        rcases h with rfl | rfl
        · rw [if_pos (e1.mpr rfl), if_neg (by rw [e2]; omega)]
          simp [hexes_length]
        · rw [if_neg (by rw [e1]; omega), if_pos (e2.mpr rfl)]
          simp [hexes_length]
      dsimp only
      rw [hlen9, if_pos (by omega)]
    · intro hok
      rw [parse_iff]
      right
      have hg1 := Pointwise.take (hexes_group a) s
      have hg2 := Pointwise.drop (hexes_group a) (s + l)
      have hz : Pointwise Group [['0']] [0] := .cons ((group_zero_iff 0).mpr rfl) .nil
      refine ⟨_, _, if s = 0 then [0] else (chunkVals a).take s, if s + l = 8 then [0] else (chunkVals a).drop (s + l),
        hcomp, ?_, ?_, ?_, ?_⟩
      · simp only [e1, e2]
        by_cases h1 : s = 0
        · by_cases h2 : s + l = 8
          · rw [if_pos h1, if_pos h2]; simp
          · rw [if_pos h1, if_neg h2, List.length_drop, hexes_length]
            simp only [List.length_cons, List.length_nil]; omega
        · by_cases h2 : s + l = 8
          · rw [if_neg h1, if_pos h2, List.length_take, hexes_length]
            simp only [List.length_cons, List.length_nil]; omega
          · rw [if_neg h1, if_neg h2, List.length_take, List.length_drop, hexes_length]; omega
      · by_cases h1 : s = 0
        · rw [if_pos (e1.mpr h1), if_pos h1]; exact hz
        · rw [if_neg (by rw [e1]; exact h1), if_neg h1]; exact hg1
      · by_cases h1 : s + l = 8
        · rw [if_pos (e2.mpr h1), if_pos h1]; exact hz
        · rw [if_neg (by rw [e2]; exact h1), if_neg h1]; exact hg2
      · have hcv := chunkVals_run a hrun.2.1
        conv => lhs; rw [hcv]
        have hrep : ∀ m k : Nat, List.replicate (m + k) 0 = List.replicate m 0 ++ List.replicate k 0 := by
          intro m k; rw [List.replicate_append_replicate]
        by_cases h1 : s = 0
        · by_cases h2 : s + l = 8
          · simp only [e1.mpr h1, e2.mpr h2, if_pos h1, if_pos h2, if_true]
            rw [h1, List.take_zero, List.drop_eq_nil_of_le (by omega), show l = 8 by omega]
            rfl
          · have hne : ¬ (hexes a).drop (s + l) = [] := by rw [e2]; exact h2
            simp only [e1.mpr h1, if_neg hne, if_pos h1, if_neg h2, if_true]
            rw [List.length_drop, hexes_length, h1, List.take_zero, List.nil_append]
            congr 1
            rw [show (8 - [['0']].length - (8 - (0 + l))) = l - 1 by simp; omega]
            conv => lhs; rw [show l = 1 + (l - 1) by omega, hrep]
            rfl
        · have hne1 : ¬ (hexes a).take s = [] := by rw [e1]; exact h1
          by_cases h2 : s + l = 8
          · simp only [if_neg hne1, e2.mpr h2, if_neg h1, if_pos h2, if_true]
            rw [List.length_take, hexes_length, List.drop_eq_nil_of_le (by omega), List.append_nil, List.append_assoc]
            congr 1
            rw [show (8 - min s 8 - [['0']].length) = l - 1 by simp; omega]
            conv => lhs; rw [show l = (l - 1) + 1 by omega, hrep]
            rfl
          · have hne : ¬ (hexes a).drop (s + l) = [] := by rw [e2]; exact h2
            simp only [if_neg hne1, if_neg hne, if_neg h1, if_neg h2]
            rw [List.length_take, List.length_drop, hexes_length]
            congr 2
            congr 1
            omega

/-! ## The text determines the address -/

/-- The chunks a text stands for, read off the pieces between colons. -/
theorem display_inj {a b : V6} (h : a.display = b.display) : a = b := by
  apply chunkVals_inj
  -- pieces between colons of a displayed text
  have pieces : ∀ c : V6, ∃ pre post : List Nat, ∃ e : List Str,
      splitChar ':' c.display = pre.map (showNat 16) ++ e ++ post.map (showNat 16) ∧
      ((e = [] ∧ post = [] ∧ chunkVals c = pre) ∨
        (e ≠ [] ∧ (∀ x ∈ e, x = []) ∧ pre.length + post.length ≤ 8 ∧
          chunkVals c = pre ++ List.replicate (8 - pre.length - post.length) 0 ++ post)) := by
    intro c
    rcases display_spec c with ⟨hnz, hd⟩ | ⟨s, l, hrun, hd⟩
    · refine ⟨chunkVals c, [], [], ?_, .inl ⟨rfl, rfl, rfl⟩⟩
      rw [hd, splitChar_join _ _ (hexes_ne c) (hexes_no_colon c)]
      simp [hexes]
    · have hsl := hrun.2.1.1
      rw [chunkVals_length] at hsl
      have hc1 : ∀ p ∈ (hexes c).take s, ':' ∉ p := fun p hp => hexes_no_colon c p (List.mem_of_mem_take hp)
      have hc2 : ∀ p ∈ (hexes c).drop (s + l), ':' ∉ p := fun p hp => hexes_no_colon c p (List.mem_of_mem_drop hp)
      refine ⟨(chunkVals c).take s, (chunkVals c).drop (s + l),
        (if (hexes c).take s = [] then [[]] else []) ++ [[]] ++ (if (hexes c).drop (s + l) = [] then [[]] else []), ?_,
        .inr ⟨by simp, ?_, ?_, ?_⟩⟩
      · have e1 : ((chunkVals c).take s).map (showNat 16) = (hexes c).take s := by rw [hexes, List.map_take]
        have e2 : ((chunkVals c).drop (s + l)).map (showNat 16) = (hexes c).drop (s + l) := by rw [hexes, List.map_drop]
        rw [e1, e2, hd, splitChar_eq_iff]
        generalize (hexes c).take s = p at hc1
        generalize (hexes c).drop (s + l) = q at hc2
        refine ⟨by simp, ?_, ?_⟩
        · intro x hx
          simp only [List.append_assoc, List.mem_append] at hx
          rcases hx with hx | hx | hx | hx | hx
          · exact hc1 x hx
          · split at hx <;> simp at hx; subst hx; simp
          · simp at hx; subst hx; simp
          · split at hx <;> simp at hx; subst hx; simp
          · exact hc2 x hx
        · by_cases h1 : p = [] <;> by_cases h2 : q = []
          · subst h1 h2; simp [List.intercalate_cons_cons]
          · subst h1
            simp only [if_neg h2, List.append_nil, if_true, List.nil_append]
            rw [intercalate_append _ (by simp) h2]
            simp [List.intercalate_cons_cons]
          · subst h2
            simp only [if_neg h1, List.append_nil, if_true, List.nil_append]
            rw [intercalate_append _ h1 (by simp)]
            simp [List.intercalate_cons_cons]
          · simp only [if_neg h1, if_neg h2, List.append_nil, List.nil_append]
            rw [intercalate_append _ (by simp) h2, intercalate_append _ h1 (by simp)]
            simp
      · intro x hx
        simp only [List.mem_append] at hx
        rcases hx with (hx | hx) | hx
        · split at hx <;> simp at hx; exact hx
        · simpa using hx
        · split at hx <;> simp at hx; exact hx
      · simp [chunkVals_length]; omega
      · conv => lhs; rw [chunkVals_run c hrun.2.1]
        have hl := hrun.1
        rw [List.length_take, List.length_drop, chunkVals_length, show 8 - min s 8 - (8 - (s + l)) = l by omega]
  have hn : ∀ l : List Nat, ∀ x ∈ l.map (showNat 16), x ≠ [] := by
    intro l x hx
    obtain ⟨v, -, rfl⟩ := List.mem_map.mp hx
    exact showNat_ne_nil 16 v
  have hinj : ∀ {l l' : List Nat}, l.map (showNat 16) = l'.map (showNat 16) → l = l' := by
    intro l
    induction l with
    | nil => intro l' h; simpa using h.symm
    | cons v l ih =>
      intro l' h
      cases l' with
      | nil => simp at h
      | cons w l' =>
        simp only [List.map_cons, List.cons.injEq] at h
        rw [showNat_inj (by decide) (by decide) h.1, ih h.2]
  -- front and back parts are determined by where the empty pieces are
  have front : ∀ {p p' r r' : List Str}, (∀ x ∈ p, x ≠ []) → (∀ x ∈ p', x ≠ []) →
      p ++ [] :: r = p' ++ [] :: r' → p = p' := by
    intro p
    induction p with
    | nil =>
      intro p' r r' _ h2 h
      cases p' with
      | nil => rfl
      | cons y p' =>
        rw [List.nil_append, List.cons_append] at h
        injection h with h3 h4
        exact absurd h3.symm (h2 y (by simp))
    | cons x p ih =>
      intro p' r r' h1 h2 h
      cases p' with
      | nil =>
        rw [List.nil_append, List.cons_append] at h
        injection h with h3 h4
        exact absurd h3 (h1 x (by simp))
      | cons y p' =>
        rw [List.cons_append, List.cons_append] at h
        injection h with h3 h4
        rw [h3, ih (fun z hz => h1 z (by simp [hz])) (fun z hz => h2 z (by simp [hz])) h4]
  have ends : ∀ {e : List Str}, e ≠ [] → (∀ x ∈ e, x = []) → (∃ e', e = [] :: e') ∧ (∃ e', e = e' ++ [[]]) := by
    intro e hne he
    refine ⟨?_, e.dropLast, ?_⟩
    · cases e with
      | nil => exact absurd rfl hne
      | cons x e => exact ⟨e, by rw [he x (by simp)]⟩
    · conv => lhs; rw [← List.dropLast_concat_getLast hne]
      rw [he _ (List.getLast_mem hne)]
  obtain ⟨p1, q1, e1, hs1, hc1⟩ := pieces a
  obtain ⟨p2, q2, e2, hs2, hc2⟩ := pieces b
  rw [h, hs2] at hs1
  rcases hc1 with ⟨rfl, rfl, hc1⟩ | ⟨hne1, he1, hl1, hc1⟩
  · rcases hc2 with ⟨rfl, rfl, hc2⟩ | ⟨hne2, he2, hl2, hc2⟩
    · simp only [List.map_nil, List.append_nil] at hs1
      rw [hc1, hc2, hinj hs1]
    · exfalso
      obtain ⟨e', rfl⟩ := (ends hne2 he2).1
      simp only [List.map_nil, List.append_nil] at hs1
      exact hn p1 [] (by rw [← hs1]; simp) rfl
  · rcases hc2 with ⟨rfl, rfl, hc2⟩ | ⟨hne2, he2, hl2, hc2⟩
    · exfalso
      obtain ⟨e', rfl⟩ := (ends hne1 he1).1
      simp only [List.map_nil, List.append_nil] at hs1
      exact hn p2 [] (by rw [hs1]; simp) rfl
    · obtain ⟨⟨f1, hf1⟩, ⟨g1, hg1⟩⟩ := ends hne1 he1
      obtain ⟨⟨f2, hf2⟩, ⟨g2, hg2⟩⟩ := ends hne2 he2
      have hp : p2 = p1 := by
        apply hinj
        have h := hs1
        rw [hf1, hf2] at h
        simp only [List.append_assoc, List.cons_append] at h
        exact front (hn p2) (hn p1) h
      have hq : q2 = q1 := by
        apply hinj
        have h := congrArg List.reverse hs1
        rw [hg1, hg2] at h
        simp only [List.reverse_append, List.reverse_cons, List.singleton_append, List.append_assoc] at h
        have := front (by simpa using hn q2) (by simpa using hn q1) h
        simpa using congrArg List.reverse this
      rw [hc1, hc2, hp, hq]

end V6
end Ripcalc
