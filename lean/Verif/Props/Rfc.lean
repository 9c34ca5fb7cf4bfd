import Verif.Proofs.Rfc
import Verif.Props.Text
import Verif.Props.Parse
/-!
# IPv6 texts and the RFCs
-/
namespace Ripcalc
open AddrSpec

/-! ## C82: the parser and RFC 4291 -/

theorem rfc_groups {ps : List Str} {vs : List Nat} (h : Pointwise HexGroup ps vs) :
    (∀ p ∈ ps, p ≠ []) ∧ (∀ p ∈ ps, ':' ∉ p) ∧ (∀ p ∈ ps, p.length ≤ 4 ∧ '+' ∉ p) := by
  refine ⟨fun p hp => ?_, fun p hp => ?_, fun p hp => ?_⟩
  · obtain ⟨v, -, hv⟩ := Pointwise.mem h p hp
    exact hv.group.ne_nil
  · obtain ⟨v, -, hv⟩ := Pointwise.mem h p hp
    exact hv.group.no_colon
  · obtain ⟨v, -, hv⟩ := Pointwise.mem h p hp
    exact ⟨hv.2, hv.no_plus⟩

/-- A text of RFC 4291 is read as the address it stands for, unless it has eight colons (the double colon is at an end and stands
for a single group); then it is rejected. -/
theorem C82_reads_partial (s : Str) (a : V6) (h : Rfc4291 s a) :
    (s.count ':' ≤ 7 → V6.parse s = .ok (.ok a)) ∧
    (¬ s.count ':' ≤ 7 → V6.parse s = .ok (.error (.incorrectChunkCount 9 8))) := by
  rcases h with ⟨gs, rfl, hg⟩ | ⟨pre, post, vs, ws, rfl, hl, hv, hw, hcv⟩
  · obtain ⟨h1, h2, -⟩ := rfc_groups hg
    have h8 : gs.length = 8 := by rw [hg.length, V6.chunkVals_length]
    have hne : gs ≠ [] := by rintro rfl; cases h8
    have hcount := count_intercalate ':' gs hne h2
    refine ⟨fun _ => ?_, fun h => absurd (by omega) h⟩
    rw [V6.parse_iff]
    exact .inl ⟨gs, V6.complete_full gs hne h1 h2, h8, hg.imp fun _ _ _ h => h.group⟩
  · obtain ⟨h1, h2, -⟩ := rfc_groups hv
    obtain ⟨k1, k2, -⟩ := rfc_groups hw
    have hcomp := V6.complete_short pre post h1 k1 h2 k2
    have hsplit := V6.splitChar_short pre post h2 k2
    have hcount := count_intercalate ':' _ (splitChar_ne_nil ':' _) (splitChar_not_mem ':' (List.intercalate [':'] pre ++ [':', ':'] ++ List.intercalate [':'] post))
    rw [join_splitChar, splitChar_double pre post h2 k2] at hcount
    have hcount : (List.intercalate [':'] pre ++ [':', ':'] ++ List.intercalate [':'] post).count ':' =
        (if pre = [] then [['0']] else pre).length + (if post = [] then [['0']] else post).length := by
      rw [List.length_append, List.length_cons] at hcount
      have e1 : (if pre = [] then [([] : Str)] else pre).length = (if pre = [] then [['0']] else pre).length := by split <;> rfl
      have e2 : (if post = [] then [([] : Str)] else post).length = (if post = [] then [['0']] else post).length := by split <;> rfl
      omega
    have hz : Group ['0'] 0 := (V6.group_zero_iff 0).mpr rfl
    have hvl := hv.length
    have hwl := hw.length
    have hrep : ∀ m k : Nat, List.replicate (m + k) 0 = List.replicate m 0 ++ List.replicate k 0 := by
      intro m k; rw [List.replicate_append_replicate]
    refine ⟨fun h => ?_, fun h => ?_⟩
    · rw [V6.parse_iff]
      refine .inr ⟨_, _, if pre = [] then [0] else vs, if post = [] then [0] else ws, hcomp, by omega, ?_, ?_, ?_⟩
      · split
        · exact .cons hz .nil
        · exact hv.imp fun _ _ _ h => h.group
      · split
        · exact .cons hz .nil
        · exact hw.imp fun _ _ _ h => h.group
      · rw [hcv]
        rw [hcount] at h
        by_cases hp : pre = [] <;> by_cases hq : post = []
        · subst hp hq
          have : vs = [] := List.length_eq_zero_iff.mp (by simpa using hvl.symm)
          have : ws = [] := List.length_eq_zero_iff.mp (by simpa using hwl.symm)
          subst_vars
          rfl
        · subst hp
          have : vs = [] := List.length_eq_zero_iff.mp (by simpa using hvl.symm)
          subst this
          simp only [if_true, if_neg hq, List.length_cons, List.length_nil] at h ⊢
          rw [show 8 - (0 + post.length) = 1 + (8 - (0 + 1) - post.length) by omega, hrep]
          rfl
        · subst hq
          have : ws = [] := List.length_eq_zero_iff.mp (by simpa using hwl.symm)
          subst this
          simp only [if_true, if_neg hp, List.length_cons, List.length_nil] at h ⊢
          rw [show 8 - (pre.length + 0) = (8 - pre.length - (0 + 1)) + 1 by omega, hrep, List.append_nil, List.append_assoc]
          rfl
        · simp only [if_neg hp, if_neg hq]
          rw [Nat.sub_sub]
    · rw [V6.parse_eq, hcomp, hsplit]
      have hlen9 : ((if pre = [] then [['0']] else pre) ++ [] :: (if post = [] then [['0']] else post)).length = 9 := by
        rw [hcount] at h
        rw [List.length_append, List.length_cons]
        by_cases hp : pre = [] <;> by_cases hq : post = [] <;> simp only [hp, hq, if_true, if_false, List.length_cons, List.length_nil] at h hl ⊢ <;> omega
      dsimp only
      rw [hlen9, if_pos (by omega)]

theorem nil_or_snoc (l : List α) : l = [] ∨ ∃ m x, l = m ++ [x] := by
  rcases List.eq_nil_or_concat l with h | ⟨m, x, h⟩
  · exact .inl h
  · exact .inr ⟨m, x, by rw [h, List.concat_eq_append]⟩

theorem splitChar_last_colon (x : Str) (h : x = [] ∨ x.getLast? = some ':') : [] ∈ splitChar ':' x := by
  rcases h with rfl | h
  · simp [splitChar]
  · obtain ⟨u, rfl⟩ := List.getLast?_eq_some_iff.mp h
    rw [splitChar_append ':' u []]
    simp [splitChar]

theorem hex_of_pieces {ps : List Str} {vs : List Nat} (h : Pointwise Group ps vs) (h1 : ∀ t ∈ ps, ¬ (4 < t.length ∨ '+' ∈ t)) :
    Pointwise HexGroup ps vs :=
  h.imp fun t ht v hg => by
    have := h1 t ht
    exact hg.hexGroup (Nat.not_lt.mp fun h => this (.inl h)) (fun h => this (.inr h))

/-- What is read is a text of RFC 4291 for the address that is returned, unless it is sloppy. -/
theorem C82_strict_partial (s : Str) (a : V6) (h : V6.parse s = .ok (.ok a)) : Rfc4291 s a ↔ ¬ Sloppy s := by
  constructor
  · rintro hr (rfl | ⟨u, rfl, hu⟩ | ⟨u, rfl, hu⟩ | ⟨ps, hps, t, ht, hbad⟩)
    · rcases hr with ⟨gs, hs, hg⟩ | ⟨pre, post, vs, ws, hs, -⟩
      · obtain ⟨h1, h2, -⟩ := rfc_groups hg
        have h8 : gs.length = 8 := by rw [hg.length, V6.chunkVals_length]
        have := count_intercalate ':' gs (by rintro rfl; cases h8) h2
        rw [← hs, h8] at this
        cases this
      · have := congrArg List.length hs
        simp at this
    · rcases hr with ⟨gs, hs, hg⟩ | ⟨pre, post, vs, ws, hs, -, hv, hw, -⟩
      · obtain ⟨h1, h2, -⟩ := rfc_groups hg
        have h8 : gs.length = 8 := by rw [hg.length, V6.chunkVals_length]
        have := V6.head_ne_colon (by rintro rfl; cases h8) h1 h2 []
        rw [List.append_nil, ← hs] at this
        exact this rfl
      · obtain ⟨h1, h2, -⟩ := rfc_groups hv
        by_cases hp : pre = []
        · subst hp
          simp at hs
          subst hs
          exact hu rfl
        · have := V6.head_ne_colon hp h1 h2 ([':', ':'] ++ List.intercalate [':'] post)
          rw [← List.append_assoc, ← hs] at this
          exact this rfl
    · rcases hr with ⟨gs, hs, hg⟩ | ⟨pre, post, vs, ws, hs, -, hv, hw, -⟩
      · obtain ⟨h1, h2, -⟩ := rfc_groups hg
        have h8 : gs.length = 8 := by rw [hg.length, V6.chunkVals_length]
        have := V6.last_ne_colon (by rintro rfl; cases h8) h1 h2 []
        rw [List.nil_append, ← hs] at this
        exact this (by simp)
      · obtain ⟨h1, h2, -⟩ := rfc_groups hw
        by_cases hp : post = []
        · subst hp
          have hs : u ++ [':'] = (List.intercalate [':'] pre ++ [':']) ++ [':'] := by rw [hs]; simp
          have := List.append_cancel_right hs
          subst this
          exact hu (by simp)
        · have := V6.last_ne_colon hp h1 h2 (List.intercalate [':'] pre ++ [':', ':'])
          rw [← hs] at this
          exact this (by simp)
    · have hps := (pieces_iff _ _ _).mp hps
      have hall : ∀ x ∈ ps, x.length ≤ 4 ∧ '+' ∉ x := by
        rcases hr with ⟨gs, hs, hg⟩ | ⟨pre, post, vs, ws, hs, -, hv, hw, -⟩
        · obtain ⟨h1, h2, h3⟩ := rfc_groups hg
          have h8 : gs.length = 8 := by rw [hg.length, V6.chunkVals_length]
          rw [hs, splitChar_join _ _ (by rintro rfl; cases h8) h2] at hps
          subst hps
          exact h3
        · obtain ⟨-, h2, h3⟩ := rfc_groups hv
          obtain ⟨-, k2, k3⟩ := rfc_groups hw
          rw [hs, splitChar_double pre post h2 k2] at hps
          subst hps
          intro x hx
          rcases List.mem_append.mp hx with hx | hx
          · split at hx
            · simp at hx; subst hx; simp
            · exact h3 x hx
          · rcases List.mem_cons.mp hx with rfl | hx
            · simp
            · split at hx
              · simp at hx; subst hx; simp
              · exact k3 x hx
      have := hall t ht
      rcases hbad with hb | hb
      · omega
      · exact this.2 hb
  · intro hns
    have hne : s ≠ [] := fun h => hns (.inl h)
    have hpl : ∀ t ∈ splitChar ':' s, ¬ (4 < t.length ∨ '+' ∈ t) :=
      fun t ht hb => hns (.inr (.inr (.inr ⟨_, (pieces_iff _ _ _).mpr rfl, t, ht, hb⟩)))
    have hstart : s.head? = some ':' → ∃ t, s = ':' :: ':' :: t := by
      intro hh
      cases s with
      | nil => cases hh
      | cons c u =>
        simp at hh
        subst hh
        cases u with
        | nil => exact absurd (.inr (.inl ⟨[], rfl, by simp⟩)) hns
        | cons d v =>
          by_cases hd : d = ':'
          · subst hd; exact ⟨v, rfl⟩
          · exact absurd (.inr (.inl ⟨d :: v, rfl, by simpa using hd⟩)) hns
    have hend : s.getLast? = some ':' → ∃ t, s = t ++ [':', ':'] := by
      intro hh
      obtain ⟨u, rfl⟩ := List.getLast?_eq_some_iff.mp hh
      have hu : u.getLast? = some ':' := Classical.byContradiction fun h => hns (.inr (.inr (.inl ⟨u, rfl, h⟩)))
      obtain ⟨v, rfl⟩ := List.getLast?_eq_some_iff.mp hu
      exact ⟨v, by simp⟩
    have hz : ∀ v, Group ['0'] v → v = 0 := fun v hv => (V6.group_zero_iff v).mp hv
    rw [V6.parse_iff] at h
    by_cases hh : s.head? = some ':'
    · obtain ⟨t, rfl⟩ := hstart hh
      have hcc : ∀ e : Str, splitChar ':' ('0' :: ':' :: ':' :: (t ++ e)) = ['0'] :: [] :: splitChar ':' (t ++ e) := by
        intro e
        rw [show ('0' :: ':' :: ':' :: (t ++ e) : Str) = ['0'] ++ ':' :: ([] ++ ':' :: (t ++ e)) from rfl, splitChar_append, splitChar_append]
        rfl
      have hcc' : completeColons (':' :: ':' :: t) = '0' :: ':' :: ':' :: (t ++ (if (':' :: ':' :: t).getLast? = some ':' then ['0'] else [])) := by
        simp [completeColons]
      rcases h with ⟨gs, hj, h8, hg⟩ | ⟨pre, post, vs, ws, hj, hl, hv, hw, hcv⟩
      · have hnil : ∀ p ∈ gs, p ≠ [] := fun p hp => (Pointwise.mem hg p hp).elim fun _ h => h.2.ne_nil
        have hnc : ∀ p ∈ gs, ':' ∉ p := fun p hp => (Pointwise.mem hg p hp).elim fun _ h => h.2.no_colon
        have := splitChar_join ':' gs (by rintro rfl; cases h8) hnc
        rw [← hj, hcc', hcc] at this
        exact absurd rfl (hnil [] (by rw [← this]; simp))
      · have hn1 : ∀ p ∈ pre, p ≠ [] := fun p hp => (Pointwise.mem hv p hp).elim fun _ h => h.2.ne_nil
        have hc1 : ∀ p ∈ pre, ':' ∉ p := fun p hp => (Pointwise.mem hv p hp).elim fun _ h => h.2.no_colon
        have hn2 : ∀ p ∈ post, p ≠ [] := fun p hp => (Pointwise.mem hw p hp).elim fun _ h => h.2.ne_nil
        have hc2 : ∀ p ∈ post, ':' ∉ p := fun p hp => (Pointwise.mem hw p hp).elim fun _ h => h.2.no_colon
        have hsp := splitChar_join ':' (pre ++ [] :: post) (by simp) (by
          intro p hp
          rcases List.mem_append.mp hp with hp | hp
          · exact hc1 p hp
          · rcases List.mem_cons.mp hp with rfl | hp
            · simp
            · exact hc2 p hp)
        rw [← hj, hcc', hcc] at hsp
        cases pre with
        | nil => simp at hsp
        | cons x pre =>
          cases pre with
          | cons y pre =>
            simp at hsp
            exact absurd hsp.2.1 (hn1 y (by simp))
          | nil =>
            simp only [List.cons_append, List.nil_append, List.cons.injEq, true_and] at hsp
            obtain ⟨rfl, hsp⟩ := hsp
            cases hv with
            | cons hv1 hv2 =>
              cases hv2
              rw [hz _ hv1] at hcv
              simp only [List.length_cons, List.length_nil] at hl hcv
              have hr8 : ([0] ++ List.replicate (8 - (0 + 1) - post.length) 0 : List Nat) = List.replicate (8 - post.length) 0 := by
                rw [show 8 - post.length = 1 + (8 - (0 + 1) - post.length) by omega, ← List.replicate_append_replicate]
                rfl
              rw [hr8] at hcv
              by_cases hlast : (':' :: ':' :: t).getLast? = some ':'
              · rw [if_pos hlast] at hsp
                rcases nil_or_snoc t with rfl | ⟨t', c, rfl⟩
                · have : post = [['0']] := by rw [← hsp]; rfl
                  subst this
                  cases hw with
                  | cons hw1 hw2 =>
                    cases hw2
                    rw [hz _ hw1] at hcv
                    exact .inr ⟨[], [], [], [], rfl, by decide, .nil, .nil, by rw [hcv]; rfl⟩
                · exfalso
                  have hc : c = ':' := by
                    have h1 := hlast
                    rw [show (':' :: ':' :: (t' ++ [c]) : Str) = ([':', ':'] ++ t') ++ [c] from rfl, List.getLast?_concat] at h1
                    exact Option.some.inj h1
                  subst hc
                  obtain ⟨u, hu⟩ := hend hlast
                  have hu : [':', ':'] ++ t' = u ++ [':'] := by
                    apply List.append_cancel_right (bs := [':'])
                    simpa using hu
                  rw [List.append_assoc, List.singleton_append, splitChar_append] at hsp
                  refine hn2 [] ?_ rfl
                  rw [← hsp]
                  apply List.mem_append_left
                  apply splitChar_last_colon
                  by_cases ht' : t' = []
                  · exact .inl ht'
                  · have := congrArg List.getLast? hu
                    rw [List.getLast?_append, List.getLast?_concat] at this
                    obtain ⟨z, hz⟩ := Option.isSome_iff_exists.mp (by simpa using ht' : t'.getLast?.isSome)
                    rw [hz] at this ⊢
                    exact .inr this
              · rw [if_neg hlast, List.append_nil] at hsp
                have hpne : post ≠ [] := by rw [← hsp]; exact splitChar_ne_nil _ _
                refine .inr ⟨[], post, [], ws, ?_, by simp; omega, .nil, hex_of_pieces hw ?_, by simpa using hcv⟩
                · rw [← hsp, join_splitChar]; rfl
                · intro x hx
                  refine hpl x ?_
                  rw [show (':' :: ':' :: t : Str) = [] ++ ':' :: ([] ++ ':' :: t) from rfl, splitChar_append, splitChar_append, hsp]
                  simp [hx]
    · by_cases hlast : s.getLast? = some ':'
      · obtain ⟨u, rfl⟩ := hend hlast
        have hcc' : completeColons (u ++ [':', ':']) = u ++ ':' :: ([] ++ ':' :: ['0']) := by
          rw [completeColons, if_neg hh, if_pos hlast]; simp
        have hcc : splitChar ':' (completeColons (u ++ [':', ':'])) = splitChar ':' u ++ [[], ['0']] := by
          rw [hcc', splitChar_append, splitChar_append]; rfl
        have hcs : splitChar ':' (u ++ [':', ':']) = splitChar ':' u ++ [[], []] := by
          rw [show u ++ [':', ':'] = u ++ ':' :: ([] ++ ':' :: []) from rfl, splitChar_append, splitChar_append]; rfl
        rcases h with ⟨gs, hj, h8, hg⟩ | ⟨pre, post, vs, ws, hj, hl, hv, hw, hcv⟩
        · have hnil : ∀ p ∈ gs, p ≠ [] := fun p hp => (Pointwise.mem hg p hp).elim fun _ h => h.2.ne_nil
          have hnc : ∀ p ∈ gs, ':' ∉ p := fun p hp => (Pointwise.mem hg p hp).elim fun _ h => h.2.no_colon
          have := splitChar_join ':' gs (by rintro rfl; cases h8) hnc
          rw [← hj, hcc] at this
          exact absurd rfl (hnil [] (by rw [← this]; simp))
        · have hc1 : ∀ p ∈ pre, ':' ∉ p := fun p hp => (Pointwise.mem hv p hp).elim fun _ h => h.2.no_colon
          have hn2 : ∀ p ∈ post, p ≠ [] := fun p hp => (Pointwise.mem hw p hp).elim fun _ h => h.2.ne_nil
          have hc2 : ∀ p ∈ post, ':' ∉ p := fun p hp => (Pointwise.mem hw p hp).elim fun _ h => h.2.no_colon
          have hsp := splitChar_join ':' (pre ++ [] :: post) (by simp) (by
            intro p hp
            rcases List.mem_append.mp hp with hp | hp
            · exact hc1 p hp
            · rcases List.mem_cons.mp hp with rfl | hp
              · simp
              · exact hc2 p hp)
          rw [← hj, hcc] at hsp
          rcases nil_or_snoc post with rfl | ⟨post', y, rfl⟩
          · have := congrArg List.getLast? hsp
            simp at this
          · have h1 : (splitChar ':' u ++ [[]]) ++ [['0']] = (pre ++ [] :: post') ++ [y] := by simpa using hsp
            obtain ⟨h2, h3⟩ := List.append_inj' h1 rfl
            cases h3
            rcases nil_or_snoc post' with rfl | ⟨post'', z, rfl⟩
            · have h4 : splitChar ':' u = pre := List.append_cancel_right h2
              cases hw with
              | cons h5 h7 =>
                cases h7
                rw [hz _ h5] at hcv
                refine .inr ⟨pre, [], vs, [], ?_, by simp at hl ⊢; omega, hex_of_pieces hv ?_, .nil, ?_⟩
                · rw [← h4, join_splitChar]; simp
                · intro x hx
                  exact hpl x (by rw [hcs, h4]; simp [hx])
                · rw [hcv]
                  simp only [List.nil_append, List.length_cons, List.length_nil] at hl ⊢
                  rw [show 8 - (pre.length + 0) = (8 - pre.length - (0 + 1)) + 1 by omega, ← List.replicate_append_replicate,
                    List.append_nil, List.append_assoc]
                  rfl
            · exfalso
              have h4 : splitChar ':' u ++ [[]] = (pre ++ [] :: post'') ++ [z] := by simpa using h2
              obtain ⟨-, h5⟩ := List.append_inj' h4 rfl
              cases h5
              exact hn2 [] (by simp) rfl
      · have hcc : completeColons s = s := by rw [completeColons, if_neg hh, if_neg hlast]; simp
        rw [hcc] at h
        rcases h with ⟨gs, hj, h8, hg⟩ | ⟨pre, post, vs, ws, hj, hl, hv, hw, hcv⟩
        · have hnc : ∀ p ∈ gs, ':' ∉ p := fun p hp => (Pointwise.mem hg p hp).elim fun _ h => h.2.no_colon
          have := splitChar_join ':' gs (by rintro rfl; cases h8) hnc
          refine .inl ⟨gs, hj, hex_of_pieces hg ?_⟩
          rw [← this, ← hj]
          exact hpl
        · have hc1 : ∀ p ∈ pre, ':' ∉ p := fun p hp => (Pointwise.mem hv p hp).elim fun _ h => h.2.no_colon
          have hc2 : ∀ p ∈ post, ':' ∉ p := fun p hp => (Pointwise.mem hw p hp).elim fun _ h => h.2.no_colon
          have hsp := splitChar_join ':' (pre ++ [] :: post) (by simp) (by
            intro p hp
            rcases List.mem_append.mp hp with hp | hp
            · exact hc1 p hp
            · rcases List.mem_cons.mp hp with rfl | hp
              · simp
              · exact hc2 p hp)
          rw [← hj] at hsp
          have hp1 : pre ≠ [] := by
            rintro rfl
            cases post with
            | nil => exact hne hj
            | cons x xs =>
              rw [hj, List.nil_append, List.intercalate_cons_cons] at hh
              exact hh rfl
          have hp2 : post ≠ [] := by
            rintro rfl
            rw [hj, intercalate_append _ hp1 (by simp)] at hlast
            exact hlast (by simp)
          refine .inr ⟨pre, post, vs, ws, ?_, by omega, hex_of_pieces hv ?_, hex_of_pieces hw ?_, by rw [hcv, Nat.sub_sub]⟩
          · rw [hj, intercalate_append _ hp1 (by simp)]
            cases post with
            | nil => exact absurd rfl hp2
            | cons x xs => rw [List.intercalate_cons_cons]; simp
          · intro x hx
            exact hpl x (by rw [hsp]; simp [hx])
          · intro x hx
            exact hpl x (by rw [hsp]; simp [hx])

/-- The claim that exactly the texts of RFC 4291 are read is false in both directions. -/
theorem C82_counterexample :
    (∃ s a, Rfc4291 s a ∧ V6.parse s ≠ .ok (.ok a)) ∧ (∃ s a, V6.parse s = .ok (.ok a) ∧ ¬ Rfc4291 s a) := by
  constructor
  · have hg : ∀ c v, (c, v) ∈ [('2', 2), ('3', 3), ('4', 4), ('5', 5), ('6', 6), ('7', 7), ('8', 8)] → HexGroup [c] v := by
      intro c v h
      have key : ∀ x ∈ [('2', 2), ('3', 3), ('4', 4), ('5', 5), ('6', 6), ('7', 7), ('8', 8)], lowerDigits[x.2]? = some x.1 ∧ x.2 < 16 := by decide
      obtain ⟨h1, h2⟩ := key _ h
      exact ⟨⟨by simp, [v], .cons (.inl h1) h2 .nil, by simp [bigEndian]⟩, by simp⟩
    refine ⟨"::2:3:4:5:6:7:8".toList, ⟨0x0000000200030004#64, 0x0005000600070008#64⟩, ?_, by decide +kernel⟩
    refine .inr ⟨[], [['2'], ['3'], ['4'], ['5'], ['6'], ['7'], ['8']], [], [2, 3, 4, 5, 6, 7, 8], rfl, by decide, .nil, ?_, by decide +kernel⟩
    repeat (refine .cons (hg _ _ (by decide)) ?_)
    exact .nil
  · refine ⟨":2:3:4:5:6:7:8".toList, ⟨0x0000000200030004#64, 0x0005000600070008#64⟩, by decide +kernel, ?_⟩
    rw [C82_strict_partial _ _ (by decide +kernel), Classical.not_not]
    exact .inr (.inl ⟨"2:3:4:5:6:7:8".toList, rfl, by decide⟩)

theorem HexGroup.unique {t : Str} {v w : Nat} (h : HexGroup t v) (h' : HexGroup t w) : v = w := h.1.unique h'.1

/-- A text of RFC 4291 stands for one address. -/
theorem C82_unambiguous (s : Str) (a b : V6) (h : Rfc4291 s a) (h' : Rfc4291 s b) : a = b := by
  apply V6.chunkVals_inj
  have hu : ∀ a b c, HexGroup a b → HexGroup a c → b = c := fun _ _ _ h h' => h.unique h'
  have hfull : ∀ {gs : List Str} {x : V6}, Pointwise HexGroup gs (chunkVals x) → splitChar ':' (List.intercalate [':'] gs) = gs ∧ [] ∉ gs := by
    intro gs x hg
    obtain ⟨h1, h2, -⟩ := rfc_groups hg
    have h8 : gs.length = 8 := by rw [hg.length, V6.chunkVals_length]
    exact ⟨splitChar_join _ _ (by rintro rfl; cases h8) h2, fun h => h1 [] h rfl⟩
  have hmid : ∀ (pre post : List Str), [] ∈ (if pre = [] then [[]] else pre) ++ [] :: (if post = [] then [[]] else post) := by simp
  rcases h with ⟨gs, rfl, hg⟩ | ⟨pre, post, vs, ws, rfl, hl, hv, hw, hcv⟩
  · rcases h' with ⟨gs', hs, hg'⟩ | ⟨pre', post', vs', ws', hs, hl', hv', hw', hcv'⟩
    · have := congrArg (splitChar ':') hs
      rw [(hfull hg).1, (hfull hg').1] at this
      subst this
      exact Pointwise.unique hu hg hg'
    · exfalso
      have := congrArg (splitChar ':') hs
      rw [(hfull hg).1, splitChar_double _ _ (rfc_groups hv').2.1 (rfc_groups hw').2.1] at this
      exact (hfull hg).2 (this ▸ hmid pre' post')
  · rcases h' with ⟨gs', hs, hg'⟩ | ⟨pre', post', vs', ws', hs, hl', hv', hw', hcv'⟩
    · exfalso
      have := congrArg (splitChar ':') hs
      rw [(hfull hg').1, splitChar_double _ _ (rfc_groups hv).2.1 (rfc_groups hw).2.1] at this
      exact (hfull hg').2 (this ▸ hmid pre post)
    · have he := congrArg (splitChar ':') hs
      rw [splitChar_double _ _ (rfc_groups hv).2.1 (rfc_groups hw).2.1, splitChar_double _ _ (rfc_groups hv').2.1 (rfc_groups hw').2.1] at he
      have hn1 := (rfc_groups hv).1
      have hn2 := (rfc_groups hw).1
      have hn1' := (rfc_groups hv').1
      have hn2' := (rfc_groups hw').1
      -- the pieces before the first empty one, and those after the last empty one
      have front : ∀ {p q p' q' : List Str}, (∀ x ∈ p, x ≠ []) → (∀ x ∈ p', x ≠ []) →
          (if p = [] then [[]] else p) ++ [] :: q = (if p' = [] then [[]] else p') ++ [] :: q' → p = p' := by
        intro p q p' q' h1 h2 h
        have t1 : ((if p = [] then [[]] else p) ++ [] :: q).takeWhile (fun x => decide (x ≠ [])) = p := by
          split
          · rename_i h; subst h; rfl
          · rw [List.takeWhile_append_of_pos (fun x hx => by simpa using h1 x hx)]; simp
        have t2 : ((if p' = [] then [[]] else p') ++ [] :: q').takeWhile (fun x => decide (x ≠ [])) = p' := by
          split
          · rename_i h; subst h; rfl
          · rw [List.takeWhile_append_of_pos (fun x hx => by simpa using h2 x hx)]; simp
        rw [← t1, h, t2]
      have e1 := front hn1 hn1' he
      have he' := congrArg List.reverse he
      have hrev : ∀ p q : List Str, ((if p = [] then [[]] else p) ++ [] :: (if q = [] then [[]] else q)).reverse =
          (if q.reverse = [] then [[]] else q.reverse) ++ [] :: (if p = [] then [[]] else p).reverse := by
        intro p q
        by_cases hq : q = [] <;> simp [hq]
      rw [hrev, hrev] at he'
      have e2 := front (p := post.reverse) (p' := post'.reverse) (by simpa using hn2) (by simpa using hn2') he'
      have e2 := List.reverse_inj.mp e2
      subst e1 e2
      rw [hcv, hcv', Pointwise.unique hu hv hv', Pointwise.unique hu hw hw']

/-! ## C83: the display and RFC 5952 -/

theorem canonical_hexes (a : V6) {hs : List Str} (h : Pointwise (CanonicalNumeral 16) hs (chunkVals a)) : hs = V6.hexes a := by
  have key : ∀ (l : List Nat) (hs : List Str), Pointwise (CanonicalNumeral 16) hs l → hs = l.map (showNat 16) := by
    intro l hs h
    induction h with
    | nil => rfl
    | cons h1 _ ih => rw [List.map_cons, ← ih, h1.text_unique (by decide) (showNat_canonical (by decide) (by decide) _)]
  exact key _ _ h

theorem hexes_canonical (a : V6) : Pointwise (CanonicalNumeral 16) (V6.hexes a) (chunkVals a) := by
  have key : ∀ l : List Nat, Pointwise (CanonicalNumeral 16) (l.map (showNat 16)) l := by
    intro l
    induction l with
    | nil => exact .nil
    | cons v l ih => exact .cons (showNat_canonical (by decide) (by decide) v) ih
  exact key _

theorem run_two {cs : List Nat} {s l : Nat} (h : FirstLongestZeroRun cs s l) : (∃ i, ZeroRun cs i 2) ↔ 2 ≤ l := by
  constructor
  · rintro ⟨i, hi⟩
    exact (h.2.2 i 2 (by decide) hi).1
  · intro hl
    refine ⟨s, by have := h.2.1.1; omega, fun i h1 h2 => h.2.1.2 i h1 (by omega)⟩

/-- The display is the one that RFC 5952 prescribes if and only if no group is zero or two adjacent groups are zero. -/
theorem C83_display_partial (a : V6) :
    Rfc5952 a (IpAddr.display a) ↔ (∀ i, ¬ ZeroRun (chunkVals a) i 1) ∨ ∃ i, ZeroRun (chunkVals a) i 2 := by
  show Rfc5952 a a.display ↔ _
  rcases V6.display_spec a with ⟨hnz, hd⟩ | ⟨s, l, hrun, hd⟩
  · have h1 : ∀ i, ¬ ZeroRun (chunkVals a) i 1 := fun i hi => hnz 0 (List.mem_of_getElem? (hi.2 i (by omega) (by omega))) rfl
    refine ⟨fun _ => .inl h1, fun _ => ⟨_, hexes_canonical a, .inl ⟨fun i hi => h1 i ⟨by have := hi.1; omega, fun j h2 h3 => hi.2 j h2 (by omega)⟩, hd⟩⟩⟩
  · have h1 : ¬ ∀ i, ¬ ZeroRun (chunkVals a) i 1 := fun h => h s ⟨by have := hrun.2.1.1; have := hrun.1; omega, fun j h2 h3 => hrun.2.1.2 j h2 (by have := hrun.1; omega)⟩
    rw [or_iff_right h1, run_two hrun]
    constructor
    · rintro ⟨hs, hh, ⟨hno, ht⟩ | ⟨s', l', h2, hrun', -⟩⟩
      · exfalso
        have hl1 : l = 1 := by
          have := hrun.1
          rcases Nat.lt_or_ge l 2 with h | h
          · omega
          · obtain ⟨i, hi⟩ := (run_two hrun).mpr h
            exact absurd hi (hno i)
        subst hl1
        rw [hd, canonical_hexes a hh] at ht
        have hc := congrArg (splitChar ':') ht
        rw [splitChar_double _ _ (fun p hp => V6.hexes_no_colon a p (List.mem_of_mem_take hp)) (fun p hp => V6.hexes_no_colon a p (List.mem_of_mem_drop hp)),
          splitChar_join _ _ (V6.hexes_ne a) (V6.hexes_no_colon a)] at hc
        refine V6.hexes_ne_nil a [] ?_ rfl
        rw [← hc]
        simp
      · obtain ⟨-, rfl⟩ := C12_run_unique _ _ _ _ _ hrun hrun'
        exact h2
    · intro h2
      exact ⟨_, hexes_canonical a, .inr ⟨s, l, h2, hrun, hd⟩⟩

theorem hexes_hexGroup (a : V6) : Pointwise HexGroup (V6.hexes a) (chunkVals a) := by
  have key : ∀ l : List Nat, (∀ v ∈ l, v < 65536) → Pointwise HexGroup (l.map (showNat 16)) l := by
    intro l
    induction l with
    | nil => intro _; exact .nil
    | cons v l ih =>
      intro h
      have hc := showNat_canonical (radix := 16) (by decide) (by decide) v
      exact .cons ⟨hc.1, hc.length_le (by decide) (by decide) (h v (by simp))⟩ (ih fun w hw => h w (by simp [hw]))
  exact key _ (V6.chunkVals_lt a)

theorem count_colon_le (l : List Str) (h : ∀ p ∈ l, ':' ∉ p) : (List.intercalate [':'] l).count ':' ≤ l.length - 1 := by
  by_cases hl : l = []
  · subst hl; decide
  · have := count_intercalate ':' l hl h
    omega

/-- RFC 5952 prescribes exactly one text for each address, it is one of the texts of RFC 4291, and the parser reads it as that address. -/
theorem C83_canonical_read (a : V6) : ∃ t, Rfc5952 a t ∧ (∀ t', Rfc5952 a t' → t' = t) ∧ Rfc4291 t a ∧ V6.parse t = .ok (.ok a) := by
  have hx := hexes_hexGroup a
  have hl8 := V6.hexes_length a
  by_cases h2 : ∃ i, ZeroRun (chunkVals a) i 2
  · have hr : ∃ s l, FirstLongestZeroRun (chunkVals a) s l := by
      rcases V6.display_spec a with ⟨hnz, -⟩ | ⟨s, l, h, -⟩
      · obtain ⟨i, hi⟩ := h2
        exact absurd rfl (hnz 0 (List.mem_of_getElem? (hi.2 i (by omega) (by omega))))
      · exact ⟨s, l, h⟩
    obtain ⟨s, l, hr⟩ := hr
    have hl := (run_two hr).mp h2
    have hlen := hr.2.1.1
    rw [V6.chunkVals_length] at hlen
    have h4 : Rfc4291 (List.intercalate [':'] ((V6.hexes a).take s) ++ [':', ':'] ++ List.intercalate [':'] ((V6.hexes a).drop (s + l))) a := by
      refine .inr ⟨_, _, _, _, rfl, ?_, V6.Pointwise.take hx s, V6.Pointwise.drop hx (s + l), ?_⟩
      · simp only [List.length_take, List.length_drop, hl8]; omega
      · have := V6.chunkVals_run a hr.2.1
        rw [show 8 - (((V6.hexes a).take s).length + ((V6.hexes a).drop (s + l)).length) = l by
          simp only [List.length_take, List.length_drop, hl8]; omega]
        exact this
    refine ⟨_, ⟨_, hexes_canonical a, .inr ⟨s, l, hl, hr, rfl⟩⟩, ?_, h4, (C82_reads_partial _ a h4).1 ?_⟩
    · rintro t' ⟨hs, hh, ⟨hno, -⟩ | ⟨s', l', -, hr', rfl⟩⟩
      · exact absurd h2 (by simpa using hno)
      · obtain ⟨rfl, rfl⟩ := C12_run_unique _ _ _ _ _ hr hr'
        rw [canonical_hexes a hh]
    · have c1 := count_colon_le ((V6.hexes a).take s) (fun p hp => V6.hexes_no_colon a p (List.mem_of_mem_take hp))
      have c2 := count_colon_le ((V6.hexes a).drop (s + l)) (fun p hp => V6.hexes_no_colon a p (List.mem_of_mem_drop hp))
      simp only [List.length_take, List.length_drop, hl8] at c1 c2
      simp only [List.count_append]
      have : [':', ':'].count ':' = 2 := by decide
      omega
  · have h4 : Rfc4291 (List.intercalate [':'] (V6.hexes a)) a := .inl ⟨_, rfl, hx⟩
    refine ⟨_, ⟨_, hexes_canonical a, .inl ⟨by simpa using h2, rfl⟩⟩, ?_, h4, (C82_reads_partial _ a h4).1 ?_⟩
    · rintro t' ⟨hs, hh, ⟨-, rfl⟩ | ⟨s', l', hl', hr', -⟩⟩
      · rw [canonical_hexes a hh]
      · exact absurd ((run_two hr').mpr hl') h2
    · have := count_intercalate ':' _ (V6.hexes_ne a) (V6.hexes_no_colon a)
      omega

/-- The claim that the display is the text of RFC 5952 is false. -/
theorem C83_counterexample : ∃ a : V6, ¬ Rfc5952 a (IpAddr.display a) := by
  refine ⟨⟨0x0001000200030000#64, 0x0005000600070008#64⟩, ?_⟩
  rw [C83_display_partial]
  rintro (h | ⟨i, hi⟩)
  · exact h 3 ⟨by decide, by intro i h1 h2; obtain rfl : i = 3 := by omega
                             decide⟩
  · have h0 := hi.2 i (by omega) (by omega)
    have h1 := hi.2 (i + 1) (by omega) (by omega)
    have hlt : i + 1 < 8 := (List.getElem?_eq_some_iff.mp h1).1
    have key : ∀ i < 8, ¬ ((chunkVals ⟨0x0001000200030000#64, 0x0005000600070008#64⟩)[i]? = some 0 ∧
      (chunkVals ⟨0x0001000200030000#64, 0x0005000600070008#64⟩)[i + 1]? = some 0) := by decide
    exact key i (by omega) ⟨h0, h1⟩

/-! ## Networks -/

/-- In a network, a text of RFC 4291 is read only without upper-case digits. -/
theorem C82_network (s l : Str) (a : V6) (p : Nat) (h : Rfc4291 s a) (hc : s.count ':' ≤ 7) (hl : Numeral 10 l p) (hp : p ≤ 128) :
    (∃ n, parseNetspec (specText s false l) = .ok (.ok (.ipv6 a n))) ↔ ∀ c ∈ s, c ∉ ['A', 'B', 'C', 'D', 'E', 'F'] := by
  have num : ∀ {l : Str} {p : Nat}, Numeral 10 l p → '/' ∉ l ∧ l.head? ≠ some '-' := by
    rintro l p ⟨-, ds, h, -⟩
    have hd : ∀ c ∈ ['/', '-'], c ∉ l := by
      intro c hc hm
      have hlo : c ∉ lowerDigits ∧ c ∉ upperDigits := by clear hm; revert c; decide
      obtain ⟨d, hd⟩ := digits_mem h _ hm
      rcases hd with hd | hd
      · exact hlo.1 (List.mem_of_getElem? hd)
      · exact hlo.2 (List.mem_of_getElem? hd)
    exact ⟨hd _ (by simp), fun h => hd '-' (by simp) (List.mem_of_mem_head? h)⟩
  have hex : ∀ {l : Str}, HexColonText l → '/' ∉ l ∧ l.head? ≠ some '-' := by
    intro l h
    exact ⟨fun hm => absurd (h.2 _ hm) (by decide), fun hm => absurd (h.2 _ (List.mem_of_mem_head? hm)) (by decide)⟩
  constructor
  · rintro ⟨n, hn⟩
    obtain ⟨t, w, l', he, ht, -, hrest⟩ := (C31_meaning_ipv6 _ _ _).mp hn
    have hl' : '/' ∉ l' ∧ l'.head? ≠ some '-' := by
      rcases hrest with ⟨m, h1, -⟩ | ⟨p, h1, -⟩
      · exact hex h1
      · exact num h1
    obtain ⟨rfl, -, -⟩ := specText_inj he (num hl).1 hl'.1 (num hl).2 hl'.2
    intro c hm hu
    have key : ∀ c ∈ ['A', 'B', 'C', 'D', 'E', 'F'], c ∉ ':' :: lowerDigits := by decide
    exact key c hu (ht.2 c hm)
  · intro hu
    have hgrp : ∀ {gs : List Str} {vs : List Nat}, Pointwise HexGroup gs vs → ∀ c ∈ List.intercalate [':'] gs, c = ':' ∨ ∃ d, DigitIs c d := by
      intro gs vs hg c hm
      rcases mem_intercalate hm with h1 | ⟨t, ht, h1⟩
      · exact .inl (by simpa using h1)
      · obtain ⟨v, -, ⟨-, ds, hd, -⟩, -⟩ := Pointwise.mem hg t ht
        exact .inr (digits_mem hd c h1)
    have hall : ∀ c ∈ s, c = ':' ∨ ∃ d, DigitIs c d := by
      rcases h with ⟨gs, rfl, hg⟩ | ⟨pre, post, vs, ws, rfl, -, hv, hw, -⟩
      · exact hgrp hg
      · intro c hm
        simp only [List.mem_append] at hm
        rcases hm with (hm | hm) | hm
        · exact hgrp hv c hm
        · exact .inl (by simpa using hm)
        · exact hgrp hw c hm
    have hne : s ≠ [] := by
      rintro rfl
      have h0 : V6.parse [] = .ok (.ok a) := (C82_reads_partial _ _ h).1 hc
      exact (C82_strict_partial _ _ h0).mp h (.inl rfl)
    have ht : HexColonText s := by
      refine ⟨hne, fun c hm => ?_⟩
      rcases hall c hm with rfl | ⟨d, hd | hd⟩
      · simp
      · exact List.mem_cons_of_mem _ (List.mem_of_getElem? hd)
      · have h1 := List.mem_of_getElem? hd
        have h2 := hu c hm
        have key : ∀ c ∈ upperDigits, c ∉ ['A', 'B', 'C', 'D', 'E', 'F'] → c ∈ ':' :: lowerDigits := by decide
        exact key c h1 h2
    have hrd := (v6Reading_iff s a).mp ((C82_reads_partial _ _ h).1 hc)
    obtain ⟨n, hn⟩ : ∃ n : Net V6, NetOfPrefix n a p := by
      obtain ⟨n, hn, -⟩ := newWithPrefix_wf (a := a) (p := p) hp
      exact ⟨n, (newWithPrefix_iff n a p hp).mp hn⟩
    exact ⟨n, (C31_meaning_ipv6 _ _ _).mpr ⟨s, false, l, rfl, ht, hrd, .inr ⟨p, hl, hp, hn⟩⟩⟩

theorem hexGroup_abcd (u : Bool) : HexGroup (if u then ['A', 'B', 'C', 'D'] else ['a', 'b', 'c', 'd']) 0xabcd := by
  cases u
  · refine ⟨⟨by decide, [10, 11, 12, 13], ?_, by decide⟩, by decide⟩
    exact .cons (.inl rfl) (by decide) (.cons (.inl rfl) (by decide) (.cons (.inl rfl) (by decide) (.cons (.inl rfl) (by decide) .nil)))
  · refine ⟨⟨by decide, [10, 11, 12, 13], ?_, by decide⟩, by decide⟩
    exact .cons (.inr rfl) (by decide) (.cons (.inr rfl) (by decide) (.cons (.inr rfl) (by decide) (.cons (.inr rfl) (by decide) .nil)))

/-- The hypotheses are met by `abcd::` (read as a network) and by `ABCD::` (rejected as a network although an address). -/
theorem rfc_abcd (u : Bool) : Rfc4291 ((if u then ['A', 'B', 'C', 'D'] else ['a', 'b', 'c', 'd']) ++ [':', ':']) ⟨0xabcd000000000000#64, 0⟩ :=
  .inr ⟨[if u then ['A', 'B', 'C', 'D'] else ['a', 'b', 'c', 'd']], [], [0xabcd], [], by cases u <;> rfl, by cases u <;> decide, .cons (hexGroup_abcd u) .nil,
    .nil, by cases u <;> decide⟩

example : V6.parse "ABCD::".toList = .ok (.ok ⟨0xabcd000000000000#64, 0⟩) := (C82_reads_partial _ _ (rfc_abcd true)).1 (by decide)

theorem numeral_16 : Numeral 10 ['1', '6'] 16 := ⟨by decide, [1, 6], .cons (.inl rfl) (by decide) (.cons (.inl rfl) (by decide) .nil), by decide⟩

example : ∃ n, parseNetspec "abcd::/16".toList = .ok (.ok (.ipv6 ⟨0xabcd000000000000#64, 0⟩ n)) :=
  (C82_network _ _ _ 16 (rfc_abcd false) (by decide) numeral_16 (by decide)).mpr (by decide)

example : ¬ ∃ n, parseNetspec "ABCD::/16".toList = .ok (.ok (.ipv6 ⟨0xabcd000000000000#64, 0⟩ n)) := fun h =>
  absurd ((C82_network _ _ _ 16 (rfc_abcd true) (by decide) numeral_16 (by decide)).mp h) (by decide)

/-- The display of an address with two adjacent zero groups, and of one without a zero group, follows RFC 5952. -/
example : Rfc5952 ⟨0xabcd000000000000#64, 0⟩ "abcd::".toList := by
  have h := (C83_display_partial ⟨0xabcd000000000000#64, 0⟩).mpr (.inr ⟨1, by decide, by
    intro i h1 h2
    have : i = 1 ∨ i = 2 := by omega
    rcases this with rfl | rfl <;> decide⟩)
  have e : IpAddr.display (⟨0xabcd000000000000#64, 0⟩ : V6) = "abcd::".toList := by decide +kernel
  rwa [e] at h

example : IpAddr.display (⟨0x0001000200030000#64, 0x0005000600070008#64⟩ : V6) = "1:2:3::5:6:7:8".toList := by decide +kernel

end Ripcalc
