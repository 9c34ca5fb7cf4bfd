import Verif.Proofs.AddrText
/-!
# Display of IPv6 addresses
-/
namespace Ripcalc
open AddrSpec
namespace V6

/-! ## The zero-run search only looks at which chunks are zero -/

def runEndB (zs : List Bool) : Nat → Nat → Nat
  | 0, j => j
  | fuel + 1, j => if j < 8 then (if zs.getD j true then runEndB zs fuel (j + 1) else j) else j

def findRunB (zs : List Bool) : Nat → Nat → Option Nat → Nat → Option Nat × Nat
  | 0, _, zi, zl => (zi, zl)
  | fuel + 1, i, zi, zl =>
    if i < 8 then
      if zs.getD i true then
        let j := runEndB zs 8 (i + 1)
        if zl < j - i then findRunB zs fuel j (some i) (j - i)
        else findRunB zs fuel j zi zl
      else findRunB zs fuel (i + 1) zi zl
    else (zi, zl)

def zeros (cs : List (BitVec 16)) : List Bool := cs.map (fun c => decide (c = 0))

theorem zeros_getD (cs : List (BitVec 16)) (j : Nat) : (zeros cs).getD j true = decide (cs.getD j 0 = 0) := by
  simp only [zeros, List.getD_eq_getElem?_getD, List.getElem?_map]
  cases cs[j]? <;> simp

theorem runEnd_eq (cs : List (BitVec 16)) (fuel j : Nat) : runEnd cs fuel j = runEndB (zeros cs) fuel j := by
  induction fuel generalizing j with
  | zero => rfl
  | succ fuel ih =>
    simp only [runEnd, runEndB, zeros_getD, ih]
    by_cases h : cs.getD j 0 = 0 <;> simp

theorem findRun_eq (cs : List (BitVec 16)) (fuel i : Nat) (zi : Option Nat) (zl : Nat) :
    findRun cs fuel i zi zl = findRunB (zeros cs) fuel i zi zl := by
  induction fuel generalizing i zi zl with
  | zero => rfl
  | succ fuel ih =>
    simp only [findRun, findRunB, zeros_getD, ih, runEnd_eq]
    by_cases h : cs.getD i 0 = 0 <;> simp

def BRun (zs : List Bool) (s l : Nat) : Prop := s + l ≤ 8 ∧ ∀ i, i < 8 → s ≤ i → i < s + l → zs[i]? = some true

instance (zs : List Bool) (s l : Nat) : Decidable (BRun zs s l) := by unfold BRun; infer_instance

def BFirst (zs : List Bool) (s l : Nat) : Prop :=
  0 < l ∧ BRun zs s l ∧ ∀ s' ∈ List.range 8, ∀ l' ∈ List.range 9, (0 < l' ∧ BRun zs s' l') → (l' ≤ l ∧ (l' = l → s ≤ s'))

instance (zs : List Bool) (s l : Nat) : Decidable (BFirst zs s l) := by unfold BFirst; infer_instance

def findOk (zs : List Bool) : Prop :=
  match findRunB zs 8 0 none 0 with
  | (none, _) => ∀ b ∈ zs, b = false
  | (some s, l) => BFirst zs s l

instance (zs : List Bool) : Decidable (findOk zs) := by unfold findOk; split <;> infer_instance

/-- All 256 patterns of zero chunks. -/
theorem findOk_all : ∀ b0 b1 b2 b3 b4 b5 b6 b7 : Bool, findOk [b0, b1, b2, b3, b4, b5, b6, b7] := by
  decide +kernel

theorem findRun_spec (a : V6) :
    (∃ l, findRun a.toChunks 8 0 none 0 = (none, l) ∧ ∀ v ∈ chunkVals a, v ≠ 0) ∨
    (∃ s l, findRun a.toChunks 8 0 none 0 = (some s, l) ∧ FirstLongestZeroRun (chunkVals a) s l) := by
  have hz : findOk (zeros a.toChunks) := by
    simp only [zeros, toChunks, List.map]
    exact findOk_all _ _ _ _ _ _ _ _
  have hcv : ∀ i : Nat, (zeros a.toChunks)[i]? = some true ↔ (chunkVals a)[i]? = some 0 := by
    intro i
    rw [← chunkOf_eq]
    simp only [zeros, List.getElem?_map]
    cases a.toChunks[i]? with
    | none => simp
    | some c =>
      simp only [Option.map_some, Option.some.injEq, decide_eq_true_eq]
      constructor
      · rintro rfl; rfl
      · intro h; exact BitVec.eq_of_toNat_eq h
  rw [findRun_eq]
  simp only [findOk] at hz
  generalize findRunB (zeros a.toChunks) 8 0 none 0 = r at hz
  have hrun : ∀ s l, BRun (zeros a.toChunks) s l ↔ ZeroRun (chunkVals a) s l := by
    intro s l
    simp only [BRun, ZeroRun, chunkVals_length, hcv]
    constructor
    · rintro ⟨h1, h2⟩; exact ⟨h1, fun i h3 h4 => h2 i (by omega) h3 h4⟩
    · rintro ⟨h1, h2⟩; exact ⟨h1, fun i _ h3 h4 => h2 i h3 h4⟩
  match r with
  | (none, l) =>
    refine .inl ⟨l, rfl, ?_⟩
    intro v hv h0
    subst h0
    obtain ⟨i, hi, he⟩ := List.mem_iff_getElem.mp hv
    have h1 : (chunkVals a)[i]? = some 0 := by rw [List.getElem?_eq_getElem hi, he]
    have := hz true (List.mem_of_getElem? ((hcv i).mpr h1))
    cases this
  | (some s, l) =>
    refine .inr ⟨s, l, rfl, hz.1, (hrun s l).mp hz.2.1, ?_⟩
    intro s' l' h0 h1
    have h1' := h1.1
    rw [chunkVals_length] at h1'
    exact hz.2.2 s' (by simp; omega) l' (by simp; omega) ⟨h0, (hrun s' l').mpr h1⟩

/-! ## The text -/

/-- The chunks in hexadecimal. -/
def hexes (a : V6) : List Str := (chunkVals a).map (showNat 16)

theorem hexes_eq (a : V6) : hexes a = a.toChunks.map (fun c => showNat 16 c.toNat) := by
  rw [hexes, ← chunkOf_eq, List.map_map]; rfl

theorem hexes_length (a : V6) : (hexes a).length = 8 := by simp [hexes, chunkVals_length]

theorem hexes_get (a : V6) (i : Nat) (h : i < 8) :
    (hexes a).drop i = showNat 16 (a.toChunks.getD i 0).toNat :: (hexes a).drop (i + 1) := by
  have hl : i < (hexes a).length := by rw [hexes_length]; exact h
  rw [List.drop_eq_getElem_cons hl]
  congr 1
  have h8 : i < a.toChunks.length := h
  simp only [hexes_eq, List.getElem_map, List.getD_eq_getElem?_getD, List.getElem?_eq_getElem h8, Option.getD_some]

theorem buildStrings_after (a : V6) (zi : Option Nat) (zl fuel i : Nat) (hf : 8 ≤ fuel + i) (hz : ∀ s, zi = some s → s < i) :
    buildStrings a.toChunks zi zl fuel i = (hexes a).drop i := by
  induction fuel generalizing i with
  | zero =>
    rw [List.drop_eq_nil_of_le (by rw [hexes_length]; omega)]
    rfl
  | succ fuel ih =>
    rw [buildStrings]
    split
    · rename_i h
      rw [if_neg (by intro e; have := hz i e; omega), ih (i + 1) (by omega) (fun s hs => by have := hz s hs; omega), hexes_get a i h]
    · rw [List.drop_eq_nil_of_le (by rw [hexes_length]; omega)]

theorem buildStrings_run (a : V6) (s zl fuel i : Nat) (hf : 8 ≤ fuel + i) (hl : 0 < zl) (hs : s + zl ≤ 8) (hi : i ≤ s) :
    buildStrings a.toChunks (some s) zl fuel i = ((hexes a).take s).drop i ++ (if s = 0 then [[]] else []) ++ [[]] ++
      (if s + zl = 8 then [[]] else []) ++ (hexes a).drop (s + zl) := by
  induction fuel generalizing i with
  | zero => omega
  | succ fuel ih =>
    rw [buildStrings, if_pos (by omega)]
    by_cases h : s = i
    · subst h
      rw [if_pos rfl, buildStrings_after a _ zl fuel (s + zl) (by omega) (fun s' hs' => by cases hs'; omega)]
      rw [List.drop_eq_nil_of_le (as := (hexes a).take s) (by rw [List.length_take]; omega)]
      rfl
    · rw [if_neg (by simpa using h), ih (i + 1) (by omega) (by omega)]
      have h8 : i < 8 := by omega
      have := hexes_get a i h8
      have hd : ((hexes a).take s).drop i = showNat 16 (a.toChunks.getD i 0).toNat :: ((hexes a).take s).drop (i + 1) := by
        rw [List.drop_take, List.drop_take, this, show s - i = (s - (i + 1)) + 1 by omega, List.take_succ_cons]
      rw [hd]
      rfl

theorem toChunks_zero_iff (a : V6) : (a.topHalf = 0#64 ∧ a.bottomHalf = 0#64) ↔ chunkVals a = List.replicate 8 0 := by
  have h0 : chunkVals ⟨0#64, 0#64⟩ = List.replicate 8 0 := by decide +kernel
  constructor
  · intro h
    cases a
    simp only at h
    rw [h.1, h.2, h0]
  · intro h
    rw [← h0] at h
    rw [chunkVals_inj h]
    exact ⟨rfl, rfl⟩

theorem display_spec (a : V6) :
    ((∀ v ∈ chunkVals a, v ≠ 0) ∧ a.display = List.intercalate [':'] (hexes a)) ∨
    (∃ s l, FirstLongestZeroRun (chunkVals a) s l ∧
      a.display = List.intercalate [':'] ((hexes a).take s) ++ [':', ':'] ++ List.intercalate [':'] ((hexes a).drop (s + l))) := by
  by_cases h0 : a.topHalf = 0#64 ∧ a.bottomHalf = 0#64
  · right
    have hc := (toChunks_zero_iff a).mp h0
    refine ⟨0, 8, ⟨by decide, ?_, ?_⟩, ?_⟩
    · rw [hc]
      exact ⟨by simp, fun i _ hi => by rw [List.getElem?_replicate, if_pos (by omega)]⟩
    · intro s l _ hr
      have := hr.1
      rw [chunkVals_length] at this
      omega
    · rw [List.drop_eq_nil_of_le (by rw [hexes_length]; omega)]
      simp [display, h0]
  · simp only [display, if_neg h0]
    rcases findRun_spec a with ⟨l, h1, h2⟩ | ⟨s, l, h1, h2⟩
    · left
      refine ⟨h2, ?_⟩
      rw [h1]
      dsimp only
      rw [buildStrings_after a none l 8 0 (by omega) (by simp), List.drop_zero, joinWith_eq]
    · right
      refine ⟨s, l, h2, ?_⟩
      rw [h1]
      dsimp only
      have hsl := h2.2.1.1
      rw [chunkVals_length] at hsl
      have hl := h2.1
      rw [buildStrings_run a s l 8 0 (by omega) hl hsl (by omega), List.drop_zero, joinWith_eq]
      by_cases hs : s = 0
      · subst hs
        rw [if_pos rfl]
        by_cases he : 0 + l = 8
        · exfalso
          apply h0
          rw [toChunks_zero_iff]
          apply List.ext_getElem?
          intro i
          rw [List.getElem?_replicate]
          split
          · exact h2.2.1.2 i (by omega) (by omega)
          · rw [List.getElem?_eq_none (by rw [chunkVals_length]; omega)]
        · rw [if_neg he]
          have hne : (hexes a).drop (0 + l) ≠ [] := by
            rw [Ne, List.drop_eq_nil_iff, hexes_length]; omega
          simp only [List.take_zero, List.nil_append, List.append_nil]
          rw [intercalate_append _ (by simp) hne]
          simp [List.intercalate_cons_cons]
      · rw [if_neg hs]
        have hne : (hexes a).take s ≠ [] := by
          rw [Ne, List.take_eq_nil_iff]
          intro h
          rcases h with h | h
          · exact hs h
          · have := hexes_length a; rw [h] at this; simp at this
        by_cases he : s + l = 8
        · rw [if_pos he]
          have hd : (hexes a).drop (s + l) = [] := List.drop_eq_nil_of_le (by rw [hexes_length]; omega)
          rw [hd]
          simp only [List.append_nil, List.append_assoc]
          rw [intercalate_append _ hne (by simp)]
          simp [List.intercalate_cons_cons]
        · rw [if_neg he]
          have hne2 : (hexes a).drop (s + l) ≠ [] := by
            rw [Ne, List.drop_eq_nil_iff, hexes_length]; omega
          simp only [List.append_nil, List.append_assoc]
          rw [intercalate_append _ hne (by simp), intercalate_append _ (by simp) hne2]
          simp

end V6
end Ripcalc
