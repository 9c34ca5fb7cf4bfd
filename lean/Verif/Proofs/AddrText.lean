import Verif.Proofs.Text
/-!
# Display and parsing of addresses
-/
namespace Ripcalc
open AddrSpec

/-! ## IPv4 -/
namespace V4

theorem parseUnsigned_byte (s : Str) (v : Nat) :
    (parseUnsigned 10 (2 ^ 32 - 1) s = .ok v ∧ ¬ v > 255) ↔ PlusNumeral 10 s v ∧ v ≤ 255 := by
  rw [parseUnsigned_iff (by decide) (by decide)]
  constructor
  · rintro ⟨⟨h, -⟩, h2⟩; exact ⟨h, by omega⟩
  · rintro ⟨h, h2⟩; exact ⟨⟨h, by omega⟩, by omega⟩

theorem parseLoop_cons (i : Nat) (c : Str) (rest : List Str) (acc r : BitVec 32) :
    parseLoop i (c :: rest) acc = .ok r ↔
      ∃ v, PlusNumeral 10 c v ∧ v ≤ 255 ∧ parseLoop (i + 1) rest (acc ||| (BitVec.ofNat 32 v <<< (24 - i * 8))) = .ok r := by
  rw [parseLoop]
  constructor
  · intro h
    split at h
    · cases h
    · split at h
      · cases h
      · rename_i v hv
        split at h
        · cases h
        · rename_i hle
          have := (parseUnsigned_byte c v).mp ⟨hv, hle⟩
          exact ⟨v, this.1, this.2, h⟩
  · rintro ⟨v, h1, h2, h3⟩
    have hne := h1.chars.1
    have := (parseUnsigned_byte c v).mpr ⟨h1, h2⟩
    have h0 : ¬ c.length = 0 := by simpa using hne
    simp only [if_neg h0, this.1, if_neg this.2, h3]

theorem quad_value {v0 v1 v2 v3 : Nat} (h0 : v0 ≤ 255) (h1 : v1 ≤ 255) (h2 : v2 ≤ 255) (h3 : v3 ≤ 255) :
    (0#32 ||| (BitVec.ofNat 32 v0 <<< 24) ||| (BitVec.ofNat 32 v1 <<< 16) ||| (BitVec.ofNat 32 v2 <<< 8) |||
      (BitVec.ofNat 32 v3 <<< 0)).toNat = bigEndian 256 [v0, v1, v2, v3] := by
  have hs := fromBytes_some [BitVec.ofNat 8 v0, BitVec.ofNat 8 v1, BitVec.ofNat 8 v2, BitVec.ofNat 8 v3] rfl
  have e : ∀ v, v ≤ 255 → (BitVec.ofNat 8 v).setWidth 32 = BitVec.ofNat 32 v := by
    intro v hv
    apply BitVec.eq_of_toNat_eq
    simp [BitVec.toNat_setWidth]
    omega
  have e2 : ∀ v, v ≤ 255 → (BitVec.ofNat 8 v).toNat = v := by
    intro v hv; simp; omega
  obtain ⟨a, ha, hv⟩ := hs
  simp only [fromBytes, Option.some.injEq, e v0 h0, e v1 h1, e v2 h2, e v3 h3] at ha
  simp only [List.map_cons, List.map_nil, e2 v0 h0, e2 v1 h1, e2 v2 h2, e2 v3 h3] at hv
  rw [← hv, ← ha, val_def, BitVec.zero_or]

theorem parse_iff (s : Str) (a : V4) :
    parse s = .ok a ↔ ∃ t0 t1 t2 t3 v0 v1 v2 v3, s = t0 ++ '.' :: t1 ++ '.' :: t2 ++ '.' :: t3 ∧
      (PlusNumeral 10 t0 v0 ∧ v0 ≤ 255) ∧ (PlusNumeral 10 t1 v1 ∧ v1 ≤ 255) ∧
      (PlusNumeral 10 t2 v2 ∧ v2 ≤ 255) ∧ (PlusNumeral 10 t3 v3 ∧ v3 ≤ 255) ∧ val a = bigEndian 256 [v0, v1, v2, v3] := by
  constructor
  · intro h
    simp only [parse] at h
    split at h
    · cases h
    · rename_i hl
      generalize hc : splitChar '.' s = chunks at h hl
      match chunks, hl with
      | [t0, t1, t2, t3], _ =>
        split at h
        · cases h
        · rename_i v hv
          cases h
          rw [parseLoop_cons] at hv; obtain ⟨v0, p0, l0, hv⟩ := hv
          rw [parseLoop_cons] at hv; obtain ⟨v1, p1, l1, hv⟩ := hv
          rw [parseLoop_cons] at hv; obtain ⟨v2, p2, l2, hv⟩ := hv
          rw [parseLoop_cons] at hv; obtain ⟨v3, p3, l3, hv⟩ := hv
          simp only [parseLoop, Except.ok.injEq] at hv
          refine ⟨t0, t1, t2, t3, v0, v1, v2, v3, ?_, ⟨p0, l0⟩, ⟨p1, l1⟩, ⟨p2, l2⟩, ⟨p3, l3⟩, ?_⟩
          · have := ((splitChar_eq_iff _ _ _).mp hc).2.2
            simpa [List.intercalate_cons_cons] using this
          · rw [val_def, ← hv, ← quad_value l0 l1 l2 l3]
      | [], h => simp at h
      | [_], h => simp at h
      | [_, _], h => simp at h
      | [_, _, _], h => simp at h
      | _ :: _ :: _ :: _ :: _ :: _, h => simp at h
  · rintro ⟨t0, t1, t2, t3, v0, v1, v2, v3, rfl, ⟨p0, l0⟩, ⟨p1, l1⟩, ⟨p2, l2⟩, ⟨p3, l3⟩, hv⟩
    have nd : ∀ {t v}, PlusNumeral 10 t v → '.' ∉ t := fun h => h.not_mem (by decide)
    have hs : splitChar '.' (t0 ++ '.' :: t1 ++ '.' :: t2 ++ '.' :: t3) = [t0, t1, t2, t3] := by
      rw [splitChar_eq_iff]
      refine ⟨by simp, ?_, by simp [List.intercalate_cons_cons]⟩
      intro p hp
      simp only [List.mem_cons, List.not_mem_nil, or_false] at hp
      rcases hp with rfl | rfl | rfl | rfl
      · exact nd p0
      · exact nd p1
      · exact nd p2
      · exact nd p3
    have hloop : parseLoop 0 [t0, t1, t2, t3] 0#32 = .ok a.addrValue := by
      refine (parseLoop_cons ..).mpr ⟨v0, p0, l0, (parseLoop_cons ..).mpr ⟨v1, p1, l1, (parseLoop_cons ..).mpr
        ⟨v2, p2, l2, (parseLoop_cons ..).mpr ⟨v3, p3, l3, ?_⟩⟩⟩⟩
      simp only [parseLoop, Except.ok.injEq]
      apply BitVec.eq_of_toNat_eq
      rw [val_def] at hv
      rw [hv, ← quad_value l0 l1 l2 l3]
    simp only [parse, hs, hloop]
    simp

theorem display_eq (a : V4) :
    ∃ b0 b1 b2 b3 : Byte, a.toBytes = [b0, b1, b2, b3] ∧ a.display = showNat 10 b0.toNat ++ '.' :: showNat 10 b1.toNat ++
      '.' :: showNat 10 b2.toNat ++ '.' :: showNat 10 b3.toNat := by
  refine ⟨_, _, _, _, rfl, ?_⟩
  simp [display, toBytes]

end V4

/-! ## IPv6 parsing -/
namespace V6

theorem parseGroup_iff (t : Str) (v : Nat) : parseUnsigned 16 (2 ^ 16 - 1) t = .ok v ↔ Group t v :=
  parseUnsigned_iff (by decide) (by decide) t v

theorem parseChunks_cons (actual : List Str) (i : Nat) (is : List Nat) (top bot : BitVec 64) (c : Str) (hc : actual[i]? = some c) :
    (∃ v, Group c v ∧ parseChunks actual (i :: is) top bot =
      if i < 4 then parseChunks actual is (top ||| (BitVec.ofNat 64 v <<< ((112 - i * 16) % 64))) bot
      else parseChunks actual is top (bot ||| (BitVec.ofNat 64 v <<< ((112 - i * 16) % 64)))) ∨
    ((∀ v, ¬ Group c v) ∧ ∃ e, parseChunks actual (i :: is) top bot = .ok (.error e)) := by
  rw [parseChunks]
  simp only [Exec.index, hc, Exec.ok_bind]
  cases hp : parseUnsigned 16 (2 ^ 16 - 1) c with
  | ok v => exact .inl ⟨v, (parseGroup_iff c v).mp hp, rfl⟩
  | error e =>
    refine .inr ⟨fun v hv => ?_, _, rfl⟩
    rw [(parseGroup_iff c v).mpr hv] at hp
    cases hp

theorem half_groups {v0 v1 v2 v3 : Nat} (h0 : v0 ≤ 65535) (h1 : v1 ≤ 65535) (h2 : v2 ≤ 65535) (h3 : v3 ≤ 65535) :
    (0#64 ||| (BitVec.ofNat 64 v0 <<< 48) ||| (BitVec.ofNat 64 v1 <<< 32) ||| (BitVec.ofNat 64 v2 <<< 16) |||
      (BitVec.ofNat 64 v3 <<< 0)).toNat = bigEndian 65536 [v0, v1, v2, v3] := by
  have hs := half_chunks (BitVec.ofNat 16 v0) (BitVec.ofNat 16 v1) (BitVec.ofNat 16 v2) (BitVec.ofNat 16 v3)
  have e : ∀ v, v ≤ 65535 → (BitVec.ofNat 16 v).setWidth 64 = BitVec.ofNat 64 v := by
    intro v hv
    apply BitVec.eq_of_toNat_eq
    simp [BitVec.toNat_setWidth]
    omega
  have e2 : ∀ v, v ≤ 65535 → (BitVec.ofNat 16 v).toNat = v := by
    intro v hv; simp; omega
  rw [e v0 h0, e v1 h1, e v2 h2, e v3 h3] at hs
  rw [BitVec.zero_or, hs]
  simp only [e2 v0 h0, e2 v1 h1, e2 v2 h2, e2 v3 h3]

theorem bigEndian_digit {b : Nat} {l : List Nat} (hl : ∀ d ∈ l, d < b) (i : Nat) (h : i < l.length) :
    bigEndian b l / b ^ (l.length - 1 - i) % b = l[i] := by
  have hb : 0 < b := by have := hl l[i] (List.getElem_mem h); omega
  have h1 : l = l.take i ++ ([l[i]] ++ l.drop (i + 1)) := by simp
  have h2 : bigEndian b (l.drop (i + 1)) < b ^ (l.length - 1 - i) := by
    have := bigEndian_lt (b := b) (l := l.drop (i + 1)) (fun d hd => hl d (List.mem_of_mem_drop hd))
    rwa [List.length_drop, show l.length - (i + 1) = l.length - 1 - i by omega] at this
  have h3 : bigEndian b l = (bigEndian b (l.take i) * b + l[i]) * b ^ (l.length - 1 - i) + bigEndian b (l.drop (i + 1)) := by
    conv => lhs; rw [h1]
    rw [← List.append_assoc, bigEndian_append, bigEndian_append, List.length_drop,
      show l.length - (i + 1) = l.length - 1 - i by omega]
    simp [bigEndian]
  rw [h3, Nat.mul_comm, Nat.mul_add_div (Nat.pow_pos hb), Nat.div_eq_of_lt h2, Nat.add_zero, Nat.mul_comm, Nat.mul_add_mod,
    Nat.mod_eq_of_lt (hl _ (List.getElem_mem h))]

theorem chunkOf_eq (a : V6) : (a.toChunks).map BitVec.toNat = chunkVals a := by
  have hl : (a.toChunks.map BitVec.toNat).length = 8 := rfl
  apply List.ext_getElem (by simp [chunkVals, toChunks_length])
  intro i h1 h2
  rw [hl] at h1
  have := bigEndian_digit (b := 65536) (l := a.toChunks.map BitVec.toNat)
    (by intro d hd; obtain ⟨c, -, rfl⟩ := List.mem_map.mp hd; exact c.isLt) i (by rw [hl]; exact h1)
  rw [← this, toChunks_val, hl]
  simp [chunkVals, chunkOf]

theorem chunkVals_inj {a b : V6} (h : chunkVals a = chunkVals b) : a = b := by
  rw [← chunkOf_eq, ← chunkOf_eq] at h
  have h1 := fromChunks_toChunks a
  have h2 := fromChunks_toChunks b
  rw [map_toNat_inj h] at h1
  rw [h1] at h2
  exact Option.some.inj h2

theorem chunkVals_length (a : V6) : (chunkVals a).length = 8 := by simp [chunkVals]

theorem chunkVals_lt (a : V6) : ∀ v ∈ chunkVals a, v < 65536 := by
  rw [← chunkOf_eq]
  intro v hv
  obtain ⟨c, -, rfl⟩ := List.mem_map.mp hv
  exact c.isLt

theorem val_eq_chunkVals (a : V6) : bigEndian 65536 (chunkVals a) = val a := by
  rw [← chunkOf_eq]; exact toChunks_val a

theorem chunkVals_eq_iff (a : V6) (vs : List Nat) (hl : vs.length = 8) (hv : ∀ v ∈ vs, v < 65536) :
    chunkVals a = vs ↔ val a = bigEndian 65536 vs := by
  rw [← val_eq_chunkVals]
  constructor
  · rintro rfl; rfl
  · intro h; exact bigEndian_inj (by rw [chunkVals_length, hl]) (chunkVals_lt a) hv h

/-- The final loop on eight groups. -/
theorem parseChunks_spec (l : List Str) (hl : l.length = 8) :
    (∃ vs a, Pointwise Group l vs ∧ parseChunks l (List.range 8) 0#64 0#64 = .ok (.ok a) ∧ chunkVals a = vs) ∨
    ((∃ t ∈ l, ∀ v, ¬ Group t v) ∧ ∃ e, parseChunks l (List.range 8) 0#64 0#64 = .ok (.error e)) := by
  match l, hl with
  | [t0, t1, t2, t3, t4, t5, t6, t7], _ =>
    rw [show List.range 8 = [0, 1, 2, 3, 4, 5, 6, 7] from rfl]
    rcases parseChunks_cons [t0, t1, t2, t3, t4, t5, t6, t7] 0 [1, 2, 3, 4, 5, 6, 7] 0#64 0#64 t0 rfl with
      ⟨v0, g0, e0⟩ | ⟨hn, he⟩
    rotate_left
    · exact .inr ⟨⟨t0, by simp, hn⟩, he⟩
    rw [if_pos (by decide)] at e0
    rw [e0]
    rcases parseChunks_cons [t0, t1, t2, t3, t4, t5, t6, t7] 1 [2, 3, 4, 5, 6, 7] _ _ t1 rfl with ⟨v1, g1, e1⟩ | ⟨hn, he⟩
    rotate_left
    · exact .inr ⟨⟨t1, by simp, hn⟩, he⟩
    rw [if_pos (by decide)] at e1
    rw [e1]
    rcases parseChunks_cons [t0, t1, t2, t3, t4, t5, t6, t7] 2 [3, 4, 5, 6, 7] _ _ t2 rfl with ⟨v2, g2, e2⟩ | ⟨hn, he⟩
    rotate_left
    · exact .inr ⟨⟨t2, by simp, hn⟩, he⟩
    rw [if_pos (by decide)] at e2
    rw [e2]
    rcases parseChunks_cons [t0, t1, t2, t3, t4, t5, t6, t7] 3 [4, 5, 6, 7] _ _ t3 rfl with ⟨v3, g3, e3⟩ | ⟨hn, he⟩
    rotate_left
    · exact .inr ⟨⟨t3, by simp, hn⟩, he⟩
    rw [if_pos (by decide)] at e3
    rw [e3]
    rcases parseChunks_cons [t0, t1, t2, t3, t4, t5, t6, t7] 4 [5, 6, 7] _ _ t4 rfl with ⟨v4, g4, e4⟩ | ⟨hn, he⟩
    rotate_left
    · exact .inr ⟨⟨t4, by simp, hn⟩, he⟩
    rw [if_neg (by decide)] at e4
    rw [e4]
    rcases parseChunks_cons [t0, t1, t2, t3, t4, t5, t6, t7] 5 [6, 7] _ _ t5 rfl with ⟨v5, g5, e5⟩ | ⟨hn, he⟩
    rotate_left
    · exact .inr ⟨⟨t5, by simp, hn⟩, he⟩
    rw [if_neg (by decide)] at e5
    rw [e5]
    rcases parseChunks_cons [t0, t1, t2, t3, t4, t5, t6, t7] 6 [7] _ _ t6 rfl with ⟨v6, g6, e6⟩ | ⟨hn, he⟩
    rotate_left
    · exact .inr ⟨⟨t6, by simp, hn⟩, he⟩
    rw [if_neg (by decide)] at e6
    rw [e6]
    rcases parseChunks_cons [t0, t1, t2, t3, t4, t5, t6, t7] 7 [] _ _ t7 rfl with ⟨v7, g7, e7⟩ | ⟨hn, he⟩
    rotate_left
    · exact .inr ⟨⟨t7, by simp, hn⟩, he⟩
    rw [if_neg (by decide)] at e7
    rw [e7]
    refine .inl ⟨[v0, v1, v2, v3, v4, v5, v6, v7], _, .cons g0 <| .cons g1 <| .cons g2 <| .cons g3 <| .cons g4 <| .cons g5 <|
      .cons g6 <| .cons g7 .nil, rfl, ?_⟩
    have bound : ∀ v ∈ [v0, v1, v2, v3, v4, v5, v6, v7], v < 65536 := by
      intro v hv
      simp only [List.mem_cons, List.not_mem_nil, or_false] at hv
      have := g0.2; have := g1.2; have := g2.2; have := g3.2; have := g4.2; have := g5.2; have := g6.2; have := g7.2
      rcases hv with rfl | rfl | rfl | rfl | rfl | rfl | rfl | rfl <;> omega
    rw [chunkVals_eq_iff _ _ rfl bound, val_def]
    have h1 := half_groups g0.2 g1.2 g2.2 g3.2
    have h2 := half_groups g4.2 g5.2 g6.2 g7.2
    have := bigEndian_append 65536 [v0, v1, v2, v3] [v4, v5, v6, v7]
    rw [show ∀ a b c d : Nat, [a, b, c, d].length = 4 from fun _ _ _ _ => rfl, pow65536_4, ← h1, ← h2] at this
    exact this.symm

end V6

theorem Pointwise.length {R : α → β → Prop} {l : List α} {l' : List β} (h : Pointwise R l l') : l.length = l'.length := by
  induction h with
  | nil => rfl
  | cons _ _ ih => simp [ih]

theorem Pointwise.append {R : α → β → Prop} {l m : List α} {l' m' : List β} (h : Pointwise R l l') (h2 : Pointwise R m m') :
    Pointwise R (l ++ m) (l' ++ m') := by
  induction h with
  | nil => exact h2
  | cons h1 _ ih => exact .cons h1 ih

theorem Pointwise.split {R : α → β → Prop} {l m : List α} {k : List β} (h : Pointwise R (l ++ m) k) :
    ∃ l' m', k = l' ++ m' ∧ Pointwise R l l' ∧ Pointwise R m m' := by
  induction l generalizing k with
  | nil => exact ⟨[], k, rfl, .nil, h⟩
  | cons a l ih =>
    cases h with
    | cons h1 h2 =>
      obtain ⟨l', m', rfl, h3, h4⟩ := ih h2
      exact ⟨_ :: l', m', rfl, .cons h1 h3, h4⟩

theorem Pointwise.mem {R : α → β → Prop} {l : List α} {l' : List β} (h : Pointwise R l l') : ∀ a ∈ l, ∃ b ∈ l', R a b := by
  induction h with
  | nil => simp
  | cons h1 _ ih =>
    intro x hx
    rcases List.mem_cons.mp hx with rfl | hx
    · exact ⟨_, by simp, h1⟩
    · obtain ⟨b, hb, hr⟩ := ih x hx
      exact ⟨b, by simp [hb], hr⟩

theorem Pointwise.unique {R : α → β → Prop} (hR : ∀ a b c, R a b → R a c → b = c) {l : List α} {k k' : List β}
    (h : Pointwise R l k) (h' : Pointwise R l k') : k = k' := by
  induction h generalizing k' with
  | nil => cases h'; rfl
  | cons h1 _ ih =>
    cases h' with
    | cons h1' h2' => rw [hR _ _ _ h1 h1', ih h2']

theorem Group.unique {t : Str} {v w : Nat} (h : Group t v) (h' : Group t w) : v = w := h.1.unique h'.1

theorem Group.ne_nil {t : Str} {v : Nat} (h : Group t v) : t ≠ [] := h.1.chars.1
theorem Group.no_colon {t : Str} {v : Nat} (h : Group t v) : ':' ∉ t := h.1.not_mem (by decide)

namespace V6

theorem group_zero_iff (v : Nat) : Group ['0'] v ↔ v = 0 := by
  have h0 : Group ['0'] 0 := ⟨.inl ⟨by simp, [0], .cons (.inl rfl) (by decide) .nil, rfl⟩, by decide⟩
  constructor
  · intro h; exact Group.unique h h0
  · rintro rfl; exact h0

theorem pointwise_zeros (n : Nat) (vs : List Nat) : Pointwise Group (List.replicate n ['0']) vs ↔ vs = List.replicate n 0 := by
  induction n generalizing vs with
  | zero =>
    constructor
    · intro h; cases h; rfl
    · rintro rfl; exact .nil
  | succ n ih =>
    rw [List.replicate_succ, List.replicate_succ]
    constructor
    · intro h
      cases h with
      | cons h1 h2 => rw [(group_zero_iff _).mp h1, (ih _).mp h2]
    · rintro rfl
      exact .cons ((group_zero_iff _).mpr rfl) ((ih _).mpr rfl)

theorem copyFront_spec (pre : List Str) (hpre : ∀ p ∈ pre, p ≠ []) (post fin rest : List Str) (h : pre.length ≤ rest.length) :
    copyFront fin.length (pre ++ [] :: post) (fin ++ rest) = .ok (fin ++ pre ++ rest.drop pre.length) := by
  induction pre generalizing fin rest with
  | nil => simp [copyFront]
  | cons p pre ih =>
    have hp : ¬ p.length = 0 := by simpa using hpre p (by simp)
    match rest, h with
    | r :: rest, h =>
      simp only [List.cons_append, copyFront, if_neg hp, Exec.setIndex]
      rw [if_pos (by simp)]
      simp only [Exec.ok_bind]
      have := ih (fun q hq => hpre q (by simp [hq])) (fin ++ [p]) rest (by simpa using h)
      simp only [List.length_append, List.length_cons, List.length_nil, Nat.zero_add] at this
      rw [show (fin ++ r :: rest).set fin.length p = fin ++ [p] ++ rest by simp, this]
      simp

theorem copyBack_spec (q : List Str) (hq : ∀ p ∈ q, p ≠ []) (more front back : List Str) (h : q.length ≤ front.length) :
    copyBack back.length (q ++ [] :: more) (front ++ back) =
      .ok (front.take (front.length - q.length) ++ q.reverse ++ back) := by
  induction q generalizing front back with
  | nil => simp [copyBack]
  | cons p q ih =>
    have hp : ¬ p.length = 0 := by simpa using hq p (by simp)
    have hne : front ≠ [] := by rintro rfl; simp at h
    have hf := List.dropLast_concat_getLast hne
    generalize hd : front.dropLast = f at hf
    generalize front.getLast hne = x at hf
    subst hf
    simp only [List.cons_append, copyBack, if_neg hp, Exec.setIndex]
    rw [if_pos (by simp; omega)]
    simp only [Exec.ok_bind]
    have := ih (fun y hy => hq y (by simp [hy])) f (p :: back) (by simpa using h)
    simp only [List.length_cons] at this
    rw [show (f ++ [x] ++ back).set ((f ++ [x] ++ back).length - back.length - 1) p = f ++ p :: back by
      rw [show (f ++ [x] ++ back).length - back.length - 1 = f.length by simp; omega]
      simp, this]
    simp [List.take_append]

theorem filter_empty_zero (l : List Str) : (l.filter (fun x => x.length == 0)).length = 0 ↔ ∀ p ∈ l, p ≠ [] := by
  rw [List.length_eq_zero_iff, List.filter_eq_nil_iff]
  simp

theorem filter_empty_one (l : List Str) (h : (l.filter (fun x => x.length == 0)).length = 1) :
    ∃ pre post, l = pre ++ [] :: post ∧ (∀ p ∈ pre, p ≠ []) ∧ ∀ p ∈ post, p ≠ [] := by
  induction l with
  | nil => simp at h
  | cons x l ih =>
    cases x with
    | nil =>
      refine ⟨[], l, rfl, by simp, ?_⟩
      rw [← filter_empty_zero]
      simpa using h
    | cons c x =>
      obtain ⟨pre, post, rfl, h1, h2⟩ := ih (by simpa using h)
      refine ⟨(c :: x) :: pre, post, rfl, ?_, h2⟩
      intro p hp
      rcases List.mem_cons.mp hp with rfl | hp
      · simp
      · exact h1 p hp

theorem completeColons_eq (s : Str) :
    (let addrStr := if s.head? = some ':' then '0' :: s else s
     if addrStr.getLast? = some ':' then addrStr ++ ['0'] else addrStr) = completeColons s := by
  simp only [completeColons]
  cases s with
  | nil => rfl
  | cons c cs =>
    by_cases h : c = ':'
    · subst h
      simp only [List.head?_cons, if_true, List.getLast?_cons_cons]
      split <;> simp
    · simp only [List.head?_cons, Option.some.injEq, if_neg h]
      split <;> simp

/-- What `parse` does with the pieces between colons. -/
theorem parse_eq (s : Str) : parse s =
    (let chunks := splitChar ':' (completeColons s)
     if chunks.length > 8 then .ok (.error (.incorrectChunkCount chunks.length 8))
     else
      let k := (chunks.filter (fun x => x.length == 0)).length
      if k > 1 then .ok (.error (.tooManyShorteningElements k 1))
      else if k = 0 then
        if chunks.length ≠ 8 then .ok (.error (.incorrectChunkCount chunks.length 8))
        else parseChunks chunks (List.range 8) 0#64 0#64
      else do
        let actual ← copyFront 0 chunks (List.replicate 8 ['0'])
        let actual ← copyBack 0 chunks.reverse actual
        parseChunks actual (List.range 8) 0#64 0#64) := by
  rw [← completeColons_eq]
  rfl

/-- The shortened case. -/
theorem parse_short {s : Str} {pre post : List Str} (hs : splitChar ':' (completeColons s) = pre ++ [] :: post)
    (h1 : ∀ p ∈ pre, p ≠ []) (h2 : ∀ p ∈ post, p ≠ []) (hl : pre.length + post.length ≤ 7) :
    parse s = parseChunks (pre ++ List.replicate (8 - pre.length - post.length) ['0'] ++ post) (List.range 8) 0#64 0#64 := by
  rw [parse_eq]
  have hk : ((pre ++ [] :: post).filter (fun x => x.length == 0)).length = 1 := by
    rw [List.filter_append, List.length_append, (filter_empty_zero pre).mpr h1]
    simp only [List.length_nil, beq_self_eq_true, List.filter_cons_of_pos, List.length_cons, (filter_empty_zero post).mpr h2]
  simp only [hs, hk]
  rw [if_neg (by simp; omega)]
  simp only [if_neg (by decide : ¬ 1 > 1), if_neg (by decide : ¬ 1 = 0)]
  have hf := copyFront_spec pre h1 post [] (List.replicate 8 ['0']) (by simp; omega)
  simp only [List.length_nil, List.nil_append] at hf
  rw [hf, List.drop_replicate]
  have hb := copyBack_spec post.reverse (by simpa using h2) pre.reverse (pre ++ List.replicate (8 - pre.length) ['0']) []
    (by simp; omega)
  simp only [List.length_nil, List.append_nil] at hb
  simp only [Exec.ok_bind, List.reverse_append, List.reverse_cons, List.append_assoc, List.singleton_append]
  rw [hb]
  simp only [Exec.ok_bind, List.reverse_reverse, List.length_append, List.length_replicate, List.length_reverse]
  rw [List.take_append, List.take_of_length_le (by omega), List.take_replicate,
    show min (pre.length + (8 - pre.length) - post.length - pre.length) (8 - pre.length) = 8 - pre.length - post.length by omega]
  simp

theorem parse_total (s : Str) : ∃ r, parse s = .ok r := by
  rw [parse_eq]
  dsimp only
  split
  · exact ⟨_, rfl⟩
  · rename_i hl
    split
    · exact ⟨_, rfl⟩
    · rename_i hk
      split
      · split
        · exact ⟨_, rfl⟩
        · rename_i h8
          rcases parseChunks_spec (splitChar ':' (completeColons s)) (by omega) with ⟨_, a, -, h, -⟩ | ⟨-, e, h⟩
          · exact ⟨_, h⟩
          · exact ⟨_, h⟩
      · rename_i h0
        obtain ⟨pre, post, hs, h1, h2⟩ := filter_empty_one (splitChar ':' (completeColons s)) (by omega)
        rw [hs] at hl
        simp only [List.length_append, List.length_cons] at hl
        have := parse_short hs h1 h2 (by omega)
        rw [parse_eq] at this
        simp only [if_neg (show ¬ (splitChar ':' (completeColons s)).length > 8 by rw [hs]; simp; omega), if_neg hk, if_neg h0] at this
        rw [this]
        rcases parseChunks_spec (pre ++ List.replicate (8 - pre.length - post.length) ['0'] ++ post) (by simp; omega) with
          ⟨_, a, -, h, -⟩ | ⟨-, e, h⟩
        · exact ⟨_, h⟩
        · exact ⟨_, h⟩

theorem parseChunks_iff (l : List Str) (hl : l.length = 8) (a : V6) :
    parseChunks l (List.range 8) 0#64 0#64 = .ok (.ok a) ↔ Pointwise Group l (chunkVals a) := by
  rcases parseChunks_spec l hl with ⟨vs, b, h1, h2, h3⟩ | ⟨⟨t, ht, hn⟩, e, h⟩
  · rw [h2]
    constructor
    · intro h; cases h; rw [h3]; exact h1
    · intro h
      have e := Pointwise.unique (R := Group) (fun _ _ _ h h' => Group.unique h h') h1 h
      rw [← h3] at e
      rw [chunkVals_inj e]
  · rw [h]
    constructor
    · intro h; cases h
    · intro h
      obtain ⟨v, -, hv⟩ := Pointwise.mem h t ht
      exact absurd hv (hn v)

theorem parse_iff (s : Str) (a : V6) :
    parse s = .ok (.ok a) ↔
      (∃ gs, completeColons s = List.intercalate [':'] gs ∧ gs.length = 8 ∧ Pointwise Group gs (chunkVals a)) ∨
      (∃ pre post vs ws, completeColons s = List.intercalate [':'] (pre ++ [] :: post) ∧ pre.length + post.length ≤ 7 ∧
        Pointwise Group pre vs ∧ Pointwise Group post ws ∧
        chunkVals a = vs ++ List.replicate (8 - pre.length - post.length) 0 ++ ws) := by
  constructor
  · intro h
    generalize hc : splitChar ':' (completeColons s) = chunks
    have hj := ((splitChar_eq_iff _ _ _).mp hc).2.2
    have hp := parse_eq s
    rw [h] at hp
    simp only [hc] at hp
    split at hp
    · cases hp
    rename_i hl
    split at hp
    · cases hp
    rename_i hk
    split at hp
    · split at hp
      · cases hp
      · rename_i h8
        have h8 : chunks.length = 8 := by omega
        exact .inl ⟨chunks, hj, h8, (parseChunks_iff _ h8 a).mp hp.symm⟩
    · rename_i h0
      obtain ⟨pre, post, hs, h1, h2⟩ := filter_empty_one chunks (by omega)
      rw [hs] at hl
      simp only [List.length_append, List.length_cons] at hl
      rw [parse_short (hc.trans hs) h1 h2 (by omega), parseChunks_iff _ (by simp; omega)] at h
      obtain ⟨l', ws, e1, h3, h4⟩ := Pointwise.split h
      obtain ⟨vs, zs, e2, h5, h6⟩ := Pointwise.split h3
      rw [pointwise_zeros] at h6
      refine .inr ⟨pre, post, vs, ws, by rw [hj, hs], by omega, h5, h4, ?_⟩
      rw [e1, e2, h6]
  · rintro (⟨gs, hj, h8, hg⟩ | ⟨pre, post, vs, ws, hj, hl, hv, hw, hcv⟩)
    · have hne : ∀ p ∈ gs, p ≠ [] := fun p hp => (Pointwise.mem hg p hp).elim fun _ h => Group.ne_nil h.2
      have hnc : ∀ p ∈ gs, ':' ∉ p := fun p hp => (Pointwise.mem hg p hp).elim fun _ h => Group.no_colon h.2
      have hs : splitChar ':' (completeColons s) = gs :=
        (splitChar_eq_iff _ _ _).mpr ⟨by rintro rfl; simp at h8, hnc, hj⟩
      rw [parse_eq]
      simp only [hs, (filter_empty_zero gs).mpr hne, h8]
      simp
      rw [← parseChunks_iff gs h8] at hg
      exact hg
    · have hne1 : ∀ p ∈ pre, p ≠ [] := fun p hp => (Pointwise.mem hv p hp).elim fun _ h => Group.ne_nil h.2
      have hnc1 : ∀ p ∈ pre, ':' ∉ p := fun p hp => (Pointwise.mem hv p hp).elim fun _ h => Group.no_colon h.2
      have hne2 : ∀ p ∈ post, p ≠ [] := fun p hp => (Pointwise.mem hw p hp).elim fun _ h => Group.ne_nil h.2
      have hnc2 : ∀ p ∈ post, ':' ∉ p := fun p hp => (Pointwise.mem hw p hp).elim fun _ h => Group.no_colon h.2
      have hs : splitChar ':' (completeColons s) = pre ++ [] :: post := by
        refine (splitChar_eq_iff _ _ _).mpr ⟨by simp, ?_, hj⟩
        intro p hp
        rcases List.mem_append.mp hp with hp | hp
        · exact hnc1 p hp
        · rcases List.mem_cons.mp hp with rfl | hp
          · simp
          · exact hnc2 p hp
      rw [parse_short hs hne1 hne2 hl, parseChunks_iff _ (by simp; omega), hcv]
      exact (Pointwise.append (Pointwise.append hv ((pointwise_zeros _ _).mpr rfl)) hw)

end V6
end Ripcalc
