import Verif.Model.WordSize
import Verif.Spec.WordSize
import Verif.Proofs.Repro
import Verif.Proofs.Tidy

/-!
# C112: any word size

`usize` has 64 bits on most machines; on others the program does the same, and writes the same except for the wording of complaints
about numbers that do not fit the word.
-/
namespace Ripcalc
open AddrSpec LawfulIpAddr

/-! ## Numbers -/

theorem toDigit_ten (c : Char) : toDigit 10 c = if 48 ≤ c.toNat ∧ c.toNat ≤ 57 then some (c.toNat - 48) else none := by
  have e0 : '0'.toNat = 48 := rfl
  have e9 : '9'.toNat = 57 := rfl
  rw [toDigit]
  simp only [e0, e9]
  by_cases h : 48 ≤ c.toNat ∧ c.toNat ≤ 57
  · simp only [if_pos h]
    rw [if_pos (by omega)]
  · simp only [if_neg h]
    by_cases h2 : 'a'.toNat ≤ c.toNat ∧ c.toNat ≤ 'z'.toNat
    · simp only [if_pos h2]; rw [if_neg (by omega)]
    · simp only [if_neg h2]
      by_cases h3 : 'A'.toNat ≤ c.toNat ∧ c.toNat ≤ 'Z'.toNat
      · simp only [if_pos h3]; rw [if_neg (by omega)]
      · simp only [if_neg h3]

theorem digitsWorth_le (s : Str) : ∀ v, v ≤ digitsWorth v s := by
  induction s with
  | nil => intro v; exact Nat.le_refl v
  | cons c s ih =>
    intro v
    rw [digitsWorth]
    split
    · have := ih (10 * v + (c.toNat - 48)); omega
    · exact Nat.le_refl v

/-- Reading a number with a smaller greatest value. -/
def narrowed (max : Nat) (worth : Nat) : Except IntErr Nat → Except IntErr Nat
  | .ok p => if max < p then .error .posOverflow else .ok p
  | .error .invalidDigit => .error (if max < worth then .posOverflow else .invalidDigit)
  | .error e => .error e

theorem parseDigits_narrow {max max' : Nat} (hm : max ≤ max') (s : Str) : ∀ v, v ≤ max →
    parseDigits 10 max v s = narrowed max (digitsWorth v s) (parseDigits 10 max' v s) := by
  induction s with
  | nil => intro v hv; simp only [parseDigits, narrowed]; rw [if_neg (by omega)]
  | cons c s ih =>
    intro v hv
    simp only [parseDigits, digitsWorth, toDigit_ten]
    by_cases h : 48 ≤ c.toNat ∧ c.toNat ≤ 57
    · simp only [if_pos h]
      rw [Nat.mul_comm 10 v]
      by_cases h1 : v * 10 + (c.toNat - 48) ≤ max
      · rw [if_pos h1, if_pos (by omega), ih _ h1]
      · rw [if_neg h1]
        have hw := digitsWorth_le s (v * 10 + (c.toNat - 48))
        by_cases h2 : v * 10 + (c.toNat - 48) ≤ max'
        · rw [if_pos h2]
          have key : ∀ (s : Str) (w : Nat), max < w →
              narrowed max (digitsWorth w s) (parseDigits 10 max' w s) = .error .posOverflow := by
            intro s
            induction s with
            | nil => intro w hw; simp only [parseDigits, narrowed]; rw [if_pos hw]
            | cons d s ih2 =>
              intro w hw
              simp only [parseDigits, digitsWorth, toDigit_ten]
              by_cases hd : 48 ≤ d.toNat ∧ d.toNat ≤ 57
              · simp only [if_pos hd]
                rw [Nat.mul_comm 10 w]
                by_cases h3 : w * 10 + (d.toNat - 48) ≤ max'
                · rw [if_pos h3]; exact ih2 _ (by omega)
                · rw [if_neg h3]; rfl
              · simp only [if_neg hd, narrowed]; rw [if_pos hw]
          exact (key s _ (by omega)).symm
        · rw [if_neg h2]; rfl
    · simp only [if_neg h, narrowed]; rw [if_neg (by omega)]

theorem parseUsize_narrow {b b' : Nat} (h : b ≤ b') (s : Str) :
    parseUsizeOn b s = narrowed (2 ^ b - 1) (leadingNumber s) (parseUsizeOn b' s) := by
  have hm : 2 ^ b - 1 ≤ 2 ^ b' - 1 := Nat.sub_le_sub_right (Nat.pow_le_pow_right (by decide) h) 1
  unfold parseUsizeOn
  rw [parseUnsigned.eq_def, parseUnsigned.eq_def 10 (2 ^ b' - 1)]
  split
  · rfl
  · simp only [narrowed, leadingNumber, List.head?_cons, if_pos, List.drop_succ_cons, List.drop_zero, digitsWorth]
    rw [if_neg (by omega)]
  · next rest _ =>
    simp only [leadingNumber, List.head?_cons, if_pos, List.drop_succ_cons, List.drop_zero]
    exact parseDigits_narrow hm rest 0 (Nat.zero_le _)
  · next h1 h2 h3 =>
    rw [leadingNumber, if_neg]
    · exact parseDigits_narrow hm s 0 (Nat.zero_le _)
    · intro hh
      cases s with
      | nil => cases hh
      | cons c s =>
        cases hh
        exact h3 s rfl

/-- Digits are never refused as anything but too large. -/
theorem parseDigits_digits (max : Nat) (s : Str) (hs : ∀ c ∈ s, c ∈ ['0', '1', '2', '3', '4', '5', '6', '7', '8', '9']) : ∀ v,
    parseDigits 10 max v s ≠ .error .invalidDigit := by
  induction s with
  | nil => intro v h; cases h
  | cons c s ih =>
    intro v
    have hc : ∀ c ∈ ['0', '1', '2', '3', '4', '5', '6', '7', '8', '9'], 48 ≤ c.toNat ∧ c.toNat ≤ 57 := by decide
    simp only [parseDigits, toDigit_ten, if_pos (hc c (hs c List.mem_cons_self))]
    split
    · exact ih (fun c h => hs c (List.mem_cons_of_mem _ h)) _
    · intro h; cases h

theorem parseUsize_digits (bits : Nat) {l : Str} (hl : DigitText l) : parseUsizeOn bits l ≠ .error .invalidDigit := by
  unfold parseUsizeOn
  rw [parseUnsigned.eq_def]
  split
  · intro h; cases h
  · exact absurd List.mem_cons_self (hl.not_mem (c := '+') (by decide))
  · exact absurd List.mem_cons_self (hl.not_mem (c := '+') (by decide))
  · exact parseDigits_digits _ l hl.2 0

/-! ## Networks -/

/-- A result with the complaint reworded. -/
def rewordResult (bits : Nat) : Except NetspecErr α → Except NetspecErr α
  | .ok a => .ok a
  | .error e => .error (rewordNet bits e)

section
variable {b b' : Nat} (h8 : 8 ≤ b) (hb : b ≤ b')
include h8 hb

omit hb in
theorem two_pow_big : 128 < 2 ^ b := Nat.lt_of_lt_of_le (by decide) (Nat.pow_le_pow_right (by decide) h8 : 2 ^ 8 ≤ 2 ^ b)

theorem parseV4Cidr_narrow (a : Str) (w : Bool) {l : Str} (hl : DigitText l) :
    parseV4CidrOn b a w l = (parseV4CidrOn b' a w l >>= fun r => pure (rewordResult b r)) := by
  have hbig := two_pow_big h8
  rw [parseV4CidrOn, parseV4CidrOn]
  cases V4.parse a with
  | error e => rfl
  | ok x =>
    have hd := parseUsize_digits b' hl
    simp only [parseUsize_narrow hb l]
    cases hp : parseUsizeOn b' l with
    | error e => cases e <;> first | rfl | exact absurd hp hd
    | ok p =>
      simp only [narrowed]
      by_cases hlt : 2 ^ b - 1 < p
      · rw [if_pos hlt, if_pos (by omega)]
        simp only [Exec.pure_eq, Exec.ok_bind, rewordResult, rewordNet]
        rw [if_pos (by omega)]
      · rw [if_neg hlt]
        simp only []
        split
        · simp only [Exec.pure_eq, Exec.ok_bind, rewordResult, rewordNet]
          rw [if_neg (by omega)]
        · simp only [bind_assoc]; rfl

theorem parseV6Cidr_narrow (a : Str) (w : Bool) {l : Str} (hl : DigitText l) :
    parseV6CidrOn b a w l = (parseV6CidrOn b' a w l >>= fun r => pure (rewordResult b r)) := by
  have hbig := two_pow_big h8
  rw [parseV6CidrOn, parseV6CidrOn, bind_assoc]
  congr 1
  funext r
  cases r with
  | error e => rfl
  | ok x =>
    have hd := parseUsize_digits b' hl
    simp only [parseUsize_narrow hb l]
    cases hp : parseUsizeOn b' l with
    | error e => cases e <;> first | rfl | exact absurd hp hd
    | ok p =>
      simp only [narrowed]
      by_cases hlt : 2 ^ b - 1 < p
      · rw [if_pos hlt, if_pos (by omega)]
        simp only [Exec.pure_eq, Exec.ok_bind, rewordResult, rewordNet]
        rw [if_pos (by omega)]
      · rw [if_neg hlt]
        simp only []
        split
        · simp only [Exec.pure_eq, Exec.ok_bind, rewordResult, rewordNet]
          rw [if_neg (by omega)]
        · simp only [bind_assoc]; rfl

theorem parseNetspec_narrow (s : Str) : parseNetspecOn b s = (parseNetspecOn b' s >>= fun r => pure (rewordResult b r)) := by
  rw [parseNetspecOn, parseNetspecOn]
  cases ipv4WithSubnet s with
  | some x =>
    obtain ⟨a, w, m⟩ := x
    simp only [Exec.pure_eq, Exec.ok_bind, parseV4Mask]
    cases V4.parse a with
    | error e => rfl
    | ok x => cases V4.parse m <;> rfl
  | none =>
    cases h4 : ipv4WithCidr s with
    | some x =>
      obtain ⟨a, w, m⟩ := x
      exact parseV4Cidr_narrow h8 hb a w ((ipv4WithCidr_iff _ _ _ _).mp h4).2.2
    | none =>
      cases ipv6WithSubnet s with
      | some x =>
        obtain ⟨a, w, m⟩ := x
        simp only [parseV6Mask, bind_assoc]
        congr 1
        funext r
        cases r with
        | error e => rfl
        | ok x =>
          simp only [bind_assoc]
          congr 1
          funext r
          cases r <;> rfl
      | none =>
        cases h6 : ipv6WithCidr s with
        | some x =>
          obtain ⟨a, w, m⟩ := x
          exact parseV6Cidr_narrow h8 hb a w ((ipv6WithCidr_iff _ _ _ _).mp h6).2.2
        | none => rfl

theorem sameFamily4_narrow (ss : List Str) : ∀ acc,
    sameFamilyLoop4On b acc ss = (sameFamilyLoop4On b' acc ss >>= fun r => pure (rewordResult b r)) := by
  induction ss with
  | nil => intro acc; rfl
  | cons s ss ih =>
    intro acc
    simp only [sameFamilyLoop4On]
    rw [parseNetspec_narrow h8 hb s]
    simp only [bind_assoc, Exec.pure_eq, Exec.ok_bind]
    congr 1
    funext r
    rcases r with e | (⟨a, n⟩ | ⟨a, n⟩)
    · rfl
    · exact ih _
    · rfl

theorem sameFamily6_narrow (ss : List Str) : ∀ acc,
    sameFamilyLoop6On b acc ss = (sameFamilyLoop6On b' acc ss >>= fun r => pure (rewordResult b r)) := by
  induction ss with
  | nil => intro acc; rfl
  | cons s ss ih =>
    intro acc
    simp only [sameFamilyLoop6On]
    rw [parseNetspec_narrow h8 hb s]
    simp only [bind_assoc, Exec.pure_eq, Exec.ok_bind]
    congr 1
    funext r
    rcases r with e | (⟨a, n⟩ | ⟨a, n⟩)
    · rfl
    · rfl
    · exact ih _

theorem sameFamily_narrow (ss : List Str) :
    parseSameFamilyNetspecsOn b ss = (parseSameFamilyNetspecsOn b' ss >>= fun r => pure (rewordResult b r)) := by
  cases ss with
  | nil => rfl
  | cons s ss =>
    simp only [parseSameFamilyNetspecsOn]
    rw [parseNetspec_narrow h8 hb s]
    simp only [bind_assoc, Exec.pure_eq, Exec.ok_bind]
    congr 1
    funext r
    rcases r with e | (⟨a, n⟩ | ⟨a, n⟩)
    · rfl
    · exact sameFamily4_narrow h8 hb ss _
    · exact sameFamily6_narrow h8 hb ss _

theorem showParse_narrow (ss : List Str) : showParseLoopOn b ss = (showParseLoopOn b' ss >>= fun r => pure (rewordResult b r)) := by
  induction ss with
  | nil => rfl
  | cons s ss ih =>
    simp only [showParseLoopOn]
    rw [parseNetspec_narrow h8 hb s, ih]
    simp only [bind_assoc, Exec.pure_eq, Exec.ok_bind]
    congr 1
    funext r
    rcases r with e | x
    · rfl
    · simp only [rewordResult, bind_assoc]
      congr 1
      funext r
      cases r <;> rfl

/-- The target of a resize, with the complaint reworded. -/
theorem resizeMask4_narrow (args : List Str) : resizeMask4On b (args.getD 3 []) =
    (resizeMask4On b' (args.getD 3 []) >>= fun r => pure (r.mapError (reword b args))) := by
  have hbig := two_pow_big h8
  generalize hs : args.getD 3 [] = s
  rw [resizeMask4On, resizeMask4On, parseSubnetOn, parseSubnetOn]
  split
  · simp only [bind_assoc]
    congr 1
    funext r
    cases r <;> rfl
  · split
    · cases V4.parse s <;> rfl
    · rw [parseUsize_narrow hb s]
      cases parseUsizeOn b' s with
      | error e =>
        cases e with
        | invalidDigit =>
          simp only [narrowed, Exec.pure_eq, Exec.ok_bind, Except.mapError, reword]
          by_cases h : 2 ^ b - 1 < leadingNumber s
          · rw [if_pos h, if_pos (by omega)]
          · rw [if_neg h, if_neg (by omega)]
        | _ => rfl
      | ok p =>
        simp only [narrowed]
        by_cases hlt : 2 ^ b - 1 < p
        · rw [if_pos hlt]
          simp only [Exec.pure_eq, Exec.ok_bind]
          rw [if_pos (by omega)]
          simp only [Exec.ok_bind, Except.mapError, reword]
          rw [if_pos (by omega), hs]
        · rw [if_neg hlt]
          simp only [Exec.pure_eq, Exec.ok_bind]
          split
          · simp only [Exec.ok_bind, Except.mapError, reword]
            rw [if_neg (by omega)]
          · simp only [bind_assoc]; rfl

theorem resizeMask6_narrow (args : List Str) : resizeMask6On b (args.getD 3 []) =
    (resizeMask6On b' (args.getD 3 []) >>= fun r => pure (r.mapError (reword b args))) := by
  have hbig := two_pow_big h8
  generalize hs : args.getD 3 [] = s
  rw [resizeMask6On, resizeMask6On, parseSubnetOn, parseSubnetOn]
  split
  · simp only [bind_assoc]
    congr 1
    funext r
    cases r <;> rfl
  · split
    · cases V4.parse s <;> rfl
    · rw [parseUsize_narrow hb s]
      cases parseUsizeOn b' s with
      | error e =>
        cases e with
        | invalidDigit =>
          simp only [narrowed, Exec.pure_eq, Exec.ok_bind, Except.mapError, reword]
          by_cases h : 2 ^ b - 1 < leadingNumber s
          · rw [if_pos h, if_pos (by omega)]
          · rw [if_neg h, if_neg (by omega)]
        | _ => rfl
      | ok p =>
        simp only [narrowed]
        by_cases hlt : 2 ^ b - 1 < p
        · rw [if_pos hlt]
          simp only [Exec.pure_eq, Exec.ok_bind]
          rw [if_pos (by omega)]
          simp only [Exec.ok_bind, Except.mapError, reword]
          rw [if_pos (by omega), hs]
        · rw [if_neg hlt]
          simp only [Exec.pure_eq, Exec.ok_bind]
          split
          · simp only [Exec.ok_bind, Except.mapError, reword]
            rw [if_neg (by omega)]
          · simp only [bind_assoc]; rfl

end

/-! ## Ranges -/

/-- A loop whose rounds are those of another one unless that one overflows. -/
theorem loopM_unless {σ ρ : Type} {step step' : σ → Exec (σ ⊕ ρ)} (h : ∀ s, step s ≠ .panic .overflow → step' s = step s) (s : σ)
    (hd : loopM step s ≠ .diverge) (ho : loopM step s ≠ .panic .overflow) : loopM step' s = loopM step s := by
  have key := loopM.fixpoint_induct (ρ := ρ) (step := step)
    (motive := fun f => ∀ s, f s ≠ .diverge → f s ≠ .panic .overflow → loopM step' s = f s) ?_ ?_
  · exact key s hd ho
  · apply Lean.Order.admissible_pi_apply (fun s (x : Exec ρ) => x ≠ .diverge → x ≠ .panic .overflow → loopM step' s = x)
    intro s
    apply Lean.Order.admissible_flatOrder (b := (Exec.diverge : Exec ρ))
    intro h; exact absurd rfl h
  · intro f ih s hd ho
    dsimp only at hd ho ⊢
    have hs : step' s = step s := h s (fun e => ho (by rw [e]; rfl))
    rw [loopM, hs]
    cases hst : step s with
    | ok x =>
      rw [hst] at hd ho
      cases x with
      | inl s' => exact ih s' hd ho
      | inr r => rfl
    | panic p => rfl
    | diverge => rfl

section
variable {A : Type} [IpAddr A] [AddrSpec A] [LawfulIpAddr A] [ProfileFree A]

omit [AddrSpec A] [LawfulIpAddr A] in
theorem rangeStepOn_unless (bits : Nat) (last : A) (s : RangeState A) (h : rangeStep .checked last s ≠ .panic .overflow) :
    rangeStepOn bits .wrapping last s = rangeStep .checked last s := by
  rw [rangeStep] at h ⊢
  rw [rangeStepOn]
  split
  · next hle =>
    rw [if_pos hle] at h
    cases hp : Exec.unwrap s.current.cidrPrefix with
    | panic p => rfl
    | diverge => rfl
    | ok pfx =>
      rw [hp] at h
      simp only [Exec.ok_bind] at h ⊢
      have hs : usizeSubOn bits .wrapping pfx 1 = usizeSub .checked pfx 1 := by
        unfold usizeSub at h ⊢
        unfold usizeSubOn
        split
        · rfl
        · next h1 => rw [if_neg h1] at h; exact absurd rfl h
      simp only [hs, nextSubnet_profile .wrapping .checked]
  · rfl

omit [ProfileFree A] in
theorem rangeLoopOn_full (bits : Nat) (last : A) (hl : val last + 1 = 2 ^ width A) (s : RangeState A)
    (hs : val s.firstAddr = 0 ∧ ∃ p, s.current.cidrPrefix = some p) :
    loopM (rangeStepOn bits .wrapping last) s = .diverge := by
  refine loopM_diverge (fun s => val s.firstAddr = 0 ∧ ∃ p, s.current.cidrPrefix = some p) ?_ s hs
  rintro s ⟨h0, p, hc⟩
  rw [rangeStepOn, if_pos ((le_iff _ _).mpr (by omega))]
  have hus : ∃ q, usizeSubOn bits .wrapping p 1 = .ok q := by
    unfold usizeSubOn
    split
    · exact ⟨_, rfl⟩
    · exact ⟨_, rfl⟩
  obtain ⟨q, hq⟩ := hus
  obtain ⟨m, hm, hn⟩ := newWithPrefix_spec s.firstAddr q
  have hz : HostZero (⟨IpAddr.and s.firstAddr m, m, some q⟩ : Net A) := (newWithMask_wf s.firstAddr m).hz
  have hb : IpAddr.and s.firstAddr m = s.firstAddr := val_inj _ _ (by rw [val_and, h0, Nat.zero_and])
  obtain ⟨l, hl1, -⟩ := lastAddr_spec hz
  have hle : IpAddr.le l last = true := (le_iff _ _).mpr (by have := val_lt l; omega)
  simp only [hc, Exec.unwrap_some, Exec.ok_bind, hq, hn, hl1]
  refine ⟨⟨s.firstAddr, ⟨IpAddr.and s.firstAddr m, m, some q⟩, s.ret⟩, ?_, h0, q, rfl⟩
  simp only [hle, hb, ne_eq, not_true, if_false, Exec.pure_eq, Exec.ok_bind, Bool.not_true, Bool.false_eq_true]

/-- A range is converted in the same way whatever the word size. -/
theorem C112_range (bits : Nat) (pr : Profile) (a b : A) : rangeToSubnetsOn bits pr a b = rangeToSubnets pr a b := by
  cases pr with
  | checked => rfl
  | wrapping =>
    obtain ⟨c, hc1, hc2, -, -⟩ := cidr_of_addr (minAddr a b) (p := width A) (Nat.le_refl _)
    have hpos := Nat.two_pow_pos (width A)
    by_cases hfull : min (val a) (val b) = 0 ∧ max (val a) (val b) = 2 ^ width A - 1
    · rw [(C39_whole_space a b hfull.2 hfull.1).2, rangeToSubnetsOn]
      simp only [byteCount_mul, hc1, Exec.ok_bind]
      refine rangeLoopOn_full bits _ ?_ _ ⟨?_, _, hc2.2⟩
      · rw [val_maxAddr]; omega
      · rw [val_minAddr]; exact hfull.1
    · rw [range_any_profile .wrapping .checked a b (.inr hfull)]
      have hne : rangeToSubnets .checked a b ≠ .diverge ∧ rangeToSubnets .checked a b ≠ .panic .overflow := by
        by_cases ht : max (val a) (val b) = 2 ^ width A - 1
        · rw [C39_top_panics .checked a b ht (fun h0 => hfull ⟨h0, ht⟩)]
          exact ⟨(by intro h; cases h), by intro h; cases h⟩
        · obtain ⟨ns, hns⟩ := (C39_returns_iff .checked a b).mpr (by
            intro x hx e
            rw [between_iff] at hx
            have := val_lt a
            have := val_lt b
            omega)
          rw [hns]
          exact ⟨(by intro h; cases h), by intro h; cases h⟩
      rw [rangeToSubnetsOn]
      rw [rangeToSubnets] at hne ⊢
      simp only [byteCount_mul, hc1, Exec.ok_bind] at hne ⊢
      exact loopM_unless (fun s h => rangeStepOn_unless bits _ s h) _ hne.1 hne.2

end

theorem C112_range_families : (type_of% (@C112_range V4 _ _ _ _)) ∧ (type_of% (@C112_range V6 _ _ _ _)) :=
  ⟨@C112_range V4 _ _ _ _, @C112_range V6 _ _ _ _⟩

/-! ## The program -/

/-- The same end, and the same output up to the wording of complaints. -/
def Says (bits : Nat) (args : List Str) (x y : Cli α) : Prop := x.res = y.res ∧ x.out = y.out.map (rewordEvent bits args)

section
variable {bits : Nat} {args : List Str}

theorem says_tidy {x : Cli α} (h : Tidy x) : Says bits args x x := by
  refine ⟨rfl, ?_⟩
  rw [List.map_congr_left (g := id), List.map_id]
  intro e he
  have := h e he
  cases e with
  | out s => rfl
  | styled c s => rfl
  | err m => exact absurd this (fun h => h)

theorem Says.bind {x y : Cli α} {f g : α → Cli β} (h : Says bits args x y) (hf : ∀ a, Says bits args (f a) (g a)) :
    Says bits args (x >>= f) (y >>= g) := by
  obtain ⟨o, r⟩ := x
  obtain ⟨o', r'⟩ := y
  obtain ⟨h1, h2⟩ := h
  dsimp only at h1 h2
  subst h1 h2
  cases r with
  | ok a => exact ⟨(hf a).1, by simp [(hf a).2]⟩
  | panic p => exact ⟨rfl, rfl⟩
  | diverge => exact ⟨rfl, rfl⟩

theorem says_lift {x y : Exec α} {g : α → α} {f f' : α → Cli β} (h : x = (y >>= fun r => pure (g r)))
    (hf : ∀ a, Says bits args (f (g a)) (f' a)) : Says bits args ((liftM x : Cli α) >>= f) ((liftM y : Cli α) >>= f') := by
  subst h
  cases y with
  | ok a => exact hf a
  | panic p => exact ⟨rfl, rfl⟩
  | diverge => exact ⟨rfl, rfl⟩

theorem says_message (m : ErrMsg) (c : Nat) :
    Says bits args (Cli.eprint (reword bits args m) >>= fun _ => pure c) (Cli.eprint m >>= fun _ => pure c) := ⟨rfl, rfl⟩

theorem says_same (m : ErrMsg) (h : reword bits args m = m) {c : Nat} :
    Says bits args (Cli.eprint m >>= fun _ => pure c) (Cli.eprint m >>= fun _ => pure c) := by
  have := says_message (bits := bits) (args := args) m c
  rwa [h] at this

end

section
variable {b b' : Nat} (h8 : 8 ≤ b) (hb : b ≤ b') (rt : Runtime) (args : List Str)
include h8 hb

theorem show_says : Says b args (showNetOn b rt args) (showNetOn b' rt args) := by
  unfold showNetOn
  refine says_lift (showParse_narrow h8 hb _) fun r => ?_
  cases r with
  | error e => exact says_message (.showParse e) 1
  | ok specs => exact says_tidy (.bind (tidy_printLoop rt specs true) fun _ => tidy_pure 0)

theorem minimize_says : Says b args (minimizeOn b rt args) (minimizeOn b' rt args) := by
  unfold minimizeOn
  split
  · exact says_same _ rfl
  · refine says_lift (sameFamily_narrow h8 hb _) fun r => ?_
    rcases r with e | (_ | _ | l | l)
    · exact says_message (.minimizeParse e) 1
    · exact ⟨rfl, rfl⟩
    · exact says_same _ rfl
    · exact says_tidy (.bind_lift fun ns _ => .bind (tidy_printNets plain_display4 ns) fun _ => tidy_pure 0)
    · exact says_tidy (.bind_lift fun ns _ => .bind (tidy_printNets plain_display6 ns) fun _ => tidy_pure 0)

omit h8 hb in
theorem derange_any : derangeOn b rt args = derange rt args := by
  unfold derangeOn derange
  simp only [C112_range]
  rfl

omit h8 hb in
theorem derange_says : Says b args (derange rt args) (derange rt args) := by
  unfold derange
  split
  · exact says_same _ rfl
  · refine says_lift (g := id) (bind_pure _).symm fun r => ?_
    cases r with
    | error e => exact says_same (.derangeFirst e) rfl
    | ok one =>
      refine says_lift (g := id) (bind_pure _).symm fun r => ?_
      cases r with
      | error e => exact says_same (.derangeSecond e) rfl
      | ok other =>
        simp only [id]
        split
        · exact says_same _ rfl
        · split
          · exact says_tidy (.bind_lift fun ns _ => .bind (tidy_printNets plain_display4 ns) fun _ => tidy_pure 0)
          · exact says_tidy (.bind_lift fun ns _ => .bind (tidy_printNets plain_display6 ns) fun _ => tidy_pure 0)
          · exact says_tidy (tidy_pure 0)

theorem resize_says : Says b args (resizeOn b rt args) (resizeOn b' rt args) := by
  unfold resizeOn
  split
  · exact says_same _ rfl
  · refine says_lift (parseNetspec_narrow h8 hb _) fun r => ?_
    rcases r with e | (⟨a, n⟩ | ⟨a, n⟩)
    · exact says_message (.resizeNet (args.getD 2 []) e) 1
    · refine says_lift (resizeMask4_narrow h8 hb args) fun r => ?_
      cases r with
      | error m => exact says_message m 1
      | ok m => exact says_tidy (.bind (tidy_resizeAndOutput rt n m (tidy_network4 rt)) fun _ => tidy_pure 0)
    · refine says_lift (resizeMask6_narrow h8 hb args) fun r => ?_
      cases r with
      | error m => exact says_message m 1
      | ok m => exact says_tidy (.bind (tidy_resizeAndOutput rt n m (tidy_network6 rt)) fun _ => tidy_pure 0)

omit h8 hb in
theorem outputSplitOn_any {A : Type} [IpAddr A] [AddrSpec A] [LawfulIpAddr A] [ProfileFree A] (n : Net A) (hcs : List Int)
    (o : Net A → Option A → Cli Unit) : outputSplitOn b rt n hcs o = outputSplit rt n hcs o := by
  unfold outputSplitOn outputSplit
  simp only [C112_range]
  rfl

theorem split_says : Says b args (splitOn b rt args) (splitOn b' rt args) := by
  unfold splitOn
  split
  · exact says_same _ rfl
  · split
    · next m hm =>
      refine says_same _ ?_
      have : m = .splitNegative ∨ ∃ s, m = .splitCount s := by
        generalize args.drop 3 = l at hm
        induction l with
        | nil => cases hm
        | cons s l ih =>
          rw [parseHostCounts] at hm
          split at hm
          · cases hm; exact .inr ⟨_, rfl⟩
          · split at hm
            · cases hm; exact .inl rfl
            · split at hm
              · next h => cases hm; exact ih h
              · cases hm
      rcases this with rfl | ⟨s, rfl⟩ <;> rfl
    · next hcs hm =>
      refine says_lift (parseNetspec_narrow h8 hb _) fun r => ?_
      rcases r with e | (⟨a, n⟩ | ⟨a, n⟩)
      · exact says_message (.splitNet (args.getD 2 []) e) 1
      · show Says b args (outputSplitOn b rt n hcs _) (outputSplitOn b' rt n hcs _)
        rw [outputSplitOn_any, outputSplitOn_any]
        exact says_tidy (tidy_outputSplit rt plain_display4 n hcs (tidy_network4 rt))
      · show Says b args (outputSplitOn b rt n hcs _) (outputSplitOn b' rt n hcs _)
        rw [outputSplitOn_any, outputSplitOn_any]
        exact says_tidy (tidy_outputSplit rt plain_display6 n hcs (tidy_network6 rt))

theorem enumerateLoop_says (ss : List Str) : ∀ ret, Says b args (enumerateLoopOn b rt ret ss) (enumerateLoopOn b' rt ret ss) := by
  induction ss with
  | nil => intro ret; exact ⟨rfl, rfl⟩
  | cons s ss ih =>
    intro ret
    simp only [enumerateLoopOn]
    refine says_lift (parseNetspec_narrow h8 hb _) fun r => ?_
    rcases r with e | (⟨a, n⟩ | ⟨a, n⟩)
    · exact Says.bind (x := Cli.eprint (reword b args (.enumerateNet s e))) (y := Cli.eprint (.enumerateNet s e)) ⟨rfl, rfl⟩ fun _ => ih 1
    · exact .bind (says_tidy (tidy_printNet plain_display4 _ n)) fun _ => ih ret
    · exact .bind (says_tidy (tidy_printNet plain_display6 _ n)) fun _ => ih ret

/-- On two machines the program ends alike and writes the same, except that complaints about numbers that do not fit the shorter word
are worded as there. -/
theorem C112_word_size : (doMainOn b rt args).res = (doMainOn b' rt args).res ∧
    (doMainOn b rt args).out = (doMainOn b' rt args).out.map (rewordEvent b args) := by
  show Says b args _ _
  unfold doMainOn
  split
  · exact says_same _ rfl
  · simp only []
    split
    · exact minimize_says h8 hb rt args
    · split
      · rw [derange_any, derange_any]
        exact derange_says rt args
      · split
        · exact split_says h8 hb rt args
        · split
          · exact resize_says h8 hb rt args
          · split
            · unfold enumerateOn
              split
              · exact says_same _ rfl
              · exact enumerateLoop_says h8 hb rt args _ 0
            · split
              · exact says_tidy (.bind (tidy_colorTest rt) fun _ => tidy_pure 0)
              · split
                · exact says_same _ rfl
                · exact show_says h8 hb rt args

end

/-- With 64 bits it is the program of the other theorems. -/
theorem C112_same_64 : doMainOn 64 = doMain := by
  funext rt args
  have hn : ∀ s, parseNetspecOn 64 s = parseNetspec s := fun _ => rfl
  have hshow : ∀ ss, showParseLoopOn 64 ss = showParseLoop ss := by
    intro ss
    induction ss with
    | nil => rfl
    | cons s ss ih => rw [showParseLoopOn, showParseLoop, hn, ih]; rfl
  have hl4 : ∀ ss acc, sameFamilyLoop4On 64 acc ss = sameFamilyLoop4 acc ss := by
    intro ss
    induction ss with
    | nil => intro acc; rfl
    | cons s ss ih => intro acc; simp only [sameFamilyLoop4On, sameFamilyLoop4, hn, ih]; rfl
  have hl6 : ∀ ss acc, sameFamilyLoop6On 64 acc ss = sameFamilyLoop6 acc ss := by
    intro ss
    induction ss with
    | nil => intro acc; rfl
    | cons s ss ih => intro acc; simp only [sameFamilyLoop6On, sameFamilyLoop6, hn, ih]; rfl
  have hs : ∀ ss, parseSameFamilyNetspecsOn 64 ss = parseSameFamilyNetspecs ss := by
    intro ss
    cases ss with
    | nil => rfl
    | cons s ss => simp only [parseSameFamilyNetspecsOn, parseSameFamilyNetspecs, hn, hl4, hl6]; rfl
  have he : ∀ ss ret, enumerateLoopOn 64 rt ret ss = enumerateLoop rt ret ss := by
    intro ss
    induction ss with
    | nil => intro ret; rfl
    | cons s ss ih => intro ret; simp only [enumerateLoopOn, enumerateLoop, hn, ih]; rfl
  have h1 : showNetOn 64 rt args = showNet rt args := by unfold showNetOn showNet; rw [hshow]; rfl
  have h2 : minimizeOn 64 rt args = minimize rt args := by unfold minimizeOn minimize; rw [hs]; rfl
  have h3 : enumerateOn 64 rt args = enumerate rt args := by unfold enumerateOn enumerate; rw [he]
  have h4 : splitOn 64 rt args = split rt args := by
    unfold splitOn split
    simp only [hn, outputSplitOn_any]
    rfl
  have h5 : resizeOn 64 rt args = resize rt args := rfl
  rw [doMainOn, doMain, h1, h2, h3, h4, h5, derange_any]

/-- Words of another size do show: for every longer word there is a network that only the message differs for. -/
theorem C112_differs {b b' : Nat} (h8 : 8 ≤ b) (hb : b < b') (rt : Runtime) (prog : Str) :
    doMainOn b rt [prog, "0.0.0.0/".toList ++ showNat 10 (2 ^ b)] = ⟨[.err (.showParse (.cidrParse .posOverflow))], .ok 1⟩ ∧
    doMainOn b' rt [prog, "0.0.0.0/".toList ++ showNat 10 (2 ^ b)] = ⟨[.err (.showParse (.cidrRange (2 ^ b) 32))], .ok 1⟩ := by
  have hlong : doMainOn b' rt [prog, "0.0.0.0/".toList ++ showNat 10 (2 ^ b)] =
      ⟨[.err (.showParse (.cidrRange (2 ^ b) 32))], .ok 1⟩ := by
    have hd : DigitText (showNat 10 (2 ^ b)) := numeral_digitText (showNat_canonical (by decide) (by decide) _).1
    have ht : QuadText "0.0.0.0".toList :=
      ⟨['0'], ['0'], ['0'], ['0'], rfl, ⟨by decide, by decide⟩, ⟨by decide, by decide⟩, ⟨by decide, by decide⟩, ⟨by decide, by decide⟩⟩
    have hp : parseNetspecOn b' ("0.0.0.0/".toList ++ showNat 10 (2 ^ b)) = .ok (.error (.cidrRange (2 ^ b) 32)) := by
      have e : "0.0.0.0/".toList ++ showNat 10 (2 ^ b) = specText "0.0.0.0".toList false (showNat 10 (2 ^ b)) := by
        simp [specText]
      have h1 : ipv4WithSubnet (specText "0.0.0.0".toList false (showNat 10 (2 ^ b))) = none := by
        apply none_of
        rintro ⟨a, w', l'⟩ h
        obtain ⟨e, h1, h2⟩ := (ipv4WithSubnet_iff _ _ _ _).mp h
        obtain ⟨rfl, rfl, rfl⟩ := specText_inj e hd.no_slash h2.no_slash (digit_head hd) (quad_head h2)
        exact hd.no_dot h2.dot
      have h2 : V4.parse "0.0.0.0".toList = .ok ⟨0⟩ := by rfl
      have h3 : parseUsizeOn b' (showNat 10 (2 ^ b)) = .ok (2 ^ b) :=
        parseUnsigned_showNat (by decide) (by decide) (by
          have : 2 ^ b < 2 ^ b' := Nat.pow_lt_pow_right (by decide) hb
          omega)
      rw [e, parseNetspecOn, h1, (ipv4WithCidr_iff _ _ _ _).mpr ⟨rfl, ht, hd⟩]
      have := two_pow_big h8
      simp only [parseV4CidrOn, h2, h3]
      rw [if_pos (by omega)]
      rfl
    have hm : ∀ t : Str, t.head? = some '-' → "0.0.0.0/".toList ++ showNat 10 (2 ^ b) ≠ t := by
      rintro t ht rfl
      cases ht
    have h1 := hm _ (show "-m".toList.head? = some '-' from rfl)
    have h2 := hm _ (show "--minimize".toList.head? = some '-' from rfl)
    have h3 := hm _ (show "-d".toList.head? = some '-' from rfl)
    have h4 := hm _ (show "--derange".toList.head? = some '-' from rfl)
    have h5 := hm _ (show "-s".toList.head? = some '-' from rfl)
    have h6 := hm _ (show "--split".toList.head? = some '-' from rfl)
    have h7 := hm _ (show "-r".toList.head? = some '-' from rfl)
    have h8 := hm _ (show "--resize".toList.head? = some '-' from rfl)
    have h9 := hm _ (show "-e".toList.head? = some '-' from rfl)
    have h10 := hm _ (show "--enumerate".toList.head? = some '-' from rfl)
    have h11 := hm _ (show "--color-test".toList.head? = some '-' from rfl)
    have h12 := hm _ (show "--help".toList.head? = some '-' from rfl)
    unfold doMainOn
    rw [if_neg (by simp only [List.length_cons, List.length_nil]; omega)]
    dsimp only
    rw [List.getD_cons_succ, List.getD_cons_zero, if_neg (not_or.mpr ⟨h1, h2⟩),
      if_neg (not_or.mpr ⟨h3, h4⟩), if_neg (not_or.mpr ⟨h5, h6⟩), if_neg (not_or.mpr ⟨h7, h8⟩), if_neg (not_or.mpr ⟨h9, h10⟩), if_neg h11,
      if_neg h12, showNetOn]
    have hl : showParseLoopOn b' ([prog, "0.0.0.0/".toList ++ showNat 10 (2 ^ b)].drop 1) = .ok (.error (.cidrRange (2 ^ b) 32)) := by
      show showParseLoopOn b' ["0.0.0.0/".toList ++ showNat 10 (2 ^ b)] = _
      rw [showParseLoopOn, hp]
      rfl
    rw [hl]
    rfl
  refine ⟨?_, hlong⟩
  obtain ⟨h1, h2⟩ := C112_word_size h8 (Nat.le_of_lt hb) rt [prog, "0.0.0.0/".toList ++ showNat 10 (2 ^ b)]
  rw [hlong] at h1 h2
  simp only [List.map_cons, List.map_nil, rewordEvent, reword, rewordNet, Nat.le_refl, if_true] at h2
  generalize doMainOn b rt _ = x at h1 h2
  obtain ⟨o, r⟩ := x
  cases h1
  cases h2
  rfl

/-- Whatever the two word sizes: the same end, the same bytes for standard output and as many complaints. -/
theorem C112_stdout {b b' : Nat} (h8 : 8 ≤ b) (h8' : 8 ≤ b') (rt : Runtime) (args : List Str) :
    (doMainOn b rt args).res = (doMainOn b' rt args).res ∧
    stdoutText (doMainOn b rt args).out = stdoutText (doMainOn b' rt args).out ∧
    (messages (doMainOn b rt args).out).length = (messages (doMainOn b' rt args).out).length := by
  have htext : ∀ c evs, stdoutText (evs.map (rewordEvent c args)) = stdoutText evs := by
    intro c evs
    induction evs with
    | nil => rfl
    | cons e evs ih => cases e <;> simp only [List.map_cons, rewordEvent, stdoutText, ih]
  have hmsg : ∀ c evs, (messages (evs.map (rewordEvent c args))).length = (messages evs).length := by
    intro c evs
    induction evs with
    | nil => rfl
    | cons e evs ih =>
      cases e with
      | out s => exact ih
      | styled c s => exact ih
      | err m => exact congrArg (· + 1) ih
  rcases Nat.le_total b b' with h | h
  · obtain ⟨h1, h2⟩ := C112_word_size h8 h rt args
    exact ⟨h1, by rw [h2, htext], by rw [h2, hmsg]⟩
  · obtain ⟨h1, h2⟩ := C112_word_size h8' h rt args
    exact ⟨h1.symm, by rw [h2, htext], by rw [h2, hmsg]⟩

/-- 32 and 64 bits, both as in the theorem. -/
example : (doMainOn 32 (evalRuntime .checked true) ["ripcalc".toList, "-r".toList, "10.0.0.0/8".toList, "4294967296".toList]).out =
      [.err (.resizeSubnet "4294967296".toList (.cidrParse .posOverflow))] ∧
    (doMainOn 64 (evalRuntime .checked true) ["ripcalc".toList, "-r".toList, "10.0.0.0/8".toList, "4294967296".toList]).out =
      [.err (.resizeRangeV4 4294967296)] := by
  constructor <;> rfl

/-- An unreadable number: the digits before the letter are what counts. -/
example : (doMainOn 32 (evalRuntime .checked true) ["ripcalc".toList, "-r".toList, "10.0.0.0/8".toList, "4294967296x".toList]).out =
      [.err (.resizeSubnet "4294967296x".toList (.cidrParse .posOverflow))] ∧
    (doMainOn 64 (evalRuntime .checked true) ["ripcalc".toList, "-r".toList, "10.0.0.0/8".toList, "4294967296x".toList]).out =
      [.err (.resizeSubnet "4294967296x".toList (.cidrParse .invalidDigit))] := by
  constructor <;> rfl

/-- The whole IPv4 space, where the prefix is decreased below 0: without overflow checks the conversion never ends, with words of
any size. -/
example : rangeToSubnetsOn 32 .wrapping (⟨0⟩ : V4) ⟨4294967295⟩ = .diverge := by
  rw [C112_range]
  exact (C39_whole_space (⟨0⟩ : V4) ⟨4294967295⟩ rfl rfl).2

end Ripcalc
