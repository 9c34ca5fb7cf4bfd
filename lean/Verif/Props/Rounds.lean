import Verif.Props.RangeSize
import Verif.Proofs.Loop
import Verif.Props.Compose
/-!
# Properties of the loops: how many rounds they take
-/
namespace Ripcalc
open AddrSpec LawfulIpAddr

/-! ## C91: the number of rounds -/

/-- A loop returns exactly if there is a last round, and then there is only one such number of rounds and one result. -/
theorem C91_loop {σ ρ : Type} (step : σ → Exec (σ ⊕ ρ)) (s : σ) (r : ρ) :
    (loopM step s = .ok r ↔ ∃ n, Rounds step s n r) ∧ ∀ n m r', Rounds step s n r → Rounds step s m r' → n = m ∧ r = r' := by
  refine ⟨⟨loopM_rounds, fun ⟨n, h⟩ => rounds_loopM h⟩, fun n m r' h => ?_⟩
  induction h generalizing m r' with
  | last h =>
    intro h'
    cases h' with
    | last h' => rw [h] at h'; cases h'; exact ⟨rfl, rfl⟩
    | again h' _ => rw [h] at h'; cases h'
  | again h _ ih =>
    intro h'
    cases h' with
    | last h' => rw [h] at h'; cases h'
    | again h' hr =>
      rw [h] at h'; cases h'
      obtain ⟨h1, h2⟩ := ih _ _ hr
      exact ⟨by rw [h1], h2⟩

/-- Counting: what grows by one in every round. -/
theorem rounds_count {σ ρ : Type} {step : σ → Exec (σ ⊕ ρ)} (Inv : σ → Prop) (Φ : σ → Nat) (Ψ : ρ → Nat)
    (hs : ∀ s s', Inv s → step s = .ok (.inl s') → Inv s' ∧ Φ s' = Φ s + 1) (hr : ∀ s r, Inv s → step s = .ok (.inr r) → Ψ r = Φ s)
    {s : σ} {n : Nat} {r : ρ} (h : Rounds step s n r) (hi : Inv s) : Φ s + n = Ψ r + 1 := by
  induction h with
  | last h => rw [hr _ _ hi h]
  | again h _ ih =>
    obtain ⟨h1, h2⟩ := hs _ _ hi h
    have := ih h1
    omega

section generic
variable {A : Type} [IpAddr A] [AddrSpec A] [LawfulIpAddr A]

theorem minimize_rounds {rt : Runtime} {s r : Nat × List (Net A)} {n : Nat} (h : Rounds (minimizeStep rt) s n r) (hw : AllWF s.2) (hn : s.2.Nodup) :
    r.1 = s.1 + n ∧ n + r.2.length ≤ s.2.length + 1 := by
  induction h with
  | @last s r h =>
    obtain ⟨q, h1, h2⟩ := minimizeStep_spec hw hn
    have h1 := h1 rt s.1 s.2 (.refl _)
    match q, h1, h2 with
    | none, h1, h2 => rw [h] at h1; cases h1; exact ⟨rfl, by show 1 + s.2.length ≤ _; omega⟩
    | some (a, b), h1, h2 => rw [h] at h1; cases h1
  | @again s s' n r h hr ih =>
    obtain ⟨q, h1, h2⟩ := minimizeStep_spec hw hn
    have h1 := h1 rt s.1 s.2 (.refl _)
    match q, h1, h2 with
    | none, h1, h2 => rw [h] at h1; cases h1
    | some (a, b), h1, ⟨ha, hb, i, hs⟩ =>
      rw [h] at h1
      cases h1
      obtain ⟨k1, k2⟩ := ih (wf_replaced a b hw) (nodup_replaced a b hn)
      have hl : (replaced s.2 a b).length < s.2.length := length_replaced hn ha hb hs
      have k1 : r.1 = s.1 + 1 + n := k1
      have k2 : n + r.2.length ≤ (replaced s.2 a b).length + 1 := k2
      exact ⟨by omega, by omega⟩

/-- Minimizing: every round but the last one leaves at least one network less; so there are at most as many rounds as networks, and
fewer if more than one is left. -/
theorem C91_minimize (rt : Runtime) (l out : List (Net A)) (hw : ∀ n ∈ l, WF n) (h : minimizeSubnets rt l = .ok out) :
    ∃ n S, Rounds (minimizeStep rt) (0, elimOuter (rt.sortUnstable netKeyLe l) (setOf (rt.sortUnstable netKeyLe l))) n (n, S) ∧
      out.Perm S ∧ n + out.length ≤ l.length + 1 := by
  have hrw : (loopM (minimizeStep rt) (0, eliminated rt l) >>= fun r => Exec.ok (rt.sortUnstable netKeyLe (rt.hashIter r.1 r.2))) = .ok out := h
  cases hl : loopM (minimizeStep rt) (0, eliminated rt l) with
  | panic p => rw [hl] at hrw; cases hrw
  | diverge => rw [hl] at hrw; cases hrw
  | ok r =>
    rw [hl] at hrw
    cases hrw
    obtain ⟨n, hn⟩ := loopM_rounds hl
    obtain ⟨h1, h2⟩ := minimize_rounds hn (fun n hn => hw n ((mem_eliminated rt hw n).mp hn).1) (nodup_eliminated rt l)
    have hlen := length_eliminated rt hw
    have hp := sorted_perm rt r.1 (.refl r.2)
    have h1 : r.1 = n := by simpa using h1
    have h2 : n + r.2.length ≤ (eliminated rt l).length + 1 := h2
    refine ⟨n, r.2, ?_, hp, by rw [hp.length_eq]; omega⟩
    rw [show (n, r.2) = r by rw [← h1]]
    exact hn

/-- The rounds that lead to networks with these prefixes. -/
def growth (A : Type) [AddrSpec A] (ps : List Nat) : Nat := (ps.map fun p => width A - p + 1).sum

/-- The invariant for counting. -/
structure RangeCount (last : A) (s : RangeState A) (ps : List Nat) (p : Nat) : Prop where
  cur : IsCidr p s.current
  base : s.current.baseAddr = s.firstAddr
  fit : val s.firstAddr ≤ val last → val s.firstAddr + 2 ^ (width A - p) ≤ val last + 1
  fresh : val last < val s.firstAddr → p = width A
  ret : Pointwise (fun o p => IsCidr p o) s.ret ps

theorem pointwise_snoc {α β : Type} {R : α → β → Prop} {as : List α} {bs : List β} {a : α} {b : β} (h : Pointwise R as bs) (hab : R a b) :
    Pointwise R (as ++ [a]) (bs ++ [b]) := by
  induction h with
  | nil => exact .cons hab .nil
  | cons h _ ih => exact .cons h ih

theorem range_round (pr : Profile) (last : A) (hl : val last + 1 < 2 ^ width A) (s : RangeState A) (ps : List Nat) (p : Nat)
    (h : RangeCount last s ps p) :
    (∃ s' ps' p', rangeStep pr last s = .ok (.inl s') ∧ RangeCount last s' ps' p' ∧
      growth A ps' + (width A - p') = growth A ps + (width A - p) + 1) ∨
    (rangeStep pr last s = .ok (.inr s.ret) ∧ p = width A) := by
  obtain ⟨hc, hb, hfit, hfresh, hret⟩ := h
  rw [rangeStep]
  by_cases hF : val s.firstAddr ≤ val last
  · rw [if_pos ((le_iff _ _).mpr hF)]
    have hfit := hfit hF
    have hpw := cidr_le hc
    have hp1 : 1 ≤ p := by
      rcases Nat.eq_zero_or_pos p with h0 | h0
      · subst h0
        rw [Nat.sub_zero] at hfit
        omega
      · exact h0
    obtain ⟨larger, hl1, hl2, hl3, hl4⟩ := range_beyond last s.firstAddr hpw hp1
    have hus : usizeSub pr p 1 = .ok (p - 1) := by unfold usizeSub; exact if_pos hp1
    simp only [hc.2, Exec.unwrap_some, Exec.ok_bind, hus, hl1, hl3]
    left
    by_cases hg : Greedy (val last) (width A - p) (val s.firstAddr)
    · rw [if_pos (decide_eq_true hg)]
      have hcn := cidr_next pr hc
      rw [hb] at hcn
      obtain ⟨b, hb1, hb2⟩ := hcn.2 (by omega)
      obtain ⟨c, hc1, hc2, hc3, hc4⟩ := cidr_of_addr b (p := width A) (Nat.le_refl _)
      simp only [hb1, Exec.ok_bind, Exec.unwrap_some, byteCount_mul, hc1, Exec.pure_eq]
      have hcb : c.baseAddr = b := hc4.mpr (by rw [Nat.sub_self]; exact Nat.one_dvd _)
      refine ⟨_, ps ++ [p], width A, rfl, ⟨hc2, hcb, fun h => ?_, fun _ => rfl, pointwise_snoc hret hc⟩, ?_⟩
      · rw [Nat.sub_self]; exact Nat.succ_le_succ h
      · simp only [growth, List.map_append, List.sum_append, List.map_cons, List.map_nil, List.sum_cons, List.sum_nil]
        omega
    · rw [if_neg (by simpa using hg)]
      have hg' : 2 ^ (width A - p + 1) ∣ val s.firstAddr ∧ val s.firstAddr + 2 ^ (width A - p + 1) ≤ val last + 1 :=
        Decidable.of_not_not hg
      refine ⟨_, ps, p - 1, rfl, ⟨hl2, hl4 hg, fun _ => ?_, fun h => absurd h (Nat.not_lt.mpr hF), hret⟩, by omega⟩
      rw [show width A - (p - 1) = width A - p + 1 by omega]
      exact hg'.2
  · rw [if_neg (by rw [le_iff]; exact hF)]
    exact .inr ⟨rfl, hfresh (by omega)⟩

theorem range_rounds (pr : Profile) (last : A) (hl : val last + 1 < 2 ^ width A) {s : RangeState A} {n : Nat} {out : List (Net A)}
    (h : Rounds (rangeStep pr last) s n out) : ∀ ps p, RangeCount last s ps p →
    ∃ qs, Pointwise (fun o p => IsCidr p o) out qs ∧ growth A ps + (width A - p) + n = growth A qs + 1 := by
  induction h with
  | @last s r h =>
    intro ps p hc
    rcases range_round pr last hl s ps p hc with ⟨s', ps', p', h1, h2, h3⟩ | ⟨h1, h2⟩
    · rw [h] at h1; cases h1
    · rw [h] at h1
      cases h1
      exact ⟨ps, hc.ret, by omega⟩
  | @again s s' n r h hr ih =>
    intro ps p hc
    rcases range_round pr last hl s ps p hc with ⟨s', ps', p', h1, h2, h3⟩ | ⟨h1, h2⟩
    · rw [h] at h1
      cases h1
      obtain ⟨qs, k1, k2⟩ := ih ps' p' h2
      exact ⟨qs, k1, by omega⟩
    · rw [h] at h1; cases h1

/-- The range loop: one round for each network found, one for each bit by which it was enlarged, and one to end. -/
theorem C91_range (pr : Profile) (a b : A) (out : List (Net A)) (h : rangeToSubnets pr a b = .ok out) :
    ∃ c ps, Net.newWithPrefix (minAddr a b) (IpAddr.byteCount (maxAddr a b) * 8) = .ok c ∧ Pointwise (fun o p => IsCidr p o) out ps ∧
      Rounds (rangeStep pr (maxAddr a b)) ⟨minAddr a b, c, []⟩ (growth A ps + 1) out := by
  obtain ⟨c, hc1, hc2, hc3, hc4⟩ := cidr_of_addr (minAddr a b) (p := width A) (Nat.le_refl _)
  have hc1' : Net.newWithPrefix (minAddr a b) (IpAddr.byteCount (maxAddr a b) * 8) = .ok c := by rw [byteCount_mul, hc1]
  have hmm := val_maxAddr a b
  have hlast : val (maxAddr a b) + 1 < 2 ^ width A := by
    have h1 := (C39_returns_iff pr a b).mp ⟨out, h⟩ (maxAddr a b) (by rw [between_iff]; omega)
    have := val_lt (maxAddr a b)
    omega
  rw [rangeToSubnets, hc1'] at h
  obtain ⟨n, hn⟩ := loopM_rounds h
  obtain ⟨qs, k1, k2⟩ := range_rounds pr (maxAddr a b) hlast hn [] (width A)
    ⟨hc2, hc4.mpr (by rw [Nat.sub_self]; exact Nat.one_dvd _), fun h => by rw [Nat.sub_self]; exact Nat.succ_le_succ h, fun _ => rfl, .nil⟩
  refine ⟨c, qs, hc1', k1, ?_⟩
  have : growth A ([] : List Nat) = 0 := rfl
  rw [show growth A qs + 1 = n by omega]
  exact hn

/-- So the range loop never runs longer than this, whatever the two addresses. -/
theorem C91_range_at_most (pr : Profile) (a b : A) (out : List (Net A)) (h : rangeToSubnets pr a b = .ok out) :
    ∃ c n, Net.newWithPrefix (minAddr a b) (IpAddr.byteCount (maxAddr a b) * 8) = .ok c ∧
      Rounds (rangeStep pr (maxAddr a b)) ⟨minAddr a b, c, []⟩ n out ∧ n ≤ out.length * (width A + 1) + 1 := by
  obtain ⟨c, ps, h1, h2, h3⟩ := C91_range pr a b out h
  refine ⟨c, _, h1, h3, ?_⟩
  have : growth A ps ≤ out.length * (width A + 1) := by
    clear h3 h
    induction h2 with
    | nil => exact Nat.zero_le _
    | @cons o p _ ps hd _ ih =>
      rw [List.length_cons, Nat.succ_mul, growth, List.map_cons, List.sum_cons]
      rw [growth] at ih
      omega
  omega

/-- Enlarging a network for a host count: one round for each bit, and one to end. -/
theorem C91_grow (c : Int) (cur : Net A) (p : Nat) (hc : IsCidr p cur) :
    ∃ m q, Rounds (growStep c) cur (p - q + 1) m ∧ IsCidr q m ∧ q ≤ p := by
  induction p generalizing cur with
  | zero =>
    refine ⟨cur, 0, .last ?_, hc, Nat.le_refl _⟩
    rw [growStep, hc.2]
    split <;> rfl
  | succ p ih =>
    by_cases hlt : cur.hostCount < c
    · obtain ⟨o, h1, h2, -, -⟩ := cidr_of_addr cur.baseAddr (show p ≤ width A by have := cidr_le hc; omega)
      obtain ⟨m, q, k1, k2, k3⟩ := ih o h2
      refine ⟨m, q, ?_, k2, by omega⟩
      rw [show p + 1 - q + 1 = p - q + 1 + 1 by omega]
      refine .again ?_ k1
      rw [growStep, if_pos hlt, hc.2]
      simp [h1]
    · refine ⟨cur, p + 1, ?_, hc, Nat.le_refl _⟩
      rw [Nat.sub_self]
      refine .last ?_
      rw [growStep, if_neg hlt]; rfl

/-- Enumerating: one round for each address, and one to end. -/
theorem C91_enumerate (pr : Profile) (n : Net A) (hn : WF n) :
    ∃ it xs, NetworkIter.new n = .ok it ∧ Rounds (enumStep pr) (it, []) (n.addressCount + 1) xs ∧ enumerateNet pr n = .ok xs := by
  obtain ⟨it, h1, h2⟩ := iter_new hn.hz
  obtain ⟨xs, h3, -, -, h4⟩ := C37_enumerate pr n hn
  have hl : loopM (enumStep pr) (it, []) = .ok xs := by
    rw [enumerateNet, h1] at h3; exact h3
  obtain ⟨k, hk⟩ := loopM_rounds hl
  have := rounds_count (fun _ => True) (fun s : NetworkIter A × List A => s.2.length) List.length
    (fun s s' _ hs => ?_) (fun s r _ hs => ?_) hk trivial
  · have he : n.addressCount + 1 = k := by
      have : 0 + k = xs.length + 1 := this
      omega
    exact ⟨it, xs, h1, he ▸ hk, h3⟩
  · rw [enumStep] at hs
    cases hx : s.1.next pr with
    | panic p => rw [hx] at hs; cases hs
    | diverge => rw [hx] at hs; cases hs
    | ok v =>
      rw [hx] at hs
      obtain ⟨o, it'⟩ := v
      cases o with
      | none => cases hs
      | some a => cases hs; exact ⟨trivial, by simp⟩
  · rw [enumStep] at hs
    cases hx : s.1.next pr with
    | panic p => rw [hx] at hs; cases hs
    | diverge => rw [hx] at hs; cases hs
    | ok v =>
      rw [hx] at hs
      obtain ⟨o, it'⟩ := v
      cases o with
      | none => cases hs; rfl
      | some a => cases hs

/-- The loop of the program, which prints: one round for each address, and one to end. -/
theorem C91_enumerate_print (pr : Profile) (n : Net A) (hn : WF n) :
    ∃ it evs, NetworkIter.new n = .ok it ∧ Rounds (Cli.loopStep (printStep pr)) (it, []) (n.addressCount + 1) (evs, .ok ()) ∧
      printNet pr n = ⟨evs, .ok ()⟩ ∧ (evs.length : Int) = n.addressCount := by
  obtain ⟨it, xs, h1, h2, h3⟩ := C91_enumerate pr n hn
  obtain ⟨xs', h4, -, -, h5⟩ := C37_enumerate pr n hn
  cases h3.symm.trans h4
  obtain ⟨ys, k1, k2⟩ := print_rounds h2 []
  rw [List.nil_append] at k1 k2
  subst k1
  exact ⟨it, _, h1, k2, printNet_eq h3, by rw [List.length_map]; omega⟩

omit [AddrSpec A] [LawfulIpAddr A] in
/-- The result of a step of resizing has one network more, or as many if it only ends the loop. -/
theorem resize_rounds {pr : Profile} {m l : A} {s : A × List (Net A)} {n : Nat} {out : List (Net A)} (h : Rounds (resizeStep pr m l) s n out) :
    s.2.length + n = out.length ∨ s.2.length + n = out.length + 1 := by
  have key : ∀ s v, resizeStep pr m l s = .ok v → (∀ s', v = .inl s' → s'.2.length = s.2.length + 1) ∧
      ∀ r, v = .inr r → r.length = s.2.length ∨ r.length = s.2.length + 1 := by
    intro s v hv
    rw [resizeStep] at hv
    split at hv
    · cases hw : weaveAddress s.1 m with
      | panic p => rw [hw] at hv; cases hv
      | diverge => rw [hw] at hv; cases hv
      | ok b =>
        rw [hw] at hv
        dsimp only [Exec.ok_bind] at hv
        cases hx : (Net.newWithMask b m).nextSubnetBaseAddr pr with
        | panic p => rw [hx] at hv; cases hv
        | diverge => rw [hx] at hv; cases hv
        | ok o =>
          rw [hx] at hv
          cases o with
          | none =>
            cases hv
            exact ⟨fun s' h => (by cases h), fun r h => (by cases h; right; simp)⟩
          | some nsba =>
            dsimp only [Exec.ok_bind] at hv
            cases hu : unravelAddress nsba (Net.newWithMask b m).subnetMask with
            | panic p => rw [hu] at hv; cases hv
            | diverge => rw [hu] at hv; cases hv
            | ok u =>
              rw [hu] at hv
              cases hv
              exact ⟨fun s' h => (by cases h; simp), fun r h => (by cases h)⟩
    · cases hv
      exact ⟨fun s' h => (by cases h), fun r h => (by cases h; left; rfl)⟩
  induction h with
  | last h =>
    rcases (key _ _ h).2 _ rfl with h | h
    · right; omega
    · left; omega
  | again h _ ih =>
    have := (key _ _ h).1 _ rfl
    omega

omit [AddrSpec A] [LawfulIpAddr A] in
/-- Dividing a network: one round for each piece, and perhaps one to end. -/
theorem C91_resize (pr : Profile) (n : Net A) (m : A) (out : List (Net A)) (h : resizeNetwork pr n m = .ok (out, .gt)) :
    ∃ u l k, unravelAddress n.baseAddr n.subnetMask = .ok u ∧ (n.lastAddrOfSubnet >>= fun a => unravelAddress a n.subnetMask) = .ok l ∧
      Rounds (resizeStep pr m l) (u, []) k out ∧ (k = out.length ∨ k = out.length + 1) := by
  rw [resizeNetwork] at h
  split at h
  · exfalso
    cases h1 : unravelAddress n.baseAddr n.subnetMask with
    | panic p => rw [h1] at h; cases h
    | diverge => rw [h1] at h; cases h
    | ok u =>
      rw [h1] at h
      dsimp only [Exec.ok_bind] at h
      cases h2 : Net.newWithPrefix u (IpAddr.countOnes m) with
      | panic p => rw [h2] at h; cases h
      | diverge => rw [h2] at h; cases h
      | ok v =>
        rw [h2] at h
        dsimp only [Exec.ok_bind] at h
        cases h3 : weaveAddress v.baseAddr m with
        | panic p => rw [h3] at h; cases h
        | diverge => rw [h3] at h; cases h
        | ok w => rw [h3] at h; cases h
  · split at h
    · exfalso
      cases h1 : unravelAddress n.baseAddr n.subnetMask with
      | panic p => rw [h1] at h; cases h
      | diverge => rw [h1] at h; cases h
      | ok u =>
        rw [h1] at h
        dsimp only [Exec.ok_bind] at h
        cases h3 : weaveAddress u m with
        | panic p => rw [h3] at h; cases h
        | diverge => rw [h3] at h; cases h
        | ok w => rw [h3] at h; cases h
    · cases h1 : unravelAddress n.baseAddr n.subnetMask with
      | panic p => rw [h1] at h; cases h
      | diverge => rw [h1] at h; cases h
      | ok u =>
        rw [h1] at h
        dsimp only [Exec.ok_bind] at h
        cases h2 : n.lastAddrOfSubnet with
        | panic p => rw [h2] at h; cases h
        | diverge => rw [h2] at h; cases h
        | ok a =>
          rw [h2] at h
          dsimp only [Exec.ok_bind] at h
          cases h3 : unravelAddress a n.subnetMask with
          | panic p => rw [h3] at h; cases h
          | diverge => rw [h3] at h; cases h
          | ok l =>
            rw [h3] at h
            dsimp only [Exec.ok_bind] at h
            cases h4 : loopM (resizeStep pr m l) (u, []) with
            | panic p => rw [h4] at h; cases h
            | diverge => rw [h4] at h; cases h
            | ok r =>
              rw [h4] at h
              cases h
              obtain ⟨k, hk⟩ := loopM_rounds h4
              have := resize_rounds hk
              simp only [List.length_nil, Nat.zero_add] at this
              exact ⟨u, l, k, rfl, h3, hk, this⟩

end generic

/-! ## Both families, with the bounds in numbers -/

theorem C91_minimize_families : (type_of% (@C91_minimize V4 _ _ _)) ∧ (type_of% (@C91_minimize V6 _ _ _)) :=
  ⟨@C91_minimize V4 _ _ _, @C91_minimize V6 _ _ _⟩

theorem C91_range_families : (type_of% (@C91_range V4 _ _ _)) ∧ (type_of% (@C91_range V6 _ _ _)) :=
  ⟨@C91_range V4 _ _ _, @C91_range V6 _ _ _⟩

/-- In numbers: at most 2047 rounds for IPv4, at most 32767 for IPv6. -/
theorem C91_range_numbers (pr : Profile) :
    (∀ (a b : V4) out, rangeToSubnets pr a b = .ok out →
      ∃ c n, Net.newWithPrefix (minAddr a b) 32 = .ok c ∧ Rounds (rangeStep pr (maxAddr a b)) ⟨minAddr a b, c, []⟩ n out ∧ n ≤ 2047) ∧
    (∀ (a b : V6) out, rangeToSubnets pr a b = .ok out →
      ∃ c n, Net.newWithPrefix (minAddr a b) 128 = .ok c ∧ Rounds (rangeStep pr (maxAddr a b)) ⟨minAddr a b, c, []⟩ n out ∧ n ≤ 32767) := by
  constructor <;> intro a b out h <;> obtain ⟨c, n, h1, h2, h3⟩ := C91_range_at_most pr a b out h
  · have := (C86_families pr).1 a b out h
    have hw : width V4 = 32 := rfl
    rw [hw] at h3
    exact ⟨c, n, h1, h2, by omega⟩
  · have := (C86_families pr).2.2.1 a b out h
    have hw : width V6 = 128 := rfl
    rw [hw] at h3
    exact ⟨c, n, h1, h2, by omega⟩

theorem C91_grow_families : (type_of% (@C91_grow V4 _ _ _)) ∧ (type_of% (@C91_grow V6 _ _ _)) :=
  ⟨@C91_grow V4 _ _ _, @C91_grow V6 _ _ _⟩

theorem C91_enumerate_families : (type_of% (@C91_enumerate V4 _ _ _)) ∧ (type_of% (@C91_enumerate V6 _ _ _)) :=
  ⟨@C91_enumerate V4 _ _ _, @C91_enumerate V6 _ _ _⟩

theorem C91_enumerate_print_families : (type_of% (@C91_enumerate_print V4 _ _ _)) ∧ (type_of% (@C91_enumerate_print V6 _ _ _)) :=
  ⟨@C91_enumerate_print V4 _ _ _, @C91_enumerate_print V6 _ _ _⟩

theorem C91_resize_families : (type_of% (@C91_resize V4 _)) ∧ (type_of% (@C91_resize V6 _)) :=
  ⟨@C91_resize V4 _, @C91_resize V6 _⟩

/-- 192.0.2.3 – 192.0.2.12 takes nine rounds: one for each /32, three for each /30 (32 → 31 → 30), and one to end. -/
example : growth V4 [32, 30, 30, 32] + 1 = 9 := by decide

/-- The rounds of an enumeration: 192.0.2.0/31 has two addresses and takes three rounds. -/
example : ∃ it xs, NetworkIter.new (mk4 0xC0000200#32 0xFFFFFFFE#32) = .ok it ∧ Rounds (enumStep .checked) (it, []) 3 xs := by
  obtain ⟨it, xs, h1, h2, -⟩ := C91_enumerate .checked (mk4 0xC0000200#32 0xFFFFFFFE#32) (newWithMask_wf _ _)
  have h : (mk4 0xC0000200#32 0xFFFFFFFE#32 : Net V4).addressCount + 1 = 3 := by decide
  exact ⟨it, xs, h1, h ▸ h2⟩

/-- A loop that ends in round two, and one that never does. -/
example : Rounds (fun n : Nat => .ok (if n = 0 then .inr n else .inl 0)) 5 2 0 ∧
    ¬ ∃ n r, Rounds (ρ := Nat) (fun k : Nat => .ok (.inl k)) 5 n r := by
  refine ⟨.again rfl (.last rfl), ?_⟩
  rintro ⟨n, r, h⟩
  have : ∀ k, ¬ Rounds (ρ := Nat) (fun k : Nat => .ok (.inl k)) k n r := by
    clear h
    intro k h
    induction h with
    | last h => cases h
    | again _ _ ih => exact ih
  exact this _ h

end Ripcalc
