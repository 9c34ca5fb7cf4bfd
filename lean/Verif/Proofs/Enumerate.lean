import Verif.Model.Enumerate
import Verif.Spec.Listing
import Verif.Proofs.Net
import Verif.Proofs.Loop
/-!
# Lemmas about enumeration
-/
set_option linter.unusedSectionVars false
namespace Ripcalc
open AddrSpec LawfulIpAddr
variable {A : Type} [IpAddr A] [AddrSpec A] [LawfulIpAddr A]

theorem unravel_wval (n : Net A) {a : A} {x h : Nat} (hx : x < 2 ^ netBits n) (hh : h < 2 ^ hostBits n) (ha : val a = wval n x h) :
    ∃ u : A, unravelAddress a n.subnetMask = .ok u ∧ val u = x * 2 ^ hostBits n + h := by
  obtain ⟨u, h1, h2⟩ := unravel_spec a n.subnetMask
  refine ⟨u, h1, ?_⟩
  have h3 : abits u = netPart n a ++ hostPart n a := h2
  have ha' : a = addrOf A (wval n x h) := by rw [← ha, addrOf_val]
  obtain ⟨p1, p2⟩ := parts_of_wval n (x := x) (h := h)
  rw [← ha'] at p1 p2
  rw [← ofBits_abits, h3, ofBits_append, p1, p2, ofBits_natBits_of_lt hx, ofBits_natBits_of_lt hh]
  simp

/-- Members in order. -/
noncomputable def memberList (n : Net A) : List A := (List.range (2 ^ hostBits n)).map (fun h => addrOf A (wval n (netNum n) h))

theorem memberList_length (n : Net A) : (memberList n).length = 2 ^ hostBits n := by simp [memberList]

theorem memberList_listing (n : Net A) : Listing n (memberList n) := by
  constructor
  · intro a
    rw [member_iff_wval, memberList, List.mem_map]
    constructor
    · rintro ⟨h, h1, rfl⟩
      exact ⟨h, List.mem_range.mp h1, val_addrOf (wval_lt n _ _)⟩
    · rintro ⟨h, h1, h2⟩
      exact ⟨h, List.mem_range.mpr h1, by rw [← h2, addrOf_val]⟩
  · rw [memberList, List.pairwise_map]
    apply List.Pairwise.imp_of_mem (R := (· < ·))
    · intro x y hx hy hlt
      rw [val_addrOf (wval_lt n _ _), val_addrOf (wval_lt n _ _),
        wval_lt_host n _ (List.mem_range.mp hx) (List.mem_range.mp hy)]
      exact hlt
    · exact List.pairwise_lt_range

theorem Listing.unique {n : Net A} {xs ys : List A} (h : Listing n xs) (h' : Listing n ys) : xs = ys := by
  have hm : ∀ a, a ∈ xs ↔ a ∈ ys := fun a => (h.1 a).trans (h'.1 a).symm
  have nd : ∀ {l : List A}, l.Pairwise (fun a b => val a < val b) → l.Nodup := fun hl =>
    hl.imp (fun hab e => by rw [e] at hab; exact Nat.lt_irrefl _ hab)
  have hp : xs.Perm ys := (List.perm_ext_iff_of_nodup (nd h.2) (nd h'.2)).mpr hm
  refine hp.eq_of_pairwise (le := fun a b => val a < val b) ?_ h.2 h'.2
  intro a b _ _ h1 h2
  exact absurd h1 (by omega)

/-- The state of the iterator after `k` items. -/
def IterAt (n : Net A) (k : Nat) (it : NetworkIter A) : Prop :=
  it.subnetMask = n.subnetMask ∧ val it.lastUnraveledAddr = netNum n * 2 ^ hostBits n + (2 ^ hostBits n - 1) ∧
  k ≤ 2 ^ hostBits n ∧
  ((it.isEmpty = false ∧ val it.unraveledAddr = netNum n * 2 ^ hostBits n + k) ∨ (it.isEmpty = true ∧ k = 2 ^ hostBits n))

theorem iter_new {n : Net A} (hz : HostZero n) : ∃ it, NetworkIter.new n = .ok it ∧ IterAt n 0 it := by
  have hpos := Nat.two_pow_pos (hostBits n)
  obtain ⟨u, hu, hu'⟩ := unravel_base hz
  obtain ⟨l, hl, hl'⟩ := lastAddr_spec hz
  obtain ⟨v, hv, hv'⟩ := unravel_wval n (netNum_lt n) (by omega) hl'
  refine ⟨_, by simp only [NetworkIter.new, hu, hl, hv, Exec.ok_bind]; rfl, rfl, hv', by omega, .inl ⟨rfl, by simpa using hu'⟩⟩

theorem iter_next (pr : Profile) {n : Net A} {k : Nat} {it : NetworkIter A} (h : IterAt n k it) :
    (k < 2 ^ hostBits n → ∃ it', it.next pr = .ok (some (addrOf A (wval n (netNum n) k)), it') ∧ IterAt n (k + 1) it') ∧
    (k = 2 ^ hostBits n → it.next pr = .ok (none, it)) := by
  have hpos := Nat.two_pow_pos (hostBits n)
  obtain ⟨hm, hl, hk, hs⟩ := h
  constructor
  · intro hlt
    rcases hs with ⟨he, hu⟩ | ⟨-, hk'⟩
    · have hle : IpAddr.le it.unraveledAddr it.lastUnraveledAddr = true := by rw [le_iff, hu, hl]; omega
      obtain ⟨v, hv, hv'⟩ := weave_val n hlt hu
      have hva : v = addrOf A (wval n (netNum n) k) := by rw [← hv', addrOf_val]
      obtain ⟨r, hr, hr'⟩ := addOffset_nonneg pr it.unraveledAddr 1 (by decide)
      have e : (1 : Int32).toInt = 1 := by decide
      rw [e, hu] at hr'
      have hr' : IsExact r ((netNum n * 2 ^ hostBits n + (k + 1) : Nat) : Int) := hr'.of_eq (by omega)
      rw [NetworkIter.next]
      simp only [he, hle, hm, hv, hr, Exec.ok_bind, Bool.not_true, Bool.false_eq_true, if_false]
      by_cases hov : netNum n * 2 ^ hostBits n + (k + 1) < 2 ^ width A
      · obtain ⟨a, rfl, ha⟩ := isExact_some hr' hov
        refine ⟨{ it with unraveledAddr := a }, by rw [hva, he, hm]; rfl, hm, hl, hlt, .inl ⟨he, ha⟩⟩
      · have := isExact_none hr' (by omega)
        subst this
        refine ⟨{ it with isEmpty := true }, by rw [hva, hm]; rfl, hm, hl, hlt, .inr ⟨rfl, ?_⟩⟩
        by_cases hk1 : k + 1 < 2 ^ hostBits n
        · exact absurd (unraveled_lt n (netNum_lt n) hk1) hov
        · omega
    · omega
  · intro hke
    rw [NetworkIter.next]
    rcases hs with ⟨he, hu⟩ | ⟨he, -⟩
    · have hle : IpAddr.le it.unraveledAddr it.lastUnraveledAddr = false := by
        rw [Bool.eq_false_iff, ne_eq, le_iff, hu, hl]; omega
      simp [he, hle]
    · simp [he]

/-- Calls `next` the given number of times and collects the answers. -/
def NetworkIter.nexts (pr : Profile) : Nat → NetworkIter A → Exec (List (Option A))
  | 0, _ => pure []
  | k + 1, it => do
    let (x, it') ← it.next pr
    let xs ← NetworkIter.nexts pr k it'
    pure (x :: xs)

theorem nexts_spec (pr : Profile) {n : Net A} (c : Nat) {k : Nat} {it : NetworkIter A} (h : IterAt n k it) :
    it.nexts pr c = .ok ((((memberList n).drop k).map some ++ List.replicate c none).take c) := by
  induction c generalizing k it with
  | zero => simp [NetworkIter.nexts]
  | succ c ih =>
    rcases Nat.lt_or_eq_of_le h.2.2.1 with hk | hk
    · obtain ⟨it', h1, h2⟩ := (iter_next pr h).1 hk
      have hd : (memberList n).drop k = addrOf A (wval n (netNum n) k) :: (memberList n).drop (k + 1) := by
        rw [List.drop_eq_getElem_cons (by rw [memberList_length]; exact hk)]
        congr 1
        simp [memberList]
      rw [NetworkIter.nexts, h1, Exec.ok_bind]
      simp only [ih h2, Exec.ok_bind, hd, List.map_cons, List.cons_append, List.take_succ_cons, Exec.pure_eq]
      congr 2
      rw [List.replicate_succ' (n := c), ← List.append_assoc]
      exact (List.take_append_of_le_length (by simp)).symm
    · have h1 := (iter_next pr h).2 hk
      have hd : (memberList n).drop k = [] := List.drop_eq_nil_of_le (by rw [memberList_length]; omega)
      rw [NetworkIter.nexts, h1, Exec.ok_bind]
      simp only [ih h, Exec.ok_bind, hd]
      simp [List.replicate_succ]

theorem enumerateNet_spec (pr : Profile) {n : Net A} (hz : HostZero n) : enumerateNet pr n = .ok (memberList n) := by
  obtain ⟨it, h1, h2⟩ := iter_new hz
  rw [enumerateNet, h1, Exec.ok_bind]
  apply loopM_spec (fun s : NetworkIter A × List A => ∃ k, IterAt n k s.1 ∧ s.2 = (memberList n).take k)
    (fun r => r = .ok (memberList n)) (fun s => (2 ^ hostBits n - s.2.length))
  · rintro ⟨it, acc⟩ ⟨k, hi, rfl⟩
    have hk := hi.2.2.1
    have hml := memberList_length n
    rcases Nat.lt_or_eq_of_le hk with hk' | hk'
    · obtain ⟨it', h1, h2⟩ := (iter_next pr hi).1 hk'
      simp only [enumStep, h1, Exec.ok_bind, Exec.pure_eq]
      refine ⟨⟨k + 1, h2, ?_⟩, by simp [hml]; omega⟩
      rw [List.take_succ_eq_append_getElem (by omega)]
      simp [memberList]
    · have h1 := (iter_next pr hi).2 hk'
      simp only [enumStep, h1, Exec.ok_bind, Exec.pure_eq]
      rw [List.take_of_length_le (by omega)]
  · exact ⟨0, h2, by simp⟩

/-- Printing while iterating: the same rounds as collecting, and a line for each address. -/
theorem print_rounds {pr : Profile} {s : NetworkIter A × List A} {k : Nat} {xs : List A} (h : Rounds (enumStep pr) s k xs) :
    ∀ evs, ∃ ys, xs = s.2 ++ ys ∧ Rounds (Cli.loopStep (printStep pr)) (s.1, evs) k
      (evs ++ ys.map (fun a => .out (IpAddr.display a ++ ['\n'])), .ok ()) := by
  induction h with
  | @last s r h =>
    intro evs
    rw [enumStep] at h
    cases hx : s.1.next pr with
    | panic p => rw [hx] at h; cases h
    | diverge => rw [hx] at h; cases h
    | ok v =>
      rw [hx] at h
      obtain ⟨o, it'⟩ := v
      cases o with
      | some a => cases h
      | none =>
        cases h
        refine ⟨[], by simp, .last ?_⟩
        simp only [Cli.loopStep, printStep, hx]; rfl
  | @again s s' k r h _ ih =>
    intro evs
    rw [enumStep] at h
    cases hx : s.1.next pr with
    | panic p => rw [hx] at h; cases h
    | diverge => rw [hx] at h; cases h
    | ok v =>
      rw [hx] at h
      obtain ⟨o, it'⟩ := v
      cases o with
      | none => cases h
      | some a =>
        cases h
        obtain ⟨ys, h1, h2⟩ := ih (evs ++ [.out (IpAddr.display a ++ ['\n'])])
        refine ⟨a :: ys, by simp [h1], .again (s' := (it', evs ++ [.out (IpAddr.display a ++ ['\n'])])) ?_ ?_⟩
        · simp only [Cli.loopStep, printStep, hx]; rfl
        · rw [List.append_assoc] at h2; exact h2

/-- Printing while iterating: the same addresses. -/
theorem printNet_eq {pr : Profile} {n : Net A} {xs : List A} (h : enumerateNet pr n = .ok xs) :
    printNet pr n = ⟨xs.map (fun a => .out (IpAddr.display a ++ ['\n'])), .ok ()⟩ := by
  rw [enumerateNet] at h
  cases hi : NetworkIter.new n with
  | panic p => rw [hi] at h; cases h
  | diverge => rw [hi] at h; cases h
  | ok it =>
    rw [hi, Exec.ok_bind] at h
    obtain ⟨k, hk⟩ := loopM_rounds h
    obtain ⟨ys, h1, h2⟩ := print_rounds hk []
    rw [List.nil_append] at h1
    subst h1
    rw [printNet, hi, Cli.lift_ok_bind, Cli.loop, rounds_loopM h2]
    rfl

end Ripcalc
