import Verif.Model.Split
import Verif.Proofs.Derange
import Verif.Proofs.MinimizeSet
/-!
# `split_subnet`
-/
set_option linter.unusedSectionVars false
namespace Ripcalc
open AddrSpec LawfulIpAddr

/-- The number of host bits needed for `c` hosts. -/
def needBits (c : Int) : Nat := if c + 2 ≤ 1 then 0 else Nat.log2 (c + 1).toNat + 1

theorem needBits_le_iff (c : Int) (e : Nat) : needBits c ≤ e ↔ c + 2 ≤ 2 ^ e := by
  have hpos : (1 : Int) ≤ 2 ^ e := by have := Nat.two_pow_pos e; exact_mod_cast this
  rw [needBits]
  split
  · rename_i h
    exact ⟨fun _ => by omega, fun _ => Nat.zero_le _⟩
  · rename_i h
    have hn : (c + 1).toNat ≠ 0 := by omega
    rw [Nat.succ_le_iff, Nat.log2_lt hn]
    have e1 : ((c + 1).toNat : Int) = c + 1 := Int.toNat_of_nonneg (by omega)
    constructor
    · intro h1
      have h2 : ((c + 1).toNat : Int) < ((2 ^ e : Nat) : Int) := Int.ofNat_lt.mpr h1
      rw [e1] at h2
      have h3 : ((2 ^ e : Nat) : Int) = 2 ^ e := by norm_cast
      omega
    · intro h1
      apply Int.ofNat_lt.mp
      rw [e1]
      have h3 : ((2 ^ e : Nat) : Int) = 2 ^ e := by norm_cast
      omega

theorem needBits_spec (c : Int) : HostBitsFor c (needBits c) :=
  ⟨(needBits_le_iff c _).mp (Nat.le_refl _), fun e h => (needBits_le_iff c e).mpr h⟩

theorem hostBitsFor_iff (c : Int) (e : Nat) : HostBitsFor c e ↔ e = needBits c := by
  constructor
  · intro h
    have h1 := h.2 _ (needBits_spec c).1
    have h2 := (needBits_spec c).2 _ h.1
    omega
  · rintro rfl; exact needBits_spec c

theorem needBits_pos {c : Int} (hc : 0 ≤ c) : 1 ≤ needBits c := by
  rcases Nat.eq_zero_or_pos (needBits c) with h | h
  · have := (needBits_le_iff c 0).mp (by omega)
    omega
  · exact h

theorem needBits_mono {c d : Int} (h : c ≤ d) : needBits c ≤ needBits d := by
  rw [needBits_le_iff]
  have := (needBits_le_iff d _).mp (Nat.le_refl _)
  omega

section generic
variable {A : Type} [IpAddr A] [AddrSpec A] [LawfulIpAddr A]

theorem cidr_hostCount {n : Net A} {p : Nat} (hn : IsCidr p n) : n.hostCount = ((2 ^ (width A - p) : Nat) : Int) - 2 := by
  rw [Net.hostCount, addressCount_eq, (isCidr_netBits hn).2.1]

theorem grow_spec (c : Int) {cur : Net A} {p : Nat} (hc : IsCidr p cur) (hle : width A - p ≤ needBits c) :
    ∃ n q, loopM (growStep c) cur = .ok n ∧ IsCidr q n ∧ width A - q = min (width A) (needBits c) ∧ Member n cur.baseAddr := by
  have hstart : ∃ p, IsCidr p cur ∧ width A - p ≤ needBits c ∧ Member cur cur.baseAddr := ⟨p, hc, hle, base_member cur⟩
  have hmain := loopM_spec (step := growStep c)
    (fun s : Net A => ∃ p, IsCidr p s ∧ width A - p ≤ needBits c ∧ Member s cur.baseAddr)
    (fun r => ∃ n q, r = .ok n ∧ IsCidr q n ∧ width A - q = min (width A) (needBits c) ∧ Member n cur.baseAddr)
    (fun s => s.cidrPrefix.getD 0) ?_ cur hstart
  · exact hmain
  rintro s ⟨p, hs, hle, hm⟩
  have hp := cidr_le hs
  rw [growStep, cidr_hostCount hs]
  have hcast : ((2 ^ (width A - p) : Nat) : Int) = 2 ^ (width A - p) := by norm_cast
  by_cases hlt : ((2 ^ (width A - p) : Nat) : Int) - 2 < c
  · rw [if_pos hlt, hs.2, Exec.unwrap_some]
    have hneed : ¬ needBits c ≤ width A - p := by
      rw [needBits_le_iff, ← hcast]; omega
    by_cases h0 : p = 0
    · subst h0
      simp only [Exec.ok_bind, if_true]
      exact ⟨s, 0, rfl, hs, by omega, hm⟩
    · simp only [Exec.ok_bind, if_neg h0]
      obtain ⟨o, h1, h2, h3, -⟩ := cidr_of_addr s.baseAddr (show p - 1 ≤ width A by omega)
      simp only [h1, Exec.ok_bind]
      refine ⟨⟨p - 1, h2, by omega, ?_⟩, ?_⟩
      · exact cidr_subset hs h2 (by omega) (base_member s) ((cidr_inBlk h2 _).mpr h3) _ hm
      · show o.cidrPrefix.getD 0 < (some p).getD 0
        rw [h2.2]; show p - 1 < p; omega
  · rw [if_neg hlt]
    have hneed : needBits c ≤ width A - p := by
      rw [needBits_le_iff, ← hcast]; omega
    exact ⟨s, p, rfl, hs, by omega, hm⟩

/-- The requests can be allotted from `b` on. -/
def FitsFrom (w b : Nat) : List (Nat × Int) → Prop
  | [] => True
  | (_, c) :: rest =>
    needBits c < w ∧ b / 2 ^ needBits c * 2 ^ needBits c + 2 ^ needBits c < 2 ^ w ∧
      FitsFrom w (b / 2 ^ needBits c * 2 ^ needBits c + 2 ^ needBits c) rest

/-- The networks allotted from `b` on. -/
inductive Placed : Nat → List (Nat × Int) → List (Nat × Net A) → Prop
  | nil (b : Nat) : Placed b [] []
  | cons {b i q : Nat} {c : Int} {n : Net A} {rest : List (Nat × Int)} {ps : List (Nat × Net A)} :
    IsCidr q n → width A - q = needBits c → val n.baseAddr = b / 2 ^ needBits c * 2 ^ needBits c →
    Placed (val n.baseAddr + 2 ^ needBits c) rest ps → Placed b ((i, c) :: rest) ((i, n) :: ps)

theorem mapInsert_new {i : Nat} {n : β} {m : List (Nat × β)} (h : i ∉ m.map Prod.fst) : mapInsert i n m = m ++ [(i, n)] := by
  rw [mapInsert, List.filter_eq_self.mpr]
  intro x hx
  simp only [decide_eq_true_eq]
  intro e
  exact h (List.mem_map.mpr ⟨x, hx, e⟩)

theorem splitLoop_spec (pr : Profile) (reqs : List (Nat × Int)) : ∀ (cur : Net A) (m : List (Nat × Net A)),
    IsCidr (width A) cur → (reqs.map Prod.fst).Nodup → (∀ i ∈ reqs.map Prod.fst, i ∉ m.map Prod.fst) →
    (FitsFrom (width A) (val cur.baseAddr) reqs → ∃ ps, Placed (val cur.baseAddr) reqs ps ∧ splitLoop pr cur m reqs = .ok (some (m ++ ps))) ∧
    (¬ FitsFrom (width A) (val cur.baseAddr) reqs → splitLoop pr cur m reqs = .ok none) := by
  induction reqs with
  | nil =>
    intro cur m _ _ _
    refine ⟨fun _ => ⟨[], .nil _, by rw [splitLoop]; simp⟩, fun h => absurd trivial h⟩
  | cons r reqs ih =>
    obtain ⟨i, c⟩ := r
    intro cur m hc hnd hnew
    obtain ⟨n, q, h1, h2, h3, h4⟩ := grow_spec c hc (by omega)
    have hq := cidr_le h2
    have hwpos := width_pos (A := A)
    rw [splitLoop]
    simp only [h1, Exec.ok_bind, h2.2, Exec.unwrap_some]
    by_cases h0 : q = 0
    · simp only [if_pos h0]
      refine ⟨fun h => ?_, fun _ => rfl⟩
      obtain ⟨ha, -⟩ := h
      omega
    · simp only [if_neg h0]
      have hwq : width A - q = needBits c := by omega
      have hbw : needBits c < width A := by omega
      have hnb : val n.baseAddr = val cur.baseAddr / 2 ^ needBits c * 2 ^ needBits c := by
        rw [cidr_inBlk h2, hwq] at h4
        have hd := cidr_dvd h2
        rw [hwq] at hd
        rw [(inBlk_iff_div hd).mp h4, Nat.div_mul_cancel hd]
      obtain ⟨x1, x2⟩ := cidr_next pr h2
      rw [hwq] at x1 x2
      have hend := cidr_end h2
      rw [hwq] at hend
      have hi : i ∉ m.map Prod.fst := hnew i (by simp)
      rw [mapInsert_new hi]
      rcases Nat.lt_or_ge (val n.baseAddr + 2 ^ needBits c) (2 ^ width A) with hlt | hge
      · obtain ⟨b, hb1, hb2⟩ := x2 hlt
        simp only [hb1, Exec.ok_bind, byteCount_mul]
        obtain ⟨o, ho1, ho2, ho3, ho4⟩ := cidr_of_addr b (Nat.le_refl (width A))
        have hob : o.baseAddr = b := ho4.mpr (by rw [Nat.sub_self]; exact Nat.one_dvd _)
        simp only [ho1, Exec.ok_bind]
        have hnd' := (List.nodup_cons.mp (by simpa using hnd : (i :: reqs.map Prod.fst).Nodup))
        have hnew' : ∀ j ∈ reqs.map Prod.fst, j ∉ (m ++ [(i, n)]).map Prod.fst := by
          intro j hj
          rw [List.map_append, List.mem_append]
          rintro (h | h)
          · exact hnew j (by rw [List.map_cons]; exact List.mem_cons_of_mem _ hj) h
          · simp at h; subst h; exact hnd'.1 hj
        obtain ⟨y1, y2⟩ := ih o (m ++ [(i, n)]) ho2 hnd'.2 hnew'
        rw [hob, hb2] at y1 y2
        constructor
        · rintro ⟨-, -, hf⟩
          rw [← hnb] at hf
          obtain ⟨ps, hps, he⟩ := y1 hf
          exact ⟨(i, n) :: ps, .cons h2 hwq hnb hps, by rw [he]; simp⟩
        · intro hf
          apply y2
          intro hf'
          exact hf ⟨hbw, by rw [← hnb]; exact hlt, by rw [← hnb]; exact hf'⟩
      · simp only [x1 (by omega), Exec.ok_bind]
        refine ⟨fun h => ?_, fun _ => rfl⟩
        obtain ⟨-, hb, -⟩ := h
        rw [← hnb] at hb
        omega

theorem Placed.fst {b : Nat} {reqs : List (Nat × Int)} {ps : List (Nat × Net A)} (h : Placed b reqs ps) :
    ps.map Prod.fst = reqs.map Prod.fst := by
  induction h with
  | nil => rfl
  | cons _ _ _ _ ih => simp [ih]

/-- Each pair belongs to a request with the same index. -/
theorem Placed.mem {b : Nat} {reqs : List (Nat × Int)} {ps : List (Nat × Net A)} (h : Placed b reqs ps) :
    ∀ i n, (i, n) ∈ ps → ∃ c q, (i, c) ∈ reqs ∧ IsCidr q n ∧ width A - q = needBits c := by
  induction h with
  | nil => intro i n h; simp at h
  | @cons b i' q c n' rest ps h1 h2 h3 h4 ih =>
    intro i n hm
    rcases List.mem_cons.mp hm with e | hm
    · cases e; exact ⟨c, q, by simp, h1, h2⟩
    · obtain ⟨c, q, ha, hb⟩ := ih i n hm
      exact ⟨c, q, List.mem_cons_of_mem _ ha, hb⟩

/-- The total size of the requests. -/
def totalSize (reqs : List (Nat × Int)) : Nat := (reqs.map (fun r => 2 ^ needBits r.2)).sum

theorem totalSize_cons (i : Nat) (c : Int) (rest : List (Nat × Int)) :
    totalSize ((i, c) :: rest) = 2 ^ needBits c + totalSize rest := by simp [totalSize]

theorem aligned_self {b e : Nat} (h : 2 ^ e ∣ b) : b / 2 ^ e * 2 ^ e = b := Nat.div_mul_cancel h

/-- Descending requests from an aligned start leave no gap. -/
theorem Placed.tiles {b : Nat} {reqs : List (Nat × Int)} {ps : List (Nat × Net A)} (h : Placed b reqs ps)
    (hs : reqs.Pairwise (fun x y => y.2 ≤ x.2)) (ha : ∀ r, reqs.head? = some r → 2 ^ needBits r.2 ∣ b) :
    Tiles b (ps.map Prod.snd) (b + totalSize reqs) := by
  induction h with
  | nil b => exact .nil b
  | @cons b i q c n rest ps h1 h2 h3 h4 ih =>
    obtain ⟨hs1, hs2⟩ := List.pairwise_cons.mp hs
    have hb : val n.baseAddr = b := by rw [h3, aligned_self (ha _ rfl)]
    have hd : (2 : Nat) ^ needBits c ∣ val n.baseAddr + 2 ^ needBits c := by
      rw [hb]; exact (Nat.dvd_add_iff_left (Nat.dvd_refl _)).mp (ha _ rfl)
    have htile := ih hs2 (fun r hr => by
      have hmem : r ∈ rest := List.mem_of_mem_head? (by rw [hr]; rfl)
      exact Nat.dvd_trans (Nat.pow_dvd_pow 2 (needBits_mono (hs1 r hmem))) hd)
    rw [totalSize_cons, ← Nat.add_assoc, List.map_cons, ← hb]
    refine .cons h1 ?_
    rw [h2]
    exact htile

theorem fitsFrom_iff {w : Nat} (reqs : List (Nat × Int)) : ∀ b, reqs.Pairwise (fun x y => y.2 ≤ x.2) →
    (∀ r, reqs.head? = some r → 2 ^ needBits r.2 ∣ b) → b < 2 ^ w →
    (FitsFrom w b reqs ↔ b + totalSize reqs < 2 ^ w) := by
  induction reqs with
  | nil => intro b _ _ hb; simpa [FitsFrom, totalSize] using hb
  | cons r rest ih =>
    obtain ⟨i, c⟩ := r
    intro b hs ha hb
    obtain ⟨hs1, hs2⟩ := List.pairwise_cons.mp hs
    rw [FitsFrom, aligned_self (ha _ rfl), totalSize_cons, ← Nat.add_assoc]
    have hd : (2 : Nat) ^ needBits c ∣ b + 2 ^ needBits c := (Nat.dvd_add_iff_left (Nat.dvd_refl _)).mp (ha _ rfl)
    have ha' : ∀ r, rest.head? = some r → 2 ^ needBits r.2 ∣ b + 2 ^ needBits c := by
      intro r hr
      have hmem : r ∈ rest := List.mem_of_mem_head? (by rw [hr]; rfl)
      exact Nat.dvd_trans (Nat.pow_dvd_pow 2 (needBits_mono (hs1 r hmem))) hd
    constructor
    · rintro ⟨-, h2, h3⟩
      exact (ih _ hs2 ha' h2).mp h3
    · intro h
      have h2 : b + 2 ^ needBits c < 2 ^ w := by
        show b + 2 ^ needBits c < 2 ^ w
        exact Nat.lt_of_le_of_lt (Nat.le_add_right _ _) h
      refine ⟨(Nat.pow_lt_pow_iff_right (by decide : 1 < 2)).mp (by omega), h2, (ih _ hs2 ha' h2).mpr h⟩

/-- Where the first allotted network starts. -/
def startOf (b : Nat) : List (Nat × Int) → Nat
  | [] => b
  | (_, c) :: _ => b / 2 ^ needBits c * 2 ^ needBits c

theorem startOf_le (b : Nat) (reqs : List (Nat × Int)) : startOf b reqs ≤ b := by
  rcases reqs with _ | ⟨⟨i, c⟩, rest⟩
  · exact Nat.le_refl _
  · exact Nat.div_mul_le_self _ _

theorem startOf_dvd (b : Nat) (reqs : List (Nat × Int)) : ∀ r, reqs.head? = some r → 2 ^ needBits r.2 ∣ startOf b reqs := by
  rcases reqs with _ | ⟨⟨i, c⟩, rest⟩
  · intro r h; simp at h
  · intro r h
    simp at h; subst h
    exact Nat.dvd_mul_left _ _

theorem startOf_idem (b : Nat) (reqs : List (Nat × Int)) : startOf (startOf b reqs) reqs = startOf b reqs := by
  rcases reqs with _ | ⟨⟨i, c⟩, rest⟩
  · rfl
  · exact aligned_self (Nat.dvd_mul_left _ _)

theorem fitsFrom_start {w b : Nat} (reqs : List (Nat × Int)) : FitsFrom w b reqs ↔ FitsFrom w (startOf b reqs) reqs := by
  have h := startOf_idem b reqs
  rcases reqs with _ | ⟨⟨i, c⟩, rest⟩
  · exact Iff.rfl
  · have h' : startOf b ((i, c) :: rest) / 2 ^ needBits c * 2 ^ needBits c = startOf b ((i, c) :: rest) := h
    rw [FitsFrom, FitsFrom, h']; exact Iff.rfl

theorem Placed.start {b : Nat} {reqs : List (Nat × Int)} {ps : List (Nat × Net A)} (h : Placed b reqs ps) :
    Placed (startOf b reqs) reqs ps := by
  cases h with
  | nil => exact .nil _
  | @cons b i q c n rest ps h1 h2 h3 h4 =>
    refine .cons h1 h2 ?_ h4
    rw [h3]
    exact (aligned_self (Nat.dvd_mul_left _ _)).symm

/-- The requests with their indices. -/
def indexedReqs (hcs : List Int) : List (Nat × Int) := hcs.zipIdx.map (fun (num, i) => (i, num))

theorem indexedReqs_fst (hcs : List Int) : (indexedReqs hcs).map Prod.fst = List.range hcs.length := by
  rw [indexedReqs, List.map_map]
  have : (Prod.fst ∘ fun x : Int × Nat => (x.2, x.1)) = Prod.snd := rfl
  show List.map (Prod.fst ∘ fun x : Int × Nat => (x.2, x.1)) hcs.zipIdx = _
  rw [this, List.zipIdx_map_snd, List.range_eq_range']

theorem mem_indexedReqs {hcs : List Int} {i : Nat} {c : Int} : (i, c) ∈ indexedReqs hcs ↔ hcs[i]? = some c := by
  rw [indexedReqs, List.mem_map, ← List.mem_zipIdx_iff_getElem? (x := (c, i))]
  constructor
  · rintro ⟨⟨c', i'⟩, h, e⟩
    cases e; exact h
  · intro h; exact ⟨(c, i), h, rfl⟩

/-- Sorting by a key that is a permutation of the indices. -/
theorem sort_index (rt : Runtime) {k : Nat} {ps qs : List (Nat × Net A)} (hp : qs.Perm ps) (hk : (ps.map Prod.fst).Perm (List.range k)) :
    let ns := (rt.sortUnstable (fun x y : Nat × Net A => decide (x.1 ≤ y.1)) qs).map Prod.snd
    ns.Perm (ps.map Prod.snd) ∧ ns.length = k ∧ ∀ i m, (i, m) ∈ ps ↔ ns[i]? = some m := by
  intro ns
  have h1 := (rt.sortUnstable_perm (fun x y : Nat × Net A => decide (x.1 ≤ y.1)) qs).trans hp
  have h2 := rt.sortUnstable_sorted (fun x y : Nat × Net A => decide (x.1 ≤ y.1)) qs
    (fun a b c h h' => by simp at *; omega) (fun a b => by simp; omega)
  generalize ho : rt.sortUnstable (fun x y : Nat × Net A => decide (x.1 ≤ y.1)) qs = ordered at h1 h2
  have hns : ns = ordered.map Prod.snd := by simp only [ns, ho]
  have hr : ordered.map Prod.fst = List.range k := by
    refine ((h1.map Prod.fst).trans hk).eq_of_pairwise (le := fun a b : Nat => a ≤ b) (fun a b _ _ x y => by omega) ?_ ?_
    · rw [List.pairwise_map]
      exact h2.imp (fun h => by simpa using h)
    · exact List.pairwise_lt_range.imp (fun h => Nat.le_of_lt h)
  have hlen : ordered.length = k := by
    have := congrArg List.length hr
    simpa using this
  have hget : ∀ (j : Nat) (x : Nat × Net A), ordered[j]? = some x → x.1 = j := by
    intro j x hx
    have h3 : (ordered.map Prod.fst)[j]? = some x.1 := by rw [List.getElem?_map, hx]; rfl
    rw [hr, List.getElem?_range (by rw [← hlen]; exact (List.getElem?_eq_some_iff.mp hx).1)] at h3
    exact (Option.some.inj h3).symm
  rw [hns]
  refine ⟨h1.map _, by simpa using hlen, ?_⟩
  intro i m
  rw [← h1.mem_iff, List.getElem?_map]
  constructor
  · intro hm
    obtain ⟨j, hj⟩ := List.mem_iff_getElem?.mp hm
    have := hget j _ hj
    have hij : i = j := this
    subst hij
    rw [hj]; rfl
  · intro hm
    cases hj : ordered[i]? with
    | none => rw [hj] at hm; simp at hm
    | some x =>
      rw [hj] at hm
      have hi := hget i x hj
      obtain ⟨x1, x2⟩ := x
      simp at hm
      have hi : x1 = i := hi
      subst hi; subst hm
      exact List.mem_iff_getElem?.mpr ⟨_, hj⟩

theorem splitSubnet_sorted (rt : Runtime) (n : Net A) (hcs : List Int) :
    ∃ reqs : List (Nat × Int), reqs = rt.sortUnstable (fun x y : Nat × Int => decide (y.2 ≤ x.2)) (indexedReqs hcs) ∧
      reqs.Perm (indexedReqs hcs) ∧ reqs.Pairwise (fun x y => y.2 ≤ x.2) ∧
      (startOf (val n.baseAddr) reqs + totalSize reqs < 2 ^ width A →
        ∃ ps ns, Placed (startOf (val n.baseAddr) reqs) reqs ps ∧
          Tiles (startOf (val n.baseAddr) reqs) (ps.map Prod.snd) (startOf (val n.baseAddr) reqs + totalSize reqs) ∧
          splitSubnet rt n hcs = .ok (some ns) ∧ ns.Perm (ps.map Prod.snd) ∧ ns.length = hcs.length ∧
          ∀ i m, (i, m) ∈ ps ↔ ns[i]? = some m) ∧
      (2 ^ width A ≤ startOf (val n.baseAddr) reqs + totalSize reqs → splitSubnet rt n hcs = .ok none) := by
  have hperm := rt.sortUnstable_perm (fun x y : Nat × Int => decide (y.2 ≤ x.2)) (indexedReqs hcs)
  have hsort := rt.sortUnstable_sorted (fun x y : Nat × Int => decide (y.2 ≤ x.2)) (indexedReqs hcs)
    (fun a b c h h' => by simp at *; omega) (fun a b => by simp; omega)
  rw [splitSubnet]
  have hidx : hcs.zipIdx.map (fun (num, i) => (i, num)) = indexedReqs hcs := rfl
  simp only [hidx]
  generalize hreqs : rt.sortUnstable (fun x y : Nat × Int => decide (y.2 ≤ x.2)) (indexedReqs hcs) = reqs at hperm hsort
  have hdesc : reqs.Pairwise (fun x y => y.2 ≤ x.2) := hsort.imp (fun h => by simpa using h)
  have hkeys : (reqs.map Prod.fst).Perm (List.range hcs.length) := by
    rw [← indexedReqs_fst]; exact hperm.map _
  have hnd : (reqs.map Prod.fst).Nodup := hkeys.nodup_iff.mpr List.nodup_range
  obtain ⟨o, ho1, ho2, -, ho4⟩ := cidr_of_addr n.baseAddr (Nat.le_refl (width A))
  have hob : o.baseAddr = n.baseAddr := ho4.mpr (by rw [Nat.sub_self]; exact Nat.one_dvd _)
  obtain ⟨y1, y2⟩ := splitLoop_spec rt.profile reqs o [] ho2 hnd (by simp)
  rw [hob] at y1 y2
  have hstart := startOf_le (val n.baseAddr) reqs
  have hfit := fitsFrom_iff reqs (startOf (val n.baseAddr) reqs) hdesc (startOf_dvd _ _)
    (Nat.lt_of_le_of_lt hstart (val_lt n.baseAddr))
  rw [← fitsFrom_start] at hfit
  refine ⟨reqs, rfl, hperm, hdesc, ?_, ?_⟩
  · intro h
    obtain ⟨ps, hps, he⟩ := y1 (hfit.mpr h)
    simp only [byteCount_mul, ho1, Exec.ok_bind, he, List.nil_append]
    obtain ⟨s1, s2, s3⟩ := sort_index rt (rt.hashIter_perm 0 ps) (k := hcs.length) (by rw [hps.fst]; exact hkeys)
    exact ⟨ps, _, hps.start, hps.start.tiles hdesc (startOf_dvd _ _), rfl, s1, s2, s3⟩
  · intro h
    have := y2 (fun hf => by have := hfit.mp hf; omega)
    simp only [byteCount_mul, ho1, Exec.ok_bind, this]
    rfl

/-! ## Tilings -/

theorem Tiles.le {b e : Nat} {ns : List (Net A)} (h : Tiles b ns e) : b ≤ e := by
  induction h with
  | nil => exact Nat.le_refl _
  | cons _ _ ih => exact Nat.le_trans (Nat.le_add_right _ _) ih

theorem Tiles.cidr {b e : Nat} {ns : List (Net A)} (h : Tiles b ns e) : ∀ n ∈ ns, ∃ p, IsCidr p n := by
  induction h with
  | nil => simp
  | @cons n ns p e hc _ ih =>
    intro m hm
    rcases List.mem_cons.mp hm with rfl | hm
    · exact ⟨p, hc⟩
    · exact ih m hm

theorem Tiles.covers {b e : Nat} {ns : List (Net A)} (h : Tiles b ns e) (a : A) :
    (∃ n ∈ ns, Member n a) ↔ b ≤ val a ∧ val a < e := by
  induction h with
  | nil => simp
  | @cons n ns p e hc ht ih =>
    have h1 := cidr_member_iff hc a
    have h2 := ht.le
    have h3 := Nat.two_pow_pos (width A - p)
    simp only [List.mem_cons, exists_eq_or_imp, h1, ih]
    omega

theorem Tiles.pairwise_below {b e : Nat} {ns : List (Net A)} (h : Tiles b ns e) : ns.Pairwise Below := by
  induction h with
  | nil => exact .nil
  | @cons n ns p e hc ht ih =>
    refine List.pairwise_cons.mpr ⟨?_, ih⟩
    intro m hm x y hx hy
    have h1 := (cidr_member_iff hc x).mp hx
    have h2 := (ht.covers y).mp ⟨m, hm, hy⟩
    omega

theorem isCidr_unique {n : Net A} {p q : Nat} (h : IsCidr p n) (h' : IsCidr q n) : p = q := by
  have := h.2.symm.trans h'.2
  simpa using this

/-- Descending requests get descending sizes. -/
theorem Placed.desc {b : Nat} {reqs : List (Nat × Int)} {ps : List (Nat × Net A)} (h : Placed b reqs ps)
    (hs : reqs.Pairwise (fun x y => y.2 ≤ x.2)) :
    (ps.map Prod.snd).Pairwise (fun m m' => ∀ p p', IsCidr p m → IsCidr p' m' → p ≤ p') := by
  induction h with
  | nil => exact .nil
  | @cons b i q c n rest ps h1 h2 h3 h4 ih =>
    obtain ⟨hs1, hs2⟩ := List.pairwise_cons.mp hs
    refine List.pairwise_cons.mpr ⟨?_, ih hs2⟩
    intro m hm p p' hp hp'
    obtain ⟨⟨j, m'⟩, hx, rfl⟩ := List.mem_map.mp hm
    obtain ⟨c', q', hc', hq', hn'⟩ := h4.mem j m' hx
    have e1 := isCidr_unique hp h1
    have e2 := isCidr_unique hp' hq'
    have h5 : needBits c' ≤ needBits c := needBits_mono (hs1 _ hc')
    have := cidr_le h1
    have := cidr_le hq'
    omega

omit [IpAddr A] [AddrSpec A] [LawfulIpAddr A] in
theorem totalSize_perm {reqs : List (Nat × Int)} {hcs : List Int} (h : reqs.Perm (indexedReqs hcs)) :
    totalSize reqs = (hcs.map (fun c => 2 ^ needBits c)).sum := by
  have h1 : (reqs.map Prod.snd).Perm hcs := by
    have : (indexedReqs hcs).map Prod.snd = hcs := by
      rw [indexedReqs, List.map_map]
      show List.map (Prod.snd ∘ fun x : Int × Nat => (x.2, x.1)) hcs.zipIdx = _
      rw [show (Prod.snd ∘ fun x : Int × Nat => (x.2, x.1)) = Prod.fst from rfl, List.zipIdx_map_fst]
    exact (h.map Prod.snd).trans (by rw [this])
  have h2 := (h1.map (fun c => 2 ^ needBits c)).sum_nat
  rw [← h2, totalSize, List.map_map]
  rfl

omit [IpAddr A] [AddrSpec A] [LawfulIpAddr A] in
theorem startOf_max {reqs : List (Nat × Int)} {hcs : List Int} (h : reqs.Perm (indexedReqs hcs))
    (hs : reqs.Pairwise (fun x y => y.2 ≤ x.2)) {E : Nat} (h1 : ∀ c ∈ hcs, needBits c ≤ E) (h2 : ∃ c ∈ hcs, needBits c = E) (b : Nat) :
    startOf b reqs = b / 2 ^ E * 2 ^ E := by
  obtain ⟨c, hc, hE⟩ := h2
  obtain ⟨i, hi⟩ := List.mem_iff_getElem?.mp hc
  have hm : (i, c) ∈ reqs := h.mem_iff.mpr (mem_indexedReqs.mpr hi)
  rcases reqs with _ | ⟨⟨j, d⟩, rest⟩
  · simp at hm
  · have hd : d ∈ hcs := by
      have := mem_indexedReqs.mp (h.mem_iff.mp (List.mem_cons_self (a := (j, d)) (l := rest)))
      exact List.mem_iff_getElem?.mpr ⟨j, this⟩
    have hd1 := h1 d hd
    have hcd : c ≤ d := by
      rcases List.mem_cons.mp hm with e | e
      · cases e; exact Int.le_refl _
      · exact (List.pairwise_cons.mp hs).1 _ e
    have := needBits_mono hcd
    have : needBits d = E := by omega
    rw [startOf, this]

/-- What `split_subnet` does, in terms of the host counts. -/
theorem splitSubnet_outcome (rt : Runtime) (n : Net A) (hcs : List Int) {E : Nat} (h1 : ∀ c ∈ hcs, needBits c ≤ E)
    (h2 : ∃ c ∈ hcs, needBits c = E) :
    (val n.baseAddr / 2 ^ E * 2 ^ E + (hcs.map (fun c => 2 ^ needBits c)).sum < 2 ^ width A →
      ∃ ms ns, splitSubnet rt n hcs = .ok (some ns) ∧ ms.Perm ns ∧
        Tiles (val n.baseAddr / 2 ^ E * 2 ^ E) ms (val n.baseAddr / 2 ^ E * 2 ^ E + (hcs.map (fun c => 2 ^ needBits c)).sum) ∧
        ms.Pairwise (fun m m' => ∀ p p', IsCidr p m → IsCidr p' m' → p ≤ p') ∧ ns.length = hcs.length ∧
        ∀ (i : Nat) (c : Int) (m : Net A), hcs[i]? = some c → ns[i]? = some m → ∃ q, IsCidr q m ∧ width A - q = needBits c) ∧
    (2 ^ width A ≤ val n.baseAddr / 2 ^ E * 2 ^ E + (hcs.map (fun c => 2 ^ needBits c)).sum →
      splitSubnet rt n hcs = .ok none) := by
  obtain ⟨reqs, -, hp, hd, y1, y2⟩ := splitSubnet_sorted rt n hcs
  rw [totalSize_perm hp, startOf_max hp hd h1 h2] at y1 y2
  refine ⟨fun h => ?_, y2⟩
  obtain ⟨ps, ns, z1, z2, z3, z4, z5, z6⟩ := y1 h
  refine ⟨ps.map Prod.snd, ns, z3, z4.symm, z2, z1.desc hd, z5, ?_⟩
  intro i c m hc hm
  obtain ⟨c', q, w1, w2, w3⟩ := z1.mem i m ((z6 i m).mpr hm)
  have := mem_indexedReqs.mp (hp.mem_iff.mp w1)
  rw [hc] at this
  cases this
  exact ⟨q, w2, w3⟩

theorem splitSubnet_nil (rt : Runtime) (n : Net A) : splitSubnet rt n [] = .ok (some []) := by
  obtain ⟨reqs, -, hp, hd, y1, y2⟩ := splitSubnet_sorted rt n []
  have : reqs = [] := by
    have : reqs.Perm [] := hp
    exact this.eq_nil
  subst this
  obtain ⟨ps, ns, -, -, z3, -, z5, -⟩ := y1 (by simpa [startOf, totalSize] using val_lt n.baseAddr)
  rw [z3]
  simpa using z5

omit [IpAddr A] [AddrSpec A] [LawfulIpAddr A] in
theorem exists_needMax (hcs : List Int) (h : hcs ≠ []) : ∃ E, (∀ c ∈ hcs, needBits c ≤ E) ∧ ∃ c ∈ hcs, needBits c = E := by
  induction hcs with
  | nil => exact absurd rfl h
  | cons c hcs ih =>
    by_cases h' : hcs = []
    · subst h'
      exact ⟨needBits c, by simp, c, by simp, rfl⟩
    · obtain ⟨E, h1, d, h2, h3⟩ := ih h'
      by_cases hcE : needBits c ≤ E
      · exact ⟨E, by simpa [hcE] using h1, d, by simp [h2], h3⟩
      · refine ⟨needBits c, ?_, c, by simp, rfl⟩
        intro x hx
        rcases List.mem_cons.mp hx with rfl | hx
        · exact Nat.le_refl _
        · have := h1 x hx
          omega

end generic
end Ripcalc
