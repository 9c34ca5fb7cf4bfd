import Verif.Proofs.Split
import Verif.Proofs.Counts
import Verif.Props.Show
import Verif.Props.Derange
/-!
# Properties of splitting
-/
set_option linter.unusedSectionVars false
namespace Ripcalc
open AddrSpec LawfulIpAddr

section generic
variable {A : Type} [IpAddr A] [AddrSpec A] [LawfulIpAddr A]

/-! ## C51, C52: what a successful split returns -/

/-- Everything about the outcome, for at least one request; `e` is the address after the last allocated one. -/
theorem split_outcome (rt : Runtime) (n : Net A) (hcs : List Int) (hne : hcs ≠ []) :
    ∃ E b e, (∀ c ∈ hcs, needBits c ≤ E) ∧ (∃ c ∈ hcs, needBits c = E) ∧ b = val n.baseAddr / 2 ^ E * 2 ^ E ∧
      e = b + (hcs.map (fun c => 2 ^ needBits c)).sum ∧
      (e < 2 ^ width A → ∃ ms ns, splitSubnet rt n hcs = .ok (some ns) ∧ ms.Perm ns ∧ Tiles b ms e ∧
        ms.Pairwise (fun m m' => ∀ p p', IsCidr p m → IsCidr p' m' → p ≤ p') ∧ ns.length = hcs.length ∧
        ∀ (i : Nat) (c : Int) (m : Net A), hcs[i]? = some c → ns[i]? = some m → ∃ q, IsCidr q m ∧ HostBitsFor c (width A - q)) ∧
      (2 ^ width A ≤ e → splitSubnet rt n hcs = .ok none) := by
  obtain ⟨E, h1, h2⟩ := exists_needMax hcs hne
  obtain ⟨h3, h4⟩ := splitSubnet_outcome rt n hcs h1 h2
  refine ⟨E, _, _, h1, h2, rfl, rfl, fun h => ?_, h4⟩
  obtain ⟨ms, ns, x1, x2, x3, x4, x5, x6⟩ := h3 h
  refine ⟨ms, ns, x1, x2, x3, x4, x5, fun i c m hi hm => ?_⟩
  obtain ⟨q, y1, y2⟩ := x6 i c m hi hm
  exact ⟨q, y1, (hostBitsFor_iff _ _).mpr y2⟩

/-- Splitting always returns; on success there is one network per request, in request order, a CIDR network with the least
number of host bits that leaves enough host addresses. -/
theorem C51_requests (rt : Runtime) (n : Net A) (hcs : List Int) :
    ∃ r, splitSubnet rt n hcs = .ok r ∧ ∀ ns, r = some ns → ns.length = hcs.length ∧
      ∀ (i : Nat) (c : Int) (m : Net A), hcs[i]? = some c → ns[i]? = some m → ∃ q, IsCidr q m ∧ HostBitsFor c (width A - q) := by
  by_cases hne : hcs = []
  · subst hne
    refine ⟨_, splitSubnet_nil rt n, ?_⟩
    rintro ns ⟨⟩
    exact ⟨rfl, by simp⟩
  · obtain ⟨E, b, e, -, -, -, -, h1, h2⟩ := split_outcome rt n hcs hne
    rcases Nat.lt_or_ge e (2 ^ width A) with h | h
    · obtain ⟨ms, ns, x1, -, -, -, x5, x6⟩ := h1 h
      refine ⟨_, x1, ?_⟩
      rintro ns' ⟨⟩
      exact ⟨x5, x6⟩
    · exact ⟨_, h2 h, by simp⟩

/-- In terms of the program's own count: enough hosts, and half the network would not do. -/
theorem C51_host_count (rt : Runtime) (n : Net A) (hcs : List Int) (ns : List (Net A)) (h : splitSubnet rt n hcs = .ok (some ns))
    (i : Nat) (c : Int) (m : Net A) (hi : hcs[i]? = some c) (hm : ns[i]? = some m) :
    c ≤ m.hostCount ∧ (0 ≤ c → (m.addressCount : Int) / 2 - 2 < c) := by
  obtain ⟨r, hr, hs⟩ := C51_requests rt n hcs
  rw [h] at hr
  cases hr
  obtain ⟨q, hq, h1, h2⟩ := (hs ns rfl).2 i c m hi hm
  have hb : hostBits m = width A - q := (isCidr_netBits hq).2.1
  rw [(C24_address_count m hq.1).2, addressCount_eq, hb]
  refine ⟨by push_cast; omega, fun hc => ?_⟩
  generalize width A - q = k at h1 h2
  cases k with
  | zero => simp at h1; omega
  | succ k =>
    refine Int.not_le.mp fun hcon => ?_
    have := h2 k (by
      have : ((2 ^ (k + 1) : Nat) : Int) / 2 = 2 ^ k := by rw [Nat.pow_succ]; push_cast; omega
      omega)
    omega

/-- The networks lie in address order one directly after the other, sizes descending, from the base address rounded down to
the size of the largest; so they are pairwise disjoint. -/
theorem C52_layout (rt : Runtime) (n : Net A) (hcs : List Int) (ns : List (Net A)) (h : splitSubnet rt n hcs = .ok (some ns))
    (hne : hcs ≠ []) :
    ∃ ms b e, ms.Perm ns ∧ Tiles b ms e ∧ ms.Pairwise (fun m m' => ∀ p p', IsCidr p m → IsCidr p' m' → p ≤ p') ∧
      (∀ m ms', ms = m :: ms' → ∀ p, IsCidr p m → b ≤ val n.baseAddr ∧ val n.baseAddr < b + 2 ^ (width A - p)) ∧
      ns.Pairwise Disjoint := by
  obtain ⟨E, b, e, g1, g2, g3, g4, h1, h2⟩ := split_outcome rt n hcs hne
  rcases Nat.lt_or_ge e (2 ^ width A) with hlt | hge
  · obtain ⟨ms, ns', x1, x2, x3, x4, x5, x6⟩ := h1 hlt
    rw [x1] at h
    cases h
    refine ⟨ms, b, e, x2, x3, x4, ?_, ?_⟩
    · rintro m ms' rfl p hp
      have hE : width A - p = E := by
        -- the first has the largest size, and the largest request has size `E`
        obtain ⟨c, hc, hcE⟩ := g2
        obtain ⟨i, hi⟩ := List.mem_iff_getElem?.mp hc
        have hil : i < ns.length := by rw [x5]; exact (List.getElem?_eq_some_iff.mp hi).1
        obtain ⟨q, hq, hq2⟩ := x6 i c _ hi (List.getElem?_eq_getElem hil)
        have hmem : ns[i] ∈ m :: ms' := x2.mem_iff.mpr (List.getElem_mem _)
        have hqE : width A - q = E := by rw [(hostBitsFor_iff _ _).mp hq2]; exact hcE
        have hle : p ≤ q := by
          rcases List.mem_cons.mp hmem with he | hin
          · rw [he] at hq; exact Nat.le_of_eq (isCidr_unique hp hq)
          · exact (List.pairwise_cons.mp x4).1 _ hin p q hp hq
        obtain ⟨j, hj⟩ := List.mem_iff_getElem?.mp (x2.mem_iff.mp (List.mem_cons_self (a := m) (l := ms')))
        have hjl : j < hcs.length := by rw [← x5]; exact (List.getElem?_eq_some_iff.mp hj).1
        obtain ⟨q', hq', hq2'⟩ := x6 j _ m (List.getElem?_eq_getElem hjl) hj
        have := isCidr_unique hp hq'
        subst this
        have h3 := g1 hcs[j] (List.getElem_mem _)
        rw [← (hostBitsFor_iff _ _).mp hq2'] at h3
        have := cidr_le hq
        omega
      rw [hE, g3]
      have := Nat.div_add_mod (val n.baseAddr) (2 ^ E)
      have := Nat.mod_lt (val n.baseAddr) (Nat.two_pow_pos E)
      rw [Nat.mul_comm (_ / _)]
      omega
    · exact (x2.pairwise_iff (fun {a b} hab x hx => hab x ⟨hx.2, hx.1⟩)).mp (below_disjoint x3.pairwise_below)
  · rw [h2 hge] at h; cases h

/-! ## C54: when splitting succeeds -/

theorem pointwise_need {hcs : List Int} {es : List Nat} (h : Pointwise HostBitsFor hcs es) : es = hcs.map needBits := by
  induction h with
  | nil => rfl
  | cons h1 _ ih => rw [List.map_cons, ← (hostBitsFor_iff _ _).mp h1, ← ih]

theorem sum_pow_need (hcs : List Int) : ((hcs.map needBits).map (fun e => 2 ^ e)).sum = (hcs.map (fun c => 2 ^ needBits c)).sum := by
  rw [List.map_map]; rfl

/-- The exact condition for success, for at least one request: the blocks, laid out from the base address rounded down to the
size of the largest, end before the end of the address space, strictly. -/
theorem C54_exact (rt : Runtime) (n : Net A) (hcs : List Int) (es : List Nat) (h : Pointwise HostBitsFor hcs es)
    (E : Nat) (h1 : ∀ e ∈ es, e ≤ E) (h2 : E ∈ es) :
    (∃ ns, splitSubnet rt n hcs = .ok (some ns)) ↔
      val n.baseAddr / 2 ^ E * 2 ^ E + (es.map (fun e => 2 ^ e)).sum < 2 ^ width A := by
  have he := pointwise_need h
  subst he
  have h3 : ∀ c ∈ hcs, needBits c ≤ E := fun c hc => h1 _ (List.mem_map_of_mem hc)
  have h4 : ∃ c ∈ hcs, needBits c = E := by simpa using h2
  obtain ⟨h5, h6⟩ := splitSubnet_outcome rt n hcs h3 h4
  rw [sum_pow_need]
  constructor
  · rintro ⟨ns, hns⟩
    refine Nat.not_le.mp fun hcon => ?_
    rw [h6 hcon] at hns
    cases hns
  · intro hlt
    obtain ⟨ms, ns, x1, -⟩ := h5 hlt
    exact ⟨ns, x1⟩

theorem sum_ge {f : Int → Nat} {hcs : List Int} {c : Int} (hc : c ∈ hcs) : f c ≤ (hcs.map f).sum := by
  induction hcs with
  | nil => simp at hc
  | cons d hcs ih =>
    rw [List.map_cons, List.sum_cons]
    rcases List.mem_cons.mp hc with rfl | hc
    · omega
    · have := ih hc; omega

/-- The full claim has no hypothesis `htop`.  It is false without (`C54_top_fails`, `C54_counterexample`): the allocation must
not end at the end of the address space. -/
theorem C54_fits_partial (rt : Runtime) (n : Net A) (p : Nat) (hn : IsCidr p n) (hcs : List Int) (es : List Nat)
    (h : Pointwise HostBitsFor hcs es) (hfit : (es.map (fun e => 2 ^ e)).sum ≤ 2 ^ (width A - p))
    (htop : val n.baseAddr + (es.map (fun e => 2 ^ e)).sum ≠ 2 ^ width A) :
    ∃ ns, splitSubnet rt n hcs = .ok (some ns) ∧ ∀ m ∈ ns, Includes n m := by
  have he := pointwise_need h
  subst he
  rw [sum_pow_need] at hfit htop
  by_cases hne : hcs = []
  · subst hne
    exact ⟨[], splitSubnet_nil rt n, by simp⟩
  · obtain ⟨E, b, e, g1, g2, g3, g4, h1, -⟩ := split_outcome rt n hcs hne
    obtain ⟨c, hc, hcE⟩ := g2
    have hEp : E ≤ width A - p := by
      have h3 := sum_ge (f := fun c => 2 ^ needBits c) hc
      rw [hcE] at h3
      exact (Nat.pow_le_pow_iff_right (by omega)).mp (Nat.le_trans h3 hfit)
    have hd : 2 ^ E ∣ val n.baseAddr := Nat.dvd_trans (Nat.pow_dvd_pow 2 hEp) (cidr_dvd hn)
    have hb : b = val n.baseAddr := by rw [g3]; exact Nat.div_mul_cancel hd
    have hend := cidr_end hn
    have hlt : e < 2 ^ width A := by clear h1; omega
    obtain ⟨ms, ns, x1, x2, x3, -⟩ := h1 hlt
    refine ⟨ns, x1, fun m hm a ha => ?_⟩
    have := (x3.covers a).mp ⟨m, x2.mem_iff.mpr hm, ha⟩
    rw [cidr_member_iff hn]
    omega

/-- The remaining case of the claim fails always: requests that fit and end exactly at the end of the address space. -/
theorem C54_top_fails (rt : Runtime) (n : Net A) (p : Nat) (hn : IsCidr p n) (hcs : List Int) (es : List Nat)
    (h : Pointwise HostBitsFor hcs es) (hfit : (es.map (fun e => 2 ^ e)).sum ≤ 2 ^ (width A - p))
    (htop : val n.baseAddr + (es.map (fun e => 2 ^ e)).sum = 2 ^ width A) : splitSubnet rt n hcs = .ok none := by
  have he := pointwise_need h
  subst he
  rw [sum_pow_need] at hfit htop
  by_cases hne : hcs = []
  · subst hne
    have := val_lt n.baseAddr
    simp at htop
    omega
  · obtain ⟨E, b, e, g1, g2, g3, g4, -, h2⟩ := split_outcome rt n hcs hne
    obtain ⟨c, hc, hcE⟩ := g2
    have hEp : E ≤ width A - p := by
      have h3 := sum_ge (f := fun c => 2 ^ needBits c) hc
      rw [hcE] at h3
      exact (Nat.pow_le_pow_iff_right (by omega)).mp (Nat.le_trans h3 hfit)
    have hd : 2 ^ E ∣ val n.baseAddr := Nat.dvd_trans (Nat.pow_dvd_pow 2 hEp) (cidr_dvd hn)
    have hb : b = val n.baseAddr := by rw [g3]; exact Nat.div_mul_cancel hd
    exact h2 (by omega)

/-! ## The command: what is printed -/

/-- The blocks printed for the results, `D n t` saying that `t` is a display of network `n`. -/
inductive SplitBlocks (D : Net A → Str → Prop) : List Int → List (Net A) → Str → Prop
  | nil : SplitBlocks D [] [] []
  | cons {c cs n ns t u} : D n t → SplitBlocks D cs ns u →
    SplitBlocks D (c :: cs) (n :: ns) ("Subnet for ".toList ++ showInt c ++ " hosts:\n".toList ++ t ++ ['\n'] ++ u)

/-- The list of networks, one per line. -/
def netLines (ns : List (Net A)) : Str := ns.flatMap (fun n => n.display ++ ['\n'])

theorem shows_printNets (ns : List (Net A)) : Shows (printNets ns) () (netLines ns) := by
  induction ns with
  | nil => exact shows_pure ()
  | cons n ns ih => exact .of_eq (.bind (shows_println _) ih) (by simp [netLines])

section
variable {on : Net A → Option A → Cli Unit} {D : Net A → Str → Prop} (hon : ∀ m, WF m → ∃ t, D m t ∧ Shows (on m none) () t)
include hon

theorem shows_printSplit (hcs : List Int) : ∀ (ns : List (Net A)), ns.length = hcs.length → (∀ m ∈ ns, WF m) →
    ∃ t, SplitBlocks D hcs ns t ∧ Shows (printSplit on (hcs.zip ns)) () t := by
  induction hcs with
  | nil =>
    intro ns hl _
    have : ns = [] := List.length_eq_zero_iff.mp hl
    subst this
    exact ⟨[], .nil, shows_pure ()⟩
  | cons c hcs ih =>
    intro ns hl hwf
    cases ns with
    | nil => simp at hl
    | cons n ns =>
      obtain ⟨t, h1, h2⟩ := hon n (hwf n (by simp))
      obtain ⟨u, h3, h4⟩ := ih ns (by simpa using hl) (fun m hm => hwf m (by simp [hm]))
      refine ⟨_, .cons h1 h3, ?_⟩
      rw [List.zip_cons_cons, printSplit]
      refine .of_eq (.bind (shows_println _) <| .bind h2 <| .bind (shows_println _) h4) ?_
      rw [show (" hosts:\n".toList : Str) = " hosts:".toList ++ ['\n'] from rfl]
      simp only [List.append_assoc, List.nil_append]

end

theorem foldl_max (xs : List A) : ∀ a : A, ∃ x, xs.foldl (fun m x => if IpAddr.le m x then x else m) a = x ∧ x ∈ a :: xs ∧
    ∀ y ∈ a :: xs, val y ≤ val x := by
  induction xs with
  | nil => intro a; exact ⟨a, rfl, by simp, by simp⟩
  | cons b xs ih =>
    intro a
    obtain ⟨x, h1, h2, h3⟩ := ih (if IpAddr.le a b then b else a)
    refine ⟨x, by simpa using h1, ?_, ?_⟩
    · rcases List.mem_cons.mp h2 with h | h
      · split at h <;> simp [h]
      · simp [h]
    · have h4 := h3 _ (List.mem_cons_self ..)
      have h5 : val a ≤ val (if IpAddr.le a b then b else a) ∧ val b ≤ val (if IpAddr.le a b then b else a) := by
        by_cases hab : IpAddr.le a b = true
        · rw [if_pos hab]; exact ⟨(le_iff a b).mp hab, Nat.le_refl _⟩
        · rw [if_neg hab]
          have : ¬ val a ≤ val b := fun h => hab ((le_iff a b).mpr h)
          omega
      intro y hy
      rcases List.mem_cons.mp hy with rfl | hy
      · omega
      · rcases List.mem_cons.mp hy with rfl | hy
        · omega
        · exact h3 y (by simp [hy])

theorem lastAddrs_spec (ns : List (Net A)) (h : ∀ m ∈ ns, WF m) : ∃ ls, lastAddrs ns = .ok ls ∧
    ∀ x, x ∈ ls ↔ ∃ m ∈ ns, m.lastAddrOfSubnet = .ok x := by
  induction ns with
  | nil => exact ⟨[], rfl, by simp⟩
  | cons n ns ih =>
    obtain ⟨ls, h1, h2⟩ := ih (fun m hm => h m (by simp [hm]))
    obtain ⟨l, h3, -⟩ := lastAddr_spec (h n (by simp)).hz
    refine ⟨l :: ls, by simp [lastAddrs, h1, h3], fun x => ?_⟩
    simp only [List.mem_cons, h2]
    constructor
    · rintro (rfl | ⟨m, hm, e⟩)
      · exact ⟨n, .inl rfl, h3⟩
      · exact ⟨m, .inr hm, e⟩
    · rintro ⟨m, rfl | hm, e⟩
      · rw [h3] at e; cases e; exact .inl rfl
      · exact .inr ⟨m, hm, e⟩

theorem Tiles.nil_eq {b e : Nat} (h : Tiles b ([] : List (Net A)) e) : b = e := by cases h; rfl

/-- The greatest allocated address is the one before the end. -/
theorem tiles_max {b e : Nat} {ms ns : List (Net A)} (ht : Tiles b ms e) (hp : ms.Perm ns) (hne : ns ≠ []) :
    ∃ ls x, lastAddrs ns = .ok ls ∧ maxOf ls = some x ∧ val x + 1 = e := by
  have hcid : ∀ m ∈ ns, ∃ p, IsCidr p m := fun m hm => ht.cidr m (hp.mem_iff.mpr hm)
  obtain ⟨ls, h1, h2⟩ := lastAddrs_spec ns (fun m hm => (hcid m hm).choose_spec.1)
  have hin : ∀ x ∈ ls, b ≤ val x ∧ val x < e := by
    intro x hx
    obtain ⟨m, hm, e'⟩ := (h2 x).mp hx
    obtain ⟨p, hpc⟩ := hcid m hm
    obtain ⟨l, h3, h4⟩ := cidr_last hpc
    rw [h3] at e'; cases e'
    refine (ht.covers x).mp ⟨m, hp.mem_iff.mpr hm, (cidr_member_iff hpc x).mpr ?_⟩
    have := Nat.two_pow_pos (width A - p)
    omega
  have htop : ∃ y ∈ ls, val y + 1 = e := by
    have key : ∀ {b e : Nat} {ms : List (Net A)}, Tiles b ms e → ms ≠ [] → ∃ m ∈ ms, ∃ p, IsCidr p m ∧
        val m.baseAddr + 2 ^ (width A - p) = e := by
      intro b e ms ht
      induction ht with
      | nil => intro h; exact absurd rfl h
      | @cons n ns p e hc ht ih =>
        intro _
        cases ns with
        | nil => exact ⟨n, by simp, p, hc, ht.nil_eq⟩
        | cons n' ns =>
          obtain ⟨m, hm, q, h⟩ := ih (by simp)
          exact ⟨m, by simp [hm], q, h⟩
    obtain ⟨m, hm, p, hpc, he⟩ := key ht (by rintro rfl; exact hne hp.nil_eq.symm)
    obtain ⟨l, h3, h4⟩ := cidr_last hpc
    have := Nat.two_pow_pos (width A - p)
    exact ⟨l, (h2 l).mpr ⟨m, hp.mem_iff.mp hm, h3⟩, by omega⟩
  obtain ⟨y, hy, hye⟩ := htop
  cases ls with
  | nil => simp at hy
  | cons a ls =>
    obtain ⟨x, h5, h6, h7⟩ := foldl_max ls a
    refine ⟨_, x, h1, by rw [maxOf, h5], ?_⟩
    have := hin x h6
    have := h7 y hy
    omega

section
variable {on : Net A → Option A → Cli Unit} {D : Net A → Str → Prop} (hon : ∀ m, WF m → ∃ t, D m t ∧ Shows (on m none) () t)
include hon

/-- What the command prints when there is no allocation. -/
theorem outputSplit_none (rt : Runtime) (n : Net A) (hn : WF n) (hcs : List Int) (h : splitSubnet rt n hcs = .ok none) :
    ∃ t, D n t ∧ Shows (outputSplit rt n hcs on) 1
      ("Subnet to split:\n".toList ++ t ++ ['\n'] ++ "Not enough addresses available for this split.\n".toList) := by
  obtain ⟨t, h1, h2⟩ := hon n hn
  refine ⟨t, h1, ?_⟩
  rw [outputSplit, h]
  simp only [Cli.lift_ok_bind]
  refine .of_eq (.bind (shows_println _) <| .bind h2 <| .bind (shows_println _) <| .bind (shows_println _) <| shows_pure 1) ?_
  rw [show ("Subnet to split:\n".toList : Str) = "Subnet to split:".toList ++ ['\n'] from rfl,
    show ("Not enough addresses available for this split.\n".toList : Str) =
      "Not enough addresses available for this split.".toList ++ ['\n'] from rfl]
  simp only [List.append_assoc, List.nil_append, List.append_nil]

/-- What the command prints when there is one; `e` is the address after the allocated ones. -/
theorem outputSplit_some (rt : Runtime) (n : Net A) (hn : WF n) (hcs : List Int) (ms ns : List (Net A)) (b e : Nat)
    (h : splitSubnet rt n hcs = .ok (some ns)) (hl : ns.length = hcs.length) (hne : ns ≠ []) (hp : ms.Perm ns) (ht : Tiles b ms e)
    (he : e < 2 ^ width A) :
    ∃ t u mx nx last, D n t ∧ SplitBlocks D hcs ns u ∧ val mx + 1 = e ∧ val nx = e ∧ n.lastAddrOfSubnet = .ok last ∧
      (¬ Member n mx → Shows (outputSplit rt n hcs on) 0
        ("Subnet to split:\n".toList ++ t ++ ['\n'] ++ u ++ "Network is too small\n".toList)) ∧
      (∀ us, Member n mx → rangeToSubnets rt.profile nx last = .ok us → Shows (outputSplit rt n hcs on) 0
        ("Subnet to split:\n".toList ++ t ++ ['\n'] ++ u ++ "Unused networks:\n".toList ++ netLines us)) ∧
      (∀ p, Member n mx → rangeToSubnets rt.profile nx last = .panic p → Aborts (outputSplit rt n hcs on) p
        ("Subnet to split:\n".toList ++ t ++ ['\n'] ++ u ++ "Unused networks:\n".toList)) ∧
      (Member n mx → rangeToSubnets rt.profile nx last = .diverge → (outputSplit rt n hcs on).res = .diverge) := by
  have hcid : ∀ m ∈ ns, WF m := fun m hm => (ht.cidr m (hp.mem_iff.mpr hm)).choose_spec.1
  obtain ⟨t, h1, h2⟩ := hon n hn
  obtain ⟨u, h3, h4⟩ := shows_printSplit hon hcs ns hl hcid
  obtain ⟨ls, mx, h5, h6, h7⟩ := tiles_max ht hp hne
  obtain ⟨nx, hnx⟩ := val_surj (A := A) e he
  obtain ⟨last, hlast, -⟩ := lastAddr_spec hn.hz
  have hadd : IpAddr.addOffset rt.profile mx 1 = .ok (some nx) := by
    obtain ⟨r, h8, h9⟩ := addOffset_nonneg rt.profile mx 1 (by decide)
    rw [h8]
    have h10 : ((1 : Int32).toInt) = 1 := by decide
    rw [h10] at h9
    cases r with
    | none =>
      rcases h9 with h9 | h9 <;> omega
    | some y =>
      have h9 : (val y : Int) = val mx + 1 := h9
      rw [val_inj y nx (by omega)]
  refine ⟨t, u, mx, nx, last, h1, h3, h7, hnx, hlast, ?_, ?_, ?_, ?_⟩
  · intro hm
    have hm' : n.contains mx = false := by rw [Bool.eq_false_iff]; exact fun h => hm ((contains_iff hn.hz mx).mp h)
    rw [outputSplit, h]
    simp only [Cli.lift_ok_bind, h5, h6, Exec.unwrap_some, hm', Bool.not_false, if_true]
    refine .of_eq (.bind (shows_println _) <| .bind h2 <| .bind (shows_println _) <| .bind h4 <| .bind (shows_println _) <| shows_pure 0) ?_
    rw [show ("Subnet to split:\n".toList : Str) = "Subnet to split:".toList ++ ['\n'] from rfl,
      show ("Network is too small\n".toList : Str) = "Network is too small".toList ++ ['\n'] from rfl]
    simp only [List.append_assoc, List.nil_append, List.append_nil]
  all_goals
    intros
    rename_i hm hr
    try rename Panic => q
    have hm' : n.contains mx = true := (contains_iff hn.hz mx).mpr hm
    rw [outputSplit, h]
    simp only [Cli.lift_ok_bind, h5, h6, Exec.unwrap_some, hm', Bool.not_true, Bool.false_eq_true, if_false, hadd, hlast, hr]
  · refine .of_eq (.bind (shows_println _) <| .bind h2 <| .bind (shows_println _) <| .bind h4 <| .bind (shows_println _) <|
      .bind (shows_printNets _) <| shows_pure 0) ?_
    rw [show ("Subnet to split:\n".toList : Str) = "Subnet to split:".toList ++ ['\n'] from rfl,
      show ("Unused networks:\n".toList : Str) = "Unused networks:".toList ++ ['\n'] from rfl]
    simp only [List.append_assoc, List.nil_append, List.append_nil]
  · have hsh : Shows (do Cli.println "Subnet to split:".toList; on n none; Cli.println []; printSplit on (hcs.zip ns)) () _ :=
      .bind (shows_println _) <| .bind h2 <| .bind (shows_println _) h4
    have := aborts_println hsh "Unused networks:".toList (k := fun _ => (⟨[], .panic q⟩ : Cli Nat)) rfl
    simp only [bind_assoc] at this
    simp only [Cli.lift_panic_bind]
    refine this.of_eq ?_
    rw [show ("Subnet to split:\n".toList : Str) = "Subnet to split:".toList ++ ['\n'] from rfl,
      show ("Unused networks:\n".toList : Str) = "Unused networks:".toList ++ ['\n'] from rfl]
    simp only [List.append_assoc, List.nil_append]
  · rw [(shows_println _).then.1, h2.then.1, (shows_println _).then.1, h4.then.1, (shows_println _).then.1]
    rfl

/-- Everything the command does after a successful allocation, for a CIDR network: `e` is the address after the allocated
ones, `base + size` the address after the network. -/
theorem split_report (rt : Runtime) (n : Net A) (p : Nat) (hn : IsCidr p n) (hcs : List Int) (hne : hcs ≠ [])
    (hnn : ∀ c ∈ hcs, 0 ≤ c) (ns : List (Net A)) (h : splitSubnet rt n hcs = .ok (some ns)) :
    ∃ E b e t u, ((∀ c ∈ hcs, needBits c ≤ E) ∧ (∃ c ∈ hcs, needBits c = E) ∧ b = val n.baseAddr / 2 ^ E * 2 ^ E ∧
        e = b + (hcs.map (fun c => 2 ^ needBits c)).sum) ∧
      Covers ns (fun a : A => b ≤ val a ∧ val a < e) ∧ b ≤ val n.baseAddr ∧ val n.baseAddr < e ∧ e < 2 ^ width A ∧
      ((∀ c ∈ hcs, c + 2 ≤ 2 ^ (width A - p)) → b = val n.baseAddr) ∧ D n t ∧ SplitBlocks D hcs ns u ∧
      (val n.baseAddr + 2 ^ (width A - p) < e → Shows (outputSplit rt n hcs on) 0
        ("Subnet to split:\n".toList ++ t ++ ['\n'] ++ u ++ "Network is too small\n".toList)) ∧
      (e < val n.baseAddr + 2 ^ (width A - p) → val n.baseAddr + 2 ^ (width A - p) < 2 ^ width A →
        ∃ us, Shows (outputSplit rt n hcs on) 0
          ("Subnet to split:\n".toList ++ t ++ ['\n'] ++ u ++ "Unused networks:\n".toList ++ netLines us) ∧
          (∀ m ∈ us, ∃ q, IsCidr q m) ∧ us.Pairwise Below ∧
          Covers us (fun a : A => e ≤ val a ∧ val a < val n.baseAddr + 2 ^ (width A - p))) ∧
      (e < val n.baseAddr + 2 ^ (width A - p) → val n.baseAddr + 2 ^ (width A - p) = 2 ^ width A →
        (outputSplit rt n hcs on).res = .panic .unwrapNone) ∧
      (e = val n.baseAddr + 2 ^ (width A - p) →
        ∃ us, Shows (outputSplit rt n hcs on) 0
          ("Subnet to split:\n".toList ++ t ++ ['\n'] ++ u ++ "Unused networks:\n".toList ++ netLines us) ∧
          (∀ m ∈ us, ∃ q, IsCidr q m) ∧ us.Pairwise Below ∧
          Covers us (fun a : A => val a + 1 = e ∨ val a = e)) := by
  obtain ⟨E, b, e, g1, g2, g3, g4, h1, h2⟩ := split_outcome rt n hcs hne
  have hlt : e < 2 ^ width A := by
    refine Nat.not_le.mp fun hge => ?_
    rw [h2 hge] at h; cases h
  obtain ⟨ms, ns', x1, x2, x3, x4, x5, -⟩ := h1 hlt
  rw [x1] at h
  cases h
  clear h1 h2
  have hns : ns ≠ [] := by
    intro hcon
    rw [hcon] at x5
    exact hne (List.length_eq_zero_iff.mp x5.symm)
  obtain ⟨t, u, mx, nx, last, y1, y2, y3, y4, y5, y6, y7, y8, -⟩ := outputSplit_some hon rt n hn.1 hcs ms ns b e x1 x5 hns x2 x3 hlt
  have hsum : 2 ^ E ≤ (hcs.map (fun c => 2 ^ needBits c)).sum := by
    obtain ⟨c, hc, hcE⟩ := g2
    have := sum_ge (f := fun c => 2 ^ needBits c) hc
    rwa [hcE] at this
  have hE1 : 1 ≤ E := by
    obtain ⟨c, hc, hcE⟩ := g2
    rw [← hcE]; exact needBits_pos (hnn c hc)
  have hb : b ≤ val n.baseAddr ∧ val n.baseAddr < b + 2 ^ E := by
    have := Nat.div_add_mod (val n.baseAddr) (2 ^ E)
    have := Nat.mod_lt (val n.baseAddr) (Nat.two_pow_pos E)
    rw [g3, Nat.mul_comm (_ / _)]
    omega
  obtain ⟨l, hl1, hl2⟩ := cidr_last hn
  rw [hl1] at y5
  cases y5
  have hsz := Nat.two_pow_pos (width A - p)
  have hend := cidr_end hn
  have hmem : Member n mx ↔ e ≤ val n.baseAddr + 2 ^ (width A - p) := by
    rw [cidr_member_iff hn]; omega
  have htop : max (val nx) (val last) = 2 ^ width A - 1 → e = val n.baseAddr + 2 ^ (width A - p) → False := by
    intro hmax heq
    -- then the end of the network is odd, so it has one address, but the smallest block has two
    have h2E : 2 ^ 1 ≤ 2 ^ E := Nat.pow_le_pow_right (by omega) hE1
    have hdw : 2 ∣ 2 ^ width A := ⟨2 ^ (width A - 1), by rw [← Nat.pow_succ']; congr 1; have := width_pos (A := A); omega⟩
    have hdb : 2 ∣ b := by
      rw [g3]
      exact Nat.dvd_trans (Nat.pow_dvd_pow 2 hE1) (Nat.dvd_mul_left _ _)
    have hds : 2 ∣ (hcs.map (fun c => 2 ^ needBits c)).sum := by
      clear hsum hmem x1 x5 y6 y7 y8 y2 g4 g1 g2 hne
      induction hcs with
      | nil => simp
      | cons c hcs ih =>
        rw [List.map_cons, List.sum_cons]
        refine Nat.dvd_add ?_ (ih (fun c hc => hnn c (by simp [hc])))
        exact Nat.pow_dvd_pow 2 (needBits_pos (hnn c (by simp)))
    omega
  refine ⟨E, b, e, t, u, ⟨g1, g2, g3, g4⟩, fun a => ?_, hb.1, by omega, hlt, ?_, y1, y2, ?_, ?_, ?_, ?_⟩
  · refine Iff.trans ?_ (x3.covers a)
    exact ⟨fun ⟨m, h3, h4⟩ => ⟨m, x2.mem_iff.mpr h3, h4⟩, fun ⟨m, h3, h4⟩ => ⟨m, x2.mem_iff.mp h3, h4⟩⟩
  · intro hfit
    obtain ⟨c, hc, hcE⟩ := g2
    have hEp : E ≤ width A - p := by rw [← hcE, needBits_le_iff]; exact hfit c hc
    rw [g3]
    exact Nat.div_mul_cancel (Nat.dvd_trans (Nat.pow_dvd_pow 2 hEp) (cidr_dvd hn))
  · intro hbig
    exact y6 (by rw [hmem]; omega)
  · intro hle hnt
    obtain ⟨us, z1, z2, z3, -, z5⟩ := C39_range_partial rt.profile nx last (fun x hx => by rw [between_iff] at hx; omega)
    refine ⟨us, y7 us (hmem.mpr (by omega)) z1, z2, z3, fun a => ?_⟩
    rw [z5 a, between_iff]
    omega
  · intro hle htp
    exact (y8 _ (hmem.mpr (by omega)) (C39_top_panics rt.profile nx last (by omega) (by omega))).1
  · intro heq
    obtain ⟨us, z1, z2, z3, -, z5⟩ := C39_range_partial rt.profile nx last (fun x hx hx' => by
      rw [between_iff] at hx
      have := val_lt nx
      have := val_lt last
      exact htop (by omega) heq)
    refine ⟨us, y7 us (hmem.mpr (by omega)) z1, z2, z3, fun a => ?_⟩
    rw [z5 a, between_iff]
    omega

/-! ## C53, C55 for an abstract display -/

omit hon in
theorem split_contained_iff (n : Net A) (p : Nat) (hn : IsCidr p n) (ns : List (Net A)) {b e : Nat} (hbe : b < e)
    (he : e < 2 ^ width A) (hc : Covers ns (fun a : A => b ≤ val a ∧ val a < e)) :
    (∀ m ∈ ns, Includes n m) ↔ val n.baseAddr ≤ b ∧ e ≤ val n.baseAddr + 2 ^ (width A - p) := by
  constructor
  · intro h
    have key : ∀ v, b ≤ v → v < e → val n.baseAddr ≤ v ∧ v < val n.baseAddr + 2 ^ (width A - p) := by
      intro v h1 h2
      obtain ⟨a, ha⟩ := val_surj (A := A) v (by omega)
      obtain ⟨m, hm, hma⟩ := (hc a).mpr ⟨by omega, by omega⟩
      have := (cidr_member_iff hn a).mp (h m hm a hma)
      omega
    have h1 := key b (by omega) hbe
    have h2 := key (e - 1) (by omega) (by omega)
    omega
  · rintro ⟨h1, h2⟩ m hm a ha
    have := (hc a).mp ⟨m, hm, ha⟩
    rw [cidr_member_iff hn]
    omega

end

/-- The output ends with the report that the network is too small, and the exit code is 0. -/
def SaysTooSmall (x : Cli Nat) : Prop := ∃ t, Shows x 0 (t ++ "Network is too small\n".toList)

/-- The output ends with the list of networks, headed as unused, and the exit code is 0. -/
def ListsUnused (x : Cli Nat) (us : List (Net A)) : Prop := ∃ t, Shows x 0 (t ++ "Unused networks:\n".toList ++ netLines us)

/-- The address is in the network but in none of the results. -/
def Unused (n : Net A) (ns : List (Net A)) (a : A) : Prop := Member n a ∧ ∀ m ∈ ns, ¬ Member m a

section
variable {on : Net A → Option A → Cli Unit} {D : Net A → Str → Prop} (hon : ∀ m, WF m → ∃ t, D m t ∧ Shows (on m none) () t)
include hon

theorem split_contained_partial (rt : Runtime) (n : Net A) (p : Nat) (hn : IsCidr p n) (hcs : List Int) (hne : hcs ≠ [])
    (hnn : ∀ c ∈ hcs, 0 ≤ c) (hfit : ∀ c ∈ hcs, c + 2 ≤ 2 ^ (width A - p)) (ns : List (Net A))
    (h : splitSubnet rt n hcs = .ok (some ns)) :
    ((∃ m ∈ ns, ¬ Includes n m) → SaysTooSmall (outputSplit rt n hcs on)) ∧
    ((∀ m ∈ ns, Includes n m) → (∃ us : List (Net A), ListsUnused (outputSplit rt n hcs on) us) ∨ (outputSplit rt n hcs on).res = .panic .unwrapNone) := by
  obtain ⟨-, b, e, t, u, -, h1, h2, h3, h4, h5, -, -, h6, h7, h8, h9⟩ := split_report hon rt n p hn hcs hne hnn ns h
  have hb := h5 hfit
  have hiff := split_contained_iff n p hn ns (by omega) h4 h1
  have hend := cidr_end hn
  constructor
  · rintro ⟨m, hm, hmn⟩
    refine ⟨_, h6 (Nat.not_le.mp fun hle => hmn (hiff.mpr ⟨by omega, hle⟩ m hm))⟩
  · intro hall
    have h10 := hiff.mp hall
    by_cases heq : e = val n.baseAddr + 2 ^ (width A - p)
    · obtain ⟨us, h11, -⟩ := h9 heq
      exact .inl ⟨us, _, h11⟩
    · by_cases htop : val n.baseAddr + 2 ^ (width A - p) = 2 ^ width A
      · exact .inr (h8 (by omega) htop)
      · obtain ⟨us, h11, -⟩ := h7 (by omega) (by omega)
        exact .inl ⟨us, _, h11⟩

theorem split_unused (rt : Runtime) (n : Net A) (p : Nat) (hn : IsCidr p n) (hcs : List Int) (hne : hcs ≠ [])
    (hnn : ∀ c ∈ hcs, 0 ≤ c) (ns : List (Net A)) (h : splitSubnet rt n hcs = .ok (some ns)) (hin : ∀ m ∈ ns, Includes n m) :
    ((∃ a, Unused n ns a) → val n.baseAddr + 2 ^ (width A - p) ≠ 2 ^ width A →
      ∃ us, ListsUnused (outputSplit rt n hcs on) us ∧ (∀ m ∈ us, ∃ q, IsCidr q m) ∧ us.Pairwise Below ∧ Covers us (Unused n ns)) ∧
    ((¬ ∃ a, Unused n ns a) →
      ∃ us, ListsUnused (outputSplit rt n hcs on) us ∧ (∀ m ∈ us, ∃ q, IsCidr q m) ∧ us.Pairwise Below ∧
        Covers us (fun a : A => val a + 1 = val n.baseAddr + 2 ^ (width A - p) ∨ val a = val n.baseAddr + 2 ^ (width A - p))) ∧
    ((∃ a, Unused n ns a) → val n.baseAddr + 2 ^ (width A - p) = 2 ^ width A →
      (outputSplit rt n hcs on).res = .panic .unwrapNone) := by
  obtain ⟨-, b, e, t, u, -, h1, h2, h3, h4, -, -, -, h6, h7, h8, h9⟩ := split_report hon rt n p hn hcs hne hnn ns h
  have hiff := (split_contained_iff n p hn ns (by omega) h4 h1).mp hin
  have hend := cidr_end hn
  have hun : ∀ a, Unused n ns a ↔ e ≤ val a ∧ val a < val n.baseAddr + 2 ^ (width A - p) := by
    intro a
    have h10 := h1 a
    rw [Unused, cidr_member_iff hn]
    constructor
    · rintro ⟨h11, h12⟩
      have : ¬ (b ≤ val a ∧ val a < e) := fun hh => by
        obtain ⟨m, hm, hma⟩ := h10.mpr hh
        exact h12 m hm hma
      omega
    · intro h11
      refine ⟨by omega, fun m hm hma => ?_⟩
      have := h10.mp ⟨m, hm, hma⟩
      omega
  have hex : (∃ a, Unused n ns a) ↔ e < val n.baseAddr + 2 ^ (width A - p) := by
    constructor
    · rintro ⟨a, ha⟩
      have := (hun a).mp ha
      omega
    · intro hlt
      obtain ⟨a, ha⟩ := val_surj (A := A) e h4
      exact ⟨a, (hun a).mpr (by omega)⟩
  rw [hex]
  refine ⟨fun hlt htop => ?_, fun hge => ?_, fun hlt htop => h8 hlt htop⟩
  · obtain ⟨us, h10, h11, h12, h13⟩ := h7 hlt (by omega)
    exact ⟨us, ⟨_, h10⟩, h11, h12, fun a => (h13 a).trans (hun a).symm⟩
  · have heq : e = val n.baseAddr + 2 ^ (width A - p) := by omega
    obtain ⟨us, h10, h11, h12, h13⟩ := h9 heq
    exact ⟨us, ⟨_, h10⟩, h11, h12, by rw [← heq]; exact h13⟩

end
end generic

/-! ## The command line -/

theorem parseHostCounts_spec : ∀ (counts : List Str) (hcs : List Int), parseHostCounts counts = .ok hcs ↔
    Pointwise (fun s c => CountText s c ∧ 0 ≤ c) counts hcs := by
  intro counts
  simp only [← parseBigInt_iff]
  induction counts with
  | nil =>
    intro hcs
    simp only [parseHostCounts, Except.ok.injEq]
    exact ⟨fun h => h ▸ .nil, fun h => by cases h; rfl⟩
  | cons s counts ih =>
    intro hcs
    rw [parseHostCounts]
    cases hp : parseBigInt s with
    | none =>
      simp only
      constructor
      · intro h; cases h
      · intro h
        cases h with
        | cons h1 _ => rw [hp] at h1; cases h1.1
    | some c =>
      simp only
      by_cases hc : c < 0
      · rw [if_pos hc]
        constructor
        · intro h; cases h
        · intro h
          cases h with
          | cons h1 _ =>
            rw [hp] at h1
            have := h1.1
            have := h1.2
            simp only [Option.some.injEq] at *
            omega
      · rw [if_neg hc]
        cases hr : parseHostCounts counts with
        | error m =>
          simp only
          constructor
          · intro h; cases h
          · intro h
            cases h with
            | cons _ h2 => rw [(ih _).mpr h2] at hr; cases hr
        | ok cs =>
          simp only [Except.ok.injEq]
          constructor
          · rintro rfl
            exact .cons ⟨hp, by omega⟩ ((ih _).mp hr)
          · intro h
            cases h with
            | cons h1 h2 =>
              rw [(ih _).mpr h2] at hr
              rw [hp] at h1
              cases hr
              cases h1.1
              rfl

/-- The host counts are the numbers written in the arguments. -/
abbrev Counts (counts : List Str) (hcs : List Int) : Prop := Pointwise (fun s c => CountText s c ∧ 0 ≤ c) counts hcs

theorem Counts.nonneg {counts : List Str} {hcs : List Int} (h : Counts counts hcs) : ∀ c ∈ hcs, 0 ≤ c := by
  induction h with
  | nil => simp
  | cons h1 _ ih =>
    intro c hc
    rcases List.mem_cons.mp hc with rfl | hc
    · exact h1.2
    · exact ih c hc

theorem Counts.ne_nil {counts : List Str} {hcs : List Int} (h : Counts counts hcs) (hne : counts ≠ []) : hcs ≠ [] := by
  cases h with
  | nil => exact absurd rfl hne
  | cons _ _ => simp

theorem split_v4 (rt : Runtime) (prog mode s : Str) (counts : List Str) (hne : counts ≠ []) (hcs : List Int) (hc : Counts counts hcs)
    (a : V4) (n : Net V4) (hp : parseNetspec s = .ok (.ok (.ipv4 a n))) :
    split rt (prog :: mode :: s :: counts) = outputSplit rt n hcs (outputIpv4Network rt) := by
  have hlen : ¬ (prog :: mode :: s :: counts).length < 4 := by
    have := List.length_pos_iff.mpr hne
    simp only [List.length_cons]; omega
  rw [split, if_neg hlen]
  simp [(parseHostCounts_spec counts hcs).mpr hc, hp]

theorem split_v6 (rt : Runtime) (prog mode s : Str) (counts : List Str) (hne : counts ≠ []) (hcs : List Int) (hc : Counts counts hcs)
    (a : V6) (n : Net V6) (hp : parseNetspec s = .ok (.ok (.ipv6 a n))) :
    split rt (prog :: mode :: s :: counts) = outputSplit rt n hcs (outputIpv6Network rt) := by
  have hlen : ¬ (prog :: mode :: s :: counts).length < 4 := by
    have := List.length_pos_iff.mpr hne
    simp only [List.length_cons]; omega
  rw [split, if_neg hlen]
  simp [(parseHostCounts_spec counts hcs).mpr hc, hp]

theorem display_none_v4 (rt : Runtime) (hcol : rt.colorsEnabled = true) (m : Net V4) (hm : WF m) :
    ∃ t, Display4 m none t ∧ Shows (outputIpv4Network rt m none) () t := C62_block_v4 rt hcol m hm none

theorem display_none_v6 (rt : Runtime) (hcol : rt.colorsEnabled = true) (m : Net V6) (hm : WF m) :
    ∃ t, Display6 m none t ∧ Shows (outputIpv6Network rt m none) () t := C62_block_v6 rt hcol m hm none

theorem display_any_v4 (rt : Runtime) (m : Net V4) (hm : WF m) :
    ∃ t, Display4In rt.colorsEnabled m none t ∧ Shows (outputIpv4Network rt m none) () t := C62_any_v4 rt m hm none

theorem display_any_v6 (rt : Runtime) (m : Net V6) (hm : WF m) :
    ∃ t, Display6In rt.colorsEnabled m none t ∧ Shows (outputIpv6Network rt m none) () t := C62_any_v6 rt m hm none

/-! ## C53: containment -/

/-- The full claim has no hypothesis `hfit`; without it it is false (`C53_counterexample`).  A request that is larger than the
network makes the first block start below the network. -/
theorem C53_contained_partial_v4 (rt : Runtime) (prog mode s : Str) (counts : List Str)
    (hne : counts ≠ []) (hcs : List Int) (hc : Counts counts hcs) (a : V4) (n : Net V4)
    (hp : parseNetspec s = .ok (.ok (.ipv4 a n))) (p : Nat) (hn : IsCidr p n) (hfit : ∀ c ∈ hcs, c + 2 ≤ 2 ^ (32 - p))
    (ns : List (Net V4)) (h : splitSubnet rt n hcs = .ok (some ns)) :
    ((∃ m ∈ ns, ¬ Includes n m) → SaysTooSmall (split rt (prog :: mode :: s :: counts))) ∧
    ((∀ m ∈ ns, Includes n m) → (∃ us : List (Net V4), ListsUnused (split rt (prog :: mode :: s :: counts)) us) ∨
      (split rt (prog :: mode :: s :: counts)).res = .panic .unwrapNone) := by
  rw [split_v4 rt prog mode s counts hne hcs hc a n hp]
  exact split_contained_partial (display_any_v4 rt) rt n p hn hcs (hc.ne_nil hne) hc.nonneg hfit ns h

/-! ## C55: unused addresses -/

/-- The full claim is this without the hypotheses that something is unused and that the network does not end at the end of the
address space.  In the other cases it is false, see the next two theorems. -/
theorem C55_unused_partial_v4 (rt : Runtime) (prog mode s : Str) (counts : List Str)
    (hne : counts ≠ []) (hcs : List Int) (hc : Counts counts hcs) (a : V4) (n : Net V4)
    (hp : parseNetspec s = .ok (.ok (.ipv4 a n))) (p : Nat) (hn : IsCidr p n) (ns : List (Net V4))
    (h : splitSubnet rt n hcs = .ok (some ns)) (hin : ∀ m ∈ ns, Includes n m) (hun : ∃ a, Unused n ns a)
    (htop : val n.baseAddr + 2 ^ (32 - p) ≠ 2 ^ 32) :
    ∃ us, ListsUnused (split rt (prog :: mode :: s :: counts)) us ∧ (∀ m ∈ us, ∃ q, IsCidr q m) ∧ us.Pairwise Below ∧
      Covers us (Unused n ns) := by
  rw [split_v4 rt prog mode s counts hne hcs hc a n hp]
  exact (split_unused (display_any_v4 rt) rt n p hn hcs (hc.ne_nil hne) hc.nonneg ns h hin).1 hun htop

/-- When every address is used, the last address of the network and the address after the network are listed as unused. -/
theorem C55_full_v4 (rt : Runtime) (prog mode s : Str) (counts : List Str)
    (hne : counts ≠ []) (hcs : List Int) (hc : Counts counts hcs) (a : V4) (n : Net V4)
    (hp : parseNetspec s = .ok (.ok (.ipv4 a n))) (p : Nat) (hn : IsCidr p n) (ns : List (Net V4))
    (h : splitSubnet rt n hcs = .ok (some ns)) (hin : ∀ m ∈ ns, Includes n m) (hun : ¬ ∃ a, Unused n ns a) :
    ∃ us, ListsUnused (split rt (prog :: mode :: s :: counts)) us ∧ (∀ m ∈ us, ∃ q, IsCidr q m) ∧ us.Pairwise Below ∧
      Covers us (fun x : V4 => val x + 1 = val n.baseAddr + 2 ^ (32 - p) ∨ val x = val n.baseAddr + 2 ^ (32 - p)) := by
  rw [split_v4 rt prog mode s counts hne hcs hc a n hp]
  exact (split_unused (display_any_v4 rt) rt n p hn hcs (hc.ne_nil hne) hc.nonneg ns h hin).2.1 hun

/-- When something is unused and the network ends at the end of the address space, the program panics. -/
theorem C55_top_panics_v4 (rt : Runtime) (prog mode s : Str) (counts : List Str)
    (hne : counts ≠ []) (hcs : List Int) (hc : Counts counts hcs) (a : V4) (n : Net V4)
    (hp : parseNetspec s = .ok (.ok (.ipv4 a n))) (p : Nat) (hn : IsCidr p n) (ns : List (Net V4))
    (h : splitSubnet rt n hcs = .ok (some ns)) (hin : ∀ m ∈ ns, Includes n m) (hun : ∃ a, Unused n ns a)
    (htop : val n.baseAddr + 2 ^ (32 - p) = 2 ^ 32) :
    (split rt (prog :: mode :: s :: counts)).res = .panic .unwrapNone := by
  rw [split_v4 rt prog mode s counts hne hcs hc a n hp]
  exact (split_unused (display_any_v4 rt) rt n p hn hcs (hc.ne_nil hne) hc.nonneg ns h hin).2.2 hun htop

/-! ## C53: containment -/

/-- The full claim has no hypothesis `hfit`; without it it is false (`C53_counterexample`).  A request that is larger than the
network makes the first block start below the network. -/
theorem C53_contained_partial_v6 (rt : Runtime) (prog mode s : Str) (counts : List Str)
    (hne : counts ≠ []) (hcs : List Int) (hc : Counts counts hcs) (a : V6) (n : Net V6)
    (hp : parseNetspec s = .ok (.ok (.ipv6 a n))) (p : Nat) (hn : IsCidr p n) (hfit : ∀ c ∈ hcs, c + 2 ≤ 2 ^ (128 - p))
    (ns : List (Net V6)) (h : splitSubnet rt n hcs = .ok (some ns)) :
    ((∃ m ∈ ns, ¬ Includes n m) → SaysTooSmall (split rt (prog :: mode :: s :: counts))) ∧
    ((∀ m ∈ ns, Includes n m) → (∃ us : List (Net V6), ListsUnused (split rt (prog :: mode :: s :: counts)) us) ∨
      (split rt (prog :: mode :: s :: counts)).res = .panic .unwrapNone) := by
  rw [split_v6 rt prog mode s counts hne hcs hc a n hp]
  exact split_contained_partial (display_any_v6 rt) rt n p hn hcs (hc.ne_nil hne) hc.nonneg hfit ns h

/-! ## C55: unused addresses -/

/-- The full claim is this without the hypotheses that something is unused and that the network does not end at the end of the
address space.  In the other cases it is false, see the next two theorems. -/
theorem C55_unused_partial_v6 (rt : Runtime) (prog mode s : Str) (counts : List Str)
    (hne : counts ≠ []) (hcs : List Int) (hc : Counts counts hcs) (a : V6) (n : Net V6)
    (hp : parseNetspec s = .ok (.ok (.ipv6 a n))) (p : Nat) (hn : IsCidr p n) (ns : List (Net V6))
    (h : splitSubnet rt n hcs = .ok (some ns)) (hin : ∀ m ∈ ns, Includes n m) (hun : ∃ a, Unused n ns a)
    (htop : val n.baseAddr + 2 ^ (128 - p) ≠ 2 ^ 128) :
    ∃ us, ListsUnused (split rt (prog :: mode :: s :: counts)) us ∧ (∀ m ∈ us, ∃ q, IsCidr q m) ∧ us.Pairwise Below ∧
      Covers us (Unused n ns) := by
  rw [split_v6 rt prog mode s counts hne hcs hc a n hp]
  exact (split_unused (display_any_v6 rt) rt n p hn hcs (hc.ne_nil hne) hc.nonneg ns h hin).1 hun htop

/-- When every address is used, the last address of the network and the address after the network are listed as unused. -/
theorem C55_full_v6 (rt : Runtime) (prog mode s : Str) (counts : List Str)
    (hne : counts ≠ []) (hcs : List Int) (hc : Counts counts hcs) (a : V6) (n : Net V6)
    (hp : parseNetspec s = .ok (.ok (.ipv6 a n))) (p : Nat) (hn : IsCidr p n) (ns : List (Net V6))
    (h : splitSubnet rt n hcs = .ok (some ns)) (hin : ∀ m ∈ ns, Includes n m) (hun : ¬ ∃ a, Unused n ns a) :
    ∃ us, ListsUnused (split rt (prog :: mode :: s :: counts)) us ∧ (∀ m ∈ us, ∃ q, IsCidr q m) ∧ us.Pairwise Below ∧
      Covers us (fun x : V6 => val x + 1 = val n.baseAddr + 2 ^ (128 - p) ∨ val x = val n.baseAddr + 2 ^ (128 - p)) := by
  rw [split_v6 rt prog mode s counts hne hcs hc a n hp]
  exact (split_unused (display_any_v6 rt) rt n p hn hcs (hc.ne_nil hne) hc.nonneg ns h hin).2.1 hun

/-- When something is unused and the network ends at the end of the address space, the program panics. -/
theorem C55_top_panics_v6 (rt : Runtime) (prog mode s : Str) (counts : List Str)
    (hne : counts ≠ []) (hcs : List Int) (hc : Counts counts hcs) (a : V6) (n : Net V6)
    (hp : parseNetspec s = .ok (.ok (.ipv6 a n))) (p : Nat) (hn : IsCidr p n) (ns : List (Net V6))
    (h : splitSubnet rt n hcs = .ok (some ns)) (hin : ∀ m ∈ ns, Includes n m) (hun : ∃ a, Unused n ns a)
    (htop : val n.baseAddr + 2 ^ (128 - p) = 2 ^ 128) :
    (split rt (prog :: mode :: s :: counts)).res = .panic .unwrapNone := by
  rw [split_v6 rt prog mode s counts hne hcs hc a n hp]
  exact (split_unused (display_any_v6 rt) rt n p hn hcs (hc.ne_nil hne) hc.nonneg ns h hin).2.2 hun htop

/-! ## Concrete cases -/

theorem counts_of (l : List (Str × Int)) (h : l.all (fun x => decide (parseBigInt x.1 = some x.2) && decide (0 ≤ x.2)) = true) :
    Counts (l.map (·.1)) (l.map (·.2)) := by
  induction l with
  | nil => exact .nil
  | cons x l ih =>
    rw [List.all_cons, Bool.and_eq_true, Bool.and_eq_true] at h
    exact .cons ⟨(parseBigInt_iff _ _).mp (of_decide_eq_true h.1.1), of_decide_eq_true h.1.2⟩ (ih h.2)

/-- A `/24` given in an example. -/
def net24 (a : BitVec 32) : Net V4 := ⟨⟨a⟩, ⟨0xFFFFFF00#32⟩, some 24⟩

theorem needMax_eq {hcs : List Int} {E F : Nat} (h1 : ∀ c ∈ hcs, needBits c ≤ E) (h2 : ∃ c ∈ hcs, needBits c = E)
    (h3 : ∀ c ∈ hcs, needBits c ≤ F) (h4 : ∃ c ∈ hcs, needBits c = F) : E = F := by
  obtain ⟨c, hc, rfl⟩ := h2
  obtain ⟨d, hd, rfl⟩ := h4
  exact Nat.le_antisymm (h3 c hc) (h1 d hd)

/-- `splitLoop` with a bound on the growing loop, for evaluation of concrete cases. -/
def splitLoopFuel (k : Nat) (pr : Profile) : Net V4 → List (Nat × Net V4) → List (Nat × Int) → Option (Exec (Option (List (Nat × Net V4))))
  | _, m, [] => some (.ok (some m))
  | cur, m, (i, hostCount) :: rest =>
    match loopFuel (growStep hostCount) k cur with
    | some (.ok cur) =>
      match cur.cidrPrefix with
      | some pfx =>
        if pfx = 0 then some (.ok none)
        else match cur.nextSubnetBaseAddr pr with
          | .ok none => some (.ok none)
          | .ok (some nsba) =>
            match Net.newWithPrefix nsba (IpAddr.byteCount cur.subnetMask * 8) with
            | .ok next => splitLoopFuel k pr next (mapInsert i cur m) rest
            | _ => none
          | _ => none
      | none => none
    | _ => none

theorem splitLoop_of_fuel (k : Nat) (pr : Profile) (reqs : List (Nat × Int)) : ∀ (cur : Net V4) (m : List (Nat × Net V4)) r,
    splitLoopFuel k pr cur m reqs = some r → splitLoop pr cur m reqs = r := by
  induction reqs with
  | nil => intro cur m r h; cases h; rfl
  | cons x reqs ih =>
    obtain ⟨i, hc⟩ := x
    intro cur m r h
    rw [splitLoopFuel] at h
    rw [splitLoop]
    split at h
    · rename_i cur' hl
      rw [loopM_of_fuel hl]
      split at h
      · rename_i pfx hpfx
        simp only [Exec.ok_bind, hpfx, Exec.unwrap_some]
        split at h
        · rename_i h0
          cases h
          rw [if_pos h0]; rfl
        · rename_i h0
          rw [if_neg h0]
          split at h
          · rename_i hnx; cases h; rw [hnx]; rfl
          · rename_i nsba hnx
            rw [hnx]
            split at h
            · rename_i next hnext
              simp only [Exec.ok_bind, hnext]
              exact ih _ _ _ h
            · cases h
          · cases h
      · cases h
    · cases h

theorem splitSubnet_of_fuel (k : Nat) (pr : Profile) (col : Bool) (n cur : Net V4) (hcs : List Int) (m : List (Nat × Net V4))
    (h1 : Net.newWithPrefix n.baseAddr 32 = .ok cur)
    (h2 : splitLoopFuel k pr cur [] (insertionSort (fun x y : Nat × Int => decide (y.2 ≤ x.2)) (hcs.zipIdx.map (fun (num, i) => (i, num)))) =
      some (.ok (some m))) :
    splitSubnet (evalRuntime pr col) n hcs =
      .ok (some ((insertionSort (fun x y : Nat × Net V4 => decide (x.1 ≤ y.1)) m).map (·.2))) := by
  have h3 : IpAddr.byteCount n.subnetMask * 8 = 32 := rfl
  simp only [splitSubnet, h3, h1, Exec.ok_bind]
  have h4 := splitLoop_of_fuel _ _ _ _ _ _ h2
  simp only [evalRuntime, h4, Exec.ok_bind]
  rfl

/-- 20, 100 and 28 hosts in `192.0.2.0/24`: the results are in the order of the requests, the largest is allocated first. -/
theorem split_example : splitSubnet (evalRuntime .checked true) (net24 0xC0000200#32) [20, 100, 28] =
    .ok (some [mk4 0xC00002A0#32 0xFFFFFFE0#32, mk4 0xC0000200#32 0xFFFFFF80#32, mk4 0xC0000280#32 0xFFFFFFE0#32]) := by
  refine (splitSubnet_of_fuel 10 .checked true _ ⟨⟨0xC0000200#32⟩, ⟨0xFFFFFFFF#32⟩, some 32⟩ _
    [(1, mk4 0xC0000200#32 0xFFFFFF80#32), (2, mk4 0xC0000280#32 0xFFFFFFE0#32), (0, mk4 0xC00002A0#32 0xFFFFFFE0#32)] (by decide +kernel) (by decide +kernel)).trans ?_
  decide +kernel

theorem mk4_wf (a m : BitVec 32) : WF (mk4 a m) := newWithMask_wf _ _

/-- The hypotheses of the theorems on containment and unused addresses hold in this case. -/
example : Counts ["20".toList, "100".toList, "28".toList] [20, 100, 28] ∧
    parseNetspec "192.0.2.1/24".toList = .ok (.ok (.ipv4 ⟨0xC0000201#32⟩ (net24 0xC0000200#32))) ∧
    IsCidr 24 (net24 0xC0000200#32) ∧
    (∀ c ∈ ([20, 100, 28] : List Int), c + 2 ≤ 2 ^ (32 - 24)) ∧
    (∀ m ∈ [mk4 0xC00002A0#32 0xFFFFFFE0#32, mk4 0xC0000200#32 0xFFFFFF80#32, mk4 0xC0000280#32 0xFFFFFFE0#32],
      Includes (net24 0xC0000200#32) m) ∧
    Unused (net24 0xC0000200#32)
      [mk4 0xC00002A0#32 0xFFFFFFE0#32, mk4 0xC0000200#32 0xFFFFFF80#32, mk4 0xC0000280#32 0xFFFFFFE0#32] ⟨0xC00002C7#32⟩ ∧
    val (net24 0xC0000200#32).baseAddr + 2 ^ (32 - 24) ≠ 2 ^ 32 := by
  have hp : parseNetspec "192.0.2.1/24".toList = .ok (.ok (.ipv4 ⟨0xC0000201#32⟩ (net24 0xC0000200#32))) := by decide +kernel
  have hn : IsCidr 24 (net24 0xC0000200#32) := ⟨(C33_parsed_good _ _ hp).2.1, rfl⟩
  refine ⟨counts_of [("20".toList, 20), ("100".toList, 100), ("28".toList, 28)] (by decide +kernel), hp, hn, by decide, ?_, ⟨?_, ?_⟩,
    by decide +kernel⟩
  · intro m hm
    have hw : WF m := by
      simp only [List.mem_cons, List.not_mem_nil, or_false] at hm
      rcases hm with rfl | rfl | rfl <;> exact mk4_wf _ _
    refine (superset_iff hn.1 hw).mp ?_
    clear hw
    revert m
    decide +kernel
  · exact (contains_iff hn.1.hz _).mp (by decide +kernel)
  · intro m hm hc
    have hw : WF m := by
      simp only [List.mem_cons, List.not_mem_nil, or_false] at hm
      rcases hm with rfl | rfl | rfl <;> exact mk4_wf _ _
    rw [← contains_iff hw.hz] at hc
    clear hw
    revert m
    decide +kernel

/-- The requests of the example fit: the host bits are 5, 7 and 5. -/
example : Pointwise HostBitsFor [20, 100, 28] [5, 7, 5] ∧ (([5, 7, 5] : List Nat).map (fun e => 2 ^ e)).sum ≤ 2 ^ (32 - 24) := by
  refine ⟨.cons ?_ (.cons ?_ (.cons ?_ .nil)), by decide⟩ <;> rw [hostBitsFor_iff] <;> decide +kernel

/-- 200 hosts fit into `255.255.255.0/24`, but are refused. -/
theorem C54_counterexample (rt : Runtime) :
    IsCidr 24 (net24 0xFFFFFF00#32) ∧ Pointwise HostBitsFor [200] [8] ∧ (([8] : List Nat).map (fun e => 2 ^ e)).sum ≤ 2 ^ (32 - 24) ∧
    splitSubnet rt (net24 0xFFFFFF00#32) [200] = .ok none := by
  have hp : parseNetspec "255.255.255.0/24".toList = .ok (.ok (.ipv4 ⟨0xFFFFFF00#32⟩ (net24 0xFFFFFF00#32))) := by decide +kernel
  have hn : IsCidr 24 (net24 0xFFFFFF00#32) := ⟨(C33_parsed_good _ _ hp).2.1, rfl⟩
  have hh : Pointwise HostBitsFor [200] [8] := .cons (by rw [hostBitsFor_iff]; decide +kernel) .nil
  exact ⟨hn, hh, by decide, C54_top_fails rt _ 24 hn _ _ hh (by decide +kernel) (by decide +kernel)⟩

/-- Everything about an allocation in a `/24`. -/
theorem split24 (rt : Runtime) (a : BitVec 32) (hn : IsCidr 24 (net24 a)) (hcs : List Int)
    (hne : hcs ≠ []) (E S : Nat) (h1 : ∀ c ∈ hcs, needBits c ≤ E) (h2 : ∃ c ∈ hcs, needBits c = E)
    (hE : E ≤ 8) (hS : (hcs.map (fun c => 2 ^ needBits c)).sum = S) (hS8 : S ≤ 256) (hend : a.toNat + S < 2 ^ 32) :
    ∃ ns, splitSubnet rt (net24 a) hcs = .ok (some ns) ∧ (∀ m ∈ ns, Includes (net24 a) m) ∧
      ∀ x : V4, Unused (net24 a) ns x ↔ a.toNat + S ≤ val x ∧ val x < a.toNat + 256 := by
  have hd := cidr_dvd hn
  have hv : val (net24 a).baseAddr = a.toNat := rfl
  have hw : width V4 = 32 := rfl
  rw [hv, hw] at hd
  obtain ⟨E', b, e, g1, g2, g3, g4, k1, -⟩ := split_outcome rt (net24 a) hcs hne
  have : E' = E := needMax_eq g1 g2 h1 h2
  subst this
  have hb : b = a.toNat := by
    rw [g3, hv]
    exact Nat.div_mul_cancel (Nat.dvd_trans (Nat.pow_dvd_pow 2 (by omega)) hd)
  rw [hS, hb] at g4
  obtain ⟨ms, ns, x1, x2, x3, -⟩ := k1 (by rw [hw]; omega)
  clear k1
  have hcov : Covers ns (fun x : V4 => a.toNat ≤ val x ∧ val x < e) := by
    intro x
    have := x3.covers x
    rw [hb] at this
    refine Iff.trans ?_ this
    exact ⟨fun ⟨m, h3, h4⟩ => ⟨m, x2.mem_iff.mpr h3, h4⟩, fun ⟨m, h3, h4⟩ => ⟨m, x2.mem_iff.mp h3, h4⟩⟩
  refine ⟨ns, x1, ?_, ?_⟩
  · intro m hm x hx
    have := (hcov x).mp ⟨m, hm, hx⟩
    rw [cidr_member_iff hn, hv, hw]
    omega
  · intro x
    have hx := hcov x
    rw [Unused, cidr_member_iff hn, hv, hw]
    constructor
    · rintro ⟨h11, h12⟩
      have : ¬ (a.toNat ≤ val x ∧ val x < e) := fun hh => by
        obtain ⟨m, hm, hma⟩ := hx.mpr hh
        exact h12 m hm hma
      omega
    · intro h11
      refine ⟨by omega, fun m hm hma => ?_⟩
      have := hx.mp ⟨m, hm, hma⟩
      omega

/-- `192.0.2.0/24` into four networks of 60 hosts: nothing is unused, but `192.0.2.255` and `192.0.3.0` are listed. -/
theorem C55_counterexample (rt : Runtime) :
    ∃ ns us, splitSubnet rt (net24 0xC0000200#32) [60, 60, 60, 60] = .ok (some ns) ∧
      (∀ m ∈ ns, Includes (net24 0xC0000200#32) m) ∧ (¬ ∃ x, Unused (net24 0xC0000200#32) ns x) ∧
      ListsUnused (split rt ("ripcalc".toList :: "-s".toList :: "192.0.2.0/24".toList :: ["60".toList, "60".toList, "60".toList, "60".toList])) us ∧
      Covers us (fun x : V4 => x = ⟨0xC00002FF#32⟩ ∨ x = ⟨0xC0000300#32⟩) := by
  have hp : parseNetspec "192.0.2.0/24".toList = .ok (.ok (.ipv4 ⟨0xC0000200#32⟩ (net24 0xC0000200#32))) := by decide +kernel
  have hn : IsCidr 24 (net24 0xC0000200#32) := ⟨(C33_parsed_good _ _ hp).2.1, rfl⟩
  have hc : Counts ["60".toList, "60".toList, "60".toList, "60".toList] [60, 60, 60, 60] :=
    counts_of [("60".toList, 60), ("60".toList, 60), ("60".toList, 60), ("60".toList, 60)] (by decide +kernel)
  obtain ⟨ns, h1, h2, h3⟩ := split24 rt _ hn [60, 60, 60, 60] (by simp) 6 256 (by decide +kernel) (by decide +kernel) (by decide)
    (by decide +kernel) (by decide) (by decide)
  have h4 : ¬ ∃ x, Unused (net24 0xC0000200#32) ns x := fun ⟨x, hx⟩ => by
    have := (h3 x).mp hx
    omega
  obtain ⟨us, h5, -, -, h6⟩ := C55_full_v4 rt "ripcalc".toList "-s".toList "192.0.2.0/24".toList _ (by simp) _ hc _ _ hp 24 hn ns h1 h2 h4
  refine ⟨ns, us, h1, h2, h4, h5, fun x => (h6 x).trans ?_⟩
  have e1 : val (⟨0xC00002FF#32⟩ : V4) = 0xC00002FF := rfl
  have e2 : val (⟨0xC0000300#32⟩ : V4) = 0xC0000300 := rfl
  have e3 : val (net24 0xC0000200#32).baseAddr = 0xC0000200 := rfl
  constructor
  · rintro (h | h)
    · exact .inl (val_inj _ _ (by omega))
    · exact .inr (val_inj _ _ (by rw [h, e2, e3]))
  · rintro (rfl | rfl) <;> omega

/-- `255.255.255.0/24` with one network of 60 hosts: the program panics when it lists the unused networks. -/
theorem C55_counterexample_top (rt : Runtime) :
    ∃ ns, splitSubnet rt (net24 0xFFFFFF00#32) [60] = .ok (some ns) ∧ (∀ m ∈ ns, Includes (net24 0xFFFFFF00#32) m) ∧
      (split rt ("ripcalc".toList :: "-s".toList :: "255.255.255.0/24".toList :: ["60".toList])).res = .panic .unwrapNone := by
  have hp : parseNetspec "255.255.255.0/24".toList = .ok (.ok (.ipv4 ⟨0xFFFFFF00#32⟩ (net24 0xFFFFFF00#32))) := by decide +kernel
  have hn : IsCidr 24 (net24 0xFFFFFF00#32) := ⟨(C33_parsed_good _ _ hp).2.1, rfl⟩
  have hc : Counts ["60".toList] [60] := counts_of [("60".toList, 60)] (by decide +kernel)
  obtain ⟨ns, h1, h2, h3⟩ := split24 rt _ hn [60] (by simp) 6 64 (by decide +kernel) (by decide +kernel) (by decide)
    (by decide +kernel) (by decide) (by decide)
  have h4 : Unused (net24 0xFFFFFF00#32) ns (⟨0xFFFFFFAA#32⟩ : V4) := (h3 _).mpr (by decide +kernel)
  exact ⟨ns, h1, h2, C55_top_panics_v4 rt _ _ _ _ (by simp) _ hc _ _ hp 24 hn ns h1 h2 ⟨_, h4⟩ (by decide +kernel)⟩

/-- 300 hosts in `192.0.3.0/24`: the result is not inside the network, and the command does not say that it is too small. -/
theorem C53_counterexample (rt : Runtime) :
    parseNetspec "192.0.3.0/24".toList = .ok (.ok (.ipv4 ⟨0xC0000300#32⟩ (net24 0xC0000300#32))) ∧
    IsCidr 24 (net24 0xC0000300#32) ∧
    ∃ ns, splitSubnet rt (net24 0xC0000300#32) [300] = .ok (some ns) ∧ (∃ m ∈ ns, ¬ Includes (net24 0xC0000300#32) m) ∧
      ∃ us : List (Net V4), ListsUnused (split rt ["ripcalc".toList, "-s".toList, "192.0.3.0/24".toList, "300".toList]) us := by
  have hp : parseNetspec "192.0.3.0/24".toList = .ok (.ok (.ipv4 ⟨0xC0000300#32⟩ (net24 0xC0000300#32))) := by decide +kernel
  have hn : IsCidr 24 (net24 0xC0000300#32) := ⟨(C33_parsed_good _ _ hp).2.1, rfl⟩
  have hc : Counts ["300".toList] [300] := counts_of [("300".toList, 300)] (by decide +kernel)
  refine ⟨hp, hn, ?_⟩
  obtain ⟨E, b, e, g1, g2, g3, g4, h1, -⟩ := split_outcome rt (net24 0xC0000300#32) [300] (by simp)
  have hE : E = 9 := needMax_eq g1 g2 (by decide +kernel) (by decide +kernel)
  subst hE
  have hv : val (net24 0xC0000300#32).baseAddr = 0xC0000300 := rfl
  have hs : (([300] : List Int).map (fun c => 2 ^ needBits c)).sum = 512 := by decide +kernel
  rw [hs] at g4
  rw [hv] at g3
  have hw : width V4 = 32 := rfl
  obtain ⟨-, ns, x1, -⟩ := h1 (by rw [hw]; omega)
  clear h1
  obtain ⟨E, b', e', t, u, ⟨k1, k2, k3, k4⟩, y1, y2, y3, y4, -, -, -, -, -, -, y9⟩ :=
    split_report (display_any_v4 rt) rt (net24 0xC0000300#32) 24 hn [300] (by simp) hc.nonneg ns x1
  have hE : E = 9 := needMax_eq k1 k2 (by decide +kernel) (by decide +kernel)
  subst hE
  rw [hs] at k4
  rw [hv] at k3 y9
  rw [hw] at y9
  refine ⟨ns, x1, ?_, ?_⟩
  · have hiff := split_contained_iff (net24 0xC0000300#32) 24 hn ns (by omega) y4 y1
    have : ¬ ∀ m ∈ ns, Includes (net24 0xC0000300#32) m := by
      rw [hiff, hv]; omega
    simpa using this
  · obtain ⟨us, z, -⟩ := y9 (by omega)
    rw [split_v4 rt _ _ _ _ (by simp) _ hc _ _ hp]
    exact ⟨us, _, z⟩

end Ripcalc
