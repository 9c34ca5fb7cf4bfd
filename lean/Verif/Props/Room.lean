import Verif.Proofs.Rfc
import Verif.Props.AskLess
/-!
# C107: splitting finds room whenever there is room

The results of splitting compared with any other way to serve the requests.
-/
namespace Ripcalc
open AddrSpec LawfulIpAddr

/-- The networks serve the requests, one each in order: none has an address in common with another, and each has at least two
addresses more than hosts are requested. -/
def Serves [AddrSpec A] (hcs : List Int) (ms : List (Net A)) : Prop :=
  ms.Pairwise Disjoint ∧ Pointwise (fun (c : Int) (m : Net A) => ∃ xs : List A, xs.Nodup ∧ (∀ x ∈ xs, Member m x) ∧ c + 2 ≤ xs.length) hcs ms

section
variable {A : Type} [IpAddr A] [AddrSpec A] [LawfulIpAddr A]

/-- A network with enough addresses is at least as large as the smallest block. -/
theorem room_pow {m : Net A} {c : Int} {xs : List A} (hx : xs.Nodup) (hm : ∀ x ∈ xs, Member m x) (hc : c + 2 ≤ xs.length) :
    2 ^ needBits c ≤ (memberList m).length := by
  obtain ⟨l1, -⟩ := memberList_listing m
  have h1 := (nodup_subset_length hx (fun x h => (l1 x).mpr (hm x h))).1
  rw [memberList_length] at *
  refine Nat.pow_le_pow_right (by decide) ((needBits_le_iff _ _).mpr ?_)
  have : ((2 ^ hostBits m : Nat) : Int) = 2 ^ hostBits m := by push_cast; rfl
  omega

/-- The addresses of networks that serve the requests, in one list: at least as many as in the blocks. -/
theorem serves_list {hcs : List Int} {ms : List (Net A)} (h : Serves hcs ms) :
    ∃ ys : List A, ys.Nodup ∧ (∀ a, a ∈ ys ↔ ∃ m ∈ ms, Member m a) ∧ (hcs.map (fun c => 2 ^ needBits c)).sum ≤ ys.length := by
  obtain ⟨hd, hp⟩ := h
  induction hp with
  | nil => exact ⟨[], .nil, by simp, by simp⟩
  | @cons c m hcs ms h _ ih =>
    obtain ⟨hd1, hd2⟩ := List.pairwise_cons.mp hd
    obtain ⟨ys, h1, h2, h3⟩ := ih hd2
    obtain ⟨l1, l2⟩ := memberList_listing m
    obtain ⟨xs, x1, x2, x3⟩ := h
    refine ⟨memberList m ++ ys, ?_, ?_, ?_⟩
    · rw [List.nodup_append]
      refine ⟨l2.imp (fun hab e => by rw [e] at hab; exact Nat.lt_irrefl _ hab), h1, ?_⟩
      intro a ha b hb e
      subst e
      obtain ⟨o', ho', hm⟩ := (h2 a).mp hb
      exact hd1 o' ho' a ⟨(l1 a).mp ha, hm⟩
    · intro a
      rw [List.mem_append, l1, h2]; simp
    · have := room_pow x1 x2 x3
      simp only [List.map_cons, List.sum_cons, List.length_append]
      omega

/-- What splitting returns serves the requests. -/
theorem split_serves (rt : Runtime) (n : Net A) (hcs : List Int) (ns : List (Net A)) (h : splitSubnet rt n hcs = .ok (some ns)) :
    Serves hcs ns := by
  obtain ⟨r, hr, hs⟩ := C51_requests rt n hcs
  rw [h] at hr
  cases hr
  obtain ⟨hl, hi⟩ := hs ns rfl
  constructor
  · by_cases hne : hcs = []
    · subst hne
      rw [List.length_nil] at hl
      rw [List.length_eq_zero_iff.mp hl]
      exact .nil
    · obtain ⟨-, -, -, -, -, -, -, hd⟩ := C52_layout rt n hcs ns h hne
      exact hd
  · clear h hs
    induction hcs generalizing ns with
    | nil =>
      rw [List.length_nil] at hl
      rw [List.length_eq_zero_iff.mp hl]
      exact .nil
    | cons c hcs ih =>
      rcases ns with _ | ⟨m, ns⟩
      · simp at hl
      · refine .cons ?_ (ih ns (by simpa using hl) fun i c m h1 h2 => hi (i + 1) c m h1 h2)
        obtain ⟨q, hq, h1, -⟩ := hi 0 c m rfl rfl
        obtain ⟨l1, l2⟩ := memberList_listing m
        refine ⟨memberList m, l2.imp (fun hab e => by rw [e] at hab; exact Nat.lt_irrefl _ hab), fun x hx => (l1 x).mp hx, ?_⟩
        rw [memberList_length, (isCidr_netBits hq).2.1]
        push_cast
        exact h1

/-- Networks inside a CIDR network that serve the requests: the blocks are together not larger than it. -/
theorem serves_sum {n : Net A} {p : Nat} (hn : IsCidr p n) {hcs : List Int} {es : List Nat} (hes : Pointwise HostBitsFor hcs es)
    {ms : List (Net A)} (hs : Serves hcs ms) (hin : ∀ m ∈ ms, Includes n m) : (es.map (fun e => 2 ^ e)).sum ≤ 2 ^ (width A - p) := by
  obtain ⟨ys, h1, h2, h3⟩ := serves_list hs
  obtain ⟨l1, -⟩ := memberList_listing n
  have h4 := (nodup_subset_length h1 (T := memberList n) (fun x hx => by
    obtain ⟨m, hm, hx⟩ := (h2 x).mp hx
    exact (l1 x).mpr (hin m hm x hx))).1
  rw [memberList_length, (isCidr_netBits hn).2.1] at h4
  rw [pointwise_need hes, sum_pow_need]
  omega

/-- If the requests can be served by any networks inside a CIDR network, splitting returns networks inside it; except that it refuses
if the blocks would end with the last address of all. -/
theorem C107_room (rt : Runtime) (n : Net A) (p : Nat) (hn : IsCidr p n) (hcs : List Int) (es : List Nat)
    (hes : Pointwise HostBitsFor hcs es) (ms : List (Net A)) (hs : Serves hcs ms) (hin : ∀ m ∈ ms, Includes n m) :
    (val n.baseAddr + (es.map (fun e => 2 ^ e)).sum ≠ 2 ^ width A ∧ ∃ ns, splitSubnet rt n hcs = .ok (some ns) ∧ ∀ m ∈ ns, Includes n m) ∨
    (val n.baseAddr + (es.map (fun e => 2 ^ e)).sum = 2 ^ width A ∧ splitSubnet rt n hcs = .ok none) := by
  have hsum := serves_sum hn hes hs hin
  by_cases htop : val n.baseAddr + (es.map (fun e => 2 ^ e)).sum = 2 ^ width A
  · exact Or.inr ⟨htop, C54_top_fails rt n p hn hcs es hes hsum htop⟩
  · exact Or.inl ⟨htop, C54_fits_partial rt n p hn hcs es hes hsum htop⟩

/-- So for a CIDR network splitting succeeds within it exactly if there is any way to serve the requests within it and the blocks do not
end with the last address of all. -/
theorem C107_exactly (rt : Runtime) (n : Net A) (p : Nat) (hn : IsCidr p n) (hcs : List Int) (es : List Nat)
    (hes : Pointwise HostBitsFor hcs es) :
    (∃ ns, splitSubnet rt n hcs = .ok (some ns) ∧ ∀ m ∈ ns, Includes n m) ↔
      (∃ ms, Serves hcs ms ∧ ∀ m ∈ ms, Includes n m) ∧ val n.baseAddr + (es.map (fun e => 2 ^ e)).sum ≠ 2 ^ width A := by
  constructor
  · rintro ⟨ns, h, hin⟩
    have hs := split_serves rt n hcs ns h
    refine ⟨⟨ns, hs, hin⟩, fun htop => ?_⟩
    rcases C107_room rt n p hn hcs es hes ns hs hin with ⟨h1, -⟩ | ⟨-, h1⟩
    · exact h1 htop
    · rw [h] at h1; cases h1
  · rintro ⟨⟨ms, hs, hin⟩, htop⟩
    rcases C107_room rt n p hn hcs es hes ms hs hin with ⟨-, h1⟩ | ⟨h1, -⟩
    · exact h1
    · exact absurd h1 htop

/-- No other way to serve the requests from the first used address on ends earlier, for any mask. -/
theorem C107_compact (rt : Runtime) (n : Net A) (hcs : List Int) (hne : hcs ≠ []) (ns : List (Net A))
    (h : splitSubnet rt n hcs = .ok (some ns)) (ms : List (Net A)) (hs : Serves hcs ms)
    (hfrom : ∀ m ∈ ms, ∀ x, Member m x → ∃ o ∈ ns, ∃ y, Member o y ∧ val y ≤ val x) :
    ∃ m ∈ ms, ∃ x, Member m x ∧ ∀ o ∈ ns, ∀ y, Member o y → val y ≤ val x := by
  obtain ⟨E, k1, ⟨c, hc, -⟩, k3, k4⟩ := split_uses rt n hcs hne
  have k4 := k4 ns h
  have hlt := k3.mp ⟨ns, h⟩
  generalize val n.baseAddr / 2 ^ E * 2 ^ E = b at *
  obtain ⟨ys, h1, h2, h3⟩ := serves_list hs
  have hpos : 0 < (hcs.map (fun c => 2 ^ needBits c)).sum :=
    Nat.lt_of_lt_of_le (Nat.two_pow_pos _) (sum_ge (f := fun c => 2 ^ needBits c) hc)
  generalize (hcs.map (fun c => 2 ^ needBits c)).sum = S at *
  have hge : ∀ x ∈ ys, b ≤ val x := by
    intro x hx
    obtain ⟨m, hm, hx⟩ := (h2 x).mp hx
    obtain ⟨o, ho, y, hy, hle⟩ := hfrom m hm x hx
    have := (k4 y).mp ⟨o, ho, hy⟩
    omega
  refine Classical.byContradiction fun hcon => ?_
  have hall : ∀ x ∈ ys, val x + 1 < b + S := by
    intro x hx
    refine Nat.not_le.mp fun hle => hcon ?_
    obtain ⟨m, hm, hx⟩ := (h2 x).mp hx
    refine ⟨m, hm, x, hx, fun o ho y hy => ?_⟩
    have := (k4 y).mp ⟨o, ho, hy⟩
    omega
  have hlen : (ys.map (fun x => val x)).length ≤ (List.range' b (S - 1)).length :=
    (nodup_subset_length (List.pairwise_map.mpr (h1.imp fun hab e => hab (val_inj _ _ e))) (fun v hv => by
      obtain ⟨x, hx, rfl⟩ := List.mem_map.mp hv
      have := hge x hx
      have := hall x hx
      rw [List.mem_range'_1]
      omega)).1
  rw [List.length_map, List.length_range'] at hlen
  omega

theorem exists_hostBits (hcs : List Int) : ∃ es, Pointwise HostBitsFor hcs es := by
  induction hcs with
  | nil => exact ⟨_, .nil⟩
  | cons c _ ih => exact ⟨_, .cons (needBits_spec c) ih.choose_spec⟩

end

/-! ## The command -/

/-- The command goes on to the unused networks whenever the requests can be served within the network, for an IPv4 CIDR network
that does not contain the last address of all. -/
theorem C107_command_v4 (rt : Runtime) (prog mode s : Str) (counts : List Str) (hne : counts ≠ [])
    (hcs : List Int) (hc : Counts counts hcs) (a : V4) (n : Net V4) (hp : parseNetspec s = .ok (.ok (.ipv4 a n))) (p : Nat)
    (hn : IsCidr p n) (hlast : ∀ x, Member n x → val x ≠ 2 ^ 32 - 1) (ms : List (Net V4)) (hs : Serves hcs ms)
    (hin : ∀ m ∈ ms, Includes n m) : ∃ us : List (Net V4), ListsUnused (split rt (prog :: mode :: s :: counts)) us := by
  obtain ⟨es, hes⟩ := exists_hostBits hcs
  have hsum := serves_sum hn hes hs hin
  rcases C107_room rt n p hn hcs es hes ms hs hin with ⟨-, ns, h, hin'⟩ | ⟨htop, -⟩
  · obtain ⟨mx, hmx, -, -, k⟩ := C55_command_exact_v4 rt prog mode s counts hne hcs hc a n hp ns h
    obtain ⟨m, hm, hx⟩ := hmx.1
    obtain ⟨us, hus, -⟩ := k (hin' m hm mx hx) hlast
    exact ⟨us, hus⟩
  · have hw : width V4 = 32 := rfl
    obtain ⟨x, hx⟩ := val_surj (A := V4) (2 ^ 32 - 1) (by rw [hw]; decide)
    refine absurd hx (hlast x ((cidr_member_iff hn x).mpr ?_))
    have := val_lt n.baseAddr
    rw [hw] at hsum htop this ⊢
    omega

/-- The command goes on to the unused networks whenever the requests can be served within the network, for an IPv6 CIDR network
that does not contain the last address of all. -/
theorem C107_command_v6 (rt : Runtime) (prog mode s : Str) (counts : List Str) (hne : counts ≠ [])
    (hcs : List Int) (hc : Counts counts hcs) (a : V6) (n : Net V6) (hp : parseNetspec s = .ok (.ok (.ipv6 a n))) (p : Nat)
    (hn : IsCidr p n) (hlast : ∀ x, Member n x → val x ≠ 2 ^ 128 - 1) (ms : List (Net V6)) (hs : Serves hcs ms)
    (hin : ∀ m ∈ ms, Includes n m) : ∃ us : List (Net V6), ListsUnused (split rt (prog :: mode :: s :: counts)) us := by
  obtain ⟨es, hes⟩ := exists_hostBits hcs
  have hsum := serves_sum hn hes hs hin
  rcases C107_room rt n p hn hcs es hes ms hs hin with ⟨-, ns, h, hin'⟩ | ⟨htop, -⟩
  · obtain ⟨mx, hmx, -, -, k⟩ := C55_command_exact_v6 rt prog mode s counts hne hcs hc a n hp ns h
    obtain ⟨m, hm, hx⟩ := hmx.1
    obtain ⟨us, hus, -⟩ := k (hin' m hm mx hx) hlast
    exact ⟨us, hus⟩
  · have hw : width V6 = 128 := rfl
    obtain ⟨x, hx⟩ := val_surj (A := V6) (2 ^ 128 - 1) (by rw [hw]; decide)
    refine absurd hx (hlast x ((cidr_member_iff hn x).mpr ?_))
    have := val_lt n.baseAddr
    rw [hw] at hsum htop this ⊢
    omega

/-! ## For both families -/

theorem C107_room_families : (type_of% (@C107_room V4 _ _ _)) ∧ (type_of% (@C107_room V6 _ _ _)) :=
  ⟨@C107_room V4 _ _ _, @C107_room V6 _ _ _⟩

theorem C107_exactly_families : (type_of% (@C107_exactly V4 _ _ _)) ∧ (type_of% (@C107_exactly V6 _ _ _)) :=
  ⟨@C107_exactly V4 _ _ _, @C107_exactly V6 _ _ _⟩

theorem C107_compact_families : (type_of% (@C107_compact V4 _ _ _)) ∧ (type_of% (@C107_compact V6 _ _ _)) :=
  ⟨@C107_compact V4 _ _ _, @C107_compact V6 _ _ _⟩

/-! ## Concrete cases -/

/-- Pairwise differing bits and numbers of addresses, both computable, are enough to serve requests. -/
theorem serves_of (hcs : List Int) (ms : List (Net V4))
    (hd : ms.Pairwise fun m o => ∃ i ∈ List.range 32, (val m.subnetMask).testBit i = true ∧ (val o.subnetMask).testBit i = true ∧
      (val m.baseAddr).testBit i ≠ (val o.baseAddr).testBit i)
    (hc : Pointwise (fun (c : Int) (m : Net V4) => c + 2 ≤ m.addressCount) hcs ms) : Serves hcs ms := by
  refine ⟨hd.imp ?_, hc.imp ?_⟩
  · intro m o ⟨i, hi, h1, h2, h3⟩ x hx
    have hi := List.mem_range.mp hi
    exact h3 ((hx.1 i hi h1).symm.trans (hx.2 i hi h2))
  · intro c _ m h
    obtain ⟨l1, l2⟩ := memberList_listing m
    refine ⟨memberList m, l2.imp (fun hab e => by rw [e] at hab; exact Nat.lt_irrefl _ hab), fun x hx => (l1 x).mp hx, ?_⟩
    rw [memberList_length, ← addressCount_eq]
    exact h

theorem net24_wf : WF (net24 0xC0000200#32) :=
  (C33_parsed_good "192.0.2.1/24".toList (.ipv4 ⟨0xC0000201#32⟩ (net24 0xC0000200#32)) (by decide +kernel)).2.1

/-- 192.0.2.0/24 has room for 20, 100 and 28 hosts in 192.0.2.0/26, 192.0.2.128/25 and 192.0.2.64/27. -/
theorem room_example : ∃ ms : List (Net V4), Serves [20, 100, 28] ms ∧ ∀ m ∈ ms, Includes (net24 0xC0000200#32) m := by
  have hw : ∀ m ∈ [mk4 0xC0000200#32 0xFFFFFFC0#32, mk4 0xC0000280#32 0xFFFFFF80#32, mk4 0xC0000240#32 0xFFFFFFE0#32], WF m := by
    intro m hm
    simp only [List.mem_cons, List.not_mem_nil, or_false] at hm
    rcases hm with rfl | rfl | rfl <;> exact mk4_wf _ _
  refine ⟨[mk4 0xC0000200#32 0xFFFFFFC0#32, mk4 0xC0000280#32 0xFFFFFF80#32, mk4 0xC0000240#32 0xFFFFFFE0#32],
    serves_of _ _ (by decide +kernel) (.cons (by decide +kernel) (.cons (by decide +kernel) (.cons (by decide +kernel) .nil))),
    fun m hm => (superset_iff net24_wf (hw m hm)).mp ?_⟩
  clear hw
  revert m
  decide +kernel

/-- So splitting finds room, elsewhere in it. -/
example (rt : Runtime) : ∃ ns, splitSubnet rt (net24 0xC0000200#32) [20, 100, 28] = .ok (some ns) ∧
    ∀ m ∈ ns, Includes (net24 0xC0000200#32) m := by
  obtain ⟨es, hes⟩ := exists_hostBits [20, 100, 28]
  refine (C107_exactly rt _ 24 ⟨net24_wf, rfl⟩ _ es hes).mpr ⟨room_example, ?_⟩
  rw [pointwise_need hes]
  decide +kernel

/-- And the command goes on to the unused networks. -/
example (rt : Runtime) : ∃ us : List (Net V4), ListsUnused (split rt ("ripcalc".toList ::
    "--split".toList :: "192.0.2.1/24".toList :: ["20".toList, "100".toList, "28".toList])) us := by
  obtain ⟨ms, h1, h2⟩ := room_example
  refine C107_command_v4 rt _ _ _ _ (by simp) [20, 100, 28]
    (counts_of [("20".toList, 20), ("100".toList, 100), ("28".toList, 28)] (by decide +kernel)) ⟨0xC0000201#32⟩ (net24 0xC0000200#32)
    (by decide +kernel) 24 ⟨net24_wf, rfl⟩ (fun x hx => ?_) ms h1 h2
  have := ((cidr_member_iff (p := 24) ⟨net24_wf, rfl⟩ x).mp hx).2
  have e : val (net24 0xC0000200#32).baseAddr + 2 ^ (width V4 - 24) = 0xC0000300 := by decide +kernel
  omega

/-- For a mask with gaps there can be room that splitting does not find: `10.0.0.0/255.255.5.0` contains 10.0.0.0/24 and 10.0.2.0/24,
but splitting for twice 254 hosts returns a network outside. -/
theorem C107_gaps (rt : Runtime) : (∃ ms : List (Net V4), Serves [254, 254] ms ∧ ∀ m ∈ ms, Includes gappy m) ∧
    ∃ ns, splitSubnet rt gappy [254, 254] = .ok (some ns) ∧ ∃ m ∈ ns, ¬ Includes gappy m := by
  have hn : WF gappy := (C33_parsed_good _ _ gappy_parse).2.1
  have hw : ∀ m ∈ [mk4 0x0A000000#32 0xFFFFFF00#32, mk4 0x0A000200#32 0xFFFFFF00#32], WF m := by
    intro m hm
    simp only [List.mem_cons, List.not_mem_nil, or_false] at hm
    rcases hm with rfl | rfl <;> exact mk4_wf _ _
  refine ⟨⟨[mk4 0x0A000000#32 0xFFFFFF00#32, mk4 0x0A000200#32 0xFFFFFF00#32], serves_of _ _ (by decide +kernel)
    (.cons (by decide +kernel) (.cons (by decide +kernel) .nil)), fun m hm => (superset_iff hn (hw m hm)).mp ?_⟩, ?_⟩
  · clear hw
    revert m
    decide +kernel
  · obtain ⟨F, k1, k2, k3, k4⟩ := split_uses rt gappy [254, 254] (by simp)
    obtain rfl : F = 8 := needMax_eq k1 k2 (by decide +kernel) ⟨254, by simp, by decide +kernel⟩
    obtain ⟨ns, h⟩ := k3.mpr (by decide +kernel)
    obtain ⟨m, hm, hx⟩ := (k4 ns h ⟨0x0A000100#32⟩).mpr (by decide +kernel)
    refine ⟨ns, h, m, hm, fun hi => ?_⟩
    have := (contains_iff hn.hz _).mpr (hi _ hx)
    revert this
    decide +kernel

end Ripcalc
