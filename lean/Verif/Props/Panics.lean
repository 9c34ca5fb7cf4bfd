import Verif.Props.SplitExact
import Verif.Props.Process
import Verif.Props.Lines
/-!
# What a run that panics has written, and what the list of unused networks is
-/
namespace Ripcalc
open AddrSpec LawfulIpAddr

/-! ## C98: what is written before a panic -/

theorem stdoutText_concat (evs : List OutEv) (l : Str) : stdoutText (evs ++ [.out l]) = stdoutText evs ++ l := by
  induction evs with
  | nil => simp [stdoutText]
  | cons e evs ih => cases e <;> simp [stdoutText, ih]

/-- A split that panics has shown the network and all networks found, as a split that ends normally does, and the heading of the
list of unused networks; what is missing is the list. -/
theorem C98_split_v4 (rt : Runtime) (prog mode s : Str) (counts : List Str)
    (hne : counts ≠ []) (hcs : List Int) (hc : Counts counts hcs) (a : V4) (n : Net V4)
    (hp : parseNetspec s = .ok (.ok (.ipv4 a n))) (p : Panic) (h : (split rt (prog :: mode :: s :: counts)).res = .panic p) :
    p = .unwrapNone ∧ ∃ ns t u, splitSubnet rt n hcs = .ok (some ns) ∧ Display4In rt.colorsEnabled n none t ∧
      SplitBlocks (fun n => Display4In rt.colorsEnabled n none) hcs ns u ∧
      Aborts (split rt (prog :: mode :: s :: counts)) p
        ("Subnet to split:\n".toList ++ t ++ ['\n'] ++ u ++ "Unused networks:\n".toList) := by
  rcases C65_any_v4 rt prog mode s counts hne hcs hc a n hp with ⟨-, -, -, h1, -⟩ | ⟨ns, mx, t, u, h1, -, h2, h3, h4, h5, h6⟩
  · rw [h] at h1; cases h1
  by_cases hm : Member n mx
  · by_cases ht : ∃ a, Member n a ∧ val a = 2 ^ 32 - 1
    · have := h6 hm ht
      have hpe : p = .unwrapNone := by rw [this.1] at h; exact (Exec.panic.inj h).symm
      subst hpe
      exact ⟨rfl, ns, t, u, h1, h2, h3, this⟩
    · obtain ⟨us, ⟨h7, -⟩, -⟩ := h5 hm fun a ha e => ht ⟨a, ha, e⟩
      rw [h] at h7; cases h7
  · have := (h4 hm).1
    rw [h] at this; cases this

theorem C98_split_v6 (rt : Runtime) (prog mode s : Str) (counts : List Str)
    (hne : counts ≠ []) (hcs : List Int) (hc : Counts counts hcs) (a : V6) (n : Net V6)
    (hp : parseNetspec s = .ok (.ok (.ipv6 a n))) (p : Panic) (h : (split rt (prog :: mode :: s :: counts)).res = .panic p) :
    p = .unwrapNone ∧ ∃ ns t u, splitSubnet rt n hcs = .ok (some ns) ∧ Display6In rt.colorsEnabled n none t ∧
      SplitBlocks (fun n => Display6In rt.colorsEnabled n none) hcs ns u ∧
      Aborts (split rt (prog :: mode :: s :: counts)) p
        ("Subnet to split:\n".toList ++ t ++ ['\n'] ++ u ++ "Unused networks:\n".toList) := by
  rcases C65_any_v6 rt prog mode s counts hne hcs hc a n hp with ⟨-, -, -, h1, -⟩ | ⟨ns, mx, t, u, h1, -, h2, h3, h4, h5, h6⟩
  · rw [h] at h1; cases h1
  by_cases hm : Member n mx
  · by_cases ht : ∃ a, Member n a ∧ val a = 2 ^ 128 - 1
    · have := h6 hm ht
      have hpe : p = .unwrapNone := by rw [this.1] at h; exact (Exec.panic.inj h).symm
      subst hpe
      exact ⟨rfl, ns, t, u, h1, h2, h3, this⟩
    · obtain ⟨us, ⟨h7, -⟩, -⟩ := h5 hm fun a ha e => ht ⟨a, ha, e⟩
      rw [h] at h7; cases h7
  · have := (h4 hm).1
    rw [h] at this; cases this

/-- A split that panics ends with a whole line and has written no message. -/
theorem split_panics (rt : Runtime) (prog mode : Str) (rest : List Str)
    (hmode : mode = "-s".toList ∨ mode = "--split".toList) (p : Panic) (h : (split rt (prog :: mode :: rest)).res = .panic p) :
    messages (split rt (prog :: mode :: rest)).out = [] ∧
    ∃ evs l, (split rt (prog :: mode :: rest)).out = evs ++ [.out (l ++ ['\n'])] := by
  have hd := (C56_dispatch rt prog mode rest).2.2.1 hmode
  obtain ⟨k1, k2⟩ := C66_split rt prog mode rest hmode
  rw [hd] at k1 k2
  have hu : (split rt (prog :: mode :: rest)).res = .panic .unwrapNone := by
    rcases k1 with ⟨c, k1⟩ | k1
    · rw [h] at k1; cases k1
    · exact k1
  obtain ⟨s, counts, hcs, rfl, hne, hc, ⟨a, n, hp, -⟩ | ⟨a, n, hp, -⟩⟩ := k2.mp hu
  · obtain ⟨-, _, _, _, -, -, -, -, -, h3, h4⟩ := C98_split_v4 rt prog mode s counts hne hcs hc a n hp p h
    exact ⟨h3, h4⟩
  · obtain ⟨-, _, _, _, -, -, -, -, -, h3, h4⟩ := C98_split_v6 rt prog mode s counts hne hcs hc a n hp p h
    exact ⟨h3, h4⟩

/-- A run that panics has written no message and only whole lines: nothing in the mode for ranges, and at least one line in the
mode for splitting; other modes do not panic. -/
theorem C98_before (rt : Runtime) (args : List Str) (p : Panic) (h : (doMain rt args).res = .panic p) :
    messages (doMain rt args).out = [] ∧ WholeLines (stdoutText (doMain rt args).out) ∧
    ∃ prog mode rest, args = prog :: mode :: rest ∧
      ((mode = "-d".toList ∨ mode = "--derange".toList) ∧ (doMain rt args).out = [] ∨
       (mode = "-s".toList ∨ mode = "--split".toList) ∧ ∃ evs l, (doMain rt args).out = evs ++ [.out (l ++ ['\n'])]) := by
  rcases main_cases rt args with h' | h' | ⟨-, prog, mode, rest, rfl, hm⟩
  · rw [h] at h'; cases h'
  · rw [h] at h'; cases h'
  have hm' : (mode = "-d".toList ∨ mode = "--derange".toList) ∨ (mode = "-s".toList ∨ mode = "--split".toList) := by
    simp only [List.map_cons, List.map_nil, List.mem_cons, List.not_mem_nil, or_false] at hm
    rcases hm with hm | hm | hm | hm
    · exact .inl (.inl hm)
    · exact .inl (.inr hm)
    · exact .inr (.inl hm)
    · exact .inr (.inr hm)
  rcases hm' with hm | hm
  · have hd := (C56_dispatch rt prog mode rest).2.1 hm
    have he : (doMain rt (prog :: mode :: rest)).out = [] := by
      rw [hd] at h ⊢
      rcases derange_cases rt (prog :: mode :: rest) with ⟨evs, h1, -⟩ | ⟨m, h1⟩ | ⟨q, h1⟩ | h1
      · rw [h1] at h; cases h
      · rw [h1] at h; cases h
      · rw [h1]
      · rw [h1]
    rw [he]
    exact ⟨rfl, (wholeLines_iff _).mpr (.inl rfl), prog, mode, rest, rfl, .inl ⟨hm, rfl⟩⟩
  · have hd := (C56_dispatch rt prog mode rest).2.2.1 hm
    have hs : messages (split rt (prog :: mode :: rest)).out = [] ∧
        ∃ evs l, (split rt (prog :: mode :: rest)).out = evs ++ [.out (l ++ ['\n'])] := by
      rw [hd] at h
      exact split_panics rt prog mode rest hm p h
    rw [← hd] at hs
    obtain ⟨h1, evs, l, h2⟩ := hs
    refine ⟨h1, (wholeLines_iff _).mpr (.inr ?_), prog, mode, rest, rfl, .inr ⟨hm, evs, l, h2⟩⟩
    exact ⟨stdoutText evs ++ l, by rw [h2, stdoutText_concat, List.append_assoc]⟩

/-- The same for the process: if its status is 101, it has written the texts of whole lines to standard output and nothing of
its own to standard error. -/
theorem C98_process (rt : Runtime) (u : CharTable) (argv : List (List Byte)) (h : (process rt u argv).ending = .status 101) :
    (process rt u argv).stderr = [] ∧ ∃ t, WholeLines t ∧ Utf8 t (process rt u argv).stdout := by
  rcases (C89_panics rt u argv).mp h with ⟨bs, h1, h2⟩ | ⟨args, p, h1, h2⟩
  · rw [C89_not_text rt u argv bs h1 h2]
    exact ⟨rfl, [], (wholeLines_iff _).mpr (.inl rfl), (utf8_iff _ _).mpr rfl⟩
  · obtain ⟨k1, k2, -⟩ := C89_runs rt u argv args h1
    obtain ⟨h3, h4, -⟩ := C98_before rt args p h2
    refine ⟨?_, _, h4, k1⟩
    have : stderrText u (doMain rt args).out = [] := by
      revert h3
      generalize (doMain rt args).out = evs
      induction evs with
      | nil => intro _; rfl
      | cons e evs ih =>
        cases e with
        | err m => intro h; simp [messages, messageOf] at h
        | out s => exact fun h => ih h
        | styled c s => exact fun h => ih h
    rw [this] at k2
    rw [(utf8_iff _ _).mp k2]
    rfl

/-- Both modes do panic: `255.255.255.0/24` with one network of 60 hosts, and a range that ends at the greatest address. -/
example (rt : Runtime) : ∃ t u, Aborts
    (split rt ("ripcalc".toList :: "-s".toList :: "255.255.255.0/24".toList :: ["60".toList])) .unwrapNone
      ("Subnet to split:\n".toList ++ t ++ ['\n'] ++ u ++ "Unused networks:\n".toList) := by
  obtain ⟨ns, -, -, h⟩ := C55_counterexample_top rt
  obtain ⟨-, _, t, u, -, -, -, h⟩ := C98_split_v4 rt _ _ _ _ (by simp) [60] (counts_of [("60".toList, 60)] (by decide +kernel))
    ⟨0xFFFFFF00#32⟩ (net24 0xFFFFFF00#32) (by decide +kernel) _ h
  exact ⟨t, u, h⟩

example (rt : Runtime) : (doMain rt ["ripcalc".toList, "-d".toList, "1.2.3.4".toList, "255.255.255.255".toList]).res = .panic .unwrapNone := by
  rw [(C56_dispatch rt _ _ _).2.1 (.inl rfl)]
  have := (C39_command_v4 rt "ripcalc".toList "-d".toList "1.2.3.4".toList "255.255.255.255".toList ⟨0x01020304#32⟩ ⟨0xFFFFFFFF#32⟩
    (by decide +kernel) (by decide +kernel)).2.1 .unwrapNone (C39_top_panics _ _ _ (by decide +kernel) (by decide +kernel))
  rw [this]

/-! ## C99: the list of unused networks -/

section generic
variable {A : Type} [IpAddr A] [AddrSpec A] [LawfulIpAddr A]

/-- The greatest used address is odd. -/
theorem greatest_odd (rt : Runtime) (n : Net A) (hcs : List Int) (hnn : ∀ c ∈ hcs, 0 ≤ c) (ns : List (Net A))
    (h : splitSubnet rt n hcs = .ok (some ns)) (mx : A) (hmx : IsGreatestUsed ns mx) : val mx % 2 = 1 := by
  obtain ⟨⟨m, hm, hx⟩, hg⟩ := hmx
  obtain ⟨r, hr, hs⟩ := C51_requests rt n hcs
  rw [h] at hr
  obtain ⟨hl, hi⟩ := hs ns (Exec.ok.inj hr).symm
  obtain ⟨i, hlt, rfl⟩ := List.mem_iff_getElem.mp hm
  obtain ⟨q, hq, hb⟩ := hi i (hcs[i]'(by omega)) ns[i] (List.getElem?_eq_getElem (by omega)) (List.getElem?_eq_getElem hlt)
  have hpos : 1 ≤ width A - q := by
    have := hnn hcs[i] (List.getElem_mem _)
    refine Nat.pos_of_ne_zero fun h0 => ?_
    have h1 := hb.1
    rw [h0] at h1
    omega
  have hd : 2 ∣ val (ns[i]).baseAddr := Nat.dvd_trans (Nat.pow_dvd_pow 2 hpos) (cidr_dvd hq)
  have hd2 : 2 ∣ 2 ^ (width A - q) := Nat.pow_dvd_pow 2 hpos
  have h1 := (cidr_member_iff hq mx).mp hx
  refine Classical.byContradiction fun hodd => ?_
  obtain ⟨y, hy, hym⟩ := cidr_inBlk_addr hq (x := val mx + 1) ⟨by omega, by omega⟩
  have := hg _ hm y hym
  omega

/-- At most one list of networks is the list of the rest: the one that `range_to_subnets` computes. -/
theorem listsRest_eq {n : Net A} {mx nx last : A} {us : List (Net A)} (h : ListsRest n mx us) (hnx : val nx = val mx + 1)
    (hl : Member n last) (hg : ∀ a, Member n a → val a ≤ val last) (htop : val last ≠ 2 ^ width A - 1) (hodd : val mx % 2 = 1)
    (pr : Profile) : rangeToSubnets pr nx last = .ok us := by
  obtain ⟨h1, h2, h3⟩ := h
  obtain ⟨h3, h4⟩ := h3 last hl hg
  have hlt := val_lt last
  have hltx := val_lt nx
  have hdw : 2 ∣ 2 ^ width A := ⟨2 ^ (width A - 1), by rw [← Nat.pow_succ']; congr 1; have := width_pos (A := A); omega⟩
  obtain ⟨vs, z1, z2, z3, -, z5⟩ := C39_range_partial pr nx last (fun x hx => by rw [between_iff] at hx; omega)
  have hcov : Covers us (Between nx last) := fun x => (h3 x).trans (by rw [between_iff]; omega)
  have hp : vs.Perm us := (C40_minimal pr nx last vs z1 us h1 hcov).2
    (h4 vs z2 fun x => (z5 x).trans (hcov x).symm)
  rw [z1, hp.eq_of_pairwise (le := fun a b => Below a b) (fun a b _ _ hab hba => ?_) z3 h2]
  have := hab _ _ (base_member a) (base_member b)
  have := hba _ _ (base_member b) (base_member a)
  omega

end generic

/-- The lines of the mode for ranges. -/
theorem shows_lines {A : Type} [IpAddr A] [AddrSpec A] [LawfulIpAddr A] (us : List (Net A)) :
    Shows (⟨us.map (fun n => .out (n.display ++ ['\n'])), .ok 0⟩ : Cli Nat) 0 (netLines us) := by
  have h := (shows_printNets us).2
  rw [printNets_eq] at h
  exact ⟨rfl, h⟩

/-- The networks that are listed as unused are those which the mode for ranges prints for the address after the greatest used one
and the greatest address of the network, line by line; no other list of networks with the same addresses is shorter, and one that
is as short consists of the same networks. -/
theorem C99_unused_v4 (rt : Runtime) (prog mode s : Str) (counts : List Str)
    (hne : counts ≠ []) (hcs : List Int) (hc : Counts counts hcs) (a : V4) (n : Net V4)
    (hp : parseNetspec s = .ok (.ok (.ipv4 a n))) (ns : List (Net V4)) (h : splitSubnet rt n hcs = .ok (some ns))
    (mx : V4) (hmx : IsGreatestUsed ns mx) (hm : Member n mx) (last : V4) (hl : Member n last)
    (hg : ∀ a, Member n a → val a ≤ val last) (htop : val last ≠ 2 ^ 32 - 1) :
    ∃ us : List (Net V4), ListsUnused (split rt (prog :: mode :: s :: counts)) us ∧
      (∀ (rt' : Runtime) (prog' mode' x y : Str) (nx : V4), (mode' = "-d".toList ∨ mode' = "--derange".toList) → val nx = val mx + 1 →
        parseAddr x = .ok (.ok (.ipv4 nx)) → parseAddr y = .ok (.ok (.ipv4 last)) →
        Shows (doMain rt' [prog', mode', x, y]) 0 (netLines us) ∧ Shows (doMain rt' [prog', mode', y, x]) 0 (netLines us)) ∧
      ∀ other : List (Net V4), (∀ m ∈ other, ∃ q, IsCidr q m) → Covers other (fun x => ∃ m ∈ us, Member m x) →
        us.length ≤ other.length ∧ (other.length ≤ us.length → us.Perm other) := by
  rcases C65_any_v4 rt prog mode s counts hne hcs hc a n hp with ⟨h1, -⟩ | ⟨ns', mx', t, u, h1, h2, -, -, -, h3, -⟩
  · rw [h] at h1; cases h1
  rw [h] at h1
  cases h1
  cases isGreatestUsed_unique hmx h2
  have hodd := greatest_odd rt n hcs hc.nonneg ns h mx hmx
  have hmxl := hg mx hm
  have hlt : val last < 2 ^ 32 := val_lt last
  obtain ⟨us, h4, h5⟩ := h3 hm (fun a ha e => by have := hg a ha; omega)
  refine ⟨us, ⟨_, h4⟩, ?_, ?_⟩
  · intro rt' prog' mode' x y nx hd hnx hx hy
    have hr := fun pr => listsRest_eq h5 hnx hl hg htop hodd pr
    rw [(C56_dispatch rt' prog' mode' [x, y]).2.1 hd, (C56_dispatch rt' prog' mode' [y, x]).2.1 hd,
      (C39_command_v4 rt' prog' mode' x y nx last hx hy).1 us (hr _),
      (C39_command_v4 rt' prog' mode' y x last nx hy hx).1 us (by rw [C41_symmetric]; exact hr _)]
    exact ⟨shows_lines us, shows_lines us⟩
  · obtain ⟨nx, hnx⟩ := val_surj (A := V4) (val mx + 1) (show val mx + 1 < 2 ^ 32 by omega)
    have hr := listsRest_eq h5 hnx hl hg htop hodd rt.profile
    intro other ho hco
    have hcov := fun x => (h5.2.2 last hl hg).1 x
    exact C40_minimal rt.profile nx last us hr other ho fun x => (hco x).trans ((hcov x).trans (by rw [between_iff]; omega))

/-- The networks that are listed as unused are those which the mode for ranges prints for the address after the greatest used one
and the greatest address of the network, line by line; no other list of networks with the same addresses is shorter, and one that
is as short consists of the same networks. -/
theorem C99_unused_v6 (rt : Runtime) (prog mode s : Str) (counts : List Str)
    (hne : counts ≠ []) (hcs : List Int) (hc : Counts counts hcs) (a : V6) (n : Net V6)
    (hp : parseNetspec s = .ok (.ok (.ipv6 a n))) (ns : List (Net V6)) (h : splitSubnet rt n hcs = .ok (some ns))
    (mx : V6) (hmx : IsGreatestUsed ns mx) (hm : Member n mx) (last : V6) (hl : Member n last)
    (hg : ∀ a, Member n a → val a ≤ val last) (htop : val last ≠ 2 ^ 128 - 1) :
    ∃ us : List (Net V6), ListsUnused (split rt (prog :: mode :: s :: counts)) us ∧
      (∀ (rt' : Runtime) (prog' mode' x y : Str) (nx : V6), (mode' = "-d".toList ∨ mode' = "--derange".toList) → val nx = val mx + 1 →
        parseAddr x = .ok (.ok (.ipv6 nx)) → parseAddr y = .ok (.ok (.ipv6 last)) →
        Shows (doMain rt' [prog', mode', x, y]) 0 (netLines us) ∧ Shows (doMain rt' [prog', mode', y, x]) 0 (netLines us)) ∧
      ∀ other : List (Net V6), (∀ m ∈ other, ∃ q, IsCidr q m) → Covers other (fun x => ∃ m ∈ us, Member m x) →
        us.length ≤ other.length ∧ (other.length ≤ us.length → us.Perm other) := by
  rcases C65_any_v6 rt prog mode s counts hne hcs hc a n hp with ⟨h1, -⟩ | ⟨ns', mx', t, u, h1, h2, -, -, -, h3, -⟩
  · rw [h] at h1; cases h1
  rw [h] at h1
  cases h1
  cases isGreatestUsed_unique hmx h2
  have hodd := greatest_odd rt n hcs hc.nonneg ns h mx hmx
  have hmxl := hg mx hm
  have hlt : val last < 2 ^ 128 := val_lt last
  obtain ⟨us, h4, h5⟩ := h3 hm (fun a ha e => by have := hg a ha; omega)
  refine ⟨us, ⟨_, h4⟩, ?_, ?_⟩
  · intro rt' prog' mode' x y nx hd hnx hx hy
    have hr := fun pr => listsRest_eq h5 hnx hl hg htop hodd pr
    rw [(C56_dispatch rt' prog' mode' [x, y]).2.1 hd, (C56_dispatch rt' prog' mode' [y, x]).2.1 hd,
      (C39_command_v6 rt' prog' mode' x y nx last hx hy).1 us (hr _),
      (C39_command_v6 rt' prog' mode' y x last nx hy hx).1 us (by rw [C41_symmetric]; exact hr _)]
    exact ⟨shows_lines us, shows_lines us⟩
  · obtain ⟨nx, hnx⟩ := val_surj (A := V6) (val mx + 1) (show val mx + 1 < 2 ^ 128 by omega)
    have hr := listsRest_eq h5 hnx hl hg htop hodd rt.profile
    intro other ho hco
    have hcov := fun x => (h5.2.2 last hl hg).1 x
    exact C40_minimal rt.profile nx last us hr other ho fun x => (hco x).trans ((hcov x).trans (by rw [between_iff]; omega))

/-- `192.0.2.0/24` with one network of 60 hosts meets the conditions: the rest starts at `192.0.2.64`. -/
example (rt : Runtime) : ∃ us : List (Net V4),
    ListsUnused (split rt ("ripcalc".toList :: "-s".toList :: "192.0.2.0/24".toList :: ["60".toList])) us ∧
    Shows (doMain rt ["ripcalc".toList, "-d".toList, "192.0.2.64".toList, "192.0.2.255".toList]) 0 (netLines us) := by
  have hp : parseNetspec "192.0.2.0/24".toList = .ok (.ok (.ipv4 ⟨0xC0000200#32⟩ (net24 0xC0000200#32))) := by decide +kernel
  have hn : IsCidr 24 (net24 0xC0000200#32) := ⟨(C33_parsed_good _ _ hp).2.1, rfl⟩
  have hc : Counts ["60".toList] [60] := counts_of [("60".toList, 60)] (by decide +kernel)
  obtain ⟨ns, h1, h2, h3⟩ := split24 rt _ hn [60] (by simp) 6 64 (by decide +kernel) (by decide +kernel) (by decide)
    (by decide +kernel) (by decide) (by decide)
  have hv : ∀ x : V4, Member (net24 0xC0000200#32) x ↔ 0xC0000200 ≤ val x ∧ val x < 0xC0000200 + 256 := fun x => cidr_member_iff hn x
  have hmx : IsGreatestUsed ns (⟨0xC000023F#32⟩ : V4) := by
    constructor
    · refine Classical.byContradiction fun hno => ?_
      have := (h3 ⟨0xC000023F#32⟩).mp ⟨(hv _).mpr (by decide +kernel), fun m hm hx => hno ⟨m, hm, hx⟩⟩
      revert this
      decide +kernel
    · intro m hm x hx
      refine Nat.not_lt.mp fun hlt => ?_
      have hlt : 0xC000023F < val x := hlt
      have hx' := (hv x).mp (h2 m hm x hx)
      exact ((h3 x).mpr ⟨show 0xC0000200 + 64 ≤ val x by omega, hx'.2⟩).2 m hm hx
  obtain ⟨us, k1, k2, -⟩ := C99_unused_v4 rt "ripcalc".toList "-s".toList "192.0.2.0/24".toList ["60".toList] (by simp) [60] hc _ _ hp
    ns h1 ⟨0xC000023F#32⟩ hmx ((hv _).mpr (by decide +kernel)) ⟨0xC00002FF#32⟩ ((hv _).mpr (by decide +kernel))
    (fun a ha => by have := (hv a).mp ha; show val a ≤ 0xC00002FF; omega) (by decide +kernel)
  exact ⟨us, k1, (k2 rt "ripcalc".toList "-d".toList "192.0.2.64".toList "192.0.2.255".toList ⟨0xC0000240#32⟩ (.inl rfl) (by decide +kernel)
    (by decide +kernel) (by decide +kernel)).1⟩

end Ripcalc
