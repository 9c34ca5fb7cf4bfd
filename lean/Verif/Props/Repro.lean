import Verif.Proofs.Repro
/-!
# C97: reproducible output
-/
namespace Ripcalc
open AddrSpec LawfulIpAddr

/-- The arguments ask for the networks covering a whole address space. -/
def DerangesAll (args : List Str) : Prop :=
  WholeRange args ∧ (args[1]? = some "-d".toList ∨ args[1]? = some "--derange".toList)

/-- The arguments ask for a split that succeeds and in which a number of hosts occurs twice. -/
def TiedSplit (args : List Str) : Prop :=
  ∃ prog mode s counts hcs, args = prog :: mode :: s :: counts ∧ (mode = "-s".toList ∨ mode = "--split".toList) ∧
    Counts counts hcs ∧ ¬ hcs.Nodup ∧
    ((∃ a n, parseNetspec s = .ok (.ok (.ipv4 a n)) ∧ Fits 32 (val n.baseAddr) hcs) ∨
     (∃ a n, parseNetspec s = .ok (.ok (.ipv6 a n)) ∧ Fits 128 (val n.baseAddr) hcs))

section generic
variable {A : Type} [IpAddr A] [AddrSpec A] [LawfulIpAddr A]

theorem hostBits_map (hcs : List Int) : Pointwise HostBitsFor hcs (hcs.map needBits) := by
  induction hcs with
  | nil => exact .nil
  | cons c hcs ih => exact .cons ((hostBitsFor_iff _ _).mpr rfl) ih

theorem fits_iff (rt : Runtime) (n : Net A) (hcs : List Int) (hne : hcs ≠ []) :
    Fits (width A) (val n.baseAddr) hcs ↔ ∃ ns, splitSubnet rt n hcs = .ok (some ns) := by
  constructor
  · rintro ⟨es, E, h1, h2, h3, h4⟩
    exact (C54_exact rt n hcs es h1 E h2 h3).mpr h4
  · intro h
    obtain ⟨E, h1, c, h2, h3⟩ := exists_needMax hcs hne
    have h4 : ∀ e ∈ hcs.map needBits, e ≤ E := by
      intro e he
      obtain ⟨c, hc, rfl⟩ := List.mem_map.mp he
      exact h1 c hc
    have h5 : E ∈ hcs.map needBits := h3 ▸ List.mem_map_of_mem h2
    exact ⟨_, E, hostBits_map hcs, h4, h5, (C54_exact rt n hcs _ (hostBits_map hcs) E h4 h5).mp h⟩

/-- On any two platforms a split fails or succeeds alike, and the results differ at most in which of several equal requests has
which network. -/
theorem C97_split_networks (rt rt' : Runtime) (n : Net A) (hcs : List Int) :
    (splitSubnet rt n hcs = .ok none ∧ splitSubnet rt' n hcs = .ok none) ∨
    ∃ ns ns', splitSubnet rt n hcs = .ok (some ns) ∧ splitSubnet rt' n hcs = .ok (some ns') ∧ ns.length = hcs.length ∧
      ns'.length = hcs.length ∧ (hcs.zip ns).Perm (hcs.zip ns') := by
  rcases splitSubnet_any rt rt' n hcs with h | ⟨ns, ns', ms, b, e, h1, h2, h3, h4, h5, -⟩
  · exact .inl h
  · exact .inr ⟨ns, ns', h1, h2, h3, h4, h5⟩

/-- The result is determined exactly if no request occurs twice or the split fails. -/
theorem C97_split_exact (n : Net A) (hcs : List Int) :
    (∀ rt rt' : Runtime, rt.profile = rt'.profile → rt.colorsEnabled = rt'.colorsEnabled → splitSubnet rt n hcs = splitSubnet rt' n hcs) ↔
      hcs.Nodup ∨ ¬ Fits (width A) (val n.baseAddr) hcs := by
  by_cases hnd : hcs.Nodup
  · refine ⟨fun _ => .inl hnd, fun _ rt rt' _ _ => ?_⟩
    rcases C97_split_networks rt rt' n hcs with ⟨h, h'⟩ | ⟨ns, ns', h1, h2, h3, h4, h5⟩
    · rw [h, h']
    · rw [h1, h2, zip_nodup h3 h4 h5 hnd]
  have hne : hcs ≠ [] := fun h => hnd (h ▸ List.nodup_nil)
  constructor
  · intro h
    refine .inr fun hf => ?_
    have he := h (.reference .checked true) (.reversed .checked true) rfl rfl
    obtain ⟨ns, hns⟩ := (fits_iff (.reference .checked true) n hcs hne).mp hf
    obtain ⟨i, m, m', h1, h2, h3⟩ := split_ties .checked true n hcs hnd ns ns hns (he ▸ hns)
    rw [h1] at h2
    exact h3 (Option.some.inj h2)
  · rintro (h | h) rt rt' - -
    · exact absurd h hnd
    · rcases C97_split_networks rt rt' n hcs with ⟨h, h'⟩ | ⟨ns, ns', h1, -⟩
      · rw [h, h']
      · exact absurd ((fits_iff rt n hcs hne).mpr ⟨ns, h1⟩) h

omit [IpAddr A] [AddrSpec A] [LawfulIpAddr A] in
theorem pointwise_heads {on : Net A → Option A → Cli Unit} {hcs : List Int} : ∀ {ns ns' : List (Net A)}, ns.length = hcs.length →
    ns'.length = hcs.length → Pointwise (fun b b' : List OutEv => b.head? = b'.head?) ((hcs.zip ns).map (splitBlock on))
      ((hcs.zip ns').map (splitBlock on)) := by
  induction hcs with
  | nil => intro ns ns' _ _; exact .nil
  | cons c hcs ih =>
    intro ns ns' h h'
    match ns, ns', h, h' with
    | n :: ns, n' :: ns', h, h' => exact .cons rfl (ih (by simpa using h) (by simpa using h'))

theorem outputSplit_reordered [ProfileFree A] {on : Net A → Option A → Cli Unit} (rt rt' : Runtime) (n : Net A) (hn : WF n)
    (hcs : List Int) (hne : hcs ≠ []) (hon : ∀ m : Net A, WF m → (on m none).res = .ok ()) :
    outputSplit rt n hcs on = outputSplit rt' n hcs on ∨
    ¬ hcs.Nodup ∧ Fits (width A) (val n.baseAddr) hcs ∧ Reordered (outputSplit rt n hcs on) (outputSplit rt' n hcs on) := by
  rcases outputSplit_any rt rt' n hn hcs hne hon with ⟨-, -, h⟩ | ⟨ns, ns', pre, post, res, h1, h2, h3, h4, -, -, h5, h6, h7⟩
  · exact .inl h
  · by_cases hnd : hcs.Nodup
    · left
      rw [h6, h7, zip_nodup h3 h4 h5 hnd]
    · exact .inr ⟨hnd, (fits_iff rt n hcs hne).mpr ⟨ns, h1⟩, pre, post, _, _, res, h6, h7, h5.map _, pointwise_heads h3 h4⟩

end generic

theorem split_reordered (rt rt' : Runtime) (hc : rt.colorsEnabled = rt'.colorsEnabled) (prog mode : Str)
    (hm : mode = "-s".toList ∨ mode = "--split".toList) (rest : List Str) :
    split rt (prog :: mode :: rest) = split rt' (prog :: mode :: rest) ∨
    TiedSplit (prog :: mode :: rest) ∧ Reordered (split rt (prog :: mode :: rest)) (split rt' (prog :: mode :: rest)) := by
  match rest with
  | [] => exact .inl (by rw [split, split, if_pos (by simp), if_pos (by simp)])
  | [s] => exact .inl (by rw [split, split, if_pos (by simp), if_pos (by simp)])
  | s :: c :: counts =>
    rcases parseHostCounts_cases (c :: counts) with ⟨hcs, h1, h2⟩ | ⟨pre, x, post, h1, h2, h3⟩
    · obtain ⟨r, hr⟩ := parseNetspec_total s
      rcases r with e | (⟨a, n⟩ | ⟨a, n⟩)
      · exact .inl (by rw [((C65_errors rt _).2 _ _ _ _ rfl (by simp)).2 hcs e h1 hr, ((C65_errors rt' _).2 _ _ _ _ rfl (by simp)).2 hcs e h1 hr])
      · rw [split_v4 rt prog mode s (c :: counts) (by simp) hcs h1 a n hr, split_v4 rt' prog mode s (c :: counts) (by simp) hcs h1 a n hr,
          ← network4_congr hc]
        refine (outputSplit_reordered rt rt' n (C33_parsed_good _ _ hr).2.1 hcs (h1.ne_nil (by simp)) (network4_ok rt)).imp id ?_
        rintro ⟨k1, k2, k3⟩
        exact ⟨⟨_, _, _, _, hcs, rfl, hm, h1, k1, .inl ⟨a, n, hr, k2⟩⟩, k3⟩
      · rw [split_v6 rt prog mode s (c :: counts) (by simp) hcs h1 a n hr, split_v6 rt' prog mode s (c :: counts) (by simp) hcs h1 a n hr,
          ← network6_congr hc]
        refine (outputSplit_reordered rt rt' n (C33_parsed_good _ _ hr).2.1 hcs (h1.ne_nil (by simp)) (network6_ok rt)).imp id ?_
        rintro ⟨k1, k2, k3⟩
        exact ⟨⟨_, _, _, _, hcs, rfl, hm, h1, k1, .inr ⟨a, n, hr, k2⟩⟩, k3⟩
    · left
      rcases h3 with ⟨h3, -⟩ | ⟨d, h3, h4, -⟩
      · rw [(((C65_errors rt _).2 _ _ _ _ rfl (by simp)).1 pre x post h1 h2).1 h3, (((C65_errors rt' _).2 _ _ _ _ rfl (by simp)).1 pre x post h1 h2).1 h3]
      · rw [(((C65_errors rt _).2 _ _ _ _ rfl (by simp)).1 pre x post h1 h2).2 d h3 h4,
          (((C65_errors rt' _).2 _ _ _ _ rfl (by simp)).1 pre x post h1 h2).2 d h3 h4]

/-- On two platforms with the same colour setting, and the same profile if a whole address space is to be covered, the program
writes the same and ends alike, unless a split succeeds in which a number of hosts occurs twice; then the outputs agree except for
the order of blocks with the same heading. -/
theorem C97_same (rt rt' : Runtime) (args : List Str) (hc : rt.colorsEnabled = rt'.colorsEnabled)
    (hp : rt.profile = rt'.profile ∨ ¬ DerangesAll args) :
    doMain rt args = doMain rt' args ∨ TiedSplit args ∧ Reordered (doMain rt args) (doMain rt' args) := by
  match args with
  | [] => exact .inl (by rw [doMain, doMain, if_pos (by simp), if_pos (by simp)])
  | [_] => exact .inl (by rw [doMain, doMain, if_pos (by simp), if_pos (by simp)])
  | prog :: mode :: rest =>
    by_cases hs : mode = "-s".toList ∨ mode = "--split".toList
    · rw [doMain_split _ hs, doMain_split _ hs]
      exact split_reordered rt rt' hc prog mode hs rest
    · left
      by_cases hd : mode = "-d".toList ∨ mode = "--derange".toList
      · rw [(C56_dispatch rt prog mode rest).2.1 hd, (C56_dispatch rt' prog mode rest).2.1 hd]
        exact derange_congr rt rt' _ (hp.imp_right fun h h' => h ⟨h', hd.imp (congrArg some) (congrArg some)⟩)
      · rw [doMain_cons, doMain_cons]
        simp only [if_neg hs, if_neg hd, minimize_any rt rt', resize_congr hc, enumerate_any (rt := rt) (rt' := rt'), colorTest_congr hc,
          show_congr hc]

theorem splitBlocks_nets {A : Type} [IpAddr A] [AddrSpec A] {D : Net A → Str → Prop} (hD : Readable D) {hcs : List Int} {ns : List (Net A)}
    {u : Str} (h : SplitBlocks D hcs ns u) : ∀ {ns' : List (Net A)} {u' : Str}, SplitBlocks D hcs ns' u' → (∀ m ∈ ns, WF m) →
      (∀ m ∈ ns', WF m) → joined u = joined u' → ns = ns' := by
  induction h with
  | nil => intro ns' u' h' _ _ _; cases h'; rfl
  | @cons c cs n ns t u h1 h2 ih =>
    intro ns' u' h' hw hw' he
    cases h' with
    | @cons _ _ n' ns' t' u' h1' h2' =>
      simp only [joined_append, List.append_assoc] at he
      have he := List.append_cancel_left (List.append_cancel_left (List.append_cancel_left he))
      obtain ⟨rfl, he⟩ := hD n n' t t' _ _ (hw n (by simp)) (hw' n' (by simp)) h1 h1' he
      rw [ih h2' (fun m hm => hw m (by simp [hm])) (fun m hm => hw' m (by simp [hm])) (List.append_cancel_left he)]

/-- Two platforms show different texts for a successful split with equal requests. -/
theorem outputSplit_ties {A : Type} [IpAddr A] [AddrSpec A] [LawfulIpAddr A] [ProfileFree A] {on : Net A → Option A → Cli Unit}
    {D : Net A → Str → Prop} (hD : Readable D) (hon : ∀ m, WF m → ∃ t, D m t ∧ Shows (on m none) () t) (pr : Profile)
    (colors : Bool) (n : Net A) (hn : WF n) (hcs : List Int) (hnd : ¬ hcs.Nodup) (hf : Fits (width A) (val n.baseAddr) hcs) :
    visible (outputSplit (.reference pr colors) n hcs on).out ≠ visible (outputSplit (.reversed pr colors) n hcs on).out := by
  have hne : hcs ≠ [] := fun h => hnd (h ▸ List.nodup_nil)
  have hok : ∀ m : Net A, WF m → (on m none).res = .ok () := fun m hm => (hon m hm).choose_spec.2.1
  obtain ⟨ns0, h0⟩ := (fits_iff (.reference pr colors) n hcs hne).mp hf
  rcases outputSplit_any (.reference pr colors) (.reversed pr colors) n hn hcs hne hok with ⟨h, -⟩ |
    ⟨ns, ns', pre, post, res, h1, h2, h3, h4, hw, hw', h5, h6, h7⟩
  · rw [h0] at h; cases h
  · intro he
    rw [h6, h7] at he
    simp only [visible_append] at he
    have he := List.append_cancel_left (List.append_cancel_right he)
    obtain ⟨t, k1, k2⟩ := shows_printSplit hon hcs ns h3 hw
    obtain ⟨t', k1', k2'⟩ := shows_printSplit hon hcs ns' h4 hw'
    have ho : visible (printSplit on (hcs.zip ns)).out = visible (printSplit on (hcs.zip ns')).out := by
      rw [printSplit_blocks (fun x hx => hok _ (hw _ (List.of_mem_zip hx).2)), printSplit_blocks (fun x hx => hok _ (hw' _ (List.of_mem_zip hx).2))]
      exact he
    have ht : t = t' := by rw [← k2.2.1, ← k2'.2.1, ho]
    have hns := splitBlocks_nets hD k1 k1' hw hw' (congrArg joined ht)
    obtain ⟨i, m, m', g1, g2, g3⟩ := split_ties pr colors n hcs hnd ns ns' h1 h2
    rw [hns, g2] at g1
    exact g3 (Option.some.inj g1).symm

/-- For a split that succeeds and in which a number of hosts occurs twice, two platforms show different texts. -/
theorem C97_visible (pr : Profile) (args : List Str) (h : TiedSplit args) :
    visible (doMain (.reference pr true) args).out ≠ visible (doMain (.reversed pr true) args).out := by
  obtain ⟨prog, mode, s, counts, hcs, rfl, hm, hc, hnd, hab⟩ := h
  intro he
  rw [doMain_split _ hm, doMain_split _ hm] at he
  have hne : counts ≠ [] := by
    rintro rfl
    cases hc
    exact hnd List.nodup_nil
  rcases hab with ⟨a, n, h1, h2⟩ | ⟨a, n, h1, h2⟩
  · rw [split_v4 _ prog mode s counts hne hcs hc a n h1, split_v4 _ prog mode s counts hne hcs hc a n h1,
      network4_congr (rt := .reversed pr true) (rt' := .reference pr true) rfl] at he
    exact outputSplit_ties readable4 (display_none_v4 _ rfl) _ _ n (C33_parsed_good _ _ h1).2.1 hcs hnd h2 he
  · rw [split_v6 _ prog mode s counts hne hcs hc a n h1, split_v6 _ prog mode s counts hne hcs hc a n h1,
      network6_congr (rt := .reversed pr true) (rt' := .reference pr true) rfl] at he
    exact outputSplit_ties readable6 (display_none_v6 _ rfl) _ _ n (C33_parsed_good _ _ h1).2.1 hcs hnd h2 he

/-- The colour setting and the arguments determine what the program does exactly if the arguments neither ask for a whole address
space to be covered nor for a split that succeeds and in which a number of hosts occurs twice. -/
theorem C97_exact (args : List Str) :
    (∀ rt rt' : Runtime, rt.colorsEnabled = rt'.colorsEnabled → doMain rt args = doMain rt' args) ↔
      ¬ DerangesAll args ∧ ¬ TiedSplit args := by
  constructor
  · intro h
    constructor
    · rintro ⟨⟨prog, mode, u, v, rfl, hab⟩, hm⟩
      have hm : mode = "-d".toList ∨ mode = "--derange".toList := hm.imp Option.some.inj Option.some.inj
      have he := congrArg Cli.res (h (.reference .checked true) (.reference .wrapping true) rfl)
      rw [(C56_dispatch _ prog mode _).2.1 hm, (C56_dispatch _ prog mode _).2.1 hm] at he
      simp only [derange, List.length_cons, List.length_nil] at he
      rcases hab with ⟨a, b, h1, h2, h3, h4⟩ | ⟨a, b, h1, h2, h3, h4⟩
      · obtain ⟨k1, k2⟩ := C39_whole_space a b h4 h3
        simp only [List.getD_cons_succ, List.getD_cons_zero, h1, h2, Cli.lift_ok_bind] at he
        rw [if_neg (by simp), if_neg (by simp [ParsedIpAddress.version])] at he
        rw [show (Runtime.reference .checked true).profile = .checked from rfl, show (Runtime.reference .wrapping true).profile = .wrapping from rfl,
          k1, k2] at he
        cases he
      · obtain ⟨k1, k2⟩ := C39_whole_space a b h4 h3
        simp only [List.getD_cons_succ, List.getD_cons_zero, h1, h2, Cli.lift_ok_bind] at he
        rw [if_neg (by simp), if_neg (by simp [ParsedIpAddress.version])] at he
        rw [show (Runtime.reference .checked true).profile = .checked from rfl, show (Runtime.reference .wrapping true).profile = .wrapping from rfl,
          k1, k2] at he
        cases he
    · exact fun ht => C97_visible .checked args ht (by rw [h (.reference .checked true) (.reversed .checked true) rfl])
  · rintro ⟨h1, h2⟩ rt rt' hc
    exact (C97_same rt rt' args hc (.inr h1)).resolve_right fun h => h2 h.1

/-- A split in which a number of hosts occurs twice: which block is printed first is left open. -/
theorem tied_example : TiedSplit ["ripcalc".toList, "--split".toList, "192.0.2.0/24".toList, "20".toList, "20".toList] := by
  refine ⟨_, _, _, _, [20, 20], rfl, .inr rfl, counts_of [("20".toList, 20), ("20".toList, 20)] (by decide +kernel), by decide,
    .inl ⟨⟨0xC0000200#32⟩, ⟨⟨0xC0000200#32⟩, ⟨0xFFFFFF00#32⟩, some 24⟩, by decide +kernel, ?_⟩⟩
  refine (fits_iff (.reference .checked true) _ _ (by simp)).mpr ((C54_exact _ _ _ [5, 5] ?_ 5 (by decide) (by decide)).mpr (by decide +kernel))
  have h : HostBitsFor 20 5 := (hostBitsFor_iff _ _).mpr (by decide +kernel)
  exact .cons h (.cons h .nil)

/-- Two platforms on which the outputs differ, and how they are related. -/
example : ∃ rt rt' : Runtime,
    doMain rt ["ripcalc".toList, "--split".toList, "192.0.2.0/24".toList, "20".toList, "20".toList] ≠
      doMain rt' ["ripcalc".toList, "--split".toList, "192.0.2.0/24".toList, "20".toList, "20".toList] ∧
    Reordered (doMain rt ["ripcalc".toList, "--split".toList, "192.0.2.0/24".toList, "20".toList, "20".toList])
      (doMain rt' ["ripcalc".toList, "--split".toList, "192.0.2.0/24".toList, "20".toList, "20".toList]) := by
  have hnot : ¬ DerangesAll ["ripcalc".toList, "--split".toList, "192.0.2.0/24".toList, "20".toList, "20".toList] := by
    rintro ⟨⟨_, _, _, _, h, -⟩, -⟩
    simp at h
  refine Classical.byContradiction fun hcon => ((C97_exact _).mp ?_).2 tied_example
  intro rt rt' hc
  rcases C97_same rt rt' _ hc (.inr hnot) with h | ⟨-, h⟩
  · exact h
  · exact Classical.byContradiction fun hne => hcon ⟨rt, rt', hne, h⟩

/-- Arguments that ask for the whole IPv4 address space. -/
example : DerangesAll ["ripcalc".toList, "-d".toList, "0.0.0.0".toList, "255.255.255.255".toList] :=
  ⟨⟨_, _, _, _, rfl, .inl ⟨⟨0#32⟩, ⟨0xFFFFFFFF#32⟩, by decide +kernel, by decide +kernel, by decide +kernel, by decide +kernel⟩⟩, .inl rfl⟩

/-- Arguments for which the output is determined: the requests differ. -/
example (rt rt' : Runtime) (hc : rt.colorsEnabled = rt'.colorsEnabled) :
    doMain rt ["ripcalc".toList, "--split".toList, "192.0.2.0/24".toList, "20".toList, "100".toList] =
      doMain rt' ["ripcalc".toList, "--split".toList, "192.0.2.0/24".toList, "20".toList, "100".toList] := by
  refine (C97_exact _).mpr ⟨?_, ?_⟩ rt rt' hc
  · rintro ⟨⟨_, _, _, _, h, -⟩, -⟩
    simp at h
  · rintro ⟨_, _, _, _, hcs, h, -, hcs', hnd, -⟩
    simp only [List.cons.injEq] at h
    obtain ⟨-, -, -, rfl⟩ := h
    have := (parseHostCounts_spec _ _).mpr hcs'
    have h2 := (parseHostCounts_spec _ _).mpr (counts_of [("20".toList, 20), ("100".toList, 100)] (by decide +kernel))
    simp only [List.map_cons, List.map_nil] at h2
    rw [this] at h2
    cases h2
    exact hnd (by decide)

theorem C97_split_networks_families : (type_of% (@C97_split_networks V4 _ _ _)) ∧ (type_of% (@C97_split_networks V6 _ _ _)) :=
  ⟨@C97_split_networks V4 _ _ _, @C97_split_networks V6 _ _ _⟩

theorem C97_split_exact_families : (type_of% (@C97_split_exact V4 _ _ _)) ∧ (type_of% (@C97_split_exact V6 _ _ _)) :=
  ⟨@C97_split_exact V4 _ _ _, @C97_split_exact V6 _ _ _⟩

end Ripcalc
