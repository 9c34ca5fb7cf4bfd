import Verif.Props.Splitting
/-!
# C118: what a split depends on

Only the sizes of the networks for the requests matter, not their order or the exact numbers of hosts.
-/
set_option linter.unusedSectionVars false
namespace Ripcalc
open AddrSpec LawfulIpAddr

/-- Up to their order the requests need networks of the same sizes. -/
def SameSizes (hcs hcs' : List Int) : Prop :=
  ∃ es es', Pointwise HostBitsFor hcs es ∧ Pointwise HostBitsFor hcs' es' ∧ es.Perm es'

theorem sameSizes_iff (hcs hcs' : List Int) : SameSizes hcs hcs' ↔ (hcs.map needBits).Perm (hcs'.map needBits) := by
  have hu : ∀ (a : Int) (b c : Nat), HostBitsFor a b → HostBitsFor a c → b = c := by
    intro a b c h h'
    rw [hostBitsFor_iff] at h h'
    omega
  constructor
  · rintro ⟨es, es', h, h', hp⟩
    rw [h.unique hu (hostBits_map hcs), h'.unique hu (hostBits_map hcs')] at hp
    exact hp
  · exact fun h => ⟨_, _, hostBits_map hcs, hostBits_map hcs', h⟩

theorem SameSizes.of_perm {hcs hcs' : List Int} (h : hcs.Perm hcs') : SameSizes hcs hcs' :=
  (sameSizes_iff _ _).mpr (h.map _)

theorem SameSizes.length {hcs hcs' : List Int} (h : SameSizes hcs hcs') : hcs.length = hcs'.length := by
  simpa using ((sameSizes_iff _ _).mp h).length_eq

theorem needBits_sorted {reqs : List (Nat × Int)} (h : reqs.Pairwise (fun x y => y.2 ≤ x.2)) :
    (reqs.map fun r => needBits r.2).Pairwise (fun a b => b ≤ a) :=
  List.pairwise_map.mpr (h.imp fun h => needBits_mono h)

section
variable {A : Type} [IpAddr A] [AddrSpec A] [LawfulIpAddr A]

/-- The sizes determine the networks. -/
theorem Placed.sizes {b : Nat} {reqs : List (Nat × Int)} {ps : List (Nat × Net A)} (h : Placed b reqs ps) :
    ∀ {reqs' : List (Nat × Int)} {ps' : List (Nat × Net A)}, Placed b reqs' ps' →
      (reqs.map fun r => needBits r.2) = (reqs'.map fun r => needBits r.2) → ps.map Prod.snd = ps'.map Prod.snd := by
  induction h with
  | nil b =>
    intro reqs' ps' h' he
    cases h' with
    | nil => rfl
    | cons => cases he
  | @cons b i q c n rest ps h1 h2 h3 h4 ih =>
    intro reqs' ps' h' he
    cases h' with
    | nil => cases he
    | @cons _ i' q' c' n' rest' ps' g1 g2 g3 g4 =>
      simp only [List.map_cons, List.cons.injEq] at he
      obtain ⟨hc, he⟩ := he
      have hq : q = q' := by
        have := (isCidr_netBits h1).2.2
        have := (isCidr_netBits g1).2.2
        omega
      subst hq
      have hn : n = n' := cidr_ext h1 g1 (by rw [h3, g3, hc])
      subst hn
      rw [← hc] at g4
      rw [List.map_cons, List.map_cons, ih g4 he]

theorem startOf_sizes {b : Nat} {reqs reqs' : List (Nat × Int)}
    (h : (reqs.map fun r => needBits r.2) = (reqs'.map fun r => needBits r.2)) : startOf b reqs = startOf b reqs' := by
  rcases reqs with _ | ⟨⟨i, c⟩, rs⟩ <;> rcases reqs' with _ | ⟨⟨i', c'⟩, rs'⟩
  · rfl
  · cases h
  · cases h
  · simp only [List.map_cons, List.cons.injEq] at h
    rw [startOf, startOf, h.1]

theorem totalSize_sizes {reqs reqs' : List (Nat × Int)}
    (h : (reqs.map fun r => needBits r.2) = (reqs'.map fun r => needBits r.2)) : totalSize reqs = totalSize reqs' := by
  have : ∀ rs : List (Nat × Int), totalSize rs = ((rs.map fun r => needBits r.2).map fun e => 2 ^ e).sum := by
    intro rs
    rw [totalSize, List.map_map]
    rfl
  rw [this, this, h]

omit [IpAddr A] [AddrSpec A] [LawfulIpAddr A] in
theorem indexedReqs_sizes {reqs : List (Nat × Int)} {hcs : List Int} (h : reqs.Perm (indexedReqs hcs)) :
    (reqs.map fun r => needBits r.2).Perm (hcs.map needBits) := by
  have h1 := h.map Prod.snd
  have h2 : (indexedReqs hcs).map Prod.snd = hcs := by
    refine List.ext_getElem? fun i => ?_
    simp only [indexedReqs, List.map_map, List.getElem?_map, List.getElem?_zipIdx, Option.map_map]
    cases hcs[i]? <;> rfl
  rw [h2] at h1
  have h3 := h1.map needBits
  rwa [List.map_map] at h3

theorem splitSubnet_sizes (rt rt' : Runtime) (n : Net A) (hcs hcs' : List Int) (hs : SameSizes hcs hcs') :
    (splitSubnet rt n hcs = .ok none ∧ splitSubnet rt' n hcs' = .ok none) ∨
    ∃ ns ns' ms, ∃ b e, splitSubnet rt n hcs = .ok (some ns) ∧ splitSubnet rt' n hcs' = .ok (some ns') ∧
      ns.length = hcs.length ∧ ns'.length = hcs'.length ∧ ms.Perm ns ∧ ms.Perm ns' ∧ Tiles b ms e ∧ e < 2 ^ width A := by
  obtain ⟨reqs, -, hp, hd, y1, y2⟩ := splitSubnet_sorted rt n hcs
  obtain ⟨reqs', -, hp', hd', y1', y2'⟩ := splitSubnet_sorted rt' n hcs'
  have he : (reqs.map fun r => needBits r.2) = (reqs'.map fun r => needBits r.2) :=
    ((indexedReqs_sizes hp).trans (((sameSizes_iff _ _).mp hs).trans (indexedReqs_sizes hp').symm)).eq_of_pairwise
      (le := fun a b : Nat => b ≤ a) (fun a b _ _ x y => by omega) (needBits_sorted hd) (needBits_sorted hd')
  rw [← startOf_sizes (b := val n.baseAddr) he, ← totalSize_sizes he] at y1' y2'
  rcases Nat.lt_or_ge (startOf (val n.baseAddr) reqs + totalSize reqs) (2 ^ width A) with hlt | hge
  · obtain ⟨ps, ns, z1, z2, z3, z4, z5, z6⟩ := y1 hlt
    obtain ⟨ps', ns', z1', z2', z3', z4', z5', z6'⟩ := y1' hlt
    have hn := z1.sizes z1' he
    exact .inr ⟨ns, ns', ps.map Prod.snd, _, _, z3, z3', z5, z5', z4.symm, hn ▸ z4'.symm, z2, hlt⟩
  · exact .inl ⟨y2 hge, y2' hge⟩

theorem SplitInto.order {n : Net A} {hcs hcs' : List Int} {ns ns' : List (Net A)} (hp : hcs.Perm hcs') (h : SplitInto n hcs ns)
    (h' : SplitInto n hcs' ns') : (hcs.zip ns).Perm (hcs'.zip ns') := by
  obtain ⟨hl, rs, E, e, h1, h2, h3, h4, h5⟩ := h
  have e1 : (hcs.zip ns).map Prod.fst = hcs := List.map_fst_zip (by omega)
  obtain ⟨m, hm1, hm2⟩ := perm_lift hp.symm e1
  have hz : hcs'.zip (m.map Prod.snd) = m := by
    rw [← hm2, List.zip_map']
    exact List.map_id _
  have hs : SplitInto n hcs' (m.map Prod.snd) :=
    ⟨by rw [← hm2, List.length_map, List.length_map], rs, E, e, by rw [hz]; exact h1.trans hm1.symm, h2, h3, h4, h5⟩
  have := hs.unique h'
  rw [hz] at this
  exact hm1.symm.trans this

omit [IpAddr A] [LawfulIpAddr A] in
theorem Allotted.each {b e : Nat} {rs : List (Int × Net A)} (h : Allotted b rs e) :
    ∀ r ∈ rs, ∃ q, IsCidr q r.2 ∧ HostBitsFor r.1 (width A - q) := by
  induction h with
  | nil => simp
  | @cons c n rest q e h1 h2 _ ih =>
    intro r hr
    rcases List.mem_cons.mp hr with rfl | hr
    · exact ⟨q, h1, h2⟩
    · exact ih r hr

theorem SplitInto.sizes {n : Net A} {hcs : List Int} {ns : List (Net A)} (h : SplitInto n hcs ns) :
    hcs.map needBits = ns.map hostBits := by
  obtain ⟨hl, rs, E, e, h1, -, -, h4, -⟩ := h
  have e1 : (hcs.zip ns).map Prod.fst = hcs := List.map_fst_zip (by omega)
  have e2 : (hcs.zip ns).map Prod.snd = ns := List.map_snd_zip (by omega)
  have h6 : (hcs.zip ns).map (needBits ∘ Prod.fst) = (hcs.zip ns).map (hostBits ∘ Prod.snd) := by
    refine List.map_congr_left fun r hr => ?_
    obtain ⟨q, hq, hb⟩ := h4.each r (h1.mem_iff.mpr hr)
    rw [hostBitsFor_iff] at hb
    simp only [Function.comp_apply]
    rw [← hb, (isCidr_netBits hq).2.1]
  rw [← List.map_map, ← List.map_map, e1, e2] at h6
  exact h6

/-- Requests that need networks of the same sizes, in whatever order, are refused alike or get the same networks. -/
theorem C118_sizes (rt rt' : Runtime) (n : Net A) (hcs hcs' : List Int) (hs : SameSizes hcs hcs') :
    (splitSubnet rt n hcs = .ok none ∧ splitSubnet rt' n hcs' = .ok none) ∨
    ∃ ns ns', splitSubnet rt n hcs = .ok (some ns) ∧ splitSubnet rt' n hcs' = .ok (some ns') ∧ ns.Perm ns' := by
  rcases splitSubnet_sizes rt rt' n hcs hcs' hs with h | ⟨ns, ns', ms, b, e, h1, h2, -, -, h5, h6, -⟩
  · exact .inl h
  · exact .inr ⟨ns, ns', h1, h2, h5.symm.trans h6⟩

/-- Nothing less will do: requests that get the same networks, from whatever networks, need networks of the same sizes. -/
theorem C118_only (rt rt' : Runtime) (n n' : Net A) (hcs hcs' : List Int) (ns ns' : List (Net A))
    (h : splitSubnet rt n hcs = .ok (some ns)) (h' : splitSubnet rt' n' hcs' = .ok (some ns')) (hp : ns.Perm ns') :
    SameSizes hcs hcs' := by
  rw [sameSizes_iff, (split_into rt n hcs ns h).sizes, (split_into rt' n' hcs' ns' h').sizes]
  exact hp.map _

/-- Requests in another order are refused alike, or the same networks are given to the same numbers of hosts. -/
theorem C118_order (rt rt' : Runtime) (n : Net A) (hcs hcs' : List Int) (hp : hcs.Perm hcs') :
    (splitSubnet rt n hcs = .ok none ∧ splitSubnet rt' n hcs' = .ok none) ∨
    ∃ ns ns', splitSubnet rt n hcs = .ok (some ns) ∧ splitSubnet rt' n hcs' = .ok (some ns') ∧ ns.length = hcs.length ∧
      ns'.length = hcs'.length ∧ (hcs.zip ns).Perm (hcs'.zip ns') := by
  rcases splitSubnet_sizes rt rt' n hcs hcs' (.of_perm hp) with h | ⟨ns, ns', ms, b, e, h1, h2, h3, h4, -⟩
  · exact .inl h
  · exact .inr ⟨ns, ns', h1, h2, h3, h4, (split_into rt n hcs ns h1).order hp (split_into rt' n hcs' ns' h2)⟩

/-! ## The command -/

/-- Both outputs begin and end with the same; in between, for each number of hosts in order, a block with its heading; below the
headings there are the same blocks, in another order if need be. -/
def SameBlocks (hcs hcs' : List Int) (x y : Cli Nat) : Prop :=
  ∃ pre post bs bs' res, x = ⟨pre ++ bs.flatten ++ post, res⟩ ∧ y = ⟨pre ++ bs'.flatten ++ post, res⟩ ∧
    Pointwise (fun (c : Int) (b : List OutEv) => b.head? = some (.out ("Subnet for ".toList ++ showInt c ++ " hosts:\n".toList))) hcs bs ∧
    Pointwise (fun (c : Int) (b : List OutEv) => b.head? = some (.out ("Subnet for ".toList ++ showInt c ++ " hosts:\n".toList))) hcs' bs' ∧
    (bs.map List.tail).Perm (bs'.map List.tail) ∧ (hcs.Perm hcs' → bs.Perm bs')

theorem blocks_heads {on : Net A → Option A → Cli Unit} {hcs : List Int} : ∀ {ns : List (Net A)}, ns.length = hcs.length →
    Pointwise (fun (c : Int) (b : List OutEv) => b.head? = some (.out ("Subnet for ".toList ++ showInt c ++ " hosts:\n".toList))) hcs
      ((hcs.zip ns).map (splitBlock on)) := by
  induction hcs with
  | nil => intro ns _; exact .nil
  | cons c hcs ih =>
    intro ns h
    match ns, h with
    | n :: ns, h =>
      refine .cons ?_ (ih (by simpa using h))
      simp [splitBlock]

theorem outputSplit_sizes [ProfileFree A] {on : Net A → Option A → Cli Unit} (rt rt' : Runtime) (n : Net A) (hn : WF n)
    (hcs hcs' : List Int) (hne : hcs ≠ []) (hs : SameSizes hcs hcs') (hon : ∀ m : Net A, WF m → (on m none).res = .ok ()) :
    outputSplit rt n hcs on = outputSplit rt' n hcs' on ∨ SameBlocks hcs hcs' (outputSplit rt n hcs on) (outputSplit rt' n hcs' on) := by
  rcases splitSubnet_sizes rt rt' n hcs hcs' hs with ⟨h, h'⟩ | ⟨ns, ns', ms, b, e, h1, h2, h3, h4, h6, h7, h8, h9⟩
  · left
    rw [outputSplit, outputSplit, h, h']
    simp only [Cli.lift_ok_bind]
  · right
    have hns : ns ≠ [] := fun h => hne (List.length_eq_zero_iff.mp (by rw [← h3, h]; rfl))
    have hw : ∀ m ∈ ns, WF m := fun m hm => (h8.cidr m (h6.mem_iff.mpr hm)).choose_spec.1
    have hw' : ∀ m ∈ ns', WF m := fun m hm => (h8.cidr m (h7.mem_iff.mpr hm)).choose_spec.1
    have ht : ∀ {hcs : List Int} {ns : List (Net A)}, ns.length = hcs.length → ((hcs.zip ns).map (splitBlock on)).map List.tail =
        ns.map fun m => (on m none).out ++ [OutEv.out ['\n']] := by
      intro hcs ns h
      have e2 : (hcs.zip ns).map Prod.snd = ns := List.map_snd_zip (by omega)
      rw [List.map_map, ← e2, List.map_map, e2]
      rfl
    refine ⟨_, _, _, _, _, outputSplit_tail rt n hcs ns h1 (hon n hn) (fun m hm => hon m (hw m hm)), ?_, blocks_heads h3,
      blocks_heads h4, ?_, fun hp => ((split_into rt n hcs ns h1).order hp (split_into rt' n hcs' ns' h2)).map _⟩
    · rw [splitTail_same rt.profile rt'.profile n hn h8 h9 h6 h7 hns]
      exact outputSplit_tail rt' n hcs' ns' h2 (hon n hn) (fun m hm => hon m (hw' m hm))
    · rw [ht h3, ht h4]
      exact (h6.symm.trans h7).map _

end

/-- The program, called with numbers of hosts that need networks of the same sizes, in whatever order: the outputs and the ends of
the runs are the same, or they are the same except for the blocks of the networks; these are the same blocks below the headings, and
with the same numbers of hosts also the headings stay with their blocks. -/
theorem C118_program (rt rt' : Runtime) (hc : rt.colorsEnabled = rt'.colorsEnabled) (prog mode s : Str)
    (hm : mode = "-s".toList ∨ mode = "--split".toList) (counts counts' : List Str) (hcs hcs' : List Int) (hne : counts ≠ [])
    (h : Counts counts hcs) (h' : Counts counts' hcs') (hs : SameSizes hcs hcs') :
    doMain rt (prog :: mode :: s :: counts) = doMain rt' (prog :: mode :: s :: counts') ∨
    SameBlocks hcs hcs' (doMain rt (prog :: mode :: s :: counts)) (doMain rt' (prog :: mode :: s :: counts')) := by
  have hne' : counts' ≠ [] := by
    rintro rfl
    have h1 := h.length
    have h2 := h'.length
    have h3 := hs.length
    exact hne (List.length_eq_zero_iff.mp (by simp at h2; omega))
  rw [doMain_split _ hm, doMain_split _ hm]
  obtain ⟨r, hr⟩ := parseNetspec_total s
  rcases r with e | (⟨a, n⟩ | ⟨a, n⟩)
  · exact .inl (by rw [((C65_errors rt _).2 _ _ _ _ rfl hne).2 hcs e h hr, ((C65_errors rt' _).2 _ _ _ _ rfl hne').2 hcs' e h' hr])
  · rw [split_v4 rt prog mode s counts hne hcs h a n hr, split_v4 rt' prog mode s counts' hne' hcs' h' a n hr, ← network4_congr hc]
    exact outputSplit_sizes rt rt' n (C33_parsed_good _ _ hr).2.1 hcs hcs' (h.ne_nil hne) hs (network4_ok rt)
  · rw [split_v6 rt prog mode s counts hne hcs h a n hr, split_v6 rt' prog mode s counts' hne' hcs' h' a n hr, ← network6_congr hc]
    exact outputSplit_sizes rt rt' n (C33_parsed_good _ _ hr).2.1 hcs hcs' (h.ne_nil hne) hs (network6_ok rt)

theorem C118_sizes_families : (type_of% (@C118_sizes V4 _ _ _)) ∧ (type_of% (@C118_sizes V6 _ _ _)) :=
  ⟨@C118_sizes V4 _ _ _, @C118_sizes V6 _ _ _⟩

theorem C118_only_families : (type_of% (@C118_only V4 _ _ _)) ∧ (type_of% (@C118_only V6 _ _ _)) :=
  ⟨@C118_only V4 _ _ _, @C118_only V6 _ _ _⟩

theorem C118_order_families : (type_of% (@C118_order V4 _ _ _)) ∧ (type_of% (@C118_order V6 _ _ _)) :=
  ⟨@C118_order V4 _ _ _, @C118_order V6 _ _ _⟩

/-- Five hosts and six need networks of the same size, seven need a larger one. -/
example : SameSizes [5, 100] [126, 6] ∧ ¬ SameSizes [6] [7] := by
  rw [sameSizes_iff, sameSizes_iff]
  decide +kernel

/-- A successful split of 10.0.0.0/24: the hypotheses of `C118_program` hold and the networks are found. -/
example (rt : Runtime) : Counts ["5".toList, "100".toList] [5, 100] ∧ Counts ["126".toList, "6".toList] [126, 6] ∧
    ∃ ns, splitSubnet rt (⟨⟨0x0A000000#32⟩, ⟨0xFFFFFF00#32⟩, some 24⟩ : Net V4) [5, 100] = .ok (some ns) :=
  ⟨counts_of [("5".toList, 5), ("100".toList, 100)] (by decide +kernel), counts_of [("126".toList, 126), ("6".toList, 6)] (by decide +kernel),
    (C54_exact _ _ _ [3, 7] (.cons ((hostBitsFor_iff _ _).mpr (by decide +kernel)) (.cons ((hostBitsFor_iff _ _).mpr (by decide +kernel)) .nil))
      7 (by decide) (by decide)).mpr (by decide +kernel)⟩

end Ripcalc
