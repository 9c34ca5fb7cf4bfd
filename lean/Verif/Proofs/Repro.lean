import Verif.Props.Columns
import Verif.Props.Main
import Verif.Spec.Repro
import Verif.Proofs.AddrMore
/-!
# What the output depends on
-/
namespace Ripcalc
open AddrSpec LawfulIpAddr

/-! ## The build profile -/

/-- The offsets the program uses do not depend on the profile. -/
class ProfileFree (A : Type) [IpAddr A] : Prop where
  add : ∀ a : A, IpAddr.addOffset .wrapping a 1 = IpAddr.addOffset .checked a 1
  sub : ∀ a : A, IpAddr.subtractOffset .wrapping a 1 = IpAddr.subtractOffset .checked a 1

instance : ProfileFree V4 := ⟨fun _ => rfl, fun _ => rfl⟩
instance : ProfileFree V6 := ⟨
  fun a => (V6.addOffset_eq .wrapping a 1 (by decide)).trans (V6.addOffset_eq .checked a 1 (by decide)).symm,
  fun a => (V6.subtractOffset_eq .wrapping a 1 (by decide)).trans (V6.subtractOffset_eq .checked a 1 (by decide)).symm⟩

theorem profile_all {f : Profile → α} (h : f .wrapping = f .checked) (pr pr' : Profile) : f pr = f pr' := by
  cases pr <;> cases pr' <;> first | rfl | exact h | exact h.symm

section
variable {A : Type} [IpAddr A] [ProfileFree A]
open ProfileFree

theorem firstHost_profile (pr pr' : Profile) (n : Net A) : n.firstHostAddr pr = n.firstHostAddr pr' :=
  profile_all (f := fun pr => n.firstHostAddr pr) (by simp only [Net.firstHostAddr, add]) pr pr'

theorem lastHost_profile (pr pr' : Profile) (n : Net A) : n.lastHostAddr pr = n.lastHostAddr pr' :=
  profile_all (f := fun pr => n.lastHostAddr pr) (by simp only [Net.lastHostAddr, sub]) pr pr'

theorem nextSubnet_profile (pr pr' : Profile) (n : Net A) : n.nextSubnetBaseAddr pr = n.nextSubnetBaseAddr pr' :=
  profile_all (f := fun pr => n.nextSubnetBaseAddr pr) (by simp only [Net.nextSubnetBaseAddr, add]) pr pr'

theorem next_profile (it : NetworkIter A) : it.next .wrapping = it.next .checked := by
  simp only [NetworkIter.next, add]

theorem printNet_profile (pr pr' : Profile) (n : Net A) : printNet pr n = printNet pr' n := by
  refine profile_all (f := fun pr => printNet pr n) ?_ pr pr'
  have h : printStep (A := A) .wrapping = printStep .checked := by
    funext it; simp only [printStep, next_profile]
  simp only [printNet, h]

theorem resize_profile (pr pr' : Profile) (n : Net A) (m : A) : resizeNetwork pr n m = resizeNetwork pr' n m := by
  refine profile_all (f := fun pr => resizeNetwork pr n m) ?_ pr pr'
  have h : resizeStep (A := A) .wrapping = resizeStep .checked := by
    funext m l s; simp only [resizeStep, nextSubnet_profile .wrapping .checked]
  simp only [resizeNetwork, h]

theorem splitLoop_profile (pr pr' : Profile) (l : List (Nat × Int)) : ∀ (cur : Net A) m,
    splitLoop pr cur m l = splitLoop pr' cur m l := by
  induction l with
  | nil => intro cur m; rfl
  | cons x l ih => obtain ⟨i, c⟩ := x; intro cur m; simp only [splitLoop, nextSubnet_profile pr pr', ih]

/-- Where the checked build does not panic, the other does the same. -/
theorem rangeStep_profile {last : A} {s : RangeState A} {x : RangeState A ⊕ List (Net A)} (h : rangeStep .checked last s = .ok x) :
    rangeStep .wrapping last s = .ok x := by
  rw [rangeStep] at h ⊢
  split at h
  · next hle =>
    rw [if_pos hle]
    cases hp : Exec.unwrap s.current.cidrPrefix with
    | panic p => rw [hp] at h; cases h
    | diverge => rw [hp] at h; cases h
    | ok pfx =>
      rw [hp] at h
      simp only [Exec.ok_bind] at h ⊢
      have hs : usizeSub .wrapping pfx 1 = usizeSub .checked pfx 1 := by
        unfold usizeSub at h ⊢
        split
        · rfl
        · next h1 => rw [if_neg h1] at h; cases h
      simp only [hs, nextSubnet_profile .wrapping .checked]
      exact h
  · next hle => rw [if_neg hle]; exact h

theorem range_profile {a b : A} {ns : List (Net A)} (h : rangeToSubnets .checked a b = .ok ns) : rangeToSubnets .wrapping a b = .ok ns := by
  rw [rangeToSubnets] at h ⊢
  cases hc : Net.newWithPrefix (minAddr a b) (IpAddr.byteCount (maxAddr a b) * 8) with
  | panic p => simp only [hc] at h; cases h
  | diverge => simp only [hc] at h; cases h
  | ok c =>
    simp only [hc, Exec.ok_bind] at h ⊢
    obtain ⟨k, hk⟩ := loopM_rounds h
    have key : ∀ {s k r}, Rounds (rangeStep .checked (maxAddr a b)) s k r → Rounds (rangeStep .wrapping (maxAddr a b)) s k r := by
      intro s k r h
      induction h with
      | last h => exact .last (rangeStep_profile h)
      | again h _ ih => exact .again (rangeStep_profile h) ih
    exact rounds_loopM (key hk)

end

/-- A range other than the whole address space is converted alike in both profiles. -/
theorem range_any_profile {A : Type} [IpAddr A] [AddrSpec A] [LawfulIpAddr A] [ProfileFree A] (pr pr' : Profile) (a b : A)
    (h : pr = pr' ∨ ¬ (min (val a) (val b) = 0 ∧ max (val a) (val b) = 2 ^ width A - 1)) : rangeToSubnets pr a b = rangeToSubnets pr' a b := by
  rcases h with rfl | h
  · rfl
  refine profile_all (f := fun pr => rangeToSubnets pr a b) ?_ pr pr'
  show rangeToSubnets .wrapping a b = rangeToSubnets .checked a b
  by_cases ht : max (val a) (val b) = 2 ^ width A - 1
  · have h0 : min (val a) (val b) ≠ 0 := fun h0 => h ⟨h0, ht⟩
    rw [C39_top_panics .wrapping a b ht h0, C39_top_panics .checked a b ht h0]
  · obtain ⟨ns, hns⟩ := (C39_returns_iff .checked a b).mpr (by
      intro x hx e
      rw [between_iff] at hx
      have := val_lt a
      have := val_lt b
      omega)
    rw [range_profile hns, hns]

/-! ## Networks on the screen -/

section
variable {rt rt' : Runtime} (hc : rt.colorsEnabled = rt'.colorsEnabled)
include hc

theorem write_congr : writeInColor rt = writeInColor rt' := by
  funext t c p; simp only [writeInColor, hc]

theorem bits4_congr (f cc : Bool) (bits mb : Str) (l : List Nat) : outputBits4 rt f cc bits mb l = outputBits4 rt' f cc bits mb l := by
  induction l with
  | nil => rfl
  | cons b l ih => simp only [outputBits4, write_congr hc, ih]

theorem byte4_congr : outputByte4 rt = outputByte4 rt' := by
  funext mbs ov i b cc
  simp only [outputByte4, write_congr hc, bits4_congr hc]

theorem bytes4_congr (mbs : Option (List Byte)) (ov : Option Color) (len : Nat) (bs : List Byte) : ∀ i cc,
    outputBytes4 rt mbs ov len i bs cc = outputBytes4 rt' mbs ov len i bs cc := by
  induction bs with
  | nil => intro i cc; rfl
  | cons b bs ih => intro i cc; simp only [outputBytes4, write_congr hc, byte4_congr hc, ih]

theorem binary4_congr : outputBinaryIpv4Address rt = outputBinaryIpv4Address rt' := by
  funext a m cc ov; exact bytes4_congr hc _ _ _ _ _ _

theorem bits6_congr (bits mb : Str) (l : List Nat) : outputBits6 rt bits mb l = outputBits6 rt' bits mb l := by
  induction l with
  | nil => rfl
  | cons b l ih => simp only [outputBits6, write_congr hc, ih]

theorem byte6_congr : outputByte6 rt = outputByte6 rt' := by
  funext mbs ov i b
  simp only [outputByte6, write_congr hc, bits6_congr hc]

theorem bytes6_congr (mbs : Option (List Byte)) (ov : Option Color) (len : Nat) (bs : List Byte) : ∀ i,
    outputBytes6 rt mbs ov len i bs = outputBytes6 rt' mbs ov len i bs := by
  induction bs with
  | nil => intro i; rfl
  | cons b bs ih => intro i; simp only [outputBytes6, write_congr hc, byte6_congr hc, ih]

theorem binary6_congr : outputBinaryIpv6Address rt = outputBinaryIpv6Address rt' := by
  funext a m cc ov; exact bytes6_congr hc _ _ _ _ _

theorem class_congr : outputIpv4Class rt = outputIpv4Class rt' := by
  funext a b; simp only [outputIpv4Class, write_congr hc]

theorem network_congr {A : Type} [IpAddr A] [ProfileFree A] (l aw : Int) (o : A → Option A → Bool → Option Color → Cli Unit)
    (c : Str → Str → Cli Unit) : outputNetwork rt l aw o c = outputNetwork rt' l aw o c := by
  funext n a
  simp only [outputNetwork, outputAddressPart, outputNetworkPart, outputHostsPart, outputBroadcastPart, outputCountPart,
    outputInitialColumns, write_congr hc, firstHost_profile rt.profile rt'.profile, lastHost_profile rt.profile rt'.profile]

theorem network4_congr : outputIpv4Network rt = outputIpv4Network rt' := by
  funext n a; simp only [outputIpv4Network, network_congr hc, binary4_congr hc, class_congr hc]

theorem network6_congr : outputIpv6Network rt = outputIpv6Network rt' := by
  funext n a; simp only [outputIpv6Network, network_congr hc, binary6_congr hc]

theorem show_congr (args : List Str) : showNet rt args = showNet rt' args := by
  have h : ∀ l b, showPrintLoop rt b l = showPrintLoop rt' b l := by
    intro l
    induction l with
    | nil => intro b; rfl
    | cons x l ih => intro b; simp only [showPrintLoop, network4_congr hc, network6_congr hc, ih]
  simp only [showNet, h]

theorem resize_congr (args : List Str) : resize rt args = resize rt' args := by
  simp only [resize, resizeAndOutput, network4_congr hc, network6_congr hc, resize_profile rt.profile rt'.profile]

theorem colorTest_congr : colorTest rt = colorTest rt' := by
  simp only [colorTest, write_congr hc]

omit hc in
theorem enumerate_any (args : List Str) : enumerate rt args = enumerate rt' args := by
  have h : ∀ l r, enumerateLoop rt r l = enumerateLoop rt' r l := by
    intro l
    induction l with
    | nil => intro r; rfl
    | cons s l ih => intro r; simp only [enumerateLoop, ih, printNet_profile rt.profile rt'.profile]
  simp only [enumerate, h]

end

/-! ## Minimize, derange -/

theorem lift_congr {x : Exec α} {f g : α → Cli β} (h : ∀ a, x = .ok a → f a = g a) :
    ((liftM x : Cli α) >>= f) = ((liftM x : Cli α) >>= g) := by
  cases x with
  | ok a => rw [Cli.lift_ok_bind, Cli.lift_ok_bind, h a rfl]
  | panic p => rfl
  | diverge => rfl

theorem minimize_any (rt rt' : Runtime) (args : List Str) : minimize rt args = minimize rt' args := by
  unfold minimize
  split
  · rfl
  refine lift_congr fun r hr => ?_
  rcases r with e | r
  · rfl
  cases r with
  | nothing => rfl
  | mixedSpecs => rfl
  | ipv4 l =>
    have hw : ∀ n ∈ l.map (·.2), WF n := by
      intro n hn
      obtain ⟨x, hx, rfl⟩ := List.mem_map.mp hn
      obtain ⟨s, -, hs⟩ := (((C35_lists _).1 l).mp hr).2.mem_right x hx
      exact (C33_parsed_good _ _ hs).2.1
    simp only [C43_set_function rt' rt _ _ hw (fun _ => Iff.rfl)]
  | ipv6 l =>
    have hw : ∀ n ∈ l.map (·.2), WF n := by
      intro n hn
      obtain ⟨x, hx, rfl⟩ := List.mem_map.mp hn
      obtain ⟨s, -, hs⟩ := (((C35_lists _).2.1 l).mp hr).2.mem_right x hx
      exact (C33_parsed_good _ _ hs).2.1
    simp only [C43_set_function rt' rt _ _ hw (fun _ => Iff.rfl)]

theorem derange_congr (rt rt' : Runtime) (args : List Str) (h : rt.profile = rt'.profile ∨ ¬ WholeRange args) :
    derange rt args = derange rt' args := by
  by_cases hl : args.length = 4
  · obtain ⟨s, t, u, v, rfl⟩ : ∃ a b c d, args = [a, b, c, d] := by
      match args, hl with
      | [a, b, c, d], _ => exact ⟨a, b, c, d, rfl⟩
    unfold derange
    simp only [hl, ne_eq, not_true_eq_false, if_false]
    refine lift_congr fun r hr => ?_
    rcases r with e | one
    · rfl
    refine lift_congr fun r' hr' => ?_
    rcases r' with e | other
    · rfl
    simp only
    split
    · rfl
    cases one with
    | ipv4 a =>
      cases other with
      | ipv4 b =>
        simp only [range_any_profile rt.profile rt'.profile a b (h.imp_right fun h h' => h ⟨s, t, u, v, rfl, .inl ⟨a, b, hr, hr', h'⟩⟩)]
      | ipv6 b => rfl
    | ipv6 a =>
      cases other with
      | ipv4 b => rfl
      | ipv6 b =>
        simp only [range_any_profile rt.profile rt'.profile a b (h.imp_right fun h h' => h ⟨s, t, u, v, rfl, .inr ⟨a, b, hr, hr', h'⟩⟩)]
  · unfold derange
    simp only [hl, ne_eq, not_false_eq_true, if_true]

/-! ## Split -/

section
variable {A : Type} [IpAddr A] [AddrSpec A] [LawfulIpAddr A]

theorem sorted_counts {reqs reqs' : List (Nat × Int)} (hp : reqs.Perm reqs') (hd : reqs.Pairwise (fun x y => y.2 ≤ x.2))
    (hd' : reqs'.Pairwise (fun x y => y.2 ≤ x.2)) : reqs.map Prod.snd = reqs'.map Prod.snd :=
  (hp.map Prod.snd).eq_of_pairwise (le := fun a b : Int => b ≤ a) (fun a b _ _ x y => by omega)
    (List.pairwise_map.mpr hd) (List.pairwise_map.mpr hd')

theorem startOf_counts {b : Nat} {reqs reqs' : List (Nat × Int)} (h : reqs.map Prod.snd = reqs'.map Prod.snd) :
    startOf b reqs = startOf b reqs' := by
  rcases reqs with _ | ⟨⟨i, c⟩, rest⟩ <;> rcases reqs' with _ | ⟨⟨j, d⟩, rest'⟩
  · rfl
  · cases h
  · cases h
  · simp only [List.map_cons, List.cons.injEq] at h
    rw [startOf, startOf, h.1]

theorem Placed.nets {b : Nat} {reqs : List (Nat × Int)} {ps : List (Nat × Net A)} (h : Placed b reqs ps) :
    ∀ {reqs' : List (Nat × Int)} {ps' : List (Nat × Net A)}, Placed b reqs' ps' → reqs.map Prod.snd = reqs'.map Prod.snd →
      ps.map Prod.snd = ps'.map Prod.snd := by
  induction h with
  | nil b =>
    intro reqs' ps' h' he
    cases h' with
    | nil => rfl
    | cons => cases he
  | @cons b i q c n rest ps h1 h2 h3 _ ih =>
    intro reqs' ps' h' he
    cases h' with
    | nil => cases he
    | @cons _ j q' d n' rest' ps' g1 g2 g3 g4 =>
      simp only [List.map_cons, List.cons.injEq] at he
      obtain ⟨rfl, he⟩ := he
      have hq : q = q' := by
        have := (isCidr_netBits h1).2.2
        have := (isCidr_netBits g1).2.2
        omega
      subst hq
      have hn : n = n' := cidr_ext h1 g1 (by omega)
      subst hn
      rw [List.map_cons, List.map_cons, ih g4 he]

omit [IpAddr A] [LawfulIpAddr A] in
theorem Placed.pairs {b : Nat} {reqs : List (Nat × Int)} {ps : List (Nat × Net A)} (h : Placed b reqs ps) (hcs : List Int)
    (ns : List (Net A)) (h1 : ∀ i c, (i, c) ∈ reqs → hcs[i]? = some c) (h2 : ∀ i m, (i, m) ∈ ps → ns[i]? = some m) :
    (reqs.map Prod.fst).filterMap (fun i => (hcs.zip ns)[i]?) = (reqs.map Prod.snd).zip (ps.map Prod.snd) := by
  induction h with
  | nil => rfl
  | @cons b i q c n rest ps _ _ _ _ ih =>
    have := ih (fun i c hi => h1 i c (by simp [hi])) (fun i m hi => h2 i m (by simp [hi]))
    have e : (hcs.zip ns)[i]? = some (c, n) := by
      rw [List.getElem?_zip_eq_some]
      exact ⟨h1 i c (by simp), h2 i n (by simp)⟩
    simp only [List.map_cons, List.filterMap_cons, e, this, List.zip_cons_cons]

theorem range_filterMap (l : List α) : (List.range l.length).filterMap (fun i => l[i]?) = l := by
  induction l with
  | nil => rfl
  | cons x l ih =>
    rw [List.length_cons, List.range_succ_eq_map, List.filterMap_cons]
    simp only [List.getElem?_cons_zero, List.filterMap_map]
    congr 1

/-- On any two platforms a split fails or succeeds alike, and the networks of two results differ at most in which of several equal
requests has which.  The last equation is the order of the requests from which the networks are assigned. -/
theorem splitSubnet_any (rt rt' : Runtime) (n : Net A) (hcs : List Int) :
    (splitSubnet rt n hcs = .ok none ∧ splitSubnet rt' n hcs = .ok none) ∨
    ∃ ns ns' ms, ∃ b e, splitSubnet rt n hcs = .ok (some ns) ∧ splitSubnet rt' n hcs = .ok (some ns') ∧
      ns.length = hcs.length ∧ ns'.length = hcs.length ∧ (hcs.zip ns).Perm (hcs.zip ns') ∧
      ms.Perm ns ∧ ms.Perm ns' ∧ Tiles b ms e ∧ e < 2 ^ width A := by
  obtain ⟨reqs, -, hp, hd, y1, y2⟩ := splitSubnet_sorted rt n hcs
  obtain ⟨reqs', -, hp', hd', y1', y2'⟩ := splitSubnet_sorted rt' n hcs
  have he := sorted_counts (hp.trans hp'.symm) hd hd'
  have hs := startOf_counts (b := val n.baseAddr) he
  have ht : totalSize reqs = totalSize reqs' := by rw [totalSize_perm hp, totalSize_perm hp']
  rw [← hs, ← ht] at y1' y2'
  rcases Nat.lt_or_ge (startOf (val n.baseAddr) reqs + totalSize reqs) (2 ^ width A) with hlt | hge
  · right
    obtain ⟨ps, ns, z1, z2, z3, z4, z5, z6⟩ := y1 hlt
    obtain ⟨ps', ns', z1', z2', z3', z4', z5', z6'⟩ := y1' hlt
    have hn := z1.nets z1' he
    have hpair : ∀ {reqs ps} {ns : List (Net A)} {b}, Placed b reqs ps → reqs.Perm (indexedReqs hcs) → ns.length = hcs.length →
        (∀ i m, (i, m) ∈ ps ↔ ns[i]? = some m) → (hcs.zip ns).Perm ((reqs.map Prod.snd).zip (ps.map Prod.snd)) := by
      intro reqs ps ns b h1 h2 h3 h4
      rw [← h1.pairs hcs ns (fun i c hi => mem_indexedReqs.mp (h2.mem_iff.mp hi)) (fun i m hi => (h4 i m).mp hi)]
      have hk : (List.range (hcs.zip ns).length).Perm (reqs.map Prod.fst) := by
        rw [List.length_zip, h3, Nat.min_self, ← indexedReqs_fst]
        exact (h2.map _).symm
      have := hk.filterMap (fun i => (hcs.zip ns)[i]?)
      rwa [range_filterMap] at this
    refine ⟨ns, ns', ps.map Prod.snd, _, _, z3, z3', z5, z5', ?_, z4.symm, hn ▸ z4'.symm, z2, hlt⟩
    have k1 := hpair z1 hp z5 z6
    have k2 := hpair z1' hp' z5' z6'
    rw [← he, ← hn] at k2
    exact k1.trans k2.symm
  · exact .inl ⟨y2 hge, y2' hge⟩

omit [IpAddr A] [AddrSpec A] [LawfulIpAddr A] in
/-- Without equal requests the results are the same. -/
theorem zip_nodup {hcs : List Int} {ns ns' : List β} (hl : ns.length = hcs.length) (hl' : ns'.length = hcs.length)
    (hp : (hcs.zip ns).Perm (hcs.zip ns')) (hnd : hcs.Nodup) : ns = ns' := by
  refine List.ext_getElem (by omega) fun i h1 h2 => ?_
  have hm : (hcs[i], ns[i]) ∈ hcs.zip ns' := hp.mem_iff.mp (List.mem_iff_getElem?.mpr ⟨i, by
    rw [List.getElem?_zip_eq_some]; simp⟩)
  obtain ⟨j, hj⟩ := List.mem_iff_getElem?.mp hm
  rw [List.getElem?_zip_eq_some] at hj
  obtain ⟨hj1, hj2⟩ := hj
  obtain ⟨hj3, hj4⟩ := List.getElem?_eq_some_iff.mp hj1
  have : j = i := (List.getElem_inj hnd).mp hj4
  subst this
  obtain ⟨hj5, hj6⟩ := List.getElem?_eq_some_iff.mp hj2
  exact hj6.symm

omit [IpAddr A] [AddrSpec A] [LawfulIpAddr A] in
theorem pair_sublist {l : List β} : ∀ {i j : Nat} {x y : β}, i < j → l[i]? = some x → l[j]? = some y → [x, y].Sublist l := by
  induction l with
  | nil => intro i j x y _ h; simp at h
  | cons z l ih =>
    intro i j x y hij hx hy
    cases j with
    | zero => omega
    | succ j =>
      rw [List.getElem?_cons_succ] at hy
      cases i with
      | zero =>
        simp at hx; subst hx
        exact .cons_cons _ (List.singleton_sublist.mpr (List.mem_of_getElem? hy))
      | succ i =>
        rw [List.getElem?_cons_succ] at hx
        exact .cons _ (ih (by omega) hx hy)

omit [IpAddr A] [AddrSpec A] [LawfulIpAddr A] in
theorem not_nodup {l : List Int} (h : ¬ l.Nodup) : ∃ (i j : Nat) (c : Int), i < j ∧ l[i]? = some c ∧ l[j]? = some c := by
  refine Classical.byContradiction fun hcon => h (List.pairwise_iff_getElem.mpr fun i j hi hj hij e => hcon ⟨i, j, l[i], hij, ?_, ?_⟩)
  · exact List.getElem?_eq_getElem hi
  · rw [e]; exact List.getElem?_eq_getElem hj

/-- Of two requests, the one sorted first has the lower network. -/
theorem split_order (rt : Runtime) (n : Net A) (hcs : List Int) (ns : List (Net A)) (h : splitSubnet rt n hcs = .ok (some ns))
    (i j : Nat) (c d : Int)
    (hsub : [(i, c), (j, d)].Sublist (rt.sortUnstable (fun x y : Nat × Int => decide (y.2 ≤ x.2)) (indexedReqs hcs))) :
    ∃ m m', ns[i]? = some m ∧ ns[j]? = some m' ∧ Below m m' ∧ WF m ∧ WF m' := by
  obtain ⟨reqs, hr, hp, hd, y1, y2⟩ := splitSubnet_sorted rt n hcs
  rw [← hr] at hsub
  rcases Nat.lt_or_ge (startOf (val n.baseAddr) reqs + totalSize reqs) (2 ^ width A) with hlt | hge
  · obtain ⟨ps, ns', z1, z2, z3, z4, z5, z6⟩ := y1 hlt
    rw [h] at z3
    cases z3
    have hs := hsub.map Prod.fst
    rw [← z1.fst] at hs
    obtain ⟨l, hl1, hl2⟩ := List.sublist_map_iff.mp hs
    match l, hl2 with
    | [(i', m), (j', m')], hl2 =>
      simp only [List.map_cons, List.map_nil, List.cons.injEq, and_true] at hl2
      obtain ⟨rfl, rfl⟩ := hl2
      have hb := (z2.pairwise_below.sublist (hl1.map Prod.snd))
      have mm : (i, m) ∈ ps := hl1.subset (by simp)
      have mm' : (j, m') ∈ ps := hl1.subset (by simp)
      refine ⟨m, m', (z6 _ _).mp mm, (z6 _ _).mp mm', by simpa using hb, ?_, ?_⟩
      · exact (z2.cidr m (List.mem_map_of_mem mm)).choose_spec.1
      · exact (z2.cidr m' (List.mem_map_of_mem mm')).choose_spec.1
  · rw [y2 hge] at h
    cases h

theorem not_below_both {m m' : Net A} (hw : WF m) (hw' : WF m') (h : Below m m') (h' : Below m' m) : False := by
  have h1 := (C25_broadcast m hw)
  obtain ⟨-, l, -, h2, -⟩ := h1
  obtain ⟨-, l', -, h2', -⟩ := C25_broadcast m' hw'
  have := h l l' ((contains_iff hw.hz _).mp h2) ((contains_iff hw'.hz _).mp h2')
  have := h' l' l ((contains_iff hw'.hz _).mp h2') ((contains_iff hw.hz _).mp h2)
  omega

end

/-- Another platform that satisfies the laws: equal elements are reversed when sorted. -/
def Runtime.reversed (pr : Profile) (colors : Bool) : Runtime where
  profile := pr
  colorsEnabled := colors
  hashIter := fun _ l => l
  hashIter_perm := fun _ _ => .refl _
  sortUnstable := fun le l => l.reverse.mergeSort le
  sortUnstable_perm := fun le l => (List.mergeSort_perm l.reverse le).trans l.reverse_perm
  sortUnstable_sorted := fun _ l ht hT => List.pairwise_mergeSort ht hT l.reverse

section
variable {A : Type} [IpAddr A] [AddrSpec A] [LawfulIpAddr A]

/-- With equal requests two platforms differ. -/
theorem split_ties (pr : Profile) (colors : Bool) (n : Net A) (hcs : List Int) (hnd : ¬ hcs.Nodup) (ns ns' : List (Net A))
    (h : splitSubnet (.reference pr colors) n hcs = .ok (some ns)) (h' : splitSubnet (.reversed pr colors) n hcs = .ok (some ns')) :
    ∃ (i : Nat) (m m' : Net A), ns[i]? = some m ∧ ns'[i]? = some m' ∧ m ≠ m' := by
  obtain ⟨i, j, c, hij, hi, hj⟩ := not_nodup hnd
  have hidx : ∀ {k : Nat} {d : Int}, hcs[k]? = some d → (indexedReqs hcs)[k]? = some (k, d) := by
    intro k d hk
    simp [indexedReqs, hk]
  have hs := pair_sublist hij (hidx hi) (hidx hj)
  have tr : ∀ a b c : Nat × Int, decide (b.2 ≤ a.2) = true → decide (c.2 ≤ b.2) = true → decide (c.2 ≤ a.2) = true := by
    intro a b c; simp; omega
  have tt : ∀ a b : Nat × Int, (decide (b.2 ≤ a.2) || decide (a.2 ≤ b.2)) = true := by
    intro a b; simp; omega
  obtain ⟨m, m2, a1, a2, a3, a4, a5⟩ := split_order _ n hcs ns h i j c c
    (List.pair_sublist_mergeSort tr tt (by simp) hs)
  obtain ⟨m', m2', b1, b2, b3, b4, b5⟩ := split_order _ n hcs ns' h' j i c c
    (List.pair_sublist_mergeSort tr tt (by simp) (by simpa using hs.reverse))
  by_cases e : m = m2'
  · refine ⟨j, m2, m', a2, b1, fun e' => ?_⟩
    subst e; subst e'
    exact not_below_both a4 a5 a3 b3
  · exact ⟨i, m, m2', a1, b2, e⟩

end

/-! ## What split prints -/

/-- The events of one block: heading, network, empty line. -/
def splitBlock {A : Type} (on : Net A → Option A → Cli Unit) (x : Int × Net A) : List OutEv :=
  OutEv.out ("Subnet for ".toList ++ showInt x.1 ++ " hosts:".toList ++ ['\n']) :: ((on x.2 none).out ++ [OutEv.out ['\n']])

section
variable {A : Type} [IpAddr A] [AddrSpec A] [LawfulIpAddr A] [ProfileFree A] {on : Net A → Option A → Cli Unit}

theorem Cli.bind_of {x : Cli α} {a : α} (h : x.res = .ok a) (f : α → Cli β) : x >>= f = ⟨x.out ++ (f a).out, (f a).res⟩ := by
  obtain ⟨o, r⟩ := x
  subst h
  rfl

omit [IpAddr A] [AddrSpec A] [LawfulIpAddr A] [ProfileFree A] in
theorem printSplit_blocks {l : List (Int × Net A)} (h : ∀ x ∈ l, (on x.2 none).res = .ok ()) :
    printSplit on l = ⟨(l.map (splitBlock on)).flatten, .ok ()⟩ := by
  induction l with
  | nil => rfl
  | cons x l ih =>
    obtain ⟨c, m⟩ := x
    have := ih fun x hx => h x (by simp [hx])
    rw [printSplit, Cli.bind_of (a := ()) rfl, Cli.bind_of (h (c, m) (by simp)), Cli.bind_of (a := ()) rfl, this]
    simp [Cli.println, Cli.emit, splitBlock]

/-- What follows the blocks. -/
def splitTail (pr : Profile) (n : Net A) (ns : List (Net A)) : Cli Nat := do
  let lasts ← (lastAddrs ns : Exec (List A))
  let maxUsedAddress ← (Exec.unwrap (maxOf lasts) : Exec A)
  if !n.contains maxUsedAddress then
    Cli.println "Network is too small".toList
  else
    match ← (IpAddr.addOffset pr maxUsedAddress 1 : Exec (Option A)) with
    | none => pure ()
    | some nextUnusedAddress => do
      Cli.println "Unused networks:".toList
      let lastAddress ← (n.lastAddrOfSubnet : Exec A)
      let unused ← (rangeToSubnets pr nextUnusedAddress lastAddress : Exec (List (Net A)))
      printNets unused
  return 0

theorem splitTail_same (pr pr' : Profile) (n : Net A) (hn : WF n) {ms ns ns' : List (Net A)} {b e : Nat} (ht : Tiles b ms e)
    (he : e < 2 ^ width A) (hp : ms.Perm ns) (hp' : ms.Perm ns') (hne : ns ≠ []) : splitTail pr n ns = splitTail pr' n ns' := by
  have hne' : ns' ≠ [] := fun h => hne (by
    have := (hp.symm.trans hp').length_eq
    rw [h] at this
    exact List.length_eq_zero_iff.mp this)
  obtain ⟨ls, x, h1, h2, h3⟩ := tiles_max ht hp hne
  obtain ⟨ls', x', h1', h2', h3'⟩ := tiles_max ht hp' hne'
  have hx : x' = x := val_inj _ _ (by omega)
  subst hx
  have hadd : IpAddr.addOffset pr x' 1 = IpAddr.addOffset pr' x' 1 :=
    profile_all (f := fun pr => IpAddr.addOffset pr x' 1) (ProfileFree.add x') pr pr'
  simp only [splitTail, h1, h1', Cli.lift_ok_bind, h2, h2', Exec.unwrap_some, hadd]
  split
  · rfl
  next hc =>
  have hc : Member n x' := (contains_iff hn.hz x').mp (by simpa using hc)
  refine lift_congr fun o ho => ?_
  cases o with
  | none => rfl
  | some nx =>
    simp only
    congr 1
    funext _
    refine lift_congr fun last hlast => ?_
    have hm := (last_greatest n hn hlast).2 x' hc
    have hnx : val nx = e := by
      obtain ⟨r, h8, h9⟩ := addOffset_nonneg pr' x' 1 (by decide)
      rw [ho] at h8
      cases h8
      have h10 : ((1 : Int32).toInt) = 1 := by decide
      rw [h10] at h9
      have h9 : (val nx : Int) = val x' + 1 := h9
      omega
    have hr : rangeToSubnets pr nx last = rangeToSubnets pr' nx last := by
      refine range_any_profile pr pr' nx last (.inr ?_)
      rintro ⟨h5, h6⟩
      have hw : 8 ≤ width A := by
        have := byteCount_mul n.baseAddr
        have := width_pos (A := A)
        omega
      have : 2 ^ 8 ≤ 2 ^ width A := Nat.pow_le_pow_right (by omega) hw
      omega
    rw [hr]

omit [AddrSpec A] [LawfulIpAddr A] [ProfileFree A] in
theorem outputSplit_tail (rt : Runtime) (n : Net A) (hcs : List Int) (ns : List (Net A)) (h : splitSubnet rt n hcs = .ok (some ns))
    (hn : (on n none).res = .ok ()) (hm : ∀ m ∈ ns, (on m none).res = .ok ()) :
    outputSplit rt n hcs on = ⟨(OutEv.out ("Subnet to split:".toList ++ ['\n']) :: (on n none).out ++ [OutEv.out ['\n']]) ++
      ((hcs.zip ns).map (splitBlock on)).flatten ++ (splitTail rt.profile n ns).out, (splitTail rt.profile n ns).res⟩ := by
  rw [outputSplit, Cli.bind_of (a := ()) rfl, Cli.bind_of hn, Cli.bind_of (a := ()) rfl, h, Cli.lift_ok_bind]
  simp only
  rw [printSplit_blocks (l := hcs.zip ns) (fun x hx => hm _ (List.of_mem_zip hx).2), Cli.bind_of (a := ()) rfl]
  simp only [splitTail, List.append_assoc]
  rfl

/-- The output on two platforms. -/
theorem outputSplit_any (rt rt' : Runtime) (n : Net A) (hn : WF n) (hcs : List Int) (hne : hcs ≠ [])
    (hon : ∀ m : Net A, WF m → (on m none).res = .ok ()) :
    (splitSubnet rt n hcs = .ok none ∧ splitSubnet rt' n hcs = .ok none ∧ outputSplit rt n hcs on = outputSplit rt' n hcs on) ∨
    ∃ ns ns' pre post res, splitSubnet rt n hcs = .ok (some ns) ∧ splitSubnet rt' n hcs = .ok (some ns') ∧
      ns.length = hcs.length ∧ ns'.length = hcs.length ∧ (∀ m ∈ ns, WF m) ∧ (∀ m ∈ ns', WF m) ∧ (hcs.zip ns).Perm (hcs.zip ns') ∧
      outputSplit rt n hcs on = ⟨pre ++ ((hcs.zip ns).map (splitBlock on)).flatten ++ post, res⟩ ∧
      outputSplit rt' n hcs on = ⟨pre ++ ((hcs.zip ns').map (splitBlock on)).flatten ++ post, res⟩ := by
  rcases splitSubnet_any rt rt' n hcs with ⟨h, h'⟩ | ⟨ns, ns', ms, b, e, h1, h2, h3, h4, h5, h6, h7, h8, h9⟩
  · refine .inl ⟨h, h', ?_⟩
    rw [outputSplit, outputSplit, h, h']
    simp only [Cli.lift_ok_bind]
  · have hns : ns ≠ [] := fun h => hne (List.length_eq_zero_iff.mp (by rw [← h3, h]; rfl))
    have hw : ∀ m ∈ ns, WF m := fun m hm => (h8.cidr m (h6.mem_iff.mpr hm)).choose_spec.1
    have hw' : ∀ m ∈ ns', WF m := fun m hm => (h8.cidr m (h7.mem_iff.mpr hm)).choose_spec.1
    refine .inr ⟨ns, ns', _, _, _, h1, h2, h3, h4, hw, hw', h5,
      outputSplit_tail rt n hcs ns h1 (hon n hn) (fun m hm => hon m (hw m hm)), ?_⟩
    rw [splitTail_same rt.profile rt'.profile n hn h8 h9 h6 h7 hns]
    exact outputSplit_tail rt' n hcs ns' h2 (hon n hn) (fun m hm => hon m (hw' m hm))

end

theorem network4_ok (rt : Runtime) (m : Net V4) (hm : WF m) : (outputIpv4Network rt m none).res = .ok () := by
  obtain ⟨t, -, h, -⟩ := display_none_v4 (rt.withColors true) rfl m hm
  cases hc : rt.colorsEnabled with
  | true => rw [network4_congr (rt' := rt.withColors true) hc]; exact h
  | false =>
    rw [network4_congr (rt' := rt.withColors false) hc, uncolored_network4 rt m none, Cli.mapOut, h]

theorem network6_ok (rt : Runtime) (m : Net V6) (hm : WF m) : (outputIpv6Network rt m none).res = .ok () := by
  obtain ⟨t, -, h, -⟩ := display_none_v6 (rt.withColors true) rfl m hm
  cases hc : rt.colorsEnabled with
  | true => rw [network6_congr (rt' := rt.withColors true) hc]; exact h
  | false =>
    rw [network6_congr (rt' := rt.withColors false) hc, uncolored_network6 rt m none, Cli.mapOut, h]

end Ripcalc
