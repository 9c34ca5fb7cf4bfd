import Verif.Props.Repro
import Verif.Spec.Splitting
/-!
# C52: how a network is split, exactly
-/
set_option linter.unusedSectionVars false
namespace Ripcalc
open AddrSpec LawfulIpAddr

/-! ## A platform that sorts one list in a given way -/

/-- A list obtained by reordering the images comes from reordering the list. -/
theorem perm_lift {f : α → β} {l l' : List β} (h : l.Perm l') : ∀ {m : List α}, m.map f = l' → ∃ m' : List α, m'.Perm m ∧ m'.map f = l := by
  induction h with
  | nil => exact fun {m} e => ⟨m, .refl _, e⟩
  | cons x _ ih =>
    intro m e
    obtain ⟨a, m, rfl, rfl, e'⟩ := List.map_eq_cons_iff.mp e
    obtain ⟨m', h1, h2⟩ := ih e'
    exact ⟨a :: m', h1.cons a, by rw [List.map_cons, h2]⟩
  | swap x y l =>
    intro m e
    obtain ⟨a, m, rfl, rfl, e'⟩ := List.map_eq_cons_iff.mp e
    obtain ⟨b, m, rfl, rfl, rfl⟩ := List.map_eq_cons_iff.mp e'
    exact ⟨b :: a :: m, .swap _ _ _, rfl⟩
  | trans _ _ ih1 ih2 =>
    intro m e
    obtain ⟨m1, h1, h2⟩ := ih2 e
    obtain ⟨m2, h3, h4⟩ := ih1 h2
    exact ⟨m2, h3.trans h1, h4⟩

/-- What a sort is asked for. -/
abbrev SortTask := Σ α : Type, (α → α → Bool) × List α

open Classical in
/-- The platform with one task answered in the given way. -/
noncomputable def Runtime.sorting (rt : Runtime) {α : Type} (le : α → α → Bool) (l r : List α) (hp : r.Perm l)
    (hs : r.Pairwise (fun a b => le a b)) : Runtime where
  profile := rt.profile
  colorsEnabled := rt.colorsEnabled
  hashIter := rt.hashIter
  hashIter_perm := rt.hashIter_perm
  sortUnstable := fun {β} le' l' =>
    if h : (⟨α, le, l⟩ : SortTask) = ⟨β, le', l'⟩ then cast (congrArg (fun x : SortTask => List x.1) h) r
    else rt.sortUnstable le' l'
  sortUnstable_perm := fun {β} le' l' => by
    split
    · next h => cases h; exact hp
    · exact rt.sortUnstable_perm le' l'
  sortUnstable_sorted := fun {β} le' l' ht hT => by
    split
    · next h => cases h; exact hs
    · exact rt.sortUnstable_sorted le' l' ht hT

theorem Runtime.sorting_sort (rt : Runtime) {α : Type} (le : α → α → Bool) (l r : List α) (hp : r.Perm l)
    (hs : r.Pairwise (fun a b => le a b)) : (rt.sorting le l r hp hs).sortUnstable le l = r := by
  unfold Runtime.sorting
  exact dif_pos rfl

/-! ## The layout -/

section
variable {A : Type} [IpAddr A] [AddrSpec A] [LawfulIpAddr A]

/-- Descending requests from an aligned start. -/
theorem Placed.allotted {b : Nat} {reqs : List (Nat × Int)} {ps : List (Nat × Net A)} (h : Placed b reqs ps)
    (hs : reqs.Pairwise (fun x y => y.2 ≤ x.2)) (ha : ∀ r, reqs.head? = some r → 2 ^ needBits r.2 ∣ b) :
    Allotted b ((reqs.map Prod.snd).zip (ps.map Prod.snd)) (b + totalSize reqs) := by
  induction h with
  | nil b => exact .nil b
  | @cons b i q c n rest ps h1 h2 h3 h4 ih =>
    obtain ⟨hs1, hs2⟩ := List.pairwise_cons.mp hs
    have hb : val n.baseAddr = b := by rw [h3, aligned_self (ha _ rfl)]
    have hd : (2 : Nat) ^ needBits c ∣ val n.baseAddr + 2 ^ needBits c := by
      rw [hb]; exact (Nat.dvd_add_iff_left (Nat.dvd_refl _)).mp (ha _ rfl)
    have htile := ih hs2 (fun r hr => by
      have hmem : r ∈ rest := List.mem_of_mem_head? (by rw [hr]; rfl)
      exact Nat.dvd_trans (Nat.pow_dvd_pow 2 (needBits_mono (hs1 r hmem))) hd)
    rw [totalSize_cons, ← Nat.add_assoc, List.map_cons, List.map_cons, List.zip_cons_cons, ← hb]
    refine .cons h1 ((hostBitsFor_iff _ _).mpr h2) ?_
    rw [h2]
    exact htile

/-- The numbers of hosts determine the networks. -/
theorem Allotted.unique {b e : Nat} {rs : List (Int × Net A)} (h : Allotted b rs e) :
    ∀ {rs' e'}, Allotted b rs' e' → rs.map Prod.fst = rs'.map Prod.fst → rs = rs' ∧ e = e' := by
  induction h with
  | nil b =>
    intro rs' e' h' he
    cases h' with
    | nil => exact ⟨rfl, rfl⟩
    | cons => cases he
  | @cons c n rest q e h1 h2 _ ih =>
    intro rs' e' h' he
    generalize hb : val n.baseAddr = b' at h'
    cases h' with
    | nil => cases he
    | @cons c' n' rest' q' _ g1 g2 g3 =>
      simp only [List.map_cons, List.cons.injEq] at he
      obtain ⟨rfl, he⟩ := he
      rw [hostBitsFor_iff] at h2 g2
      have hq : q = q' := by
        have := (isCidr_netBits h1).2.2
        have := (isCidr_netBits g1).2.2
        omega
      subst hq
      have hn : n = n' := cidr_ext h1 g1 hb
      subst hn
      obtain ⟨rfl, rfl⟩ := ih g3 he
      exact ⟨rfl, rfl⟩

omit [IpAddr A] [LawfulIpAddr A] in
theorem sorted_firsts {rs rs' : List (Int × Net A)} (hp : (rs.map Prod.fst).Perm (rs'.map Prod.fst)) (hd : rs.Pairwise (fun x y => y.1 ≤ x.1))
    (hd' : rs'.Pairwise (fun x y => y.1 ≤ x.1)) : rs.map Prod.fst = rs'.map Prod.fst :=
  hp.eq_of_pairwise (le := fun a b : Int => b ≤ a) (fun a b _ _ x y => by omega)
    (List.pairwise_map.mpr hd) (List.pairwise_map.mpr hd')

/-- At most the networks of equal requests can be exchanged. -/
theorem SplitInto.unique {n : Net A} {hcs : List Int} {ns ns' : List (Net A)} (h : SplitInto n hcs ns) (h' : SplitInto n hcs ns') :
    (hcs.zip ns).Perm (hcs.zip ns') := by
  obtain ⟨hl, rs, E, e, h1, h2, h3, h4, -⟩ := h
  obtain ⟨hl', rs', E', e', h1', h2', h3', h4', -⟩ := h'
  have hk : rs.map Prod.fst = rs'.map Prod.fst := by
    refine sorted_firsts ?_ h2 h2'
    have e1 : (hcs.zip ns).map Prod.fst = hcs := List.map_fst_zip (by omega)
    have e2 : (hcs.zip ns').map Prod.fst = hcs := List.map_fst_zip (by omega)
    have p1 := h1.map Prod.fst
    have p2 := h1'.map Prod.fst
    rw [e1] at p1
    rw [e2] at p2
    exact p1.trans p2.symm
  have hr : rs = rs' := by
    rcases rs with _ | ⟨r, rs⟩ <;> rcases rs' with _ | ⟨r', rs'⟩
    · rfl
    · cases hk
    · cases hk
    · have hE : E = E' := by
        have g := h3 r rfl
        have g' := h3' r' rfl
        simp only [List.map_cons, List.cons.injEq] at hk
        rw [hostBitsFor_iff] at g g'
        rw [g, g', hk.1]
      subst hE
      exact (h4.unique h4' hk).1
  exact (h1.symm.trans (hr ▸ .refl _)).trans h1'

theorem split_zip {reqs : List (Nat × Int)} {ps : List (Nat × Net A)} {hcs : List Int} {ns : List (Net A)} {b : Nat}
    (h1 : Placed b reqs ps) (h2 : reqs.Perm (indexedReqs hcs)) (h3 : ns.length = hcs.length)
    (h4 : ∀ i m, (i, m) ∈ ps ↔ ns[i]? = some m) : ((reqs.map Prod.snd).zip (ps.map Prod.snd)).Perm (hcs.zip ns) := by
  rw [← h1.pairs hcs ns (fun i c hi => mem_indexedReqs.mp (h2.mem_iff.mp hi)) (fun i m hi => (h4 i m).mp hi)]
  have hk : (List.range (hcs.zip ns).length).Perm (reqs.map Prod.fst) := by
    rw [List.length_zip, h3, Nat.min_self, ← indexedReqs_fst]
    exact (h2.map _).symm
  have := hk.filterMap (fun i => (hcs.zip ns)[i]?)
  rw [range_filterMap] at this
  exact this.symm

omit [IpAddr A] [LawfulIpAddr A] in
theorem Placed.length {b : Nat} {reqs : List (Nat × Int)} {ps : List (Nat × Net A)} (h : Placed b reqs ps) : reqs.length = ps.length := by
  induction h with
  | nil => rfl
  | cons _ _ _ _ ih => rw [List.length_cons, List.length_cons, ih]

theorem startOf_eq (b : Nat) (reqs : List (Nat × Int)) : ∃ E, (∀ r, reqs.head? = some r → HostBitsFor r.2 E) ∧
    startOf b reqs = b / 2 ^ E * 2 ^ E := by
  rcases reqs with _ | ⟨⟨i, c⟩, rest⟩
  · exact ⟨0, fun r h => (by cases h), by simp [startOf]⟩
  · exact ⟨needBits c, fun r h => (by cases h; exact needBits_spec c), rfl⟩

/-- Every result of the splitting function is described by `SplitInto`. -/
theorem split_into (rt : Runtime) (n : Net A) (hcs : List Int) (ns : List (Net A)) (h : splitSubnet rt n hcs = .ok (some ns)) :
    SplitInto n hcs ns := by
  obtain ⟨reqs, -, hp, hd, y1, y2⟩ := splitSubnet_sorted rt n hcs
  rcases Nat.lt_or_ge (startOf (val n.baseAddr) reqs + totalSize reqs) (2 ^ width A) with hlt | hge
  · obtain ⟨ps, ns', z1, z2, z3, z4, z5, z6⟩ := y1 hlt
    rw [z3] at h
    cases h
    obtain ⟨E, hE1, hE2⟩ := startOf_eq (val n.baseAddr) reqs
    have hz : ((reqs.map Prod.snd).zip (ps.map Prod.snd)).map Prod.fst = reqs.map Prod.snd :=
      List.map_fst_zip (by simp [z1.length])
    have ha := z1.allotted hd (startOf_dvd _ _)
    refine ⟨z5, _, E, _, split_zip z1 hp z5 z6, ?_, ?_, by rw [← hE2]; exact ha, hlt⟩
    · have hd' := (List.pairwise_map (f := Prod.snd) (R := fun x y : Int => y ≤ x)).mpr hd
      rw [← hz] at hd'
      exact List.pairwise_map.mp hd'
    · intro r hr
      cases z1 with
      | nil => cases hr
      | cons => cases hr; exact hE1 _ rfl
  · rw [y2 hge] at h
    cases h

omit [IpAddr A] [LawfulIpAddr A] in
theorem Allotted.end {b e : Nat} {rs : List (Int × Net A)} (h : Allotted b rs e) :
    e = b + (rs.map (fun r => 2 ^ needBits r.1)).sum := by
  induction h with
  | nil => simp
  | cons _ h2 _ ih =>
    rw [hostBitsFor_iff] at h2
    rw [ih, h2, List.map_cons, List.sum_cons, Nat.add_assoc]

/-- C52, exactly: the lists of networks that the splitting function returns on one platform or another are those allotted in
descending order of the numbers of hosts, the next directly after the previous one, from the base address rounded down. -/
theorem C52_exactly (pr : Profile) (colors : Bool) (n : Net A) (hcs : List Int) (ns : List (Net A)) :
    (∃ rt : Runtime, rt.profile = pr ∧ rt.colorsEnabled = colors ∧ splitSubnet rt n hcs = .ok (some ns)) ↔ SplitInto n hcs ns := by
  constructor
  · rintro ⟨rt, -, -, h⟩
    exact split_into rt n hcs ns h
  · rintro ⟨hl, rs, E, e, h1, h2, h3, h4, h5⟩
    by_cases hne : hcs = []
    · subst hne
      cases List.length_eq_zero_iff.mp hl
      exact ⟨.reference pr colors, rfl, rfl, splitSubnet_nil _ n⟩
    obtain ⟨m, hm, rfl⟩ := perm_lift (f := Prod.fst) (m := (hcs.zip ns).zipIdx) h1 (List.zipIdx_map_fst _ _)
    let reqs : List (Nat × Int) := m.map fun x => (x.2, x.1.1)
    let qs : List (Nat × Net A) := m.map fun x => (x.2, x.1.2)
    have hp : reqs.Perm (indexedReqs hcs) := by
      refine (hm.map _).trans ?_
      refine List.Perm.of_eq (List.ext_getElem? fun i => ?_)
      simp only [indexedReqs, List.getElem?_map, List.getElem?_zipIdx]
      have : (hcs.zip ns)[i]?.map Prod.fst = hcs[i]? := by
        rw [← List.getElem?_map, List.map_fst_zip (by omega)]
      rw [← this]
      cases (hcs.zip ns)[i]? <;> rfl
    have hd : reqs.Pairwise (fun x y => y.2 ≤ x.2) := by
      refine List.pairwise_map.mpr ?_
      exact List.pairwise_map.mp h2
    refine ⟨(Runtime.reference pr colors).sorting (fun x y : Nat × Int => decide (y.2 ≤ x.2)) (indexedReqs hcs) reqs hp
      (hd.imp fun h => by simpa using h), rfl, rfl, ?_⟩
    obtain ⟨reqs', hr, -, -, y1, -⟩ := splitSubnet_sorted ((Runtime.reference pr colors).sorting (fun x y : Nat × Int => decide (y.2 ≤ x.2))
      (indexedReqs hcs) reqs hp (hd.imp fun h => by simpa using h)) n hcs
    rw [Runtime.sorting_sort] at hr
    subst hr
    have hs : startOf (val n.baseAddr) reqs = val n.baseAddr / 2 ^ E * 2 ^ E := by
      rcases m with _ | ⟨x, m⟩
      · have := hm.length_eq
        simp only [List.length_nil, List.length_zipIdx, List.length_zip] at this
        exact absurd (List.length_eq_zero_iff.mp (by omega)) hne
      · have := h3 _ rfl
        rw [hostBitsFor_iff] at this
        subst this
        rfl
    have he : startOf (val n.baseAddr) reqs + totalSize reqs = e := by
      rw [hs, h4.end, totalSize, List.map_map, List.map_map]
      rfl
    obtain ⟨ps, ns', z1, -, z3, -, z5, z6⟩ := y1 (by omega)
    have ha := z1.allotted hd (startOf_dvd _ _)
    rw [hs] at ha
    have hps : ps = qs := by
      have hfst : ((reqs.map Prod.snd).zip (ps.map Prod.snd)).map Prod.fst = reqs.map Prod.snd :=
        List.map_fst_zip (by simp [z1.length])
      have hsnd : ((reqs.map Prod.snd).zip (ps.map Prod.snd)).map Prod.snd = ps.map Prod.snd :=
        List.map_snd_zip (by simp [z1.length])
      have hu := (h4.unique ha (by rw [hfst, List.map_map, List.map_map]; rfl)).1
      have h6 : ps.map Prod.snd = qs.map Prod.snd := by
        rw [← hsnd, ← hu, List.map_map, List.map_map]; rfl
      have h7 : ps.map Prod.fst = qs.map Prod.fst := by
        rw [z1.fst, List.map_map, List.map_map]; rfl
      rw [← List.zip_unzip ps, ← List.zip_unzip qs, List.unzip_eq_map, List.unzip_eq_map, h6, h7]
    rw [z3]
    refine congrArg _ (congrArg _ (List.ext_getElem? fun i => Option.ext fun x => ?_))
    rw [← z6, hps]
    show (i, x) ∈ m.map (fun x => (x.2, x.1.2)) ↔ _
    rw [(hm.map _).mem_iff, List.mem_map]
    constructor
    · rintro ⟨⟨⟨c, y⟩, j⟩, h, h'⟩
      cases h'
      rw [List.mk_mem_zipIdx_iff_getElem?, List.getElem?_zip_eq_some] at h
      exact h.2
    · intro h
      obtain ⟨h6, -⟩ := List.getElem?_eq_some_iff.mp h
      refine ⟨((hcs[i]'(by omega), x), i), ?_, rfl⟩
      rw [List.mk_mem_zipIdx_iff_getElem?, List.getElem?_zip_eq_some]
      exact ⟨List.getElem?_eq_getElem _, h⟩

/-- Two such lists differ at most in which of several equal requests has which network; if no request occurs twice there is at most
one. -/
theorem C52_unique (n : Net A) (hcs : List Int) (ns ns' : List (Net A)) (h : SplitInto n hcs ns) (h' : SplitInto n hcs ns') :
    (hcs.zip ns).Perm (hcs.zip ns') ∧ (hcs.Nodup → ns = ns') :=
  ⟨h.unique h', fun hnd => zip_nodup h.1 h'.1 (h.unique h') hnd⟩

/-- The split is refused, on every platform, exactly if there is no such list. -/
theorem C54_refused (rt : Runtime) (n : Net A) (hcs : List Int) : splitSubnet rt n hcs = .ok none ↔ ¬ ∃ ns, SplitInto n hcs ns := by
  constructor
  · rintro h ⟨ns, hs⟩
    obtain ⟨rt', -, -, h'⟩ := (C52_exactly rt.profile rt.colorsEnabled n hcs ns).mpr hs
    rcases C97_split_networks rt rt' n hcs with ⟨-, h2⟩ | ⟨ms, ms', h1, -⟩
    · rw [h'] at h2; cases h2
    · rw [h] at h1; cases h1
  · intro h
    rcases C97_split_networks rt rt n hcs with ⟨h1, -⟩ | ⟨ns, -, h1, -⟩
    · exact h1
    · exact absurd ⟨ns, split_into rt n hcs ns h1⟩ h

end

theorem C52_exactly_families : (type_of% (@C52_exactly V4 _ _ _)) ∧ (type_of% (@C52_exactly V6 _ _ _)) :=
  ⟨@C52_exactly V4 _ _ _, @C52_exactly V6 _ _ _⟩

theorem C52_unique_families : (type_of% (@C52_unique V4 _ _ _)) ∧ (type_of% (@C52_unique V6 _ _ _)) :=
  ⟨@C52_unique V4 _ _ _, @C52_unique V6 _ _ _⟩

theorem C54_refused_families : (type_of% (@C54_refused V4 _ _ _)) ∧ (type_of% (@C54_refused V6 _ _ _)) :=
  ⟨@C54_refused V4 _ _ _, @C54_refused V6 _ _ _⟩

/-- Non-vacuity: 20, 100 and 28 hosts in `192.0.2.0/24`. -/
example : SplitInto (net24 0xC0000200#32) [20, 100, 28]
    [mk4 0xC00002A0#32 0xFFFFFFE0#32, mk4 0xC0000200#32 0xFFFFFF80#32, mk4 0xC0000280#32 0xFFFFFFE0#32] :=
  split_into _ _ _ _ split_example

/-- 28 hosts come before 20, although both need a block of the same size: the exchanged networks do not arise. -/
example : ¬ SplitInto (net24 0xC0000200#32) [20, 100, 28]
    [mk4 0xC0000280#32 0xFFFFFFE0#32, mk4 0xC0000200#32 0xFFFFFF80#32, mk4 0xC00002A0#32 0xFFFFFFE0#32] := fun h =>
  absurd ((C52_unique _ _ _ _ (split_into _ _ _ _ split_example) h).2 (by decide)) (by decide +kernel)

end Ripcalc
