import Verif.Props.SplitExact
import Verif.Spec.Joining
import Verif.Props.Text
/-!
# How the operations fit together
-/
namespace Ripcalc
open AddrSpec LawfulIpAddr

section generic
variable {A : Type} [IpAddr A] [AddrSpec A] [LawfulIpAddr A]

omit [IpAddr A] [LawfulIpAddr A] in
theorem below_keyLt {n o : Net A} (h : Below n o) : KeyLt n o := .inl (h _ _ (base_member n) (base_member o))

theorem perm_sorted {l l' : List (Net A)} (h : l.Pairwise KeyLt) (h' : l'.Pairwise KeyLt) (hp : l.Perm l') : l = l' :=
  hp.eq_of_pairwise (fun _ _ _ _ h1 h2 => (keyLt_asymm h1 h2).elim) h h'

omit [IpAddr A] [LawfulIpAddr A] in
theorem twins_sib {n o : Net A} : Twins n o ↔ ∃ i, Sib i n o ∨ Sib i o n := by
  constructor
  · rintro ⟨h1, i, h2, h3, h4, h5⟩
    have h6 : (val n.baseAddr).testBit i ≠ (val o.baseAddr).testBit i := fun h => (h5 i h2).mp h rfl
    have h7 : ∀ t, t < width A → t ≠ i → (val n.baseAddr).testBit t = (val o.baseAddr).testBit t := fun t ht hne => (h5 t ht).mpr hne
    refine ⟨i, ?_⟩
    cases ha : (val n.baseAddr).testBit i <;> cases hb : (val o.baseAddr).testBit i
    · rw [ha, hb] at h6; exact absurd rfl h6
    · exact .inl ⟨h2, h1, h3, h4, ha, hb, h7⟩
    · exact .inr ⟨h2, h1.symm, h1 ▸ h3, h1 ▸ h4, hb, ha, fun t ht hne => (h7 t ht hne).symm⟩
    · rw [ha, hb] at h6; exact absurd rfl h6
  · rintro ⟨i, h | h⟩
    · refine ⟨h.mask, i, h.lt, h.bit, h.low, fun t ht => ⟨?_, h.rest t ht⟩⟩
      rintro he rfl
      rw [h.bitA, h.bitB] at he
      cases he
    · refine ⟨h.mask.symm, i, h.lt, h.mask ▸ h.bit, h.mask ▸ h.low, fun t ht => ⟨?_, fun hne => (h.rest t ht hne).symm⟩⟩
      rintro he rfl
      rw [h.bitA, h.bitB] at he
      cases he

/-! ## C45, C47 for all masks: nothing is left to merge, and which lists are left alone -/

/-- The output contains no two networks that differ in the lowest network bit only, whatever the masks of the input. -/
theorem C45_nothing_to_merge (rt : Runtime) (l out : List (Net A)) (hw : ∀ n ∈ l, WF n) (h : minimizeSubnets rt l = .ok out) :
    ∀ n ∈ out, ∀ o ∈ out, ¬ Twins n o := by
  obtain ⟨out', S, h1, -, h2, -, h4⟩ := minimize_basic rt rt l l hw (fun _ => Iff.rfl)
  rw [h] at h1
  cases h1
  intro n hn o ho ht
  obtain ⟨i, hs | hs⟩ := twins_sib.mp ht
  · exact h4.noSib n (h2.mem_iff.mp hn) o (h2.mem_iff.mp ho) ⟨i, hs⟩
  · exact h4.noSib o (h2.mem_iff.mp ho) n (h2.mem_iff.mp hn) ⟨i, hs⟩

/-- Exactly which lists of networks are returned unchanged, for all masks. -/
theorem C47_fixed_points (rt : Runtime) (l : List (Net A)) (hw : ∀ n ∈ l, WF n) :
    minimizeSubnets rt l = .ok l ↔ l.Pairwise KeyLt ∧ (∀ n ∈ l, ∀ o ∈ l, n ≠ o → ¬ Includes n o) ∧ ∀ n ∈ l, ∀ o ∈ l, ¬ Twins n o := by
  constructor
  · intro h
    exact ⟨(C44_sorted rt l l hw h).1, (C47_iff rt rt l l hw h).mp h, C45_nothing_to_merge rt l l hw h⟩
  · rintro ⟨h1, h2, h3⟩
    have hnd : l.Nodup := h1.imp (by rintro a b hk rfl; exact keyLt_asymm hk hk)
    have helim : (eliminated rt l).Perm l := by
      rw [List.perm_ext_iff_of_nodup (nodup_eliminated _ _) hnd]
      intro x
      rw [mem_eliminated rt hw]
      exact ⟨fun h => h.1, fun hx => ⟨hx, fun ⟨a, ha, hne, hinc⟩ => h2 a ha x hx hne hinc⟩⟩
    obtain ⟨r, h5, h6⟩ := minimizeStep_spec hw hnd
    match r, h6 with
    | some (a, b), h6 =>
      obtain ⟨i, hi⟩ := h6.2.2
      exact absurd (twins_sib.mpr ⟨i, .inl hi⟩) (h3 a h6.1 b h6.2.1)
    | none, _ =>
      have hstep := h5 rt 0 _ helim
      rw [minimizeSubnets]
      show (loopM (minimizeStep rt) (0, eliminated rt l) >>= _) = _
      rw [loopM, hstep]
      show Exec.ok (rt.sortUnstable netKeyLe (rt.hashIter 1 (eliminated rt l))) = _
      congr 1
      have hp := (sorted_perm rt 1 helim)
      exact sort_unique (fun n hn => hw n (hp.mem_iff.mp hn)) hp (sorted_sort rt _) (h1.imp keyLt_le)

/-! ## C84: minimize is a function of the set of addresses, for CIDR networks -/

/-- Two lists of CIDR networks with the same addresses are minimized to the same list. -/
theorem C84_addresses_only (rt rt' : Runtime) (l l' : List (Net A)) (hc : ∀ n ∈ l, ∃ p, IsCidr p n) (hc' : ∀ n ∈ l', ∃ p, IsCidr p n)
    (h : ∀ a : A, (∃ n ∈ l, Member n a) ↔ ∃ n ∈ l', Member n a) : minimizeSubnets rt l = minimizeSubnets rt' l' := by
  have hw : ∀ n ∈ l, WF n := fun n hn => (hc n hn).choose_spec.1
  have hw' : ∀ n ∈ l', WF n := fun n hn => (hc' n hn).choose_spec.1
  obtain ⟨out, h1, h2⟩ := C42_same_addresses rt l hw
  obtain ⟨out', h1', h2'⟩ := C42_same_addresses rt' l' hw'
  obtain ⟨g1, -, g2⟩ := C46_cidr_minimal rt l out hc h1
  obtain ⟨g1', -, g2'⟩ := C46_cidr_minimal rt' l' out' hc' h1'
  have e1 := g2 out' g1' (fun a => (h2' a).trans (h a).symm)
  have e2 := g2' out g1 (fun a => (h2 a).trans (h a))
  rw [h1, h1', perm_sorted (C44_sorted rt l out hw h1).1 (C44_sorted rt' l' out' hw' h1').1 (e1.2 e2.1)]

/-- The result, described without reference to the algorithm: the sorted list of CIDR networks with these addresses that has the
least possible length. -/
theorem C84_characterised (rt : Runtime) (l out : List (Net A)) (hc : ∀ n ∈ l, ∃ p, IsCidr p n) :
    minimizeSubnets rt l = .ok out ↔ (∀ n ∈ out, ∃ p, IsCidr p n) ∧ out.Pairwise KeyLt ∧ Covers out (fun a => ∃ n ∈ l, Member n a) ∧
      ∀ other : List (Net A), (∀ n ∈ other, ∃ p, IsCidr p n) → Covers other (fun a => ∃ n ∈ l, Member n a) → out.length ≤ other.length := by
  have hw : ∀ n ∈ l, WF n := fun n hn => (hc n hn).choose_spec.1
  obtain ⟨r, h1, h2⟩ := C42_same_addresses rt l hw
  obtain ⟨g1, -, g2⟩ := C46_cidr_minimal rt l r hc h1
  have hs := (C44_sorted rt l r hw h1).1
  rw [h1]
  constructor
  · rintro ⟨⟩
    exact ⟨g1, hs, h2, fun other ho hcov => (g2 other ho hcov).1⟩
  · rintro ⟨k1, k2, k3, k4⟩
    rw [perm_sorted hs k2 ((g2 out k1 k3).2 (k4 r g1 h2))]

/-- The result is also the only sorted list of CIDR networks with these addresses in which no two networks together are a CIDR
network (which includes that none is inside another). -/
theorem C84_nothing_to_merge (rt : Runtime) (l out : List (Net A)) (hc : ∀ n ∈ l, ∃ p, IsCidr p n) :
    minimizeSubnets rt l = .ok out ↔ (∀ n ∈ out, ∃ p, IsCidr p n) ∧ out.Pairwise KeyLt ∧ Covers out (fun a => ∃ n ∈ l, Member n a) ∧
      ∀ n ∈ out, ∀ o ∈ out, n ≠ o → ¬ ∃ p s, IsCidr p s ∧ ∀ a, Member s a ↔ Member n a ∨ Member o a := by
  constructor
  · intro h
    obtain ⟨k1, k2, k3, k4⟩ := (C84_characterised rt l out hc).mp h
    refine ⟨k1, k2, k3, ?_⟩
    rintro n hn o ho hne ⟨p, s, hs, hu⟩
    have hlen := k4 (s :: (out.erase n).erase o) ?_ ?_
    · have ho' : o ∈ out.erase n := (List.mem_erase_of_ne (Ne.symm hne)).mpr ho
      have h1 := List.length_erase_of_mem hn
      have h2 := List.length_erase_of_mem ho'
      have h3 := List.length_pos_iff.mpr (List.ne_nil_of_mem ho')
      simp only [List.length_cons] at hlen
      omega
    · intro m hm
      rcases List.mem_cons.mp hm with rfl | hm
      · exact ⟨p, hs⟩
      · exact k1 m (List.mem_of_mem_erase (List.mem_of_mem_erase hm))
    · intro a
      rw [← k3 a]
      constructor
      · rintro ⟨m, hm, ha⟩
        rcases List.mem_cons.mp hm with rfl | hm
        · rcases (hu a).mp ha with ha | ha
          · exact ⟨n, hn, ha⟩
          · exact ⟨o, ho, ha⟩
        · exact ⟨m, List.mem_of_mem_erase (List.mem_of_mem_erase hm), ha⟩
      · rintro ⟨m, hm, ha⟩
        by_cases h1 : m = n
        · subst h1; exact ⟨s, by simp, (hu a).mpr (.inl ha)⟩
        by_cases h2 : m = o
        · subst h2; exact ⟨s, by simp, (hu a).mpr (.inr ha)⟩
        exact ⟨m, List.mem_cons_of_mem _ ((List.mem_erase_of_ne h2).mpr ((List.mem_erase_of_ne h1).mpr hm)), ha⟩
  · rintro ⟨k1, k2, k3, k4⟩
    have hw : ∀ n ∈ out, WF n := fun n hn => (k1 n hn).choose_spec.1
    rw [C84_addresses_only rt rt l out hc k1 (fun a => (k3 a).symm), C47_fixed_points rt out hw]
    refine ⟨k2, fun n hn o ho hne hinc => ?_, fun n hn o ho ht => ?_⟩
    · obtain ⟨p, hp⟩ := k1 n hn
      exact k4 n hn o ho hne ⟨p, n, hp, fun a => ⟨.inl, fun h => h.elim id (hinc a)⟩⟩
    · have key : ∀ {x y : Net A} {i : Nat}, x ∈ out → y ∈ out → Sib i x y → False := by
        intro x y i hx hy hs
        obtain ⟨p, hp⟩ := k1 x hx
        obtain ⟨q, hq⟩ := inChain_cidr (merged_wf x y) (inChain_merged (cidr_inChain hp) hs)
        exact k4 x hx y hy hs.ne ⟨q, _, hq, fun a => merged_member (hw x hx) hs a⟩
      obtain ⟨i, hs | hs⟩ := twins_sib.mp ht
      · exact key hn ho hs
      · exact key ho hn hs

/-- One network is minimized to itself, whatever list of CIDR networks with its addresses is given. -/
theorem C84_single (rt : Runtime) (l : List (Net A)) (hc : ∀ n ∈ l, ∃ p, IsCidr p n) (n : Net A) (p : Nat) (hn : IsCidr p n)
    (h : Covers l (Member n)) : minimizeSubnets rt l = .ok [n] := by
  rw [C84_characterised rt l [n] hc]
  refine ⟨by simpa using ⟨p, hn⟩, by simp, fun a => by simp [h a], fun other ho hcov => ?_⟩
  match other with
  | [] =>
    obtain ⟨m, hm, -⟩ := (hcov n.baseAddr).mpr ((h _).mpr (base_member n))
    cases hm
  | _ :: _ => simp

/-! ## C85: going there and back -/

/-- Minimizing the pieces that resizing yields gives back the network. -/
theorem C85_resize_minimize (rt : Runtime) (pr : Profile) (n : Net A) (m : A) (p q : Nat) (hn : IsCidr p n)
    (hm : IsPrefixMask (width A) q (val m)) (hpq : p ≤ q) (ns : List (Net A)) (o : Ordering) (h : resizeNetwork pr n m = .ok (ns, o)) :
    minimizeSubnets rt ns = .ok [n] := by
  rcases Nat.lt_or_eq_of_le hpq with hlt | rfl
  · obtain ⟨ns', h1, -, h2, -, -, h3⟩ := C48_subnets pr n m p q hn hm hlt
    rw [h] at h1
    cases h1
    exact C84_single rt ns (fun n hn => ⟨q, h2 n hn⟩) n p hn h3
  · rw [C49_same pr n m p hn hm] at h
    cases h
    exact C84_single rt [n] (by simpa using ⟨p, hn⟩) n p hn (fun a => by simp)

/-- Every piece, resized back, gives the network. -/
theorem C85_resize_back (pr : Profile) (n : Net A) (m : A) (p q : Nat) (hn : IsCidr p n) (hm : IsPrefixMask (width A) q (val m))
    (hpq : p < q) (ns : List (Net A)) (o : Ordering) (h : resizeNetwork pr n m = .ok (ns, o)) :
    ∀ x ∈ ns, resizeNetwork pr x n.subnetMask = .ok ([n], .lt) := by
  obtain ⟨ns', h1, -, h2, -, -, h3⟩ := C48_subnets pr n m p q hn hm hpq
  rw [h] at h1
  cases h1
  intro x hx
  obtain ⟨r, k1, -, -, k2⟩ := C49_supernet pr x n.subnetMask q p (h2 x hx) ((hn.1.prefix_iff p).mp hn.2) hpq
  rw [k1, k2 n hn fun a ha => (h3 a).mp ⟨x, hx, ha⟩]

theorem cidr_range {n : Net A} {p : Nat} (hn : IsCidr p n) {last : A} (hl : n.lastAddrOfSubnet = .ok last) (x : A) :
    Between n.baseAddr last x ↔ Member n x := by
  obtain ⟨l, h1, h2⟩ := cidr_last hn
  rw [hl] at h1
  cases h1
  have := Nat.two_pow_pos (width A - p)
  rw [cidr_member_iff hn, Between]
  omega

/-- The range from the first to the last address of a CIDR network is converted to that network, unless it ends at the end of the
address space (then see C39). -/
theorem C85_derange_network (pr : Profile) (n : Net A) (p : Nat) (hn : IsCidr p n) (last : A) (hl : n.lastAddrOfSubnet = .ok last)
    (ht : val last ≠ 2 ^ width A - 1) : rangeToSubnets pr n.baseAddr last = .ok [n] ∧ rangeToSubnets pr last n.baseAddr = .ok [n] := by
  have hg := last_greatest n hn.1 hl
  obtain ⟨ns, h1, h2, -, -, h3⟩ := C39_range_partial pr n.baseAddr last (by
    intro x hx hx'
    have := hg.2 x ((cidr_range hn hl x).mp hx)
    have := val_lt last
    omega)
  obtain ⟨h4, h5⟩ := C40_minimal pr _ _ ns h1 [n] (by simpa using ⟨p, hn⟩) (fun a => by rw [cidr_range hn hl]; simp)
  have hne : ns ≠ [] := by
    rintro rfl
    obtain ⟨m, hm, -⟩ := (h3 n.baseAddr).mpr ((cidr_range hn hl _).mpr (base_member n))
    cases hm
  have := List.length_pos_iff.mpr hne
  have he : ns = [n] := List.perm_singleton.mp (h5 this)
  rw [C41_symmetric pr last, h1, he]
  exact ⟨rfl, rfl⟩

/-- Minimizing any list of CIDR networks that contain exactly the addresses of a range gives what converting the range gives. -/
theorem C85_minimize_derange (rt : Runtime) (pr : Profile) (a b : A) (ns : List (Net A)) (h : rangeToSubnets pr a b = .ok ns)
    (l : List (Net A)) (hc : ∀ n ∈ l, ∃ p, IsCidr p n) (hl : Covers l (Between a b)) : minimizeSubnets rt l = .ok ns := by
  obtain ⟨ns', h1, h2, h3, -, h4⟩ := C39_range_partial pr a b ((C39_returns_iff pr a b).mp ⟨ns, h⟩)
  rw [h] at h1
  cases h1
  rw [C84_characterised rt l ns hc]
  exact ⟨h2, h3.imp below_keyLt, fun x => (h4 x).trans (hl x).symm, fun other ho hcov =>
    (C40_minimal pr a b ns h other ho (fun x => (hcov x).trans (hl x))).1⟩

/-- In particular the networks of a range cannot be minimized further. -/
theorem C85_derange_minimal (rt : Runtime) (pr : Profile) (a b : A) (ns : List (Net A)) (h : rangeToSubnets pr a b = .ok ns) :
    minimizeSubnets rt ns = .ok ns := by
  obtain ⟨ns', h1, h2, h3, -, h4⟩ := C39_range_partial pr a b ((C39_returns_iff pr a b).mp ⟨ns, h⟩)
  rw [h] at h1
  cases h1
  exact C85_minimize_derange rt pr a b ns h ns h2 h4

/-- Enumerating the networks of a range one after the other lists the addresses of the range in ascending order. -/
theorem C85_derange_enumerate (pr pr' : Profile) (a b : A) (ns : List (Net A)) (h : rangeToSubnets pr a b = .ok ns) :
    ∃ xss : List (List A), Pointwise (fun n xs => enumerateNet pr' n = .ok xs) ns xss ∧
      xss.flatten.Pairwise (fun x y => val x < val y) ∧ ∀ x, x ∈ xss.flatten ↔ Between a b x := by
  obtain ⟨ns', h1, h2, h3, -, h4⟩ := C39_range_partial pr a b ((C39_returns_iff pr a b).mp ⟨ns, h⟩)
  rw [h] at h1
  cases h1
  have key : ∀ l : List (Net A), (∀ n ∈ l, ∃ p, IsCidr p n) → l.Pairwise Below →
      ∃ xss : List (List A), Pointwise (fun n xs => enumerateNet pr' n = .ok xs) l xss ∧
        xss.flatten.Pairwise (fun x y => val x < val y) ∧ ∀ x, x ∈ xss.flatten ↔ ∃ n ∈ l, Member n x := by
    intro l hc hb
    induction l with
    | nil => exact ⟨[], .nil, by simp, by simp⟩
    | cons n l ih =>
      obtain ⟨xss, k1, k2, k3⟩ := ih (fun m hm => hc m (by simp [hm])) (List.pairwise_cons.mp hb).2
      obtain ⟨p, hp⟩ := hc n (by simp)
      obtain ⟨xs, e1, e2, e3, -⟩ := C37_enumerate pr' n hp.1
      refine ⟨xs :: xss, .cons e1 k1, ?_, fun x => by simp [List.flatten_cons, List.mem_append, k3, e2]⟩
      rw [List.flatten_cons, List.pairwise_append]
      refine ⟨e3, k2, fun x hx y hy => ?_⟩
      obtain ⟨m, hm, hmy⟩ := (k3 y).mp hy
      exact (List.pairwise_cons.mp hb).1 m hm x y ((e2 x).mp hx) hmy
  obtain ⟨xss, k1, k2, k3⟩ := key ns h2 h3
  exact ⟨xss, k1, k2, fun x => (k3 x).trans (h4 x)⟩

/-- Minimizing the enumerated addresses of a CIDR network, each as a network of its own, gives back the network. -/
theorem C85_enumerate_minimize (rt : Runtime) (pr : Profile) (n : Net A) (p : Nat) (hn : IsCidr p n) (xs : List A)
    (h : enumerateNet pr n = .ok xs) :
    ∃ l, Pointwise (fun x m => Net.newWithPrefix x (width A) = .ok m) xs l ∧ minimizeSubnets rt l = .ok [n] := by
  obtain ⟨xs', h1, h2, -, -⟩ := C37_enumerate pr n hn.1
  rw [h] at h1
  cases h1
  have key : ∀ xs : List A, ∃ l : List (Net A), Pointwise (fun x m => Net.newWithPrefix x (width A) = .ok m) xs l ∧ (∀ m ∈ l, ∃ p, IsCidr p m) ∧
      Covers l (fun a => a ∈ xs) := by
    intro xs
    induction xs with
    | nil => exact ⟨[], .nil, by simp, fun a => by simp⟩
    | cons x xs ih =>
      obtain ⟨l, k1, k2, k3⟩ := ih
      obtain ⟨m, e1, e2, e3⟩ := newWithPrefix_wf (a := x) (p := width A) (Nat.le_refl _)
      refine ⟨m :: l, .cons e1 k1, ?_, fun a => ?_⟩
      · rintro o ho
        rcases List.mem_cons.mp ho with rfl | ho
        · exact ⟨_, e2⟩
        · exact k2 o ho
      · have hma : Member m a ↔ a = x := by
          rw [cidr_member_iff e2] at e3 ⊢
          rw [Nat.sub_self, Nat.pow_zero] at *
          constructor
          · intro h; exact val_inj _ _ (by omega)
          · rintro rfl; exact e3
        have := k3 a
        simp only [List.mem_cons, exists_eq_or_imp, hma, this]
  obtain ⟨l, k1, k2, k3⟩ := key xs
  exact ⟨l, k1, C84_single rt l k2 n p hn fun a => (k3 a).trans (h2 a)⟩

/-- Minimizing the networks of a split together with the unused ones gives back the network, if the split stays inside, something is
left and the network does not end at the end of the address space. -/
theorem C85_split_minimize (rt rt' : Runtime) (n : Net A) (p : Nat) (hn : IsCidr p n) (hcs : List Int) (hne : hcs ≠ []) (ns : List (Net A))
    (h : splitSubnet rt n hcs = .ok (some ns)) (hin : ∀ m ∈ ns, Includes n m) (mx next last : A) (hmx : IsGreatestUsed ns mx)
    (hnext : val next = val mx + 1) (hl : n.lastAddrOfSubnet = .ok last) (hle : val next ≤ val last) (us : List (Net A))
    (hus : rangeToSubnets rt.profile next last = .ok us) : minimizeSubnets rt' (ns ++ us) = .ok [n] := by
  obtain ⟨E, g1, g2, g3, g4, g5⟩ := split_covers rt n hcs hne ns h mx hmx
  obtain ⟨us', h1, h2, -, -, h4⟩ := C39_range_partial rt.profile next last ((C39_returns_iff rt.profile next last).mp ⟨us, hus⟩)
  rw [hus] at h1
  cases h1
  obtain ⟨l, e1, e2⟩ := cidr_last hn
  rw [hl] at e1
  cases e1
  have hpos := Nat.two_pow_pos (width A - p)
  have hb : val n.baseAddr / 2 ^ E * 2 ^ E ≤ val n.baseAddr := Nat.div_mul_le_self _ _
  have hcid : ∀ m ∈ ns, ∃ q, IsCidr q m := by
    obtain ⟨r, hr, hs⟩ := C51_requests rt n hcs
    rw [h] at hr
    cases hr
    obtain ⟨k1, k2⟩ := hs ns rfl
    intro m hm
    obtain ⟨i, hi, rfl⟩ := List.getElem_of_mem hm
    obtain ⟨q, hq, -⟩ := k2 i hcs[i] ns[i] (List.getElem?_eq_getElem (by omega)) (List.getElem?_eq_getElem hi)
    exact ⟨q, hq⟩
  refine C84_single rt' _ ?_ n p hn fun a => ?_
  · intro m hm
    rcases List.mem_append.mp hm with hm | hm
    · exact hcid m hm
    · exact h2 m hm
  · have hu := h4 a
    have hs := g5 a
    have hsplit : (∃ m ∈ ns ++ us, Member m a) ↔ (∃ m ∈ ns, Member m a) ∨ ∃ m ∈ us, Member m a := by
      simp only [List.mem_append, or_and_right, exists_or]
    rw [hsplit]
    constructor
    · rintro (⟨m, hm, ha⟩ | hx)
      · exact hin m hm a ha
      · have := hu.mp hx
        rw [cidr_member_iff hn]
        have hm : val n.baseAddr ≤ val mx := by
          obtain ⟨m, hm, hmm⟩ := hmx.1
          exact ((cidr_member_iff hn mx).mp (hin m hm mx hmm)).1
        rw [Between] at this
        omega
    · intro ha
      rw [cidr_member_iff hn] at ha
      rcases Nat.lt_or_ge (val mx) (val a) with hlt | hge
      · exact .inr (hu.mpr (.inl ⟨by omega, by omega⟩))
      · exact .inl (hs.mpr ⟨by omega, hge⟩)

end generic

/-! ## C85 for the commands: the lines printed by one as the arguments of another -/

/-- The events printing these lines. -/
def lineEvents (ls : List Str) : List OutEv := ls.map (fun l => .out (l ++ ['\n']))

theorem lineEvents_inj {ls ms : List Str} (h : lineEvents ls = lineEvents ms) : ls = ms := by
  refine List.map_inj_right (f := fun l : Str => OutEv.out (l ++ ['\n'])) (fun x y hxy => ?_) |>.mp h
  simpa using hxy

theorem netOutput_lines {A : Type} [IpAddr A] (ns : List (Net A)) : netOutput ns = lineEvents (ns.map Net.display) := by
  simp [netOutput, lineEvents]

theorem displays_parse_v4 (ns : List (Net V4)) (hw : ∀ n ∈ ns, WF n) :
    Pointwise Is4 (ns.map Net.display) (ns.map fun n => (n.baseAddr, n)) := by
  induction ns with
  | nil => exact .nil
  | cons n ns ih => exact .cons (C30_ipv4 n (hw n (by simp))) (ih fun m hm => hw m (by simp [hm]))

theorem displays_parse_v6 (ns : List (Net V6)) (hw : ∀ n ∈ ns, ∃ p, IsCidr p n) (hz : ∀ n ∈ ns, ¬ SingleZeroAtEnd (chunkVals n.baseAddr)) :
    Pointwise Is6 (ns.map Net.display) (ns.map fun n => (n.baseAddr, n)) := by
  induction ns with
  | nil => exact .nil
  | cons n ns ih =>
    obtain ⟨p, hp⟩ := hw n (by simp)
    exact .cons ((C30_ipv6_partial n hp.1).1.mpr ⟨hz n (by simp), by rw [hp.2]; simp⟩)
      (ih (fun m hm => hw m (by simp [hm])) fun m hm => hz m (by simp [hm]))

theorem derange_nonempty {A : Type} [IpAddr A] [AddrSpec A] [LawfulIpAddr A] {pr : Profile} {a b : A} {ns : List (Net A)}
    (h : rangeToSubnets pr a b = .ok ns) : ns ≠ [] ∧ (∀ n ∈ ns, ∃ p, IsCidr p n) ∧ ns.Pairwise Below ∧ Covers ns (Between a b) := by
  obtain ⟨ns', h1, h2, h3, -, h4⟩ := C39_range_partial pr a b ((C39_returns_iff pr a b).mp ⟨ns, h⟩)
  rw [h] at h1
  cases h1
  refine ⟨?_, h2, h3, h4⟩
  rintro rfl
  obtain ⟨m, hm, -⟩ := (h4 a).mpr (by rw [Between]; omega)
  cases hm

theorem derange_ok_v4 {rt : Runtime} {s t u v : Str} {a b : V4} (ha : parseAddr u = .ok (.ok (.ipv4 a)))
    (hb : parseAddr v = .ok (.ok (.ipv4 b))) {evs : List OutEv} {c : Nat} (h : derange rt [s, t, u, v] = ⟨evs, .ok c⟩) :
    ∃ ns, rangeToSubnets rt.profile a b = .ok ns ∧ evs = lineEvents (ns.map Net.display) ∧ c = 0 := by
  obtain ⟨k1, k2, k3⟩ := C39_command_v4 rt s t u v a b ha hb
  cases hr : rangeToSubnets rt.profile a b with
  | ok ns =>
    rw [k1 ns hr] at h
    cases h
    exact ⟨ns, rfl, by simp [lineEvents], rfl⟩
  | panic p => rw [k2 p hr] at h; cases h
  | diverge => rw [k3 hr] at h; cases h

theorem derange_ok_v6 {rt : Runtime} {s t u v : Str} {a b : V6} (ha : parseAddr u = .ok (.ok (.ipv6 a)))
    (hb : parseAddr v = .ok (.ok (.ipv6 b))) {evs : List OutEv} {c : Nat} (h : derange rt [s, t, u, v] = ⟨evs, .ok c⟩) :
    ∃ ns, rangeToSubnets rt.profile a b = .ok ns ∧ evs = lineEvents (ns.map Net.display) ∧ c = 0 := by
  obtain ⟨k1, k2, k3⟩ := C39_command_v6 rt s t u v a b ha hb
  cases hr : rangeToSubnets rt.profile a b with
  | ok ns =>
    rw [k1 ns hr] at h
    cases h
    exact ⟨ns, rfl, by simp [lineEvents], rfl⟩
  | panic p => rw [k2 p hr] at h; cases h
  | diverge => rw [k3 hr] at h; cases h

theorem minimize_lines_v4 (rt : Runtime) (prog mode : Str) (ns : List (Net V4)) (hne : ns ≠ []) (hw : ∀ n ∈ ns, WF n)
    (h : minimizeSubnets rt ns = .ok ns) : minimize rt (prog :: mode :: ns.map Net.display) = ⟨lineEvents (ns.map Net.display), .ok 0⟩ := by
  obtain ⟨out, h1, h2⟩ := C63_minimize_v4 rt prog mode (ns.map Net.display) (by simpa using hne) _ (displays_parse_v4 ns hw)
  rw [List.map_map] at h1
  have : ((fun x : V4 × Net V4 => x.2) ∘ fun n : Net V4 => (n.baseAddr, n)) = id := rfl
  rw [this, List.map_id, h] at h1
  cases h1
  rw [h2, netOutput_lines]

theorem minimize_lines_v6 (rt : Runtime) (prog mode : Str) (ns : List (Net V6)) (hne : ns ≠ []) (hw : ∀ n ∈ ns, ∃ p, IsCidr p n)
    (hz : ∀ n ∈ ns, ¬ SingleZeroAtEnd (chunkVals n.baseAddr))
    (h : minimizeSubnets rt ns = .ok ns) : minimize rt (prog :: mode :: ns.map Net.display) = ⟨lineEvents (ns.map Net.display), .ok 0⟩ := by
  obtain ⟨out, h1, h2⟩ := C63_minimize_v6 rt prog mode (ns.map Net.display) (by simpa using hne) _ (displays_parse_v6 ns hw hz)
  rw [List.map_map] at h1
  have : ((fun x : V6 × Net V6 => x.2) ∘ fun n : Net V6 => (n.baseAddr, n)) = id := rfl
  rw [this, List.map_id, h] at h1
  cases h1
  rw [h2, netOutput_lines]

/-- A line that is printed for a CIDR network whose base address does not parse again is an error for the minimize mode. -/
theorem minimize_bad_line_v6 (rt : Runtime) (prog mode : Str) (ns : List (Net V6)) (hw : ∀ n ∈ ns, WF n) (n : Net V6) (hn : n ∈ ns)
    (hz : SingleZeroAtEnd (chunkVals n.baseAddr)) : ∃ e, minimize rt (prog :: mode :: ns.map Net.display) = ⟨[.err e], .ok 1⟩ := by
  obtain ⟨k1, k2⟩ := C30_ipv6_partial n (hw n hn)
  obtain ⟨e, he⟩ := k2 (fun h => (k1.mp h).1 hz)
  have hm : n.display ∈ ns.map Net.display := List.mem_map_of_mem hn
  rcases C63_minimize rt prog mode (ns.map Net.display) with ⟨h, -⟩ | ⟨xs, out, h, -⟩ | ⟨xs, out, h, -⟩ | ⟨_, _, _, _, _, _, h⟩ |
    ⟨_, _, _, _, _, _, _, h⟩
  · rw [h] at hm; cases hm
  · obtain ⟨x, -, hx⟩ := Pointwise.mem h _ hm
    rw [Is4, he] at hx; cases hx
  · obtain ⟨x, -, hx⟩ := Pointwise.mem h _ hm
    rw [Is6, he] at hx; cases hx
  · exact ⟨_, h⟩
  · exact ⟨_, h⟩

/-- The lines that `ripcalc --derange` prints for IPv4 addresses, given to `ripcalc --minimize`, are printed again. -/
theorem C85_derange_then_minimize_v4 (rt rt' : Runtime) (s t u v prog mode : Str) (a b : V4) (ha : parseAddr u = .ok (.ok (.ipv4 a)))
    (hb : parseAddr v = .ok (.ok (.ipv4 b))) (ls : List Str) (c : Nat) (h : derange rt [s, t, u, v] = ⟨lineEvents ls, .ok c⟩) :
    minimize rt' (prog :: mode :: ls) = ⟨lineEvents ls, .ok 0⟩ := by
  obtain ⟨ns, h1, h2, -⟩ := derange_ok_v4 ha hb h
  obtain rfl := lineEvents_inj h2
  obtain ⟨k1, k2, -⟩ := derange_nonempty h1
  exact minimize_lines_v4 rt' prog mode ns k1 (fun n hn => (k2 n hn).choose_spec.1) (C85_derange_minimal rt' _ a b ns h1)

/-- For IPv6 the same if all base addresses of the networks can be read again (see C10); otherwise there is a message. -/
theorem C85_derange_then_minimize_v6 (rt rt' : Runtime) (s t u v prog mode : Str) (a b : V6) (ha : parseAddr u = .ok (.ok (.ipv6 a)))
    (hb : parseAddr v = .ok (.ok (.ipv6 b))) (ls : List Str) (c : Nat) (h : derange rt [s, t, u, v] = ⟨lineEvents ls, .ok c⟩) :
    ∃ ns, rangeToSubnets rt.profile a b = .ok ns ∧
      ((∀ n ∈ ns, ¬ SingleZeroAtEnd (chunkVals n.baseAddr)) → minimize rt' (prog :: mode :: ls) = ⟨lineEvents ls, .ok 0⟩) ∧
      ((∃ n ∈ ns, SingleZeroAtEnd (chunkVals n.baseAddr)) → ∃ e, minimize rt' (prog :: mode :: ls) = ⟨[.err e], .ok 1⟩) := by
  obtain ⟨ns, h1, h2, -⟩ := derange_ok_v6 ha hb h
  obtain rfl := lineEvents_inj h2
  obtain ⟨k1, k2, -⟩ := derange_nonempty h1
  refine ⟨ns, h1, fun hz => ?_, fun ⟨n, hn, hz⟩ => ?_⟩
  · exact minimize_lines_v6 rt' prog mode ns k1 k2 hz (C85_derange_minimal rt' _ a b ns h1)
  · exact minimize_bad_line_v6 rt' prog mode ns (fun n hn => (k2 n hn).choose_spec.1) n hn hz

/-- The lines that `ripcalc --minimize` prints for IPv4 networks with CIDR masks, given to it again, are printed again. -/
theorem C85_minimize_twice_v4 (rt rt' : Runtime) (prog mode prog' mode' : Str) (ss : List Str) (xs : List (V4 × Net V4)) (hx : Pointwise Is4 ss xs)
    (hc : ∀ x ∈ xs, ∃ p, IsCidr p x.2) (ls : List Str) (c : Nat) (h : minimize rt (prog :: mode :: ss) = ⟨lineEvents ls, .ok c⟩) :
    minimize rt' (prog' :: mode' :: ls) = ⟨lineEvents ls, .ok 0⟩ := by
  by_cases hne : ss = []
  · subst hne
    rw [show minimize rt [prog, mode] = ⟨[.err .usage], .ok 1⟩ from rfl] at h
    have h := congrArg Cli.out h
    cases ls <;> simp [lineEvents] at h
  · obtain ⟨out, h1, h2⟩ := C63_minimize_v4 rt prog mode ss hne xs hx
    rw [h2, netOutput_lines] at h
    obtain rfl := lineEvents_inj (Cli.mk.inj h).1
    have hc' : ∀ n ∈ xs.map (·.2), ∃ p, IsCidr p n := by
      intro n hn
      obtain ⟨x, hx, rfl⟩ := List.mem_map.mp hn
      exact hc x hx
    have hw : ∀ n ∈ xs.map (·.2), WF n := fun n hn => (hc' n hn).choose_spec.1
    refine minimize_lines_v4 rt' prog' mode' out ?_ (C44_sorted rt _ out hw h1).2.2.1 (C47_cidr_partial rt rt' _ out hc' h1)
    rintro rfl
    obtain ⟨r, k1, k2⟩ := C42_same_addresses rt _ hw
    rw [h1] at k1
    cases k1
    cases hx with
    | nil => exact hne rfl
    | @cons _ x _ _ _ _ =>
      obtain ⟨m, hm, -⟩ := (k2 x.2.baseAddr).mpr ⟨x.2, by simp, base_member _⟩
      cases hm

/-- The lines that `ripcalc --derange` prints for IPv4 addresses, given to `ripcalc --enumerate`, yield the addresses of the range,
each once, in ascending order. -/
theorem C85_derange_then_enumerate_v4 (rt rt' : Runtime) (s t u v prog mode : Str) (a b : V4) (ha : parseAddr u = .ok (.ok (.ipv4 a)))
    (hb : parseAddr v = .ok (.ok (.ipv4 b))) (ls : List Str) (c : Nat) (h : derange rt [s, t, u, v] = ⟨lineEvents ls, .ok c⟩) :
    ∃ xs : List V4, enumerate rt' (prog :: mode :: ls) = ⟨lineEvents (xs.map IpAddr.display), .ok 0⟩ ∧
      xs.Pairwise (fun x y => val x < val y) ∧ ∀ x, x ∈ xs ↔ Between a b x := by
  obtain ⟨ns, h1, h2, -⟩ := derange_ok_v4 ha hb h
  obtain rfl := lineEvents_inj h2
  obtain ⟨k1, k2, k3, k4⟩ := derange_nonempty h1
  obtain ⟨xss, e1, e2, e3⟩ := C85_derange_enumerate rt.profile rt'.profile a b ns h1
  obtain ⟨evss, code, g1, g2, -, g4⟩ := C38_enumerate rt' (prog :: mode :: ns.map Net.display) (by
    have := List.length_pos_iff.mpr k1
    simp only [List.length_cons, List.length_map]; omega)
  simp only [List.drop_succ_cons, List.drop_zero] at g1 g4
  have hcode : code = 0 := g4 fun s hs => by
    obtain ⟨n, hn, rfl⟩ := List.mem_map.mp hs
    exact ⟨_, C30_ipv4 n (k2 n hn).choose_spec.1⟩
  refine ⟨xss.flatten, ?_, e2, e3⟩
  rw [g2, hcode]
  congr 1
  have key : ∀ (ns : List (Net V4)) (xss : List (List V4)) (evss : List (List OutEv)), (∀ n ∈ ns, ∃ p, IsCidr p n) →
      Pointwise (fun n xs => enumerateNet rt'.profile n = .ok xs) ns xss → Pointwise ArgOutput (ns.map Net.display) evss →
      evss.flatten = lineEvents (xss.flatten.map IpAddr.display) := by
    intro ns xss evss hc hp hq
    induction hp generalizing evss with
    | nil => cases hq; rfl
    | @cons n xs ns xss p1 p2 ih =>
      cases hq with
      | cons q1 q2 =>
        obtain ⟨p, hp⟩ := hc n (by simp)
        have hpar := C30_ipv4 n hp.1
        have : ArgOutput n.display (xs.map fun x => .out (IpAddr.display x ++ ['\n'])) := by
          obtain ⟨xs', f1, f2⟩ := enumerate_listing rt'.profile n hp.1
          rw [p1] at f1
          cases f1
          exact .inr (.inl ⟨_, n, xs, hpar, f2, rfl⟩)
        rw [C38_output_unique _ _ _ q1 this, List.flatten_cons, ih _ (fun m hm => hc m (by simp [hm])) q2]
        simp [lineEvents]
  exact key ns xss evss k2 e1 g1

theorem parseAddr_display_v4 (a : V4) : parseAddr (IpAddr.display a) = .ok (.ok (.ipv4 a)) := by
  rw [(C36_parse_addr _).2.1]
  obtain ⟨t0, t1, t2, t3, e, d0, d1, d2, d3⟩ := v4_display_quad a
  refine ⟨by rw [e]; simp, ?_, (v4Reading_iff _ _).mp (C08_ipv4_round_trip a)⟩
  have hd : ∀ t, DigitText t → ':' ∉ t := fun t h => h.not_mem (by decide)
  rw [e]
  simp [hd _ d0, hd _ d1, hd _ d2, hd _ d3]

/-- `ripcalc --derange` with the first and the last address of an IPv4 network with a CIDR mask, as displayed, prints that network. -/
theorem C85_network_then_derange_v4 (rt : Runtime) (s t : Str) (n : Net V4) (p : Nat) (hn : IsCidr p n) (last : V4)
    (hl : n.lastAddrOfSubnet = .ok last) (ht : val last ≠ 2 ^ 32 - 1) :
    derange rt [s, t, IpAddr.display n.baseAddr, IpAddr.display last] = ⟨lineEvents [n.display], .ok 0⟩ := by
  have h := (C39_command_v4 rt s t _ _ _ _ (parseAddr_display_v4 n.baseAddr) (parseAddr_display_v4 last)).1 _
    (C85_derange_network rt.profile n p hn last hl ht).1
  rw [h]; rfl

/-! ## Both families -/

theorem C45_nothing_to_merge_families : (type_of% (@C45_nothing_to_merge V4 _ _ _)) ∧ (type_of% (@C45_nothing_to_merge V6 _ _ _)) :=
  ⟨@C45_nothing_to_merge V4 _ _ _, @C45_nothing_to_merge V6 _ _ _⟩

theorem C47_fixed_points_families : (type_of% (@C47_fixed_points V4 _ _ _)) ∧ (type_of% (@C47_fixed_points V6 _ _ _)) :=
  ⟨@C47_fixed_points V4 _ _ _, @C47_fixed_points V6 _ _ _⟩

theorem C84_addresses_only_families : (type_of% (@C84_addresses_only V4 _ _ _)) ∧ (type_of% (@C84_addresses_only V6 _ _ _)) :=
  ⟨@C84_addresses_only V4 _ _ _, @C84_addresses_only V6 _ _ _⟩

theorem C84_characterised_families : (type_of% (@C84_characterised V4 _ _ _)) ∧ (type_of% (@C84_characterised V6 _ _ _)) :=
  ⟨@C84_characterised V4 _ _ _, @C84_characterised V6 _ _ _⟩

theorem C84_nothing_to_merge_families : (type_of% (@C84_nothing_to_merge V4 _ _ _)) ∧ (type_of% (@C84_nothing_to_merge V6 _ _ _)) :=
  ⟨@C84_nothing_to_merge V4 _ _ _, @C84_nothing_to_merge V6 _ _ _⟩

theorem C84_single_families : (type_of% (@C84_single V4 _ _ _)) ∧ (type_of% (@C84_single V6 _ _ _)) :=
  ⟨@C84_single V4 _ _ _, @C84_single V6 _ _ _⟩

theorem C85_resize_minimize_families : (type_of% (@C85_resize_minimize V4 _ _ _)) ∧ (type_of% (@C85_resize_minimize V6 _ _ _)) :=
  ⟨@C85_resize_minimize V4 _ _ _, @C85_resize_minimize V6 _ _ _⟩

theorem C85_resize_back_families : (type_of% (@C85_resize_back V4 _ _ _)) ∧ (type_of% (@C85_resize_back V6 _ _ _)) :=
  ⟨@C85_resize_back V4 _ _ _, @C85_resize_back V6 _ _ _⟩

theorem C85_derange_network_families : (type_of% (@C85_derange_network V4 _ _ _)) ∧ (type_of% (@C85_derange_network V6 _ _ _)) :=
  ⟨@C85_derange_network V4 _ _ _, @C85_derange_network V6 _ _ _⟩

theorem C85_minimize_derange_families : (type_of% (@C85_minimize_derange V4 _ _ _)) ∧ (type_of% (@C85_minimize_derange V6 _ _ _)) :=
  ⟨@C85_minimize_derange V4 _ _ _, @C85_minimize_derange V6 _ _ _⟩

theorem C85_derange_minimal_families : (type_of% (@C85_derange_minimal V4 _ _ _)) ∧ (type_of% (@C85_derange_minimal V6 _ _ _)) :=
  ⟨@C85_derange_minimal V4 _ _ _, @C85_derange_minimal V6 _ _ _⟩

theorem C85_derange_enumerate_families : (type_of% (@C85_derange_enumerate V4 _ _ _)) ∧ (type_of% (@C85_derange_enumerate V6 _ _ _)) :=
  ⟨@C85_derange_enumerate V4 _ _ _, @C85_derange_enumerate V6 _ _ _⟩

theorem C85_enumerate_minimize_families : (type_of% (@C85_enumerate_minimize V4 _ _ _)) ∧ (type_of% (@C85_enumerate_minimize V6 _ _ _)) :=
  ⟨@C85_enumerate_minimize V4 _ _ _, @C85_enumerate_minimize V6 _ _ _⟩

theorem C85_split_minimize_families : (type_of% (@C85_split_minimize V4 _ _ _)) ∧ (type_of% (@C85_split_minimize V6 _ _ _)) :=
  ⟨@C85_split_minimize V4 _ _ _, @C85_split_minimize V6 _ _ _⟩

/-! ## Concrete cases -/

/-- Twins: 10.0.0.0/25 and 10.0.0.128/25. -/
example : Twins (mk4 0x0A000000#32 0xFFFFFF80#32) (mk4 0x0A000080#32 0xFFFFFF80#32) := by
  refine ⟨rfl, 7, by decide, by decide +kernel, ?_, ?_⟩
  · show ∀ t, t < 7 → (val (mk4 0x0A000000#32 0xFFFFFF80#32).subnetMask).testBit t = false
    decide +kernel
  · show ∀ t, t < 32 → ((val (mk4 0x0A000000#32 0xFFFFFF80#32).baseAddr).testBit t = (val (mk4 0x0A000080#32 0xFFFFFF80#32).baseAddr).testBit t ↔ t ≠ 7)
    decide +kernel

/-- A list that is left unchanged, with a mask that is not a CIDR mask. -/
example : minimizeSubnets (evalRuntime .checked true) [mk4 0x0A000000#32 0xFFFFFF80#32, mk4 0x0A000002#32 0xFF0000FF#32] =
    .ok [mk4 0x0A000000#32 0xFFFFFF80#32, mk4 0x0A000002#32 0xFF0000FF#32] :=
  minimize_of_fuel 5 1 _ _ [mk4 0x0A000000#32 0xFFFFFF80#32, mk4 0x0A000002#32 0xFF0000FF#32] _ (by decide +kernel) (by decide +kernel)

/-- The lines for the range from 192.0.2.3 to 192.0.2.12, and the same lines from the minimize mode. -/
example (rt : Runtime) (hp : rt.profile = .checked) : ∃ ls, ls = ["192.0.2.3/32".toList, "192.0.2.4/30".toList, "192.0.2.8/30".toList, "192.0.2.12/32".toList] ∧
    derange rt ["ripcalc".toList, "-d".toList, "192.0.2.3".toList, "192.0.2.12".toList] = ⟨lineEvents ls, .ok 0⟩ ∧
    minimize rt ("ripcalc".toList :: "-m".toList :: ls) = ⟨lineEvents ls, .ok 0⟩ := by
  have ha : parseAddr "192.0.2.3".toList = .ok (.ok (.ipv4 ⟨0xC0000203#32⟩)) := by decide +kernel
  have hb : parseAddr "192.0.2.12".toList = .ok (.ok (.ipv4 ⟨0xC000020C#32⟩)) := by decide +kernel
  have hr : rangeToSubnets rt.profile (⟨0xC0000203#32⟩ : V4) ⟨0xC000020C#32⟩ = .ok [⟨⟨0xC0000203#32⟩, ⟨0xFFFFFFFF#32⟩, some 32⟩, ⟨⟨0xC0000204#32⟩, ⟨0xFFFFFFFC#32⟩, some 30⟩,
      ⟨⟨0xC0000208#32⟩, ⟨0xFFFFFFFC#32⟩, some 30⟩, ⟨⟨0xC000020C#32⟩, ⟨0xFFFFFFFF#32⟩, some 32⟩] := by
    rw [hp]
    exact range_of_fuel 20 _ _ _ ⟨⟨0xC0000203#32⟩, ⟨0xFFFFFFFF#32⟩, some 32⟩ _ (by decide +kernel) (by decide +kernel)
  have h := (C39_command_v4 rt "ripcalc".toList "-d".toList _ _ _ _ ha hb).1 _ hr
  have h : derange rt ["ripcalc".toList, "-d".toList, "192.0.2.3".toList, "192.0.2.12".toList] =
      ⟨lineEvents ["192.0.2.3/32".toList, "192.0.2.4/30".toList, "192.0.2.8/30".toList, "192.0.2.12/32".toList], .ok 0⟩ :=
    h.trans (by decide +kernel)
  exact ⟨_, rfl, h, C85_derange_then_minimize_v4 rt rt _ _ _ _ _ _ _ _ ha hb _ _ h⟩

end Ripcalc
