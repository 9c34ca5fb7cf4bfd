import Verif.Props.Maximal
/-!
# C115: one network more
-/
namespace Ripcalc
open AddrSpec LawfulIpAddr

section generic
variable {A : Type} [IpAddr A] [AddrSpec A] [LawfulIpAddr A]

omit [IpAddr A] [LawfulIpAddr A] in
theorem cidr_unique {n : Net A} {p q : Nat} (h : IsCidr p n) (h' : IsCidr q n) : p = q := Option.some.inj (h.2.symm.trans h'.2)

/-- Two CIDR networks with a common address: one is inside the other. -/
theorem cidr_common {n o : Net A} {p q : Nat} (hn : IsCidr p n) (ho : IsCidr q o) {a : A} (h1 : Member n a) (h2 : Member o a) :
    (q ≤ p ∧ Includes o n) ∨ (p ≤ q ∧ Includes n o) := by
  rcases Nat.le_total q p with h | h
  · exact .inl ⟨h, cidr_subset hn ho h h1 h2⟩
  · exact .inr ⟨h, cidr_subset ho hn h h2 h1⟩

/-- A network inside another has at least its prefix length. -/
theorem cidr_prefix_le {n o : Net A} {p q : Nat} (hn : IsCidr p n) (ho : IsCidr q o) (h : Includes o n) : q ≤ p := by
  rcases Nat.le_total q p with h' | h'
  · exact h'
  · have := cidr_subset ho hn h' (h _ (base_member n)) (base_member n)
    cases includes_antisymm hn.1 ho.1 this h
    exact Nat.le_of_eq (cidr_unique ho hn)

/-- Every CIDR network but the whole space is a half of the next greater one, whose other half is another. -/
theorem cidr_halves (a : A) {s : Nat} (hs : s < width A) :
    ∃ P H T : Net A, IsCidr s P ∧ IsCidr (s + 1) H ∧ IsCidr (s + 1) T ∧ Member H a ∧ (∀ x, Member P x ↔ Member H x ∨ Member T x) ∧
      Disjoint H T := by
  obtain ⟨P, -, hP, hPa, -⟩ := cidr_of_addr a (p := s) (by omega)
  obtain ⟨u, hu⟩ : ∃ u, 2 ^ (width A - s) = u + u ∧ 2 ^ (width A - (s + 1)) = u := by
    refine ⟨2 ^ (width A - (s + 1)), ?_, rfl⟩
    rw [show width A - s = (width A - (s + 1)) + 1 by omega, Nat.pow_succ]
    omega
  have hd := cidr_dvd hP
  have he := cidr_end hP
  have hpos := Nat.two_pow_pos (width A - (s + 1))
  have hdu : 2 ^ (width A - (s + 1)) ∣ 2 ^ (width A - s) := Nat.pow_dvd_pow 2 (by omega)
  have mk : ∀ b : A, 2 ^ (width A - (s + 1)) ∣ val b → ∃ n : Net A, IsCidr (s + 1) n ∧ ∀ x : A, Member n x ↔ val b ≤ val x ∧ val x < val b + u := by
    intro b hb
    obtain ⟨n, -, h2, -, h4⟩ := cidr_of_addr b (p := s + 1) (by omega)
    refine ⟨n, h2, fun x => ?_⟩
    rw [cidr_member_iff h2, h4.mpr hb, hu.2]
  obtain ⟨b, hb⟩ := val_surj (A := A) (val P.baseAddr + u) (by omega)
  obtain ⟨n, n1, n2⟩ := mk P.baseAddr (Nat.dvd_trans hdu hd)
  obtain ⟨o, o1, o2⟩ := mk b (by rw [hb]; exact Nat.dvd_add (Nat.dvd_trans hdu hd) (by rw [hu.2]; exact Nat.dvd_refl _))
  have hm : ∀ x, Member P x ↔ Member n x ∨ Member o x := fun x => by
    rw [cidr_member_iff hP, n2, o2, hb, hu.1]
    omega
  have hdis : ∀ x, ¬ (Member n x ∧ Member o x) := fun x => by
    rw [n2, o2, hb]
    omega
  rcases (hm a).mp ((cidr_inBlk hP a).mpr hPa) with h | h
  · exact ⟨P, n, o, hP, n1, o1, h, hm, hdis⟩
  · exact ⟨P, o, n, hP, o1, n1, h, fun x => (hm x).trans Or.comm, fun x hx => hdis x hx.symm⟩

/-! ## C115 -/

/-- If a network is added, exactly one network of the result contains it, and the others are the results from before that are not
inside this one. -/
theorem C115_added (rt rt' : Runtime) (l old new : List (Net A)) (n : Net A) (p : Nat) (hc : ∀ o ∈ l, ∃ q, IsCidr q o) (hn : IsCidr p n)
    (h : minimizeSubnets rt l = .ok old) (h' : minimizeSubnets rt' (n :: l) = .ok new) :
    ∃ N ∈ new, Includes N n ∧ ∀ o, o ∈ new ↔ o = N ∨ (o ∈ old ∧ ¬ Includes N o) := by
  have hc' : ∀ o ∈ n :: l, ∃ q, IsCidr q o := by
    intro o ho
    rcases List.mem_cons.mp ho with rfl | ho
    · exact ⟨p, hn⟩
    · exact hc o ho
  have hgiven : ∀ a : A, (∃ o ∈ n :: l, Member o a) ↔ Member n a ∨ ∃ o ∈ l, Member o a := fun a => by
    simp only [List.mem_cons, or_and_right, exists_or, exists_eq_left]
  obtain ⟨N, hN, hNn, -⟩ := C105_cidr_within rt' (n :: l) new hc' h' p n hn fun a ha => (hgiven a).mpr (.inl ha)
  obtain ⟨g1, g2, -⟩ := C46_cidr_minimal rt' (n :: l) new hc' h'
  have hdis : ∀ o ∈ new, o ≠ N → ∀ a, ¬ (Member N a ∧ Member o a) := by
    intro o ho hne a ha
    have := List.Pairwise.forall_of_forall_of_flip (R := fun x y => x ≠ y → ∀ a, ¬ (Member x a ∧ Member y a)) (l := new)
      (fun x _ hx => absurd rfl hx) (g2.imp (S := fun x y => x ≠ y → ∀ a, ¬ (Member x a ∧ Member y a)) fun hd _ => hd)
      (g2.imp (S := fun y x => x ≠ y → ∀ a, ¬ (Member x a ∧ Member y a)) fun hd _ a ha => hd a ha.symm)
    exact this hN ho (Ne.symm hne) a ha
  have hkeep : ∀ o ∈ new, o ≠ N → o ∈ old := by
    intro o ho hne
    obtain ⟨k1, k2, k3⟩ := (C105_cidr_greatest rt' (n :: l) new hc' h' o).mp ho
    refine (C105_cidr_greatest rt l old hc h o).mpr ⟨k1, fun a ha => ?_, fun q m hm hin hi => k3 q m hm (fun a ha => (hgiven a).mpr (.inr (hin a ha))) hi⟩
    rcases (hgiven a).mp (k2 a ha) with h | h
    · exact absurd ⟨hNn a h, ha⟩ (hdis o ho hne a)
    · exact h
  refine ⟨N, hN, hNn, fun o => ⟨fun ho => ?_, ?_⟩⟩
  · by_cases hne : o = N
    · exact .inl hne
    · exact .inr ⟨hkeep o ho hne, fun hi => hdis o ho hne _ ⟨hi _ (base_member o), base_member o⟩⟩
  · rintro (rfl | ⟨ho, hi⟩)
    · exact hN
    · obtain ⟨⟨q, k1⟩, k2, k3⟩ := (C105_cidr_greatest rt l old hc h o).mp ho
      obtain ⟨M, hM, hMo, -⟩ := C105_cidr_within rt' (n :: l) new hc' h' q o k1 fun a ha => (hgiven a).mpr (.inr (k2 a ha))
      have hne : M ≠ N := by
        rintro rfl
        exact hi hMo
      obtain ⟨⟨r, m1⟩, m2, -⟩ := (C105_cidr_greatest rt l old hc h M).mp (hkeep M hM hne)
      rwa [← k3 r M m1 m2 hMo]

/-- If some address of the added network is new, the results from before that disappear are those inside it and one network of each
prefix length from that of the added network down to the one after that of the network which contains it now. -/
theorem C115_disappear (rt rt' : Runtime) (l old new : List (Net A)) (n : Net A) (p : Nat) (hc : ∀ o ∈ l, ∃ q, IsCidr q o) (hn : IsCidr p n)
    (h : minimizeSubnets rt l = .ok old) (h' : minimizeSubnets rt' (n :: l) = .ok new)
    (hadd : ∃ a : A, Member n a ∧ ∀ o ∈ l, ¬ Member o a) :
    ∃ N q, N ∈ new ∧ Includes N n ∧ IsCidr q N ∧ q ≤ p ∧
      (∀ o ∈ old, Includes N o → ¬ Includes n o → ∃ r, q < r ∧ r ≤ p ∧ IsCidr r o) ∧
      ∀ r, q < r → r ≤ p → ∃ t ∈ old, IsCidr r t ∧ Includes N t ∧ ¬ Includes n t ∧
        ∀ t' ∈ old, IsCidr r t' → Includes N t' → ¬ Includes n t' → t' = t := by
  obtain ⟨z, hz, hz'⟩ := hadd
  obtain ⟨N, hN, hNn, hnew⟩ := C115_added rt rt' l old new n p hc hn h h'
  have hc' : ∀ o ∈ n :: l, ∃ q, IsCidr q o := by
    intro o ho
    rcases List.mem_cons.mp ho with rfl | ho
    · exact ⟨p, hn⟩
    · exact hc o ho
  obtain ⟨⟨q, hq⟩, k2, k3⟩ := (C105_cidr_greatest rt' (n :: l) new hc' h' N).mp hN
  have hqp := cidr_prefix_le hn hq hNn
  have hsub : ∀ a, Member N a → ¬ Member n a → ∃ o ∈ l, Member o a := by
    intro a ha hna
    obtain ⟨o, ho, hm⟩ := k2 a ha
    rcases List.mem_cons.mp ho with rfl | ho
    · exact absurd hm hna
    · exact ⟨o, ho, hm⟩
  -- a network that contains `n` is not within the addresses from before
  have hnot : ∀ m : Net A, Includes m n → ¬ ∀ a, Member m a → ∃ o ∈ l, Member o a := by
    intro m hm hall
    obtain ⟨o, ho, hoz⟩ := hall z (hm z hz)
    exact hz' o ho hoz
  -- what an old result inside `N` and not inside `n` is
  have key : ∀ o ∈ old, Includes N o → ¬ Includes n o → ∀ r, IsCidr r o → q < r ∧ r ≤ p ∧
      ∀ P H T : Net A, IsCidr (r - 1) P → IsCidr r H → IsCidr r T → Member H n.baseAddr → (∀ x, Member P x ↔ Member H x ∨ Member T x) → o = T := by
    intro o ho hNo hno r hr
    obtain ⟨-, o2, o3⟩ := (C105_cidr_greatest rt l old hc h o).mp ho
    have hno' : ¬ Includes o n := fun hi => hnot o hi o2
    have hdis : ∀ a, ¬ (Member o a ∧ Member n a) := by
      rintro a ⟨h1, h2⟩
      rcases cidr_common hr hn h1 h2 with ⟨-, h⟩ | ⟨-, h⟩
      · exact hno h
      · exact hno' h
    have hqr := cidr_prefix_le hr hq hNo
    have hne : q ≠ r := by
      rintro rfl
      have : o = N := includes_antisymm hr.1 hq.1 (cidr_subset hq hr (Nat.le_refl _) (hNo _ (base_member o)) (base_member o)) hNo
      exact hno' (this ▸ hNn)
    have hrw := cidr_le hr
    obtain ⟨P, H, T, hP, hH, hT, hHo, hu, hd⟩ := cidr_halves o.baseAddr (s := r - 1) (by omega)
    rw [show r - 1 + 1 = r by omega] at hH hT
    have hoH : o = H := cidr_ext hr hH (by
      have := includes_antisymm hr.1 hH.1 (cidr_subset hH hr (Nat.le_refl _) hHo (base_member o)) (cidr_subset hr hH (Nat.le_refl _) (base_member o) hHo)
      rw [← this])
    have hPN : Includes N P := cidr_subset hP hq (by omega) ((hu _).mpr (.inl hHo)) (hNo _ (base_member o))
    have hmeet : ∃ a, Member P a ∧ Member n a := by
      refine Classical.byContradiction fun hnone => ?_
      have := o3 _ P hP (fun a ha => hsub a (hPN a ha) fun hna => hnone ⟨a, ha, hna⟩) (fun a ha => (hu a).mpr (.inl (hoH ▸ ha)))
      have hPr := cidr_unique hP (this ▸ hr)
      omega
    obtain ⟨a, ha1, ha2⟩ := hmeet
    have hPn : r - 1 < p ∧ Includes P n := by
      rcases cidr_common hP hn ha1 ha2 with ⟨-, hi⟩ | ⟨hle, hi⟩
      · exact absurd (fun x hx => hi x ((hu x).mpr (.inl (hoH ▸ hx)))) hno
      · refine ⟨Nat.lt_of_le_of_ne hle fun he => ?_, hi⟩
        exact hno fun x hx => cidr_subset hP hn (Nat.le_of_eq he.symm) ha1 ha2 x ((hu x).mpr (.inl (hoH ▸ hx)))
    refine ⟨by omega, by omega, fun P' H' T' hP' hH' hT' hHn hu' => ?_⟩
    have hPP : P' = P := by
      have m1 : Member P n.baseAddr := hPn.2 _ (base_member n)
      have m2 : Member P' n.baseAddr := (hu' _).mpr (.inl hHn)
      exact includes_antisymm hP'.1 hP.1 (cidr_subset hP hP' (Nat.le_refl _) m1 m2) (cidr_subset hP' hP (Nat.le_refl _) m2 m1)
    rcases (hu' o.baseAddr).mp (hPP ▸ (hu _).mpr (.inl hHo)) with hm | hm
    · have : o = H' := includes_antisymm hr.1 hH'.1 (cidr_subset hH' hr (Nat.le_refl _) hm (base_member o))
        (cidr_subset hr hH' (Nat.le_refl _) (base_member o) hm)
      exact absurd ⟨this ▸ hHn, base_member n⟩ (hdis n.baseAddr)
    · exact includes_antisymm hr.1 hT'.1 (cidr_subset hT' hr (Nat.le_refl _) hm (base_member o))
        (cidr_subset hr hT' (Nat.le_refl _) (base_member o) hm)
  refine ⟨N, q, hN, hNn, hq, hqp, fun o ho hNo hno => ?_, fun r hqr hrp => ?_⟩
  · obtain ⟨⟨r, hr⟩, -, -⟩ := (C105_cidr_greatest rt l old hc h o).mp ho
    obtain ⟨r1, r2, -⟩ := key o ho hNo hno r hr
    exact ⟨r, r1, r2, hr⟩
  · have hpw := cidr_le hn
    obtain ⟨P, H, T, hP, hH, hT, hHn, hu, hd⟩ := cidr_halves n.baseAddr (s := r - 1) (by omega)
    rw [show r - 1 + 1 = r by omega] at hH hT
    have hHi : Includes H n := cidr_subset hn hH hrp (base_member n) hHn
    have hPN : Includes N P := cidr_subset hP hq (by omega) ((hu _).mpr (.inl hHn)) (hNn _ (base_member n))
    have hTn : ∀ a, Member T a → ¬ Member n a := fun a ha hna => hd a ⟨hHi a hna, ha⟩
    have hTin : ∀ a, Member T a → ∃ o ∈ l, Member o a := fun a ha => hsub a (hPN a ((hu a).mpr (.inr ha))) (hTn a ha)
    refine ⟨T, (C105_cidr_greatest rt l old hc h T).mpr ⟨⟨r, hT⟩, hTin, fun s m hm hmin hi => ?_⟩, hT,
      fun a ha => hPN a ((hu a).mpr (.inr ha)), fun hi => hTn _ (base_member T) (hi _ (base_member T)), fun t' ht' ht'r hNt hnt => ?_⟩
    · have hsr := cidr_prefix_le hT hm hi
      rcases Nat.lt_or_ge s r with hlt | hge
      · have hPm : Includes m P := cidr_subset hP hm (by omega) ((hu _).mpr (.inr (base_member T))) (hi _ (base_member T))
        exact absurd hmin (hnot m fun a ha => hPm a ((hu a).mpr (.inl (hHi a ha))))
      · exact includes_antisymm hm.1 hT.1 hi (cidr_subset hm hT hge (hi _ (base_member T)) (base_member T))
    · exact (key t' ht' hNt hnt r ht'r).2.2 P H T hP hH hT hHn hu

theorem filter_partition {α : Type} (l : List α) (f g : α → Bool) (hfg : ∀ x ∈ l, f x = true → g x = true) :
    l.Perm (l.filter f ++ l.filter (fun x => g x && !f x) ++ l.filter (fun x => !g x)) := by
  induction l with
  | nil => exact .nil
  | cons x l ih =>
    have ih := ih fun y hy => hfg y (List.mem_cons_of_mem _ hy)
    have hx := hfg x List.mem_cons_self
    rcases hf : f x with _ | _
    · rcases hg : g x with _ | _
      · simp only [List.filter_cons, hf, hg]
        exact (ih.cons x).trans List.perm_middle.symm
      · simp only [List.filter_cons, hf, hg]
        refine (ih.cons x).trans ?_
        exact (List.perm_middle (a := x) (l₁ := l.filter f)).symm.append_right _
    · rw [hf] at hx
      simp only [List.filter_cons, hf, hx rfl]
      exact ih.cons x

/-- The numbers: the result has one network more than before, less those inside the added network and less as many as the network that
contains it now has bits fewer in its prefix.  So it never has more than one network more. -/
theorem C115_count (rt rt' : Runtime) (l old new : List (Net A)) (n : Net A) (p : Nat) (hc : ∀ o ∈ l, ∃ q, IsCidr q o) (hn : IsCidr p n)
    (h : minimizeSubnets rt l = .ok old) (h' : minimizeSubnets rt' (n :: l) = .ok new)
    (hadd : ∃ a : A, Member n a ∧ ∀ o ∈ l, ¬ Member o a) :
    ∃ N q inside gone kept, IsCidr q N ∧ Includes N n ∧ (∀ o ∈ inside, Includes n o) ∧ gone.length = p - q ∧ q ≤ p ∧
      old.Perm (inside ++ gone ++ kept) ∧ new.Perm (N :: kept) := by
  classical
  obtain ⟨N, q, hN, hNn, hq, hqp, hgone, hone⟩ := C115_disappear rt rt' l old new n p hc hn h h' hadd
  obtain ⟨N', hN', hNn', hnew⟩ := C115_added rt rt' l old new n p hc hn h h'
  have hc' : ∀ o ∈ n :: l, ∃ q, IsCidr q o := by
    intro o ho
    rcases List.mem_cons.mp ho with rfl | ho
    · exact ⟨p, hn⟩
    · exact hc o ho
  have hw : ∀ o ∈ l, WF o := fun o ho => (hc o ho).choose_spec.1
  have hw' : ∀ o ∈ n :: l, WF o := fun o ho => (hc' o ho).choose_spec.1
  have nd := (C44_sorted rt l old hw h).2.1
  have nd' := (C44_sorted rt' (n :: l) new hw' h').2.1
  obtain rfl : N' = N := by
    obtain ⟨M, -, -, hu⟩ := C105_cidr_within rt' (n :: l) new hc' h' p n hn fun a ha => ⟨n, List.mem_cons_self, ha⟩
    rw [hu N hN hNn, hu N' hN' hNn']
  refine ⟨N', q, old.filter fun o => decide (Includes n o), old.filter fun o => decide (Includes N' o) && !decide (Includes n o),
    old.filter fun o => !decide (Includes N' o), hq, hNn, fun o ho => ?_, ?_, hqp, ?_, ?_⟩
  · simpa using (List.mem_filter.mp ho).2
  · have hperm : ((old.filter fun o => decide (Includes N' o) && !decide (Includes n o)).map (fun o => o.cidrPrefix.getD 0)).Perm
        (List.range' (q + 1) (p - q)) := by
      refine (List.perm_ext_iff_of_nodup ?_ List.nodup_range').mpr fun r => ?_
      · refine List.pairwise_map.mpr ((nd.filter _).imp_of_mem fun {x y} hx hy hne hxy => hne ?_)
        obtain ⟨x1, x2⟩ := List.mem_filter.mp hx
        obtain ⟨y1, y2⟩ := List.mem_filter.mp hy
        simp only [Bool.and_eq_true, decide_eq_true_eq, Bool.not_eq_true', decide_eq_false_iff_not] at x2 y2
        obtain ⟨r, r1, r2, r3⟩ := hgone x x1 x2.1 x2.2
        obtain ⟨s, s1, s2, s3⟩ := hgone y y1 y2.1 y2.2
        rw [r3.2, s3.2] at hxy
        change r = s at hxy
        subst hxy
        obtain ⟨t, -, -, -, -, ht⟩ := hone r r1 r2
        rw [ht x x1 r3 x2.1 x2.2, ht y y1 s3 y2.1 y2.2]
      · rw [List.mem_range'_1, List.mem_map]
        constructor
        · rintro ⟨x, hx, rfl⟩
          obtain ⟨x1, x2⟩ := List.mem_filter.mp hx
          simp only [Bool.and_eq_true, decide_eq_true_eq, Bool.not_eq_true', decide_eq_false_iff_not] at x2
          obtain ⟨r, r1, r2, r3⟩ := hgone x x1 x2.1 x2.2
          rw [r3.2]
          change q + 1 ≤ r ∧ r < _
          omega
        · intro hr
          obtain ⟨t, t1, t2, t3, t4, -⟩ := hone r (by omega) (by omega)
          exact ⟨t, List.mem_filter.mpr ⟨t1, by simp [t3, t4]⟩, by rw [t2.2]; rfl⟩
    have := hperm.length_eq
    rwa [List.length_map, List.length_range'] at this
  · refine filter_partition old _ _ fun o _ ho => ?_
    simp only [decide_eq_true_eq] at ho ⊢
    exact includes_trans hNn ho
  · refine (List.perm_ext_iff_of_nodup nd' ?_).mpr fun o => ?_
    · refine List.nodup_cons.mpr ⟨fun hm => ?_, nd.filter _⟩
      have := (List.mem_filter.mp hm).2
      simp [includes_refl] at this
    · rw [hnew o, List.mem_cons, List.mem_filter]
      simp

/-- If no address of the added network is new, the result is the same. -/
theorem C115_nothing_new (rt rt' : Runtime) (l : List (Net A)) (n : Net A) (p : Nat) (hc : ∀ o ∈ l, ∃ q, IsCidr q o) (hn : IsCidr p n)
    (hadd : ∀ a : A, Member n a → ∃ o ∈ l, Member o a) : minimizeSubnets rt' (n :: l) = minimizeSubnets rt l := by
  refine C84_addresses_only rt' rt (n :: l) l (fun o ho => ?_) hc fun a => ?_
  · rcases List.mem_cons.mp ho with rfl | ho
    · exact ⟨p, hn⟩
    · exact hc o ho
  · simp only [List.mem_cons, or_and_right, exists_or, exists_eq_left]
    exact ⟨fun h => h.elim (hadd a) id, .inr⟩

/-- Two lists together need at most as many networks as both on their own. -/
theorem C115_together (rt rt' rt'' : Runtime) (l l' out out' both : List (Net A)) (hc : ∀ o ∈ l, ∃ q, IsCidr q o)
    (hc' : ∀ o ∈ l', ∃ q, IsCidr q o) (h : minimizeSubnets rt l = .ok out) (h' : minimizeSubnets rt' l' = .ok out')
    (h'' : minimizeSubnets rt'' (l ++ l') = .ok both) : both.length ≤ out.length + out'.length := by
  obtain ⟨o, e, k⟩ := C42_same_addresses rt l fun o ho => (hc o ho).choose_spec.1
  rw [h] at e; cases e
  obtain ⟨o, e, k'⟩ := C42_same_addresses rt' l' fun o ho => (hc' o ho).choose_spec.1
  rw [h'] at e; cases e
  have hcc : ∀ o ∈ l ++ l', ∃ q, IsCidr q o := fun o ho => (List.mem_append.mp ho).elim (hc o) (hc' o)
  obtain ⟨g1, -, -⟩ := C46_cidr_minimal rt l out hc h
  obtain ⟨g1', -, -⟩ := C46_cidr_minimal rt' l' out' hc' h'
  obtain ⟨-, -, g⟩ := C46_cidr_minimal rt'' (l ++ l') both hcc h''
  rw [← List.length_append]
  refine (g (out ++ out') (fun o ho => (List.mem_append.mp ho).elim (g1 o) (g1' o)) fun a => ?_).1
  simp only [List.mem_append, or_and_right, exists_or]
  exact or_congr (k a) (k' a)

end generic

theorem C115_added_families : (type_of% (@C115_added V4 _ _ _)) ∧ (type_of% (@C115_added V6 _ _ _)) :=
  ⟨@C115_added V4 _ _ _, @C115_added V6 _ _ _⟩

theorem C115_disappear_families : (type_of% (@C115_disappear V4 _ _ _)) ∧ (type_of% (@C115_disappear V6 _ _ _)) :=
  ⟨@C115_disappear V4 _ _ _, @C115_disappear V6 _ _ _⟩

theorem C115_count_families : (type_of% (@C115_count V4 _ _ _)) ∧ (type_of% (@C115_count V6 _ _ _)) :=
  ⟨@C115_count V4 _ _ _, @C115_count V6 _ _ _⟩

theorem C115_nothing_new_families : (type_of% (@C115_nothing_new V4 _ _ _)) ∧ (type_of% (@C115_nothing_new V6 _ _ _)) :=
  ⟨@C115_nothing_new V4 _ _ _, @C115_nothing_new V6 _ _ _⟩

theorem C115_together_families : (type_of% (@C115_together V4 _ _ _)) ∧ (type_of% (@C115_together V6 _ _ _)) :=
  ⟨@C115_together V4 _ _ _, @C115_together V6 _ _ _⟩

/-- 10.0.0.128/25 is added to 10.0.1.0/24 and 10.0.0.0/25: these two disappear, one for each prefix length from 25 to 24, and 10.0.0.0/23
contains all. -/
example : ∃ old new : List (Net V4), (∀ o ∈ [mk4 0x0A000100#32 0xFFFFFF00#32, mk4 0x0A000000#32 0xFFFFFF80#32], ∃ q, IsCidr q o) ∧
    IsCidr 25 (mk4 0x0A000080#32 0xFFFFFF80#32) ∧
    minimizeSubnets (evalRuntime .checked true) [mk4 0x0A000100#32 0xFFFFFF00#32, mk4 0x0A000000#32 0xFFFFFF80#32] = .ok old ∧
    minimizeSubnets (evalRuntime .checked true)
      [mk4 0x0A000080#32 0xFFFFFF80#32, mk4 0x0A000100#32 0xFFFFFF00#32, mk4 0x0A000000#32 0xFFFFFF80#32] = .ok new ∧
    (∃ a : V4, Member (mk4 0x0A000080#32 0xFFFFFF80#32) a ∧
      ∀ o ∈ [mk4 0x0A000100#32 0xFFFFFF00#32, mk4 0x0A000000#32 0xFFFFFF80#32], ¬ Member o a) ∧
    old = [mk4 0x0A000000#32 0xFFFFFF80#32, mk4 0x0A000100#32 0xFFFFFF00#32] ∧ new = [mk4 0x0A000000#32 0xFFFFFE00#32] := by
  have c24 : IsCidr 24 (mk4 0x0A000100#32 0xFFFFFF00#32) := ⟨newWithMask_wf _ _, rfl⟩
  have c25 : IsCidr 25 (mk4 0x0A000000#32 0xFFFFFF80#32) := ⟨newWithMask_wf _ _, rfl⟩
  refine ⟨_, _, fun o ho => ?_, ⟨newWithMask_wf _ _, rfl⟩,
    minimize_of_fuel 5 1 _ _ [mk4 0x0A000000#32 0xFFFFFF80#32, mk4 0x0A000100#32 0xFFFFFF00#32] _ (by decide +kernel) (by decide +kernel),
    minimize_of_fuel 5 3 _ _ [mk4 0x0A000000#32 0xFFFFFE00#32] _ (by decide +kernel) (by decide +kernel),
    ⟨(mk4 0x0A000080#32 0xFFFFFF80#32).baseAddr, base_member _, fun o ho => ?_⟩, rfl, rfl⟩
  · simp only [List.mem_cons, List.not_mem_nil, or_false] at ho
    rcases ho with rfl | rfl
    · exact ⟨_, c24⟩
    · exact ⟨_, c25⟩
  · simp only [List.mem_cons, List.not_mem_nil, or_false] at ho
    rcases ho with rfl | rfl
    · rw [cidr_member_iff c24]; decide
    · rw [cidr_member_iff c25]; decide

end Ripcalc
