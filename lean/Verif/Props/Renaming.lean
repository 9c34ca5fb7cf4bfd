import Verif.Props.Added
import Verif.Props.Moved
import Verif.Spec.Renaming
/-!
# C116: renaming addresses
-/
namespace Ripcalc
open AddrSpec LawfulIpAddr

section generic
variable {A : Type} [IpAddr A] [AddrSpec A] [LawfulIpAddr A]

/-- The members of a CIDR network are the addresses that agree with its base address without the last bits. -/
theorem cidr_div {n : Net A} {p : Nat} (hn : IsCidr p n) (a : A) :
    Member n a ↔ val a / 2 ^ (width A - p) = val n.baseAddr / 2 ^ (width A - p) := by
  rw [cidr_member_iff hn]
  obtain ⟨q, hq⟩ := cidr_dvd hn
  have hpos := Nat.two_pow_pos (width A - p)
  rw [hq, Nat.mul_div_cancel_left _ hpos, Nat.div_eq_iff hpos]
  rw [Nat.mul_comm q]
  omega

theorem KeepsPrefixes.inj {f : A → A} (hf : KeepsPrefixes f) {a b : A} (h : f a = f b) : a = b :=
  val_inj _ _ (by simpa using (hf a b 0).mpr (by rw [h]))

/-- Such a renaming reaches every address. -/
theorem KeepsPrefixes.surj {f : A → A} (hf : KeepsPrefixes f) (b : A) : ∃ a, f a = b := by
  have : ∀ k, k ≤ width A → ∃ a, val (f a) / 2 ^ (width A - k) = val b / 2 ^ (width A - k) := by
    intro k
    induction k with
    | zero =>
      intro _
      refine ⟨b, ?_⟩
      rw [Nat.div_eq_of_lt (by simpa using val_lt (f b)), Nat.div_eq_of_lt (by simpa using val_lt b)]
    | succ k ih =>
      intro hk
      obtain ⟨a, ha⟩ := ih (by omega)
      obtain ⟨j, hj⟩ : ∃ j, width A - k = j + 1 ∧ width A - (k + 1) = j := ⟨width A - (k + 1), by omega, rfl⟩
      rw [hj.1] at ha
      rw [hj.2]
      by_cases he : val (f a) / 2 ^ j = val b / 2 ^ j
      · exact ⟨a, he⟩
      · -- the address with another bit `j`
        have hval := val_lt a
        have hw : 2 ^ width A = 2 ^ (j + 1) * 2 ^ k := by rw [← Nat.pow_add]; congr 1; omega
        have hlt : val a / 2 ^ (j + 1) < 2 ^ k := by
          rw [Nat.div_lt_iff_lt_mul (Nat.two_pow_pos _), Nat.mul_comm, ← hw]
          exact hval
        have h2 : 2 ^ (j + 1) = 2 * 2 ^ j := by rw [Nat.pow_succ, Nat.mul_comm]
        have hpos := Nat.two_pow_pos j
        have flip : ∃ v, v < 2 ^ width A ∧ v / 2 ^ (j + 1) = val a / 2 ^ (j + 1) ∧ v / 2 ^ j ≠ val a / 2 ^ j := by
          have hd : ∀ x, x / 2 ^ (j + 1) = x / 2 ^ j / 2 := fun x => by rw [Nat.pow_succ, Nat.div_div_eq_div_mul]
          refine ⟨2 ^ j * (2 * (val a / 2 ^ j / 2) + (1 - val a / 2 ^ j % 2)), ?_, ?_, ?_⟩
          · have : 2 * (val a / 2 ^ j / 2) + (1 - val a / 2 ^ j % 2) < 2 * 2 ^ k := by
              rw [hd] at hlt
              omega
            calc 2 ^ j * (2 * (val a / 2 ^ j / 2) + (1 - val a / 2 ^ j % 2)) < 2 ^ j * (2 * 2 ^ k) := Nat.mul_lt_mul_of_pos_left this hpos
              _ = 2 ^ width A := by rw [hw, h2, Nat.mul_left_comm, Nat.mul_assoc]
          · rw [hd, hd, Nat.mul_div_cancel_left _ hpos]
            omega
          · rw [Nat.mul_div_cancel_left _ hpos]
            omega
        obtain ⟨v, hv, hv1, hv2⟩ := flip
        obtain ⟨c, hc⟩ := val_surj (A := A) v hv
        have h3 := (hf c a (j + 1)).mp (by rw [hc, hv1])
        have h4 : val (f c) / 2 ^ j ≠ val (f a) / 2 ^ j := fun h => hv2 (by rw [← hc]; exact (hf c a j).mpr h)
        refine ⟨c, ?_⟩
        have hd : ∀ x, x / 2 ^ (j + 1) = x / 2 ^ j / 2 := fun x => by rw [Nat.pow_succ, Nat.div_div_eq_div_mul]
        rw [hd, hd] at ha h3
        omega
  obtain ⟨a, ha⟩ := this (width A) (Nat.le_refl _)
  rw [Nat.sub_self] at ha
  exact ⟨a, val_inj _ _ (by simpa using ha)⟩

theorem Renamed.member {f : A → A} (hf : KeepsPrefixes f) {n m : Net A} (h : Renamed f n m) (a : A) : Member m (f a) ↔ Member n a :=
  (h (f a)).trans ⟨fun ⟨_, hb, e⟩ => hf.inj e ▸ hb, fun ha => ⟨a, ha, rfl⟩⟩

/-- Only the network itself has its renamed addresses. -/
theorem Renamed.unique_left {f : A → A} (hf : KeepsPrefixes f) {n o m : Net A} (hn : WF n) (ho : WF o) (h : Renamed f n m)
    (h' : Renamed f o m) : n = o :=
  includes_antisymm hn ho (fun a ha => (h.member hf a).mp ((h'.member hf a).mpr ha)) fun a ha => (h'.member hf a).mp ((h.member hf a).mpr ha)

omit [IpAddr A] [LawfulIpAddr A] in
theorem Renamed.same {f : A → A} {n m o : Net A} (h : Renamed f n m) (h' : Renamed f n o) (a : A) : Member m a ↔ Member o a :=
  (h a).trans (h' a).symm

theorem Renamed.includes {f : A → A} (hf : KeepsPrefixes f) {n m n' m' : Net A} (h : Renamed f n n') (h' : Renamed f m m') :
    Includes n m ↔ Includes n' m' := by
  constructor
  · intro hi b hb
    obtain ⟨a, rfl⟩ := hf.surj b
    exact (h.member hf a).mpr (hi a ((h'.member hf a).mp hb))
  · intro hi a ha
    exact (h.member hf a).mp (hi _ ((h'.member hf a).mpr ha))

/-! ## C116 -/

/-- To rename a CIDR network, rename any of its addresses and keep the prefix length. -/
theorem C116_network (f : A → A) (hf : KeepsPrefixes f) (n : Net A) (p : Nat) (hn : IsCidr p n) :
    ∃ m, IsCidr p m ∧ Renamed f n m ∧ (∀ a, Member n a → Net.newWithPrefix (f a) p = .ok m) ∧
      ∀ o, WF o → Renamed f n o → o = m := by
  have hp := cidr_le hn
  have key : ∀ a, Member n a → ∃ m, Net.newWithPrefix (f a) p = .ok m ∧ IsCidr p m ∧ Renamed f n m := by
    intro a ha
    obtain ⟨m, h1, h2, h3, -⟩ := cidr_of_addr (f a) hp
    refine ⟨m, h1, h2, fun b => ?_⟩
    have hm := (cidr_inBlk h2 (f a)).mpr h3
    rw [cidr_div h2] at hm ⊢
    rw [← hm]
    constructor
    · intro hb
      obtain ⟨c, rfl⟩ := hf.surj b
      exact ⟨c, by rw [cidr_div hn, (hf c a _).mpr hb, (cidr_div hn a).mp ha], rfl⟩
    · rintro ⟨c, hc, rfl⟩
      exact (hf c a _).mp (by rw [(cidr_div hn c).mp hc, (cidr_div hn a).mp ha])
  obtain ⟨m, -, h2, h3⟩ := key _ (base_member n)
  have uniq : ∀ o, WF o → Renamed f n o → o = m := fun o ho hr =>
    includes_antisymm ho h2.1 (fun a ha => (h3.same hr a).mp ha) fun a ha => (h3.same hr a).mpr ha
  refine ⟨m, h2, h3, fun a ha => ?_, uniq⟩
  obtain ⟨o, k1, k2, k3⟩ := key a ha
  rw [k1, uniq o k2.1 k3]

/-- A one-to-one renaming takes every CIDR network to a CIDR network of the same size exactly if it keeps prefixes. -/
theorem C116_only (f : A → A) (inj : ∀ a b, f a = f b → a = b) :
    KeepsPrefixes f ↔ ∀ (n : Net A) (p : Nat), IsCidr p n → ∃ m, IsCidr p m ∧ Renamed f n m := by
  constructor
  · intro hf n p hn
    obtain ⟨m, h1, h2, -⟩ := C116_network f hf n p hn
    exact ⟨m, h1, h2⟩
  · intro hall a b k
    by_cases hk : k ≤ width A
    · obtain ⟨n, -, hn, hna, -⟩ := cidr_of_addr a (p := width A - k) (by omega)
      obtain ⟨m, hm, hr⟩ := hall n _ hn
      have hna := (cidr_inBlk hn a).mpr hna
      have hma := (hr (f a)).mpr ⟨a, hna, rfl⟩
      have e : width A - (width A - k) = k := by omega
      have d1 : ∀ x, Member n x ↔ val x / 2 ^ k = val n.baseAddr / 2 ^ k := fun x => by rw [cidr_div hn, e]
      have d2 : ∀ x, Member m x ↔ val x / 2 ^ k = val m.baseAddr / 2 ^ k := fun x => by rw [cidr_div hm, e]
      rw [(d1 a).mp hna, (d2 _).mp hma]
      constructor
      · intro h
        exact ((d2 _).mp ((hr (f b)).mpr ⟨b, (d1 b).mpr h.symm, rfl⟩)).symm
      · intro h
        obtain ⟨c, hc, e⟩ := (hr (f b)).mp ((d2 _).mpr h.symm)
        cases inj c b e
        exact ((d1 _).mp hc).symm
    · have hlt : ∀ x : A, val x / 2 ^ k = 0 := fun x =>
        Nat.div_eq_of_lt (Nat.lt_of_lt_of_le (val_lt x) (Nat.pow_le_pow_right (by omega) (by omega)))
      simp only [hlt]

/-- The relations between networks and the numbers of addresses and hosts stay the same. -/
theorem C116_relations (f : A → A) (hf : KeepsPrefixes f) (n o n' o' : Net A) (p q : Nat) (hn : IsCidr p n) (ho : IsCidr q o)
    (hn' : IsCidr p n') (ho' : IsCidr q o') (h : Renamed f n n') (h' : Renamed f o o') :
    (∀ a, n'.contains (f a) = n.contains a) ∧ n'.isSupersetOf o' = n.isSupersetOf o ∧ n'.isSubsetOf o' = n.isSubsetOf o ∧
      n'.intersects o' = n.intersects o ∧ n'.addressCount = n.addressCount ∧ n'.hostCount = n.hostCount := by
  have e : ∀ a, n'.contains (f a) = n.contains a := fun a => by
    rw [Bool.eq_iff_iff, C23_contains _ hn'.1, C23_contains _ hn.1]
    exact h.member hf a
  have e' : ∀ a, o'.contains (f a) = o.contains a := fun a => by
    rw [Bool.eq_iff_iff, C23_contains _ ho'.1, C23_contains _ ho.1]
    exact h'.member hf a
  have hall : ∀ P : A → Prop, (∀ a, P a) ↔ ∀ a, P (f a) := fun P =>
    ⟨fun h a => h _, fun h b => by obtain ⟨a, rfl⟩ := hf.surj b; exact h a⟩
  have hex : ∀ P : A → Prop, (∃ a, P a) ↔ ∃ a, P (f a) := fun P =>
    ⟨fun ⟨b, h⟩ => by obtain ⟨a, rfl⟩ := hf.surj b; exact ⟨a, h⟩, fun ⟨a, h⟩ => ⟨_, h⟩⟩
  have hac : n'.addressCount = n.addressCount := by
    rw [addressCount_eq, addressCount_eq, (isCidr_netBits hn).2.1, (isCidr_netBits hn').2.1]
  refine ⟨e, ?_, ?_, ?_, hac, ?_⟩
  · rw [Bool.eq_iff_iff, (C28_superset n' o' hn'.1 ho'.1).1, (C28_superset n o hn.1 ho.1).1, hall]
    simp only [e, e']
  · rw [Bool.eq_iff_iff, (C28_superset n' o' hn'.1 ho'.1).2, (C28_superset n o hn.1 ho.1).2, hall]
    simp only [e, e']
  · obtain ⟨r, r1, r2⟩ := C29_intersects_cidr n o p q hn ho
    obtain ⟨r', r1', r2'⟩ := C29_intersects_cidr n' o' p q hn' ho'
    rw [r1, r1', Bool.eq_iff_iff.mpr (r2'.trans (((hex _).trans (by simp only [e, e'])).trans r2.symm))]
  · rw [(C24_address_count n' hn'.1).2, (C24_address_count n hn.1).2, hac]

/-- The way back. -/
theorem KeepsPrefixes.back {f : A → A} (hf : KeepsPrefixes f) : ∃ g : A → A, KeepsPrefixes g ∧ (∀ a, f (g a) = a) ∧ ∀ a, g (f a) = a := by
  refine ⟨fun b => Classical.choose (hf.surj b), ?_, fun b => Classical.choose_spec (hf.surj b), fun a => hf.inj (Classical.choose_spec (hf.surj (f a)))⟩
  intro a b k
  have e := hf (Classical.choose (hf.surj a)) (Classical.choose (hf.surj b)) k
  rw [Classical.choose_spec (hf.surj a), Classical.choose_spec (hf.surj b)] at e
  exact e.symm

/-- The greatest CIDR networks within a set of addresses. -/
def GreatestNet (P : A → Prop) (n : Net A) : Prop :=
  (∃ p, IsCidr p n) ∧ (∀ a : A, Member n a → P a) ∧
    ∀ (p : Nat) (m : Net A), IsCidr p m → (∀ a : A, Member m a → P a) → Includes m n → m = n

theorem greatest_renamed {f : A → A} (hf : KeepsPrefixes f) {P Q : A → Prop} (hPQ : ∀ a, P a ↔ Q (f a)) {n : Net A} (hn : GreatestNet P n) :
    ∃ m, GreatestNet Q m ∧ Renamed f n m := by
  obtain ⟨⟨p, h1⟩, h2, h3⟩ := hn
  obtain ⟨m, m1, m2, -⟩ := C116_network f hf n p h1
  refine ⟨m, ⟨⟨p, m1⟩, fun b hb => ?_, fun q o ho hin hi => ?_⟩, m2⟩
  · obtain ⟨a, ha, rfl⟩ := (m2 b).mp hb
    exact (hPQ a).mp (h2 a ha)
  · obtain ⟨g, hg, fg, gf⟩ := hf.back
    obtain ⟨o', o1, o2, -⟩ := C116_network g hg o q ho
    have o3 : Renamed f o' o := fun b => by
      constructor
      · intro hb
        exact ⟨g b, (o2.member hg b).mpr hb, fg b⟩
      · rintro ⟨a, ha, rfl⟩
        rw [← gf a] at ha
        exact (o2.member hg (f a)).mp ha
    have := h3 q o' o1 (fun a ha => (hPQ a).mpr (hin _ ((o3.member hf a).mpr ha))) ((o3.includes hf m2).mpr hi)
    subst this
    exact includes_antisymm ho.1 m1.1 (fun a ha => (o3.same m2 a).mpr ha) fun a ha => (o3.same m2 a).mp ha

omit [IpAddr A] [LawfulIpAddr A] in
theorem renamed_back {f g : A → A} (fg : ∀ a, f (g a) = a) {n m : Net A}
    (h : Renamed g m n) : Renamed f n m := fun b => by
  constructor
  · intro hb
    exact ⟨g b, (h _).mpr ⟨b, hb, rfl⟩, fg b⟩
  · rintro ⟨a, ha, rfl⟩
    obtain ⟨c, hc, rfl⟩ := (h a).mp ha
    rwa [fg]

/-- Lists of the greatest networks within a set and within the renamed set. -/
theorem greatest_lists {f : A → A} (hf : KeepsPrefixes f) {P Q : A → Prop} (hPQ : ∀ a, P a ↔ Q (f a)) {ns ns' : List (Net A)}
    (nd : ns.Nodup) (nd' : ns'.Nodup) (h : ∀ n, n ∈ ns ↔ GreatestNet P n) (h' : ∀ n, n ∈ ns' ↔ GreatestNet Q n) :
    ∃ ms, Pointwise (Renamed f) ns ms ∧ ns'.Perm ms := by
  obtain ⟨ms, hms⟩ := exists_pointwise (R := fun n m => GreatestNet P n ∧ GreatestNet Q m ∧ Renamed f n m) (l := ns) fun n hn => by
    obtain ⟨m, m1, m2⟩ := greatest_renamed hf hPQ ((h n).mp hn)
    exact ⟨m, (h n).mp hn, m1, m2⟩
  refine ⟨ms, hms.imp fun _ _ _ hr => hr.2.2, ?_⟩
  have ndm : ms.Nodup := by
    refine pointwise_pairwise (S := (· ≠ ·)) (T := (· ≠ ·)) (fun a b a' b' ha hb hne e => hne ?_) hms nd
    subst e
    obtain ⟨⟨⟨_, x⟩, -⟩, -, x'⟩ := ha
    obtain ⟨⟨⟨_, y⟩, -⟩, -, y'⟩ := hb
    exact Renamed.unique_left hf x.1 y.1 x' y'
  rw [List.perm_ext_iff_of_nodup nd' ndm]
  intro m
  constructor
  · intro hm
    obtain ⟨g, hg, fg, gf⟩ := hf.back
    obtain ⟨n, n1, n2⟩ := greatest_renamed hg (P := Q) (Q := P) (fun b => by rw [hPQ, fg]) ((h' m).mp hm)
    obtain ⟨m', hm', -, g2, r⟩ := hms.mem n ((h n).mpr n1)
    obtain ⟨⟨_, x⟩, -⟩ := g2
    obtain ⟨⟨_, y⟩, -⟩ := (h' m).mp hm
    have r' := renamed_back fg n2
    rwa [includes_antisymm y.1 x.1 (fun a ha => (r.same r' a).mp ha) fun a ha => (r.same r' a).mpr ha]
  · intro hm
    obtain ⟨n, -, -, g2, -⟩ := (pointwise_symm (S := fun m n => GreatestNet P n ∧ GreatestNet Q m ∧ Renamed f n m) (fun _ _ x => x) hms).mem m hm
    exact (h' m).mpr g2

/-- Minimizing networks with the renamed addresses gives the renamed results (in another order, perhaps). -/
theorem C116_minimize (rt rt' : Runtime) (f : A → A) (hf : KeepsPrefixes f) (l l' out out' : List (Net A))
    (hc : ∀ n ∈ l, ∃ p, IsCidr p n) (hc' : ∀ n ∈ l', ∃ p, IsCidr p n) (hl : ∀ a, (∃ n ∈ l, Member n a) ↔ ∃ n ∈ l', Member n (f a))
    (h : minimizeSubnets rt l = .ok out) (h' : minimizeSubnets rt' l' = .ok out') :
    ∃ ms, Pointwise (Renamed f) out ms ∧ out'.Perm ms :=
  greatest_lists hf (P := fun a => ∃ n ∈ l, Member n a) (Q := fun a => ∃ n ∈ l', Member n a) hl (C44_sorted rt l out (fun n hn => (hc n hn).elim fun _ h => h.1) h).2.1
    (C44_sorted rt' l' out' (fun n hn => (hc' n hn).elim fun _ h => h.1) h').2.1 (C105_cidr_greatest rt l out hc h)
    (C105_cidr_greatest rt' l' out' hc' h')

/-- In particular for a list of renamed networks. -/
theorem C116_minimize_networks (rt rt' : Runtime) (f : A → A) (hf : KeepsPrefixes f) (l l' out out' : List (Net A))
    (hc : ∀ n ∈ l, ∃ p, IsCidr p n) (hc' : ∀ n ∈ l', ∃ p, IsCidr p n) (hl : Pointwise (Renamed f) l l')
    (h : minimizeSubnets rt l = .ok out) (h' : minimizeSubnets rt' l' = .ok out') :
    ∃ ms, Pointwise (Renamed f) out ms ∧ out'.Perm ms := by
  refine C116_minimize rt rt' f hf l l' out out' hc hc' (fun a => ⟨?_, ?_⟩) h h'
  · rintro ⟨n, hn, ha⟩
    obtain ⟨m, hm, hr⟩ := hl.mem n hn
    exact ⟨m, hm, (hr.member hf a).mpr ha⟩
  · rintro ⟨m, hm, ha⟩
    obtain ⟨n, hn, hr⟩ := (pointwise_symm (S := fun m n => Renamed f n m) (fun _ _ x => x) hl).mem m hm
    exact ⟨n, hn, (hr.member hf a).mp ha⟩

/-- The pieces of the renamed network are the renamed pieces, and a supernet of it is the renamed supernet. -/
theorem C116_resize (pr pr' : Profile) (f : A → A) (hf : KeepsPrefixes f) (n n' : Net A) (p q : Nat) (m : A) (ns ns' : List (Net A))
    (d d' : Ordering) (hn : IsCidr p n) (hn' : IsCidr p n') (hr : Renamed f n n') (hm : IsPrefixMask (width A) q (val m))
    (h : resizeNetwork pr n m = .ok (ns, d)) (h' : resizeNetwork pr' n' m = .ok (ns', d')) :
    d' = d ∧ ∃ ms, Pointwise (Renamed f) ns ms ∧ ns'.Perm ms := by
  rcases Nat.lt_trichotomy p q with hpq | rfl | hpq
  · obtain ⟨os, o1, -, o3, -, o5, o6⟩ := C48_subnets pr n m p q hn hm hpq
    obtain ⟨os', q1, -, q3, -, q5, q6⟩ := C48_subnets pr' n' m p q hn' hm hpq
    rw [h] at o1
    rw [h'] at q1
    cases o1
    cases q1
    refine ⟨rfl, ?_⟩
    have nd : ∀ {l : List (Net A)}, l.Pairwise Disjoint → l.Nodup := fun hl =>
      hl.imp (S := (· ≠ ·)) fun hd e => hd _ ⟨base_member _, e ▸ base_member _⟩
    -- the pieces are the networks of this prefix length inside the network
    have chr : ∀ {n : Net A} {ns : List (Net A)}, IsCidr p n → (∀ o ∈ ns, IsCidr q o) → Covers ns (Member n) → ∀ o, o ∈ ns ↔ IsCidr q o ∧ Includes n o := by
      intro n ns hn hs hcov o
      refine ⟨fun ho => ⟨hs o ho, fun a ha => (hcov a).mp ⟨o, ho, ha⟩⟩, fun ⟨h1, h2⟩ => ?_⟩
      obtain ⟨o', ho', ha⟩ := (hcov o.baseAddr).mpr (h2 _ (base_member o))
      have e := cidr_subset h1 (hs o' ho') (Nat.le_refl q) (base_member o) ha
      have e' := cidr_subset (hs o' ho') h1 (Nat.le_refl q) ha (base_member o)
      rwa [includes_antisymm h1.1 (hs o' ho').1 e' e]
    have c1 := chr hn o3 o6
    have c2 := chr hn' q3 q6
    obtain ⟨ms, hms⟩ := exists_pointwise (R := fun n m => IsCidr q n ∧ IsCidr q m ∧ Renamed f n m) (l := ns) fun o ho => by
      obtain ⟨m, m1, m2, -⟩ := C116_network f hf o q (o3 o ho)
      exact ⟨m, o3 o ho, m1, m2⟩
    refine ⟨ms, hms.imp fun _ _ _ hr => hr.2.2, ?_⟩
    have ndm : ms.Nodup := by
      refine pointwise_pairwise (S := (· ≠ ·)) (T := (· ≠ ·)) (fun a b a' b' ha hb hne e => hne ?_) hms (nd o5)
      subst e
      exact Renamed.unique_left hf ha.1.1 hb.1.1 ha.2.2 hb.2.2
    rw [List.perm_ext_iff_of_nodup (nd q5) ndm]
    intro x
    constructor
    · intro hx
      obtain ⟨g, hg, fg, gf⟩ := hf.back
      obtain ⟨y, y1, y2, -⟩ := C116_network g hg x q (q3 x hx)
      have y3 := renamed_back fg y2
      obtain ⟨x', hx', -, z1, z2⟩ := hms.mem y ((c1 y).mpr ⟨y1, (hr.includes hf y3).mpr ((c2 x).mp hx).2⟩)
      rwa [includes_antisymm (q3 x hx).1 z1.1 (fun a ha => (z2.same y3 a).mp ha) fun a ha => (z2.same y3 a).mpr ha]
    · intro hx
      obtain ⟨y, hy, -, z1, z2⟩ :=
        (pointwise_symm (S := fun m n => IsCidr q n ∧ IsCidr q m ∧ Renamed f n m) (fun _ _ x => x) hms).mem x hx
      exact (c2 x).mpr ⟨z1, (hr.includes hf z2).mp ((c1 y).mp hy).2⟩
  · rw [C49_same pr n m p hn hm] at h
    rw [C49_same pr' n' m p hn' hm] at h'
    cases h
    cases h'
    exact ⟨rfl, [n'], .cons hr .nil, .refl _⟩
  · obtain ⟨o, o1, o2, o3, -⟩ := C49_supernet pr n m p q hn hm hpq
    obtain ⟨o', q1, -, -, q4⟩ := C49_supernet pr' n' m p q hn' hm hpq
    rw [h] at o1
    rw [h'] at q1
    cases o1
    cases q1
    obtain ⟨x, x1, x2, -⟩ := C116_network f hf o q o2
    have := q4 x x1 ((x2.includes hf hr).mp o3)
    subst this
    exact ⟨rfl, [x], .cons x2 .nil, .refl _⟩

/-- The addresses listed for the renamed network are the renamed addresses. -/
theorem C116_enumerate (pr pr' : Profile) (f : A → A) (hf : KeepsPrefixes f) (n n' : Net A) (hn : WF n) (hn' : WF n') (hr : Renamed f n n')
    (xs ys : List A) (h : enumerateNet pr n = .ok xs) (h' : enumerateNet pr' n' = .ok ys) : ys.Perm (xs.map f) := by
  obtain ⟨xs', a1, a2, a3, -⟩ := C37_enumerate pr n hn
  obtain ⟨ys', b1, b2, b3, -⟩ := C37_enumerate pr' n' hn'
  rw [h] at a1
  rw [h'] at b1
  cases a1
  cases b1
  have nd : ∀ {l : List A}, l.Pairwise (fun a b => val a < val b) → l.Nodup := fun hl =>
    hl.imp (S := (· ≠ ·)) fun hd e => Nat.lt_irrefl _ (e ▸ hd)
  rw [List.perm_ext_iff_of_nodup (nd b3) (List.pairwise_map.mpr ((nd a3).imp fun hne e => hne (hf.inj e)))]
  intro a
  rw [b2, hr a, List.mem_map]
  simp only [a2]

/-- The networks for a range which consists of the renamed addresses of another are its renamed networks. -/
theorem C116_range (pr pr' : Profile) (f : A → A) (hf : KeepsPrefixes f) (a b a' b' : A) (ns ns' : List (Net A))
    (hab : ∀ x, Between a b x ↔ Between a' b' (f x)) (h : rangeToSubnets pr a b = .ok ns) (h' : rangeToSubnets pr' a' b' = .ok ns') :
    ∃ ms, Pointwise (Renamed f) ns ms ∧ ns'.Perm ms := by
  have nd : ∀ {pr : Profile} {a b : A} {ns : List (Net A)}, rangeToSubnets pr a b = .ok ns → ns.Nodup := by
    intro pr a b ns h
    obtain ⟨os, o1, -, -, o2, -⟩ := C39_range_partial pr a b ((C39_returns_iff pr a b).mp ⟨ns, h⟩)
    rw [h] at o1
    cases o1
    exact o2.imp (S := (· ≠ ·)) fun hd e => hd _ ⟨base_member _, e ▸ base_member _⟩
  exact greatest_lists hf hab (nd h) (nd h') (C105_range_greatest pr a b ns h) (C105_range_greatest pr' a' b' ns' h')

/-- Changing fixed bits of all addresses is such a renaming. -/
theorem C116_xor (c : A) : KeepsPrefixes fun a : A => IpAddr.xor a c := by
  intro a b k
  simp only [val_xor, ← Nat.shiftRight_eq_div_pow, Nat.shiftRight_xor_distrib]
  refine ⟨fun h => by rw [h], fun h => ?_⟩
  have := congrArg (· ^^^ (val c >>> k)) h
  simpa only [Nat.xor_assoc, Nat.xor_self, Nat.xor_zero] using this

/-- So is exchanging zeros and ones, which puts the addresses into the opposite order. -/
theorem C116_mirror : KeepsPrefixes (IpAddr.negate : A → A) ∧ ∀ a b : A, val a < val b ↔ val (IpAddr.negate b) < val (IpAddr.negate a) := by
  obtain ⟨c, hc⟩ := val_surj (A := A) (2 ^ width A - 1) (by have := Nat.two_pow_pos (width A); omega)
  have : (IpAddr.negate : A → A) = fun a => IpAddr.xor a c := funext fun a => val_inj _ _ (by rw [val_negate, val_xor, hc, nat_ones_xor (val_lt a)])
  refine ⟨this ▸ C116_xor c, fun a b => ?_⟩
  rw [val_negate, val_negate]
  have := val_lt a
  have := val_lt b
  omega

/-- The list for the mirrored range is the mirrored list, read from the end. -/
theorem C116_mirror_range (pr pr' : Profile) (a b : A) (ns ns' : List (Net A)) (h : rangeToSubnets pr a b = .ok ns)
    (h' : rangeToSubnets pr' (IpAddr.negate a) (IpAddr.negate b) = .ok ns') : Pointwise (Renamed IpAddr.negate) ns.reverse ns' := by
  obtain ⟨hk, hord⟩ := C116_mirror (A := A)
  have hab : ∀ x, Between a b x ↔ Between (IpAddr.negate a) (IpAddr.negate b) (IpAddr.negate x) := fun x => by
    simp only [between_iff, val_negate]
    have := val_lt a
    have := val_lt b
    have := val_lt x
    omega
  obtain ⟨ms, m1, m2⟩ := C116_range pr pr' _ hk a b _ _ ns ns' hab h h'
  have below : ∀ {pr : Profile} {a b : A} {ns : List (Net A)}, rangeToSubnets pr a b = .ok ns → ns.Pairwise Below := by
    intro pr a b ns h
    obtain ⟨os, o1, -, o2, -⟩ := C39_range_partial pr a b ((C39_returns_iff pr a b).mp ⟨ns, h⟩)
    rw [h] at o1
    cases o1
    exact o2
  have rev : ∀ {l : List (Net A)} {l' : List (Net A)}, Pointwise (Renamed IpAddr.negate) l l' → Pointwise (Renamed IpAddr.negate) l.reverse l'.reverse := by
    intro l l' h
    induction h with
    | nil => exact .nil
    | cons hr _ ih =>
      rw [List.reverse_cons, List.reverse_cons]
      exact ih.append (.cons hr .nil)
  have hb : ms.reverse.Pairwise Below := by
    rw [List.pairwise_reverse]
    refine pointwise_pairwise (S := Below) (T := fun x y => Below y x) (fun x y x' y' hx hy hxy u v hu hv => ?_) m1 (below h)
    obtain ⟨u', hu', rfl⟩ := (hy u).mp hu
    obtain ⟨v', hv', rfl⟩ := (hx v).mp hv
    exact (hord _ _).mp (hxy _ _ hv' hu')
  have e : ns' = ms.reverse := by
    refine (m2.trans (List.reverse_perm ms).symm).eq_of_pairwise (le := fun a b => Below a b) (fun x y _ _ h1 h2 => ?_) (below h') hb
    exact absurd (h1 _ _ (base_member x) (base_member y)) (Nat.not_lt.mpr (Nat.le_of_lt (h2 _ _ (base_member y) (base_member x))))
  rw [e]
  exact rev m1

end generic

theorem C116_network_families : (type_of% (@C116_network V4 _ _ _)) ∧ (type_of% (@C116_network V6 _ _ _)) :=
  ⟨@C116_network V4 _ _ _, @C116_network V6 _ _ _⟩

theorem C116_only_families : (type_of% (@C116_only V4 _ _ _)) ∧ (type_of% (@C116_only V6 _ _ _)) :=
  ⟨@C116_only V4 _ _ _, @C116_only V6 _ _ _⟩

theorem C116_relations_families : (type_of% (@C116_relations V4 _ _ _)) ∧ (type_of% (@C116_relations V6 _ _ _)) :=
  ⟨@C116_relations V4 _ _ _, @C116_relations V6 _ _ _⟩

theorem C116_minimize_families : (type_of% (@C116_minimize V4 _ _ _)) ∧ (type_of% (@C116_minimize V6 _ _ _)) :=
  ⟨@C116_minimize V4 _ _ _, @C116_minimize V6 _ _ _⟩

theorem C116_minimize_networks_families : (type_of% (@C116_minimize_networks V4 _ _ _)) ∧ (type_of% (@C116_minimize_networks V6 _ _ _)) :=
  ⟨@C116_minimize_networks V4 _ _ _, @C116_minimize_networks V6 _ _ _⟩

theorem C116_resize_families : (type_of% (@C116_resize V4 _ _ _)) ∧ (type_of% (@C116_resize V6 _ _ _)) :=
  ⟨@C116_resize V4 _ _ _, @C116_resize V6 _ _ _⟩

theorem C116_enumerate_families : (type_of% (@C116_enumerate V4 _ _ _)) ∧ (type_of% (@C116_enumerate V6 _ _ _)) :=
  ⟨@C116_enumerate V4 _ _ _, @C116_enumerate V6 _ _ _⟩

theorem C116_range_families : (type_of% (@C116_range V4 _ _ _)) ∧ (type_of% (@C116_range V6 _ _ _)) :=
  ⟨@C116_range V4 _ _ _, @C116_range V6 _ _ _⟩

theorem C116_xor_families : (type_of% (@C116_xor V4 _ _ _)) ∧ (type_of% (@C116_xor V6 _ _ _)) :=
  ⟨@C116_xor V4 _ _ _, @C116_xor V6 _ _ _⟩

theorem C116_mirror_families : (type_of% (@C116_mirror V4 _ _ _)) ∧ (type_of% (@C116_mirror V6 _ _ _)) :=
  ⟨@C116_mirror V4 _ _ _, @C116_mirror V6 _ _ _⟩

theorem C116_mirror_range_families : (type_of% (@C116_mirror_range V4 _ _ _)) ∧ (type_of% (@C116_mirror_range V6 _ _ _)) :=
  ⟨@C116_mirror_range V4 _ _ _, @C116_mirror_range V6 _ _ _⟩

/-- A renaming that is not of this kind: in the lower half of the address space the last bit is changed. -/
example : ∃ f : V4 → V4, KeepsPrefixes f ∧ f ⟨0#32⟩ = ⟨1#32⟩ ∧ f ⟨0x80000000#32⟩ = ⟨0x80000000#32⟩ := by
  refine ⟨fun a => if val a < 2 ^ 31 then IpAddr.xor a ⟨1#32⟩ else a, fun a b k => ?_, rfl, rfl⟩
  have hx : ∀ c : V4, val c < 2 ^ 31 → val (IpAddr.xor c (⟨1#32⟩ : V4)) < 2 ^ 31 := fun c hc => by
    rw [val_xor]
    exact Nat.xor_lt_two_pow hc (by decide)
  have hdiv : ∀ j, 32 ≤ j → ∀ c : V4, val c / 2 ^ j = 0 := fun j hj c =>
    Nat.div_eq_of_lt (Nat.lt_of_lt_of_le (val_lt c) (Nat.pow_le_pow_right (by decide) hj))
  have mixed : ∀ x y : Nat, x < 2 ^ 31 → 2 ^ 31 ≤ y → k < 32 → x / 2 ^ k ≠ y / 2 ^ k := by
    intro x y h1 h2 hk e
    have h3 : x / 2 ^ k < 2 ^ (31 - k) := by
      rw [Nat.div_lt_iff_lt_mul (Nat.two_pow_pos k), ← Nat.pow_add, show 31 - k + k = 31 by omega]
      exact h1
    have h4 : 2 ^ (31 - k) ≤ y / 2 ^ k := by
      rw [Nat.le_div_iff_mul_le (Nat.two_pow_pos k), ← Nat.pow_add, show 31 - k + k = 31 by omega]
      exact h2
    omega
  by_cases hk : 32 ≤ k
  · simp only [hdiv k hk]
  · by_cases ha : val a < 2 ^ 31 <;> by_cases hb : val b < 2 ^ 31 <;> simp only [ha, hb, if_true, if_false]
    · exact C116_xor (⟨1#32⟩ : V4) a b k
    · have h1 := mixed _ _ ha (Nat.le_of_not_lt hb) (by omega)
      have h2 := mixed _ _ (hx a ha) (Nat.le_of_not_lt hb) (by omega)
      exact ⟨fun h => absurd h h1, fun h => absurd h h2⟩
    · have h1 := mixed _ _ hb (Nat.le_of_not_lt ha) (by omega)
      have h2 := mixed _ _ (hx b hb) (Nat.le_of_not_lt ha) (by omega)
      exact ⟨fun h => absurd h.symm h1, fun h => absurd h.symm h2⟩

/-- The networks of 10.0.0.3 to 10.0.0.17, and those of the mirrored range from the end. -/
example (pr : Profile) : ∃ ns ns', rangeToSubnets pr (⟨0x0A000003#32⟩ : V4) ⟨0x0A000011#32⟩ = .ok ns ∧
    rangeToSubnets pr (⟨0xF5FFFFFC#32⟩ : V4) ⟨0xF5FFFFEE#32⟩ = .ok ns' ∧ Pointwise (Renamed IpAddr.negate) ns.reverse ns' := by
  obtain ⟨ns, h⟩ := (C39_returns_iff pr (⟨0x0A000003#32⟩ : V4) ⟨0x0A000011#32⟩).mpr fun x hx => by
    rw [between_iff] at hx
    have h1 : val (⟨0x0A000003#32⟩ : V4) = 0x0A000003 := rfl
    have h2 : val (⟨0x0A000011#32⟩ : V4) = 0x0A000011 := rfl
    have h3 : 2 ^ width V4 = 4294967296 := rfl
    omega
  obtain ⟨ns', h'⟩ := (C39_returns_iff pr (⟨0xF5FFFFFC#32⟩ : V4) ⟨0xF5FFFFEE#32⟩).mpr fun x hx => by
    rw [between_iff] at hx
    have h1 : val (⟨0xF5FFFFFC#32⟩ : V4) = 0xF5FFFFFC := rfl
    have h2 : val (⟨0xF5FFFFEE#32⟩ : V4) = 0xF5FFFFEE := rfl
    have h3 : 2 ^ width V4 = 4294967296 := rfl
    omega
  exact ⟨ns, ns', h, h', C116_mirror_range pr pr _ _ ns ns' h h'⟩

/-- Three networks that become one, and what becomes of them with another second byte. -/
example : ∃ out out' : List (Net V4),
    minimizeSubnets (evalRuntime .checked true) [mk4 0x0A000080#32 0xFFFFFF80#32, mk4 0x0A000100#32 0xFFFFFF00#32, mk4 0x0A000000#32 0xFFFFFF80#32] = .ok out ∧
    minimizeSubnets (evalRuntime .checked true) [mk4 0x0AFF0080#32 0xFFFFFF80#32, mk4 0x0AFF0100#32 0xFFFFFF00#32, mk4 0x0AFF0000#32 0xFFFFFF80#32] = .ok out' ∧
    ∃ ms, Pointwise (Renamed fun a => IpAddr.xor a ⟨0x00FF0000#32⟩) out ms ∧ out'.Perm ms := by
  have h := minimize_of_fuel 5 3 (evalRuntime .checked true) [mk4 0x0A000080#32 0xFFFFFF80#32, mk4 0x0A000100#32 0xFFFFFF00#32, mk4 0x0A000000#32 0xFFFFFF80#32] [mk4 0x0A000000#32 0xFFFFFE00#32] [mk4 0x0A000000#32 0xFFFFFE00#32] (by decide +kernel) (by decide +kernel)
  have h' := minimize_of_fuel 5 3 (evalRuntime .checked true) [mk4 0x0AFF0080#32 0xFFFFFF80#32, mk4 0x0AFF0100#32 0xFFFFFF00#32, mk4 0x0AFF0000#32 0xFFFFFF80#32] [mk4 0x0AFF0000#32 0xFFFFFE00#32] [mk4 0x0AFF0000#32 0xFFFFFE00#32] (by decide +kernel) (by decide +kernel)
  have c : ∀ x : V4, IsCidr 25 (mk4 x.addrValue 0xFFFFFF80#32) ∧ IsCidr 24 (mk4 x.addrValue 0xFFFFFF00#32) := fun x =>
    ⟨⟨newWithMask_wf _ _, rfl⟩, ⟨newWithMask_wf _ _, rfl⟩⟩
  have r : ∀ (p : Nat) (a b m : V4), IsCidr p (Net.newWithMask a m) → Net.newWithPrefix (IpAddr.xor a ⟨0x00FF0000#32⟩) p = .ok (Net.newWithMask b m) →
      Renamed (fun a => IpAddr.xor a ⟨0x00FF0000#32⟩) (Net.newWithMask a m) (Net.newWithMask b m) := by
    intro p a b m hp he
    obtain ⟨o, -, h2, h3, -⟩ := C116_network _ (C116_xor (⟨0x00FF0000#32⟩ : V4)) _ p hp
    have := h3 a (C20_new_with_mask a m).2.2.1
    rw [he] at this
    cases this
    exact h2
  refine ⟨_, _, h, h', C116_minimize_networks _ _ _ (C116_xor _) _ _ _ _ ?_ ?_ (.cons ?_ (.cons ?_ (.cons ?_ .nil))) h h'⟩
  · intro n hn
    simp only [List.mem_cons, List.not_mem_nil, or_false] at hn
    rcases hn with rfl | rfl | rfl
    · exact ⟨25, (c ⟨0x0A000080#32⟩).1⟩
    · exact ⟨24, (c ⟨0x0A000100#32⟩).2⟩
    · exact ⟨25, (c ⟨0x0A000000#32⟩).1⟩
  · intro n hn
    simp only [List.mem_cons, List.not_mem_nil, or_false] at hn
    rcases hn with rfl | rfl | rfl
    · exact ⟨25, (c ⟨0x0AFF0080#32⟩).1⟩
    · exact ⟨24, (c ⟨0x0AFF0100#32⟩).2⟩
    · exact ⟨25, (c ⟨0x0AFF0000#32⟩).1⟩
  · exact r 25 _ _ _ (c ⟨0x0A000080#32⟩).1 rfl
  · exact r 24 _ _ _ (c ⟨0x0A000100#32⟩).2 rfl
  · exact r 25 _ _ _ (c ⟨0x0A000000#32⟩).1 rfl

end Ripcalc
