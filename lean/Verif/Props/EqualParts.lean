import Verif.Props.Split
import Verif.Props.Compose
import Verif.Props.Added
/-!
# C124: splitting into equal parts
-/
namespace Ripcalc
open AddrSpec LawfulIpAddr

/-- A sorted list whose elements are all in another one, with everything of it that comes before them, is its beginning. -/
theorem beginning_of_sorted {α : Type} {R : α → α → Prop} (asym : ∀ x y, R x y → ¬ R y x) :
    ∀ (l' l : List α), l.Pairwise R → l'.Pairwise R → (∀ x ∈ l, x ∈ l') → (∀ y ∈ l', ∀ x ∈ l, R y x → y ∈ l) → l = l'.take l.length
  | [], l, _, _, hsub, _ => by
    cases l with
    | nil => rfl
    | cons a t => cases hsub a (by simp)
  | x :: t', [], _, _, _, _ => rfl
  | x :: t', a :: t, hl, hl', hsub, hdown => by
    rw [List.pairwise_cons] at hl hl'
    have irr : ∀ y, ¬ R y y := fun y h => asym y y h h
    have hax : a = x := by
      rcases List.mem_cons.mp (hsub a (by simp)) with h | h
      · exact h
      · have hx := hl'.1 a h
        rcases List.mem_cons.mp (hdown x (by simp) a (by simp) hx) with h' | h'
        · exact h'.symm
        · exact absurd (hl.1 x h') (asym _ _ hx)
    subst hax
    have ih := beginning_of_sorted asym t' t hl.2 hl'.2
      (fun y hy => (List.mem_cons.mp (hsub y (by simp [hy]))).resolve_left fun e => irr a (by have := hl.1 y hy; rwa [e] at this))
      (fun y hy z hz hyz => (List.mem_cons.mp (hdown y (by simp [hy]) z (by simp [hz]) hyz)).resolve_left
        fun e => irr a (by have := hl'.1 y hy; rwa [e] at this))
    rw [List.length_cons, List.take_succ_cons, ← ih]

section generic
variable {A : Type} [IpAddr A] [AddrSpec A] [LawfulIpAddr A]

theorem sum_equal {es : List Nat} {e : Nat} (h : ∀ x ∈ es, x = e) : (es.map (fun e => 2 ^ e)).sum = es.length * 2 ^ e := by
  induction es with
  | nil => simp
  | cons a t ih =>
    rw [List.map_cons, List.sum_cons, ih fun x hx => h x (by simp [hx]), h a (by simp), List.length_cons, Nat.succ_mul, Nat.add_comm]

theorem pointwise_replicate {cs : List Int} {e : Nat} (h : ∀ c ∈ cs, HostBitsFor c e) : Pointwise HostBitsFor cs (List.replicate cs.length e) := by
  induction cs with
  | nil => exact .nil
  | cons c t ih => exact .cons (h c (by simp)) (ih fun x hx => h x (by simp [hx]))

theorem hostBits_inj {c : Int} {e e' : Nat} (h : HostBitsFor c e) (h' : HostBitsFor c e') : e = e' :=
  Nat.le_antisymm (h.2 _ h'.1) (h'.2 _ h.1)

omit [IpAddr A] [LawfulIpAddr A] in
theorem below_asymm {n o : Net A} (h : Below n o) : ¬ Below o n := fun h' => by
  have h1 := h _ _ (base_member n) (base_member o)
  have h2 := h' _ _ (base_member o) (base_member n)
  omega

theorem parts_sum {p q w : Nat} (hpq : p ≤ q) (hq : q ≤ w) : 2 ^ (q - p) * 2 ^ (w - q) = 2 ^ (w - p) := by
  rw [← Nat.pow_add]; congr 1; omega

/-- Requests that all need networks of one size, and fit: splitting gives the first pieces, as many as there are requests, of resizing to
that size (which of them goes to which request is not determined). -/
theorem C124_equal (rt : Runtime) (pr : Profile) (n : Net A) (p q : Nat) (hn : IsCidr p n) (m : A) (hm : IsPrefixMask (width A) q (val m))
    (hpq : p < q) (hcs : List Int) (hsz : ∀ c ∈ hcs, HostBitsFor c (width A - q)) (hne : hcs ≠ []) (hk : hcs.length ≤ 2 ^ (q - p))
    (htop : val n.baseAddr + hcs.length * 2 ^ (width A - q) ≠ 2 ^ width A) :
    ∃ ns parts, splitSubnet rt n hcs = .ok (some ns) ∧ resizeNetwork pr n m = .ok (parts, .gt) ∧ ns.Perm (parts.take hcs.length) := by
  have hq := hm.1
  have hes := pointwise_replicate hsz
  have hsum : ((List.replicate hcs.length (width A - q)).map (fun e => 2 ^ e)).sum = hcs.length * 2 ^ (width A - q) := by
    rw [sum_equal (e := width A - q) fun x hx => List.eq_of_mem_replicate hx, List.length_replicate]
  obtain ⟨ns, hs, hin⟩ := C54_fits_partial rt n p hn hcs _ hes
    (by rw [hsum, ← parts_sum (Nat.le_of_lt hpq) hq]; exact Nat.mul_le_mul_right _ hk) (by rw [hsum]; exact htop)
  obtain ⟨parts, hr, hlen, hcid, hbel, -, hcov⟩ := C48_subnets pr n m p q hn hm hpq
  refine ⟨ns, parts, hs, hr, ?_⟩
  obtain ⟨r, hr', hreq⟩ := C51_requests rt n hcs
  rw [hs] at hr'
  obtain ⟨hl, hget⟩ := hreq ns (Exec.ok.inj hr').symm
  have hall : ∀ x ∈ ns, IsCidr q x := by
    intro x hx
    obtain ⟨i, hi, rfl⟩ := List.getElem_of_mem hx
    obtain ⟨q', hq', hb⟩ := hget i hcs[i] ns[i] (List.getElem?_eq_getElem (by omega)) (List.getElem?_eq_getElem hi)
    have := hostBits_inj hb (hsz _ (List.getElem_mem _))
    have hle := cidr_le hq'
    rwa [show q' = q by omega] at hq'
  obtain ⟨ms, b, e, hperm, ht, -, hfirst, -⟩ := C52_layout rt n hcs ns hs hne
  have hmall : ∀ x ∈ ms, IsCidr q x := fun x hx => hall x (hperm.mem_iff.mp hx)
  have hsub : ∀ x ∈ ms, x ∈ parts := by
    intro x hx
    have hb : Member n x.baseAddr := hin x (hperm.mem_iff.mp hx) _ (base_member x)
    obtain ⟨o, ho, hm'⟩ := (hcov x.baseAddr).mpr hb
    have h1 := cidr_subset (hmall x hx) (hcid o ho) (Nat.le_refl q) (base_member x) hm'
    have h2 := cidr_subset (hcid o ho) (hmall x hx) (Nat.le_refl q) hm' (base_member x)
    rwa [includes_antisymm (hmall x hx).1 (hcid o ho).1 h2 h1]
  have hbb : b ≤ val n.baseAddr := by
    cases ms with
    | nil => have := hperm.length_eq; simp at this; rw [hl] at this; exact absurd (List.length_eq_zero_iff.mp this.symm) hne
    | cons x ms' => exact (hfirst x ms' rfl q (hmall x (by simp))).1
  have hdown : ∀ y ∈ parts, ∀ x ∈ ms, Below y x → y ∈ ms := by
    intro y hy x hx hyx
    have h1 := member_ge_base hn.1.hz ((hcov y.baseAddr).mp ⟨y, hy, base_member y⟩)
    have h2 := hyx _ _ (base_member y) (base_member x)
    have h3 := (ht.covers x.baseAddr).mp ⟨x, hx, base_member x⟩
    obtain ⟨z, hz, hm'⟩ := (ht.covers y.baseAddr).mpr ⟨by omega, by omega⟩
    have h4 := cidr_subset (hcid y hy) (hmall z hz) (Nat.le_refl q) (base_member y) hm'
    have h5 := cidr_subset (hmall z hz) (hcid y hy) (Nat.le_refl q) hm' (base_member y)
    rwa [includes_antisymm (hcid y hy).1 (hmall z hz).1 h5 h4]
  have heq := beginning_of_sorted (R := Below) (fun _ _ => below_asymm) parts ms ht.pairwise_below hbel hsub hdown
  rw [hperm.length_eq, hl] at heq
  rw [← heq]
  exact hperm.symm

/-- As many such requests as there are pieces: exactly the pieces. -/
theorem C124_all (rt : Runtime) (pr : Profile) (n : Net A) (p q : Nat) (hn : IsCidr p n) (m : A) (hm : IsPrefixMask (width A) q (val m))
    (hpq : p < q) (hcs : List Int) (hsz : ∀ c ∈ hcs, HostBitsFor c (width A - q)) (hk : hcs.length = 2 ^ (q - p))
    (htop : val n.baseAddr + 2 ^ (width A - p) ≠ 2 ^ width A) :
    ∃ ns parts, splitSubnet rt n hcs = .ok (some ns) ∧ resizeNetwork pr n m = .ok (parts, .gt) ∧ ns.Perm parts := by
  have hpos : 0 < 2 ^ (q - p) := Nat.two_pow_pos _
  obtain ⟨ns, parts, h1, h2, h3⟩ := C124_equal rt pr n p q hn m hm hpq hcs hsz (by rintro rfl; simp at hk; omega) (by omega)
    (by rw [hk, parts_sum (Nat.le_of_lt hpq) hm.1]; exact htop)
  obtain ⟨parts', hr, hlen, -⟩ := C48_subnets pr n m p q hn hm hpq
  rw [h2] at hr
  obtain rfl : parts = parts' := by have := Exec.ok.inj hr; simpa using this
  rw [List.take_of_length_le (by omega)] at h3
  exact ⟨ns, parts, h1, h2, h3⟩

/-- At the end of the address space the two differ: all pieces are refused by splitting but yielded by resizing. -/
theorem C124_top (rt : Runtime) (pr : Profile) (n : Net A) (p q : Nat) (hn : IsCidr p n) (m : A) (hm : IsPrefixMask (width A) q (val m))
    (hpq : p < q) (hcs : List Int) (hsz : ∀ c ∈ hcs, HostBitsFor c (width A - q)) (hk : hcs.length = 2 ^ (q - p))
    (htop : val n.baseAddr + 2 ^ (width A - p) = 2 ^ width A) :
    splitSubnet rt n hcs = .ok none ∧ ∃ parts, resizeNetwork pr n m = .ok (parts, .gt) ∧ parts.length = hcs.length := by
  have hsum : ((List.replicate hcs.length (width A - q)).map (fun e => 2 ^ e)).sum = 2 ^ (width A - p) := by
    rw [sum_equal (e := width A - q) fun x hx => List.eq_of_mem_replicate hx, List.length_replicate, hk, parts_sum (Nat.le_of_lt hpq) hm.1]
  refine ⟨C54_top_fails rt n p hn hcs _ (pointwise_replicate hsz) (by rw [hsum]; exact Nat.le_refl _) (by rw [hsum]; exact htop), ?_⟩
  obtain ⟨parts, hr, hlen, -⟩ := C48_subnets pr n m p q hn hm hpq
  exact ⟨parts, hr, by omega⟩

/-- Whatever the requests: every network that a split yields inside a CIDR network is the network, or one of the pieces of resizing the
network to its mask; resizing it to the mask of the network gives the network back. -/
theorem C124_each (rt : Runtime) (pr : Profile) (n : Net A) (p : Nat) (hn : IsCidr p n) (hcs : List Int) (ns : List (Net A))
    (h : splitSubnet rt n hcs = .ok (some ns)) (x : Net A) (hx : x ∈ ns) (hin : Includes n x) :
    ∃ parts o, resizeNetwork pr n x.subnetMask = .ok (parts, o) ∧ x ∈ parts ∧
      (x = n ∨ (o = .gt ∧ resizeNetwork pr x n.subnetMask = .ok ([n], .lt))) := by
  obtain ⟨r, hr', hreq⟩ := C51_requests rt n hcs
  rw [h] at hr'
  obtain ⟨hl, hget⟩ := hreq ns (Exec.ok.inj hr').symm
  obtain ⟨i, hi, rfl⟩ := List.getElem_of_mem hx
  obtain ⟨q, hq, -⟩ := hget i hcs[i] ns[i] (List.getElem?_eq_getElem (by omega)) (List.getElem?_eq_getElem hi)
  generalize ns[i] = x at *
  have hpq := cidr_prefix_le hq hn hin
  have hm := (hq.1.prefix_iff q).mp hq.2
  rcases Nat.lt_or_eq_of_le hpq with hlt | rfl
  · obtain ⟨parts, hr, hlen, hcid, hbel, -, hcov⟩ := C48_subnets pr n x.subnetMask p q hn hm hlt
    obtain ⟨o, ho, hm'⟩ := (hcov x.baseAddr).mpr (hin _ (base_member x))
    have h1 := cidr_subset hq (hcid o ho) (Nat.le_refl q) (base_member x) hm'
    have h2 := cidr_subset (hcid o ho) hq (Nat.le_refl q) hm' (base_member x)
    obtain rfl := includes_antisymm hq.1 (hcid o ho).1 h2 h1
    exact ⟨parts, .gt, hr, ho, .inr ⟨rfl, C85_resize_back pr n _ p q hn hm hlt parts _ hr _ ho⟩⟩
  · have h2 := cidr_subset hn hq (Nat.le_refl p) (hin _ (base_member x)) (base_member x)
    obtain rfl := includes_antisymm hn.1 hq.1 hin h2
    exact ⟨[n], .eq, C49_same pr n _ p hn hm, by simp, .inl rfl⟩

end generic

theorem C124_equal_families : (type_of% (@C124_equal V4 _ _ _)) ∧ (type_of% (@C124_equal V6 _ _ _)) := ⟨@C124_equal V4 _ _ _, @C124_equal V6 _ _ _⟩

theorem C124_all_families : (type_of% (@C124_all V4 _ _ _)) ∧ (type_of% (@C124_all V6 _ _ _)) := ⟨@C124_all V4 _ _ _, @C124_all V6 _ _ _⟩

theorem C124_top_families : (type_of% (@C124_top V4 _ _ _)) ∧ (type_of% (@C124_top V6 _ _ _)) := ⟨@C124_top V4 _ _ _, @C124_top V6 _ _ _⟩

theorem C124_each_families : (type_of% (@C124_each V4 _ _ _)) ∧ (type_of% (@C124_each V6 _ _ _)) := ⟨@C124_each V4 _ _ _, @C124_each V6 _ _ _⟩

/-! ## Non-vacuity -/

/-- Three times sixty hosts in 192.0.2.0/24: three of the four pieces of resizing to /26. -/
example (rt : Runtime) (pr : Profile) :
    ∃ ns parts, splitSubnet rt (net24 0xC0000200#32) [60, 62, 31] = .ok (some ns) ∧
      resizeNetwork pr (net24 0xC0000200#32) (⟨0xFFFFFFC0#32⟩ : V4) = .ok (parts, .gt) ∧ ns.Perm (parts.take 3) := by
  have hp : parseNetspec "192.0.2.1/24".toList = .ok (.ok (.ipv4 ⟨0xC0000201#32⟩ (net24 0xC0000200#32))) := by decide +kernel
  have hn : IsCidr 24 (net24 0xC0000200#32) := ⟨(C33_parsed_good _ _ hp).2.1, rfl⟩
  refine C124_equal rt pr (net24 0xC0000200#32) 24 26 hn _ ⟨by decide, by decide +kernel⟩ (by decide) [60, 62, 31] ?_ (by simp) (by decide)
    (by decide +kernel)
  intro c hc
  have e : (width V4 - 26) = 6 := rfl
  rw [e]
  have : c = 60 ∨ c = 62 ∨ c = 31 := by simpa using hc
  rcases this with rfl | rfl | rfl <;> (rw [hostBitsFor_iff]; decide +kernel)

end Ripcalc
