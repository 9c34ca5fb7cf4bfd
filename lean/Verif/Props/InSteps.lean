import Verif.Props.Compose
/-!
# In several steps or at once
-/
set_option linter.unusedSectionVars false
namespace Ripcalc
open AddrSpec LawfulIpAddr

/-- Blocks of `k` numbers, one after the other. -/
theorem range'_blocks (k a c : Nat) : (List.range' a c).flatMap (fun y => List.range' (y * k) k) = List.range' (a * k) (c * k) := by
  induction c generalizing a with
  | zero => simp
  | succ c ih =>
    rw [List.range'_succ, List.flatMap_cons, ih, Nat.succ_mul c, Nat.add_comm (c * k) k, Nat.succ_mul]
    exact List.range'_append_1

theorem flatMap_same {α β : Type} {f g : α → List β} : ∀ {l : List α}, (∀ a ∈ l, f a = g a) → l.flatMap f = l.flatMap g
  | [], _ => rfl
  | a :: l, h => by
    rw [List.flatMap_cons, List.flatMap_cons, h a (by simp), flatMap_same fun a ha => h a (List.mem_cons_of_mem _ ha)]

section generic
variable {A : Type} [IpAddr A] [AddrSpec A] [LawfulIpAddr A]

/-- Resizing the network gives these networks. -/
def Resizes (pr : Profile) (n : Net A) (m : A) (ns : List (Net A)) : Prop := ∃ d, resizeNetwork pr n m = .ok (ns, d)

theorem resizes_iff {pr : Profile} {n : Net A} (hn : WF n) {m : A} {ns : List (Net A)} : Resizes pr n m ns ↔ ns = resizeNets n m := by
  unfold Resizes
  rw [resizeNetwork_spec pr hn.hz]
  constructor
  · rintro ⟨d, h⟩; cases h; rfl
  · rintro rfl; exact ⟨_, rfl⟩

/-- A network of a resize, resized again. -/
theorem resize_again {m m' : A} {y : Nat} (hy : y < 2 ^ netBits (maskNet m)) :
    resizeFirst (numNet m y) m' = y * 2 ^ hostBits (maskNet m) / 2 ^ hostBits (maskNet m') ∧
    resizeCount (numNet m y) m' = 2 ^ (hostBits (maskNet m) - hostBits (maskNet m')) := by
  have h := numNet_spec m hy
  have hb : hostBits (numNet m y) = hostBits (maskNet m) := hostBits_congr h.mask
  exact ⟨by rw [resizeFirst, h.num, hb], by rw [resizeCount, hb]⟩

theorem pow_apart {a b : Nat} (h : b ≤ a) : (2 : Nat) ^ a = 2 ^ (a - b) * 2 ^ b := by
  rw [← Nat.pow_add]; congr 1; omega

theorem scale_down {x a b : Nat} (h : b ≤ a) : x * 2 ^ a / 2 ^ b = x * 2 ^ (a - b) := by
  rw [pow_apart h, ← Nat.mul_assoc, Nat.mul_div_cancel _ (Nat.two_pow_pos _)]

theorem scale_up {x a b : Nat} (h : a ≤ b) : x * 2 ^ a / 2 ^ b = x / 2 ^ (b - a) := by
  rw [pow_apart h, Nat.mul_div_mul_right _ _ (Nat.two_pow_pos _)]

theorem pointwise_map {α β : Type} {R : α → β → Prop} {f : α → β} : ∀ {l : List α}, (∀ a ∈ l, R a (f a)) → Pointwise R l (l.map f)
  | [], _ => .nil
  | a :: l, h => .cons (h a (by simp)) (pointwise_map fun a ha => h a (List.mem_cons_of_mem _ ha))

/-- To smaller networks in two steps: the pieces of the pieces, in order, are the pieces. -/
theorem C103_smaller (pr pr' : Profile) (n : Net A) (m m' : A) (hn : WF n) (h1 : hostBitCount m ≤ hostBitCount n.subnetMask)
    (h2 : hostBitCount m' ≤ hostBitCount m) (ns : List (Net A)) (h : Resizes pr n m ns) :
    ∃ parts, Pointwise (fun x p => Resizes pr' x m' p) ns parts ∧ Resizes pr' n m' parts.flatten := by
  have e0 := hostBits_eq n
  have e1 : hostBits (maskNet m) = hostBitCount m := hostBits_eq (maskNet m)
  have e2 : hostBits (maskNet m') = hostBitCount m' := hostBits_eq (maskNet m')
  rw [← e0, ← e1] at h1
  rw [← e1, ← e2] at h2
  obtain rfl := (resizes_iff hn).mp h
  have hfc := resizeFirst_add_count (n := n) (m := m)
  have hy : ∀ y ∈ List.range' (resizeFirst n m) (resizeCount n m), y < 2 ^ netBits (maskNet m) := by
    intro y hy
    rw [List.mem_range'_1] at hy
    omega
  refine ⟨(resizeNets n m).map fun x => resizeNets x m', ?_, ?_⟩
  · refine pointwise_map fun x hx => ?_
    obtain ⟨k, -, hx⟩ := mem_resizeNets.mp hx
    exact (resizes_iff hx.wf).mpr rfl
  · rw [resizes_iff hn]
    have key : ∀ y ∈ List.range' (resizeFirst n m) (resizeCount n m), resizeNets (numNet m y) m' =
        (List.range' (y * 2 ^ (hostBits (maskNet m) - hostBits (maskNet m'))) (2 ^ (hostBits (maskNet m) - hostBits (maskNet m')))).map
          (numNet m') := by
      intro y h
      obtain ⟨k1, k2⟩ := resize_again (m' := m') (hy y h)
      rw [resizeNets, k1, k2, scale_down h2]
    rw [resizeNets, List.map_map, ← List.flatMap_def]
    show List.flatMap (fun y => resizeNets (numNet m y) m') _ = _
    rw [flatMap_same key, ← List.map_flatMap, range'_blocks, resizeNets]
    congr 2
    · rw [resizeFirst_smaller h1, resizeFirst_smaller (by omega), Nat.mul_assoc, ← Nat.pow_add]; congr 2; omega
    · rw [resizeCount, resizeCount, ← Nat.pow_add]; congr 1; omega

theorem single_of_le {x : Net A} {m : A} (h : hostBits x ≤ hostBits (maskNet m)) : resizeNets x m = [numNet m (resizeFirst x m)] := by
  rw [resizeNets, resizeCount, Nat.sub_eq_zero_of_le h]; rfl

/-- The numbers of networks of a resize, rescaled to a size that is larger than both. -/
theorem rescale {N hn h1 h2 k : Nat} (a : hn ≤ h2) (b : h1 ≤ h2) (hk : k < 2 ^ (hn - h1)) :
    (N * 2 ^ hn / 2 ^ h1 + k) * 2 ^ h1 / 2 ^ h2 = N * 2 ^ hn / 2 ^ h2 := by
  rw [scale_up b, scale_up a]
  rcases Nat.le_total hn h1 with c | c
  · rw [scale_up c]
    rw [Nat.sub_eq_zero_of_le c] at hk
    have : k = 0 := by omega
    subst this
    rw [Nat.add_zero, Nat.div_div_eq_div_mul, ← Nat.pow_add]
    congr 2; omega
  · rw [scale_down c, show h2 - h1 = (hn - h1) + (h2 - hn) by omega, Nat.pow_add, ← Nat.div_div_eq_div_mul]
    congr 1
    rw [Nat.mul_comm, Nat.mul_add_div (Nat.two_pow_pos _), Nat.div_eq_of_lt hk, Nat.add_zero]

/-- To a size at least that of the network and of the step in between: from every piece the same network results as at once. -/
theorem C103_larger (pr pr' : Profile) (n : Net A) (m m' : A) (hn : WF n) (h1 : hostBitCount n.subnetMask ≤ hostBitCount m')
    (h2 : hostBitCount m ≤ hostBitCount m') (ns : List (Net A)) (h : Resizes pr n m ns) :
    ∃ o, Resizes pr' n m' [o] ∧ ∀ x ∈ ns, Resizes pr' x m' [o] := by
  have e0 := hostBits_eq n
  have e1 : hostBits (maskNet m) = hostBitCount m := hostBits_eq (maskNet m)
  have e2 : hostBits (maskNet m') = hostBitCount m' := hostBits_eq (maskNet m')
  rw [← e0, ← e2] at h1
  rw [← e1, ← e2] at h2
  obtain rfl := (resizes_iff hn).mp h
  refine ⟨numNet m' (resizeFirst n m'), (resizes_iff hn).mpr (single_of_le h1).symm, fun x hx => ?_⟩
  obtain ⟨k, hk, hx⟩ := mem_resizeNets.mp hx
  have hb : hostBits x = hostBits (maskNet m) := hostBits_congr hx.mask
  rw [resizes_iff hx.wf, single_of_le (by omega)]
  congr 2
  rw [resizeFirst, resizeFirst, hx.num, hb, resizeFirst, rescale h1 h2 hk]

/-- To a size between those of the pieces and the network: from the pieces the same networks result as at once. -/
theorem C103_between (pr pr' : Profile) (n : Net A) (m m' : A) (hn : WF n) (h1 : hostBitCount m' ≤ hostBitCount n.subnetMask)
    (h2 : hostBitCount m ≤ hostBitCount m') (ns rs : List (Net A)) (h : Resizes pr n m ns) (h' : Resizes pr' n m' rs) :
    (∀ x ∈ ns, ∃ o ∈ rs, Resizes pr' x m' [o]) ∧ ∀ o ∈ rs, ∃ x ∈ ns, Resizes pr' x m' [o] := by
  -- the pieces of the networks at once are the pieces, and each of them leads back
  obtain ⟨parts, p1, p2⟩ := C103_smaller pr' pr n m' m hn h1 h2 rs h'
  obtain ⟨d, hd⟩ := h
  obtain ⟨d', hd'⟩ := p2
  have e : ns = parts.flatten := ((resizes_iff hn).mp ⟨d, hd⟩).trans ((resizes_iff hn).mp ⟨d', hd'⟩).symm
  subst e
  obtain rfl := (resizes_iff hn).mp h'
  have hw : ∀ o ∈ resizeNets n m', WF o ∧ o.subnetMask = m' := by
    intro o ho
    obtain ⟨k, -, h⟩ := mem_resizeNets.mp ho
    exact ⟨h.wf, h.mask⟩
  have hback : ∀ o ∈ resizeNets n m', ∀ p, Resizes pr o m p → p ≠ [] ∧ ∀ x ∈ p, Resizes pr' x m' [o] := by
    intro o ho p hp
    obtain ⟨w, hm⟩ := hw o ho
    obtain ⟨q, k1, k2⟩ := C103_larger pr pr' o m m' w (by rw [hm]; exact Nat.le_refl _) h2 p hp
    have e2 : hostBits (maskNet m') = hostBits o := hostBits_congr hm.symm
    have hq : q = o := by
      have := (resizes_iff w).mp k1
      rw [single_of_le (by omega)] at this
      obtain ⟨rfl⟩ := List.cons.inj this
      have hf : resizeFirst o m' = netNum o := by rw [resizeFirst_smaller (by omega), e2]; simp
      rw [hf]
      have hlt : netNum o < 2 ^ netBits (maskNet m') := by
        have := resizeFirst_add_count (n := o) (m := m')
        have : 0 < resizeCount o m' := Nat.two_pow_pos _
        omega
      exact wf_of_netNum (numNet_spec m' hlt).wf w ((numNet_spec m' hlt).mask.trans hm.symm) (numNet_spec m' hlt).num
    rw [hq] at k2
    refine ⟨?_, k2⟩
    rintro rfl
    have := congrArg List.length ((resizes_iff w).mp hp)
    rw [length_resizeNets, resizeCount] at this
    have := Nat.two_pow_pos (hostBits o - hostBits (maskNet m))
    rw [List.length_nil] at *
    omega
  have go : ∀ (os : List (Net A)) (ps : List (List (Net A))), Pointwise (fun x p => Resizes pr x m p) os ps →
      (∀ o ∈ os, o ∈ resizeNets n m') →
      (∀ x ∈ ps.flatten, ∃ o ∈ os, Resizes pr' x m' [o]) ∧ ∀ o ∈ os, ∃ x ∈ ps.flatten, Resizes pr' x m' [o] := by
    intro os ps hp
    induction hp with
    | nil => exact fun _ => ⟨by simp, by simp⟩
    | @cons o p os ps hop _ ih =>
      intro hos
      obtain ⟨i1, i2⟩ := ih fun o ho => hos o (List.mem_cons_of_mem _ ho)
      obtain ⟨b1, b2⟩ := hback o (hos o (by simp)) p hop
      constructor
      · intro x hx
        rw [List.flatten_cons] at hx
        rcases List.mem_append.mp hx with hx | hx
        · exact ⟨o, by simp, b2 x hx⟩
        · obtain ⟨o', h1, h2⟩ := i1 x hx
          exact ⟨o', List.mem_cons_of_mem _ h1, h2⟩
      · intro o' ho'
        rcases List.mem_cons.mp ho' with rfl | ho'
        · obtain ⟨x, hx⟩ := List.exists_mem_of_ne_nil p b1
          exact ⟨x, by simp [hx], b2 x hx⟩
        · obtain ⟨x, h1, h2⟩ := i2 o' ho'
          refine ⟨x, ?_, h2⟩
          rw [List.flatten_cons]
          exact List.mem_append.mpr (.inr h1)
  exact go _ _ p1 fun _ h => h

/-- Minimizing two lists of CIDR networks separately and the two results together is minimizing everything at once. -/
theorem C103_minimize (rt rt₁ rt₂ rt' : Runtime) (l₁ l₂ a b : List (Net A)) (h1 : ∀ n ∈ l₁, ∃ p, IsCidr p n) (h2 : ∀ n ∈ l₂, ∃ p, IsCidr p n)
    (ha : minimizeSubnets rt₁ l₁ = .ok a) (hb : minimizeSubnets rt₂ l₂ = .ok b) :
    minimizeSubnets rt' (a ++ b) = minimizeSubnets rt (l₁ ++ l₂) := by
  obtain ⟨a', ea, ca⟩ := C42_same_addresses rt₁ l₁ fun n hn => (h1 n hn).choose_spec.1
  obtain ⟨b', eb, cb⟩ := C42_same_addresses rt₂ l₂ fun n hn => (h2 n hn).choose_spec.1
  rw [ha] at ea; cases ea
  rw [hb] at eb; cases eb
  refine C84_addresses_only rt' rt _ _ ?_ ?_ ?_
  · intro n hn
    rcases List.mem_append.mp hn with hn | hn
    · exact (C46_cidr_minimal rt₁ l₁ a h1 ha).1 n hn
    · exact (C46_cidr_minimal rt₂ l₂ b h2 hb).1 n hn
  · intro n hn
    rcases List.mem_append.mp hn with hn | hn
    · exact h1 n hn
    · exact h2 n hn
  · intro x
    have split : ∀ l l' : List (Net A), (∃ n ∈ l ++ l', Member n x) ↔ (∃ n ∈ l, Member n x) ∨ ∃ n ∈ l', Member n x := by
      intro l l'
      simp only [List.mem_append, or_and_right, exists_or]
    rw [split, split, ca x, cb x]

/-- The networks of two ranges that overlap or adjoin, minimized together, are the networks of the range from the first to the last
address; that range is converted whenever the two are. -/
theorem C103_ranges (rt : Runtime) (pr pr₁ pr₂ : Profile) (a b b' c : A) (hab : val a ≤ val b') (hbb : val b' ≤ val b + 1) (hbc : val b ≤ val c)
    (hne : val a ≤ val b) (hne' : val b' ≤ val c)
    (l₁ l₂ : List (Net A)) (h1 : rangeToSubnets pr₁ a b = .ok l₁) (h2 : rangeToSubnets pr₂ b' c = .ok l₂) :
    ∃ ns, rangeToSubnets pr a c = .ok ns ∧ minimizeSubnets rt (l₁ ++ l₂) = .ok ns := by
  obtain ⟨-, c1, -, v1⟩ := derange_nonempty h1
  obtain ⟨-, c2, -, v2⟩ := derange_nonempty h2
  have union : ∀ x : A, Between a c x ↔ Between a b x ∨ Between b' c x := by
    intro x
    simp only [Between]
    omega
  have r1 := (C39_returns_iff pr₁ a b).mp ⟨_, h1⟩
  have r2 := (C39_returns_iff pr₂ b' c).mp ⟨_, h2⟩
  obtain ⟨ns, hns⟩ := (C39_returns_iff pr a c).mpr fun x hx => by
    rcases (union x).mp hx with h | h
    · exact r1 x h
    · exact r2 x h
  refine ⟨ns, hns, C85_minimize_derange rt pr a c ns hns _ ?_ ?_⟩
  · intro n hn
    rcases List.mem_append.mp hn with hn | hn
    · exact c1 n hn
    · exact c2 n hn
  · intro x
    rw [union x, ← v1 x, ← v2 x]
    simp only [List.mem_append, or_and_right, exists_or]

end generic

theorem C103_smaller_families : (type_of% (@C103_smaller V4 _ _ _)) ∧ (type_of% (@C103_smaller V6 _ _ _)) := ⟨C103_smaller, C103_smaller⟩

theorem C103_larger_families : (type_of% (@C103_larger V4 _ _ _)) ∧ (type_of% (@C103_larger V6 _ _ _)) := ⟨C103_larger, C103_larger⟩

theorem C103_between_families : (type_of% (@C103_between V4 _ _ _)) ∧ (type_of% (@C103_between V6 _ _ _)) := ⟨C103_between, C103_between⟩

theorem C103_minimize_families : (type_of% (@C103_minimize V4 _ _ _)) ∧ (type_of% (@C103_minimize V6 _ _ _)) := ⟨C103_minimize, C103_minimize⟩

theorem C103_ranges_families : (type_of% (@C103_ranges V4 _ _ _)) ∧ (type_of% (@C103_ranges V6 _ _ _)) := ⟨C103_ranges, C103_ranges⟩

/-! ## On the command line -/

theorem is4_lines (ns : List (Net V4)) (hw : ∀ n ∈ ns, WF n) : Pointwise Is4 (ns.map Net.display) (ns.map fun n => (n.baseAddr, n)) := by
  induction ns with
  | nil => exact .nil
  | cons n ns ih => exact .cons (C30_ipv4 n (hw n (by simp))) (ih fun n hn => hw n (List.mem_cons_of_mem _ hn))

/-- What `ripcalc --minimize` prints for IPv4 networks with CIDR masks, in two portions, given to it together: the lines for all the networks
at once. -/
theorem C103_minimize_portions_v4 (rt rt₁ rt₂ rt' : Runtime) (p m p₁ m₁ p₂ m₂ p' m' : Str) (ss tt : List Str) (xs ys : List (V4 × Net V4))
    (hx : Pointwise Is4 ss xs) (hy : Pointwise Is4 tt ys) (hcx : ∀ x ∈ xs, ∃ p, IsCidr p x.2) (hcy : ∀ y ∈ ys, ∃ p, IsCidr p y.2)
    (ls kk : List Str) (c d : Nat) (h1 : minimize rt₁ (p₁ :: m₁ :: ss) = ⟨lineEvents ls, .ok c⟩)
    (h2 : minimize rt₂ (p₂ :: m₂ :: tt) = ⟨lineEvents kk, .ok d⟩) :
    minimize rt' (p' :: m' :: (ls ++ kk)) = minimize rt (p :: m :: (ss ++ tt)) := by
  have one : ∀ (rt : Runtime) (p m : Str) (ss : List Str) (xs : List (V4 × Net V4)) (ls : List Str) (c : Nat), Pointwise Is4 ss xs →
      (∀ x ∈ xs, ∃ p, IsCidr p x.2) → minimize rt (p :: m :: ss) = ⟨lineEvents ls, .ok c⟩ →
      ∃ out, ls = out.map Net.display ∧ out ≠ [] ∧ ss ≠ [] ∧ minimizeSubnets rt (xs.map (·.2)) = .ok out ∧ (∀ n ∈ out, WF n) ∧
        ∀ n ∈ xs.map (·.2), ∃ p, IsCidr p n := by
    intro rt p m ss xs ls c hx hc h
    by_cases hne : ss = []
    · subst hne
      rw [show minimize rt [p, m] = ⟨[.err .usage], .ok 1⟩ from rfl] at h
      have h := congrArg Cli.out h
      cases ls <;> simp [lineEvents] at h
    · obtain ⟨out, h1, h2⟩ := C63_minimize_v4 rt p m ss hne xs hx
      rw [h2, netOutput_lines] at h
      have hc' : ∀ n ∈ xs.map (·.2), ∃ p, IsCidr p n := by
        intro n hn
        obtain ⟨x, hx, rfl⟩ := List.mem_map.mp hn
        exact hc x hx
      have hw : ∀ n ∈ xs.map (·.2), WF n := fun n hn => (hc' n hn).choose_spec.1
      refine ⟨out, (lineEvents_inj (Cli.mk.inj h).1).symm, ?_, hne, h1, (C44_sorted rt _ out hw h1).2.2.1, hc'⟩
      rintro rfl
      obtain ⟨r, k1, k2⟩ := C42_same_addresses rt _ hw
      rw [h1] at k1
      cases k1
      cases hx with
      | nil => exact hne rfl
      | @cons _ x _ _ _ _ =>
        obtain ⟨m, hm, -⟩ := (k2 x.2.baseAddr).mpr ⟨x.2, by simp, base_member _⟩
        cases hm
  obtain ⟨a, rfl, ane, sne, ha, wa, ca⟩ := one rt₁ p₁ m₁ ss xs ls c hx hcx h1
  obtain ⟨b, rfl, -, -, hb, wb, cb⟩ := one rt₂ p₂ m₂ tt ys kk d hy hcy h2
  have all := C103_minimize rt rt₁ rt₂ rt' _ _ a b ca cb ha hb
  obtain ⟨o1, e1, f1⟩ := C63_minimize_v4 rt p m (ss ++ tt) (by simp [sne]) (xs ++ ys) (hx.append hy)
  obtain ⟨o2, e2, f2⟩ := C63_minimize_v4 rt' p' m' (a.map Net.display ++ b.map Net.display) (by simp [ane]) _
    ((is4_lines a wa).append (is4_lines b wb))
  rw [List.map_append] at e1 e2
  simp only [List.map_map, Function.comp_def, List.map_id'] at e2
  rw [all, e1] at e2
  cases e2
  rw [f1, f2]

/-- The lines of `ripcalc --derange` for two ranges of IPv4 addresses that overlap or adjoin, given to `ripcalc --minimize`: the lines of
`ripcalc --derange` for the range from the first to the last address. -/
theorem C103_derange_portions_v4 (rt₁ rt₂ rt rt' : Runtime) (s₁ t₁ u v s₂ t₂ u' v' s t prog mode : Str) (a b b' c : V4)
    (ha : parseAddr u = .ok (.ok (.ipv4 a))) (hb : parseAddr v = .ok (.ok (.ipv4 b))) (hb' : parseAddr u' = .ok (.ok (.ipv4 b')))
    (hc : parseAddr v' = .ok (.ok (.ipv4 c))) (hab : val a ≤ val b') (hbb : val b' ≤ val b + 1) (hbc : val b ≤ val c) (hne : val a ≤ val b)
    (hne' : val b' ≤ val c) (ls kk : List Str) (x y : Nat) (h1 : derange rt₁ [s₁, t₁, u, v] = ⟨lineEvents ls, .ok x⟩)
    (h2 : derange rt₂ [s₂, t₂, u', v'] = ⟨lineEvents kk, .ok y⟩) :
    minimize rt (prog :: mode :: (ls ++ kk)) = derange rt' [s, t, u, v'] := by
  obtain ⟨l₁, r1, e1, -⟩ := derange_ok_v4 ha hb h1
  obtain ⟨l₂, r2, e2, -⟩ := derange_ok_v4 hb' hc h2
  obtain rfl := lineEvents_inj e1
  obtain rfl := lineEvents_inj e2
  obtain ⟨n1, c1, -, -⟩ := derange_nonempty r1
  obtain ⟨-, c2, -, -⟩ := derange_nonempty r2
  obtain ⟨ns, g1, g2⟩ := C103_ranges rt rt'.profile _ _ a b b' c hab hbb hbc hne hne' l₁ l₂ r1 r2
  obtain ⟨o, e, f⟩ := C63_minimize_v4 rt prog mode (l₁.map Net.display ++ l₂.map Net.display) (by simp [n1]) _
    ((is4_lines l₁ fun n hn => (c1 n hn).choose_spec.1).append (is4_lines l₂ fun n hn => (c2 n hn).choose_spec.1))
  simp only [List.map_append, List.map_map, Function.comp_def, List.map_id'] at e
  rw [g2] at e
  cases e
  rw [f, (C39_command_v4 rt' s t u v' a c ha hc).1 ns g1, netOutput_lines]
  congr 1
  simp [lineEvents]

/-- For IPv6 the same if all base addresses of the printed networks can be read again (see C10); otherwise there is a message. -/
theorem C103_minimize_portions_v6 (rt rt₁ rt₂ rt' : Runtime) (p m p₁ m₁ p₂ m₂ p' m' : Str) (ss tt : List Str) (xs ys : List (V6 × Net V6))
    (hx : Pointwise Is6 ss xs) (hy : Pointwise Is6 tt ys) (hcx : ∀ x ∈ xs, ∃ p, IsCidr p x.2) (hcy : ∀ y ∈ ys, ∃ p, IsCidr p y.2)
    (ls kk : List Str) (c d : Nat) (h1 : minimize rt₁ (p₁ :: m₁ :: ss) = ⟨lineEvents ls, .ok c⟩)
    (h2 : minimize rt₂ (p₂ :: m₂ :: tt) = ⟨lineEvents kk, .ok d⟩) :
    ∃ a b, minimizeSubnets rt₁ (xs.map (·.2)) = .ok a ∧ minimizeSubnets rt₂ (ys.map (·.2)) = .ok b ∧
      ((∀ n ∈ a ++ b, ¬ SingleZeroAtEnd (chunkVals n.baseAddr)) → minimize rt' (p' :: m' :: (ls ++ kk)) = minimize rt (p :: m :: (ss ++ tt))) ∧
      ((∃ n ∈ a ++ b, SingleZeroAtEnd (chunkVals n.baseAddr)) → ∃ e, minimize rt' (p' :: m' :: (ls ++ kk)) = ⟨[.err e], .ok 1⟩) := by
  have one : ∀ (rt : Runtime) (p m : Str) (ss : List Str) (xs : List (V6 × Net V6)) (ls : List Str) (c : Nat), Pointwise Is6 ss xs →
      (∀ x ∈ xs, ∃ p, IsCidr p x.2) → minimize rt (p :: m :: ss) = ⟨lineEvents ls, .ok c⟩ →
      ∃ out, ls = out.map Net.display ∧ out ≠ [] ∧ ss ≠ [] ∧ minimizeSubnets rt (xs.map (·.2)) = .ok out ∧ (∀ n ∈ out, ∃ p, IsCidr p n) ∧
        ∀ n ∈ xs.map (·.2), ∃ p, IsCidr p n := by
    intro rt p m ss xs ls c hx hc h
    by_cases hne : ss = []
    · subst hne
      rw [show minimize rt [p, m] = ⟨[.err .usage], .ok 1⟩ from rfl] at h
      have h := congrArg Cli.out h
      cases ls <;> simp [lineEvents] at h
    · obtain ⟨out, h1, h2⟩ := C63_minimize_v6 rt p m ss hne xs hx
      rw [h2, netOutput_lines] at h
      have hc' : ∀ n ∈ xs.map (·.2), ∃ p, IsCidr p n := by
        intro n hn
        obtain ⟨x, hx, rfl⟩ := List.mem_map.mp hn
        exact hc x hx
      have hw : ∀ n ∈ xs.map (·.2), WF n := fun n hn => (hc' n hn).choose_spec.1
      refine ⟨out, (lineEvents_inj (Cli.mk.inj h).1).symm, ?_, hne, h1, (C46_cidr_minimal rt _ out hc' h1).1, hc'⟩
      rintro rfl
      obtain ⟨r, k1, k2⟩ := C42_same_addresses rt _ hw
      rw [h1] at k1
      cases k1
      cases hx with
      | nil => exact hne rfl
      | @cons _ x _ _ _ _ =>
        obtain ⟨m, hm, -⟩ := (k2 x.2.baseAddr).mpr ⟨x.2, by simp, base_member _⟩
        cases hm
  obtain ⟨a, rfl, ane, sne, ha, wa, ca⟩ := one rt₁ p₁ m₁ ss xs ls c hx hcx h1
  obtain ⟨b, rfl, -, -, hb, wb, cb⟩ := one rt₂ p₂ m₂ tt ys kk d hy hcy h2
  have hab : ∀ n ∈ a ++ b, ∃ p, IsCidr p n := fun n hn => (List.mem_append.mp hn).elim (wa n) (wb n)
  refine ⟨a, b, ha, hb, fun hz => ?_, fun ⟨n, hn, hz⟩ => ?_⟩
  · have all := C103_minimize rt rt₁ rt₂ rt' _ _ a b ca cb ha hb
    obtain ⟨o1, e1, f1⟩ := C63_minimize_v6 rt p m (ss ++ tt) (by simp [sne]) (xs ++ ys) (hx.append hy)
    obtain ⟨o2, e2, f2⟩ := C63_minimize_v6 rt' p' m' ((a ++ b).map Net.display) (by simp [ane]) _ (displays_parse_v6 (a ++ b) hab hz)
    rw [List.map_append] at e1
    simp only [List.map_map, Function.comp_def, List.map_id'] at e2
    rw [all, e1] at e2
    cases e2
    rw [← List.map_append, f1, f2]
  · rw [← List.map_append]
    exact minimize_bad_line_v6 rt' p' m' (a ++ b) (fun n hn => (hab n hn).choose_spec.1) n hn hz

/-- For IPv6 the same if all base addresses of the printed networks can be read again; otherwise there is a message. -/
theorem C103_derange_portions_v6 (rt₁ rt₂ rt rt' : Runtime) (s₁ t₁ u v s₂ t₂ u' v' s t prog mode : Str) (a b b' c : V6)
    (ha : parseAddr u = .ok (.ok (.ipv6 a))) (hb : parseAddr v = .ok (.ok (.ipv6 b))) (hb' : parseAddr u' = .ok (.ok (.ipv6 b')))
    (hc : parseAddr v' = .ok (.ok (.ipv6 c))) (hab : val a ≤ val b') (hbb : val b' ≤ val b + 1) (hbc : val b ≤ val c) (hne : val a ≤ val b)
    (hne' : val b' ≤ val c) (ls kk : List Str) (x y : Nat) (h1 : derange rt₁ [s₁, t₁, u, v] = ⟨lineEvents ls, .ok x⟩)
    (h2 : derange rt₂ [s₂, t₂, u', v'] = ⟨lineEvents kk, .ok y⟩) :
    ∃ l₁ l₂, rangeToSubnets rt₁.profile a b = .ok l₁ ∧ rangeToSubnets rt₂.profile b' c = .ok l₂ ∧
      ((∀ n ∈ l₁ ++ l₂, ¬ SingleZeroAtEnd (chunkVals n.baseAddr)) → minimize rt (prog :: mode :: (ls ++ kk)) = derange rt' [s, t, u, v']) ∧
      ((∃ n ∈ l₁ ++ l₂, SingleZeroAtEnd (chunkVals n.baseAddr)) → ∃ e, minimize rt (prog :: mode :: (ls ++ kk)) = ⟨[.err e], .ok 1⟩) := by
  obtain ⟨l₁, r1, e1, -⟩ := derange_ok_v6 ha hb h1
  obtain ⟨l₂, r2, e2, -⟩ := derange_ok_v6 hb' hc h2
  obtain rfl := lineEvents_inj e1
  obtain rfl := lineEvents_inj e2
  obtain ⟨n1, c1, -, -⟩ := derange_nonempty r1
  obtain ⟨-, c2, -, -⟩ := derange_nonempty r2
  have hall : ∀ n ∈ l₁ ++ l₂, ∃ p, IsCidr p n := fun n hn => (List.mem_append.mp hn).elim (c1 n) (c2 n)
  refine ⟨l₁, l₂, r1, r2, fun hz => ?_, fun ⟨n, hn, hz⟩ => ?_⟩
  · obtain ⟨ns, g1, g2⟩ := C103_ranges rt rt'.profile _ _ a b b' c hab hbb hbc hne hne' l₁ l₂ r1 r2
    obtain ⟨o, e, f⟩ := C63_minimize_v6 rt prog mode ((l₁ ++ l₂).map Net.display) (by simp [n1]) _ (displays_parse_v6 (l₁ ++ l₂) hall hz)
    simp only [List.map_map, Function.comp_def, List.map_id'] at e
    rw [g2] at e
    cases e
    rw [← List.map_append]
    exact f.trans ((C39_command_v6 rt' s t u v' a c ha hc).1 ns g1).symm
  · rw [← List.map_append]
    exact minimize_bad_line_v6 rt prog mode (l₁ ++ l₂) (fun n hn => (hall n hn).choose_spec.1) n hn hz

/-! ## Cases -/

/-- A /22 to /24s and those to /26s; the mask of the second step may as well be lopsided. -/
example (pr : Profile) : ∃ ns parts, Resizes pr (mk4 0x0A000000#32 0xFFFFFC00#32) ⟨0xFFFFFF00#32⟩ ns ∧ ns.length = 4 ∧
    Pointwise (fun x p => Resizes pr x ⟨0xFFFFF0F3#32⟩ p) ns parts ∧ Resizes pr (mk4 0x0A000000#32 0xFFFFFC00#32) ⟨0xFFFFF0F3#32⟩ parts.flatten := by
  have hw : WF (mk4 0x0A000000#32 0xFFFFFC00#32) := newWithMask_wf _ _
  have h := (resizes_iff (pr := pr) hw (m := ⟨0xFFFFFF00#32⟩)).mpr rfl
  obtain ⟨parts, h1, h2⟩ := C103_smaller pr pr _ _ (⟨0xFFFFF0F3#32⟩ : V4) hw (by decide +kernel) (by decide +kernel) _ h
  exact ⟨_, parts, h, by rw [length_resizeNets]; decide +kernel, h1, h2⟩

/-- A /24 cut into /26s, each of which leads to the /22 that the /24 leads to; and the /25s between. -/
example (pr : Profile) : (∃ ns o, Resizes pr (mk4 0x0A000300#32 0xFFFFFF00#32) ⟨0xFFFFFFC0#32⟩ ns ∧ ns.length = 4 ∧
      Resizes pr (mk4 0x0A000300#32 0xFFFFFF00#32) ⟨0xFFFFFC00#32⟩ [o] ∧ ∀ x ∈ ns, Resizes pr x ⟨0xFFFFFC00#32⟩ [o]) ∧
    hostBitCount (⟨0xFFFFFF80#32⟩ : V4) ≤ hostBitCount (mk4 0x0A000300#32 0xFFFFFF00#32).subnetMask ∧
    hostBitCount (⟨0xFFFFFFC0#32⟩ : V4) ≤ hostBitCount (⟨0xFFFFFF80#32⟩ : V4) := by
  have hw : WF (mk4 0x0A000300#32 0xFFFFFF00#32) := newWithMask_wf _ _
  have h := (resizes_iff (pr := pr) hw (m := ⟨0xFFFFFFC0#32⟩)).mpr rfl
  obtain ⟨o, h1, h2⟩ := C103_larger pr pr _ _ (⟨0xFFFFFC00#32⟩ : V4) hw (by decide +kernel) (by decide +kernel) _ h
  exact ⟨⟨_, o, h, by rw [length_resizeNets]; decide +kernel, h1, h2⟩, by decide +kernel, by decide +kernel⟩

/-- Two portions with networks that merge only across them. -/
example : minimizeSubnets (evalRuntime .checked true) [mk4 0x0A000000#32 0xFFFFFFC0#32, mk4 0x0A000040#32 0xFFFFFFC0#32] = .ok [mk4 0x0A000000#32 0xFFFFFF80#32] ∧
    minimizeSubnets (evalRuntime .checked true) [mk4 0x0A000080#32 0xFFFFFF80#32] = .ok [mk4 0x0A000080#32 0xFFFFFF80#32] ∧
    minimizeSubnets (evalRuntime .checked true) ([mk4 0x0A000000#32 0xFFFFFFC0#32, mk4 0x0A000040#32 0xFFFFFFC0#32] ++ [mk4 0x0A000080#32 0xFFFFFF80#32]) =
      .ok [mk4 0x0A000000#32 0xFFFFFF00#32] :=
  ⟨minimize_of_fuel 5 2 _ _ [mk4 0x0A000000#32 0xFFFFFF80#32] _ (by decide +kernel) (by decide +kernel),
   minimize_of_fuel 5 1 _ _ [mk4 0x0A000080#32 0xFFFFFF80#32] _ (by decide +kernel) (by decide +kernel),
   minimize_of_fuel 5 3 _ _ [mk4 0x0A000000#32 0xFFFFFF00#32] _ (by decide +kernel) (by decide +kernel)⟩

/-- The ranges 192.0.2.0–192.0.2.5 and 192.0.2.6–192.0.2.7: three networks, together one. -/
example (rt rt' : Runtime) : ∃ ls kk, derange rt ["ripcalc".toList, "-d".toList, "192.0.2.0".toList, "192.0.2.5".toList] = ⟨lineEvents ls, .ok 0⟩ ∧
    derange rt ["ripcalc".toList, "-d".toList, "192.0.2.6".toList, "192.0.2.7".toList] = ⟨lineEvents kk, .ok 0⟩ ∧
    minimize rt' ("ripcalc".toList :: "-m".toList :: (ls ++ kk)) = derange rt ["ripcalc".toList, "-d".toList, "192.0.2.0".toList, "192.0.2.7".toList] := by
  have ha : parseAddr "192.0.2.0".toList = .ok (.ok (.ipv4 ⟨0xC0000200#32⟩)) := by decide +kernel
  have hb : parseAddr "192.0.2.5".toList = .ok (.ok (.ipv4 ⟨0xC0000205#32⟩)) := by decide +kernel
  have hb' : parseAddr "192.0.2.6".toList = .ok (.ok (.ipv4 ⟨0xC0000206#32⟩)) := by decide +kernel
  have hc : parseAddr "192.0.2.7".toList = .ok (.ok (.ipv4 ⟨0xC0000207#32⟩)) := by decide +kernel
  generalize "192.0.2.0".toList = u at *
  generalize "192.0.2.5".toList = v at *
  generalize "192.0.2.6".toList = u' at *
  generalize "192.0.2.7".toList = v' at *
  have small : ∀ a b : V4, val a < 0xD0000000 → val b < 0xD0000000 → ∃ ns, rangeToSubnets rt.profile a b = .ok ns := fun a b h1 h2 =>
    (C39_returns_iff rt.profile a b).mpr fun x hx hv => by
      rw [show width V4 = 32 from rfl] at hv
      simp only [Between] at hx
      omega
  obtain ⟨l₁, r1⟩ := small ⟨0xC0000200#32⟩ ⟨0xC0000205#32⟩ (by decide +kernel) (by decide +kernel)
  obtain ⟨l₂, r2⟩ := small ⟨0xC0000206#32⟩ ⟨0xC0000207#32⟩ (by decide +kernel) (by decide +kernel)
  have e1 := (C39_command_v4 rt "ripcalc".toList "-d".toList u v _ _ ha hb).1 _ r1
  have e2 := (C39_command_v4 rt "ripcalc".toList "-d".toList u' v' _ _ hb' hc).1 _ r2
  have e1' : derange rt ["ripcalc".toList, "-d".toList, u, v] = ⟨lineEvents (l₁.map Net.display), .ok 0⟩ := e1.trans (by simp [lineEvents])
  have e2' : derange rt ["ripcalc".toList, "-d".toList, u', v'] = ⟨lineEvents (l₂.map Net.display), .ok 0⟩ := e2.trans (by simp [lineEvents])
  exact ⟨_, _, e1', e2', C103_derange_portions_v4 rt rt rt' rt _ _ u v _ _ u' v' _ _ _ _ _ _ _ _ ha hb hb' hc (by decide +kernel) (by decide +kernel)
    (by decide +kernel) (by decide +kernel) (by decide +kernel) _ _ 0 0 e1' e2'⟩

/-- Two ranges of IPv6 addresses with a network whose line cannot be read: 1:2:3:4:5:6:7:0 is printed as 1:2:3:4:5:6:7::. -/
example (rt rt' : Runtime) :
    ∃ ls kk, derange rt ["ripcalc".toList, "-d".toList, "1:2:3:4:5:6:7:0".toList, "1:2:3:4:5:6:7:3".toList] = ⟨lineEvents ls, .ok 0⟩ ∧
    derange rt ["ripcalc".toList, "-d".toList, "1:2:3:4:5:6:7:4".toList, "1:2:3:4:5:6:7:7".toList] = ⟨lineEvents kk, .ok 0⟩ ∧
    ∃ e, minimize rt' ("ripcalc".toList :: "-m".toList :: (ls ++ kk)) = ⟨[.err e], .ok 1⟩ := by
  have ha : parseAddr "1:2:3:4:5:6:7:0".toList = .ok (.ok (.ipv6 ⟨0x0001000200030004#64, 0x0005000600070000#64⟩)) := by decide +kernel
  have hb : parseAddr "1:2:3:4:5:6:7:3".toList = .ok (.ok (.ipv6 ⟨0x0001000200030004#64, 0x0005000600070003#64⟩)) := by decide +kernel
  have hb' : parseAddr "1:2:3:4:5:6:7:4".toList = .ok (.ok (.ipv6 ⟨0x0001000200030004#64, 0x0005000600070004#64⟩)) := by decide +kernel
  have hc : parseAddr "1:2:3:4:5:6:7:7".toList = .ok (.ok (.ipv6 ⟨0x0001000200030004#64, 0x0005000600070007#64⟩)) := by decide +kernel
  generalize "1:2:3:4:5:6:7:0".toList = u at *
  generalize "1:2:3:4:5:6:7:3".toList = v at *
  generalize "1:2:3:4:5:6:7:4".toList = u' at *
  generalize "1:2:3:4:5:6:7:7".toList = v' at *
  have r1 : rangeToSubnets rt.profile (⟨0x0001000200030004#64, 0x0005000600070000#64⟩ : V6) ⟨0x0001000200030004#64, 0x0005000600070003#64⟩ =
      .ok [⟨⟨0x0001000200030004#64, 0x0005000600070000#64⟩, ⟨0xFFFFFFFFFFFFFFFF#64, 0xFFFFFFFFFFFFFFFC#64⟩, some 126⟩] := by
    exact (C85_derange_network rt.profile (⟨⟨0x0001000200030004#64, 0x0005000600070000#64⟩, ⟨0xFFFFFFFFFFFFFFFF#64, 0xFFFFFFFFFFFFFFFC#64⟩, some 126⟩ : Net V6) 126
      ⟨newWithMask_wf (⟨0x0001000200030004#64, 0x0005000600070000#64⟩ : V6) ⟨0xFFFFFFFFFFFFFFFF#64, 0xFFFFFFFFFFFFFFFC#64⟩, by decide +kernel⟩ _
      (by decide +kernel) (by decide +kernel)).1
  have r2 : rangeToSubnets rt.profile (⟨0x0001000200030004#64, 0x0005000600070004#64⟩ : V6) ⟨0x0001000200030004#64, 0x0005000600070007#64⟩ =
      .ok [⟨⟨0x0001000200030004#64, 0x0005000600070004#64⟩, ⟨0xFFFFFFFFFFFFFFFF#64, 0xFFFFFFFFFFFFFFFC#64⟩, some 126⟩] := by
    exact (C85_derange_network rt.profile (⟨⟨0x0001000200030004#64, 0x0005000600070004#64⟩, ⟨0xFFFFFFFFFFFFFFFF#64, 0xFFFFFFFFFFFFFFFC#64⟩, some 126⟩ : Net V6) 126
      ⟨newWithMask_wf (⟨0x0001000200030004#64, 0x0005000600070004#64⟩ : V6) ⟨0xFFFFFFFFFFFFFFFF#64, 0xFFFFFFFFFFFFFFFC#64⟩, by decide +kernel⟩ _
      (by decide +kernel) (by decide +kernel)).1
  have lines : ∀ ns : List (Net V6), ns.map (fun n => OutEv.out (n.display ++ ['\n'])) = lineEvents (ns.map Net.display) := fun ns => by simp [lineEvents]
  have e1 : derange rt ["ripcalc".toList, "-d".toList, u, v] = ⟨lineEvents _, .ok 0⟩ :=
    ((C39_command_v6 rt "ripcalc".toList "-d".toList u v _ _ ha hb).1 _ r1).trans (by rw [lines])
  have e2 : derange rt ["ripcalc".toList, "-d".toList, u', v'] = ⟨lineEvents _, .ok 0⟩ :=
    ((C39_command_v6 rt "ripcalc".toList "-d".toList u' v' _ _ hb' hc).1 _ r2).trans (by rw [lines])
  obtain ⟨l₁, l₂, h1, -, -, h⟩ := C103_derange_portions_v6 rt rt rt' rt _ _ u v _ _ u' v' [] [] "ripcalc".toList "-m".toList _ _ _ _ ha hb hb' hc
    (by decide +kernel) (by decide +kernel) (by decide +kernel) (by decide +kernel) (by decide +kernel) _ _ 0 0 e1 e2
  obtain rfl := Exec.ok.inj (h1.symm.trans r1)
  exact ⟨_, _, e1, e2, h ⟨_, List.mem_append.mpr (.inl (List.mem_cons_self ..)), .inr (by decide +kernel)⟩⟩

end Ripcalc
