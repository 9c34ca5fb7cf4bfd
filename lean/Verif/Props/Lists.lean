import Verif.Props.Columns
import Verif.Props.Compose
/-!
# Property C96: the printed lists decide equality
-/
set_option linter.unusedSectionVars false
namespace Ripcalc
open AddrSpec LawfulIpAddr

theorem stdout_lineEvents (ls : List Str) : stdoutText (lineEvents ls) = ls.flatMap (· ++ ['\n']) := by
  induction ls with
  | nil => rfl
  | cons l ls ih => simpa [lineEvents, stdoutText] using ih

/-- A text determines its lines. -/
theorem lines_inj {ls ms : List Str} (hl : ∀ l ∈ ls, '\n' ∉ l) (hm : ∀ l ∈ ms, '\n' ∉ l)
    (h : ls.flatMap (· ++ ['\n']) = ms.flatMap (· ++ ['\n'])) : ls = ms := by
  induction ls generalizing ms with
  | nil =>
    cases ms with
    | nil => rfl
    | cons m ms => simp at h
  | cons l ls ih =>
    cases ms with
    | nil => simp at h
    | cons m ms =>
      simp only [List.flatMap_cons, List.append_assoc, List.singleton_append] at h
      obtain ⟨rfl, h'⟩ := sep_inj (hl l (by simp)) (hm m (by simp)) h
      rw [ih (fun x hx => hl x (by simp [hx])) (fun x hx => hm x (by simp [hx])) h']

section generic
variable {A : Type} [IpAddr A] [AddrSpec A] [LawfulIpAddr A] {aw tw : Nat} {binary : A → Str}

/-- Every address text has a character that is no digit. -/
def HasMark (A : Type) [IpAddr A] : Prop := ∀ a : A, ∃ c ∈ IpAddr.display a, c ∉ lowerDigits

theorem showNat10_chars (n : Nat) : ∀ c ∈ showNat 10 n, c ∈ lowerDigits := fun _ hc => showNat_mem (by omega) (by omega) hc

theorem display_newline (L : Layout A aw tw IpAddr.display binary) (n : Net A) : '\n' ∉ n.display := by
  rw [Net.display]
  split
  · rw [List.mem_append, List.mem_append]
    rintro ((h | h) | h)
    · exact plain_newline (L.plain _) h
    · revert h; decide
    · have := showNat10_chars _ _ h
      revert this; decide
  · rw [List.mem_append, List.mem_append]
    rintro ((h | h) | h)
    · exact plain_newline (L.plain _) h
    · revert h; decide
    · exact plain_newline (L.plain _) h

theorem net_display_inj (L : Layout A aw tw IpAddr.display binary) (hM : HasMark A) {n n' : Net A} (hn : WF n) (hn' : WF n')
    (h : n.display = n'.display) : n = n' := by
  rw [Net.display, Net.display] at h
  have key : ∀ {x y : Str} {a b : A}, IpAddr.display a ++ ['/'] ++ x = IpAddr.display b ++ ['/'] ++ y → a = b ∧ x = y := by
    intro x y a b h
    rw [List.append_assoc, List.append_assoc] at h
    obtain ⟨h1, h2⟩ := sep_inj (L.slash a) (L.slash b) h
    exact ⟨L.inj a b h1, h2⟩
  cases hp : n.cidrPrefix with
  | some p =>
    cases hp' : n'.cidrPrefix with
    | some p' =>
      rw [hp, hp'] at h
      obtain ⟨h1, h2⟩ := key h
      have : p = p' := showNat_inj (by omega) (by omega) h2
      subst this
      exact net_ext hn hn' h1 (isPrefixMask_inj ((hn.prefix_iff p).mp hp) ((hn'.prefix_iff p).mp hp'))
    | none =>
      rw [hp, hp'] at h
      obtain ⟨-, h2⟩ := key h
      obtain ⟨c, h3, h4⟩ := hM n'.subnetMask
      exact absurd (showNat10_chars p c (h2 ▸ h3)) h4
  | none =>
    cases hp' : n'.cidrPrefix with
    | some p' =>
      rw [hp, hp'] at h
      obtain ⟨-, h2⟩ := key h
      obtain ⟨c, h3, h4⟩ := hM n.subnetMask
      exact absurd (showNat10_chars p' c (h2 ▸ h3)) h4
    | none =>
      rw [hp, hp'] at h
      obtain ⟨h1, h2⟩ := key h
      exact net_ext hn hn' h1 (L.inj _ _ h2)

theorem netOutput_inj (L : Layout A aw tw IpAddr.display binary) (hM : HasMark A) {ns ns' : List (Net A)} (hw : ∀ n ∈ ns, WF n)
    (hw' : ∀ n ∈ ns', WF n) (h : stdoutText (netOutput ns) = stdoutText (netOutput ns')) : ns = ns' := by
  rw [netOutput_lines, netOutput_lines, stdout_lineEvents, stdout_lineEvents] at h
  have hl : ∀ ns : List (Net A), ∀ l ∈ ns.map Net.display, '\n' ∉ l := by
    intro ns l hl
    obtain ⟨n, -, rfl⟩ := List.mem_map.mp hl
    exact display_newline L n
  replace h := lines_inj (hl ns) (hl ns') h
  clear hl
  induction ns generalizing ns' with
  | nil =>
    cases ns' with
    | nil => rfl
    | cons n' ns' => simp at h
  | cons n ns ih =>
    cases ns' with
    | nil => simp at h
    | cons n' ns' =>
      rw [List.map_cons, List.map_cons] at h
      obtain ⟨h1, h2⟩ := List.cons.inj h
      rw [net_display_inj L hM (hw n (by simp)) (hw' n' (by simp)) h1,
        ih (fun m hm => hw m (by simp [hm])) (fun m hm => hw' m (by simp [hm])) h2]

end generic

theorem mark4 : HasMark V4 := fun a => ⟨'.', dot_mem_display4 a, by decide⟩

theorem colon_mem_display6 (a : V6) : ':' ∈ IpAddr.display a := (v6_display_hexColon a).2

theorem mark6 : HasMark V6 := fun a => ⟨':', colon_mem_display6 a, by decide⟩

/-! ## The minimize mode -/

section generic
variable {A : Type} [IpAddr A] [AddrSpec A] [LawfulIpAddr A] {aw tw : Nat} {binary : A → Str}

theorem minimized_same_addresses (L : Layout A aw tw IpAddr.display binary) (hM : HasMark A) {rt rt' : Runtime} {l l' out out' : List (Net A)}
    (hw : ∀ n ∈ l, WF n) (hw' : ∀ n ∈ l', WF n) (h1 : minimizeSubnets rt l = .ok out) (h1' : minimizeSubnets rt' l' = .ok out')
    (h : stdoutText (netOutput out) = stdoutText (netOutput out')) (a : A) : (∃ n ∈ l, Member n a) ↔ ∃ n ∈ l', Member n a := by
  obtain ⟨r, k1, k2⟩ := C42_same_addresses rt l hw
  obtain ⟨r', k1', k2'⟩ := C42_same_addresses rt' l' hw'
  rw [h1] at k1
  rw [h1'] at k1'
  cases k1
  cases k1'
  have := netOutput_inj L hM (C44_sorted rt l out hw h1).2.2.1 (C44_sorted rt' l' out' hw' h1').2.2.1 h
  subst this
  exact (k2 a).symm.trans (k2' a)

theorem minimized_nonempty {rt : Runtime} {l out : List (Net A)} (hw : ∀ n ∈ l, WF n) (hne : l ≠ []) (h : minimizeSubnets rt l = .ok out) :
    out ≠ [] := by
  rintro rfl
  obtain ⟨r, k1, k2⟩ := C42_same_addresses rt l hw
  rw [h] at k1
  cases k1
  cases l with
  | nil => exact hne rfl
  | cons n l =>
    obtain ⟨m, hm, -⟩ := (k2 n.baseAddr).mpr ⟨n, by simp, base_member _⟩
    cases hm

end generic

theorem wf_of4 {ss : List Str} {xs : List (V4 × Net V4)} (h : Pointwise Is4 ss xs) : ∀ n ∈ xs.map (·.2), WF n := by
  intro n hn
  obtain ⟨x, hx, rfl⟩ := List.mem_map.mp hn
  obtain ⟨s, -, hs⟩ := h.mem_right x hx
  exact (C33_parsed_good s _ hs).2.1

theorem wf_of6 {ss : List Str} {xs : List (V6 × Net V6)} (h : Pointwise Is6 ss xs) : ∀ n ∈ xs.map (·.2), WF n := by
  intro n hn
  obtain ⟨x, hx, rfl⟩ := List.mem_map.mp hn
  obtain ⟨s, -, hs⟩ := h.mem_right x hx
  exact (C33_parsed_good s _ hs).2.1

theorem exists_second {α β : Type} (xs : List (α × β)) (P : β → Prop) : (∃ n ∈ xs.map (·.2), P n) ↔ ∃ x ∈ xs, P x.2 := by
  constructor
  · rintro ⟨n, hn, h⟩
    obtain ⟨x, hx, rfl⟩ := List.mem_map.mp hn
    exact ⟨x, hx, h⟩
  · rintro ⟨x, hx, h⟩
    exact ⟨x.2, List.mem_map.mpr ⟨x, hx, rfl⟩, h⟩

/-- For IPv4 networks with any masks: if the minimize mode prints the same for two lists, they have the same addresses; with CIDR
masks the converse holds as well. -/
theorem C96_minimize_v4 (rt rt' : Runtime) (prog prog' mode mode' : Str) (hm : mode = "-m".toList ∨ mode = "--minimize".toList)
    (hm' : mode' = "-m".toList ∨ mode' = "--minimize".toList) (ss ss' : List Str) (hne : ss ≠ []) (hne' : ss' ≠ [])
    (xs xs' : List (V4 × Net V4)) (h : Pointwise Is4 ss xs) (h' : Pointwise Is4 ss' xs') :
    (stdoutText (doMain rt (prog :: mode :: ss)).out = stdoutText (doMain rt' (prog' :: mode' :: ss')).out →
      ∀ a, (∃ x ∈ xs, Member x.2 a) ↔ ∃ x ∈ xs', Member x.2 a) ∧
    ((∀ x ∈ xs ++ xs', ∃ p, IsCidr p x.2) → (∀ a, (∃ x ∈ xs, Member x.2 a) ↔ ∃ x ∈ xs', Member x.2 a) →
      stdoutText (doMain rt (prog :: mode :: ss)).out = stdoutText (doMain rt' (prog' :: mode' :: ss')).out) := by
  rw [(C56_dispatch rt prog mode ss).1 hm, (C56_dispatch rt' prog' mode' ss').1 hm']
  obtain ⟨out, k1, k2⟩ := C63_minimize_v4 rt prog mode ss hne xs h
  obtain ⟨out', k1', k2'⟩ := C63_minimize_v4 rt' prog' mode' ss' hne' xs' h'
  rw [k2, k2']
  refine ⟨fun he a => ?_, fun hc he => ?_⟩
  · have := minimized_same_addresses layout4 mark4 (wf_of4 h) (wf_of4 h') k1 k1' he a
    rwa [exists_second, exists_second] at this
  · have hc1 : ∀ n ∈ xs.map (·.2), ∃ p, IsCidr p n := by
      intro n hn
      obtain ⟨x, hx, rfl⟩ := List.mem_map.mp hn
      exact hc x (by simp [hx])
    have hc2 : ∀ n ∈ xs'.map (·.2), ∃ p, IsCidr p n := by
      intro n hn
      obtain ⟨x, hx, rfl⟩ := List.mem_map.mp hn
      exact hc x (by simp [hx])
    have := C84_addresses_only rt rt' _ _ hc1 hc2 (fun a => by rw [exists_second, exists_second]; exact he a)
    rw [k1, k1'] at this
    cases this
    rfl

/-- The same for IPv6 networks. -/
theorem C96_minimize_v6 (rt rt' : Runtime) (prog prog' mode mode' : Str) (hm : mode = "-m".toList ∨ mode = "--minimize".toList)
    (hm' : mode' = "-m".toList ∨ mode' = "--minimize".toList) (ss ss' : List Str) (hne : ss ≠ []) (hne' : ss' ≠ [])
    (xs xs' : List (V6 × Net V6)) (h : Pointwise Is6 ss xs) (h' : Pointwise Is6 ss' xs') :
    (stdoutText (doMain rt (prog :: mode :: ss)).out = stdoutText (doMain rt' (prog' :: mode' :: ss')).out →
      ∀ a, (∃ x ∈ xs, Member x.2 a) ↔ ∃ x ∈ xs', Member x.2 a) ∧
    ((∀ x ∈ xs ++ xs', ∃ p, IsCidr p x.2) → (∀ a, (∃ x ∈ xs, Member x.2 a) ↔ ∃ x ∈ xs', Member x.2 a) →
      stdoutText (doMain rt (prog :: mode :: ss)).out = stdoutText (doMain rt' (prog' :: mode' :: ss')).out) := by
  rw [(C56_dispatch rt prog mode ss).1 hm, (C56_dispatch rt' prog' mode' ss').1 hm']
  obtain ⟨out, k1, k2⟩ := C63_minimize_v6 rt prog mode ss hne xs h
  obtain ⟨out', k1', k2'⟩ := C63_minimize_v6 rt' prog' mode' ss' hne' xs' h'
  rw [k2, k2']
  refine ⟨fun he a => ?_, fun hc he => ?_⟩
  · have := minimized_same_addresses layout6 mark6 (wf_of6 h) (wf_of6 h') k1 k1' he a
    rwa [exists_second, exists_second] at this
  · have hc1 : ∀ n ∈ xs.map (·.2), ∃ p, IsCidr p n := by
      intro n hn
      obtain ⟨x, hx, rfl⟩ := List.mem_map.mp hn
      exact hc x (by simp [hx])
    have hc2 : ∀ n ∈ xs'.map (·.2), ∃ p, IsCidr p n := by
      intro n hn
      obtain ⟨x, hx, rfl⟩ := List.mem_map.mp hn
      exact hc x (by simp [hx])
    have := C84_addresses_only rt rt' _ _ hc1 hc2 (fun a => by rw [exists_second, exists_second]; exact he a)
    rw [k1, k1'] at this
    cases this
    rfl

theorem dot_netOutput4 {ns : List (Net V4)} (hne : ns ≠ []) : '.' ∈ stdoutText (netOutput ns) := by
  cases ns with
  | nil => exact absurd rfl hne
  | cons n ns =>
    rw [netOutput_lines, stdout_lineEvents]
    refine List.mem_flatMap.mpr ⟨n.display, by simp, List.mem_append_left _ ?_⟩
    rw [Net.display]
    split <;> simp [dot_mem_display4]

theorem dot_netOutput6 (ns : List (Net V6)) : '.' ∉ stdoutText (netOutput ns) := by
  rw [netOutput_lines, stdout_lineEvents]
  intro h
  obtain ⟨l, hl, h⟩ := List.mem_flatMap.mp h
  obtain ⟨n, -, rfl⟩ := List.mem_map.mp hl
  rcases List.mem_append.mp h with h | h
  · rw [Net.display] at h
    split at h
    · simp only [List.mem_append] at h
      rcases h with (h | h) | h
      · exact dot_not_mem_display6 _ h
      · revert h; decide
      · have := showNat10_chars _ _ h
        revert this; decide
    · simp only [List.mem_append] at h
      rcases h with (h | h) | h
      · exact dot_not_mem_display6 _ h
      · revert h; decide
      · exact dot_not_mem_display6 _ h
  · revert h; decide

/-- For networks of different families it prints different texts. -/
theorem C96_minimize_families (rt rt' : Runtime) (prog prog' mode mode' : Str) (hm : mode = "-m".toList ∨ mode = "--minimize".toList)
    (hm' : mode' = "-m".toList ∨ mode' = "--minimize".toList) (ss ss' : List Str) (hne : ss ≠ []) (hne' : ss' ≠ [])
    (xs : List (V4 × Net V4)) (xs' : List (V6 × Net V6)) (h : Pointwise Is4 ss xs) (h' : Pointwise Is6 ss' xs') :
    stdoutText (doMain rt (prog :: mode :: ss)).out ≠ stdoutText (doMain rt' (prog' :: mode' :: ss')).out := by
  rw [(C56_dispatch rt prog mode ss).1 hm, (C56_dispatch rt' prog' mode' ss').1 hm']
  obtain ⟨out, k1, k2⟩ := C63_minimize_v4 rt prog mode ss hne xs h
  obtain ⟨out', k1', k2'⟩ := C63_minimize_v6 rt' prog' mode' ss' hne' xs' h'
  rw [k2, k2']
  intro he
  have hx : xs.map (·.2) ≠ [] := by
    cases h with
    | nil => exact absurd rfl hne
    | cons _ _ => simp
  exact dot_netOutput6 out' (he ▸ dot_netOutput4 (minimized_nonempty (wf_of4 h) hx k1))

/-! ## The derange mode -/

section generic
variable {A : Type} [IpAddr A] [AddrSpec A] [LawfulIpAddr A] {aw tw : Nat} {binary : A → Str}

theorem between_ends {a b a' b' : A} (h : ∀ x, Between a b x ↔ Between a' b' x) : (a = a' ∧ b = b') ∨ (a = b' ∧ b = a') := by
  have h1 := (h a).mp (by rw [Between]; omega)
  have h2 := (h b).mp (by rw [Between]; omega)
  have h3 := (h a').mpr (by rw [Between]; omega)
  have h4 := (h b').mpr (by rw [Between]; omega)
  rw [Between] at h1 h2 h3 h4
  have : (val a = val a' ∧ val b = val b') ∨ (val a = val b' ∧ val b = val a') := by omega
  rcases this with ⟨h5, h6⟩ | ⟨h5, h6⟩
  · exact .inl ⟨val_inj _ _ h5, val_inj _ _ h6⟩
  · exact .inr ⟨val_inj _ _ h5, val_inj _ _ h6⟩

theorem range_same (L : Layout A aw tw IpAddr.display binary) (hM : HasMark A) {pr pr' : Profile} {a b a' b' : A} {ns ns' : List (Net A)}
    (h1 : rangeToSubnets pr a b = .ok ns) (h2 : rangeToSubnets pr' a' b' = .ok ns') :
    stdoutText (netOutput ns) = stdoutText (netOutput ns') ↔ (a = a' ∧ b = b') ∨ (a = b' ∧ b = a') := by
  obtain ⟨k0, k1, k2, k3⟩ := derange_nonempty h1
  obtain ⟨k0', k1', k2', k3'⟩ := derange_nonempty h2
  constructor
  · intro h
    have := netOutput_inj L hM (fun n hn => (k1 n hn).choose_spec.1) (fun n hn => (k1' n hn).choose_spec.1) h
    subst this
    exact between_ends fun x => (k3 x).symm.trans (k3' x)
  · intro h
    have hb : ∀ x : A, Between a b x ↔ Between a' b' x := by
      intro x
      rcases h with ⟨rfl, rfl⟩ | ⟨rfl, rfl⟩
      · rfl
      · rw [Between, Between]; omega
    have e1 := C85_derange_minimal (evalRuntime .checked true) pr a b ns h1
    have e2 := C85_derange_minimal (evalRuntime .checked true) pr' a' b' ns' h2
    have := C84_addresses_only (evalRuntime .checked true) (evalRuntime .checked true) ns ns' k1 k1'
      fun x => (k3 x).trans ((hb x).trans (k3' x).symm)
    rw [e1, e2] at this
    cases this
    rfl

end generic

/-- For IPv4 ranges of which it prints networks, the derange mode prints the same exactly if the ends are the same, in one order or
the other. -/
theorem C96_derange_v4 (rt rt' : Runtime) (prog prog' mode mode' u v u' v' : Str) (hm : mode = "-d".toList ∨ mode = "--derange".toList)
    (hm' : mode' = "-d".toList ∨ mode' = "--derange".toList) (a b a' b' : V4) (ha : parseAddr u = .ok (.ok (.ipv4 a)))
    (hb : parseAddr v = .ok (.ok (.ipv4 b))) (ha' : parseAddr u' = .ok (.ok (.ipv4 a'))) (hb' : parseAddr v' = .ok (.ok (.ipv4 b')))
    (c c' : Nat) (hr : (doMain rt [prog, mode, u, v]).res = .ok c) (hr' : (doMain rt' [prog', mode', u', v']).res = .ok c') :
    stdoutText (doMain rt [prog, mode, u, v]).out = stdoutText (doMain rt' [prog', mode', u', v']).out ↔
      (a = a' ∧ b = b') ∨ (a = b' ∧ b = a') := by
  rw [(C56_dispatch rt prog mode [u, v]).2.1 hm] at hr ⊢
  rw [(C56_dispatch rt' prog' mode' [u', v']).2.1 hm'] at hr' ⊢
  obtain ⟨ns, h1, h2, -⟩ := derange_ok_v4 ha hb (show derange rt [prog, mode, u, v] = ⟨_, .ok c⟩ from by rw [← hr])
  obtain ⟨ns', h1', h2', -⟩ := derange_ok_v4 ha' hb' (show derange rt' [prog', mode', u', v'] = ⟨_, .ok c'⟩ from by rw [← hr'])
  rw [h2, h2', ← netOutput_lines, ← netOutput_lines]
  exact range_same layout4 mark4 h1 h1'

/-- The same for IPv6 ranges. -/
theorem C96_derange_v6 (rt rt' : Runtime) (prog prog' mode mode' u v u' v' : Str) (hm : mode = "-d".toList ∨ mode = "--derange".toList)
    (hm' : mode' = "-d".toList ∨ mode' = "--derange".toList) (a b a' b' : V6) (ha : parseAddr u = .ok (.ok (.ipv6 a)))
    (hb : parseAddr v = .ok (.ok (.ipv6 b))) (ha' : parseAddr u' = .ok (.ok (.ipv6 a'))) (hb' : parseAddr v' = .ok (.ok (.ipv6 b')))
    (c c' : Nat) (hr : (doMain rt [prog, mode, u, v]).res = .ok c) (hr' : (doMain rt' [prog', mode', u', v']).res = .ok c') :
    stdoutText (doMain rt [prog, mode, u, v]).out = stdoutText (doMain rt' [prog', mode', u', v']).out ↔
      (a = a' ∧ b = b') ∨ (a = b' ∧ b = a') := by
  rw [(C56_dispatch rt prog mode [u, v]).2.1 hm] at hr ⊢
  rw [(C56_dispatch rt' prog' mode' [u', v']).2.1 hm'] at hr' ⊢
  obtain ⟨ns, h1, h2, -⟩ := derange_ok_v6 ha hb (show derange rt [prog, mode, u, v] = ⟨_, .ok c⟩ from by rw [← hr])
  obtain ⟨ns', h1', h2', -⟩ := derange_ok_v6 ha' hb' (show derange rt' [prog', mode', u', v'] = ⟨_, .ok c'⟩ from by rw [← hr'])
  rw [h2, h2', ← netOutput_lines, ← netOutput_lines]
  exact range_same layout6 mark6 h1 h1'

/-- For ranges of different families it prints different texts. -/
theorem C96_derange_families (rt rt' : Runtime) (prog prog' mode mode' u v u' v' : Str) (hm : mode = "-d".toList ∨ mode = "--derange".toList)
    (hm' : mode' = "-d".toList ∨ mode' = "--derange".toList) (a b : V4) (a' b' : V6) (ha : parseAddr u = .ok (.ok (.ipv4 a)))
    (hb : parseAddr v = .ok (.ok (.ipv4 b))) (ha' : parseAddr u' = .ok (.ok (.ipv6 a'))) (hb' : parseAddr v' = .ok (.ok (.ipv6 b')))
    (c c' : Nat) (hr : (doMain rt [prog, mode, u, v]).res = .ok c) (hr' : (doMain rt' [prog', mode', u', v']).res = .ok c') :
    stdoutText (doMain rt [prog, mode, u, v]).out ≠ stdoutText (doMain rt' [prog', mode', u', v']).out := by
  rw [(C56_dispatch rt prog mode [u, v]).2.1 hm] at hr ⊢
  rw [(C56_dispatch rt' prog' mode' [u', v']).2.1 hm'] at hr' ⊢
  obtain ⟨ns, h1, h2, -⟩ := derange_ok_v4 ha hb (show derange rt [prog, mode, u, v] = ⟨_, .ok c⟩ from by rw [← hr])
  obtain ⟨ns', h1', h2', -⟩ := derange_ok_v6 ha' hb' (show derange rt' [prog', mode', u', v'] = ⟨_, .ok c'⟩ from by rw [← hr'])
  rw [h2, h2', ← netOutput_lines, ← netOutput_lines]
  intro he
  exact dot_netOutput6 ns' (he ▸ dot_netOutput4 (derange_nonempty h1).1)

/-! ## The enumerate mode -/

/-- The addresses of the networks, in the order of the networks and in ascending order for each. -/
inductive Listed : List NetworkSpec → List (V4 ⊕ V6) → Prop where
  | nil : Listed [] []
  | ipv4 {a : V4} {n : Net V4} {xs : List V4} {specs : List NetworkSpec} {ys : List (V4 ⊕ V6)} (h : Listing n xs) (t : Listed specs ys) :
      Listed (.ipv4 a n :: specs) (xs.map .inl ++ ys)
  | ipv6 {a : V6} {n : Net V6} {xs : List V6} {specs : List NetworkSpec} {ys : List (V4 ⊕ V6)} (h : Listing n xs) (t : Listed specs ys) :
      Listed (.ipv6 a n :: specs) (xs.map .inr ++ ys)

/-- The text of an address of either family. -/
def addressText : V4 ⊕ V6 → Str
  | .inl a => IpAddr.display a
  | .inr a => IpAddr.display a

theorem addressText_inj {x y : V4 ⊕ V6} (h : addressText x = addressText y) : x = y := by
  cases x with
  | inl a =>
    cases y with
    | inl b => rw [layout4.inj a b h]
    | inr b =>
      have h' : IpAddr.display a = IpAddr.display b := h
      exact absurd (h' ▸ dot_mem_display4 a) (dot_not_mem_display6 b)
  | inr a =>
    cases y with
    | inl b =>
      have h' : IpAddr.display a = IpAddr.display b := h
      exact absurd (h' ▸ dot_mem_display4 b) (dot_not_mem_display6 a)
    | inr b => rw [layout6.inj a b h]

theorem addressText_newline (x : V4 ⊕ V6) : '\n' ∉ addressText x := by
  cases x with
  | inl a => exact plain_newline (layout4.plain a)
  | inr a => exact plain_newline (layout6.plain a)

theorem enumerate_listed {args : List Str} {specs : List NetworkSpec} {l : List (V4 ⊕ V6)} {evss : List (List OutEv)}
    (hp : Pointwise (fun s x => parseNetspec s = .ok (.ok x)) args specs) (hl : Listed specs l) (he : Pointwise ArgOutput args evss) :
    evss.flatten = lineEvents (l.map addressText) := by
  induction hl generalizing args evss with
  | nil => cases hp; cases he; rfl
  | @ipv4 a n xs specs ys h t ih =>
    cases hp with
    | @cons s _ args _ h1 h2 =>
      cases he with
      | @cons _ evs _ evss h3 h4 =>
        have : ArgOutput s (xs.map fun x => .out (IpAddr.display x ++ ['\n'])) := .inr (.inl ⟨a, n, xs, h1, h, rfl⟩)
        rw [List.flatten_cons, C38_output_unique _ _ _ h3 this, ih h2 h4]
        simp [lineEvents, addressText]
  | @ipv6 a n xs specs ys h t ih =>
    cases hp with
    | @cons s _ args _ h1 h2 =>
      cases he with
      | @cons _ evs _ evss h3 h4 =>
        have : ArgOutput s (xs.map fun x => .out (IpAddr.display x ++ ['\n'])) := .inr (.inr ⟨a, n, xs, h1, h, rfl⟩)
        rw [List.flatten_cons, C38_output_unique _ _ _ h3 this, ih h2 h4]
        simp [lineEvents, addressText]

/-- The enumerate mode prints the same for two lists of networks exactly if the addresses listed are the same, in the same order. -/
theorem C96_enumerate (rt rt' : Runtime) (prog prog' mode mode' : Str) (hm : mode = "-e".toList ∨ mode = "--enumerate".toList)
    (hm' : mode' = "-e".toList ∨ mode' = "--enumerate".toList) (args args' : List Str) (specs specs' : List NetworkSpec)
    (hp : Pointwise (fun s x => parseNetspec s = .ok (.ok x)) args specs)
    (hp' : Pointwise (fun s x => parseNetspec s = .ok (.ok x)) args' specs') (l l' : List (V4 ⊕ V6)) (hl : Listed specs l)
    (hl' : Listed specs' l') :
    stdoutText (doMain rt (prog :: mode :: args)).out = stdoutText (doMain rt' (prog' :: mode' :: args')).out ↔ l = l' := by
  have key : ∀ (rt : Runtime) (prog mode : Str) (args : List Str) (specs : List NetworkSpec) (l : List (V4 ⊕ V6)),
      mode = "-e".toList ∨ mode = "--enumerate".toList → Pointwise (fun s x => parseNetspec s = .ok (.ok x)) args specs → Listed specs l →
      stdoutText (doMain rt (prog :: mode :: args)).out = (l.map addressText).flatMap (· ++ ['\n']) := by
    intro rt prog mode args specs l hm hp hl
    rw [(C56_dispatch rt prog mode args).2.2.2.2.1 hm]
    cases hp with
    | nil =>
      cases hl
      rw [C38_usage rt _ (by simp)]
      rfl
    | @cons s x args specs h1 h2 =>
      obtain ⟨evss, code, k1, k2, -⟩ := C38_enumerate rt (prog :: mode :: s :: args) (by simp)
      rw [k2, ← stdout_lineEvents]
      show stdoutText evss.flatten = _
      rw [enumerate_listed (.cons h1 h2) hl k1]
  rw [key rt prog mode args specs l hm hp hl, key rt' prog' mode' args' specs' l' hm' hp' hl']
  constructor
  · intro h
    have hn : ∀ l : List (V4 ⊕ V6), ∀ t ∈ l.map addressText, '\n' ∉ t := by
      intro l t ht
      obtain ⟨x, -, rfl⟩ := List.mem_map.mp ht
      exact addressText_newline x
    exact (List.map_inj_right fun x y hxy => addressText_inj hxy).mp (lines_inj (hn l) (hn l') h)
  · rintro rfl
    rfl

/-- Such a list of addresses always exists. -/
theorem C96_listed (args : List Str) (specs : List NetworkSpec) (hp : Pointwise (fun s x => parseNetspec s = .ok (.ok x)) args specs) :
    ∃ l, Listed specs l := by
  have hg := pointwise_good hp
  clear hp
  induction specs with
  | nil => exact ⟨[], .nil⟩
  | cons x specs ih =>
    obtain ⟨l, hl⟩ := ih fun y hy => hg y (by simp [hy])
    cases x with
    | ipv4 a n =>
      obtain ⟨xs, -, h⟩ := enumerate_listing .checked n (hg (.ipv4 a n) (by simp)).2.1
      exact ⟨_, .ipv4 h hl⟩
    | ipv6 a n =>
      obtain ⟨xs, -, h⟩ := enumerate_listing .checked n (hg (.ipv6 a n) (by simp)).2.1
      exact ⟨_, .ipv6 h hl⟩

section generic
variable {A : Type} [IpAddr A] [AddrSpec A] [LawfulIpAddr A]

theorem listing_net {n n' : Net A} (hn : WF n) (hn' : WF n') {xs : List A} (h : Listing n xs) (h' : Listing n' xs) : n = n' := by
  have hm : ∀ a, Member n a ↔ Member n' a := fun a => (h.1 a).symm.trans (h'.1 a)
  have hc : ∀ a, n.contains a = true ↔ n'.contains a = true := fun a => by rw [contains_iff hn.hz, contains_iff hn'.hz, hm a]
  obtain ⟨h1, h2⟩ := C28_superset n n' hn hn'
  exact (C28_antisymm n n' hn hn').mp ⟨h1.mpr fun a => (hc a).mpr, h2.mpr fun a => (hc a).mp⟩

end generic

/-- For single networks, with any masks, it prints the same exactly if the networks are equal. -/
theorem C96_enumerate_one (rt rt' : Runtime) (prog prog' mode mode' s s' : Str) (hm : mode = "-e".toList ∨ mode = "--enumerate".toList)
    (hm' : mode' = "-e".toList ∨ mode' = "--enumerate".toList) :
    (∀ (a a' : V4) (n n' : Net V4), parseNetspec s = .ok (.ok (.ipv4 a n)) → parseNetspec s' = .ok (.ok (.ipv4 a' n')) →
      (stdoutText (doMain rt [prog, mode, s]).out = stdoutText (doMain rt' [prog', mode', s']).out ↔ n = n')) ∧
    (∀ (a a' : V6) (n n' : Net V6), parseNetspec s = .ok (.ok (.ipv6 a n)) → parseNetspec s' = .ok (.ok (.ipv6 a' n')) →
      (stdoutText (doMain rt [prog, mode, s]).out = stdoutText (doMain rt' [prog', mode', s']).out ↔ n = n')) ∧
    (∀ (a : V4) (a' : V6) (n : Net V4) (n' : Net V6), parseNetspec s = .ok (.ok (.ipv4 a n)) →
      parseNetspec s' = .ok (.ok (.ipv6 a' n')) →
      stdoutText (doMain rt [prog, mode, s]).out ≠ stdoutText (doMain rt' [prog', mode', s']).out) := by
  refine ⟨fun a a' n n' h h' => ?_, fun a a' n n' h h' => ?_, fun a a' n n' h h' => ?_⟩
  · have hn := (C33_parsed_good s _ h).2.1
    have hn' := (C33_parsed_good s' _ h').2.1
    obtain ⟨xs, -, hx⟩ := enumerate_listing .checked n hn
    obtain ⟨xs', -, hx'⟩ := enumerate_listing .checked n' hn'
    rw [C96_enumerate rt rt' prog prog' mode mode' hm hm' [s] [s'] _ _ (.cons h .nil) (.cons h' .nil) _ _ (.ipv4 hx .nil) (.ipv4 hx' .nil)]
    rw [List.append_nil, List.append_nil, List.map_inj_right fun x y hxy => Sum.inl.inj hxy]
    constructor
    · rintro rfl
      exact listing_net hn hn' hx hx'
    · rintro rfl
      exact hx.unique hx'
  · have hn := (C33_parsed_good s _ h).2.1
    have hn' := (C33_parsed_good s' _ h').2.1
    obtain ⟨xs, -, hx⟩ := enumerate_listing .checked n hn
    obtain ⟨xs', -, hx'⟩ := enumerate_listing .checked n' hn'
    rw [C96_enumerate rt rt' prog prog' mode mode' hm hm' [s] [s'] _ _ (.cons h .nil) (.cons h' .nil) _ _ (.ipv6 hx .nil) (.ipv6 hx' .nil)]
    rw [List.append_nil, List.append_nil, List.map_inj_right fun x y hxy => Sum.inr.inj hxy]
    constructor
    · rintro rfl
      exact listing_net hn hn' hx hx'
    · rintro rfl
      exact hx.unique hx'
  · have hn := (C33_parsed_good s _ h).2.1
    have hn' := (C33_parsed_good s' _ h').2.1
    obtain ⟨xs, -, hx⟩ := enumerate_listing .checked n hn
    obtain ⟨xs', -, hx'⟩ := enumerate_listing .checked n' hn'
    rw [ne_eq, C96_enumerate rt rt' prog prog' mode mode' hm hm' [s] [s'] _ _ (.cons h .nil) (.cons h' .nil) _ _ (.ipv4 hx .nil)
      (.ipv6 hx' .nil)]
    intro he
    have h1 : Sum.inl n.baseAddr ∈ xs.map (Sum.inl (β := V6)) ++ [] := by simpa using (hx.1 n.baseAddr).mpr (base_member n)
    rw [he] at h1
    simp at h1

/-! ## Examples -/

/-- Two lists of networks with the same addresses, in different spellings. -/
example : Pointwise Is4 ["10.0.0.0/25".toList, "10.0.0.129/25".toList]
      [(⟨0x0A000000#32⟩, ⟨⟨0x0A000000#32⟩, ⟨0xFFFFFF80#32⟩, some 25⟩), (⟨0x0A000081#32⟩, ⟨⟨0x0A000080#32⟩, ⟨0xFFFFFF80#32⟩, some 25⟩)] ∧
    Pointwise Is4 ["10.0.0.7/24".toList, "10.0.0.8/32".toList]
      [(⟨0x0A000007#32⟩, ⟨⟨0x0A000000#32⟩, ⟨0xFFFFFF00#32⟩, some 24⟩), (⟨0x0A000008#32⟩, ⟨⟨0x0A000008#32⟩, ⟨0xFFFFFFFF#32⟩, some 32⟩)] :=
  ⟨.cons (by unfold Is4; decide +kernel) (.cons (by unfold Is4; decide +kernel) .nil),
    .cons (by unfold Is4; decide +kernel) (.cons (by unfold Is4; decide +kernel) .nil)⟩

/-- Texts of addresses for the derange mode, and a range that is printed. -/
example : parseAddr "10.0.0.3".toList = .ok (.ok (.ipv4 ⟨0x0A000003#32⟩)) ∧ parseAddr "10.00.0.9".toList = .ok (.ok (.ipv4 ⟨0x0A000009#32⟩)) ∧
    ∃ c, (doMain (evalRuntime .checked false) ["ripcalc".toList, "-d".toList, "10.0.0.3".toList, "10.00.0.9".toList]).res = .ok c := by
  refine ⟨by decide +kernel, by decide +kernel, (C66_derange _ _ _ _ (.inl rfl)).mpr ?_⟩
  rintro (⟨u, v, a, b, h1, h2, h3, h4⟩ | ⟨u, v, a, b, h1, h2, h3, h4⟩)
  · obtain ⟨rfl, rfl⟩ : "10.0.0.3".toList = u ∧ "10.00.0.9".toList = v := by simpa using h1
    have e2 : a = ⟨0x0A000003#32⟩ := by
      have : parseAddr "10.0.0.3".toList = .ok (.ok (.ipv4 ⟨0x0A000003#32⟩)) := by decide +kernel
      rw [this] at h2; cases h2; rfl
    have e3 : b = ⟨0x0A000009#32⟩ := by
      have : parseAddr "10.00.0.9".toList = .ok (.ok (.ipv4 ⟨0x0A000009#32⟩)) := by decide +kernel
      rw [this] at h3; cases h3; rfl
    subst e2 e3
    revert h4; decide
  · obtain ⟨rfl, rfl⟩ : "10.0.0.3".toList = u ∧ "10.00.0.9".toList = v := by simpa using h1
    have : parseAddr "10.0.0.3".toList = .ok (.ok (.ipv4 ⟨0x0A000003#32⟩)) := by decide +kernel
    rw [this] at h2
    cases h2

/-- A list of networks of both families with its addresses. -/
example : Pointwise (fun s x => parseNetspec s = .ok (.ok x)) ["10.0.0.1/31".toList, "1::2/128".toList]
      [.ipv4 ⟨0x0A000001#32⟩ ⟨⟨0x0A000000#32⟩, ⟨0xFFFFFFFE#32⟩, some 31⟩,
       .ipv6 ⟨0x0001000000000000#64, 2#64⟩ ⟨⟨0x0001000000000000#64, 2#64⟩, ⟨0xFFFFFFFFFFFFFFFF#64, 0xFFFFFFFFFFFFFFFF#64⟩, some 128⟩] :=
  .cons (by decide +kernel) (.cons (by decide +kernel) .nil)

end Ripcalc
