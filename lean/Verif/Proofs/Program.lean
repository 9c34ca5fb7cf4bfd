import Verif.Proofs.MarkCommands
import Verif.Props.Joining
import Verif.Props.ColorTest
import Verif.Props.Complaints
import Verif.Props.Rfc
/-!
# Lemmas about the description of the program
-/
set_option linter.unusedSectionVars false
namespace Ripcalc
open AddrSpec LawfulIpAddr

/-! ## Texts -/

theorem v4Text_unique {a : V4} {t u : Str} (h : V4Text a t) (h' : V4Text a u) : t = u := by
  obtain ⟨t0, t1, t2, t3, v0, v1, v2, v3, rfl, ⟨h0, k0⟩, ⟨h1, k1⟩, ⟨h2, k2⟩, ⟨h3, k3⟩, hv⟩ := h
  obtain ⟨s0, s1, s2, s3, w0, w1, w2, w3, rfl, ⟨g0, l0⟩, ⟨g1, l1⟩, ⟨g2, l2⟩, ⟨g3, l3⟩, hw⟩ := h'
  have he : [v0, v1, v2, v3] = [w0, w1, w2, w3] := by
    refine bigEndian_inj rfl ?_ ?_ (hv.symm.trans hw)
    · intro d hd; simp only [List.mem_cons, List.not_mem_nil, or_false] at hd; omega
    · intro d hd; simp only [List.mem_cons, List.not_mem_nil, or_false] at hd; omega
  cases he
  rw [h0.text_unique (by decide) g0, h1.text_unique (by decide) g1, h2.text_unique (by decide) g2, h3.text_unique (by decide) g3]

theorem chunkOf_mem {a : V6} {s l : Nat} (h : FirstLongestZeroRun (chunkVals a) s l) : ∃ i, i < 8 ∧ chunkOf a i = 0 := by
  obtain ⟨h1, ⟨h2, h3⟩, -⟩ := h
  rw [V6.chunkVals_length] at h2
  refine ⟨s, by omega, ?_⟩
  have := h3 s (Nat.le_refl _) (by omega)
  rw [chunkVals, List.getElem?_map, List.getElem?_range (by omega)] at this
  simpa using this

theorem v6Text_unique {a : V6} {t u : Str} (h : V6Text a t) (h' : V6Text a u) : t = u := by
  obtain ⟨hs, h1, h2⟩ := h
  obtain ⟨hs', h1', h2'⟩ := h'
  obtain rfl : hs = hs' := (canonical_hexes a h1).trans (canonical_hexes a h1').symm
  rcases h2 with ⟨h2, rfl⟩ | ⟨s, l, h2, rfl⟩ <;> rcases h2' with ⟨h2', rfl⟩ | ⟨s', l', h2', rfl⟩
  · rfl
  · obtain ⟨i, hi, h0⟩ := chunkOf_mem h2'
    exact absurd h0 (h2 i hi)
  · obtain ⟨i, hi, h0⟩ := chunkOf_mem h2
    exact absurd h0 (h2' i hi)
  · obtain ⟨rfl, rfl⟩ := C12_run_unique _ _ _ _ _ h2 h2'
    rfl

theorem num_canonical (n : Nat) : CanonicalNumeral 10 (showNat 10 n) n := showNat_canonical (by decide) (by decide) n

theorem texts_right (T : Texts) : T.Right ↔ T = shownTexts := by
  constructor
  · intro h
    obtain ⟨f, g, k⟩ := T
    have e1 : f = IpAddr.display := funext fun a => v4Text_unique (h.v4 a) (C08_ipv4_shape a)
    have e2 : g = IpAddr.display := funext fun a => v6Text_unique (h.v6 a) (C12_ipv6_display a)
    have e3 : k = showNat 10 := funext fun n => (h.num n).text_unique (by decide) (num_canonical n)
    subst e1 e2 e3
    rfl
  · rintro rfl
    exact ⟨C08_ipv4_shape, C12_ipv6_display, num_canonical⟩

/-! ## Outcomes -/

theorem of_lines {A : Type} [IpAddr A] [AddrSpec A] [LawfulIpAddr A] (ns : List (Net A)) : Outcome.of ⟨netOutput ns, .ok 0⟩ = .shown (plainly (netLines ns)) := by
  refine of_views (views_plain (fun e he c s h => ?_) (shows_lines ns))
  obtain ⟨n, -, rfl⟩ := List.mem_map.mp he
  cases h

theorem visible_lines {α : Type} (f : α → Str) (xs : List α) :
    visible (xs.map fun x => .out (f x ++ ['\n'])) = asLines (xs.map f) := by
  induction xs with
  | nil => rfl
  | cons x xs ih =>
    rw [List.map_cons, List.map_cons, ← List.singleton_append, visible_append, ih]
    have e : (Prod.snd ∘ fun c : Char => ((none : Option Color), c)) = id := rfl
    simp [visible, cells, asLines, cellsOf, e]

theorem of_err (m : ErrMsg) (c : Nat) : Outcome.of ⟨[.err m], .ok c⟩ = ⟨[], [m], .status c⟩ := rfl

/-- A complaint is everything, except in two modes. -/
theorem of_complaint {rt : Runtime} {prog mode : Str} {rest : List Str} {m : ErrMsg}
    (h : m ∈ messages (doMain rt (prog :: mode :: rest)).out)
    (hm : mode ∉ ["-e", "--enumerate", "--help"].map String.toList) : Outcome.of (doMain rt (prog :: mode :: rest)) = .complaint m := by
  rcases C76_message rt _ m h with h1 | ⟨-, p, r, h1⟩ | ⟨p, md, ss, s, e, h1, h2, -⟩
  · rw [h1]; rfl
  · cases h1
    exact absurd (by decide) hm
  · cases h1
    rcases h2 with rfl | rfl
    · exact absurd (by decide) hm
    · exact absurd (by decide) hm

/-! ## IPv4 -/

theorem pairs4 {ss : List Str} {ns : List (Net V4)} (h : Pointwise (fun s n => ∃ a, V4Network s a n) ss ns) :
    ∃ xs, Pointwise Is4 ss xs ∧ xs.map (·.2) = ns := by
  induction h with
  | nil => exact ⟨[], .nil, rfl⟩
  | @cons s n ss ns h1 _ ih =>
    obtain ⟨a, h1⟩ := h1
    obtain ⟨xs, h2, rfl⟩ := ih
    exact ⟨(a, n) :: xs, .cons ((v4Network_iff s a n).mpr h1) h2, rfl⟩

theorem pairs4_rev {ss : List Str} {xs : List (V4 × Net V4)} (h : Pointwise Is4 ss xs) :
    Pointwise (fun s n => ∃ a, V4Network s a n) ss (xs.map (·.2)) ∧ ∀ n ∈ xs.map (·.2), WF n := by
  induction h with
  | nil => exact ⟨.nil, fun n hn => by cases hn⟩
  | @cons s x ss xs h1 _ ih =>
    refine ⟨.cons ⟨x.1, (v4Network_iff s x.1 x.2).mp h1⟩ ih.1, fun n hn => ?_⟩
    rcases List.mem_cons.mp hn with rfl | hn
    · exact (C33_parsed_good s _ h1).2.1
    · exact ih.2 n hn

theorem minimizes4 (rt : Runtime) (prog mode : Str) (ss : List Str) (r : Outcome) : shownTexts.ipv4.Minimizes ss r ↔
    ss ≠ [] ∧ (∀ y ∈ ss, IsV4Network y) ∧ r = Outcome.of (minimize rt (prog :: mode :: ss)) := by
  constructor
  · rintro ⟨hne, ns, out, hp, hm, rfl⟩
    obtain ⟨xs, hx, rfl⟩ := pairs4 hp
    obtain ⟨out', h1, h2⟩ := C63_minimize_v4 rt prog mode ss hne xs hx
    have h3 := (C88_steps rt _ out (pairs4_rev hx).2).mpr hm
    rw [h1] at h3
    cases h3
    rw [h2, (displayed4 (Runtime.reference .checked true) rfl).netLines]
    exact ⟨hne, (pointwise4_iff ss).mp ⟨xs, hx⟩, (of_lines _).symm⟩
  · rintro ⟨hne, h, rfl⟩
    obtain ⟨xs, hx⟩ := (pointwise4_iff ss).mpr h
    obtain ⟨out, h1, h2⟩ := C63_minimize_v4 rt prog mode ss hne xs hx
    obtain ⟨h3, h4⟩ := pairs4_rev hx
    refine ⟨hne, _, out, h3, (C88_steps rt _ out h4).mp h1, ?_⟩
    rw [h2, (displayed4 (Runtime.reference .checked true) rfl).netLines]
    exact of_lines _

theorem derange4_top (rt : Runtime) (prog mode u v : Str) (a b : V4) (ha : parseAddr u = .ok (.ok (.ipv4 a)))
    (hb : parseAddr v = .ok (.ok (.ipv4 b))) (h : max (val a) (val b) = 2 ^ width V4 - 1) :
    Outcome.of (derange rt [prog, mode, u, v]) =
      ⟨[], [], if min (val a) (val b) = 0 ∧ rt.profile = .wrapping then .never else .panics⟩ := by
  obtain ⟨-, h2, h3⟩ := C39_command_v4 rt prog mode u v a b ha hb
  by_cases h0 : min (val a) (val b) = 0
  · obtain ⟨k1, k2⟩ := C39_whole_space a b h h0
    cases hp : rt.profile with
    | checked =>
      rw [hp] at h2
      rw [h2 _ k1, if_neg (by rintro ⟨-, h⟩; cases h)]
      rfl
    | wrapping =>
      rw [hp] at h3
      rw [h3 k2, if_pos ⟨h0, rfl⟩]
      rfl
  · rw [h2 _ (C39_top_panics rt.profile a b h h0), if_neg (fun h => h0 h.1)]
    rfl

theorem derange4_range (rt : Runtime) (prog mode u v : Str) (a b : V4) (ha : parseAddr u = .ok (.ok (.ipv4 a)))
    (hb : parseAddr v = .ok (.ok (.ipv4 b))) (h : max (val a) (val b) ≠ 2 ^ width V4 - 1) (ns : List (Net V4))
    (hs : Shortest (min (val a) (val b)) (max (val a) (val b)) ns) :
    Outcome.of (derange rt [prog, mode, u, v]) = .shown (plainly (shownTexts.ipv4.netLines ns)) := by
  rw [(C39_command_v4 rt prog mode u v a b ha hb).1 ns ((range_shortest rt.profile a b h ns).mpr hs), (displayed4 (Runtime.reference .checked true) rfl).netLines]
  exact of_lines _

theorem deranges4 (rt : Runtime) (prog mode : Str) (ss : List Str) (r : Outcome) : shownTexts.ipv4.Deranges rt.profile ss r ↔
    ∃ u v a b, ss = [u, v] ∧ parseAddr u = .ok (.ok (.ipv4 a)) ∧ parseAddr v = .ok (.ok (.ipv4 b)) ∧
      r = Outcome.of (derange rt (prog :: mode :: ss)) := by
  constructor
  · rintro ⟨u, v, a, b, rfl, ha, hb, ⟨h, rfl⟩ | ⟨h, ns, hs, rfl⟩⟩
    · have ha := ((C36_parse_addr u).2.1 a).mpr ha
      have hb := ((C36_parse_addr v).2.1 b).mpr hb
      exact ⟨u, v, a, b, rfl, ha, hb, (derange4_top rt prog mode u v a b ha hb h).symm⟩
    · have ha := ((C36_parse_addr u).2.1 a).mpr ha
      have hb := ((C36_parse_addr v).2.1 b).mpr hb
      exact ⟨u, v, a, b, rfl, ha, hb, (derange4_range rt prog mode u v a b ha hb h ns hs).symm⟩
  · rintro ⟨u, v, a, b, rfl, ha, hb, rfl⟩
    refine ⟨u, v, a, b, rfl, ((C36_parse_addr u).2.1 a).mp ha, ((C36_parse_addr v).2.1 b).mp hb, ?_⟩
    by_cases h : max (val a) (val b) = 2 ^ width V4 - 1
    · exact .inl ⟨h, derange4_top rt prog mode u v a b ha hb h⟩
    · obtain ⟨ns, hs⟩ := shortest_exists a b h
      exact .inr ⟨h, ns, hs, derange4_range rt prog mode u v a b ha hb h ns hs⟩

theorem resizes4 (rt : Runtime) (hcol : rt.colorsEnabled = true) (prog mode : Str) (ss : List Str) (r : Outcome) :
    shownTexts.ipv4.Resizes ss r ↔ ∃ s k a n m, ss = [s, k] ∧ parseNetspec s = .ok (.ok (.ipv4 a n)) ∧
      resizeMask4 k = .ok (.ok m) ∧ r = Outcome.of (resize rt (prog :: mode :: ss)) := by
  have key : ∀ s k a n m, parseNetspec s = .ok (.ok (.ipv4 a n)) → resizeMask4 k = .ok (.ok m) →
      resize rt [prog, mode, s, k] = (do resizeAndOutput rt n m (outputIpv4Network rt); return 0) := by
    intro s k a n m hs hk
    rw [resize, if_neg (by simp)]
    simp only [List.getD_cons_succ, List.getD_cons_zero, hs, hk, Cli.lift_ok_bind]
  constructor
  · rintro ⟨s, k, a, n, m, ns, t, ts, rfl, h1, h2, h3⟩
    have h1 := (v4Network_iff s a n).mpr h1
    have h2 := ((C34_resize_ipv4 k).2 m).mpr h2
    exact ⟨s, k, a, n, m, rfl, h1, h2,
      (resize_iff (displayed4 rt hcol) rt n (C33_parsed_good s _ h1).2.1 m _ (key s k a n m h1 h2) r).mp ⟨ns, t, ts, h3⟩⟩
  · rintro ⟨s, k, a, n, m, rfl, h1, h2, rfl⟩
    obtain ⟨ns, t, ts, h3⟩ := (resize_iff (displayed4 rt hcol) rt n (C33_parsed_good s _ h1).2.1 m _ (key s k a n m h1 h2) _).mpr rfl
    exact ⟨s, k, a, n, m, ns, t, ts, rfl, (v4Network_iff s a n).mp h1, ((C34_resize_ipv4 k).2 m).mp h2, h3⟩

theorem splits4_shown (rt : Runtime) (hcol : rt.colorsEnabled = true) (prog mode s : Str) (counts : List Str) (hne : counts ≠ [])
    (hcs : List Int) (hc : Counts counts hcs) (a : V4) (n : Net V4) (hp : parseNetspec s = .ok (.ok (.ipv4 a n))) :
    shownTexts.ipv4.Splits (s :: counts) (Outcome.of (split rt (prog :: mode :: s :: counts))) := by
  have hn : WF n := (C33_parsed_good s _ hp).2.1
  rw [split_v4 rt prog mode s counts hne hcs hc a n hp]
  refine ⟨s, counts, hcs, a, n, rfl, hne, hc, (v4Network_iff s a n).mp hp, ?_⟩
  rcases C97_split_networks rt rt n hcs with ⟨h, -⟩ | ⟨ns, -, h, -⟩
  · exact .inl ⟨fun ns hs => (C54_refused rt n hcs).mp h ⟨ns, hs⟩, (split_none_iff (displayed4 rt hcol) rt n hn hcs h _).mpr rfl⟩
  · obtain ⟨text, h1, h2⟩ := (split_some_iff (displayed4 rt hcol) rt n hn hcs (hc.ne_nil hne) hc.nonneg ns h _).mpr rfl
    exact .inr ⟨ns, text, split_into rt n hcs ns h, h1, h2⟩

theorem splits4_arise (pr : Profile) (prog mode : Str) (ss : List Str) (r : Outcome) (h : shownTexts.ipv4.Splits ss r) :
    ∃ rt : Runtime, rt.profile = pr ∧ rt.colorsEnabled = true ∧ r = Outcome.of (split rt (prog :: mode :: ss)) := by
  obtain ⟨s, counts, hcs, a, n, rfl, hne, hc, hp, h⟩ := h
  have hp := (v4Network_iff s a n).mpr hp
  have hn : WF n := (C33_parsed_good s _ hp).2.1
  rcases h with ⟨h1, h2⟩ | ⟨ns, text, h1, h2⟩
  · refine ⟨Runtime.reference pr true, rfl, rfl, ?_⟩
    rw [split_v4 _ prog mode s counts hne hcs hc a n hp]
    exact (split_none_iff (displayed4 _ rfl) _ n hn hcs ((C54_refused _ n hcs).mpr fun ⟨ns, hs⟩ => h1 ns hs) r).mp h2
  · obtain ⟨rt, e1, e2, e3⟩ := (C52_exactly pr true n hcs ns).mpr h1
    refine ⟨rt, e1, e2, ?_⟩
    rw [split_v4 _ prog mode s counts hne hcs hc a n hp]
    exact (split_some_iff (displayed4 rt e2) rt n hn hcs (Counts.ne_nil hc hne) (Counts.nonneg hc) ns e3 r).mp ⟨text, h2⟩

theorem shown4_iff (s : Str) (t : List Mark) : shownTexts.ipv4.Shown s t ↔
    ∃ a n, parseNetspec s = .ok (.ok (.ipv4 a n)) ∧ shownTexts.ipv4.Block n (some a) t := by
  unfold Family.Shown
  simp only [v4Network_iff]
  rfl

theorem enumerated4_iff (s t : Str) : shownTexts.ipv4.Enumerated s t ↔
    ∃ a n xs, parseNetspec s = .ok (.ok (.ipv4 a n)) ∧ Listing n xs ∧
      t = visible (xs.map fun x : V4 => .out (IpAddr.display x ++ ['\n'])) := by
  unfold Family.Enumerated
  simp only [visible_lines, v4Network_iff]
  rfl

/-! ## IPv6 -/

theorem pairs6 {ss : List Str} {ns : List (Net V6)} (h : Pointwise (fun s n => ∃ a, V6Network s a n) ss ns) :
    ∃ xs, Pointwise Is6 ss xs ∧ xs.map (·.2) = ns := by
  induction h with
  | nil => exact ⟨[], .nil, rfl⟩
  | @cons s n ss ns h1 _ ih =>
    obtain ⟨a, h1⟩ := h1
    obtain ⟨xs, h2, rfl⟩ := ih
    exact ⟨(a, n) :: xs, .cons ((v6Network_iff s a n).mpr h1) h2, rfl⟩

theorem pairs6_rev {ss : List Str} {xs : List (V6 × Net V6)} (h : Pointwise Is6 ss xs) :
    Pointwise (fun s n => ∃ a, V6Network s a n) ss (xs.map (·.2)) ∧ ∀ n ∈ xs.map (·.2), WF n := by
  induction h with
  | nil => exact ⟨.nil, fun n hn => by cases hn⟩
  | @cons s x ss xs h1 _ ih =>
    refine ⟨.cons ⟨x.1, (v6Network_iff s x.1 x.2).mp h1⟩ ih.1, fun n hn => ?_⟩
    rcases List.mem_cons.mp hn with rfl | hn
    · exact (C33_parsed_good s _ h1).2.1
    · exact ih.2 n hn

theorem minimizes6 (rt : Runtime) (prog mode : Str) (ss : List Str) (r : Outcome) : shownTexts.ipv6.Minimizes ss r ↔
    ss ≠ [] ∧ (∀ y ∈ ss, IsV6Network y) ∧ r = Outcome.of (minimize rt (prog :: mode :: ss)) := by
  constructor
  · rintro ⟨hne, ns, out, hp, hm, rfl⟩
    obtain ⟨xs, hx, rfl⟩ := pairs6 hp
    obtain ⟨out', h1, h2⟩ := C63_minimize_v6 rt prog mode ss hne xs hx
    have h3 := (C88_steps rt _ out (pairs6_rev hx).2).mpr hm
    rw [h1] at h3
    cases h3
    rw [h2, (displayed6 (Runtime.reference .checked true) rfl).netLines]
    exact ⟨hne, (pointwise6_iff ss).mp ⟨xs, hx⟩, (of_lines _).symm⟩
  · rintro ⟨hne, h, rfl⟩
    obtain ⟨xs, hx⟩ := (pointwise6_iff ss).mpr h
    obtain ⟨out, h1, h2⟩ := C63_minimize_v6 rt prog mode ss hne xs hx
    obtain ⟨h3, h4⟩ := pairs6_rev hx
    refine ⟨hne, _, out, h3, (C88_steps rt _ out h4).mp h1, ?_⟩
    rw [h2, (displayed6 (Runtime.reference .checked true) rfl).netLines]
    exact of_lines _

theorem derange6_top (rt : Runtime) (prog mode u v : Str) (a b : V6) (ha : parseAddr u = .ok (.ok (.ipv6 a)))
    (hb : parseAddr v = .ok (.ok (.ipv6 b))) (h : max (val a) (val b) = 2 ^ width V6 - 1) :
    Outcome.of (derange rt [prog, mode, u, v]) =
      ⟨[], [], if min (val a) (val b) = 0 ∧ rt.profile = .wrapping then .never else .panics⟩ := by
  obtain ⟨-, h2, h3⟩ := C39_command_v6 rt prog mode u v a b ha hb
  by_cases h0 : min (val a) (val b) = 0
  · obtain ⟨k1, k2⟩ := C39_whole_space a b h h0
    cases hp : rt.profile with
    | checked =>
      rw [hp] at h2
      rw [h2 _ k1, if_neg (by rintro ⟨-, h⟩; cases h)]
      rfl
    | wrapping =>
      rw [hp] at h3
      rw [h3 k2, if_pos ⟨h0, rfl⟩]
      rfl
  · rw [h2 _ (C39_top_panics rt.profile a b h h0), if_neg (fun h => h0 h.1)]
    rfl

theorem derange6_range (rt : Runtime) (prog mode u v : Str) (a b : V6) (ha : parseAddr u = .ok (.ok (.ipv6 a)))
    (hb : parseAddr v = .ok (.ok (.ipv6 b))) (h : max (val a) (val b) ≠ 2 ^ width V6 - 1) (ns : List (Net V6))
    (hs : Shortest (min (val a) (val b)) (max (val a) (val b)) ns) :
    Outcome.of (derange rt [prog, mode, u, v]) = .shown (plainly (shownTexts.ipv6.netLines ns)) := by
  rw [(C39_command_v6 rt prog mode u v a b ha hb).1 ns ((range_shortest rt.profile a b h ns).mpr hs), (displayed6 (Runtime.reference .checked true) rfl).netLines]
  exact of_lines _

theorem deranges6 (rt : Runtime) (prog mode : Str) (ss : List Str) (r : Outcome) : shownTexts.ipv6.Deranges rt.profile ss r ↔
    ∃ u v a b, ss = [u, v] ∧ parseAddr u = .ok (.ok (.ipv6 a)) ∧ parseAddr v = .ok (.ok (.ipv6 b)) ∧
      r = Outcome.of (derange rt (prog :: mode :: ss)) := by
  constructor
  · rintro ⟨u, v, a, b, rfl, ha, hb, ⟨h, rfl⟩ | ⟨h, ns, hs, rfl⟩⟩
    · have ha := ((C36_parse_addr u).2.2.1 a).mpr ha
      have hb := ((C36_parse_addr v).2.2.1 b).mpr hb
      exact ⟨u, v, a, b, rfl, ha, hb, (derange6_top rt prog mode u v a b ha hb h).symm⟩
    · have ha := ((C36_parse_addr u).2.2.1 a).mpr ha
      have hb := ((C36_parse_addr v).2.2.1 b).mpr hb
      exact ⟨u, v, a, b, rfl, ha, hb, (derange6_range rt prog mode u v a b ha hb h ns hs).symm⟩
  · rintro ⟨u, v, a, b, rfl, ha, hb, rfl⟩
    refine ⟨u, v, a, b, rfl, ((C36_parse_addr u).2.2.1 a).mp ha, ((C36_parse_addr v).2.2.1 b).mp hb, ?_⟩
    by_cases h : max (val a) (val b) = 2 ^ width V6 - 1
    · exact .inl ⟨h, derange6_top rt prog mode u v a b ha hb h⟩
    · obtain ⟨ns, hs⟩ := shortest_exists a b h
      exact .inr ⟨h, ns, hs, derange6_range rt prog mode u v a b ha hb h ns hs⟩

theorem resizes6 (rt : Runtime) (hcol : rt.colorsEnabled = true) (prog mode : Str) (ss : List Str) (r : Outcome) :
    shownTexts.ipv6.Resizes ss r ↔ ∃ s k a n m, ss = [s, k] ∧ parseNetspec s = .ok (.ok (.ipv6 a n)) ∧
      resizeMask6 k = .ok (.ok m) ∧ r = Outcome.of (resize rt (prog :: mode :: ss)) := by
  have key : ∀ s k a n m, parseNetspec s = .ok (.ok (.ipv6 a n)) → resizeMask6 k = .ok (.ok m) →
      resize rt [prog, mode, s, k] = (do resizeAndOutput rt n m (outputIpv6Network rt); return 0) := by
    intro s k a n m hs hk
    rw [resize, if_neg (by simp)]
    simp only [List.getD_cons_succ, List.getD_cons_zero, hs, hk, Cli.lift_ok_bind]
  constructor
  · rintro ⟨s, k, a, n, m, ns, t, ts, rfl, h1, h2, h3⟩
    have h1 := (v6Network_iff s a n).mpr h1
    have h2 := ((C34_resize_ipv6 k).2 m).mpr h2
    exact ⟨s, k, a, n, m, rfl, h1, h2,
      (resize_iff (displayed6 rt hcol) rt n (C33_parsed_good s _ h1).2.1 m _ (key s k a n m h1 h2) r).mp ⟨ns, t, ts, h3⟩⟩
  · rintro ⟨s, k, a, n, m, rfl, h1, h2, rfl⟩
    obtain ⟨ns, t, ts, h3⟩ := (resize_iff (displayed6 rt hcol) rt n (C33_parsed_good s _ h1).2.1 m _ (key s k a n m h1 h2) _).mpr rfl
    exact ⟨s, k, a, n, m, ns, t, ts, rfl, (v6Network_iff s a n).mp h1, ((C34_resize_ipv6 k).2 m).mp h2, h3⟩

theorem splits6_shown (rt : Runtime) (hcol : rt.colorsEnabled = true) (prog mode s : Str) (counts : List Str) (hne : counts ≠ [])
    (hcs : List Int) (hc : Counts counts hcs) (a : V6) (n : Net V6) (hp : parseNetspec s = .ok (.ok (.ipv6 a n))) :
    shownTexts.ipv6.Splits (s :: counts) (Outcome.of (split rt (prog :: mode :: s :: counts))) := by
  have hn : WF n := (C33_parsed_good s _ hp).2.1
  rw [split_v6 rt prog mode s counts hne hcs hc a n hp]
  refine ⟨s, counts, hcs, a, n, rfl, hne, hc, (v6Network_iff s a n).mp hp, ?_⟩
  rcases C97_split_networks rt rt n hcs with ⟨h, -⟩ | ⟨ns, -, h, -⟩
  · exact .inl ⟨fun ns hs => (C54_refused rt n hcs).mp h ⟨ns, hs⟩, (split_none_iff (displayed6 rt hcol) rt n hn hcs h _).mpr rfl⟩
  · obtain ⟨text, h1, h2⟩ := (split_some_iff (displayed6 rt hcol) rt n hn hcs (hc.ne_nil hne) hc.nonneg ns h _).mpr rfl
    exact .inr ⟨ns, text, split_into rt n hcs ns h, h1, h2⟩

theorem splits6_arise (pr : Profile) (prog mode : Str) (ss : List Str) (r : Outcome) (h : shownTexts.ipv6.Splits ss r) :
    ∃ rt : Runtime, rt.profile = pr ∧ rt.colorsEnabled = true ∧ r = Outcome.of (split rt (prog :: mode :: ss)) := by
  obtain ⟨s, counts, hcs, a, n, rfl, hne, hc, hp, h⟩ := h
  have hp := (v6Network_iff s a n).mpr hp
  have hn : WF n := (C33_parsed_good s _ hp).2.1
  rcases h with ⟨h1, h2⟩ | ⟨ns, text, h1, h2⟩
  · refine ⟨Runtime.reference pr true, rfl, rfl, ?_⟩
    rw [split_v6 _ prog mode s counts hne hcs hc a n hp]
    exact (split_none_iff (displayed6 _ rfl) _ n hn hcs ((C54_refused _ n hcs).mpr fun ⟨ns, hs⟩ => h1 ns hs) r).mp h2
  · obtain ⟨rt, e1, e2, e3⟩ := (C52_exactly pr true n hcs ns).mpr h1
    refine ⟨rt, e1, e2, ?_⟩
    rw [split_v6 _ prog mode s counts hne hcs hc a n hp]
    exact (split_some_iff (displayed6 rt e2) rt n hn hcs (Counts.ne_nil hc hne) (Counts.nonneg hc) ns e3 r).mp ⟨text, h2⟩

theorem shown6_iff (s : Str) (t : List Mark) : shownTexts.ipv6.Shown s t ↔
    ∃ a n, parseNetspec s = .ok (.ok (.ipv6 a n)) ∧ shownTexts.ipv6.Block n (some a) t := by
  unfold Family.Shown
  simp only [v6Network_iff]
  rfl

theorem enumerated6_iff (s t : Str) : shownTexts.ipv6.Enumerated s t ↔
    ∃ a n xs, parseNetspec s = .ok (.ok (.ipv6 a n)) ∧ Listing n xs ∧
      t = visible (xs.map fun x : V6 => .out (IpAddr.display x ++ ['\n'])) := by
  unfold Family.Enumerated
  simp only [visible_lines, v6Network_iff]
  rfl

end Ripcalc
