import Verif.Props.Lists
/-!
# The columns of the resize and split modes (C94)
-/
set_option linter.unusedSectionVars false
namespace Ripcalc
open AddrSpec LawfulIpAddr

theorem allLines_cons {P : Str → Prop} {l u : Str} (hl : '\n' ∉ l) (hP : P l) (hu : AllLines P u) : AllLines P (l ++ '\n' :: u) := by
  intro line h
  rcases isLine_cons hl h with rfl | h
  · exact hP
  · exact hu line h

theorem allLines_sep {P : Str → Prop} {t u : Str} (h0 : P []) (ht : AllLines P t) (hu : AllLines P u) :
    AllLines P (t ++ '\n' :: u) := by
  intro line h
  rcases isLine_sep h with rfl | h | h
  · exact h0
  · exact ht line h
  · exact hu line h

theorem showNat_newline (n : Nat) : '\n' ∉ showNat 10 n := fun h => by
  have := showNat_mem (by omega) (by omega) h
  revert this; decide

/-- A line of the resize and split modes, with columns of these widths. -/
def ResizeModeLine (aw tw : Nat) (line : Str) : Prop := line = [] ∨ IsHeading line ∨ line ∈ remarks ∨ InColumns aw tw line

theorem fixed_heading {l : String} (h : l.toList ∈ ["Original network:", "Supernet:", "Same-sized net:", "Subnet to split:", "Unused networks:",
    "Network is too small", "Not enough addresses available for this split."].map String.toList) {aw tw : Nat} :
    ResizeModeLine aw tw l.toList := .inr (.inl (.inl h))

section generic
variable {A : Type} [IpAddr A] [AddrSpec A] [LawfulIpAddr A] {aw tw : Nat} {D : Net A → Str → Prop} {P : Str → Prop}

theorem subnetBlocks_lines (h0 : P []) (hh : ∀ i, 0 < i → P ("Subnet ".toList ++ showNat 10 i ++ ":".toList))
    (hD : ∀ n t, WF n → D n t → AllLines P t) {i : Nat} {ns : List (Net A)} {t : Str} (h : SubnetBlocks D i ns t) (hi : 0 < i)
    (hw : ∀ n ∈ ns, WF n) : AllLines P t := by
  induction h with
  | nil => exact allLines_nil P
  | @cons i n ns t u h1 _ ih =>
    have hrest := ih (by omega) fun m hm => hw m (by simp [hm])
    have := allLines_cons (l := "Subnet ".toList ++ showNat 10 i ++ ":".toList) (by
      rw [List.mem_append, List.mem_append]
      rintro ((h | h) | h)
      · revert h; decide
      · exact showNat_newline _ h
      · revert h; decide) (hh i hi) (allLines_sep h0 (hD n t (hw n (by simp)) h1) hrest)
    rw [show (":\n".toList : Str) = ":".toList ++ ['\n'] from rfl]
    simpa only [List.append_assoc, List.cons_append, List.nil_append] using this

theorem splitBlocks_lines (h0 : P []) (hh : ∀ c : Nat, P ("Subnet for ".toList ++ showNat 10 c ++ " hosts:".toList))
    (hD : ∀ n t, WF n → D n t → AllLines P t) {cs : List Int} {ns : List (Net A)} {t u : Str} (h : SplitBlocks D cs ns t)
    (hc : ∀ c ∈ cs, 0 ≤ c) (hw : ∀ n ∈ ns, WF n) (hu : AllLines P u) : AllLines P (t ++ u) := by
  induction h with
  | nil => exact hu
  | @cons c cs n ns t v h1 _ ih =>
    have hrest := ih (fun d hd => hc d (by simp [hd])) fun m hm => hw m (by simp [hm])
    obtain ⟨k, rfl⟩ : ∃ k : Nat, c = Int.ofNat k := ⟨c.toNat, (Int.toNat_of_nonneg (hc c (by simp))).symm⟩
    rw [showInt]
    have := allLines_cons (l := "Subnet for ".toList ++ showNat 10 k ++ " hosts:".toList) (by
      rw [List.mem_append, List.mem_append]
      rintro ((h | h) | h)
      · revert h; decide
      · exact showNat_newline _ h
      · revert h; decide) (hh k) (allLines_sep h0 (hD n t (hw n (by simp)) h1) hrest)
    rw [show (" hosts:\n".toList : Str) = " hosts:".toList ++ ['\n'] from rfl]
    simpa only [List.append_assoc, List.cons_append, List.nil_append] using this

theorem netLines_lines {ns : List (Net A)} (hn : ∀ n ∈ ns, '\n' ∉ n.display) (hP : ∀ n ∈ ns, P n.display) :
    AllLines P (netLines ns) := by
  induction ns with
  | nil => exact allLines_nil P
  | cons n ns ih =>
    rw [netLines, List.flatMap_cons, List.append_assoc]
    exact allLines_cons (hn n (by simp)) (hP n (by simp)) (ih (fun m hm => hn m (by simp [hm])) fun m hm => hP m (by simp [hm]))

theorem heading_number {i : Nat} (hi : 0 < i) : ResizeModeLine aw tw ("Subnet ".toList ++ showNat 10 i ++ ":".toList) :=
  .inr (.inl (.inr (.inl ⟨i, _, hi, showNat_canonical (by omega) (by omega) i, rfl⟩)))

theorem heading_count (c : Nat) : ResizeModeLine aw tw ("Subnet for ".toList ++ showNat 10 c ++ " hosts:".toList) :=
  .inr (.inl (.inr (.inr ⟨c, _, showNat_canonical (by omega) (by omega) c, rfl⟩)))

theorem resize_lines (hD : ∀ n t, WF n → D n t → AllLines (ResizeModeLine aw tw) t) {n : Net A} (hn : WF n) {ns : List (Net A)}
    (hw : ∀ o ∈ ns, WF o) {d : Ordering} {t u : Str} (ht : D n t) (hu : ResizeBlocks D ns d u) :
    AllLines (ResizeModeLine aw tw) ("Original network:\n".toList ++ t ++ ['\n'] ++ u) := by
  have hu' : AllLines (ResizeModeLine aw tw) u := by
    cases hu with
    | @super o v h =>
      have := allLines_cons (l := "Supernet:".toList) (by decide) (fixed_heading (aw := aw) (tw := tw) (by decide))
        (allLines_sep (.inl rfl) (hD _ v (hw _ (by simp)) h) (allLines_nil _))
      rw [show ("Supernet:\n".toList : Str) = "Supernet:".toList ++ ['\n'] from rfl]
      simpa only [List.append_assoc, List.cons_append, List.nil_append] using this
    | @same o v h =>
      have := allLines_cons (l := "Same-sized net:".toList) (by decide) (fixed_heading (aw := aw) (tw := tw) (by decide))
        (allLines_sep (.inl rfl) (hD _ v (hw _ (by simp)) h) (allLines_nil _))
      rw [show ("Same-sized net:\n".toList : Str) = "Same-sized net:".toList ++ ['\n'] from rfl]
      simpa only [List.append_assoc, List.cons_append, List.nil_append] using this
    | subnets h => exact subnetBlocks_lines (.inl rfl) (fun _ => heading_number) hD h (by omega) hw
  have := allLines_cons (l := "Original network:".toList) (by decide) (fixed_heading (aw := aw) (tw := tw) (by decide))
    (allLines_sep (.inl rfl) (hD _ t hn ht) hu')
  rw [show ("Original network:\n".toList : Str) = "Original network:".toList ++ ['\n'] from rfl]
  simpa only [List.append_assoc, List.cons_append, List.nil_append] using this

end generic

theorem resizeLine4 {n : Net V4} {t : Str} (hn : WF n) (h : Display4 n none t) : AllLines (ResizeModeLine 21 35) t :=
  fun line hl => .inr (.inr (display4_lines hn h line hl))

theorem resizeLine6 {n : Net V6} {t : Str} (hn : WF n) (h : Display6 n none t) : AllLines (ResizeModeLine 46 135) t :=
  fun line hl => .inr (.inr (display6_lines hn h line hl))

/-- All that the resize mode prints: the lines of displays with the columns of one family, headings and empty lines. -/
theorem C94_resize (rt : Runtime) (hcol : rt.colorsEnabled = true) (args : List Str) :
    ∃ aw tw, ((aw = 21 ∧ tw = 35) ∨ (aw = 46 ∧ tw = 135)) ∧ ∀ line, IsLine (visible (resize rt args).out) line →
      line = [] ∨ IsHeading line ∨ line ∈ remarks ∨ InColumns aw tw line := by
  by_cases hlen : args.length = 4
  · obtain ⟨prog, mode, s, k, rfl⟩ : ∃ a b c d, args = [a, b, c, d] := by
      match args, hlen with
      | [a, b, c, d], _ => exact ⟨a, b, c, d, rfl⟩
    obtain ⟨h1, h2, h3⟩ := (C64_errors rt [prog, mode, s, k]).2 prog mode s k rfl
    obtain ⟨r, hr⟩ := parseNetspec_total s
    cases r with
    | error e => exact ⟨21, 35, .inl ⟨rfl, rfl⟩, fun line hl => (isLine_nil (by rwa [h1 e hr] at hl)).elim⟩
    | ok x =>
      cases x with
      | ipv4 a n =>
        obtain ⟨r', hr'⟩ := (C34_resize_ipv4 k).1
        cases r' with
        | error e => exact ⟨21, 35, .inl ⟨rfl, rfl⟩, fun line hl => (isLine_nil (by rwa [h2 a n e hr hr'] at hl)).elim⟩
        | ok m =>
          obtain ⟨ns, d, t, u, k1, k2, k3, k4⟩ := C64_resize_v4 rt hcol prog mode s k a n hr m hr'
          have hn : WF n := (C33_parsed_good _ _ hr).2.1
          obtain ⟨ns', j1, -, j3, -⟩ := C50_result rt.profile n m hn
          rw [j1] at k1
          cases k1
          refine ⟨21, 35, .inl ⟨rfl, rfl⟩, fun line hl => ?_⟩
          rw [k4.2.1] at hl
          exact resize_lines (fun _ _ => resizeLine4) hn (fun o ho => (j3 o ho).1) k2 k3 line hl
      | ipv6 a n =>
        obtain ⟨r', hr'⟩ := (C34_resize_ipv6 k).1
        cases r' with
        | error e => exact ⟨21, 35, .inl ⟨rfl, rfl⟩, fun line hl => (isLine_nil (by rwa [h3 a n e hr hr'] at hl)).elim⟩
        | ok m =>
          obtain ⟨ns, d, t, u, k1, k2, k3, k4⟩ := C64_resize_v6 rt hcol prog mode s k a n hr m hr'
          have hn : WF n := (C33_parsed_good _ _ hr).2.1
          obtain ⟨ns', j1, -, j3, -⟩ := C50_result rt.profile n m hn
          rw [j1] at k1
          cases k1
          refine ⟨46, 135, .inr ⟨rfl, rfl⟩, fun line hl => ?_⟩
          rw [k4.2.1] at hl
          exact resize_lines (fun _ _ => resizeLine6) hn (fun o ho => (j3 o ho).1) k2 k3 line hl
  · exact ⟨21, 35, .inl ⟨rfl, rfl⟩, fun line hl => (isLine_nil (by rwa [(C64_errors rt args).1 hlen] at hl)).elim⟩

/-! ## Split -/

section generic
variable {A : Type} [IpAddr A] [AddrSpec A] [LawfulIpAddr A] {aw tw : Nat} {D : Net A → Str → Prop}
  {on : Net A → Option A → Cli Unit}

/-- The lines of the split mode: also networks. -/
def SplitModeLine (A : Type) [IpAddr A] [AddrSpec A] (aw tw : Nat) (line : Str) : Prop :=
  line = [] ∨ IsHeading line ∨ line ∈ remarks ∨ InColumns aw tw line ∨ ∃ (m : Net A) (p : Nat), IsCidr p m ∧ line = m.display

theorem ResizeModeLine.split {line : Str} (h : ResizeModeLine aw tw line) : SplitModeLine A aw tw line := by
  rcases h with h | h | h | h
  · exact .inl h
  · exact .inr (.inl h)
  · exact .inr (.inr (.inl h))
  · exact .inr (.inr (.inr (.inl h)))

theorem split_lines {binary : A → Str} (L : Layout A aw tw IpAddr.display binary) (hon : ∀ m, WF m → ∃ t, D m t ∧ Shows (on m none) () t)
    (hD : ∀ n t, WF n → D n t → AllLines (ResizeModeLine aw tw) t) (rt : Runtime) (n : Net A) (hn : WF n) (hcs : List Int) (hne : hcs ≠ [])
    (hnn : ∀ c ∈ hcs, 0 ≤ c) : AllLines (SplitModeLine A aw tw) (visible (outputSplit rt n hcs on).out) := by
  have hD' : ∀ n t, WF n → D n t → AllLines (SplitModeLine A aw tw) t := fun n t hn ht line hl => (hD n t hn ht line hl).split
  have hhead : ∀ {t u}, D n t → AllLines (SplitModeLine A aw tw) u →
      AllLines (SplitModeLine A aw tw) ("Subnet to split:\n".toList ++ t ++ ['\n'] ++ u) := by
    intro t u ht hu
    have := allLines_cons (l := "Subnet to split:".toList) (by decide) (fixed_heading (aw := aw) (tw := tw) (by decide)).split
      (allLines_sep (.inl rfl) (hD' _ t hn ht) hu)
    rw [show ("Subnet to split:\n".toList : Str) = "Subnet to split:".toList ++ ['\n'] from rfl]
    simpa only [List.append_assoc, List.cons_append, List.nil_append] using this
  have hline : ∀ {l : String} {v u : Str}, v = l.toList ++ ['\n'] → '\n' ∉ l.toList → ResizeModeLine aw tw l.toList →
      AllLines (SplitModeLine A aw tw) u → AllLines (SplitModeLine A aw tw) (v ++ u) := by
    rintro l v u rfl h1 h2 hu
    have := allLines_cons h1 h2.split hu
    simpa only [List.append_assoc, List.cons_append, List.nil_append] using this
  rcases outputSplit_outcome hon rt n hn hcs hne hnn with ⟨-, t, h1, h2⟩ | ⟨ns, mx, t, u, h1, -, h3, h4, h5, h6, h7⟩
  · rw [h2.2.1]
    refine hhead h1 ?_
    have := hline (l := "Not enough addresses available for this split.") rfl (by decide) (fixed_heading (by decide)) (allLines_nil _)
    rwa [List.append_nil] at this
  · obtain ⟨r, hr, hs⟩ := C51_requests rt n hcs
    rw [h1] at hr
    cases hr
    obtain ⟨hlen, hs⟩ := hs ns rfl
    have hw : ∀ m ∈ ns, WF m := by
      intro m hm
      obtain ⟨i, hi, rfl⟩ := List.mem_iff_getElem.mp hm
      obtain ⟨q, hq, -⟩ := hs i (hcs[i]'(hlen ▸ hi)) ns[i] (List.getElem?_eq_getElem _) (List.getElem?_eq_getElem _)
      exact hq.1
    have hblocks : ∀ {v}, AllLines (SplitModeLine A aw tw) v → AllLines (SplitModeLine A aw tw) (u ++ v) := fun hv =>
      splitBlocks_lines (.inl rfl) (fun c => (heading_count c).split) hD' h4 hnn hw hv
    by_cases hm : Member n mx
    · by_cases htop : ∃ a, Member n a ∧ val a = 2 ^ width A - 1
      · rw [(h7 hm htop).2.1, List.append_assoc _ u]
        refine hhead h3 (hblocks ?_)
        have := hline (l := "Unused networks:") rfl (by decide) (fixed_heading (by decide)) (allLines_nil _)
        rwa [List.append_nil] at this
      · obtain ⟨us, j1, j2⟩ := h6 hm fun a ha hv => htop ⟨a, ha, hv⟩
        rw [j1.2.1, List.append_assoc _ _ (netLines us), List.append_assoc _ u]
        refine hhead h3 (hblocks (hline (l := "Unused networks:") rfl (by decide) (fixed_heading (by decide)) ?_))
        refine netLines_lines (fun m _ => display_newline L m) fun m hm => .inr (.inr (.inr (.inr ?_)))
        obtain ⟨q, hq⟩ := j2.1 m hm
        exact ⟨m, q, hq, rfl⟩
    · rw [(h5 hm).2.1, List.append_assoc _ u]
      refine hhead h3 (hblocks ?_)
      have := hline (l := "Network is too small") rfl (by decide) (fixed_heading (by decide)) (allLines_nil _)
      rwa [List.append_nil] at this

end generic

/-- All that the split mode prints: the lines of displays with the columns of one family, headings, empty lines, and networks of this
family. -/
theorem C94_split (rt : Runtime) (hcol : rt.colorsEnabled = true) (args : List Str) :
    (∀ line, IsLine (visible (split rt args).out) line → line = [] ∨ IsHeading line ∨ line ∈ remarks ∨ InColumns 21 35 line ∨
      ∃ (m : Net V4) (p : Nat), IsCidr p m ∧ line = m.display) ∨
    (∀ line, IsLine (visible (split rt args).out) line → line = [] ∨ IsHeading line ∨ line ∈ remarks ∨ InColumns 46 135 line ∨
      ∃ (m : Net V6) (p : Nat), IsCidr p m ∧ line = m.display) := by
  have hmsg : ∀ m, split rt args = ⟨[.err m], .ok 1⟩ → ∀ line, ¬ IsLine (visible (split rt args).out) line := by
    intro m h line hl
    rw [h] at hl
    exact isLine_nil hl
  by_cases hlen : args.length < 4
  · exact .inl fun line hl => (hmsg _ ((C65_errors rt args).1 hlen) line hl).elim
  · obtain ⟨prog, mode, s, x, counts, rfl⟩ : ∃ a b c d e, args = a :: b :: c :: d :: e := by
      match args, hlen with
      | a :: b :: c :: d :: e, _ => exact ⟨a, b, c, d, e, rfl⟩
      | [], h => simp at h
      | [_], h => simp at h
      | [_, _], h => simp at h
      | [_, _, _], h => simp at h
    have hne : x :: counts ≠ [] := List.cons_ne_nil _ _
    obtain ⟨h1, h2⟩ := (C65_errors rt _).2 prog mode s (x :: counts) rfl hne
    rcases parseHostCounts_cases (x :: counts) with ⟨hcs, hc, -⟩ | ⟨pre, y, post, k1, k2, k3⟩
    · obtain ⟨r, hr⟩ := parseNetspec_total s
      cases r with
      | error e => exact .inl fun line hl => (hmsg _ (h2 hcs e hc hr) line hl).elim
      | ok sp =>
        cases sp with
        | ipv4 a n =>
          rw [split_v4 rt prog mode s _ hne hcs hc a n hr]
          exact .inl (split_lines layout4 (display_none_v4 rt hcol) (fun _ _ => resizeLine4) rt n (C33_parsed_good _ _ hr).2.1 hcs
            (hc.ne_nil hne) hc.nonneg)
        | ipv6 a n =>
          rw [split_v6 rt prog mode s _ hne hcs hc a n hr]
          exact .inr (split_lines layout6 (display_none_v6 rt hcol) (fun _ _ => resizeLine6) rt n (C33_parsed_good _ _ hr).2.1 hcs
            (hc.ne_nil hne) hc.nonneg)
    · obtain ⟨h3, h4⟩ := h1 pre y post k1 k2
      rcases k3 with ⟨k4, -⟩ | ⟨c, k4, k5, -⟩
      · exact .inl fun line hl => (hmsg _ (h3 k4) line hl).elim
      · exact .inl fun line hl => (hmsg _ (h4 c k4 k5) line hl).elim

/-- Headings, and a line that is none. -/
example : IsHeading "Subnet 12:".toList ∧ IsHeading "Subnet for 300 hosts:".toList ∧ IsHeading "Unused networks:".toList :=
  ⟨.inr (.inl ⟨12, "12".toList, by decide, showNat_canonical (by decide) (by decide) 12, rfl⟩),
    .inr (.inr ⟨300, "300".toList, showNat_canonical (by decide) (by decide) 300, rfl⟩), .inl (by decide)⟩
example : ¬ IsHeading "Unused  networks:".toList := by
  rintro (h | ⟨i, t, -, -, h⟩ | ⟨c, t, -, h⟩)
  · revert h; decide
  · have := congrArg List.head? h; revert this; simp
  · have := congrArg List.head? h; revert this; simp

/-- A heading of a run. -/
example : IsLine (visible (resize (evalRuntime .checked true) ["ripcalc".toList, "-r".toList, "192.0.3.0/24".toList, "23".toList]).out)
    "Supernet:".toList := by
  refine ⟨by decide, ["Original network:\n",
     "Network:   192.0.3.0/24         11000000.00000000.00000011.00000000\n",
     "HostMin:   192.0.3.1            11000000.00000000.00000011.00000001\n",
     "HostMax:   192.0.3.254          11000000.00000000.00000011.11111110\n",
     "Broadcast: 192.0.3.255          11000000.00000000.00000011.11111111\n",
     "Hosts/Net: 254                  Class C\n"].flatMap String.toList ++ ['\n'],
     '\n' :: (["Network:   192.0.2.0/23         11000000.00000000.00000010.00000000\n",
     "HostMin:   192.0.2.1            11000000.00000000.00000010.00000001\n",
     "HostMax:   192.0.3.254          11000000.00000000.00000011.11111110\n",
     "Broadcast: 192.0.3.255          11000000.00000000.00000011.11111111\n",
     "Hosts/Net: 510                  Class C\n",
     "\n"].flatMap String.toList), by decide +kernel, .inr ⟨_, rfl⟩, .inr ⟨_, rfl⟩⟩

end Ripcalc
