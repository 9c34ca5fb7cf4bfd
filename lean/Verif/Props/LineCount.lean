import Verif.Props.Widths
import Verif.Props.RangeSize
import Verif.Props.Requests
/-!
# C119: how many lines the program writes
-/
set_option linter.unusedSectionVars false
namespace Ripcalc
open AddrSpec LawfulIpAddr

/-! ## Vocabulary -/

/-- The number of line ends. -/
def lineEnds (t : Str) : Nat := t.count '\n'

/-- The text is a network, and the mask leaves so many bits free. -/
def FreeBits (s : Str) (h : Nat) : Prop :=
  (∃ a n, V4Network s a n ∧ h = hostBitCount n.subnetMask) ∨ (∃ a n, V6Network s a n ∧ h = hostBitCount n.subnetMask)

/-- The texts are a network and a mask of the same family, and leave so many bits free. -/
def FreeBitsBoth (s k : Str) (h e : Nat) : Prop :=
  (∃ a n m, V4Network s a n ∧ shownTexts.ipv4.mask k m ∧ h = hostBitCount n.subnetMask ∧ e = hostBitCount m) ∨
  (∃ a n m, V6Network s a n ∧ shownTexts.ipv6.mask k m ∧ h = hostBitCount n.subnetMask ∧ e = hostBitCount m)

/-- The lines about a network with so many free bits, without the lines about an address: five, or three if there are no hosts. -/
def netLineEnds (h : Nat) : Nat := if h < 2 then 3 else 5

/-! ## Counting -/

theorem lineEnds_append (t u : Str) : lineEnds (t ++ u) = lineEnds t + lineEnds u := List.count_append ..

theorem lineEnds_zero {t : Str} (h : '\n' ∉ t) : lineEnds t = 0 := List.count_eq_zero.mpr h

theorem lineEnds_asLines {ls : List Str} (h : ∀ l ∈ ls, '\n' ∉ l) : lineEnds (asLines ls) = ls.length := by
  induction ls with
  | nil => rfl
  | cons l ls ih =>
    have e : asLines (l :: ls) = l ++ (['\n'] ++ asLines ls) := by simp [asLines]
    rw [e, lineEnds_append, lineEnds_append, lineEnds_zero (h l (by simp)), ih fun x hx => h x (List.mem_cons_of_mem _ hx),
      List.length_cons]
    show 0 + (1 + _) = _
    omega

theorem lineEnds_plainly (s : Str) : lineEnds (textOf (plainly s)) = lineEnds s := by rw [writing_text.plain]

theorem lineEnds_marks (t u : List Mark) : lineEnds (textOf (t ++ u)) = lineEnds (textOf t) + lineEnds (textOf u) := by
  rw [writing_text.append, lineEnds_append]

theorem lineEnds_paragraphs {ps : List (Str × List Mark)} (h : ∀ p ∈ ps, '\n' ∉ p.1) :
    lineEnds (textOf (paragraphs ps)) = (ps.map fun p => 2 + lineEnds (textOf p.2)).sum := by
  induction ps with
  | nil => rfl
  | cons p ps ih =>
    rw [paragraphs_cons, List.map_cons, List.sum_cons, ← ih fun x hx => h x (List.mem_cons_of_mem _ hx)]
    simp only [lineEnds_marks, lineEnds_plainly, lineEnds_append, lineEnds_zero (h p (by simp))]
    have e1 : lineEnds ":\n".toList = 1 := by decide
    have e2 : lineEnds ['\n'] = 1 := by decide
    omega

theorem lineEnds_short {B : Nat} {ms : List Mark} (h : ∀ m ∈ ms, ShortMark B m) : lineEnds (textOf ms) = ms.count (.char '\n') := by
  induction ms with
  | nil => rfl
  | cons m ms ih =>
    have h1 := ih fun x hx => h x (List.mem_cons_of_mem _ hx)
    have e : textOf (m :: ms) = m.text ++ textOf ms := rfl
    rw [e, lineEnds_append, h1, List.count_cons]
    rcases h m (by simp) with rfl | ⟨c, s, rfl, h2, -⟩
    · show 1 + _ = _ + 1
      omega
    · have : lineEnds (Mark.piece c s).text = 0 := lineEnds_zero h2
      simp [this]

section
variable {A : Type} [IpAddr A] [AddrSpec A] [LawfulIpAddr A] {F : Family A}

theorem digits_ends (col : Nat → Color) (a : A) : (F.digits col a).count (.char '\n') = 0 := by
  refine List.count_eq_zero.mpr fun h => ?_
  rcases grouped_mem h with h | ⟨p, h⟩ <;> cases h

theorem bytes_ends (c : Color) (a : A) : (F.bytes c a).count (.char '\n') = 0 := by
  refine List.count_eq_zero.mpr fun h => ?_
  rcases grouped_mem h with h | ⟨p, h⟩ <;> cases h

theorem line_ends (label text : Str) (third : List Mark) (h : third.count (.char '\n') = 0) :
    (F.line label text third).count (.char '\n') = 1 := by
  rw [Family.line, List.count_append, List.count_append, h]
  rfl

theorem render_ends {n : Net A} {addr : Option A} {b : BlockText A} (hd : b.Describes n addr) (col : Nat → Color) :
    (F.render col b).count (.char '\n') = (if addr.isSome then 4 else 0) + netLineEnds (hostBitCount n.subnetMask) := by
  have hh := hd.no_hosts
  have hc := hd.hostCount
  have ha := hd.address
  have one : ∀ (c : Color) (s : Str), List.count (Mark.char '\n') ([Mark.piece c s] ++ plainly ['\n']) = 1 := fun c s => rfl
  have zero : ∀ (c : Color) (s : Str), List.count (Mark.char '\n') [Mark.piece c s] = 0 := fun c s => rfl
  have nl : List.count (Mark.char '\n') (plainly ['\n']) = 1 := rfl
  have hpos : 0 < b.hostCount ↔ ¬ hostBitCount n.subnetMask < 2 := by
    rw [hc]
    generalize hostBitCount n.subnetMask = k
    constructor
    · intro h hk
      have : k = 0 ∨ k = 1 := by omega
      rcases this with rfl | rfl <;> simp at h
    · intro hk
      obtain ⟨j, rfl⟩ : ∃ j, k = j + 2 := ⟨k - 2, by omega⟩
      have : (0 : Int) < 2 ^ j := Int.pow_pos (by decide)
      rw [Int.pow_succ, Int.pow_succ]
      omega
  unfold Family.render netLineEnds
  simp only [List.count_append]
  have e0 : List.count (Mark.char '\n') (match b.address with
      | some a =>
        F.line "Address:".toList (F.text a) (F.digits (maskColor (val b.network.subnetMask)) a) ++
        F.line "Netmask:".toList
          (F.text b.network.subnetMask ++ (match b.network.cidrPrefix with | some p => " = ".toList ++ F.num p | none => []))
          (F.bytes .red b.network.subnetMask) ++
        F.line "Wildcard:".toList (F.text b.wildcard) (F.bytes .yellow b.wildcard) ++ [.piece .white "=>".toList] ++ plainly ['\n']
      | none => []) = if addr.isSome then 4 else 0 := by
    rw [ha]
    cases addr with
    | none => rfl
    | some a =>
      simp only [List.count_append, line_ends _ _ _ (digits_ends _ _), line_ends _ _ _ (bytes_ends _ _), zero, nl]
      rfl
  have e1 : List.count (Mark.char '\n') (match b.hosts with
      | some (f, l) => F.line "HostMin:".toList (F.text f) (F.bytes .yellow f) ++ F.line "HostMax:".toList (F.text l) (F.bytes .yellow l)
      | none => [.piece .white "no hosts".toList] ++ plainly ['\n']) = if hostBitCount n.subnetMask < 2 then 1 else 2 := by
    cases hb : b.hosts with
    | none => rw [if_pos (hh.mp hb)]; exact one _ _
    | some x =>
      rw [if_neg fun h => by rw [hh.mpr h] at hb; cases hb]
      simp only [List.count_append, line_ends _ _ _ (bytes_ends _ _)]
  have e2 : List.count (Mark.char '\n') (match b.broadcast with
      | some x => F.line "Broadcast:".toList (F.text x) (F.bytes .yellow x)
      | none => [.piece .white "no broadcast".toList] ++ plainly ['\n']) = 1 := by
    cases b.broadcast with
    | none => exact one _ _
    | some x => simp only [line_ends _ _ _ (bytes_ends _ _)]
  have e3 : List.count (Mark.char '\n') (if 0 < b.hostCount then
      F.line "Hosts/Net:".toList (F.num b.hostCount.toNat) (if b.cls = [] then [] else [.piece .magenta b.cls])
    else [.piece .white "no hosts/net".toList]) = if hostBitCount n.subnetMask < 2 then 0 else 1 := by
    by_cases h : hostBitCount n.subnetMask < 2
    · rw [if_pos h, if_neg fun hp => hpos.mp hp h]
      rfl
    · rw [if_neg h, if_pos (hpos.mpr h)]
      refine line_ends _ _ _ ?_
      split <;> rfl
  simp only [List.append_assoc] at e0 e1 e2 e3 ⊢
  erw [e0, e1, e2, e3, line_ends _ _ _ (digits_ends _ _)]
  by_cases h : hostBitCount n.subnetMask < 2
  · rw [if_pos h, if_pos h, if_pos h]
  · rw [if_neg h, if_neg h, if_neg h]

/-! ## Commands -/

/-- What is needed of a family. -/
structure Counted (F : Family A) : Prop where
  wf : ∀ s a n, F.network s a n → WF n
  block : ∀ n addr t, WF n → F.Block n addr t →
    lineEnds (textOf t) = (if addr.isSome then 4 else 0) + netLineEnds (hostBitCount n.subnetMask)
  net : ∀ n, WF n → '\n' ∉ F.netText n
  text : ∀ a, '\n' ∉ F.text a
  num : ∀ v, '\n' ∉ F.num v

theorem shortest_length {lo hi : Nat} {ns : List (Net A)} (hlh : lo ≤ hi) (hhi : hi < 2 ^ width A - 1) (hw : 2 ≤ width A)
    (h : Shortest lo hi ns) : 1 ≤ ns.length ∧ ns.length ≤ 2 * width A - 2 := by
  have hl : val (addrOf A lo) = lo := val_addrOf (by omega)
  have hh : val (addrOf A hi) = hi := val_addrOf (by omega)
  constructor
  · obtain ⟨n, hn, -⟩ := (h.2.2.1 (addrOf A lo)).mpr (by omega)
    exact List.length_pos_iff.mpr fun e => by rw [e] at hn; cases hn
  · have hr : rangeToSubnets .checked (addrOf A lo) (addrOf A hi) = .ok ns := by
      refine (range_shortest .checked _ _ (by omega) ns).mpr ?_
      rw [hl, hh, Nat.min_eq_left hlh, Nat.max_eq_right hlh]
      exact h
    have := C86_at_most .checked (addrOf A lo) (addrOf A hi) (width A) (Nat.le_refl _) (fun i hi' => by
      rw [Nat.testBit_lt_two_pow (Nat.lt_of_lt_of_le (val_lt _) (Nat.pow_le_pow_right (by decide) hi')),
        Nat.testBit_lt_two_pow (Nat.lt_of_lt_of_le (val_lt _) (Nat.pow_le_pow_right (by decide) hi'))]) ns hr
    omega

theorem listing_length {n : Net A} {xs : List A} (h : Listing n xs) : xs.length = 2 ^ hostBitCount n.subnetMask := by
  rw [h.unique (memberList_listing n), memberList_length, hostBits_eq]

variable (hF : Counted F)
include hF

theorem Counted.netLines {ns : List (Net A)} (h : ∀ n ∈ ns, WF n) : lineEnds (F.netLines ns) = ns.length := by
  rw [Family.netLines, lineEnds_asLines, List.length_map]
  intro l hl
  obtain ⟨n, hn, rfl⟩ := List.mem_map.mp hl
  exact hF.net n (h n hn)

theorem Counted.minimizes {ss : List Str} {r : Outcome} (h : F.Minimizes ss r) :
    1 ≤ lineEnds (textOf r.out) ∧ lineEnds (textOf r.out) ≤ ss.length := by
  obtain ⟨hne, ns, out, h1, h2, rfl⟩ := h
  have hw : ∀ n ∈ ns, WF n := fun n hn => by
    obtain ⟨s, -, a, hs⟩ := h1.mem_right n hn
    exact hF.wf s a n hs
  have h3 := (C88_steps (Runtime.reference .checked true) ns out hw).mpr h2
  obtain ⟨-, -, hw', hl⟩ := C44_sorted _ ns out hw h3
  rw [Outcome.shown, lineEnds_plainly, hF.netLines hw', h1.length]
  refine ⟨List.length_pos_iff.mpr fun e => ?_, hl⟩
  obtain ⟨out', h4, h5⟩ := C42_same_addresses (Runtime.reference .checked true) ns hw
  rw [h3] at h4
  cases h4
  have hns : ns ≠ [] := fun e => hne (List.length_eq_zero_iff.mp (by rw [h1.length, e]; rfl))
  obtain ⟨n, hn⟩ := List.exists_mem_of_ne_nil _ hns
  obtain ⟨m, hm, -⟩ := (h5 n.baseAddr).mpr ⟨n, hn, base_member n⟩
  rw [e] at hm
  cases hm

theorem Counted.deranges (hw : 2 ≤ width A) {pr : Profile} {ss : List Str} {r : Outcome} (h : F.Deranges pr ss r)
    (hr : r.ending = .status 0) : 1 ≤ lineEnds (textOf r.out) ∧ lineEnds (textOf r.out) ≤ 2 * width A - 2 := by
  obtain ⟨u, v, a, b, -, -, -, ⟨-, rfl⟩ | ⟨ht, ns, h, rfl⟩⟩ := h
  · split at hr <;> cases hr
  · have h1 := val_lt a
    have h2 := val_lt b
    have := shortest_length (by omega) (by omega) hw h
    rw [Outcome.shown, lineEnds_plainly, hF.netLines fun n hn => (h.1 n hn).choose_spec.1]
    exact this

theorem Counted.blocks {hs : List Str} {ns : List (Net A)} {ts : List (List Mark)} (hw : ∀ n ∈ ns, WF n)
    (hp : Pointwise (fun n t => F.Block n none t) ns ts) (hl : hs.length = ns.length) :
    (hs.zip ts).map (fun p => 2 + lineEnds (textOf p.2)) = ns.map fun n => 2 + netLineEnds (hostBitCount n.subnetMask) := by
  induction hp generalizing hs with
  | nil => simp
  | @cons n t ns ts h1 _ ih =>
    match hs, hl with
    | x :: hs, hl =>
      rw [List.zip_cons_cons, List.map_cons, List.map_cons, ih (fun m hm => hw m (List.mem_cons_of_mem _ hm)) (by simpa using hl),
        hF.block n none t (hw n (by simp)) h1]
      simp

theorem Counted.resizes {ss : List Str} {r : Outcome} (h : F.Resizes ss r) :
    ∃ s k a n m, ss = [s, k] ∧ F.network s a n ∧ F.mask k m ∧
      lineEnds (textOf r.out) = 2 + netLineEnds (hostBitCount n.subnetMask) +
        2 ^ (hostBitCount n.subnetMask - hostBitCount m) * (2 + netLineEnds (hostBitCount m)) := by
  obtain ⟨s, k, a, n, m, ns, t, ts, rfl, h1, hm, h2, h3, h4, rfl⟩ := h
  refine ⟨s, k, a, n, m, rfl, h1, hm, ?_⟩
  have hn := hF.wf s a n h1
  have hlen : ns.length = 2 ^ (hostBitCount n.subnetMask - hostBitCount m) := by
    have := congrArg List.length h2.2
    rwa [List.length_map, List.length_range'] at this
  have hh : (resizeHeadings F.num (hostBitCount n.subnetMask) (hostBitCount m) ns.length).length = ns.length := by
    unfold resizeHeadings
    split
    · rw [hlen, Nat.sub_eq_zero_of_le (by omega)]; rfl
    · split
      · rw [hlen, Nat.sub_eq_zero_of_le (by omega)]; rfl
      · simp
  rw [Outcome.shown, lineEnds_paragraphs, List.map_cons, List.sum_cons, hF.blocks (fun o ho => (h2.1 o ho).1) h4 hh,
    hF.block n none t hn h3]
  · have e : ns.map (fun o => 2 + netLineEnds (hostBitCount o.subnetMask)) = ns.map fun _ => 2 + netLineEnds (hostBitCount m) :=
      List.map_congr_left fun o ho => by rw [(h2.1 o ho).2]
    rw [e, List.map_const', List.sum_replicate_nat, hlen]
    simp
  · intro p hp
    rcases List.mem_cons.mp hp with rfl | hp
    · show '\n' ∉ "Original network".toList
      decide
    · have h5 := (List.of_mem_zip hp).1
      unfold resizeHeadings at h5
      split at h5
      · rw [List.mem_singleton.mp h5]; decide
      · split at h5
        · rw [List.mem_singleton.mp h5]; decide
        · obtain ⟨i, -, e⟩ := List.mem_map.mp h5
          rw [← e, List.mem_append, not_or]
          exact ⟨by decide, hF.num _⟩

theorem Counted.splits (hw : 2 ≤ width A) {ss : List Str} {r : Outcome} (h : F.Splits ss r) :
    ∃ s counts hcs a n, ss = s :: counts ∧ Counts counts hcs ∧ F.network s a n ∧
      ((r.ending = .status 1 ∧ lineEnds (textOf r.out) = 2 + netLineEnds (hostBitCount n.subnetMask) + 1) ∨
       ∃ u, lineEnds (textOf r.out) = 2 + netLineEnds (hostBitCount n.subnetMask) +
          (hcs.map fun c => 2 + netLineEnds (needBits c)).sum + 1 + u ∧
          ((r.ending = .status 0 ∧ u ≤ 2 * width A - 2) ∨ (r.ending = .panics ∧ u = 0))) := by
  obtain ⟨s, counts, hcs, a, n, rfl, -, hp, h1, h2⟩ := h
  refine ⟨s, counts, hcs, a, n, rfl, hp, h1, ?_⟩
  have hn := hF.wf s a n h1
  rcases h2 with ⟨-, t, h3, rfl⟩ | ⟨ns, text, h3, ⟨t, ts, h4, h5, rfl⟩, h6⟩
  · left
    refine ⟨rfl, ?_⟩
    show lineEnds (textOf (paragraphs [("Subnet to split".toList, t)] ++ plainly _)) = _
    rw [lineEnds_marks, lineEnds_plainly, lineEnds_paragraphs (by
      intro p hp
      rw [List.mem_singleton.mp hp]
      show '\n' ∉ "Subnet to split".toList
      decide)]
    have e : lineEnds "Not enough addresses available for this split.\n".toList = 1 := by decide
    rw [e, List.map_cons, List.sum_cons, hF.block n none t hn h3]
    simp
  · right
    have hsz := SplitInto.sizes h3
    have hl := h3.1
    obtain ⟨rt, -, -, hrt⟩ := (C52_exactly .checked true n hcs ns).mpr h3
    obtain ⟨-, rs, E, e, hperm, -, -, hal, -⟩ := h3
    have hwf : ∀ m ∈ ns, WF m := by
      intro m hm
      obtain ⟨i, hi, rfl⟩ := List.mem_iff_getElem.mp hm
      have hz : (hcs[i]'(by omega), ns[i]) ∈ hcs.zip ns := List.mem_iff_getElem.mpr ⟨i, by simp; omega, by simp⟩
      obtain ⟨q, hq, -⟩ := hal.each _ (hperm.mem_iff.mpr hz)
      exact hq.1
    have key : lineEnds (textOf (paragraphs (("Subnet to split".toList, t) :: (hcs.map (splitHeading F.num)).zip ts))) =
        2 + netLineEnds (hostBitCount n.subnetMask) + (hcs.map fun c => 2 + netLineEnds (needBits c)).sum := by
      rw [lineEnds_paragraphs, List.map_cons, List.sum_cons, hF.blocks hwf h5 (by simp [hl]), hF.block n none t hn h4]
      · have e1 : hcs.map (fun c => 2 + netLineEnds (needBits c)) = (hcs.map needBits).map fun k => 2 + netLineEnds k := by
          rw [List.map_map]; rfl
        have e2 : ns.map (fun m => 2 + netLineEnds (hostBitCount m.subnetMask)) = (ns.map hostBits).map fun k => 2 + netLineEnds k := by
          rw [List.map_map]
          exact List.map_congr_left fun m _ => by simp only [Function.comp_apply, hostBits_eq]
        rw [e1, e2, hsz]
        simp
      · intro p hp
        rcases List.mem_cons.mp hp with rfl | hp
        · show '\n' ∉ "Subnet to split".toList
          decide
        · obtain ⟨c, -, e⟩ := List.mem_map.mp (List.of_mem_zip hp).1
          rw [← e]
          have n1 : '\n' ∉ "Subnet for ".toList := by decide
          have n2 : '\n' ∉ " hosts".toList := by decide
          intro hm
          rcases List.mem_append.mp hm with hm | hm
          · rcases List.mem_append.mp hm with hm | hm
            · exact n1 hm
            · exact hF.num _ hm
          · exact n2 hm
    have e1 : lineEnds "Network is too small\n".toList = 1 := by decide
    have e2 : lineEnds "Unused networks:\n".toList = 1 := by decide
    obtain ⟨used, hu1, hu2, ⟨-, rfl⟩ | ⟨hu, last, hlast, hmax, ⟨-, rfl⟩ | ⟨ht, us, h7, rfl⟩⟩⟩ := h6
    · refine ⟨0, ?_, .inl ⟨rfl, Nat.zero_le _⟩⟩
      rw [Outcome.shown, lineEnds_marks, lineEnds_plainly, key, e1]
    · refine ⟨0, ?_, .inr ⟨rfl, rfl⟩⟩
      show lineEnds (textOf (_ ++ plainly _)) = _
      rw [lineEnds_marks, lineEnds_plainly, key, e2]
    · have hle := hmax used hu
      have hvl := val_lt last
      have hodd := greatest_odd rt n hcs (Counts.nonneg hp) ns hrt used ⟨hu1, hu2⟩
      have hdw : 2 ∣ 2 ^ width A := ⟨2 ^ (width A - 1), by rw [← Nat.pow_succ']; congr 1; omega⟩
      have := shortest_length (by omega) (by omega) hw h7
      refine ⟨us.length, ?_, .inl ⟨rfl, this.2⟩⟩
      rw [Outcome.shown, lineEnds_marks, lineEnds_plainly, key, lineEnds_append, e2,
        hF.netLines fun m hm => (h7.1 m hm).choose_spec.1]
      omega

end

theorem counted4 : Counted shownTexts.ipv4 where
  wf := slim4.wf
  block := fun n addr t hn h => by
    obtain ⟨b, col, h1, h2, -, rfl⟩ := h
    rw [lineEnds_short (render_short (B := 46) layout4 rfl (by decide) (by decide) (by decide) hn h1 h2.2.2 col), render_ends h1]
  net := fun n hn => (slim4.net n hn).1
  text := fun a => (slim4.text a).1
  num := slim4.num

theorem counted6 : Counted shownTexts.ipv6 where
  wf := slim6.wf
  block := fun n addr t hn h => by
    obtain ⟨b, col, h1, h2, -, rfl⟩ := h
    rw [lineEnds_short (render_short (B := 79) layout6 rfl (by decide) (by decide) (by decide) hn h1 (.inl h2) col), render_ends h1]
  net := fun n hn => (slim6.net n hn).1
  text := fun a => (slim6.text a).1
  num := slim6.num

/-! ## The program -/

theorem freeBits_unique {s : Str} {h k : Nat} (h1 : FreeBits s h) (h2 : FreeBits s k) : h = k := by
  rcases h1 with ⟨a, n, h1, rfl⟩ | ⟨a, n, h1, rfl⟩ <;> rcases h2 with ⟨b, m, h2, rfl⟩ | ⟨b, m, h2, rfl⟩
  · have := ((v4Network_iff s a n).mpr h1).symm.trans ((v4Network_iff s b m).mpr h2)
    cases this; rfl
  · have := ((v4Network_iff s a n).mpr h1).symm.trans ((v6Network_iff s b m).mpr h2)
    cases this
  · have := ((v6Network_iff s a n).mpr h1).symm.trans ((v4Network_iff s b m).mpr h2)
    cases this
  · have := ((v6Network_iff s a n).mpr h1).symm.trans ((v6Network_iff s b m).mpr h2)
    cases this; rfl

theorem freeBits_fault {s : Str} {h : Nat} {e : NetspecErr} (h1 : FreeBits s h) (h2 : NetspecFault s e) : False := by
  have h2 := (C72_netspec_error s e).mpr h2
  rcases h1 with ⟨a, n, h1, rfl⟩ | ⟨a, n, h1, rfl⟩
  · have := ((v4Network_iff s a n).mpr h1).symm.trans h2
    cases this
  · have := ((v6Network_iff s a n).mpr h1).symm.trans h2
    cases this

theorem described_run (rt : Runtime) (hc : rt.colorsEnabled = true) (args : List Str) :
    Runs rt.profile shownTexts args (Outcome.of (doMain rt args)) := (runs_iff _ _ _).mpr ⟨rt, rfl, hc, rfl⟩

theorem textOf_run (rt : Runtime) (args : List Str) : textOf (Outcome.of (doMain rt args)).out = visible (doMain rt args).out :=
  marks_text _

theorem ending_ok {x : Cli Nat} {c : Nat} (h : x.res = .ok c) : (Outcome.of x).ending = .status c := by
  rw [Outcome.of, h]

theorem ending_panic {x : Cli Nat} {p : Panic} (h : x.res = .panic p) : (Outcome.of x).ending = .panics := by
  rw [Outcome.of, h]

/-- Minimizing: at least one line and no more than one for each argument. -/
theorem C119_minimize (rt : Runtime) (prog mode : Str) (hm : mode = "-m".toList ∨ mode = "--minimize".toList)
    (rest : List Str) (hr : (doMain rt (prog :: mode :: rest)).res = .ok 0) :
    1 ≤ lineEnds (visible (doMain rt (prog :: mode :: rest)).out) ∧
    lineEnds (visible (doMain rt (prog :: mode :: rest)).out) ≤ rest.length := by
  have e := ending_ok hr
  rw [← textOf_run]
  rcases (minimize_outcome (prog := prog) (rest := rest) rt (by simpa using hm) _).mpr rfl with ⟨m, -, h⟩ | h | h
  · rw [h] at e; cases e
  · exact counted4.minimizes h
  · exact counted6.minimizes h

/-- Ranges: at least one line; no more than 62, or with a colon in the first argument no more than 254. -/
theorem C119_derange (rt : Runtime) (prog mode : Str) (hm : mode = "-d".toList ∨ mode = "--derange".toList)
    (rest : List Str) (hr : (doMain rt (prog :: mode :: rest)).res = .ok 0) :
    1 ≤ lineEnds (visible (doMain rt (prog :: mode :: rest)).out) ∧
    lineEnds (visible (doMain rt (prog :: mode :: rest)).out) ≤ 254 ∧
    ((∀ s ∈ rest, ':' ∉ s) → lineEnds (visible (doMain rt (prog :: mode :: rest)).out) ≤ 62) := by
  have e := ending_ok hr
  rw [← textOf_run]
  rcases (derange_outcome (prog := prog) (rest := rest) rt (by simpa using hm) _).mpr rfl with ⟨m, -, h⟩ | h | h
  · rw [h] at e; cases e
  · have := counted4.deranges (by decide) h e
    have e2 : 2 * width V4 - 2 = 62 := rfl
    omega
  · obtain ⟨h1, h2⟩ := counted6.deranges (by decide) h e
    refine ⟨h1, h2, fun hn => ?_⟩
    obtain ⟨u, v, a, b, rfl, hu, -⟩ := h
    exact absurd hu.1 (hn u (by simp))

/-- Enumerating: for each network two to the power of the number of free bits, for each other argument none. -/
theorem C119_enumerate (rt : Runtime) (prog mode : Str) (hm : mode = "-e".toList ∨ mode = "--enumerate".toList)
    (rest : List Str) (hne : rest ≠ []) (ks : List Nat)
    (hk : Pointwise (fun s k => (∃ h, FreeBits s h ∧ k = 2 ^ h) ∨ ((∀ h, ¬ FreeBits s h) ∧ k = 0)) rest ks) :
    lineEnds (visible (doMain rt (prog :: mode :: rest)).out) = ks.sum := by
  rw [← textOf_run]
  obtain ⟨ts, ms, -, hp, e⟩ := (enumerate_outcome (prog := prog) (rest := rest) rt (by simpa using hm) hne _).mpr rfl
  rw [e, lineEnds_plainly]
  clear e hne
  induction hk generalizing ts with
  | nil => cases hp; rfl
  | @cons s k rest ks h1 _ ih =>
    cases hp with
    | @cons _ t _ ts h2 hp =>
      rw [List.flatten_cons, lineEnds_append, ih ts hp, List.sum_cons]
      congr 1
      rcases h2 with ⟨a, n, xs, g1, g2, rfl⟩ | ⟨a, n, xs, g1, g2, rfl⟩ | ⟨⟨e, he⟩, rfl⟩
      · have hf : FreeBits s (hostBitCount n.subnetMask) := .inl ⟨a, n, g1, rfl⟩
        rw [lineEnds_asLines (by
          intro l hl
          obtain ⟨x, -, rfl⟩ := List.mem_map.mp hl
          exact counted4.text x), List.length_map, listing_length g2]
        rcases h1 with ⟨h, h1, rfl⟩ | ⟨h1, -⟩
        · rw [freeBits_unique hf h1]
        · exact absurd hf (h1 _)
      · have hf : FreeBits s (hostBitCount n.subnetMask) := .inr ⟨a, n, g1, rfl⟩
        rw [lineEnds_asLines (by
          intro l hl
          obtain ⟨x, -, rfl⟩ := List.mem_map.mp hl
          exact counted6.text x), List.length_map, listing_length g2]
        rcases h1 with ⟨h, h1, rfl⟩ | ⟨h1, -⟩
        · rw [freeBits_unique hf h1]
        · exact absurd hf (h1 _)
      · rcases h1 with ⟨h, h1, rfl⟩ | ⟨-, rfl⟩
        · exact (freeBits_fault h1 he).elim
        · rfl

theorem lineEnds_intercalate {ts : List (List Mark)} (hne : ts ≠ []) :
    lineEnds (textOf (List.intercalate (plainly ['\n']) ts)) + 1 = (ts.map fun t => lineEnds (textOf t) + 1).sum := by
  induction ts with
  | nil => exact absurd rfl hne
  | cons t ts ih =>
    cases ts with
    | nil => simp [List.intercalate]
    | cons u ts =>
      rw [List.intercalate_cons_cons, lineEnds_marks, lineEnds_marks, lineEnds_plainly, List.map_cons, List.sum_cons, ← ih (by simp)]
      have e : lineEnds ['\n'] = 1 := by decide
      omega

/-- Showing networks: nine lines for each, or seven if it has no hosts, and one between two of them. -/
theorem C119_show (rt : Runtime) (hc : rt.colorsEnabled = true) (prog mode : Str) (hm : mode ∉ modeWords) (rest : List Str)
    (hs : List Nat) (hf : Pointwise FreeBits (mode :: rest) hs) (hr : (doMain rt (prog :: mode :: rest)).res = .ok 0) :
    lineEnds (visible (doMain rt (prog :: mode :: rest)).out) = (hs.map fun h => if h < 2 then 7 else 9).sum + rest.length := by
  have e := ending_ok hr
  rw [← textOf_run]
  rcases (show_outcome (prog := prog) (rest := rest) rt hc hm _).mpr rfl with ⟨m, -, h⟩ | ⟨ts, hp, h⟩
  · rw [h] at e; cases e
  · rw [h]
    have hts : ts ≠ [] := fun e => by rw [e] at hp; cases hp
    have h1 := lineEnds_intercalate hts
    have key : ∀ {ss : List Str} {ts : List (List Mark)} {hs : List Nat},
        Pointwise (fun s t => shownTexts.ipv4.Shown s t ∨ shownTexts.ipv6.Shown s t) ss ts → Pointwise FreeBits ss hs →
        (ts.map fun t => lineEnds (textOf t) + 1).sum = (hs.map fun h => if h < 2 then 7 else 9).sum + ss.length := by
      intro ss ts hs h1
      induction h1 generalizing hs with
      | nil => intro h2; cases h2; rfl
      | @cons s t ss ts h3 _ ih =>
        intro h2
        cases h2 with
        | @cons _ k _ ks h4 h5 =>
          rw [List.map_cons, List.sum_cons, List.map_cons, List.sum_cons, ih h5, List.length_cons]
          have : lineEnds (textOf t) = if k < 2 then 7 else 9 := by
            rcases h3 with ⟨a, n, g1, g2⟩ | ⟨a, n, g1, g2⟩
            · have hk : k = hostBitCount n.subnetMask := freeBits_unique h4 (.inl ⟨a, n, g1, rfl⟩)
              rw [counted4.block n _ t (counted4.wf s a n g1) g2, hk, netLineEnds]
              simp only [Option.isSome_some, if_true]
              split <;> rfl
            · have hk : k = hostBitCount n.subnetMask := freeBits_unique h4 (.inr ⟨a, n, g1, rfl⟩)
              rw [counted6.block n _ t (counted6.wf s a n g1) g2, hk, netLineEnds]
              simp only [Option.isSome_some, if_true]
              split <;> rfl
          omega
    have h2 := key hp hf
    rw [List.length_cons] at h2
    show lineEnds (textOf (List.intercalate (plainly ['\n']) ts)) = _
    omega

/-- Resizing: for the given network and each network found seven lines, or five if it has no hosts. -/
theorem C119_resize (rt : Runtime) (hc : rt.colorsEnabled = true) (prog mode : Str) (hm : mode = "-r".toList ∨ mode = "--resize".toList)
    (s k : Str) (hr : (doMain rt [prog, mode, s, k]).res = .ok 0) :
    ∃ h e, FreeBitsBoth s k h e ∧ lineEnds (visible (doMain rt [prog, mode, s, k]).out) =
      (if h < 2 then 5 else 7) + 2 ^ (h - e) * (if e < 2 then 5 else 7) := by
  have he := ending_ok hr
  rw [← textOf_run]
  have fold : ∀ h, 2 + netLineEnds h = if h < 2 then 5 else 7 := fun h => by unfold netLineEnds; split <;> rfl
  rcases (resize_outcome (prog := prog) (rest := [s, k]) rt hc (by simpa using hm) _).mpr rfl with ⟨m, -, h⟩ | h | h
  · rw [h] at he; cases he
  · obtain ⟨s', k', a, n, m, e, h1, h2, h3⟩ := counted4.resizes h
    cases e
    refine ⟨_, _, .inl ⟨a, n, m, h1, h2, rfl, rfl⟩, ?_⟩
    rw [h3, fold, fold]
  · obtain ⟨s', k', a, n, m, e, h1, h2, h3⟩ := counted6.resizes h
    cases e
    refine ⟨_, _, .inr ⟨a, n, m, h1, h2, rfl, rfl⟩, ?_⟩
    rw [h3, fold, fold]

/-- Splitting, where no message is written: for the given network and each network found seven lines, or five if it has no hosts, and
one more; if the run ends with success, besides no more than 62 lines, or 254 for IPv6.  If there are not enough addresses, the lines
for the given network and one more. -/
theorem C119_split (rt : Runtime) (hc : rt.colorsEnabled = true) (prog mode : Str) (hm : mode = "-s".toList ∨ mode = "--split".toList)
    (s : Str) (counts : List Str) (h : Nat) (hf : FreeBits s h) (hcs : List Int) (hcn : Counts counts hcs) (es : List Nat)
    (hes : Pointwise HostBitsFor hcs es) (hq : messages (doMain rt (prog :: mode :: s :: counts)).out = []) :
    ((doMain rt (prog :: mode :: s :: counts)).res = .ok 1 ∧
      lineEnds (visible (doMain rt (prog :: mode :: s :: counts)).out) = (if h < 2 then 5 else 7) + 1) ∨
    ∃ u, lineEnds (visible (doMain rt (prog :: mode :: s :: counts)).out) =
        (if h < 2 then 5 else 7) + (es.map fun e => if e < 2 then 5 else 7).sum + 1 + u ∧
      (((doMain rt (prog :: mode :: s :: counts)).res = .ok 0 ∧ u ≤ 254 ∧ (':' ∉ s → u ≤ 62)) ∨
       ((∃ p, (doMain rt (prog :: mode :: s :: counts)).res = .panic p) ∧ u = 0)) := by
  rw [← textOf_run]
  have fold : ∀ h, 2 + netLineEnds h = if h < 2 then 5 else 7 := fun h => by unfold netLineEnds; split <;> rfl
  have hsum : ∀ hcs' : List Int, Counts counts hcs' →
      (hcs'.map fun c => 2 + netLineEnds (needBits c)) = es.map fun e => if e < 2 then 5 else 7 := by
    intro hcs' h'
    obtain rfl : hcs' = hcs := by
      have h1 := (parseHostCounts_spec _ _).mpr h'
      have h2 := (parseHostCounts_spec _ _).mpr hcn
      rw [h1] at h2
      cases h2; rfl
    obtain rfl : es = hcs'.map needBits := by
      refine hes.unique (fun a b c h h' => ?_) (hostBits_map hcs')
      rw [hostBitsFor_iff] at h h'
      omega
    rw [List.map_map]
    exact List.map_congr_left fun c _ => fold _
  have ends : ∀ {c : Nat}, (Outcome.of (doMain rt (prog :: mode :: s :: counts))).ending = .status c →
      (doMain rt (prog :: mode :: s :: counts)).res = .ok c := by
    intro c hc
    unfold Outcome.of at hc
    cases hx : (doMain rt (prog :: mode :: s :: counts)).res with
    | ok d => rw [hx] at hc; cases hc; rfl
    | panic p => rw [hx] at hc; cases hc
    | diverge => rw [hx] at hc; cases hc
  have endp : (Outcome.of (doMain rt (prog :: mode :: s :: counts))).ending = .panics →
      ∃ p, (doMain rt (prog :: mode :: s :: counts)).res = .panic p := by
    intro hc
    unfold Outcome.of at hc
    cases hx : (doMain rt (prog :: mode :: s :: counts)).res with
    | ok d => rw [hx] at hc; cases hc
    | panic p => exact ⟨p, rfl⟩
    | diverge => rw [hx] at hc; cases hc
  rcases (splits_outcome (prog := prog) (rest := s :: counts) rt.profile (by simpa using hm) _).mpr ⟨rt, rfl, hc, rfl⟩ with
    ⟨m, -, g⟩ | g | g
  · have : (Outcome.of (doMain rt (prog :: mode :: s :: counts))).messages = [] := hq
    rw [g] at this
    cases this
  · obtain ⟨s', counts', hcs', a, n, e, h1, h2, h3⟩ := counted4.splits (by decide) g
    cases e
    have hh : h = hostBitCount n.subnetMask := freeBits_unique hf (.inl ⟨a, n, h2, rfl⟩)
    rw [hsum hcs' h1, fold, ← hh] at h3
    rcases h3 with ⟨h3, h4⟩ | ⟨u, h3, ⟨h4, h5⟩ | ⟨h4, h5⟩⟩
    · exact .inl ⟨ends h3, h4⟩
    · have e2 : 2 * width V4 - 2 = 62 := rfl
      exact .inr ⟨u, h3, .inl ⟨ends h4, by omega, fun _ => by omega⟩⟩
    · exact .inr ⟨u, h3, .inr ⟨endp h4, h5⟩⟩
  · obtain ⟨s', counts', hcs', a, n, e, h1, h2, h3⟩ := counted6.splits (by decide) g
    cases e
    have hh : h = hostBitCount n.subnetMask := freeBits_unique hf (.inr ⟨a, n, h2, rfl⟩)
    rw [hsum hcs' h1, fold, ← hh] at h3
    rcases h3 with ⟨h3, h4⟩ | ⟨u, h3, ⟨h4, h5⟩ | ⟨h4, h5⟩⟩
    · exact .inl ⟨ends h3, h4⟩
    · have e2 : 2 * width V6 - 2 = 254 := rfl
      exact .inr ⟨u, h3, .inl ⟨ends h4, by omega, fun hn => absurd (v6Network_colon h2) hn⟩⟩
    · exact .inr ⟨u, h3, .inr ⟨endp h4, h5⟩⟩

/-- Networks with 8 free bits and with none. -/
example : FreeBits "10.0.0.1/24".toList 8 ∧ FreeBits "10.0.0.1/32".toList 0 :=
  ⟨.inl ⟨⟨0x0A000001#32⟩, ⟨⟨0x0A000000#32⟩, ⟨0xFFFFFF00#32⟩, some 24⟩, (v4Network_iff _ _ _).mp (by decide +kernel), by decide +kernel⟩,
    .inl ⟨⟨0x0A000001#32⟩, ⟨⟨0x0A000001#32⟩, ⟨0xFFFFFFFF#32⟩, some 32⟩, (v4Network_iff _ _ _).mp (by decide +kernel), by decide +kernel⟩⟩

def countShow : List Str := ["ripcalc".toList, "10.0.0.1/24".toList, "10.0.0.1/32".toList]
def countList : List Str := ["ripcalc".toList, "-e".toList, "10.0.0.1/30".toList, "x".toList, "10.0.0.1/32".toList]

/-- Runs with 9 + 1 + 7 lines and with 4 + 0 + 1 lines. -/
example : (doMain (evalRuntime .checked true) countShow).res = .ok 0 ∧
    lineEnds (visible (doMain (evalRuntime .checked true) countShow).out) = 17 ∧
    lineEnds (visible (doMain (evalRuntime .checked true) countList).out) = 5 := by
  rw [ended_run _ countShow (by decide +kernel), ended_run _ countList (by decide +kernel)]
  decide +kernel

end Ripcalc
