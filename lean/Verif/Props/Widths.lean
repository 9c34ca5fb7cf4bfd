import Verif.Props.Program
import Verif.Props.Headings
/-!
# C117: how long the lines are
-/
set_option linter.unusedSectionVars false
namespace Ripcalc
open AddrSpec

/-! ## Texts -/

/-- No line of the text is longer. -/
def Slim (B : Nat) (t : Str) : Prop := AllLines (fun l => l.length ≤ B) t

theorem Slim.line {B : Nat} {l u : Str} (hl : '\n' ∉ l) (h : l.length ≤ B) (hu : Slim B u) : Slim B (l ++ '\n' :: u) := allLines_cons hl h hu
theorem Slim.sep {B : Nat} {t u : Str} (ht : Slim B t) (hu : Slim B u) : Slim B (t ++ '\n' :: u) := allLines_sep (Nat.zero_le B) ht hu
theorem Slim.nil (B : Nat) : Slim B [] := allLines_nil _
theorem Slim.mono {B C : Nat} (h : B ≤ C) {t : Str} (ht : Slim B t) : Slim C t := fun l hl => Nat.le_trans (ht l hl) h

theorem Slim.asLines {B : Nat} {ls : List Str} (h : ∀ l ∈ ls, '\n' ∉ l ∧ l.length ≤ B) : Slim B (asLines ls) := by
  induction ls with
  | nil => exact Slim.nil B
  | cons l ls ih =>
    have h1 := h l (by simp)
    have := Slim.line h1.1 h1.2 (ih fun x hx => h x (List.mem_cons_of_mem _ hx))
    simpa [Ripcalc.asLines] using this

theorem Slim.append_lines {B : Nat} {ls : List Str} (h : ∀ l ∈ ls, '\n' ∉ l ∧ l.length ≤ B) {u : Str} (hu : Slim B u) :
    Slim B (Ripcalc.asLines ls ++ u) := by
  induction ls with
  | nil => exact hu
  | cons l ls ih =>
    have h1 := h l (by simp)
    have := Slim.line h1.1 h1.2 (ih fun x hx => h x (List.mem_cons_of_mem _ hx))
    simpa [Ripcalc.asLines] using this

/-- A way of writing marks: one after the other, and those without colour as they are. -/
structure Writing (g : List Mark → Str) : Prop where
  append : ∀ ms ns, g (ms ++ ns) = g ms ++ g ns
  plain : ∀ s, g (plainly s) = s

theorem Writing.nil {g : List Mark → Str} (hg : Writing g) : g [] = [] := hg.plain []

/-- With colours. -/
def textOf (ms : List Mark) : Str := ms.flatMap Mark.text

/-- Without colours. -/
def piecesOf (ms : List Mark) : Str := ms.flatMap Mark.line

theorem writing_text : Writing textOf where
  append := fun _ _ => List.flatMap_append ..
  plain := fun s => by
    induction s with
    | nil => rfl
    | cons c s ih => exact congrArg (c :: ·) ih

theorem writing_lines : Writing piecesOf where
  append := fun _ _ => List.flatMap_append ..
  plain := fun s => by
    induction s with
    | nil => rfl
    | cons c s ih => exact congrArg (c :: ·) ih

theorem Slim.paragraphs {g : List Mark → Str} (hg : Writing g) {B : Nat} {ps : List (Str × List Mark)} (h : ∀ p ∈ ps, '\n' ∉ p.1 ∧ p.1.length + 1 ≤ B ∧ Slim B (g p.2))
    {u : Str} (hu : Slim B u) : Slim B (g (Ripcalc.paragraphs ps) ++ u) := by
  induction ps with
  | nil =>
    rw [show Ripcalc.paragraphs [] = [] from rfl, hg.nil]
    exact hu
  | cons p ps ih =>
    obtain ⟨h1, h2, h3⟩ := h p (by simp)
    have h4 := ih fun x hx => h x (List.mem_cons_of_mem _ hx)
    rw [paragraphs_cons]
    simp only [hg.append, hg.plain, List.append_assoc]
    have e : p.1 ++ (":\n".toList ++ (g p.2 ++ (['\n'] ++ (g (Ripcalc.paragraphs ps) ++ u)))) =
        (p.1 ++ [':']) ++ '\n' :: (g p.2 ++ '\n' :: (g (Ripcalc.paragraphs ps) ++ u)) := by simp
    rw [e]
    refine Slim.line ?_ (by simpa using h2) (Slim.sep h3 h4)
    rw [List.mem_append, List.mem_singleton, not_or]
    exact ⟨h1, by decide⟩

/-! ## Commands -/

section
variable {A : Type} [IpAddr A] [AddrSpec A] [LawfulIpAddr A]

/-- What is needed of a family. -/
structure SlimFamily (g : List Mark → Str) (F : Family A) (B : Nat) : Prop where
  writing : Writing g
  enough : 46 ≤ B
  wf : ∀ s a n, F.network s a n → WF n
  block : ∀ n addr t, WF n → F.Block n addr t → Slim B (g t)
  net : ∀ n, WF n → '\n' ∉ F.netText n ∧ (F.netText n).length ≤ B
  text : ∀ a, '\n' ∉ F.text a ∧ (F.text a).length ≤ B
  num : ∀ v, '\n' ∉ F.num v
  count : ∀ v, v ≤ 2 ^ width A → (F.num v).length + 18 ≤ B

variable {g : List Mark → Str} {F : Family A} {B : Nat} (hF : SlimFamily g F B)
include hF

theorem SlimFamily.netLines {ns : List (Net A)} (h : ∀ n ∈ ns, WF n) : Slim B (F.netLines ns) :=
  Slim.asLines fun l hl => by
    obtain ⟨n, hn, rfl⟩ := List.mem_map.mp hl
    exact hF.net n (h n hn)

theorem SlimFamily.minimizes {ss : List Str} {r : Outcome} (h : F.Minimizes ss r) : Slim B (g r.out) := by
  have hg := hF.writing
  obtain ⟨-, ns, out, h1, h2, rfl⟩ := h
  have hw : ∀ n ∈ ns, WF n := fun n hn => by
    obtain ⟨s, -, a, hs⟩ := h1.mem_right n hn
    exact hF.wf s a n hs
  have h3 := (C88_steps (Runtime.reference .checked true) ns out hw).mpr h2
  rw [Outcome.shown, hg.plain]
  exact hF.netLines (C44_sorted _ ns out hw h3).2.2.1

theorem SlimFamily.deranges {pr : Profile} {ss : List Str} {r : Outcome} (h : F.Deranges pr ss r) : Slim B (g r.out) := by
  have hg := hF.writing
  obtain ⟨u, v, a, b, -, -, -, ⟨-, rfl⟩ | ⟨-, ns, h, rfl⟩⟩ := h
  · show Slim B (g [])
    rw [hg.nil]
    exact Slim.nil B
  · rw [Outcome.shown, hg.plain]
    exact hF.netLines fun n hn => (h.1 n hn).choose_spec.1

theorem SlimFamily.enumerated {s t : Str} (h : F.Enumerated s t) : ∃ ls, (∀ l ∈ ls, '\n' ∉ l ∧ l.length ≤ B) ∧ t = asLines ls := by
  obtain ⟨a, n, xs, -, -, rfl⟩ := h
  refine ⟨_, fun l hl => ?_, rfl⟩
  obtain ⟨x, -, rfl⟩ := List.mem_map.mp hl
  exact hF.text x

theorem SlimFamily.shown {s : Str} {t : List Mark} (h : F.Shown s t) : Slim B (g t) := by
  obtain ⟨a, n, h1, h2⟩ := h
  exact hF.block n _ t (hF.wf s a n h1) h2

theorem SlimFamily.blocks {hs : List Str} {ns : List (Net A)} {ts : List (List Mark)} (hw : ∀ n ∈ ns, WF n)
    (hp : Pointwise (fun n t => F.Block n none t) ns ts) (hh : ∀ l ∈ hs, '\n' ∉ l ∧ l.length + 1 ≤ B) :
    ∀ p ∈ hs.zip ts, '\n' ∉ p.1 ∧ p.1.length + 1 ≤ B ∧ Slim B (g p.2) := by
  intro p hm
  obtain ⟨h1, h2⟩ := List.of_mem_zip hm
  obtain ⟨n, hn, hb⟩ := hp.mem_right p.2 h2
  exact ⟨(hh _ h1).1, (hh _ h1).2, hF.block n _ _ (hw n hn) hb⟩

theorem SlimFamily.resizes {ss : List Str} {r : Outcome} (h : F.Resizes ss r) : Slim B (g r.out) := by
  have hg := hF.writing
  obtain ⟨s, k, a, n, m, ns, t, ts, -, h1, -, h2, h3, h4, rfl⟩ := h
  have hn := hF.wf s a n h1
  have hlen : ns.length ≤ 2 ^ width A := by
    have := congrArg List.length h2.2
    rw [List.length_map, List.length_range'] at this
    rw [this]
    exact Nat.pow_le_pow_right (by decide) (Nat.le_trans (Nat.sub_le _ _) (countBelow_le _ _))
  have he := hF.enough
  rw [Outcome.shown, ← List.append_nil (g _)]
  refine Slim.paragraphs hg ?_ (Slim.nil B)
  intro p hp
  rcases List.mem_cons.mp hp with rfl | hp
  · have e : ("Original network".toList).length = 16 := by decide
    have e' : '\n' ∉ "Original network".toList := by decide
    refine ⟨e', ?_, hF.block n _ t hn h3⟩
    show ("Original network".toList).length + 1 ≤ B
    omega
  · refine hF.blocks (fun o ho => (h2.1 o ho).1) h4 ?_ p hp
    intro l hl
    unfold resizeHeadings at hl
    split at hl
    · rw [List.mem_singleton.mp hl]
      exact ⟨by decide, by have : ("Supernet".toList).length = 8 := by decide
                           omega⟩
    · split at hl
      · rw [List.mem_singleton.mp hl]
        exact ⟨by decide, by have : ("Same-sized net".toList).length = 14 := by decide
                             omega⟩
      · obtain ⟨i, hi, rfl⟩ := List.mem_map.mp hl
        have hi := List.mem_range.mp hi
        have := hF.count (i + 1) (by omega)
        refine ⟨?_, ?_⟩
        · rw [List.mem_append, not_or]
          exact ⟨by decide, hF.num _⟩
        · have e : ("Subnet ".toList).length = 7 := by decide
          rw [List.length_append]
          omega

theorem allotted_small {b e : Nat} {rs : List (Int × Net A)} (h : Allotted b rs e) :
    b ≤ e ∧ ∀ r ∈ rs, WF r.2 ∧ r.1 + 2 ≤ (2 ^ width A : Nat) := by
  induction h with
  | nil b => exact ⟨Nat.le_refl _, fun r hr => by cases hr⟩
  | @cons c n rest q e h1 h2 h3 ih =>
    refine ⟨Nat.le_trans (Nat.le_add_right _ _) ih.1, fun r hr => ?_⟩
    rcases List.mem_cons.mp hr with rfl | hr
    · refine ⟨h1.1, ?_⟩
      have h4 : (2 : Nat) ^ (width A - q) ≤ 2 ^ width A := Nat.pow_le_pow_right (by decide) (Nat.sub_le _ _)
      have h5 := h2.1
      have h6 : ((2 : Nat) ^ (width A - q) : Nat) = ((2 : Int) ^ (width A - q)) := by simp
      show c + 2 ≤ _
      omega
    · exact ih.2 r hr

theorem SlimFamily.splits {ss : List Str} {r : Outcome} (h : F.Splits ss r) : Slim B (g r.out) := by
  have hg := hF.writing
  obtain ⟨s, counts, hcs, a, n, -, -, hp, h1, h2⟩ := h
  have hn := hF.wf s a n h1
  have he := hF.enough
  have first : ∀ t, F.Block n none t → '\n' ∉ "Subnet to split".toList ∧ ("Subnet to split".toList).length + 1 ≤ B ∧ Slim B (g t) :=
    fun t ht => ⟨by decide, by have : ("Subnet to split".toList).length = 15 := by decide
                               omega, hF.block n _ t hn ht⟩
  rcases h2 with ⟨-, t, h3, rfl⟩ | ⟨ns, text, h3, ⟨t, ts, h4, h5, rfl⟩, h6⟩
  · show Slim B (g (paragraphs [("Subnet to split".toList, t)] ++ plainly _))
    rw [hg.append, hg.plain]
    refine Slim.paragraphs hg (fun p hp => ?_) ?_
    · rw [List.mem_singleton.mp hp]
      exact first t h3
    · exact Slim.line (l := "Not enough addresses available for this split.".toList) (u := []) (by decide) (by
        have : ("Not enough addresses available for this split.".toList).length = 46 := by decide
        omega) (Slim.nil B)
  · obtain ⟨hl, rs, E, e, hperm, -, -, hal, -⟩ := h3
    have hsmall := (allotted_small hF hal).2
    have hw : ∀ m ∈ ns, WF m := by
      intro m hm
      obtain ⟨i, hi, rfl⟩ := List.mem_iff_getElem.mp hm
      have hz : (hcs[i]'(by omega), ns[i]) ∈ hcs.zip ns := List.mem_iff_getElem.mpr ⟨i, by simp; omega, by simp⟩
      exact (hsmall _ (hperm.mem_iff.mpr hz)).1
    have hc : ∀ c ∈ hcs, c + 2 ≤ (2 ^ width A : Nat) := by
      intro c hc
      obtain ⟨i, hi, rfl⟩ := List.mem_iff_getElem.mp hc
      have hz : (hcs[i], ns[i]'(by omega)) ∈ hcs.zip ns := List.mem_iff_getElem.mpr ⟨i, by simp; omega, by simp⟩
      exact (hsmall _ (hperm.mem_iff.mpr hz)).2
    have key : ∀ u, Slim B u → Slim B (g (paragraphs (("Subnet to split".toList, t) :: (hcs.map (splitHeading F.num)).zip ts)) ++ u) := by
      intro u hu
      refine Slim.paragraphs hg (fun p hp => ?_) hu
      rcases List.mem_cons.mp hp with rfl | hp
      · exact first t h4
      · refine hF.blocks hw h5 ?_ p hp
        intro l hl
        obtain ⟨c, hcm, rfl⟩ := List.mem_map.mp hl
        have h7 := hc c hcm
        have h8 := hF.count c.toNat (by
          have : 0 < 2 ^ width A := Nat.pow_pos (by decide)
          omega)
        refine ⟨?_, ?_⟩
        · have n1 : '\n' ∉ "Subnet for ".toList := by decide
          have n2 : '\n' ∉ " hosts".toList := by decide
          intro hm
          rcases List.mem_append.mp hm with hm | hm
          · rcases List.mem_append.mp hm with hm | hm
            · exact n1 hm
            · exact hF.num _ hm
          · exact n2 hm
        · have e1 : ("Subnet for ".toList).length = 11 := by decide
          have e2 : (" hosts".toList).length = 6 := by decide
          have e3 : (splitHeading F.num c).length = ("Subnet for ".toList).length + (F.num c.toNat).length + (" hosts".toList).length := by
            unfold splitHeading
            rw [List.length_append, List.length_append]
          omega
    have unused : ∀ u, Slim B u → Slim B ("Unused networks:\n".toList ++ u) := fun u hu =>
      Slim.line (l := "Unused networks:".toList) (by decide) (by
        have : ("Unused networks:".toList).length = 16 := by decide
        omega) hu
    obtain ⟨used, -, -, ⟨-, rfl⟩ | ⟨-, last, -, -, ⟨-, rfl⟩ | ⟨-, us, h7, rfl⟩⟩⟩ := h6
    · rw [Outcome.shown, hg.append, hg.plain]
      exact key _ (Slim.line (l := "Network is too small".toList) (u := []) (by decide) (by
        have : ("Network is too small".toList).length = 20 := by decide
        omega) (Slim.nil B))
    · show Slim B (g (_ ++ plainly _))
      rw [hg.append, hg.plain]
      have := key _ (unused [] (Slim.nil B))
      simpa using this
    · rw [Outcome.shown, hg.append, hg.plain]
      exact key _ (unused _ (hF.netLines fun n hn => (h7.1 n hn).choose_spec.1))

end

/-! ## The families -/

theorem inColumns_length {aw tw : Nat} {line : Str} (htw : 19 ≤ tw) (h : InColumns aw tw line) : line.length ≤ 11 + aw + tw := by
  obtain ⟨label, text, third, i, j, rfl, h1, h2, -, -, -, h3⟩ := h
  have h4 : third.length ≤ tw := by
    rcases h3 with ⟨-, h3, -⟩ | ⟨-, rfl | h3⟩
    · omega
    · exact Nat.zero_le _
    · have : ∀ t ∈ classTable.map Prod.fst, t.length ≤ 19 := by decide
      have := this _ h3
      omega
  simp only [List.length_append, List.length_replicate]
  omega

theorem remarks_length {line : Str} (h : line ∈ remarks) : line.length ≤ 12 := by
  have : ∀ l ∈ remarks, l.length ≤ 12 := by decide
  exact this _ h

theorem net_slim {A : Type} [IpAddr A] [AddrSpec A] [LawfulIpAddr A] {aw tw B : Nat} {show_ binary : A → Str}
    (L : Layout A aw tw show_ binary) (hB : 2 * aw ≤ B) {n : Net A} (hn : WF n) :
    '\n' ∉ show_ n.baseAddr ++ ['/'] ++ (match n.cidrPrefix with | some p => showNat 10 p | none => show_ n.subnetMask) ∧
    (show_ n.baseAddr ++ ['/'] ++ (match n.cidrPrefix with | some p => showNat 10 p | none => show_ n.subnetMask)).length ≤ B := by
  have h1 := plain_newline (L.plain n.baseAddr)
  have h2 := plain_newline (L.plain n.subnetMask)
  have h3 := L.length n.baseAddr
  have h4 := L.length n.subnetMask
  have h5 := (L.netText hn).1
  unfold netText at h5
  cases hp : n.cidrPrefix with
  | none => simp [h1, h2]; omega
  | some p =>
    rw [hp] at h5
    have h6 := showNat_newline p
    simp only [List.length_append, List.length_singleton] at h5
    simp [h1, h6]; omega

theorem slim4 : SlimFamily textOf shownTexts.ipv4 67 where
  writing := writing_text
  enough := by decide
  wf := fun s a n h => (C33_parsed_good s _ ((v4Network_iff s a n).mpr h)).2.1
  block := fun n addr t hn h => by
    obtain ⟨u, h1, h2⟩ := C62_block_v4 (Runtime.reference .checked true) rfl n hn addr
    obtain ⟨t', h3, h4⟩ := (displayed4 (Runtime.reference .checked true) rfl).block n hn addr
    obtain rfl := (displayed4 (Runtime.reference .checked true) rfl).unique h h3
    have e : textOf t = u := by rw [textOf, ← h4.2.1, marks_text]; exact h2.2.1
    rw [e]
    intro line hl
    rcases display4_lines hn h1 line hl with h5 | h5
    · have := remarks_length h5
      show line.length ≤ 67
      omega
    · exact inColumns_length (by decide) h5
  net := fun n hn => net_slim layout4 (by decide) hn
  text := fun a => ⟨plain_newline (layout4.plain a), by have := display4_length a; show (IpAddr.display a).length ≤ 67; omega⟩
  num := showNat_newline
  count := fun v hv => by
    have : (showNat 10 v).length ≤ 10 := showNat_length_le (by decide) (by decide) (Nat.lt_of_le_of_lt hv (by decide))
    show (showNat 10 v).length + 18 ≤ 67
    omega
theorem slim6 : SlimFamily textOf shownTexts.ipv6 192 where
  writing := writing_text
  enough := by decide
  wf := fun s a n h => (C33_parsed_good s _ ((v6Network_iff s a n).mpr h)).2.1
  block := fun n addr t hn h => by
    obtain ⟨u, h1, h2⟩ := C62_block_v6 (Runtime.reference .checked true) rfl n hn addr
    obtain ⟨t', h3, h4⟩ := (displayed6 (Runtime.reference .checked true) rfl).block n hn addr
    obtain rfl := (displayed6 (Runtime.reference .checked true) rfl).unique h h3
    have e : textOf t = u := by rw [textOf, ← h4.2.1, marks_text]; exact h2.2.1
    rw [e]
    intro line hl
    rcases display6_lines hn h1 line hl with h5 | h5
    · have := remarks_length h5
      show line.length ≤ 192
      omega
    · exact inColumns_length (by decide) h5
  net := fun n hn => net_slim layout6 (by decide) hn
  text := fun a => ⟨plain_newline (layout6.plain a), by have := display6_length a; show (IpAddr.display a).length ≤ 192; omega⟩
  num := showNat_newline
  count := fun v hv => by
    have : (showNat 10 v).length ≤ 39 := showNat_length_le (by decide) (by decide) (Nat.lt_of_le_of_lt hv (by decide))
    show (showNat 10 v).length + 18 ≤ 192
    omega

/-! ## Pieces -/

/-- A line end, or a short piece. -/
def ShortMark (B : Nat) (m : Mark) : Prop := m = .char '\n' ∨ ∃ c s, m = .piece c s ∧ '\n' ∉ s ∧ s.length ≤ B

theorem slim_pieces {B : Nat} {ms : List Mark} (h : ∀ m ∈ ms, ShortMark B m) : Slim B (piecesOf ms) := by
  induction ms with
  | nil => exact Slim.nil B
  | cons m ms ih =>
    have h1 := ih fun x hx => h x (List.mem_cons_of_mem _ hx)
    rcases h m (by simp) with rfl | ⟨c, s, rfl, h2, h3⟩
    · exact Slim.line (l := []) (by simp) (Nat.zero_le _) h1
    · have := Slim.line h2 h3 h1
      simpa [piecesOf, Mark.line] using this

theorem grouped_mem {α : Type} {w g : Nat} {sep : α} {f : Nat → α} {x : α} (h : x ∈ grouped w g sep f) : x = sep ∨ ∃ p, x = f p := by
  have key : ∀ {l : List (List α)}, x ∈ List.intercalate [sep] l → x = sep ∨ ∃ t ∈ l, x ∈ t := by
    intro l
    induction l with
    | nil => intro h; simp [List.intercalate] at h
    | cons t l ih =>
      cases l with
      | nil => intro h; exact .inr ⟨t, by simp, by simpa [List.intercalate] using h⟩
      | cons u l =>
        intro h
        rw [List.intercalate_cons_cons] at h
        rcases List.mem_append.mp h with h | h
        · rcases List.mem_append.mp h with h | h
          · exact .inr ⟨t, by simp, h⟩
          · exact .inl (List.mem_singleton.mp h)
        · rcases ih h with h | ⟨v, hv, hx⟩
          · exact .inl h
          · exact .inr ⟨v, List.mem_cons_of_mem _ hv, hx⟩
  rcases key h with h | ⟨t, ht, hx⟩
  · exact .inl h
  · obtain ⟨i, -, rfl⟩ := List.mem_map.mp ht
    obtain ⟨j, -, rfl⟩ := List.mem_map.mp hx
    exact .inr ⟨_, rfl⟩

section
variable {A : Type} [IpAddr A] [AddrSpec A] [LawfulIpAddr A] {F : Family A} {tw : Nat} {binary : A → Str} {B : Nat}

theorem bitChar_newline (v p : Nat) : bitChar v p ≠ '\n' := by
  unfold bitChar
  split <;> decide

theorem digits_short (hB : 8 ≤ B) (hs : F.sep ≠ '\n') (col : Nat → Color) (a : A) : ∀ m ∈ F.digits col a, ShortMark B m := by
  intro m hm
  rcases grouped_mem hm with rfl | ⟨p, rfl⟩
  · exact .inr ⟨_, _, rfl, by simpa using hs.symm, by simp; omega⟩
  · exact .inr ⟨_, _, rfl, by simpa using (bitChar_newline _ _).symm, by simp; omega⟩

theorem bytes_short (hB : 8 ≤ B) (hs : F.sep ≠ '\n') (c : Color) (a : A) : ∀ m ∈ F.bytes c a, ShortMark B m := by
  intro m hm
  rcases grouped_mem hm with rfl | ⟨p, rfl⟩
  · exact .inr ⟨_, _, rfl, by simpa using hs.symm, by simp; omega⟩
  · refine .inr ⟨_, _, rfl, fun h => ?_, by simp; omega⟩
    obtain ⟨j, -, e⟩ := List.mem_map.mp h
    exact bitChar_newline _ _ e

theorem line_short (hB : 11 ≤ B) (hc : F.column ≤ B) {label text : Str} (hl : label.length ≤ 11 ∧ '\n' ∉ label)
    (ht : text.length < F.column ∧ '\n' ∉ text) {third : List Mark} (h3 : ∀ m ∈ third, ShortMark B m) :
    ∀ m ∈ F.line label text third, ShortMark B m := by
  intro m hm
  unfold Family.line at hm
  rcases List.mem_append.mp hm with hm | hm
  · rcases List.mem_append.mp hm with hm | hm
    · simp only [List.mem_cons, List.not_mem_nil, or_false] at hm
      rcases hm with rfl | rfl
      · refine .inr ⟨_, _, rfl, padRight_newline hl.2, ?_⟩
        rw [padRight, List.length_append, List.length_replicate]; omega
      · refine .inr ⟨_, _, rfl, padRight_newline ht.2, ?_⟩
        rw [padRight, List.length_append, List.length_replicate]; omega
    · exact h3 m hm
  · exact .inl (List.mem_singleton.mp hm)

theorem render_short (L : Layout A F.column tw F.text binary) (hnum : F.num = showNat 10) (hB : 19 ≤ B) (hc : F.column ≤ B)
    (hs : F.sep ≠ '\n') {n : Net A} (hn : WF n) {addr : Option A} {b : BlockText A} (hd : b.Describes n addr)
    (hcls : b.cls = [] ∨ b.cls ∈ classTable.map Prod.fst) (col : Nat → Color) : ∀ m ∈ F.render col b, ShortMark B m := by
  have hk : ∀ c a, ∀ m ∈ F.bytes c a, ShortMark B m := bytes_short (by omega) hs
  have hdg : ∀ col a, ∀ m ∈ F.digits col a, ShortMark B m := digits_short (by omega) hs
  have text : ∀ a, (F.text a).length < F.column ∧ '\n' ∉ F.text a := fun a => ⟨L.length a, plain_newline (L.plain a)⟩
  have hlb : ∀ l ∈ columnLabels, l.length ≤ 11 ∧ '\n' ∉ l := fun l hl =>
    ⟨by have := (labels_short l hl).1; omega, plain_newline (labels_short l hl).2⟩
  have remark : ∀ r ∈ remarks, ShortMark B (.piece .white r) := fun r hr => by
    have h1 := remarks_length hr
    have h2 : ∀ r ∈ remarks, '\n' ∉ r := by decide
    exact .inr ⟨_, _, rfl, h2 r hr, by omega⟩
  have nl : ∀ m ∈ plainly ['\n'], ShortMark B m := fun m hm => .inl (List.mem_singleton.mp hm)
  have cat : ∀ {u v : List Mark}, (∀ m ∈ u, ShortMark B m) → (∀ m ∈ v, ShortMark B m) → ∀ m ∈ u ++ v, ShortMark B m :=
    fun hu hv m hm => (List.mem_append.mp hm).elim (hu m) (hv m)
  have one : ∀ {m : Mark}, ShortMark B m → ∀ x ∈ [m], ShortMark B x := fun h x hx => by rw [List.mem_singleton.mp hx]; exact h
  have hmask := L.maskText hn
  have hnet := L.netText hn
  have hcount : 0 < b.hostCount → (F.num b.hostCount.toNat).length < F.column ∧ '\n' ∉ F.num b.hostCount.toNat := by
    intro hp
    rw [hnum]
    refine ⟨L.count _ ?_, showNat_newline _⟩
    have h1 := hd.hostCount
    have h2 : (2 : Nat) ^ hostBitCount n.subnetMask ≤ 2 ^ width A := Nat.pow_le_pow_right (by decide) (countBelow_le _ _)
    have h3 : ((2 : Nat) ^ hostBitCount n.subnetMask : Nat) = ((2 : Int) ^ hostBitCount n.subnetMask) := by simp
    omega
  have hln : ∀ {label text : Str} {third : List Mark}, label ∈ columnLabels → (text.length < F.column ∧ '\n' ∉ text) →
      (∀ m ∈ third, ShortMark B m) → ∀ m ∈ F.line label text third, ShortMark B m :=
    fun hl ht h3 => line_short (by omega) hc (hlb _ hl) ht h3
  have hnw := hd.network
  unfold Family.render
  rw [hnw]
  refine cat (cat (cat (cat ?_ ?_) ?_) ?_) ?_
  · cases b.address with
    | none => intro m hm; cases hm
    | some a =>
      refine cat (cat (cat (cat (hln (by decide) (text a) (hdg _ _)) (hln (by decide) ?_ (hk _ _))) (hln (by decide) (text _) (hk _ _)))
        (one (remark _ (by decide)))) nl
      unfold maskText at hmask
      rw [hnum]
      cases hp : n.cidrPrefix with
      | none => simpa using text n.subnetMask
      | some p =>
        rw [hp] at hmask
        have := plain_newline hmask.2.2
        simp only [List.append_assoc] at hmask this ⊢
        exact ⟨hmask.1, this⟩
  · refine hln (by decide) ?_ (hdg _ _)
    unfold netText at hnet
    rw [hnum]
    cases hp : n.cidrPrefix with
    | none => simpa using text n.baseAddr
    | some p =>
      rw [hp] at hnet
      have := plain_newline hnet.2.2.1
      simp only [List.append_assoc] at hnet this ⊢
      exact ⟨hnet.1, this⟩
  · cases b.hosts with
    | none => exact cat (one (remark _ (by decide))) nl
    | some x => exact cat (hln (by decide) (text _) (hk _ _)) (hln (by decide) (text _) (hk _ _))
  · cases b.broadcast with
    | none => exact cat (one (remark _ (by decide))) nl
    | some x => exact hln (by decide) (text _) (hk _ _)
  · split
    · rename_i hp
      refine hln (by decide) (hcount hp) ?_
      split
      · intro m hm; cases hm
      · rename_i hne
        refine one (.inr ⟨_, _, rfl, ?_, ?_⟩)
        · rcases hcls with h | h
          · exact absurd h hne
          · have key : ∀ t ∈ classTable.map Prod.fst, '\n' ∉ t := by decide
            exact key _ h
        · rcases hcls with h | h
          · exact absurd h hne
          · have key : ∀ t ∈ classTable.map Prod.fst, t.length ≤ 19 := by decide
            have := key _ h
            omega
    · exact one (remark _ (by decide))

end

theorem pieces4 : SlimFamily piecesOf shownTexts.ipv4 46 where
  writing := writing_lines
  enough := by decide
  wf := slim4.wf
  block := fun n addr t hn h => by
    obtain ⟨b, col, h1, h2, -, rfl⟩ := h
    exact slim_pieces (render_short layout4 rfl (by decide) (by decide) (by decide) hn h1 h2.2.2 col)
  net := fun n hn => net_slim layout4 (by decide) hn
  text := fun a => ⟨plain_newline (layout4.plain a), by have := display4_length a; show (IpAddr.display a).length ≤ 46; omega⟩
  num := showNat_newline
  count := fun v hv => by
    have : (showNat 10 v).length ≤ 10 := showNat_length_le (by decide) (by decide) (Nat.lt_of_le_of_lt hv (by decide))
    show (showNat 10 v).length + 18 ≤ 46
    omega

theorem pieces6 : SlimFamily piecesOf shownTexts.ipv6 79 where
  writing := writing_lines
  enough := by decide
  wf := slim6.wf
  block := fun n addr t hn h => by
    obtain ⟨b, col, h1, h2, -, rfl⟩ := h
    exact slim_pieces (render_short layout6 rfl (by decide) (by decide) (by decide) hn h1 (.inl h2) col)
  net := fun n hn => by
    refine ⟨(net_slim layout6 (Nat.le_refl _) hn).1, ?_⟩
    have h1 := display6_length n.baseAddr
    have h2 := display6_length n.subnetMask
    have h3 := (layout6.netText hn).1
    show (IpAddr.display n.baseAddr ++ ['/'] ++ _).length ≤ 79
    unfold netText at h3
    cases hp : n.cidrPrefix with
    | none =>
      show (IpAddr.display n.baseAddr ++ ['/'] ++ IpAddr.display n.subnetMask).length ≤ 79
      simp only [List.length_append, List.length_singleton]
      omega
    | some p =>
      rw [hp] at h3
      simp only [] at h3
      show (IpAddr.display n.baseAddr ++ ['/'] ++ showNat 10 p).length ≤ 79
      omega
  text := fun a => ⟨plain_newline (layout6.plain a), by have := display6_length a; show (IpAddr.display a).length ≤ 79; omega⟩
  num := showNat_newline
  count := fun v hv => by
    have : (showNat 10 v).length ≤ 39 := showNat_length_le (by decide) (by decide) (Nat.lt_of_le_of_lt hv (by decide))
    show (showNat 10 v).length + 18 ≤ 79
    omega

/-! ## The program -/

theorem v6Network_colon {s : Str} {a : V6} {n : Net V6} (h : V6Network s a n) : ':' ∈ s := by
  obtain ⟨t, w, l, rfl, ht, hr, -⟩ := h
  have key : ':' ∈ t := by
    refine Decidable.byContradiction fun hc => ?_
    have e : completeColons t = t := by
      have h1 : t.head? ≠ some ':' := fun e => hc (List.mem_of_mem_head? (by rw [e]; rfl))
      have h2 : t.getLast? ≠ some ':' := fun e => hc (List.mem_of_getLast? e)
      rw [completeColons, if_neg h1, if_neg h2]; simp
    have two : ∀ (x y : Str) (zs : List Str), ':' ∈ List.intercalate [':'] (x :: y :: zs) := fun x y zs => by
      simp [List.intercalate, List.intersperse]
    rcases hr with ⟨gs, h1, h2, -⟩ | ⟨pre, post, vs, ws, h1, -⟩
    · rw [e] at h1
      rcases gs with _ | ⟨x, _ | ⟨y, zs⟩⟩
      · cases h2
      · cases h2
      · exact hc (h1 ▸ two x y zs)
    · rw [e] at h1
      rcases pre with _ | ⟨x, _ | ⟨y, zs⟩⟩
      · rcases post with _ | ⟨y, zs⟩
        · exact ht.1 h1
        · exact hc (h1 ▸ two [] y zs)
      · exact hc (h1 ▸ two x [] post)
      · exact hc (h1 ▸ two x y _)
  unfold specText
  simp [key]

theorem slim_intercalate {g : List Mark → Str} (hg : Writing g) {B : Nat} {ts : List (List Mark)} (h : ∀ t ∈ ts, Slim B (g t)) :
    Slim B (g (List.intercalate (plainly ['\n']) ts)) := by
  induction ts with
  | nil =>
    show Slim B (g [])
    rw [hg.nil]
    exact Slim.nil B
  | cons t ts ih =>
    cases ts with
    | nil =>
      have := h t (by simp)
      simpa [List.intercalate] using this
    | cons u ts =>
      have h1 := h t (by simp)
      have h2 := ih fun x hx => h x (List.mem_cons_of_mem _ hx)
      have e : List.intercalate (plainly ['\n']) (t :: u :: ts) = t ++ plainly ['\n'] ++ List.intercalate (plainly ['\n']) (u :: ts) := by
        simp [List.intercalate, List.intersperse]
      rw [e, hg.append, hg.append, hg.plain, List.append_assoc]
      exact Slim.sep h1 h2

/-- No line has more than `C` characters, or than `B` if there is no colon in an argument. -/
def SlimOutput (B C : Nat) (ss : List Str) (t : Str) : Prop := Slim C t ∧ ((∀ s ∈ ss, ':' ∉ s) → Slim B t)

theorem SlimOutput.narrow {B C : Nat} (hB : B ≤ C) {ss : List Str} {t : Str} (h : Slim B t) : SlimOutput B C ss t := ⟨h.mono hB, fun _ => h⟩
theorem SlimOutput.wide {B C : Nat} {ss : List Str} {t s : Str} (hs : s ∈ ss) (hc : ':' ∈ s) (h : Slim C t) : SlimOutput B C ss t :=
  ⟨h, fun hn => absurd hc (hn _ hs)⟩

theorem runs_slim {g : List Mark → Str} (hg : Writing g) {B C : Nat} (hB : B ≤ C) (slim4 : SlimFamily g shownTexts.ipv4 B)
    (slim6 : SlimFamily g shownTexts.ipv6 C) {pr : Profile} {args : List Str} {r : Outcome} (h : Runs pr shownTexts args r)
    (hm : ∀ prog rest, args ≠ prog :: "--color-test".toList :: rest) : SlimOutput B C (args.drop 1) (g r.out) := by
  have none : ∀ {ss}, SlimOutput B C ss (g []) := fun {ss} => by
    rw [hg.nil]
    exact .narrow hB (Slim.nil _)
  cases h with
  | none _ => exact none
  | help => exact none
  | @colours prog rest => exact absurd rfl (hm prog rest)
  | @minimize prog mode rest r hw h =>
    rcases h with ⟨m, -, rfl⟩ | h | h
    · exact none
    · exact .narrow hB (slim4.minimizes h)
    · obtain ⟨s, hs, hc⟩ : ∃ s ∈ rest, ':' ∈ s := by
        obtain ⟨hne, ns, out, hp, -⟩ := h
        cases rest with
        | nil => exact absurd rfl hne
        | cons s rest =>
          obtain ⟨n, -, a, hn⟩ := hp.mem_left s (by simp)
          exact ⟨s, by simp, v6Network_colon hn⟩
      exact .wide (List.mem_cons_of_mem _ hs) hc (slim6.minimizes h)
  | @derange prog mode rest r hw h =>
    rcases h with ⟨m, -, rfl⟩ | h | h
    · exact none
    · exact .narrow hB (slim4.deranges h)
    · obtain ⟨s, hs, hc⟩ : ∃ s ∈ rest, ':' ∈ s := by
        obtain ⟨u, v, a, b, rfl, hu, -⟩ := h
        exact ⟨u, by simp, hu.1⟩
      exact .wide (List.mem_cons_of_mem _ hs) hc (slim6.deranges h)
  | @resize prog mode rest r hw h =>
    rcases h with ⟨m, -, rfl⟩ | h | h
    · exact none
    · exact .narrow hB (slim4.resizes h)
    · obtain ⟨s, hs, hc⟩ : ∃ s ∈ rest, ':' ∈ s := by
        obtain ⟨s, k, a, n, m, ns, t, ts, rfl, hn, -⟩ := h
        exact ⟨s, by simp, v6Network_colon hn⟩
      exact .wide (List.mem_cons_of_mem _ hs) hc (slim6.resizes h)
  | @split prog mode rest r hw h =>
    rcases h with ⟨m, -, rfl⟩ | h | h
    · exact none
    · exact .narrow hB (slim4.splits h)
    · obtain ⟨s, hs, hc⟩ : ∃ s ∈ rest, ':' ∈ s := by
        obtain ⟨s, counts, hcs, a, n, rfl, -, -, hn, -⟩ := h
        exact ⟨s, by simp, v6Network_colon hn⟩
      exact .wide (List.mem_cons_of_mem _ hs) hc (slim6.splits h)
  | @enumerate prog mode rest ts ms hw hne hc hp =>
    show SlimOutput _ _ _ (g (plainly ts.flatten))
    rw [hg.plain]
    have key : ∀ {ss : List Str} {ts : List Str} {B : Nat},
        Pointwise (fun s t => ∃ ls, (∀ l ∈ ls, '\n' ∉ l ∧ l.length ≤ B) ∧ t = asLines ls) ss ts → Slim B ts.flatten := by
      intro ss ts B h
      induction h with
      | nil => exact Slim.nil B
      | cons h1 _ ih =>
        obtain ⟨ls, h1, rfl⟩ := h1
        rw [List.flatten_cons]
        exact Slim.append_lines h1 ih
    refine ⟨key (hp.imp fun s _ t h => ?_), fun hn => key (hp.imp fun s hs t h => ?_)⟩
    · rcases h with h | h | ⟨-, rfl⟩
      · obtain ⟨ls, h1, h2⟩ := slim4.enumerated h
        exact ⟨ls, fun l hl => ⟨(h1 l hl).1, Nat.le_trans (h1 l hl).2 hB⟩, h2⟩
      · exact slim6.enumerated h
      · exact ⟨[], fun l hl => (by cases hl), rfl⟩
    · rcases h with h | h | ⟨-, rfl⟩
      · exact slim4.enumerated h
      · obtain ⟨a, n, xs, h1, -⟩ := h
        exact absurd (v6Network_colon h1) (hn s (List.mem_cons_of_mem _ hs))
      · exact ⟨[], fun l hl => (by cases hl), rfl⟩
  | enumerateNone _ => exact none
  | showBad _ _ => exact none
  | @shows prog mode rest ts hw hp =>
    refine ⟨slim_intercalate hg fun t ht => ?_, fun hn => slim_intercalate hg fun t ht => ?_⟩
    · obtain ⟨s, -, h | h⟩ := hp.mem_right t ht
      · exact (slim4.shown h).mono hB
      · exact slim6.shown h
    · obtain ⟨s, hs, h | h⟩ := hp.mem_right t ht
      · exact slim4.shown h
      · obtain ⟨a, n, h1, -⟩ := h
        exact absurd (v6Network_colon h1) (hn s hs)

theorem visible_pieces (evs : List OutEv) : visible (evs.map fun e => match e with
      | .styled _ s => .out (s ++ ['\n'])
      | e => e) = (marks evs).flatMap Mark.line := by
  induction evs with
  | nil => rfl
  | cons e evs ih =>
    rw [List.map_cons, marks_cons, List.flatMap_append, ← ih]
    cases e with
    | out s => simp [visible, marksOf, plainly, List.flatMap_map, Mark.line]
    | styled c s => simp [visible, marksOf, Mark.line]
    | err m => rfl

theorem described_colors (rt : Runtime) (args : List Str) :
    Runs rt.profile shownTexts args (Outcome.of (doMain (rt.withColors true) args)) :=
  (runs_iff _ _ _).mpr ⟨rt.withColors true, rfl, rfl, rfl⟩

theorem visible_off (rt : Runtime) (hc : rt.colorsEnabled = false) (args : List Str) :
    visible (doMain rt args).out = piecesOf (Outcome.of (doMain (rt.withColors true) args)).out := by
  obtain ⟨-, -, -, -, g⟩ := C61_uncolored_partial rt args
  have e : rt.withColors false = rt := by rw [Runtime.withColors, ← hc]
  rw [e] at g
  exact (congrArg visible g).trans (visible_pieces _)

/-! ## C117 -/

/-- With colours: no line on standard output has more than 192 characters, except in the colour test.  If there is no colon in an
argument, so that no IPv6 network or address is given, no line has more than 67 characters: all lines fit on a terminal with 80
columns. -/
theorem C117_colors (rt : Runtime) (hc : rt.colorsEnabled = true) (args : List Str)
    (hm : ∀ prog rest, args ≠ prog :: "--color-test".toList :: rest) (line : Str) (hl : IsLine (visible (doMain rt args).out) line) :
    line.length ≤ 192 ∧ ((∀ s ∈ args.drop 1, ':' ∉ s) → line.length ≤ 67) := by
  have h := runs_slim writing_text (by decide) slim4 slim6 (described_colors rt args) hm
  have e : textOf (Outcome.of (doMain (rt.withColors true) args)).out = visible (doMain rt args).out := by
    have e : rt.withColors true = rt := by rw [Runtime.withColors, ← hc]
    rw [e]
    exact marks_text _
  rw [e] at h
  exact ⟨h.1 line hl, fun hn => h.2 hn line hl⟩

/-- Without colours: no line has more than 79 characters, so that all lines fit on a terminal with 80 columns, and if there is no
colon in an argument, no line has more than 46. -/
theorem C117_plain (rt : Runtime) (hc : rt.colorsEnabled = false) (args : List Str) (line : Str)
    (hl : IsLine (visible (doMain rt args).out) line) : line.length ≤ 79 ∧ ((∀ s ∈ args.drop 1, ':' ∉ s) → line.length ≤ 46) := by
  rw [visible_off rt hc] at hl
  have hr := described_colors rt args
  by_cases hm : ∀ prog rest, args ≠ prog :: "--color-test".toList :: rest
  · have h := runs_slim writing_lines (by decide) pieces4 pieces6 hr hm
    exact ⟨h.1 line hl, fun hn => h.2 hn line hl⟩
  · have key : Slim 20 (piecesOf (Outcome.of (doMain (rt.withColors true) args)).out) := by
      obtain ⟨prog, rest, rfl⟩ : ∃ prog rest, args = prog :: "--color-test".toList :: rest := by
        refine Classical.byContradiction fun hn => hm fun prog rest e => hn ⟨prog, rest, e⟩
      rw [colours_outcome _ rfl]
      refine slim_pieces fun m hm => ?_
      obtain ⟨x, hx, rfl⟩ := List.mem_map.mp hm
      refine .inr ⟨_, _, rfl, ?_⟩
      have : ∀ x ∈ colourNames, '\n' ∉ padRight 20 x.2.toList ∧ (padRight 20 x.2.toList).length ≤ 20 := by decide
      exact this x hx
    have := key line hl
    have : line.length ≤ 20 := this
    omega

/-- The colour test writes 320 characters and no line end, or, without colours, lines of 20 characters. -/
theorem C117_color_test (rt : Runtime) (prog : Str) (rest : List Str) (line : Str)
    (hl : IsLine (visible (doMain rt (prog :: "--color-test".toList :: rest)).out) line) :
    line.length = if rt.colorsEnabled then 320 else 20 := by
  cases hc : rt.colorsEnabled with
  | true =>
    have e : visible (doMain rt (prog :: "--color-test".toList :: rest)).out =
        textOf (colourNames.map fun x => .piece x.1 (padRight 20 x.2.toList)) := by
      have := congrArg (fun r => textOf r.out) (colours_outcome rt hc prog rest)
      exact (marks_text _).symm.trans this
    rw [e] at hl
    rw [isLine_open (by decide +kernel) hl]
    decide +kernel
  | false =>
    rw [visible_off rt hc, colours_outcome _ rfl] at hl
    have key : ∀ xs : List (Color × String), (∀ x ∈ xs, '\n' ∉ padRight 20 x.2.toList ∧ (padRight 20 x.2.toList).length = 20) →
        AllLines (fun l => l.length = 20) (piecesOf (xs.map fun x => .piece x.1 (padRight 20 x.2.toList))) := by
      intro xs
      induction xs with
      | nil => intro _; exact allLines_nil _
      | cons x xs ih =>
        intro h
        have h1 := h x (by simp)
        have := allLines_cons h1.1 h1.2 (ih fun y hy => h y (List.mem_cons_of_mem _ hy))
        simpa [piecesOf, Mark.line] using this
    exact key colourNames (by decide) line hl

/-- The usage fits on a terminal with 80 columns, too. -/
theorem C117_usage (u : CharTable) : ∀ l ∈ ErrMsg.lines u .usage, l.length ≤ 70 := by
  show ∀ l ∈ usageLines, l.length ≤ 70
  decide

theorem isLine_first {t : Str} (k : Nat) (h1 : '\n' ∉ t.take k) (h2 : t[k]? = some '\n') : IsLine t (t.take k) := by
  refine ⟨h1, [], t.drop k, ?_, .inl rfl, .inr ⟨t.drop (k + 1), ?_⟩⟩
  · rw [List.nil_append, List.take_append_drop]
  · obtain ⟨h, e⟩ := List.getElem?_eq_some_iff.mp h2
    rw [List.drop_eq_getElem_cons h, e]

theorem isLine_last {t : Str} (k : Nat) (h1 : t[k]? = some '\n') (h2 : '\n' ∉ (t.drop (k + 1)).dropLast) (h3 : t.getLast? = some '\n')
    (h4 : k + 1 < t.length) : IsLine t (t.drop (k + 1)).dropLast := by
  obtain ⟨h, e⟩ := List.getElem?_eq_some_iff.mp h1
  refine ⟨h2, t.take (k + 1), ['\n'], ?_, .inr ⟨t.take k, ?_⟩, .inr ⟨[], rfl⟩⟩
  · have e1 : (t.drop (k + 1)).dropLast ++ ['\n'] = t.drop (k + 1) := by
      have hne : t.drop (k + 1) ≠ [] := fun h => by have := congrArg List.length h; simp at this; omega
      have := List.dropLast_concat_getLast hne
      have hl : (t.drop (k + 1)).getLast hne = '\n' := by
        rw [List.getLast_drop]
        rw [List.getLast?_eq_some_getLast (by rintro rfl; simp at h4)] at h3
        exact Option.some.inj h3
      rwa [hl] at this
    rw [List.append_assoc, e1, List.take_append_drop]
  · rw [List.take_add_one, h1]; rfl

def ipv6Args : List Str := ["ripcalc".toList, "1111:2222:3333:4444:5555:6666:7777:8888/64".toList]
def gapArgs : List Str := ["ripcalc".toList, "-m".toList,
  "fffe:fffe:fffe:fffe:fffe:fffe:fffe:fffe/fffe:fffe:fffe:fffe:fffe:fffe:fffe:fffe".toList]
def ipv4Args : List Str := ["ripcalc".toList, "192.0.2.1/24".toList]
def fullArgs : List Str := ["ripcalc".toList, "-s".toList, "255.255.255.0/24".toList, "1000".toList]

theorem ended_run (rt : Runtime) (args : List Str) (h : (Conformance.doMainE 100 rt args).res ≠ .diverge) :
    doMain rt args = Conformance.doMainE 100 rt args :=
  (Conformance.doMainE_approx 100 rt args).elim (fun h' => absurd h' h) Eq.symm

/-- The bounds are attained. -/
theorem C117_attained :
    (∃ line, IsLine (visible (doMain (evalRuntime .checked true) ipv6Args).out) line ∧ line.length = 192) ∧
    (∃ line, IsLine (visible (doMain (evalRuntime .checked true) ipv4Args).out) line ∧ line.length = 67) ∧
    (∃ line, IsLine (visible (doMain (evalRuntime .checked false) gapArgs).out) line ∧ line.length = 79) ∧
    (∃ line, IsLine (visible (doMain (evalRuntime .checked false) fullArgs).out) line ∧ line.length = 46) := by
  rw [ended_run _ ipv6Args (by decide +kernel), ended_run _ ipv4Args (by decide +kernel), ended_run _ gapArgs (by decide +kernel),
    ended_run _ fullArgs (by decide +kernel)]
  refine ⟨⟨_, isLine_first 192 ?_ ?_, ?_⟩, ⟨_, isLine_first 67 ?_ ?_, ?_⟩, ⟨_, isLine_first 79 ?_ ?_, ?_⟩,
    ⟨_, isLine_last ((visible (Conformance.doMainE 100 (evalRuntime .checked false) fullArgs).out).length - 48) ?_ ?_ ?_ ?_, ?_⟩⟩
  all_goals decide +kernel

/-! ## Instances -/

example : (∀ prog rest, ipv4Args ≠ prog :: "--color-test".toList :: rest) ∧ ∀ s ∈ ipv4Args.drop 1, ':' ∉ s := by
  refine ⟨fun prog rest h => ?_, by decide⟩
  have h1 : some "192.0.2.1/24".toList = some "--color-test".toList := congrArg (fun l => l[1]?) h
  exact absurd (Option.some.inj h1) (by decide)

end Ripcalc
