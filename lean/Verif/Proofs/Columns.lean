import Verif.Spec.Columns
import Verif.Proofs.Tidy
import Verif.Proofs.Show
import Verif.Proofs.Net
import Verif.Props.Resize
import Verif.Props.Text
/-!
# Lemmas about lines, columns and reading a display
-/
set_option linter.unusedSectionVars false
namespace Ripcalc
open AddrSpec LawfulIpAddr

/-! ## Lines -/

theorem sep_inj {c : Char} {a b x y : Str} (ha : c ∉ a) (hb : c ∉ b) (h : a ++ c :: x = b ++ c :: y) : a = b ∧ x = y := by
  induction a generalizing b with
  | nil =>
    cases b with
    | nil => exact ⟨rfl, (List.cons.inj h).2⟩
    | cons d b => exact absurd (List.cons.inj h).1 fun e => hb (by simp [e])
  | cons d a ih =>
    cases b with
    | nil => exact absurd (List.cons.inj h).1.symm fun e => ha (by simp [e])
    | cons e b =>
      rw [List.cons_append, List.cons_append] at h
      obtain ⟨rfl, h'⟩ := List.cons.inj h
      obtain ⟨rfl, rfl⟩ := ih (b := b) (fun h => ha (by simp [h])) (fun h => hb (by simp [h])) h'
      exact ⟨rfl, rfl⟩

theorem isLine_cons {l t line : Str} (hl : '\n' ∉ l) (h : IsLine (l ++ '\n' :: t) line) : line = l ∨ IsLine t line := by
  obtain ⟨hn, pre, post, he, hpre, hpost⟩ := h
  rcases hpre with rfl | ⟨p, rfl⟩
  · left
    rcases hpost with ⟨rfl, -⟩ | ⟨q, rfl⟩
    · refine absurd ?_ hn
      have : '\n' ∈ l ++ '\n' :: t := by simp
      rw [he] at this
      simpa using this
    · exact (sep_inj (c := '\n') hl hn (by simpa using he)).1.symm
  · right
    have he : l ++ '\n' :: t = p ++ '\n' :: (line ++ post) := by simpa using he
    rcases List.append_eq_append_iff.mp he with ⟨d, h1, h2⟩ | ⟨d, h1, h2⟩
    · cases d with
      | nil =>
        rw [List.nil_append] at h2
        exact ⟨hn, [], post, by simpa using (List.cons.inj h2).2, .inl rfl, hpost⟩
      | cons c d =>
        rw [List.cons_append] at h2
        obtain ⟨rfl, h2⟩ := List.cons.inj h2
        exact ⟨hn, d ++ ['\n'], post, by simpa using h2, .inr ⟨d, rfl⟩, hpost⟩
    · cases d with
      | nil =>
        rw [List.nil_append] at h2
        exact ⟨hn, [], post, by simpa using (List.cons.inj h2).2.symm, .inl rfl, hpost⟩
      | cons c d =>
        rw [List.cons_append] at h2
        obtain ⟨rfl, -⟩ := List.cons.inj h2
        exact absurd (by simp [h1]) hl

theorem isLine_open {l line : Str} (hl : '\n' ∉ l) (h : IsLine l line) : line = l := by
  obtain ⟨-, pre, post, rfl, hpre, hpost⟩ := h
  rcases hpre with rfl | ⟨p, rfl⟩
  · rcases hpost with ⟨rfl, -⟩ | ⟨q, rfl⟩
    · simp
    · exact absurd (by simp) hl
  · exact absurd (by simp) hl

theorem isLine_sep {t u line : Str} (h : IsLine (t ++ '\n' :: u) line) : line = [] ∨ IsLine t line ∨ IsLine u line := by
  obtain ⟨hn, pre, post, he, hpre, hpost⟩ := h
  rw [List.append_assoc] at he
  by_cases hl : line = []
  · exact .inl hl
  rcases List.append_eq_append_iff.mp he with ⟨d, h1, h2⟩ | ⟨d, h1, h2⟩
  · -- `pre = t ++ d`
    cases d with
    | nil =>
      cases line with
      | nil => exact absurd rfl hl
      | cons c line =>
        rw [List.nil_append, List.cons_append] at h2
        exact absurd (List.mem_cons.mpr (.inl (List.cons.inj h2).1)) hn
    | cons c d =>
      rw [List.cons_append] at h2
      obtain ⟨rfl, h2⟩ := List.cons.inj h2
      refine .inr (.inr ⟨hn, d, post, by simpa using h2, ?_, hpost⟩)
      rcases hpre with rfl | ⟨p, rfl⟩
      · simp at h1
      · rcases List.eq_nil_or_concat d with rfl | ⟨d', c, rfl⟩
        · exact .inl rfl
        · right
          rw [List.concat_eq_append] at *
          have := congrArg List.getLast? h1
          rw [show t ++ '\n' :: (d' ++ [c]) = (t ++ '\n' :: d') ++ [c] by simp] at this
          rw [List.getLast?_concat, List.getLast?_concat] at this
          exact ⟨d', by rw [Option.some.inj this]⟩
  · -- `t = pre ++ d`
    rcases List.append_eq_append_iff.mp h2.symm with ⟨e, h3, h4⟩ | ⟨e, h3, h4⟩
    · cases e with
      | nil =>
        rw [List.append_nil] at h3
        subst h3
        exact .inr (.inl ⟨hn, pre, [], by simpa using h1, hpre, .inl ⟨rfl, hl⟩⟩)
      | cons c e =>
        rw [List.cons_append] at h4
        obtain ⟨rfl, h4⟩ := List.cons.inj h4
        exact absurd (by simp [h3]) hn
    · cases e with
      | nil =>
        rw [List.append_nil] at h3
        subst h3
        exact .inr (.inl ⟨hn, pre, [], by simpa using h1, hpre, .inl ⟨rfl, hl⟩⟩)
      | cons c e =>
        rcases hpost with ⟨rfl, -⟩ | ⟨q, rfl⟩
        · simp at h4
        · rw [List.cons_append] at h4
          obtain ⟨rfl, h4⟩ := List.cons.inj h4
          exact .inr (.inl ⟨hn, pre, '\n' :: e, by rw [h1, h3]; simp, hpre, .inr ⟨e, rfl⟩⟩)

theorem isLine_nil {line : Str} (h : IsLine [] line) : False := by
  obtain ⟨-, pre, post, he, -, hpost⟩ := h
  simp at he
  obtain ⟨rfl, rfl, rfl⟩ := he
  rcases hpost with ⟨-, h⟩ | ⟨q, h⟩
  · exact h rfl
  · cases h

/-! ## The two layouts -/

section generic
variable {A : Type} [IpAddr A] [AddrSpec A] [LawfulIpAddr A]

/-- What is needed of the texts for the columns of a family. -/
structure Layout (A : Type) [AddrSpec A] (aw tw : Nat) (show_ binary : A → Str) : Prop where
  plain : ∀ a, PlainText (show_ a)
  blank : ∀ a, ' ' ∉ show_ a
  slash : ∀ a, '/' ∉ show_ a
  inj : ∀ a b, show_ a = show_ b → a = b
  ne : ∀ a, show_ a ≠ []
  short : ∀ a p, p ≤ width A → (show_ a).length + 3 + (showNat 10 p).length < aw
  count : ∀ v, v < 2 ^ width A → (showNat 10 v).length < aw
  binLength : ∀ a, (binary a).length = tw
  binPlain : ∀ a, PlainText (binary a)
  binBlank : ∀ a, ' ' ∉ binary a

theorem plain_newline {s : Str} (h : PlainText s) : '\n' ∉ s := fun hm => by have := (h _ hm).1; revert this; decide

end generic

theorem showNat_length_le {r n k : Nat} (hr : 1 < r) (hk : 0 < k) (h : n < r ^ k) : (showNat r n).length ≤ k :=
  (Nat.length_toDigits_le_iff hr hk).mpr h

theorem intercalate_length (l : List Str) (k : Nat) (h : ∀ t ∈ l, t.length ≤ k) :
    (List.intercalate [':'] l).length ≤ l.length * (k + 1) - 1 := by
  induction l with
  | nil => simp
  | cons t l ih =>
    cases l with
    | nil => simpa using h t (by simp)
    | cons u l =>
      have := ih fun t ht => h t (by simp [ht])
      have ht := h t (by simp)
      rw [List.intercalate_cons_cons]
      simp only [List.length_append, List.length_cons, List.length_nil, Nat.add_mul] at *
      omega

theorem display4_length (a : V4) : (IpAddr.display a).length ≤ 15 := by
  obtain ⟨b0, b1, b2, b3, -, h⟩ := V4.display_eq a
  rw [show IpAddr.display a = a.display from rfl, h]
  have hb : ∀ b : Byte, (showNat 10 b.toNat).length ≤ 3 := fun b =>
    showNat_length_le (by omega) (by omega) (by have := b.isLt; omega)
  have h0 := hb b0
  have h1 := hb b1
  have h2 := hb b2
  have h3 := hb b3
  simp only [List.length_append, List.length_cons]
  omega

theorem hexes_short (a : V6) : ∀ t ∈ V6.hexes a, t.length ≤ 4 := by
  intro t ht
  rw [V6.hexes_eq] at ht
  obtain ⟨c, -, rfl⟩ := List.mem_map.mp ht
  exact showNat_length_le (by omega) (by omega) (by have := c.isLt; omega)

theorem display6_length (a : V6) : (IpAddr.display a).length ≤ 39 := by
  rw [show IpAddr.display a = a.display from rfl]
  have h4 := hexes_short a
  have h8 := V6.hexes_length a
  rcases V6.display_spec a with ⟨-, h⟩ | ⟨s, l, h1, h⟩
  · rw [h]
    have := intercalate_length _ 4 h4
    omega
  · rw [h]
    have h5 := intercalate_length ((V6.hexes a).take s) 4 fun t ht => h4 t (List.mem_of_mem_take ht)
    have h6 := intercalate_length ((V6.hexes a).drop (s + l)) 4 fun t ht => h4 t (List.mem_of_mem_drop ht)
    have h7 := h1.1
    have h9 := h1.2.1.1
    rw [V6.chunkVals_length] at h9
    simp only [List.length_append, List.length_cons, List.length_nil, List.length_take, List.length_drop, h8] at *
    omega

theorem grouped_length (w g : Nat) (sep : Char) (f : Nat → Char) (h : 0 < w / g) :
    (grouped w g sep f).length = w / g * (g + 1) - 1 := by
  have key : ∀ (k : Nat) (ts : List Str), ts.length = k + 1 → (∀ t ∈ ts, t.length = g) →
      (List.intercalate [sep] ts).length = (k + 1) * (g + 1) - 1 := by
    intro k
    induction k with
    | zero =>
      intro ts h1 h2
      obtain ⟨t, rfl⟩ := List.length_eq_one_iff.mp h1
      simpa using h2 t (by simp)
    | succ k ih =>
      intro ts h1 h2
      match ts, h1 with
      | t :: u :: ts, h1 =>
        rw [List.intercalate_cons_cons]
        have := ih (u :: ts) (by simpa using h1) fun t ht => h2 t (by simp [ht])
        have ht := h2 t (by simp)
        simp only [List.length_append, List.length_cons, List.length_nil, this, ht, Nat.add_mul]
        omega
  have := key (w / g - 1) ((List.range (w / g)).map (fun i => (List.range g).map (fun j => f (w - 1 - (i * g + j)))))
    (by simp; omega) (by
      intro t ht
      obtain ⟨i, -, rfl⟩ := List.mem_map.mp ht
      simp)
  rw [show w / g - 1 + 1 = w / g by omega] at this
  exact this

theorem binaryText_mem {w g : Nat} {sep : Char} {v : Nat} {c : Char} (h : c ∈ binaryText w g sep v) : c = sep ∨ c = '0' ∨ c = '1' := by
  rcases mem_intercalate h with h | ⟨t, ht, hc⟩
  · exact .inl (List.mem_singleton.mp h)
  · obtain ⟨i, -, rfl⟩ := List.mem_map.mp ht
    obtain ⟨j, -, rfl⟩ := List.mem_map.mp hc
    rw [bitChar]
    split <;> simp

theorem display4_chars (a : V4) : ∀ c ∈ IpAddr.display a, c = '.' ∨ c ∈ lowerDigits := by
  obtain ⟨b0, b1, b2, b3, -, h⟩ := V4.display_eq a
  rw [show IpAddr.display a = a.display from rfl, h]
  intro c hc
  have hd : ∀ n : Nat, c ∈ showNat 10 n → c ∈ lowerDigits := fun n h => showNat_mem (by omega) (by omega) h
  simp only [List.mem_append, List.mem_cons] at hc
  rcases hc with (((h | h | h) | h | h) | h | h) <;> first | exact .inl h | exact .inr (hd _ h)

theorem layout4 : Layout V4 21 35 IpAddr.display (fun a => binaryText 32 8 '.' (val a)) where
  plain := plain_display4
  blank a h := by rcases display4_chars a _ h with h | h <;> revert h <;> decide
  slash a h := by rcases display4_chars a _ h with h | h <;> revert h <;> decide
  inj a b h := C08_ipv4_injective a b h
  ne a h := by
    obtain ⟨b0, b1, b2, b3, -, h'⟩ := V4.display_eq a
    rw [show IpAddr.display a = a.display from rfl, h'] at h
    simp at h
  short a p hp := by
    have h1 := display4_length a
    have h2 := showNat_length_le (r := 10) (n := p) (k := 2) (by omega) (by omega) (by have : width V4 = 32 := rfl; omega)
    omega
  count v hv := by
    have h1 : v < 2 ^ 32 := hv
    have h2 := showNat_length_le (r := 10) (n := v) (k := 20) (by omega) (by omega) (by omega)
    omega
  binLength a := grouped_length 32 8 '.' _ (by decide)
  binPlain a c hc := by rcases binaryText_mem hc with rfl | rfl | rfl <;> decide
  binBlank a hc := by rcases binaryText_mem hc with h | h | h <;> revert h <;> decide

theorem display6_chars (a : V6) : ∀ c ∈ IpAddr.display a, c = ':' ∨ c ∈ lowerDigits :=
  fun c hc => List.mem_cons.mp ((v6_display_hexColon a).1.2 c hc)

theorem layout6 : Layout V6 46 135 IpAddr.display (fun a => binaryText 128 16 ':' (val a)) where
  plain := plain_display6
  blank a h := by rcases display6_chars a _ h with h | h <;> revert h <;> decide
  slash a h := by rcases display6_chars a _ h with h | h <;> revert h <;> decide
  inj a b h := V6.display_inj h
  ne a h := by
    have := (v6_display_hexColon a).2
    rw [h] at this
    cases this
  short a p hp := by
    have h1 := display6_length a
    have h2 := showNat_length_le (r := 10) (n := p) (k := 3) (by omega) (by omega) (by have : width V6 = 128 := rfl; omega)
    omega
  count v hv := by
    have h1 : v < 2 ^ 128 := hv
    have h2 := showNat_length_le (r := 10) (n := v) (k := 45) (by omega) (by omega) (by omega)
    omega
  binLength a := grouped_length 128 16 ':' _ (by decide)
  binPlain a c hc := by rcases binaryText_mem hc with rfl | rfl | rfl <;> decide
  binBlank a hc := by rcases binaryText_mem hc with h | h | h <;> revert h <;> decide

/-! ## The lines of a display -/

/-- Something, without a blank at its ends. -/
def Ends (s : Str) : Prop := (∃ c u, s = c :: u ∧ c ≠ ' ') ∧ ∃ u c, s = u ++ [c] ∧ c ≠ ' '

theorem ends_of_blank {s : Str} (h : ' ' ∉ s) (hne : s ≠ []) : Ends s := by
  constructor
  · cases s with
    | nil => exact absurd rfl hne
    | cons c u => exact ⟨c, u, rfl, fun e => h (by simp [e])⟩
  · rcases List.eq_nil_or_concat s with rfl | ⟨u, c, rfl⟩
    · exact absurd rfl hne
    · exact ⟨u, c, List.concat_eq_append, fun e => h (by simp [e])⟩

theorem Ends.join {s t : Str} (hs : Ends s) (m : Str) (ht : Ends t) : Ends (s ++ m ++ t) := by
  obtain ⟨⟨c, u, rfl, hc⟩, -⟩ := hs
  obtain ⟨-, v, d, rfl, hd⟩ := ht
  exact ⟨⟨c, u ++ m ++ (v ++ [d]), by simp, hc⟩, ⟨c :: u ++ m ++ v, d, by simp, hd⟩⟩

theorem showNat_blank (n : Nat) : ' ' ∉ showNat 10 n := fun h => by
  have := showNat_mem (by omega) (by omega) h
  revert this; decide

theorem labels_short : ∀ l ∈ columnLabels, l.length < 11 ∧ PlainText l := by decide +kernel

theorem inColumns_mk {aw tw : Nat} {label text third : Str} (hl : label ∈ columnLabels) (ht : text.length < aw) (he : Ends text)
    (h3 : (label ≠ "Hosts/Net:".toList ∧ third.length = tw ∧ ' ' ∉ third) ∨
      (label = "Hosts/Net:".toList ∧ (third = [] ∨ third ∈ classTable.map Prod.fst))) :
    InColumns aw tw (padRight 11 label ++ padRight aw text ++ third) := by
  have h11 := (labels_short label hl).1
  refine ⟨label, text, third, 10 - label.length, aw - text.length - 1, ?_, by omega, by omega, hl, he.1, he.2, h3⟩
  rw [padRight, padRight, show 10 - label.length + 1 = 11 - label.length by omega,
    show aw - text.length - 1 + 1 = aw - text.length by omega]
  simp

theorem padRight_newline {k : Nat} {s : Str} (h : '\n' ∉ s) : '\n' ∉ padRight k s := by
  rw [padRight, List.mem_append, not_or]
  exact ⟨h, fun hm => absurd (List.eq_of_mem_replicate hm) (by decide)⟩

/-- Every line of the text has the property. -/
def AllLines (P : Str → Prop) (t : Str) : Prop := ∀ line, IsLine t line → P line

theorem allLines_block {P : Str → Prop} {aw : Nat} {l t b u : Str} (hl : PlainText l) (ht : PlainText t) (hb : PlainText b)
    (hP : P (padRight 11 l ++ padRight aw t ++ b)) (hu : AllLines P u) : AllLines P (blockLine aw l t b ++ u) := by
  intro line h
  rw [blockLine, List.append_assoc] at h
  have hno : '\n' ∉ padRight 11 l ++ padRight aw t ++ b := by
    rw [List.mem_append, List.mem_append, not_or, not_or]
    exact ⟨⟨padRight_newline (plain_newline hl), padRight_newline (plain_newline ht)⟩, plain_newline hb⟩
  rcases isLine_cons hno h with rfl | h
  · exact hP
  · exact hu line h

theorem allLines_remark {P : Str → Prop} {r u : Str} (hr : PlainText r) (hP : P r) (hu : AllLines P u) :
    AllLines P (r ++ ['\n'] ++ u) := by
  intro line h
  rw [List.append_assoc] at h
  rcases isLine_cons (plain_newline hr) h with rfl | h
  · exact hP
  · exact hu line h

theorem allLines_nil (P : Str → Prop) : AllLines P [] := fun _ h => (isLine_nil h).elim

theorem countBelow_le (w : Nat) (P : Nat → Bool) : countBelow w P ≤ w := by
  rw [countBelow]
  have := List.countP_le_length (p := P) (l := List.range w)
  simpa using this

section generic
variable {A : Type} [IpAddr A] [AddrSpec A] [LawfulIpAddr A] {aw tw : Nat} {show_ binary : A → Str}
  (L : Layout A aw tw show_ binary)
include L

/-- The second column of the line for the mask. -/
def maskText (show_ : A → Str) (n : Net A) : Str := match n.cidrPrefix with
  | some p => show_ n.subnetMask ++ " = ".toList ++ showNat 10 p
  | none => show_ n.subnetMask

/-- The second column of the line for the network. -/
def netText (show_ : A → Str) (n : Net A) : Str := match n.cidrPrefix with
  | some p => show_ n.baseAddr ++ ['/'] ++ showNat 10 p
  | none => show_ n.baseAddr

theorem Layout.ends (a : A) : Ends (show_ a) := ends_of_blank (L.blank a) (L.ne a)

theorem Layout.length (a : A) : (show_ a).length < aw := by have := L.short a 0 (by omega); omega

theorem Layout.maskText {n : Net A} (hn : WF n) : (maskText show_ n).length < aw ∧ Ends (maskText show_ n) ∧
    PlainText (maskText show_ n) := by
  rw [Ripcalc.maskText]
  split
  · rename_i p hp
    have := L.short n.subnetMask p ((hn.prefix_iff p).mp hp).1
    refine ⟨?_, (L.ends _).join _ (ends_of_blank (showNat_blank p) (showNat_ne_nil _ _)),
      plain_append (plain_append (L.plain _) (by decide)) (plain_showNat _)⟩
    rw [List.length_append, List.length_append, show " = ".toList.length = 3 from rfl]
    exact this
  · exact ⟨L.length _, L.ends _, L.plain _⟩

theorem Layout.netText {n : Net A} (hn : WF n) : (netText show_ n).length < aw ∧ Ends (netText show_ n) ∧
    PlainText (netText show_ n) ∧ ' ' ∉ netText show_ n := by
  rw [Ripcalc.netText]
  split
  · rename_i p hp
    have := L.short n.baseAddr p ((hn.prefix_iff p).mp hp).1
    refine ⟨?_, (L.ends _).join _ (ends_of_blank (showNat_blank p) (showNat_ne_nil _ _)),
      plain_append (plain_append (L.plain _) (by decide)) (plain_showNat _), ?_⟩
    · rw [List.length_append, List.length_append, List.length_singleton]
      omega
    · rw [List.mem_append, List.mem_append, not_or, not_or]
      exact ⟨⟨L.blank _, by decide⟩, showNat_blank p⟩
  · exact ⟨L.length _, L.ends _, L.plain _, L.blank _⟩

theorem Layout.lines {n : Net A} (hn : WF n) {addr : Option A} {b : BlockText A} (hd : b.Describes n addr)
    (hcls : b.cls = [] ∨ b.cls ∈ classTable.map Prod.fst) :
    AllLines (fun line => line ∈ remarks ∨ InColumns aw tw line) (b.render aw show_ binary) := by
  have hnet := hd.network
  have hline : ∀ label ∈ columnLabels, label ≠ "Hosts/Net:".toList → ∀ text : Str, text.length < aw → Ends text → ∀ x : A,
      InColumns aw tw (padRight 11 label ++ padRight aw text ++ binary x) := fun label hl hne text h1 h2 x =>
    inColumns_mk hl h1 h2 (.inl ⟨hne, L.binLength x, L.binBlank x⟩)
  have hclsp : PlainText b.cls := by
    rcases hcls with h | h
    · rw [h]; intro c hc; cases hc
    · have tab : ∀ t ∈ classTable.map Prod.fst, PlainText t := by decide +kernel
      exact tab _ h
  have hcount : AllLines (fun line => line ∈ remarks ∨ InColumns aw tw line) (countLine aw b.hostCount b.cls) := by
    rw [countLine]
    split
    · rename_i hpos
      rw [← List.append_nil (blockLine ..)]
      obtain ⟨v, hv⟩ := Int.eq_ofNat_of_zero_le (show 0 ≤ b.hostCount by omega)
      have hlt : v < 2 ^ width A := by
        have h1 := hd.hostCount
        have h2 : 2 ^ hostBitCount n.subnetMask ≤ 2 ^ width A := Nat.pow_le_pow_right (by omega) (countBelow_le _ _)
        rw [hv] at h1
        have h3 : ((2 : Int) ^ hostBitCount n.subnetMask) = ((2 ^ hostBitCount n.subnetMask : Nat) : Int) := by push_cast; rfl
        rw [h3] at h1
        omega
      have hs : showInt b.hostCount = showNat 10 v := by rw [hv]; rfl
      rw [hs]
      exact allLines_block (by decide) (plain_showNat _) hclsp
        (.inr (inColumns_mk (by decide) (L.count v hlt) (ends_of_blank (showNat_blank v) (showNat_ne_nil _ _)) (.inr ⟨rfl, hcls⟩)))
        (allLines_nil _)
    · intro line h
      rw [isLine_open (by decide) h]
      exact .inl (by decide)
  have hbc : AllLines (fun line => line ∈ remarks ∨ InColumns aw tw line)
      (broadcastLine aw show_ binary b.broadcast ++ countLine aw b.hostCount b.cls) := by
    cases b.broadcast with
    | none => exact allLines_remark (r := "no broadcast".toList) (by decide) (.inl (by decide)) hcount
    | some x =>
      exact allLines_block (by decide) (L.plain x) (L.binPlain x) (.inr (hline _ (by decide) (by decide) _ (L.length x) (L.ends x) x)) hcount
  have hhosts : AllLines (fun line => line ∈ remarks ∨ InColumns aw tw line)
      (hostLines aw show_ binary b.hosts ++ (broadcastLine aw show_ binary b.broadcast ++ countLine aw b.hostCount b.cls)) := by
    rcases b.hosts with _ | ⟨f, l⟩
    · exact allLines_remark (r := "no hosts".toList) (by decide) (.inl (by decide)) hbc
    · have h2 := allLines_block (P := fun line => line ∈ remarks ∨ InColumns aw tw line) (aw := aw) (l := "HostMax:".toList) (by decide)
        (L.plain l) (L.binPlain l) (.inr (hline _ (by decide) (by decide) _ (L.length l) (L.ends l) l)) hbc
      have h1 := allLines_block (P := fun line => line ∈ remarks ∨ InColumns aw tw line) (aw := aw) (l := "HostMin:".toList) (by decide)
        (L.plain f) (L.binPlain f) (.inr (hline _ (by decide) (by decide) _ (L.length f) (L.ends f) f)) h2
      rw [← List.append_assoc] at h1
      exact h1
  have hn1 := L.netText hn
  have hnetw : AllLines (fun line => line ∈ remarks ∨ InColumns aw tw line) (networkLine aw show_ binary n ++
      (hostLines aw show_ binary b.hosts ++ (broadcastLine aw show_ binary b.broadcast ++ countLine aw b.hostCount b.cls))) :=
    allLines_block (by decide) hn1.2.2.1 (L.binPlain _) (.inr (hline _ (by decide) (by decide) _ hn1.1 hn1.2.1 _)) hhosts
  rw [BlockText.render, hnet, List.append_assoc, List.append_assoc, List.append_assoc]
  cases b.address with
  | none => exact hnetw
  | some a =>
    have hm1 := L.maskText hn
    have h3 := allLines_remark (P := fun line => line ∈ remarks ∨ InColumns aw tw line) (r := "=>".toList) (by decide)
      (.inl (by decide)) hnetw
    have h2 := allLines_block (P := fun line => line ∈ remarks ∨ InColumns aw tw line) (aw := aw) (l := "Wildcard:".toList) (by decide)
      (L.plain b.wildcard) (L.binPlain b.wildcard) (.inr (hline _ (by decide) (by decide) _ (L.length _) (L.ends _) _)) h3
    have h1 := allLines_block (P := fun line => line ∈ remarks ∨ InColumns aw tw line) (aw := aw) (l := "Netmask:".toList) (by decide)
      hm1.2.2 (L.binPlain n.subnetMask) (.inr (hline _ (by decide) (by decide) _ hm1.1 hm1.2.1 _)) h2
    have h0 := allLines_block (P := fun line => line ∈ remarks ∨ InColumns aw tw line) (aw := aw) (l := "Address:".toList) (by decide)
      (L.plain a) (L.binPlain a) (.inr (hline _ (by decide) (by decide) _ (L.length _) (L.ends _) _)) h1
    have he : "=>\n".toList = "=>".toList ++ ['\n'] := rfl
    rw [addressLines, he, List.append_assoc, List.append_assoc, List.append_assoc]
    exact h0

end generic

end Ripcalc
