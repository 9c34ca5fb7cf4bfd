import Verif.Props.Colors
import Verif.Props.Columns
import Verif.Spec.Program
/-!
# Lemmas about the marks on standard output
-/
set_option linter.unusedSectionVars false
namespace Ripcalc
open AddrSpec LawfulIpAddr
variable {rt : Runtime}

@[simp] theorem marks_nil : marks [] = [] := rfl
@[simp] theorem marks_cons (e : OutEv) (l : List OutEv) : marks (e :: l) = marksOf e ++ marks l := rfl
@[simp] theorem marks_append (l l' : List OutEv) : marks (l ++ l') = marks l ++ marks l' := by simp [marks]
theorem plainly_append (s t : Str) : plainly (s ++ t) = plainly s ++ plainly t := by simp [plainly]

/-- The coloured characters are those of the marks. -/
theorem marks_cells (evs : List OutEv) : (marks evs).flatMap Mark.cells = cells evs := by
  induction evs with
  | nil => rfl
  | cons e evs ih =>
    rw [marks_cons, List.flatMap_append, ih, cells_cons]
    congr 1
    cases e with
    | out s =>
      simp only [marksOf, plainly, cellsOf, List.flatMap_map]
      induction s with
      | nil => rfl
      | cons c s ih => rw [List.flatMap_cons, List.map_cons, ih]; rfl
    | styled c s => simp [marksOf, Mark.cells, cellsOf, paint]
    | err m => rfl

/-- The visible text is that of the marks. -/
theorem marks_text (evs : List OutEv) : (marks evs).flatMap Mark.text = visible evs := by
  rw [visible, ← marks_cells, List.map_flatMap]
  congr 1
  funext x
  cases x with
  | char c => rfl
  | piece c s => simp [Mark.text, Mark.cells, paint, Function.comp_def]

/-- Only text without colour. -/
def AllPlain (evs : List OutEv) : Prop := ∀ e ∈ evs, ∀ c s, e ≠ .styled c s

theorem AllPlain.marks {evs : List OutEv} (h : AllPlain evs) : marks evs = plainly (visible evs) := by
  induction evs with
  | nil => rfl
  | cons e evs ih =>
    rw [marks_cons, visible_cons, plainly_append, ih fun e he => h e (List.mem_cons_of_mem _ he)]
    congr 1
    cases e with
    | out s => rw [cellsOf_out_snd]; rfl
    | styled c s => exact absurd rfl (h _ (by simp) c s)
    | err m => rfl

/-- The computation ends with the value and the marks. -/
def Views (x : Cli α) (a : α) (g : List Mark) : Prop := x.res = .ok a ∧ marks x.out = g ∧ messages x.out = []

theorem Views.bind {x : Cli α} {f : α → Cli β} {a : α} {b : β} {t u : List Mark} (h : Views x a t) (h' : Views (f a) b u) :
    Views (x >>= f) b (t ++ u) := by
  obtain ⟨o, r⟩ := x
  obtain ⟨h1, h2, h3⟩ := h
  obtain ⟨h4, h5, h6⟩ := h'
  simp only at h1 h2 h3
  subst h1
  simp [Views, h2, h3, h4, h5, h6]

theorem Views.of_eq {x : Cli α} {a : α} {t u : List Mark} (h : Views x a t) (e : t = u) : Views x a u := e ▸ h
theorem views_pure (a : α) : Views (pure a : Cli α) a [] := ⟨rfl, rfl, rfl⟩
theorem views_lift {x : Exec α} {a : α} (h : x = .ok a) : Views (liftM x : Cli α) a [] := by subst h; exact ⟨rfl, rfl, rfl⟩
theorem views_println (s : Str) : Views (Cli.println s) () (plainly (s ++ ['\n'])) :=
  ⟨rfl, by simp [Cli.println, Cli.emit, marksOf], rfl⟩
theorem views_write (hc : rt.colorsEnabled = true) (t : Str) (c : Color) (p : Int) :
    Views (writeInColor rt t (some c) p) () [.piece c (padText t p)] := by
  rw [write_colored hc]; exact ⟨rfl, rfl, rfl⟩

theorem Views.bind2 {x y : Cli Unit} {k : Cli β} {b : β} {t u : List Mark} (h : Views (do x; y) () t) (h' : Views k b u) :
    Views (do x; y; k) b (t ++ u) := by
  have := h.bind (f := fun _ => k) h'
  simpa [bind_assoc] using this

theorem Views.bind3 {x y z : Cli Unit} {k : Cli β} {b : β} {t u : List Mark} (h : Views (do x; y; z) () t) (h' : Views k b u) :
    Views (do x; y; z; k) b (t ++ u) := by
  have := h.bind (f := fun _ => k) h'
  simpa [bind_assoc] using this

theorem views_cols (hc : rt.colorsEnabled = true) (lw aw : Nat) (l t : Str) :
    Views (outputInitialColumns rt lw aw l t) () [.piece .white (padRight lw l), .piece .blue (padRight aw t)] := by
  rw [outputInitialColumns]
  refine .of_eq (.bind (views_write hc l labelColor lw) (views_write hc t ipAddressColor aw)) ?_
  rw [padText_nat, padText_nat]; rfl

/-! ## Digits -/

/-- Only single characters with colours. -/
def Singles (x : Cli α) : Prop := ∀ e ∈ x.out, ∃ c t, e = .styled c [t]

theorem Singles.bind {x : Cli α} {f : α → Cli β} (h : Singles x) (h' : ∀ a, x.res = .ok a → Singles (f a)) : Singles (x >>= f) := by
  obtain ⟨o, r⟩ := x
  cases r with
  | ok a =>
    intro e he
    rw [Cli.mk_ok_bind] at he
    rcases List.mem_append.mp he with he | he
    · exact h e he
    · exact h' a rfl e he
  | panic p => exact h
  | diverge => exact h

theorem Singles.lift (x : Exec α) : Singles (liftM x : Cli α) := fun e he => by cases he
theorem Singles.pure (a : α) : Singles (pure a : Cli α) := fun e he => by cases he
theorem Singles.write (hc : rt.colorsEnabled = true) (x : Char) (c : Color) : Singles (writeInColor rt [x] (some c) 0) := by
  rw [write_colored hc, padText_zero]
  intro e he
  exact ⟨c, x, List.mem_singleton.mp he⟩

theorem singles_bits4 (hc : rt.colorsEnabled = true) (f cc : Bool) (bits mb : Str) (l : List Nat) :
    Singles (outputBits4 rt f cc bits mb l) := by
  induction l with
  | nil => exact .pure _
  | cons k l ih =>
    rw [outputBits4]
    refine .bind (.lift _) fun b _ => .bind (.lift _) fun cls _ => .bind (.lift _) fun c _ => .bind ?_ fun _ _ => ih
    cases cls <;> exact .write hc _ _

theorem singles_bits6 (hc : rt.colorsEnabled = true) (bits mb : Str) (l : List Nat) : Singles (outputBits6 rt bits mb l) := by
  induction l with
  | nil => exact .pure _
  | cons k l ih =>
    rw [outputBits6]
    exact .bind (.lift _) fun b _ => .bind (.lift _) fun c _ => .bind (.write hc _ _) fun _ _ => ih

theorem some_index {mbs : List Byte} {i : Nat} {m : Option Byte}
    (h : (liftM (some <$> Exec.index mbs i : Exec (Option Byte)) : Cli _).res = .ok m) : ∃ b, m = some b := by
  have h : (some <$> Exec.index mbs i : Exec (Option Byte)) = .ok m := h
  rw [Exec.index] at h
  cases e : mbs[i]? with
  | none => rw [e] at h; cases h
  | some b => rw [e] at h; cases h; exact ⟨b, rfl⟩

theorem singles_bytes4 (hc : rt.colorsEnabled = true) (mbs : List Byte) (len : Nat) (bs : List Byte) :
    ∀ i cc, Singles (outputBytes4 rt (some mbs) none len i bs cc) := by
  induction bs with
  | nil => exact fun i cc => .pure _
  | cons b bs ih =>
    intro i cc
    rw [outputBytes4]
    refine .bind ?_ fun cc' _ => ?_
    · rw [outputByte4]
      refine .bind (.lift _) fun m hm => ?_
      obtain ⟨b', rfl⟩ := some_index hm
      exact .bind (.lift _) fun cc' _ => .bind (singles_bits4 hc _ _ _ _ _) fun _ _ => .pure _
    · by_cases h : i < len - 1
      · rw [if_pos h]; exact .bind (.write hc _ _) fun _ _ => ih _ _
      · rw [if_neg h]; exact ih _ _

theorem singles_bytes6 (hc : rt.colorsEnabled = true) (mbs : List Byte) (len : Nat) (bs : List Byte) :
    ∀ i, Singles (outputBytes6 rt (some mbs) none len i bs) := by
  induction bs with
  | nil => exact fun i => .pure _
  | cons b bs ih =>
    intro i
    rw [outputBytes6]
    refine .bind ?_ fun _ _ => ?_
    · rw [outputByte6]
      refine .bind (.lift _) fun m hm => ?_
      obtain ⟨b', rfl⟩ := some_index hm
      exact singles_bits6 hc _ _ _
    · by_cases h : i < len - 1 ∧ i % 2 = 1
      · rw [if_pos h]; exact .bind (.write hc _ _) fun _ _ => ih _
      · rw [if_neg h]; exact ih _

/-- One piece for a character. -/
def pieceOf (x : Cell) : Mark :=
  match x.1 with
  | some c => .piece c [x.2]
  | none => .char x.2

theorem singles_marks {evs : List OutEv} (h : ∀ e ∈ evs, ∃ c t, e = .styled c [t]) : marks evs = (cells evs).map pieceOf := by
  induction evs with
  | nil => rfl
  | cons e evs ih =>
    obtain ⟨c, t, rfl⟩ := h e (by simp)
    rw [marks_cons, cells_cons, List.map_append, ih fun e he => h e (List.mem_cons_of_mem _ he)]
    rfl

theorem map_intercalate {α β : Type} (f : α → β) (s : List α) (l : List (List α)) :
    (List.intercalate s l).map f = List.intercalate (s.map f) (l.map (List.map f)) := by
  induction l with
  | nil => rfl
  | cons x l ih =>
    cases l with
    | nil => simp
    | cons y l => rw [List.intercalate_cons_cons, List.map_append, List.map_append, ih, List.map_cons, List.map_cons, List.map_cons,
        List.intercalate_cons_cons]

theorem grouped_map {α β : Type} (h : α → β) (w g : Nat) (sep : α) (f : Nat → α) :
    (grouped w g sep f).map h = grouped w g (h sep) (fun p => h (f p)) := by
  rw [grouped, map_intercalate, List.map_map, grouped]
  congr 1
  apply List.map_congr_left
  intro i _
  simp only [Function.comp_apply, List.map_map]
  rfl

theorem views_digits4 (hc : rt.colorsEnabled = true) (a m : V4) (cc : Bool) :
    Views (outputBinaryIpv4Address rt a (some m) cc none) ()
      (grouped 32 8 (.piece .white ['.']) fun p => .piece (columnColor4 (val a) (some (val m)) cc none p) [bitChar (val a) p]) := by
  obtain ⟨evs, h1, h2, h3⟩ := binary4_eq hc a (some m) cc none
  have hs : Singles (outputBinaryIpv4Address rt a (some m) cc none) := singles_bytes4 hc _ _ _ _ _
  rw [Singles] at hs
  rw [h1] at hs ⊢
  refine ⟨rfl, ?_, h2.messages⟩
  rw [singles_marks hs, h3, grouped_map]
  rfl

theorem views_digits6 (hc : rt.colorsEnabled = true) (a m : V6) (cc : Bool) :
    Views (outputBinaryIpv6Address rt a (some m) cc none) ()
      (grouped 128 16 (.piece .white [':']) fun p => .piece (maskColor (val m) p) [bitChar (val a) p]) := by
  obtain ⟨evs, h1, h2, h3⟩ := binary6_eq hc a (some m) cc none
  have hs : Singles (outputBinaryIpv6Address rt a (some m) cc none) := singles_bytes6 hc _ _ _ _
  rw [Singles] at hs
  rw [h1] at hs ⊢
  refine ⟨rfl, ?_, h2.messages⟩
  rw [singles_marks hs, h3, grouped_map]
  rfl

/-! ## Bytes -/

/-- The colour of whole bytes. -/
def bytesColor (ov : Option Color) : Color := ov.getD hostBitsColor

theorem views_byte4 (hc : rt.colorsEnabled = true) (ov : Option Color) (i : Nat) (b : Byte) (cc : Bool) :
    Views (outputByte4 rt none ov i b cc) cc [.piece (bytesColor ov) (bytesToBinary [b])] := by
  rw [outputByte4]
  cases ov <;> exact .of_eq (.bind (views_lift rfl) <| .bind (views_write hc _ _ _) (views_pure cc)) (by rw [padText_zero]; rfl)

theorem views_byte6 (hc : rt.colorsEnabled = true) (ov : Option Color) (i : Nat) (b : Byte) :
    Views (outputByte6 rt none ov i b) () [.piece (bytesColor ov) (bytesToBinary [b])] := by
  rw [outputByte6]
  cases ov <;> exact .of_eq (.bind (views_lift rfl) (views_write hc _ _ _)) (by rw [padText_zero]; rfl)

theorem views_sep (hc : rt.colorsEnabled = true) (P : Prop) [Decidable P] (s : Char) {k : Cli Unit} {g : List Mark} (h : Views k () g) :
    Views (if P then do writeInColor rt [s] (some addrSepColor) 0; k else k) () ((if P then [.piece .white [s]] else []) ++ g) := by
  by_cases hP : P
  · rw [if_pos hP, if_pos hP]; exact .of_eq (.bind (views_write hc _ _ _) h) (by rw [padText_zero]; rfl)
  · rw [if_neg hP, if_neg hP]; exact h

theorem views_bytes4 (hc : rt.colorsEnabled = true) (ov : Option Color) (len : Nat) (T : Nat → Str) (bs : List Byte) : ∀ i cc,
    (∀ (j : Nat) (h : j < bs.length), bytesToBinary [bs[j]] = T (i + j)) →
    Views (outputBytes4 rt none ov len i bs cc) () ((List.range' i bs.length).flatMap fun j =>
      [.piece (bytesColor ov) (T j)] ++ if j < len - 1 then [.piece .white ['.']] else []) := by
  induction bs with
  | nil => exact fun i cc _ => views_pure ()
  | cons b bs ih =>
    intro i cc hT
    have h := ih (i + 1) cc fun j h => by
      have := hT (j + 1) (by simpa using h)
      rw [show i + 1 + j = i + (j + 1) by omega]
      simpa using this
    have hb : bytesToBinary [b] = T i := hT 0 (by simp)
    rw [outputBytes4]
    refine .of_eq (.bind (views_byte4 hc ov i b cc) (views_sep hc (i < len - 1) '.' h)) ?_
    rw [List.length_cons, List.range'_succ, List.flatMap_cons, List.append_assoc, hb]

theorem views_bytes6 (hc : rt.colorsEnabled = true) (ov : Option Color) (len : Nat) (T : Nat → Str) (bs : List Byte) : ∀ i,
    (∀ (j : Nat) (h : j < bs.length), bytesToBinary [bs[j]] = T (i + j)) →
    Views (outputBytes6 rt none ov len i bs) () ((List.range' i bs.length).flatMap fun j =>
      [.piece (bytesColor ov) (T j)] ++ if j < len - 1 ∧ j % 2 = 1 then [.piece .white [':']] else []) := by
  induction bs with
  | nil => exact fun i _ => views_pure ()
  | cons b bs ih =>
    intro i hT
    have h := ih (i + 1) fun j h => by
      have := hT (j + 1) (by simpa using h)
      rw [show i + 1 + j = i + (j + 1) by omega]
      simpa using this
    have hb : bytesToBinary [b] = T i := hT 0 (by simp)
    rw [outputBytes6]
    refine .of_eq (.bind (views_byte6 hc ov i b) (views_sep hc (i < len - 1 ∧ i % 2 = 1) ':' h)) ?_
    rw [List.length_cons, List.range'_succ, List.flatMap_cons, List.append_assoc, hb]

theorem whole4 (c : Color) (v : Nat) : ((List.range' 0 4).flatMap fun j =>
      [Mark.piece c (byteText 32 v j)] ++ if j < 4 - 1 then [.piece .white ['.']] else []) =
    grouped 4 1 (.piece .white ['.']) fun k => .piece c ((List.range 8).map fun j => bitChar v (8 * k + 7 - j)) := by
  unfold byteText
  generalize bitChar v = f
  rfl

theorem whole6 (c : Color) (v : Nat) : ((List.range' 0 16).flatMap fun j =>
      [Mark.piece c (byteText 128 v j)] ++ if j < 16 - 1 ∧ j % 2 = 1 then [.piece .white [':']] else []) =
    grouped 16 2 (.piece .white [':']) fun k => .piece c ((List.range 8).map fun j => bitChar v (8 * k + 7 - j)) := by
  unfold byteText
  generalize bitChar v = f
  rfl

theorem views_whole4 (hc : rt.colorsEnabled = true) (a : V4) (cc : Bool) (ov : Option Color) :
    Views (outputBinaryIpv4Address rt a none cc ov) () (grouped 4 1 (.piece .white ['.']) fun k =>
      .piece (bytesColor ov) ((List.range 8).map fun j => bitChar (val a) (8 * k + 7 - j))) := by
  have hlen := toBytes_length a
  have h := views_bytes4 hc ov 4 (byteText 32 (val a)) (IpAddr.toBytes a) 0 cc fun j h => by
    obtain ⟨x, hx1, hx2⟩ := byteText_eq a j (by omega)
    rw [(List.getElem?_eq_some_iff.mp hx1).2, hx2, Nat.zero_add]
    rfl
  rw [outputBinaryIpv4Address, hlen]
  refine .of_eq h ?_
  rw [hlen]
  exact whole4 _ _

theorem views_whole6 (hc : rt.colorsEnabled = true) (a : V6) (cc : Bool) (ov : Option Color) :
    Views (outputBinaryIpv6Address rt a none cc ov) () (grouped 16 2 (.piece .white [':']) fun k =>
      .piece (bytesColor ov) ((List.range 8).map fun j => bitChar (val a) (8 * k + 7 - j))) := by
  have hlen := toBytes_length a
  have h := views_bytes6 hc ov 16 (byteText 128 (val a)) (IpAddr.toBytes a) 0 fun j h => by
    obtain ⟨x, hx1, hx2⟩ := byteText_eq a j (by omega)
    rw [(List.getElem?_eq_some_iff.mp hx1).2, hx2, Nat.zero_add]
    rfl
  rw [outputBinaryIpv6Address, hlen]
  refine .of_eq h ?_
  rw [hlen]
  exact whole6 _ _

end Ripcalc
