import Verif.Proofs.Color
import Verif.Proofs.Net
import Mathlib.Tactic.Tauto
/-!
# Lemmas about the display of networks
-/
set_option linter.unusedSectionVars false
namespace Ripcalc
open AddrSpec LawfulIpAddr

@[simp] theorem cells_nil : cells [] = [] := rfl
@[simp] theorem cells_cons (e : OutEv) (l : List OutEv) : cells (e :: l) = cellsOf e ++ cells l := rfl
@[simp] theorem cells_append (l l' : List OutEv) : cells (l ++ l') = cells l ++ cells l' := by simp [cells]
@[simp] theorem visible_nil : visible [] = [] := rfl
@[simp] theorem visible_cons (e : OutEv) (l : List OutEv) : visible (e :: l) = (cellsOf e).map Prod.snd ++ visible l := by simp [visible]
@[simp] theorem visible_append (l l' : List OutEv) : visible (l ++ l') = visible l ++ visible l' := by simp [visible]
@[simp] theorem cellsOf_out_snd (s : Str) : (cellsOf (.out s)).map Prod.snd = s := by simp [cellsOf, Function.comp_def]
@[simp] theorem cellsOf_styled_snd (c : Color) (s : Str) : (cellsOf (.styled c s)).map Prod.snd = s := by simp [cellsOf, Function.comp_def]

/-! ## The bits of the bytes of an address -/

section generic
variable {A : Type} [IpAddr A] [AddrSpec A] [LawfulIpAddr A]

/-- The text of byte `i` of a `w`-bit number. -/
def byteText (w v i : Nat) : Str := (List.range 8).map (fun j => bitChar v (w - 1 - (8 * i + j)))

theorem bytesToBits_drop (bs : List Byte) (i : Nat) (hi : i < bs.length) :
    bytesToBits [bs[i]] = ((bytesToBits bs).drop (8 * i)).take 8 := by
  induction bs generalizing i with
  | nil => simp at hi
  | cons b bs ih =>
    have hb : (byteBits b).length = 8 := by simp [byteBits]
    cases i with
    | zero => simp [hb]
    | succ i =>
      have h2 : 8 * (i + 1) = (byteBits b).length + 8 * i := by omega
      rw [h2, bytesToBits_cons b, List.drop_append]
      simp only [List.getElem_cons_succ]
      have h3 : (byteBits b).drop ((byteBits b).length + 8 * i) = [] := List.drop_eq_nil_of_le (by omega)
      rw [h3, List.nil_append, Nat.add_sub_cancel_left]
      exact ih i (by simpa using hi)

theorem byteText_eq (a : A) (i : Nat) (hi : i < width A / 8) :
    ∃ b, (IpAddr.toBytes a)[i]? = some b ∧ bytesToBinary [b] = byteText (width A) (val a) i := by
  have hl := toBytes_length a
  have hw := width_eq (A := A)
  refine ⟨(IpAddr.toBytes a)[i]'(by omega), List.getElem?_eq_getElem (by omega), ?_⟩
  rw [bytesToBinary, bytesToBits_drop, bytesToBits_toBytes]
  apply List.ext_getElem
  · simp [byteText, abits]; omega
  · intro j h1 h2
    have hj : j < 8 := by simpa [byteText] using h2
    simp only [byteText, List.getElem_map, List.getElem_take, List.getElem_drop, List.getElem_range, abits]
    rw [natBits_get _ _ _ (by omega)]
    rfl

theorem byteTexts (a : A) : (IpAddr.toBytes a).map (fun b => bytesToBinary [b]) =
    (List.range (width A / 8)).map (byteText (width A) (val a)) := by
  have hl := toBytes_length a
  apply List.ext_getElem
  · simp [hl]
  · intro i h1 h2
    have hi : i < width A / 8 := by simpa [Decidable.imp_iff_not_or] using h2
    obtain ⟨b, hb1, hb2⟩ := byteText_eq a i hi
    have := List.getElem?_eq_some_iff.mp hb1
    obtain ⟨h3, h4⟩ := this
    simp [h4, hb2]

end generic

/-! ## With colours -/

variable {rt : Runtime}

theorem write_colored (hc : rt.colorsEnabled = true) (t : Str) (c : Color) (p : Int) :
    writeInColor rt t (some c) p = ⟨[.styled c (padText t p)], .ok ()⟩ := by
  rw [writeInColor, if_pos hc]; rfl

/-- Only styled text. -/
def AllStyled (evs : List OutEv) : Prop := ∀ e ∈ evs, ∃ c s, e = .styled c s

theorem AllStyled.append {l l' : List OutEv} (h : AllStyled l) (h' : AllStyled l') : AllStyled (l ++ l') := by
  intro e he
  rcases List.mem_append.mp he with he | he
  · exact h e he
  · exact h' e he

theorem allStyled_map (l : List α) (c : α → Color) (s : α → Str) : AllStyled (l.map (fun k => .styled (c k) (s k))) := by
  intro e he
  obtain ⟨k, -, rfl⟩ := List.mem_map.mp he
  exact ⟨_, _, rfl⟩

theorem allStyled_single (c : Color) (s : Str) : AllStyled [.styled c s] := by
  intro e he
  simp at he
  exact ⟨_, _, he⟩

theorem index_range {n k : Nat} (f : Nat → α) (h : k < n) : Exec.index ((List.range n).map f) k = .ok (f k) := by
  simp [Exec.index, h]

theorem cells_bits (l : List Nat) (c : Nat → Color) (f : Nat → Char) :
    cells (l.map (fun k => .styled (c k) [f k])) = l.map (fun k => (some (c k), f k)) := by
  induction l with
  | nil => rfl
  | cons k l ih => simp [ih, cellsOf]

theorem cells_byte (c : Color) (f : Nat → Char) :
    cells [.styled c ((List.range 8).map f)] = (List.range 8).map (fun k => (some c, f k)) := by
  simp [cells, cellsOf, Function.comp_def]

theorem padText_zero (t : Str) : padText t 0 = t := by simp [padText]

theorem bits6_eq (hc : rt.colorsEnabled = true) (f g : Nat → Char) (l : List Nat) (hl : ∀ k ∈ l, k < 8) :
    outputBits6 rt ((List.range 8).map f) ((List.range 8).map g) l =
      ⟨l.map (fun k => .styled (if g k = '1' then netBitsColor else hostBitsColor) [f k]), .ok ()⟩ := by
  induction l with
  | nil => rfl
  | cons k l ih =>
    have hk := hl k (by simp)
    rw [outputBits6]
    simp only [index_range _ hk, Cli.lift_ok_bind, write_colored hc, padText_zero, Cli.mk_ok_bind]
    rw [ih (fun k hk => hl k (by simp [hk]))]
    rfl

/-- The colour of a bit outside the class bits. -/
def plainColor (masked : Bool) (ov : Option Color) (g : Char) : Color :=
  match ov with
  | some c => c
  | none => if masked && decide (g = '1') then netBitsColor else hostBitsColor

/-- The cells of byte `j`. -/
def byteCells (masked : Bool) (ov : Option Color) (F G : Nat → Nat → Char) (j : Nat) : List (Option Color × Char) :=
  (List.range 8).map (fun k => (some (plainColor masked ov (G j k)), F j k))

theorem range8_lt : ∀ k ∈ List.range 8, k < 8 := by simp

theorem byte6_eq (hc : rt.colorsEnabled = true) (mbs : Option (List Byte)) (ov : Option Color) (i : Nat) (F G : Nat → Nat → Char)
    (hm : ∀ m, mbs = some m → ∃ x, m[i]? = some x ∧ bytesToBinary [x] = (List.range 8).map (G i))
    (b : Byte) (hb : bytesToBinary [b] = (List.range 8).map (F i)) :
    ∃ evs, outputByte6 rt mbs ov i b = ⟨evs, .ok ()⟩ ∧ AllStyled evs ∧ cells evs = byteCells mbs.isSome ov F G i := by
  cases mbs with
  | none =>
    rw [outputByte6]
    simp only [Exec.pure_eq, Cli.lift_ok_bind, hb, Option.map_none]
    cases ov with
    | none => exact ⟨_, by rw [write_colored hc, padText_zero], allStyled_single _ _, by rw [cells_byte]; rfl⟩
    | some c => exact ⟨_, by rw [write_colored hc, padText_zero], allStyled_single _ _, by rw [cells_byte]; rfl⟩
  | some m =>
    obtain ⟨x, hx1, hx2⟩ := hm m rfl
    rw [outputByte6]
    have h : (some <$> Exec.index m i : Exec (Option Byte)) = .ok (some x) := by simp [Exec.index, hx1, Functor.map]; rfl
    simp only [h, Cli.lift_ok_bind, hb, Option.map_some]
    cases ov with
    | none =>
      simp only [hx2]
      exact ⟨_, bits6_eq hc _ _ _ range8_lt, allStyled_map _ _ _, by rw [cells_bits]; simp [byteCells, plainColor]⟩
    | some c => exact ⟨_, by rw [write_colored hc, padText_zero], allStyled_single _ _, by rw [cells_byte]; rfl⟩

/-- The separator of the binary column. -/
theorem sep_eq (hc : rt.colorsEnabled = true) (P : Prop) [Decidable P] (s : Char) (k : Cli Unit) :
    ∃ evs, (if P then do writeInColor rt [s] (some addrSepColor) 0; k else k) = ⟨evs ++ k.out, k.res⟩ ∧ AllStyled evs ∧
      cells evs = if P then [(some addrSepColor, s)] else [] := by
  by_cases h : P
  · refine ⟨[.styled addrSepColor [s]], ?_, allStyled_single _ _, by rw [if_pos h]; rfl⟩
    rw [if_pos h, write_colored hc, padText_zero]; rfl
  · exact ⟨[], by rw [if_neg h]; rfl, by simp [AllStyled], by rw [if_neg h]; rfl⟩

theorem bytes6_eq (hc : rt.colorsEnabled = true) (mbs : Option (List Byte)) (ov : Option Color) (len : Nat)
    (F G : Nat → Nat → Char)
    (hm : ∀ m, mbs = some m → ∀ j, j < len → ∃ x, m[j]? = some x ∧ bytesToBinary [x] = (List.range 8).map (G j))
    (bs : List Byte) : ∀ i, i + bs.length = len →
    (∀ (j : Nat) (h : j < bs.length), bytesToBinary [bs[j]] = (List.range 8).map (F (i + j))) →
    ∃ evs, outputBytes6 rt mbs ov len i bs = ⟨evs, .ok ()⟩ ∧ AllStyled evs ∧
      cells evs = (List.range' i bs.length).flatMap (fun j => byteCells mbs.isSome ov F G j ++
        if j < len - 1 ∧ j % 2 = 1 then [(some addrSepColor, ':')] else []) := by
  induction bs with
  | nil => intro i _ _; exact ⟨[], rfl, by simp [AllStyled], by simp⟩
  | cons b bs ih =>
    intro i hi hF
    obtain ⟨evs, h1, h2, h3⟩ := ih (i + 1) (by simp at hi; omega) (fun j h => by
      have := hF (j + 1) (by simpa using h)
      rw [show i + 1 + j = i + (j + 1) by omega]
      simpa using this)
    obtain ⟨cur, c1, c2, c3⟩ := byte6_eq hc mbs ov i F G (fun m h => hm m h i (by simp at hi; omega)) b (hF 0 (by simp))
    obtain ⟨sep, s1, s2, s3⟩ := sep_eq hc (i < len - 1 ∧ i % 2 = 1) ':' (outputBytes6 rt mbs ov len (i + 1) bs)
    refine ⟨cur ++ (sep ++ evs), ?_, c2.append (s2.append h2), ?_⟩
    · rw [outputBytes6]
      simp only [c1, Cli.mk_ok_bind]
      rw [s1, h1]
    · simp [c3, s3, h3, List.range'_succ]

/-! ### The bits of an IPv4 address, with the class -/

/-- The bit belongs to those that define the class. -/
def classBit (f : Nat → Char) (k : Nat) : Bool :=
  k == 0 || (k == 1 && f 0 == '1') || (k == 2 && f 0 == '1' && f 1 == '1') || (k == 3 && f 0 == '1' && f 1 == '1' && f 2 == '1')

/-- The decision whether the class is coloured. -/
def classOk (f g : Nat → Char) : Bool :=
  g 0 != '0' && !(f 0 == '1' && g 1 == '0') && !(f 1 == '1' && g 2 == '0') && !(f 2 == '1' && g 3 == '0')

theorem range8 : List.range 8 = [0, 1, 2, 3, 4, 5, 6, 7] := rfl

theorem classColor_eq (isFirst cc : Bool) (f : Nat → Char) (k : Nat) :
    classColor isFirst cc k ((List.range 8).map f) = .ok (if isFirst && cc && classBit f k then some classBitsColor else none) := by
  rw [classColor]
  cases h : isFirst && cc with
  | false => simp
  | true =>
    simp only [range8, List.map, startsWith, Exec.index, List.isPrefixOf, classBit, Bool.true_and, if_true]
    rcases Nat.lt_or_ge k 4 with hk | hk
    · have : k = 0 ∨ k = 1 ∨ k = 2 ∨ k = 3 := by omega
      have s0 : ('1' == f 0) = (f 0 == '1') := BEq.comm
      have s1 : ('1' == f 1) = (f 1 == '1') := BEq.comm
      have s2 : ('1' == f 2) = (f 2 == '1') := BEq.comm
      by_cases e0 : f 0 = '1' <;> by_cases e1 : f 1 = '1' <;> by_cases e2 : f 2 = '1' <;>
        rcases this with rfl | rfl | rfl | rfl <;> simp [s0, s1, s2, e0, e1, e2]
    · have h0 : k ≠ 0 := by omega
      have h1 : k ≠ 1 := by omega
      have h2 : k ≠ 2 := by omega
      have h3 : k ≠ 3 := by omega
      simp [h0, h1, h2, h3]

theorem checkColorClass_eq (f g : Nat → Char) :
    checkColorClass ((List.range 8).map f) ((List.range 8).map g) = .ok (classOk f g) := by
  rw [checkColorClass]
  simp only [index_range _ (show 0 < 8 by decide), index_range _ (show 1 < 8 by decide), index_range _ (show 2 < 8 by decide),
    index_range _ (show 3 < 8 by decide), Exec.ok_bind, Exec.pure_eq, classOk]
  by_cases h0 : g 0 = '0'
  · simp [h0]
  · by_cases h1 : f 0 = '1' ∧ g 1 = '0'
    · simp [h0, h1]
    · by_cases h2 : f 1 = '1' ∧ g 2 = '0'
      · simp [h0, h1, h2]
      · by_cases h3 : f 2 = '1' ∧ g 3 = '0'
        · simp [h0, h1, h2, h3]
        · rw [if_neg h0, if_neg h1, if_neg h2, if_neg h3]
          rw [not_and] at h1 h2 h3
          have e0 : (g 0 != '0') = true := by simpa using h0
          have e1 : (!(f 0 == '1' && g 1 == '0')) = true := by simpa [Decidable.imp_iff_not_or] using h1
          have e2 : (!(f 1 == '1' && g 2 == '0')) = true := by simpa [Decidable.imp_iff_not_or] using h2
          have e3 : (!(f 2 == '1' && g 3 == '0')) = true := by simpa [Decidable.imp_iff_not_or] using h3
          rw [e0, e1, e2, e3]
          rfl

theorem bits4_eq (hc : rt.colorsEnabled = true) (isFirst cc : Bool) (f g : Nat → Char) (l : List Nat) (hl : ∀ k ∈ l, k < 8) :
    outputBits4 rt isFirst cc ((List.range 8).map f) ((List.range 8).map g) l =
      ⟨l.map (fun k => .styled (if isFirst && cc && classBit f k then classBitsColor
        else if g k = '1' then netBitsColor else hostBitsColor) [f k]), .ok ()⟩ := by
  induction l with
  | nil => rfl
  | cons k l ih =>
    have hk := hl k (by simp)
    have hu : Exec.unwrap ((List.range 8).map g)[k]? = .ok (g k) := by simp [hk]
    rw [outputBits4]
    simp only [hu, classColor_eq, index_range _ hk, Cli.lift_ok_bind]
    rw [ih (fun k hk => hl k (by simp [hk]))]
    rw [List.map_cons]
    cases isFirst && cc && classBit f k <;> simp only [Option.or, Bool.false_eq_true, if_true, if_false, write_colored hc, padText_zero, Cli.mk_ok_bind] <;> rfl

/-- The colour of a bit. -/
def bitColor (masked cc : Bool) (ov : Option Color) (F G : Nat → Nat → Char) (i k : Nat) : Color :=
  if masked && ov.isNone && i == 0 && cc && classBit (F 0) k then classBitsColor else plainColor masked ov (G i k)

theorem byte4_eq (hc : rt.colorsEnabled = true) (mbs : Option (List Byte)) (ov : Option Color) (i : Nat) (F G : Nat → Nat → Char)
    (hm : ∀ m, mbs = some m → ∃ x, m[i]? = some x ∧ bytesToBinary [x] = (List.range 8).map (G i))
    (b : Byte) (hb : bytesToBinary [b] = (List.range 8).map (F i)) (cc : Bool) :
    ∃ evs cc', outputByte4 rt mbs ov i b cc = ⟨evs, .ok cc'⟩ ∧ AllStyled evs ∧
      cells evs = (List.range 8).map (fun k => (some (bitColor mbs.isSome (cc && classOk (F 0) (G 0)) ov F G i k), F i k)) := by
  have hplain : ∀ c, ov = some c → ∀ masked, (List.range 8).map (fun k => (some c, F i k)) =
      (List.range 8).map (fun k => (some (bitColor masked (cc && classOk (F 0) (G 0)) ov F G i k), F i k)) := by
    rintro c rfl masked
    simp [bitColor, plainColor]
  cases mbs with
  | none =>
    rw [outputByte4]
    simp only [Exec.pure_eq, Cli.lift_ok_bind, hb, Option.map_none]
    cases ov with
    | none =>
      simp only [write_colored hc, padText_zero, Cli.mk_ok_bind, Cli.pure_eq, List.append_nil]
      exact ⟨_, _, rfl, allStyled_single _ _, by rw [cells_byte]; simp [bitColor, plainColor]⟩
    | some c =>
      simp only [write_colored hc, padText_zero, Cli.mk_ok_bind, Cli.pure_eq, List.append_nil]
      exact ⟨_, _, rfl, allStyled_single _ _, by rw [cells_byte]; exact hplain c rfl _⟩
  | some m =>
    obtain ⟨x, hx1, hx2⟩ := hm m rfl
    rw [outputByte4]
    have h : (some <$> Exec.index m i : Exec (Option Byte)) = .ok (some x) := by simp [Exec.index, hx1, Functor.map]; rfl
    simp only [h, Cli.lift_ok_bind, hb, Option.map_some]
    cases ov with
    | none =>
      simp only [hx2]
      have h' : ∃ cc', (if i = 0 ∧ cc then checkColorClass ((List.range 8).map (F i)) ((List.range 8).map (G i)) else pure cc : Exec Bool) =
          .ok cc' ∧ (decide (i = 0) && cc') = (i == 0 && (cc && classOk (F 0) (G 0))) := by
        by_cases hi : i = 0
        · subst hi
          cases cc with
          | true => exact ⟨_, by rw [if_pos ⟨rfl, rfl⟩, checkColorClass_eq], by simp⟩
          | false => exact ⟨_, by rw [if_neg (by simp)]; rfl, by simp⟩
        · exact ⟨_, by rw [if_neg (by simp [hi])]; rfl, by simp [hi]⟩
      obtain ⟨cc', h1, h2⟩ := h'
      simp only [h1, Cli.lift_ok_bind, bits4_eq hc _ _ _ _ _ range8_lt, Cli.mk_ok_bind, h2]
      refine ⟨_, _, rfl, ?_, ?_⟩
      · rw [Cli.pure_eq, List.append_nil]; exact allStyled_map _ _ _
      · rw [Cli.pure_eq, List.append_nil, cells_bits]
        apply List.map_congr_left
        intro k _
        by_cases hi : i = 0
        · subst hi; simp [bitColor, plainColor]
        · simp [bitColor, plainColor, hi]
    | some c =>
      simp only [write_colored hc, padText_zero, Cli.mk_ok_bind, Cli.pure_eq, List.append_nil]
      exact ⟨_, _, rfl, allStyled_single _ _, by rw [cells_byte]; exact hplain c rfl _⟩

theorem bitColor_pos (masked cc : Bool) (ov : Option Color) (F G : Nat → Nat → Char) {i : Nat} (hi : i ≠ 0) (k : Nat) :
    bitColor masked cc ov F G i k = plainColor masked ov (G i k) := by
  simp [bitColor, hi]

theorem bytes4_eq (hc : rt.colorsEnabled = true) (mbs : Option (List Byte)) (ov : Option Color) (len : Nat) (c0 : Bool)
    (F G : Nat → Nat → Char)
    (hm : ∀ m, mbs = some m → ∀ j, j < len → ∃ x, m[j]? = some x ∧ bytesToBinary [x] = (List.range 8).map (G j))
    (bs : List Byte) : ∀ i cc, (i = 0 → cc = c0) → i + bs.length = len →
    (∀ (j : Nat) (h : j < bs.length), bytesToBinary [bs[j]] = (List.range 8).map (F (i + j))) →
    ∃ evs, outputBytes4 rt mbs ov len i bs cc = ⟨evs, .ok ()⟩ ∧ AllStyled evs ∧
      cells evs = (List.range' i bs.length).flatMap (fun j =>
        (List.range 8).map (fun k => (some (bitColor mbs.isSome (c0 && classOk (F 0) (G 0)) ov F G j k), F j k)) ++
        if j < len - 1 then [(some addrSepColor, '.')] else []) := by
  induction bs with
  | nil => intro i cc _ _ _; exact ⟨[], rfl, by simp [AllStyled], by simp⟩
  | cons b bs ih =>
    intro i cc hcc hi hF
    obtain ⟨cur, cc', c1, c2, c3⟩ := byte4_eq hc mbs ov i F G (fun m h => hm m h i (by simp at hi; omega)) b (hF 0 (by simp)) cc
    obtain ⟨evs, h1, h2, h3⟩ := ih (i + 1) cc' (by omega) (by simp at hi; omega) (fun j h => by
      have := hF (j + 1) (by simpa using h)
      rw [show i + 1 + j = i + (j + 1) by omega]
      simpa using this)
    obtain ⟨sep, s1, s2, s3⟩ := sep_eq hc (i < len - 1) '.' (outputBytes4 rt mbs ov len (i + 1) bs cc')
    refine ⟨cur ++ (sep ++ evs), ?_, c2.append (s2.append h2), ?_⟩
    · rw [outputBytes4]
      simp only [c1, Cli.mk_ok_bind]
      rw [s1, h1]
    · have h4 : (List.range 8).map (fun k => (some (bitColor mbs.isSome (cc && classOk (F 0) (G 0)) ov F G i k), F i k)) =
          (List.range 8).map (fun k => (some (bitColor mbs.isSome (c0 && classOk (F 0) (G 0)) ov F G i k), F i k)) := by
        by_cases h0 : i = 0
        · rw [hcc h0]
        · simp only [bitColor_pos _ _ _ _ _ h0]
      rw [List.length_cons, List.range'_succ, List.flatMap_cons, cells_append, cells_append, c3, s3, h3, h4, List.append_assoc]

/-! ### Whole addresses -/

/-- The colour of bit `p` (0 is the least significant) of an IPv6 address in the binary column. -/
def columnColor6 (mask : Option Nat) (ov : Option Color) (p : Nat) : Color :=
  match ov, mask with
  | some c, _ => c
  | none, some m => if m.testBit p then netBitsColor else hostBitsColor
  | none, none => hostBitsColor

/-- The bits that define the class of the IPv4 address `v`: the leading ones and the bit after them, at most four. -/
def ClassBit (v p : Nat) : Prop := 28 ≤ p ∧ p < 32 ∧ ∀ q, p < q → q < 32 → v.testBit q = true

instance (v p : Nat) : Decidable (ClassBit v p) :=
  decidable_of_iff (28 ≤ p ∧ p < 32 ∧ ∀ q, q < 32 → p < q → v.testBit q = true)
    ⟨fun ⟨a, b, c⟩ => ⟨a, b, fun q h h' => c q h' h⟩, fun ⟨a, b, c⟩ => ⟨a, b, fun q h h' => c q h' h⟩⟩

theorem bitChar_one (v p : Nat) : (bitChar v p = '1') ↔ v.testBit p = true := by
  rw [bitChar]; split <;> simp_all

theorem bitChar_zero (v p : Nat) : (bitChar v p = '0') ↔ v.testBit p = false := by
  rw [bitChar]; split <;> simp_all

set_option maxRecDepth 20000 in
theorem grouped_bytes6 (sep : α) (f : Nat → α) : (List.range' 0 16).flatMap (fun j =>
    (List.range 8).map (fun k => f (127 - (8 * j + k))) ++ if j < 16 - 1 ∧ j % 2 = 1 then [sep] else []) = grouped 128 16 sep f := rfl

theorem grouped_bytes4 (sep : α) (f : Nat → α) : (List.range' 0 4).flatMap (fun j =>
    (List.range 8).map (fun k => f (31 - (8 * j + k))) ++ if j < 4 - 1 then [sep] else []) = grouped 32 8 sep f := rfl

theorem binary6_eq (hc : rt.colorsEnabled = true) (a : V6) (m : Option V6) (cc : Bool) (ov : Option Color) :
    ∃ evs, outputBinaryIpv6Address rt a m cc ov = ⟨evs, .ok ()⟩ ∧ AllStyled evs ∧
      cells evs = grouped 128 16 (some addrSepColor, ':') (fun p => (some (columnColor6 (m.map val) ov p), bitChar (val a) p)) := by
  have hw : width V6 / 8 = 16 := rfl
  have hlen := toBytes_length a
  obtain ⟨evs, h1, h2, h3⟩ := bytes6_eq hc (m.map IpAddr.toBytes) ov 16 (fun j k => bitChar (val a) (127 - (8 * j + k)))
    (fun j k => bitChar ((m.map val).getD 0) (127 - (8 * j + k)))
    (fun mb hmb j hj => by
      cases m with
      | none => simp at hmb
      | some m =>
        simp only [Option.map_some, Option.some.injEq] at hmb
        subst hmb
        obtain ⟨x, hx1, hx2⟩ := byteText_eq m j (by omega)
        exact ⟨x, hx1, hx2⟩)
    (IpAddr.toBytes a) 0 (by rw [hlen]; rfl) (fun j h => by
      obtain ⟨x, hx1, hx2⟩ := byteText_eq a j (by omega)
      have := (List.getElem?_eq_some_iff.mp hx1).2
      rw [this, hx2, Nat.zero_add]; rfl)
  refine ⟨evs, ?_, h2, ?_⟩
  · rw [outputBinaryIpv6Address, hlen]; exact h1
  · rw [h3, hlen]
    have h4 : ∀ j, byteCells (m.map IpAddr.toBytes).isSome ov (fun j k => bitChar (val a) (127 - (8 * j + k)))
        (fun j k => bitChar ((m.map val).getD 0) (127 - (8 * j + k))) j =
        (List.range 8).map (fun k => (fun p => (some (columnColor6 (m.map val) ov p), bitChar (val a) p)) (127 - (8 * j + k))) := by
      intro j
      rw [byteCells]
      apply List.map_congr_left
      intro k _
      cases ov <;> cases m <;> simp [plainColor, columnColor6, bitChar_one]
    simp only [h4, hw]
    exact grouped_bytes6 _ (fun p => (some (columnColor6 (m.map val) ov p), bitChar (val a) p))

/-- The colour of bit `p` of an IPv4 address in the binary column. -/
def columnColor4 (v : Nat) (mask : Option Nat) (classColored : Bool) (ov : Option Color) (p : Nat) : Color :=
  match ov, mask with
  | some c, _ => c
  | none, some m =>
    if classColored = true ∧ ClassBit v p ∧ m.testBit 31 = true ∧ (v.testBit 31 = true → m.testBit 30 = true) ∧
        (v.testBit 30 = true → m.testBit 29 = true) ∧ (v.testBit 29 = true → m.testBit 28 = true) then classBitsColor
    else if m.testBit p then netBitsColor else hostBitsColor
  | none, none => hostBitsColor

theorem classBit_iff (v : Nat) (k : Nat) (hk : k < 8) : classBit (fun k => bitChar v (31 - k)) k = true ↔ ClassBit v (31 - k) := by
  have hq : ∀ q, q < 32 → 28 < q → q = 29 ∨ q = 30 ∨ q = 31 := by omega
  simp only [classBit, Bool.or_eq_true, Bool.and_eq_true, beq_iff_eq, bitChar_one, ClassBit]
  have : k = 0 ∨ k = 1 ∨ k = 2 ∨ k = 3 ∨ 4 ≤ k := by omega
  rcases this with rfl | rfl | rfl | rfl | hk4
  · simp; omega
  · simp
    constructor
    · intro h q h1 h2; rw [show q = 31 by omega]; exact h
    · intro h; exact h 31 (by omega) (by omega)
  · simp
    constructor
    · rintro ⟨h, h'⟩ q h1 h2
      have : q = 30 ∨ q = 31 := by omega
      rcases this with rfl | rfl <;> assumption
    · intro h; exact ⟨h 31 (by omega) (by omega), h 30 (by omega) (by omega)⟩
  · simp
    constructor
    · rintro ⟨⟨h, h'⟩, h''⟩ q h1 h2
      rcases hq q h2 h1 with rfl | rfl | rfl <;> assumption
    · intro h; exact ⟨⟨h 31 (by omega) (by omega), h 30 (by omega) (by omega)⟩, h 29 (by omega) (by omega)⟩
  · constructor
    · rintro (((h | h) | h) | h) <;> omega
    · intro h; omega

theorem classOk_iff (v m : Nat) : classOk (fun k => bitChar v (31 - k)) (fun k => bitChar m (31 - k)) = true ↔
    m.testBit 31 = true ∧ (v.testBit 31 = true → m.testBit 30 = true) ∧
        (v.testBit 30 = true → m.testBit 29 = true) ∧ (v.testBit 29 = true → m.testBit 28 = true) := by
  simp only [classOk, Bool.and_eq_true, Bool.not_eq_true', Bool.and_eq_false_imp, bne_iff_ne, beq_iff_eq, beq_eq_false_iff_ne, ne_eq,
    bitChar_one, bitChar_zero, Bool.not_eq_false, and_assoc]

theorem binary4_eq (hc : rt.colorsEnabled = true) (a : V4) (m : Option V4) (cc : Bool) (ov : Option Color) :
    ∃ evs, outputBinaryIpv4Address rt a m cc ov = ⟨evs, .ok ()⟩ ∧ AllStyled evs ∧
      cells evs = grouped 32 8 (some addrSepColor, '.') (fun p => (some (columnColor4 (val a) (m.map val) cc ov p), bitChar (val a) p)) := by
  have hw : width V4 / 8 = 4 := rfl
  have hlen := toBytes_length a
  obtain ⟨evs, h1, h2, h3⟩ := bytes4_eq hc (m.map IpAddr.toBytes) ov 4 cc (fun j k => bitChar (val a) (31 - (8 * j + k)))
    (fun j k => bitChar ((m.map val).getD 0) (31 - (8 * j + k)))
    (fun mb hmb j hj => by
      cases m with
      | none => simp at hmb
      | some m =>
        simp only [Option.map_some, Option.some.injEq] at hmb
        subst hmb
        obtain ⟨x, hx1, hx2⟩ := byteText_eq m j (by omega)
        exact ⟨x, hx1, hx2⟩)
    (IpAddr.toBytes a) 0 cc (fun _ => rfl) (by rw [hlen]; rfl) (fun j h => by
      obtain ⟨x, hx1, hx2⟩ := byteText_eq a j (by omega)
      have := (List.getElem?_eq_some_iff.mp hx1).2
      rw [this, hx2, Nat.zero_add]; rfl)
  refine ⟨evs, ?_, h2, ?_⟩
  · rw [outputBinaryIpv4Address, hlen]; exact h1
  · rw [h3, hlen]
    have h4 : ∀ j, (List.range 8).map (fun k => (some (bitColor (m.map IpAddr.toBytes).isSome
          (cc && classOk (fun k => bitChar (val a) (31 - (8 * 0 + k))) (fun k => bitChar ((m.map val).getD 0) (31 - (8 * 0 + k)))) ov
          (fun j k => bitChar (val a) (31 - (8 * j + k))) (fun j k => bitChar ((m.map val).getD 0) (31 - (8 * j + k))) j k),
          bitChar (val a) (31 - (8 * j + k)))) =
        (List.range 8).map (fun k => (fun p => (some (columnColor4 (val a) (m.map val) cc ov p), bitChar (val a) p)) (31 - (8 * j + k))) := by
      intro j
      apply List.map_congr_left
      intro k hk
      have hk : k < 8 := by simpa using hk
      cases ov with
      | some c => cases m <;> simp [bitColor, plainColor, columnColor4]
      | none =>
        cases m with
        | none => simp [bitColor, plainColor, columnColor4]
        | some m =>
          have e : (j = 0 ∧ classBit (fun k => bitChar (val a) (31 - k)) k = true) ↔ ClassBit (val a) (31 - (8 * j + k)) := by
            by_cases hj : j = 0
            · subst hj; simp [classBit_iff _ _ hk]
            · simp only [hj, false_and, false_iff]
              intro h
              have := h.1
              omega
          have e2 := classOk_iff (val a) (val m)
          simp only [bitColor, plainColor, columnColor4, Nat.mul_zero, Nat.zero_add, Option.map_some, Option.getD_some,
            Option.isSome_some, Option.isNone_none, Bool.true_and, Bool.and_eq_true, beq_iff_eq, decide_eq_true_eq, bitChar_one]
          congr 2
          exact if_congr (by rw [← e, ← e2]; tauto) rfl rfl
    simp only [h4, hw]
    exact grouped_bytes4 _ (fun p => (some (columnColor4 (val a) (m.map val) cc ov p), bitChar (val a) p))

/-! ## Blocks -/

@[simp] theorem messages_nil : messages [] = [] := rfl
@[simp] theorem messages_append (l l' : List OutEv) : messages (l ++ l') = messages l ++ messages l' := by simp [messages]
@[simp] theorem messages_out (s : Str) (l : List OutEv) : messages (.out s :: l) = messages l := rfl
@[simp] theorem messages_styled (c : Color) (s : Str) (l : List OutEv) : messages (.styled c s :: l) = messages l := rfl
@[simp] theorem messages_err (m : ErrMsg) (l : List OutEv) : messages (.err m :: l) = m :: messages l := rfl

theorem AllStyled.messages {l : List OutEv} (h : AllStyled l) : messages l = [] := by
  rw [Ripcalc.messages, List.filterMap_eq_nil_iff]
  intro e he
  obtain ⟨c, s, rfl⟩ := h e he
  rfl

theorem Shows.bind {x : Cli α} {f : α → Cli β} {a : α} {b : β} {t u : Str} (h : Shows x a t) (h' : Shows (f a) b u) :
    Shows (x >>= f) b (t ++ u) := by
  obtain ⟨o, r⟩ := x
  obtain ⟨h1, h2, h3⟩ := h
  obtain ⟨h4, h5, h6⟩ := h'
  simp only at h1 h2 h3
  subst h1
  simp [Shows, h2, h3, h4, h5, h6]

/-- What comes after a shown text. -/
theorem Shows.then {x : Cli α} {f : α → Cli β} {a : α} {t : Str} (h : Shows x a t) :
    (x >>= f).res = (f a).res ∧ visible (x >>= f).out = t ++ visible (f a).out ∧ messages (x >>= f).out = messages (f a).out := by
  obtain ⟨o, r⟩ := x
  obtain ⟨h1, h2, h3⟩ := h
  simp only at h1 h2 h3
  subst h1
  simp [h2, h3]

theorem Shows.of_eq {x : Cli α} {a : α} {t u : Str} (h : Shows x a t) (e : t = u) : Shows x a u := e ▸ h

theorem shows_pure (a : α) : Shows (pure a : Cli α) a [] := ⟨rfl, rfl, rfl⟩
theorem shows_lift {x : Exec α} {a : α} (h : x = .ok a) : Shows (liftM x : Cli α) a [] := by subst h; exact ⟨rfl, rfl, rfl⟩
theorem shows_println (s : Str) : Shows (Cli.println s) () (s ++ ['\n']) := ⟨rfl, by simp [Cli.println, Cli.emit], rfl⟩

theorem Aborts.of_eq {x : Cli α} {p : Panic} {t u : Str} (h : Aborts x p t) (e : t = u) : Aborts x p u := e ▸ h

/-- A text, a line and a panic. -/
theorem aborts_println {x : Cli α} {a : α} {t : Str} (h : Shows x a t) (s : Str) {k : Unit → Cli β} {p : Panic} (hk : k () = ⟨[], .panic p⟩) :
    Aborts (x >>= fun _ => Cli.println s >>= k) p (t ++ (s ++ ['\n'])) := by
  obtain ⟨o, r⟩ := x
  obtain ⟨h1, h2, h3⟩ := h
  simp only at h1 h2 h3
  subst h1
  rw [Cli.mk_ok_bind, Cli.println_bind, hk]
  exact ⟨rfl, by simp [h2], by simp [h3], o, s, rfl⟩

theorem shows_write (hc : rt.colorsEnabled = true) (t : Str) (c : Color) (p : Int) :
    Shows (writeInColor rt t (some c) p) () (padText t p) := by
  rw [write_colored hc]; exact ⟨rfl, by simp, rfl⟩

theorem padText_nat (t : Str) (k : Nat) : padText t (k : Int) = padRight k t := by
  rw [padText, padRight]
  by_cases h : (k : Int) > 0
  · simp only [h, if_true]
    by_cases h2 : (k : Int) > t.length
    · rw [if_pos h2]; congr 2; omega
    · rw [if_neg h2, show k - t.length = 0 by omega]; simp
  · have : k = 0 := by omega
    subst this; simp

theorem shows_cols (hc : rt.colorsEnabled = true) (lw aw : Nat) (l t : Str) :
    Shows (outputInitialColumns rt lw aw l t) () (padRight lw l ++ padRight aw t) := by
  rw [outputInitialColumns]
  refine .of_eq (.bind (shows_write hc l labelColor lw) (shows_write hc t ipAddressColor aw)) ?_
  rw [padText_nat, padText_nat]

section generic
variable {A : Type} [IpAddr A] [AddrSpec A] [LawfulIpAddr A]

/-- One line with a binary column; the newline follows. -/
theorem shows_line (hc : rt.colorsEnabled = true) (aw : Nat) {x : Cli Unit} {bin : Str} (ho : Shows x () bin) (l t : Str) :
    Shows (do outputInitialColumns rt 11 aw l t; x; Cli.println []) () (blockLine aw l t bin) :=
  .of_eq (.bind (shows_cols hc 11 aw l t) <| .bind ho (shows_println _)) (by simp [blockLine])

theorem Shows.bind3 {x y z : Cli Unit} {k : Cli β} {b : β} {t u : Str} (h : Shows (do x; y; z) () t) (h' : Shows k b u) :
    Shows (do x; y; z; k) b (t ++ u) := by
  have := h.bind (f := fun _ => k) h'
  simpa [bind_assoc] using this

theorem shows_address (hc : rt.colorsEnabled = true) (aw : Nat) (oba : A → Option A → Bool → Option Color → Cli Unit)
    (binary : A → Str) (ho : ∀ a m c o, Shows (oba a m c o) () (binary a)) (n : Net A) (a : A) :
    Shows (outputAddressPart rt 11 aw oba n a) () (addressLines aw IpAddr.display binary n n.ciscoWildcard (some a)) := by
  rw [outputAddressPart]
  refine .of_eq (.bind3 (shows_line hc aw (ho _ _ _ _) _ _) <| .bind3 (shows_line hc aw (ho _ _ _ _) _ _) <|
    .bind3 (shows_line hc aw (ho _ _ _ _) _ _) <| .bind (shows_write hc _ _ _) (shows_println _)) ?_
  simp only [padText_zero, List.append_assoc, addressLines]
  rfl

theorem shows_hosts (hc : rt.colorsEnabled = true) (aw : Nat) (oba : A → Option A → Bool → Option Color → Cli Unit)
    (binary : A → Str) (ho : ∀ a m c o, Shows (oba a m c o) () (binary a)) (n : Net A) {hosts : Option (A × A)}
    (h1 : n.firstHostAddr rt.profile = .ok (hosts.map Prod.fst)) (h2 : n.lastHostAddr rt.profile = .ok (hosts.map Prod.snd)) :
    Shows (do outputHostsPart rt 11 aw oba n; Cli.println []) () (hostLines aw IpAddr.display binary hosts) := by
  rw [outputHostsPart, h1, Cli.lift_ok_bind]
  cases hosts with
  | none => exact .of_eq (.bind (shows_write hc _ _ _) (shows_println _)) (by rw [padText_zero]; rfl)
  | some p =>
    obtain ⟨f, l⟩ := p
    simp only [Option.map_some, h2, Cli.lift_ok_bind, Exec.unwrap_some, bind_assoc]
    exact .bind3 (shows_line hc aw (ho _ _ _ _) _ _) (shows_line hc aw (ho _ _ _ _) _ _)

theorem shows_broadcast (hc : rt.colorsEnabled = true) (aw : Nat) (oba : A → Option A → Bool → Option Color → Cli Unit)
    (binary : A → Str) (ho : ∀ a m c o, Shows (oba a m c o) () (binary a)) (n : Net A) {bc : Option A} (h : n.broadcastAddr = .ok bc) :
    Shows (do outputBroadcastPart rt 11 aw oba n; Cli.println []) () (broadcastLine aw IpAddr.display binary bc) := by
  rw [outputBroadcastPart, h, Cli.lift_ok_bind]
  cases bc with
  | none => exact .of_eq (.bind (shows_write hc _ _ _) (shows_println _)) (by rw [padText_zero]; rfl)
  | some x =>
    simp only [bind_assoc]
    exact shows_line hc aw (ho _ _ _ _) _ _

theorem Shows.bind2 {x y : Cli Unit} {k : Cli β} {b : β} {t u : Str} (h : Shows (do x; y) () t) (h' : Shows k b u) :
    Shows (do x; y; k) b (t ++ u) := by
  have := h.bind (f := fun _ => k) h'
  simpa [bind_assoc] using this

theorem shows_network (hc : rt.colorsEnabled = true) (aw : Nat) (oba : A → Option A → Bool → Option Color → Cli Unit)
    (outputClass : Str → Str → Cli Unit) (binary : A → Str) (ho : ∀ a m c o, Shows (oba a m c o) () (binary a))
    (n : Net A) (addr : Option A) (cls : Str)
    (hcls : Shows (outputClass (bytesToBinary ((IpAddr.toBytes n.baseAddr).take 1)) (bytesToBinary ((IpAddr.toBytes n.subnetMask).take 1))) () cls)
    {hosts : Option (A × A)} {bc : Option A}
    (h1 : n.firstHostAddr rt.profile = .ok (hosts.map Prod.fst)) (h2 : n.lastHostAddr rt.profile = .ok (hosts.map Prod.snd))
    (h3 : n.broadcastAddr = .ok bc) :
    Shows (outputNetwork rt 11 aw oba outputClass n addr) ()
      ((BlockText.mk addr n n.ciscoWildcard hosts bc n.hostCount cls).render aw IpAddr.display binary) := by
  have hcount : Shows (outputCountPart rt 11 aw outputClass n) () (countLine aw n.hostCount cls) := by
    rw [outputCountPart, countLine]
    by_cases h : n.hostCount > 0
    · rw [if_pos h, if_pos h]; exact shows_line hc aw hcls _ _
    · rw [if_neg h, if_neg h]; exact .of_eq (shows_write hc _ _ _) (padText_zero _)
  have haddr : Shows (match addr with
      | some a => outputAddressPart rt 11 aw oba n a
      | none => pure () : Cli Unit) () (addressLines aw IpAddr.display binary n n.ciscoWildcard addr) := by
    cases addr with
    | none => exact shows_pure _
    | some a => exact shows_address hc aw oba binary ho n a
  have hnet : Shows (outputNetworkPart rt 11 aw oba n) () (networkLine aw IpAddr.display binary n) :=
    shows_line hc aw (ho _ _ _ _) _ _
  rw [outputNetwork.eq_def]
  refine .of_eq (.bind haddr <| .bind hnet <| .bind2 (shows_hosts hc aw oba binary ho n h1 h2) <|
    .bind2 (shows_broadcast hc aw oba binary ho n h3) hcount) ?_
  simp only [BlockText.render, List.append_assoc]

end generic

/-! ## The two families -/

theorem map_grouped (h : α → β) (w g : Nat) (sep : α) (f : Nat → α) :
    (grouped w g sep f).map h = grouped w g (h sep) (fun p => h (f p)) := by
  have key : ∀ l : List (List α), ([sep].intercalate l).map h = [h sep].intercalate (l.map (List.map h)) := by
    intro l
    induction l with
    | nil => rfl
    | cons x l ih =>
      cases l with
      | nil => simp
      | cons y l => simp only [List.intercalate_cons_cons, List.map_append, List.map_cons, List.map_nil, ih]
  simp [grouped, key, Function.comp_def]

theorem AllStyled.shows {evs : List OutEv} (h : AllStyled evs) {t : Str} (h2 : (cells evs).map Prod.snd = t) :
    Shows (⟨evs, .ok ()⟩ : Cli Unit) () t := ⟨rfl, h2, h.messages⟩

theorem shows_binary4 (hc : rt.colorsEnabled = true) (a : V4) (m : Option V4) (cc : Bool) (ov : Option Color) :
    Shows (outputBinaryIpv4Address rt a m cc ov) () (binaryText 32 8 '.' (val a)) := by
  obtain ⟨evs, h1, h2, h3⟩ := binary4_eq hc a m cc ov
  rw [h1]
  exact h2.shows (by rw [h3, map_grouped]; rfl)

theorem shows_binary6 (hc : rt.colorsEnabled = true) (a : V6) (m : Option V6) (cc : Bool) (ov : Option Color) :
    Shows (outputBinaryIpv6Address rt a m cc ov) () (binaryText 128 16 ':' (val a)) := by
  obtain ⟨evs, h1, h2, h3⟩ := binary6_eq hc a m cc ov
  rw [h1]
  exact h2.shows (by rw [h3, map_grouped]; rfl)

end Ripcalc
