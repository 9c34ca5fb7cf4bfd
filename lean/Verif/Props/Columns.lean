import Verif.Proofs.Readback
import Verif.Props.Process
import Verif.Props.Commands
/-!
# Properties of the layout of the output, and what can be read from it
-/
set_option linter.unusedSectionVars false
namespace Ripcalc
open AddrSpec LawfulIpAddr

/-! ## C94: the columns line up -/

theorem display4_lines {n : Net V4} (hn : WF n) {addr : Option V4} {t : Str} (h : Display4 n addr t) :
    AllLines (fun line => line ∈ remarks ∨ InColumns 21 35 line) t := by
  obtain ⟨b, hd, hc, rfl⟩ := h
  exact layout4.lines hn hd hc.2.2

theorem display6_lines {n : Net V6} (hn : WF n) {addr : Option V6} {t : Str} (h : Display6 n addr t) :
    AllLines (fun line => line ∈ remarks ∨ InColumns 46 135 line) t := by
  obtain ⟨b, hd, hc, rfl⟩ := h
  exact layout6.lines hn hd (.inl hc)

/-- Every line of the display of an IPv4 network is a remark or has its columns at the places 0, 11 and 32. -/
theorem C94_columns_v4 (rt : Runtime) (hc : rt.colorsEnabled = true) (n : Net V4) (hn : WF n) (addr : Option V4) (line : Str)
    (hl : IsLine (visible (outputIpv4Network rt n addr).out) line) : line ∈ remarks ∨ InColumns 21 35 line := by
  obtain ⟨t, h1, -, h2, -⟩ := C62_block_v4 rt hc n hn addr
  rw [h2] at hl
  exact display4_lines hn h1 line hl

/-- Every line of the display of an IPv6 network is a remark or has its columns at the places 0, 11 and 57. -/
theorem C94_columns_v6 (rt : Runtime) (hc : rt.colorsEnabled = true) (n : Net V6) (hn : WF n) (addr : Option V6) (line : Str)
    (hl : IsLine (visible (outputIpv6Network rt n addr).out) line) : line ∈ remarks ∨ InColumns 46 135 line := by
  obtain ⟨t, h1, -, h2, -⟩ := C62_block_v6 rt hc n hn addr
  rw [h2] at hl
  exact display6_lines hn h1 line hl

theorem pointwise_good {args : List Str} {specs : List NetworkSpec} (h : Pointwise (fun s x => parseNetspec s = .ok (.ok x)) args specs) :
    ∀ x ∈ specs, GoodSpec x := by
  induction h with
  | nil => simp
  | @cons s x ss xs h1 _ ih =>
    intro y hy
    rcases List.mem_cons.mp hy with rfl | hy
    · exact C33_parsed_good s _ h1
    · exact ih y hy

/-- The same for all that is printed for networks, where empty lines separate the displays. -/
theorem C94_show (rt : Runtime) (hc : rt.colorsEnabled = true) (prog : Str) (args : List Str) (line : Str)
    (hl : IsLine (visible (showNet rt (prog :: args)).out) line) :
    line = [] ∨ line ∈ remarks ∨ InColumns 21 35 line ∨ InColumns 46 135 line := by
  rcases showParseLoop_cases args with ⟨specs, h1, -⟩ | ⟨pre, s, post, e, h1, h2, h3, -⟩
  · obtain ⟨ts, h2, -, h3, -⟩ := C58_blocks rt hc prog args specs h1
    rw [h3] at hl
    have hgood := pointwise_good h1
    have hblock : ∀ x t, GoodSpec x → BlockFor x t → ∀ line, IsLine t line → line ∈ remarks ∨ InColumns 21 35 line ∨ InColumns 46 135 line := by
      intro x t hx ht line hl
      cases x with
      | ipv4 a n =>
        rcases display4_lines hx.2.1 ht line hl with h | h
        · exact .inl h
        · exact .inr (.inl h)
      | ipv6 a n =>
        rcases display6_lines hx.2.1 ht line hl with h | h
        · exact .inl h
        · exact .inr (.inr h)
    clear h1 h3
    induction h2 with
    | nil => exact (isLine_nil hl).elim
    | @cons x t xs ts h3 h4 ih =>
      cases ts with
      | nil =>
        rw [List.intercalate_singleton] at hl
        exact .inr (hblock x t (hgood x (by simp)) h3 line hl)
      | cons u ts =>
        rw [List.intercalate_cons_cons, List.append_assoc] at hl
        rcases isLine_sep hl with h | h | h
        · exact .inl h
        · exact .inr (hblock x t (hgood x (by simp)) h3 line h)
        · exact ih h fun y hy => hgood y (by simp [hy])
  · rw [h1, C58_error rt prog pre post s e h2 h3] at hl
    exact (isLine_nil hl).elim

/-- A line with columns, and one without. -/
example : InColumns 21 35 "Netmask:   255.255.255.254 = 31 11111111.11111111.11111111.11111110".toList :=
  ⟨"Netmask:".toList, "255.255.255.254 = 31".toList, "11111111.11111111.11111111.11111110".toList, 2, 0, by decide, by decide,
    by decide, by decide, ⟨'2', _, rfl, by decide⟩, ⟨"255.255.255.254 = 3".toList, '1', rfl, by decide⟩,
    .inl ⟨by decide, by decide, by decide⟩⟩
example : IsLine (visible (outputIpv4Network (evalRuntime .checked true)
    ⟨⟨0xC0000200#32⟩, ⟨0xFFFFFF00#32⟩, some 24⟩ none).out) "Hosts/Net: 254                  Class C".toList := by
  refine ⟨by decide, ["Network:   192.0.2.0/24         11000000.00000000.00000010.00000000\n",
    "HostMin:   192.0.2.1            11000000.00000000.00000010.00000001\n",
    "HostMax:   192.0.2.254          11000000.00000000.00000010.11111110\n",
    "Broadcast: 192.0.2.255          11000000.00000000.00000010.11111111"].flatMap String.toList ++ ['\n'],
    ['\n'], by decide +kernel, .inr ⟨_, rfl⟩, .inr ⟨[], rfl⟩⟩

/-! ## C95: the display can be read back -/

theorem classLabel_unique {m v : Nat} {t t' : Str} (h : IsClassLabel m v t) (h' : IsClassLabel m v t') : t = t' := by
  obtain ⟨h1, h2, h3⟩ := h
  obtain ⟨h1', h2', -⟩ := h'
  rcases h3 with h3 | h3
  · rw [h3, h2'.mpr (h2.mp h3)]
  · obtain ⟨e, he, rfl⟩ := List.mem_map.mp h3
    exact ((h1' e he).mpr ((h1 e he).mp rfl)).symm

theorem display4_unique {n : Net V4} {addr : Option V4} {t t' : Str} (h : Display4 n addr t) (h' : Display4 n addr t') : t = t' := by
  obtain ⟨b, hd, hc, rfl⟩ := h
  obtain ⟨b', hd', hc', rfl⟩ := h'
  rw [describes_unique hd hd' (classLabel_unique hc hc')]

theorem display6_unique {n : Net V6} {addr : Option V6} {t t' : Str} (h : Display6 n addr t) (h' : Display6 n addr t') : t = t' := by
  obtain ⟨b, hd, hc, rfl⟩ := h
  obtain ⟨b', hd', hc', rfl⟩ := h'
  rw [describes_unique hd hd' (hc.trans hc'.symm)]

theorem dot_mem_display4 (a : V4) : '.' ∈ IpAddr.display a := by
  obtain ⟨b0, b1, b2, b3, -, h⟩ := V4.display_eq a
  rw [show IpAddr.display a = a.display from rfl, h]
  simp

theorem dot_not_mem_display6 (a : V6) : '.' ∉ IpAddr.display a := fun h => by
  rcases display6_chars a _ h with h | h <;> revert h <;> decide

theorem read_block {x x' : NetworkSpec} (hx : GoodSpec x) (hx' : GoodSpec x') {t t' X X' : Str} (ht : BlockFor x t)
    (ht' : BlockFor x' t') (h : joined t ++ X = joined t' ++ X') : x = x' ∧ X = X' := by
  have key : x = x' := by
    cases x with
    | ipv4 a n =>
      obtain ⟨b, hd, -, rfl⟩ := ht
      cases x' with
      | ipv4 a' n' =>
        obtain ⟨b', hd', -, rfl⟩ := ht'
        obtain ⟨rfl, rfl⟩ := layout4.read_address hx.2.1 hx'.2.1 hd hd' ((contains_iff hx.2.1.hz a).mp hx.1)
          ((contains_iff hx'.2.1.hz a').mp hx'.1) h
        rfl
      | ipv6 a' n' =>
        obtain ⟨b', hd', -, rfl⟩ := ht'
        obtain ⟨r, e⟩ := layout4.joined_address hx.2.1 hd X
        obtain ⟨r', e'⟩ := layout6.joined_address hx'.2.1 hd' X'
        rw [e, e'] at h
        have := (sep_inj (layout4.blank a) (layout6.blank a') (List.append_cancel_left h)).1
        exact absurd (this ▸ dot_mem_display4 a) (dot_not_mem_display6 a')
    | ipv6 a n =>
      obtain ⟨b, hd, -, rfl⟩ := ht
      cases x' with
      | ipv4 a' n' =>
        obtain ⟨b', hd', -, rfl⟩ := ht'
        obtain ⟨r, e⟩ := layout6.joined_address hx.2.1 hd X
        obtain ⟨r', e'⟩ := layout4.joined_address hx'.2.1 hd' X'
        rw [e, e'] at h
        have := (sep_inj (layout6.blank a) (layout4.blank a') (List.append_cancel_left h)).1
        exact absurd (this ▸ dot_mem_display4 a') (dot_not_mem_display6 a)
      | ipv6 a' n' =>
        obtain ⟨b', hd', -, rfl⟩ := ht'
        obtain ⟨rfl, rfl⟩ := layout6.read_address hx.2.1 hx'.2.1 hd hd' ((contains_iff hx.2.1.hz a).mp hx.1)
          ((contains_iff hx'.2.1.hz a').mp hx'.1) h
        rfl
  subst key
  have htt : t = t' := by
    cases x with
    | ipv4 a n => exact display4_unique ht ht'
    | ipv6 a n => exact display6_unique ht ht'
  subst htt
  exact ⟨rfl, List.append_cancel_left h⟩

theorem joined_intercalate (ts : List Str) : joined (List.intercalate ['\n'] ts) = ts.flatMap joined := by
  induction ts with
  | nil => rfl
  | cons t ts ih =>
    cases ts with
    | nil => simp
    | cons u ts =>
      rw [List.intercalate_cons_cons, joined_append, joined_append, ih, show joined ['\n'] = [] from rfl]
      simp

theorem blockFor_ne {x : NetworkSpec} (hx : GoodSpec x) {t : Str} (ht : BlockFor x t) : joined t ≠ [] := by
  cases x with
  | ipv4 a n =>
    obtain ⟨b, hd, -, rfl⟩ := ht
    obtain ⟨r, e⟩ := layout4.joined_address hx.2.1 hd []
    intro h
    rw [h, List.nil_append] at e
    exact absurd e (by simp)
  | ipv6 a n =>
    obtain ⟨b, hd, -, rfl⟩ := ht
    obtain ⟨r, e⟩ := layout6.joined_address hx.2.1 hd []
    intro h
    rw [h, List.nil_append] at e
    exact absurd e (by simp)

theorem read_blocks {specs specs' : List NetworkSpec} {ts ts' : List Str} (hs : ∀ x ∈ specs, GoodSpec x) (hs' : ∀ x ∈ specs', GoodSpec x)
    (ht : Pointwise BlockFor specs ts) (ht' : Pointwise BlockFor specs' ts') (h : ts.flatMap joined = ts'.flatMap joined) :
    specs = specs' := by
  induction ht generalizing specs' ts' with
  | nil =>
    cases ht' with
    | nil => rfl
    | @cons x t xs ts h1 h2 =>
      rw [List.flatMap_nil, List.flatMap_cons] at h
      exact absurd (List.append_eq_nil_iff.mp h.symm).1 (blockFor_ne (hs' x (by simp)) h1)
  | @cons x t xs ts h1 h2 ih =>
    cases ht' with
    | nil =>
      rw [List.flatMap_nil, List.flatMap_cons] at h
      exact absurd (List.append_eq_nil_iff.mp h).1 (blockFor_ne (hs x (by simp)) h1)
    | @cons x' t' xs' ts' h1' h2' =>
      rw [List.flatMap_cons, List.flatMap_cons] at h
      obtain ⟨rfl, h3⟩ := read_block (hs x (by simp)) (hs' x' (by simp)) h1 h1' h
      rw [ih (fun y hy => hs y (by simp [hy])) (fun y hy => hs' y (by simp [hy])) h2' h3]

theorem joined_main (rt : Runtime) (args : List Str) :
    joined (visible (doMain rt args).out) = joined (visible (doMain (rt.withColors true) args).out) := by
  cases hc : rt.colorsEnabled with
  | true => rw [show rt.withColors true = rt from by rw [← hc, rt.withColors_self]]
  | false =>
    have : rt.withColors false = rt := by rw [← hc, rt.withColors_self]
    have h := (C61_uncolored_partial rt args).2.2.1
    rw [this] at h
    exact h

theorem not_mode {s : Str} {x : NetworkSpec} (h : parseNetspec s = .ok (.ok x)) :
    s ∉ ["-m", "--minimize", "-d", "--derange", "-s", "--split", "-r", "--resize", "-e", "--enumerate", "--color-test",
      "--help"].map String.toList := by
  intro hm
  have tab : ∀ s ∈ ["-m", "--minimize", "-d", "--derange", "-s", "--split", "-r", "--resize", "-e", "--enumerate", "--color-test",
      "--help"].map String.toList, (match parseNetspec s with | .ok (.ok _) => false | _ => true) = true := by decide +kernel
  have := tab s hm
  rw [h] at this
  cases this

/-- Two runs for lists of networks, with any profiles and any colour settings: if the outputs agree up to line ends, the same
addresses with the same networks were given, in the same order. -/
theorem C95_read_back (rt rt' : Runtime) (prog prog' : Str) (args args' : List Str) (specs specs' : List NetworkSpec)
    (hp : Pointwise (fun s x => parseNetspec s = .ok (.ok x)) args specs)
    (hp' : Pointwise (fun s x => parseNetspec s = .ok (.ok x)) args' specs')
    (h : (visible (doMain rt (prog :: args)).out).filter (· ≠ '\n') = (visible (doMain rt' (prog' :: args')).out).filter (· ≠ '\n')) :
    specs = specs' := by
  have key : ∀ (rt : Runtime) (prog : Str) (args : List Str) (specs : List NetworkSpec),
      Pointwise (fun s x => parseNetspec s = .ok (.ok x)) args specs → (∀ x ∈ specs, GoodSpec x) ∧
      ∃ ts, Pointwise BlockFor specs ts ∧ joined (visible (doMain rt (prog :: args)).out) = ts.flatMap joined := by
    intro rt prog args specs hp
    refine ⟨pointwise_good hp, ?_⟩
    cases hp with
    | nil =>
      rw [(C56_usage rt).1 [prog] (by simp)]
      exact ⟨[], .nil, rfl⟩
    | @cons s x ss xs h1 h2 =>
      obtain ⟨ts, h3, -, h4, -⟩ := C58_blocks (rt.withColors true) rfl prog (s :: ss) (x :: xs) (.cons h1 h2)
      refine ⟨ts, h3, ?_⟩
      rw [joined_main, (C56_dispatch (rt.withColors true) prog s ss).2.2.2.2.2.2 (not_mode h1), h4, joined_intercalate]
  obtain ⟨g, ts, h1, h2⟩ := key rt prog args specs hp
  obtain ⟨g', ts', h1', h2'⟩ := key rt' prog' args' specs' hp'
  refine read_blocks g g' h1 h1' ?_
  rw [← h2, ← h2']
  exact h

/-- The same from what is written to standard output, with its control sequences. -/
theorem C95_read_stdout (rt rt' : Runtime) (prog prog' : Str) (args args' : List Str) (specs specs' : List NetworkSpec)
    (hp : Pointwise (fun s x => parseNetspec s = .ok (.ok x)) args specs)
    (hp' : Pointwise (fun s x => parseNetspec s = .ok (.ok x)) args' specs')
    (h : stdoutText (doMain rt (prog :: args)).out = stdoutText (doMain rt' (prog' :: args')).out) : specs = specs' := by
  refine C95_read_back rt rt' prog prog' args args' specs specs' hp hp' ?_
  have h1 := C78_terminal rt (prog :: args)
  have h2 := C78_terminal rt' (prog' :: args')
  rw [h, h2] at h1
  have h3 := congrArg (List.map Prod.snd) (Prod.mk.inj h1).2
  simp only [List.map_map, Function.comp_def] at h3
  rw [visible, visible]
  exact congrArg _ h3.symm

/-- The same from the bytes that the process writes. -/
theorem C95_read_bytes (rt rt' : Runtime) (u u' : CharTable) (argv argv' : List (List Byte)) (prog prog' : Str) (args args' : List Str)
    (specs specs' : List NetworkSpec) (ha : ArgTexts argv (prog :: args)) (ha' : ArgTexts argv' (prog' :: args'))
    (hp : Pointwise (fun s x => parseNetspec s = .ok (.ok x)) args specs)
    (hp' : Pointwise (fun s x => parseNetspec s = .ok (.ok x)) args' specs')
    (h : (process rt u argv).stdout = (process rt' u' argv').stdout) : specs = specs' := by
  refine C95_read_stdout rt rt' prog prog' args args' specs specs' hp hp' ?_
  have h1 := (C89_runs rt u argv _ ha).1
  have h2 := (C89_runs rt' u' argv' _ ha').1
  rw [h] at h1
  exact (C89_text _ _).1 _ h1 h2

/-- Two spellings of the same networks, one run without colours: the outputs agree up to line ends. -/
example : Pointwise (fun s x => parseNetspec s = .ok (.ok x)) ["192.0.2.1/24".toList, "10.0.0.1/255.0.0.255".toList]
      [.ipv4 ⟨0xC0000201#32⟩ ⟨⟨0xC0000200#32⟩, ⟨0xFFFFFF00#32⟩, some 24⟩, .ipv4 ⟨0x0A000001#32⟩ ⟨⟨0x0A000001#32⟩, ⟨0xFF0000FF#32⟩, none⟩] ∧
    Pointwise (fun s x => parseNetspec s = .ok (.ok x)) ["192.0.2.1/255.255.255.0".toList, "10.0.0.1/-0.255.255.0".toList]
      [.ipv4 ⟨0xC0000201#32⟩ ⟨⟨0xC0000200#32⟩, ⟨0xFFFFFF00#32⟩, some 24⟩, .ipv4 ⟨0x0A000001#32⟩ ⟨⟨0x0A000001#32⟩, ⟨0xFF0000FF#32⟩, none⟩] ∧
    (visible (doMain (evalRuntime .checked true) ["ripcalc".toList, "192.0.2.1/24".toList, "10.0.0.1/255.0.0.255".toList]).out).filter
        (· ≠ '\n') =
      (visible (doMain (evalRuntime .wrapping false) ["r".toList, "192.0.2.1/255.255.255.0".toList, "10.0.0.1/-0.255.255.0".toList]).out).filter
        (· ≠ '\n') := by
  refine ⟨.cons (by decide +kernel) (.cons (by decide +kernel) .nil), .cons (by decide +kernel) (.cons (by decide +kernel) .nil), ?_⟩
  rw [(C56_dispatch _ _ _ _).2.2.2.2.2.2 (by decide), (C56_dispatch _ _ _ _).2.2.2.2.2.2 (by decide)]
  decide +kernel

/-! ### The networks displayed by `--resize` and `--split` -/

section generic
variable {A : Type} [IpAddr A] [AddrSpec A] [LawfulIpAddr A]

/-- A display of a network can be read off the beginning of a text without line ends. -/
def Readable (D : Net A → Str → Prop) : Prop :=
  ∀ n n' t t' X X', WF n → WF n' → D n t → D n' t' → joined t ++ X = joined t' ++ X' → n = n' ∧ X = X'

variable {D : Net A → Str → Prop} (hD : Readable D)
include hD

theorem read_subnets {i : Nat} {ns ns' : List (Net A)} {t t' : Str} (hw : ∀ n ∈ ns, WF n) (hw' : ∀ n ∈ ns', WF n)
    (h : SubnetBlocks D i ns t) (h' : SubnetBlocks D i ns' t') (he : joined t = joined t') : ns = ns' := by
  induction h generalizing ns' t' with
  | nil =>
    cases h' with
    | nil => rfl
    | cons h1 h2 => simp [joined] at he
  | @cons i n ns t u h1 h2 ih =>
    cases h' with
    | nil => simp [joined] at he
    | @cons _ n' ns' t' u' h1' h2' =>
      simp only [joined_append, List.append_assoc] at he
      have he := List.append_cancel_left (List.append_cancel_left (List.append_cancel_left he))
      obtain ⟨rfl, he⟩ := hD n n' t t' _ _ (hw n (by simp)) (hw' n' (by simp)) h1 h1' he
      rw [ih (fun n hn => hw n (by simp [hn])) (fun n hn => hw' n (by simp [hn])) h2' (List.append_cancel_left he)]

theorem read_resize {ns ns' : List (Net A)} {d d' : Ordering} {t t' : Str} (hw : ∀ n ∈ ns, WF n) (hw' : ∀ n ∈ ns', WF n)
    (hne : ns ≠ []) (hne' : ns' ≠ [])
    (h : ResizeBlocks D ns d t) (h' : ResizeBlocks D ns' d' t') (he : joined t = joined t') : ns = ns' ∧ d = d' := by
  have hsub : ∀ {ns : List (Net A)} {t : Str}, ns ≠ [] → SubnetBlocks D 1 ns t → ∃ r, joined t = 'S' :: 'u' :: 'b' :: r := by
    intro ns t hne h
    cases h with
    | nil => exact absurd rfl hne
    | cons h1 h2 => exact ⟨_, by simp only [joined_append, List.append_assoc]; rfl⟩
  have hsup : ∀ t : Str, ∃ r, joined ("Supernet:\n".toList ++ t ++ ['\n']) = 'S' :: 'u' :: 'p' :: r := fun t =>
    ⟨_, by simp only [joined_append, List.append_assoc]; rfl⟩
  have hsame : ∀ t : Str, ∃ r, joined ("Same-sized net:\n".toList ++ t ++ ['\n']) = 'S' :: 'a' :: r := fun t =>
    ⟨_, by simp only [joined_append, List.append_assoc]; rfl⟩
  cases h with
  | @super n t h1 =>
    obtain ⟨r, e⟩ := hsup t
    cases h' with
    | @super n' t' h1' =>
      simp only [joined_append, List.append_assoc] at he
      obtain ⟨rfl, -⟩ := hD n n' t t' _ _ (hw n (by simp)) (hw' n' (by simp)) h1 h1' (List.append_cancel_left he)
      exact ⟨rfl, rfl⟩
    | @same n' t' h1' => obtain ⟨r', e'⟩ := hsame t'; rw [e, e'] at he; simp at he
    | subnets h1' => obtain ⟨r', e'⟩ := hsub hne' h1'; rw [e, e'] at he; simp at he
  | @same n t h1 =>
    obtain ⟨r, e⟩ := hsame t
    cases h' with
    | @super n' t' h1' => obtain ⟨r', e'⟩ := hsup t'; rw [e, e'] at he; simp at he
    | @same n' t' h1' =>
      simp only [joined_append, List.append_assoc] at he
      obtain ⟨rfl, -⟩ := hD n n' t t' _ _ (hw n (by simp)) (hw' n' (by simp)) h1 h1' (List.append_cancel_left he)
      exact ⟨rfl, rfl⟩
    | subnets h1' => obtain ⟨r', e'⟩ := hsub hne' h1'; rw [e, e'] at he; simp at he
  | subnets h1 =>
    obtain ⟨r, e⟩ := hsub hne h1
    cases h' with
    | @super n' t' h1' => obtain ⟨r', e'⟩ := hsup t'; rw [e, e'] at he; simp at he
    | @same n' t' h1' => obtain ⟨r', e'⟩ := hsame t'; rw [e, e'] at he; simp at he
    | subnets h1' => exact ⟨read_subnets hD hw hw' h1 h1' he, rfl⟩

end generic

theorem readable4 : Readable (fun n => Display4 n none) := by
  intro n n' t t' X X' hn hn' h h' he
  have key : n = n' := by
    obtain ⟨b, hd, -, rfl⟩ := h
    obtain ⟨b', hd', -, rfl⟩ := h'
    exact layout4.read_network hn hn' hd hd' he
  subst key
  obtain rfl := display4_unique h h'
  exact ⟨rfl, List.append_cancel_left he⟩

theorem readable6 : Readable (fun n => Display6 n none) := by
  intro n n' t t' X X' hn hn' h h' he
  have key : n = n' := by
    obtain ⟨b, hd, -, rfl⟩ := h
    obtain ⟨b', hd', -, rfl⟩ := h'
    exact layout6.read_network hn hn' hd hd' he
  subst key
  obtain rfl := display6_unique h h'
  exact ⟨rfl, List.append_cancel_left he⟩

/-- The beginning of the display of a network, up to the blank behind it. -/
theorem read_start4 {n : Net V4} (hn : WF n) {t : Str} (h : Display4 n none t) (X : Str) :
    ∃ w r, '.' ∈ w ∧ ' ' ∉ w ∧ joined t ++ X = padRight 11 "Network:".toList ++ (w ++ ' ' :: r) := by
  obtain ⟨b, hd, -, rfl⟩ := h
  have ht := layout4.netText hn
  refine ⟨netText IpAddr.display n, _, ?_, ht.2.2.2, by rw [layout4.joined_network hn hd X, pad_split ht.1]⟩
  rw [netText]
  split
  · simp [dot_mem_display4]
  · exact dot_mem_display4 _

theorem read_start6 {n : Net V6} (hn : WF n) {t : Str} (h : Display6 n none t) (X : Str) :
    ∃ w r, '.' ∉ w ∧ ' ' ∉ w ∧ joined t ++ X = padRight 11 "Network:".toList ++ (w ++ ' ' :: r) := by
  obtain ⟨b, hd, -, rfl⟩ := h
  have ht := layout6.netText hn
  refine ⟨netText IpAddr.display n, _, ?_, ht.2.2.2, by rw [layout6.joined_network hn hd X, pad_split ht.1]⟩
  rw [netText]
  split
  · rename_i p _
    have h10 : '.' ∉ showNat 10 p := fun h => by have := showNat_mem (by omega) (by omega) h; revert this; decide
    simp [dot_not_mem_display6, h10]
  · exact dot_not_mem_display6 _

theorem read_families {n : Net V4} {n' : Net V6} (hn : WF n) (hn' : WF n') {t t' X X' : Str} (h : Display4 n none t)
    (h' : Display6 n' none t') : joined t ++ X ≠ joined t' ++ X' := by
  intro he
  obtain ⟨w, r, h1, h2, h3⟩ := read_start4 hn h X
  obtain ⟨w', r', h1', h2', h3'⟩ := read_start6 hn' h' X'
  rw [h3, h3'] at he
  obtain ⟨rfl, -⟩ := sep_inj h2 h2' (List.append_cancel_left he)
  exact h1' h1

section generic
variable {A : Type} [IpAddr A] [AddrSpec A] [LawfulIpAddr A] {D : Net A → Str → Prop} (hD : Readable D)
include hD

theorem read_resize_output {rt rt' : Runtime} {n n' : Net A} (hn : WF n) (hn' : WF n') {m m' : A} {ns ns' : List (Net A)} {d d' : Ordering}
    {t t' u u' : Str} (hr : resizeNetwork rt.profile n m = .ok (ns, d)) (hr' : resizeNetwork rt'.profile n' m' = .ok (ns', d'))
    (ht : D n t) (ht' : D n' t') (hu : ResizeBlocks D ns d u) (hu' : ResizeBlocks D ns' d' u')
    (h : joined ("Original network:\n".toList ++ t ++ ['\n'] ++ u) = joined ("Original network:\n".toList ++ t' ++ ['\n'] ++ u')) :
    n = n' ∧ m = m' := by
  simp only [joined_append, List.append_assoc] at h
  obtain ⟨rfl, h1⟩ := hD n n' t t' _ _ hn hn' ht ht' (List.append_cancel_left h)
  have key : ∀ {rt : Runtime} {m : A} {ns : List (Net A)} {d : Ordering}, resizeNetwork rt.profile n m = .ok (ns, d) →
      ns ≠ [] ∧ ∀ o ∈ ns, WF o ∧ o.subnetMask = m := by
    intro rt m ns d hr
    obtain ⟨ns', h1, h2, h3, -⟩ := C50_result rt.profile n m hn
    rw [h1] at hr
    obtain ⟨rfl, -⟩ := Prod.mk.inj (Exec.ok.inj hr)
    refine ⟨fun e => ?_, h3⟩
    rw [e] at h2
    have := Nat.two_pow_pos (hostBitCount n.subnetMask - hostBitCount m)
    simp only [List.length_nil] at h2
    omega
  obtain ⟨k1, k2⟩ := key hr
  obtain ⟨k1', k2'⟩ := key hr'
  obtain ⟨rfl, -⟩ := read_resize hD (fun o ho => (k2 o ho).1) (fun o ho => (k2' o ho).1) k1 k1' hu hu' (List.append_cancel_left h1)
  cases ns with
  | nil => exact absurd rfl k1
  | cons o ns => exact ⟨rfl, by rw [← (k2 o (by simp)).2, (k2' o (by simp)).2]⟩

/-- The blocks of a split, followed by something that is not a block. -/
theorem read_split {hcs hcs' : List Int} {ns ns' : List (Net A)} {u u' Y Y' : Str} (hw : ∀ n ∈ ns, WF n) (hw' : ∀ n ∈ ns', WF n)
    (hpos : ∀ c ∈ hcs, 0 ≤ c) (hpos' : ∀ c ∈ hcs', 0 ≤ c)
    (h : SplitBlocks D hcs ns u) (h' : SplitBlocks D hcs' ns' u') (hY : ∀ r, Y ≠ 'S' :: r) (hY' : ∀ r, Y' ≠ 'S' :: r)
    (he : joined u ++ Y = joined u' ++ Y') : hcs = hcs' := by
  have hhead : ∀ (c : Int) (t u : Str), ∃ r, joined ("Subnet for ".toList ++ showInt c ++ " hosts:\n".toList ++ t ++ ['\n'] ++ u) = 'S' :: r :=
    fun c t u => ⟨_, by simp only [joined_append, List.append_assoc]; rfl⟩
  induction h generalizing hcs' ns' u' with
  | nil =>
    cases h' with
    | nil => rfl
    | @cons c cs n ns t u h1 h2 =>
      obtain ⟨r, e⟩ := hhead c t u
      rw [e] at he
      exact absurd he (hY _)
  | @cons c cs n ns t u h1 h2 ih =>
    cases h' with
    | nil =>
      obtain ⟨r, e⟩ := hhead c t u
      rw [e] at he
      exact absurd he.symm (hY' _)
    | @cons c' cs' n' ns' t' u' h1' h2' =>
      simp only [joined_append, List.append_assoc] at he
      obtain ⟨k, rfl⟩ := Int.eq_ofNat_of_zero_le (hpos c (by simp))
      obtain ⟨k', rfl⟩ := Int.eq_ofNat_of_zero_le (hpos' c' (by simp))
      have hs : ∀ k : Nat, joined (showInt (k : Int)) = showNat 10 k := fun k => joined_plain (plain_showNat k)
      rw [hs, hs] at he
      have hh : joined " hosts:\n".toList = ' ' :: "hosts:".toList := rfl
      rw [hh] at he
      obtain ⟨e1, e2⟩ := sep_inj (showNat_blank k) (showNat_blank k') (List.append_cancel_left he)
      obtain rfl := showNat_inj (by omega) (by omega) e1
      obtain ⟨rfl, he⟩ := hD n n' t t' _ _ (hw n (by simp)) (hw' n' (by simp)) h1 h1' (List.append_cancel_left e2)
      rw [ih (fun n hn => hw n (by simp [hn])) (fun n hn => hw' n (by simp [hn])) (fun c hc => hpos c (by simp [hc]))
        (fun c hc => hpos' c (by simp [hc])) h2' (List.append_cancel_left he)]

end generic

theorem doMain_resize (rt : Runtime) {prog mode : Str} (hm : mode = "-r".toList ∨ mode = "--resize".toList) (rest : List Str) :
    doMain rt (prog :: mode :: rest) = resize rt (prog :: mode :: rest) := (C56_dispatch rt prog mode rest).2.2.2.1 hm

/-- Two runs that resize IPv4 networks: the outputs tell the original network and the target mask. -/
theorem C95_resize_v4 (rt rt' : Runtime) (prog prog' mode mode' s s' k k' : Str) (a a' : V4) (n n' : Net V4) (m m' : V4)
    (hmode : mode = "-r".toList ∨ mode = "--resize".toList) (hmode' : mode' = "-r".toList ∨ mode' = "--resize".toList)
    (hp : parseNetspec s = .ok (.ok (.ipv4 a n))) (hp' : parseNetspec s' = .ok (.ok (.ipv4 a' n')))
    (hm : resizeMask4 k = .ok (.ok m)) (hm' : resizeMask4 k' = .ok (.ok m'))
    (h : (visible (doMain rt [prog, mode, s, k]).out).filter (· ≠ '\n') =
      (visible (doMain rt' [prog', mode', s', k']).out).filter (· ≠ '\n')) : n = n' ∧ m = m' := by
  obtain ⟨ns, d, t, u, h1, h2, h3, -, h4, -⟩ := C64_resize_v4 (rt.withColors true) rfl prog mode s k a n hp m hm
  obtain ⟨ns', d', t', u', h1', h2', h3', -, h4', -⟩ := C64_resize_v4 (rt'.withColors true) rfl prog' mode' s' k' a' n' hp' m' hm'
  change joined _ = joined _ at h
  rw [joined_main rt, joined_main rt', doMain_resize _ hmode, doMain_resize _ hmode', h4, h4'] at h
  exact read_resize_output readable4 (C33_parsed_good _ _ hp).2.1 (C33_parsed_good _ _ hp').2.1 h1 h1' h2 h2' h3 h3' h

theorem C95_resize_v6 (rt rt' : Runtime) (prog prog' mode mode' s s' k k' : Str) (a a' : V6) (n n' : Net V6) (m m' : V6)
    (hmode : mode = "-r".toList ∨ mode = "--resize".toList) (hmode' : mode' = "-r".toList ∨ mode' = "--resize".toList)
    (hp : parseNetspec s = .ok (.ok (.ipv6 a n))) (hp' : parseNetspec s' = .ok (.ok (.ipv6 a' n')))
    (hm : resizeMask6 k = .ok (.ok m)) (hm' : resizeMask6 k' = .ok (.ok m'))
    (h : (visible (doMain rt [prog, mode, s, k]).out).filter (· ≠ '\n') =
      (visible (doMain rt' [prog', mode', s', k']).out).filter (· ≠ '\n')) : n = n' ∧ m = m' := by
  obtain ⟨ns, d, t, u, h1, h2, h3, -, h4, -⟩ := C64_resize_v6 (rt.withColors true) rfl prog mode s k a n hp m hm
  obtain ⟨ns', d', t', u', h1', h2', h3', -, h4', -⟩ := C64_resize_v6 (rt'.withColors true) rfl prog' mode' s' k' a' n' hp' m' hm'
  change joined _ = joined _ at h
  rw [joined_main rt, joined_main rt', doMain_resize _ hmode, doMain_resize _ hmode', h4, h4'] at h
  exact read_resize_output readable6 (C33_parsed_good _ _ hp).2.1 (C33_parsed_good _ _ hp').2.1 h1 h1' h2 h2' h3 h3' h

/-- The output also tells the family. -/
theorem C95_resize_families (rt rt' : Runtime) (prog prog' mode mode' s s' k k' : Str) (a : V4) (a' : V6) (n : Net V4) (n' : Net V6)
    (m : V4) (m' : V6)
    (hmode : mode = "-r".toList ∨ mode = "--resize".toList) (hmode' : mode' = "-r".toList ∨ mode' = "--resize".toList)
    (hp : parseNetspec s = .ok (.ok (.ipv4 a n))) (hp' : parseNetspec s' = .ok (.ok (.ipv6 a' n')))
    (hm : resizeMask4 k = .ok (.ok m)) (hm' : resizeMask6 k' = .ok (.ok m')) :
    (visible (doMain rt [prog, mode, s, k]).out).filter (· ≠ '\n') ≠
      (visible (doMain rt' [prog', mode', s', k']).out).filter (· ≠ '\n') := by
  intro h
  obtain ⟨ns, d, t, u, h1, h2, h3, -, h4, -⟩ := C64_resize_v4 (rt.withColors true) rfl prog mode s k a n hp m hm
  obtain ⟨ns', d', t', u', h1', h2', h3', -, h4', -⟩ := C64_resize_v6 (rt'.withColors true) rfl prog' mode' s' k' a' n' hp' m' hm'
  change joined _ = joined _ at h
  rw [joined_main rt, joined_main rt', doMain_resize _ hmode, doMain_resize _ hmode', h4, h4'] at h
  simp only [joined_append, List.append_assoc] at h
  exact read_families (C33_parsed_good _ _ hp).2.1 (C33_parsed_good _ _ hp').2.1 h2 h2' (List.append_cancel_left h)

section generic
variable {A : Type} [IpAddr A] [AddrSpec A] [LawfulIpAddr A]

/-- The text of a split that ends normally. -/
def SplitText (D : Net A → Str → Prop) (rt : Runtime) (n : Net A) (hcs : List Int) (txt : Str) : Prop :=
  (splitSubnet rt n hcs = .ok none ∧ ∃ t, D n t ∧
    txt = "Subnet to split:\n".toList ++ t ++ ['\n'] ++ "Not enough addresses available for this split.\n".toList) ∨
  ∃ ns t u tail, splitSubnet rt n hcs = .ok (some ns) ∧ (∀ o ∈ ns, WF o) ∧ D n t ∧ SplitBlocks D hcs ns u ∧
    txt = "Subnet to split:\n".toList ++ t ++ ['\n'] ++ u ++ tail ∧ ∀ r, joined tail ≠ 'S' :: r

theorem splitText_of {D : Net A → Str → Prop} {rt : Runtime} {n : Net A} {hcs : List Int} {x : Cli Nat} {top : Nat}
    (h : (splitSubnet rt n hcs = .ok none ∧ ∃ t, D n t ∧ Shows x 1
      ("Subnet to split:\n".toList ++ t ++ ['\n'] ++ "Not enough addresses available for this split.\n".toList)) ∨
    ∃ ns mx t u, splitSubnet rt n hcs = .ok (some ns) ∧ IsGreatestUsed ns mx ∧ D n t ∧
      SplitBlocks D hcs ns u ∧
      (¬ Member n mx → Shows x 0
        ("Subnet to split:\n".toList ++ t ++ ['\n'] ++ u ++ "Network is too small\n".toList)) ∧
      (Member n mx → (∀ a, Member n a → val a ≠ top) → ∃ us : List (Net A),
        Shows x 0
          ("Subnet to split:\n".toList ++ t ++ ['\n'] ++ u ++ "Unused networks:\n".toList ++ netLines us) ∧ ListsRest n mx us) ∧
      (Member n mx → (∃ a, Member n a ∧ val a = top) → Aborts x .unwrapNone
        ("Subnet to split:\n".toList ++ t ++ ['\n'] ++ u ++ "Unused networks:\n".toList))) {c : Nat} (hok : x.res = .ok c) :
    SplitText D rt n hcs (visible x.out) := by
  rcases h with ⟨h1, t, h2, -, h3, -⟩ | ⟨ns, mx, t, u, h1, -, h2, h3, h4, h5, h6⟩
  · exact .inl ⟨h1, t, h2, h3⟩
  · have hw : ∀ o ∈ ns, WF o := by
      obtain ⟨r, hr, hs⟩ := C51_requests rt n hcs
      rw [h1] at hr
      obtain ⟨hl, hi⟩ := hs ns (Exec.ok.inj hr).symm
      intro o ho
      obtain ⟨i, hlt, rfl⟩ := List.mem_iff_getElem.mp ho
      obtain ⟨q, hq, -⟩ := hi i (hcs[i]'(by omega)) ns[i] (List.getElem?_eq_getElem (by omega)) (List.getElem?_eq_getElem hlt)
      exact hq.1
    by_cases hm : Member n mx
    · by_cases ht : ∃ a, Member n a ∧ val a = top
      · rw [(h6 hm ht).1] at hok; cases hok
      · obtain ⟨us, ⟨-, h7, -⟩, -⟩ := h5 hm fun a ha e => ht ⟨a, ha, e⟩
        refine .inr ⟨ns, t, u, "Unused networks:\n".toList ++ netLines us, h1, hw, h2, h3, by rw [h7]; simp only [List.append_assoc], ?_⟩
        intro r e
        rw [joined_append] at e
        exact absurd (List.cons.inj e).1 (by decide)
    · obtain ⟨-, h7, -⟩ := h4 hm
      exact .inr ⟨ns, t, u, _, h1, hw, h2, h3, h7, fun r e => absurd (List.cons.inj e).1 (by decide)⟩

theorem splitCode_of {D : Net A → Str → Prop} {rt : Runtime} {n : Net A} {hcs : List Int} {x : Cli Nat} {top : Nat}
    (h : (splitSubnet rt n hcs = .ok none ∧ ∃ t, D n t ∧ Shows x 1
      ("Subnet to split:\n".toList ++ t ++ ['\n'] ++ "Not enough addresses available for this split.\n".toList)) ∨
    ∃ ns mx t u, splitSubnet rt n hcs = .ok (some ns) ∧ IsGreatestUsed ns mx ∧ D n t ∧
      SplitBlocks D hcs ns u ∧
      (¬ Member n mx → Shows x 0
        ("Subnet to split:\n".toList ++ t ++ ['\n'] ++ u ++ "Network is too small\n".toList)) ∧
      (Member n mx → (∀ a, Member n a → val a ≠ top) → ∃ us : List (Net A),
        Shows x 0
          ("Subnet to split:\n".toList ++ t ++ ['\n'] ++ u ++ "Unused networks:\n".toList ++ netLines us) ∧ ListsRest n mx us) ∧
      (Member n mx → (∃ a, Member n a ∧ val a = top) → Aborts x .unwrapNone
        ("Subnet to split:\n".toList ++ t ++ ['\n'] ++ u ++ "Unused networks:\n".toList))) {c : Nat} (hok : x.res = .ok c) :
    (splitSubnet rt n hcs = .ok none → c = 1) ∧ (splitSubnet rt n hcs ≠ .ok none → c = 0) := by
  rcases h with ⟨h1, t, h2, h3, -⟩ | ⟨ns, mx, t, u, h1, -, h2, h3, h4, h5, h6⟩
  · rw [h3] at hok
    exact ⟨fun _ => (Exec.ok.inj hok).symm, fun h => absurd h1 h⟩
  · refine ⟨fun h => absurd (h1.symm.trans h) (by simp), fun _ => ?_⟩
    by_cases hm : Member n mx
    · by_cases ht : ∃ a, Member n a ∧ val a = top
      · rw [(h6 hm ht).1] at hok; cases hok
      · obtain ⟨us, ⟨h7, -⟩, -⟩ := h5 hm fun a ha e => ht ⟨a, ha, e⟩
        rw [h7] at hok
        exact (Exec.ok.inj hok).symm
    · obtain ⟨h7, -⟩ := h4 hm
      rw [h7] at hok
      exact (Exec.ok.inj hok).symm

theorem read_splitText {D : Net A → Str → Prop} (hD : Readable D) {rt rt' : Runtime} {n n' : Net A} (hn : WF n) (hn' : WF n')
    {hcs hcs' : List Int} (hpos : ∀ c ∈ hcs, 0 ≤ c) (hpos' : ∀ c ∈ hcs', 0 ≤ c) (hne : hcs ≠ []) (hne' : hcs' ≠ []) {x x' : Str}
    (h : SplitText D rt n hcs x) (h' : SplitText D rt' n' hcs' x') (he : joined x = joined x') :
    n = n' ∧ (splitSubnet rt n hcs = .ok none ↔ splitSubnet rt' n' hcs' = .ok none) ∧ (splitSubnet rt n hcs ≠ .ok none → hcs = hcs') := by
  have hhead : ∀ {hcs : List Int} {ns : List (Net A)} {u : Str} (Y : Str), hcs ≠ [] → SplitBlocks D hcs ns u → ∃ r, joined u ++ Y = 'S' :: r := by
    intro hcs ns u Y hne h
    cases h with
    | nil => exact absurd rfl hne
    | cons h1 h2 => exact ⟨_, by simp only [joined_append, List.append_assoc]; rfl⟩
  rcases h with ⟨h1, t, h2, rfl⟩ | ⟨ns, t, u, tail, h1, hw, h2, h3, rfl, h4⟩ <;>
    rcases h' with ⟨h1', t', h2', rfl⟩ | ⟨ns', t', u', tail', h1', hw', h2', h3', rfl, h4'⟩ <;>
    simp only [joined_append, List.append_assoc] at he <;>
    obtain ⟨rfl, he⟩ := hD n n' t t' _ _ hn hn' h2 h2' (List.append_cancel_left he) <;>
    have he := List.append_cancel_left he
  · exact ⟨rfl, ⟨fun _ => h1', fun _ => h1⟩, fun h => absurd h1 h⟩
  · obtain ⟨r, e⟩ := hhead (joined tail') hne' h3'
    rw [e] at he
    exact absurd (List.cons.inj he).1 (by decide)
  · obtain ⟨r, e⟩ := hhead (joined tail) hne h3
    rw [e] at he
    exact absurd (List.cons.inj he).1 (by decide)
  · refine ⟨rfl, ?_, fun _ => read_split hD hw hw' hpos hpos' h3 h3' h4 h4' he⟩
    rw [h1, h1']
    exact ⟨fun h => absurd h (by simp), fun h => absurd h (by simp)⟩

end generic

theorem doMain_split (rt : Runtime) {prog mode : Str} (hm : mode = "-s".toList ∨ mode = "--split".toList) (rest : List Str) :
    doMain rt (prog :: mode :: rest) = split rt (prog :: mode :: rest) := (C56_dispatch rt prog mode rest).2.2.1 hm

theorem res_main (rt : Runtime) (args : List Str) : (doMain rt args).res = (doMain (rt.withColors true) args).res := by
  cases hc : rt.colorsEnabled with
  | true => rw [show rt.withColors true = rt from by rw [← hc, rt.withColors_self]]
  | false =>
    have : rt.withColors false = rt := by rw [← hc, rt.withColors_self]
    have h := (C61_uncolored_partial rt args).1
    rw [this] at h
    exact h

/-- Two runs that split IPv4 networks and end normally: the outputs tell the network, whether it could be split, and if it could,
the numbers of hosts. -/
theorem C95_split_v4 (rt rt' : Runtime) (prog prog' mode mode' s s' : Str) (counts counts' : List Str) (hne : counts ≠ [])
    (hne' : counts' ≠ []) (hcs hcs' : List Int) (hc : Counts counts hcs) (hc' : Counts counts' hcs') (a a' : V4) (n n' : Net V4)
    (hmode : mode = "-s".toList ∨ mode = "--split".toList) (hmode' : mode' = "-s".toList ∨ mode' = "--split".toList)
    (hp : parseNetspec s = .ok (.ok (.ipv4 a n))) (hp' : parseNetspec s' = .ok (.ok (.ipv4 a' n'))) (c c' : Nat)
    (hok : (doMain rt (prog :: mode :: s :: counts)).res = .ok c) (hok' : (doMain rt' (prog' :: mode' :: s' :: counts')).res = .ok c')
    (h : (visible (doMain rt (prog :: mode :: s :: counts)).out).filter (· ≠ '\n') =
      (visible (doMain rt' (prog' :: mode' :: s' :: counts')).out).filter (· ≠ '\n')) :
    n = n' ∧ c = c' ∧ (c = 0 → hcs = hcs') := by
  rw [res_main, doMain_split _ hmode] at hok
  rw [res_main, doMain_split _ hmode'] at hok'
  change joined _ = joined _ at h
  rw [joined_main rt, joined_main rt', doMain_split _ hmode, doMain_split _ hmode'] at h
  have k := C65_split_v4 (rt.withColors true) rfl prog mode s counts hne hcs hc a n hp
  have k' := C65_split_v4 (rt'.withColors true) rfl prog' mode' s' counts' hne' hcs' hc' a' n' hp'
  have r := read_splitText readable4 (C33_parsed_good _ _ hp).2.1 (C33_parsed_good _ _ hp').2.1 hc.nonneg hc'.nonneg (hc.ne_nil hne)
    (hc'.ne_nil hne') (splitText_of (D := fun n => Display4 n none) k hok)
    (splitText_of (D := fun n => Display4 n none) k' hok') h
  have hcode := splitCode_of (D := fun n => Display4 n none) k hok
  have hcode' := splitCode_of (D := fun n => Display4 n none) k' hok'
  refine ⟨r.1, ?_, fun h0 => r.2.2 fun e => ?_⟩
  · by_cases e : splitSubnet (rt.withColors true) n hcs = .ok none
    · rw [hcode.1 e, hcode'.1 (r.2.1.mp e)]
    · rw [hcode.2 e, hcode'.2 fun e' => e (r.2.1.mpr e')]
  · rw [hcode.1 e] at h0; cases h0

theorem C95_split_v6 (rt rt' : Runtime) (prog prog' mode mode' s s' : Str) (counts counts' : List Str) (hne : counts ≠ [])
    (hne' : counts' ≠ []) (hcs hcs' : List Int) (hc : Counts counts hcs) (hc' : Counts counts' hcs') (a a' : V6) (n n' : Net V6)
    (hmode : mode = "-s".toList ∨ mode = "--split".toList) (hmode' : mode' = "-s".toList ∨ mode' = "--split".toList)
    (hp : parseNetspec s = .ok (.ok (.ipv6 a n))) (hp' : parseNetspec s' = .ok (.ok (.ipv6 a' n'))) (c c' : Nat)
    (hok : (doMain rt (prog :: mode :: s :: counts)).res = .ok c) (hok' : (doMain rt' (prog' :: mode' :: s' :: counts')).res = .ok c')
    (h : (visible (doMain rt (prog :: mode :: s :: counts)).out).filter (· ≠ '\n') =
      (visible (doMain rt' (prog' :: mode' :: s' :: counts')).out).filter (· ≠ '\n')) :
    n = n' ∧ c = c' ∧ (c = 0 → hcs = hcs') := by
  rw [res_main, doMain_split _ hmode] at hok
  rw [res_main, doMain_split _ hmode'] at hok'
  change joined _ = joined _ at h
  rw [joined_main rt, joined_main rt', doMain_split _ hmode, doMain_split _ hmode'] at h
  have k := C65_split_v6 (rt.withColors true) rfl prog mode s counts hne hcs hc a n hp
  have k' := C65_split_v6 (rt'.withColors true) rfl prog' mode' s' counts' hne' hcs' hc' a' n' hp'
  have r := read_splitText readable6 (C33_parsed_good _ _ hp).2.1 (C33_parsed_good _ _ hp').2.1 hc.nonneg hc'.nonneg (hc.ne_nil hne)
    (hc'.ne_nil hne') (splitText_of (D := fun n => Display6 n none) k hok)
    (splitText_of (D := fun n => Display6 n none) k' hok') h
  have hcode := splitCode_of (D := fun n => Display6 n none) k hok
  have hcode' := splitCode_of (D := fun n => Display6 n none) k' hok'
  refine ⟨r.1, ?_, fun h0 => r.2.2 fun e => ?_⟩
  · by_cases e : splitSubnet (rt.withColors true) n hcs = .ok none
    · rw [hcode.1 e, hcode'.1 (r.2.1.mp e)]
    · rw [hcode.2 e, hcode'.2 fun e' => e (r.2.1.mpr e')]
  · rw [hcode.1 e] at h0; cases h0

/-- Two spellings of a target mask: the outputs agree. -/
example : parseNetspec "192.0.2.0/24".toList = .ok (.ok (.ipv4 ⟨0xC0000200#32⟩ ⟨⟨0xC0000200#32⟩, ⟨0xFFFFFF00#32⟩, some 24⟩)) ∧
    resizeMask4 "25".toList = .ok (.ok ⟨0xFFFFFF80#32⟩) ∧ resizeMask4 "255.255.255.128".toList = .ok (.ok ⟨0xFFFFFF80#32⟩) ∧
    ∀ rt : Runtime, doMain rt ["ripcalc".toList, "-r".toList, "192.0.2.0/24".toList, "25".toList] =
      doMain rt ["ripcalc".toList, "--resize".toList, "192.0.2.0/24".toList, "255.255.255.128".toList] := by
  have h1 : parseNetspec "192.0.2.0/24".toList = .ok (.ok (.ipv4 ⟨0xC0000200#32⟩ ⟨⟨0xC0000200#32⟩, ⟨0xFFFFFF00#32⟩, some 24⟩)) := by
    decide +kernel
  have h2 : resizeMask4 "25".toList = .ok (.ok ⟨0xFFFFFF80#32⟩) := by decide +kernel
  have h3 : resizeMask4 "255.255.255.128".toList = .ok (.ok ⟨0xFFFFFF80#32⟩) := by decide +kernel
  refine ⟨h1, h2, h3, fun rt => ?_⟩
  rw [doMain_resize _ (.inl rfl), doMain_resize _ (.inr rfl), resize, resize, if_neg (by simp), if_neg (by simp)]
  simp only [List.getD_cons_succ, List.getD_cons_zero, h1, h2, h3, Cli.lift_ok_bind]

/-- The hypotheses for a run that splits a network. -/
example (rt : Runtime) : Counts ["20".toList, "100".toList] [20, 100] ∧
    parseNetspec "192.0.2.0/24".toList = .ok (.ok (.ipv4 ⟨0xC0000200#32⟩ ⟨⟨0xC0000200#32⟩, ⟨0xFFFFFF00#32⟩, some 24⟩)) ∧
    ∃ c, (doMain rt ["ripcalc".toList, "-s".toList, "192.0.2.0/24".toList, "20".toList, "100".toList]).res = .ok c := by
  have hc : Counts ["20".toList, "100".toList] [20, 100] :=
    counts_of [("20".toList, 20), ("100".toList, 100)] (by decide +kernel)
  have h1 : parseNetspec "192.0.2.0/24".toList = .ok (.ok (.ipv4 ⟨0xC0000200#32⟩ ⟨⟨0xC0000200#32⟩, ⟨0xFFFFFF00#32⟩, some 24⟩)) := by
    decide +kernel
  refine ⟨hc, h1, ?_⟩
  rw [res_main, doMain_split _ (.inl rfl)]
  have htop : ∀ a : V4, Member (⟨⟨0xC0000200#32⟩, ⟨0xFFFFFF00#32⟩, some 24⟩ : Net V4) a → val a ≠ 2 ^ 32 - 1 := by
    intro a ha e
    have := ha 29 (by decide) (by decide)
    rw [e] at this
    revert this
    decide +kernel
  rcases C65_split_v4 (rt.withColors true) rfl "ripcalc".toList "-s".toList "192.0.2.0/24".toList ["20".toList, "100".toList] (by simp)
    [20, 100] hc _ _ h1 with ⟨-, t, -, h, -⟩ | ⟨ns, mx, t, u, -, -, -, -, h4, h5, -⟩
  · exact ⟨_, h⟩
  · by_cases hm : Member (⟨⟨0xC0000200#32⟩, ⟨0xFFFFFF00#32⟩, some 24⟩ : Net V4) mx
    · obtain ⟨us, ⟨h, -⟩, -⟩ := h5 hm htop
      exact ⟨_, h⟩
    · exact ⟨_, (h4 hm).1⟩

end Ripcalc
