import Verif.Props.Text
import Verif.Props.Zeros
/-!
# C13: what the full text would be

`C13_counterexample` compares the result of `to_full_string` with `fullText`.  Here `fullText` is shown to be the one text that fits
the description in the property, and the bound of the loop to be the only fault: with a loop over all chunks, the text is right.
-/
namespace Ripcalc
open AddrSpec

/-- Eight groups of four lower-case digits, separated by colons. -/
def FullText (a : V6) (t : Str) : Prop :=
  ∃ hs, Pointwise (fun h v => Numeral 16 h v ∧ h.length = 4 ∧ ∀ c ∈ h, c ∈ lowerDigits) hs (chunkVals a) ∧ t = List.intercalate [':'] hs

theorem lowerDigits_is {d : Nat} (h : d < 16) : DigitIs (lowerDigits.getD d '0') d := by
  left
  rw [List.getD_eq_getElem?_getD, List.getElem?_eq_getElem (by exact h)]
  rfl

theorem lowerDigits_mem (d : Nat) : lowerDigits.getD d '0' ∈ lowerDigits := by
  rw [List.getD_eq_getElem?_getD]
  rcases Nat.lt_or_ge d lowerDigits.length with h | h
  · rw [List.getElem?_eq_getElem h]
    exact List.getElem_mem h
  · rw [List.getElem?_eq_none h]
    exact .head _

theorem fourDigits {v : Nat} (hv : v < 65536) :
    Numeral 16 ([v / 4096 % 16, v / 256 % 16, v / 16 % 16, v % 16].map (fun d => lowerDigits.getD d '0')) v := by
  refine ⟨by simp, [v / 4096 % 16, v / 256 % 16, v / 16 % 16, v % 16], ?_, ?_⟩
  · have h : ∀ n, n % 16 < 16 := fun n => Nat.mod_lt n (by decide)
    exact .cons (lowerDigits_is (h _)) (h _) (.cons (lowerDigits_is (h _)) (h _) (.cons (lowerDigits_is (h _)) (h _)
      (.cons (lowerDigits_is (h _)) (h _) .nil)))
  · simp only [bigEndian, List.foldl]
    omega

theorem chunkVals_lt (a : V6) : ∀ v ∈ chunkVals a, v < 65536 := by
  intro v hv
  simp only [chunkVals, List.mem_map] at hv
  obtain ⟨i, -, rfl⟩ := hv
  exact Nat.mod_lt _ (by decide)

theorem C13_intended (a : V6) : FullText a (fullText a) := by
  refine ⟨_, ?_, rfl⟩
  have key : ∀ l : List Nat, (∀ v ∈ l, v < 65536) → Pointwise (fun h v => Numeral 16 h v ∧ h.length = 4 ∧ ∀ c ∈ h, c ∈ lowerDigits)
      (l.map fun v => [v / 4096 % 16, v / 256 % 16, v / 16 % 16, v % 16].map (fun d => lowerDigits.getD d '0')) l := by
    intro l hl
    induction l with
    | nil => exact .nil
    | cons v l ih =>
      refine .cons ⟨fourDigits (hl v (.head _)), rfl, fun c hc => ?_⟩ (ih fun w hw => hl w (.tail _ hw))
      obtain ⟨d, -, rfl⟩ := List.mem_map.mp hc
      exact lowerDigits_mem d
  exact key _ (chunkVals_lt a)

theorem lower_unique {c c' : Char} {d : Nat} (h : DigitIs c d) (h' : DigitIs c' d) (hc : c ∈ lowerDigits) (hc' : c' ∈ lowerDigits) : c = c' := by
  have key : ∀ e : Char, e ∈ lowerDigits → DigitIs e d → lowerDigits[d]? = some e := by
    intro e he hd
    rcases hd with hd | hd
    · exact hd
    · have hlt : d < 16 := by
        rcases Nat.lt_or_ge d 16 with h | h
        · exact h
        · rw [List.getElem?_eq_none (by exact h)] at hd; cases hd
      have : ∀ d < 16, ∀ e ∈ lowerDigits, upperDigits[d]? = some e → lowerDigits[d]? = some e := by decide
      exact this d hlt e he hd
  exact Option.some.inj ((key c hc h).symm.trans (key c' hc' h'))

theorem digits_unique {r : Nat} : ∀ {s t : Str} {ds : List Nat}, Digits r s ds → Digits r t ds → (∀ c ∈ s, c ∈ lowerDigits) →
    (∀ c ∈ t, c ∈ lowerDigits) → s = t
  | _, _, _, .nil, .nil, _, _ => rfl
  | _, _, _, .cons h1 _ hs, .cons h2 _ ht, hl, hl' => by
    rw [lower_unique h1 h2 (hl _ (.head _)) (hl' _ (.head _)),
      digits_unique hs ht (fun c hc => hl c (.tail _ hc)) (fun c hc => hl' c (.tail _ hc))]

/-- There is no other text of that form. -/
theorem C13_intended_unique (a : V6) (t : Str) (h : FullText a t) : t = fullText a := by
  obtain ⟨hs, hp, rfl⟩ := h
  obtain ⟨hs', hp', h'⟩ := C13_intended a
  rw [h']
  congr 1
  clear h'
  generalize chunkVals a = l at hp hp'
  induction hp generalizing hs' with
  | nil => cases hp'; rfl
  | cons h1 _ ih =>
    cases hp' with
    | cons h2 ht =>
      rw [ih _ ht]
      congr 1
      obtain ⟨⟨-, ds, hd, hv⟩, hl, hc⟩ := h1
      obtain ⟨⟨-, ds', hd', hv'⟩, hl', hc'⟩ := h2
      obtain ⟨e, b⟩ := digits_length hd
      obtain ⟨e', b'⟩ := digits_length hd'
      have : ds = ds' := by
        have e1 : ds.length = 4 := by omega
        have e2 : ds'.length = 4 := by omega
        match ds, ds', e1, e2 with
        | [x0, x1, x2, x3], [y0, y1, y2, y3], _, _ =>
          simp only [bigEndian, List.foldl] at hv hv'
          simp only [List.mem_cons, List.not_mem_nil, or_false, forall_eq_or_imp, forall_eq] at b b'
          simp only [List.cons.injEq, and_true]
          omega
      subst this
      exact digits_unique hd hd' hc hc'

/-- `to_full_string` never returns the text that is described, whatever the address. -/
theorem C13_never (a : V6) : ¬ FullText a (V6.toFullString a) := fun h =>
  C13_counterexample a (C13_intended_unique a _ h)

/-- The bound of the loop is the only fault: over all chunks, its body and the join give the right text. -/
theorem C13_only_the_bound (a : V6) :
    FullText a (joinWith [':'] ((List.range a.toChunks.length).foldl (fun acc i => acc ++ [showHex4 (a.toChunks.getD i 0).toNat]) [])) := by
  have fold : ∀ (g : Nat → Str) (l : List Nat) (acc : List Str), l.foldl (fun acc i => acc ++ [g i]) acc = acc ++ l.map g := by
    intro g l
    induction l with
    | nil => simp
    | cons i l ih => intro acc; simp [ih]
  rw [fold (fun i => showHex4 (a.toChunks.getD i 0).toNat), List.nil_append, joinWith_eq]
  refine ⟨_, ?_, rfl⟩
  have e : (List.range a.toChunks.length).map (fun i => showHex4 (a.toChunks.getD i 0).toNat) = (chunkVals a).map showHex4 := by
    rw [← V6.chunkOf_eq, List.map_map]
    rfl
  rw [e]
  have key : ∀ l : List Nat, (∀ v ∈ l, v < 65536) →
      Pointwise (fun h v => Numeral 16 h v ∧ h.length = 4 ∧ ∀ c ∈ h, c ∈ lowerDigits) (l.map showHex4) l := by
    intro l hl
    induction l with
    | nil => exact .nil
    | cons v l ih =>
      have hc := showNat_canonical (radix := 16) (by decide) (by decide) v
      have hlen : (showNat 16 v).length ≤ 4 := showNat_length_le (by decide) (by decide) (hl v (.head _))
      refine .cons ⟨(numeral_zeros (by decide) (.inr hc.1.1) v).mpr hc.1, ?_, fun c h => ?_⟩ (ih fun w hw => hl w (.tail _ hw))
      · simp only [showHex4, List.length_append, List.length_replicate]
        omega
      · rcases List.mem_append.mp h with h | h
        · rw [(List.mem_replicate.mp h).2]
          exact .head _
        · exact hc.2.1 c h
  exact key _ (chunkVals_lt a)

theorem full_example : FullText ⟨0x20010DB800000000#64, 1#64⟩ "2001:0db8:0000:0000:0000:0000:0000:0001".toList := by
  have := C13_intended ⟨0x20010DB800000000#64, 1#64⟩
  rwa [show fullText ⟨0x20010DB800000000#64, 1#64⟩ = "2001:0db8:0000:0000:0000:0000:0000:0001".toList by decide +kernel] at this

example := C13_intended_unique _ _ full_example

end Ripcalc
