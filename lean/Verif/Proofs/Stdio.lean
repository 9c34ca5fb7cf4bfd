import Verif.Spec.Stdio
/-!
# Lemmas about devices and buffers
-/
namespace Ripcalc

variable {σ τ : Type} {u : CharTable}

/-! ## Lines of bytes -/

theorem upToLine_append (bs : List Byte) : upToLine bs ++ afterLine bs = bs := by
  rw [upToLine, afterLine, ← List.reverse_append, List.takeWhile_append_dropWhile, List.reverse_reverse]

theorem afterLine_no (bs : List Byte) : (10 : Byte) ∉ afterLine bs := by
  rw [afterLine, List.mem_reverse]
  intro h
  have := List.all_eq_true.mp (List.all_takeWhile (p := fun b : Byte => decide (b ≠ 10)) (l := bs.reverse)) _ h
  exact absurd this (by decide)

theorem upToLine_end (bs : List Byte) : upToLine bs = [] ∨ ∃ l, upToLine bs = l ++ [10] := by
  rw [upToLine]
  cases h : bs.reverse.dropWhile (· ≠ 10) with
  | nil => exact .inl rfl
  | cons x xs =>
    have := List.head_dropWhile_not (fun b : Byte => decide (b ≠ 10)) (l := bs.reverse) (by rw [h]; exact List.cons_ne_nil _ _)
    simp only [h, List.head_cons, decide_eq_false_iff_not, Classical.not_not] at this
    exact .inr ⟨xs.reverse, by rw [this]; simp⟩

theorem linesOf (bs : List Byte) : LinesOf bs (upToLine bs) (afterLine bs) :=
  ⟨(upToLine_append bs).symm, afterLine_no bs, upToLine_end bs⟩

/-- A suffix without line end lies in the last part. -/
theorem LinesOf.suffix {bs lines tail a b : List Byte} (h : LinesOf bs lines tail) (hb : bs = a ++ b) (hn : (10 : Byte) ∉ b) :
    lines <+: a ∧ b.length ≤ tail.length := by
  have hlen : lines.length ≤ a.length := by
    rcases h.lines with h0 | ⟨l, hl⟩
    · rw [h0]; exact Nat.zero_le _
    · refine Nat.le_of_not_lt fun hlt => hn ?_
      have e := h.append
      rw [hb, hl] at e
      rw [hl, List.length_append, List.length_singleton] at hlt
      have : (a ++ b)[l.length]? = some 10 := by rw [e]; simp
      rw [List.getElem?_append_right (by omega)] at this
      exact List.mem_of_getElem? this
  have e : lines ++ tail = a ++ b := by rw [← h.append, hb]
  have hp : lines <+: a := List.prefix_of_prefix_length_le ⟨tail, e⟩ ⟨b, rfl⟩ hlen
  refine ⟨hp, ?_⟩
  have := congrArg List.length e
  simp only [List.length_append] at this
  omega

/-- A prefix that ends with a line end lies in the first part. -/
theorem LinesOf.prefix {bs lines tail a b : List Byte} (h : LinesOf bs lines tail) (hb : bs = a ++ b) (ha : ∃ l, a = l ++ [10]) :
    a.length ≤ lines.length := by
  refine Nat.le_of_not_lt fun hlt => h.tail ?_
  obtain ⟨l, rfl⟩ := ha
  rw [List.length_append, List.length_singleton] at hlt
  have e := h.append
  rw [hb] at e
  have : (l ++ [10] ++ b)[l.length]? = some (10 : Byte) := by simp
  rw [e, List.getElem?_append_right (by omega)] at this
  exact List.mem_of_getElem? this

theorem LinesOf.unique {bs l t l' t' : List Byte} (h : LinesOf bs l t) (h' : LinesOf bs l' t') : l = l' ∧ t = t' := by
  have a := (h.suffix h'.append h'.tail).1
  have b := (h'.suffix h.append h.tail).1
  have := List.IsPrefix.eq_of_length a (Nat.le_antisymm a.length_le b.length_le)
  subst this
  exact ⟨rfl, List.append_cancel_left (h.append.symm.trans h'.append)⟩

/-! ## Any device -/

theorem pushAll_spec (d : Device σ) (s : σ) (bs : List Byte) :
    (pushAll d s bs).done ++ (pushAll d s bs).rest = bs ∧ ((pushAll d s bs).ok = true → (pushAll d s bs).rest = []) := by
  induction h : bs.length using Nat.strongRecOn generalizing s bs with
  | _ n ih =>
    rw [pushAll]
    by_cases hb : bs = []
    · subst hb; simp
    · rw [dif_neg hb]
      have hpos := List.length_pos_iff.mpr hb
      rcases hd : d s bs with ⟨_ | _ | m, s'⟩
      · simp
      · simp
      · dsimp only
        have := ih (bs.drop (m + 1)).length (by rw [List.length_drop]; omega) s' (bs.drop (m + 1)) rfl
        refine ⟨?_, this.2⟩
        rw [List.append_assoc, this.1, List.take_append_drop]

/-- What has been handed over so far. -/
def LineWriter.total (w : LineWriter σ) : List Byte := w.delivered ++ w.buffer

/-- An operation handed over these bytes, or, if it failed, some of them. -/
def Hands (bs : List Byte) (w : LineWriter σ) (r : Bool × LineWriter σ) : Prop :=
  (r.1 = true → r.2.total = w.total ++ bs) ∧ r.2.total <+: w.total ++ bs

theorem Hands.of_eq {bs : List Byte} {w : LineWriter σ} {r : Bool × LineWriter σ} (h : r.2.total = w.total ++ bs) : Hands bs w r :=
  ⟨fun _ => h, h ▸ List.prefix_refl _⟩

theorem Hands.andThen {as bs : List Byte} {w : LineWriter σ} {r : Bool × LineWriter σ} {f : LineWriter σ → Bool × LineWriter σ}
    (h : Hands as w r) (hf : r.1 = true → Hands bs r.2 (f r.2)) : Hands (as ++ bs) w (andThen r f) := by
  unfold Ripcalc.andThen
  split
  · rename_i hr
    have h1 := h.1 hr
    have h2 := hf hr
    rw [Hands, h1] at h2
    rw [Hands, ← List.append_assoc]
    exact h2
  · rename_i hr
    refine ⟨fun h' => absurd h' hr, h.2.trans ?_⟩
    rw [← List.append_assoc]; exact List.prefix_append _ _

theorem hands_flush (d : Device σ) (w : LineWriter σ) : Hands [] w (w.flushBuf d) ∧ ((w.flushBuf d).1 = true → (w.flushBuf d).2.buffer = []) := by
  have h := pushAll_spec d w.dev w.buffer
  refine ⟨.of_eq ?_, h.2⟩
  show (w.delivered ++ (pushAll d w.dev w.buffer).done) ++ (pushAll d w.dev w.buffer).rest = w.delivered ++ w.buffer ++ []
  rw [List.append_assoc, h.1, List.append_nil]

theorem hands_direct (d : Device σ) (w : LineWriter σ) (bs : List Byte) (hb : w.buffer = []) :
    Hands bs w (w.direct d bs) ∧ (w.direct d bs).2.buffer = [] := by
  have h := pushAll_spec d w.dev bs
  refine ⟨⟨fun ho => ?_, ?_⟩, hb⟩
  · show (w.delivered ++ (pushAll d w.dev bs).done) ++ w.buffer = w.delivered ++ w.buffer ++ bs
    rw [h.2 ho, List.append_nil] at h
    rw [h.1, hb]; simp
  · show (w.delivered ++ (pushAll d w.dev bs).done) ++ w.buffer <+: w.delivered ++ w.buffer ++ bs
    rw [hb, List.append_nil, List.append_nil]
    exact ⟨(pushAll d w.dev bs).rest, by rw [List.append_assoc, h.1]⟩

theorem hands_append (w : LineWriter σ) (bs : List Byte) : Hands bs w (true, { w with buffer := w.buffer ++ bs }) :=
  .of_eq (by simp [LineWriter.total])

theorem full_empty {w : LineWriter σ} {bs : List Byte} (h1 : ¬ bs.length < lineCapacity - w.buffer.length)
    (h2 : ¬ bs.length > lineCapacity - w.buffer.length) (h3 : bs.length ≥ lineCapacity) : w.buffer = [] := by
  have : lineCapacity = 1024 := rfl
  exact List.length_eq_zero_iff.mp (by omega)

theorem hands_buf (d : Device σ) (w : LineWriter σ) (bs : List Byte) :
    Hands bs w (w.bufWriteAll d bs) ∧
    ((w.bufWriteAll d bs).1 = true → (10 : Byte) ∉ w.buffer ++ bs → (10 : Byte) ∉ (w.bufWriteAll d bs).2.buffer) := by
  unfold LineWriter.bufWriteAll
  split
  · exact ⟨hands_append w bs, fun _ h => h⟩
  · rename_i h1
    split
    · rename_i h2
      have hfl := hands_flush d w
      have := hfl.1.andThen (bs := bs) (f := fun w =>
          if bs.length ≥ lineCapacity then w.direct d bs else (true, { w with buffer := w.buffer ++ bs })) fun hr => by
        split
        · exact (hands_direct d _ bs (hfl.2 hr)).1
        · exact hands_append _ _
      refine ⟨this, ?_⟩
      unfold andThen
      split
      · rename_i hr
        split
        · intro _ _
          rw [(hands_direct d _ bs (hfl.2 hr)).2]; simp
        · intro _ hn
          show (10 : Byte) ∉ (w.flushBuf d).2.buffer ++ bs
          rw [hfl.2 hr]
          exact fun h => hn (List.mem_append_right _ h)
      · rename_i hr
        exact fun h => absurd h hr
    · rename_i h2
      unfold andThen
      rw [if_pos rfl]
      dsimp only
      split
      · rename_i h3
        have := hands_direct d w bs (full_empty h1 h2 h3)
        exact ⟨this.1, fun _ _ => by rw [this.2]; simp⟩
      · exact ⟨hands_append w bs, fun _ h => h⟩

theorem upToLine_nil {bs : List Byte} (h : upToLine bs = []) : (10 : Byte) ∉ bs := by
  have := upToLine_append bs
  rw [h, List.nil_append] at this
  rw [← this]; exact afterLine_no bs

theorem last_not {w : LineWriter σ} (hw : (10 : Byte) ∉ w.buffer) : w.buffer.getLast? ≠ some 10 :=
  fun h => hw (List.mem_of_getLast? h)

theorem hands_write (d : Device σ) (w : LineWriter σ) (bs : List Byte) (hw : (10 : Byte) ∉ w.buffer) :
    Hands bs w (w.writeAll d bs) ∧ ((w.writeAll d bs).1 = true → (10 : Byte) ∉ (w.writeAll d bs).2.buffer) := by
  unfold LineWriter.writeAll
  split
  · rename_i hu
    rw [if_neg (last_not hw), andThen, if_pos rfl]
    have := hands_buf d w bs
    exact ⟨this.1, fun h => this.2 h (fun hm => (List.mem_append.mp hm).elim hw (upToLine_nil hu))⟩
  · have first : ∀ r, r = (if w.buffer = [] then w.direct d (upToLine bs)
        else andThen (w.bufWriteAll d (upToLine bs)) fun w => w.flushBuf d) →
        Hands (upToLine bs) w r ∧ (r.1 = true → r.2.buffer = []) := by
      rintro r rfl
      split
      · rename_i hb
        have := hands_direct d w (upToLine bs) hb
        exact ⟨this.1, fun _ => this.2⟩
      · have h1 := (hands_buf d w (upToLine bs)).1
        have h2 := h1.andThen (f := fun w => w.flushBuf d) fun _ => (hands_flush d _).1
        rw [List.append_nil] at h2
        refine ⟨h2, ?_⟩
        unfold andThen
        split
        · exact (hands_flush d _).2
        · rename_i hr; exact fun h => absurd h hr
    obtain ⟨f1, f2⟩ := first _ rfl
    generalize (if w.buffer = [] then w.direct d (upToLine bs)
        else andThen (w.bufWriteAll d (upToLine bs)) fun w => w.flushBuf d) = r at f1 f2
    have h2 := f1.andThen (f := fun w => w.bufWriteAll d (afterLine bs)) fun _ => (hands_buf d _ (afterLine bs)).1
    rw [upToLine_append] at h2
    refine ⟨h2, ?_⟩
    unfold andThen
    split
    · rename_i hr
      intro h
      exact (hands_buf d r.2 (afterLine bs)).2 h (by rw [f2 hr]; exact afterLine_no bs)
    · rename_i hr; exact fun h => absurd h hr

theorem hands_fmt (d : Device σ) (ps : List (List Byte)) : ∀ w : LineWriter σ, (10 : Byte) ∉ w.buffer →
    Hands ps.flatten w (w.writeFmt d ps) ∧ ((w.writeFmt d ps).1 = true → (10 : Byte) ∉ (w.writeFmt d ps).2.buffer) := by
  induction ps with
  | nil => intro w hw; exact ⟨.of_eq (by simp [LineWriter.writeFmt]), fun _ => hw⟩
  | cons p ps ih =>
    intro w hw
    have h1 := hands_write d w p hw
    rw [LineWriter.writeFmt, List.flatten_cons]
    refine ⟨h1.1.andThen fun hr => (ih _ (h1.2 hr)).1, ?_⟩
    unfold andThen
    split
    · rename_i hr; exact (ih _ (h1.2 hr)).2
    · rename_i hr; exact fun h => absurd h hr

theorem raw_fmt (d : Device σ) (ps : List (List Byte)) : ∀ w : RawWriter σ,
    ((w.writeFmt d ps).1 = true → (w.writeFmt d ps).2.delivered = w.delivered ++ ps.flatten) ∧
    (w.writeFmt d ps).2.delivered <+: w.delivered ++ ps.flatten := by
  induction ps with
  | nil => intro w; simp [RawWriter.writeFmt]
  | cons p ps ih =>
    intro w
    have h1 := pushAll_spec d w.dev p
    rw [RawWriter.writeFmt, List.flatten_cons]
    unfold andThen
    dsimp only
    split
    · rename_i hr
      have h2 := ih ⟨w.delivered ++ (pushAll d w.dev p).done, (pushAll d w.dev p).dev⟩
      rw [h1.2 hr, List.append_nil] at h1
      dsimp only at h2
      rw [h1.1, List.append_assoc] at h2
      rw [h1.1]
      exact h2
    · rename_i hr
      refine ⟨fun h => absurd h hr, ?_⟩
      dsimp only
      refine ⟨(pushAll d w.dev p).rest ++ ps.flatten, ?_⟩
      rw [List.append_assoc, ← List.append_assoc _ _ ps.flatten, h1.1]

/-- The bytes of events on standard output, and on standard error. -/
def outBytes (evs : List OutEv) : List Byte := utf8Encode (stdoutText evs)
@[inherit_doc outBytes] def errBytes (u : CharTable) (evs : List OutEv) : List Byte := utf8Encode (stderrText u evs)

theorem encode_append (s t : Str) : utf8Encode (s ++ t) = utf8Encode s ++ utf8Encode t := List.flatMap_append

theorem perform_spec (d : Device σ) (e : Device τ) (f : Chunking u) (evs : List OutEv) : ∀ st : Streams σ τ, (10 : Byte) ∉ st.out.buffer →
    ((perform d e f st evs).1 = true → (perform d e f st evs).2.out.total = st.out.total ++ outBytes evs ∧
      (10 : Byte) ∉ (perform d e f st evs).2.out.buffer ∧ (perform d e f st evs).2.err.delivered = st.err.delivered ++ errBytes u evs) ∧
    (perform d e f st evs).2.out.total <+: st.out.total ++ outBytes evs ∧
    (perform d e f st evs).2.err.delivered <+: st.err.delivered ++ errBytes u evs := by
  induction evs with
  | nil =>
    intro st hw
    simp only [perform, outBytes, errBytes, stdoutText, stderrText]
    have : utf8Encode [] = [] := rfl
    rw [this, List.append_nil, List.append_nil]
    exact ⟨fun _ => ⟨rfl, hw, rfl⟩, List.prefix_refl _, List.prefix_refl _⟩
  | cons ev evs ih =>
    intro st hw
    have outCase : ∀ t, eventBytes u ev = utf8Encode t → stdoutText (ev :: evs) = t ++ stdoutText evs → stderrText u (ev :: evs) = stderrText u evs →
        perform d e f st (ev :: evs) = andThen ((st.out.writeFmt d (f.pieces ev)).1, { st with out := (st.out.writeFmt d (f.pieces ev)).2 })
          (fun st => perform d e f st evs) →
        (((perform d e f st (ev :: evs)).1 = true → (perform d e f st (ev :: evs)).2.out.total = st.out.total ++ outBytes (ev :: evs) ∧
          (10 : Byte) ∉ (perform d e f st (ev :: evs)).2.out.buffer ∧ (perform d e f st (ev :: evs)).2.err.delivered = st.err.delivered ++ errBytes u (ev :: evs)) ∧
        (perform d e f st (ev :: evs)).2.out.total <+: st.out.total ++ outBytes (ev :: evs) ∧
        (perform d e f st (ev :: evs)).2.err.delivered <+: st.err.delivered ++ errBytes u (ev :: evs)) := by
      intro t ht h1 h2 h3
      have hb := hands_fmt d (f.pieces ev) st.out hw
      rw [f.flatten, ht] at hb
      rw [h3, outBytes, errBytes, h1, h2, encode_append]
      unfold andThen
      split
      · rename_i hr
        have hi := ih { st with out := (st.out.writeFmt d (f.pieces ev)).2 } (hb.2 hr)
        dsimp only at hi
        rw [hb.1.1 hr, List.append_assoc] at hi
        exact hi
      · rename_i hr
        refine ⟨fun h => absurd h hr, hb.1.2.trans ?_, List.prefix_append _ _⟩
        rw [← List.append_assoc]; exact List.prefix_append _ _
    cases ev with
    | out s => exact outCase s rfl rfl rfl rfl
    | styled c s => exact outCase _ rfl rfl rfl rfl
    | err m =>
      have hb := raw_fmt e (f.pieces (.err m)) st.err
      rw [f.flatten] at hb
      have h1 : stdoutText (.err m :: evs) = stdoutText evs := rfl
      have h2 : stderrText u (.err m :: evs) = m.text u ++ stderrText u evs := rfl
      rw [perform, outBytes, errBytes, h1, h2, encode_append]
      unfold andThen
      split
      · rename_i hr
        have hi := ih { st with err := (st.err.writeFmt e (f.pieces (.err m))).2 } hw
        dsimp only at hi
        rw [hb.1 hr, List.append_assoc] at hi
        exact hi
      · rename_i hr
        refine ⟨fun h => absurd h hr, List.prefix_append _ _, hb.2.trans ?_⟩
        rw [← List.append_assoc]; exact List.prefix_append _ _

/-! ## A device that never fails -/

theorem pushAll_reliable {d : Device σ} (hd : Reliable d) (s : σ) (bs : List Byte) : (pushAll d s bs).ok = true := by
  induction h : bs.length using Nat.strongRecOn generalizing s bs with
  | _ n ih =>
    rw [pushAll]
    by_cases hb : bs = []
    · subst hb; simp
    · rw [dif_neg hb]
      have hpos := List.length_pos_iff.mpr hb
      obtain ⟨m, hm⟩ := hd s bs hb
      rcases hds : d s bs with ⟨o, s'⟩
      rw [hds] at hm
      cases hm
      exact ih (bs.drop (m + 1)).length (by rw [List.length_drop]; omega) s' (bs.drop (m + 1)) rfl

theorem andThen_ok {α : Type} {r : Bool × α} {f : α → Bool × α} (h : r.1 = true) (hf : (f r.2).1 = true) : (andThen r f).1 = true := by
  rw [andThen, if_pos h]; exact hf

theorem buf_reliable {d : Device σ} (hd : Reliable d) (w : LineWriter σ) (bs : List Byte) : (w.bufWriteAll d bs).1 = true := by
  unfold LineWriter.bufWriteAll
  split
  · rfl
  · refine andThen_ok ?_ ?_
    · split
      · exact pushAll_reliable hd _ _
      · rfl
    · split
      · exact pushAll_reliable hd _ _
      · rfl

theorem fmt_reliable {d : Device σ} (hd : Reliable d) (ps : List (List Byte)) : ∀ w : LineWriter σ, (w.writeFmt d ps).1 = true := by
  induction ps with
  | nil => intro w; rfl
  | cons p ps ih =>
    intro w
    refine andThen_ok ?_ (ih _)
    unfold LineWriter.writeAll
    split
    · refine andThen_ok ?_ (buf_reliable hd _ _)
      split
      · exact pushAll_reliable hd _ _
      · rfl
    · refine andThen_ok ?_ (buf_reliable hd _ _)
      split
      · exact pushAll_reliable hd _ _
      · exact andThen_ok (buf_reliable hd _ _) (pushAll_reliable hd _ _)

theorem raw_reliable {d : Device σ} (hd : Reliable d) (ps : List (List Byte)) : ∀ w : RawWriter σ, (w.writeFmt d ps).1 = true := by
  induction ps with
  | nil => intro w; rfl
  | cons p ps ih => intro w; exact andThen_ok (pushAll_reliable hd _ _) (ih _)

theorem perform_reliable {d : Device σ} {e : Device τ} (hd : Reliable d) (he : Reliable e) (f : Chunking u) (evs : List OutEv) :
    ∀ st : Streams σ τ, (perform d e f st evs).1 = true := by
  induction evs with
  | nil => intro st; rfl
  | cons ev evs ih =>
    intro st
    cases ev with
    | out s => exact andThen_ok (fmt_reliable hd _ _) (ih _)
    | styled c s => exact andThen_ok (fmt_reliable hd _ _) (ih _)
    | err m => exact andThen_ok (raw_reliable he _ _) (ih _)

/-! ## A device with room for a number of bytes -/

theorem pushAll_limited (k : Nat) (bs : List Byte) :
    pushAll limited k bs = ⟨bs.take k, bs.drop k, decide (bs.length ≤ k), k - bs.length⟩ := by
  rw [pushAll]
  by_cases hb : bs = []
  · subst hb; simp
  · rw [dif_neg hb]
    have hpos := List.length_pos_iff.mpr hb
    by_cases hk : k = 0
    · subst hk
      simp only [limited, if_true]
      have : ¬ bs.length ≤ 0 := by omega
      simp [this]
    · obtain ⟨m, hm⟩ : ∃ m, min k bs.length = m + 1 := ⟨min k bs.length - 1, by omega⟩
      simp only [limited, if_neg hk, hm]
      rw [pushAll]
      by_cases hle : bs.length ≤ k
      · have h0 : bs.drop (m + 1) = [] := List.drop_eq_nil_of_le (by omega)
        rw [dif_pos h0]
        simp [hle, List.take_of_length_le (show bs.length ≤ m + 1 by omega), List.take_of_length_le hle]
      · have h0 : bs.drop (m + 1) ≠ [] := by
          intro h; have := congrArg List.length h; rw [List.length_drop, List.length_nil] at this; omega
        rw [dif_neg h0]
        have e1 : k - bs.length = 0 := by omega
        have e2 : m + 1 = k := by omega
        simp [limited, e1, e2, hle]

/-- The room that is left is what the device has not taken. -/
def Lim (k : Nat) (w : LineWriter Nat) : Prop := w.dev = k - w.delivered.length ∧ w.delivered.length ≤ k

/-- An operation with a limited device: if it fails, more than `k` bytes would have been needed (`P`), and there is no room left. -/
def LimStep (k : Nat) (P : Prop) (r : Bool × LineWriter Nat) : Prop := Lim k r.2 ∧ (r.1 = false → P ∧ r.2.delivered.length = k)

theorem lim_push {k : Nat} {w : LineWriter Nat} (h : Lim k w) (bs buf : List Byte) :
    Lim k ⟨w.delivered ++ (pushAll limited w.dev bs).done, buf, (pushAll limited w.dev bs).dev⟩ ∧
    ((pushAll limited w.dev bs).ok = false → k < w.delivered.length + bs.length ∧ (w.delivered ++ (pushAll limited w.dev bs).done).length = k) := by
  obtain ⟨h1, h2⟩ := h
  rw [pushAll_limited, Lim]
  simp only [List.length_append, List.length_take, decide_eq_false_iff_not]
  omega

theorem lim_flush {k : Nat} {w : LineWriter Nat} (h : Lim k w) : LimStep k (k < w.total.length) (w.flushBuf limited) := by
  have := lim_push h w.buffer (pushAll limited w.dev w.buffer).rest
  rw [LineWriter.total, List.length_append]
  exact this

theorem lim_direct {k : Nat} {w : LineWriter Nat} (h : Lim k w) (bs : List Byte) :
    LimStep k (k < (w.total ++ bs).length) (w.direct limited bs) := by
  have := lim_push h bs w.buffer
  refine ⟨this.1, fun hf => ⟨?_, (this.2 hf).2⟩⟩
  have := (this.2 hf).1
  rw [LineWriter.total, List.length_append, List.length_append]
  omega

theorem LimStep.andThen {k : Nat} {P Q : Prop} {r : Bool × LineWriter Nat} {f : LineWriter Nat → Bool × LineWriter Nat}
    (h : LimStep k P r) (hp : P → Q) (hf : r.1 = true → LimStep k Q (f r.2)) : LimStep k Q (andThen r f) := by
  unfold Ripcalc.andThen
  split
  · rename_i hr; exact hf hr
  · exact ⟨h.1, fun hr => ⟨hp (h.2 hr).1, (h.2 hr).2⟩⟩

theorem LimStep.mono {k : Nat} {P Q : Prop} {r : Bool × LineWriter Nat} (h : LimStep k P r) (hp : P → Q) : LimStep k Q r :=
  ⟨h.1, fun hr => ⟨hp (h.2 hr).1, (h.2 hr).2⟩⟩

theorem lim_buf {k : Nat} {w : LineWriter Nat} (h : Lim k w) (bs : List Byte) :
    LimStep k (k < (w.total ++ bs).length ∧ lineCapacity ≤ (w.buffer ++ bs).length) (w.bufWriteAll limited bs) := by
  unfold LineWriter.bufWriteAll
  split
  · exact ⟨h, fun hf => by cases hf⟩
  · rename_i h1
    have hc : lineCapacity ≤ (w.buffer ++ bs).length := by rw [List.length_append]; omega
    have hs : LimStep k (k < w.total.length) (if bs.length > lineCapacity - w.buffer.length then w.flushBuf limited else (true, w)) := by
      split
      · exact lim_flush h
      · exact ⟨h, fun hf => by cases hf⟩
    have ht : (if bs.length > lineCapacity - w.buffer.length then w.flushBuf limited else (true, w)).1 = true →
        (if bs.length > lineCapacity - w.buffer.length then w.flushBuf limited else (true, w)).2.total = w.total := by
      split
      · intro hr; rw [(hands_flush limited w).1.1 hr, List.append_nil]
      · intro _; rfl
    refine hs.andThen (fun hp => ⟨by rw [List.length_append]; omega, hc⟩) fun hr => ?_
    split
    · refine (lim_direct hs.1 bs).mono fun hp => ⟨?_, hc⟩
      rwa [ht hr] at hp
    · exact ⟨hs.1, fun hf => by cases hf⟩

theorem lim_write {k : Nat} {w : LineWriter Nat} (h : Lim k w) (hw : (10 : Byte) ∉ w.buffer) (bs more lines tail : List Byte)
    (hl : LinesOf (w.total ++ bs ++ more) lines tail) (ht : tail.length < lineCapacity) :
    LimStep k (k < lines.length) (w.writeAll limited bs) := by
  -- too much for the buffer means that another line end follows
  have over : ∀ front x, w.total ++ bs = front ++ x → (10 : Byte) ∉ x → lineCapacity ≤ x.length → (w.total ++ bs).length ≤ lines.length := by
    intro front x hx hn hc
    by_cases hm : (10 : Byte) ∈ more
    · obtain ⟨m1, m2, rfl⟩ := List.append_of_mem hm
      have := hl.prefix (a := w.total ++ bs ++ m1 ++ [10]) (b := m2) (by simp) ⟨_, rfl⟩
      simp only [List.length_append] at this ⊢
      omega
    · have := (hl.suffix (a := front) (b := x ++ more) (by rw [hx, List.append_assoc]) (by
        rw [List.mem_append]; exact fun h => h.elim hn hm)).2
      rw [List.length_append] at this
      omega
  unfold LineWriter.writeAll
  split
  · rename_i hu
    rw [if_neg (last_not hw), andThen, if_pos rfl]
    refine (lim_buf h bs).mono fun hp => ?_
    have := over w.delivered (w.buffer ++ bs) (by rw [LineWriter.total, List.append_assoc])
      (fun hm => (List.mem_append.mp hm).elim hw (upToLine_nil hu)) hp.2
    omega
  · rename_i hu
    have hup : (w.total ++ upToLine bs).length ≤ lines.length := by
      obtain ⟨l, hle⟩ := (upToLine_end bs).resolve_left hu
      refine hl.prefix (b := afterLine bs ++ more) ?_ ⟨w.total ++ l, by rw [hle, List.append_assoc]⟩
      rw [← List.append_assoc (w.total ++ upToLine bs), List.append_assoc w.total (upToLine bs), upToLine_append]
    have first : ∀ r, r = (if w.buffer = [] then w.direct limited (upToLine bs)
        else andThen (w.bufWriteAll limited (upToLine bs)) fun w => w.flushBuf limited) →
        LimStep k (k < lines.length) r ∧ (r.1 = true → r.2.buffer = [] ∧ r.2.total = w.total ++ upToLine bs) := by
      rintro r rfl
      split
      · rename_i hb
        have := hands_direct limited w (upToLine bs) hb
        refine ⟨(lim_direct h _).mono fun hp => by omega, fun hr => ⟨this.2, this.1.1 hr⟩⟩
      · have h1 := lim_buf h (upToLine bs)
        have h2 := (hands_buf limited w (upToLine bs)).1
        refine ⟨h1.andThen (fun hp => by omega) fun hr => ?_, ?_⟩
        · refine (lim_flush h1.1).mono fun hp => ?_
          rw [h2.1 hr] at hp
          omega
        · unfold andThen
          split
          · rename_i hr
            intro hr'
            have h3 := hands_flush limited (w.bufWriteAll limited (upToLine bs)).2
            refine ⟨h3.2 hr', ?_⟩
            rw [h3.1.1 hr', List.append_nil, h2.1 hr]
          · rename_i hr; exact fun h => absurd h hr
    obtain ⟨f1, f2⟩ := first _ rfl
    generalize (if w.buffer = [] then w.direct limited (upToLine bs)
        else andThen (w.bufWriteAll limited (upToLine bs)) fun w => w.flushBuf limited) = r at f1 f2
    refine f1.andThen id fun hr => (lim_buf f1.1 (afterLine bs)).mono fun hp => ?_
    obtain ⟨g1, g2⟩ := f2 hr
    rw [g1, g2, List.append_assoc, upToLine_append, List.nil_append] at hp
    have := over (w.total ++ upToLine bs) (afterLine bs) (by rw [List.append_assoc, upToLine_append]) (afterLine_no bs) hp.2
    omega

theorem lim_fmt {k : Nat} (ps : List (List Byte)) : ∀ (w : LineWriter Nat) (_ : Lim k w) (_ : (10 : Byte) ∉ w.buffer) (more lines tail : List Byte)
    (_ : LinesOf (w.total ++ ps.flatten ++ more) lines tail) (_ : tail.length < lineCapacity),
    LimStep k (k < lines.length) (w.writeFmt limited ps) := by
  induction ps with
  | nil => intro w h _ _ _ _ _ _; exact ⟨h, fun hf => by cases hf⟩
  | cons p ps ih =>
    intro w h hw more lines tail hl ht
    rw [List.flatten_cons] at hl
    have h1 := lim_write h hw p (ps.flatten ++ more) lines tail (by simpa [List.append_assoc] using hl) ht
    have h2 := hands_write limited w p hw
    refine h1.andThen id fun hr => ih _ h1.1 (h2.2 hr) more lines tail ?_ ht
    rw [h2.1.1 hr]
    simpa [List.append_assoc] using hl

/-- The same for a stream without buffer. -/
def LimRaw (j : Nat) (w : RawWriter Nat) : Prop := w.dev = j - w.delivered.length ∧ w.delivered.length ≤ j

theorem lim_raw {j : Nat} (ps : List (List Byte)) : ∀ w : RawWriter Nat, LimRaw j w →
    LimRaw j (w.writeFmt limited ps).2 ∧ ((w.writeFmt limited ps).1 = false → j < (w.delivered ++ ps.flatten).length ∧ (w.writeFmt limited ps).2.delivered.length = j) := by
  induction ps with
  | nil => intro w h; exact ⟨h, fun hf => by cases hf⟩
  | cons p ps ih =>
    intro w h
    have h' := h
    obtain ⟨h1, h2⟩ := h
    have hl : LimRaw j ⟨w.delivered ++ (pushAll limited w.dev p).done, (pushAll limited w.dev p).dev⟩ := by
      rw [pushAll_limited, LimRaw]
      simp only [List.length_append, List.length_take]
      omega
    rw [RawWriter.writeFmt, List.flatten_cons]
    unfold andThen
    dsimp only
    split
    · rename_i hr
      have h3 := ih _ hl
      have h4 := pushAll_spec limited w.dev p
      rw [h4.2 hr, List.append_nil] at h4
      refine ⟨h3.1, fun hf => ?_⟩
      have := h3.2 hf
      simp only [h4.1, List.length_append] at this ⊢
      omega
    · rename_i hr
      refine ⟨hl, fun _ => ?_⟩
      rw [pushAll_limited] at hr
      simp only [decide_eq_true_eq] at hr
      rw [pushAll_limited]
      simp only [List.length_append, List.length_take]
      omega

theorem lim_perform {j k : Nat} (f : Chunking u) (evs : List OutEv) : ∀ (st : Streams Nat Nat) (_ : Lim k st.out) (_ : LimRaw j st.err)
    (_ : (10 : Byte) ∉ st.out.buffer) (more lines tail : List Byte) (_ : LinesOf (st.out.total ++ outBytes evs ++ more) lines tail)
    (_ : tail.length < lineCapacity),
    Lim k (perform limited limited f st evs).2.out ∧ LimRaw j (perform limited limited f st evs).2.err ∧
    ((perform limited limited f st evs).1 = false →
      (k < lines.length ∧ (perform limited limited f st evs).2.out.delivered.length = k) ∨
      (j < (st.err.delivered ++ errBytes u evs).length ∧ (perform limited limited f st evs).2.err.delivered.length = j)) := by
  induction evs with
  | nil => intro st h1 h2 _ _ _ _ _ _; exact ⟨h1, h2, fun hf => by cases hf⟩
  | cons ev evs ih =>
    intro st h1 h2 hw more lines tail hl ht
    have outCase : ∀ t, eventBytes u ev = utf8Encode t → stdoutText (ev :: evs) = t ++ stdoutText evs → stderrText u (ev :: evs) = stderrText u evs →
        perform limited limited f st (ev :: evs) = andThen ((st.out.writeFmt limited (f.pieces ev)).1, { st with out := (st.out.writeFmt limited (f.pieces ev)).2 })
          (fun st => perform limited limited f st evs) →
        (Lim k (perform limited limited f st (ev :: evs)).2.out ∧ LimRaw j (perform limited limited f st (ev :: evs)).2.err ∧
        ((perform limited limited f st (ev :: evs)).1 = false →
          (k < lines.length ∧ (perform limited limited f st (ev :: evs)).2.out.delivered.length = k) ∨
          (j < (st.err.delivered ++ errBytes u (ev :: evs)).length ∧ (perform limited limited f st (ev :: evs)).2.err.delivered.length = j))) := by
      intro t e1 e2 e3 e4
      have hb := hands_fmt limited (f.pieces ev) st.out hw
      rw [f.flatten, e1] at hb
      rw [outBytes, e2, encode_append, List.append_assoc, List.append_assoc, ← List.append_assoc st.out.total] at hl
      have hs := lim_fmt (f.pieces ev) st.out h1 hw (outBytes evs ++ more) lines tail (by rw [f.flatten, e1]; exact hl) ht
      rw [e4, errBytes, e3]
      unfold andThen
      split
      · rename_i hr
        refine ih { st with out := (st.out.writeFmt limited (f.pieces ev)).2 } hs.1 h2 (hb.2 hr) more lines tail ?_ ht
        dsimp only
        rw [hb.1.1 hr, List.append_assoc]
        exact hl
      · rename_i hr
        exact ⟨hs.1, h2, fun hf => .inl (hs.2 hf)⟩
    cases ev with
    | out s => exact outCase s rfl rfl rfl rfl
    | styled c s => exact outCase _ rfl rfl rfl rfl
    | err m =>
      have hb := raw_fmt limited (f.pieces (.err m)) st.err
      have hs := lim_raw (f.pieces (.err m)) st.err h2
      rw [f.flatten] at hb hs
      have e1 : stdoutText (.err m :: evs) = stdoutText evs := rfl
      have e2 : stderrText u (.err m :: evs) = m.text u ++ stderrText u evs := rfl
      rw [outBytes, e1] at hl
      rw [perform, errBytes, e2, encode_append]
      unfold andThen
      split
      · rename_i hr
        have hi := ih { st with err := (st.err.writeFmt limited (f.pieces (.err m))).2 } h1 hs.1 hw more lines tail hl ht
        dsimp only at hi
        rw [hb.1 hr, List.append_assoc] at hi
        exact hi
      · rename_i hr
        refine ⟨h1, hs.1, fun hf => .inr ⟨?_, (hs.2 hf).2⟩⟩
        have h3 := (hs.2 hf).1
        have h4 : eventBytes u (.err m) = utf8Encode (m.text u) := rfl
        rw [h4] at h3
        rw [← List.append_assoc, List.length_append]
        omega

end Ripcalc
