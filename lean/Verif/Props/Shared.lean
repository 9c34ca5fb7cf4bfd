import Verif.Props.Program
import Verif.Props.Stdio
import Verif.Props.Wording
/-!
# C101: both streams on one terminal
-/
namespace Ripcalc
open AddrSpec

variable {σ : Type} {u : CharTable}

/-- Before a message there are only messages and whole lines. -/
def Orderly (evs : List OutEv) : Prop :=
  ∀ pre m post, evs = pre ++ .err m :: post → ∀ e ∈ pre, (∃ m, e = .err m) ∨ ∃ s, e = .out (s ++ ['\n'])

theorem Orderly.tail {e : OutEv} {evs : List OutEv} (h : Orderly (e :: evs)) : Orderly evs := fun pre m post he x hx =>
  h (e :: pre) m post (by rw [he]; rfl) x (List.mem_cons_of_mem _ hx)

theorem Orderly.head {e : OutEv} {evs : List OutEv} (h : Orderly (e :: evs)) (hm : messages evs ≠ []) :
    (∃ m, e = .err m) ∨ ∃ s, e = .out (s ++ ['\n']) := by
  obtain ⟨m, hm⟩ := List.exists_mem_of_ne_nil _ hm
  have : OutEv.err m ∈ evs := by
    obtain ⟨x, hx, hxm⟩ := List.mem_filterMap.mp hm
    cases x <;> cases hxm
    exact hx
  obtain ⟨pre, post, rfl⟩ := List.append_of_mem this
  exact h (e :: pre) m post rfl e (by simp)

theorem buffer_empty {w : LineWriter σ} (h : (10 : Byte) ∉ w.buffer) (a : List Byte) (ht : w.total = a ++ [10]) : w.buffer = [] := by
  rcases List.eq_nil_or_concat w.buffer with hb | ⟨l, x, hb⟩
  · exact hb
  · refine absurd ?_ h
    rw [List.concat_eq_append] at hb
    rw [LineWriter.total, hb, ← List.append_assoc] at ht
    rw [hb, (List.append_inj' ht rfl).2]
    simp

theorem shared_spec (d : Device σ) (f : Chunking u) (evs : List OutEv) : ∀ w : LineWriter σ, (10 : Byte) ∉ w.buffer →
    (w.buffer = [] ∨ messages evs = []) → Orderly evs →
    ((performShared d f w evs).1 = true → (performShared d f w evs).2.total = w.total ++ evs.flatMap (eventBytes u) ∧
      (10 : Byte) ∉ (performShared d f w evs).2.buffer) ∧
    (performShared d f w evs).2.total <+: w.total ++ evs.flatMap (eventBytes u) := by
  induction evs with
  | nil =>
    intro w hw _ _
    rw [List.flatMap_nil, List.append_nil]
    exact ⟨fun _ => ⟨rfl, hw⟩, List.prefix_refl _⟩
  | cons ev evs ih =>
    intro w hw hb ho
    have outCase : (∀ m, ev ≠ .err m) → performShared d f w (ev :: evs) = andThen (w.writeFmt d (f.pieces ev)) (fun w => performShared d f w evs) →
        (((performShared d f w (ev :: evs)).1 = true → (performShared d f w (ev :: evs)).2.total = w.total ++ (ev :: evs).flatMap (eventBytes u) ∧
          (10 : Byte) ∉ (performShared d f w (ev :: evs)).2.buffer) ∧
        (performShared d f w (ev :: evs)).2.total <+: w.total ++ (ev :: evs).flatMap (eventBytes u)) := by
      intro hne h3
      have hf := hands_fmt d (f.pieces ev) w hw
      rw [f.flatten] at hf
      rw [h3, List.flatMap_cons]
      unfold andThen
      split
      · rename_i hr
        have hi := ih (w.writeFmt d (f.pieces ev)).2 (hf.2 hr) (by
          by_cases hm : messages evs = []
          · exact .inr hm
          · left
            rcases ho.head hm with ⟨m, rfl⟩ | ⟨s, rfl⟩
            · exact absurd rfl (hne m)
            · refine buffer_empty (hf.2 hr) (w.total ++ utf8Encode s) ?_
              rw [hf.1.1 hr, eventBytes, encode_append, List.append_assoc]; rfl) ho.tail
        rw [hf.1.1 hr, List.append_assoc] at hi
        exact hi
      · rename_i hr
        refine ⟨fun h => absurd h hr, hf.1.2.trans ?_⟩
        rw [← List.append_assoc]; exact List.prefix_append _ _
    cases ev with
    | out s => exact outCase (fun m h => by cases h) rfl
    | styled c s => exact outCase (fun m h => by cases h) rfl
    | err m =>
      have hb : w.buffer = [] := hb.resolve_right (fun h => by cases h)
      have hf := raw_fmt d (f.pieces (.err m)) (RawWriter.mk w.delivered w.dev)
      rw [f.flatten] at hf
      rw [performShared, List.flatMap_cons]
      have ht : w.total = w.delivered := by rw [LineWriter.total, hb, List.append_nil]
      unfold andThen
      dsimp only at hf ⊢
      split
      · rename_i hr
        have hi := ih ⟨((RawWriter.mk w.delivered w.dev).writeFmt d (f.pieces (.err m))).2.delivered, w.buffer,
          ((RawWriter.mk w.delivered w.dev).writeFmt d (f.pieces (.err m))).2.dev⟩ hw (.inl hb) ho.tail
        rw [show LineWriter.total (LineWriter.mk ((RawWriter.mk w.delivered w.dev).writeFmt d (f.pieces (.err m))).2.delivered w.buffer
          ((RawWriter.mk w.delivered w.dev).writeFmt d (f.pieces (.err m))).2.dev) = w.total ++ eventBytes u (.err m) from by
            rw [LineWriter.total, hb, List.append_nil, hf.1 hr, ht], List.append_assoc] at hi
        exact hi
      · rename_i hr
        refine ⟨fun h => absurd h hr, ?_⟩
        rw [LineWriter.total, hb, List.append_nil, ht, ← List.append_assoc]
        exact hf.2.trans (List.prefix_append _ _)

theorem orderly_args {ss : List Str} {evss : List (List OutEv)} (h : Pointwise ArgOutput ss evss) :
    ∀ e ∈ evss.flatten, (∃ m, e = .err m) ∨ ∃ s, e = .out (s ++ ['\n']) := by
  induction h with
  | nil => intro e he; cases he
  | cons h _ ih =>
    intro e he
    rw [List.flatten_cons] at he
    rcases List.mem_append.mp he with he | he
    · rcases h with ⟨x, -, rfl⟩ | ⟨a, n, xs, -, -, rfl⟩ | ⟨a, n, xs, -, -, rfl⟩
      · exact .inl ⟨_, List.mem_singleton.mp he⟩
      all_goals
        obtain ⟨x, -, rfl⟩ := List.mem_map.mp he
        exact .inr ⟨_, rfl⟩
    · exact ih e he

theorem messages_mem {evs : List OutEv} {m : ErrMsg} (h : OutEv.err m ∈ evs) : m ∈ messages evs := List.mem_filterMap.mpr ⟨_, h, rfl⟩

theorem orderly_main (rt : Runtime) (args : List Str) : Orderly (doMain rt args).out := by
  intro pre m post he e hp
  have single : ∀ {m' c}, doMain rt args = ⟨[.err m'], c⟩ → (∃ m, e = .err m) ∨ ∃ s, e = .out (s ++ ['\n']) := by
    intro m' c h
    rw [h] at he
    match pre, he, hp with
    | [], _, hp => cases hp
    | [_], he, _ => simp at he
  rcases C76_message rt args m (messages_mem (by rw [he]; simp)) with h | ⟨h, -⟩ | ⟨prog, mode, ss, s, x, rfl, hm, hs, -⟩
  · exact single h
  · exact single h
  · have hd := (C56_dispatch rt prog mode ss).2.2.2.2.1 hm
    obtain ⟨evss, code, h1, h2, -⟩ := C38_enumerate rt (prog :: mode :: ss) (by
      have := List.length_pos_iff.mpr (List.ne_nil_of_mem hs)
      simp only [List.length_cons]; omega)
    rw [hd, h2] at he
    exact orderly_args h1 e (by rw [show evss.flatten = _ from he]; exact List.mem_append_left _ hp)

/-- The bytes of the run in the order in which they are written, to either stream. -/
def chronicle (u : CharTable) (evs : List OutEv) : List Byte := evs.flatMap (eventBytes u)

theorem shared_reliable {d : Device σ} (hd : Reliable d) (f : Chunking u) (evs : List OutEv) :
    ∀ w : LineWriter σ, (performShared d f w evs).1 = true := by
  induction evs with
  | nil => intro w; rfl
  | cons ev evs ih =>
    intro w
    cases ev with
    | err m => exact andThen_ok (raw_reliable hd _ _) (ih _)
    | out s => exact andThen_ok (fmt_reliable hd _ _) (ih _)
    | styled c s => exact andThen_ok (fmt_reliable hd _ _) (ih _)

theorem shared_initial (d : Device σ) (f : Chunking u) (s : σ) (rt : Runtime) (args : List Str) :
    ∀ p, p = performShared d f ⟨[], [], s⟩ (doMain rt args).out →
    (p.1 = true → p.2.total = chronicle u (doMain rt args).out ∧ (10 : Byte) ∉ p.2.buffer) ∧ p.2.total <+: chronicle u (doMain rt args).out := by
  rintro p rfl
  exact shared_spec d f (doMain rt args).out ⟨[], [], s⟩ (by simp) (.inl rfl) (orderly_main rt args)

/-- Whatever the device does, it gets a beginning of the two streams in the order of the program. -/
theorem C101_prefix (rt : Runtime) (f : Chunking u) (d : Device σ) (s : σ) (argv : List (List Byte)) (args : List Str) (h : ArgTexts argv args) :
    (deliverShared rt u f d s argv).1 <+: chronicle u (doMain rt args).out := by
  rw [deliverShared, (envArgs_iff _ _).mpr h]
  dsimp only
  obtain ⟨-, h1⟩ := shared_initial d f s rt args _ rfl
  have h3 := (flush_prefix d _).trans h1
  split
  · split
    · exact h3
    · exact h3
    · exact (List.prefix_append _ _).trans h1
  · exact h3

/-- A device that does not fail gets both streams in the order of the program, although only one of them is buffered; the process ends as
it does with two devices. -/
theorem C101_order (rt : Runtime) (f : Chunking u) (d : Device σ) (hd : Reliable d) (s : σ) (argv : List (List Byte)) (args : List Str)
    (h : ArgTexts argv args) :
    (deliverShared rt u f d s argv).1 = chronicle u (doMain rt args).out ∧
      (deliverShared rt u f d s argv).2 = (process rt u argv).ending := by
  rw [deliverShared, process, (envArgs_iff _ _).mpr h]
  dsimp only
  obtain ⟨h0, -⟩ := shared_initial d f s rt args _ rfl
  have hok := shared_reliable hd f (doMain rt args).out ⟨[], [], s⟩
  obtain ⟨h1, h2⟩ := h0 hok
  rw [if_pos hok]
  generalize performShared d f ⟨[], [], s⟩ (doMain rt args).out = p at *
  have h4 : (p.2.flushBuf d).2.delivered = chronicle u (doMain rt args).out := by
    have hfl : (p.2.flushBuf d).1 = true := pushAll_reliable hd _ _
    have g1 := (hands_flush d p.2).1.1 hfl
    have g2 := (hands_flush d p.2).2 hfl
    rw [List.append_nil, LineWriter.total, g2, List.append_nil, h1] at g1
    exact g1
  cases hr : (doMain rt args).res with
  | ok c => exact ⟨h4, rfl⟩
  | panic q => exact ⟨h4, rfl⟩
  | diverge =>
    have hs := diverge_silent u rt args hr
    rw [hs] at h1 ⊢
    exact ⟨(List.append_eq_nil_iff.mp h1).1, rfl⟩

theorem chronicle_out {evs : List OutEv} (h : messages evs = []) : chronicle u evs = outBytes evs := by
  induction evs with
  | nil => rfl
  | cons e evs ih =>
    rw [chronicle, List.flatMap_cons, ← chronicle]
    cases e with
    | err m => cases h
    | out s => rw [ih h, outBytes, outBytes, stdoutText, encode_append]; rfl
    | styled c s => rw [ih h, outBytes, outBytes, stdoutText, encode_append]; rfl

/-! ## Devices that fail -/

theorem message_end (u : CharTable) (m : ErrMsg) : ∃ l, eventBytes u (.err m) = l ++ [10] := by
  have hne : m.lines u ≠ [] := by cases m <;> exact List.cons_ne_nil _ _
  obtain ⟨ls, l, h⟩ : ∃ ls l, m.lines u = ls ++ [l] := by
    rcases List.eq_nil_or_concat (m.lines u) with h | ⟨ls, l, h⟩
    · exact absurd h hne
    · exact ⟨ls, l, by rw [h, List.concat_eq_append]⟩
  refine ⟨utf8Encode (ls.flatMap (· ++ ['\n']) ++ l), ?_⟩
  show utf8Encode (m.text u) = _
  rw [ErrMsg.text, h, List.flatMap_append, List.flatMap_singleton, ← List.append_assoc, encode_append]
  rfl

theorem chronicle_lines {evs : List OutEv} (h : ∀ e ∈ evs, (∃ m, e = .err m) ∨ ∃ s, e = .out (s ++ ['\n'])) :
    chronicle u evs = [] ∨ ∃ l, chronicle u evs = l ++ [10] := by
  rcases List.eq_nil_or_concat evs with rfl | ⟨es, e, rfl⟩
  · exact .inl rfl
  · right
    rw [List.concat_eq_append] at h ⊢
    rw [chronicle, List.flatMap_append, List.flatMap_singleton]
    rcases h e (by simp) with ⟨m, rfl⟩ | ⟨s, rfl⟩
    · obtain ⟨l, hl⟩ := message_end u m
      exact ⟨_, by rw [hl, ← List.append_assoc]⟩
    · exact ⟨es.flatMap (eventBytes u) ++ utf8Encode s, by rw [eventBytes, encode_append, ← List.append_assoc]; rfl⟩

/-- Where there is a message, all is in whole lines. -/
theorem messages_lines (rt : Runtime) (args : List Str) (hm : messages (doMain rt args).out ≠ []) :
    chronicle u (doMain rt args).out = [] ∨ ∃ l, chronicle u (doMain rt args).out = l ++ [10] := by
  obtain ⟨m, hmm⟩ := List.exists_mem_of_ne_nil _ hm
  have single : ∀ {m' c}, doMain rt args = ⟨[.err m'], c⟩ →
      (chronicle u (doMain rt args).out = [] ∨ ∃ l, chronicle u (doMain rt args).out = l ++ [10]) := by
    intro m' c h
    rw [h]
    exact chronicle_lines fun e he => .inl ⟨m', List.mem_singleton.mp he⟩
  rcases C76_message rt args m hmm with h | ⟨h, -⟩ | ⟨prog, mode, ss, s, x, rfl, hm', hs, -⟩
  · exact single h
  · exact single h
  · obtain ⟨evss, code, h1, h2, -⟩ := C38_enumerate rt (prog :: mode :: ss) (by
      have := List.length_pos_iff.mpr (List.ne_nil_of_mem hs)
      simp only [List.length_cons]; omega)
    rw [(C56_dispatch rt prog mode ss).2.2.2.2.1 hm', h2]
    exact chronicle_lines (orderly_args h1)

theorem lines_of_end {bs : List Byte} (h : bs = [] ∨ ∃ l, bs = l ++ [10]) : LinesOf bs bs [] := ⟨by simp, by simp, h⟩

/-- If the status is not 101, the device got everything up to the last line end, and the process ended as it does when nothing fails. -/
theorem C101_complete (rt : Runtime) (f : Chunking u) (d : Device σ) (s : σ) (argv : List (List Byte)) (args : List Str) (ha : ArgTexts argv args)
    (h : (deliverShared rt u f d s argv).2 ≠ .status 101) :
    (deliverShared rt u f d s argv).2 = (process rt u argv).ending ∧
    ∀ lines tail, LinesOf (chronicle u (doMain rt args).out) lines tail → lines <+: (deliverShared rt u f d s argv).1 := by
  rw [deliverShared, (envArgs_iff _ _).mpr ha] at h ⊢
  rw [process, (envArgs_iff _ _).mpr ha]
  dsimp only at h ⊢
  obtain ⟨h0, -⟩ := shared_initial d f s rt args _ rfl
  generalize performShared d f ⟨[], [], s⟩ (doMain rt args).out = p at *
  by_cases hok : p.1 = true
  · obtain ⟨h1, h2⟩ := h0 hok
    have key : ∀ lines tail, LinesOf (chronicle u (doMain rt args).out) lines tail → lines <+: p.2.delivered :=
      fun lines tail hl => (hl.suffix (a := p.2.delivered) (b := p.2.buffer) h1.symm h2).1
    have hd : p.2.delivered <+: (p.2.flushBuf d).2.delivered := List.prefix_append _ _
    rw [if_pos hok] at h ⊢
    cases hr : (doMain rt args).res with
    | ok c => exact ⟨rfl, fun l t hl => (key l t hl).trans hd⟩
    | panic q => exact ⟨rfl, fun l t hl => (key l t hl).trans hd⟩
    | diverge => exact ⟨rfl, key⟩
  · rw [if_neg hok] at h
    exact absurd rfl h

/-- Unless the run leaves its last line open, lost output is noticed: if the status is not 101, the device got everything. -/
theorem C101_noticed (rt : Runtime) (f : Chunking u) (d : Device σ) (s : σ) (argv : List (List Byte)) (args : List Str) (ha : ArgTexts argv args)
    (ho : ¬ OpenEnd rt.colorsEnabled args) (h : (deliverShared rt u f d s argv).2 ≠ .status 101) :
    (deliverShared rt u f d s argv).1 = chronicle u (doMain rt args).out := by
  obtain ⟨h1, h3⟩ := C101_complete rt f d s argv args ha h
  have hp := C101_prefix rt f d s argv args ha
  obtain ⟨-, -, r2, r3, r4⟩ := C89_runs rt u argv args ha
  have hl : LinesOf (chronicle u (doMain rt args).out) (chronicle u (doMain rt args).out) [] := by
    by_cases hm : messages (doMain rt args).out = []
    · rw [chronicle_out hm]
      refine encode_newline ?_
      cases hr : (doMain rt args).res with
      | ok c =>
        rcases main_tail rt args c hr with ⟨-, g⟩ | ⟨g, -⟩
        · exact g
        · exact absurd g ho
      | panic q => rw [r3 q hr] at h1; exact absurd h1 h
      | diverge => rw [diverge_silent u rt args hr]; exact .inl rfl
    · exact lines_of_end (messages_lines rt args hm)
  exact hp.eq_of_length (Nat.le_antisymm hp.length_le (h3 _ _ hl).length_le)

theorem lim_shared {k : Nat} (f : Chunking u) (evs : List OutEv) : ∀ (w : LineWriter Nat) (_ : Lim k w) (_ : (10 : Byte) ∉ w.buffer)
    (_ : w.buffer = [] ∨ messages evs = []) (_ : Orderly evs) (more lines tail : List Byte)
    (_ : LinesOf (w.total ++ evs.flatMap (eventBytes u) ++ more) lines tail) (_ : tail.length < lineCapacity),
    LimStep k (k < lines.length) (performShared limited f w evs) := by
  induction evs with
  | nil => intro w h _ _ _ _ _ _ _ _; exact ⟨h, fun hf => by cases hf⟩
  | cons ev evs ih =>
    intro w h hw hb ho more lines tail hl ht
    rw [List.flatMap_cons, ← List.append_assoc, List.append_assoc (w.total ++ eventBytes u ev)] at hl
    have outCase : (∀ m, ev ≠ .err m) → performShared limited f w (ev :: evs) = andThen (w.writeFmt limited (f.pieces ev)) (fun w => performShared limited f w evs) →
        LimStep k (k < lines.length) (performShared limited f w (ev :: evs)) := by
      intro hne e
      have hf := hands_fmt limited (f.pieces ev) w hw
      have hs := lim_fmt (f.pieces ev) w h hw (evs.flatMap (eventBytes u) ++ more) lines tail (by rw [f.flatten]; exact hl) ht
      rw [f.flatten] at hf
      rw [e]
      refine hs.andThen id fun hr => ih _ hs.1 (hf.2 hr) ?_ ho.tail more lines tail ?_ ht
      · by_cases hm : messages evs = []
        · exact .inr hm
        · left
          rcases ho.head hm with ⟨m, rfl⟩ | ⟨s, rfl⟩
          · exact absurd rfl (hne m)
          · refine buffer_empty (hf.2 hr) (w.total ++ utf8Encode s) ?_
            rw [hf.1.1 hr, eventBytes, encode_append, List.append_assoc]; rfl
      · rw [hf.1.1 hr, List.append_assoc (w.total ++ _)]
        exact hl
    cases ev with
    | out s => exact outCase (fun m h => by cases h) rfl
    | styled c s => exact outCase (fun m h => by cases h) rfl
    | err m =>
      have hb : w.buffer = [] := hb.resolve_right (fun h => by cases h)
      have ht' : w.total = w.delivered := by rw [LineWriter.total, hb, List.append_nil]
      have hf := raw_fmt limited (f.pieces (.err m)) (RawWriter.mk w.delivered w.dev)
      have hs := lim_raw (j := k) (f.pieces (.err m)) (RawWriter.mk w.delivered w.dev) h
      rw [f.flatten] at hf hs
      have hlen : (w.delivered ++ eventBytes u (.err m)).length ≤ lines.length := by
        obtain ⟨l, hl'⟩ := message_end u m
        rw [← ht']
        exact hl.prefix rfl ⟨w.total ++ l, by rw [hl', ← List.append_assoc]⟩
      rw [performShared]
      unfold andThen
      dsimp only at hf hs ⊢
      split
      · rename_i hr
        refine ih ⟨((RawWriter.mk w.delivered w.dev).writeFmt limited (f.pieces (.err m))).2.delivered, w.buffer,
          ((RawWriter.mk w.delivered w.dev).writeFmt limited (f.pieces (.err m))).2.dev⟩ hs.1 hw (.inl hb) ho.tail more lines tail ?_ ht
        have e := hf.1 hr
        rw [LineWriter.total, hb, List.append_nil]
        dsimp only
        rw [e, List.append_assoc (w.delivered ++ _), ← ht']
        exact hl
      · rename_i hr
        refine ⟨hs.1, fun hx => ?_⟩
        have := hs.2 hx
        exact ⟨by omega, this.2⟩

theorem shared_lim {k : Nat} (f : Chunking u) (rt : Runtime) (args : List Str) (more lines tail : List Byte)
    (hl : LinesOf (chronicle u (doMain rt args).out ++ more) lines tail) (ht : tail.length < lineCapacity) :
    ∀ p, p = performShared limited f ⟨[], [], k⟩ (doMain rt args).out → Lim k p.2 ∧ (p.1 = false → k < lines.length ∧ p.2.delivered.length = k) := by
  rintro p rfl
  exact lim_shared f (doMain rt args).out ⟨[], [], k⟩ ⟨rfl, Nat.zero_le _⟩ (by simp) (.inl rfl) (orderly_main rt args) more lines tail hl ht

/-- A device with room for `k` bytes gets the first `k` bytes of both streams in the order of the program. -/
theorem C101_received (rt : Runtime) (f : Chunking u) (k : Nat) (argv : List (List Byte)) (args : List Str) (ha : ArgTexts argv args) :
    (deliverShared rt u f limited k argv).1 = (chronicle u (doMain rt args).out).take k := by
  rw [deliverShared, (envArgs_iff _ _).mpr ha]
  dsimp only
  obtain ⟨g1, g3⟩ := shared_lim (k := k) f rt args [10] _ _ (lines_more _) (by decide) _ rfl
  obtain ⟨s1, s2⟩ := shared_initial limited f k rt args _ rfl
  generalize performShared limited f ⟨[], [], k⟩ (doMain rt args).out = p at *
  have hfl : (p.2.flushBuf limited).2.delivered = p.2.total.take k := by
    show p.2.delivered ++ (pushAll limited p.2.dev p.2.buffer).done = _
    rw [pushAll_limited, g1.1, LineWriter.total, List.take_append, List.take_of_length_le g1.2]
  have hend : (p.2.flushBuf limited).2.delivered = (chronicle u (doMain rt args).out).take k := by
    cases hok : p.1 with
    | true => rw [hfl, (s1 hok).1]
    | false =>
      have h := (g3 hok).2
      refine prefix_take ((flush_prefix _ _).trans s2) ?_
      have h1 := (lim_flush g1).1.2
      have h2 : p.2.delivered.length ≤ (p.2.flushBuf limited).2.delivered.length :=
        (List.prefix_append _ _ : p.2.delivered <+: (p.2.flushBuf limited).2.delivered).length_le
      omega
  split
  · rename_i hok
    split
    · exact hend
    · exact hend
    · rename_i hr
      rw [diverge_silent u rt args hr] at s1 ⊢
      have := (s1 hok).1
      rw [(List.append_eq_nil_iff.mp this).1]
      exact List.take_nil.symm
  · exact hend

/-- The status is 101 exactly if it is anyway or if there is no room for all up to the last line end. -/
theorem C101_limited (rt : Runtime) (f : Chunking u) (k : Nat) (argv : List (List Byte)) (args : List Str) (ha : ArgTexts argv args)
    (lines tail : List Byte) (hl : LinesOf (chronicle u (doMain rt args).out) lines tail) :
    (deliverShared rt u f limited k argv).2 = .status 101 ↔ (process rt u argv).ending = .status 101 ∨ k < lines.length := by
  constructor
  · intro he
    rw [deliverShared, (envArgs_iff _ _).mpr ha] at he
    rw [process, (envArgs_iff _ _).mpr ha]
    dsimp only at he ⊢
    by_cases hpan : ∃ q, (doMain rt args).res = .panic q
    · obtain ⟨q, hq⟩ := hpan
      left; rw [hq]
    · have ht : tail.length < lineCapacity := by
        by_cases hm : messages (doMain rt args).out = []
        · rw [chronicle_out hm] at hl
          exact (process_tail u rt args (fun q hq => hpan ⟨q, hq⟩) lines tail hl).1
        · obtain ⟨-, rfl⟩ := hl.unique (lines_of_end (messages_lines rt args hm))
          decide
      obtain ⟨-, h3⟩ := shared_lim (k := k) f rt args [] lines tail (by rw [List.append_nil]; exact hl) ht _ rfl
      generalize performShared limited f ⟨[], [], k⟩ (doMain rt args).out = p at *
      cases hok : p.1 with
      | false => exact .inr (h3 hok).1
      | true =>
        rw [if_pos hok] at he
        left
        cases hr : (doMain rt args).res with
        | ok c => rw [hr] at he; exact he
        | panic q => rfl
        | diverge => rw [hr] at he; cases he
  · intro h
    refine Classical.byContradiction fun hn => ?_
    obtain ⟨h1, h3⟩ := C101_complete rt f limited k argv args ha hn
    rcases h with h | h
    · exact hn (h1.trans h)
    · have h4 := (h3 _ _ hl).length_le
      rw [C101_received rt f k argv args ha, List.length_take] at h4
      omega

/-- In the modes other than enumerating, at most one of the streams is used. -/
theorem C101_apart (rt : Runtime) (f : Chunking u) (d : Device σ) (hd : Reliable d) (s : σ) (argv : List (List Byte)) (args : List Str)
    (h : ArgTexts argv args) (hm : args[1]? ≠ some "-e".toList ∧ args[1]? ≠ some "--enumerate".toList) :
    ((process rt u argv).stdout = [] ∨ (process rt u argv).stderr = []) ∧
      (deliverShared rt u f d s argv).1 = (process rt u argv).stdout ++ (process rt u argv).stderr := by
  obtain ⟨k1, k2, -⟩ := C89_runs rt u argv args h
  rw [(C101_order rt f d hd s argv args h).1, (utf8_iff _ _).mp k1, (utf8_iff _ _).mp k2]
  by_cases hz : messages (doMain rt args).out = []
  · have e : stderrText u (doMain rt args).out = [] := by rw [stderrText_messages, hz]; rfl
    rw [e, chronicle_out hz]
    exact ⟨.inr rfl, (List.append_nil _).symm⟩
  · obtain ⟨m, hmm⟩ := List.exists_mem_of_ne_nil _ hz
    have single : ∀ {m' c}, doMain rt args = ⟨[.err m'], c⟩ → (utf8Encode (stdoutText (doMain rt args).out) = [] ∨
        utf8Encode (stderrText u (doMain rt args).out) = []) ∧ chronicle u (doMain rt args).out =
          utf8Encode (stdoutText (doMain rt args).out) ++ utf8Encode (stderrText u (doMain rt args).out) := by
      intro m' c h
      rw [h]
      exact ⟨.inl rfl, by simp [chronicle, eventBytes, stdoutText, stderrText, utf8Encode]⟩
    rcases C76_message rt args m hmm with h | ⟨h, -⟩ | ⟨prog, mode, ss, s, x, rfl, hm', -⟩
    · exact single h
    · exact single h
    · rcases hm' with rfl | rfl
      · exact absurd rfl hm.1
      · exact absurd rfl hm.2

/-- The text about an argument of the enumerate mode: its addresses, one on a line, or a line that says why it is no network. -/
def ArgText (T : Texts) (s t : Str) : Prop :=
  T.ipv4.Enumerated s t ∨ T.ipv6.Enumerated s t ∨
    ∃ q w, QuotedText q s ∧ NetworkSays s w ∧ t = chars! "failed to parse network " ++ q ++ chars! ": " ++ w ++ ['\n']

theorem argText_of {s : Str} {evs : List OutEv} (h : ArgOutput s evs) : ∃ t, ArgText shownTexts s t ∧ chronicle u evs = utf8Encode t := by
  have lines : ∀ {A : Type} [IpAddr A] (xs : List A), chronicle u (xs.map fun x : A => .out (IpAddr.display x ++ ['\n'])) =
      utf8Encode (visible (xs.map fun x : A => .out (IpAddr.display x ++ ['\n']))) := by
    intro A _ xs
    induction xs with
    | nil => rfl
    | cons x xs ih =>
      have e : visible ((x :: xs).map fun x : A => .out (IpAddr.display x ++ ['\n'])) =
          (IpAddr.display x ++ ['\n']) ++ visible (xs.map fun x : A => .out (IpAddr.display x ++ ['\n'])) := by
        simp [visible, cells, cellsOf, Function.comp_def]
      rw [e, encode_append, ← ih]; rfl
  rcases h with ⟨e, h, rfl⟩ | ⟨a, n, xs, h1, h2, rfl⟩ | ⟨a, n, xs, h1, h2, rfl⟩
  · refine ⟨(ErrMsg.enumerateNet s e).text u, .inr (.inr ⟨_, _, quotedText u s, C81_network u s e ((parseNetspec_error s e).mp h), text_one rfl⟩), ?_⟩
    simp [chronicle, eventBytes]
  · exact ⟨_, .inl ((enumerated4_iff _ _).mpr ⟨a, n, xs, h1, h2, rfl⟩), lines xs⟩
  · exact ⟨_, .inr (.inl ((enumerated6_iff _ _).mpr ⟨a, n, xs, h1, h2, rfl⟩)), lines xs⟩

theorem argTexts_of {ss : List Str} {evss : List (List OutEv)} (h : Pointwise ArgOutput ss evss) :
    ∃ ts, Pointwise (ArgText shownTexts) ss ts ∧ chronicle u evss.flatten = utf8Encode ts.flatten := by
  induction h with
  | nil => exact ⟨[], .nil, rfl⟩
  | cons h _ ih =>
    obtain ⟨t, h1, h2⟩ := argText_of (u := u) h
    obtain ⟨ts, h3, h4⟩ := ih
    refine ⟨t :: ts, .cons h1 h3, ?_⟩
    rw [List.flatten_cons, List.flatten_cons, encode_append, ← h2, ← h4, chronicle, List.flatMap_append]
    rfl

/-- Enumerating on a terminal: for each argument, in order, its addresses or the line that says why it is no network. -/
theorem C101_enumerate (rt : Runtime) (f : Chunking u) (d : Device σ) (hd : Reliable d) (s : σ) (argv : List (List Byte)) (prog mode : Str)
    (rest : List Str) (h : ArgTexts argv (prog :: mode :: rest)) (hm : mode = "-e".toList ∨ mode = "--enumerate".toList) (hne : rest ≠ [])
    (T : Texts) (hT : T.Right) : ∃ ts, Pointwise (ArgText T) rest ts ∧ Utf8 ts.flatten (deliverShared rt u f d s argv).1 := by
  cases (texts_right T).mp hT
  obtain ⟨evss, code, h1, h2, -⟩ := C38_enumerate rt (prog :: mode :: rest) (by
    have := List.length_pos_iff.mpr hne
    simp only [List.length_cons]; omega)
  obtain ⟨ts, h3, h4⟩ := argTexts_of (u := u) h1
  refine ⟨ts, h3, (utf8_iff _ _).mpr ?_⟩
  rw [(C101_order rt f d hd s argv _ h).1, (C56_dispatch rt prog mode rest).2.2.2.2.1 hm, h2]
  exact h4

/-! The message about the second argument stands between the addresses of the first and the third. -/
example (u : CharTable) (f : Chunking u) : (deliverShared (evalRuntime .checked true) u f (fun (_ : Unit) _ => (some 1, ())) ()
      [argOf "ripcalc", argOf "-e", argOf "192.0.2.0/31", argOf "x", argOf "192.0.2.4/31"]).1 =
    utf8Encode ("192.0.2.0\n192.0.2.1\n".toList ++ (ErrMsg.enumerateNet "x".toList (.unrecognized "x".toList)).text u ++
      "192.0.2.4\n192.0.2.5\n".toList) := by
  have ha : ArgTexts [argOf "ripcalc", argOf "-e", argOf "192.0.2.0/31", argOf "x", argOf "192.0.2.4/31"]
      (["ripcalc", "-e", "192.0.2.0/31", "x", "192.0.2.4/31"].map String.toList) :=
    .cons ((utf8_iff _ _).mpr rfl) (.cons ((utf8_iff _ _).mpr rfl) (.cons ((utf8_iff _ _).mpr rfl)
      (.cons ((utf8_iff _ _).mpr rfl) (.cons ((utf8_iff _ _).mpr rfl) .nil))))
  rw [(C101_order _ f _ (fun _ _ _ => ⟨0, rfl⟩) () _ _ ha).1]
  have he : Conformance.doMainE 100 (evalRuntime .checked true) (["ripcalc", "-e", "192.0.2.0/31", "x", "192.0.2.4/31"].map String.toList) =
      ⟨["192.0.2.0\n", "192.0.2.1\n"].map (fun s => .out s.toList) ++ [.err (.enumerateNet "x".toList (.unrecognized "x".toList))] ++
        ["192.0.2.4\n", "192.0.2.5\n"].map (fun s => .out s.toList), .ok 1⟩ := by decide +kernel
  rcases Conformance.doMainE_approx 100 (evalRuntime .checked true)
    (["ripcalc", "-e", "192.0.2.0/31", "x", "192.0.2.4/31"].map String.toList) with h | h
  · rw [he] at h; cases h
  · rw [← h, he]
    generalize ErrMsg.enumerateNet "x".toList (.unrecognized "x".toList) = m
    rw [encode_append, encode_append, chronicle, List.flatMap_append, List.flatMap_append]
    have e : [OutEv.err m].flatMap (eventBytes u) = utf8Encode (m.text u) := by simp [eventBytes]
    rw [e]
    rfl

/-- With room for twelve bytes the status is 101, with room for thirteen it is not. -/
example (u : CharTable) (f : Chunking u) (k : Nat) :
    (deliverShared (evalRuntime .checked true) u f limited k [argOf "ripcalc", argOf "-m", argOf "192.0.2.0/24"]).2 = .status 101 ↔ k < 13 := by
  have ha : ArgTexts [argOf "ripcalc", argOf "-m", argOf "192.0.2.0/24"] ["ripcalc".toList, "-m".toList, "192.0.2.0/24".toList] :=
    (envArgs_iff _ _).mp (by decide +kernel)
  have hc : doMain (evalRuntime .checked true) ["ripcalc".toList, "-m".toList, "192.0.2.0/24".toList] =
      ⟨[.out "192.0.2.0/24\n".toList], .ok 0⟩ := by
    have he : Conformance.doMainE 100 (evalRuntime .checked true) ["ripcalc".toList, "-m".toList, "192.0.2.0/24".toList] =
        ⟨[.out "192.0.2.0/24\n".toList], .ok 0⟩ := by decide +kernel
    rcases Conformance.doMainE_approx 100 (evalRuntime .checked true) ["ripcalc".toList, "-m".toList, "192.0.2.0/24".toList] with h | h
    · rw [he] at h; cases h
    · rw [← h, he]
  rw [C101_limited _ f k _ _ ha (utf8Encode "192.0.2.0/24\n".toList) [] (by
    have e : chronicle u [.out "192.0.2.0/24\n".toList] = utf8Encode "192.0.2.0/24\n".toList := List.append_nil _
    rw [hc, e]
    exact lines_of_end (.inr ⟨utf8Encode "192.0.2.0/24".toList, by decide⟩)), (C89_runs _ u _ _ ha).2.2.1 0 (by rw [hc])]
  rw [show (utf8Encode "192.0.2.0/24\n".toList).length = 13 from by decide]
  constructor
  · rintro (h | h)
    · cases h
    · exact h
  · exact .inr

/-- This is not so for all programs: a message written while a line is open comes before this line. -/
example (u : CharTable) (m : ErrMsg) :
    ((performShared (fun (_ : Unit) bs => (some bs.length, ())) (onePiece u) ⟨[], [], ()⟩ [.out ['x'], .err m]).2.flushBuf
      (fun (_ : Unit) bs => (some bs.length, ()))).2.delivered = utf8Encode (m.text u) ++ utf8Encode ['x'] := by
  have hp : ∀ bs, pushAll (fun (_ : Unit) (bs : List Byte) => (some bs.length, ())) () bs = ⟨bs, [], true, ()⟩ := by
    intro bs
    rw [pushAll]
    by_cases h : bs = []
    · subst h; rfl
    · rw [dif_neg h]
      obtain ⟨k, hk⟩ : ∃ k, bs.length = k + 1 := ⟨bs.length - 1, by have := List.length_pos_iff.mpr h; omega⟩
      rw [hk]
      dsimp only
      rw [List.take_of_length_le (by omega), List.drop_eq_nil_of_le (by omega), pushAll]
      simp
  have hx : utf8Encode ['x'] = [120] := rfl
  simp [performShared, LineWriter.writeFmt, LineWriter.writeAll, LineWriter.bufWriteAll, LineWriter.flushBuf, RawWriter.writeFmt, andThen,
    upToLine, lineCapacity, onePiece, eventBytes, hx, hp]

end Ripcalc
