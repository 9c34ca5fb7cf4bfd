import Verif.Proofs.Stdio
import Verif.Props.Process
import Verif.Props.Lines
/-!
# Properties of the process when writing fails
-/
namespace Ripcalc
open AddrSpec LawfulIpAddr

variable {σ τ : Type} {u : CharTable}

theorem diverge_silent (u : CharTable) (rt : Runtime) (args : List Str) (h : (doMain rt args).res = .diverge) : (doMain rt args).out = [] := by
  have ha : ArgTexts (args.map utf8Encode) args := by
    clear h
    induction args with
    | nil => exact .nil
    | cons a args ih => exact .cons ((utf8_iff _ _).mpr rfl) ih
  have hn := (C89_runs rt u _ _ ha).2.2.2.2 h
  obtain ⟨hp, prog, mode, x, y, h1, hm, h2⟩ := (C89_endless rt u _).mp hn
  have : args = [prog, mode, x, y] := by
    have e1 := (envArgs_iff _ _).mpr ha
    rw [(envArgs_iff _ _).mpr h1] at e1
    exact (Option.some.inj e1).symm
  subst this
  rw [(C56_dispatch rt prog mode [x, y]).2.1 hm]
  rcases h2 with ⟨a, b, k1, k2, k3, k4⟩ | ⟨a, b, k1, k2, k3, k4⟩
  · rw [(C39_command_v4 rt prog mode x y a b k1 k2).2.2 ((range_diverge _ _ _).mpr ⟨hp, k3, k4⟩)]
  · rw [(C39_command_v6 rt prog mode x y a b k1 k2).2.2 ((range_diverge _ _ _).mpr ⟨hp, k3, k4⟩)]

theorem flush_prefix (d : Device σ) (w : LineWriter σ) : (w.flushBuf d).2.delivered <+: w.total := by
  have h := (hands_flush d w).1.2
  rw [List.append_nil] at h
  exact (List.prefix_append _ _).trans h

theorem initial_spec (d : Device σ) (e : Device τ) (f : Chunking u) (s : σ) (t : τ) (evs : List OutEv) :
    ∀ p, p = perform d e f ⟨⟨[], [], s⟩, ⟨[], t⟩⟩ evs →
    (p.1 = true → p.2.out.total = outBytes evs ∧ (10 : Byte) ∉ p.2.out.buffer ∧ p.2.err.delivered = errBytes u evs) ∧
    p.2.out.total <+: outBytes evs ∧ p.2.err.delivered <+: errBytes u evs := by
  rintro p rfl
  exact perform_spec d e f evs ⟨⟨[], [], s⟩, ⟨[], t⟩⟩ (by simp)

/-! ## C93: no output is lost silently -/

/-- Whatever the devices do, they get a part of the output from its beginning. -/
theorem C93_prefix (rt : Runtime) (f : Chunking u) (d : Device σ) (e : Device τ) (s : σ) (t : τ) (argv : List (List Byte)) :
    (deliver rt u f d e s t argv).stdout <+: (process rt u argv).stdout ∧ (deliver rt u f d e s t argv).stderr <+: (process rt u argv).stderr := by
  rw [deliver, process]
  cases envArgs argv with
  | none => exact ⟨List.prefix_refl _, List.prefix_refl _⟩
  | some args =>
    dsimp only
    obtain ⟨-, h1, h2⟩ := initial_spec d e f s t (doMain rt args).out _ rfl
    have h3 := (flush_prefix d _).trans h1
    split
    · split
      · exact ⟨h3, h2⟩
      · exact ⟨h3, h2⟩
      · exact ⟨(List.prefix_append _ _).trans h1, h2⟩
    · exact ⟨h3, h2⟩

/-- If no write fails, everything is written, however many bytes each write takes. -/
theorem C93_reliable (rt : Runtime) (f : Chunking u) (d : Device σ) (e : Device τ) (hd : Reliable d) (he : Reliable e) (s : σ) (t : τ)
    (argv : List (List Byte)) : deliver rt u f d e s t argv = process rt u argv := by
  rw [deliver, process]
  cases envArgs argv with
  | none => rfl
  | some args =>
    dsimp only
    obtain ⟨h0, -, -⟩ := initial_spec d e f s t (doMain rt args).out _ rfl
    have hok := perform_reliable hd he f (doMain rt args).out ⟨⟨[], [], s⟩, ⟨[], t⟩⟩
    obtain ⟨h1, h2, h3⟩ := h0 hok
    rw [if_pos hok]
    generalize hp : perform d e f ⟨⟨[], [], s⟩, ⟨[], t⟩⟩ (doMain rt args).out = p at *
    have h4 : (p.2.out.flushBuf d).2.delivered = outBytes (doMain rt args).out := by
      have hfl : (p.2.out.flushBuf d).1 = true := pushAll_reliable hd _ _
      have g1 := (hands_flush d p.2.out).1.1 hfl
      have g2 := (hands_flush d p.2.out).2 hfl
      rw [List.append_nil, LineWriter.total, g2, List.append_nil, h1] at g1
      exact g1
    cases hr : (doMain rt args).res with
    | ok c => dsimp only; rw [h4, h3]; rfl
    | panic q => dsimp only; rw [h4, h3]; rfl
    | diverge =>
      have hs := diverge_silent u rt args hr
      dsimp only
      rw [h3]
      have h5 : p.2.out.delivered = [] := by
        rw [hs] at h1
        exact (List.append_eq_nil_iff.mp h1).1
      rw [h5, hs]; rfl

/-- If the status is not 101, standard error got everything, standard output everything up to the last line end, and the process ended as it
does when nothing fails. -/
theorem C93_complete (rt : Runtime) (f : Chunking u) (d : Device σ) (e : Device τ) (s : σ) (t : τ) (argv : List (List Byte))
    (h : (deliver rt u f d e s t argv).ending ≠ .status 101) :
    (deliver rt u f d e s t argv).ending = (process rt u argv).ending ∧ (deliver rt u f d e s t argv).stderr = (process rt u argv).stderr ∧
    ∀ lines tail, LinesOf (process rt u argv).stdout lines tail → lines <+: (deliver rt u f d e s t argv).stdout := by
  rw [deliver] at h ⊢
  rw [process]
  cases ha : envArgs argv with
  | none => rw [ha] at h; exact absurd rfl h
  | some args =>
    rw [ha] at h
    dsimp only at h ⊢
    obtain ⟨h0, -, -⟩ := initial_spec d e f s t (doMain rt args).out _ rfl
    generalize perform d e f ⟨⟨[], [], s⟩, ⟨[], t⟩⟩ (doMain rt args).out = p at *
    by_cases hok : p.1 = true
    · obtain ⟨h1, h2, h3⟩ := h0 hok
      have key : ∀ lines tail, LinesOf (outBytes (doMain rt args).out) lines tail → lines <+: p.2.out.delivered :=
        fun lines tail hl => (hl.suffix (a := p.2.out.delivered) (b := p.2.out.buffer) h1.symm h2).1
      have hd : p.2.out.delivered <+: (p.2.out.flushBuf d).2.delivered := List.prefix_append _ _
      rw [if_pos hok] at h ⊢
      cases hr : (doMain rt args).res with
      | ok c => exact ⟨rfl, h3, fun l t hl => (key l t hl).trans hd⟩
      | panic q => exact ⟨rfl, h3, fun l t hl => (key l t hl).trans hd⟩
      | diverge => exact ⟨rfl, h3, fun l t hl => key l t hl⟩
    · rw [if_neg hok] at h
      exact absurd rfl h

theorem encode_newline {t : Str} (h : t = [] ∨ ∃ p, t = p ++ ['\n']) : LinesOf (utf8Encode t) (utf8Encode t) [] := by
  refine ⟨by simp, by simp, ?_⟩
  rcases h with rfl | ⟨p, rfl⟩
  · exact .inl rfl
  · refine .inr ⟨utf8Encode p, ?_⟩
    rw [encode_append]; rfl

/-- Unless the run leaves its last line open, lost output is noticed: if the status is not 101, everything was written. -/
theorem C93_noticed_partial (rt : Runtime) (f : Chunking u) (d : Device σ) (e : Device τ) (s : σ) (t : τ) (argv : List (List Byte)) (args : List Str)
    (ha : ArgTexts argv args) (ho : ¬ OpenEnd rt.colorsEnabled args) (h : (deliver rt u f d e s t argv).ending ≠ .status 101) :
    deliver rt u f d e s t argv = process rt u argv := by
  obtain ⟨h1, h2, h3⟩ := C93_complete rt f d e s t argv h
  have hp := (C93_prefix rt f d e s t argv).1
  obtain ⟨r1, -, r2, r3, r4⟩ := C89_runs rt u argv args ha
  have hout : (process rt u argv).stdout = utf8Encode (stdoutText (doMain rt args).out) := (utf8_iff _ _).mp r1
  have hl : LinesOf (process rt u argv).stdout (process rt u argv).stdout [] := by
    rw [hout]
    refine encode_newline ?_
    cases hr : (doMain rt args).res with
    | ok c =>
      rcases main_tail rt args c hr with ⟨-, g⟩ | ⟨g, -⟩
      · exact g
      · exact absurd g ho
    | panic q => rw [r3 q hr] at h1; exact absurd h1 h
    | diverge => rw [diverge_silent u rt args hr]; exact .inl rfl
  have h4 := h3 _ _ hl
  have h5 := hp.eq_of_length (Nat.le_antisymm hp.length_le h4.length_le)
  cases hD : deliver rt u f d e s t argv
  cases hP : process rt u argv
  rw [hD, hP] at h1 h2 h5
  cases h1; cases h2; cases h5
  rfl

theorem encode_mem {t : Str} (h : ∀ c ∈ t, c.toNat < 0x80) : (10 : Byte) ∈ utf8Encode t ↔ '\n' ∈ t := by
  rw [encode_ascii h, List.mem_map]
  constructor
  · rintro ⟨c, hc, he⟩
    have h1 := congrArg BitVec.toNat he
    rw [byte_toNat (by have := h c hc; omega)] at h1
    have : c = '\n' := by
      apply Char.ext
      apply UInt32.toNat.inj
      exact h1
    rw [← this]; exact hc
  · intro hm; exact ⟨_, hm, rfl⟩

theorem open_texts : ∀ t ∈ openTexts, t ≠ [] ∧ '\n' ∉ t ∧ t.length < 1024 ∧ ∀ c ∈ t, c.toNat < 0x80 := by decide +kernel

/-- What stands after the last line end of a run that does not panic is short; it is empty exactly if the run leaves no line open. -/
theorem process_tail (u : CharTable) (rt : Runtime) (args : List Str) (h : ∀ p, (doMain rt args).res ≠ .panic p) (lines tail : List Byte)
    (hl : LinesOf (outBytes (doMain rt args).out) lines tail) :
    tail.length < lineCapacity ∧ ∀ c, (doMain rt args).res = .ok c → (tail = [] ↔ ¬ OpenEnd rt.colorsEnabled args) := by
  cases hr : (doMain rt args).res with
  | ok c =>
    rcases main_tail rt args c hr with ⟨g1, g2⟩ | ⟨g1, p, t, ht, g2, g3⟩
    · obtain ⟨-, rfl⟩ := hl.unique (encode_newline g2)
      exact ⟨by decide, fun _ _ => ⟨fun _ => g1, fun _ => rfl⟩⟩
    · obtain ⟨t1, t2, t3, t4⟩ := open_texts t ht
      have hp : LinesOf (outBytes (doMain rt args).out) (utf8Encode p) (utf8Encode t) := by
        refine ⟨by rw [outBytes, g2, encode_append], fun hm => t2 ((encode_mem t4).mp hm), (encode_newline g3).lines⟩
      obtain ⟨-, rfl⟩ := hl.unique hp
      have hlen : (utf8Encode t).length = t.length := by rw [encode_ascii t4, List.length_map]
      refine ⟨by rw [hlen]; exact t3, fun _ _ => ⟨fun he => ?_, fun hn => absurd g1 hn⟩⟩
      exact absurd (encode_nil he) t1
  | panic p => exact absurd hr (h p)
  | diverge =>
    rw [diverge_silent u rt args hr] at hl
    obtain ⟨-, rfl⟩ := hl.unique (encode_newline (.inl rfl))
    exact ⟨by decide, fun c hc => by cases hc⟩

theorem initial_lim {j k : Nat} (f : Chunking u) (evs : List OutEv) (more lines tail : List Byte)
    (hl : LinesOf (outBytes evs ++ more) lines tail) (ht : tail.length < lineCapacity) :
    ∀ p, p = perform limited limited f ⟨⟨[], [], k⟩, ⟨[], j⟩⟩ evs →
    Lim k p.2.out ∧ LimRaw j p.2.err ∧
    (p.1 = false → (k < lines.length ∧ p.2.out.delivered.length = k) ∨ (j < (errBytes u evs).length ∧ p.2.err.delivered.length = j)) := by
  rintro p rfl
  exact lim_perform f evs ⟨⟨[], [], k⟩, ⟨[], j⟩⟩ ⟨rfl, Nat.zero_le _⟩ ⟨rfl, Nat.zero_le _⟩ (by simp) more lines tail hl ht

theorem lines_more (bs : List Byte) : LinesOf (bs ++ [10]) (bs ++ [10]) [] := ⟨by simp, by simp, .inr ⟨bs, rfl⟩⟩

/-- With room for `k` bytes on standard output and for `j` on standard error, the status is 101 exactly if it is anyway, or if
the output up to the last line end or the messages do not fit. -/
theorem C93_limited (rt : Runtime) (f : Chunking u) (k j : Nat) (argv : List (List Byte)) (lines tail : List Byte)
    (hl : LinesOf (process rt u argv).stdout lines tail) :
    (deliver rt u f limited limited k j argv).ending = .status 101 ↔
      (process rt u argv).ending = .status 101 ∨ k < lines.length ∨ j < (process rt u argv).stderr.length := by
  constructor
  · intro he
    rw [deliver] at he
    rw [process] at hl ⊢
    cases ha : envArgs argv with
    | none => exact .inl rfl
    | some args =>
      rw [ha] at he hl
      dsimp only at he hl ⊢
      have hl : LinesOf (outBytes (doMain rt args).out) lines tail := hl
      by_cases hpan : ∃ q, (doMain rt args).res = .panic q
      · obtain ⟨q, hq⟩ := hpan
        left; rw [hq]
      · have ht := (process_tail u rt args (fun q hq => hpan ⟨q, hq⟩) lines tail hl).1
        obtain ⟨-, -, h3⟩ := initial_lim (k := k) (j := j) f (doMain rt args).out [] lines tail (by rw [List.append_nil]; exact hl) ht _ rfl
        generalize perform limited limited f ⟨⟨[], [], k⟩, ⟨[], j⟩⟩ (doMain rt args).out = p at *
        cases hok : p.1 with
        | false =>
          rcases h3 hok with ⟨h, -⟩ | ⟨h, -⟩
          · exact .inr (.inl h)
          · exact .inr (.inr h)
        | true =>
          rw [if_pos hok] at he
          left
          cases hr : (doMain rt args).res with
          | ok c => rw [hr] at he; exact he
          | panic q => rfl
          | diverge => rw [hr] at he; cases he
  · intro h
    refine Classical.byContradiction fun hn => ?_
    obtain ⟨h1, h2, h3⟩ := C93_complete rt f limited limited k j argv hn
    have hlen : (deliver rt u f limited limited k j argv).stdout.length ≤ k ∧ (deliver rt u f limited limited k j argv).stderr.length ≤ j := by
      rw [deliver]
      cases envArgs argv with
      | none => exact ⟨Nat.zero_le _, Nat.zero_le _⟩
      | some args =>
        dsimp only
        obtain ⟨g1, g2, -⟩ := initial_lim (k := k) (j := j) f (doMain rt args).out [10] _ _ (lines_more _) (by decide) _ rfl
        generalize perform limited limited f ⟨⟨[], [], k⟩, ⟨[], j⟩⟩ (doMain rt args).out = p at *
        have g3 := (lim_flush g1).1
        split
        · split
          · exact ⟨g3.2, g2.2⟩
          · exact ⟨g3.2, g2.2⟩
          · exact ⟨g1.2, g2.2⟩
        · exact ⟨g3.2, g2.2⟩
    rcases h with h | h | h
    · exact hn (h1.trans h)
    · have := (h3 _ _ hl).length_le
      omega
    · rw [← h2] at h
      omega

theorem prefix_take {a b : List α} {k : Nat} (h : a <+: b) (hk : a.length = k) : a = b.take k := by
  obtain ⟨c, rfl⟩ := h
  rw [← hk, List.take_left']; rfl

/-- If the messages fit, standard output gets its first `k` bytes. -/
theorem C93_stdout (rt : Runtime) (f : Chunking u) (k j : Nat) (argv : List (List Byte)) (hj : (process rt u argv).stderr.length ≤ j) :
    (deliver rt u f limited limited k j argv).stdout = (process rt u argv).stdout.take k := by
  rw [process] at hj ⊢
  rw [deliver]
  cases ha : envArgs argv with
  | none => exact List.take_nil.symm
  | some args =>
    rw [ha] at hj
    dsimp only at hj ⊢
    have hj : (errBytes u (doMain rt args).out).length ≤ j := hj
    show _ = (outBytes (doMain rt args).out).take k
    obtain ⟨g1, g2, g3⟩ := initial_lim (k := k) (j := j) f (doMain rt args).out [10] _ _ (lines_more _) (by decide) _ rfl
    obtain ⟨s1, s2, s3⟩ := initial_spec limited limited f k j (doMain rt args).out _ rfl
    generalize perform limited limited f ⟨⟨[], [], k⟩, ⟨[], j⟩⟩ (doMain rt args).out = p at *
    have hfl : (p.2.out.flushBuf limited).2.delivered = p.2.out.total.take k := by
      show p.2.out.delivered ++ (pushAll limited p.2.out.dev p.2.out.buffer).done = _
      rw [pushAll_limited, g1.1, LineWriter.total, List.take_append, List.take_of_length_le g1.2]
    have hend : (p.2.out.flushBuf limited).2.delivered = (outBytes (doMain rt args).out).take k := by
      cases hok : p.1 with
      | true => rw [hfl, (s1 hok).1]
      | false =>
        rcases g3 hok with ⟨-, h⟩ | ⟨h, -⟩
        · refine prefix_take ((flush_prefix _ _).trans s2) ?_
          have h1 := (lim_flush g1).1.2
          have h2 : p.2.out.delivered.length ≤ (p.2.out.flushBuf limited).2.delivered.length :=
            (List.prefix_append _ _ : p.2.out.delivered <+: (p.2.out.flushBuf limited).2.delivered).length_le
          omega
        · omega
    split
    · rename_i hok
      split
      · exact hend
      · exact hend
      · rename_i hr
        rw [diverge_silent u rt args hr] at s1 ⊢
        have := (s1 hok).1
        rw [(List.append_eq_nil_iff.mp this).1]
        simp [outBytes, stdoutText, utf8Encode]
    · exact hend

/-- If there is room for more than the output, standard error gets its first `j` bytes. -/
theorem C93_stderr (rt : Runtime) (f : Chunking u) (k j : Nat) (argv : List (List Byte)) (hk : (process rt u argv).stdout.length < k) :
    (deliver rt u f limited limited k j argv).stderr = (process rt u argv).stderr.take j := by
  rw [process] at hk ⊢
  rw [deliver]
  cases ha : envArgs argv with
  | none => exact List.take_nil.symm
  | some args =>
    rw [ha] at hk
    dsimp only at hk ⊢
    have hk : (outBytes (doMain rt args).out).length < k := hk
    show _ = (errBytes u (doMain rt args).out).take j
    obtain ⟨g1, g2, g3⟩ := initial_lim (k := k) (j := j) f (doMain rt args).out [10] _ _ (lines_more _) (by decide) _ rfl
    obtain ⟨s1, s2, s3⟩ := initial_spec limited limited f k j (doMain rt args).out _ rfl
    generalize perform limited limited f ⟨⟨[], [], k⟩, ⟨[], j⟩⟩ (doMain rt args).out = p at *
    have hend : p.2.err.delivered = (errBytes u (doMain rt args).out).take j := by
      cases hok : p.1 with
      | true =>
        have h1 := (s1 hok).2.2
        have h2 := g2.2
        rw [h1] at h2
        rw [h1, List.take_of_length_le h2]
      | false =>
        rcases g3 hok with ⟨h, -⟩ | ⟨-, h⟩
        · rw [List.length_append, List.length_singleton] at h; omega
        · exact prefix_take s3 h
    split
    · split
      · exact hend
      · exact hend
      · exact hend
    · exact hend

/-- A run that leaves its last line open can lose this line with the status of success: if there is room exactly up to the last line end. -/
theorem C93_silent (rt : Runtime) (f : Chunking u) (argv : List (List Byte)) (args : List Str) (ha : ArgTexts argv args)
    (ho : OpenEnd rt.colorsEnabled args) (c : Nat) (hc : (doMain rt args).res = .ok c) (lines tail : List Byte)
    (hl : LinesOf (process rt u argv).stdout lines tail) :
    (deliver rt u f limited limited lines.length (process rt u argv).stderr.length argv).ending = .status c ∧
    (deliver rt u f limited limited lines.length (process rt u argv).stderr.length argv).stdout = lines ∧ tail ≠ [] := by
  obtain ⟨r1, -, r2, r3, r4⟩ := C89_runs rt u argv args ha
  have hout : (process rt u argv).stdout = outBytes (doMain rt args).out := (utf8_iff _ _).mp r1
  have hne : (process rt u argv).ending ≠ .status 101 := by
    rw [r2 c hc]
    rcases main_cases rt args with h | h | ⟨⟨p, h⟩ | h, -⟩ <;> rw [hc] at h <;> cases h <;> decide
  have hn : (deliver rt u f limited limited lines.length (process rt u argv).stderr.length argv).ending ≠ .status 101 := by
    intro h
    rcases (C93_limited rt f _ _ argv lines tail hl).mp h with h | h | h
    · exact hne h
    · omega
    · omega
  refine ⟨?_, ?_, ?_⟩
  · rw [(C93_complete rt f _ _ _ _ argv hn).1, r2 c hc]
  · rw [C93_stdout rt f _ _ argv (Nat.le_refl _), hl.append, List.take_left']; rfl
  · intro h
    rw [hout] at hl
    exact ((process_tail u rt args (fun q hq => by rw [hc] at hq; cases hq) lines tail hl).2 c hc).mp h ho

theorem no_line {bs : List Byte} (h : (10 : Byte) ∉ bs) : upToLine bs = [] := by
  refine (upToLine_end bs).resolve_right fun ⟨l, hl⟩ => h ?_
  rw [← upToLine_append bs, hl]; simp

theorem fmt_buffers (d : Device σ) (ps : List (List Byte)) : ∀ w : LineWriter σ, (10 : Byte) ∉ w.buffer ++ ps.flatten →
    (w.buffer ++ ps.flatten).length < lineCapacity → w.writeFmt d ps = (true, { w with buffer := w.buffer ++ ps.flatten }) := by
  induction ps with
  | nil => intro w _ _; simp [LineWriter.writeFmt]
  | cons p ps ih =>
    intro w hn hl
    rw [List.flatten_cons] at hn hl ⊢
    have hw : (10 : Byte) ∉ w.buffer := fun h => hn (List.mem_append_left _ h)
    have hp : (10 : Byte) ∉ p := fun h => hn (List.mem_append_right _ (List.mem_append_left _ h))
    have e : w.writeAll d p = (true, { w with buffer := w.buffer ++ p }) := by
      rw [LineWriter.writeAll, if_pos (no_line hp), if_neg (last_not hw), andThen, if_pos rfl, LineWriter.bufWriteAll, if_pos]
      simp only [List.length_append] at hl
      dsimp only
      omega
    rw [LineWriter.writeFmt, e, andThen, if_pos rfl]
    have := ih { w with buffer := w.buffer ++ p } (by simpa [List.append_assoc] using hn) (by simpa [List.append_assoc] using hl)
    rw [this]
    simp [List.append_assoc]

theorem perform_buffers (d : Device σ) (e : Device τ) (f : Chunking u) (evs : List OutEv) (he : ∀ m, .err m ∉ evs) : ∀ st : Streams σ τ,
    (10 : Byte) ∉ st.out.buffer ++ outBytes evs → (st.out.buffer ++ outBytes evs).length < lineCapacity →
    perform d e f st evs = (true, { st with out := { st.out with buffer := st.out.buffer ++ outBytes evs } }) := by
  induction evs with
  | nil => intro st _ _; simp [perform, outBytes, stdoutText, utf8Encode]
  | cons ev evs ih =>
    intro st hn hl
    have he' : ∀ m, .err m ∉ evs := fun m h => he m (by simp [h])
    have go : ∀ t, eventBytes u ev = utf8Encode t → stdoutText (ev :: evs) = t ++ stdoutText evs →
        perform d e f st (ev :: evs) = andThen ((st.out.writeFmt d (f.pieces ev)).1, { st with out := (st.out.writeFmt d (f.pieces ev)).2 })
          (fun st => perform d e f st evs) →
        perform d e f st (ev :: evs) = (true, { st with out := { st.out with buffer := st.out.buffer ++ outBytes (ev :: evs) } }) := by
      intro t e1 e2 e3
      rw [outBytes, e2, encode_append] at hn hl ⊢
      have hf : (f.pieces ev).flatten = utf8Encode t := by rw [f.flatten, e1]
      rw [e3, fmt_buffers d (f.pieces ev) st.out (by
          rw [hf]; intro h; exact hn (by rw [← List.append_assoc]; exact List.mem_append_left _ h))
        (by rw [hf]; simp only [List.length_append] at hl ⊢; omega), andThen, if_pos rfl]
      dsimp only
      rw [ih he', hf]
      · simp [outBytes, List.append_assoc]
      · dsimp only; rw [hf, List.append_assoc]; exact hn
      · dsimp only; rw [hf, List.append_assoc]; exact hl
    cases ev with
    | out s => exact go s rfl rfl rfl
    | styled c s => exact go _ rfl rfl rfl
    | err m => exact absurd (by simp) (he m)

/-- The coloured colour test ends with status 0 whatever happens to its output. -/
theorem C93_color_test (rt : Runtime) (hc : rt.colorsEnabled = true) (f : Chunking u) (d : Device σ) (e : Device τ) (s : σ) (t : τ)
    (argv : List (List Byte)) (prog : Str) (rest : List Str) (ha : ArgTexts argv (prog :: "--color-test".toList :: rest)) :
    (deliver rt u f d e s t argv).ending = .status 0 := by
  rw [deliver, (envArgs_iff _ _).mpr ha]
  dsimp only
  rw [doMain_colorTest]
  dsimp only
  obtain ⟨-, t2, t3, t4⟩ := open_texts _ (List.mem_cons_of_mem _ (List.mem_singleton_self _))
  rw [perform_buffers d e f (colorTest rt).out]
  · rfl
  · intro m hm
    exact tidy_colorTest rt _ hm
  · rw [outBytes, stdout_colorTest rt hc, List.nil_append]
    exact fun h => t2 ((encode_mem t4).mp h)
  · rw [outBytes, stdout_colorTest rt hc, List.nil_append, encode_ascii t4, List.length_map]
    exact t3

/-- On a full device the coloured colour test writes nothing and ends with status 0, although there is something to write. -/
theorem C93_counterexample (rt : Runtime) (hc : rt.colorsEnabled = true) (f : Chunking u) (j : Nat) :
    (deliver rt u f limited limited 0 j [utf8Encode "ripcalc".toList, utf8Encode "--color-test".toList]).ending = .status 0 ∧
    (deliver rt u f limited limited 0 j [utf8Encode "ripcalc".toList, utf8Encode "--color-test".toList]).stdout = [] ∧
    (process rt u [utf8Encode "ripcalc".toList, utf8Encode "--color-test".toList]).stdout ≠ [] := by
  have ha : ArgTexts [utf8Encode "ripcalc".toList, utf8Encode "--color-test".toList] ["ripcalc".toList, "--color-test".toList] :=
    .cons ((utf8_iff _ _).mpr rfl) (.cons ((utf8_iff _ _).mpr rfl) .nil)
  have h0 := (utf8_iff _ _).mp (C89_runs rt u _ _ ha).1
  rw [doMain_colorTest] at h0
  have h1 : (process rt u [utf8Encode "ripcalc".toList, utf8Encode "--color-test".toList]).stderr = [] := by
    rw [(utf8_iff _ _).mp (C89_runs rt u _ _ ha).2.1, doMain_colorTest, stderr_nil u _ (tidy_messages (tidy_colorTest rt))]; rfl
  refine ⟨C93_color_test rt hc f _ _ _ _ _ _ _ ha, ?_, ?_⟩
  · rw [C93_stdout rt f 0 j _ (by rw [h1]; exact Nat.zero_le _), List.take_zero]
  · rw [h0]
    intro he
    have := encode_nil he
    rw [stdout_colorTest rt hc] at this
    exact (open_texts _ (List.mem_cons_of_mem _ (List.mem_singleton_self _))).1 this

/-! There are devices and ways to cut: a device that takes everything, one that takes one byte at a time, and one that is full; a text in one piece and in
pieces of one byte. -/

/-- The text of an event in one piece. -/
def onePiece (u : CharTable) : Chunking u := ⟨fun e => [eventBytes u e], fun _ => by simp⟩

/-- The text of an event byte by byte. -/
def bytePieces (u : CharTable) : Chunking u := ⟨fun e => (eventBytes u e).map fun b => [b], fun e => by
  induction eventBytes u e with
  | nil => rfl
  | cons b bs ih => rw [List.map_cons, List.flatten_cons, ih]; rfl⟩

example : Reliable (fun (_ : Unit) bs => (some bs.length, ())) := fun _ bs h => ⟨bs.length - 1, by
  have := List.length_pos_iff.mpr h
  show some bs.length = _
  congr 1; omega⟩

example : Reliable (fun (_ : Unit) _ => (some 1, ())) := fun _ _ _ => ⟨0, rfl⟩

example : ¬ Reliable limited := fun h => by
  obtain ⟨n, hn⟩ := h 0 [0] (by simp)
  cases hn

/-- The lines of a text with an open end. -/
example : LinesOf [1, 10, 2, 10, 3] [1, 10, 2, 10] [3] := ⟨rfl, by decide, .inr ⟨[1, 10, 2], rfl⟩⟩

/-- Writing two lines and a beginning to a device with room for seven bytes: the second line end does not fit. -/
example : let r := LineWriter.writeFmt limited ⟨[], [], 7⟩ [[1, 2, 3, 10, 4], [5], [6, 7], [10], [8]]
    r.1 = false ∧ r.2.delivered = [1, 2, 3, 10, 4, 5, 6] ∧ r.2.buffer = [7, 10] := by
  simp [LineWriter.writeFmt, LineWriter.writeAll, LineWriter.bufWriteAll, LineWriter.direct, LineWriter.flushBuf, andThen, upToLine, afterLine,
    lineCapacity, pushAll_limited]

end Ripcalc
