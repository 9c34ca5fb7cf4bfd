import Verif.Props.Program
/-!
# Several networks in one run or in several runs

Showing and enumerating treat the networks one by one.
-/
namespace Ripcalc
open AddrSpec LawfulIpAddr

/-! ## Loops over a list in two parts -/

theorem enumerateLoop_append (rt : Runtime) (xs ys : List Str) :
    ∀ ret, enumerateLoop rt ret (xs ++ ys) = enumerateLoop rt ret xs >>= fun r => enumerateLoop rt r ys := by
  induction xs with
  | nil => intro ret; simp [enumerateLoop]
  | cons x xs ih =>
    intro ret
    obtain ⟨r, hr⟩ := parseNetspec_total x
    rw [List.cons_append, enumerateLoop, enumerateLoop, hr, Cli.lift_ok_bind, Cli.lift_ok_bind]
    match r with
    | .error e => simp only [ih, bind_assoc]
    | .ok (.ipv4 a n) => simp only [ih, bind_assoc]
    | .ok (.ipv6 a n) => simp only [ih, bind_assoc]

theorem pointwise_argOutput_unique {ss : List Str} {evss evss' : List (List OutEv)} (h : Pointwise ArgOutput ss evss)
    (h' : Pointwise ArgOutput ss evss') : evss = evss' := by
  induction h generalizing evss' with
  | nil => cases h'; rfl
  | cons h1 _ ih =>
    cases h' with
    | cons h1' h2' =>
      rw [ih h2']
      congr 1
      rcases h1 with ⟨e, hp, rfl⟩ | ⟨a, n, xs, hp, hl, rfl⟩ | ⟨a, n, xs, hp, hl, rfl⟩ <;>
      rcases h1' with ⟨e', hp', rfl⟩ | ⟨a', n', xs', hp', hl', rfl⟩ | ⟨a', n', xs', hp', hl', rfl⟩ <;>
      rw [hp] at hp' <;> cases hp'
      · rfl
      · rw [hl.unique hl']
      · rw [hl.unique hl']

theorem enumerateLoop_start (rt : Runtime) (ss : List Str) (ret : Nat) (hret : ret = 0 ∨ ret = 1) :
    ∃ o c, (c = 0 ∨ c = 1) ∧ enumerateLoop rt 0 ss = ⟨o, .ok c⟩ ∧ enumerateLoop rt ret ss = ⟨o, .ok (max ret c)⟩ := by
  obtain ⟨evss, c, h1, h2, h3, h4⟩ := enumerateLoop_spec rt ss 0
  obtain ⟨evss', c', h1', h2', h3', h4'⟩ := enumerateLoop_spec rt ss ret
  have he := pointwise_argOutput_unique h1 h1'
  subst he
  by_cases hb : ∃ s ∈ ss, ∃ e, parseNetspec s = .ok (.error e)
  · refine ⟨_, c, .inr (h3 hb), h2, ?_⟩
    rw [h2', h3' hb, h3 hb]
    rcases hret with rfl | rfl <;> rfl
  · refine ⟨_, c, .inl (h4 hb), h2, ?_⟩
    rw [h2', h4' hb, h4 hb]
    rcases hret with rfl | rfl <;> rfl

/-! ## C109 -/

/-- Enumerating two lists of networks in one run writes what two runs write one after the other, on both streams in the same
order; the exit code is the greater of the two. -/
theorem C109_enumerate (rt : Runtime) (prog prog' prog'' mode : Str) (hm : mode = "-e".toList ∨ mode = "--enumerate".toList)
    (xs ys : List Str) (hx : xs ≠ []) (hy : ys ≠ []) :
    ∃ o₁ o₂ c₁ c₂, (c₁ = 0 ∨ c₁ = 1) ∧ (c₂ = 0 ∨ c₂ = 1) ∧ doMain rt (prog :: mode :: xs) = ⟨o₁, .ok c₁⟩ ∧
      doMain rt (prog' :: mode :: ys) = ⟨o₂, .ok c₂⟩ ∧ doMain rt (prog'' :: mode :: (xs ++ ys)) = ⟨o₁ ++ o₂, .ok (max c₁ c₂)⟩ := by
  have hd : ∀ p l, l ≠ [] → doMain rt (p :: mode :: l) = enumerateLoop rt 0 l := by
    intro p l hl
    rw [(C56_dispatch rt p mode l).2.2.2.2.1 hm, enumerate, if_neg]
    · rfl
    · have := List.length_pos_iff.mpr hl
      simp; omega
  obtain ⟨o₁, c₁, h1, h2, -⟩ := enumerateLoop_start rt xs 0 (.inl rfl)
  obtain ⟨o₂, c₂, h3, h4, h5⟩ := enumerateLoop_start rt ys c₁ h1
  refine ⟨o₁, o₂, c₁, c₂, h1, h3, by rw [hd _ _ hx, h2], by rw [hd _ _ hy, h4], ?_⟩
  rw [hd _ _ (by simp [hx]), enumerateLoop_append, h2, Cli.mk_ok_bind, h5]

theorem showPrintLoop_append (rt : Runtime) (l : List NetworkSpec) (y : NetworkSpec) (l' : List NetworkSpec) :
    l ≠ [] → ∀ b, showPrintLoop rt b (l ++ y :: l') = showPrintLoop rt b l >>= fun _ =>
      Cli.println [] >>= fun _ => showPrintLoop rt true (y :: l') := by
  have hf : showPrintLoop rt false (y :: l') = Cli.println [] >>= fun _ => showPrintLoop rt true (y :: l') := by
    cases y <;> simp [showPrintLoop]
  induction l with
  | nil => intro h; exact absurd rfl h
  | cons x l ih =>
    intro _ b
    rw [List.cons_append, showPrintLoop, showPrintLoop]
    have hrest : showPrintLoop rt false (l ++ y :: l') = showPrintLoop rt false l >>= fun _ =>
        Cli.println [] >>= fun _ => showPrintLoop rt true (y :: l') := by
      by_cases hl : l = []
      · subst hl; rw [List.nil_append, hf]; simp [showPrintLoop]
      · exact ih hl false
    cases b <;> cases x <;> simp only [hrest, bind_assoc, Bool.not_true, Bool.not_false, Bool.false_eq_true, if_true, if_false]

theorem showParseLoop_append (xs ys : List Str) : showParseLoop (xs ++ ys) = showParseLoop xs >>= fun r =>
    match r with
    | .error e => pure (.error e)
    | .ok l => showParseLoop ys >>= fun r' =>
      match r' with
      | .error e => pure (.error e)
      | .ok l' => pure (.ok (l ++ l')) := by
  induction xs with
  | nil =>
    obtain ⟨r, hr⟩ : ∃ r, showParseLoop ys = .ok r := by
      rcases showParseLoop_cases ys with ⟨l, -, h⟩ | ⟨_, _, _, e, -, -, -, h⟩ <;> exact ⟨_, h⟩
    rw [List.nil_append, hr]
    cases r <;> rfl
  | cons x xs ih =>
    obtain ⟨r, hr⟩ := parseNetspec_total x
    obtain ⟨r', hr'⟩ : ∃ r, showParseLoop xs = .ok r := by
      rcases showParseLoop_cases xs with ⟨l, -, h⟩ | ⟨_, _, _, e, -, -, -, h⟩ <;> exact ⟨_, h⟩
    obtain ⟨r'', hr''⟩ : ∃ r, showParseLoop ys = .ok r := by
      rcases showParseLoop_cases ys with ⟨l, -, h⟩ | ⟨_, _, _, e, -, -, -, h⟩ <;> exact ⟨_, h⟩
    rw [List.cons_append, showParseLoop, showParseLoop, ih, hr, hr', hr'']
    cases r <;> cases r' <;> cases r'' <;> rfl

theorem showNet_good {rt : Runtime} {args : List Str} {l : List NetworkSpec} (h : showParseLoop args = .ok (.ok l)) (prog : Str) :
    (showPrintLoop rt true l).res = .ok () ∧ showNet rt (prog :: args) = ⟨(showPrintLoop rt true l).out, .ok 0⟩ := by
  have he : showNet rt (prog :: args) = showPrintLoop rt true l >>= fun _ => pure 0 := by
    rw [showNet, List.drop_succ_cons, List.drop_zero, h, Cli.lift_ok_bind]
  have hr : (showPrintLoop rt true l).res = .ok () := by
    rcases C58_total rt (prog :: args) with ⟨h1, -⟩ | ⟨h1, -⟩ <;>
    · rw [he] at h1
      generalize showPrintLoop rt true l = z at h1
      obtain ⟨o, r⟩ := z
      cases r with
      | ok u => rfl
      | panic p => simp at h1
      | diverge => simp at h1
  refine ⟨hr, ?_⟩
  rw [he]
  generalize showPrintLoop rt true l = z at hr
  obtain ⟨o, r⟩ := z
  simp only at hr
  subst hr
  simp

theorem showNet_bad {rt : Runtime} {args : List Str} {e : NetspecErr} (h : showParseLoop args = .ok (.error e)) (prog : Str) :
    showNet rt (prog :: args) = ⟨[.err (.showParse e)], .ok 1⟩ := by
  rw [showNet, List.drop_succ_cons, List.drop_zero, h, Cli.lift_ok_bind]
  rfl

/-- Showing two lists of networks in one run: if two runs succeed, one run writes what the first writes, an empty line, and what the
second writes; if the first fails, one run does the same as the first; if only the second fails, the same as the second. -/
theorem C109_show (rt : Runtime) (prog prog' prog'' x y : Str) (xs ys : List Str) (hx : x ∉ modeWords) (hy : y ∉ modeWords) :
    ((doMain rt (prog :: x :: xs)).res = .ok 0 → (doMain rt (prog' :: y :: ys)).res = .ok 0 →
      doMain rt (prog'' :: x :: xs ++ y :: ys) =
        ⟨(doMain rt (prog :: x :: xs)).out ++ .out ['\n'] :: (doMain rt (prog' :: y :: ys)).out, .ok 0⟩) ∧
    ((doMain rt (prog :: x :: xs)).res ≠ .ok 0 → doMain rt (prog'' :: x :: xs ++ y :: ys) = doMain rt (prog :: x :: xs)) ∧
    ((doMain rt (prog :: x :: xs)).res = .ok 0 → (doMain rt (prog' :: y :: ys)).res ≠ .ok 0 →
      doMain rt (prog'' :: x :: xs ++ y :: ys) = doMain rt (prog' :: y :: ys)) := by
  have hd : ∀ p z zs, z ∉ modeWords → doMain rt (p :: z :: zs) = showNet rt (p :: z :: zs) := fun p z zs hz =>
    (C56_dispatch rt p z zs).2.2.2.2.2.2 hz
  have he : prog'' :: x :: xs ++ y :: ys = prog'' :: x :: (xs ++ y :: ys) := rfl
  rw [he, hd _ _ _ hx, hd _ _ _ hy, hd _ _ _ hx]
  have ha : showParseLoop (x :: (xs ++ y :: ys)) = _ := showParseLoop_append (x :: xs) (y :: ys)
  rcases showParseLoop_cases (x :: xs) with ⟨l, hl, h⟩ | ⟨_, _, _, e, -, -, -, h⟩
  · rcases showParseLoop_cases (y :: ys) with ⟨l', hl', h'⟩ | ⟨_, _, _, e', -, -, -, h'⟩
    · cases hl with | @cons _ s _ l hs hl =>
      cases hl' with | @cons _ s' _ l' hs' hl' =>
      rw [h, h'] at ha
      simp only [Exec.ok_bind, Exec.pure_eq] at ha
      obtain ⟨g1, g2⟩ := showNet_good (rt := rt) ha prog''
      obtain ⟨g3, g4⟩ := showNet_good (rt := rt) h prog
      obtain ⟨g5, g6⟩ := showNet_good (rt := rt) h' prog'
      rw [g2, g4, g6]
      refine ⟨fun _ _ => ?_, fun hc => absurd rfl hc, fun _ hc => absurd rfl hc⟩
      rw [showPrintLoop_append rt (s :: l) s' l' (by simp) true]
      generalize showPrintLoop rt true (s :: l) = z at g3
      obtain ⟨o, r⟩ := z
      simp only at g3
      subst g3
      simp
    · rw [h, h'] at ha
      simp only [Exec.ok_bind, Exec.pure_eq] at ha
      obtain ⟨g3, g4⟩ := showNet_good (rt := rt) h prog
      rw [showNet_bad ha, showNet_bad h', g4]
      exact ⟨fun _ hc => by simp at hc, fun hc => absurd rfl hc, fun _ _ => rfl⟩
  · rw [h] at ha
    simp only [Exec.ok_bind, Exec.pure_eq] at ha
    rw [showNet_bad ha, showNet_bad h]
    exact ⟨fun hc => by simp at hc, fun _ => rfl, fun hc => by simp at hc⟩

/-- Enumerating: the output is made up of the outputs for the single arguments, in the order of the arguments. -/
theorem C109_each_enumerated (rt : Runtime) (prog mode : Str) (hm : mode = "-e".toList ∨ mode = "--enumerate".toList) (ss : List Str)
    (hs : ss ≠ []) :
    (doMain rt (prog :: mode :: ss)).out = ss.flatMap (fun s => (doMain rt [prog, mode, s]).out) ∧
    ((doMain rt (prog :: mode :: ss)).res = .ok 0 ↔ ∀ s ∈ ss, (doMain rt [prog, mode, s]).res = .ok 0) := by
  induction ss with
  | nil => exact absurd rfl hs
  | cons s ss ih =>
    by_cases h : ss = []
    · subst h; simp
    · obtain ⟨o₁, o₂, c₁, c₂, h1, h2, h3, h4, h5⟩ := C109_enumerate rt prog prog prog mode hm [s] ss (by simp) h
      have ih := ih h
      rw [h4] at ih
      rw [List.singleton_append] at h5
      rw [h5, List.flatMap_cons, h3, ← ih.1]
      refine ⟨rfl, ?_⟩
      rw [List.forall_mem_cons, ← ih.2, h3]
      simp only [Exec.ok.injEq]
      omega

/-- So giving the networks in another order changes the order of the pieces of the output only, and not the exit code. -/
theorem C109_order (rt : Runtime) (prog mode : Str) (hm : mode = "-e".toList ∨ mode = "--enumerate".toList) (ss ss' : List Str)
    (h : ss.Perm ss') :
    (doMain rt (prog :: mode :: ss)).out.Perm (doMain rt (prog :: mode :: ss')).out ∧
    ((doMain rt (prog :: mode :: ss)).res = .ok 0 ↔ (doMain rt (prog :: mode :: ss')).res = .ok 0) := by
  by_cases hs : ss = []
  · subst hs
    rw [List.nil_perm.mp h]
    exact ⟨.refl _, .rfl⟩
  · have hs' : ss' ≠ [] := fun h' => hs (by rw [h'] at h; exact List.perm_nil.mp h)
    rw [(C109_each_enumerated rt prog mode hm ss hs).1, (C109_each_enumerated rt prog mode hm ss' hs').1,
      (C109_each_enumerated rt prog mode hm ss hs).2, (C109_each_enumerated rt prog mode hm ss' hs').2]
    exact ⟨h.flatMap_right _, by simp only [h.mem_iff]⟩

/-- No word for a mode is a network, so that no network can be mistaken for a mode. -/
theorem C109_words : ∀ s ∈ modeWords, parseNetspec s = .ok (.error (.unrecognized s)) := by
  intro s hs
  simp only [modeWords, List.map_cons, List.map_nil, List.mem_cons, List.not_mem_nil, or_false] at hs
  rcases hs with rfl | rfl | rfl | rfl | rfl | rfl | rfl | rfl | rfl | rfl | rfl | rfl <;> decide +kernel

/-- Showing: if one run with all networks succeeds, its output is made up of the outputs for the single networks, in the order of the
arguments and with an empty line between two of them; it succeeds exactly if each of them does. -/
theorem C109_each_shown (rt : Runtime) (prog : Str) (ss : List Str) (hs : ss ≠ []) (hw : ∀ s ∈ ss, s ∉ modeWords) :
    ((doMain rt (prog :: ss)).res = .ok 0 ↔ ∀ s ∈ ss, (doMain rt [prog, s]).res = .ok 0) ∧
    ((doMain rt (prog :: ss)).res = .ok 0 →
      (doMain rt (prog :: ss)).out = List.intercalate [.out ['\n']] (ss.map fun s => (doMain rt [prog, s]).out)) := by
  induction ss with
  | nil => exact absurd rfl hs
  | cons s ss ih =>
    match ss, ih with
    | [], _ => simp [List.intercalate]
    | s' :: ss, ih =>
      obtain ⟨i1, i2⟩ := ih (by simp) (fun t ht => hw t (List.mem_cons_of_mem _ ht))
      obtain ⟨h1, h2, h3⟩ := C109_show rt prog prog prog s s' [] ss (hw s (by simp)) (hw s' (by simp))
      have he : prog :: s :: [] ++ s' :: ss = prog :: s :: s' :: ss := rfl
      rw [he] at h1 h2 h3
      by_cases c1 : (doMain rt [prog, s]).res = .ok 0
      · by_cases c2 : (doMain rt (prog :: s' :: ss)).res = .ok 0
        · rw [h1 c1 c2]
          refine ⟨⟨fun _ => ?_, fun _ => rfl⟩, fun _ => ?_⟩
          · rw [List.forall_mem_cons]; exact ⟨c1, i1.mp c2⟩
          · rw [List.map_cons, List.map_cons, List.intercalate_cons_cons, ← List.map_cons (f := fun s => (doMain rt [prog, s]).out), ← i2 c2]
            simp
        · rw [h3 c1 c2]
          refine ⟨⟨fun hc => absurd hc c2, fun hc => absurd (i1.mpr fun t ht => hc t (List.mem_cons_of_mem _ ht)) c2⟩,
            fun hc => absurd hc c2⟩
      · rw [h2 c1]
        exact ⟨⟨fun hc => absurd hc c1, fun hc => hc s (by simp)⟩, fun hc => absurd hc c1⟩

/-- Two runs that succeed, one that fails, and the runs with all arguments. -/
example : "1.2.3.4/31".toList ∉ modeWords ∧ "::1/127".toList ∉ modeWords ∧ "x".toList ∉ modeWords ∧
    (doMain (Runtime.reference .checked false) ["r".toList, "1.2.3.4/31".toList]).res = .ok 0 ∧
    (doMain (Runtime.reference .checked false) ["r".toList, "::1/127".toList]).res = .ok 0 ∧
    (doMain (Runtime.reference .checked false) ["r".toList, "1.2.3.4/31".toList, "::1/127".toList]).res = .ok 0 ∧
    doMain (Runtime.reference .checked false) ["r".toList, "x".toList] =
      ⟨[.err (.showParse (.unrecognized "x".toList))], .ok 1⟩ ∧
    doMain (Runtime.reference .checked false) ["r".toList, "1.2.3.4/31".toList, "x".toList] =
      ⟨[.err (.showParse (.unrecognized "x".toList))], .ok 1⟩ := by decide +kernel

/-- Enumerating a list with an argument that is not a network. -/
example : doMain (Runtime.reference .checked false) ["r".toList, "-e".toList, "x".toList] =
      ⟨[.err (.enumerateNet "x".toList (.unrecognized "x".toList))], .ok 1⟩ ∧
    doMain (Runtime.reference .checked false) ["r".toList, "-e".toList, "x".toList, "y".toList] =
      ⟨[.err (.enumerateNet "x".toList (.unrecognized "x".toList)), .err (.enumerateNet "y".toList (.unrecognized "y".toList))],
        .ok 1⟩ := by decide +kernel

example : ["1.2.3.4/31".toList, "x".toList].Perm ["x".toList, "1.2.3.4/31".toList] := .swap ..

/-! ## C36: the number of the family -/

/-- The number of the family of an address that was read is 4 if the text has dots and no colons, and 6 if it has colons and no
dots. -/
theorem C36_version (s : Str) (a : ParsedIpAddress) (h : parseAddr s = .ok (.ok a)) :
    (a.version = 4 ∧ '.' ∈ s ∧ ':' ∉ s) ∨ (a.version = 6 ∧ ':' ∈ s ∧ '.' ∉ s) := by
  cases a with
  | ipv4 a => obtain ⟨h1, h2, -⟩ := ((C36_parse_addr s).2.1 a).mp h; exact .inl ⟨rfl, h1, h2⟩
  | ipv6 a => obtain ⟨h1, h2, -⟩ := ((C36_parse_addr s).2.2.1 a).mp h; exact .inr ⟨rfl, h1, h2⟩

example : parseAddr "1.2.3.4".toList = .ok (.ok (.ipv4 ⟨0x01020304#32⟩)) ∧ parseAddr "::1".toList = .ok (.ok (.ipv6 ⟨0#64, 1#64⟩)) := by
  decide +kernel

end Ripcalc
