import Verif.Props.Split
import Verif.Props.Enumerate
/-!
# Properties of the commands: every outcome
-/
set_option linter.unusedSectionVars false
namespace Ripcalc
open AddrSpec LawfulIpAddr

/-- The events printing one network per line. -/
def netOutput {A : Type} [IpAddr A] (ns : List (Net A)) : List OutEv := ns.map (fun n => .out (n.display ++ ['\n']))

theorem Pointwise.mem_right {R : α → β → Prop} {as : List α} {bs : List β} (h : Pointwise R as bs) : ∀ b ∈ bs, ∃ a ∈ as, R a b := by
  induction h with
  | nil => simp
  | cons h1 _ ih =>
    intro b hb
    rcases List.mem_cons.mp hb with rfl | hb
    · exact ⟨_, by simp, h1⟩
    · obtain ⟨a, h2, h3⟩ := ih b hb
      exact ⟨a, by simp [h2], h3⟩

/-! ## C63: minimize -/

theorem C63_minimize_v4 (rt : Runtime) (prog mode : Str) (ss : List Str) (hne : ss ≠ []) (xs : List (V4 × Net V4))
    (h : Pointwise Is4 ss xs) :
    ∃ out, minimizeSubnets rt (xs.map (·.2)) = .ok out ∧ minimize rt (prog :: mode :: ss) = ⟨netOutput out, .ok 0⟩ := by
  have hp := (C35_lists ss).1 xs |>.mpr ⟨hne, h⟩
  have hw : ∀ n ∈ xs.map (·.2), WF n := by
    intro n hn
    obtain ⟨x, hx, rfl⟩ := List.mem_map.mp hn
    obtain ⟨s, -, hs⟩ := h.mem_right x hx
    exact (C33_parsed_good s _ hs).2.1
  obtain ⟨out, ho, -⟩ := C42_same_addresses rt _ hw
  refine ⟨out, ho, ?_⟩
  have hlen : ¬ (prog :: mode :: ss).length < 3 := by
    have := List.length_pos_iff.mpr hne
    simp only [List.length_cons]; omega
  rw [minimize, if_neg hlen]
  simp only [List.drop_succ_cons, List.drop_zero, hp, Cli.lift_ok_bind, ho, printNets_eq]
  simp [netOutput]

theorem C63_minimize_v6 (rt : Runtime) (prog mode : Str) (ss : List Str) (hne : ss ≠ []) (xs : List (V6 × Net V6))
    (h : Pointwise Is6 ss xs) :
    ∃ out, minimizeSubnets rt (xs.map (·.2)) = .ok out ∧ minimize rt (prog :: mode :: ss) = ⟨netOutput out, .ok 0⟩ := by
  have hp := (C35_lists ss).2.1 xs |>.mpr ⟨hne, h⟩
  have hw : ∀ n ∈ xs.map (·.2), WF n := by
    intro n hn
    obtain ⟨x, hx, rfl⟩ := List.mem_map.mp hn
    obtain ⟨s, -, hs⟩ := h.mem_right x hx
    exact (C33_parsed_good s _ hs).2.1
  obtain ⟨out, ho, -⟩ := C42_same_addresses rt _ hw
  refine ⟨out, ho, ?_⟩
  have hlen : ¬ (prog :: mode :: ss).length < 3 := by
    have := List.length_pos_iff.mpr hne
    simp only [List.length_cons]; omega
  rw [minimize, if_neg hlen]
  simp only [List.drop_succ_cons, List.drop_zero, hp, Cli.lift_ok_bind, ho, printNets_eq]
  simp [netOutput]

example : Pointwise Is4 ["192.0.2.0/25".toList, "192.0.2.128/25".toList]
    [(⟨0xC0000200#32⟩, ⟨⟨0xC0000200#32⟩, ⟨0xFFFFFF80#32⟩, some 25⟩), (⟨0xC0000280#32⟩, ⟨⟨0xC0000280#32⟩, ⟨0xFFFFFF80#32⟩, some 25⟩)] :=
  .cons (by rw [Is4]; decide +kernel) (.cons (by rw [Is4]; decide +kernel) .nil)

/-- Every outcome of the command: usage, the two lists, the message about mixed families, the first malformed argument. -/
theorem C63_minimize (rt : Runtime) (prog mode : Str) (ss : List Str) :
    (ss = [] ∧ minimize rt (prog :: mode :: ss) = ⟨[.err .usage], .ok 1⟩) ∨
    (∃ xs out, Pointwise Is4 ss xs ∧ minimizeSubnets rt (xs.map (·.2)) = .ok out ∧
      minimize rt (prog :: mode :: ss) = ⟨netOutput out, .ok 0⟩) ∨
    (∃ xs out, Pointwise Is6 ss xs ∧ minimizeSubnets rt (xs.map (·.2)) = .ok out ∧
      minimize rt (prog :: mode :: ss) = ⟨netOutput out, .ok 0⟩) ∨
    (∃ pre x post, ss = pre ++ x :: post ∧ pre ≠ [] ∧
      ((∃ ys y, Pointwise Is4 pre ys ∧ Is6 x y) ∨ (∃ ys y, Pointwise Is6 pre ys ∧ Is4 x y)) ∧
      minimize rt (prog :: mode :: ss) = ⟨[.err .mixed], .ok 1⟩) ∨
    (∃ pre x post e, ss = pre ++ x :: post ∧ ((∃ ys, Pointwise Is4 pre ys) ∨ (∃ ys, Pointwise Is6 pre ys)) ∧
      parseNetspec x = .ok (.error e) ∧ minimize rt (prog :: mode :: ss) = ⟨[.err (.minimizeParse e)], .ok 1⟩) := by
  by_cases hne : ss = []
  · exact .inl ⟨hne, by subst hne; rfl⟩
  have hlen : ¬ (prog :: mode :: ss).length < 3 := by
    have := List.length_pos_iff.mpr hne
    simp only [List.length_cons]; omega
  rcases C35_same_family ss with ⟨h, -⟩ | ⟨xs, -, h, -⟩ | ⟨xs, -, h, -⟩ | ⟨pre, x, post, h1, h0, h2, h3⟩ | ⟨pre, x, post, e, h1, h2, h3, h4⟩
  · exact absurd h hne
  · obtain ⟨out, ho, hm⟩ := C63_minimize_v4 rt prog mode ss hne xs h
    exact .inr (.inl ⟨xs, out, h, ho, hm⟩)
  · obtain ⟨out, ho, hm⟩ := C63_minimize_v6 rt prog mode ss hne xs h
    exact .inr (.inr (.inl ⟨xs, out, h, ho, hm⟩))
  · refine .inr (.inr (.inr (.inl ⟨pre, x, post, h1, h0, h2, ?_⟩)))
    rw [minimize, if_neg hlen]
    simp only [List.drop_succ_cons, List.drop_zero, h3, Cli.lift_ok_bind]
    rfl
  · refine .inr (.inr (.inr (.inr ⟨pre, x, post, e, h1, h2, h3, ?_⟩)))
    rw [minimize, if_neg hlen]
    simp only [List.drop_succ_cons, List.drop_zero, h4, Cli.lift_ok_bind]
    rfl

/-! ## C64: resize -/

section generic
variable {A : Type} [IpAddr A] [AddrSpec A] [LawfulIpAddr A]

/-- The numbered blocks printed for the subnets, from index `i`. -/
inductive SubnetBlocks (D : Net A → Str → Prop) : Nat → List (Net A) → Str → Prop
  | nil {i} : SubnetBlocks D i [] []
  | cons {i n ns t u} : D n t → SubnetBlocks D (i + 1) ns u →
    SubnetBlocks D i (n :: ns) ("Subnet ".toList ++ showNat 10 i ++ ":\n".toList ++ t ++ ['\n'] ++ u)

/-- What follows the display of the original network: the resulting networks, headed according to the kind of result. -/
inductive ResizeBlocks (D : Net A → Str → Prop) : List (Net A) → Ordering → Str → Prop
  | super {n t} : D n t → ResizeBlocks D [n] .lt ("Supernet:\n".toList ++ t ++ ['\n'])
  | same {n t} : D n t → ResizeBlocks D [n] .eq ("Same-sized net:\n".toList ++ t ++ ['\n'])
  | subnets {ns t} : SubnetBlocks D 1 ns t → ResizeBlocks D ns .gt t

section
variable {on : Net A → Option A → Cli Unit} {D : Net A → Str → Prop} (hon : ∀ m, WF m → ∃ t, D m t ∧ Shows (on m none) () t)
include hon

theorem shows_printSubnets (ns : List (Net A)) (hw : ∀ m ∈ ns, WF m) : ∀ i, ∃ t, SubnetBlocks D (i + 1) ns t ∧
    Shows (printSubnets on i ns) () t := by
  induction ns with
  | nil => exact fun i => ⟨[], .nil, shows_pure ()⟩
  | cons n ns ih =>
    intro i
    obtain ⟨t, h1, h2⟩ := hon n (hw n (by simp))
    obtain ⟨u, h3, h4⟩ := ih (fun m hm => hw m (by simp [hm])) (i + 1)
    refine ⟨_, .cons h1 h3, .of_eq (.bind (shows_println _) <| .bind h2 <| .bind (shows_println _) h4) ?_⟩
    rw [show (":\n".toList : Str) = [':'] ++ ['\n'] from rfl]
    simp only [List.append_assoc, List.nil_append]

theorem resize_shows (rt : Runtime) (n : Net A) (hn : WF n) (m : A) :
    ∃ ns d t u, resizeNetwork rt.profile n m = .ok (ns, d) ∧ D n t ∧ ResizeBlocks D ns d u ∧
      Shows (resizeAndOutput rt n m on) () ("Original network:\n".toList ++ t ++ ['\n'] ++ u) := by
  obtain ⟨ns, h1, h2, h3, -⟩ := C50_result rt.profile n m hn
  obtain ⟨t, ht, hs⟩ := hon n hn
  have hw : ∀ o ∈ ns, WF o := fun o ho => (h3 o ho).1
  have hone : hostBitCount n.subnetMask ≤ hostBitCount m → ∃ o, ns = [o] := by
    intro hle
    rw [Nat.sub_eq_zero_of_le hle] at h2
    exact List.length_eq_one_iff.mp h2
  have hbody : ∃ u, ResizeBlocks D ns (compare (hostBitCount n.subnetMask) (hostBitCount m)) u ∧
      Shows (match compare (hostBitCount n.subnetMask) (hostBitCount m) with
        | .lt => do
          Cli.println "Supernet:".toList
          on (← (Exec.index ns 0 : Exec (Net A))) none
          Cli.println []
        | .eq => do
          Cli.println "Same-sized net:".toList
          on (← (Exec.index ns 0 : Exec (Net A))) none
          Cli.println []
        | .gt => printSubnets on 0 ns) () u := by
    cases hc : compare (hostBitCount n.subnetMask) (hostBitCount m) with
    | lt =>
      obtain ⟨o, rfl⟩ := hone (Nat.le_of_lt (Nat.compare_eq_lt.mp hc))
      obtain ⟨v, h4, h5⟩ := hon o (hw o (by simp))
      refine ⟨_, .super h4, .of_eq (.bind (shows_println _) <| .bind (shows_lift (a := o) rfl) <| .bind h5 (shows_println _)) ?_⟩
      rw [show ("Supernet:\n".toList : Str) = "Supernet:".toList ++ ['\n'] from rfl]
      simp only [List.append_assoc, List.nil_append]
    | eq =>
      obtain ⟨o, rfl⟩ := hone (Nat.le_of_eq (Nat.compare_eq_eq.mp hc))
      obtain ⟨v, h4, h5⟩ := hon o (hw o (by simp))
      refine ⟨_, .same h4, .of_eq (.bind (shows_println _) <| .bind (shows_lift (a := o) rfl) <| .bind h5 (shows_println _)) ?_⟩
      rw [show ("Same-sized net:\n".toList : Str) = "Same-sized net:".toList ++ ['\n'] from rfl]
      simp only [List.append_assoc, List.nil_append]
    | gt =>
      obtain ⟨v, h4, h5⟩ := shows_printSubnets hon ns hw 0
      exact ⟨v, .subnets h4, h5⟩
  obtain ⟨u, h4, h5⟩ := hbody
  refine ⟨ns, _, t, u, h1, ht, h4, ?_⟩
  rw [resizeAndOutput, h1]
  simp only [Cli.lift_ok_bind]
  refine .of_eq (.bind (shows_println _) <| .bind hs <| .bind (shows_println _) h5) ?_
  rw [show ("Original network:\n".toList : Str) = "Original network:".toList ++ ['\n'] from rfl]
  simp only [List.append_assoc, List.nil_append]

end
end generic

/-- The command with an IPv4 network and a target mask: the original network, then the resulting networks. -/
theorem C64_resize_v4 (rt : Runtime) (hcol : rt.colorsEnabled = true) (prog mode s k : Str) (a : V4) (n : Net V4)
    (hp : parseNetspec s = .ok (.ok (.ipv4 a n))) (m : V4) (hm : resizeMask4 k = .ok (.ok m)) :
    ∃ ns d t u, resizeNetwork rt.profile n m = .ok (ns, d) ∧ Display4 n none t ∧ ResizeBlocks (fun n => Display4 n none) ns d u ∧
      Shows (resize rt [prog, mode, s, k]) 0 ("Original network:\n".toList ++ t ++ ['\n'] ++ u) := by
  obtain ⟨ns, d, t, u, h1, h2, h3, h4⟩ := resize_shows (display_none_v4 rt hcol) rt n (C33_parsed_good _ _ hp).2.1 m
  refine ⟨ns, d, t, u, h1, h2, h3, ?_⟩
  rw [resize, if_neg (by simp)]
  simp only [List.getD_cons_succ, List.getD_cons_zero, hp, hm, Cli.lift_ok_bind]
  exact .of_eq (.bind h4 (shows_pure 0)) (by simp)

/-- The same whether colours are enabled or not. -/
theorem C64_any_v4 (rt : Runtime) (prog mode s k : Str) (a : V4) (n : Net V4)
    (hp : parseNetspec s = .ok (.ok (.ipv4 a n))) (m : V4) (hm : resizeMask4 k = .ok (.ok m)) :
    ∃ ns d t u, resizeNetwork rt.profile n m = .ok (ns, d) ∧ Display4In rt.colorsEnabled n none t ∧ ResizeBlocks (fun n => Display4In rt.colorsEnabled n none) ns d u ∧
      Shows (resize rt [prog, mode, s, k]) 0 ("Original network:\n".toList ++ t ++ ['\n'] ++ u) := by
  obtain ⟨ns, d, t, u, h1, h2, h3, h4⟩ := resize_shows (display_any_v4 rt) rt n (C33_parsed_good _ _ hp).2.1 m
  refine ⟨ns, d, t, u, h1, h2, h3, ?_⟩
  rw [resize, if_neg (by simp)]
  simp only [List.getD_cons_succ, List.getD_cons_zero, hp, hm, Cli.lift_ok_bind]
  exact .of_eq (.bind h4 (shows_pure 0)) (by simp)

theorem C64_resize_v6 (rt : Runtime) (hcol : rt.colorsEnabled = true) (prog mode s k : Str) (a : V6) (n : Net V6)
    (hp : parseNetspec s = .ok (.ok (.ipv6 a n))) (m : V6) (hm : resizeMask6 k = .ok (.ok m)) :
    ∃ ns d t u, resizeNetwork rt.profile n m = .ok (ns, d) ∧ Display6 n none t ∧ ResizeBlocks (fun n => Display6 n none) ns d u ∧
      Shows (resize rt [prog, mode, s, k]) 0 ("Original network:\n".toList ++ t ++ ['\n'] ++ u) := by
  obtain ⟨ns, d, t, u, h1, h2, h3, h4⟩ := resize_shows (display_none_v6 rt hcol) rt n (C33_parsed_good _ _ hp).2.1 m
  refine ⟨ns, d, t, u, h1, h2, h3, ?_⟩
  rw [resize, if_neg (by simp)]
  simp only [List.getD_cons_succ, List.getD_cons_zero, hp, hm, Cli.lift_ok_bind]
  exact .of_eq (.bind h4 (shows_pure 0)) (by simp)

/-- The same whether colours are enabled or not. -/
theorem C64_any_v6 (rt : Runtime) (prog mode s k : Str) (a : V6) (n : Net V6)
    (hp : parseNetspec s = .ok (.ok (.ipv6 a n))) (m : V6) (hm : resizeMask6 k = .ok (.ok m)) :
    ∃ ns d t u, resizeNetwork rt.profile n m = .ok (ns, d) ∧ Display6In rt.colorsEnabled n none t ∧ ResizeBlocks (fun n => Display6In rt.colorsEnabled n none) ns d u ∧
      Shows (resize rt [prog, mode, s, k]) 0 ("Original network:\n".toList ++ t ++ ['\n'] ++ u) := by
  obtain ⟨ns, d, t, u, h1, h2, h3, h4⟩ := resize_shows (display_any_v6 rt) rt n (C33_parsed_good _ _ hp).2.1 m
  refine ⟨ns, d, t, u, h1, h2, h3, ?_⟩
  rw [resize, if_neg (by simp)]
  simp only [List.getD_cons_succ, List.getD_cons_zero, hp, hm, Cli.lift_ok_bind]
  exact .of_eq (.bind h4 (shows_pure 0)) (by simp)

/-- Every other outcome: the wrong number of arguments, a malformed network, a malformed or unsuitable target. -/
theorem C64_errors (rt : Runtime) (args : List Str) :
    (args.length ≠ 4 → resize rt args = ⟨[.err .usage], .ok 1⟩) ∧
    (∀ prog mode s k, args = [prog, mode, s, k] →
      (∀ e, parseNetspec s = .ok (.error e) → resize rt args = ⟨[.err (.resizeNet s e)], .ok 1⟩) ∧
      (∀ a n e, parseNetspec s = .ok (.ok (.ipv4 a n)) → resizeMask4 k = .ok (.error e) → resize rt args = ⟨[.err e], .ok 1⟩) ∧
      (∀ a n e, parseNetspec s = .ok (.ok (.ipv6 a n)) → resizeMask6 k = .ok (.error e) → resize rt args = ⟨[.err e], .ok 1⟩)) := by
  refine ⟨fun h => by rw [resize, if_pos h]; rfl, ?_⟩
  rintro prog mode s k rfl
  rw [resize, if_neg (by simp)]
  simp only [List.getD_cons_succ, List.getD_cons_zero]
  refine ⟨fun e h => ?_, fun a n e h h' => ?_, fun a n e h h' => ?_⟩
  · rw [h]; rfl
  · rw [h, Cli.lift_ok_bind, h']; rfl
  · rw [h, Cli.lift_ok_bind, h']; rfl

/-- A new subnet for an IPv4 network: a dotted mask, or a number up to 32. -/
def NewSubnet4 (k : Str) (m : V4) : Prop :=
  ':' ∉ k ∧ (('.' ∈ k ∧ V4Reading k m) ∨ ('.' ∉ k ∧ ∃ p, PlusNumeral 10 k p ∧ p ≤ 32 ∧ IsPrefixMask 32 p (val m)))

/-- A new subnet for an IPv6 network: a mask with colons, or a number up to 128. -/
def NewSubnet6 (k : Str) (m : V6) : Prop :=
  (':' ∈ k ∧ V6Reading k m) ∨ (':' ∉ k ∧ '.' ∉ k ∧ ∃ p, PlusNumeral 10 k p ∧ p ≤ 128 ∧ IsPrefixMask 128 p (val m))

/-- For every argument list: with a network and a new subnet for its family the original network and the result are displayed and
the exit code is 0; with anything else there is one message, nothing on standard output, and the exit code is 1. -/
theorem C64_total (rt : Runtime) (args : List Str) :
    (∃ prog mode s k a n m, args = [prog, mode, s, k] ∧ parseNetspec s = .ok (.ok (.ipv4 a n)) ∧ NewSubnet4 k m ∧
      ∃ ns d t u, resizeNetwork rt.profile n m = .ok (ns, d) ∧ Display4In rt.colorsEnabled n none t ∧
        ResizeBlocks (fun n => Display4In rt.colorsEnabled n none) ns d u ∧
        Shows (resize rt args) 0 ("Original network:\n".toList ++ t ++ ['\n'] ++ u)) ∨
    (∃ prog mode s k a n m, args = [prog, mode, s, k] ∧ parseNetspec s = .ok (.ok (.ipv6 a n)) ∧ NewSubnet6 k m ∧
      ∃ ns d t u, resizeNetwork rt.profile n m = .ok (ns, d) ∧ Display6In rt.colorsEnabled n none t ∧
        ResizeBlocks (fun n => Display6In rt.colorsEnabled n none) ns d u ∧
        Shows (resize rt args) 0 ("Original network:\n".toList ++ t ++ ['\n'] ++ u)) ∨
    ((¬ ∃ prog mode s k a n m, args = [prog, mode, s, k] ∧ parseNetspec s = .ok (.ok (.ipv4 a n)) ∧ NewSubnet4 k m) ∧
     (¬ ∃ prog mode s k a n m, args = [prog, mode, s, k] ∧ parseNetspec s = .ok (.ok (.ipv6 a n)) ∧ NewSubnet6 k m) ∧
      ∃ m, resize rt args = ⟨[.err m], .ok 1⟩) := by
  obtain ⟨e1, e2⟩ := C64_errors rt args
  by_cases hl : args.length = 4
  · obtain ⟨prog, mode, s, k, rfl⟩ : ∃ prog mode s k, args = [prog, mode, s, k] := by
      match args, hl with
      | [w, x, y, z], _ => exact ⟨w, x, y, z, rfl⟩
    obtain ⟨f1, f2, f3⟩ := e2 _ _ _ _ rfl
    obtain ⟨⟨r4, h4⟩, g4⟩ := C34_resize_ipv4 k
    obtain ⟨⟨r6, h6⟩, g6⟩ := C34_resize_ipv6 k
    obtain ⟨r, hr⟩ := parseNetspec_total s
    match r, hr with
    | .error e, hr =>
      refine .inr (.inr ⟨?_, ?_, _, f1 e hr⟩) <;>
      · rintro ⟨_, _, _, _, a, n, m, h, h', -⟩
        injection h with _ h; injection h with _ h; injection h with h _
        subst h
        rw [hr] at h'
        cases h'
    | .ok (.ipv4 a n), hr =>
      match r4, h4 with
      | .ok m, h4 =>
        obtain ⟨ns, d, t, u, h⟩ := C64_any_v4 rt prog mode s k a n hr m h4
        exact .inl ⟨prog, mode, s, k, a, n, m, rfl, hr, (g4 m).mp h4, ns, d, t, u, h⟩
      | .error e, h4 =>
        refine .inr (.inr ⟨?_, ?_, _, f2 a n e hr h4⟩)
        · rintro ⟨_, _, _, _, a, n, m, h, h', h''⟩
          injection h with _ h; injection h with _ h; injection h with _ h; injection h with h _
          subst h
          rw [(g4 m).mpr h''] at h4
          cases h4
        · rintro ⟨_, _, _, _, a, n, m, h, h', -⟩
          injection h with _ h; injection h with _ h; injection h with h _
          subst h
          rw [hr] at h'
          cases h'
    | .ok (.ipv6 a n), hr =>
      match r6, h6 with
      | .ok m, h6 =>
        obtain ⟨ns, d, t, u, h⟩ := C64_any_v6 rt prog mode s k a n hr m h6
        exact .inr (.inl ⟨prog, mode, s, k, a, n, m, rfl, hr, (g6 m).mp h6, ns, d, t, u, h⟩)
      | .error e, h6 =>
        refine .inr (.inr ⟨?_, ?_, _, f3 a n e hr h6⟩)
        · rintro ⟨_, _, _, _, a, n, m, h, h', -⟩
          injection h with _ h; injection h with _ h; injection h with h _
          subst h
          rw [hr] at h'
          cases h'
        · rintro ⟨_, _, _, _, a, n, m, h, h', h''⟩
          injection h with _ h; injection h with _ h; injection h with _ h; injection h with h _
          subst h
          rw [(g6 m).mpr h''] at h6
          cases h6
  · refine .inr (.inr ⟨?_, ?_, _, e1 hl⟩) <;>
    · rintro ⟨_, _, _, _, a, n, m, rfl, -⟩
      exact hl rfl

/-- `26` is a new subnet, `33` is none for IPv4. -/
example : NewSubnet4 "26".toList ⟨0xFFFFFFC0#32⟩ ∧ (∀ m, ¬ NewSubnet4 "33".toList m) ∧ ∃ m, NewSubnet6 "33".toList m :=
  ⟨((C34_resize_ipv4 _).2 _).mp (by decide +kernel),
   (fun m h => by
    have h := ((C34_resize_ipv4 "33".toList).2 m).mpr h
    rw [show resizeMask4 "33".toList = .ok (.error (.resizeRangeV4 33)) by decide +kernel] at h
    cases h),
   ⟨0xFFFFFFFF80000000#64, 0#64⟩, ((C34_resize_ipv6 _).2 _).mp (by decide +kernel)⟩

theorem resize_total (rt : Runtime) (hcol : rt.colorsEnabled = true) (args : List Str) :
    (∃ t, Shows (resize rt args) 0 t) ∨ (∃ m, resize rt args = ⟨[.err m], .ok 1⟩) := by
  by_cases hlen : args.length = 4
  · obtain ⟨prog, mode, s, k, rfl⟩ : ∃ a b c d, args = [a, b, c, d] := by
      match args, hlen with
      | [a, b, c, d], _ => exact ⟨a, b, c, d, rfl⟩
    obtain ⟨h1, h2, h3⟩ := (C64_errors rt [prog, mode, s, k]).2 prog mode s k rfl
    obtain ⟨r, hr⟩ := parseNetspec_total s
    cases r with
    | error e => exact .inr ⟨_, h1 e hr⟩
    | ok x =>
      cases x with
      | ipv4 a n =>
        obtain ⟨r', hr'⟩ := (C34_resize_ipv4 k).1
        cases r' with
        | error e => exact .inr ⟨_, h2 a n e hr hr'⟩
        | ok m =>
          obtain ⟨ns, d, t, u, _, _, _, h⟩ := C64_resize_v4 rt hcol prog mode s k a n hr m hr'
          exact .inl ⟨_, h⟩
      | ipv6 a n =>
        obtain ⟨r', hr'⟩ := (C34_resize_ipv6 k).1
        cases r' with
        | error e => exact .inr ⟨_, h3 a n e hr hr'⟩
        | ok m =>
          obtain ⟨ns, d, t, u, _, _, _, h⟩ := C64_resize_v6 rt hcol prog mode s k a n hr m hr'
          exact .inl ⟨_, h⟩
  · exact .inr ⟨_, (C64_errors rt args).1 hlen⟩

/-- A run that makes a network larger. -/
example : Shows (resize (evalRuntime .checked true) ["ripcalc".toList, "-r".toList, "192.0.3.0/24".toList, "23".toList]) 0
    (["Original network:\n",
     "Network:   192.0.3.0/24         11000000.00000000.00000011.00000000\n",
     "HostMin:   192.0.3.1            11000000.00000000.00000011.00000001\n",
     "HostMax:   192.0.3.254          11000000.00000000.00000011.11111110\n",
     "Broadcast: 192.0.3.255          11000000.00000000.00000011.11111111\n",
     "Hosts/Net: 254                  Class C\n",
     "\n",
     "Supernet:\n",
     "Network:   192.0.2.0/23         11000000.00000000.00000010.00000000\n",
     "HostMin:   192.0.2.1            11000000.00000000.00000010.00000001\n",
     "HostMax:   192.0.3.254          11000000.00000000.00000011.11111110\n",
     "Broadcast: 192.0.3.255          11000000.00000000.00000011.11111111\n",
     "Hosts/Net: 510                  Class C\n",
     "\n"].flatMap String.toList) := by
  refine ⟨?_, ?_, ?_⟩ <;> decide +kernel

/-! ## C65: split -/

section generic
variable {A : Type} [IpAddr A] [AddrSpec A] [LawfulIpAddr A]

/-- The greatest address in any of the networks. -/
def IsGreatestUsed (ns : List (Net A)) (mx : A) : Prop :=
  (∃ m ∈ ns, Member m mx) ∧ ∀ m ∈ ns, ∀ a, Member m a → val a ≤ val mx

/-- Networks in ascending order that contain exactly the addresses from the one after `mx` to the greatest of `n`, whichever of
the two comes first, and no more networks than are needed for that. -/
def ListsRest (n : Net A) (mx : A) (us : List (Net A)) : Prop :=
  (∀ m ∈ us, ∃ q, IsCidr q m) ∧ us.Pairwise Below ∧ ∀ last, Member n last → (∀ a, Member n a → val a ≤ val last) →
    Covers us (fun x => (val mx + 1 ≤ val x ∧ val x ≤ val last) ∨ (val last ≤ val x ∧ val x ≤ val mx + 1)) ∧
    ∀ other : List (Net A), (∀ m ∈ other, ∃ q, IsCidr q m) → Covers other (fun x => ∃ m ∈ us, Member m x) → us.length ≤ other.length

theorem isGreatestUsed_unique {ns : List (Net A)} {x y : A} (h : IsGreatestUsed ns x) (h' : IsGreatestUsed ns y) : x = y := by
  obtain ⟨⟨m, hm, hx⟩, h1⟩ := h
  obtain ⟨⟨m', hm', hy⟩, h2⟩ := h'
  exact val_inj _ _ (Nat.le_antisymm (h2 m hm x hx) (h1 m' hm' y hy))

theorem last_greatest (n : Net A) (hn : WF n) {last : A} (h : n.lastAddrOfSubnet = .ok last) :
    Member n last ∧ ∀ a, Member n a → val a ≤ val last := by
  obtain ⟨-, l, h1, h2, h3⟩ := C25_broadcast n hn
  rw [h] at h1
  cases h1
  exact ⟨(contains_iff hn.hz _).mp h2, fun a ha => h3 a ((contains_iff hn.hz _).mpr ha)⟩

section
variable {on : Net A → Option A → Cli Unit} {D : Net A → Str → Prop} (hon : ∀ m, WF m → ∃ t, D m t ∧ Shows (on m none) () t)
include hon

theorem outputSplit_outcome (rt : Runtime) (n : Net A) (hn : WF n) (hcs : List Int) (hne : hcs ≠ []) (hnn : ∀ c ∈ hcs, 0 ≤ c) :
    (splitSubnet rt n hcs = .ok none ∧ ∃ t, D n t ∧ Shows (outputSplit rt n hcs on) 1
      ("Subnet to split:\n".toList ++ t ++ ['\n'] ++ "Not enough addresses available for this split.\n".toList)) ∨
    ∃ ns mx t u, splitSubnet rt n hcs = .ok (some ns) ∧ IsGreatestUsed ns mx ∧ D n t ∧ SplitBlocks D hcs ns u ∧
      (¬ Member n mx → Shows (outputSplit rt n hcs on) 0
        ("Subnet to split:\n".toList ++ t ++ ['\n'] ++ u ++ "Network is too small\n".toList)) ∧
      (Member n mx → (∀ a, Member n a → val a ≠ 2 ^ width A - 1) → ∃ us : List (Net A), Shows (outputSplit rt n hcs on) 0
        ("Subnet to split:\n".toList ++ t ++ ['\n'] ++ u ++ "Unused networks:\n".toList ++ netLines us) ∧ ListsRest n mx us) ∧
      (Member n mx → (∃ a, Member n a ∧ val a = 2 ^ width A - 1) → Aborts (outputSplit rt n hcs on) .unwrapNone
        ("Subnet to split:\n".toList ++ t ++ ['\n'] ++ u ++ "Unused networks:\n".toList)) := by
  obtain ⟨E, b, e, g1, g2, g3, g4, h1, h2⟩ := split_outcome rt n hcs hne
  rcases Nat.lt_or_ge e (2 ^ width A) with hlt | hge
  · right
    obtain ⟨ms, ns, x1, x2, x3, -, x5, -⟩ := h1 hlt
    clear h1 h2
    have hns : ns ≠ [] := by
      intro hcon
      rw [hcon] at x5
      exact hne (List.length_eq_zero_iff.mp x5.symm)
    obtain ⟨t, u, mx, nx, last, y1, y2, y3, y4, y5, y6, y7, y8, -⟩ := outputSplit_some hon rt n hn hcs ms ns b e x1 x5 hns x2 x3 hlt
    have hcov : ∀ x, (∃ m ∈ ns, Member m x) ↔ b ≤ val x ∧ val x < e := by
      intro x
      refine Iff.trans ?_ (x3.covers x)
      exact ⟨fun ⟨m, h3, h4⟩ => ⟨m, x2.mem_iff.mpr h3, h4⟩, fun ⟨m, h3, h4⟩ => ⟨m, x2.mem_iff.mp h3, h4⟩⟩
    have hE1 : 1 ≤ E := by
      obtain ⟨c, hc, hcE⟩ := g2
      rw [← hcE]; exact needBits_pos (hnn c hc)
    have hsum : 2 ^ E ≤ (hcs.map (fun c => 2 ^ needBits c)).sum := by
      obtain ⟨c, hc, hcE⟩ := g2
      have := sum_ge (f := fun c => 2 ^ needBits c) hc
      rwa [hcE] at this
    have h2E : 2 ^ 1 ≤ 2 ^ E := Nat.pow_le_pow_right (by omega) hE1
    have hpar : 2 ∣ e := by
      have hdb : 2 ∣ b := by
        rw [g3]
        exact Nat.dvd_trans (Nat.pow_dvd_pow 2 hE1) (Nat.dvd_mul_left _ _)
      have hds : 2 ∣ (hcs.map (fun c => 2 ^ needBits c)).sum := by
        clear hsum x1 x5 y6 y7 y8 y2 g4 g1 g2 hne hcov
        induction hcs with
        | nil => simp
        | cons c hcs ih =>
          rw [List.map_cons, List.sum_cons]
          refine Nat.dvd_add ?_ (ih (fun c hc => hnn c (by simp [hc])))
          exact Nat.pow_dvd_pow 2 (needBits_pos (hnn c (by simp)))
      omega
    have hdw : 2 ∣ 2 ^ width A := ⟨2 ^ (width A - 1), by rw [← Nat.pow_succ']; congr 1; have := width_pos (A := A); omega⟩
    obtain ⟨hl1, hl2⟩ := last_greatest n hn y5
    refine ⟨ns, mx, t, u, x1, ⟨(hcov mx).mpr (by omega), fun m hm a ha => ?_⟩, y1, y2, y6, ?_, ?_⟩
    · have := (hcov a).mp ⟨m, hm, ha⟩
      omega
    · intro hm htop
      have := htop last hl1
      have := val_lt last
      obtain ⟨us, z1, z2, z3, -, z5⟩ := C39_range_partial rt.profile nx last (fun x hx => by rw [between_iff] at hx; omega)
      refine ⟨us, y7 us hm z1, z2, z3, fun last' h3 h4 => ⟨fun x => (z5 x).trans ?_, fun other ho hco =>
        (C40_minimal rt.profile nx last us z1 other ho fun x => (hco x).trans (z5 x)).1⟩⟩
      have : last' = last := val_inj _ _ (Nat.le_antisymm (hl2 _ h3) (h4 _ hl1))
      subst this
      rw [between_iff]
      omega
    · rintro hm ⟨a, ha, hav⟩
      have := hl2 a ha
      have := val_lt last
      exact y8 _ hm (C39_top_panics rt.profile nx last (by omega) (by omega))
  · left
    refine ⟨h2 hge, outputSplit_none hon rt n hn hcs (h2 hge)⟩

end
end generic

/-- Every outcome of the command for an IPv4 network and host counts: too few addresses, the blocks with the report that the
network is too small, the blocks with the unused networks, or the blocks and a panic instead of the unused networks; which one is determined. -/
theorem C65_split_v4 (rt : Runtime) (hcol : rt.colorsEnabled = true) (prog mode s : Str) (counts : List Str)
    (hne : counts ≠ []) (hcs : List Int) (hc : Counts counts hcs) (a : V4) (n : Net V4)
    (hp : parseNetspec s = .ok (.ok (.ipv4 a n))) :
    (splitSubnet rt n hcs = .ok none ∧ ∃ t, Display4 n none t ∧ Shows (split rt (prog :: mode :: s :: counts)) 1
      ("Subnet to split:\n".toList ++ t ++ ['\n'] ++ "Not enough addresses available for this split.\n".toList)) ∨
    ∃ ns mx t u, splitSubnet rt n hcs = .ok (some ns) ∧ IsGreatestUsed ns mx ∧ Display4 n none t ∧
      SplitBlocks (fun n => Display4 n none) hcs ns u ∧
      (¬ Member n mx → Shows (split rt (prog :: mode :: s :: counts)) 0
        ("Subnet to split:\n".toList ++ t ++ ['\n'] ++ u ++ "Network is too small\n".toList)) ∧
      (Member n mx → (∀ a, Member n a → val a ≠ 2 ^ 32 - 1) → ∃ us : List (Net V4),
        Shows (split rt (prog :: mode :: s :: counts)) 0
          ("Subnet to split:\n".toList ++ t ++ ['\n'] ++ u ++ "Unused networks:\n".toList ++ netLines us) ∧ ListsRest n mx us) ∧
      (Member n mx → (∃ a, Member n a ∧ val a = 2 ^ 32 - 1) → Aborts (split rt (prog :: mode :: s :: counts)) .unwrapNone
        ("Subnet to split:\n".toList ++ t ++ ['\n'] ++ u ++ "Unused networks:\n".toList)) := by
  rw [split_v4 rt prog mode s counts hne hcs hc a n hp]
  exact outputSplit_outcome (display_none_v4 rt hcol) rt n (C33_parsed_good _ _ hp).2.1 hcs (hc.ne_nil hne) hc.nonneg

/-- The same whether colours are enabled or not. -/
theorem C65_any_v4 (rt : Runtime) (prog mode s : Str) (counts : List Str)
    (hne : counts ≠ []) (hcs : List Int) (hc : Counts counts hcs) (a : V4) (n : Net V4)
    (hp : parseNetspec s = .ok (.ok (.ipv4 a n))) :
    (splitSubnet rt n hcs = .ok none ∧ ∃ t, Display4In rt.colorsEnabled n none t ∧ Shows (split rt (prog :: mode :: s :: counts)) 1
      ("Subnet to split:\n".toList ++ t ++ ['\n'] ++ "Not enough addresses available for this split.\n".toList)) ∨
    ∃ ns mx t u, splitSubnet rt n hcs = .ok (some ns) ∧ IsGreatestUsed ns mx ∧ Display4In rt.colorsEnabled n none t ∧
      SplitBlocks (fun n => Display4In rt.colorsEnabled n none) hcs ns u ∧
      (¬ Member n mx → Shows (split rt (prog :: mode :: s :: counts)) 0
        ("Subnet to split:\n".toList ++ t ++ ['\n'] ++ u ++ "Network is too small\n".toList)) ∧
      (Member n mx → (∀ a, Member n a → val a ≠ 2 ^ 32 - 1) → ∃ us : List (Net V4),
        Shows (split rt (prog :: mode :: s :: counts)) 0
          ("Subnet to split:\n".toList ++ t ++ ['\n'] ++ u ++ "Unused networks:\n".toList ++ netLines us) ∧ ListsRest n mx us) ∧
      (Member n mx → (∃ a, Member n a ∧ val a = 2 ^ 32 - 1) → Aborts (split rt (prog :: mode :: s :: counts)) .unwrapNone
        ("Subnet to split:\n".toList ++ t ++ ['\n'] ++ u ++ "Unused networks:\n".toList)) := by
  rw [split_v4 rt prog mode s counts hne hcs hc a n hp]
  exact outputSplit_outcome (display_any_v4 rt) rt n (C33_parsed_good _ _ hp).2.1 hcs (hc.ne_nil hne) hc.nonneg

/-- Every outcome of the command for an IPv6 network and host counts: too few addresses, the blocks with the report that the
network is too small, the blocks with the unused networks, or the blocks and a panic instead of the unused networks; which one is determined. -/
theorem C65_split_v6 (rt : Runtime) (hcol : rt.colorsEnabled = true) (prog mode s : Str) (counts : List Str)
    (hne : counts ≠ []) (hcs : List Int) (hc : Counts counts hcs) (a : V6) (n : Net V6)
    (hp : parseNetspec s = .ok (.ok (.ipv6 a n))) :
    (splitSubnet rt n hcs = .ok none ∧ ∃ t, Display6 n none t ∧ Shows (split rt (prog :: mode :: s :: counts)) 1
      ("Subnet to split:\n".toList ++ t ++ ['\n'] ++ "Not enough addresses available for this split.\n".toList)) ∨
    ∃ ns mx t u, splitSubnet rt n hcs = .ok (some ns) ∧ IsGreatestUsed ns mx ∧ Display6 n none t ∧
      SplitBlocks (fun n => Display6 n none) hcs ns u ∧
      (¬ Member n mx → Shows (split rt (prog :: mode :: s :: counts)) 0
        ("Subnet to split:\n".toList ++ t ++ ['\n'] ++ u ++ "Network is too small\n".toList)) ∧
      (Member n mx → (∀ a, Member n a → val a ≠ 2 ^ 128 - 1) → ∃ us : List (Net V6),
        Shows (split rt (prog :: mode :: s :: counts)) 0
          ("Subnet to split:\n".toList ++ t ++ ['\n'] ++ u ++ "Unused networks:\n".toList ++ netLines us) ∧ ListsRest n mx us) ∧
      (Member n mx → (∃ a, Member n a ∧ val a = 2 ^ 128 - 1) → Aborts (split rt (prog :: mode :: s :: counts)) .unwrapNone
        ("Subnet to split:\n".toList ++ t ++ ['\n'] ++ u ++ "Unused networks:\n".toList)) := by
  rw [split_v6 rt prog mode s counts hne hcs hc a n hp]
  exact outputSplit_outcome (display_none_v6 rt hcol) rt n (C33_parsed_good _ _ hp).2.1 hcs (hc.ne_nil hne) hc.nonneg

/-- The same whether colours are enabled or not. -/
theorem C65_any_v6 (rt : Runtime) (prog mode s : Str) (counts : List Str)
    (hne : counts ≠ []) (hcs : List Int) (hc : Counts counts hcs) (a : V6) (n : Net V6)
    (hp : parseNetspec s = .ok (.ok (.ipv6 a n))) :
    (splitSubnet rt n hcs = .ok none ∧ ∃ t, Display6In rt.colorsEnabled n none t ∧ Shows (split rt (prog :: mode :: s :: counts)) 1
      ("Subnet to split:\n".toList ++ t ++ ['\n'] ++ "Not enough addresses available for this split.\n".toList)) ∨
    ∃ ns mx t u, splitSubnet rt n hcs = .ok (some ns) ∧ IsGreatestUsed ns mx ∧ Display6In rt.colorsEnabled n none t ∧
      SplitBlocks (fun n => Display6In rt.colorsEnabled n none) hcs ns u ∧
      (¬ Member n mx → Shows (split rt (prog :: mode :: s :: counts)) 0
        ("Subnet to split:\n".toList ++ t ++ ['\n'] ++ u ++ "Network is too small\n".toList)) ∧
      (Member n mx → (∀ a, Member n a → val a ≠ 2 ^ 128 - 1) → ∃ us : List (Net V6),
        Shows (split rt (prog :: mode :: s :: counts)) 0
          ("Subnet to split:\n".toList ++ t ++ ['\n'] ++ u ++ "Unused networks:\n".toList ++ netLines us) ∧ ListsRest n mx us) ∧
      (Member n mx → (∃ a, Member n a ∧ val a = 2 ^ 128 - 1) → Aborts (split rt (prog :: mode :: s :: counts)) .unwrapNone
        ("Subnet to split:\n".toList ++ t ++ ['\n'] ++ u ++ "Unused networks:\n".toList)) := by
  rw [split_v6 rt prog mode s counts hne hcs hc a n hp]
  exact outputSplit_outcome (display_any_v6 rt) rt n (C33_parsed_good _ _ hp).2.1 hcs (hc.ne_nil hne) hc.nonneg

theorem parseHostCounts_cases (counts : List Str) :
    (∃ hcs, Counts counts hcs ∧ parseHostCounts counts = .ok hcs) ∨
    (∃ pre s post, counts = pre ++ s :: post ∧ (∀ x ∈ pre, ∃ c, CountText x c ∧ 0 ≤ c) ∧
      (((∀ c, ¬ CountText s c) ∧ parseHostCounts counts = .error (.splitCount s)) ∨
        (∃ c, CountText s c ∧ c < 0 ∧ parseHostCounts counts = .error .splitNegative))) := by
  simp only [Counts, ← parseBigInt_iff]
  induction counts with
  | nil => exact .inl ⟨[], .nil, rfl⟩
  | cons s counts ih =>
    rw [parseHostCounts]
    cases hp : parseBigInt s with
    | none => exact .inr ⟨[], s, counts, rfl, by simp, .inl ⟨fun c h => (by rw [hp] at h; cases h), rfl⟩⟩
    | some c =>
      by_cases hc : c < 0
      · exact .inr ⟨[], s, counts, rfl, by simp, .inr ⟨c, hp, hc, by simp [hc]⟩⟩
      · rcases ih with ⟨hcs, h1, h2⟩ | ⟨pre, x, post, h1, h2, h3⟩
        · exact .inl ⟨c :: hcs, .cons ⟨hp, by omega⟩ h1, by simp [hc, h2]⟩
        · refine .inr ⟨s :: pre, x, post, by simp [h1], ?_, ?_⟩
          · intro y hy
            rcases List.mem_cons.mp hy with rfl | hy
            · exact ⟨c, hp, by omega⟩
            · exact h2 y hy
          · rcases h3 with ⟨h4, h5⟩ | ⟨d, h4, h5, h6⟩
            · exact .inl ⟨h4, by simp [hc, h5]⟩
            · exact .inr ⟨d, h4, h5, by simp [hc, h6]⟩

/-- Every other outcome: too few arguments, the first host count that is no number or is negative, a malformed network. -/
theorem C65_errors (rt : Runtime) (args : List Str) :
    (args.length < 4 → split rt args = ⟨[.err .usage], .ok 1⟩) ∧
    (∀ prog mode s counts, args = prog :: mode :: s :: counts → counts ≠ [] →
      (∀ pre x post, counts = pre ++ x :: post → (∀ y ∈ pre, ∃ c, CountText y c ∧ 0 ≤ c) →
        ((∀ c, ¬ CountText x c) → split rt args = ⟨[.err (.splitCount x)], .ok 1⟩) ∧
        (∀ c, CountText x c → c < 0 → split rt args = ⟨[.err .splitNegative], .ok 1⟩)) ∧
      (∀ hcs e, Counts counts hcs → parseNetspec s = .ok (.error e) → split rt args = ⟨[.err (.splitNet s e)], .ok 1⟩)) := by
  refine ⟨fun h => by rw [split, if_pos h]; rfl, ?_⟩
  simp only [Counts, ← parseBigInt_iff]
  rintro prog mode s counts rfl hne
  have hlen : ¬ (prog :: mode :: s :: counts).length < 4 := by
    have := List.length_pos_iff.mpr hne
    simp only [List.length_cons]; omega
  rw [split, if_neg hlen]
  simp only [List.drop_succ_cons, List.drop_zero, List.getD_cons_succ, List.getD_cons_zero]
  have hskip : ∀ pre post : List Str, (∀ y ∈ pre, ∃ c, parseBigInt y = some c ∧ 0 ≤ c) → ∀ m,
      parseHostCounts post = .error m → parseHostCounts (pre ++ post) = .error m := by
    intro pre post hpre m hm
    induction pre with
    | nil => exact hm
    | cons y pre ih =>
      obtain ⟨c, hc, h0⟩ := hpre y (by simp)
      rw [List.cons_append, parseHostCounts, hc]
      simp [Int.not_lt.mpr h0, ih (fun z hz => hpre z (by simp [hz]))]
  refine ⟨?_, ?_⟩
  · rintro pre x post rfl hpre
    constructor
    · intro hx
      rw [hskip pre (x :: post) hpre (.splitCount x) (by rw [parseHostCounts, Option.eq_none_iff_forall_ne_some.mpr hx])]
      rfl
    · intro c hx hc
      rw [hskip pre (x :: post) hpre .splitNegative (by rw [parseHostCounts, hx]; simp [hc])]
      rfl
  · intro hcs e hcnt hs
    rw [(parseHostCounts_spec counts hcs).mpr (by simpa only [parseBigInt_iff] using hcnt), hs]
    rfl

/-- Normal output with exit code 0 or 1, one message with exit code 1, or a panic. -/
theorem split_cases (rt : Runtime) (hcol : rt.colorsEnabled = true) (args : List Str) :
    (∃ t c, (c = 0 ∨ c = 1) ∧ Shows (split rt args) c t) ∨ (∃ m, split rt args = ⟨[.err m], .ok 1⟩) ∨
    (split rt args).res = .panic .unwrapNone := by
  by_cases hlen : args.length < 4
  · exact .inr (.inl ⟨_, (C65_errors rt args).1 hlen⟩)
  · obtain ⟨prog, mode, s, x, counts, rfl⟩ : ∃ a b c d e, args = a :: b :: c :: d :: e := by
      match args, hlen with
      | a :: b :: c :: d :: e, _ => exact ⟨a, b, c, d, e, rfl⟩
      | [], h => simp at h
      | [_], h => simp at h
      | [_, _], h => simp at h
      | [_, _, _], h => simp at h
    have hne : x :: counts ≠ [] := List.cons_ne_nil _ _
    obtain ⟨h1, h2⟩ := (C65_errors rt _).2 prog mode s (x :: counts) rfl hne
    rcases parseHostCounts_cases (x :: counts) with ⟨hcs, hc, -⟩ | ⟨pre, y, post, k1, k2, k3⟩
    · obtain ⟨r, hr⟩ := parseNetspec_total s
      cases r with
      | error e => exact .inr (.inl ⟨_, h2 hcs e hc hr⟩)
      | ok sp =>
        cases sp with
        | ipv4 a n =>
          rcases C65_split_v4 rt hcol prog mode s _ hne hcs hc a n hr with ⟨-, t, -, h⟩ | ⟨ns, mx, t, u, -, -, -, -, h3, h4, h5⟩
          · exact .inl ⟨_, 1, .inr rfl, h⟩
          · by_cases hm : Member n mx
            · by_cases htop : ∃ a, Member n a ∧ val a = 2 ^ 32 - 1
              · exact .inr (.inr (h5 hm htop).1)
              · obtain ⟨us, h6, -⟩ := h4 hm (fun a ha hv => htop ⟨a, ha, hv⟩)
                exact .inl ⟨_, 0, .inl rfl, h6⟩
            · exact .inl ⟨_, 0, .inl rfl, h3 hm⟩
        | ipv6 a n =>
          rcases C65_split_v6 rt hcol prog mode s _ hne hcs hc a n hr with ⟨-, t, -, h⟩ | ⟨ns, mx, t, u, -, -, -, -, h3, h4, h5⟩
          · exact .inl ⟨_, 1, .inr rfl, h⟩
          · by_cases hm : Member n mx
            · by_cases htop : ∃ a, Member n a ∧ val a = 2 ^ 128 - 1
              · exact .inr (.inr (h5 hm htop).1)
              · obtain ⟨us, h6, -⟩ := h4 hm (fun a ha hv => htop ⟨a, ha, hv⟩)
                exact .inl ⟨_, 0, .inl rfl, h6⟩
            · exact .inl ⟨_, 0, .inl rfl, h3 hm⟩
    · obtain ⟨h3, h4⟩ := h1 pre y post k1 k2
      rcases k3 with ⟨k4, -⟩ | ⟨c, k4, k5, -⟩
      · exact .inr (.inl ⟨_, h3 k4⟩)
      · exact .inr (.inl ⟨_, h4 c k4 k5⟩)

/-! ## Derange -/

/-- Every outcome other than those of `C39_command_v4` and `C39_command_v6`. -/
theorem derange_errors (rt : Runtime) (args : List Str) :
    (args.length ≠ 4 → derange rt args = ⟨[.err .usage], .ok 1⟩) ∧
    (∀ s t u v, args = [s, t, u, v] →
      (∀ e, parseAddr u = .ok (.error e) → derange rt args = ⟨[.err (.derangeFirst e)], .ok 1⟩) ∧
      (∀ x e, parseAddr u = .ok (.ok x) → parseAddr v = .ok (.error e) → derange rt args = ⟨[.err (.derangeSecond e)], .ok 1⟩) ∧
      (∀ a b, parseAddr u = .ok (.ok (.ipv4 a)) → parseAddr v = .ok (.ok (.ipv6 b)) →
        derange rt args = ⟨[.err .derangeVersion], .ok 1⟩) ∧
      (∀ a b, parseAddr u = .ok (.ok (.ipv6 a)) → parseAddr v = .ok (.ok (.ipv4 b)) →
        derange rt args = ⟨[.err .derangeVersion], .ok 1⟩)) := by
  refine ⟨fun h => by rw [derange, if_pos h]; rfl, ?_⟩
  rintro s t u v rfl
  rw [derange, if_neg (by simp)]
  simp only [List.getD_cons_succ, List.getD_cons_zero]
  refine ⟨fun e h => ?_, fun x e h h' => ?_, fun a b h h' => ?_, fun a b h h' => ?_⟩
  · rw [h]; rfl
  · rw [h, Cli.lift_ok_bind, h']; rfl
  · rw [h, Cli.lift_ok_bind, h']; rfl
  · rw [h, Cli.lift_ok_bind, h']; rfl

theorem derange_cases (rt : Runtime) (args : List Str) :
    (∃ evs, derange rt args = ⟨evs, .ok 0⟩ ∧ messages evs = []) ∨ (∃ m, derange rt args = ⟨[.err m], .ok 1⟩) ∨
    (∃ p, derange rt args = ⟨[], .panic p⟩) ∨ derange rt args = ⟨[], .diverge⟩ := by
  have hmsg : ∀ {A : Type} [IpAddr A] (ns : List (Net A)), messages (ns.map (fun n => OutEv.out (n.display ++ ['\n']))) = [] := by
    intro A _ ns
    induction ns with
    | nil => rfl
    | cons n ns ih => exact ih
  by_cases hlen : args.length = 4
  · obtain ⟨s, t, u, v, rfl⟩ : ∃ a b c d, args = [a, b, c, d] := by
      match args, hlen with
      | [a, b, c, d], _ => exact ⟨a, b, c, d, rfl⟩
    obtain ⟨h1, h2, h3, h4⟩ := (derange_errors rt [s, t, u, v]).2 s t u v rfl
    obtain ⟨r, hr⟩ := (C36_parse_addr u).1
    obtain ⟨r', hr'⟩ := (C36_parse_addr v).1
    cases r with
    | error e => exact .inr (.inl ⟨_, h1 e hr⟩)
    | ok x =>
      cases r' with
      | error e => exact .inr (.inl ⟨_, h2 x e hr hr'⟩)
      | ok y =>
        cases x with
        | ipv4 a =>
          cases y with
          | ipv4 b =>
            obtain ⟨k1, k2, k3⟩ := C39_command_v4 rt s t u v a b hr hr'
            cases h : rangeToSubnets rt.profile a b with
            | ok ns => exact .inl ⟨_, k1 ns h, hmsg ns⟩
            | panic p => exact .inr (.inr (.inl ⟨p, k2 p h⟩))
            | diverge => exact .inr (.inr (.inr (k3 h)))
          | ipv6 b => exact .inr (.inl ⟨_, h3 a b hr hr'⟩)
        | ipv6 a =>
          cases y with
          | ipv6 b =>
            obtain ⟨k1, k2, k3⟩ := C39_command_v6 rt s t u v a b hr hr'
            cases h : rangeToSubnets rt.profile a b with
            | ok ns => exact .inl ⟨_, k1 ns h, hmsg ns⟩
            | panic p => exact .inr (.inr (.inl ⟨p, k2 p h⟩))
            | diverge => exact .inr (.inr (.inr (k3 h)))
          | ipv4 b => exact .inr (.inl ⟨_, h4 a b hr hr'⟩)
  · exact .inr (.inl ⟨_, (derange_errors rt args).1 hlen⟩)

end Ripcalc
