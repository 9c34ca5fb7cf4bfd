import Verif.Props.Terminal
import Verif.Props.ColorTest
/-!
# How the output of a computation ends
-/
namespace Ripcalc

theorem stdout_append (a b : List OutEv) : stdoutText (a ++ b) = stdoutText a ++ stdoutText b := by
  induction a with
  | nil => rfl
  | cons e a ih => cases e <;> simp [stdoutText, ih]

/-- If the computation ends, its output ends with this text. -/
def Suf (t : Str) (x : Cli α) : Prop := ∀ a, x.res = .ok a → ∃ p, stdoutText x.out = p ++ t

/-- If the computation ends, its output is empty or ends with a line end. -/
def Closed (x : Cli α) : Prop := ∀ a, x.res = .ok a → stdoutText x.out = [] ∨ ∃ p, stdoutText x.out = p ++ ['\n']

theorem Suf.bind {t : Str} {x : Cli α} {f : α → Cli β} (hf : ∀ a, Suf t (f a)) : Suf t (x >>= f) := by
  obtain ⟨o, r⟩ := x
  cases r with
  | ok a =>
    intro b hb
    obtain ⟨p, hp⟩ := hf a b hb
    refine ⟨stdoutText o ++ p, ?_⟩
    show stdoutText (o ++ (f a).out) = _
    rw [stdout_append, hp, List.append_assoc]
  | panic p => intro b hb; cases hb
  | diverge => intro b hb; cases hb

theorem Suf.closed {x : Cli α} (h : Suf ['\n'] x) : Closed x := fun a ha => .inr (h a ha)

theorem Closed.bind {x : Cli α} {f : α → Cli β} (hx : Closed x) (hf : ∀ a, Closed (f a)) : Closed (x >>= f) := by
  obtain ⟨o, r⟩ := x
  cases r with
  | ok a =>
    intro b hb
    show stdoutText (o ++ (f a).out) = [] ∨ ∃ p, stdoutText (o ++ (f a).out) = _
    rw [stdout_append]
    rcases hf a b hb with h | ⟨p, h⟩
    · rw [h, List.append_nil]; exact hx a rfl
    · exact .inr ⟨stdoutText o ++ p, by rw [h, List.append_assoc]⟩
  | panic p => intro b hb; cases hb
  | diverge => intro b hb; cases hb

theorem Suf.andThen {x : Cli α} {f : α → Cli β} (hx : Suf ['\n'] x) (hf : ∀ a, Closed (f a)) : Suf ['\n'] (x >>= f) := by
  obtain ⟨o, r⟩ := x
  cases r with
  | ok a =>
    intro b hb
    show ∃ p, stdoutText (o ++ (f a).out) = _
    rw [stdout_append]
    rcases hf a b hb with h | ⟨p, h⟩
    · rw [h, List.append_nil]; exact hx a rfl
    · exact ⟨stdoutText o ++ p, by rw [h, List.append_assoc]⟩
  | panic p => intro b hb; cases hb
  | diverge => intro b hb; cases hb

theorem closed_pure (a : α) : Closed (pure a : Cli α) := fun _ _ => .inl rfl
theorem closed_lift (x : Exec α) : Closed (liftM x : Cli α) := fun _ _ => .inl rfl
theorem closed_eprint (m : ErrMsg) : Closed (Cli.eprint m) := fun _ _ => .inl rfl
theorem suf_println (s : Str) : Suf ['\n'] (Cli.println s) := fun _ _ => ⟨s, by simp [Cli.println, Cli.emit, stdoutText]⟩

theorem Closed.bind_lift {x : Exec α} {f : α → Cli β} (hf : ∀ a, Closed (f a)) : Closed ((liftM x : Cli α) >>= f) :=
  (closed_lift x).bind hf

section
variable {A : Type} [IpAddr A]

theorem closed_printNets (l : List (Net A)) : Closed (printNets l) := by
  induction l with
  | nil => exact closed_pure _
  | cons n l ih => exact ((suf_println _).andThen fun _ => ih).closed

theorem closed_printNet (pr : Profile) (n : Net A) : Closed (printNet pr n) := fun _ _ =>
  printNet_out (fun o => stdoutText o = [] ∨ ∃ p, stdoutText o = p ++ ['\n']) (.inl rfl)
    (fun a b ha hb => by
      rw [stdout_append]
      rcases hb with hb | ⟨p, hb⟩
      · rw [hb, List.append_nil]; exact ha
      · exact .inr ⟨stdoutText a ++ p, by rw [hb, List.append_assoc]⟩)
    (fun a => .inr ⟨IpAddr.display a, by simp [stdoutText]⟩) pr n

omit [IpAddr A] in
theorem closed_printSubnets (o : Net A → Option A → Cli Unit) (l : List (Net A)) : ∀ i, Closed (printSubnets o i l) := by
  induction l with
  | nil => intro i; exact closed_pure _
  | cons n l ih =>
    intro i
    exact (Suf.bind fun _ => Suf.bind fun _ => (suf_println _).andThen fun _ => ih _).closed

omit [IpAddr A] in
theorem closed_printSplit (o : Net A → Option A → Cli Unit) (l : List (Int × Net A)) : Closed (printSplit o l) := by
  induction l with
  | nil => exact closed_pure _
  | cons n l ih =>
    obtain ⟨hc, n⟩ := n
    exact (Suf.bind fun _ => Suf.bind fun _ => (suf_println _).andThen fun _ => ih).closed

theorem closed_resizeAndOutput (rt : Runtime) (n : Net A) (m : A) (o : Net A → Option A → Cli Unit) : Closed (resizeAndOutput rt n m o) := by
  unfold resizeAndOutput
  refine Closed.bind_lift fun ⟨resized, ord⟩ => Suf.closed ?_
  refine Suf.bind fun _ => Suf.bind fun _ => (suf_println _).andThen fun _ => ?_
  cases ord with
  | lt => exact (Suf.bind fun _ => Suf.bind fun _ => Suf.bind fun _ => suf_println _).closed
  | eq => exact (Suf.bind fun _ => Suf.bind fun _ => Suf.bind fun _ => suf_println _).closed
  | gt => exact closed_printSubnets _ _ _

theorem closed_outputSplit (rt : Runtime) (n : Net A) (hcs : List Int) (o : Net A → Option A → Cli Unit) : Closed (outputSplit rt n hcs o) := by
  unfold outputSplit
  refine Suf.closed (Suf.bind fun _ => Suf.bind fun _ => (suf_println _).andThen fun _ => Closed.bind_lift fun r => ?_)
  cases r with
  | none => exact (suf_println _).closed.bind fun _ => closed_pure _
  | some ns =>
    refine (closed_printSplit _ _).bind fun _ => Closed.bind_lift fun _ => Closed.bind_lift fun _ => ?_
    dsimp only
    split
    · exact (suf_println _).closed.bind fun _ => closed_pure _
    · refine Closed.bind_lift fun r => ?_
      cases r with
      | none => exact (closed_pure _).bind fun _ => closed_pure _
      | some x =>
        refine (suf_println _).closed.bind fun _ => Closed.bind_lift fun _ => Closed.bind_lift fun _ => ?_
        exact (closed_printNets _).bind fun _ => closed_pure _

end

theorem closed_minimize (rt : Runtime) (args : List Str) : Closed (minimize rt args) := by
  unfold minimize
  repeat' first
    | with_reducible exact closed_pure _
    | with_reducible exact closed_eprint _
    | with_reducible exact closed_printNets _
    | with_reducible refine Closed.bind_lift fun _ => ?_
    | with_reducible refine Closed.bind ?_ fun _ => ?_
    | split

theorem closed_derange (rt : Runtime) (args : List Str) : Closed (derange rt args) := by
  unfold derange
  repeat' first
    | with_reducible exact closed_pure _
    | with_reducible exact closed_eprint _
    | with_reducible exact closed_printNets _
    | with_reducible refine Closed.bind_lift fun _ => ?_
    | with_reducible refine Closed.bind ?_ fun _ => ?_
    | split

theorem closed_resize (rt : Runtime) (args : List Str) : Closed (resize rt args) := by
  unfold resize
  repeat' first
    | with_reducible exact closed_pure _
    | with_reducible exact closed_eprint _
    | with_reducible exact closed_resizeAndOutput _ _ _ _
    | with_reducible refine Closed.bind_lift fun _ => ?_
    | with_reducible refine Closed.bind ?_ fun _ => ?_
    | split

theorem closed_split (rt : Runtime) (args : List Str) : Closed (split rt args) := by
  unfold split
  repeat' first
    | with_reducible exact closed_pure _
    | with_reducible exact closed_eprint _
    | with_reducible exact closed_outputSplit _ _ _ _
    | with_reducible refine Closed.bind_lift fun _ => ?_
    | with_reducible refine Closed.bind ?_ fun _ => ?_
    | split

theorem closed_enumerateLoop (rt : Runtime) (l : List Str) : ∀ r, Closed (enumerateLoop rt r l) := by
  induction l with
  | nil => intro r; exact closed_pure _
  | cons s l ih =>
    intro r
    unfold enumerateLoop
    refine Closed.bind_lift fun x => ?_
    split
    · exact (closed_eprint _).bind fun _ => ih _
    · exact (closed_printNet _ _).bind fun _ => ih _
    · exact (closed_printNet _ _).bind fun _ => ih _

theorem closed_enumerate (rt : Runtime) (args : List Str) : Closed (enumerate rt args) := by
  unfold enumerate
  split
  · exact (closed_eprint _).bind fun _ => closed_pure _
  · exact closed_enumerateLoop _ _ _

/-! ## Without colours -/

theorem suf_write (rt : Runtime) (hc : rt.colorsEnabled = false) (t : Str) (c : Option Color) (p : Int) :
    Suf ['\n'] (writeInColor rt t c p) := by
  unfold writeInColor
  rw [hc]
  exact suf_println _

/-! ## The display -/

/-- What stands for the count in a network without hosts, with colours. -/
def noHostsNet : Str := styledText .white "no hosts/net".toList

section
variable {A : Type} [IpAddr A]

theorem display_closed (rt : Runtime) (l aw : Int) (o : A → Option A → Bool → Option Color → Cli Unit) (c : Str → Str → Cli Unit)
    (n : Net A) (a : Option A) (h : rt.colorsEnabled = false ∨ 0 < n.hostCount) : Suf ['\n'] (outputNetwork rt l aw o c n a) := by
  unfold outputNetwork
  refine Suf.bind fun _ => Suf.bind fun _ => Suf.bind fun _ => Suf.bind fun _ => Suf.bind fun _ => Suf.bind fun _ => ?_
  unfold outputCountPart
  split
  · exact Suf.bind fun _ => Suf.bind fun _ => suf_println _
  · rename_i hn
    exact suf_write rt (h.resolve_right hn) _ _ _

theorem display_open (rt : Runtime) (l aw : Int) (o : A → Option A → Bool → Option Color → Cli Unit) (c : Str → Str → Cli Unit)
    (n : Net A) (a : Option A) (hc : rt.colorsEnabled = true) (h : n.hostCount ≤ 0) : Suf ('\n' :: noHostsNet) (outputNetwork rt l aw o c n a) := by
  unfold outputNetwork
  refine Suf.bind fun _ => Suf.bind fun _ => Suf.bind fun _ => Suf.bind fun _ => Suf.bind fun _ => ?_
  unfold outputCountPart
  rw [if_neg (by omega)]
  unfold writeInColor
  rw [hc]
  exact fun _ _ => ⟨[], rfl⟩

end

/-- The number of hosts of a parsed argument. -/
def NetworkSpec.hosts : NetworkSpec → Int
  | .ipv4 _ n => n.hostCount
  | .ipv6 _ n => n.hostCount

theorem showLoop_suf (rt : Runtime) (t : Str) (last : NetworkSpec)
    (h4 : ∀ a n, last = .ipv4 a n → Suf t (outputIpv4Network rt n (some a))) (h6 : ∀ a n, last = .ipv6 a n → Suf t (outputIpv6Network rt n (some a)))
    (specs : List NetworkSpec) : ∀ b, Suf t (showPrintLoop rt b (specs ++ [last])) := by
  have end_ : ∀ x : Cli Unit, Suf t x → Suf t (x >>= fun _ => showPrintLoop rt false []) := by
    intro x hx
    obtain ⟨o, r⟩ := x
    cases r with
    | ok a =>
      intro b hb
      obtain ⟨p, hp⟩ := hx () rfl
      refine ⟨p, ?_⟩
      show stdoutText (o ++ []) = _
      rw [List.append_nil]; exact hp
    | panic p => intro b hb; cases hb
    | diverge => intro b hb; cases hb
  induction specs with
  | nil =>
    intro b
    rw [List.nil_append, showPrintLoop]
    have key : Suf t (match last with
        | .ipv4 a n => outputIpv4Network rt n (some a) >>= fun _ => showPrintLoop rt false []
        | .ipv6 a n => outputIpv6Network rt n (some a) >>= fun _ => showPrintLoop rt false []) := by
      cases last with
      | ipv4 a n => exact end_ _ (h4 a n rfl)
      | ipv6 a n => exact end_ _ (h6 a n rfl)
    cases b with
    | true => cases last <;> exact key
    | false => cases last <;> exact Suf.bind fun _ => key
  | cons x specs ih =>
    intro b
    rw [List.cons_append, showPrintLoop]
    cases b <;> cases x <;> first
      | exact Suf.bind fun _ => ih _
      | exact Suf.bind fun _ => Suf.bind fun _ => ih _

theorem showLoop_closed (rt : Runtime) (last : NetworkSpec) (h : rt.colorsEnabled = false ∨ 0 < last.hosts) (specs : List NetworkSpec) (b : Bool) :
    Suf ['\n'] (showPrintLoop rt b (specs ++ [last])) :=
  showLoop_suf rt _ last (fun _ _ e => display_closed rt _ _ _ _ _ _ (by subst e; exact h))
    (fun _ _ e => display_closed rt _ _ _ _ _ _ (by subst e; exact h)) specs b

theorem showLoop_open (rt : Runtime) (last : NetworkSpec) (hc : rt.colorsEnabled = true) (h : last.hosts ≤ 0) (specs : List NetworkSpec) (b : Bool) :
    Suf ('\n' :: noHostsNet) (showPrintLoop rt b (specs ++ [last])) :=
  showLoop_suf rt _ last (fun _ _ e => display_open rt _ _ _ _ _ _ hc (by subst e; exact h))
    (fun _ _ e => display_open rt _ _ _ _ _ _ hc (by subst e; exact h)) specs b

end Ripcalc
