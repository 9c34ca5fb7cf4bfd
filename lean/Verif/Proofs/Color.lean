import Verif.Model.Main
import Verif.Proofs.Loop
import Verif.Spec.Output
/-!
# How the output depends on `console::colors_enabled()`
-/
namespace Ripcalc

/-- A styled fragment written by `println!` instead. -/
def uncolor : OutEv → OutEv
  | .styled _ s => .out (s ++ ['\n'])
  | e => e

/-- The same computation with changed events. -/
def Cli.mapOut (f : OutEv → OutEv) (x : Cli α) : Cli α := ⟨x.out.map f, x.res⟩

/-- The platform with the given colour setting. -/
def Runtime.withColors (rt : Runtime) (b : Bool) : Runtime := { rt with colorsEnabled := b }

/-- `y` is `x` without colours. -/
def Uncolored (x y : Cli α) : Prop := y = x.mapOut uncolor

theorem Uncolored.bind {x y : Cli α} {f g : α → Cli β} (h : Uncolored x y) (hf : ∀ a, Uncolored (f a) (g a)) :
    Uncolored (x >>= f) (y >>= g) := by
  obtain ⟨o, r⟩ := x
  subst h
  cases r with
  | ok a =>
    have := hf a
    simp only [Uncolored, Cli.mapOut] at *
    simp [this]
  | panic p => rfl
  | diverge => rfl

theorem uncolored_lift (x : Exec α) : Uncolored (liftM x : Cli α) (liftM x : Cli α) := rfl
theorem uncolored_lift_of {x y : Exec α} (h : x = y) : Uncolored (liftM x : Cli α) (liftM y : Cli α) := h ▸ rfl
theorem uncolored_pure (a : α) : Uncolored (pure a : Cli α) (pure a) := rfl
theorem uncolored_println (s : Str) : Uncolored (Cli.println s) (Cli.println s) := rfl
theorem uncolored_eprint (m : ErrMsg) : Uncolored (Cli.eprint m) (Cli.eprint m) := rfl

theorem uncolored_ite {c : Prop} [Decidable c] {x y x' y' : Cli α} (h : Uncolored x x') (h' : Uncolored y y') :
    Uncolored (if c then x else y) (if c then x' else y') := by split <;> assumption

variable (rt : Runtime)

theorem uncolored_write (t : Str) (c : Option Color) (p : Int) :
    Uncolored (writeInColor (rt.withColors true) t c p) (writeInColor (rt.withColors false) t c p) := by
  cases c <;> rfl

/-- Steps through two computations that differ in the colour setting only; `t` closes the calls. -/
macro "uncolor_steps" "[" t:term,* "]" : tactic => `(tactic| repeat' first
  $[| with_reducible exact $t]*
  | with_reducible exact uncolored_lift _
  | with_reducible exact uncolored_pure _
  | with_reducible exact uncolored_println _
  | with_reducible exact uncolored_eprint _
  | with_reducible exact uncolored_write _ _ _ _
  | with_reducible refine Uncolored.bind ?_ fun _ => ?_
  | ((with_reducible refine uncolored_lift_of ?_); rfl)
  | dsimp only
  | split)

theorem uncolored_bits4 (f cc : Bool) (bits mb : Str) (l : List Nat) :
    Uncolored (outputBits4 (rt.withColors true) f cc bits mb l) (outputBits4 (rt.withColors false) f cc bits mb l) := by
  induction l with
  | nil => exact uncolored_pure _
  | cons b l ih => unfold outputBits4; uncolor_steps [ih]

theorem uncolored_byte4 (mbs : Option (List Byte)) (ov : Option Color) (i : Nat) (b : Byte) (cc : Bool) :
    Uncolored (outputByte4 (rt.withColors true) mbs ov i b cc) (outputByte4 (rt.withColors false) mbs ov i b cc) := by
  unfold outputByte4; uncolor_steps [uncolored_bits4 ..]

theorem uncolored_bytes4 (mbs : Option (List Byte)) (ov : Option Color) (len : Nat) (bs : List Byte) : ∀ i cc,
    Uncolored (outputBytes4 (rt.withColors true) mbs ov len i bs cc) (outputBytes4 (rt.withColors false) mbs ov len i bs cc) := by
  induction bs with
  | nil => intro i cc; exact uncolored_pure _
  | cons b bs ih => intro i cc; unfold outputBytes4; uncolor_steps [ih _ _, uncolored_byte4 ..]

theorem uncolored_binary4 (a : V4) (m : Option V4) (cc : Bool) (ov : Option Color) :
    Uncolored (outputBinaryIpv4Address (rt.withColors true) a m cc ov) (outputBinaryIpv4Address (rt.withColors false) a m cc ov) :=
  uncolored_bytes4 rt _ _ _ _ _ _

theorem uncolored_bits6 (bits mb : Str) (l : List Nat) :
    Uncolored (outputBits6 (rt.withColors true) bits mb l) (outputBits6 (rt.withColors false) bits mb l) := by
  induction l with
  | nil => exact uncolored_pure _
  | cons b l ih => unfold outputBits6; uncolor_steps [ih]

theorem uncolored_byte6 (mbs : Option (List Byte)) (ov : Option Color) (i : Nat) (b : Byte) :
    Uncolored (outputByte6 (rt.withColors true) mbs ov i b) (outputByte6 (rt.withColors false) mbs ov i b) := by
  unfold outputByte6; uncolor_steps [uncolored_bits6 ..]

theorem uncolored_bytes6 (mbs : Option (List Byte)) (ov : Option Color) (len : Nat) (bs : List Byte) : ∀ i,
    Uncolored (outputBytes6 (rt.withColors true) mbs ov len i bs) (outputBytes6 (rt.withColors false) mbs ov len i bs) := by
  induction bs with
  | nil => intro i; exact uncolored_pure _
  | cons b bs ih => intro i; unfold outputBytes6; uncolor_steps [ih _, uncolored_byte6 ..]

theorem uncolored_binary6 (a : V6) (m : Option V6) (cc : Bool) (ov : Option Color) :
    Uncolored (outputBinaryIpv6Address (rt.withColors true) a m cc ov) (outputBinaryIpv6Address (rt.withColors false) a m cc ov) :=
  uncolored_bytes6 rt _ _ _ _ _

theorem uncolored_class (a b : Str) :
    Uncolored (outputIpv4Class (rt.withColors true) a b) (outputIpv4Class (rt.withColors false) a b) := by
  unfold outputIpv4Class; uncolor_steps []

theorem uncolored_initial (l aw : Int) (s t : Str) :
    Uncolored (outputInitialColumns (rt.withColors true) l aw s t) (outputInitialColumns (rt.withColors false) l aw s t) := by
  unfold outputInitialColumns; uncolor_steps []

section
variable {A : Type} [IpAddr A]

theorem uncolored_addressPart (l aw : Int) {o o' : A → Option A → Bool → Option Color → Cli Unit}
    (ho : ∀ a m b v, Uncolored (o a m b v) (o' a m b v)) (n : Net A) (a : A) :
    Uncolored (outputAddressPart (rt.withColors true) l aw o n a) (outputAddressPart (rt.withColors false) l aw o' n a) := by
  unfold outputAddressPart; uncolor_steps [ho _ _ _ _, uncolored_initial ..]

theorem uncolored_network (l aw : Int) {o o' : A → Option A → Bool → Option Color → Cli Unit} {c c' : Str → Str → Cli Unit}
    (ho : ∀ a m b v, Uncolored (o a m b v) (o' a m b v)) (hc : ∀ s t, Uncolored (c s t) (c' s t)) (n : Net A) (a : Option A) :
    Uncolored (outputNetwork (rt.withColors true) l aw o c n a) (outputNetwork (rt.withColors false) l aw o' c' n a) := by
  unfold outputNetwork outputNetworkPart outputHostsPart outputBroadcastPart outputCountPart
  uncolor_steps [ho _ _ _ _, hc _ _, uncolored_initial .., uncolored_addressPart rt _ _ ho _ _]

end

theorem uncolored_network4 (n : Net V4) (a : Option V4) :
    Uncolored (outputIpv4Network (rt.withColors true) n a) (outputIpv4Network (rt.withColors false) n a) :=
  uncolored_network rt _ _ (uncolored_binary4 rt) (uncolored_class rt) n a

theorem uncolored_network6 (n : Net V6) (a : Option V6) :
    Uncolored (outputIpv6Network (rt.withColors true) n a) (outputIpv6Network (rt.withColors false) n a) :=
  uncolored_network rt _ _ (uncolored_binary6 rt) (fun _ _ => uncolored_pure _) n a

theorem uncolored_printLoop (l : List NetworkSpec) : ∀ b,
    Uncolored (showPrintLoop (rt.withColors true) b l) (showPrintLoop (rt.withColors false) b l) := by
  induction l with
  | nil => intro b; exact uncolored_pure _
  | cons x l ih => intro b; unfold showPrintLoop; uncolor_steps [ih _, uncolored_network4 .., uncolored_network6 ..]

theorem uncolored_show (args : List Str) : Uncolored (showNet (rt.withColors true) args) (showNet (rt.withColors false) args) := by
  unfold showNet; uncolor_steps [uncolored_printLoop ..]

section
variable {A : Type} [IpAddr A]

theorem uncolored_printNets (l : List (Net A)) : Uncolored (printNets l) (printNets l) := by
  induction l with
  | nil => exact uncolored_pure _
  | cons n l ih => unfold printNets; uncolor_steps [ih]

theorem uncolored_printNet (pr : Profile) (n : Net A) : Uncolored (printNet pr n) (printNet pr n) := by
  have h : (printNet pr n).out.map uncolor = (printNet pr n).out :=
    printNet_out (fun o => o.map uncolor = o) rfl (fun a b ha hb => by rw [List.map_append, ha, hb]) (fun _ => rfl) pr n
  rw [Uncolored, Cli.mapOut, h]

omit [IpAddr A] in
theorem uncolored_printSubnets {o o' : Net A → Option A → Cli Unit} (ho : ∀ n a, Uncolored (o n a) (o' n a)) (l : List (Net A)) : ∀ i,
    Uncolored (printSubnets o i l) (printSubnets o' i l) := by
  induction l with
  | nil => intro i; exact uncolored_pure _
  | cons n l ih => intro i; unfold printSubnets; uncolor_steps [ih _, ho _ _]

omit [IpAddr A] in
theorem uncolored_printSplit {o o' : Net A → Option A → Cli Unit} (ho : ∀ n a, Uncolored (o n a) (o' n a)) (l : List (Int × Net A)) :
    Uncolored (printSplit o l) (printSplit o' l) := by
  induction l with
  | nil => exact uncolored_pure _
  | cons n l ih => obtain ⟨hc, n⟩ := n; unfold printSplit; uncolor_steps [ih, ho _ _]

theorem uncolored_resizeAndOutput (n : Net A) (m : A) {o o' : Net A → Option A → Cli Unit} (ho : ∀ n a, Uncolored (o n a) (o' n a)) :
    Uncolored (resizeAndOutput (rt.withColors true) n m o) (resizeAndOutput (rt.withColors false) n m o') := by
  unfold resizeAndOutput; uncolor_steps [uncolored_printSubnets ho _ _, ho _ _]

theorem uncolored_outputSplit (n : Net A) (hcs : List Int) {o o' : Net A → Option A → Cli Unit} (ho : ∀ n a, Uncolored (o n a) (o' n a)) :
    Uncolored (outputSplit (rt.withColors true) n hcs o) (outputSplit (rt.withColors false) n hcs o') := by
  unfold outputSplit; uncolor_steps [uncolored_printSplit ho _, uncolored_printNets _, ho _ _]

end

theorem uncolored_minimize (args : List Str) : Uncolored (minimize (rt.withColors true) args) (minimize (rt.withColors false) args) := by
  unfold minimize; uncolor_steps [uncolored_printNets _]

theorem uncolored_derange (args : List Str) : Uncolored (derange (rt.withColors true) args) (derange (rt.withColors false) args) := by
  unfold derange; uncolor_steps [uncolored_printNets _]

theorem uncolored_split (args : List Str) : Uncolored (split (rt.withColors true) args) (split (rt.withColors false) args) := by
  unfold split
  uncolor_steps [uncolored_outputSplit rt _ _ (uncolored_network4 rt), uncolored_outputSplit rt _ _ (uncolored_network6 rt)]

theorem uncolored_resize (args : List Str) : Uncolored (resize (rt.withColors true) args) (resize (rt.withColors false) args) := by
  unfold resize
  uncolor_steps [uncolored_resizeAndOutput rt _ _ (uncolored_network4 rt), uncolored_resizeAndOutput rt _ _ (uncolored_network6 rt)]

theorem uncolored_enumerateLoop (l : List Str) : ∀ r,
    Uncolored (enumerateLoop (rt.withColors true) r l) (enumerateLoop (rt.withColors false) r l) := by
  induction l with
  | nil => intro r; exact uncolored_pure _
  | cons s l ih => intro r; unfold enumerateLoop; uncolor_steps [ih _] <;> exact uncolored_printNet _ _

theorem uncolored_enumerate (args : List Str) : Uncolored (enumerate (rt.withColors true) args) (enumerate (rt.withColors false) args) := by
  unfold enumerate; uncolor_steps [uncolored_enumerateLoop ..]

theorem uncolored_colorTest : Uncolored (colorTest (rt.withColors true)) (colorTest (rt.withColors false)) := by
  unfold colorTest; uncolor_steps []

theorem uncolored_main (args : List Str) : Uncolored (doMain (rt.withColors true) args) (doMain (rt.withColors false) args) := by
  unfold doMain
  uncolor_steps [uncolored_minimize .., uncolored_derange .., uncolored_split .., uncolored_resize .., uncolored_enumerate ..,
    uncolored_colorTest .., uncolored_show ..]

end Ripcalc
