import Verif.Proofs.Color
import Verif.Proofs.Parse
/-!
# What is printed on standard output is printable ASCII
-/
namespace Ripcalc

/-- All output so far is on standard output and printable. -/
def Tidy (x : Cli α) : Prop := ∀ e ∈ x.out, TidyEvent e

/-! ## Texts -/

instance (s : Str) : Decidable (PlainText s) := by unfold PlainText; infer_instance

theorem plain_append {s t : Str} (hs : PlainText s) (ht : PlainText t) : PlainText (s ++ t) :=
  fun c hc => (List.mem_append.mp hc).elim (hs c) (ht c)

theorem plain_lowerDigit {c : Char} (h : c ∈ lowerDigits) : 0x20 ≤ c.toNat ∧ c.toNat < 0x7F := by
  have : ∀ c ∈ lowerDigits, 0x20 ≤ c.toNat ∧ c.toNat < 0x7F := by decide
  exact this c h

theorem plain_showNat (n : Nat) : PlainText (showNat 10 n) :=
  fun _ h => plain_lowerDigit (showNat_mem (by omega) (by omega) h)

theorem plain_showInt (n : Int) : PlainText (showInt n) := by
  cases n with
  | ofNat n => exact plain_showNat n
  | negSucc n => exact plain_append (s := ['-']) (by decide) (plain_showNat _)

theorem plain_replicate (n : Nat) : PlainText (List.replicate n ' ') := by
  intro c hc; rw [List.eq_of_mem_replicate hc]; decide

theorem plain_padText {t : Str} (h : PlainText t) (p : Int) : PlainText (padText t p) := by
  unfold padText
  dsimp only
  repeat' first
    | exact h
    | exact plain_append h (plain_replicate _)
    | exact plain_append (plain_replicate _) h
    | split

theorem plain_binary (bs : List Byte) : PlainText (bytesToBinary bs) := by
  intro c hc
  rw [bytesToBinary, List.mem_map] at hc
  obtain ⟨b, -, rfl⟩ := hc
  cases b <;> decide

theorem plain_index {bits : Str} (h : PlainText bits) {i : Nat} {c : Char} (hc : Exec.index bits i = .ok c) : PlainText [c] := by
  unfold Exec.index at hc
  split at hc
  · rename_i a ha
    cases hc
    intro d hd
    rw [List.mem_singleton.mp hd]
    exact h c (List.mem_of_getElem? ha)
  · cases hc

theorem plain_display4 (a : V4) : PlainText (IpAddr.display a) := by
  intro c hc
  have hd : IpAddr.display a = a.display := rfl
  rw [hd, V4.display] at hc
  split at hc
  · have tab : PlainText ['.'] := by decide
    exact plain_append (plain_append (plain_append (plain_append (plain_append (plain_append (plain_showNat _) tab)
      (plain_showNat _)) tab) (plain_showNat _)) tab) (plain_showNat _) c hc
  · cases hc

theorem plain_display6 (a : V6) : PlainText (IpAddr.display a) := by
  intro c hc
  have := (v6_display_hexColon a).1.2 c hc
  rcases List.mem_cons.mp this with rfl | h
  · decide
  · exact plain_lowerDigit h

/-! ## Computations -/

theorem Tidy.bind {x : Cli α} {f : α → Cli β} (h : Tidy x) (hf : ∀ a, Tidy (f a)) : Tidy (x >>= f) := by
  obtain ⟨o, r⟩ := x
  cases r with
  | ok a =>
    intro e he
    rw [Cli.mk_ok_bind] at he
    exact (List.mem_append.mp he).elim (h e) (hf a e)
  | panic p => exact h
  | diverge => exact h

theorem Tidy.bind_lift {x : Exec α} {f : α → Cli β} (hf : ∀ a, x = .ok a → Tidy (f a)) : Tidy ((liftM x : Cli α) >>= f) := by
  cases x with
  | ok a => exact hf a rfl
  | panic p => intro e he; cases he
  | diverge => intro e he; cases he

theorem tidy_lift (x : Exec α) : Tidy (liftM x : Cli α) := by intro e he; cases he
theorem tidy_pure (a : α) : Tidy (pure a : Cli α) := by intro e he; cases he

theorem tidy_println {s : Str} (h : PlainText s) : Tidy (Cli.println s) := by
  intro e he
  rw [List.mem_singleton.mp he]
  exact ⟨s, rfl, h⟩

theorem tidy_write (rt : Runtime) {t : Str} (h : PlainText t) (c : Option Color) (p : Int) : Tidy (writeInColor rt t c p) := by
  unfold writeInColor
  dsimp only
  split
  · split
    · intro e he
      rw [List.mem_singleton.mp he]
      exact plain_padText h p
    · exact tidy_println (plain_padText h p)
  · exact tidy_println (plain_padText h p)

/-- Steps through a computation; `t` closes the calls and the texts. -/
macro "tidy_steps" "[" t:term,* "]" : tactic => `(tactic| repeat' first
  $[| with_reducible refine $t]*
  | with_reducible exact tidy_lift _
  | with_reducible exact tidy_pure _
  | with_reducible exact plain_showNat _
  | with_reducible exact plain_showInt _
  | with_reducible exact plain_binary _
  | with_reducible refine tidy_println ?_
  | with_reducible refine tidy_write _ ?_ _ _
  | with_reducible refine plain_append ?_ ?_
  | with_reducible refine Tidy.bind_lift fun _ _ => ?_
  | with_reducible refine Tidy.bind ?_ fun _ => ?_
  | (with_reducible (show PlainText _)); decide +kernel
  | dsimp only
  | split)

variable (rt : Runtime)

theorem tidy_bits4 (f cc : Bool) {bits : Str} (hb : PlainText bits) (mb : Str) (l : List Nat) :
    Tidy (outputBits4 rt f cc bits mb l) := by
  induction l with
  | nil => exact tidy_pure _
  | cons b l ih =>
    unfold outputBits4
    refine Tidy.bind_lift fun _ _ => Tidy.bind_lift fun _ _ => Tidy.bind_lift fun c hc => ?_
    exact Tidy.bind (tidy_write rt (plain_index hb hc) _ _) fun _ => ih

theorem tidy_byte4 (mbs : Option (List Byte)) (ov : Option Color) (i : Nat) (b : Byte) (cc : Bool) :
    Tidy (outputByte4 rt mbs ov i b cc) := by
  unfold outputByte4; tidy_steps [tidy_bits4 rt _ _ (plain_binary _) _ _]

theorem tidy_bytes4 (mbs : Option (List Byte)) (ov : Option Color) (len : Nat) (bs : List Byte) : ∀ i cc,
    Tidy (outputBytes4 rt mbs ov len i bs cc) := by
  induction bs with
  | nil => intro i cc; exact tidy_pure _
  | cons b bs ih => intro i cc; unfold outputBytes4; tidy_steps [ih _ _, tidy_byte4 ..]

theorem tidy_binary4 (a : V4) (m : Option V4) (cc : Bool) (ov : Option Color) : Tidy (outputBinaryIpv4Address rt a m cc ov) :=
  tidy_bytes4 rt _ _ _ _ _ _

theorem tidy_bits6 {bits : Str} (hb : PlainText bits) (mb : Str) (l : List Nat) : Tidy (outputBits6 rt bits mb l) := by
  induction l with
  | nil => exact tidy_pure _
  | cons b l ih =>
    unfold outputBits6
    refine Tidy.bind_lift fun _ _ => Tidy.bind_lift fun c hc => ?_
    exact Tidy.bind (tidy_write rt (plain_index hb hc) _ _) fun _ => ih

theorem tidy_byte6 (mbs : Option (List Byte)) (ov : Option Color) (i : Nat) (b : Byte) : Tidy (outputByte6 rt mbs ov i b) := by
  unfold outputByte6; tidy_steps [tidy_bits6 rt (plain_binary _) _ _]

theorem tidy_bytes6 (mbs : Option (List Byte)) (ov : Option Color) (len : Nat) (bs : List Byte) : ∀ i,
    Tidy (outputBytes6 rt mbs ov len i bs) := by
  induction bs with
  | nil => intro i; exact tidy_pure _
  | cons b bs ih => intro i; unfold outputBytes6; tidy_steps [ih _, tidy_byte6 ..]

theorem tidy_binary6 (a : V6) (m : Option V6) (cc : Bool) (ov : Option Color) : Tidy (outputBinaryIpv6Address rt a m cc ov) :=
  tidy_bytes6 rt _ _ _ _ _

theorem tidy_class (a b : Str) : Tidy (outputIpv4Class rt a b) := by
  unfold outputIpv4Class; tidy_steps []

theorem tidy_initial (l aw : Int) {s t : Str} (hs : PlainText s) (ht : PlainText t) : Tidy (outputInitialColumns rt l aw s t) := by
  unfold outputInitialColumns; tidy_steps [hs, ht]

section
variable {A : Type} [IpAddr A] (hd : ∀ a : A, PlainText (IpAddr.display a))
include hd

theorem plain_net (n : Net A) : PlainText n.display := by
  unfold Net.display; tidy_steps [hd _]

theorem tidy_addressPart (l aw : Int) {o : A → Option A → Bool → Option Color → Cli Unit}
    (ho : ∀ a m b v, Tidy (o a m b v)) (n : Net A) (a : A) : Tidy (outputAddressPart rt l aw o n a) := by
  unfold outputAddressPart; tidy_steps [ho _ _ _ _, hd _, tidy_initial rt _ _ ?_ ?_]

theorem tidy_network (l aw : Int) {o : A → Option A → Bool → Option Color → Cli Unit} {c : Str → Str → Cli Unit}
    (ho : ∀ a m b v, Tidy (o a m b v)) (hc : ∀ s t, Tidy (c s t)) (n : Net A) (a : Option A) :
    Tidy (outputNetwork rt l aw o c n a) := by
  unfold outputNetwork outputNetworkPart outputHostsPart outputBroadcastPart outputCountPart
  tidy_steps [ho _ _ _ _, hc _ _, hd _, tidy_initial rt _ _ ?_ ?_, tidy_addressPart rt hd _ _ ho _ _]

theorem tidy_printNets (l : List (Net A)) : Tidy (printNets l) := by
  induction l with
  | nil => exact tidy_pure _
  | cons n l ih => unfold printNets; tidy_steps [ih, plain_net hd _]

theorem tidy_printNet (pr : Profile) (n : Net A) : Tidy (printNet pr n) :=
  printNet_out (fun o => ∀ e ∈ o, TidyEvent e) (fun _ h => by cases h)
    (fun _ _ ha hb e he => (List.mem_append.mp he).elim (ha e) (hb e))
    (fun a e he => by rw [List.mem_singleton.mp he]; exact ⟨_, rfl, hd a⟩) pr n

omit hd [IpAddr A] in
theorem tidy_printSubnets {o : Net A → Option A → Cli Unit} (ho : ∀ n a, Tidy (o n a)) (l : List (Net A)) : ∀ i,
    Tidy (printSubnets o i l) := by
  induction l with
  | nil => intro i; exact tidy_pure _
  | cons n l ih => intro i; unfold printSubnets; tidy_steps [ih _, ho _ _]

omit hd [IpAddr A] in
theorem tidy_printSplit {o : Net A → Option A → Cli Unit} (ho : ∀ n a, Tidy (o n a)) (l : List (Int × Net A)) :
    Tidy (printSplit o l) := by
  induction l with
  | nil => exact tidy_pure _
  | cons n l ih => obtain ⟨hc, n⟩ := n; unfold printSplit; tidy_steps [ih, ho _ _]

omit hd in
theorem tidy_resizeAndOutput (n : Net A) (m : A) {o : Net A → Option A → Cli Unit} (ho : ∀ n a, Tidy (o n a)) :
    Tidy (resizeAndOutput rt n m o) := by
  unfold resizeAndOutput; tidy_steps [tidy_printSubnets ho _ _, ho _ _]

theorem tidy_outputSplit (n : Net A) (hcs : List Int) {o : Net A → Option A → Cli Unit} (ho : ∀ n a, Tidy (o n a)) :
    Tidy (outputSplit rt n hcs o) := by
  unfold outputSplit; tidy_steps [tidy_printSplit ho _, tidy_printNets hd _, ho _ _]

end

theorem tidy_network4 (n : Net V4) (a : Option V4) : Tidy (outputIpv4Network rt n a) :=
  tidy_network rt plain_display4 _ _ (tidy_binary4 rt) (tidy_class rt) n a

theorem tidy_network6 (n : Net V6) (a : Option V6) : Tidy (outputIpv6Network rt n a) :=
  tidy_network rt plain_display6 _ _ (tidy_binary6 rt) (fun _ _ => tidy_pure _) n a

theorem tidy_printLoop (l : List NetworkSpec) : ∀ b, Tidy (showPrintLoop rt b l) := by
  induction l with
  | nil => intro b; exact tidy_pure _
  | cons x l ih => intro b; unfold showPrintLoop; tidy_steps [ih _, tidy_network4 .., tidy_network6 ..]

theorem tidy_colorTest : Tidy (colorTest rt) := by
  unfold colorTest; tidy_steps []

/-! ## Whole commands: either only standard output, or one message and exit code 1 -/

/-- Printable standard output only, or one message only and exit code 1. -/
def TidyOrMessage (x : Cli Nat) : Prop := Tidy x ∨ ∃ m, x = ⟨[.err m], .ok 1⟩

theorem Tidy.command {x : Cli Nat} (h : Tidy x) : TidyOrMessage x := .inl h

theorem TidyOrMessage.bind_lift {x : Exec α} {f : α → Cli Nat} (hf : ∀ a, x = .ok a → TidyOrMessage (f a)) :
    TidyOrMessage ((liftM x : Cli α) >>= f) := by
  cases x with
  | ok a => exact hf a rfl
  | panic p => exact .inl (fun e he => by cases he)
  | diverge => exact .inl (fun e he => by cases he)

theorem tidyOrMessage_eprint (m : ErrMsg) : TidyOrMessage (Cli.eprint m >>= fun _ => pure 1) := .inr ⟨m, rfl⟩

/-- Steps through a command; `t` closes the calls. -/
macro "command_steps" "[" t:term,* "]" : tactic => `(tactic| repeat' first
  $[| with_reducible refine $t]*
  | with_reducible exact tidyOrMessage_eprint _
  | with_reducible exact tidy_pure _
  | with_reducible refine TidyOrMessage.bind_lift fun _ _ => ?_
  | split
  | with_reducible refine Tidy.command (Tidy.bind ?_ fun _ => ?_)
  | with_reducible exact Tidy.command (tidy_pure _)
  | dsimp only)

theorem command_show (args : List Str) : TidyOrMessage (showNet rt args) := by
  unfold showNet; command_steps [tidy_printLoop rt _ _]

theorem command_minimize (args : List Str) : TidyOrMessage (minimize rt args) := by
  unfold minimize; command_steps [tidy_printNets plain_display4 _, tidy_printNets plain_display6 _]

theorem command_derange (args : List Str) : TidyOrMessage (derange rt args) := by
  unfold derange; command_steps [tidy_printNets plain_display4 _, tidy_printNets plain_display6 _]

theorem command_resize (args : List Str) : TidyOrMessage (resize rt args) := by
  unfold resize; command_steps [tidy_resizeAndOutput rt _ _ (tidy_network4 rt), tidy_resizeAndOutput rt _ _ (tidy_network6 rt)]

theorem command_split (args : List Str) : TidyOrMessage (split rt args) := by
  unfold split
  command_steps [(tidy_outputSplit rt plain_display4 _ _ (tidy_network4 rt)).command,
    (tidy_outputSplit rt plain_display6 _ _ (tidy_network6 rt)).command]

/-! ## Exit codes -/

/-- A normal end comes with exit code 0, or with exit code 1 after the given line. -/
def EndsWith (l : Option Str) (x : Cli Nat) : Prop :=
  ∀ c, x.res = .ok c → c = 0 ∨ c = 1 ∧ ∃ line pre, l = some line ∧ x.out = pre ++ [.out (line ++ ['\n'])]

theorem EndsWith.bind {l : Option Str} {x : Cli α} {f : α → Cli Nat} (hf : ∀ a, EndsWith l (f a)) : EndsWith l (x >>= f) := by
  obtain ⟨o, r⟩ := x
  intro c hc
  cases r with
  | ok a =>
    rcases hf a c hc with h | ⟨h, line, pre, h1, h2⟩
    · exact .inl h
    · refine .inr ⟨h, line, o ++ pre, h1, ?_⟩
      show o ++ (f a).out = _
      rw [h2, List.append_assoc]
  | panic p => cases hc
  | diverge => cases hc

theorem endsWith_zero (l : Option Str) : EndsWith l (pure 0) := fun _ hc => by cases hc; exact .inl rfl

theorem endsWith_line (line : Str) : EndsWith (some line) (Cli.println line >>= fun _ => pure 1) :=
  fun _ hc => by cases hc; exact .inr ⟨rfl, line, [], rfl, rfl⟩

/-- How a command ends: with exit code 0 and printable standard output only, with one message only and exit code 1, or with
the given line on standard output and exit code 1. -/
def CommandEnd (l : Option Str) (x : Cli Nat) : Prop := EndsWith l x ∨ ∃ m, x = ⟨[.err m], .ok 1⟩

theorem EndsWith.command {l : Option Str} {x : Cli Nat} (h : EndsWith l x) : CommandEnd l x := .inl h

theorem CommandEnd.bind_lift {l : Option Str} {x : Exec α} {f : α → Cli Nat} (hf : ∀ a, CommandEnd l (f a)) :
    CommandEnd l ((liftM x : Cli α) >>= f) := by
  cases x with
  | ok a => exact hf a
  | panic p => exact .inl (fun e he => by cases he)
  | diverge => exact .inl (fun e he => by cases he)

theorem commandEnd_eprint (l : Option Str) (m : ErrMsg) : CommandEnd l (Cli.eprint m >>= fun _ => pure 1) := .inr ⟨m, rfl⟩

/-- Steps through a command. -/
macro "end_steps" : tactic => `(tactic| repeat' first
  | with_reducible exact commandEnd_eprint _ _
  | with_reducible refine CommandEnd.bind_lift fun _ => ?_
  | with_reducible exact endsWith_line _
  | split
  | with_reducible exact endsWith_zero _
  | with_reducible refine EndsWith.bind fun _ => ?_
  | with_reducible refine EndsWith.command ?_
  | dsimp only)

theorem end_show (args : List Str) : CommandEnd none (showNet rt args) := by unfold showNet; end_steps
theorem end_minimize (args : List Str) : CommandEnd none (minimize rt args) := by unfold minimize; end_steps
theorem end_derange (args : List Str) : CommandEnd none (derange rt args) := by unfold derange; end_steps
theorem end_resize (args : List Str) : CommandEnd none (resize rt args) := by unfold resize; end_steps

theorem end_outputSplit {A : Type} [IpAddr A] (n : Net A) (hcs : List Int) (o : Net A → Option A → Cli Unit) :
    EndsWith (some "Not enough addresses available for this split.".toList) (outputSplit rt n hcs o) := by
  unfold outputSplit; end_steps

theorem end_split (args : List Str) : CommandEnd (some "Not enough addresses available for this split.".toList) (split rt args) := by
  unfold split
  repeat' first
    | with_reducible exact (end_outputSplit rt _ _ _).command
    | with_reducible exact commandEnd_eprint _ _
    | with_reducible refine CommandEnd.bind_lift fun _ => ?_
    | split
    | dsimp only

end Ripcalc
