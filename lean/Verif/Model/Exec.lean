/-!
# Outcomes of running Rust code

Models the execution aspects shared by all files of `/repo/src`: a call returns a value, panics, or does
not terminate.  Nothing here is specific to ripcalc.
-/
namespace Ripcalc

/-- Why a Rust program panicked. -/
inductive Panic where
  /-- `Option::unwrap`/`expect` on `None`. -/
  | unwrapNone
  /-- slice index out of bounds -/
  | indexOutOfBounds
  /-- integer overflow in a build with overflow checks -/
  | overflow
  /-- failed `assert!` -/
  | assertion
  deriving DecidableEq, Repr

/-- Outcome of a Rust computation: a value, a panic, or non-termination. -/
inductive Exec (α : Type u) where
  | ok (a : α)
  | panic (p : Panic)
  | diverge
  deriving DecidableEq, Repr

namespace Exec

/-- Sequencing: a panic or non-termination of the first part is that of the whole. -/
def bind (x : Exec α) (f : α → Exec β) : Exec β :=
  match x with
  | ok a => f a
  | panic p => panic p
  | diverge => diverge

instance : Monad Exec where
  pure := ok
  bind := bind

@[simp] theorem pure_eq (a : α) : (pure a : Exec α) = ok a := rfl
@[simp] theorem ok_bind (a : α) (f : α → Exec β) : (ok a >>= f) = f a := rfl
@[simp] theorem panic_bind (p : Panic) (f : α → Exec β) : ((panic p : Exec α) >>= f) = panic p := rfl
@[simp] theorem diverge_bind (f : α → Exec β) : ((diverge : Exec α) >>= f) = diverge := rfl
@[simp] theorem map_ok (f : α → β) (a : α) : (f <$> (ok a : Exec α)) = ok (f a) := rfl
@[simp] theorem map_panic (f : α → β) (p : Panic) : (f <$> (panic p : Exec α)) = panic p := rfl
@[simp] theorem map_diverge (f : α → β) : (f <$> (diverge : Exec α)) = diverge := rfl

instance : LawfulMonad Exec := LawfulMonad.mk'
  (id_map := fun x => by cases x <;> rfl)
  (pure_bind := fun _ _ => rfl)
  (bind_assoc := fun x _ _ => by cases x <;> rfl)

/-- `Option::unwrap` / `Option::expect`. -/
def unwrap : Option α → Exec α
  | some a => ok a
  | none => panic .unwrapNone

@[simp] theorem unwrap_some (a : α) : unwrap (some a) = ok a := rfl
@[simp] theorem unwrap_none : unwrap (none : Option α) = panic .unwrapNone := rfl

/-- `v[i]` on a slice or vector. -/
def index (l : List α) (i : Nat) : Exec α :=
  match l[i]? with
  | some a => ok a
  | none => panic .indexOutOfBounds

/-- `v[i] = x` on a vector. -/
def setIndex (l : List α) (i : Nat) (x : α) : Exec (List α) :=
  if i < l.length then ok (l.set i x) else panic .indexOutOfBounds

/-- `assert!(b)`. -/
def assert (b : Bool) : Exec Unit :=
  if b then ok () else panic .assertion

open Lean.Order in
instance : Lean.Order.PartialOrder (Exec α) :=
  inferInstanceAs (Lean.Order.PartialOrder (FlatOrder (diverge : Exec α)))

open Lean.Order in
noncomputable instance : Lean.Order.CCPO (Exec α) :=
  inferInstanceAs (Lean.Order.CCPO (FlatOrder (diverge : Exec α)))

open Lean.Order in
instance : Lean.Order.MonoBind Exec where
  bind_mono_left {α β a₁ a₂ f} h := by
    cases h with
    | bot => exact FlatOrder.rel.bot
    | refl => exact FlatOrder.rel.refl
  bind_mono_right {α β a f₁ f₂} h := by
    cases a with
    | ok a => exact h a
    | panic p => exact FlatOrder.rel.refl
    | diverge => exact FlatOrder.rel.refl

end Exec

/-- Whether integer overflow panics (debug builds) or wraps around (release builds). -/
inductive Profile where
  | checked
  | wrapping
  deriving DecidableEq, Repr

/-- `a - b` on `usize` (64 bits). -/
def usizeSub (pr : Profile) (a b : Nat) : Exec Nat :=
  if b ≤ a then .ok (a - b)
  else match pr with
    | .checked => .panic .overflow
    | .wrapping => .ok (a + 2 ^ 64 - b)

/-- A Rust `while`/`loop`: `step` runs one test-and-body; `inl` continues with a new state, `inr` leaves
the loop.  The least fixed point, so a loop that never leaves is `diverge`. -/
def loopM (step : σ → Exec (σ ⊕ ρ)) (s : σ) : Exec ρ := do
  match ← step s with
  | .inl s' => loopM step s'
  | .inr r => pure r
partial_fixpoint

/-- A bounded number of iterations of the same loop (used for evaluating concrete cases in the kernel). -/
def loopFuel (step : σ → Exec (σ ⊕ ρ)) : Nat → σ → Option (Exec ρ)
  | 0, _ => none
  | n + 1, s =>
    match step s with
    | .ok (.inl s') => loopFuel step n s'
    | .ok (.inr r) => some (.ok r)
    | .panic p => some (.panic p)
    | .diverge => some .diverge

theorem loopM_of_fuel {step : σ → Exec (σ ⊕ ρ)} {n : Nat} {s : σ} {r : Exec ρ}
    (h : loopFuel step n s = some r) : loopM step s = r := by
  induction n generalizing s with
  | zero => simp [loopFuel] at h
  | succ n ih =>
    rw [loopM]
    rw [loopFuel] at h
    cases hs : step s with
    | ok x =>
      cases x with
      | inl s' => simp only [hs] at h; simpa using ih h
      | inr r' => simp only [hs] at h; simpa using h
    | panic p => simp only [hs] at h; simpa using h
    | diverge => simp only [hs] at h; simpa using h

/-- Total correctness of a loop: an invariant and a decreasing measure. `Post` may speak about panics. -/
theorem loopM_spec {step : σ → Exec (σ ⊕ ρ)} (Inv : σ → Prop) (Post : Exec ρ → Prop) (μ : σ → Nat)
    (hstep : ∀ s, Inv s → match step s with
      | .ok (.inl s') => Inv s' ∧ μ s' < μ s
      | .ok (.inr r) => Post (.ok r)
      | .panic p => Post (.panic p)
      | .diverge => Post .diverge)
    (s : σ) (hs : Inv s) : Post (loopM step s) := by
  generalize hn : μ s = n
  induction n using Nat.strongRecOn generalizing s with
  | ind n ih =>
    rw [loopM]
    have := hstep s hs
    cases hst : step s with
    | ok x =>
      cases x with
      | inl s' =>
        simp only [hst] at this
        simpa using ih (μ s') (hn ▸ this.2) s' this.1 rfl
      | inr r => simp only [hst] at this; simpa using this
    | panic p => simp only [hst] at this; simpa using this
    | diverge => simp only [hst] at this; simpa using this

/-- Non-termination of a loop: an invariant under which every step continues. -/
theorem loopM_diverge {step : σ → Exec (σ ⊕ ρ)} (Inv : σ → Prop)
    (hstep : ∀ s, Inv s → ∃ s', step s = .ok (.inl s') ∧ Inv s')
    (s : σ) (hs : Inv s) : loopM step s = .diverge := by
  have key := loopM.fixpoint_induct (ρ := ρ) (step := step)
    (motive := fun f => ∀ s, Inv s → f s = .diverge) ?_ ?_
  · exact key s hs
  · apply Lean.Order.admissible_pi_apply (fun s (x : Exec ρ) => Inv s → x = .diverge)
    intro s
    apply Lean.Order.admissible_flatOrder (b := (Exec.diverge : Exec ρ))
    intro _; rfl
  · intro f ih s hs
    obtain ⟨s', h1, h2⟩ := hstep s hs
    simp [h1, ih s' h2]

end Ripcalc
