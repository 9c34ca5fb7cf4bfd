import Verif.Spec.Rounds
import Verif.Proofs.Cli
import Verif.Model.Enumerate
/-!
# Lemmas about loops
-/
namespace Ripcalc

theorem rounds_loopM {σ ρ : Type} {step : σ → Exec (σ ⊕ ρ)} {s : σ} {n : Nat} {r : ρ} (h : Rounds step s n r) : loopM step s = .ok r := by
  induction h with
  | last h => rw [loopM, h]; rfl
  | again h _ ih => rw [loopM, h]; exact ih

theorem loopM_rounds {σ ρ : Type} {step : σ → Exec (σ ⊕ ρ)} {s : σ} {r : ρ} (h : loopM step s = .ok r) : ∃ n, Rounds step s n r := by
  have key := loopM.fixpoint_induct (ρ := ρ) (step := step)
    (motive := fun f => ∀ s, ∀ r, f s = .ok r → ∃ n, Rounds step s n r) ?_ ?_
  · exact key s r h
  · apply Lean.Order.admissible_pi_apply (fun s (x : Exec ρ) => ∀ r, x = .ok r → ∃ n, Rounds step s n r)
    intro s
    apply Lean.Order.admissible_flatOrder (b := (Exec.diverge : Exec ρ))
    intro r h; cases h
  · intro f ih s r h
    dsimp only at h
    cases hs : step s with
    | ok x =>
      rw [hs] at h
      cases x with
      | inl s' =>
        obtain ⟨n, hn⟩ := ih s' r h
        exact ⟨n + 1, .again hs hn⟩
      | inr r' => cases h; exact ⟨1, .last hs⟩
    | panic p => rw [hs] at h; cases h
    | diverge => rw [hs] at h; cases h

/-! ## Loops with output -/

variable {σ ρ : Type}

/-- What holds of the output of every round and is kept under appending holds of the output of the loop. -/
theorem Cli.loop_out {step : σ → Cli (σ ⊕ ρ)} (P : List OutEv → Prop) (h0 : P []) (happ : ∀ a b, P a → P b → P (a ++ b))
    (hs : ∀ s, P (step s).out) (s : σ) : P (Cli.loop step s).out := by
  rw [Cli.loop]
  cases hl : loopM (Cli.loopStep step) (s, []) with
  | panic q => exact h0
  | diverge => exact h0
  | ok x =>
    obtain ⟨n, hn⟩ := loopM_rounds hl
    have key : ∀ (p : σ × List OutEv) n x, Rounds (Cli.loopStep step) p n x → P p.2 → P x.1 := by
      intro p n x h
      induction h with
      | @last p r h =>
        intro hp
        have := hs p.1
        rw [Cli.loopStep] at h
        cases hst : step p.1 with
        | mk o e =>
          rw [hst] at h this
          rcases e with (s' | r') | q | _ <;> cases h <;> exact happ _ _ hp this
      | @again p p' n r h _ ih =>
        intro hp
        have := hs p.1
        rw [Cli.loopStep] at h
        cases hst : step p.1 with
        | mk o e =>
          rw [hst] at h this
          rcases e with (s' | r') | q | _ <;> cases h
          exact ih (happ _ _ hp this)
    exact key _ _ _ hn h0

/-- What a round of the loop over the addresses of a network writes. -/
theorem printStep_out {A : Type} [IpAddr A] (pr : Profile) (it : NetworkIter A) :
    (printStep pr it).out = [] ∨ ∃ a : A, (printStep pr it).out = [.out (IpAddr.display a ++ ['\n'])] := by
  rw [printStep]
  cases it.next pr with
  | panic p => exact .inl rfl
  | diverge => exact .inl rfl
  | ok v =>
    obtain ⟨_ | a, it'⟩ := v
    · exact .inl rfl
    · exact .inr ⟨a, rfl⟩

/-- What holds of lines with an address and is kept under appending holds of the output of the loop over the addresses. -/
theorem printNet_out {A : Type} [IpAddr A] (P : List OutEv → Prop) (h0 : P []) (happ : ∀ a b, P a → P b → P (a ++ b))
    (hs : ∀ a : A, P [.out (IpAddr.display a ++ ['\n'])]) (pr : Profile) (n : Net A) : P (printNet pr n).out := by
  rw [printNet]
  cases NetworkIter.new n with
  | panic p => exact h0
  | diverge => exact h0
  | ok it =>
    rw [Cli.lift_ok_bind]
    refine Cli.loop_out P h0 happ (fun s => ?_) it
    rcases printStep_out pr s with h | ⟨a, h⟩ <;> rw [h]
    · exact h0
    · exact hs a

end Ripcalc
