import Verif.Model.Exec
/-!
# How often a loop runs
-/
namespace Ripcalc

/-- Starting in state `s`, the loop with this body ends with `r` in round `n`. -/
inductive Rounds {σ ρ : Type} (step : σ → Exec (σ ⊕ ρ)) : σ → Nat → ρ → Prop
  | last {s r} : step s = .ok (.inr r) → Rounds step s 1 r
  | again {s s' n r} : step s = .ok (.inl s') → Rounds step s' n r → Rounds step s (n + 1) r

end Ripcalc
