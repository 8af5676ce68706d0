import Verif.Spec.Signal

/-!
# Specification: timestamps (C111)
-/

namespace Torchrir.Spec

/-- `p t` is the first sample of the step that starts at the time `τ t`: the product with the sampling
rate without its fractional part. -/
def FirstSamples {T : ℕ} (τ : Fin T → ℝ) (f : ℝ) (p : Fin T → ℤ) : Prop :=
  ∀ t, p t = if 0 ≤ τ t * f then ⌊τ t * f⌋ else -⌊-(τ t * f)⌋

/-- No step starts before the previous one or after the end of a signal of `N` samples. -/
def InOrder {T : ℕ} (N : ℕ) (p : Fin T → ℤ) : Prop := Monotone p ∧ ∀ t, p t ≤ N

end Torchrir.Spec
