import Verif.Spec.Ism
import Mathlib.Analysis.SpecialFunctions.Trigonometric.Basic

/-!
# Orientations
-/

namespace Torchrir.Spec

open Torchrir.Model (Tensor)

/-- The tensor of shape `(*pre, d)` whose vectors along the last axis are `f`, in row-major order. -/
def batch (pre : List ℕ) {d : ℕ} (f : Fin pre.prod → Fin d → ℝ) : Tensor ℝ :=
  ⟨pre ++ [d], (List.ofFn fun i => List.ofFn (f i)).flatten⟩

/-- `u` is the unit vector with the direction of `v`. -/
def UnitAlong {d : ℕ} (u v : Fin d → ℝ) : Prop :=
  ∑ i, u i ^ 2 = 1 ∧ ∃ a : ℝ, 0 < a ∧ v = a • u

/-- The point of the unit circle at the given angle. -/
noncomputable def onCircle (a : ℝ) : Fin 2 → ℝ := ![Real.cos a, Real.sin a]

/-- The point of the unit sphere with the given azimuth and elevation. -/
noncomputable def onSphere (az el : ℝ) : Fin 3 → ℝ :=
  ![Real.cos el * Real.cos az, Real.cos el * Real.sin az, Real.sin el]

end Torchrir.Spec
