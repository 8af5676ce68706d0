import Verif.Model.Tensor
import Mathlib.Algebra.BigOperators.Fin

/-!
# Specification of Sabine's formula
-/

namespace Torchrir.Spec

open Finset

/-- Volume (area in 2-D) of a room with the given side lengths. -/
def volume {d : ℕ} (size : Fin d → ℝ) : ℝ := ∏ i, size i

/-- Area (length in 2-D) of wall `k`; walls `2i` and `2i+1` are perpendicular to axis `i`. -/
def wallArea {d : ℕ} (size : Fin d → ℝ) (k : Fin (2 * d)) : ℝ :=
  ∏ i ∈ univ.filter (fun i : Fin d => (i : ℕ) ≠ (k : ℕ) / 2), size i

/-- Area of all walls. -/
def surface {d : ℕ} (size : Fin d → ℝ) : ℝ := ∑ k, wallArea size k

/-- Equivalent absorption area: a wall with reflection coefficient `b` absorbs the share `1 - b²` of
the energy. -/
def absorption {d : ℕ} (size : Fin d → ℝ) (β : Fin (2 * d) → ℝ) : ℝ :=
  ∑ k, wallArea size k * (1 - β k ^ 2)

/-- Sabine's formula: reverberation time of a room with absorption area `A`. -/
noncomputable def sabine {d : ℕ} (size : Fin d → ℝ) (A : ℝ) : ℝ := 0.161 * volume size / A

end Torchrir.Spec
