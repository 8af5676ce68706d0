import Verif.Spec.Geometry
import Verif.Spec.Floating
import Verif.Model.GeometryFloat

/-!
# Specification: positions in floating point
-/

namespace Torchrir.Spec

open Torchrir.Model (GeoFloats Vec)

/-- A machine whose tensors have `p` significant bits: Python numbers are double precision, the operations
round to nearest, a quotient takes two roundings, and the norm is good to four. -/
structure AccurateGeo (p : ℕ) (F : GeoFloats) : Prop where
  py : RoundsToNearest 53 F.py
  fl : RoundsToNearest p F.fl
  quot : ∀ a b, |F.quot a b - a / b| ≤ ((1 + roundoff p) ^ 2 - 1) * |a / b|
  norm : ∀ v : Vec, v.length ≤ 3 →
    |F.norm v - Real.sqrt ((v.map fun x => x ^ 2).sum)| ≤ 4 * roundoff p * Real.sqrt ((v.map fun x => x ^ 2).sum)

/-- Inside the margins up to a rounding to `p` bits at both ends, and three of Python's at the far end. -/
def NearlyWithin {d : ℕ} (p : ℕ) (size : Fin d → ℝ) (margin : ℝ) (q : Fin d → ℝ) : Prop :=
  ∀ i, (1 - roundoff p) * margin ≤ q i ∧ q i ≤ (1 + roundoff p) * ((1 + roundoff 53) ^ 3 * (size i - margin))

/-- A relative error of `n` roundings. -/
noncomputable def roundings (p n : ℕ) : ℝ := (1 + roundoff p) ^ n - 1

/-- The norm as a plain loop: squares, their sum and its root, each rounded. -/
noncomputable def plainNorm (fl : ℝ → ℝ) (v : Vec) : ℝ := fl (Real.sqrt (v.foldl (fun s x => fl (s + fl (x ^ 2))) 0))

end Torchrir.Spec
