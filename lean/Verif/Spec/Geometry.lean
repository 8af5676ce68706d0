import Verif.Spec.Ism

/-!
# Array layouts, sampled positions and trajectories

Geometric notions used by the theorems on `torchrir.geometry`. Points are functions from the axes to
the reals, collections of points are indexed families.
-/

namespace Torchrir.Spec

open Torchrir.Model

/-- The `(n, d)` tensor whose rows are the points. -/
def rows {n d : ℕ} (p : Fin n → Fin d → ℝ) : List Vec := List.ofFn fun k => List.ofFn (p k)

/-- The points stand on the line through `c` along `v`, in this order, neighbours `spacing` apart,
with centroid `c`. -/
structure EvenLine {n d : ℕ} (p : Fin n → Fin d → ℝ) (c v : Fin d → ℝ) (spacing : ℝ) : Prop where
  onLine : ∃ t : Fin n → ℝ, StrictMono t ∧ ∀ k i, p k i = c i + t k * v i
  apart : ∀ j k : Fin n, dist (p j) (p k) = spacing * |(j : ℝ) - k|
  centred : ∀ i, ∑ k, p k i = n * c i

/-- Two perpendicular unit vectors. -/
structure Orthonormal2 {d : ℕ} (e f : Fin d → ℝ) : Prop where
  unit_left : ∑ i, e i ^ 2 = 1
  unit_right : ∑ i, f i ^ 2 = 1
  perp : ∑ i, e i * f i = 0

/-- The points divide the circle of the given radius around `c` in the plane spanned by `e` and `f`
into `n` equal arcs. -/
structure EvenCircle {n d : ℕ} (p : Fin n → Fin d → ℝ) (c e f : Fin d → ℝ) (radius : ℝ) : Prop where
  orthonormal : Orthonormal2 e f
  position : ∀ k i, p k i = c i + radius *
    (Real.cos (2 * Real.pi * k / n) * e i + Real.sin (2 * Real.pi * k / n) * f i)
  onSphere : ∀ k, dist (p k) c = radius
  centred : 2 ≤ n → ∀ i, ∑ k, p k i = n * c i

/-- The vector points opposite to the first axis. -/
def OppositeX (v : Fin 3 → ℝ) : Prop := v 0 < 0 ∧ v 1 = 0 ∧ v 2 = 0

/-- The room of the given size shrunk by the margin on every side. -/
def Within {d : ℕ} (size : Fin d → ℝ) (margin : ℝ) (p : Fin d → ℝ) : Prop :=
  ∀ i, margin ≤ p i ∧ p i ≤ size i - margin

/-- A random stream with values in the unit interval. -/
def UnitStream (r : ℕ → ℝ) : Prop := ∀ k, 0 ≤ r k ∧ r k ≤ 1

/-- The heights the `z` range leaves inside the margins, in three dimensions: the interval from the
larger lower to the smaller upper bound, if it is longer than a point. -/
noncomputable def usableHeights {d : ℕ} (size : Fin d → ℝ) (zRange : Option (ℝ × ℝ)) (margin : ℝ) :
    Option (ℝ × ℝ) :=
  open Classical in
  match zRange with
  | none => none
  | some (zMin, zMax) =>
    if h : 2 < d then
      if max margin zMin < min (size ⟨2, h⟩ - margin) zMax then
        some (max margin zMin, min (size ⟨2, h⟩ - margin) zMax)
      else none
    else none

/-- The `j`-th point drawn from the stream from position `k` on: uniform inside the margins on every
axis, except that a usable height interval replaces the third coordinate by a further draw. -/
noncomputable def candidate (r : ℕ → ℝ) {d : ℕ} (size : Fin d → ℝ) (heights : Option (ℝ × ℝ))
    (margin : ℝ) (k j : ℕ) : Fin d → ℝ := fun i =>
  match heights with
  | none => margin + (size i - margin - margin) * r (k + j * d + i)
  | some (lo, hi) =>
    if (i : ℕ) = 2 then lo + (hi - lo) * r (k + j * (d + 1) + d)
    else margin + (size i - margin - margin) * r (k + j * (d + 1) + i)

open Classical in
/-- The candidates among the first `attempts` that are far enough from the centre. -/
noncomputable def farCandidates {d : ℕ} (cand : ℕ → Fin d → ℝ) (center : Fin d → ℝ) (minDistance : ℝ)
    (attempts : ℕ) : List (Fin d → ℝ) :=
  ((List.range attempts).map cand).filter fun p => minDistance ≤ dist p center

end Torchrir.Spec
