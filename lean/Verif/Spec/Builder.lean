import Verif.Model.Builder

/-! # What the dataset builder should produce -/

namespace Torchrir.Spec

open Torchrir.Model

/-- The position at horizontal distance `r` from the centre in direction `azimuth`, at height `z`. -/
noncomputable def around (center : P3) (r azimuth z : ℝ) : P3 :=
  ⟨center.x + r * Real.cos azimuth, center.y + r * Real.sin azimuth, z⟩

/-- How long a motion between the times `t0` and `t1` has lasted at the time `t`: not at all before `t0`,
`t1 - t0` after `t1`. -/
noncomputable def elapsed (t0 t1 t : ℝ) : ℝ := max 0 (min t t1 - t0)

/-- The horizontal distance of two positions. -/
noncomputable def horizontal (p q : P3) : ℝ := Real.sqrt ((p.x - q.x) ^ 2 + (p.y - q.y) ^ 2)

/-- `lo ≤ v ≤ hi` up to `tol`. -/
def Between (tol lo hi v : ℝ) : Prop := lo - tol ≤ v ∧ v ≤ hi + tol

/-- The random values of a trial for `n` sources: numbers in `[0, 1]` and a permutation of the slots. -/
structure TrialDraws.Valid (d : TrialDraws) (n : ℕ) : Prop where
  base : 0 ≤ d.base ∧ d.base ≤ 1
  slots : d.slots.Perm (List.range n)
  radius : ∀ i, 0 ≤ d.radius i ∧ d.radius i ≤ 1
  height : ∀ i, 0 ≤ d.height i ∧ d.height i ≤ 1
  speed : ∀ i, 0 ≤ d.speed i ∧ d.speed i ≤ 1

/-- What `rng.choice(n, size=k, replace=False)` returns. -/
structure ChoiceOf (choice : List ℕ) (n k : ℕ) : Prop where
  length : choice.length = k
  nodup : choice.Nodup
  lt : ∀ i ∈ choice, i < n

/-- The random values of a scene. -/
structure SceneDraws.Valid (d : SceneDraws) (a : BuildArgs) : Prop where
  center : (0 ≤ d.center.x ∧ d.center.x ≤ 1) ∧ (0 ≤ d.center.y ∧ d.center.y ≤ 1) ∧
    0 ≤ d.center.z ∧ d.center.z ≤ 1
  speakers : (d.speakers.length : ℤ) = a.nSources ∧ d.speakers.Subperm a.speakers
  choice : ChoiceOf d.choice a.nSources.toNat a.nMoving.toNat
  trial : ∀ k, TrialDraws.Valid (d.trial k) a.nSources.toNat

end Torchrir.Spec
