import Verif.Spec.Ism

/-!
# Directivity patterns
-/

namespace Torchrir.Spec

/-- The documented directivity patterns. -/
inductive Pattern where
  | omni
  | halfOmni
  | subcardioid
  | cardioid
  | hypercardioid
  | bidirectional

/-- The (lower case) names of a pattern. -/
def Pattern.names : Pattern → List String
  | omni => ["omni", "omnidirectional"]
  | halfOmni => ["homni", "halfomni", "half-omni"]
  | subcardioid => ["subcardioid", "subcard"]
  | cardioid => ["cardioid", "card"]
  | hypercardioid => ["hypercardioid", "hypcard"]
  | bidirectional => ["bidir", "bidirectional", "figure8", "figure-8"]

open Classical in
/-- Gain as a function of the cosine of the angle to the device axis: first order patterns
`a + (1 - a) cos θ`, except half-omni, which is 1 in front and 0 behind. -/
noncomputable def Pattern.gain : Pattern → ℝ → ℝ
  | omni, _ => 1
  | halfOmni, c => if 0 < c then 1 else 0
  | subcardioid, c => 3 / 4 + 1 / 4 * c
  | cardioid, c => 1 / 2 + 1 / 2 * c
  | hypercardioid, c => 1 / 4 + 3 / 4 * c
  | bidirectional, c => c

/-- Whether the gain is computed with the cosine; the omnidirectional pattern needs nothing, the half-omnidirectional
one only the sign. -/
def Pattern.usesCosine : Pattern → Bool
  | omni | halfOmni => false
  | subcardioid | cardioid | hypercardioid | bidirectional => true

/-- Directional gain of a device with the given pattern and axis. -/
noncomputable def Pattern.towards {d : ℕ} (p : Pattern) (axis : Fin d → ℝ) : (Fin d → ℝ) → ℝ :=
  fun v => p.gain (cosAngle v axis)

end Torchrir.Spec
