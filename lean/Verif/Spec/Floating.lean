import Verif.Spec.Calls
import Verif.Spec.Directivity
import Verif.Spec.Movement
import Verif.Spec.Orientation
import Verif.Model.Floating

/-!
# Specification: floating-point numbers and the error of a simulation

Binary floating point with `p` significant bits (24 in single, 53 in double precision) and an
unbounded exponent, i.e. without overflow and underflow; and the error that it leaves in an
impulse response.
-/

namespace Torchrir.Spec

open Torchrir.Model (Floats Vec Tensor Entity)

/-- A number with at most `p` significant bits. -/
def IsFloat (p : ℕ) (x : ℝ) : Prop := ∃ m e : ℤ, |m| ≤ 2 ^ p ∧ x = m * (2 : ℝ) ^ e

/-- Every result is a floating-point number next to the exact value; nothing is said about ties. -/
def RoundsToNearest (p : ℕ) (fl : ℝ → ℝ) : Prop :=
  ∀ x, IsFloat p (fl x) ∧ ∀ y, IsFloat p y → |fl x - x| ≤ |y - x|

/-- The unit roundoff. -/
noncomputable def roundoff (p : ℕ) : ℝ := 2⁻¹ ^ p

/-- A machine with `p` significant bits: the elementary operations round to nearest, norm, power,
product and sum of up to three numbers, cosine and sine are good to four roundings, the sinc function
and the two tables to `ε`, and a scattered addition adds every entry once, in whatever order. -/
structure Accurate (p : ℕ) (ε : ℝ) (F : Floats) : Prop where
  fl : RoundsToNearest p F.fl
  norm : ∀ v : Vec, v.length ≤ 3 →
    |F.norm v - Real.sqrt ((v.map fun x => x ^ 2).sum)| ≤ 4 * roundoff p * Real.sqrt ((v.map fun x => x ^ 2).sum)
  pow : ∀ b n, |F.pow b n - b ^ n| ≤ 4 * roundoff p * |b ^ n|
  prod : ∀ l : List ℝ, l.length ≤ 3 → |F.prod l - l.prod| ≤ 4 * roundoff p * |l.prod|
  sum : ∀ l : List ℝ, l.length ≤ 3 → |F.sum l - l.sum| ≤ 4 * roundoff p * (l.map fun x => |x|).sum
  cos : ∀ x, |F.cos x - Real.cos x| ≤ 4 * roundoff p * |Real.cos x|
  sin : ∀ x, |F.sin x - Real.sin x| ≤ 4 * roundoff p * |Real.sin x|
  sinc : ∀ x, |F.sinc x - Spec.sinc x| ≤ ε
  window_length : ∀ fdl, (F.window fdl).length = fdl
  window : ∀ fdl j, j < fdl → |(F.window fdl).getD j 0 - hann fdl j| ≤ ε
  lut_length : ∀ fdl gran, (F.lut fdl gran).length = (fdl + 1) * gran + 1
  lut : ∀ fdl gran j, fdl % 2 = 1 → 0 < gran → j ≤ (fdl + 1) * gran →
    |(F.lut fdl gran).getD j 0 - Spec.sinc ((j : ℝ) / gran - ((fdl : ℝ) + 1) / 2)| ≤ ε
  order : ∀ i j es, (F.order i j es).Perm es

/-- The numbers that enter the path from an image to the microphone, added up: what the rounding
errors of the path length are proportional to. -/
noncomputable def pathScale {d : ℕ} (L src mic : Fin d → ℝ) (n : Fin d → ℤ) : ℝ :=
  1e-6 + ∑ i, (|mic i| + 2 * |src i| + |image L src n i|)

/-- Bound for the error of a delay, in samples, for a path of the given scale. -/
noncomputable def delayError {d : ℕ} (S : Setup d) (u scale : ℝ) : ℝ :=
  u * (17 * scale * S.fs / S.c + 3 * S.fdl)

/-- What a wrong whole part of the delay can cost: nothing unless a whole number lies within the
error `δ` of the delay `τ`, otherwise a step of the window. -/
noncomputable def stepError {d : ℕ} (S : Setup d) (τ δ : ℝ) : ℝ :=
  open Classical in if ∃ z : ℤ, |τ - z| ≤ δ then windowStep S.fdl * (1 + δ) else 0

/-- Bound for the error of what image `n` contributes to a sample, relative to its amplitude: the
kernel, the amplitude, the delay. -/
noncomputable def imageError {d : ℕ} (S : Setup d) (u ε : ℝ) (src mic : Fin d → ℝ) (n : Fin d → ℤ) : ℝ :=
  let r := pathLength mic (image S.L src n)
  let scale := pathScale S.L src mic n
  let δ := delayError S u scale
  (32 * S.fdl * u + 10 * ε) + 53 * u * (scale / r) + 2 * δ + stepError S (r * S.fs / S.c) δ

/-- Bound for the error of the gain of a device: `δ` is that of the cosine of the angle to its axis.
A half-omni device may take an image for the wrong side if the cosine is not larger than its error. -/
noncomputable def Pattern.gainError (p : Pattern) (c δ : ℝ) : ℝ :=
  match p with
  | .omni => 0
  | .halfOmni => if |c| ≤ δ then 1 else 0
  | _ => δ

/-- Bound for the factor between the computed and the exact gains of both devices towards image `n`,
for gains that are not larger than 1. -/
noncomputable def gainFactor {d : ℕ} (S : Setup d) (u : ℝ) (ps pm : Pattern) (us um src mic : Fin d → ℝ)
    (n : Fin d → ℤ) : ℝ :=
  let img := image S.L src n
  let δ := 80 * u * (pathScale S.L src mic n / Spec.dist mic img)
  (1 + ps.gainError (cosAngle (mic - img) us) δ) * (1 + pm.gainError (cosAngle (img - mic) um) δ)

/-- Bound for the error of a sample of a response between directional devices. -/
noncomputable def directionalError {d : ℕ} (S : Setup d) (images : Finset (Fin d → ℤ)) (u ε : ℝ)
    (ps pm : Pattern) (us um src mic : Fin d → ℝ) : ℝ :=
  ∑ n ∈ images, |wallGain S.lo S.hi n| / pathLength mic (image S.L src n)
    * ((1 + u) ^ images.card * (gainFactor S u ps pm us um src mic n * (1 + imageError S u ε src mic n)) - 1)

/-- How the orientations of `n` devices are given: a vector each, an angle each in two dimensions,
azimuth and elevation each in three. -/
inductive Aim : ℕ → ℕ → Type
  | vectors {n d : ℕ} (u : Fin n → Fin d → ℝ) : Aim n d
  | angles {n : ℕ} (a : Fin n → ℝ) : Aim n 2
  | spherical {n : ℕ} (az el : Fin n → ℝ) : Aim n 3

/-- The tensor that is passed. -/
def Aim.tensor {n d : ℕ} : Aim n d → Tensor ℝ
  | .vectors u => tensor2 u
  | .angles a => tensor2 fun i => ![a i]
  | .spherical az el => tensor2 fun i => ![az i, el i]

/-- The axes that are meant. -/
noncomputable def Aim.axis {n d : ℕ} : Aim n d → Fin n → Fin d → ℝ
  | .vectors u => u
  | .angles a => fun i => onCircle (a i)
  | .spherical az el => fun i => onSphere (az i) (el i)

/-- Devices at the points `p` with the orientations `A`. -/
def aimedPoints {n d : ℕ} (p : Fin n → Fin d → ℝ) (A : Aim n d) : Entity :=
  { positions := tensor2 p, orientation := some A.tensor }

/-- Bound for the error of a sample, if the additions are rounded too. -/
noncomputable def sampleError {d : ℕ} (S : Setup d) (images : Finset (Fin d → ℤ)) (u ε : ℝ)
    (src mic : Fin d → ℝ) : ℝ :=
  ∑ n ∈ images, |wallGain S.lo S.hi n| / pathLength mic (image S.L src n)
    * ((1 + u) ^ images.card * (1 + imageError S u ε src mic n) - 1)

end Torchrir.Spec
