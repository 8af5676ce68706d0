import Verif.Spec.Signal
import Verif.Spec.Floating
import Verif.Model.SignalFloat

/-!
# Specification: convolution in floating point
-/

namespace Torchrir.Spec

open Torchrir.Model (SignalFloats DeviceType)

/-- A machine on which additions have the relative error `u`, and products and transforms of up to `n₀`
points have the relative error `ε`: a coefficient is off by at most `ε` times the sum of the magnitudes of
the samples, a sample by at most `ε` times the mean of the magnitudes of the coefficients (of the whole
spectrum, of which `irfft` gets one half). The sum of `l` numbers takes `l` additions in any order. -/
structure AccurateSignals (u ε : ℝ) (n₀ : ℕ) (F : SignalFloats) : Prop where
  add : ∀ x, |F.fl x - x| ≤ u * |x|
  mul : ∀ a b, ‖F.mul a b - a * b‖ ≤ ε * ‖a * b‖
  rfft_length : ∀ x n, (F.rfft x n).length = n / 2 + 1
  rfft : ∀ x n k, n ≤ n₀ → k ≤ n / 2 →
    ‖(F.rfft x n).getD k 0 - ∑ j ∈ Finset.range n, (x.getD j 0 : ℂ) * Complex.exp (-(2 * Real.pi * Complex.I * j * k / n))‖
      ≤ ε * ∑ j ∈ Finset.range n, |x.getD j 0|
  irfft_length : ∀ X n, (F.irfft X n).length = n
  irfft : ∀ X n j, n ≤ n₀ → j < n →
    |(F.irfft X n).getD j 0 - (∑ k ∈ Finset.range (n / 2 + 1), (if k = 0 ∨ 2 * k = n then (1 : ℝ) else 2) *
        (X.getD k 0 * Complex.exp (2 * Real.pi * Complex.I * j * k / n)).re) / n|
      ≤ ε * ((∑ k ∈ Finset.range (n / 2 + 1), (if k = 0 ∨ 2 * k = n then (1 : ℝ) else 2) * ‖X.getD k 0‖) / n)
  sum : ∀ l, |F.sum l - l.sum| ≤ ((1 + u) ^ l.length - 1) * (l.map fun x => |x|).sum

/-- The relative error of a convolution whose result takes `n` additions. -/
def convError (u ε : ℝ) (n : ℕ) : ℝ := (1 + u) ^ n * (1 + ε) ^ 4 - 1

/-- The sum of the magnitudes. -/
def total {n : ℕ} (x : Fin n → ℝ) : ℝ := ∑ j, |x j|

/-- How loud a mixture can be at microphone `m`. -/
def loudness {S M N L : ℕ} (x : Fin S → Fin N → ℝ) (h : Fin S → Fin M → Fin L → ℝ) (m : Fin M) : ℝ :=
  ∑ s, total (x s) * total (h s m)

/-- How loud the steps that are heard at sample `k` can be at microphone `m`: those that contain a sample
not later and less than a response earlier. -/
noncomputable def loudnessAt {S M N L T : ℕ} (x : Fin S → Fin N → ℝ) (h : Fin T → Fin S → Fin M → Fin L → ℝ)
    (step : Fin N → Fin T) (m : Fin M) (k : ℕ) : ℝ :=
  open Classical in
  ∑ s, ∑ j, if ∃ j', step j' = step j ∧ (j' : ℕ) ≤ k ∧ k < j' + L then |x s j| * total (h (step j) s m) else 0

/-- `first t` is the sample at which step `t` begins, `step j` the step that is current at sample `j`. -/
def Begins {T N : ℕ} (first : Fin T → ℕ) (step : Fin N → Fin T) : Prop := ∀ j t, t ≤ step j ↔ first t ≤ (j : ℕ)

/-- The relative error of a start that is computed with `q` significant bits: four roundings. -/
noncomputable def clockError (q : ℕ) : ℝ := (1 + roundoff q) ^ 4 - 1

/-- Every step begins at the integer part of a number next to its exact start. -/
def BeginsNear {T : ℕ} (q : ℕ) (start : Fin T → ℝ) (first : Fin T → ℕ) : Prop :=
  ∀ t, ∃ s : ℝ, (first t : ℤ) = ⌊s⌋ ∧ |s - start t| ≤ clockError q * start t

/-- How many additions a sample of a trajectory takes: on a GPU the sources of a step are added first. -/
def additions (dev : DeviceType) (S T : ℕ) : ℕ := if dev = .cuda ∨ dev = .mps then S + T else S * T

end Torchrir.Spec
