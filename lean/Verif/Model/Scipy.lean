import Verif.Model.Ism

/-!
# Zero-phase filtering

Reference model of `scipy.signal.sosfiltfilt` with its default padding, the function hpf.py 54 calls.
scipy is not part of the repository: this follows its documentation (transposed direct form II
sections, steady-state initial conditions, odd extension at both ends). The theorems that use it say so
in their hypotheses; all others hold for an arbitrary filter.
-/

namespace Torchrir.Model

/-- A row `[b0, b1, b2, 1, a1, a2]` of second-order sections. -/
structure Biquad where
  b0 : ℝ
  b1 : ℝ
  b2 : ℝ
  a1 : ℝ
  a2 : ℝ

/-- One section on a signal, from the state `z` (`sosfilt`, transposed direct form II). -/
def biquadRun (q : Biquad) : ℝ × ℝ → List ℝ → List ℝ
  | _, [] => []
  | z, x :: xs =>
    let y := q.b0 * x + z.1
    y :: biquadRun q (q.b1 * x - q.a1 * y + z.2, q.b2 * x - q.a2 * y) xs

/-- `sosfilt`: the sections in sequence, each with its initial state. -/
def sosfilt : List (Biquad × (ℝ × ℝ)) → List ℝ → List ℝ
  | [], x => x
  | (q, z) :: rest, x => sosfilt rest (biquadRun q z x)

/-- `lfilter_zi` for one section: the state in which a unit step is already settled. -/
noncomputable def stepState (q : Biquad) : ℝ × ℝ :=
  let z0 := ((q.b1 - q.a1 * q.b0) + (q.b2 - q.a2 * q.b0)) / (1 + q.a1 + q.a2)
  (z0, (1 + q.a1) * z0 - (q.b1 - q.a1 * q.b0))

/-- `sosfilt_zi` times the value `v`: later sections see the settled output of the earlier ones. -/
noncomputable def startStates : List Biquad → ℝ → List (Biquad × (ℝ × ℝ))
  | [], _ => []
  | q :: rest, v =>
    (q, ((stepState q).1 * v, (stepState q).2 * v)) ::
      startStates rest (v * ((q.b0 + q.b1 + q.b2) / (1 + q.a1 + q.a2)))

open Classical in
/-- The default padding length of `sosfiltfilt`. -/
noncomputable def padLength (sos : List Biquad) : ℕ :=
  3 * (2 * sos.length + 1 -
    min (sos.countP fun q => q.b2 = 0) (sos.countP fun q => q.a2 = 0))

/-- `odd_ext`: `n` samples on each side, reflected in the end samples. -/
def oddExt (n : ℕ) (x : List ℝ) : List ℝ :=
  ((x.drop 1).take n).reverse.map (2 * x.headD 0 - ·) ++ x ++
    (x.reverse.drop 1 |>.take n).map (2 * x.getLastD 0 - ·)

/-- `sosfiltfilt(sos, x)` on one row. -/
noncomputable def sosfiltfilt (sos : List Biquad) (x : List ℝ) : Except String (List ℝ) :=
  let edge := padLength sos
  if x.length ≤ edge then .error "The length of the input vector x must be greater than padlen"
  else
    let ext := oddExt edge x
    let y := sosfilt (startStates sos (ext.headD 0)) ext
    let z := sosfilt (startStates sos (y.getLastD 0)) y.reverse
    .ok ((z.reverse.drop edge).take x.length)

/-- A world whose filtering is the one above; the design remains arbitrary. -/
noncomputable def scipyWorld (design : ℤ → ℝ → List (String × String) → Except String (List Biquad))
    (randn : ℤ → List ℕ → List ℝ) (device : DeviceType) : World :=
  { Sos := List Biquad, iirfilter := design, sosfiltfilt := sosfiltfilt, randn, device }

end Torchrir.Model
