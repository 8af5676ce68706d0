import Verif.Model.Tensor
import Mathlib.Data.Fintype.BigOperators
import Mathlib.Data.Int.Interval

/-!
# Specification of the image source method

Everything here is phrased with functions on `Fin d` and finite sums and does not use the
model (except the container `Tensor`).
-/

namespace Torchrir.Spec

open Torchrir.Model (Tensor)
open scoped BigOperators

/-! ## Tensors from functions -/

/-- The `(n, d)` tensor with entries `f i j`. -/
def tensor2 {n d : ℕ} (f : Fin n → Fin d → ℝ) : Tensor ℝ :=
  ⟨[n, d], (List.ofFn fun i => List.ofFn (f i)).flatten⟩

/-- The `(a, b, c)` tensor with entries `f i j k`. -/
def tensor3 {a b c : ℕ} (f : Fin a → Fin b → Fin c → ℝ) : Tensor ℝ :=
  ⟨[a, b, c], (List.ofFn fun i => (List.ofFn fun j => List.ofFn (f i j)).flatten).flatten⟩

/-- The `(a, b, c, e)` tensor with entries `f i j k l`. -/
def tensor4 {a b c e : ℕ} (f : Fin a → Fin b → Fin c → Fin e → ℝ) : Tensor ℝ :=
  ⟨[a, b, c, e], (List.ofFn fun i => (tensor3 (f i)).data).flatten⟩

/-- The `(a, b, n)` tensor whose row `(i, j)` is the list `f i j` (of length `n`). -/
def ofRows3 {a b : ℕ} (n : ℕ) (f : Fin a → Fin b → List ℝ) : Tensor ℝ :=
  ⟨[a, b, n], (List.ofFn fun i => (List.ofFn (f i)).flatten).flatten⟩

/-- The `(t, a, b, n)` tensor whose row `(u, i, j)` is the list `f u i j` (of length `n`). -/
def ofRows4 {t a b : ℕ} (n : ℕ) (f : Fin t → Fin a → Fin b → List ℝ) : Tensor ℝ :=
  ⟨[t, a, b, n], (List.ofFn fun u => (ofRows3 n (f u)).data).flatten⟩

/-- `torch.stack` of tensors of equal shape. -/
def stack (ts : List (Tensor ℝ)) : Tensor ℝ :=
  ⟨ts.length :: (ts.headD ⟨[], []⟩).shape, (ts.map fun t => t.data).flatten⟩

/-- Wall coefficients in the order of the API: `lo₀, hi₀, lo₁, hi₁, …`. -/
def wallList {d : ℕ} (lo hi : Fin d → ℝ) : List ℝ :=
  (List.ofFn fun i => [lo i, hi i]).flatten

/-! ## Image sources -/

/-- The two walls orthogonal to an axis: `lo` at coordinate `0`, `hi` at coordinate `L`. -/
inductive Wall where
  | lo
  | hi

/-- Coordinate of a point after `k` reflections that alternate between the two walls, the last
one being in the given wall. -/
def mirrored (L s : ℝ) : ℕ → Wall → ℝ
  | 0, _ => s
  | k + 1, .hi => 2 * L - mirrored L s k .lo
  | k + 1, .lo => - mirrored L s k .hi

/-- Product of the coefficients of the walls hit in those reflections. -/
def absorbed (bLo bHi : ℝ) : ℕ → Wall → ℝ
  | 0, _ => 1
  | k + 1, .hi => bHi * absorbed bLo bHi k .lo
  | k + 1, .lo => bLo * absorbed bLo bHi k .hi

/-- The last wall of image `n`: the high wall for `n > 0`, the low wall for `n < 0`. -/
def lastWall (n : ℤ) : Wall := if 0 ≤ n then .hi else .lo

/-- Image `n` of a point in a room with side lengths `L`. -/
def image {d : ℕ} (L x : Fin d → ℝ) (n : Fin d → ℤ) : Fin d → ℝ :=
  fun i => mirrored (L i) (x i) (n i).natAbs (lastWall (n i))

/-- Reflection gain of image `n`. -/
def wallGain {d : ℕ} (lo hi : Fin d → ℝ) (n : Fin d → ℤ) : ℝ :=
  ∏ i, absorbed (lo i) (hi i) (n i).natAbs (lastWall (n i))

/-- All images of reflection order at most `N`. -/
noncomputable def orderSet (d : ℕ) (N : ℕ) : Finset (Fin d → ℤ) :=
  (Fintype.piFinset fun _ : Fin d => Finset.Icc (-(N : ℤ)) N).filter fun n => ∑ i, |n i| ≤ N

/-- All images in a box of half widths `nb`. -/
noncomputable def boxSet {d : ℕ} (nb : Fin d → ℕ) : Finset (Fin d → ℤ) :=
  Fintype.piFinset fun i => Finset.Icc (-(nb i : ℤ)) (nb i)

/-- Euclidean distance. -/
noncomputable def dist {d : ℕ} (x y : Fin d → ℝ) : ℝ := Real.sqrt (∑ i, (x i - y i) ^ 2)

/-- Path length used for delay and spreading; the library never uses less than a micrometre. -/
noncomputable def pathLength {d : ℕ} (x y : Fin d → ℝ) : ℝ := max (dist x y) (1e-6)

/-! ## Fractional delay -/

/-- Normalised sinc. -/
noncomputable def sinc (x : ℝ) : ℝ :=
  if x = 0 then 1 else Real.sin (Real.pi * x) / (Real.pi * x)

/-- Piecewise linear interpolation of `f` on the grid of step `1/g`. -/
noncomputable def gridLerp (g : ℕ) (f : ℝ → ℝ) (x : ℝ) : ℝ :=
  let i : ℤ := ⌊x * g⌋
  f (i / g) + (x * g - i) * (f ((i + 1) / g) - f (i / g))

/-- The kernel shape: sinc itself or its table interpolation. -/
noncomputable def kernelShape (useLut : Bool) (gran : ℕ) : ℝ → ℝ :=
  if useLut then gridLerp gran sinc else sinc

/-- Symmetric Hann window of `fdl` points. -/
noncomputable def hann (fdl : ℕ) (j : ℝ) : ℝ :=
  if fdl = 1 then 1 else (1 - Real.cos (2 * Real.pi * j / ((fdl : ℝ) - 1))) / 2

/-- Value at sample `k` of the `fdl`-tap kernel `h` for an arrival at (fractional) sample `τ`;
the whole response is delayed by half the kernel length. -/
noncomputable def kernel (h : ℝ → ℝ) (fdl : ℕ) (τ : ℝ) (k : ℕ) : ℝ :=
  if 0 ≤ (k : ℤ) - ⌊τ⌋ ∧ (k : ℤ) - ⌊τ⌋ < fdl then
    hann fdl (((k : ℤ) - ⌊τ⌋ : ℤ) : ℝ) * h ((k : ℝ) - ((fdl : ℝ) - 1) / 2 - τ)
  else 0

/-! ## Room impulse response -/

/-- Everything that describes the room and the discretisation. -/
structure Setup (d : ℕ) where
  /-- side lengths -/
  L : Fin d → ℝ
  /-- coefficients of the low walls -/
  lo : Fin d → ℝ
  /-- coefficients of the high walls -/
  hi : Fin d → ℝ
  fs : ℝ
  c : ℝ
  /-- kernel length -/
  fdl : ℕ
  /-- kernel shape -/
  shape : ℝ → ℝ

/-- Room impulse response at sample `k`: sum over the images of the attenuated, delayed kernel.
`gs` and `gm` are the directional gains of source and microphone as functions of the vector
from the image to the microphone, respectively from the microphone to the image. -/
noncomputable def rir {d : ℕ} (S : Setup d) (images : Finset (Fin d → ℤ))
    (gs gm : (Fin d → ℝ) → ℝ) (src mic : Fin d → ℝ) (k : ℕ) : ℝ :=
  ∑ n ∈ images,
    let p := image S.L src n
    let r := pathLength mic p
    wallGain S.lo S.hi n * gs (mic - p) * gm (p - mic) / r * kernel S.shape S.fdl (r * S.fs / S.c) k

/-- Directional gain of an omnidirectional device. -/
def omni {d : ℕ} : (Fin d → ℝ) → ℝ := fun _ => 1

/-- Cosine of the angle between two non-zero vectors. -/
noncomputable def cosAngle {d : ℕ} (v u : Fin d → ℝ) : ℝ :=
  (∑ i, v i * u i) / (Real.sqrt (∑ i, v i ^ 2) * Real.sqrt (∑ i, u i ^ 2))

end Torchrir.Spec
