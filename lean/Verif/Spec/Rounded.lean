import Verif.Spec.Ism
import Verif.Model.Rounded

/-!
# Specification: inexact additions

The standard model of floating-point addition, and how much of it an impulse response sees.
-/

namespace Torchrir.Spec

open Torchrir.Model (Adder)

/-- Every addition has a relative error of at most `u` (for IEEE single precision without
overflow `u = 2⁻²⁴`). -/
def RoundsWithin (u : ℝ) (add : ℝ → ℝ → ℝ) : Prop :=
  ∀ x y, |add x y - (x + y)| ≤ u * |x + y|

/-- The entries of one call are all added, in whatever order. -/
def AddsEverything (ad : Adder) : Prop := ∀ i j es, (ad.order i j es).Perm es

/-- The entries of one call are added one after the other, as they stand. -/
def AddsInOrder (ad : Adder) : Prop := ∀ i j es, ad.order i j es = es

/-- The sum of the magnitudes of what the images contribute to sample `k` (compare `rir`). -/
noncomputable def rirMagnitude {d : ℕ} (S : Setup d) (images : Finset (Fin d → ℤ))
    (gs gm : (Fin d → ℝ) → ℝ) (src mic : Fin d → ℝ) (k : ℕ) : ℝ :=
  ∑ n ∈ images,
    let p := image S.L src n
    let r := pathLength mic p
    |wallGain S.lo S.hi n * gs (mic - p) * gm (p - mic) / r
      * kernel S.shape S.fdl (r * S.fs / S.c) k|

end Torchrir.Spec
