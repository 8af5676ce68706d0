import Verif.Model.Acoustics

/-!
# Sabine formulas in floating point

`Verif.Model.Acoustics` with every operation rounded. `py` rounds Python numbers, `fl` the elements of a tensor. The
entries of a size tensor are read as Python numbers without a change. Overflow and underflow are left out.
-/

namespace Torchrir.Model

/-- The end of `estimate_beta_from_t60` (acoustics.py 43-46, 51-54) for the given volume, surface and number of walls. -/
noncomputable def betaFloat (py fl : ℝ → ℝ) (t60 volume surface : ℝ) (walls : ℕ) : List ℝ :=
  let alpha := py (py (py 0.161 * volume) / py (t60 * surface))
  let alpha := max 0 (min alpha (py 0.999))
  let beta := py (Real.sqrt (py (1 - alpha)))
  List.replicate walls (fl beta)

/-- `estimate_beta_from_t60` (acoustics.py 16-55), see `estimateBetaFromT60`. -/
noncomputable def estimateBetaFloat (py fl : ℝ → ℝ) (size : List ℝ) (t60 : ℝ) : Except String (List ℝ) :=
  if t60 ≤ 0 then .error "t60 must be positive"
  else match size with
    | [lx, ly] =>
      let volume := py (py (lx * ly) * 1)
      let surface := py (py (2 * py (lx + ly)) * 1)
      .ok (betaFloat py fl t60 volume surface 4)
    | [lx, ly, lz] =>
      let volume := py (py (lx * ly) * lz)
      let surface := py (2 * py (py (py (lx * ly) + py (ly * lz)) + py (lx * lz)))
      .ok (betaFloat py fl t60 volume surface 6)
    | _ => .error "room size must be a 1D tensor of length 2 or 3"

/-- The end of `estimate_t60_from_beta` (acoustics.py 84-88, 102-106) for the given volume and wall areas; `sum` is
`torch.sum`. -/
noncomputable def t60Float (py fl : ℝ → ℝ) (sum : List ℝ → ℝ) (volume : ℝ) (areas beta : List ℝ) : Option ℝ :=
  let surfaces := areas.map fl
  let alpha := beta.map fun b => fl (1 - fl (b ^ 2))
  let absorption := sum (List.zipWith (fun s a => fl (s * a)) surfaces alpha)
  if absorption ≤ 0 then none else some (py (py (py 0.161 * volume) / absorption))

/-- `estimate_t60_from_beta` (acoustics.py 58-106), see `estimateT60FromBeta`. -/
noncomputable def estimateT60Float (py fl : ℝ → ℝ) (sum : List ℝ → ℝ) (size beta : List ℝ) : Except String (Option ℝ) :=
  match size with
  | [lx, ly] =>
    if beta.length ≠ 4 then .error "beta must have 4 elements for 2D t60 estimation"
    else .ok (t60Float py fl sum (py (py (lx * ly) * 1)) [py (ly * 1), py (ly * 1), py (lx * 1), py (lx * 1)] beta)
  | [lx, ly, lz] =>
    if beta.length ≠ 6 then .error "beta must have 6 elements for t60 estimation"
    else
      .ok (t60Float py fl sum (py (py (lx * ly) * lz))
        [py (ly * lz), py (ly * lz), py (lx * lz), py (lx * lz), py (lx * ly), py (lx * ly)] beta)
  | _ => .error "room size must be a 1D tensor of length 2 or 3"

/-- `estimate_image_counts_from_tmax` (acoustics.py 128-146), see `estimateImageCountsFromTmax`: the product is a Python
number and rounded when it meets the tensor. -/
noncomputable def imageCountsFloat (py fl : ℝ → ℝ) (tmax : ℝ) (roomSize : List ℝ) (c : ℝ) : Except String (List ℤ) :=
  if tmax ≤ 0 then .error "tmax must be positive"
  else if roomSize.length = 2 ∨ roomSize.length = 3 then
    .ok (roomSize.map fun l => ⌈fl (fl (py (tmax * c)) / l)⌉)
  else .error "room size must be a 1D tensor of length 2 or 3"

end Torchrir.Model
