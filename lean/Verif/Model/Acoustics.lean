import Verif.Model.Tensor

/-!
# Sabine formulas

Model of `src/torchrir/util/acoustics.py`.
-/

namespace Torchrir.Model

/-- `estimate_beta_from_t60` (acoustics.py 16-55). -/
noncomputable def estimateBetaFromT60 (size : List ℝ) (t60 : ℝ) : Except String (List ℝ) :=
  if t60 ≤ 0 then .error "t60 must be positive"
  else match size with
    | [lx, ly] =>
      let lz := 1
      let volume := lx * ly * lz
      let surface := 2 * (lx + ly) * lz
      let alpha := 0.161 * volume / (t60 * surface)
      let alpha := max 0 (min alpha 0.999)
      .ok (List.replicate 4 (Real.sqrt (1 - alpha)))
    | [lx, ly, lz] =>
      let volume := lx * ly * lz
      let surface := 2 * (lx * ly + ly * lz + lx * lz)
      let alpha := 0.161 * volume / (t60 * surface)
      let alpha := max 0 (min alpha 0.999)
      .ok (List.replicate 6 (Real.sqrt (1 - alpha)))
    | _ => .error "room size must be a 1D tensor of length 2 or 3"

/-- `estimate_t60_from_beta` (acoustics.py 58-106); `none` is `float("inf")`. -/
noncomputable def estimateT60FromBeta (size beta : List ℝ) : Except String (Option ℝ) :=
  match size with
  | [lx, ly] =>
    if beta.length ≠ 4 then .error "beta must have 4 elements for 2D t60 estimation"
    else
      let lz := 1
      let volume := lx * ly * lz
      let surfaces := [ly * lz, ly * lz, lx * lz, lx * lz]
      let alpha := beta.map fun b => 1 - b ^ 2
      let absorption := (List.zipWith (· * ·) surfaces alpha).sum
      if absorption ≤ 0 then .ok none else .ok (some (0.161 * volume / absorption))
  | [lx, ly, lz] =>
    if beta.length ≠ 6 then .error "beta must have 6 elements for t60 estimation"
    else
      let volume := lx * ly * lz
      let surfaces := [ly * lz, ly * lz, lx * lz, lx * lz, lx * ly, lx * ly]
      let alpha := beta.map fun b => 1 - b ^ 2
      let absorption := (List.zipWith (· * ·) surfaces alpha).sum
      if absorption ≤ 0 then .ok none else .ok (some (0.161 * volume / absorption))
  | _ => .error "room size must be a 1D tensor of length 2 or 3"

/-- `attenuation_db_to_time_sabine` (acoustics.py 109-125). -/
noncomputable def attenuationDbToTimeSabine (attDb t60 : ℝ) : Except String ℝ :=
  if t60 ≤ 0 then .error "t60 must be positive"
  else if attDb ≤ 0 then .error "att_db must be positive"
  else .ok (attDb / 60 * t60)

/-- `estimate_image_counts_from_tmax` (acoustics.py 128-146). -/
noncomputable def estimateImageCountsFromTmax (tmax : ℝ) (roomSize : List ℝ) (c : ℝ) :
    Except String (List ℤ) :=
  if tmax ≤ 0 then .error "tmax must be positive"
  else if roomSize.length = 2 ∨ roomSize.length = 3 then
    .ok (roomSize.map fun l => ⌈tmax * c / l⌉)
  else .error "room size must be a 1D tensor of length 2 or 3"

end Torchrir.Model
