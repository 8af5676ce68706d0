import Verif.Model.Tensor

/-!
# Orientations

Model of `src/torchrir/util/orientation.py` and `_cos_between`
(`src/torchrir/sim/ism/helpers.py` 76-80).
-/

namespace Torchrir.Model

/-- `normalize_orientation` on one vector (orientation.py 9-13, `eps = 1e-8`). -/
noncomputable def normalizeVec (v : Vec) : Vec :=
  let norm := max (norm2 v) (1e-8)
  v.map (· / norm)

/-- `normalize_orientation` along the last axis (orientation.py 9-13). -/
noncomputable def normalizeOrientation (t : Tensor ℝ) : Tensor ℝ :=
  ⟨t.shape, (t.lastAxisRows.map normalizeVec).flatten⟩

/-- `torch.stack([cos(angle), sin(angle)], dim=-1)` followed by `normalize_orientation`;
`shape` is the shape of `angle` (orientation.py 20-22, 24-26, 28-30). -/
noncomputable def anglesToUnit (shape : List ℕ) (angles : List ℝ) : Tensor ℝ :=
  normalizeOrientation
    ⟨shape ++ [2], (angles.map fun a => [Real.cos a, Real.sin a]).flatten⟩

/-- The vector of an (azimuth, elevation) pair (orientation.py 38-43). -/
noncomputable def azElVec (p : List ℝ) : Vec :=
  let az := p.getD 0 0
  let el := p.getD 1 0
  [Real.cos el * Real.cos az, Real.cos el * Real.sin az, Real.sin el]

/-- `orientation_to_unit` (orientation.py 16-46). A 0-d orientation in 3-D raises an
`IndexError` at `orientation.shape[-1]`. -/
noncomputable def orientationToUnit (o : Tensor ℝ) (dim : ℕ) : Except String (Tensor ℝ) :=
  if dim = 2 then
    if o.ndim = 0 then .ok (anglesToUnit [] o.data)
    else if o.shape.getLastD 0 = 1 then .ok (anglesToUnit o.shape.dropLast o.data)
    else if o.ndim = 1 ∧ o.numel ≠ 2 then .ok (anglesToUnit o.shape o.data)
    else if o.shape.getLastD 0 = 2 then .ok (normalizeOrientation o)
    else .error "2D orientation must be angle or 2D vector"
  else if dim = 3 then
    if o.ndim = 0 then .error "IndexError"
    else if o.shape.getLastD 0 = 3 then .ok (normalizeOrientation o)
    else if o.shape.getLastD 0 = 2 then
      .ok (normalizeOrientation
        ⟨o.shape.dropLast ++ [3], (o.lastAxisRows.map azElVec).flatten⟩)
    else .error "3D orientation must be vector or (azimuth, elevation)"
  else .error "unsupported dimension for orientation"

/-- `_cos_between` for one direction vector (helpers.py 76-80).  When the vector is zero the
code divides `0/0` and yields NaN, here `none`. -/
noncomputable def cosBetween (vec orientation : Vec) : Option ℝ :=
  if norm2 vec = 0 then none
  else some (dot (vec.map (· / norm2 vec)) (normalizeVec orientation))

end Torchrir.Model
