import Verif.Model.Arrays

/-!
# Sampling of positions, clamping and trajectories

Model of `src/torchrir/geometry/sampling.py` and `src/torchrir/geometry/trajectories.py` in exact
arithmetic. A random generator is the infinite stream of values `random()` returns together with the
number of values already drawn. Positions are the rows of the returned tensor.
-/

namespace Torchrir.Model

/-- `rng.uniform(a, b)`. -/
def uniform (a b r : ℝ) : ℝ := a + (b - a) * r

/-- `[rng.uniform(low[i], high[i]) for i in range(dim)]` (sampling.py 25, 74): the point and the
number of values drawn so far. -/
def drawPoint (r : ℕ → ℝ) : List (ℝ × ℝ) → ℕ → Vec × ℕ
  | [], k => ([], k)
  | (lo, hi) :: rest, k =>
    let (p, k') := drawPoint r rest (k + 1)
    (uniform lo hi (r k) :: p, k')

/-- `low` and `high` (sampling.py 21-22, 68-69). -/
def marginBox (size : Vec) (margin : ℝ) : List (ℝ × ℝ) := size.map fun s => (margin, s - margin)

/-- The loop of `sample_positions` (sampling.py 24-26). -/
def drawPoints (r : ℕ → ℝ) (box : List (ℝ × ℝ)) : ℕ → ℕ → List Vec × ℕ
  | 0, k => ([], k)
  | n + 1, k =>
    let (p, k) := drawPoint r box k
    let (ps, k) := drawPoints r box n k
    (p :: ps, k)

/-- `sample_positions` (sampling.py 12-27). -/
def samplePositions (r : ℕ → ℝ) (num : ℕ) (size : Vec) (margin : ℝ) (k : ℕ) : List Vec × ℕ :=
  drawPoints r (marginBox size margin) num k

/-- `[rng.uniform(z_low, z_high) for _ in range(num)]` (sampling.py 47). -/
def drawHeights (r : ℕ → ℝ) (lo hi : ℝ) : ℕ → ℕ → Vec × ℕ
  | 0, k => ([], k)
  | n + 1, k =>
    let (zs, k') := drawHeights r lo hi n (k + 1)
    (uniform lo hi (r k) :: zs, k')

/-- `z_low` and `z_high` (sampling.py 43-44, 77-78). -/
noncomputable def heightRange (size : Vec) (margin zMin zMax : ℝ) : ℝ × ℝ :=
  (max margin zMin, min (size.getD 2 0 - margin) zMax)

open Classical in
/-- `sample_positions_with_z_range` (sampling.py 30-49). Assigning to the column of the empty tensor
`torch.tensor([])` raises. -/
noncomputable def samplePositionsZ (r : ℕ → ℝ) (num : ℕ) (size : Vec) (zMin zMax margin : ℝ) (k : ℕ) :
    Except String (List Vec × ℕ) :=
  let (ps, k) := samplePositions r num size margin k
  if size.length < 3 then .ok (ps, k)
  else
    let (zLow, zHigh) := heightRange size margin zMin zMax
    if zHigh ≤ zLow then .ok (ps, k)
    else if num = 0 then .error "IndexError: too many indices for tensor of dimension 1"
    else
      let (zs, k) := drawHeights r zLow zHigh num k
      .ok (List.zipWith (fun (p : Vec) z => p.set 2 z) ps zs, k)

open Classical in
/-- The height adjustment of one candidate (sampling.py 75-80). -/
noncomputable def adjustHeight (r : ℕ → ℝ) (size : Vec) (zRange : Option (ℝ × ℝ)) (margin : ℝ)
    (p : Vec) (k : ℕ) : Vec × ℕ :=
  match zRange with
  | none => (p, k)
  | some (zMin, zMax) =>
    if size.length < 3 then (p, k)
    else
      let (zLow, zHigh) := heightRange size margin zMin zMax
      if zHigh > zLow then (p.set 2 (uniform zLow zHigh (r k)), k + 1) else (p, k)

open Classical in
/-- The loop of `sample_positions_min_distance` (sampling.py 72-83), with the attempts that are left,
the positions still wanted and the accepted ones. -/
noncomputable def minDistanceLoop (r : ℕ → ℝ) (size center : Vec) (minDistance : ℝ)
    (zRange : Option (ℝ × ℝ)) (margin : ℝ) : ℕ → ℕ → List Vec → ℕ → List Vec × ℕ
  | 0, _, acc, k => (acc, k)
  | _, 0, acc, k => (acc, k)
  | attempts + 1, wanted + 1, acc, k =>
    let (p, k) := drawPoint r (marginBox size margin) k
    let (p, k) := adjustHeight r size zRange margin p k
    if norm2 (vsub p center) ≥ minDistance then
      minDistanceLoop r size center minDistance zRange margin attempts wanted (acc ++ [p]) k
    else minDistanceLoop r size center minDistance zRange margin attempts (wanted + 1) acc k

/-- `sample_positions_min_distance` (sampling.py 52-86). -/
noncomputable def samplePositionsMinDistance (r : ℕ → ℝ) (num : ℕ) (size center : Vec)
    (minDistance : ℝ) (zRange : Option (ℝ × ℝ)) (margin : ℝ) (maxAttempts : ℕ) (k : ℕ) :
    Except String (List Vec × ℕ) :=
  if center.length ≠ size.length then .error "center dimension must match room_size."
  else
    let (ps, k) := minDistanceLoop r size center minDistance zRange margin maxAttempts num [] k
    if ps.length < num then .error "failed to sample positions with requested minimum distance"
    else .ok (ps, k)

/-- `clamp_positions` (sampling.py 89-95) on one position; the operation is elementwise.
`torch.full_like(room_size, margin)` has the type of the room size. -/
noncomputable def clampPosition (size : NumVec) (margin : ℝ) (p : Vec) : Vec :=
  let minV := (castVec size.type [margin]).getD 0 0
  List.zipWith (fun x s => max (min x (s - margin)) minV) p size.v

/-- `clamp_positions` (sampling.py 89-95) on a list of positions. -/
noncomputable def clampPositions (positions : List Vec) (size : NumVec) (margin : ℝ := 0.1) :
    List Vec :=
  positions.map (clampPosition size margin)

/-- `linear_trajectory` (trajectories.py 9-14). `torch.stack([])` raises; for one step the division
`0 / 0` gives NaN, an error in the model. -/
noncomputable def linearTrajectory (start stop : Vec) (steps : ℤ) : Except String (List Vec) :=
  if steps ≤ 0 then .error "stack expects a non-empty TensorList"
  else if steps = 1 then .error "NaN"
  else .ok ((List.range steps.toNat).map fun (t : ℕ) =>
    List.zipWith (fun a b => a + (b - a) * t / ((steps : ℝ) - 1)) start stop)

end Torchrir.Model
