import Verif.Model.Sampling

/-!
# Sampling of positions, clamping and trajectories in floating point

`Verif.Model.Sampling` with every operation rounded. `rng.uniform` and the margins are calculated with
Python numbers, positions are stored in single precision, trajectories and clamped positions are
calculated in the dtype of the given tensors (floating point only). A Python number in an operation with
a tensor is converted to the dtype of the tensor. Overflow and underflow are left out.
-/

namespace Torchrir.Model

/-- How a machine calculates positions. -/
structure GeoFloats where
  /-- the result of an operation on Python numbers, given its exact value -/
  py : ℝ → ℝ
  /-- the same for the elements of a tensor; also the conversion of a Python number to its dtype -/
  fl : ℝ → ℝ
  /-- the quotient of an element and a Python number: rounded on the CPU, a product with the rounded
  reciprocal on CUDA -/
  quot : ℝ → ℝ → ℝ
  /-- `torch.linalg.norm` -/
  norm : Vec → ℝ

/-- Real numbers. -/
noncomputable def exactGeo : GeoFloats := ⟨fun x => x, fun x => x, (· / ·), norm2⟩

variable (F : GeoFloats)

/-- `rng.uniform(a, b)`, i.e. `a + (b - a) * random()`. -/
def GeoFloats.uniform (a b r : ℝ) : ℝ := F.py (a + F.py (F.py (b - a) * r))

/-- `[rng.uniform(low[i], high[i]) for i in range(dim)]` (sampling.py 25, 74), see `drawPoint`. -/
def GeoFloats.drawPoint (r : ℕ → ℝ) : List (ℝ × ℝ) → ℕ → Vec × ℕ
  | [], k => ([], k)
  | (lo, hi) :: rest, k =>
    let (p, k') := GeoFloats.drawPoint r rest (k + 1)
    (F.uniform lo hi (r k) :: p, k')

/-- `low` and `high` (sampling.py 21-22, 68-69). -/
def GeoFloats.marginBox (size : Vec) (margin : ℝ) : List (ℝ × ℝ) := size.map fun s => (margin, F.py (s - margin))

/-- The loop of `sample_positions` (sampling.py 24-26). -/
def GeoFloats.drawPoints (r : ℕ → ℝ) (box : List (ℝ × ℝ)) : ℕ → ℕ → List Vec × ℕ
  | 0, k => ([], k)
  | n + 1, k =>
    let (p, k) := F.drawPoint r box k
    let (ps, k) := GeoFloats.drawPoints r box n k
    (p :: ps, k)

/-- `sample_positions` (sampling.py 12-27). -/
def GeoFloats.samplePositions (r : ℕ → ℝ) (num : ℕ) (size : Vec) (margin : ℝ) (k : ℕ) : List Vec × ℕ :=
  let (ps, k) := F.drawPoints r (F.marginBox size margin) num k
  (ps.map (List.map F.fl), k)

/-- `[rng.uniform(z_low, z_high) for _ in range(num)]` (sampling.py 47). -/
def GeoFloats.drawHeights (r : ℕ → ℝ) (lo hi : ℝ) : ℕ → ℕ → Vec × ℕ
  | 0, k => ([], k)
  | n + 1, k =>
    let (zs, k') := GeoFloats.drawHeights r lo hi n (k + 1)
    (F.uniform lo hi (r k) :: zs, k')

/-- `z_low` and `z_high` (sampling.py 43-44, 77-78). -/
noncomputable def GeoFloats.heightRange (size : Vec) (margin zMin zMax : ℝ) : ℝ × ℝ :=
  (max margin zMin, min (F.py (size.getD 2 0 - margin)) zMax)

open Classical in
/-- `sample_positions_with_z_range` (sampling.py 30-49), see `samplePositionsZ`. -/
noncomputable def GeoFloats.samplePositionsZ (r : ℕ → ℝ) (num : ℕ) (size : Vec) (zMin zMax margin : ℝ) (k : ℕ) :
    Except String (List Vec × ℕ) :=
  let (ps, k) := F.samplePositions r num size margin k
  if size.length < 3 then .ok (ps, k)
  else
    let (zLow, zHigh) := F.heightRange size margin zMin zMax
    if zHigh ≤ zLow then .ok (ps, k)
    else if num = 0 then .error "IndexError: too many indices for tensor of dimension 1"
    else
      let (zs, k) := F.drawHeights r zLow zHigh num k
      .ok (List.zipWith (fun (p : Vec) z => p.set 2 (F.fl z)) ps zs, k)

open Classical in
/-- The height adjustment of one candidate (sampling.py 75-80). -/
noncomputable def GeoFloats.adjustHeight (r : ℕ → ℝ) (size : Vec) (zRange : Option (ℝ × ℝ)) (margin : ℝ)
    (p : Vec) (k : ℕ) : Vec × ℕ :=
  match zRange with
  | none => (p, k)
  | some (zMin, zMax) =>
    if size.length < 3 then (p, k)
    else
      let (zLow, zHigh) := F.heightRange size margin zMin zMax
      if zHigh > zLow then (p.set 2 (F.uniform zLow zHigh (r k)), k + 1) else (p, k)

/-- `torch.linalg.norm(torch.tensor(point) - center).item()` (sampling.py 81). -/
def GeoFloats.distance (p center : Vec) : ℝ := F.norm (List.zipWith (fun a c => F.fl (F.fl a - c)) p center)

open Classical in
/-- The loop of `sample_positions_min_distance` (sampling.py 72-83), see `minDistanceLoop`. -/
noncomputable def GeoFloats.minDistanceLoop (r : ℕ → ℝ) (size center : Vec) (minDistance : ℝ)
    (zRange : Option (ℝ × ℝ)) (margin : ℝ) : ℕ → ℕ → List Vec → ℕ → List Vec × ℕ
  | 0, _, acc, k => (acc, k)
  | _, 0, acc, k => (acc, k)
  | attempts + 1, wanted + 1, acc, k =>
    let (p, k) := F.drawPoint r (F.marginBox size margin) k
    let (p, k) := F.adjustHeight r size zRange margin p k
    if F.distance p center ≥ minDistance then
      GeoFloats.minDistanceLoop r size center minDistance zRange margin attempts wanted (acc ++ [p]) k
    else GeoFloats.minDistanceLoop r size center minDistance zRange margin attempts (wanted + 1) acc k

/-- `sample_positions_min_distance` (sampling.py 52-86). -/
noncomputable def GeoFloats.samplePositionsMinDistance (r : ℕ → ℝ) (num : ℕ) (size center : Vec)
    (minDistance : ℝ) (zRange : Option (ℝ × ℝ)) (margin : ℝ) (maxAttempts : ℕ) (k : ℕ) :
    Except String (List Vec × ℕ) :=
  if center.length ≠ size.length then .error "center dimension must match room_size."
  else
    let (ps, k) := F.minDistanceLoop r size (center.map F.fl) minDistance zRange margin maxAttempts num [] k
    if ps.length < num then .error "failed to sample positions with requested minimum distance"
    else .ok (ps.map (List.map F.fl), k)

/-- `clamp_positions` (sampling.py 89-95) on one position, for a room size of floats. -/
noncomputable def GeoFloats.clampPosition (size : Vec) (margin : ℝ) (p : Vec) : Vec :=
  List.zipWith (fun x s => max (min x (F.fl (s - F.fl margin))) (F.fl margin)) p size

/-- `clamp_positions` (sampling.py 89-95) on a list of positions. -/
noncomputable def GeoFloats.clampPositions (positions : List Vec) (size : Vec) (margin : ℝ := 0.1) : List Vec :=
  positions.map (F.clampPosition size margin)

/-- `linear_trajectory` (trajectories.py 9-14), see `linearTrajectory`. -/
noncomputable def GeoFloats.linearTrajectory (start stop : Vec) (steps : ℤ) : Except String (List Vec) :=
  if steps ≤ 0 then .error "stack expects a non-empty TensorList"
  else if steps = 1 then .error "NaN"
  else .ok ((List.range steps.toNat).map fun (t : ℕ) =>
    List.zipWith (fun a b => F.fl (a + F.quot (F.fl (F.fl (b - a) * F.fl t)) ((steps : ℝ) - 1))) start stop)

end Torchrir.Model
