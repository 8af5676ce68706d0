import Verif.Model.Tensor

/-!
# Image indices, image positions and reflection coefficients

Model of `src/torchrir/sim/ism/images.py`.
-/

namespace Torchrir.Model

/-- `torch.arange(-n, n + 1)` (images.py 25, 28); torch raises when the upper bound lies
below the lower one, i.e. for negative `n`. -/
def symRange (n : ℤ) : Except String (List ℤ) :=
  if n < 0 then .error "RuntimeError: upper bound and lower bound inconsistent with step sign"
  else .ok ((List.range (2 * n.toNat + 1)).map fun (i : ℕ) => (i : ℤ) - n)

/-- `torch.meshgrid(*ranges, indexing="ij")` flattened and stacked on the last axis
(images.py 26-27, 29-30): all vectors in lexicographic order. -/
def meshgrid : List (List ℤ) → List (List ℤ)
  | [] => [[]]
  | r :: rs => r.flatMap fun x => (meshgrid rs).map (x :: ·)

/-- `_image_source_indices` (images.py 13-32).  `nbImg` is the int64 tensor made from
`nb_img`. -/
def imageSourceIndices (maxOrder : ℤ) (dim : ℕ) (nbImg : Option (List ℤ)) :
    Except String (List (List ℤ)) :=
  match nbImg with
  | some nb =>
    if nb.length ≠ dim then .error "nb_img must match room dimension"
    else do
      let ranges ← nb.mapM symRange
      return meshgrid ranges
  | none => do
    let rng ← symRange maxOrder
    let nVec := meshgrid (List.replicate dim rng)
    return nVec.filter fun n => (n.map fun i => |i|).sum ≤ maxOrder

/-- `sign = torch.where((n_vec % 2) == 0, 1.0, -1.0)` (images.py 37, 44). -/
def imageSign (n : ℤ) : ℝ := if n % 2 = 0 then 1 else -1

/-- `base = 2.0 * room_size * floor_divide(n_vec + 1, 2)` on one axis (images.py 38-39, 45-46). -/
def imageBase (L : ℝ) (n : ℤ) : ℝ := 2 * L * (((n + 1) / 2 : ℤ) : ℝ)

/-- `_image_positions` (images.py 35-39): one source, all images. -/
def imagePositions (src roomSize : Vec) (nVec : List (List ℤ)) : List Vec :=
  nVec.map fun n =>
    List.zipWith (· + ·) (List.zipWith imageBase roomSize n)
      (List.zipWith (fun i x => imageSign i * x) n src)

/-- `_image_positions_batch` (images.py 42-47): all sources. -/
def imagePositionsBatch (srcPos : List Vec) (roomSize : Vec) (nVec : List (List ℤ)) :
    List (List Vec) :=
  let base := nVec.map fun n => List.zipWith imageBase roomSize n
  let sign := nVec.map fun n => n.map imageSign
  srcPos.map fun src =>
    List.zipWith (fun b s => List.zipWith (· + ·) b (List.zipWith (· * ·) s src)) base sign

/-- `n_hi` of `_reflection_coefficients` (images.py 58-59). -/
def reflHi (n : ℤ) : ℤ := if 0 ≤ n then (n + 1) / 2 else |n| / 2

/-- `n_lo` of `_reflection_coefficients` (images.py 58, 60). -/
def reflLo (n : ℤ) : ℤ := if 0 ≤ n then n / 2 else (|n| + 1) / 2

/-- One factor of `coeff` (images.py 65); the exponents are non-negative and
`0 ** 0 = 1` as in torch. -/
def axisCoeff (lohi : List ℝ) (n : ℤ) : ℝ :=
  (lohi.getD 1 0) ^ (reflHi n).toNat * (lohi.getD 0 0) ^ (reflLo n).toNat

/-- `_reflection_coefficients` (images.py 50-66).  `beta.view(dim, 2)` groups the walls in
pairs (low wall, high wall) per axis. -/
def reflectionCoefficients (nVec : List (List ℤ)) (beta : List ℝ) : List ℝ :=
  nVec.map fun n =>
    let b := groups n.length 2 beta
    (List.zipWith axisCoeff b n).prod

end Torchrir.Model
