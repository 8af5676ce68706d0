import Verif.Model.Room

/-!
# Microphone array geometry

Model of `src/torchrir/geometry/arrays.py`. A centre is a 1-D tensor of finite numbers together with
its type, because `as_tensor` turns a list of integers into an integer tensor and several functions
then compute in integers. Results are the rows of the returned `(n, dim)` tensor. A NaN result (a
division by a zero norm) is an error in the model.
-/

namespace Torchrir.Model

/-- A 1-D tensor of finite numbers. -/
structure NumVec where
  type : NumType
  v : Vec

/-- Conversion of finite numbers to a type (tensor.py 26-29). -/
noncomputable def castVec : NumType → Vec → Vec
  | .floating, v => v
  | .int64, v => v.map fun x => (trunc x : ℝ)

/-- Elementwise sum. -/
def vadd (a b : Vec) : Vec := List.zipWith (· + ·) a b

/-- Scalar multiple. -/
def vscale (a : ℝ) (v : Vec) : Vec := v.map (a * ·)

/-- `binaural_array` (arrays.py 14-28). -/
noncomputable def binauralArray (center : NumVec) (offset : ℝ) : Except String (List Vec) :=
  let dim := center.v.length
  if dim = 0 then .error "IndexError"
  else
    let offsetVec := (List.replicate dim (0 : ℝ)).set 0 ((castVec center.type [offset]).getD 0 0)
    .ok [vsub center.v offsetVec, vadd center.v offsetVec]

/-- `v / torch.linalg.norm(v)`: integer tensors raise, a zero vector gives NaN. -/
noncomputable def unitOf (type : NumType) (v : Vec) : Except String Vec :=
  if type = .int64 then .error "linalg.vector_norm: expected a floating point tensor"
  else if norm2 v = 0 then .error "NaN"
  else .ok (v.map (· / norm2 v))

/-- The direction of `linear_array` (arrays.py 48-61). -/
noncomputable def linearDirection (center : NumVec) (axis : ℤ) (direction : Option Vec) :
    Except String Vec :=
  let dim := center.v.length
  match direction with
  | none =>
    if axis < 0 ∨ axis ≥ dim then .error "axis out of range for center dimensionality"
    else .ok ((List.replicate dim (0 : ℝ)).set axis.toNat 1)
  | some d =>
    if d.length ≠ dim then .error "direction must match center dimensionality"
    else unitOf center.type (castVec center.type d)

open Classical in
/-- `linear_array` (arrays.py 31-67). -/
noncomputable def linearArray (center : NumVec) (num : ℤ) (spacing : ℝ) (axis : ℤ := 0)
    (direction : Option Vec := none) : Except String (List Vec) := do
  raiseIf (num ≤ 0) "num must be positive"
  raiseIf (spacing ≤ 0) "spacing must be positive"
  let dir ← linearDirection center axis direction
  return (List.range num.toNat).map fun (i : ℕ) =>
    vadd center.v (vscale (((i : ℝ) - ((num : ℝ) - 1) / 2) * spacing) dir)

/-- `torch.cross` of two 3-vectors. -/
def cross : Vec → Vec → Vec
  | [a1, a2, a3], [b1, b2, b3] => [a2 * b3 - a3 * b2, a3 * b1 - a1 * b3, a1 * b2 - a2 * b1]
  | _, _ => []

/-- `torch.allclose(a, b)` with its default tolerances. -/
def allclose (a b : Vec) : Prop := ∀ p ∈ a.zip b, |p.1 - p.2| ≤ 1e-8 + 1e-5 * |p.2|

open Classical in
/-- `_basis_from_normal` (arrays.py 411-422). -/
noncomputable def basisFromNormal (type : NumType) (normal : Vec) : Except String (Vec × Vec) := do
  raiseIf (normal.length ≠ 3) "normal must be a 3D vector"
  let n ← unitOf type normal
  let ref : Vec := if allclose n [1, 0, 0] then [0, 1, 0] else [1, 0, 0]
  let x ← unitOf type (cross n ref)
  let y ← unitOf type (cross n x)
  return (x, y)

/-- The named planes (arrays.py 102-125). -/
def planeBasis (plane : String) : Except String (Vec × Vec) :=
  let p := plane.toLower
  if p = "xy" then .ok ([1, 0, 0], [0, 1, 0])
  else if p = "xz" then .ok ([1, 0, 0], [0, 0, 1])
  else if p = "yz" then .ok ([0, 1, 0], [0, 0, 1])
  else .error "plane must be one of 'xy', 'xz', 'yz'"

/-- The two spanning vectors (arrays.py 98-125). -/
noncomputable def circleBasis (type : NumType) (plane : String) (normal : Option Vec) :
    Except String (Vec × Vec) :=
  match normal with
  | some n => basisFromNormal type (castVec type n)
  | none => planeBasis plane

/-- `torch.linspace(0, 2π, num + 1, dtype=dtype)[:-1]` (arrays.py 88-90); `intLinspace n` is torch's
integer version of `linspace(0, 2π, n)`. -/
noncomputable def circleAngles (intLinspace : ℕ → List ℤ) (type : NumType) (num : ℕ) : List ℝ :=
  match type with
  | .floating => (linspace 0 (2 * Real.pi) (num + 1)).dropLast
  | .int64 => ((intLinspace (num + 1)).map fun z => (z : ℝ)).dropLast

/-- Points at the given angles in the plane (arrays.py 91-95, 127-128). -/
noncomputable def circlePoints (center : NumVec) (radius : ℝ) (angles : List ℝ) (plane : String)
    (normal : Option Vec) : Except String (List Vec) :=
  if center.v.length = 2 then
    .ok (angles.map fun a => vadd center.v (vscale radius [Real.cos a, Real.sin a]))
  else if center.v.length ≠ 3 then .error "center must be 2D or 3D"
  else do
    let b ← circleBasis center.type plane normal
    return angles.map fun a =>
      vadd center.v (vscale radius (vadd (vscale (Real.cos a) b.1) (vscale (Real.sin a) b.2)))

open Classical in
/-- `circular_array` (arrays.py 70-128). -/
noncomputable def circularArray (intLinspace : ℕ → List ℤ) (center : NumVec) (num : ℤ) (radius : ℝ)
    (plane : String := "xy") (normal : Option Vec := none) : Except String (List Vec) := do
  raiseIf (num ≤ 0) "num must be positive"
  raiseIf (radius ≤ 0) "radius must be positive"
  circlePoints center radius (circleAngles intLinspace center.type num.toNat) plane normal

/-- The golden ratio as computed (arrays.py 461, 475). -/
noncomputable def phi : ℝ := (1 + Real.sqrt 5) / 2

/-- `for a in (-1.0, 1.0): for b in (-1.0, 1.0):`. -/
def signPairs : List (ℝ × ℝ) := [(-1, -1), (-1, 1), (1, -1), (1, 1)]

/-- `_polyhedron_vertices` (arrays.py 425-485). -/
noncomputable def polyhedronVertices (kind : String) : Except String (List Vec) :=
  let k := kind.toLower
  if k = "tetrahedron" then .ok [[1, 1, 1], [1, -1, -1], [-1, 1, -1], [-1, -1, 1]]
  else if k = "cube" then
    .ok (([-1, 1] : List ℝ).flatMap fun x => ([-1, 1] : List ℝ).flatMap fun y =>
      ([-1, 1] : List ℝ).map fun z => [x, y, z])
  else if k = "octahedron" then
    .ok [[1, 0, 0], [-1, 0, 0], [0, 1, 0], [0, -1, 0], [0, 0, 1], [0, 0, -1]]
  else if k = "dodecahedron" then
    .ok ((signPairs.flatMap fun p => [[p.1, p.2, p.2], [p.1, p.2, -p.2]]) ++
      signPairs.flatMap fun p => [[0, p.1 * (1 / phi), p.2 * phi], [p.1 * (1 / phi), p.2 * phi, 0],
        [p.1 * phi, 0, p.2 * (1 / phi)]])
  else if k = "icosahedron" then
    .ok (signPairs.flatMap fun p => [[0, p.1, p.2 * phi], [p.1, p.2 * phi, 0], [p.1 * phi, 0, p.2]])
  else .error "kind must be one of the five regular polyhedra"

open Classical in
/-- `polyhedron_array` (arrays.py 131-148). -/
noncomputable def polyhedronArray (center : NumVec) (kind : String := "tetrahedron")
    (radius : ℝ := 0.1) : Except String (List Vec) := do
  raiseIf (radius ≤ 0) "radius must be positive"
  raiseIf (center.v.length ≠ 3) "polyhedron arrays require 3D centers"
  let vertices ← polyhedronVertices kind
  let unit ← vertices.mapM fun v => unitOf center.type (castVec center.type v)
  return unit.map fun v => vadd center.v (vscale radius v)

/-- `torch.deg2rad`. -/
noncomputable def deg2rad (x : ℝ) : ℝ := x * (Real.pi / 180)

/-- `_spherical_array_from_angles` (arrays.py 488-496). -/
noncomputable def sphericalArray (center : Vec) (radius : ℝ) (theta phi : List ℝ) : List Vec :=
  List.zipWith (fun t p =>
    vadd center [radius * Real.sin (deg2rad t) * Real.cos (deg2rad p),
      radius * Real.sin (deg2rad t) * Real.sin (deg2rad p), radius * Real.cos (deg2rad t)]) theta phi

/-- Colatitudes of the em32 (arrays.py 166-202). -/
noncomputable def em32Theta : Vec :=
  [69.0, 90.0, 111.0, 90.0, 32.0, 55.0, 90.0, 125.0, 148.0, 125.0, 90.0, 55.0, 21.0, 58.0, 121.0,
   159.0, 69.0, 90.0, 111.0, 90.0, 32.0, 55.0, 90.0, 125.0, 148.0, 125.0, 90.0, 55.0, 21.0, 58.0,
   122.0, 159.0]

/-- Azimuths of the em32 (arrays.py 203-240). -/
noncomputable def em32Phi : Vec :=
  [0.0, 32.0, 0.0, 328.0, 0.0, 45.0, 69.0, 45.0, 0.0, 315.0, 291.0, 315.0, 91.0, 90.0, 90.0,
   89.0, 180.0, 212.0, 180.0, 148.0, 180.0, 225.0, 249.0, 225.0, 180.0, 135.0, 111.0, 135.0,
   269.0, 270.0, 270.0, 271.0]

/-- Colatitudes of the em64 (arrays.py 264-332). -/
noncomputable def em64Theta : Vec :=
  [16.7656, 21.9677, 42.3941, 13.2817, 22.6728, 52.6925, 37.806, 43.3944, 43.9386, 70.3132,
   33.2231, 60.0257, 56.4763, 67.4936, 93.2735, 48.423, 78.0793, 62.0685, 38.7171, 63.8004,
   70.1946, 96.246, 81.0992, 106.094, 67.7533, 91.7061, 39.9985, 68.7726, 60.8869, 82.2833,
   63.0247, 89.794, 137.5166, 139.7604, 135.2133, 160.3628, 162.577, 142.0685, 161.1987, 162.577,
   115.536, 86.2594, 116.0164, 95.3313, 90.0637, 111.4549, 85.8671, 130.8398, 102.5775, 142.6375,
   117.032, 117.5631, 115.8884, 89.69, 118.4478, 93.9338, 106.3875, 81.0511, 135.9764, 142.6771,
   120.6556, 133.8834, 116.3591, 107.464]

/-- Azimuths of the em64 (arrays.py 333-401). -/
noncomputable def em64Phi : Vec :=
  [197.4561, 115.734, 81.911, 313.3592, 43.1785, 46.7324, 335.9958, 14.5398, 204.4547, 206.542,
   247.3219, 233.817, 264.5437, 99.6669, 104.6842, 120.9227, 126.513, 148.2368, 162.6381,
   178.5498, 21.2715, 25.7834, 47.8607, 55.9075, 71.4285, 78.4921, 293.221, 290.5683, 318.1354,
   334.0042, 352.0227, 0.0, 174.0335, 212.7205, 251.9179, 150.6471, 240.8266, 293.0625, 331.0098,
   60.8266, 226.9135, 233.9255, 193.6382, 209.6696, 183.169, 163.7105, 156.9524, 139.4318,
   135.9729, 102.3273, 112.5511, 83.1464, 307.7078, 309.1392, 278.2519, 282.9735, 253.147,
   260.0688, 59.7394, 14.2241, 32.4901, 334.0753, 2.0842, 335.0677]

open Classical in
/-- The common body of `eigenmike_em32` and `eigenmike_em64`. -/
noncomputable def eigenmike (theta phi : Vec) (center : NumVec) (radius offset : ℝ) :
    Except String (List Vec) := do
  raiseIf (radius ≤ 0) "radius must be positive"
  raiseIf (center.v.length ≠ 3) "Eigenmike requires a 3D center"
  return sphericalArray center.v radius (castVec center.type theta)
    ((castVec center.type phi).map (· + offset))

/-- `eigenmike_em32` (arrays.py 151-246). -/
noncomputable def eigenmikeEm32 (center : NumVec) (radius : ℝ := 0.042) (offset : ℝ := 0) :
    Except String (List Vec) := eigenmike em32Theta em32Phi center radius offset

/-- `eigenmike_em64` (arrays.py 249-408). -/
noncomputable def eigenmikeEm64 (center : NumVec) (radius : ℝ := 0.042) (offset : ℝ := 0) :
    Except String (List Vec) := eigenmike em64Theta em64Phi center radius offset

end Torchrir.Model
