import Verif.Model.Rounded

/-!
# The simulation in floating point

`Verif.Model.Rounded` rounds the additions into the buffer only.  Here every elementary operation
of the simulation is rounded, from the image positions and the orientations to the buffer:
images.py 42-66, contributions.py 72-97 (and 115-145), directivity.py 9-24, orientation.py 9-46,
helpers.py 76-80, accumulate.py 39-94.  Operations that torch offers as one function
(`linalg.norm`, `**`, `prod`, `sum`, `cos`, `sin`, `sinc`, `hann_window`) are parameters.
Indices are exact integers, as in torch (int64).  Not modelled: fused multiply-add, overflow and
underflow, the rounding of the given positions, orientations, sizes and wall coefficients to the
dtype, and the rounding after the accumulation (diffuse tail, high-pass filter).
-/

namespace Torchrir.Model

/-- How a machine calculates. -/
structure Floats where
  /-- the result of an addition, subtraction, multiplication or division, given its exact value;
  also the conversion of a Python number to the dtype -/
  fl : ℝ → ℝ
  /-- `torch.linalg.norm` of one vector -/
  norm : Vec → ℝ
  /-- `b ** n` for a whole exponent -/
  pow : ℝ → ℕ → ℝ
  /-- `torch.prod` of one row -/
  prod : List ℝ → ℝ
  /-- `torch.sum` of one row -/
  sum : List ℝ → ℝ
  /-- `torch.cos` -/
  cos : ℝ → ℝ
  /-- `torch.sin` -/
  sin : ℝ → ℝ
  /-- `torch.sinc` -/
  sinc : ℝ → ℝ
  /-- `torch.hann_window(fdl, periodic=False)` -/
  window : ℕ → List ℝ
  /-- the table of `_get_sinc_lut` (accumulate.py 153-168) for a kernel length and a granularity -/
  lut : ℕ → ℕ → List ℝ
  /-- the order of the additions of one `scatter_add_`, see `Adder` -/
  order : ℕ → ℕ → List (ℤ × ℝ) → List (ℤ × ℝ)

/-- Real numbers. -/
noncomputable def exactFloats : Floats :=
  ⟨fun x => x, norm2, fun b n => b ^ n, List.prod, List.sum, Real.cos, Real.sin, sinc, hannWindow, sincLut, fun _ _ es => es⟩

variable (F : Floats)

/-- `2.0 * room_size * n` on one axis (images.py 45-46; contributions.py 116-117), `n` converted to
the dtype. -/
def Floats.imageBase (L : ℝ) (n : ℤ) : ℝ := F.fl (F.fl (2 * L) * F.fl (((n + 1) / 2 : ℤ) : ℝ))

/-- `base + sign * src_pos` for one image (images.py 47; contributions.py 118). -/
def Floats.imagePosition (src roomSize : Vec) (n : List ℤ) : Vec :=
  List.zipWith (fun b s => F.fl (b + s)) (List.zipWith F.imageBase roomSize n)
    (List.zipWith (fun i x => F.fl (imageSign i * x)) n src)

/-- `(beta_hi**n_hi) * (beta_lo**n_lo)` on one axis (images.py 65). -/
def Floats.axisCoeff (lohi : List ℝ) (n : ℤ) : ℝ :=
  F.fl (F.pow (lohi.getD 1 0) (reflHi n).toNat * F.pow (lohi.getD 0 0) (reflLo n).toNat)

/-- `_reflection_coefficients` (images.py 50-66). -/
def Floats.reflectionCoefficients (nVec : List (List ℤ)) (beta : List ℝ) : List ℝ :=
  nVec.map fun n => F.prod (List.zipWith F.axisCoeff (groups n.length 2 beta) n)

/-- `normalize_orientation` on one vector (orientation.py 9-13), see `normalizeVec`. -/
noncomputable def Floats.normalizeVec (v : Vec) : Vec :=
  let norm := max (F.norm v) (F.fl 1e-8)
  v.map fun x => F.fl (x / norm)

/-- `normalize_orientation` along the last axis (orientation.py 9-13). -/
noncomputable def Floats.normalizeOrientation (t : Tensor ℝ) : Tensor ℝ :=
  ⟨t.shape, (t.lastAxisRows.map F.normalizeVec).flatten⟩

/-- Angles as unit vectors (orientation.py 20-22, 24-26, 28-30), see `anglesToUnit`. -/
noncomputable def Floats.anglesToUnit (shape : List ℕ) (angles : List ℝ) : Tensor ℝ :=
  F.normalizeOrientation ⟨shape ++ [2], (angles.map fun a => [F.cos a, F.sin a]).flatten⟩

/-- The vector of an (azimuth, elevation) pair (orientation.py 38-43). -/
noncomputable def Floats.azElVec (p : List ℝ) : Vec :=
  let az := p.getD 0 0
  let el := p.getD 1 0
  [F.fl (F.cos el * F.cos az), F.fl (F.cos el * F.sin az), F.sin el]

/-- `orientation_to_unit` (orientation.py 16-46), see `orientationToUnit`. -/
noncomputable def Floats.orientationToUnit (o : Tensor ℝ) (dim : ℕ) : Except String (Tensor ℝ) :=
  if dim = 2 then
    if o.ndim = 0 then .ok (F.anglesToUnit [] o.data)
    else if o.shape.getLastD 0 = 1 then .ok (F.anglesToUnit o.shape.dropLast o.data)
    else if o.ndim = 1 ∧ o.numel ≠ 2 then .ok (F.anglesToUnit o.shape o.data)
    else if o.shape.getLastD 0 = 2 then .ok (F.normalizeOrientation o)
    else .error "2D orientation must be angle or 2D vector"
  else if dim = 3 then
    if o.ndim = 0 then .error "IndexError"
    else if o.shape.getLastD 0 = 3 then .ok (F.normalizeOrientation o)
    else if o.shape.getLastD 0 = 2 then
      .ok (F.normalizeOrientation
        ⟨o.shape.dropLast ++ [3], (o.lastAxisRows.map F.azElVec).flatten⟩)
    else .error "3D orientation must be vector or (azimuth, elevation)"
  else .error "unsupported dimension for orientation"

/-- The microphone orientation (api.py 86-90, 187-191), see `resolveMicDir`. -/
noncomputable def Floats.resolveMicDir (micPattern : String) (micOri : Option (Tensor ℝ)) (dim : ℕ) :
    Except String (Option MicDir) :=
  if micPattern = "omni" then .ok none
  else match micOri with
    | none => .error "mic orientation required for non-omni directivity"
    | some o => do
      let u ← F.orientationToUnit o dim
      return some (if u.ndim = 2 then .perMic u.rows else .shared u.data)

/-- The source orientations (api.py 101-109, 204-212), see `resolveSrcDirs`. -/
noncomputable def Floats.resolveSrcDirs (srcPattern : String) (srcOri : Option (Tensor ℝ))
    (dim nSrc : ℕ) : Except String (Option (List Vec)) :=
  if srcPattern = "omni" then .ok none
  else match srcOri with
    | none => .error "source orientation required for non-omni directivity"
    | some o => do
      let u ← F.orientationToUnit o dim
      if u.ndim = 1 then return some (List.replicate nSrc u.data)
      else if u.ndim ≠ 2 ∨ u.shape.getD 0 0 ≠ nSrc then
        throw "source orientation must match number of sources"
      else return some u.rows

/-- `_cos_between` for one direction vector (helpers.py 76-80), see `cosBetween`; `none` is
NaN. -/
noncomputable def Floats.cosBetween (vec orientation : Vec) : Option ℝ :=
  if F.norm vec = 0 then none
  else some (F.sum (List.zipWith (fun a b => F.fl (a * b)) (vec.map fun x => F.fl (x / F.norm vec))
    (F.normalizeVec orientation)))

/-- `directivity_gain` for one value of `cos_theta` (directivity.py 9-24), see `directivityGain`; the
Python numbers are converted to the dtype. -/
noncomputable def Floats.directivityGain (pattern : String) (c : ℝ) : Except String ℝ :=
  let p := pattern.toLower
  if p ∈ ["omni", "omnidirectional"] then .ok 1
  else if p ∈ ["homni", "halfomni", "half-omni"] then .ok (if 0 < c then 1 else 0)
  else if p ∈ ["subcardioid", "subcard"] then .ok (F.fl (F.fl 0.75 + F.fl (F.fl 0.25 * c)))
  else if p ∈ ["cardioid", "card"] then .ok (F.fl (F.fl 0.5 + F.fl (F.fl 0.5 * c)))
  else if p ∈ ["hypercardioid", "hypcard"] then .ok (F.fl (F.fl 0.25 + F.fl (F.fl 0.75 * c)))
  else if p ∈ ["bidir", "bidirectional", "figure8", "figure-8"] then .ok c
  else .error ("unsupported directivity pattern: " ++ p)

/-- `directivity_gain` for one value of `cos_theta`; `none` is NaN, see `gainAt`. -/
noncomputable def Floats.gainAt (pattern : String) : Option ℝ → Except String ℝ
  | some c => F.directivityGain pattern c
  | none => directivityGainNaN pattern

/-- `gain * directivity_gain(pattern, _cos_between(vec, dir))` for one device (contributions.py
79-84 and 85-94); nothing happens for the literal name `"omni"`. -/
noncomputable def Floats.deviceGain (pattern : String) (vec dir : Vec) (gain : ℝ) : Except String ℝ :=
  if pattern = "omni" then .ok gain
  else if dir.length ≠ vec.length then .error "RuntimeError: shapes cannot be broadcast"
  else do
    let g ← F.gainAt pattern (F.cosBetween vec dir)
    return F.fl (gain * g)

/-- Sample position and attenuation of one image at one microphone (contributions.py 72-97;
119-145), see `pathContribution`; the Python numbers `c`, `fs`, `1e-6` and `fdl2 / fs` are converted
to the dtype. -/
noncomputable def Floats.pathContribution (img mic : Vec) (refl c fs : ℝ) (fdl2 : ℕ)
    (srcPattern micPattern : String) (srcDir micDir : Vec) : Except String (ℝ × ℝ) := do
  let vec := List.zipWith (fun a b => F.fl (a - b)) mic img
  let dist := max (F.norm vec) (F.fl 1e-6)
  let time := F.fl (dist / F.fl c)
  let time := F.fl (time + F.fl (fdl2 / fs))
  let sample := F.fl (time * F.fl fs)
  let gain ← F.deviceGain srcPattern vec srcDir refl
  let gain ← F.deviceGain micPattern (vneg vec) micDir gain
  return (sample, F.fl (gain / dist))

/-- The contributions of all images to one pair of positions. -/
noncomputable def Floats.contributions (src mic roomSize : Vec) (nVec : List (List ℤ)) (refl : List ℝ)
    (c fs : ℝ) (fdl2 : ℕ) (srcPattern micPattern : String) (srcDir micDir : Vec) :
    Except String (List (ℝ × ℝ)) :=
  (nVec.zip refl).mapM fun (n, r) =>
    F.pathContribution (F.imagePosition src roomSize n) mic r c fs fdl2 srcPattern micPattern srcDir micDir

/-- `_compute_image_contributions_batch` (contributions.py 55-97), see `contributionsBatch`. -/
noncomputable def Floats.contributionsBatch (srcPos micPos : List Vec) (roomSize : Vec)
    (nVec : List (List ℤ)) (refl : List ℝ) (c fs : ℝ) (fdl2 : ℕ)
    (srcPattern micPattern : String) (srcDirs : Option (List Vec)) (micDir : Option MicDir) :
    Except String (List (List (List (ℝ × ℝ)))) := do
  raiseIf (srcPattern ≠ "omni" ∧ srcDirs.isNone)
    "source orientation required for non-omni directivity"
  raiseIf (micPattern ≠ "omni" ∧ micDir.isNone)
    "mic orientation required for non-omni directivity"
  (srcPos.zipIdx).mapM fun (src, s) =>
    (micPos.zipIdx).mapM fun (mic, m) => do
      let sd := (srcDirs.getD []).getD s []
      let md ← micVec micDir micPos.length m
      F.contributions src mic roomSize nVec refl c fs fdl2 srcPattern micPattern sd md

/-- `_compute_image_contributions_time_batch` (contributions.py 100-145), see
`contributionsTimeBatch`: the same at every time step. -/
noncomputable def Floats.contributionsTimeBatch (srcTraj micTraj : List (List Vec)) (roomSize : Vec)
    (nVec : List (List ℤ)) (refl : List ℝ) (c fs : ℝ) (fdl2 : ℕ)
    (srcPattern micPattern : String) (srcDirs : Option (List Vec)) (micDir : Option MicDir) :
    Except String (List (List (List (List (ℝ × ℝ))))) := do
  raiseIf (srcPattern ≠ "omni" ∧ srcDirs.isNone)
    "source orientation required for non-omni directivity"
  raiseIf (micPattern ≠ "omni" ∧ micDir.isNone)
    "mic orientation required for non-omni directivity"
  (srcTraj.zip micTraj).mapM fun (srcs, mics) =>
    (srcs.zipIdx).mapM fun (src, s) =>
      (mics.zipIdx).mapM fun (mic, m) => do
        let sd := (srcDirs.getD []).getD s []
        let md ← micVec micDir mics.length m
        F.contributions src mic roomSize nVec refl c fs fdl2 srcPattern micPattern sd md

/-- Table lookup with linear interpolation, times window (accumulate.py 70-80), see `filtLut`. -/
noncomputable def Floats.filtLut (fdl gran : ℕ) (frac : ℝ) : Except String (List ℝ) := do
  let xOffFrac := F.fl (F.fl (1 - frac) * F.fl gran)
  let granOff := ⌊xOffFrac⌋
  let xOff := F.fl (xOffFrac - granOff)
  let interp ← (List.range fdl).mapM fun (n : ℕ) => do
    let pos := granOff + (n : ℤ) * (gran : ℤ)
    let s0 ← torchTake (F.lut fdl gran) pos
    let s1 ← torchTake (F.lut fdl gran) (pos + 1)
    return F.fl (s0 + F.fl (xOff * F.fl (s1 - s0)))
  return List.zipWith (fun a b => F.fl (a * b)) interp (F.window fdl)

/-- Direct evaluation of the windowed sinc (accumulate.py 82-83), see `filtDirect`. -/
noncomputable def Floats.filtDirect (fdl : ℕ) (frac : ℝ) : List ℝ :=
  List.zipWith (fun (n : ℕ) w => F.fl (F.sinc (F.fl (F.fl ((n : ℝ) - halfLen fdl) - frac)) * w))
    (List.range fdl) (F.window fdl)

/-- The kernel taps of one image (accumulate.py 69-83). -/
noncomputable def Floats.tapFilter (fdl gran : ℕ) (useLut : Bool) (frac : ℝ) :
    Except String (List ℝ) :=
  if useLut then F.filtLut fdl gran frac else .ok (F.filtDirect fdl frac)

/-- Flat targets and values produced by one image (accumulate.py 69-93), see `tapEntries`. -/
noncomputable def Floats.tapEntries (fdl gran : ℕ) (useLut : Bool) (nsample : ℕ)
    (row : ℕ) (idx : ℤ) (frac amp : ℝ) : Except String (List (ℤ × ℝ)) := do
  let filt ← F.tapFilter fdl gran useLut frac
  let contrib := filt.map fun f => F.fl (amp * f)
  let target := (fdlOffsets fdl).map (idx + ·)
  let valid := (target.zip contrib).filter fun (p : ℤ × ℝ) =>
    0 ≤ p.1 ∧ p.1 < (nsample : ℤ)
  return valid.map fun p => (p.1 + (row : ℤ) * nsample, p.2)

/-- `_accumulate_rir_batch` (accumulate.py 20-115), see `accumulateRirBatchWith`. -/
noncomputable def Floats.accumulate (img : ℕ) (cfg : Config) (dev : DeviceType)
    (nSm nsample : ℕ) (rirFlat : List ℝ) (rows : List (List (ℝ × ℝ))) :
    Except String (List ℝ) :=
  accumulateImplTaps (fun x y => F.fl (x + y)) (F.order img) (fun x y => F.fl (x - y))
    (fun row i f a => F.tapEntries cfg.fracDelayLength.toNat cfg.sincLutGranularity.toNat
      (cfg.useLut && dev ≠ .mps) nsample row i f a)
    cfg.accumulateChunkSize.toNat nSm rirFlat (rows.map (·.map Prod.fst)) (rows.map (·.map Prod.snd))

/-- `simulate_rir` (api.py 33-133) in floating point, see `simulateRir`. -/
noncomputable def simulateRirFloat (w : World) (room : Room) (sources mics : Entity)
    (a : SimArgs) : Except String (Tensor ℝ) := do
  let (cfg, maxOrder, tmax, directivity) ← resolveConfig a
  let ns ← validateArgs room a.nsample tmax maxOrder
  let nsample := ns.toNat
  let (srcPos, srcOri) ← prepareEntity sources a.orientation true
  let (micPos, micOri) ← prepareEntity mics a.orientation false
  ensureDim room.size
  let dim := room.size.length
  let srcPos := asPoints srcPos
  let micPos := asPoints micPos
  validatePosShapes srcPos micPos dim
  let beta ← resolveBeta room
  let nVec ← imageSourceIndices maxOrder dim a.nbImg
  let refl := F.reflectionCoefficients nVec beta
  let (srcPattern, micPattern) ← splitDirectivity directivity
  let micDir ← F.resolveMicDir micPattern micOri dim
  let nSrc := srcPos.shape.getD 0 0
  let nMic := micPos.shape.getD 0 0
  let fdl2 := halfLen cfg.fracDelayLength.toNat
  let imgChunk := imageChunk cfg nVec.length
  let srcDirs ← F.resolveSrcDirs srcPattern srcOri dim nSrc
  let flat ← (rangeStep nVec.length imgChunk).foldlM (fun buf start => do
    let stop := min (start + imgChunk) nVec.length
    let chunk ← F.contributionsBatch srcPos.rows micPos.rows room.size
      (slice start stop nVec) (slice start stop refl) room.c room.fs fdl2
      srcPattern micPattern srcDirs micDir
    F.accumulate start cfg w.device (nSrc * nMic) nsample buf chunk.flatten)
    (List.replicate (nSrc * nMic * nsample) 0)
  let rir : Tensor ℝ := ⟨[nSrc, nMic, nsample], flat⟩
  let rir ← diffuseStep w rir room beta a.tdiff tmax cfg.seed
  applyRirHpf w room.fs cfg rir

/-- `simulate_dynamic_rir` (api.py 136-238) in floating point, see `simulateDynamicRir`. -/
noncomputable def simulateDynamicRirFloat (w : World) (room : Room)
    (srcTraj micTraj : Tensor ℝ) (a : SimArgs) : Except String (Tensor ℝ) := do
  let (cfg, maxOrder, tmax, directivity) ← resolveConfig a
  let ns ← validateArgs room a.nsample tmax maxOrder
  let nsample := ns.toNat
  let srcTraj := asTraj srcTraj
  let micTraj := asTraj micTraj
  let (srcOri, micOri) ← splitOrientation a.orientation
  ensureDim room.size
  let dim := room.size.length
  validateTrajShapes srcTraj micTraj dim
  let beta ← resolveBeta room
  let nVec ← imageSourceIndices maxOrder dim a.nbImg
  let refl := F.reflectionCoefficients nVec beta
  let (srcPattern, micPattern) ← splitDirectivity directivity
  let micDir ← F.resolveMicDir micPattern micOri dim
  let tSteps := srcTraj.shape.getD 0 0
  let nSrc := srcTraj.shape.getD 1 0
  let nMic := micTraj.shape.getD 1 0
  let fdl2 := halfLen cfg.fracDelayLength.toNat
  let imgChunk := imageChunk cfg nVec.length
  let srcDirs ← F.resolveSrcDirs srcPattern srcOri dim nSrc
  let flat ← (rangeStep nVec.length imgChunk).foldlM (fun buf start => do
    let stop := min (start + imgChunk) nVec.length
    let chunk ← F.contributionsTimeBatch srcTraj.planes micTraj.planes room.size
      (slice start stop nVec) (slice start stop refl) room.c room.fs fdl2
      srcPattern micPattern srcDirs micDir
    F.accumulate start cfg w.device (tSteps * nSrc * nMic) nsample buf chunk.flatten.flatten)
    (List.replicate (tSteps * nSrc * nMic * nsample) 0)
  applyRirHpf w room.fs cfg ⟨[tSteps, nSrc, nMic, nsample], flat⟩

end Torchrir.Model
