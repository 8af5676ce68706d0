import Verif.Model.Room

/-!
# Simulations of integer tensors

`simulate_rir` and `simulate_dynamic_rir` compute in one dtype: the argument `dtype` or else the dtype of the sources
(prepare.py 44-57, 87-107 with device.py 72-95).  `Verif.Model.Ism` takes it for a floating one.  Here it may also be an
integer one: positions given as `[[1, 2, 1]]` become an `int64` tensor.  Values are finite.
-/

namespace Torchrir.Model

/-- Conversion of values: to integers towards zero, nothing otherwise (tensor.py 26-27). -/
noncomputable def castReal : NumType → ℝ → ℝ
  | .floating, x => x
  | .int64, x => trunc x

/-- `t.to(dtype)`. -/
noncomputable def castReals (dt : NumType) (t : Tensor ℝ) : Tensor ℝ := ⟨t.shape, t.data.map (castReal dt)⟩

/-- A `Room` with the dtype of its size; the coefficients were converted to it by the constructor (room.py 46-57). -/
structure TypedRoom where
  sizeType : NumType
  room : Room

/-- The room as the computation sees it: `room_size` and `beta` in the dtype of the computation (prepare.py 54, 106;
helpers.py 48). -/
noncomputable def castRoom (dt : NumType) (r : Room) : Room :=
  { r with size := r.size.map (castReal dt), beta := r.beta.map fun b => b.map (castReal dt) }

/-- A source or microphone array in the dtype of the computation (prepare.py 47-52). -/
noncomputable def castEntity (dt : NumType) (e : Entity) : Entity :=
  { positions := castReals dt e.positions, orientation := e.orientation.map (castReals dt) }

/-- The `orientation` argument in the dtype of the computation (prepare.py 49-52, 101-104). -/
noncomputable def castOri (dt : NumType) : OriArg → OriArg
  | .single t => .single (castReals dt t)
  | .tuple ts => .tuple (ts.map fun o => o.map (castReals dt))

/-- The room has no surface, as may happen after rounding sizes below one metre to 0. -/
def NoSurface : List ℝ → Prop
  | [x, y] => x + y = 0
  | [x, y, z] => x * y + y * z + x * z = 0
  | _ => False

open Classical in
/-- The coefficients in the dtype of the computation: those estimated from `t60` are converted, too
(acoustics.py 47, 55); the estimate divides by the surface (acoustics.py 44, 52). -/
noncomputable def resolveBetaIn (dt : NumType) (room : Room) : Except String (List ℝ) := do
  raiseIf (dt = .int64 ∧ room.beta = none ∧ room.t60.isSome ∧ NoSurface (castRoom dt room).size)
    "ZeroDivisionError: float division by zero"
  let beta ← resolveBeta (castRoom dt room)
  return beta.map (castReal dt)

/-- `torch.linalg.norm` refuses integers, so that direction vectors (but not angles) of an integer dtype raise
(orientation.py 11, 32, 36). -/
def refusesVectors (dt : NumType) (pattern : String) (o : Option (Tensor ℝ)) (dim : ℕ) : Except String Unit :=
  raiseIf (dt = .int64 ∧ pattern ≠ "omni" ∧ ∃ t, o = some t ∧ t.shape.getLast? = some dim)
    "RuntimeError: linalg.vector_norm: Expected a floating point or complex tensor as input. Got Long"

open Classical in
/-- `_accumulate_rir_batch` into an integer buffer (accumulate.py 85-94): `scatter_add_` refuses values of another
dtype, and is called as soon as one tap lies inside the response. -/
noncomputable def accumulateInt (cfg : Config) (nSm nsample : ℕ) (rirFlat : List ℝ) (sample : List (List ℝ)) :
    Except String (List ℝ) := do
  raiseIf (nSm = 0) "RuntimeError: cannot reshape tensor of 0 elements"
  raiseIf (∃ row ∈ sample, ∃ x ∈ row, ∃ o ∈ fdlOffsets cfg.fracDelayLength.toNat, 0 ≤ ⌊x⌋ + o ∧ ⌊x⌋ + o < (nsample : ℤ))
    "RuntimeError: scatter(): Expected self.dtype to be equal to src.dtype"
  return rirFlat

/-- `_accumulate_rir_batch` into a buffer of the dtype of the computation. -/
noncomputable def accumulateIn (dt : NumType) (cfg : Config) (dev : DeviceType) (nSm nsample : ℕ)
    (rirFlat : List ℝ) (sample amplitude : List (List ℝ)) : Except String (List ℝ) :=
  match dt with
  | .floating => accumulateRirBatch cfg dev nSm nsample rirFlat sample amplitude
  | .int64 => accumulateInt cfg nSm nsample rirFlat sample

/-- The diffuse tail (diffuse.py 15-49).  The decay is computed with the coefficients in the dtype of `room.size`
(line 32 with acoustics.py 74), and `torch.randn` has no integer version. -/
noncomputable def diffuseStepIn (dt : NumType) (w : World) (rir : Tensor ℝ) (room : TypedRoom) (beta : List ℝ)
    (tdiff tmax : Option ℝ) (seed : Option ℤ) : Except String (Tensor ℝ) :=
  match dt, tdiff, tmax with
  | .floating, _, _ => diffuseStep w rir room.room (beta.map (castReal room.sizeType)) tdiff tmax seed
  | .int64, some td, some tm =>
    if td < tm ∧ 0 < min ((rir.shape.getLastD 0 : ℤ) - 1) ⌊td * room.room.fs⌋
    then .error "RuntimeError: normal_kernel_cpu not implemented for 'Long'" else .ok rir
  | .int64, _, _ => .ok rir

/-- The filter (hpf.py 40-57): the filtered values are converted back. -/
noncomputable def applyRirHpfIn (dt : NumType) (w : World) (fs : ℝ) (cfg : Config) (rir : Tensor ℝ) :
    Except String (Tensor ℝ) := do
  let r ← applyRirHpf w fs cfg rir
  return castReals dt r

/-- `simulate_rir` (api.py 33-133): the dtype of the result and the result. -/
noncomputable def simulateRirTyped (w : World) (room : TypedRoom) (srcType : NumType) (sources mics : Entity)
    (dtype : Option NumType) (a : SimArgs) : Except String (NumType × Tensor ℝ) := do
  let (cfg, maxOrder, tmax, directivity) ← resolveConfig a
  let ns ← validateArgs room.room a.nsample tmax maxOrder
  let nsample := ns.toNat
  let dt := dtype.getD srcType
  let (srcPos, srcOri) ← prepareEntity (castEntity dt sources) (a.orientation.map (castOri dt)) true
  let (micPos, micOri) ← prepareEntity (castEntity dt mics) (a.orientation.map (castOri dt)) false
  let size := (castRoom dt room.room).size
  ensureDim size
  let dim := size.length
  let srcPos := asPoints srcPos
  let micPos := asPoints micPos
  validatePosShapes srcPos micPos dim
  let beta ← resolveBetaIn dt room.room
  let nVec ← imageSourceIndices maxOrder dim a.nbImg
  let refl := reflectionCoefficients nVec beta
  let (srcPattern, micPattern) ← splitDirectivity directivity
  refusesVectors dt micPattern micOri dim
  let micDir ← resolveMicDir micPattern micOri dim
  let nSrc := srcPos.shape.getD 0 0
  let nMic := micPos.shape.getD 0 0
  let fdl2 := halfLen cfg.fracDelayLength.toNat
  let imgChunk := imageChunk cfg nVec.length
  refusesVectors dt srcPattern srcOri dim
  let srcDirs ← resolveSrcDirs srcPattern srcOri dim nSrc
  let flat ← (rangeStep nVec.length imgChunk).foldlM (fun buf start => do
    let stop := min (start + imgChunk) nVec.length
    let chunk ← contributionsBatch srcPos.rows micPos.rows size
      (slice start stop nVec) (slice start stop refl) room.room.c room.room.fs fdl2
      srcPattern micPattern srcDirs micDir
    let rows := chunk.flatten
    accumulateIn dt cfg w.device (nSrc * nMic) nsample buf
      (rows.map (·.map Prod.fst)) (rows.map (·.map Prod.snd)))
    (List.replicate (nSrc * nMic * nsample) 0)
  let rir : Tensor ℝ := ⟨[nSrc, nMic, nsample], flat⟩
  let rir ← diffuseStepIn dt w rir room beta a.tdiff tmax cfg.seed
  let rir ← applyRirHpfIn dt w room.room.fs cfg rir
  return (dt, rir)

/-- `simulate_dynamic_rir` (api.py 136-238): the dtype of the result and the result. -/
noncomputable def simulateDynamicRirTyped (w : World) (room : TypedRoom) (srcType : NumType)
    (srcTraj micTraj : Tensor ℝ) (dtype : Option NumType) (a : SimArgs) : Except String (NumType × Tensor ℝ) := do
  let (cfg, maxOrder, tmax, directivity) ← resolveConfig a
  let ns ← validateArgs room.room a.nsample tmax maxOrder
  let nsample := ns.toNat
  let dt := dtype.getD srcType
  let srcTraj := asTraj (castReals dt srcTraj)
  let micTraj := asTraj (castReals dt micTraj)
  let (srcOri, micOri) ← splitOrientation (a.orientation.map (castOri dt))
  let size := (castRoom dt room.room).size
  ensureDim size
  let dim := size.length
  validateTrajShapes srcTraj micTraj dim
  let beta ← resolveBetaIn dt room.room
  let nVec ← imageSourceIndices maxOrder dim a.nbImg
  let refl := reflectionCoefficients nVec beta
  let (srcPattern, micPattern) ← splitDirectivity directivity
  refusesVectors dt micPattern micOri dim
  let micDir ← resolveMicDir micPattern micOri dim
  let tSteps := srcTraj.shape.getD 0 0
  let nSrc := srcTraj.shape.getD 1 0
  let nMic := micTraj.shape.getD 1 0
  let fdl2 := halfLen cfg.fracDelayLength.toNat
  let imgChunk := imageChunk cfg nVec.length
  refusesVectors dt srcPattern srcOri dim
  let srcDirs ← resolveSrcDirs srcPattern srcOri dim nSrc
  let flat ← (rangeStep nVec.length imgChunk).foldlM (fun buf start => do
    let stop := min (start + imgChunk) nVec.length
    let chunk ← contributionsTimeBatch srcTraj.planes micTraj.planes size
      (slice start stop nVec) (slice start stop refl) room.room.c room.room.fs fdl2
      srcPattern micPattern srcDirs micDir
    let rows := chunk.flatten.flatten
    accumulateIn dt cfg w.device (tSteps * nSrc * nMic) nsample buf
      (rows.map (·.map Prod.fst)) (rows.map (·.map Prod.snd)))
    (List.replicate (tSteps * nSrc * nMic * nsample) 0)
  let rir ← applyRirHpfIn dt w room.room.fs cfg ⟨[tSteps, nSrc, nMic, nsample], flat⟩
  return (dt, rir)

end Torchrir.Model
