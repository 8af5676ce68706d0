import Verif.Model.Contrib
import Verif.Model.Accumulate
import Verif.Model.Acoustics

/-!
# `simulate_rir` and `simulate_dynamic_rir`

Model of `src/torchrir/sim/ism/{api,validate,prepare,helpers,diffuse,hpf}.py`.
-/

namespace Torchrir.Model

/-- The attributes of a validated `Room` (models/room.py 24-28). -/
structure Room where
  size : List ℝ
  fs : ℝ
  c : ℝ := 343
  beta : Option (List ℝ) := none
  t60 : Option ℝ := none

/-- A `Source`, `MicrophoneArray` or raw tensor (the latter without orientation). -/
structure Entity where
  positions : Tensor ℝ
  orientation : Option (Tensor ℝ) := none

/-- The `orientation` argument: one tensor or a list/tuple. -/
inductive OriArg where
  | single (t : Tensor ℝ)
  | tuple (ts : List (Option (Tensor ℝ)))

/-- External behaviour the simulation depends on: scipy's filter design and filtering
(hpf.py 31-37, 55), and torch's seeded normal generator (diffuse.py 39-43).  They are
arbitrary; filtering works on each 1-D row separately (`axis=-1`). -/
structure World where
  Sos : Type
  iirfilter : ℤ → ℝ → List (String × String) → Except String Sos
  sosfiltfilt : Sos → List ℝ → Except String (List ℝ)
  randn : ℤ → List ℕ → List ℝ
  device : DeviceType

/-- Optional arguments of the simulation functions. -/
structure SimArgs where
  maxOrder : Option ℤ
  nbImg : Option (List ℤ) := none
  nsample : Option ℤ := none
  tmax : Option ℝ := none
  tdiff : Option ℝ := none
  directivity : Option DirArg := some (.one "omni")
  orientation : Option OriArg := none
  config : Option Config := none

/-- `default_config()` (config.py 71-81). -/
noncomputable def defaultConfig : Config := {}

/-- `max_order` from the call or the config (validate.py 35-38). -/
def resolveMaxOrder (a cfg : Option ℤ) : Except String ℤ :=
  match a, cfg with
  | some m, _ => .ok m
  | none, some m => .ok m
  | none, none => .error "max_order must be provided if not set in config"

/-- `directivity = directivity or cfg.directivity or "omni"` for an omitted argument
(validate.py 43-44). -/
def resolveDirectivity (a cfg : Option DirArg) : DirArg :=
  match a with
  | some d => d
  | none => match cfg with
    | some (.one "") => .one "omni"
    | some (.tuple []) => .one "omni"
    | some d => d
    | none => .one "omni"

/-- `_resolve_config` (validate.py 15-46) without the device, which is part of `World`.
`config or default_config()` keeps any given config (dataclass instances are truthy). -/
noncomputable def resolveConfig (a : SimArgs) :
    Except String (Config × ℤ × Option ℝ × DirArg) := do
  let cfg := a.config.getD defaultConfig
  cfg.validate
  let maxOrder ← resolveMaxOrder a.maxOrder cfg.maxOrder
  let tmax := a.tmax.orElse fun _ => cfg.tmax
  return (cfg, maxOrder, tmax, resolveDirectivity a.directivity cfg.directivity)

/-- Number of samples from `nsample` or `tmax` (validate.py 58-61, 78-81). -/
noncomputable def resolveNsample (fs : ℝ) (nsample : Option ℤ) (tmax : Option ℝ) :
    Except String ℤ :=
  match nsample, tmax with
  | some n, _ => .ok n
  | none, some t => .ok ⌈t * fs⌉
  | none, none => .error "nsample or tmax must be provided"

/-- `_validate_static_args` and `_validate_dynamic_args` (validate.py 49-66, 69-86; the two
bodies are identical). -/
noncomputable def validateArgs (room : Room) (nsample : Option ℤ) (tmax : Option ℝ)
    (maxOrder : ℤ) : Except String ℤ := do
  let ns ← resolveNsample room.fs nsample tmax
  raiseIf (ns ≤ 0) "nsample must be positive"
  raiseIf (maxOrder < 0) "max_order must be non-negative"
  return ns

/-- `_prepare_entities` (helpers.py 16-41). -/
def prepareEntity (e : Entity) (orientation : Option OriArg) (isSource : Bool) :
    Except String (Tensor ℝ × Option (Tensor ℝ)) :=
  match orientation with
  | none => .ok (e.positions, e.orientation)
  | some (.single t) => .ok (e.positions, some t)
  | some (.tuple [a, b]) => .ok (e.positions, if isSource then a else b)
  | some (.tuple _) => .error "orientation tuple must have length 2"

/-- `_split_orientation` (prepare.py 113-122). -/
def splitOrientation :
    Option OriArg → Except String (Option (Tensor ℝ) × Option (Tensor ℝ))
  | none => .ok (none, none)
  | some (.single t) => .ok (some t, some t)
  | some (.tuple [a, b]) => .ok (a, b)
  | some (.tuple _) => .error "orientation tuple must have length 2"

/-- `ensure_dim` (util/tensor.py 32-36) on a 1-D size. -/
def ensureDim (size : List ℝ) : Except String Unit :=
  if size.length = 2 ∨ size.length = 3 then .ok ()
  else .error "room size must be a 1D tensor of length 2 or 3"

/-- A single position is turned into a list of one (prepare.py 58-61). -/
def asPoints (t : Tensor ℝ) : Tensor ℝ := if t.ndim = 1 then t.unsqueeze0 else t

/-- `_validate_pos_shapes` (validate.py 89-93). -/
def validatePosShapes (src mic : Tensor ℝ) (dim : ℕ) : Except String Unit := do
  raiseIf (src.ndim ≠ 2 ∨ src.shape.getD 1 0 ≠ dim) "sources must be of shape (n_src, dim)"
  raiseIf (mic.ndim ≠ 2 ∨ mic.shape.getD 1 0 ≠ dim) "mics must be of shape (n_mic, dim)"

/-- A single trajectory is turned into a list of one (prepare.py 95-98). -/
def asTraj (t : Tensor ℝ) : Tensor ℝ := if t.ndim = 2 then t.unsqueeze1 else t

/-- `_validate_traj_shapes` (validate.py 96-106). -/
def validateTrajShapes (src mic : Tensor ℝ) (dim : ℕ) : Except String Unit := do
  raiseIf (src.ndim ≠ 3) "src_traj must be of shape (T, n_src, dim)"
  raiseIf (mic.ndim ≠ 3) "mic_traj must be of shape (T, n_mic, dim)"
  raiseIf (src.shape.getD 0 0 ≠ mic.shape.getD 0 0) "src_traj and mic_traj must have the same time length"
  raiseIf (src.shape.getD 2 0 ≠ dim) "src_traj must match room dimension"
  raiseIf (mic.shape.getD 2 0 ≠ dim) "mic_traj must match room dimension"

/-- Number of walls of a `dim`-dimensional room (helpers.py 49, 57). -/
def nWalls (dim : ℕ) : ℕ := if dim = 2 then 4 else 6

/-- `_resolve_beta` (helpers.py 44-53): `beta` wins over `t60`, default is rigid walls. -/
noncomputable def chooseBeta (room : Room) : Except String (List ℝ) :=
  match room.beta, room.t60 with
  | some b, _ => .ok b
  | none, some t => estimateBetaFromT60 room.size t
  | none, none => .ok (List.replicate (nWalls room.size.length) 1)

/-- `_resolve_beta` followed by `_validate_beta` (helpers.py 44-62). -/
noncomputable def resolveBeta (room : Room) : Except String (List ℝ) := do
  let beta ← chooseBeta room
  raiseIf (beta.length ≠ nWalls room.size.length) "beta must have the right number of elements"
  return beta

/-- Microphone orientation (api.py 86-90, 187-191): required for a non-omni pattern. -/
noncomputable def resolveMicDir (micPattern : String) (micOri : Option (Tensor ℝ)) (dim : ℕ) :
    Except String (Option MicDir) :=
  if micPattern = "omni" then .ok none
  else match micOri with
    | none => .error "mic orientation required for non-omni directivity"
    | some o => do
      let u ← orientationToUnit o dim
      if u.ndim = 2 then return some (.perMic u.rows) else return some (.shared u.data)

/-- Source orientation (api.py 101-109, 204-212). -/
noncomputable def resolveSrcDirs (srcPattern : String) (srcOri : Option (Tensor ℝ)) (dim nSrc : ℕ) :
    Except String (Option (List Vec)) :=
  if srcPattern = "omni" then .ok none
  else match srcOri with
    | none => .error "source orientation required for non-omni directivity"
    | some o => do
      let u ← orientationToUnit o dim
      if u.ndim = 1 then return some (List.replicate nSrc u.data)
      else if u.ndim ≠ 2 ∨ u.shape.getD 0 0 ≠ nSrc then
        throw "source orientation must match number of sources"
      else return some u.rows

/-- `_design_hpf_sos` (hpf.py 14-37). -/
noncomputable def designHpfSos (w : World) (fs fc : ℝ) (kw : HpfKwargs) :
    Except String w.Sos :=
  let wc := 2 * fc / fs
  if ¬ (0 < wc ∧ wc < 1) then .error "rir_hpf_fc must satisfy 0 < rir_hpf_fc < fs/2"
  else
    let n := kw.n.getD 2
    let rest := if kw.rest.any (·.1 = "type") && !kw.rest.any (·.1 = "ftype")
      then kw.rest.map fun p => if p.1 = "type" then ("ftype", p.2) else p
      else kw.rest
    w.iirfilter n wc rest

/-- `apply_rir_hpf` (hpf.py 40-57). -/
noncomputable def applyRirHpf (w : World) (fs : ℝ) (cfg : Config) (rir : Tensor ℝ) :
    Except String (Tensor ℝ) :=
  if cfg.rirHpfEnable = false then .ok rir
  else do
    let sos ← designHpfSos w fs cfg.rirHpfFc cfg.rirHpfKwargs
    let rows ← rir.lastAxisRows.mapM (w.sosfiltfilt sos)
    return ⟨rir.shape, rows.flatten⟩

/-- `_apply_diffuse_tail` (diffuse.py 15-49).  `randn seed shape` is the noise of a freshly
seeded generator; `|x|` is the norm over the last axis of length one. -/
noncomputable def applyDiffuseTail (w : World) (rir : Tensor ℝ) (room : Room) (beta : List ℝ)
    (tdiff : ℝ) (seed : Option ℤ) : Except String (Tensor ℝ) := do
  let nsample := rir.shape.getLastD 0
  let tdiffIdx : ℤ := min ((nsample : ℤ) - 1) ⌊tdiff * room.fs⌋
  if tdiffIdx ≤ 0 then return rir
  let i0 := tdiffIdx.toNat
  let tailLen := nsample - i0
  let t60 ← estimateT60FromBeta room.size beta
  let decay : List ℝ := (List.range tailLen).map fun (i : ℕ) =>
    let t : ℝ := i / room.fs
    match t60 with
    | none => Real.exp (-t * 3)
    | some x => if x ≤ 0 then Real.exp (-t * 3) else Real.exp (-t / (x / 6.9078))
  let noise := groups (rir.shape.dropLast.prod) tailLen
    (w.randn (seed.getD 0) (rir.shape.dropLast ++ [tailLen]))
  let rows := List.zipWith (fun row ns =>
    let scale := |row.getD (i0 - 1) 0| + 1e-8
    row.take i0 ++ List.zipWith (fun a b => a * b * scale) ns decay) rir.lastAxisRows noise
  return ⟨rir.shape, rows.flatten⟩

/-- When the diffuse tail is applied (api.py 130-131). -/
noncomputable def diffuseStep (w : World) (rir : Tensor ℝ) (room : Room) (beta : List ℝ)
    (tdiff tmax : Option ℝ) (seed : Option ℤ) : Except String (Tensor ℝ) :=
  match tdiff, tmax with
  | some td, some tm =>
    if td < tm then applyDiffuseTail w rir room beta td seed else .ok rir
  | _, _ => .ok rir

/-- Image chunk size actually used (api.py 97-99, 200-202). -/
def imageChunk (cfg : Config) (nImg : ℕ) : ℕ :=
  if cfg.imageChunkSize ≤ 0 then nImg else cfg.imageChunkSize.toNat

/-- `simulate_rir` (api.py 33-133). -/
noncomputable def simulateRir (w : World) (room : Room) (sources mics : Entity) (a : SimArgs) :
    Except String (Tensor ℝ) := do
  let (cfg, maxOrder, tmax, directivity) ← resolveConfig a
  let ns ← validateArgs room a.nsample tmax maxOrder
  let nsample := ns.toNat
  let (srcPos, srcOri) ← prepareEntity sources a.orientation true
  let (micPos, micOri) ← prepareEntity mics a.orientation false
  ensureDim room.size
  let dim := room.size.length
  let srcPos := asPoints srcPos
  let micPos := asPoints micPos
  validatePosShapes srcPos micPos dim
  let beta ← resolveBeta room
  let nVec ← imageSourceIndices maxOrder dim a.nbImg
  let refl := reflectionCoefficients nVec beta
  let (srcPattern, micPattern) ← splitDirectivity directivity
  let micDir ← resolveMicDir micPattern micOri dim
  let nSrc := srcPos.shape.getD 0 0
  let nMic := micPos.shape.getD 0 0
  let fdl2 := halfLen cfg.fracDelayLength.toNat
  let imgChunk := imageChunk cfg nVec.length
  let srcDirs ← resolveSrcDirs srcPattern srcOri dim nSrc
  let flat ← (rangeStep nVec.length imgChunk).foldlM (fun buf start => do
    let stop := min (start + imgChunk) nVec.length
    let chunk ← contributionsBatch srcPos.rows micPos.rows room.size
      (slice start stop nVec) (slice start stop refl) room.c room.fs fdl2
      srcPattern micPattern srcDirs micDir
    let rows := chunk.flatten
    accumulateRirBatch cfg w.device (nSrc * nMic) nsample buf
      (rows.map (·.map Prod.fst)) (rows.map (·.map Prod.snd)))
    (List.replicate (nSrc * nMic * nsample) 0)
  let rir : Tensor ℝ := ⟨[nSrc, nMic, nsample], flat⟩
  let rir ← diffuseStep w rir room beta a.tdiff tmax cfg.seed
  applyRirHpf w room.fs cfg rir

/-- `simulate_dynamic_rir` (api.py 136-238).  `a.tdiff` is not an argument of this function and
is ignored. -/
noncomputable def simulateDynamicRir (w : World) (room : Room) (srcTraj micTraj : Tensor ℝ)
    (a : SimArgs) : Except String (Tensor ℝ) := do
  let (cfg, maxOrder, tmax, directivity) ← resolveConfig a
  let ns ← validateArgs room a.nsample tmax maxOrder
  let nsample := ns.toNat
  let srcTraj := asTraj srcTraj
  let micTraj := asTraj micTraj
  let (srcOri, micOri) ← splitOrientation a.orientation
  ensureDim room.size
  let dim := room.size.length
  validateTrajShapes srcTraj micTraj dim
  let beta ← resolveBeta room
  let nVec ← imageSourceIndices maxOrder dim a.nbImg
  let refl := reflectionCoefficients nVec beta
  let (srcPattern, micPattern) ← splitDirectivity directivity
  let micDir ← resolveMicDir micPattern micOri dim
  let tSteps := srcTraj.shape.getD 0 0
  let nSrc := srcTraj.shape.getD 1 0
  let nMic := micTraj.shape.getD 1 0
  let fdl2 := halfLen cfg.fracDelayLength.toNat
  let imgChunk := imageChunk cfg nVec.length
  let srcDirs ← resolveSrcDirs srcPattern srcOri dim nSrc
  let flat ← (rangeStep nVec.length imgChunk).foldlM (fun buf start => do
    let stop := min (start + imgChunk) nVec.length
    let chunk ← contributionsTimeBatch srcTraj.planes micTraj.planes room.size
      (slice start stop nVec) (slice start stop refl) room.c room.fs fdl2
      srcPattern micPattern srcDirs micDir
    let rows := chunk.flatten.flatten
    accumulateRirBatch cfg w.device (tSteps * nSrc * nMic) nsample buf
      (rows.map (·.map Prod.fst)) (rows.map (·.map Prod.snd)))
    (List.replicate (tSteps * nSrc * nMic * nsample) 0)
  applyRirHpf w room.fs cfg ⟨[tSteps, nSrc, nMic, nsample], flat⟩

end Torchrir.Model
