import Verif.Model.Ism

/-!
# Module-level caches of `accumulate.py`

The tables and compiled functions are kept in five dictionaries that live as long as the
process (accumulate.py 12-17).  Here they are explicit state.
-/

namespace Torchrir.Model

/-- A `torch.device`: its type and its string, e.g. `cuda` / `"cuda:0"`. -/
structure Device where
  type : DeviceType
  str : String
deriving DecidableEq

/-- A `torch.dtype`. -/
abbrev DType := String

/-- What torch computes for the tables on a device with a dtype.  Rounding may depend on both,
so this is arbitrary; `Backend.exact` is the idealisation used elsewhere in the model. -/
structure Backend where
  grid : ℕ → String → DType → List ℝ
  offsets : ℕ → String → List ℤ
  window : ℕ → String → DType → List ℝ
  lut : ℕ → ℕ → String → DType → List ℝ

/-- Exact tables on every device. -/
noncomputable def Backend.exact : Backend where
  grid fdl _ _ := fdlGrid fdl
  offsets fdl _ := fdlOffsets fdl
  window fdl _ _ := hannWindow fdl
  lut fdl gran _ _ := sincLut fdl gran

/-- The constants bound by the closure `_fn` (accumulate.py 101-115). -/
structure AccumConsts where
  fdl : ℕ
  gran : ℕ
  useLut : Bool
  chunkSize : ℕ
deriving DecidableEq

/-- The five dictionaries (accumulate.py 12-17). -/
structure Caches where
  lut : ℕ × ℕ × String × DType → Option (List ℝ)
  grid : ℕ × String × DType → Option (List ℝ)
  offsets : ℕ × String → Option (List ℤ)
  window : ℕ × String × DType → Option (List ℝ)
  compiled : String × DType × ℕ × ℕ × Bool × ℕ → Option AccumConsts

/-- The caches of a fresh process. -/
def Caches.empty : Caches := ⟨fun _ => none, fun _ => none, fun _ => none, fun _ => none, fun _ => none⟩

/-- Computations that read and write the caches and may raise; the caches keep what was
written before an exception. -/
abbrev CacheM (α : Type) := Caches → Except String α × Caches

/-- Sequencing. -/
def CacheM.bind {α β : Type} (x : CacheM α) (f : α → CacheM β) : CacheM β := fun σ =>
  match x σ with
  | (.ok a, σ') => f a σ'
  | (.error e, σ') => (.error e, σ')

/-- A computation that does not touch the caches. -/
def CacheM.lift {α : Type} (x : Except String α) : CacheM α := fun σ => (x, σ)

/-- `_get_fdl_grid` (accumulate.py 127-133). -/
def getFdlGrid (B : Backend) (fdl : ℕ) (dev : Device) (dtype : DType) : CacheM (List ℝ) := fun σ =>
  let key := (fdl, dev.str, dtype)
  match σ.grid key with
  | some t => (.ok t, σ)
  | none =>
    let t := B.grid fdl dev.str dtype
    (.ok t, { σ with grid := Function.update σ.grid key (some t) })

/-- `_get_fdl_offsets` (accumulate.py 136-143). -/
def getFdlOffsets (B : Backend) (fdl : ℕ) (dev : Device) : CacheM (List ℤ) := fun σ =>
  let key := (fdl, dev.str)
  match σ.offsets key with
  | some t => (.ok t, σ)
  | none =>
    let t := B.offsets fdl dev.str
    (.ok t, { σ with offsets := Function.update σ.offsets key (some t) })

/-- `_get_fdl_window` (accumulate.py 146-152). -/
def getFdlWindow (B : Backend) (fdl : ℕ) (dev : Device) (dtype : DType) : CacheM (List ℝ) := fun σ =>
  let key := (fdl, dev.str, dtype)
  match σ.window key with
  | some t => (.ok t, σ)
  | none =>
    let t := B.window fdl dev.str dtype
    (.ok t, { σ with window := Function.update σ.window key (some t) })

/-- `_get_sinc_lut` (accumulate.py 155-168). -/
def getSincLut (B : Backend) (fdl gran : ℕ) (dev : Device) (dtype : DType) : CacheM (List ℝ) := fun σ =>
  let key := (fdl, gran, dev.str, dtype)
  match σ.lut key with
  | some t => (.ok t, σ)
  | none =>
    let t := B.lut fdl gran dev.str dtype
    (.ok t, { σ with lut := Function.update σ.lut key (some t) })

/-- `_get_accumulate_fn` (accumulate.py 97-124): the constants of the function it returns.
`torch.compile` is taken to preserve meaning. -/
def getAccumulateFn (cfg : Config) (dev : Device) (dtype : DType) : CacheM AccumConsts := fun σ =>
  let c : AccumConsts :=
    { fdl := cfg.fracDelayLength.toNat, gran := cfg.sincLutGranularity.toNat
      useLut := cfg.useLut && dev.type ≠ .mps, chunkSize := cfg.accumulateChunkSize.toNat }
  if (dev.type ≠ .cuda ∧ dev.type ≠ .mps) ∨ cfg.useCompile = false then (.ok c, σ)
  else
    let key := (dev.str, dtype, c.fdl, c.gran, c.useLut, c.chunkSize)
    match σ.compiled key with
    | some k => (.ok k, σ)
    | none => (.ok c, { σ with compiled := Function.update σ.compiled key (some c) })

/-- The table used when `use_lut` is set; otherwise none is fetched (accumulate.py 54-55). -/
def getLutIf (B : Backend) (c : AccumConsts) (dev : Device) (dtype : DType) : CacheM (List ℝ) :=
  if c.useLut then getSincLut B c.fdl c.gran dev dtype else .lift (.ok [])

/-- `_accumulate_rir_batch` with the caches (accumulate.py 20-55, then 57-94). -/
noncomputable def accumulateCached (B : Backend) (cfg : Config) (dev : Device) (dtype : DType)
    (nSm nsample : ℕ) (rirFlat : List ℝ) (sample amplitude : List (List ℝ)) :
    CacheM (List ℝ) :=
  (getAccumulateFn cfg dev dtype).bind fun c =>
  (CacheM.lift (raiseIf (nSm = 0) "RuntimeError: cannot reshape tensor of 0 elements")).bind fun _ =>
  (getFdlGrid B c.fdl dev dtype).bind fun grid =>
  (getFdlOffsets B c.fdl dev).bind fun offsets =>
  (getFdlWindow B c.fdl dev dtype).bind fun window =>
  (getLutIf B c dev dtype).bind fun lut =>
  .lift (accumulateImpl ⟨grid, offsets, window, lut⟩ c.fdl c.gran c.useLut c.chunkSize nSm nsample
    rirFlat sample amplitude)

/-- `_accumulate_rir_batch` as if no cache existed: every table is computed for this call. -/
noncomputable def accumulateUncached (B : Backend) (cfg : Config) (dev : Device) (dtype : DType)
    (nSm nsample : ℕ) (rirFlat : List ℝ) (sample amplitude : List (List ℝ)) :
    Except String (List ℝ) :=
  let useLut := cfg.useLut && dev.type ≠ .mps
  let fdl := cfg.fracDelayLength.toNat
  let gran := cfg.sincLutGranularity.toNat
  accumulateImpl ⟨B.grid fdl dev.str dtype, B.offsets fdl dev.str, B.window fdl dev.str dtype,
    if useLut then B.lut fdl gran dev.str dtype else []⟩
    fdl gran useLut cfg.accumulateChunkSize.toNat nSm nsample rirFlat sample amplitude

/-- The type of `_accumulate_rir_batch` in a computation context `m`. -/
abbrev Accumulate (m : Type → Type) :=
  Config → ℕ → ℕ → List ℝ → List (List ℝ) → List (List ℝ) → m (List ℝ)

/-- A computation context: how to sequence and how to embed pure computations that may raise. -/
structure Ctx (m : Type → Type) where
  bind : {α β : Type} → m α → (α → m β) → m β
  lift : {α : Type} → Except String α → m α

/-- No state. -/
def Ctx.pure : Ctx (Except String) := ⟨fun x f => x >>= f, fun x => x⟩

/-- With the caches. -/
def Ctx.cached : Ctx CacheM := ⟨CacheM.bind, CacheM.lift⟩

/-- The chunk loop `for start in range(...)` in a context. -/
def Ctx.loop {m : Type → Type} (C : Ctx m) (step : List ℝ → ℕ → m (List ℝ)) :
    List ℕ → List ℝ → m (List ℝ)
  | [], buf => C.lift (.ok buf)
  | i :: is, buf => C.bind (step buf i) fun buf' => C.loop step is buf'

/-- What `simulate_rir` has worked out before its loop (api.py 52-109). -/
structure StaticJob where
  cfg : Config
  tmax : Option ℝ
  nsample : ℕ
  srcPos : Tensor ℝ
  micPos : Tensor ℝ
  beta : List ℝ
  nVec : List (List ℤ)
  refl : List ℝ
  srcPattern : String
  micPattern : String
  srcDirs : Option (List Vec)
  micDir : Option MicDir

/-- `simulate_rir` up to the loop (api.py 52-109). -/
noncomputable def staticJob (room : Room) (sources mics : Entity) (a : SimArgs) :
    Except String StaticJob := do
  let (cfg, maxOrder, tmax, directivity) ← resolveConfig a
  let ns ← validateArgs room a.nsample tmax maxOrder
  let (srcPos, srcOri) ← prepareEntity sources a.orientation true
  let (micPos, micOri) ← prepareEntity mics a.orientation false
  ensureDim room.size
  let dim := room.size.length
  let srcPos := asPoints srcPos
  let micPos := asPoints micPos
  validatePosShapes srcPos micPos dim
  let beta ← resolveBeta room
  let nVec ← imageSourceIndices maxOrder dim a.nbImg
  let refl := reflectionCoefficients nVec beta
  let (srcPattern, micPattern) ← splitDirectivity directivity
  let micDir ← resolveMicDir micPattern micOri dim
  let srcDirs ← resolveSrcDirs srcPattern srcOri dim (srcPos.shape.getD 0 0)
  return ⟨cfg, tmax, ns.toNat, srcPos, micPos, beta, nVec, refl, srcPattern, micPattern, srcDirs,
    micDir⟩

/-- `simulate_rir` (api.py 33-133) with the accumulation as a parameter. -/
noncomputable def simulateRirIn {m : Type → Type} (C : Ctx m) (acc : Accumulate m) (w : World)
    (room : Room) (sources mics : Entity) (a : SimArgs) : m (Tensor ℝ) :=
  C.bind (C.lift (staticJob room sources mics a)) fun j =>
  let nSrc := j.srcPos.shape.getD 0 0
  let nMic := j.micPos.shape.getD 0 0
  let fdl2 := halfLen j.cfg.fracDelayLength.toNat
  let imgChunk := imageChunk j.cfg j.nVec.length
  C.bind (C.loop (fun buf start =>
      let stop := min (start + imgChunk) j.nVec.length
      C.bind (C.lift (contributionsBatch j.srcPos.rows j.micPos.rows room.size
        (slice start stop j.nVec) (slice start stop j.refl) room.c room.fs fdl2
        j.srcPattern j.micPattern j.srcDirs j.micDir)) fun chunk =>
      let rows := chunk.flatten
      acc j.cfg (nSrc * nMic) j.nsample buf (rows.map (·.map Prod.fst)) (rows.map (·.map Prod.snd)))
    (rangeStep j.nVec.length imgChunk) (List.replicate (nSrc * nMic * j.nsample) 0)) fun flat =>
  C.lift (do
    let rir ← diffuseStep w ⟨[nSrc, nMic, j.nsample], flat⟩ room j.beta a.tdiff j.tmax j.cfg.seed
    applyRirHpf w room.fs j.cfg rir)

/-- `simulate_dynamic_rir` up to the loop (api.py 155-212). -/
noncomputable def dynamicJob (room : Room) (srcTraj micTraj : Tensor ℝ) (a : SimArgs) :
    Except String StaticJob := do
  let (cfg, maxOrder, tmax, directivity) ← resolveConfig a
  let ns ← validateArgs room a.nsample tmax maxOrder
  let srcTraj := asTraj srcTraj
  let micTraj := asTraj micTraj
  let (srcOri, micOri) ← splitOrientation a.orientation
  ensureDim room.size
  let dim := room.size.length
  validateTrajShapes srcTraj micTraj dim
  let beta ← resolveBeta room
  let nVec ← imageSourceIndices maxOrder dim a.nbImg
  let refl := reflectionCoefficients nVec beta
  let (srcPattern, micPattern) ← splitDirectivity directivity
  let micDir ← resolveMicDir micPattern micOri dim
  let srcDirs ← resolveSrcDirs srcPattern srcOri dim (srcTraj.shape.getD 1 0)
  return ⟨cfg, tmax, ns.toNat, srcTraj, micTraj, beta, nVec, refl, srcPattern, micPattern, srcDirs,
    micDir⟩

/-- `simulate_dynamic_rir` (api.py 136-238) with the accumulation as a parameter. -/
noncomputable def simulateDynamicRirIn {m : Type → Type} (C : Ctx m) (acc : Accumulate m) (w : World)
    (room : Room) (srcTraj micTraj : Tensor ℝ) (a : SimArgs) : m (Tensor ℝ) :=
  C.bind (C.lift (dynamicJob room srcTraj micTraj a)) fun j =>
  let tSteps := j.srcPos.shape.getD 0 0
  let nSrc := j.srcPos.shape.getD 1 0
  let nMic := j.micPos.shape.getD 1 0
  let fdl2 := halfLen j.cfg.fracDelayLength.toNat
  let imgChunk := imageChunk j.cfg j.nVec.length
  C.bind (C.loop (fun buf start =>
      let stop := min (start + imgChunk) j.nVec.length
      C.bind (C.lift (contributionsTimeBatch j.srcPos.planes j.micPos.planes room.size
        (slice start stop j.nVec) (slice start stop j.refl) room.c room.fs fdl2
        j.srcPattern j.micPattern j.srcDirs j.micDir)) fun chunk =>
      let rows := chunk.flatten.flatten
      acc j.cfg (tSteps * nSrc * nMic) j.nsample buf (rows.map (·.map Prod.fst))
        (rows.map (·.map Prod.snd)))
    (rangeStep j.nVec.length imgChunk) (List.replicate (tSteps * nSrc * nMic * j.nsample) 0))
  fun flat => C.lift (applyRirHpf w room.fs j.cfg ⟨[tSteps, nSrc, nMic, j.nsample], flat⟩)

/-- A simulation call, as it may occur in the history of a process: static or dynamic, with any
arguments, on any device and with any dtype. -/
inductive Call where
  | static (w : World) (dev : Device) (dtype : DType) (room : Room) (sources mics : Entity) (a : SimArgs)
  | dynamic (w : World) (dev : Device) (dtype : DType) (room : Room) (srcTraj micTraj : Tensor ℝ)
      (a : SimArgs)

/-- A call with the caches. -/
noncomputable def Call.run (B : Backend) : Call → CacheM (Tensor ℝ)
  | .static w dev dtype room s m a =>
    simulateRirIn .cached (fun cfg => accumulateCached B cfg dev dtype) w room s m a
  | .dynamic w dev dtype room s m a =>
    simulateDynamicRirIn .cached (fun cfg => accumulateCached B cfg dev dtype) w room s m a

/-- The caches after a history of calls in a fresh process. -/
noncomputable def cachesAfter (B : Backend) (history : List Call) : Caches :=
  history.foldl (fun σ c => (c.run B σ).2) .empty

end Torchrir.Model
