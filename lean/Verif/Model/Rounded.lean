import Verif.Model.Ism

/-!
# The accumulation with inexact additions

The model in `Verif.Model.Accumulate` adds real numbers.  On a machine every addition of
`rir_flat.scatter_add_` (accumulate.py 94) is rounded, and on a GPU the entries of one call are
added in an order nobody controls.  Here both are parameters: an addition and, for every call of
`scatter_add_`, an order.  The values being added, and everything after the accumulation, stay
exact.
-/

namespace Torchrir.Model

/-- How a device adds into the buffer (accumulate.py 94): the addition itself, and the order in
which the entries of one `scatter_add_` are added.  A call is named by the first image of its
image chunk (api.py 111) and by the first image of its accumulation chunk (accumulate.py 64). -/
structure Adder where
  add : ℝ → ℝ → ℝ
  order : ℕ → ℕ → List (ℤ × ℝ) → List (ℤ × ℝ)

/-- The adder of `Verif.Model.Accumulate`. -/
def exactAdder : Adder := ⟨(· + ·), fun _ _ es => es⟩

/-- `buf.scatter_add_(0, idx, vals)` with the given addition (accumulate.py 94). -/
def scatterAddWith (add : ℝ → ℝ → ℝ) : List ℝ → List (ℤ × ℝ) → Except String (List ℝ)
  | buf, [] => .ok buf
  | buf, (i, v) :: rest =>
    if 0 ≤ i ∧ i < buf.length then
      scatterAddWith add (buf.set i.toNat (add (buf.getD i.toNat 0) v)) rest
    else .error "index out of bounds"

/-- One pass of the chunk loop (accumulate.py 64-94), see `accumulateChunk`; `tap` gives the flat
targets and values of one image (69-93). -/
def accumulateChunkTaps (add : ℝ → ℝ → ℝ) (order : List (ℤ × ℝ) → List (ℤ × ℝ))
    (tap : ℕ → ℤ → ℝ → ℝ → Except String (List (ℤ × ℝ)))
    (rirFlat : List ℝ) (idx : List (List ℤ)) (frac amp : List (List ℝ)) :
    Except String (List ℝ) := do
  let rows := (idx.zip (frac.zip amp)).zipIdx
  let entries ← rows.mapM fun ((is, fs, as), row) => do
    let es ← (is.zip (fs.zip as)).mapM fun (i, f, a) => tap row i f a
    return es.flatten
  let entries := entries.flatten
  if entries.isEmpty then return rirFlat
  scatterAddWith add rirFlat (order entries)

/-- The same with the exact taps. -/
noncomputable def accumulateChunkWith (add : ℝ → ℝ → ℝ) (order : List (ℤ × ℝ) → List (ℤ × ℝ))
    (tb : Tables) (fdl gran : ℕ) (useLut : Bool) (nsample : ℕ)
    (rirFlat : List ℝ) (idx : List (List ℤ)) (frac amp : List (List ℝ)) :
    Except String (List ℝ) :=
  accumulateChunkTaps add order (fun row i f a => tapEntries tb fdl gran useLut nsample row i f a)
    rirFlat idx frac amp

/-- `_accumulate_rir_batch_impl` (accumulate.py 28-94), see `accumulateImpl`; `sub` is the
subtraction of line 40. -/
noncomputable def accumulateImplTaps (add : ℝ → ℝ → ℝ)
    (order : ℕ → List (ℤ × ℝ) → List (ℤ × ℝ)) (sub : ℝ → ℝ → ℝ)
    (tap : ℕ → ℤ → ℝ → ℝ → Except String (List (ℤ × ℝ)))
    (chunkSize : ℕ) (nSm : ℕ) (rirFlat : List ℝ) (sample amplitude : List (List ℝ)) :
    Except String (List ℝ) := do
  if nSm = 0 then throw "RuntimeError: cannot reshape tensor of 0 elements"
  if chunkSize = 0 then throw "ValueError: range() arg 3 must not be zero"
  let idx0 := sample.map fun r => r.map fun x => ⌊x⌋
  let frac := List.zipWith (fun r is => List.zipWith (fun x (i : ℤ) => sub x (i : ℝ)) r is) sample idx0
  let nImg := (idx0.headD []).length
  (rangeStep nImg chunkSize).foldlM (fun buf start =>
    let stop := min (start + chunkSize) nImg
    accumulateChunkTaps add (order start) tap buf
      (idx0.map (slice start stop)) (frac.map (slice start stop))
      (amplitude.map (slice start stop))) rirFlat

/-- The same with the exact taps. -/
noncomputable def accumulateImplWith (add : ℝ → ℝ → ℝ)
    (order : ℕ → List (ℤ × ℝ) → List (ℤ × ℝ)) (tb : Tables) (fdl gran : ℕ) (useLut : Bool)
    (chunkSize : ℕ) (nSm nsample : ℕ) (rirFlat : List ℝ) (sample amplitude : List (List ℝ)) :
    Except String (List ℝ) :=
  accumulateImplTaps add order (fun x y => x - y)
    (fun row i f a => tapEntries tb fdl gran useLut nsample row i f a) chunkSize nSm rirFlat sample
    amplitude

/-- `_accumulate_rir_batch` (accumulate.py 20-25, 97-115), see `accumulateRirBatch`; `img` is the
first image of the image chunk. -/
noncomputable def accumulateRirBatchWith (ad : Adder) (img : ℕ) (cfg : Config) (dev : DeviceType)
    (nSm nsample : ℕ) (rirFlat : List ℝ) (sample amplitude : List (List ℝ)) :
    Except String (List ℝ) :=
  let useLut := cfg.useLut && dev ≠ .mps
  let fdl := cfg.fracDelayLength.toNat
  let gran := cfg.sincLutGranularity.toNat
  accumulateImplWith ad.add (ad.order img) (freshTables fdl gran) fdl gran useLut
    cfg.accumulateChunkSize.toNat nSm nsample rirFlat sample amplitude

/-- `simulate_rir` (api.py 33-133) on a device with the given adder, see `simulateRir`. -/
noncomputable def simulateRirWith (ad : Adder) (w : World) (room : Room) (sources mics : Entity)
    (a : SimArgs) : Except String (Tensor ℝ) := do
  let (cfg, maxOrder, tmax, directivity) ← resolveConfig a
  let ns ← validateArgs room a.nsample tmax maxOrder
  let nsample := ns.toNat
  let (srcPos, srcOri) ← prepareEntity sources a.orientation true
  let (micPos, micOri) ← prepareEntity mics a.orientation false
  ensureDim room.size
  let dim := room.size.length
  let srcPos := asPoints srcPos
  let micPos := asPoints micPos
  validatePosShapes srcPos micPos dim
  let beta ← resolveBeta room
  let nVec ← imageSourceIndices maxOrder dim a.nbImg
  let refl := reflectionCoefficients nVec beta
  let (srcPattern, micPattern) ← splitDirectivity directivity
  let micDir ← resolveMicDir micPattern micOri dim
  let nSrc := srcPos.shape.getD 0 0
  let nMic := micPos.shape.getD 0 0
  let fdl2 := halfLen cfg.fracDelayLength.toNat
  let imgChunk := imageChunk cfg nVec.length
  let srcDirs ← resolveSrcDirs srcPattern srcOri dim nSrc
  let flat ← (rangeStep nVec.length imgChunk).foldlM (fun buf start => do
    let stop := min (start + imgChunk) nVec.length
    let chunk ← contributionsBatch srcPos.rows micPos.rows room.size
      (slice start stop nVec) (slice start stop refl) room.c room.fs fdl2
      srcPattern micPattern srcDirs micDir
    let rows := chunk.flatten
    accumulateRirBatchWith ad start cfg w.device (nSrc * nMic) nsample buf
      (rows.map (·.map Prod.fst)) (rows.map (·.map Prod.snd)))
    (List.replicate (nSrc * nMic * nsample) 0)
  let rir : Tensor ℝ := ⟨[nSrc, nMic, nsample], flat⟩
  let rir ← diffuseStep w rir room beta a.tdiff tmax cfg.seed
  applyRirHpf w room.fs cfg rir

/-- `simulate_dynamic_rir` (api.py 136-238) on a device with the given adder, see
`simulateDynamicRir`. -/
noncomputable def simulateDynamicRirWith (ad : Adder) (w : World) (room : Room)
    (srcTraj micTraj : Tensor ℝ) (a : SimArgs) : Except String (Tensor ℝ) := do
  let (cfg, maxOrder, tmax, directivity) ← resolveConfig a
  let ns ← validateArgs room a.nsample tmax maxOrder
  let nsample := ns.toNat
  let srcTraj := asTraj srcTraj
  let micTraj := asTraj micTraj
  let (srcOri, micOri) ← splitOrientation a.orientation
  ensureDim room.size
  let dim := room.size.length
  validateTrajShapes srcTraj micTraj dim
  let beta ← resolveBeta room
  let nVec ← imageSourceIndices maxOrder dim a.nbImg
  let refl := reflectionCoefficients nVec beta
  let (srcPattern, micPattern) ← splitDirectivity directivity
  let micDir ← resolveMicDir micPattern micOri dim
  let tSteps := srcTraj.shape.getD 0 0
  let nSrc := srcTraj.shape.getD 1 0
  let nMic := micTraj.shape.getD 1 0
  let fdl2 := halfLen cfg.fracDelayLength.toNat
  let imgChunk := imageChunk cfg nVec.length
  let srcDirs ← resolveSrcDirs srcPattern srcOri dim nSrc
  let flat ← (rangeStep nVec.length imgChunk).foldlM (fun buf start => do
    let stop := min (start + imgChunk) nVec.length
    let chunk ← contributionsTimeBatch srcTraj.planes micTraj.planes room.size
      (slice start stop nVec) (slice start stop refl) room.c room.fs fdl2
      srcPattern micPattern srcDirs micDir
    let rows := chunk.flatten.flatten
    accumulateRirBatchWith ad start cfg w.device (tSteps * nSrc * nMic) nsample buf
      (rows.map (·.map Prod.fst)) (rows.map (·.map Prod.snd)))
    (List.replicate (tSteps * nSrc * nMic * nsample) 0)
  applyRirHpf w room.fs cfg ⟨[tSteps, nSrc, nMic, nsample], flat⟩

end Torchrir.Model
