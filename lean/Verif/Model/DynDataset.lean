import Verif.Model.CliScene
import Verif.Model.Audio

/-!
# The script that builds a small dynamic dataset

Model of `examples/build_dynamic_dataset.py`: microphones, random motion, simulation, mixture and reference
signals, and the audio files of every scene. Loading the signals is a parameter (`Model/Sources.lean` models it);
plots, metadata, attribution and logging are left out.

A random generator is what its `k`-th operation returns, depending on the kind of operation. `num_sources` is a
natural number (a negative one already fails while loading).
-/

namespace Torchrir.Model

/-- A generator `random.Random(seed)`: the value of the `k`-th operation if it is `random()`, whether it picks
`"zigzag"` if it is `choice(["linear", "zigzag"])`, and what it returns if it is `sample(range(n), m)`. -/
structure Gen where
  value : ℕ → ℝ
  zigzag : ℕ → Bool
  subset : ℕ → ℕ → ℕ → List ℕ

/-- `sampling.sample_positions_with_z_range(num=1, room_size, rng).squeeze(0)`
(build_dynamic_dataset.py 133-135, 139-144). -/
noncomputable def drawTarget (g : Gen) (size : Vec) (k : ℕ) : Except String (Vec × ℕ) := do
  let (ps, k) ← samplePositionsZ g.value 1 size 1.5 1.8 0.5 k
  return (ps.headD [], k)

/-- The zigzag branch of `_random_trajectory` (build_dynamic_dataset.py 138-149). -/
noncomputable def zigzagTrajectory (g : Gen) (start size : Vec) (steps : ℤ) (k : ℕ) :
    Except String (List Vec × String × ℕ) := do
  let (mid, k) ← drawTarget g size k
  let (stop, k) ← drawTarget g size k
  let split := max 2 (steps / 2)
  let first ← linearTrajectory start mid split
  let second ← linearTrajectory mid stop (steps - split + 1)
  return (first.dropLast ++ second, "zigzag", k)

/-- The linear branch of `_random_trajectory` (build_dynamic_dataset.py 131-137). -/
noncomputable def straightTrajectory (g : Gen) (start size : Vec) (steps : ℤ) (k : ℕ) :
    Except String (List Vec × String × ℕ) := do
  let (stop, k) ← drawTarget g size k
  let traj ← linearTrajectory start stop steps
  return (traj, "linear", k)

/-- `_random_trajectory` (build_dynamic_dataset.py 122-149). -/
noncomputable def randomTrajectory (g : Gen) (start size : Vec) (steps : ℤ) (k : ℕ) :
    Except String (List Vec × String × ℕ) :=
  if g.zigzag k then zigzagTrajectory g start size steps (k + 1)
  else straightTrajectory g start size steps (k + 1)

/-- The body of `for idx in range(num_sources)` (build_dynamic_dataset.py 175-185). -/
noncomputable def sourceMotion (g : Gen) (size : Vec) (steps : ℤ) (moving : List ℕ) (start : Vec) (idx k : ℕ) :
    Except String (List Vec × String × ℕ) :=
  if idx ∈ moving then randomTrajectory g start size steps k
  else .ok (List.replicate steps.toNat start, "static", k)

/-- The loop over the sources (build_dynamic_dataset.py 175-187). -/
noncomputable def sourceMotions (g : Gen) (size : Vec) (steps : ℤ) (moving : List ℕ) :
    List Vec → ℕ → ℕ → Except String (List (List Vec) × List String)
  | [], _, _ => .ok ([], [])
  | start :: rest, idx, k => do
    let (traj, mode, k) ← sourceMotion g size steps moving start idx k
    let (trajs, modes) ← sourceMotions g size steps moving rest (idx + 1) k
    return (traj :: trajs, mode :: modes)

/-- `moving_indices` and the number of operations afterwards (build_dynamic_dataset.py 169-172). -/
def chooseMoving (g : Gen) (numSources : ℕ) (numMoving : ℤ) (k : ℕ) : List ℕ × ℕ :=
  let count := max 0 (min (numSources : ℤ) numMoving)
  if 0 < count then (g.subset k numSources count.toNat, k + 1) else ([], k)

/-- `_build_source_trajectories` (build_dynamic_dataset.py 152-191): `src_traj`, `modes` and the sorted indices. -/
noncomputable def buildSourceTrajectories (g : Gen) (numSources : ℕ) (numMoving : ℤ) (size center : Vec) (steps : ℤ)
    (k : ℕ) : Except String (List (List Vec) × List String × List ℕ) := do
  let (starts, k) ← drawTalkers g.value numSources size center k
  let (moving, k) := chooseMoving g numSources numMoving k
  let (trajs, modes) ← sourceMotions g size steps moving starts 0 k
  raiseIf (trajs = []) "stack expects a non-empty TensorList"
  return ((stackSecond steps.toNat trajs).map (clampTo size), modes, moving.mergeSort (· ≤ ·))

/-- The microphones around their centre (build_dynamic_dataset.py 311-316). -/
noncomputable def datasetArray (center : Vec) (numMics : ℤ) : Except String (List Vec) :=
  if numMics = 2 then binauralArray ⟨.floating, center⟩ 0.08
  else linearArray ⟨.floating, center⟩ numMics 0.08 0

/-- The microphones of all scenes (build_dynamic_dataset.py 309-317). -/
noncomputable def datasetMics (size center : Vec) (numMics : ℤ) : Except String (List Vec) := do
  raiseIf (numMics ≤ 0) "num_mics must be positive"
  let mics ← datasetArray center numMics
  return clampTo size mics

/-- `signals[src_idx]` (build_dynamic_dataset.py 408). -/
def signalOf (signals : Tensor ℝ) (s : ℕ) : Tensor ℝ := ⟨signals.shape.tail, signals.rows.getD s []⟩

/-- `rirs[:, src_idx : src_idx + 1]` (build_dynamic_dataset.py 408). -/
def rirsOf (rirs : Tensor ℝ) (s : ℕ) : Tensor ℝ :=
  match rirs.shape with
  | [t, _, m, n] => ⟨[t, 1, m, n], rirs.blocks.flatMap fun b => (slice s (s + 1) b).flatten.flatten⟩
  | _ => rirs

/-- The mixture and the reference signals (build_dynamic_dataset.py 402-408). -/
noncomputable def sceneAudio (dev : DeviceType) (numSources : ℕ) (signals rirs : Tensor ℝ) :
    Except String (Tensor ℝ × List (Tensor ℝ)) := do
  let y ← ({} : Convolver).convolve dev signals rirs
  let refs ← (List.range numSources).mapM fun s =>
    ({} : Convolver).convolve dev (signalOf signals s) (rirsOf rirs s)
  return (y, refs)

/-- `f"{n:0{width}d}"`. -/
def zeroPadded (width n : ℕ) : String :=
  String.ofList (List.replicate (width - (toString n).length) '0') ++ toString n

/-- The name of a reference file (build_dynamic_dataset.py 409). -/
def refName (idx s : ℕ) : String := "scene_" ++ zeroPadded 3 idx ++ "_ref" ++ zeroPadded 2 (s + 1) ++ ".wav"

/-- The name of the mixture file (build_dynamic_dataset.py 433). -/
def mixName (idx : ℕ) : String := "scene_" ++ zeroPadded 3 idx ++ ".wav"

/-- The files of a scene in the order they are written (build_dynamic_dataset.py 405-435); `save_scene_audio` calls
`save` with its defaults, so that every file is brought to a peak of 1. -/
noncomputable def sceneFiles (idx : ℕ) (y : Tensor ℝ) (refs : List (Tensor ℝ)) :
    Except String (List (String × AudioFile)) := do
  let refFiles ← refs.zipIdx.mapM fun p => do
    let f ← saveAudio p.1
    return (refName idx p.2, f)
  let mix ← saveAudio y
  return refFiles ++ [(mixName idx, mix)]

/-- The arguments the scenes depend on (build_dynamic_dataset.py 195-283). -/
structure DatasetArgs where
  room : Vec
  numScenes : ℕ := 4
  numSources : ℕ := 2
  numMoving : ℤ := 1
  numMics : ℤ := 2
  seed : ℤ := 0
  steps : ℤ := 64
  order : ℤ := 6
  tmax : ℝ := 0.4

/-- What a scene consists of. -/
structure DatasetScene where
  srcTraj : List (List Vec)
  micTraj : List (List Vec)
  modes : List String
  moving : List ℕ
  rirs : Tensor ℝ
  mixture : Tensor ℝ
  references : List (Tensor ℝ)
  files : List (String × AudioFile)

/-- One pass of the loop over the scenes (build_dynamic_dataset.py 333-464). `load g` are the signals loaded with the
generator `g` and the number of operations this took. -/
noncomputable def datasetScene (w : World) (room : Room) (a : DatasetArgs) (gen : ℤ → Gen)
    (load : Gen → Except String (Tensor ℝ × ℕ)) (center : Vec) (mics : List Vec) (idx : ℕ) :
    Except String DatasetScene := do
  let g := gen (a.seed + idx)
  let (signals, k) ← load g
  let steps := max 2 a.steps
  let (srcTraj, modes, moving) ← buildSourceTrajectories g a.numSources a.numMoving a.room center steps k
  let micTraj := List.replicate steps.toNat mics
  let rirs ← simulateDynamicRir w room (trajTensor srcTraj) (trajTensor micTraj)
    { maxOrder := some a.order, tmax := some a.tmax }
  let (y, refs) ← sceneAudio w.device a.numSources signals rirs
  let files ← sceneFiles idx y refs
  return ⟨srcTraj, micTraj, modes, moving, rirs, y, refs, files⟩

/-- The loop over the scenes: it stops at the first exception. The scenes finished so far, and the exception. -/
noncomputable def datasetLoop (scene : ℕ → Except String DatasetScene) :
    List ℕ → List DatasetScene × Option String
  | [] => ([], none)
  | idx :: rest =>
    match scene idx with
    | .error e => ([], some e)
    | .ok s => (s :: (datasetLoop scene rest).1, (datasetLoop scene rest).2)

/-- The script after the arguments are parsed (build_dynamic_dataset.py 298-464): the microphones, the finished
scenes and the exception that ended the loop, if any. -/
noncomputable def dynDataset (conv : Flt → ℤ) (w : World) (a : DatasetArgs) (gen : ℤ → Gen)
    (load : Gen → Except String (Tensor ℝ × ℕ)) :
    Except String (List Vec × List DatasetScene × Option String) := do
  let room ← cliRoom conv { room := a.room, numSources := a.numSources } 16000
  let center := (drawCenter (gen a.seed).value a.room 0).1
  let mics ← datasetMics a.room center a.numMics
  return (mics, datasetLoop (datasetScene w room a gen load center mics) (List.range a.numScenes))

end Torchrir.Model
