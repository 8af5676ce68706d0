import Verif.Model.Sampling
import Verif.Model.Room
import Verif.Model.Signal

/-!
# The scenarios of the command line program

Model of `_run_static`, `_run_dynamic_src` and `_run_dynamic_mic` of `examples/cli.py` from the loaded
signals to the audio: the room, the random placement, the simulation and the convolution. Loading the
signals (`Model/Sources.lean`), the device, plots, metadata and attribution are separate.
-/

namespace Torchrir.Model

/-- The arguments the scenarios look at (cli.py 209-285). -/
structure CliArgs where
  mode : String := "static"
  room : Vec
  numSources : ℕ
  steps : ℤ := 16
  order : ℤ := 8
  tmax : ℝ := 0.4

/-- The placement of a scenario: `sources`, `mics`, and `src_traj`, `mic_traj` if there are any, each a
list over the time steps. -/
structure CliScene where
  sources : List Vec
  mics : List Vec
  trajs : Option (List (List Vec) × List (List Vec)) := none

/-- `sampling.sample_positions(num=1, room_size, rng).squeeze(0)` (cli.py 302-304, 393-395, 502-507). -/
noncomputable def drawCenter (r : ℕ → ℝ) (size : Vec) (k : ℕ) : Vec × ℕ :=
  let (ps, k) := samplePositions r 1 size 0.5 k
  (ps.headD [], k)

/-- `sampling.sample_positions_min_distance(num, room_size, rng, center, min_distance=1.5)`
(cli.py 305-311, 399-405, 508-514). -/
noncomputable def drawTalkers (r : ℕ → ℝ) (num : ℕ) (size center : Vec) (k : ℕ) :
    Except String (List Vec × ℕ) :=
  samplePositionsMinDistance r num size center 1.5 (some (1.5, 1.8)) 0.5 1000 k

/-- `arrays.binaural_array(center)` (cli.py 312, 396, 519). -/
noncomputable def ears (center : Vec) : Except String (List Vec) :=
  binauralArray ⟨.floating, center⟩ 0.08

/-- `sampling.clamp_positions(_, room_size)` (cli.py 312, 396, 416, 521). -/
noncomputable def clampTo (size : Vec) (ps : List Vec) : List Vec :=
  clampPositions ps ⟨.floating, size⟩

/-- `torch.stack([...], dim=1)` of trajectories of `steps` points (cli.py 409-415). -/
def stackSecond (steps : ℕ) (trajs : List (List Vec)) : List (List Vec) :=
  (List.range steps).map fun t => trajs.map fun tr => tr.getD t []

/-- The placement of `_run_static` (cli.py 301-315). -/
noncomputable def placeStatic (r : ℕ → ℝ) (a : CliArgs) (k : ℕ) : Except String CliScene := do
  let (center, k) := drawCenter r a.room k
  let (sources, _) ← drawTalkers r a.numSources a.room center k
  let mics ← ears center
  return { sources := sources, mics := clampTo a.room mics }

/-- The placement of `_run_dynamic_src` (cli.py 391-419); `torch.stack` rejects an empty list. -/
noncomputable def placeDynamicSrc (r : ℕ → ℝ) (a : CliArgs) (k : ℕ) : Except String CliScene := do
  let steps := max 2 a.steps
  let (center, k) := drawCenter r a.room k
  let mics ← ears center
  let mics := clampTo a.room mics
  let (start, k) ← drawTalkers r a.numSources a.room center k
  let (stop, _) ← samplePositionsZ r a.numSources a.room 1.5 1.8 0.5 k
  let trajs ← (List.range a.numSources).mapM fun i =>
    linearTrajectory (start.getD i []) (stop.getD i []) steps
  raiseIf (trajs = []) "stack expects a non-empty TensorList"
  return { sources := start, mics := mics
           trajs := some ((stackSecond steps.toNat trajs).map (clampTo a.room),
             List.replicate steps.toNat mics) }

/-- The placement of `_run_dynamic_mic` (cli.py 500-526). -/
noncomputable def placeDynamicMic (r : ℕ → ℝ) (a : CliArgs) (k : ℕ) : Except String CliScene := do
  let steps := max 2 a.steps
  let (centerStart, k) := drawCenter r a.room k
  let (centerStop, k) := drawCenter r a.room k
  let (sources, _) ← drawTalkers r a.numSources a.room centerStart k
  let centers ← linearTrajectory centerStart centerStop steps
  let micTraj ← centers.mapM ears
  let micTraj := micTraj.map (clampTo a.room)
  return { sources := sources, mics := micTraj.headD []
           trajs := some (List.replicate steps.toNat sources, micTraj) }

/-- The choice of the scenario (cli.py 612-619). -/
noncomputable def placeScene (r : ℕ → ℝ) (a : CliArgs) (k : ℕ) : Except String CliScene :=
  if a.mode = "static" then placeStatic r a k
  else if a.mode = "dynamic_src" then placeDynamicSrc r a k
  else if a.mode = "dynamic_mic" then placeDynamicMic r a k
  else .error "unknown mode"

/-- `Room.shoebox(size=args.room, fs=fs, beta=[0.9] * (6 if len(args.room) == 3 else 4))`
(cli.py 296-298, 386-388, 495-497), as the simulation sees it. -/
noncomputable def cliRoom (conv : Flt → ℤ) (a : CliArgs) (fs : ℝ) : Except String Room := do
  let room ← shoebox conv (a.room.map fun x => .float (.fin x)) (.fin fs)
    (beta := some (List.replicate (if a.room.length = 3 then 6 else 4) (.float (.fin 0.9))))
  return room.toRoom

/-- The tensor of a list of positions. -/
def pointsTensor (ps : List Vec) : Tensor ℝ := ⟨[ps.length, (ps.headD []).length], ps.flatten⟩

/-- The tensor of a list of lists of positions. -/
def trajTensor (ps : List (List Vec)) : Tensor ℝ :=
  ⟨[ps.length, (ps.headD []).length, ((ps.headD []).headD []).length], ps.flatten.flatten⟩

/-- Simulation and convolution (cli.py 332-342, 444-452, 551-559): the responses and the audio. -/
noncomputable def renderScene (w : World) (room : Room) (a : CliArgs) (signals : Tensor ℝ)
    (sc : CliScene) : Except String (Tensor ℝ × Tensor ℝ) :=
  let args : SimArgs := { maxOrder := some a.order, tmax := some a.tmax }
  match sc.trajs with
  | none => do
    let rirs ← simulateRir w room ⟨pointsTensor sc.sources, none⟩ ⟨pointsTensor sc.mics, none⟩ args
    let y ← convolveRir signals rirs
    return (rirs, y)
  | some (src, mic) => do
    let rirs ← simulateDynamicRir w room (trajTensor src) (trajTensor mic) args
    let y ← ({} : Convolver).convolve w.device signals rirs
    return (rirs, y)

/-- A scenario from the loaded signals to the audio (cli.py 288-342, 378-452, 487-559): the placement, the
responses and the audio. `k` values of the generator were drawn while loading. -/
noncomputable def runScene (conv : Flt → ℤ) (w : World) (r : ℕ → ℝ) (a : CliArgs) (signals : Tensor ℝ)
    (fs : ℝ) (k : ℕ) : Except String (CliScene × Tensor ℝ × Tensor ℝ) := do
  let room ← cliRoom conv a fs
  let sc ← placeScene r a k
  let (rirs, y) ← renderScene w room a signals sc
  return (sc, rirs, y)

end Torchrir.Model
