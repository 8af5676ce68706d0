import Verif.Model.DynDataset

/-!
# The getting-started example

Model of `examples/getting_started.py` from the loaded signals to the audio files: the jittered microphones, the two
sources, the assertions, the standing and the moving scene, and the files. Loading the signals
(`Model/Sources.lean`), the device, printing, plots and the animation are left out. Positions are real numbers instead
of 32 bit floats.
-/

namespace Torchrir.Model

/-- The centre of the room plus a jitter of `rng.uniform` (getting_started.py 64-77); `k` values of the generator were
drawn while loading. -/
noncomputable def startCenter (r : ℕ → ℝ) (k : ℕ) : Vec :=
  vadd (([8, 6, 3] : Vec).map (· / 2))
    [uniform (-0.03) 0.03 (r k), uniform (-0.03) 0.03 (r (k + 1)), uniform (-0.01) 0.01 (r (k + 2))]

/-- The position of the source at the angle `deg` (getting_started.py 85-93). -/
noncomputable def startSource (center : Vec) (deg : ℝ) : Vec :=
  let theta := deg * (Real.pi / 180)
  [center.getD 0 0 + 2.2 * Real.cos theta, center.getD 1 0 + 2.2 * Real.sin theta, 1.5]

/-- The standing scene with its two assertions (getting_started.py 64-102). -/
noncomputable def startStatic (center : Vec) : Except String CliScene := do
  let mics ← binauralArray ⟨.floating, center⟩ 0.10
  let sources := ([30, 150] : List ℝ).map (startSource center)
  raiseIf (¬ ∀ p ∈ sources, 2 ≤ norm2 (vsub (p.take 2) (center.take 2))) "AssertionError"
  raiseIf (¬ (30 : ℝ) ≤ |150 - 30|) "AssertionError"
  return { sources := sources, mics := mics }

/-- The positions of the sources at every step (getting_started.py 170-179). -/
noncomputable def startTraj (steps : ℕ) (sources : List Vec) : List (List Vec) :=
  let src0 := List.replicate steps (sources.getD 0 [])
  let start := sources.getD 1 []
  let stop := vadd (sources.getD 0 []) [0.35, 0.10, 0]
  let src1 := (linspace 0 1 steps).map fun alpha => vadd start (vscale alpha (vsub stop start))
  List.zipWith (fun p q => [p, q]) src0 src1

/-- The distance of the sources at one step (getting_started.py 183-184). -/
noncomputable def sourceGap (ps : List Vec) : ℝ := norm2 (vsub (ps.getD 1 []) (ps.getD 0 []))

/-- The moving scene with its assertion (getting_started.py 170-185). -/
noncomputable def startDynamic (sc : CliScene) : Except String CliScene := do
  let traj := startTraj 128 sc.sources
  raiseIf (¬ sourceGap (traj.getLastD []) < sourceGap (traj.headD [])) "AssertionError"
  return { sources := traj.headD [], mics := sc.mics, trajs := some (traj, List.replicate 128 sc.mics) }

/-- The three files of one half of the script (getting_started.py 127-129, 207-209). -/
noncomputable def startFiles (pre : String) (signals y : Tensor ℝ) : Except String (List (String × AudioFile)) := do
  let f1 ← saveAudio (signalOf signals 0)
  let f2 ← saveAudio (signalOf signals 1)
  let f3 ← saveAudio y
  return [(pre ++ "_original_src01.wav", f1), (pre ++ "_original_src02.wav", f2), (pre ++ "_convolved.wav", f3)]

/-- The settings of both simulations (getting_started.py 64, 109-117, 187-195). -/
noncomputable def startArgs : CliArgs where
  room := [8, 6, 3]
  numSources := 2
  order := 6
  tmax := 0.4

/-- One half of the script: the scene, its responses, the convolved audio, and the files. -/
structure StartHalf where
  scene : CliScene
  rirs : Tensor ℝ
  audio : Tensor ℝ
  files : List (String × AudioFile)

/-- Simulation, convolution and files of one scene (getting_started.py 109-129, 187-209). -/
noncomputable def startHalf (w : World) (room : Room) (signals : Tensor ℝ) (pre : String) (sc : CliScene) :
    Except String StartHalf := do
  let (rirs, y) ← renderScene w room startArgs signals sc
  let files ← startFiles pre signals y
  return ⟨sc, rirs, y, files⟩

/-- The script from the loaded signals to the files (getting_started.py 64-209): the standing half, then the moving
half. -/
noncomputable def gettingStarted (conv : Flt → ℤ) (w : World) (r : ℕ → ℝ) (k : ℕ) (signals : Tensor ℝ) (fs : ℝ) :
    Except String (StartHalf × StartHalf) := do
  let room ← cliRoom conv startArgs fs
  let sc ← startStatic (startCenter r k)
  let standing ← startHalf w room signals "static" sc
  let sc' ← startDynamic sc
  let moving ← startHalf w room signals "dynamic" sc'
  return (standing, moving)

end Torchrir.Model
