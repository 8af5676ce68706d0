import Verif.Model.Arrays
import Verif.Model.Sources
import Mathlib.Analysis.SpecialFunctions.Trigonometric.Basic

/-!
# The dynamic CMU ARCTIC dataset builder

Model of `src/torchrir/datasets/dynamic_cmu_arctic.py` (57-352, 407-760). Random numbers are adversarial:
the values of the generator are parameters, `uniformDraw a b u` with `u ∈ [0, 1]` is what `rng.uniform(a, b)`
returns. Arithmetic is exact. Loading of signals, RIR simulation and convolution are parameters (they have
their own models); pictures, videos, metadata and logging are left out.
-/

namespace Torchrir.Model

/-- A triple of coordinates. -/
structure P3 where
  x : ℝ
  y : ℝ
  z : ℝ

/-- `_as_triplet` (57-61). -/
def asTriplet (v : List ℝ) : Except String P3 :=
  match v with
  | [x, y, z] => .ok ⟨x, y, z⟩
  | _ => .error "must have shape (3,)"

/-- `rng.uniform(a, b)` for the raw value `u` of the generator. -/
def uniformDraw (a b u : ℝ) : ℝ := a + (b - a) * u

/-- The box sources may be in (73-75, 111-114, 146-147, 231-233). -/
structure Area where
  xmin : ℝ
  xmax : ℝ
  ymin : ℝ
  ymax : ℝ
  zmin : ℝ
  zmax : ℝ

/-- The area inside the margins. -/
noncomputable def areaOf (room margin : P3) : Area :=
  ⟨margin.x, room.x - margin.x, margin.y, room.y - margin.y, margin.z, room.z - margin.z⟩

open Classical in
/-- `_sample_random_mic_center` (64-101). -/
noncomputable def sampleMicCenter (u : P3) (room margin : P3) (minDistance radius : ℝ) : Except String P3 :=
  let a := areaOf room margin
  let lowX := max radius (a.xmin + minDistance)
  let lowY := max radius (a.ymin + minDistance)
  let highX := min (room.x - radius) (a.xmax - minDistance)
  let highY := min (room.y - radius) (a.ymax - minDistance)
  let lowZ := radius
  let highZ := room.z - radius
  if (highX ≤ lowX ∨ highY ≤ lowY) ∨ highZ ≤ lowZ then .error "No feasible mic-center sampling range"
  else .ok ⟨uniformDraw lowX highX u.x, uniformDraw lowY highY u.y, uniformDraw lowZ highZ u.z⟩

open Classical in
/-- The bound one axis puts on the radius, given the direction cosine `c` (121-133): `none` if the axis puts
no bound, an error for `return -1.0`. -/
noncomputable def axisBound (c p lo hi : ℝ) : Except String (Option ℝ) :=
  if c > 1e-9 then .ok (some ((hi - p) / c))
  else if c < -1e-9 then .ok (some ((lo - p) / c))
  else if p < lo ∨ p > hi then .error "outside"
  else .ok none

/-- `_max_radius_for_azimuth` (104-137). -/
noncomputable def maxRadiusForAzimuth (azimuth : ℝ) (center room margin : P3) : ℝ :=
  let a := areaOf room margin
  match axisBound (Real.cos azimuth) center.x a.xmin a.xmax with
  | .error _ => -1
  | .ok bx =>
    match axisBound (Real.sin azimuth) center.y a.ymin a.ymax with
    | .error _ => -1
    | .ok byy =>
      match bx, byy with
      | none, none => -1
      | some r, none => r
      | none, some r => r
      | some r, some r' => min r r'

open Classical in
/-- `_sample_position_on_azimuth` (140-174), with the raw values `ur`, `uz`. -/
noncomputable def samplePosition (ur uz azimuth : ℝ) (center room margin : P3) (minRadius : ℝ)
    (maxRadius : Option ℝ) : Except String P3 :=
  let a := areaOf room margin
  if a.zmax ≤ a.zmin then .error "Room is too small for the configured z-margin"
  else
    let r0 := maxRadiusForAzimuth azimuth center room margin
    let rMax := match maxRadius with
      | none => r0
      | some m => min r0 m
    if rMax < minRadius then .error "No feasible source radius for azimuth"
    else
      let radius := uniformDraw minRadius rMax ur
      .ok ⟨center.x + radius * Real.cos azimuth, center.y + radius * Real.sin azimuth,
        uniformDraw a.zmin a.zmax uz⟩

/-- The raw random values of one placement trial, per source where drawn per source (245-281). -/
structure TrialDraws where
  base : ℝ
  slots : List ℕ
  radius : ℕ → ℝ
  height : ℕ → ℝ
  speed : ℕ → ℝ
  turn : ℕ → Bool

/-- What the placement returns for one source (294-303). -/
structure Placed where
  start : P3
  stop : P3
  startAzimuth : ℝ
  endAzimuth : ℝ
  velocity : ℝ
  angularVelocity : ℝ
  turn : ℤ

/-- The horizontal distance of a position from the centre (276, 342). -/
noncomputable def horizontalDistance (p center : P3) : ℝ :=
  Real.sqrt ((p.x - center.x) ^ 2 + (p.y - center.y) ^ 2)

open Classical in
/-- The body of `for src_idx in moving_indices` (274-293). -/
noncomputable def moveSource (uspeed : ℝ) (uturn : Bool) (start : P3) (startAzimuth : ℝ) (center : P3)
    (a : Area) (moveDuration speedMin speedMax minRadius : ℝ) : Except String Placed :=
  let velocity := uniformDraw speedMin speedMax uspeed
  let radius := horizontalDistance start center
  if radius < minRadius then .error "Sampled source radius is smaller than min_radius_m."
  else if radius ≤ 1e-9 then .error "Invalid radius for moving source."
  else
    let direction : ℤ := if uturn then 1 else -1
    let angular := direction * velocity / radius
    let endAzimuth := startAzimuth + angular * moveDuration
    let stop : P3 := ⟨center.x + radius * Real.cos endAzimuth, center.y + radius * Real.sin endAzimuth,
      start.z⟩
    if ¬ ((a.xmin ≤ stop.x ∧ stop.x ≤ a.xmax) ∧ (a.ymin ≤ stop.y ∧ stop.y ≤ a.ymax)) then
      .error "Arc endpoint is outside the allowed room area."
    else .ok ⟨start, stop, startAzimuth, endAzimuth, velocity, angular, direction⟩

/-- One trial (244-303). The arrays of the code are one list of records here, and the values of a source
depend only on its own draws, so the two loops of the code (starts of all sources, then the moving
ones) are two passes over the sources. -/
noncomputable def placeOnce (d : TrialDraws) (room center margin : P3) (n : ℕ) (moving : List ℕ)
    (moveDuration speedMin speedMax minRadius maxUniformRadius : ℝ) : Except String (List Placed) := do
  let azimuth := fun i : ℕ => d.base * (2 * Real.pi) + (d.slots.getD i 0 : ℝ) * (2 * Real.pi / n)
  let starts ← (List.range n).mapM fun i =>
    samplePosition (d.radius i) (d.height i) (azimuth i) center room margin minRadius
      (if i ∈ moving then some maxUniformRadius else none)
  (List.range n).mapM fun i =>
    let start := starts.getD i ⟨0, 0, 0⟩
    if i ∈ moving then
      moveSource (d.speed i) (d.turn i) start (azimuth i) center (areaOf room margin) moveDuration speedMin
        speedMax minRadius
    else .ok ⟨start, start, azimuth i, azimuth i, 0, 0, 0⟩

/-- `for _ in range(max_trials): try … except ValueError: continue` (244-305). -/
noncomputable def tryPlace (trial : TrialDraws → Except String (List Placed)) (draws : ℕ → TrialDraws) :
    ℕ → ℕ → Except String (List Placed)
  | 0, _ => .error "Failed to place constrained source positions."
  | left + 1, k =>
    match trial (draws k) with
    | .ok p => .ok p
    | .error _ => tryPlace trial draws left (k + 1)

/-- `max_uniform_radius` (235). -/
noncomputable def maxUniformRadius (center : P3) (a : Area) : ℝ :=
  min (min (min (center.x - a.xmin) (a.xmax - center.x)) (center.y - a.ymin)) (a.ymax - center.y)

/-- The motion arguments of a scene. -/
structure Motion where
  nSources : ℤ
  nMoving : ℤ
  duration : ℝ
  startRatio : ℝ
  endRatio : ℝ
  speedMin : ℝ
  speedMax : ℝ

open Classical in
/-- `_build_constrained_source_positions` (177-313), after which the sources come with the moving indices.
`choice` is what `rng.choice` returns. -/
noncomputable def placeSources (draws : ℕ → TrialDraws) (choice : List ℕ) (room center margin : P3)
    (m : Motion) (minRadius : ℝ := 1.5) (maxTrials : ℕ := 100) : Except String (List Placed × List ℕ) :=
  if m.nSources ≤ 0 then .error "n_sources must be > 0"
  else if m.nMoving < 0 ∨ m.nMoving > m.nSources then .error "n_moving_sources must be in range"
  else if ¬ (0 ≤ m.startRatio ∧ m.startRatio < m.endRatio ∧ m.endRatio ≤ 1) then
    .error "Motion ratios must satisfy 0 <= move_start_ratio < move_end_ratio <= 1."
  else if m.speedMin ≤ 0 ∨ m.speedMax < m.speedMin then
    .error "moving speed range must satisfy 0 < moving_speed_min <= moving_speed_max."
  else
    let moveDuration := m.duration * (m.endRatio - m.startRatio)
    if moveDuration ≤ 0 then .error "Move duration must be positive."
    else
      let moving := if m.nMoving > 0 then choice.mergeSort (· ≤ ·) else []
      let rMax := maxUniformRadius center (areaOf room margin)
      if rMax < minRadius then .error "No feasible radius for arc motion across all azimuths."
      else
        (tryPlace (fun d => placeOnce d room center margin m.nSources.toNat moving moveDuration m.speedMin
          m.speedMax minRadius rMax) draws maxTrials 0).map fun p => (p, moving)

open Classical in
/-- The progress of the motion at a point of the time line (330-336). -/
noncomputable def progress (startRatio endRatio t : ℝ) : ℝ :=
  if startRatio ≤ t ∧ t ≤ endRatio then (t - startRatio) / (endRatio - startRatio)
  else if t > endRatio then 1
  else 0

open Classical in
/-- `_build_source_trajectory` (316-352): per step the positions of all sources. -/
noncomputable def sourceTrajectory (placed : List Placed) (center : P3) (moving : List ℕ) (nSteps : ℤ)
    (startRatio endRatio : ℝ) : Except String (List (List P3)) :=
  if nSteps ≤ 1 then .ok [placed.map (·.start)]
  else if ¬ (0 ≤ startRatio ∧ startRatio < endRatio ∧ endRatio ≤ 1) then
    .error "Motion ratios must satisfy 0 <= move_start_ratio < move_end_ratio <= 1."
  else .ok <| (List.range nSteps.toNat).map fun (k : ℕ) =>
    let alpha := progress startRatio endRatio ((k : ℝ) / ((nSteps : ℝ) - 1))
    placed.mapIdx fun i p =>
      if i ∈ moving then
        let radius := horizontalDistance p.start center
        let theta := p.startAzimuth + (p.endAzimuth - p.startAzimuth) * alpha
        ⟨center.x + radius * Real.cos theta, center.y + radius * Real.sin theta, p.start.z⟩
      else p.start

/-! ## Audio of a scene -/

/-- `_normalize_sources` (407-414): the largest magnitude of all stems decides. -/
noncomputable def normalizeSources (stems : List (Tensor ℝ)) (limit : ℝ := 0.99) :
    Except String (List (Tensor ℝ)) :=
  if stems = [] ∨ ∃ s ∈ stems, s.data = [] then .error "max() of an empty sequence"
  else
    let peak := (stems.flatMap fun s => s.data.map (|·|)).foldl max 0
    if peak ≤ 0 ∨ peak ≤ limit then .ok stems
    else .ok (stems.map fun s => ⟨s.shape, s.data.map (· * (limit / peak))⟩)

/-- The transpose of an `(a, b)` array. -/
def transpose2 (a b : ℕ) (data : List ℝ) : List ℝ :=
  (List.range b).flatMap fun t => (List.range a).map fun m => data.getD (m * b + t) 0

/-- `_to_time_channel_audio` (417-436). -/
def toTimeChannel (audio : Tensor ℝ) (nMics : ℕ) : Except String (Tensor ℝ) :=
  match audio.shape.filter (· ≠ 1) with
  | [n] => .ok ⟨[n, 1], audio.data⟩
  | [a, b] =>
    if b = nMics then .ok ⟨[a, b], audio.data⟩
    else if a = nMics then .ok ⟨[b, a], transpose2 a b audio.data⟩
    else .error "Could not infer time/channel axes for convolved signal"
  | _ => .error "Unexpected audio ndim"

/-- `np.sum(np.stack(stems, axis=0), axis=0)` (654). -/
noncomputable def mixStems (stems : List (Tensor ℝ)) : Except String (Tensor ℝ) :=
  match stems with
  | [] => .error "need at least one array to stack"
  | s :: _ =>
    if ∃ t ∈ stems, t.shape ≠ s.shape then .error "all input arrays must have the same shape"
    else .ok ⟨s.shape, stems.foldl (fun acc t => List.zipWith (· + ·) acc t.data)
      (List.replicate s.data.length 0)⟩

/-! ## The builder -/

/-- The arguments of `build_dynamic_cmu_arctic_dataset` that matter here (439-473). -/
structure BuildArgs where
  speakers : List String
  nScenes : ℤ := 10
  nSources : ℤ := 3
  nMoving : ℤ := 1
  duration : ℝ := 20
  roomSize : List ℝ := [8, 6, 3]
  micCenter : List ℝ := [4, 3, 1.5]
  octaEdge : ℝ := 1
  sourceMargin : List ℝ := [0.5, 0.5, 0.3]
  trajectorySteps : ℤ := 1024
  rirSamples : ℤ := 4096
  overwrite : Bool := false
  randomizeMicCenter : Bool := true
  startRatio : ℝ := 0.35
  endRatio : ℝ := 0.65
  speedMin : ℝ := 0.3
  speedMax : ℝ := 0.8

/-- The rest of the world: the sampling rate of a speaker's first utterance (or why it cannot be had), the
check of the room, the loader of signals, the simulator and the convolver. -/
structure BuildEnv where
  sampleRate : String → Except String ℕ
  room : Except String Unit
  loadSignal : ℕ → String → ℕ → Except String (List ℝ × List String)
  simulate : List (List P3) → List Vec → Except String (ℕ → Tensor ℝ)
  convolve : List ℝ → Tensor ℝ → Except String (Tensor ℝ)

/-- The random values used for a scene. -/
structure SceneDraws where
  center : P3
  speakers : List String
  choice : List ℕ
  trial : ℕ → TrialDraws

/-- What is written for a scene. -/
structure BuiltScene where
  center : P3
  mics : List Vec
  speakers : List String
  utterances : List (List String)
  placed : List Placed
  moving : List ℕ
  trajectory : List (List P3)
  convolved : List (Tensor ℝ)
  stems : List (Tensor ℝ)
  mixture : Tensor ℝ

/-- The arguments that are checked before anything is deleted (476-498). -/
noncomputable def checkBuildArgs (a : BuildArgs) : Except String (P3 × P3 × P3) := do
  let room ← asTriplet a.roomSize
  let mic ← asTriplet a.micCenter
  let margin ← asTriplet a.sourceMargin
  raiseIf (a.nScenes ≤ 0) "n_scenes must be > 0"
  raiseIf (a.nSources ≤ 0) "n_sources must be > 0"
  raiseIf (a.nMoving < 0 ∨ a.nMoving > a.nSources) "n_moving_sources must be in range"
  raiseIf (a.nSources > a.speakers.length) "n_sources must be <= number of provided speakers"
  raiseIf (a.trajectorySteps ≤ 0) "trajectory_steps must be > 0"
  raiseIf (a.duration ≤ 0) "duration_sec must be > 0"
  raiseIf (a.rirSamples ≤ 0) "rir_samples must be > 0"
  return (room, mic, margin)

/-- The loop that finds the common sampling rate (518-532). -/
def commonRate (rate : String → Except String ℕ) : List String → Option ℕ → Except String (Option ℕ)
  | [], r => .ok r
  | s :: rest, r => do
    let sr ← rate s
    raiseIf (∃ r0 ∈ r, sr ≠ r0) "Sample rate mismatch across speakers"
    commonRate rate rest (some (r.getD sr))

/-- The array: an octahedron with the given edge (539-546). -/
noncomputable def octahedron (edge : ℝ) : Except String (List Vec) :=
  polyhedronArray ⟨.floating, [0, 0, 0]⟩ "octahedron" (edge / Real.sqrt 2)

/-- The minimal distance of sources from the array centre (500). -/
noncomputable def minSourceDistance : ℝ := 1.8

/-- The array centre of a scene (567-576). -/
noncomputable def sceneCenter (a : BuildArgs) (room mic margin : P3) (d : SceneDraws) : Except String P3 :=
  if a.randomizeMicCenter then
    sampleMicCenter d.center room margin minSourceDistance (a.octaEdge / Real.sqrt 2)
  else .ok mic

/-- One pass of `for scene_idx in range(n_scenes)` (563-674). -/
noncomputable def buildScene (a : BuildArgs) (env : BuildEnv) (room mic margin : P3) (base : List Vec)
    (target : ℕ) (d : SceneDraws) (idx : ℕ) : Except String BuiltScene := do
  let center ← sceneCenter a room mic margin d
  let mics := base.map fun v => vadd v [center.x, center.y, center.z]
  let signals ← d.speakers.mapM fun s => env.loadSignal idx s target
  let placed ← placeSources d.trial d.choice room center margin
    ⟨a.nSources, a.nMoving, a.duration, a.startRatio, a.endRatio, a.speedMin, a.speedMax⟩ minSourceDistance
  let trajectory ← sourceTrajectory placed.1 center placed.2 a.trajectorySteps a.startRatio a.endRatio
  let rirs ← env.simulate trajectory mics
  let convolved ← (List.range a.nSources.toNat).mapM fun i =>
    env.convolve (signals.getD i ([], [])).1 (rirs i)
  let raw ← convolved.mapM fun c => toTimeChannel c base.length
  let stems ← normalizeSources raw
  let mixture ← mixStems stems
  return ⟨center, mics, d.speakers, signals.map Prod.snd, placed.1, placed.2, trajectory, convolved, stems,
    mixture⟩

/-- Everything after the old dataset is gone (512-745). -/
noncomputable def buildScenes (a : BuildArgs) (env : BuildEnv) (draws : ℕ → SceneDraws)
    (room mic margin : P3) : Except String (ℕ × List BuiltScene) := do
  let rate ← commonRate env.sampleRate a.speakers none
  let rate := rate.getD 0
  raiseIf (trunc (a.duration * rate) ≤ 0) "duration_sec is too small"
  let base ← octahedron a.octaEdge
  raiseIf (a.nSources > base.length) "n_sources must be <= n_mics"
  env.room
  let scenes ← (List.range a.nScenes.toNat).mapM fun k =>
    buildScene a env room mic margin base (trunc (a.duration * rate)).toNat (draws k) k
  return (rate, scenes)

/-- What is under `dataset_root`. -/
inductive RootState (D : Type) where
  | absent
  | old (dataset : D)
  | rebuilt
deriving DecidableEq

/-- `build_dynamic_cmu_arctic_dataset` (439-760): what is under `dataset_root` afterwards and the outcome. -/
noncomputable def buildDataset {D : Type} (a : BuildArgs) (env : BuildEnv) (draws : ℕ → SceneDraws)
    (root : RootState D) : RootState D × Except String (ℕ × List BuiltScene) :=
  match checkBuildArgs a with
  | .error e => (root, .error e)
  | .ok (room, mic, margin) =>
    match root, a.overwrite with
    | .absent, _ => (.rebuilt, buildScenes a env draws room mic margin)
    | root, false => (root, .error "Dataset root already exists")
    | _, true => (.rebuilt, buildScenes a env draws room mic margin)

end Torchrir.Model
