import Verif.Model.BuilderCli
import Verif.Model.Metadata
import Verif.Model.ScriptPlots

/-!
# Whole runs of the dataset builder

Model of `build_dynamic_cmu_arctic_dataset` (`datasets/dynamic_cmu_arctic.py` 439-760) as the sequence of folders and
files it leaves, on top of `Model/Builder`, which computes what is in them. Simplified: `sf.write` is a parameter and
leaves no file if it raises; the videos come without their sound, which is that of `Model/Mux`; the responses have the
shape that `simulate_dynamic_rir` gives them; the texts of exceptions that the layouts log are left out, and so are
the log messages.
-/

namespace Torchrir.Model

/-- A computation that leaves events, with its outcome. -/
structure Logged (ε α : Type) where
  events : List ε
  result : Except String α

/-- First `x`; if it does not raise, then `f`. -/
def Logged.andThen {ε α β : Type} (x : Logged ε α) (f : α → Logged ε β) : Logged ε β :=
  match x.result with
  | .error e => ⟨x.events, .error e⟩
  | .ok a => ⟨x.events ++ (f a).events, (f a).result⟩

instance {ε : Type} : Monad (Logged ε) where
  pure a := ⟨[], .ok a⟩
  bind := Logged.andThen

/-- A step that leaves nothing. -/
def Logged.quiet {ε α : Type} (x : Except String α) : Logged ε α := ⟨[], x⟩

/-- A step that leaves the given events. -/
def Logged.leave {ε : Type} (l : List ε) : Logged ε Unit := ⟨l, .ok ()⟩

/-- `for k in l: f(k)`. -/
def Logged.each {ε : Type} (f : ℕ → Logged ε Unit) : List ℕ → Logged ε Unit
  | [] => pure ()
  | k :: rest => do
    f k
    Logged.each f rest

/-- The options of the layouts (465-471). -/
structure LayoutArgs where
  images : Bool := true
  images3d : Bool := true
  mp4 : Bool := true
  mp43d : Bool := true
  fps : Option ℝ := none
  annotate : Bool := true

/-- The dictionary `extra` of the metadata (720-746). -/
structure SceneExtra where
  sceneId : String
  nSources : ℤ
  nMoving : ℤ
  octaEdge : ℝ
  micCenter : List ℝ
  randomizeMicCenter : Bool
  minDistance : ℝ
  azimuthStepDeg : ℝ
  moving : List ℕ
  startAzimuthDeg : List ℝ
  endAzimuthDeg : List ℝ
  velocity : List ℝ
  motionType : String
  angularVelocity : List ℝ
  turn : List ℤ
  preStaticRatio : ℝ
  moveRatio : ℝ
  postStaticRatio : ℝ
  total : ℝ
  moveStart : ℝ
  moveEnd : ℝ

/-- The contents of a file. -/
inductive BuilderFile where
  | sound (x : Tensor ℝ) (rate : ℕ)
  | picture (p : Picture) (lines : List String)
  | metadata (md : Metadata) (info : List SourceRecord) (extra : SceneExtra)
  | records (info : List SourceRecord)

/-- What a run leaves below `dataset_root`. -/
inductive BuilderEvent where
  | folder (scene : String)
  | file (scene name : String) (content : BuilderFile)

/-- The folder, and the file if it is one. -/
def BuilderEvent.name : BuilderEvent → String × Option String
  | .folder scene => (scene, none)
  | .file scene name _ => (scene, some name)

/-- `f"{x:.2f}"`: the nearest hundredth, the even one of two. -/
noncomputable def fixed2 (x : ℝ) : String :=
  let n := (roundHalfEven (100 * |x|)).toNat
  (if x < 0 then "-" else "") ++ toString (n / 100) ++ "." ++ zeroPadded 2 (n % 100)

/-- `_build_layout_annotation_lines` (355-372) as it is called (668-673). -/
noncomputable def layoutLines (a : BuildArgs) (k : ℕ) (s : BuiltScene) : List String :=
  ["scene:" ++ sceneId k,
   "move:" ++ fixed2 (a.duration * a.startRatio) ++ "-" ++ fixed2 (a.duration * a.endRatio) ++ " s",
   "speed:" ++ match speedLine s with
     | none => "none"
     | some items => ", ".intercalate (items.map fun p => "S" ++ toString p.1 ++ "=" ++ fixed2 p.2 ++ "m/s")]

/-- The list of a position. -/
def P3.toVec (p : P3) : Vec := [p.x, p.y, p.z]

/-- `extra` of a scene (720-746). -/
noncomputable def sceneExtra (a : BuildArgs) (k : ℕ) (s : BuiltScene) : SceneExtra where
  sceneId := sceneId k
  nSources := a.nSources
  nMoving := a.nMoving
  octaEdge := a.octaEdge
  micCenter := s.center.toVec
  randomizeMicCenter := a.randomizeMicCenter
  minDistance := minSourceDistance
  azimuthStepDeg := 360 / a.nSources
  moving := s.moving
  startAzimuthDeg := s.placed.map fun p => p.startAzimuth * (180 / Real.pi)
  endAzimuthDeg := s.placed.map fun p => p.endAzimuth * (180 / Real.pi)
  velocity := s.placed.map (·.velocity)
  motionType := "arc"
  angularVelocity := s.placed.map (·.angularVelocity)
  turn := s.placed.map (·.turn)
  preStaticRatio := a.startRatio
  moveRatio := a.endRatio - a.startRatio
  postStaticRatio := 1 - a.endRatio
  total := a.duration
  moveStart := a.duration * a.startRatio
  moveEnd := a.duration * a.endRatio

/-- `sf.write(scene_dir / name, x, sample_rate)` (663, 665). -/
def writeSound (write : Tensor ℝ → ℕ → Except String Unit) (scene name : String) (x : Tensor ℝ) (rate : ℕ) :
    Logged BuilderEvent Unit := do
  Logged.quiet (write x rate)
  Logged.leave [.file scene name (.sound x rate)]

/-- `Source.from_positions(starts)` (667). -/
def sceneSources (s : BuiltScene) : Tensor ℝ := pointsTensor (s.placed.map fun p => p.start.toVec)

/-- `src_traj` (640). -/
def sceneSrcTraj (s : BuiltScene) : Tensor ℝ := trajTensor (s.trajectory.map (·.map P3.toVec))

/-- `mic_traj` (577, 641). -/
def sceneMicTraj (a : BuildArgs) (s : BuiltScene) : Tensor ℝ :=
  trajTensor (List.replicate a.trajectorySteps.toNat s.mics)

/-- The layout images and videos of a scene (675-707). Exceptions end in warnings (viz/io.py 256-257, 346-347). -/
noncomputable def sceneLayouts (a : BuildArgs) (o : LayoutArgs) (room : P3) (rate target k : ℕ) (s : BuiltScene) :
    List BuilderEvent :=
  (if o.images then
    (saveLayoutImages ⟨[3], room.toVec⟩ (sceneSources s) (pointsTensor s.mics) (some (sceneSrcTraj s))
      (some (sceneMicTraj a s)) true o.images3d o.annotate).1.map fun i =>
        .file (sceneId k) i.1 (.picture (.image i) (layoutLines a k s))
  else []) ++
  (if o.mp4 then
    (saveVideos ⟨[3], room.toVec⟩ (sceneSources s) (pointsTensor s.mics) (some (sceneSrcTraj s))
      (some (sceneMicTraj a s)) target rate o.fps o.mp43d o.annotate).1.map fun m =>
        .file (sceneId k) m.name (.picture (.movie m) (layoutLines a k s))
  else [])

/-- One pass of `for scene_idx in range(n_scenes)` (559-751). -/
noncomputable def sceneRun (a : BuildArgs) (o : LayoutArgs) (env : BuildEnv)
    (write : Tensor ℝ → ℕ → Except String Unit) (room mic margin : P3) (base : List Vec) (rate target : ℕ)
    (d : SceneDraws) (k : ℕ) : Logged BuilderEvent Unit := do
  Logged.leave [.folder (sceneId k)]
  let s ← Logged.quiet (buildScene a env room mic margin base target d k)
  Logged.each (fun i => writeSound write (sceneId k) ("source_" ++ zeroPadded 2 i ++ ".wav") (s.stems.getD i ⟨[], []⟩)
    rate) (List.range s.stems.length)
  writeSound write (sceneId k) "mixture.wav" s.mixture rate
  Logged.leave (sceneLayouts a o room rate target k s)
  let md ← Logged.quiet (buildMetadata 3 rate (sceneSources s) (pointsTensor s.mics) .floating
    [a.trajectorySteps.toNat, a.nSources.toNat, base.length, a.rirSamples.toNat] (some (sceneSrcTraj s))
    (some (sceneMicTraj a s)) none (some target))
  Logged.leave [.file (sceneId k) "metadata.json" (.metadata md (sourceRecords a s) (sceneExtra a k s))]
  Logged.leave [.file (sceneId k) "source_info.json" (.records (sourceRecords a s))]

/-- Everything after the old dataset is gone (512-760): the events and `(sample_rate, n_mics)`. -/
noncomputable def scenesRun (a : BuildArgs) (o : LayoutArgs) (env : BuildEnv)
    (write : Tensor ℝ → ℕ → Except String Unit) (draws : ℕ → SceneDraws) (room mic margin : P3) :
    Logged BuilderEvent (ℕ × ℕ) := do
  let rate ← Logged.quiet (commonRate env.sampleRate a.speakers none)
  let rate := rate.getD 0
  Logged.quiet (raiseIf (trunc (a.duration * rate) ≤ 0) "duration_sec is too small")
  let base ← Logged.quiet (octahedron a.octaEdge)
  Logged.quiet (raiseIf (a.nSources > base.length) "n_sources must be <= n_mics")
  Logged.quiet env.room
  Logged.each (fun k => sceneRun a o env write room mic margin base rate (trunc (a.duration * rate)).toNat (draws k) k)
    (List.range a.nScenes.toNat)
  return (rate, base.length)

/-- `build_dynamic_cmu_arctic_dataset` (439-760). The first component is what becomes of a dataset that was there. -/
noncomputable def builderRun {D : Type} (a : BuildArgs) (o : LayoutArgs) (env : BuildEnv)
    (write : Tensor ℝ → ℕ → Except String Unit) (draws : ℕ → SceneDraws) (root : RootState D) :
    RootState D × Logged BuilderEvent (ℕ × ℕ) :=
  match checkBuildArgs a with
  | .error e => (root, ⟨[], .error e⟩)
  | .ok (room, mic, margin) =>
    match root, a.overwrite with
    | .absent, _ => (.rebuilt, scenesRun a o env write draws room mic margin)
    | root, false => (root, ⟨[], .error "Dataset root already exists"⟩)
    | _, true => (.rebuilt, scenesRun a o env write draws room mic margin)

end Torchrir.Model
