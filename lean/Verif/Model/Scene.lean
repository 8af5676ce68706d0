import Verif.Model.Room

/-!
# Scenes and the ISM simulator

Model of `src/torchrir/models/scene.py`, `src/torchrir/models/results.py` and
`src/torchrir/sim/simulators.py`.
-/

namespace Torchrir.Model

/-- `_validate_scene_entities` (scene.py 149-161) on objects of the right types. -/
def validateSceneEntities (room : Room) (sources mics : Entity) : Except String Unit := do
  let dim := room.size.length
  raiseIf (sources.positions.shape.getD 1 0 ≠ dim) "source position dimension must match room dimension"
  raiseIf (mics.positions.shape.getD 1 0 ≠ dim) "mic position dimension must match room dimension"

/-- The shape part of `_validate_traj` (scene.py 174-184): the number of time steps. -/
def trajSteps (shape : List ℕ) (count dim : ℕ) : Except String ℕ :=
  match shape with
  | [t, k] =>
    if count ≠ 1 then .error "traj must have shape (T, count, dim)"
    else if k ≠ dim then .error "traj must have shape (T, dim) for single entity"
    else .ok t
  | [t, n, k] =>
    if n ≠ count ∨ k ≠ dim then .error "traj must have shape (T, count, dim)" else .ok t
  | _ => .error "traj must have shape (T, count, dim)"

open Classical in
/-- `_validate_traj` (scene.py 164-184) on a tensor. -/
noncomputable def validateTraj (traj : Tensor Flt) (count dim : ℕ) : Except String ℕ := do
  raiseIf (¬ ∀ x ∈ traj.data, x.isFinite) "traj must contain finite values"
  trajSteps traj.shape count dim

/-- `StaticScene` (scene.py 17-37). -/
structure StaticScene where
  room : Room
  sources : Entity
  mics : Entity

/-- `DynamicScene` (scene.py 41-77). -/
structure DynamicScene where
  room : Room
  sources : Entity
  mics : Entity
  srcTraj : Tensor Flt
  micTraj : Tensor Flt

/-- The deprecated `Scene` (scene.py 81-143). -/
structure OldScene where
  room : Room
  sources : Entity
  mics : Entity
  srcTraj : Option (Tensor Flt) := none
  micTraj : Option (Tensor Flt) := none

/-- `StaticScene.validate` (scene.py 36-37). -/
def StaticScene.validate (s : StaticScene) : Except String Unit :=
  validateSceneEntities s.room s.sources s.mics

/-- The trajectory checks of `_validate_internal` (scene.py 71-77, 118-126). -/
noncomputable def validateTrajs (room : Room) (sources mics : Entity) (src mic : Tensor Flt) :
    Except String Unit := do
  let dim := room.size.length
  let tSrc ← validateTraj src (sources.positions.shape.getD 0 0) dim
  let tMic ← validateTraj mic (mics.positions.shape.getD 0 0) dim
  raiseIf (tSrc ≠ tMic) "src_traj and mic_traj must have matching time steps"

/-- `DynamicScene._validate_internal` (scene.py 69-77). -/
noncomputable def DynamicScene.validate (s : DynamicScene) : Except String Unit := do
  validateSceneEntities s.room s.sources s.mics
  validateTrajs s.room s.sources s.mics s.srcTraj s.micTraj

/-- The trajectory part of `Scene._validate_internal` (scene.py 107-126). -/
noncomputable def OldScene.validateTrajPart (s : OldScene) : Except String Unit :=
  match s.srcTraj, s.micTraj with
  | none, none => .ok ()
  | some a, some b => validateTrajs s.room s.sources s.mics a b
  | _, _ => .error "Scene requires both src_traj and mic_traj for dynamic scenes."

/-- `Scene._validate_internal` (scene.py 105-126). -/
noncomputable def OldScene.validate (s : OldScene) : Except String Unit := do
  validateSceneEntities s.room s.sources s.mics
  s.validateTrajPart

/-- `StaticScene(...)` (scene.py 30-31). -/
def staticSceneNew (room : Room) (sources mics : Entity) : Except String StaticScene := do
  let s : StaticScene := ⟨room, sources, mics⟩
  s.validate
  return s

/-- `DynamicScene(...)` (scene.py 56-61). -/
noncomputable def dynamicSceneNew (room : Room) (sources mics : Entity) (src mic : Tensor Flt) :
    Except String DynamicScene := do
  let s : DynamicScene := ⟨room, sources, mics, src, mic⟩
  s.validate
  return s

/-- `Scene(...)` (scene.py 96-103). -/
noncomputable def oldSceneNew (room : Room) (sources mics : Entity) (src mic : Option (Tensor Flt)) :
    Except String OldScene := do
  let s : OldScene := ⟨room, sources, mics, src, mic⟩
  s.validate
  return s

/-- `Scene.is_dynamic` (scene.py 128-129). -/
def OldScene.isDynamic (s : OldScene) : Bool := s.srcTraj.isSome && s.micTraj.isSome

/-- `Scene.to_static_scene` (scene.py 134-137). -/
def OldScene.toStatic (s : OldScene) : Except String StaticScene :=
  if s.isDynamic then .error "dynamic Scene cannot be converted to StaticScene"
  else staticSceneNew s.room s.sources s.mics

/-- `Scene.to_dynamic_scene` (scene.py 139-148). -/
noncomputable def OldScene.toDynamic (s : OldScene) : Except String DynamicScene :=
  match s.srcTraj, s.micTraj with
  | some a, some b => dynamicSceneNew s.room s.sources s.mics a b
  | _, _ => .error "static Scene cannot be converted to DynamicScene"

/-- A normalized scene. -/
inductive NewScene where
  | static (s : StaticScene)
  | dynamic (s : DynamicScene)

/-- `SceneLike` (scene.py 151). -/
inductive SceneLike where
  | new (s : NewScene)
  | old (s : OldScene)

/-- `normalized_scene.validate()` (simulators.py 57). -/
noncomputable def NewScene.validate : NewScene → Except String Unit
  | .static s => s.validate
  | .dynamic s => s.validate

/-- `_normalize_scene` (simulators.py 100-113). -/
noncomputable def normalizeScene : SceneLike → Except String NewScene
  | .new s => .ok s
  | .old s => if s.isDynamic then NewScene.dynamic <$> s.toDynamic else NewScene.static <$> s.toStatic

/-- `_ensure_no_conflict` (simulators.py 116-128). -/
def ensureNoConflict {α : Type} [DecidableEq α] (field : String) (sim cfg : Option α) :
    Except String Unit :=
  match sim, cfg with
  | some a, some b => raiseIf (a ≠ b) ("conflicting values: " ++ field)
  | _, _ => .ok ()

/-- `ISMSimulator` (simulators.py 35-41); device and dtype are part of `World`. -/
structure IsmSimulator where
  maxOrder : ℤ
  tmax : Option ℝ := none
  nsample : Option ℤ := none
  directivity : Option DirArg := some (.one "omni")
  nbImg : Option (List ℤ) := none

open Classical in
/-- `ISMSimulator.__post_init__` (simulators.py 43-51). -/
noncomputable def ismSimulatorNew (s : IsmSimulator) : Except String IsmSimulator := do
  raiseIf (s.maxOrder < 0) "max_order must be non-negative"
  raiseIf (s.tmax.isNone ∧ s.nsample.isNone) "tmax or nsample must be provided"
  raiseIf (∃ t, s.tmax = some t ∧ t ≤ 0) "tmax must be positive"
  raiseIf (∃ n, s.nsample = some n ∧ n ≤ 0) "nsample must be positive"
  return s

/-- `RIRResult` (results.py 15-32); `timestamps` stays `None`. -/
structure RirResult where
  rirs : Tensor ℝ
  scene : NewScene
  config : Config
  seed : Option ℤ

/-- The arguments `ISMSimulator.simulate` passes on (simulators.py 70-96): orientation and `tdiff`
keep their defaults. -/
def IsmSimulator.args (s : IsmSimulator) (cfg : Config) : SimArgs :=
  { maxOrder := some s.maxOrder, nbImg := s.nbImg, nsample := s.nsample, tmax := s.tmax
    directivity := s.directivity, config := some cfg }

/-- The call of the simulation function (simulators.py 69-96). -/
noncomputable def IsmSimulator.run (w : World) (s : IsmSimulator) (cfg : Config) :
    NewScene → Except String (Tensor ℝ)
  | .static sc => simulateRir w sc.room sc.sources sc.mics (s.args cfg)
  | .dynamic sc => simulateDynamicRir w sc.room sc.srcTraj.reals sc.micTraj.reals (s.args cfg)

open Classical in
/-- `ISMSimulator.simulate` (simulators.py 53-97). -/
noncomputable def IsmSimulator.simulate (w : World) (s : IsmSimulator) (scene : SceneLike)
    (config : Option Config) : Except String RirResult := do
  let sc ← normalizeScene scene
  sc.validate
  let cfg := config.getD defaultConfig
  ensureNoConflict "max_order" (some s.maxOrder) cfg.maxOrder
  ensureNoConflict "tmax" s.tmax cfg.tmax
  let rirs ← s.run w cfg sc
  return { rirs := rirs, scene := sc, config := cfg, seed := cfg.seed }

end Torchrir.Model
