import Verif.Model.Cli
import Verif.Model.Transcript
import Verif.Model.Builder
import Verif.Model.DynDataset
import Verif.Model.Logging

/-!
# The command line of the dataset builder, and the files of a built dataset

Model of `_parse_args`, `_parse_triplet`, `main`, `_build_layout_annotation_lines` and of the files that
`build_dynamic_cmu_arctic_dataset` writes (`datasets/dynamic_cmu_arctic.py`). The part of `argparse` is that of
`Model/Cli`, with the same simplifications; `Path.expanduser().resolve()` is a parameter.
-/

namespace Torchrir.Model

/-- `_parse_args` (763-892). -/
noncomputable def builderParser : List Opt :=
  [⟨"--cmu-root", "cmu_root", .store .path none, .none⟩,
   ⟨"--download-cmu", "download_cmu", .storeConst true, .bool false⟩,
   ⟨"--no-download-cmu", "download_cmu", .storeConst false, .bool false⟩,
   ⟨"--dataset-root", "dataset_root", .store .path none, mkPath "outputs/cmu_arctic_torchrir_dynamic_dataset"⟩,
   ⟨"--speakers", "speakers", .storeMany .str,
    .list [.str "bdl", .str "slt", .str "clb", .str "rms", .str "jmk", .str "awb"]⟩,
   ⟨"--n-scenes", "n_scenes", .store .int none, .int 10⟩,
   ⟨"--n-sources", "n_sources", .store .int none, .int 3⟩,
   ⟨"--n-moving-sources", "n_moving_sources", .store .int none, .int 1⟩,
   ⟨"--duration-sec", "duration_sec", .store .float none, .float (.fin 20)⟩,
   ⟨"--room-size", "room_size", .store .str none, .str "8.0,6.0,3.0"⟩,
   ⟨"--mic-center", "mic_center", .store .str none, .str "4.0,3.0,1.5"⟩,
   ⟨"--randomize-mic-center", "randomize_mic_center", .storeConst true, .bool true⟩,
   ⟨"--no-randomize-mic-center", "randomize_mic_center", .storeConst false, .bool true⟩,
   ⟨"--octa-edge-m", "octa_edge_m", .store .float none, .float (.fin 1)⟩,
   ⟨"--source-margin", "source_margin", .store .str none, .str "0.5,0.5,0.3"⟩,
   ⟨"--trajectory-steps", "trajectory_steps", .store .int none, .int 1024⟩,
   ⟨"--rir-samples", "rir_samples", .store .int none, .int 4096⟩,
   ⟨"--rt60", "rt60", .store .float none, .float (.fin 0.3)⟩,
   ⟨"--sound-speed", "sound_speed", .store .float none, .float (.fin 343)⟩,
   ⟨"--max-order", "max_order", .store .int none, .int 6⟩,
   ⟨"--seed", "seed", .store .int none, .int 42⟩,
   ⟨"--overwrite-dataset", "overwrite_dataset", .storeConst true, .bool false⟩,
   ⟨"--save-layout-images", "save_layout_images", .storeConst true, .bool true⟩,
   ⟨"--no-save-layout-images", "save_layout_images", .storeConst false, .bool true⟩,
   ⟨"--save-layout-images-3d", "save_layout_images_3d", .storeConst true, .bool true⟩,
   ⟨"--no-save-layout-images-3d", "save_layout_images_3d", .storeConst false, .bool true⟩,
   ⟨"--save-layout-mp4", "save_layout_mp4", .storeConst true, .bool true⟩,
   ⟨"--no-save-layout-mp4", "save_layout_mp4", .storeConst false, .bool true⟩,
   ⟨"--save-layout-mp4-3d", "save_layout_mp4_3d", .storeConst true, .bool true⟩,
   ⟨"--no-save-layout-mp4-3d", "save_layout_mp4_3d", .storeConst false, .bool true⟩,
   ⟨"--layout-video-fps", "layout_video_fps", .store .float none, .none⟩,
   ⟨"--layout-video-no-audio", "layout_video_no_audio", .storeConst true, .bool false⟩,
   ⟨"--no-annotate-source-indices", "no_annotate_source_indices", .storeConst true, .bool false⟩,
   ⟨"--log-level", "log_level", .store .str none, .str "INFO"⟩]

/-- `parser.parse_args()` with the required option `--cmu-root` (767-769, 892). -/
noncomputable def builderArgs (cv : Conversions) (given : List Given) : Except String (List (String × Val)) := do
  let ns ← parseArgs cv builderParser [] given
  raiseIf (¬ ∃ g ∈ given, g.flag = "--cmu-root") "the following arguments are required: --cmu-root"
  return ns

/-- `float(segment)` of a string. -/
def floatOf (cv : Conversions) (s : List Char) : Except String Flt :=
  match cv.float (String.ofList s) with
  | some x => .ok x
  | none => .error "could not convert string to float"

/-- `_parse_triplet` (50-54). -/
def parseTriplet (cv : Conversions) (text : String) : Except String (List Flt) := do
  let parts := ((text.toList.splitOn ',').map strip).filter (· ≠ [])
  raiseIf (parts.length ≠ 3) "must be comma-separated x,y,z"
  parts.mapM (floatOf cv)

/-- The arguments of `build_dynamic_cmu_arctic_dataset` and their defaults (439-473). `resolve` of a path is
the path of the file system that is meant. -/
structure BuilderCall where
  cmuRoot : String
  datasetRoot : String
  speakers : List String := ["bdl", "slt", "clb", "rms", "jmk", "awb"]
  nScenes : ℤ := 10
  nSources : ℤ := 3
  nMoving : ℤ := 1
  duration : Flt := .fin 20
  roomSize : List Flt := [.fin 8, .fin 6, .fin 3]
  micCenter : List Flt := [.fin 4, .fin 3, .fin 1.5]
  octaEdge : Flt := .fin 1
  sourceMargin : List Flt := [.fin 0.5, .fin 0.5, .fin 0.3]
  trajectorySteps : ℤ := 1024
  rirSamples : ℤ := 4096
  rt60 : Flt := .fin 0.3
  soundSpeed : Flt := .fin 343
  maxOrder : ℤ := 6
  seed : ℤ := 42
  downloadCmu : Bool := false
  overwrite : Bool := false
  randomizeMicCenter : Bool := true
  saveLayoutMp4 : Bool := true
  saveLayoutMp43d : Bool := true
  layoutVideoFps : Option Flt := none
  layoutVideoMuxAudio : Bool := true
  saveLayoutImages : Bool := true
  saveLayoutImages3d : Bool := true
  annotateSourceIndices : Bool := true

/-- `int(v)` of a value that the parser stored. -/
def asInt : Val → Except String ℤ
  | .int z => .ok z
  | _ => .error "int() argument"

/-- `float(v)` of a value that the parser stored. -/
def asFloat : Val → Except String Flt
  | .float x => .ok x
  | _ => .error "float() argument"

/-- `bool(v)` of a value that the parser stored. -/
def asBool : Val → Except String Bool
  | .bool b => .ok b
  | _ => .error "not a flag"

/-- A string that the parser stored. -/
def asText : Val → Except String String
  | .str s => .ok s
  | _ => .error "not a string"

/-- A path that the parser stored. -/
def asPath : Val → Except String String
  | .path p => .ok p
  | _ => .error "not a path"

/-- `list(args.speakers)` (907). -/
def asTexts : Val → Except String (List String)
  | .list l => l.mapM asText
  | _ => .error "not a list"

/-- A number or `None`. -/
def asOptional : Val → Except String (Option Flt)
  | .none => .ok none
  | .float x => .ok (some x)
  | _ => .error "not a number"

/-- `_configure_logging` (42-46): the level of the root logger. `getattr(logging, …)` finds the levels, and two other
values whose names are in capital letters, a string and a dictionary, that `basicConfig` refuses; any other name
means `INFO`. `upper()` is that of ASCII. -/
def configureLogging (level : String) : Except String ℤ :=
  match levelNames.lookup level.toUpper with
  | some n => .ok n
  | none =>
    if level.toUpper = "BASIC_FORMAT" then .error "Unknown level"
    else if level.toUpper = "_STYLES" then .error "Level not an integer or a valid string"
    else .ok 20

/-- `main` (895-935) up to the call of `build_dynamic_cmu_arctic_dataset`. -/
noncomputable def builderMain (cv : Conversions) (resolve : String → String) (given : List Given) :
    Except String BuilderCall := do
  let ns ← builderArgs cv given
  let levelText ← asText (attr ns "log_level")
  let _level ← configureLogging levelText
  let roomText ← asText (attr ns "room_size")
  let room ← parseTriplet cv roomText
  let micText ← asText (attr ns "mic_center")
  let mic ← parseTriplet cv micText
  let marginText ← asText (attr ns "source_margin")
  let margin ← parseTriplet cv marginText
  let datasetRoot ← asPath (attr ns "dataset_root")
  let cmuRoot ← asPath (attr ns "cmu_root")
  let speakers ← asTexts (attr ns "speakers")
  let nScenes ← asInt (attr ns "n_scenes")
  let nSources ← asInt (attr ns "n_sources")
  let nMoving ← asInt (attr ns "n_moving_sources")
  let duration ← asFloat (attr ns "duration_sec")
  let octaEdge ← asFloat (attr ns "octa_edge_m")
  let steps ← asInt (attr ns "trajectory_steps")
  let rirSamples ← asInt (attr ns "rir_samples")
  let rt60 ← asFloat (attr ns "rt60")
  let soundSpeed ← asFloat (attr ns "sound_speed")
  let maxOrder ← asInt (attr ns "max_order")
  let seed ← asInt (attr ns "seed")
  let download ← asBool (attr ns "download_cmu")
  let overwrite ← asBool (attr ns "overwrite_dataset")
  let randomize ← asBool (attr ns "randomize_mic_center")
  let mp4 ← asBool (attr ns "save_layout_mp4")
  let mp43d ← asBool (attr ns "save_layout_mp4_3d")
  let fps ← asOptional (attr ns "layout_video_fps")
  let noAudio ← asBool (attr ns "layout_video_no_audio")
  let images ← asBool (attr ns "save_layout_images")
  let images3d ← asBool (attr ns "save_layout_images_3d")
  let noAnnotate ← asBool (attr ns "no_annotate_source_indices")
  return {
    cmuRoot := resolve cmuRoot, datasetRoot := resolve datasetRoot, speakers := speakers, nScenes := nScenes
    nSources := nSources, nMoving := nMoving, duration := duration, roomSize := room, micCenter := mic
    octaEdge := octaEdge, sourceMargin := margin, trajectorySteps := steps, rirSamples := rirSamples, rt60 := rt60
    soundSpeed := soundSpeed, maxOrder := maxOrder, seed := seed, downloadCmu := download, overwrite := overwrite
    randomizeMicCenter := randomize, saveLayoutMp4 := mp4, saveLayoutMp43d := mp43d, layoutVideoFps := fps
    layoutVideoMuxAudio := !noAudio, saveLayoutImages := images, saveLayoutImages3d := images3d
    annotateSourceIndices := !noAnnotate }

/-! ## The files of a dataset -/

/-- `scene_id` (562). -/
def sceneId (idx : ℕ) : String := "scene_" ++ zeroPadded 4 idx

/-- The files of a scene in the order in which they are written (656-745), for a three-dimensional room and
layouts that are rendered without an error. -/
def sceneFileNames (c : BuilderCall) : List String :=
  ((List.range c.nSources.toNat).map fun s => "source_" ++ zeroPadded 2 s ++ ".wav") ++ ["mixture.wav"] ++
  (if c.saveLayoutImages then
    ["room_layout_2d.png"] ++ (if c.saveLayoutImages3d then ["room_layout_3d.png"] else [])
  else []) ++
  (if c.saveLayoutMp4 then
    ["room_layout_2d.mp4"] ++ (if c.saveLayoutMp43d then ["room_layout_3d.mp4"] else [])
  else []) ++
  ["metadata.json", "source_info.json"]

/-- The files below `dataset_root`. -/
def datasetFileNames (c : BuilderCall) : List (String × String) :=
  (List.range c.nScenes.toNat).flatMap fun k => (sceneFileNames c).map fun f => (sceneId k, f)

/-- One entry of `source_info.json` (586, 633-642). -/
structure SourceRecord where
  speaker : String
  utterances : List String
  index : ℕ
  isMoving : Bool
  velocity : ℝ
  motionType : String
  angularVelocity : ℝ
  turn : ℤ
  moveStart : ℝ
  moveEnd : ℝ

/-- The entries of `source_info.json` (577-642). -/
noncomputable def sourceRecords (a : BuildArgs) (s : BuiltScene) : List SourceRecord :=
  (s.speakers.zip s.utterances).mapIdx fun i p =>
    { speaker := p.1, utterances := p.2, index := i, isMoving := decide (i ∈ s.moving)
      velocity := (s.placed.map (·.velocity)).getD i 0
      motionType := if i ∈ s.moving then "arc" else "static"
      angularVelocity := (s.placed.map (·.angularVelocity)).getD i 0
      turn := (s.placed.map (·.turn)).getD i 0
      moveStart := a.duration * a.startRatio, moveEnd := a.duration * a.endRatio }

open Classical in
/-- The sources named on the speed line of a layout (356-366); `none` for the text "none". -/
noncomputable def speedLine (s : BuiltScene) : Option (List (ℕ × ℝ)) :=
  let items := ((s.placed.map (·.velocity)).zipIdx.filter fun p => 0 < p.1).map fun p => (p.2, p.1)
  if items = [] then none else some items

end Torchrir.Model
