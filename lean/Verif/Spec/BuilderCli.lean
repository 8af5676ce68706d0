import Verif.Model.BuilderCli

/-!
# Specification of the command line of the dataset builder
-/

namespace Torchrir.Spec

open Torchrir.Model

/-- The last option on the command line that is one of `flags`. -/
def lastOf (flags : List String) (given : List Given) : Option Given :=
  (given.filter fun g => g.flag ∈ flags).getLast?

/-- The options that the program knows, with the arguments they take. -/
inductive BuilderOption (cv : Conversions) : Given → Prop
  | text (flag s : String) (h : flag ∈ ["--cmu-root", "--dataset-root", "--room-size", "--mic-center",
      "--source-margin", "--log-level"]) : BuilderOption cv ⟨flag, [s]⟩
  | names (s : String) (ss : List String) : BuilderOption cv ⟨"--speakers", s :: ss⟩
  | integer (flag s : String) (z : ℤ) (h : flag ∈ ["--n-scenes", "--n-sources", "--n-moving-sources",
      "--trajectory-steps", "--rir-samples", "--max-order", "--seed"]) (hs : cv.int s = some z) :
      BuilderOption cv ⟨flag, [s]⟩
  | real (flag s : String) (x : Flt) (h : flag ∈ ["--duration-sec", "--octa-edge-m", "--rt60", "--sound-speed",
      "--layout-video-fps"]) (hs : cv.float s = some x) : BuilderOption cv ⟨flag, [s]⟩
  | switch (flag : String) (h : flag ∈ ["--download-cmu", "--no-download-cmu", "--randomize-mic-center",
      "--no-randomize-mic-center", "--overwrite-dataset", "--save-layout-images", "--no-save-layout-images",
      "--save-layout-images-3d", "--no-save-layout-images-3d", "--save-layout-mp4", "--no-save-layout-mp4",
      "--save-layout-mp4-3d", "--no-save-layout-mp4-3d", "--layout-video-no-audio",
      "--no-annotate-source-indices"]) : BuilderOption cv ⟨flag, []⟩

/-- `value` is the argument of the last such option, or the default without one. -/
def TextIs (given : List Given) (flag default value : String) : Prop :=
  match lastOf [flag] given with
  | none => value = default
  | some g => g.args = [value]

/-- `value` is the list of arguments of the last such option, or the default without one. -/
def NamesAre (given : List Given) (flag : String) (default value : List String) : Prop :=
  match lastOf [flag] given with
  | none => value = default
  | some g => g.args = value

/-- `value` is the integer that the last such option names, or the default without one. -/
def IntIs (cv : Conversions) (given : List Given) (flag : String) (default value : ℤ) : Prop :=
  match lastOf [flag] given with
  | none => value = default
  | some g => ∃ s, g.args = [s] ∧ cv.int s = some value

/-- `value` is the number that the last such option names, or the default without one. -/
def FloatIs (cv : Conversions) (given : List Given) (flag : String) (default value : Flt) : Prop :=
  match lastOf [flag] given with
  | none => value = default
  | some g => ∃ s, g.args = [s] ∧ cv.float s = some value

/-- The last of two opposite switches decides, and without one the default. -/
def SwitchIs (given : List Given) (on off : String) (default value : Bool) : Prop :=
  match lastOf [on, off] given with
  | none => value = default
  | some g => value = decide (g.flag = on)

/-- A switch without an opposite was given. -/
def Switched (given : List Given) (flag : String) : Prop := ∃ g ∈ given, g.flag = flag

/-- The text is a list of three numbers between commas; blanks around them and empty entries do not count. -/
def Triplet (cv : Conversions) (text : String) (values : List Flt) : Prop :=
  ∃ x y z a b c, values = [x, y, z] ∧
    ((text.toList.splitOn ',').map strip).filter (· ≠ []) = [a, b, c] ∧
    cv.float (String.ofList a) = some x ∧ cv.float (String.ofList b) = some y ∧ cv.float (String.ofList c) = some z

/-- What a command line asks for. -/
structure Requested (cv : Conversions) (resolve : String → String) (given : List Given) (c : BuilderCall) :
    Prop where
  known : ∀ g ∈ given, BuilderOption cv g
  cmuRoot : ∃ s p, lastOf ["--cmu-root"] given = some ⟨"--cmu-root", [s]⟩ ∧ mkPath s = .path p ∧ c.cmuRoot = resolve p
  datasetRoot : ∃ s p, TextIs given "--dataset-root" "outputs/cmu_arctic_torchrir_dynamic_dataset" s ∧
    mkPath s = .path p ∧ c.datasetRoot = resolve p
  speakers : NamesAre given "--speakers" ["bdl", "slt", "clb", "rms", "jmk", "awb"] c.speakers
  nScenes : IntIs cv given "--n-scenes" 10 c.nScenes
  nSources : IntIs cv given "--n-sources" 3 c.nSources
  nMoving : IntIs cv given "--n-moving-sources" 1 c.nMoving
  duration : FloatIs cv given "--duration-sec" (.fin 20) c.duration
  roomSize : ∃ text, TextIs given "--room-size" "8.0,6.0,3.0" text ∧ Triplet cv text c.roomSize
  micCenter : ∃ text, TextIs given "--mic-center" "4.0,3.0,1.5" text ∧ Triplet cv text c.micCenter
  octaEdge : FloatIs cv given "--octa-edge-m" (.fin 1) c.octaEdge
  sourceMargin : ∃ text, TextIs given "--source-margin" "0.5,0.5,0.3" text ∧ Triplet cv text c.sourceMargin
  trajectorySteps : IntIs cv given "--trajectory-steps" 1024 c.trajectorySteps
  rirSamples : IntIs cv given "--rir-samples" 4096 c.rirSamples
  rt60 : FloatIs cv given "--rt60" (.fin 0.3) c.rt60
  soundSpeed : FloatIs cv given "--sound-speed" (.fin 343) c.soundSpeed
  maxOrder : IntIs cv given "--max-order" 6 c.maxOrder
  seed : IntIs cv given "--seed" 42 c.seed
  downloadCmu : SwitchIs given "--download-cmu" "--no-download-cmu" false c.downloadCmu
  overwrite : c.overwrite = true ↔ Switched given "--overwrite-dataset"
  randomizeMicCenter : SwitchIs given "--randomize-mic-center" "--no-randomize-mic-center" true c.randomizeMicCenter
  saveLayoutMp4 : SwitchIs given "--save-layout-mp4" "--no-save-layout-mp4" true c.saveLayoutMp4
  saveLayoutMp43d : SwitchIs given "--save-layout-mp4-3d" "--no-save-layout-mp4-3d" true c.saveLayoutMp43d
  layoutVideoFps : (lastOf ["--layout-video-fps"] given = none ∧ c.layoutVideoFps = none) ∨
    ∃ s x, lastOf ["--layout-video-fps"] given = some ⟨"--layout-video-fps", [s]⟩ ∧ cv.float s = some x ∧
      c.layoutVideoFps = some x
  layoutVideoMuxAudio : c.layoutVideoMuxAudio = false ↔ Switched given "--layout-video-no-audio"
  saveLayoutImages : SwitchIs given "--save-layout-images" "--no-save-layout-images" true c.saveLayoutImages
  saveLayoutImages3d : SwitchIs given "--save-layout-images-3d" "--no-save-layout-images-3d" true c.saveLayoutImages3d
  annotateSourceIndices : c.annotateSourceIndices = false ↔ Switched given "--no-annotate-source-indices"

end Torchrir.Spec
