import Verif.Model.BuilderCli
import Verif.Model.DatasetRun
import Verif.Model.Device

/-!
# The command lines of the example scripts

Model of the options of `examples/static.py`, `examples/dynamic_src.py`, `examples/dynamic_mic.py` and
`examples/build_dynamic_dataset.py`, and of `main` from the command line to the files. The part of `argparse` is that of
`Model/Cli.lean`, with the same simplifications; the work after the options is that of `Model/ScriptRun.lean` and
`Model/DatasetRun.lean`. Left out: the plots of `--plot`; rooms and response lengths that are not finite numbers.
-/

namespace Torchrir.Model

/-- Which of the four scripts. -/
inductive Program where
  | script (sc : Script)
  | dataset

/-- The options for the dataset (static.py 61-78, dynamic_src.py 59-76, dynamic_mic.py 59-76,
build_dynamic_dataset.py 195-225). -/
def dataOptions : Program → List Opt
  | .script _ =>
    [⟨"--dataset-dir", "dataset_dir", .store .path none, mkPath "datasets/cmu_arctic"⟩,
     ⟨"--download", "download", .storeConst true, .bool true⟩,
     ⟨"--no-download", "download", .storeConst false, .bool true⟩]
  | .dataset =>
    [⟨"--dataset", "dataset", .store .str (some ["cmu_arctic", "librispeech"]), .str "cmu_arctic"⟩,
     ⟨"--dataset-dir", "dataset_dir", .store .path none, .none⟩,
     ⟨"--subset", "subset", .store .str none, .str "train-clean-100"⟩,
     ⟨"--download", "download", .storeConst true, .bool false⟩,
     ⟨"--num-scenes", "num_scenes", .store .int none, .int 4⟩]

/-- `--num-moving-sources` (dynamic_src.py 89-94, build_dynamic_dataset.py 232-237). -/
def movingOptions : Program → List Opt
  | .script .dynamicSrc => [⟨"--num-moving-sources", "num_moving_sources", .store .int none, .int 1⟩]
  | .dataset => [⟨"--num-moving-sources", "num_moving_sources", .store .int none, .int 1⟩]
  | _ => []

/-- `--steps` (dynamic_src.py 109-114, dynamic_mic.py 103-108, build_dynamic_dataset.py 258-263). -/
def stepsOptions : Program → List Opt
  | .script .static => []
  | .script _ => [⟨"--steps", "steps", .store .int none, .int 16⟩]
  | .dataset => [⟨"--steps", "steps", .store .int none, .int 64⟩]

/-- `add_output_args` (static.py 118-123, dynamic_src.py 125-130, dynamic_mic.py 119-124,
build_dynamic_dataset.py 274-280). -/
def outputOptions : Program → List Opt
  | .script _ => outputArgs "outputs" false
  | .dataset => outputArgs "outputs/dynamic_dataset" false (includeShow := false)

/-- `--duration` (static.py 91-96, dynamic_src.py 95-100, dynamic_mic.py 89-94, build_dynamic_dataset.py 244-249). -/
noncomputable def durationDefault : Program → ℝ
  | .script _ => 10
  | .dataset => 6

/-- `--order` (static.py 105, dynamic_src.py 115, dynamic_mic.py 109, build_dynamic_dataset.py 264). -/
def orderDefault : Program → ℤ
  | .script _ => 8
  | .dataset => 6

/-- The parser (static.py 58-125, dynamic_src.py 56-132, dynamic_mic.py 56-126, build_dynamic_dataset.py 194-282). The
order of the options does not matter. -/
noncomputable def scriptParser (p : Program) : List Opt :=
  dataOptions p ++
  [⟨"--num-sources", "num_sources", .store .int none, .int 2⟩,
   ⟨"--num-mics", "num_mics", .store .int none, .int 2⟩] ++
  movingOptions p ++
  [⟨"--duration", "duration", .store .float none, .float (.fin (durationDefault p))⟩,
   ⟨"--seed", "seed", .store .int none, .int 0⟩,
   ⟨"--room", "room", .storeMany .float, .list [.float (.fin 6), .float (.fin 4), .float (.fin 3)]⟩] ++
  stepsOptions p ++
  [⟨"--order", "order", .store .int none, .int (orderDefault p)⟩,
   ⟨"--tmax", "tmax", .store .float none, .float (.fin 0.4)⟩,
   ⟨"--device", "device", .store .str none, .str "cpu"⟩] ++
  outputOptions p ++
  [⟨"--log-level", "log_level", .store .str none, .str "INFO"⟩]

/-- The values of the options as the scripts use them. Options that a script does not have keep a fixed value. -/
structure ScriptSettings where
  dataset : String
  datasetDir : Option String
  subset : String
  download : Bool
  numScenes : ℤ
  numSources : ℤ
  numMics : ℤ
  numMoving : ℤ
  duration : Flt
  seed : ℤ
  room : List Flt
  steps : ℤ
  order : ℤ
  tmax : Flt
  device : String
  outDir : String
  plot : Bool
  shown : Bool
  level : String

/-- A list of numbers that the parser stored. -/
def asFloats : Val → Except String (List Flt)
  | .list l => l.mapM asFloat
  | _ => .error "not a list"

/-- A path or `None`. -/
def asOptionalPath : Val → Except String (Option String)
  | .none => .ok none
  | .path p => .ok (some p)
  | _ => .error "not a path"

/-- `args.key` if the script has the option, and `v` otherwise. -/
def attrOr (opts : List Opt) (ns : List (String × Val)) (key : String) (v : Val) : Val :=
  if opts.any (·.dest = key) then attr ns key else v

/-- The values of the options of a namespace. -/
noncomputable def settingsOf (opts : List Opt) (ns : List (String × Val)) : Except String ScriptSettings := do
  let dataset ← asText (attrOr opts ns "dataset" (.str "cmu_arctic"))
  let datasetDir ← asOptionalPath (attr ns "dataset_dir")
  let subset ← asText (attrOr opts ns "subset" (.str ""))
  let download ← asBool (attr ns "download")
  let numScenes ← asInt (attrOr opts ns "num_scenes" (.int 1))
  let numSources ← asInt (attr ns "num_sources")
  let numMics ← asInt (attr ns "num_mics")
  let numMoving ← asInt (attrOr opts ns "num_moving_sources" (.int 1))
  let duration ← asFloat (attr ns "duration")
  let seed ← asInt (attr ns "seed")
  let room ← asFloats (attr ns "room")
  let steps ← asInt (attrOr opts ns "steps" (.int 16))
  let order ← asInt (attr ns "order")
  let tmax ← asFloat (attr ns "tmax")
  let device ← asText (attr ns "device")
  let outDir ← asPath (attr ns "out_dir")
  let plot ← asBool (attr ns "plot")
  let shown ← asBool (attrOr opts ns "show" (.bool false))
  let level ← asText (attr ns "log_level")
  return ⟨dataset, datasetDir, subset, download, numScenes, numSources, numMics, numMoving, duration, seed, room, steps,
    order, tmax, device, outDir, plot, shown, level⟩

/-- `parser.parse_args()` of a script. -/
noncomputable def scriptSettings (cv : Conversions) (p : Program) (given : List Given) : Except String ScriptSettings := do
  let ns ← parseArgs cv (scriptParser p) [] given
  settingsOf (scriptParser p) ns

/-- `dataset_root` (static.py 146, build_dynamic_dataset.py 288-295). -/
def ScriptSettings.dataRoot (st : ScriptSettings) : String :=
  st.datasetDir.getD (if st.dataset = "cmu_arctic" then "datasets/cmu_arctic" else "datasets/librispeech")

/-- What the factory and `load_dataset_sources` are told (static.py 144-154, dynamic_src.py 152-162,
dynamic_mic.py 146-156, build_dynamic_dataset.py 336-348). -/
structure LoadCall where
  dataset : String
  root : String
  subset : String
  download : Bool
  numSources : ℤ
  duration : Flt

/-- The call of `load_dataset_sources`. -/
def ScriptSettings.loadCall (st : ScriptSettings) : LoadCall :=
  ⟨st.dataset, st.dataRoot, st.subset, st.download, st.numSources, st.duration⟩

/-- A finite number. -/
def finite? : Flt → Option ℝ
  | .fin x => some x
  | _ => none

/-- Loading with a negative number of sources raises (utils.py 29). -/
def loadOutcome {α : Type} (st : ScriptSettings) (x : Except String α) : Except String α :=
  if st.numSources < 0 then .error "Sample larger than population or is negative" else x

/-- `main` of one of the three scripts after the options, the level of the log and the device; `none` for a room or a
response length that is not finite. `load c g` is the outcome of `load_dataset_sources` with the number of operations
of the generator `g` that it needs. -/
noncomputable def scriptWork {ι : Type} (conv : Flt → ℤ) (w : World) (gen : ℤ → Gen)
    (load : LoadCall → Gen → Except String (LoadedSources ι × ℕ)) (sc : Script) (st : ScriptSettings) :
    Option (Writing ι Unit) := do
  let room ← st.room.mapM finite?
  let tmax ← finite? st.tmax
  let outcome := loadOutcome st (load st.loadCall (gen st.seed))
  return scriptRun conv w sc (gen st.seed)
    { room := room, numSources := st.numSources.toNat, numMics := st.numMics, numMoving := st.numMoving
      steps := st.steps, order := st.order, tmax := tmax }
    ((outcome.map (·.2)).toOption.getD 0) (outcome.map (·.1))

/-- `main` of the dataset script after the options, the level of the log and the device. -/
noncomputable def datasetWork {ι : Type} (conv : Flt → ℤ) (w : World) (gen : ℤ → Gen)
    (load : LoadCall → Gen → Except String (LoadedSources ι × ℕ)) (st : ScriptSettings) : Option (Writing ι Unit) := do
  let room ← st.room.mapM finite?
  let tmax ← finite? st.tmax
  return datasetRun conv w
    { room := room, numScenes := st.numScenes.toNat, numSources := st.numSources.toNat, numMics := st.numMics
      numMoving := st.numMoving, steps := st.steps, order := st.order, tmax := tmax, seed := st.seed
      dataset := st.dataset, subset := st.subset }
    gen fun g => loadOutcome st (load st.loadCall g)

/-- `setup_logging` and `resolve_device` (static.py 128-131, dynamic_src.py 135-139, dynamic_mic.py 129-133,
build_dynamic_dataset.py 285-298). -/
def prepareScript (t : Torch) (st : ScriptSettings) : Except String TorchDevice := do
  let _ ← resolveLevel (.name st.level)
  resolveDevice t (.str st.device)

/-- `main` of a script: the files below `--out-dir`, in order, and the outcome. `w d` is the world as seen on the
device `d`. -/
noncomputable def scriptMain {ι : Type} (cv : Conversions) (conv : Flt → ℤ) (t : Torch) (w : TorchDevice → World)
    (gen : ℤ → Gen) (load : LoadCall → Gen → Except String (LoadedSources ι × ℕ)) (p : Program) (given : List Given) :
    Option (Writing ι Unit) :=
  match scriptSettings cv p given with
  | .error e => some ⟨[], .error e⟩
  | .ok st =>
    match prepareScript t st with
    | .error e => some ⟨[], .error e⟩
    | .ok d =>
      match p with
      | .script sc => scriptWork conv (w d) gen load sc st
      | .dataset => datasetWork conv (w d) gen load st

end Torchrir.Model
