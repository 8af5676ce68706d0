import Verif.Model.Audio
import Verif.Model.Logging
import Verif.Model.Room

/-!
# Options and configuration files of the command line program

Model of `_build_parser`, `_load_config`, `_dump_config`, `_normalize_config_values`, `_serialize_args` and `main`
of `examples/cli.py` and of `add_output_args` of `util/cli.py`, with the part of `argparse` they use.

Simplified: the command line is already split into options with their arguments (see `Verif.Model.Argv` for its
words). A configuration file is its parsed document here (see `Verif.Model.ConfigText` for its text), so writing a document and
reading it back gives the same values.
-/

namespace Torchrir.Model

/-- Python values in a namespace or in a configuration file; `other` stands for everything else. -/
inductive Val where
  | none
  | bool (b : Bool)
  | int (z : ℤ)
  | float (x : Flt)
  | str (s : String)
  | path (p : String)
  | list (l : List Val)
  | other (n : ℕ)

/-- The conversions of Python: `int(s)`, `float(s)` and `float(v)` may raise; `str(v)` for a value that is not a
path. -/
structure Conversions where
  int : String → Option ℤ
  float : String → Option Flt
  toFloat : Val → Option Flt
  str : Val → String

/-! ## Paths -/

/-- The root of a POSIX path: two slashes stay two, any other number of leading slashes is one. -/
def pathRoot : List Char → List Char
  | '/' :: '/' :: '/' :: _ => ['/']
  | '/' :: '/' :: _ => ['/', '/']
  | '/' :: _ => ['/']
  | _ => []

/-- The components of a POSIX path. -/
def pathParts (cs : List Char) : List (List Char) :=
  (cs.splitOn '/').filter fun p => p ≠ [] ∧ p ≠ ['.']

/-- `str(Path(s))` (pathlib of Python 3.11 on POSIX systems). -/
def pathChars (cs : List Char) : List Char :=
  if pathRoot cs = [] ∧ pathParts cs = [] then ['.']
  else pathRoot cs ++ ['/'].intercalate (pathParts cs)

/-- `Path(s)`. -/
def mkPath (s : String) : Val := .path (String.ofList (pathChars s.toList))

/-! ## Options -/

/-- The `type` of an option. -/
inductive ArgType where
  | str | int | float | path

/-- What an option does: store one argument, store a list, or set a flag. -/
inductive Action where
  | store (type : ArgType) (choices : Option (List String))
  | storeMany (type : ArgType)
  | storeConst (b : Bool)

/-- An option: flag, destination, action and default. -/
structure Opt where
  flag : String
  dest : String
  action : Action
  default : Val := .none

/-- `add_output_args` (util/cli.py 10-54). -/
def outputArgs (outDir : String) (plotDefault : Bool := false) (includePlot includeShow : Bool := true)
    (includeGif : Bool := false) : List Opt :=
  [⟨"--out-dir", "out_dir", .store .path none, mkPath outDir⟩] ++
  (if includePlot then
    [⟨"--plot", "plot", .storeConst true, .bool plotDefault⟩] ++
    (if plotDefault then [⟨"--no-plot", "plot", .storeConst false, .bool true⟩] else [])
  else []) ++
  (if includeShow then [⟨"--show", "show", .storeConst true, .bool false⟩] else []) ++
  (if includeGif then
    [⟨"--gif", "gif", .storeConst true, .bool false⟩, ⟨"--gif-fps", "gif_fps", .store .int none, .int (-1)⟩]
  else [])

/-- `_build_parser` (cli.py 209-285). -/
noncomputable def buildParser : List Opt :=
  [⟨"--mode", "mode", .store .str (some ["static", "dynamic_src", "dynamic_mic"]), .str "static"⟩,
   ⟨"--dataset-dir", "dataset_dir", .store .path none, mkPath "datasets/cmu_arctic"⟩,
   ⟨"--download", "download", .storeConst true, .bool true⟩,
   ⟨"--no-download", "download", .storeConst false, .bool true⟩,
   ⟨"--num-sources", "num_sources", .store .int none, .int 2⟩,
   ⟨"--duration", "duration", .store .float none, .float (.fin 10)⟩,
   ⟨"--seed", "seed", .store .int none, .int 0⟩,
   ⟨"--deterministic", "deterministic", .storeConst true, .bool false⟩,
   ⟨"--room", "room", .storeMany .float, .list [.float (.fin 6), .float (.fin 4), .float (.fin 3)]⟩,
   ⟨"--steps", "steps", .store .int none, .int 16⟩,
   ⟨"--order", "order", .store .int none, .int 8⟩,
   ⟨"--tmax", "tmax", .store .float none, .float (.fin 0.4)⟩,
   ⟨"--device", "device", .store .str none, .str "cpu"⟩] ++
  outputArgs "outputs" false (includeGif := true) ++
  [⟨"--log-level", "log_level", .store .str none, .str "INFO"⟩,
   ⟨"--config-in", "config_in", .store .path none, .none⟩,
   ⟨"--config-out", "config_out", .store .path none, .none⟩]

/-! ## The part of argparse that is used -/

/-- `_get_value` of argparse: the `type` applied to a string. -/
def convert (cv : Conversions) (t : ArgType) (s : String) : Except String Val :=
  match t with
  | .str => .ok (.str s)
  | .path => .ok (mkPath s)
  | .int => match cv.int s with
    | some z => .ok (.int z)
    | none => .error "invalid int value"
  | .float => match cv.float s with
    | some x => .ok (.float x)
    | none => .error "invalid float value"

/-- An option on the command line with its arguments. -/
structure Given where
  flag : String
  args : List String := []

/-- The value an option stores. -/
def storedValue (cv : Conversions) (o : Opt) (args : List String) : Except String Val :=
  match o.action, args with
  | .store t choices, [s] => do
    let v ← convert cv t s
    raiseIf (∃ l ∈ choices, s ∉ l) "invalid choice"
    return v
  | .store _ _, _ => .error "expected one argument"
  | .storeMany _, [] => .error "expected at least one argument"
  | .storeMany t, args => do
    let vs ← args.mapM (convert cv t)
    return .list vs
  | .storeConst b, [] => .ok (.bool b)
  | .storeConst _, _ => .error "unrecognized arguments"

/-- Destination and value of an option on the command line. -/
def storeGiven (cv : Conversions) (opts : List Opt) (g : Given) : Except String (String × Val) :=
  match opts.find? (·.flag = g.flag) with
  | none => .error "unrecognized arguments"
  | some o => do
    let v ← storedValue cv o g.args
    return (o.dest, v)

/-- The default of an option that was not given: the `type` is applied to strings, `choices` are not checked. -/
def defaultValue (cv : Conversions) (o : Opt) : Except String Val :=
  match o.default, o.action with
  | .str s, .store t _ => convert cv t s
  | .str s, .storeMany t => convert cv t s
  | v, _ => .ok v

/-- The last value stored at a destination. -/
def lastStored (stored : List (String × Val)) (dest : String) : Option Val := stored.reverse.lookup dest

/-- The value at the destination of an option. -/
def destValue (cv : Conversions) (stored : List (String × Val)) (o : Opt) : Except String (String × Val) :=
  match lastStored stored o.dest with
  | some v => .ok (o.dest, v)
  | none => do
    let v ← defaultValue cv o
    return (o.dest, v)

/-- `parser.parse_args()`: the namespace. `extra` are defaults without an option. -/
def parseArgs (cv : Conversions) (opts : List Opt) (extra : List (String × Val)) (given : List Given) :
    Except String (List (String × Val)) := do
  let stored ← given.mapM (storeGiven cv opts)
  let ns ← opts.mapM (destValue cv stored)
  return ns ++ extra

/-- `parser.set_defaults(**defaults)` as the options see it. -/
def setDefaults (opts : List Opt) (defaults : List (String × Val)) : List Opt :=
  opts.map fun o => { o with default := (defaults.lookup o.dest).getD o.default }

/-! ## Configuration files -/

/-- A parsed configuration file: a mapping, an empty document (or any other false value), something else. -/
inductive Doc where
  | mapping (entries : List (String × Val))
  | empty
  | other

/-- `path.suffix.lower() in (".yaml", ".yml")` (cli.py 56, 73). -/
def isYaml (path : String) : Bool :=
  let s := (String.ofList (suffixOf ((path.toList.splitOn '/').getLastD []))).toLower
  s = ".yaml" || s = ".yml"

/-- `_load_config` (cli.py 55-68) on a parsed document. -/
def loadConfig (path : String) (doc : Doc) : Except String (List (String × Val)) :=
  match doc with
  | .mapping entries => .ok entries
  | .empty => if isYaml path then .ok [] else .error "config must be a mapping"
  | .other => .error "config must be a mapping"

/-- `float(v)`. -/
def pyFloat (cv : Conversions) (v : Val) : Except String Val :=
  match v with
  | .float x => .ok (.float x)
  | v => match cv.toFloat v with
    | some x => .ok (.float x)
    | none => .error "could not convert to float"

/-- One entry of `_normalize_config_values` (cli.py 87-93). -/
def normalizeEntry (cv : Conversions) (e : String × Val) : Except String (String × Val) :=
  match e.2 with
  | .str s => .ok (e.1, if e.1 = "dataset_dir" ∨ e.1 = "out_dir" then mkPath s else .str s)
  | .list l =>
    if e.1 = "room" then do
      let l ← l.mapM (pyFloat cv)
      return (e.1, .list l)
    else .ok e
  | _ => .ok e

/-- `_normalize_config_values` (cli.py 85-94). -/
def normalizeConfig (cv : Conversions) (entries : List (String × Val)) : Except String (List (String × Val)) :=
  entries.mapM (normalizeEntry cv)

/-- `str(v)`. -/
def pyStr (cv : Conversions) : Val → Val
  | .path p => .str p
  | .str s => .str s
  | v => .str (cv.str v)

/-- `list(v)`; for a value other than a list it raises (a string does not reach it, see `defaultValue`; a mapping
would give its keys, which no room accepts). -/
def pyList : Val → Except String Val
  | .list l => .ok (.list l)
  | _ => .error "object is not iterable"

/-- `args.key`. -/
def attr (ns : List (String × Val)) (key : String) : Val := (ns.lookup key).getD .none

/-- The keys of `_serialize_args`. -/
def argKeys : List String :=
  ["mode", "dataset_dir", "download", "num_sources", "duration", "seed", "deterministic", "room", "steps", "order", "tmax",
   "device", "out_dir", "plot", "show", "gif", "gif_fps", "log_level"]

/-- `_serialize_args` (cli.py 171-191): directories are strings, the room is a list, the others are as they are. -/
def serializeArgs (cv : Conversions) (ns : List (String × Val)) : Except String (List (String × Val)) := do
  let room ← pyList (attr ns "room")
  return argKeys.map fun key => (key,
    if key = "dataset_dir" ∨ key = "out_dir" then pyStr cv (attr ns key) else if key = "room" then room else attr ns key)

/-! ## The program -/

/-- What the program does after its arguments are read: it writes a configuration and runs a scenario. -/
inductive CliEvent where
  | wrote (path : String) (config : List (String × Val))
  | ran (mode : String) (ns : List (String × Val))

/-- The first pass over the command line, which only looks for `--config-in` (cli.py 596): unknown options are
ignored. -/
def configIn (cv : Conversions) (opts : List Opt) (given : List Given) : Except String Val := do
  let ns ← parseArgs cv opts [] (given.filter fun g => opts.any (·.flag = g.flag))
  return attr ns "config_in"

/-- The defaults that come from the configuration file (cli.py 597-600). -/
def configDefaults (cv : Conversions) (files : String → Except String Doc) (v : Val) :
    Except String (List (String × Val)) :=
  match v with
  | .path p => do
    let doc ← files p
    let config ← loadConfig p doc
    normalizeConfig cv config
  | _ => .ok []

/-- The namespace the program works with (cli.py 595-601). -/
noncomputable def readArgs (cv : Conversions) (files : String → Except String Doc) (given : List Given) :
    Except String (List (String × Val)) := do
  let v ← configIn cv buildParser given
  let defaults ← configDefaults cv files v
  parseArgs cv (setDefaults buildParser defaults) defaults given

/-- Writing the configuration (cli.py 607-609). -/
def writeConfig (cv : Conversions) (ns : List (String × Val)) : Except String (List CliEvent) :=
  match attr ns "config_out" with
  | .none => .ok []
  | .path p => do
    let config ← serializeArgs cv ns
    return [.wrote p config]
  | _ => .error "object has no attribute 'parent'"

/-- The choice of the scenario (cli.py 612-619). -/
def runMode (ns : List (String × Val)) : List CliEvent × Except String Unit :=
  match attr ns "mode" with
  | .str "static" => ([.ran "static" ns], .ok ())
  | .str "dynamic_src" => ([.ran "dynamic_src" ns], .ok ())
  | .str "dynamic_mic" => ([.ran "dynamic_mic" ns], .ok ())
  | _ => ([], .error "unknown mode")

/-- `args.log_level` as the level of a `LoggingConfig` (cli.py 603); a Boolean is an integer. -/
def levelOf : Val → LevelArg
  | .str s => .name s
  | .int z => .num z
  | .bool b => .num (if b then 1 else 0)
  | _ => .other

/-- `int(seed)` in `torch.manual_seed`. -/
noncomputable def seedOf (cv : Conversions) : Val → Except String ℤ
  | .int z => .ok z
  | .bool b => .ok (if b then 1 else 0)
  | .float (.fin x) => .ok (trunc x)
  | .float _ => .error "cannot convert float to integer"
  | .str s => match cv.int s with
    | some z => .ok z
    | none => .error "invalid literal for int()"
  | _ => .error "int() argument must be a string, a bytes-like object or a real number"

/-- `torch.manual_seed(seed)` (cli.py 159), which takes the integers of 64 bits with or without a sign. -/
noncomputable def seedTorch (cv : Conversions) (v : Val) : Except String Unit := do
  let z ← seedOf cv v
  raiseIf (z < -2 ^ 63 ∨ 2 ^ 64 ≤ z) "Overflow when unpacking long"

/-- `setup_logging` and `_apply_determinism` (cli.py 603-605): what can raise. Deterministic kernels only warn. -/
noncomputable def prepareRun (cv : Conversions) (ns : List (String × Val)) : Except String Unit := do
  let _ ← resolveLevel (levelOf (attr ns "log_level"))
  seedTorch cv (attr ns "seed")

/-- `main` (cli.py 594-619): the events and the outcome. -/
noncomputable def cliMain (cv : Conversions) (files : String → Except String Doc) (given : List Given) :
    List CliEvent × Except String Unit :=
  match readArgs cv files given with
  | .error e => ([], .error e)
  | .ok ns =>
    match prepareRun cv ns with
    | .error e => ([], .error e)
    | .ok _ =>
      match writeConfig cv ns with
      | .error e => ([], .error e)
      | .ok written => (written ++ (runMode ns).1, (runMode ns).2)

end Torchrir.Model
