import Verif.Model.Cli

/-!
# Specification of the options and configuration of the command line program
-/

namespace Torchrir.Spec

open Torchrir.Model

/-- What an option on the command line means: the setting it changes and the value it gives it. -/
inductive OptionMeans (cv : Conversions) : Given → String → Val → Prop
  | mode (m : String) (h : m = "static" ∨ m = "dynamic_src" ∨ m = "dynamic_mic") :
      OptionMeans cv ⟨"--mode", [m]⟩ "mode" (.str m)
  | directory (flag dest s : String) (h : (flag, dest) ∈ [("--dataset-dir", "dataset_dir"), ("--out-dir", "out_dir"),
      ("--config-in", "config_in"), ("--config-out", "config_out")]) : OptionMeans cv ⟨flag, [s]⟩ dest (mkPath s)
  | noDownload : OptionMeans cv ⟨"--no-download", []⟩ "download" (.bool false)
  | on (flag dest : String) (h : (flag, dest) ∈ [("--download", "download"), ("--deterministic", "deterministic"),
      ("--plot", "plot"), ("--show", "show"), ("--gif", "gif")]) : OptionMeans cv ⟨flag, []⟩ dest (.bool true)
  | integer (flag dest s : String) (z : ℤ) (h : (flag, dest) ∈ [("--num-sources", "num_sources"), ("--seed", "seed"),
      ("--steps", "steps"), ("--order", "order"), ("--gif-fps", "gif_fps")]) (hs : cv.int s = some z) :
      OptionMeans cv ⟨flag, [s]⟩ dest (.int z)
  | real (flag dest s : String) (x : Flt) (h : (flag, dest) ∈ [("--duration", "duration"), ("--tmax", "tmax")])
      (hs : cv.float s = some x) : OptionMeans cv ⟨flag, [s]⟩ dest (.float x)
  | room (s : String) (ss : List String) (xs : List Flt) (h : (s :: ss).mapM cv.float = some xs) :
      OptionMeans cv ⟨"--room", s :: ss⟩ "room" (.list (xs.map .float))
  | text (flag dest s : String) (h : (flag, dest) ∈ [("--device", "device"), ("--log-level", "log_level")]) :
      OptionMeans cv ⟨flag, [s]⟩ dest (.str s)

/-- The settings and their built-in values. -/
noncomputable def builtin : List (String × Val) :=
  [("mode", .str "static"), ("dataset_dir", .path "datasets/cmu_arctic"), ("download", .bool true),
   ("num_sources", .int 2), ("duration", .float (.fin 10)), ("seed", .int 0), ("deterministic", .bool false),
   ("room", .list [.float (.fin 6), .float (.fin 4), .float (.fin 3)]), ("steps", .int 16), ("order", .int 8),
   ("tmax", .float (.fin 0.4)), ("device", .str "cpu"), ("out_dir", .path "outputs"), ("plot", .bool false),
   ("show", .bool false), ("gif", .bool false), ("gif_fps", .int (-1)), ("log_level", .str "INFO"),
   ("config_in", .none), ("config_out", .none)]

/-- The settings that a written configuration contains. -/
def savedKeys : List String :=
  ["mode", "dataset_dir", "download", "num_sources", "duration", "seed", "deterministic", "room", "steps", "order",
   "tmax", "device", "out_dir", "plot", "show", "gif", "gif_fps", "log_level"]

/-- How a value of a configuration file is understood: directories and rooms are converted, strings for numbers are
read as on the command line, everything else is taken as it is. -/
inductive Understood (cv : Conversions) : String → Val → Val → Prop
  | directory (key s : String) (h : key ∈ ["dataset_dir", "out_dir", "config_in", "config_out"]) :
      Understood cv key (.str s) (mkPath s)
  | integer (key s : String) (z : ℤ) (h : key ∈ ["num_sources", "seed", "steps", "order", "gif_fps"])
      (hs : cv.int s = some z) : Understood cv key (.str s) (.int z)
  | real (key s : String) (x : Flt) (h : key ∈ ["duration", "tmax", "room"]) (hs : cv.float s = some x) :
      Understood cv key (.str s) (.float x)
  | text (key s : String) (h : key ∈ ["mode", "device", "log_level", "download", "deterministic", "plot", "show", "gif"]) :
      Understood cv key (.str s) (.str s)
  | room (l l' : List Val) (h : List.Forall₂ (fun v v' => pyFloat cv v = .ok v') l l') :
      Understood cv "room" (.list l) (.list l')
  | same (key : String) (v : Val) (h1 : ∀ s, v ≠ .str s) (h2 : key = "room" → ∀ l, v ≠ .list l) :
      Understood cv key v v

/-- The last option for a setting gives it the value `v`. -/
def LastGiven (cv : Conversions) (given : List Given) (key : String) (v : Val) : Prop :=
  ∃ pre g post, given = pre ++ g :: post ∧ OptionMeans cv g key v ∧ ∀ g' ∈ post, ∀ v', ¬ OptionMeans cv g' key v'

/-- There is no option for a setting. -/
def NotGiven (cv : Conversions) (given : List Given) (key : String) : Prop :=
  ∀ g ∈ given, ∀ v, ¬ OptionMeans cv g key v

/-- The last component of a path ends in `.yaml` or `.yml`, in any case, after a non-empty stem. -/
def NamedYaml (p : String) : Prop :=
  ∃ dir stem ext, p.toList = dir ++ (stem ++ '.' :: ext) ∧ (dir = [] ∨ ∃ d, dir = d ++ ['/']) ∧
    '/' ∉ stem ∧ stem ≠ [] ∧ (ext.map Char.toLower = "yaml".toList ∨ ext.map Char.toLower = "yml".toList)

/-- The entries of the configuration that is used: none without `--config-in`, otherwise those of the file it names.
An empty file is no configuration at all, which is only allowed for YAML. -/
inductive ConfigUsed (cv : Conversions) (files : String → Except String Doc) (given : List Given) :
    List (String × Val) → Prop
  | absent (h : NotGiven cv given "config_in") : ConfigUsed cv files given []
  | file (p : String) (entries : List (String × Val)) (h : LastGiven cv given "config_in" (.path p))
      (hd : files p = .ok (.mapping entries)) : ConfigUsed cv files given entries
  | emptyYaml (p : String) (h : LastGiven cv given "config_in" (.path p)) (hd : files p = .ok .empty)
      (hy : NamedYaml p) : ConfigUsed cv files given []

/-- Where the value of a setting comes from: the last option for it, else the configuration, else the built-in
value `b`. -/
inductive Setting (cv : Conversions) (given : List Given) (entries : List (String × Val)) (key : String) (b : Val) :
    Val → Prop
  | given (v : Val) (h : LastGiven cv given key v) : Setting cv given entries key b v
  | config (v v' : Val) (h : NotGiven cv given key) (hc : entries.lookup key = some v) (hu : Understood cv key v v') :
      Setting cv given entries key b v'
  | builtin (h : NotGiven cv given key) (hc : entries.lookup key = none) : Setting cv given entries key b b

/-- A configuration as the program itself writes it: directories are strings and the room is a list. -/
structure Plausible (entries : List (String × Val)) : Prop where
  datasetDir : ∀ v, entries.lookup "dataset_dir" = some v → ∃ s, v = .str s
  outDir : ∀ v, entries.lookup "out_dir" = some v → ∃ s, v = .str s
  room : ∀ v, entries.lookup "room" = some v → ∃ l, v = .list l

/-- Settings of the expected kinds: directories are paths, the room is a list of numbers, and no number is a string. -/
structure Typed (ns : List (String × Val)) : Prop where
  datasetDir : ∃ s, attr ns "dataset_dir" = mkPath s
  outDir : ∃ s, attr ns "out_dir" = mkPath s
  room : ∃ xs : List Flt, attr ns "room" = .list (xs.map .float)
  numbers : ∀ key ∈ ["num_sources", "seed", "steps", "order", "gif_fps", "duration", "tmax"], ∀ s,
    attr ns key ≠ .str s

/-- The words for a level of the log, in capitals. -/
def levelWords : List String :=
  ["CRITICAL", "FATAL", "ERROR", "WARN", "WARNING", "INFO", "DEBUG", "NOTSET"]

/-- A level for the log: one of the words in any case, or a number. -/
inductive LevelKnown : Val → Prop
  | word (s : String) (h : s.toUpper ∈ levelWords) : LevelKnown (.str s)
  | number (n : ℤ) : LevelKnown (.int n)
  | truth (b : Bool) : LevelKnown (.bool b)

/-- The integer that a seed stands for: a finite float is cut towards zero. -/
inductive SeedIs (cv : Conversions) : Val → ℤ → Prop
  | integer (z : ℤ) : SeedIs cv (.int z) z
  | truth (b : Bool) : SeedIs cv (.bool b) (if b then 1 else 0)
  | real (x : ℝ) (z : ℤ) (h : |(z : ℝ)| ≤ |x|) (h' : |x - z| < 1) : SeedIs cv (.float (.fin x)) z
  | text (s : String) (z : ℤ) (h : cv.int s = some z) : SeedIs cv (.str s) z

/-- Settings with which the program can start: a known level for the log and a seed of 64 bits. -/
structure Ready (cv : Conversions) (ns : List (String × Val)) : Prop where
  level : LevelKnown (attr ns "log_level")
  seed : ∃ z, SeedIs cv (attr ns "seed") z ∧ -2 ^ 63 ≤ z ∧ z < 2 ^ 64

end Torchrir.Spec
