import Verif.Model.Tensor

/-!
# Logging

Model of `src/torchrir/logging.py` and the part of Python's `logging` it uses.
-/

namespace Torchrir.Model

/-- The `level` field of a `LoggingConfig` (logging.py 21). -/
inductive LevelArg where
  | num (n : ℤ)
  | name (s : String)
  | other

/-- `logging._nameToLevel`. -/
def levelNames : List (String × ℤ) :=
  [("CRITICAL", 50), ("FATAL", 50), ("ERROR", 40), ("WARN", 30), ("WARNING", 30), ("INFO", 20), ("DEBUG", 10),
    ("NOTSET", 0)]

/-- `LoggingConfig.resolve_level` (logging.py 26-35). -/
def resolveLevel : LevelArg → Except String ℤ
  | .num n => .ok n
  | .name s =>
    match levelNames.lookup s.toUpper with
    | some n => .ok n
    | none => .error "unknown log level"
  | .other => .error "level must be str or int"

/-- A `LoggingConfig`; formats are kept as they are (logging.py 10-24). -/
structure LoggingConfig where
  level : LevelArg := .name "INFO"
  format : String := "%(levelname)s:%(name)s:%(message)s"
  propagate : Bool := false

/-- A `logging.StreamHandler` with its level and format. -/
structure Handler where
  level : ℤ
  format : String

/-- A `logging.Logger`; a fresh one has level 0 and no handlers. -/
structure Logger where
  level : ℤ := 0
  propagate : Bool := true
  handlers : List Handler := []

/-- `setup_logging` on the logger of the given name (logging.py 42-60): the logger afterwards and the outcome. -/
def setupLogging (config : LoggingConfig) (l : Logger) : Logger × Except String Unit :=
  match resolveLevel config.level with
  | .error e => (l, .error e)
  | .ok level =>
    ({ level := level, propagate := config.propagate
       handlers := if l.handlers = [] then [⟨level, config.format⟩] else l.handlers }, .ok ())

/-- The logger after a sequence of calls. -/
def setupMany (configs : List LoggingConfig) (l : Logger) : Logger :=
  configs.foldl (fun l c => (setupLogging c l).1) l

/-- `logger.getEffectiveLevel()`: level 0 means that the level of the ancestors counts. -/
def Logger.effectiveLevel (l : Logger) (ancestors : ℤ) : ℤ := if l.level ≠ 0 then l.level else ancestors

/-- The handlers of the logger that emit a record of the given level. -/
def Logger.emitting (l : Logger) (ancestors : ℤ) (record : ℤ) : List Handler :=
  if l.effectiveLevel ancestors ≤ record then l.handlers.filter fun h => decide (h.level ≤ record) else []

/-- `get_logger` (logging.py 63-75): the name of the logger that is returned. -/
def getLogger (name : Option String) : String :=
  let n := name.getD ""
  if n = "" then "torchrir"
  else if "torchrir".toList <+: n.toList then n
  else "torchrir." ++ n

end Torchrir.Model
