import Verif.Model.Logging

/-!
# What is printed when the package logs

Model of the loggers below `torchrir` in one process (`src/torchrir/logging.py`) and of the part of Python's `logging`
that turns a call such as `get_logger("examples.cli").info(message)` (examples/cli.py 604 and later) into printed lines.
Names are lists of characters.
-/

namespace Torchrir.Model

/-- The loggers of a process. A logger that nobody asked for is a fresh one: it would print nothing and pass everything on,
so that it makes no difference whether it exists. -/
structure LogState where
  logger : List Char → Logger
  root : Logger

/-- A process that has not touched logging: the root logger has the level WARNING and no handler. -/
def freshLogs : LogState := { logger := fun _ => {}, root := { level := 30 } }

/-- `name.rfind(".", 0, e)`. -/
def lastDot (name : List Char) : ℕ → Option ℕ
  | 0 => none
  | e + 1 => if name[e]? = some '.' then some e else lastDot name e

theorem lastDot_lt {name : List Char} {e i : ℕ} (h : lastDot name e = some i) : i < e := by
  induction e with
  | zero => cases h
  | succ e ih =>
    unfold lastDot at h
    split_ifs at h
    · have := Option.some.inj h
      omega
    · exact (ih h).trans (Nat.lt_succ_self e)

/-- The names that `Manager._fixupParents` looks at, from the nearest one on; the search for the next dot ends one character
before the last one, as in `name.rfind(".", 0, i - 1)`. Python stops at the first logger that exists and goes on with the
ancestors of that one, which are the same unless the name has two dots in a row; for such names the list is right as long
as nobody asked for a logger whose name ends with a dot. -/
def parentNames (name : List Char) (e : ℕ) : List (List Char) :=
  match h : lastDot name e with
  | none => []
  | some 0 => []
  | some (i + 1) => name.take (i + 1) :: parentNames name i
termination_by e
decreasing_by
  have := lastDot_lt h
  omega

/-- A logger and its ancestors without the root. -/
def chain (name : List Char) : List (List Char) := name :: parentNames name name.length

/-- `Logger.getEffectiveLevel`. -/
def LogState.effective (st : LogState) : List (List Char) → ℤ
  | [] => st.root.level
  | n :: rest => if (st.logger n).level ≠ 0 then (st.logger n).level else st.effective rest

/-- The handlers that `Logger.callHandlers` goes through. -/
def LogState.reached (st : LogState) : List (List Char) → List Handler
  | [] => st.root.handlers
  | n :: rest => (st.logger n).handlers ++ if (st.logger n).propagate then st.reached rest else []

/-- `logging.getLevelName`. -/
def levelName (level : ℤ) : List Char :=
  if level = 50 then "CRITICAL".toList
  else if level = 40 then "ERROR".toList
  else if level = 30 then "WARNING".toList
  else if level = 20 then "INFO".toList
  else if level = 10 then "DEBUG".toList
  else if level = 0 then "NOTSET".toList
  else "Level ".toList ++ (toString level).toList

/-- A record: level, name of the logger, message. -/
structure LogRecord where
  level : ℤ
  name : List Char
  message : List Char

/-- The fields of a record that a format may use here. -/
def LogRecord.field (r : LogRecord) (f : List Char) : Option (List Char) :=
  if f = "levelname".toList then some (levelName r.level)
  else if f = "name".toList then some r.name
  else if f = "message".toList then some r.message
  else none

/-- `Formatter.format` with a format of text, `%%` and `%(field)s`; `none` for all other formats, which are not modelled.
The number bounds the steps. -/
def renderLog (r : LogRecord) : ℕ → List Char → Option (List Char)
  | 0, _ => none
  | _ + 1, [] => some []
  | k + 1, c :: rest =>
    if c = '%' then
      match rest with
      | '%' :: more => (renderLog r k more).map ('%' :: ·)
      | '(' :: more =>
        match more.dropWhile (· ≠ ')') with
        | ')' :: 's' :: after =>
          match r.field (more.takeWhile (· ≠ ')')), renderLog r k after with
          | some t, some ts => some (t ++ ts)
          | _, _ => none
        | _ => none
      | _ => none
    else (renderLog r k rest).map (c :: ·)

/-- What one handler prints. -/
def Handler.print (h : Handler) (r : LogRecord) : Option (List Char) :=
  renderLog r (h.format.toList.length + 1) h.format.toList

/-- `logger.log(level, message)`: what is printed, one entry per handler. Without any handler the message alone is printed
from WARNING on (`logging.lastResort`). `logging.disable` and filters are not used by the package. -/
def LogState.log (st : LogState) (name : List Char) (level : ℤ) (message : List Char) : List (Option (List Char)) :=
  if level < st.effective (chain name) then []
  else
    let handlers := st.reached (chain name)
    if handlers = [] then (if 30 ≤ level then [some message] else [])
    else (handlers.filter fun h => decide (h.level ≤ level)).map fun h => h.print ⟨level, name, message⟩

/-- `setup_logging(config)` for the logger of the package (logging.py 42-60). -/
def LogState.setup (st : LogState) (config : LoggingConfig) : LogState :=
  { st with logger := Function.update st.logger "torchrir".toList (setupLogging config (st.logger "torchrir".toList)).1 }

end Torchrir.Model
