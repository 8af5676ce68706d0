import Verif.Model.Cli
import Verif.Model.BuilderCli
import Verif.Model.ScriptCli

/-!
# The command line as it is typed

Model of the part of `argparse` (Python 3.11, which the project requires) that splits the words of a command line into
options with their arguments, for parsers without positional arguments: `_parse_optional`, `_get_option_tuples` and
`_parse_known_args`. With it, the programs of `Model/Cli.lean`, `Model/ScriptCli.lean` and `Model/BuilderCli.lean` are
started from the words. Which of several errors is reported is left out; asking for help is an error that ends the
program. Digits are those of ASCII, and a line break after a negative number is left out.
-/

namespace Torchrir.Model

/-- What a word of the command line is: an argument, an option with the argument after `=`, or an unknown option. -/
inductive Word where
  | value
  | option (flag : String) (arg : Option String)
  | unknown

/-- `_negative_number_matcher`, i.e. `^-\d+$|^-\d*\.\d+$`. -/
def isNegativeNumber : List Char → Bool
  | '-' :: cs =>
    (cs ≠ [] && cs.all Char.isDigit) ||
      match cs.dropWhile Char.isDigit with
      | '.' :: ds => ds ≠ [] && ds.all Char.isDigit
      | _ => false
  | _ => false

/-- The part of a word before the first `=`. -/
def namePart (s : String) : List Char := s.toList.takeWhile (· ≠ '=')

/-- The part after it, if there is one. -/
def argPart (s : String) : Option String :=
  match s.toList.dropWhile (· ≠ '=') with
  | [] => none
  | _ :: rest => some (String.ofList rest)

/-- `_get_option_tuples`: the options that a word may abbreviate. -/
def optionTuples (flags : List String) (s : String) : List Word :=
  match s.toList with
  | '-' :: '-' :: _ =>
    (flags.filter fun f => (namePart s).isPrefixOf f.toList).map fun f => .option f (argPart s)
  | '-' :: c :: rest =>
    flags.filterMap fun f =>
      if f.toList = ['-', c] then some (.option f (some (String.ofList rest)))
      else if s.toList.isPrefixOf f.toList then some (.option f none)
      else none
  | _ => []

/-- `_parse_optional`. -/
def classify (flags : List String) (s : String) : Except String Word :=
  if s.toList.head? ≠ some '-' then .ok .value
  else if s ∈ flags then .ok (.option s none)
  else if s = "-" then .ok .value
  else if argPart s ≠ none ∧ String.ofList (namePart s) ∈ flags then
    .ok (.option (String.ofList (namePart s)) (argPart s))
  else
    match optionTuples flags s with
    | [] => if isNegativeNumber s.toList || ' ' ∈ s.toList then .ok .value else .ok .unknown
    | [w] => .ok w
    | _ :: _ :: _ => .error "ambiguous option"

/-- The word is an argument. -/
def Word.isValue : Word → Bool
  | .value => true
  | _ => false

/-- The loop of `_parse_known_args`: the options with their arguments and the words that were left over. -/
def consume (opts : List Opt) : List (String × Word) → Except String (List Given × List String)
  | [] => .ok ([], [])
  | (s, .value) :: rest => do
    let (given, extras) ← consume opts rest
    return (given, s :: extras)
  | (s, .unknown) :: rest => do
    let (given, extras) ← consume opts rest
    return (given, s :: extras)
  | (_, .option flag arg) :: rest =>
    match opts.find? (·.flag = flag) with
    | none => .error "help"
    | some o =>
      match o.action, arg with
      | .storeConst _, none => do
        let (given, extras) ← consume opts rest
        return (⟨flag, []⟩ :: given, extras)
      | .storeConst _, some _ => .error "ignored explicit argument"
      | .store _ _, some a => do
        let (given, extras) ← consume opts rest
        return (⟨flag, [a]⟩ :: given, extras)
      | .storeMany _, some a => do
        let (given, extras) ← consume opts rest
        return (⟨flag, [a]⟩ :: given, extras)
      | .store _ _, none =>
        match rest with
        | (a, .value) :: rest => do
          let (given, extras) ← consume opts rest
          return (⟨flag, [a]⟩ :: given, extras)
        | _ => .error "expected one argument"
      | .storeMany _, none =>
        if rest.takeWhile (·.2.isValue) = [] then .error "expected at least one argument"
        else do
          let (given, extras) ← consume opts (rest.dropWhile (·.2.isValue))
          return (⟨flag, (rest.takeWhile (·.2.isValue)).map Prod.fst⟩ :: given, extras)
  termination_by l => l.length
  decreasing_by
    all_goals simp_wf
    exact (List.dropWhile_suffix _).length_le

/-- The names of the options, with those of the help. -/
def flagsOf (opts : List Opt) : List String := "-h" :: "--help" :: opts.map (·.flag)

/-- A word with what it is. -/
def classified (flags : List String) (s : String) : Except String (String × Word) := do
  let w ← classify flags s
  return (s, w)

/-- `parser.parse_known_args()`: everything from the word `--` on is left over. -/
def splitArgv (opts : List Opt) (argv : List String) : Except String (List Given × List String) := do
  let words ← (argv.takeWhile (· ≠ "--")).mapM (classified (flagsOf opts))
  let (given, extras) ← consume opts words
  return (given, extras ++ argv.dropWhile (· ≠ "--"))

/-- The options of `parser.parse_args()`, which leaves nothing over. -/
def typedArgs (opts : List Opt) (argv : List String) : Except String (List Given) := do
  let (given, extras) ← splitArgv opts argv
  raiseIf (extras ≠ []) "unrecognized arguments"
  return given

/-- `main` of the command line program (cli.py 594-619) on the words: what the first pass leaves over is ignored, and the
second pass refuses it. -/
noncomputable def readArgv (cv : Conversions) (files : String → Except String Doc) (argv : List String) :
    Except String (List (String × Val)) := do
  let (first, _) ← splitArgv buildParser argv
  let v ← configIn cv buildParser first
  let defaults ← configDefaults cv files v
  let given ← typedArgs (setDefaults buildParser defaults) argv
  parseArgs cv (setDefaults buildParser defaults) defaults given

/-- `main` (cli.py 594-619) on the words. -/
noncomputable def cliArgv (cv : Conversions) (files : String → Except String Doc) (argv : List String) :
    List CliEvent × Except String Unit :=
  match readArgv cv files argv with
  | .error e => ([], .error e)
  | .ok ns =>
    match prepareRun cv ns with
    | .error e => ([], .error e)
    | .ok _ =>
      match writeConfig cv ns with
      | .error e => ([], .error e)
      | .ok written => (written ++ (runMode ns).1, (runMode ns).2)

/-- The settings of an example script from the words (static.py 125, dynamic_src.py 132, dynamic_mic.py 126,
build_dynamic_dataset.py 283). -/
noncomputable def scriptArgv (cv : Conversions) (p : Program) (argv : List String) : Except String ScriptSettings := do
  let given ← typedArgs (scriptParser p) argv
  scriptSettings cv p given

/-- The namespace of the dataset builder from the words (dynamic_cmu_arctic.py 891). -/
noncomputable def builderArgv (cv : Conversions) (argv : List String) : Except String (List (String × Val)) := do
  let given ← typedArgs builderParser argv
  builderArgs cv given

end Torchrir.Model
