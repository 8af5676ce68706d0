import Verif.Model.Argv
import Verif.Model.Benchmark

/-!
# The command line of the benchmark script

Model of the parser of `examples/benchmark_device.py`, and of its `main` on the words of a command line. The work after
the parser is that of `Model/Benchmark.lean`.
-/

namespace Torchrir.Model

/-- The parser (benchmark_device.py 118-138). -/
def benchParser : List Opt :=
  [⟨"--repeats", "repeats", .store .int none, .int 5⟩,
   ⟨"--gpu", "gpu", .store .str none, .str "auto"⟩,
   ⟨"--dynamic", "dynamic", .storeConst true, .bool false⟩,
   ⟨"--log-level", "log_level", .store .str none, .str "INFO"⟩]

/-- The arguments of a namespace. -/
def benchArgsOf (ns : List (String × Val)) : Except String BenchArgs := do
  let repeats ← asInt (attr ns "repeats")
  let gpu ← asText (attr ns "gpu")
  let dynamic ← asBool (attr ns "dynamic")
  let logLevel ← asText (attr ns "log_level")
  return ⟨repeats, gpu, dynamic, logLevel⟩

/-- `parser.parse_args()` (benchmark_device.py 139). -/
def benchArgv (cv : Conversions) (argv : List String) : Except String BenchArgs := do
  let given ← typedArgs benchParser argv
  let ns ← parseArgs cv benchParser [] given
  benchArgsOf ns

/-- `main` (benchmark_device.py 117-163). -/
noncomputable def benchMainArgv (cv : Conversions) (conv : Flt → ℤ) (env : BenchEnv) (argv : List String) : BenchRun Unit :=
  match benchArgv cv argv with
  | .error e => ([], .error e)
  | .ok a => benchMain conv env a

end Torchrir.Model
