import Verif.Model.CliScene
import Verif.Model.Device
import Verif.Model.Logging

/-!
# The benchmark script

Model of `examples/benchmark_device.py`: the two workloads, the repetition and the report. The text of the messages and
waiting for the devices are left out. Positions are real numbers instead of 32 bit floats.
-/

namespace Torchrir.Model

/-- The command line (benchmark_device.py 118-139). -/
structure BenchArgs where
  repeats : ℤ := 5
  gpu : String := "auto"
  dynamic : Bool := false
  logLevel : String := "INFO"

/-- What the script finds: torch, the world of each device, what `torch.randn(1, 16000, device=device)` gives on a
device, and the readings of `time.perf_counter()` in the order in which they are taken. -/
structure BenchEnv where
  torch : Torch
  world : TorchDevice → World
  noise : TorchDevice → List ℝ
  clock : ℕ → ℝ

/-- What the script does: a run of the workload with its result, the report of an average in milliseconds, the warning
that there is no GPU, the report of the ratio. -/
inductive BenchEvent where
  | run (device : TorchDevice) (result : Tensor ℝ)
  | average (device : TorchDevice) (dynamic : Bool) (ms : ℝ)
  | noGpu
  | speedup (ratio : ℝ)

/-- A part of the script: the events and how it ended. -/
abbrev BenchRun (α : Type) := List BenchEvent × Except String α

/-- One part after the other. -/
def BenchRun.andThen {α β : Type} (x : BenchRun α) (f : α → BenchRun β) : BenchRun β :=
  match x.2 with
  | .ok a => (x.1 ++ (f a).1, (f a).2)
  | .error e => (x.1, .error e)

/-- The room of both workloads (benchmark_device.py 35, 67). -/
noncomputable def benchRoom (conv : Flt → ℤ) : Except String Room := do
  let room ← shoebox conv (([8, 6, 3.5] : Vec).map fun x => .float (.fin x)) (.fin 16000)
    (beta := some (List.replicate 6 (.float (.fin 0.92))))
  return room.toRoom

/-- The grid of microphones (benchmark_device.py 37-41). -/
noncomputable def benchMics : List Vec :=
  ([2, 3, 4, 5] : List ℝ).flatMap fun x => ([1.5, 2.5, 3.5, 4.5] : List ℝ).map fun y => [x, y, 1.2]

/-- The standing workload (benchmark_device.py 35-46). -/
noncomputable def benchStatic (conv : Flt → ℤ) (w : World) : Except String (Tensor ℝ) := do
  let room ← benchRoom conv
  simulateRir w room ⟨pointsTensor [[1, 1.5, 1.2], [4, 2.5, 1.4]], none⟩ ⟨pointsTensor benchMics, none⟩
    { maxOrder := some 12, tmax := some 0.8 }

/-- The way of the microphone (benchmark_device.py 76-81). -/
noncomputable def benchPath : List (List Vec) :=
  (List.range 24).map fun (t : ℕ) =>
    [vadd [2, 1, 1.2] ((vsub [4, 3, 1.2] [2, 1, 1.2]).map fun x => x * (t : ℝ) / ((24 : ℝ) - 1))]

/-- The moving workload (benchmark_device.py 67-92): the responses and the convolution. -/
noncomputable def benchDynamic (conv : Flt → ℤ) (w : World) (noise : List ℝ) : Except String (Tensor ℝ) := do
  let room ← benchRoom conv
  let rirs ← simulateDynamicRir w room (trajTensor (List.replicate 24 [[1, 1.5, 1.2]])) (trajTensor benchPath)
    { maxOrder := some 10, tmax := some 0.8 }
  ({ mode := "trajectory" } : Convolver).convolve w.device ⟨[1, 16000], noise⟩ rirs

/-- The workload on a device. -/
noncomputable def benchJob (conv : Flt → ℤ) (env : BenchEnv) (dynamic : Bool) (dev : TorchDevice) :
    Except String (Tensor ℝ) :=
  if dynamic then benchDynamic conv (env.world dev) (env.noise dev) else benchStatic conv (env.world dev)

/-- `n` runs of a workload (the warm-up and the loops, benchmark_device.py 44-46, 53-56, 84-92, 99-108). -/
def benchRuns (job : Except String (Tensor ℝ)) (dev : TorchDevice) : ℕ → BenchRun Unit
  | 0 => ([], .ok ())
  | n + 1 =>
    match job with
    | .ok y => BenchRun.andThen ([.run dev y], .ok ()) fun _ => benchRuns job dev n
    | .error e => ([], .error e)

/-- `_bench_once` and `_bench_dynamic` (benchmark_device.py 33-62, 65-114): the average duration in seconds. `k` readings
of the clock were taken before. -/
noncomputable def bench (conv : Flt → ℤ) (env : BenchEnv) (dynamic : Bool) (dev : TorchDevice) (repeats : ℤ) (k : ℕ) :
    BenchRun ℝ :=
  BenchRun.andThen (benchRuns (benchJob conv env dynamic dev) dev 1) fun _ =>
    BenchRun.andThen (benchRuns (benchJob conv env dynamic dev) dev repeats.toNat) fun _ =>
      ([], if repeats = 0 then .error "ZeroDivisionError: float division by zero"
        else .ok ((env.clock (k + 1) - env.clock k) / repeats))

/-- The report of the ratio (benchmark_device.py 163). -/
noncomputable def benchRatio (cpu gpu : ℝ) : BenchRun Unit :=
  if gpu = 0 then ([], .error "ZeroDivisionError: float division by zero") else ([.speedup (cpu / gpu)], .ok ())

/-- The part of `main` for the GPU (benchmark_device.py 152-163). -/
noncomputable def benchGpu (conv : Flt → ℤ) (env : BenchEnv) (a : BenchArgs) (cpu : ℝ) : BenchRun Unit :=
  BenchRun.andThen ([], resolveDevice env.torch (.str a.gpu)) fun dev =>
    if dev.type = "cpu" then ([.noGpu], .ok ())
    else BenchRun.andThen (bench conv env a.dynamic dev a.repeats 2) fun gpu =>
      BenchRun.andThen ([.average dev a.dynamic (gpu * 1000)], .ok ()) fun _ => benchRatio cpu gpu

/-- `main` after the command line was parsed (benchmark_device.py 142-163). -/
noncomputable def benchMain (conv : Flt → ℤ) (env : BenchEnv) (a : BenchArgs) : BenchRun Unit :=
  BenchRun.andThen ([], (setupLogging { level := .name a.logLevel } {}).2) fun _ =>
    BenchRun.andThen ([], resolveDevice env.torch (.str "cpu")) fun dev =>
      BenchRun.andThen (bench conv env a.dynamic dev a.repeats 0) fun cpu =>
        BenchRun.andThen ([.average dev a.dynamic (cpu * 1000)], .ok ()) fun _ => benchGpu conv env a cpu

/-- The level of the message of an event; a run gives none (benchmark_device.py 147, 150, 154, 159, 162, 163). -/
def BenchEvent.level : BenchEvent → Option ℤ
  | .run _ _ => none
  | .average _ _ _ => some 20
  | .noGpu => some 30
  | .speedup _ => some 20

/-- The events whose message appears on the terminal: the logger of the script has no level and no handler of its own,
so that those of `torchrir` count; the root logger has the level of warnings. -/
def benchShown (a : BenchArgs) (events : List BenchEvent) : List BenchEvent :=
  let logger := (setupLogging { level := .name a.logLevel } {}).1
  events.filter fun e =>
    match e.level with
    | some l => !(logger.emitting 30 l).isEmpty
    | none => false

end Torchrir.Model
