import Verif.Model.Benchmark
import Verif.Props.GettingStarted

/-!
# C107: the benchmark script
-/

namespace Torchrir.Spec
open Torchrir.Model

/-- The response between a source at `p` and a microphone at `q`: the sum over the images up to order `N` in the room of
8 by 6 by 3.5 m whose walls all have the coefficient 0.92, at 16 kHz, with the default kernel of 81 taps (interpolated
from the table of granularity 20 if `lut`), the speed of sound 343 m/s, and the filter `G` applied to every path. -/
noncomputable def benchResponse {K : ℕ} (lut : Bool) (N : ℕ) (G : (Fin K → ℝ) →ₗ[ℝ] (Fin K → ℝ)) (p q : Fin 3 → ℝ)
    (k : Fin K) : ℝ :=
  ∑ n ∈ orderSet 3 N, wallGain (fun _ => 0.92) (fun _ => 0.92) n / pathLength q (image ![8, 6, 3.5] p n) *
    G (fun j : Fin K => kernel (kernelShape lut 20) 81 (pathLength q (image ![8, 6, 3.5] p n) * 16000 / 343) j) k

/-- The two sources. -/
noncomputable def benchSources : Fin 2 → Fin 3 → ℝ := ![![1, 1.5, 1.2], ![4, 2.5, 1.4]]

/-- The four by four microphones, one metre apart, at a height of 1.2 m. -/
noncomputable def benchGrid (m : Fin 16) : Fin 3 → ℝ :=
  ![2 + ((m : ℕ) / 4 : ℕ), 1.5 + ((m : ℕ) % 4 : ℕ), 1.2]

/-- The workload on a device: with `dynamic` the moving one, with noise drawn on that device, otherwise the standing one;
each with what scipy and the random numbers are there. -/
noncomputable def workload (conv : Flt → ℤ) (env : BenchEnv) (dynamic : Bool) (dev : TorchDevice) :
    Except String (Tensor ℝ) :=
  match dynamic with
  | true => benchDynamic conv (env.world dev) (env.noise dev)
  | false => benchStatic conv (env.world dev)

/-- Average duration in milliseconds of `r` runs between two readings of a clock in seconds. -/
noncomputable def averageMs (start stop : ℝ) (r : ℕ) : ℝ := (stop - start) / r * 1000

end Torchrir.Spec

namespace Torchrir.Props
open Torchrir.Model Torchrir.Spec Torchrir.Lemmas

theorem benchJob_eq (conv : Flt → ℤ) (env : BenchEnv) (dynamic : Bool) (dev : TorchDevice) :
    benchJob conv env dynamic dev = workload conv env dynamic dev := by
  unfold benchJob workload
  cases dynamic
  · rw [if_neg (by decide)]
  · rw [if_pos rfl]

theorem benchRoom_eq (conv : Flt → ℤ) :
    benchRoom conv = .ok (boxRoom ![8, 6, 3.5] (fun _ => 0.92) (fun _ => 0.92) 16000 343) := by
  unfold benchRoom shoebox
  have e : List.replicate 6 (PyNum.float (.fin 0.92)) = List.ofFn fun _ : Fin 6 => PyNum.float (.fin 0.92) := by
    rw [List.ofFn_const]
  have e2 : (([8, 6, 3.5] : Vec).map fun x => PyNum.float (.fin x))
      = List.ofFn fun i => PyNum.float (.fin ((![8, 6, 3.5] : Fin 3 → ℝ) i)) := by
    simp [List.ofFn_succ]
  rw [e, e2]
  simp only [Option.map_some]
  rw [floats_ofFn conv (by norm_num) ![8, 6, 3.5], floats_ofFn conv (by norm_num) fun _ => 0.92]
  have e1 : ensureDimT ⟨[3], List.ofFn fun i => Flt.fin ((![8, 6, 3.5] : Fin 3 → ℝ) i)⟩ = .ok () := by
    unfold ensureDimT
    rw [raiseIf_ok]
    simp [Tensor.ndim, Tensor.numel]
  rw [e1, ok_bind, roomNew_of ⟨?_, ?_, ?_, ?_, by simp, by simp⟩ _ rfl ?_ ?_, ok_bind]
  · show Except.ok _ = Except.ok _
    unfold RoomObj.toRoom boxRoom wallList
    simp only [Except.ok.injEq, Room.mk.injEq, List.map_ofFn, Option.map_some, Option.map_none, storedBeta]
    refine ⟨rfl, rfl, rfl, ?_, trivial⟩
    simp [castTo, List.ofFn_succ, Flt.toReal]
  · simp [Tensor.ndim, Tensor.numel]
  · intro x hx
    obtain ⟨i, rfl⟩ := (List.mem_ofFn' _ _).mp hx
    exact ⟨_, by fin_cases i <;> norm_num, rfl⟩
  · simp [Flt.leZero]
  · simp [Flt.leZero]
  · simp [castTo, Tensor.numel]
  · intro x hx
    obtain ⟨i, rfl⟩ := (List.mem_ofFn' _ _).mp hx
    exact ⟨0.92, by norm_num, by norm_num, rfl⟩

theorem benchMics_eq : benchMics = rows benchGrid := by
  unfold benchMics rows benchGrid
  simp [List.ofFn_succ]
  norm_num [Fin.succ]

theorem samples_12800 : ((12800 : ℕ) : ℤ) = ⌈(0.8 : ℝ) * 16000⌉ := by
  rw [show (0.8 : ℝ) * 16000 = ((12800 : ℤ) : ℝ) by norm_num, Int.ceil_intCast]
  rfl

/-- **C107, standing workload.** It succeeds and gives the 2 by 16 responses of 0.8 s of the image method with the
images up to order 12, whatever scipy's filter does as long as it can be designed and is linear. -/
theorem C107_static_work (conv : Flt → ℤ) (w : World) (sos : w.Sos)
    (hsos : w.iirfilter 2 (10 / (16000 / 2)) [("rp", "5.0"), ("rs", "60.0"), ("ftype", "butter")] = .ok sos)
    (G : (Fin 12800 → ℝ) →ₗ[ℝ] (Fin 12800 → ℝ)) (hG : ActsAs w sos G) :
    benchStatic conv w
      = .ok (tensor3 fun s m => benchResponse (w.device ≠ .mps) 12 G (benchSources s) (benchGrid m)) := by
  have hsim := C85_filtered_formula (Or.inr rfl) (by norm_num) (by norm_num) w ![8, 6, 3.5] (fun _ => 0.92) (fun _ => 0.92)
    16000 343 (by norm_num) (by norm_num) (.order 12) 12800 (by norm_num)
    defaultConfig defaultConfig_valid rfl rfl (show (10 : ℝ) < 16000 / 2 by norm_num) sos hsos G hG benchSources benchGrid
  rw [← args_eq w ![8, 6, 3.5] _ _ 16000 343 benchSources benchGrid 12 12800 (by norm_num) 0.8 samples_12800] at hsim
  have hs : ([[1, 1.5, 1.2], [4, 2.5, 1.4]] : List Vec) = rows benchSources := by
    rw [rows2]
    rfl
  unfold benchStatic
  rw [benchRoom_eq, ok_bind, hs, benchMics_eq, pointsTensor_rows (by norm_num), pointsTensor_rows (by norm_num)]
  exact hsim

theorem benchPath_eq (path : Fin 24 → Fin 3 → ℝ) (hp : StraightPath ![2, 1, 1.2] ![4, 3, 1.2] path) :
    benchPath = Spec.steps fun (t : Fin 24) (_ : Fin 1) => path t := by
  unfold benchPath Spec.steps
  apply List.ext_getElem
  · simp
  · intro t h1 h2
    rw [List.getElem_map, List.getElem_range, List.getElem_ofFn]
    have e : ∀ i, path ⟨t, by simpa using h1⟩ i = (![2, 1, 1.2] : Fin 3 → ℝ) i
        + (t : ℝ) / (24 - 1) * ((![4, 3, 1.2] : Fin 3 → ℝ) i - (![2, 1, 1.2] : Fin 3 → ℝ) i) := fun i => by
      simpa using hp ⟨t, by simpa using h1⟩ i
    have e0 := e 0
    have e1 := e 1
    have e2 := e 2
    simp only [rows, List.ofFn_succ, List.ofFn_zero, Fin.succ_zero_eq_one, Fin.succ_one_eq_two, e0, e1, e2]
    simp [vadd, vsub]
    constructor <;> ring

theorem benchConvolve {n K : ℕ} (hn : 0 < n) (dev : DeviceType) (x : Fin 1 → Fin n → ℝ)
    (h : Fin 24 → Fin 1 → Fin 1 → Fin K → ℝ) (step : Fin n → Fin 24)
    (hstep : CurrentStep (fun t : Fin 24 => (t : ℕ) * (n : ℕ) / (24 : ℕ)) step) :
    ({ mode := "trajectory" } : Convolver).convolve dev ⟨[1, n], (tensor2 x).data⟩ (tensor4 h)
      = .ok (micTensor (n + K - 1) (mixVarying x h step)) :=
  C24_trajectory_formula dev x h (Or.inl rfl) (Or.inl rfl) (by norm_num) (by omega) (.uniform none) step hstep

/-- **C107, moving workload.** It succeeds: the microphone goes along a straight line in 24 steps, and the noise is
convolved with the responses of the current step, up to order 10. -/
theorem C107_dynamic_work (conv : Flt → ℤ) (w : World) (sos : w.Sos)
    (hsos : w.iirfilter 2 (10 / (16000 / 2)) [("rp", "5.0"), ("rs", "60.0"), ("ftype", "butter")] = .ok sos)
    (G : (Fin 12800 → ℝ) →ₗ[ℝ] (Fin 12800 → ℝ)) (hG : ActsAs w sos G) (x : Fin 1 → Fin 16000 → ℝ)
    (path : Fin 24 → Fin 3 → ℝ) (hp : StraightPath ![2, 1, 1.2] ![4, 3, 1.2] path)
    (step : Fin 16000 → Fin 24) (hstep : CurrentStep (fun t : Fin 24 => (t : ℕ) * (16000 : ℕ) / (24 : ℕ)) step) :
    benchDynamic conv w (tensor2 x).data
      = .ok (micTensor 28799 (mixVarying x (fun t (_ : Fin 1) (_ : Fin 1) =>
          benchResponse (w.device ≠ .mps) 10 G ![1, 1.5, 1.2] (path t)) step)) := by
  have hdyn : simulateDynamicRir w (boxRoom ![8, 6, 3.5] (fun _ => 0.92) (fun _ => 0.92) 16000 343)
      (tensor3 fun (_ : Fin 24) (_ : Fin 1) => ![1, 1.5, 1.2]) (tensor3 fun (t : Fin 24) (_ : Fin 1) => path t)
      { maxOrder := some ((10 : ℕ) : ℤ), tmax := some 0.8 }
      = .ok (tensor4 fun t (_ : Fin 1) (_ : Fin 1) =>
          benchResponse (w.device ≠ .mps) 10 G ![1, 1.5, 1.2] (path t)) := by
    refine (C13_dynamic_is_static_per_step (by norm_num) w
      (boxRoom ![8, 6, 3.5] (fun _ => 0.92) (fun _ => 0.92) 16000 343) ![8, 6, 3.5] rfl
      (show (0 : ℝ) < 16000 by norm_num) _ _ _ _).mpr ⟨_, fun t => ?_, (stack_tensor3 (by norm_num) _).symm⟩
    have := C85_filtered_formula (Or.inr rfl) one_pos one_pos w ![8, 6, 3.5] (fun _ => 0.92) (fun _ => 0.92)
      16000 343 (by norm_num) (by norm_num) (.order 10) 12800 (by norm_num) defaultConfig defaultConfig_valid rfl rfl
      (show (10 : ℝ) < 16000 / 2 by norm_num) sos hsos G hG (fun _ : Fin 1 => ![1, 1.5, 1.2]) (fun _ : Fin 1 => path t)
    rw [← args_eq w ![8, 6, 3.5] _ _ 16000 343 _ _ 10 12800 (by norm_num) 0.8 samples_12800] at this
    exact this
  have hsrc : List.replicate 24 [([1, 1.5, 1.2] : Vec)]
      = Spec.steps fun (_ : Fin 24) (_ : Fin 1) => (![1, 1.5, 1.2] : Fin 3 → ℝ) := by
    unfold Spec.steps
    rw [List.ofFn_const]
    simp [rows, List.ofFn_succ]
  unfold benchDynamic
  rw [benchRoom_eq, ok_bind, hsrc, benchPath_eq path hp, trajTensor_steps (by norm_num) one_pos,
    trajTensor_steps (by norm_num) one_pos]
  refine (congrArg (· >>= _) hdyn).trans ?_
  rw [ok_bind, show (28799 : ℕ) = 16000 + 12800 - 1 by norm_num]
  exact benchConvolve (by norm_num) w.device x _ step hstep

/-! ## The report -/

theorem benchRuns_ok {job : Except String (Tensor ℝ)} {y : Tensor ℝ} (h : job = .ok y) (dev : TorchDevice) (n : ℕ) :
    benchRuns job dev n = (List.replicate n (.run dev y), .ok ()) := by
  subst h
  induction n with
  | zero => rfl
  | succ n ih =>
    unfold benchRuns
    dsimp only
    rw [ih]
    rfl

theorem bench_eq {conv : Flt → ℤ} {env : BenchEnv} {dynamic : Bool} {dev : TorchDevice} {y : Tensor ℝ}
    (h : workload conv env dynamic dev = .ok y) (repeats : ℤ) (k : ℕ) :
    bench conv env dynamic dev repeats k = (List.replicate (repeats.toNat + 1) (.run dev y),
      if repeats = 0 then .error "ZeroDivisionError: float division by zero"
        else .ok ((env.clock (k + 1) - env.clock k) / repeats)) := by
  unfold bench
  rw [benchJob_eq, benchRuns_ok h, benchRuns_ok h]
  simp [BenchRun.andThen, List.replicate_succ]

theorem setup_ok {name : String} {l : ℤ} (h : levelNames.lookup name.toUpper = some l) :
    setupLogging { level := .name name } {} = (⟨l, false, [⟨l, "%(levelname)s:%(name)s:%(message)s"⟩]⟩, .ok ()) := by
  unfold setupLogging resolveLevel
  simp only [h]
  rfl

theorem resolve_cpu (t : Torch) : resolveDevice t (.str "cpu") = .ok ⟨"cpu", none⟩ := by
  have h : "cpu".toLower = "cpu" := by
    apply String.toList_inj.mp
    simp [String.toLower, String.toList_map]
  unfold resolveDevice resolveDeviceStr
  simp only [h]
  rw [if_neg (by decide), if_neg (by decide), if_neg (by decide), if_pos trivial]

/-- **C107, report.** With one repetition or more, a log level that exists and a device that torch knows, the script
runs the workload once to warm up and then as often as asked on the CPU and reports the average of the timed runs. If
the device chosen for comparison is the CPU it says so and ends. Otherwise the same follows for that device, and then the
ratio of the averages. Missing: other arguments, see below. -/
theorem C107_report_partial (conv : Flt → ℤ) (env : BenchEnv) (a : BenchArgs) (r : ℕ) (hr : a.repeats = (r : ℤ))
    (h1 : 1 ≤ r) (l : ℤ) (hl : levelNames.lookup a.logLevel.toUpper = some l) (dev : TorchDevice)
    (hdev : resolveDevice env.torch (.str a.gpu) = .ok dev) (y z : Tensor ℝ)
    (hy : workload conv env a.dynamic ⟨"cpu", none⟩ = .ok y) (hz : workload conv env a.dynamic dev = .ok z) :
    (dev.type = "cpu" → benchMain conv env a =
      (List.replicate (r + 1) (.run ⟨"cpu", none⟩ y) ++
        [.average ⟨"cpu", none⟩ a.dynamic (averageMs (env.clock 0) (env.clock 1) r), .noGpu], .ok ())) ∧
    (dev.type ≠ "cpu" → env.clock 2 ≠ env.clock 3 → benchMain conv env a =
      (List.replicate (r + 1) (.run ⟨"cpu", none⟩ y) ++
        [.average ⟨"cpu", none⟩ a.dynamic (averageMs (env.clock 0) (env.clock 1) r)] ++
        List.replicate (r + 1) (.run dev z) ++
        [.average dev a.dynamic (averageMs (env.clock 2) (env.clock 3) r),
          .speedup (averageMs (env.clock 0) (env.clock 1) r / averageMs (env.clock 2) (env.clock 3) r)], .ok ())) := by
  have hr0 : (r : ℝ) ≠ 0 := by
    have : 0 < r := h1
    positivity
  have hr1 : ¬ ((r : ℤ) = 0) := by omega
  unfold benchMain benchGpu
  rw [setup_ok hl, resolve_cpu, hdev, hr]
  simp only [BenchRun.andThen, bench_eq hy, bench_eq hz]
  simp only [hr1, if_false, Int.toNat_natCast, List.nil_append, Int.cast_natCast, zero_add]
  constructor
  · intro hc
    rw [if_pos hc]
    simp [averageMs]
  · intro hc hclock
    have hz : (env.clock (2 + 1) - env.clock 2) / (r : ℝ) ≠ 0 := div_ne_zero (sub_ne_zero.mpr hclock.symm) hr0
    rw [if_neg hc]
    unfold benchRatio
    rw [if_neg hz]
    simp [averageMs]
    field_simp

/-- **C107 fails: arguments are not checked before the work.** With no repetitions the script ends in a division by zero
after the warm-up. -/
theorem C107_zero_repeats_fails (conv : Flt → ℤ) (env : BenchEnv) (a : BenchArgs) (hr : a.repeats = 0) (l : ℤ)
    (hl : levelNames.lookup a.logLevel.toUpper = some l) (y : Tensor ℝ)
    (hy : workload conv env a.dynamic ⟨"cpu", none⟩ = .ok y) :
    ∃ e, benchMain conv env a = ([.run ⟨"cpu", none⟩ y], .error e) := by
  unfold benchMain
  rw [setup_ok hl, resolve_cpu, hr]
  simp only [BenchRun.andThen, bench_eq hy]
  exact ⟨_, rfl⟩

/-- **C107 fails: a negative number of repetitions is accepted.** Nothing is timed, and on a clock that goes forward the
reported average is negative. -/
theorem C107_negative_repeats_fails (conv : Flt → ℤ) (env : BenchEnv) (a : BenchArgs) (hr : a.repeats < 0) (l : ℤ)
    (hl : levelNames.lookup a.logLevel.toUpper = some l) (y : Tensor ℝ)
    (hy : workload conv env a.dynamic ⟨"cpu", none⟩ = .ok y) (hclock : env.clock 0 < env.clock 1)
    (dev : TorchDevice) (hdev : resolveDevice env.torch (.str a.gpu) = .ok dev) (hc : dev.type = "cpu") :
    ∃ ms < 0, benchMain conv env a = ([.run ⟨"cpu", none⟩ y, .average ⟨"cpu", none⟩ a.dynamic ms, .noGpu], .ok ()) := by
  have h0 : ¬ a.repeats = 0 := by omega
  have h1 : a.repeats.toNat = 0 := by omega
  have h2 : ((a.repeats : ℤ) : ℝ) < 0 := by exact_mod_cast hr
  refine ⟨(env.clock 1 - env.clock 0) / a.repeats * 1000, ?_, ?_⟩
  · have := div_neg_of_pos_of_neg (sub_pos.mpr hclock) h2
    linarith
  · unfold benchMain benchGpu
    rw [setup_ok hl, resolve_cpu, hdev]
    simp only [BenchRun.andThen, bench_eq hy, h0, if_false, h1, hc, if_true]
    rfl

/-- **C107 fails: an unknown device is found after the work.** All runs on the CPU have been done and reported when a
device that torch does not know is rejected. -/
theorem C107_unknown_device_fails (conv : Flt → ℤ) (env : BenchEnv) (a : BenchArgs) (r : ℕ) (hr : a.repeats = (r : ℤ))
    (h1 : 1 ≤ r) (l : ℤ) (hl : levelNames.lookup a.logLevel.toUpper = some l) (e : String)
    (hdev : resolveDevice env.torch (.str a.gpu) = .error e) (y : Tensor ℝ)
    (hy : workload conv env a.dynamic ⟨"cpu", none⟩ = .ok y) :
    benchMain conv env a = (List.replicate (r + 1) (.run ⟨"cpu", none⟩ y) ++
      [.average ⟨"cpu", none⟩ a.dynamic (averageMs (env.clock 0) (env.clock 1) r)], .error e) := by
  have hr1 : ¬ ((r : ℤ) = 0) := by omega
  unfold benchMain benchGpu
  rw [setup_ok hl, resolve_cpu, hdev, hr]
  simp only [BenchRun.andThen, bench_eq hy]
  simp only [hr1, if_false, Int.toNat_natCast, List.nil_append, Int.cast_natCast, zero_add]
  simp [averageMs]

/-- **C107, log level.** A level that does not exist is rejected before any work. -/
theorem C107_bad_level (conv : Flt → ℤ) (env : BenchEnv) (a : BenchArgs)
    (hl : levelNames.lookup a.logLevel.toUpper = none) : ∃ e, benchMain conv env a = ([], .error e) := by
  have h : (setupLogging { level := .name a.logLevel } {}).2 = .error "unknown log level" := by
    unfold setupLogging resolveLevel
    simp only [hl]
  unfold benchMain
  rw [h]
  exact ⟨_, rfl⟩

theorem pair_of_lookup {β : Type} {n : String} {b : β} : ∀ {l : List (String × β)}, l.lookup n = some b → (n, b) ∈ l
  | [], h => by simp at h
  | (m, c) :: l, h => by
    rw [List.lookup_cons] at h
    split at h
    · rename_i hm
      cases h
      rw [beq_iff_eq] at hm
      rw [hm]
      exact List.mem_cons_self
    · exact List.mem_cons_of_mem _ (pair_of_lookup h)

/-- **C107, what is shown.** The averages and the ratio appear at the levels `INFO` and `DEBUG`, in any spelling, and at
no other; the warning that there is no GPU appears at these, at `WARN`, `WARNING` and at `NOTSET`. -/
theorem C107_shown (a : BenchArgs) (l : ℤ) (hl : levelNames.lookup a.logLevel.toUpper = some l)
    (events : List BenchEvent) (e : BenchEvent) :
    e ∈ benchShown a events ↔ e ∈ events ∧
      match e with
      | .run _ _ => False
      | .average _ _ _ | .speedup _ => a.logLevel.toUpper = "INFO" ∨ a.logLevel.toUpper = "DEBUG"
      | .noGpu => a.logLevel.toUpper ∈ ["INFO", "DEBUG", "WARN", "WARNING", "NOTSET"] := by
  unfold benchShown
  rw [setup_ok hl, List.mem_filter]
  refine and_congr_right fun _ => ?_
  generalize a.logLevel.toUpper = name at hl ⊢
  have hcases : (name, l) ∈ levelNames := by
    exact pair_of_lookup hl
  simp only [levelNames, List.mem_cons, Prod.mk.injEq, List.not_mem_nil, or_false] at hcases
  cases e <;> rcases hcases with ⟨rfl, rfl⟩ | ⟨rfl, rfl⟩ | ⟨rfl, rfl⟩ | ⟨rfl, rfl⟩ | ⟨rfl, rfl⟩ | ⟨rfl, rfl⟩ | ⟨rfl, rfl⟩ | ⟨rfl, rfl⟩ <;>
    simp [BenchEvent.level, Logger.emitting, Logger.effectiveLevel]

/-! ## Cases meeting the hypotheses -/

/-- A computer without a GPU whose clock reads 0, 1, 2 and so on. -/
noncomputable def plainEnv (randn : ℤ → List ℕ → List ℝ) (x : Fin 1 → Fin 16000 → ℝ) : BenchEnv :=
  ⟨⟨false, false, fun _ => .error "RuntimeError"⟩, fun _ => halvingWorld randn, fun _ => (tensor2 x).data, fun k => k⟩

theorem some_step {T : ℕ} (N : ℕ) (hT : 0 < T) :
    ∃ step : Fin N → Fin T, CurrentStep (fun t : Fin T => (t : ℕ) * N / T) step := by
  obtain ⟨step, hstep, -⟩ := C24_every_sample_has_one_step (T := T) (N := N) hT (.uniform none)
  exact ⟨step, hstep⟩

theorem plainEnv_job (conv : Flt → ℤ) (randn : ℤ → List ℕ → List ℝ) (x : Fin 1 → Fin 16000 → ℝ) (dynamic : Bool)
    (dev : TorchDevice) : ∃ y, workload conv (plainEnv randn x) dynamic dev = .ok y := by
  cases dynamic with
  | false =>
    unfold workload plainEnv
    dsimp only
    exact ⟨_, C107_static_work conv (halvingWorld randn) () rfl _ (halving_acts randn 12800)⟩
  | true =>
    obtain ⟨step, hstep⟩ := some_step (T := 24) 16000 (by norm_num)
    have h := C107_dynamic_work conv (halvingWorld randn) () rfl _ (halving_acts randn 12800) x
      (fun t i => (![2, 1, 1.2] : Fin 3 → ℝ) i + (t : ℝ) / (((24 : ℕ) : ℝ) - 1) *
        ((![4, 3, 1.2] : Fin 3 → ℝ) i - (![2, 1, 1.2] : Fin 3 → ℝ) i)) (fun t i => rfl) step hstep
    refine ⟨_, Eq.trans ?_ h⟩
    unfold workload plainEnv
    dsimp only

theorem plain_auto (randn : ℤ → List ℕ → List ℝ) (x : Fin 1 → Fin 16000 → ℝ) :
    resolveDevice (plainEnv randn x).torch (.str "auto") = .ok ⟨"cpu", none⟩ := by
  have h : "auto".toLower = "auto" := by
    apply String.toList_inj.mp
    simp [String.toLower, String.toList_map]
  unfold resolveDevice resolveDeviceStr
  simp only [h, if_true]
  simp [plainEnv, firstAvailable, defaultPrefer]

theorem info_level : levelNames.lookup "INFO".toUpper = some 20 := by
  have h : "INFO".toUpper = "INFO" := by
    apply String.toList_inj.mp
    simp [String.toUpper, String.toList_map]
  rw [h]
  decide

/-- The moving workload with the other options at their defaults: six runs take a second. -/
example (conv : Flt → ℤ) (randn : ℤ → List ℕ → List ℝ) (x : Fin 1 → Fin 16000 → ℝ) :
    ∃ y, benchMain conv (plainEnv randn x) { dynamic := true } =
      (List.replicate 6 (.run ⟨"cpu", none⟩ y) ++ [.average ⟨"cpu", none⟩ true 200, .noGpu], .ok ()) := by
  obtain ⟨y, hy⟩ := plainEnv_job conv randn x true ⟨"cpu", none⟩
  have := (C107_report_partial conv (plainEnv randn x) { dynamic := true } 5 rfl (by norm_num) 20 info_level
    ⟨"cpu", none⟩ (plain_auto randn x) y y hy hy).1 rfl
  refine ⟨y, this.trans ?_⟩
  have e : averageMs ((plainEnv randn x).clock 0) ((plainEnv randn x).clock 1) 5 = 200 := by
    show averageMs ((0 : ℕ) : ℝ) ((1 : ℕ) : ℝ) 5 = 200
    norm_num [averageMs]
  rw [e]

/-- `--repeats 0`, `--repeats -1`, and `--gpu tpu`, which torch does not know. -/
example (conv : Flt → ℤ) (randn : ℤ → List ℕ → List ℝ) (x : Fin 1 → Fin 16000 → ℝ) :
    (∃ y e, benchMain conv (plainEnv randn x) { repeats := 0 } = ([.run ⟨"cpu", none⟩ y], .error e)) ∧
    (∃ y, ∃ ms < 0, benchMain conv (plainEnv randn x) { repeats := -1 } =
      ([.run ⟨"cpu", none⟩ y, .average ⟨"cpu", none⟩ false ms, .noGpu], .ok ())) ∧
    ∃ events e, benchMain conv (plainEnv randn x) { gpu := "tpu" } = (events, .error e) ∧ events.length = 7 := by
  obtain ⟨y, hy⟩ := plainEnv_job conv randn x false ⟨"cpu", none⟩
  refine ⟨⟨y, C107_zero_repeats_fails conv (plainEnv randn x) { repeats := 0 } rfl 20 info_level y hy⟩,
    ⟨y, C107_negative_repeats_fails conv (plainEnv randn x) { repeats := -1 } (by norm_num) 20 info_level y hy ?_
      ⟨"cpu", none⟩ (plain_auto randn x) rfl⟩,
    _, "RuntimeError", C107_unknown_device_fails conv (plainEnv randn x) { gpu := "tpu" } 5 rfl (by norm_num) 20 info_level
      "RuntimeError" ?_ y hy, by simp⟩
  · show ((0 : ℕ) : ℝ) < ((1 : ℕ) : ℝ)
    norm_num
  · have h : "tpu".toLower = "tpu" := by
      apply String.toList_inj.mp
      simp [String.toLower, String.toList_map]
    unfold resolveDevice resolveDeviceStr
    simp only [h]
    rw [if_neg (by decide), if_neg (by decide), if_neg (by decide), if_neg (by decide)]
    rfl

end Torchrir.Props
