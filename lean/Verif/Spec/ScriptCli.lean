import Verif.Model.ScriptCli

/-!
# Specification: the command lines of the example scripts

What each option means, as the change it makes to the settings of a run.
-/

namespace Torchrir.Spec

open Torchrir.Model

/-- `str(Path(s))`. -/
def pathText (s : String) : String := String.ofList (pathChars s.toList)

/-- The option `g` is known to the script `p` and changes the settings as described. -/
inductive Sets (cv : Conversions) : Program → Given → ScriptSettings → ScriptSettings → Prop where
  | datasetDir (p st) (s : String) : Sets cv p ⟨"--dataset-dir", [s]⟩ st { st with datasetDir := some (pathText s) }
  | download (p st) : Sets cv p ⟨"--download", []⟩ st { st with download := true }
  | noDownload (sc st) : Sets cv (.script sc) ⟨"--no-download", []⟩ st { st with download := false }
  | dataset (st) (s : String) (h : s = "cmu_arctic" ∨ s = "librispeech") :
      Sets cv .dataset ⟨"--dataset", [s]⟩ st { st with dataset := s }
  | subset (st) (s : String) : Sets cv .dataset ⟨"--subset", [s]⟩ st { st with subset := s }
  | numScenes (st) (s : String) (z : ℤ) (h : cv.int s = some z) :
      Sets cv .dataset ⟨"--num-scenes", [s]⟩ st { st with numScenes := z }
  | numSources (p st) (s : String) (z : ℤ) (h : cv.int s = some z) :
      Sets cv p ⟨"--num-sources", [s]⟩ st { st with numSources := z }
  | numMics (p st) (s : String) (z : ℤ) (h : cv.int s = some z) :
      Sets cv p ⟨"--num-mics", [s]⟩ st { st with numMics := z }
  | numMoving (p st) (s : String) (z : ℤ) (hp : p = .script .dynamicSrc ∨ p = .dataset) (h : cv.int s = some z) :
      Sets cv p ⟨"--num-moving-sources", [s]⟩ st { st with numMoving := z }
  | duration (p st) (s : String) (x : Flt) (h : cv.float s = some x) :
      Sets cv p ⟨"--duration", [s]⟩ st { st with duration := x }
  | seed (p st) (s : String) (z : ℤ) (h : cv.int s = some z) : Sets cv p ⟨"--seed", [s]⟩ st { st with seed := z }
  | room (p st) (s : String) (ss : List String) (xs : List Flt) (h : (s :: ss).mapM cv.float = some xs) :
      Sets cv p ⟨"--room", s :: ss⟩ st { st with room := xs }
  | steps (p st) (s : String) (z : ℤ) (hp : p ≠ .script .static) (h : cv.int s = some z) :
      Sets cv p ⟨"--steps", [s]⟩ st { st with steps := z }
  | order (p st) (s : String) (z : ℤ) (h : cv.int s = some z) : Sets cv p ⟨"--order", [s]⟩ st { st with order := z }
  | tmax (p st) (s : String) (x : Flt) (h : cv.float s = some x) : Sets cv p ⟨"--tmax", [s]⟩ st { st with tmax := x }
  | device (p st) (s : String) : Sets cv p ⟨"--device", [s]⟩ st { st with device := s }
  | outDir (p st) (s : String) : Sets cv p ⟨"--out-dir", [s]⟩ st { st with outDir := pathText s }
  | plot (p st) : Sets cv p ⟨"--plot", []⟩ st { st with plot := true }
  | shown (sc st) : Sets cv (.script sc) ⟨"--show", []⟩ st { st with shown := true }
  | level (p st) (s : String) : Sets cv p ⟨"--log-level", [s]⟩ st { st with level := s }

/-- The settings without any option. -/
noncomputable def scriptDefaults : Program → ScriptSettings
  | .script _ =>
    { dataset := "cmu_arctic", datasetDir := some "datasets/cmu_arctic", subset := "", download := true, numScenes := 1
      numSources := 2, numMics := 2, numMoving := 1, duration := .fin 10, seed := 0, room := [.fin 6, .fin 4, .fin 3]
      steps := 16, order := 8, tmax := .fin 0.4, device := "cpu", outDir := "outputs", plot := false, shown := false
      level := "INFO" }
  | .dataset =>
    { dataset := "cmu_arctic", datasetDir := none, subset := "train-clean-100", download := false, numScenes := 4
      numSources := 2, numMics := 2, numMoving := 1, duration := .fin 6, seed := 0, room := [.fin 6, .fin 4, .fin 3]
      steps := 64, order := 6, tmax := .fin 0.4, device := "cpu", outDir := "outputs/dynamic_dataset", plot := false
      shown := false, level := "INFO" }

/-- The settings after the options of a command line, one after the other. -/
inductive Reads (cv : Conversions) (p : Program) : List Given → ScriptSettings → Prop where
  | start : Reads cv p [] (scriptDefaults p)
  | next (l : List Given) (g : Given) (st st' : ScriptSettings) :
      Reads cv p l st → Sets cv p g st st' → Reads cv p (l ++ [g]) st'

/-- The names of the levels of the log, in capital letters. -/
def logLevels : List String := ["CRITICAL", "FATAL", "ERROR", "WARN", "WARNING", "INFO", "DEBUG", "NOTSET"]

end Torchrir.Spec
