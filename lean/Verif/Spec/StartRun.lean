import Verif.Model.StartRun
import Verif.Spec.GettingStarted

/-!
# Specification of whole runs of the getting-started example
-/

namespace Torchrir.Spec

open Torchrir.Model

/-- The files of the script in the order they are saved. -/
def startNames : List String :=
  ["static_original_src01.wav", "static_original_src02.wav", "static_convolved.wav", "layout_static.png",
   "static_original_src01_pair.png", "static_original_src02_pair.png", "static_convolved_mic1_pair.png",
   "static_convolved_mic2_pair.png",
   "dynamic_original_src01.wav", "dynamic_original_src02.wav", "dynamic_convolved.wav", "layout_dynamic.gif",
   "dynamic_original_src01_pair.png", "dynamic_original_src02_pair.png", "dynamic_convolved_mic1_pair.png",
   "dynamic_convolved_mic2_pair.png"]

/-- An audio file of the sound `y`, brought to a peak of 1. -/
def IsSound (fs channels len : ℕ) (y : Fin channels → ℕ → ℝ) : StartFile → Prop
  | .sound audio rate => rate = fs ∧ ∃ gain, SavedAs audio channels len y gain
  | _ => False

/-- The plot of the signal `y`: sample `k` is drawn above the time `k / fs`. -/
def IsCurve (fs len : ℕ) (title : String) (y : ℕ → ℝ) : StartFile → Prop
  | .pair times samples rate text => rate = fs ∧ text = title ∧ times.length = len ∧ samples.length = len ∧
      ∀ k < len, times[k]? = some ((k : ℝ) / fs) ∧ samples[k]? = some (y k)
  | _ => False

/-- The files of one half of the script: what is heard in the signals `x` and at the microphones, and the picture. -/
def halfFiles (pre title : String) (fs n len : ℕ) (x y : Fin 2 → ℕ → ℝ) (picture : String × (StartFile → Prop)) :
    List (String × (StartFile → Prop)) :=
  [(pre ++ "_original_src01.wav", IsSound fs 1 n fun _ => x 0), (pre ++ "_original_src02.wav", IsSound fs 1 n fun _ => x 1),
   (pre ++ "_convolved.wav", IsSound fs 2 len y), picture,
   (pre ++ "_original_src01_pair.png", IsCurve fs n (title ++ " original source 1") (x 0)),
   (pre ++ "_original_src02_pair.png", IsCurve fs n (title ++ " original source 2") (x 1)),
   (pre ++ "_convolved_mic1_pair.png", IsCurve fs len (title ++ " convolved mic 1") (y 0)),
   (pre ++ "_convolved_mic2_pair.png", IsCurve fs len (title ++ " convolved mic 2") (y 1))]

/-- The files are there, each with the contents it should have. -/
def Found (wanted : List (String × (StartFile → Prop))) (files : List (String × StartFile)) : Prop :=
  List.Forall₂ (fun want file => file.1 = want.1 ∧ want.2 file.2) wanted files

end Torchrir.Spec
