import Verif.Model.Audio
import Verif.Model.Builder

/-!
# Levels of saved audio in floating point

`_save_audio` of `Verif.Model.Audio`, and `_normalize_sources` and the mixture of `Verif.Model.Builder`, with every
operation rounded. Overflow and underflow are left out.
-/

namespace Torchrir.Model

/-- The conversion to single precision and the normalisation of `_save_audio` (audio.py 111-117): `fl` rounds to single
precision. The largest magnitude is one of the samples and is passed as a Python number without a change; the peak is
rounded when it meets the tensor. -/
noncomputable def normalizePeakFloat (fl : ℝ → ℝ) (audio : Tensor ℝ) (normalize : Bool) (peak : ℝ) :
    Except String (Tensor ℝ) :=
  let data := audio.data.map fl
  if normalize then
    if peak ≤ 0 then .error "peak must be positive when normalize=True"
    else if 0 < peakOf data then .ok ⟨audio.shape, data.map fun x => fl (fl (x / peakOf data) * fl peak)⟩
    else .ok ⟨audio.shape, data⟩
  else .ok ⟨audio.shape, data⟩

/-- `_save_audio` (audio.py 99-123) in floating point, see `saveAudio`. -/
noncomputable def saveAudioFloat (fl : ℝ → ℝ) (audio : Tensor ℝ) (normalize : Bool := true) (peak : ℝ := 1) :
    Except String AudioFile := do
  let audio ← normalizePeakFloat fl audio normalize peak
  sfWrite (framesFirst audio)

/-- `_normalize_sources` (dynamic_cmu_arctic.py 407-414) in double precision, see `normalizeSources`; the limit is the
number next to 0.99. -/
noncomputable def normalizeSourcesFloat (fl : ℝ → ℝ) (stems : List (Tensor ℝ)) : Except String (List (Tensor ℝ)) :=
  if stems = [] ∨ ∃ s ∈ stems, s.data = [] then .error "max() of an empty sequence"
  else
    let peak := (stems.flatMap fun s => s.data.map (|·|)).foldl max 0
    if peak ≤ 0 ∨ peak ≤ fl 0.99 then .ok stems
    else .ok (stems.map fun s => ⟨s.shape, s.data.map fun v => fl (v * fl (fl 0.99 / peak))⟩)

/-- `np.sum(np.stack(stems, axis=0), axis=0)` (dynamic_cmu_arctic.py 654) in double precision, see `mixStems`: the stems
are added one after the other. -/
noncomputable def mixStemsFloat (fl : ℝ → ℝ) (stems : List (Tensor ℝ)) : Except String (Tensor ℝ) :=
  match stems with
  | [] => .error "need at least one array to stack"
  | s :: rest =>
    if ∃ t ∈ stems, t.shape ≠ s.shape then .error "all input arrays must have the same shape"
    else .ok ⟨s.shape, rest.foldl (fun acc t => List.zipWith (fun a b => fl (a + b)) acc t.data) s.data⟩

end Torchrir.Model
