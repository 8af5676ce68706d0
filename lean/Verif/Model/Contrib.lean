import Verif.Model.Images
import Verif.Model.Orientation
import Verif.Model.Directivity

/-!
# Arrival times and amplitudes of the images

Model of `src/torchrir/sim/ism/contributions.py`.
-/

namespace Torchrir.Model

/-- The microphone orientation argument after `orientation_to_unit`: a 2-D tensor gives one
row per microphone, anything else is flattened and shared (contributions.py 88-92, 136-140). -/
inductive MicDir where
  | perMic (rows : List Vec)
  | shared (v : Vec)

/-- Broadcasting of `mic_dir[None, :, None, :]` against `n_mic` microphones
(contributions.py 88-92).  Equal counts pair up, a single row is shared.  With one microphone
and several rows torch broadcasts to several rows and the later `amplitude.view(n_sm, -1)`
keeps the first one.  Everything else is a broadcasting error. -/
def micDirFor (d : MicDir) (nMic m : ℕ) : Except String Vec :=
  match d with
  | .shared v => .ok v
  | .perMic rows =>
    if rows.length = nMic then .ok (rows.getD m [])
    else if rows.length = 1 ∨ (nMic = 1 ∧ rows ≠ []) then .ok (rows.getD 0 [])
    else .error "RuntimeError: shapes cannot be broadcast"

/-- The same for an optional orientation; it is not used when there is none. -/
def micVec (md : Option MicDir) (nMic m : ℕ) : Except String Vec :=
  match md with
  | none => .ok []
  | some d => micDirFor d nMic m

/-- The directional gain factor of one device (contributions.py 79-84 and 85-94): 1 for the
literal name `"omni"`, otherwise `directivity_gain(pattern, _cos_between(vec, dir))`.
An orientation whose length is not that of `vec` is a broadcasting error. -/
noncomputable def deviceGain (pattern : String) (vec dir : Vec) : Except String ℝ :=
  if pattern = "omni" then .ok 1
  else if dir.length ≠ vec.length then .error "RuntimeError: shapes cannot be broadcast"
  else gainAt pattern (cosBetween vec dir)

/-- Sample position and attenuation for one image position and one microphone
(contributions.py 72-76, 96-97; the same lines in all three functions).
`fdl2` is half the kernel length. -/
noncomputable def pathContribution (img mic : Vec) (refl c fs : ℝ) (fdl2 : ℕ)
    (srcPattern micPattern : String) (srcDir micDir : Vec) : Except String (ℝ × ℝ) := do
  let vec := vsub mic img
  let dist := max (norm2 vec) (1e-6)
  let time := dist / c
  let time := time + fdl2 / fs
  let sample := time * fs
  let gs ← deviceGain srcPattern vec srcDir
  let gm ← deviceGain micPattern (vneg vec) micDir
  let gain := refl * gs * gm
  return (sample, gain / dist)

/-- `_compute_image_contributions_batch` (contributions.py 55-97): for every source, microphone
and image the pair (sample, attenuation).  `srcDirs` has one row per source. -/
noncomputable def contributionsBatch (srcPos micPos : List Vec) (roomSize : Vec)
    (nVec : List (List ℤ)) (refl : List ℝ) (c fs : ℝ) (fdl2 : ℕ)
    (srcPattern micPattern : String) (srcDirs : Option (List Vec)) (micDir : Option MicDir) :
    Except String (List (List (List (ℝ × ℝ)))) := do
  raiseIf (srcPattern ≠ "omni" ∧ srcDirs.isNone)
    "source orientation required for non-omni directivity"
  raiseIf (micPattern ≠ "omni" ∧ micDir.isNone)
    "mic orientation required for non-omni directivity"
  let img := imagePositionsBatch srcPos roomSize nVec
  (img.zipIdx).mapM fun (imgs, s) =>
    (micPos.zipIdx).mapM fun (mic, m) => do
      let sd := (srcDirs.getD []).getD s []
      let md ← micVec micDir micPos.length m
      (imgs.zip refl).mapM fun (p, r) =>
        pathContribution p mic r c fs fdl2 srcPattern micPattern sd md

/-- `_compute_image_contributions_time_batch` (contributions.py 100-145): the same for every
time step, with the image formula written out again (lines 115-118). -/
noncomputable def contributionsTimeBatch (srcTraj micTraj : List (List Vec)) (roomSize : Vec)
    (nVec : List (List ℤ)) (refl : List ℝ) (c fs : ℝ) (fdl2 : ℕ)
    (srcPattern micPattern : String) (srcDirs : Option (List Vec)) (micDir : Option MicDir) :
    Except String (List (List (List (List (ℝ × ℝ))))) := do
  raiseIf (srcPattern ≠ "omni" ∧ srcDirs.isNone)
    "source orientation required for non-omni directivity"
  raiseIf (micPattern ≠ "omni" ∧ micDir.isNone)
    "mic orientation required for non-omni directivity"
  let sign := nVec.map fun n => n.map fun i => if i % 2 = 0 then (1 : ℝ) else -1
  let half := nVec.map fun n => n.map fun i => (((i + 1) / 2 : ℤ) : ℝ)
  let base := half.map fun h => List.zipWith (fun l x => 2 * l * x) roomSize h
  (srcTraj.zip micTraj).mapM fun (srcs, mics) =>
    (srcs.zipIdx).mapM fun (src, s) =>
      (mics.zipIdx).mapM fun (mic, m) => do
        let sd := (srcDirs.getD []).getD s []
        let md ← micVec micDir mics.length m
        let imgs := List.zipWith
          (fun b sg => List.zipWith (· + ·) b (List.zipWith (· * ·) sg src)) base sign
        (imgs.zip refl).mapM fun (p, r) =>
          pathContribution p mic r c fs fdl2 srcPattern micPattern sd md

end Torchrir.Model
