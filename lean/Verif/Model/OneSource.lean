import Verif.Model.Contrib

/-!
# The images of one source

Model of `_compute_image_contributions` in `src/torchrir/sim/ism/contributions.py` (16-52).  Nothing in the package
calls it; `simulate_rir` uses the batched function.
-/

namespace Torchrir.Model

/-- An orientation tensor of shape `(dim,)`, `(k, dim)` or `(j, k, dim)`; more dimensions are not modelled. -/
inductive DirTensor where
  | one (v : Vec)
  | rows (l : List Vec)
  | table (l : List (List Vec))

/-- The sizes of the two axes before the last; a missing axis counts as one. -/
def DirTensor.dims : DirTensor → ℕ × ℕ
  | .one _ => (1, 1)
  | .rows l => (1, l.length)
  | .table l => (l.length, (l.headD []).length)

/-- An axis of size one is repeated. -/
def repeated (size i : ℕ) : ℕ := if size = 1 then 0 else i

/-- The direction used at an entry of the broadcast result. -/
def DirTensor.get (d : DirTensor) (m i : ℕ) : Vec :=
  match d with
  | .one v => v
  | .rows l => l.getD (repeated l.length i) []
  | .table l => (l.getD (repeated l.length m) []).getD (repeated (l.headD []).length i) []

/-- Broadcasting of one axis. -/
def broadcastSize (a b : ℕ) : Except String ℕ :=
  if a = b then .ok a
  else if a = 1 then .ok b
  else if b = 1 then .ok a
  else .error "RuntimeError: shapes cannot be broadcast"

/-- The direction of a device; an omnidirectional one does not look at it (contributions.py 41, 46). -/
def directionOf (pattern : String) (dir : Option DirTensor) : DirTensor :=
  if pattern = "omni" then .one [] else dir.getD (.one [])

/-- `_compute_image_contributions` (contributions.py 16-52): the samples, with a row for each microphone and a column
for each image, and the attenuations.  The orientations are broadcast against `vec` of shape
`(n_mic, n_img, dim)` as they are given (lines 44 and 49), so that the rows of a two-dimensional tensor go with the
images. -/
noncomputable def contributionsOne (src : Vec) (micPos : List Vec) (roomSize : Vec) (nVec : List (List ℤ))
    (refl : List ℝ) (c fs : ℝ) (fdl2 : ℕ) (srcPattern micPattern : String) (srcDir micDir : Option DirTensor) :
    Except String (List (List ℝ) × List (List ℝ)) := do
  raiseIf (srcPattern ≠ "omni" ∧ srcDir.isNone) "source orientation required for non-omni directivity"
  raiseIf (micPattern ≠ "omni" ∧ micDir.isNone) "mic orientation required for non-omni directivity"
  let img := imagePositions src roomSize nVec
  let sd := directionOf srcPattern srcDir
  let md := directionOf micPattern micDir
  let rows ← broadcastSize micPos.length sd.dims.1
  let rows ← broadcastSize rows md.dims.1
  let columns ← broadcastSize img.length sd.dims.2
  let columns ← broadcastSize columns md.dims.2
  let attenuation ← (List.range rows).mapM fun m => (List.range columns).mapM fun i => do
    let r ← pathContribution (img.getD (repeated img.length i) []) (micPos.getD (repeated micPos.length m) [])
      (refl.getD (repeated refl.length i) 0) c fs fdl2 srcPattern micPattern (sd.get m i) (md.get m i)
    return r.2
  let sample := micPos.map fun mic => img.map fun p => (max (norm2 (vsub mic p)) (1e-6) / c + fdl2 / fs) * fs
  return (sample, attenuation)

end Torchrir.Model
