import Verif.Model.Config

/-!
# Fractional-delay accumulation

Model of `src/torchrir/sim/ism/accumulate.py`.
-/

namespace Torchrir.Model

/-- The precomputed tables used by the accumulation (accumulate.py 50-55). -/
structure Tables where
  grid : List ℝ
  offsets : List ℤ
  window : List ℝ
  lut : List ℝ

/-- `fdl2 = (fdl - 1) // 2` (accumulate.py 48, 140, 163; api.py 96, 199). -/
def halfLen (fdl : ℕ) : ℕ := (fdl - 1) / 2

/-- `torch.arange(fdl)` (accumulate.py 131). -/
def fdlGrid (fdl : ℕ) : List ℝ := (List.range fdl).map fun (j : ℕ) => (j : ℝ)

/-- `torch.arange(fdl) - fdl2` (accumulate.py 140-141). -/
def fdlOffsets (fdl : ℕ) : List ℤ :=
  (List.range fdl).map fun (j : ℕ) => (j : ℤ) - (halfLen fdl : ℤ)

/-- `torch.hann_window(fdl, periodic=False)` (accumulate.py 150). -/
noncomputable def hannWindow (fdl : ℕ) : List ℝ :=
  if fdl = 1 then [1]
  else (List.range fdl).map fun (j : ℕ) =>
    (1 - Real.cos (2 * Real.pi * j / ((fdl : ℝ) - 1))) / 2

/-- `_get_sinc_lut` without its cache (accumulate.py 163-166). -/
noncomputable def sincLut (fdl gran : ℕ) : List ℝ :=
  (linspace (-(halfLen fdl : ℝ) - 1) ((halfLen fdl : ℝ) + 1) ((fdl + 1) * gran + 1)).map sinc

/-- The tables as computed on a cache miss. -/
noncomputable def freshTables (fdl gran : ℕ) : Tables :=
  ⟨fdlGrid fdl, fdlOffsets fdl, hannWindow fdl, sincLut fdl gran⟩

/-- Table lookup with linear interpolation, times window, for one fractional delay
(accumulate.py 70-80).  `n.to(torch.int64)` is written as a floor (the entries are
non-negative integers). -/
noncomputable def filtLut (tb : Tables) (gran : ℕ) (frac : ℝ) : Except String (List ℝ) := do
  let xOffFrac := (1 - frac) * gran
  let granOff := ⌊xOffFrac⌋
  let xOff := xOffFrac - granOff
  let interp ← tb.grid.mapM fun n => do
    let pos := granOff + ⌊n⌋ * (gran : ℤ)
    let s0 ← torchTake tb.lut pos
    let s1 ← torchTake tb.lut (pos + 1)
    return s0 + xOff * (s1 - s0)
  return List.zipWith (· * ·) interp tb.window

/-- Direct evaluation of the windowed sinc (accumulate.py 82-83). -/
noncomputable def filtDirect (tb : Tables) (fdl : ℕ) (frac : ℝ) : List ℝ :=
  List.zipWith (fun n w => sinc (n - halfLen fdl - frac) * w) tb.grid tb.window

/-- The kernel taps of one image (accumulate.py 69-83). -/
noncomputable def tapFilter (tb : Tables) (fdl gran : ℕ) (useLut : Bool) (frac : ℝ) :
    Except String (List ℝ) :=
  if useLut then filtLut tb gran frac else .ok (filtDirect tb fdl frac)

/-- Flat targets and values produced by one image in row `row` (accumulate.py 69-93): taps
outside `[0, nsample)` are masked out before the row offset `row * nsample` is added. -/
noncomputable def tapEntries (tb : Tables) (fdl gran : ℕ) (useLut : Bool) (nsample : ℕ)
    (row : ℕ) (idx : ℤ) (frac amp : ℝ) : Except String (List (ℤ × ℝ)) := do
  let filt ← tapFilter tb fdl gran useLut frac
  let contrib := filt.map (amp * ·)
  let target := tb.offsets.map (idx + ·)
  let valid := (target.zip contrib).filter fun (p : ℤ × ℝ) =>
    0 ≤ p.1 ∧ p.1 < (nsample : ℤ)
  return valid.map fun p => (p.1 + (row : ℤ) * nsample, p.2)

/-- One pass of the chunk loop (accumulate.py 64-94) on the flat buffer. -/
noncomputable def accumulateChunk (tb : Tables) (fdl gran : ℕ) (useLut : Bool) (nsample : ℕ)
    (rirFlat : List ℝ) (idx : List (List ℤ)) (frac amp : List (List ℝ)) :
    Except String (List ℝ) := do
  let rows := (idx.zip (frac.zip amp)).zipIdx
  let entries ← rows.mapM fun ((is, fs, as), row) => do
    let es ← (is.zip (fs.zip as)).mapM fun (i, f, a) =>
      tapEntries tb fdl gran useLut nsample row i f a
    return es.flatten
  let entries := entries.flatten
  if entries.isEmpty then return rirFlat
  scatterAdd rirFlat entries

/-- `_accumulate_rir_batch_impl` (accumulate.py 28-94).  `sample` and `amplitude` are given as
`(n_src * n_mic)` rows, i.e. after `.view(n_sm, -1)`; torch refuses that view when
`n_src * n_mic = 0`.  `chunkSize` must be positive (`range()` raises otherwise). -/
noncomputable def accumulateImpl (tb : Tables) (fdl gran : ℕ) (useLut : Bool) (chunkSize : ℕ)
    (nSm nsample : ℕ) (rirFlat : List ℝ) (sample amplitude : List (List ℝ)) :
    Except String (List ℝ) := do
  if nSm = 0 then throw "RuntimeError: cannot reshape tensor of 0 elements"
  if chunkSize = 0 then throw "ValueError: range() arg 3 must not be zero"
  let idx0 := sample.map fun r => r.map fun x => ⌊x⌋
  let frac := List.zipWith (fun r is => List.zipWith (fun x (i : ℤ) => x - (i : ℝ)) r is) sample idx0
  let nImg := (idx0.headD []).length
  (rangeStep nImg chunkSize).foldlM (fun buf start =>
    let stop := min (start + chunkSize) nImg
    accumulateChunk tb fdl gran useLut nsample buf
      (idx0.map (slice start stop)) (frac.map (slice start stop))
      (amplitude.map (slice start stop))) rirFlat

/-- Device types that occur in `accumulate.py` 101 and 117. -/
inductive DeviceType where
  | cpu | cuda | mps | other
deriving DecidableEq

/-- `_accumulate_rir_batch` with tables computed afresh (accumulate.py 20-25, 97-115);
`torch.compile` is taken to preserve meaning, and the caches are modelled in
`Verif.Model.Cache`. -/
noncomputable def accumulateRirBatch (cfg : Config) (dev : DeviceType) (nSm nsample : ℕ)
    (rirFlat : List ℝ) (sample amplitude : List (List ℝ)) : Except String (List ℝ) :=
  let useLut := cfg.useLut && dev ≠ .mps
  let fdl := cfg.fracDelayLength.toNat
  let gran := cfg.sincLutGranularity.toNat
  accumulateImpl (freshTables fdl gran) fdl gran useLut cfg.accumulateChunkSize.toNat
    nSm nsample rirFlat sample amplitude

end Torchrir.Model
