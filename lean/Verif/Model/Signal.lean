import Verif.Model.Accumulate
import Mathlib.Analysis.SpecialFunctions.Complex.Circle
import Mathlib.Data.Nat.Size

/-!
# Convolution

Model of `src/torchrir/signal/{internal,static,dynamic}.py`.
-/

namespace Torchrir.Model

/-- A slice bound `i` of a Python slice on a sequence of length `n`. -/
def pyBound (n : ℕ) (i : ℤ) : ℕ := if i < 0 then (i + n).toNat else min i.toNat n

/-- `xs[a:b]` for arbitrary integers. -/
def pySlice {α : Type} (xs : List α) (a b : ℤ) : List α :=
  (xs.take (pyBound xs.length b)).drop (pyBound xs.length a)

/-- `row[a:b] += v` with torch's broadcasting: the lengths agree, or `v` has one element. -/
def addSlice (row : List ℝ) (a b : ℤ) (v : List ℝ) : Except String (List ℝ) :=
  let lo := pyBound row.length a
  let hi := pyBound row.length b
  if v.length = hi - lo then
    .ok (row.take lo ++ List.zipWith (· + ·) ((row.take hi).drop lo) v ++ row.drop (lo + (hi - lo)))
  else if v.length = 1 then
    .ok (row.take lo ++ ((row.take hi).drop lo).map (· + v.getD 0 0) ++ row.drop (lo + (hi - lo)))
  else .error "RuntimeError: size mismatch in in-place addition"

/-- `x.to(torch.long)`: truncation towards zero. -/
noncomputable def truncReal (x : ℝ) : ℤ := if 0 ≤ x then ⌊x⌋ else ⌈x⌉

/-- `int.bit_length()`. -/
def bitLength (z : ℤ) : ℕ := Nat.size z.natAbs

/-- `1 << (n - 1).bit_length()` (static.py 29, dynamic.py 199). -/
def fftLen (n : ℤ) : ℕ := 1 <<< bitLength (n - 1)

/-- `torch.fft.rfft(x, n)`: the first `n // 2 + 1` Fourier coefficients of `x`, cut or padded
with zeros to `n` elements. -/
noncomputable def rfft (x : List ℝ) (n : ℕ) : List ℂ :=
  (List.range (n / 2 + 1)).map fun (k : ℕ) =>
    ∑ j ∈ Finset.range n, ((x.getD j 0 : ℝ) : ℂ) *
      Complex.exp (-(2 * Real.pi * Complex.I * j * k / n))

/-- `torch.fft.irfft(X, n)`: the inverse for a half spectrum; coefficients other than the first
and (for even `n`) the last stand for two conjugate ones. -/
noncomputable def irfft (X : List ℂ) (n : ℕ) : List ℝ :=
  (List.range n).map fun (j : ℕ) =>
    (∑ k ∈ Finset.range (n / 2 + 1), (if k = 0 ∨ 2 * k = n then (1 : ℝ) else 2) *
      (X.getD k 0 * Complex.exp (2 * Real.pi * Complex.I * j * k / n)).re) / n

/-- `irfft(rfft(a, n) * rfft(b, n), n)` (static.py 30-32; dynamic.py 200-209). -/
noncomputable def fftProduct (a b : List ℝ) (n : ℕ) : List ℝ :=
  irfft (List.zipWith (· * ·) (rfft a n) (rfft b n)) n

/-- `fft_convolve` on the elements of two 1-D tensors (static.py 28-33). -/
noncomputable def fftConvolve (signal rir : List ℝ) : List ℝ :=
  let n : ℤ := (signal.length : ℤ) + rir.length - 1
  pySlice (fftProduct signal rir (fftLen n)) 0 n

/-- `fft_convolve` (static.py 11-33). -/
noncomputable def fftConvolveT (signal rir : Tensor ℝ) : Except String (Tensor ℝ) := do
  raiseIf (signal.ndim ≠ 1 ∨ rir.ndim ≠ 1) "fft_convolve expects 1D tensors"
  let out := fftConvolve signal.data rir.data
  return ⟨[out.length], out⟩

/-- `_ensure_signal` (internal.py 8-14). -/
def ensureSignal (t : Tensor ℝ) : Except String (Tensor ℝ) :=
  if t.ndim = 1 then .ok t.unsqueeze0
  else if t.ndim = 2 then .ok t
  else .error "signal must have shape (n_samples,) or (n_src, n_samples)"

/-- `_ensure_static_rirs` (internal.py 17-27). -/
def ensureStaticRirs (t : Tensor ℝ) : Except String (Tensor ℝ) :=
  if t.ndim = 1 then .ok ⟨1 :: 1 :: t.shape, t.data⟩
  else if t.ndim = 2 then .ok ⟨1 :: t.shape, t.data⟩
  else if t.ndim = 3 then .ok t
  else .error "rirs must have shape (rir_len,), (n_mic, rir_len), or (n_src, n_mic, rir_len)"

/-- `_ensure_dynamic_rirs` (internal.py 30-47). -/
def ensureDynamicRirs (t signal : Tensor ℝ) : Except String (Tensor ℝ) :=
  if t.ndim = 2 then .ok ⟨[t.shape.getD 0 0, 1, 1, t.shape.getD 1 0], t.data⟩
  else if t.ndim = 3 then
    if signal.ndim = 2 ∧ signal.shape.getD 0 0 ≠ 1 then
      .error "3D dynamic RIRs are only supported for single-source signals"
    else .ok ⟨[t.shape.getD 0 0, 1, t.shape.getD 1 0, t.shape.getD 2 0], t.data⟩
  else if t.ndim = 4 then .ok t
  else .error "rirs must have shape (T, rir_len), (T, n_mic, rir_len), or (T, n_src, n_mic, rir_len)"

/-- `t[i][j][k]` of a 4-D tensor. -/
def Tensor.blocks {α : Type} (t : Tensor α) : List (List (List (List α))) :=
  match t.shape with
  | [n, m, p, d] => (groups n (m * p * d) t.data).map fun b => (groups m (p * d) b).map (groups p d)
  | _ => []

/-- `out.squeeze(0) if n_mic == 1 else out` (static.py 67; dynamic.py 96, 165, 222). -/
def squeezeMics (nMic len : ℕ) (rows : List (List ℝ)) : Tensor ℝ :=
  if nMic = 1 then ⟨[len], rows.flatten⟩ else ⟨[nMic, len], rows.flatten⟩

/-- `out[m, a:b] += v`. -/
def addAt (out : List (List ℝ)) (m : ℕ) (a b : ℤ) (v : List ℝ) : Except String (List (List ℝ)) := do
  let row ← addSlice (out.getD m []) a b v
  return out.set m row

/-- `signal.expand(n_src, -1)` when there is one signal and more than one source
(static.py 57-58). -/
def expandSignal (rows : List (List ℝ)) (nSrc : ℕ) : List (List ℝ) :=
  if rows.length = 1 ∧ 1 < nSrc then List.replicate nSrc (rows.getD 0 []) else rows

/-- `convolve_rir` (static.py 36-67). -/
noncomputable def convolveRir (signal rirs : Tensor ℝ) : Except String (Tensor ℝ) := do
  let signal ← ensureSignal signal
  let rirs ← ensureStaticRirs rirs
  let nSrc := rirs.shape.getD 0 0
  let nMic := rirs.shape.getD 1 0
  let rirLen := rirs.shape.getD 2 0
  raiseIf (signal.shape.getD 0 0 ≠ 1 ∧ signal.shape.getD 0 0 ≠ nSrc)
    "signal source count does not match rirs"
  let rows := expandSignal signal.rows nSrc
  let outLen : ℤ := (signal.shape.getD 1 0 : ℤ) + rirLen - 1
  raiseIf (outLen < 0) "RuntimeError: negative dimension"
  let out ← (List.range nSrc).foldlM (fun out s =>
    (List.range nMic).foldlM (fun out m =>
      addAt out m 0 outLen
        (fftConvolve (rows.getD s []) ((rirs.planes.getD s []).getD m []))) out)
    (List.replicate nMic (List.replicate outLen.toNat 0))
  return squeezeMics nMic outLen.toNat out

/-- One step `t`, source `s` of hop mode (dynamic.py 89-94). -/
noncomputable def hopStep (rows : List (List ℝ)) (rirs : List (List (List (List ℝ)))) (nMic : ℕ)
    (hop : ℤ) (t s : ℕ) (out : List (List ℝ)) : Except String (List (List ℝ)) := do
  raiseIf (rows.length ≤ s) "IndexError: index out of bounds"
  let start : ℤ := t * hop
  let frame := pySlice (rows.getD s []) start (start + hop)
  if frame.length = 0 then return out
  (List.range nMic).foldlM (fun out m =>
    let seg := fftConvolve frame (((rirs.getD t []).getD s []).getD m [])
    addAt out m start (start + seg.length) seg) out

/-- `_convolve_dynamic_hop` (dynamic.py 58-61, 76-96). -/
noncomputable def convolveHop (signal rirs : Tensor ℝ) (hop : ℤ) : Except String (Tensor ℝ) := do
  let signal ← ensureSignal signal
  let rirs ← ensureDynamicRirs rirs signal
  let tSteps := rirs.shape.getD 0 0
  let nSrc := rirs.shape.getD 1 0
  let nMic := rirs.shape.getD 2 0
  let rirLen := rirs.shape.getD 3 0
  raiseIf (hop = 0) "ZeroDivisionError"
  let frames : ℤ := min ⌈((signal.shape.getD 1 0 : ℕ) : ℝ) / (hop : ℝ)⌉ tSteps
  let outLen : ℤ := hop * (frames - 1) + hop + rirLen - 1
  raiseIf (outLen < 0) "RuntimeError: negative dimension"
  let out ← (List.range frames.toNat).foldlM (fun out t =>
    (List.range nSrc).foldlM (fun out s =>
      hopStep signal.rows rirs.blocks nMic hop t s out) out)
    (List.replicate nMic (List.replicate outLen.toNat 0))
  return squeezeMics nMic outLen.toNat out

/-- Explicit timestamps to first samples (dynamic.py 111-122). -/
noncomputable def startsFromTimestamps (ts : Tensor ℝ) (fs : Option ℝ) (tSteps : ℕ) :
    Except String (List ℤ) :=
  match fs with
  | none => .error "fs must be provided when timestamps are used"
  | some f => do
    raiseIf (ts.ndim ≠ 1 ∨ ts.numel ≠ tSteps) "timestamps must be 1D and match number of RIR steps"
    raiseIf (ts.data = []) "IndexError: index 0 is out of bounds"
    raiseIf (ts.data.getD 0 0 ≠ 0) "first timestamp must be 0"
    return ts.data.map fun t => truncReal (t * f)

/-- `w_ini` before the final entry is appended (dynamic.py 110-128). -/
noncomputable def stepStarts (timestamps : Option (Tensor ℝ)) (fs : Option ℝ) (tSteps n : ℕ) :
    Except String (List ℤ) :=
  match timestamps with
  | some ts => startsFromTimestamps ts fs tSteps
  | none => do
    raiseIf (tSteps = 0) "ZeroDivisionError"
    return (List.range tSteps).map fun (t : ℕ) => truncReal ((t : ℝ) * ((n : ℝ) / tSteps))

/-- `w_len = w_ini[1:] - w_ini[:-1]` (dynamic.py 133). -/
def stepLengths (wIni : List ℤ) : List ℤ := List.zipWith (· - ·) wIni.tail wIni

/-- `int(w.max().item())` of a non-empty tensor (dynamic.py 140, 186). -/
def maxOf (w : List ℤ) : ℤ := w.foldl max (w.headD 0)

/-- Broadcasting of one row of length 1 or `k` to `k` elements. -/
def broadcastRow (k : ℕ) (r : List ℝ) : Except String (List ℝ) :=
  if r.length = k then .ok r
  else if r.length = 1 then .ok (List.replicate k (r.getD 0 0))
  else .error "RuntimeError: shapes cannot be broadcast"

/-- Broadcasting of a block of rows to `nSrc` rows of `k` elements. -/
def broadcastBlock (nSrc k : ℕ) (block : List (List ℝ)) : Except String (List (List ℝ)) :=
  if block.length = nSrc then block.mapM (broadcastRow k)
  else if block.length = 1 then do
    let r ← broadcastRow k (block.getD 0 [])
    return List.replicate nSrc r
  else .error "RuntimeError: shapes cannot be broadcast"

/-- The rows `segments[t]` (dynamic.py 141-148, 189-196): the signal samples of the step,
padded with zeros to `maxLen`. -/
def segmentRows (rows : List (List ℝ)) (nSrc maxLen : ℕ) (start stop : ℤ) :
    Except String (List (List ℝ)) :=
  if start < stop then do
    let block ← broadcastBlock nSrc (stop - start).toNat (rows.map fun r => pySlice r start stop)
    return block.map fun r => r ++ List.replicate (maxLen - (stop - start).toNat) 0
  else .ok (List.replicate nSrc (List.replicate maxLen 0))

/-- One step of the CPU loop (dynamic.py 154-163). -/
noncomputable def trajectoryStep (segments : List (List (List ℝ)))
    (rirs : List (List (List (List ℝ)))) (nSrc nMic rirLen : ℕ) (wIni wLen : List ℤ) (t : ℕ)
    (out : List (List ℝ)) : Except String (List (List ℝ)) :=
  let segLen := wLen.getD t 0
  if segLen = 0 then .ok out
  else
    let start := wIni.getD t 0
    (List.range nSrc).foldlM (fun out s =>
      let frame := pySlice ((segments.getD t []).getD s []) 0 segLen
      (List.range nMic).foldlM (fun out m =>
        addAt out m start (start + segLen + rirLen - 1)
          (fftConvolve frame (((rirs.getD t []).getD s []).getD m []))) out) out

/-- The CPU path (dynamic.py 140-165). -/
noncomputable def trajectoryLoop (rows : List (List ℝ)) (n : ℕ)
    (rirs : List (List (List (List ℝ)))) (tSteps nSrc nMic rirLen : ℕ) (wIni : List ℤ) :
    Except String (Tensor ℝ) := do
  let wLen := stepLengths wIni
  let maxLen := maxOf wLen
  raiseIf (maxLen < 0) "RuntimeError: negative dimension"
  let segments ← (List.range tSteps).mapM fun t =>
    segmentRows rows nSrc maxLen.toNat (wIni.getD t 0) (wIni.getD (t + 1) 0)
  let outLen : ℤ := (n : ℤ) + rirLen - 1
  raiseIf (outLen < 0) "RuntimeError: negative dimension"
  let out ← (List.range tSteps).foldlM (fun out t =>
    trajectoryStep segments rirs nSrc nMic rirLen wIni wLen t out)
    (List.replicate nMic (List.replicate outLen.toNat 0))
  return squeezeMics nMic outLen.toNat out

/-- `conv.sum(dim=1)` for one step and microphone (dynamic.py 198-211). -/
noncomputable def convSum (segs : List (List ℝ)) (rirs : List (List (List ℝ))) (nSrc : ℕ)
    (convLen : ℤ) (m : ℕ) : List ℝ :=
  let n := fftLen convLen
  (List.range nSrc).foldl (fun acc s =>
    List.zipWith (· + ·) acc
      (pySlice (fftProduct (segs.getD s []) ((rirs.getD s []).getD m []) n) 0 convLen))
    (List.replicate (pyBound n convLen) 0)

/-- One pass of the chunk loop on CUDA / MPS (dynamic.py 183-220). -/
noncomputable def batchedChunk (rows : List (List ℝ)) (rirs : List (List (List (List ℝ))))
    (nSrc nMic rirLen : ℕ) (wIni wLen : List ℤ) (t0 t1 : ℕ) (out : List (List ℝ)) :
    Except String (List (List ℝ)) := do
  let maxLen := maxOf (slice t0 t1 wLen)
  if maxLen = 0 then return out
  raiseIf (maxLen < 0) "RuntimeError: negative dimension"
  let ts := List.range' t0 (t1 - t0)
  let segments ← ts.mapM fun t =>
    segmentRows rows nSrc maxLen.toNat (wIni.getD t 0) (wIni.getD (t + 1) 0)
  let convLen : ℤ := maxLen + rirLen - 1
  ts.foldlM (fun out t =>
    let segLen := wLen.getD t 0
    if segLen = 0 then .ok out
    else
      let start := wIni.getD t 0
      (List.range nMic).foldlM (fun out m =>
        let conv := convSum (segments.getD (t - t0) []) (rirs.getD t []) nSrc convLen m
        addAt out m start (start + segLen + rirLen - 1)
          (pySlice conv 0 (segLen + rirLen - 1))) out) out

/-- `_convolve_dynamic_rir_trajectory_batched` (dynamic.py 168-222). -/
noncomputable def trajectoryBatched (rows : List (List ℝ)) (n : ℕ)
    (rirs : List (List (List (List ℝ)))) (tSteps nSrc nMic rirLen : ℕ) (wIni : List ℤ)
    (chunkSize : ℕ := 8) : Except String (Tensor ℝ) := do
  let wLen := stepLengths wIni
  let outLen : ℤ := (n : ℤ) + rirLen - 1
  raiseIf (outLen < 0) "RuntimeError: negative dimension"
  let out ← (rangeStep tSteps chunkSize).foldlM (fun out t0 =>
    batchedChunk rows rirs nSrc nMic rirLen wIni wLen t0 (min (t0 + chunkSize) tSteps) out)
    (List.replicate nMic (List.replicate outLen.toNat 0))
  return squeezeMics nMic outLen.toNat out

/-- `_convolve_dynamic_trajectory` (dynamic.py 64-73, 99-165). -/
noncomputable def convolveTrajectory (dev : DeviceType) (signal rirs : Tensor ℝ)
    (timestamps : Option (Tensor ℝ)) (fs : Option ℝ) : Except String (Tensor ℝ) := do
  let signal ← ensureSignal signal
  let rirs ← ensureDynamicRirs rirs signal
  let n := signal.shape.getD 1 0
  let tSteps := rirs.shape.getD 0 0
  let nSrc := rirs.shape.getD 1 0
  let nMic := rirs.shape.getD 2 0
  let rirLen := rirs.shape.getD 3 0
  let starts ← stepStarts timestamps fs tSteps n
  let wIni := starts ++ [(n : ℤ)]
  if dev = .cuda ∨ dev = .mps then
    trajectoryBatched signal.rows n rirs.blocks tSteps nSrc nMic rirLen wIni
  else trajectoryLoop signal.rows n rirs.blocks tSteps nSrc nMic rirLen wIni

/-- The fields of `DynamicConvolver` (dynamic.py 31-34). -/
structure Convolver where
  mode : String := "trajectory"
  hop : Option ℤ := none
  timestamps : Option (Tensor ℝ) := none
  fs : Option ℝ := none

/-- `DynamicConvolver.convolve` (dynamic.py 39-55); `dev` is the device of the signal. -/
noncomputable def Convolver.convolve (c : Convolver) (dev : DeviceType) (signal rirs : Tensor ℝ) :
    Except String (Tensor ℝ) :=
  if c.mode ≠ "trajectory" ∧ c.mode ≠ "hop" then .error "mode must be 'trajectory' or 'hop'"
  else if c.mode = "hop" then
    match c.hop with
    | none => .error "hop must be provided for hop mode"
    | some h => convolveHop signal rirs h
  else convolveTrajectory dev signal rirs c.timestamps c.fs

end Torchrir.Model
