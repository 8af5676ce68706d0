import Verif.Model.Signal

/-!
# Convolution in floating point

`Verif.Model.Signal` with every operation rounded: the transforms, the products of the spectra, the
additions into the output, and the times at which the steps of a trajectory begin.  Operations that
torch offers as one function (`rfft`, `irfft`, the product of complex numbers, `sum`) are parameters.
Not modelled: overflow and underflow, and the rounding of the given signals and responses to their dtype.
-/

namespace Torchrir.Model

/-- How a machine calculates with signals. -/
structure SignalFloats where
  /-- the result of an addition of samples, given its exact value -/
  fl : ℝ → ℝ
  /-- the same for numbers of type `ts_dtype` (double precision, single precision on `mps`); also the
  conversion to this type (dynamic.py 113-117, 125-128) -/
  time : DeviceType → ℝ → ℝ
  /-- the result of an operation on Python numbers -/
  py : ℝ → ℝ
  /-- the product of two complex numbers -/
  mul : ℂ → ℂ → ℂ
  /-- `torch.fft.rfft` -/
  rfft : List ℝ → ℕ → List ℂ
  /-- `torch.fft.irfft` -/
  irfft : List ℂ → ℕ → List ℝ
  /-- `torch.sum` of one row -/
  sum : List ℝ → ℝ

/-- Real numbers. -/
noncomputable def exactSignals : SignalFloats := ⟨fun x => x, fun _ x => x, fun x => x, (· * ·), rfft, irfft, List.sum⟩

variable (F : SignalFloats)

/-- `irfft(rfft(a, n) * rfft(b, n), n)` (static.py 30-32; dynamic.py 200-209). -/
def SignalFloats.fftProduct (a b : List ℝ) (n : ℕ) : List ℝ :=
  F.irfft (List.zipWith F.mul (F.rfft a n) (F.rfft b n)) n

/-- `fft_convolve` on the elements of two 1-D tensors (static.py 28-33). -/
def SignalFloats.fftConvolve (signal rir : List ℝ) : List ℝ :=
  let n : ℤ := (signal.length : ℤ) + rir.length - 1
  pySlice (F.fftProduct signal rir (fftLen n)) 0 n

/-- `row[a:b] += v`, see `addSlice`. -/
def SignalFloats.addSlice (row : List ℝ) (a b : ℤ) (v : List ℝ) : Except String (List ℝ) :=
  let lo := pyBound row.length a
  let hi := pyBound row.length b
  if v.length = hi - lo then
    .ok (row.take lo ++ List.zipWith (fun x y => F.fl (x + y)) ((row.take hi).drop lo) v ++ row.drop (lo + (hi - lo)))
  else if v.length = 1 then
    .ok (row.take lo ++ ((row.take hi).drop lo).map (fun x => F.fl (x + v.getD 0 0)) ++ row.drop (lo + (hi - lo)))
  else .error "RuntimeError: size mismatch in in-place addition"

/-- `out[m, a:b] += v`. -/
def SignalFloats.addAt (out : List (List ℝ)) (m : ℕ) (a b : ℤ) (v : List ℝ) : Except String (List (List ℝ)) := do
  let row ← F.addSlice (out.getD m []) a b v
  return out.set m row

/-- `convolve_rir` (static.py 36-67). -/
def SignalFloats.convolveRir (signal rirs : Tensor ℝ) : Except String (Tensor ℝ) := do
  let signal ← ensureSignal signal
  let rirs ← ensureStaticRirs rirs
  let nSrc := rirs.shape.getD 0 0
  let nMic := rirs.shape.getD 1 0
  let rirLen := rirs.shape.getD 2 0
  raiseIf (signal.shape.getD 0 0 ≠ 1 ∧ signal.shape.getD 0 0 ≠ nSrc)
    "signal source count does not match rirs"
  let rows := expandSignal signal.rows nSrc
  let outLen : ℤ := (signal.shape.getD 1 0 : ℤ) + rirLen - 1
  raiseIf (outLen < 0) "RuntimeError: negative dimension"
  let out ← (List.range nSrc).foldlM (fun out s =>
    (List.range nMic).foldlM (fun out m =>
      F.addAt out m 0 outLen
        (F.fftConvolve (rows.getD s []) ((rirs.planes.getD s []).getD m []))) out)
    (List.replicate nMic (List.replicate outLen.toNat 0))
  return squeezeMics nMic outLen.toNat out

/-- One step `t`, source `s` of hop mode (dynamic.py 89-94). -/
def SignalFloats.hopStep (rows : List (List ℝ)) (rirs : List (List (List (List ℝ)))) (nMic : ℕ)
    (hop : ℤ) (t s : ℕ) (out : List (List ℝ)) : Except String (List (List ℝ)) := do
  raiseIf (rows.length ≤ s) "IndexError: index out of bounds"
  let start : ℤ := t * hop
  let frame := pySlice (rows.getD s []) start (start + hop)
  if frame.length = 0 then return out
  (List.range nMic).foldlM (fun out m =>
    let seg := F.fftConvolve frame (((rirs.getD t []).getD s []).getD m [])
    F.addAt out m start (start + seg.length) seg) out

/-- `_convolve_dynamic_hop` (dynamic.py 58-61, 76-96); `signal.shape[1] / hop` is a division of Python
numbers. -/
noncomputable def SignalFloats.convolveHop (signal rirs : Tensor ℝ) (hop : ℤ) : Except String (Tensor ℝ) := do
  let signal ← ensureSignal signal
  let rirs ← ensureDynamicRirs rirs signal
  let tSteps := rirs.shape.getD 0 0
  let nSrc := rirs.shape.getD 1 0
  let nMic := rirs.shape.getD 2 0
  let rirLen := rirs.shape.getD 3 0
  raiseIf (hop = 0) "ZeroDivisionError"
  let frames : ℤ := min ⌈F.py (((signal.shape.getD 1 0 : ℕ) : ℝ) / (hop : ℝ))⌉ tSteps
  let outLen : ℤ := hop * (frames - 1) + hop + rirLen - 1
  raiseIf (outLen < 0) "RuntimeError: negative dimension"
  let out ← (List.range frames.toNat).foldlM (fun out t =>
    (List.range nSrc).foldlM (fun out s =>
      F.hopStep signal.rows rirs.blocks nMic hop t s out) out)
    (List.replicate nMic (List.replicate outLen.toNat 0))
  return squeezeMics nMic outLen.toNat out

/-- Explicit timestamps to first samples (dynamic.py 111-122): `ts` and the Python number `fs` are
converted to `ts_dtype`. -/
noncomputable def SignalFloats.startsFromTimestamps (dev : DeviceType) (ts : Tensor ℝ) (fs : Option ℝ) (tSteps : ℕ) :
    Except String (List ℤ) :=
  match fs with
  | none => .error "fs must be provided when timestamps are used"
  | some f => do
    raiseIf (ts.ndim ≠ 1 ∨ ts.numel ≠ tSteps) "timestamps must be 1D and match number of RIR steps"
    raiseIf (ts.data = []) "IndexError: index 0 is out of bounds"
    raiseIf (F.time dev (ts.data.getD 0 0) ≠ 0) "first timestamp must be 0"
    return ts.data.map fun t => truncReal (F.time dev (F.time dev t * F.time dev f))

/-- `w_ini` before the final entry is appended (dynamic.py 110-128); `step_fs` is a quotient of Python
numbers, which is converted to `ts_dtype`. -/
noncomputable def SignalFloats.stepStarts (dev : DeviceType) (timestamps : Option (Tensor ℝ)) (fs : Option ℝ)
    (tSteps n : ℕ) : Except String (List ℤ) :=
  match timestamps with
  | some ts => F.startsFromTimestamps dev ts fs tSteps
  | none => do
    raiseIf (tSteps = 0) "ZeroDivisionError"
    return (List.range tSteps).map fun (t : ℕ) =>
      truncReal (F.time dev (F.time dev t * F.time dev (F.py ((n : ℝ) / tSteps))))

/-- One step of the CPU loop (dynamic.py 154-163). -/
def SignalFloats.trajectoryStep (segments : List (List (List ℝ)))
    (rirs : List (List (List (List ℝ)))) (nSrc nMic rirLen : ℕ) (wIni wLen : List ℤ) (t : ℕ)
    (out : List (List ℝ)) : Except String (List (List ℝ)) :=
  let segLen := wLen.getD t 0
  if segLen = 0 then .ok out
  else
    let start := wIni.getD t 0
    (List.range nSrc).foldlM (fun out s =>
      let frame := pySlice ((segments.getD t []).getD s []) 0 segLen
      (List.range nMic).foldlM (fun out m =>
        F.addAt out m start (start + segLen + rirLen - 1)
          (F.fftConvolve frame (((rirs.getD t []).getD s []).getD m []))) out) out

/-- The CPU path (dynamic.py 140-165). -/
def SignalFloats.trajectoryLoop (rows : List (List ℝ)) (n : ℕ)
    (rirs : List (List (List (List ℝ)))) (tSteps nSrc nMic rirLen : ℕ) (wIni : List ℤ) :
    Except String (Tensor ℝ) := do
  let wLen := stepLengths wIni
  let maxLen := maxOf wLen
  raiseIf (maxLen < 0) "RuntimeError: negative dimension"
  let segments ← (List.range tSteps).mapM fun t =>
    segmentRows rows nSrc maxLen.toNat (wIni.getD t 0) (wIni.getD (t + 1) 0)
  let outLen : ℤ := (n : ℤ) + rirLen - 1
  raiseIf (outLen < 0) "RuntimeError: negative dimension"
  let out ← (List.range tSteps).foldlM (fun out t =>
    F.trajectoryStep segments rirs nSrc nMic rirLen wIni wLen t out)
    (List.replicate nMic (List.replicate outLen.toNat 0))
  return squeezeMics nMic outLen.toNat out

/-- `conv.sum(dim=1)` for one step and microphone (dynamic.py 198-211). -/
def SignalFloats.convSum (segs : List (List ℝ)) (rirs : List (List (List ℝ))) (nSrc : ℕ)
    (convLen : ℤ) (m : ℕ) : List ℝ :=
  let n := fftLen convLen
  (List.range (pyBound n convLen)).map fun k => F.sum ((List.range nSrc).map fun s =>
    (pySlice (F.fftProduct (segs.getD s []) ((rirs.getD s []).getD m []) n) 0 convLen).getD k 0)

/-- One pass of the chunk loop on CUDA / MPS (dynamic.py 183-220). -/
def SignalFloats.batchedChunk (rows : List (List ℝ)) (rirs : List (List (List (List ℝ))))
    (nSrc nMic rirLen : ℕ) (wIni wLen : List ℤ) (t0 t1 : ℕ) (out : List (List ℝ)) :
    Except String (List (List ℝ)) := do
  let maxLen := maxOf (slice t0 t1 wLen)
  if maxLen = 0 then return out
  raiseIf (maxLen < 0) "RuntimeError: negative dimension"
  let ts := List.range' t0 (t1 - t0)
  let segments ← ts.mapM fun t =>
    segmentRows rows nSrc maxLen.toNat (wIni.getD t 0) (wIni.getD (t + 1) 0)
  let convLen : ℤ := maxLen + rirLen - 1
  ts.foldlM (fun out t =>
    let segLen := wLen.getD t 0
    if segLen = 0 then .ok out
    else
      let start := wIni.getD t 0
      (List.range nMic).foldlM (fun out m =>
        let conv := F.convSum (segments.getD (t - t0) []) (rirs.getD t []) nSrc convLen m
        F.addAt out m start (start + segLen + rirLen - 1)
          (pySlice conv 0 (segLen + rirLen - 1))) out) out

/-- `_convolve_dynamic_rir_trajectory_batched` (dynamic.py 168-222). -/
def SignalFloats.trajectoryBatched (rows : List (List ℝ)) (n : ℕ)
    (rirs : List (List (List (List ℝ)))) (tSteps nSrc nMic rirLen : ℕ) (wIni : List ℤ)
    (chunkSize : ℕ := 8) : Except String (Tensor ℝ) := do
  let wLen := stepLengths wIni
  let outLen : ℤ := (n : ℤ) + rirLen - 1
  raiseIf (outLen < 0) "RuntimeError: negative dimension"
  let out ← (rangeStep tSteps chunkSize).foldlM (fun out t0 =>
    F.batchedChunk rows rirs nSrc nMic rirLen wIni wLen t0 (min (t0 + chunkSize) tSteps) out)
    (List.replicate nMic (List.replicate outLen.toNat 0))
  return squeezeMics nMic outLen.toNat out

/-- `_convolve_dynamic_trajectory` (dynamic.py 64-73, 99-165). -/
noncomputable def SignalFloats.convolveTrajectory (dev : DeviceType) (signal rirs : Tensor ℝ)
    (timestamps : Option (Tensor ℝ)) (fs : Option ℝ) : Except String (Tensor ℝ) := do
  let signal ← ensureSignal signal
  let rirs ← ensureDynamicRirs rirs signal
  let n := signal.shape.getD 1 0
  let tSteps := rirs.shape.getD 0 0
  let nSrc := rirs.shape.getD 1 0
  let nMic := rirs.shape.getD 2 0
  let rirLen := rirs.shape.getD 3 0
  let starts ← F.stepStarts dev timestamps fs tSteps n
  let wIni := starts ++ [(n : ℤ)]
  if dev = .cuda ∨ dev = .mps then
    F.trajectoryBatched signal.rows n rirs.blocks tSteps nSrc nMic rirLen wIni
  else F.trajectoryLoop signal.rows n rirs.blocks tSteps nSrc nMic rirLen wIni

/-- `DynamicConvolver.convolve` (dynamic.py 39-55); `dev` is the device of the signal. -/
noncomputable def SignalFloats.convolve (c : Convolver) (dev : DeviceType) (signal rirs : Tensor ℝ) :
    Except String (Tensor ℝ) :=
  if c.mode ≠ "trajectory" ∧ c.mode ≠ "hop" then .error "mode must be 'trajectory' or 'hop'"
  else if c.mode = "hop" then
    match c.hop with
    | none => .error "hop must be provided for hop mode"
    | some h => F.convolveHop signal rirs h
  else F.convolveTrajectory dev signal rirs c.timestamps c.fs

end Torchrir.Model
