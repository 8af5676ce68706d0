import Verif.Model.Ism
import Mathlib.Algebra.Order.Floor.Ring

/-!
# Rooms, sources and microphones

Model of `src/torchrir/models/room.py` and of `as_tensor` / `ensure_dim`
(`src/torchrir/util/tensor.py`).  Validation is about non-finite numbers, too, so floats are
`Flt` here.
-/

namespace Torchrir.Model

/-- A Python or torch float. -/
inductive Flt where
  | fin (x : ℝ)
  | nan
  | posInf
  | negInf

namespace Flt

/-- `torch.isfinite`. -/
def isFinite : Flt → Prop
  | fin _ => True
  | _ => False

/-- `x <= 0` (false for NaN). -/
def leZero : Flt → Prop
  | fin x => x ≤ 0
  | negInf => True
  | _ => False

/-- `x < 0` (false for NaN). -/
def ltZero : Flt → Prop
  | fin x => x < 0
  | negInf => True
  | _ => False

/-- `x > 1` (false for NaN). -/
def gtOne : Flt → Prop
  | fin x => 1 < x
  | posInf => True
  | _ => False

/-- The value of a finite float. -/
def toReal : Flt → ℝ
  | fin x => x
  | _ => 0

end Flt

/-- The dtypes that matter here. -/
inductive NumType where
  | floating
  | int64
deriving DecidableEq

/-- A tensor of numbers with its dtype. -/
structure NumTensor where
  dtype : NumType
  tensor : Tensor Flt

/-- Conversion of a finite float to an integer: towards zero. -/
noncomputable def trunc (x : ℝ) : ℤ := if 0 ≤ x then ⌊x⌋ else ⌈x⌉

/-- Conversion of one element to `int64`; `conv` is whatever the platform makes of NaN and ±∞. -/
noncomputable def toInt64 (conv : Flt → ℤ) : Flt → Flt
  | .fin x => .fin (trunc x)
  | f => .fin (conv f)

/-- `t.to(dtype)` (tensor.py 26-27). -/
noncomputable def castTo (conv : Flt → ℤ) : NumType → NumTensor → NumTensor
  | .floating, t => ⟨.floating, t.tensor⟩
  | .int64, t => ⟨.int64, ⟨t.tensor.shape, t.tensor.data.map (toInt64 conv)⟩⟩

/-- The fields of a `Room`, as given and as stored (room.py 24-28). -/
structure RoomObj where
  size : NumTensor
  fs : Flt
  c : Flt := .fin 343
  beta : Option NumTensor := none
  t60 : Option Flt := none

/-- `ensure_dim` (tensor.py 32-36). -/
def ensureDimT (size : Tensor Flt) : Except String Unit :=
  raiseIf (size.ndim ≠ 1 ∨ ¬ (size.numel = 2 ∨ size.numel = 3))
    "room size must be a 1D tensor of length 2 or 3"

open Classical in
/-- Validation of `beta` (room.py 46-57): cast to the dtype of the size, flatten, check. -/
noncomputable def validateRoomBeta (conv : Flt → ℤ) (size : NumTensor) (beta : NumTensor) :
    Except String NumTensor := do
  let b := castTo conv size.dtype beta
  let b : NumTensor := ⟨b.dtype, ⟨[b.tensor.numel], b.tensor.data⟩⟩
  let expected := if size.tensor.numel = 2 then 4 else 6
  raiseIf (b.tensor.numel ≠ expected) "beta must have the right number of elements"
  raiseIf (¬ ∀ x ∈ b.tensor.data, x.isFinite) "beta must contain finite values"
  raiseIf ((∃ x ∈ b.tensor.data, x.ltZero) ∨ ∃ x ∈ b.tensor.data, x.gtOne) "beta values must be in [0, 1]"
  return b

/-- The part of `__post_init__` about `beta` (room.py 46-57). -/
noncomputable def storeBeta (conv : Flt → ℤ) (r : RoomObj) : Except String RoomObj :=
  match r.beta with
  | none => .ok r
  | some b => do
    let b ← validateRoomBeta conv r.size b
    return { r with beta := some b }

open Classical in
/-- `Room(...)`, i.e. `Room.__post_init__` (room.py 30-57). -/
noncomputable def roomNew (conv : Flt → ℤ) (r : RoomObj) : Except String RoomObj := do
  ensureDimT r.size.tensor
  raiseIf (¬ ∀ x ∈ r.size.tensor.data, x.isFinite) "room size must contain finite values"
  raiseIf (∃ x ∈ r.size.tensor.data, x.leZero) "room size must be strictly positive"
  raiseIf r.fs.leZero "fs must be positive"
  raiseIf r.c.leZero "c must be positive"
  raiseIf (r.beta.isSome ∧ r.t60.isSome) "beta and t60 are mutually exclusive"
  raiseIf (∃ t, r.t60 = some t ∧ t.leZero) "t60 must be positive"
  storeBeta conv r

/-- The keyword arguments of `Room.replace`. -/
structure RoomUpdate where
  size : Option NumTensor := none
  fs : Option Flt := none
  c : Option Flt := none
  beta : Option (Option NumTensor) := none
  t60 : Option (Option Flt) := none

/-- `Room.replace` (room.py 59-61): `dataclasses.replace` calls the constructor with the merged
fields. -/
noncomputable def roomReplace (conv : Flt → ℤ) (r : RoomObj) (u : RoomUpdate) :
    Except String RoomObj :=
  roomNew conv { size := u.size.getD r.size, fs := u.fs.getD r.fs, c := u.c.getD r.c
                 beta := u.beta.getD r.beta, t60 := u.t60.getD r.t60 }

/-- A Python number. -/
inductive PyNum where
  | int (z : ℤ)
  | float (x : Flt)

/-- `as_tensor(list, dtype=dtype)` for a list of numbers (tensor.py 14-29): without a dtype, a list
of integers becomes an `int64` tensor. -/
noncomputable def asTensorList (conv : Flt → ℤ) (xs : List PyNum) (dtype : Option NumType) : NumTensor :=
  let inferred := if xs.all (fun x => match x with | .int _ => true | .float _ => false) ∧ xs ≠ []
    then NumType.int64 else .floating
  castTo conv (dtype.getD inferred)
    ⟨inferred, ⟨[xs.length], xs.map fun x => match x with | .int z => .fin z | .float f => f⟩⟩

/-- `Room.shoebox` with lists (room.py 63-86). -/
noncomputable def shoebox (conv : Flt → ℤ) (size : List PyNum) (fs : Flt) (c : Flt := .fin 343)
    (beta : Option (List PyNum) := none) (t60 : Option Flt := none) (dtype : Option NumType := none) :
    Except String RoomObj := do
  let s := asTensorList conv size dtype
  ensureDimT s.tensor
  roomNew conv { size := s, fs := fs, c := c, beta := beta.map (asTensorList conv · dtype), t60 := t60 }

/-- The values of a tensor of finite numbers. -/
def Tensor.reals (t : Tensor Flt) : Tensor ℝ := ⟨t.shape, t.data.map Flt.toReal⟩

/-- The room as the simulation sees it, for finite `fs`, `c`, `t60`. -/
def RoomObj.toRoom (r : RoomObj) : Room :=
  { size := r.size.tensor.data.map Flt.toReal, fs := r.fs.toReal, c := r.c.toReal
    beta := r.beta.map fun b => b.tensor.data.map Flt.toReal, t60 := r.t60.map Flt.toReal }

open Classical in
/-- `_normalize_entity_positions` (room.py 214-222). -/
noncomputable def normalizeEntityPositions (p : Tensor Flt) : Except String (Tensor Flt) := do
  let p := if p.ndim = 1 then p.unsqueeze0 else p
  raiseIf (p.ndim ≠ 2 ∨ ¬ (p.shape.getD 1 0 = 2 ∨ p.shape.getD 1 0 = 3))
    "positions must have shape (n, 2) or (n, 3)"
  raiseIf (¬ ∀ x ∈ p.data, x.isFinite) "positions must contain finite values"
  return p

/-- The shape checks of `_validate_orientation` (room.py 181-211); other dimensions are not
checked. -/
def orientationShapeOk (o : Tensor Flt) (n dim : ℕ) : Bool :=
  if dim = 2 then
    if o.ndim = 0 then true
    else if o.ndim = 1 then decide (o.numel = 1 ∨ o.numel = 2 ∨ o.numel = n)
    else if o.ndim = 2 then
      decide (o.shape.getD 0 0 = n ∧ (o.shape.getD 1 0 = 1 ∨ o.shape.getD 1 0 = 2))
    else false
  else if dim = 3 then
    if o.ndim = 1 then decide (o.numel = 2 ∨ o.numel = 3)
    else if o.ndim = 2 then
      decide (o.shape.getD 0 0 = n ∧ (o.shape.getD 1 0 = 2 ∨ o.shape.getD 1 0 = 3))
    else false
  else true

open Classical in
/-- `_validate_orientation` (room.py 175-211). -/
noncomputable def validateOrientation (o : Tensor Flt) (n dim : ℕ) : Except String Unit := do
  raiseIf (¬ ∀ x ∈ o.data, x.isFinite) "orientation must contain finite values"
  raiseIf (orientationShapeOk o n dim = false) "orientation has an unsupported shape"

/-- `_normalize_entity_orientation` (room.py 225-236). -/
noncomputable def normalizeEntityOrientation (o : Option (Tensor Flt)) (n dim : ℕ) :
    Except String (Option (Tensor Flt)) :=
  match o with
  | none => .ok none
  | some o => do
    validateOrientation o n dim
    return some o

/-- `Source(...)` and `MicrophoneArray(...)` (room.py 102-109, 145-152); the bodies are identical.
The accepted values are finite, hence reals. -/
noncomputable def entityNew (positions : Tensor Flt) (orientation : Option (Tensor Flt)) :
    Except String Entity := do
  let p ← normalizeEntityPositions positions
  let o ← normalizeEntityOrientation orientation (p.shape.getD 0 0) (p.shape.getD 1 0)
  return { positions := p.reals, orientation := o.map Tensor.reals }

end Torchrir.Model
