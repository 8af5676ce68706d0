import Mathlib.Analysis.Real.Sqrt
import Mathlib.Analysis.SpecialFunctions.Trigonometric.Basic

/-!
# Tensors, slices and loops

The small vocabulary of torch / Python primitives the model is written in.  Values are exact
(`ℝ`, `ℤ`); a tensor is its shape plus its elements in row-major order.
-/

namespace Torchrir.Model

/-- A contiguous `torch.Tensor`: shape and row-major elements. -/
structure Tensor (α : Type) where
  shape : List ℕ
  data : List α

namespace Tensor

variable {α : Type}

/-- `t.ndim`. -/
def ndim (t : Tensor α) : ℕ := t.shape.length

/-- `t.numel()` of a well formed tensor. -/
def numel (t : Tensor α) : ℕ := t.shape.prod

/-- The element count matches the shape (true of every torch tensor). -/
def WF (t : Tensor α) : Prop := t.data.length = t.shape.prod

/-- `t.unsqueeze(0)`. -/
def unsqueeze0 (t : Tensor α) : Tensor α := ⟨1 :: t.shape, t.data⟩

/-- `t.unsqueeze(1)`. -/
def unsqueeze1 (t : Tensor α) : Tensor α :=
  match t.shape with
  | [] => ⟨[1], t.data⟩
  | a :: s => ⟨a :: 1 :: s, t.data⟩

end Tensor

/-- Cut row-major data into `n` consecutive groups of `d` elements
(the row view of a `(n, d)` tensor). -/
def groups {α : Type} (n d : ℕ) (data : List α) : List (List α) :=
  (List.range n).map fun i => (data.drop (i * d)).take d

/-- Rows of a 2-D tensor (`t[i]`); `[]` for other ranks. -/
def Tensor.rows {α : Type} (t : Tensor α) : List (List α) :=
  match t.shape with
  | [n, d] => groups n d t.data
  | _ => []

/-- Planes of a 3-D tensor (`t[i][j]`); `[]` for other ranks. -/
def Tensor.planes {α : Type} (t : Tensor α) : List (List (List α)) :=
  match t.shape with
  | [n, m, d] => (groups n (m * d) t.data).map (groups m d)
  | _ => []

/-- The 1-D sub-arrays along the last axis, in row-major order. -/
def Tensor.lastAxisRows {α : Type} (t : Tensor α) : List (List α) :=
  groups (t.shape.dropLast.prod) (t.shape.getLastD 1) t.data

/-- Python slice `xs[start:stop]` for `0 ≤ start`, `0 ≤ stop`. -/
def slice {α : Type} (start stop : ℕ) (xs : List α) : List α := (xs.take stop).drop start

/-- Python `range(0, n, step)` for `step > 0`. -/
def rangeStep (n step : ℕ) : List ℕ := (List.range ((n + step - 1) / step)).map (· * step)

/-- `torch.take(t, i)` on a 1-D table: indices in `[-n, n)` are legal, others raise. -/
def torchTake (t : List ℝ) (i : ℤ) : Except String ℝ :=
  if 0 ≤ i ∧ i < t.length then .ok (t.getD i.toNat 0)
  else if -(t.length : ℤ) ≤ i ∧ i < 0 then .ok (t.getD (i + t.length).toNat 0)
  else .error "IndexError: out of range"

/-- `buf.scatter_add_(0, idx, vals)`: adds each value at its index, raising on a bad index. -/
def scatterAdd : List ℝ → List (ℤ × ℝ) → Except String (List ℝ)
  | buf, [] => .ok buf
  | buf, (i, v) :: rest =>
    if 0 ≤ i ∧ i < buf.length then
      scatterAdd (buf.set i.toNat (buf.getD i.toNat 0 + v)) rest
    else .error "index out of bounds"

/-- `if p: raise ...`. -/
def raiseIf (p : Prop) [Decidable p] (msg : String) : Except String Unit :=
  if p then .error msg else .ok ()

/-- Coordinates of a point or direction. -/
abbrev Vec := List ℝ

/-- Elementwise difference. -/
def vsub (a b : Vec) : Vec := List.zipWith (· - ·) a b

/-- Elementwise negation. -/
def vneg (a : Vec) : Vec := a.map (- ·)

/-- `torch.sum(a * b, dim=-1)`. -/
def dot (a b : Vec) : ℝ := (List.zipWith (· * ·) a b).sum

/-- `torch.linalg.norm(a, dim=-1)`. -/
noncomputable def norm2 (a : Vec) : ℝ := Real.sqrt (dot a a)

/-- `torch.linspace(a, b, n)`. -/
noncomputable def linspace (a b : ℝ) (n : ℕ) : List ℝ :=
  if n = 1 then [a] else (List.range n).map fun (i : ℕ) => a + i * ((b - a) / ((n : ℝ) - 1))

/-- `torch.sinc`. -/
noncomputable def sinc (x : ℝ) : ℝ :=
  if x = 0 then 1 else Real.sin (Real.pi * x) / (Real.pi * x)

end Torchrir.Model
