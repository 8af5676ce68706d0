import Verif.Model.Room

/-!
# Physical rooms
-/

namespace Torchrir.Spec

open Torchrir.Model

/-- A positive float: a positive number or +∞. -/
def Positive (f : Flt) : Prop := f = .posInf ∨ ∃ x : ℝ, 0 < x ∧ f = .fin x

/-- The arguments describe a room: 2 or 3 positive finite sides, positive sampling rate and speed of
sound, not both `beta` and `t60`, a positive `t60`, and one coefficient in `[0, 1]` per wall. -/
structure Physical (r : RoomObj) : Prop where
  size : ∃ d, (d = 2 ∨ d = 3) ∧ r.size.tensor.shape = [d] ∧
    (∀ x ∈ r.size.tensor.data, ∃ l : ℝ, 0 < l ∧ x = .fin l) ∧
    ∀ b, r.beta = some b → b.tensor.data.length = 2 * d
  fs : Positive r.fs
  c : Positive r.c
  one : r.beta = none ∨ r.t60 = none
  t60 : ∀ t, r.t60 = some t → Positive t
  beta : ∀ b, r.beta = some b → ∀ x ∈ b.tensor.data, ∃ v : ℝ, 0 ≤ v ∧ v ≤ 1 ∧ x = .fin v

/-- Every torch tensor has as many elements as its shape says. -/
structure RoomObj.WF (r : RoomObj) : Prop where
  size : r.size.tensor.WF
  beta : ∀ b, r.beta = some b → b.tensor.WF

/-- The size is a floating point tensor, and no scalar is NaN. -/
structure Ordinary (r : RoomObj) : Prop where
  dtype : r.size.dtype = .floating
  fs : r.fs ≠ .nan
  c : r.c ≠ .nan
  t60 : r.t60 ≠ some .nan

/-- A room object obtained from the constructor and any sequence of `replace` calls. -/
inductive BuiltRoom (conv : Flt → ℤ) : RoomObj → Prop
  | new (a r : RoomObj) (wf : RoomObj.WF a) (h : roomNew conv a = .ok r) : BuiltRoom conv r
  | replaced (r r' : RoomObj) (u : RoomUpdate) (hs : ∀ s, u.size = some s → s.tensor.WF)
      (hb : ∀ b, u.beta = some (some b) → b.tensor.WF) (before : BuiltRoom conv r)
      (h : roomReplace conv r u = .ok r') : BuiltRoom conv r'

end Torchrir.Spec
