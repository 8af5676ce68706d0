import Mathlib.Data.List.Basic

/-! # How many directions an orientation tensor describes -/

namespace Torchrir.Spec

/-- A tensor of shape `s` describes an array of shape `lead` of directions in `d` dimensions: vectors of length `d`; in the
plane also angles, with or without a last axis of length one; in space also pairs of azimuth and elevation. A list of
angles in the plane may not have one or two elements, which are read as one angle and as one vector. -/
def DirectionArray (s : List ℕ) (d : ℕ) (lead : List ℕ) : Prop :=
  d = 2 ∧ (s = [] ∧ lead = [] ∨ s = lead ++ [1] ∨ s = lead ++ [2] ∨ ∃ n, n ≠ 1 ∧ n ≠ 2 ∧ s = [n] ∧ lead = [n]) ∨
  d = 3 ∧ (s = lead ++ [2] ∨ s = lead ++ [3])

/-- One direction for all of the `n` devices, or one for each. -/
def OneOrEach (lead : List ℕ) (n : ℕ) : Prop := lead = [] ∨ lead = [n]

/-- What is accepted for `n` microphones: one direction for all (possibly inside further axes of length one), one for each,
or, for a single microphone, any number of directions. -/
def MicLead (lead : List ℕ) (n : ℕ) : Prop :=
  (∀ x ∈ lead, x = 1) ∨ lead = [n] ∨ n = 1 ∧ ∃ k, 0 < k ∧ lead = [k]

end Torchrir.Spec
