import Verif.Model.Warnings

/-!
# Specification of C142: warnings
-/

namespace Torchrir.Spec

open Torchrir.Model

/-- The old code is the new code after one more warning; if that warning is raised, nothing else happens. -/
def WarnsThen {σ α : Type} (filters : WarnFilters) (w : Warned) (old new : Code σ α) : Prop :=
  ∀ p : Process σ,
    (filters p.noted w = .note → old p = new ⟨p.world, p.noted ++ [w]⟩) ∧
    (filters p.noted w = .raise → (old p).1 = p ∧ ∃ e, (old p).2 = .error e)

/-- No warning is raised as an exception. -/
def NeverRaises (filters : WarnFilters) : Prop := ∀ noted w, filters noted w = .note

/-- From every process, the two pieces of code return or raise the same and leave the same world; the first notes the
warning `w` and then the warnings that the second notes. -/
def SameAfter {σ α : Type} (w : Warned) (old new : Code σ α) : Prop :=
  ∀ p : Process σ, (old p).2 = (new p).2 ∧ (old p).1.world = (new p).1.world ∧
    ∃ ws, (new p).1.noted = p.noted ++ ws ∧ (old p).1.noted = p.noted ++ w :: ws

/-- The device asked for by name is missing. -/
def Missing (t : Torch) (d : DeviceArg) : Prop :=
  ∃ s, d = .str s ∧ ("cuda".toList <+: s.toLower.toList ∧ t.cudaAvailable = false ∨
    s.toLower = "mps" ∧ t.mpsAvailable = false)

end Torchrir.Spec
