import Verif.Model.Ism
import Verif.Spec.Ism

/-!
# Calls of the simulation functions

Names for typical argument lists, used to state the properties.
-/

namespace Torchrir.Spec

open Torchrir.Model

/-- Which images a call asks for: `max_order=N`, or `max_order=N, nb_img=nb`. -/
inductive Selection (d : ℕ) where
  | order (N : ℕ)
  | box (N : ℕ) (nb : Fin d → ℕ)

/-- The images belonging to a selection. -/
noncomputable def Selection.images {d : ℕ} : Selection d → Finset (Fin d → ℤ)
  | .order N => orderSet d N
  | .box _ nb => boxSet nb

/-- The `max_order` argument. -/
def Selection.maxOrder {d : ℕ} : Selection d → ℤ
  | .order N => N
  | .box N _ => N

/-- The `nb_img` argument. -/
def Selection.nbImg {d : ℕ} : Selection d → Option (List ℤ)
  | .order _ => none
  | .box _ nb => some (List.ofFn fun i => (nb i : ℤ))

/-- `Room(size=L, fs=fs, c=c, beta=[lo₀, hi₀, …])`. -/
def boxRoom {d : ℕ} (L lo hi : Fin d → ℝ) (fs c : ℝ) : Room :=
  { size := List.ofFn L, fs := fs, c := c, beta := some (wallList lo hi) }

/-- Sources or microphones at the given positions. -/
def points {n d : ℕ} (p : Fin n → Fin d → ℝ) : Entity := { positions := tensor2 p }

/-- Sources or microphones at the given positions, each with its own direction vector. -/
def orientedPoints {n d : ℕ} (p u : Fin n → Fin d → ℝ) : Entity :=
  { positions := tensor2 p, orientation := some (tensor2 u) }

/-- `simulate_rir(..., max_order, nb_img, nsample=K, config=cfg)` with everything else left at
its default (omnidirectional devices, no diffuse tail). -/
def omniArgs {d : ℕ} (sel : Selection d) (K : ℕ) (cfg : Config) : SimArgs :=
  { maxOrder := some sel.maxOrder, nbImg := sel.nbImg, nsample := some (K : ℤ), config := some cfg }

/-- Room and discretisation of a call: kernel length and shape come from the configuration
(the lookup table is never used on MPS devices). -/
noncomputable def setupFor {d : ℕ} (w : World) (cfg : Config) (L lo hi : Fin d → ℝ) (fs c : ℝ) :
    Setup d :=
  { L := L, lo := lo, hi := hi, fs := fs, c := c, fdl := cfg.fracDelayLength.toNat
    shape := kernelShape (cfg.useLut && w.device ≠ .mps) cfg.sincLutGranularity.toNat }

end Torchrir.Spec
