import Verif.Model.Ism

/-!
# The high-pass filter of a configuration
-/

namespace Torchrir.Spec

open Torchrir.Model

/-- The same configuration without the high-pass filter. -/
def unfiltered (cfg : Config) : Config := { cfg with rirHpfEnable := false }

/-- The value a keyword list gives to a keyword. -/
def keyword (l : List (String × String)) (key : String) : Option String := l.lookup key

/-- The filter a configuration asks for at sample rate `fs`: the order is `n` (2 if absent), the cutoff
is `rir_hpf_fc` as a fraction of half the sample rate and must be between zero and one, `ftype` is
the value of `type` unless given itself, and all other keywords are passed on. -/
def Designed (w : World) (fs : ℝ) (cfg : Config) (sos : w.Sos) : Prop :=
  0 < cfg.rirHpfFc ∧ cfg.rirHpfFc < fs / 2 ∧
    ∃ kw : List (String × String),
      w.iirfilter (cfg.rirHpfKwargs.n.getD 2) (cfg.rirHpfFc / (fs / 2)) kw = .ok sos ∧
      keyword kw "ftype" = (keyword cfg.rirHpfKwargs.rest "ftype").or
        (keyword cfg.rirHpfKwargs.rest "type") ∧
      ∀ key, key ≠ "ftype" → key ≠ "type" → keyword kw key = keyword cfg.rirHpfKwargs.rest key

/-- `filtered` is `raw` with every row along the last axis filtered by itself. -/
def RowsFiltered (w : World) (sos : w.Sos) (raw filtered : Tensor ℝ) : Prop :=
  ∃ rows : List (List ℝ), filtered = ⟨raw.shape, rows.flatten⟩ ∧
    List.Forall₂ (fun x y => w.sosfiltfilt sos x = .ok y) raw.lastAxisRows rows

/-- On rows of `K` samples the filter is the linear map `G`. -/
def ActsAs (w : World) (sos : w.Sos) {K : ℕ} (G : (Fin K → ℝ) →ₗ[ℝ] (Fin K → ℝ)) : Prop :=
  ∀ x : Fin K → ℝ, w.sosfiltfilt sos (List.ofFn x) = .ok (List.ofFn (G x))

end Torchrir.Spec
