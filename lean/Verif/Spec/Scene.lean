import Verif.Model.Scene
import Verif.Spec.Directivity
import Verif.Spec.Ism
import Verif.Spec.Room

/-!
# Scenes that can be simulated
-/

namespace Torchrir.Spec

open Torchrir.Model

/-- A room the constructor accepted, with finite sampling rate, speed of sound and reverberation
time. -/
def AcceptedRoom (conv : Flt → ℤ) (room : Room) : Prop :=
  ∃ a r, RoomObj.WF a ∧ roomNew conv a = .ok r ∧ r.fs.isFinite ∧ r.c.isFinite ∧
    (∀ t, r.t60 = some t → t.isFinite) ∧ room = r.toRoom

/-- Sources or microphones the constructor accepted. -/
def AcceptedEntity (e : Entity) : Prop :=
  ∃ p o, Tensor.WF p ∧ (∀ t, o = some t → t.WF) ∧ entityNew p o = .ok e

/-- The device needs no orientation, or it has one and its pattern exists. -/
def DeviceReady (name : String) (o : Option (Tensor ℝ)) : Prop :=
  name = "omni" ∨ o ≠ none ∧ ∃ p : Pattern, name.toLower ∈ p.names

/-- No image of a source lies exactly at a microphone. -/
def ApartFromImages (size : List ℝ) (sources mics : Tensor ℝ) : Prop :=
  ∀ (d nS nM : ℕ) (L : Fin d → ℝ) (src : Fin nS → Fin d → ℝ) (mic : Fin nM → Fin d → ℝ),
    size = List.ofFn L → sources = tensor2 src → mics = tensor2 mic →
    ∀ s m n, mic m ≠ image L (src s) n

/-- The number of samples the simulator asks for. -/
noncomputable def wantedSamples (sim : IsmSimulator) (fs : ℝ) : ℤ :=
  match sim.nsample, sim.tmax with
  | some n, _ => n
  | none, some t => ⌈t * fs⌉
  | none, none => 0

/-- `nb_img` is left out, or gives one number per room dimension. -/
def ImageCountsFit (nb : Option (List ℤ)) (d : ℕ) : Prop :=
  nb = none ∨ ∃ f : Fin d → ℕ, nb = some (List.ofFn fun i => (f i : ℤ))

/-- Simulator and configuration do not contradict each other. -/
def NoConflict (sim : IsmSimulator) (cfg : Config) : Prop :=
  (∀ N, cfg.maxOrder = some N → N = sim.maxOrder) ∧
    ∀ t t', sim.tmax = some t → cfg.tmax = some t' → t = t'

/-- The tensor holds `T` positions of `n` entities in `d` dimensions: `(T, n, d)`, or `(T, d)` for a
single entity. -/
def TrajShape (shape : List ℕ) (T n d : ℕ) : Prop :=
  shape = [T, n, d] ∨ n = 1 ∧ shape = [T, d]

end Torchrir.Spec
