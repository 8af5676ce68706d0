import Verif.Model.DynDataset
import Verif.Spec.CliScene
import Verif.Spec.Signal

/-!
# Specification of the script that builds a dynamic dataset
-/

namespace Torchrir.Spec

open Torchrir.Model

/-- What is assumed of a random generator: numbers in the unit interval, and samples of `m` different numbers
below `n`. -/
structure FairGen (g : Gen) : Prop where
  unit : UnitStream g.value
  sample : ∀ k n m, m ≤ n → (g.subset k n m).Nodup ∧ (g.subset k n m).length = m ∧ ∀ i ∈ g.subset k n m, i < n

/-- A path of `T` points in two straight legs with equal steps on each: from `a` to `b`, reached at the point
`turn`, and on to `e`, reached at the last point. -/
def TwoLegPath {d T : ℕ} (turn : ℕ) (a b e : Fin d → ℝ) (p : Fin T → Fin d → ℝ) : Prop :=
  ∀ (t : Fin T) i, (t ≤ turn → p t i = a i + (t : ℝ) / turn * (b i - a i)) ∧
    (turn ≤ (t : ℕ) → p t i = b i + ((t : ℝ) - turn) / ((T : ℝ) - 1 - turn) * (e i - b i))

/-- How a source moves, under the name the script reports: not at all, straight to another place, or to another
place by way of a third one where it is about half way through the steps. -/
inductive SourceWalk {d T : ℕ} (L start : Fin d → ℝ) (p : Fin T → Fin d → ℝ) : String → Prop
  | static (h : ∀ t, p t = start) : SourceWalk L start p "static"
  | linear (stop : Fin d → ℝ) (hs : TalkerSpot L stop) (h : StraightPath start stop p) : SourceWalk L start p "linear"
  | zigzag (mid stop : Fin d → ℝ) (hm : TalkerSpot L mid) (hs : TalkerSpot L stop)
      (h : TwoLegPath (max 2 (T / 2) - 1) start mid stop p) : SourceWalk L start p "zigzag"

/-- The motion of a scene with `n` sources around the centre `c`, `num` of which were asked to move: the moving sources
are listed in increasing order and are as many as asked for and possible, the others stand still; every source starts
at least 1.5 m from the centre, moves as its reported mode says, and is always 0.5 m from the walls and, in rooms higher
than 2 m, between 1.5 m and 1.8 m high. -/
structure SceneMotion {d n T : ℕ} (L c : Fin d → ℝ) (num : ℤ) (src : Fin T → Fin n → Fin d → ℝ)
    (mode : Fin n → String) (moving : List ℕ) : Prop where
  increasing : moving.Pairwise (· < ·)
  count : (moving.length : ℤ) = max 0 (min (n : ℤ) num)
  sources : ∀ i ∈ moving, i < n
  far : ∀ s (first : Fin T), (first : ℕ) = 0 → 1.5 ≤ dist (src first s) c
  walk : ∀ s (first : Fin T), (first : ℕ) = 0 → SourceWalk L (src first s) (fun t => src t s) (mode s)
  static : ∀ s, mode s = "static" ↔ (s : ℕ) ∉ moving
  spot : ∀ t s, TalkerSpot L (src t s)

/-- `mic` are the microphones of the script around `c`: for two the ears 8 cm below and above `c`, otherwise a line
along the first axis with neighbours 8 cm apart whose microphones are moved into the room, to the nearest place 10 cm
from the walls, if they are not there already. -/
inductive DatasetMics {d : ℕ} (hd : 0 < d) (L c : Fin d → ℝ) : {M : ℕ} → (Fin M → Fin d → ℝ) → Prop
  | ears (mic : Fin 2 → Fin d → ℝ) (h : EarsAt c mic) : DatasetMics hd L c mic
  | line {M : ℕ} (hM : M ≠ 2) (line mic : Fin M → Fin d → ℝ) (h : EvenLine line c (Pi.single ⟨0, hd⟩ 1) 0.08)
      (near : ∀ m i, mic m i = max (min (line m i) (L i - 0.1)) 0.1) : DatasetMics hd L c mic

/-- The file holds the signals `y` of `M` channels and `len` frames times the factor `gain`, which is 1 if they are
silent and otherwise brings the largest magnitude to 1. -/
structure SavedAs (f : AudioFile) (M len : ℕ) (y : Fin M → ℕ → ℝ) (gain : ℝ) : Prop where
  channels : f.channels = M
  frames : f.frames = len
  samples : ∀ (m : Fin M) t, t < len → f.at t m = gain * y m t
  silent : (∀ (m : Fin M) t, t < len → y m t = 0) → gain = 1
  peak : (∃ (m : Fin M) (t : ℕ), t < len ∧ y m t ≠ 0) →
    0 < gain ∧ (∀ (m : Fin M) t, t < len → |gain * y m t| ≤ 1) ∧ ∃ (m : Fin M) (t : ℕ), t < len ∧ |gain * y m t| = 1

end Torchrir.Spec
