import Verif.Props.MovingSymmetry

/-!
# C143: symmetric rooms
-/

namespace Torchrir.Props

open Torchrir.Model Torchrir.Spec Torchrir.Lemmas

namespace SymmetricRoom

theorem update_same {d : ℕ} (lo hi : Fin d → ℝ) (i : Fin d) (h : lo i = hi i) :
    Function.update lo i (hi i) = lo ∧ Function.update hi i (lo i) = hi := by
  constructor
  · rw [← h, Function.update_eq_self]
  · rw [h, Function.update_eq_self]

theorem middle {d : ℕ} (L x : Fin d → ℝ) (i : Fin d) (h : x i = L i / 2) : Function.update x i (L i - x i) = x := by
  have : L i - x i = x i := by rw [h]; ring
  rw [this, Function.update_eq_self]

end SymmetricRoom

/-- **C143, two equal walls.** If the two walls on axis `i` have the same coefficient, mirroring sources and microphones
changes nothing. -/
theorem C143_mirrored {d nS nM : ℕ} (hd : d = 2 ∨ d = 3) (hS : 0 < nS) (hM : 0 < nM) (w : World)
    (L lo hi : Fin d → ℝ) (fs c : ℝ) (hfs : 0 < fs) (hc : 0 < c) (sel : Selection d) (K : ℕ) (hK : 0 < K)
    (cfg : Config) (hcfg : cfg.validate = .ok ()) (src : Fin nS → Fin d → ℝ) (mic : Fin nM → Fin d → ℝ) (i : Fin d)
    (hwall : lo i = hi i) :
    simulateRir w (boxRoom L lo hi fs c) (points fun s => Function.update (src s) i (L i - src s i))
        (points fun m => Function.update (mic m) i (L i - mic m i)) (omniArgs sel K cfg) =
      simulateRir w (boxRoom L lo hi fs c) (points src) (points mic) (omniArgs sel K cfg) := by
  have h := C12_mirror_symmetry hd hS hM w L lo hi fs c hfs hc sel K hK cfg hcfg src mic i
  rwa [(SymmetricRoom.update_same lo hi i hwall).1, (SymmetricRoom.update_same lo hi i hwall).2] at h

/-- **C143, sources half way.** If moreover all sources are half way between the two walls, mirroring the microphones
alone changes nothing. -/
theorem C143_plane {d nS nM : ℕ} (hd : d = 2 ∨ d = 3) (hS : 0 < nS) (hM : 0 < nM) (w : World)
    (L lo hi : Fin d → ℝ) (fs c : ℝ) (hfs : 0 < fs) (hc : 0 < c) (sel : Selection d) (K : ℕ) (hK : 0 < K)
    (cfg : Config) (hcfg : cfg.validate = .ok ()) (src : Fin nS → Fin d → ℝ) (mic : Fin nM → Fin d → ℝ) (i : Fin d)
    (hwall : lo i = hi i) (hsrc : ∀ s, src s i = L i / 2) :
    simulateRir w (boxRoom L lo hi fs c) (points src) (points fun m => Function.update (mic m) i (L i - mic m i))
        (omniArgs sel K cfg) =
      simulateRir w (boxRoom L lo hi fs c) (points src) (points mic) (omniArgs sel K cfg) := by
  have h := C143_mirrored hd hS hM w L lo hi fs c hfs hc sel K hK cfg hcfg src mic i hwall
  have e : (fun s => Function.update (src s) i (L i - src s i)) = src :=
    funext fun s => SymmetricRoom.middle L (src s) i (hsrc s)
  rwa [e] at h

/-- **C143, centre.** If all pairs of opposite walls are equal and all sources are at the centre, the microphones may be
mirrored along any set of axes. -/
theorem C143_centre {d nS nM : ℕ} (hd : d = 2 ∨ d = 3) (hS : 0 < nS) (hM : 0 < nM) (w : World)
    (L lo : Fin d → ℝ) (fs c : ℝ) (hfs : 0 < fs) (hc : 0 < c) (sel : Selection d) (K : ℕ) (hK : 0 < K)
    (cfg : Config) (hcfg : cfg.validate = .ok ()) (mic : Fin nM → Fin d → ℝ) (axes : Finset (Fin d)) :
    simulateRir w (boxRoom L lo lo fs c) (points fun (_ : Fin nS) i => L i / 2)
        (points fun m i => if i ∈ axes then L i - mic m i else mic m i) (omniArgs sel K cfg) =
      simulateRir w (boxRoom L lo lo fs c) (points fun (_ : Fin nS) i => L i / 2) (points mic)
        (omniArgs sel K cfg) := by
  induction axes using Finset.induction_on with
  | empty => simp
  | insert a F ha ih =>
    rw [← ih, ← C143_plane hd hS hM w L lo lo fs c hfs hc sel K hK cfg hcfg _
      (fun m i => if i ∈ F then L i - mic m i else mic m i) a rfl fun _ => rfl]
    congr 2
    funext m i
    by_cases hi : i = a
    · subst hi
      simp [ha]
    · simp [hi]

/-- **C143, diagonal.** If the room, its walls and the selection of images do not change when the axes are renamed,
and no source moves, then renaming the coordinates of the microphones changes nothing. -/
theorem C143_diagonal {d nS nM : ℕ} (hd : d = 2 ∨ d = 3) (hS : 0 < nS) (hM : 0 < nM) (w : World)
    (L lo hi : Fin d → ℝ) (fs c : ℝ) (hfs : 0 < fs) (sel : Selection d) (K : ℕ) (hK : 0 < K)
    (cfg : Config) (hcfg : cfg.validate = .ok ()) (src : Fin nS → Fin d → ℝ) (mic : Fin nM → Fin d → ℝ)
    (σ : Equiv.Perm (Fin d)) (hL : L ∘ σ = L) (hlo : lo ∘ σ = lo) (hhi : hi ∘ σ = hi) (hsel : sel.renamed σ = sel)
    (hsrc : ∀ s, src s ∘ σ = src s) :
    simulateRir w (boxRoom L lo hi fs c) (points src) (points fun m => mic m ∘ σ) (omniArgs sel K cfg) =
      simulateRir w (boxRoom L lo hi fs c) (points src) (points mic) (omniArgs sel K cfg) := by
  have h := C74_axes hd hS hM w L lo hi fs c hfs sel K hK cfg hcfg src mic σ
  rw [hL, hlo, hhi, hsel] at h
  have e : renamed σ src = src := funext hsrc
  rw [e] at h
  exact h

/-- **C143, moving microphones.** Sources that stay half way between two equal walls: mirrored trajectories of the
microphones give the same responses at every step. -/
theorem C143_moving {d T nS nM : ℕ} (hT : 0 < T) (hd : d = 2 ∨ d = 3) (hS : 0 < nS) (hM : 0 < nM) (w : World)
    (L lo hi : Fin d → ℝ) (fs c : ℝ) (hfs : 0 < fs) (hc : 0 < c) (sel : Selection d) (K : ℕ) (hK : 0 < K)
    (cfg : Config) (hcfg : cfg.validate = .ok ()) (src : Fin T → Fin nS → Fin d → ℝ)
    (mic : Fin T → Fin nM → Fin d → ℝ) (i : Fin d) (hwall : lo i = hi i) (hsrc : ∀ t s, src t s i = L i / 2)
    (R : Tensor ℝ) :
    simulateDynamicRir w (boxRoom L lo hi fs c) (tensor3 src)
        (tensor3 fun t m => Function.update (mic t m) i (L i - mic t m i)) (omniArgs sel K cfg) = .ok R ↔
      simulateDynamicRir w (boxRoom L lo hi fs c) (tensor3 src) (tensor3 mic) (omniArgs sel K cfg) = .ok R :=
  MovingSymmetry.same hT w _ _ L L rfl rfl hfs hfs _ _ _ _ _ _ (fun t =>
    C143_plane hd hS hM w L lo hi fs c hfs hc sel K hK cfg hcfg (src t) (mic t) i hwall (hsrc t)) R

/-- The four corners of a rectangle around the centre of a 2-D room hear the same. -/
example (w : World) (cfg : Config) (hcfg : cfg.validate = .ok ()) (axes : Finset (Fin 2)) :
    simulateRir w (boxRoom ![6, 4] ![0.9, 0.7] ![0.9, 0.7] 16000 343) (points fun (_ : Fin 1) i => ![6, 4] i / 2)
        (points fun (_ : Fin 1) i => if i ∈ axes then ![6, 4] i - ![1, 1] i else ![1, 1] i)
        (omniArgs (.order (d := 2) 3) 800 cfg) =
      simulateRir w (boxRoom ![6, 4] ![0.9, 0.7] ![0.9, 0.7] 16000 343) (points fun (_ : Fin 1) i => ![6, 4] i / 2)
        (points fun (_ : Fin 1) => ![1, 1]) (omniArgs (.order (d := 2) 3) 800 cfg) :=
  C143_centre (Or.inl rfl) one_pos one_pos w _ _ _ _ (by norm_num) (by norm_num) _ 800 (by norm_num) cfg hcfg _ axes

/-- A square room and a source on its diagonal. -/
example (w : World) (cfg : Config) (hcfg : cfg.validate = .ok ()) :
    simulateRir w (boxRoom ![5, 5] ![0.9, 0.9] ![0.7, 0.7] 16000 343) (points fun (_ : Fin 1) => ![2, 2])
        (points fun (_ : Fin 1) => ![1, 4] ∘ Equiv.swap 0 1) (omniArgs (.order (d := 2) 3) 800 cfg) =
      simulateRir w (boxRoom ![5, 5] ![0.9, 0.9] ![0.7, 0.7] 16000 343) (points fun (_ : Fin 1) => ![2, 2])
        (points fun (_ : Fin 1) => ![1, 4]) (omniArgs (.order (d := 2) 3) 800 cfg) := by
  refine C143_diagonal (Or.inl rfl) one_pos one_pos w _ _ _ _ _ (by norm_num) _ 800 (by norm_num) cfg hcfg _ _
    (Equiv.swap 0 1) ?_ ?_ ?_ rfl fun _ => ?_ <;>
  · funext j
    fin_cases j <;> rfl

end Torchrir.Props
