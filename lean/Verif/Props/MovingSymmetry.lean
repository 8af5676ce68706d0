import Verif.Props.Invariance

/-!
# C139: symmetries of moving scenes
-/

namespace Torchrir.Props

open Torchrir.Model Torchrir.Spec Torchrir.Lemmas

namespace MovingSymmetry

/-- Scenes whose steps sound alike sound alike. -/
theorem same {d T nS nM : ℕ} (hT : 0 < T) (w : World) (room room' : Room) (L L' : Fin d → ℝ)
    (hL : room.size = List.ofFn L) (hL' : room'.size = List.ofFn L') (hfs : 0 < room.fs) (hfs' : 0 < room'.fs)
    (src src' : Fin T → Fin nS → Fin d → ℝ) (mic mic' : Fin T → Fin nM → Fin d → ℝ) (a a' : SimArgs)
    (h : ∀ t, simulateRir w room (points (src t)) (points (mic t)) { a with tdiff := none } =
      simulateRir w room' (points (src' t)) (points (mic' t)) { a' with tdiff := none }) (R : Tensor ℝ) :
    simulateDynamicRir w room (tensor3 src) (tensor3 mic) a = .ok R ↔
      simulateDynamicRir w room' (tensor3 src') (tensor3 mic') a' = .ok R := by
  rw [C13_dynamic_is_static_per_step hT w room L hL hfs, C13_dynamic_is_static_per_step hT w room' L' hL' hfs']
  simp only [h]

/-- The responses of a moving scene with omnidirectional devices. -/
theorem eval {d T nS nM : ℕ} (hT : 0 < T) (hd : d = 2 ∨ d = 3) (hS : 0 < nS) (hM : 0 < nM) (w : World)
    (L lo hi : Fin d → ℝ) (fs c : ℝ) (hfs : 0 < fs) (hc : 0 < c) (sel : Selection d) (K : ℕ) (hK : 0 < K)
    (cfg : Config) (hcfg : cfg.validate = .ok ()) (hoff : cfg.rirHpfEnable = false)
    (src : Fin T → Fin nS → Fin d → ℝ) (mic : Fin T → Fin nM → Fin d → ℝ) :
    simulateDynamicRir w (boxRoom L lo hi fs c) (tensor3 src) (tensor3 mic) (omniArgs sel K cfg) =
      .ok (tensor4 fun t s m (k : Fin K) =>
        rir (setupFor w cfg L lo hi fs c) sel.images omni omni (src t s) (mic t m) k) := by
  rw [C13_dynamic_is_static_per_step hT w (boxRoom L lo hi fs c) L rfl hfs]
  exact ⟨_, fun t => C05_static_rir_formula hd hS hM w L lo hi fs c hfs hc sel K hK cfg hcfg hoff (src t) (mic t),
    (stack_tensor3 hT _).symm⟩

end MovingSymmetry

/-! ## C139 -/

/-- **C139, reciprocity.** Exchanging the trajectories of sources and microphones transposes the
responses of every step. -/
theorem C139_reciprocity {d T nS nM : ℕ} (hT : 0 < T) (hd : d = 2 ∨ d = 3) (hS : 0 < nS) (hM : 0 < nM) (w : World)
    (L lo hi : Fin d → ℝ) (fs c : ℝ) (hfs : 0 < fs) (hc : 0 < c) (sel : Selection d) (K : ℕ) (hK : 0 < K)
    (cfg : Config) (hcfg : cfg.validate = .ok ()) (hoff : cfg.rirHpfEnable = false)
    (src : Fin T → Fin nS → Fin d → ℝ) (mic : Fin T → Fin nM → Fin d → ℝ) :
    ∃ f : Fin T → Fin nS → Fin nM → Fin K → ℝ,
      simulateDynamicRir w (boxRoom L lo hi fs c) (tensor3 src) (tensor3 mic) (omniArgs sel K cfg) =
        .ok (tensor4 f) ∧
      simulateDynamicRir w (boxRoom L lo hi fs c) (tensor3 mic) (tensor3 src) (omniArgs sel K cfg) =
        .ok (tensor4 fun t m s k => f t s m k) := by
  refine ⟨_, MovingSymmetry.eval hT hd hS hM w L lo hi fs c hfs hc sel K hK cfg hcfg hoff src mic, ?_⟩
  rw [MovingSymmetry.eval hT hd hM hS w L lo hi fs c hfs hc sel K hK cfg hcfg hoff mic src]
  congr 2
  funext t m s k
  exact rir_reciprocal _ _ (selection_signInvariant sel) _ _ _

/-- **C139, one source and one microphone.** When the two exchange their trajectories, the same is heard,
whatever is played and however the steps are timed. -/
theorem C139_same_sound {d T N : ℕ} (hT : 0 < T) (hd : d = 2 ∨ d = 3) (w : World)
    (L lo hi : Fin d → ℝ) (fs c : ℝ) (hfs : 0 < fs) (hc : 0 < c) (sel : Selection d) (K : ℕ) (hK : 0 < K)
    (cfg : Config) (hcfg : cfg.validate = .ok ()) (hoff : cfg.rirHpfEnable = false)
    (src mic : Fin T → Fin 1 → Fin d → ℝ) (conv : Convolver) (dev : DeviceType) (x : Fin 1 → Fin N → ℝ) :
    (simulateDynamicRir w (boxRoom L lo hi fs c) (tensor3 src) (tensor3 mic) (omniArgs sel K cfg) >>=
        conv.convolve dev (tensor2 x)) =
      (simulateDynamicRir w (boxRoom L lo hi fs c) (tensor3 mic) (tensor3 src) (omniArgs sel K cfg) >>=
        conv.convolve dev (tensor2 x)) := by
  obtain ⟨f, h1, h2⟩ := C139_reciprocity hT hd one_pos one_pos w L lo hi fs c hfs hc sel K hK cfg hcfg hoff src mic
  rw [h1, h2]
  congr 3
  funext t m s k
  rw [Subsingleton.elim m s]

/-- **C139, mirrored rooms.** Mirroring all trajectories and exchanging the two walls changes nothing, with
or without the filter. -/
theorem C139_mirror {d T nS nM : ℕ} (hT : 0 < T) (hd : d = 2 ∨ d = 3) (hS : 0 < nS) (hM : 0 < nM) (w : World)
    (L lo hi : Fin d → ℝ) (fs c : ℝ) (hfs : 0 < fs) (hc : 0 < c) (sel : Selection d) (K : ℕ) (hK : 0 < K)
    (cfg : Config) (hcfg : cfg.validate = .ok ()) (src : Fin T → Fin nS → Fin d → ℝ)
    (mic : Fin T → Fin nM → Fin d → ℝ) (i : Fin d) (R : Tensor ℝ) :
    simulateDynamicRir w (boxRoom L (Function.update lo i (hi i)) (Function.update hi i (lo i)) fs c)
        (tensor3 fun t s => Function.update (src t s) i (L i - src t s i))
        (tensor3 fun t m => Function.update (mic t m) i (L i - mic t m i)) (omniArgs sel K cfg) = .ok R ↔
      simulateDynamicRir w (boxRoom L lo hi fs c) (tensor3 src) (tensor3 mic) (omniArgs sel K cfg) = .ok R :=
  MovingSymmetry.same hT w _ _ L L rfl rfl hfs hfs _ _ _ _ _ _ (fun t =>
    C12_mirror_symmetry hd hS hM w L lo hi fs c hfs hc sel K hK cfg hcfg (src t) (mic t) i) R

/-- **C139, axes.** Renaming the axes changes nothing, with or without the filter. -/
theorem C139_axes {d T nS nM : ℕ} (hT : 0 < T) (hd : d = 2 ∨ d = 3) (hS : 0 < nS) (hM : 0 < nM) (w : World)
    (L lo hi : Fin d → ℝ) (fs c : ℝ) (hfs : 0 < fs) (sel : Selection d) (K : ℕ) (hK : 0 < K)
    (cfg : Config) (hcfg : cfg.validate = .ok ()) (src : Fin T → Fin nS → Fin d → ℝ)
    (mic : Fin T → Fin nM → Fin d → ℝ) (σ : Equiv.Perm (Fin d)) (R : Tensor ℝ) :
    simulateDynamicRir w (boxRoom (L ∘ σ) (lo ∘ σ) (hi ∘ σ) fs c) (tensor3 fun t s => src t s ∘ σ)
        (tensor3 fun t m => mic t m ∘ σ) (omniArgs (sel.renamed σ) K cfg) = .ok R ↔
      simulateDynamicRir w (boxRoom L lo hi fs c) (tensor3 src) (tensor3 mic) (omniArgs sel K cfg) = .ok R :=
  MovingSymmetry.same hT w _ _ (L ∘ σ) L rfl rfl hfs hfs _ _ _ _ _ _ (fun t =>
    C74_axes hd hS hM w L lo hi fs c hfs sel K hK cfg hcfg (src t) (mic t) σ) R

/-- **C139, scale.** Multiplying the room, all trajectories and the speed of sound by `q` divides every
sample by `q`, as long as no path is shorter than a micrometre before or after. -/
theorem C139_scale {d T nS nM : ℕ} (hT : 0 < T) (hd : d = 2 ∨ d = 3) (hS : 0 < nS) (hM : 0 < nM) (w : World)
    (L lo hi : Fin d → ℝ) (fs c : ℝ) (hfs : 0 < fs) (hc : 0 < c) (sel : Selection d) (K : ℕ) (hK : 0 < K)
    (cfg : Config) (hcfg : cfg.validate = .ok ()) (hoff : cfg.rirHpfEnable = false)
    (src : Fin T → Fin nS → Fin d → ℝ) (mic : Fin T → Fin nM → Fin d → ℝ) (q : ℝ) (hq : 0 < q)
    (hfar : ∀ t s m, ∀ n ∈ sel.images, 1e-6 ≤ Spec.dist (mic t m) (image L (src t s) n) ∧
      1e-6 ≤ q * Spec.dist (mic t m) (image L (src t s) n)) :
    ∃ f : Fin T → Fin nS → Fin nM → Fin K → ℝ,
      simulateDynamicRir w (boxRoom L lo hi fs c) (tensor3 src) (tensor3 mic) (omniArgs sel K cfg) =
        .ok (tensor4 f) ∧
      simulateDynamicRir w (boxRoom (fun i => q * L i) lo hi fs (q * c)) (tensor3 fun t s i => q * src t s i)
        (tensor3 fun t m i => q * mic t m i) (omniArgs sel K cfg) = .ok (tensor4 fun t s m k => f t s m k / q) := by
  refine ⟨_, MovingSymmetry.eval hT hd hS hM w L lo hi fs c hfs hc sel K hK cfg hcfg hoff src mic, ?_⟩
  rw [MovingSymmetry.eval hT hd hS hM w _ lo hi fs (q * c) hfs (by positivity) sel K hK cfg hcfg hoff]
  congr 2
  funext t s m k
  exact rir_scale hq (setupFor w cfg L lo hi fs c) sel.images omni omni (fun _ => rfl) (fun _ => rfl)
    (src t s) (mic t m) (hfar t s m) k

/-- **C139, steps.** Simulating any choice of the steps, in any order and with repetitions, gives the
responses of these steps: in particular a motion played backwards gives the responses backwards. This
holds for all arguments of the simulation, devices and filters. -/
theorem C139_steps {d T T' nS nM : ℕ} (hT : 0 < T) (hT' : 0 < T') (w : World) (room : Room) (L : Fin d → ℝ)
    (hsize : room.size = List.ofFn L) (hfs : 0 < room.fs) (src : Fin T → Fin nS → Fin d → ℝ)
    (mic : Fin T → Fin nM → Fin d → ℝ) (a : SimArgs) (R : Tensor ℝ)
    (h : simulateDynamicRir w room (tensor3 src) (tensor3 mic) a = .ok R) (choice : Fin T' → Fin T) :
    ∃ Rs : Fin T → Tensor ℝ, R = stack (List.ofFn Rs) ∧
      simulateDynamicRir w room (tensor3 fun t => src (choice t)) (tensor3 fun t => mic (choice t)) a =
        .ok (stack (List.ofFn fun t => Rs (choice t))) := by
  rw [C13_dynamic_is_static_per_step hT w room L hsize hfs] at h
  obtain ⟨Rs, h1, h2⟩ := h
  refine ⟨Rs, h2, ?_⟩
  rw [C13_dynamic_is_static_per_step hT' w room L hsize hfs]
  exact ⟨_, fun t => h1 (choice t), rfl⟩

/-- **C139, backwards.** The responses of a motion played backwards. -/
theorem C139_backwards {d T nS nM : ℕ} (hT : 0 < T) (hd : d = 2 ∨ d = 3) (hS : 0 < nS) (hM : 0 < nM) (w : World)
    (L lo hi : Fin d → ℝ) (fs c : ℝ) (hfs : 0 < fs) (hc : 0 < c) (sel : Selection d) (K : ℕ) (hK : 0 < K)
    (cfg : Config) (hcfg : cfg.validate = .ok ()) (hoff : cfg.rirHpfEnable = false)
    (src : Fin T → Fin nS → Fin d → ℝ) (mic : Fin T → Fin nM → Fin d → ℝ) :
    ∃ f : Fin T → Fin nS → Fin nM → Fin K → ℝ,
      simulateDynamicRir w (boxRoom L lo hi fs c) (tensor3 src) (tensor3 mic) (omniArgs sel K cfg) =
        .ok (tensor4 f) ∧
      simulateDynamicRir w (boxRoom L lo hi fs c) (tensor3 fun t => src t.rev) (tensor3 fun t => mic t.rev)
        (omniArgs sel K cfg) = .ok (tensor4 fun t => f t.rev) :=
  ⟨_, MovingSymmetry.eval hT hd hS hM w L lo hi fs c hfs hc sel K hK cfg hcfg hoff src mic,
    MovingSymmetry.eval hT hd hS hM w L lo hi fs c hfs hc sel K hK cfg hcfg hoff _ _⟩

/-- A source that walks along the wall and a fixed microphone, and the other way round. -/
example (w : World) (x : Fin 1 → Fin 48000 → ℝ) :
    (simulateDynamicRir w (boxRoom ![4, 5] ![0.9, 0.8] ![0.7, 0.6] 16000 343)
        (tensor3 fun (t : Fin 10) (_ : Fin 1) => ![1, (t : ℝ) / 4 + 1]) (tensor3 fun (_ : Fin 10) (_ : Fin 1) => ![3, 2])
        (omniArgs (d := 2) (.order 2) 1000 { rirHpfEnable := false }) >>=
      ({} : Convolver).convolve .cpu (tensor2 x)) =
    (simulateDynamicRir w (boxRoom ![4, 5] ![0.9, 0.8] ![0.7, 0.6] 16000 343)
        (tensor3 fun (_ : Fin 10) (_ : Fin 1) => ![3, 2]) (tensor3 fun (t : Fin 10) (_ : Fin 1) => ![1, (t : ℝ) / 4 + 1])
        (omniArgs (d := 2) (.order 2) 1000 { rirHpfEnable := false }) >>=
      ({} : Convolver).convolve .cpu (tensor2 x)) :=
  C139_same_sound (by norm_num) (Or.inl rfl) w _ _ _ _ _ (by norm_num) (by norm_num) _ _ (by norm_num) _
    plainConfig_valid rfl _ _ _ _ _

end Torchrir.Props
