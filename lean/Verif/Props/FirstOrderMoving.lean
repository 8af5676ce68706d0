import Verif.Props.FirstOrder
import Verif.Props.Auralisation

/-!
# C146: first-order devices with the high-pass filter and in motion
-/

namespace Torchrir.Props

open Torchrir.Model Torchrir.Spec Torchrir.Lemmas

/-- `simulate_dynamic_rir(..., directivity=(sp, mp), orientation=(us, um))`: every device keeps its direction while it
moves. -/
def turnedArgs {d nS nM : ℕ} (sel : Selection d) (K : ℕ) (cfg : Config) (sp mp : String) (us : Fin nS → Fin d → ℝ)
    (um : Fin nM → Fin d → ℝ) : SimArgs :=
  { directionalArgs sel K cfg sp mp with orientation := some (.tuple [some (tensor2 us), some (tensor2 um)]) }

namespace FirstOrder

theorem post_directional {d nS nM : ℕ} (hd : d = 2 ∨ d = 3) (hS : 0 < nS) (hM : 0 < nM)
    (w : World) (L lo hi : Fin d → ℝ) (fs c : ℝ) (hfs : 0 < fs) (hc : 0 < c)
    (sel : Selection d) (K : ℕ) (hK : 0 < K) (cfg : Config) (hcfg : cfg.validate = .ok ())
    {G : (Fin K → ℝ) →ₗ[ℝ] (Fin K → ℝ)} (hG : Post w fs cfg G)
    (src us : Fin nS → Fin d → ℝ) (mic um : Fin nM → Fin d → ℝ)
    (ps pm : Pattern) (sp mp : String) (hps : sp.toLower ∈ ps.names) (hpm : mp.toLower ∈ pm.names)
    (hus : ∀ s, 1e-8 ≤ Real.sqrt (∑ i, us s i ^ 2)) (hum : ∀ m, 1e-8 ≤ Real.sqrt (∑ i, um m i ^ 2))
    (hne : ∀ s m, ∀ n ∈ sel.images, image L (src s) n ≠ mic m) :
    simulateRir w (boxRoom L lo hi fs c) (orientedPoints src us) (orientedPoints mic um) (directionalArgs sel K cfg sp mp)
      = .ok (tensor3 fun s m => G fun k : Fin K =>
          rir (setupFor w cfg L lo hi fs c) sel.images (ps.towards (us s)) (pm.towards (um m)) (src s) (mic m) k) := by
  cases hG with
  | off h =>
    exact C05_static_rir_formula_directional hd hS hM w L lo hi fs c hfs hc sel K hK cfg hcfg h src us mic um ps pm sp mp
      hps hpm hus hum hne
  | on hon hkw hfc sos hsos _ hG =>
    have h0 : 0 < cfg.rirHpfFc := ((Config.valid_iff cfg).mp hcfg).2.2.2.2.2.2.2.2.1
    have hsplit := static_split w (boxRoom L lo hi fs c) (orientedPoints src us) (orientedPoints mic um)
      (directionalArgs sel K cfg sp mp) cfg
    have e1 : ({ directionalArgs sel K cfg sp mp with config := some cfg } : SimArgs) = directionalArgs sel K cfg sp mp := rfl
    have e2 : ({ directionalArgs sel K cfg sp mp with config := some (unfiltered cfg) } : SimArgs)
      = directionalArgs sel K (unfiltered cfg) sp mp := rfl
    rw [e1, e2, C05_static_rir_formula_directional hd hS hM w L lo hi fs c hfs hc sel K hK (unfiltered cfg)
      ((unfiltered_validate cfg).trans hcfg) rfl src us mic um ps pm sp mp hps hpm hus hum hne, ok_bind] at hsplit
    rw [hsplit]
    exact applyRirHpf_linear hon (design_default hfs h0 hfc hkw hsos) hG hS hM _

theorem moving_directional {d T nS nM : ℕ} (hd : d = 2 ∨ d = 3) (hT : 0 < T) (hS : 0 < nS) (hM : 0 < nM)
    (w : World) (L lo hi : Fin d → ℝ) (fs c : ℝ) (hfs : 0 < fs) (hc : 0 < c)
    (sel : Selection d) (K : ℕ) (hK : 0 < K) (cfg : Config) (hcfg : cfg.validate = .ok ())
    {G : (Fin K → ℝ) →ₗ[ℝ] (Fin K → ℝ)} (hG : Post w fs cfg G)
    (src : Fin T → Fin nS → Fin d → ℝ) (us : Fin nS → Fin d → ℝ) (mic : Fin T → Fin nM → Fin d → ℝ) (um : Fin nM → Fin d → ℝ)
    (ps pm : Pattern) (sp mp : String) (hps : sp.toLower ∈ ps.names) (hpm : mp.toLower ∈ pm.names)
    (hus : ∀ s, 1e-8 ≤ Real.sqrt (∑ i, us s i ^ 2)) (hum : ∀ m, 1e-8 ≤ Real.sqrt (∑ i, um m i ^ 2))
    (hne : ∀ t s m, ∀ n ∈ sel.images, image L (src t s) n ≠ mic t m) :
    simulateDynamicRir w (boxRoom L lo hi fs c) (tensor3 src) (tensor3 mic) (turnedArgs sel K cfg sp mp us um)
      = .ok (tensor4 fun t s m => G fun k : Fin K =>
          rir (setupFor w cfg L lo hi fs c) sel.images (ps.towards (us s)) (pm.towards (um m)) (src t s) (mic t m) k) := by
  rw [C13_dynamic_is_static_per_step hT w _ L rfl hfs]
  exact ⟨_, fun t => post_directional hd hS hM w L lo hi fs c hfs hc sel K hK cfg hcfg hG (src t) us (mic t) um ps pm sp mp
    hps hpm hus hum (hne t), (stack_tensor3 hT _).symm⟩

/-- Mixtures pass through a linear map. -/
theorem map_mixture {d K : ℕ} (G : (Fin K → ℝ) →ₗ[ℝ] (Fin K → ℝ)) (r ro : Fin K → ℝ) (rb : Fin d → Fin K → ℝ) (a : ℝ)
    (b : Fin d → ℝ) (h : ∀ k, r k = a * ro k + (1 - a) * ∑ j, b j * rb j k) (k : Fin K) :
    G r k = a * G ro k + (1 - a) * ∑ j, b j * G (rb j) k := by
  have e : r = a • ro + (1 - a) • ∑ j, b j • rb j := by
    funext k
    rw [h]
    simp only [Pi.add_apply, Pi.smul_apply, smul_eq_mul, Finset.sum_apply]
  rw [e, map_add, map_smul, map_smul, map_sum]
  simp only [map_smul, Pi.add_apply, Pi.smul_apply, smul_eq_mul, Finset.sum_apply]

/-- What is heard in motion is linear in the responses. -/
theorem mixVarying_mic {d S M N K T : ℕ} (x : Fin S → Fin N → ℝ) (R Ro : Fin T → Fin S → Fin M → Fin K → ℝ)
    (Rb : Fin d → Fin T → Fin S → Fin M → Fin K → ℝ) (step : Fin N → Fin T) (m : Fin M) (a : ℝ) (b : Fin d → ℝ)
    (h : ∀ t s k, R t s m k = a * Ro t s m k + (1 - a) * ∑ j, b j * Rb j t s m k) (t : ℕ) :
    mixVarying x R step m t = a * mixVarying x Ro step m t + (1 - a) * ∑ j, b j * mixVarying x (Rb j) step m t := by
  unfold mixVarying
  simp only [Finset.mul_sum]
  rw [Finset.sum_comm (s := (Finset.univ : Finset (Fin d))), ← Finset.sum_add_distrib]
  refine Finset.sum_congr rfl fun s _ => ?_
  rw [Finset.sum_comm (s := (Finset.univ : Finset (Fin d))), ← Finset.sum_add_distrib]
  refine Finset.sum_congr rfl fun i _ => ?_
  rw [Finset.sum_comm (s := (Finset.univ : Finset (Fin d))), ← Finset.sum_add_distrib]
  refine Finset.sum_congr rfl fun k _ => ?_
  split
  · rw [h, mul_add, Finset.mul_sum, Finset.mul_sum]
    congr 1
    · ring
    · exact Finset.sum_congr rfl fun j _ => by ring
  · simp

theorem axis_long {d : ℕ} (j : Fin d) : (1e-8 : ℝ) ≤ Real.sqrt (∑ i, axisDir j i ^ 2) := by
  rw [axis_norm]
  norm_num

end FirstOrder

/-- **C146, filter.** With the high-pass filter off or with its default settings: the responses of first-order microphones
in any directions are the same mixtures of omnidirectional and figure-8 responses as in C138. -/
theorem C146_filtered {d nS nM : ℕ} (hd : d = 2 ∨ d = 3) (hS : 0 < nS) (hM : 0 < nM) (w : World)
    (L lo hi : Fin d → ℝ) (fs c : ℝ) (hfs : 0 < fs) (hc : 0 < c) (sel : Selection d) (K : ℕ) (hK : 0 < K)
    (cfg : Config) (hcfg : cfg.validate = .ok ()) {G : (Fin K → ℝ) →ₗ[ℝ] (Fin K → ℝ)} (hG : Post w fs cfg G)
    (src us : Fin nS → Fin d → ℝ) (mic um : Fin nM → Fin d → ℝ)
    (ps pm : Pattern) (a : ℝ) (ha : (pm, a) ∈ omniShare) (sp mp mo mb : String) (hps : sp.toLower ∈ ps.names)
    (hpm : mp.toLower ∈ pm.names) (hmo : mo.toLower ∈ Pattern.omni.names)
    (hmb : mb.toLower ∈ Pattern.bidirectional.names)
    (hus : ∀ s, 1e-8 ≤ Real.sqrt (∑ i, us s i ^ 2)) (hum : ∀ m, 1e-8 ≤ Real.sqrt (∑ i, um m i ^ 2))
    (hne : ∀ s m, ∀ n ∈ sel.images, image L (src s) n ≠ mic m) :
    ∃ (R Ro : Fin nS → Fin nM → Fin K → ℝ) (Rb : Fin d → Fin nS → Fin nM → Fin K → ℝ),
      simulateRir w (boxRoom L lo hi fs c) (orientedPoints src us) (orientedPoints mic um)
        (directionalArgs sel K cfg sp mp) = .ok (tensor3 R) ∧
      simulateRir w (boxRoom L lo hi fs c) (orientedPoints src us) (orientedPoints mic um)
        (directionalArgs sel K cfg sp mo) = .ok (tensor3 Ro) ∧
      (∀ j, simulateRir w (boxRoom L lo hi fs c) (orientedPoints src us) (orientedPoints mic fun _ => axisDir j)
        (directionalArgs sel K cfg sp mb) = .ok (tensor3 (Rb j))) ∧
      ∀ s m k, R s m k = a * Ro s m k + (1 - a) * ∑ j, dirCos (um m) j * Rb j s m k := by
  refine ⟨_, _, fun j => _,
    FirstOrder.post_directional hd hS hM w L lo hi fs c hfs hc sel K hK cfg hcfg hG src us mic um ps pm sp mp hps hpm hus hum
      hne,
    FirstOrder.post_directional hd hS hM w L lo hi fs c hfs hc sel K hK cfg hcfg hG src us mic um ps .omni sp mo hps hmo hus
      hum hne,
    fun j => FirstOrder.post_directional hd hS hM w L lo hi fs c hfs hc sel K hK cfg hcfg hG src us mic _ ps .bidirectional
      sp mb hps hmb hus (fun _ => FirstOrder.axis_long j) hne, fun s m k => ?_⟩
  exact FirstOrder.map_mixture G _ _ _ a _ (fun k => FirstOrder.rir_mic _ _ _ _ _
    (fun j => Pattern.bidirectional.towards (axisDir j)) a _ _ _ _ (FirstOrder.towards_mixture ha (um m))) k

/-- **C146, moving microphones.** The same for the responses of every step when sources and microphones move and keep their
directions, and for what is heard. -/
theorem C146_moving_microphones {d T nS nM N : ℕ} (hd : d = 2 ∨ d = 3) (hT : 0 < T) (hS : 0 < nS) (hM : 0 < nM) (w : World)
    (L lo hi : Fin d → ℝ) (fs c : ℝ) (hfs : 0 < fs) (hc : 0 < c) (sel : Selection d) (K : ℕ) (hK : 0 < K)
    (cfg : Config) (hcfg : cfg.validate = .ok ()) {G : (Fin K → ℝ) →ₗ[ℝ] (Fin K → ℝ)} (hG : Post w fs cfg G)
    (src : Fin T → Fin nS → Fin d → ℝ) (us : Fin nS → Fin d → ℝ) (mic : Fin T → Fin nM → Fin d → ℝ) (um : Fin nM → Fin d → ℝ)
    (ps pm : Pattern) (a : ℝ) (ha : (pm, a) ∈ omniShare) (sp mp mo mb : String) (hps : sp.toLower ∈ ps.names)
    (hpm : mp.toLower ∈ pm.names) (hmo : mo.toLower ∈ Pattern.omni.names)
    (hmb : mb.toLower ∈ Pattern.bidirectional.names)
    (hus : ∀ s, 1e-8 ≤ Real.sqrt (∑ i, us s i ^ 2)) (hum : ∀ m, 1e-8 ≤ Real.sqrt (∑ i, um m i ^ 2))
    (hne : ∀ t s m, ∀ n ∈ sel.images, image L (src t s) n ≠ mic t m) :
    ∃ (R Ro : Fin T → Fin nS → Fin nM → Fin K → ℝ) (Rb : Fin d → Fin T → Fin nS → Fin nM → Fin K → ℝ),
      simulateDynamicRir w (boxRoom L lo hi fs c) (tensor3 src) (tensor3 mic) (turnedArgs sel K cfg sp mp us um)
        = .ok (tensor4 R) ∧
      simulateDynamicRir w (boxRoom L lo hi fs c) (tensor3 src) (tensor3 mic) (turnedArgs sel K cfg sp mo us um)
        = .ok (tensor4 Ro) ∧
      (∀ j, simulateDynamicRir w (boxRoom L lo hi fs c) (tensor3 src) (tensor3 mic)
        (turnedArgs (nM := nM) sel K cfg sp mb us fun _ => axisDir j) = .ok (tensor4 (Rb j))) ∧
      (∀ t s m k, R t s m k = a * Ro t s m k + (1 - a) * ∑ j, dirCos (um m) j * Rb j t s m k) ∧
      ∀ (x : Fin nS → Fin N → ℝ) (dev : DeviceType) (ts : Option (Tensor ℝ)) (rate : Option ℝ) (start : Fin T → ℝ)
        (step : Fin N → Fin T), StartsAt N ts rate start → CurrentStep start step →
        ∃ (y yo : Fin nM → ℕ → ℝ) (yb : Fin d → Fin nM → ℕ → ℝ),
          ({ timestamps := ts, fs := rate } : Convolver).convolve dev (tensor2 x) (tensor4 R)
            = .ok (micTensor (N + K - 1) y) ∧
          ({ timestamps := ts, fs := rate } : Convolver).convolve dev (tensor2 x) (tensor4 Ro)
            = .ok (micTensor (N + K - 1) yo) ∧
          (∀ j, ({ timestamps := ts, fs := rate } : Convolver).convolve dev (tensor2 x) (tensor4 (Rb j))
            = .ok (micTensor (N + K - 1) (yb j))) ∧
          ∀ m t, y m t = a * yo m t + (1 - a) * ∑ j, dirCos (um m) j * yb j m t := by
  have hmix : ∀ (t : Fin T) (s : Fin nS) (m : Fin nM) (k : Fin K),
      G (fun k : Fin K => rir (setupFor w cfg L lo hi fs c) sel.images (ps.towards (us s)) (pm.towards (um m)) (src t s)
        (mic t m) k) k =
      a * G (fun k : Fin K => rir (setupFor w cfg L lo hi fs c) sel.images (ps.towards (us s)) (Pattern.omni.towards (um m))
        (src t s) (mic t m) k) k +
      (1 - a) * ∑ j, dirCos (um m) j * G (fun k : Fin K => rir (setupFor w cfg L lo hi fs c) sel.images (ps.towards (us s))
        (Pattern.bidirectional.towards (axisDir j)) (src t s) (mic t m) k) k := fun t s m k =>
    FirstOrder.map_mixture G _ _ _ a _ (fun k => FirstOrder.rir_mic _ _ _ _ _
      (fun j => Pattern.bidirectional.towards (axisDir j)) a _ _ _ _ (FirstOrder.towards_mixture ha (um m))) k
  refine ⟨_, _, fun j => _,
    FirstOrder.moving_directional hd hT hS hM w L lo hi fs c hfs hc sel K hK cfg hcfg hG src us mic um ps pm sp mp hps hpm hus
      hum hne,
    FirstOrder.moving_directional hd hT hS hM w L lo hi fs c hfs hc sel K hK cfg hcfg hG src us mic um ps .omni sp mo hps hmo
      hus hum hne,
    fun j => FirstOrder.moving_directional hd hT hS hM w L lo hi fs c hfs hc sel K hK cfg hcfg hG src us mic _ ps
      .bidirectional sp mb hps hmb hus (fun _ => FirstOrder.axis_long j) hne, hmix, ?_⟩
  intro x dev ts rate start step hstart hstep
  exact ⟨_, _, fun j => _, C24_trajectory_formula dev x _ (Or.inl rfl) (Or.inl rfl) hT (by omega) hstart step hstep,
    C24_trajectory_formula dev x _ (Or.inl rfl) (Or.inl rfl) hT (by omega) hstart step hstep,
    fun j => C24_trajectory_formula dev x _ (Or.inl rfl) (Or.inl rfl) hT (by omega) hstart step hstep,
    fun m t => FirstOrder.mixVarying_mic x _ _ _ step m a _ (fun t s k => hmix t s m k) t⟩

/-- **C146, moving sources.** The same for the directions of the sources. -/
theorem C146_moving_sources {d T nS nM : ℕ} (hd : d = 2 ∨ d = 3) (hT : 0 < T) (hS : 0 < nS) (hM : 0 < nM) (w : World)
    (L lo hi : Fin d → ℝ) (fs c : ℝ) (hfs : 0 < fs) (hc : 0 < c) (sel : Selection d) (K : ℕ) (hK : 0 < K)
    (cfg : Config) (hcfg : cfg.validate = .ok ()) {G : (Fin K → ℝ) →ₗ[ℝ] (Fin K → ℝ)} (hG : Post w fs cfg G)
    (src : Fin T → Fin nS → Fin d → ℝ) (us : Fin nS → Fin d → ℝ) (mic : Fin T → Fin nM → Fin d → ℝ) (um : Fin nM → Fin d → ℝ)
    (ps pm : Pattern) (a : ℝ) (ha : (ps, a) ∈ omniShare) (sp so sb mp : String) (hps : sp.toLower ∈ ps.names)
    (hso : so.toLower ∈ Pattern.omni.names) (hsb : sb.toLower ∈ Pattern.bidirectional.names)
    (hpm : mp.toLower ∈ pm.names)
    (hus : ∀ s, 1e-8 ≤ Real.sqrt (∑ i, us s i ^ 2)) (hum : ∀ m, 1e-8 ≤ Real.sqrt (∑ i, um m i ^ 2))
    (hne : ∀ t s m, ∀ n ∈ sel.images, image L (src t s) n ≠ mic t m) :
    ∃ (R Ro : Fin T → Fin nS → Fin nM → Fin K → ℝ) (Rb : Fin d → Fin T → Fin nS → Fin nM → Fin K → ℝ),
      simulateDynamicRir w (boxRoom L lo hi fs c) (tensor3 src) (tensor3 mic) (turnedArgs sel K cfg sp mp us um)
        = .ok (tensor4 R) ∧
      simulateDynamicRir w (boxRoom L lo hi fs c) (tensor3 src) (tensor3 mic) (turnedArgs sel K cfg so mp us um)
        = .ok (tensor4 Ro) ∧
      (∀ j, simulateDynamicRir w (boxRoom L lo hi fs c) (tensor3 src) (tensor3 mic)
        (turnedArgs (nS := nS) sel K cfg sb mp (fun _ => axisDir j) um) = .ok (tensor4 (Rb j))) ∧
      ∀ t s m k, R t s m k = a * Ro t s m k + (1 - a) * ∑ j, dirCos (us s) j * Rb j t s m k := by
  refine ⟨_, _, fun j => _,
    FirstOrder.moving_directional hd hT hS hM w L lo hi fs c hfs hc sel K hK cfg hcfg hG src us mic um ps pm sp mp hps hpm hus
      hum hne,
    FirstOrder.moving_directional hd hT hS hM w L lo hi fs c hfs hc sel K hK cfg hcfg hG src us mic um .omni pm so mp hso hpm
      hus hum hne,
    fun j => FirstOrder.moving_directional hd hT hS hM w L lo hi fs c hfs hc sel K hK cfg hcfg hG src _ mic um
      .bidirectional pm sb mp hsb hpm (fun _ => FirstOrder.axis_long j) hum hne, fun t s m k => ?_⟩
  exact FirstOrder.map_mixture G _ _ _ a _ (fun k => FirstOrder.rir_src _ _ _ _ _
    (fun j => Pattern.bidirectional.towards (axisDir j)) a _ _ _ _ (FirstOrder.towards_mixture ha (us s))) k

/-- **C146, turning microphones.** A call takes one direction per microphone for all steps. The responses of microphones that
turn while they move, simulated step by step, are nevertheless mixtures of one omnidirectional and `d` figure-8 calls for all
steps: only the weights change with the step. -/
theorem C146_turning {d T nS nM : ℕ} (hd : d = 2 ∨ d = 3) (hT : 0 < T) (hS : 0 < nS) (hM : 0 < nM) (w : World)
    (L lo hi : Fin d → ℝ) (fs c : ℝ) (hfs : 0 < fs) (hc : 0 < c) (sel : Selection d) (K : ℕ) (hK : 0 < K)
    (cfg : Config) (hcfg : cfg.validate = .ok ()) {G : (Fin K → ℝ) →ₗ[ℝ] (Fin K → ℝ)} (hG : Post w fs cfg G)
    (src : Fin T → Fin nS → Fin d → ℝ) (us : Fin nS → Fin d → ℝ) (mic um : Fin T → Fin nM → Fin d → ℝ)
    (ps pm : Pattern) (a : ℝ) (ha : (pm, a) ∈ omniShare) (sp mp mo mb : String) (hps : sp.toLower ∈ ps.names)
    (hpm : mp.toLower ∈ pm.names) (hmo : mo.toLower ∈ Pattern.omni.names)
    (hmb : mb.toLower ∈ Pattern.bidirectional.names)
    (hus : ∀ s, 1e-8 ≤ Real.sqrt (∑ i, us s i ^ 2)) (hum : ∀ t m, 1e-8 ≤ Real.sqrt (∑ i, um t m i ^ 2))
    (hne : ∀ t s m, ∀ n ∈ sel.images, image L (src t s) n ≠ mic t m) :
    ∃ (R Ro : Fin T → Fin nS → Fin nM → Fin K → ℝ) (Rb : Fin d → Fin T → Fin nS → Fin nM → Fin K → ℝ),
      (∀ t, simulateRir w (boxRoom L lo hi fs c) (orientedPoints (src t) us) (orientedPoints (mic t) (um t))
        (directionalArgs sel K cfg sp mp) = .ok (tensor3 (R t))) ∧
      (∀ t, simulateDynamicRir w (boxRoom L lo hi fs c) (tensor3 src) (tensor3 mic) (turnedArgs sel K cfg sp mo us (um t))
        = .ok (tensor4 Ro)) ∧
      (∀ j, simulateDynamicRir w (boxRoom L lo hi fs c) (tensor3 src) (tensor3 mic)
        (turnedArgs (nM := nM) sel K cfg sp mb us fun _ => axisDir j) = .ok (tensor4 (Rb j))) ∧
      ∀ t s m k, R t s m k = a * Ro t s m k + (1 - a) * ∑ j, dirCos (um t m) j * Rb j t s m k := by
  refine ⟨fun t => _, fun t s m => G fun k : Fin K => rir (setupFor w cfg L lo hi fs c) sel.images (ps.towards (us s)) omni
      (src t s) (mic t m) k, fun j => _,
    fun t => FirstOrder.post_directional hd hS hM w L lo hi fs c hfs hc sel K hK cfg hcfg hG (src t) us (mic t) (um t) ps pm sp
      mp hps hpm hus (hum t) (hne t),
    fun t => FirstOrder.moving_directional hd hT hS hM w L lo hi fs c hfs hc sel K hK cfg hcfg hG src us mic (um t) ps .omni
      sp mo hps hmo hus (hum t) hne,
    fun j => FirstOrder.moving_directional hd hT hS hM w L lo hi fs c hfs hc sel K hK cfg hcfg hG src us mic _ ps
      .bidirectional sp mb hps hmb hus (fun _ => FirstOrder.axis_long j) hne, fun t s m k => ?_⟩
  exact FirstOrder.map_mixture G _ _ _ a _ (fun k => FirstOrder.rir_mic _ _ _ _ _
    (fun j => Pattern.bidirectional.towards (axisDir j)) a _ _ _ _ (FirstOrder.towards_mixture ha (um t m))) k

/-- A cardioid microphone that turns from north to east while it walks through a 4 m × 5 m room: in the second step its
response is half the sum of an omnidirectional one and of a figure-8 towards the east. -/
example (w : World) : ∃ (R Ro : Fin 2 → Fin 1 → Fin 1 → Fin 1000 → ℝ) (Rb : Fin 2 → Fin 2 → Fin 1 → Fin 1 → Fin 1000 → ℝ),
    simulateRir w (boxRoom ![4, 5] ![0.9, 0.8] ![0.7, 0.6] 16000 343) (orientedPoints ![![1, 2]] ![![1, 0]])
      (orientedPoints ![![3, 3]] ![![2, 0]])
      (directionalArgs (d := 2) (.order 0) 1000 { rirHpfEnable := false } "omni" "cardioid") = .ok (tensor3 (R 1)) ∧
    simulateDynamicRir w (boxRoom ![4, 5] ![0.9, 0.8] ![0.7, 0.6] 16000 343)
      (tensor3 (![![![1, 2]], ![![1, 2]]] : Fin 2 → Fin 1 → Fin 2 → ℝ)) (tensor3 (![![![3, 4]], ![![3, 3]]] : Fin 2 → Fin 1 → Fin 2 → ℝ))
      (turnedArgs (d := 2) (nS := 1) (nM := 1) (.order 0) 1000 { rirHpfEnable := false } "omni" "omni" ![![1, 0]] ![![2, 0]])
      = .ok (tensor4 Ro) ∧
    simulateDynamicRir w (boxRoom ![4, 5] ![0.9, 0.8] ![0.7, 0.6] 16000 343)
      (tensor3 (![![![1, 2]], ![![1, 2]]] : Fin 2 → Fin 1 → Fin 2 → ℝ)) (tensor3 (![![![3, 4]], ![![3, 3]]] : Fin 2 → Fin 1 → Fin 2 → ℝ))
      (turnedArgs (d := 2) (nS := 1) (nM := 1) (.order 0) 1000 { rirHpfEnable := false } "omni" "bidirectional" ![![1, 0]]
        fun _ => axisDir 0)
      = .ok (tensor4 (Rb 0)) ∧
    ∀ k, R 1 0 0 k = (Ro 1 0 0 k + Rb 0 1 0 0 k) / 2 := by
  have low : ∀ s : String, s.toList.map Char.toLower = s.toList → s.toLower = s := by
    intro s h
    apply String.toList_inj.mp
    rw [String.toLower, String.toList_map, h]
  have hc : "cardioid".toLower ∈ Pattern.cardioid.names := by
    rw [low _ (by decide)]
    decide
  have ho : "omni".toLower ∈ Pattern.omni.names := by
    rw [low _ (by decide)]
    decide
  have hb : "bidirectional".toLower ∈ Pattern.bidirectional.names := by
    rw [low _ (by decide)]
    decide
  obtain ⟨R, Ro, Rb, h1, h2, h3, h4⟩ := C146_turning (T := 2) (nS := 1) (nM := 1) (Or.inl rfl) (by norm_num) (by norm_num)
    (by norm_num) w ![4, 5] ![0.9, 0.8] ![0.7, 0.6] 16000 343 (by norm_num) (by norm_num) (.order 0) 1000 (by norm_num)
    { rirHpfEnable := false } plainConfig_valid (.off rfl) ![![![1, 2]], ![![1, 2]]] ![![1, 0]] ![![![3, 4]], ![![3, 3]]]
    ![![![0, 1]], ![![2, 0]]] .omni .cardioid (1 / 2) (by simp [omniShare]) "omni" "cardioid" "omni" "bidirectional" ho hc ho
    hb (by intro s; fin_cases s; simp [Fin.sum_univ_two]; norm_num)
    (by
      intro t m
      fin_cases m
      fin_cases t
      · simp [Fin.sum_univ_two]; norm_num
      · simp [Fin.sum_univ_two]
        norm_num)
    (by
      intro t s m n hn
      have hn0 : n = 0 := by
        have h1 := (mem_orderSet n).mp hn
        simp only [Fin.sum_univ_two, Nat.cast_zero] at h1
        have h2 := abs_nonneg (n 0)
        have h3 := abs_nonneg (n 1)
        funext i
        fin_cases i
        · exact abs_eq_zero.mp (by show |n 0| = 0; omega)
        · exact abs_eq_zero.mp (by show |n 1| = 0; omega)
      fin_cases s; fin_cases m
      rw [hn0, image_zero]
      intro h
      have := congrFun h 0
      fin_cases t <;> simp at this)
  refine ⟨R, Ro, Rb, h1 1, h2 1, h3 0, fun k => ?_⟩
  rw [h4]
  have e0 : dirCos ((![![![0, 1]], ![![2, 0]]] : Fin 2 → Fin 1 → Fin 2 → ℝ) 1 0) 0 = 1 := by
    simp [dirCos, Fin.sum_univ_two]
  have e1 : dirCos ((![![![0, 1]], ![![2, 0]]] : Fin 2 → Fin 1 → Fin 2 → ℝ) 1 0) 1 = 0 := by
    simp [dirCos, Fin.sum_univ_two]
  rw [Fin.sum_univ_two, e0, e1]
  ring

end Torchrir.Props
