import Verif.Lemmas.Invariance
import Verif.Props.Symmetry
import Verif.Props.Signal

/-!
# C73–C77: scale, axes, reflection orders, motionless scenes and auralisation
-/

namespace Torchrir.Props

open Torchrir.Model Torchrir.Spec Torchrir.Lemmas

/-! ## C73 -/

/-- **C73.** Multiplying the room, all positions and the speed of sound by `q` divides every sample
by `q`, as long as no path is shorter than a micrometre before or after. -/
theorem C73_scale {d nS nM : ℕ} (hd : d = 2 ∨ d = 3) (hS : 0 < nS) (hM : 0 < nM)
    (w : World) (L lo hi : Fin d → ℝ) (fs c : ℝ) (hfs : 0 < fs) (hc : 0 < c)
    (sel : Selection d) (K : ℕ) (hK : 0 < K)
    (cfg : Config) (hcfg : cfg.validate = .ok ()) (hoff : cfg.rirHpfEnable = false)
    (src : Fin nS → Fin d → ℝ) (mic : Fin nM → Fin d → ℝ) (q : ℝ) (hq : 0 < q)
    (hfar : ∀ s m, ∀ n ∈ sel.images, 1e-6 ≤ Spec.dist (mic m) (image L (src s) n) ∧
      1e-6 ≤ q * Spec.dist (mic m) (image L (src s) n)) :
    ∃ f : Fin nS → Fin nM → Fin K → ℝ,
      simulateRir w (boxRoom L lo hi fs c) (points src) (points mic) (omniArgs sel K cfg)
        = .ok (tensor3 f) ∧
      simulateRir w (boxRoom (fun i => q * L i) lo hi fs (q * c)) (points (scaled q src))
        (points (scaled q mic)) (omniArgs sel K cfg) = .ok (tensor3 fun s m k => f s m k / q) := by
  refine ⟨_, C05_static_rir_formula hd hS hM w L lo hi fs c hfs hc sel K hK cfg hcfg hoff src mic, ?_⟩
  rw [C05_static_rir_formula hd hS hM w _ lo hi fs (q * c) hfs (by positivity) sel K hK cfg hcfg hoff]
  congr 2
  funext s m k
  exact rir_scale hq (setupFor w cfg L lo hi fs c) sel.images omni omni (fun _ => rfl) (fun _ => rfl)
    (src s) (mic m) (hfar s m) k

/-- **C73, directional devices.** The same holds with directional devices keeping their axes. -/
theorem C73_scale_directional {d nS nM : ℕ} (hd : d = 2 ∨ d = 3) (hS : 0 < nS) (hM : 0 < nM)
    (w : World) (L lo hi : Fin d → ℝ) (fs c : ℝ) (hfs : 0 < fs) (hc : 0 < c)
    (sel : Selection d) (K : ℕ) (hK : 0 < K)
    (cfg : Config) (hcfg : cfg.validate = .ok ()) (hoff : cfg.rirHpfEnable = false)
    (src us : Fin nS → Fin d → ℝ) (mic um : Fin nM → Fin d → ℝ)
    (ps pm : Pattern) (sp mp : String) (hps : sp.toLower ∈ ps.names) (hpm : mp.toLower ∈ pm.names)
    (hus : ∀ s, 1e-8 ≤ Real.sqrt (∑ i, us s i ^ 2))
    (hum : ∀ m, 1e-8 ≤ Real.sqrt (∑ i, um m i ^ 2)) (q : ℝ) (hq : 0 < q)
    (hfar : ∀ s m, ∀ n ∈ sel.images, 1e-6 ≤ Spec.dist (mic m) (image L (src s) n) ∧
      1e-6 ≤ q * Spec.dist (mic m) (image L (src s) n)) :
    ∃ f : Fin nS → Fin nM → Fin K → ℝ,
      simulateRir w (boxRoom L lo hi fs c) (orientedPoints src us) (orientedPoints mic um)
        (directionalArgs sel K cfg sp mp) = .ok (tensor3 f) ∧
      simulateRir w (boxRoom (fun i => q * L i) lo hi fs (q * c)) (orientedPoints (scaled q src) us)
        (orientedPoints (scaled q mic) um) (directionalArgs sel K cfg sp mp)
        = .ok (tensor3 fun s m k => f s m k / q) := by
  have apart : ∀ x y : Fin d → ℝ, 1e-6 ≤ Spec.dist x y → y ≠ x := by
    rintro x y h rfl
    simp only [Spec.dist, sub_self] at h
    norm_num at h
  refine ⟨_, C05_static_rir_formula_directional hd hS hM w L lo hi fs c hfs hc sel K hK cfg hcfg hoff
    src us mic um ps pm sp mp hps hpm hus hum (fun s m n hn => apart _ _ (hfar s m n hn).1), ?_⟩
  rw [C05_static_rir_formula_directional hd hS hM w _ lo hi fs (q * c) hfs (by positivity) sel K hK cfg
    hcfg hoff (scaled q src) us (scaled q mic) um ps pm sp mp hps hpm hus hum ?_]
  · congr 2
    funext s m k
    exact rir_scale hq (setupFor w cfg L lo hi fs c) sel.images _ _
      (fun v => by unfold Pattern.towards; rw [cosAngle_scale hq])
      (fun v => by unfold Pattern.towards; rw [cosAngle_scale hq])
      (src s) (mic m) (hfar s m) k
  · intro s m n hn
    apply apart
    have e := image_scale q L (src s) n
    rw [show scaled q src s = fun i => q * src s i from rfl, e,
      show scaled q mic m = fun i => q * mic m i from rfl, dist_scale hq.le]
    exact (hfar s m n hn).2

/-- **C73, sampling rate.** Only the ratio of sampling rate and speed of sound enters. -/
theorem C73_rate {d nS nM : ℕ} (hd : d = 2 ∨ d = 3) (hS : 0 < nS) (hM : 0 < nM)
    (w : World) (L lo hi : Fin d → ℝ) (fs c : ℝ) (hfs : 0 < fs) (hc : 0 < c)
    (sel : Selection d) (K : ℕ) (hK : 0 < K)
    (cfg : Config) (hcfg : cfg.validate = .ok ()) (hoff : cfg.rirHpfEnable = false)
    (src : Fin nS → Fin d → ℝ) (mic : Fin nM → Fin d → ℝ) (q : ℝ) (hq : 0 < q) :
    simulateRir w (boxRoom L lo hi (q * fs) (q * c)) (points src) (points mic) (omniArgs sel K cfg)
      = simulateRir w (boxRoom L lo hi fs c) (points src) (points mic) (omniArgs sel K cfg) := by
  rw [C05_static_rir_formula hd hS hM w L lo hi fs c hfs hc sel K hK cfg hcfg hoff src mic,
    C05_static_rir_formula hd hS hM w L lo hi (q * fs) (q * c) (by positivity) (by positivity) sel K hK
      cfg hcfg hoff]
  congr 2
  funext s m k
  exact rir_rate hq.ne' (setupFor w cfg L lo hi fs c) _ _ _ _ _ _

/-- A room twice as large filled with a gas carrying sound twice as fast. -/
example (w : World) : ∃ f : Fin 1 → Fin 1 → Fin 1000 → ℝ,
    simulateRir w (boxRoom ![4, 5] ![0.9, 0.8] ![0.7, 0.6] 16000 343) (points ![![1, 2]])
      (points ![![3, 4]]) (omniArgs (d := 2) (.order 0) 1000 { rirHpfEnable := false })
        = .ok (tensor3 f) ∧
    simulateRir w (boxRoom (fun i => 2 * ![4, 5] i) ![0.9, 0.8] ![0.7, 0.6] 16000 (2 * 343))
      (points (scaled 2 ![![1, 2]])) (points (scaled 2 ![![3, 4]]))
      (omniArgs (d := 2) (.order 0) 1000 { rirHpfEnable := false })
        = .ok (tensor3 fun s m k => f s m k / 2) := by
  refine C73_scale (Or.inl rfl) (by norm_num) (by norm_num) w ![4, 5] _ _ _ _ (by norm_num)
    (by norm_num) (.order 0) 1000 (by norm_num) _ plainConfig_valid rfl _ _ 2 (by norm_num) ?_
  intro s m n hn
  have hn0 : n = 0 := by
    have h1 := (mem_orderSet n).mp hn
    simp only [Fin.sum_univ_two, Nat.cast_zero] at h1
    have h2 := abs_nonneg (n 0)
    have h3 := abs_nonneg (n 1)
    funext i
    fin_cases i
    · exact abs_eq_zero.mp (by show |n 0| = 0; omega)
    · exact abs_eq_zero.mp (by show |n 1| = 0; omega)
  have h2 : (2 : ℝ) ≤ Spec.dist (![![3, 4]] m) (image ![4, 5] (![![1, 2]] s) n) := by
    fin_cases s; fin_cases m
    rw [hn0, image_zero]
    unfold Spec.dist
    apply Real.le_sqrt_of_sq_le
    simp [Fin.sum_univ_two]
    norm_num
  exact ⟨le_trans (by norm_num) h2, le_trans (by norm_num) (mul_le_mul_of_nonneg_left h2 zero_le_two)⟩

/-! ## C74 -/

theorem selection_renamed {d : ℕ} (σ : Equiv.Perm (Fin d)) (sel : Selection d) (n : Fin d → ℤ) :
    n ∘ σ ∈ (sel.renamed σ).images ↔ n ∈ sel.images := by
  cases sel with
  | order N => exact orderSet_perm σ N n
  | box N nb => exact boxSet_perm σ nb n

/-- **C74.** Renaming the axes of the room, of its wall coefficients, of the image counts and of all
positions leaves the result unchanged, with or without the high-pass filter. -/
theorem C74_axes {d nS nM : ℕ} (hd : d = 2 ∨ d = 3) (hS : 0 < nS) (hM : 0 < nM)
    (w : World) (L lo hi : Fin d → ℝ) (fs c : ℝ) (hfs : 0 < fs)
    (sel : Selection d) (K : ℕ) (hK : 0 < K) (cfg : Config) (hcfg : cfg.validate = .ok ())
    (src : Fin nS → Fin d → ℝ) (mic : Fin nM → Fin d → ℝ) (σ : Equiv.Perm (Fin d)) :
    simulateRir w (boxRoom (L ∘ σ) (lo ∘ σ) (hi ∘ σ) fs c) (points (renamed σ src))
        (points (renamed σ mic)) (omniArgs (sel.renamed σ) K cfg)
      = simulateRir w (boxRoom L lo hi fs c) (points src) (points mic) (omniArgs sel K cfg) := by
  rw [omni_static_eval hd hS hM w _ _ _ fs c hfs (sel.renamed σ) K hK cfg hcfg,
    omni_static_eval hd hS hM w L lo hi fs c hfs sel K hK cfg hcfg]
  congr 2
  funext s m k
  exact rir_perm σ (setupFor w cfg L lo hi fs c) _ _ (selection_renamed σ sel) omni omni omni omni
    (fun _ => rfl) (fun _ => rfl) _ _ _

/-- **C74, directional devices.** Device axes are renamed along with the positions. -/
theorem C74_axes_directional {d nS nM : ℕ} (hd : d = 2 ∨ d = 3) (hS : 0 < nS) (hM : 0 < nM)
    (w : World) (L lo hi : Fin d → ℝ) (fs c : ℝ) (hfs : 0 < fs) (hc : 0 < c)
    (sel : Selection d) (K : ℕ) (hK : 0 < K)
    (cfg : Config) (hcfg : cfg.validate = .ok ()) (hoff : cfg.rirHpfEnable = false)
    (src us : Fin nS → Fin d → ℝ) (mic um : Fin nM → Fin d → ℝ)
    (ps pm : Pattern) (sp mp : String) (hps : sp.toLower ∈ ps.names) (hpm : mp.toLower ∈ pm.names)
    (hus : ∀ s, 1e-8 ≤ Real.sqrt (∑ i, us s i ^ 2))
    (hum : ∀ m, 1e-8 ≤ Real.sqrt (∑ i, um m i ^ 2))
    (hne : ∀ s m, ∀ n ∈ sel.images, image L (src s) n ≠ mic m) (σ : Equiv.Perm (Fin d)) :
    simulateRir w (boxRoom (L ∘ σ) (lo ∘ σ) (hi ∘ σ) fs c)
        (orientedPoints (renamed σ src) (renamed σ us)) (orientedPoints (renamed σ mic) (renamed σ um))
        (directionalArgs (sel.renamed σ) K cfg sp mp)
      = simulateRir w (boxRoom L lo hi fs c) (orientedPoints src us) (orientedPoints mic um)
        (directionalArgs sel K cfg sp mp) := by
  have hsq : ∀ u : Fin d → ℝ, (∑ i, u (σ i) ^ 2) = ∑ i, u i ^ 2 :=
    fun u => Equiv.sum_comp σ fun i => u i ^ 2
  rw [C05_static_rir_formula_directional hd hS hM w L lo hi fs c hfs hc sel K hK cfg hcfg hoff
      src us mic um ps pm sp mp hps hpm hus hum hne,
    C05_static_rir_formula_directional hd hS hM w _ _ _ fs c hfs hc (sel.renamed σ) K hK cfg hcfg hoff
      _ _ _ _ ps pm sp mp hps hpm
      (fun s => by unfold renamed; rw [hsq]; exact hus s)
      (fun m => by unfold renamed; rw [hsq]; exact hum m) ?_]
  · congr 2
    funext s m k
    exact rir_perm σ (setupFor w cfg L lo hi fs c) _ _ (selection_renamed σ sel) _ _ _ _
      (fun v => by
        show ps.gain (cosAngle (v ∘ σ) (us s ∘ σ)) = _
        rw [cosAngle_perm]; rfl)
      (fun v => by
        show pm.gain (cosAngle (v ∘ σ) (um m ∘ σ)) = _
        rw [cosAngle_perm]; rfl) _ _ _
  · intro s m n hn
    obtain ⟨n', rfl⟩ : ∃ n' : Fin d → ℤ, n = n' ∘ σ :=
      ⟨n ∘ σ.symm, by funext i; simp⟩
    have h1 := hne s m n' ((selection_renamed σ sel n').mp hn)
    intro h2
    apply h1
    funext i
    have h3 := congrFun h2 (σ.symm i)
    rw [show renamed σ src s = src s ∘ σ from rfl, image_perm] at h3
    simpa [renamed] using h3

/-- x and y exchanged. -/
example (w : World) :
    simulateRir w (boxRoom ![5, 4] ![0.8, 0.9] ![0.6, 0.7] 16000 343)
      (points ![![2, 1]]) (points ![![4, 3]])
      (omniArgs (d := 2) (.box 3 ![1, 6]) 1000 {})
    = simulateRir w (boxRoom ![4, 5] ![0.9, 0.8] ![0.7, 0.6] 16000 343)
      (points ![![1, 2]]) (points ![![3, 4]])
      (omniArgs (d := 2) (.box 3 ![6, 1]) 1000 {}) := by
  have h := C74_axes (Or.inl rfl) (by norm_num) (by norm_num) w ![4, 5]
    ![0.9, 0.8] ![0.7, 0.6] 16000 343 (by norm_num) (.box 3 ![6, 1]) 1000 (by norm_num) {}
    (by rw [Config.valid_iff]; refine ⟨?_, ?_, ?_, ?_, ?_⟩ <;> simp) ![![1, 2]] ![![3, 4]]
    (Equiv.swap 0 1)
  rw [← h]
  have e : ∀ {α : Type} (a b : α), ![a, b] ∘ (Equiv.swap (0 : Fin 2) 1) = ![b, a] := by
    intro α a b; funext i; fin_cases i <;> simp
  have e' : ∀ a b : ℝ, renamed (Equiv.swap (0 : Fin 2) 1) ![![a, b]] = ![![b, a]] := by
    intro a b; funext s i; fin_cases s; fin_cases i <;> simp [renamed]
  have e'' : (fun i => ![6, 1] (Equiv.swap (0 : Fin 2) 1 i)) = (![1, 6] : Fin 2 → ℕ) := e 6 1
  simp only [e, e', Selection.renamed, e'']

/-! ## C75 -/

/-- **C75.** Raising `max_order` by one adds exactly the images of the new order and changes
nothing else. -/
theorem C75_order_adds {d nS nM : ℕ} (hd : d = 2 ∨ d = 3) (hS : 0 < nS) (hM : 0 < nM)
    (w : World) (L lo hi : Fin d → ℝ) (fs c : ℝ) (hfs : 0 < fs) (hc : 0 < c) (N : ℕ)
    (K : ℕ) (hK : 0 < K) (cfg : Config) (hcfg : cfg.validate = .ok ()) (hoff : cfg.rirHpfEnable = false)
    (src : Fin nS → Fin d → ℝ) (mic : Fin nM → Fin d → ℝ) :
    ∃ f : Fin nS → Fin nM → Fin K → ℝ,
      simulateRir w (boxRoom L lo hi fs c) (points src) (points mic) (omniArgs (d := d) (.order N) K cfg)
        = .ok (tensor3 f) ∧
      simulateRir w (boxRoom L lo hi fs c) (points src) (points mic) (omniArgs (d := d) (.order (N + 1)) K cfg)
        = .ok (tensor3 fun s m k => f s m k +
            rir (setupFor w cfg L lo hi fs c) (orderShell d (N + 1)) omni omni (src s) (mic m) k) := by
  refine ⟨_, C05_static_rir_formula hd hS hM w L lo hi fs c hfs hc (.order N) K hK cfg hcfg hoff src mic, ?_⟩
  rw [C05_static_rir_formula hd hS hM w L lo hi fs c hfs hc (.order (N + 1)) K hK cfg hcfg hoff]
  congr 2
  funext s m k
  have e : (Selection.order (d := d) (N + 1)).images
      = (Selection.order (d := d) N).images ∪ orderShell d (N + 1) := by
    ext n
    simp only [Selection.images, orderShell, Finset.mem_union, Finset.mem_filter, mem_orderSet]
    push_cast
    omega
  have hdis : Disjoint (Selection.order (d := d) N).images (orderShell d (N + 1)) := by
    rw [Finset.disjoint_left]
    intro n h1 h2
    simp only [Selection.images, orderShell, Finset.mem_filter, mem_orderSet] at h1 h2
    have := h2.2
    push_cast at this
    omega
  rw [e]
  exact Finset.sum_union hdis

/-- **C75, first arrival of the new order.** Samples before the arrival of the shortest path of the
new order stay as they were. -/
theorem C75_early_samples_keep {d nS nM : ℕ} (hd : d = 2 ∨ d = 3) (hS : 0 < nS) (hM : 0 < nM)
    (w : World) (L lo hi : Fin d → ℝ) (fs c : ℝ) (hfs : 0 < fs) (hc : 0 < c) (N : ℕ)
    (K : ℕ) (hK : 0 < K) (cfg : Config) (hcfg : cfg.validate = .ok ()) (hoff : cfg.rirHpfEnable = false)
    (src : Fin nS → Fin d → ℝ) (mic : Fin nM → Fin d → ℝ) :
    ∃ f g : Fin nS → Fin nM → Fin K → ℝ,
      simulateRir w (boxRoom L lo hi fs c) (points src) (points mic) (omniArgs (d := d) (.order N) K cfg)
        = .ok (tensor3 f) ∧
      simulateRir w (boxRoom L lo hi fs c) (points src) (points mic) (omniArgs (d := d) (.order (N + 1)) K cfg)
        = .ok (tensor3 g) ∧
      ∀ s m (k : Fin K), (∀ n : Fin d → ℤ, ∑ i, |n i| = N + 1 →
          (k : ℝ) < Spec.dist (mic m) (image L (src s) n) * fs / c - 1) → g s m k = f s m k := by
  obtain ⟨f, h1, h2⟩ := C75_order_adds hd hS hM w L lo hi fs c hfs hc N K hK cfg hcfg hoff src mic
  refine ⟨f, _, h1, h2, fun s m k hk => ?_⟩
  rw [add_eq_left]
  unfold rir
  apply Finset.sum_eq_zero
  intro n hn
  dsimp only
  rw [kernel_early, mul_zero]
  refine lt_of_lt_of_le (hk n ?_) ?_
  · have := (Finset.mem_filter.mp hn).2
    push_cast at this
    exact this
  · have := dist_le_pathLength (mic m) (image L (src s) n)
    show _ ≤ pathLength (mic m) (image L (src s) n) * fs / c - 1
    have : Spec.dist (mic m) (image L (src s) n) * fs / c
      ≤ pathLength (mic m) (image L (src s) n) * fs / c := by gcongr
    linarith

/-- **C75, anechoic.** With all wall coefficients 0 only the direct path remains, whatever order or
box of images is requested. -/
theorem C75_anechoic {d nS nM : ℕ} (hd : d = 2 ∨ d = 3) (hS : 0 < nS) (hM : 0 < nM)
    (w : World) (L : Fin d → ℝ) (fs c : ℝ) (hfs : 0 < fs) (hc : 0 < c) (sel : Selection d)
    (K : ℕ) (hK : 0 < K) (cfg : Config) (hcfg : cfg.validate = .ok ()) (hoff : cfg.rirHpfEnable = false)
    (src : Fin nS → Fin d → ℝ) (mic : Fin nM → Fin d → ℝ) :
    simulateRir w (boxRoom L (fun _ => 0) (fun _ => 0) fs c) (points src) (points mic)
        (omniArgs sel K cfg)
      = .ok (tensor3 fun s m (k : Fin K) =>
          kernel (kernelShape (cfg.useLut && w.device ≠ .mps) cfg.sincLutGranularity.toNat)
            cfg.fracDelayLength.toNat (pathLength (mic m) (src s) * fs / c) k
            / pathLength (mic m) (src s)) := by
  rw [C05_static_rir_formula hd hS hM w L _ _ fs c hfs hc sel K hK cfg hcfg hoff]
  congr 2
  funext s m k
  unfold rir
  have h0 : (0 : Fin d → ℤ) ∈ sel.images := by
    cases sel with
    | order N => exact (mem_orderSet _).mpr (by simp)
    | box N nb => exact Fintype.mem_piFinset.mpr fun i => Finset.mem_Icc.mpr (by simp)
  rw [Finset.sum_eq_single_of_mem 0 h0]
  · dsimp only [setupFor]
    rw [image_zero, wallGain_zero, if_pos rfl]
    simp only [omni]
    ring
  · intro n _ hn
    dsimp only [setupFor]
    rw [wallGain_zero, if_neg hn]
    simp

/-- Order 2 against order 3, and a room without reflections. -/
example (w : World) : ∃ f : Fin 1 → Fin 2 → Fin 1000 → ℝ,
    simulateRir w (boxRoom ![4, 5] ![0.9, 0.8] ![0.7, 0.6] 16000 343)
      (points ![![1, 2]]) (points ![![3, 4], ![2, 2]])
      (omniArgs (d := 2) (.order 2) 1000 { rirHpfEnable := false }) = .ok (tensor3 f) ∧
    simulateRir w (boxRoom ![4, 5] ![0.9, 0.8] ![0.7, 0.6] 16000 343)
      (points ![![1, 2]]) (points ![![3, 4], ![2, 2]])
      (omniArgs (d := 2) (.order 3) 1000 { rirHpfEnable := false }) = .ok (tensor3 fun s m k => f s m k +
        rir (setupFor w { rirHpfEnable := false } ![4, 5] ![0.9, 0.8] ![0.7, 0.6] 16000 343)
          (orderShell 2 3) omni omni (![![1, 2]] s) (![![3, 4], ![2, 2]] m) k) :=
  C75_order_adds (Or.inl rfl) (by norm_num) (by norm_num) w _ _ _ _ _ (by norm_num) (by norm_num) 2 1000
    (by norm_num) _ plainConfig_valid rfl _ _

/-! ## C76 -/

theorem stack_tensor3 {T a b n : ℕ} (hT : 0 < T) (h : Fin T → Fin a → Fin b → Fin n → ℝ) :
    stack (List.ofFn fun t => tensor3 (h t)) = tensor4 h := by
  obtain ⟨T, rfl⟩ : ∃ k, T = k + 1 := ⟨T - 1, by omega⟩
  unfold stack tensor4
  rw [List.map_ofFn, List.ofFn_succ]
  simp [tensor3, List.ofFn_succ, Function.comp_def]

/-- **C76.** A scene in which nothing moves: simulating the constant trajectories and convolving in
trajectory mode gives what the static simulation and the static convolution give, for every number
of steps, device and choice of timestamps. -/
theorem C76_motionless {d T nS nM N K : ℕ} (hT : 0 < T) (w : World) (room : Room) (L : Fin d → ℝ)
    (hsize : room.size = List.ofFn L) (hfs : 0 < room.fs) (src : Fin nS → Fin d → ℝ)
    (mic : Fin nM → Fin d → ℝ) (a : SimArgs) (htd : a.tdiff = none) (h : Fin nS → Fin nM → Fin K → ℝ)
    (hR : simulateRir w room (points src) (points mic) a = .ok (tensor3 h))
    (x : Fin nS → Fin N → ℝ) (hpos : 1 ≤ N + K) (dev : DeviceType) {ts : Option (Tensor ℝ)}
    {fs : Option ℝ} {start : Fin T → ℝ} (hstart : StartsAt N ts fs start) :
    ∃ R, simulateDynamicRir w room (tensor3 fun _ : Fin T => src) (tensor3 fun _ : Fin T => mic) a = .ok R ∧
      ({ timestamps := ts, fs := fs } : Convolver).convolve dev (tensor2 x) R
        = convolveRir (tensor2 x) (tensor3 h) := by
  refine ⟨tensor4 fun _ : Fin T => h, ?_, ?_⟩
  · rw [C13_dynamic_is_static_per_step hT w room L hsize hfs]
    refine ⟨fun _ => tensor3 h, fun t => ?_, (stack_tensor3 hT _).symm⟩
    rw [← hR]
    congr 1
    cases a
    simp_all
  · exact C25_constant_rir_is_static dev x h (Or.inl rfl) (Or.inl rfl) (Or.inl rfl) hT hpos hstart

/-- Sixteen steps without timestamps. -/
example (w : World) (x : Fin 1 → Fin 48000 → ℝ) : ∃ (R : Tensor ℝ) (h : Fin 1 → Fin 2 → Fin 1000 → ℝ),
    simulateRir w (boxRoom ![4, 5] ![0.9, 0.8] ![0.7, 0.6] 16000 343)
      (points ![![1, 2]]) (points ![![3, 4], ![2, 2]])
      (omniArgs (d := 2) (.order 2) 1000 { rirHpfEnable := false }) = .ok (tensor3 h) ∧
    simulateDynamicRir w (boxRoom ![4, 5] ![0.9, 0.8] ![0.7, 0.6] 16000 343)
      (tensor3 fun _ : Fin 16 => ![![1, 2]]) (tensor3 fun _ : Fin 16 => ![![3, 4], ![2, 2]])
      (omniArgs (d := 2) (.order 2) 1000 { rirHpfEnable := false }) = .ok R ∧
    ({} : Convolver).convolve .cpu (tensor2 x) R = convolveRir (tensor2 x) (tensor3 (c := 1000) h) := by
  have h0 := C05_static_rir_formula (Or.inl rfl) (by norm_num) (by norm_num) w ![4, 5]
    ![0.9, 0.8] ![0.7, 0.6] 16000 343 (by norm_num) (by norm_num) (.order 2) 1000 (by norm_num) _
    plainConfig_valid rfl ![![1, 2]] ![![3, 4], ![2, 2]]
  obtain ⟨R, h1, h2⟩ := C76_motionless (T := 16) (by norm_num) w _ ![4, 5] rfl
    (by norm_num [boxRoom]) _ _ _ rfl _ h0 x (by norm_num) .cpu (StartsAt.uniform none)
  exact ⟨R, _, h0, h1, h2⟩

/-! ## C77 -/

/-- **C77.** Simulating and convolving is superposition of the physical paths: the microphone signal
is the sum over all sources and all images of the source signal, attenuated by the walls and the
distance and delayed by the kernel of the path. -/
theorem C77_auralisation {d nS nM N : ℕ} (hd : d = 2 ∨ d = 3) (hS : 0 < nS) (hM : 0 < nM)
    (w : World) (L lo hi : Fin d → ℝ) (fs c : ℝ) (hfs : 0 < fs) (hc : 0 < c)
    (sel : Selection d) (K : ℕ) (hK : 0 < K)
    (cfg : Config) (hcfg : cfg.validate = .ok ()) (hoff : cfg.rirHpfEnable = false)
    (src : Fin nS → Fin d → ℝ) (mic : Fin nM → Fin d → ℝ) (x : Fin nS → Fin N → ℝ) :
    (simulateRir w (boxRoom L lo hi fs c) (points src) (points mic) (omniArgs sel K cfg)
        >>= convolveRir (tensor2 x))
      = .ok (micTensor (N + K - 1) fun m t => ∑ s, ∑ n ∈ sel.images,
          wallGain lo hi n / pathLength (mic m) (image L (src s) n) *
            ∑ j : Fin N, if (j : ℕ) ≤ t ∧ t - j < K then
              x s j * kernel (kernelShape (cfg.useLut && w.device ≠ .mps) cfg.sincLutGranularity.toNat)
                cfg.fracDelayLength.toNat (pathLength (mic m) (image L (src s) n) * fs / c) (t - j)
            else 0) := by
  rw [C05_static_rir_formula hd hS hM w L lo hi fs c hfs hc sel K hK cfg hcfg hoff, ok_bind,
    C23_convolve_rir_formula x _ (Or.inl rfl) (Or.inl rfl) (by omega)]
  congr 2
  funext m t
  unfold mix
  refine Finset.sum_congr rfl fun s _ => ?_
  unfold conv
  simp only [Finset.mul_sum]
  conv_rhs => rw [Finset.sum_comm]
  refine Finset.sum_congr rfl fun j _ => ?_
  by_cases hj : (j : ℕ) ≤ t ∧ t - j < K
  · rw [Finset.sum_eq_single_of_mem (⟨t - j, hj.2⟩ : Fin K) (Finset.mem_univ _)]
    · rw [if_pos (by simp; omega)]
      unfold rir
      rw [Finset.mul_sum]
      refine Finset.sum_congr rfl fun n _ => ?_
      rw [if_pos hj]
      dsimp only [setupFor]
      simp only [omni]
      ring
    · intro i _ hi
      rw [if_neg]
      intro h
      apply hi
      apply Fin.ext
      simp only
      omega
  · have h1 : ∀ i : Fin K, ¬ ((j : ℕ) + i = t) := by
      intro i h
      apply hj
      have := i.2
      omega
    rw [Finset.sum_eq_zero fun i _ => if_neg (h1 i)]
    symm
    exact Finset.sum_eq_zero fun n _ => by rw [if_neg hj, mul_zero]

/-- Two sources of 48000 samples. -/
example (w : World) (x : Fin 2 → Fin 48000 → ℝ) : ∃ y : Fin 1 → ℕ → ℝ,
    (simulateRir w (boxRoom ![4, 5] ![0.9, 0.8] ![0.7, 0.6] 16000 343)
      (points ![![1, 2], ![3, 1]]) (points ![![3, 4]])
      (omniArgs (d := 2) (.order 2) 1000 { rirHpfEnable := false }) >>= convolveRir (tensor2 x))
        = .ok (micTensor 48999 y) :=
  ⟨_, C77_auralisation (Or.inl rfl) (by norm_num) (by norm_num) w _ _ _ _ _ (by norm_num) (by norm_num) _
    1000 (by norm_num) _ plainConfig_valid rfl _ _ x⟩

end Torchrir.Props
