import Verif.Lemmas.Symmetry
import Verif.Props.Pairs

/-!
# C09–C12: causality, reciprocity and mirror symmetry
-/

namespace Torchrir.Props

open Torchrir.Model Torchrir.Spec Torchrir.Lemmas

theorem cfg_of_resolve {a : SimArgs} {cfg : Config} (hcfg : a.config = some cfg)
    {r : Config × ℤ × Option ℝ × DirArg} (h : resolveConfig a = .ok r) : r.1 = cfg := by
  unfold resolveConfig at h
  simp only [hcfg, Option.getD_some, bind_eq_ok] at h
  obtain ⟨_, _, _, _, h3⟩ := h
  exact (congrArg (fun p => p.1) (Except.ok.inj h3)).symm

/-! ## C09 -/

/-- **C09.** Whatever order, image box, directivity, wall coefficients and kernel a successful
call without filter and tail uses: for a source and a microphone in the room every sample
before `distance * fs / c - 1` is zero. -/
theorem C09_no_sound_before_direct_path {d nS nM : ℕ} (w : World) (room : Room)
    (L : Fin d → ℝ) (hsize : room.size = List.ofFn L) (hfs : 0 < room.fs) (hc : 0 < room.c)
    (src : Fin nS → Fin d → ℝ) (us : Option (Fin nS → Fin d → ℝ))
    (mic : Fin nM → Fin d → ℝ) (um : Option (Fin nM → Fin d → ℝ))
    (a : SimArgs) (cfg : Config) (hcfg : a.config = some cfg) (hoff : cfg.rirHpfEnable = false)
    (htd : a.tdiff = none) (R : Tensor ℝ)
    (h : simulateRir w room (entityOf src us) (entityOf mic um) a = .ok R) :
    ∃ (K : ℕ) (f : Fin nS → Fin nM → Fin K → ℝ), R = tensor3 f ∧
      ∀ s m (k : Fin K), (∀ i, 0 ≤ src s i ∧ src s i ≤ L i) → (∀ i, 0 ≤ mic m i ∧ mic m i ≤ L i) →
        (k : ℝ) < Spec.dist (src s) (mic m) * room.fs / room.c - 1 → f s m k = 0 := by
  obtain ⟨P, hP⟩ := StaticPlan.exists (src := src) (mic := mic) hsize rfl rfl h
  have hPc : P.cfg = cfg := cfg_of_resolve hcfg hP.res
  rw [hP.eval w hfs.ne', htd] at h
  have h' : applyRirHpf w room.fs P.cfg (P.static w room L src mic) = .ok R := h
  rw [applyRirHpf_off _ _ _ (by rw [hPc]; exact hoff)] at h'
  refine ⟨P.K.toNat, _, (Except.ok.inj h').symm, ?_⟩
  intro s m k hs hm hk
  exact rir_early (P.setup w room L) hfs hc _ _ _ _ _ hs hm k hk

/-- **C09.** No tap is lost at the left edge: every tap `j` of the kernel of every path has a
non-negative index `⌊r fs / c⌋ + j` in the response. -/
theorem C09_no_tap_before_start {d : ℕ} (L src mic : Fin d → ℝ) (n : Fin d → ℤ) (fs c : ℝ)
    (hfs : 0 < fs) (hc : 0 < c) (j : ℕ) :
    0 ≤ ⌊pathLength mic (image L src n) * fs / c⌋ + j := by
  have := pathLength_pos mic (image L src n)
  have : 0 ≤ ⌊pathLength mic (image L src n) * fs / c⌋ := Int.floor_nonneg.mpr (by positivity)
  omega

/-- Source and microphone 2 m apart: silence before `2 * 16000 / 343 - 1`. -/
example (w : World) : ∃ (K : ℕ) (f : Fin 1 → Fin 1 → Fin K → ℝ),
    simulateRir w (boxRoom ![4, 5] ![0.9, 0.8] ![0.7, 0.6] 16000 343)
      (entityOf ![![1, 2]] none) (entityOf ![![3, 2]] none)
      (omniArgs (d := 2) (.order 3) 1000 { rirHpfEnable := false }) = .ok (tensor3 f) ∧
    ∀ k : Fin K, (k : ℝ) < 2 * 16000 / 343 - 1 → f 0 0 k = 0 := by
  have h0 := C05_static_rir_formula (Or.inl rfl) (by norm_num) (by norm_num) w ![4, 5]
    ![0.9, 0.8] ![0.7, 0.6] 16000 343 (by norm_num) (by norm_num) (.order 3) 1000 (by norm_num) _
    plainConfig_valid rfl ![![1, 2]] ![![3, 2]]
  obtain ⟨K, f, h1, h2⟩ := C09_no_sound_before_direct_path w _ ![4, 5] rfl (by norm_num [boxRoom])
    (by norm_num [boxRoom]) ![![1, 2]] none ![![3, 2]] none _ _ rfl rfl rfl _ h0
  refine ⟨K, f, by rw [← h1]; exact h0, fun k hk => h2 0 0 k ?_ ?_ ?_⟩
  · intro i; fin_cases i <;> norm_num
  · intro i; fin_cases i <;> norm_num
  · have : Spec.dist (![![1, 2]] 0) (![![3, 2]] 0) = (2 : ℝ) := by
      simp only [Spec.dist, Fin.sum_univ_two]
      norm_num
      rw [show (4 : ℝ) = 2 ^ 2 by norm_num, Real.sqrt_sq (by norm_num)]
    rw [this]
    exact hk

/-! ## C10 -/

/-- **C10.** Exchanging source and microphone positions transposes the omnidirectional result,
with or without the high-pass filter. -/
theorem C10_reciprocity {d nS nM : ℕ} (hd : d = 2 ∨ d = 3) (hS : 0 < nS) (hM : 0 < nM)
    (w : World) (L lo hi : Fin d → ℝ) (fs c : ℝ) (hfs : 0 < fs) (_hc : 0 < c)
    (sel : Selection d) (K : ℕ) (hK : 0 < K)
    (cfg : Config) (hcfg : cfg.validate = .ok ())
    (src : Fin nS → Fin d → ℝ) (mic : Fin nM → Fin d → ℝ) (R : Tensor ℝ)
    (h : simulateRir w (boxRoom L lo hi fs c) (points src) (points mic) (omniArgs sel K cfg)
      = .ok R) :
    ∃ rows : Fin nS → Fin nM → List ℝ, R = ofRows3 K rows ∧
      simulateRir w (boxRoom L lo hi fs c) (points mic) (points src) (omniArgs sel K cfg)
        = .ok (ofRows3 K fun m s => rows s m) := by
  rw [omni_static_iff hd hS hM w L lo hi fs c hfs sel K hK cfg hcfg] at h
  obtain ⟨rows, hrows, rfl⟩ := h
  refine ⟨rows, rfl, ?_⟩
  rw [omni_static_iff hd hM hS w L lo hi fs c hfs sel K hK cfg hcfg]
  refine ⟨_, fun m s => ?_, rfl⟩
  rw [← hrows s m]
  congr 2
  funext k
  exact rir_reciprocal _ _ (selection_signInvariant sel) _ _ _

/-- One source, two microphones, exchanged. -/
example (w : World) : ∃ rows : Fin 1 → Fin 2 → List ℝ,
    simulateRir w (boxRoom ![4, 5] ![0.9, 0.8] ![0.7, 0.6] 16000 343)
      (points ![![1, 2]]) (points ![![3, 4], ![2, 2]])
      (omniArgs (d := 2) (.order 3) 1000 { rirHpfEnable := false }) = .ok (ofRows3 1000 rows) ∧
    simulateRir w (boxRoom ![4, 5] ![0.9, 0.8] ![0.7, 0.6] 16000 343)
      (points ![![3, 4], ![2, 2]]) (points ![![1, 2]])
      (omniArgs (d := 2) (.order 3) 1000 { rirHpfEnable := false })
        = .ok (ofRows3 1000 fun m s => rows s m) := by
  have h0 := C05_static_rir_formula (Or.inl rfl) (by norm_num) (by norm_num) w ![4, 5]
    ![0.9, 0.8] ![0.7, 0.6] 16000 343 (by norm_num) (by norm_num) (.order 3) 1000 (by norm_num) _
    plainConfig_valid rfl ![![1, 2]] ![![3, 4], ![2, 2]]
  obtain ⟨rows, h1, h2⟩ := C10_reciprocity (Or.inl rfl) (by norm_num) (by norm_num) w _ _ _ _ _
    (by norm_num) (by norm_num) _ _ (by norm_num) _ plainConfig_valid _ _ _ h0
  exact ⟨rows, by rw [← h1]; exact h0, h2⟩

/-! ## C12 -/

/-- **C12.** Replacing coordinate `i` of every position by `L i - x` and swapping the two
coefficients of that axis leaves the omnidirectional result unchanged. -/
theorem C12_mirror_symmetry {d nS nM : ℕ} (hd : d = 2 ∨ d = 3) (hS : 0 < nS) (hM : 0 < nM)
    (w : World) (L lo hi : Fin d → ℝ) (fs c : ℝ) (hfs : 0 < fs) (_hc : 0 < c)
    (sel : Selection d) (K : ℕ) (hK : 0 < K)
    (cfg : Config) (hcfg : cfg.validate = .ok ())
    (src : Fin nS → Fin d → ℝ) (mic : Fin nM → Fin d → ℝ) (i : Fin d) :
    simulateRir w (boxRoom L (Function.update lo i (hi i)) (Function.update hi i (lo i)) fs c)
        (points fun s => Function.update (src s) i (L i - src s i))
        (points fun m => Function.update (mic m) i (L i - mic m i)) (omniArgs sel K cfg)
      = simulateRir w (boxRoom L lo hi fs c) (points src) (points mic) (omniArgs sel K cfg) := by
  rw [omni_static_eval hd hS hM w L _ _ fs c hfs sel K hK cfg hcfg,
    omni_static_eval hd hS hM w L lo hi fs c hfs sel K hK cfg hcfg]
  congr 2
  funext s m k
  exact rir_mirror (setupFor w cfg L lo hi fs c) _ (selection_signInvariant sel) i _ _ _

/-- Mirrored along x: source at 3 instead of 1 in a 4 m wide room. -/
example (w : World) :
    simulateRir w (boxRoom ![4, 5] ![0.7, 0.8] ![0.9, 0.6] 16000 343)
      (points ![![3, 2]]) (points ![![1, 4]])
      (omniArgs (d := 2) (.order 3) 1000 { rirHpfEnable := false })
    = simulateRir w (boxRoom ![4, 5] ![0.9, 0.8] ![0.7, 0.6] 16000 343)
      (points ![![1, 2]]) (points ![![3, 4]])
      (omniArgs (d := 2) (.order 3) 1000 { rirHpfEnable := false }) := by
  have h := C12_mirror_symmetry (Or.inl rfl) (by norm_num) (by norm_num) w ![4, 5]
    ![0.9, 0.8] ![0.7, 0.6] 16000 343 (by norm_num) (by norm_num) (.order 3) 1000 (by norm_num) _
    plainConfig_valid ![![1, 2]] ![![3, 4]] 0
  rw [← h]
  have e1 : Function.update ![0.9, 0.8] 0 (![0.7, 0.6] 0) = (![0.7, 0.8] : Fin 2 → ℝ) := by
    funext i; fin_cases i <;> rfl
  have e2 : Function.update ![0.7, 0.6] 0 (![0.9, 0.8] 0) = (![0.9, 0.6] : Fin 2 → ℝ) := by
    funext i; fin_cases i <;> rfl
  have e3 : (fun s => Function.update (![![1, 2]] s) 0 (![4, 5] 0 - ![![1, 2]] s 0))
      = (![![3, 2]] : Fin 1 → Fin 2 → ℝ) := by
    funext s i; fin_cases s; fin_cases i <;> simp; norm_num
  have e4 : (fun s => Function.update (![![3, 4]] s) 0 (![4, 5] 0 - ![![3, 4]] s 0))
      = (![![1, 4]] : Fin 1 → Fin 2 → ℝ) := by
    funext s i; fin_cases s; fin_cases i <;> simp; norm_num
  rw [e1, e2, e3, e4]

/-! ## C11 -/

/-- **C11, partial.** Exchanging sources and microphones together with their patterns and axes
transposes the result when only the direct path is simulated (`max_order = 0`).
Missing: reflections, for which the property is false (`C11_directional_reciprocity_fails`). -/
theorem C11_directional_reciprocity_partial {d nS nM : ℕ} (hd : d = 2 ∨ d = 3) (hS : 0 < nS)
    (hM : 0 < nM) (w : World) (L lo hi : Fin d → ℝ) (fs c : ℝ) (hfs : 0 < fs) (hc : 0 < c)
    (K : ℕ) (hK : 0 < K)
    (cfg : Config) (hcfg : cfg.validate = .ok ()) (hoff : cfg.rirHpfEnable = false)
    (src us : Fin nS → Fin d → ℝ) (mic um : Fin nM → Fin d → ℝ)
    (ps pm : Pattern) (sp mp : String) (hps : sp.toLower ∈ ps.names) (hpm : mp.toLower ∈ pm.names)
    (hus : ∀ s, 1e-8 ≤ Real.sqrt (∑ i, us s i ^ 2))
    (hum : ∀ m, 1e-8 ≤ Real.sqrt (∑ i, um m i ^ 2))
    (hne : ∀ s m, src s ≠ mic m) :
    ∃ f : Fin nS → Fin nM → Fin K → ℝ,
      simulateRir w (boxRoom L lo hi fs c) (orientedPoints src us) (orientedPoints mic um)
        (directionalArgs (d := d) (.order 0) K cfg sp mp) = .ok (tensor3 f) ∧
      simulateRir w (boxRoom L lo hi fs c) (orientedPoints mic um) (orientedPoints src us)
        (directionalArgs (d := d) (.order 0) K cfg mp sp) = .ok (tensor3 fun m s => f s m) := by
  have hA : (Selection.order 0 : Selection d).images = {0} := by
    ext n
    simp only [Selection.images, orderSet, Finset.mem_filter, Fintype.mem_piFinset,
      Finset.mem_Icc, Finset.mem_singleton]
    constructor
    · intro hn
      funext i
      have := hn.1 i
      simp at this
      exact le_antisymm this.2 this.1
    · rintro rfl
      simp
  have himg : ∀ x : Fin d → ℝ, image L x 0 = x := by
    intro x; funext i; simp [image, mirrored]
  refine ⟨_, C05_static_rir_formula_directional hd hS hM w L lo hi fs c hfs hc (.order 0) K hK cfg
    hcfg hoff src us mic um ps pm sp mp hps hpm hus hum ?_, ?_⟩
  · intro s m n hn
    rw [hA, Finset.mem_singleton] at hn
    subst hn
    rw [himg]
    exact hne s m
  · rw [C05_static_rir_formula_directional hd hM hS w L lo hi fs c hfs hc (.order 0) K hK cfg
      hcfg hoff mic um src us pm ps mp sp hpm hps hum hus ?_]
    · congr 2
      funext m s k
      unfold rir
      rw [hA, Finset.sum_singleton, Finset.sum_singleton]
      simp only [setupFor, himg]
      rw [show pathLength (src s) (mic m) = pathLength (mic m) (src s) by
        unfold pathLength; rw [dist_comm]]
      ring
    · intro m s n hn
      rw [hA, Finset.mem_singleton] at hn
      subst hn
      rw [himg]
      exact (hne s m).symm

/-- Configuration of the counterexample: one-tap kernel, no table, no filter. -/
noncomputable def oneTap : Config := { rirHpfEnable := false, useLut := false, fracDelayLength := 1 }

theorem oneTap_valid : oneTap.validate = .ok () := by
  rw [Config.valid_iff]
  refine ⟨?_, ?_, ?_, ?_, ?_⟩ <;> simp [oneTap]

/-- Room of the counterexample: only the wall `x = 0` reflects. -/
noncomputable def halfSpace (w : World) : Setup 2 :=
  setupFor w oneTap ![10, 10] ![1, 0] ![0, 0] 1 1

theorem halfSpace_rir (w : World) (gs gm : (Fin 2 → ℝ) → ℝ) (a b : ℝ) (_ha : 0 < a) (_hb : 0 < b)
    (hab : |b - a| = 1) (hsum : a + b = 3) :
    rir (halfSpace w) (orderSet 2 1) gs gm ![a, 1] ![b, 1] 3
      = gs ![3, 0] * gm ![-3, 0] / 3 := by
  have himg0 : image ![10, 10] ![a, 1] 0 = ![a, 1] := by
    funext i; fin_cases i <;> simp [image, mirrored]
  have himg1 : image ![10, 10] ![a, 1] ![-1, 0] = ![-a, 1] := by
    funext i; fin_cases i <;> simp [image, mirrored, lastWall]
  have hp0 : pathLength ![b, 1] ![a, 1] = 1 := by
    have : Spec.dist ![b, 1] ![a, 1] = 1 := by
      simp only [Spec.dist, Fin.sum_univ_two]
      simp [Real.sqrt_sq_eq_abs, hab]
    unfold pathLength; rw [this]; norm_num
  have hp1 : pathLength ![b, 1] ![-a, 1] = 3 := by
    have : Spec.dist ![b, 1] ![-a, 1] = 3 := by
      simp only [Spec.dist, Fin.sum_univ_two]
      simp [Real.sqrt_sq_eq_abs]
      rw [abs_of_pos (by linarith)]; linarith
    unfold pathLength; rw [this]; norm_num
  have hmem0 : (0 : Fin 2 → ℤ) ∈ orderSet 2 1 := by simp [orderSet]
  have hmem1 : (![-1, 0] : Fin 2 → ℤ) ∈ orderSet 2 1 := by
    simp only [orderSet, Finset.mem_filter, Fintype.mem_piFinset, Finset.mem_Icc, Fin.sum_univ_two]
    refine ⟨fun i => ?_, by simp⟩
    fin_cases i <;> simp
  have hzero : ∀ n ∈ orderSet 2 1, n ≠ 0 → n ≠ ![-1, 0] → wallGain ![1, 0] ![0, 0] n = 0 := by
    intro n hn h0 h1
    simp only [orderSet, Finset.mem_filter, Fintype.mem_piFinset, Finset.mem_Icc,
      Fin.sum_univ_two] at hn
    obtain ⟨hb, hs⟩ := hn
    have hb0 := hb 0
    have hb1 := hb 1
    rw [Int.abs_eq_natAbs, Int.abs_eq_natAbs] at hs
    unfold wallGain
    rw [Fin.prod_univ_two]
    have hnn : n = ![n 0, n 1] := by funext i; fin_cases i <;> rfl
    by_cases hy : n 1 = 0
    · have hx : n 0 = 1 := by
        by_contra hx
        have : n 0 = 0 ∨ n 0 = -1 := by
          push_cast at hb0
          omega
        rcases this with h | h
        · exact h0 (by rw [hnn, h, hy]; funext i; fin_cases i <;> rfl)
        · exact h1 (by rw [hnn, h, hy])
      rw [hx]
      simp [lastWall, absorbed]
    · obtain ⟨k, hk⟩ : ∃ k, (n 1).natAbs = k + 1 := ⟨(n 1).natAbs - 1, by omega⟩
      rw [hk]
      cases lastWall (n 1) <;> simp [absorbed]
  have hker : ∀ τ k, kernel Spec.sinc 1 τ k = if (k : ℤ) = ⌊τ⌋ then Spec.sinc ((k : ℝ) - τ) else 0 := by
    intro τ k
    unfold kernel hann
    by_cases h : (k : ℤ) = ⌊τ⌋
    · rw [if_pos (by constructor <;> omega), if_pos h]; norm_num
    · rw [if_neg (by push_cast; omega), if_neg h]
  have hne : (0 : Fin 2 → ℤ) ≠ ![-1, 0] := by
    intro h; have := congrFun h 0; simp at this
  have hsub : ({0, ![-1, 0]} : Finset (Fin 2 → ℤ)) ⊆ orderSet 2 1 := by
    intro n hn
    rcases Finset.mem_insert.mp hn with rfl | hn
    · exact hmem0
    · rw [Finset.mem_singleton.mp hn]; exact hmem1
  unfold rir
  rw [← Finset.sum_subset hsub]
  · rw [Finset.sum_pair hne]
    simp only [halfSpace, setupFor, himg0, himg1, hp0, hp1, oneTap, kernelShape]
    have e1 : (![b, 1] : Fin 2 → ℝ) - ![-a, 1] = ![3, 0] := by
      funext i; fin_cases i
      · simp; linarith
      · simp
    have e2 : (![-a, 1] : Fin 2 → ℝ) - ![b, 1] = ![-3, 0] := by
      funext i; fin_cases i
      · simp; linarith
      · simp
    rw [e1, e2]
    have hw : wallGain (![1, 0] : Fin 2 → ℝ) ![0, 0] ![-1, 0] = 1 := by
      simp [wallGain, absorbed, lastWall, Fin.prod_univ_two]
    rw [hw]
    simp [hker, Spec.sinc]
  · intro n hn hn'
    have h1 : n ≠ 0 := fun h => hn' (by rw [h]; simp)
    have h2 : n ≠ ![-1, 0] := fun h => hn' (by rw [h]; simp)
    simp only [halfSpace, setupFor]
    rw [hzero n hn h1 h2]
    simp

theorem not_image_of_int {L : Fin 2 → ℝ} (hL : L = ![10, 10]) (a b : ℤ) (n : Fin 2 → ℤ)
    (ha : a = 1 ∨ a = 2) (hb : b = 1 ∨ b = 2) (hab : a ≠ b) :
    image L ![(a : ℝ), 1] n ≠ ![(b : ℝ), 1] := by
  intro h
  have := congrFun h 0
  rw [image_apply, hL] at this
  simp only [Matrix.cons_val_zero] at this
  split at this
  · have : n 0 * 10 + a = b := by exact_mod_cast this
    omega
  · have : (n 0 + 1) * 10 - a = b := by exact_mod_cast this
    omega

/-- **C11 is false of the code.** In a room where only the wall `x = 0` reflects, a figure-8
source at `(1,1)` with axis `+x` and an omnidirectional microphone at `(2,1)` give `1/3` at
sample 3; after exchanging them (figure-8 microphone, omnidirectional source) sample 3 is
`-1/3`.  The reason: the axis of the source is not mirrored for its images. -/
theorem C11_directional_reciprocity_fails (w : World) :
    ∃ f g : Fin 1 → Fin 1 → Fin 4 → ℝ,
      simulateRir w (boxRoom ![10, 10] ![1, 0] ![0, 0] 1 1)
        (orientedPoints ![![1, 1]] ![![1, 0]]) (orientedPoints ![![2, 1]] ![![1, 0]])
        (directionalArgs (d := 2) (.order 1) 4 oneTap "bidir" "omni") = .ok (tensor3 f) ∧
      simulateRir w (boxRoom ![10, 10] ![1, 0] ![0, 0] 1 1)
        (orientedPoints ![![2, 1]] ![![1, 0]]) (orientedPoints ![![1, 1]] ![![1, 0]])
        (directionalArgs (d := 2) (.order 1) 4 oneTap "omni" "bidir") = .ok (tensor3 g) ∧
      f 0 0 3 = 1 / 3 ∧ g 0 0 3 = -1 / 3 := by
  have hbi : "bidir".toLower ∈ Pattern.bidirectional.names := by
    rw [show "bidir".toLower = "bidir" by
      apply String.toList_inj.mp; simp [String.toLower, String.toList_map]]
    decide
  have hn : ∀ s : Fin 1, (1e-8 : ℝ) ≤ Real.sqrt (∑ i, (![![1, 0]] : Fin 1 → Fin 2 → ℝ) s i ^ 2) := by
    intro s; fin_cases s
    simp [Fin.sum_univ_two]
    norm_num
  refine ⟨_, _, C05_static_rir_formula_directional (Or.inl rfl) (by norm_num) (by norm_num) w
    ![10, 10] ![1, 0] ![0, 0] 1 1 (by norm_num) (by norm_num) (.order 1) 4 (by norm_num) _
    oneTap_valid rfl _ _ _ _ .bidirectional .omni _ _ hbi omni_lower hn hn ?_,
    C05_static_rir_formula_directional (Or.inl rfl) (by norm_num) (by norm_num) w
    ![10, 10] ![1, 0] ![0, 0] 1 1 (by norm_num) (by norm_num) (.order 1) 4 (by norm_num) _
    oneTap_valid rfl _ _ _ _ .omni .bidirectional _ _ omni_lower hbi hn hn ?_, ?_, ?_⟩
  · intro s m n _
    fin_cases s; fin_cases m
    have := not_image_of_int rfl 1 2 n (by norm_num) (by norm_num) (by norm_num)
    push_cast at this
    exact this
  · intro s m n _
    fin_cases s; fin_cases m
    have := not_image_of_int rfl 2 1 n (by norm_num) (by norm_num) (by norm_num)
    push_cast at this
    exact this
  · show rir (halfSpace w) (orderSet 2 1) _ _ ![1, 1] ![2, 1] 3 = 1 / 3
    rw [halfSpace_rir w _ _ 1 2 (by norm_num) (by norm_num) (by norm_num) (by norm_num)]
    simp [Pattern.towards, Pattern.gain, cosAngle, Fin.sum_univ_two]
  · show rir (halfSpace w) (orderSet 2 1) _ _ ![2, 1] ![1, 1] 3 = -1 / 3
    rw [halfSpace_rir w _ _ 2 1 (by norm_num) (by norm_num) (by norm_num) (by norm_num)]
    simp [Pattern.towards, Pattern.gain, cosAngle, Fin.sum_univ_two]

end Torchrir.Props
