import Verif.Props.Pairs
import Verif.Props.Symmetry
import Verif.Props.Invariance
import Verif.Props.Signal

/-!
# C138: first-order devices are mixtures
-/

namespace Torchrir.Props

open Torchrir.Model Torchrir.Spec Torchrir.Lemmas

/-! ## Specification -/

/-- The share of the omnidirectional pattern in a first-order pattern; the rest is figure-8. -/
noncomputable def omniShare : List (Pattern × ℝ) :=
  [(.omni, 1), (.subcardioid, 3 / 4), (.cardioid, 1 / 2), (.hypercardioid, 1 / 4), (.bidirectional, 0)]

/-- The direction of coordinate axis `j`. -/
def axisDir {d : ℕ} (j : Fin d) : Fin d → ℝ := Pi.single j 1

/-- The cosine of the angle between a vector and coordinate axis `j`. -/
noncomputable def dirCos {d : ℕ} (u : Fin d → ℝ) (j : Fin d) : ℝ := u j / Real.sqrt (∑ i, u i ^ 2)

namespace FirstOrder

theorem axis_norm {d : ℕ} (j : Fin d) : Real.sqrt (∑ i, axisDir j i ^ 2) = 1 := by
  have : ∑ i, axisDir j i ^ 2 = 1 := by
    rw [Finset.sum_eq_single j]
    · simp [axisDir]
    · intro i _ h
      simp [axisDir, Pi.single_eq_of_ne h]
    · simp
  rw [this, Real.sqrt_one]

theorem axis_dot {d : ℕ} (v : Fin d → ℝ) (j : Fin d) : ∑ i, v i * axisDir j i = v j := by
  rw [Finset.sum_eq_single j]
  · simp [axisDir]
  · intro i _ h
    simp [axisDir, Pi.single_eq_of_ne h]
  · simp

theorem cos_axes {d : ℕ} (v u : Fin d → ℝ) : cosAngle v u = ∑ j, dirCos u j * cosAngle v (axisDir j) := by
  unfold cosAngle dirCos
  rw [Finset.sum_div]
  refine Finset.sum_congr rfl fun j _ => ?_
  rw [axis_dot, axis_norm, mul_one, div_mul_div_comm, mul_comm (v j), mul_comm (Real.sqrt (∑ i, v i ^ 2))]

theorem towards_mixture {d : ℕ} {p : Pattern} {a : ℝ} (h : (p, a) ∈ omniShare) (u v : Fin d → ℝ) :
    p.towards u v = a * Pattern.omni.towards u v +
      (1 - a) * ∑ j, dirCos u j * Pattern.bidirectional.towards (axisDir j) v := by
  have hb : ∑ j, dirCos u j * Pattern.bidirectional.towards (axisDir j) v = cosAngle v u := by
    rw [cos_axes]
    rfl
  rw [hb]
  simp only [omniShare, List.mem_cons, Prod.mk.injEq, List.not_mem_nil, or_false] at h
  rcases h with ⟨rfl, rfl⟩ | ⟨rfl, rfl⟩ | ⟨rfl, rfl⟩ | ⟨rfl, rfl⟩ | ⟨rfl, rfl⟩ <;>
    simp only [Pattern.towards, Pattern.gain] <;> ring

/-- The response is linear in the gain of the microphone. -/
theorem rir_mic {d : ℕ} (S : Setup d) (A : Finset (Fin d → ℤ)) (gs gm go : (Fin d → ℝ) → ℝ)
    (gb : Fin d → (Fin d → ℝ) → ℝ) (a : ℝ) (b : Fin d → ℝ) (x y : Fin d → ℝ) (k : ℕ)
    (h : ∀ v, gm v = a * go v + (1 - a) * ∑ j, b j * gb j v) :
    rir S A gs gm x y k = a * rir S A gs go x y k + (1 - a) * ∑ j, b j * rir S A gs (gb j) x y k := by
  unfold rir
  simp only [Finset.mul_sum]
  rw [Finset.sum_comm (s := Finset.univ), ← Finset.sum_add_distrib]
  refine Finset.sum_congr rfl fun n _ => ?_
  rw [h, Finset.mul_sum]
  have : ∀ (w g o r e : ℝ) (c : Fin d → ℝ), w * g * (o + ∑ j, c j) / r * e =
      w * g * o / r * e + ∑ j, w * g * c j / r * e := by
    intro w g o r e c
    rw [mul_add, add_div, add_mul, Finset.mul_sum, Finset.sum_div, Finset.sum_mul]
  rw [this]
  congr 1
  · ring
  · refine Finset.sum_congr rfl fun j _ => ?_
    ring

/-- The response is linear in the gain of the source. -/
theorem rir_src {d : ℕ} (S : Setup d) (A : Finset (Fin d → ℤ)) (gm gs go : (Fin d → ℝ) → ℝ)
    (gb : Fin d → (Fin d → ℝ) → ℝ) (a : ℝ) (b : Fin d → ℝ) (x y : Fin d → ℝ) (k : ℕ)
    (h : ∀ v, gs v = a * go v + (1 - a) * ∑ j, b j * gb j v) :
    rir S A gs gm x y k = a * rir S A go gm x y k + (1 - a) * ∑ j, b j * rir S A (gb j) gm x y k := by
  unfold rir
  simp only [Finset.mul_sum]
  rw [Finset.sum_comm (s := Finset.univ), ← Finset.sum_add_distrib]
  refine Finset.sum_congr rfl fun n _ => ?_
  rw [h, Finset.mul_sum]
  have : ∀ (w g o r e : ℝ) (c : Fin d → ℝ), w * (o + ∑ j, c j) * g / r * e =
      w * o * g / r * e + ∑ j, w * c j * g / r * e := by
    intro w g o r e c
    rw [mul_add, add_mul, add_div, add_mul, Finset.mul_sum, Finset.sum_mul, Finset.sum_div, Finset.sum_mul]
  rw [this]
  congr 1
  · ring
  · refine Finset.sum_congr rfl fun j _ => ?_
    ring

/-- What is heard is linear in the responses. -/
theorem mix_mic {d S M N K : ℕ} (x : Fin S → Fin N → ℝ) (R Ro : Fin S → Fin M → Fin K → ℝ)
    (Rb : Fin d → Fin S → Fin M → Fin K → ℝ) (m : Fin M) (a : ℝ) (b : Fin d → ℝ)
    (h : ∀ s k, R s m k = a * Ro s m k + (1 - a) * ∑ j, b j * Rb j s m k) (t : ℕ) :
    mix x R m t = a * mix x Ro m t + (1 - a) * ∑ j, b j * mix x (Rb j) m t := by
  unfold mix conv
  simp only [Finset.mul_sum]
  rw [Finset.sum_comm (s := (Finset.univ : Finset (Fin d))), ← Finset.sum_add_distrib]
  refine Finset.sum_congr rfl fun s _ => ?_
  rw [Finset.sum_comm (s := (Finset.univ : Finset (Fin d))), ← Finset.sum_add_distrib]
  refine Finset.sum_congr rfl fun i _ => ?_
  rw [Finset.sum_comm (s := (Finset.univ : Finset (Fin d))), ← Finset.sum_add_distrib]
  refine Finset.sum_congr rfl fun k _ => ?_
  split
  · rw [h, mul_add, Finset.mul_sum, Finset.mul_sum]
    congr 1
    · ring
    · exact Finset.sum_congr rfl fun j _ => by ring
  · simp

end FirstOrder

/-! ## C138 -/

/-- **C138, microphones.** The responses of microphones with a first-order pattern in any directions are
mixtures of those of an omnidirectional microphone and of figure-8 microphones along the coordinate
axes: the omnidirectional ones with the share of the pattern, the others with the rest times the cosine
of the angle between the direction and the axis. -/
theorem C138_microphones {d nS nM : ℕ} (hd : d = 2 ∨ d = 3) (hS : 0 < nS) (hM : 0 < nM) (w : World)
    (L lo hi : Fin d → ℝ) (fs c : ℝ) (hfs : 0 < fs) (hc : 0 < c) (sel : Selection d) (K : ℕ) (hK : 0 < K)
    (cfg : Config) (hcfg : cfg.validate = .ok ()) (hoff : cfg.rirHpfEnable = false)
    (src us : Fin nS → Fin d → ℝ) (mic um : Fin nM → Fin d → ℝ)
    (ps pm : Pattern) (a : ℝ) (ha : (pm, a) ∈ omniShare) (sp mp mo mb : String) (hps : sp.toLower ∈ ps.names)
    (hpm : mp.toLower ∈ pm.names) (hmo : mo.toLower ∈ Pattern.omni.names)
    (hmb : mb.toLower ∈ Pattern.bidirectional.names)
    (hus : ∀ s, 1e-8 ≤ Real.sqrt (∑ i, us s i ^ 2)) (hum : ∀ m, 1e-8 ≤ Real.sqrt (∑ i, um m i ^ 2))
    (hne : ∀ s m, ∀ n ∈ sel.images, image L (src s) n ≠ mic m) :
    ∃ (R Ro : Fin nS → Fin nM → Fin K → ℝ) (Rb : Fin d → Fin nS → Fin nM → Fin K → ℝ),
      simulateRir w (boxRoom L lo hi fs c) (orientedPoints src us) (orientedPoints mic um)
        (directionalArgs sel K cfg sp mp) = .ok (tensor3 R) ∧
      simulateRir w (boxRoom L lo hi fs c) (orientedPoints src us) (orientedPoints mic um)
        (directionalArgs sel K cfg sp mo) = .ok (tensor3 Ro) ∧
      (∀ j, simulateRir w (boxRoom L lo hi fs c) (orientedPoints src us) (orientedPoints mic fun _ => axisDir j)
        (directionalArgs sel K cfg sp mb) = .ok (tensor3 (Rb j))) ∧
      ∀ s m k, R s m k = a * Ro s m k + (1 - a) * ∑ j, dirCos (um m) j * Rb j s m k := by
  have hax : ∀ j : Fin d, (1e-8 : ℝ) ≤ Real.sqrt (∑ i, axisDir j i ^ 2) := by
    intro j
    rw [FirstOrder.axis_norm]
    norm_num
  refine ⟨_, _, fun j => _,
    C05_static_rir_formula_directional hd hS hM w L lo hi fs c hfs hc sel K hK cfg hcfg hoff src us mic um
      ps pm sp mp hps hpm hus hum hne,
    C05_static_rir_formula_directional hd hS hM w L lo hi fs c hfs hc sel K hK cfg hcfg hoff src us mic um
      ps .omni sp mo hps hmo hus hum hne,
    fun j => C05_static_rir_formula_directional hd hS hM w L lo hi fs c hfs hc sel K hK cfg hcfg hoff src us mic _
      ps .bidirectional sp mb hps hmb hus (fun _ => hax j) hne, fun s m k => ?_⟩
  exact FirstOrder.rir_mic _ _ _ _ _ (fun j => Pattern.bidirectional.towards (axisDir j)) a _ _ _ _
    (FirstOrder.towards_mixture ha (um m))

/-- **C138, sources.** The same for sources. -/
theorem C138_sources {d nS nM : ℕ} (hd : d = 2 ∨ d = 3) (hS : 0 < nS) (hM : 0 < nM) (w : World)
    (L lo hi : Fin d → ℝ) (fs c : ℝ) (hfs : 0 < fs) (hc : 0 < c) (sel : Selection d) (K : ℕ) (hK : 0 < K)
    (cfg : Config) (hcfg : cfg.validate = .ok ()) (hoff : cfg.rirHpfEnable = false)
    (src us : Fin nS → Fin d → ℝ) (mic um : Fin nM → Fin d → ℝ)
    (ps pm : Pattern) (a : ℝ) (ha : (ps, a) ∈ omniShare) (sp so sb mp : String) (hps : sp.toLower ∈ ps.names)
    (hso : so.toLower ∈ Pattern.omni.names) (hsb : sb.toLower ∈ Pattern.bidirectional.names)
    (hpm : mp.toLower ∈ pm.names)
    (hus : ∀ s, 1e-8 ≤ Real.sqrt (∑ i, us s i ^ 2)) (hum : ∀ m, 1e-8 ≤ Real.sqrt (∑ i, um m i ^ 2))
    (hne : ∀ s m, ∀ n ∈ sel.images, image L (src s) n ≠ mic m) :
    ∃ (R Ro : Fin nS → Fin nM → Fin K → ℝ) (Rb : Fin d → Fin nS → Fin nM → Fin K → ℝ),
      simulateRir w (boxRoom L lo hi fs c) (orientedPoints src us) (orientedPoints mic um)
        (directionalArgs sel K cfg sp mp) = .ok (tensor3 R) ∧
      simulateRir w (boxRoom L lo hi fs c) (orientedPoints src us) (orientedPoints mic um)
        (directionalArgs sel K cfg so mp) = .ok (tensor3 Ro) ∧
      (∀ j, simulateRir w (boxRoom L lo hi fs c) (orientedPoints src fun _ => axisDir j) (orientedPoints mic um)
        (directionalArgs sel K cfg sb mp) = .ok (tensor3 (Rb j))) ∧
      ∀ s m k, R s m k = a * Ro s m k + (1 - a) * ∑ j, dirCos (us s) j * Rb j s m k := by
  have hax : ∀ j : Fin d, (1e-8 : ℝ) ≤ Real.sqrt (∑ i, axisDir j i ^ 2) := by
    intro j
    rw [FirstOrder.axis_norm]
    norm_num
  refine ⟨_, _, fun j => _,
    C05_static_rir_formula_directional hd hS hM w L lo hi fs c hfs hc sel K hK cfg hcfg hoff src us mic um
      ps pm sp mp hps hpm hus hum hne,
    C05_static_rir_formula_directional hd hS hM w L lo hi fs c hfs hc sel K hK cfg hcfg hoff src us mic um
      .omni pm so mp hso hpm hus hum hne,
    fun j => C05_static_rir_formula_directional hd hS hM w L lo hi fs c hfs hc sel K hK cfg hcfg hoff src _ mic um
      .bidirectional pm sb mp hsb hpm (fun _ => hax j) hum hne, fun s m k => ?_⟩
  exact FirstOrder.rir_src _ _ _ _ _ (fun j => Pattern.bidirectional.towards (axisDir j)) a _ _ _ _
    (FirstOrder.towards_mixture ha (us s))

/-- **C138, front and back.** Two cardioid microphones that face opposite directions add up to an
omnidirectional one; two figure-8 microphones cancel. -/
theorem C138_opposite {d nS nM : ℕ} (hd : d = 2 ∨ d = 3) (hS : 0 < nS) (hM : 0 < nM) (w : World)
    (L lo hi : Fin d → ℝ) (fs c : ℝ) (hfs : 0 < fs) (hc : 0 < c) (sel : Selection d) (K : ℕ) (hK : 0 < K)
    (cfg : Config) (hcfg : cfg.validate = .ok ()) (hoff : cfg.rirHpfEnable = false)
    (src us : Fin nS → Fin d → ℝ) (mic um : Fin nM → Fin d → ℝ)
    (ps pm : Pattern) (a : ℝ) (ha : (pm, a) ∈ omniShare) (sp mp mo : String) (hps : sp.toLower ∈ ps.names)
    (hpm : mp.toLower ∈ pm.names) (hmo : mo.toLower ∈ Pattern.omni.names)
    (hus : ∀ s, 1e-8 ≤ Real.sqrt (∑ i, us s i ^ 2)) (hum : ∀ m, 1e-8 ≤ Real.sqrt (∑ i, um m i ^ 2))
    (hne : ∀ s m, ∀ n ∈ sel.images, image L (src s) n ≠ mic m) :
    ∃ (R R' Ro : Fin nS → Fin nM → Fin K → ℝ),
      simulateRir w (boxRoom L lo hi fs c) (orientedPoints src us) (orientedPoints mic um)
        (directionalArgs sel K cfg sp mp) = .ok (tensor3 R) ∧
      simulateRir w (boxRoom L lo hi fs c) (orientedPoints src us) (orientedPoints mic fun m i => -um m i)
        (directionalArgs sel K cfg sp mp) = .ok (tensor3 R') ∧
      simulateRir w (boxRoom L lo hi fs c) (orientedPoints src us) (orientedPoints mic um)
        (directionalArgs sel K cfg sp mo) = .ok (tensor3 Ro) ∧
      ∀ s m k, R s m k + R' s m k = 2 * a * Ro s m k := by
  have hneg : ∀ u : Fin d → ℝ, (∑ i, (-u i) ^ 2) = ∑ i, u i ^ 2 := fun u =>
    Finset.sum_congr rfl fun i _ => neg_sq _
  refine ⟨_, _, _,
    C05_static_rir_formula_directional hd hS hM w L lo hi fs c hfs hc sel K hK cfg hcfg hoff src us mic um
      ps pm sp mp hps hpm hus hum hne,
    C05_static_rir_formula_directional hd hS hM w L lo hi fs c hfs hc sel K hK cfg hcfg hoff src us mic _
      ps pm sp mp hps hpm hus (fun m => by rw [hneg]; exact hum m) hne,
    C05_static_rir_formula_directional hd hS hM w L lo hi fs c hfs hc sel K hK cfg hcfg hoff src us mic um
      ps .omni sp mo hps hmo hus hum hne, fun s m k => ?_⟩
  rw [FirstOrder.rir_mic _ _ _ _ _ (fun j => Pattern.bidirectional.towards (axisDir j)) a _ _ _ _
      (FirstOrder.towards_mixture ha (um m)),
    FirstOrder.rir_mic _ _ _ (pm.towards fun i => -um m i) _ (fun j => Pattern.bidirectional.towards (axisDir j))
      a _ _ _ _ (FirstOrder.towards_mixture ha fun i => -um m i)]
  have hdc : ∀ j, dirCos (fun i => -um m i) j = -dirCos (um m) j := by
    intro j
    unfold dirCos
    rw [hneg, neg_div]
  have ho : Pattern.omni.towards (fun i => -um m i) = Pattern.omni.towards (um m) := rfl
  rw [ho]
  simp only [hdc, neg_mul, Finset.sum_neg_distrib]
  ring

/-- **C138, sound.** What the microphones hear is the same mixture of what the omnidirectional and the
figure-8 microphones hear. -/
theorem C138_heard {d nS nM N : ℕ} (hd : d = 2 ∨ d = 3) (hS : 0 < nS) (hM : 0 < nM) (w : World)
    (L lo hi : Fin d → ℝ) (fs c : ℝ) (hfs : 0 < fs) (hc : 0 < c) (sel : Selection d) (K : ℕ) (hK : 0 < K)
    (cfg : Config) (hcfg : cfg.validate = .ok ()) (hoff : cfg.rirHpfEnable = false)
    (src us : Fin nS → Fin d → ℝ) (mic um : Fin nM → Fin d → ℝ)
    (ps pm : Pattern) (a : ℝ) (ha : (pm, a) ∈ omniShare) (sp mp mo mb : String) (hps : sp.toLower ∈ ps.names)
    (hpm : mp.toLower ∈ pm.names) (hmo : mo.toLower ∈ Pattern.omni.names)
    (hmb : mb.toLower ∈ Pattern.bidirectional.names)
    (hus : ∀ s, 1e-8 ≤ Real.sqrt (∑ i, us s i ^ 2)) (hum : ∀ m, 1e-8 ≤ Real.sqrt (∑ i, um m i ^ 2))
    (hne : ∀ s m, ∀ n ∈ sel.images, image L (src s) n ≠ mic m) (x : Fin nS → Fin N → ℝ) :
    ∃ (y yo : Fin nM → ℕ → ℝ) (yb : Fin d → Fin nM → ℕ → ℝ),
      (simulateRir w (boxRoom L lo hi fs c) (orientedPoints src us) (orientedPoints mic um)
        (directionalArgs sel K cfg sp mp) >>= convolveRir (tensor2 x)) = .ok (micTensor (N + K - 1) y) ∧
      (simulateRir w (boxRoom L lo hi fs c) (orientedPoints src us) (orientedPoints mic um)
        (directionalArgs sel K cfg sp mo) >>= convolveRir (tensor2 x)) = .ok (micTensor (N + K - 1) yo) ∧
      (∀ j, (simulateRir w (boxRoom L lo hi fs c) (orientedPoints src us) (orientedPoints mic fun _ => axisDir j)
        (directionalArgs sel K cfg sp mb) >>= convolveRir (tensor2 x)) = .ok (micTensor (N + K - 1) (yb j))) ∧
      ∀ m t, y m t = a * yo m t + (1 - a) * ∑ j, dirCos (um m) j * yb j m t := by
  obtain ⟨R, Ro, Rb, h1, h2, h3, h4⟩ := C138_microphones hd hS hM w L lo hi fs c hfs hc sel K hK cfg hcfg hoff
    src us mic um ps pm a ha sp mp mo mb hps hpm hmo hmb hus hum hne
  have hpos : 1 ≤ N + K := by omega
  refine ⟨mix x R, mix x Ro, fun j => mix x (Rb j), ?_, ?_, fun j => ?_, fun m t => ?_⟩
  · rw [h1, ok_bind, C23_convolve_rir_formula x _ (Or.inl rfl) (Or.inl rfl) hpos]
  · rw [h2, ok_bind, C23_convolve_rir_formula x _ (Or.inl rfl) (Or.inl rfl) hpos]
  · rw [h3, ok_bind, C23_convolve_rir_formula x _ (Or.inl rfl) (Or.inl rfl) hpos]
  · exact FirstOrder.mix_mic x R Ro Rb m a _ (fun s k => h4 s m k) t

/-- Two cardioid microphones back to back in a 4 m × 5 m room. -/
example (w : World) : ∃ (R R' Ro : Fin 1 → Fin 1 → Fin 1000 → ℝ),
    simulateRir w (boxRoom ![4, 5] ![0.9, 0.8] ![0.7, 0.6] 16000 343)
      (orientedPoints ![![1, 2]] ![![1, 0]]) (orientedPoints ![![3, 4]] ![![0, 1]])
      (directionalArgs (d := 2) (.order 0) 1000 { rirHpfEnable := false } "omni" "cardioid") = .ok (tensor3 R) ∧
    simulateRir w (boxRoom ![4, 5] ![0.9, 0.8] ![0.7, 0.6] 16000 343)
      (orientedPoints ![![1, 2]] ![![1, 0]]) (orientedPoints ![![3, 4]] fun m i => -(![![0, 1]] : Fin 1 → Fin 2 → ℝ) m i)
      (directionalArgs (d := 2) (.order 0) 1000 { rirHpfEnable := false } "omni" "cardioid") = .ok (tensor3 R') ∧
    simulateRir w (boxRoom ![4, 5] ![0.9, 0.8] ![0.7, 0.6] 16000 343)
      (orientedPoints ![![1, 2]] ![![1, 0]]) (orientedPoints ![![3, 4]] ![![0, 1]])
      (directionalArgs (d := 2) (.order 0) 1000 { rirHpfEnable := false } "omni" "omni") = .ok (tensor3 Ro) ∧
    ∀ k, R 0 0 k + R' 0 0 k = Ro 0 0 k := by
  have low : ∀ s : String, s.toList.map Char.toLower = s.toList → s.toLower = s := by
    intro s h
    apply String.toList_inj.mp
    rw [String.toLower, String.toList_map, h]
  have hc : "cardioid".toLower ∈ Pattern.cardioid.names := by
    rw [low _ (by decide)]
    decide
  have ho : "omni".toLower ∈ Pattern.omni.names := by
    rw [low _ (by decide)]
    decide
  obtain ⟨R, R', Ro, h1, h2, h3, h4⟩ := C138_opposite (Or.inl rfl) (by norm_num) (by norm_num) w ![4, 5]
    ![0.9, 0.8] ![0.7, 0.6] 16000 343 (by norm_num) (by norm_num) (.order 0) 1000 (by norm_num) _
    plainConfig_valid rfl ![![1, 2]] ![![1, 0]] ![![3, 4]] ![![0, 1]] .omni .cardioid (1 / 2)
    (by simp [omniShare]) "omni" "cardioid" "omni" ho hc ho
    (by intro s; fin_cases s; simp [Fin.sum_univ_two]; norm_num)
    (by intro s; fin_cases s; simp [Fin.sum_univ_two]; norm_num) (by
      intro s m n hn
      have hn0 : n = 0 := by
        have h1 := (mem_orderSet n).mp hn
        simp only [Fin.sum_univ_two, Nat.cast_zero] at h1
        have h2 := abs_nonneg (n 0)
        have h3 := abs_nonneg (n 1)
        funext i
        fin_cases i
        · exact abs_eq_zero.mp (by show |n 0| = 0; omega)
        · exact abs_eq_zero.mp (by show |n 1| = 0; omega)
      fin_cases s; fin_cases m
      rw [hn0, image_zero]
      intro h
      have := congrFun h 0
      simp at this)
  refine ⟨R, R', Ro, h1, h2, h3, fun k => ?_⟩
  rw [h4]
  ring

end Torchrir.Props
