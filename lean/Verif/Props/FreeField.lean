import Verif.Props.SymmetricDirectional
import Verif.Props.MovingSymmetry

/-!
# C148: the free field
-/

namespace Torchrir.Props

open Torchrir.Model Torchrir.Spec Torchrir.Lemmas

/-! ## Specification -/

/-- Nothing is reflected: the walls absorb everything, or no reflection is asked for. -/
def NoReflections {d : ℕ} (lo hi : Fin d → ℝ) (sel : Selection d) : Prop :=
  (∀ i, lo i = 0 ∧ hi i = 0) ∨ sel = .order 0

namespace FreeField

theorem zero_mem {d : ℕ} (sel : Selection d) : (0 : Fin d → ℤ) ∈ sel.images := by
  cases sel with
  | order N => exact (mem_orderSet _).mpr (by simp)
  | box N nb => exact Fintype.mem_piFinset.mpr fun i => Finset.mem_Icc.mpr (by simp)

theorem gain_zero {d : ℕ} (lo hi : Fin d → ℝ) : wallGain lo hi 0 = 1 := by
  simp [wallGain, absorbed]

/-- What is left of the response. -/
theorem direct {d : ℕ} (S : Setup d) (sel : Selection d) (h : NoReflections S.lo S.hi sel)
    (gs gm : (Fin d → ℝ) → ℝ) (x y : Fin d → ℝ) (k : ℕ) :
    rir S sel.images gs gm x y k =
      gs (y - x) * gm (x - y) * (kernel S.shape S.fdl (pathLength y x * S.fs / S.c) k / pathLength y x) := by
  unfold rir
  rw [Finset.sum_eq_single_of_mem 0 (zero_mem sel)]
  · dsimp only
    rw [Lemmas.image_zero, gain_zero]
    ring
  · intro n hn hn0
    dsimp only
    have : wallGain S.lo S.hi n = 0 := by
      rcases h with h | h
      · have e1 : S.lo = fun _ => 0 := funext fun i => (h i).1
        have e2 : S.hi = fun _ => 0 := funext fun i => (h i).2
        rw [e1, e2, Lemmas.wallGain_zero, if_neg hn0]
      · refine absurd ?_ hn0
        subst h
        have h1 := (mem_orderSet n).mp hn
        funext i
        have h2 := (Finset.single_le_sum (f := fun i => |n i|) (fun _ _ => abs_nonneg _) (Finset.mem_univ i)).trans h1
        have h3 := abs_nonneg (n i)
        simp only [Nat.cast_zero] at h2
        exact abs_eq_zero.mp (le_antisymm h2 h3)
    rw [this]
    simp

/-- What holds without the filter holds with it. -/
theorem lift {w : World} {room room' : Room} {S M S' M' : Entity} {d d' : ℕ} {sel : Selection d} {sel' : Selection d'}
    {K : ℕ} {cfg : Config} (hfs : room.fs = room'.fs)
    (h : simulateRir w room S M (omniArgs sel K (unfiltered cfg)) =
      simulateRir w room' S' M' (omniArgs sel' K (unfiltered cfg))) :
    simulateRir w room S M (omniArgs sel K cfg) = simulateRir w room' S' M' (omniArgs sel' K cfg) := by
  have h1 := static_split w room S M (omniArgs sel K cfg) cfg
  have h2 := static_split w room' S' M' (omniArgs sel' K cfg) cfg
  have e1 : ({ omniArgs sel K cfg with config := some (unfiltered cfg) } : SimArgs)
    = omniArgs sel K (unfiltered cfg) := rfl
  have e2 : ({ omniArgs sel' K cfg with config := some (unfiltered cfg) } : SimArgs)
    = omniArgs sel' K (unfiltered cfg) := rfl
  have e3 : ({ omniArgs sel K cfg with config := some cfg } : SimArgs) = omniArgs sel K cfg := rfl
  have e4 : ({ omniArgs sel' K cfg with config := some cfg } : SimArgs) = omniArgs sel' K cfg := rfl
  rw [e1, e3] at h1
  rw [e2, e4] at h2
  rw [h1, h2, h, hfs]

end FreeField

/-! ## C148 -/

/-- **C148, only distances matter.** Without reflections two scenes with the same distances between sources and
microphones have the same responses, whatever the sizes of the rooms, where the scene is in them, how it is turned, and
whether it is in the plane or in space. -/
theorem C148_distances {d d' nS nM : ℕ} (hd : d = 2 ∨ d = 3) (hd' : d' = 2 ∨ d' = 3) (hS : 0 < nS) (hM : 0 < nM) (w : World)
    (L lo hi : Fin d → ℝ) (L' lo' hi' : Fin d' → ℝ) (fs c : ℝ) (hfs : 0 < fs) (hc : 0 < c)
    (sel : Selection d) (sel' : Selection d') (hfree : NoReflections lo hi sel) (hfree' : NoReflections lo' hi' sel')
    (K : ℕ) (hK : 0 < K) (cfg : Config) (hcfg : cfg.validate = .ok ())
    (src : Fin nS → Fin d → ℝ) (mic : Fin nM → Fin d → ℝ) (src' : Fin nS → Fin d' → ℝ) (mic' : Fin nM → Fin d' → ℝ)
    (hdist : ∀ s m, Spec.dist (mic m) (src s) = Spec.dist (mic' m) (src' s)) :
    simulateRir w (boxRoom L lo hi fs c) (points src) (points mic) (omniArgs sel K cfg) =
      simulateRir w (boxRoom L' lo' hi' fs c) (points src') (points mic') (omniArgs sel' K cfg) := by
  refine FreeField.lift rfl ?_
  rw [C05_static_rir_formula hd hS hM w L lo hi fs c hfs hc sel K hK _ ((unfiltered_validate cfg).trans hcfg) rfl,
    C05_static_rir_formula hd' hS hM w L' lo' hi' fs c hfs hc sel' K hK _ ((unfiltered_validate cfg).trans hcfg) rfl]
  congr 2
  funext s m k
  have hp : pathLength (mic m) (src s) = pathLength (mic' m) (src' s) := by
    unfold pathLength
    rw [hdist]
  rw [FreeField.direct (setupFor w (unfiltered cfg) L lo hi fs c) sel hfree,
    FreeField.direct (setupFor w (unfiltered cfg) L' lo' hi' fs c) sel' hfree', hp]
  rfl

/-- **C148, moving scenes.** The same for trajectories whose distances agree in every step. -/
theorem C148_moving {d T nS nM : ℕ} (hT : 0 < T) (hd : d = 2 ∨ d = 3) (hS : 0 < nS) (hM : 0 < nM) (w : World)
    (L lo hi L' lo' hi' : Fin d → ℝ) (fs c : ℝ) (hfs : 0 < fs) (hc : 0 < c)
    (sel sel' : Selection d) (hfree : NoReflections lo hi sel) (hfree' : NoReflections lo' hi' sel')
    (K : ℕ) (hK : 0 < K) (cfg : Config) (hcfg : cfg.validate = .ok ())
    (src src' : Fin T → Fin nS → Fin d → ℝ) (mic mic' : Fin T → Fin nM → Fin d → ℝ)
    (hdist : ∀ t s m, Spec.dist (mic t m) (src t s) = Spec.dist (mic' t m) (src' t s)) (R : Tensor ℝ) :
    simulateDynamicRir w (boxRoom L lo hi fs c) (tensor3 src) (tensor3 mic) (omniArgs sel K cfg) = .ok R ↔
      simulateDynamicRir w (boxRoom L' lo' hi' fs c) (tensor3 src') (tensor3 mic') (omniArgs sel' K cfg) = .ok R :=
  MovingSymmetry.same hT w _ _ L L' rfl rfl hfs hfs _ _ _ _ _ _ (fun t =>
    C148_distances hd hd hS hM w L lo hi L' lo' hi' fs c hfs hc sel sel' hfree hfree' K hK cfg hcfg _ _ _ _ (hdist t)) R

/-- **C148, directional devices.** Without reflections the responses of directional devices are those of omnidirectional
ones, each times the gain of the source towards the microphone and the gain of the microphone towards the source. -/
theorem C148_directional {d nS nM : ℕ} (hd : d = 2 ∨ d = 3) (hS : 0 < nS) (hM : 0 < nM) (w : World)
    (L lo hi : Fin d → ℝ) (fs c : ℝ) (hfs : 0 < fs) (hc : 0 < c) (sel : Selection d) (hfree : NoReflections lo hi sel)
    (K : ℕ) (hK : 0 < K) (cfg : Config) (hcfg : cfg.validate = .ok ())
    {G : (Fin K → ℝ) →ₗ[ℝ] (Fin K → ℝ)} (hG : Post w fs cfg G)
    (src us : Fin nS → Fin d → ℝ) (mic um : Fin nM → Fin d → ℝ)
    (ps pm : Pattern) (sp mp : String) (hps : sp.toLower ∈ ps.names) (hpm : mp.toLower ∈ pm.names)
    (hus : ∀ s, 1e-8 ≤ Real.sqrt (∑ i, us s i ^ 2)) (hum : ∀ m, 1e-8 ≤ Real.sqrt (∑ i, um m i ^ 2))
    (hne : ∀ s m, ∀ n ∈ sel.images, image L (src s) n ≠ mic m) :
    ∃ R : Fin nS → Fin nM → Fin K → ℝ,
      simulateRir w (boxRoom L lo hi fs c) (points src) (points mic) (omniArgs sel K cfg) = .ok (tensor3 R) ∧
      simulateRir w (boxRoom L lo hi fs c) (orientedPoints src us) (orientedPoints mic um) (directionalArgs sel K cfg sp mp) =
        .ok (tensor3 fun s m k => ps.gain (cosAngle (mic m - src s) (us s)) * pm.gain (cosAngle (src s - mic m) (um m)) *
          R s m k) := by
  refine ⟨_, post_formula hd hS hM w L lo hi fs c hfs hc sel K hK cfg hcfg hG src mic, ?_⟩
  rw [FirstOrder.post_directional hd hS hM w L lo hi fs c hfs hc sel K hK cfg hcfg hG src us mic um ps pm sp mp hps hpm
    hus hum hne]
  congr 2
  funext s m k
  have e : (fun k : Fin K => rir (setupFor w cfg L lo hi fs c) sel.images (ps.towards (us s)) (pm.towards (um m)) (src s)
      (mic m) k) = (ps.gain (cosAngle (mic m - src s) (us s)) * pm.gain (cosAngle (src s - mic m) (um m))) •
        fun k : Fin K => rir (setupFor w cfg L lo hi fs c) sel.images omni omni (src s) (mic m) k := by
    funext k
    rw [Pi.smul_apply, smul_eq_mul, FreeField.direct (setupFor w cfg L lo hi fs c) sel hfree,
      FreeField.direct (setupFor w cfg L lo hi fs c) sel hfree]
    simp only [Pattern.towards, omni]
    ring
  rw [e, map_smul]
  rfl

namespace FreeField

theorem sum_sq_pos {d : ℕ} {v : Fin d → ℝ} (h : v ≠ 0) : 0 < ∑ i, v i ^ 2 := by
  obtain ⟨i, hi⟩ := Function.ne_iff.mp h
  exact Finset.sum_pos' (fun _ _ => sq_nonneg _) ⟨i, Finset.mem_univ i, by have : v i ≠ 0 := hi; positivity⟩

theorem cos_smul {d : ℕ} {v : Fin d → ℝ} (hv : v ≠ 0) {r : ℝ} (hr : 0 < r) : cosAngle v (fun i => r * v i) = 1 := by
  have hp := sum_sq_pos hv
  unfold cosAngle
  have e1 : ∑ i, v i * (r * v i) = r * ∑ i, v i ^ 2 := by
    rw [Finset.mul_sum]
    exact Finset.sum_congr rfl fun i _ => by ring
  have e2 : ∑ i, (r * v i) ^ 2 = r ^ 2 * ∑ i, v i ^ 2 := by
    rw [Finset.mul_sum]
    exact Finset.sum_congr rfl fun i _ => by ring
  rw [e1, e2, Real.sqrt_mul (sq_nonneg r), Real.sqrt_sq hr.le]
  have hs := Real.sqrt_pos.mpr hp
  have h2 := Real.mul_self_sqrt hp.le
  rw [div_eq_one_iff_eq (by positivity)]
  linear_combination -r * h2

theorem cos_neg {d : ℕ} (v u : Fin d → ℝ) : cosAngle v (fun i => -u i) = -cosAngle v u := by
  unfold cosAngle
  simp [Finset.sum_neg_distrib, neg_div]

end FreeField

/-- **C148, on the axis.** Without reflections a microphone of any pattern that faces the only source hears it as an
omnidirectional microphone does; a cardioid that faces away from it, and a figure-8 at a right angle to it, hear
nothing. -/
theorem C148_facing {d nM : ℕ} (hd : d = 2 ∨ d = 3) (hM : 0 < nM) (w : World)
    (L lo hi : Fin d → ℝ) (fs c : ℝ) (hfs : 0 < fs) (hc : 0 < c) (sel : Selection d) (hfree : NoReflections lo hi sel)
    (K : ℕ) (hK : 0 < K) (cfg : Config) (hcfg : cfg.validate = .ok ())
    {G : (Fin K → ℝ) →ₗ[ℝ] (Fin K → ℝ)} (hG : Post w fs cfg G)
    (src us : Fin 1 → Fin d → ℝ) (mic um : Fin nM → Fin d → ℝ)
    (pm : Pattern) (sp mp : String) (hps : sp.toLower ∈ Pattern.omni.names) (hpm : mp.toLower ∈ pm.names)
    (hus : ∀ s, 1e-8 ≤ Real.sqrt (∑ i, us s i ^ 2)) (hum : ∀ m, 1e-8 ≤ Real.sqrt (∑ i, um m i ^ 2))
    (hne : ∀ s m, ∀ n ∈ sel.images, image L (src s) n ≠ mic m) :
    ((∀ m, ∃ r > 0, um m = fun i => r * (src 0 - mic m) i) →
      simulateRir w (boxRoom L lo hi fs c) (orientedPoints src us) (orientedPoints mic um) (directionalArgs sel K cfg sp mp) =
        simulateRir w (boxRoom L lo hi fs c) (points src) (points mic) (omniArgs sel K cfg)) ∧
    (pm = .cardioid → (∀ m, ∃ r > 0, um m = fun i => -(r * (src 0 - mic m) i)) →
      simulateRir w (boxRoom L lo hi fs c) (orientedPoints src us) (orientedPoints mic um) (directionalArgs sel K cfg sp mp) =
        .ok (tensor3 fun (_ : Fin 1) (_ : Fin nM) (_ : Fin K) => 0)) ∧
    (pm = .bidirectional → (∀ m, ∑ i, (src 0 - mic m) i * um m i = 0) →
      simulateRir w (boxRoom L lo hi fs c) (orientedPoints src us) (orientedPoints mic um) (directionalArgs sel K cfg sp mp) =
        .ok (tensor3 fun (_ : Fin 1) (_ : Fin nM) (_ : Fin K) => 0)) := by
  obtain ⟨R, h1, h2⟩ := C148_directional hd Nat.one_pos hM w L lo hi fs c hfs hc sel hfree K hK cfg hcfg hG src us mic um
    .omni pm sp mp hps hpm hus hum hne
  have hv : ∀ m, src 0 - mic m ≠ 0 := by
    intro m h
    refine hne 0 m 0 (FreeField.zero_mem sel) ?_
    rw [Lemmas.image_zero]
    exact sub_eq_zero.mp h
  have h0 : ∀ s : Fin 1, s = 0 := fun s => Subsingleton.elim _ _
  rw [h1, h2]
  refine ⟨fun h => ?_, fun hp h => ?_, fun hp h => ?_⟩ <;> congr 2 <;> funext s m k <;> rw [h0 s]
  · obtain ⟨r, hr, e⟩ := h m
    rw [e, FreeField.cos_smul (hv m) hr]
    cases pm <;> norm_num [Pattern.gain]
  · obtain ⟨r, hr, e⟩ := h m
    rw [e, FreeField.cos_neg, FreeField.cos_smul (hv m) hr, hp]
    norm_num [Pattern.gain]
  · have e : cosAngle (src 0 - mic m) (um m) = 0 := by
      unfold cosAngle
      rw [h m, zero_div]
    rw [e, hp]
    simp [Pattern.gain]

/-- A scene in a plane room without reflections, and the same scene turned, moved and put into a room in space with other
walls: the distances are 5 and the responses are the same, with the high-pass filter. -/
example (w : World) :
    simulateRir w (boxRoom ![8, 9] (fun _ => 0) (fun _ => 0) 16000 343) (points ![![1, 2]]) (points ![![4, 6]])
        (omniArgs (d := 2) (.order 4) 1000 {}) =
      simulateRir w (boxRoom ![6, 7, 3] ![0.9, 0.8, 0.7] ![0.9, 0.6, 0.5] 16000 343) (points ![![1, 1, 2]])
        (points ![![1, 6, 2]]) (omniArgs (d := 3) (.order 0) 1000 {}) := by
  refine C148_distances (Or.inl rfl) (Or.inr rfl) (by norm_num) (by norm_num) w _ _ _ _ _ _ _ _ (by norm_num) (by norm_num)
    _ _ (Or.inl fun _ => ⟨rfl, rfl⟩) (Or.inr rfl) _ (by norm_num) _ ?_ _ _ _ _ ?_
  · rw [Config.valid_iff]
    refine ⟨?_, ?_, ?_, ?_, ?_⟩ <;> simp
  · intro s m
    fin_cases s
    fin_cases m
    unfold Spec.dist
    congr 1
    rw [Fin.sum_univ_two, Fin.sum_univ_three]
    simp
    norm_num

/-- A cardioid two metres in front of a loudspeaker that faces away from it, in a room without reflections. -/
example (w : World) :
    simulateRir w (boxRoom ![4, 5] (fun _ => 0) (fun _ => 0) 16000 343) (orientedPoints ![![2, 2]] ![![0, 1]])
      (orientedPoints ![![2, 4]] ![![0, 1]])
      (directionalArgs (d := 2) (.order 3) 1000 { rirHpfEnable := false } "omni" "cardioid")
      = .ok (tensor3 fun (_ : Fin 1) (_ : Fin 1) (_ : Fin 1000) => 0) := by
  have low : ∀ s : String, s.toList.map Char.toLower = s.toList → s.toLower = s := by
    intro s h
    apply String.toList_inj.mp
    rw [String.toLower, String.toList_map, h]
  have hc : "cardioid".toLower ∈ Pattern.cardioid.names := by
    rw [low _ (by decide)]
    decide
  have ho : "omni".toLower ∈ Pattern.omni.names := by
    rw [low _ (by decide)]
    decide
  refine (C148_facing (Or.inl rfl) (by norm_num) w ![4, 5] (fun _ => 0) (fun _ => 0) 16000 343 (by norm_num)
    (by norm_num) (.order 3) (Or.inl fun _ => ⟨rfl, rfl⟩) 1000 (by norm_num) { rirHpfEnable := false } plainConfig_valid
    (.off rfl) ![![2, 2]] ![![0, 1]] ![![2, 4]] ![![0, 1]] .cardioid "omni" "cardioid" ho hc
    (by intro s; fin_cases s; simp [Fin.sum_univ_two]; norm_num)
    (by intro s; fin_cases s; simp [Fin.sum_univ_two]; norm_num) ?_).2.1 rfl ?_
  · intro s m n _ h
    have h1 := congrFun h 1
    fin_cases s
    fin_cases m
    rw [image_apply] at h1
    simp at h1
    split_ifs at h1
    · have h2 : ((n 1 * 5 + 2 : ℤ) : ℝ) = (4 : ℤ) := by push_cast; linarith
      have h3 : n 1 * 5 + 2 = 4 := by exact_mod_cast h2
      omega
    · have h2 : ((n 1 * 5 + 3 : ℤ) : ℝ) = (4 : ℤ) := by push_cast; linarith
      have h3 : n 1 * 5 + 3 = 4 := by exact_mod_cast h2
      omega
  · intro m
    fin_cases m
    refine ⟨1 / 2, by norm_num, ?_⟩
    funext i
    fin_cases i <;> norm_num

end Torchrir.Props
