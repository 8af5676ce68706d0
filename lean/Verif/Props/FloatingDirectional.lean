import Verif.Lemmas.FloatGain
import Verif.Props.Floating
import Verif.Props.Pairs
import Verif.Props.Rounded

/-!
# C105: directional devices in floating point

What rounding does to the gains of directional devices, and with them to a simulation.
-/

namespace Torchrir.Props

open Torchrir.Model Torchrir.Spec Torchrir.Lemmas

/-- Gains that exist are the ones of the plan. -/
theorem gains_canonical {d nS nM : ℕ} {P : Plan d nS nM} {gs : Fin nS → (Fin d → ℝ) → ℝ}
    {gm : Fin nM → (Fin d → ℝ) → ℝ} {used : Fin nS → Fin nM → (Fin d → ℝ) → Prop}
    (h : GainsOk P.sp P.mp P.sd P.md gs gm used) : GainsOk P.sp P.mp P.sd P.md P.gs P.gm used := by
  refine ⟨h.src_some, h.mic_some, fun s m v hv => gainVal_ok ⟨_, h.src s m v hv⟩, fun m => ?_⟩
  obtain ⟨mv, h1, h2⟩ := h.mic m
  refine ⟨mv, h1, fun s v hv => ?_⟩
  have := gainVal_ok ⟨_, h2 s v hv⟩
  rw [this]
  unfold Plan.gm
  rw [h1]

/-- Plan of a directional call. -/
noncomputable def directionalPlan {d nS nM : ℕ} (lo hi : Fin d → ℝ) (sel : Selection d) (K : ℕ) (cfg : Config)
    (sp mp : String) (As : Aim nS d) (Am : Aim nM d) (nVec : List (List ℤ))
    (sd : Option (List Vec)) (md : Option MicDir) : Plan d nS nM :=
  ⟨cfg, sel.maxOrder, cfg.tmax, .tuple [sp, mp], K, lo, hi, nVec, sel.images, sp, mp, some As.tensor,
    some Am.tensor, sd, md⟩

/-- `simulate_dynamic_rir` with patterns and the orientation of every device. -/
def aimedArgs {d nS nM : ℕ} (sel : Selection d) (K : ℕ) (cfg : Config) (sp mp : String)
    (As : Aim nS d) (Am : Aim nM d) : SimArgs :=
  { directionalArgs sel K cfg sp mp with orientation := some (.tuple [some As.tensor, some Am.tensor]) }

theorem resolveConfig_directional {d : ℕ} (sel : Selection d) (K : ℕ) (cfg : Config)
    (h : cfg.validate = .ok ()) (sp mp : String) (o : Option OriArg) :
    resolveConfig { directionalArgs sel K cfg sp mp with orientation := o }
      = .ok (cfg, sel.maxOrder, cfg.tmax, .tuple [sp, mp]) := by
  unfold resolveConfig directionalArgs omniArgs
  simp only [Option.getD_some]
  rw [h, ok_bind]
  rfl

theorem exact_normalizeVec (v : Vec) : exactFloats.normalizeVec v = normalizeVec v := rfl
theorem exact_orientationToUnit (o : Tensor ℝ) (d : ℕ) : exactFloats.orientationToUnit o d = orientationToUnit o d := rfl
theorem exact_resolveMicDir (p : String) (o : Option (Tensor ℝ)) (d : ℕ) :
    exactFloats.resolveMicDir p o d = resolveMicDir p o d := by
  unfold Floats.resolveMicDir resolveMicDir
  split
  · rfl
  · cases o with
    | none => rfl
    | some o =>
      simp only [exact_orientationToUnit]
      cases orientationToUnit o d with
      | error e => rfl
      | ok u =>
        simp only [ok_bind]
        split <;> rfl
theorem exact_resolveSrcDirs (p : String) (o : Option (Tensor ℝ)) (d n : ℕ) :
    exactFloats.resolveSrcDirs p o d n = resolveSrcDirs p o d n := by cases o <;> rfl

theorem Aim.computed_exact {n d : ℕ} (A : Aim n d) : Aim.computed exactFloats A = A.axis := by
  cases A <;> rfl

theorem Aim.resolve_exact {n d : ℕ} (hd : d = 2 ∨ d = 3) (A : Aim n d) (p : String) :
    resolveSrcDirs p (some A.tensor) d n = resolveSrcDirs p (some (tensor2 A.axis)) d n ∧
    resolveMicDir p (some A.tensor) d = resolveMicDir p (some (tensor2 A.axis)) d := by
  have h := Aim.resolve_eq exactFloats hd A p
  rw [Aim.computed_exact] at h
  rwa [exact_resolveSrcDirs, exact_resolveSrcDirs, exact_resolveMicDir, exact_resolveMicDir] at h

theorem directionalPlan_ok {d nS nM : ℕ} (hd : d = 2 ∨ d = 3) (hS : 0 < nS) (hM : 0 < nM)
    (L lo hi : Fin d → ℝ) (fs c : ℝ) (sel : Selection d) (K : ℕ) (hK : 0 < K) (cfg : Config)
    (hcfg : cfg.validate = .ok ()) (ps pm : Pattern) (sp mp : String) (hps : sp.toLower ∈ ps.names)
    (hpm : mp.toLower ∈ pm.names) (As : Aim nS d) (Am : Aim nM d)
    (hus : ∀ s, 2e-8 ≤ fnorm (As.axis s)) (hum : ∀ m, 2e-8 ≤ fnorm (Am.axis m)) (o : Option OriArg) :
    ∃ nVec sd md, ∀ used : Fin nS → Fin nM → (Fin d → ℝ) → Prop, (∀ s m v, used s m v → v ≠ 0) →
      PlanOk (boxRoom L lo hi fs c) { directionalArgs sel K cfg sp mp with orientation := o } L
        (directionalPlan lo hi sel K cfg sp mp As Am nVec sd md) used := by
  obtain ⟨l, h1, h2⟩ := selection_images sel
  have g1 : ∀ s, 1e-8 ≤ fnorm (As.axis s) := fun s => le_trans (by norm_num) (hus s)
  have g2 : ∀ m, 1e-8 ≤ fnorm (Am.axis m) := fun m => le_trans (by norm_num) (hum m)
  obtain ⟨sd, md, hsd, hmd, -⟩ := gains_directional hd ps pm sp mp hps hpm As.axis Am.axis g1 g2
    (fun _ _ _ => False) (fun _ _ _ h => h.elim)
  refine ⟨l, sd, md, fun used hused => ?_⟩
  obtain ⟨sd', md', hsd', hmd', hg⟩ := gains_directional hd ps pm sp mp hps hpm As.axis Am.axis g1 g2
    used (fun s m v hv => Or.inl (hused s m v hv))
  rw [hsd] at hsd'
  rw [hmd] at hmd'
  cases hsd'
  cases hmd'
  rw [← (Aim.resolve_exact hd As sp).1] at hsd
  rw [← (Aim.resolve_exact hd Am mp).2] at hmd
  exact ⟨hd, hS, hM, rfl, resolveBeta_boxRoom hd L lo hi fs c,
    resolveConfig_directional sel K cfg hcfg sp mp o, validateArgs_omni _ sel K hK _, h1, h2, rfl, hmd, hsd,
    gains_canonical (P := directionalPlan lo hi sel K cfg sp mp As Am l sd md) hg⟩

/-! ## The error bound -/

/-- **C105, static.** On a machine with `p` significant bits whose tables are good to `ε`, a
simulation between directional devices, their orientations given in any of the forms, succeeds without filter
and tail, and every sample differs from the image-source formula of C05 by at most
`directionalError`.  Every image must be far enough from the microphone for its direction to be
known, and no orientation may be as short as the bound below which the code does not normalise. -/
theorem C105_static {d nS nM : ℕ} (hd : d = 2 ∨ d = 3) (hS : 0 < nS) (hM : 0 < nM)
    (p : ℕ) (hp : 14 ≤ p) (ε : ℝ) (F : Floats) (hF : Accurate p ε F)
    (w : World) (L lo hi : Fin d → ℝ) (fs c : ℝ) (hfs : 0 < fs) (hc : 0 < c)
    (sel : Selection d) (K : ℕ) (hK : 0 < K)
    (cfg : Config) (hcfg : cfg.validate = .ok ()) (hoff : cfg.rirHpfEnable = false)
    (hgran : cfg.sincLutGranularity ≤ 2 ^ p)
    (hsmall : 16 * (cfg.fracDelayLength : ℝ) * roundoff p + 5 * ε ≤ 1 / 10)
    (src : Fin nS → Fin d → ℝ) (As : Aim nS d) (mic : Fin nM → Fin d → ℝ) (Am : Aim nM d)
    (ps pm : Pattern) (sp mp : String) (hps : sp.toLower ∈ ps.names) (hpm : mp.toLower ∈ pm.names)
    (hus : ∀ s, 2e-8 ≤ Real.sqrt (∑ i, As.axis s i ^ 2)) (hum : ∀ m, 2e-8 ≤ Real.sqrt (∑ i, Am.axis m i ^ 2))
    (hcond : ∀ s m, ∀ n ∈ sel.images,
      100 * roundoff p * pathScale L (src s) (mic m) n ≤ Spec.dist (mic m) (image L (src s) n)) :
    ∃ h : Fin nS → Fin nM → Fin K → ℝ,
      simulateRirFloat F w (boxRoom L lo hi fs c) (aimedPoints src As) (aimedPoints mic Am)
        (directionalArgs sel K cfg sp mp) = .ok (tensor3 h) ∧
      ∀ s m k, |h s m k - rir (setupFor w cfg L lo hi fs c) sel.images (ps.towards (As.axis s)) (pm.towards (Am.axis m))
          (src s) (mic m) k|
        ≤ directionalError (setupFor w cfg L lo hi fs c) sel.images (roundoff p) ε ps pm (As.axis s) (Am.axis m)
          (src s) (mic m) := by
  have hu0 : 0 < roundoff p := by unfold roundoff; positivity
  have hpos : ∀ s m, ∀ n ∈ sel.images, 0 < Spec.dist (mic m) (image L (src s) n) := by
    intro s m n hn
    refine lt_of_lt_of_le ?_ (hcond s m n hn)
    have : 0 ≤ ∑ i, (|mic m i| + 2 * |src s i| + |image L (src s) n i|) :=
      Finset.sum_nonneg fun i _ => by positivity
    unfold pathScale
    positivity
  have g1 : ∀ s, 0 < fnorm (As.axis s) := fun s => lt_of_lt_of_le (by norm_num) (hus s)
  have g2 : ∀ m, 0 < fnorm (Am.axis m) := fun m => lt_of_lt_of_le (by norm_num) (hum m)
  obtain ⟨nVec, sd, md, hPok⟩ := directionalPlan_ok hd hS hM L lo hi fs c sel K hK cfg hcfg ps pm sp mp
    hps hpm As Am hus hum none
  have hP : StaticPlan (boxRoom L lo hi fs c) (aimedPoints src As) (aimedPoints mic Am)
      (directionalArgs sel K cfg sp mp) L src mic
      (directionalPlan lo hi sel K cfg sp mp As Am nVec sd md) := by
    refine ⟨hPok _ ?_, ⟨_, rfl, rfl⟩, ⟨_, rfl, rfl⟩⟩
    rintro s m v ⟨n, hn, rfl⟩ h0
    have := hpos s m n hn
    rw [← fnorm_sub_eq, h0] at this
    simp [fnorm] at this
  obtain ⟨ns, hns, hnd, hmem⟩ := hP.imgA.exists_list
  have hcs := (Config.valid_iff cfg).mp hcfg
  have hodd : cfg.fracDelayLength.toNat % 2 = 1 := by omega
  have hg : 0 < cfg.sincLutGranularity.toNat := by omega
  have hgran' : cfg.sincLutGranularity.toNat ≤ 2 ^ p := by zify; omega
  have hfdl : ((cfg.fracDelayLength.toNat : ℕ) : ℝ) = (cfg.fracDelayLength : ℝ) := by
    have : ((cfg.fracDelayLength.toNat : ℕ) : ℤ) = cfg.fracDelayLength := by omega
    exact_mod_cast congrArg (Int.cast : ℤ → ℝ) this
  rw [← hfdl] at hsmall
  obtain ⟨f, hf1, hf2⟩ := tapFilter_err hF (rounds_of_nearest hp hF.fl) hodd hg hgran'
    (cfg.useLut && w.device ≠ .mps) hsmall
  obtain ⟨sdF, mdF, r1, r2, r3, r4, r5, r6⟩ := resolveDirs_float F hd
    (Aim.computed F As) (Aim.computed F Am) sp mp
  rw [← (Aim.resolve_eq F hd As sp).1] at r1
  rw [← (Aim.resolve_eq F hd Am mp).2] at r2
  choose mv hmv hmv' using r6
  have hpath : ∀ s m n, ∃ g γ, n ∈ sel.images →
      (∃ g1, F.deviceGain sp (List.ofFn (vecFloat F L (src s) (mic m) n)) ((sdF.getD []).getD s [])
          (floatRefl F lo hi n) = .ok g1 ∧
        F.deviceGain mp (List.ofFn (-vecFloat F L (src s) (mic m) n)) (mv m) g1 = .ok g) ∧
      |g - wallGain lo hi n * γ| ≤ 35 * roundoff p * |wallGain lo hi n * γ| ∧
      |γ - ps.towards (As.axis s) (mic m - image L (src s) n) * pm.towards (Am.axis m) (image L (src s) n - mic m)|
        ≤ gainFactor (setupFor w cfg L lo hi fs c) (roundoff p) ps pm (As.axis s) (Am.axis m) (src s) (mic m) n - 1 := by
    intro s m n
    by_cases hn : n ∈ sel.images
    · obtain ⟨g, γ, h⟩ := pathGain_err hp hF hd (setupFor w cfg L lo hi fs c) ps pm sp mp hps hpm (g1 s) (g2 m)
        (Aim.computed_long hp hF As s (hus s)) (Aim.computed_long hp hF Am m (hum m))
        (Aim.computed_rel hp hF As s) (Aim.computed_rel hp hF Am m) (r5 s) (hmv' m) (src s) (mic m) n (hcond s m n hn)
      exact ⟨g, γ, fun _ => h⟩
    · exact ⟨0, 0, fun h => absurd h hn⟩
  choose g γ hgγ using hpath
  obtain ⟨H, hH, hH'⟩ := hP.evalFloat w F orderRel_perm
    (fun i j => covers_of_perm (hF.order i j)) (floatTap_spec F hf1 _) hns r2 r1 (g := fun _ => g)
    ⟨r3, r4, fun m => ⟨mv m, hmv m, fun _ s n hn => (hgγ s m n ((hmem n).mp hn)).1⟩⟩
  refine ⟨fun s m k => H s m k, ?_, ?_⟩
  · rw [hH]
    exact applyRirHpf_off _ _ _ hoff _
  · intro s m k
    obtain ⟨l, hl, e⟩ := hH' s m k k.2
    simp only
    rw [e]
    refine response_err (S := setupFor w cfg L lo hi fs c) hp hF hd hodd hg rfl hc hfs hsmall hf2
      (src s) (mic m) sel.images (fun n hn => (hcond s m n hn).trans (dist_le_pathLength _ _)) hnd hmem k
      (gs := ps.towards (As.axis s)) (gm := pm.towards (Am.axis m)) (g := g s m) (γ := γ s m)
      (Γ := gainFactor (setupFor w cfg L lo hi fs c) (roundoff p) ps pm (As.axis s) (Am.axis m) (src s) (mic m))
      (fun n hn => (hgγ s m n hn).2.1) (fun n _ => ?_) (fun n hn => (hgγ s m n hn).2.2) hl
    rw [abs_mul]
    exact mul_le_one₀ (Pattern.abs_gain_le_one _ (abs_cosAngle_le_one _ _)) (abs_nonneg _)
      (Pattern.abs_gain_le_one _ (abs_cosAngle_le_one _ _))

/-- **C105, dynamic.** The same for every step of a dynamic simulation. -/
theorem C105_dynamic {d nT nS nM : ℕ} (hd : d = 2 ∨ d = 3) (hT : 0 < nT) (hS : 0 < nS) (hM : 0 < nM)
    (p : ℕ) (hp : 14 ≤ p) (ε : ℝ) (F : Floats) (hF : Accurate p ε F)
    (w : World) (L lo hi : Fin d → ℝ) (fs c : ℝ) (hfs : 0 < fs) (hc : 0 < c)
    (sel : Selection d) (K : ℕ) (hK : 0 < K)
    (cfg : Config) (hcfg : cfg.validate = .ok ()) (hoff : cfg.rirHpfEnable = false)
    (hgran : cfg.sincLutGranularity ≤ 2 ^ p)
    (hsmall : 16 * (cfg.fracDelayLength : ℝ) * roundoff p + 5 * ε ≤ 1 / 10)
    (src : Fin nT → Fin nS → Fin d → ℝ) (As : Aim nS d)
    (mic : Fin nT → Fin nM → Fin d → ℝ) (Am : Aim nM d)
    (ps pm : Pattern) (sp mp : String) (hps : sp.toLower ∈ ps.names) (hpm : mp.toLower ∈ pm.names)
    (hus : ∀ s, 2e-8 ≤ Real.sqrt (∑ i, As.axis s i ^ 2)) (hum : ∀ m, 2e-8 ≤ Real.sqrt (∑ i, Am.axis m i ^ 2))
    (hcond : ∀ t s m, ∀ n ∈ sel.images, 100 * roundoff p * pathScale L (src t s) (mic t m) n
      ≤ Spec.dist (mic t m) (image L (src t s) n)) :
    ∃ h : Fin nT → Fin nS → Fin nM → Fin K → ℝ,
      simulateDynamicRirFloat F w (boxRoom L lo hi fs c) (tensor3 src) (tensor3 mic)
        (aimedArgs sel K cfg sp mp As Am) = .ok (tensor4 h) ∧
      ∀ t s m k, |h t s m k - rir (setupFor w cfg L lo hi fs c) sel.images (ps.towards (As.axis s))
          (pm.towards (Am.axis m)) (src t s) (mic t m) k|
        ≤ directionalError (setupFor w cfg L lo hi fs c) sel.images (roundoff p) ε ps pm (As.axis s) (Am.axis m)
          (src t s) (mic t m) := by
  have hu0 : 0 < roundoff p := by unfold roundoff; positivity
  have hpos : ∀ t s m, ∀ n ∈ sel.images, 0 < Spec.dist (mic t m) (image L (src t s) n) := by
    intro t s m n hn
    refine lt_of_lt_of_le ?_ (hcond t s m n hn)
    have : 0 ≤ ∑ i, (|mic t m i| + 2 * |src t s i| + |image L (src t s) n i|) :=
      Finset.sum_nonneg fun i _ => by positivity
    unfold pathScale
    positivity
  have g1 : ∀ s, 0 < fnorm (As.axis s) := fun s => lt_of_lt_of_le (by norm_num) (hus s)
  have g2 : ∀ m, 0 < fnorm (Am.axis m) := fun m => lt_of_lt_of_le (by norm_num) (hum m)
  obtain ⟨nVec, sd, md, hPok⟩ := directionalPlan_ok hd hS hM L lo hi fs c sel K hK cfg hcfg ps pm sp mp
    hps hpm As Am hus hum (some (.tuple [some As.tensor, some Am.tensor]))
  have hP : DynamicPlan (boxRoom L lo hi fs c) (aimedArgs sel K cfg sp mp As Am) L src mic
      (directionalPlan lo hi sel K cfg sp mp As Am nVec sd md) := by
    refine ⟨hPok _ ?_, hT, rfl⟩
    rintro s m v ⟨t, n, hn, rfl⟩ h0
    have := hpos t s m n hn
    rw [← fnorm_sub_eq, h0] at this
    simp [fnorm] at this
  obtain ⟨ns, hns, hnd, hmem⟩ := hP.imgA.exists_list
  have hcs := (Config.valid_iff cfg).mp hcfg
  have hodd : cfg.fracDelayLength.toNat % 2 = 1 := by omega
  have hg : 0 < cfg.sincLutGranularity.toNat := by omega
  have hgran' : cfg.sincLutGranularity.toNat ≤ 2 ^ p := by zify; omega
  have hfdl : ((cfg.fracDelayLength.toNat : ℕ) : ℝ) = (cfg.fracDelayLength : ℝ) := by
    have : ((cfg.fracDelayLength.toNat : ℕ) : ℤ) = cfg.fracDelayLength := by omega
    exact_mod_cast congrArg (Int.cast : ℤ → ℝ) this
  rw [← hfdl] at hsmall
  obtain ⟨f, hf1, hf2⟩ := tapFilter_err hF (rounds_of_nearest hp hF.fl) hodd hg hgran'
    (cfg.useLut && w.device ≠ .mps) hsmall
  obtain ⟨sdF, mdF, r1, r2, r3, r4, r5, r6⟩ := resolveDirs_float F hd
    (Aim.computed F As) (Aim.computed F Am) sp mp
  rw [← (Aim.resolve_eq F hd As sp).1] at r1
  rw [← (Aim.resolve_eq F hd Am mp).2] at r2
  choose mv hmv hmv' using r6
  have hpath : ∀ t s m n, ∃ g γ, n ∈ sel.images →
      (∃ g1, F.deviceGain sp (List.ofFn (vecFloat F L (src t s) (mic t m) n)) ((sdF.getD []).getD s [])
          (floatRefl F lo hi n) = .ok g1 ∧
        F.deviceGain mp (List.ofFn (-vecFloat F L (src t s) (mic t m) n)) (mv m) g1 = .ok g) ∧
      |g - wallGain lo hi n * γ| ≤ 35 * roundoff p * |wallGain lo hi n * γ| ∧
      |γ - ps.towards (As.axis s) (mic t m - image L (src t s) n)
          * pm.towards (Am.axis m) (image L (src t s) n - mic t m)|
        ≤ gainFactor (setupFor w cfg L lo hi fs c) (roundoff p) ps pm (As.axis s) (Am.axis m) (src t s) (mic t m) n - 1 := by
    intro t s m n
    by_cases hn : n ∈ sel.images
    · obtain ⟨g, γ, h⟩ := pathGain_err hp hF hd (setupFor w cfg L lo hi fs c) ps pm sp mp hps hpm (g1 s) (g2 m)
        (Aim.computed_long hp hF As s (hus s)) (Aim.computed_long hp hF Am m (hum m))
        (Aim.computed_rel hp hF As s) (Aim.computed_rel hp hF Am m) (r5 s) (hmv' m) (src t s) (mic t m) n (hcond t s m n hn)
      exact ⟨g, γ, fun _ => h⟩
    · exact ⟨0, 0, fun h => absurd h hn⟩
  choose g γ hgγ using hpath
  obtain ⟨H, hH, hH'⟩ := hP.evalFloat w (sTraj := tensor3 src) (mTraj := tensor3 mic) rfl rfl F orderRel_perm
    (fun i j => covers_of_perm (hF.order i j)) (floatTap_spec F hf1 _) hns r2 r1 (g := g)
    ⟨r3, r4, fun m => ⟨mv m, hmv m, fun t s n hn => (hgγ t s m n ((hmem n).mp hn)).1⟩⟩
  refine ⟨fun t s m k => H t s m k, ?_, ?_⟩
  · rw [hH]
    exact applyRirHpf_off _ _ _ hoff _
  · intro t s m k
    obtain ⟨l, hl, e⟩ := hH' t s m k k.2
    simp only
    rw [e]
    refine response_err (S := setupFor w cfg L lo hi fs c) hp hF hd hodd hg rfl hc hfs hsmall hf2
      (src t s) (mic t m) sel.images (fun n hn => (hcond t s m n hn).trans (dist_le_pathLength _ _)) hnd hmem k
      (gs := ps.towards (As.axis s)) (gm := pm.towards (Am.axis m)) (g := g t s m) (γ := γ t s m)
      (Γ := gainFactor (setupFor w cfg L lo hi fs c) (roundoff p) ps pm (As.axis s) (Am.axis m) (src t s) (mic t m))
      (fun n hn => (hgγ t s m n hn).2.1) (fun n _ => ?_) (fun n hn => (hgγ t s m n hn).2.2) hl
    rw [abs_mul]
    exact mul_le_one₀ (Pattern.abs_gain_le_one _ (abs_cosAngle_le_one _ _)) (abs_nonneg _)
      (Pattern.abs_gain_le_one _ (abs_cosAngle_le_one _ _))

/-- **C105, omnidirectional devices.** For them the bound is the one of C104. -/
theorem C105_omni {d : ℕ} (S : Setup d) (A : Finset (Fin d → ℤ)) (u ε : ℝ) (us um src mic : Fin d → ℝ) :
    directionalError S A u ε .omni .omni us um src mic = sampleError S A u ε src mic := by
  unfold directionalError sampleError gainFactor
  simp [Pattern.gainError]

/-- **C105, when the directions are known well enough.** The condition of C104 on the distance
between source and microphone inside the room. -/
theorem C105_condition {d : ℕ} (hd : d = 2 ∨ d = 3) (p : ℕ) (hp : 14 ≤ p) (L src mic : Fin d → ℝ)
    (hs : ∀ i, 0 ≤ src i ∧ src i ≤ L i) (hm : ∀ i, 0 ≤ mic i ∧ mic i ≤ L i)
    (hfar : 200 * roundoff p * (1e-6 + ∑ i, 2 * (src i + mic i)) ≤ Spec.dist mic src) (n : Fin d → ℤ) :
    100 * roundoff p * pathScale L src mic n ≤ Spec.dist mic (image L src n) := by
  have hu0 : 0 < roundoff p := by unfold roundoff; positivity
  have h1 : Spec.dist mic src ≤ Spec.dist mic (image L src n) := dist_image_ge hs hm n
  have h2 := C104_condition hd p hp L src mic hs hm hfar n
  have h3 : 0 ≤ ∑ i, 2 * (src i + mic i) :=
    Finset.sum_nonneg fun i _ => by linarith [(hs i).1, (hm i).1]
  rcases le_or_gt 1e-6 (Spec.dist mic (image L src n)) with h4 | h4
  · rwa [pathLength, max_eq_left h4] at h2
  · -- an image this close is the source itself
    have hr := (rounds_of_nearest hp (toNearest_rounds (p := p) (by omega))).small
    set r := Spec.dist mic (image L src n) with hrdef
    have hr0 : 0 ≤ r := by rw [hrdef]; unfold Spec.dist; positivity
    have hcoord : ∀ i, |image L src n i| ≤ mic i + r := by
      intro i
      have h5 : |mic i - image L src n i| ≤ r := by
        rw [hrdef, ← fnorm_sub_eq]
        exact abs_le_fnorm (mic - image L src n) i
      have h6 : image L src n i = mic i - (mic i - image L src n i) := by ring
      rw [h6]
      refine (abs_sub _ _).trans ?_
      rw [abs_of_nonneg (hm i).1]
      linarith
    have h5 : pathScale L src mic n ≤ (1e-6 + ∑ i, 2 * (src i + mic i)) + 3 * r := by
      unfold pathScale
      have h6 : ∑ i, (|mic i| + 2 * |src i| + |image L src n i|) ≤ ∑ i : Fin d, (2 * (src i + mic i) + r) := by
        refine Finset.sum_le_sum fun i _ => ?_
        rw [abs_of_nonneg (hm i).1, abs_of_nonneg (hs i).1]
        have := hcoord i
        linarith
      have h7 : ∑ i : Fin d, (2 * (src i + mic i) + r) = ∑ i, 2 * (src i + mic i) + d * r := by
        rw [Finset.sum_add_distrib, Finset.sum_const, Finset.card_univ, Fintype.card_fin, nsmul_eq_mul]
      rw [h7] at h6
      have h8 : (d : ℝ) * r ≤ 3 * r := by
        refine mul_le_mul_of_nonneg_right ?_ hr0
        rcases hd with rfl | rfl <;> norm_num
      linarith
    have h6 := mul_le_mul_of_nonneg_left h5 (show 0 ≤ 100 * roundoff p by positivity)
    have h7 := mul_le_mul_of_nonneg_right hr hr0
    linarith

theorem card_lower : "card".toLower = "card" := by
  apply String.toList_inj.mp; simp [String.toLower, String.toList_map]

theorem figure8_lower : "figure8".toLower = "figure8" := by
  apply String.toList_inj.mp; simp [String.toLower, String.toList_map]

/-- Single precision, default configuration without the filter: a cardioid source and a figure-8
microphone in a 4 m × 5 m room, order 3. -/
example (w : World) (F : Floats) (hF : Accurate 24 (1 / 1000000) F) :
    ∃ h : Fin 1 → Fin 1 → Fin 1000 → ℝ,
      simulateRirFloat F w (boxRoom ![4, 5] ![0.9, 0.8] ![0.7, 0.6] 16000 343)
        (aimedPoints ![![1, 2]] (.angles ![0.3])) (aimedPoints ![![3, 4]] (.vectors ![![0, -2]]))
        (directionalArgs (d := 2) (.order 3) 1000 { rirHpfEnable := false } "card" "figure8")
        = .ok (tensor3 h) := by
  obtain ⟨h, h1, -⟩ := C105_static (d := 2) (nS := 1) (nM := 1) (Or.inl rfl) (by norm_num) (by norm_num)
    24 (by norm_num) _ F hF w ![4, 5] ![0.9, 0.8] ![0.7, 0.6] 16000 343 (by norm_num) (by norm_num)
    (.order 3) 1000 (by norm_num) { rirHpfEnable := false } plainConfig_valid rfl (by norm_num)
    (by norm_num [roundoff]) ![![1, 2]] (.angles ![0.3]) ![![3, 4]] (.vectors ![![0, -2]]) .cardioid .bidirectional
    "card" "figure8" (by rw [card_lower]; decide) (by rw [figure8_lower]; decide)
    (by intro s; fin_cases s; simp [Aim.axis, onCircle, Fin.sum_univ_two]; norm_num)
    (by intro s; fin_cases s; simp [Aim.axis, Fin.sum_univ_two]; norm_num)
    (by
      intro s m n _
      have hd : 1 ≤ Spec.dist ((![![3, 4]] : Fin 1 → Fin 2 → ℝ) m) ((![![1, 2]] : Fin 1 → Fin 2 → ℝ) s) := by
        unfold Spec.dist
        rw [Real.one_le_sqrt]
        fin_cases s; fin_cases m; simp [Fin.sum_univ_two]; norm_num
      refine C105_condition (Or.inl rfl) 24 (by norm_num) _ _ _ ?_ ?_ (le_trans ?_ hd) n
      · intro i; fin_cases s; fin_cases i <;> (simp; try norm_num)
      · intro i; fin_cases m; fin_cases i <;> simp <;> norm_num
      · fin_cases s; fin_cases m; simp [Fin.sum_univ_two, roundoff]; norm_num)
  exact ⟨h, h1⟩

/-! ## The limit of high precision -/

open Filter Topology in
/-- The factor of the gains tends to one, unless a half-omni device sees the image at a right
angle. -/
theorem gainFactor_limit {d : ℕ} (S : Setup d) (ps pm : Pattern) (us um src mic : Fin d → ℝ) (n : Fin d → ℤ)
    (hs : ps = .halfOmni → cosAngle (mic - image S.L src n) us ≠ 0)
    (hm : pm = .halfOmni → cosAngle (image S.L src n - mic) um ≠ 0) :
    Tendsto (fun q : ℝ × ℝ => gainFactor S q.1 ps pm us um src mic n) (𝓝 (0, 0)) (𝓝 1) := by
  set κ := pathScale S.L src mic n / Spec.dist mic (image S.L src n)
  have hδ : Tendsto (fun q : ℝ × ℝ => 80 * q.1 * κ) (𝓝 (0, 0)) (𝓝 0) := by
    have hc : Continuous fun q : ℝ × ℝ => 80 * q.1 * κ := by fun_prop
    have := hc.tendsto (0, 0)
    simpa using this
  have hE : ∀ (p : Pattern) (c : ℝ), (p = .halfOmni → c ≠ 0) →
      Tendsto (fun q : ℝ × ℝ => p.gainError c (80 * q.1 * κ)) (𝓝 (0, 0)) (𝓝 0) := by
    intro p c hp
    cases p with
    | omni => exact tendsto_const_nhds
    | halfOmni =>
      have hc : 0 < |c| := abs_pos.mpr (hp rfl)
      refine tendsto_const_nhds.congr' ?_
      filter_upwards [hδ.eventually_lt_const hc] with q hq
      simp only [Pattern.gainError]
      rw [if_neg (not_le.mpr hq)]
    | _ => exact hδ
  have h1 := hE ps _ hs
  have h2 := hE pm _ hm
  have h3 := (tendsto_const_nhds (x := (1 : ℝ)).add h1).mul (tendsto_const_nhds (x := (1 : ℝ)).add h2)
  simpa [gainFactor] using h3

open Filter Topology in
theorem imageError_limit {d : ℕ} (S : Setup d) (src mic : Fin d → ℝ) (n : Fin d → ℤ)
    (hw : ∀ z : ℤ, pathLength mic (image S.L src n) * S.fs / S.c ≠ z) :
    Tendsto (fun q : ℝ × ℝ => imageError S q.1 q.2 src mic n) (𝓝 (0, 0)) (𝓝 0) := by
  obtain ⟨ρ, hρ, hz⟩ := away_from_integers hw
  have hδ : Continuous fun q : ℝ × ℝ => delayError S q.1 (pathScale S.L src mic n) := by
    unfold delayError
    fun_prop
  have h0 : delayError S (0 : ℝ × ℝ).1 (pathScale S.L src mic n) < ρ := by
    unfold delayError; simpa using hρ
  have hc : Continuous fun q : ℝ × ℝ => (32 * S.fdl * q.1 + 10 * q.2)
      + 53 * q.1 * (pathScale S.L src mic n / pathLength mic (image S.L src n))
      + 2 * delayError S q.1 (pathScale S.L src mic n) := by fun_prop
  have ht := hc.tendsto (0, 0)
  have e0 : (32 * S.fdl * (0 : ℝ) + 10 * 0)
      + 53 * 0 * (pathScale S.L src mic n / pathLength mic (image S.L src n))
      + 2 * delayError S 0 (pathScale S.L src mic n) = 0 := by simp [delayError]
  simp only [e0] at ht
  refine ht.congr' ?_
  filter_upwards [hδ.continuousAt.eventually_lt continuousAt_const h0] with q hq
  unfold imageError stepError
  simp only
  rw [if_neg, add_zero]
  rintro ⟨z, hz'⟩
  have := hz z
  linarith

open Filter Topology in
/-- **C105, convergence.** If no delay is a whole number of samples and no half-omni device sees an
image at a right angle, every sample comes arbitrarily close to the image-source formula once the
precision is high enough and the tables are good enough. -/
theorem C105_converges {d nS nM : ℕ} (hd : d = 2 ∨ d = 3) (hS : 0 < nS) (hM : 0 < nM)
    (w : World) (L lo hi : Fin d → ℝ) (fs c : ℝ) (hfs : 0 < fs) (hc : 0 < c)
    (sel : Selection d) (K : ℕ) (hK : 0 < K)
    (cfg : Config) (hcfg : cfg.validate = .ok ()) (hoff : cfg.rirHpfEnable = false)
    (src : Fin nS → Fin d → ℝ) (As : Aim nS d) (mic : Fin nM → Fin d → ℝ) (Am : Aim nM d)
    (ps pm : Pattern) (sp mp : String) (hps : sp.toLower ∈ ps.names) (hpm : mp.toLower ∈ pm.names)
    (hus : ∀ s, 2e-8 ≤ Real.sqrt (∑ i, As.axis s i ^ 2)) (hum : ∀ m, 2e-8 ≤ Real.sqrt (∑ i, Am.axis m i ^ 2))
    (hne : ∀ s m, ∀ n ∈ sel.images, image L (src s) n ≠ mic m)
    (hw : ∀ s m, ∀ n ∈ sel.images, ∀ z : ℤ, pathLength (mic m) (image L (src s) n) * fs / c ≠ z)
    (hss : ps = .halfOmni → ∀ s m, ∀ n ∈ sel.images, cosAngle (mic m - image L (src s) n) (As.axis s) ≠ 0)
    (hmm : pm = .halfOmni → ∀ s m, ∀ n ∈ sel.images, cosAngle (image L (src s) n - mic m) (Am.axis m) ≠ 0)
    (tol : ℝ) (htol : 0 < tol) :
    ∃ p₀ : ℕ, ∃ ε₀ > 0, ∀ p ≥ p₀, ∀ ε ≤ ε₀, ∀ F, Accurate p ε F →
      ∃ h : Fin nS → Fin nM → Fin K → ℝ,
        simulateRirFloat F w (boxRoom L lo hi fs c) (aimedPoints src As) (aimedPoints mic Am)
          (directionalArgs sel K cfg sp mp) = .ok (tensor3 h) ∧
        ∀ s m k, |h s m k - rir (setupFor w cfg L lo hi fs c) sel.images (ps.towards (As.axis s))
          (pm.towards (Am.axis m)) (src s) (mic m) k| < tol := by
  set S := setupFor w cfg L lo hi fs c with hSdef
  have e1 : ∀ᶠ q : ℝ × ℝ in 𝓝 (0, 0), ∀ s m,
      directionalError S sel.images q.1 q.2 ps pm (As.axis s) (Am.axis m) (src s) (mic m) < tol := by
    rw [eventually_all]
    intro s
    rw [eventually_all]
    intro m
    have ht : Tendsto (fun q : ℝ × ℝ => directionalError S sel.images q.1 q.2 ps pm (As.axis s) (Am.axis m) (src s) (mic m))
        (𝓝 (0, 0)) (𝓝 0) := by
      unfold directionalError
      have h0 : ∑ n ∈ sel.images, |wallGain S.lo S.hi n| / pathLength (mic m) (image S.L (src s) n)
          * ((1 + 0) ^ sel.images.card * (1 * (1 + 0)) - 1) = (0 : ℝ) := by simp
      have hfst : Tendsto (fun q : ℝ × ℝ => q.1) (𝓝 (0, 0)) (𝓝 0) := continuous_fst.tendsto (0, 0)
      have key := tendsto_finsetSum sel.images fun n hn => (((((tendsto_const_nhds (x := (1 : ℝ))).add hfst).pow
        sel.images.card).mul
        ((gainFactor_limit S ps pm (As.axis s) (Am.axis m) (src s) (mic m) n (fun h => hss h s m n hn)
          (fun h => hmm h s m n hn)).mul
        ((tendsto_const_nhds (x := (1 : ℝ))).add (imageError_limit S (src s) (mic m) n (hw s m n hn))))).sub
          (tendsto_const_nhds (x := (1 : ℝ)))).const_mul
            (|wallGain S.lo S.hi n| / pathLength (mic m) (image S.L (src s) n))
      rw [h0] at key
      exact key
    exact ht.eventually_lt_const htol
  have e2 : ∀ᶠ q : ℝ × ℝ in 𝓝 (0, 0), 16 * (cfg.fracDelayLength : ℝ) * q.1 + 5 * q.2 < 1 / 10 := by
    have hc : Continuous fun q : ℝ × ℝ => 16 * (cfg.fracDelayLength : ℝ) * q.1 + 5 * q.2 := by fun_prop
    exact hc.continuousAt.eventually_lt continuousAt_const (by norm_num)
  have e3 : ∀ᶠ q : ℝ × ℝ in 𝓝 (0, 0), ∀ s m, ∀ n ∈ sel.images,
      100 * q.1 * pathScale L (src s) (mic m) n < Spec.dist (mic m) (image L (src s) n) := by
    rw [eventually_all]
    intro s
    rw [eventually_all]
    intro m
    rw [eventually_all_finset]
    intro n hn
    have hc : Continuous fun q : ℝ × ℝ => 100 * q.1 * pathScale L (src s) (mic m) n := by fun_prop
    refine hc.continuousAt.eventually_lt continuousAt_const ?_
    have : 0 < Spec.dist (mic m) (image L (src s) n) := by
      rw [← fnorm_sub_eq]
      exact fnorm_pos (sub_ne_zero.mpr (hne s m n hn).symm)
    simpa using this
  obtain ⟨η, hη, hball⟩ := Metric.eventually_nhds_iff.mp (e1.and (e2.and e3))
  obtain ⟨p₁, hp₁⟩ := exists_pow_lt_of_lt_one hη (show (2⁻¹ : ℝ) < 1 by norm_num)
  refine ⟨max (max p₁ 14) cfg.sincLutGranularity.toNat, η / 2, by positivity, fun p hp ε hε F hF => ?_⟩
  have hp14 : 14 ≤ p := le_trans (le_trans (le_max_right _ _) (le_max_left _ _)) hp
  have hε0 : 0 ≤ ε := (abs_nonneg _).trans (hF.sinc 0)
  have hu0 : 0 < roundoff p := by unfold roundoff; positivity
  have hu : roundoff p < η := by
    refine lt_of_le_of_lt ?_ hp₁
    unfold roundoff
    exact pow_le_pow_of_le_one (by norm_num) (by norm_num)
      (le_trans (le_trans (le_max_left _ _) (le_max_left _ _)) hp)
  obtain ⟨q1, q2, q3⟩ := hball (y := (roundoff p, ε)) (by
    rw [Prod.dist_eq, max_lt_iff, Real.dist_eq, Real.dist_eq]
    simp only [sub_zero]
    rw [abs_of_pos hu0, abs_of_nonneg hε0]
    exact ⟨hu, by linarith⟩)
  have hgran : cfg.sincLutGranularity ≤ 2 ^ p := by
    have h1 : cfg.sincLutGranularity.toNat ≤ p := le_trans (le_max_right _ _) hp
    have h2 : p < 2 ^ p := Nat.lt_two_pow_self
    have h3 : ((2 ^ p : ℕ) : ℤ) = 2 ^ p := by push_cast; ring
    omega
  obtain ⟨h, h1, h2⟩ := C105_static hd hS hM p hp14 ε F hF w L lo hi fs c hfs hc sel K hK cfg hcfg hoff
    hgran q2.le src As mic Am ps pm sp mp hps hpm hus hum (fun s m n hn => (q3 s m n hn).le)
  exact ⟨h, h1, fun s m k => (h2 s m k).trans_lt (q1 s m)⟩

/-! ## Half-omni devices at a right angle -/

/-- Rounding to nearest that treats both signs alike. -/
noncomputable def oddNearest (p : ℕ) (x : ℝ) : ℝ := if x < 0 then -toNearest p (-x) else toNearest p x

theorem oddNearest_neg (p : ℕ) {x : ℝ} (hx : 0 < x) : oddNearest p (-x) = -oddNearest p x := by
  unfold oddNearest
  rw [if_pos (by linarith), if_neg (by linarith), neg_neg]

theorem oddNearest_rounds {p : ℕ} (hp : 1 ≤ p) : RoundsToNearest p (oddNearest p) := by
  intro x
  unfold oddNearest
  split
  · obtain ⟨⟨m, e, hm, he⟩, h2⟩ := toNearest_rounds hp (-x)
    refine ⟨⟨-m, e, by rwa [abs_neg], by rw [he]; push_cast; ring⟩, ?_⟩
    rintro y ⟨m', e', hm', rfl⟩
    have := h2 (-(m' * (2 : ℝ) ^ e')) ⟨-m', e', by rwa [abs_neg], by push_cast; ring⟩
    rw [← abs_neg (-toNearest p (-x) - x), ← abs_neg (↑m' * (2 : ℝ) ^ e' - x)]
    convert this using 2 <;> ring
  · exact toNearest_rounds hp x

/-- A machine whose sums are a little too large. -/
noncomputable def upwardFloats (p : ℕ) : Floats :=
  { nearestFloats p 0 with
    fl := oddNearest p
    sum := fun l => oddNearest p (l.sum + 2 * roundoff p * (l.map fun x => |x|).sum) }

theorem upwardFloats_accurate {p : ℕ} (hp : 14 ≤ p) : Accurate p (roundoff p) (upwardFloats p) := by
  have hr := rounds_of_nearest hp (oddNearest_rounds (p := p) (by omega))
  have h0 := nearestFloats_accurate hp (s := 0) le_rfl (by have := hr.pos; linarith)
  refine ⟨oddNearest_rounds (by omega), h0.norm, h0.pow, h0.prod, fun l _ => ?_, h0.cos, h0.sin, h0.sinc, h0.window_length,
    h0.window, h0.lut_length, h0.lut, h0.order⟩
  set u := roundoff p
  have hu := hr.pos
  have hu' := hr.small
  set T := (l.map fun x => |x|).sum with hT
  have h1 : |l.sum| ≤ T := abs_sum_le_list l
  have hT0 : 0 ≤ T := (abs_nonneg _).trans h1
  have h2 := hr.near (l.sum + 2 * u * T)
  have h3 : |l.sum + 2 * u * T| ≤ T + 2 * u * T := by
    refine (abs_add_le _ _).trans ?_
    rw [abs_of_nonneg (show 0 ≤ 2 * u * T by positivity)]
    linarith
  have h4 := mul_le_mul_of_nonneg_left h3 hu.le
  have h5 : u * (T + 2 * u * T) ≤ 2 * u * T := by
    have : u * (u * T) ≤ 1 / 10000 * (u * T) := mul_le_mul_of_nonneg_right hu' (by positivity)
    nlinarith [mul_nonneg hu.le hT0]
  show |oddNearest p (l.sum + 2 * u * T) - l.sum| ≤ 4 * u * T
  have h6 : 0 ≤ u * T := by positivity
  rw [abs_le] at h2 ⊢
  constructor <;> linarith [h2.1, h2.2]

theorem halfomni_lower : "halfomni".toLower = "halfomni" := by
  apply String.toList_inj.mp; simp [String.toLower, String.toList_map]

theorem rounds_pos {u : ℝ} {fl : ℝ → ℝ} (h : Rounds u fl) {x : ℝ} (hx : 0 < x) : 0 < fl x := by
  have h1 := h.near x
  rw [abs_of_pos hx, abs_le] at h1
  have := mul_le_mul_of_nonneg_right h.small hx.le
  linarith [h1.1]

/-- On that machine a half-omni device hears what is exactly beside it. -/
theorem upward_deviceGain {p : ℕ} (hp : 14 ≤ p) {x y : ℝ} (hx : 0 < x) (hy : 0 < y) (g : ℝ) :
    (upwardFloats p).deviceGain "halfomni" [x, x] ((upwardFloats p).normalizeVec [y, -y]) g
      = .ok ((upwardFloats p).fl (g * 1)) := by
  have hA := upwardFloats_accurate hp
  set F := upwardFloats p with hF
  have hr : Rounds (roundoff p) F.fl := rounds_of_nearest hp hA.fl
  have hodd : ∀ {z : ℝ}, 0 < z → F.fl (-z) = -F.fl z := fun h => oddNearest_neg p h
  have hnv : ∀ {z : ℝ}, 0 < z → ∃ z' : ℝ, 0 < z' ∧ F.normalizeVec [z, -z] = [z', -z'] := by
    intro z hz
    have hM : 0 < max (F.norm [z, -z]) (F.fl 1e-8) :=
      lt_max_of_lt_right (rounds_pos hr (by norm_num))
    refine ⟨F.fl (z / max (F.norm [z, -z]) (F.fl 1e-8)), rounds_pos hr (by positivity), ?_⟩
    unfold Floats.normalizeVec
    simp only [List.map_cons, List.map_nil]
    rw [neg_div, hodd (by positivity)]
  have hN : 0 < F.norm [x, x] := by
    have h1 := hA.norm [x, x] (by simp)
    have h2 : 0 < Real.sqrt (([x, x].map fun z => z ^ 2).sum) := by
      apply Real.sqrt_pos.mpr
      simp
      positivity
    rw [abs_le] at h1
    have := mul_le_mul_of_nonneg_right hr.small h2.le
    linarith [h1.1]
  obtain ⟨y', hy', e1⟩ := hnv hy
  obtain ⟨b, hb, e2⟩ := hnv hy'
  unfold Floats.deviceGain
  rw [if_neg (by decide), e1, if_neg (by simp)]
  unfold Floats.cosBetween
  rw [if_neg hN.ne', e2]
  simp only [List.map_cons, List.map_nil, List.zipWith_cons_cons, List.zipWith_nil_left]
  set a := F.fl (x / F.norm [x, x])
  have ha : 0 < a := rounds_pos hr (by positivity)
  have hq : 0 < F.fl (a * b) := rounds_pos hr (by positivity)
  rw [mul_neg, hodd (by positivity)]
  set q := F.fl (a * b)
  have hs : 0 < F.sum [q, -q] := by
    have : F.sum [q, -q] = F.fl (2 * roundoff p * (q + q)) := by
      show oddNearest p _ = oddNearest p _
      congr 1
      simp [abs_of_pos hq]
    rw [this]
    exact rounds_pos hr (by have := hr.pos; positivity)
  unfold Floats.gainAt Floats.directivityGain
  simp only [halfomni_lower]
  rw [if_neg (by decide), if_pos (by decide), if_pos hs]
  rfl

/-- **C105, half-omni devices (negative).** Nor does precision alone help a half-omni device that
sees the other one at a right angle: for every precision there is a machine, its sums too large by
two roundings, that hears the source at full strength.  Exactly, the response is zero. -/
theorem C105_half_omni_fails (p : ℕ) (hp : 14 ≤ p) (w : World) :
    ∃ F, Accurate p (roundoff p) F ∧ ∃ h : Fin 1 → Fin 1 → Fin 3 → ℝ,
      simulateRirFloat F w (boxRoom ![4, 4] ![0.9, 0.8] ![0.7, 0.6] 1 1)
        (aimedPoints ![![1, 1]] (.vectors ![![1, -1]])) (aimedPoints ![![1.75, 1.75]] (.vectors ![![1, 0]]))
        (directionalArgs (d := 2) (.order 0) 3 { rirHpfEnable := false, fracDelayLength := 1 } "halfomni" "omni")
        = .ok (tensor3 h) ∧
      1 / 2 ≤ h 0 0 1 ∧
      ∀ k, rir (setupFor w { rirHpfEnable := false, fracDelayLength := 1 } ![4, 4] ![0.9, 0.8] ![0.7, 0.6] 1 1)
        (orderSet 2 0) (Pattern.halfOmni.towards ![1, -1]) (Pattern.omni.towards ![1, 0])
        ![1, 1] ![1.75, 1.75] k = 0 := by
  set cfg : Config := { rirHpfEnable := false, fracDelayLength := 1 } with hcfgdef
  have hcfg : cfg.validate = .ok () := by
    rw [Config.valid_iff]; norm_num [hcfgdef]; exact ⟨nofun, nofun, nofun, nofun⟩
  set u := roundoff p with hu
  have hF := upwardFloats_accurate hp
  set F := upwardFloats p with hFdef
  have hr : Rounds u F.fl := rounds_of_nearest hp hF.fl
  have hu0 : 0 < u := hr.pos
  have hus : u ≤ 1 / 10000 := hr.small
  have hsmall : 16 * ((cfg.fracDelayLength.toNat : ℕ) : ℝ) * u + 5 * u ≤ 1 / 10 := by
    norm_num [hcfgdef]; linarith
  have hgran : cfg.sincLutGranularity.toNat ≤ 2 ^ p := by
    have : (2 : ℕ) ^ 14 ≤ 2 ^ p := Nat.pow_le_pow_right (by norm_num) hp
    have h2 : cfg.sincLutGranularity.toNat ≤ 2 ^ 14 := by norm_num [hcfgdef]
    exact h2.trans this
  obtain ⟨f, hf1, hf2⟩ := tapFilter_err hF hr (by norm_num [hcfgdef]) (by norm_num [hcfgdef])
    hgran (cfg.useLut && w.device ≠ .mps) hsmall
  have hzero : ∀ n ∈ orderSet 2 0, n = 0 := by
    intro n hn
    have h1 : ∑ i, |n i| ≤ ((0 : ℕ) : ℤ) := (mem_orderSet n).mp hn
    have h2 : ∑ i, |n i| = 0 := le_antisymm (by simpa using h1) (Finset.sum_nonneg fun i _ => abs_nonneg _)
    funext i
    have := (Finset.sum_eq_zero_iff_of_nonneg (fun i _ => abs_nonneg (n i))).mp h2 i (Finset.mem_univ i)
    exact abs_eq_zero.mp this
  have hone : orderSet 2 0 = {0} := by
    ext n
    rw [Finset.mem_singleton]
    refine ⟨hzero n, ?_⟩
    rintro rfl
    rw [mem_orderSet]
    simp
  have himg : image (![4, 4] : Fin 2 → ℝ) ![1, 1] 0 = ![1, 1] := by
    funext i
    fin_cases i <;> norm_num [image_eq, imageSign]
  have hdist : Spec.dist (![1.75, 1.75] : Fin 2 → ℝ) ![1, 1] = Real.sqrt 1.125 := by
    norm_num [Spec.dist, Fin.sum_univ_two]
  have hd1 : (1.06 : ℝ) ≤ Real.sqrt 1.125 := Real.le_sqrt_of_sq_le (by norm_num)
  have hd2 : Real.sqrt 1.125 ≤ (1.061 : ℝ) := Real.sqrt_le_iff.mpr (by norm_num)
  have hlen : pathLength (![1.75, 1.75] : Fin 2 → ℝ) ![1, 1] = Real.sqrt 1.125 := by
    rw [pathLength, hdist, max_eq_left (by linarith)]
  generalize Real.sqrt 1.125 = r at hd1 hd2 hlen
  have hscale : pathScale (![4, 4] : Fin 2 → ℝ) ![1, 1] ![1.75, 1.75] 0 = 1e-6 + 9.5 := by
    unfold pathScale
    rw [himg]
    norm_num [Fin.sum_univ_two, abs_of_pos]
  have hw : wallGain (![0.9, 0.8] : Fin 2 → ℝ) ![0.7, 0.6] 0 = 1 := by
    norm_num [wallGain, absorbed, Fin.prod_univ_two]
  obtain ⟨nVec, sd, md, hPok⟩ := directionalPlan_ok (nS := 1) (nM := 1) (Or.inl rfl) (by norm_num) (by norm_num)
    ![4, 4] ![0.9, 0.8] ![0.7, 0.6] 1 1 (.order 0) 3 (by norm_num) cfg hcfg .halfOmni .omni "halfomni" "omni"
    (by rw [halfomni_lower]; decide) omni_lower (.vectors ![![1, -1]]) (.vectors ![![1, 0]])
    (by intro s; fin_cases s; refine Real.le_sqrt_of_sq_le ?_; norm_num [Aim.axis, Fin.sum_univ_two])
    (by intro s; fin_cases s; refine Real.le_sqrt_of_sq_le ?_; norm_num [Aim.axis, Fin.sum_univ_two]) none
  have hP : StaticPlan (boxRoom ![4, 4] ![0.9, 0.8] ![0.7, 0.6] 1 1)
      (aimedPoints ![![1, 1]] (.vectors ![![1, -1]])) (aimedPoints ![![1.75, 1.75]] (.vectors ![![1, 0]]))
      (directionalArgs (d := 2) (.order 0) 3 cfg "halfomni" "omni") ![4, 4] ![![1, 1]] ![![1.75, 1.75]]
      (directionalPlan ![0.9, 0.8] ![0.7, 0.6] (.order 0) 3 cfg "halfomni" "omni" (.vectors ![![1, -1]]) (.vectors ![![1, 0]])
        nVec sd md) := by
    refine ⟨hPok _ ?_, ⟨_, rfl, rfl⟩, ⟨_, rfl, rfl⟩⟩
    rintro s m v ⟨n, hn, rfl⟩ h0
    rw [hzero n hn] at h0
    fin_cases s; fin_cases m
    have h1 := congrFun h0 0
    simp only [Pi.sub_apply] at h1
    have h2 := congrFun himg 0
    norm_num at h1 h2
    linarith
  obtain ⟨ns, hns, hnd, hmem⟩ := hP.imgA.exists_list
  obtain ⟨sdF, mdF, r1, r2, r3, r4, r5, r6⟩ := resolveDirs_float (nS := 1) (nM := 1) F (Or.inl rfl)
    ![![1, -1]] ![![1, 0]] "halfomni" "omni"
  choose mv hmv hmv' using r6
  have hvec : ∃ x > 0, List.ofFn (vecFloat F ![4, 4] ![1, 1] ![1.75, 1.75] (0 : Fin 2 → ℤ)) = [x, x] := by
    have fl0 : F.fl 0 = 0 := by simpa using fl_nat hF.fl (n := 0) (by positivity)
    have fl1 : F.fl 1 = 1 := by simpa using fl_nat hF.fl (n := 1) Nat.one_le_two_pow
    refine ⟨F.fl 0.75, rounds_pos hr (by norm_num), ?_⟩
    norm_num [List.ofFn_succ, vecFloat, Floats.imageBase, imageSign, fl0, fl1]
  obtain ⟨x, hx, hvec⟩ := hvec
  have hsrc : ∀ (s m : Fin 1), ∀ n ∈ orderSet 2 0,
      F.deviceGain "halfomni" (List.ofFn (vecFloat F ![4, 4] ((![![1, 1]] : Fin 1 → Fin 2 → ℝ) s)
          ((![![1.75, 1.75]] : Fin 1 → Fin 2 → ℝ) m) n)) ((sdF.getD []).getD s [])
        (floatRefl F ![0.9, 0.8] ![0.7, 0.6] n) = .ok (F.fl (floatRefl F ![0.9, 0.8] ![0.7, 0.6] n * 1)) := by
    intro s m n hn
    rw [hzero n hn, r5 s (by decide)]
    have hs : s = 0 := Subsingleton.elim _ _
    have hm : m = 0 := Subsingleton.elim _ _
    subst hs hm
    have e : List.ofFn ((![![1, -1]] : Fin 1 → Fin 2 → ℝ) 0) = [1, -1] := by simp [List.ofFn_succ]
    rw [e]
    show F.deviceGain "halfomni" (List.ofFn (vecFloat F ![4, 4] ![1, 1] ![1.75, 1.75] 0)) _ _ = _
    rw [hvec]
    exact upward_deviceGain hp hx one_pos _
  obtain ⟨H, hH, hH'⟩ := hP.evalFloat w F orderRel_perm
    (fun i j => covers_of_perm (hF.order i j)) (floatTap_spec F hf1 _) hns r2 r1
    (g := fun _ _ _ n => F.fl (floatRefl F ![0.9, 0.8] ![0.7, 0.6] n * 1))
    ⟨r3, r4, fun m => ⟨mv m, hmv m, fun _ s n hn => ⟨F.fl (floatRefl F ![0.9, 0.8] ![0.7, 0.6] n * 1),
      hsrc s m n ((hmem n).mp hn), rfl⟩⟩⟩
  refine ⟨F, hF, fun s m k => H s m k, ?_, ?_, ?_⟩
  · rw [hH]
    have hoff : cfg.rirHpfEnable = false := by rw [hcfgdef]
    exact applyRirHpf_off w (1 : ℝ) cfg hoff (tensor3 fun s m (k : Fin 3) => H s m k)
  · obtain ⟨l, hl, e⟩ := hH' 0 0 1 (show 1 < 3 by norm_num)
    show 1 / 2 ≤ H 0 0 1
    rw [e]
    set S := setupFor w cfg ![4, 4] ![0.9, 0.8] ![0.7, 0.6] 1 1 with hS
    have key := response_err (S := S) hp hF (Or.inl rfl) (by norm_num [hS, setupFor, hcfgdef])
      (show 0 < cfg.sincLutGranularity.toNat by norm_num [hcfgdef]) rfl
      (by norm_num [hS, setupFor]) (by norm_num [hS, setupFor]) hsmall hf2
      ![1, 1] ![1.75, 1.75] (orderSet 2 0) (fun n hn => ?_) hnd hmem 1
      (gs := omni) (gm := omni) (γ := fun _ => 1) (Γ := fun _ => 1)
      (g := fun n => F.fl (floatRefl F ![0.9, 0.8] ![0.7, 0.6] n * 1))
      (fun n hn => ?_) (fun n _ => by simp [omni]) (fun n _ => by simp [omni]) hl
    · rw [hone, Finset.sum_singleton, Finset.card_singleton] at key
      have hk : 1 - 1.6 * 0.061 ≤ kernel S.shape S.fdl (r * S.fs / S.c) 1 := by
        have e1 : S.fdl = 1 := by norm_num [hS, setupFor, hcfgdef]
        have e2 : r * S.fs / S.c = r := by norm_num [hS, setupFor]
        have e3 : ⌊r⌋ = 1 := by
          rw [Int.floor_eq_iff]
          norm_num
          constructor <;> linarith
        have h1 := kernelShape_lipschitz (cfg.useLut && w.device ≠ .mps)
          (show 0 < cfg.sincLutGranularity.toNat by norm_num [hcfgdef]) (1 - r) 0
        have h2 : kernelShape (cfg.useLut && w.device ≠ .mps) cfg.sincLutGranularity.toNat 0 = 1 := by
          cases (cfg.useLut && w.device ≠ .mps) <;> norm_num [kernelShape, gridLerp, Spec.sinc]
        rw [h2, sub_zero, abs_of_neg (show 1 - r < 0 by linarith)] at h1
        have h3 : Real.pi / 2 * -(1 - r) ≤ 1.6 * 0.061 :=
          mul_le_mul (by linarith [Real.pi_lt_d2]) (by linarith) (by linarith) (by norm_num)
        have h4 : kernel S.shape S.fdl (r * S.fs / S.c) 1
            = kernelShape (cfg.useLut && w.device ≠ .mps) cfg.sincLutGranularity.toNat (1 - r) := by
          rw [e1, e2]
          unfold kernel
          rw [e3]
          norm_num [hann, hS, setupFor]
        rw [h4]
        linarith [(abs_le.mp h1).1]
      have hrir : rir S {0} omni omni ![1, 1] ![1.75, 1.75] 1
          = kernel S.shape S.fdl (r * S.fs / S.c) 1 / r := by
        unfold rir
        rw [Finset.sum_singleton]
        simp only [hS, setupFor, himg, hlen, omni, hw]
        ring
      rw [hrir] at key
      set κ := kernel S.shape S.fdl (r * S.fs / S.c) 1
      have hδ : delayError S u (1e-6 + 9.5) ≤ 0.02 := by
        norm_num [delayError, hS, setupFor, hcfgdef]
        linarith
      have hδ0 : 0 ≤ delayError S u (1e-6 + 9.5) := by
        norm_num [delayError, hS, setupFor, hcfgdef]
        positivity
      have hie : imageError S u u ![1, 1] ![1.75, 1.75] 0 ≤ 0.11 := by
        have hstep : stepError S (r * S.fs / S.c) (delayError S u (1e-6 + 9.5)) = 0 := by
          unfold stepError
          rw [if_neg]
          rintro ⟨z, hz⟩
          have e2 : r * S.fs / S.c = r := by norm_num [hS, setupFor]
          rw [e2, abs_le] at hz
          have h1 : (0 : ℝ) < z := by linarith
          have h2 : (z : ℝ) < 2 := by linarith
          have h3 : z = 1 := by
            have : 0 < z := by exact_mod_cast h1
            have : z < 2 := by exact_mod_cast h2
            omega
          rw [h3] at hz
          norm_num at hz
          linarith
        have hr1 : (1e-6 + 9.5) / r ≤ 9.1 := by
          rw [div_le_iff₀ (by linarith)]
          linarith
        have hr0 : 0 ≤ (1e-6 + 9.5) / r := by positivity
        have h5 : 53 * u * ((1e-6 + 9.5) / r) ≤ 53 * (1 / 10000) * 9.1 :=
          mul_le_mul (by linarith) hr1 hr0 (by norm_num)
        have hL : S.L = ![4, 4] := rfl
        have hfdl : (S.fdl : ℝ) = 1 := by norm_num [hS, setupFor, hcfgdef]
        unfold imageError
        simp only [hL, himg, hlen, hscale]
        rw [hstep, hfdl]
        linarith
      have hL : S.L = ![4, 4] := rfl
      have hlo : S.lo = ![0.9, 0.8] := rfl
      have hhi : S.hi = ![0.7, 0.6] := rfl
      rw [hL, hlo, hhi, himg, hlen, hw] at key
      have h6 : (1 + u) ^ 1 * (1 * (1 + imageError S u u ![1, 1] ![1.75, 1.75] 0)) - 1 ≤ 0.2 := by
        have := mul_le_mul (show 1 + u ≤ 1.0001 by linarith)
          (show 1 + imageError S u u ![1, 1] ![1.75, 1.75] 0 ≤ 1.11 by linarith)
          (by have := imageError_nonneg (S := S) (by norm_num [hS, setupFor]) (by norm_num [hS, setupFor]) hu0.le hu0.le ![1, 1] ![1.75, 1.75] 0; linarith) (by norm_num)
        rw [pow_one, one_mul]
        linarith
      have h7 := mul_le_mul_of_nonneg_left h6 (show 0 ≤ |(1 : ℝ)| / r by positivity)
      have h8 : |(1 : ℝ)| / r * 0.2 ≤ 0.2 := by
        rw [abs_one]
        refine mul_le_of_le_one_left (by norm_num) ?_
        rw [div_le_one (by linarith)]
        linarith
      have h9 : 0.8 ≤ κ / r := by
        rw [le_div_iff₀ (by linarith)]
        linarith
      have := (abs_le.mp key).1
      linarith
    · have : 1e-6 + 9.5 ≤ (10 : ℝ) := by norm_num
      rw [hzero n hn]
      show 100 * u * pathScale ![4, 4] ![1, 1] ![1.75, 1.75] 0 ≤ pathLength ![1.75, 1.75] (image ![4, 4] ![1, 1] 0)
      rw [himg, hlen, hscale]
      nlinarith
    · have h1 := reflection_err hr hF.pow hF.prod (Or.inl rfl) ![0.9, 0.8] ![0.7, 0.6] n
      have h2 := hr.near (floatRefl F ![0.9, 0.8] ![0.7, 0.6] n * 1)
      rw [hzero n hn, hw] at h1
      show |F.fl (floatRefl F ![0.9, 0.8] ![0.7, 0.6] n * 1) - wallGain ![0.9, 0.8] ![0.7, 0.6] n * 1|
        ≤ 35 * u * |wallGain ![0.9, 0.8] ![0.7, 0.6] n * 1|
      rw [hzero n hn, hw] at *
      simp only [mul_one] at h2 ⊢
      set ρ := floatRefl F ![0.9, 0.8] ![0.7, 0.6] (0 : Fin 2 → ℤ)
      rw [abs_one, abs_le] at h1
      rw [abs_of_nonneg (a := ρ) (by linarith [h1.1]), abs_le] at h2
      rw [abs_one, abs_le]
      have h3 : u * ρ ≤ u * 2 := mul_le_mul_of_nonneg_left (by linarith [h1.2]) hu0.le
      constructor <;> linarith [h1.1, h1.2, h2.1, h2.2]
  · intro k
    have hcos : cosAngle (![1.75, 1.75] - ![1, 1]) (![1, -1] : Fin 2 → ℝ) = 0 := by
      unfold cosAngle
      norm_num [Fin.sum_univ_two]
    unfold rir
    rw [hone, Finset.sum_singleton]
    simp only [setupFor, himg, Pattern.towards, hcos]
    norm_num [Pattern.gain]

/-! ## Exact arithmetic -/

theorem exact_cosBetween (v o : Vec) : exactFloats.cosBetween v o = cosBetween v o := rfl
theorem exact_gainAt (p : String) (c : Option ℝ) : exactFloats.gainAt p c = gainAt p c := by cases c <;> rfl
theorem exact_directivityGain (p : String) (c : ℝ) : exactFloats.directivityGain p c = directivityGain p c := rfl
theorem exact_reflection (n : List (List ℤ)) (b : List ℝ) :
    exactFloats.reflectionCoefficients n b = reflectionCoefficients n b := rfl
theorem exact_deviceGain (p : String) (v d : Vec) (g : ℝ) :
    exactFloats.deviceGain p v d g = (do let x ← deviceGain p v d; return g * x) := by
  unfold Floats.deviceGain deviceGain
  split
  · simp [ok_bind, pure, Except.pure]
  · split
    · rfl
    · rw [exact_cosBetween, exact_gainAt]
      rfl
theorem exact_pathContribution (img mic : Vec) (refl c fs : ℝ) (k : ℕ) (sp mp : String) (sd md : Vec) :
    exactFloats.pathContribution img mic refl c fs k sp mp sd md
      = pathContribution img mic refl c fs k sp mp sd md := by
  unfold Floats.pathContribution pathContribution
  simp only [exact_deviceGain]
  have e : List.zipWith (fun a b => exactFloats.fl (a - b)) mic img = vsub mic img := rfl
  rw [e]
  cases deviceGain sp (vsub mic img) sd with
  | error e => rfl
  | ok g =>
    simp only [ok_bind]
    cases deviceGain mp (vneg (vsub mic img)) md with
    | error e => rfl
    | ok g' => rfl

theorem exact_images (src L : Vec) (ns : List (List ℤ)) (refl : List ℝ) (mic : Vec) (c fs : ℝ) (k : ℕ)
    (sp mp : String) (sd md : Vec) (imgs : List Vec)
    (hi : imgs = ns.map fun n => exactFloats.imagePosition src L n) :
    exactFloats.contributions src mic L ns refl c fs k sp mp sd md
      = (imgs.zip refl).mapM fun (p, r) => pathContribution p mic r c fs k sp mp sd md := by
  unfold Floats.contributions
  simp only [exact_pathContribution]
  subst hi
  rw [List.zip_map_left, List.mapM_map]
  rfl

theorem exact_imagePositionsBatch (srcs : List Vec) (L : Vec) (ns : List (List ℤ)) :
    imagePositionsBatch srcs L ns = srcs.map fun src => ns.map fun n => exactFloats.imagePosition src L n := by
  unfold imagePositionsBatch
  refine List.map_congr_left fun src _ => ?_
  rw [List.zipWith_map, List.zipWith_self]
  refine List.map_congr_left fun n _ => ?_
  unfold Floats.imagePosition
  rw [List.zipWith_map_left]
  rfl

theorem exact_contributionsBatch (srcs mics : List Vec) (L : Vec) (ns : List (List ℤ)) (refl : List ℝ)
    (c fs : ℝ) (k : ℕ) (sp mp : String) (sd : Option (List Vec)) (md : Option MicDir) :
    exactFloats.contributionsBatch srcs mics L ns refl c fs k sp mp sd md
      = contributionsBatch srcs mics L ns refl c fs k sp mp sd md := by
  unfold Floats.contributionsBatch contributionsBatch
  rw [exact_imagePositionsBatch]
  simp only [List.zipIdx_map, List.mapM_map, Function.comp_def, Prod.map]
  simp only [exact_images _ _ _ _ _ _ _ _ _ _ _ _ _ rfl, id]

theorem exact_contributionsTimeBatch (srcs mics : List (List Vec)) (L : Vec) (ns : List (List ℤ)) (refl : List ℝ)
    (c fs : ℝ) (k : ℕ) (sp mp : String) (sd : Option (List Vec)) (md : Option MicDir) :
    exactFloats.contributionsTimeBatch srcs mics L ns refl c fs k sp mp sd md
      = contributionsTimeBatch srcs mics L ns refl c fs k sp mp sd md := by
  unfold Floats.contributionsTimeBatch contributionsTimeBatch
  have e : ∀ src : Vec, List.zipWith
          (fun b sg => List.zipWith (· + ·) b (List.zipWith (· * ·) sg src))
          ((ns.map fun n => n.map fun i => (((i + 1) / 2 : ℤ) : ℝ)).map fun h =>
            List.zipWith (fun l x => 2 * l * x) L h)
          (ns.map fun n => n.map fun i => if i % 2 = 0 then (1 : ℝ) else -1)
      = ns.map fun n => exactFloats.imagePosition src L n := by
    intro src
    rw [List.map_map, List.zipWith_map, List.zipWith_self]
    refine List.map_congr_left fun n _ => ?_
    unfold Floats.imagePosition
    simp only [Function.comp]
    rw [List.zipWith_map_left, List.zipWith_map_right]
    rfl
  simp only [exact_images _ _ _ _ _ _ _ _ _ _ _ _ _ rfl, e]

theorem exact_accumulate (img : ℕ) (cfg : Config) (dev : DeviceType) (n k : ℕ) (buf : List ℝ)
    (rows : List (List (ℝ × ℝ))) :
    exactFloats.accumulate img cfg dev n k buf rows
      = accumulateRirBatchWith exactAdder img cfg dev n k buf (rows.map (·.map Prod.fst))
        (rows.map (·.map Prod.snd)) := by
  unfold Floats.accumulate
  simp only [exact_tapEntries]
  rfl

/-- **C105, exact arithmetic.** With exact real arithmetic the floating-point simulations are the ones
of the real-number model, for all inputs whatsoever: any patterns, orientation vectors or angles, with
the filter and the tail, and for inputs that are rejected. -/
theorem C105_exact (w : World) (room : Room) (a : SimArgs) :
    (∀ sources mics, simulateRirFloat exactFloats w room sources mics a
      = simulateRir w room sources mics a) ∧
    ∀ srcTraj micTraj, simulateDynamicRirFloat exactFloats w room srcTraj micTraj a
      = simulateDynamicRir w room srcTraj micTraj a := by
  refine ⟨fun sources mics => ?_, fun srcTraj micTraj => ?_⟩
  · rw [← (C102_exact w room a).1]
    unfold simulateRirFloat simulateRirWith
    simp only [exact_resolveMicDir, exact_resolveSrcDirs, exact_contributionsBatch, exact_accumulate,
      exact_reflection]
  · rw [← (C102_exact w room a).2]
    unfold simulateDynamicRirFloat simulateDynamicRirWith
    simp only [exact_resolveMicDir, exact_resolveSrcDirs, exact_contributionsTimeBatch, exact_accumulate,
      exact_reflection]

end Torchrir.Props
