import Verif.Lemmas.Directivity
import Verif.Props.Static

/-!
# C05 for directional devices, and C07: no cross-talk between pairs
-/

namespace Torchrir.Props

open Torchrir.Model Torchrir.Spec Torchrir.Lemmas

/-! ## C05, directional -/

/-- Gains of the directional plan. -/
theorem gains_directional {d nS nM : ℕ} (hd : d = 2 ∨ d = 3) (ps pm : Pattern) (sp mp : String)
    (hps : sp.toLower ∈ ps.names) (hpm : mp.toLower ∈ pm.names)
    (us : Fin nS → Fin d → ℝ) (um : Fin nM → Fin d → ℝ)
    (hus : ∀ s, 1e-8 ≤ fnorm (us s)) (hum : ∀ m, 1e-8 ≤ fnorm (um m))
    (used : Fin nS → Fin nM → (Fin d → ℝ) → Prop) (hused : ∀ s m v, used s m v → v ≠ 0 ∨ ps.usesCosine = false ∧ pm.usesCosine = false) :
    ∃ sd md, resolveSrcDirs sp (some (tensor2 us)) d nS = .ok sd ∧
      resolveMicDir mp (some (tensor2 um)) d = .ok md ∧
      GainsOk sp mp sd md (fun s => ps.towards (us s)) (fun m => pm.towards (um m)) used := by
  by_cases hs : sp = "omni" <;> by_cases hm : mp = "omni"
  · subst hs hm
    refine ⟨none, none, rfl, rfl, by simp, by simp, fun s m v hv => ?_, fun m => ⟨[], rfl, ?_⟩⟩
    · exact deviceGain_eq ps "omni" hps v (us s) ((hused s m v hv).imp_right And.left) (hus s)
    · intro s v hv
      exact deviceGain_eq pm "omni" hpm (-v) (um m) ((hused s m v hv).imp neg_ne_zero.mpr And.right) (hum m)
  · subst hs
    refine ⟨none, _, rfl, resolveMicDir_tensor2 hd um mp hm, by simp, by simp, fun s m v hv => ?_,
      fun m => ⟨normalizeVec (List.ofFn (um m)), ?_, ?_⟩⟩
    · exact deviceGain_eq ps "omni" hps v (us s) ((hused s m v hv).imp_right And.left) (hus s)
    · simp only [micVec, micDirFor]
      rw [if_pos (by simp), getD_ofFn]
    · intro s v hv
      exact deviceGain_eq pm mp hpm (-v) (um m) ((hused s m v hv).imp neg_ne_zero.mpr And.right) (hum m)
  · subst hm
    refine ⟨_, none, resolveSrcDirs_tensor2 hd us sp hs, rfl, by simp, by simp, fun s m v hv => ?_,
      fun m => ⟨[], rfl, ?_⟩⟩
    · rw [Option.getD_some, getD_ofFn]
      exact deviceGain_eq ps sp hps v (us s) ((hused s m v hv).imp_right And.left) (hus s)
    · intro s v hv
      exact deviceGain_eq pm "omni" hpm (-v) (um m) ((hused s m v hv).imp neg_ne_zero.mpr And.right) (hum m)
  · refine ⟨_, _, resolveSrcDirs_tensor2 hd us sp hs, resolveMicDir_tensor2 hd um mp hm, by simp,
      by simp, fun s m v hv => ?_, fun m => ⟨normalizeVec (List.ofFn (um m)), ?_, ?_⟩⟩
    · rw [Option.getD_some, getD_ofFn]
      exact deviceGain_eq ps sp hps v (us s) ((hused s m v hv).imp_right And.left) (hus s)
    · simp only [micVec, micDirFor]
      rw [if_pos (by simp), getD_ofFn]
    · intro s v hv
      exact deviceGain_eq pm mp hpm (-v) (um m) ((hused s m v hv).imp neg_ne_zero.mpr And.right) (hum m)

/-- `simulate_rir` with a source pattern and a microphone pattern. -/
def directionalArgs {d : ℕ} (sel : Selection d) (K : ℕ) (cfg : Config) (sp mp : String) : SimArgs :=
  { omniArgs sel K cfg with directivity := some (.tuple [sp, mp]) }

/-- **C05, directional devices.** Each path is additionally weighted with the pattern of the
source towards the microphone and of the microphone towards the image.  (The source axis is
*not* mirrored together with the source, see C11.) -/
theorem C05_static_rir_formula_directional {d nS nM : ℕ} (hd : d = 2 ∨ d = 3) (hS : 0 < nS)
    (hM : 0 < nM) (w : World) (L lo hi : Fin d → ℝ) (fs c : ℝ) (hfs : 0 < fs) (_hc : 0 < c)
    (sel : Selection d) (K : ℕ) (hK : 0 < K)
    (cfg : Config) (hcfg : cfg.validate = .ok ()) (hoff : cfg.rirHpfEnable = false)
    (src us : Fin nS → Fin d → ℝ) (mic um : Fin nM → Fin d → ℝ)
    (ps pm : Pattern) (sp mp : String) (hps : sp.toLower ∈ ps.names) (hpm : mp.toLower ∈ pm.names)
    (hus : ∀ s, 1e-8 ≤ Real.sqrt (∑ i, us s i ^ 2))
    (hum : ∀ m, 1e-8 ≤ Real.sqrt (∑ i, um m i ^ 2))
    (hne : ∀ s m, ∀ n ∈ sel.images, image L (src s) n ≠ mic m) :
    simulateRir w (boxRoom L lo hi fs c) (orientedPoints src us) (orientedPoints mic um)
        (directionalArgs sel K cfg sp mp)
      = .ok (tensor3 fun s m (k : Fin K) =>
          rir (setupFor w cfg L lo hi fs c) sel.images (ps.towards (us s)) (pm.towards (um m))
            (src s) (mic m) k) := by
  obtain ⟨l, h1, h2⟩ := selection_images sel
  obtain ⟨sd, md, hsd, hmd, hg⟩ := gains_directional hd ps pm sp mp hps hpm us um hus hum
    (fun s m v => ∃ n ∈ sel.images, v = mic m - image L (src s) n) (by
      rintro s m v ⟨n, hn, rfl⟩
      exact Or.inl (sub_ne_zero.mpr (hne s m n hn).symm))
  have := simulateRir_core w (boxRoom L lo hi fs c) (orientedPoints src us) (orientedPoints mic um)
    (directionalArgs sel K cfg sp mp) L lo hi src mic hd hS hM rfl
    (resolveBeta_boxRoom hd L lo hi fs c) hfs.ne'
    (show _ = Except.ok (cfg, sel.maxOrder, cfg.tmax, .tuple [sp, mp]) by
      unfold resolveConfig directionalArgs omniArgs
      simp only [Option.getD_some]
      rw [hcfg, ok_bind]
      rfl)
    (validateArgs_omni _ sel K hK _)
    (show prepareEntity _ none true = .ok (tensor2 src, some (tensor2 us)) from rfl)
    (show prepareEntity _ none false = .ok (tensor2 mic, some (tensor2 um)) from rfl)
    rfl rfl h1 h2 (show splitDirectivity _ = .ok (sp, mp) from rfl) hmd hsd _ _ hg
  rw [this]
  show applyRirHpf _ _ _ _ = _
  rw [applyRirHpf_off _ _ _ hoff]
  rfl

/-- A cardioid source facing a figure-8 microphone. -/
example (w : World) : ∃ R, simulateRir w (boxRoom ![4, 5] ![0.9, 0.8] ![0.7, 0.6] 16000 343)
    (orientedPoints ![![1, 2]] ![![1, 0]]) (orientedPoints ![![3, 4]] ![![0, -2]])
    (directionalArgs (d := 2) (.order 0) 1000 { rirHpfEnable := false } "card" "figure8")
      = .ok R ∧ R.shape = [1, 1, 1000] := by
  refine ⟨_, C05_static_rir_formula_directional (Or.inl rfl) (by norm_num) (by norm_num) w
    ![4, 5] _ _ _ _ (by norm_num) (by norm_num) _ _ (by norm_num) _ plainConfig_valid rfl _ _ _ _
    .cardioid .bidirectional _ _ ?_ ?_ ?_ ?_ ?_, rfl⟩
  · rw [show "card".toLower = "card" by
      apply String.toList_inj.mp; simp [String.toLower, String.toList_map]]
    decide
  · rw [show "figure8".toLower = "figure8" by
      apply String.toList_inj.mp; simp [String.toLower, String.toList_map]]
    decide
  · intro s
    fin_cases s
    simp [Fin.sum_univ_two]
    norm_num
  · intro s
    fin_cases s
    simp [Fin.sum_univ_two]
    norm_num
  · intro s m n hn
    have h0 : n = 0 := by
      simp only [Selection.images, orderSet, Finset.mem_filter, Fintype.mem_piFinset,
        Finset.mem_Icc] at hn
      funext i
      have := hn.1 i
      simp at this
      exact le_antisymm this.2 this.1
    subst h0
    intro h
    have := congrFun h 0
    fin_cases s; fin_cases m
    simp [image, mirrored] at this

/-! ## C07 -/

/-- Sources or microphones, with or without orientation vectors. -/
def entityOf {n d : ℕ} (p : Fin n → Fin d → ℝ) (u : Option (Fin n → Fin d → ℝ)) : Entity :=
  { positions := tensor2 p, orientation := u.map tensor2 }

theorem srcDirs_reindex {d n n' : ℕ} (hd : d = 2 ∨ d = 3) (sp : String)
    (u : Option (Fin n → Fin d → ℝ)) (σ : Fin n' → Fin n) {sd : Option (List Vec)}
    (h : resolveSrcDirs sp (u.map tensor2) d n = .ok sd) :
    ∃ sd', resolveSrcDirs sp ((u.map fun f => f ∘ σ).map tensor2) d n' = .ok sd' ∧
      sd'.isNone = sd.isNone ∧ ∀ s : Fin n', (sd'.getD []).getD s [] = (sd.getD []).getD (σ s) [] := by
  by_cases ho : sp = "omni"
  · subst ho
    rw [resolveSrcDirs_omni] at h
    cases h
    exact ⟨none, rfl, rfl, fun s => rfl⟩
  · cases u with
    | none =>
      simp only [resolveSrcDirs, if_neg ho, Option.map_none] at h
      cases h
    | some u =>
      rw [Option.map_some, resolveSrcDirs_tensor2 hd u sp ho] at h
      cases h
      refine ⟨_, resolveSrcDirs_tensor2 hd (u ∘ σ) sp ho, rfl, fun s => ?_⟩
      rw [Option.getD_some, Option.getD_some, getD_ofFn, getD_ofFn]
      rfl

theorem micDir_reindex {d n n' : ℕ} (hd : d = 2 ∨ d = 3) (mp : String)
    (u : Option (Fin n → Fin d → ℝ)) (μ : Fin n' → Fin n) {md : Option MicDir}
    (h : resolveMicDir mp (u.map tensor2) d = .ok md) :
    ∃ md', resolveMicDir mp ((u.map fun f => f ∘ μ).map tensor2) d = .ok md' ∧
      md'.isNone = md.isNone ∧ ∀ m : Fin n', micVec md' n' m = micVec md n (μ m) := by
  by_cases ho : mp = "omni"
  · subst ho
    rw [resolveMicDir_omni] at h
    cases h
    exact ⟨none, rfl, rfl, fun s => rfl⟩
  · cases u with
    | none =>
      simp only [resolveMicDir, if_neg ho, Option.map_none] at h
      cases h
    | some u =>
      rw [Option.map_some, resolveMicDir_tensor2 hd u mp ho] at h
      cases h
      refine ⟨_, resolveMicDir_tensor2 hd (u ∘ μ) mp ho, rfl, fun m => ?_⟩
      simp only [micVec, micDirFor]
      rw [if_pos (by simp), if_pos (by simp), getD_ofFn, getD_ofFn]
      rfl

/-- **C07.** If a batched simulation succeeds, then simulating any selection of its sources
(`σ`) and microphones (`μ`), in any order and with any repetition, gives the corresponding
rows: entry `(s, m)` depends on source `s` and microphone `m` alone. -/
theorem C07_no_cross_talk {d nS nM nS' nM' : ℕ} (hS' : 0 < nS') (hM' : 0 < nM') (w : World)
    (room : Room) (L : Fin d → ℝ) (hsize : room.size = List.ofFn L) (hfs : 0 < room.fs)
    (src : Fin nS → Fin d → ℝ) (us : Option (Fin nS → Fin d → ℝ))
    (mic : Fin nM → Fin d → ℝ) (um : Option (Fin nM → Fin d → ℝ))
    (a : SimArgs) (hori : a.orientation = none) (htd : a.tdiff = none) (R : Tensor ℝ)
    (h : simulateRir w room (entityOf src us) (entityOf mic um) a = .ok R) :
    ∃ (K : ℕ) (rows : Fin nS → Fin nM → List ℝ), R = ofRows3 K rows ∧
      ∀ (σ : Fin nS' → Fin nS) (μ : Fin nM' → Fin nM),
        simulateRir w room (entityOf (src ∘ σ) (us.map fun f => f ∘ σ))
            (entityOf (mic ∘ μ) (um.map fun f => f ∘ μ)) a
          = .ok (ofRows3 K fun s m => rows (σ s) (μ m)) := by
  obtain ⟨P, hP⟩ := StaticPlan.exists (src := src) (mic := mic) hsize rfl rfl h
  rw [hP.ok_iff w hfs.ne' htd] at h
  obtain ⟨rows, hrows, hR⟩ := h
  refine ⟨P.K.toNat, rows, hR, fun σ μ => ?_⟩
  obtain ⟨p, hp, -⟩ := hP.hsrc
  obtain ⟨q, hq, -⟩ := hP.hmic
  rw [hori] at hp hq
  have eso : P.so = us.map tensor2 := ((Prod.mk.inj (Except.ok.inj hp)).2).symm
  have emo : P.mo = um.map tensor2 := ((Prod.mk.inj (Except.ok.inj hq)).2).symm
  obtain ⟨sd', s1, s2, s3⟩ := srcDirs_reindex hP.hd P.sp us σ (eso ▸ hP.hsd)
  obtain ⟨md', m1, m2, m3⟩ := micDir_reindex hP.hd P.mp um μ (emo ▸ hP.hmd)
  let P' : Plan d nS' nM' := ⟨P.cfg, P.N, P.tmax, P.dir, P.K, P.lo, P.hi, P.nVec, P.A, P.sp, P.mp,
    (us.map fun f => f ∘ σ).map tensor2, (um.map fun f => f ∘ μ).map tensor2, sd', md'⟩
  have hgs : ∀ s, P'.gs s = P.gs (σ s) := by
    intro s; funext v
    show gainVal P.sp _ ((sd'.getD []).getD s []) = gainVal P.sp _ _
    rw [s3]
  have hgm : ∀ m, P'.gm m = P.gm (μ m) := by
    intro m; funext v
    show gainVal P.mp _ (match micVec md' nM' m with | .ok x => x | .error _ => [])
      = gainVal P.mp _ _
    rw [m3]
    rfl
  have hP' : StaticPlan room (entityOf (src ∘ σ) (us.map fun f => f ∘ σ))
      (entityOf (mic ∘ μ) (um.map fun f => f ∘ μ)) a L (src ∘ σ) (mic ∘ μ) P' := by
    refine ⟨⟨hP.hd, hS', hM', hP.size, hP.beta, hP.res, hP.val, hP.img, hP.imgA, hP.split, m1, s1,
      ⟨?_, ?_, ?_, ?_⟩⟩, ?_, ?_⟩
    · show ¬ (_ ∧ sd'.isNone = true)
      rw [s2]; exact hP.gains.src_some
    · show ¬ (_ ∧ md'.isNone = true)
      rw [m2]; exact hP.gains.mic_some
    · rintro s m v ⟨n, hn, rfl⟩
      rw [hgs]
      show deviceGain P.sp _ ((sd'.getD []).getD s []) = _
      rw [s3]
      exact hP.gains.src (σ s) (μ m) _ ⟨n, hn, rfl⟩
    · intro m
      obtain ⟨mv, h1, h2⟩ := hP.gains.mic (μ m)
      refine ⟨mv, ?_, ?_⟩
      · show micVec md' nM' m = _
        rw [m3]; exact h1
      · rintro s v ⟨n, hn, rfl⟩
        rw [hgm]
        exact h2 (σ s) _ ⟨n, hn, rfl⟩
    · exact ⟨_, by rw [hori]; rfl, rfl⟩
    · exact ⟨_, by rw [hori]; rfl, rfl⟩
  rw [hP'.ok_iff w hfs.ne' htd]
  refine ⟨fun s m => rows (σ s) (μ m), fun s m => ?_, rfl⟩
  have hrow : P'.row w room L s m ((src ∘ σ) s) ((mic ∘ μ) m)
      = P.row w room L (σ s) (μ m) (src (σ s)) (mic (μ m)) := by
    unfold Plan.row
    rw [hgs, hgm]
    rfl
  rw [hrow]
  exact hrows (σ s) (μ m)

/-- Dropping the first of two microphones. -/
example (w : World) : ∃ (K : ℕ) (rows : Fin 1 → Fin 2 → List ℝ),
    simulateRir w (boxRoom ![4, 5] ![0.9, 0.8] ![0.7, 0.6] 16000 343)
      (entityOf ![![1, 2]] none) (entityOf ![![3, 4], ![2, 2]] none)
      (omniArgs (d := 2) (.order 3) 1000 { rirHpfEnable := false }) = .ok (ofRows3 K rows) ∧
    simulateRir w (boxRoom ![4, 5] ![0.9, 0.8] ![0.7, 0.6] 16000 343)
      (entityOf ![![1, 2]] none) (entityOf (fun _ : Fin 1 => ![2, 2]) none)
      (omniArgs (d := 2) (.order 3) 1000 { rirHpfEnable := false })
        = .ok (ofRows3 (a := 1) (b := 1) K fun s _ => rows s 1) := by
  have h0 := C05_static_rir_formula (Or.inl rfl) (by norm_num) (by norm_num) w ![4, 5]
    ![0.9, 0.8] ![0.7, 0.6] 16000 343 (by norm_num) (by norm_num) (.order 3) 1000 (by norm_num) _
    plainConfig_valid rfl ![![1, 2]] ![![3, 4], ![2, 2]]
  obtain ⟨K, rows, h1, h2⟩ := C07_no_cross_talk (nS' := 1) (nM' := 1) (by norm_num) (by norm_num)
    w _ ![4, 5] rfl (by norm_num [boxRoom]) ![![1, 2]] none ![![3, 4], ![2, 2]] none _ rfl rfl _ h0
  rw [h1] at h0
  exact ⟨K, rows, h0, h2 id (fun _ => 1)⟩

end Torchrir.Props
