import Verif.Props.OrientationCounts

/-!
# C34 with orientations, and C108: a microphone at the place of a source
-/

namespace Torchrir.Props

open Torchrir.Model Torchrir.Spec Torchrir.Lemmas

/-! ## C34 -/

theorem deviceGain_spelled {name : String} (h : name.toLower ∈ Pattern.omni.names) (v dir : Vec)
    (hl : name = "omni" ∨ dir.length = v.length) : deviceGain name v dir = .ok 1 := by
  unfold deviceGain
  split
  · rfl
  · rename_i hn
    rw [if_neg (by simpa using hl.resolve_left hn)]
    cases cosBetween v dir with
    | some c => exact directivityGain_of_name .omni name h c
    | none => exact (directivityGainNaN_of_name .omni name h).1 rfl

theorem gains_spelled {d nS nM : ℕ} {sp mp : String} (hsp : sp.toLower ∈ Pattern.omni.names)
    (hmp : mp.toLower ∈ Pattern.omni.names) {sd : Option (List Vec)} {md : Option MicDir}
    (a1 : ¬ (sp ≠ "omni" ∧ sd.isNone)) (a2 : ∀ s < nS, sp = "omni" ∨ ((sd.getD []).getD s []).length = d)
    (b1 : ¬ (mp ≠ "omni" ∧ md.isNone)) (b2 : ∀ m < nM, ∃ mv, micVec md nM m = .ok mv ∧ (mp = "omni" ∨ mv.length = d))
    (used : Fin nS → Fin nM → (Fin d → ℝ) → Prop) :
    GainsOk sp mp sd md (fun (_ : Fin nS) (_ : Fin d → ℝ) => 1) (fun (_ : Fin nM) (_ : Fin d → ℝ) => 1) used := by
  refine ⟨a1, b1, fun s m v _ => ?_, fun m => ?_⟩
  · exact deviceGain_spelled hsp _ _ ((a2 s s.2).imp_right fun h => by simpa using h)
  · obtain ⟨mv, h1, h2⟩ := b2 m m.2
    exact ⟨mv, h1, fun s v _ => deviceGain_spelled hmp _ _ (h2.imp_right fun h => by simpa using h)⟩

/-- **C34, true part.** When the other spellings come with orientations that can be used, every spelling of the
omnidirectional pattern yields the response of the literal `"omni"`, which needs none; with the filter or without, and
also for a microphone at the place of a source.  (Missing: the other spellings without orientations, see
`C34_other_spellings_fails`.) -/
theorem C34_spellings_agree_partial {d nS nM : ℕ} (hd : d = 2 ∨ d = 3) (hS : 0 < nS)
    (hM : 0 < nM) (w : World) (L lo hi : Fin d → ℝ) (fs c : ℝ) (hfs : 0 < fs)
    (sel : Selection d) (K : ℕ) (hK : 0 < K) (cfg : Config) (hcfg : cfg.validate = .ok ())
    (src : Fin nS → Fin d → ℝ) (mic : Fin nM → Fin d → ℝ) (so mo : Option (Tensor ℝ))
    (hso : ∀ o, so = some o → o.WF) (hmo : ∀ o, mo = some o → o.WF)
    (sp mp : String) (hsp : sp.toLower ∈ Pattern.omni.names) (hmp : mp.toLower ∈ Pattern.omni.names)
    (h1 : sp = "omni" ∨ ∃ o lead, so = some o ∧ DirectionArray o.shape d lead ∧ OneOrEach lead nS)
    (h2 : mp = "omni" ∨ ∃ o lead, mo = some o ∧ DirectionArray o.shape d lead ∧ MicLead lead nM) :
    simulateRir w (boxRoom L lo hi fs c) ⟨tensor2 src, so⟩ ⟨tensor2 mic, mo⟩ (directionalArgs sel K cfg sp mp)
      = simulateRir w (boxRoom L lo hi fs c) (points src) (points mic) (omniArgs sel K cfg) := by
  obtain ⟨l, h3, h4⟩ := selection_images sel
  obtain ⟨⟨sd, a1, a2, a3⟩, md, b1, b2, b3⟩ := dirs_of_ready hd hM hso hmo h1 h2
  have := simulateRir_core w (boxRoom L lo hi fs c) ⟨tensor2 src, so⟩ ⟨tensor2 mic, mo⟩
    (directionalArgs sel K cfg sp mp) L lo hi src mic hd hS hM rfl
    (resolveBeta_boxRoom hd L lo hi fs c) hfs.ne' (resolveConfig_directional sel K cfg hcfg sp mp none)
    (validateArgs_omni _ sel K hK _) rfl rfl rfl rfl h3 h4 (show splitDirectivity _ = .ok (sp, mp) from rfl) b1 a1 _ _
    (gains_spelled hsp hmp a2 a3 b2 b3 _)
  rw [this, omni_static_eval hd hS hM w L lo hi fs c hfs sel K hK cfg hcfg]
  rfl

/-- **C34, true part, moving scenes.** The same for a dynamic simulation. -/
theorem C34_dynamic_spellings_agree_partial {d nT nS nM : ℕ} (hd : d = 2 ∨ d = 3) (hT : 0 < nT) (hS : 0 < nS)
    (hM : 0 < nM) (w : World) (L lo hi : Fin d → ℝ) (fs c : ℝ) (hfs : 0 < fs)
    (sel : Selection d) (K : ℕ) (hK : 0 < K) (cfg : Config) (hcfg : cfg.validate = .ok ())
    (src : Fin nT → Fin nS → Fin d → ℝ) (mic : Fin nT → Fin nM → Fin d → ℝ) (so mo : Option (Tensor ℝ))
    (hso : ∀ o, so = some o → o.WF) (hmo : ∀ o, mo = some o → o.WF)
    (sp mp : String) (hsp : sp.toLower ∈ Pattern.omni.names) (hmp : mp.toLower ∈ Pattern.omni.names)
    (h1 : sp = "omni" ∨ ∃ o lead, so = some o ∧ DirectionArray o.shape d lead ∧ OneOrEach lead nS)
    (h2 : mp = "omni" ∨ ∃ o lead, mo = some o ∧ DirectionArray o.shape d lead ∧ MicLead lead nM) :
    simulateDynamicRir w (boxRoom L lo hi fs c) (tensor3 src) (tensor3 mic)
        { directionalArgs sel K cfg sp mp with orientation := some (.tuple [so, mo]) }
      = simulateDynamicRir w (boxRoom L lo hi fs c) (tensor3 src) (tensor3 mic) (omniArgs sel K cfg) := by
  obtain ⟨l, h3, h4⟩ := selection_images sel
  obtain ⟨⟨sd, a1, a2, a3⟩, md, b1, b2, b3⟩ := dirs_of_ready hd hM hso hmo h1 h2
  have := simulateDynamicRir_core w (boxRoom L lo hi fs c)
    { directionalArgs sel K cfg sp mp with orientation := some (.tuple [so, mo]) } L lo hi src mic
    (sTraj := tensor3 src) (mTraj := tensor3 mic) rfl rfl hd hT hS hM rfl
    (resolveBeta_boxRoom hd L lo hi fs c) hfs.ne' (resolveConfig_directional sel K cfg hcfg sp mp _)
    (validateArgs_omni _ sel K hK _) rfl h3 h4 (show splitDirectivity _ = .ok (sp, mp) from rfl) b1 a1 _ _
    (gains_spelled hsp hmp a2 a3 b2 b3 _)
  obtain ⟨l', h⟩ := omniPlan_dynamic hd hT hS hM L lo hi fs c sel K hK cfg hcfg src mic
  rw [this, h.eval w hfs.ne' (sTraj := tensor3 src) (mTraj := tensor3 mic) rfl rfl]
  rfl

/-! ## C108 -/

theorem pattern_unique {p q : Pattern} {name : String} (hp : name ∈ p.names) (hq : name ∈ q.names) : p = q := by
  cases p <;> simp only [Pattern.names, List.mem_cons, List.not_mem_nil, or_false] at hp <;>
    rcases hp with rfl | rfl | rfl | rfl <;> cases q <;> first | rfl | (exfalso; revert hq; decide)

theorem deviceGain_at_zero {d : ℕ} {p : Pattern} {name : String} (h : name.toLower ∈ p.names)
    (hc : p.usesCosine = true) (dir : Vec) (g : ℝ) : deviceGain name (List.ofFn (0 : Fin d → ℝ)) dir ≠ .ok g := by
  intro hg
  unfold deviceGain at hg
  split_ifs at hg with h1 h2
  · subst h1
    rw [pattern_unique h omni_lower] at hc
    cases hc
  · rw [cosBetween_zero] at hg
    exact (directivityGainNaN_of_name p name h).2 hc g hg

theorem no_gains_at_zero {d nS nM : ℕ} {ps pm : Pattern} {sp mp : String} (hps : sp.toLower ∈ ps.names)
    (hpm : mp.toLower ∈ pm.names) {sd : Option (List Vec)} {md : Option MicDir} {gs : Fin nS → (Fin d → ℝ) → ℝ}
    {gm : Fin nM → (Fin d → ℝ) → ℝ} {used : Fin nS → Fin nM → (Fin d → ℝ) → Prop} (h : GainsOk sp mp sd md gs gm used)
    {s : Fin nS} {m : Fin nM} (h0 : used s m 0) : ps.usesCosine = false ∧ pm.usesCosine = false := by
  constructor
  · by_contra hc
    exact deviceGain_at_zero hps (by simpa using hc) _ _ (h.src s m 0 h0)
  · by_contra hc
    obtain ⟨mv, -, h2⟩ := h.mic m
    have := h2 s 0 h0
    rw [neg_zero] at this
    exact deviceGain_at_zero hpm (by simpa using hc) _ _ this

/-- **C108 exactly.** If every microphone at the place of an image of a source meets two patterns that need no cosine,
the response is the one of the image formula, where the distance of such a pair counts as a micrometre
(`pathLength`).  Otherwise there is no response. -/
theorem C108_static_exactly {d nS nM : ℕ} (hd : d = 2 ∨ d = 3) (hS : 0 < nS)
    (hM : 0 < nM) (w : World) (L lo hi : Fin d → ℝ) (fs c : ℝ) (hfs : 0 < fs)
    (sel : Selection d) (K : ℕ) (hK : 0 < K)
    (cfg : Config) (hcfg : cfg.validate = .ok ()) (hoff : cfg.rirHpfEnable = false)
    (src us : Fin nS → Fin d → ℝ) (mic um : Fin nM → Fin d → ℝ)
    (ps pm : Pattern) (sp mp : String) (hps : sp.toLower ∈ ps.names) (hpm : mp.toLower ∈ pm.names)
    (hus : ∀ s, 1e-8 ≤ Real.sqrt (∑ i, us s i ^ 2)) (hum : ∀ m, 1e-8 ≤ Real.sqrt (∑ i, um m i ^ 2)) :
    ((∀ s m, ∀ n ∈ sel.images, image L (src s) n = mic m → ps.usesCosine = false ∧ pm.usesCosine = false) →
      simulateRir w (boxRoom L lo hi fs c) (orientedPoints src us) (orientedPoints mic um)
          (directionalArgs sel K cfg sp mp)
        = .ok (tensor3 fun s m (k : Fin K) =>
            rir (setupFor w cfg L lo hi fs c) sel.images (ps.towards (us s)) (pm.towards (um m)) (src s) (mic m) k)) ∧
    ((∃ s m, ∃ n ∈ sel.images, image L (src s) n = mic m ∧ (ps.usesCosine = true ∨ pm.usesCosine = true)) →
      ∀ R, simulateRir w (boxRoom L lo hi fs c) (orientedPoints src us) (orientedPoints mic um)
          (directionalArgs sel K cfg sp mp) ≠ .ok R) := by
  obtain ⟨l, h1, h2⟩ := selection_images sel
  constructor
  · intro hco
    obtain ⟨sd, md, hsd, hmd, hg⟩ := gains_directional hd ps pm sp mp hps hpm us um hus hum
      (fun s m v => ∃ n ∈ sel.images, v = mic m - image L (src s) n) (by
        rintro s m v ⟨n, hn, rfl⟩
        by_cases h : image L (src s) n = mic m
        · exact Or.inr (hco s m n hn h)
        · exact Or.inl (sub_ne_zero.mpr (Ne.symm h)))
    have := simulateRir_core w (boxRoom L lo hi fs c) (orientedPoints src us) (orientedPoints mic um)
      (directionalArgs sel K cfg sp mp) L lo hi src mic hd hS hM rfl
      (resolveBeta_boxRoom hd L lo hi fs c) hfs.ne' (resolveConfig_directional sel K cfg hcfg sp mp none)
      (validateArgs_omni _ sel K hK _) rfl rfl rfl rfl h1 h2 (show splitDirectivity _ = .ok (sp, mp) from rfl) hmd hsd _ _ hg
    rw [this]
    show applyRirHpf _ _ _ _ = _
    rw [applyRirHpf_off _ _ _ hoff]
    rfl
  · rintro ⟨s, m, n, hn, he, hu⟩ R hR
    obtain ⟨P, hP⟩ := StaticPlan.exists (L := L) (src := src) (mic := mic) rfl rfl rfl hR
    have e3 := hP.res.symm.trans (resolveConfig_directional sel K cfg hcfg sp mp none)
    simp only [Except.ok.injEq, Prod.mk.injEq] at e3
    have e4 := hP.split
    rw [e3.2.2.2] at e4
    simp only [splitDirectivity, Except.ok.injEq, Prod.mk.injEq] at e4
    have e5 := hP.img
    rw [e3.2.1] at e5
    have e6 : P.nVec = l := Except.ok.inj (e5.symm.trans h1)
    have e7 : P.A = sel.images := by
      have := hP.imgA
      rw [e6] at this
      exact this.unique h2
    have := no_gains_at_zero (e4.1 ▸ hps) (e4.2 ▸ hpm) hP.gains (s := s) (m := m)
      ⟨n, e7 ▸ hn, by rw [he, sub_self]⟩
    rcases hu with h | h
    · rw [this.1] at h; cases h
    · rw [this.2] at h; cases h

/-- **C108 exactly, moving scenes.** The same for a dynamic simulation: one step with a microphone at the place of an
image is enough. -/
theorem C108_dynamic_exactly {d nT nS nM : ℕ} (hd : d = 2 ∨ d = 3) (hT : 0 < nT) (hS : 0 < nS)
    (hM : 0 < nM) (w : World) (L lo hi : Fin d → ℝ) (fs c : ℝ) (hfs : 0 < fs)
    (sel : Selection d) (K : ℕ) (hK : 0 < K)
    (cfg : Config) (hcfg : cfg.validate = .ok ()) (hoff : cfg.rirHpfEnable = false)
    (src : Fin nT → Fin nS → Fin d → ℝ) (mic : Fin nT → Fin nM → Fin d → ℝ)
    (us : Fin nS → Fin d → ℝ) (um : Fin nM → Fin d → ℝ)
    (ps pm : Pattern) (sp mp : String) (hps : sp.toLower ∈ ps.names) (hpm : mp.toLower ∈ pm.names)
    (hus : ∀ s, 1e-8 ≤ Real.sqrt (∑ i, us s i ^ 2)) (hum : ∀ m, 1e-8 ≤ Real.sqrt (∑ i, um m i ^ 2)) :
    ((∀ t s m, ∀ n ∈ sel.images, image L (src t s) n = mic t m → ps.usesCosine = false ∧ pm.usesCosine = false) →
      simulateDynamicRir w (boxRoom L lo hi fs c) (tensor3 src) (tensor3 mic)
          { directionalArgs sel K cfg sp mp with orientation := some (.tuple [some (tensor2 us), some (tensor2 um)]) }
        = .ok (tensor4 fun t s m (k : Fin K) =>
            rir (setupFor w cfg L lo hi fs c) sel.images (ps.towards (us s)) (pm.towards (um m)) (src t s) (mic t m) k)) ∧
    ((∃ t s m, ∃ n ∈ sel.images, image L (src t s) n = mic t m ∧ (ps.usesCosine = true ∨ pm.usesCosine = true)) →
      ∀ R, simulateDynamicRir w (boxRoom L lo hi fs c) (tensor3 src) (tensor3 mic)
          { directionalArgs sel K cfg sp mp with orientation := some (.tuple [some (tensor2 us), some (tensor2 um)]) }
        ≠ .ok R) := by
  obtain ⟨l, h1, h2⟩ := selection_images sel
  have hres := resolveConfig_directional sel K cfg hcfg sp mp (some (.tuple [some (tensor2 us), some (tensor2 um)]))
  constructor
  · intro hco
    obtain ⟨sd, md, hsd, hmd, hg⟩ := gains_directional hd ps pm sp mp hps hpm us um hus hum
      (fun s m v => ∃ t, ∃ n ∈ sel.images, v = mic t m - image L (src t s) n) (by
        rintro s m v ⟨t, n, hn, rfl⟩
        by_cases h : image L (src t s) n = mic t m
        · exact Or.inr (hco t s m n hn h)
        · exact Or.inl (sub_ne_zero.mpr (Ne.symm h)))
    have := simulateDynamicRir_core w (boxRoom L lo hi fs c)
      { directionalArgs sel K cfg sp mp with orientation := some (.tuple [some (tensor2 us), some (tensor2 um)]) } L lo hi
      src mic (sTraj := tensor3 src) (mTraj := tensor3 mic) rfl rfl hd hT hS hM rfl
      (resolveBeta_boxRoom hd L lo hi fs c) hfs.ne' hres
      (validateArgs_omni _ sel K hK _) rfl h1 h2 (show splitDirectivity _ = .ok (sp, mp) from rfl) hmd hsd _ _ hg
    rw [this]
    show applyRirHpf _ _ _ _ = _
    rw [applyRirHpf_off _ _ _ hoff]
    rfl
  · rintro ⟨t, s, m, n, hn, he, hu⟩ R hR
    obtain ⟨P, hP⟩ := DynamicPlan.exists (L := L) (src := src) (mic := mic) rfl rfl rfl hR
    have e3 := hP.res.symm.trans hres
    simp only [Except.ok.injEq, Prod.mk.injEq] at e3
    have e4 := hP.split
    rw [e3.2.2.2] at e4
    simp only [splitDirectivity, Except.ok.injEq, Prod.mk.injEq] at e4
    have e5 := hP.img
    rw [e3.2.1] at e5
    have e6 : P.nVec = l := Except.ok.inj (e5.symm.trans h1)
    have e7 : P.A = sel.images := by
      have := hP.imgA
      rw [e6] at this
      exact this.unique h2
    have := no_gains_at_zero (e4.1 ▸ hps) (e4.2 ▸ hpm) hP.gains (s := s) (m := m)
      ⟨t, n, e7 ▸ hn, by rw [he, sub_self]⟩
    rcases hu with h | h
    · rw [this.1] at h; cases h
    · rw [this.2] at h; cases h

/-- **C108, true part.** With patterns that need no cosine (omnidirectional and half-omnidirectional), the image formula
holds wherever the microphones are, also at the places of the sources and of their images.  (Missing: the other
patterns, see `C108_coincident_fails`.) -/
theorem C108_coincident_partial {d nS nM : ℕ} (hd : d = 2 ∨ d = 3) (hS : 0 < nS)
    (hM : 0 < nM) (w : World) (L lo hi : Fin d → ℝ) (fs c : ℝ) (hfs : 0 < fs)
    (sel : Selection d) (K : ℕ) (hK : 0 < K)
    (cfg : Config) (hcfg : cfg.validate = .ok ()) (hoff : cfg.rirHpfEnable = false)
    (src us : Fin nS → Fin d → ℝ) (mic um : Fin nM → Fin d → ℝ)
    (ps pm : Pattern) (hs : ps = .omni ∨ ps = .halfOmni) (hm : pm = .omni ∨ pm = .halfOmni)
    (sp mp : String) (hps : sp.toLower ∈ ps.names) (hpm : mp.toLower ∈ pm.names)
    (hus : ∀ s, 1e-8 ≤ Real.sqrt (∑ i, us s i ^ 2)) (hum : ∀ m, 1e-8 ≤ Real.sqrt (∑ i, um m i ^ 2)) :
    simulateRir w (boxRoom L lo hi fs c) (orientedPoints src us) (orientedPoints mic um)
        (directionalArgs sel K cfg sp mp)
      = .ok (tensor3 fun s m (k : Fin K) =>
          rir (setupFor w cfg L lo hi fs c) sel.images (ps.towards (us s)) (pm.towards (um m)) (src s) (mic m) k) := by
  apply (C108_static_exactly hd hS hM w L lo hi fs c hfs sel K hK cfg hcfg hoff src us mic um ps pm sp mp hps hpm hus
    hum).1
  intro s m n _ _
  rcases hs with rfl | rfl <;> rcases hm with rfl | rfl <;> exact ⟨rfl, rfl⟩

/-- **C108 fails.** A microphone at the place of a source gets no response if either pattern is one of the four that
compute with the cosine. -/
theorem C108_coincident_fails {d nS nM : ℕ} (hd : d = 2 ∨ d = 3) (hS : 0 < nS)
    (hM : 0 < nM) (w : World) (L lo hi : Fin d → ℝ) (fs c : ℝ) (hfs : 0 < fs)
    (sel : Selection d) (K : ℕ) (hK : 0 < K)
    (cfg : Config) (hcfg : cfg.validate = .ok ()) (hoff : cfg.rirHpfEnable = false)
    (src us : Fin nS → Fin d → ℝ) (mic um : Fin nM → Fin d → ℝ) (ps pm : Pattern)
    (hp : (∃ p ∈ [Pattern.subcardioid, .cardioid, .hypercardioid, .bidirectional], p = ps ∨ p = pm))
    (sp mp : String) (hps : sp.toLower ∈ ps.names) (hpm : mp.toLower ∈ pm.names)
    (hus : ∀ s, 1e-8 ≤ Real.sqrt (∑ i, us s i ^ 2)) (hum : ∀ m, 1e-8 ≤ Real.sqrt (∑ i, um m i ^ 2))
    (s : Fin nS) (m : Fin nM) (n : Fin d → ℤ) (hn : n ∈ sel.images) (hsm : image L (src s) n = mic m) :
    ∀ R, simulateRir w (boxRoom L lo hi fs c) (orientedPoints src us) (orientedPoints mic um)
        (directionalArgs sel K cfg sp mp) ≠ .ok R := by
  apply (C108_static_exactly hd hS hM w L lo hi fs c hfs sel K hK cfg hcfg hoff src us mic um ps pm sp mp hps hpm hus
    hum).2
  refine ⟨s, m, n, hn, hsm, ?_⟩
  obtain ⟨p, hp, h⟩ := hp
  have : p.usesCosine = true := by
    simp only [List.mem_cons, List.not_mem_nil, or_false] at hp
    rcases hp with rfl | rfl | rfl | rfl <;> rfl
  rcases h with rfl | rfl
  · exact Or.inl this
  · exact Or.inr this

/-- A half-omnidirectional microphone at the place of a source hears nothing of the direct sound: the response of order
zero vanishes. -/
example (w : World) : simulateRir w (boxRoom ![4, 5] ![0.9, 0.8] ![0.7, 0.6] 16000 343)
    (orientedPoints ![![1, 2]] ![![1, 0]]) (orientedPoints ![![1, 2]] ![![0, -2]])
    (directionalArgs (d := 2) (.order 0) 1000 { rirHpfEnable := false } "omni" "homni")
      = .ok (tensor3 fun (_ : Fin 1) (_ : Fin 1) (_ : Fin 1000) => 0) := by
  have h0 : ∀ n ∈ (Selection.order (d := 2) 0).images, n = 0 := by
    intro n hn
    simp only [Selection.images, orderSet, Finset.mem_filter, Fintype.mem_piFinset, Finset.mem_Icc] at hn
    funext i
    have := hn.1 i
    simp at this
    exact le_antisymm this.2 this.1
  rw [C108_coincident_partial (Or.inl rfl) (by norm_num) (by norm_num) w
    ![4, 5] _ _ _ _ (by norm_num) _ _ (by norm_num) _ plainConfig_valid rfl _ _ _ _
    .omni .halfOmni (Or.inl rfl) (Or.inr rfl) _ _ omni_lower (by
      rw [show "homni".toLower = "homni" by apply String.toList_inj.mp; simp [String.toLower, String.toList_map]]
      decide) (by intro s; fin_cases s; simp [Fin.sum_univ_two]; norm_num)
      (by intro s; fin_cases s; simp [Fin.sum_univ_two]; norm_num)]
  congr 2
  funext s m k
  fin_cases s; fin_cases m
  unfold rir
  apply Finset.sum_eq_zero
  intro n hn
  rw [h0 n hn]
  have e : (image ![4, 5] ![1, 2] 0 : Fin 2 → ℝ) = ![1, 2] := by
    funext i; fin_cases i <;> simp [image, mirrored]
  show wallGain _ _ _ * _ * Pattern.towards _ _ (image ![4, 5] ![1, 2] 0 - ![1, 2]) / _ * _ = _
  rw [e, sub_self]
  simp [Pattern.towards, cosAngle_zero, Pattern.gain]

/-- A cardioid microphone at the place of a source. -/
example (w : World) (R : Tensor ℝ) : simulateRir w (boxRoom ![4, 5] ![0.9, 0.8] ![0.7, 0.6] 16000 343)
    (orientedPoints ![![1, 2]] ![![1, 0]]) (orientedPoints ![![1, 2]] ![![0, -2]])
    (directionalArgs (d := 2) (.order 1) 1000 { rirHpfEnable := false } "omni" "card") ≠ .ok R := by
  refine C108_coincident_fails (Or.inl rfl) (by norm_num) (by norm_num) w
    ![4, 5] _ _ _ _ (by norm_num) _ _ (by norm_num) _ plainConfig_valid rfl _ _ _ _
    .omni .cardioid ⟨.cardioid, by simp, Or.inr rfl⟩ _ _ omni_lower (by
      rw [show "card".toLower = "card" by apply String.toList_inj.mp; simp [String.toLower, String.toList_map]]
      decide) (by intro s; fin_cases s; simp [Fin.sum_univ_two]; norm_num)
      (by intro s; fin_cases s; simp [Fin.sum_univ_two]; norm_num) 0 0 0 ?_ ?_ R
  · simp [Selection.images, orderSet]
  · funext i; fin_cases i <;> simp [image, mirrored]

end Torchrir.Props
