import Verif.Model.Scripts
import Verif.Spec.Scripts
import Verif.Props.DynDataset

/-! # C95: the example scripts -/

namespace Torchrir.Props

open Torchrir.Model Torchrir.Lemmas
open Torchrir.Spec

/-! ## Microphones -/

/-- All coordinates but the first are those of the centre. -/
theorem mics_other_axes {d M : ℕ} {hd : 0 < d} {L c : Fin d → ℝ} {mic : Fin M → Fin d → ℝ} (hc : Within L 0.5 c)
    (h : DatasetMics hd L c mic) (m : Fin M) (i : Fin d) (hi : (i : ℕ) ≠ 0) : mic m i = c i := by
  cases h with
  | ears _ h =>
    obtain ⟨h1, h2⟩ := h i
    rw [if_neg hi] at h1 h2
    fin_cases m
    · exact h1
    · exact h2
  | line hM line _ h near =>
    obtain ⟨t, -, ht⟩ := h.onLine
    rw [near, ht, Pi.single_apply, if_neg (fun h => hi (by rw [h])), mul_zero, add_zero,
      min_eq_left (by linarith [(hc i).2]), max_eq_left (by linarith [(hc i).1])]

/-- Up to eleven microphones keep their arrangement when the centre moves. -/
theorem mics_rigid {d M : ℕ} (hd : 0 < d) (L : Fin d → ℝ) (h0 : 0 < M) (h11 : M ≤ 11) {c c' : Fin d → ℝ}
    (hc : Within L 0.5 c) (hc' : Within L 0.5 c') {mic mic' : Fin M → Fin d → ℝ}
    (h : datasetMics (List.ofFn L) (List.ofFn c) M = .ok (rows mic)) (hm : DatasetMics hd L c mic)
    (h' : datasetMics (List.ofFn L) (List.ofFn c') M = .ok (rows mic')) (hm' : DatasetMics hd L c' mic')
    (m : Fin M) (i : Fin d) : mic m i - c i = mic' m i - c' i := by
  by_cases h2 : M = 2
  · subst h2
    cases hm with
    | line hM => exact absurd rfl hM
    | ears _ h =>
      cases hm' with
      | line hM => exact absurd rfl hM
      | ears _ h' =>
        obtain ⟨a1, a2⟩ := h i
        obtain ⟨b1, b2⟩ := h' i
        have key : ∀ m : Fin 2, mic m i - c i = mic' m i - c' i := by
          intro m
          fin_cases m
          · show mic 0 i - c i = mic' 0 i - c' i
            rw [a1, b1]
            split_ifs <;> ring
          · show mic 1 i - c i = mic' 1 i - c' i
            rw [a2, b2]
            split_ifs <;> ring
        exact key m
  · have key : ∀ {c : Fin d → ℝ} {mic : Fin M → Fin d → ℝ}, Within L 0.5 c →
        datasetMics (List.ofFn L) (List.ofFn c) M = .ok (rows mic) →
        mic m i = c i + (((m : ℝ) - ((M : ℝ) - 1) / 2) * 0.08) * (Pi.single ⟨0, hd⟩ 1 : Fin d → ℝ) i := by
      intro c mic hc h
      obtain ⟨line, mic', h'', he, hl, hn⟩ := datasetMics_line hd L c h0 h2
      rw [h] at h''
      rw [rows_injective (Except.ok.inj h''), hn]
      have h1 := (hc i).1
      have h3 := (hc i).2
      have hm : ((m : ℕ) : ℝ) + 1 ≤ M := by exact_mod_cast m.isLt
      have hm0 : (0 : ℝ) ≤ (m : ℕ) := Nat.cast_nonneg _
      have hM : (M : ℝ) ≤ 11 := by exact_mod_cast h11
      have hb : 0.1 ≤ line m i ∧ line m i ≤ L i - 0.1 := by
        rw [hl, Pi.single_apply]
        split_ifs
        · constructor <;> linarith
        · constructor <;> linarith
      rw [min_eq_left hb.2, max_eq_left hb.1, hl]
    rw [key hc h, key hc' h']
    ring

/-! ## Placement -/

/-- **C95, standing scene.** In a room with sides of at least 1 m, `static.py` places the requested number of
microphones around a centre and `num_sources` sources at least 1.5 m from it, all inside the room. -/
theorem C95_static_placement {g : Gen} (hg : FairGen g) {d : ℕ} (hd : 0 < d) (L : Fin d → ℝ) (hL : ∀ i, 1 ≤ L i)
    (a : ScriptArgs) (ha : a.room = List.ofFn L) {M : ℕ} (hM : 0 < M) (hnum : a.numMics = M) (k : ℕ) (sc : CliScene)
    (h : placeScript .static g a k = .ok sc) :
    ∃ (c : Fin d → ℝ) (src : Fin a.numSources → Fin d → ℝ) (mic : Fin M → Fin d → ℝ),
      sc = ⟨rows src, rows mic, none⟩ ∧ Within L 0.5 c ∧ DatasetMics hd L c mic ∧ (∀ m, Within L 0.1 (mic m)) ∧
      ∀ s, TalkerSpot L (src s) ∧ 1.5 ≤ Spec.dist (src s) c := by
  have h : scriptStatic g a k = .ok sc := h
  unfold scriptStatic at h
  obtain ⟨c, k1, hc, hcw⟩ := drawCenter_eq g.value hg.unit L hL k
  rw [ha, hc] at h
  dsimp only at h
  obtain ⟨⟨ps, k2⟩, hps, h⟩ := (bind_eq_ok _ _ _).mp h
  obtain ⟨src, rfl, hsrc⟩ := drawTalkers_ok hg.unit hL hps
  obtain ⟨mic, hmic, hm, hw⟩ := (C90_microphones hd L c hL hcw M).2 M rfl hM
  dsimp only at h
  rw [hnum, hmic, ok_bind] at h
  exact ⟨c, src, mic, (Except.ok.inj h).symm, hcw, hm, hw, hsrc⟩

theorem atHeight_eq {d : ℕ} (L a b : Fin d → ℝ) : ∃ b' : Fin d → ℝ,
    atHeightOf (List.ofFn L) (List.ofFn a) (List.ofFn b) = List.ofFn b' ∧
      (∀ i, b' i = b i ∨ b' i = a i) ∧ (d = 3 → ∀ i : Fin d, (i : ℕ) = 2 → b' i = a i) ∧
      (∀ i : Fin d, (i : ℕ) ≠ 2 → b' i = b i) ∧ (d ≠ 3 → b' = b) := by
  unfold atHeightOf
  rw [List.length_ofFn]
  by_cases h3 : d = 3
  · subst h3
    rw [if_pos rfl]
    refine ⟨fun i => if i = 2 then a 2 else b i, ?_, ?_, ?_, ?_, fun h => absurd rfl h⟩
    · apply List.ext_getElem
      · simp
      · intro j h1 h2
        have hj : j < 3 := by simpa using h2
        rw [List.getElem_set, List.getElem_ofFn]
        interval_cases j <;> simp [Fin.ext_iff]
    · intro i
      beta_reduce
      by_cases hi : i = 2
      · right; rw [if_pos hi, hi]
      · left; rw [if_neg hi]
    · intro _ i hi
      have : i = 2 := Fin.ext hi
      beta_reduce
      rw [if_pos this, this]
    · intro i hi
      beta_reduce
      rw [if_neg (fun h => hi (by rw [h]; rfl))]
  · rw [if_neg h3]
    exact ⟨b, rfl, fun i => Or.inl rfl, fun h => absurd h h3, fun i _ => rfl, fun _ => rfl⟩

theorem within_choice {d : ℕ} {L a b b' : Fin d → ℝ} {m : ℝ} (ha : Within L m a) (hb : Within L m b)
    (h : ∀ i, b' i = b i ∨ b' i = a i) : Within L m b' := fun i => by
  rcases h i with h | h <;> rw [h]
  · exact hb i
  · exact ha i

theorem spot_choice {d : ℕ} {L a b b' : Fin d → ℝ} (ha : TalkerSpot L a) (hb : TalkerSpot L b)
    (h : ∀ i, b' i = b i ∨ b' i = a i) : TalkerSpot L b' := by
  refine ⟨within_choice ha.1 hb.1 h, fun h2 hl => ?_⟩
  rcases h ⟨2, h2⟩ with h | h <;> rw [h]
  · exact hb.2 h2 hl
  · exact ha.2 h2 hl

theorem path_spot {d T : ℕ} (hT : 2 ≤ T) {L a b : Fin d → ℝ} {p : Fin T → Fin d → ℝ} (ha : TalkerSpot L a)
    (hb : TalkerSpot L b) (hp : StraightPath a b p) (t : Fin T) : TalkerSpot L (p t) :=
  ⟨path_within hT ha.1 hb.1 hp t, fun h2 hl => path_between hT hp t _ (ha.2 h2 hl) (hb.2 h2 hl)⟩

theorem path_same {d T : ℕ} {a b : Fin d → ℝ} {p : Fin T → Fin d → ℝ} (hp : StraightPath a b p) (t : Fin T) (i : Fin d)
    (h : b i = a i) : p t i = a i := by
  rw [hp, h, sub_self, mul_zero, add_zero]

theorem zipWith_rows {n d : ℕ} (f : Vec → Vec → Vec) (p q : Fin n → Fin d → ℝ) (r : Fin n → Fin d → ℝ)
    (h : ∀ s, f (List.ofFn (p s)) (List.ofFn (q s)) = List.ofFn (r s)) :
    List.zipWith f (rows p) (rows q) = rows r := by
  apply List.ext_getElem
  · simp [rows]
  · intro j h1 h2
    simp only [rows, List.getElem_zipWith, List.getElem_ofFn]
    exact h _

/-- **C95, moving sources.** `dynamic_src.py` places standing microphones around a centre. Exactly
`min(num_sources, max(1, num_moving_sources))` sources walk, straight and at constant height; the others stand still.
All start at least 1.5 m from the centre and stay inside the room. The positions of step 0 are those shown. -/
theorem C95_src_placement {g : Gen} (hg : FairGen g) {d : ℕ} (hd : 0 < d) (L : Fin d → ℝ) (hL : ∀ i, 1 ≤ L i)
    (a : ScriptArgs) (ha : a.room = List.ofFn L) {M : ℕ} (hM : 0 < M) (hnum : a.numMics = M) (k : ℕ) (sc : CliScene)
    (h : placeScript .dynamicSrc g a k = .ok sc) {T : ℕ} (hT : (T : ℤ) = max 2 a.steps) :
    ∃ (c : Fin d → ℝ) (start : Fin a.numSources → Fin d → ℝ) (src : Fin T → Fin a.numSources → Fin d → ℝ)
      (mic : Fin M → Fin d → ℝ) (moving : Finset (Fin a.numSources)),
      sc = ⟨rows start, rows mic, some (Spec.steps src, Spec.steps fun _ : Fin T => mic)⟩ ∧
      Within L 0.5 c ∧ DatasetMics hd L c mic ∧ (∀ m, Within L 0.1 (mic m)) ∧
      (moving.card : ℤ) = min (a.numSources : ℤ) (max 1 a.numMoving) ∧ SomeWalk L c start src moving ∧
      src ⟨0, by omega⟩ = start := by
  have hT2 : 2 ≤ T := by omega
  have h : scriptDynamicSrc g a k = .ok sc := h
  unfold scriptDynamicSrc at h
  obtain ⟨c, k1, hc, hcw⟩ := drawCenter_eq g.value hg.unit L hL k
  obtain ⟨mic, hmic, hm, hw⟩ := (C90_microphones hd L c hL hcw M).2 M rfl hM
  rw [ha, hc] at h
  dsimp only at h
  rw [hnum, hmic, ok_bind] at h
  obtain ⟨⟨ps, k2⟩, hps, h⟩ := (bind_eq_ok _ _ _).mp h
  obtain ⟨start, rfl, hstart⟩ := drawTalkers_ok hg.unit hL hps
  obtain ⟨⟨qs, k3⟩, hqs, h⟩ := (bind_eq_ok _ _ _).mp h
  obtain ⟨stop0, rfl, hstop0⟩ := sampleZ_ok hg.unit hL hqs
  dsimp only at h
  choose stop e1 e2 e3 e4 e5 using fun s => atHeight_eq L (start s) (stop0 s)
  rw [zipWith_rows _ start stop0 stop e1] at h
  have hstop : ∀ s, TalkerSpot L (stop s) := fun s => spot_choice (hstart s).1 (hstop0 s) (e2 s)
  obtain ⟨c1, c2, c3⟩ := hg.sample k3 a.numSources (min (a.numSources : ℤ) (max 1 a.numMoving)).toNat (by omega)
  generalize hmv : g.subset k3 a.numSources (min (a.numSources : ℤ) (max 1 a.numMoving)).toNat = mv at *
  choose q hq hpath using fun s => linear_eq hT2 (start s) (stop s)
  have hp : ∀ s : Fin a.numSources, scriptSourcePath (rows start) (rows stop) mv (max 2 a.steps) s
      = .ok (rows (if (s : ℕ) ∈ mv then q s else fun _ : Fin T => start s)) := by
    intro s
    unfold scriptSourcePath
    rw [rows_getD, rows_getD, ← hT]
    split_ifs
    · exact hq s
    · rw [Int.toNat_natCast]
      simp [rows, List.ofFn_const]
  rw [mapM_ok_ofFn _ _ _ hp, ok_bind, raiseIf_bind_ok, ← hT, Int.toNat_natCast, stackSecond_eq, steps_const] at h
  have hwalk : ∀ (s : Fin a.numSources) t, TalkerSpot L ((if (s : ℕ) ∈ mv then q s else fun _ : Fin T => start s) t) := by
    intro s t
    split_ifs
    · exact path_spot hT2 (hstart s).1 (hstop s) (hpath s) t
    · exact (hstart s).1
  rw [clampSteps hL fun t s => within_mono (by norm_num : (0.1 : ℝ) ≤ 0.5) (hwalk s t).1] at h
  refine ⟨c, start, _, mic, Finset.univ.filter fun s : Fin a.numSources => (s : ℕ) ∈ mv, (Except.ok.inj h.2).symm, hcw, hm,
    hw, ?_, ⟨fun s => (hstart s).2, fun t s => hwalk s t, fun s hs t => ?_, fun s hs => ⟨stop s, hstop s, ?_⟩,
      fun h3 t s i hi => ?_⟩, ?_⟩
  · have : (Finset.univ.filter fun s : Fin a.numSources => (s : ℕ) ∈ mv).card = mv.toFinset.card := by
      rw [← Finset.card_map Fin.valEmbedding]
      congr 1
      ext j
      simp only [Finset.mem_map, Finset.mem_filter, Finset.mem_univ, true_and, Fin.valEmbedding_apply, List.mem_toFinset]
      exact ⟨fun ⟨s, h1, h2⟩ => h2 ▸ h1, fun hj => ⟨⟨j, c3 j hj⟩, hj, rfl⟩⟩
    rw [this, List.toFinset_card_of_nodup c1, c2]
    omega
  · have hs : (s : ℕ) ∉ mv := by simpa using hs
    rw [if_neg hs]
  · have hs : (s : ℕ) ∈ mv := by simpa using hs
    rw [if_pos hs]
    exact hpath s
  · split_ifs
    · exact path_same (hpath s) t i (e3 s h3 i hi)
    · rfl
  · funext s
    split_ifs
    · funext i
      rw [hpath s]
      simp
    · rfl

theorem arrays_at {d M T : ℕ} (L : Fin d → ℝ) (hM : 0 < M) (c : Fin T → Fin d → ℝ)
    (mic : Fin T → Fin M → Fin d → ℝ)
    (h : ∀ t, datasetMics (List.ofFn L) (List.ofFn (c t)) M = .ok (rows (mic t))) :
    ∃ arr : List (List Vec), (rows c).mapM (fun v => datasetArray v M) = .ok arr ∧
      arr.map (clampTo (List.ofFn L)) = Spec.steps mic := by
  have : ∀ t, ∃ m, datasetArray (List.ofFn (c t)) M = .ok m ∧ clampTo (List.ofFn L) m = rows (mic t) := by
    intro t
    have ht := h t
    unfold datasetMics at ht
    rw [raiseIf_neg (by omega), ok_bind] at ht
    obtain ⟨m, h1, h2⟩ := (bind_eq_ok _ _ _).mp ht
    exact ⟨m, h1, Except.ok.inj h2⟩
  choose m h1 h2 using this
  refine ⟨List.ofFn m, mapM_ofFn_ok _ _ _ h1, ?_⟩
  rw [List.map_ofFn]
  exact congrArg List.ofFn (funext h2)

/-- **C95, moving microphones.** `dynamic_mic.py` places standing sources at least 1.5 m from where the centre of the
microphones starts. The centre moves straight, in three dimensions at constant height; at every step the microphones
are those of a centre at that place. Up to eleven of them keep their arrangement. The microphones of step 0 are those
shown. -/
theorem C95_mic_placement {g : Gen} (hg : FairGen g) {d : ℕ} (hd : 0 < d) (L : Fin d → ℝ) (hL : ∀ i, 1 ≤ L i)
    (a : ScriptArgs) (ha : a.room = List.ofFn L) {M : ℕ} (hM : 0 < M) (hnum : a.numMics = M) (k : ℕ) (sc : CliScene)
    (h : placeScript .dynamicMic g a k = .ok sc) {T : ℕ} (hT : (T : ℤ) = max 2 a.steps) :
    ∃ (start stop : Fin d → ℝ) (c : Fin T → Fin d → ℝ) (src : Fin a.numSources → Fin d → ℝ)
      (mic : Fin T → Fin M → Fin d → ℝ),
      sc = ⟨rows src, rows (mic ⟨0, by omega⟩), some (Spec.steps fun _ : Fin T => src, Spec.steps mic)⟩ ∧
      Within L 0.5 start ∧ Within L 0.5 stop ∧ StraightPath start stop c ∧
      (∀ t, DatasetMics hd L (c t) (mic t)) ∧ (∀ t m, Within L 0.1 (mic t m)) ∧
      (d = 3 → ∀ t m (i : Fin d), (i : ℕ) = 2 → mic t m i = start i) ∧
      (M ≤ 11 → ∀ t t' m i, mic t m i - c t i = mic t' m i - c t' i) ∧
      ∀ s, TalkerSpot L (src s) ∧ 1.5 ≤ Spec.dist (src s) start := by
  have hT2 : 2 ≤ T := by omega
  have h : scriptDynamicMic g a k = .ok sc := h
  unfold scriptDynamicMic at h
  obtain ⟨start, k1, hc, hcw⟩ := drawCenter_eq g.value hg.unit L hL k
  obtain ⟨stop0, k2, hc', hcw'⟩ := drawCenter_eq g.value hg.unit L hL k1
  rw [ha, hc] at h
  dsimp only at h
  rw [hc'] at h
  dsimp only at h
  obtain ⟨stop, e1, e2, e3, e4, e5⟩ := atHeight_eq L start stop0
  rw [e1] at h
  obtain ⟨⟨ps, k3⟩, hps, h⟩ := (bind_eq_ok _ _ _).mp h
  obtain ⟨src, rfl, hsrc⟩ := drawTalkers_ok hg.unit hL hps
  have hstop := within_choice hcw hcw' e2
  obtain ⟨c, hcs, hpath⟩ := linear_eq hT2 start stop
  have hcin := fun t => path_within hT2 hcw hstop hpath t
  choose mic hmic hm hw using fun t => (C90_microphones hd L (c t) hL (hcin t) M).2 M rfl hM
  obtain ⟨arr, harr, hcl⟩ := arrays_at L hM c mic hmic
  dsimp only at h
  rw [raiseIf_bind_ok] at h
  obtain ⟨-, h⟩ := h
  rw [← hT, hcs, ok_bind, hnum, harr, ok_bind, hcl, Int.toNat_natCast, steps_const] at h
  refine ⟨start, stop, c, src, mic, ?_, hcw, hstop, hpath, hm, hw, fun h3 t m i hi => ?_, fun h11 t t' m i => ?_, hsrc⟩
  · rw [← Except.ok.inj h]
    congr 1
    obtain ⟨T, rfl⟩ : ∃ T', T = T' + 1 := ⟨T - 1, by omega⟩
    simp [Spec.steps, List.ofFn_succ]
  · rw [mics_other_axes (hcin t) (hm t) m i (by omega), path_same hpath t i (e3 h3 i hi)]
  · exact mics_rigid hd L hM h11 (hcin t) (hcin t') (hmic t) (hm t) (hmic t') (hm t') m i

/-! ## When a placement is found -/

theorem datasetArray_total {d : ℕ} (hd : 0 < d) (c : Fin d → ℝ) {num : ℤ} (h : 0 < num) :
    ∃ out, datasetArray (List.ofFn c) num = .ok out := by
  obtain ⟨M, rfl⟩ : ∃ M : ℕ, num = M := ⟨num.toNat, by omega⟩
  by_cases h2 : M = 2
  · subst h2
    obtain ⟨mic, hm, -⟩ := ears_eq hd c
    exact ⟨_, hm⟩
  · obtain ⟨line, mic, h', -⟩ := datasetMics_line hd c c (M := M) (by omega) h2
    unfold datasetMics at h'
    rw [raiseIf_neg (by omega), ok_bind] at h'
    obtain ⟨m, h1, -⟩ := (bind_eq_ok _ _ _).mp h'
    exact ⟨m, h1⟩

theorem datasetMics_iff {d : ℕ} (hd : 0 < d) (size : Vec) (c : Fin d → ℝ) (num : ℤ) :
    (∃ out, datasetMics size (List.ofFn c) num = .ok out) ↔ 0 < num := by
  unfold datasetMics
  constructor
  · rintro ⟨out, h⟩
    rw [raiseIf_bind_ok] at h
    omega
  · intro h
    obtain ⟨out, ho⟩ := datasetArray_total hd c h
    rw [raiseIf_neg (by omega), ok_bind, ho]
    exact ⟨_, rfl⟩

/-- **C95, acceptance.** The first point drawn is the centre of the microphones (of their first step if they move). A
placement is found exactly if the number of microphones is positive and among the next 1000 points at least
`num_sources` are 1.5 m or more away from the centre; moving sources need at least one source. -/
theorem C95_placement_outcome (g : Gen) {d : ℕ} (hd : 0 < d) (L : Fin d → ℝ) (a : ScriptArgs)
    (ha : a.room = List.ofFn L) (k : ℕ) :
    let far := fun j => farCandidates (candidate g.value L (usableHeights L (some (1.5, 1.8)) 0.5) 0.5 j)
      (candidate g.value L none 0.5 k 0) 1.5 1000
    ((∃ sc, placeScript .static g a k = .ok sc) ↔ 0 < a.numMics ∧ a.numSources ≤ (far (k + d)).length) ∧
    ((∃ sc, placeScript .dynamicSrc g a k = .ok sc) ↔
      0 < a.numMics ∧ 0 < a.numSources ∧ a.numSources ≤ (far (k + d)).length) ∧
    ((∃ sc, placeScript .dynamicMic g a k = .ok sc) ↔ 0 < a.numMics ∧ a.numSources ≤ (far (k + d + d)).length) := by
  intro far
  refine ⟨?_, ?_, ?_⟩
  · rw [← drawTalkers_iff, ← datasetMics_iff hd (List.ofFn L) (candidate g.value L none 0.5 k 0)]
    show (∃ sc, scriptStatic g a k = .ok sc) ↔ _
    unfold scriptStatic
    rw [ha, drawCenter_exact]
    dsimp only
    constructor
    · rintro ⟨sc, h⟩
      obtain ⟨o1, h1, h⟩ := (bind_eq_ok _ _ _).mp h
      obtain ⟨o2, h2, -⟩ := (bind_eq_ok _ _ _).mp h
      exact ⟨⟨o2, h2⟩, o1, h1⟩
    · rintro ⟨⟨o2, h2⟩, o1, h1⟩
      rw [h1, ok_bind, h2]
      exact ⟨_, rfl⟩
  · rw [← drawTalkers_iff, ← datasetMics_iff hd (List.ofFn L) (candidate g.value L none 0.5 k 0)]
    show (∃ sc, scriptDynamicSrc g a k = .ok sc) ↔ _
    unfold scriptDynamicSrc
    rw [ha, drawCenter_exact]
    dsimp only
    have hT : (2 : ℤ) ≤ max 2 a.steps := le_max_left _ _
    have total : ∀ (start stop : List Vec) (moving : List ℕ), ∃ out,
        (List.range a.numSources).mapM (scriptSourcePath start stop moving (max 2 a.steps)) = .ok out ∧
          out.length = a.numSources := by
      intro start stop moving
      have : ∀ i, ∃ out, scriptSourcePath start stop moving (max 2 a.steps) i = .ok out := by
        intro i
        unfold scriptSourcePath
        split_ifs
        · exact linear_total _ _ hT
        · exact ⟨_, rfl⟩
      choose out ho using this
      exact ⟨_, mapM_ok_ofFn _ _ (fun i => out i) fun i => ho i, by simp⟩
    constructor
    · rintro ⟨sc, h⟩
      obtain ⟨o2, h2, h⟩ := (bind_eq_ok _ _ _).mp h
      obtain ⟨o1, h1, h⟩ := (bind_eq_ok _ _ _).mp h
      obtain ⟨o3, h3, h⟩ := (bind_eq_ok _ _ _).mp h
      obtain ⟨o4, h4, h⟩ := (bind_eq_ok _ _ _).mp h
      rw [raiseIf_bind_ok] at h
      obtain ⟨o5, h5, hl⟩ := total o1.1 (List.zipWith (atHeightOf (List.ofFn L)) o1.1 o3.1)
        (g.subset o3.2 a.numSources (min (a.numSources : ℤ) (max 1 a.numMoving)).toNat)
      rw [h5] at h4
      cases h4
      refine ⟨⟨o2, h2⟩, ?_, o1, h1⟩
      rw [← hl]
      exact List.length_pos_iff.mpr h.1
    · rintro ⟨⟨o2, h2⟩, hn, o1, h1⟩
      obtain ⟨o3, h3⟩ := sampleZ_total g.value L hn o1.2
      rw [h2, ok_bind, h1, ok_bind, h3, ok_bind]
      obtain ⟨o5, h5, hl⟩ := total o1.1 (List.zipWith (atHeightOf (List.ofFn L)) o1.1 o3.1)
        (g.subset o3.2 a.numSources (min (a.numSources : ℤ) (max 1 a.numMoving)).toNat)
      rw [h5, ok_bind, raiseIf_neg]
      · exact ⟨_, rfl⟩
      · intro h0
        rw [h0] at hl
        simp at hl
        omega
  · rw [← drawTalkers_iff]
    show (∃ sc, scriptDynamicMic g a k = .ok sc) ↔ _
    unfold scriptDynamicMic
    rw [ha, drawCenter_exact]
    dsimp only
    rw [drawCenter_exact]
    dsimp only
    constructor
    · rintro ⟨sc, h⟩
      obtain ⟨o1, h1, h⟩ := (bind_eq_ok _ _ _).mp h
      rw [raiseIf_bind_ok] at h
      exact ⟨by omega, o1, h1⟩
    · rintro ⟨hm, o1, h1⟩
      rw [h1, ok_bind, raiseIf_neg (by omega), ok_bind]
      obtain ⟨T, hT⟩ : ∃ T : ℕ, (T : ℤ) = max 2 a.steps := ⟨(max 2 a.steps).toNat, by omega⟩
      obtain ⟨stop, e1, -⟩ := atHeight_eq L (candidate g.value L none 0.5 k 0) (candidate g.value L none 0.5 (k + d) 0)
      obtain ⟨c, hc, -⟩ := linear_eq (T := T) (by omega) (candidate g.value L none 0.5 k 0) stop
      choose m hm2 using fun t => datasetArray_total hd (c t) hm
      have hmm : (rows c).mapM (fun v => datasetArray v a.numMics) = .ok (List.ofFn m) :=
        mapM_ofFn_ok (fun v => datasetArray v a.numMics) (fun t => List.ofFn (c t)) _ hm2
      rw [e1, ← hT, hc, ok_bind, hmm, ok_bind]
      exact ⟨_, rfl⟩

/-! ## Relation to the command line program -/

theorem two_mics (size c : Vec) : datasetMics size c 2 = (ears c).bind fun m => .ok (clampTo size m) := by
  unfold datasetMics datasetArray
  rw [raiseIf_neg (by norm_num), ok_bind, if_pos rfl]
  rfl

/-- **C95, the standing scene is that of the command line program.** With two microphones `static.py` places its scene
like the command line program in mode `static` with the same random numbers. -/
theorem C95_static_like_cli (g : Gen) (a : ScriptArgs) (k : ℕ) (h2 : a.numMics = 2) :
    placeScript .static g a k = placeScene g.value
      { mode := "static", room := a.room, numSources := a.numSources, steps := a.steps, order := a.order, tmax := a.tmax }
      k := by
  unfold placeScene
  rw [if_pos rfl]
  show scriptStatic g a k = _
  unfold scriptStatic placeStatic
  dsimp only
  rw [h2]
  simp only [two_mics]
  cases drawTalkers g.value a.numSources a.room (drawCenter g.value a.room k).1 (drawCenter g.value a.room k).2 with
  | error e => rfl
  | ok o =>
    rw [ok_bind, ok_bind]
    cases ears (drawCenter g.value a.room k).1 <;> rfl

theorem all_move {g : Gen} (hg : FairGen g) (k n : ℕ) (i : ℕ) (hi : i < n) : i ∈ g.subset k n n := by
  obtain ⟨h1, h2, h3⟩ := hg.sample k n n le_rfl
  have : (g.subset k n n).toFinset = Finset.range n := by
    apply Finset.eq_of_subset_of_card_le
    · intro j hj
      exact Finset.mem_range.mpr (h3 j (List.mem_toFinset.mp hj))
    · rw [List.toFinset_card_of_nodup h1, h2, Finset.card_range]
  exact List.mem_toFinset.mp (this ▸ Finset.mem_range.mpr hi)

theorem mapM_range_congr {β : Type} (f f' : ℕ → Except String β) (n : ℕ) (h : ∀ i < n, f i = f' i) :
    (List.range n).mapM f = (List.range n).mapM f' := by
  induction n with
  | zero => rfl
  | succ n ih =>
    rw [List.range_succ, List.mapM_append, List.mapM_append, ih fun i hi => h i (by omega)]
    simp only [List.mapM_cons, List.mapM_nil, h n (by omega)]

theorem zipWith_second {α : Type} : ∀ (l m : List α), m.length ≤ l.length → List.zipWith (fun _ b => b) l m = m
  | _, [], _ => by simp
  | [], _ :: _, h => by simp at h
  | _ :: l, b :: m, h => by
    rw [List.zipWith_cons_cons, zipWith_second l m (by simpa using h)]

theorem sampleZ_length {r : ℕ → ℝ} {n d : ℕ} (L : Fin d → ℝ) {k : ℕ} {out : List Vec × ℕ} (h3 : d < 3)
    (h : samplePositionsZ r n (List.ofFn L) 1.5 1.8 0.5 k = .ok out) : out.1.length = n := by
  rw [C46_heights_planar r _ (by rw [List.length_ofFn]; exact h3)] at h
  rw [← Except.ok.inj h]
  unfold samplePositions
  rw [drawPoints_rows]
  simp [rows]

/-- **C95, moving sources in the plane are those of the command line program** if all are asked to move and there are
two microphones. -/
theorem C95_src_like_cli {g : Gen} (hg : FairGen g) {d : ℕ} (hd : d = 2) (L : Fin d → ℝ) (a : ScriptArgs)
    (ha : a.room = List.ofFn L) (k : ℕ) (h2 : a.numMics = 2) (hall : (a.numSources : ℤ) ≤ max 1 a.numMoving) :
    placeScript .dynamicSrc g a k = placeScene g.value
      { mode := "dynamic_src", room := a.room, numSources := a.numSources, steps := a.steps, order := a.order,
        tmax := a.tmax } k := by
  unfold placeScene
  dsimp only
  rw [if_neg (by decide), if_pos rfl]
  show scriptDynamicSrc g a k = _
  unfold scriptDynamicSrc placeDynamicSrc
  dsimp only
  rw [h2]
  simp only [two_mics]
  rw [ha, drawCenter_exact]
  dsimp only
  cases ears (List.ofFn (candidate g.value L none 0.5 k 0)) with
  | error e => rfl
  | ok m =>
    show (drawTalkers _ _ _ _ _ >>= _) = (drawTalkers _ _ _ _ _ >>= _)
    cases hps : drawTalkers g.value a.numSources (List.ofFn L) (List.ofFn (candidate g.value L none 0.5 k 0)) (k + d) with
    | error e => rfl
    | ok o =>
      rw [ok_bind, ok_bind]
      cases hqs : samplePositionsZ g.value a.numSources (List.ofFn L) 1.5 1.8 0.5 o.2 with
      | error e => rfl
      | ok o3 =>
        rw [ok_bind, ok_bind]
        have e1 : List.zipWith (atHeightOf (List.ofFn L)) o.1 o3.1 = o3.1 := by
          have : atHeightOf (List.ofFn L) = fun _ b => b := by
            funext x y
            unfold atHeightOf
            rw [if_neg (by rw [List.length_ofFn]; omega)]
          rw [this, zipWith_second]
          rw [talkers_count hps, sampleZ_length L (by omega) hqs]
        rw [e1, min_eq_left hall, Int.toNat_natCast]
        rw [mapM_range_congr (scriptSourcePath o.1 o3.1 (g.subset o3.2 a.numSources a.numSources) (max 2 a.steps))
          (fun i => linearTrajectory (o.1.getD i []) (o3.1.getD i []) (max 2 a.steps)) a.numSources]
        intro i hi
        unfold scriptSourcePath
        rw [if_pos (all_move hg _ _ _ hi)]

/-- **C95, moving microphones in the plane are those of the command line program** if there are two of them. -/
theorem C95_mic_like_cli (g : Gen) (a : ScriptArgs) (k : ℕ) (h2 : a.numMics = 2) (h3 : a.room.length ≠ 3) :
    placeScript .dynamicMic g a k = placeScene g.value
      { mode := "dynamic_mic", room := a.room, numSources := a.numSources, steps := a.steps, order := a.order,
        tmax := a.tmax } k := by
  unfold placeScene
  dsimp only
  rw [if_neg (by decide), if_neg (by decide), if_pos rfl]
  show scriptDynamicMic g a k = _
  unfold scriptDynamicMic placeDynamicMic
  dsimp only
  rw [h2]
  have e1 : ∀ x y : Vec, atHeightOf a.room x y = y := fun x y => if_neg h3
  have e2 : (fun c => datasetArray c 2) = ears := by
    funext c
    unfold datasetArray ears
    rw [if_pos rfl]
  rw [raiseIf_neg (by norm_num), e1, e2]
  rfl

/-- **C95, same audio.** A script that places its scene like the command line program has the same responses and the
same mixture. -/
theorem C95_audio_like_cli (conv : Flt → ℤ) (w : World) (script : Script) (g : Gen) (a : ScriptArgs) (signals : Tensor ℝ)
    (fs : ℝ) (k : ℕ) (mode : String) (out : ScriptOutput)
    (hp : placeScript script g a k = placeScene g.value
      { mode := mode, room := a.room, numSources := a.numSources, steps := a.steps, order := a.order, tmax := a.tmax } k)
    (h : runScript conv w script g a signals fs k = .ok out) :
    runScene conv w g.value
      { mode := mode, room := a.room, numSources := a.numSources, steps := a.steps, order := a.order, tmax := a.tmax }
      signals fs k = .ok (out.scene, out.rirs, out.mixture) := by
  unfold runScript at h
  obtain ⟨room, h1, h⟩ := (bind_eq_ok _ _ _).mp h
  obtain ⟨scene, h2, h⟩ := (bind_eq_ok _ _ _).mp h
  obtain ⟨⟨rirs, y, refs⟩, h3, h⟩ := (bind_eq_ok _ _ _).mp h
  obtain ⟨files, -, h⟩ := (bind_eq_ok _ _ _).mp h
  obtain rfl := Except.ok.inj h
  unfold runScene
  have h1 : cliRoom conv
      { mode := mode, room := a.room, numSources := a.numSources, steps := a.steps, order := a.order, tmax := a.tmax }
      fs = .ok room := h1
  rw [h1, ok_bind, ← hp, h2, ok_bind]
  unfold scriptRender at h3
  unfold renderScene
  dsimp only at h3 ⊢
  cases ht : scene.trajs with
  | none =>
    rw [ht] at h3
    dsimp only at h3 ⊢
    obtain ⟨r, h4, h3⟩ := (bind_eq_ok _ _ _).mp h3
    obtain ⟨⟨y', refs'⟩, h5, h3⟩ := (bind_eq_ok _ _ _).mp h3
    cases h3
    unfold staticAudio at h5
    obtain ⟨y, h6, h5⟩ := (bind_eq_ok _ _ _).mp h5
    obtain ⟨rf, -, h5⟩ := (bind_eq_ok _ _ _).mp h5
    cases h5
    rw [h4, ok_bind, h6]
    rfl
  | some p =>
    obtain ⟨src, mic⟩ := p
    rw [ht] at h3
    dsimp only at h3 ⊢
    obtain ⟨r, h4, h3⟩ := (bind_eq_ok _ _ _).mp h3
    obtain ⟨⟨y', refs'⟩, h5, h3⟩ := (bind_eq_ok _ _ _).mp h3
    cases h3
    unfold sceneAudio at h5
    obtain ⟨y, h6, h5⟩ := (bind_eq_ok _ _ _).mp h5
    obtain ⟨rf, -, h5⟩ := (bind_eq_ok _ _ _).mp h5
    cases h5
    rw [h4, ok_bind, h6]
    rfl

/-! ## Audio and files -/

theorem staticRirsOf_eq {S M K : ℕ} (h : Fin S → Fin M → Fin K → ℝ) (s : Fin S) :
    staticRirsOf (tensor3 h) s = tensor3 fun _ : Fin 1 => h s := by
  unfold staticRirsOf
  rw [tensor3_planes]
  unfold tensor3
  dsimp only
  congr 1
  have : slice (s : ℕ) (s + 1) (List.ofFn fun i => List.ofFn fun j => List.ofFn (h i j))
      = [List.ofFn fun j => List.ofFn (h s j)] := by
    unfold slice
    apply List.ext_getElem
    · simp
    · intro k h1 h2
      obtain rfl : k = 0 := by simpa using h2
      simp
  rw [this]
  simp

/-- With one to eight microphones all files are written, each with its signal brought to a peak of 1. -/
theorem scriptFiles_eq {S M : ℕ} (h1 : 1 ≤ M) (h8 : M ≤ 8) (script : Script) (len : ℕ) (y : Fin M → ℕ → ℝ)
    (ref : Fin S → Fin M → ℕ → ℝ) : ∃ files,
      scriptFiles script (micTensor len y) (List.ofFn fun s => micTensor len (ref s)) = .ok files ∧
        ScriptFiles script len y ref files := by
  obtain ⟨f, g, hf, hs⟩ := save_mics h1 h8 len y
  choose rf rg hrf hrs using fun s => save_mics h1 h8 len (ref s)
  refine ⟨_, ?_, f, g, rf, rg, rfl, hs, hrs⟩
  unfold scriptFiles
  rw [zipIdx_ofFn, mapM_ofFn_ok _ _ (fun s : Fin S => (script.refName s, rf s)), ok_bind, hf]
  · rfl
  · intro s
    dsimp only
    rw [hrf s]
    rfl

/-- **C95, output of the standing scene.** For a scene that was placed, with one to eight microphones: the responses are
those of the image method, the reference of a source is its signal convolved with its responses, the mixture is the sum
of the references, and the files hold the references and the mixture, each brought to a peak of 1. -/
theorem C95_static_output {d M n : ℕ} (hd : d = 2 ∨ d = 3) (hM : 0 < M) (h8 : M ≤ 8) (conv : Flt → ℤ) (w : World)
    (g : Gen) (L : Fin d → ℝ) (hL : ∀ i, 0 < L i) (a : ScriptArgs) (ha : a.room = List.ofFn L) (hS : 0 < a.numSources)
    (N : ℕ) (hN : a.order = N) (fs : ℝ) (hfs : 20 < fs) (K : ℕ) (hK : 0 < K) (ht : (K : ℤ) = ⌈a.tmax * fs⌉)
    (sos : w.Sos) (hsos : w.iirfilter 2 (10 / (fs / 2)) [("rp", "5.0"), ("rs", "60.0"), ("ftype", "butter")] = .ok sos)
    (G : (Fin K → ℝ) →ₗ[ℝ] (Fin K → ℝ)) (hG : ActsAs w sos G) (x : Fin a.numSources → Fin n → ℝ) (k : ℕ)
    (src : Fin a.numSources → Fin d → ℝ) (mic : Fin M → Fin d → ℝ)
    (h : placeScript .static g a k = .ok ⟨rows src, rows mic, none⟩) :
    ∃ (ref : Fin a.numSources → Fin M → ℕ → ℝ) (files : List (String × AudioFile)),
      runScript conv w .static g a (tensor2 x) fs k = .ok ⟨⟨rows src, rows mic, none⟩,
        tensor3 (fun s m => cliResponse (w.device ≠ .mps) L fs N G (src s) (mic m)),
        micTensor (n + K - 1) (fun m k => ∑ s, ref s m k), List.ofFn fun s => micTensor (n + K - 1) (ref s), files⟩ ∧
      (∀ s m k, ref s m k = Spec.conv (x s) (cliResponse (w.device ≠ .mps) L fs N G (src s) (mic m)) k) ∧
      ScriptFiles .static (n + K - 1) (fun m k => ∑ s, ref s m k) ref files := by
  have hfs0 : 0 < fs := by linarith
  have hsim := C85_filtered_formula hd hS hM w L (fun _ => 0.9) (fun _ => 0.9) fs 343 hfs0 (by norm_num) (.order N) K hK
    defaultConfig defaultConfig_valid rfl rfl (show (10 : ℝ) < fs / 2 by linarith) sos hsos G hG src mic
  rw [← args_eq w L _ _ fs 343 src mic N K hK a.tmax ht] at hsim
  have hsim : simulateRir w (boxRoom L (fun _ => 0.9) (fun _ => 0.9) fs 343) ⟨tensor2 src, none⟩ ⟨tensor2 mic, none⟩
      { maxOrder := some (N : ℤ), tmax := some a.tmax }
      = .ok (tensor3 fun s m => cliResponse (w.device ≠ .mps) L fs N G (src s) (mic m)) := hsim
  obtain ⟨files, hf, hsf⟩ := scriptFiles_eq hM h8 .static (n + K - 1)
    (fun m k => ∑ s, Spec.conv (x s) (cliResponse (w.device ≠ .mps) L fs N G (src s) (mic m)) k)
    (fun s m k => Spec.conv (x s) (cliResponse (w.device ≠ .mps) L fs N G (src s) (mic m)) k)
  refine ⟨_, files, ?_, fun s m k => rfl, hsf⟩
  unfold runScript scriptRender staticAudio
  rw [cliRoom_eq conv hd L hL _ ha fs hfs0, ok_bind, h, ok_bind]
  dsimp only
  rw [pointsTensor_rows hS, pointsTensor_rows hM, hN, hsim, ok_bind,
    C23_convolve_rir_formula x _ (Or.inl rfl) (Or.inl rfl) (by omega), ok_bind,
    mapM_ok_ofFn _ _ (fun s => micTensor (n + K - 1) fun m k =>
      Spec.conv (x s) (cliResponse (w.device ≠ .mps) L fs N G (src s) (mic m)) k)]
  · rw [ok_bind]
    have hf : scriptFiles .static (micTensor (n + K - 1) (mix x fun s m =>
        cliResponse (w.device ≠ .mps) L fs N G (src s) (mic m))) (List.ofFn fun s => micTensor (n + K - 1) fun m k =>
        Spec.conv (x s) (cliResponse (w.device ≠ .mps) L fs N G (src s) (mic m)) k) = .ok files := hf
    rw [pure_bind, pure_bind]
    dsimp only
    rw [hf]
    rfl
  · intro s
    rw [staticRirsOf_eq, C23_convolve_rir_formula _ _ (signalOf_eq x s) (Or.inl rfl) (by omega)]
    congr 2
    funext m k
    simp [mix]

/-- **C95, output of the moving scenes.** As for the standing scene; every sample passes through the responses of the
step that is current, the steps being spread evenly over the signal. -/
theorem C95_dynamic_output {d M n T : ℕ} (hd : d = 2 ∨ d = 3) (hM : 0 < M) (h8 : M ≤ 8) (hT : 0 < T) (conv : Flt → ℤ)
    (w : World) (script : Script)
    (g : Gen) (L : Fin d → ℝ) (hL : ∀ i, 0 < L i) (a : ScriptArgs) (ha : a.room = List.ofFn L) (hS : 0 < a.numSources)
    (N : ℕ) (hN : a.order = N) (fs : ℝ) (hfs : 20 < fs) (K : ℕ) (hK : 0 < K) (ht : (K : ℤ) = ⌈a.tmax * fs⌉)
    (sos : w.Sos) (hsos : w.iirfilter 2 (10 / (fs / 2)) [("rp", "5.0"), ("rs", "60.0"), ("ftype", "butter")] = .ok sos)
    (G : (Fin K → ℝ) →ₗ[ℝ] (Fin K → ℝ)) (hG : ActsAs w sos G) (x : Fin a.numSources → Fin n → ℝ) (k : ℕ)
    (src : Fin T → Fin a.numSources → Fin d → ℝ) (mic : Fin T → Fin M → Fin d → ℝ) (shownSrc shownMic : List Vec)
    (h : placeScript script g a k = .ok ⟨shownSrc, shownMic, some (Spec.steps src, Spec.steps mic)⟩)
    (step : Fin n → Fin T) (hstep : CurrentStep (fun t : Fin T => (t : ℕ) * n / T) step) :
    ∃ (ref : Fin a.numSources → Fin M → ℕ → ℝ) (files : List (String × AudioFile)),
      runScript conv w script g a (tensor2 x) fs k
        = .ok ⟨⟨shownSrc, shownMic, some (Spec.steps src, Spec.steps mic)⟩,
          tensor4 (fun t s m => cliResponse (w.device ≠ .mps) L fs N G (src t s) (mic t m)),
          micTensor (n + K - 1) (fun m k => ∑ s, ref s m k), List.ofFn fun s => micTensor (n + K - 1) (ref s), files⟩ ∧
      (∀ s m k, ref s m k =
        heard (x s) (fun t m => cliResponse (w.device ≠ .mps) L fs N G (src t s) (mic t m)) step m k) ∧
      ScriptFiles script (n + K - 1) (fun m k => ∑ s, ref s m k) ref files := by
  have hfs0 : 0 < fs := by linarith
  obtain ⟨ref, h1, h2⟩ := C90_audio w.device x
    (fun t s m => cliResponse (w.device ≠ .mps) L fs N G (src t s) (mic t m)) hT (by omega) step hstep
  obtain ⟨files, hf, hsf⟩ := scriptFiles_eq hM h8 script (n + K - 1) (fun m k => ∑ s, ref s m k) ref
  refine ⟨ref, files, ?_, h2, hsf⟩
  unfold runScript scriptRender
  rw [cliRoom_eq conv hd L hL _ ha fs hfs0, ok_bind, h, ok_bind]
  dsimp only
  rw [trajTensor_steps hT hS, trajTensor_steps hT hM, hN,
    dynamic_responses hd hS hM hT w L N fs hfs K hK a.tmax ht sos hsos G hG src mic, ok_bind, h1, ok_bind, pure_bind]
  dsimp only
  rw [hf]
  rfl

/-- **C95 fails for nine microphones and more.** The mixture is written with as many channels as it has samples and one
frame per microphone. -/
theorem C95_many_microphones_fails {S M : ℕ} (hM : 9 ≤ M) (script : Script) {len : ℕ} (hlen : 1 ≤ len)
    (y : Fin M → ℕ → ℝ) (ref : Fin S → Fin M → ℕ → ℝ) :
    ∃ files f, scriptFiles script (micTensor len y) (List.ofFn fun s => micTensor len (ref s)) = .ok files ∧
      files.getLast? = some (script.mixName, f) ∧ f.channels = len ∧ f.frames = M := by
  have hl : ∀ z : Fin M → ℕ → ℝ, (tensor2 fun m (k : Fin len) => z m k).data.length = M * len := by
    intro z
    simp [tensor2, List.sum_ofFn]
  have hsave : ∀ z : Fin M → ℕ → ℝ, ∃ f, saveAudio (micTensor len z) = .ok f ∧ f.channels = len ∧ f.frames = M := by
    intro z
    unfold micTensor
    rw [if_neg (by omega)]
    exact C64_many_channels_fails M len _ (hl z) hM hlen
  obtain ⟨f, hf, h1, h2⟩ := hsave y
  choose rf hrf _ using fun s => hsave (ref s)
  refine ⟨(List.ofFn fun s : Fin S => (script.refName s, rf s)) ++ [(script.mixName, f)], f, ?_, ?_, h1, h2⟩
  · unfold scriptFiles
    rw [zipIdx_ofFn, mapM_ofFn_ok _ _ (fun s : Fin S => (script.refName s, rf s)), ok_bind, hf]
    · rfl
    · intro s
      dsimp only
      rw [hrf s]
      rfl
  · simp

theorem script_refName_chars (script : Script) (s : ℕ) : (script.refName s).toList
    = script.prefix.toList ++ '_' :: ("ref".toList ++ ((zeroPadded 2 (s + 1)).toList ++ '.' :: "wav".toList)) := by
  unfold Script.refName
  simp only [String.toList_append, List.append_assoc]
  rfl

theorem script_mixName_chars (script : Script) :
    script.mixName.toList = script.prefix.toList ++ '.' :: "wav".toList := by
  unfold Script.mixName
  simp only [String.toList_append]
  rfl

/-- **C95, names.** The files of the three scripts have different names, so that they can share a directory; the
references of the first 99 sources sort like the sources. -/
theorem C95_file_names (p q : Script) (s t : ℕ) : (p.mixName = q.mixName ↔ p = q) ∧
    (p.refName s = q.refName t ↔ p = q ∧ s = t) ∧ p.refName s ≠ q.mixName ∧
    (s < t → t < 99 → p.refName s < p.refName t) := by
  have hval : ∀ a b, (zeroPadded 2 (a + 1)).toList = (zeroPadded 2 (b + 1)).toList → a = b := fun a b h => by
    have : a + 1 = b + 1 := by rw [← zeroPadded_value 2 (a + 1), h, zeroPadded_value]
    omega
  refine ⟨⟨fun h => ?_, fun h => by rw [h]⟩, ⟨fun h => ?_, fun ⟨h1, h2⟩ => by rw [h1, h2]⟩, fun h => ?_, fun hst ht => ?_⟩
  · have h := congrArg String.toList h
    rw [script_mixName_chars, script_mixName_chars] at h
    cases p <;> cases q <;> first | rfl | exact absurd h (by decide)
  · have h := congrArg String.toList h
    rw [script_refName_chars, script_refName_chars] at h
    have hpq : p = q := by
      cases p <;> cases q <;> first | rfl | (simp [Script.prefix] at h)
    subst hpq
    have h := List.append_cancel_left h
    have h := List.append_cancel_left (List.cons.inj h).2
    exact ⟨rfl, hval _ _ (digits_split (zeroPadded_digits _ _) (zeroPadded_digits _ _) rfl rfl h).1⟩
  · have h := congrArg String.toList h
    rw [script_refName_chars, script_mixName_chars] at h
    cases p <;> cases q <;> simp [Script.prefix] at h
  · rw [String.lt_iff, script_refName_chars, script_refName_chars,
      zeroPadded_chars 1 (s + 1) (by norm_num; omega), zeroPadded_chars 1 (t + 1) (by norm_num; omega)]
    refine append_lt_append _ ?_
    rw [List.cons_lt_cons_iff]
    refine Or.inr ⟨rfl, append_lt_append _ (lt_append_of_lt ?_ (fixedDigits_lt (by omega) (by norm_num; omega)) _ _)⟩
    rw [fixedDigits_length, fixedDigits_length]

/-- **C95: the distance of 1.5 m holds at the start only.** A moving source of `dynamic_src.py` can end right between
the ears. -/
theorem C95_distance_kept_fails (g : Gen) (hv : g.value = meetingStream) (hg : FairGen g) :
    placeScript .dynamicSrc g { room := [6, 4], numSources := 1, steps := 2 } 0
      = .ok ⟨[[5.5, 3.5]], [[0.42, 0.5], [0.58, 0.5]],
          some ([[[5.5, 3.5]], [[0.5, 0.5]]], [[[0.42, 0.5], [0.58, 0.5]], [[0.42, 0.5], [0.58, 0.5]]])⟩ := by
  rw [C95_src_like_cli hg rfl ![6, 4] _ (by simp) 0 rfl (by norm_num), hv]
  exact C88_distance_kept_fails.2

/-! ## Cases meeting the hypotheses -/

/-- Three sources in a 6 m × 4 m room with any positive number of microphones: all scripts find a placement. -/
theorem corner_script (script : Script) (num mov : ℤ) (h : 0 < num) :
    ∃ sc, placeScript script cornerGen
      { room := List.ofFn ![6, 4], numSources := 3, numMics := num, numMoving := mov } 0 = .ok sc := by
  obtain ⟨h1, h2, h3⟩ := C95_placement_outcome cornerGen (by norm_num) ![6, 4]
    { room := List.ofFn ![6, 4], numSources := 3, numMics := num, numMoving := mov } rfl 0
  cases script
  · exact h1.mpr ⟨h, by rw [show cornerGen.value = cornerStream from rfl, corner_far _ (by norm_num)]; norm_num⟩
  · exact h2.mpr ⟨h, by norm_num, by
      rw [show cornerGen.value = cornerStream from rfl, corner_far _ (by norm_num)]; norm_num⟩
  · exact h3.mpr ⟨h, by rw [show cornerGen.value = cornerStream from rfl, corner_far _ (by norm_num)]; norm_num⟩

/-- `static.py` with three sources of 8000 samples and five microphones, filtered by halving. -/
example (conv : Flt → ℤ) (randn : ℤ → List ℕ → List ℝ) (x : Fin 3 → Fin 8000 → ℝ) :
    ∃ (mic : Fin 5 → Fin 2 → ℝ) (out : ScriptOutput) (ref : Fin 3 → Fin 5 → ℕ → ℝ), runScript conv (halvingWorld randn) .static cornerGen
        { room := List.ofFn ![6, 4], numSources := 3, numMics := 5 } (tensor2 x) 16000 0 = .ok out ∧
      out.scene.mics = rows mic ∧ out.references = (List.ofFn fun s => micTensor (8000 + 6400 - 1) (ref s)) ∧
      (out.mixture = micTensor (8000 + 6400 - 1) fun m k => ∑ s, ref s m k) ∧
      ScriptFiles .static (8000 + 6400 - 1) (fun m k => ∑ s, ref s m k) ref out.files := by
  obtain ⟨sc, hsc⟩ := corner_script .static 5 1 (by norm_num)
  obtain ⟨c, src, mic, rfl, -⟩ := C95_static_placement cornerGen_fair (by norm_num) ![6, 4] sides64 _ rfl (M := 5)
    (by norm_num) rfl 0 sc hsc
  obtain ⟨ref, files, h, -, hf⟩ := C95_static_output (Or.inl rfl) (by norm_num) (by norm_num) conv (halvingWorld randn)
    cornerGen ![6, 4] (fun i => by linarith [sides64 i]) _ rfl (by norm_num) 8 rfl 16000 (by norm_num) 6400 (by norm_num)
    (by rw [eq_comm, Int.ceil_eq_iff]; norm_num) () rfl _ (halving_acts randn 6400) x 0 src mic hsc
  exact ⟨mic, _, ref, h, rfl, rfl, rfl, hf⟩

/-- `dynamic_src.py` with three sources, two of which move. -/
example (conv : Flt → ℤ) (randn : ℤ → List ℕ → List ℝ) (x : Fin 3 → Fin 8000 → ℝ) :
    ∃ (c : Fin 2 → ℝ) (start : Fin 3 → Fin 2 → ℝ) (src : Fin 16 → Fin 3 → Fin 2 → ℝ) (moving : Finset (Fin 3))
      (out : ScriptOutput), runScript conv (halvingWorld randn) .dynamicSrc cornerGen
        { room := List.ofFn ![6, 4], numSources := 3, numMics := 2, numMoving := 2 } (tensor2 x) 16000 0 = .ok out ∧
      moving.card = 2 ∧ SomeWalk ![6, 4] c start src moving := by
  obtain ⟨sc, hsc⟩ := corner_script .dynamicSrc 2 2 (by norm_num)
  obtain ⟨c, start, src, mic, moving, rfl, -, -, -, hc, hw, -⟩ := C95_src_placement cornerGen_fair (by norm_num) ![6, 4]
    sides64 _ rfl (M := 2) (by norm_num) rfl 0 sc hsc (T := 16) rfl
  obtain ⟨step, hstep, -⟩ := C24_every_sample_has_one_step (T := 16) (N := 8000) (by norm_num) (.uniform none)
  obtain ⟨ref, files, h, -⟩ := C95_dynamic_output (Or.inl rfl) (by norm_num) (by norm_num) (by norm_num) conv
    (halvingWorld randn) .dynamicSrc cornerGen ![6, 4] (fun i => by linarith [sides64 i]) _ rfl (by norm_num) 8 rfl 16000
    (by norm_num) 6400 (by norm_num) (by rw [eq_comm, Int.ceil_eq_iff]; norm_num) () rfl _ (halving_acts randn 6400) x 0
    src (fun _ => mic) _ _ hsc step hstep
  exact ⟨c, start, src, moving, _, h, by norm_num at hc; exact_mod_cast hc, hw⟩

/-- `dynamic_mic.py` with a line of four microphones. -/
example (conv : Flt → ℤ) (randn : ℤ → List ℕ → List ℝ) (x : Fin 3 → Fin 8000 → ℝ) :
    ∃ (c : Fin 16 → Fin 2 → ℝ) (mic : Fin 16 → Fin 4 → Fin 2 → ℝ) (out : ScriptOutput),
      runScript conv (halvingWorld randn) .dynamicMic cornerGen
        { room := List.ofFn ![6, 4], numSources := 3, numMics := 4 } (tensor2 x) 16000 0 = .ok out ∧
      ∀ t t' m i, mic t m i - c t i = mic t' m i - c t' i := by
  obtain ⟨sc, hsc⟩ := corner_script .dynamicMic 4 1 (by norm_num)
  obtain ⟨start, stop, c, src, mic, rfl, -, -, -, -, -, -, hr, -⟩ := C95_mic_placement cornerGen_fair (by norm_num) ![6, 4]
    sides64 _ rfl (M := 4) (by norm_num) rfl 0 sc hsc (T := 16) rfl
  obtain ⟨step, hstep, -⟩ := C24_every_sample_has_one_step (T := 16) (N := 8000) (by norm_num) (.uniform none)
  obtain ⟨ref, files, h, -⟩ := C95_dynamic_output (Or.inl rfl) (by norm_num) (by norm_num) (by norm_num) conv
    (halvingWorld randn) .dynamicMic cornerGen ![6, 4] (fun i => by linarith [sides64 i]) _ rfl (by norm_num) 8 rfl 16000
    (by norm_num) 6400 (by norm_num) (by rw [eq_comm, Int.ceil_eq_iff]; norm_num) () rfl _ (halving_acts randn 6400) x 0
    (fun _ => src) mic _ _ hsc step hstep
  exact ⟨c, mic, _, h, hr (by norm_num)⟩

/-- A generator of the unit interval's ends that lets the one source walk to the ears. -/
example : ∃ g : Gen, g.value = meetingStream ∧ FairGen g :=
  ⟨⟨meetingStream, fun _ => false, fun _ _ m => List.range m⟩, rfl, C88_distance_kept_fails.1,
    fun _ n m h => ⟨List.nodup_range, List.length_range, fun i hi => by
      have : i < m := by simpa using hi
      omega⟩⟩

end Torchrir.Props
