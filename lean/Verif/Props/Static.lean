import Verif.Lemmas.Plan

/-!
# C05–C08, C13: what `simulate_rir` and `simulate_dynamic_rir` compute
-/

namespace Torchrir.Props

open Torchrir.Model Torchrir.Spec Torchrir.Lemmas

/-! ## C05 -/

/-- **C05.** With the filter disabled and no diffuse tail an omnidirectional call succeeds and
returns, for every source, microphone and sample, the sum over the selected images of
gain / distance times the fractional delay kernel (`Spec.rir`). -/
theorem C05_static_rir_formula {d nS nM : ℕ} (hd : d = 2 ∨ d = 3) (hS : 0 < nS) (hM : 0 < nM)
    (w : World) (L lo hi : Fin d → ℝ) (fs c : ℝ) (hfs : 0 < fs) (_hc : 0 < c)
    (sel : Selection d) (K : ℕ) (hK : 0 < K)
    (cfg : Config) (hcfg : cfg.validate = .ok ()) (hoff : cfg.rirHpfEnable = false)
    (src : Fin nS → Fin d → ℝ) (mic : Fin nM → Fin d → ℝ) :
    simulateRir w (boxRoom L lo hi fs c) (points src) (points mic) (omniArgs sel K cfg)
      = .ok (tensor3 fun s m (k : Fin K) =>
          rir (setupFor w cfg L lo hi fs c) sel.images omni omni (src s) (mic m) k) := by
  rw [omni_static_eval hd hS hM w L lo hi fs c hfs sel K hK cfg hcfg, applyRirHpf_off _ _ _ hoff]

/-- The default configuration without the filter is valid. -/
theorem plainConfig_valid : ({ rirHpfEnable := false } : Config).validate = .ok () := by
  rw [Config.valid_iff]
  refine ⟨?_, ?_, ?_, ?_, ?_⟩ <;> simp

/-- A 4 m × 5 m room with one source and two microphones at order 3. -/
example (w : World) : ∃ R, simulateRir w (boxRoom ![4, 5] ![0.9, 0.8] ![0.7, 0.6] 16000 343)
    (points ![![1, 2]]) (points ![![3, 4], ![2, 2]])
    (omniArgs (d := 2) (.order 3) 1000 { rirHpfEnable := false }) = .ok R ∧ R.shape = [1, 2, 1000] :=
  ⟨_, C05_static_rir_formula (Or.inl rfl) (by norm_num) (by norm_num) w _ _ _ _ _ (by norm_num)
    (by norm_num) _ _ (by norm_num) _ plainConfig_valid rfl _ _, rfl⟩

/-! ## C06 -/

/-- The configuration with other chunk sizes. -/
def withChunks (cfg : Config) (image acc : ℤ) : Config :=
  { cfg with imageChunkSize := image, accumulateChunkSize := acc }

theorem resolveConfig_chunks {a : SimArgs} {cfg : Config} {i j i' j' : ℤ} (hi : 0 < i')
    (hj : 0 < j') {r : Config × ℤ × Option ℝ × DirArg}
    (h : resolveConfig { a with config := some (withChunks cfg i j) } = .ok r) :
    r.1 = withChunks cfg i j ∧
    resolveConfig { a with config := some (withChunks cfg i' j') }
      = .ok (withChunks cfg i' j', r.2.1, r.2.2.1, r.2.2.2) := by
  have hv := resolveConfig_valid h
  unfold resolveConfig at h ⊢
  simp only [Option.getD_some, bind_eq_ok] at h
  obtain ⟨_, h1, N, h2, h3⟩ := h
  cases h3
  refine ⟨rfl, ?_⟩
  have hv' : (withChunks cfg i' j').validate = .ok () := by
    rw [Config.valid_iff] at hv ⊢
    obtain ⟨a1, a2, a3, a4, a5, a6, a7, a8, a9, a10⟩ := hv
    exact ⟨a1, a2, a3, a4, a5, a6, hi, hj, a9, a10⟩
  simp only [Option.getD_some]
  rw [hv', ok_bind]
  have h2' : resolveMaxOrder a.maxOrder (withChunks cfg i' j').maxOrder = .ok N := h2
  rw [h2', ok_bind]
  rfl

theorem planOk_chunks {d nS nM : ℕ} {room : Room} {a : SimArgs} {cfg : Config} {i j i' j' : ℤ}
    (hi : 0 < i') (hj : 0 < j') {L : Fin d → ℝ} {P : Plan d nS nM}
    {u : Fin nS → Fin nM → (Fin d → ℝ) → Prop}
    (h : PlanOk room { a with config := some (withChunks cfg i j) } L P u) :
    P.cfg = withChunks cfg i j ∧
    PlanOk room { a with config := some (withChunks cfg i' j') } L
      { P with cfg := withChunks cfg i' j' } u := by
  obtain ⟨e, e'⟩ := resolveConfig_chunks (i' := i') (j' := j') hi hj h.res
  exact ⟨e, h.hd, h.hS, h.hM, h.size, h.beta, e', h.val, h.img, h.imgA, h.split, h.hmd, h.hsd,
    h.gains⟩

theorem static_chunks {w : World} {room : Room} {sources mics : Entity} (hfs : 0 < room.fs)
    (hs : sources.positions.WF) (hm : mics.positions.WF) {a : SimArgs} {cfg : Config}
    {i j i' j' : ℤ} (hi : 0 < i') (hj : 0 < j') {r : Tensor ℝ}
    (h : simulateRir w room sources mics { a with config := some (withChunks cfg i j) } = .ok r) :
    simulateRir w room sources mics { a with config := some (withChunks cfg i' j') } = .ok r := by
  obtain ⟨L, nS, nM, src, mic, hsize, e1, e2⟩ := static_shapes hs hm h
  obtain ⟨P, hP⟩ := StaticPlan.exists hsize e1 e2 h
  obtain ⟨hc, hP2⟩ := planOk_chunks hi hj hP.toPlanOk
  have hP' : StaticPlan room sources mics { a with config := some (withChunks cfg i' j') } L src mic
      { P with cfg := withChunks cfg i' j' } := ⟨hP2, hP.hsrc, hP.hmic⟩
  rw [hP.eval w hfs.ne'] at h
  rw [hP'.eval w hfs.ne', ← h]
  obtain ⟨Pcfg, _⟩ := P
  simp only at hc
  subst hc
  rfl

theorem dynamic_chunks {w : World} {room : Room} {sT mT : Tensor ℝ} (hfs : 0 < room.fs)
    (hs : sT.WF) (hm : mT.WF) {a : SimArgs} {cfg : Config}
    {i j i' j' : ℤ} (hi : 0 < i') (hj : 0 < j') {r : Tensor ℝ}
    (h : simulateDynamicRir w room sT mT { a with config := some (withChunks cfg i j) } = .ok r) :
    simulateDynamicRir w room sT mT { a with config := some (withChunks cfg i' j') } = .ok r := by
  obtain ⟨L, nT, nS, nM, src, mic, hsize, e1, e2⟩ := dynamic_shapes hs hm h
  obtain ⟨P, hP⟩ := DynamicPlan.exists hsize e1 e2 h
  obtain ⟨hc, hP2⟩ := planOk_chunks hi hj hP.toPlanOk
  have hP' : DynamicPlan room { a with config := some (withChunks cfg i' j') } L src mic
      { P with cfg := withChunks cfg i' j' } := ⟨hP2, hP.hT, hP.hori⟩
  rw [hP.eval w hfs.ne' e1 e2] at h
  rw [hP'.eval w hfs.ne' e1 e2, ← h]
  obtain ⟨Pcfg, _⟩ := P
  simp only at hc
  subst hc
  rfl

/-- **C06, static.** Any two choices of positive chunk sizes give the same result, for every
call (directional, filtered, with diffuse tail, ...). -/
theorem C06_chunk_sizes_irrelevant_static (w : World) (room : Room) (sources mics : Entity)
    (hfs : 0 < room.fs) (hs : sources.positions.WF) (hm : mics.positions.WF) (a : SimArgs)
    (cfg : Config) (i₁ j₁ i₂ j₂ : ℤ) (hi₁ : 0 < i₁) (hj₁ : 0 < j₁) (hi₂ : 0 < i₂) (hj₂ : 0 < j₂)
    (r : Tensor ℝ) :
    simulateRir w room sources mics { a with config := some ({ cfg with imageChunkSize := i₁, accumulateChunkSize := j₁ }) } = .ok r ↔
    simulateRir w room sources mics { a with config := some ({ cfg with imageChunkSize := i₂, accumulateChunkSize := j₂ }) } = .ok r :=
  ⟨static_chunks hfs hs hm hi₂ hj₂, static_chunks hfs hs hm hi₁ hj₁⟩

/-- **C06, dynamic.** -/
theorem C06_chunk_sizes_irrelevant_dynamic (w : World) (room : Room) (srcTraj micTraj : Tensor ℝ)
    (hfs : 0 < room.fs) (hs : srcTraj.WF) (hm : micTraj.WF) (a : SimArgs)
    (cfg : Config) (i₁ j₁ i₂ j₂ : ℤ) (hi₁ : 0 < i₁) (hj₁ : 0 < j₁) (hi₂ : 0 < i₂) (hj₂ : 0 < j₂)
    (r : Tensor ℝ) :
    simulateDynamicRir w room srcTraj micTraj { a with config := some ({ cfg with imageChunkSize := i₁, accumulateChunkSize := j₁ }) } = .ok r ↔
    simulateDynamicRir w room srcTraj micTraj { a with config := some ({ cfg with imageChunkSize := i₂, accumulateChunkSize := j₂ }) } = .ok r :=
  ⟨dynamic_chunks hfs hs hm hi₂ hj₂, dynamic_chunks hfs hs hm hi₁ hj₁⟩

/-- Chunks of 7 images and 3 accumulated images against the defaults. -/
example (w : World) : ∃ r,
    simulateRir w (boxRoom ![4, 5] ![0.9, 0.8] ![0.7, 0.6] 16000 343)
      (points ![![1, 2]]) (points ![![3, 4], ![2, 2]])
      (omniArgs (d := 2) (.order 3) 1000 { rirHpfEnable := false }) = .ok r ∧
    simulateRir w (boxRoom ![4, 5] ![0.9, 0.8] ![0.7, 0.6] 16000 343)
      (points ![![1, 2]]) (points ![![3, 4], ![2, 2]])
      (omniArgs (d := 2) (.order 3) 1000
        { rirHpfEnable := false, imageChunkSize := 7, accumulateChunkSize := 3 }) = .ok r := by
  refine ⟨_, C05_static_rir_formula (Or.inl rfl) (by norm_num) (by norm_num) w _ _ _ _ _
    (by norm_num) (by norm_num) _ _ (by norm_num) _ plainConfig_valid rfl _ _, ?_⟩
  exact (C06_chunk_sizes_irrelevant_static w _ _ _ (by norm_num [boxRoom])
    (by simp [points, tensor2, Tensor.WF]) (by simp [points, tensor2, Tensor.WF])
    (omniArgs (d := 2) (.order 3) 1000 {}) { rirHpfEnable := false } 2048 4096 7 3 (by norm_num)
    (by norm_num) (by norm_num) (by norm_num) _).mp
    (C05_static_rir_formula (Or.inl rfl) (by norm_num) (by norm_num) w _ _ _ _ _
    (by norm_num) (by norm_num) _ _ (by norm_num) _ plainConfig_valid rfl _ _)

/-! ## C08 -/

theorem resolveConfig_nsample (a : SimArgs) (n : Option ℤ) :
    resolveConfig { a with nsample := n } = resolveConfig a := rfl

theorem validateArgs_nsample {room : Room} {n : Option ℤ} {tmax : Option ℝ} {N K : ℤ}
    (h : validateArgs room n tmax N = .ok K) (K' : ℕ) (hK : 0 < K') :
    validateArgs room (some (K' : ℤ)) tmax N = .ok K' := by
  obtain ⟨_, _, hN⟩ := validateArgs_inv h
  unfold validateArgs resolveNsample
  simp only
  rw [ok_bind, raiseIf_neg (by omega), ok_bind, raiseIf_neg (by omega), ok_bind]
  rfl

/-- **C08, static.** If a call without filter and tail succeeds with `nsample = b`, then its
result is the first `b` samples of one fixed family of responses, and every other positive
`nsample` gives the corresponding number of samples of the same family. -/
theorem C08_prefix_static (w : World) (room : Room) (sources mics : Entity)
    (hfs : 0 < room.fs) (hs : sources.positions.WF) (hm : mics.positions.WF) (a : SimArgs)
    (cfg : Config) (hcfg : a.config = some cfg) (hoff : cfg.rirHpfEnable = false)
    (htd : a.tdiff = none) (b : ℕ) (R : Tensor ℝ)
    (h : simulateRir w room sources mics { a with nsample := some (b : ℤ) } = .ok R) :
    ∃ (nS nM : ℕ) (f : Fin nS → Fin nM → ℕ → ℝ),
      R = tensor3 (fun s m (k : Fin b) => f s m k) ∧
      ∀ a' : ℕ, 0 < a' →
        simulateRir w room sources mics { a with nsample := some (a' : ℤ) }
          = .ok (tensor3 fun s m (k : Fin a') => f s m k) := by
  obtain ⟨L, nS, nM, src, mic, hsize, e1, e2⟩ := static_shapes hs hm h
  obtain ⟨P, hP⟩ := StaticPlan.exists hsize e1 e2 h
  have hPc : P.cfg = cfg := by
    have := hP.res
    rw [resolveConfig_nsample] at this
    unfold resolveConfig at this
    simp only [hcfg, Option.getD_some, bind_eq_ok] at this
    obtain ⟨_, _, _, _, h3⟩ := this
    exact (congrArg (fun p => p.1) (Except.ok.inj h3)).symm
  have key : ∀ a' : ℕ, 0 < a' →
      simulateRir w room sources mics { a with nsample := some (a' : ℤ) }
        = .ok (tensor3 fun s m (k : Fin a') =>
            rir (P.setup w room L) P.A (P.gs s) (P.gm m) (src s) (mic m) k) := by
    intro a' ha'
    have hP' : StaticPlan room sources mics { a with nsample := some (a' : ℤ) } L src mic
        { P with K := a' } :=
      ⟨⟨hP.hd, hP.hS, hP.hM, hP.size, hP.beta, hP.res, validateArgs_nsample hP.val a' ha', hP.img,
        hP.imgA, hP.split, hP.hmd, hP.hsd, hP.gains⟩, hP.hsrc, hP.hmic⟩
    rw [hP'.eval w hfs.ne']
    show (diffuseStep _ _ _ _ a.tdiff _ _ >>= _) = _
    rw [htd]
    show applyRirHpf _ _ P.cfg _ = _
    rw [applyRirHpf_off _ _ _ (by rw [hPc]; exact hoff)]
    rfl
  have hb : 0 < b := by
    have := (validateArgs_inv hP.val).1
    have h2 := (validateArgs_inv hP.val).2.1
    have h3 := Except.ok.inj this
    omega
  refine ⟨nS, nM, fun s m k => rir (P.setup w room L) P.A (P.gs s) (P.gm m) (src s) (mic m) k,
    ?_, key⟩
  rw [key b hb] at h
  exact (Except.ok.inj h).symm

/-- **C08, dynamic.** -/
theorem C08_prefix_dynamic (w : World) (room : Room) (srcTraj micTraj : Tensor ℝ)
    (hfs : 0 < room.fs) (hs : srcTraj.WF) (hm : micTraj.WF) (a : SimArgs)
    (cfg : Config) (hcfg : a.config = some cfg) (hoff : cfg.rirHpfEnable = false)
    (b : ℕ) (R : Tensor ℝ)
    (h : simulateDynamicRir w room srcTraj micTraj { a with nsample := some (b : ℤ) } = .ok R) :
    ∃ (nT nS nM : ℕ) (f : Fin nT → Fin nS → Fin nM → ℕ → ℝ),
      R = tensor4 (fun t s m (k : Fin b) => f t s m k) ∧
      ∀ a' : ℕ, 0 < a' →
        simulateDynamicRir w room srcTraj micTraj { a with nsample := some (a' : ℤ) }
          = .ok (tensor4 fun t s m (k : Fin a') => f t s m k) := by
  obtain ⟨L, nT, nS, nM, src, mic, hsize, e1, e2⟩ := dynamic_shapes hs hm h
  obtain ⟨P, hP⟩ := DynamicPlan.exists hsize e1 e2 h
  have hPc : P.cfg = cfg := by
    have := hP.res
    rw [resolveConfig_nsample] at this
    unfold resolveConfig at this
    simp only [hcfg, Option.getD_some, bind_eq_ok] at this
    obtain ⟨_, _, _, _, h3⟩ := this
    exact (congrArg (fun p => p.1) (Except.ok.inj h3)).symm
  have key : ∀ a' : ℕ, 0 < a' →
      simulateDynamicRir w room srcTraj micTraj { a with nsample := some (a' : ℤ) }
        = .ok (tensor4 fun t s m (k : Fin a') =>
            rir (P.setup w room L) P.A (P.gs s) (P.gm m) (src t s) (mic t m) k) := by
    intro a' ha'
    have hP' : DynamicPlan room { a with nsample := some (a' : ℤ) } L src mic
        { P with K := a' } :=
      ⟨⟨hP.hd, hP.hS, hP.hM, hP.size, hP.beta, hP.res, validateArgs_nsample hP.val a' ha', hP.img,
        hP.imgA, hP.split, hP.hmd, hP.hsd, hP.gains⟩, hP.hT, hP.hori⟩
    rw [hP'.eval w hfs.ne' e1 e2]
    show applyRirHpf _ _ P.cfg _ = _
    rw [applyRirHpf_off _ _ _ (by rw [hPc]; exact hoff)]
    rfl
  have hb : 0 < b := by
    have := (validateArgs_inv hP.val).1
    have h2 := (validateArgs_inv hP.val).2.1
    have h3 := Except.ok.inj this
    omega
  refine ⟨nT, nS, nM,
    fun t s m k => rir (P.setup w room L) P.A (P.gs s) (P.gm m) (src t s) (mic t m) k, ?_, key⟩
  rw [key b hb] at h
  exact (Except.ok.inj h).symm

/-- The 1000 sample result above and its first 100 samples. -/
example (w : World) : ∃ f : Fin 1 → Fin 2 → ℕ → ℝ,
    simulateRir w (boxRoom ![4, 5] ![0.9, 0.8] ![0.7, 0.6] 16000 343)
      (points ![![1, 2]]) (points ![![3, 4], ![2, 2]])
      (omniArgs (d := 2) (.order 3) 1000 { rirHpfEnable := false })
        = .ok (tensor3 fun s m (k : Fin 1000) => f s m k) ∧
    simulateRir w (boxRoom ![4, 5] ![0.9, 0.8] ![0.7, 0.6] 16000 343)
      (points ![![1, 2]]) (points ![![3, 4], ![2, 2]])
      (omniArgs (d := 2) (.order 3) 100 { rirHpfEnable := false })
        = .ok (tensor3 fun s m (k : Fin 100) => f s m k) :=
  ⟨_, C05_static_rir_formula (Or.inl rfl) (by norm_num) (by norm_num) w _ _ _ _ _
    (by norm_num) (by norm_num) _ _ (by norm_num) _ plainConfig_valid rfl _ _,
    C05_static_rir_formula (Or.inl rfl) (by norm_num) (by norm_num) w _ _ _ _ _
    (by norm_num) (by norm_num) _ _ (by norm_num) _ plainConfig_valid rfl _ _⟩

/-! ## C13 -/

theorem stack_ofRows3 {t a b n : ℕ} (ht : 0 < t) (f : Fin t → Fin a → Fin b → List ℝ) :
    stack (List.ofFn fun u => ofRows3 n (f u)) = ofRows4 n f := by
  obtain ⟨t, rfl⟩ : ∃ t', t = t' + 1 := ⟨t - 1, by omega⟩
  unfold stack ofRows4
  rw [List.map_ofFn]
  congr 1
  simp [ofRows3]

theorem prepareEntity_raw {p : Tensor ℝ} {o : Option OriArg} {so mo : Option (Tensor ℝ)} :
    splitOrientation o = .ok (so, mo) ↔
      prepareEntity ⟨p, none⟩ o true = .ok (p, so) ∧ prepareEntity ⟨p, none⟩ o false = .ok (p, mo) := by
  unfold splitOrientation prepareEntity
  rcases o with _ | t | ts
  · simp
  · simp
  · rcases ts with _ | ⟨x, _ | ⟨y, _ | ⟨z, ts⟩⟩⟩ <;> simp

theorem prepareEntity_raw_any {p q : Tensor ℝ} {o : Option OriArg} {b : Bool}
    {so : Option (Tensor ℝ)} (h : prepareEntity ⟨p, none⟩ o b = .ok (p, so)) :
    prepareEntity ⟨q, none⟩ o b = .ok (q, so) := by
  unfold prepareEntity at h ⊢
  rcases o with _ | t | ts
  · cases h; rfl
  · cases h; rfl
  · rcases ts with _ | ⟨x, _ | ⟨y, _ | ⟨z, ts⟩⟩⟩
    · cases h
    · cases h
    · cases h; rfl
    · cases h

theorem asPoints_tensor2 {n d : ℕ} (f : Fin n → Fin d → ℝ) : asPoints (tensor2 f) = tensor2 f := rfl

theorem asTraj_tensor3 {a n d : ℕ} (f : Fin a → Fin n → Fin d → ℝ) :
    asTraj (tensor3 f) = tensor3 f := rfl

/-- **C13.** A dynamic simulation succeeds exactly when the static simulation of every time step
(same room, order, length, directivity, orientation and configuration, no diffuse tail) does,
and its result is the stack of the static results. -/
theorem C13_dynamic_is_static_per_step {d nT nS nM : ℕ} (hT : 0 < nT) (w : World) (room : Room)
    (L : Fin d → ℝ) (hsize : room.size = List.ofFn L) (hfs : 0 < room.fs)
    (src : Fin nT → Fin nS → Fin d → ℝ) (mic : Fin nT → Fin nM → Fin d → ℝ)
    (a : SimArgs) (R : Tensor ℝ) :
    simulateDynamicRir w room (tensor3 src) (tensor3 mic) a = .ok R ↔
      ∃ Rs : Fin nT → Tensor ℝ,
        (∀ t, simulateRir w room (points (src t)) (points (mic t)) { a with tdiff := none }
          = .ok (Rs t)) ∧
        R = stack (List.ofFn Rs) := by
  constructor
  · intro h
    obtain ⟨P, hP⟩ := DynamicPlan.exists hsize (asTraj_tensor3 src) (asTraj_tensor3 mic) h
    rw [hP.ok_iff w hfs.ne' (asTraj_tensor3 src) (asTraj_tensor3 mic)] at h
    obtain ⟨rows, hrows, rfl⟩ := h
    refine ⟨fun t => ofRows3 P.K.toNat (rows t), fun t => ?_, (stack_ofRows3 hT rows).symm⟩
    have hPt : StaticPlan room (points (src t)) (points (mic t)) { a with tdiff := none } L (src t)
        (mic t) P := by
      refine ⟨⟨hP.hd, hP.hS, hP.hM, hP.size, hP.beta, hP.res, hP.val, hP.img,
        hP.imgA, hP.split, hP.hmd, hP.hsd, ⟨hP.gains.src_some, hP.gains.mic_some, ?_, ?_⟩⟩, ?_, ?_⟩
      · rintro s m v ⟨n, hn, rfl⟩
        exact hP.gains.src s m _ ⟨t, n, hn, rfl⟩
      · intro m
        obtain ⟨mv, h1, h2⟩ := hP.gains.mic m
        refine ⟨mv, h1, ?_⟩
        rintro s v ⟨n, hn, rfl⟩
        exact h2 s _ ⟨t, n, hn, rfl⟩
      · exact ⟨_, (prepareEntity_raw.mp hP.hori).1, asPoints_tensor2 _⟩
      · exact ⟨_, (prepareEntity_raw.mp hP.hori).2, asPoints_tensor2 _⟩
    rw [hPt.ok_iff w hfs.ne' rfl]
    exact ⟨rows t, hrows t, rfl⟩
  · rintro ⟨Rs, hRs, rfl⟩
    have hex : ∀ t, ∃ P : Plan d nS nM, StaticPlan room (points (src t)) (points (mic t))
        { a with tdiff := none } L (src t) (mic t) P := fun t =>
      StaticPlan.exists hsize (asPoints_tensor2 _) (asPoints_tensor2 _) (hRs t)
    choose Ps hPs using hex
    set t0 : Fin nT := ⟨0, hT⟩
    have hori : splitOrientation a.orientation = .ok ((Ps t0).so, (Ps t0).mo) := by
      obtain ⟨p, hp, _⟩ := (hPs t0).hsrc
      obtain ⟨q, hq, _⟩ := (hPs t0).hmic
      have e1 := prepareEntity_pos hp
      have e2 := prepareEntity_pos hq
      subst e1 e2
      exact prepareEntity_raw.mpr ⟨hp, prepareEntity_raw_any hq⟩
    have huniq : ∀ t, Ps t = Ps t0 := by
      intro t
      apply PlanOk.unique (hPs t0).toPlanOk (hPs t).toPlanOk rfl rfl rfl
      · obtain ⟨p, hp, _⟩ := (hPs t).hsrc
        have e1 := prepareEntity_pos hp
        subst e1
        have := (prepareEntity_raw (p := tensor2 (src t))).mp hori
        have e : prepareEntity (points (src t)) a.orientation true = _ := this.1
        rw [e] at hp
        exact (Prod.mk.inj (Except.ok.inj hp)).2.symm
      · obtain ⟨p, hp, _⟩ := (hPs t).hmic
        have e1 := prepareEntity_pos hp
        subst e1
        have := (prepareEntity_raw (p := tensor2 (mic t))).mp hori
        have e : prepareEntity (points (mic t)) a.orientation false = _ := this.2
        rw [e] at hp
        exact (Prod.mk.inj (Except.ok.inj hp)).2.symm
    generalize Ps t0 = P at *
    have hP0 : ∀ t, StaticPlan room (points (src t)) (points (mic t))
        { a with tdiff := none } L (src t) (mic t) P := fun t => huniq t ▸ hPs t
    have h0 := hP0 t0
    have hP : DynamicPlan room a L src mic P := by
      refine ⟨⟨h0.hd, h0.hS, h0.hM, h0.size, h0.beta, h0.res, h0.val, h0.img,
        h0.imgA, h0.split, h0.hmd, h0.hsd, ⟨h0.gains.src_some, h0.gains.mic_some, ?_, ?_⟩⟩, hT, hori⟩
      · rintro s m v ⟨t, n, hn, rfl⟩
        exact (hP0 t).gains.src s m _ ⟨n, hn, rfl⟩
      · intro m
        obtain ⟨mv, h1, h2⟩ := h0.gains.mic m
        refine ⟨mv, h1, ?_⟩
        rintro s v ⟨t, n, hn, rfl⟩
        obtain ⟨mv', h1', h2'⟩ := (hP0 t).gains.mic m
        rw [h1] at h1'
        cases h1'
        exact h2' s _ ⟨n, hn, rfl⟩
    rw [hP.ok_iff w hfs.ne' (asTraj_tensor3 src) (asTraj_tensor3 mic)]
    have hrow : ∀ t, ∃ rows : Fin nS → Fin nM → List ℝ,
        (∀ s m, rowFilter w room.fs P.cfg (P.row w room L s m (src t s) (mic t m))
          = .ok (rows s m)) ∧ Rs t = ofRows3 P.K.toNat rows := fun t =>
      ((hP0 t).ok_iff w hfs.ne' rfl (Rs t)).mp (hRs t)
    choose rows hrows hR using hrow
    refine ⟨rows, hrows, ?_⟩
    rw [show Rs = fun t => ofRows3 P.K.toNat (rows t) from funext hR, stack_ofRows3 hT]

/-- A source moving over two steps in front of a fixed microphone. -/
example (w : World) : ∃ R,
    simulateDynamicRir w (boxRoom ![4, 5] ![0.9, 0.8] ![0.7, 0.6] 16000 343)
      (tensor3 ![![![1, 2]], ![![2, 2]]]) (tensor3 ![![![3, 4]], ![![3, 4]]])
      (omniArgs (d := 2) (.order 3) 1000 { rirHpfEnable := false }) = .ok R ∧ R.shape = [2, 1, 1, 1000] := by
  refine ⟨_, (C13_dynamic_is_static_per_step (by norm_num) w _ ![4, 5] rfl (by norm_num [boxRoom])
    _ _ _ _).mpr ⟨_, fun t => C05_static_rir_formula (Or.inl rfl) (by norm_num) (by norm_num)
    w _ _ _ _ _ (by norm_num) (by norm_num) _ _ (by norm_num) _ plainConfig_valid rfl _ _, rfl⟩, ?_⟩
  rfl

end Torchrir.Props
