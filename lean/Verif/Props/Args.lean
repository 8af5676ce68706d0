import Verif.Props.Symmetry

/-!
# C18, C20, C21: diffuse tail, wall coefficients and argument resolution
-/

namespace Torchrir.Props

open Torchrir.Model Torchrir.Spec Torchrir.Lemmas

theorem bind_congr_ok {α β : Type} {x : Except String α} {f g : α → Except String β}
    (h : ∀ a, x = .ok a → f a = g a) : x >>= f = x >>= g := by
  cases x with
  | error e => rfl
  | ok a => exact h a rfl

/-! ## C18 -/

theorem zipWith_flatten_ofFn {α β γ : Type} (F : α → β → γ) {n : ℕ} (a : Fin n → List α)
    (b : Fin n → List β) (h : ∀ i, (a i).length = (b i).length) :
    List.zipWith F (List.ofFn a).flatten (List.ofFn b).flatten
      = (List.ofFn fun i => List.zipWith F (a i) (b i)).flatten := by
  induction n with
  | zero => simp
  | succ n ih =>
    rw [List.ofFn_succ, List.ofFn_succ, List.ofFn_succ, List.flatten_cons, List.flatten_cons,
      List.flatten_cons, List.zipWith_append (h 0), ih _ _ fun i => h i.succ]

theorem zipWith_ofFn {α β γ : Type} (F : α → β → γ) {n : ℕ} (a : Fin n → α) (b : Fin n → β) :
    List.zipWith F (List.ofFn a) (List.ofFn b) = List.ofFn fun i => F (a i) (b i) := by
  apply List.ext_getElem
  · simp
  · intro i h1 h2; simp

theorem estimateT60_total {d : ℕ} (hd : d = 2 ∨ d = 3) (L lo hi : Fin d → ℝ) :
    ∃ t, estimateT60FromBeta (List.ofFn L) (wallList lo hi) = .ok t := by
  rcases hd with rfl | rfl
  · simp only [List.ofFn_succ, List.ofFn_zero, estimateT60FromBeta, wallList]
    rw [if_neg (by simp)]
    split <;> exact ⟨_, rfl⟩
  · simp only [List.ofFn_succ, List.ofFn_zero, estimateT60FromBeta, wallList]
    rw [if_neg (by simp)]
    split <;> exact ⟨_, rfl⟩

/-- The tail replaces samples from `min (K - 1) ⌊tdiff fs⌋` on and nothing before. -/
theorem applyDiffuseTail_spec {d nS nM K : ℕ} (hd : d = 2 ∨ d = 3) (w : World)
    (hw : ∀ seed shape, (w.randn seed shape).length = shape.prod) (room : Room) (L lo hi : Fin d → ℝ)
    (hsize : room.size = List.ofFn L) (f : Fin nS → Fin nM → Fin K → ℝ) (td : ℝ)
    (seed : Option ℤ) :
    ∃ g : Fin nS → Fin nM → Fin K → ℝ,
      applyDiffuseTail w (tensor3 f) room (wallList lo hi) td seed = .ok (tensor3 g) ∧
      ∀ s m (k : Fin K), ((k : ℕ) : ℤ) < min ((K : ℤ) - 1) ⌊td * room.fs⌋ → g s m k = f s m k := by
  unfold applyDiffuseTail
  have hK : (tensor3 f).shape.getLastD 0 = K := by simp [tensor3]
  simp only [hK]
  by_cases h0 : min ((K : ℤ) - 1) ⌊td * room.fs⌋ ≤ 0
  · rw [if_pos h0]
    exact ⟨f, rfl, fun _ _ _ _ => rfl⟩
  · rw [if_neg h0]
    obtain ⟨t60, ht⟩ := estimateT60_total hd L lo hi
    rw [hsize, ht, ok_bind]
    set i0 : ℕ := (min ((K : ℤ) - 1) ⌊td * room.fs⌋).toNat with hi0
    have hi0K : i0 ≤ K := by omega
    obtain ⟨ν, hν⟩ := exists_tensor3 ⟨[nS, nM, K - i0], w.randn (seed.getD 0) [nS, nM, K - i0]⟩
      (hw _ _) nS nM (K - i0) rfl
    have hshape : (tensor3 f).shape.dropLast = [nS, nM] := by simp [tensor3]
    have hgr : groups ((tensor3 f).shape.dropLast.prod) (K - i0)
        (w.randn (seed.getD 0) ((tensor3 f).shape.dropLast ++ [K - i0]))
        = (List.ofFn fun i => List.ofFn fun j => List.ofFn (ν i j)).flatten := by
      rw [hshape]
      have h1 := ofRows3_lastAxisRows (n := K - i0) (fun i j => List.ofFn (ν i j)) (by simp)
      rw [← tensor3_eq_ofRows3, ← hν] at h1
      rw [← h1]
      simp [Tensor.lastAxisRows]
    rw [hgr, tensor3_eq_ofRows3, ofRows3_lastAxisRows _ (by simp)]
    generalize hdec : List.map (fun (i : ℕ) => _) (List.range (K - i0)) = decay
    have hdl : decay.length = K - i0 := by rw [← hdec]; simp
    rw [zipWith_flatten_ofFn _ _ _ (by simp)]
    simp only [zipWith_ofFn]
    set row : Fin nS → Fin nM → List ℝ := fun i j => (List.ofFn (f i j)).take i0 ++
      List.zipWith (fun a b => a * b * (|(List.ofFn (f i j)).getD (i0 - 1) 0| + 1e-8))
        (List.ofFn (ν i j)) decay with hrow
    have hlen : ∀ i j, (row i j).length = K := by
      intro i j
      simp [hrow, hdl]
      omega
    refine ⟨fun s m k => (row s m)[k]'(by rw [hlen]; exact k.2), ?_, ?_⟩
    · show Except.ok _ = _
      congr 1
      have e : ∀ i j, List.ofFn (fun k : Fin K => (row i j)[k]'(by rw [hlen]; exact k.2)) = row i j := by
        intro i j
        apply List.ext_getElem
        · simp [hlen]
        · intro k h1 h2; simp
      rw [tensor3_eq_ofRows3]
      simp only [e]
      show Tensor.mk _ _ = ofRows3 K row
      have := ofRows3_data (n := K) row
      conv_rhs => rw [show ofRows3 K row = ⟨(ofRows3 K row).shape, (ofRows3 K row).data⟩ from rfl, this]
      rfl
    · intro s m k hk
      have hk' : (k : ℕ) < i0 := by omega
      simp only [hrow]
      rw [Fin.getElem_fin, List.getElem_append_left (by simp; omega)]
      simp

/-- The time limit a call uses: the argument, else the configuration. -/
noncomputable def effectiveTmax (a : SimArgs) : Option ℝ :=
  a.tmax.orElse fun _ => (a.config.getD defaultConfig).tmax

theorem tmax_of_resolve {a : SimArgs} {r : Config × ℤ × Option ℝ × DirArg}
    (h : resolveConfig a = .ok r) : r.2.2.1 = effectiveTmax a := by
  unfold resolveConfig at h
  simp only [bind_eq_ok] at h
  obtain ⟨_, _, _, _, h3⟩ := h
  cases h3
  rfl

theorem cfg_of_resolve' {a : SimArgs} {r : Config × ℤ × Option ℝ × DirArg}
    (h : resolveConfig a = .ok r) : r.1 = a.config.getD defaultConfig := by
  unfold resolveConfig at h
  simp only [bind_eq_ok] at h
  obtain ⟨_, _, _, _, h3⟩ := h
  cases h3
  rfl

theorem StaticPlan.withTdiff {d nS nM : ℕ} {room : Room} {sources mics : Entity} {a : SimArgs}
    {L : Fin d → ℝ} {src : Fin nS → Fin d → ℝ} {mic : Fin nM → Fin d → ℝ} {P : Plan d nS nM}
    {td td' : Option ℝ} (h : StaticPlan room sources mics { a with tdiff := td } L src mic P) :
    StaticPlan room sources mics { a with tdiff := td' } L src mic P :=
  ⟨⟨h.hd, h.hS, h.hM, h.size, h.beta, h.res, h.val, h.img, h.imgA, h.split, h.hmd, h.hsd, h.gains⟩,
    h.hsrc, h.hmic⟩

/-- **C18.** Adding `tdiff` to a succeeding unfiltered call gives a succeeding call whose samples
before `min (nsample - 1) ⌊tdiff fs⌋` are unchanged — whatever the noise generator produces
(`randn` returns as many numbers as asked for). -/
theorem C18_tail_only_touches_tail (w : World)
    (hw : ∀ seed shape, (w.randn seed shape).length = shape.prod) (room : Room)
    (sources mics : Entity) (hfs : 0 < room.fs) (hs : sources.positions.WF)
    (hm : mics.positions.WF) (a : SimArgs) (cfg : Config) (hcfg : a.config = some cfg)
    (hoff : cfg.rirHpfEnable = false) (td : ℝ) (R : Tensor ℝ)
    (h : simulateRir w room sources mics { a with tdiff := none } = .ok R) :
    ∃ (nS nM K : ℕ) (f g : Fin nS → Fin nM → Fin K → ℝ), R = tensor3 f ∧
      simulateRir w room sources mics { a with tdiff := some td } = .ok (tensor3 g) ∧
      ∀ s m (k : Fin K), ((k : ℕ) : ℤ) < min ((K : ℤ) - 1) ⌊td * room.fs⌋ → g s m k = f s m k := by
  obtain ⟨L, nS, nM, src, mic, hsize, e1, e2⟩ := static_shapes hs hm h
  obtain ⟨P, hP⟩ := StaticPlan.exists hsize e1 e2 h
  have hPc : P.cfg = cfg := cfg_of_resolve hcfg hP.res
  have hP' := StaticPlan.withTdiff (td' := some td) hP
  rw [hP.eval w hfs.ne'] at h
  have h' : applyRirHpf w room.fs P.cfg (P.static w room L src mic) = .ok R := h
  rw [applyRirHpf_off _ _ _ (by rw [hPc]; exact hoff)] at h'
  rw [hP'.eval w hfs.ne']
  simp only
  obtain ⟨g, hg1, hg2⟩ := applyDiffuseTail_spec hP.hd w hw room L P.lo P.hi hsize
    (fun s m (k : Fin P.K.toNat) =>
      rir (P.setup w room L) P.A (P.gs s) (P.gm m) (src s) (mic m) k) td P.cfg.seed
  have hcase : diffuseStep w (P.static w room L src mic) room (wallList P.lo P.hi) (some td) P.tmax
      P.cfg.seed = .ok (tensor3 g) ∨
      diffuseStep w (P.static w room L src mic) room (wallList P.lo P.hi) (some td) P.tmax
      P.cfg.seed = .ok (P.static w room L src mic) := by
    unfold diffuseStep
    cases P.tmax with
    | none => exact Or.inr rfl
    | some tm =>
      simp only
      split
      · exact Or.inl hg1
      · exact Or.inr rfl
  rcases hcase with hc | hc
  · refine ⟨nS, nM, P.K.toNat, _, g, (Except.ok.inj h').symm, ?_, hg2⟩
    rw [hc, ok_bind, applyRirHpf_off _ _ _ (by rw [hPc]; exact hoff)]
  · refine ⟨nS, nM, P.K.toNat, _, _, (Except.ok.inj h').symm, ?_, fun _ _ _ _ => rfl⟩
    rw [hc, ok_bind, applyRirHpf_off _ _ _ (by rw [hPc]; exact hoff)]
    rfl

/-- **C18.** `tdiff` has no effect at all (also with the filter on, and also on failing calls)
unless a time limit is in force and `tdiff` lies below it. -/
theorem C18_no_effect_without_limit (w : World) (room : Room) (sources mics : Entity) (a : SimArgs)
    (td : ℝ) (htd : ∀ tm, effectiveTmax a = some tm → tm ≤ td) :
    simulateRir w room sources mics { a with tdiff := some td }
      = simulateRir w room sources mics { a with tdiff := none } := by
  unfold simulateRir
  refine bind_congr_ok (x := resolveConfig { a with tdiff := some td }) ?_
  rintro ⟨cfg, N, tmax, dir⟩ hr
  have ht : tmax = effectiveTmax a := tmax_of_resolve hr
  subst ht
  have hstep : ∀ (rir : Tensor ℝ) (beta : List ℝ),
      diffuseStep w rir room beta (some td) (effectiveTmax a) cfg.seed
        = diffuseStep w rir room beta none (effectiveTmax a) cfg.seed := by
    intro rir beta
    unfold diffuseStep
    cases hT : effectiveTmax a with
    | none => rfl
    | some tm =>
      simp only
      rw [if_neg (not_lt.mpr (htd tm hT))]
  simp only [hstep]

/-- **C18.** `tdiff` has no effect when it maps to sample 0 (or below), or when there is only one
sample. -/
theorem C18_no_effect_at_index_zero (w : World) (room : Room) (sources mics : Entity)
    (hfs : 0 < room.fs) (hs : sources.positions.WF) (hm : mics.positions.WF) (a : SimArgs)
    (td : ℝ) (R : Tensor ℝ) (nS nM K : ℕ) (hshape : R.shape = [nS, nM, K])
    (hidx : ⌊td * room.fs⌋ ≤ 0 ∨ K = 1)
    (h : simulateRir w room sources mics { a with tdiff := none } = .ok R) :
    simulateRir w room sources mics { a with tdiff := some td } = .ok R := by
  obtain ⟨L, nS', nM', src, mic, hsize, e1, e2⟩ := static_shapes hs hm h
  obtain ⟨P, hP⟩ := StaticPlan.exists hsize e1 e2 h
  have hP' := StaticPlan.withTdiff (td' := some td) hP
  rw [hP.ok_iff w hfs.ne' rfl] at h
  have hPK : P.K.toNat = K := by
    obtain ⟨rows, _, rfl⟩ := h
    simp [ofRows3] at hshape
    exact hshape.2.2
  rw [← hP.ok_iff w hfs.ne' rfl, hP.eval w hfs.ne'] at h
  rw [hP'.eval w hfs.ne', ← h]
  have : diffuseStep w (P.static w room L src mic) room (wallList P.lo P.hi) (some td) P.tmax
      P.cfg.seed = .ok (P.static w room L src mic) := by
    unfold diffuseStep
    cases P.tmax with
    | none => rfl
    | some tm =>
      simp only
      split
      · unfold applyDiffuseTail
        have hK : (P.static w room L src mic).shape.getLastD 0 = K := by
          rw [← hPK]; simp [Plan.static, tensor3]
        simp only [hK]
        rw [if_pos]
        · rfl
        · rcases hidx with h | h
          · exact (min_le_right _ _).trans h
          · subst h; exact (min_le_left _ _).trans (by norm_num)
      · rfl
  simp only
  rw [this]
  rfl

/-- **C18.** No seed means seed 0, for every call. -/
theorem C18_default_seed_is_zero (w : World) (room : Room) (sources mics : Entity) (a : SimArgs)
    (cfg : Config) :
    simulateRir w room sources mics { a with config := some { cfg with seed := none } }
      = simulateRir w room sources mics { a with config := some { cfg with seed := some 0 } } := by
  have hv : ({ cfg with seed := none } : Config).validate = ({ cfg with seed := some 0 } : Config).validate := by
    unfold Config.validate
    simp
  unfold simulateRir resolveConfig
  simp only [Option.getD_some]
  rw [hv]
  cases ({ cfg with seed := some 0 } : Config).validate with
  | error e => rfl
  | ok u =>
    simp only [ok_bind]
    cases resolveMaxOrder a.maxOrder cfg.maxOrder with
    | error e => rfl
    | ok m => rfl

/-- **C18.** The result depends on the noise generator only through the stream of the configured
seed. -/
theorem C18_only_the_seeded_stream_matters (w : World) (randn' : ℤ → List ℕ → List ℝ) (room : Room)
    (sources mics : Entity) (a : SimArgs)
    (h : randn' ((a.config.getD defaultConfig).seed.getD 0)
      = w.randn ((a.config.getD defaultConfig).seed.getD 0)) :
    simulateRir { w with randn := randn' } room sources mics a
      = simulateRir w room sources mics a := by
  unfold simulateRir
  refine bind_congr_ok (x := resolveConfig a) ?_
  rintro ⟨cfg, N, tmax, dir⟩ hr
  have hc : cfg = a.config.getD defaultConfig := cfg_of_resolve' hr
  rw [← hc] at h
  have hstep : ∀ (rir : Tensor ℝ) (beta : List ℝ) (td tm : Option ℝ),
      diffuseStep { w with randn := randn' } rir room beta td tm cfg.seed
        = diffuseStep w rir room beta td tm cfg.seed := by
    intro rir beta td tm
    unfold diffuseStep applyDiffuseTail
    simp only [h]
  have hhpf : ∀ t, applyRirHpf { w with randn := randn' } room.fs cfg t
      = applyRirHpf w room.fs cfg t := fun t => rfl
  simp only [hstep, hhpf]

/-- A tail from 20 ms on in a 100 ms response at 16 kHz leaves the first 320 samples alone. -/
example (w : World) (hw : ∀ seed shape, (w.randn seed shape).length = shape.prod) :
    ∃ (nS nM K : ℕ) (f g : Fin nS → Fin nM → Fin K → ℝ),
    simulateRir w (boxRoom ![4, 5] ![0.9, 0.8] ![0.7, 0.6] 16000 343)
      (points ![![1, 2]]) (points ![![3, 4]])
      (omniArgs (d := 2) (.order 3) 1600 { rirHpfEnable := false, tmax := some 0.1 }) = .ok (tensor3 f) ∧
    simulateRir w (boxRoom ![4, 5] ![0.9, 0.8] ![0.7, 0.6] 16000 343)
      (points ![![1, 2]]) (points ![![3, 4]])
      { omniArgs (d := 2) (.order 3) 1600 { rirHpfEnable := false, tmax := some 0.1 } with
        tdiff := some 0.02 } = .ok (tensor3 g) ∧
    ∀ s m (k : Fin K), ((k : ℕ) : ℤ) < min ((K : ℤ) - 1) ⌊(0.02 : ℝ) * 16000⌋ → g s m k = f s m k := by
  have hv : ({ rirHpfEnable := false, tmax := some 0.1 } : Config).validate = .ok () := by
    rw [Config.valid_iff]
    refine ⟨by simp, by simp, ?_, by simp, by norm_num, by norm_num, by norm_num, by norm_num,
      by norm_num, ?_⟩
    · intro t ht; cases ht; norm_num
    · intro n hn; cases hn; norm_num
  have h0 := C05_static_rir_formula (Or.inl rfl) (by norm_num) (by norm_num) w ![4, 5]
    ![0.9, 0.8] ![0.7, 0.6] 16000 343 (by norm_num) (by norm_num) (.order 3) 1600 (by norm_num) _
    hv rfl ![![1, 2]] ![![3, 4]]
  obtain ⟨nS, nM, K, f, g, h1, h2, h3⟩ := C18_tail_only_touches_tail w hw
    (boxRoom ![4, 5] ![0.9, 0.8] ![0.7, 0.6] 16000 343) (points ![![1, 2]]) (points ![![3, 4]])
    (by norm_num [boxRoom]) (by simp [points, tensor2, Tensor.WF])
    (by simp [points, tensor2, Tensor.WF])
    (omniArgs (d := 2) (.order 3) 1600 { rirHpfEnable := false, tmax := some 0.1 }) _ rfl rfl 0.02 _ h0
  exact ⟨nS, nM, K, f, g, by rw [← h1]; exact h0, h2, h3⟩

/-! ## C20 -/

theorem resolveBeta_depends {room room' : Room} (hsize : room'.size = room.size)
    (hfs : room'.fs = room.fs) (hc : room'.c = room.c) (hb : resolveBeta room' = resolveBeta room)
    (w : World) (a : SimArgs) :
    (∀ sources mics, simulateRir w room' sources mics a = simulateRir w room sources mics a) ∧
    (∀ s m, simulateDynamicRir w room' s m a = simulateDynamicRir w room s m a) := by
  have hv : ∀ n t N, validateArgs room' n t N = validateArgs room n t N := by
    intro n t N; unfold validateArgs; rw [hfs]
  have ht : ∀ rir b td tm seed, diffuseStep w rir room' b td tm seed
      = diffuseStep w rir room b td tm seed := by
    intro rir b td tm seed
    unfold diffuseStep applyDiffuseTail
    simp only [hsize, hfs]
  constructor
  · intro s m
    unfold simulateRir
    simp only [hv, ht, hsize, hfs, hc, hb]
  · intro s m
    unfold simulateDynamicRir
    simp only [hv, hsize, hfs, hc, hb]

/-- **C20.** A room given by `t60` behaves — in static and dynamic simulations, with all
arguments — exactly like the same room with `beta = estimate_beta_from_t60(size, t60)`. -/
theorem C20_t60_room_is_beta_room (w : World) (size : List ℝ) (fs c t60 : ℝ) (beta : List ℝ)
    (h : estimateBetaFromT60 size t60 = .ok beta) (a : SimArgs) :
    (∀ sources mics, simulateRir w { size, fs, c, t60 := some t60 } sources mics a
      = simulateRir w { size, fs, c, beta := some beta } sources mics a) ∧
    (∀ s m, simulateDynamicRir w { size, fs, c, t60 := some t60 } s m a
      = simulateDynamicRir w { size, fs, c, beta := some beta } s m a) := by
  refine resolveBeta_depends (by rfl) (by rfl) (by rfl) ?_ w a
  unfold resolveBeta chooseBeta
  simp only [h]

/-- **C20.** A room with neither behaves like a room whose 4 (2-D) or 6 (3-D) walls all have
coefficient 1. -/
theorem C20_default_room_is_rigid (w : World) (d : ℕ) (hd : d = 2 ∨ d = 3) (size : List ℝ)
    (hsize : size.length = d) (fs c : ℝ) (a : SimArgs) :
    (∀ sources mics, simulateRir w { size, fs, c } sources mics a
      = simulateRir w { size, fs, c, beta := some (List.replicate (2 * d) 1) } sources mics a) ∧
    (∀ s m, simulateDynamicRir w { size, fs, c } s m a
      = simulateDynamicRir w { size, fs, c, beta := some (List.replicate (2 * d) 1) } s m a) := by
  refine resolveBeta_depends (by rfl) (by rfl) (by rfl) ?_ w a
  unfold resolveBeta chooseBeta nWalls
  subst hsize
  rcases hd with h | h <;> simp [h]

/-- **C20.** A given `beta` is what is used: the response is the one of the image formula with
exactly these coefficients, also if (on an unvalidated object) `t60` were set as well. -/
theorem C20_beta_wins (w : World) (size : List ℝ) (fs c : ℝ) (beta : List ℝ) (t60 : Option ℝ)
    (a : SimArgs) :
    (∀ sources mics, simulateRir w { size, fs, c, beta := some beta, t60 := t60 } sources mics a
      = simulateRir w { size, fs, c, beta := some beta } sources mics a) ∧
    (∀ s m, simulateDynamicRir w { size, fs, c, beta := some beta, t60 := t60 } s m a
      = simulateDynamicRir w { size, fs, c, beta := some beta } s m a) := by
  refine resolveBeta_depends (by rfl) (by rfl) (by rfl) ?_ w a
  unfold resolveBeta chooseBeta
  rfl

/-- `t60 = 0.4` s in a 4 m × 5 m × 3 m room. -/
example (w : World) : ∃ beta, estimateBetaFromT60 [4, 5, 3] 0.4 = .ok beta ∧ beta.length = 6 ∧
    simulateRir w { size := [4, 5, 3], fs := 16000, t60 := some 0.4 }
      (points ![![1, 2, 1]]) (points ![![3, 4, 1]]) (omniArgs (d := 3) (.order 2) 800 {})
    = simulateRir w { size := [4, 5, 3], fs := 16000, beta := some beta }
      (points ![![1, 2, 1]]) (points ![![3, 4, 1]]) (omniArgs (d := 3) (.order 2) 800 {}) := by
  have h : ∃ b, estimateBetaFromT60 [4, 5, 3] 0.4 = .ok b ∧ b.length = 6 := by
    unfold estimateBetaFromT60
    rw [if_neg (by norm_num)]
    exact ⟨_, rfl, by simp⟩
  obtain ⟨b, h1, h2⟩ := h
  exact ⟨b, h1, h2, (C20_t60_room_is_beta_room w [4, 5, 3] 16000 343 0.4 b h1 _).1 _ _⟩

/-! ## C21 -/

/-- The response length a call asks for: `nsample`, otherwise the smallest integer not below
`tmax * fs`, where `tmax` is the argument or else the one of the configuration. -/
def LengthSpec (fs : ℝ) (a : SimArgs) (cfg : Config) (N : ℤ) : Prop :=
  a.nsample = some N ∨
  (a.nsample = none ∧ ∃ t, (a.tmax = some t ∨ (a.tmax = none ∧ cfg.tmax = some t)) ∧
    IsLeast { n : ℤ | t * fs ≤ (n : ℝ) } N)

/-- The reflection order a call asks for: the argument or else the configuration. -/
def OrderSpec (a : SimArgs) (cfg : Config) (N : ℤ) : Prop :=
  a.maxOrder = some N ∨ (a.maxOrder = none ∧ cfg.maxOrder = some N)

/-- Positions of `n` points: shape `(n, dim)`, or `(dim,)` for one. -/
def PointsShape (shape : List ℕ) (n dim : ℕ) : Prop :=
  shape = [n, dim] ∨ (n = 1 ∧ shape = [dim])

/-- Trajectories of `n` points over `T` steps: shape `(T, n, dim)`, or `(T, dim)` for one. -/
def TrajShape (shape : List ℕ) (T n dim : ℕ) : Prop :=
  shape = [T, n, dim] ∨ (n = 1 ∧ shape = [T, dim])

theorem isLeast_ceil (x : ℝ) : IsLeast { n : ℤ | x ≤ (n : ℝ) } ⌈x⌉ :=
  ⟨Int.le_ceil x, fun _ hn => Int.ceil_le.mpr hn⟩

theorem length_of_plan {d nS nM : ℕ} {room : Room} {a : SimArgs} {L : Fin d → ℝ} {P : Plan d nS nM}
    {u : Fin nS → Fin nM → (Fin d → ℝ) → Prop} (h : PlanOk room a L P u) :
    LengthSpec room.fs a (a.config.getD defaultConfig) P.K ∧ 0 < P.K ∧
      OrderSpec a (a.config.getD defaultConfig) P.N ∧ 0 ≤ P.N := by
  obtain ⟨h1, h2, h3⟩ := validateArgs_inv h.val
  have ht : P.tmax = effectiveTmax a := tmax_of_resolve h.res
  refine ⟨?_, h2, ?_, h3⟩
  · rw [ht] at h1
    unfold resolveNsample at h1
    unfold LengthSpec
    cases hn : a.nsample with
    | some n =>
      rw [hn] at h1
      exact Or.inl (congrArg some (Except.ok.inj h1))
    | none =>
      rw [hn] at h1
      refine Or.inr ⟨rfl, ?_⟩
      unfold effectiveTmax at h1
      cases htm : a.tmax with
      | some t =>
        simp only [htm] at h1
        have := Except.ok.inj h1
        exact ⟨t, Or.inl rfl, this ▸ isLeast_ceil _⟩
      | none =>
        simp only [htm, Option.orElse_none] at h1
        cases hct : (a.config.getD defaultConfig).tmax with
        | none => rw [hct] at h1; cases h1
        | some t =>
          rw [hct] at h1
          have := Except.ok.inj h1
          exact ⟨t, Or.inr ⟨rfl, rfl⟩, this ▸ isLeast_ceil _⟩
  · have := h.res
    unfold resolveConfig at this
    simp only [bind_eq_ok] at this
    obtain ⟨_, _, m, hm, he⟩ := this
    have hmN : m = P.N := congrArg (fun r => r.2.1) (Except.ok.inj he)
    subst hmN
    unfold resolveMaxOrder at hm
    unfold OrderSpec
    cases hO : a.maxOrder with
    | some N => rw [hO] at hm; exact Or.inl (congrArg some (Except.ok.inj hm))
    | none =>
      rw [hO] at hm
      cases hC : (a.config.getD defaultConfig).maxOrder with
      | none => rw [hC] at hm; cases hm
      | some N => rw [hC] at hm; exact Or.inr ⟨rfl, congrArg some (Except.ok.inj hm)⟩

theorem pointsShape_of {t : Tensor ℝ} {n d : ℕ} {f : Fin n → Fin d → ℝ} (h : asPoints t = tensor2 f) :
    PointsShape t.shape n d := by
  have hs := congrArg Tensor.shape h
  unfold asPoints at hs
  unfold PointsShape
  split at hs
  · simp only [Tensor.unsqueeze0, tensor2] at hs
    obtain ⟨h1, h2⟩ := List.cons.inj hs
    exact Or.inr ⟨h1.symm, h2⟩
  · exact Or.inl hs

theorem trajShape_of {t : Tensor ℝ} {T n d : ℕ} {f : Fin T → Fin n → Fin d → ℝ}
    (h : asTraj t = tensor3 f) : TrajShape t.shape T n d := by
  have hs := congrArg Tensor.shape h
  unfold asTraj at hs
  unfold TrajShape
  split at hs
  · obtain ⟨shape, data⟩ := t
    match shape with
    | [] => simp [Tensor.unsqueeze1, tensor3] at hs
    | x :: l =>
      simp only [Tensor.unsqueeze1, tensor3] at hs
      obtain ⟨h1, h2⟩ := List.cons.inj hs
      obtain ⟨h3, h4⟩ := List.cons.inj h2
      exact Or.inr ⟨h3.symm, by rw [h1, h4]⟩
  · exact Or.inl hs

/-- **C21, static.** Every accepted call has a valid length, order and matching shapes, and
returns shape `(n_src, n_mic, N)` with `N` the requested length.  Hence a missing or
non-positive length, a missing or negative order, and shapes that do not match the room are
rejected. -/
theorem C21_static_accepts_only_valid_arguments (w : World) (room : Room) (sources mics : Entity)
    (hfs : 0 < room.fs) (hs : sources.positions.WF) (hm : mics.positions.WF) (a : SimArgs)
    (R : Tensor ℝ) (h : simulateRir w room sources mics a = .ok R) :
    ∃ (nS nM N : ℕ) (o : ℤ),
      R.shape = [nS, nM, N] ∧ 0 < N ∧ 0 ≤ o ∧
      LengthSpec room.fs a (a.config.getD defaultConfig) N ∧
      OrderSpec a (a.config.getD defaultConfig) o ∧
      (room.size.length = 2 ∨ room.size.length = 3) ∧
      0 < nS ∧ 0 < nM ∧
      PointsShape sources.positions.shape nS room.size.length ∧
      PointsShape mics.positions.shape nM room.size.length := by
  obtain ⟨L, nS, nM, src, mic, hsize, e1, e2⟩ := static_shapes hs hm h
  obtain ⟨P, hP⟩ := StaticPlan.exists hsize e1 e2 h
  obtain ⟨h1, h2, h3, h4⟩ := length_of_plan hP.toPlanOk
  have hKn : ((P.K.toNat : ℕ) : ℤ) = P.K := Int.toNat_of_nonneg h2.le
  refine ⟨nS, nM, P.K.toNat, P.N, ?_, by omega, h4, by rw [hKn]; exact h1, h3, hP.hd, hP.hS, hP.hM,
    pointsShape_of e1, pointsShape_of e2⟩
  rw [hP.eval w hfs.ne'] at h
  simp only [bind_eq_ok] at h
  obtain ⟨t, ht, h⟩ := h
  have hts : t.shape = [nS, nM, P.K.toNat] := by
    have hraw : (P.static w room L src mic).shape = [nS, nM, P.K.toNat] := rfl
    unfold diffuseStep at ht
    split at ht
    · split at ht
      · unfold applyDiffuseTail at ht
        simp only at ht
        split at ht
        · cases ht; exact hraw
        · rw [bind_eq_ok] at ht
          obtain ⟨_, _, ht⟩ := ht
          cases ht
          exact hraw
      · cases ht; exact hraw
    · cases ht; exact hraw
  unfold applyRirHpf at h
  split at h
  · cases h; exact hts
  · simp only [bind_eq_ok] at h
    obtain ⟨_, _, _, _, h⟩ := h
    cases h
    exact hts

/-- **C21, dynamic.** The same, with result shape `(T, n_src, n_mic, N)`. -/
theorem C21_dynamic_accepts_only_valid_arguments (w : World) (room : Room) (sTraj mTraj : Tensor ℝ)
    (hfs : 0 < room.fs) (hs : sTraj.WF) (hm : mTraj.WF) (a : SimArgs)
    (R : Tensor ℝ) (h : simulateDynamicRir w room sTraj mTraj a = .ok R) :
    ∃ (T nS nM N : ℕ) (o : ℤ),
      R.shape = [T, nS, nM, N] ∧ 0 < N ∧ 0 ≤ o ∧
      LengthSpec room.fs a (a.config.getD defaultConfig) N ∧
      OrderSpec a (a.config.getD defaultConfig) o ∧
      (room.size.length = 2 ∨ room.size.length = 3) ∧
      0 < T ∧ 0 < nS ∧ 0 < nM ∧
      TrajShape sTraj.shape T nS room.size.length ∧
      TrajShape mTraj.shape T nM room.size.length := by
  obtain ⟨L, nT, nS, nM, src, mic, hsize, e1, e2⟩ := dynamic_shapes hs hm h
  obtain ⟨P, hP⟩ := DynamicPlan.exists hsize e1 e2 h
  obtain ⟨h1, h2, h3, h4⟩ := length_of_plan hP.toPlanOk
  have hKn : ((P.K.toNat : ℕ) : ℤ) = P.K := Int.toNat_of_nonneg h2.le
  refine ⟨nT, nS, nM, P.K.toNat, P.N, ?_, by omega, h4, by rw [hKn]; exact h1, h3, hP.hd, hP.hT,
    hP.hS, hP.hM, trajShape_of e1, trajShape_of e2⟩
  rw [hP.ok_iff w hfs.ne' e1 e2] at h
  obtain ⟨rows, _, rfl⟩ := h
  rfl

/-- **C21.** Missing length and missing order are rejected, whatever the rest (a consequence
spelled out). -/
theorem C21_missing_arguments_rejected (w : World) (room : Room) (sources mics : Entity)
    (hfs : 0 < room.fs) (hs : sources.positions.WF) (hm : mics.positions.WF) (a : SimArgs)
    (hmiss : (a.nsample = none ∧ a.tmax = none ∧ (a.config.getD defaultConfig).tmax = none) ∨
      (a.maxOrder = none ∧ (a.config.getD defaultConfig).maxOrder = none) ∨
      (∃ n, a.nsample = some n ∧ n ≤ 0) ∨ (∃ o, a.maxOrder = some o ∧ o < 0)) :
    ∃ e, simulateRir w room sources mics a = .error e := by
  cases h : simulateRir w room sources mics a with
  | error e => exact ⟨e, rfl⟩
  | ok R =>
    exfalso
    obtain ⟨nS, nM, N, o, -, hN, ho, hl, hor, -⟩ :=
      C21_static_accepts_only_valid_arguments w room sources mics hfs hs hm a R h
    unfold LengthSpec at hl
    unfold OrderSpec at hor
    rcases hmiss with ⟨h1, h2, h3⟩ | ⟨h1, h2⟩ | ⟨n, h1, h2⟩ | ⟨n, h1, h2⟩
    · rw [h1, h2, h3] at hl
      simp at hl
    · rw [h1, h2] at hor
      simp at hor
    · rw [h1] at hl
      simp at hl
      omega
    · rw [h1] at hor
      simp at hor
      omega

/-- `tmax` from the configuration: 0.01 s at 16 kHz gives 160 samples. -/
example (w : World) (R : Tensor ℝ)
    (h : simulateRir w (boxRoom ![4, 5] ![0.9, 0.8] ![0.7, 0.6] 16000 343)
      (points ![![1, 2]]) (points ![![3, 4]])
      { maxOrder := some 3, config := some { tmax := some 0.01 } } = .ok R) :
    ∃ nS nM, R.shape = [nS, nM, 160] := by
  obtain ⟨nS, nM, N, o, h1, -, -, hl, -⟩ := C21_static_accepts_only_valid_arguments w _ _ _
    (by norm_num [boxRoom]) (by simp [points, tensor2, Tensor.WF])
    (by simp [points, tensor2, Tensor.WF]) _ R h
  refine ⟨nS, nM, ?_⟩
  unfold LengthSpec at hl
  rcases hl with hl | ⟨-, t, ht, hN⟩
  · simp at hl
  · simp at ht
    subst ht
    have : (N : ℤ) = 160 := hN.unique (by
      constructor
      · norm_num [boxRoom]
      · intro n hn
        have : (0.01 : ℝ) * 16000 ≤ n := hn
        norm_num at this
        exact_mod_cast this)
    rw [h1]
    have : N = 160 := by exact_mod_cast this
    rw [this]

end Torchrir.Props
