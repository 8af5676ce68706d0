import Verif.Model.Metadata
import Verif.Lemmas.Ism
import Verif.Lemmas.Geometry
import Verif.Props.Signal
import Mathlib.Data.List.GetD

/-!
# Metadata (C66, C67)
-/

namespace Torchrir.Props

open Torchrir.Model Torchrir.Spec Torchrir.Lemmas

/-! ## C66 -/

/-- The argument gives the positions `p` step by step: a 3-D tensor, a 2-D tensor for one entity, or the fixed
positions if there is no trajectory. -/
def TrajIs {T N d : ℕ} (traj : Option (Tensor ℝ)) (pos : Tensor ℝ) (p : Fin T → Fin N → Fin d → ℝ) : Prop :=
  traj = some (tensor3 p) ∨ N = 1 ∧ traj = some ⟨[T, d], (tensor3 p).data⟩ ∨
    T = 1 ∧ traj = none ∧ pos = ⟨[N, d], (tensor3 p).data⟩

/-- Step `t` of a trajectory of `T` steps that stays at its last position. -/
def held {T : ℕ} (hT : 1 ≤ T) (t : ℕ) : Fin T := ⟨min t (T - 1), by omega⟩

/-- The vector `v` points to the given azimuth and elevation (radians); in the plane the elevation is 0. -/
structure PointsTo {d : ℕ} (v : Fin d → ℝ) (azimuth elevation : ℝ) : Prop where
  azimuth_range : -Real.pi < azimuth ∧ azimuth ≤ Real.pi
  elevation_range : -(Real.pi / 2) ≤ elevation ∧ elevation ≤ Real.pi / 2
  first : ∀ h : 0 < d, v ⟨0, h⟩ = Spec.dist v 0 * (Real.cos elevation * Real.cos azimuth)
  second : ∀ h : 1 < d, v ⟨1, h⟩ = Spec.dist v 0 * (Real.cos elevation * Real.sin azimuth)
  third : ∀ h : 2 < d, v ⟨2, h⟩ = Spec.dist v 0 * Real.sin elevation
  flat : d = 2 → elevation = 0

theorem normalizeTraj_eq {T N d : ℕ} {traj : Option (Tensor ℝ)} {pos : Tensor ℝ} {p : Fin T → Fin N → Fin d → ℝ}
    (h : TrajIs traj pos p) : normalizeTraj traj pos d = .ok (tensor3 p) := by
  rcases h with rfl | ⟨rfl, rfl⟩ | ⟨rfl, rfl, rfl⟩
  · simp [normalizeTraj, tensor3]
  · simp [normalizeTraj, tensor3, Tensor.unsqueeze1]
  · simp [normalizeTraj, tensor3, Tensor.unsqueeze0]

theorem expandSteps_eq {T' T N d : ℕ} (p : Fin T' → Fin N → Fin d → ℝ) (h1 : 1 ≤ T') (h : T' = T ∨ T' = 1)
    (hle : T' ≤ T) : expandSteps (tensor3 p) T = tensor3 fun t : Fin T => p (held h1 t) := by
  unfold expandSteps
  by_cases hc : T' = 1 ∧ 1 < T
  · obtain ⟨rfl, hT⟩ := hc
    rw [if_pos ⟨rfl, hT⟩]
    have hh : ∀ t : ℕ, held h1 t = 0 := fun t => Subsingleton.elim _ _
    simp only [hh]
    unfold tensor3
    simp [List.ofFn_const]
  · rw [if_neg (by simpa [tensor3] using hc)]
    obtain rfl : T' = T := by
      rcases h with h | h
      · exact h
      · have : ¬ 1 < T := fun hT => hc ⟨h, hT⟩
        omega
    congr 1
    funext t
    congr 1
    exact Fin.ext (by simp [held]; omega)

theorem perPair_eq {T S M d : ℕ} (f : Vec → ℝ) (a : Fin T → Fin S → Fin d → ℝ) (b : Fin T → Fin M → Fin d → ℝ) :
    perPair f (tensor3 a) (tensor3 b) = List.ofFn fun t => List.ofFn fun s => List.ofFn fun m =>
      f (List.ofFn fun i => a t s i - b t m i) := by
  unfold perPair
  rw [tensor3_planes, tensor3_planes]
  refine List.ext_getElem (by simp) fun t h1 h2 => ?_
  simp only [List.getElem_zipWith, List.getElem_ofFn, List.map_ofFn]
  congr 1
  funext s
  simp only [Function.comp]
  congr 1
  funext m
  simp only [Function.comp]
  congr 1
  unfold vsub
  refine List.ext_getElem (by simp) fun i h3 h4 => ?_
  simp

theorem cos_arg_mul (x y : ℝ) : Real.sqrt (x ^ 2 + y ^ 2) * Real.cos (Complex.arg ⟨x, y⟩) = x ∧
    Real.sqrt (x ^ 2 + y ^ 2) * Real.sin (Complex.arg ⟨x, y⟩) = y := by
  have hn : ‖(⟨x, y⟩ : ℂ)‖ = Real.sqrt (x ^ 2 + y ^ 2) := by
    rw [Complex.norm_def, Complex.normSq_mk]
    congr 1
    ring
  constructor
  · rw [← hn, Complex.norm_mul_cos_arg]
  · rw [← hn, Complex.norm_mul_sin_arg]

/-- The angles of `_compute_doa` describe the vector. -/
theorem pointsTo_angles {d : ℕ} (hd : d = 2 ∨ d = 3) (v : Fin d → ℝ) :
    PointsTo v (azimuthOf (List.ofFn v)) (elevationOf (List.ofFn v)) := by
  have hg : ∀ i (h : i < d), (List.ofFn v).getD i 0 = v ⟨i, h⟩ := by
    intro i h
    rw [List.getD_eq_getElem _ _ (by simpa using h), List.getElem_ofFn]
  rcases hd with rfl | rfl
  · have h0 := hg 0 (by norm_num)
    have h1 := hg 1 (by norm_num)
    have hel : elevationOf (List.ofFn v) = 0 := by
      unfold elevationOf
      rw [if_pos (by simp)]
    have hdist : Spec.dist v 0 = Real.sqrt (v ⟨0, by norm_num⟩ ^ 2 + v ⟨1, by norm_num⟩ ^ 2) := by
      unfold Spec.dist
      simp [Fin.sum_univ_two]
    obtain ⟨hc, hs⟩ := cos_arg_mul (v ⟨0, by norm_num⟩) (v ⟨1, by norm_num⟩)
    rw [hel]
    unfold azimuthOf atan2
    rw [h0, h1]
    refine ⟨Complex.arg_mem_Ioc _, ⟨by linarith [Real.pi_pos], by linarith [Real.pi_pos]⟩, fun h => ?_, fun h => ?_,
      fun h => by omega, fun _ => rfl⟩
    · rw [Real.cos_zero, one_mul, hdist, hc]
    · rw [Real.cos_zero, one_mul, hdist, hs]
  · have h0 := hg 0 (by norm_num)
    have h1 := hg 1 (by norm_num)
    have h2 := hg 2 (by norm_num)
    set x := v ⟨0, by norm_num⟩
    set y := v ⟨1, by norm_num⟩
    set z := v ⟨2, by norm_num⟩
    have hdist : Spec.dist v 0 = Real.sqrt (Real.sqrt (x ^ 2 + y ^ 2) ^ 2 + z ^ 2) := by
      rw [Real.sq_sqrt (by positivity)]
      unfold Spec.dist
      simp [Fin.sum_univ_three]
      rfl
    obtain ⟨hc, hs⟩ := cos_arg_mul x y
    obtain ⟨hc', hs'⟩ := cos_arg_mul (Real.sqrt (x ^ 2 + y ^ 2)) z
    have hel : elevationOf (List.ofFn v) = Complex.arg ⟨Real.sqrt (x ^ 2 + y ^ 2), z⟩ := by
      unfold elevationOf atan2
      rw [if_neg (by simp), h0, h1, h2]
    rw [hel]
    unfold azimuthOf atan2
    rw [h0, h1]
    have hr := Complex.abs_arg_le_pi_div_two_iff.mpr
      (show 0 ≤ (⟨Real.sqrt (x ^ 2 + y ^ 2), z⟩ : ℂ).re from Real.sqrt_nonneg _)
    refine ⟨Complex.arg_mem_Ioc _, ⟨(abs_le.mp hr).1, (abs_le.mp hr).2⟩, fun h => ?_, fun h => ?_, fun h => ?_,
      fun h => by omega⟩
    · rw [hdist, ← mul_assoc, hc', hc]
    · rw [hdist, ← mul_assoc, hc', hs]
    · rw [hdist, hs']

theorem norm2_sub {d : ℕ} (a b : Fin d → ℝ) : norm2 (vsub (List.ofFn a) (List.ofFn b)) = Spec.dist a b := by
  have : vsub (List.ofFn a) (List.ofFn b) = List.ofFn fun i => a i - b i := by
    unfold vsub
    refine List.ext_getElem (by simp) fun i h3 h4 => ?_
    simp
  rw [this]
  unfold norm2 dot Spec.dist
  congr 1
  have : List.zipWith (· * ·) (List.ofFn fun i => a i - b i) (List.ofFn fun i => a i - b i) =
      List.ofFn fun i => (a i - b i) ^ 2 := by
    refine List.ext_getElem (by simp) fun i h3 h4 => ?_
    simp [sq]
  rw [this, List.sum_ofFn]

theorem dist_pos_iff {d : ℕ} (a b : Fin d → ℝ) : 0 < Spec.dist a b ↔ a ≠ b := by
  unfold Spec.dist
  rw [Real.sqrt_pos]
  constructor
  · rintro h rfl
    simp at h
  · intro h
    obtain ⟨i, hi⟩ := Function.ne_iff.mp h
    exact Finset.sum_pos' (fun i _ => sq_nonneg _) ⟨i, Finset.mem_univ i, by
      have := sub_ne_zero.mpr hi
      positivity⟩

theorem mem_pairDistances {M d : ℕ} (p : Fin M → Fin d → ℝ) (x : ℝ) :
    x ∈ pairDistances (tensor2 p) ↔ ∃ j k, p j ≠ p k ∧ x = Spec.dist (p j) (p k) := by
  unfold pairDistances
  rw [tensor2_rows]
  simp only [List.mem_filter, List.mem_flatMap, List.mem_map, List.mem_ofFn, decide_eq_true_eq]
  constructor
  · rintro ⟨⟨_, ⟨j, rfl⟩, _, ⟨k, rfl⟩, rfl⟩, h⟩
    rw [norm2_sub] at h ⊢
    exact ⟨j, k, (dist_pos_iff _ _).mp h, rfl⟩
  · rintro ⟨j, k, hne, rfl⟩
    exact ⟨⟨_, ⟨j, rfl⟩, _, ⟨k, rfl⟩, norm2_sub _ _⟩, (dist_pos_iff _ _).mpr hne⟩

theorem arraySpacing_spec {M d : ℕ} (p : Fin M → Fin d → ℝ) :
    (∀ s, arraySpacing (tensor2 p) = some s ↔ IsLeast {x | ∃ j k, p j ≠ p k ∧ x = Spec.dist (p j) (p k)} s) ∧
      (arraySpacing (tensor2 p) = none ↔ ∀ j k, p j = p k) := by
  have hlen : (tensor2 p).rows.length = M := by
    rw [tensor2_rows]
    simp
  unfold arraySpacing
  rw [hlen]
  by_cases hM : 2 ≤ M
  · rw [if_pos hM]
    constructor
    · intro s
      rw [List.min?_eq_some_iff]
      constructor
      · rintro ⟨h1, h2⟩
        exact ⟨(mem_pairDistances p s).mp h1, fun x hx => h2 x ((mem_pairDistances p x).mpr hx)⟩
      · rintro ⟨h1, h2⟩
        exact ⟨(mem_pairDistances p s).mpr h1, fun x hx => h2 ((mem_pairDistances p x).mp hx)⟩
    · rw [List.min?_eq_none_iff]
      constructor
      · intro h j k
        by_contra hne
        have := (mem_pairDistances p _).mpr ⟨j, k, hne, rfl⟩
        rw [h] at this
        cases this
      · intro h
        refine List.eq_nil_iff_forall_not_mem.mpr fun x hx => ?_
        obtain ⟨j, k, hne, -⟩ := (mem_pairDistances p x).mp hx
        exact hne (h j k)
  · rw [if_neg hM]
    have hsub : ∀ j k : Fin M, p j = p k := fun j k => by
      have : j = k := Fin.ext (by omega)
      rw [this]
    refine ⟨fun s => ⟨fun h => (by cases h), fun ⟨⟨j, k, hne, _⟩, _⟩ => absurd (hsub j k) hne⟩, fun _ => hsub, fun _ => rfl⟩

theorem arrayCenter_spec {M d : ℕ} (p : Fin M → Fin d → ℝ) (hM : 1 ≤ M) :
    ∃ c : Fin d → ℝ, arrayCenter (tensor2 p) .floating = .ok (some (List.ofFn c)) ∧ ∀ i, M * c i = ∑ k, p k i := by
  refine ⟨fun i => (∑ k, p k i) / M, ?_, fun i => by field_simp⟩
  unfold arrayCenter
  rw [if_neg (by decide), tensor2_rows, if_neg (by simp; omega)]
  congr 2
  refine List.ext_getElem (by simp [tensor2]) fun i h1 h2 => ?_
  have hi : i < d := by simpa using h2
  simp only [List.getElem_map, List.getElem_range, List.getElem_ofFn, List.length_ofFn, List.map_ofFn]
  congr 1
  rw [List.sum_ofFn]
  refine Finset.sum_congr rfl fun k _ => ?_
  simp only [Function.comp]
  rw [List.getD_eq_getElem _ _ (by simpa using hi), List.getElem_ofFn]

/-- What `build_metadata` returns for matching numbers of steps. -/
theorem buildMetadata_eq {Ts Tm S M d : ℕ} (fs : ℝ) {srcPos : Tensor ℝ} (mp : Fin M → Fin d → ℝ)
    {srcTraj micTraj : Option (Tensor ℝ)} (src : Fin Ts → Fin S → Fin d → ℝ) (mic : Fin Tm → Fin M → Fin d → ℝ)
    (hs : TrajIs srcTraj srcPos src) (hm : TrajIs micTraj (tensor2 mp) mic) (hTs : 1 ≤ Ts) (hTm : 1 ≤ Tm)
    (hT : Ts = Tm ∨ Ts = 1 ∨ Tm = 1) (hd : 2 ≤ d) (shape : List ℕ) (hne : shape ≠ [])
    (timestamps : Option (Tensor ℝ)) (signalLen : Option ℤ) (center : Option Vec)
    (hc : arrayCenter (tensor2 mp) .floating = .ok center) :
    buildMetadata d fs srcPos (tensor2 mp) .floating shape srcTraj micTraj timestamps signalLen = .ok {
      fs := fs
      nsample := shape.getLastD 0
      time := (List.range (shape.getLastD 0)).map fun (k : ℕ) => (k : ℝ) / fs
      sourcePositions := srcPos.rows
      micPositions := (tensor2 mp).rows
      sourceTraj := if 1 < max Ts Tm then some (tensor3 fun t : Fin (max Ts Tm) => src (held hTs t)).planes else none
      micTraj := if 1 < max Ts Tm then some (tensor3 fun t : Fin (max Ts Tm) => mic (held hTm t)).planes else none
      azimuth := List.ofFn fun t : Fin (max Ts Tm) => List.ofFn fun s => List.ofFn fun m =>
        azimuthOf (List.ofFn fun i => src (held hTs t) s i - mic (held hTm t) m i)
      elevation := List.ofFn fun t : Fin (max Ts Tm) => List.ofFn fun s => List.ofFn fun m =>
        elevationOf (List.ofFn fun i => src (held hTs t) s i - mic (held hTm t) m i)
      timestamps := metadataTimestamps timestamps signalLen (max Ts Tm) fs
      geometry := arrayGeometry (tensor2 mp)
      center := center
      spacing := arraySpacing (tensor2 mp)
      rirsShape := shape
      dynamic := decide (1 < max Ts Tm) } := by
  unfold buildMetadata
  rw [raiseIf_neg hne, ok_bind, normalizeTraj_eq hs, ok_bind, normalizeTraj_eq hm, ok_bind]
  have e1 : (tensor3 src).shape.getD 0 0 = Ts := rfl
  have e2 : (tensor3 mic).shape.getD 0 0 = Tm := rfl
  dsimp only
  rw [e1, e2, expandSteps_eq src hTs (by omega) (le_max_left _ _), expandSteps_eq mic hTm (by omega) (le_max_right _ _),
    raiseIf_neg (by simp [tensor3]), ok_bind, raiseIf_neg (by omega), ok_bind, hc, ok_bind, perPair_eq, perPair_eq]
  rfl

/-- **C66.** For matching step counts (equal, or one of them a single step) and microphone positions of a floating
type the metadata is dynamic exactly if there is more than one step, has one azimuth and elevation per step,
source and microphone that point from the microphone to the source, and the centroid and the smallest distance
between distinct positions of the microphones. -/
theorem C66_directions_and_array {Ts Tm S M d : ℕ} (fs : ℝ) {srcPos : Tensor ℝ} (mp : Fin M → Fin d → ℝ)
    {srcTraj micTraj : Option (Tensor ℝ)} (src : Fin Ts → Fin S → Fin d → ℝ) (mic : Fin Tm → Fin M → Fin d → ℝ)
    (hs : TrajIs srcTraj srcPos src) (hm : TrajIs micTraj (tensor2 mp) mic) (hTs : 1 ≤ Ts) (hTm : 1 ≤ Tm)
    (hT : Ts = Tm ∨ Ts = 1 ∨ Tm = 1) (hd : d = 2 ∨ d = 3) (hM : 1 ≤ M) (shape : List ℕ) (hne : shape ≠ [])
    (timestamps : Option (Tensor ℝ)) (signalLen : Option ℤ) :
    ∃ md, buildMetadata d fs srcPos (tensor2 mp) .floating shape srcTraj micTraj timestamps signalLen = .ok md ∧
      (md.dynamic = true ↔ 1 < max Ts Tm) ∧
      (∃ az el : Fin (max Ts Tm) → Fin S → Fin M → ℝ,
        md.azimuth = (List.ofFn fun t => List.ofFn fun s => List.ofFn (az t s)) ∧
        md.elevation = (List.ofFn fun t => List.ofFn fun s => List.ofFn (el t s)) ∧
        ∀ (t : Fin (max Ts Tm)) s m, PointsTo (fun i => src (held hTs t) s i - mic (held hTm t) m i) (az t s m) (el t s m)) ∧
      (∃ c : Fin d → ℝ, md.center = some (List.ofFn c) ∧ ∀ i, M * c i = ∑ k, mp k i) ∧
      (∀ s, md.spacing = some s ↔ IsLeast {x | ∃ j k, mp j ≠ mp k ∧ x = Spec.dist (mp j) (mp k)} s) ∧
      (md.spacing = none ↔ ∀ j k, mp j = mp k) := by
  obtain ⟨c, hc, hc'⟩ := arrayCenter_spec mp hM
  refine ⟨_, buildMetadata_eq fs mp src mic hs hm hTs hTm hT (by omega) shape hne timestamps signalLen _ hc, ?_,
    ⟨_, _, rfl, rfl, fun t s m => pointsTo_angles hd _⟩, ⟨c, rfl, hc'⟩, (arraySpacing_spec mp).1, (arraySpacing_spec mp).2⟩
  simp

/-- **C66, remaining fields.** The metadata repeats the sample rate, the positions and the shape of the responses,
counts their samples, gives every sample its time, and names the array after the number of microphones. -/
theorem C66_fields {Ts Tm S M d : ℕ} (fs : ℝ) (sp : Fin S → Fin d → ℝ) (mp : Fin M → Fin d → ℝ)
    {srcTraj micTraj : Option (Tensor ℝ)} (src : Fin Ts → Fin S → Fin d → ℝ) (mic : Fin Tm → Fin M → Fin d → ℝ)
    (hs : TrajIs srcTraj (tensor2 sp) src) (hm : TrajIs micTraj (tensor2 mp) mic) (hTs : 1 ≤ Ts) (hTm : 1 ≤ Tm)
    (hT : Ts = Tm ∨ Ts = 1 ∨ Tm = 1) (hd : 2 ≤ d) (shape : List ℕ) (n : ℕ)
    (timestamps : Option (Tensor ℝ)) (signalLen : Option ℤ) (md : Metadata)
    (h : buildMetadata d fs (tensor2 sp) (tensor2 mp) .floating (shape ++ [n]) srcTraj micTraj timestamps signalLen
      = .ok md) :
    md.fs = fs ∧ md.nsample = n ∧ (md.time = List.ofFn fun k : Fin n => (k : ℝ) / fs) ∧
      md.sourcePositions = rows sp ∧ md.micPositions = rows mp ∧ md.rirsShape = shape ++ [n] ∧
      (md.geometry = "single" ↔ M = 1) ∧ (md.geometry = "binaural" ↔ M = 2) ∧
      (md.geometry = "custom" ↔ M ≠ 1 ∧ M ≠ 2) := by
  obtain ⟨center, hc⟩ : ∃ c, arrayCenter (tensor2 mp) .floating = .ok c :=
    ⟨_, by unfold arrayCenter; rw [if_neg (by decide)]⟩
  rw [buildMetadata_eq fs mp src mic hs hm hTs hTm hT hd (shape ++ [n]) (by simp) timestamps signalLen center hc] at h
  cases h
  have hl : (tensor2 mp).rows.length = M := by rw [tensor2_rows]; simp
  refine ⟨rfl, by simp, ?_, tensor2_rows sp, tensor2_rows mp, rfl, ?_⟩
  · simp only [List.getLastD_concat]
    apply List.ext_getElem <;> simp
  · dsimp only
    unfold arrayGeometry
    rw [hl]
    by_cases h1 : M = 1
    · simp [h1]
    · by_cases h2 : M = 2
      · simp [h2]
      · simp [h1, h2]

/-- Two fixed microphones and one fixed source, 100 samples per response. -/
example (md : Metadata) (h : buildMetadata 3 16000 (tensor2 ![![1, 2, 3]]) (tensor2 ![![0, 0, 0], ![0, 3, 4]])
      .floating ([1, 2] ++ [100]) none none none (some 1000) = .ok md) :
    md.fs = 16000 ∧ md.nsample = 100 ∧ md.geometry = "binaural" := by
  obtain ⟨h1, h2, -, -, -, -, -, h3, -⟩ := C66_fields (Ts := 1) (Tm := 1) 16000 ![![1, 2, 3]]
    (![![0, 0, 0], ![0, 3, 4]] : Fin 2 → Fin 3 → ℝ) (fun _ => ![![1, 2, 3]]) (fun _ => ![![0, 0, 0], ![0, 3, 4]])
    (.inr (.inr ⟨rfl, rfl, by simp [tensor2, tensor3]⟩)) (.inr (.inr ⟨rfl, rfl, by simp [tensor2, tensor3]⟩))
    le_rfl le_rfl (.inl rfl) (by norm_num) [1, 2] 100 none (some 1000) md h
  exact ⟨h1, h2, h3.mpr rfl⟩

/-- **C66.** Step counts that differ and of which none is a single step are rejected, as is a missing step beside
a single one. -/
theorem C66_step_mismatch {Ts Tm S M d : ℕ} (fs : ℝ) {srcPos micPos : Tensor ℝ} (type : NumType)
    {srcTraj micTraj : Option (Tensor ℝ)} (src : Fin Ts → Fin S → Fin d → ℝ) (mic : Fin Tm → Fin M → Fin d → ℝ)
    (hs : TrajIs srcTraj srcPos src) (hm : TrajIs micTraj micPos mic) (hne : Ts ≠ Tm) (h1 : ¬ (Ts = 1 ∧ 1 < Tm))
    (h2 : ¬ (Tm = 1 ∧ 1 < Ts)) (shape : List ℕ) (timestamps : Option (Tensor ℝ)) (signalLen : Option ℤ) :
    ∃ e, buildMetadata d fs srcPos micPos type shape srcTraj micTraj timestamps signalLen = .error e := by
  unfold buildMetadata
  by_cases hsh : shape = []
  · rw [hsh]
    exact ⟨_, rfl⟩
  rw [raiseIf_neg hsh, ok_bind, normalizeTraj_eq hs, ok_bind, normalizeTraj_eq hm, ok_bind]
  have e1 : (tensor3 src).shape.getD 0 0 = Ts := rfl
  have e2 : (tensor3 mic).shape.getD 0 0 = Tm := rfl
  dsimp only
  rw [e1, e2]
  have x1 : expandSteps (tensor3 src) (max Ts Tm) = tensor3 src := by
    unfold expandSteps
    rw [if_neg (by rw [e1]; omega)]
  have x2 : expandSteps (tensor3 mic) (max Ts Tm) = tensor3 mic := by
    unfold expandSteps
    rw [if_neg (by rw [e2]; omega)]
  rw [x1, x2, e1, e2, raiseIf, if_pos hne]
  exact ⟨_, rfl⟩

/-- **C66, timestamps.** If no timestamps are given but the signal length is, a dynamic scene gets one timestamp
per step, evenly spaced from 0 to the time of the last sample, and a static one none. Missing: timestamps that
are given, and a dynamic scene without signal length; see below. -/
theorem C66_timestamps_partial {Ts Tm S M d : ℕ} (fs : ℝ) {srcPos : Tensor ℝ} (mp : Fin M → Fin d → ℝ)
    {srcTraj micTraj : Option (Tensor ℝ)} (src : Fin Ts → Fin S → Fin d → ℝ) (mic : Fin Tm → Fin M → Fin d → ℝ)
    (hs : TrajIs srcTraj srcPos src) (hm : TrajIs micTraj (tensor2 mp) mic) (hTs : 1 ≤ Ts) (hTm : 1 ≤ Tm)
    (hT : Ts = Tm ∨ Ts = 1 ∨ Tm = 1) (hd : 2 ≤ d) (shape : List ℕ) (hne : shape ≠ []) (n : ℤ) :
    ∃ md, buildMetadata d fs srcPos (tensor2 mp) .floating shape srcTraj micTraj none (some n) = .ok md ∧
      (max Ts Tm = 1 → md.timestamps = none) ∧
      (1 < max Ts Tm → md.timestamps = some ⟨[max Ts Tm], List.ofFn fun t : Fin (max Ts Tm) =>
        (t : ℝ) / ((max Ts Tm : ℕ) - 1) * max 0 ((n - 1) / fs)⟩) := by
  obtain ⟨center, hc⟩ : ∃ c, arrayCenter (tensor2 mp) .floating = .ok c := ⟨_, by unfold arrayCenter; rw [if_neg (by decide)]⟩
  refine ⟨_, buildMetadata_eq fs mp src mic hs hm hTs hTm hT hd shape hne none (some n) center hc, fun h => ?_, fun h => ?_⟩
  · dsimp only
    unfold metadataTimestamps
    simp [h]
  · dsimp only
    unfold metadataTimestamps linspace
    simp only
    rw [if_pos h, if_neg (by omega)]
    congr 2
    refine List.ext_getElem (by simp) fun k h1 h2 => ?_
    simp only [List.getElem_map, List.getElem_range, List.getElem_ofFn]
    ring

/-- **C66, timestamps, fails.** Timestamps that are given are copied however many there are, and without a signal
length there are none however many steps there are. -/
theorem C66_timestamps_fails {Ts Tm S M d : ℕ} (fs : ℝ) {srcPos : Tensor ℝ} (mp : Fin M → Fin d → ℝ)
    {srcTraj micTraj : Option (Tensor ℝ)} (src : Fin Ts → Fin S → Fin d → ℝ) (mic : Fin Tm → Fin M → Fin d → ℝ)
    (hs : TrajIs srcTraj srcPos src) (hm : TrajIs micTraj (tensor2 mp) mic) (hTs : 1 ≤ Ts) (hTm : 1 ≤ Tm)
    (hT : Ts = Tm ∨ Ts = 1 ∨ Tm = 1) (hd : 2 ≤ d) (shape : List ℕ) (hne : shape ≠ []) (given : Tensor ℝ)
    (signalLen : Option ℤ) :
    (∃ md, buildMetadata d fs srcPos (tensor2 mp) .floating shape srcTraj micTraj (some given) signalLen = .ok md ∧
      md.timestamps = some given) ∧
    (∃ md, buildMetadata d fs srcPos (tensor2 mp) .floating shape srcTraj micTraj none none = .ok md ∧
      md.timestamps = none) := by
  obtain ⟨center, hc⟩ : ∃ c, arrayCenter (tensor2 mp) .floating = .ok c := ⟨_, by unfold arrayCenter; rw [if_neg (by decide)]⟩
  exact ⟨⟨_, buildMetadata_eq fs mp src mic hs hm hTs hTm hT hd shape hne (some given) signalLen center hc, rfl⟩,
    ⟨_, buildMetadata_eq fs mp src mic hs hm hTs hTm hT hd shape hne none none center hc, rfl⟩⟩

/-- **C66 fails for integer microphone positions**: no metadata is returned. -/
theorem C66_integer_positions_fails (d : ℕ) (fs : ℝ) (srcPos micPos : Tensor ℝ) (shape : List ℕ)
    (srcTraj micTraj timestamps : Option (Tensor ℝ)) (signalLen : Option ℤ) (md : Metadata) :
    buildMetadata d fs srcPos micPos .int64 shape srcTraj micTraj timestamps signalLen ≠ .ok md := by
  intro h
  unfold buildMetadata at h
  rw [raiseIf_bind_ok] at h
  obtain ⟨-, h⟩ := h
  rw [bind_eq_ok] at h
  obtain ⟨_, -, h⟩ := h
  rw [bind_eq_ok] at h
  obtain ⟨_, -, h⟩ := h
  dsimp only at h
  rw [raiseIf_bind_ok] at h
  obtain ⟨-, h⟩ := h
  rw [raiseIf_bind_ok] at h
  obtain ⟨-, h⟩ := h
  unfold arrayCenter at h
  rw [if_pos rfl] at h
  cases h

/-- A source that moves past two fixed microphones. -/
example : ∃ md, buildMetadata 3 16000 ⟨[1, 3], [1, 2, 3]⟩ (tensor2 ![![0, 0, 0], ![0, 3, 4]]) .floating [4, 1, 2, 100]
      (some (tensor3 (a := 4) (b := 1) fun t _ => ![(t : ℝ), 1, 1])) none none (some 1000) = .ok md ∧
    md.dynamic = true ∧ md.spacing = some 5 := by
  obtain ⟨md, h1, h2, -, -, h3, -⟩ := C66_directions_and_array (S := 1) 16000 (srcPos := ⟨[1, 3], [1, 2, 3]⟩)
    (![![0, 0, 0], ![0, 3, 4]] : Fin 2 → Fin 3 → ℝ) (fun t : Fin 4 => fun _ : Fin 1 => ![(t : ℝ), 1, 1])
    (fun _ : Fin 1 => ![![0, 0, 0], ![0, 3, 4]]) (.inl rfl) (.inr (.inr ⟨rfl, rfl, by simp [tensor2, tensor3]⟩))
    (by norm_num) (by norm_num) (by norm_num) (by norm_num) (by norm_num) [4, 1, 2, 100] (by simp) none (some 1000)
  have hd : Spec.dist (![0, 0, 0] : Fin 3 → ℝ) ![0, 3, 4] = 5 ∧ Spec.dist (![0, 3, 4] : Fin 3 → ℝ) ![0, 0, 0] = 5 := by
    unfold Spec.dist
    constructor
    · rw [show (5 : ℝ) = Real.sqrt (5 ^ 2) by rw [Real.sqrt_sq (by norm_num)]]
      congr 1
      simp [Fin.sum_univ_three]
      norm_num
    · rw [show (5 : ℝ) = Real.sqrt (5 ^ 2) by rw [Real.sqrt_sq (by norm_num)]]
      congr 1
      simp [Fin.sum_univ_three]
      norm_num
  refine ⟨md, h1, h2.mpr (by norm_num), (h3 5).mpr ⟨⟨0, 1, ?_, hd.1.symm⟩, ?_⟩⟩
  · intro h
    have := congrFun h 1
    simp at this
  · rintro x ⟨j, k, hne, rfl⟩
    fin_cases j <;> fin_cases k
    · exact absurd rfl hne
    · exact hd.1.ge
    · exact hd.2.ge
    · exact absurd rfl hne

/-! ## C67 -/

/-- The convolver with the given timestamps gives the same output as without, for all signals of `N` samples and all
sequences of `T` responses. -/
def SameOutput (T N : ℕ) (ts : Option (Tensor ℝ)) (fs : ℝ) : Prop :=
  ∀ (dev : DeviceType) (S M L : ℕ) (x : Fin S → Fin N → ℝ) (h : Fin T → Fin S → Fin M → Fin L → ℝ), 1 ≤ N + L →
    ({ timestamps := ts, fs := some fs } : Convolver).convolve dev (tensor2 x) (tensor4 h) =
      ({} : Convolver).convolve dev (tensor2 x) (tensor4 h)

/-- When the two segmentations have the same starts. -/
theorem starts_agree_iff (T N : ℕ) (hT : 2 ≤ T) (hN : 1 ≤ N) :
    (∀ k < T, k * N / T = k * (N - 1) / (T - 1)) ↔ N = T ∨ N < T ∧ T - N ∣ T - 1 := by
  constructor
  · intro h
    rcases lt_trichotomy N T with hlt | heq | hgt
    · right
      refine ⟨hlt, ?_⟩
      by_contra hnd
      obtain ⟨D, hD⟩ : ∃ D, T = N + D := ⟨T - N, by omega⟩
      have e1 : T - N = D := by omega
      rw [e1] at hnd
      have hDpos : 0 < D := by omega
      obtain ⟨q, hq⟩ : ∃ q, q = (T - 1) / D := ⟨_, rfl⟩
      obtain ⟨r, hr⟩ : ∃ r, r = (T - 1) % D := ⟨_, rfl⟩
      have hdm : D * q + r = T - 1 := by rw [hq, hr]; exact Nat.div_add_mod _ _
      have hrlt : r < D := by rw [hr]; exact Nat.mod_lt _ hDpos
      have hrpos : 0 < r := by
        rcases Nat.eq_zero_or_pos r with h0 | h0
        · exact absurd (Nat.dvd_of_mod_eq_zero (hr ▸ h0)) hnd
        · exact h0
      have hqpos : 1 ≤ q := by
        rw [hq]
        exact (Nat.one_le_div_iff hDpos).mpr (by omega)
      have hD2 : 2 ≤ D := by omega
      have hqN : q ≤ N := by
        obtain ⟨D', rfl⟩ : ∃ D', D = D' + 1 := ⟨D - 1, by omega⟩
        obtain ⟨q', hq'⟩ : ∃ q', q = q' + 1 := ⟨q - 1, by omega⟩
        have : (D' + 1) * q = D' * q' + D' + q := by
          rw [hq']
          ring
        omega
      have hqT : q + 1 ≤ T := by omega
      have hk := h (T - (q + 1)) (by omega)
      have hl : N - q ≤ (T - (q + 1)) * N / T := by
        rw [Nat.le_div_iff_mul_le (by omega)]
        obtain ⟨a, ha⟩ : ∃ a, N = q + a := ⟨N - q, by omega⟩
        have e2 : N - q = a := by omega
        obtain ⟨k, hk'⟩ : ∃ k, T = k + (q + 1) := ⟨T - (q + 1), by omega⟩
        have e3 : T - (q + 1) = k := by omega
        rw [e2, e3]
        have h3 : T ≤ D * q + D := by omega
        have h4 : k + 1 = a + D := by omega
        zify at *
        nlinarith
      have hu : (T - (q + 1)) * (N - 1) / (T - 1) < N - q := by
        rw [Nat.div_lt_iff_lt_mul (by omega)]
        obtain ⟨a, ha⟩ : ∃ a, N = q + a := ⟨N - q, by omega⟩
        have e2 : N - q = a := by omega
        obtain ⟨k, hk'⟩ : ∃ k, T = k + (q + 1) := ⟨T - (q + 1), by omega⟩
        have e3 : T - (q + 1) = k := by omega
        have e4 : T - 1 = k + q := by omega
        have e5 : N - 1 + 1 = q + a := by omega
        obtain ⟨n, hn⟩ : ∃ n, n = N - 1 := ⟨_, rfl⟩
        rw [← hn] at e5
        rw [e2, e3, e4, ← hn]
        have h3 : D * q < k + q := by omega
        have h4 : k + 1 = a + D := by omega
        clear hk hl h hnd
        zify at *
        nlinarith
      omega
    · exact .inl heq
    · exfalso
      have hk := h (T - 1) (by omega)
      rw [Nat.mul_div_cancel_left _ (by omega : 0 < T - 1)] at hk
      have : (T - 1) * N / T < N - 1 := by
        rw [Nat.div_lt_iff_lt_mul (by omega)]
        obtain ⟨a, rfl⟩ : ∃ a, T = a + 1 := ⟨T - 1, by omega⟩
        obtain ⟨b, rfl⟩ : ∃ b, N = b + 1 := ⟨N - 1, by omega⟩
        simp only [Nat.add_sub_cancel]
        nlinarith
      omega
  · rintro (rfl | ⟨hlt, q, hq⟩) k hk
    · rw [Nat.mul_div_cancel _ (by omega), Nat.mul_div_cancel _ (by omega)]
    · obtain ⟨D, hD⟩ : ∃ D, T = N + D := ⟨T - N, by omega⟩
      have e1 : T - N = D := by omega
      rw [e1] at hq
      have hDpos : 0 < D := by omega
      have hqpos : 1 ≤ q := by
        rcases Nat.eq_zero_or_pos q with rfl | h
        · simp at hq
          omega
        · exact h
      obtain ⟨c, hc⟩ : ∃ c, c = (k + q - 1) / q := ⟨_, rfl⟩
      have hc1 : k ≤ c * q := by
        have := Nat.lt_div_mul_add hqpos (a := k + q - 1)
        rw [← hc] at this
        omega
      have hc2 : c * q ≤ k + q - 1 := by
        rw [hc]
        exact Nat.div_mul_le_self _ _
      have hcD : c ≤ D := by
        by_contra hcon
        have : (D + 1) * q ≤ c * q := Nat.mul_le_mul_right q (by omega)
        have : (D + 1) * q = D * q + q := by ring
        omega
      have hck : c ≤ k := by
        by_contra hcon
        have : (k + 1) * q ≤ c * q := Nat.mul_le_mul_right q (by omega)
        have : (k + 1) * q = k * q + q := by ring
        have : k ≤ k * q := Nat.le_mul_of_pos_right k hqpos
        omega
      obtain ⟨a, ha⟩ : ∃ a, k = a + c := ⟨k - c, by omega⟩
      obtain ⟨n, hn⟩ : ∃ n, N = n + 1 := ⟨N - 1, by omega⟩
      have e2 : T - 1 = n + D := by omega
      have e3 : N - 1 = n := by omega
      rw [e2] at hq
      rw [e2, e3]
      have F1 : a * D ≤ c * n := by
        have h5 : k * D ≤ c * q * D := Nat.mul_le_mul_right D hc1
        rw [show c * q * D = c * (D * q) by ring, ← hq, ha] at h5
        linarith
      have F2 : c * n ≤ a * D + n := by
        have h5 : (c * q + 1) * D ≤ (k + q) * D := Nat.mul_le_mul_right D (by omega)
        rw [show (c * q + 1) * D = c * (D * q) + D by ring, show (k + q) * D = k * D + D * q by ring, ← hq, ha] at h5
        linarith
      have x1 : k * N / T = a := by
        rw [hD, hn, ha]
        refine Nat.div_eq_of_lt_le ?_ ?_
        · linarith
        · linarith
      have x2 : k * n / (n + D) = a := by
        rw [ha]
        refine Nat.div_eq_of_lt_le ?_ ?_
        · linarith
        · linarith
      rw [x1, x2]

/-- One sample per step value: the output shows the current step. -/
theorem mixVarying_steps {T N : ℕ} (step : Fin N → Fin T) (j : Fin N) :
    mixVarying (S := 1) (M := 1) (L := 1) (fun _ _ => 1) (fun t _ _ _ => ((t : ℕ) : ℝ)) step 0 j = (step j : ℕ) := by
  unfold mixVarying
  simp only [Fin.sum_univ_one, Fin.val_zero, add_zero, one_mul]
  rw [Finset.sum_eq_single j]
  · simp
  · intro i _ hi
    rw [if_neg (fun h => hi (Fin.ext h))]
  · intro h
    exact absurd (Finset.mem_univ j) h

theorem micTensor_one {len : ℕ} {y z : Fin 1 → ℕ → ℝ} (h : micTensor len y = micTensor len z) (k : Fin len) :
    y 0 k = z 0 k := by
  unfold micTensor at h
  rw [if_pos rfl, if_pos rfl] at h
  have h' := congrArg Tensor.data h
  simp only [tensor2, List.ofFn_succ, List.ofFn_zero, List.flatten_cons, List.flatten_nil, List.append_nil] at h'
  exact congrFun (List.ofFn_injective h') k

/-- Two segmentations give the same outputs exactly if they have the same starts. -/
theorem sameOutput_iff {T N : ℕ} (hT : 1 ≤ T) {ts : Option (Tensor ℝ)} {fs : ℝ} {start : Fin T → ℝ}
    (hs : StartsAt N ts (some fs) start) (hlast : ∀ t, 1 ≤ N → ⌊start t⌋ < N) :
    SameOutput T N ts fs ↔ ∀ t : Fin T, 1 ≤ N → ⌊start t⌋ = ⌊((t : ℕ) : ℝ) * N / T⌋ := by
  have hu : StartsAt (T := T) N none none _ := StartsAt.uniform none
  obtain ⟨stepA, hA, -⟩ := C24_every_sample_has_one_step hT hs
  obtain ⟨stepB, hB, -⟩ := C24_every_sample_has_one_step hT hu
  have hlastB : ∀ t : Fin T, 1 ≤ N → ⌊((t : ℕ) : ℝ) * N / T⌋ < N := by
    intro t hN
    have hT' : (0 : ℝ) < T := by exact_mod_cast hT
    have hN' : (0 : ℝ) < N := by exact_mod_cast hN
    have : ((t : ℕ) : ℝ) < T := by exact_mod_cast t.2
    rw [Int.floor_lt, div_lt_iff₀ hT', Int.cast_natCast, mul_comm (N : ℝ)]
    exact mul_lt_mul_of_pos_right this hN'
  constructor
  · intro h t hN
    have hsame : ∀ j, stepA j = stepB j := by
      intro j
      have h' := h .cpu 1 1 1 (fun _ _ => 1) (fun t _ _ _ => ((t : ℕ) : ℝ)) (by omega)
      rw [C24_trajectory_formula .cpu _ _ (.inl rfl) (.inl rfl) hT (by omega) hs stepA hA] at h'
      have hB' := C24_trajectory_formula .cpu (fun (_ : Fin 1) (_ : Fin N) => (1 : ℝ))
        (fun (t : Fin T) (_ : Fin 1) (_ : Fin 1) (_ : Fin 1) => ((t : ℕ) : ℝ)) (.inl rfl) (.inl rfl) hT (by omega)
        hu stepB hB
      have h'' := Except.ok.inj (h'.trans hB')
      have := micTensor_one h'' ⟨j, by have := j.2; omega⟩
      rw [mixVarying_steps, mixVarying_steps] at this
      exact Fin.ext (by exact_mod_cast this)
    have nonneg : ∀ (st : Fin T → ℝ) (ts' : Option (Tensor ℝ)) (f' : Option ℝ), StartsAt N ts' f' st → 0 ≤ ⌊st t⌋ := by
      intro st ts' f' hst
      obtain ⟨W, -, -, -, -, hW⟩ := starts_bounds hT hst
      rw [← hW]
      omega
    have n1 := nonneg _ _ _ hs
    have n2 := nonneg _ _ _ hu
    have l1 := hlast t hN
    have l2 := hlastB t hN
    apply le_antisymm
    · have := (hA ⟨⌊((t : ℕ) : ℝ) * N / T⌋.toNat, by omega⟩ t).mp (by
        rw [hsame, hB]
        exact (Int.toNat_of_nonneg n2).ge)
      simpa [Int.toNat_of_nonneg n2] using this
    · have := (hB ⟨⌊start t⌋.toNat, by omega⟩ t).mp (by
        rw [← hsame, hA]
        exact (Int.toNat_of_nonneg n1).ge)
      simpa [Int.toNat_of_nonneg n1] using this
  · intro h dev S M L x hh hpos
    rw [C24_trajectory_formula dev x hh (.inl rfl) (.inl rfl) hT hpos hs stepA hA]
    have hA' : CurrentStep (fun t : Fin T => ((t : ℕ) : ℝ) * N / T) stepA := by
      intro j t
      rw [hA j t, h t (by have := j.2; omega)]
    exact (C24_trajectory_formula dev x hh (.inl rfl) (.inl rfl) hT hpos hu stepA hA').symm

theorem floor_nat_div (a b : ℕ) : ⌊(a : ℝ) / b⌋ = ((a / b : ℕ) : ℤ) := by
  rw [Int.floor_div_natCast, Int.floor_natCast, Int.natCast_div]

/-- **C67.** The exact condition under which the reported timestamps reproduce the default segmentation: a single
step, no signal, as many samples as steps, or fewer samples such that the difference divides the number of steps
minus one. Missing: all other lengths, for which the outputs differ. -/
theorem C67_agreement_iff_partial {Ts Tm S M d : ℕ} (fs : ℝ) (hfs : 0 < fs) {srcPos : Tensor ℝ} (mp : Fin M → Fin d → ℝ)
    {srcTraj micTraj : Option (Tensor ℝ)} (src : Fin Ts → Fin S → Fin d → ℝ) (mic : Fin Tm → Fin M → Fin d → ℝ)
    (hs : TrajIs srcTraj srcPos src) (hm : TrajIs micTraj (tensor2 mp) mic) (hTs : 1 ≤ Ts) (hTm : 1 ≤ Tm)
    (hT : Ts = Tm ∨ Ts = 1 ∨ Tm = 1) (hd : 2 ≤ d) (shape : List ℕ) (hne : shape ≠ []) (N T : ℕ) (hmax : T = max Ts Tm) :
    ∃ md, buildMetadata d fs srcPos (tensor2 mp) .floating shape srcTraj micTraj none (some N) = .ok md ∧
      (SameOutput T N md.timestamps fs ↔ T = 1 ∨ N = 0 ∨ N = T ∨ N < T ∧ T - N ∣ T - 1) := by
  obtain ⟨md, h1, h2, h3⟩ := C66_timestamps_partial fs mp src mic hs hm hTs hTm hT hd shape hne N
  refine ⟨md, h1, ?_⟩
  rw [← hmax] at h2 h3
  have hT1 : 1 ≤ T := by omega
  rcases Nat.eq_or_lt_of_le hT1 with hT1' | hT2
  · rw [h2 hT1'.symm]
    refine ⟨fun _ => .inl hT1'.symm, fun _ dev S M L x h hpos => ?_⟩
    have hu : ∀ f, StartsAt (T := T) N none f _ := fun f => StartsAt.uniform f
    obtain ⟨step, hA, -⟩ := C24_every_sample_has_one_step hT1 (hu none)
    rw [C24_trajectory_formula dev x h (.inl rfl) (.inl rfl) hT1 hpos (hu (some fs)) step hA]
    exact (C24_trajectory_formula dev x h (.inl rfl) (.inl rfl) hT1 hpos (hu none) step hA).symm
  · rw [h3 hT2]
    have hTr : (0 : ℝ) < (T : ℝ) - 1 := by
      have : (1 : ℝ) < T := by exact_mod_cast hT2
      linarith
    have hdur : max 0 ((((N : ℤ) : ℝ) - 1) / fs) = ((N - 1 : ℕ) : ℝ) / fs := by
      rcases Nat.eq_zero_or_pos N with rfl | hN
      · rw [max_eq_left]
        · simp
        · have : (((0 : ℕ) : ℤ) : ℝ) - 1 ≤ 0 := by norm_num
          exact div_nonpos_of_nonpos_of_nonneg this hfs.le
      · rw [Nat.cast_sub hN, Int.cast_natCast, Nat.cast_one, max_eq_right]
        have : (1 : ℝ) ≤ N := by exact_mod_cast hN
        exact div_nonneg (by linarith) hfs.le
    have hst : StartsAt N (some ⟨[T], List.ofFn fun t : Fin T => ((t : ℕ) : ℝ) / ((T : ℝ) - 1) *
        max 0 ((((N : ℤ) : ℝ) - 1) / fs)⟩) (some fs)
        (fun t : Fin T => ((t : ℕ) : ℝ) / ((T : ℝ) - 1) * max 0 ((((N : ℤ) : ℝ) - 1) / fs) * fs) := by
      refine StartsAt.given _ fs (fun t ht => by simp [ht]) (fun a b hab => ?_) hfs.le fun t => ?_
      · have : ((a : ℕ) : ℝ) ≤ (b : ℕ) := by exact_mod_cast hab
        gcongr
      · rw [hdur, mul_assoc, div_mul_cancel₀ _ hfs.ne']
        have h5 : ((t : ℕ) : ℝ) / ((T : ℝ) - 1) ≤ 1 := by
          rw [div_le_one hTr]
          have : ((t : ℕ) : ℝ) + 1 ≤ T := by exact_mod_cast t.2
          linarith
        have h6 : ((N - 1 : ℕ) : ℝ) ≤ N := by exact_mod_cast Nat.sub_le N 1
        calc _ ≤ 1 * ((N - 1 : ℕ) : ℝ) := by gcongr
          _ ≤ N := by linarith
    have hfloor : ∀ t : Fin T, ⌊((t : ℕ) : ℝ) / ((T : ℝ) - 1) * max 0 ((((N : ℤ) : ℝ) - 1) / fs) * fs⌋ =
        ((t * (N - 1) / (T - 1) : ℕ) : ℤ) := by
      intro t
      rw [← floor_nat_div, hdur, mul_assoc, div_mul_cancel₀ _ hfs.ne']
      congr 1
      rw [Nat.cast_sub hT1, Nat.cast_mul, Nat.cast_one]
      ring
    rw [sameOutput_iff hT1 hst]
    · rcases Nat.eq_zero_or_pos N with rfl | hN
      · exact ⟨fun _ => .inr (.inl rfl), fun _ t h => absurd h (by omega)⟩
      · have key := starts_agree_iff T N hT2 hN
        have : (∀ t : Fin T, 1 ≤ N → ⌊((t : ℕ) : ℝ) / ((T : ℝ) - 1) * max 0 ((((N : ℤ) : ℝ) - 1) / fs) * fs⌋ =
            ⌊((t : ℕ) : ℝ) * N / T⌋) ↔ ∀ k < T, k * N / T = k * (N - 1) / (T - 1) := by
          have hf2 : ∀ k : ℕ, ⌊((k : ℕ) : ℝ) * N / T⌋ = ((k * N / T : ℕ) : ℤ) := fun k => by
            rw [← Nat.cast_mul, floor_nat_div]
          constructor
          · intro h k hk
            have := h ⟨k, hk⟩ hN
            rw [hfloor, hf2] at this
            exact_mod_cast this.symm
          · intro h t _
            rw [hfloor, hf2]
            exact_mod_cast (h t t.2).symm
        rw [this, key]
        constructor
        · rintro (h | h)
          · exact .inr (.inr (.inl h))
          · exact .inr (.inr (.inr h))
        · rintro (h | h | h | h)
          · omega
          · omega
          · exact .inl h
          · exact .inr h
    · intro t hN
      rw [hfloor]
      have : t * (N - 1) / (T - 1) ≤ N - 1 := by
        refine Nat.div_le_of_le_mul ?_
        exact Nat.mul_le_mul_right _ (by have := t.2; omega)
      omega

/-- **C67 fails for all signals that are longer than the number of steps**, that is in all realistic cases: there
are a signal and responses for which the outputs differ. -/
theorem C67_longer_signal_fails {Ts Tm S M d : ℕ} (fs : ℝ) (hfs : 0 < fs) {srcPos : Tensor ℝ} (mp : Fin M → Fin d → ℝ)
    {srcTraj micTraj : Option (Tensor ℝ)} (src : Fin Ts → Fin S → Fin d → ℝ) (mic : Fin Tm → Fin M → Fin d → ℝ)
    (hs : TrajIs srcTraj srcPos src) (hm : TrajIs micTraj (tensor2 mp) mic) (hTs : 1 ≤ Ts) (hTm : 1 ≤ Tm)
    (hT : Ts = Tm ∨ Ts = 1 ∨ Tm = 1) (hd : 2 ≤ d) (shape : List ℕ) (hne : shape ≠ []) (N : ℕ) (hdyn : 2 ≤ max Ts Tm)
    (hN : max Ts Tm < N) :
    ∃ md, buildMetadata d fs srcPos (tensor2 mp) .floating shape srcTraj micTraj none (some N) = .ok md ∧
      ¬ SameOutput (max Ts Tm) N md.timestamps fs := by
  obtain ⟨md, h1, h2⟩ := C67_agreement_iff_partial fs hfs mp src mic hs hm hTs hTm hT hd shape hne N _ rfl
  refine ⟨md, h1, fun h => ?_⟩
  rcases h2.mp h with h | h | h | h <;> omega

/-- Five steps and three samples agree; five steps and seven samples do not. -/
example : (3 = 5 ∨ 3 < 5 ∧ 5 - 3 ∣ 5 - 1) ∧ ¬ (7 = 5 ∨ 7 < 5 ∧ 5 - 7 ∣ 5 - 1) := by decide

example : ∃ md, buildMetadata 2 8000 ⟨[1, 2], [1, 2]⟩ (tensor2 ![![0, 0]]) .floating [2, 1, 1, 10]
      (some ⟨[2, 2], [1, 2, 3, 4]⟩) none none (some (1000 : ℕ)) = .ok md ∧ ¬ SameOutput 2 1000 md.timestamps 8000 := by
  refine C67_longer_signal_fails (Ts := 2) (Tm := 1) (S := 1) 8000 (by norm_num) ![![0, 0]]
    (![![![1, 2]], ![![3, 4]]]) (fun _ => ![![0, 0]]) (.inr (.inl ⟨rfl, ?_⟩)) (.inr (.inr ⟨rfl, rfl, ?_⟩)) (by norm_num)
    (by norm_num) (by norm_num) (by norm_num) _ (by simp) 1000 (by norm_num) (by norm_num)
  · simp [tensor3]
  · simp [tensor2, tensor3]

end Torchrir.Props
