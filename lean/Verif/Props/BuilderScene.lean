import Verif.Props.Builder
import Verif.Props.Arrays

/-! # The dataset builder: array placement (C60), audio (C61) and an existing dataset (C62) -/

namespace Torchrir.Props

open Torchrir.Model Torchrir.Lemmas Torchrir.Spec

/-! ## C60 -/

/-- All coordinates of a position are inside the room. -/
def InRoom (room : P3) (v : Vec) : Prop :=
  ∃ x y z, v = [x, y, z] ∧ (0 ≤ x ∧ x ≤ room.x) ∧ (0 ≤ y ∧ y ≤ room.y) ∧ 0 ≤ z ∧ z ≤ room.z

theorem octahedron_ok {edge : ℝ} {base : List Vec} (h : octahedron edge = .ok base) :
    0 < edge ∧ base.length = 6 ∧ ∀ v ∈ base, ∃ x y z, v = [x, y, z] ∧ |x| ≤ edge / Real.sqrt 2 ∧
      |y| ≤ edge / Real.sqrt 2 ∧ |z| ≤ edge / Real.sqrt 2 := by
  unfold octahedron at h
  have hpos : 0 < edge / Real.sqrt 2 := by
    unfold polyhedronArray at h
    rw [raiseIf_bind_ok] at h
    exact not_le.mp h.1
  obtain ⟨p, hp, -, hdist, -⟩ := octahedron_array (fun _ => 0) "octahedron" (toLower_eq (by decide))
    (edge / Real.sqrt 2) hpos
  have hz : List.ofFn (fun _ : Fin 3 => (0 : ℝ)) = [0, 0, 0] := by simp [List.ofFn_succ]
  rw [hz, h] at hp
  cases hp
  refine ⟨?_, by simp [rows], fun v hv => ?_⟩
  · have h2 : 0 < Real.sqrt 2 := Real.sqrt_pos.mpr (by norm_num)
    have := mul_pos hpos h2
    rwa [div_mul_cancel₀ _ h2.ne'] at this
  · unfold rows at hv
    rw [List.mem_ofFn] at hv
    obtain ⟨k, rfl⟩ := hv
    have hb : ∀ i, |p k i| ≤ edge / Real.sqrt 2 := by
      intro i
      have hd := hdist k
      unfold Spec.dist at hd
      rw [← hd]
      apply Real.abs_le_sqrt
      have : (p k i - 0) ^ 2 ≤ ∑ j, (p k j - 0) ^ 2 :=
        Finset.single_le_sum (f := fun j => (p k j - 0) ^ 2) (fun j _ => sq_nonneg _) (Finset.mem_univ i)
      simpa using this
    exact ⟨p k 0, p k 1, p k 2, by simp [List.ofFn_succ], hb 0, hb 1, hb 2⟩

theorem octahedron_exists {edge : ℝ} (h : 0 < edge) : ∃ base, octahedron edge = .ok base := by
  obtain ⟨p, hp, -⟩ := octahedron_array (fun _ => 0) "octahedron" (toLower_eq (by decide))
    (edge / Real.sqrt 2) (div_pos h (Real.sqrt_pos.mpr (by norm_num)))
  have hz : List.ofFn (fun _ : Fin 3 => (0 : ℝ)) = [0, 0, 0] := by simp [List.ofFn_succ]
  rw [hz] at hp
  exact ⟨_, hp⟩

/-- What a sampled centre satisfies. -/
theorem sampleMicCenter_ok {u room margin center : P3} {minDistance radius : ℝ}
    (hu : (0 ≤ u.x ∧ u.x ≤ 1) ∧ (0 ≤ u.y ∧ u.y ≤ 1) ∧ 0 ≤ u.z ∧ u.z ≤ 1)
    (h : sampleMicCenter u room margin minDistance radius = .ok center) :
    Clear center (areaOf room margin) minDistance ∧ (radius ≤ center.x ∧ center.x ≤ room.x - radius) ∧
      (radius ≤ center.y ∧ center.y ≤ room.y - radius) ∧ radius ≤ center.z ∧ center.z ≤ room.z - radius := by
  unfold sampleMicCenter at h
  dsimp only at h
  split_ifs at h with hc
  cases h
  push Not at hc
  obtain ⟨⟨hx, hy⟩, hz⟩ := hc
  obtain ⟨x1, x2⟩ := uniformDraw_mem hx.le hu.1.1 hu.1.2
  obtain ⟨y1, y2⟩ := uniformDraw_mem hy.le hu.2.1.1 hu.2.1.2
  obtain ⟨z1, z2⟩ := uniformDraw_mem hz.le hu.2.2.1 hu.2.2.2
  have x3 := le_trans (le_max_left _ _) x1
  have x4 := le_trans (le_max_right _ _) x1
  have x5 := le_trans x2 (min_le_left _ _)
  have x6 := le_trans x2 (min_le_right _ _)
  have y3 := le_trans (le_max_left _ _) y1
  have y4 := le_trans (le_max_right _ _) y1
  have y5 := le_trans y2 (min_le_left _ _)
  have y6 := le_trans y2 (min_le_right _ _)
  exact ⟨⟨⟨by linarith, by linarith⟩, by linarith, by linarith⟩, ⟨x3, x5⟩, ⟨y3, y5⟩, z1, z2⟩

theorem sampleMicCenter_succeeds {u room margin : P3} {minDistance radius : ℝ}
    (h : (max radius ((areaOf room margin).xmin + minDistance) <
          min (room.x - radius) ((areaOf room margin).xmax - minDistance) ∧
        max radius ((areaOf room margin).ymin + minDistance) <
          min (room.y - radius) ((areaOf room margin).ymax - minDistance)) ∧ radius < room.z - radius) :
    ∃ center, sampleMicCenter u room margin minDistance radius = .ok center := by
  unfold sampleMicCenter
  dsimp only
  rw [if_neg (by push Not; exact h)]
  exact ⟨_, rfl⟩

theorem mics_in_room {room center : P3} {edge : ℝ} {base : List Vec} (hb : octahedron edge = .ok base)
    (hc : (edge / Real.sqrt 2 ≤ center.x ∧ center.x ≤ room.x - edge / Real.sqrt 2) ∧
      (edge / Real.sqrt 2 ≤ center.y ∧ center.y ≤ room.y - edge / Real.sqrt 2) ∧
      edge / Real.sqrt 2 ≤ center.z ∧ center.z ≤ room.z - edge / Real.sqrt 2) :
    ∀ v ∈ base, InRoom room (vadd v [center.x, center.y, center.z]) := by
  intro v hv
  obtain ⟨-, -, h⟩ := octahedron_ok hb
  obtain ⟨x, y, z, rfl, hx, hy, hz⟩ := h v hv
  rw [abs_le] at hx hy hz
  obtain ⟨⟨c1, c2⟩, ⟨c3, c4⟩, c5, c6⟩ := hc
  exact ⟨x + center.x, y + center.y, z + center.z, rfl, ⟨by linarith, by linarith⟩,
    ⟨by linarith, by linarith⟩, by linarith, by linarith⟩

theorem placeSources_first {draws : ℕ → TrialDraws} {choice : List ℕ} {room center margin : P3} {m : Motion}
    (hd : TrialDraws.Valid (draws 0) m.nSources.toNat) (hm : Motion.Valid m)
    (hc : Clear center (areaOf room margin) minSourceDistance)
    (hz : (areaOf room margin).zmin < (areaOf room margin).zmax) (maxTrials : ℕ) :
    ∃ placed, placeSources draws choice room center margin m minSourceDistance (maxTrials + 1) =
      .ok placed := by
  unfold placeSources
  have hr : minSourceDistance ≤ maxUniformRadius center (areaOf room margin) :=
    (maxUniformRadius_le _ _ _).mpr hc
  obtain ⟨h1, h2, h3, h4, h5⟩ := hm
  dsimp only
  rw [if_neg (by omega), if_neg (by omega), if_neg (not_not.mpr h3),
    if_neg (by push Not; exact ⟨h4.1, h4.2⟩), if_neg (not_le.mpr h5), if_neg (not_lt.mpr hr)]
  obtain ⟨p, hp⟩ := placeOnce_succeeds (d := draws 0) (n := m.nSources.toNat)
    (moving := if m.nMoving > 0 then choice.mergeSort (· ≤ ·) else [])
    (moveDuration := m.duration * (m.endRatio - m.startRatio)) (speedMin := m.speedMin)
    (speedMax := m.speedMax) hd minSourceDistance_pos hr ((maxUniformRadius_le _ _ _).mp le_rfl) hz
  unfold tryPlace
  rw [hp]
  exact ⟨_, rfl⟩

/-- **C60.** If the sampling of an array centre succeeds, the whole array is inside the room, and for all
valid motion arguments and a height margin below half the height of the room the placement of the
sources succeeds on the first trial, whatever the random values. -/
theorem C60_feasible_partial (u room margin center : P3)
    (hu : (0 ≤ u.x ∧ u.x ≤ 1) ∧ (0 ≤ u.y ∧ u.y ≤ 1) ∧ 0 ≤ u.z ∧ u.z ≤ 1) (edge : ℝ) (base : List Vec)
    (hb : octahedron edge = .ok base)
    (h : sampleMicCenter u room margin 1.8 (edge / Real.sqrt 2) = .ok center) :
    (∀ v ∈ base, InRoom room (vadd v [center.x, center.y, center.z])) ∧
      ∀ (m : Motion) (draws : ℕ → TrialDraws) (choice : List ℕ), Motion.Valid m →
        (∀ k, TrialDraws.Valid (draws k) m.nSources.toNat) → margin.z < room.z - margin.z →
        ∃ placed, placeSources draws choice room center margin m 1.8 (maxTrials := 1) = .ok placed := by
  obtain ⟨h1, h2⟩ := sampleMicCenter_ok hu h
  exact ⟨mics_in_room hb h2, fun m draws choice hm hd hz => placeSources_first (hd 0) hm h1 hz 0⟩

/-- **C60 fails for large height margins.** In a room of 8 × 6 × 3 m with margins 0.5, 0.5, 1.5 the centre can
be sampled, but no source can be placed, whatever the random values and the number of trials. -/
theorem C60_height_margin_fails :
    (∃ center, sampleMicCenter ⟨0.5, 0.5, 0.5⟩ ⟨8, 6, 3⟩ ⟨0.5, 0.5, 1.5⟩ 1.8 (1 / Real.sqrt 2) = .ok center) ∧
      ∀ center draws choice m trials, ∃ e,
        placeSources draws choice ⟨8, 6, 3⟩ center ⟨0.5, 0.5, 1.5⟩ m 1.8 trials = .error e := by
  constructor
  · have h2 : (1 : ℝ) ≤ Real.sqrt 2 := Real.one_le_sqrt.mpr (by norm_num)
    have h1 : 1 / Real.sqrt 2 ≤ 1 := by
      rw [div_le_one (by linarith)]
      exact h2
    have h3 : 0 < 1 / Real.sqrt 2 := by positivity
    apply sampleMicCenter_succeeds
    unfold areaOf
    dsimp only
    refine ⟨⟨max_lt (lt_min ?_ ?_) (lt_min ?_ ?_), max_lt (lt_min ?_ ?_) (lt_min ?_ ?_)⟩, ?_⟩ <;>
      first | linarith | (norm_num; try linarith)
  · intro center draws choice m trials
    have hone : ∀ (d : TrialDraws) (n : ℕ) (moving : List ℕ) (x y z R : ℝ), 0 < n →
        ∃ e, placeOnce d ⟨8, 6, 3⟩ center ⟨0.5, 0.5, 1.5⟩ n moving x y z 1.8 R = .error e := by
      intro d n moving x y z R hn
      cases hp : placeOnce d ⟨8, 6, 3⟩ center ⟨0.5, 0.5, 1.5⟩ n moving x y z 1.8 R with
      | error e => exact ⟨e, rfl⟩
      | ok p =>
        exfalso
        unfold placeOnce at hp
        dsimp only at hp
        rw [bind_eq_ok] at hp
        obtain ⟨starts, hs, -⟩ := hp
        obtain ⟨y, hy⟩ := mapM_ok_mem hs 0 (List.mem_range.mpr hn)
        unfold samplePosition areaOf at hy
        dsimp only at hy
        rw [if_pos (by norm_num)] at hy
        cases hy
    have htry : ∀ (n : ℕ) (moving : List ℕ) (x y z R : ℝ), 0 < n → ∀ left k, ∃ e,
        tryPlace (fun d => placeOnce d ⟨8, 6, 3⟩ center ⟨0.5, 0.5, 1.5⟩ n moving x y z 1.8 R) draws left k =
          .error e := by
      intro n moving x y z R hn left
      induction left with
      | zero => exact fun k => ⟨_, rfl⟩
      | succ left ih =>
        intro k
        obtain ⟨e, he⟩ := hone (draws k) n moving x y z R hn
        unfold tryPlace
        rw [he]
        exact ih (k + 1)
    unfold placeSources
    dsimp only
    by_cases hn : m.nSources ≤ 0
    · exact ⟨_, if_pos hn⟩
    rw [if_neg hn]
    split_ifs
    all_goals first
      | exact ⟨_, rfl⟩
      | (obtain ⟨e, he⟩ := htry m.nSources.toNat (choice.mergeSort (· ≤ ·))
          (m.duration * (m.endRatio - m.startRatio)) m.speedMin m.speedMax
          (maxUniformRadius center (areaOf ⟨8, 6, 3⟩ ⟨0.5, 0.5, 1.5⟩)) (by omega) trials 0
         rw [he]
         exact ⟨e, rfl⟩)
      | (obtain ⟨e, he⟩ := htry m.nSources.toNat [] (m.duration * (m.endRatio - m.startRatio)) m.speedMin
          m.speedMax (maxUniformRadius center (areaOf ⟨8, 6, 3⟩ ⟨0.5, 0.5, 1.5⟩)) (by omega) trials 0
         rw [he]
         exact ⟨e, rfl⟩)

/-- **C60 (built scenes).** In every scene built with random array placement all microphones are inside
the room. -/
theorem C60_built {D : Type} (a : BuildArgs) (env : BuildEnv) (draws : ℕ → SceneDraws)
    (hd : ∀ k, SceneDraws.Valid (draws k) a) (root : RootState D) (rate : ℕ) (scenes : List BuiltScene)
    (h : (buildDataset a env draws root).2 = .ok (rate, scenes)) (hrand : a.randomizeMicCenter = true)
    (Lx Ly Lz : ℝ) (hroom : a.roomSize = [Lx, Ly, Lz]) :
    ∀ s ∈ scenes, s.mics.length = 6 ∧ ∀ v ∈ s.mics, InRoom ⟨Lx, Ly, Lz⟩ v := by
  obtain ⟨room, mic, margin, base, hc, hb, -, -, hs⟩ := build_ok h
  obtain ⟨e1, -⟩ := checkBuildArgs_ok hc
  rw [hroom] at e1
  obtain ⟨rfl, rfl, rfl⟩ : Lx = room.x ∧ Ly = room.y ∧ Lz = room.z := by simpa using e1
  intro s hsm
  obtain ⟨k, hk, rfl⟩ := List.getElem_of_mem hsm
  obtain ⟨hcen, hm, -⟩ := buildScene_ok (hs k hk)
  rcases hcen with ⟨-, hcen⟩ | ⟨hr, -⟩
  · obtain ⟨-, h2⟩ := sampleMicCenter_ok (hd k).center hcen
    rw [hm]
    refine ⟨by rw [List.length_map]; exact (octahedron_ok hb).2.1, fun v hv => ?_⟩
    obtain ⟨w, hw, rfl⟩ := List.mem_map.mp hv
    exact mics_in_room hb h2 w hw
  · rw [hrand] at hr
    cases hr

/-! ## C61 -/

theorem foldl_max_bound (l : List ℝ) : ∀ a, a ≤ l.foldl max a ∧ (∀ x ∈ l, x ≤ l.foldl max a) ∧
    ∀ b, a ≤ b → (∀ x ∈ l, x ≤ b) → l.foldl max a ≤ b := by
  induction l with
  | nil => exact fun a => ⟨le_rfl, fun x hx => (nomatch hx), fun b h _ => h⟩
  | cons x l ih =>
    intro a
    obtain ⟨h1, h2, h3⟩ := ih (max a x)
    refine ⟨le_trans (le_max_left _ _) h1, fun y hy => ?_, fun b hb hl => ?_⟩
    · rcases List.mem_cons.mp hy with rfl | hy
      · exact le_trans (le_max_right _ _) h1
      · exact h2 y hy
    · exact h3 b (max_le hb (hl x List.mem_cons_self)) fun y hy => hl y (List.mem_cons_of_mem _ hy)

/-- `_normalize_sources` multiplies all stems by one factor in `(0, 1]`, and nothing exceeds the limit. -/
theorem normalizeSources_ok {raw stems : List (Tensor ℝ)} {limit : ℝ} (hl : 0 < limit)
    (h : normalizeSources raw limit = .ok stems) :
    ∃ g, 0 < g ∧ g ≤ 1 ∧ stems = raw.map (fun s => ⟨s.shape, s.data.map (· * g)⟩) ∧
      (∀ s ∈ stems, ∀ x ∈ s.data, |x| ≤ limit) ∧
      ((∀ s ∈ raw, ∀ x ∈ s.data, |x| ≤ limit) → stems = raw) := by
  unfold normalizeSources at h
  split_ifs at h with h1
  dsimp only at h
  by_cases h2 : (raw.flatMap fun s => s.data.map (|·|)).foldl max 0 ≤ 0 ∨
      (raw.flatMap fun s => s.data.map (|·|)).foldl max 0 ≤ limit
  · rw [if_pos h2] at h
    cases h
    obtain ⟨k1, k2, k3⟩ := foldl_max_bound (raw.flatMap fun s => s.data.map (|·|)) 0
    refine ⟨1, one_pos, le_rfl, ?_, fun s hs x hx => ?_, fun _ => rfl⟩
    · conv_lhs => rw [← List.map_id raw]
      refine List.map_congr_left fun s _ => ?_
      simp
    · have hmem : |x| ∈ raw.flatMap fun s => s.data.map (|·|) :=
        List.mem_flatMap.mpr ⟨s, hs, List.mem_map_of_mem hx⟩
      have := k2 _ hmem
      rcases h2 with h2 | h2 <;> linarith
  · rw [if_neg h2] at h
    cases h
    obtain ⟨k1, k2, k3⟩ := foldl_max_bound (raw.flatMap fun s => s.data.map (|·|)) 0
    push Not at h2
    set peak := (raw.flatMap fun s => s.data.map (|·|)).foldl max 0 with hp
    refine ⟨limit / peak, div_pos hl h2.1, (div_le_one h2.1).mpr h2.2.le, rfl, fun s hs x hx => ?_,
      fun hall => ?_⟩
    · obtain ⟨s0, hs0, rfl⟩ := List.mem_map.mp hs
      obtain ⟨y, hy, rfl⟩ := List.mem_map.mp hx
      have hy' := k2 _ (List.mem_flatMap.mpr ⟨s0, hs0, List.mem_map_of_mem (f := fun v : ℝ => |v|) hy⟩)
      rw [abs_mul, abs_of_pos (div_pos hl h2.1), ← mul_div_assoc, div_le_iff₀ h2.1, mul_comm]
      exact mul_le_mul_of_nonneg_left hy' hl.le
    · exfalso
      have := k3 limit hl.le fun x hx => by
        obtain ⟨s, hs, hx⟩ := List.mem_flatMap.mp hx
        obtain ⟨y, hy, rfl⟩ := List.mem_map.mp hx
        exact hall s hs y hy
      linarith [h2.2]

/-- Rows and columns of an array stored row by row. -/
def entry (data : List ℝ) (columns row column : ℕ) : ℝ := data.getD (row * columns + column) 0

theorem transpose2_entry (M T : ℕ) (data : List ℝ) {t m : ℕ} (ht : t < T) (hm : m < M) :
    entry (transpose2 M T data) M t m = entry data T m t := by
  unfold entry transpose2
  have key : ∀ (T' : ℕ), t < T' → ((List.range T').flatMap fun t => (List.range M).map fun m =>
      data.getD (m * T + t) 0).getD (t * M + m) 0 = data.getD (m * T + t) 0 := by
    intro T' hT'
    have hlen : ∀ n, ((List.range n).flatMap fun t => (List.range M).map fun m =>
        data.getD (m * T + t) 0).length = n * M := by
      intro n
      simp [List.length_flatMap]
    induction T' with
    | zero => omega
    | succ n ih =>
      rw [List.range_succ, List.flatMap_append]
      by_cases htn : t < n
      · rw [List.getD_append _ _ _ _ (by rw [hlen]; nlinarith)]
        exact ih htn
      · obtain rfl : t = n := by omega
        rw [List.getD_append_right _ _ _ _ (by rw [hlen]; omega), hlen]
        simp [hm]
  exact key T ht

theorem toTimeChannel_transposes {c : Tensor ℝ} {M T : ℕ} (hs : c.shape = [M, T]) (hM : M ≠ 1) (hT1 : T ≠ 1)
    (hTM : T ≠ M) : toTimeChannel c M = .ok ⟨[T, M], transpose2 M T c.data⟩ := by
  unfold toTimeChannel
  rw [hs]
  simp [hM, hT1, hTM]

/-- The sum of stems of one length. -/
theorem foldl_zipWith_add {n : ℕ} : ∀ (l : List (Tensor ℝ)) (acc : List ℝ), acc.length = n →
    (∀ s ∈ l, s.data.length = n) →
    (l.foldl (fun acc t => List.zipWith (· + ·) acc t.data) acc).length = n ∧ ∀ j,
      (l.foldl (fun acc t => List.zipWith (· + ·) acc t.data) acc).getD j 0 =
        acc.getD j 0 + (l.map fun s => s.data.getD j 0).sum
  | [], acc, h, _ => ⟨h, fun j => by simp⟩
  | s :: l, acc, h, hl => by
    have hs := hl s List.mem_cons_self
    have hz : (List.zipWith (· + ·) acc s.data).length = n := by simp [h, hs]
    obtain ⟨h1, h2⟩ := foldl_zipWith_add l (List.zipWith (· + ·) acc s.data) hz
      fun t ht => hl t (List.mem_cons_of_mem _ ht)
    refine ⟨h1, fun j => ?_⟩
    rw [List.foldl_cons, h2 j, List.map_cons, List.sum_cons, ← add_assoc]
    congr 1
    by_cases hj : j < n
    · rw [List.getD_eq_getElem _ _ (by omega), List.getD_eq_getElem _ _ (by omega),
        List.getD_eq_getElem _ _ (by omega), List.getElem_zipWith]
    · rw [List.getD_eq_default _ _ (by omega), List.getD_eq_default _ _ (by omega),
        List.getD_eq_default _ _ (by omega), add_zero]

theorem mixStems_ok {stems : List (Tensor ℝ)} {mix : Tensor ℝ} (h : mixStems stems = .ok mix)
    (hwf : ∀ s ∈ stems, s.data.length = s.shape.prod) :
    (∀ s ∈ stems, s.shape = mix.shape) ∧ ∀ j, mix.data.getD j 0 = (stems.map fun s => s.data.getD j 0).sum := by
  unfold mixStems at h
  cases stems with
  | nil => cases h
  | cons s rest =>
    dsimp only at h
    split_ifs at h with hsh
    cases h
    push Not at hsh
    refine ⟨hsh, fun j => ?_⟩
    obtain ⟨-, h2⟩ := foldl_zipWith_add (n := s.data.length) (s :: rest) (List.replicate s.data.length 0)
      (by simp) fun t ht => by rw [hwf t ht, hwf s List.mem_cons_self, hsh t ht]
    dsimp only
    rw [h2 j]
    have : (List.replicate s.data.length (0 : ℝ)).getD j 0 = 0 := by
      by_cases hj : j < s.data.length
      · rw [List.getD_eq_getElem _ _ (by simpa using hj)]
        simp
      · rw [List.getD_eq_default _ _ (by simpa using hj)]
    rw [this, zero_add]

theorem length_transpose2 (M T : ℕ) (data : List ℝ) : (transpose2 M T data).length = T * M := by
  simp [transpose2, List.length_flatMap]

/-- **C61.** Let the convolver return 6 channels of `T` samples, `T ≠ 1, 6`. In every scene that is built there
is one factor `0 < g ≤ 1` such that stem `i` is, sample by sample and channel by channel, `g` times the
convolved source `i`; no value of a stem exceeds 0.99; the factor does nothing if no convolved value
exceeds 0.99; and the mixture is the sum of the stems. -/
theorem C61_stems_partial {D : Type} (a : BuildArgs) (env : BuildEnv) (draws : ℕ → SceneDraws)
    (root : RootState D) (rate : ℕ) (scenes : List BuiltScene)
    (h : (buildDataset a env draws root).2 = .ok (rate, scenes)) (T : ℕ) (hT1 : T ≠ 1) (hT6 : T ≠ 6) :
    ∀ s ∈ scenes, (∀ c ∈ s.convolved, c.shape = [6, T]) →
      s.stems.length = s.convolved.length ∧ (s.convolved.length : ℤ) = a.nSources ∧
      s.mixture.shape = [T, 6] ∧
      (∃ g, 0 < g ∧ g ≤ 1 ∧ ∀ i, ∀ hi : i < s.stems.length, ∀ hi' : i < s.convolved.length,
        s.stems[i].shape = [T, 6] ∧ ∀ t m, t < T → m < 6 →
          entry s.stems[i].data 6 t m = g * entry s.convolved[i].data T m t) ∧
      (∀ x ∈ s.stems, ∀ v ∈ x.data, |v| ≤ 0.99) ∧
      ∀ t m, t < T → m < 6 → entry s.mixture.data 6 t m = (s.stems.map fun x => entry x.data 6 t m).sum := by
  obtain ⟨room, mic, margin, base, hc, hb, -, -, hs⟩ := build_ok h
  obtain ⟨-, -, -, hns, -⟩ := checkBuildArgs_ok hc
  intro s hsm hshape
  obtain ⟨k, hk, rfl⟩ := List.getElem_of_mem hsm
  obtain ⟨-, -, -, -, ⟨raw, hraw, hnorm⟩, hlen, hmix, -⟩ := buildScene_ok (hs k hk)
  rw [(octahedron_ok hb).2.1] at hraw
  have hraw' : raw = scenes[k].convolved.map fun c => ⟨[T, 6], transpose2 6 T c.data⟩ := by
    rw [mapM_ok (g := fun c : Tensor ℝ => (⟨[T, 6], transpose2 6 T c.data⟩ : Tensor ℝ))
      (fun c hcm => toTimeChannel_transposes (hshape c hcm) (by decide) hT1 hT6)] at hraw
    exact (Except.ok.inj hraw).symm
  obtain ⟨g, g0, g1, hst, hbd, -⟩ := normalizeSources_ok (by norm_num) hnorm
  rw [hraw', List.map_map] at hst
  have hshapes : ∀ x ∈ scenes[k].stems, x.shape = [T, 6] := by
    intro x hx
    rw [hst] at hx
    obtain ⟨c, -, rfl⟩ := List.mem_map.mp hx
    rfl
  have hwf : ∀ x ∈ scenes[k].stems, x.data.length = x.shape.prod := by
    intro x hx
    rw [hst] at hx
    obtain ⟨c, -, rfl⟩ := List.mem_map.mp hx
    simp [length_transpose2]
  obtain ⟨m1, m2⟩ := mixStems_ok hmix hwf
  have hlen' : scenes[k].stems.length = scenes[k].convolved.length := by rw [hst]; simp
  have hpos : 0 < scenes[k].stems.length := by omega
  refine ⟨hlen', by omega, ?_, ⟨g, g0, g1, fun i hi hi' => ⟨hshapes _ (List.getElem_mem hi), fun t m ht hm => ?_⟩⟩,
    hbd, fun t m _ _ => m2 _⟩
  · rw [← m1 _ (List.getElem_mem hpos)]
    exact hshapes _ (List.getElem_mem hpos)
  · have hget : scenes[k].stems[i].data = (transpose2 6 T scenes[k].convolved[i].data).map (· * g) := by
      simp [hst]
    rw [hget, ← transpose2_entry 6 T _ ht hm, mul_comm]
    unfold entry
    have hj : t * 6 + m < (transpose2 6 T scenes[k].convolved[i].data).length := by
      rw [length_transpose2]
      omega
    rw [List.getD_eq_getElem _ _ (by simpa using hj), List.getD_eq_getElem _ _ hj, List.getElem_map]

/-- **C61 (own response).** In scene `k` every source's own speech, loaded for its speaker at the requested
length, is convolved with the response that was simulated for that source: from the scene's source
trajectories to the scene's microphones. The utterances reported for it are those loaded. -/
theorem C61_own_response {D : Type} (a : BuildArgs) (env : BuildEnv) (draws : ℕ → SceneDraws)
    (hd : ∀ k, SceneDraws.Valid (draws k) a) (root : RootState D) (rate : ℕ) (scenes : List BuiltScene)
    (h : (buildDataset a env draws root).2 = .ok (rate, scenes)) :
    ∀ k, ∀ hk : k < scenes.length, ∃ rirs, env.simulate scenes[k].trajectory scenes[k].mics = .ok rirs ∧
      (scenes[k].convolved.length : ℤ) = a.nSources ∧
      ∀ i, ∀ hi : i < scenes[k].convolved.length, ∃ speaker speech utterances,
        scenes[k].speakers[i]? = some speaker ∧ scenes[k].utterances[i]? = some utterances ∧
        env.loadSignal k speaker (trunc (a.duration * rate)).toNat = .ok (speech, utterances) ∧
        env.convolve speech (rirs i) = .ok scenes[k].convolved[i] := by
  obtain ⟨room, mic, margin, base, hc, -, -, -, hs⟩ := build_ok h
  obtain ⟨-, -, -, hns, -⟩ := checkBuildArgs_ok hc
  intro k hk
  have hlen := (buildScene_ok (hs k hk)).2.2.2.2.2.1
  have hscene := hs k hk
  unfold buildScene at hscene
  simp only [bind_eq_ok] at hscene
  obtain ⟨center, -, signals, h2, placed, -, trajectory, -, rirs, h5, convolved, h6, raw, -, stems, -,
    mixture, -, h⟩ := hscene
  replace h := Except.ok.inj h
  rw [← h] at hlen ⊢
  refine ⟨rirs, h5, by rw [hlen]; omega, fun i hi => ?_⟩
  obtain ⟨h7, h8⟩ := List.forall₂_iff_get.mp (mapM_forall₂ h2)
  have hi1 : i < (draws k).speakers.length := by
    have := (hd k).speakers.1
    omega
  have hi2 : i < signals.length := h7 ▸ hi1
  have hload := h8 i hi1 hi2
  rw [List.get_eq_getElem, List.get_eq_getElem] at hload
  refine ⟨(draws k).speakers[i], signals[i].1, signals[i].2, List.getElem?_eq_getElem hi1, ?_, hload, ?_⟩
  · show (signals.map Prod.snd)[i]? = _
    rw [List.getElem?_map, List.getElem?_eq_getElem hi2]
    rfl
  · have := (mapM_range_ok h6).2 i hi
    rwa [List.getD_eq_getElem _ _ hi2] at this

/-- **C61 fails for six samples.** Six channels of six samples are written without transposition: time and
channels are swapped. -/
theorem C61_six_samples_fails :
    ∃ (c out : Tensor ℝ), c.shape = [6, 6] ∧ c.data.length = 36 ∧ toTimeChannel c 6 = .ok out ∧
      entry out.data 6 1 0 ≠ entry c.data 6 0 1 := by
  refine ⟨⟨[6, 6], [0, 1] ++ List.replicate 34 0⟩, ⟨[6, 6], [0, 1] ++ List.replicate 34 0⟩, rfl, rfl, ?_, ?_⟩
  · simp [toTimeChannel]
  · simp [entry]

/-- **C61 fails for one sample.** Six channels of one sample are written as one channel of six samples. -/
theorem C61_one_sample_fails (data : List ℝ) :
    toTimeChannel ⟨[6, 1], data⟩ 6 = .ok ⟨[6, 1], data⟩ := by
  simp [toTimeChannel]

/-! ## C62 -/

/-- **C62.** Exactly when a dataset that was there survives: if one of the arguments checked first is wrong, or
if overwriting was not asked for. -/
theorem C62_survives_iff_partial {D : Type} (a : BuildArgs) (env : BuildEnv) (draws : ℕ → SceneDraws)
    (dataset : D) :
    (buildDataset a env draws (.old dataset)).1 = .old dataset ↔
      (∃ e, checkBuildArgs a = .error e) ∨ a.overwrite = false := by
  unfold buildDataset
  cases hc : checkBuildArgs a with
  | error e => simp
  | ok q =>
    obtain ⟨room, mic, margin⟩ := q
    cases hov : a.overwrite <;> simp

/-- **C62 fails for the arguments that are checked later.** Whatever else is given: with a motion window that
ends before it starts, with a speed that is not positive, or with more than six sources the call
raises, and the dataset that was there is gone. -/
theorem C62_late_checks_fails {D : Type} (a : BuildArgs) (env : BuildEnv) (draws : ℕ → SceneDraws)
    (hd : ∀ k, SceneDraws.Valid (draws k) a) (dataset : D) (hov : a.overwrite = true)
    (hargs : ∃ q, checkBuildArgs a = .ok q)
    (hbad : a.endRatio ≤ a.startRatio ∨ a.speedMin ≤ 0 ∨ 6 < a.nSources) :
    (∃ e, (buildDataset a env draws (.old dataset)).2 = .error e) ∧
      (buildDataset a env draws (.old dataset)).1 ≠ .old dataset := by
  constructor
  · cases h : (buildDataset a env draws (.old dataset)).2 with
    | error e => exact ⟨e, rfl⟩
    | ok r =>
      exfalso
      obtain ⟨rate, scenes⟩ := r
      obtain ⟨room, mic, margin, base, hc, hb, hl, hn, hs⟩ := build_ok h
      obtain ⟨-, -, hsc, -⟩ := checkBuildArgs_ok hc
      obtain ⟨hv, -⟩ := scene_placed (hd 0) (hs 0 (by omega))
      rcases hbad with hb' | hb' | hb'
      · exact absurd hv.ratios.2.1 (not_lt.mpr hb')
      · exact absurd hv.speeds.1 (not_lt.mpr hb')
      · rw [(octahedron_ok hb).2.1] at hn
        omega
  · rw [Ne, C62_survives_iff_partial]
    obtain ⟨q, hq⟩ := hargs
    simp [hq, hov]

/-! ## A build that succeeds -/

/-- Two speakers, one scene, one moving source, three steps, everything else as by default. -/
noncomputable def twoSpeakers : BuildArgs :=
  { speakers := ["bdl", "slt"], nScenes := 1, nSources := 2, trajectorySteps := 3 }

/-- Every convolved source is the same. -/
noncomputable def constantEnv (c : Tensor ℝ) : BuildEnv where
  sampleRate := fun _ => .ok 16000
  room := .ok ()
  loadSignal := fun _ s _ => .ok ([1], [s])
  simulate := fun _ _ => .ok fun _ => ⟨[1], [1]⟩
  convolve := fun _ _ => .ok c

/-- Every convolved source has six channels of two samples, all 0.9. -/
noncomputable def loudEnv : BuildEnv := constantEnv ⟨[6, 2], List.replicate 12 0.9⟩

/-- All random numbers 1/2. -/
noncomputable def middleDraws : ℕ → SceneDraws := fun _ =>
  ⟨⟨1 / 2, 1 / 2, 1 / 2⟩, ["bdl", "slt"], [0],
    fun _ => ⟨1 / 2, [0, 1], fun _ => 1 / 2, fun _ => 1 / 2, fun _ => 1 / 2, fun _ => true⟩⟩

theorem middleDraws_valid (k : ℕ) : SceneDraws.Valid (middleDraws k) twoSpeakers where
  center := by
    unfold middleDraws
    norm_num
  speakers := ⟨rfl, List.Subperm.refl _⟩
  choice := ⟨rfl, by simp [middleDraws], by simp [middleDraws, twoSpeakers]⟩
  trial := fun j => ⟨by unfold middleDraws; norm_num, by simp [middleDraws, twoSpeakers, List.range_succ],
    by unfold middleDraws; norm_num, by unfold middleDraws; norm_num, by unfold middleDraws; norm_num⟩

theorem twoSpeakers_checked :
    checkBuildArgs twoSpeakers = .ok (⟨8, 6, 3⟩, ⟨4, 3, 1.5⟩, ⟨0.5, 0.5, 0.3⟩) := by
  unfold checkBuildArgs twoSpeakers
  simp only [asTriplet, ok_bind]
  rw [raiseIf_neg (by norm_num), ok_bind, raiseIf_neg (by norm_num), ok_bind, raiseIf_neg (by norm_num), ok_bind,
    raiseIf_neg (by norm_num), ok_bind, raiseIf_neg (by norm_num), ok_bind, raiseIf_neg (by norm_num), ok_bind,
    raiseIf_neg (by norm_num), ok_bind]
  rfl

theorem transpose_loud : transpose2 6 2 (List.replicate 12 (0.9 : ℝ)) = List.replicate 12 0.9 := by
  simp [transpose2, List.range_succ]

/-- The build succeeds if the convolved source can be written and need not be scaled. -/
theorem constant_scene (c stem mix : Tensor ℝ) (htc : toTimeChannel c 6 = .ok stem)
    (hnorm : normalizeSources [stem, stem] = .ok [stem, stem]) (hmix : mixStems [stem, stem] = .ok mix) :
    ∃ s, (buildDataset (D := Unit) twoSpeakers (constantEnv c) middleDraws .absent).2 = .ok (16000, [s]) ∧
      s.convolved = [c, c] ∧ s.mixture = mix := by
  have hsq1 : (1 : ℝ) < Real.sqrt 2 := by
    rw [Real.lt_sqrt] <;> norm_num
  have hr : twoSpeakers.octaEdge / Real.sqrt 2 < 1 := (div_lt_one (by linarith)).mpr hsq1
  obtain ⟨base, hb⟩ := octahedron_exists (edge := twoSpeakers.octaEdge) (by norm_num [twoSpeakers])
  have hb6 : base.length = 6 := (octahedron_ok hb).2.1
  have hx : (areaOf ⟨8, 6, 3⟩ ⟨0.5, 0.5, 0.3⟩) = ⟨0.5, 7.5, 0.5, 5.5, 0.3, 2.7⟩ := by
    unfold areaOf
    norm_num
  obtain ⟨center, hcen⟩ := sampleMicCenter_succeeds (u := (middleDraws 0).center) (room := ⟨8, 6, 3⟩)
    (margin := ⟨0.5, 0.5, 0.3⟩) (minDistance := minSourceDistance)
    (radius := twoSpeakers.octaEdge / Real.sqrt 2) (by
      rw [hx]
      unfold minSourceDistance
      refine ⟨⟨max_lt (lt_min ?_ ?_) (lt_min ?_ ?_), max_lt (lt_min ?_ ?_) (lt_min ?_ ?_)⟩, ?_⟩ <;>
        norm_num <;> linarith)
  have hclear := (sampleMicCenter_ok (middleDraws_valid 0).center hcen).1
  obtain ⟨placed, hp⟩ := placeSources_first (draws := (middleDraws 0).trial) (choice := (middleDraws 0).choice)
    (m := ⟨2, 1, 20, 0.35, 0.65, 0.3, 0.8⟩) ((middleDraws_valid 0).trial 0)
    ⟨by norm_num, by norm_num, by norm_num, by norm_num, by norm_num⟩ hclear (by rw [hx]; norm_num) 99
  have htr : ∃ tr, sourceTrajectory placed.1 center placed.2 3 0.35 0.65 = .ok tr := by
    unfold sourceTrajectory
    rw [if_neg (by norm_num), if_neg (by norm_num)]
    exact ⟨_, rfl⟩
  obtain ⟨tr, htr⟩ := htr
  have hscene : ∀ target, ∃ s, buildScene twoSpeakers (constantEnv c) ⟨8, 6, 3⟩ ⟨4, 3, 1.5⟩ ⟨0.5, 0.5, 0.3⟩ base target
      (middleDraws 0) 0 = .ok s ∧ s.convolved = [c, c] ∧ s.mixture = mix := by
    intro target
    have h1 : sceneCenter twoSpeakers ⟨8, 6, 3⟩ ⟨4, 3, 1.5⟩ ⟨0.5, 0.5, 0.3⟩ (middleDraws 0) = .ok center := by
      unfold sceneCenter
      rw [if_pos (show twoSpeakers.randomizeMicCenter = true from rfl), hcen]
    have h2 : ((middleDraws 0).speakers.mapM fun s => (constantEnv c).loadSignal 0 s target) =
        .ok [([1], ["bdl"]), ([1], ["slt"])] := rfl
    have h3 : placeSources (middleDraws 0).trial (middleDraws 0).choice ⟨8, 6, 3⟩ center ⟨0.5, 0.5, 0.3⟩
        ⟨twoSpeakers.nSources, twoSpeakers.nMoving, twoSpeakers.duration, twoSpeakers.startRatio,
          twoSpeakers.endRatio, twoSpeakers.speedMin, twoSpeakers.speedMax⟩ minSourceDistance = .ok placed := hp
    have h4 : sourceTrajectory placed.1 center placed.2 twoSpeakers.trajectorySteps twoSpeakers.startRatio
        twoSpeakers.endRatio = .ok tr := htr
    unfold buildScene
    rw [h1, ok_bind]
    dsimp only
    rw [h2, ok_bind, h3, ok_bind, h4, ok_bind]
    have h5 : ∀ mics, (constantEnv c).simulate tr mics = .ok fun _ => ⟨[1], [1]⟩ := fun _ => rfl
    rw [h5, ok_bind]
    have h6 : ((List.range twoSpeakers.nSources.toNat).mapM fun i => (constantEnv c).convolve
        (([([1], ["bdl"]), ([1], ["slt"])] : List (List ℝ × List String)).getD i ([], [])).1 ⟨[1], [1]⟩) =
        .ok [c, c] := rfl
    rw [h6, ok_bind, hb6]
    have h7 : ([c, c].mapM fun c => toTimeChannel c 6) =
        .ok [stem, stem] := by
      simp only [List.mapM_cons, List.mapM_nil, htc]
      rfl
    rw [h7, ok_bind, hnorm, ok_bind, hmix, ok_bind]
    exact ⟨_, rfl, rfl, rfl⟩
  obtain ⟨s, hs, hs'⟩ := hscene (trunc (twoSpeakers.duration * ((some 16000).getD 0 : ℕ))).toNat
  refine ⟨s, ?_, hs'⟩
  have hrate : commonRate (constantEnv c).sampleRate twoSpeakers.speakers none = .ok (some 16000) := by
    have : ∀ s, (constantEnv c).sampleRate s = .ok 16000 := fun _ => rfl
    simp only [twoSpeakers, commonRate, this, ok_bind]
    rw [raiseIf_neg (by simp), ok_bind, raiseIf_neg (by simp), ok_bind]
    rfl
  have hroom : (constantEnv c).room = .ok () := rfl
  have hone : List.range twoSpeakers.nScenes.toNat = [0] := rfl
  unfold buildDataset
  rw [twoSpeakers_checked]
  dsimp only
  unfold buildScenes
  rw [hrate, ok_bind]
  dsimp only
  rw [raiseIf_neg, ok_bind, hb, ok_bind, raiseIf_neg, ok_bind, hroom, ok_bind, hone]
  · simp only [List.mapM_cons, List.mapM_nil]
    rw [hs]
    rfl
  · rw [hb6]
    decide
  · have : twoSpeakers.duration * (((some 16000).getD 0 : ℕ) : ℝ) = ((320000 : ℤ) : ℝ) := by
      norm_num [twoSpeakers]
    rw [this]
    norm_num [trunc]

theorem normalize_quiet (stem : Tensor ℝ) (hne : stem.data ≠ []) (h : ∀ x ∈ stem.data, |x| ≤ 0.99) :
    normalizeSources [stem, stem] = .ok [stem, stem] := by
  unfold normalizeSources
  rw [if_neg (by simpa using hne)]
  dsimp only
  rw [if_pos]
  right
  refine (foldl_max_bound _ 0).2.2 _ (by norm_num) fun x hx => ?_
  obtain ⟨y, hy, rfl⟩ : ∃ y ∈ stem.data, |y| = x := by simpa using hx
  exact h y hy

/-- The build succeeds, and two stems of 0.9 give a mixture of 1.8. -/
theorem loud_scene : ∃ s, (buildDataset (D := Unit) twoSpeakers loudEnv middleDraws .absent).2 = .ok (16000, [s]) ∧
    s.convolved = List.replicate 2 ⟨[6, 2], List.replicate 12 0.9⟩ ∧ s.mixture.data = List.replicate 12 1.8 := by
  obtain ⟨s, h1, h2, h3⟩ := constant_scene ⟨[6, 2], List.replicate 12 0.9⟩ ⟨[2, 6], List.replicate 12 0.9⟩
    ⟨[2, 6], List.replicate 12 1.8⟩
    (by rw [toTimeChannel_transposes (T := 2) rfl (by decide) (by decide) (by decide), transpose_loud])
    (normalize_quiet _ (by simp) (by norm_num [List.replicate])) (by
      unfold mixStems
      dsimp only
      rw [if_neg (by simp)]
      norm_num [List.replicate])
  exact ⟨s, h1, h2, by rw [h3]⟩

/-- **C61 fails for the mixture.** A mixture may exceed full scale although no stem exceeds 0.99. -/
theorem C61_mixture_fails : ∃ (a : BuildArgs) (env : BuildEnv) (draws : ℕ → SceneDraws) (rate : ℕ)
    (s : BuiltScene), (∀ k, SceneDraws.Valid (draws k) a) ∧
      (buildDataset (D := Unit) a env draws .absent).2 = .ok (rate, [s]) ∧
      (∀ x ∈ s.stems, ∀ v ∈ x.data, |v| ≤ 0.99) ∧ ∃ v ∈ s.mixture.data, 1 < v := by
  obtain ⟨s, h, h1, h2⟩ := loud_scene
  refine ⟨_, _, _, _, s, middleDraws_valid, h, ?_, 1.8, by rw [h2]; simp, by norm_num⟩
  exact (C61_stems_partial _ _ _ _ _ _ h 2 (by decide) (by decide) s List.mem_cons_self
    (by rw [h1]; simp)).2.2.2.2.1

/-- Both sources of this build are convolved with their own responses. -/
example : ∃ rate s, (buildDataset (D := Unit) twoSpeakers loudEnv middleDraws .absent).2 = .ok (rate, [s]) ∧
    ∃ rirs, loudEnv.simulate s.trajectory s.mics = .ok rirs ∧ (s.convolved.length : ℤ) = 2 := by
  obtain ⟨s, h, -⟩ := loud_scene
  obtain ⟨rirs, h1, h2, -⟩ := C61_own_response _ _ _ middleDraws_valid _ _ _ h 0 (by simp)
  exact ⟨_, s, h, rirs, h1, h2⟩

/-- The hypotheses of C57 to C60 hold of this build. -/
example : ∃ rate scenes, (buildDataset (D := Unit) twoSpeakers loudEnv middleDraws .absent).2 = .ok (rate, scenes) ∧
    scenes ≠ [] ∧ ∀ s ∈ scenes, ∀ v ∈ s.mics, InRoom ⟨8, 6, 3⟩ v := by
  obtain ⟨s, h, -⟩ := loud_scene
  exact ⟨_, _, h, by simp, fun t ht => (C60_built _ _ _ middleDraws_valid _ _ _ h rfl 8 6 3 rfl t ht).2⟩

/-- As before with the two ratios exchanged, over an existing dataset. -/
noncomputable def exchangedRatios : BuildArgs :=
  { speakers := ["bdl", "slt"], nScenes := 1, nSources := 2, trajectorySteps := 3, overwrite := true,
    startRatio := 0.65, endRatio := 0.35 }

/-- A call with the two ratios exchanged destroys the dataset it was asked to rebuild. -/
example (env : BuildEnv) :
    (∃ e, (buildDataset exchangedRatios env middleDraws (.old "dataset")).2 = .error e) ∧
      (buildDataset exchangedRatios env middleDraws (.old "dataset")).1 ≠ .old "dataset" :=
  C62_late_checks_fails exchangedRatios env middleDraws
    (fun k => ⟨(middleDraws_valid k).center, (middleDraws_valid k).speakers, (middleDraws_valid k).choice,
      (middleDraws_valid k).trial⟩) _ rfl
    ⟨(⟨8, 6, 3⟩, ⟨4, 3, 1.5⟩, ⟨0.5, 0.5, 0.3⟩), by exact twoSpeakers_checked⟩ (.inl (by norm_num [exchangedRatios]))

end Torchrir.Props
