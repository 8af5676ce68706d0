import Verif.Lemmas.Builder

/-! # The dataset builder: geometry of the scenes (C57 to C60) -/

namespace Torchrir.Props

open Torchrir.Model Torchrir.Lemmas Torchrir.Spec

theorem asTriplet_ok {v : List ℝ} {p : P3} (h : asTriplet v = .ok p) : v = [p.x, p.y, p.z] := by
  unfold asTriplet at h
  split at h
  · cases h
    rfl
  · cases h

theorem checkBuildArgs_ok {a : BuildArgs} {q : P3 × P3 × P3} (h : checkBuildArgs a = .ok q) :
    a.roomSize = [q.1.x, q.1.y, q.1.z] ∧ a.sourceMargin = [q.2.2.x, q.2.2.y, q.2.2.z] ∧
      0 < a.nScenes ∧ 0 < a.nSources ∧ (0 ≤ a.nMoving ∧ a.nMoving ≤ a.nSources) ∧
      a.nSources ≤ a.speakers.length ∧ 0 < a.trajectorySteps ∧ 0 < a.duration ∧ 0 < a.rirSamples := by
  unfold checkBuildArgs at h
  rw [bind_eq_ok] at h
  obtain ⟨room, h1, h⟩ := h
  rw [bind_eq_ok] at h
  obtain ⟨mic, h2, h⟩ := h
  rw [bind_eq_ok] at h
  obtain ⟨margin, h3, h⟩ := h
  simp only [raiseIf_bind_ok] at h
  obtain ⟨k1, k2, k3, k4, k5, k6, k7, h⟩ := h
  cases h
  exact ⟨asTriplet_ok h1, asTriplet_ok h3, by omega, by omega, by omega, by omega, by omega, not_le.mp k6,
    by omega⟩

/-- What is known about each scene of a successful build. -/
theorem build_ok {D : Type} {a : BuildArgs} {env : BuildEnv} {draws : ℕ → SceneDraws} {root : RootState D}
    {rate : ℕ} {scenes : List BuiltScene} (h : (buildDataset a env draws root).2 = .ok (rate, scenes)) :
    ∃ room mic margin base, checkBuildArgs a = .ok (room, mic, margin) ∧ octahedron a.octaEdge = .ok base ∧
      (scenes.length : ℤ) = a.nScenes ∧ (a.nSources ≤ (base.length : ℤ)) ∧
      ∀ k, ∀ hk : k < scenes.length, buildScene a env room mic margin base
        (trunc (a.duration * rate)).toNat (draws k) k = .ok scenes[k] := by
  unfold buildDataset at h
  cases hc : checkBuildArgs a with
  | error e =>
    rw [hc] at h
    cases h
  | ok q =>
    obtain ⟨room, mic, margin⟩ := q
    rw [hc] at h
    have hn := (checkBuildArgs_ok hc).2.2.1
    have hb : buildScenes a env draws room mic margin = .ok (rate, scenes) := by
      cases root <;> cases hov : a.overwrite <;> rw [hov] at h <;> first | exact h | cases h
    unfold buildScenes at hb
    rw [bind_eq_ok] at hb
    obtain ⟨r, -, hb⟩ := hb
    simp only [raiseIf_bind_ok] at hb
    obtain ⟨-, hb⟩ := hb
    rw [bind_eq_ok] at hb
    obtain ⟨base, h1, hb⟩ := hb
    rw [raiseIf_bind_ok] at hb
    obtain ⟨h2, hb⟩ := hb
    rw [bind_eq_ok] at hb
    obtain ⟨_, -, hb⟩ := hb
    rw [bind_eq_ok] at hb
    obtain ⟨sc, hs, hb⟩ := hb
    cases hb
    obtain ⟨l1, g1⟩ := mapM_range_ok hs
    exact ⟨room, mic, margin, base, rfl, h1, by omega, by omega, g1⟩

/-- The steps of one scene. -/
theorem buildScene_ok {a : BuildArgs} {env : BuildEnv} {room mic margin : P3} {base : List Vec} {target : ℕ}
    {d : SceneDraws} {idx : ℕ} {s : BuiltScene}
    (h : buildScene a env room mic margin base target d idx = .ok s) :
    ((a.randomizeMicCenter = true ∧
        sampleMicCenter d.center room margin minSourceDistance (a.octaEdge / Real.sqrt 2) = .ok s.center) ∨
      (a.randomizeMicCenter = false ∧ s.center = mic)) ∧
    s.mics = base.map (fun v => vadd v [s.center.x, s.center.y, s.center.z]) ∧
    placeSources d.trial d.choice room s.center margin
      ⟨a.nSources, a.nMoving, a.duration, a.startRatio, a.endRatio, a.speedMin, a.speedMax⟩
      minSourceDistance = .ok (s.placed, s.moving) ∧
    sourceTrajectory s.placed s.center s.moving a.trajectorySteps a.startRatio a.endRatio =
      .ok s.trajectory ∧
    (∃ raw, s.convolved.mapM (fun c => toTimeChannel c base.length) = .ok raw ∧
      normalizeSources raw = .ok s.stems) ∧
    s.convolved.length = a.nSources.toNat ∧ mixStems s.stems = .ok s.mixture ∧
    s.speakers = d.speakers := by
  unfold buildScene at h
  rw [bind_eq_ok] at h
  obtain ⟨center, h1, h⟩ := h
  dsimp only at h
  rw [bind_eq_ok] at h
  obtain ⟨signals, h2, h⟩ := h
  rw [bind_eq_ok] at h
  obtain ⟨placed, h3, h⟩ := h
  rw [bind_eq_ok] at h
  obtain ⟨trajectory, h4, h⟩ := h
  rw [bind_eq_ok] at h
  obtain ⟨rirs, h5, h⟩ := h
  rw [bind_eq_ok] at h
  obtain ⟨convolved, h6, h⟩ := h
  rw [bind_eq_ok] at h
  obtain ⟨raw, h7, h⟩ := h
  rw [bind_eq_ok] at h
  obtain ⟨stems, h8, h⟩ := h
  rw [bind_eq_ok] at h
  obtain ⟨mixture, h9, h⟩ := h
  cases h
  refine ⟨?_, rfl, h3, h4, ⟨raw, h7, h8⟩, (mapM_range_ok h6).1, h9, rfl⟩
  unfold sceneCenter at h1
  split_ifs at h1 with hr
  · exact Or.inl ⟨hr, h1⟩
  · cases h1
    exact Or.inr ⟨by simpa using hr, rfl⟩

theorem minSourceDistance_pos : (1e-9 : ℝ) < minSourceDistance := by
  unfold minSourceDistance
  norm_num

/-- The motion arguments of the builder. -/
def motionOf (a : BuildArgs) : Motion :=
  ⟨a.nSources, a.nMoving, a.duration, a.startRatio, a.endRatio, a.speedMin, a.speedMax⟩

/-- Source `i` of a built scene, in terms of the values of one placement trial. -/
theorem scene_placed {a : BuildArgs} {env : BuildEnv} {room mic margin : P3} {base : List Vec} {target : ℕ}
    {d : SceneDraws} {idx : ℕ} {s : BuiltScene} (hd : SceneDraws.Valid d a)
    (h : buildScene a env room mic margin base target d idx = .ok s) :
    Motion.Valid (motionOf a) ∧ Clear s.center (areaOf room margin) minSourceDistance ∧
      s.moving.Perm d.choice ∧ s.placed.length = a.nSources.toNat ∧ ∃ j, ∀ i, ∀ hi : i < s.placed.length,
        PlacedAs (d.trial j) room s.center margin a.nSources.toNat s.moving
          (a.duration * (a.endRatio - a.startRatio)) a.speedMin a.speedMax minSourceDistance
          (maxUniformRadius s.center (areaOf room margin)) i s.placed[i] :=
  placeSources_ok (m := motionOf a) hd.trial (le_trans (by norm_num) minSourceDistance_pos.le) hd.choice
    (buildScene_ok h).2.2.1

/-- The time of step `k` of a trajectory of `n` steps over a duration. -/
noncomputable def stepTime (duration : ℝ) (n : ℤ) (k : ℕ) : ℝ := duration * ((k : ℝ) / ((n : ℝ) - 1))

theorem progress_elapsed {D a b : ℝ} (hD : 0 < D) (hab : a < b) (τ : ℝ) :
    D * (b - a) * progress a b τ = elapsed (D * a) (D * b) (D * τ) := by
  have hba : b - a ≠ 0 := sub_ne_zero.mpr hab.ne'
  unfold progress elapsed
  split_ifs with h1 h2
  · rw [min_eq_left (mul_le_mul_of_nonneg_left h1.2 hD.le), max_eq_right]
    · field_simp
    · nlinarith [h1.1]
  · rw [min_eq_right (mul_le_mul_of_nonneg_left h2.le hD.le), max_eq_right]
    · ring
    · nlinarith
  · have hτ : τ < a := by
      by_contra hn
      exact h1 ⟨not_lt.mp hn, not_lt.mp h2⟩
    rw [min_eq_left (mul_le_mul_of_nonneg_left (not_lt.mp h2) hD.le), max_eq_left]
    · ring
    · nlinarith

/-- Position of a source at a step. -/
theorem trajectory_at {placed : List Placed} {center : P3} {moving : List ℕ} {n : ℤ} {a b : ℝ}
    {traj : List (List P3)} (hn : 0 < n) (hab : 0 ≤ a ∧ a < b ∧ b ≤ 1)
    (h : sourceTrajectory placed center moving n a b = .ok traj) {D : ℝ} (hD : 0 < D) :
    (traj.length : ℤ) = n ∧ ∀ k, ∀ hk : k < traj.length, traj[k].length = placed.length ∧
      ∀ i, ∀ hi : i < placed.length,
        (i ∉ moving → traj[k][i]? = some placed[i].start) ∧
        (i ∈ moving → ∀ r z ω, 0 ≤ r → placed[i].start = around center r placed[i].startAzimuth z →
          placed[i].endAzimuth = placed[i].startAzimuth + ω * (D * (b - a)) →
          traj[k][i]? = some (around center r
            (placed[i].startAzimuth + ω * elapsed (D * a) (D * b) (stepTime D n k)) z)) := by
  unfold sourceTrajectory at h
  split_ifs at h with h1
  · cases h
    have hn1 : n = 1 := by omega
    subst hn1
    refine ⟨by simp, fun k hk => ⟨?_, ?_⟩⟩
    · simp at hk
      subst hk
      simp
    · intro i hi
      simp at hk
      subst hk
      refine ⟨fun _ => by simp [hi], fun _ r z ω hr e1 e2 => ?_⟩
      have h0 : elapsed (D * a) (D * b) (stepTime D 1 0) = 0 := by
        unfold elapsed stepTime
        have : D * ((0 : ℕ) / ((1 : ℤ) - 1 : ℝ)) = 0 := by simp
        rw [this, min_eq_left (mul_nonneg hD.le (by linarith [hab.1, hab.2.1])), max_eq_left]
        nlinarith [hab.1]
      rw [h0, mul_zero, add_zero, ← e1]
      simp [hi]
  · cases h
    have hlen : ((List.range n.toNat).length : ℤ) = n := by
      rw [List.length_range]
      omega
    refine ⟨by simpa using hn.le, fun k hk => ⟨by simp, fun i hi => ⟨fun hm => ?_, fun hm r z ω hr e1 e2 => ?_⟩⟩⟩
    · simp [hi, hm]
    · have key : (placed[i].endAzimuth - placed[i].startAzimuth) * progress a b ((k : ℝ) / ((n : ℝ) - 1)) =
          ω * elapsed (D * a) (D * b) (stepTime D n k) := by
        rw [e2]
        unfold stepTime
        rw [← progress_elapsed hD hab.2.1]
        ring
      have hr' : horizontalDistance placed[i].start center = r := by
        rw [e1]
        exact horizontalDistance_around center hr _ _
      have hz : placed[i].start.z = z := by rw [e1]; rfl
      simp [hi, hm, key, hr', hz, around]

/-- **C57.** In every scene that is built, every source is at every step inside the margins of the room
(up to 1e-9 of its distance from the array) and at least 1.8 m from the array centre. -/
theorem C57_allowed_area {D : Type} (a : BuildArgs) (env : BuildEnv) (draws : ℕ → SceneDraws)
    (hd : ∀ k, SceneDraws.Valid (draws k) a) (root : RootState D) (rate : ℕ) (scenes : List BuiltScene)
    (h : (buildDataset a env draws root).2 = .ok (rate, scenes))
    (Lx Ly Lz mx my mz : ℝ) (hroom : a.roomSize = [Lx, Ly, Lz]) (hmargin : a.sourceMargin = [mx, my, mz]) :
    ∀ s ∈ scenes, ∀ step ∈ s.trajectory, ∀ p ∈ step,
      1.8 ≤ horizontal p s.center ∧
      Between (1e-9 * horizontal p s.center) mx (Lx - mx) p.x ∧
      Between (1e-9 * horizontal p s.center) my (Ly - my) p.y ∧ Between 0 mz (Lz - mz) p.z := by
  obtain ⟨room, mic, margin, base, hc, -, -, -, hs⟩ := build_ok h
  obtain ⟨e1, e2, -, hns, -, -, hsteps, hdur, -⟩ := checkBuildArgs_ok hc
  rw [hroom] at e1
  rw [hmargin] at e2
  obtain ⟨rfl, rfl, rfl⟩ : Lx = room.x ∧ Ly = room.y ∧ Lz = room.z := by simpa using e1
  obtain ⟨rfl, rfl, rfl⟩ : mx = margin.x ∧ my = margin.y ∧ mz = margin.z := by simpa using e2
  intro s hsm step hstep p hp
  obtain ⟨k, hk, rfl⟩ := List.getElem_of_mem hsm
  obtain ⟨hv, hclear, -, hlen, j, hpl⟩ := scene_placed (hd k) (hs k hk)
  obtain ⟨htl, htr⟩ := trajectory_at hsteps hv.ratios (buildScene_ok (hs k hk)).2.2.2.1 hdur
  obtain ⟨t, ht, rfl⟩ := List.getElem_of_mem hstep
  obtain ⟨htn, hti⟩ := htr t ht
  obtain ⟨i, hi, rfl⟩ := List.getElem_of_mem hp
  have hi' : i < scenes[k].placed.length := by omega
  obtain ⟨r, z, q1, q2, q3, q4, q5, q6, q7, q8⟩ := hpl i hi'
  have hr18 : (1.8 : ℝ) ≤ r := q3
  have hr0 : 0 ≤ r := le_trans (by norm_num) hr18
  have hclear0 : Clear scenes[k].center (areaOf room margin) 0 := by
    obtain ⟨⟨c1, c2⟩, c3, c4⟩ := hclear
    have := minSourceDistance_pos
    exact ⟨⟨by linarith, by linarith⟩, by linarith, by linarith⟩
  have hdist : ∀ az z', horizontal (around scenes[k].center r az z') scenes[k].center = r :=
    fun az z' => horizontalDistance_around scenes[k].center hr0 az z'
  obtain ⟨hstat, hmov⟩ := hti i hi'
  by_cases hm : i ∈ scenes[k].moving
  · obtain ⟨hrR, hmv⟩ := q7 hm
    have hpos := hmov hm r z (scenes[k].placed[i].angularVelocity) hr0 (by rw [q2]; exact q1)
      (by rw [q2, hmv.endAzimuth]; rfl)
    rw [List.getElem?_eq_getElem hi] at hpos
    have hpos := Option.some.inj hpos
    rw [hpos, hdist]
    obtain ⟨⟨b1, b2⟩, b3, b4⟩ := around_inside ((maxUniformRadius_le _ _ _).mp le_rfl) hr0 hrR
      (scenes[k].placed[i].startAzimuth + scenes[k].placed[i].angularVelocity *
        elapsed (a.duration * a.startRatio) (a.duration * a.endRatio) (stepTime a.duration a.trajectorySteps t)) z
    have hre : 0 ≤ 1e-9 * r := by positivity
    refine ⟨hr18, ⟨?_, ?_⟩, ⟨?_, ?_⟩, ?_, ?_⟩
    · exact le_trans (sub_le_self _ hre) b1
    · exact le_trans b2 (le_add_of_nonneg_right hre)
    · exact le_trans (sub_le_self _ hre) b3
    · exact le_trans b4 (le_add_of_nonneg_right hre)
    · rw [sub_zero]
      exact q5
    · rw [add_zero]
      exact q6
  · have hpos := hstat hm
    rw [List.getElem?_eq_getElem hi] at hpos
    have hpos := Option.some.inj hpos
    rw [hpos, q1, hdist]
    obtain ⟨⟨b1, b2⟩, b3, b4⟩ := maxRadius_inside hr0 hclear0 q4 z
    refine ⟨hr18, ⟨?_, ?_⟩, ⟨?_, ?_⟩, ?_, ?_⟩
    · rw [mul_comm]
      exact b1
    · rw [mul_comm]
      exact b2
    · rw [mul_comm]
      exact b3
    · rw [mul_comm]
      exact b4
    · rw [sub_zero]
      exact q5
    · rw [add_zero]
      exact q6

/-- **C58.** In every scene that is built exactly `n_moving_sources` sources move. The others are at their
start at every step, with speed 0. A moving source turns about the array centre at a fixed distance `r` and
a fixed height: up to the time `t0` of the window it is at its start, within the window it moves at the
annotated speed `r * |ω|`, which is in the requested range, and from then on it is at its end. -/
theorem C58_motion_profile {D : Type} (a : BuildArgs) (env : BuildEnv) (draws : ℕ → SceneDraws)
    (hd : ∀ k, SceneDraws.Valid (draws k) a) (root : RootState D) (rate : ℕ) (scenes : List BuiltScene)
    (h : (buildDataset a env draws root).2 = .ok (rate, scenes)) :
    ∀ s ∈ scenes, (s.moving.Nodup ∧ (s.moving.length : ℤ) = a.nMoving ∧ ∀ i ∈ s.moving, (i : ℤ) < a.nSources) ∧
      (s.placed.length : ℤ) = a.nSources ∧ (s.trajectory.length : ℤ) = a.trajectorySteps ∧
      ∀ i, ∀ hi : i < s.placed.length,
        (i ∉ s.moving → s.placed[i].velocity = 0 ∧ s.placed[i].stop = s.placed[i].start ∧
          ∀ step ∈ s.trajectory, step[i]? = some s.placed[i].start) ∧
        (i ∈ s.moving → (a.speedMin ≤ s.placed[i].velocity ∧ s.placed[i].velocity ≤ a.speedMax) ∧
          ∃ r z, 0 < r ∧ r * |s.placed[i].angularVelocity| = s.placed[i].velocity ∧
            (0 < s.placed[i].angularVelocity ↔ s.placed[i].turn = 1) ∧
            s.placed[i].start = around s.center r s.placed[i].startAzimuth z ∧
            s.placed[i].stop = around s.center r (s.placed[i].startAzimuth + s.placed[i].angularVelocity *
              (a.duration * a.endRatio - a.duration * a.startRatio)) z ∧
            ∀ k, ∀ hk : k < s.trajectory.length, s.trajectory[k][i]? = some (around s.center r
              (s.placed[i].startAzimuth + s.placed[i].angularVelocity *
                elapsed (a.duration * a.startRatio) (a.duration * a.endRatio)
                  (stepTime a.duration a.trajectorySteps k)) z)) := by
  obtain ⟨room, mic, margin, base, hc, -, -, -, hs⟩ := build_ok h
  obtain ⟨-, -, -, hns, hnm, -, hsteps, hdur, -⟩ := checkBuildArgs_ok hc
  intro s hsm
  obtain ⟨q, hq, rfl⟩ := List.getElem_of_mem hsm
  obtain ⟨hv, hclear, hperm, hlen, j, hpl⟩ := scene_placed (hd q) (hs q hq)
  obtain ⟨htl, htr⟩ := trajectory_at hsteps hv.ratios (buildScene_ok (hs q hq)).2.2.2.1 hdur
  have hch := (hd q).choice
  refine ⟨⟨hperm.nodup_iff.mpr hch.nodup, ?_, fun i hi => ?_⟩, by omega, htl, fun i hi => ⟨fun hm => ?_, fun hm => ?_⟩⟩
  · rw [hperm.length_eq, hch.length]
    omega
  · have := hch.lt i (hperm.mem_iff.mp hi)
    omega
  · obtain ⟨r, z, q1, q2, q3, q4, q5, q6, q7, q8⟩ := hpl i hi
    have hrest := q8 hm
    refine ⟨hrest.speed.1, hrest.stop, fun step hstep => ?_⟩
    obtain ⟨t, ht, rfl⟩ := List.getElem_of_mem hstep
    exact ((htr t ht).2 i hi).1 hm
  · obtain ⟨r, z, q1, q2, q3, q4, q5, q6, q7, q8⟩ := hpl i hi
    obtain ⟨-, hmv⟩ := q7 hm
    have hr : 0 < r := lt_of_lt_of_le (lt_trans (by norm_num) minSourceDistance_pos) q3
    have hvel : 0 < scenes[q].placed[i].velocity := lt_of_lt_of_le hv.speeds.1 hmv.speed.1
    refine ⟨hmv.speed, r, z, hr, ?_, ?_, by rw [q2]; exact q1, ?_, fun k hk => ?_⟩
    · rw [hmv.angular]
      have hvr : 0 < scenes[q].placed[i].velocity / r := div_pos hvel hr
      rcases hmv.turn with ht | ht
      · rw [ht, Int.cast_one, one_mul, abs_of_pos hvr]
        field_simp
      · rw [ht, Int.cast_neg, Int.cast_one, neg_one_mul, neg_div, abs_neg, abs_of_pos hvr]
        field_simp
    · rw [hmv.angular]
      have hvr : 0 < scenes[q].placed[i].velocity / r := div_pos hvel hr
      rcases hmv.turn with ht | ht
      · rw [ht, Int.cast_one, one_mul]
        simp [hvr]
      · rw [ht, Int.cast_neg, Int.cast_one, neg_one_mul, neg_div]
        constructor
        · intro h
          linarith
        · intro h
          exact absurd h (by decide)
    · rw [hmv.stop, hmv.endAzimuth, q2]
      congr 2
      ring
    · exact ((htr k hk).2 i hi).2 hm r z _ hr.le (by rw [q2]; exact q1) (by rw [q2, hmv.endAzimuth]; rfl)

/-- **C59.** In every scene that is built the start azimuths are a common base plus distinct multiples of
360/n degrees, one for each `0 … n - 1`, and every source starts on its azimuth. -/
theorem C59_azimuths {D : Type} (a : BuildArgs) (env : BuildEnv) (draws : ℕ → SceneDraws)
    (hd : ∀ k, SceneDraws.Valid (draws k) a) (root : RootState D) (rate : ℕ) (scenes : List BuiltScene)
    (h : (buildDataset a env draws root).2 = .ok (rate, scenes)) :
    ∀ s ∈ scenes, (s.placed.length : ℤ) = a.nSources ∧ ∃ (base : ℝ) (slot : Fin s.placed.length → Fin s.placed.length),
      Function.Bijective slot ∧ ∀ i : Fin s.placed.length,
        s.placed[i].startAzimuth = base + (slot i : ℝ) * (2 * Real.pi / s.placed.length) ∧
        ∃ r z, 0 < r ∧ s.placed[i].start = around s.center r s.placed[i].startAzimuth z := by
  obtain ⟨room, mic, margin, base, hc, -, -, -, hs⟩ := build_ok h
  obtain ⟨-, -, -, hns, -, -, -, -, -⟩ := checkBuildArgs_ok hc
  intro s hsm
  obtain ⟨q, hq, rfl⟩ := List.getElem_of_mem hsm
  obtain ⟨hv, hclear, hperm, hlen, j, hpl⟩ := scene_placed (hd q) (hs q hq)
  have hslots := ((hd q).trial j).slots
  have hsl : ((draws q).trial j).slots.length = scenes[q].placed.length := by
    rw [hslots.length_eq, List.length_range, hlen]
  have hlt : ∀ i : Fin scenes[q].placed.length,
      ((draws q).trial j).slots[i] < scenes[q].placed.length := by
    intro i
    have := hslots.mem_iff.mp (List.getElem_mem (l := ((draws q).trial j).slots) (n := i) (by omega))
    rw [List.mem_range, ← hlen] at this
    exact this
  refine ⟨by omega, ((draws q).trial j).base * (2 * Real.pi), fun i => ⟨_, hlt i⟩, ?_, fun i => ?_⟩
  · refine Finite.injective_iff_bijective.mp fun i i' he => ?_
    have he := Fin.mk.inj he
    have hnd : ((draws q).trial j).slots.Nodup := hslots.nodup_iff.mpr List.nodup_range
    exact Fin.ext ((List.Nodup.getElem_inj_iff hnd).mp he)
  · obtain ⟨r, z, q1, q2, q3, -, -, -, -, -⟩ := hpl i i.2
    refine ⟨?_, r, z, lt_of_lt_of_le (lt_trans (by norm_num) minSourceDistance_pos) q3, ?_⟩
    · change scenes[q].placed[(i : ℕ)].startAzimuth = _
      rw [q2]
      unfold azimuthOf
      rw [List.getD_eq_getElem _ _ (by omega),
        show (a.nSources.toNat : ℝ) = (scenes[q].placed.length : ℝ) from congrArg Nat.cast hlen.symm]
      rfl
    · change scenes[q].placed[(i : ℕ)].start = around _ _ scenes[q].placed[(i : ℕ)].startAzimuth _
      rw [q2]
      exact q1

end Torchrir.Props
