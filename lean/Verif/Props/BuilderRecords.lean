import Verif.Model.BuilderCli
import Verif.Props.BuilderScene

/-! # What the metadata of a built dataset say (C96) -/

namespace Torchrir.Props

open Torchrir.Model Torchrir.Lemmas
open Torchrir.Spec

theorem checkBuildArgs_center (a : BuildArgs) (c : P3) :
    checkBuildArgs { a with micCenter := [c.x, c.y, c.z] } =
      (checkBuildArgs { a with micCenter := [0, 0, 0] }).map fun q => (q.1, c, q.2.2) := by
  unfold checkBuildArgs
  dsimp only
  cases asTriplet a.roomSize with
  | error e => rfl
  | ok room =>
    rw [ok_bind, ok_bind, show asTriplet [c.x, c.y, c.z] = .ok c from rfl,
      show asTriplet [0, 0, 0] = .ok ⟨0, 0, 0⟩ from rfl, ok_bind, ok_bind]
    cases asTriplet a.sourceMargin with
    | error e => rfl
    | ok margin =>
      rw [ok_bind, ok_bind]
      simp only [raiseIf]
      split_ifs <;> rfl

/-- **C96, the centre.** As long as the array centre is drawn at random, `mic_center` only has to be a triplet:
nothing in the dataset depends on it. -/
theorem C96_center_unused {D : Type} (a : BuildArgs) (hr : a.randomizeMicCenter = true) (c c' : P3)
    (env : BuildEnv) (draws : ℕ → SceneDraws) (root : RootState D) :
    buildDataset { a with micCenter := [c.x, c.y, c.z] } env draws root =
      buildDataset { a with micCenter := [c'.x, c'.y, c'.z] } env draws root := by
  have hs : ∀ room margin, buildScenes { a with micCenter := [c.x, c.y, c.z] } env draws room c margin =
      buildScenes { a with micCenter := [c'.x, c'.y, c'.z] } env draws room c' margin := by
    intro room margin
    have : ∀ base target d k, buildScene { a with micCenter := [c.x, c.y, c.z] } env room c margin base target d k =
        buildScene { a with micCenter := [c'.x, c'.y, c'.z] } env room c' margin base target d k := by
      intro base target d k
      unfold buildScene sceneCenter
      dsimp only
      rw [if_pos hr, if_pos hr]
    unfold buildScenes
    simp only [this]
  unfold buildDataset
  rw [checkBuildArgs_center a c, checkBuildArgs_center a c']
  cases checkBuildArgs { a with micCenter := [0, 0, 0] } with
  | error e => rfl
  | ok q =>
    obtain ⟨room, mic, margin⟩ := q
    simp only [Except.map, hs]

theorem scene_utterances {a : BuildArgs} {env : BuildEnv} {room mic margin : P3} {base : List Vec} {target : ℕ}
    {d : SceneDraws} {idx : ℕ} {s : BuiltScene} (h : buildScene a env room mic margin base target d idx = .ok s) :
    s.utterances.length = s.speakers.length := by
  unfold buildScene at h
  simp only [bind_eq_ok] at h
  obtain ⟨center, -, signals, h2, placed, -, trajectory, -, rirs, -, convolved, -, raw, -, stems, -, mixture, -, h⟩ := h
  cases h
  simpa using (mapM_forall₂ h2).length_eq.symm

theorem scene_moving_sorted {a : BuildArgs} {env : BuildEnv} {room mic margin : P3} {base : List Vec} {target : ℕ}
    {d : SceneDraws} {idx : ℕ} {s : BuiltScene} (h : buildScene a env room mic margin base target d idx = .ok s) :
    s.moving.Pairwise (· ≤ ·) := by
  have h := (buildScene_ok h).2.2.1
  unfold placeSources at h
  dsimp only at h
  split_ifs at h with h1 h2 h3 h4 h5 h6 h7
  · cases ht : tryPlace (fun t => placeOnce t room s.center margin a.nSources.toNat (d.choice.mergeSort (· ≤ ·))
        (a.duration * (a.endRatio - a.startRatio)) a.speedMin a.speedMax minSourceDistance
        (maxUniformRadius s.center (areaOf room margin))) d.trial 100 0 with
    | error e =>
      rw [ht] at h
      cases h
    | ok p =>
      rw [ht] at h
      obtain ⟨-, hm⟩ : p = s.placed ∧ d.choice.mergeSort (· ≤ ·) = s.moving := by simpa [Except.map] using h
      rw [← hm]
      exact List.pairwise_mergeSort' (· ≤ ·) d.choice
  · cases ht : tryPlace (fun t => placeOnce t room s.center margin a.nSources.toNat []
        (a.duration * (a.endRatio - a.startRatio)) a.speedMin a.speedMax minSourceDistance
        (maxUniformRadius s.center (areaOf room margin))) d.trial 100 0 with
    | error e =>
      rw [ht] at h
      cases h
    | ok p =>
      rw [ht] at h
      obtain ⟨-, hm⟩ : p = s.placed ∧ [] = s.moving := by simpa [Except.map] using h
      rw [← hm]
      exact .nil

theorem sorted_unique {l l' : List ℕ} (h : l.Pairwise (· ≤ ·)) (h' : l'.Pairwise (· ≤ ·)) (hn : l.Nodup)
    (hn' : l'.Nodup) (hm : ∀ i, i ∈ l ↔ i ∈ l') : l = l' :=
  ((List.perm_ext_iff_of_nodup hn hn').mpr hm).eq_of_pairwise' h h'

/-- **C96, the records.** `source_info.json` of a built scene has one record per source, in order. A record says that
the source moves exactly if it is one of the moving sources, and then its motion type is "arc", its speed is the
positive speed of the motion and its turn is one of 1 and -1; otherwise "static", 0 and 0. Exactly
`n_moving_sources` records say so. The time window is inside the scene. The speed line of the pictures names
exactly the sources that move, with their speeds and in order. -/
theorem C96_records {D : Type} (a : BuildArgs) (env : BuildEnv) (draws : ℕ → SceneDraws)
    (hd : ∀ k, SceneDraws.Valid (draws k) a) (root : RootState D) (rate : ℕ) (scenes : List BuiltScene)
    (h : (buildDataset a env draws root).2 = .ok (rate, scenes)) :
    ∀ s ∈ scenes, ((sourceRecords a s).length : ℤ) = a.nSources ∧
      (((sourceRecords a s).filter (·.isMoving)).length : ℤ) = a.nMoving ∧
      (∀ i, ∀ hi : i < (sourceRecords a s).length, ∃ hp : i < s.placed.length, ∃ hsp : i < s.speakers.length,
        ∃ hu : i < s.utterances.length, ∃ r, (sourceRecords a s)[i] = r ∧
        r.index = i ∧ r.speaker = s.speakers[i] ∧ r.utterances = s.utterances[i] ∧
        r.velocity = s.placed[i].velocity ∧ r.angularVelocity = s.placed[i].angularVelocity ∧
        (r.isMoving = true ↔ i ∈ s.moving) ∧
        (i ∈ s.moving → r.motionType = "arc" ∧ 0 < r.velocity ∧ r.angularVelocity ≠ 0 ∧ (r.turn = 1 ∨ r.turn = -1)) ∧
        (i ∉ s.moving → r.motionType = "static" ∧ r.velocity = 0 ∧ r.angularVelocity = 0 ∧ r.turn = 0) ∧
        0 ≤ r.moveStart ∧ r.moveStart < r.moveEnd ∧ r.moveEnd ≤ a.duration) ∧
      (speedLine s = none ↔ a.nMoving = 0) ∧
      ∀ items, speedLine s = some items → items.map Prod.fst = s.moving ∧
        ∀ i v, (i, v) ∈ items → ∃ hi : i < s.placed.length, v = s.placed[i].velocity := by
  obtain ⟨room, mic, margin, base, hc, -, -, -, hs⟩ := build_ok h
  obtain ⟨-, -, -, hns, hnm, -, hsteps, hdur, -⟩ := checkBuildArgs_ok hc
  intro s hsm
  obtain ⟨q, hq, rfl⟩ := List.getElem_of_mem hsm
  obtain ⟨hv, hclear, hperm, hlen, j, hpl⟩ := scene_placed (hd q) (hs q hq)
  have hch := (hd q).choice
  have hsp : (scenes[q].speakers.length : ℤ) = a.nSources := by
    rw [(buildScene_ok (hs q hq)).2.2.2.2.2.2.2]
    exact (hd q).speakers.1
  have hut := scene_utterances (hs q hq)
  have hsorted := scene_moving_sorted (hs q hq)
  generalize scenes[q] = s at *
  have hnodup : s.moving.Nodup := hperm.nodup_iff.mpr hch.nodup
  have hmlen : (s.moving.length : ℤ) = a.nMoving := by
    rw [hperm.length_eq, hch.length]
    omega
  have hmlt : ∀ i ∈ s.moving, i < a.nSources.toNat := fun i hi => hch.lt i (hperm.mem_iff.mp hi)
  have hfacts : ∀ i, ∀ hi : i < s.placed.length,
      (i ∈ s.moving → 0 < s.placed[i].velocity ∧ s.placed[i].angularVelocity ≠ 0 ∧
        (s.placed[i].turn = 1 ∨ s.placed[i].turn = -1)) ∧
      (i ∉ s.moving → s.placed[i].velocity = 0 ∧ s.placed[i].angularVelocity = 0 ∧ s.placed[i].turn = 0) := by
    intro i hi
    obtain ⟨r, z, q1, q2, q3, q4, q5, q6, q7, q8⟩ := hpl i hi
    refine ⟨fun hm => ?_, fun hm => (q8 hm).speed⟩
    obtain ⟨-, hmv⟩ := q7 hm
    have hr : 0 < r := lt_of_lt_of_le (lt_trans (by norm_num) minSourceDistance_pos) q3
    have hvel : 0 < s.placed[i].velocity := lt_of_lt_of_le hv.speeds.1 hmv.speed.1
    refine ⟨hvel, ?_, hmv.turn⟩
    rw [hmv.angular]
    refine div_ne_zero (mul_ne_zero ?_ hvel.ne') hr.ne'
    rcases hmv.turn with ht | ht <;> rw [ht] <;> norm_num
  have hrl : (sourceRecords a s).length = a.nSources.toNat := by
    unfold sourceRecords
    rw [List.length_mapIdx, List.length_zip]
    omega
  have hmovmap : (sourceRecords a s).map (·.isMoving) = (List.range a.nSources.toNat).map fun i => decide (i ∈ s.moving) := by
    refine List.ext_getElem (by simp [hrl]) fun i h1 h2 => ?_
    simp [sourceRecords]
  refine ⟨by omega, ?_, ?_, ?_⟩
  · rw [← hmlen]
    congr 1
    rw [← List.countP_eq_length_filter, show (fun r : SourceRecord => r.isMoving) = id ∘ (·.isMoving) from rfl,
      ← List.countP_map, hmovmap, List.countP_map, List.countP_eq_length_filter]
    refine List.Perm.length_eq ((List.perm_ext_iff_of_nodup (List.nodup_range.filter _) hnodup).mpr fun i => ?_)
    simp only [List.mem_filter, List.mem_range, Function.comp, id, decide_eq_true_eq]
    exact ⟨fun h => h.2, fun h => ⟨hmlt i h, h⟩⟩
  · intro i hi
    have hp : i < s.placed.length := by omega
    refine ⟨hp, by omega, by omega, _, rfl, ?_⟩
    obtain ⟨f1, f2⟩ := hfacts i hp
    simp only [sourceRecords, List.getElem_mapIdx, List.getElem_zip, true_and, decide_eq_true_eq, List.getD_eq_getElem?_getD,
      List.getElem?_map, List.getElem?_eq_getElem hp, Option.map_some, Option.getD_some]
    refine ⟨fun hm => ⟨if_pos hm, f1 hm⟩, fun hm => ⟨if_neg hm, f2 hm⟩, ?_, ?_, ?_⟩
    · exact mul_nonneg hdur.le hv.ratios.1
    · exact mul_lt_mul_of_pos_left hv.ratios.2.1 hdur
    · exact (mul_le_mul_of_nonneg_left hv.ratios.2.2 hdur.le).trans (mul_one _).le
  · have hitems : (((s.placed.map (·.velocity)).zipIdx.filter fun p => 0 < p.1).map fun p => (p.2, p.1)).map Prod.fst
        = s.moving := by
      rw [List.map_map]
      have hsub : ((s.placed.map (·.velocity)).zipIdx.filter fun p => 0 < p.1).map Prod.snd |>.Sublist
          (List.range s.placed.length) := by
        have := (List.filter_sublist (p := fun p : ℝ × ℕ => decide (0 < p.1))
          (l := (s.placed.map (·.velocity)).zipIdx)).map Prod.snd
        simpa [List.range_eq_range'] using this
      refine sorted_unique ((List.pairwise_lt_range.imp le_of_lt).sublist hsub) hsorted (List.nodup_range.sublist hsub)
        hnodup fun i => ?_
      simp only [List.mem_map, List.mem_filter, List.mem_zipIdx_iff_getElem?, List.getElem?_map, Option.map_eq_some_iff,
        decide_eq_true_eq, Function.comp, Prod.exists]
      constructor
      · rintro ⟨v, k, ⟨⟨p, hp, rfl⟩, hpos⟩, rfl⟩
        obtain ⟨hk, rfl⟩ := List.getElem?_eq_some_iff.mp hp
        by_contra hm
        rw [((hfacts k hk).2 hm).1] at hpos
        exact lt_irrefl _ hpos
      · intro hm
        have hi : i < s.placed.length := by
          have := hmlt i hm
          omega
        exact ⟨_, i, ⟨⟨s.placed[i], List.getElem?_eq_getElem hi, rfl⟩, ((hfacts i hi).1 hm).1⟩, rfl⟩
    unfold speedLine
    dsimp only
    constructor
    · rw [← hmlen, ← hitems, List.length_map]
      split_ifs with h0
      · simp [h0]
      · simpa using h0
    · intro items hi
      split_ifs at hi with h0
      cases hi
      refine ⟨hitems, fun i v hm => ?_⟩
      simp only [List.mem_map, List.mem_filter, List.mem_zipIdx_iff_getElem?, List.getElem?_map, Option.map_eq_some_iff,
        Prod.exists] at hm
      obtain ⟨w, k, ⟨⟨p, hp, rfl⟩, -⟩, h⟩ := hm
      cases h
      obtain ⟨hk, rfl⟩ := List.getElem?_eq_some_iff.mp hp
      exact ⟨hk, rfl⟩

/-- A dataset with one scene, in which the first of two sources moves: the records say so. -/
example : ∃ s, (buildDataset (D := Unit) twoSpeakers loudEnv middleDraws .absent).2 = .ok (16000, [s]) ∧
    ((sourceRecords twoSpeakers s).length : ℤ) = 2 ∧
    (((sourceRecords twoSpeakers s).filter (·.isMoving)).length : ℤ) = 1 ∧ speedLine s ≠ none := by
  obtain ⟨s, hs, -⟩ := loud_scene
  obtain ⟨h1, h2, -, h3, -⟩ := C96_records twoSpeakers loudEnv middleDraws middleDraws_valid .absent 16000 [s] hs s
    (by simp)
  exact ⟨s, hs, h1, h2, fun h => absurd (h3.mp h) (by norm_num [twoSpeakers])⟩

/-- The default centre and any other one give the same dataset with random centres. -/
example (c : P3) : buildDataset (D := Unit) { twoSpeakers with micCenter := [4, 3, 1.5] } loudEnv middleDraws .absent =
    buildDataset { twoSpeakers with micCenter := [c.x, c.y, c.z] } loudEnv middleDraws .absent :=
  C96_center_unused twoSpeakers rfl ⟨4, 3, 1.5⟩ c loudEnv middleDraws .absent

end Torchrir.Props
