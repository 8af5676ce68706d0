import Verif.Props.DatasetRun

/-!
# C120: runs of the dataset script that share scenes
-/

namespace Torchrir.Props

open Torchrir.Model Torchrir.Spec Torchrir.Lemmas

namespace SharedScenes

theorem mem_bind {ι α β : Type} {x : Writing ι α} {f : α → Writing ι β} {p : String × OutFile ι}
    (h : p ∈ (x >>= f).files) : p ∈ x.files ∨ ∃ a, x.result = .ok a ∧ p ∈ (f a).files := by
  cases hx : x.result with
  | error e =>
    rw [bind_raised hx] at h
    exact .inl h
  | ok a =>
    rw [bind_files hx] at h
    rcases List.mem_append.mp h with h | h
    · exact .inl h
    · exact .inr ⟨a, rfl, h⟩

theorem mem_quietly {ι α β : Type} {x : Except String α} {f : α → Writing ι β} {p : String × OutFile ι}
    (h : p ∈ (quietly x >>= f).files) : ∃ a, x = .ok a ∧ p ∈ (f a).files :=
  (mem_bind h).resolve_left fun h => nomatch h

/-- References are audio files. -/
theorem references_audio {ι : Type} (name : ℕ → String) (fs : ℕ) (reference : ℕ → Except String (Tensor ℝ))
    (info : List (String × List ι)) (l : List ℕ) :
    ∀ p ∈ (writeReferences name fs reference info l).files, ∃ f r, p.2 = .audio f r := by
  induction l with
  | nil => exact fun p hp => nomatch hp
  | cons s rest ih =>
    intro p hp
    unfold writeReferences at hp
    rcases mem_bind hp with hp | ⟨e, -, hp⟩
    · unfold writeReference at hp
      obtain ⟨y, -, hp⟩ := mem_quietly hp
      obtain ⟨f, -, hp⟩ := mem_quietly hp
      rcases mem_bind hp with hp | ⟨_, _, hp⟩
      · obtain rfl := List.mem_singleton.mp hp
        exact ⟨_, _, rfl⟩
      · obtain ⟨_, _, hp⟩ := mem_quietly hp
        cases hp
    · rcases mem_bind hp with hp | ⟨_, _, hp⟩
      · exact ih p hp
      · exact nomatch hp

/-- Where the metadata of a scene comes from. -/
theorem scene_metadata {ι : Type} {w : World} {room : Room} {a : DatasetRunArgs} {gen : ℤ → Gen}
    {load : Gen → Except String (LoadedSources ι × ℕ)} {license : List (String × AttrValue)} {center : Vec}
    {mics : List Vec} {idx : ℕ} {name : String} {md : Metadata} {info : List (String × List ι)} {extra : DatasetExtra ι}
    (h : (name, .datasetMetadata md info extra) ∈ (writeScene w room a gen load license center mics idx).files) :
    name = datasetMetadataName idx ∧ ∃ l k motion rirs, load (gen (a.seed + idx)) = .ok (l, k) ∧
      buildSourceTrajectories (gen (a.seed + idx)) a.numSources a.numMoving a.room center (max 2 a.steps) k = .ok motion ∧
      datasetMetadata a.room.length motion.1 mics (max 2 a.steps).toNat rirs (pointsTensor l.1) = .ok md ∧
      info = l.2.2 ∧ extra.motionModes = motion.2.1 ∧ extra.movingSources = motion.2.2 := by
  unfold writeScene at h
  obtain ⟨⟨l, k⟩, hl, h⟩ := mem_quietly h
  unfold writeSceneLoaded at h
  obtain ⟨motion, hm, h⟩ := mem_quietly h
  obtain ⟨rirs, -, h⟩ := mem_quietly h
  obtain ⟨y, -, h⟩ := mem_quietly h
  rcases mem_bind h with h | ⟨refs, -, h⟩
  · obtain ⟨f, r, h⟩ := references_audio _ _ _ _ _ _ h
    cases h
  obtain ⟨file, -, h⟩ := mem_quietly h
  rcases mem_bind h with h | ⟨_, _, h⟩
  · have := List.mem_singleton.mp h
    cases this
  obtain ⟨md', hmd, h⟩ := mem_quietly h
  have := List.mem_singleton.mp h
  cases this
  exact ⟨rfl, l, k, motion, rirs, hl, hm, hmd, rfl, rfl, rfl⟩

theorem mem_scenes {ι : Type} {scene : ℕ → Writing ι Unit} {p : String × OutFile ι} : ∀ {l : List ℕ},
    p ∈ (writeScenes scene l).files → ∃ i ∈ l, p ∈ (scene i).files
  | [], h => nomatch h
  | i :: l, h => by
    rcases mem_bind (x := scene i) (f := fun _ => writeScenes scene l) h with h | ⟨_, _, h⟩
    · exact ⟨i, by simp, h⟩
    · obtain ⟨j, hj, h⟩ := mem_scenes h
      exact ⟨j, by simp [hj], h⟩

theorem metadataName_inj {i j : ℕ} (h : datasetMetadataName i = datasetMetadataName j) : i = j :=
  sceneNames_disjoint (n := 0) (name := datasetMetadataName i) (by simp [sceneNames, datasetMetadataName])
    (by rw [h]; simp [sceneNames, datasetMetadataName])

/-- Where the metadata of a scene comes from, for the whole run. -/
theorem run_metadata {ι : Type} {conv : Flt → ℤ} {w : World} {a : DatasetRunArgs} {gen : ℤ → Gen}
    {load : Gen → Except String (LoadedSources ι × ℕ)} {idx : ℕ} {md : Metadata} {info : List (String × List ι)}
    {extra : DatasetExtra ι}
    (h : (datasetMetadataName idx, .datasetMetadata md info extra) ∈ (datasetRun conv w a gen load).files) :
    ∃ l k motion rirs mics, load (gen (a.seed + idx)) = .ok (l, k) ∧
      buildSourceTrajectories (gen (a.seed + idx)) a.numSources a.numMoving a.room
        (drawCenter (gen a.seed).value a.room 0).1 (max 2 a.steps) k = .ok motion ∧
      datasetMetadata a.room.length motion.1 mics (max 2 a.steps).toNat rirs (pointsTensor l.1) = .ok md ∧
      info = l.2.2 ∧ extra.motionModes = motion.2.1 ∧ extra.movingSources = motion.2.2 := by
  unfold datasetRun at h
  obtain ⟨room, -, h⟩ := mem_quietly h
  obtain ⟨mics, -, h⟩ := mem_quietly h
  obtain ⟨license, -, h⟩ := mem_quietly h
  rcases mem_bind h with h | ⟨_, _, h⟩
  · unfold writeAttribution at h
    cases hs : saveAttribution (.fields license) (modificationNotes true) none with
    | mk x y =>
      rw [hs] at h
      cases x with
      | none => cases h
      | some x =>
        exact nomatch (Prod.mk.inj (List.mem_singleton.mp h)).2
  · obtain ⟨i, -, h⟩ := mem_scenes h
    obtain ⟨hn, l, k, motion, rirs, h⟩ := scene_metadata h
    obtain rfl := metadataName_inj hn
    exact ⟨l, k, motion, rirs, mics, h⟩

/-- The part of the metadata on the sources does not depend on the microphones. -/
theorem metadata_sources {dim : ℕ} {traj : List (List Vec)} {mics mics' : List Vec} {T : ℕ} (hT : 2 ≤ T)
    {rirs rirs' x x' : Tensor ℝ} {md md' : Metadata} (h : datasetMetadata dim traj mics T rirs x = .ok md)
    (h' : datasetMetadata dim traj mics' T rirs' x' = .ok md') :
    md.sourcePositions = md'.sourcePositions ∧ md.sourceTraj = md'.sourceTraj := by
  have key : ∀ {mics : List Vec} {rirs x : Tensor ℝ} {md : Metadata}, datasetMetadata dim traj mics T rirs x = .ok md →
      md.sourcePositions = (pointsTensor (traj.headD [])).rows ∧
      md.sourceTraj = some (expandSteps (trajTensor traj) (max traj.length T)).planes := by
    intro mics rirs x md h
    have hlen : (List.replicate T mics).length = T := List.length_replicate
    unfold datasetMetadata buildMetadata at h
    rw [raiseIf_bind_ok] at h
    obtain ⟨-, h⟩ := h
    obtain ⟨src, hs, h⟩ := (bind_eq_ok _ _ _).mp h
    obtain ⟨mic, hm, h⟩ := (bind_eq_ok _ _ _).mp h
    have es : src = trajTensor traj := by
      unfold normalizeTraj at hs
      simp only [trajTensor] at hs
      split at hs
      · cases hs
      · cases hs
        rfl
    have em : mic = trajTensor (List.replicate T mics) := by
      unfold normalizeTraj at hm
      simp only [trajTensor] at hm
      split at hm
      · cases hm
      · cases hm
        rfl
    subst es em
    dsimp only at h
    rw [raiseIf_bind_ok] at h
    obtain ⟨-, h⟩ := h
    rw [raiseIf_bind_ok] at h
    obtain ⟨-, h⟩ := h
    obtain ⟨c, -, h⟩ := (bind_eq_ok _ _ _).mp h
    cases h
    refine ⟨rfl, ?_⟩
    have e1 : (trajTensor traj).shape.getD 0 0 = traj.length := rfl
    have e2 : (trajTensor (List.replicate T mics)).shape.getD 0 0 = T := hlen
    dsimp only
    rw [e1, e2, if_pos (by omega)]
  obtain ⟨a1, a2⟩ := key h
  obtain ⟨b1, b2⟩ := key h'
  exact ⟨a1.trans b1.symm, a2.trans b2.symm⟩

end SharedScenes

open SharedScenes

/-- **C120 (paired).** Two runs with the same seed, room, number of sources, number of moving sources and steps have the
same scenes in front of their microphones, whatever the number of microphones, the order, the length of the responses, the
number of scenes and the device: the same speakers say the same, and move in the same way along the same paths. -/
theorem C120_paired {ι : Type} (conv conv' : Flt → ℤ) (w w' : World) (a b : DatasetRunArgs) (gen : ℤ → Gen)
    (load : Gen → Except String (LoadedSources ι × ℕ)) (hroom : a.room = b.room) (hsrc : a.numSources = b.numSources)
    (hmov : a.numMoving = b.numMoving) (hseed : a.seed = b.seed) (hsteps : a.steps = b.steps) (idx : ℕ)
    (md md' : Metadata) (info info' : List (String × List ι)) (extra extra' : DatasetExtra ι)
    (h : (datasetMetadataName idx, .datasetMetadata md info extra) ∈ (datasetRun conv w a gen load).files)
    (h' : (datasetMetadataName idx, .datasetMetadata md' info' extra') ∈ (datasetRun conv' w' b gen load).files) :
    info = info' ∧ md.sourcePositions = md'.sourcePositions ∧ md.sourceTraj = md'.sourceTraj ∧
      extra.motionModes = extra'.motionModes ∧ extra.movingSources = extra'.movingSources := by
  obtain ⟨l, k, m, r, mics, h1, h2, h3, h4, h5, h6⟩ := run_metadata h
  obtain ⟨l', k', m', r', mics', g1, g2, g3, g4, g5, g6⟩ := run_metadata h'
  rw [← hseed, h1] at g1
  cases g1
  rw [← hseed, ← hroom, ← hsrc, ← hmov, ← hsteps, h2] at g2
  cases g2
  rw [← hroom, ← hsteps] at g3
  obtain ⟨e1, e2⟩ := metadata_sources (by omega) h3 g3
  exact ⟨h4.trans g4.symm, e1, e2, h5.trans g5.symm, h6.trans g6.symm⟩

/-- **C120 (different seeds; fails).** One would expect runs with different seeds to be different samples. But scene
`idx + j` of a run and scene `idx` of a run with a seed larger by `j` have the same speakers with the same utterances. -/
theorem C120_seeds_fails {ι : Type} (conv conv' : Flt → ℤ) (w w' : World) (a b : DatasetRunArgs) (gen : ℤ → Gen)
    (load : Gen → Except String (LoadedSources ι × ℕ)) (idx j : ℕ) (hseed : b.seed = a.seed + j)
    (md md' : Metadata) (info info' : List (String × List ι)) (extra extra' : DatasetExtra ι)
    (h : (datasetMetadataName (idx + j), .datasetMetadata md info extra) ∈ (datasetRun conv w a gen load).files)
    (h' : (datasetMetadataName idx, .datasetMetadata md' info' extra') ∈ (datasetRun conv' w' b gen load).files) :
    info = info' := by
  obtain ⟨l, k, m, r, mics, h1, h2, h3, h4, h5, h6⟩ := run_metadata h
  obtain ⟨l', k', m', r', mics', g1, g2, g3, g4, g5, g6⟩ := run_metadata h'
  have : b.seed + (idx : ℤ) = a.seed + ((idx + j : ℕ) : ℤ) := by
    rw [hseed]
    push_cast
    ring
  rw [this, h1] at g1
  cases g1
  exact h4.trans g4.symm

/-- **C120 (more scenes).** A run for more scenes begins with the files of the run for fewer scenes, and if that run
ended with an error, so does the longer one, with the same files. -/
theorem C120_more_scenes {ι : Type} (conv : Flt → ℤ) (w : World) (a : DatasetRunArgs) (gen : ℤ → Gen)
    (load : Gen → Except String (LoadedSources ι × ℕ)) (n : ℕ) (hn : a.numScenes ≤ n) :
    (datasetRun conv w a gen load).files <+: (datasetRun conv w { a with numScenes := n } gen load).files ∧
    ∀ e, (datasetRun conv w a gen load).result = .error e →
      datasetRun conv w { a with numScenes := n } gen load = datasetRun conv w a gen load := by
  have hsc : ∀ (scene : ℕ → Writing ι Unit) (l l' : List ℕ),
      (writeScenes scene l).files <+: (writeScenes scene (l ++ l')).files ∧
      ∀ e, (writeScenes scene l).result = .error e → writeScenes scene (l ++ l') = writeScenes scene l := by
    intro scene l l'
    induction l with
    | nil => exact ⟨List.nil_prefix, fun e h => nomatch h⟩
    | cons i l ih =>
      have e1 : ∀ m, writeScenes scene (i :: m) = (scene i >>= fun _ => writeScenes scene m) := fun _ => rfl
      rw [List.cons_append, e1, e1]
      cases h : (scene i).result with
      | error e =>
        rw [bind_raised h, bind_raised h]
        exact ⟨List.prefix_rfl, fun _ _ => rfl⟩
      | ok u =>
        rw [bind_files h, bind_files h]
        refine ⟨(List.prefix_append_right_inj _).mpr ih.1, fun e he => ?_⟩
        dsimp only at he ⊢
        rw [ih.2 e he]
  have hext : ∀ {α : Type} (x : Writing ι α) (f g : α → Writing ι Unit),
      (∀ y, (f y).files <+: (g y).files ∧ ∀ e, (f y).result = .error e → g y = f y) →
      (x >>= f).files <+: (x >>= g).files ∧ ∀ e, (x >>= f).result = .error e → x >>= g = x >>= f := by
    intro α x f g h
    cases hx : x.result with
    | error e =>
      rw [bind_raised hx, bind_raised hx]
      exact ⟨List.prefix_rfl, fun _ _ => rfl⟩
    | ok y =>
      rw [bind_files hx, bind_files hx]
      refine ⟨(List.prefix_append_right_inj _).mpr (h y).1, fun e he => ?_⟩
      rw [(h y).2 e he]
  unfold datasetRun
  refine hext _ _ _ fun room => hext _ _ _ fun mics => hext _ _ _ fun license => hext _ _ _ fun _ => ?_
  obtain ⟨t, rfl⟩ := Nat.exists_eq_add_of_le hn
  rw [List.range_add]
  exact hsc _ _ _

/-- **C120 (generators).** A run uses the generators of the seed and of the following numbers, one for each scene, and no
others: whatever other seeds yield, and whatever could be loaded with them, the files and the outcome are the same. -/
theorem C120_generators {ι : Type} (conv : Flt → ℤ) (w : World) (a : DatasetRunArgs) (gen gen' : ℤ → Gen)
    (load load' : Gen → Except String (LoadedSources ι × ℕ)) (h0 : gen a.seed = gen' a.seed)
    (h : ∀ i < a.numScenes, gen (a.seed + i) = gen' (a.seed + i) ∧
      load (gen (a.seed + i)) = load' (gen (a.seed + i))) :
    datasetRun conv w a gen load = datasetRun conv w a gen' load' := by
  have hsc : ∀ (s s' : ℕ → Writing ι Unit) (l : List ℕ), (∀ i ∈ l, s i = s' i) → writeScenes s l = writeScenes s' l := by
    intro s s' l
    induction l with
    | nil => exact fun _ => rfl
    | cons i l ih =>
      intro hl
      have e1 : ∀ s m, writeScenes s (i :: m) = (s i >>= fun _ => writeScenes (ι := ι) s m) := fun _ _ => rfl
      rw [e1, e1, hl i (by simp), ih fun j hj => hl j (by simp [hj])]
  unfold datasetRun
  rw [h0]
  congr 1
  funext room
  congr 1
  funext mics
  congr 1
  funext license
  congr 1
  funext _
  refine hsc _ _ _ fun i hi => ?_
  obtain ⟨e1, e2⟩ := h i (List.mem_range.mp hi)
  unfold writeScene
  rw [← e1, e2]

/-- **C120 (one scene).** The files of a scene depend on the generator of the seed, which places the microphones, and on
the generator of the scene: whatever the other generators yield, a scene that is finished has the same files. -/
theorem C120_one_scene {ι : Type} (conv : Flt → ℤ) (w : World) (a : DatasetRunArgs) (gen gen' : ℤ → Gen)
    (load load' : Gen → Except String (LoadedSources ι × ℕ)) (h0 : gen a.seed = gen' a.seed) (idx : ℕ)
    (h1 : gen (a.seed + idx) = gen' (a.seed + idx)) (h2 : load (gen (a.seed + idx)) = load' (gen (a.seed + idx)))
    (name : String) (hn : name ∈ sceneNames a.numSources idx) (f f' : OutFile ι)
    (h : (name, f) ∈ (datasetRun conv w a gen load).files) (h' : (name, f') ∈ (datasetRun conv w a gen' load').files) :
    f = f' := by
  have key : ∀ {gen : ℤ → Gen} {load : Gen → Except String (LoadedSources ι × ℕ)} {f : OutFile ι},
      (name, f) ∈ (datasetRun conv w a gen load).files → ∃ room mics license,
        cliRoom conv { room := a.room, numSources := a.numSources } 16000 = .ok room ∧
        datasetMics a.room (drawCenter (gen a.seed).value a.room 0).1 a.numMics = .ok mics ∧
        attributionFor a.dataset a.reported = .ok license ∧
        (name, f) ∈ (writeScene w room a gen load license (drawCenter (gen a.seed).value a.room 0).1 mics idx).files := by
    intro gen load f h
    unfold datasetRun at h
    obtain ⟨room, e1, h⟩ := mem_quietly h
    obtain ⟨mics, e2, h⟩ := mem_quietly h
    obtain ⟨license, e3, h⟩ := mem_quietly h
    refine ⟨room, mics, license, e1, e2, e3, ?_⟩
    rcases mem_bind h with h | ⟨_, _, h⟩
    · obtain ⟨_, _, _, _, _, hw, _⟩ := attribution_written (ι := ι) e3 (modificationNotes true)
      rw [hw] at h
      have := List.mem_singleton.mp h
      obtain ⟨c, r, -, hc⟩ := sceneNames_chars hn
      rw [(Prod.mk.inj this).1] at hc
      simp at hc
    · obtain ⟨i, -, h⟩ := mem_scenes h
      have hi : name ∈ sceneNames a.numSources i :=
        (scene_ends w room a gen load license _ mics i).1.1.subset (List.mem_map_of_mem (f := Prod.fst) h)
      obtain rfl := sceneNames_disjoint hi hn
      exact h
  obtain ⟨room, mics, license, e1, e2, e3, hm⟩ := key h
  obtain ⟨room', mics', license', g1, g2, g3, hm'⟩ := key h'
  rw [e1] at g1
  rw [← h0, e2] at g2
  rw [e3] at g3
  cases g1
  cases g2
  cases g3
  have same : writeScene w room a gen' load' license (drawCenter (gen' a.seed).value a.room 0).1 mics idx
      = writeScene w room a gen load license (drawCenter (gen a.seed).value a.room 0).1 mics idx := by
    unfold writeScene
    rw [← h1, ← h2, ← h0]
  rw [same] at hm'
  have hnd : ((writeScene w room a gen load license (drawCenter (gen a.seed).value a.room 0).1 mics idx).files.map
      Prod.fst).Nodup :=
    (sceneNames_nodup a.numSources idx).sublist (scene_ends w room a gen load license _ mics idx).1.1.sublist
  have := List.inj_on_of_nodup_map hnd hm hm' rfl
  exact (Prod.mk.inj this).2

/-! ## Cases meeting the hypotheses -/

/-- Three scenes, and five scenes with the same seed. -/
example (conv : Flt → ℤ) (randn : ℤ → List ℕ → List ℝ) : ∃ (l : LoadedSources ℕ) (md : Metadata)
    (info : List (String × List ℕ)) (extra : DatasetExtra ℕ),
    (datasetMetadataName 2, .datasetMetadata md info extra) ∈
      (datasetRun conv (halvingWorld randn) libriScenes (fun _ => cornerGen) fun _ => .ok (l, 2)).files ∧
    (datasetMetadataName 2, .datasetMetadata md info extra) ∈
      (datasetRun conv (halvingWorld randn) { libriScenes with numScenes := 5 } (fun _ => cornerGen)
        fun _ => .ok (l, 2)).files := by
  obtain ⟨l, -, h⟩ := C103_rate_fails conv randn
  obtain ⟨md, info, extra, mix, -, h, -⟩ := h 2 (by norm_num)
  exact ⟨l, md, info, extra, h, (C120_more_scenes conv (halvingWorld randn) libriScenes (fun _ => cornerGen) _ 5
    (by norm_num [libriScenes])).1.subset h⟩

/-- Scene 1 for a seed and scene 0 for the next seed. -/
example (conv : Flt → ℤ) (randn : ℤ → List ℕ → List ℝ) : ∃ (l : LoadedSources ℕ) (md md' : Metadata)
    (info info' : List (String × List ℕ)) (extra extra' : DatasetExtra ℕ),
    (datasetMetadataName (0 + 1), .datasetMetadata md info extra) ∈
      (datasetRun conv (halvingWorld randn) libriScenes (fun _ => cornerGen) fun _ => .ok (l, 2)).files ∧
    (datasetMetadataName 0, .datasetMetadata md' info' extra') ∈
      (datasetRun conv (halvingWorld randn) { libriScenes with seed := libriScenes.seed + (1 : ℕ) } (fun _ => cornerGen)
        fun _ => .ok (l, 2)).files := by
  obtain ⟨l, -, h⟩ := C103_rate_fails conv randn
  obtain ⟨md, info, extra, mix, -, h1, -⟩ := h 1 (by norm_num)
  obtain ⟨md', info', extra', mix', -, h0, -⟩ := h 0 (by norm_num)
  exact ⟨l, md, md', info, info', extra, extra', h1, h0⟩

end Torchrir.Props
