import Verif.Spec.DatasetRun
import Verif.Props.ScriptRun

/-!
# Files of a dynamic dataset
-/

namespace Torchrir.Props

open Torchrir.Model Torchrir.Spec Torchrir.Lemmas

/-! ## Order of the files -/

theorem RunEnds.seq {ι α β : Type} {x : Writing ι α} {p q : List String} (hx : RunEnds x p) (f : α → Writing ι β)
    (hf : ∀ a, x.result = .ok a → RunEnds (f a) q) : RunEnds (x >>= f) (p ++ q) := by
  refine ⟨hx.1.bind f fun a h => (hf a h).1, fun h => ?_⟩
  cases hr : x.result with
  | error e =>
    rw [bind_raised hr] at h
    dsimp only at h
    have h1 := hx.1.1
    rw [h] at h1
    have h2 := h1.length_le
    rw [List.length_append] at h2
    have hq : q = [] := List.length_eq_zero_iff.mp (by omega)
    rw [hq, List.append_nil] at h
    obtain ⟨a, ha⟩ := hx.2 h
    rw [hr] at ha
    cases ha
  | ok a =>
    rw [bind_files hr] at h ⊢
    dsimp only at h ⊢
    rw [List.map_append, hx.1.2 a hr] at h
    exact (hf a hr).2 (List.append_cancel_left h)

theorem scene_ends {ι : Type} (w : World) (room : Room) (a : DatasetRunArgs) (gen : ℤ → Gen)
    (load : Gen → Except String (LoadedSources ι × ℕ)) (license : List (String × AttrValue)) (center : Vec)
    (mics : List Vec) (idx : ℕ) :
    RunEnds (writeScene w room a gen load license center mics idx) (sceneNames a.numSources idx) := by
  unfold writeScene sceneNames
  refine RunEnds.then (by simp) fun l _ => ?_
  unfold writeSceneLoaded
  refine RunEnds.then (by simp) fun m _ => RunEnds.then (by simp) fun rirs _ => RunEnds.then (by simp) fun y _ => ?_
  refine RunEnds.bind (writeReferences_follows ..) _ (by simp) fun refs _ => RunEnds.then (by simp) fun file _ => ?_
  exact RunEnds.bind (p := [_]) (q := [_]) (Follows.write _ _) _ (by simp) fun _ _ =>
    RunEnds.then (by simp) fun md _ => RunEnds.write _ _

theorem scenes_end {ι : Type} (scene : ℕ → Writing ι Unit) (names : ℕ → List String)
    (h : ∀ idx, RunEnds (scene idx) (names idx)) (l : List ℕ) : RunEnds (writeScenes scene l) (l.flatMap names) := by
  induction l with
  | nil => exact ⟨Follows.done _, fun _ => ⟨(), rfl⟩⟩
  | cons idx rest ih => exact RunEnds.seq (h idx) _ fun _ _ => ih

/-- The attribution file of every accepted dataset. -/
theorem attribution_written {ι : Type} {dataset : String} {subset : Option String} {license : List (String × AttrValue)}
    (h : attributionFor dataset subset = .ok license) (notes : List String) : ∃ key credit text, (key, credit) ∈ licensed ∧
    dataset.toLower = key ∧
    (writeAttribution license notes : Writing ι Unit) = writeFile "ATTRIBUTION.txt" (.text text) ∧
    license.lookup "dataset_key" = some (.shown key) ∧
    HasLine text.toList ("Required attribution: ".toList ++ credit.toList) ∧
    (∃ name url : String, name ≠ "" ∧ url ≠ "" ∧ HasLine text.toList ("License: ".toList ++ name.toList) ∧
      HasLine text.toList ("License URL: ".toList ++ url.toList)) ∧
    (∀ s, key = "librispeech" → subset = some s → HasLine text.toList ("Subset: ".toList ++ s.toList)) ∧
    ∀ n ∈ notes, HasLine text.toList ("- ".toList ++ n.toList) := by
  have hk : ∃ p ∈ licensed, dataset.toLower = p.1 := by
    by_contra hn
    obtain ⟨e, he⟩ := C84_unsupported dataset subset fun p hp hd => hn ⟨p, hp, hd⟩
    rw [h] at he
    cases he
  obtain ⟨⟨key, credit⟩, hp, hd⟩ := hk
  obtain ⟨info, text, h1, h2, h3, h4, h5, h6⟩ := C84_supported key credit hp dataset hd subset notes none
  rw [h] at h1
  cases h1
  refine ⟨key, credit, text, hp, hd, ?_, ?_, h3, h4, h5, h6⟩
  · unfold writeAttribution
    rw [h2]
    rfl
  · unfold attributionFor at h
    have hd : dataset.toLower = key := hd
    rw [hd] at h
    simp only [licensed, List.mem_cons, List.not_mem_nil, or_false, Prod.mk.injEq] at hp
    rcases hp with ⟨rfl, -⟩ | ⟨rfl, -⟩
    · rw [if_pos rfl] at h
      cases h
      rfl
    · rw [if_neg (by decide), if_pos rfl] at h
      cases h
      rfl

theorem sceneMetadata_chars (idx : ℕ) : ("scene_" ++ zeroPadded 3 idx ++ "_metadata.json").toList =
    "scene_".toList ++ ((zeroPadded 3 idx).toList ++ '_' :: "metadata.json".toList) := by
  simp only [String.toList_append, List.append_assoc]
  rfl

/-- Every file of a scene has its number in its name. -/
theorem sceneNames_chars {n idx : ℕ} {name : String} (h : name ∈ sceneNames n idx) : ∃ c r, Char.isDigit c = false ∧
    name.toList = "scene_".toList ++ ((zeroPadded 3 idx).toList ++ c :: r) := by
  unfold sceneNames at h
  rcases List.mem_append.mp h with h | h
  · obtain ⟨s, -, rfl⟩ := List.mem_map.mp h
    exact ⟨_, _, rfl, refName_chars idx s⟩
  · simp only [List.mem_cons, List.not_mem_nil, or_false] at h
    rcases h with rfl | rfl
    · exact ⟨_, _, rfl, mixName_chars idx⟩
    · exact ⟨_, _, rfl, sceneMetadata_chars idx⟩

theorem sceneNames_disjoint {n i j : ℕ} {name : String} (hi : name ∈ sceneNames n i) (hj : name ∈ sceneNames n j) :
    i = j := by
  obtain ⟨c, r, hc, h⟩ := sceneNames_chars hi
  obtain ⟨c', r', hc', h'⟩ := sceneNames_chars hj
  rw [h] at h'
  have := (digits_split (zeroPadded_digits _ _) (zeroPadded_digits _ _) hc hc' (List.append_cancel_left h')).1
  rw [← zeroPadded_value 3 i, this, zeroPadded_value]

theorem sceneNames_nodup (n idx : ℕ) : (sceneNames n idx).Nodup := by
  unfold sceneNames
  rw [List.nodup_append]
  have hm : ∀ s, refName idx s ≠ "scene_" ++ zeroPadded 3 idx ++ "_metadata.json" := fun s h => by
    have h := congrArg String.toList h
    rw [refName_chars, sceneMetadata_chars] at h
    have h := List.append_cancel_left (List.append_cancel_left h)
    simp at h
  have hm' : mixName idx ≠ "scene_" ++ zeroPadded 3 idx ++ "_metadata.json" := fun h => by
    have h := congrArg String.toList h
    rw [mixName_chars, sceneMetadata_chars] at h
    have h := List.append_cancel_left (List.append_cancel_left h)
    simp at h
  refine ⟨List.nodup_range.map fun s t h => ((C90_file_names idx idx s t).2.1.mp h).2, by simpa using hm', ?_⟩
  rintro x hx y hy rfl
  obtain ⟨s, -, rfl⟩ := List.mem_map.mp hx
  simp only [List.mem_cons, List.not_mem_nil, or_false] at hy
  rcases hy with hy | hy
  · exact (C90_file_names idx idx s 0).2.2 hy
  · exact hm s hy

/-- **C103, names.** No file of a dataset overwrites another one. -/
theorem C103_names (n count : ℕ) : (datasetNames n count).Nodup := by
  unfold datasetNames
  rw [List.nodup_cons]
  refine ⟨fun h => ?_, ?_⟩
  · obtain ⟨i, -, h⟩ := List.mem_flatMap.mp h
    obtain ⟨c, r, -, h⟩ := sceneNames_chars h
    simp at h
  · rw [List.nodup_flatMap]
    refine ⟨fun i _ => sceneNames_nodup n i, ?_⟩
    refine List.nodup_range.imp fun {i j} hij => ?_
    exact fun name hi hj => hij (sceneNames_disjoint hi hj)

/-- A run from the attribution on. -/
theorem datasetRun_cases {ι : Type} (conv : Flt → ℤ) (w : World) (a : DatasetRunArgs) (gen : ℤ → Gen)
    (load : Gen → Except String (LoadedSources ι × ℕ)) :
    ((datasetRun conv w a gen load).files = [] ∧ ∃ e, (datasetRun conv w a gen load).result = .error e) ∨
    ∃ room mics license, cliRoom conv { room := a.room, numSources := a.numSources } 16000 = .ok room ∧
      datasetMics a.room (drawCenter (gen a.seed).value a.room 0).1 a.numMics = .ok mics ∧
      attributionFor a.dataset a.reported = .ok license ∧
      datasetRun conv w a gen load = (writeAttribution license (modificationNotes true) >>= fun _ =>
        writeScenes (writeScene w room a gen load license (drawCenter (gen a.seed).value a.room 0).1 mics)
          (List.range a.numScenes)) := by
  unfold datasetRun
  cases h1 : cliRoom conv { room := a.room, numSources := a.numSources } 16000 with
  | error e => exact .inl (by rw [quietly_bind_error rfl]; exact ⟨rfl, e, rfl⟩)
  | ok room =>
    rw [quietly_bind rfl]
    cases h2 : datasetMics a.room (drawCenter (gen a.seed).value a.room 0).1 a.numMics with
    | error e => exact .inl (by rw [quietly_bind_error rfl]; exact ⟨rfl, e, rfl⟩)
    | ok mics =>
      rw [quietly_bind rfl]
      cases h3 : attributionFor a.dataset a.reported with
      | error e => exact .inl (by rw [quietly_bind_error rfl]; exact ⟨rfl, e, rfl⟩)
      | ok license =>
        rw [quietly_bind rfl]
        exact .inr ⟨room, mics, license, rfl, rfl, rfl, rfl⟩

/-- **C103, attribution.** A run that writes anything first writes the attribution file: it names the attribution that
the dataset requires, the licence and where it is found, the subset of LibriSpeech, and that responses were simulated
over trajectories. -/
theorem C103_attribution_first {ι : Type} (conv : Flt → ℤ) (w : World) (a : DatasetRunArgs) (gen : ℤ → Gen)
    (load : Gen → Except String (LoadedSources ι × ℕ)) (h : (datasetRun conv w a gen load).files ≠ []) :
    ∃ credit text rest, (a.dataset.toLower, credit) ∈ licensed ∧
    (datasetRun conv w a gen load).files = ("ATTRIBUTION.txt", .text text) :: rest ∧
    HasLine text.toList ("Required attribution: ".toList ++ credit.toList) ∧
    (∃ name url : String, name ≠ "" ∧ url ≠ "" ∧ HasLine text.toList ("License: ".toList ++ name.toList) ∧
      HasLine text.toList ("License URL: ".toList ++ url.toList)) ∧
    (a.dataset = "librispeech" → HasLine text.toList ("Subset: ".toList ++ a.subset.toList)) ∧
    HasLine text.toList "- Dynamic room impulse responses are simulated with ISM over trajectories.".toList := by
  rcases datasetRun_cases conv w a gen load with ⟨h0, -⟩ | ⟨room, mics, license, -, -, h1, h2⟩
  · exact absurd h0 h
  · obtain ⟨key, credit, text, hp, rfl, hw, -, h3, h4, h5, h6⟩ := attribution_written (ι := ι) h1 (modificationNotes true)
    rw [h2, hw, writeFile_bind]
    refine ⟨credit, text, _, hp, rfl, h3, h4, fun hd => h5 a.subset ?_ ?_, ?_⟩
    · rw [hd]
      exact toLower_eq (by decide)
    · unfold DatasetRunArgs.reported
      rw [if_pos hd]
    · exact h6 _ (by simp [modificationNotes]; right; left; rfl)

theorem datasetRun_ends {ι : Type} (conv : Flt → ℤ) (w : World) (a : DatasetRunArgs) (gen : ℤ → Gen)
    (load : Gen → Except String (LoadedSources ι × ℕ)) :
    RunEnds (datasetRun conv w a gen load) (datasetNames a.numSources a.numScenes) := by
  rcases datasetRun_cases conv w a gen load with ⟨h0, e, he⟩ | ⟨room, mics, license, -, -, h1, h2⟩
  · refine ⟨⟨by rw [h0]; exact List.nil_prefix, fun r hr => ?_⟩, fun h => ?_⟩
    · rw [he] at hr
      cases hr
    · rw [h0] at h
      cases h
  · obtain ⟨key, credit, text, -, -, hw, -⟩ := attribution_written (ι := ι) h1 (modificationNotes true)
    rw [h2, hw]
    exact RunEnds.seq (p := [_]) (RunEnds.write _ _) _ fun _ _ => scenes_end _ _ (fun idx => scene_ends ..) _

/-- **C103, order.** The files are written in the order attribution, then scene by scene references, mixture, metadata;
an exception leaves a beginning of that list. The script finishes exactly if all of them are there. If the metadata of a
scene is there, then so are all files up to it. -/
theorem C103_order {ι : Type} (conv : Flt → ℤ) (w : World) (a : DatasetRunArgs) (gen : ℤ → Gen)
    (load : Gen → Except String (LoadedSources ι × ℕ)) :
    let run := datasetRun conv w a gen load
    run.files.map Prod.fst <+: datasetNames a.numSources a.numScenes ∧
    (run.result = .ok () ↔ run.files.map Prod.fst = datasetNames a.numSources a.numScenes) ∧
    ∀ idx, "scene_" ++ zeroPadded 3 idx ++ "_metadata.json" ∈ run.files.map Prod.fst →
      idx < a.numScenes ∧ datasetNames a.numSources (idx + 1) <+: run.files.map Prod.fst := by
  intro run
  have hf := datasetRun_ends conv w a gen load
  refine ⟨hf.1.1, ⟨fun h => hf.1.2 () h, fun h => (hf.2 h).elim fun _ h => h⟩, fun idx h => ?_⟩
  have hp : run.files.map Prod.fst <+: datasetNames a.numSources a.numScenes := hf.1.1
  have hlast : ∀ i, "scene_" ++ zeroPadded 3 i ++ "_metadata.json" ∈ sceneNames a.numSources i := fun i => by
    simp [sceneNames]
  have hidx : idx < a.numScenes := by
    have := hp.subset h
    unfold datasetNames at this
    rcases List.mem_cons.mp this with h | h
    · have h := congrArg String.toList h
      rw [sceneMetadata_chars] at h
      simp at h
    · obtain ⟨i, hi, h⟩ := List.mem_flatMap.mp h
      rw [sceneNames_disjoint (hlast idx) h]
      exact List.mem_range.mp hi
  refine ⟨hidx, ?_⟩
  have hq : datasetNames a.numSources (idx + 1) <+: datasetNames a.numSources a.numScenes := by
    obtain ⟨j, hj⟩ : ∃ j, a.numScenes = idx + 1 + j := ⟨a.numScenes - (idx + 1), by omega⟩
    unfold datasetNames
    rw [hj, List.range_add (n := idx + 1) (m := j), List.flatMap_append, ← List.cons_append]
    exact List.prefix_append _ _
  rcases List.prefix_or_prefix_of_prefix hp hq with h1 | h1
  · have e : datasetNames a.numSources (idx + 1) = ("ATTRIBUTION.txt" :: ((List.range idx).flatMap (sceneNames a.numSources)
        ++ ((List.range a.numSources).map (refName idx) ++ [mixName idx]))) ++
        ["scene_" ++ zeroPadded 3 idx ++ "_metadata.json"] := by
      unfold datasetNames
      rw [List.range_succ, List.flatMap_append]
      simp [sceneNames]
    have hn := C103_names a.numSources (idx + 1)
    rw [e] at hn h1 ⊢
    rw [prefix_with_last h1 hn h]
  · exact h1

/-- **C103, directories.** A run leaves in its directory exactly what it wrote under the names of its files, and every
file with another name as it was. -/
theorem C103_directory {ι : Type} (dir : String → Option (OutFile ι)) (conv : Flt → ℤ) (w : World) (a : DatasetRunArgs)
    (gen : ℤ → Gen) (load : Gen → Except String (LoadedSources ι × ℕ)) :
    let run := datasetRun conv w a gen load
    (∀ name f, (name, f) ∈ run.files → overwritten dir run.files name = some f) ∧
    (∀ name, name ∉ run.files.map Prod.fst → overwritten dir run.files name = dir name) := by
  intro run
  obtain ⟨h1, -⟩ := C103_order conv w a gen load
  have hn : (run.files.map Prod.fst).Nodup := (C103_names a.numSources a.numScenes).sublist h1.sublist
  refine ⟨fun name f hf => ?_, fun name hname => ?_⟩
  · unfold overwritten
    rw [lookup_of_nodup (by rw [List.map_reverse]; exact List.nodup_reverse.mpr hn) (List.mem_reverse.mpr hf)]
  · unfold overwritten
    rw [lookup_absent (by rw [List.map_reverse, List.mem_reverse]; exact hname)]

/-! ## Finished scenes -/

theorem writeScenes_cases {ι : Type} (scene : ℕ → Writing ι Unit) : ∀ l : List ℕ,
    ((∀ i ∈ l, (scene i).result = .ok ()) ∧ writeScenes scene l = ⟨l.flatMap fun i => (scene i).files, .ok ()⟩) ∨
    ∃ pre idx post e, l = pre ++ idx :: post ∧ (∀ i ∈ pre, (scene i).result = .ok ()) ∧ (scene idx).result = .error e ∧
      writeScenes scene l = ⟨(pre.flatMap fun i => (scene i).files) ++ (scene idx).files, .error e⟩
  | [] => .inl ⟨by simp, rfl⟩
  | idx :: rest => by
    have hstep : writeScenes scene (idx :: rest) = (scene idx >>= fun _ => writeScenes scene rest) := rfl
    cases h : (scene idx).result with
    | error e => exact .inr ⟨[], idx, rest, e, rfl, by simp, h, by rw [hstep, bind_raised h]; simp⟩
    | ok u =>
      rcases writeScenes_cases scene rest with ⟨h1, h2⟩ | ⟨pre, j, post, e, rfl, h1, h2, h3⟩
      · refine .inl ⟨fun i hi => ?_, ?_⟩
        · rcases List.mem_cons.mp hi with rfl | hi
          · exact h
          · exact h1 i hi
        · rw [hstep, bind_files h, h2]
          simp
      · refine .inr ⟨idx :: pre, j, post, e, rfl, fun i hi => ?_, h2, ?_⟩
        · rcases List.mem_cons.mp hi with rfl | hi
          · exact h
          · exact h1 i hi
        · rw [hstep, bind_files h, h3]
          simp

/-- A scene that was loaded and whose motion was found. -/
theorem writeScene_eq {ι : Type} {d M n T fs : ℕ} (hd : d = 2 ∨ d = 3) (hM : 0 < M) (h8 : M ≤ 8) (w : World)
    (L : Fin d → ℝ) (a : DatasetRunArgs) (ha : a.room = List.ofFn L) (hS : 0 < a.numSources) (N : ℕ) (hN : a.order = N)
    (K : ℕ) (hK : 0 < K) (ht : (K : ℤ) = ⌈a.tmax * 16000⌉) (hT : (T : ℤ) = max 2 a.steps)
    (sos : w.Sos) (hsos : w.iirfilter 2 (10 / (16000 / 2)) [("rp", "5.0"), ("rs", "60.0"), ("ftype", "butter")] = .ok sos)
    (G : (Fin K → ℝ) →ₗ[ℝ] (Fin K → ℝ)) (hG : ActsAs w sos G) (gen : ℤ → Gen)
    (load : Gen → Except String (LoadedSources ι × ℕ)) (license : List (String × AttrValue)) (c : Fin d → ℝ)
    (mic : Fin M → Fin d → ℝ) (idx : ℕ) (x : Fin a.numSources → Fin n → ℝ) (who : Fin a.numSources → String × List ι)
    (k : ℕ) (hload : load (gen (a.seed + idx)) = .ok ((Spec.rows x, fs, List.ofFn who), k))
    (src : Fin T → Fin a.numSources → Fin d → ℝ) (mode : Fin a.numSources → String) (moving : List ℕ)
    (hb : buildSourceTrajectories (gen (a.seed + idx)) a.numSources a.numMoving (List.ofFn L) (List.ofFn c) T k
      = .ok (Spec.steps src, List.ofFn mode, moving)) (step : Fin n → Fin T)
    (hstep : CurrentStep (fun t : Fin T => (t : ℕ) * n / T) step) :
    ∃ (ref : Fin a.numSources → Fin M → ℕ → ℝ) (first : Fin T) (md : Metadata) (files : List (String × OutFile ι)),
      writeScene w (boxRoom L (fun _ => 0.9) (fun _ => 0.9) 16000 343) a gen load license (List.ofFn c) (Spec.rows mic) idx
        = ⟨files, .ok ()⟩ ∧
      SceneWritten idx fs (n + K - 1) ref who md a.dataset a.reported license mode moving files ∧ (first : ℕ) = 0 ∧
      (∀ s m k, ref s m k =
        heard (x s) (fun t m => cliResponse (w.device ≠ .mps) L 16000 N G (src t s) (mic m)) step m k) ∧
      Describes md 16000 (src first) mic src (fun _ => mic) [T, a.numSources, M, K] n ∧
      ∃ az el : Fin T → Fin a.numSources → Fin M → ℝ,
        md.azimuth = (List.ofFn fun t => List.ofFn fun s => List.ofFn (az t s)) ∧
        md.elevation = (List.ofFn fun t => List.ofFn fun s => List.ofFn (el t s)) ∧
        ∀ t s m, PointsTo (fun i => src t s i - mic m i) (az t s m) (el t s m) := by
  have hT2 : 2 ≤ T := by omega
  have hT1 : 1 ≤ T := by omega
  obtain ⟨ref, h1, h2⟩ := C90_audio w.device x
    (fun t s m => cliResponse (w.device ≠ .mps) L 16000 N G (src t s) (mic m)) hT1 (by omega) step hstep
  obtain ⟨mf, gain, rf, rg, hfiles, hmix, hrefs⟩ := C90_files hM h8 idx (n + K - 1) (fun m k => ∑ s, ref s m k) ref
  obtain ⟨md, hmd, hdesc, hang⟩ := metadata_describes (n := n) hd hT1 (16000 : ℝ) (src ⟨0, by omega⟩) mic src
    (fun _ => mic) (srcTraj := some (tensor3 src)) (micTraj := some (tensor3 fun _ : Fin T => mic)) (.inl rfl) (.inl rfl)
    [T, a.numSources, M, K] (by simp)
  unfold sceneAudio at h1
  obtain ⟨y, hy, h1⟩ := (bind_eq_ok _ _ _).mp h1
  obtain ⟨refs, hr, h1⟩ := (bind_eq_ok _ _ _).mp h1
  obtain ⟨rfl, rfl⟩ := Prod.mk.inj (Except.ok.inj h1)
  unfold sceneFiles at hfiles
  obtain ⟨fl, hfl, hfiles⟩ := (bind_eq_ok _ _ _).mp hfiles
  obtain ⟨mix, hsave, hfiles⟩ := (bind_eq_ok _ _ _).mp hfiles
  obtain ⟨rfl, hmf⟩ := List.append_inj' (Except.ok.inj hfiles) (by simp)
  cases hmf
  rw [List.zipIdx_eq_zip_range', List.length_ofFn, ← List.range_eq_range'] at hfl
  have hw : ∀ s ∈ List.range a.numSources, infoOf (List.ofFn who) s
      = .ok (if hs : s < a.numSources then who ⟨s, hs⟩ else ("", [])) := fun s hs => by
    have hs := List.mem_range.mp hs
    unfold infoOf
    rw [List.getElem?_eq_getElem (by simpa using hs), dif_pos hs]
    simp
  have hrefs' := writeReferences_ok (refName idx) fs _ (List.ofFn who) _ _ hw _ _ hr hfl
  have e : ((List.range a.numSources).map fun s => (⟨s, refName idx s, (if hs : s < a.numSources then who ⟨s, hs⟩
      else ("", [])).1, (if hs : s < a.numSources then who ⟨s, hs⟩ else ("", [])).2, "convolved"⟩ : ReferenceEntry ι))
      = List.ofFn fun s : Fin a.numSources => ⟨s, refName idx s, (who s).1, (who s).2, "convolved"⟩ := by
    apply List.ext_getElem
    · simp
    · intro s h1 h2
      have hs : s < a.numSources := by simpa using h2
      simp [hs]
  rw [e] at hrefs'
  have hsim := dynamic_responses hd hS hM hT1 w L N 16000 (by norm_num) K hK a.tmax ht sos hsos G hG src fun _ => mic
  refine ⟨ref, ⟨0, by omega⟩, md, _, ?_, ⟨rf, rg, mf, gain, rfl, hrefs, hmix⟩, rfl, h2, hdesc, hang⟩
  unfold writeScene
  rw [quietly_bind hload]
  unfold writeSceneLoaded
  dsimp only
  rw [← hT, ha, quietly_bind hb]
  dsimp only
  rw [Int.toNat_natCast, steps_const, trajTensor_steps hT1 hS, trajTensor_steps hT1 hM, hN, quietly_bind hsim,
    pointsTensor_rows hS, quietly_bind hy, hrefs', bind_files rfl, quietly_bind hsave, writeFile_bind, quietly_bind (a := md)]
  · simp [writeFile, datasetMetadataName, Function.comp_def]
  · unfold datasetMetadata
    rw [List.length_ofFn, steps_const, trajTensor_steps hT1 hM, trajTensor_steps hT1 hS, pointsTensor_rows hM]
    have h0 : (Spec.steps src).headD [] = Spec.rows (src ⟨0, by omega⟩) := by
      obtain ⟨t, rfl⟩ : ∃ t, T = t + 1 := ⟨T - 1, by omega⟩
      simp only [Spec.steps, List.ofFn_succ, List.headD_cons]
      rfl
    rw [h0, pointsTensor_rows hS]
    exact hmd

theorem quietly_ok {ι α β : Type} {x : Except String α} {f : α → Writing ι β} {b : β}
    (h : (quietly x >>= f).result = .ok b) : ∃ a, x = .ok a ∧ (f a).result = .ok b := by
  cases x with
  | error e =>
    rw [quietly_bind_error rfl] at h
    cases h
  | ok a =>
    rw [quietly_bind rfl] at h
    exact ⟨a, rfl, h⟩

theorem motion_nonempty {g : Gen} {d n k : ℕ} {num : ℤ} {L c : Fin d → ℝ} {steps : ℤ}
    {out : List (List Vec) × List String × List ℕ}
    (hb : buildSourceTrajectories g n num (List.ofFn L) (List.ofFn c) steps k = .ok out) : 0 < n := by
  unfold buildSourceTrajectories at hb
  obtain ⟨o1, h1, hb⟩ := (bind_eq_ok _ _ _).mp hb
  dsimp only at hb
  obtain ⟨o2, h2, hb⟩ := (bind_eq_ok _ _ _).mp hb
  rw [raiseIf_bind_ok] at hb
  by_contra hz
  have hz : n = 0 := by omega
  have := talkers_count h1
  rw [hz, List.length_eq_zero_iff] at this
  rw [this] at h2
  cases h2
  exact hb.1 rfl

/-- A scene that finished was loaded and its motion was found. -/
theorem writeScene_inv {ι : Type} {w : World} {room : Room} {a : DatasetRunArgs} {gen : ℤ → Gen}
    {load : Gen → Except String (LoadedSources ι × ℕ)} {license : List (String × AttrValue)} {center : Vec}
    {mics : List Vec} {idx : ℕ} (h : (writeScene w room a gen load license center mics idx).result = .ok ()) :
    ∃ l k out, load (gen (a.seed + idx)) = .ok (l, k) ∧
      buildSourceTrajectories (gen (a.seed + idx)) a.numSources a.numMoving a.room center (max 2 a.steps) k = .ok out := by
  unfold writeScene at h
  obtain ⟨⟨l, k⟩, h1, h⟩ := quietly_ok h
  unfold writeSceneLoaded at h
  obtain ⟨out, h2, h⟩ := quietly_ok h
  exact ⟨l, k, out, h1, h2⟩

/-- The metadata of a scene tells that the scene has finished, and its files are those it wrote. -/
theorem scene_of_metadata {ι : Type} {w : World} {room : Room} {a : DatasetRunArgs} {gen : ℤ → Gen}
    {load : Gen → Except String (LoadedSources ι × ℕ)} {license : List (String × AttrValue)} {center : Vec}
    {mics : List Vec} {count idx : ℕ}
    (h : "scene_" ++ zeroPadded 3 idx ++ "_metadata.json" ∈
      (writeScenes (writeScene w room a gen load license center mics) (List.range count)).files.map Prod.fst) :
    (writeScene w room a gen load license center mics idx).result = .ok () ∧ ∃ before after,
      (writeScenes (writeScene w room a gen load license center mics) (List.range count)).files
        = before ++ (writeScene w room a gen load license center mics idx).files ++ after ∧
      before.map Prod.fst = (List.range idx).flatMap (sceneNames a.numSources) := by
  have hends := fun i => scene_ends w room a gen load license center mics i
  generalize writeScene w room a gen load license center mics = scene at h hends ⊢
  have hlast : "scene_" ++ zeroPadded 3 idx ++ "_metadata.json" ∈ sceneNames a.numSources idx := by
    simp [sceneNames]
  have hwhere : ∀ i, "scene_" ++ zeroPadded 3 idx ++ "_metadata.json" ∈ (scene i).files.map Prod.fst →
      i = idx ∧ (scene idx).result = .ok () := fun i hi => by
    obtain rfl := sceneNames_disjoint ((hends i).1.1.subset hi) hlast
    refine ⟨rfl, ((hends i).2 ?_).elim fun _ h => h⟩
    have e : sceneNames a.numSources i = ((List.range a.numSources).map (refName i) ++ [mixName i]) ++
        ["scene_" ++ zeroPadded 3 i ++ "_metadata.json"] := by simp [sceneNames]
    have hn := sceneNames_nodup a.numSources i
    have hp := (hends i).1.1
    rw [e] at hn hp ⊢
    exact prefix_with_last hp hn hi
  have hbefore : ∀ l : List ℕ, (∀ i ∈ l, (scene i).result = .ok ()) →
      (l.flatMap fun i => (scene i).files).map Prod.fst = l.flatMap (sceneNames a.numSources) := fun l hl => by
    rw [List.map_flatMap]
    exact List.flatMap_congr fun i hi => (hends i).1.2 () (hl i hi)
  rcases writeScenes_cases scene (List.range count) with ⟨h1, h2⟩ | ⟨pre, j, post, e, hl, h1, h2, h3⟩
  · rw [h2] at h ⊢
    dsimp only at h ⊢
    rw [List.map_flatMap] at h
    obtain ⟨i, hi, hm⟩ := List.mem_flatMap.mp h
    obtain ⟨rfl, hok⟩ := hwhere i hm
    refine ⟨hok, (List.range i).flatMap fun i => (scene i).files, ?_⟩
    have hi := List.mem_range.mp hi
    obtain ⟨t, rfl⟩ : ∃ t, count = i + 1 + t := ⟨count - (i + 1), by omega⟩
    refine ⟨((List.range t).map (i + 1 + ·)).flatMap fun i => (scene i).files, ?_, hbefore _ fun j hj => h1 j ?_⟩
    · rw [List.range_add (n := i + 1) (m := t), List.range_succ]
      simp only [List.flatMap_append, List.flatMap_cons, List.flatMap_nil, List.append_nil]
    · have := List.mem_range.mp hj
      exact List.mem_range.mpr (by omega)
  · have hpre : pre = List.range pre.length ∧ j = pre.length := by
      have hlen := congrArg List.length hl
      rw [List.length_range, List.length_append, List.length_cons] at hlen
      constructor
      · apply List.ext_getElem (by simp)
        intro i hi hi'
        have := List.getElem_range (n := count) (j := i) (by simp; omega)
        simp only [hl] at this
        rw [List.getElem_append_left hi] at this
        rw [this]
        simp
      · have := List.getElem_range (n := count) (j := pre.length) (by simp; omega)
        simp only [hl] at this
        rw [List.getElem_append_right le_rfl] at this
        simpa using this
    obtain ⟨hpre, hj⟩ := hpre
    rw [h3] at h ⊢
    dsimp only at h ⊢
    rw [List.map_append, List.map_flatMap] at h
    rcases List.mem_append.mp h with h | h
    · obtain ⟨i, hi, hm⟩ := List.mem_flatMap.mp h
      obtain ⟨rfl, hok⟩ := hwhere i hm
      have hlt : i < pre.length := by
        rw [hpre] at hi
        exact List.mem_range.mp hi
      refine ⟨hok, (List.range i).flatMap fun i => (scene i).files, ?_⟩
      obtain ⟨t, ht⟩ : ∃ t, pre.length = i + 1 + t := ⟨pre.length - (i + 1), by omega⟩
      refine ⟨(((List.range t).map (i + 1 + ·)).flatMap fun i => (scene i).files) ++ (scene j).files, ?_,
        hbefore _ fun j hj => h1 j ?_⟩
      · rw [hpre, ht, List.range_add (n := i + 1) (m := t), List.range_succ]
        simp only [List.flatMap_append, List.flatMap_cons, List.flatMap_nil, List.append_nil, List.append_assoc]
      · have := List.mem_range.mp hj
        rw [hpre]
        exact List.mem_range.mpr (by omega)
    · obtain ⟨rfl, hok⟩ := hwhere j h
      rw [h2] at hok
      cases hok

/-- **C103, scenes.** All scenes share the microphones, which stand around a point that only depends on the seed. If the
metadata of a scene is there, then the files of the scene are complete. The signal of every source is the beginning of the
listed utterances of the listed speaker; the sources move as the metadata says; every sample passes through the responses
of the image method, at 16 kHz, from where its source is at the current step to the microphones; the file listed for the
speaker holds the result, the mixture is the sum of these; and the metadata gives the trajectories and, for every step,
the directions from the microphones to the sources. -/
theorem C103_scene {ι : Type} {d M T : ℕ} (hd : d = 2 ∨ d = 3) (hM : 0 < M) (h8 : M ≤ 8) (conv : Flt → ℤ) (w : World)
    (gen : ℤ → Gen) (hg : ∀ z, FairGen (gen z)) (L : Fin d → ℝ) (hL : ∀ i, 1 ≤ L i)
    (a : DatasetRunArgs) (ha : a.room = List.ofFn L) (hnum : a.numMics = M)
    (hT : (T : ℤ) = max 2 a.steps) (N : ℕ) (hN : a.order = N) (K : ℕ) (hK : 0 < K) (ht : (K : ℤ) = ⌈a.tmax * 16000⌉)
    (sos : w.Sos) (hsos : w.iirfilter 2 (10 / (16000 / 2)) [("rp", "5.0"), ("rs", "60.0"), ("ftype", "butter")] = .ok sos)
    (G : (Fin K → ℝ) →ₗ[ℝ] (Fin K → ℝ)) (hG : ActsAs w sos G)
    (sample : Gen → List String → ℕ → List String) (hsample : ∀ g, Samples (sample g))
    (shuffle : Gen → ℕ → List ι → List ι) (hsh : ∀ g, Shuffles (shuffle g)) (speakers : List String)
    (data : String → SpeakerData ι) (duration : ℝ) (hdur : 0 ≤ duration) (fuel : Gen → ℕ)
    (load : Gen → Except String (LoadedSources ι × ℕ))
    (hload : ∀ g l k, load g = .ok (l, k) →
      loadDatasetSources (sample g) (shuffle g) speakers data a.numSources duration (fuel g) = some (.ok l))
    (step : ∀ n : ℕ, Fin n → Fin T) (hstep : ∀ n : ℕ, CurrentStep (fun t : Fin T => (t : ℕ) * n / T) (step n)) :
    let run := datasetRun conv w a gen load
    ∃ (c : Fin d → ℝ) (mic : Fin M → Fin d → ℝ),
      c = candidate (gen a.seed).value L none 0.5 0 0 ∧ Within L 0.5 c ∧ DatasetMics (by omega) L c mic ∧
      (∀ m, Within L 0.1 (mic m)) ∧
      ∀ idx, "scene_" ++ zeroPadded 3 idx ++ "_metadata.json" ∈ run.files.map Prod.fst →
        ∃ (fs n : ℕ) (before files after : List (String × OutFile ι)) (x : Fin a.numSources → Fin n → ℝ)
          (who : Fin a.numSources → String × List ι) (src : Fin T → Fin a.numSources → Fin d → ℝ)
          (mode : Fin a.numSources → String) (moving : List ℕ) (license : List (String × AttrValue)) (first : Fin T)
          (md : Metadata) (ref : Fin a.numSources → Fin M → ℕ → ℝ),
          run.files = before ++ files ++ after ∧ before.map Prod.fst = datasetNames a.numSources idx ∧
          (∃ k, load (gen (a.seed + idx)) = .ok ((Spec.rows x, fs, List.ofFn who), k)) ∧
          n = ⌊duration * fs⌋₊ ∧ (∀ s, IsSource (data (who s).1) fs n (List.ofFn (x s)) (who s).2) ∧
          (speakers.Nodup → Function.Injective fun s => (who s).1) ∧
          SceneMotion L c a.numMoving src mode moving ∧
          (∀ s m k, ref s m k =
            heard (x s) (fun t m => cliResponse (w.device ≠ .mps) L 16000 N G (src t s) (mic m)) (step n) m k) ∧
          license.lookup "dataset_key" = some (.shown a.dataset.toLower) ∧
          SceneWritten idx fs (n + K - 1) ref who md a.dataset (if a.dataset = "librispeech" then some a.subset else none)
            license mode moving files ∧ (first : ℕ) = 0 ∧
          Describes md 16000 (src first) mic src (fun _ => mic) [T, a.numSources, M, K] n ∧
          ∃ az el : Fin T → Fin a.numSources → Fin M → ℝ,
            md.azimuth = (List.ofFn fun t => List.ofFn fun s => List.ofFn (az t s)) ∧
            md.elevation = (List.ofFn fun t => List.ofFn fun s => List.ofFn (el t s)) ∧
            ∀ t s m, PointsTo (fun i => src t s i - mic m i) (az t s m) (el t s m) := by
  intro run
  obtain ⟨c, k0, hc, hcw⟩ := drawCenter_eq (gen a.seed).value (hg _).unit L hL 0
  obtain ⟨mic, hm, hdm, hw⟩ := (C90_microphones (by omega : 0 < d) L c hL hcw a.numMics).2 M hnum hM
  have hfst : (drawCenter (gen a.seed).value (List.ofFn L) 0).1 = List.ofFn c := by rw [hc]
  have hc' : c = candidate (gen a.seed).value L none 0.5 0 0 := by
    have h := hfst
    rw [drawCenter_exact] at h
    exact (List.ofFn_injective h).symm
  refine ⟨c, mic, hc', hcw, hdm, hw, fun idx hidx => ?_⟩
  rcases datasetRun_cases conv w a gen load with ⟨h0, -⟩ | ⟨room, mics, license, hroom, hmics, hlic, hrun⟩
  · rw [show run.files = [] from h0] at hidx
    cases hidx
  rw [cliRoom_eq conv hd L (fun i => by linarith [hL i]) _ (by exact ha) 16000 (by norm_num)] at hroom
  cases hroom
  rw [ha, hfst, hm] at hmics
  cases hmics
  rw [ha, hfst] at hrun
  obtain ⟨key, credit, text, -, hkey, hwr, hlk, -⟩ := attribution_written (ι := ι) hlic (modificationNotes true)
  rw [hwr, writeFile_bind] at hrun
  rw [show run = _ from hrun] at hidx ⊢
  dsimp only at hidx ⊢
  rw [List.map_cons, List.mem_cons] at hidx
  have hidx := hidx.resolve_left fun h => by
    have h := congrArg String.toList h
    rw [sceneMetadata_chars] at h
    simp at h
  obtain ⟨hok, before, after, hsplit, hbefore⟩ := scene_of_metadata hidx
  obtain ⟨⟨rows, fs, info⟩, k, ⟨traj, modes, moving⟩, hl, hb⟩ := writeScene_inv hok
  rw [← hT, ha] at hb
  obtain ⟨hr, -, hdis, -, hrows⟩ := C53_sources_partial _ (hsample _) _ (hsh _) speakers data a.numSources duration hdur _
    rows fs info (hload _ _ _ hl)
  obtain ⟨x, who, rfl, rfl, hx⟩ := loaded_signals (by exact_mod_cast hr) hrows
  obtain ⟨src, mode, rfl, rfl, hmo⟩ := C90_motion (hg _) (by omega) L c hL a.numSources a.numMoving k traj modes moving hb
  obtain ⟨ref, first, md, files, hsc, hwritten, hfirst, href, hdesc, hang⟩ := writeScene_eq hd hM h8 w L a ha
    (motion_nonempty hb) N hN K hK ht hT sos hsos G hG gen load license c mic idx x who k hl src mode moving hb (step _)
    (hstep _)
  refine ⟨fs, _, ("ATTRIBUTION.txt", .text text) :: before, files, after, x, who, src, mode, moving, license, first, md, ref,
    ?_, ?_, ⟨k, hl⟩, rfl, fun s => (hx s).1, ?_, hmo, href, ?_, hwritten, hfirst, hdesc, hang⟩
  · rw [hsplit, hsc]
    rfl
  · rw [List.map_cons, hbefore]
    rfl
  · intro hn
    have h := hdis hn
    rw [List.map_ofFn] at h
    exact List.nodup_ofFn.mp h
  · rw [hkey]
    exact hlk

/-- **C103, acceptance.** For one of the two datasets and one to eight microphones, the script finishes exactly if for
every scene the signals can be loaded and the motion is found. -/
theorem C103_outcome {ι : Type} {d M T : ℕ} (hd : d = 2 ∨ d = 3) (hM : 0 < M) (h8 : M ≤ 8) (conv : Flt → ℤ) (w : World)
    (gen : ℤ → Gen) (hg : ∀ z, FairGen (gen z)) (L : Fin d → ℝ) (hL : ∀ i, 1 ≤ L i)
    (a : DatasetRunArgs) (ha : a.room = List.ofFn L) (hnum : a.numMics = M) (hds : ∃ p ∈ licensed, a.dataset = p.1)
    (hT : (T : ℤ) = max 2 a.steps) (N : ℕ) (hN : a.order = N) (K : ℕ) (hK : 0 < K) (ht : (K : ℤ) = ⌈a.tmax * 16000⌉)
    (sos : w.Sos) (hsos : w.iirfilter 2 (10 / (16000 / 2)) [("rp", "5.0"), ("rs", "60.0"), ("ftype", "butter")] = .ok sos)
    (G : (Fin K → ℝ) →ₗ[ℝ] (Fin K → ℝ)) (hG : ActsAs w sos G)
    (sample : Gen → List String → ℕ → List String) (hsample : ∀ g, Samples (sample g))
    (shuffle : Gen → ℕ → List ι → List ι) (hsh : ∀ g, Shuffles (shuffle g)) (speakers : List String)
    (data : String → SpeakerData ι) (duration : ℝ) (hdur : 0 ≤ duration) (fuel : Gen → ℕ)
    (load : Gen → Except String (LoadedSources ι × ℕ))
    (hload : ∀ g l k, load g = .ok (l, k) →
      loadDatasetSources (sample g) (shuffle g) speakers data a.numSources duration (fuel g) = some (.ok l)) :
    (datasetRun conv w a gen load).result = .ok () ↔ ∀ idx < a.numScenes, ∃ l k out,
      load (gen (a.seed + idx)) = .ok (l, k) ∧
      buildSourceTrajectories (gen (a.seed + idx)) a.numSources a.numMoving (List.ofFn L)
        (List.ofFn (candidate (gen a.seed).value L none 0.5 0 0)) T k = .ok out := by
  obtain ⟨c, k0, hc, hcw⟩ := drawCenter_eq (gen a.seed).value (hg _).unit L hL 0
  obtain ⟨mic, hm, hdm, hw⟩ := (C90_microphones (by omega : 0 < d) L c hL hcw a.numMics).2 M hnum hM
  have hfst : (drawCenter (gen a.seed).value (List.ofFn L) 0).1 = List.ofFn c := by rw [hc]
  have hc' : c = candidate (gen a.seed).value L none 0.5 0 0 := by
    have h := hfst
    rw [drawCenter_exact] at h
    exact (List.ofFn_injective h).symm
  rw [← hc']
  obtain ⟨license, hlic⟩ : ∃ license, attributionFor a.dataset a.reported = .ok license := by
    obtain ⟨⟨key, credit⟩, hp, hk⟩ := hds
    obtain ⟨info, -, h, -⟩ := C84_supported key credit hp a.dataset (by
      rw [hk]
      simp only [licensed, List.mem_cons, List.not_mem_nil, or_false, Prod.mk.injEq] at hp
      rcases hp with ⟨rfl, -⟩ | ⟨rfl, -⟩
      · exact toLower_eq (s := "cmu_arctic") (by decide)
      · exact toLower_eq (s := "librispeech") (by decide)) a.reported [] none
    exact ⟨info, h⟩
  have hroom := cliRoom_eq conv hd L (fun i => by linarith [hL i]) { room := a.room, numSources := a.numSources }
    (by exact ha) 16000 (by norm_num)
  obtain ⟨key, credit, text, -, hkey, hwr, hlk, -⟩ := attribution_written (ι := ι) hlic (modificationNotes true)
  have hrun : (datasetRun conv w a gen load).result = (writeScenes (writeScene w
      (boxRoom L (fun _ => 0.9) (fun _ => 0.9) 16000 343) a gen load license (List.ofFn c) (Spec.rows mic))
      (List.range a.numScenes)).result := by
    unfold datasetRun
    rw [quietly_bind hroom, ha, hfst, quietly_bind hm, quietly_bind hlic, hwr, writeFile_bind]
  rw [hrun]
  rcases writeScenes_cases (writeScene w (boxRoom L (fun _ => 0.9) (fun _ => 0.9) 16000 343) a gen load license
    (List.ofFn c) (Spec.rows mic)) (List.range a.numScenes) with ⟨h1, h2⟩ | ⟨pre, j, post, e, hl, h1, h2, h3⟩
  · rw [h2]
    refine ⟨fun _ idx hidx => ?_, fun _ => rfl⟩
    obtain ⟨l, k, out, h3, h4⟩ := writeScene_inv (h1 idx (List.mem_range.mpr hidx))
    rw [← hT, ha] at h4
    exact ⟨l, k, out, h3, h4⟩
  · rw [h3]
    refine ⟨(fun h => by cases h), fun h => ?_⟩
    obtain ⟨⟨rows, fs, info⟩, k, ⟨traj, modes, moving⟩, hl', hb⟩ := h j (List.mem_range.mp (by rw [hl]; simp))
    obtain ⟨hr, -, hdis, -, hrows⟩ := C53_sources_partial _ (hsample _) _ (hsh _) speakers data a.numSources duration hdur _
      rows fs info (hload _ _ _ hl')
    obtain ⟨x, who, rfl, rfl, hx⟩ := loaded_signals (by exact_mod_cast hr) hrows
    obtain ⟨src, mode, rfl, rfl, hmo⟩ := C90_motion (hg _) (by omega) L c hL a.numSources a.numMoving k traj modes moving hb
    obtain ⟨step, hstep, -⟩ := C24_every_sample_has_one_step (T := T) (N := ⌊duration * fs⌋₊) (by omega) (.uniform none)
    obtain ⟨ref, first, md, files, hsc, -⟩ := writeScene_eq hd hM h8 w L a ha (motion_nonempty hb) N hN K hK ht hT sos hsos
      G hG gen load license c mic j x who k hl' src mode moving hb step hstep
    rw [hsc] at h2
    cases h2

/-! ## Cases meeting the hypotheses -/

/-- Three speakers with a short and a long utterance at the rate `fs`. -/
def speakersAt (fs : ℕ) : String → SpeakerData ℕ :=
  fun _ => ⟨[0, 1], fun u => .ok (List.replicate (3000 * u) 1, fs)⟩

theorem speakersAt_load (fs : ℕ) (hfs : 2 ≤ fs) : ∃ fuel l,
    loadDatasetSources (fun l n => l.take n) (fun _ l => l.reverse) ["aew", "bdl", "slt"] (speakersAt fs) (3 : ℕ) 0.5 fuel
      = some (.ok l) ∧ l.2.1 = fs := by
  obtain ⟨fuel, rows, info, h⟩ := C53_succeeds (fun l n => l.take n) samples_take (fun _ l => l.reverse)
    (fun _ l => l.reverse_perm) ["aew", "bdl", "slt"] (speakersAt fs) 3 (by norm_num) (by simp) 0.5 fs
    (by have : (2 : ℝ) ≤ fs := by exact_mod_cast hfs
        linarith)
    fun s _ => ⟨fun u _ => ⟨_, rfl⟩, 1, by simp [speakersAt], _, rfl, fun h => by
      have := congrArg List.length h
      rw [List.length_replicate] at this
      cases this⟩
  exact ⟨fuel, _, h, rfl⟩

/-- Three scenes of three sources, two of them moving, from LibriSpeech with two microphones. -/
noncomputable def libriScenes : DatasetRunArgs :=
  { room := List.ofFn ![6, 4], numScenes := 3, numSources := 3, numMoving := 2, dataset := "librispeech" }

/-- The script finishes for three scenes. -/
theorem libriScenes_finish (conv : Flt → ℤ) (randn : ℤ → List ℕ → List ℝ) {fs fuel : ℕ} {l : LoadedSources ℕ}
    (hl : loadDatasetSources (fun l n => l.take n) (fun _ l => l.reverse) ["aew", "bdl", "slt"] (speakersAt fs) (3 : ℕ) 0.5
      fuel = some (.ok l)) :
    (datasetRun conv (halvingWorld randn) libriScenes (fun _ => cornerGen) fun _ => .ok (l, 2)).result = .ok () := by
  refine (C103_outcome (T := 64) (M := 2) (Or.inl rfl) (by norm_num) (by norm_num) conv (halvingWorld randn)
    (fun _ => cornerGen) (fun _ => cornerGen_fair) ![6, 4] sides64 libriScenes rfl rfl ⟨_, by simp [licensed]; right; rfl, rfl⟩
    rfl 6 rfl 6400 (by norm_num) (by rw [eq_comm, Int.ceil_eq_iff]; norm_num [libriScenes]) () rfl _ (halving_acts randn 6400)
    (fun _ l n => l.take n) (fun _ => samples_take) (fun _ _ l => l.reverse) (fun _ _ l => l.reverse_perm)
    ["aew", "bdl", "slt"] (speakersAt fs) 0.5 (by norm_num) (fun _ => fuel) (fun _ => .ok (l, 2)) ?_).mpr
    fun idx _ => ⟨l, 2, ?_⟩
  · intro g l' k h
    cases h
    exact hl
  · obtain ⟨out, hout⟩ := (C90_motion_outcome cornerGen (T := 64) (by norm_num) (.inl (by norm_num)) ![6, 4]
      (candidate cornerStream ![6, 4] none 0.5 0 0) 3 2 2).mpr
      ⟨by norm_num, by rw [show cornerGen.value = cornerStream from rfl, corner_far _ (by norm_num)]; norm_num⟩
    exact ⟨out, rfl, hout⟩

/-- **C103 fails for recordings at another rate.** The responses are simulated for 16 kHz whatever the rate of the
recordings is. With recordings at 8 kHz the script finishes; the mixture of every scene is saved with 8 kHz, and its
metadata says 16 kHz. -/
theorem C103_rate_fails (conv : Flt → ℤ) (randn : ℤ → List ℕ → List ℝ) : ∃ l : LoadedSources ℕ,
    let run := datasetRun conv (halvingWorld randn) libriScenes (fun _ => cornerGen) fun _ => .ok (l, 2)
    run.result = .ok () ∧ ∀ idx < 3, ∃ (md : Metadata) (info : List (String × List ℕ)) (extra : DatasetExtra ℕ)
      (mix : AudioFile), (mixName idx, OutFile.audio mix 8000) ∈ run.files ∧
      ("scene_" ++ zeroPadded 3 idx ++ "_metadata.json", OutFile.datasetMetadata md info extra) ∈ run.files ∧
      md.fs = 16000 := by
  obtain ⟨fuel, l, hl, hrate⟩ := speakersAt_load 8000 (by norm_num)
  refine ⟨l, ?_⟩
  intro run
  have hok := libriScenes_finish conv randn hl
  refine ⟨hok, fun idx hidx => ?_⟩
  have hmem : "scene_" ++ zeroPadded 3 idx ++ "_metadata.json" ∈ run.files.map Prod.fst := by
    rw [(C103_order conv (halvingWorld randn) libriScenes (fun _ => cornerGen) fun _ => .ok (l, 2)).2.1.mp hok]
    unfold datasetNames
    exact List.mem_cons_of_mem _ (List.mem_flatMap.mpr ⟨idx, List.mem_range.mpr hidx, by simp [sceneNames]⟩)
  choose step hstep _ using fun n => C24_every_sample_has_one_step (T := 64) (N := n) (by norm_num) (.uniform none)
  obtain ⟨c, mic, -, -, -, -, hsc⟩ := C103_scene (T := 64) (M := 2) (Or.inl rfl) (by norm_num) (by norm_num) conv
    (halvingWorld randn) (fun _ => cornerGen) (fun _ => cornerGen_fair) ![6, 4] sides64 libriScenes rfl rfl
    rfl 6 rfl 6400 (by norm_num) (by rw [eq_comm, Int.ceil_eq_iff]; norm_num [libriScenes]) () rfl _ (halving_acts randn 6400)
    (fun _ l n => l.take n) (fun _ => samples_take) (fun _ _ l => l.reverse) (fun _ _ l => l.reverse_perm)
    ["aew", "bdl", "slt"] (speakersAt 8000) 0.5 (by norm_num) (fun _ => fuel) (fun _ => .ok (l, 2))
    (fun g l' k h => by cases h; exact hl) step hstep
  obtain ⟨fs, n, before, files, after, x, who, src, mode, moving, license, first, md, ref, hfiles, -, ⟨k, hload⟩, -, -, -, -, -,
    -, ⟨rf, rg, mf, gain, hf, -⟩, -, hdesc, -⟩ := hsc idx hmem
  have hfs : fs = 8000 := by
    cases hload
    exact hrate
  have hin : ∀ p ∈ files, p ∈ run.files := fun p hp => by
    rw [show run.files = _ from hfiles]
    exact List.mem_append_left _ (List.mem_append_right _ hp)
  obtain ⟨info, extra, hmd⟩ : ∃ info extra, ("scene_" ++ zeroPadded 3 idx ++ "_metadata.json",
      OutFile.datasetMetadata md info extra) ∈ files := by
    rw [hf]
    exact ⟨_, _, List.mem_append_right _ (List.mem_cons_of_mem _ (List.mem_cons_self ..))⟩
  refine ⟨md, info, extra, mf, hin _ ?_, hin _ hmd, hdesc.rate⟩
  · rw [hf, hfs]
    exact List.mem_append_right _ (by simp)

/-- The script finishes for recordings at 16 kHz. -/
example (conv : Flt → ℤ) (randn : ℤ → List ℕ → List ℝ) : ∃ l : LoadedSources ℕ, l.2.1 = 16000 ∧
    (datasetRun conv (halvingWorld randn) libriScenes (fun _ => cornerGen) fun _ => .ok (l, 2)).result = .ok () := by
  obtain ⟨fuel, l, hl, hrate⟩ := speakersAt_load 16000 (by norm_num)
  exact ⟨l, hrate, libriScenes_finish conv randn hl⟩

end Torchrir.Props
