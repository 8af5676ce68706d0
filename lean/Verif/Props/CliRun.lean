import Verif.Spec.CliRun
import Verif.Props.ScriptPlots
import Verif.Props.ScriptCli
import Verif.Props.Cli

/-!
# Whole runs of the command line program
-/

namespace Torchrir.Props

open Torchrir.Model Torchrir.Spec Torchrir.Lemmas

namespace CliRun

/-! ## The run without its pictures -/

theorem data_pictures {ι α : Type} (l : List α) (f : α → Picture) :
    dataOf (⟨l.map fun i => .inr (f i), .ok ()⟩ : Illustrated ι Unit) = pure () := by
  unfold dataOf
  have h : (l.map fun i => (Sum.inr (f i) : (String × OutFile ι) ⊕ Picture)).filterMap Sum.getLeft? = [] := by
    rw [List.filterMap_map]
    exact List.filterMap_eq_nil_iff.mpr fun _ _ => rfl
  dsimp only
  rw [h]
  rfl

theorem data_plotScene {ι : Type} (plot : Bool) (room : Room) (scene : CliScene) (pre : String) :
    dataOf (plotScene plot room scene pre : Illustrated ι Unit) = pure () := by
  unfold plotScene
  split
  · exact data_pictures _ _
  · rfl

theorem data_plotGif {ι : Type} (gif : Bool) (fps : ℤ) (room : Room) (scene : CliScene) (pre : String) (n fs : ℕ) :
    dataOf (plotGif gif fps room scene pre n fs : Illustrated ι Unit) = pure () := by
  unfold plotGif
  split
  · split
    · rfl
    · exact data_pictures _ _
  · rfl

/-- The data of a run. -/
theorem data_run {ι : Type} (conv : Flt → ℤ) (w : TorchDevice → World) (device : Except String TorchDevice)
    (sc : Script) (r : ℕ → ℝ) (a : CliRunArgs) (args : Except String (List (String × Val))) (k : ℕ)
    (loaded : Except String (List (List ℝ) × ℕ × List (String × List ι))) :
    dataOf (cliRun conv w device sc r a args k loaded) = (do
      let license ← quietly (attributionFor "cmu_arctic" none)
      writeAttribution license (modificationNotes sc.moves)
      let d ← quietly device
      let l ← quietly loaded
      let room ← quietly (cliRoom conv (a.scene sc) l.2.1)
      let scene ← quietly (placeScene r (a.scene sc) k)
      cliTail (w d) sc a args license l.1 l.2.1 l.2.2 room scene) := by
  unfold cliRun
  simp only [ScriptPlots.data_bind, ScriptPlots.data_plain, data_plotScene, data_plotGif,
    ScriptPlots.writing_pure_bind]

theorem tail_ends {ι : Type} (w : World) (sc : Script) (a : CliRunArgs) (args : Except String (List (String × Val)))
    (license : List (String × AttrValue)) (rows : List (List ℝ)) (fs : ℕ) (info : List (String × List ι)) (room : Room)
    (scene : CliScene) : RunEnds (cliTail w sc a args license rows fs info room scene)
      [cliAudioName sc, cliMetadataName sc] := by
  unfold cliTail
  refine RunEnds.then (by simp) fun ry _ => RunEnds.then (by simp) fun file _ => ?_
  exact RunEnds.bind (p := [_]) (q := [_]) (Follows.write _ _) _ (by simp) fun _ _ =>
    RunEnds.then (by simp) fun args _ => RunEnds.then (by simp) fun md _ => RunEnds.write _ _

end CliRun

/-- **C134, data.** The options `--plot`, `--gif` and `--gif-fps` change nothing but the settings that are reported: with
the same report, the same files with the same contents are written in the same order, with the same outcome, whatever
becomes of the pictures. -/
theorem C134_data {ι : Type} (conv : Flt → ℤ) (w : TorchDevice → World) (device : Except String TorchDevice)
    (sc : Script) (r : ℕ → ℝ) (a : CliRunArgs) (args : Except String (List (String × Val))) (k : ℕ)
    (loaded : Except String (List (List ℝ) × ℕ × List (String × List ι))) (plot gif : Bool) (fps : ℤ) :
    dataOf (cliRun conv w device sc r { a with plot := plot, gif := gif, gifFps := fps } args k loaded) =
      dataOf (cliRun conv w device sc r a args k loaded) := by
  rw [CliRun.data_run, CliRun.data_run]
  rfl

/-- **C134, order.** A run writes the attribution, the sound and the metadata in this order, and nothing else; an
exception leaves a beginning of that list. It finishes exactly if all of them are there, which is to say exactly if the
metadata is. -/
theorem C134_order {ι : Type} (conv : Flt → ℤ) (w : TorchDevice → World) (device : Except String TorchDevice)
    (sc : Script) (r : ℕ → ℝ) (a : CliRunArgs) (args : Except String (List (String × Val))) (k : ℕ)
    (loaded : Except String (List (List ℝ) × ℕ × List (String × List ι))) :
    let run := cliRun conv w device sc r a args k loaded
    (dataOf run).files.map Prod.fst <+: cliNames sc.prefix ∧
    (run.result = .ok () ↔ (dataOf run).files.map Prod.fst = cliNames sc.prefix) ∧
    (run.result = .ok () ↔ sc.prefix ++ "_binaural_metadata.json" ∈ (dataOf run).files.map Prod.fst) := by
  intro run
  obtain ⟨license, text, h1, h2, -⟩ := attribution_ok (ι := ι) (modificationNotes sc.moves)
  have hres : run.result = (dataOf run).result := rfl
  have hf : RunEnds (dataOf run) (["ATTRIBUTION.txt"] ++ [cliAudioName sc, cliMetadataName sc]) := by
    show RunEnds (dataOf (cliRun conv w device sc r a args k loaded)) _
    rw [CliRun.data_run, quietly_bind h1, h2]
    exact RunEnds.bind (Follows.write _ _) _ (by simp) fun _ _ => RunEnds.then (by simp) fun d _ =>
      RunEnds.then (by simp) fun l _ => RunEnds.then (by simp) fun room _ => RunEnds.then (by simp) fun scene _ =>
        CliRun.tail_ends ..
  rw [hres]
  refine ⟨hf.1.1, ⟨fun h => hf.1.2 () h, fun h => (hf.2 h).elim fun _ h => h⟩, fun h => ?_, fun h => ?_⟩
  · rw [hf.1.2 () h]
    simp [cliMetadataName]
  · refine (hf.2 ?_).elim fun _ h => h
    have hn : (["ATTRIBUTION.txt", cliAudioName sc] ++ [cliMetadataName sc]).Nodup := by cases sc <;> decide
    exact prefix_with_last (r := ["ATTRIBUTION.txt", cliAudioName sc]) hf.1.1 hn h

/-- **C134, attribution.** Whatever happens later, the first thing a run leaves is the attribution file: it names the
required attribution, the licence and where it is found, and the changes made to the recordings. -/
theorem C134_attribution_first {ι : Type} (conv : Flt → ℤ) (w : TorchDevice → World) (device : Except String TorchDevice)
    (sc : Script) (r : ℕ → ℝ) (a : CliRunArgs) (args : Except String (List (String × Val))) (k : ℕ)
    (loaded : Except String (List (List ℝ) × ℕ × List (String × List ι))) : ∃ text rest,
    (cliRun conv w device sc r a args k loaded).events = .inl ("ATTRIBUTION.txt", .text text) :: rest ∧
    HasLine text.toList ("Required attribution: ".toList ++
      "Carnegie Mellon University, Language Technologies Institute (CMU ARCTIC)".toList) ∧
    (∃ name url : String, name ≠ "" ∧ url ≠ "" ∧ HasLine text.toList ("License: ".toList ++ name.toList) ∧
      HasLine text.toList ("License URL: ".toList ++ url.toList)) ∧
    HasLine text.toList (match sc with
      | .static => "- Static room impulse responses are simulated with ISM at fixed geometry.".toList
      | _ => "- Dynamic room impulse responses are simulated with ISM over trajectories.".toList) := by
  obtain ⟨license, text, h1, h2, -, h3, h4, h5⟩ := attribution_ok (ι := ι) (modificationNotes sc.moves)
  have hrest : ∃ rest, (cliRun conv w device sc r a args k loaded).events =
      .inl ("ATTRIBUTION.txt", .text text) :: rest := by
    unfold cliRun
    rw [ScriptPlots.quiet_plain_bind h1, h2, ScriptPlots.write_plain_bind]
    exact ⟨_, rfl⟩
  obtain ⟨rest, hrest⟩ := hrest
  refine ⟨text, rest, hrest, h3, h4, ?_⟩
  · cases sc
    · exact h5 _ (by simp [modificationNotes, Script.moves]; right; left; rfl)
    · exact h5 _ (by simp [modificationNotes, Script.moves]; right; left; rfl)
    · exact h5 _ (by simp [modificationNotes, Script.moves]; right; left; rfl)

/-- **C134, early failures.** If the device is not one, the signals are not loaded or no placement is found, there is the
attribution and nothing else, not even pictures. -/
theorem C134_failed {ι : Type} (conv : Flt → ℤ) (w : TorchDevice → World) (device : Except String TorchDevice)
    (sc : Script) (r : ℕ → ℝ) (a : CliRunArgs) (args : Except String (List (String × Val))) (k : ℕ)
    (loaded : Except String (List (List ℝ) × ℕ × List (String × List ι)))
    (h : (∃ e, device = .error e) ∨ (∃ e, loaded = .error e) ∨ ∃ e, placeScene r (a.scene sc) k = .error e) :
    ∃ text e, cliRun conv w device sc r a args k loaded = ⟨[.inl ("ATTRIBUTION.txt", .text text)], .error e⟩ := by
  obtain ⟨license, text, h1, h2, -⟩ := attribution_ok (ι := ι) (modificationNotes sc.moves)
  unfold cliRun
  rw [ScriptPlots.quiet_plain_bind h1, h2, ScriptPlots.write_plain_bind]
  cases device with
  | error e => exact ⟨text, e, rfl⟩
  | ok d =>
    have h := h.resolve_left (by rintro ⟨e, h⟩; cases h)
    rw [ScriptPlots.quiet_plain_bind rfl]
    cases loaded with
    | error e => exact ⟨text, e, rfl⟩
    | ok l =>
      obtain ⟨e, h⟩ := h.resolve_left (by rintro ⟨e, h⟩; cases h)
      rw [ScriptPlots.quiet_plain_bind rfl]
      cases hroom : cliRoom conv (a.scene sc) l.2.1 with
      | error e => exact ⟨text, e, rfl⟩
      | ok room =>
        rw [ScriptPlots.quiet_plain_bind rfl, ScriptPlots.quiet_plain_error h]
        exact ⟨text, e, rfl⟩

/-! ## Finished runs -/

namespace CliRun

variable {S M d T : ℕ}

/-- The animations of a scene for a requested rate. -/
theorem gifs_shots (hd : d = 2 ∨ d = 3) (hT : 0 < T) (L : Fin d → ℝ) (src : Fin S → Fin d → ℝ)
    (mic : Fin M → Fin d → ℝ) (p : Fin T → Fin S → Fin d → ℝ) (q : Fin T → Fin M → Fin d → ℝ) (pre : String)
    (n : ℕ) (fs : ℕ) (hfs : 0 < fs) (request : ℤ) :
    ∃ rate movies, RateFor request T n fs rate ∧
      saveGifs (sizeTensor L) (tensor2 src) (tensor2 mic) (some (tensor3 p)) (some (tensor3 q)) pre n fs request
        = (movies, none) ∧
      List.Forall₂ (IsShot L src mic p q pre (n / fs) rate) ([.film 2] ++ if d = 3 then [.film 3] else [])
        (movies.map .movie) := by
  obtain ⟨rate, movies, h1, h2, h3⟩ := C83_gifs hd hT L src mic p q pre n fs (by positivity) request true
  refine ⟨rate, movies, h1, h2, ?_⟩
  by_cases h : d = 3
  · rw [if_pos h] at h3 ⊢
    obtain ⟨A, l, hA, hl, rfl⟩ := List.forall₂_cons_left_iff.mp h3
    obtain ⟨B, l, hB, hn, rfl⟩ := List.forall₂_cons_left_iff.mp hl
    cases hn
    exact .cons hA (.cons hB .nil)
  · rw [if_neg h] at h3 ⊢
    obtain ⟨A, l, hA, hl, rfl⟩ := List.forall₂_cons_left_iff.mp h3
    cases hl
    exact .cons hA .nil

theorem box_size (L lo hi : Fin d → ℝ) (c r : ℝ) :
    (⟨[(boxRoom L lo hi r c).size.length], (boxRoom L lo hi r c).size⟩ : Tensor ℝ) = sizeTensor L := by
  simp [boxRoom, sizeTensor]

/-- The pictures of a scene at rest. -/
theorem pictures_static {ι : Type} (hd : d = 2 ∨ d = 3) (hS : 0 < S) (hM : 0 < M) (L lo hi : Fin d → ℝ) (c r : ℝ)
    (src : Fin S → Fin d → ℝ) (mic : Fin M → Fin d → ℝ) (pre : String) (plot gif : Bool) (fps : ℤ) (n fs : ℕ)
    (length : ℝ) (rate : ℤ) : ∃ pics,
      (plotScene plot (boxRoom L lo hi r c) ⟨rows src, rows mic, none⟩ pre : Illustrated ι Unit) =
        ⟨pics.map .inr, .ok ()⟩ ∧
      (plotGif gif fps (boxRoom L lo hi r c) ⟨rows src, rows mic, none⟩ pre n fs : Illustrated ι Unit) = pure () ∧
      List.Forall₂ (IsShot L src mic (fun _ : Fin 1 => src) (fun _ => mic) pre length rate) (cliShots d false plot gif)
        pics := by
  obtain ⟨images, h4, h5⟩ := ScriptPlots.savePlots_static hd L src mic (fun _ : Fin 1 => src) (fun _ => mic) pre length rate
  have hg : (plotGif gif fps (boxRoom L lo hi r c) ⟨rows src, rows mic, none⟩ pre n fs : Illustrated ι Unit) = pure () := by
    unfold plotGif
    cases gif <;> rfl
  cases plot with
  | false =>
    refine ⟨[], rfl, hg, ?_⟩
    have e : cliShots d false false gif = [] := by simp [cliShots]
    rw [e]
    exact .nil
  | true =>
    refine ⟨images.map .image, ?_, hg, ?_⟩
    · unfold plotScene
      rw [if_pos rfl, pointsTensor_rows hS, pointsTensor_rows hM, box_size]
      simp only [Option.map_none]
      rw [h4, List.map_map]
      rfl
    · have e : cliShots d false true gif = (.still 2 :: if d = 3 then [.still 3] else []) := by
        rcases hd with rfl | rfl <;> simp [cliShots]
      rw [e]
      exact h5

/-- The pictures of a moving scene. -/
theorem pictures_dynamic {ι : Type} (hd : d = 2 ∨ d = 3) (hT : 0 < T) (hS : 0 < S) (hM : 0 < M)
    (L lo hi : Fin d → ℝ) (c r : ℝ) (src : Fin S → Fin d → ℝ) (mic : Fin M → Fin d → ℝ) (p : Fin T → Fin S → Fin d → ℝ)
    (q : Fin T → Fin M → Fin d → ℝ) (pre : String) (plot gif : Bool) (fps : ℤ) (n fs : ℕ) (hfs : 0 < fs) :
    ∃ rate pics movies, RateFor fps T n fs rate ∧
      (plotScene plot (boxRoom L lo hi r c) ⟨rows src, rows mic, some (Spec.steps p, Spec.steps q)⟩ pre :
        Illustrated ι Unit) = ⟨pics.map .inr, .ok ()⟩ ∧
      (plotGif gif fps (boxRoom L lo hi r c) ⟨rows src, rows mic, some (Spec.steps p, Spec.steps q)⟩ pre n fs :
        Illustrated ι Unit) = ⟨movies.map .inr, .ok ()⟩ ∧
      List.Forall₂ (IsShot L src mic p q pre (n / fs) rate) (cliShots d true plot gif) (pics ++ movies) := by
  obtain ⟨rate, movies, h1, h2, h3⟩ := gifs_shots hd hT L src mic p q pre n fs hfs fps
  obtain ⟨images, h4, h5⟩ := ScriptPlots.savePlots_dynamic hd hT hS hM L src mic p q pre (n / fs) rate
  refine ⟨rate, if plot then images.map .image else [], if gif then movies.map .movie else [], h1, ?_, ?_, ?_⟩
  · unfold plotScene
    cases plot with
    | false => rfl
    | true =>
      rw [if_pos rfl, if_pos rfl, pointsTensor_rows hS, pointsTensor_rows hM, box_size]
      simp only [Option.map_some]
      rw [trajTensor_steps hT hS, trajTensor_steps hT hM, h4, List.map_map]
      rfl
  · unfold plotGif
    cases gif with
    | false => rfl
    | true =>
      rw [if_pos rfl, if_pos rfl]
      dsimp only
      rw [pointsTensor_rows hS, pointsTensor_rows hM, box_size, trajTensor_steps hT hS, trajTensor_steps hT hM, h2,
        List.map_map]
      rfl
  · have e : cliShots d true plot gif =
        (if plot then (.still 2 :: .paths 2 :: if d = 3 then [.still 3, .paths 3] else []) else []) ++
        (if gif then ([.film 2] ++ if d = 3 then [.film 3] else []) else []) := by
      rcases hd with rfl | rfl <;> cases plot <;> cases gif <;> rfl
    rw [e]
    refine List.rel_append ?_ ?_
    · cases plot
      · exact .nil
      · exact h5
    · cases gif
      · exact .nil
      · exact h3

/-- A run whose steps succeed. -/
theorem run_ok {ι : Type} {conv : Flt → ℤ} {w : TorchDevice → World} {dev : TorchDevice} {sc : Script} {r : ℕ → ℝ}
    {a : CliRunArgs} {args : List (String × Val)} {k : ℕ} {x : List (List ℝ)} {fs : ℕ} {info : List (String × List ι)}
    {room : Room} {scene : CliScene} {pics movies : List Picture} {rirs y : Tensor ℝ} {file : AudioFile} {md : Metadata}
    (hroom : cliRoom conv (a.scene sc) fs = .ok room) (hp : placeScene r (a.scene sc) k = .ok scene)
    (h1 : (plotScene a.plot room scene sc.prefix : Illustrated ι Unit) = ⟨pics.map .inr, .ok ()⟩)
    (h2 : (plotGif a.gif a.gifFps room scene sc.prefix ((pointsTensor x).shape.getD 1 0) fs : Illustrated ι Unit) =
      ⟨movies.map .inr, .ok ()⟩)
    (hr : renderScene (w dev) room (a.scene sc) (pointsTensor x) scene = .ok (rirs, y)) (hf : saveAudio y = .ok file)
    (hmd : scriptMetadata a.room.length fs scene rirs (pointsTensor x) = .ok md) :
    ∃ text license, license.lookup "dataset" = some (.shown "CMU ARCTIC") ∧
      cliRun conv w (.ok dev) sc r a (.ok args) k (.ok (x, fs, info)) = ⟨.inl ("ATTRIBUTION.txt", .text text) ::
        ((pics ++ movies).map .inr ++ [.inl (sc.prefix ++ "_binaural.wav", .audio file fs),
          .inl (sc.prefix ++ "_binaural_metadata.json", .cliMetadata md info
            ⟨sc.prefix, args, license, modificationNotes sc.moves, "ATTRIBUTION.txt"⟩)]), .ok ()⟩ := by
  obtain ⟨license, text, l1, l2, l3, -⟩ := attribution_ok (ι := ι) (modificationNotes sc.moves)
  refine ⟨text, license, l3, ?_⟩
  have ht : cliTail (w dev) sc a (.ok args) license x fs info room scene =
      ⟨[(sc.prefix ++ "_binaural.wav", .audio file fs), (sc.prefix ++ "_binaural_metadata.json", .cliMetadata md info
            ⟨sc.prefix, args, license, modificationNotes sc.moves, "ATTRIBUTION.txt"⟩)], .ok ()⟩ := by
    unfold cliTail
    rw [quietly_bind hr]
    dsimp only
    rw [quietly_bind hf, writeFile_bind, quietly_bind rfl, quietly_bind hmd]
    rfl
  unfold cliRun
  rw [ScriptPlots.quiet_plain_bind l1, l2, ScriptPlots.write_plain_bind, ScriptPlots.quiet_plain_bind rfl,
    ScriptPlots.quiet_plain_bind rfl, ScriptPlots.quiet_plain_bind hroom, ScriptPlots.quiet_plain_bind hp, h1, h2, ht,
    ScriptPlots.bind_ok_events rfl, ScriptPlots.bind_ok_events rfl]
  simp [Writing.plain]

end CliRun

/-- **C134, standing scene.** If the sources are loaded and placed, the scenario `static` finishes. The signal of every
source is the beginning of the listed utterances of the listed speaker, the sound is the sum of the signals convolved
with the responses of the image method to the two ears, and the metadata gives the positions that were simulated and
the settings. With `--plot` there are images of this scene; there is no animation, even with `--gif`. -/
theorem C134_static {ι : Type} {d : ℕ} (hd : d = 2 ∨ d = 3) (conv : Flt → ℤ) (w : TorchDevice → World) (dev : TorchDevice)
    {r : ℕ → ℝ} (hu : UnitStream r) (L : Fin d → ℝ) (hL : ∀ i, 1 ≤ L i) (a : CliRunArgs) (ha : a.room = List.ofFn L)
    (args : List (String × Val)) (hS : 0 < a.numSources) (N : ℕ) (hN : a.order = N)
    (sample : List String → ℕ → List String) (hsample : Samples sample) (shuffle : ℕ → List ι → List ι)
    (hsh : Shuffles shuffle) (speakers : List String) (data : String → SpeakerData ι) (duration : ℝ) (hdur : 0 ≤ duration)
    (fuel : ℕ) (signals : List (List ℝ)) (fs : ℕ) (info : List (String × List ι))
    (hload : loadDatasetSources sample shuffle speakers data a.numSources duration fuel = some (.ok (signals, fs, info)))
    (hfs : 20 < fs) (K : ℕ) (hK : 0 < K) (ht : (K : ℤ) = ⌈a.tmax * fs⌉) (sos : (w dev).Sos)
    (hsos : (w dev).iirfilter 2 (10 / ((fs : ℝ) / 2)) [("rp", "5.0"), ("rs", "60.0"), ("ftype", "butter")] = .ok sos)
    (G : (Fin K → ℝ) →ₗ[ℝ] (Fin K → ℝ)) (hG : ActsAs (w dev) sos G) (k : ℕ) (scene : CliScene)
    (hp : placeScene r { mode := "static", room := a.room, numSources := a.numSources, steps := a.steps, order := a.order
                         tmax := a.tmax } k = .ok scene) :
    let n := ⌊duration * fs⌋₊
    ∃ (x : Fin a.numSources → Fin n → ℝ) (who : Fin a.numSources → String × List ι)
      (src : Fin a.numSources → Fin d → ℝ) (mic : Fin 2 → Fin d → ℝ) (md : Metadata) (rate : ℤ) (pics : List Picture),
      (∀ s, IsSource (data (who s).1) fs n (List.ofFn (x s)) (who s).2) ∧
      scene = ⟨rows src, rows mic, none⟩ ∧
      CliFinished "static" false fs (n + K - 1)
        (fun m k => ∑ s, Spec.conv (x s) (cliResponse ((w dev).device ≠ .mps) L fs N G (src s) (mic m)) k) who md args pics
        (cliRun conv w (.ok dev) .static r a (.ok args) k (.ok (signals, fs, info))) ∧
      List.Forall₂ (IsShot L src mic (fun _ : Fin 1 => src) (fun _ => mic) "static" (n / fs) rate)
        (cliShots d false a.plot a.gif) pics ∧
      Describes md fs src mic (fun _ : Fin 1 => src) (fun _ => mic) [a.numSources, 2, K] n ∧
      ∃ az el : Fin 1 → Fin a.numSources → Fin 2 → ℝ,
        md.azimuth = (List.ofFn fun t => List.ofFn fun s => List.ofFn (az t s)) ∧
        md.elevation = (List.ofFn fun t => List.ofFn fun s => List.ofFn (el t s)) ∧
        ∀ t s m, PointsTo (fun i => src s i - mic m i) (az t s m) (el t s m) := by
  intro n
  obtain ⟨hr, -, -, -, hrows⟩ := C53_sources_partial sample hsample shuffle hsh speakers data a.numSources duration hdur fuel
    signals fs info hload
  obtain ⟨x, who, rfl, rfl, hx⟩ := loaded_signals (by exact_mod_cast hr) hrows
  have hx : ∀ s, IsSource (data (who s).1) fs n (List.ofFn (x s)) (who s).2 := fun s => (hx s).1
  obtain ⟨c, src, mic, rfl, -⟩ := C88_static_placement hu (by omega) L hL _ ha k scene rfl hp
  have hfs' : (20 : ℝ) < fs := by exact_mod_cast hfs
  have hroom := cliRoom_eq conv hd L (fun i => by linarith [hL i]) (a.scene .static) ha fs (by linarith)
  have haudio := C88_static_audio hd hS (by norm_num) conv (w dev) r L (fun i => by linarith [hL i]) (a.scene .static) ha N hN
    fs hfs' K hK ht sos hsos G hG x k src mic hp
  have hp' : placeScene r (a.scene .static) k = .ok ⟨rows src, rows mic, none⟩ := hp
  unfold runScene at haudio
  rw [hroom, ok_bind, hp', ok_bind] at haudio
  obtain ⟨⟨rirs, y⟩, hrender, he⟩ := (bind_eq_ok _ _ _).mp haudio
  obtain ⟨rfl, rfl⟩ : rirs = _ ∧ y = _ := by
    have he := Except.ok.inj he
    exact ⟨congrArg (fun p => p.2.1) he, congrArg (fun p => p.2.2) he⟩
  obtain ⟨file, gain, hsave, hsaved⟩ := save_mics (by norm_num : 1 ≤ 2) (by norm_num : 2 ≤ 8) (n + K - 1)
    (mix x fun s m => cliResponse ((w dev).device ≠ .mps) L fs N G (src s) (mic m))
  obtain ⟨md, hmd, hdesc, hang⟩ := metadata_describes (n := n) hd le_rfl (fs : ℝ) src mic (fun _ : Fin 1 => src)
    (fun _ => mic) (srcTraj := none) (micTraj := none) (.inr (.inr ⟨rfl, rfl, by simp [tensor2, tensor3]⟩))
    (.inr (.inr ⟨rfl, rfl, by simp [tensor2, tensor3]⟩)) [a.numSources, 2, K] (by simp)
  obtain ⟨pics, hp1, hp2, hp3⟩ := CliRun.pictures_static (ι := ι) hd hS (by norm_num) L (fun _ => 0.9) (fun _ => 0.9) 343 fs src
    mic "static" a.plot a.gif a.gifFps ((pointsTensor (Spec.rows x)).shape.getD 1 0) fs (n / fs) 1
  obtain ⟨text, license, hl, hrun⟩ := CliRun.run_ok (ι := ι) (args := args) (info := List.ofFn who) (sc := .static) (movies := []) (x := Spec.rows x) hroom hp'
    hp1 (hp2.trans rfl) (by rw [pointsTensor_rows hS]; exact hrender) hsave
    (md := md) (by
      unfold scriptMetadata
      rw [ha, List.length_ofFn, pointsTensor_rows hS, pointsTensor_rows (by norm_num), pointsTensor_rows hS]
      exact hmd)
  refine ⟨x, who, src, mic, md, 1, pics, hx, rfl, ?_, hp3, hdesc, hang⟩
  rw [hrun, List.append_nil]
  exact ⟨rfl, text, license, file, gain, rfl, hl, hsaved⟩

/-- **C134, moving scenes.** The same for `dynamic_src` and `dynamic_mic`: every sample passes through the responses from
where its source is to where the ears are at the current step, the metadata gives these trajectories, the images show
them, and with `--gif` there are animations with the requested number of steps per second, or one with which they last
as long as the sound. -/
theorem C134_dynamic {ι : Type} {d T : ℕ} (hd : d = 2 ∨ d = 3) (conv : Flt → ℤ) (w : TorchDevice → World)
    (dev : TorchDevice) {r : ℕ → ℝ} (hu : UnitStream r) (sc : Script) (hsc : sc ≠ .static) (L : Fin d → ℝ)
    (hL : ∀ i, 1 ≤ L i) (a : CliRunArgs) (ha : a.room = List.ofFn L)
    (args : List (String × Val)) (hS : 0 < a.numSources) (hT : (T : ℤ) = max 2 a.steps) (N : ℕ) (hN : a.order = N)
    (sample : List String → ℕ → List String) (hsample : Samples sample) (shuffle : ℕ → List ι → List ι)
    (hsh : Shuffles shuffle) (speakers : List String) (data : String → SpeakerData ι) (duration : ℝ) (hdur : 0 ≤ duration)
    (fuel : ℕ) (signals : List (List ℝ)) (fs : ℕ) (info : List (String × List ι))
    (hload : loadDatasetSources sample shuffle speakers data a.numSources duration fuel = some (.ok (signals, fs, info)))
    (hfs : 20 < fs) (K : ℕ) (hK : 0 < K) (ht : (K : ℤ) = ⌈a.tmax * fs⌉) (sos : (w dev).Sos)
    (hsos : (w dev).iirfilter 2 (10 / ((fs : ℝ) / 2)) [("rp", "5.0"), ("rs", "60.0"), ("ftype", "butter")] = .ok sos)
    (G : (Fin K → ℝ) →ₗ[ℝ] (Fin K → ℝ)) (hG : ActsAs (w dev) sos G) (k : ℕ) (scene : CliScene)
    (hp : placeScene r { mode := sc.prefix, room := a.room, numSources := a.numSources, steps := a.steps, order := a.order
                         tmax := a.tmax } k = .ok scene)
    (step : Fin ⌊duration * fs⌋₊ → Fin T)
    (hstep : CurrentStep (fun t : Fin T => (t : ℕ) * ⌊duration * fs⌋₊ / T) step) :
    let n := ⌊duration * fs⌋₊
    ∃ (x : Fin a.numSources → Fin n → ℝ) (who : Fin a.numSources → String × List ι)
      (src : Fin T → Fin a.numSources → Fin d → ℝ) (mic : Fin T → Fin 2 → Fin d → ℝ) (first : Fin T) (md : Metadata)
      (rate : ℤ) (pics : List Picture),
      (∀ s, IsSource (data (who s).1) fs n (List.ofFn (x s)) (who s).2) ∧
      scene = ⟨rows (src first), rows (mic first), some (Spec.steps src, Spec.steps mic)⟩ ∧ (first : ℕ) = 0 ∧
      CliFinished sc.prefix true fs (n + K - 1)
        (mixVarying x (fun t s m => cliResponse ((w dev).device ≠ .mps) L fs N G (src t s) (mic t m)) step) who md args pics
        (cliRun conv w (.ok dev) sc r a (.ok args) k (.ok (signals, fs, info))) ∧
      RateFor a.gifFps T n fs rate ∧
      List.Forall₂ (IsShot L (src first) (mic first) src mic sc.prefix (n / fs) rate) (cliShots d true a.plot a.gif) pics ∧
      Describes md fs (src first) (mic first) src mic [T, a.numSources, 2, K] n ∧
      ∃ az el : Fin T → Fin a.numSources → Fin 2 → ℝ,
        md.azimuth = (List.ofFn fun t => List.ofFn fun s => List.ofFn (az t s)) ∧
        md.elevation = (List.ofFn fun t => List.ofFn fun s => List.ofFn (el t s)) ∧
        ∀ t s m, PointsTo (fun i => src t s i - mic t m i) (az t s m) (el t s m) := by
  intro n
  obtain ⟨hr, -, -, -, hrows⟩ := C53_sources_partial sample hsample shuffle hsh speakers data a.numSources duration hdur fuel
    signals fs info hload
  obtain ⟨x, who, rfl, rfl, hx⟩ := loaded_signals (by exact_mod_cast hr) hrows
  have hx : ∀ s, IsSource (data (who s).1) fs n (List.ofFn (x s)) (who s).2 := fun s => (hx s).1
  obtain ⟨src, mic, rfl⟩ : ∃ (src : Fin T → Fin a.numSources → Fin d → ℝ) (mic : Fin T → Fin 2 → Fin d → ℝ),
      scene = ⟨Spec.rows (src ⟨0, by omega⟩), Spec.rows (mic ⟨0, by omega⟩), some (Spec.steps src, Spec.steps mic)⟩ := by
    cases sc with
    | static => exact absurd rfl hsc
    | dynamicSrc =>
      obtain ⟨c, start, stop, src, mic, rfl, -, -, -, hline, -⟩ := C88_dynamic_src_placement hu (by omega) L hL _ ha k scene
        rfl hp hT
      refine ⟨src, fun _ => mic, ?_⟩
      have h0 : start = src ⟨0, by omega⟩ := by
        funext s i
        have := hline s ⟨0, by omega⟩ i
        simpa using this.symm
      rw [h0]
    | dynamicMic =>
      obtain ⟨start, stop, c, src, mic, rfl, -⟩ := C88_dynamic_mic_placement hu (by omega) L hL _ ha k scene rfl hp hT
      exact ⟨fun _ => src, mic, rfl⟩
  have hfs' : (20 : ℝ) < fs := by exact_mod_cast hfs
  have hroom := cliRoom_eq conv hd L (fun i => by linarith [hL i]) (a.scene sc) ha fs (by linarith)
  have haudio := C88_dynamic_audio hd hS (by norm_num) (by omega) conv (w dev) r L (fun i => by linarith [hL i]) (a.scene sc) ha
    N hN fs hfs' K hK ht sos hsos G hG x k src mic _ _ hp step hstep
  have hp' : placeScene r (a.scene sc) k = .ok _ := hp
  unfold runScene at haudio
  rw [hroom, ok_bind, hp', ok_bind] at haudio
  obtain ⟨⟨rirs, y⟩, hrender, he⟩ := (bind_eq_ok _ _ _).mp haudio
  obtain ⟨rfl, rfl⟩ : rirs = _ ∧ y = _ := by
    have he := Except.ok.inj he
    exact ⟨congrArg (fun p => p.2.1) he, congrArg (fun p => p.2.2) he⟩
  obtain ⟨file, gain, hsave, hsaved⟩ := save_mics (by norm_num : 1 ≤ 2) (by norm_num : 2 ≤ 8) (n + K - 1)
    (mixVarying x (fun t s m => cliResponse ((w dev).device ≠ .mps) L fs N G (src t s) (mic t m)) step)
  obtain ⟨md, hmd, hdesc, hang⟩ := metadata_describes (n := n) hd (by omega) (fs : ℝ) (src ⟨0, by omega⟩) (mic ⟨0, by omega⟩)
    src mic (srcTraj := some (tensor3 src)) (micTraj := some (tensor3 mic)) (.inl rfl) (.inl rfl)
    [T, a.numSources, 2, K] (by simp)
  have hn : (pointsTensor (Spec.rows x)).shape.getD 1 0 = n := by rw [pointsTensor_rows hS]; rfl
  obtain ⟨rate, pics, movies, hrate, hp1, hp2, hp3⟩ := CliRun.pictures_dynamic (ι := ι) hd (by omega : 0 < T) hS (by norm_num)
    L (fun _ => 0.9) (fun _ => 0.9) 343 fs (src ⟨0, by omega⟩) (mic ⟨0, by omega⟩) src mic sc.prefix a.plot a.gif a.gifFps n fs
    (by omega)
  obtain ⟨text, license, hl, hrun⟩ := CliRun.run_ok (ι := ι) (args := args) (info := List.ofFn who) (x := Spec.rows x) hroom hp' hp1
    (by rw [hn]; exact hp2) (by rw [pointsTensor_rows hS]; exact hrender) hsave
    (md := md) (by
      unfold scriptMetadata
      rw [ha, List.length_ofFn, pointsTensor_rows hS, pointsTensor_rows (by norm_num), pointsTensor_rows hS]
      dsimp only [Option.map]
      rw [trajTensor_steps (by omega) hS, trajTensor_steps (by omega) (by norm_num)]
      exact hmd)
  refine ⟨x, who, src, mic, ⟨0, by omega⟩, md, rate, pics ++ movies, hx, rfl, rfl, ?_, hrate, hp3, hdesc, hang⟩
  rw [hrun]
  have hmoves : sc.moves = true := by cases sc <;> first | rfl | exact absurd rfl hsc
  rw [hmoves]
  exact ⟨rfl, text, license, file, gain, rfl, hl, hsaved⟩

/-- **C134, names.** No file of a run overwrites another one, pictures included. -/
theorem C134_names (sc : Script) (d : ℕ) (moving plot gif : Bool) :
    (cliNames sc.prefix ++ (cliShots d moving plot gif).map (Shot.file sc.prefix)).Nodup := by
  cases sc <;> cases moving <;> cases plot <;> cases gif <;> by_cases h : d = 3 <;>
    simp only [cliShots, h, if_true, if_false] <;> decide

namespace CliRun

theorem serialize_congr (cv : Conversions) {ns ns' : List (String × Val)} (h : ∀ key ∈ argKeys, attr ns' key = attr ns key) :
    serializeArgs cv ns' = serializeArgs cv ns := by
  unfold serializeArgs
  rw [h "room" (by simp [argKeys])]
  refine bind_congr fun room => ?_
  congr 1
  exact List.map_congr_left fun key hk => by rw [h key hk]

/-- A file of a computation without files in front of another one is one of the other one. -/
theorem mem_quiet {ι α β : Type} {x : Except String α} {f : α → Writing ι β} {e : String × OutFile ι}
    (h : e ∈ (quietly x >>= f).files) : ∃ a, x = .ok a ∧ e ∈ (f a).files := by
  cases x with
  | error _ => rw [quietly_bind_error rfl] at h; cases h
  | ok a => rw [quietly_bind rfl] at h; exact ⟨a, rfl, h⟩

theorem mem_write {ι β : Type} {n : String} {o : OutFile ι} {f : Unit → Writing ι β} {e : String × OutFile ι}
    (h : e ∈ (writeFile n o >>= f).files) (hne : e ≠ (n, o)) : e ∈ (f ()).files := by
  rw [writeFile_bind] at h
  exact (List.mem_cons.mp h).resolve_left hne

/-- The reported settings. -/
theorem run_reported {ι : Type} {conv : Flt → ℤ} {w : TorchDevice → World} {device : Except String TorchDevice}
    {sc : Script} {r : ℕ → ℝ} {a : CliRunArgs} {args : Except String (List (String × Val))} {k : ℕ}
    {loaded : Except String (List (List ℝ) × ℕ × List (String × List ι))} {name : String} {md : Metadata}
    {info : List (String × List ι)} {extra : CliExtra}
    (h : (name, .cliMetadata md info extra) ∈ (dataOf (cliRun conv w device sc r a args k loaded)).files) :
    args = .ok extra.args := by
  rw [data_run] at h
  obtain ⟨license, hl, h⟩ := mem_quiet h
  obtain ⟨license', text, h1, h2, -⟩ := attribution_ok (ι := ι) (modificationNotes sc.moves)
  rw [h1] at hl
  cases hl
  rw [h2] at h
  obtain ⟨d, -, h⟩ := mem_quiet (mem_write h (by simp))
  obtain ⟨l, -, h⟩ := mem_quiet h
  obtain ⟨room, -, h⟩ := mem_quiet h
  obtain ⟨scene, -, h⟩ := mem_quiet h
  unfold cliTail at h
  obtain ⟨ry, -, h⟩ := mem_quiet h
  obtain ⟨file, -, h⟩ := mem_quiet h
  replace h := mem_quiet (mem_write h (by simp))
  obtain ⟨args', ha, h⟩ := h
  rw [ha]
  obtain ⟨md', -, h⟩ := mem_quiet h
  have h := List.mem_singleton.mp h
  cases h
  rfl

theorem reported {ι : Type} {cv : Conversions} {conv : Flt → ℤ} {t : Torch} {w : TorchDevice → World}
    {gen : ℤ → Gen} {load : LoadCall → Gen → Except String (LoadedSources ι × ℕ)} {ns cfg : List (String × Val)}
    {out : Illustrated ι Unit} {name : String} {md : Metadata} {info : List (String × List ι)} {extra : CliExtra}
    (hout : cliOutput cv conv t w gen load ns = some out) (hcfg : serializeArgs cv ns = .ok cfg)
    (hmd : (name, .cliMetadata md info extra) ∈ (dataOf out).files) : extra.args = cfg := by
  unfold cliOutput at hout
  obtain ⟨sc, -, hout⟩ := Option.bind_eq_some_iff.mp hout
  obtain ⟨root, -, hout⟩ := Option.bind_eq_some_iff.mp hout
  obtain ⟨download, -, hout⟩ := Option.bind_eq_some_iff.mp hout
  obtain ⟨numSources, -, hout⟩ := Option.bind_eq_some_iff.mp hout
  obtain ⟨duration, -, hout⟩ := Option.bind_eq_some_iff.mp hout
  obtain ⟨seed, -, hout⟩ := Option.bind_eq_some_iff.mp hout
  obtain ⟨sides, -, hout⟩ := Option.bind_eq_some_iff.mp hout
  obtain ⟨room, -, hout⟩ := Option.bind_eq_some_iff.mp hout
  obtain ⟨steps, -, hout⟩ := Option.bind_eq_some_iff.mp hout
  obtain ⟨order, -, hout⟩ := Option.bind_eq_some_iff.mp hout
  obtain ⟨length, -, hout⟩ := Option.bind_eq_some_iff.mp hout
  obtain ⟨tmax, -, hout⟩ := Option.bind_eq_some_iff.mp hout
  obtain ⟨device, -, hout⟩ := Option.bind_eq_some_iff.mp hout
  obtain ⟨plot, -, hout⟩ := Option.bind_eq_some_iff.mp hout
  obtain ⟨gif, -, hout⟩ := Option.bind_eq_some_iff.mp hout
  obtain ⟨gifFps, -, hout⟩ := Option.bind_eq_some_iff.mp hout
  cases hout
  have := run_reported hmd
  rw [hcfg] at this
  exact (Except.ok.inj this).symm

end CliRun

/-- **C134, settings.** What a scenario does is decided by its settings: it loads `num_sources` sources of CMU ARCTIC from
`dataset_dir` with the generator of `seed`, and the rest of the run uses the same generator, the device, the room, the
numbers of steps and reflections, the length and the three picture options of the settings, and reports the settings. -/
theorem C134_settings {ι : Type} (cv : Conversions) (conv : Flt → ℤ) (t : Torch) (w : TorchDevice → World)
    (gen : ℤ → Gen) (load : LoadCall → Gen → Except String (LoadedSources ι × ℕ)) (ns : List (String × Val)) (sc : Script)
    (dir device : String) (download plot gif : Bool) (numSources : ℕ) (duration : Flt) (seed steps order gifFps : ℤ)
    (room : Vec) (tmax : ℝ) (out : String)
    (h1 : attr ns "mode" = .str sc.prefix) (h2 : attr ns "dataset_dir" = .path dir)
    (h3 : attr ns "download" = .bool download) (h4 : attr ns "num_sources" = .int numSources)
    (h5 : attr ns "duration" = .float duration) (h6 : attr ns "seed" = .int seed)
    (h7 : attr ns "room" = .list (room.map fun x => .float (.fin x))) (h8 : attr ns "steps" = .int steps)
    (h9 : attr ns "order" = .int order) (h10 : attr ns "tmax" = .float (.fin tmax)) (h11 : attr ns "device" = .str device)
    (h12 : attr ns "plot" = .bool plot) (h13 : attr ns "gif" = .bool gif) (h14 : attr ns "gif_fps" = .int gifFps)
    (h15 : attr ns "out_dir" = .path out)
    (loaded : LoadedSources ι) (k : ℕ)
    (hload : load ⟨"cmu_arctic", dir, "", download, numSources, duration⟩ (gen seed) = .ok (loaded, k)) :
    ∃ args, cliOutput cv conv t w gen load ns = some (cliRun conv w (resolveDevice t (.str device)) sc (gen seed).value
      { room := room, numSources := numSources, steps := steps, order := order, tmax := tmax, plot := plot, gif := gif
        gifFps := gifFps } (.ok args) k (.ok loaded)) ∧
      args.map Prod.fst = savedKeys ∧
      (∀ key ∈ savedKeys, key ≠ "dataset_dir" → key ≠ "out_dir" → args.lookup key = some (attr ns key)) ∧
      args.lookup "dataset_dir" = some (.str dir) ∧ args.lookup "out_dir" = some (.str out) := by
  have hm : asMode (.str sc.prefix) = .ok sc := by cases sc <;> rfl
  have hroom : asFloats (.list (room.map fun x => .float (.fin x))) = .ok (room.map .fin) := by
    show (room.map fun x => Val.float (.fin x)).mapM asFloat = _
    clear h7
    induction room with
    | nil => rfl
    | cons x xs ih =>
      rw [List.map_cons, List.mapM_cons, ih]
      rfl
  have hargs : serializeArgs cv ns = .ok (argKeys.map fun key => (key,
    if key = "dataset_dir" ∨ key = "out_dir" then pyStr cv (attr ns key) else
      if key = "room" then .list (room.map fun x => .float (.fin x)) else attr ns key)) := by
    unfold serializeArgs
    rw [h7]
    rfl
  refine ⟨argKeys.map fun key => (key,
    if key = "dataset_dir" ∨ key = "out_dir" then pyStr cv (attr ns key) else
      if key = "room" then .list (room.map fun x => .float (.fin x)) else attr ns key), ?_, by rfl, ?_, ?_, ?_⟩
  rotate_left
  · intro key hk hd ho
    have hk : key ∈ argKeys := hk
    rw [keys_lookup _ hk, if_neg (by tauto)]
    split
    · rename_i he
      rw [he, h7]
    · rfl
  · rw [keys_lookup _ (by simp [argKeys]), if_pos (by tauto), h2]
    rfl
  · rw [keys_lookup _ (by simp [argKeys]), if_pos (by tauto), h15]
    rfl
  · unfold cliOutput
    rw [h1, h2, h3, h4, h5, h6, h7, h8, h9, h10, h11, h12, h13, h14, hm, hroom, hargs]
    simp only [asPath, asBool, asInt, asFloat, asText, Except.toOption, finite?, Option.bind_eq_bind, Option.bind_some,
      ScriptCli.finite_room, if_neg (not_lt.mpr (Int.natCast_nonneg numSources)), hload]
    rfl

/-- **C134, repeat.** The settings reported in the metadata of a run are enough to do it again: with them as the
configuration the program runs the same scenario and leaves exactly the same, file by file and picture by picture. -/
theorem C134_repeat {ι : Type} (cv : Conversions) (conv : Flt → ℤ) (t : Torch) (w : TorchDevice → World)
    (gen : ℤ → Gen) (load : LoadCall → Gen → Except String (LoadedSources ι × ℕ))
    (files files' : String → Except String Doc) (given : List Given) (evs : List CliEvent) (m : String)
    (ns : List (String × Val)) (h : cliMain cv files given = (evs, .ok ())) (hran : .ran m ns ∈ evs)
    (hc : ∀ entries, ConfigUsed cv files given entries → Plausible entries)
    (out : Illustrated ι Unit) (hout : cliOutput cv conv t w gen load ns = some out)
    (name : String) (md : Metadata) (info : List (String × List ι)) (extra : CliExtra)
    (hmd : (name, .cliMetadata md info extra) ∈ (dataOf out).files) (s p : String) (hs : mkPath s = .path p)
    (hf : files' p = .ok (.mapping extra.args)) :
    ∃ ns', cliMain cv files' [⟨"--config-in", [s]⟩] = ([.ran m ns'], .ok ()) ∧
      cliOutput cv conv t w gen load ns' = some out := by
  unfold cliMain at h
  cases hr : readArgs cv files given with
  | error e => rw [hr] at h; cases h
  | ok ns0 =>
    rw [hr] at h
    dsimp only at h
    have hprep : prepareRun cv ns0 = .ok () := by
      cases hp : prepareRun cv ns0 with
      | error e => rw [hp] at h; cases h
      | ok _ => rfl
    rw [hprep] at h
    dsimp only at h
    have ht := C89_typed cv files given ns0 hr hc
    obtain ⟨cfg, hcfg, hrt⟩ := C89_round_trip cv ns0 ht
    have hrun : runMode ns0 = ([.ran m ns], .ok ()) := by
      by_cases hk : ∃ m', attr ns0 "mode" = .str m' ∧ (m' = "static" ∨ m' = "dynamic_src" ∨ m' = "dynamic_mic")
      · obtain ⟨m', k1, k2⟩ := hk
        have hk := runMode_known k1 k2
        rw [hk] at h ⊢
        unfold writeConfig at h
        split at h
        · cases h
        · rename_i written hw
          split at hw
          · cases hw
            cases h
            simpa [eq_comm] using hran
          · rw [hcfg] at hw
            cases hw
            cases h
            simpa [eq_comm] using hran
          · cases hw
      · rw [runMode_unknown fun m' k1 k2 => hk ⟨m', k1, k2⟩] at h
        dsimp only at h
        split at h <;> cases h
    obtain ⟨hns, hm1, hm2⟩ := runMode_ok hrun
    subst hns
    have hsame : extra.args = cfg := CliRun.reported hout hcfg hmd
    rw [hsame] at hf
    obtain ⟨ns', k1, k2, k3⟩ := hrt files' s p hs hf
    have hk : ∀ key ∈ argKeys, attr ns' key = attr ns key := k3
    refine ⟨ns', ?_, ?_⟩
    · have hprep' : prepareRun cv ns' = .ok () := by
        unfold prepareRun
        rw [k3 "log_level" (by simp [savedKeys]), k3 "seed" (by simp [savedKeys])]
        exact hprep
      unfold cliMain
      rw [k1]
      dsimp only
      rw [hprep']
      dsimp only
      unfold writeConfig
      rw [k2, runMode_known (by rw [k3 "mode" (by simp [savedKeys])]; exact hm1) hm2]
      rfl
    · rw [← hout]
      unfold cliOutput
      rw [CliRun.serialize_congr cv hk]
      rw [hk "mode" (by simp [argKeys]), hk "dataset_dir" (by simp [argKeys]), hk "download" (by simp [argKeys]),
        hk "num_sources" (by simp [argKeys]), hk "duration" (by simp [argKeys]), hk "seed" (by simp [argKeys]),
        hk "room" (by simp [argKeys]), hk "steps" (by simp [argKeys]), hk "order" (by simp [argKeys]),
        hk "tmax" (by simp [argKeys]), hk "device" (by simp [argKeys]), hk "plot" (by simp [argKeys]),
        hk "gif" (by simp [argKeys]), hk "gif_fps" (by simp [argKeys])]

/-! ## Examples -/

namespace CliRun

/-- The scenario `static` with three sources of half a second: with `--plot` and `--gif` it finishes with one image. -/
theorem three_static (conv : Flt → ℤ) (randn : ℤ → List ℕ → List ℝ) (dev : TorchDevice) :
    ∃ loaded : LoadedSources ℕ, ∀ args : List (String × Val), ∃ (image : Image) (md : Metadata) (info : List (String × List ℕ))
      (extra : CliExtra),
      let run := cliRun conv (fun _ => halvingWorld randn) (.ok dev) .static cornerStream
        { room := List.ofFn ![6, 4], numSources := 3, plot := true, gif := true } (.ok args) 0 (.ok loaded)
      run.result = .ok () ∧ picturesOf run = [.image image] ∧
      ("static_binaural_metadata.json", .cliMetadata md info extra) ∈ (dataOf run).files := by
  obtain ⟨fuel, signals, info, hload⟩ := threeSpeakers_load
  obtain ⟨sc, hsc⟩ := corner_places "static" (.inl rfl)
  refine ⟨(signals, 16000, info), fun args => ?_⟩
  obtain ⟨x, who, src, mic, md, rate, pics, -, -, ⟨hres, text, license, file, gain, hev, -⟩, hshot, -⟩ := C134_static (Or.inl rfl)
    conv (fun _ => halvingWorld randn) dev cornerStream_unit ![6, 4] sides64
    { room := List.ofFn ![6, 4], numSources := 3, plot := true, gif := true } rfl args (by norm_num) 8 rfl _ samples_take _
    (fun _ l => l.reverse_perm) _ threeSpeakers 0.5 (by norm_num) fuel signals 16000 info hload (by norm_num) 6400 (by norm_num)
    (by rw [eq_comm, Int.ceil_eq_iff]; norm_num) () rfl _ (halving_acts randn 6400) 0 sc hsc
  have hc : cliShots 2 false true true = [.still 2] := rfl
  rw [hc] at hshot
  obtain ⟨P, l, hP, hl, rfl⟩ := List.forall₂_cons_left_iff.mp hshot
  cases hl
  cases P with
  | movie m => exact absurd hP (by simp [IsShot])
  | image i =>
    refine ⟨i, md, List.ofFn who, ⟨"static", args, license, modificationNotes false, "ATTRIBUTION.txt"⟩, hres, ?_, ?_⟩
    · unfold picturesOf
      rw [hev]
      rfl
    · unfold dataOf
      dsimp only
      rw [hev]
      exact List.mem_cons_of_mem _ (List.mem_cons_of_mem _ (List.mem_cons_self ..))

end CliRun

/-- The scenario `dynamic_mic` with the animation at 5 steps per second. -/
example (conv : Flt → ℤ) (randn : ℤ → List ℕ → List ℝ) (dev : TorchDevice) (args : List (String × Val)) :
    ∃ (loaded : LoadedSources ℕ) (a b c : Picture),
      let run := cliRun conv (fun _ => halvingWorld randn) (.ok dev) .dynamicMic cornerStream
        { room := List.ofFn ![6, 4], numSources := 3, plot := true, gif := true, gifFps := 5 } (.ok args) 0 (.ok loaded)
      run.result = .ok () ∧ picturesOf run = [a, b, c] := by
  obtain ⟨fuel, signals, info, hload⟩ := threeSpeakers_load
  obtain ⟨sc, hsc⟩ := corner_places "dynamic_mic" (.inr (.inr rfl))
  obtain ⟨step, hstep, -⟩ := C24_every_sample_has_one_step (T := 16) (N := ⌊(0.5 : ℝ) * (16000 : ℕ)⌋₊) (by norm_num)
    (.uniform none)
  obtain ⟨x, who, src, mic, first, md, rate, pics, -, -, -, ⟨hres, text, license, file, gain, hev, -⟩, -, hshot, -⟩ :=
    C134_dynamic (T := 16) (Or.inl rfl) conv (fun _ => halvingWorld randn) dev cornerStream_unit .dynamicMic (by simp) ![6, 4]
    sides64 { room := List.ofFn ![6, 4], numSources := 3, plot := true, gif := true, gifFps := 5 } rfl args (by norm_num) rfl 8
    rfl _ samples_take _
    (fun _ l => l.reverse_perm) _ threeSpeakers 0.5 (by norm_num) fuel signals 16000 info hload (by norm_num) 6400 (by norm_num)
    (by rw [eq_comm, Int.ceil_eq_iff]; norm_num) () rfl _ (halving_acts randn 6400) 0 sc hsc step hstep
  have hc : cliShots 2 true true true = [.still 2, .paths 2, .film 2] := rfl
  rw [hc] at hshot
  obtain ⟨A, B, C, rfl⟩ := List.length_eq_three.mp hshot.length_eq.symm
  refine ⟨(signals, 16000, info), A, B, C, hres, ?_⟩
  unfold picturesOf
  rw [hev]
  rfl

namespace CliRun

/-- Three sources in a room of 6 by 4 metres. -/
noncomputable def roomNumbers : Conversions where
  int s := if s = "3" then some 3 else none
  float s := if s = "6" then some (.fin 6) else if s = "4" then some (.fin 4) else none
  toFloat _ := none
  str _ := ""

def roomOptions : List Given := [⟨"--num-sources", ["3"]⟩, ⟨"--room", ["6", "4"]⟩, ⟨"--plot", []⟩, ⟨"--gif", []⟩]

end CliRun

open CliRun in
/-- The program with four options, and again with the settings from the metadata of that run. -/
example (conv : Flt → ℤ) (randn : ℤ → List ℕ → List ℝ) (t : Torch) (dev : TorchDevice)
    (hdev : resolveDevice t (.str "cpu") = .ok dev) :
    ∃ (loaded : LoadedSources ℕ) (ns ns' : List (String × Val)) (out : Illustrated ℕ Unit)
      (files' : String → Except String Doc),
      cliMain roomNumbers (fun _ => .error "no such file") roomOptions = ([.ran "static" ns], .ok ()) ∧
      cliMain roomNumbers files' [⟨"--config-in", ["args.json"]⟩] = ([.ran "static" ns'], .ok ()) ∧
      out.result = .ok () ∧
      cliOutput roomNumbers conv t (fun _ => halvingWorld randn) (fun _ => cornerGen) (fun _ _ => .ok (loaded, 0)) ns
        = some out ∧
      cliOutput roomNumbers conv t (fun _ => halvingWorld randn) (fun _ => cornerGen) (fun _ _ => .ok (loaded, 0)) ns'
        = some out := by
  obtain ⟨ns, hr, hrun⟩ : ∃ ns, readArgs roomNumbers (fun _ => .error "no such file") roomOptions = .ok ns ∧
      cliMain roomNumbers (fun _ => .error "no such file") roomOptions = ([.ran "static" ns], .ok ()) :=
    ⟨_, rfl, (cliMain_ready rfl plain_ready).trans rfl⟩
  have hns : attr ns "mode" = .str "static" ∧ attr ns "dataset_dir" = .path "datasets/cmu_arctic" ∧
      attr ns "download" = .bool true ∧ attr ns "num_sources" = .int 3 ∧ attr ns "duration" = .float (.fin 10) ∧
      attr ns "seed" = .int 0 ∧ attr ns "room" = .list [.float (.fin 6), .float (.fin 4)] ∧ attr ns "steps" = .int 16 ∧
      attr ns "order" = .int 8 ∧ attr ns "tmax" = .float (.fin 0.4) ∧ attr ns "device" = .str "cpu" ∧
      attr ns "plot" = .bool true ∧ attr ns "gif" = .bool true ∧ attr ns "gif_fps" = .int (-1) ∧
      attr ns "out_dir" = .path "outputs" := by
    cases hr
    exact ⟨rfl, rfl, rfl, rfl, rfl, rfl, rfl, rfl, rfl, rfl, rfl, rfl, rfl, rfl, rfl⟩
  obtain ⟨h1, h2, h3, h4, h5, h6, h7, h8, h9, h10, h11, h12, h13, h14, h15⟩ := hns
  have hset := fun loaded => C134_settings (ι := ℕ) roomNumbers conv t (fun _ => halvingWorld randn) (fun _ => cornerGen)
    (fun _ _ => .ok (loaded, 0)) ns .static _ _ _ _ _ 3 _ _ _ _ _ [6, 4] 0.4 _ h1 h2 h3 h4 h5 h6 h7 h8 h9 h10 h11 h12 h13 h14 h15
    loaded 0 rfl
  obtain ⟨loaded, hthree⟩ := CliRun.three_static conv randn dev
  obtain ⟨args, hout, -⟩ := hset loaded
  rw [hdev] at hout
  obtain ⟨image, md, info, extra, hres, -, hmem⟩ := hthree args
  obtain ⟨ns', k1, k2⟩ := C134_repeat roomNumbers conv t _ _ _ _ (fun _ => .ok (.mapping extra.args)) _ _ "static" ns hrun
    (List.mem_singleton.mpr rfl) (fun entries he => by
      cases he with
      | absent => exact ⟨by simp, by simp, by simp⟩
      | file _ _ _ hd => cases hd
      | emptyYaml _ _ hd => cases hd) _ hout _ md info extra hmem "args.json" "args.json" (by unfold mkPath; congr 1) rfl
  exact ⟨loaded, ns, ns', _, _, hrun, k1, hres, hout, k2⟩

end Torchrir.Props
