import Verif.Spec.Warnings
import Verif.Props.Scene

/-!
# C142: warnings, deprecated names and experimental stubs
-/

namespace Torchrir.Props

open Torchrir.Model Torchrir.Spec Torchrir.Lemmas

namespace Warnings

theorem bind_apply {σ α β : Type} (a : Code σ α) (k : α → Code σ β) (p : Process σ) :
    (a >>= k) p = match a p with
      | (p', .ok v) => k v p'
      | (p', .error e) => (p', .error e) := rfl

theorem warn_note {σ : Type} {filters : WarnFilters} {w : Warned} {p : Process σ}
    (h : filters p.noted w = .note) :
    (warn filters w : Code σ Unit) p = (⟨p.world, p.noted ++ [w]⟩, .ok ()) := by
  unfold warn
  rw [h]

theorem warn_raise {σ : Type} {filters : WarnFilters} {w : Warned} {p : Process σ}
    (h : filters p.noted w = .raise) :
    (warn filters w : Code σ Unit) p = (p, .error (w.category ++ ": " ++ w.message)) := by
  unfold warn
  rw [h]

theorem warnsThen {σ α : Type} (filters : WarnFilters) (w : Warned) (new : Code σ α) :
    WarnsThen filters w (warn filters w >>= fun _ => new) new := by
  intro p
  constructor
  · intro h
    rw [bind_apply, warn_note h]
  · intro h
    rw [bind_apply, warn_raise h]
    exact ⟨rfl, _, rfl⟩

end Warnings

open Warnings

/-- **C142, deprecated names.** Whatever the filters and the registered backends: each deprecated function of
`torchrir.io` and `torchrir` issues one `DeprecationWarning` with its name and then is its replacement, with all its
arguments; if the warning is raised, nothing is read or written. -/
theorem C142_deprecated {σ : Type} (filters : WarnFilters) (r : Registry (AudioBackend σ)) (name : String)
    (audio : AudioTensor) (rate : ℤ) (backend format : Option String) (normalize : Bool) (peak : ℝ)
    (subtype : Option String) :
    WarnsThen filters ⟨"DeprecationWarning",
        "torchrir.io.load is deprecated. Use torchrir.io.load_wav or torchrir.io.load_audio."⟩
      (ioLoad filters r name backend format) (ioLoadWav r name backend format) ∧
    WarnsThen filters ⟨"DeprecationWarning",
        "torchrir.io.save is deprecated. Use torchrir.io.save_wav or torchrir.io.save_audio."⟩
      (ioSave filters r name audio rate backend format normalize peak subtype)
      (ioSaveWav r name audio rate backend format normalize peak subtype) ∧
    WarnsThen filters ⟨"DeprecationWarning",
        "torchrir.io.info is deprecated. Use torchrir.io.info_wav or torchrir.io.info_audio."⟩
      (ioInfo filters r name backend format) (ioInfoWav r name backend format) ∧
    WarnsThen filters ⟨"DeprecationWarning",
        "torchrir.load is deprecated. Use torchrir.io.load_wav or torchrir.io.load_audio."⟩
      (topLoad filters r name backend format) (ioLoadWav r name backend format) ∧
    WarnsThen filters ⟨"DeprecationWarning",
        "torchrir.save is deprecated. Use torchrir.io.save_wav or torchrir.io.save_audio."⟩
      (topSave filters r name audio rate backend format normalize peak subtype)
      (ioSaveWav r name audio rate backend format normalize peak subtype) :=
  ⟨warnsThen _ _ _, warnsThen _ _ _, warnsThen _ _ _, warnsThen _ _ _, warnsThen _ _ _⟩

/-- **C142, loading.** The backend `soundfile` returns channel 0 and the rate of the file and changes no file. It warns
exactly if there are more channels, with the name of the caller and their number; if this warning is raised, the call
fails. -/
theorem C142_channels (sf : SoundFile) (filters : WarnFilters) (name caller : String) (p : Process AudioDisk)
    (s : Stored) (hs : p.world name = some s) :
    (s.audio.channels ≤ 1 →
      (soundfileBackend sf filters).load name caller p =
        (p, .ok ((List.range s.audio.frames).map fun t => s.audio.at t 0, s.rate))) ∧
    (1 < s.audio.channels → ∀ w : Warned, w = ⟨"RuntimeWarning", caller ++ " received " ++
        toString s.audio.channels ++ " channels; using channel 0 only."⟩ →
      (filters p.noted w = .note → (soundfileBackend sf filters).load name caller p =
        (⟨p.world, p.noted ++ [w]⟩,
          .ok ((List.range s.audio.frames).map fun t => s.audio.at t 0, s.rate))) ∧
      (filters p.noted w = .raise → ∃ e, (soundfileBackend sf filters).load name caller p = (p, .error e))) := by
  have hd : loadAudioData p.world name = .ok ⟨(List.range s.audio.frames).map fun t => s.audio.at t 0, s.rate,
      some s.format, some s.subtype⟩ := by
    unfold loadAudioData loadAudio
    rw [hs]
    rfl
  constructor
  · intro h1
    show (loadNoting filters caller name >>= _) p = _
    rw [bind_apply]
    unfold loadNoting
    rw [hs]
    simp only [not_lt.mpr h1, if_false]
    rw [hd]
    rfl
  · rintro h1 w rfl
    constructor
    · intro h
      show (loadNoting filters caller name >>= _) p = _
      rw [bind_apply]
      unfold loadNoting
      rw [hs]
      simp only [h1, if_true]
      rw [bind_apply, warn_note h, hd]
      rfl
    · intro h
      have e : ∃ e, loadNoting filters caller name p = (p, .error e) := by
        unfold loadNoting
        rw [hs]
        simp only [h1, if_true]
        rw [bind_apply, warn_raise h]
        exact ⟨_, rfl⟩
      obtain ⟨e, he⟩ := e
      refine ⟨e, ?_⟩
      show (loadNoting filters caller name >>= _) p = _
      rw [bind_apply, he]

/-- **C142, deprecated names with soundfile.** With the backend `soundfile` and filters that raise nothing, the old
functions read, write and return exactly what their replacements do, after one more warning. -/
theorem C142_same (sf : SoundFile) (filters : WarnFilters) (hf : NeverRaises filters) (r : Registry (AudioBackend AudioDisk))
    (hr : ∀ n b, r.backends.lookup n = some b → b = soundfileBackend sf filters) (name : String)
    (audio : AudioTensor) (rate : ℤ) (backend format : Option String) (normalize : Bool) (peak : ℝ)
    (subtype : Option String) :
    (∃ w, w.category = "DeprecationWarning" ∧ SameAfter w (ioLoad filters r name backend format) (ioLoadWav r name backend format)) ∧
    (∃ w, w.category = "DeprecationWarning" ∧ SameAfter w (topLoad filters r name backend format) (ioLoadWav r name backend format)) ∧
    (∃ w, w.category = "DeprecationWarning" ∧ SameAfter w (ioSave filters r name audio rate backend format normalize peak subtype)
      (ioSaveWav r name audio rate backend format normalize peak subtype)) ∧
    (∃ w, w.category = "DeprecationWarning" ∧ SameAfter w (topSave filters r name audio rate backend format normalize peak subtype)
      (ioSaveWav r name audio rate backend format normalize peak subtype)) ∧
    (∃ w, w.category = "DeprecationWarning" ∧ SameAfter w (ioInfo filters r name backend format) (ioInfoWav r name backend format)) := by
  have hwav : ∀ b, r.wav name backend format = .ok b → b = soundfileBackend sf filters := fun b hb => by
    unfold Registry.wav at hb
    obtain ⟨_, -, hb⟩ := (bind_eq_ok _ _ _).mp hb
    obtain ⟨_, -, hb⟩ := (bind_eq_ok _ _ _).mp hb
    unfold Registry.resolve at hb
    dsimp only at hb
    split at hb
    · rename_i b' hb'
      cases hb
      exact hr _ _ hb'
    · cases hb
  -- Code that ignores the warnings noted before and adds the same ones.
  have same : ∀ {α : Type} (w : Warned) (new : Code AudioDisk α),
      (∀ p, ∃ q res ws, ∀ noted, new ⟨p, noted⟩ = (⟨q, noted ++ ws⟩, res)) →
      SameAfter w (warn filters w >>= fun _ => new) new := by
    intro α w new h p
    obtain ⟨q, res, ws, hn⟩ := h p.world
    rw [bind_apply, warn_note (hf _ _)]
    dsimp only
    have e := hn p.noted
    rw [hn (p.noted ++ [w])]
    change new p = _ at e
    rw [e]
    exact ⟨rfl, rfl, ws, rfl, by simp⟩
  have hload : ∀ p, ∃ q res ws, ∀ noted, ioLoadWav r name backend format ⟨p, noted⟩ =
      ((⟨q, noted ++ ws⟩ : Process AudioDisk), res) := by
    intro p
    unfold ioLoadWav
    cases hw : r.wav name backend format with
    | error e => exact ⟨p, .error e, [], fun noted => by rw [List.append_nil]; rfl⟩
    | ok b =>
      obtain rfl := hwav b hw
      cases hs : p name with
      | none =>
        refine ⟨p, .error "LibsndfileError: Error opening file: No such file or directory.", [], fun noted => ?_⟩
        rw [bind_apply]
        show ((loadNoting filters "load" name >>= _) : Code AudioDisk _) _ = _
        rw [bind_apply]
        unfold loadNoting
        rw [show (⟨p, noted⟩ : Process AudioDisk).world name = none from hs, List.append_nil]
      | some s =>
        by_cases h1 : 1 < s.audio.channels
        · refine ⟨p, .ok ((List.range s.audio.frames).map fun t => s.audio.at t 0, s.rate), [⟨"RuntimeWarning", "load" ++ " received " ++ toString s.audio.channels ++
            " channels; using channel 0 only."⟩], fun noted => ?_⟩
          exact ((C142_channels sf filters name "load" ⟨p, noted⟩ s hs).2 h1 _ rfl).1 (hf _ _)
        · refine ⟨p, .ok ((List.range s.audio.frames).map fun t => s.audio.at t 0, s.rate), [], fun noted => ?_⟩
          rw [List.append_nil]
          exact (C142_channels sf filters name "load" ⟨p, noted⟩ s hs).1 (not_lt.mp h1)
  have hsave : ∀ p, ∃ q res ws, ∀ noted, ioSaveWav r name audio rate backend format normalize peak subtype ⟨p, noted⟩ =
      ((⟨q, noted ++ ws⟩ : Process AudioDisk), res) := by
    intro p
    unfold ioSaveWav
    cases hw : r.wav name backend format with
    | error e => exact ⟨p, .error e, [], fun noted => by rw [List.append_nil]; rfl⟩
    | ok b =>
      obtain rfl := hwav b hw
      cases hs : saveAudioFile sf p name audio rate normalize peak subtype with
      | ok disk =>
        refine ⟨disk, .ok (), [], fun noted => ?_⟩
        show (match saveAudioFile sf p name audio rate normalize peak subtype with
          | .ok disk => _
          | .error e => _) = _
        rw [hs, List.append_nil]
      | error e =>
        refine ⟨p, .error e, [], fun noted => ?_⟩
        show (match saveAudioFile sf p name audio rate normalize peak subtype with
          | .ok disk => _
          | .error e => _) = _
        rw [hs, List.append_nil]
  have hinfo : ∀ p, ∃ q res ws, ∀ noted, ioInfoWav r name backend format ⟨p, noted⟩ =
      ((⟨q, noted ++ ws⟩ : Process AudioDisk), res) := by
    intro p
    unfold ioInfoWav
    cases hw : r.wav name backend format with
    | error e => exact ⟨p, .error e, [], fun noted => by rw [List.append_nil]; rfl⟩
    | ok b =>
      obtain rfl := hwav b hw
      exact ⟨p, infoAudio p name, [], fun noted => by rw [List.append_nil]; rfl⟩
  exact ⟨⟨_, rfl, same _ _ hload⟩, ⟨_, rfl, same _ _ hload⟩, ⟨_, rfl, same _ _ hsave⟩, ⟨_, rfl, same _ _ hsave⟩,
    ⟨_, rfl, same _ _ hinfo⟩⟩

/-- **C142, deprecated scenes.** Building and simulating a deprecated `Scene`, with filters that raise nothing, gives
what the static or the dynamic scene gives, and notes two warnings, or one if the scene is refused. New scenes are
simulated without warnings. -/
theorem C142_scenes {σ : Type} (filters : WarnFilters) (hf : NeverRaises filters) (w : World) (sim : IsmSimulator)
    (room : Room) (S M : Entity) (a b : Tensor Flt) (config : Option Config) (p : Process σ) :
    (∀ sc : NewScene, simulateNoting filters w sim (.new sc) config p = (p, sim.simulate w (.new sc) config)) ∧
    ∃ w₁ w₂ : Warned, w₁.category = "DeprecationWarning" ∧ w₂.category = "DeprecationWarning" ∧
      (do let sc ← oldSceneNoting filters room S M none none
          simulateNoting filters w sim (.old sc) config : Code σ RirResult) p =
        (match staticSceneNew room S M with
        | .ok sc => (⟨p.world, p.noted ++ [w₁, w₂]⟩, sim.simulate w (.new (.static sc)) config)
        | .error e => (⟨p.world, p.noted ++ [w₁]⟩, .error e)) ∧
      (do let sc ← oldSceneNoting filters room S M (some a) (some b)
          simulateNoting filters w sim (.old sc) config : Code σ RirResult) p =
        (match dynamicSceneNew room S M a b with
        | .ok sc => (⟨p.world, p.noted ++ [w₁, w₂]⟩, sim.simulate w (.new (.dynamic sc)) config)
        | .error e => (⟨p.world, p.noted ++ [w₁]⟩, .error e)) := by
  refine ⟨fun sc => rfl, ⟨"DeprecationWarning",
    "Scene is deprecated and will be removed in a future release. Use StaticScene or DynamicScene."⟩,
    ⟨"DeprecationWarning", "Passing Scene to ISMSimulator is deprecated. Use StaticScene or DynamicScene."⟩, rfl, rfl,
    ?_, ?_⟩
  · have e : oldSceneNew room S M none none =
        (staticSceneNew room S M).map fun _ => ⟨room, S, M, none, none⟩ := by
      unfold oldSceneNew staticSceneNew OldScene.validate StaticScene.validate OldScene.validateTrajPart
      dsimp only
      cases validateSceneEntities room S M <;> rfl
    rw [bind_apply]
    unfold oldSceneNoting
    rw [bind_apply, warn_note (hf _ _)]
    dsimp only [Code.lift]
    rw [e]
    cases h : staticSceneNew room S M with
    | error e => rfl
    | ok sc =>
      dsimp only [Except.map]
      unfold simulateNoting
      dsimp only
      rw [bind_apply, warn_note (hf _ _)]
      dsimp only [Code.lift]
      have hsc : sc = ⟨room, S, M⟩ := by
        unfold staticSceneNew at h
        obtain ⟨_, -, h⟩ := (bind_eq_ok _ _ _).mp h
        exact (Except.ok.inj h).symm
      subst hsc
      have hn : normalizeScene (.old ⟨room, S, M, none, none⟩) = .ok (.static ⟨room, S, M⟩) := by
        unfold normalizeScene OldScene.toStatic
        simp only [OldScene.isDynamic, Option.isSome_none, Bool.false_and, Bool.false_eq_true, if_false]
        rw [h]
        rfl
      rw [(C38_default_config w sim (.old ⟨room, S, M, none, none⟩)).2 _ _ hn config]
      simp
  · have e : oldSceneNew room S M (some a) (some b) =
        (dynamicSceneNew room S M a b).map fun _ => ⟨room, S, M, some a, some b⟩ := by
      unfold oldSceneNew dynamicSceneNew OldScene.validate DynamicScene.validate OldScene.validateTrajPart
      dsimp only
      cases validateSceneEntities room S M with
      | error e => rfl
      | ok u =>
        rw [ok_bind]
        cases validateTrajs room S M a b <;> rfl
    rw [bind_apply]
    unfold oldSceneNoting
    rw [bind_apply, warn_note (hf _ _)]
    dsimp only [Code.lift]
    rw [e]
    cases h : dynamicSceneNew room S M a b with
    | error e => rfl
    | ok sc =>
      dsimp only [Except.map]
      unfold simulateNoting
      dsimp only
      rw [bind_apply, warn_note (hf _ _)]
      dsimp only [Code.lift]
      have hsc : sc = ⟨room, S, M, a, b⟩ := by
        unfold dynamicSceneNew at h
        obtain ⟨_, -, h⟩ := (bind_eq_ok _ _ _).mp h
        exact (Except.ok.inj h).symm
      subst hsc
      have hn : normalizeScene (.old ⟨room, S, M, some a, some b⟩) = .ok (.dynamic ⟨room, S, M, a, b⟩) := by
        unfold normalizeScene OldScene.toDynamic
        simp only [OldScene.isDynamic, Option.isSome_some, Bool.and_self, if_true]
        rw [h]
        rfl
      rw [(C38_default_config w sim (.old ⟨room, S, M, some a, some b⟩)).2 _ _ hn config]
      simp

/-- **C142, strict filters.** If deprecation warnings are raised as exceptions, a deprecated scene can neither be built
nor simulated. -/
theorem C142_strict_scenes {σ : Type} (filters : WarnFilters)
    (hf : ∀ noted w, w.category = "DeprecationWarning" → filters noted w = .raise) (w : World) (sim : IsmSimulator)
    (room : Room) (S M : Entity) (a b : Option (Tensor Flt)) (s : OldScene) (config : Option Config) (p : Process σ) :
    (∃ e, oldSceneNoting filters room S M a b p = (p, .error e)) ∧
    (∃ e, simulateNoting filters w sim (.old s) config p = (p, .error e)) := by
  have strict : ∀ {α : Type} (v : Warned) (k : Unit → Code σ α), v.category = "DeprecationWarning" →
      ∃ e, (warn filters v >>= k) p = (p, .error e) := fun v k hv => by
    rw [bind_apply, warn_raise (hf _ _ hv)]
    exact ⟨_, rfl⟩
  exact ⟨strict _ _ rfl, strict _ _ rfl⟩

/-- **C142, devices.** The device is the one of `resolve_device`; there is one `RuntimeWarning` if a GPU asked for by
name is missing, and none otherwise. If it is raised there is no device. -/
theorem C142_device {σ : Type} (filters : WarnFilters) (t : Torch) (d : DeviceArg) (prefer : List String)
    (p : Process σ) :
    (¬ Missing t d → resolveDeviceNoting filters t d prefer p = (p, resolveDevice t d prefer)) ∧
    (Missing t d → ∃ w : Warned, w.category = "RuntimeWarning" ∧
      (filters p.noted w = .note → resolveDeviceNoting filters t d prefer p =
        (⟨p.world, p.noted ++ [w]⟩, resolveDevice t d prefer) ∧ resolveDevice t d prefer = .ok ⟨"cpu", none⟩) ∧
      (filters p.noted w = .raise → ∃ e, resolveDeviceNoting filters t d prefer p = (p, .error e))) := by
  have auto_mps : "mps" ≠ "auto" := by decide
  constructor
  · intro hm
    cases d with
    | none => rfl
    | device d => rfl
    | str s =>
      unfold resolveDeviceNoting resolveDevice resolveDeviceStr
      dsimp only
      by_cases h1 : s.toLower = "auto"
      · rw [if_pos h1, if_pos h1]
        rfl
      · rw [if_neg h1, if_neg h1]
        by_cases h2 : "cuda".toList <+: s.toLower.toList
        · rw [if_pos h2, if_pos h2]
          have hc : t.cudaAvailable = true := by
            by_contra hc
            exact hm ⟨s, rfl, Or.inl ⟨h2, by simpa using hc⟩⟩
          rw [if_pos hc, if_pos hc]
          rfl
        · rw [if_neg h2, if_neg h2]
          by_cases h3 : s.toLower = "mps"
          · rw [if_pos h3, if_pos h3]
            have hc : t.mpsAvailable = true := by
              by_contra hc
              exact hm ⟨s, rfl, Or.inr ⟨h3, by simpa using hc⟩⟩
            rw [if_pos hc, if_pos hc]
            rfl
          · rw [if_neg h3, if_neg h3]
            split_ifs <;> rfl
  · rintro ⟨s, rfl, ⟨h2, hc⟩ | ⟨h3, hc⟩⟩
    · have h1 : s.toLower ≠ "auto" := fun h => by
        rw [h] at h2
        exact absurd h2 (by decide)
      have e : resolveDevice t (.str s) prefer = .ok ⟨"cpu", none⟩ := by
        unfold resolveDevice resolveDeviceStr
        dsimp only
        rw [if_neg h1, if_pos h2, if_neg (by simp [hc])]
      have e' : (resolveDeviceNoting filters t (.str s) prefer : Code σ TorchDevice) =
          (warn filters ⟨"RuntimeWarning", "CUDA not available; falling back to CPU."⟩ >>= fun _ =>
            pure ⟨"cpu", .none⟩) := by
        unfold resolveDeviceNoting
        dsimp only
        rw [if_neg h1, if_pos h2, if_neg (by simp [hc])]
      refine ⟨⟨"RuntimeWarning", "CUDA not available; falling back to CPU."⟩, rfl, fun h => ⟨?_, e⟩, fun h => ?_⟩
      · rw [e', e, bind_apply, warn_note h]
        rfl
      · rw [e', bind_apply, warn_raise h]
        exact ⟨_, rfl⟩
    · have h1 : s.toLower ≠ "auto" := fun h => auto_mps (h3.symm.trans h)
      have h2 : ¬ "cuda".toList <+: s.toLower.toList := by
        rw [h3]
        decide
      have e : resolveDevice t (.str s) prefer = .ok ⟨"cpu", none⟩ := by
        unfold resolveDevice resolveDeviceStr
        dsimp only
        rw [if_neg h1, if_neg h2, if_pos h3, if_neg (by simp [hc])]
      have e' : (resolveDeviceNoting filters t (.str s) prefer : Code σ TorchDevice) =
          (warn filters ⟨"RuntimeWarning", "MPS not available; falling back to CPU."⟩ >>= fun _ =>
            pure ⟨"cpu", .none⟩) := by
        unfold resolveDeviceNoting
        dsimp only
        rw [if_neg h1, if_neg h2, if_pos h3, if_neg (by simp [hc])]
      refine ⟨⟨"RuntimeWarning", "MPS not available; falling back to CPU."⟩, rfl, fun h => ⟨?_, e⟩, fun h => ?_⟩
      · rw [e', e, bind_apply, warn_note h]
        rfl
      · rw [e', bind_apply, warn_raise h]
        exact ⟨_, rfl⟩

/-- **C142, stubs.** Nothing is ever computed by the experimental simulators and the experimental dataset: building one
does nothing but give one `RuntimeWarning`, which is noted or raised as the filters say, and every use raises; the world
does not change. -/
theorem C142_stubs {σ : Type} (filters : WarnFilters) (s : StubSimulator) (scene : SceneLike) (config : Option Config)
    (i : ℤ) (α : Type) (p : Process σ) :
    (∃ w : Warned, w.category = "RuntimeWarning" ∧
      WarnsThen filters w (stubSimulatorNew filters s : Code σ StubSimulator) fun q => (q, .ok s)) ∧
    (∃ e, s.simulate scene config p = (p, .error e)) ∧
    (∃ w : Warned, w.category = "RuntimeWarning" ∧
      WarnsThen filters w (templateDatasetNew filters : Code σ Unit) fun q => (q, .ok ())) ∧
    (∃ e, templateLen p = (p, .error e)) ∧ (∃ e, (templateGet i : Code σ α) p = (p, .error e)) := by
  refine ⟨⟨⟨"RuntimeWarning", s.name ++ " is experimental and not implemented."⟩, rfl, fun p => ⟨fun h => ?_, fun h => ?_⟩⟩,
    ⟨_, rfl⟩,
    ⟨⟨"RuntimeWarning", "TemplateDataset is experimental and not implemented."⟩, rfl, fun p => ⟨fun h => ?_, fun h => ?_⟩⟩,
    ⟨_, rfl⟩, ⟨_, rfl⟩⟩
  · unfold stubSimulatorNew
    rw [bind_apply, warn_note h]
    rfl
  · unfold stubSimulatorNew
    rw [bind_apply, warn_raise h]
    exact ⟨rfl, _, rfl⟩
  · unfold templateDatasetNew
    rw [warn_note h]
  · unfold templateDatasetNew
    rw [warn_raise h]
    exact ⟨rfl, _, rfl⟩

/-- Non-vacuous: a stereo file loaded by the deprecated function with Python's actions `always`: two warnings. -/
example (sf : SoundFile) (disk : AudioDisk) (h : disk "a.wav" = some ⟨16000, "WAV", "PCM_16", ⟨2, 1, [0.5, 0.25]⟩⟩) :
    (soundfileBackend sf fun _ _ => .note).load "a.wav" "load" ⟨disk, []⟩ =
      (⟨disk, [⟨"RuntimeWarning", "load received 2 channels; using channel 0 only."⟩]⟩, .ok ([0.5], 16000)) := by
  have := ((C142_channels sf (fun _ _ => .note) "a.wav" "load" ⟨disk, []⟩ _ h).2 (by norm_num) _ rfl).1 rfl
  rw [this]
  have e : (List.range 1).map (fun t => (AudioFile.mk 2 1 [0.5, 0.25]).at t 0) = [0.5] := by
    simp [AudioFile.at]
  show (_, Except.ok (_, _)) = (_, Except.ok (_, _))
  rw [e]
  rfl

/-- The registry of the library. -/
example (sf : SoundFile) (audio : AudioTensor) : ∃ w, w.category = "DeprecationWarning" ∧
    SameAfter w
      (topSave (fun _ _ => .note) ⟨[("soundfile", soundfileBackend sf fun _ _ => .note)], "soundfile"⟩ "a.wav" audio 16000
        none none true 1 none)
      (ioSaveWav ⟨[("soundfile", soundfileBackend sf fun _ _ => .note)], "soundfile"⟩ "a.wav" audio 16000
        none none true 1 none) := by
  refine (C142_same sf (fun _ _ => .note) (fun _ _ => rfl) _ (fun n b h => ?_) "a.wav" audio 16000 none none true 1
    none).2.2.2.1
  by_cases hn : n = "soundfile"
  · subst hn
    simpa using h.symm
  · have e : (n == "soundfile") = false := by simpa using hn
    simp [List.lookup, e] at h

end Torchrir.Props
