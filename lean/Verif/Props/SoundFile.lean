import Verif.Model.SoundFile
import Verif.Props.Audio
import Verif.Props.Logging

/-!
# Audio files on disk (C112)
-/

namespace Torchrir.Props

open Torchrir.Model Torchrir.Lemmas

theorem toLower_toUpper (c : Char) : c.toUpper.toLower = c.toLower := by
  unfold Char.toUpper Char.toLower
  by_cases h : 'a'.val ≤ c.val ∧ c.val ≤ 'z'.val
  · have h' : 97 ≤ c.val.toNat ∧ c.val.toNat ≤ 122 := by
      have a1 : 'a'.val.toNat = 97 := by decide
      have a2 : 'z'.val.toNat = 122 := by decide
      have := h
      rw [UInt32.le_iff_toNat_le, UInt32.le_iff_toNat_le] at this
      omega
    have e : (c.val + ('A'.val - 'a'.val)).toNat = c.val.toNat - 32 := by
      rw [UInt32.toNat_add]
      have : ('A'.val - 'a'.val).toNat = 4294967264 := by decide
      rw [this]; omega
    have hu : 'A'.val ≤ c.val + ('A'.val - 'a'.val) ∧ c.val + ('A'.val - 'a'.val) ≤ 'Z'.val := by
      have a1 : 'A'.val.toNat = 65 := by decide
      have a2 : 'Z'.val.toNat = 90 := by decide
      rw [UInt32.le_iff_toNat_le, UInt32.le_iff_toNat_le]
      omega
    have hn : ¬ ('A'.val ≤ c.val ∧ c.val ≤ 'Z'.val) := by
      have a2 : 'Z'.val.toNat = 90 := by decide
      rw [UInt32.le_iff_toNat_le, UInt32.le_iff_toNat_le]
      omega
    simp only [dif_pos h]
    rw [dif_pos hu, dif_neg hn]
    apply Char.ext
    apply UInt32.toNat_inj.mp
    show (c.val + ('A'.val - 'a'.val) + ('a'.val - 'A'.val)).toNat = _
    rw [UInt32.toNat_add, e]
    have : ('a'.val - 'A'.val).toNat = 32 := by decide
    rw [this]; omega
  · rw [dif_neg h]

theorem isWav_upper {ext : List Char} : IsWav (String.ofList ext).toUpper.toList ↔ IsWav ext := by
  have : (String.ofList ext).toUpper.toList.map Char.toLower = ext.map Char.toLower := by
    rw [String.toUpper, String.toList_map, String.toList_ofList, List.map_map]
    exact List.map_congr_left fun c _ => toLower_toUpper c
  unfold IsWav
  rw [this]

theorem dropWhile_dot (stem ext : List Char) : ∃ s, (stem ++ '.' :: ext).dropWhile (· = '.') = s ++ '.' :: ext ∨
    (stem ++ '.' :: ext).dropWhile (· = '.') = ext.dropWhile (· = '.') := by
  induction stem with
  | nil => exact ⟨[], Or.inr (by simp)⟩
  | cons c l ih =>
    by_cases hc : c = '.'
    · obtain ⟨s, hs⟩ := ih
      exact ⟨s, by simpa [List.dropWhile_cons, hc] using hs⟩
    · exact ⟨c :: l, Or.inl (by simp [hc])⟩

/-- The extension `soundfile` sees is the last part of the name or nothing. -/
theorem splitextOf_eq (stem ext : List Char) (hd : '.' ∉ ext) :
    splitextOf (stem ++ '.' :: ext) = ext ∨ splitextOf (stem ++ '.' :: ext) = [] := by
  unfold splitextOf
  dsimp only
  obtain ⟨s, hs | hs⟩ := dropWhile_dot stem ext
  · rw [hs, if_pos (by simp), takeWhile_ext hd]
    exact Or.inl rfl
  · rw [hs, if_neg fun h => hd ((List.dropWhile_suffix _).subset h)]
    exact Or.inr rfl

/-- The number of samples that are written. -/
theorem write_length {audio : Tensor ℝ} {C T : ℕ} {x : ℕ → ℕ → ℝ} (h : Layout audio C T x) {f : AudioFile}
    (hf : sfWrite (framesFirst audio) = .ok f) : f.samples.length = T * C := by
  cases h with
  | mono T data hlen =>
    rw [← Except.ok.inj hf]
    simpa [framesFirst] using hlen
  | channelsFirst C T data hlen hC8 =>
    unfold framesFirst at hf
    simp only [if_pos hC8] at hf
    unfold sfWrite at hf
    simp only at hf
    split_ifs at hf
    rw [← Except.ok.inj hf]
    simp [transposeData, List.length_flatMap]
  | framesFirst C T data hlen hT =>
    unfold framesFirst at hf
    simp only [if_neg (show ¬ T ≤ 8 by omega)] at hf
    unfold sfWrite at hf
    simp only at hf
    split_ifs at hf
    rw [← Except.ok.inj hf]
    exact hlen

/-- **C112.** What a saved file contains: the rate, the format of its name, the subtype that was asked for (else
the one of the format), the channels and samples times one factor, and no other file changes. -/
theorem C112_saved (sf : SoundFile) (disk : AudioDisk) (name : String) (audio : Tensor ℝ) (attr : Option String)
    {C T : ℕ} {x : ℕ → ℕ → ℝ} (h : Layout audio C T x) (hC : 1 ≤ C) (rate : ℤ) (hr : 1 ≤ rate) (normalize : Bool) (peak : ℝ)
    (hp : normalize = true → 0 < peak) (subtype : Option String) {format : String} (hf : sf.formatOf name = .ok format)
    (hsup : sf.supports format (subtype.getD (sf.defaultSubtype format)) C) :
    ∃ disk' s g, saveAudioFile sf disk name ⟨audio, attr⟩ rate normalize peak subtype = .ok disk' ∧ disk' name = some s ∧
      (∀ other, other ≠ name → disk' other = disk other) ∧ s.rate = rate ∧ s.format = format ∧
      s.subtype = subtype.getD (sf.defaultSubtype format) ∧ s.audio.channels = C ∧ s.audio.frames = T ∧
      s.audio.samples.length = T * C ∧ 0 ≤ g ∧ (normalize = false → g = 1) ∧
      ∀ t c, t < T → c < C → s.audio.at t c = sf.codec format s.subtype (g * x c t) := by
  obtain ⟨t, g, ht, hg, hg1, hl⟩ : ∃ t g, normalizePeak audio normalize peak = .ok t ∧ 0 ≤ g ∧ (normalize = false → g = 1) ∧
      Layout t C T fun c i => g * x c i := by
    unfold normalizePeak
    cases normalize with
    | false => exact ⟨audio, 1, rfl, zero_le_one, fun _ => rfl, by simpa using h⟩
    | true =>
      have hpk := hp rfl
      rw [if_pos rfl, if_neg (by linarith)]
      split_ifs with hs
      · refine ⟨_, peak / peakOf audio.data, rfl, by positivity, by simp, ?_⟩
        have := layout_map h (fun v => v / peakOf audio.data * peak) (by simp)
        convert this using 3
        ring
      · exact ⟨audio, 1, rfl, zero_le_one, fun _ => rfl, by simpa using h⟩
  obtain ⟨f, hw, h1, h2, h3⟩ := write_layout hl hC
  have hlen := write_length hl hw
  have hsub : (subtype.orElse fun _ => (none : Option String)) = subtype := by cases subtype <;> rfl
  refine ⟨_, ⟨rate, format, subtype.getD (sf.defaultSubtype format),
    { f with samples := f.samples.map (sf.codec format (subtype.getD (sf.defaultSubtype format))) }⟩, g, ?_, Function.update_self _ _ _, fun o ho => Function.update_of_ne ho _ _, rfl, rfl, rfl, h1, h2, ?_,
    hg, hg1, fun t c ht hc => ?_⟩
  · unfold saveAudioFile AudioTensor.detach SoundFile.write
    dsimp only
    rw [ht, ok_bind, hf, ok_bind, hw, ok_bind, hsub, h1, raiseIf_neg (by simpa using hsup), ok_bind,
      raiseIf_neg (by omega), ok_bind]
    rfl
  · simpa using hlen
  · have hidx : t * f.channels + c < f.samples.length := by
      rw [hlen, h1]
      have : (t + 1) * C ≤ T * C := Nat.mul_le_mul_right C ht
      rw [Nat.succ_mul] at this
      omega
    have := h3 t c ht hc
    unfold AudioFile.at at this ⊢
    dsimp only
    rw [List.getD_eq_getElem _ _ (by simpa using hidx), List.getElem_map, ← this, List.getD_eq_getElem _ _ hidx]

/-- The files hold what they say: at least one channel, all samples, a rate, and samples that writing in the same
format would not change. -/
def Sound (sf : SoundFile) (disk : AudioDisk) : Prop :=
  ∀ name s, disk name = some s → 1 ≤ s.audio.channels ∧ s.audio.samples.length = s.audio.frames * s.audio.channels ∧
    1 ≤ s.rate ∧ ∀ v ∈ s.audio.samples, sf.codec s.format s.subtype v = v

/-- **C112.** Saving keeps the files sound, if the formats write a sample that they wrote before as it is. -/
theorem C112_sound (sf : SoundFile) (hidem : ∀ f s v, sf.codec f s (sf.codec f s v) = sf.codec f s v) (disk : AudioDisk)
    (hd : Sound sf disk) (name : String) (audio : AudioTensor) {C T : ℕ} {x : ℕ → ℕ → ℝ} (h : Layout audio.tensor C T x)
    (rate : ℤ) (normalize : Bool) (peak : ℝ) (subtype : Option String) {disk' : AudioDisk}
    (hs : saveAudioFile sf disk name audio rate normalize peak subtype = .ok disk') : Sound sf disk' := by
  unfold saveAudioFile at hs
  rw [bind_eq_ok] at hs
  obtain ⟨t, ht, hs⟩ := hs
  obtain ⟨x', hl⟩ : ∃ x', Layout t C T x' := by
    unfold normalizePeak at ht
    split_ifs at ht
    · rw [← Except.ok.inj ht]
      exact ⟨_, layout_map h _ (by simp)⟩
    · rw [← Except.ok.inj ht]; exact ⟨_, h⟩
    · rw [← Except.ok.inj ht]; exact ⟨_, h⟩
  unfold SoundFile.write at hs
  rw [bind_eq_ok] at hs
  obtain ⟨format, -, hs⟩ := hs
  rw [bind_eq_ok] at hs
  obtain ⟨f, hf, hs⟩ := hs
  rw [raiseIf_bind_ok, raiseIf_bind_ok] at hs
  obtain ⟨-, hr, hs⟩ := hs
  have hC : 1 ≤ C := by
    by_contra hc
    obtain rfl : C = 0 := by omega
    generalize hC0 : (0 : ℕ) = C at hl
    cases hl with
    | mono => omega
    | channelsFirst C T data hlen hC8 =>
      subst hC0
      simp [framesFirst, sfWrite] at hf
    | framesFirst C T data hlen hT =>
      subst hC0
      unfold framesFirst at hf
      simp only [if_neg (show ¬ T ≤ 8 by omega)] at hf
      simp [sfWrite] at hf
  obtain ⟨f', hf', h1, h2, -⟩ := write_layout hl hC
  obtain rfl : f' = f := Except.ok.inj (hf'.symm.trans hf)
  have hlen := write_length hl hf
  rw [← Except.ok.inj hs]
  intro n s hn
  by_cases hne : n = name
  · subst hne
    rw [Function.update_self] at hn
    rw [← Option.some.inj hn]
    refine ⟨by rw [← h1] at hC; exact hC, by simpa [h1, h2] using hlen, by dsimp only; omega, fun v hv => ?_⟩
    obtain ⟨w, -, rfl⟩ := List.mem_map.mp hv
    exact hidem _ _ _
  · rw [Function.update_of_ne hne] at hn
    exact hd n s hn

/-- **C112.** A file that is loaded with `load_audio_data` and saved with `save_audio_data(normalize=False)` under a name
of the same format is loaded again as it was: samples (of channel 0), rate, format and subtype. -/
theorem C112_copy (sf : SoundFile) (disk : AudioDisk) (hd : Sound sf disk) (p q : String) {data : AudioData}
    (hp : loadAudioData disk p = .ok data) {format : String} (hf : data.format = some format) (hq : sf.formatOf q = .ok format)
    (hsup : ∀ s, data.subtype = some s → sf.supports format s 1) (peak : ℝ) :
    ∃ disk', saveAudioData sf disk q data false peak = .ok disk' ∧ loadAudioData disk' q = .ok data := by
  unfold loadAudioData at hp
  cases hs : disk p with
  | none => rw [hs] at hp; cases hp
  | some s =>
    rw [hs] at hp
    have hdata := Except.ok.inj hp
    obtain ⟨d1, d2, d3, d4⟩ := hd p s hs
    have hfmt : s.format = format := by
      rw [← hdata] at hf
      exact Option.some.inj hf
    have hs1 := hsup s.subtype (by rw [← hdata])
    have hl := Layout.mono data.audio.length data.audio rfl
    obtain ⟨disk', s', g, e1, e2, -, e4, e5, e6, e7, e8, e9, -, e10, e11⟩ := C112_saved sf disk q
      ⟨[data.audio.length], data.audio⟩ none hl le_rfl data.rate (by rw [← hdata]; exact d3) false peak (by simp) data.subtype hq
      (by rw [← hdata]; exact hs1)
    refine ⟨disk', e1, ?_⟩
    unfold loadAudioData
    rw [e2]
    dsimp only
    have e10 := e10 rfl
    subst e10
    have hsub : s'.subtype = s.subtype := by rw [e6, ← hdata]; rfl
    have hlenA : data.audio.length = s.audio.frames := by rw [← hdata]; simp [loadAudio]
    have haud : loadAudio id s'.audio = data.audio := by
      unfold loadAudio
      rw [e8]
      apply List.ext_getElem
      · simp
      · intro i h1 h2
        simp only [List.getElem_map, List.getElem_range, id]
        rw [e11 i 0 h2 (by omega), hsub, ← hfmt, one_mul, List.getD_eq_getElem _ _ h2]
        have hv : data.audio[i] = s.audio.at i 0 := by
          simp only [← hdata, loadAudio, List.getElem_map, List.getElem_range, id]
        rw [hv]
        apply d4
        have hi : i < s.audio.frames := by omega
        have hidx : i * s.audio.channels + 0 < s.audio.samples.length := by
          rw [d2]
          have : (i + 1) * s.audio.channels ≤ s.audio.frames * s.audio.channels := Nat.mul_le_mul_right _ hi
          rw [Nat.succ_mul] at this
          omega
        unfold AudioFile.at
        rw [List.getD_eq_getElem _ _ hidx]
        exact List.getElem_mem _
    rw [haud, e4, e5, hsub, ← hfmt]
    rw [← hdata]

/-- **C112.** `info_audio` reports what was saved. -/
theorem C112_info (sf : SoundFile) (disk : AudioDisk) (name : String) (audio : Tensor ℝ) (attr : Option String)
    {C T : ℕ} {x : ℕ → ℕ → ℝ} (h : Layout audio C T x) (hC : 1 ≤ C) (rate : ℤ) (hr : 1 ≤ rate) (normalize : Bool) (peak : ℝ)
    (hp : normalize = true → 0 < peak) (subtype : Option String) {format : String} (hf : sf.formatOf name = .ok format)
    (hsup : sf.supports format (subtype.getD (sf.defaultSubtype format)) C) :
    ∃ disk', saveAudioFile sf disk name ⟨audio, attr⟩ rate normalize peak subtype = .ok disk' ∧
      infoAudio disk' name = .ok ⟨rate, T, C, format, subtype.getD (sf.defaultSubtype format), (T : ℝ) / rate⟩ := by
  obtain ⟨disk', s, g, e1, e2, -, e4, e5, e6, e7, e8, -⟩ :=
    C112_saved sf disk name audio attr h hC rate hr normalize peak hp subtype hf hsup
  refine ⟨disk', e1, ?_⟩
  unfold infoAudio
  rw [e2]
  simp only [e4, e5, e6, e7, e8]

theorem saved_format {sf : SoundFile} {disk disk' : AudioDisk} {name : String} {audio : AudioTensor} {rate : ℤ}
    {normalize : Bool} {peak : ℝ} {subtype : Option String}
    (hs : saveAudioFile sf disk name audio rate normalize peak subtype = .ok disk') :
    ∃ s, disk' name = some s ∧ sf.formatOf name = .ok s.format := by
  unfold saveAudioFile at hs
  rw [bind_eq_ok] at hs
  obtain ⟨t, ht, hs⟩ := hs
  unfold SoundFile.write at hs
  rw [bind_eq_ok] at hs
  obtain ⟨format, hfm, hs⟩ := hs
  rw [bind_eq_ok] at hs
  obtain ⟨f, hf, hs⟩ := hs
  rw [raiseIf_bind_ok, raiseIf_bind_ok] at hs
  obtain ⟨-, hr, hs⟩ := hs
  rw [← Except.ok.inj hs]
  exact ⟨_, Function.update_self _ _ _, hfm⟩

/-- A file name that the wav functions accept is written as a wav file. -/
theorem formatOf_wav {sf : SoundFile} {name format : String} (hn : NamedWav name) (hf : sf.formatOf name = .ok format)
    (hnone : "" ∉ sf.formats) : IsWav format.toList := by
  obtain ⟨stem, ext, -, e, hw⟩ := hn
  unfold SoundFile.formatOf at hf
  dsimp only at hf
  split_ifs at hf with hmem
  rw [← Except.ok.inj hf]
  rw [e] at hmem ⊢
  rcases splitextOf_eq stem ext (isWav_no_dot hw).1 with h | h
  · rw [h]
    exact isWav_upper.mpr hw
  · rw [h] at hmem
    have he : (String.ofList []).toUpper = "" := toUpper_eq (by simp)
    rw [he] at hmem
    exact absurd hmem hnone

/-- **C112.** Without a `format` argument, `save_wav` and `torchrir.io.audio.save` write wav files only. Missing: calls with
that argument, see below. -/
theorem C112_wav_partial (sf : SoundFile) (hnone : "" ∉ sf.formats) (disk disk' : AudioDisk) (name : String)
    (audio : AudioTensor) (rate : ℤ) (normalize : Bool) (peak : ℝ) (subtype : Option String)
    (hs : saveWav sf disk name audio rate none normalize peak subtype = .ok disk' ∨
      saveAudioWav sf disk name audio rate normalize peak subtype = .ok disk') :
    ∃ s, disk' name = some s ∧ IsWav s.format.toList := by
  have key : NamedWav name → saveAudioFile sf disk name audio rate normalize peak subtype = .ok disk' →
      ∃ s, disk' name = some s ∧ IsWav s.format.toList := by
    intro hn h
    obtain ⟨s, h1, h2⟩ := saved_format h
    exact ⟨s, h1, formatOf_wav hn h2 hnone⟩
  rcases hs with hs | hs
  · unfold saveWav at hs
    rw [bind_eq_ok] at hs
    obtain ⟨fmt, hfmt, hs⟩ := hs
    rw [raiseIf_bind_ok] at hs
    obtain ⟨hw, hs⟩ := hs
    refine key ?_ hs
    have := (C65_wav_only (⟨[("a", ())], "a"⟩ : Registry Unit) name none none ()).mp (by
      unfold Registry.wav
      rw [hfmt, ok_bind, raiseIf_neg hw, ok_bind]
      rfl)
    rcases this.1 with ⟨s, h, -⟩ | ⟨-, h⟩
    · cases h
    · exact h
  · unfold saveAudioWav at hs
    rw [raiseIf_bind_ok] at hs
    obtain ⟨hw, hs⟩ := hs
    exact key ((C65_wav_files name).mp (by simpa using hw)) hs

/-- A library that knows WAV and FLAC and keeps every sample. -/
def plainSoundFile : SoundFile where
  formats := ["WAV", "FLAC"]
  defaultSubtype _ := "PCM_16"
  supports _ s c := decide ((s = "PCM_16" ∨ s = "FLOAT") ∧ 1 ≤ c ∧ c ≤ 8)
  codec _ _ v := v

theorem plain_formatOf : plainSoundFile.formatOf "a.wav" = .ok "WAV" ∧ plainSoundFile.formatOf "a.flac" = .ok "FLAC" := by
  constructor
  · have : (String.ofList (splitextOf "a.wav".toList)).toUpper = "WAV" := toUpper_eq (by decide)
    unfold SoundFile.formatOf
    dsimp only
    rw [this, if_pos (by simp [plainSoundFile])]
  · have : (String.ofList (splitextOf "a.flac".toList)).toUpper = "FLAC" := toUpper_eq (by decide)
    unfold SoundFile.formatOf
    dsimp only
    rw [this, if_pos (by simp [plainSoundFile])]

/-- **C112 fails for calls with a format.** `save_wav("a.flac", format="wav")` writes a FLAC file. -/
theorem C112_format_fails : ∃ disk' s, saveWav plainSoundFile (fun _ => none) "a.flac" ⟨⟨[2], [1, 0]⟩, none⟩ 8000
    (some "wav") = .ok disk' ∧ disk' "a.flac" = some s ∧ s.format = "FLAC" := by
  obtain ⟨disk', s, g, e1, e2, -, -, e5, -⟩ := C112_saved plainSoundFile (fun _ => none) "a.flac" ⟨[2], [1, 0]⟩ none
    (.mono 2 [1, 0] rfl) le_rfl 8000 (by norm_num) true 1 (by norm_num) none plain_formatOf.2 (by simp [plainSoundFile])
  refine ⟨disk', s, ?_, e2, e5⟩
  unfold saveWav normalizeFormat
  have : ("wav" : String).toLower = "wav" := by
    rw [← String.toList_inj, toLower_toList]; decide
  simp only [Option.getD_some, show ("wav" : String) ≠ "" by decide, if_false, this]
  rw [ok_bind, raiseIf_neg (by simp), ok_bind]
  exact e1

/-- **C112 fails for copies with the default arguments.** They are scaled to a peak of 1. -/
theorem C112_copy_default_fails : ∃ (disk disk' : AudioDisk) (data data' : AudioData), Sound plainSoundFile disk ∧
    loadAudioData disk "a.wav" = .ok data ∧ saveAudioData plainSoundFile disk "a.wav" data = .ok disk' ∧
    loadAudioData disk' "a.wav" = .ok data' ∧ data.audio = [1 / 2] ∧ data'.audio = [1] := by
  have hs : Sound plainSoundFile (fun n => if n = "a.wav" then some ⟨8000, "WAV", "PCM_16", ⟨1, 1, [1 / 2]⟩⟩ else none) := by
    intro n s h
    simp only at h
    split_ifs at h
    rw [← Option.some.inj h]
    simp [plainSoundFile]
  refine ⟨_, Function.update (fun n => if n = "a.wav" then some ⟨8000, "WAV", "PCM_16", ⟨1, 1, [1 / 2]⟩⟩ else none) "a.wav"
      (some ⟨8000, "WAV", "PCM_16", ⟨1, 1, [1]⟩⟩), ⟨[1 / 2], 8000, some "WAV", some "PCM_16"⟩,
    ⟨[1], 8000, some "WAV", some "PCM_16"⟩, hs, ?_, ?_, ?_, rfl, rfl⟩
  · simp [loadAudioData, loadAudio, AudioFile.at]
  · unfold saveAudioData saveAudioFile normalizePeak SoundFile.write AudioTensor.detach
    simp only [plain_formatOf.1, ok_bind]
    have hpk : peakOf [1 / 2] = 1 / 2 := by simp [peakOf]
    simp only [hpk]
    norm_num [framesFirst, sfWrite, raiseIf, plainSoundFile, ok_bind]
  · simp [loadAudioData, loadAudio, AudioFile.at]

/-- **C112 fails for the attribute.** The fallback to the attribute `_torchrir_subtype` of the tensor is never
taken. -/
theorem C112_attribute_fails : ∃ disk' s, saveAudioFile plainSoundFile (fun _ => none) "a.wav"
    ⟨⟨[2], [1, 0]⟩, some "FLOAT"⟩ 8000 = .ok disk' ∧ disk' "a.wav" = some s ∧ s.subtype = "PCM_16" := by
  obtain ⟨disk', s, g, e1, e2, -, -, -, e6, -⟩ := C112_saved plainSoundFile (fun _ => none) "a.wav" ⟨[2], [1, 0]⟩ (some "FLOAT")
    (.mono 2 [1, 0] rfl) le_rfl 8000 (by norm_num) true 1 (by norm_num) none plain_formatOf.1 (by simp [plainSoundFile])
  exact ⟨disk', s, e1, e2, e6⟩

/-- A stereo file in floating point is copied as the mono file of its first channel. -/
example : ∃ disk' data, loadAudioData (fun n => if n = "b.wav" then some ⟨8000, "WAV", "FLOAT", ⟨2, 2, [1, 2, 3, 4]⟩⟩ else none)
      "b.wav" = .ok data ∧ saveAudioData plainSoundFile
        (fun n => if n = "b.wav" then some ⟨8000, "WAV", "FLOAT", ⟨2, 2, [1, 2, 3, 4]⟩⟩ else none) "a.wav" data false = .ok disk' ∧
      loadAudioData disk' "a.wav" = .ok ⟨[1, 3], 8000, some "WAV", some "FLOAT"⟩ := by
  have hl : loadAudioData (fun n => if n = "b.wav" then some ⟨8000, "WAV", "FLOAT", ⟨2, 2, [1, 2, 3, 4]⟩⟩ else none) "b.wav"
      = .ok ⟨[1, 3], 8000, some "WAV", some "FLOAT"⟩ := by
    simp [loadAudioData, loadAudio, AudioFile.at, List.range_succ]
  obtain ⟨disk', h1, h2⟩ := C112_copy plainSoundFile _ (by
    intro n s h
    simp only at h
    split_ifs at h
    rw [← Option.some.inj h]
    simp [plainSoundFile]) "b.wav" "a.wav" hl rfl plain_formatOf.1 (by simp [plainSoundFile]) 1
  exact ⟨disk', _, hl, h1, h2⟩

end Torchrir.Props
