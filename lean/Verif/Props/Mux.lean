import Verif.Model.Mux
import Verif.Lemmas.Repair
import Verif.Props.Archive

/-! # C78: adding the mixture to a rendered video -/

namespace Torchrir.Props

open Torchrir.Model

/-! ## Names of the temporary files -/

theorem stem_split (name : List Char) :
    ∃ ext, name = stemChars name ++ ext ∧ (ext = [] ∨ ext.head? = some '.') := by
  unfold stemChars
  dsimp only
  split_ifs with h
  · exact ⟨[], by simp, Or.inl rfl⟩
  · push Not at h
    set r := name.reverse with hr
    have e : r.takeWhile (· ≠ '.') ++ r.dropWhile (· ≠ '.') = r := List.takeWhile_append_dropWhile
    cases hd : r.dropWhile (· ≠ '.') with
    | nil => rw [hd] at h; simp at h
    | cons c t =>
      have hc : c = '.' := by
        have := List.head_dropWhile_not (fun x => decide (x ≠ '.')) (l := r) (by rw [hd]; simp)
        simp only [hd, List.head_cons, decide_eq_false_iff_not, not_not] at this
        exact this
      subst hc
      refine ⟨'.' :: (r.takeWhile (· ≠ '.')).reverse, ?_, Or.inr rfl⟩
      have : name = r.reverse := by rw [hr, List.reverse_reverse]
      rw [this]
      conv_lhs => rw [← e, hd]
      simp

/-- **C78, names.** The temporary files stand beside the video and carry its name without the extension; a name
without a dot inside is kept whole. -/
theorem C78_temporary_names (dir : DiskPath) (stem ext : String) (he : '.' ∉ ext.toList) :
    (stem ≠ "" → ext ≠ "" → tmpAudio dir (stem ++ "." ++ ext) = dir ++ [stem ++ "_tmp_audio.wav"] ∧
      tmpVideo dir (stem ++ "." ++ ext) = dir ++ [stem ++ "_tmp_mux.mp4"]) ∧
    (tmpAudio dir ext = dir ++ [ext ++ "_tmp_audio.wav"] ∧ tmpVideo dir ext = dir ++ [ext ++ "_tmp_mux.mp4"]) ∧
    (tmpAudio dir ("." ++ ext) = dir ++ ["." ++ ext ++ "_tmp_audio.wav"] ∧
      tmpVideo dir ("." ++ ext) = dir ++ ["." ++ ext ++ "_tmp_mux.mp4"]) := by
  have hall : ∀ c ∈ ext.toList.reverse, decide (c ≠ '.') = true := by
    intro c hc
    simp only [decide_eq_true_eq]
    rintro rfl
    exact he (List.mem_reverse.mp hc)
  have h1 : stem ≠ "" → ext ≠ "" → stemChars (stem ++ "." ++ ext).toList = stem.toList := by
    intro hs hx
    unfold stemChars
    have e : (stem ++ "." ++ ext).toList.reverse = ext.toList.reverse ++ '.' :: stem.toList.reverse := by
      simp [String.toList_append]
    have n1 : ext.toList ≠ [] := fun h => hx (String.toList_inj.mp (h.trans rfl))
    have n2 : stem.toList ≠ [] := fun h => hs (String.toList_inj.mp (h.trans rfl))
    dsimp only
    rw [e, List.takeWhile_append_of_pos hall, List.dropWhile_append_of_pos hall]
    have d1 : List.takeWhile (fun x => decide (x ≠ '.')) ('.' :: stem.toList.reverse) = [] := by simp
    have d2 : List.dropWhile (fun x => decide (x ≠ '.')) ('.' :: stem.toList.reverse) =
      '.' :: stem.toList.reverse := by simp
    rw [d1, d2, if_neg]
    · simp
    · simp only [List.append_nil, List.length_reverse, List.length_cons, not_or]
      have := List.length_pos_iff.mpr n1
      have := List.length_pos_iff.mpr n2
      omega
  have h2 : stemChars ext.toList = ext.toList := by
    unfold stemChars
    dsimp only
    have : List.dropWhile (fun x => decide (x ≠ '.')) ext.toList.reverse = [] := by
      have := List.dropWhile_append_of_pos hall (l₂ := [])
      simpa using this
    rw [this, if_pos (Or.inr (by simp))]
  have h3 : stemChars ("." ++ ext).toList = ("." ++ ext).toList := by
    unfold stemChars
    have e : ("." ++ ext).toList.reverse = ext.toList.reverse ++ ['.'] := by simp [String.toList_append]
    dsimp only
    rw [e, List.dropWhile_append_of_pos hall, if_pos (Or.inr (by simp))]
  unfold tmpAudio tmpVideo besideVideo
  refine ⟨fun hs hx => ?_, ?_, ?_⟩
  · rw [h1 hs hx, String.ofList_toList]
    exact ⟨rfl, rfl⟩
  · rw [h2, String.ofList_toList]
    exact ⟨rfl, rfl⟩
  · rw [h3, String.ofList_toList]
    exact ⟨rfl, rfl⟩

example : tmpAudio ["out"] "scene.v2.mp4" = ["out", "scene.v2_tmp_audio.wav"] :=
  ((C78_temporary_names ["out"] "scene.v2" "mp4" (by decide)).1 (by decide) (by decide)).1

theorem besideVideo_ne (dir : DiskPath) (name suffix : String) (h : suffix.toList.head? = some '_') :
    besideVideo dir name suffix ≠ dir ++ [name] := by
  unfold besideVideo
  intro he
  have he := (List.cons.inj (List.append_cancel_left he)).1
  have := congrArg String.toList he
  rw [String.toList_append, String.toList_ofList] at this
  obtain ⟨ext, hx, hh⟩ := stem_split name.toList
  rw [hx] at this
  have hx' : stemChars (stemChars name.toList ++ ext) = stemChars name.toList := by rw [← hx]
  rw [hx'] at this
  have := List.append_cancel_left this
  rw [this] at h
  rcases hh with hh | hh
  · rw [hh] at h; cases h
  · rw [hh] at h; simp at h

theorem tmpAudio_ne (dir : DiskPath) (name : String) : tmpAudio dir name ≠ dir ++ [name] :=
  besideVideo_ne dir name _ (by decide)

theorem tmpVideo_ne (dir : DiskPath) (name : String) : tmpVideo dir name ≠ dir ++ [name] :=
  besideVideo_ne dir name _ (by decide)

theorem tmpVideo_ne_tmpAudio (dir : DiskPath) (name : String) : tmpVideo dir name ≠ tmpAudio dir name := by
  unfold tmpVideo tmpAudio besideVideo
  intro he
  have he := (List.cons.inj (List.append_cancel_left he)).1
  have := congrArg String.toList he
  rw [String.toList_append, String.toList_append] at this
  exact absurd (List.append_cancel_left this) (by decide)

theorem besideVideo_plain {dir : DiskPath} {name : String} (suffix : String) (hp : Plain (dir ++ [name]))
    (h : 3 ≤ suffix.length) : Plain (besideVideo dir name suffix) := by
  unfold besideVideo
  refine Plain.append (Plain.of_prefix (List.prefix_append _ _) hp) ?_
  intro s hs
  rw [List.mem_singleton.mp hs]
  constructor <;> intro h <;> have := congrArg String.length h <;> rw [String.length_append] at this <;>
    · have h1 : ".".length = 1 := by decide
      have h2 : "..".length = 2 := by decide
      omega

/-! ## What is heard -/

/-- Which channels of the mixture are heard left and right: a single channel on both sides, the
requested channels if both exist, otherwise the first two. -/
def heardChannels (n : ℕ) (req : ℤ × ℤ) : ℕ × ℕ :=
  if n = 1 then (0, 0)
  else if 0 ≤ req.1 ∧ req.1 < n ∧ 0 ≤ req.2 ∧ req.2 < n then (req.1.toNat, req.2.toNat)
  else (0, 1)

/-- The two-channel track. -/
noncomputable def heard (w : Wave) (req : ℤ × ℤ) : List (List ℝ) :=
  w.frames.map fun f => [f.getD (heardChannels w.channels req).1 0, f.getD (heardChannels w.channels req).2 0]

/-- **C78, channels.** The audio track has exactly two channels, the ones named by `heardChannels`,
frame by frame; a mixture without channels gives no track. -/
theorem C78_stereo (w : Wave) (req : ℤ × ℤ) (hw : ∀ f ∈ w.frames, f.length = w.channels) :
    stereoTrack w req = if w.channels = 0 then none else some (heard w req) := by
  unfold stereoTrack heard heardChannels
  split_ifs with h0 h1 h2 h3 h3
  · rfl
  · congr 1
    refine List.map_congr_left fun f hf => ?_
    have := hw f hf
    rw [h1] at this
    obtain ⟨x, rfl⟩ := List.length_eq_one_iff.mp this
    simp [repeatFirst]
  · exfalso; omega
  · congr 1
    refine List.map_congr_left fun f hf => ?_
    have := hw f hf
    match f, this with
    | [], h => simp at h; omega
    | [x], h => simp at h; omega
    | x :: y :: t, _ => simp
  · rfl
  · exfalso; omega

example : stereoTrack ⟨3, [[1, 2, 3], [4, 5, 6]], 16000⟩ (2, 0) = some [[3, 1], [6, 4]] := by
  rw [C78_stereo _ _ (by simp)]
  simp [heard, heardChannels]

/-! ## The disk -/

/-- The content of a node. -/
def contentOf : Option Node → Option Bytes
  | some (.file c) => some c
  | _ => none

/-- On the disk `d` the video can be given sound and `out` is the result: `ffmpeg` is there, the
mixture decodes, and `ffmpeg`, applied to the video and the encoded two-channel track, reports success
and writes `out`. -/
def Muxed (w : MuxWorld) (d : Disk) (video mixture : DiskPath) (req : ℤ × ℤ) (out : Bytes) : Prop :=
  w.ffmpegInstalled = true ∧ ∃ mix wave, d mixture = some (.file mix) ∧ w.decode mix = .ok wave ∧
    0 < wave.channels ∧
    w.ffmpeg (contentOf (d video)) (some (w.encode (heard wave req) wave.rate)) = ⟨some out, .ok true⟩

/-- The decoder returns frames of equal length, and `ffmpeg` only reports success after having written
its output. -/
structure SoundWorld (w : MuxWorld) : Prop where
  frames : ∀ b wave, w.decode b = .ok wave → ∀ f ∈ wave.frames, f.length = wave.channels
  writes : ∀ a b, (w.ffmpeg a b).status = .ok true → (w.ffmpeg a b).written.isSome

theorem triple_saveFile {I : Machine → Prop} {p : DiskPath} (hp : Plain p) (h : WriteKeeps I p)
    (c : Bytes) (o : WriteOutcome) :
    Triple I I (saveFile p c o) (fun _ m => I m ∧ m.disk p = some (.file c)) (fun _ => I) := by
  cases o with
  | refuses e => exact Triple.throw fun m hm => hm
  | completes =>
    unfold saveFile
    refine Triple.bind (triple_openWrite (segs := p) (by rwa [resolve_plain hp])) fun q => ?_
    rw [resolve_plain hp]
    intro m hm
    obtain ⟨rfl, h1, h2⟩ := hm
    exact (triple_append h c []).mono (fun _ h => h) (fun _ h => h) (fun _ _ h => by simpa using h)
      (fun _ _ h => h.elim) m ⟨h1, h2⟩
  | breaks k e =>
    unfold saveFile
    refine Triple.bind (triple_openWrite (segs := p) (by rwa [resolve_plain hp])) fun q => ?_
    rw [resolve_plain hp]
    intro m hm
    obtain ⟨rfl, h1, h2⟩ := hm
    have key : Triple I (fun m => I m ∧ m.disk q = some (.file [])) (Prog.bind (appendBytes q [] (c.take k))
        fun _ => Prog.throw (α := Unit) e) (fun _ m => I m ∧ m.disk q = some (.file c)) (fun _ => I) :=
      Triple.bind ((triple_append h (c.take k) []).mono (fun _ h => h) (fun _ h => h) (fun _ _ h => h)
        (fun _ _ h => h.elim)) (fun _ => Triple.throw fun m hm => hm.1)
    exact key m ⟨h1, h2⟩

theorem triple_exitOf {I P : Machine → Prop} (s : Except Exc Bool) {Q : Bool → Machine → Prop}
    {E : Exc → Machine → Prop} (h : ∀ b, s = .ok b → ∀ m, P m → Q b m)
    (h' : ∀ e, s = .error e → ∀ m, P m → E e m) : Triple I P (exitOf s) Q E := by
  cases s with
  | ok b => exact Triple.pure fun m hm => h b rfl m hm
  | error e => exact Triple.throw fun m hm => h' e rfl m hm

theorem triple_runFfmpeg {I : Machine → Prop} {p : DiskPath} (hp : Plain p) (h : WriteKeeps I p)
    (r : FfmpegRun) :
    Triple I I (runFfmpeg p r) (fun b m => I m ∧ (b = true → r.status = .ok true ∧
      ∀ c, r.written = some c → m.disk p = some (.file c))) (fun _ => I) := by
  unfold runFfmpeg
  cases hw : r.written with
  | none =>
    refine triple_exitOf _ (fun b hb m hm => ⟨hm, fun hbt => ⟨by rw [hb, hbt], fun c hc => ?_⟩⟩)
      fun _ _ _ hm => hm
    cases hc
  | some c =>
    refine Triple.bind (R := fun b m => I m ∧ (b = true → m.disk p = some (.file c)))
      (Triple.catchWith (R := fun _ => I)
        (Triple.bind (triple_openWrite (segs := p) (by rwa [resolve_plain hp])) fun q => ?_)
        fun _ => Triple.pure fun m hm => ⟨hm, fun hb => (nomatch hb)⟩) fun b => ?_
    · rw [resolve_plain hp]
      intro m hm
      obtain ⟨rfl, h1, h2⟩ := hm
      have key : Triple I (fun m => I m ∧ m.disk q = some (.file [])) (Prog.bind (appendBytes q [] c)
          fun _ => Prog.pure true) (fun b m => I m ∧ (b = true → m.disk q = some (.file c))) (fun _ => I) :=
        Triple.bind ((triple_append h c []).mono (fun _ h => h) (fun _ h => h) (fun _ _ h => h)
          (fun _ _ h => h.elim)) (fun _ => Triple.pure fun m hm => ⟨hm.1, fun _ => by simpa using hm.2⟩)
      exact key m ⟨h1, h2⟩
    · cases b with
      | false => exact Triple.pure fun m hm => ⟨hm.1, fun hb => (nomatch hb)⟩
      | true =>
        refine triple_exitOf _ (fun b hb m hm => ⟨hm.1, fun hbt => ⟨by rw [hb, hbt], fun c' hc => ?_⟩⟩)
          fun _ _ _ hm => hm.1
        cases hc
        exact hm.2 rfl

/-- The state before the video is replaced: only temporary files differ from the disk `d`. -/
def Untouched (d : Disk) (dir : DiskPath) (name : String) (m : Machine) : Prop :=
  ∀ q, q ≠ tmpAudio dir name → q ≠ tmpVideo dir name → m.disk q = d q

/-- Everything but temporary files and the video is as on the disk `d`, and the video is as on `d`
or a finished output. -/
def Intact (w : MuxWorld) (d : Disk) (dir : DiskPath) (name : String) (mixture : DiskPath) (req : ℤ × ℤ)
    (d' : Disk) : Prop :=
  (∀ q, q ≠ dir ++ [name] → q ≠ tmpAudio dir name → q ≠ tmpVideo dir name → d' q = d q) ∧
  (d' (dir ++ [name]) = d (dir ++ [name]) ∨
    ∃ out, Muxed w d (dir ++ [name]) mixture req out ∧ d' (dir ++ [name]) = some (.file out))

theorem Untouched.intact {w : MuxWorld} {d : Disk} {dir : DiskPath} {name : String} {mixture : DiskPath}
    {req : ℤ × ℤ} {m : Machine} (h : Untouched d dir name m) : Intact w d dir name mixture req m.disk :=
  ⟨fun q _ h1 h2 => h q h1 h2, Or.inl (h _ (tmpAudio_ne dir name).symm (tmpVideo_ne dir name).symm)⟩

theorem contentAt_plain {p : DiskPath} (hp : Plain p) {m : Machine}
    (h : ∀ q, q <+: p → q ≠ p → m.disk q = some .dir) : contentAt p m = contentOf (m.disk p) := by
  unfold contentAt nodeAt
  rw [lookup_plain hp h, Option.bind_some]
  cases m.disk p with
  | none => rfl
  | some n => cases n <;> rfl

/-- Proper prefixes of files beside the video are prefixes of its directory. -/
theorem prefix_beside {dir q : DiskPath} {s : String} (h : q <+: dir ++ [s]) (hne : q ≠ dir ++ [s]) :
    q <+: dir := by
  have := prefix_dropLast h hne
  rwa [List.dropLast_concat] at this

theorem prefix_ne_beside {dir q : DiskPath} (s : String) (h : q <+: dir) : q ≠ dir ++ [s] := by
  rintro rfl
  have := h.length_le
  simp at this

theorem Untouched.dirs {d : Disk} {dir : DiskPath} {name : String} {m : Machine}
    (h : Untouched d dir name m) (hd : ∀ q, q <+: dir → d q = some .dir) (s : String) :
    ∀ q, q <+: dir ++ [s] → q ≠ dir ++ [s] → m.disk q = some .dir := by
  intro q hq hne
  have hq := prefix_beside hq hne
  rw [h q (prefix_ne_beside _ hq) (prefix_ne_beside _ hq)]
  exact hd q hq

theorem intact_muxTrack {w : MuxWorld} (hw : SoundWorld w) {dir : DiskPath} {name : String}
    (hp : Plain (dir ++ [name])) {mixture : DiskPath} {req : ℤ × ℤ} {d : Disk}
    (hd : ∀ q, q <+: dir → d q = some .dir) {mix : Bytes} {wave : Wave}
    (hi : w.ffmpegInstalled = true) (hmix : d mixture = some (.file mix)) (hdec : w.decode mix = .ok wave)
    (hch : 0 < wave.channels) :
    Triple (fun m => Intact w d dir name mixture req m.disk) (Untouched d dir name)
      (muxTrack w dir name (heard wave req) wave.rate)
      (fun _ m => Intact w d dir name mixture req m.disk)
      (fun _ m => Intact w d dir name mixture req m.disk) := by
  have hpA : Plain (tmpAudio dir name) := besideVideo_plain _ hp (by decide)
  have hpB : Plain (tmpVideo dir name) := besideVideo_plain _ hp (by decide)
  have hVA := tmpAudio_ne dir name
  have hVB := tmpVideo_ne dir name
  have hBA := tmpVideo_ne_tmpAudio dir name
  set A := tmpAudio dir name with hA
  set B := tmpVideo dir name with hB
  set a := w.encode (heard wave req) wave.rate with ha
  have hwA : WriteKeeps (Untouched d dir name) A := by
    intro m c hm _ q h1 h2
    dsimp only
    rw [put_ne _ _ h1]
    exact hm q h1 h2
  have hwB : WriteKeeps (fun m => Untouched d dir name m ∧ m.disk A = some (.file a)) B := by
    intro m c hm _
    refine ⟨fun q h1 h2 => ?_, ?_⟩
    · dsimp only
      rw [put_ne _ _ h2]
      exact hm.1 q h1 h2
    · dsimp only
      rw [put_ne _ _ hBA.symm]
      exact hm.2
  unfold muxTrack
  rw [← hA, ← hB, ← ha]
  refine Triple.bind ((triple_saveFile hpA hwA a w.saving).mono (fun m h => Untouched.intact h)
    (fun _ h => h) (fun _ _ h => h) fun _ m h => Untouched.intact h) fun _ => ?_
  refine Triple.bind (R := fun r m => (Untouched d dir name m ∧ m.disk A = some (.file a)) ∧
    r = w.ffmpeg (contentOf (d (dir ++ [name]))) (some a)) (Triple.look ?_ ?_) fun r => ?_
  · intro m r hm hr
    refine ⟨hm, ?_⟩
    cases hr
    rw [contentAt_plain hp (hm.1.dirs hd name), contentAt_plain hpA (hm.1.dirs hd _), hm.2,
      hm.1 _ hVA.symm hVB.symm]
    rfl
  · intro m e _ he
    cases he
  refine Triple.bind (R := fun b m => Untouched d dir name m ∧ (b = true → ∃ out,
      Muxed w d (dir ++ [name]) mixture req out ∧ m.disk B = some (.file out))) ?_ fun b => ?_
  · intro m hm
    obtain ⟨h1, rfl⟩ := hm
    refine Triple.mono (Q' := fun b m => Untouched d dir name m ∧ (b = true → ∃ out,
      Muxed w d (dir ++ [name]) mixture req out ∧ m.disk B = some (.file out)))
      (E' := fun _ m => Intact w d dir name mixture req m.disk)
      (I' := fun m => Intact w d dir name mixture req m.disk)
      (triple_runFfmpeg hpB hwB (w.ffmpeg (contentOf (d (dir ++ [name]))) (some a)))
      (fun m h => Untouched.intact h.1) (fun _ h => h)
      (fun b m h => ⟨h.1.1, fun hb => ?_⟩) (fun _ m h => Untouched.intact h.1) m h1
    obtain ⟨hs, hc⟩ := h.2 hb
    obtain ⟨out, ho⟩ := Option.isSome_iff_exists.mp (hw.writes _ _ hs)
    refine ⟨out, ⟨hi, mix, wave, hmix, hdec, hch, ?_⟩, hc out ho⟩
    rw [← ha, ← hs, ← ho]
  refine Triple.bind (R := fun _ m => Intact w d dir name mixture req m.disk) ?_ fun _ => ?_
  · cases b with
    | false =>
      rw [if_neg Bool.false_ne_true]
      exact Triple.pure fun m hm => Untouched.intact hm.1
    | true =>
      rw [if_pos rfl]
      refine triple_replaceFile (I := fun m => Intact w d dir name mixture req m.disk)
        (fun m hm => Untouched.intact hm.1) ?_
      rw [resolve_plain hpB, resolve_plain hp]
      intro m c hm hc _
      obtain ⟨out, h1, h2⟩ := hm.2 rfl
      rw [h2] at hc
      cases hc
      refine ⟨fun q hq hqA hqB => ?_, Or.inr ⟨_, h1, ?_⟩⟩
      · dsimp only
        rw [put_ne _ _ hqB, put_ne _ _ hq]
        exact hm.1 q hqA hqB
      · dsimp only
        rw [put_ne _ _ hVB.symm, put_self]
  have hk : ∀ p : DiskPath, Plain p → (p = A ∨ p = B) →
      Keeps (fun m => Intact w d dir name mixture req m.disk) (Prog.whenState (pathExists p) (unlink p)) := by
    intro p hpp hAB
    refine Keeps.whenState (triple_unlink ?_)
    rw [resolve_plain hpp]
    intro m hm
    have hVp : dir ++ [name] ≠ p := by
      rcases hAB with rfl | rfl
      · exact hVA.symm
      · exact hVB.symm
    refine ⟨fun q hq hqA hqB => ?_, ?_⟩
    · dsimp only
      rw [put_ne _ _ (by rcases hAB with rfl | rfl <;> assumption)]
      exact hm.1 q hq hqA hqB
    · dsimp only
      rw [put_ne _ _ hVp]
      exact hm.2
  exact Keeps.bind (hk A hpA (Or.inl rfl)) fun _ => hk B hpB (Or.inr rfl)

theorem node_of_read {m : Machine} {p : DiskPath} (hp : Plain p) {c : Bytes}
    (h : nodeAt m.disk p = some (.file c)) : m.disk p = some (.file c) := by
  unfold nodeAt at h
  cases hl : lookup m.disk [] p with
  | none => rw [hl] at h; cases h
  | some r =>
    obtain rfl := lookup_resolve hl
    rw [hl, Option.bind_some, resolve_plain hp] at h
    exact h

theorem intact_addStereoAudio {w : MuxWorld} (hw : SoundWorld w) {dir : DiskPath} {name : String}
    (hp : Plain (dir ++ [name])) {mixture : DiskPath} (hpm : Plain mixture) (req : ℤ × ℤ) (m : Machine) :
    Triple (fun x => Intact w m.disk dir name mixture req x.disk) (fun x => x = m)
      (addStereoAudio w dir name mixture req)
      (fun _ x => Intact w m.disk dir name mixture req x.disk)
      (fun _ x => Intact w m.disk dir name mixture req x.disk) := by
  have h0 : Untouched m.disk dir name m := fun _ _ _ => rfl
  unfold addStereoAudio
  refine Triple.whenState ?_ ?_
  · refine Triple.bind (R := fun b x => x = m ∧ pathExists (dir ++ [name]) m = true ∧
      w.ffmpegInstalled = true ∧ m.disk mixture = some (.file b)) (Triple.look ?_ ?_) fun b => ?_
    · rintro _ b ⟨rfl, hc⟩ hb
      simp only [Bool.and_eq_true] at hc
      refine ⟨rfl, hc.1.1, hc.2, node_of_read hpm ?_⟩
      split at hb
      · cases hb
        assumption
      · cases hb
    · rintro _ e ⟨rfl, _⟩ _
      exact Untouched.intact h0
    refine Triple.bind (R := fun wave x => (x = m ∧ pathExists (dir ++ [name]) m = true ∧
      w.ffmpegInstalled = true ∧ m.disk mixture = some (.file b)) ∧ w.decode b = .ok wave)
      (Triple.look (fun x wave hx hwv => ⟨hx, hwv⟩) ?_) fun wave => ?_
    · rintro _ e ⟨rfl, _⟩ _
      exact Untouched.intact h0
    unfold muxWave
    intro x hx
    obtain ⟨⟨rfl, hv, hi, hmix⟩, hdec⟩ := hx
    rw [C78_stereo wave req (hw.frames b wave hdec)]
    split_ifs with hch
    · exact ⟨fun _ h => (nomatch h), fun _ _ => Untouched.intact h0, fun _ h => (nomatch h)⟩
    · dsimp only
      refine intact_muxTrack hw hp (fun q hq => ?_) hi hmix hdec (by omega) x h0
      exact (exists_dirs hp hv).1 q (hq.trans (List.prefix_append _ _)) (prefix_ne_beside _ hq)
  · rintro _ rfl _
    exact Untouched.intact h0

/-- **C78, the video survives.** At every moment of the call, whatever the decoder, the encoder and
`ffmpeg` do and wherever the process is killed: the video is the old file or the complete output of a
successful `ffmpeg` run on the old file and the two-channel track, and no path other than the video
and the two temporary names has changed. -/
theorem C78_video_intact (w : MuxWorld) (hw : SoundWorld w) (dir : DiskPath) (name : String)
    (hp : Plain (dir ++ [name])) (mixture : DiskPath) (hpm : Plain mixture) (req : ℤ × ℤ) (m : Machine)
    (d : Disk) (hd : Seen (addStereoAudio w dir name mixture req m) d) :
    (d (dir ++ [name]) = m.disk (dir ++ [name]) ∨
      ∃ out, Muxed w m.disk (dir ++ [name]) mixture req out ∧ d (dir ++ [name]) = some (.file out)) ∧
    ∀ q, q ≠ dir ++ [name] → q ≠ tmpAudio dir name → q ≠ tmpVideo dir name → d q = m.disk q := by
  obtain ⟨h1, h2, h3⟩ := intact_addStereoAudio hw hp hpm req m m rfl
  have : Intact w m.disk dir name mixture req d := by
    rcases hd with ⟨x, hx, rfl⟩ | rfl
    · exact h1 x hx
    · cases hr : (addStereoAudio w dir name mixture req m).result with
      | ok a => exact h2 a hr
      | error e => exact h3 e hr
  exact ⟨this.2, this.1⟩

/-! ## Runs that finish -/

/-- From the disk `d` the program ends with the result `r` and the disk `d'`. -/
def Ends {α : Type} (p : Prog α) (d : Disk) (r : Except Exc α) (d' : Disk) : Prop :=
  ∀ m : Machine, m.disk = d → (p m).result = r ∧ (p m).last.disk = d'

theorem Ends.bind {α β : Type} {p : Prog α} {f : α → Prog β} {d d' d'' : Disk} {a : α} {r : Except Exc β}
    (h : Ends p d (.ok a) d') (h' : Ends (f a) d' r d'') : Ends (Prog.bind p f) d r d'' := by
  intro m hm
  obtain ⟨h1, h2⟩ := h m hm
  unfold Prog.bind
  rw [h1]
  exact h' _ h2

theorem Ends.pure {α : Type} (a : α) (d : Disk) : Ends (Prog.pure a) d (.ok a) d := fun _ hm => ⟨rfl, hm⟩

theorem Ends.throw {α : Type} (e : Exc) (d : Disk) : Ends (Prog.throw (α := α) e) d (.error e) d :=
  fun _ hm => ⟨rfl, hm⟩

theorem ends_openWrite {p : DiskPath} (hp : Plain p) {d : Disk}
    (h : ∀ q, q <+: p → q ≠ p → d q = some .dir) (hn : d p ≠ some .dir) :
    Ends (openWrite p) d (.ok p) (d.put p (some (.file []))) := by
  rintro m rfl
  unfold openWrite
  rw [lookup_plain hp h]
  dsimp only
  cases hx : m.disk p with
  | none => exact ⟨rfl, rfl⟩
  | some n =>
    cases n with
    | dir => exact absurd hx hn
    | file c => exact ⟨rfl, rfl⟩

theorem put_put (d : Disk) (p : DiskPath) (a b : Option Node) : (d.put p a).put p b = d.put p b := by
  funext q
  unfold Disk.put
  split_ifs <;> rfl

theorem ends_append {p : DiskPath} (d : Disk) : ∀ (c old : Bytes),
    Ends (appendBytes p old c) (d.put p (some (.file old))) (.ok ()) (d.put p (some (.file (old ++ c))))
  | [], old => by
    rw [List.append_nil]
    exact Ends.pure () _
  | b :: c, old => by
    unfold appendBytes
    refine Ends.bind (d' := d.put p (some (.file (old ++ [b])))) (a := ()) ?_ ?_
    · rintro m hm
      refine ⟨rfl, ?_⟩
      show m.disk.put p _ = _
      rw [hm, put_put]
    · have := ends_append (p := p) d c (old ++ [b])
      rwa [List.append_assoc] at this

theorem ends_unlink {p : DiskPath} (hp : Plain p) {d : Disk}
    (h : ∀ q, q <+: p → q ≠ p → d q = some .dir) (hn : d p ≠ some .dir) :
    Ends (Prog.whenState (pathExists p) (unlink p)) d (.ok ()) (d.put p none) := by
  rintro m rfl
  unfold Prog.whenState
  rw [pathExists_of hp h]
  cases hx : m.disk p with
  | none =>
    refine ⟨rfl, ?_⟩
    show m.disk = _
    funext q
    by_cases hq : q = p
    · rw [hq, put_self, hx]
    · rw [put_ne _ _ hq]
  | some n =>
    cases n with
    | dir => exact absurd hx hn
    | file c =>
      rw [Option.isSome_some, if_pos rfl]
      unfold unlink
      rw [lookup_plain hp h]
      dsimp only
      rw [hx]
      exact ⟨rfl, rfl⟩

theorem ends_replaceFile {p q : DiskPath} (hp : Plain p) (hq : Plain q) {d : Disk}
    (h : ∀ r, r <+: p → r ≠ p → d r = some .dir) (h' : ∀ r, r <+: q → r ≠ q → d r = some .dir)
    {c c' : Bytes} (hc : d p = some (.file c)) (hc' : d q = some (.file c')) :
    Ends (replaceFile p q) d (.ok ()) ((d.put q (some (.file c))).put p none) := by
  rintro m rfl
  unfold replaceFile
  rw [lookup_plain hp h, lookup_plain hq h']
  dsimp only
  rw [hc, hc']
  exact ⟨rfl, rfl⟩

/-- The setting of an ordinary call: video and mixture are files in existing directories, nothing but
files stand at the temporary names, `ffmpeg` is installed and the mixture decodes. -/
structure Ready (w : MuxWorld) (d : Disk) (dir : DiskPath) (name : String) (mixture : DiskPath)
    (video mix : Bytes) (wave : Wave) : Prop where
  plain : Plain (dir ++ [name])
  plainMix : Plain mixture
  dirs : ∀ q, q <+: dir → d q = some .dir
  dirsMix : ∀ q, q <+: mixture → q ≠ mixture → d q = some .dir
  isVideo : d (dir ++ [name]) = some (.file video)
  isMix : d mixture = some (.file mix)
  noDirA : d (tmpAudio dir name) ≠ some .dir
  noDirB : d (tmpVideo dir name) ≠ some .dir
  installed : w.ffmpegInstalled = true
  decodes : w.decode mix = .ok wave
  channels : 0 < wave.channels

theorem dirs_put {d : Disk} {dir : DiskPath} (h : ∀ q, q <+: dir → d q = some .dir) (s : String)
    (n : Option Node) : ∀ q, q <+: dir → d.put (dir ++ [s]) n q = some .dir := by
  intro q hq
  rw [put_ne _ _ (prefix_ne_beside s hq)]
  exact h q hq

theorem dirs_beside {d : Disk} {dir : DiskPath} (h : ∀ q, q <+: dir → d q = some .dir) (s : String) :
    ∀ q, q <+: dir ++ [s] → q ≠ dir ++ [s] → d q = some .dir :=
  fun q hq hne => h q (prefix_beside hq hne)

theorem ends_addStereoAudio {w : MuxWorld} (hw : SoundWorld w) {d : Disk} {dir : DiskPath} {name : String}
    {mixture : DiskPath} {video mix : Bytes} {wave : Wave} (h : Ready w d dir name mixture video mix wave)
    (req : ℤ × ℤ) {r : Except Exc Unit} {d' : Disk}
    (ht : Ends (muxTrack w dir name (heard wave req) wave.rate) d r d') :
    Ends (addStereoAudio w dir name mixture req) d r d' := by
  rintro m rfl
  unfold addStereoAudio Prog.whenState
  have hlm := lookup_plain h.plainMix h.dirsMix
  have hlv := lookup_plain h.plain (dirs_beside h.dirs name)
  have hm : pathExists mixture m = true := by
    unfold pathExists nodeAt
    rw [hlm, Option.bind_some, h.isMix]
    rfl
  have hv : pathExists (dir ++ [name]) m = true := by
    unfold pathExists nodeAt
    rw [hlv, Option.bind_some, h.isVideo]
    rfl
  rw [if_pos (by dsimp only; rw [hm, hv, h.installed]; rfl)]
  refine Ends.bind (d' := m.disk) (a := mix) ?_ (Ends.bind (d' := m.disk) (a := wave) ?_ ?_) m rfl
  · intro x hx
    refine ⟨?_, hx⟩
    show (match nodeAt x.disk mixture with | some (.file c) => _ | _ => _) = _
    unfold nodeAt
    rw [hx, hlm, Option.bind_some, h.isMix]
  · exact fun x hx => ⟨h.decodes, hx⟩
  · unfold muxWave
    rw [C78_stereo wave req (hw.frames mix wave h.decodes), if_neg h.channels.ne']
    exact ht

/-- **C78, result.** In an ordinary call where saving the track succeeds and `ffmpeg` returns, the call
returns and removes both temporary files; the video is the output of `ffmpeg` if that reported
success, and the old video otherwise. -/
theorem C78_muxes (w : MuxWorld) (hw : SoundWorld w) (dir : DiskPath) (name : String)
    (mixture : DiskPath) (req : ℤ × ℤ) (m : Machine) (video mix : Bytes) (wave : Wave)
    (h : Ready w m.disk dir name mixture video mix wave) (hs : w.saving = .completes) (done : Bool)
    (hf : (w.ffmpeg (some video) (some (w.encode (heard wave req) wave.rate))).status = .ok done) :
    (addStereoAudio w dir name mixture req m).result = .ok () ∧
    (addStereoAudio w dir name mixture req m).last.disk (tmpAudio dir name) = none ∧
    (addStereoAudio w dir name mixture req m).last.disk (tmpVideo dir name) = none ∧
    (addStereoAudio w dir name mixture req m).last.disk (dir ++ [name]) =
      some (.file (if done then
        ((w.ffmpeg (some video) (some (w.encode (heard wave req) wave.rate))).written.getD []) else video)) := by
  have hpA : Plain (tmpAudio dir name) := besideVideo_plain _ h.plain (by decide)
  have hpB : Plain (tmpVideo dir name) := besideVideo_plain _ h.plain (by decide)
  have hVA := tmpAudio_ne dir name
  have hVB := tmpVideo_ne dir name
  have hBA := tmpVideo_ne_tmpAudio dir name
  have hput : ∀ (d : Disk) (n : Option Node), (∀ q, q <+: dir → d q = some .dir) →
      ∀ p, (p = tmpAudio dir name ∨ p = tmpVideo dir name ∨ p = dir ++ [name]) →
      ∀ q, q <+: dir → d.put p n q = some .dir := by
    rintro d n hd p (rfl | rfl | rfl)
    · exact dirs_put hd _ n
    · exact dirs_put hd _ n
    · exact dirs_put hd _ n
  have hbeA : ∀ {d : Disk}, (∀ q, q <+: dir → d q = some .dir) →
      ∀ q, q <+: tmpAudio dir name → q ≠ tmpAudio dir name → d q = some .dir :=
    fun hd => dirs_beside hd _
  have hbeB : ∀ {d : Disk}, (∀ q, q <+: dir → d q = some .dir) →
      ∀ q, q <+: tmpVideo dir name → q ≠ tmpVideo dir name → d q = some .dir :=
    fun hd => dirs_beside hd _
  have hnA := h.noDirA
  have hnB := h.noDirB
  generalize hA : tmpAudio dir name = A at *
  generalize hB : tmpVideo dir name = B at *
  generalize ha : w.encode (heard wave req) wave.rate = a at *
  generalize hr : w.ffmpeg (some video) (some a) = run at *
  set d1 := m.disk.put A (some (.file a)) with hd1
  have hd1d := hput m.disk (some (.file a)) h.dirs A (Or.inl rfl)
  rw [← hd1] at hd1d
  have hd1V : d1 (dir ++ [name]) = some (.file video) := by rw [hd1, put_ne _ _ hVA.symm, h.isVideo]
  have hd1A : d1 A = some (.file a) := put_self _ _ _
  have hd1B : d1 B ≠ some .dir := by rw [hd1, put_ne _ _ hBA]; exact hnB
  have e1 : Ends (saveFile A a w.saving) m.disk (.ok ()) d1 := by
    rw [hs]
    exact Ends.bind (ends_openWrite hpA (hbeA h.dirs) hnA) (ends_append m.disk a [])
  have e2 : Ends (Prog.look fun x => .ok (w.ffmpeg (contentAt (dir ++ [name]) x) (contentAt A x))) d1
      (.ok run) d1 := by
    intro x hx
    refine ⟨?_, hx⟩
    show Except.ok _ = Except.ok _
    rw [contentAt_plain h.plain (by rw [hx]; exact dirs_beside hd1d name),
      contentAt_plain hpA (by rw [hx]; exact hbeA hd1d), hx, hd1V, hd1A]
    exact congrArg _ hr
  -- the disk after `ffmpeg`
  obtain ⟨d2, e3, hd2d, hd2V, hd2A, hd2B, hout⟩ : ∃ d2, Ends (runFfmpeg B run) d1 (.ok done) d2 ∧
      (∀ q, q <+: dir → d2 q = some .dir) ∧ d2 (dir ++ [name]) = some (.file video) ∧
      d2 A = some (.file a) ∧ d2 B ≠ some .dir ∧
      (done = true → d2 B = some (.file (run.written.getD []))) := by
    unfold runFfmpeg
    cases hwr : run.written with
    | none =>
      refine ⟨d1, ?_, hd1d, hd1V, hd1A, hd1B, fun hdn => ?_⟩
      · dsimp only
        rw [hf]
        exact Ends.pure _ _
      · have := hw.writes (some video) (some a)
        rw [hr, hf, hdn, hwr] at this
        cases this rfl
    | some c =>
      refine ⟨d1.put B (some (.file c)), ?_, hput d1 _ hd1d B (Or.inr (Or.inl rfl)), ?_, ?_, ?_, fun _ => ?_⟩
      · refine Ends.bind (a := true) (d' := d1.put B (some (.file c))) ?_ ?_
        · intro x hx
          have : Ends (Prog.bind (openWrite B) fun p => Prog.bind (appendBytes p [] c) fun _ => Prog.pure true)
              d1 (.ok true) (d1.put B (some (.file c))) :=
            Ends.bind (ends_openWrite hpB (hbeB hd1d) hd1B)
              (Ends.bind (ends_append d1 c []) (Ends.pure true _))
          obtain ⟨h1, h2⟩ := this x hx
          unfold Prog.catchWith
          rw [h1]
          exact ⟨rfl, h2⟩
        · rw [if_pos rfl, hf]
          exact Ends.pure _ _
      · rw [put_ne _ _ hVB.symm, hd1V]
      · rw [put_ne _ _ hBA.symm, hd1A]
      · rw [put_self]; exact fun h => (nomatch h)
      · rw [put_self]; rfl
  -- the disk after the replacement
  obtain ⟨d3, e4, hd3d, hd3V, hd3A, hd3B⟩ : ∃ d3,
      Ends (if done then replaceFile B (dir ++ [name]) else Prog.pure ()) d2 (.ok ()) d3 ∧
      (∀ q, q <+: dir → d3 q = some .dir) ∧
      d3 (dir ++ [name]) = some (.file (if done then run.written.getD [] else video)) ∧
      d3 A ≠ some .dir ∧ d3 B ≠ some .dir := by
    cases done with
    | false => exact ⟨d2, Ends.pure _ _, hd2d, hd2V, by rw [hd2A]; exact fun h => (nomatch h), hd2B⟩
    | true =>
      refine ⟨_, ends_replaceFile hpB h.plain (hbeB hd2d) (dirs_beside hd2d name) (hout rfl) hd2V,
        hput _ _ (hput _ _ hd2d _ (Or.inr (Or.inr rfl))) _ (Or.inr (Or.inl rfl)), ?_, ?_, ?_⟩
      · rw [put_ne _ _ hVB.symm, put_self]; rfl
      · rw [put_ne _ _ hBA.symm, put_ne _ _ hVA, hd2A]; exact fun h => (nomatch h)
      · rw [put_self]; exact fun h => (nomatch h)
  have e5 := ends_unlink hpA (hbeA hd3d) hd3A
  have hd4d := hput d3 none hd3d A (Or.inl rfl)
  have e6 := ends_unlink hpB (hbeB hd4d) (by rw [put_ne _ _ hBA]; exact hd3B)
  have key : Ends (muxTrack w dir name (heard wave req) wave.rate) m.disk (.ok ())
      ((d3.put A none).put B none) := by
    unfold muxTrack
    rw [hA, hB, ha]
    exact Ends.bind e1 (Ends.bind e2 (Ends.bind e3 (Ends.bind e4 (Ends.bind e5 e6))))
  obtain ⟨k1, k2⟩ := ends_addStereoAudio hw h req key m rfl
  rw [k2]
  refine ⟨k1, ?_, put_self _ _ _, ?_⟩
  · rw [put_ne _ _ hBA.symm, put_self]
  · rw [put_ne _ _ hVB.symm, put_ne _ _ hVA.symm, hd3V]

/-- **C78, nothing to do.** Without video, mixture or `ffmpeg` the call returns without touching the
disk. -/
theorem C78_skips (w : MuxWorld) (dir : DiskPath) (name : String) (hp : Plain (dir ++ [name]))
    (mixture : DiskPath) (hpm : Plain mixture) (req : ℤ × ℤ) (m : Machine)
    (h : m.disk (dir ++ [name]) = none ∨ m.disk mixture = none ∨ w.ffmpegInstalled = false) :
    (addStereoAudio w dir name mixture req m).result = .ok () ∧
    (addStereoAudio w dir name mixture req m).trace = [] ∧
    (addStereoAudio w dir name mixture req m).last = m := by
  unfold addStereoAudio Prog.whenState
  rw [if_neg]
  · exact ⟨rfl, rfl, rfl⟩
  · simp only [Bool.and_eq_true, not_and]
    intro hv hi
    rcases h with h | h | h
    · have := (exists_dirs hp hv.1).2
      rw [h] at this
      cases this
    · have := (exists_dirs hpm hv.2).2
      rw [h] at this
      cases this
    · rw [hi] at h
      cases h

/-- **C78, temporary files: fails.** When writing the temporary track breaks off with an exception, the
exception leaves the call and the beginning of the track stays on disk; the video is still there. -/
theorem C78_leftover_fails (w : MuxWorld) (hw : SoundWorld w) (dir : DiskPath) (name : String)
    (mixture : DiskPath) (req : ℤ × ℤ) (m : Machine) (video mix : Bytes) (wave : Wave)
    (h : Ready w m.disk dir name mixture video mix wave) (k : ℕ) (e : Exc) (hs : w.saving = .breaks k e) :
    (addStereoAudio w dir name mixture req m).result = .error e ∧
    (addStereoAudio w dir name mixture req m).last.disk (tmpAudio dir name)
      = some (.file ((w.encode (heard wave req) wave.rate).take k)) ∧
    (addStereoAudio w dir name mixture req m).last.disk (dir ++ [name]) = some (.file video) := by
  have hpA : Plain (tmpAudio dir name) := besideVideo_plain _ h.plain (by decide)
  have key : Ends (muxTrack w dir name (heard wave req) wave.rate) m.disk (.error e)
      (m.disk.put (tmpAudio dir name) (some (.file ((w.encode (heard wave req) wave.rate).take k)))) := by
    have : Ends (saveFile (tmpAudio dir name) (w.encode (heard wave req) wave.rate) w.saving) m.disk
        (.error e)
        (m.disk.put (tmpAudio dir name) (some (.file ((w.encode (heard wave req) wave.rate).take k)))) := by
      rw [hs]
      exact Ends.bind (ends_openWrite hpA (dirs_beside h.dirs _) h.noDirA)
        (Ends.bind (ends_append m.disk _ []) (Ends.throw e _))
    intro x hx
    obtain ⟨h1, h2⟩ := this x hx
    unfold muxTrack Prog.bind
    rw [h1]
    exact ⟨rfl, h2⟩
  obtain ⟨k1, k2⟩ := ends_addStereoAudio hw h req key m rfl
  rw [k2]
  exact ⟨k1, put_self _ _ _, by rw [put_ne _ _ (tmpAudio_ne dir name).symm, h.isVideo]⟩

/-- A disk with a video and a mixture. -/
def muxDisk : Disk := fun p =>
  if p = [] then some .dir
  else if p = ["v.mp4"] then some (.file [1])
  else if p = ["mix.wav"] then some (.file [2])
  else none

/-- A decoder that reads a one-channel mixture, and an `ffmpeg` that succeeds. -/
noncomputable def muxWorld (saving : WriteOutcome) : MuxWorld where
  decode := fun _ => .ok ⟨1, [[1], [2]], 8000⟩
  encode := fun t _ => List.replicate t.length 7
  saving := saving
  ffmpegInstalled := true
  ffmpeg := fun _ _ => ⟨some [9, 9], .ok true⟩

theorem muxWorld_sound (saving : WriteOutcome) : SoundWorld (muxWorld saving) := by
  refine ⟨fun b wave h f hf => ?_, fun _ _ _ => rfl⟩
  cases h
  simp only [List.mem_cons, List.not_mem_nil, or_false] at hf
  rcases hf with rfl | rfl <;> rfl

theorem muxWorld_ready (saving : WriteOutcome) : Ready (muxWorld saving) muxDisk [] "v.mp4" ["mix.wav"] [1] [2]
    ⟨1, [[1], [2]], 8000⟩ where
  plain := by unfold Plain; decide
  plainMix := by unfold Plain; decide
  dirs := fun q hq => by rw [List.prefix_nil.mp hq]; rfl
  dirsMix := fun q hq hne => by
    rw [List.prefix_nil.mp (prefix_beside (dir := []) hq hne)]; rfl
  isVideo := by decide
  isMix := by decide
  noDirA := by decide
  noDirB := by decide
  installed := rfl
  decodes := rfl
  channels := by norm_num

example : (addStereoAudio (muxWorld .completes) [] "v.mp4" ["mix.wav"] (0, 1) ⟨muxDisk, 0⟩).last.disk ["v.mp4"]
    = some (.file [9, 9]) :=
  (C78_muxes (muxWorld .completes) (muxWorld_sound _) [] "v.mp4" ["mix.wav"] (0, 1) ⟨muxDisk, 0⟩ _ _ _
    (muxWorld_ready _) rfl true rfl).2.2.2

example : ∃ e, (addStereoAudio (muxWorld (.breaks 1 (.os "No space left"))) [] "v.mp4" ["mix.wav"] (0, 1)
      ⟨muxDisk, 0⟩).result = .error e ∧
    (addStereoAudio (muxWorld (.breaks 1 (.os "No space left"))) [] "v.mp4" ["mix.wav"] (0, 1)
      ⟨muxDisk, 0⟩).last.disk ["v_tmp_audio.wav"] = some (.file [7]) := by
  have h := C78_leftover_fails (muxWorld (.breaks 1 (.os "No space left"))) (muxWorld_sound _) [] "v.mp4"
    ["mix.wav"] (0, 1) ⟨muxDisk, 0⟩ _ _ _ (muxWorld_ready _) 1 _ rfl
  have e : tmpAudio [] "v.mp4" = ["v_tmp_audio.wav"] := by decide
  rw [e] at h
  exact ⟨_, h.1, h.2.1⟩

end Torchrir.Props
