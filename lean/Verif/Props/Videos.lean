import Verif.Model.Videos
import Verif.Props.Frames
import Verif.Props.Mux

/-! # C121: saving the videos of a scene -/

namespace Torchrir.Props

open Torchrir.Model Torchrir.Spec Torchrir.Lemmas

namespace Videos

/-! ## Specification -/

/-- The video and its two temporary files. -/
def touched (dir : DiskPath) (name : String) : List DiskPath := [dir ++ [name], tmpAudio dir name, tmpVideo dir name]

/-- The disk `d'` differs from `d` only at the paths `S` and in directories made on the way to `dir`. -/
def Same (S : List DiskPath) (dir : DiskPath) (d d' : Disk) : Prop :=
  ∀ q, q ∉ S → d' q = d q ∨ (q <+: dir ∧ d q = none ∧ d' q = some .dir)

/-- `out` is what `ffmpeg` makes of a silent video and the first two channels of the mixture. -/
def Sounding (w : MuxWorld) (silent mix out : Bytes) : Prop :=
  w.ffmpegInstalled = true ∧ ∃ wave, w.decode mix = .ok wave ∧ 0 < wave.channels ∧
    w.ffmpeg (some silent) (some (w.encode (heard wave (0, 1)) wave.rate)) = ⟨some out, .ok true⟩

/-- `c` is the whole video of the frames: silent or, if sound is wanted, with the sound of the mixture on `d`. -/
def Whole (w : VideoWorld) (d : Disk) (name : String) (frames : List Frame × ℤ) (mixture : Option DiskPath)
    (muxAudio : Bool) (c : Bytes) : Prop :=
  c = w.encode frames.1 frames.2 ∨ (muxAudio = true ∧ ∃ p mix, mixture = some p ∧ d p = some (.file mix) ∧
    Sounding (w.mux name) (w.encode frames.1 frames.2) mix c)

/-! ## One video -/

theorem triple_at {α : Type} {I P : Machine → Prop} {p : Prog α} {Q : α → Machine → Prop} {E : Exc → Machine → Prop}
    (h : ∀ m, P m → Triple I (fun x => x = m) p Q E) : Triple I P p Q E := fun m hm => h m hm m rfl

theorem same_refl (S : List DiskPath) (dir : DiskPath) (d : Disk) : Same S dir d d := fun _ _ => Or.inl rfl

theorem same_trans {S : List DiskPath} {dir : DiskPath} {d d' d'' : Disk} (h : Same S dir d d')
    (h' : Same S dir d' d'') : Same S dir d d'' := by
  intro q hq
  rcases h q hq with h1 | ⟨h1, h2, h3⟩ <;> rcases h' q hq with k1 | ⟨k1, k2, k3⟩
  · exact Or.inl (k1.trans h1)
  · exact Or.inr ⟨k1, h1 ▸ k2, k3⟩
  · exact Or.inr ⟨h1, h2, k1.trans h3⟩
  · exact Or.inr ⟨h1, h2, k3⟩

theorem same_mono {S S' : List DiskPath} {dir : DiskPath} {d d' : Disk} (hs : ∀ q ∈ S, q ∈ S')
    (h : Same S dir d d') : Same S' dir d d' := fun q hq => h q fun hq' => hq (hs q hq')

/-- A file that is not at one of the paths is the same before and after. -/
theorem same_file {S : List DiskPath} {dir : DiskPath} {d d' : Disk} (h : Same S dir d d') {p : DiskPath}
    (hp : p ∉ S) {c : Bytes} : d' p = some (.file c) ↔ d p = some (.file c) := by
  rcases h p hp with h | ⟨_, h1, h2⟩
  · rw [h]
  · rw [h1, h2]
    constructor <;> intro h <;> cases h

theorem same_makedirs {S : List DiskPath} {dir : DiskPath} (hp : Plain dir) (d : Disk) :
    Keeps (fun m => Same S dir d m.disk) (makedirs dir.reverse) := by
  refine triple_makedirs _ fun pre hpre m hm hn q hq => ?_
  rw [List.reverse_reverse] at hpre
  rw [resolve_plain (hp.of_prefix hpre)] at hn ⊢
  dsimp only
  by_cases he : q = pre
  · subst he
    rw [put_self]
    rcases hm q hq with h | ⟨_, _, h⟩
    · exact Or.inr ⟨hpre, h ▸ hn, rfl⟩
    · rw [hn] at h
      cases h
  · rw [put_ne _ _ he]
    exact hm q hq

theorem same_write {S : List DiskPath} {dir : DiskPath} (d : Disk) {p : DiskPath} (hp : p ∈ S) :
    WriteKeeps (fun m => Same S dir d m.disk) p := by
  intro m c hm _ q hq
  dsimp only
  rw [put_ne _ _ (show q ≠ p from fun h => hq (by rw [h]; exact hp))]
  exact hm q hq

theorem intact_same {w : MuxWorld} {d d' : Disk} {dir : DiskPath} {name : String} {mixture : DiskPath} {req : ℤ × ℤ}
    (h : Intact w d dir name mixture req d') : Same (touched dir name) dir d d' := by
  intro q hq
  simp only [touched, List.mem_cons, List.not_mem_nil, or_false, not_or] at hq
  exact Or.inl (h.1 q hq.1 hq.2.1 hq.2.2)

/-- One call of `animate_scene_mp4`. -/
theorem triple_animate (w : VideoWorld) {dir : DiskPath} {name : String} (hw : SoundWorld (w.mux name))
    (hp : Plain (dir ++ [name])) (shown : Except String (List Frame × ℤ)) (mixture : Option DiskPath)
    (hm : ∀ p, mixture = some p → Plain p ∧ p ∉ touched dir name) (muxAudio : Bool) (d : Disk) :
    Triple (fun x => Same (touched dir name) dir d x.disk) (fun x => Same (touched dir name) dir d x.disk)
      (animateMp4 w dir name shown mixture muxAudio)
      (fun _ x => Same (touched dir name) dir d x.disk ∧ ∃ frames c, shown = .ok frames ∧
        x.disk (dir ++ [name]) = some (.file c) ∧ Whole w d name frames mixture muxAudio c)
      (fun _ x => Same (touched dir name) dir d x.disk) := by
  have hdir : Plain dir := hp.of_prefix (List.prefix_append _ _)
  unfold animateMp4
  refine Triple.bind (R := fun _ x => Same (touched dir name) dir d x.disk) (same_makedirs hdir d) fun _ => ?_
  refine Triple.bind (R := fun f x => Same (touched dir name) dir d x.disk ∧ shown = .ok f)
    (Triple.look ?_ fun _ _ h _ => h) fun f => ?_
  · intro m f h hf
    refine ⟨h, ?_⟩
    cases shown with
    | ok a => cases hf; rfl
    | error e => cases hf
  intro m0 hm0
  obtain ⟨hm0, rfl⟩ := hm0
  have key : Triple (fun x => Same (touched dir name) dir d x.disk) (fun x => Same (touched dir name) dir d x.disk)
      (Prog.bind (saveFile (dir ++ [name]) (w.encode f.1 f.2) (w.saving name)) fun _ =>
        addSound w dir name mixture muxAudio)
      (fun _ x => Same (touched dir name) dir d x.disk ∧ ∃ frames c, Except.ok (ε := String) f = .ok frames ∧
        x.disk (dir ++ [name]) = some (.file c) ∧ Whole w d name frames mixture muxAudio c)
      (fun _ x => Same (touched dir name) dir d x.disk) := by
    refine Triple.bind (triple_saveFile hp (same_write d (by simp [touched])) _ _) fun _ => ?_
    unfold addSound
    cases hmx : mixture with
    | none => exact Triple.pure fun m h => ⟨h.1, f, _, rfl, h.2, Or.inl rfl⟩
    | some p =>
      cases hx : muxAudio with
      | false => exact Triple.pure fun m h => ⟨h.1, f, _, rfl, h.2, Or.inl rfl⟩
      | true =>
        obtain ⟨hpp, hpt⟩ := hm p hmx
        dsimp only
        rw [if_pos rfl]
        refine triple_at fun m ⟨h1, h2⟩ => ?_
        refine (intact_addStereoAudio hw hp hpp (0, 1) m).mono (fun x hx => same_trans h1 (intact_same hx))
          (fun x hx => hx) (fun _ x hx => ⟨same_trans h1 (intact_same hx), f, ?_⟩)
          (fun _ x hx => same_trans h1 (intact_same hx))
        rcases hx.2 with hx | ⟨out, ⟨hi, mix, wave, k1, k2, k3, k4⟩, hx⟩
        · exact ⟨_, rfl, hx.trans h2, Or.inl rfl⟩
        · refine ⟨out, rfl, hx, Or.inr ⟨rfl, p, mix, rfl, (same_file h1 hpt).mp k1, hi, wave, k2, k3, ?_⟩⟩
          rw [h2] at k4
          exact k4
  exact key m0 hm0

/-! ## One after the other -/

/-- What is to be rendered. -/
abbrev View := String × Except String (List Frame × ℤ)

theorem whole_mono {w : VideoWorld} {S : List DiskPath} {dir : DiskPath} {d d' : Disk} (h : Same S dir d d')
    {name : String} {frames : List Frame × ℤ} {mixture : Option DiskPath} (hm : ∀ p, mixture = some p → p ∉ S)
    {muxAudio : Bool} {c : Bytes} (hw : Whole w d' name frames mixture muxAudio c) :
    Whole w d name frames mixture muxAudio c := by
  rcases hw with hw | ⟨h1, p, mix, h2, h3, h4⟩
  · exact Or.inl hw
  · exact Or.inr ⟨h1, p, mix, h2, (same_file h (hm p h2)).mp h3, h4⟩

theorem triple_report (w : VideoWorld) {dir : DiskPath} (hw : ∀ n, SoundWorld (w.mux n)) (hdir : Plain dir)
    (mixture : Option DiskPath) (muxAudio : Bool) : ∀ (views : List View),
    (∀ v ∈ views, v.1 ≠ "." ∧ v.1 ≠ "..") →
    (∀ p, mixture = some p → Plain p ∧ ∀ v ∈ views, p ∉ touched dir v.1) →
    views.Pairwise (fun v v' => dir ++ [v.1] ∉ touched dir v'.1) → ∀ d : Disk,
    Triple (fun x => Same (views.flatMap fun v => touched dir v.1) dir d x.disk)
      (fun x => Same (views.flatMap fun v => touched dir v.1) dir d x.disk)
      (reportEach (views.map fun v => (v.1, animateMp4 w dir v.1 v.2 mixture muxAudio)))
      (fun r x => Same (views.flatMap fun v => touched dir v.1) dir d x.disk ∧
        r.1 <+: views.map Prod.fst ∧ (r.2 = none ↔ r.1 = views.map Prod.fst) ∧
        ∀ v ∈ views, v.1 ∈ r.1 → ∃ frames c, v.2 = .ok frames ∧
          x.disk (dir ++ [v.1]) = some (.file c) ∧ Whole w d v.1 frames mixture muxAudio c)
      (fun _ _ => False)
  | [], _, _, _, d => by
    refine Triple.pure fun m hm => ⟨hm, List.prefix_rfl, by simp, fun v hv => (nomatch hv)⟩
  | v :: rest, hn, hm, hpw, d => by
    rw [List.pairwise_cons] at hpw
    have hplain : Plain (dir ++ [v.1]) :=
      Plain.append hdir fun s hs => by rw [List.mem_singleton.mp hs]; exact hn v (List.mem_cons_self ..)
    have hmem1 : ∀ q ∈ touched dir v.1, q ∈ (v :: rest).flatMap fun v => touched dir v.1 := fun q hq =>
      List.mem_flatMap.mpr ⟨v, List.mem_cons_self .., hq⟩
    have hmem2 : ∀ q ∈ rest.flatMap (fun v => touched dir v.1), q ∈ (v :: rest).flatMap fun v => touched dir v.1 := by
      intro q hq
      rw [List.flatMap_cons]
      exact List.mem_append_right _ hq
    have hmix : ∀ p, mixture = some p → p ∉ (v :: rest).flatMap fun v => touched dir v.1 := by
      intro p hp hq
      obtain ⟨v', hv', hq⟩ := List.mem_flatMap.mp hq
      exact (hm p hp).2 v' hv' hq
    generalize hS : ((v :: rest).flatMap fun v => touched dir v.1) = S at *
    show Triple _ _ (Prog.catchWith _ _) _ _
    refine Triple.catchWith (R := fun _ x => Same S dir d x.disk) ?_ fun e => Triple.pure fun x hx =>
      ⟨hx, List.nil_prefix, by simp, fun v _ hv => (nomatch hv)⟩
    refine triple_at fun m hmS => ?_
    refine Triple.bind
      (R := fun _ x => Same (touched dir v.1) dir m.disk x.disk ∧ ∃ frames c, v.2 = .ok frames ∧
        x.disk (dir ++ [v.1]) = some (.file c) ∧ Whole w m.disk v.1 frames mixture muxAudio c)
      ((triple_animate w (hw _) hplain v.2 mixture
        (fun p hp => ⟨(hm p hp).1, (hm p hp).2 v (List.mem_cons_self ..)⟩) muxAudio m.disk).mono
        (fun x hx => same_trans hmS (same_mono hmem1 hx)) (fun x hx => by rw [hx]; exact same_refl _ _ _)
        (fun _ _ h => h) fun _ x hx => same_trans hmS (same_mono hmem1 hx)) (fun _ => ?_)
    refine triple_at fun x ⟨hx, frames, c, hf, hc, hwh⟩ => ?_
    have hxS : Same S dir d x.disk := same_trans hmS (same_mono hmem1 hx)
    have hrest := triple_report w hw hdir mixture muxAudio rest (fun v hv => hn v (List.mem_cons_of_mem _ hv))
      (fun p hp => ⟨(hm p hp).1, fun v hv => (hm p hp).2 v (List.mem_cons_of_mem _ hv)⟩) hpw.2 x.disk
    refine Triple.bind
      (hrest.mono (fun y hy => same_trans hxS (same_mono hmem2 hy))
        (fun y hy => by rw [hy]; exact same_refl _ _ _) (fun _ _ h => h) fun _ _ h => h.elim)
      (fun r => Triple.pure fun y ⟨h1, h2, h3, h4⟩ => ?_)
    refine ⟨same_trans hxS (same_mono hmem2 h1), ?_, ?_, ?_⟩
    · rw [List.map_cons]
      exact List.cons_prefix_cons.mpr ⟨rfl, h2⟩
    · rw [List.map_cons, List.cons.injEq]
      exact h3.trans ⟨fun h => ⟨rfl, h⟩, fun h => h.2⟩
    · have hfirst : ∃ c, y.disk (dir ++ [v.1]) = some (.file c) ∧ Whole w d v.1 frames mixture muxAudio c := by
        refine ⟨c, (same_file h1 ?_).mpr hc, whole_mono hmS hmix hwh⟩
        intro hq
        obtain ⟨v', hv', hq⟩ := List.mem_flatMap.mp hq
        exact hpw.1 v' hv' hq
      intro u hu hur
      rcases List.mem_cons.mp hu with rfl | hu'
      · obtain ⟨c, k1, k2⟩ := hfirst
        exact ⟨frames, c, hf, k1, k2⟩
      · rcases List.mem_cons.mp hur with hvu | hur'
        · exfalso
          exact hpw.1 u hu' (by rw [← hvu]; exact List.mem_cons_self ..)
        · obtain ⟨fr, c', k1, k2, k3⟩ := h4 u hu' hur'
          exact ⟨fr, c', k1, k2, whole_mono hxS hmix k3⟩

/-! ## Runs that finish -/

/-- Nothing stands in the way of a video: the root is there, no file where a directory is wanted and no directory
where a file is wanted. -/
structure Clear (d : Disk) (dir : DiskPath) (name : String) : Prop where
  root : d [] = some .dir
  dirs : ∀ q, q <+: dir → ∀ c, d q ≠ some (.file c)
  files : ∀ q ∈ touched dir name, d q ≠ some .dir

theorem not_prefix_of_touched {dir q : DiskPath} {name : String} (h : q ∈ touched dir name) : ¬ q <+: dir := by
  simp only [touched, List.mem_cons, List.not_mem_nil, or_false] at h
  intro hq
  rcases h with h | h | h <;> exact prefix_ne_beside _ hq h

/-- Up to the sound: the video has been written. -/
theorem animate_written (w : VideoWorld) {dir : DiskPath} {name : String} (hp : Plain (dir ++ [name])) (m : Machine)
    (hc : Clear m.disk dir name) (f : List Frame × ℤ) (hs : w.saving name = .completes)
    (mixture : Option DiskPath) (muxAudio : Bool) :
    ∃ x : Machine, Same [dir ++ [name]] dir m.disk x.disk ∧ (∀ q, q <+: dir → x.disk q = some .dir) ∧
      x.disk (dir ++ [name]) = some (.file (w.encode f.1 f.2)) ∧
      (animateMp4 w dir name (.ok f) mixture muxAudio m).result = (addSound w dir name mixture muxAudio x).result ∧
      (animateMp4 w dir name (.ok f) mixture muxAudio m).last = (addSound w dir name mixture muxAudio x).last := by
  have hdir : Plain dir := hp.of_prefix (List.prefix_append _ _)
  have hV : dir ++ [name] ∈ touched dir name := List.mem_cons_self ..
  have h1 := success_makedirs dir.reverse (fun x => Same [] dir m.disk x.disk) (by rwa [List.reverse_reverse]) (by
    rw [List.reverse_reverse]
    intro q hq x hx hn r hr
    dsimp only
    by_cases he : r = q
    · subst he
      rw [put_self]
      rcases hx r hr with h | ⟨_, _, h⟩
      · exact Or.inr ⟨hq, h ▸ hn, rfl⟩
      · rw [hn] at h
        cases h
    · rw [put_ne _ _ he]
      exact hx r hr) m ⟨same_refl _ _ _, hc.root, by rw [List.reverse_reverse]; exact hc.dirs⟩
  rw [List.reverse_reverse] at h1
  unfold animateMp4
  generalize hr : makedirs dir.reverse m = run at h1
  cases hres : run.result with
  | error e => exact (h1.2.2 e hres).elim
  | ok a =>
    obtain ⟨k1, k2⟩ := h1.2.1 a hres
    have hVd : run.last.disk (dir ++ [name]) ≠ some .dir := by
      rcases k1 (dir ++ [name]) (by simp) with h | ⟨h, _, _⟩
      · rw [h]
        exact hc.files _ hV
      · exact absurd h (not_prefix_of_touched hV)
    have hsave : Ends (saveFile (dir ++ [name]) (w.encode f.1 f.2) (w.saving name)) run.last.disk (.ok ())
        (run.last.disk.put (dir ++ [name]) (some (.file (w.encode f.1 f.2)))) := by
      rw [hs]
      exact Ends.bind (ends_openWrite hp (dirs_beside k2 name) hVd) (ends_append _ _ [])
    obtain ⟨e1, e2⟩ := hsave run.last rfl
    refine ⟨(saveFile (dir ++ [name]) (w.encode f.1 f.2) (w.saving name) run.last).last, ?_, ?_, ?_, ?_, ?_⟩
    · rw [e2]
      intro q hq
      rw [put_ne _ _ (by simpa using hq)]
      exact k1 q (by simp)
    · rw [e2]
      exact dirs_put k2 _ _
    · rw [e2, put_self]
    · unfold Prog.bind
      rw [hr, hres]
      dsimp only [Prog.look, drawn]
      rw [e1]
    · unfold Prog.bind
      rw [hr, hres]
      dsimp only [Prog.look, drawn]
      rw [e1]

/-- A mixture that `soundfile` reads and a world in which adding its sound raises nothing. -/
structure Playable (w : MuxWorld) (d : Disk) (p : DiskPath) (mix : Bytes) (wave : Wave) : Prop where
  plain : Plain p
  dirs : ∀ q, q <+: p → q ≠ p → d q = some .dir
  isFile : d p = some (.file mix)
  installed : w.ffmpegInstalled = true
  decodes : w.decode mix = .ok wave
  channels : 0 < wave.channels

theorem playable_same {w : MuxWorld} {d d' : Disk} {dir p : DiskPath} {S : List DiskPath} {mix : Bytes} {wave : Wave}
    (h : Playable w d p mix wave) (hs : Same S dir d d') (hS : ∀ q ∈ S, d q ≠ some .dir)
    (hp : p ∉ S) : Playable w d' p mix wave where
  plain := h.plain
  dirs := fun q hq hne => by
    have hd := h.dirs q hq hne
    rcases hs q (fun hqS => hS q hqS hd) with k | ⟨_, k, _⟩
    · rw [k, hd]
    · rw [k] at hd
      cases hd
  isFile := (same_file hs hp).mpr h.isFile
  installed := h.installed
  decodes := h.decodes
  channels := h.channels

theorem clear_same {d d' : Disk} {dir : DiskPath} {name : String} {S : List DiskPath} (h : Clear d dir name)
    (hs : Same S dir d d') (hS : ∀ q ∈ S, q ∉ touched dir name ∧ ¬ q <+: dir) : Clear d' dir name where
  root := by
    rcases hs [] (fun hq => (hS _ hq).2 List.nil_prefix) with k | ⟨_, k, _⟩
    · rw [k, h.root]
    · rw [h.root] at k
      cases k
  dirs := fun q hq c => by
    rcases hs q (fun hqS => (hS _ hqS).2 hq) with k | ⟨_, _, k⟩
    · rw [k]
      exact h.dirs q hq c
    · rw [k]
      exact fun h => (nomatch h)
  files := fun q hq => by
    rcases hs q (fun hqS => (hS _ hqS).1 hq) with k | ⟨k, _, _⟩
    · rw [k]
      exact h.files q hq
    · exact absurd k (not_prefix_of_touched hq)

/-- A silent video. -/
theorem animate_silent (w : VideoWorld) {dir : DiskPath} {name : String} (hp : Plain (dir ++ [name])) (m : Machine)
    (hc : Clear m.disk dir name) (f : List Frame × ℤ) (hs : w.saving name = .completes)
    (mixture : Option DiskPath) (muxAudio : Bool) (hq : mixture = none ∨ muxAudio = false) :
    (animateMp4 w dir name (.ok f) mixture muxAudio m).result = .ok () ∧
    (animateMp4 w dir name (.ok f) mixture muxAudio m).last.disk (dir ++ [name])
      = some (.file (w.encode f.1 f.2)) := by
  obtain ⟨x, _, _, h3, h4, h5⟩ := animate_written w hp m hc f hs mixture muxAudio
  have : addSound w dir name mixture muxAudio = Prog.pure () := by
    unfold addSound
    rcases hq with rfl | rfl
    · rfl
    · cases mixture <;> rfl
  rw [h4, h5, this]
  exact ⟨rfl, h3⟩

/-- A video with sound. -/
theorem animate_sound (w : VideoWorld) {dir : DiskPath} {name : String}
    (hp : Plain (dir ++ [name])) (m : Machine) (hc : Clear m.disk dir name) (f : List Frame × ℤ)
    (hs : w.saving name = .completes) (p : DiskPath) (hpt : p ∉ touched dir name) (mix : Bytes) (wave : Wave)
    (h : Playable (w.mux name) m.disk p mix wave) :
    ∃ x : Machine, Same [dir ++ [name]] dir m.disk x.disk ∧
      Ready (w.mux name) x.disk dir name p (w.encode f.1 f.2) mix wave ∧
      (animateMp4 w dir name (.ok f) (some p) true m).result
        = (addStereoAudio (w.mux name) dir name p (0, 1) x).result ∧
      (animateMp4 w dir name (.ok f) (some p) true m).last
        = (addStereoAudio (w.mux name) dir name p (0, 1) x).last := by
  obtain ⟨x, h1, h2, h3, h4, h5⟩ := animate_written w hp m hc f hs (some p) true
  have hV : dir ++ [name] ∈ touched dir name := List.mem_cons_self ..
  have hpl := playable_same h h1 (fun q hq => by
    rw [List.mem_singleton.mp hq]
    exact hc.files _ hV) (fun hq => hpt (by rw [List.mem_singleton.mp hq]; exact hV))
  have htmp : ∀ q ∈ touched dir name, q ≠ dir ++ [name] → x.disk q ≠ some .dir := by
    intro q hq hne
    rcases h1 q (by simpa using hne) with k | ⟨k, _, _⟩
    · rw [k]
      exact hc.files q hq
    · exact absurd k (not_prefix_of_touched hq)
  exact ⟨x, h1, ⟨hp, h.plain, h2, hpl.dirs, h3, hpl.isFile, htmp _ (by simp [touched]) (tmpAudio_ne _ _),
    htmp _ (by simp [touched]) (tmpVideo_ne _ _), h.installed, h.decodes, h.channels⟩, h4, h5⟩

/-! ## The two views -/

theorem touched_2d (dir : DiskPath) : touched dir "room_layout_2d.mp4" = [dir ++ ["room_layout_2d.mp4"],
    dir ++ ["room_layout_2d_tmp_audio.wav"], dir ++ ["room_layout_2d_tmp_mux.mp4"]] := by
  have := (C78_temporary_names dir "room_layout_2d" "mp4" (by decide)).1 (by decide) (by decide)
  have e : "room_layout_2d" ++ "." ++ "mp4" = "room_layout_2d.mp4" := by decide
  rw [e] at this
  unfold touched
  rw [this.1, this.2]
  rfl

theorem touched_3d (dir : DiskPath) : touched dir "room_layout_3d.mp4" = [dir ++ ["room_layout_3d.mp4"],
    dir ++ ["room_layout_3d_tmp_audio.wav"], dir ++ ["room_layout_3d_tmp_mux.mp4"]] := by
  have := (C78_temporary_names dir "room_layout_3d" "mp4" (by decide)).1 (by decide) (by decide)
  have e : "room_layout_3d" ++ "." ++ "mp4" = "room_layout_3d.mp4" := by decide
  rw [e] at this
  unfold touched
  rw [this.1, this.2]
  rfl

theorem touched_disjoint (dir : DiskPath) {q : DiskPath} (h : q ∈ touched dir "room_layout_2d.mp4") :
    q ∉ touched dir "room_layout_3d.mp4" := by
  rw [touched_2d] at h
  rw [touched_3d]
  simp only [List.mem_cons, List.not_mem_nil, or_false] at h ⊢
  rcases h with rfl | rfl | rfl <;> simp

/-- The scene of a call of `save_scene_videos`. -/
structure Call where
  room : Tensor ℝ
  sources : Tensor ℝ
  mics : Tensor ℝ
  srcTraj : Option (Tensor ℝ)
  micTraj : Option (Tensor ℝ)
  signalLen : ℕ
  fs : ℝ
  fps : Option ℝ
  annotate : Bool

/-- The frames seen from above, or those of the room in three dimensions. -/
noncomputable def Call.frames (s : Call) (threeD : Bool) : Except String (List Frame × ℤ) :=
  animateScene s.room s.sources s.mics s.srcTraj s.micTraj 1 s.fps (some s.signalLen) (some s.fs) none (!threeD) threeD
    s.annotate

/-- The call. -/
noncomputable def Call.save (s : Call) (w : VideoWorld) (dir : DiskPath) (save3d : Bool) (mixture : Option DiskPath)
    (muxAudio : Bool) : Prog (List String × Option Exc) :=
  saveSceneVideos w dir s.room s.sources s.mics s.srcTraj s.micTraj s.signalLen s.fs s.fps save3d mixture muxAudio
    s.annotate

/-- The name of a video. -/
def videoName (threeD : Bool) : String := if threeD then "room_layout_3d.mp4" else "room_layout_2d.mp4"

/-- The videos that are wanted: seen from above, and in three dimensions if the room has three and they are wanted. -/
def wanted (s : Call) (save3d : Bool) : List Bool := if s.room.numel = 3 ∧ save3d then [false, true] else [false]

theorem save_eq (s : Call) (w : VideoWorld) (dir : DiskPath) (save3d : Bool) (mixture : Option DiskPath)
    (muxAudio : Bool) : s.save w dir save3d mixture muxAudio =
      reportEach (((wanted s save3d).map fun b => (videoName b, s.frames b)).map fun v =>
        (v.1, animateMp4 w dir v.1 v.2 mixture muxAudio)) := by
  unfold Call.save saveSceneVideos wanted
  split_ifs <;> rfl

theorem wanted_sub (s : Call) (save3d : Bool) : (wanted s save3d).Sublist [false, true] := by
  unfold wanted
  split_ifs <;> simp

theorem triple_save (s : Call) (w : VideoWorld) (hw : ∀ n, SoundWorld (w.mux n)) (dir : DiskPath) (hdir : Plain dir)
    (save3d : Bool) (mixture : Option DiskPath)
    (hm : ∀ p, mixture = some p → Plain p ∧ ∀ b, p ∉ touched dir (videoName b)) (muxAudio : Bool) (d : Disk) :
    Triple (fun x => Same ((wanted s save3d).flatMap fun b => touched dir (videoName b)) dir d x.disk)
      (fun x => Same ((wanted s save3d).flatMap fun b => touched dir (videoName b)) dir d x.disk)
      (s.save w dir save3d mixture muxAudio)
      (fun r x => Same ((wanted s save3d).flatMap fun b => touched dir (videoName b)) dir d x.disk ∧
        r.1 <+: (wanted s save3d).map videoName ∧ (r.2 = none ↔ r.1 = (wanted s save3d).map videoName) ∧
        ∀ b ∈ wanted s save3d, videoName b ∈ r.1 → ∃ frames c, s.frames b = .ok frames ∧
          x.disk (dir ++ [videoName b]) = some (.file c) ∧ Whole w d (videoName b) frames mixture muxAudio c)
      (fun _ _ => False) := by
  rw [save_eq, List.map_map]
  have := triple_report w hw hdir mixture muxAudio ((wanted s save3d).map fun b => (videoName b, s.frames b))
    (by
      intro v hv
      obtain ⟨b, _, rfl⟩ := List.mem_map.mp hv
      show videoName b ≠ "." ∧ videoName b ≠ ".."
      cases b <;> decide)
    (by
      intro p hp
      refine ⟨(hm p hp).1, fun v hv => ?_⟩
      obtain ⟨b, _, rfl⟩ := List.mem_map.mp hv
      exact (hm p hp).2 b)
    (by
      rw [List.pairwise_map]
      refine List.Pairwise.sublist (wanted_sub s save3d) ?_
      simp only [List.pairwise_cons, List.mem_singleton, forall_eq, List.not_mem_nil, false_imp_iff, implies_true,
        List.Pairwise.nil, and_true]
      exact touched_disjoint dir (List.mem_cons_self ..)) d
  simp only [List.flatMap_map, List.map_map, List.mem_map, forall_exists_index, and_imp,
    forall_apply_eq_imp_iff₂] at this
  exact this

end Videos

open Videos

/-- **C121, contained.** Whatever the encoder, `soundfile` and `ffmpeg` do, saving the videos of a scene never raises.
At every moment, also when the process is killed, the disk differs from the disk before only at the wanted videos and
their temporary files and in directories made on the way to the output directory. -/
theorem C121_contained (s : Call) (w : VideoWorld) (hw : ∀ n, SoundWorld (w.mux n)) (dir : DiskPath)
    (hdir : Plain dir) (save3d : Bool) (mixture : Option DiskPath)
    (hm : ∀ p, mixture = some p → Plain p ∧ ∀ b, p ∉ touched dir (videoName b)) (muxAudio : Bool) (m : Machine) :
    (∃ r, (s.save w dir save3d mixture muxAudio m).result = .ok r) ∧
    ∀ d, Seen (s.save w dir save3d mixture muxAudio m) d →
      Same ((wanted s save3d).flatMap fun b => touched dir (videoName b)) dir m.disk d := by
  obtain ⟨h1, h2, h3⟩ := triple_save s w hw dir hdir save3d mixture hm muxAudio m.disk m (same_refl _ _ _)
  cases hr : (s.save w dir save3d mixture muxAudio m).result with
  | error e => exact (h3 e hr).elim
  | ok r =>
    refine ⟨⟨r, rfl⟩, ?_⟩
    rintro d (⟨x, hx, rfl⟩ | rfl)
    · exact h1 x hx
    · exact (h2 r hr).1

/-- **C121, reports.** The videos reported as saved are the first of the wanted ones, and there is a warning exactly
if one is missing. A video reported as saved is whole: all frames of the scene in its view, silent or, if sound is
wanted, with the first two channels of the mixture that was on the disk before. -/
theorem C121_reported (s : Call) (w : VideoWorld) (hw : ∀ n, SoundWorld (w.mux n)) (dir : DiskPath)
    (hdir : Plain dir) (save3d : Bool) (mixture : Option DiskPath)
    (hm : ∀ p, mixture = some p → Plain p ∧ ∀ b, p ∉ touched dir (videoName b)) (muxAudio : Bool) (m : Machine)
    (saved : List String) (warning : Option Exc)
    (h : (s.save w dir save3d mixture muxAudio m).result = .ok (saved, warning)) :
    saved <+: (wanted s save3d).map videoName ∧ (warning = none ↔ saved = (wanted s save3d).map videoName) ∧
    ∀ b ∈ wanted s save3d, videoName b ∈ saved → ∃ frames c, s.frames b = .ok frames ∧
      (s.save w dir save3d mixture muxAudio m).last.disk (dir ++ [videoName b]) = some (.file c) ∧
      Whole w m.disk (videoName b) frames mixture muxAudio c :=
  ((triple_save s w hw dir hdir save3d mixture hm muxAudio m.disk m (same_refl _ _ _)).2.1 _ h).2

namespace Videos

/-! ## Everything goes well -/

theorem report_ok {name : String} {p : Prog Unit} {rest : List (String × Prog Unit)} {m : Machine}
    (h : (p m).result = .ok ()) {l : List String} {o : Option Exc}
    (h' : (reportEach rest (p m).last).result = .ok (l, o)) :
    (reportEach ((name, p) :: rest) m).result = .ok (name :: l, o) ∧
    (reportEach ((name, p) :: rest) m).last = (reportEach rest (p m).last).last := by
  show (Prog.catchWith (Prog.bind p fun _ => Prog.bind (reportEach rest) fun r => Prog.pure (name :: r.1, r.2)) _
    m).result = _ ∧ (Prog.catchWith (Prog.bind p fun _ => Prog.bind (reportEach rest) fun r =>
      Prog.pure (name :: r.1, r.2)) _ m).last = _
  have e : (Prog.bind p (fun _ => Prog.bind (reportEach rest) fun r => Prog.pure (name :: r.1, r.2)) m).result
      = .ok (name :: l, o) ∧
      (Prog.bind p (fun _ => Prog.bind (reportEach rest) fun r => Prog.pure (name :: r.1, r.2)) m).last
      = (reportEach rest (p m).last).last := by
    unfold Prog.bind
    rw [h]
    dsimp only
    rw [h']
    exact ⟨rfl, rfl⟩
  unfold Prog.catchWith
  rw [e.1]
  exact ⟨rfl, e.2⟩

theorem report_error {name : String} {p : Prog Unit} {rest : List (String × Prog Unit)} {m : Machine} {e : Exc}
    (h : (p m).result = .error e) :
    (reportEach ((name, p) :: rest) m).result = .ok ([], some e) ∧
    (reportEach ((name, p) :: rest) m).last = (p m).last := by
  show (Prog.catchWith (Prog.bind p fun _ => Prog.bind (reportEach rest) fun r => Prog.pure (name :: r.1, r.2)) _
    m).result = _ ∧ (Prog.catchWith (Prog.bind p fun _ => Prog.bind (reportEach rest) fun r =>
      Prog.pure (name :: r.1, r.2)) _ m).last = _
  have h1 : (Prog.bind p (fun _ => Prog.bind (reportEach rest) fun r => Prog.pure (name :: r.1, r.2)) m).result
      = .error e ∧
      (Prog.bind p (fun _ => Prog.bind (reportEach rest) fun r => Prog.pure (name :: r.1, r.2)) m).last
      = (p m).last := by
    unfold Prog.bind
    rw [h]
    exact ⟨rfl, rfl⟩
  unfold Prog.catchWith
  rw [h1.1]
  exact ⟨rfl, h1.2⟩

theorem plain_video {dir : DiskPath} (hdir : Plain dir) (b : Bool) : Plain (dir ++ [videoName b]) :=
  Plain.append hdir fun s hs => by
    rw [List.mem_singleton.mp hs]
    cases b <;> decide

theorem touched_other (dir : DiskPath) {q : DiskPath} {b : Bool} (h : q ∈ touched dir (videoName b)) :
    q ∉ touched dir (videoName !b) := by
  cases b with
  | false => exact touched_disjoint dir h
  | true => exact fun h' => touched_disjoint dir h' h

/-- A path of one video is not changed by the other. -/
theorem same_other {dir : DiskPath} {b : Bool} {d d' : Disk} (h : Same (touched dir (videoName b)) dir d d')
    {q : DiskPath} (hq : q ∈ touched dir (videoName !b)) : d' q = d q := by
  rcases h q (fun hq' => touched_other dir hq' hq) with k | ⟨k, _, _⟩
  · exact k
  · exact absurd k (not_prefix_of_touched hq)

/-- Two videos after each other, if each succeeds from every disk on which nothing stands in its way. -/
theorem report_two (s : Call) (w : VideoWorld) (hw : ∀ n, SoundWorld (w.mux n)) (dir : DiskPath) (hdir : Plain dir)
    (save3d : Bool) (mixture : Option DiskPath)
    (hm : ∀ p, mixture = some p → Plain p ∧ ∀ b, p ∉ touched dir (videoName b)) (muxAudio : Bool) (m : Machine)
    (H : Disk → Bool → Prop) (hH : ∀ d d', Same (touched dir (videoName false)) dir d d' →
      H d false → H d true → H d' true)
    (T : Bool → List DiskPath) (hT : ∀ b, ∀ q ∈ T b, q ∈ touched dir (videoName b)) (goal : Disk)
    (step : ∀ b ∈ wanted s save3d, ∀ x : Machine, H x.disk b →
      (animateMp4 w dir (videoName b) (s.frames b) mixture muxAudio x).result = .ok () ∧
      ∀ q ∈ T b, (animateMp4 w dir (videoName b) (s.frames b) mixture muxAudio x).last.disk q = goal q)
    (h0 : ∀ b ∈ wanted s save3d, H m.disk b) :
    (s.save w dir save3d mixture muxAudio m).result = .ok ((wanted s save3d).map videoName, none) ∧
    ∀ b ∈ wanted s save3d, ∀ q ∈ T b, (s.save w dir save3d mixture muxAudio m).last.disk q = goal q := by
  rw [save_eq]
  have hf : false ∈ wanted s save3d := by
    unfold wanted
    split_ifs <;> simp
  obtain ⟨f1, f2⟩ := step false hf m (h0 false hf)
  have hsame : Same (touched dir (videoName false)) dir m.disk
      (animateMp4 w dir (videoName false) (s.frames false) mixture muxAudio m).last.disk :=
    ((triple_animate w (hw _) (plain_video hdir false) (s.frames false) mixture
      (fun p hp => ⟨(hm p hp).1, (hm p hp).2 false⟩) muxAudio m.disk m (same_refl _ _ _)).2.1 () f1).1
  by_cases h3 : s.room.numel = 3 ∧ save3d = true
  · have hw3 : wanted s save3d = [false, true] := if_pos h3
    rw [hw3] at step h0 ⊢
    obtain ⟨t1, t2⟩ := step true (by simp) _ (hH _ _ hsame (h0 false (by simp)) (h0 true (by simp)))
    have hsame' := ((triple_animate w (hw _) (plain_video hdir true) (s.frames true) mixture
      (fun p hp => ⟨(hm p hp).1, (hm p hp).2 true⟩) muxAudio _ _ (same_refl _ _ _)).2.1 () t1).1
    obtain ⟨r1, r2⟩ := report_ok (name := videoName true) (rest := []) (l := []) (o := none) t1 rfl
    obtain ⟨r3, r4⟩ := report_ok (name := videoName false) f1 r1
    refine ⟨r3, fun b _ q hq => ?_⟩
    have e : (reportEach (List.map (fun v => (v.1, animateMp4 w dir v.1 v.2 mixture muxAudio))
        (List.map (fun b => (videoName b, s.frames b)) [false, true])) m).last.disk =
        (animateMp4 w dir (videoName true) (s.frames true) mixture muxAudio
          (animateMp4 w dir (videoName false) (s.frames false) mixture muxAudio m).last).last.disk := by
      exact congrArg Machine.disk (r4.trans r2)
    rw [e]
    cases b with
    | true => exact t2 q hq
    | false =>
      rw [same_other (b := true) hsame' (hT false q hq)]
      exact f2 q hq
  · have hw2 : wanted s save3d = [false] := if_neg h3
    rw [hw2]
    obtain ⟨r1, r2⟩ := report_ok (name := videoName false) (rest := []) (l := []) (o := none) f1 rfl
    refine ⟨r1, fun b hb q hq => ?_⟩
    rw [List.mem_singleton] at hb
    subst hb
    have e : (reportEach (List.map (fun v => (v.1, animateMp4 w dir v.1 v.2 mixture muxAudio))
        (List.map (fun b => (videoName b, s.frames b)) [false])) m).last.disk =
        (animateMp4 w dir (videoName false) (s.frames false) mixture muxAudio m).last.disk :=
      congrArg Machine.disk r2
    rw [e]
    exact f2 q hq

theorem clear_after {dir : DiskPath} {d d' : Disk} (h : Same (touched dir (videoName false)) dir d d')
    (hc : Clear d dir (videoName true)) : Clear d' dir (videoName true) :=
  clear_same hc h fun _ hq => ⟨touched_other dir hq, not_prefix_of_touched hq⟩

theorem video_ne (dir : DiskPath) : dir ++ [videoName false] ≠ dir ++ [videoName true] := by
  simp [videoName]

end Videos

open Videos

/-- **C121, silent videos.** Without mixture or with `mux_audio=False`: if the frames of every wanted view can be
drawn, the encoder completes and nothing stands in the way on the disk, all wanted videos are reported as saved, there
is no warning, and each file holds the encoded frames of its view. -/
theorem C121_silent (s : Call) (w : VideoWorld) (hw : ∀ n, SoundWorld (w.mux n)) (dir : DiskPath) (hdir : Plain dir)
    (save3d : Bool) (mixture : Option DiskPath)
    (hm : ∀ p, mixture = some p → Plain p ∧ ∀ b, p ∉ touched dir (videoName b)) (muxAudio : Bool)
    (hq : mixture = none ∨ muxAudio = false) (m : Machine) (f : Bool → List Frame × ℤ)
    (h : ∀ b ∈ wanted s save3d, s.frames b = .ok (f b) ∧ w.saving (videoName b) = .completes ∧
      Clear m.disk dir (videoName b)) :
    (s.save w dir save3d mixture muxAudio m).result = .ok ((wanted s save3d).map videoName, none) ∧
    ∀ b ∈ wanted s save3d, (s.save w dir save3d mixture muxAudio m).last.disk (dir ++ [videoName b])
      = some (.file (w.encode (f b).1 (f b).2)) := by
  have := report_two s w hw dir hdir save3d mixture hm muxAudio m (fun d b => Clear d dir (videoName b))
    (fun d d' hs _ hc => clear_after hs hc) (fun b => [dir ++ [videoName b]])
    (fun b q hq => by rw [List.mem_singleton.mp hq]; exact List.mem_cons_self ..)
    (fun q => if q = dir ++ [videoName true] then some (.file (w.encode (f true).1 (f true).2))
      else some (.file (w.encode (f false).1 (f false).2)))
    (fun b hb x hx => by
      obtain ⟨h1, h2, _⟩ := h b hb
      rw [h1]
      obtain ⟨k1, k2⟩ := animate_silent w (plain_video hdir b) x hx (f b) h2 mixture muxAudio hq
      refine ⟨k1, fun q hq => ?_⟩
      rw [List.mem_singleton.mp hq, k2]
      cases b with
      | true => rw [if_pos rfl]
      | false => rw [if_neg (video_ne dir)])
    fun b hb => (h b hb).2.2
  refine ⟨this.1, fun b hb => ?_⟩
  rw [this.2 b hb _ (List.mem_singleton_self _)]
  cases b with
  | true => rw [if_pos rfl]
  | false => rw [if_neg (video_ne dir)]

namespace Videos

/-- What becomes of a silent video when sound is added and `ffmpeg` reports `done`. -/
noncomputable def withSound (w : MuxWorld) (silent : Bytes) (wave : Wave) (done : Bool) : Bytes :=
  if done then (w.ffmpeg (some silent) (some (w.encode (heard wave (0, 1)) wave.rate))).written.getD [] else silent

end Videos

open Videos

/-- **C121, videos with sound.** If moreover the mixture decodes, its two-channel track can be written and `ffmpeg`
returns for each view, all wanted videos are reported as saved without a warning. Each file is the output of `ffmpeg`
on the encoded frames of its view and the track if that reported success, and the silent video otherwise; no temporary
file is left. -/
theorem C121_sound (s : Call) (w : VideoWorld) (hw : ∀ n, SoundWorld (w.mux n)) (dir : DiskPath) (hdir : Plain dir)
    (save3d : Bool) (p : DiskPath) (hp : ∀ b, p ∉ touched dir (videoName b)) (m : Machine) (mix : Bytes)
    (f : Bool → List Frame × ℤ) (wave : Bool → Wave) (done : Bool → Bool)
    (h : ∀ b ∈ wanted s save3d, s.frames b = .ok (f b) ∧ w.saving (videoName b) = .completes ∧
      Clear m.disk dir (videoName b) ∧ Playable (w.mux (videoName b)) m.disk p mix (wave b) ∧
      (w.mux (videoName b)).saving = .completes ∧
      ((w.mux (videoName b)).ffmpeg (some (w.encode (f b).1 (f b).2))
        (some ((w.mux (videoName b)).encode (heard (wave b) (0, 1)) (wave b).rate))).status = .ok (done b)) :
    (s.save w dir save3d (some p) true m).result = .ok ((wanted s save3d).map videoName, none) ∧
    ∀ b ∈ wanted s save3d,
      (s.save w dir save3d (some p) true m).last.disk (dir ++ [videoName b])
        = some (.file (withSound (w.mux (videoName b)) (w.encode (f b).1 (f b).2) (wave b) (done b))) ∧
      (s.save w dir save3d (some p) true m).last.disk (tmpAudio dir (videoName b)) = none ∧
      (s.save w dir save3d (some p) true m).last.disk (tmpVideo dir (videoName b)) = none := by
  set content : Bool → Option Node := fun b =>
    some (.file (withSound (w.mux (videoName b)) (w.encode (f b).1 (f b).2) (wave b) (done b))) with hcontent
  set goal : Disk := fun q => if q = dir ++ [videoName true] then content true
    else if q = dir ++ [videoName false] then content false else none with hgoal
  have hne : ∀ b b' q, q ∈ touched dir (videoName b) → q ≠ dir ++ [videoName b] → q ≠ dir ++ [videoName b'] := by
    rintro b b' q hq h1 rfl
    by_cases hb : b' = b
    · exact h1 (by rw [hb])
    · have hb : b' = !b := by cases b <;> cases b' <;> simp_all
      rw [hb] at hq
      exact touched_other dir hq (List.mem_cons_self ..)
  have g1 : ∀ b, goal (dir ++ [videoName b]) = content b := by
    intro b
    cases b with
    | true => exact if_pos rfl
    | false =>
      rw [hgoal]
      dsimp only
      rw [if_neg (video_ne dir), if_pos rfl]
  have g2 : ∀ b, goal (tmpAudio dir (videoName b)) = none := by
    intro b
    have h1 := hne b true _ (by simp [touched]) (tmpAudio_ne dir (videoName b))
    have h2 := hne b false _ (by simp [touched]) (tmpAudio_ne dir (videoName b))
    rw [hgoal]
    dsimp only
    rw [if_neg h1, if_neg h2]
  have g3 : ∀ b, goal (tmpVideo dir (videoName b)) = none := by
    intro b
    have h1 := hne b true _ (by simp [touched]) (tmpVideo_ne dir (videoName b))
    have h2 := hne b false _ (by simp [touched]) (tmpVideo_ne dir (videoName b))
    rw [hgoal]
    dsimp only
    rw [if_neg h1, if_neg h2]
  have hpl : ∀ b ∈ wanted s save3d, Plain p := fun b hb => (h b hb).2.2.2.1.plain
  have hf : false ∈ wanted s save3d := by
    unfold wanted
    split_ifs <;> simp
  have := report_two s w hw dir hdir save3d (some p) (fun p' hp' => by cases hp'; exact ⟨hpl false hf, hp⟩) true m
    (fun d b => Clear d dir (videoName b) ∧ Playable (w.mux (videoName b)) d p mix (wave b))
    (fun d d' hs hc1 hc2 => ⟨clear_after hs hc2.1,
      playable_same hc2.2 hs (fun q hq => hc1.1.files q hq) (hp false)⟩)
    (fun b => touched dir (videoName b)) (fun b q hq => hq) goal
    (fun b hb x hx => by
      obtain ⟨h1, h2, _, _, h5, h6⟩ := h b hb
      rw [h1]
      obtain ⟨y, _, y2, y3, y4⟩ := animate_sound w (plain_video hdir b) x hx.1 (f b) h2 p (hp b) mix (wave b) hx.2
      obtain ⟨z1, z2, z3, z4⟩ := C78_muxes (w.mux (videoName b)) (hw _) dir (videoName b) p (0, 1) y _ mix (wave b) y2
        h5 (done b) h6
      rw [y3, y4]
      refine ⟨z1, fun q hq => ?_⟩
      simp only [touched, List.mem_cons, List.not_mem_nil, or_false] at hq
      rcases hq with rfl | rfl | rfl
      · rw [z4, g1 b]
        rfl
      · rw [z2, g2 b]
      · rw [z3, g3 b])
    fun b hb => ⟨(h b hb).2.2.1, (h b hb).2.2.2.1⟩
  refine ⟨this.1, fun b hb => ⟨?_, ?_, ?_⟩⟩
  · rw [this.2 b hb _ (List.mem_cons_self ..), g1 b]
  · rw [this.2 b hb _ (by simp [touched]), g2 b]
  · rw [this.2 b hb _ (by simp [touched]), g3 b]

/-- **C121, the second view: fails.** One would expect every view that can be drawn and encoded to be saved. When
writing the track for the view from above breaks off, no video is reported as saved: the view from above is on the disk
complete but silent beside the beginning of the track, and the view in three dimensions is never rendered, whatever its
encoder would have done. -/
theorem C121_second_view_fails (s : Call) (w : VideoWorld) (hw : ∀ n, SoundWorld (w.mux n)) (dir : DiskPath)
    (hdir : Plain dir) (save3d : Bool) (p : DiskPath) (hp : ∀ b, p ∉ touched dir (videoName b)) (m : Machine)
    (mix : Bytes) (wave : Wave) (f : List Frame × ℤ) (hf : s.frames false = .ok f)
    (hs : w.saving (videoName false) = .completes) (hc : Clear m.disk dir (videoName false))
    (hpl : Playable (w.mux (videoName false)) m.disk p mix wave) (k : ℕ) (e : Exc)
    (hbreak : (w.mux (videoName false)).saving = .breaks k e) :
    (s.save w dir save3d (some p) true m).result = .ok ([], some e) ∧
    (s.save w dir save3d (some p) true m).last.disk (dir ++ [videoName false])
      = some (.file (w.encode f.1 f.2)) ∧
    (s.save w dir save3d (some p) true m).last.disk (tmpAudio dir (videoName false)) = some (.file
      (((w.mux (videoName false)).encode (heard wave (0, 1)) wave.rate).take k)) ∧
    (s.save w dir save3d (some p) true m).last.disk (dir ++ [videoName true]) = m.disk (dir ++ [videoName true]) := by
  obtain ⟨y, y1, y2, y3, y4⟩ := animate_sound w (plain_video hdir false) m hc f hs p (hp false) mix wave hpl
  obtain ⟨z1, z2, z3⟩ := C78_leftover_fails (w.mux (videoName false)) (hw _) dir (videoName false) p (0, 1) y _ mix wave y2
    k e hbreak
  have hrun : (animateMp4 w dir (videoName false) (s.frames false) (some p) true m).result = .error e := by
    rw [hf, y3, z1]
  obtain ⟨r1, r2⟩ : (s.save w dir save3d (some p) true m).result = .ok ([], some e) ∧
      (s.save w dir save3d (some p) true m).last
        = (animateMp4 w dir (videoName false) (s.frames false) (some p) true m).last := by
    rw [save_eq]
    unfold wanted
    split_ifs
    · exact report_error hrun
    · exact report_error hrun
  have hsame := (triple_animate w (hw _) (plain_video hdir false) (s.frames false) (some p)
      (fun p' hp' => by cases hp'; exact ⟨hpl.plain, hp false⟩) true m.disk m (same_refl _ _ _)).2.2 e hrun
  refine ⟨r1, ?_, ?_, ?_⟩
  · rw [r2, hf, y4, z3]
  · rw [r2, hf, y4, z2]
  · rw [r2]
    exact same_other (b := false) hsame (List.mem_cons_self ..)

namespace Videos

/-! ## A case -/

/-- A source that moves past a microphone in a room of three dimensions, during two steps. -/
noncomputable def someCall : Call where
  room := sizeTensor ![6, 4, 3]
  sources := tensor2 ![![1, 2, 1]]
  mics := tensor2 ![![3, 2, 1]]
  srcTraj := some (tensor3 ![![![1, 2, 1]], ![![2, 2, 1]]])
  micTraj := some (tensor3 ![![![3, 2, 1]], ![![3, 2, 1]]])
  signalLen := 8000
  fs := 16000
  fps := none
  annotate := true

theorem someCall_frames (b : Bool) : ∃ f, someCall.frames b = .ok f := by
  obtain ⟨indices, rate, h⟩ : ∃ indices rate, animation (some 2) (some 2) 1 none (some 8000) (some 16000) none
      = .ok (indices, rate) := by
    refine ⟨[0, 1], max 1 (roundHalfEven (animationFps none 2 (some ((8000 : ℕ) / 16000)))), ?_⟩
    unfold animation
    simp only [animationSteps, animationDuration, frameCount, ok_bind]
    rw [if_neg (by norm_num), ok_bind, if_neg (by norm_num), ok_bind]
    rfl
  obtain ⟨frames, h1, _⟩ := C82_frames (Or.inr rfl) ![6, 4, 3] ![![1, 2, 1]] ![![3, 2, 1]]
    ![![![1, 2, 1]], ![![2, 2, 1]]] ![![![3, 2, 1]], ![![3, 2, 1]]] 1 none (some 8000) (some 16000) none (!b) b
    true (by cases b <;> simp) _ _ h
  exact ⟨_, h1⟩

/-- An encoder that completes, beside the world `muxWorld`. -/
noncomputable def someWorld (track : WriteOutcome) : VideoWorld where
  encode := fun f _ => List.replicate f.length 5
  saving := fun _ => .completes
  mux := fun _ => muxWorld track

/-- A disk with a mixture and without the output directory. -/
def someDisk : Disk := fun p => if p = [] then some .dir else if p = ["mix.wav"] then some (.file [2]) else none

theorem someDisk_clear (name : String) : Clear someDisk ["out"] name where
  root := rfl
  dirs := fun q hq c => by
    unfold someDisk
    split_ifs with h1 h2
    · exact fun h => (nomatch h)
    · subst h2
      have := List.cons_prefix_cons.mp hq
      exact absurd this.1 (by decide)
    · exact fun h => (nomatch h)
  files := fun q hq => by
    unfold someDisk
    split_ifs with h1 h2
    · subst h1
      exact absurd List.nil_prefix (not_prefix_of_touched hq)
    · exact fun h => (nomatch h)
    · exact fun h => (nomatch h)

theorem someDisk_playable (track : WriteOutcome) (name : String) :
    Playable ((someWorld track).mux name) someDisk ["mix.wav"] [2] ⟨1, [[1], [2]], 8000⟩ where
  plain := by unfold Plain; decide
  dirs := fun q hq hne => by rw [List.prefix_nil.mp (prefix_beside (dir := []) hq hne)]; rfl
  isFile := by decide
  installed := rfl
  decodes := rfl
  channels := by norm_num

theorem mix_untouched (b : Bool) : ["mix.wav"] ∉ touched ["out"] (videoName b) := by
  intro h
  simp only [touched, tmpAudio, tmpVideo, besideVideo, List.mem_cons, List.not_mem_nil, or_false] at h
  rcases h with h | h | h <;> exact absurd (congrArg List.length h) (by simp)

/-- Both videos are saved, with sound. -/
example : (someCall.save (someWorld .completes) ["out"] true (some ["mix.wav"]) true ⟨someDisk, 0⟩).result
      = .ok (["room_layout_2d.mp4", "room_layout_3d.mp4"], none) ∧
    (someCall.save (someWorld .completes) ["out"] true (some ["mix.wav"]) true ⟨someDisk, 0⟩).last.disk
      ["out", "room_layout_3d.mp4"] = some (.file [9, 9]) := by
  have hw : wanted someCall true = [false, true] := if_pos ⟨rfl, rfl⟩
  have h := C121_sound someCall (someWorld .completes) (fun _ => muxWorld_sound _) ["out"] (by unfold Plain; decide) true
    ["mix.wav"] mix_untouched ⟨someDisk, 0⟩ [2] (fun b => (someCall_frames b).choose) (fun _ => ⟨1, [[1], [2]], 8000⟩)
    (fun _ => true) (fun b _ => ⟨(someCall_frames b).choose_spec, rfl, someDisk_clear _, someDisk_playable _ _, rfl, rfl⟩)
  rw [hw] at h
  exact ⟨h.1, (h.2 true (by simp)).1⟩

/-- Both videos are saved, silent. -/
example : (someCall.save (someWorld .completes) ["out"] true (some ["mix.wav"]) false ⟨someDisk, 0⟩).result
    = .ok (["room_layout_2d.mp4", "room_layout_3d.mp4"], none) := by
  have hw : wanted someCall true = [false, true] := if_pos ⟨rfl, rfl⟩
  have h := C121_silent someCall (someWorld .completes) (fun _ => muxWorld_sound _) ["out"] (by unfold Plain; decide) true
    (some ["mix.wav"]) (fun p hp => by cases hp; exact ⟨by unfold Plain; decide, mix_untouched⟩) false (Or.inr rfl)
    ⟨someDisk, 0⟩ (fun b => (someCall_frames b).choose)
    (fun b _ => ⟨(someCall_frames b).choose_spec, rfl, someDisk_clear _⟩)
  rw [hw] at h
  exact h.1

/-- The disk is full when the track is written: a warning, and one video instead of two. -/
example : (someCall.save (someWorld (.breaks 1 (.os "No space left"))) ["out"] true (some ["mix.wav"]) true
      ⟨someDisk, 0⟩).result = .ok ([], some (.os "No space left")) ∧
    (someCall.save (someWorld (.breaks 1 (.os "No space left"))) ["out"] true (some ["mix.wav"]) true
      ⟨someDisk, 0⟩).last.disk ["out", "room_layout_3d.mp4"] = none := by
  obtain ⟨f, hf⟩ := someCall_frames false
  have h := C121_second_view_fails someCall (someWorld (.breaks 1 (.os "No space left"))) (fun _ => muxWorld_sound _)
    ["out"] (by unfold Plain; decide) true ["mix.wav"] mix_untouched ⟨someDisk, 0⟩ [2] ⟨1, [[1], [2]], 8000⟩ f hf rfl
    (someDisk_clear _) (someDisk_playable _ _) 1 (.os "No space left") rfl
  exact ⟨h.1, h.2.2.2⟩

end Videos

end Torchrir.Props
