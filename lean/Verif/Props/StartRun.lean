import Verif.Spec.StartRun
import Verif.Props.GettingStarted
import Verif.Props.BuilderRun
import Verif.Props.ScriptRun

/-!
# C136: whole runs of the getting-started example
-/

namespace Torchrir.Props

open Torchrir.Model Torchrir.Spec Torchrir.Lemmas

namespace StartRun

open BuilderRun

/-! ## Order -/

theorem put_full (put : String → StartFile → Except String Unit) (name : String) (file : StartFile) :
    Full Prod.fst (startPut put name file) [name] :=
  Full.then (by simp) fun _ _ => Full.leave Prod.fst [(name, file)]

theorem wav_full (put : String → StartFile → Except String Unit) (name : String) (x : Tensor ℝ) (fs : ℕ) :
    Full Prod.fst (startWav put name x fs) [name] :=
  Full.then (by simp) fun _ _ => put_full put name _

theorem half_full (put : String → StartFile → Except String Unit) (w : World) (room : Room) (signals : Tensor ℝ) (fs : ℕ)
    (pre title : String) (sc : CliScene) {layout : Logged (String × StartFile) Unit} {picture : String}
    (h : Full Prod.fst layout [picture]) :
    Full Prod.fst (startHalfRun put w room signals fs pre title sc layout)
      [pre ++ "_original_src01.wav", pre ++ "_original_src02.wav", pre ++ "_convolved.wav", picture,
       pre ++ "_original_src01_pair.png", pre ++ "_original_src02_pair.png", pre ++ "_convolved_mic1_pair.png",
       pre ++ "_convolved_mic2_pair.png"] :=
  Full.then (by simp) fun ry _ =>
    Full.bind_full (p := [_]) (wav_full ..) fun _ _ => Full.bind_full (p := [_]) (wav_full ..) fun _ _ =>
    Full.bind_full (p := [_]) (wav_full ..) fun _ _ => Full.bind_full (p := [_]) h fun _ _ =>
    Full.bind_full (p := [_]) (put_full ..) fun _ _ => Full.bind_full (p := [_]) (put_full ..) fun _ _ =>
    Full.bind_full (p := [_]) (put_full ..) fun _ _ => put_full ..

theorem run_full {ι : Type} (put : String → StartFile → Except String Unit) (conv : Flt → ℤ) (w : World) (r : ℕ → ℝ)
    (k : ℕ) (loaded : Except String (LoadedSources ι)) : Full Prod.fst (startRun put conv w r k loaded) startNames :=
  Full.then (by simp [startNames]) fun _ _ => Full.then (by simp [startNames]) fun _ _ =>
    Full.then (by simp [startNames]) fun _ _ =>
    Full.bind_full (half_full (picture := "layout_static.png") _ _ _ _ _ _ _ _ (Full.then (by simp) fun _ _ => put_full ..))
      fun _ _ =>
    Full.then (by simp) fun _ _ =>
      half_full (picture := "layout_dynamic.gif") _ _ _ _ _ _ _ _ (Full.then (by simp) fun _ _ => put_full ..)

end StartRun

/-- **C136, order.** The script saves its 16 files, whose names are all different, in a fixed order. Whatever raises an
exception and whenever, the files before it are there and none after it; all are there exactly if there is no
exception. -/
theorem C136_order {ι : Type} (put : String → StartFile → Except String Unit) (conv : Flt → ℤ) (w : World) (r : ℕ → ℝ)
    (k : ℕ) (loaded : Except String (LoadedSources ι)) :
    let run := startRun put conv w r k loaded
    startNames.Nodup ∧ run.events.map Prod.fst <+: startNames ∧
    (run.result = .ok () ↔ run.events.map Prod.fst = startNames) :=
  ⟨by decide, (StartRun.run_full put conv w r k loaded).1.1, BuilderRun.Full.ok (StartRun.run_full put conv w r k loaded)⟩

/-! ## Exceptions while saving -/

namespace StartRun

open BuilderRun

/-- `x` is `y`, or is broken off at the first file that cannot be saved. -/
def Broken {α : Type} (put : String → StartFile → Except String Unit) (x y : Logged (String × StartFile) α) : Prop :=
  (∀ f ∈ x.events, put f.1 f.2 = .ok ()) ∧
  (x = y ∨ ∃ file e, x.events ++ [file] <+: y.events ∧ put file.1 file.2 = .error e ∧ x.result = .error e)

variable {put : String → StartFile → Except String Unit}

theorem Broken.quiet {α : Type} (x : Except String α) : Broken put (Logged.quiet x) (Logged.quiet x) :=
  ⟨fun _ hf => absurd hf (List.not_mem_nil), .inl rfl⟩

theorem Broken.bind {α β : Type} {x y : Logged (String × StartFile) α} (h : Broken put x y)
    {f g : α → Logged (String × StartFile) β} (hf : ∀ a, Broken put (f a) (g a)) : Broken put (x >>= f) (y >>= g) := by
  obtain ⟨h1, rfl | ⟨file, e, h2, h3, h4⟩⟩ := h
  · cases hx : x.result with
    | error e =>
      rw [bind_error hx, bind_error hx]
      exact ⟨h1, .inl rfl⟩
    | ok a =>
      rw [bind_ok hx, bind_ok hx]
      obtain ⟨h5, h6⟩ := hf a
      refine ⟨fun f hf => (List.mem_append.mp hf).elim (h1 f) (h5 f), ?_⟩
      rcases h6 with h6 | ⟨file, e, h6, h7, h8⟩
      · rw [h6]
        exact .inl rfl
      · refine .inr ⟨file, e, ?_, h7, h8⟩
        rw [List.append_assoc]
        exact (List.prefix_append_right_inj _).mpr h6
  · rw [bind_error h4]
    refine ⟨h1, .inr ⟨file, e, h2.trans ?_, h3, rfl⟩⟩
    cases hy : y.result with
    | error e => rw [bind_error hy]
    | ok a => rw [bind_ok hy]; exact List.prefix_append _ _

theorem put_broken (name : String) (file : StartFile) :
    Broken put (startPut put name file) (startPut (fun _ _ => .ok ()) name file) := by
  unfold startPut
  cases h : put name file with
  | error e => exact ⟨fun f hf => absurd hf (List.not_mem_nil), .inr ⟨(name, file), e, List.prefix_refl _, h, rfl⟩⟩
  | ok u => exact ⟨fun f hf => by rw [List.mem_singleton.mp hf]; exact h, .inl rfl⟩

theorem wav_broken (name : String) (x : Tensor ℝ) (fs : ℕ) :
    Broken put (startWav put name x fs) (startWav (fun _ _ => .ok ()) name x fs) :=
  (Broken.quiet _).bind fun _ => put_broken ..

theorem half_broken (w : World) (room : Room) (signals : Tensor ℝ) (fs : ℕ)
    (pre title : String) (sc : CliScene) {layout layout' : Logged (String × StartFile) Unit} (h : Broken put layout layout') :
    Broken put (startHalfRun put w room signals fs pre title sc layout)
      (startHalfRun (fun _ _ => .ok ()) w room signals fs pre title sc layout') :=
  (Broken.quiet _).bind fun _ => (wav_broken ..).bind fun _ => (wav_broken ..).bind fun _ => (wav_broken ..).bind fun _ =>
    h.bind fun _ => (put_broken ..).bind fun _ => (put_broken ..).bind fun _ => (put_broken ..).bind fun _ => put_broken ..

end StartRun

open StartRun in
/-- **C136, exceptions.** If all files can be saved, then the run is the undisturbed one. Otherwise it breaks off at the
first file that cannot be saved, with its exception; the files before it are the same, with the same contents, as in the
undisturbed run. -/
theorem C136_broken_off {ι : Type} (put : String → StartFile → Except String Unit) (conv : Flt → ℤ) (w : World)
    (r : ℕ → ℝ) (k : ℕ) (loaded : Except String (LoadedSources ι)) :
    let run := startRun put conv w r k loaded
    let undisturbed := startRun (fun _ _ => .ok ()) conv w r k loaded
    ((∀ f ∈ undisturbed.events, put f.1 f.2 = .ok ()) → run = undisturbed) ∧
    ∀ before file after e, undisturbed.events = before ++ file :: after → (∀ f ∈ before, put f.1 f.2 = .ok ()) →
      put file.1 file.2 = .error e → run = ⟨before, .error e⟩ := by
  intro run undisturbed
  have h : Broken put run undisturbed :=
    (Broken.quiet _).bind fun _ => (Broken.quiet _).bind fun _ => (Broken.quiet _).bind fun _ =>
      (half_broken _ _ _ _ _ _ _ ((Broken.quiet _).bind fun _ => put_broken ..)).bind fun _ => (Broken.quiet _).bind fun _ =>
      half_broken _ _ _ _ _ _ _ ((Broken.quiet _).bind fun _ => put_broken ..)
  clear_value run undisturbed
  obtain ⟨h1, h2⟩ := h
  constructor
  · intro hall
    rcases h2 with h2 | ⟨file, e, h2, h3, -⟩
    · exact h2
    · have := hall file (h2.subset (by simp))
      rw [h3] at this
      cases this
  · intro before file after e hev hb hf
    rcases h2 with h2 | ⟨file', e', h2, h3, h4⟩
    · subst h2
      have := h1 file (by rw [hev]; simp)
      rw [hf] at this
      cases this
    · rw [hev] at h2
      have hlen : run.events.length = before.length := by
        rcases lt_trichotomy run.events.length before.length with hl | hl | hl
        · have h5 : run.events ++ [file'] <+: before :=
            List.prefix_of_prefix_length_le h2 (List.prefix_append _ _) (by simpa using hl)
          have := hb file' (h5.subset (by simp))
          rw [h3] at this
          cases this
        · exact hl
        · have h5 : before ++ [file] <+: run.events :=
            List.prefix_of_prefix_length_le (l₃ := before ++ file :: after) ⟨after, by simp⟩
              ((List.prefix_append _ _).trans h2) (by simpa using hl)
          have := h1 file (h5.subset (by simp))
          rw [hf] at this
          cases this
      have h6 : run.events ++ [file'] = before ++ [file] :=
        List.IsPrefix.eq_of_length
          (List.prefix_of_prefix_length_le h2 (l₃ := before ++ file :: after) ⟨after, by simp⟩ (by simp [hlen])) (by simp [hlen])
      obtain ⟨h7, h8⟩ := List.append_inj h6 hlen
      cases h8
      rw [hf] at h3
      cases h3
      rcases run with ⟨a, b⟩
      dsimp only at h4 h7
      rw [h4, h7]

/-! ## Contents -/

/-- The signal, with zeros behind its end. -/
def track {n : ℕ} (x : Fin 2 → Fin n → ℝ) (s : Fin 2) (k : ℕ) : ℝ := if h : k < n then x s ⟨k, h⟩ else 0

/-- The layout of a standing scene from above, with the sources numbered. -/
def IsTopView (src mic : Fin 2 → Fin 3 → ℝ) (title : String) : StartFile → Prop
  | .layout marks text => text = title ∧ outlineOf marks = roomOutline ![8, 6] ∧
      dotsUnder "sources" marks = pointList (fun s => ![src s 0, src s 1]) ∧
      dotsUnder "mics" marks = pointList (fun m => ![mic m 0, mic m 1]) ∧
      dotsOf marks = pointList (fun s => ![src s 0, src s 1]) ++ pointList (fun m => ![mic m 0, mic m 1]) ∧
      pathsOf marks = [] ∧ textsOf marks = sourceLabels (fun s => ![src s 0, src s 1])
  | _ => False

/-- The animation of a moving scene of ten seconds from above, with 13 of its steps per second. -/
def IsTopFilm {T : ℕ} (p q : Fin T → Fin 2 → Fin 3 → ℝ) (name : String) : StartFile → Prop
  | .animation movie => IsMovie p q 10 true 13 (name, 2) movie
  | _ => False

namespace StartRun

open BuilderRun

theorem slice_room : sliceLast 2 (sizeTensor (![8, 6, 3] : Fin 3 → ℝ)) = sizeTensor ![8, 6] := by
  rw [sliceLast_size]
  simp [sizeTensor, cut, List.ofFn_succ]

theorem slice_points (p : Fin 2 → Fin 3 → ℝ) :
    sliceLast 2 (tensor2 p) = tensor2 (fun s => ![p s 0, p s 1]) := by
  rw [sliceLast_tensor2]
  have h : (fun i => cut 2 (p i)) = fun s => (![p s 0, p s 1] : Fin 2 → ℝ) := by
    funext s i
    fin_cases i <;> rfl
  exact congrArg (tensor2 (n := 2)) h

theorem put_ok (name : String) (file : StartFile) :
    startPut (fun _ _ => .ok ()) name file = ⟨[(name, file)], .ok ()⟩ := rfl

theorem wav_ok {x : Tensor ℝ} {f : AudioFile} (h : saveAudio x = .ok f) (name : String) (fs : ℕ) :
    startWav (fun _ _ => .ok ()) name x fs = ⟨[(name, .sound f fs)], .ok ()⟩ := by
  unfold startWav
  rw [h]
  rfl

theorem curve_signal {n : ℕ} (x : Fin 2 → Fin n → ℝ) (s : Fin 2) (fs : ℕ) (name title : String) :
    ∃ file, startPair (fun _ _ => .ok ()) name (signalOf (tensor2 x) s) fs title = ⟨[(name, file)], .ok ()⟩ ∧
      IsCurve fs n title (track x s) file := by
  refine ⟨_, rfl, rfl, rfl, ?_⟩
  have hd : (signalOf (tensor2 x) s).data = List.ofFn (x s) := by
    rcases signalOf_eq x s with h | ⟨-, h⟩
    · have := congrArg Tensor.shape h
      simp [signalOf, tensor2] at this
    · rw [h]
      simp [tensor2]
  rw [hd, List.length_map, List.length_range, List.length_ofFn]
  refine ⟨rfl, rfl, fun k hk => ?_⟩
  simp [hk, track]

theorem curve_audio (len : ℕ) (y : Fin 2 → ℕ → ℝ) (m : Fin 2) (fs : ℕ) (name title : String) :
    ∃ file, startPair (fun _ _ => .ok ()) name (signalOf (micTensor len y) m) fs title = ⟨[(name, file)], .ok ()⟩ ∧
      IsCurve fs len title (y m) file := by
  have e : micTensor len y = tensor2 fun m (k : Fin len) => y m k := by
    unfold micTensor
    rw [if_neg (by norm_num)]
  rw [e]
  obtain ⟨file, h1, h2⟩ := curve_signal (fun m (k : Fin len) => y m k) m fs name title
  refine ⟨file, h1, ?_⟩
  cases file with
  | pair t s r x =>
    obtain ⟨a, b, c, d, e⟩ := h2
    refine ⟨a, b, c, d, fun k hk => ⟨(e k hk).1, ?_⟩⟩
    rw [(e k hk).2, track, dif_pos hk]
  | _ => exact h2

theorem run_bind {ε β : Type} (l : List ε) (f : Unit → Logged ε β) :
    ((⟨l, .ok ()⟩ : Logged ε Unit) >>= f) = ⟨l ++ (f ()).events, (f ()).result⟩ := rfl

/-- One half of the script. -/
theorem half_ok {n len : ℕ} {w : World} {room : Room} {sc : CliScene} {x : Fin 2 → Fin n → ℝ} {rirs : Tensor ℝ}
    {y : Fin 2 → ℕ → ℝ} (h : renderScene w room startArgs (tensor2 x) sc = .ok (rirs, micTensor len y)) (fs : ℕ)
    (pre title : String) {layout : Logged (String × StartFile) Unit} {name : String} {picture : StartFile}
    {P : StartFile → Prop} (hl : layout = ⟨[(name, picture)], .ok ()⟩) (hP : P picture) :
    ∃ files, startHalfRun (fun _ _ => .ok ()) w room (tensor2 x) fs pre title sc layout = ⟨files, .ok ()⟩ ∧
      Found (halfFiles pre title fs n len (track x) y (name, P)) files := by
  obtain ⟨f1, g1, h1, s1⟩ := save_mics le_rfl (by norm_num) n fun (_ : Fin 1) => track x 0
  obtain ⟨f2, g2, h2, s2⟩ := save_mics le_rfl (by norm_num) n fun (_ : Fin 1) => track x 1
  obtain ⟨f3, g3, h3, s3⟩ := save_mics (by norm_num) (by norm_num) len y
  obtain ⟨c1, a1, b1⟩ := curve_signal x 0 fs (pre ++ "_original_src01_pair.png") (title ++ " original source 1")
  obtain ⟨c2, a2, b2⟩ := curve_signal x 1 fs (pre ++ "_original_src02_pair.png") (title ++ " original source 2")
  obtain ⟨c3, a3, b3⟩ := curve_audio len y 0 fs (pre ++ "_convolved_mic1_pair.png") (title ++ " convolved mic 1")
  obtain ⟨c4, a4, b4⟩ := curve_audio len y 1 fs (pre ++ "_convolved_mic2_pair.png") (title ++ " convolved mic 2")
  have e1 : saveAudio (signalOf (tensor2 x) 0) = .ok f1 := by
    have := signal_mic x 0
    rw [Fin.val_zero] at this
    rw [this]
    exact h1
  have e2 : saveAudio (signalOf (tensor2 x) 1) = .ok f2 := by
    have := signal_mic x 1
    rw [Fin.val_one] at this
    rw [this]
    exact h2
  have t1 : IsSound fs 1 n (fun _ => track x 0) (.sound f1 fs) := ⟨rfl, g1, s1⟩
  have t2 : IsSound fs 1 n (fun _ => track x 1) (.sound f2 fs) := ⟨rfl, g2, s2⟩
  have t3 : IsSound fs 2 len y (.sound f3 fs) := ⟨rfl, g3, s3⟩
  rw [Fin.val_zero] at a1 a3
  rw [Fin.val_one] at a2 a4
  refine ⟨[_, _, _, _, _, _, _, _], ?_, .cons (b := (_, .sound f1 fs)) ⟨rfl, t1⟩
    (.cons (b := (_, .sound f2 fs)) ⟨rfl, t2⟩ (.cons (b := (_, .sound f3 fs)) ⟨rfl, t3⟩
    (.cons (b := (name, picture)) ⟨rfl, hP⟩ (.cons (b := (_, c1)) ⟨rfl, b1⟩ (.cons (b := (_, c2)) ⟨rfl, b2⟩
    (.cons (b := (_, c3)) ⟨rfl, b3⟩ (.cons (b := (_, c4)) ⟨rfl, b4⟩ .nil)))))))⟩
  unfold startHalfRun
  rw [h, quiet_bind]
  dsimp only
  rw [wav_ok e1, wav_ok e2, wav_ok h3, hl, a1, a2, a3, a4]
  rfl

theorem layout_ok {room : Room} (hroom : room.size = List.ofFn (![8, 6, 3] : Fin 3 → ℝ)) (src mic : Fin 2 → Fin 3 → ℝ) :
    ∃ picture, startLayout (fun _ _ => .ok ()) room ⟨rows src, rows mic, none⟩ =
        ⟨[("layout_static.png", picture)], .ok ()⟩ ∧
      IsTopView src mic "Static layout (top view)" picture := by
  obtain ⟨marks, h, h1, h2, h3, h4, h5, h6⟩ := C79_static (Or.inl rfl) ![8, 6] (fun s => ![src s 0, src s 1])
    (fun m => ![mic m 0, mic m 1]) true
  refine ⟨.layout marks _, ?_, rfl, h1, h3, h4, h2, h5, h6⟩
  unfold startLayout
  have hs : (⟨[room.size.length], room.size⟩ : Tensor ℝ) = sizeTensor (![8, 6, 3] : Fin 3 → ℝ) := by
    rw [hroom, List.length_ofFn]
    rfl
  dsimp only
  rw [hs, pointsTensor_rows two_pos, pointsTensor_rows two_pos, slice_room, slice_points, slice_points, h]
  rfl

theorem film_rate (fs : ℕ) (hfs : 0 < fs) :
    max 1 (roundHalfEven (animationFps none 128 (some (((10 * fs : ℕ) : ℝ) / fs)))) = 13 := by
  have hr := (videoRate_holds none 128 (10 * fs) fs).2 (fun f h => by cases h) (by omega) (by exact_mod_cast hfs)
  have hf : (fs : ℝ) ≠ 0 := by positivity
  have e : ((128 : ℕ) : ℝ) / (((10 * fs : ℕ) : ℝ) / fs) = 12.8 := by
    push_cast
    field_simp
    norm_num
  rw [e] at hr
  generalize max 1 (roundHalfEven (animationFps none 128 (some (((10 * fs : ℕ) : ℝ) / fs)))) = z at hr ⊢
  rcases hr.2 with ⟨-, h⟩ | h
  · norm_num at h
  · obtain ⟨h1, h2⟩ := abs_le.mp h
    have a : (12 : ℝ) < z := by linarith
    have b : (z : ℝ) < 14 := by linarith
    have a' : (12 : ℤ) < z := by exact_mod_cast a
    have b' : z < (14 : ℤ) := by exact_mod_cast b
    omega

theorem film_ok {room : Room} (hroom : room.size = List.ofFn (![8, 6, 3] : Fin 3 → ℝ)) (src mic : Fin 2 → Fin 3 → ℝ)
    (p q : Fin 128 → Fin 2 → Fin 3 → ℝ) (fs : ℕ) (hfs : 0 < fs) (x : Fin 2 → Fin (10 * fs) → ℝ) :
    ∃ picture, startAnimation (fun _ _ => .ok ()) room (tensor2 x) fs
        ⟨rows src, rows mic, some (Spec.steps p, Spec.steps q)⟩ = ⟨[("layout_dynamic.gif", picture)], .ok ()⟩ ∧
      IsTopFilm p q "layout_dynamic.gif" picture := by
  have hf : (fs : ℝ) ≠ 0 := by positivity
  obtain ⟨movie, h1, h2⟩ := movie_of (Or.inr rfl) (by norm_num) ![8, 6, 3] src mic p q "layout_dynamic.gif" none (10 * fs) hf
    true false true (Or.inl rfl)
  rw [Nat.cast_ofNat (R := ℤ), film_rate fs hfs] at h2
  have e : (((10 * fs : ℕ) : ℝ) / fs) = 10 := by
    push_cast
    field_simp
  rw [e] at h2
  refine ⟨.animation movie, ?_, h2⟩
  unfold startAnimation
  have hs : (⟨[room.size.length], room.size⟩ : Tensor ℝ) = sizeTensor (![8, 6, 3] : Fin 3 → ℝ) := by
    rw [hroom, List.length_ofFn]
    rfl
  dsimp only [Option.map_some]
  rw [hs, pointsTensor_rows two_pos, pointsTensor_rows two_pos, trajTensor_steps (by norm_num) two_pos,
    trajTensor_steps (by norm_num) two_pos]
  have hl : (tensor2 x).shape.getD 1 0 = 10 * fs := rfl
  rw [hl, h1]
  rfl

end StartRun

open StartRun BuilderRun in
/-- **C136, contents.** If two speakers are loaded with a rate above 20 Hz, then the script finishes. The signals are ten
seconds of two different speakers of the dataset. Each half saves the signals and what the microphones hear of them, as
audio and as curves over the time in seconds; the layout of the first half shows the standing scene, the animation of the
second half shows all 128 steps of the moving scene, 13 per second. -/
theorem C136_contents {ι : Type} (conv : Flt → ℤ) (w : World) {r : ℕ → ℝ} (hr : UnitStream r) (k : ℕ)
    (sample : List String → ℕ → List String) (hsample : Samples sample) (shuffle : ℕ → List ι → List ι)
    (hsh : Shuffles shuffle) (speakers : List String) (hsp : speakers.Nodup) (data : String → SpeakerData ι) (fuel : ℕ)
    (signals : List (List ℝ)) (fs : ℕ) (info : List (String × List ι))
    (hload : loadDatasetSources sample shuffle speakers data 2 10 fuel = some (.ok (signals, fs, info)))
    (hfs : 20 < fs) (K : ℕ) (hK : 0 < K) (ht : (K : ℤ) = ⌈0.4 * (fs : ℝ)⌉) (sos : w.Sos)
    (hsos : w.iirfilter 2 (10 / ((fs : ℝ) / 2)) [("rp", "5.0"), ("rs", "60.0"), ("ftype", "butter")] = .ok sos)
    (G : (Fin K → ℝ) →ₗ[ℝ] (Fin K → ℝ)) (hG : ActsAs w sos G)
    (step : Fin (10 * fs) → Fin 128) (hstep : CurrentStep (fun t : Fin 128 => (t : ℕ) * (10 * fs : ℕ) / 128) step) :
    ∃ (x : Fin 2 → Fin (10 * fs) → ℝ) (who : Fin 2 → String × List ι) (c : Fin 3 → ℝ) (src mic : Fin 2 → Fin 3 → ℝ)
      (walk : Fin 128 → Fin 2 → Fin 3 → ℝ),
      let run := startRun (fun _ _ => .ok ()) conv w r k (.ok (signals, fs, info))
      (who 0).1 ≠ (who 1).1 ∧ (∀ s, (who s).1 ∈ speakers) ∧
      (∀ s, IsSource (data (who s).1) fs (10 * fs) (List.ofFn (x s)) (who s).2) ∧
      StartScene c src mic ∧ (∀ t, walk t 0 = src 0) ∧
      StraightPath (src 1) ![src 0 0 + 0.35, src 0 1 + 0.1, src 0 2] (fun t => walk t 1) ∧
      run.result = .ok () ∧
      Found
        (halfFiles "static" "Static" fs (10 * fs) (10 * fs + K - 1) (track x)
          (mix x fun s m => cliResponse (w.device ≠ .mps) ![8, 6, 3] fs 6 G (src s) (mic m))
          ("layout_static.png", IsTopView src mic "Static layout (top view)") ++
        halfFiles "dynamic" "Dynamic" fs (10 * fs) (10 * fs + K - 1) (track x)
          (mixVarying x (fun t s m => cliResponse (w.device ≠ .mps) ![8, 6, 3] fs 6 G (walk t s) (mic m)) step)
          ("layout_dynamic.gif", IsTopFilm walk (fun _ => mic) "layout_dynamic.gif")) run.events := by
  obtain ⟨hlen, -, hnodup, hin, hrows⟩ := C53_sources_partial sample hsample shuffle hsh speakers data 2 10 (by norm_num) fuel
    signals fs info hload
  have hn : ⌊(10 : ℝ) * fs⌋₊ = 10 * fs := by
    have : (10 : ℝ) * fs = ((10 * fs : ℕ) : ℝ) := by push_cast; ring
    rw [this, Nat.floor_natCast]
  rw [hn] at hrows
  obtain ⟨x, who, rfl, rfl, hx⟩ := loaded_signals (S := 2) (by exact_mod_cast hlen) hrows
  have hfs' : (20 : ℝ) < fs := by exact_mod_cast hfs
  obtain ⟨c, src, mic, walk, out, hout, hsc, hw0, hw1, hs1, hs2, -, -, ha1, ha2, -, -⟩ :=
    C97_output conv w hr k fs hfs' K hK ht sos hsos G hG x step hstep
  have hL : ∀ i, (0 : ℝ) < ![8, 6, 3] i := by
    intro i
    fin_cases i <;> norm_num
  have hsize : startArgs.room = List.ofFn ![8, 6, 3] := by
    rw [ofFn3]
    rfl
  have hroom := cliRoom_eq conv (Or.inr rfl) _ hL _ hsize (fs : ℝ) (by linarith)
  unfold gettingStarted at hout
  rw [hroom, ok_bind, bind_eq_ok] at hout
  obtain ⟨sc, h1, hout⟩ := hout
  rw [bind_eq_ok] at hout
  obtain ⟨standing, h2, hout⟩ := hout
  rw [bind_eq_ok] at hout
  obtain ⟨sc', h3, hout⟩ := hout
  rw [bind_eq_ok] at hout
  obtain ⟨moving, h4, hout⟩ := hout
  cases hout
  have half : ∀ (pre : String) (sc : CliScene) (room : Room) (out : StartHalf),
      startHalf w room (tensor2 x) pre sc = .ok out →
      out.scene = sc ∧ renderScene w room startArgs (tensor2 x) sc = .ok (out.rirs, out.audio) := by
    intro pre sc room out h
    unfold startHalf at h
    rw [bind_eq_ok] at h
    obtain ⟨ry, h5, h⟩ := h
    dsimp only at h
    rw [bind_eq_ok] at h
    obtain ⟨files, -, h⟩ := h
    cases h
    exact ⟨rfl, h5⟩
  obtain ⟨e1, r1⟩ := half _ _ _ _ h2
  obtain ⟨e2, r2⟩ := half _ _ _ _ h4
  dsimp only at hs1 hs2 ha1 ha2
  rw [e1] at hs1
  rw [e2] at hs2
  subst hs1 hs2
  rw [ha1] at r1
  rw [ha2] at r2
  obtain ⟨p1, l1, q1⟩ := layout_ok (room := boxRoom ![8, 6, 3] (fun _ => 0.9) (fun _ => 0.9) fs 343) rfl src mic
  obtain ⟨p2, l2, q2⟩ := film_ok (room := boxRoom ![8, 6, 3] (fun _ => 0.9) (fun _ => 0.9) fs 343) rfl src mic walk
    (fun _ => mic) fs (by omega) x
  obtain ⟨A, a1, a2⟩ := half_ok r1 fs "static" "Static" l1 q1
  obtain ⟨B, b1, b2⟩ := half_ok r2 fs "dynamic" "Dynamic" l2 q2
  have hrun : startRun (fun _ _ => .ok ()) conv w r k (.ok (rows x, fs, List.ofFn who)) = ⟨A ++ B, .ok ()⟩ := by
    unfold startRun
    rw [quiet_bind]
    dsimp only
    rw [hroom, quiet_bind, h1, quiet_bind, pointsTensor_rows two_pos, a1, run_bind, h3, quiet_bind, b1]
  refine ⟨x, who, c, src, mic, walk, ?_, fun s => hin _ (List.mem_ofFn.mpr ⟨s, rfl⟩), fun s => (hx s).1, hsc, hw0, hw1, ?_⟩
  · have := hnodup hsp
    simp only [List.ofFn_succ, List.ofFn_zero, List.map_cons, List.map_nil, List.nodup_cons, List.mem_singleton] at this
    exact this.1
  · rw [hrun]
    exact ⟨rfl, List.rel_append a2 b2⟩

/-! ## Cases meeting the hypotheses -/

/-- The speakers of `threeSpeakers` for ten seconds, filtered by halving: the run finishes with 16 files. -/
example (conv : Flt → ℤ) (randn : ℤ → List ℕ → List ℝ) : ∃ loaded : LoadedSources ℕ,
    (startRun (fun _ _ => .ok ()) conv (halvingWorld randn) (fun _ => 0) 7 (.ok loaded)).result = .ok () ∧
    (startRun (fun _ _ => .ok ()) conv (halvingWorld randn) (fun _ => 0) 7 (.ok loaded)).events.length = 16 := by
  obtain ⟨fuel, signals, info, hload⟩ : ∃ fuel rows info, loadDatasetSources (fun l n => l.take n) (fun _ l => l.reverse)
      ["aew", "bdl", "slt"] threeSpeakers (2 : ℕ) 10 fuel = some (.ok (rows, 16000, info)) :=
    C53_succeeds _ samples_take _ (fun _ l => l.reverse_perm) _ _ 2 (by norm_num) (by simp) _ _ (by norm_num)
      fun s _ => ⟨fun u _ => ⟨_, rfl⟩, 1, by simp [threeSpeakers], _, rfl, fun h => by
        have := congrArg List.length h
        rw [List.length_replicate] at this
        cases this⟩
  obtain ⟨step, hstep, -⟩ := C24_every_sample_has_one_step (T := 128) (N := 10 * 16000) (by norm_num) (.uniform none)
  obtain ⟨x, who, c, src, mic, walk, -, -, -, -, -, -, hres, -⟩ := C136_contents conv (halvingWorld randn) (r := fun _ => 0)
    (fun k => ⟨le_rfl, zero_le_one⟩) 7 _ samples_take _ (fun _ l => l.reverse_perm) _ (by decide) threeSpeakers fuel signals 16000
    info hload (by norm_num) 6400 (by norm_num)
    (by rw [eq_comm, Int.ceil_eq_iff]; norm_num) () rfl _ (halving_acts randn 6400) step hstep
  refine ⟨(signals, 16000, info), hres, ?_⟩
  have := ((C136_order _ _ _ _ _ _).2.2).mp hres
  rw [← List.length_map (f := Prod.fst), this]
  rfl

/-- If nothing named `layout_dynamic.gif` can be saved, then the eleven files before it are there. -/
example (conv : Flt → ℤ) (w : World) (loaded : Except String (LoadedSources ℕ))
    (h : (startRun (fun _ _ => .ok ()) conv w (fun _ => 0) 7 loaded).result = .ok ()) :
    let run := startRun (fun name _ => if name = "layout_dynamic.gif" then .error "OSError" else .ok ()) conv w (fun _ => 0) 7
      loaded
    run.result = .error "OSError" ∧ run.events.length = 11 := by
  intro run
  have hn := ((C136_order _ _ _ _ _ _).2.2).mp h
  set ev := (startRun (fun _ _ => .ok ()) conv w (fun _ => 0) 7 loaded).events with hev
  have hl : ev.length = 16 := by
    rw [← List.length_map (f := Prod.fst), hn]
    rfl
  have hsplit : ev = ev.take 11 ++ ev[11] :: ev.drop 12 := by
    rw [List.cons_getElem_drop_succ, List.take_append_drop]
  have h11 : ev[11].1 = "layout_dynamic.gif" := by
    have : (ev.map Prod.fst)[11]'(by rw [List.length_map]; omega) = startNames[11] := by simp only [hn]
    rw [List.getElem_map] at this
    exact this
  have hb : ∀ f ∈ ev.take 11, f.1 ≠ "layout_dynamic.gif" := by
    intro f hf hname
    have : f.1 ∈ startNames.take 11 := by
      rw [← hn, ← List.map_take]
      exact List.mem_map_of_mem hf
    rw [hname] at this
    revert this
    decide
  have := (C136_broken_off (fun name _ => if name = "layout_dynamic.gif" then .error "OSError" else .ok ()) conv w (fun _ => 0) 7
    loaded).2 _ _ _ "OSError" hsplit (fun f hf => if_neg (hb f hf)) (if_pos h11)
  show run.result = _ ∧ run.events.length = _
  rw [show run = _ from this]
  exact ⟨rfl, by simp [hl]⟩

end Torchrir.Props
