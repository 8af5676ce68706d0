import Verif.Spec.BuilderRun
import Verif.Props.BuilderRecords
import Verif.Props.BuilderCli
import Verif.Props.Frames
import Verif.Props.ScriptRun

/-!
# Whole runs of the dataset builder
-/

namespace Torchrir.Props

open Torchrir.Model Torchrir.Spec Torchrir.Lemmas

namespace BuilderRun

/-! ## Events -/

theorem bind_ok {ε α β : Type} {x : Logged ε α} {a : α} (h : x.result = .ok a) (f : α → Logged ε β) :
    x >>= f = ⟨x.events ++ (f a).events, (f a).result⟩ := by
  show Logged.andThen x f = _
  unfold Logged.andThen
  rw [h]

theorem bind_error {ε α β : Type} {x : Logged ε α} {e : String} (h : x.result = .error e) (f : α → Logged ε β) :
    x >>= f = ⟨x.events, .error e⟩ := by
  show Logged.andThen x f = _
  unfold Logged.andThen
  rw [h]

theorem bind_result {ε α β : Type} {x : Logged ε α} {f : α → Logged ε β} {b : β} (h : (x >>= f).result = .ok b) :
    ∃ a, x.result = .ok a ∧ (f a).result = .ok b ∧ (x >>= f).events = x.events ++ (f a).events := by
  cases hx : x.result with
  | error e =>
    rw [bind_error hx] at h
    cases h
  | ok a =>
    rw [bind_ok hx] at h
    exact ⟨a, rfl, h, by rw [bind_ok hx]⟩

theorem bind_succeeds {ε α β : Type} {x : Logged ε α} {f : α → Logged ε β} {a : α} {b : β} (h : x.result = .ok a)
    (hf : (f a).result = .ok b) : (x >>= f).result = .ok b := by
  rw [bind_ok h]
  exact hf

theorem quiet_bind {ε α β : Type} (a : α) (f : α → Logged ε β) : (Logged.quiet (.ok a) : Logged ε α) >>= f = f a := by
  rw [bind_ok (x := (Logged.quiet (.ok a) : Logged ε α)) (a := a) rfl]
  simp [Logged.quiet]

/-- A beginning of the list is left, all of it without an exception. -/
def Ends {ε α γ : Type} (g : ε → γ) (x : Logged ε α) (l : List γ) : Prop :=
  x.events.map g <+: l ∧ ∀ a, x.result = .ok a → x.events.map g = l

/-- All of it only without an exception. -/
def Full {ε α γ : Type} (g : ε → γ) (x : Logged ε α) (l : List γ) : Prop :=
  Ends g x l ∧ (x.events.map g = l → ∃ a, x.result = .ok a)

theorem Ends.bind {ε α β γ : Type} {g : ε → γ} {x : Logged ε α} {p q : List γ} (hx : Ends g x p) {f : α → Logged ε β}
    (hf : ∀ a, x.result = .ok a → Ends g (f a) q) : Ends g (x >>= f) (p ++ q) := by
  cases h : x.result with
  | error e =>
    rw [bind_error h]
    exact ⟨hx.1.trans (List.prefix_append _ _), fun a ha => by cases ha⟩
  | ok a =>
    rw [bind_ok h]
    refine ⟨?_, fun b hb => ?_⟩
    · rw [List.map_append, hx.2 a h]
      exact (List.prefix_append_right_inj _).mpr (hf a h).1
    · rw [List.map_append, hx.2 a h, (hf a h).2 b hb]

theorem Full.bind {ε α β γ : Type} {g : ε → γ} {x : Logged ε α} {p q : List γ} (hx : Ends g x p) {f : α → Logged ε β}
    (hq : q ≠ []) (hf : ∀ a, x.result = .ok a → Full g (f a) q) : Full g (x >>= f) (p ++ q) := by
  refine ⟨Ends.bind hx fun a h => (hf a h).1, ?_⟩
  cases h : x.result with
  | error e =>
    rw [bind_error h]
    intro hall
    have := hx.1.length_le
    rw [hall, List.length_append] at this
    exact absurd (List.length_eq_zero_iff.mp (by omega : q.length = 0)) hq
  | ok a =>
    rw [bind_ok h]
    intro hall
    rw [List.map_append, hx.2 a h] at hall
    exact (hf a h).2 (List.append_cancel_left hall)

theorem Full.bind_full {ε α β γ : Type} {g : ε → γ} {x : Logged ε α} {p q : List γ} (hx : Full g x p)
    {f : α → Logged ε β} (hf : ∀ a, x.result = .ok a → Full g (f a) q) : Full g (x >>= f) (p ++ q) := by
  by_cases hq : q = []
  · subst hq
    refine ⟨Ends.bind hx.1 fun a h => (hf a h).1, ?_⟩
    cases h : x.result with
    | error e =>
      rw [bind_error h]
      intro hall
      rw [List.append_nil] at hall
      obtain ⟨a, ha⟩ := hx.2 hall
      rw [h] at ha
      cases ha
    | ok a =>
      rw [bind_ok h]
      intro hall
      rw [List.map_append, hx.1.2 a h] at hall
      exact (hf a h).2 (List.append_cancel_left hall)
  · exact Full.bind hx.1 hq hf

theorem Ends.quiet {ε α γ : Type} (g : ε → γ) (x : Except String α) : Ends g (Logged.quiet x) [] :=
  ⟨List.nil_prefix, fun _ _ => rfl⟩

theorem Full.then {ε α β γ : Type} {g : ε → γ} {x : Except String α} {q : List γ} {f : α → Logged ε β} (hq : q ≠ [])
    (hf : ∀ a, x = .ok a → Full g (f a) q) : Full g (Logged.quiet x >>= f) q :=
  Full.bind (p := []) (Ends.quiet g x) hq hf

theorem Full.leave {ε γ : Type} (g : ε → γ) (l : List ε) : Full g (Logged.leave l) (l.map g) :=
  ⟨⟨List.prefix_refl _, fun _ _ => rfl⟩, fun _ => ⟨(), rfl⟩⟩

theorem Full.done {ε α γ : Type} (g : ε → γ) (a : α) : Full g (pure a : Logged ε α) [] :=
  ⟨⟨List.prefix_refl _, fun _ _ => rfl⟩, fun _ => ⟨a, rfl⟩⟩

theorem Full.each {ε γ : Type} {g : ε → γ} {f : ℕ → Logged ε Unit} {N : ℕ → List γ} :
    ∀ {l : List ℕ}, (∀ k ∈ l, Full g (f k) (N k)) → Full g (Logged.each f l) (l.flatMap N)
  | [], _ => Full.done g ()
  | k :: rest, h => by
    rw [List.flatMap_cons]
    exact Full.bind_full (h k (by simp)) fun _ _ => Full.each fun j hj => h j (by simp [hj])

theorem each_append {ε : Type} (f : ℕ → Logged ε Unit) : ∀ l r : List ℕ,
    Logged.each f (l ++ r) = (do
      Logged.each f l
      Logged.each f r)
  | [], r => by
    show _ = (pure () : Logged ε Unit) >>= _
    rw [bind_ok (x := (pure () : Logged ε Unit)) (a := ()) rfl]
    rfl
  | k :: l, r => by
    show f k >>= (fun _ => Logged.each f (l ++ r)) = (f k >>= fun _ => Logged.each f l) >>= fun _ => Logged.each f r
    rw [each_append f l r]
    cases h : (f k).result with
    | error e => rw [bind_error h, bind_error h, bind_error (by rfl)]
    | ok a =>
      rw [bind_ok h, bind_ok h]
      cases h2 : (Logged.each f l).result with
      | error e => rw [bind_error h2, bind_error (by rfl)]
      | ok b =>
        rw [bind_ok h2, bind_ok (a := b) (by rfl)]
        dsimp only
        rw [List.append_assoc]

/-- A loop without an exception. -/
theorem each_ok {ε : Type} {f : ℕ → Logged ε Unit} : ∀ {l : List ℕ}, (Logged.each f l).result = .ok () →
    (∀ k ∈ l, (f k).result = .ok ()) ∧ (Logged.each f l).events = l.flatMap fun k => (f k).events
  | [], _ => ⟨by simp, rfl⟩
  | k :: rest, h => by
    obtain ⟨u, h1, h2, h3⟩ := bind_result (x := f k) (f := fun _ => Logged.each f rest) h
    obtain ⟨h4, h5⟩ := each_ok h2
    refine ⟨fun j hj => ?_, ?_⟩
    · rcases List.mem_cons.mp hj with rfl | hj
      · exact h1
      · exact h4 j hj
    · rw [List.flatMap_cons, ← h5]
      exact h3

theorem each_succeeds {ε : Type} {f : ℕ → Logged ε Unit} : ∀ {l : List ℕ}, (∀ k ∈ l, (f k).result = .ok ()) →
    (Logged.each f l).result = .ok ()
  | [], _ => rfl
  | k :: rest, h => by
    show (f k >>= fun _ => Logged.each f rest).result = _
    rw [bind_ok (h k (by simp))]
    exact each_succeeds fun j hj => h j (by simp [hj])

theorem Full.ok {ε γ : Type} {g : ε → γ} {x : Logged ε Unit} {l : List γ} (h : Full g x l) :
    x.result = .ok () ↔ x.events.map g = l :=
  ⟨fun h' => h.1.2 () h', fun h' => (h.2 h').elim fun _ h => h⟩

/-! ## One scene -/

theorem map_ok {α β : Type} {f : α → β} {x : Except String α} {y : β} (h : x.map f = .ok y) : ∃ a, x = .ok a ∧ f a = y := by
  cases x with
  | error e => cases h
  | ok a =>
    cases h
    exact ⟨a, rfl, rfl⟩

theorem placed_length {draws : ℕ → TrialDraws} {choice : List ℕ} {room center margin : P3} {m : Motion}
    {r : ℝ} {q : List Placed × List ℕ} (h : placeSources draws choice room center margin m r = .ok q) :
    q.1.length = m.nSources.toNat := by
  have hone : ∀ d moving D v w R R', ∀ p, placeOnce d room center margin m.nSources.toNat moving D v w R R' = .ok p →
      p.length = m.nSources.toNat := by
    intro d moving D v w R R' p hp
    unfold placeOnce at hp
    dsimp only at hp
    rw [bind_eq_ok] at hp
    obtain ⟨starts, -, hp⟩ := hp
    rw [mapM_length_ok hp, List.length_range]
  have htry : ∀ (f : TrialDraws → Except String (List Placed)), (∀ d p, f d = .ok p → p.length = m.nSources.toNat) →
      ∀ left k p, tryPlace f draws left k = .ok p → p.length = m.nSources.toNat := by
    intro f hf left
    induction left with
    | zero =>
      intro k p hp
      cases hp
    | succ left ih =>
      intro k p hp
      unfold tryPlace at hp
      cases hd : f (draws k) with
      | error e =>
        rw [hd] at hp
        exact ih _ _ hp
      | ok p' =>
        rw [hd] at hp
        cases hp
        exact hf _ _ hd
  unfold placeSources at h
  split_ifs at h
  all_goals
    dsimp only at h
    split_ifs at h
  all_goals
    obtain ⟨p, hp, rfl⟩ := map_ok h
    exact htry _ (fun d p h => hone _ _ _ _ _ _ _ p h) _ _ _ hp

theorem trajectory_length {placed : List Placed} {center : P3} {moving : List ℕ} {n : ℤ} (hn : 0 < n) {a b : ℝ}
    {t : List (List P3)} (h : sourceTrajectory placed center moving n a b = .ok t) :
    t.length = n.toNat ∧ ∀ step ∈ t, step.length = placed.length := by
  unfold sourceTrajectory at h
  split_ifs at h with h1
  · cases h
    refine ⟨by simp; omega, fun step hs => ?_⟩
    rw [List.mem_singleton.mp hs, List.length_map]
  · cases h
    refine ⟨by simp, fun step hs => ?_⟩
    obtain ⟨k, -, rfl⟩ := List.mem_map.mp hs
    simp

/-- The coordinates of a list of positions. -/
theorem rows_of {l : List Vec} {n : ℕ} (hl : l.length = n) (h3 : ∀ v ∈ l, v.length = 3) :
    ∃ p : Fin n → Fin 3 → ℝ, rows p = l := by
  refine ⟨fun i j => (l.getD i []).getD j 0, ?_⟩
  subst hl
  unfold rows
  apply List.ext_getElem
  · simp
  · intro k h1 h2
    have hk : (l[k]).length = 3 := h3 _ (List.getElem_mem h2)
    rw [List.getElem_ofFn]
    apply List.ext_getElem
    · simp [hk]
    · intro j j1 j2
      rw [List.getElem_ofFn]
      dsimp only
      rw [List.getD_eq_getElem (hn := h2), List.getD_eq_getElem (hn := j2)]

theorem steps_of {l : List (List Vec)} {T n : ℕ} (hl : l.length = T) (hn : ∀ s ∈ l, s.length = n)
    (h3 : ∀ s ∈ l, ∀ v ∈ s, v.length = 3) : ∃ p : Fin T → Fin n → Fin 3 → ℝ, steps p = l := by
  subst hl
  have : ∀ t : Fin l.length, ∃ p : Fin n → Fin 3 → ℝ, rows p = l[t] := fun t =>
    rows_of (hn _ (List.getElem_mem t.2)) (h3 _ (List.getElem_mem t.2))
  choose p hp using this
  refine ⟨p, ?_⟩
  apply List.ext_getElem
  · simp [steps]
  · intro k h1 h2
    have := hp ⟨k, h2⟩
    simpa [steps, rows] using this

theorem vadd_length {base : List Vec} {edge : ℝ} (hb : octahedron edge = .ok base) (c : P3) :
    ∀ v ∈ base.map (fun v => vadd v [c.x, c.y, c.z]), v.length = 3 := by
  intro v hv
  obtain ⟨w, hw, rfl⟩ := List.mem_map.mp hv
  obtain ⟨x, y, z, rfl, -⟩ := (octahedron_ok hb).2.2 w hw
  simp [vadd]

/-- The positions of a scene that could be built. -/
theorem scene_data {a : BuildArgs} {env : BuildEnv} {room mic margin : P3} {base : List Vec} {target : ℕ}
    {d : SceneDraws} {k : ℕ} {s : BuiltScene} (hb : octahedron a.octaEdge = .ok base) (hT : 0 < a.trajectorySteps)
    (h : buildScene a env room mic margin base target d k = .ok s) :
    s.stems.length = a.nSources.toNat ∧
    ∃ (sp : Fin a.nSources.toNat → Fin 3 → ℝ) (mp : Fin 6 → Fin 3 → ℝ)
      (p : Fin a.trajectorySteps.toNat → Fin a.nSources.toNat → Fin 3 → ℝ), SceneData s sp mp p := by
  obtain ⟨-, hm, hp, ht, ⟨raw, hr1, hr2⟩, hc, -, -⟩ := buildScene_ok h
  have hpl : s.placed.length = a.nSources.toNat := placed_length hp
  obtain ⟨ht1, ht2⟩ := trajectory_length hT ht
  refine ⟨?_, ?_⟩
  · obtain ⟨g, -, -, hs, -⟩ := normalizeSources_ok (by norm_num) hr2
    rw [hs, List.length_map, mapM_length_ok hr1, hc]
  · obtain ⟨sp, h1⟩ := rows_of (l := s.placed.map fun q => [q.start.x, q.start.y, q.start.z]) (by simpa using hpl)
      (by simp)
    obtain ⟨mp, h2⟩ := rows_of (l := s.mics) (n := 6) (by rw [hm, List.length_map]; exact (octahedron_ok hb).2.1)
      (by rw [hm]; exact vadd_length hb _)
    obtain ⟨p, h3⟩ := steps_of (l := s.trajectory.map fun step => step.map fun q => [q.x, q.y, q.z])
      (T := a.trajectorySteps.toNat) (n := a.nSources.toNat) (by simpa using ht1)
      (fun step hs => by
        obtain ⟨step', hs', rfl⟩ := List.mem_map.mp hs
        rw [List.length_map, ht2 step' hs', hpl])
      (fun step hs v hv => by
        obtain ⟨step', -, rfl⟩ := List.mem_map.mp hs
        obtain ⟨q, -, rfl⟩ := List.mem_map.mp hv
        rfl)
    exact ⟨sp, mp, p, h1, h2, h3⟩

end BuilderRun

/-- What is in the folder of scene `k`: the stems and the mixture at their rate; layouts and videos, if they are asked
for, of the sources where they start and on their paths, of the array and of the room, the videos as long as the sound,
with the same lines of text; the metadata that describes the same positions and directions; and the records of the
sources. -/
def SceneOnDisk (a : BuildArgs) (o : LayoutArgs) (L : Fin 3 → ℝ) (rate target k : ℕ) (s : BuiltScene)
    (files : List (String × BuilderFile)) : Prop :=
  ∃ (sp : Fin a.nSources.toNat → Fin 3 → ℝ) (mp : Fin 6 → Fin 3 → ℝ)
    (p : Fin a.trajectorySteps.toNat → Fin a.nSources.toNat → Fin 3 → ℝ) (images : List Image) (movies : List Movie)
    (fr : ℤ) (md : Metadata) (az el : Fin a.trajectorySteps.toNat → Fin a.nSources.toNat → Fin 6 → ℝ),
    SceneData s sp mp p ∧
    files = (s.stems.mapIdx fun i x => ("source_" ++ zeroPadded 2 i ++ ".wav", .sound x rate)) ++
      (("mixture.wav", .sound s.mixture rate) ::
        ((images.map fun i => (i.1, .picture (.image i) (layoutLines a k s))) ++
          (movies.map fun m => (m.name, .picture (.movie m) (layoutLines a k s))) ++
          [("metadata.json", .metadata md (sourceRecords a s) (sceneExtra a k s)),
            ("source_info.json", .records (sourceRecords a s))])) ∧
    List.Forall₂ (IsLayout L sp mp p (fun _ : Fin a.trajectorySteps.toNat => mp) o.annotate)
      (if o.images then views 3 true o.images3d else []) images ∧
    VideoRate o.fps a.trajectorySteps.toNat target rate fr ∧
    List.Forall₂ (IsMovie p (fun _ => mp) (target / rate) o.annotate fr)
      (if o.mp4 then ("room_layout_2d.mp4", 2) :: (if o.mp43d then [("room_layout_3d.mp4", 3)] else []) else []) movies ∧
    Describes md rate sp mp p (fun _ => mp)
      [a.trajectorySteps.toNat, a.nSources.toNat, 6, a.rirSamples.toNat] target ∧
    md.azimuth = (List.ofFn fun t => List.ofFn fun i => List.ofFn (az t i)) ∧
    md.elevation = (List.ofFn fun t => List.ofFn fun i => List.ofFn (el t i)) ∧
    ∀ t i m, PointsTo (fun j => p t i j - mp m j) (az t i m) (el t i m)

namespace BuilderRun

theorem replicate_steps {M : ℕ} (mp : Fin M → Fin 3 → ℝ) (T : ℕ) :
    List.replicate T (rows mp) = steps fun _ : Fin T => mp := by
  unfold steps rows
  rw [List.ofFn_const]

/-- The events of a scene that could be built. -/
theorem scene_events {a : BuildArgs} {o : LayoutArgs} {env : BuildEnv} {write : Tensor ℝ → ℕ → Except String Unit}
    {room mic margin : P3} {base : List Vec} {rate target : ℕ}
    {d : SceneDraws} {k : ℕ} {s : BuiltScene} (hb : octahedron a.octaEdge = .ok base) (hT : 0 < a.trajectorySteps)
    (hS : 0 < a.nSources) (hrate : rate ≠ 0) (h : buildScene a env room mic margin base target d k = .ok s) :
    ∃ files, SceneOnDisk a o ![room.x, room.y, room.z] rate target k s files ∧
      Full id (sceneRun a o env write room mic margin base rate target d k)
        (.folder (sceneId k) :: files.map fun f => .file (sceneId k) f.1 f.2) ∧
      ((∀ x, write x rate = .ok ()) → (sceneRun a o env write room mic margin base rate target d k).result = .ok ()) := by
  obtain ⟨hstems, sp, mp, p, hdata⟩ := scene_data hb hT h
  have hTn : 0 < a.trajectorySteps.toNat := by omega
  have hSn : 0 < a.nSources.toNat := by omega
  have e1 : sceneSources s = tensor2 sp := by
    unfold sceneSources
    rw [← pointsTensor_rows hSn sp, hdata.starts]
    rfl
  have e2 : pointsTensor s.mics = tensor2 mp := by rw [← pointsTensor_rows (by norm_num) mp, hdata.mics]
  have e3 : sceneSrcTraj s = tensor3 p := by
    unfold sceneSrcTraj
    rw [← trajTensor_steps hTn hSn p, hdata.path]
    rfl
  have e4 : sceneMicTraj a s = tensor3 fun _ : Fin a.trajectorySteps.toNat => mp := by
    unfold sceneMicTraj
    rw [← hdata.mics, replicate_steps, trajTensor_steps hTn (by norm_num)]
  have e5 : (⟨[3], room.toVec⟩ : Tensor ℝ) = sizeTensor ![room.x, room.y, room.z] := by
    unfold sizeTensor P3.toVec
    simp [List.ofFn_succ]
  obtain ⟨images, i1, i2⟩ := (C83_layout (Or.inr rfl) hTn hTn hSn (by norm_num) ![room.x, room.y, room.z] sp mp p
    (fun _ : Fin a.trajectorySteps.toNat => mp) true o.images3d o.annotate).2
  obtain ⟨fr, movies, m0, m1, m2⟩ := C83_videos (Or.inr rfl) hTn ![room.x, room.y, room.z] sp mp p
    (fun _ : Fin a.trajectorySteps.toNat => mp) target rate (by exact_mod_cast hrate) o.fps o.mp43d o.annotate
  obtain ⟨md, d1, d2, az, el, d3, d4, d5⟩ := metadata_describes (n := target) (Or.inr rfl) hTn (rate : ℝ) sp mp p
    (fun _ : Fin a.trajectorySteps.toNat => mp) (srcTraj := some (tensor3 p))
    (micTraj := some (tensor3 fun _ : Fin a.trajectorySteps.toNat => mp)) (Or.inl rfl) (Or.inl rfl)
    [a.trajectorySteps.toNat, a.nSources.toNat, 6, a.rirSamples.toNat] (by simp)
  rw [if_congr (by simp : ((3 : ℕ) = 3 ∧ o.mp43d = true) ↔ o.mp43d = true) rfl rfl] at m2
  have hlay : sceneLayouts a o room rate target k s =
      ((if o.images then images else []).map fun i =>
        BuilderEvent.file (sceneId k) i.1 (.picture (.image i) (layoutLines a k s))) ++
      ((if o.mp4 then movies else []).map fun m =>
        BuilderEvent.file (sceneId k) m.name (.picture (.movie m) (layoutLines a k s))) := by
    unfold sceneLayouts
    rw [e1, e2, e3, e4, e5, i1, m1]
    cases o.images <;> cases o.mp4 <;> rfl
  refine ⟨_, ⟨sp, mp, p, if o.images then images else [], if o.mp4 then movies else [], fr, md, az, el, hdata, rfl, ?_,
    m0, ?_, d2, d3, d4, d5⟩, ?_, ?_⟩
  · split_ifs
    · exact i2
    · exact .nil
  · split_ifs
    · rename_i h1 h2
      rw [if_pos h2] at m2
      exact m2
    · rename_i h1 h2
      rw [if_neg h2] at m2
      exact m2
    · exact .nil
  · unfold sceneRun
    have hsound : ∀ name x, Full id (writeSound write (sceneId k) name x rate)
        [BuilderEvent.file (sceneId k) name (.sound x rate)] := fun name x =>
      Full.then (by simp) fun _ _ => by simpa using Full.leave (id : BuilderEvent → BuilderEvent) [_]
    refine Full.bind (p := [_]) (by simpa using (Full.leave (id : BuilderEvent → BuilderEvent) [_]).1) (by simp) fun _ _ => ?_
    rw [h, quiet_bind, List.map_append, List.map_cons, List.map_append, List.map_append]
    refine Full.bind ?_ (by simp) fun _ _ => Full.bind (p := [_]) (hsound _ _).1 (by simp) fun _ _ => ?_
    · have := (Full.each (g := id) (f := fun i => writeSound write (sceneId k) ("source_" ++ zeroPadded 2 i ++ ".wav")
        (s.stems.getD i ⟨[], []⟩) rate) (l := List.range s.stems.length) fun i _ => hsound _ _).1
      convert this using 1
      rw [← List.map_eq_flatMap]
      apply List.ext_getElem
      · simp
      · intro i h1 h2
        simp at h2
        simp [List.getElem?_eq_getElem h2]
    · rw [e1, e2, e3, e4, (octahedron_ok hb).2.1, hlay]
      refine Full.bind (p := _ ++ _) (by simpa [Function.comp_def] using (Full.leave (id : BuilderEvent → BuilderEvent) _).1) (by simp) fun _ _ => ?_
      rw [d1, quiet_bind]
      exact Full.bind (p := [_]) (by simpa using (Full.leave (id : BuilderEvent → BuilderEvent) [_]).1) (by simp) fun _ _ =>
        by simpa using Full.leave (id : BuilderEvent → BuilderEvent) [_]
  · intro hw
    have hsound : ∀ name x, (writeSound write (sceneId k) name x rate).result = .ok () := fun name x =>
      bind_succeeds (a := ()) (by exact hw x) rfl
    have hmd : buildMetadata 3 rate (sceneSources s) (pointsTensor s.mics) .floating
        [a.trajectorySteps.toNat, a.nSources.toNat, base.length, a.rirSamples.toNat] (some (sceneSrcTraj s))
        (some (sceneMicTraj a s)) none (some target) = .ok md := by
      rw [e1, e2, e3, e4, (octahedron_ok hb).2.1]
      exact d1
    unfold sceneRun
    rw [h]
    exact bind_succeeds (a := ()) rfl <| bind_succeeds (a := s) rfl <|
      bind_succeeds (a := ()) (each_succeeds fun i _ => hsound _ _) <| bind_succeeds (a := ()) (hsound _ _) <|
      bind_succeeds (a := ()) rfl <| bind_succeeds (a := md) hmd <| bind_succeeds (a := ()) rfl rfl

/-- The names of the files of a scene. -/
theorem scene_names {a : BuildArgs} {o : LayoutArgs} {L : Fin 3 → ℝ} {rate target k : ℕ} {s : BuiltScene}
    {files : List (String × BuilderFile)} (hs : s.stems.length = a.nSources.toNat)
    (h : SceneOnDisk a o L rate target k s files) : files.map Prod.fst = builtFiles a o := by
  obtain ⟨sp, mp, p, images, movies, fr, md, az, el, -, rfl, hi, -, hm, -⟩ := h
  have h1 : ∀ {vs : List ℕ} {l : List Image},
      List.Forall₂ (IsLayout L sp mp p (fun _ : Fin a.trajectorySteps.toNat => mp) o.annotate) vs l →
      l.map Prod.fst = vs.map fun v => "room_layout_" ++ toString v ++ "d.png" := by
    intro vs l h
    induction h with
    | nil => rfl
    | cons h _ ih => rw [List.map_cons, List.map_cons, ih, h.1]
  have h2 : ∀ {vs : List (String × ℕ)} {l : List Movie},
      List.Forall₂ (IsMovie p (fun _ : Fin a.trajectorySteps.toNat => mp) (target / rate) o.annotate fr) vs l →
      l.map Movie.name = vs.map Prod.fst := by
    intro vs l h
    induction h with
    | nil => rfl
    | cons h _ ih => rw [List.map_cons, List.map_cons, ih, h.1]
  have h3 : (s.stems.mapIdx fun i x => ("source_" ++ zeroPadded 2 i ++ ".wav", BuilderFile.sound x rate)).map Prod.fst =
      (List.range a.nSources.toNat).map fun s => "source_" ++ zeroPadded 2 s ++ ".wav" := by
    apply List.ext_getElem
    · simp [hs]
    · intro i h1 h2
      simp
  unfold builtFiles layoutNames
  rw [List.map_append, h3, List.map_cons, List.map_append, List.map_append, List.map_map, List.map_map]
  congr 2
  have e1 : images.map (Prod.fst ∘ fun i : Image => (i.1, BuilderFile.picture (.image i) (layoutLines a k s))) =
      images.map Prod.fst := rfl
  have e2 : movies.map (Prod.fst ∘ fun m : Movie => (m.name, BuilderFile.picture (.movie m) (layoutLines a k s))) =
      movies.map Movie.name := rfl
  rw [e1, e2, h1 hi, h2 hm]
  cases o.images <;> cases o.images3d <;> cases o.mp4 <;> cases o.mp43d <;> rfl

/-- The names of what a scene leaves. -/
theorem scene_full {a : BuildArgs} {o : LayoutArgs} {env : BuildEnv} {write : Tensor ℝ → ℕ → Except String Unit}
    {room mic margin : P3} {base : List Vec} {rate target : ℕ} {d : SceneDraws} {k : ℕ}
    (hb : octahedron a.octaEdge = .ok base) (hT : 0 < a.trajectorySteps) (hS : 0 < a.nSources) (hrate : rate ≠ 0) :
    Full BuilderEvent.name (sceneRun a o env write room mic margin base rate target d k) (builtScene a o k) := by
  cases h : buildScene a env room mic margin base target d k with
  | error e =>
    unfold sceneRun builtScene
    refine Full.bind (p := [_]) (Full.leave BuilderEvent.name [BuilderEvent.folder (sceneId k)]).1 ?_ fun _ _ =>
      Full.then ?_ fun s hs => ?_
    · simp [builtFiles]
    · simp [builtFiles]
    · rw [h] at hs
      cases hs
  | ok s =>
    obtain ⟨files, h1, h2, -⟩ := scene_events (o := o) (write := write) hb hT hS hrate h
    have hn := scene_names (scene_data hb hT h).1 h1
    have e : builtScene a o k =
        (BuilderEvent.folder (sceneId k) :: files.map fun f => BuilderEvent.file (sceneId k) f.1 f.2).map
          BuilderEvent.name := by
      unfold builtScene
      rw [← hn, List.map_cons, List.map_map, List.map_map]
      rfl
    rw [e]
    unfold Full Ends at h2
    rw [List.map_id] at h2
    refine ⟨⟨h2.1.1.map _, fun a ha => by rw [h2.1.2 a ha]⟩, fun hall => ?_⟩
    refine h2.2 (h2.1.1.eq_of_length ?_)
    have := congrArg List.length hall
    simpa using this

/-! ## The run -/

/-- Everything before the loop over the scenes succeeded. -/
structure Prepared (a : BuildArgs) (env : BuildEnv) (rate : ℕ) (base : List Vec) : Prop where
  common : ∃ r, commonRate env.sampleRate a.speakers none = .ok r ∧ r.getD 0 = rate
  long : ¬ trunc (a.duration * rate) ≤ 0
  array : octahedron a.octaEdge = .ok base
  enough : ¬ a.nSources > base.length
  room : env.room = .ok ()

theorem Prepared.rate_ne {a : BuildArgs} {env : BuildEnv} {rate : ℕ} {base : List Vec} (h : Prepared a env rate base) :
    rate ≠ 0 := by
  rintro rfl
  refine h.long ?_
  simp [trunc]

theorem raise_no {p : Prop} [Decidable p] {msg : String} (h : ¬ p) : raiseIf p msg = .ok () := by
  unfold raiseIf
  rw [if_neg h]

theorem scenesRun_prepared {a : BuildArgs} {o : LayoutArgs} {env : BuildEnv} {write : Tensor ℝ → ℕ → Except String Unit}
    {draws : ℕ → SceneDraws} {room mic margin : P3} {rate : ℕ} {base : List Vec} (h : Prepared a env rate base) :
    scenesRun a o env write draws room mic margin = (do
      Logged.each (fun k => sceneRun a o env write room mic margin base rate (trunc (a.duration * rate)).toNat (draws k) k)
        (List.range a.nScenes.toNat)
      return (rate, base.length)) := by
  obtain ⟨r, h1, rfl⟩ := h.common
  unfold scenesRun
  rw [h1, quiet_bind]
  dsimp only
  rw [raise_no h.long, quiet_bind, h.array, quiet_bind, raise_no h.enough, quiet_bind, h.room, quiet_bind]

theorem buildScenes_prepared {a : BuildArgs} {env : BuildEnv} {draws : ℕ → SceneDraws} {room mic margin : P3} {rate : ℕ}
    {base : List Vec} (h : Prepared a env rate base) :
    buildScenes a env draws room mic margin = (do
      let scenes ← (List.range a.nScenes.toNat).mapM fun k =>
        buildScene a env room mic margin base (trunc (a.duration * rate)).toNat (draws k) k
      return (rate, scenes)) := by
  obtain ⟨r, h1, rfl⟩ := h.common
  unfold buildScenes
  rw [h1, ok_bind]
  dsimp only
  rw [raise_no h.long, ok_bind, h.array, ok_bind, raise_no h.enough, ok_bind, h.room, ok_bind]

theorem quiet_error {ε α β : Type} (e : String) (f : α → Logged ε β) :
    (Logged.quiet (.error e) : Logged ε α) >>= f = ⟨[], .error e⟩ := rfl

/-- Otherwise nothing is left. -/
theorem prepared_or (a : BuildArgs) (o : LayoutArgs) (env : BuildEnv) (write : Tensor ℝ → ℕ → Except String Unit)
    (draws : ℕ → SceneDraws) (room mic margin : P3) :
    (∃ rate base, Prepared a env rate base) ∨
      ∃ e, scenesRun a o env write draws room mic margin = ⟨[], .error e⟩ ∧
        buildScenes a env draws room mic margin = .error e := by
  unfold scenesRun buildScenes
  cases h1 : commonRate env.sampleRate a.speakers none with
  | error e => exact Or.inr ⟨e, rfl, rfl⟩
  | ok r =>
    rw [quiet_bind, ok_bind]
    dsimp only
    by_cases h2 : trunc (a.duration * (r.getD 0 : ℕ)) ≤ 0
    · refine Or.inr ⟨"duration_sec is too small", ?_, ?_⟩ <;>
      · unfold raiseIf
        rw [if_pos h2]
        rfl
    · rw [raise_no h2, quiet_bind, ok_bind]
      cases h3 : octahedron a.octaEdge with
      | error e => exact Or.inr ⟨e, rfl, rfl⟩
      | ok base =>
        rw [quiet_bind, ok_bind]
        by_cases h4 : a.nSources > base.length
        · refine Or.inr ⟨"n_sources must be <= n_mics", ?_, ?_⟩ <;>
          · unfold raiseIf
            rw [if_pos h4]
            rfl
        · rw [raise_no h4, quiet_bind, ok_bind]
          cases h5 : env.room with
          | error e => exact Or.inr ⟨e, rfl, rfl⟩
          | ok u => exact Or.inl ⟨_, base, ⟨r, h1, rfl⟩, h2, h3, h4, h5⟩

/-- The loop over the scenes. -/
noncomputable abbrev loop (a : BuildArgs) (o : LayoutArgs) (env : BuildEnv) (write : Tensor ℝ → ℕ → Except String Unit)
    (draws : ℕ → SceneDraws) (room mic margin : P3) (rate : ℕ) (base : List Vec) (n : ℕ) : Logged BuilderEvent Unit :=
  Logged.each (fun k => sceneRun a o env write room mic margin base rate (trunc (a.duration * rate)).toNat (draws k) k)
    (List.range n)

/-- Either nothing is left and there is an exception, or the run is the loop over the scenes. -/
theorem run_cases {D : Type} (a : BuildArgs) (o : LayoutArgs) (env : BuildEnv) (write : Tensor ℝ → ℕ → Except String Unit)
    (draws : ℕ → SceneDraws) (root : RootState D) :
    (∃ e, (builderRun a o env write draws root).2 = ⟨[], .error e⟩ ∧ (buildDataset a env draws root).2 = .error e) ∨
    ∃ room mic margin rate base, checkBuildArgs a = .ok (room, mic, margin) ∧ Prepared a env rate base ∧
      (root = .absent ∨ a.overwrite = true) ∧
      (builderRun a o env write draws root).2 = (do
        loop a o env write draws room mic margin rate base a.nScenes.toNat
        return (rate, base.length)) ∧
      (buildDataset a env draws root).2 = (do
        let scenes ← (List.range a.nScenes.toNat).mapM fun k =>
          buildScene a env room mic margin base (trunc (a.duration * rate)).toNat (draws k) k
        return (rate, scenes)) := by
  unfold builderRun buildDataset
  cases hc : checkBuildArgs a with
  | error e => exact Or.inl ⟨e, rfl, rfl⟩
  | ok q =>
    obtain ⟨room, mic, margin⟩ := q
    dsimp only
    rcases prepared_or a o env write draws room mic margin with ⟨rate, base, hp⟩ | ⟨e, h1, h2⟩
    · have h1 := scenesRun_prepared (o := o) (write := write) (draws := draws) (room := room) (mic := mic)
        (margin := margin) hp
      have h2 := buildScenes_prepared (draws := draws) (room := room) (mic := mic) (margin := margin) hp
      cases hov : a.overwrite <;> cases root
      · exact Or.inr ⟨room, mic, margin, rate, base, rfl, hp, Or.inl rfl, h1, h2⟩
      · exact Or.inl ⟨_, rfl, rfl⟩
      · exact Or.inl ⟨_, rfl, rfl⟩
      · exact Or.inr ⟨room, mic, margin, rate, base, rfl, hp, Or.inl rfl, h1, h2⟩
      · exact Or.inr ⟨room, mic, margin, rate, base, rfl, hp, Or.inr rfl, h1, h2⟩
      · exact Or.inr ⟨room, mic, margin, rate, base, rfl, hp, Or.inr rfl, h1, h2⟩
    · cases hov : a.overwrite <;> cases root
      · exact Or.inl ⟨e, h1, h2⟩
      · exact Or.inl ⟨_, rfl, rfl⟩
      · exact Or.inl ⟨_, rfl, rfl⟩
      · exact Or.inl ⟨e, h1, h2⟩
      · exact Or.inl ⟨e, h1, h2⟩
      · exact Or.inl ⟨e, h1, h2⟩

theorem bind_pure_ok {ε α β : Type} (x : Logged ε α) (b : β) :
    (x >>= fun _ => pure b).events = x.events ∧
      ∀ v, (x >>= fun _ => pure b).result = .ok v ↔ v = b ∧ ∃ a, x.result = .ok a := by
  cases h : x.result with
  | error e =>
    rw [bind_error h]
    refine ⟨rfl, fun v => ⟨fun h => (by cases h), ?_⟩⟩
    rintro ⟨-, a, ha⟩
    cases ha
  | ok a =>
    rw [bind_ok h]
    refine ⟨List.append_nil _, fun v => ⟨fun h => ?_, ?_⟩⟩
    · cases h
      exact ⟨rfl, a, rfl⟩
    · rintro ⟨rfl, -⟩
      rfl

theorem loop_full {a : BuildArgs} {o : LayoutArgs} {env : BuildEnv} {write : Tensor ℝ → ℕ → Except String Unit}
    {draws : ℕ → SceneDraws} {room mic margin : P3} {rate : ℕ} {base : List Vec} {q : P3 × P3 × P3}
    (hc : checkBuildArgs a = .ok q) (hp : Prepared a env rate base) (n : ℕ) :
    Full BuilderEvent.name (loop a o env write draws room mic margin rate base n) (builtNames a o n) := by
  obtain ⟨-, -, -, hS, -, -, hT, -, -⟩ := checkBuildArgs_ok hc
  exact Full.each fun k _ => scene_full hp.array hT hS hp.rate_ne

/-- The names of the files of a scene are those of C96. -/
theorem sceneFiles_nodup (a : BuildArgs) (o : LayoutArgs) (n : ℕ) : (builtNames a o n).Nodup := by
  let c : BuilderCall := {
    cmuRoot := "", datasetRoot := "", nScenes := n, nSources := a.nSources
    saveLayoutImages := o.images, saveLayoutImages3d := o.images3d, saveLayoutMp4 := o.mp4, saveLayoutMp43d := o.mp43d }
  have hf : builtFiles a o = sceneFileNames c := by
    unfold builtFiles layoutNames sceneFileNames
    simp only [List.append_assoc, List.singleton_append]
    rfl
  have h := (C96_files c).1
  unfold datasetFileNames at h
  unfold builtNames
  rw [List.nodup_flatMap] at h ⊢
  have hcn : c.nScenes.toNat = n := rfl
  rw [hcn] at h
  refine ⟨fun k hk => ?_, List.Pairwise.imp ?_ List.nodup_range⟩
  · unfold builtScene
    refine List.nodup_cons.mpr ⟨by simp, ?_⟩
    have := h.1 k hk
    rw [hf]
    refine List.Nodup.map ?_ (List.Nodup.of_map _ this)
    intro x y hxy
    simpa using hxy
  · intro j k hjk
    unfold builtScene
    simp only [Function.onFun, List.Disjoint]
    intro x hx hy
    have h1 : x.1 = sceneId j := by
      rcases List.mem_cons.mp hx with rfl | hx
      · rfl
      · obtain ⟨f, -, rfl⟩ := List.mem_map.mp hx
        rfl
    have h2 : x.1 = sceneId k := by
      rcases List.mem_cons.mp hy with rfl | hy
      · rfl
      · obtain ⟨f, -, rfl⟩ := List.mem_map.mp hy
        rfl
    exact hjk (sceneId_inj (h1.symm.trans h2))

theorem check_scenes {a : BuildArgs} {q : P3 × P3 × P3} (h : checkBuildArgs a = .ok q) (k : ℕ) :
    checkBuildArgs { a with nScenes := k + 1 } = .ok q := by
  unfold checkBuildArgs at h ⊢
  rw [bind_eq_ok] at h
  obtain ⟨x, h1, h⟩ := h
  rw [bind_eq_ok] at h
  obtain ⟨y, h2, h⟩ := h
  rw [bind_eq_ok] at h
  obtain ⟨z, h3, h⟩ := h
  rw [h1, ok_bind, h2, ok_bind, h3, ok_bind]
  simp only [raiseIf_bind_ok] at h ⊢
  exact ⟨by omega, h.2⟩

/-! ## Without the pictures -/

/-- A run without its pictures. -/
def strip {α : Type} (x : Logged BuilderEvent α) : Logged BuilderEvent α := ⟨withoutPictures x.events, x.result⟩

theorem strip_bind {α β : Type} (x : Logged BuilderEvent α) (f : α → Logged BuilderEvent β) :
    strip (x >>= f) = strip x >>= fun a => strip (f a) := by
  cases h : x.result with
  | error e =>
    rw [bind_error h, bind_error (x := strip x) h]
    rfl
  | ok a =>
    rw [bind_ok h, bind_ok (x := strip x) h]
    unfold strip withoutPictures
    rw [List.filter_append]

theorem strip_quiet {α : Type} (x : Except String α) : strip (Logged.quiet x : Logged BuilderEvent α) = Logged.quiet x :=
  rfl

theorem strip_each {f f' : ℕ → Logged BuilderEvent Unit} (h : ∀ k, strip (f k) = strip (f' k)) :
    ∀ l : List ℕ, strip (Logged.each f l) = strip (Logged.each f' l)
  | [] => rfl
  | k :: rest => by
    show strip (f k >>= fun _ => Logged.each f rest) = strip (f' k >>= fun _ => Logged.each f' rest)
    rw [strip_bind, strip_bind, h k, strip_each h rest]

theorem strip_layouts (a : BuildArgs) (o : LayoutArgs) (room : P3) (rate target k : ℕ) (s : BuiltScene) :
    strip (Logged.leave (sceneLayouts a o room rate target k s)) = Logged.leave [] := by
  have h1 : ∀ l : List Image, withoutPictures (l.map fun i =>
      BuilderEvent.file (sceneId k) i.1 (.picture (.image i) (layoutLines a k s))) = [] := fun l => by
    unfold withoutPictures
    rw [List.filter_eq_nil_iff]
    intro e he
    obtain ⟨i, -, rfl⟩ := List.mem_map.mp he
    simp
  have h2 : ∀ l : List Movie, withoutPictures (l.map fun m =>
      BuilderEvent.file (sceneId k) m.name (.picture (.movie m) (layoutLines a k s))) = [] := fun l => by
    unfold withoutPictures
    rw [List.filter_eq_nil_iff]
    intro e he
    obtain ⟨i, -, rfl⟩ := List.mem_map.mp he
    simp
  have h3 : ∀ l r : List BuilderEvent, withoutPictures (l ++ r) = withoutPictures l ++ withoutPictures r := fun l r => by
    unfold withoutPictures
    rw [List.filter_append]
  unfold strip Logged.leave sceneLayouts
  rw [h3]
  have h4 : withoutPictures [] = [] := rfl
  cases o.images <;> cases o.mp4 <;> simp [h1, h2, h4]

theorem strip_scene (a : BuildArgs) (o o' : LayoutArgs) (env : BuildEnv) (write : Tensor ℝ → ℕ → Except String Unit)
    (room mic margin : P3) (base : List Vec) (rate target : ℕ) (d : SceneDraws) (k : ℕ) :
    strip (sceneRun a o env write room mic margin base rate target d k) =
      strip (sceneRun a o' env write room mic margin base rate target d k) := by
  unfold sceneRun
  simp only [strip_bind, strip_layouts]

theorem strip_run {D : Type} (a : BuildArgs) (o o' : LayoutArgs) (env : BuildEnv)
    (write : Tensor ℝ → ℕ → Except String Unit) (draws : ℕ → SceneDraws) (root : RootState D) :
    strip (builderRun a o env write draws root).2 = strip (builderRun a o' env write draws root).2 := by
  have h : ∀ room mic margin, strip (scenesRun a o env write draws room mic margin) =
      strip (scenesRun a o' env write draws room mic margin) := by
    intro room mic margin
    have hl := fun base rate target => strip_each (f := fun k => sceneRun a o env write room mic margin base rate target
      (draws k) k) (f' := fun k => sceneRun a o' env write room mic margin base rate target (draws k) k)
      (fun k => strip_scene a o o' env write room mic margin base rate target (draws k) k)
    unfold scenesRun
    simp only [strip_bind, hl]
  unfold builderRun
  cases checkBuildArgs a with
  | error e => rfl
  | ok q =>
    obtain ⟨room, mic, margin⟩ := q
    dsimp only
    cases a.overwrite <;> cases root <;> first | exact h room mic margin | rfl

/-! ## Scene by scene -/

/-- The files in the folder of scene `k` after the scenes with the given events. -/
theorem filesIn_flatMap (F : ℕ → List (String × BuilderFile)) (k : ℕ) : ∀ l : List ℕ, l.Nodup → k ∈ l →
    filesIn (l.flatMap fun j => BuilderEvent.folder (sceneId j) ::
      (F j).map fun f => BuilderEvent.file (sceneId j) f.1 f.2) (sceneId k) = F k := by
  have hone : ∀ j, filesIn (BuilderEvent.folder (sceneId j) ::
      (F j).map fun f => BuilderEvent.file (sceneId j) f.1 f.2) (sceneId k) = if j = k then F j else [] := by
    intro j
    unfold filesIn
    rw [List.filterMap_cons]
    dsimp only
    rw [List.filterMap_map]
    split_ifs with h
    · subst h
      exact (List.filterMap_congr (g := some) (by intro f _; simp)).trans List.filterMap_some
    · rw [List.filterMap_eq_nil_iff]
      intro f _
      have : sceneId j ≠ sceneId k := fun h' => h (sceneId_inj h')
      simp [this]
  have happ : ∀ x y : List BuilderEvent, filesIn (x ++ y) (sceneId k) = filesIn x (sceneId k) ++ filesIn y (sceneId k) :=
    fun x y => List.filterMap_append
  have hnone : ∀ l : List ℕ, k ∉ l → filesIn (l.flatMap fun j => BuilderEvent.folder (sceneId j) ::
      (F j).map fun f => BuilderEvent.file (sceneId j) f.1 f.2) (sceneId k) = [] := by
    intro l
    induction l with
    | nil => exact fun _ => rfl
    | cons j l ih =>
      intro h
      rw [List.mem_cons, not_or] at h
      rw [List.flatMap_cons, happ, hone, if_neg (fun e => h.1 e.symm), ih h.2]
      rfl
  intro l
  induction l with
  | nil => exact fun _ h => absurd h (by simp)
  | cons j l ih =>
    intro hn hk
    rw [List.nodup_cons] at hn
    rw [List.flatMap_cons, happ, hone]
    by_cases hj : j = k
    · subst hj
      rw [if_pos rfl, hnone l hn.1, List.append_nil]
    · rw [if_neg hj, ih hn.2 (by
        rcases List.mem_cons.mp hk with h | h
        · exact absurd h.symm hj
        · exact h)]
      rfl

/-- A scene without an exception. -/
theorem scene_ok {a : BuildArgs} {o : LayoutArgs} {env : BuildEnv} {write : Tensor ℝ → ℕ → Except String Unit}
    {room mic margin : P3} {base : List Vec} {rate target : ℕ} {d : SceneDraws} {k : ℕ}
    (hb : octahedron a.octaEdge = .ok base) (hT : 0 < a.trajectorySteps) (hS : 0 < a.nSources) (hrate : rate ≠ 0)
    (h : (sceneRun a o env write room mic margin base rate target d k).result = .ok ()) :
    ∃ s files, buildScene a env room mic margin base target d k = .ok s ∧
      SceneOnDisk a o ![room.x, room.y, room.z] rate target k s files ∧
      (sceneRun a o env write room mic margin base rate target d k).events =
        .folder (sceneId k) :: files.map fun f => .file (sceneId k) f.1 f.2 := by
  cases hs : buildScene a env room mic margin base target d k with
  | error e =>
    have := h
    unfold sceneRun at this
    rw [hs] at this
    obtain ⟨u, -, this, -⟩ := bind_result this
    cases this
  | ok s =>
    obtain ⟨files, h1, h2, -⟩ := scene_events (o := o) (write := write) hb hT hS hrate hs
    have h3 := h2.1.2 () h
    rw [List.map_id] at h3
    exact ⟨s, files, rfl, h1, h3⟩

end BuilderRun

/-- **C135, data.** The options for the layouts change no other file: stems, mixtures, metadata and records are the same
in the same order, with the same outcome, whatever pictures are asked for. -/
theorem C135_data {D : Type} (a : BuildArgs) (o o' : LayoutArgs) (env : BuildEnv)
    (write : Tensor ℝ → ℕ → Except String Unit) (draws : ℕ → SceneDraws) (root : RootState D) :
    withoutPictures (builderRun a o env write draws root).2.events =
      withoutPictures (builderRun a o' env write draws root).2.events ∧
    (builderRun a o env write draws root).2.result = (builderRun a o' env write draws root).2.result := by
  have h := BuilderRun.strip_run a o o' env write draws root
  unfold BuilderRun.strip at h
  injection h with h1 h2
  exact ⟨h1, h2⟩

/-- **C135, order.** Scene by scene, a run makes a folder and fills it with the stems, the mixture, the layouts that are
asked for, the metadata and the records; an exception leaves a beginning of that. It finishes exactly if all of it is
there. -/
theorem C135_order {D : Type} (a : BuildArgs) (o : LayoutArgs) (env : BuildEnv)
    (write : Tensor ℝ → ℕ → Except String Unit) (draws : ℕ → SceneDraws) (root : RootState D) :
    (builderRun a o env write draws root).2.events.map BuilderEvent.name <+: builtNames a o a.nScenes.toNat ∧
    ((∃ v, (builderRun a o env write draws root).2.result = .ok v) ↔
      0 < a.nScenes ∧
        (builderRun a o env write draws root).2.events.map BuilderEvent.name = builtNames a o a.nScenes.toNat) := by
  rcases BuilderRun.run_cases a o env write draws root with ⟨e, h, -⟩ | ⟨room, mic, margin, rate, base, hc, hp, -, h, -⟩
  · rw [h]
    refine ⟨List.nil_prefix, fun ⟨v, hv⟩ => (by cases hv), fun ⟨hn, hall⟩ => ?_⟩
    exfalso
    obtain ⟨n, hn'⟩ : ∃ n, a.nScenes.toNat = n + 1 := ⟨a.nScenes.toNat - 1, by omega⟩
    rw [hn'] at hall
    simp [builtNames, List.range_succ, builtScene] at hall
  · have hn := (checkBuildArgs_ok hc).2.2.1
    obtain ⟨h1, h2⟩ := BuilderRun.bind_pure_ok (BuilderRun.loop a o env write draws room mic margin rate base
      a.nScenes.toNat) (rate, base.length)
    have hf := BuilderRun.loop_full (o := o) (write := write) (draws := draws) (room := room) (mic := mic)
      (margin := margin) hc hp a.nScenes.toNat
    rw [h, h1]
    refine ⟨hf.1.1, fun ⟨v, hv⟩ => ?_, fun ⟨_, hall⟩ => ?_⟩
    · obtain ⟨-, u, hu⟩ := (h2 v).mp hv
      exact ⟨hn, hf.1.2 u hu⟩
    · exact ⟨_, (h2 _).mpr ⟨rfl, hf.2 hall⟩⟩

/-- **C135, a finished run.** It returns the sampling rate and the number of microphones, and every folder holds the
sounds, pictures, metadata and records of its scene, all of which show the same positions. -/
theorem C135_finished {D : Type} (a : BuildArgs) (o : LayoutArgs) (env : BuildEnv)
    (write : Tensor ℝ → ℕ → Except String Unit) (draws : ℕ → SceneDraws) (root : RootState D) (rate mics : ℕ)
    (h : (builderRun a o env write draws root).2.result = .ok (rate, mics)) :
    mics = 6 ∧ ∃ scenes, (buildDataset a env draws root).2 = .ok (rate, scenes) ∧
      (scenes.length : ℤ) = a.nScenes ∧ ∃ L : Fin 3 → ℝ, a.roomSize = [L 0, L 1, L 2] ∧
      ∀ k, ∀ hk : k < scenes.length, SceneOnDisk a o L rate (trunc (a.duration * rate)).toNat k scenes[k]
        (filesIn (builderRun a o env write draws root).2.events (sceneId k)) := by
  rcases BuilderRun.run_cases a o env write draws root with ⟨e, h', -⟩ |
    ⟨room, mic, margin, rate', base, hc, hp, -, hr, hb⟩
  · rw [h'] at h
    cases h
  · obtain ⟨h1, h2⟩ := BuilderRun.bind_pure_ok (BuilderRun.loop a o env write draws room mic margin rate' base
      a.nScenes.toNat) (rate', base.length)
    rw [hr] at h
    obtain ⟨e, u, hu⟩ := (h2 _).mp h
    cases e
    obtain ⟨hroom, -, hn, hS, -, -, hT, -, -⟩ := checkBuildArgs_ok hc
    obtain ⟨hall, hev⟩ := BuilderRun.each_ok hu
    have hsc : ∀ k, ∃ s files, k < a.nScenes.toNat →
        buildScene a env room mic margin base (trunc (a.duration * rate)).toNat (draws k) k = .ok s ∧
        SceneOnDisk a o ![room.x, room.y, room.z] rate (trunc (a.duration * rate)).toNat k s files ∧
        (sceneRun a o env write room mic margin base rate (trunc (a.duration * rate)).toNat (draws k) k).events =
          .folder (sceneId k) :: files.map fun f => .file (sceneId k) f.1 f.2 := by
      intro k
      by_cases hk : k < a.nScenes.toNat
      · obtain ⟨s, files, x1, x2, x3⟩ := BuilderRun.scene_ok hp.array hT hS hp.rate_ne
          (hall k (List.mem_range.mpr hk))
        exact ⟨s, files, fun _ => ⟨x1, x2, x3⟩⟩
      · exact ⟨⟨⟨0, 0, 0⟩, [], [], [], [], [], [], [], [], ⟨[], []⟩⟩, [], fun h => absurd h hk⟩
    choose S F hSF using hsc
    refine ⟨(octahedron_ok hp.array).2.1, (List.range a.nScenes.toNat).map S, ?_, (by simp; omega),
      ![room.x, room.y, room.z], hroom, fun k hk => ?_⟩
    · rw [hb, mapM_ok fun k hk => (hSF k (List.mem_range.mp hk)).1, ok_bind]
      rfl
    · have hk' : k < a.nScenes.toNat := by simpa using hk
      rw [hr, h1, hev]
      have e : ((List.range a.nScenes.toNat).flatMap fun k =>
          (sceneRun a o env write room mic margin base rate (trunc (a.duration * rate)).toNat (draws k) k).events) =
          (List.range a.nScenes.toNat).flatMap fun j => BuilderEvent.folder (sceneId j) ::
            (F j).map fun f => BuilderEvent.file (sceneId j) f.1 f.2 := by
        apply List.flatMap_congr
        intro j hj
        exact (hSF j (List.mem_range.mp hj)).2.2
      rw [e, BuilderRun.filesIn_flatMap F k _ List.nodup_range (List.mem_range.mpr hk')]
      have := (hSF k hk').2.1
      simpa using this

/-- **C135, when it finishes.** If the scenes can be built and the sounds written, the run finishes: neither layouts nor
metadata stop it. What was under the root is treated as in C62. -/
theorem C135_succeeds {D : Type} (a : BuildArgs) (o : LayoutArgs) (env : BuildEnv)
    (write : Tensor ℝ → ℕ → Except String Unit) (draws : ℕ → SceneDraws) (root : RootState D) :
    (builderRun a o env write draws root).1 = (buildDataset a env draws root).1 ∧
    ∀ rate scenes, (buildDataset a env draws root).2 = .ok (rate, scenes) → (∀ x, write x rate = .ok ()) →
      (builderRun a o env write draws root).2.result = .ok (rate, 6) := by
  constructor
  · unfold builderRun buildDataset
    cases checkBuildArgs a with
    | error e => rfl
    | ok q =>
      obtain ⟨room, mic, margin⟩ := q
      dsimp only
      cases a.overwrite <;> cases root <;> rfl
  · intro rate scenes hd hw
    rcases BuilderRun.run_cases a o env write draws root with ⟨e, -, h'⟩ |
      ⟨room, mic, margin, rate', base, hc, hp, -, hr, hb⟩
    · rw [h'] at hd
      cases hd
    · rw [hb, bind_eq_ok] at hd
      obtain ⟨scenes', hm, e⟩ := hd
      cases e
      obtain ⟨-, -, hn, hS, -, -, hT, -, -⟩ := checkBuildArgs_ok hc
      rw [hr, ← (octahedron_ok hp.array).2.1]
      refine BuilderRun.bind_succeeds (a := ()) (BuilderRun.each_succeeds fun k hk => ?_) rfl
      obtain ⟨s, hs⟩ := mapM_ok_mem hm k hk
      exact (BuilderRun.scene_events hp.array hT hS hp.rate_ne hs).choose_spec.2.2 hw

/-- **C135, an interrupted run.** Whatever happens, a scene whose records are there is complete, and so are those before
it: a run for these scenes alone finishes, and what it leaves is how this one begins. -/
theorem C135_interrupted {D : Type} (a : BuildArgs) (o : LayoutArgs) (env : BuildEnv)
    (write : Tensor ℝ → ℕ → Except String Unit) (draws : ℕ → SceneDraws) (root : RootState D) (k : ℕ)
    (h : (sceneId k, some "source_info.json") ∈
      (builderRun a o env write draws root).2.events.map BuilderEvent.name) :
    (∃ v, (builderRun { a with nScenes := k + 1 } o env write draws root).2.result = .ok v) ∧
    (builderRun { a with nScenes := k + 1 } o env write draws root).2.events <+:
      (builderRun a o env write draws root).2.events := by
  rcases BuilderRun.run_cases a o env write draws root with ⟨e, h', -⟩ |
    ⟨room, mic, margin, rate, base, hc, hp, hroot, hr, -⟩
  · rw [h'] at h
    simp at h
  · have hc' := BuilderRun.check_scenes hc k
    have hp' : BuilderRun.Prepared { a with nScenes := k + 1 } env rate base :=
      ⟨hp.common, hp.long, hp.array, hp.enough, hp.room⟩
    have hr' : (builderRun { a with nScenes := k + 1 } o env write draws root).2 = (do
        BuilderRun.loop a o env write draws room mic margin rate base (k + 1)
        return (rate, base.length)) := by
      have hs := BuilderRun.scenesRun_prepared (o := o) (write := write) (draws := draws) (room := room) (mic := mic)
        (margin := margin) hp'
      unfold builderRun
      rw [hc']
      dsimp only
      rcases hroot with rfl | hov
      · exact hs
      · rw [hov]
        cases root <;> exact hs
    obtain ⟨h1, -⟩ := BuilderRun.bind_pure_ok (BuilderRun.loop a o env write draws room mic margin rate base
      a.nScenes.toNat) (rate, base.length)
    obtain ⟨h2, h3⟩ := BuilderRun.bind_pure_ok (BuilderRun.loop a o env write draws room mic margin rate base
      (k + 1)) (rate, base.length)
    rw [hr, h1] at h
    have hk : k < a.nScenes.toNat := by
      have := (BuilderRun.loop_full (o := o) (write := write) (draws := draws) (room := room) (mic := mic)
        (margin := margin) hc hp a.nScenes.toNat).1.1.subset h
      unfold builtNames at this
      obtain ⟨j, hj, hmem⟩ := List.mem_flatMap.mp this
      have hj' := List.mem_range.mp hj
      unfold builtScene at hmem
      rcases List.mem_cons.mp hmem with e | hmem
      · simp at e
      · obtain ⟨f, -, e⟩ := List.mem_map.mp hmem
        rw [Prod.mk.injEq] at e
        rw [← sceneId_inj e.1]
        exact hj'
    have hsplit : List.range a.nScenes.toNat = List.range (k + 1) ++
        (List.range (a.nScenes.toNat - (k + 1))).map (k + 1 + ·) := by
      rw [← List.range_add]
      congr 1
      omega
    have hf := BuilderRun.loop_full (o := o) (write := write) (draws := draws) (room := room) (mic := mic)
      (margin := margin) hc hp (k + 1)
    rw [hr', hr, h1, h2]
    unfold BuilderRun.loop at h ⊢
    rw [hsplit, BuilderRun.each_append] at h ⊢
    cases hres : (BuilderRun.loop a o env write draws room mic margin rate base (k + 1)).result with
    | error e =>
      exfalso
      rw [BuilderRun.bind_error hres] at h
      have hlast : ∃ init, builtNames a o (k + 1) = init ++ [(sceneId k, some "source_info.json")] := by
        unfold builtNames
        rw [List.range_succ, List.flatMap_append, List.flatMap_singleton]
        refine ⟨(List.range k).flatMap (builtScene a o) ++ ((sceneId k, none) :: (((List.range a.nSources.toNat).map fun s => "source_" ++ zeroPadded 2 s ++
          ".wav") ++ ("mixture.wav" :: (layoutNames o ++ ["metadata.json"]))).map fun f => (sceneId k, some f)), ?_⟩
        rw [List.append_assoc]
        congr 1
        simp [builtScene, builtFiles]
      obtain ⟨init, hinit⟩ := hlast
      have hall := hf.1.1
      have hnd := BuilderRun.sceneFiles_nodup a o (k + 1)
      rw [hinit] at hall hnd
      obtain ⟨v, hv⟩ := hf.2 (by rw [hinit]; exact prefix_with_last hall hnd h)
      rw [hres] at hv
      cases hv
    | ok u =>
      refine ⟨⟨_, (h3 _).mpr ⟨rfl, u, hres⟩⟩, ?_⟩
      rw [BuilderRun.bind_ok hres]
      exact List.prefix_append _ _

namespace BuilderRun

theorem fixed2_shows {x : ℝ} (hx : 0 ≤ x) : ShowsHundredths (fixed2 x) x := by
  have hr : 0 ≤ roundHalfEven (100 * |x|) := by
    have h := (abs_le.mp (roundHalfEven_near (100 * |x|))).1
    have hp : 0 ≤ 100 * |x| := by positivity
    have : (-1 : ℝ) < (roundHalfEven (100 * |x|) : ℤ) := by linarith
    have : (-1 : ℤ) < roundHalfEven (100 * |x|) := by exact_mod_cast this
    omega
  refine ⟨(roundHalfEven (100 * |x|)).toNat, ?_, ?_⟩
  · unfold fixed2
    dsimp only
    rw [if_neg (not_lt.mpr hx)]
    rfl
  · have hc : (((roundHalfEven (100 * |x|)).toNat : ℕ) : ℝ) = ((roundHalfEven (100 * |x|) : ℤ) : ℝ) := by
      exact_mod_cast Int.toNat_of_nonneg hr
    rw [hc]
    have h := roundHalfEven_near (100 * |x|)
    rw [abs_of_nonneg hx] at h ⊢
    rw [abs_le] at h ⊢
    constructor <;> linarith [h.1, h.2]

end BuilderRun

/-- **C135, the text on the layouts.** Of three lines the first names the scene, the second gives the times between which
the sources move, the third the speeds of the sources that move, in their order, or `none` if none does; times and speeds
are right to half a hundredth. -/
theorem C135_lines {D : Type} (a : BuildArgs) (env : BuildEnv) (draws : ℕ → SceneDraws)
    (hd : ∀ k, SceneDraws.Valid (draws k) a) (root : RootState D) (rate : ℕ) (scenes : List BuiltScene)
    (h : (buildDataset a env draws root).2 = .ok (rate, scenes)) (k : ℕ) (hk : k < scenes.length) :
    ∃ t0 t1 speeds, layoutLines a k scenes[k] =
        ["scene:" ++ sceneId k, "move:" ++ t0 ++ "-" ++ t1 ++ " s", "speed:" ++ speeds] ∧
      ShowsHundredths t0 (a.duration * a.startRatio) ∧ ShowsHundredths t1 (a.duration * a.endRatio) ∧
      (a.nMoving = 0 → speeds = "none") ∧
      (a.nMoving ≠ 0 → ∃ items, speeds = ", ".intercalate items ∧
        List.Forall₂ (fun i text => ∃ hi : i < scenes[k].placed.length, ∃ v,
          text = "S" ++ toString i ++ "=" ++ v ++ "m/s" ∧ ShowsHundredths v scenes[k].placed[i].velocity)
          scenes[k].moving items) := by
  obtain ⟨room, mic, margin, base, hc, -, -, -, hs⟩ := build_ok h
  obtain ⟨-, -, -, -, -, -, -, hdur, -⟩ := checkBuildArgs_ok hc
  obtain ⟨hv, -⟩ := scene_placed (hd k) (hs k hk)
  obtain ⟨-, -, hrec, hnone, hsome⟩ := C96_records a env draws hd root rate scenes h scenes[k] (List.getElem_mem hk)
  obtain ⟨hr0, hr1, hr2⟩ := hv.ratios
  have h0 : 0 ≤ a.startRatio := hr0
  have h1 : a.startRatio < a.endRatio := hr1
  refine ⟨_, _, _, rfl, BuilderRun.fixed2_shows (by positivity), BuilderRun.fixed2_shows
    (mul_nonneg hdur.le (by linarith)), fun h0 => ?_, fun h0 => ?_⟩
  · rw [hnone.mpr h0]
  · cases hsp : speedLine scenes[k] with
    | none => exact absurd (hnone.mp hsp) h0
    | some items =>
      obtain ⟨hm, hvel⟩ := hsome items hsp
      refine ⟨_, rfl, ?_⟩
      rw [← hm, List.forall₂_map_left_iff, List.forall₂_map_right_iff, List.forall₂_same]
      rintro ⟨i, v⟩ hmem
      obtain ⟨hi, rfl⟩ := hvel i v hmem
      have hpos : 0 ≤ scenes[k].placed[i].velocity := by
        have hv' := (C58_motion_profile a env draws hd root rate scenes h scenes[k] (List.getElem_mem hk)).2.2.2 i hi
        by_cases hmov : i ∈ scenes[k].moving
        · have := (hv'.2 hmov).1.1
          have hsm : 0 < a.speedMin := hv.speeds.1
          linarith
        · rw [(hv'.1 hmov).1]
      exact ⟨hi, _, rfl, BuilderRun.fixed2_shows hpos⟩

/-- **C135, the description.** The extra block of the metadata says the same as the records and as the scene: the moving
sources, speeds, angular speeds and turns are those of the records in order, and so are the times of the motion; the
three parts of the time add up to the whole. The angles, given in degrees, lead from the centre of the array to the
first and last positions, at no less than the distance that is given, and the first angles are the multiples of the
step, each taken once, from a common angle. -/
theorem C135_extra {D : Type} (a : BuildArgs) (env : BuildEnv) (draws : ℕ → SceneDraws)
    (hd : ∀ k, SceneDraws.Valid (draws k) a) (root : RootState D) (rate : ℕ) (scenes : List BuiltScene)
    (h : (buildDataset a env draws root).2 = .ok (rate, scenes)) (k : ℕ) (hk : k < scenes.length)
    (x : SceneExtra) (hx : x = sceneExtra a k scenes[k]) :
    x.sceneId = sceneId k ∧
    (x.nSources = scenes[k].placed.length ∧ x.nMoving = x.moving.length) ∧
    (x.moving = ((sourceRecords a scenes[k]).filter (·.isMoving)).map (·.index) ∧
      x.velocity = (sourceRecords a scenes[k]).map (·.velocity) ∧
      x.angularVelocity = (sourceRecords a scenes[k]).map (·.angularVelocity) ∧
      x.turn = (sourceRecords a scenes[k]).map (·.turn) ∧
      ∀ r ∈ sourceRecords a scenes[k], r.moveStart = x.moveStart ∧ r.moveEnd = x.moveEnd ∧
        (r.isMoving = true → r.motionType = x.motionType)) ∧
    (x.preStaticRatio + x.moveRatio + x.postStaticRatio = 1 ∧ x.total = a.duration ∧
      x.moveStart = x.preStaticRatio * x.total ∧ x.moveEnd - x.moveStart = x.moveRatio * x.total ∧
      x.total - x.moveEnd = x.postStaticRatio * x.total) ∧
    x.micCenter = [scenes[k].center.x, scenes[k].center.y, scenes[k].center.z] ∧
    List.Forall₂ (fun az p => ∃ r z, x.minDistance ≤ r ∧ p.start = around scenes[k].center r (az.1 * Real.pi / 180) z ∧
        p.stop = around scenes[k].center r (az.2 * Real.pi / 180) z)
      (x.startAzimuthDeg.zip x.endAzimuthDeg) scenes[k].placed ∧
    x.nSources * x.azimuthStepDeg = 360 ∧
    ∃ (base : ℝ) (slot : List ℕ), slot.Perm (List.range scenes[k].placed.length) ∧
      x.startAzimuthDeg = slot.map fun (j : ℕ) => base + j * x.azimuthStepDeg := by
  subst hx
  obtain ⟨room, mic, margin, base, hc, -, -, -, hs⟩ := build_ok h
  obtain ⟨-, -, -, hns, hnm, -, hsteps, hdur, -⟩ := checkBuildArgs_ok hc
  obtain ⟨hlen', abase, slot, hbij, haz⟩ := C59_azimuths a env draws hd root rate scenes h scenes[k] (List.getElem_mem hk)
  obtain ⟨hv, hclear, hperm, hlen, j, hpl⟩ := scene_placed (hd k) (hs k hk)
  have hch := (hd k).choice
  have hsp : (scenes[k].speakers.length : ℤ) = a.nSources := by
    rw [(buildScene_ok (hs k hk)).2.2.2.2.2.2.2]
    exact (hd k).speakers.1
  have hut := scene_utterances (hs k hk)
  have hsorted := scene_moving_sorted (hs k hk)
  generalize scenes[k] = s at *
  have hnodup : s.moving.Nodup := hperm.nodup_iff.mpr hch.nodup
  have hmlen : (s.moving.length : ℤ) = a.nMoving := by
    rw [hperm.length_eq, hch.length]
    omega
  have hmlt : ∀ i ∈ s.moving, i < a.nSources.toNat := fun i hi => hch.lt i (hperm.mem_iff.mp hi)
  have hrl : (sourceRecords a s).length = s.placed.length := by
    unfold sourceRecords
    rw [List.length_mapIdx, List.length_zip]
    omega
  have hcol : ∀ {β : Type} (f : SourceRecord → β) (g : Placed → β), (∀ i, ∀ hi : i < (sourceRecords a s).length,
      f (sourceRecords a s)[i] = g (s.placed[i]'(hrl ▸ hi))) → s.placed.map g = (sourceRecords a s).map f := by
    intro β f g hfg
    refine List.ext_getElem (by simp [hrl]) fun i h1 h2 => ?_
    rw [List.getElem_map, List.getElem_map, hfg]
  have hpi : (Real.pi : ℝ) ≠ 0 := Real.pi_ne_zero
  have hdeg : ∀ t : ℝ, t * (180 / Real.pi) * Real.pi / 180 = t := fun t => by field_simp
  have hn0 : (a.nSources : ℝ) ≠ 0 := by
    exact_mod_cast hns.ne'
  refine ⟨rfl, ⟨hlen'.symm, hmlen.symm⟩, ⟨?_, ?_, ?_, ?_, ?_⟩, ⟨?_, rfl, ?_, ?_, ?_⟩, rfl, ?_, ?_, ?_⟩
  · have hsub : (((sourceRecords a s).filter (·.isMoving)).map (·.index)).Sublist (List.range s.placed.length) := by
      have h1 := (List.filter_sublist (p := fun r : SourceRecord => r.isMoving)
        (l := sourceRecords a s)).map (·.index)
      have h2 : (sourceRecords a s).map (·.index) = List.range s.placed.length := by
        refine List.ext_getElem (by simp [hrl]) fun i h1 h2 => ?_
        simp [sourceRecords]
      rwa [h2] at h1
    refine sorted_unique hsorted ((List.pairwise_lt_range.imp le_of_lt).sublist hsub) hnodup (List.nodup_range.sublist hsub)
      fun i => ?_
    simp only [List.mem_map, List.mem_filter]
    change i ∈ s.moving ↔ _
    constructor
    · intro hm
      have hi : i < (sourceRecords a s).length := by
        have := hmlt i hm
        omega
      exact ⟨_, ⟨List.getElem_mem hi, by simpa [sourceRecords] using hm⟩, by simp [sourceRecords]⟩
    · rintro ⟨r, ⟨hr, hmov⟩, rfl⟩
      obtain ⟨i, hi, rfl⟩ := List.getElem_of_mem hr
      simpa [sourceRecords] using hmov
  · refine hcol _ _ fun i hi => ?_
    have hp : i < s.placed.length := by omega
    simp [sourceRecords, hp]
  · refine hcol _ _ fun i hi => ?_
    have hp : i < s.placed.length := by omega
    simp [sourceRecords, hp]
  · refine hcol _ _ fun i hi => ?_
    have hp : i < s.placed.length := by omega
    simp [sourceRecords, hp]
  · intro r hr
    obtain ⟨i, hi, rfl⟩ := List.getElem_of_mem hr
    simp only [sourceRecords, List.getElem_mapIdx, decide_eq_true_eq]
    exact ⟨rfl, rfl, fun hm => if_pos hm⟩
  · simp only [sceneExtra]
    ring
  · simp only [sceneExtra]
    ring
  · simp only [sceneExtra]
    ring
  · simp only [sceneExtra]
    ring
  · refine List.forall₂_iff_get.mpr ⟨by simp [sceneExtra], fun i h1 h2 => ?_⟩
    obtain ⟨r, z, q1, q2, q3, -, -, -, q7, q8⟩ := hpl i h2
    simp only [List.get_eq_getElem, List.getElem_zip, sceneExtra, List.getElem_map, hdeg]
    refine ⟨r, z, q3, by rw [q2]; exact q1, ?_⟩
    by_cases hm : i ∈ s.moving
    · exact (q7 hm).2.stop
    · rw [(q8 hm).stop, (q8 hm).endAzimuth]
      exact q1
  · simp only [sceneExtra]
    field_simp
  · refine ⟨abase * (180 / Real.pi), List.ofFn fun i => (slot i : ℕ), ?_, ?_⟩
    · refine (List.perm_ext_iff_of_nodup (List.nodup_ofFn.mpr fun i i' e => hbij.1 (Fin.ext e)) List.nodup_range).mpr
        fun i => ?_
      rw [List.mem_ofFn, List.mem_range]
      constructor
      · rintro ⟨q, rfl⟩
        exact (slot q).2
      · intro hi
        obtain ⟨q, hq⟩ := hbij.2 ⟨i, hi⟩
        exact ⟨q, by rw [hq]⟩
    · refine List.ext_getElem (by simp [sceneExtra]) fun i h1 h2 => ?_
      have hi : i < s.placed.length := by simpa [sceneExtra] using h1
      have := (haz ⟨i, hi⟩).1
      have e : (a.nSources : ℝ) = (s.placed.length : ℝ) := by
        rw [← hlen']
        push_cast
        rfl
      have hl0 : (s.placed.length : ℝ) ≠ 0 := by
        rw [← e]
        exact hn0
      simp only [Fin.getElem_fin] at this
      have hstep : (sceneExtra a k s).azimuthStepDeg = 360 / (s.placed.length : ℝ) := by
        rw [← e]
        rfl
      have hl : (sceneExtra a k s).startAzimuthDeg[i] = s.placed[i].startAzimuth * (180 / Real.pi) := by
        simp only [sceneExtra, List.getElem_map]
      rw [List.getElem_map, List.getElem_ofFn, hl, this]
      refine Eq.trans ?_ (congrArg (fun t => abase * (180 / Real.pi) + (slot ⟨i, hi⟩ : ℝ) * t) hstep.symm)
      field_simp
      ring

/-- The speakers and rooms of C58: with a sound library that writes, the run finishes and its folder holds the files. -/
example : (builderRun (D := Unit) twoSpeakers { images3d := false } loudEnv (fun _ _ => .ok ()) middleDraws .absent).2.result
    = .ok (16000, 6) ∧ ∃ s : BuiltScene, (buildDataset (D := Unit) twoSpeakers loudEnv middleDraws .absent).2 = .ok (16000, [s]) := by
  obtain ⟨s, hs, -⟩ := loud_scene
  exact ⟨(C135_succeeds twoSpeakers _ loudEnv _ middleDraws .absent).2 16000 [s] hs fun _ => rfl, s, hs⟩

/-- And its first scene could have been asked for alone. -/
example : ∃ v, (builderRun (D := Unit) { twoSpeakers with nScenes := 0 + 1 } {} loudEnv (fun _ _ => .ok ()) middleDraws
    .absent).2.result = .ok v := by
  obtain ⟨s, hs, -⟩ := loud_scene
  have h := (C135_succeeds twoSpeakers {} loudEnv (fun _ _ => .ok ()) middleDraws .absent).2 16000 [s] hs fun _ => rfl
  have hall := ((C135_order twoSpeakers {} loudEnv (fun _ _ => .ok ()) middleDraws (.absent : RootState Unit)).2.mp
    ⟨_, h⟩).2
  refine (C135_interrupted twoSpeakers {} loudEnv (fun _ _ => .ok ()) middleDraws (.absent : RootState Unit) 0 ?_).1
  rw [hall, show twoSpeakers.nScenes.toNat = 1 from rfl]
  simp [builtNames, builtScene, builtFiles]

end Torchrir.Props
