import Verif.Spec.ScriptPlots
import Verif.Props.DatasetRun
import Verif.Props.Frames

/-!
# The pictures of the example scripts
-/

namespace Torchrir.Props

open Torchrir.Model Torchrir.Spec Torchrir.Lemmas

namespace ScriptPlots

/-! ## The data without the pictures -/

theorem data_bind {ι α β : Type} (x : Illustrated ι α) (f : α → Illustrated ι β) :
    dataOf (x >>= f) = dataOf x >>= fun a => dataOf (f a) := by
  show dataOf (x.andThen f) = (dataOf x).andThen _
  unfold Illustrated.andThen Writing.andThen
  show dataOf (match x.result with | .error e => _ | .ok a => _) = match x.result with | .error e => _ | .ok a => _
  cases x.result with
  | error e => rfl
  | ok a =>
    show Writing.mk _ _ = Writing.mk _ _
    rw [List.filterMap_append]
    rfl

theorem data_plain {ι α : Type} (x : Writing ι α) : dataOf x.plain = x := by
  have h : (x.files.map (Sum.inl (β := Picture))).filterMap Sum.getLeft? = x.files := by
    rw [List.filterMap_map]
    exact List.filterMap_some
  show Writing.mk _ _ = _
  unfold Writing.plain
  rw [h]

theorem pictures_plain {ι α : Type} (x : Writing ι α) : picturesOf x.plain = [] := by
  unfold picturesOf Writing.plain
  rw [List.filterMap_map]
  exact List.filterMap_eq_nil_iff.mpr fun _ _ => rfl

theorem pure_bind' {ι α β : Type} (a : α) (f : α → Illustrated ι β) : pure a >>= f = f a := rfl

theorem plain_bind {ι α β : Type} (x : Writing ι α) (f : α → Writing ι β) :
    (x >>= f).plain = x.plain >>= fun a => (f a).plain := by
  show (x.andThen f).plain = x.plain.andThen _
  unfold Illustrated.andThen Writing.andThen
  show Writing.plain (match x.result with | .error e => _ | .ok a => _) = match x.result with | .error e => _ | .ok a => _
  cases x.result with
  | error e => rfl
  | ok a =>
    show Illustrated.mk _ _ = Illustrated.mk _ _
    rw [List.map_append]
    rfl

theorem data_savePictures {ι : Type} (plot : Bool) (room : Room) (sources mics : List Vec)
    (plotted : Option (Tensor ℝ × Tensor ℝ)) (srcTraj micTraj : Tensor ℝ) (pre : String) (signals : Tensor ℝ) (fs : ℕ) :
    dataOf (savePictures plot room sources mics plotted srcTraj micTraj pre signals fs : Illustrated ι Unit) = pure () := by
  unfold savePictures dataOf
  cases plot with
  | false => rfl
  | true =>
    rw [if_pos rfl, List.filterMap_append, List.filterMap_map, List.filterMap_map]
    have h1 : ∀ l : List Image, l.filterMap (Sum.getLeft? ∘ fun i => (Sum.inr (.image i) : (String × OutFile ι) ⊕ Picture))
        = [] := fun l => List.filterMap_eq_nil_iff.mpr fun _ _ => rfl
    have h2 : ∀ l : List Movie, l.filterMap (Sum.getLeft? ∘ fun i => (Sum.inr (.movie i) : (String × OutFile ι) ⊕ Picture))
        = [] := fun l => List.filterMap_eq_nil_iff.mpr fun _ _ => rfl
    rw [h1, h2]
    rfl

theorem data_scriptPictures {ι : Type} (plot : Bool) (sc : Script) (room : Room) (scene : CliScene) (signals : Tensor ℝ)
    (fs : ℕ) : dataOf (scriptPictures plot sc room scene signals fs : Illustrated ι Unit) = pure () := by
  unfold scriptPictures
  split <;> exact data_savePictures ..

theorem writing_pure_bind {ι β : Type} (f : Unit → Writing ι β) : ((pure () : Writing ι Unit) >>= f) = f () := rfl

theorem data_plottedScene {ι : Type} (plot : Bool) (w : World) (room : Room) (a : DatasetRunArgs) (gen : ℤ → Gen)
    (load : Gen → Except String (LoadedSources ι × ℕ)) (license : List (String × AttrValue)) (center : Vec)
    (mics : List Vec) (idx : ℕ) : dataOf (plottedScene plot w room a gen load license center mics idx) =
      writeScene w room a gen load license center mics idx := by
  unfold plottedScene writeScene writeSceneLoaded
  simp only [data_bind, data_plain, data_savePictures, writing_pure_bind]
  rfl

theorem data_plottedScenes {ι : Type} (scene : ℕ → Illustrated ι Unit) (l : List ℕ) :
    dataOf (plottedScenes scene l) = writeScenes (fun idx => dataOf (scene idx)) l := by
  induction l with
  | nil => rfl
  | cons idx rest ih =>
    show dataOf (scene idx >>= fun _ => plottedScenes scene rest) = (dataOf (scene idx) >>= fun _ => _)
    rw [data_bind, ih]

end ScriptPlots

/-- **C133, data.** With or without `--plot`, and whatever becomes of the pictures, a script writes the same files with
the same contents in the same order and has the same outcome. -/
theorem C133_data {ι : Type} (plot : Bool) (conv : Flt → ℤ) (w : World) (script : Script) (g : Gen) (a : ScriptArgs)
    (k : ℕ) (loaded : Except String (List (List ℝ) × ℕ × List (String × List ι))) :
    dataOf (scriptPlotted plot conv w script g a k loaded) = scriptRun conv w script g a k loaded := by
  unfold scriptPlotted scriptRun scriptAfterLoading
  simp only [ScriptPlots.data_bind, ScriptPlots.data_plain, ScriptPlots.data_scriptPictures,
    ScriptPlots.writing_pure_bind]
  rfl

/-- **C133, data of the dataset script.** -/
theorem C133_dataset_data {ι : Type} (plot : Bool) (conv : Flt → ℤ) (w : World) (a : DatasetRunArgs) (gen : ℤ → Gen)
    (load : Gen → Except String (LoadedSources ι × ℕ)) :
    dataOf (datasetPlotted plot conv w a gen load) = datasetRun conv w a gen load := by
  unfold datasetPlotted datasetRun
  simp only [ScriptPlots.data_bind, ScriptPlots.data_plain, ScriptPlots.data_plottedScenes,
    ScriptPlots.data_plottedScene]

/-! ## When there are pictures -/

namespace ScriptPlots

theorem savePictures_off {ι : Type} (room : Room) (sources mics : List Vec) (plotted : Option (Tensor ℝ × Tensor ℝ))
    (srcTraj micTraj : Tensor ℝ) (pre : String) (signals : Tensor ℝ) (fs : ℕ) :
    (savePictures false room sources mics plotted srcTraj micTraj pre signals fs : Illustrated ι Unit) = pure () := rfl

theorem scriptPictures_off {ι : Type} (sc : Script) (room : Room) (scene : CliScene) (signals : Tensor ℝ)
    (fs : ℕ) : (scriptPictures false sc room scene signals fs : Illustrated ι Unit) = pure () := by
  unfold scriptPictures
  split <;> rfl

theorem plottedScenes_plain {ι : Type} (scene : ℕ → Writing ι Unit) (l : List ℕ) :
    plottedScenes (fun idx => (scene idx).plain) l = (writeScenes scene l).plain := by
  induction l with
  | nil => rfl
  | cons idx rest ih =>
    show ((scene idx).plain >>= fun _ => plottedScenes _ rest) = (scene idx >>= fun _ => writeScenes scene rest).plain
    rw [plain_bind, ih]

theorem quiet_plain_bind {ι α β : Type} {x : Except String α} {a : α} (h : x = .ok a) (f : α → Illustrated ι β) :
    (quietly x : Writing ι α).plain >>= f = f a := by
  subst h
  rfl

theorem quiet_plain_error {ι α β : Type} {x : Except String α} {e : String} (h : x = .error e)
    (f : α → Illustrated ι β) : (quietly x : Writing ι α).plain >>= f = ⟨[], .error e⟩ := by
  subst h
  rfl

theorem write_plain_bind {ι β : Type} (name : String) (c : OutFile ι) (f : Unit → Illustrated ι β) :
    (writeFile name c).plain >>= f = ⟨.inl (name, c) :: (f ()).events, (f ()).result⟩ := rfl

end ScriptPlots

/-- **C133, without the option.** There are no pictures then. -/
theorem C133_without_option {ι : Type} (conv : Flt → ℤ) (w : World) (script : Script) (g : Gen) (a : ScriptArgs)
    (k : ℕ) (loaded : Except String (List (List ℝ) × ℕ × List (String × List ι)))
    (b : DatasetRunArgs) (gen : ℤ → Gen) (load : Gen → Except String (LoadedSources ι × ℕ)) :
    picturesOf (scriptPlotted false conv w script g a k loaded) = [] ∧
    picturesOf (datasetPlotted false conv w b gen load) = [] := by
  have h1 : scriptPlotted false conv w script g a k loaded = (scriptRun conv w script g a k loaded).plain := by
    unfold scriptPlotted scriptRun scriptAfterLoading scriptTail
    simp only [ScriptPlots.scriptPictures_off, ScriptPlots.pure_bind', ScriptPlots.plain_bind]
  have h2 : datasetPlotted false conv w b gen load = (datasetRun conv w b gen load).plain := by
    have h : ∀ room license center mics, plottedScene false w room b gen load license center mics =
        fun idx => (writeScene w room b gen load license center mics idx).plain := fun room license center mics => by
      funext idx
      unfold plottedScene writeScene writeSceneLoaded sceneTail
      simp only [ScriptPlots.savePictures_off, ScriptPlots.pure_bind', ScriptPlots.plain_bind]
    unfold datasetPlotted datasetRun
    simp only [ScriptPlots.plain_bind, h, ScriptPlots.plottedScenes_plain]
  rw [h1, h2]
  exact ⟨ScriptPlots.pictures_plain _, ScriptPlots.pictures_plain _⟩

/-- **C133, scenes that are not placed.** If the signals are not loaded or the scene is not placed, then there are no
pictures. -/
theorem C133_not_placed {ι : Type} (plot : Bool) (conv : Flt → ℤ) (w : World) (script : Script) (g : Gen) (a : ScriptArgs)
    (k : ℕ) (loaded : Except String (List (List ℝ) × ℕ × List (String × List ι)))
    (h : (∃ e, loaded = .error e) ∨ ∃ e, placeScript script g a k = .error e) :
    picturesOf (scriptPlotted plot conv w script g a k loaded) = [] := by
  obtain ⟨license, text, h1, h2, -⟩ := attribution_ok (ι := ι) (modificationNotes script.moves)
  unfold scriptPlotted
  rw [ScriptPlots.quiet_plain_bind h1, h2, ScriptPlots.write_plain_bind]
  cases loaded with
  | error e => rfl
  | ok l =>
    obtain ⟨e, h⟩ := h.resolve_left (by rintro ⟨e, h⟩; cases h)
    rw [ScriptPlots.quiet_plain_bind rfl]
    cases hroom : cliRoom conv { room := a.room, numSources := a.numSources } l.2.1 with
    | error e => rfl
    | ok room =>
      rw [ScriptPlots.quiet_plain_bind rfl, ScriptPlots.quiet_plain_error h]
      rfl

/-! ## What the pictures show -/

namespace ScriptPlots

theorem renderDynamic_acc (room src mic : Tensor ℝ) (pre : String) (step : ℤ) (annotate : Bool) (v : ℕ)
    (p q : Option (Tensor ℝ)) (S D : List Image) :
    renderDynamic room src mic pre step annotate v ⟨p, q, S, D⟩ =
      (renderDynamic room src mic pre step annotate v ⟨p, q, [], []⟩).map
        fun r => ⟨r.srcTraj, r.micTraj, S, D ++ r.dynamics⟩ := by
  unfold renderDynamic
  dsimp only
  have key : ∀ (x : Except String ℕ) (y z : ℕ → Except String (Tensor ℝ)) (m : Tensor ℝ → Tensor ℝ → Except String (List Mark))
      (name : String),
      (do let steps ← x
          let st ← y steps
          let mt ← z steps
          let marks ← m st mt
          return (⟨some st, some mt, S, D ++ [(name, marks)]⟩ : RenderState)) =
      (do let steps ← x
          let st ← y steps
          let mt ← z steps
          let marks ← m st mt
          return (⟨some st, some mt, [], [] ++ [(name, marks)]⟩ : RenderState)).map
        fun r : RenderState => (⟨r.srcTraj, r.micTraj, S, D ++ r.dynamics⟩ : RenderState) := by
    intro x y z m name
    cases x with
    | error e => rfl
    | ok s =>
      rw [ok_bind, ok_bind]
      cases y s with
      | error e => rfl
      | ok st =>
        rw [ok_bind, ok_bind]
        cases z s with
        | error e => rfl
        | ok mt =>
          rw [ok_bind, ok_bind]
          cases m st mt with
          | error e => rfl
          | ok marks => rfl
  cases p <;> cases q
  · show Except.ok _ = Except.ok (RenderState.mk none none S (D ++ []))
    rw [List.append_nil]
  all_goals exact key _ _ _ _ _

/-- A turn of the loop, seen from the images that are saved. -/
theorem drawView_eq (room src mic : Tensor ℝ) (pre : String) (v : ℕ) (t : Option (Tensor ℝ) × Option (Tensor ℝ)) :
    (drawView room src mic pre v t).2 =
      (renderView room src mic pre 1 true v true ⟨t.1, t.2, [], []⟩).map (fun r => (r.srcTraj, r.micTraj)) ∧
    ∀ r, renderView room src mic pre 1 true v true ⟨t.1, t.2, [], []⟩ = .ok r →
      (drawView room src mic pre v t).1 = r.statics ++ r.dynamics := by
  unfold drawView renderView
  by_cases h : room.numel < v
  · rw [if_pos h, if_pos (Or.inr h)]
    exact ⟨rfl, fun r h => by cases h; rfl⟩
  · rw [if_neg h, if_neg (by rintro (h' | h') <;> [cases h'; exact h h'])]
    cases plotStatic (sliceLast v room) (sliceLast v src) (sliceLast v mic) true with
    | error e => exact ⟨rfl, fun r h => by cases h⟩
    | ok marks =>
      rw [ok_bind]
      dsimp only
      rw [renderDynamic_acc (S := [] ++ _) (D := [])]
      cases renderDynamic room src mic pre 1 true v ⟨t.1, t.2, [], []⟩ with
      | error e => exact ⟨rfl, fun r h => by cases h⟩
      | ok s => exact ⟨rfl, fun r h => by cases h; rfl⟩

theorem savePlots_of {room src mic : Tensor ℝ} {p q : Option (Tensor ℝ)} {pre : String} {r r' : RenderState}
    (h : renderView room (positionsToCpu src) (positionsToCpu mic) pre 1 true 2 true ⟨p, q, [], []⟩ = .ok r)
    (h' : renderView room (positionsToCpu src) (positionsToCpu mic) pre 1 true 3 true ⟨r.srcTraj, r.micTraj, [], []⟩
      = .ok r') :
    savePlots room src mic p q pre = (r.statics ++ r.dynamics ++ (r'.statics ++ r'.dynamics), none) := by
  obtain ⟨h1, h2⟩ := drawView_eq room (positionsToCpu src) (positionsToCpu mic) pre 2 (p, q)
  rw [h] at h1
  obtain ⟨h3, h4⟩ := drawView_eq room (positionsToCpu src) (positionsToCpu mic) pre 3 (r.srcTraj, r.micTraj)
  rw [h'] at h3
  unfold savePlots
  have e1 : drawView room (positionsToCpu src) (positionsToCpu mic) pre 2 (p, q) =
      (r.statics ++ r.dynamics, .ok (r.srcTraj, r.micTraj)) := Prod.ext (h2 r h) h1
  have e2 : drawView room (positionsToCpu src) (positionsToCpu mic) pre 3 (r.srcTraj, r.micTraj) =
      (r'.statics ++ r'.dynamics, .ok (r'.srcTraj, r'.micTraj)) := Prod.ext (h4 r' h') h3
  rw [e1]
  dsimp only
  rw [e2]

end ScriptPlots

/-- The picture of a scene in which the sources stand at `src` and the microphones at `mic`, or move along `p` and `q`
while a sound of the given length is heard; `rate` is the number of steps per second of the animations. -/
def IsShot {S M d T : ℕ} (L : Fin d → ℝ) (src : Fin S → Fin d → ℝ) (mic : Fin M → Fin d → ℝ)
    (p : Fin T → Fin S → Fin d → ℝ) (q : Fin T → Fin M → Fin d → ℝ) (pre : String) (length : ℝ) (rate : ℤ) :
    Shot → Picture → Prop
  | .still v, .image i => IsStaticImage L src mic pre true v i ∧ i.1 = Shot.file pre (.still v)
  | .paths v, .image i => IsDynamicImage L src mic p q pre 1 true v i ∧ i.1 = Shot.file pre (.paths v)
  | .film v, .movie m => IsMovie p q length true rate (Shot.file pre (.film v), v) m
  | _, _ => False

namespace ScriptPlots

theorem file_still {v : ℕ} (hv : v = 2 ∨ v = 3) (pre : String) :
    pre ++ "_static_" ++ toString v ++ "d.png" = Shot.file pre (.still v) := by
  rcases hv with rfl | rfl <;> (rw [String.append_assoc, String.append_assoc]; rfl)

theorem file_paths {v : ℕ} (hv : v = 2 ∨ v = 3) (pre : String) :
    pre ++ "_dynamic_" ++ toString v ++ "d.png" = Shot.file pre (.paths v) := by
  rcases hv with rfl | rfl <;> (rw [String.append_assoc, String.append_assoc]; rfl)

theorem single {α β : Type} {R : α → β → Prop} {c : Prop} [Decidable c] {a : α} {l : List β}
    (h : List.Forall₂ R (if c then [a] else []) l) : (c ∧ ∃ b, l = [b] ∧ R a b) ∨ (¬ c ∧ l = []) := by
  by_cases hc : c
  · rw [if_pos hc] at h
    cases h with
    | cons h1 h2 => cases h2; exact .inl ⟨hc, _, rfl, h1⟩
  · rw [if_neg hc] at h
    cases h
    exact .inr ⟨hc, rfl⟩

variable {S M d T : ℕ}

/-- The images of a scene at rest. -/
theorem savePlots_static (hd : d = 2 ∨ d = 3) (L : Fin d → ℝ) (src : Fin S → Fin d → ℝ) (mic : Fin M → Fin d → ℝ)
    (p : Fin T → Fin S → Fin d → ℝ) (q : Fin T → Fin M → Fin d → ℝ) (pre : String) (length : ℝ) (rate : ℤ) :
    ∃ images, savePlots (sizeTensor L) (tensor2 src) (tensor2 mic) none none pre = (images, none) ∧
      List.Forall₂ (IsShot L src mic p q pre length rate) (.still 2 :: if d = 3 then [.still 3] else [])
        (images.map .image) := by
  obtain ⟨S1, h1, f1⟩ := renderView_static L src mic pre 1 true true 2 (Or.inl rfl) [] []
  obtain ⟨S2, h2, f2⟩ := renderView_static L src mic pre 1 true true 3 (Or.inr rfl) [] []
  refine ⟨_, savePlots_of (r := ⟨none, none, [] ++ S1, []⟩) (r' := ⟨none, none, [] ++ S2, []⟩) ?_ ?_, ?_⟩
  · rw [positionsToCpu_tensor2, positionsToCpu_tensor2]; exact h1
  · rw [positionsToCpu_tensor2, positionsToCpu_tensor2]; exact h2
  rcases single f1 with ⟨-, i, rfl, hi⟩ | ⟨h, -⟩
  · rcases single f2 with ⟨⟨-, h3⟩, j, rfl, hj⟩ | ⟨h, rfl⟩
    · rw [if_pos (by omega)]
      exact .cons ⟨hi, hi.1.trans (file_still (.inl rfl) pre)⟩ (.cons ⟨hj, hj.1.trans (file_still (.inr rfl) pre)⟩ .nil)
    · rw [if_neg (by simp at h; omega)]
      exact .cons ⟨hi, hi.1.trans (file_still (.inl rfl) pre)⟩ .nil
  · exact absurd ⟨rfl, by omega⟩ h

/-- The images of a moving scene. -/
theorem savePlots_dynamic (hd : d = 2 ∨ d = 3) (hT : 0 < T) (hS : 0 < S) (hM : 0 < M) (L : Fin d → ℝ)
    (src : Fin S → Fin d → ℝ) (mic : Fin M → Fin d → ℝ)
    (p : Fin T → Fin S → Fin d → ℝ) (q : Fin T → Fin M → Fin d → ℝ) (pre : String) (length : ℝ) (rate : ℤ) :
    ∃ images, savePlots (sizeTensor L) (tensor2 src) (tensor2 mic) (some (tensor3 p)) (some (tensor3 q)) pre
        = (images, none) ∧
      List.Forall₂ (IsShot L src mic p q pre length rate)
        (.still 2 :: .paths 2 :: if d = 3 then [.still 3, .paths 3] else []) (images.map .image) := by
  obtain ⟨S1, D1, h1, f1, g1⟩ := renderView_dynamic hT hT hS hM L src mic p q pre 1 one_pos true true 2 (Or.inl rfl) [] []
  obtain ⟨S2, D2, h2, f2, g2⟩ := renderView_dynamic hT hT hS hM L src mic p q pre 1 one_pos true true 3 (Or.inr rfl) [] []
  refine ⟨_, savePlots_of (r := ⟨some (tensor3 p), some (tensor3 q), [] ++ S1, [] ++ D1⟩)
    (r' := ⟨some (tensor3 p), some (tensor3 q), [] ++ S2, [] ++ D2⟩) ?_ ?_, ?_⟩
  · rw [positionsToCpu_tensor2, positionsToCpu_tensor2]; exact h1
  · rw [positionsToCpu_tensor2, positionsToCpu_tensor2]; exact h2
  have s2 := file_still (.inl rfl : 2 = 2 ∨ 2 = 3) pre
  have s3 := file_still (.inr rfl : 3 = 2 ∨ 3 = 3) pre
  have p2 := file_paths (.inl rfl : 2 = 2 ∨ 2 = 3) pre
  have p3 := file_paths (.inr rfl : 3 = 2 ∨ 3 = 3) pre
  rcases single f1 with ⟨-, i, rfl, hi⟩ | ⟨h, -⟩
  · rcases single g1 with ⟨-, i', rfl, hi'⟩ | ⟨h, -⟩
    · rcases single f2 with ⟨⟨-, h3⟩, j, rfl, hj⟩ | ⟨h, rfl⟩
      · rcases single g2 with ⟨-, j', rfl, hj'⟩ | ⟨h, -⟩
        · rw [if_pos (by omega)]
          exact .cons ⟨hi, hi.1.trans s2⟩ (.cons ⟨hi', hi'.1.trans p2⟩
            (.cons ⟨hj, hj.1.trans s3⟩ (.cons ⟨hj', hj'.1.trans p3⟩ .nil)))
        · exact absurd ⟨rfl, h3⟩ h
      · rcases single g2 with ⟨h', -⟩ | ⟨-, rfl⟩
        · exact absurd h' h
        · rw [if_neg (by simp at h; omega)]
          exact .cons ⟨hi, hi.1.trans s2⟩ (.cons ⟨hi', hi'.1.trans p2⟩ .nil)
    · exact absurd ⟨rfl, by omega⟩ h
  · exact absurd ⟨rfl, by omega⟩ h

/-- The animations of a scene. -/
theorem saveGifs_shots (hd : d = 2 ∨ d = 3) (hT : 0 < T) (L : Fin d → ℝ) (src : Fin S → Fin d → ℝ)
    (mic : Fin M → Fin d → ℝ) (p : Fin T → Fin S → Fin d → ℝ) (q : Fin T → Fin M → Fin d → ℝ) (pre : String)
    (n : ℕ) (fs : ℕ) (hfs : 0 < fs) :
    ∃ rate movies, RateFor (-1) T n fs rate ∧
      saveGifs (sizeTensor L) (tensor2 src) (tensor2 mic) (some (tensor3 p)) (some (tensor3 q)) pre n fs (-1)
        = (movies, none) ∧
      List.Forall₂ (IsShot L src mic p q pre (n / fs) rate) (.film 2 :: if d = 3 then [.film 3] else [])
        (movies.map .movie) := by
  obtain ⟨rate, movies, h1, h2, h3⟩ := C83_gifs hd hT L src mic p q pre n fs (by positivity) (-1) true
  refine ⟨rate, movies, h1, h2, ?_⟩
  by_cases h : d = 3
  · rw [if_pos h] at h3 ⊢
    obtain ⟨A, l, hA, hl, rfl⟩ := List.forall₂_cons_left_iff.mp h3
    obtain ⟨B, l, hB, hn, rfl⟩ := List.forall₂_cons_left_iff.mp hl
    cases hn
    exact .cons hA (.cons hB .nil)
  · rw [if_neg h] at h3 ⊢
    obtain ⟨A, l, hA, hl, rfl⟩ := List.forall₂_cons_left_iff.mp h3
    cases hl
    exact .cons hA .nil

theorem pictures_static {ι : Type} {n : ℕ} (hd : d = 2 ∨ d = 3) (hS : 0 < S) (hM : 0 < M) (L lo hi : Fin d → ℝ) (c r : ℝ)
    (src : Fin S → Fin d → ℝ) (mic : Fin M → Fin d → ℝ) (x : Fin S → Fin n → ℝ) (pre : String) (fs : ℕ) (hfs : 0 < fs) :
    ∃ rate pics, RateFor (-1) 1 n fs rate ∧
      (savePictures true (boxRoom L lo hi r c) (rows src) (rows mic) none (pointsTensor (rows src)).unsqueeze0
        (pointsTensor (rows mic)).unsqueeze0 pre (pointsTensor (rows x)) fs : Illustrated ι Unit)
        = ⟨pics.map .inr, .ok ()⟩ ∧
      List.Forall₂ (IsShot L src mic (fun _ : Fin 1 => src) (fun _ => mic) pre (n / fs) rate) (shots d false) pics := by
  obtain ⟨rate, movies, h1, h2, h3⟩ := saveGifs_shots hd one_pos L src mic (fun _ : Fin 1 => src) (fun _ => mic) pre n fs hfs
  obtain ⟨images, h4, h5⟩ := savePlots_static hd L src mic (fun _ : Fin 1 => src) (fun _ => mic) pre (n / fs) rate
  refine ⟨rate, images.map .image ++ movies.map .movie, h1, ?_, ?_⟩
  · unfold savePictures
    rw [if_pos rfl, pointsTensor_rows hS, pointsTensor_rows hM, pointsTensor_rows hS]
    have e1 : (⟨[(boxRoom L lo hi r c).size.length], (boxRoom L lo hi r c).size⟩ : Tensor ℝ) = sizeTensor L := by
      simp [boxRoom, sizeTensor]
    have e2 : ∀ {k : ℕ} (y : Fin k → Fin d → ℝ), (tensor2 y).unsqueeze0 = tensor3 fun _ : Fin 1 => y := fun y => by
      simp [tensor2, tensor3, Tensor.unsqueeze0]
    have e3 : (tensor2 x).shape.getD 1 0 = n := rfl
    rw [e1, e2, e2, e3, h2]
    simp only [Option.map_none]
    rw [h4, List.map_append, List.map_map, List.map_map]
    rfl
  · have e : shots d false = (.still 2 :: if d = 3 then [.still 3] else []) ++ (.film 2 :: if d = 3 then [.film 3] else []) := by
      rcases hd with rfl | rfl <;> rfl
    rw [e]
    exact List.rel_append h5 h3

theorem pictures_dynamic {ι : Type} {n : ℕ} (hd : d = 2 ∨ d = 3) (hT : 0 < T) (hS : 0 < S) (hM : 0 < M)
    (L lo hi : Fin d → ℝ) (c r : ℝ) (src : Fin S → Fin d → ℝ) (mic : Fin M → Fin d → ℝ) (p : Fin T → Fin S → Fin d → ℝ)
    (q : Fin T → Fin M → Fin d → ℝ) (x : Fin S → Fin n → ℝ) (pre : String) (fs : ℕ) (hfs : 0 < fs) :
    ∃ rate pics, RateFor (-1) T n fs rate ∧
      (savePictures true (boxRoom L lo hi r c) (rows src) (rows mic)
        (some (trajTensor (Spec.steps p), trajTensor (Spec.steps q))) (trajTensor (Spec.steps p))
        (trajTensor (Spec.steps q)) pre (pointsTensor (rows x)) fs : Illustrated ι Unit) = ⟨pics.map .inr, .ok ()⟩ ∧
      List.Forall₂ (IsShot L src mic p q pre (n / fs) rate) (shots d true) pics := by
  obtain ⟨rate, movies, h1, h2, h3⟩ := saveGifs_shots hd hT L src mic p q pre n fs hfs
  obtain ⟨images, h4, h5⟩ := savePlots_dynamic hd hT hS hM L src mic p q pre (n / fs) rate
  refine ⟨rate, images.map .image ++ movies.map .movie, h1, ?_, ?_⟩
  · unfold savePictures
    rw [if_pos rfl, pointsTensor_rows hS, pointsTensor_rows hM, pointsTensor_rows hS, trajTensor_steps hT hS,
      trajTensor_steps hT hM]
    have e1 : (⟨[(boxRoom L lo hi r c).size.length], (boxRoom L lo hi r c).size⟩ : Tensor ℝ) = sizeTensor L := by
      simp [boxRoom, sizeTensor]
    have e3 : (tensor2 x).shape.getD 1 0 = n := rfl
    rw [e1, e3, h2]
    simp only [Option.map_some]
    rw [h4, List.map_append, List.map_map, List.map_map]
    rfl
  · have e : shots d true = (.still 2 :: .paths 2 :: if d = 3 then [.still 3, .paths 3] else []) ++
        (.film 2 :: if d = 3 then [.film 3] else []) := by
      rcases hd with rfl | rfl <;> rfl
    rw [e]
    exact List.rel_append h5 h3

end ScriptPlots

/-- **C133, standing scene.** With `--plot`, once the sources are loaded and the scene is placed, `static.py` saves its
pictures: after the attribution file and before all others, of the scene that is simulated (the same `src` and `mic` as
in C101), and also if the simulation fails. The animations have the scene as their only step. -/
theorem C133_static {ι : Type} {d M n : ℕ} (hd : d = 2 ∨ d = 3) (hM : 0 < M) (conv : Flt → ℤ) (w : World)
    {g : Gen} (hg : FairGen g) (L : Fin d → ℝ) (hL : ∀ i, 1 ≤ L i) (a : ScriptArgs) (ha : a.room = List.ofFn L)
    (hS : 0 < a.numSources) (hnum : a.numMics = M) (x : Fin a.numSources → Fin n → ℝ) (fs : ℕ) (hfs : 0 < fs)
    (info : List (String × List ι)) (k : ℕ) (sc : CliScene) (hp : placeScript .static g a k = .ok sc) :
    ∃ (src : Fin a.numSources → Fin d → ℝ) (mic : Fin M → Fin d → ℝ) (rate : ℤ) (text : String) (pics : List Picture)
      (rest : List (String × OutFile ι)),
      sc = ⟨rows src, rows mic, none⟩ ∧ RateFor (-1) 1 n fs rate ∧
      (scriptPlotted true conv w .static g a k (.ok (rows x, fs, info))).events =
        .inl ("ATTRIBUTION.txt", .text text) :: (pics.map .inr ++ rest.map .inl) ∧
      List.Forall₂ (IsShot L src mic (fun _ : Fin 1 => src) (fun _ => mic) "static" (n / fs) rate) (shots d false) pics := by
  obtain ⟨license, text, h1, h2, -⟩ := attribution_ok (ι := ι) (modificationNotes Script.static.moves)
  obtain ⟨c, src, mic, rfl, -⟩ := C95_static_placement hg (by omega) L hL a ha hM hnum k sc hp
  obtain ⟨rate, pics, h3, h4, h5⟩ := ScriptPlots.pictures_static (ι := ι) hd hS hM L (fun _ => 0.9) (fun _ => 0.9) 343 fs src
    mic x "static" fs hfs
  have hroom := cliRoom_eq conv hd L (fun i => by linarith [hL i]) { room := a.room, numSources := a.numSources } ha fs
    (by exact_mod_cast hfs)
  refine ⟨src, mic, rate, text, pics, (scriptTail w .static a license (rows x) fs info
    (boxRoom L (fun _ => 0.9) (fun _ => 0.9) fs 343) ⟨rows src, rows mic, none⟩).files, rfl, h3, ?_, h5⟩
  unfold scriptPlotted
  rw [ScriptPlots.quiet_plain_bind h1, h2, ScriptPlots.write_plain_bind, ScriptPlots.quiet_plain_bind rfl,
    ScriptPlots.quiet_plain_bind hroom, ScriptPlots.quiet_plain_bind hp]
  have e : (scriptPictures true .static (boxRoom L (fun _ => 0.9) (fun _ => 0.9) fs 343) ⟨rows src, rows mic, none⟩
      (pointsTensor (rows x)) fs : Illustrated ι Unit) = _ := h4
  rw [e]
  rfl

/-- **C133, moving scenes.** The same for `dynamic_src.py` and `dynamic_mic.py`, with the paths and an animation of every
step, played so that it lasts as long as the sound. -/
theorem C133_dynamic {ι : Type} {d M n T : ℕ} (hd : d = 2 ∨ d = 3) (hM : 0 < M) (conv : Flt → ℤ) (w : World)
    {g : Gen} (hg : FairGen g) (script : Script) (hscript : script ≠ .static) (L : Fin d → ℝ) (hL : ∀ i, 1 ≤ L i)
    (a : ScriptArgs) (ha : a.room = List.ofFn L) (hS : 0 < a.numSources) (hnum : a.numMics = M)
    (hT : (T : ℤ) = max 2 a.steps) (x : Fin a.numSources → Fin n → ℝ) (fs : ℕ) (hfs : 0 < fs)
    (info : List (String × List ι)) (k : ℕ) (sc : CliScene) (hp : placeScript script g a k = .ok sc) :
    ∃ (src : Fin T → Fin a.numSources → Fin d → ℝ) (mic : Fin T → Fin M → Fin d → ℝ) (first : Fin T) (rate : ℤ)
      (text : String) (pics : List Picture) (rest : List (String × OutFile ι)),
      sc = ⟨rows (src first), rows (mic first), some (Spec.steps src, Spec.steps mic)⟩ ∧ (first : ℕ) = 0 ∧
      RateFor (-1) T n fs rate ∧
      (scriptPlotted true conv w script g a k (.ok (rows x, fs, info))).events =
        .inl ("ATTRIBUTION.txt", .text text) :: (pics.map .inr ++ rest.map .inl) ∧
      List.Forall₂ (IsShot L (src first) (mic first) src mic script.prefix (n / fs) rate) (shots d true) pics := by
  obtain ⟨license, text, h1, h2, -⟩ := attribution_ok (ι := ι) (modificationNotes script.moves)
  obtain ⟨src, mic, rfl⟩ : ∃ (src : Fin T → Fin a.numSources → Fin d → ℝ) (mic : Fin T → Fin M → Fin d → ℝ),
      sc = ⟨Spec.rows (src ⟨0, by omega⟩), Spec.rows (mic ⟨0, by omega⟩), some (Spec.steps src, Spec.steps mic)⟩ := by
    cases script with
    | static => exact absurd rfl hscript
    | dynamicSrc =>
      obtain ⟨c, start, src, mic, moving, rfl, -, -, -, -, -, h0⟩ := C95_src_placement hg (by omega) L hL a ha hM hnum k sc
        hp hT
      exact ⟨src, fun _ => mic, by rw [h0]⟩
    | dynamicMic =>
      obtain ⟨start, stop, c, src, mic, rfl, -⟩ := C95_mic_placement hg (by omega) L hL a ha hM hnum k sc hp hT
      exact ⟨fun _ => src, mic, rfl⟩
  obtain ⟨rate, pics, h3, h4, h5⟩ := ScriptPlots.pictures_dynamic (ι := ι) hd (by omega : 0 < T) hS hM L (fun _ => 0.9)
    (fun _ => 0.9) 343 fs (src ⟨0, by omega⟩) (mic ⟨0, by omega⟩) src mic x script.prefix fs hfs
  have hroom := cliRoom_eq conv hd L (fun i => by linarith [hL i]) { room := a.room, numSources := a.numSources } ha fs
    (by exact_mod_cast hfs)
  refine ⟨src, mic, ⟨0, by omega⟩, rate, text, pics, (scriptTail w script a license (rows x) fs info
    (boxRoom L (fun _ => 0.9) (fun _ => 0.9) fs 343) ⟨Spec.rows (src ⟨0, by omega⟩), Spec.rows (mic ⟨0, by omega⟩),
      some (Spec.steps src, Spec.steps mic)⟩).files, rfl, rfl, h3, ?_, h5⟩
  unfold scriptPlotted
  rw [ScriptPlots.quiet_plain_bind h1, h2, ScriptPlots.write_plain_bind, ScriptPlots.quiet_plain_bind rfl,
    ScriptPlots.quiet_plain_bind hroom, ScriptPlots.quiet_plain_bind hp]
  have e : (scriptPictures true script (boxRoom L (fun _ => 0.9) (fun _ => 0.9) fs 343)
      ⟨Spec.rows (src ⟨0, by omega⟩), Spec.rows (mic ⟨0, by omega⟩), some (Spec.steps src, Spec.steps mic)⟩
      (pointsTensor (rows x)) fs : Illustrated ι Unit) = _ := h4
  rw [e]
  rfl

/-! ## The dataset script -/

namespace ScriptPlots

theorem bind_ok_events {ι α β : Type} {x : Illustrated ι α} {a : α} (h : x.result = .ok a) (f : α → Illustrated ι β) :
    x >>= f = ⟨x.events ++ (f a).events, (f a).result⟩ := by
  show Illustrated.andThen x f = _
  unfold Illustrated.andThen
  rw [h]

/-- What a loop has written once it reaches a turn. -/
theorem plottedScenes_split {ι : Type} (scene : ℕ → Illustrated ι Unit) (idx : ℕ) (post : List ℕ) : ∀ pre : List ℕ,
    (∀ i ∈ pre, (scene i).result = .ok ()) → ∃ after,
      (plottedScenes scene (pre ++ idx :: post)).events =
        (pre.flatMap fun i => (scene i).events) ++ (scene idx).events ++ after
  | [], _ => by
    have h : plottedScenes scene ([] ++ idx :: post) = scene idx >>= fun _ => plottedScenes scene post := rfl
    cases hr : (scene idx).result with
    | error e =>
      refine ⟨[], ?_⟩
      rw [h]
      show (Illustrated.andThen _ _).events = _
      unfold Illustrated.andThen
      rw [hr]
      simp
    | ok u =>
      refine ⟨(plottedScenes scene post).events, ?_⟩
      rw [h, bind_ok_events hr]
      simp
  | i :: pre, hpre => by
    obtain ⟨after, ih⟩ := plottedScenes_split scene idx post pre fun j hj => hpre j (List.mem_cons_of_mem _ hj)
    refine ⟨after, ?_⟩
    have h : plottedScenes scene (i :: pre ++ idx :: post) =
      scene i >>= fun _ => plottedScenes scene (pre ++ idx :: post) := rfl
    rw [h, bind_ok_events (hpre i (by simp)), List.flatMap_cons, ih]
    simp

theorem steps_head {n d T : ℕ} (p : Fin T → Fin n → Fin d → ℝ) (first : Fin T) (h : (first : ℕ) = 0) :
    (Spec.steps p).headD [] = rows (p first) := by
  obtain ⟨T, rfl⟩ : ∃ k, T = k + 1 := ⟨T - 1, by have := first.2; omega⟩
  have : first = 0 := Fin.ext h
  subst this
  simp [Spec.steps, List.ofFn_succ]

end ScriptPlots

/-- **C133, scenes of a dataset.** With `--plot`, once the earlier scenes are complete, the signals of scene `idx` are
loaded and its sources are placed, its pictures are saved: after the files of the earlier scenes and before those of the
scene itself, and also if the simulation fails. They show the trajectories that are simulated, with the microphones of
C103. -/
theorem C133_dataset_scene {ι : Type} {d M n T : ℕ} (hd : d = 2 ∨ d = 3) (hM : 0 < M) (conv : Flt → ℤ) (w : World)
    (gen : ℤ → Gen) (hg : ∀ z, FairGen (gen z)) (L : Fin d → ℝ) (hL : ∀ i, 1 ≤ L i)
    (a : DatasetRunArgs) (ha : a.room = List.ofFn L) (hnum : a.numMics = M) (hT : (T : ℤ) = max 2 a.steps)
    (hds : ∃ p ∈ licensed, a.dataset = p.1) (load : Gen → Except String (LoadedSources ι × ℕ))
    (idx : ℕ) (hidx : idx < a.numScenes)
    (hbefore : ∀ j < idx, "scene_" ++ zeroPadded 3 j ++ "_metadata.json" ∈
      (datasetRun conv w a gen load).files.map Prod.fst)
    (x : Fin a.numSources → Fin n → ℝ) (fs : ℕ) (hfs : 0 < fs) (info : List (String × List ι)) (k : ℕ)
    (hl : load (gen (a.seed + idx)) = .ok ((rows x, fs, info), k))
    (traj : List (List Vec)) (modes : List String) (moving : List ℕ)
    (hb : buildSourceTrajectories (gen (a.seed + idx)) a.numSources a.numMoving (List.ofFn L)
      (List.ofFn (candidate (gen a.seed).value L none 0.5 0 0)) T k = .ok (traj, modes, moving)) :
    ∃ (src : Fin T → Fin a.numSources → Fin d → ℝ) (mic : Fin M → Fin d → ℝ) (first : Fin T) (rate : ℤ)
      (before after : List ((String × OutFile ι) ⊕ Picture)) (pics : List Picture) (files : List (String × OutFile ι)),
      traj = Spec.steps src ∧ DatasetMics (by omega) L (candidate (gen a.seed).value L none 0.5 0 0) mic ∧
      (first : ℕ) = 0 ∧ RateFor (-1) T n fs rate ∧
      (datasetPlotted true conv w a gen load).events = before ++ (pics.map .inr ++ files.map .inl) ++ after ∧
      (before.filterMap Sum.getLeft?).map Prod.fst = datasetNames a.numSources idx ∧
      files.map Prod.fst <+: sceneNames a.numSources idx ∧
      List.Forall₂ (IsShot L (src first) mic src (fun _ => mic) ("scene_" ++ zeroPadded 3 idx) (n / fs) rate)
        (shots d true) pics := by
  obtain ⟨c, k0, hc, hcw⟩ := drawCenter_eq (gen a.seed).value (hg _).unit L hL 0
  obtain ⟨mic, hm, hdm, hw⟩ := (C90_microphones (by omega : 0 < d) L c hL hcw a.numMics).2 M hnum hM
  have hfst : (drawCenter (gen a.seed).value (List.ofFn L) 0).1 = List.ofFn c := by rw [hc]
  have hc' : c = candidate (gen a.seed).value L none 0.5 0 0 := by
    have h := hfst
    rw [drawCenter_exact] at h
    exact (List.ofFn_injective h).symm
  rw [← hc'] at hb ⊢
  obtain ⟨license, hlic⟩ : ∃ license, attributionFor a.dataset a.reported = .ok license := by
    obtain ⟨⟨key, credit⟩, hp, hk⟩ := hds
    obtain ⟨info, -, h, -⟩ := C84_supported key credit hp a.dataset (by
      rw [hk]
      simp only [licensed, List.mem_cons, List.not_mem_nil, or_false, Prod.mk.injEq] at hp
      rcases hp with ⟨rfl, -⟩ | ⟨rfl, -⟩
      · exact toLower_eq (s := "cmu_arctic") (by decide)
      · exact toLower_eq (s := "librispeech") (by decide)) a.reported [] none
    exact ⟨info, h⟩
  have hroom := cliRoom_eq conv hd L (fun i => by linarith [hL i]) { room := a.room, numSources := a.numSources }
    (by exact ha) 16000 (by norm_num)
  obtain ⟨key, credit, text, -, hkey, hwr, hlk, -⟩ := attribution_written (ι := ι) hlic (modificationNotes true)
  have hS := motion_nonempty hb
  obtain ⟨src, mode, rfl, rfl, -⟩ := C90_motion (hg _) (by omega) L c hL a.numSources a.numMoving k traj modes moving hb
  obtain ⟨rate, pics, h3, h4, h5⟩ := ScriptPlots.pictures_dynamic (ι := ι) hd (by omega : 0 < T) hS hM L (fun _ => 0.9)
    (fun _ => 0.9) 343 16000 (src ⟨0, by omega⟩) mic src (fun _ => mic) x ("scene_" ++ zeroPadded 3 idx) fs hfs
  set room := boxRoom L (fun _ => 0.9) (fun _ => 0.9) 16000 343 with hroomdef
  have hdata : ∀ i, dataOf (plottedScene true w room a gen load license (List.ofFn c) (rows mic) i) =
      writeScene w room a gen load license (List.ofFn c) (rows mic) i := fun i => ScriptPlots.data_plottedScene ..
  have hprev : ∀ j ∈ List.range idx,
      (plottedScene true w room a gen load license (List.ofFn c) (rows mic) j).result = .ok () := fun j hj => by
    have hj := hbefore j (List.mem_range.mp hj)
    have hrun : datasetRun conv w a gen load = (writeAttribution license (modificationNotes true) >>= fun _ =>
        writeScenes (writeScene w room a gen load license (List.ofFn c) (rows mic)) (List.range a.numScenes)) := by
      unfold datasetRun
      rw [quietly_bind hroom, ha, hfst, quietly_bind hm, quietly_bind hlic]
    rw [hrun, hwr, writeFile_bind] at hj
    dsimp only at hj
    rw [List.map_cons, List.mem_cons] at hj
    have hj := hj.resolve_left fun h => by
      have h := congrArg String.toList h
      rw [sceneMetadata_chars] at h
      simp at h
    have := (scene_of_metadata hj).1
    rw [← hdata] at this
    exact this
  have hscene : (plottedScene true w room a gen load license (List.ofFn c) (rows mic) idx).events = pics.map .inr ++
      (sceneTail w room a license (rows mic) idx (rows x, fs, info) (Spec.steps src, List.ofFn mode, moving)).files.map
        .inl := by
    unfold plottedScene
    rw [ScriptPlots.quiet_plain_bind hl]
    dsimp only
    rw [← hT, ha, ScriptPlots.quiet_plain_bind hb]
    dsimp only
    have e1 : List.replicate (T : ℤ).toNat (rows mic) = Spec.steps fun _ : Fin T => mic := by
      rw [Int.toNat_natCast]
      unfold Spec.steps
      rw [List.ofFn_const]
    rw [e1, ScriptPlots.steps_head src ⟨0, by omega⟩ rfl, h4]
    rfl
  obtain ⟨after, hsplit⟩ := ScriptPlots.plottedScenes_split
    (plottedScene true w room a gen load license (List.ofFn c) (rows mic)) idx
    ((List.range a.numScenes).drop (idx + 1)) (List.range idx) hprev
  have hrange : List.range idx ++ idx :: (List.range a.numScenes).drop (idx + 1) = List.range a.numScenes := by
    have h1 : (List.range a.numScenes).take idx = List.range idx := by
      rw [List.take_range, min_eq_left hidx.le]
    have h2 : (List.range a.numScenes).drop idx = idx :: (List.range a.numScenes).drop (idx + 1) := by
      rw [List.drop_eq_getElem_cons (by simpa using hidx)]
      simp
    rw [← h2, ← h1, List.take_append_drop]
  rw [hrange, hscene] at hsplit
  refine ⟨src, mic, ⟨0, by omega⟩, rate, .inl ("ATTRIBUTION.txt", .text text) :: ((List.range idx).flatMap fun i =>
    (plottedScene true w room a gen load license (List.ofFn c) (rows mic) i).events), after, pics,
    (sceneTail w room a license (rows mic) idx (rows x, fs, info) (Spec.steps src, List.ofFn mode, moving)).files,
    rfl, hdm, rfl, h3, ?_, ?_, ?_, h5⟩
  · unfold datasetPlotted
    rw [ScriptPlots.quiet_plain_bind hroom, ha, hfst, ScriptPlots.quiet_plain_bind hm,
      ScriptPlots.quiet_plain_bind hlic, hwr, ScriptPlots.write_plain_bind]
    dsimp only
    rw [hsplit]
    simp
  · show "ATTRIBUTION.txt" :: (List.filterMap Sum.getLeft? _).map Prod.fst = _
    rw [datasetNames, List.filterMap_flatMap, List.map_flatMap]
    congr 1
    refine List.flatMap_congr fun i hi => ?_
    have h := (scene_ends w room a gen load license (List.ofFn c) (rows mic) i).1.2 () (by rw [← hdata]; exact hprev i hi)
    rw [← hdata] at h
    exact h
  · have h := (scene_ends w room a gen load license (List.ofFn c) (rows mic) idx).1.1
    rw [← hdata] at h
    unfold dataOf at h
    rw [hscene, List.filterMap_append, List.filterMap_map, List.filterMap_map] at h
    rw [List.filterMap_eq_nil_iff.mpr (fun (_ : Picture) _ => by rfl), List.nil_append] at h
    rwa [show (Sum.getLeft? ∘ Sum.inl : (String × OutFile ι) → Option (String × OutFile ι)) = some from rfl,
      List.filterMap_some] at h

/-! ## Names -/

namespace ScriptPlots

theorem shots_cases (d : ℕ) (moving : Bool) (s : Shot) (h : s ∈ shots d moving) :
    s ∈ [Shot.still 2, .paths 2, .still 3, .paths 3, .film 2, .film 3] := by
  unfold shots at h
  cases moving <;> by_cases hd : d = 3 <;> simp [hd] at h <;> aesop

theorem last_append (a b : String) {c : Char} (h : b.toList.getLast? = some c) : (a ++ b).toList.getLast? = some c := by
  rw [String.toList_append, List.getLast?_append, h]
  rfl

theorem files_nodup (pre : String) (d : ℕ) (moving : Bool) : ((shots d moving).map (Shot.file pre)).Nodup := by
  have h : ((shots d moving).map Shot.suffix).Nodup := by
    unfold shots
    cases moving <;> by_cases hd : d = 3 <;> simp only [hd, if_true, if_false] <;> decide
  have e : (shots d moving).map (Shot.file pre) = ((shots d moving).map Shot.suffix).map (pre ++ ·) := by
    rw [List.map_map]
    exact List.map_congr_left fun s _ => rfl
  rw [e]
  refine h.map fun s t hst => ?_
  have := congrArg String.toList hst
  simp only [String.toList_append] at this
  exact String.toList_inj.mp (List.append_cancel_left this)

/-- Pictures end in `g` or `f`. -/
theorem file_last {d : ℕ} {moving : Bool} {s : Shot} (h : s ∈ shots d moving) (pre : String) :
    (s.file pre).toList.getLast? = some 'g' ∨ (s.file pre).toList.getLast? = some 'f' := by
  rw [Shot.file, String.toList_append]
  have h := shots_cases d moving s h
  simp only [List.mem_cons, List.not_mem_nil, or_false] at h
  rcases h with rfl | rfl | rfl | rfl | rfl | rfl <;> simp [Shot.suffix]

end ScriptPlots

/-- **C133, names of the pictures.** No picture overwrites another one or a file of the run; neither do the pictures of
the scenes of a dataset. -/
theorem C133_names (script : Script) (n d count : ℕ) (moving : Bool) :
    (scriptNames script n ++ (shots d moving).map (Shot.file script.prefix)).Nodup ∧
    (datasetNames n count ++ (List.range count).flatMap fun idx =>
      (shots d moving).map (Shot.file ("scene_" ++ zeroPadded 3 idx))).Nodup := by
  have last : ∀ {name : String} {c : Char}, name.toList.getLast? = some c → c ≠ 'g' → c ≠ 'f' → ∀ pre,
      name ∉ (shots d moving).map (Shot.file pre) := fun hn hg hf pre h => by
    obtain ⟨s, hs, rfl⟩ := List.mem_map.mp h
    rcases ScriptPlots.file_last hs pre with h | h <;> rw [h] at hn <;> cases hn <;> contradiction
  constructor
  · rw [List.nodup_append]
    refine ⟨C101_names script n, ScriptPlots.files_nodup _ _ _, ?_⟩
    rintro name hname _ h rfl
    have : ∃ c, name.toList.getLast? = some c ∧ c ≠ 'g' ∧ c ≠ 'f' := by
      unfold scriptNames at hname
      simp only [List.mem_cons, List.mem_append, List.mem_map, List.not_mem_nil, or_false] at hname
      rcases hname with rfl | ⟨s, -, rfl⟩ | rfl | rfl
      · exact ⟨'t', by decide, by decide, by decide⟩
      · exact ⟨'v', ScriptPlots.last_append _ _ (by decide), by decide, by decide⟩
      · exact ⟨'v', ScriptPlots.last_append _ _ (by decide), by decide, by decide⟩
      · exact ⟨'n', ScriptPlots.last_append _ _ (by decide), by decide, by decide⟩
    obtain ⟨c, h1, h2, h3⟩ := this
    exact last h1 h2 h3 _ h
  · rw [List.nodup_append]
    refine ⟨C103_names n count, ?_, ?_⟩
    · rw [List.nodup_flatMap]
      refine ⟨fun idx _ => ScriptPlots.files_nodup _ _ _, List.nodup_range.imp fun {i j} hij name hi hj => ?_⟩
      apply hij
      obtain ⟨s, hs, rfl⟩ := List.mem_map.mp hi
      obtain ⟨t, ht, h⟩ := List.mem_map.mp hj
      have h := congrArg String.toList h
      rw [Shot.file, Shot.file] at h
      simp only [String.toList_append, List.append_assoc] at h
      have h := List.append_cancel_left h
      have key : ∀ s ∈ shots d moving, ∃ c r, c.isDigit = false ∧ (s.suffix).toList = c :: r := fun s hs => by
        have hs := ScriptPlots.shots_cases d moving s hs
        simp only [List.mem_cons, List.not_mem_nil, or_false] at hs
        rcases hs with rfl | rfl | rfl | rfl | rfl | rfl <;> exact ⟨_, _, rfl, rfl⟩
      obtain ⟨c, r, hc, e⟩ := key s hs
      obtain ⟨c', r', hc', e'⟩ := key t ht
      rw [e, e'] at h
      have := (digits_split (zeroPadded_digits _ _) (zeroPadded_digits _ _) hc' hc h).1
      rw [← zeroPadded_value 3 i, ← this, zeroPadded_value]
    · rintro name hname _ h rfl
      obtain ⟨idx, -, h⟩ := List.mem_flatMap.mp h
      have : ∃ c, name.toList.getLast? = some c ∧ c ≠ 'g' ∧ c ≠ 'f' := by
        unfold datasetNames sceneNames at hname
        simp only [List.mem_cons, List.mem_append, List.mem_flatMap, List.mem_map, List.not_mem_nil, or_false] at hname
        rcases hname with rfl | ⟨i, -, ⟨s, -, rfl⟩ | rfl | rfl⟩
        · exact ⟨'t', by decide, by decide, by decide⟩
        · exact ⟨'v', ScriptPlots.last_append _ _ (by decide), by decide, by decide⟩
        · exact ⟨'v', ScriptPlots.last_append _ _ (by decide), by decide, by decide⟩
        · exact ⟨'n', ScriptPlots.last_append _ _ (by decide), by decide, by decide⟩
      obtain ⟨c, h1, h2, h3⟩ := this
      exact last h1 h2 h3 _ h

/-! ## Images that are saved and images that are returned -/

namespace ScriptPlots

theorem renderView_acc (room src mic : Tensor ℝ) (pre : String) (v : ℕ) (p q : Option (Tensor ℝ)) (S D : List Image) :
    renderView room src mic pre 1 true v true ⟨p, q, S, D⟩ =
      (renderView room src mic pre 1 true v true ⟨p, q, [], []⟩).map
        fun r => ⟨r.srcTraj, r.micTraj, S ++ r.statics, D ++ r.dynamics⟩ := by
  unfold renderView
  by_cases h : room.numel < v
  · rw [if_pos (Or.inr h), if_pos (Or.inr h)]
    show Except.ok _ = Except.ok (RenderState.mk p q (S ++ []) (D ++ []))
    rw [List.append_nil, List.append_nil]
  · rw [if_neg (by rintro (h' | h') <;> [cases h'; exact h h']), if_neg (by rintro (h' | h') <;> [cases h'; exact h h'])]
    cases plotStatic (sliceLast v room) (sliceLast v src) (sliceLast v mic) true with
    | error e => rfl
    | ok marks =>
      rw [ok_bind, ok_bind, renderDynamic_acc, renderDynamic_acc (S := [] ++ _)]
      cases renderDynamic room src mic pre 1 true v ⟨p, q, [], []⟩ with
      | error e => rfl
      | ok s => rfl

end ScriptPlots

/-- **C133, nothing is lost or invented.** For all arguments whatsoever: if `render_scene_plots` returns, then the images
saved are those it returns; if it raises, then this is the warning. -/
theorem C133_saved (room sources mics : Tensor ℝ) (srcTraj micTraj : Option (Tensor ℝ)) (pre : String) :
    (∀ S D, renderScenePlots room sources mics srcTraj micTraj pre 1 = .ok (S, D) →
      ∃ saved, savePlots room sources mics srcTraj micTraj pre = (saved, none) ∧ saved.Perm (S ++ D)) ∧
    ∀ e, renderScenePlots room sources mics srcTraj micTraj pre 1 = .error e →
      (savePlots room sources mics srcTraj micTraj pre).2 = some e := by
  unfold renderScenePlots
  cases h : renderView room (positionsToCpu sources) (positionsToCpu mics) pre 1 true 2 true ⟨srcTraj, micTraj, [], []⟩ with
  | error e =>
    refine ⟨fun S D h' => (by cases h'), fun e' h' => ?_⟩
    cases h'
    have h1 := (ScriptPlots.drawView_eq room (positionsToCpu sources) (positionsToCpu mics) pre 2 (srcTraj, micTraj)).1
    rw [h] at h1
    unfold savePlots
    revert h1
    cases drawView room (positionsToCpu sources) (positionsToCpu mics) pre 2 (srcTraj, micTraj) with
    | mk i x => rintro rfl; rfl
  | ok r =>
    rw [ok_bind, ScriptPlots.renderView_acc]
    cases h' : renderView room (positionsToCpu sources) (positionsToCpu mics) pre 1 true 3 true
        ⟨r.srcTraj, r.micTraj, [], []⟩ with
    | ok r' =>
      refine ⟨fun S D hsd => ⟨_, ScriptPlots.savePlots_of h h', ?_⟩, fun e he => (by cases he)⟩
      cases hsd
      rw [List.append_assoc, List.append_assoc]
      refine List.Perm.append_left _ ?_
      rw [← List.append_assoc, ← List.append_assoc]
      exact List.Perm.append_right _ List.perm_append_comm
    | error e =>
      refine ⟨fun S D h' => (by cases h'), fun e' he => ?_⟩
      cases he
      obtain ⟨h1, -⟩ := ScriptPlots.drawView_eq room (positionsToCpu sources) (positionsToCpu mics) pre 2 (srcTraj, micTraj)
      rw [h] at h1
      obtain ⟨h3, -⟩ := ScriptPlots.drawView_eq room (positionsToCpu sources) (positionsToCpu mics) pre 3
        (r.srcTraj, r.micTraj)
      rw [h'] at h3
      unfold savePlots
      revert h1
      cases drawView room (positionsToCpu sources) (positionsToCpu mics) pre 2 (srcTraj, micTraj) with
      | mk i x =>
        rintro rfl
        dsimp only [Except.map]
        revert h3
        cases drawView room (positionsToCpu sources) (positionsToCpu mics) pre 3 (r.srcTraj, r.micTraj) with
        | mk j y => rintro rfl; rfl

/-- **C133, what was saved stays.** An exception takes no image back. If the positions can be drawn, then the still of the
view from above is there, whatever is wrong with the trajectories; if the view from above succeeds, then its images are
there, whatever happens in space. -/
theorem C133_kept (room sources mics : Tensor ℝ) (srcTraj micTraj : Option (Tensor ℝ)) (pre : String) :
    (∀ still S D, renderScenePlots room sources mics none none pre 1 = .ok (still :: S, D) →
      ∃ rest, (savePlots room sources mics srcTraj micTraj pre).1 = still :: rest) ∧
    ∀ S D, renderScenePlots room sources mics srcTraj micTraj pre 1 (plot3d := false) = .ok (S, D) →
      S ++ D <+: (savePlots room sources mics srcTraj micTraj pre).1 := by
  constructor
  · intro still S D h
    unfold renderScenePlots renderView at h
    by_cases h2 : room.numel < 2
    · rw [if_pos (Or.inr h2), ok_bind, if_pos (Or.inr (by omega))] at h
      cases h
    rw [if_neg (by rintro (h' | h') <;> [cases h'; exact h2 h'])] at h
    obtain ⟨s, hs, h⟩ := (bind_eq_ok _ _ _).mp h
    obtain ⟨marks, hm, hs⟩ := (bind_eq_ok _ _ _).mp hs
    have hs : s = ⟨none, none, [(pre ++ "_static_" ++ toString 2 ++ "d.png", marks)], []⟩ := (Except.ok.inj hs).symm
    subst hs
    have hstill : still = (pre ++ "_static_" ++ toString 2 ++ "d.png", marks) := by
      obtain ⟨s, hs, h⟩ := (bind_eq_ok _ _ _).mp h
      have h : s.statics = still :: S := congrArg Prod.fst (Except.ok.inj h)
      split at hs
      · cases hs; cases h; rfl
      · obtain ⟨marks', -, hs⟩ := (bind_eq_ok _ _ _).mp hs
        cases hs; cases h; rfl
    have hd : ∃ rest x, drawView room (positionsToCpu sources) (positionsToCpu mics) pre 2 (srcTraj, micTraj) =
        (still :: rest, x) := by
      unfold drawView
      rw [if_neg h2, hm, hstill]
      dsimp only
      split
      · exact ⟨_, _, rfl⟩
      · exact ⟨_, _, rfl⟩
    obtain ⟨rest, x, hd⟩ := hd
    unfold savePlots
    rw [hd]
    cases x with
    | error e => exact ⟨_, rfl⟩
    | ok traj =>
      dsimp only
      split
      · exact ⟨_, rfl⟩
      · exact ⟨_, rfl⟩
  · intro S D h
    unfold renderScenePlots at h
    obtain ⟨s, hs, h⟩ := (bind_eq_ok _ _ _).mp h
    have hd := ScriptPlots.drawView_eq room (positionsToCpu sources) (positionsToCpu mics) pre 2 (srcTraj, micTraj)
    rw [hs] at hd
    have h3 : renderView room (positionsToCpu sources) (positionsToCpu mics) pre 1 true 3 false s = .ok s := if_pos (Or.inl rfl)
    rw [h3] at h
    cases h
    have h1 := hd.1
    have h2 := hd.2 _ rfl
    unfold savePlots
    revert h1 h2
    cases drawView room (positionsToCpu sources) (positionsToCpu mics) pre 2 (srcTraj, micTraj) with
    | mk i x =>
      rintro rfl rfl
      dsimp only [Except.map]
      split <;> exact List.prefix_append _ _

/-- The pictures of a moving scene in space. -/
example : (shots 3 true).map (Shot.file "dynamic_src") =
    ["dynamic_src_static_2d.png", "dynamic_src_dynamic_2d.png", "dynamic_src_static_3d.png",
      "dynamic_src_dynamic_3d.png", "dynamic_src.gif", "dynamic_src_3d.gif"] := by decide

/-- `static.py` with nine microphones, whose references cannot be saved: the pictures are there. -/
example (conv : Flt → ℤ) (w : World) (x : Fin 3 → Fin 8000 → ℝ) (info : List (String × List ℕ)) : ∃ text i m rest,
    (scriptPlotted true conv w .static cornerGen { room := List.ofFn ![6, 4], numSources := 3, numMics := 9 } 0
      (.ok (rows x, 16000, info))).events =
      [.inl ("ATTRIBUTION.txt", .text text), .inr (.image i), .inr (.movie m)] ++ rest ∧
    i.1 = "static_static_2d.png" ∧ m.name = "static.gif" ∧ m.rate = 2 ∧ m.frames.length = 1 := by
  obtain ⟨sc, hsc⟩ := corner_script .static 9 1 (by norm_num)
  obtain ⟨src, mic, rate, text, pics, rest, -, hr, he, hp⟩ := C133_static (Or.inl rfl) (by norm_num : 0 < 9) conv w
    cornerGen_fair ![6, 4] sides64 _ rfl (by norm_num) rfl x 16000 (by norm_num) info 0 sc hsc
  obtain ⟨i, l, hi, hl, rfl⟩ := List.forall₂_cons_left_iff.mp hp
  obtain ⟨m, l, hm, hn, rfl⟩ := List.forall₂_cons_left_iff.mp hl
  cases hn
  cases i with
  | movie i => cases hi
  | image i =>
    cases m with
    | image m => cases hm
    | movie m =>
      refine ⟨text, i, m, rest.map .inl, he, hi.2, hm.1, hm.2.1.trans ?_, hm.2.2.length_eq.symm⟩
      have h := hr.2.2 (by norm_num) (by norm_num) (by norm_num)
      norm_num at h
      rw [abs_le] at h
      have h1 : (rate : ℝ) < 3 := by linarith [h.2]
      have h2 : (1 : ℝ) < rate := by linarith [h.1]
      have h1 : rate < 3 := by exact_mod_cast h1
      have h2 : 1 < rate := by exact_mod_cast h2
      omega

/-- The third scene of a dataset has its pictures after the files of the first two. -/
example (conv : Flt → ℤ) (randn : ℤ → List ℕ → List ℝ) : ∃ (l : LoadedSources ℕ) (before after : _) (pics : List Picture)
    (files : List (String × OutFile ℕ)),
    (datasetPlotted true conv (halvingWorld randn) libriScenes (fun _ => cornerGen) fun _ => .ok (l, 2)).events =
      before ++ (pics.map .inr ++ files.map .inl) ++ after ∧
    (before.filterMap Sum.getLeft?).map Prod.fst = datasetNames 3 2 ∧ pics.length = 3 := by
  obtain ⟨fuel, l, hl, hrate⟩ := speakersAt_load 16000 (by norm_num)
  have hok := libriScenes_finish conv randn hl
  obtain ⟨rs, fs, info⟩ := l
  obtain ⟨hr, -, -, -, hrows⟩ := C53_sources_partial _ samples_take _ (fun _ l => l.reverse_perm) _ _ _ _ (by norm_num) _ _ _ _ hl
  obtain ⟨x, who, rfl, rfl, -⟩ := loaded_signals (by exact_mod_cast hr) hrows
  obtain ⟨⟨traj, modes, moving⟩, hout⟩ := (C90_motion_outcome cornerGen (T := 64) (by norm_num) (.inl (by norm_num)) ![6, 4]
    (candidate cornerStream ![6, 4] none 0.5 0 0) 3 2 2).mpr
    ⟨by norm_num, by rw [show cornerGen.value = cornerStream from rfl, corner_far _ (by norm_num)]; norm_num⟩
  obtain ⟨src, mic, first, rate, before, after, pics, files, -, -, -, -, h1, h2, -, h3⟩ := C133_dataset_scene (T := 64) (M := 2)
    (Or.inl rfl) (by norm_num) conv (halvingWorld randn) (fun _ => cornerGen) (fun _ => cornerGen_fair) ![6, 4] sides64
    libriScenes rfl rfl rfl ⟨_, by simp [licensed]; right; rfl, rfl⟩
    (fun _ => .ok ((rows x, fs, List.ofFn who), 2)) 2 (by simp [libriScenes]) (fun j hj => by
      rw [(C103_order conv (halvingWorld randn) libriScenes (fun _ => cornerGen) _).2.1.mp hok]
      unfold datasetNames
      exact List.mem_cons_of_mem _ (List.mem_flatMap.mpr ⟨j, List.mem_range.mpr (by simp [libriScenes]; omega),
        by simp [sceneNames]⟩)) x fs (by rw [show fs = 16000 from hrate]; norm_num) (List.ofFn who) 2 rfl traj modes moving hout
  exact ⟨_, before, after, pics, files, h1, h2, h3.length_eq.symm⟩

/-- Trajectories of the wrong shape: the still is saved. -/
example (pre : String) (bad : Tensor ℝ) : ∃ still rest, (savePlots (sizeTensor ![6, 4]) (tensor2 ![![1, 2]])
    (tensor2 ![![3, 2]]) (some bad) none pre).1 = still :: rest := by
  obtain ⟨statics, h, hf⟩ := C81_static (Or.inl rfl) ![6, 4] ![![1, 2]] ![![3, 2]] pre 1 true true true
  obtain ⟨still, S, -, -, rfl⟩ := List.forall₂_cons_left_iff.mp
    (show List.Forall₂ _ (2 :: []) statics from hf)
  exact ⟨still, (C133_kept _ _ _ (some bad) none pre).1 still S [] h⟩

end Torchrir.Props
