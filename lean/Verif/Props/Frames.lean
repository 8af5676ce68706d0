import Verif.Model.Frames
import Verif.Props.Animation
import Verif.Props.Plot

/-! # C82, C83: frames of animations, and saving images -/

namespace Torchrir.Props

open Torchrir.Model Torchrir.Spec Torchrir.Lemmas

/-! ## C82 -/

/-- The length of the scene in seconds, if it is known. -/
noncomputable def sceneLength (duration : Option ℝ) (signalLen : Option ℕ) (fs : Option ℝ) : Option ℝ :=
  match duration, signalLen, fs with
  | some D, _, _ => some D
  | none, some n, some f => some (n / f)
  | none, _, _ => none

/-- A frame that shows the scene at step `i`: every entity is marked at its position of that step,
its trail runs through all its positions from the beginning up to that step, the sources are numbered
at their current positions, and the title is the time of the step when the steps are spread evenly
over the scene. -/
structure ShowsStep {T T' n m d : ℕ} (v : ℕ) (p : Fin T → Fin n → Fin d → ℝ) (q : Fin T' → Fin m → Fin d → ℝ)
    (length : Option ℝ) (annotate : Bool) (i : ℤ) (f : Frame) : Prop where
  step : ∃ (k : ℕ) (h : k < T) (h' : k < T'), i = k ∧
    f.srcDots = pointList (fun a => cut v (p ⟨k, h⟩ a)) ∧
    f.micDots = pointList (fun a => cut v (q ⟨k, h'⟩ a)) ∧
    f.srcTrails = List.ofFn (fun a => List.ofFn fun t : Fin (k + 1) =>
      List.ofFn (cut v (p ⟨t, by have := t.2; omega⟩ a))) ∧
    f.micTrails = List.ofFn (fun a => List.ofFn fun t : Fin (k + 1) =>
      List.ofFn (cut v (q ⟨t, by have := t.2; omega⟩ a))) ∧
    f.labels = if annotate then sourceLabels (fun a => cut v (p ⟨k, h⟩ a)) else []
  untimed : T = 1 ∨ length = none → f.title = none
  timed : 1 < T → ∀ D, length = some D → f.title = some (D * (i / (T - 1)))

theorem trajList_getD {T n d : ℕ} (p : Fin T → Fin n → Fin d → ℝ) {k : ℕ} (h : k < T) :
    (trajList p).getD k [] = pointList (p ⟨k, h⟩) :=
  getD_ofFn (fun t => pointList (p t)) ⟨k, h⟩ _

theorem trailsOf_eq {T n d : ℕ} (p : Fin T → Fin n → Fin d → ℝ) {k : ℕ} (h : k < T) :
    trailsOf (trajList p) k = List.ofFn (fun a => List.ofFn fun t : Fin (k + 1) =>
      List.ofFn (p ⟨t, by have := t.2; omega⟩ a)) := by
  unfold trailsOf
  rw [trajList_getD p (by omega : 0 < T)]
  have hl : (pointList (p ⟨0, by omega⟩)).length = n := by simp [pointList]
  rw [hl]
  apply List.ext_getElem
  · simp
  intro a h1 h2
  have ha : a < n := by simpa using h1
  simp only [List.getElem_map, List.getElem_range, List.getElem_ofFn]
  apply List.ext_getElem
  · simp [trajList]
    omega
  intro t h3 h4
  simp only [List.getElem_map, List.getElem_take, List.getElem_ofFn, trajList]
  exact getD_ofFn (fun a => List.ofFn (p ⟨t, _⟩ a)) ⟨a, ha⟩ _

theorem frameAt_shows {T T' n m d : ℕ} (v : ℕ) (p : Fin T → Fin n → Fin d → ℝ) (q : Fin T' → Fin m → Fin d → ℝ)
    (length : Option ℝ) (annotate : Bool) (k : ℕ) (h : k < T) (h' : k < T') :
    ShowsStep v p q length annotate k (frameAt (trajList fun t a => cut v (p t a))
      (trajList fun t a => cut v (q t a)) T length annotate k) := by
  refine ⟨⟨k, h, h', rfl, trajList_getD _ h, trajList_getD _ h', trailsOf_eq _ h, trailsOf_eq _ h', ?_⟩, ?_, ?_⟩
  · unfold frameAt
    dsimp only
    rw [trajList_getD _ h]
    unfold pointList sourceLabels
    rw [zipIdx_ofFn, List.map_ofFn]
    rfl
  · unfold frameAt
    rintro (rfl | rfl)
    · cases length <;> simp
    · rfl
  · rintro hT D rfl
    unfold frameAt
    dsimp only
    rw [if_pos hT, mul_comm]
    push_cast
    rfl

/-- The coordinates that are shown. -/
def shownDim (d : ℕ) (plot3d : Bool) : ℕ := if plot3d ∧ d = 3 then 3 else 2

theorem plotTrajectory_cut {T n d : ℕ} (p : Fin T → Fin n → Fin d → ℝ) {v : ℕ} (hv : v ≤ d) :
    plotTrajectory v (sliceLast v (tensor3 p)) = .ok (trajList fun t a => cut v (p t a)) := by
  rw [sliceLast_tensor3]
  exact (congrArg (plotTrajectory · _) (min_eq_left hv).symm).trans (plotTrajectory_ok _)

theorem shownDim_le {d : ℕ} (hd : d = 2 ∨ d = 3) (plot3d : Bool) : viewDim d plot3d ≤ d := by
  unfold viewDim
  split_ifs <;> omega

/-- **C82.** An animation consists of one frame for every step selected by `animation` (see C71), in
this order, each of which shows the scene at that step. -/
theorem C82_frames {d n m T T' : ℕ} (hd : d = 2 ∨ d = 3) (L : Fin d → ℝ) (src : Fin n → Fin d → ℝ)
    (mic : Fin m → Fin d → ℝ) (p : Fin T → Fin n → Fin d → ℝ) (q : Fin T' → Fin m → Fin d → ℝ) (step : ℤ)
    (fps : Option ℝ) (signalLen : Option ℕ) (fs duration : Option ℝ) (plot2d plot3d annotate : Bool)
    (hview : plot2d = true ∨ plot3d = true) (indices : List ℤ) (rate : ℤ)
    (h : animation (some T) (some T') step fps signalLen fs duration = .ok (indices, rate)) :
    ∃ frames, animateScene (sizeTensor L) (tensor2 src) (tensor2 mic) (some (tensor3 p)) (some (tensor3 q)) step
        fps signalLen fs duration plot2d plot3d annotate = .ok (frames, rate) ∧
      List.Forall₂ (ShowsStep (shownDim d plot3d) p q (sceneLength duration signalLen fs) annotate)
        indices frames := by
  obtain ⟨steps, nf, D, hst, h1, hf, hD, hi, -, hm⟩ := animation_ok h
  obtain rfl : T = steps := by
    rcases hst with hst | ⟨hst, -⟩ <;> simp_all
  have hlen : ∀ {T n d : ℕ} (p : Fin T → Fin n → Fin d → ℝ), (trajList p).length = T := by
    intros; simp [trajList]
  have hDs : D = sceneLength duration signalLen fs := by
    unfold animationDuration at hD
    unfold sceneLength
    split at hD
    · cases hD; rfl
    · split_ifs at hD
      cases hD; rfl
    · cases hD
      rename_i h3
      cases signalLen <;> cases fs <;> simp_all
  refine ⟨indices.map fun i => frameAt (trajList fun t a => cut (shownDim d plot3d) (p t a))
    (trajList fun t a => cut (shownDim d plot3d) (q t a)) T (sceneLength duration signalLen fs) annotate i.toNat,
    ?_, ?_⟩
  · unfold animateScene
    rw [positionsToCpu_tensor2, positionsToCpu_tensor2, vizSteps_source, size_numel, raiseIf_bind_ok]
    refine ⟨by rcases hview with h | h <;> simp [h], ?_⟩
    rw [raiseIf_bind_ok]
    refine ⟨by simp, ?_⟩
    simp only [ok_bind, trajectoryToCpu_some]
    rw [plotTrajectory_cut p (shownDim_le hd plot3d), plotTrajectory_cut q (shownDim_le hd plot3d), ok_bind, ok_bind,
      hD, ok_bind, hlen, hlen, h, hDs]
    rfl
  · rw [List.forall₂_map_right_iff, List.forall₂_same]
    intro i hi'
    have hlo : 0 ≤ i ∧ i < T := by
      obtain ⟨h0, hneg⟩ := C71_other_steps _ _ _ _ _ _ _ _ _ h
      by_cases hs : 1 ≤ step
      · obtain ⟨s', hs', hb, -⟩ := C71_frames_partial _ _ _ hs _ _ _ _ _ _ h
        obtain rfl : T = s' := by rcases hs' with hs' | ⟨hs', -⟩ <;> simp_all
        exact ⟨(hb i hi').1, (hb i hi').2.1⟩
      · rw [hneg (by omega), List.mem_singleton] at hi'
        omega
    have hhi := hm i hi' T' rfl
    obtain ⟨k, rfl⟩ := Int.eq_ofNat_of_zero_le hlo.1
    exact frameAt_shows _ p q _ annotate k (by omega) (by omega)

theorem animate_congr (room src mic : Tensor ℝ) (a b a' b' : Option (Tensor ℝ)) (h0 : a ≠ none ∨ b ≠ none)
    (h0' : a' ≠ none ∨ b' ≠ none) (steps : ℕ) (h1 : vizSteps a b = .ok steps) (h1' : vizSteps a' b' = .ok steps)
    (h2 : trajectoryToCpu a (positionsToCpu src) steps = trajectoryToCpu a' (positionsToCpu src) steps)
    (h3 : trajectoryToCpu b (positionsToCpu mic) steps = trajectoryToCpu b' (positionsToCpu mic) steps)
    (step : ℤ) (fps : Option ℝ) (signalLen : Option ℕ) (fs duration : Option ℝ) (plot2d plot3d annotate : Bool) :
    animateScene room src mic a b step fps signalLen fs duration plot2d plot3d annotate =
    animateScene room src mic a' b' step fps signalLen fs duration plot2d plot3d annotate := by
  unfold animateScene
  rw [h1, h1']
  simp only [ok_bind, h2, h3]
  congr 1
  funext _
  rw [raiseIf, raiseIf, if_neg (by tauto), if_neg (by tauto)]

/-- **C82, one moving group.** If only one trajectory is given, the other group stays at its positions. -/
theorem C82_missing {d n m T : ℕ} (L : Fin d → ℝ) (src : Fin n → Fin d → ℝ) (mic : Fin m → Fin d → ℝ)
    (step : ℤ) (fps : Option ℝ) (signalLen : Option ℕ) (fs duration : Option ℝ) (plot2d plot3d annotate : Bool) :
    (∀ p : Fin T → Fin n → Fin d → ℝ,
      animateScene (sizeTensor L) (tensor2 src) (tensor2 mic) (some (tensor3 p)) none step fps signalLen fs duration
        plot2d plot3d annotate =
      animateScene (sizeTensor L) (tensor2 src) (tensor2 mic) (some (tensor3 p))
        (some (tensor3 fun _ : Fin T => mic)) step fps signalLen fs duration plot2d plot3d annotate) ∧
    (∀ q : Fin T → Fin m → Fin d → ℝ,
      animateScene (sizeTensor L) (tensor2 src) (tensor2 mic) none (some (tensor3 q)) step fps signalLen fs duration
        plot2d plot3d annotate =
      animateScene (sizeTensor L) (tensor2 src) (tensor2 mic) (some (tensor3 fun _ : Fin T => src))
        (some (tensor3 q)) step fps signalLen fs duration plot2d plot3d annotate) := by
  refine ⟨fun p => animate_congr _ _ _ _ _ _ _ (by simp) (by simp) T rfl rfl rfl ?_ _ _ _ _ _ _ _ _,
    fun q => animate_congr _ _ _ _ _ _ _ (by simp) (by simp) T rfl rfl ?_ rfl _ _ _ _ _ _ _ _⟩
  · rw [positionsToCpu_tensor2, trajectoryToCpu_none, trajectoryToCpu_some]
  · rw [positionsToCpu_tensor2, trajectoryToCpu_none, trajectoryToCpu_some]

/-- **C82, nothing to show.** Without any view or any trajectory there is no animation. -/
theorem C82_rejects (room src mic : Tensor ℝ) (a b : Option (Tensor ℝ)) (step : ℤ) (fps : Option ℝ)
    (signalLen : Option ℕ) (fs duration : Option ℝ) (plot2d plot3d annotate : Bool)
    (h : plot2d = false ∧ plot3d = false ∨ a = none ∧ b = none) :
    ∃ e, animateScene room src mic a b step fps signalLen fs duration plot2d plot3d annotate = .error e := by
  cases hr : animateScene room src mic a b step fps signalLen fs duration plot2d plot3d annotate with
  | error e => exact ⟨e, rfl⟩
  | ok r =>
    unfold animateScene at hr
    rw [raiseIf_bind_ok, raiseIf_bind_ok] at hr
    rcases h with h | h
    · exact absurd h hr.1
    · exact absurd h hr.2.1

/-- Two steps of a source in a room, seen from above: in the second frame the trail has two points, and
the title says that half a second has passed. -/
example : ∃ f g rate, animateScene (sizeTensor ![6, 4, 3]) (tensor2 ![![1, 2, 1]]) (tensor2 ![![3, 2, 1]])
      (some (tensor3 ![![![1, 2, 1]], ![![2, 2, 1]]])) (some (tensor3 ![![![3, 2, 1]], ![![3, 2, 1]]])) 1 none
      (some 8000) (some 16000) = .ok ([f, g], rate) ∧
    g.srcTrails = [[[1, 2], [2, 2]]] ∧ f.title = some 0 ∧ g.title = some (1 / 2) := by
  obtain ⟨indices, rate, h, hi⟩ : ∃ indices rate, animation (some 2) (some 2) 1 none (some 8000) (some 16000) none
      = .ok (indices, rate) ∧ indices = [0, 1] := by
    refine ⟨[0, 1], max 1 (roundHalfEven (animationFps none 2 (some ((8000 : ℕ) / 16000)))), ?_, rfl⟩
    unfold animation
    simp only [animationSteps, animationDuration, frameCount, ok_bind]
    rw [if_neg (by norm_num), ok_bind, if_neg (by norm_num), ok_bind]
    rfl
  subst hi
  obtain ⟨frames, h1, h2⟩ := C82_frames (Or.inr rfl) ![6, 4, 3] ![![1, 2, 1]] ![![3, 2, 1]]
    ![![![1, 2, 1]], ![![2, 2, 1]]] ![![![3, 2, 1]], ![![3, 2, 1]]] 1 none (some 8000) (some 16000) none true false
    true (Or.inl rfl) _ _ h
  rcases h2 with _ | ⟨hf, _ | ⟨hg, ⟨⟩⟩⟩
  refine ⟨_, _, _, h1, ?_, ?_, ?_⟩
  · obtain ⟨k, hk, hk', hik, -, -, ht, -⟩ := hg.step
    obtain rfl : k = 1 := by omega
    rw [ht]
    simp [shownDim, cut, List.ofFn_succ]
  · rw [hf.timed (by norm_num) _ rfl]
    norm_num
  · rw [hg.timed (by norm_num) _ rfl]
    norm_num

/-! ## C83 -/

/-- **C83, failures.** Saving stops at the first rendering that raises: what was rendered before is
saved, the error is logged as a warning, and without an error everything is saved and nothing logged. -/
theorem C83_until_error {α : Type} (l : List (Except String α)) :
    (∃ saved, l = saved.map .ok ∧ saveUntilError l = (saved, none)) ∨
    ∃ saved e rest, l = saved.map .ok ++ .error e :: rest ∧ saveUntilError l = (saved, some e) := by
  induction l with
  | nil => exact Or.inl ⟨[], rfl, rfl⟩
  | cons x l ih =>
    cases x with
    | error e => exact Or.inr ⟨[], e, l, rfl, rfl⟩
    | ok a =>
      rcases ih with ⟨s, h1, h2⟩ | ⟨s, e, r, h1, h2⟩
      · exact Or.inl ⟨a :: s, by rw [h1]; rfl, by rw [saveUntilError, h2]⟩
      · exact Or.inr ⟨a :: s, e, r, by rw [h1]; rfl, by rw [saveUntilError, h2]⟩

theorem saveUntilError_ok {α : Type} (l : List (Except String α)) (saved : List α) (h : l = saved.map .ok) :
    saveUntilError l = (saved, none) := by
  subst h
  induction saved with
  | nil => rfl
  | cons a l ih => rw [List.map_cons, saveUntilError, ih]

/-- A layout image of a moving scene. -/
def IsLayout {n m d T T' : ℕ} (L : Fin d → ℝ) (src : Fin n → Fin d → ℝ) (mic : Fin m → Fin d → ℝ)
    (srcTraj : Fin T → Fin n → Fin d → ℝ) (micTraj : Fin T' → Fin m → Fin d → ℝ) (annotate : Bool) (v : ℕ)
    (image : Image) : Prop :=
  image.1 = "room_layout_" ++ toString v ++ "d.png" ∧
  plotDynamic (sizeTensor (cut v L)) (tensor3 fun t i => cut v (srcTraj t i))
    (tensor3 fun t i => cut v (micTraj t i)) 1 (some (tensor2 fun i => cut v (src i)))
    (some (tensor2 fun i => cut v (mic i))) annotate = .ok image.2

/-- A layout image of a scene at rest. -/
def IsLayoutAtRest {n m d : ℕ} (L : Fin d → ℝ) (src : Fin n → Fin d → ℝ) (mic : Fin m → Fin d → ℝ)
    (annotate : Bool) (v : ℕ) (image : Image) : Prop :=
  image.1 = "room_layout_" ++ toString v ++ "d.png" ∧
  plotStatic (sizeTensor (cut v L)) (tensor2 fun i => cut v (src i)) (tensor2 fun i => cut v (mic i)) annotate
    = .ok image.2

theorem saveViews {d : ℕ} (hd : d = 2 ∨ d = 3) (save2d save3d : Bool) (f : ℕ → Except String Image)
    (P : ℕ → Image → Prop) (h : ∀ v, v = 2 ∨ v = 3 → v ≤ d → ∃ image, f v = .ok image ∧ P v image) :
    ∃ images, saveUntilError ((if save2d = true ∧ 2 ≤ d then [f 2] else []) ++
        (if save3d = true ∧ 3 ≤ d then [f 3] else [])) = (images, none) ∧
      List.Forall₂ P (views d save2d save3d) images := by
  have part : ∀ (b : Bool) (v : ℕ), v = 2 ∨ v = 3 → ∃ images, (if b = true ∧ v ≤ d then [f v] else []) =
      images.map .ok ∧ List.Forall₂ P (if b = true ∧ v ≤ d then [v] else []) images := by
    intro b v hv
    split_ifs with hb
    · obtain ⟨image, h1, h2⟩ := h v hv hb.2
      exact ⟨[image], by rw [h1]; rfl, .cons h2 .nil⟩
    · exact ⟨[], rfl, .nil⟩
  obtain ⟨A, a1, a2⟩ := part save2d 2 (Or.inl rfl)
  obtain ⟨B, b1, b2⟩ := part save3d 3 (Or.inr rfl)
  refine ⟨A ++ B, saveUntilError_ok _ _ (by rw [a1, b1, List.map_append]), ?_⟩
  rw [views_eq hd]
  exact List.rel_append a2 b2

/-- **C83, layout images.** For every requested view the room allows there is one layout image, showing
the paths if trajectories are given, and the positions otherwise; no warning is logged. -/
theorem C83_layout {d n m T T' : ℕ} (hd : d = 2 ∨ d = 3) (hT : 0 < T) (hT' : 0 < T') (hn : 0 < n) (hm : 0 < m)
    (L : Fin d → ℝ) (src : Fin n → Fin d → ℝ) (mic : Fin m → Fin d → ℝ) (p : Fin T → Fin n → Fin d → ℝ)
    (q : Fin T' → Fin m → Fin d → ℝ) (save2d save3d annotate : Bool) :
    (∃ images, saveLayoutImages (sizeTensor L) (tensor2 src) (tensor2 mic) none none save2d save3d annotate
        = (images, none) ∧
      List.Forall₂ (IsLayoutAtRest L src mic annotate) (views d save2d save3d) images) ∧
    (∃ images, saveLayoutImages (sizeTensor L) (tensor2 src) (tensor2 mic) (some (tensor3 p)) (some (tensor3 q))
        save2d save3d annotate = (images, none) ∧
      List.Forall₂ (IsLayout L src mic p q annotate) (views d save2d save3d) images) := by
  constructor
  · unfold saveLayoutImages
    rw [positionsToCpu_tensor2, positionsToCpu_tensor2, size_numel]
    refine saveViews hd save2d save3d _ _ fun v hv hvd => ?_
    obtain ⟨marks, h, -⟩ := C79_static (min_view hv hvd) (cut v L) (fun i => cut v (src i))
      (fun i => cut v (mic i)) annotate
    refine ⟨("room_layout_" ++ toString v ++ "d.png", marks), ?_, rfl, h⟩
    unfold layoutImage layoutMarks
    rw [sliceLast_size, sliceLast_tensor2, sliceLast_tensor2, h]
    rfl
  · unfold saveLayoutImages
    have ht : layoutTrajectories (some (tensor3 p)) (some (tensor3 q)) (tensor2 src) (tensor2 mic) =
        .ok (some (tensor3 p, tensor3 q)) := rfl
    rw [positionsToCpu_tensor2, positionsToCpu_tensor2, size_numel, ht]
    refine saveViews hd save2d save3d _ _ fun v hv hvd => ?_
    obtain ⟨marks, h, -⟩ := C80_dynamic (min_view hv hvd) hT hT' hn hm (cut v L)
      (fun t i => cut v (p t i)) (fun t i => cut v (q t i)) (some fun i => cut v (src i))
      (some fun i => cut v (mic i)) 1 one_pos annotate
    simp only [Option.map_some, Nat.cast_one] at h
    refine ⟨("room_layout_" ++ toString v ++ "d.png", marks), ?_, rfl, h⟩
    unfold layoutImage layoutMarks
    dsimp only
    rw [sliceLast_size, sliceLast_tensor2, sliceLast_tensor2, sliceLast_tensor3, sliceLast_tensor3, h]
    rfl

/-- A saved animation in `v` coordinates that shows every step of the scene, one after the other. -/
def IsMovie {n m d T : ℕ} (p : Fin T → Fin n → Fin d → ℝ) (q : Fin T → Fin m → Fin d → ℝ)
    (length : ℝ) (annotate : Bool) (rate : ℤ) (nameView : String × ℕ) (movie : Movie) : Prop :=
  movie.name = nameView.1 ∧ movie.rate = rate ∧
  List.Forall₂ (ShowsStep nameView.2 p q (some length) annotate) (List.ofFn fun t : Fin T => ((t : ℕ) : ℤ))
    movie.frames

theorem animation_all {T : ℕ} (hT : 0 < T) (fps : Option ℝ) (k : ℕ) {f : ℝ} (hf : f ≠ 0) :
    animation (some T) (some T) 1 fps (some k) (some f) none =
      .ok (List.ofFn fun t : Fin T => ((t : ℕ) : ℤ),
        max 1 (roundHalfEven (animationFps fps T (some (k / f))))) := by
  have hcount : frameCount T 1 = .ok (T : ℤ) := by
    unfold frameCount
    rw [if_neg one_ne_zero, Int.fdiv_eq_ediv_of_nonneg _ one_pos.le, Int.ediv_one]
    congr 1
    omega
  have hidx : (List.range (T : ℤ).toNat).map (frameIndex T 1) = List.ofFn fun t : Fin T => ((t : ℕ) : ℤ) := by
    rw [Int.toNat_natCast]
    apply List.ext_getElem
    · simp
    intro i h1 h2
    have : i < T := by simpa using h1
    simp only [List.getElem_map, List.getElem_range, List.getElem_ofFn, frameIndex]
    omega
  unfold animation
  simp only [animationSteps, animationDuration, ok_bind, if_neg hf, hcount, hidx]
  rw [raiseIf_bind_ok]
  refine ⟨hT.ne', ?_⟩
  rw [raiseIf_bind_ok]
  refine ⟨?_, rfl⟩
  rintro ⟨i, hi, h⟩
  obtain ⟨t, rfl⟩ := List.mem_ofFn.mp hi
  have := t.2
  simp only [Option.getD_some] at h
  omega

theorem roundHalfEven_int (n : ℤ) : roundHalfEven n = n := by
  unfold roundHalfEven
  rw [if_pos (by rw [Int.fract_intCast]; norm_num), Int.floor_intCast]

/-- The frame rate follows the request, or else the length of the sound. -/
def RateFor (request : ℤ) (T k : ℕ) (fs : ℝ) (rate : ℤ) : Prop :=
  1 ≤ rate ∧ (0 < request → rate = request) ∧
  (request ≤ 0 → 0 < k → 0 < fs → rate = 1 ∧ T / (k / fs) ≤ 3 / 2 ∨ |(rate : ℝ) - T / (k / fs)| ≤ 1 / 2)

theorem movie_of {d n m T : ℕ} (hd : d = 2 ∨ d = 3) (hT : 0 < T) (L : Fin d → ℝ) (src : Fin n → Fin d → ℝ)
    (mic : Fin m → Fin d → ℝ) (p : Fin T → Fin n → Fin d → ℝ) (q : Fin T → Fin m → Fin d → ℝ) (name : String)
    (fps : Option ℝ) (k : ℕ) {fs : ℝ} (hfs : fs ≠ 0) (plot2d plot3d annotate : Bool)
    (hview : plot2d = true ∨ plot3d = true) :
    ∃ movie, renderMovie name (animateScene (sizeTensor L) (tensor2 src) (tensor2 mic) (some (tensor3 p))
        (some (tensor3 q)) 1 fps (some k) (some fs) none plot2d plot3d annotate) = .ok movie ∧
      IsMovie p q (k / fs) annotate (max 1 (roundHalfEven (animationFps fps T (some (k / fs)))))
        (name, shownDim d plot3d) movie := by
  obtain ⟨frames, h1, h2⟩ := C82_frames hd L src mic p q 1 fps (some k) (some fs) none plot2d plot3d annotate hview
    _ _ (animation_all hT fps k hfs)
  refine ⟨⟨name, frames, _⟩, ?_, rfl, rfl, h2⟩
  unfold renderMovie
  rw [h1]
  rfl

/-- **C83, animated images.** For a scene with both trajectories `save_scene_gifs` saves the view from
above and, in a room with three dimensions, the spatial view; each shows every step, at the requested
rate if there is one, otherwise so that the animation is as long as the sound, up to the rounding of
the rate. No warning is logged. -/
theorem C83_gifs {d n m T : ℕ} (hd : d = 2 ∨ d = 3) (hT : 0 < T) (L : Fin d → ℝ) (src : Fin n → Fin d → ℝ)
    (mic : Fin m → Fin d → ℝ) (p : Fin T → Fin n → Fin d → ℝ) (q : Fin T → Fin m → Fin d → ℝ) (pre : String)
    (k : ℕ) (fs : ℝ) (hfs : fs ≠ 0) (request : ℤ) (annotate : Bool) :
    ∃ rate movies, RateFor request T k fs rate ∧
      saveGifs (sizeTensor L) (tensor2 src) (tensor2 mic) (some (tensor3 p)) (some (tensor3 q)) pre k fs request
        annotate = (movies, none) ∧
      List.Forall₂ (IsMovie p q (k / fs) annotate rate)
        ((pre ++ ".gif", 2) :: if d = 3 then [(pre ++ "_3d.gif", 3)] else []) movies := by
  set fps : Option ℝ := if 0 < request then some (request : ℝ) else none with hfps
  obtain ⟨A, a1, a2⟩ := movie_of hd hT L src mic p q (pre ++ ".gif") fps k hfs true false annotate (Or.inl rfl)
  obtain ⟨B, b1, b2⟩ := movie_of hd hT L src mic p q (pre ++ "_3d.gif") fps k hfs false true annotate (Or.inr rfl)
  refine ⟨_, A :: if d = 3 then [B] else [], ?_, ?_, .cons a2 ?_⟩
  · refine ⟨le_max_left _ _, fun h => ?_, fun h hk hf => ?_⟩
    · rw [hfps, if_pos h]
      have hr : (0 : ℝ) < request := by exact_mod_cast h
      rw [animationFps, if_pos hr, roundHalfEven_int]
      omega
    · rw [hfps, if_neg (by omega)]
      have hD : (0 : ℝ) < k / fs := div_pos (by exact_mod_cast hk) hf
      have : animationFps none T (some (k / fs)) = T / (k / fs) := by
        unfold animationFps animationFps.derived
        dsimp only
        rw [if_pos hD]
        push_cast
        rfl
      rw [this]
      have hnear := roundHalfEven_near ((T : ℝ) / (k / fs))
      rcases le_total 1 (roundHalfEven ((T : ℝ) / (k / fs))) with h1 | h1
      · rw [max_eq_right h1]
        exact Or.inr hnear
      · rw [max_eq_left h1]
        refine Or.inl ⟨rfl, ?_⟩
        have h1' : ((roundHalfEven ((T : ℝ) / (k / fs)) : ℤ) : ℝ) ≤ 1 := by exact_mod_cast h1
        have := (abs_le.mp hnear).1
        linarith
  · unfold saveGifs
    rw [size_numel]
    refine saveUntilError_ok _ _ ?_
    rw [a1, b1]
    split_ifs <;> rfl
  · split_ifs with h3
    · refine .cons ?_ .nil
      rw [shownDim, if_pos ⟨rfl, h3⟩] at b2
      exact b2
    · exact .nil

/-- The frame rate nearest to a target, but at least 1. -/
def RateNear (target : ℝ) (rate : ℤ) : Prop :=
  1 ≤ rate ∧ (rate = 1 ∧ target ≤ 3 / 2 ∨ |(rate : ℝ) - target| ≤ 1 / 2)

theorem rateNear_round (x : ℝ) : RateNear x (max 1 (roundHalfEven x)) := by
  refine ⟨le_max_left _ _, ?_⟩
  have hnear := roundHalfEven_near x
  rcases le_total 1 (roundHalfEven x) with h1 | h1
  · rw [max_eq_right h1]
    exact Or.inr hnear
  · rw [max_eq_left h1]
    refine Or.inl ⟨rfl, ?_⟩
    have h1' : ((roundHalfEven x : ℤ) : ℝ) ≤ 1 := by exact_mod_cast h1
    have := (abs_le.mp hnear).1
    linarith

/-- The rate of a video of `T` steps and `k` samples at `fs`: the one that was asked for, or else the one that makes it
as long as the sound. -/
def VideoRate (fps : Option ℝ) (T k : ℕ) (fs : ℝ) (rate : ℤ) : Prop :=
  (∀ f, fps = some f → 0 < f → RateNear f rate) ∧
  ((∀ f, fps = some f → f ≤ 0) → 0 < k → 0 < fs → RateNear (T / (k / fs)) rate)

theorem videoRate_holds (fps : Option ℝ) (T k : ℕ) (fs : ℝ) :
    VideoRate fps T k fs (max 1 (roundHalfEven (animationFps fps T (some (k / fs))))) := by
  refine ⟨fun f hf h0 => ?_, fun h hk hfs => ?_⟩
  · rw [hf, animationFps, if_pos h0]
    exact rateNear_round f
  · have hD : (0 : ℝ) < k / fs := div_pos (by exact_mod_cast hk) hfs
    have : animationFps fps T (some (k / fs)) = T / (k / fs) := by
      unfold animationFps animationFps.derived
      cases fps with
      | none =>
        dsimp only
        rw [if_pos hD]
        push_cast
        rfl
      | some f =>
        dsimp only
        rw [if_neg (not_lt.mpr (h f rfl)), if_pos hD]
        push_cast
        rfl
    rw [this]
    exact rateNear_round _

/-- **C83, videos.** Likewise `save_scene_videos`; the spatial view can be switched off, and the rate is the integer
nearest to the one that is asked for. -/
theorem C83_videos {d n m T : ℕ} (hd : d = 2 ∨ d = 3) (hT : 0 < T) (L : Fin d → ℝ) (src : Fin n → Fin d → ℝ)
    (mic : Fin m → Fin d → ℝ) (p : Fin T → Fin n → Fin d → ℝ) (q : Fin T → Fin m → Fin d → ℝ)
    (k : ℕ) (fs : ℝ) (hfs : fs ≠ 0) (fps : Option ℝ) (save3d annotate : Bool) :
    ∃ rate movies, VideoRate fps T k fs rate ∧
      saveVideos (sizeTensor L) (tensor2 src) (tensor2 mic) (some (tensor3 p)) (some (tensor3 q)) k fs
        fps save3d annotate = (movies, none) ∧
      List.Forall₂ (IsMovie p q (k / fs) annotate rate)
        (("room_layout_2d.mp4", 2) :: if d = 3 ∧ save3d then [("room_layout_3d.mp4", 3)] else []) movies := by
  obtain ⟨A, a1, a2⟩ := movie_of hd hT L src mic p q "room_layout_2d.mp4" fps k hfs true false annotate (Or.inl rfl)
  obtain ⟨B, b1, b2⟩ := movie_of hd hT L src mic p q "room_layout_3d.mp4" fps k hfs false true annotate (Or.inr rfl)
  refine ⟨_, A :: if d = 3 ∧ save3d then [B] else [], videoRate_holds fps T k fs, ?_, .cons a2 ?_⟩
  · unfold saveVideos
    rw [size_numel]
    refine saveUntilError_ok _ _ ?_
    rw [a1, b1]
    split_ifs <;> rfl
  · split_ifs with h3
    · refine .cons ?_ .nil
      rw [shownDim, if_pos ⟨rfl, h3.1⟩] at b2
      exact b2
    · exact .nil

/-- **C83, one moving group.** If only one trajectory is given, layouts, animated images and videos are those of a scene in
which the other group stays at its positions. -/
theorem C83_missing {d n m T : ℕ} (L : Fin d → ℝ) (src : Fin n → Fin d → ℝ) (mic : Fin m → Fin d → ℝ)
    (p : Fin T → Fin n → Fin d → ℝ) (q : Fin T → Fin m → Fin d → ℝ) (a b a' b' : Option (Tensor ℝ))
    (h : a = some (tensor3 p) ∧ b = none ∧ a' = some (tensor3 p) ∧ b' = some (tensor3 fun _ : Fin T => mic) ∨
      a = none ∧ b = some (tensor3 q) ∧ a' = some (tensor3 fun _ : Fin T => src) ∧ b' = some (tensor3 q)) :
    (∀ save2d save3d annotate,
      saveLayoutImages (sizeTensor L) (tensor2 src) (tensor2 mic) a b save2d save3d annotate =
      saveLayoutImages (sizeTensor L) (tensor2 src) (tensor2 mic) a' b' save2d save3d annotate) ∧
    (∀ pre k fs request annotate,
      saveGifs (sizeTensor L) (tensor2 src) (tensor2 mic) a b pre k fs request annotate =
      saveGifs (sizeTensor L) (tensor2 src) (tensor2 mic) a' b' pre k fs request annotate) ∧
    ∀ k fs fps save3d annotate,
      saveVideos (sizeTensor L) (tensor2 src) (tensor2 mic) a b k fs fps save3d annotate =
      saveVideos (sizeTensor L) (tensor2 src) (tensor2 mic) a' b' k fs fps save3d annotate := by
  have hl : layoutTrajectories a b (tensor2 src) (tensor2 mic) = layoutTrajectories a' b' (tensor2 src) (tensor2 mic) := by
    rcases h with ⟨rfl, rfl, rfl, rfl⟩ | ⟨rfl, rfl, rfl, rfl⟩
    · unfold layoutTrajectories
      dsimp only
      rw [vizSteps_source, vizSteps_source, ok_bind, ok_bind, trajectoryToCpu_none, trajectoryToCpu_some,
        trajectoryToCpu_some]
    · unfold layoutTrajectories
      dsimp only
      rw [vizSteps_source, vizSteps_mic, ok_bind, ok_bind, trajectoryToCpu_none, trajectoryToCpu_some,
        trajectoryToCpu_some]
  have hf : ∀ step fps signalLen fs duration plot2d plot3d annotate,
      animateScene (sizeTensor L) (tensor2 src) (tensor2 mic) a b step fps signalLen fs duration plot2d plot3d annotate =
      animateScene (sizeTensor L) (tensor2 src) (tensor2 mic) a' b' step fps signalLen fs duration plot2d plot3d
        annotate := by
    intro step fps signalLen fs duration plot2d plot3d annotate
    have := C82_missing (T := T) L src mic step fps signalLen fs duration plot2d plot3d annotate
    rcases h with ⟨rfl, rfl, rfl, rfl⟩ | ⟨rfl, rfl, rfl, rfl⟩
    · exact this.1 p
    · exact this.2 q
  refine ⟨fun _ _ _ => ?_, fun _ _ _ _ _ => ?_, fun _ _ _ _ _ => ?_⟩
  · unfold saveLayoutImages
    rw [positionsToCpu_tensor2, positionsToCpu_tensor2, hl]
  · unfold saveGifs
    simp only [hf]
  · unfold saveVideos
    simp only [hf]

/-- One moving source and a fixed microphone: both views show the path of the source and the place of the microphone. -/
example : ∃ images, saveLayoutImages (sizeTensor ![6, 4, 3]) (tensor2 ![![1, 2, 1]]) (tensor2 ![![3, 2, 1]])
      (some (tensor3 fun t : Fin 3 => ![![1 + (t : ℕ), 2, 1]])) none = (images, none) ∧
    List.Forall₂ (IsLayout ![6, 4, 3] ![![1, 2, 1]] ![![3, 2, 1]] (fun t : Fin 3 => ![![1 + (t : ℕ), 2, 1]])
      (fun _ : Fin 3 => ![![3, 2, 1]]) true) [2, 3] images := by
  obtain ⟨images, h1, h2⟩ := (C83_layout (Or.inr rfl) (by norm_num) (by norm_num) one_pos one_pos ![6, 4, 3] ![![1, 2, 1]]
    ![![3, 2, 1]] (fun t : Fin 3 => ![![1 + (t : ℕ), 2, 1]]) (fun _ : Fin 3 => ![![3, 2, 1]]) true true true).2
  exact ⟨images, ((C83_missing ![6, 4, 3] ![![1, 2, 1]] ![![3, 2, 1]] (fun t : Fin 3 => ![![1 + (t : ℕ), 2, 1]])
    (fun _ => ![![3, 2, 1]]) _ _ _ _ (.inl ⟨rfl, rfl, rfl, rfl⟩)).1 true true true).trans h1, h2⟩

/-- Half a second of sound in 3 steps gives 6 frames per second. -/
example : ∃ movies, saveGifs (sizeTensor ![6, 4, 3]) (tensor2 ![![1, 2, 1]]) (tensor2 ![![3, 2, 1]])
      (some (tensor3 fun t : Fin 3 => ![![1 + (t : ℕ), 2, 1]])) (some (tensor3 fun _ : Fin 3 => ![![3, 2, 1]])) "run" 8000
      16000 0 = (movies, none) ∧ movies.map Movie.rate = [6, 6] ∧
    movies.map Movie.name = ["run.gif", "run_3d.gif"] := by
  obtain ⟨rate, movies, hr, h1, h2⟩ := C83_gifs (Or.inr rfl) (by norm_num) ![6, 4, 3] ![![1, 2, 1]] ![![3, 2, 1]]
    (fun t : Fin 3 => ![![1 + (t : ℕ), 2, 1]]) (fun _ : Fin 3 => ![![3, 2, 1]]) "run" 8000 16000 (by norm_num) 0 true
  have h6 : rate = 6 := by
    rcases hr.2.2 le_rfl (by norm_num) (by norm_num) with ⟨-, h⟩ | h
    · norm_num at h
    · have := abs_le.mp h
      have h1 : (5 : ℝ) < rate := by norm_num at this; linarith
      have h2 : (rate : ℝ) < 7 := by norm_num at this; linarith
      have h1' : 5 < rate := by exact_mod_cast h1
      have h2' : rate < 7 := by exact_mod_cast h2
      omega
  rw [if_pos rfl] at h2
  rcases h2 with _ | ⟨a, _ | ⟨b, ⟨⟩⟩⟩
  refine ⟨_, h1, ?_, ?_⟩
  · simp [a.2.1, b.2.1, h6]
  · simp [a.1, b.1]

end Torchrir.Props
