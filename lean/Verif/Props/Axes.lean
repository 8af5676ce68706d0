import Verif.Model.Axes
import Verif.Props.Plot
import Verif.Props.Frames
import Verif.Props.BuilderRun

/-! # C137: axes, titles, colours and text boxes of plots -/

namespace Torchrir.Props

open Torchrir.Model Torchrir.Spec Torchrir.Lemmas

/-! ## Specification -/

/-- The point lies within the shown intervals. -/
def Shown (a : Axes) (x : Vec) : Prop := List.Forall₂ (fun l c => l.1 ≤ c ∧ c ≤ l.2) a.limits x

/-- The point lies in the closed room. -/
def InClosedRoom {d : ℕ} (L x : Fin d → ℝ) : Prop := ∀ i, 0 ≤ x i ∧ x i ≤ L i

/-- The points that determine a mark. -/
def markPoints : Mark → List Vec
  | .rectangle w h => [[0, 0], [w, h]]
  | .segment a b => [a, b]
  | .dots _ p => p
  | .path _ p => p
  | .text p _ => [p]

/-- Everything that moves in a frame. -/
def framePoints (f : Frame) : List Vec :=
  f.srcDots ++ f.micDots ++ f.srcTrails.flatten ++ f.micTrails.flatten ++ f.labels.map Prod.fst

/-- Only white space. -/
def Blank (s : String) : Prop := ∀ c ∈ s.toList, isBlank c = true

/-- `t` is `s` without the white space at its two ends. -/
def Trimmed (s t : String) : Prop :=
  (∃ a b, s.toList = a ++ t.toList ++ b ∧ (∀ c ∈ a, isBlank c = true) ∧ ∀ c ∈ b, isBlank c = true) ∧
  (∀ c, t.toList.head? = some c → isBlank c = false) ∧ ∀ c, t.toList.getLast? = some c → isBlank c = false

namespace AxesPlot

/-! ## Limits -/

theorem shown_iff {d : ℕ} (L x : Fin d → ℝ) (title box : Option String) :
    Shown (roomAxes (List.ofFn L) title box) (List.ofFn x) ↔ InClosedRoom L x := by
  unfold Shown roomAxes InClosedRoom
  dsimp only
  rw [List.forall₂_map_left_iff, List.forall₂_iff_get]
  constructor
  · rintro ⟨-, h⟩ i
    have := h i (by simp) (by simp)
    simpa using this
  · intro h
    refine ⟨by simp, fun i h1 h2 => ?_⟩
    simpa using h ⟨i, by simpa using h1⟩

theorem within_cut {d : ℕ} {L x : Fin d → ℝ} (h : InClosedRoom L x) (v : ℕ) : InClosedRoom (cut v L) (cut v x) :=
  fun i => h (Fin.castLE (Nat.min_le_right v d) i)

theorem outline_shown {d : ℕ} (L : Fin d → ℝ) (hL : ∀ i, 0 ≤ L i) (title box : Option String) :
    ∀ m ∈ roomOutline L, ∀ x ∈ markPoints m, Shown (roomAxes (List.ofFn L) title box) x := by
  unfold roomOutline
  split
  · rename_i L
    intro m hm x hx
    rw [List.mem_singleton] at hm
    subst hm
    have h0 : ([0, 0] : Vec) = List.ofFn (fun _ : Fin 2 => (0 : ℝ)) := by simp [List.ofFn_succ]
    have h1 : ([L 0, L 1] : Vec) = List.ofFn L := by simp [List.ofFn_succ]
    simp only [markPoints, List.mem_cons, List.not_mem_nil, or_false] at hx
    rcases hx with rfl | rfl
    · rw [h0, shown_iff]
      exact fun i => ⟨le_rfl, hL i⟩
    · rw [h1, shown_iff]
      exact fun i => ⟨hL i, le_rfl⟩
  · rename_i L
    intro m hm x hx
    rw [drawBox_eq, List.mem_map] at hm
    obtain ⟨e, -, rfl⟩ := hm
    have hc : ∀ s, Shown (roomAxes (List.ofFn L) title box) (corner L s) := by
      intro s
      unfold corner
      rw [shown_iff]
      intro i
      dsimp only
      split
      · exact ⟨hL i, le_rfl⟩
      · exact ⟨le_rfl, hL i⟩
    simp only [markPoints, List.mem_cons, List.not_mem_nil, or_false] at hx
    rcases hx with rfl | rfl <;> exact hc _
  · intro m hm
    cases hm

theorem marks_iff (P : Vec → Prop) (marks : List Mark) : (∀ m ∈ marks, ∀ x ∈ markPoints m, P x) ↔
    (∀ m ∈ outlineOf marks, ∀ x ∈ markPoints m, P x) ∧ (∀ x ∈ dotsOf marks, P x) ∧
      (∀ path ∈ pathsOf marks, ∀ x ∈ path, P x) ∧ ∀ t ∈ textsOf marks, P t.1 := by
  constructor
  · intro h
    refine ⟨fun m hm => h m (List.mem_of_mem_filter hm), fun x hx => ?_, fun path hp x hx => ?_, fun t ht => ?_⟩
    · obtain ⟨m, hm, hx⟩ := List.mem_flatMap.mp hx
      refine h m hm x ?_
      cases m <;> simp_all [markPoints]
    · obtain ⟨m, hm, hp⟩ := List.mem_filterMap.mp hp
      refine h m hm x ?_
      cases m <;> simp_all [markPoints]
    · obtain ⟨m, hm, ht⟩ := List.mem_filterMap.mp ht
      refine h m hm t.1 ?_
      cases m <;> simp_all [markPoints]
      rw [← ht]
  · rintro ⟨h1, h2, h3, h4⟩ m hm x hx
    cases m with
    | rectangle w h => exact h1 _ (List.mem_filter.mpr ⟨hm, rfl⟩) x hx
    | segment a b => exact h1 _ (List.mem_filter.mpr ⟨hm, rfl⟩) x hx
    | dots l p => exact h2 x (List.mem_flatMap.mpr ⟨_, hm, hx⟩)
    | path l p => exact h3 p (List.mem_filterMap.mpr ⟨_, hm, rfl⟩) x hx
    | text p s =>
      rw [List.mem_singleton.mp hx]
      exact h4 (p, s) (List.mem_filterMap.mpr ⟨_, hm, rfl⟩)

theorem mem_pointList {n d : ℕ} {p : Fin n → Fin d → ℝ} {x : Vec} :
    x ∈ pointList p ↔ ∃ i, List.ofFn (p i) = x := by
  simp [pointList, List.mem_ofFn]

theorem mem_sourceLabels {n d : ℕ} {p : Fin n → Fin d → ℝ} {t : Vec × String} (h : t ∈ sourceLabels p) :
    ∃ i, List.ofFn (p i) = t.1 := by
  unfold sourceLabels at h
  rw [List.mem_ofFn] at h
  obtain ⟨i, rfl⟩ := h
  exact ⟨i, rfl⟩

theorem mem_everyStep {T n d : ℕ} {p : Fin T → Fin n → Fin d → ℝ} {step : ℕ} {i : Fin n} {x : Vec}
    (h : x ∈ everyStep p step i) : ∃ t, List.ofFn (p t i) = x := by
  unfold everyStep at h
  obtain ⟨t, -, rfl⟩ := List.mem_map.mp h
  exact ⟨t, rfl⟩

theorem startOf_within {T n k d : ℕ} (hT : 0 < T) {L : Fin d → ℝ} {p : Fin T → Fin n → Fin d → ℝ}
    {given : Option (Fin k → Fin d → ℝ)} (hp : ∀ t i, InClosedRoom L (p t i))
    (hg : ∀ q ∈ given, ∀ i, InClosedRoom L (q i)) (i : Fin n) : InClosedRoom L (startOf hT p given i) := by
  unfold startOf
  split
  · exact hp _ _
  · rename_i q
    split
    · exact hg q rfl _
    · exact hp _ _

/-! ## White space -/

theorem mem_takeWhile {p : Char → Bool} {s : List Char} {c : Char} (h : c ∈ s.takeWhile p) : p c = true := by
  have := List.all_takeWhile (p := p) (l := s)
  rw [List.all_eq_true] at this
  exact this c h

theorem rstrip_spec (s : List Char) : ∃ b, s = rstrip s ++ b ∧ (∀ c ∈ b, isBlank c = true) ∧
    ∀ c, (rstrip s).getLast? = some c → isBlank c = false := by
  refine ⟨(s.reverse.takeWhile isBlank).reverse, ?_, ?_, ?_⟩
  · unfold rstrip
    rw [← List.reverse_append, List.takeWhile_append_dropWhile, List.reverse_reverse]
  · intro c hc
    exact mem_takeWhile (List.mem_reverse.mp hc)
  · intro c hc
    unfold rstrip at hc
    rw [List.getLast?_reverse] at hc
    have := List.head?_dropWhile_not isBlank s.reverse
    rw [hc] at this
    simpa using this

theorem strip_spec (s : List Char) : (∃ a b, s = a ++ strip s ++ b ∧ (∀ c ∈ a, isBlank c = true) ∧
    ∀ c ∈ b, isBlank c = true) ∧ (∀ c, (strip s).head? = some c → isBlank c = false) ∧
    ∀ c, (strip s).getLast? = some c → isBlank c = false := by
  obtain ⟨b, hb, hb2, hb3⟩ := rstrip_spec (s.dropWhile isBlank)
  refine ⟨⟨s.takeWhile isBlank, b, ?_, fun c hc => mem_takeWhile hc, hb2⟩, fun c hc => ?_, hb3⟩
  · unfold strip
    rw [List.append_assoc, ← hb, List.takeWhile_append_dropWhile]
  · have h := List.head?_dropWhile_not isBlank s
    have : (s.dropWhile isBlank).head? = some c := by
      rw [hb]
      unfold strip at hc
      rw [List.head?_append, hc]
      rfl
    rw [this] at h
    simpa using h

theorem strip_nil (s : List Char) : strip s = [] ↔ ∀ c ∈ s, isBlank c = true := by
  obtain ⟨⟨a, b, h, ha, hb⟩, h1, -⟩ := strip_spec s
  constructor
  · intro hs c hc
    rw [h, hs, List.append_nil] at hc
    rcases List.mem_append.mp hc with hc | hc
    · exact ha c hc
    · exact hb c hc
  · intro hs
    cases hh : strip s with
    | nil => rfl
    | cons c t =>
      have : isBlank c = false := h1 c (by rw [hh]; rfl)
      have hm : c ∈ s := by
        rw [h, hh]
        simp
      rw [hs c hm] at this
      cases this

end AxesPlot

/-! ## C137 -/

/-- **C137, static plots.** Everything drawn is within the axes exactly if all sources and microphones
are in the room. -/
theorem C137_static {d n m : ℕ} (hd : d = 2 ∨ d = 3) (L : Fin d → ℝ) (hL : ∀ i, 0 ≤ L i)
    (src : Fin n → Fin d → ℝ) (mic : Fin m → Fin d → ℝ) (annotate : Bool) (title : Option String)
    (lines : Option (List String)) :
    ∃ marks, plotStatic (sizeTensor L) (tensor2 src) (tensor2 mic) annotate = .ok marks ∧
      ((∀ k ∈ marks, ∀ x ∈ markPoints k, Shown (sceneAxes (sizeTensor L) title lines) x) ↔
        (∀ i, InClosedRoom L (src i)) ∧ ∀ i, InClosedRoom L (mic i)) := by
  obtain ⟨marks, h, h1, h2, -, -, h3, h4⟩ := C79_static hd L src mic annotate
  refine ⟨marks, h, ?_⟩
  rw [AxesPlot.marks_iff, h1, h2, h3, h4]
  constructor
  · rintro ⟨-, hx, -⟩
    exact ⟨fun i => (AxesPlot.shown_iff ..).mp (hx _ (List.mem_append_left _ (AxesPlot.mem_pointList.mpr ⟨i, rfl⟩))),
      fun i => (AxesPlot.shown_iff ..).mp (hx _ (List.mem_append_right _ (AxesPlot.mem_pointList.mpr ⟨i, rfl⟩)))⟩
  · rintro ⟨hs, hm⟩
    refine ⟨AxesPlot.outline_shown L hL _ _, fun x hx => ?_, (fun p hp => by cases hp), fun t ht => ?_⟩
    · rcases List.mem_append.mp hx with hx | hx
      · obtain ⟨i, rfl⟩ := AxesPlot.mem_pointList.mp hx
        exact (AxesPlot.shown_iff ..).mpr (hs i)
      · obtain ⟨i, rfl⟩ := AxesPlot.mem_pointList.mp hx
        exact (AxesPlot.shown_iff ..).mpr (hm i)
    · split at ht
      · obtain ⟨i, hi⟩ := AxesPlot.mem_sourceLabels ht
        rw [← hi]
        exact (AxesPlot.shown_iff ..).mpr (hs i)
      · cases ht

/-- **C137, dynamic plots.** If sources and microphones are in the room at every step, and so are the
given positions, then everything drawn is within the axes. -/
theorem C137_dynamic {d n m k j T T' : ℕ} (hd : d = 2 ∨ d = 3) (hT : 0 < T) (hT' : 0 < T') (hn : 0 < n)
    (hm : 0 < m) (L : Fin d → ℝ) (hL : ∀ i, 0 ≤ L i) (src : Fin T → Fin n → Fin d → ℝ)
    (mic : Fin T' → Fin m → Fin d → ℝ) (srcPos : Option (Fin k → Fin d → ℝ)) (micPos : Option (Fin j → Fin d → ℝ))
    (step : ℕ) (hs : 0 < step) (annotate : Bool) (title : Option String) (lines : Option (List String))
    (h1 : ∀ t i, InClosedRoom L (src t i)) (h2 : ∀ t i, InClosedRoom L (mic t i))
    (h3 : ∀ q ∈ srcPos, ∀ i, InClosedRoom L (q i)) (h4 : ∀ q ∈ micPos, ∀ i, InClosedRoom L (q i)) :
    ∃ marks, plotDynamic (sizeTensor L) (tensor3 src) (tensor3 mic) step (srcPos.map tensor2)
        (micPos.map tensor2) annotate = .ok marks ∧
      ∀ k ∈ marks, ∀ x ∈ markPoints k, Shown (sceneAxes (sizeTensor L) title lines) x := by
  obtain ⟨marks, h, e1, e2, e3, -, e4⟩ := C80_dynamic hd hT hT' hn hm L src mic srcPos micPos step hs annotate
  refine ⟨marks, h, ?_⟩
  rw [AxesPlot.marks_iff, e1, e3, e4]
  refine ⟨AxesPlot.outline_shown L hL _ _, fun x hx => ?_, fun p hp x hx => ?_, fun t ht => ?_⟩
  · rcases (e2 x).mp hx with hx | hx
    · obtain ⟨i, rfl⟩ := AxesPlot.mem_pointList.mp hx
      exact (AxesPlot.shown_iff ..).mpr (AxesPlot.startOf_within hT h1 h3 i)
    · obtain ⟨i, rfl⟩ := AxesPlot.mem_pointList.mp hx
      exact (AxesPlot.shown_iff ..).mpr (AxesPlot.startOf_within hT' h2 h4 i)
  · rcases List.mem_append.mp hp with hp | hp
    · split at hp
      · obtain ⟨i, rfl⟩ := (List.mem_ofFn ..).mp hp
        obtain ⟨t, rfl⟩ := AxesPlot.mem_everyStep hx
        exact (AxesPlot.shown_iff ..).mpr (h1 t i)
      · cases hp
    · split at hp
      · obtain ⟨i, rfl⟩ := (List.mem_ofFn ..).mp hp
        obtain ⟨t, rfl⟩ := AxesPlot.mem_everyStep hx
        exact (AxesPlot.shown_iff ..).mpr (h2 t i)
      · cases hp
  · split at ht
    · unfold labelPlaces at ht
      split at ht
      · obtain ⟨i, hi⟩ := AxesPlot.mem_sourceLabels ht
        rw [← hi]
        exact (AxesPlot.shown_iff ..).mpr (h1 _ i)
      · obtain ⟨i, hi⟩ := AxesPlot.mem_sourceLabels ht
        rw [← hi]
        exact (AxesPlot.shown_iff ..).mpr (h3 _ rfl i)
    · cases ht

/-- **C137, animations.** If sources and microphones are in the room at every step, then in every frame
everything is within the axes; the title gives the time of the step, rounded to hundredths of a second,
when the length of the scene is known and there is more than one step, and there is no title otherwise. -/
theorem C137_frames {d n m T T' : ℕ} (hd : d = 2 ∨ d = 3) (L : Fin d → ℝ) (src : Fin n → Fin d → ℝ)
    (mic : Fin m → Fin d → ℝ) (p : Fin T → Fin n → Fin d → ℝ) (q : Fin T' → Fin m → Fin d → ℝ) (step : ℤ)
    (fps : Option ℝ) (signalLen : Option ℕ) (fs duration : Option ℝ) (plot2d plot3d annotate : Bool)
    (hview : plot2d = true ∨ plot3d = true) (indices : List ℤ) (rate : ℤ)
    (h : animation (some T) (some T') step fps signalLen fs duration = .ok (indices, rate))
    (hp : ∀ t i, InClosedRoom L (p t i)) (hq : ∀ t i, InClosedRoom L (q t i)) (lines : Option (List String)) :
    ∃ frames, animateScene (sizeTensor L) (tensor2 src) (tensor2 mic) (some (tensor3 p)) (some (tensor3 q)) step
        fps signalLen fs duration plot2d plot3d annotate = .ok (frames, rate) ∧
      (∀ f ∈ frames, ∀ x ∈ framePoints f, Shown (frameAxes (sizeTensor L) plot3d lines f) x) ∧
      List.Forall₂ (fun (i : ℤ) f =>
        (∀ D, 0 ≤ D → 1 < T → sceneLength duration signalLen fs = some D →
          ∃ s, (frameAxes (sizeTensor L) plot3d lines f).title = some ("t = " ++ s ++ " s") ∧
            ShowsHundredths s (D * ((i : ℝ) / (T - 1)))) ∧
        (T = 1 ∨ sceneLength duration signalLen fs = none →
          (frameAxes (sizeTensor L) plot3d lines f).title = none)) indices frames := by
  obtain ⟨frames, e, hf⟩ := C82_frames hd L src mic p q step fps signalLen fs duration plot2d plot3d annotate
    hview indices rate h
  refine ⟨frames, e, ?_, hf.imp ?_⟩
  · have hall : ∀ f ∈ frames, ∃ i, ShowsStep (shownDim d plot3d) p q (sceneLength duration signalLen fs)
        annotate i f := by
      intro f hfm
      obtain ⟨k, hk, rfl⟩ := List.mem_iff_getElem.mp hfm
      exact ⟨indices[k]'(by rw [hf.length_eq]; exact hk), hf.get (by rw [hf.length_eq]; exact hk) hk⟩
    intro f hfm x hx
    obtain ⟨i, ⟨⟨k, hk, hk', -, a1, a2, a3, a4, a5⟩, -, -⟩⟩ := hall f hfm
    have key : ∀ y : Fin d → ℝ, InClosedRoom L y → Shown (frameAxes (sizeTensor L) plot3d lines f)
        (List.ofFn (cut (shownDim d plot3d) y)) := by
      intro y hy
      unfold frameAxes
      rw [size_numel]
      have : (sizeTensor L).data.take (viewDim d plot3d) = List.ofFn (cut (shownDim d plot3d) L) :=
        take_ofFn _ _
      rw [this, AxesPlot.shown_iff]
      exact AxesPlot.within_cut hy _
    unfold framePoints at hx
    rw [a1, a2, a3, a4, a5] at hx
    simp only [List.mem_append] at hx
    rcases hx with (((hx | hx) | hx) | hx) | hx
    · obtain ⟨a, rfl⟩ := AxesPlot.mem_pointList.mp hx
      exact key _ (hp _ _)
    · obtain ⟨a, rfl⟩ := AxesPlot.mem_pointList.mp hx
      exact key _ (hq _ _)
    · obtain ⟨l, hl, hx⟩ := List.mem_flatten.mp hx
      obtain ⟨a, rfl⟩ := (List.mem_ofFn ..).mp hl
      obtain ⟨t, rfl⟩ := (List.mem_ofFn ..).mp hx
      exact key _ (hp _ _)
    · obtain ⟨l, hl, hx⟩ := List.mem_flatten.mp hx
      obtain ⟨a, rfl⟩ := (List.mem_ofFn ..).mp hl
      obtain ⟨t, rfl⟩ := (List.mem_ofFn ..).mp hx
      exact key _ (hq _ _)
    · obtain ⟨t, ht, rfl⟩ := List.mem_map.mp hx
      split at ht
      · obtain ⟨a, ha⟩ := AxesPlot.mem_sourceLabels ht
        rw [← ha]
        exact key _ (hp _ _)
      · cases ht
  · intro i f hs
    obtain ⟨⟨k, hk, -, rfl, -⟩, hu, ht⟩ := hs
    refine ⟨fun D hD hT hl => ?_, fun hn => ?_⟩
    · refine ⟨fixed2 (D * (((k : ℤ) : ℝ) / (T - 1))), ?_, BuilderRun.fixed2_shows ?_⟩
      · show frameTitle f = _
        unfold frameTitle
        rw [ht hT D hl]
        rfl
      · have : (1 : ℝ) < T := by exact_mod_cast hT
        have h0 : (0 : ℝ) ≤ ((k : ℤ) : ℝ) := by exact_mod_cast Nat.zero_le k
        exact mul_nonneg hD (div_nonneg h0 (by linarith))
    · show frameTitle f = none
      unfold frameTitle
      rw [hu hn]
      rfl

/-- **C137, text boxes.** There is no text box exactly if all lines are blank; otherwise it shows, in the
same order, the lines that are not blank, without the white space around them. -/
theorem C137_box (room : Tensor ℝ) (title : Option String) (plot3d : Bool) (f : Frame)
    (lines : Option (List String)) (box : Option String)
    (hbox : box = (sceneAxes room title lines).box ∨ box = (frameAxes room plot3d lines f).box) :
    (box = none ↔ ∀ s ∈ lines.getD [], Blank s) ∧
    ∀ text, box = some text → ∃ kept : List String, text = "\n".intercalate kept ∧
      ∃ shown : List String, shown.Sublist (lines.getD []) ∧
        (∀ s, s ∈ shown ↔ s ∈ lines.getD [] ∧ ¬ Blank s) ∧
        (∀ s, ¬ Blank s → shown.count s = (lines.getD []).count s) ∧ List.Forall₂ Trimmed shown kept := by
  obtain rfl : box = annotationBox lines := by rcases hbox with h | h <;> exact h
  clear hbox
  generalize hl : lines.getD [] = ls
  have hE : ∀ l : List Char, (!l.isEmpty) = true ↔ l ≠ [] := by
    intro l
    cases l <;> simp
  constructor
  · unfold annotationBox
    rw [hl]
    dsimp only
    constructor
    · intro h s hs
      split_ifs at h with he
      rw [List.isEmpty_iff, List.filter_eq_nil_iff] at he
      have := he (strip s.toList) (List.mem_map.mpr ⟨s, hs, rfl⟩)
      rw [hE, not_not, AxesPlot.strip_nil] at this
      exact this
    · intro h
      rw [if_pos]
      rw [List.isEmpty_iff, List.filter_eq_nil_iff]
      intro t ht
      obtain ⟨s, hs, rfl⟩ := List.mem_map.mp ht
      rw [hE, not_not, AxesPlot.strip_nil]
      exact h s hs
  · intro text h
    unfold annotationBox at h
    rw [hl] at h
    dsimp only at h
    split_ifs at h with he
    injection h with h
    refine ⟨_, h.symm, ls.filter fun s => !(strip s.toList).isEmpty, List.filter_sublist, fun s => ?_,
      fun s hs => ?_, ?_⟩
    · rw [List.mem_filter, hE, ne_eq, AxesPlot.strip_nil]
      rfl
    · refine List.count_filter ?_
      rw [hE, ne_eq, AxesPlot.strip_nil]
      exact hs
    · rw [List.filter_map, List.map_map, List.forall₂_map_right_iff]
      show List.Forall₂ _ _ (ls.filter fun s => !(strip s.toList).isEmpty)
      rw [List.forall₂_same]
      intro s _
      unfold Trimmed
      simp only [Function.comp, String.toList_ofList]
      exact AxesPlot.strip_spec s.toList

/-- **C137, colours.** In a plot with trajectories every microphone has the same colour, and two sources
have the same colour exactly if their numbers differ by a multiple of the number of colours. The first
sources take the colours in their order. -/
theorem C137_colours (palette : List String) (hp : palette ≠ []) (hd : palette.Nodup) (n m : ℕ) :
    (sourceColors palette n).length = n ∧ (micColors palette m).length = m ∧
    (∀ c ∈ sourceColors palette n, c ∈ palette) ∧
    (∀ i j : Fin n, (sourceColors palette n)[i]? = (sourceColors palette n)[j]? ↔
      (i : ℕ) ≡ j [MOD palette.length]) ∧
    (∀ i (h : i < palette.length), i < n → (sourceColors palette n)[i]? = some palette[i]) ∧
    ∀ c ∈ micColors palette m, c = "tab:orange" := by
  have hl : 0 < palette.length := List.length_pos_of_ne_nil hp
  have hs : sourceColors palette n = (List.range n).map fun i => palette.getD (i % palette.length) "" := by
    unfold sourceColors entityColors
    simp [hp]
  refine ⟨by simp [hs], by simp [micColors, entityColors], ?_, fun i j => ?_, fun i h hn => ?_, ?_⟩
  · intro c hc
    rw [hs] at hc
    obtain ⟨i, -, rfl⟩ := List.mem_map.mp hc
    rw [List.getD_eq_getElem _ _ (Nat.mod_lt _ hl)]
    exact List.getElem_mem _
  · rw [hs]
    have e : ∀ i : Fin n, ((List.range n).map fun i => palette.getD (i % palette.length) "")[i]? =
        some (palette[(i : ℕ) % palette.length]'(Nat.mod_lt _ hl)) := by
      intro i
      simp [List.getElem?_eq_getElem (Nat.mod_lt (i : ℕ) hl)]
    rw [e, e, Option.some_inj, hd.getElem_inj_iff]
    rfl
  · rw [hs]
    simp [hn, Nat.mod_eq_of_lt h, List.getElem?_eq_getElem h]
  · intro c hc
    unfold micColors entityColors at hc
    simp only [if_true] at hc
    exact List.eq_of_mem_replicate hc

/-- **C137, titles.** The titles of the pictures tell the view and whether there are trajectories. -/
theorem C137_titles {v w : ℕ} (hv : v = 2 ∨ v = 3) (hw : w = 2 ∨ w = 3) (a b : Bool) (room room' : Tensor ℝ)
    (lines lines' : Option (List String)) :
    ((sceneAxes room (some (sceneTitle v a)) lines).title = (sceneAxes room' (some (sceneTitle w b)) lines').title ↔
      v = w ∧ a = b) ∧
    ((sceneAxes room (some (layoutTitle v a)) lines).title = (sceneAxes room' (some (layoutTitle w b)) lines').title ↔
      v = w ∧ a = b) := by
  simp only [sceneAxes, roomAxes]
  rcases hv with rfl | rfl <;> rcases hw with rfl | rfl <;> cases a <;> cases b <;> decide

/-! ## Examples -/

/-- A source in a corner of the room is shown, one outside is not. -/
example : InClosedRoom ![6, 4] ![6, 0] ∧ ¬ InClosedRoom ![6, 4] ![6, -1] := by
  constructor
  · intro i
    fin_cases i <;> norm_num
  · intro h
    have := (h 1).1
    norm_num at this

example : annotationBox (some ["  fs=16000 ", "", " \t"]) = some "fs=16000" := by decide

example : sourceColors ["red", "blue"] 3 = ["red", "blue", "red"] := by decide

end Torchrir.Props
