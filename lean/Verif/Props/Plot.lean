import Verif.Model.Plot
import Verif.Lemmas.Directivity
import Verif.Lemmas.Rows

/-! # C79–C81: plots of scenes -/

namespace Torchrir.Props

open Torchrir.Model Torchrir.Spec Torchrir.Lemmas

/-! ## What can be seen -/

/-- The lines of the room. -/
def outlineOf (marks : List Mark) : List Mark :=
  marks.filter fun | .rectangle _ _ => true | .segment _ _ => true | _ => false

/-- All marked points. -/
def dotsOf (marks : List Mark) : List Vec :=
  marks.flatMap fun | .dots _ p => p | _ => []

/-- The points marked under a label. -/
def dotsUnder (label : String) (marks : List Mark) : List Vec :=
  marks.flatMap fun | .dots l p => if l = label then p else [] | _ => []

/-- All paths. -/
def pathsOf (marks : List Mark) : List (List Vec) :=
  marks.filterMap fun | .path _ p => some p | _ => none

/-- All texts with their places. -/
def textsOf (marks : List Mark) : List (Vec × String) :=
  marks.filterMap fun | .text p s => some (p, s) | _ => none

/-- The entries of the legend. -/
def legendOf (marks : List Mark) : List String :=
  (marks.filterMap fun | .dots l _ => some l | .path l _ => some l | _ => none).filter (· ≠ "_nolegend_")

/-- A room size. -/
def sizeTensor {d : ℕ} (L : Fin d → ℝ) : Tensor ℝ := ⟨[d], List.ofFn L⟩

/-- The points as lists of coordinates. -/
def pointList {n d : ℕ} (p : Fin n → Fin d → ℝ) : List Vec := List.ofFn fun i => List.ofFn (p i)

/-- The label of every source at its place. -/
def sourceLabels {n d : ℕ} (p : Fin n → Fin d → ℝ) : List (Vec × String) :=
  List.ofFn fun i => (List.ofFn (p i), "S" ++ toString (i : ℕ))

/-- The corner of the box with the given coordinates at their maximum, the others at 0. -/
def corner {d : ℕ} (L : Fin d → ℝ) (s : Fin d → Bool) : Vec := List.ofFn fun i => if s i then L i else 0

/-- Two corners that differ in exactly one coordinate: the ends of an edge. -/
def Adjacent (s t : Fin 3 → Bool) : Prop := ∃! i, s i ≠ t i

/-! ## C79 -/

/-- Which coordinates of a corner are at their maximum. -/
def cornerBits : ℕ → Fin 3 → Bool
  | 0 => ![false, false, false]
  | 1 => ![true, false, false]
  | 2 => ![true, true, false]
  | 3 => ![false, true, false]
  | 4 => ![false, false, true]
  | 5 => ![true, false, true]
  | 6 => ![true, true, true]
  | _ => ![false, true, true]

theorem drawBox_eq (L : Fin 3 → ℝ) : drawBox (L 0) (L 1) (L 2) =
    boxEdges.map fun e => .segment (corner L (cornerBits e.1)) (corner L (cornerBits e.2)) := by
  simp [drawBox, boxEdges, boxCorners, corner, cornerBits, List.ofFn_succ]

theorem corner_injective {L : Fin 3 → ℝ} (hL : ∀ i, 0 < L i) {s t : Fin 3 → Bool}
    (h : corner L s = corner L t) : s = t := by
  funext i
  have := congrFun (List.ofFn_injective h) i
  have hi := (hL i).ne'
  cases hs : s i <;> cases ht : t i <;> rw [hs, ht] at this <;> simp [hi, hi.symm] at this

instance (s t : Fin 3 → Bool) : Decidable (Adjacent s t) :=
  inferInstanceAs (Decidable (∃ i, s i ≠ t i ∧ ∀ j, s j ≠ t j → j = i))

/-- **C79, the room.** The box is drawn by exactly its twelve edges: a line joins two corners if and
only if they differ in one coordinate, every line joins two corners, and no edge is drawn twice, in
either direction. -/
theorem C79_box (L : Fin 3 → ℝ) (hL : ∀ i, 0 < L i) :
    (∀ s t, (Mark.segment (corner L s) (corner L t) ∈ drawBox (L 0) (L 1) (L 2) ∨
      Mark.segment (corner L t) (corner L s) ∈ drawBox (L 0) (L 1) (L 2)) ↔ Adjacent s t) ∧
    (∀ m ∈ drawBox (L 0) (L 1) (L 2), ∃ s t, m = .segment (corner L s) (corner L t)) ∧
    (drawBox (L 0) (L 1) (L 2)).Pairwise (fun m n => ∀ a b, m = .segment a b →
      n ≠ .segment a b ∧ n ≠ .segment b a) ∧
    (drawBox (L 0) (L 1) (L 2)).length = 12 := by
  have hmem : ∀ s t, Mark.segment (corner L s) (corner L t) ∈ drawBox (L 0) (L 1) (L 2) ↔
      ∃ e ∈ boxEdges, cornerBits e.1 = s ∧ cornerBits e.2 = t := by
    intro s t
    rw [drawBox_eq, List.mem_map]
    constructor
    · rintro ⟨e, he, h⟩
      injection h with h1 h2
      exact ⟨e, he, corner_injective hL h1, corner_injective hL h2⟩
    · rintro ⟨e, he, rfl, rfl⟩
      exact ⟨e, he, rfl⟩
  refine ⟨fun s t => ?_, fun m hm => ?_, ?_, ?_⟩
  · rw [hmem, hmem]
    revert s t
    decide
  · rw [drawBox_eq, List.mem_map] at hm
    obtain ⟨e, -, rfl⟩ := hm
    exact ⟨_, _, rfl⟩
  · rw [drawBox_eq, List.pairwise_map]
    have : boxEdges.Pairwise fun e f => ¬ (cornerBits f.1 = cornerBits e.1 ∧ cornerBits f.2 = cornerBits e.2) ∧
        ¬ (cornerBits f.1 = cornerBits e.2 ∧ cornerBits f.2 = cornerBits e.1) := by decide
    refine this.imp ?_
    rintro e f ⟨h1, h2⟩ a b hab
    injection hab with ha hb
    subst ha hb
    refine ⟨fun h => h1 ?_, fun h => h2 ?_⟩
    · injection h with ha hb
      exact ⟨corner_injective hL ha, corner_injective hL hb⟩
    · injection h with ha hb
      exact ⟨corner_injective hL ha, corner_injective hL hb⟩
  · rfl

/-- The outline of a room. -/
def roomOutline : {d : ℕ} → (Fin d → ℝ) → List Mark
  | 2, L => [.rectangle (L 0) (L 1)]
  | 3, L => drawBox (L 0) (L 1) (L 2)
  | _, _ => []

theorem drawRoom_ok {d : ℕ} (hd : d = 2 ∨ d = 3) (L : Fin d → ℝ) :
    drawRoom (sizeTensor L) = .ok (roomOutline L) := by
  rcases hd with rfl | rfl
  · simp [drawRoom, sizeTensor, roomOutline, List.ofFn_succ]
  · simp [drawRoom, sizeTensor, roomOutline, List.ofFn_succ]

theorem plotPositions_ok {n d : ℕ} (p : Fin n → Fin d → ℝ) :
    plotPositions d (tensor2 p) = .ok (pointList p) := by
  unfold plotPositions
  have h : (tensor2 p).ndim = 2 := rfl
  dsimp only
  rw [if_neg (by rw [h]; norm_num), tensor2_rows]
  simp [tensor2, pointList]

theorem size_numel {d : ℕ} (L : Fin d → ℝ) : (sizeTensor L).numel = d := by
  simp [sizeTensor, Tensor.numel]

theorem roomOutline_kind {d : ℕ} (L : Fin d → ℝ) : ∀ m ∈ roomOutline L,
    (∃ x y, m = .rectangle x y) ∨ ∃ a b, m = .segment a b := by
  unfold roomOutline
  split
  · intro m hm
    rw [List.mem_singleton] at hm
    exact Or.inl ⟨_, _, hm⟩
  · intro m hm
    obtain ⟨e, -, rfl⟩ := List.mem_map.mp hm
    exact Or.inr ⟨_, _, rfl⟩
  · intro m hm
    cases hm

theorem outline_room {d : ℕ} (L : Fin d → ℝ) : outlineOf (roomOutline L) = roomOutline L := by
  unfold outlineOf
  rw [List.filter_eq_self]
  intro m hm
  rcases roomOutline_kind L m hm with ⟨x, y, rfl⟩ | ⟨a, b, rfl⟩ <;> rfl

theorem dots_room {d : ℕ} (L : Fin d → ℝ) : dotsOf (roomOutline L) = [] := by
  unfold dotsOf
  rw [List.flatMap_eq_nil_iff]
  intro m hm
  rcases roomOutline_kind L m hm with ⟨x, y, rfl⟩ | ⟨a, b, rfl⟩ <;> rfl

theorem dotsUnder_room {d : ℕ} (l : String) (L : Fin d → ℝ) : dotsUnder l (roomOutline L) = [] := by
  unfold dotsUnder
  rw [List.flatMap_eq_nil_iff]
  intro m hm
  rcases roomOutline_kind L m hm with ⟨x, y, rfl⟩ | ⟨a, b, rfl⟩ <;> rfl

theorem paths_room {d : ℕ} (L : Fin d → ℝ) : pathsOf (roomOutline L) = [] := by
  unfold pathsOf
  rw [List.filterMap_eq_nil_iff]
  intro m hm
  rcases roomOutline_kind L m hm with ⟨x, y, rfl⟩ | ⟨a, b, rfl⟩ <;> rfl

theorem texts_room {d : ℕ} (L : Fin d → ℝ) : textsOf (roomOutline L) = [] := by
  unfold textsOf
  rw [List.filterMap_eq_nil_iff]
  intro m hm
  rcases roomOutline_kind L m hm with ⟨x, y, rfl⟩ | ⟨a, b, rfl⟩ <;> rfl

theorem legend_room {d : ℕ} (L : Fin d → ℝ) : legendOf (roomOutline L) = [] := by
  unfold legendOf
  rw [List.filterMap_eq_nil_iff.mpr, List.filter_nil]
  intro m hm
  rcases roomOutline_kind L m hm with ⟨x, y, rfl⟩ | ⟨a, b, rfl⟩ <;> rfl

theorem outlineOf_append (a b : List Mark) : outlineOf (a ++ b) = outlineOf a ++ outlineOf b :=
  List.filter_append ..

theorem dotsOf_append (a b : List Mark) : dotsOf (a ++ b) = dotsOf a ++ dotsOf b := List.flatMap_append

theorem dotsUnder_append (l : String) (a b : List Mark) :
    dotsUnder l (a ++ b) = dotsUnder l a ++ dotsUnder l b := List.flatMap_append

theorem pathsOf_append (a b : List Mark) : pathsOf (a ++ b) = pathsOf a ++ pathsOf b := List.filterMap_append

theorem textsOf_append (a b : List Mark) : textsOf (a ++ b) = textsOf a ++ textsOf b := List.filterMap_append

theorem legendOf_append (a b : List Mark) : legendOf (a ++ b) = legendOf a ++ legendOf b := by
  unfold legendOf
  rw [List.filterMap_append, List.filter_append]

theorem annotate_eq {n d : ℕ} (p : Fin n → Fin d → ℝ) : annotateSources (pointList p) =
    List.ofFn fun i => Mark.text (List.ofFn (p i)) ("S" ++ toString (i : ℕ)) := by
  unfold annotateSources pointList
  rw [zipIdx_ofFn, List.map_ofFn]
  rfl

theorem annotate_kind (l : List Vec) : ∀ m ∈ annotateSources l, ∃ p s, m = .text p s := by
  intro m hm
  obtain ⟨e, -, rfl⟩ := List.mem_map.mp hm
  exact ⟨_, _, rfl⟩

theorem texts_annotate {n d : ℕ} (p : Fin n → Fin d → ℝ) :
    textsOf (annotateSources (pointList p)) = sourceLabels p := by
  rw [annotate_eq]
  unfold textsOf sourceLabels
  have : ∀ l : List (Vec × String), (l.map fun x => Mark.text x.1 x.2).filterMap
      (fun | .text p s => some (p, s) | _ => none) = l := by
    intro l
    induction l with
    | nil => rfl
    | cons x l ih => simp only [List.map_cons, List.filterMap_cons, ih]
  rw [← this (List.ofFn _), List.map_ofFn]
  rfl

theorem outline_annotate (l : List Vec) : outlineOf (annotateSources l) = [] := by
  unfold outlineOf
  rw [List.filter_eq_nil_iff]
  intro m hm
  obtain ⟨_, _, rfl⟩ := annotate_kind l m hm
  simp

theorem dots_annotate (l : List Vec) : dotsOf (annotateSources l) = [] := by
  unfold dotsOf
  rw [List.flatMap_eq_nil_iff]
  intro m hm
  obtain ⟨_, _, rfl⟩ := annotate_kind l m hm
  rfl

theorem dotsUnder_annotate (s : String) (l : List Vec) : dotsUnder s (annotateSources l) = [] := by
  unfold dotsUnder
  rw [List.flatMap_eq_nil_iff]
  intro m hm
  obtain ⟨_, _, rfl⟩ := annotate_kind l m hm
  rfl

theorem paths_annotate (l : List Vec) : pathsOf (annotateSources l) = [] := by
  unfold pathsOf
  rw [List.filterMap_eq_nil_iff]
  intro m hm
  obtain ⟨_, _, rfl⟩ := annotate_kind l m hm
  rfl

theorem legend_annotate (l : List Vec) : legendOf (annotateSources l) = [] := by
  unfold legendOf
  rw [List.filterMap_eq_nil_iff.mpr, List.filter_nil]
  intro m hm
  obtain ⟨_, _, rfl⟩ := annotate_kind l m hm
  rfl

theorem scatter_facts (label : String) (l : List Vec) :
    outlineOf (scatterPositions label l) = [] ∧ dotsOf (scatterPositions label l) = l ∧
    (∀ k, dotsUnder k (scatterPositions label l) = if label = k then l else []) ∧
    pathsOf (scatterPositions label l) = [] ∧ textsOf (scatterPositions label l) = [] ∧
    legendOf (scatterPositions label l) = if l.length = 0 ∨ label = "_nolegend_" then [] else [label] := by
  unfold scatterPositions
  by_cases h : l.length = 0
  · rw [if_pos h]
    obtain rfl := List.length_eq_zero_iff.mp h
    refine ⟨rfl, rfl, fun k => ?_, rfl, rfl, ?_⟩
    · split_ifs <;> rfl
    · simp [legendOf]
  · rw [if_neg h]
    refine ⟨rfl, ?_, fun k => ?_, rfl, rfl, ?_⟩
    · simp [dotsOf]
    · simp [dotsUnder]
    · by_cases hl : label = "_nolegend_" <;> simp [legendOf, hl, h]

/-- **C79, static plots.** A plot of a scene shows the outline of its room, every source and every
microphone exactly once, at its place and under its label, every source with its number at its place
if wanted, and nothing else. -/
theorem C79_static {d n m : ℕ} (hd : d = 2 ∨ d = 3) (L : Fin d → ℝ) (src : Fin n → Fin d → ℝ)
    (mic : Fin m → Fin d → ℝ) (annotate : Bool) :
    ∃ marks, plotStatic (sizeTensor L) (tensor2 src) (tensor2 mic) annotate = .ok marks ∧
      outlineOf marks = roomOutline L ∧
      dotsOf marks = pointList src ++ pointList mic ∧
      dotsUnder "sources" marks = pointList src ∧ dotsUnder "mics" marks = pointList mic ∧
      pathsOf marks = [] ∧ textsOf marks = (if annotate then sourceLabels src else []) := by
  refine ⟨roomOutline L ++ scatterPositions "sources" (pointList src) ++ scatterPositions "mics" (pointList mic) ++
    (if annotate then annotateSources (pointList src) else []), ?_, ?_⟩
  · unfold plotStatic
    rw [drawRoom_ok hd, size_numel, plotPositions_ok, plotPositions_ok]
    rfl
  obtain ⟨a1, a2, a3, a4, a5, -⟩ := scatter_facts "sources" (pointList src)
  obtain ⟨b1, b2, b3, b4, b5, -⟩ := scatter_facts "mics" (pointList mic)
  have e1 : ("sources" = "mics") = False := by simp
  have e2 : ("mics" = "sources") = False := by simp
  simp only [outlineOf_append, dotsOf_append, dotsUnder_append, pathsOf_append, textsOf_append, outline_room,
    dots_room, dotsUnder_room, paths_room, texts_room, a1, a2, a3, a4, a5, b1, b2, b3, b4, b5, e1, e2,
    if_true, if_false, List.append_nil, List.nil_append]
  cases annotate
  · simp [outlineOf, dotsOf, dotsUnder, pathsOf, textsOf]
  · simp only [if_true, outline_annotate, dots_annotate, dotsUnder_annotate, paths_annotate, texts_annotate,
      List.append_nil, and_self]

/-- A room with two sources and a microphone. -/
example : ∃ marks, plotStatic (sizeTensor ![6, 4, 3]) (tensor2 ![![1, 2, 1], ![5, 3, 1]])
      (tensor2 ![![3, 2, 1]]) true = .ok marks ∧
    dotsUnder "mics" marks = [[3, 2, 1]] ∧
    textsOf marks = [([1, 2, 1], "S0"), ([5, 3, 1], "S1")] := by
  obtain ⟨marks, h, -, -, -, h3, -, h4⟩ := C79_static (Or.inr rfl) ![6, 4, 3] ![![1, 2, 1], ![5, 3, 1]]
    ![![3, 2, 1]] true
  refine ⟨marks, h, ?_, ?_⟩
  · rw [h3]
    simp [pointList, List.ofFn_succ]
  · rw [h4]
    simp [sourceLabels, List.ofFn_succ]
    decide

/-! ## C80 -/

/-- Where the markers of a moving group are put: at the given positions if there are as many as
entities, otherwise at the beginning of the trajectory. -/
def startOf {T n k d : ℕ} (hT : 0 < T) (p : Fin T → Fin n → Fin d → ℝ) (given : Option (Fin k → Fin d → ℝ)) :
    Fin n → Fin d → ℝ :=
  match given with
  | none => p ⟨0, hT⟩
  | some q => if h : n = k then fun i => q (Fin.cast h i) else p ⟨0, hT⟩

/-- Some entity is, at some step, more than a micrometre away from its marker. -/
def Moves {T n d : ℕ} (p : Fin T → Fin n → Fin d → ℝ) (start : Fin n → Fin d → ℝ) : Prop :=
  ∃ t i, 1e-6 < Spec.dist (p t i) (start i)

/-- The points of a trajectory at the steps divisible by `step`. -/
def everyStep {T n d : ℕ} (p : Fin T → Fin n → Fin d → ℝ) (step : ℕ) (i : Fin n) : List Vec :=
  ((List.finRange T).filter fun t : Fin T => step ∣ t.val).map fun t => List.ofFn (p t i)

theorem rangeStep_eq (T : ℕ) {s : ℕ} (hs : 0 < s) : rangeStep T s = (List.range T).filter (s ∣ ·) := by
  have hmem : ∀ x, x ∈ rangeStep T s ↔ x ∈ (List.range T).filter (s ∣ ·) := by
    intro x
    simp only [rangeStep, List.mem_map, List.mem_range, List.mem_filter, decide_eq_true_eq]
    constructor
    · rintro ⟨a, ha, rfl⟩
      refine ⟨?_, Dvd.intro_left a rfl⟩
      have := (Nat.le_div_iff_mul_le hs).mp (Nat.succ_le_of_lt ha)
      rw [Nat.succ_mul] at this
      omega
    · rintro ⟨h1, a, rfl⟩
      refine ⟨a, ?_, Nat.mul_comm _ _⟩
      refine Nat.lt_of_succ_le ((Nat.le_div_iff_mul_le hs).mpr ?_)
      rw [Nat.succ_mul, Nat.mul_comm]
      omega
  have s1 : (rangeStep T s).Pairwise (· < ·) := by
    unfold rangeStep
    rw [List.pairwise_map]
    exact List.pairwise_lt_range.imp fun h => Nat.mul_lt_mul_of_pos_right h hs
  have s2 : ((List.range T).filter (s ∣ ·)).Pairwise (· < ·) := List.pairwise_lt_range.filter _
  exact List.Perm.eq_of_pairwise (fun _ _ _ _ h1 h2 => absurd h1 (by omega)) s1 s2
    ((List.perm_ext_iff_of_nodup (s1.imp fun h => h.ne) (s2.imp fun h => h.ne)).mpr hmem)

/-- The trajectory as nested lists. -/
def trajList {T n d : ℕ} (p : Fin T → Fin n → Fin d → ℝ) : List (List Vec) := List.ofFn fun t => pointList (p t)

theorem stridedPath_eq {T n d : ℕ} (p : Fin T → Fin n → Fin d → ℝ) {s : ℕ} (hs : 0 < s) (i : Fin n) :
    stridedPath (trajList p) s i = everyStep p s i := by
  unfold stridedPath everyStep
  have hl : (trajList p).length = T := by simp [trajList]
  have hr : (List.range T).filter (s ∣ ·) = ((List.finRange T).filter fun t : Fin T => s ∣ t.val).map Fin.val := by
    rw [← List.map_coe_finRange_eq_range, List.filter_map]
    rfl
  rw [hl, rangeStep_eq T hs, hr, List.map_map]
  refine List.map_congr_left fun t _ => ?_
  show ((trajList p).getD t []).getD i [] = _
  unfold trajList
  rw [getD_ofFn (fun t => pointList (p t)) t]
  unfold pointList
  rw [getD_ofFn (fun i => List.ofFn (p t i)) i]

theorem dist_eq_norm2 {d : ℕ} (a b : Fin d → ℝ) :
    norm2 (vsub (List.ofFn a) (List.ofFn b)) = Spec.dist a b := by
  rw [vsub_ofFn, norm2_ofFn]
  rfl

theorem isMoving_iff {T n d : ℕ} (p : Fin T → Fin n → Fin d → ℝ) (q : Fin n → Fin d → ℝ) :
    IsMoving (trajList p) (pointList q) ↔ Moves p q := by
  unfold IsMoving Moves trajList pointList
  constructor
  · rintro ⟨frame, hf, x, hx, h⟩
    obtain ⟨t, rfl⟩ := List.mem_ofFn.mp hf
    rw [show (List.ofFn fun i => List.ofFn (p t i)).zip (List.ofFn fun i => List.ofFn (q i))
      = List.ofFn fun i => (List.ofFn (p t i), List.ofFn (q i)) from zipWith_ofFn _ _ _] at hx
    obtain ⟨i, rfl⟩ := List.mem_ofFn.mp hx
    exact ⟨t, i, by rw [← dist_eq_norm2]; exact h⟩
  · rintro ⟨t, i, h⟩
    refine ⟨_, List.mem_ofFn.mpr ⟨t, rfl⟩, (List.ofFn (p t i), List.ofFn (q i)), ?_, ?_⟩
    · rw [show (List.ofFn fun i => List.ofFn (p t i)).zip (List.ofFn fun i => List.ofFn (q i))
        = List.ofFn fun i => (List.ofFn (p t i), List.ofFn (q i)) from zipWith_ofFn _ _ _]
      exact List.mem_ofFn.mpr ⟨i, rfl⟩
    · dsimp only
      rw [dist_eq_norm2]
      exact h

theorem slice_one {α : Type} {n : ℕ} (f : Fin n → α) (i : Fin n) :
    slice i (i + 1) (List.ofFn f) = [f i] := by
  unfold slice
  apply List.ext_getElem
  · simp
  · intro k h1 h2
    have : k = 0 := by simpa using h2
    subst this
    simp

open Classical in
/-- What one group adds to the plot. -/
theorem plotEntity_facts {T n d : ℕ} (hT : 0 < T) (hn : 0 < n) (p : Fin T → Fin n → Fin d → ℝ)
    {k : ℕ} (q : Fin k → Fin d → ℝ) (step : ℕ) (hs : 0 < step) (label : String) (hl : label ≠ "_nolegend_") :
    ∃ marks, plotEntity (trajList p) (pointList q) step label = .ok marks ∧
      outlineOf marks = [] ∧ textsOf marks = [] ∧ legendOf marks = [label] ∧
      pathsOf marks = (if Moves p (startOf hT p (some q)) then List.ofFn (everyStep p step) else []) ∧
      (∀ x, x ∈ dotsOf marks ↔ x ∈ pointList (startOf hT p (some q))) := by
  obtain ⟨rest, hr⟩ : ∃ rest, trajList p = pointList (p ⟨0, hT⟩) :: rest := by
    obtain ⟨T, rfl⟩ : ∃ k, T = k + 1 := ⟨T - 1, by omega⟩
    exact ⟨_, List.ofFn_succ⟩
  have hlen : ∀ {m : ℕ} (f : Fin m → Fin d → ℝ), (pointList f).length = m := by
    intro m f; simp [pointList]
  have hpos : (if (pointList q).length = (pointList (p ⟨0, hT⟩)).length then pointList q
      else pointList (p ⟨0, hT⟩)) = pointList (startOf hT p (some q)) := by
    rw [hlen, hlen]
    show _ = pointList (if h : n = k then fun i => q (Fin.cast h i) else p ⟨0, hT⟩)
    by_cases h : k = n
    · subst h
      simp
    · rw [if_neg h, dif_neg (Ne.symm h)]
  set start := startOf hT p (some q) with hstart
  have hmv : IsMoving (trajList p) (pointList start) ↔ Moves p start := isMoving_iff p start
  refine ⟨(List.range n).flatMap (fun i =>
      (if Moves p start then
        [Mark.path (if i = 0 then label else "_nolegend_") (stridedPath (trajList p) step i)] else []) ++
      scatterPositions "_nolegend_" (slice i (i + 1) (pointList start))) ++
    (if Moves p start then [] else scatterPositions label ((pointList start).take 1)), ?_, ?_⟩
  · unfold plotEntity
    rw [hr]
    dsimp only
    rw [hpos, ← hr, hlen, if_neg hn.ne', if_neg (by omega), Int.toNat_natCast]
    simp only [hmv]
  have hparts : ∀ i : Fin n, slice (i : ℕ) (i + 1) (pointList start) = [List.ofFn (start i)] :=
    fun i => slice_one _ i
  have key : ∀ l : List (Fin n), ∀ marks, marks = (l.map Fin.val).flatMap (fun i =>
      (if Moves p start then
        [Mark.path (if i = 0 then label else "_nolegend_") (stridedPath (trajList p) step i)] else []) ++
      scatterPositions "_nolegend_" (slice i (i + 1) (pointList start))) →
      outlineOf marks = [] ∧ textsOf marks = [] ∧
      pathsOf marks = (if Moves p start then l.map (everyStep p step) else []) ∧
      dotsOf marks = l.map (fun i => List.ofFn (start i)) ∧
      legendOf marks = (if Moves p start then (l.filter (·.val = 0)).map fun _ => label else []) := by
    intro l
    induction l with
    | nil =>
      rintro _ rfl
      refine ⟨rfl, rfl, ?_, rfl, ?_⟩ <;> split_ifs <;> rfl
    | cons i l ih =>
      rintro _ rfl
      obtain ⟨h1, h2, h3, h4, h5⟩ := ih _ rfl
      obtain ⟨a1, a2, -, a4, a5, a6⟩ := scatter_facts "_nolegend_" [List.ofFn (start i)]
      rw [List.map_cons, List.flatMap_cons]
      simp only [outlineOf_append, dotsOf_append, pathsOf_append, textsOf_append, legendOf_append, h1, h2, h3,
        h4, h5, a1, a2, a4, a5, a6, or_true, if_true, hparts, stridedPath_eq p hs i]
      by_cases hm : Moves p start
      · simp only [hm, if_true]
        refine ⟨rfl, rfl, rfl, rfl, ?_⟩
        by_cases hi : (i : ℕ) = 0
        · simp [legendOf, hi, hl]
        · simp [legendOf, hi]
      · simp only [hm, if_false]
        exact ⟨rfl, rfl, rfl, rfl, rfl⟩
  obtain ⟨h1, h2, h3, h4, h5⟩ := key (List.finRange n) _ (by rw [List.map_coe_finRange_eq_range])
  rw [← List.ofFn_eq_map] at h3 h4
  have hd0 : dotsOf ((List.range n).flatMap _) = pointList start := h4
  obtain ⟨a1, a2, -, a4, a5, a6⟩ := scatter_facts label ((pointList start).take 1)
  have hlen1 : ((pointList start).take 1).length = 1 := by
    rw [List.length_take, hlen]
    omega
  rw [hlen1] at a6
  simp only [outlineOf_append, dotsOf_append, pathsOf_append, textsOf_append, legendOf_append, h1, h2, h3, h5, hd0]
  by_cases hm : Moves p start
  · simp only [hm, if_true]
    refine ⟨rfl, rfl, ?_, by simp [pathsOf], fun x => ?_⟩
    · obtain ⟨n, rfl⟩ : ∃ k, n = k + 1 := ⟨n - 1, by omega⟩
      have : (List.finRange (n + 1)).filter (fun i => i.val = 0) = [0] := by
        rw [List.finRange_succ, List.filter_cons_of_pos (by simp), List.filter_eq_nil_iff.mpr]
        simp
      rw [this]
      rfl
    · simp [dotsOf]
  · simp only [hm, if_false, a1, a2, a4, a5, a6]
    refine ⟨rfl, rfl, by simp [hl], rfl, fun x => ?_⟩
    rw [List.mem_append]
    exact ⟨fun h => h.elim id List.mem_of_mem_take, Or.inl⟩

theorem plotTrajectory_ok {T n d : ℕ} (p : Fin T → Fin n → Fin d → ℝ) :
    plotTrajectory d (tensor3 p) = .ok (trajList p) := by
  unfold plotTrajectory
  rw [tensor3_planes]
  simp [tensor3, trajList, pointList]

/-- The places of the labels: the given positions, or the beginning of the trajectory. -/
def labelPlaces {T n k d : ℕ} (hT : 0 < T) (p : Fin T → Fin n → Fin d → ℝ) :
    Option (Fin k → Fin d → ℝ) → List (Vec × String)
  | none => sourceLabels (p ⟨0, hT⟩)
  | some q => sourceLabels q

theorem startOf_self {T n d : ℕ} (hT : 0 < T) (p : Fin T → Fin n → Fin d → ℝ) :
    startOf hT p (some (p ⟨0, hT⟩)) = p ⟨0, hT⟩ := by
  simp [startOf]

open Classical in
/-- What one group adds, with or without given positions. -/
theorem plotGroup_facts {T n d k : ℕ} (hT : 0 < T) (hn : 0 < n) (p : Fin T → Fin n → Fin d → ℝ)
    (given : Option (Fin k → Fin d → ℝ)) (step : ℕ) (hs : 0 < step) (label : String) (hl : label ≠ "_nolegend_") :
    ∃ start marks, plotStart d (trajList p) (given.map tensor2) = .ok start ∧
      textsOf (annotateSources start) = labelPlaces hT p given ∧
      plotEntity (trajList p) start step label = .ok marks ∧
      outlineOf marks = [] ∧ textsOf marks = [] ∧ legendOf marks = [label] ∧
      pathsOf marks = (if Moves p (startOf hT p given) then List.ofFn (everyStep p step) else []) ∧
      (∀ x, x ∈ dotsOf marks ↔ x ∈ pointList (startOf hT p given)) := by
  cases given with
  | none =>
    obtain ⟨marks, h⟩ := plotEntity_facts hT hn p (p ⟨0, hT⟩) step hs label hl
    rw [startOf_self] at h
    refine ⟨pointList (p ⟨0, hT⟩), marks, ?_, texts_annotate _, h⟩
    obtain ⟨T, rfl⟩ : ∃ k, T = k + 1 := ⟨T - 1, by omega⟩
    unfold trajList
    rw [List.ofFn_succ]
    rfl
  | some q =>
    obtain ⟨marks, h⟩ := plotEntity_facts hT hn p q step hs label hl
    exact ⟨pointList q, marks, plotPositions_ok q, texts_annotate _, h⟩

open Classical in
/-- **C80, dynamic plots.** A plot of a moving scene shows the outline of its room, marks every entity
at its start and nothing else, and draws for the groups that move the path of every entity, through
its positions at all steps divisible by `step`, in order of time. Each group has one entry in the
legend; the sources are numbered at their given or first positions. -/
theorem C80_dynamic {d n m k j T T' : ℕ} (hd : d = 2 ∨ d = 3) (hT : 0 < T) (hT' : 0 < T') (hn : 0 < n)
    (hm : 0 < m) (L : Fin d → ℝ) (src : Fin T → Fin n → Fin d → ℝ) (mic : Fin T' → Fin m → Fin d → ℝ)
    (srcPos : Option (Fin k → Fin d → ℝ)) (micPos : Option (Fin j → Fin d → ℝ)) (step : ℕ) (hs : 0 < step)
    (annotate : Bool) :
    ∃ marks, plotDynamic (sizeTensor L) (tensor3 src) (tensor3 mic) step (srcPos.map tensor2)
        (micPos.map tensor2) annotate = .ok marks ∧
      outlineOf marks = roomOutline L ∧
      (∀ x, x ∈ dotsOf marks ↔ x ∈ pointList (startOf hT src srcPos) ∨ x ∈ pointList (startOf hT' mic micPos)) ∧
      pathsOf marks =
        (if Moves src (startOf hT src srcPos) then List.ofFn (everyStep src step) else []) ++
        (if Moves mic (startOf hT' mic micPos) then List.ofFn (everyStep mic step) else []) ∧
      legendOf marks = ["sources", "mics"] ∧
      textsOf marks = if annotate then labelPlaces hT src srcPos else [] := by
  obtain ⟨s1, m1, a1, a2, a3, a4, a5, a6, a7, a8⟩ :=
    plotGroup_facts hT hn src srcPos step hs "sources" (by decide)
  obtain ⟨s2, m2, b1, -, b3, b4, b5, b6, b7, b8⟩ :=
    plotGroup_facts hT' hm mic micPos step hs "mics" (by decide)
  refine ⟨roomOutline L ++ m1 ++ m2 ++ (if annotate then annotateSources s1 else []), ?_, ?_⟩
  · unfold plotDynamic
    rw [drawRoom_ok hd, size_numel, plotTrajectory_ok, plotTrajectory_ok]
    simp only [ok_bind]
    rw [a1, b1]
    simp only [ok_bind]
    rw [a3, b3]
    rfl
  simp only [outlineOf_append, dotsOf_append, pathsOf_append, textsOf_append, legendOf_append, outline_room,
    dots_room, paths_room, texts_room, legend_room, a4, a5, a6, a7, b4, b5, b6, b7, List.append_nil,
    List.nil_append, List.mem_append, a8, b8]
  cases annotate
  · simp [outlineOf, dotsOf, pathsOf, textsOf, legendOf]
  · simp [outline_annotate, dots_annotate, paths_annotate, legend_annotate, a2]

/-- **C80, groups at rest.** "If trajectories are static, only positions are plotted": without given
positions, or with given positions where the entities are, nothing is drawn as a path. -/
theorem C80_static_partial {d n m k j T T' : ℕ} (hd : d = 2 ∨ d = 3) (hT : 0 < T) (hT' : 0 < T') (hn : 0 < n)
    (hm : 0 < m) (L : Fin d → ℝ) (src : Fin T → Fin n → Fin d → ℝ) (mic : Fin T' → Fin m → Fin d → ℝ)
    (srcPos : Option (Fin k → Fin d → ℝ)) (micPos : Option (Fin j → Fin d → ℝ)) (step : ℕ) (hs : 0 < step)
    (hsrc : ∀ t i, src t i = startOf hT src srcPos i) (hmic : ∀ t i, mic t i = startOf hT' mic micPos i) :
    ∃ marks, plotDynamic (sizeTensor L) (tensor3 src) (tensor3 mic) step (srcPos.map tensor2)
        (micPos.map tensor2) = .ok marks ∧ pathsOf marks = [] := by
  obtain ⟨marks, h, -, -, h3, -⟩ := C80_dynamic hd hT hT' hn hm L src mic srcPos micPos step hs true
  refine ⟨marks, h, ?_⟩
  have rest : ∀ {T n : ℕ} (p : Fin T → Fin n → Fin d → ℝ) q, (∀ t i, p t i = q i) → ¬ Moves p q := by
    rintro T n p q h ⟨t, i, hlt⟩
    rw [h] at hlt
    have : Spec.dist (q i) (q i) = 0 := by simp [Spec.dist]
    rw [this] at hlt
    norm_num at hlt
  rw [h3, if_neg (rest _ _ hsrc), if_neg (rest _ _ hmic)]
  rfl

/-- **C80, groups at rest, in general.** A source that rests somewhere else than at its given position
is drawn with a path although it does not move. -/
theorem C80_static_fails : ∃ (src mic : Fin 2 → Fin 1 → Fin 2 → ℝ) (pos : Fin 1 → Fin 2 → ℝ) (marks : List Mark),
    (∀ t i, src t i = src 0 i) ∧ (∀ t i, mic t i = mic 0 i) ∧
    plotDynamic (sizeTensor ![6, 4]) (tensor3 src) (tensor3 mic) 1 (some (tensor2 pos)) none = .ok marks ∧
    pathsOf marks = [[[1, 1], [1, 1]]] := by
  obtain ⟨marks, h, -, -, h3, -⟩ := C80_dynamic (k := 1) (j := 1) (Or.inl rfl) (by norm_num : 0 < 2)
    (by norm_num : 0 < 2) one_pos one_pos ![6, 4] (fun _ _ => ![1, 1]) (fun _ _ => ![2, 2])
    (some fun _ => ![3, 1]) none 1 one_pos true
  refine ⟨fun _ _ => ![1, 1], fun _ _ => ![2, 2], fun _ => ![3, 1], marks, fun _ _ => rfl, fun _ _ => rfl, h, ?_⟩
  rw [h3, if_pos, if_neg]
  · simp [everyStep, List.finRange_succ]
  · rintro ⟨t, i, hlt⟩
    simp [startOf, Spec.dist] at hlt
    norm_num at hlt
  · refine ⟨0, 0, ?_⟩
    simp [startOf, Spec.dist, Fin.sum_univ_two]
    norm_num
    exact Real.lt_sqrt_of_sq_lt (by norm_num)

/-- **C80, the end of a path, exactly.** The paths of C80 begin at the first position and end at the one
whose number is the largest multiple of the step. -/
theorem C80_last_point_exactly {T n d : ℕ} (hT : 0 < T) (p : Fin T → Fin n → Fin d → ℝ) {step : ℕ} (hs : 0 < step)
    (i : Fin n) :
    ∃ (l : Fin T), (everyStep p step i).head? = some (List.ofFn (p ⟨0, hT⟩ i)) ∧
      (everyStep p step i).getLast? = some (List.ofFn (p l i)) ∧ step ∣ l ∧ T - 1 - (l : ℕ) < step ∧
      ((l : ℕ) = T - 1 ↔ step ∣ T - 1) := by
  have hlt : step * ((T - 1) / step) < T := by
    have := Nat.mul_div_le (T - 1) step
    omega
  have hmod := Nat.div_add_mod (T - 1) step
  have hm := Nat.mod_lt (T - 1) hs
  refine ⟨⟨step * ((T - 1) / step), hlt⟩, ?_, ?_, ⟨_, rfl⟩, ?_, ?_⟩
  · obtain ⟨T, rfl⟩ : ∃ k, T = k + 1 := ⟨T - 1, by omega⟩
    unfold everyStep
    rw [List.finRange_succ, List.filter_cons_of_pos (by simp)]
    rfl
  · unfold everyStep
    rw [List.getLast?_map]
    have key : ((List.finRange T).filter fun t : Fin T => step ∣ t.val).getLast? =
        some ⟨step * ((T - 1) / step), hlt⟩ := by
      have hmem : (⟨step * ((T - 1) / step), hlt⟩ : Fin T) ∈
          (List.finRange T).filter fun t : Fin T => step ∣ t.val := by simp
      have hsort : ((List.finRange T).filter fun t : Fin T => step ∣ t.val).Pairwise (· < ·) :=
        (List.pairwise_lt_finRange T).filter _
      have hne := List.ne_nil_of_mem hmem
      rw [List.getLast?_eq_some_getLast hne]
      congr 1
      set l := (List.finRange T).filter fun t : Fin T => step ∣ t.val with hl
      have hin : l.getLast hne ∈ l := List.getLast_mem hne
      have h1 : step ∣ (l.getLast hne).val := by
        have := (List.mem_filter.mp hin).2
        simpa using this
      have h2 : (⟨step * ((T - 1) / step), hlt⟩ : Fin T) ≤ l.getLast hne := by
        have := List.dropLast_append_getLast hne
        rw [← this] at hmem hsort
        rcases List.mem_append.mp hmem with h | h
        · exact ((List.pairwise_append.mp hsort).2.2 _ h _ (List.mem_singleton.mpr rfl)).le
        · exact (List.mem_singleton.mp h).le
      apply Fin.ext
      show (l.getLast hne).val = step * ((T - 1) / step)
      apply le_antisymm
      · obtain ⟨c, hc⟩ := h1
        rw [hc]
        apply Nat.mul_le_mul_left
        rw [Nat.le_div_iff_mul_le hs, mul_comm, ← hc]
        have := (l.getLast hne).2
        omega
      · exact h2
    rw [key]
    rfl
  · show T - 1 - step * ((T - 1) / step) < step
    omega
  · show step * ((T - 1) / step) = T - 1 ↔ _
    constructor
    · intro h
      exact ⟨_, h.symm⟩
    · exact Nat.mul_div_cancel'

/-- **C80, the end of a path.** A path drawn with a larger step may stop before the last position. -/
theorem C80_last_point_fails : ∃ (src mic : Fin 10 → Fin 1 → Fin 2 → ℝ) (marks : List Mark),
    plotDynamic (sizeTensor ![20, 4]) (tensor3 src) (tensor3 mic) 4 = .ok marks ∧
    pathsOf marks = [[[0, 1], [4, 1], [8, 1]]] ∧ src 9 0 = ![9, 1] := by
  obtain ⟨marks, h, -, -, h3, -⟩ := C80_dynamic (k := 1) (j := 1) (Or.inl rfl) (by norm_num : 0 < 10)
    (by norm_num : 0 < 10) one_pos one_pos ![20, 4] (fun t _ => ![(t : ℕ), 1]) (fun _ _ => ![2, 2])
    none none 4 (by norm_num) true
  refine ⟨fun t _ => ![(t : ℕ), 1], fun _ _ => ![2, 2], marks, h, ?_, by norm_num⟩
  rw [h3, if_pos, if_neg]
  · have : (List.finRange 10).filter (fun t : Fin 10 => 4 ∣ t.val) = [0, 4, 8] := by decide
    simp [everyStep, this]
  · rintro ⟨t, i, hlt⟩
    simp [startOf, Spec.dist] at hlt
    norm_num at hlt
  · refine ⟨9, 0, ?_⟩
    simp [startOf, Spec.dist, Fin.sum_univ_two]
    norm_num

/-! ## C81 -/

/-- The first `v` coordinates. -/
def cut {d : ℕ} (v : ℕ) (x : Fin d → ℝ) : Fin (min v d) → ℝ := fun i => x (Fin.castLE (Nat.min_le_right v d) i)

/-- The views that are drawn: the first two coordinates if `plot_2d`, and all three if `plot_3d` and
the room has three. -/
def views (d : ℕ) (plot2d plot3d : Bool) : List ℕ :=
  (if plot2d then [2] else []) ++ (if plot3d ∧ d = 3 then [3] else [])

theorem take_ofFn {d : ℕ} (v : ℕ) (x : Fin d → ℝ) : (List.ofFn x).take v = List.ofFn (cut v x) := by
  apply List.ext_getElem
  · simp
  · intro k h1 h2
    simp [cut, Fin.castLE]

theorem sliceLast_size {d : ℕ} (v : ℕ) (L : Fin d → ℝ) :
    sliceLast v (sizeTensor L) = sizeTensor (cut v L) := by
  unfold sliceLast
  have : (sizeTensor L).lastAxisRows = [List.ofFn L] := by
    simp [Tensor.lastAxisRows, sizeTensor, groups]
  rw [this]
  simp [sizeTensor, take_ofFn]

theorem sliceLast_tensor2 {n d : ℕ} (v : ℕ) (f : Fin n → Fin d → ℝ) :
    sliceLast v (tensor2 f) = tensor2 fun i => cut v (f i) := by
  unfold sliceLast
  rw [tensor2_lastAxisRows]
  simp [tensor2, List.flatMap_def, List.map_ofFn, Function.comp_def, take_ofFn]

theorem sliceLast_tensor3 {T n d : ℕ} (v : ℕ) (f : Fin T → Fin n → Fin d → ℝ) :
    sliceLast v (tensor3 f) = tensor3 fun t i => cut v (f t i) := by
  unfold sliceLast
  have : (tensor3 f).lastAxisRows = (List.ofFn fun t => List.ofFn fun i => List.ofFn (f t i)).flatten := by
    rw [tensor3_eq_ofRows3, ofRows3_lastAxisRows _ (by simp)]
  rw [this]
  simp only [tensor3, List.flatMap_def, List.map_flatten, List.map_ofFn, Function.comp_def, take_ofFn,
    List.flatten_flatten]
  rfl

theorem positionsToCpu_tensor2 {n d : ℕ} (f : Fin n → Fin d → ℝ) : positionsToCpu (tensor2 f) = tensor2 f :=
  if_neg (by simp [tensor2, Tensor.ndim])

theorem trajectoryToCpu_some {T n d : ℕ} (p : Fin T → Fin n → Fin d → ℝ) (f : Tensor ℝ) (k : ℕ) :
    trajectoryToCpu (some (tensor3 p)) f k = .ok (tensor3 p) := rfl

theorem trajectoryToCpu_none {n d : ℕ} (f : Fin n → Fin d → ℝ) (T : ℕ) :
    trajectoryToCpu none (tensor2 f) T = .ok (tensor3 fun _ : Fin T => f) := by
  unfold trajectoryToCpu tensor3
  rw [List.ofFn_const]
  rfl

theorem vizSteps_source {T n d : ℕ} (p : Fin T → Fin n → Fin d → ℝ) (mic : Option (Tensor ℝ)) :
    vizSteps (some (tensor3 p)) mic = .ok T := rfl

theorem vizSteps_mic {T n d : ℕ} (q : Fin T → Fin n → Fin d → ℝ) :
    vizSteps none (some (tensor3 q)) = .ok T := rfl

/-- The image of a static view. -/
def IsStaticImage {n m d : ℕ} (L : Fin d → ℝ) (src : Fin n → Fin d → ℝ) (mic : Fin m → Fin d → ℝ)
    (pre : String) (annotate : Bool) (v : ℕ) (image : Image) : Prop :=
  image.1 = pre ++ "_static_" ++ toString v ++ "d.png" ∧
  plotStatic (sizeTensor (cut v L)) (tensor2 fun i => cut v (src i)) (tensor2 fun i => cut v (mic i)) annotate
    = .ok image.2

/-- The image of a dynamic view. -/
def IsDynamicImage {n m d T T' : ℕ} (L : Fin d → ℝ) (src : Fin n → Fin d → ℝ) (mic : Fin m → Fin d → ℝ)
    (srcTraj : Fin T → Fin n → Fin d → ℝ) (micTraj : Fin T' → Fin m → Fin d → ℝ)
    (pre : String) (step : ℕ) (annotate : Bool) (v : ℕ) (image : Image) : Prop :=
  image.1 = pre ++ "_dynamic_" ++ toString v ++ "d.png" ∧
  plotDynamic (sizeTensor (cut v L)) (tensor3 fun t i => cut v (srcTraj t i))
    (tensor3 fun t i => cut v (micTraj t i)) step (some (tensor2 fun i => cut v (src i)))
    (some (tensor2 fun i => cut v (mic i))) annotate = .ok image.2

theorem min_view {d v : ℕ} (hv : v = 2 ∨ v = 3) (h : v ≤ d) : min v d = 2 ∨ min v d = 3 := by
  rw [min_eq_left h]
  exact hv

/-- One turn of the loop without trajectories. -/
theorem renderView_static {d n m : ℕ} (L : Fin d → ℝ) (src : Fin n → Fin d → ℝ)
    (mic : Fin m → Fin d → ℝ) (pre : String) (step : ℕ) (annotate enabled : Bool) (v : ℕ) (hv : v = 2 ∨ v = 3)
    (S D : List Image) :
    ∃ S', renderView (sizeTensor L) (tensor2 src) (tensor2 mic) pre step annotate v enabled ⟨none, none, S, D⟩
        = .ok ⟨none, none, S ++ S', D⟩ ∧
      List.Forall₂ (IsStaticImage L src mic pre annotate) (if enabled ∧ v ≤ d then [v] else []) S' := by
  unfold renderView
  rw [size_numel]
  by_cases h : enabled = true ∧ v ≤ d
  · rw [if_neg (by rintro (h' | h') <;> [simp [h.1] at h'; omega]), if_pos h]
    obtain ⟨marks, hm, -⟩ := C79_static (min_view hv h.2) (cut v L) (fun i => cut v (src i))
      (fun i => cut v (mic i)) annotate
    refine ⟨[(pre ++ "_static_" ++ toString v ++ "d.png", marks)], ?_, .cons ⟨rfl, hm⟩ .nil⟩
    rw [sliceLast_size, sliceLast_tensor2, sliceLast_tensor2, hm]
    rfl
  · rw [if_pos (by by_contra h'; push Not at h'; exact h ⟨by simpa using h'.1, by omega⟩), if_neg h]
    exact ⟨[], by simp, .nil⟩

/-- One turn of the loop with both trajectories. -/
theorem renderView_dynamic {d n m T T' : ℕ} (hT : 0 < T) (hT' : 0 < T') (hn : 0 < n) (hm : 0 < m)
    (L : Fin d → ℝ) (src : Fin n → Fin d → ℝ) (mic : Fin m → Fin d → ℝ) (p : Fin T → Fin n → Fin d → ℝ)
    (q : Fin T' → Fin m → Fin d → ℝ) (pre : String) (step : ℕ) (hs : 0 < step) (annotate enabled : Bool) (v : ℕ)
    (hv : v = 2 ∨ v = 3) (S D : List Image) :
    ∃ S' D', renderView (sizeTensor L) (tensor2 src) (tensor2 mic) pre step annotate v enabled
        ⟨some (tensor3 p), some (tensor3 q), S, D⟩ = .ok ⟨some (tensor3 p), some (tensor3 q), S ++ S', D ++ D'⟩ ∧
      List.Forall₂ (IsStaticImage L src mic pre annotate) (if enabled ∧ v ≤ d then [v] else []) S' ∧
      List.Forall₂ (IsDynamicImage L src mic p q pre step annotate) (if enabled ∧ v ≤ d then [v] else []) D' := by
  unfold renderView
  rw [size_numel]
  by_cases h : enabled = true ∧ v ≤ d
  · rw [if_neg (by rintro (h' | h') <;> [simp [h.1] at h'; omega]), if_pos h]
    obtain ⟨marks, h1, -⟩ := C79_static (min_view hv h.2) (cut v L) (fun i => cut v (src i))
      (fun i => cut v (mic i)) annotate
    obtain ⟨marks', h2, -⟩ := C80_dynamic (min_view hv h.2) hT hT' hn hm (cut v L)
      (fun t i => cut v (p t i)) (fun t i => cut v (q t i)) (some fun i => cut v (src i))
      (some fun i => cut v (mic i)) step hs annotate
    refine ⟨[(pre ++ "_static_" ++ toString v ++ "d.png", marks)],
      [(pre ++ "_dynamic_" ++ toString v ++ "d.png", marks')], ?_, .cons ⟨rfl, h1⟩ .nil, .cons ⟨rfl, h2⟩ .nil⟩
    rw [sliceLast_size, sliceLast_tensor2, sliceLast_tensor2, h1, ok_bind]
    unfold renderDynamic
    dsimp only
    rw [vizSteps_source, ok_bind, trajectoryToCpu_some, ok_bind, trajectoryToCpu_some, ok_bind, sliceLast_size,
      sliceLast_tensor3, sliceLast_tensor3, sliceLast_tensor2, sliceLast_tensor2]
    simp only [Option.map_some] at h2
    rw [h2]
    rfl
  · rw [if_pos (by by_contra h'; push Not at h'; exact h ⟨by simpa using h'.1, by omega⟩), if_neg h]
    exact ⟨[], [], by simp, .nil, .nil⟩

theorem views_eq {d : ℕ} (hd : d = 2 ∨ d = 3) (plot2d plot3d : Bool) : views d plot2d plot3d =
    (if plot2d ∧ 2 ≤ d then [2] else []) ++ (if plot3d ∧ 3 ≤ d then [3] else []) := by
  rcases hd with rfl | rfl <;> simp [views]

/-- **C81, scenes at rest.** Without trajectories one static image per view is saved, showing the
scene's first two or three coordinates, and no dynamic image. -/
theorem C81_static {d n m : ℕ} (hd : d = 2 ∨ d = 3) (L : Fin d → ℝ) (src : Fin n → Fin d → ℝ)
    (mic : Fin m → Fin d → ℝ) (pre : String) (step : ℕ) (plot2d plot3d annotate : Bool) :
    ∃ statics, renderScenePlots (sizeTensor L) (tensor2 src) (tensor2 mic) none none pre step plot2d plot3d annotate
        = .ok (statics, []) ∧
      List.Forall₂ (IsStaticImage L src mic pre annotate) (views d plot2d plot3d) statics := by
  obtain ⟨S, h1, hS⟩ := renderView_static L src mic pre step annotate plot2d 2 (Or.inl rfl) [] []
  obtain ⟨S', h2, hS'⟩ := renderView_static L src mic pre step annotate plot3d 3 (Or.inr rfl) ([] ++ S) []
  refine ⟨[] ++ S ++ S', ?_, ?_⟩
  · unfold renderScenePlots
    rw [positionsToCpu_tensor2, positionsToCpu_tensor2, h1, ok_bind, h2]
    rfl
  · rw [views_eq hd, List.nil_append]
    exact List.rel_append hS hS'

/-- **C81, moving scenes.** With trajectories every view also gets a dynamic image, of the given
trajectories and positions cut to the view's coordinates; that the loop replaces its trajectories
after the first view changes nothing. -/
theorem C81_dynamic {d n m T T' : ℕ} (hd : d = 2 ∨ d = 3) (hT : 0 < T) (hT' : 0 < T') (hn : 0 < n) (hm : 0 < m)
    (L : Fin d → ℝ) (src : Fin n → Fin d → ℝ) (mic : Fin m → Fin d → ℝ) (p : Fin T → Fin n → Fin d → ℝ)
    (q : Fin T' → Fin m → Fin d → ℝ) (pre : String) (step : ℕ) (hs : 0 < step) (plot2d plot3d annotate : Bool) :
    ∃ statics dynamics, renderScenePlots (sizeTensor L) (tensor2 src) (tensor2 mic) (some (tensor3 p))
        (some (tensor3 q)) pre step plot2d plot3d annotate = .ok (statics, dynamics) ∧
      List.Forall₂ (IsStaticImage L src mic pre annotate) (views d plot2d plot3d) statics ∧
      List.Forall₂ (IsDynamicImage L src mic p q pre step annotate) (views d plot2d plot3d) dynamics := by
  obtain ⟨S, D, h1, hS, hD⟩ := renderView_dynamic hT hT' hn hm L src mic p q pre step hs annotate plot2d 2
    (Or.inl rfl) [] []
  obtain ⟨S', D', h2, hS', hD'⟩ := renderView_dynamic hT hT' hn hm L src mic p q pre step hs annotate plot3d 3
    (Or.inr rfl) ([] ++ S) ([] ++ D)
  refine ⟨[] ++ S ++ S', [] ++ D ++ D', ?_, ?_, ?_⟩
  · unfold renderScenePlots
    rw [positionsToCpu_tensor2, positionsToCpu_tensor2, h1, ok_bind, h2]
    rfl
  · rw [views_eq hd, List.nil_append]
    exact List.rel_append hS hS'
  · rw [views_eq hd, List.nil_append]
    exact List.rel_append hD hD'

/-- A turn of the loop that is not skipped does not tell a missing trajectory from one at rest. -/
theorem renderDynamic_missing {d n m T : ℕ} (room : Tensor ℝ) (src : Fin n → Fin d → ℝ) (mic : Fin m → Fin d → ℝ)
    (pre : String) (step : ℤ) (annotate : Bool) (v : ℕ) (S D : List Image) :
    (∀ p : Fin T → Fin n → Fin d → ℝ,
      renderDynamic room (tensor2 src) (tensor2 mic) pre step annotate v ⟨some (tensor3 p), none, S, D⟩ =
      renderDynamic room (tensor2 src) (tensor2 mic) pre step annotate v
        ⟨some (tensor3 p), some (tensor3 fun _ : Fin T => mic), S, D⟩) ∧
    (∀ q : Fin T → Fin m → Fin d → ℝ,
      renderDynamic room (tensor2 src) (tensor2 mic) pre step annotate v ⟨none, some (tensor3 q), S, D⟩ =
      renderDynamic room (tensor2 src) (tensor2 mic) pre step annotate v
        ⟨some (tensor3 fun _ : Fin T => src), some (tensor3 q), S, D⟩) := by
  refine ⟨fun p => ?_, fun q => ?_⟩
  · unfold renderDynamic
    dsimp only
    rw [vizSteps_source, vizSteps_source, ok_bind, ok_bind, trajectoryToCpu_none, trajectoryToCpu_some,
      trajectoryToCpu_some]
  · unfold renderDynamic
    dsimp only
    rw [vizSteps_source, vizSteps_mic, ok_bind, ok_bind, trajectoryToCpu_none, trajectoryToCpu_some,
      trajectoryToCpu_some]

/-- If the two states agree wherever a dynamic image is drawn, the loop ends with the same images. -/
theorem render_congr (room src mic : Tensor ℝ) (pre : String) (step : ℤ) (plot2d plot3d annotate : Bool)
    (a b a' b' : Option (Tensor ℝ))
    (h : ∀ v S D, renderDynamic room (positionsToCpu src) (positionsToCpu mic) pre step annotate v ⟨a, b, S, D⟩ =
      renderDynamic room (positionsToCpu src) (positionsToCpu mic) pre step annotate v ⟨a', b', S, D⟩) :
    renderScenePlots room src mic a b pre step plot2d plot3d annotate =
    renderScenePlots room src mic a' b' pre step plot2d plot3d annotate := by
  unfold renderScenePlots renderView
  by_cases h2 : plot2d = false ∨ room.numel < 2
  · rw [if_pos h2, if_pos h2, ok_bind, ok_bind]
    by_cases h3 : plot3d = false ∨ room.numel < 3
    · rw [if_pos h3, if_pos h3]
      rfl
    · simp only [if_neg h3, h]
  · simp only [if_neg h2, h]

/-- **C81, one moving group.** If only one trajectory is given, the other group stays at its positions
for as many steps. -/
theorem C81_missing {d n m T : ℕ} (L : Fin d → ℝ) (src : Fin n → Fin d → ℝ) (mic : Fin m → Fin d → ℝ)
    (pre : String) (step : ℤ) (plot2d plot3d annotate : Bool) :
    (∀ p : Fin T → Fin n → Fin d → ℝ,
      renderScenePlots (sizeTensor L) (tensor2 src) (tensor2 mic) (some (tensor3 p)) none pre step plot2d plot3d
        annotate =
      renderScenePlots (sizeTensor L) (tensor2 src) (tensor2 mic) (some (tensor3 p))
        (some (tensor3 fun _ : Fin T => mic)) pre step plot2d plot3d annotate) ∧
    (∀ q : Fin T → Fin m → Fin d → ℝ,
      renderScenePlots (sizeTensor L) (tensor2 src) (tensor2 mic) none (some (tensor3 q)) pre step plot2d plot3d
        annotate =
      renderScenePlots (sizeTensor L) (tensor2 src) (tensor2 mic) (some (tensor3 fun _ : Fin T => src))
        (some (tensor3 q)) pre step plot2d plot3d annotate) := by
  refine ⟨fun p => render_congr _ _ _ _ _ _ _ _ _ _ _ _ fun v S D => ?_,
    fun q => render_congr _ _ _ _ _ _ _ _ _ _ _ _ fun v S D => ?_⟩
  · rw [positionsToCpu_tensor2, positionsToCpu_tensor2]
    exact (renderDynamic_missing _ src mic pre step annotate v S D).1 p
  · rw [positionsToCpu_tensor2, positionsToCpu_tensor2]
    exact (renderDynamic_missing _ src mic pre step annotate v S D).2 q

/-- A source moving through a room with a microphone at rest: two static and two dynamic images, and
the microphone has no path on them. -/
example : ∃ statics dynamics, renderScenePlots (sizeTensor ![6, 4, 3]) (tensor2 ![![1, 2, 1]])
      (tensor2 ![![3, 2, 1]]) (some (tensor3 ![![![1, 2, 1]], ![![2, 2, 1]]])) none "scene" 1
      = .ok (statics, dynamics) ∧
    statics.map Prod.fst = ["scene_static_2d.png", "scene_static_3d.png"] ∧
    dynamics.map Prod.fst = ["scene_dynamic_2d.png", "scene_dynamic_3d.png"] := by
  have hm := (C81_missing ![6, 4, 3] ![![1, 2, 1]] ![![3, 2, 1]] "scene" 1 true true true).1
    ![![![1, 2, 1]], ![![2, 2, 1]]]
  obtain ⟨S, D, h, hS, hD⟩ := C81_dynamic (Or.inr rfl) (by norm_num) (by norm_num) one_pos one_pos ![6, 4, 3]
    ![![1, 2, 1]] ![![3, 2, 1]] ![![![1, 2, 1]], ![![2, 2, 1]]] (fun _ : Fin 2 => ![![3, 2, 1]]) "scene" 1 one_pos
    true true true
  refine ⟨S, D, hm.trans h, ?_, ?_⟩
  · simp only [views, if_true, and_self, List.cons_append, List.nil_append] at hS
    rcases hS with _ | ⟨h1, _ | ⟨h2, ⟨⟩⟩⟩
    simp only [List.map_cons, List.map_nil, h1.1, h2.1]
    decide
  · simp only [views, if_true, and_self, List.cons_append, List.nil_append] at hD
    rcases hD with _ | ⟨h1, _ | ⟨h2, ⟨⟩⟩⟩
    simp only [List.map_cons, List.map_nil, h1.1, h2.1]
    decide

end Torchrir.Props
