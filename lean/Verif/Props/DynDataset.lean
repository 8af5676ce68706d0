import Verif.Model.DynDataset
import Verif.Spec.DynDataset
import Verif.Props.CliScene
import Verif.Props.Audio

/-! # C90: the script that builds a dynamic dataset -/

namespace Torchrir.Props

open Torchrir.Model Torchrir.Lemmas
open Torchrir.Spec

/-! ## Microphones -/

theorem datasetMics_line {d : ℕ} (hd : 0 < d) (L c : Fin d → ℝ) {M : ℕ} (hM : 0 < M) (h2 : M ≠ 2) :
    ∃ line mic : Fin M → Fin d → ℝ, datasetMics (List.ofFn L) (List.ofFn c) M = .ok (rows mic) ∧
      EvenLine line c (Pi.single ⟨0, hd⟩ 1) 0.08 ∧
      (∀ m i, line m i = c i + (((m : ℝ) - ((M : ℝ) - 1) / 2) * 0.08) * (Pi.single ⟨0, hd⟩ 1 : Fin d → ℝ) i) ∧
      ∀ m i, mic m i = max (min (line m i) (L i - 0.1)) 0.1 := by
  have hu : linearDirection ⟨.floating, List.ofFn c⟩ 0 none
      = .ok (List.ofFn (Pi.single ⟨0, hd⟩ 1 : Fin d → ℝ)) := by
    unfold linearDirection
    dsimp only
    rw [if_neg (by simp only [List.length_ofFn]; omega), List.length_ofFn]
    have := set_replicate_ofFn (⟨0, hd⟩ : Fin d) 1
    dsimp only at this
    rw [show Int.toNat 0 = 0 from rfl, this]
    refine congrArg (fun f => Except.ok (List.ofFn f)) (funext fun i => ?_)
    rw [Pi.single_apply]
  have h := linearArray_ok ⟨.floating, List.ofFn c⟩ M hM 0.08 (by norm_num) 0 none c _ rfl hu
  obtain ⟨line, hl, he⟩ := C42_linear_axis .floating c ⟨0, hd⟩ M hM 0.08 (by norm_num)
  have e : line = _ := rows_injective (Except.ok.inj (hl.symm.trans h))
  refine ⟨line, _, ?_, he, fun m i => by rw [e], fun m i => rfl⟩
  unfold datasetMics datasetArray
  rw [raiseIf_neg (by omega), ok_bind, if_neg (by exact_mod_cast h2)]
  have hl : linearArray ⟨.floating, List.ofFn c⟩ M 0.08 0 = .ok (rows line) := hl
  rw [hl, ok_bind]
  refine congrArg Except.ok ?_
  unfold clampTo
  rw [clampPositions_rows]
  rfl

/-- **C90, microphones.** In a room with sides of at least 1 m the script places exactly the requested number of
microphones around the drawn centre, inside the room; a number that is not positive is rejected. -/
theorem C90_microphones {d : ℕ} (hd : 0 < d) (L c : Fin d → ℝ) (hL : ∀ i, 1 ≤ L i) (hc : Within L 0.5 c)
    (num : ℤ) :
    (num ≤ 0 → ∃ e, datasetMics (List.ofFn L) (List.ofFn c) num = .error e) ∧
    ∀ M : ℕ, num = M → 0 < M → ∃ mic : Fin M → Fin d → ℝ,
      datasetMics (List.ofFn L) (List.ofFn c) num = .ok (rows mic) ∧ DatasetMics hd L c mic ∧
      ∀ m, Within L 0.1 (mic m) := by
  refine ⟨fun h => ?_, ?_⟩
  · unfold datasetMics
    rw [raiseIf, if_pos h]
    exact ⟨_, rfl⟩
  · rintro M rfl hM
    by_cases h2 : M = 2
    · subst h2
      obtain ⟨mic, hm, he⟩ := ears_eq hd c
      have hw := ears_within hc he
      refine ⟨mic, ?_, .ears mic he, fun m => within_mono (by norm_num) (hw m)⟩
      unfold datasetMics datasetArray
      rw [raiseIf_neg (by norm_num), ok_bind, if_pos (by norm_num)]
      have hm : binauralArray ⟨.floating, List.ofFn c⟩ 0.08 = .ok (rows mic) := hm
      rw [hm, ok_bind, clampTo_eq hL fun m => within_mono (by norm_num) (hw m)]
      rfl
    · obtain ⟨line, mic, h, he, -, hn⟩ := datasetMics_line hd L c hM h2
      refine ⟨mic, h, .line h2 line mic he hn, fun m i => ?_⟩
      rw [hn]
      exact ⟨le_max_right _ _, max_le (min_le_right _ _) (by linarith [hL i])⟩

/-- **C90, even lines.** Up to eleven microphones (other than two) stand on a line with neighbours exactly 8 cm apart,
centred at the drawn point. -/
theorem C90_even_line {d : ℕ} (hd : 0 < d) (L c : Fin d → ℝ) (hc : Within L 0.5 c) {M : ℕ}
    (h0 : 0 < M) (h2 : M ≠ 2) (h11 : M ≤ 11) :
    ∃ mic : Fin M → Fin d → ℝ, datasetMics (List.ofFn L) (List.ofFn c) M = .ok (rows mic) ∧
      EvenLine mic c (Pi.single ⟨0, hd⟩ 1) 0.08 := by
  obtain ⟨line, mic, h, he, hl, hn⟩ := datasetMics_line hd L c h0 h2
  refine ⟨mic, h, ?_⟩
  have : mic = line := by
    funext m i
    have h1 := (hc i).1
    have h3 := (hc i).2
    have hm : ((m : ℕ) : ℝ) + 1 ≤ M := by exact_mod_cast m.isLt
    have hm0 : (0 : ℝ) ≤ (m : ℕ) := Nat.cast_nonneg _
    have hM : (M : ℝ) ≤ 11 := by exact_mod_cast h11
    have hb : 0.1 ≤ line m i ∧ line m i ≤ L i - 0.1 := by
      rw [hl, Pi.single_apply]
      split_ifs
      · constructor <;> linarith
      · constructor <;> linarith
    rw [hn, min_eq_left hb.2, max_eq_left hb.1]
  rw [this]
  exact he

/-- **C90 fails for long lines.** With fourteen or more microphones around a centre half a metre from the wall, the
first two microphones coincide: the line leaves the room and is pushed back into it. -/
theorem C90_long_line_fails {d : ℕ} (hd : 0 < d) (L c : Fin d → ℝ) (hL : ∀ i, 1 ≤ L i)
    (h0 : c ⟨0, hd⟩ = 0.5) {M : ℕ} (hM : 14 ≤ M) :
    ∃ mic : Fin M → Fin d → ℝ, datasetMics (List.ofFn L) (List.ofFn c) M = .ok (rows mic) ∧
      mic ⟨0, by omega⟩ = mic ⟨1, by omega⟩ := by
  obtain ⟨line, mic, h, he, hl, hn⟩ := datasetMics_line hd L c (M := M) (by omega) (by omega)
  refine ⟨mic, h, funext fun i => ?_⟩
  have hM' : (14 : ℝ) ≤ M := by exact_mod_cast hM
  rw [hn, hn, hl, hl, Pi.single_apply]
  split_ifs with hi
  · subst hi
    rw [h0]
    have hLi := hL ⟨0, hd⟩
    push_cast
    rw [min_eq_left (by linarith), min_eq_left (by linarith), max_eq_right (by linarith), max_eq_right (by linarith)]
  · simp

/-! ## Motion -/

theorem drawTarget_ok {g : Gen} (hg : FairGen g) {d : ℕ} {L : Fin d → ℝ} (hL : ∀ i, 1 ≤ L i) {k k' : ℕ} {v : Vec}
    (h : drawTarget g (List.ofFn L) k = .ok (v, k')) : ∃ p : Fin d → ℝ, v = List.ofFn p ∧ TalkerSpot L p := by
  unfold drawTarget at h
  obtain ⟨⟨ps, k1⟩, hp, h⟩ := (bind_eq_ok _ _ _).mp h
  obtain ⟨p, rfl, hs⟩ := sampleZ_ok hg.unit hL hp
  refine ⟨p 0, ?_, hs 0⟩
  cases h
  simp [rows]

theorem drawTarget_total (g : Gen) {d : ℕ} (L : Fin d → ℝ) (k : ℕ) :
    ∃ out, drawTarget g (List.ofFn L) k = .ok out := by
  unfold drawTarget
  obtain ⟨out, h⟩ := sampleZ_total g.value L one_pos k
  rw [h]
  exact ⟨_, rfl⟩

theorem linear_total (a b : Vec) {T : ℤ} (hT : 2 ≤ T) : ∃ out, linearTrajectory a b T = .ok out := by
  unfold linearTrajectory
  rw [if_neg (by omega), if_neg (by omega)]
  exact ⟨_, rfl⟩

theorem join_legs {d A B : ℕ} (p : Fin (A + 1) → Fin d → ℝ) (q : Fin (B + 1) → Fin d → ℝ) :
    (rows p).dropLast ++ rows q = rows fun t : Fin (A + B + 1) =>
      if h : (t : ℕ) < A then p ⟨t, by omega⟩ else q ⟨t - A, by omega⟩ := by
  apply List.ext_getElem
  · simp [rows]
    omega
  · intro t h1 h2
    simp only [rows, List.length_ofFn] at h2
    by_cases ht : t < A
    · rw [List.getElem_append_left (by simp [rows]; omega)]
      simp only [rows, List.getElem_dropLast, List.getElem_ofFn, dif_pos ht]
    · rw [List.getElem_append_right (by simp [rows]; omega)]
      simp only [rows, List.getElem_ofFn, dif_neg ht, List.length_dropLast, List.length_ofFn, Nat.add_sub_cancel]

theorem legs_between {d T turn : ℕ} (h1 : 1 ≤ turn) (h2 : turn + 1 < T) {a b e : Fin d → ℝ} {lo hi : ℝ}
    {p : Fin T → Fin d → ℝ} (hp : TwoLegPath turn a b e p) (t : Fin T) (i : Fin d) (ha : lo ≤ a i ∧ a i ≤ hi)
    (hb : lo ≤ b i ∧ b i ≤ hi) (he : lo ≤ e i ∧ e i ≤ hi) : lo ≤ p t i ∧ p t i ≤ hi := by
  have h1' : (1 : ℝ) ≤ turn := by exact_mod_cast h1
  have h2' : (turn : ℝ) + 2 ≤ T := by exact_mod_cast h2
  have ht : ((t : ℕ) : ℝ) + 1 ≤ T := by exact_mod_cast t.isLt
  rcases le_total (t : ℕ) turn with h | h
  · have h' : ((t : ℕ) : ℝ) ≤ turn := by exact_mod_cast h
    have u1 : (t : ℝ) / turn ≤ 1 := (div_le_one (by linarith)).mpr h'
    have u0 : (0 : ℝ) ≤ (t : ℝ) / turn := by positivity
    rw [(hp t i).1 h]
    constructor <;> nlinarith [ha.1, ha.2, hb.1, hb.2]
  · have h' : (turn : ℝ) ≤ (t : ℕ) := by exact_mod_cast h
    have u1 : ((t : ℝ) - turn) / ((T : ℝ) - 1 - turn) ≤ 1 := (div_le_one (by linarith)).mpr (by linarith)
    have u0 : (0 : ℝ) ≤ ((t : ℝ) - turn) / ((T : ℝ) - 1 - turn) := div_nonneg (by linarith) (by linarith)
    rw [(hp t i).2 h]
    constructor <;> nlinarith [he.1, he.2, hb.1, hb.2]

theorem straight_spot {d T : ℕ} (hT : 2 ≤ T) {L a b : Fin d → ℝ} (ha : TalkerSpot L a) (hb : TalkerSpot L b)
    {p : Fin T → Fin d → ℝ} (hp : StraightPath a b p) (t : Fin T) : TalkerSpot L (p t) :=
  ⟨path_within hT ha.1 hb.1 hp t, fun h2 hl => path_between hT hp t _ (ha.2 h2 hl) (hb.2 h2 hl)⟩

theorem legs_spot {d T turn : ℕ} (h1 : 1 ≤ turn) (h2 : turn + 1 < T) {L a b e : Fin d → ℝ} (ha : TalkerSpot L a)
    (hb : TalkerSpot L b) (he : TalkerSpot L e) {p : Fin T → Fin d → ℝ} (hp : TwoLegPath turn a b e p) (t : Fin T) :
    TalkerSpot L (p t) :=
  ⟨fun i => legs_between h1 h2 hp t i (ha.1 i) (hb.1 i) (he.1 i),
    fun hz hl => legs_between h1 h2 hp t _ (ha.2 hz hl) (hb.2 hz hl) (he.2 hz hl)⟩

theorem zigzag_legs {d T : ℕ} (hT : 3 ≤ T) (a b e : Fin d → ℝ) :
    ∃ (f s : List Vec) (p : Fin T → Fin d → ℝ),
      linearTrajectory (List.ofFn a) (List.ofFn b) (max 2 ((T : ℤ) / 2)) = .ok f ∧
      linearTrajectory (List.ofFn b) (List.ofFn e) ((T : ℤ) - max 2 ((T : ℤ) / 2) + 1) = .ok s ∧
      f.dropLast ++ s = rows p ∧ TwoLegPath (max 2 (T / 2) - 1) a b e p := by
  obtain ⟨A, hA⟩ : ∃ A, max 2 (T / 2) = A + 1 := ⟨max 2 (T / 2) - 1, by omega⟩
  obtain ⟨B, hB⟩ : ∃ B, T = A + B + 1 := ⟨T - A - 1, by omega⟩
  have hA1 : 1 ≤ A := by omega
  have hB1 : 1 ≤ B := by omega
  obtain ⟨p, hp, pp⟩ := linear_eq (T := A + 1) (by omega) a b
  obtain ⟨q, hq, qq⟩ := linear_eq (T := B + 1) (by omega) b e
  have e1 : max 2 ((T : ℤ) / 2) = ((A + 1 : ℕ) : ℤ) := by
    rw [← hA]
    push_cast
    rfl
  have e2 : (T : ℤ) - max 2 ((T : ℤ) / 2) + 1 = ((B + 1 : ℕ) : ℤ) := by
    rw [e1, hB]
    push_cast
    ring
  rw [e1, show (T : ℤ) - ((A + 1 : ℕ) : ℤ) + 1 = ((B + 1 : ℕ) : ℤ) by rw [← e1]; exact e2]
  subst hB
  refine ⟨rows p, rows q, _, hp, hq, join_legs p q, ?_⟩
  rw [hA, Nat.add_sub_cancel]
  have hA0 : (A : ℝ) ≠ 0 := by exact_mod_cast (by omega : A ≠ 0)
  intro t i
  beta_reduce
  constructor
  · intro ht
    rcases ht.lt_or_eq with h | h
    · rw [dif_pos h, pp]
      push_cast
      rw [add_sub_cancel_right]
    · rw [dif_neg (by omega), qq]
      simp only [h]
      rw [div_self hA0]
      simp
  · intro ht
    rw [dif_neg (by omega), qq]
    simp only
    rw [Nat.cast_sub ht]
    push_cast
    congr 3
    ring

theorem randomTrajectory_ok {g : Gen} (hg : FairGen g) {d T : ℕ} (hT : 2 ≤ T) {L start : Fin d → ℝ}
    (hL : ∀ i, 1 ≤ L i) (hs : TalkerSpot L start) {k k' : ℕ} {traj : List Vec} {mode : String}
    (h : randomTrajectory g (List.ofFn start) (List.ofFn L) T k = .ok (traj, mode, k')) :
    ∃ p : Fin T → Fin d → ℝ, traj = rows p ∧ SourceWalk L start p mode ∧ mode ≠ "static" ∧ ∀ t, TalkerSpot L (p t) := by
  unfold randomTrajectory at h
  split_ifs at h
  · unfold zigzagTrajectory at h
    obtain ⟨⟨mv, k1⟩, hm, h⟩ := (bind_eq_ok _ _ _).mp h
    obtain ⟨mid, rfl, hmid⟩ := drawTarget_ok hg hL hm
    obtain ⟨⟨sv, k2⟩, he, h⟩ := (bind_eq_ok _ _ _).mp h
    obtain ⟨stop, rfl, hstop⟩ := drawTarget_ok hg hL he
    dsimp only at h
    obtain ⟨f, hf, h⟩ := (bind_eq_ok _ _ _).mp h
    obtain ⟨s, hs', h⟩ := (bind_eq_ok _ _ _).mp h
    have hT3 : 3 ≤ T := by
      by_contra hlt
      obtain rfl : T = 2 := by omega
      cases hs'
    obtain ⟨f', s', p, hf', hs'', hj, hp⟩ := zigzag_legs hT3 start mid stop
    rw [hf'] at hf
    rw [hs''] at hs'
    cases hf
    cases hs'
    cases h
    exact ⟨p, hj, .zigzag mid stop hmid hstop hp, by decide,
      legs_spot (by omega) (by omega) hs hmid hstop hp⟩
  · unfold straightTrajectory at h
    obtain ⟨⟨sv, k2⟩, he, h⟩ := (bind_eq_ok _ _ _).mp h
    obtain ⟨stop, rfl, hstop⟩ := drawTarget_ok hg hL he
    dsimp only at h
    obtain ⟨p, hp, pp⟩ := linear_eq hT start stop
    rw [hp, ok_bind] at h
    cases h
    exact ⟨p, rfl, .linear stop hstop pp, by decide, straight_spot hT hs hstop pp⟩

theorem sourceMotions_ok {g : Gen} (hg : FairGen g) {d T : ℕ} (hT : 2 ≤ T) {L : Fin d → ℝ}
    (hL : ∀ i, 1 ≤ L i) (moving : List ℕ) : ∀ {n : ℕ} (start : Fin n → Fin d → ℝ) (_ : ∀ s, TalkerSpot L (start s))
    (idx k : ℕ) (trajs : List (List Vec)) (modes : List String)
    (_ : sourceMotions g (List.ofFn L) T moving (rows start) idx k = .ok (trajs, modes)),
    ∃ (p : Fin n → Fin T → Fin d → ℝ) (mode : Fin n → String), trajs = List.ofFn (fun s => rows (p s)) ∧
      modes = List.ofFn mode ∧ ∀ s, SourceWalk L (start s) (p s) (mode s) ∧
        (mode s = "static" ↔ idx + s ∉ moving) ∧ ∀ t, TalkerSpot L (p s t) := by
  intro n
  induction n with
  | zero =>
    intro start _ idx k trajs modes h
    simp only [rows, List.ofFn_zero] at h
    cases h
    exact ⟨fun s => s.elim0, fun s => s.elim0, by simp, by simp, fun s => s.elim0⟩
  | succ n ih =>
    intro start hs idx k trajs modes h
    simp only [rows, List.ofFn_succ] at h
    unfold sourceMotions at h
    obtain ⟨⟨traj, mode, k1⟩, h1, h⟩ := (bind_eq_ok _ _ _).mp h
    obtain ⟨⟨trajs', modes'⟩, h2, h⟩ := (bind_eq_ok _ _ _).mp h
    obtain ⟨p, m, rfl, rfl, hp⟩ := ih (fun s => start s.succ) (fun s => hs s.succ) (idx + 1) k1 trajs' modes' h2
    cases h
    have : ∃ p0 : Fin T → Fin d → ℝ, traj = rows p0 ∧ SourceWalk L (start 0) p0 mode ∧
        (mode = "static" ↔ idx ∉ moving) ∧ ∀ t, TalkerSpot L (p0 t) := by
      unfold sourceMotion at h1
      split_ifs at h1 with hm
      · obtain ⟨p0, hp0, hmo, hne, hsp⟩ := randomTrajectory_ok hg hT hL (hs 0) h1
        exact ⟨p0, hp0, hmo, by simp [hne, hm], hsp⟩
      · cases h1
        refine ⟨fun _ => start 0, ?_, .static fun _ => rfl, by simp [hm], fun _ => hs 0⟩
        simp [rows, List.ofFn_const]
    obtain ⟨p0, rfl, hmo, hst, hsp⟩ := this
    refine ⟨Fin.cons p0 p, Fin.cons mode m, by simp [List.ofFn_succ], by simp [List.ofFn_succ], ?_⟩
    intro s
    refine Fin.cases ?_ (fun s => ?_) s
    · simpa using ⟨hmo, hst, hsp⟩
    · obtain ⟨q1, q2, q3⟩ := hp s
      simp only [Fin.cons_succ, Fin.val_succ]
      refine ⟨q1, ?_, q3⟩
      rw [q2, show idx + 1 + (s : ℕ) = idx + (s + 1) by ring]

theorem sorted_sample {l : List ℕ} (h : l.Nodup) : (l.mergeSort (· ≤ ·)).Pairwise (· < ·) := by
  have h1 : (l.mergeSort (· ≤ ·)).Pairwise (· ≤ ·) := by
    have := List.pairwise_mergeSort (le := fun a b : ℕ => decide (a ≤ b))
      (fun a b c => by simp only [decide_eq_true_eq]; exact le_trans)
      (fun a b => by simpa using le_total a b) l
    simpa using this
  have h2 : (l.mergeSort (· ≤ ·)).Nodup := (List.mergeSort_perm l _).nodup_iff.mpr h
  exact (h1.and h2).imp fun h => lt_of_le_of_ne h.1 h.2

theorem chooseMoving_ok {g : Gen} (hg : FairGen g) (n : ℕ) (num : ℤ) (k : ℕ) :
    (chooseMoving g n num k).1.Nodup ∧ ((chooseMoving g n num k).1.length : ℤ) = max 0 (min (n : ℤ) num) ∧
      ∀ i ∈ (chooseMoving g n num k).1, i < n := by
  unfold chooseMoving
  dsimp only
  split_ifs with h
  · obtain ⟨h1, h2, h3⟩ := hg.sample k n (max 0 (min (n : ℤ) num)).toNat (by omega)
    exact ⟨h1, by rw [h2]; omega, h3⟩
  · exact ⟨List.nodup_nil, by simp only [List.length_nil]; push_cast; omega, by simp⟩

/-- **C90, motion.** Every source starts at least 1.5 m from the microphones' centre. The reported moving sources are
`max(0, min(num_sources, num_moving_sources))` different ones in increasing order; exactly the others stand still. The
moving ones walk straight, or in two straight legs, as their reported mode says. All sources stay 0.5 m from the walls
and at the height of a talker at every step. -/
theorem C90_motion {g : Gen} (hg : FairGen g) {d T : ℕ} (hT : 2 ≤ T) (L c : Fin d → ℝ) (hL : ∀ i, 1 ≤ L i)
    (n : ℕ) (num : ℤ) (k : ℕ) (traj : List (List Vec)) (modes : List String) (moving : List ℕ)
    (h : buildSourceTrajectories g n num (List.ofFn L) (List.ofFn c) T k = .ok (traj, modes, moving)) :
    ∃ (src : Fin T → Fin n → Fin d → ℝ) (mode : Fin n → String),
      traj = Spec.steps src ∧ modes = List.ofFn mode ∧ SceneMotion L c num src mode moving := by
  unfold buildSourceTrajectories at h
  obtain ⟨⟨ps, k1⟩, hps, h⟩ := (bind_eq_ok _ _ _).mp h
  obtain ⟨start, rfl, hstart⟩ := drawTalkers_ok hg.unit hL hps
  dsimp only at h
  obtain ⟨c1, c2, c3⟩ := chooseMoving_ok hg n num k1
  obtain ⟨⟨trajs, ms⟩, ht, h⟩ := (bind_eq_ok _ _ _).mp h
  obtain ⟨p, mode, rfl, rfl, hp⟩ := sourceMotions_ok hg hT hL _ start (fun s => (hstart s).1) 0 _ trajs ms ht
  dsimp only at h
  rw [raiseIf_bind_ok, Int.toNat_natCast, stackSecond_eq,
    clampSteps hL fun t s => within_mono (by norm_num : (0.1 : ℝ) ≤ 0.5) ((hp s).2.2 t).1] at h
  have hperm := List.mergeSort_perm (chooseMoving g n num k1).1 (fun a b => decide (a ≤ b))
  obtain ⟨-, h⟩ := h
  cases h
  have hfirst : ∀ s (first : Fin T), (first : ℕ) = 0 → p s first = start s := by
    intro s first h0
    have := (hp s).1
    generalize mode s = m at this
    cases this with
    | static h => exact h _
    | linear stop hs h =>
      funext i
      rw [h, h0]
      simp
    | zigzag mid stop hm hs h =>
      funext i
      rw [(h first i).1 (by rw [h0]; exact Nat.zero_le _), h0]
      simp
  refine ⟨fun t s => p s t, mode, rfl, rfl, sorted_sample c1, ?_, fun i hi => c3 i (hperm.mem_iff.mp hi),
    fun s first h0 => ?_, fun s first h0 => ?_, fun s => ?_, fun t s => (hp s).2.2 t⟩
  · rw [hperm.length_eq]
    exact c2
  · show 1.5 ≤ Spec.dist (p s first) c
    rw [hfirst s first h0]
    exact (hstart s).2
  · show SourceWalk L (p s first) (p s) (mode s)
    rw [hfirst s first h0]
    exact (hp s).1
  · rw [(hp s).2.1, zero_add, hperm.mem_iff]

theorem randomTrajectory_total (g : Gen) {d : ℕ} (L : Fin d → ℝ) (start : Vec) {T : ℤ} (hT : 2 ≤ T) {k : ℕ}
    (h : 3 ≤ T ∨ g.zigzag k = false) : ∃ out, randomTrajectory g start (List.ofFn L) T k = .ok out := by
  unfold randomTrajectory
  split_ifs with hz
  · have h3 : 3 ≤ T := by
      rcases h with h | h
      · exact h
      · rw [h] at hz
        cases hz
    unfold zigzagTrajectory
    obtain ⟨o1, h1⟩ := drawTarget_total g L (k + 1)
    rw [h1, ok_bind]
    obtain ⟨o2, h2⟩ := drawTarget_total g L o1.2
    dsimp only
    rw [h2, ok_bind]
    obtain ⟨o3, h3'⟩ := linear_total start o1.1 (T := max 2 (T / 2)) (by omega)
    obtain ⟨o4, h4⟩ := linear_total o1.1 o2.1 (T := T - max 2 (T / 2) + 1) (by omega)
    rw [h3', ok_bind, h4]
    exact ⟨_, rfl⟩
  · unfold straightTrajectory
    obtain ⟨o1, h1⟩ := drawTarget_total g L (k + 1)
    rw [h1, ok_bind]
    obtain ⟨o3, h3'⟩ := linear_total start o1.1 hT
    dsimp only
    rw [h3']
    exact ⟨_, rfl⟩

theorem sourceMotions_total (g : Gen) {d : ℕ} (L : Fin d → ℝ) {T : ℤ} (hT : 2 ≤ T)
    (h : 3 ≤ T ∨ ∀ k, g.zigzag k = false) (moving : List ℕ) : ∀ (starts : List Vec) (idx k : ℕ),
    ∃ out, sourceMotions g (List.ofFn L) T moving starts idx k = .ok out ∧ out.1.length = starts.length
  | [], _, _ => ⟨_, rfl, rfl⟩
  | start :: rest, idx, k => by
    unfold sourceMotions
    have : ∃ out, sourceMotion g (List.ofFn L) T moving start idx k = .ok out := by
      unfold sourceMotion
      split_ifs
      · exact randomTrajectory_total g L start hT (h.imp_right fun h => h k)
      · exact ⟨_, rfl⟩
    obtain ⟨o1, h1⟩ := this
    obtain ⟨o2, h2, hl⟩ := sourceMotions_total g L hT h moving rest (idx + 1) o1.2.2
    rw [h1, ok_bind]
    dsimp only
    rw [h2]
    exact ⟨_, rfl, by simp [hl]⟩

theorem talkers_count {r : ℕ → ℝ} {d : ℕ} {L c : Fin d → ℝ} {n k : ℕ} {out : List Vec × ℕ}
    (h : drawTalkers r n (List.ofFn L) (List.ofFn c) k = .ok out) : out.1.length = n := by
  obtain ⟨h1, h2⟩ := C46_min_distance_outcome r L c 1.5 (some (1.5, 1.8)) 0.5 1000 n k
  unfold drawTalkers at h
  rcases Nat.lt_or_ge (farCandidates (candidate r L (usableHeights L (some (1.5, 1.8)) 0.5) 0.5 k) c 1.5 1000).length n
    with hlt | hge
  · obtain ⟨e, he⟩ := h1 hlt
    rw [he] at h
    cases h
  · obtain ⟨k', -, h'⟩ := h2 hge
    rw [h'] at h
    cases h
    simpa using hge

/-- **C90, acceptance.** With at least three steps, or if no source picks the zigzag mode, the motion is found exactly
if there is at least one source and enough of the first 1000 points drawn are 1.5 m or more from the centre. -/
theorem C90_motion_outcome (g : Gen) {d T : ℕ} (hT : 2 ≤ T) (hz : 3 ≤ T ∨ ∀ k, g.zigzag k = false)
    (L c : Fin d → ℝ) (n : ℕ) (num : ℤ) (k : ℕ) :
    (∃ out, buildSourceTrajectories g n num (List.ofFn L) (List.ofFn c) T k = .ok out) ↔
      0 < n ∧ n ≤ (farCandidates (candidate g.value L (usableHeights L (some (1.5, 1.8)) 0.5) 0.5 k) c 1.5 1000).length := by
  rw [← drawTalkers_iff]
  unfold buildSourceTrajectories
  have hT' : (2 : ℤ) ≤ T := by exact_mod_cast hT
  have hz' : (3 : ℤ) ≤ T ∨ ∀ k, g.zigzag k = false := hz.imp_left fun h => by exact_mod_cast h
  constructor
  · rintro ⟨out, h⟩
    obtain ⟨o1, h1, h⟩ := (bind_eq_ok _ _ _).mp h
    refine ⟨?_, o1, h1⟩
    dsimp only at h
    obtain ⟨o2, h2, hl⟩ := sourceMotions_total g L hT' hz' (chooseMoving g n num o1.2).1 o1.1 0
      (chooseMoving g n num o1.2).2
    rw [h2, ok_bind, raiseIf_bind_ok] at h
    have := List.length_pos_iff.mpr h.1
    rwa [hl, talkers_count h1] at this
  · rintro ⟨hn, o1, h1⟩
    rw [h1, ok_bind]
    dsimp only
    obtain ⟨o2, h2, hl⟩ := sourceMotions_total g L hT' hz' (chooseMoving g n num o1.2).1 o1.1 0
      (chooseMoving g n num o1.2).2
    rw [h2, ok_bind, raiseIf_neg]
    · exact ⟨_, rfl⟩
    · intro h0
      rw [h0, talkers_count h1] at hl
      simp at hl
      omega

theorem zigzag_two_steps (g : Gen) (start size : Vec) (k : ℕ) :
    ∃ e, zigzagTrajectory g start size 2 k = .error e := by
  cases h : zigzagTrajectory g start size 2 k with
  | error e => exact ⟨e, rfl⟩
  | ok out =>
    exfalso
    unfold zigzagTrajectory at h
    obtain ⟨o1, h1, h⟩ := (bind_eq_ok _ _ _).mp h
    obtain ⟨o2, h2, h⟩ := (bind_eq_ok _ _ _).mp h
    dsimp only at h
    obtain ⟨o3, h3, h⟩ := (bind_eq_ok _ _ _).mp h
    obtain ⟨o4, h4, h⟩ := (bind_eq_ok _ _ _).mp h
    cases h4

theorem sourceMotions_two (g : Gen) (hz : ∀ k, g.zigzag k = true) (size : Vec) (moving : List ℕ) :
    ∀ (starts : List Vec) (idx k : ℕ), (∃ i ∈ moving, idx ≤ i ∧ i < idx + starts.length) →
      ∃ e, sourceMotions g size 2 moving starts idx k = .error e
  | [], idx, k, ⟨i, _, h1, h2⟩ => by simp at h2; omega
  | start :: rest, idx, k, ⟨i, hi, h1, h2⟩ => by
    unfold sourceMotions
    by_cases hm : idx ∈ moving
    · unfold sourceMotion
      rw [if_pos hm]
      unfold randomTrajectory
      rw [if_pos (hz k)]
      obtain ⟨e, he⟩ := zigzag_two_steps g start size (k + 1)
      rw [he]
      exact ⟨e, rfl⟩
    · have hne : idx ≠ i := fun h => hm (h ▸ hi)
      unfold sourceMotion
      rw [if_neg hm]
      obtain ⟨e, he⟩ := sourceMotions_two g hz size moving rest (idx + 1) k
        ⟨i, hi, by omega, by simp at h2; omega⟩
      rw [ok_bind]
      dsimp only
      rw [he]
      exact ⟨e, rfl⟩

/-- **C90 fails for two steps.** With `--steps 2` (or less) the second leg of a zigzag has a single point, which the
trajectory helper computes as `0 / 0`: no moving source that picks this mode gets a path. -/
theorem C90_two_steps_fails {g : Gen} (hg : FairGen g) (hz : ∀ k, g.zigzag k = true) {d : ℕ} (L c : Fin d → ℝ)
    (n : ℕ) (num : ℤ) (hn : 0 < n) (hm : 0 < num) (k : ℕ) :
    ∃ e, buildSourceTrajectories g n num (List.ofFn L) (List.ofFn c) 2 k = .error e := by
  unfold buildSourceTrajectories
  cases h1 : drawTalkers g.value n (List.ofFn L) (List.ofFn c) k with
  | error e => exact ⟨e, rfl⟩
  | ok o =>
    rw [ok_bind]
    dsimp only
    obtain ⟨c1, c2, c3⟩ := chooseMoving_ok hg n num o.2
    have hpos : 0 < (chooseMoving g n num o.2).1.length := by omega
    obtain ⟨i, hi⟩ := List.exists_mem_of_length_pos hpos
    obtain ⟨e, he⟩ := sourceMotions_two g hz (List.ofFn L) (chooseMoving g n num o.2).1 o.1 0
      (chooseMoving g n num o.2).2 ⟨i, hi, Nat.zero_le _, by rw [talkers_count h1]; have := c3 i hi; omega⟩
    rw [he]
    exact ⟨e, rfl⟩

/-! ## Audio -/

theorem signalOf_eq {S N : ℕ} (x : Fin S → Fin N → ℝ) (s : Fin S) :
    SignalIs (signalOf (tensor2 x) s) fun _ : Fin 1 => x s := by
  right
  refine ⟨rfl, ?_⟩
  unfold signalOf
  rw [tensor2_rows, Lemmas.rows_getD]
  simp [tensor2]

theorem rirsOf_eq {T S M K : ℕ} (h : Fin T → Fin S → Fin M → Fin K → ℝ) (s : Fin S) :
    rirsOf (tensor4 h) s = tensor4 fun t (_ : Fin 1) => h t s := by
  unfold rirsOf
  rw [tensor4_blocks]
  unfold tensor4
  dsimp only
  congr 1
  rw [List.flatMap_def, List.map_ofFn]
  congr 2
  funext t
  have : slice (s : ℕ) (s + 1) (List.ofFn fun i => List.ofFn fun j => List.ofFn (h t i j))
      = [List.ofFn fun j => List.ofFn (h t s j)] := by
    unfold slice
    apply List.ext_getElem
    · simp
    · intro k h1 h2
      obtain rfl : k = 0 := by simpa using h2
      simp
  simp only [Function.comp_apply]
  rw [this]
  simp [tensor3]

/-- **C90, audio.** The mixture is the sum of the references, and the reference of a source is its signal through its
responses, every sample passing through the responses of the step that is current. -/
theorem C90_audio {T S M N K : ℕ} (dev : DeviceType) (x : Fin S → Fin N → ℝ)
    (h : Fin T → Fin S → Fin M → Fin K → ℝ) (hT : 1 ≤ T) (hpos : 1 ≤ N + K) (step : Fin N → Fin T)
    (hstep : CurrentStep (fun t : Fin T => (t : ℕ) * N / T) step) :
    ∃ ref : Fin S → Fin M → ℕ → ℝ,
      sceneAudio dev S (tensor2 x) (tensor4 h) = .ok (micTensor (N + K - 1) fun m k => ∑ s, ref s m k,
        List.ofFn fun s => micTensor (N + K - 1) (ref s)) ∧
      ∀ s m k, ref s m k = ∑ j : Fin N, ∑ i : Fin K, if (j : ℕ) + i = k then x s j * h (step j) s m i else 0 := by
  refine ⟨fun s m k => ∑ j : Fin N, ∑ i : Fin K, if (j : ℕ) + i = k then x s j * h (step j) s m i else 0, ?_,
    fun _ _ _ => rfl⟩
  unfold sceneAudio
  rw [C24_trajectory_formula dev x h (Or.inl rfl) (Or.inl rfl) hT hpos (.uniform none) step hstep, ok_bind,
    mapM_ok_ofFn (fun s => ({} : Convolver).convolve dev (signalOf (tensor2 x) s) (rirsOf (tensor4 h) s)) S
      (fun s => micTensor (N + K - 1) fun m k => ∑ j : Fin N, ∑ i : Fin K,
        if (j : ℕ) + i = k then x s j * h (step j) s m i else 0)]
  · rfl
  · intro s
    rw [rirsOf_eq, C24_trajectory_formula dev _ _ (signalOf_eq x s) (Or.inl rfl) hT hpos (.uniform none) step hstep]
    congr 2
    funext m k
    simp [mixVarying]

theorem layout_mics {M : ℕ} (h1 : 1 ≤ M) (h8 : M ≤ 8) (len : ℕ) (y : Fin M → ℕ → ℝ) :
    ∃ x : ℕ → ℕ → ℝ, Layout (micTensor len y) M len x ∧ ∀ (m : Fin M) t, t < len → x m t = y m t := by
  have hlen : (tensor2 fun m (k : Fin len) => y m k).data.length = M * len := by
    simp [tensor2, List.sum_ofFn]
  have hval : ∀ (m : Fin M) t, t < len →
      (tensor2 fun m (k : Fin len) => y m k).data.getD (m * len + t) 0 = y m t := by
    intro m t ht
    unfold tensor2
    dsimp only
    rw [getD_flatten len 0 (List.ofFn fun i => List.ofFn fun k : Fin len => y i k)
      (fun r hr => by obtain ⟨i, rfl⟩ := (List.mem_ofFn' _ _).mp hr; simp) m t (by simp) ht]
    simp [ht]
  unfold micTensor
  by_cases hM : M = 1
  · subst hM
    rw [if_pos rfl]
    refine ⟨_, .mono len _ (by rw [hlen, one_mul]), fun m t ht => ?_⟩
    obtain rfl : m = 0 := Subsingleton.elim _ _
    have := hval 0 t ht
    simpa using this
  · rw [if_neg hM]
    exact ⟨_, .channelsFirst M len _ hlen h8, hval⟩

theorem save_mics {M : ℕ} (h1 : 1 ≤ M) (h8 : M ≤ 8) (len : ℕ) (y : Fin M → ℕ → ℝ) :
    ∃ f gain, saveAudio (micTensor len y) = .ok f ∧ SavedAs f M len y gain := by
  obtain ⟨x, hx, hv⟩ := layout_mics h1 h8 len y
  obtain ⟨f, g, hf, h2, h3, h4, h5, h6, h7⟩ := C63_normalized _ _ _ _ hx h1 1 one_pos
  have hs : ∀ (m : Fin M) t, t < len → f.at t m = g * y m t := fun m t ht => by
    rw [h5 t m ht m.isLt, hv m t ht]
  refine ⟨f, g, hf, h2, h3, hs, fun hz => ?_, fun ⟨m, t, ht, hne⟩ => ?_⟩
  · refine h6 fun t c ht hc => ?_
    have := hv ⟨c, hc⟩ t ht
    rw [← hz ⟨c, hc⟩ t ht]
    exact this
  · obtain ⟨p1, t', c', ht', hc', p2⟩ := h7 ⟨t, m, ht, m.isLt, by rw [hv m t ht]; exact hne⟩
    have e : |g * y ⟨c', hc'⟩ t'| = 1 := by
      rw [← hs ⟨c', hc'⟩ t' ht']
      exact p2
    refine ⟨lt_of_le_of_ne h4 fun h0 => ?_, fun m t ht => ?_, ⟨c', hc'⟩, t', ht', e⟩
    · rw [← h0, zero_mul, abs_zero] at e
      norm_num at e
    · rw [← hs m t ht]
      exact p1 t m ht m.isLt

theorem zipIdx_ofFn {α : Type} {n : ℕ} (f : Fin n → α) : (List.ofFn f).zipIdx = List.ofFn fun i => (f i, (i : ℕ)) := by
  apply List.ext_getElem <;> simp

/-- **C90, files.** With one to eight microphones, a scene writes one file per source and one for the mixture, each
holding its signal brought to a peak of 1. -/
theorem C90_files {S M : ℕ} (h1 : 1 ≤ M) (h8 : M ≤ 8) (idx len : ℕ) (y : Fin M → ℕ → ℝ)
    (ref : Fin S → Fin M → ℕ → ℝ) :
    ∃ (mixFile : AudioFile) (gain : ℝ) (refFile : Fin S → AudioFile) (refGain : Fin S → ℝ),
      sceneFiles idx (micTensor len y) (List.ofFn fun s => micTensor len (ref s))
        = .ok ((List.ofFn fun s : Fin S => (refName idx s, refFile s)) ++ [(mixName idx, mixFile)]) ∧
      SavedAs mixFile M len y gain ∧ ∀ s, SavedAs (refFile s) M len (ref s) (refGain s) := by
  obtain ⟨f, g, hf, hs⟩ := save_mics h1 h8 len y
  choose rf rg hrf hrs using fun s => save_mics h1 h8 len (ref s)
  refine ⟨f, g, rf, rg, ?_, hs, hrs⟩
  unfold sceneFiles
  rw [zipIdx_ofFn, mapM_ofFn_ok _ _ (fun s : Fin S => (refName idx s, rf s)), ok_bind, hf]
  · rfl
  · intro s
    dsimp only
    rw [hrf s]
    rfl

/-- **C90 fails for nine microphones and more.** The mixture is written with as many channels as it has samples and one
frame per microphone. -/
theorem C90_many_microphones_fails {S M : ℕ} (hM : 9 ≤ M) (idx : ℕ) {len : ℕ} (hlen : 1 ≤ len) (y : Fin M → ℕ → ℝ)
    (ref : Fin S → Fin M → ℕ → ℝ) :
    ∃ files f, sceneFiles idx (micTensor len y) (List.ofFn fun s => micTensor len (ref s)) = .ok files ∧
      files.getLast? = some (mixName idx, f) ∧ f.channels = len ∧ f.frames = M := by
  have hl : ∀ z : Fin M → ℕ → ℝ, (tensor2 fun m (k : Fin len) => z m k).data.length = M * len := by
    intro z
    simp [tensor2, List.sum_ofFn]
  have hsave : ∀ z : Fin M → ℕ → ℝ, ∃ f, saveAudio (micTensor len z) = .ok f ∧ f.channels = len ∧ f.frames = M := by
    intro z
    unfold micTensor
    rw [if_neg (by omega)]
    exact C64_many_channels_fails M len _ (hl z) hM hlen
  obtain ⟨f, hf, h1, h2⟩ := hsave y
  choose rf hrf _ using fun s => hsave (ref s)
  refine ⟨(List.ofFn fun s : Fin S => (refName idx s, rf s)) ++ [(mixName idx, f)], f, ?_, ?_, h1, h2⟩
  · unfold sceneFiles
    rw [zipIdx_ofFn, mapM_ofFn_ok _ _ (fun s : Fin S => (refName idx s, rf s)), ok_bind, hf]
    · rfl
    · intro s
      dsimp only
      rw [hrf s]
      rfl
  · simp

/-- **C90 fails for saved references.** Two sources that sound the same, heard directly: the mixture is the sum of the
references, but in the files all three are the same, because each is brought to a peak of 1 by itself. -/
theorem C90_saved_references_fails (dev : DeviceType) : ∃ y refs f0 f1 mix,
    sceneAudio dev 2 (tensor2 fun (_ : Fin 2) (_ : Fin 1) => 1)
      (tensor4 fun (_ : Fin 2) (_ : Fin 2) (_ : Fin 1) (_ : Fin 1) => 1) = .ok (y, refs) ∧
    sceneFiles 0 y refs = .ok [(refName 0 0, f0), (refName 0 1, f1), (mixName 0, mix)] ∧
    y.data = [2] ∧ refs.map (·.data) = [[1], [1]] ∧ f0.at 0 0 = 1 ∧ f1.at 0 0 = 1 ∧ mix.at 0 0 = 1 := by
  obtain ⟨step, hstep, -⟩ := C24_every_sample_has_one_step (T := 2) (N := 1) (by norm_num) (.uniform none)
  obtain ⟨ref, h, hr⟩ := C90_audio dev (fun (_ : Fin 2) (_ : Fin 1) => (1 : ℝ))
    (fun (_ : Fin 2) (_ : Fin 2) (_ : Fin 1) (_ : Fin 1) => (1 : ℝ)) (by norm_num) (by norm_num) step hstep
  have hr1 : ∀ s, ref s 0 0 = 1 := fun s => by rw [hr]; simp
  obtain ⟨mix, gain, rf, rg, hf, hs, hrs⟩ := C90_files (S := 2) (M := 1) le_rfl (by norm_num) 0 1
    (fun m k => ∑ s, ref s m k) ref
  refine ⟨_, _, rf 0, rf 1, mix, h, ?_, ?_, ?_, ?_, ?_, ?_⟩
  · rw [hf]
    rfl
  · simp [micTensor, tensor2, hr1]
    norm_num
  · simp [micTensor, tensor2, hr1]
  · have h1 := (hrs 0).samples 0 0 one_pos
    obtain ⟨g0, -, m, t, ht, g1⟩ := (hrs 0).peak ⟨0, 0, one_pos, by rw [hr1]; norm_num⟩
    obtain rfl : m = 0 := Subsingleton.elim _ _
    obtain rfl : t = 0 := by omega
    rw [hr1, mul_one, abs_of_pos g0] at g1
    rw [hr1, g1, mul_one] at h1
    exact h1
  · have h1 := (hrs 1).samples 0 0 one_pos
    obtain ⟨g0, -, m, t, ht, g1⟩ := (hrs 1).peak ⟨0, 0, one_pos, by rw [hr1]; norm_num⟩
    obtain rfl : m = 0 := Subsingleton.elim _ _
    obtain rfl : t = 0 := by omega
    rw [hr1, mul_one, abs_of_pos g0] at g1
    rw [hr1, g1, mul_one] at h1
    exact h1
  · have hsum : ∑ s, ref s 0 0 = 2 := by
      rw [Fin.sum_univ_two, hr1, hr1]
      norm_num
    have h1 := hs.samples 0 0 one_pos
    obtain ⟨g0, -, m, t, ht, g1⟩ := hs.peak ⟨0, 0, one_pos, by rw [hsum]; norm_num⟩
    obtain rfl : m = 0 := Subsingleton.elim _ _
    obtain rfl : t = 0 := by omega
    rw [hsum, abs_of_pos (by linarith)] at g1
    rw [hsum, g1] at h1
    exact h1

/-! ## File names -/

theorem zeroPadded_value (width n : ℕ) : Nat.ofDigitChars 10 (zeroPadded width n).toList 0 = n := by
  unfold zeroPadded
  rw [String.toList_append, String.toList_ofList, Nat.ofDigitChars_append, Nat.ofDigitChars_replicate_zero, Nat.mul_zero,
    Nat.toString_eq_repr, Nat.toList_repr, Nat.ofDigitChars_ten_toDigits]

theorem zeroPadded_digits (width n : ℕ) : ∀ c ∈ (zeroPadded width n).toList, c.isDigit := by
  intro c hc
  unfold zeroPadded at hc
  rw [String.toList_append, String.toList_ofList, List.mem_append] at hc
  rcases hc with hc | hc
  · rw [List.eq_of_mem_replicate hc]
    decide
  · rw [Nat.toString_eq_repr, Nat.toList_repr] at hc
    exact Nat.isDigit_of_mem_toDigits (by decide) (by decide) hc

theorem digits_split {a b : List Char} {c e : Char} {r t : List Char} (ha : ∀ x ∈ a, x.isDigit) (hb : ∀ x ∈ b, x.isDigit)
    (hc : c.isDigit = false) (he : e.isDigit = false) (h : a ++ c :: r = b ++ e :: t) : a = b ∧ c = e ∧ r = t := by
  have h1 := congrArg (List.takeWhile Char.isDigit) h
  rw [List.takeWhile_append_of_pos ha, List.takeWhile_append_of_pos hb, List.takeWhile_cons_of_neg (by simp [hc]),
    List.takeWhile_cons_of_neg (by simp [he]), List.append_nil, List.append_nil] at h1
  subst h1
  have := List.append_cancel_left h
  simpa using this

theorem mixName_chars (idx : ℕ) :
    (mixName idx).toList = "scene_".toList ++ ((zeroPadded 3 idx).toList ++ '.' :: "wav".toList) := by
  unfold mixName
  simp only [String.toList_append, List.append_assoc]
  rfl

theorem refName_chars (idx s : ℕ) : (refName idx s).toList = "scene_".toList ++ ((zeroPadded 3 idx).toList ++
    '_' :: ("ref".toList ++ ((zeroPadded 2 (s + 1)).toList ++ '.' :: "wav".toList))) := by
  unfold refName
  simp only [String.toList_append, List.append_assoc]
  rfl

/-- **C90, names.** All files of all scenes have different names. -/
theorem C90_file_names (i j s t : ℕ) : (mixName i = mixName j ↔ i = j) ∧
    (refName i s = refName j t ↔ i = j ∧ s = t) ∧ refName i s ≠ mixName j := by
  have hval : ∀ w a b, (zeroPadded w a).toList = (zeroPadded w b).toList → a = b := fun w a b h => by
    rw [← zeroPadded_value w a, h, zeroPadded_value]
  refine ⟨⟨fun h => ?_, fun h => by rw [h]⟩, ⟨fun h => ?_, fun ⟨h1, h2⟩ => by rw [h1, h2]⟩, fun h => ?_⟩
  · have h := congrArg String.toList h
    rw [mixName_chars, mixName_chars] at h
    exact hval 3 _ _ (digits_split (zeroPadded_digits _ _) (zeroPadded_digits _ _) rfl rfl
      (List.append_cancel_left h)).1
  · have h := congrArg String.toList h
    rw [refName_chars, refName_chars] at h
    obtain ⟨h1, -, h2⟩ := digits_split (zeroPadded_digits _ _) (zeroPadded_digits _ _) rfl rfl
      (List.append_cancel_left h)
    obtain ⟨h3, -⟩ := digits_split (zeroPadded_digits _ _) (zeroPadded_digits _ _) rfl rfl
      (List.append_cancel_left h2)
    have := hval 2 _ _ h3
    exact ⟨hval 3 _ _ h1, by omega⟩
  · have h := congrArg String.toList h
    rw [refName_chars, mixName_chars] at h
    obtain ⟨-, h1, -⟩ := digits_split (zeroPadded_digits _ _) (zeroPadded_digits _ _) rfl rfl
      (List.append_cancel_left h)
    exact absurd h1 (by decide)

/-- Exactly `w` decimal digits. -/
def fixedDigits : ℕ → ℕ → List Char
  | 0, _ => []
  | w + 1, n => fixedDigits w (n / 10) ++ [(n % 10).digitChar]

theorem fixedDigits_length (w n : ℕ) : (fixedDigits w n).length = w := by
  induction w generalizing n with
  | zero => rfl
  | succ w ih => rw [fixedDigits, List.length_append, ih]; rfl

theorem fixedDigits_zero (w : ℕ) : fixedDigits w 0 = List.replicate w '0' := by
  induction w with
  | zero => rfl
  | succ w ih =>
      rw [fixedDigits, Nat.zero_div, ih, List.replicate_succ']
      rfl

theorem fixedDigits_eq (w n : ℕ) (hn : n < 10 ^ (w + 1)) :
    List.replicate (w + 1 - (Nat.toDigits 10 n).length) '0' ++ Nat.toDigits 10 n = fixedDigits (w + 1) n := by
  induction w generalizing n with
  | zero =>
      have h : n < 10 := by simpa using hn
      rw [Nat.toDigits_of_lt_base h]
      simp [fixedDigits, Nat.mod_eq_of_lt h]
  | succ w ih =>
      rw [Nat.toDigits_eq_if (by norm_num)]
      split
      · rename_i h
        rw [fixedDigits, Nat.div_eq_of_lt h, fixedDigits_zero, Nat.mod_eq_of_lt h]
        rfl
      · rw [fixedDigits, ← ih (n / 10) (by rw [pow_succ] at hn; omega), List.length_append, ← List.append_assoc]
        congr 3
        simp

theorem zeroPadded_chars (w n : ℕ) (hn : n < 10 ^ (w + 1)) : (zeroPadded (w + 1) n).toList = fixedDigits (w + 1) n := by
  rw [← fixedDigits_eq w n hn]
  unfold zeroPadded
  rw [String.toList_append, String.toList_ofList, ← String.length_toList, Nat.toString_eq_repr, Nat.toList_repr]

theorem lt_append_of_lt {a b : List Char} (hl : a.length = b.length) (h : a < b) (x y : List Char) : a ++ x < b ++ y := by
  induction a generalizing b with
  | nil =>
      obtain rfl : b = [] := List.length_eq_zero_iff.mp hl.symm
      exact absurd h (List.lt_irrefl _)
  | cons c a ih =>
      cases b with
      | nil => simp at hl
      | cons e b =>
          rw [List.cons_lt_cons_iff] at h
          rw [List.cons_append, List.cons_append, List.cons_lt_cons_iff]
          rcases h with h | ⟨h1, h2⟩
          · exact Or.inl h
          · exact Or.inr ⟨h1, ih (by simpa using hl) h2⟩

theorem append_lt_append (p : List Char) {a b : List Char} (h : a < b) : p ++ a < p ++ b := by
  induction p with
  | nil => exact h
  | cons c p ih =>
      rw [List.cons_append, List.cons_append, List.cons_lt_cons_iff]
      exact Or.inr ⟨rfl, ih⟩

theorem digitChar_lt : ∀ a < 10, ∀ b < 10, a < b → Nat.digitChar a < Nat.digitChar b := by decide

theorem fixedDigits_lt {w i j : ℕ} (hij : i < j) (hj : j < 10 ^ w) : fixedDigits w i < fixedDigits w j := by
  induction w generalizing i j with
  | zero => simp at hj; omega
  | succ w ih =>
      rw [fixedDigits, fixedDigits]
      rcases (Nat.div_le_div_right (c := 10) hij.le).lt_or_eq with h | h
      · exact lt_append_of_lt (by rw [fixedDigits_length, fixedDigits_length])
          (ih h (by rw [pow_succ] at hj; omega)) _ _
      · rw [h]
        refine append_lt_append _ ?_
        rw [List.cons_lt_cons_iff]
        exact Or.inl (digitChar_lt _ (Nat.mod_lt _ (by norm_num)) _ (Nat.mod_lt _ (by norm_num)) (by omega))

/-- **C90, order of the names.** The names of the first thousand scenes have the same length and sort like the
scenes; so do the references of the first 99 sources within a scene. -/
theorem C90_file_names_sorted (i j : ℕ) (hij : i < j) :
    (j < 1000 → (mixName i).length = (mixName j).length ∧ mixName i < mixName j) ∧
    (j < 99 → ∀ idx, (refName idx i).length = (refName idx j).length ∧ refName idx i < refName idx j) := by
  constructor
  · intro hj
    have hi := hij.trans hj
    rw [← String.length_toList, ← String.length_toList, String.lt_iff, mixName_chars, mixName_chars,
      zeroPadded_chars 2 i (by simpa using hi), zeroPadded_chars 2 j (by simpa using hj)]
    refine ⟨by simp [fixedDigits_length], append_lt_append _ (lt_append_of_lt ?_ (fixedDigits_lt hij (by simpa using hj)) _ _)⟩
    rw [fixedDigits_length, fixedDigits_length]
  · intro hj idx
    rw [← String.length_toList, ← String.length_toList, String.lt_iff, refName_chars, refName_chars,
      zeroPadded_chars 1 (i + 1) (by norm_num; omega), zeroPadded_chars 1 (j + 1) (by norm_num; omega)]
    refine ⟨by simp [fixedDigits_length], append_lt_append _ (append_lt_append _ ?_)⟩
    rw [List.cons_lt_cons_iff]
    refine Or.inr ⟨rfl, append_lt_append _ (lt_append_of_lt ?_ (fixedDigits_lt (by omega) (by norm_num; omega)) _ _)⟩
    rw [fixedDigits_length, fixedDigits_length]

/-- Scene 9 comes before scene 10. -/
example : mixName 9 < mixName 10 := ((C90_file_names_sorted 9 10 (by norm_num)).1 (by norm_num)).2

/-! ## Scenes -/

/-- The responses of a scene. -/
theorem dynamic_responses {d S M T : ℕ} (hd : d = 2 ∨ d = 3) (hS : 0 < S) (hM : 0 < M) (hT : 0 < T) (w : World)
    (L : Fin d → ℝ) (N : ℕ) (fs : ℝ) (hfs : 20 < fs) (K : ℕ) (hK : 0 < K) (tmax : ℝ) (ht : (K : ℤ) = ⌈tmax * fs⌉)
    (sos : w.Sos) (hsos : w.iirfilter 2 (10 / (fs / 2)) [("rp", "5.0"), ("rs", "60.0"), ("ftype", "butter")] = .ok sos)
    (G : (Fin K → ℝ) →ₗ[ℝ] (Fin K → ℝ)) (hG : ActsAs w sos G)
    (src : Fin T → Fin S → Fin d → ℝ) (mic : Fin T → Fin M → Fin d → ℝ) :
    simulateDynamicRir w (boxRoom L (fun _ => 0.9) (fun _ => 0.9) fs 343) (tensor3 src) (tensor3 mic)
      { maxOrder := some (N : ℤ), tmax := some tmax }
      = .ok (tensor4 fun t s m => cliResponse (w.device ≠ .mps) L fs N G (src t s) (mic t m)) := by
  have hfs0 : 0 < fs := by linarith
  refine (C13_dynamic_is_static_per_step hT w (boxRoom L (fun _ => 0.9) (fun _ => 0.9) fs 343) L rfl hfs0 src mic _
    _).mpr ⟨_, fun t => ?_, (stack_tensor3 hT _).symm⟩
  have := C85_filtered_formula hd hS hM w L (fun _ => 0.9) (fun _ => 0.9) fs 343 hfs0 (by norm_num) (.order N) K hK
    defaultConfig defaultConfig_valid rfl rfl (show (10 : ℝ) < fs / 2 by linarith) sos hsos G hG (src t) (mic t)
  rw [← args_eq w L _ _ fs 343 (src t) (mic t) N K hK tmax ht] at this
  exact this

/-- A scene whose motion was found. -/
theorem datasetScene_eq {d M n T : ℕ} (hd : d = 2 ∨ d = 3) (hM : 0 < M) (w : World) (L : Fin d → ℝ)
    (a : DatasetArgs) (ha : a.room = List.ofFn L) (hS : 0 < a.numSources) (N : ℕ) (hN : a.order = N) (K : ℕ) (hK : 0 < K)
    (ht : (K : ℤ) = ⌈a.tmax * 16000⌉) (hT : (T : ℤ) = max 2 a.steps)
    (sos : w.Sos) (hsos : w.iirfilter 2 (10 / (16000 / 2)) [("rp", "5.0"), ("rs", "60.0"), ("ftype", "butter")] = .ok sos)
    (G : (Fin K → ℝ) →ₗ[ℝ] (Fin K → ℝ)) (hG : ActsAs w sos G) (gen : ℤ → Gen)
    (load : Gen → Except String (Tensor ℝ × ℕ)) (c : Fin d → ℝ) (mic : Fin M → Fin d → ℝ) (idx : ℕ)
    (x : Fin a.numSources → Fin n → ℝ) (k : ℕ) (hload : load (gen (a.seed + idx)) = .ok (tensor2 x, k))
    (src : Fin T → Fin a.numSources → Fin d → ℝ) (modes : List String) (moving : List ℕ)
    (hb : buildSourceTrajectories (gen (a.seed + idx)) a.numSources a.numMoving (List.ofFn L) (List.ofFn c) T k
      = .ok (Spec.steps src, modes, moving)) (step : Fin n → Fin T)
    (hstep : CurrentStep (fun t : Fin T => (t : ℕ) * n / T) step) :
    ∃ ref : Fin a.numSources → Fin M → ℕ → ℝ,
      (∀ s m k, ref s m k = ∑ j : Fin n, ∑ i : Fin K, if (j : ℕ) + i = k then
        x s j * cliResponse (w.device ≠ .mps) L 16000 N G (src (step j) s) (mic m) i else 0) ∧
      datasetScene w (boxRoom L (fun _ => 0.9) (fun _ => 0.9) 16000 343) a gen load (List.ofFn c) (rows mic) idx
        = (sceneFiles idx (micTensor (n + K - 1) fun m k => ∑ s, ref s m k)
            (List.ofFn fun s => micTensor (n + K - 1) (ref s))).bind fun files =>
          .ok ⟨Spec.steps src, Spec.steps fun _ : Fin T => mic, modes, moving,
            tensor4 fun t s m => cliResponse (w.device ≠ .mps) L 16000 N G (src t s) (mic m),
            micTensor (n + K - 1) fun m k => ∑ s, ref s m k,
            List.ofFn fun s => micTensor (n + K - 1) (ref s), files⟩ := by
  have hT1 : 1 ≤ T := by omega
  obtain ⟨ref, h1, h2⟩ := C90_audio w.device x
    (fun t s m => cliResponse (w.device ≠ .mps) L 16000 N G (src t s) (mic m)) hT1 (by omega) step hstep
  refine ⟨ref, h2, ?_⟩
  unfold datasetScene
  dsimp only
  rw [hload, ok_bind]
  dsimp only
  rw [← hT, ha, hb, ok_bind]
  dsimp only
  rw [Int.toNat_natCast, steps_const, trajTensor_steps hT1 hS, trajTensor_steps hT1 hM, hN,
    dynamic_responses hd hS hM hT1 w L N 16000 (by norm_num) K hK a.tmax ht sos hsos G hG src fun _ => mic, ok_bind,
    h1, ok_bind]
  rfl

theorem loop_scenes (scene : ℕ → Except String DatasetScene) : ∀ (l : List ℕ),
    (∀ i (hi : i < (datasetLoop scene l).1.length), ∃ j, l[i]? = some j ∧ scene j = .ok (datasetLoop scene l).1[i]) ∧
    ((datasetLoop scene l).2 = none → (datasetLoop scene l).1.length = l.length) ∧
    ∀ e, (datasetLoop scene l).2 = some e →
      ∃ j, l[(datasetLoop scene l).1.length]? = some j ∧ scene j = .error e
  | [] => ⟨fun i hi => by simp [datasetLoop] at hi, fun _ => rfl, fun e he => by simp [datasetLoop] at he⟩
  | idx :: rest => by
    cases h : scene idx with
    | error e =>
      have : datasetLoop scene (idx :: rest) = ([], some e) := by
        rw [datasetLoop, h]
      rw [this]
      refine ⟨fun i hi => by simp at hi, fun h => by simp at h, fun e' he => ?_⟩
      cases he
      exact ⟨idx, rfl, h⟩
    | ok s =>
      obtain ⟨h1, h2, h3⟩ := loop_scenes scene rest
      have : datasetLoop scene (idx :: rest) = (s :: (datasetLoop scene rest).1, (datasetLoop scene rest).2) := by
        rw [datasetLoop, h]
      rw [this]
      refine ⟨fun i hi => ?_, fun hn => by simp [h2 hn], fun e he => ?_⟩
      · cases i with
        | zero => exact ⟨idx, rfl, h⟩
        | succ i =>
          obtain ⟨j, hj, hs⟩ := h1 i (by simpa using hi)
          exact ⟨j, by simpa using hj, hs⟩
      · obtain ⟨j, hj, hs⟩ := h3 e he
        exact ⟨j, by simpa using hj, hs⟩

theorem loop_prefix (scene : ℕ → Except String DatasetScene) : ∀ (l l' : List ℕ),
    (datasetLoop scene l).1 = (datasetLoop scene (l ++ l')).1.take l.length
  | [], _ => by simp [datasetLoop]
  | idx :: rest, l' => by
    have := loop_prefix scene rest l'
    rw [List.cons_append, datasetLoop, datasetLoop]
    cases scene idx with
    | error e => simp
    | ok s =>
      dsimp only
      rw [List.length_cons, List.take_succ_cons, ← this]

/-- What `dynDataset` does once the room is there. -/
theorem dynDataset_eq (conv : Flt → ℤ) {d : ℕ} (hd : d = 2 ∨ d = 3) (w : World) (L : Fin d → ℝ) (hL : ∀ i, 0 < L i)
    (a : DatasetArgs) (ha : a.room = List.ofFn L) (gen : ℤ → Gen) (load : Gen → Except String (Tensor ℝ × ℕ)) :
    dynDataset conv w a gen load =
      (datasetMics (List.ofFn L) (drawCenter (gen a.seed).value (List.ofFn L) 0).1 a.numMics).bind fun mics =>
        .ok (mics, datasetLoop (datasetScene w (boxRoom L (fun _ => 0.9) (fun _ => 0.9) 16000 343) a gen load
          (drawCenter (gen a.seed).value (List.ofFn L) 0).1 mics) (List.range a.numScenes)) := by
  unfold dynDataset
  rw [cliRoom_eq conv hd L hL _ (by exact ha) 16000 (by norm_num), ok_bind, ha]
  rfl

/-- **C90, the dataset.** The microphones are drawn once, around a point 0.5 m from the walls that only depends on the
seed. The loop makes the scenes one after the other: scene `i` is made by the generator of the seed `seed + i` for these
microphones, and an exception ends the loop at the scene that raised it, keeping the scenes before it. -/
theorem C90_dataset (conv : Flt → ℤ) {d : ℕ} (hd : d = 2 ∨ d = 3) (w : World) (L : Fin d → ℝ) (hL : ∀ i, 1 ≤ L i)
    (a : DatasetArgs) (ha : a.room = List.ofFn L) (gen : ℤ → Gen) (hg : ∀ z, FairGen (gen z))
    (load : Gen → Except String (Tensor ℝ × ℕ)) (M : ℕ) (hM : a.numMics = M) (hM0 : 0 < M) :
    ∃ (c : Fin d → ℝ) (mic : Fin M → Fin d → ℝ) (scenes : List DatasetScene) (err : Option String),
      dynDataset conv w a gen load = .ok (rows mic, scenes, err) ∧
      c = candidate (gen a.seed).value L none 0.5 0 0 ∧ Within L 0.5 c ∧
      DatasetMics (by omega) L c mic ∧ (∀ m, Within L 0.1 (mic m)) ∧
      let scene := datasetScene w (boxRoom L (fun _ => 0.9) (fun _ => 0.9) 16000 343) a gen load (List.ofFn c) (rows mic)
      (∀ i (hi : i < scenes.length), scene i = .ok scenes[i]) ∧
      (err = none → scenes.length = a.numScenes) ∧
      ∀ e, err = some e → scenes.length < a.numScenes ∧ scene scenes.length = .error e := by
  obtain ⟨c, k, hc, hcw⟩ := drawCenter_eq (gen a.seed).value (hg _).unit L hL 0
  obtain ⟨mic, hm, hdm, hw⟩ := (C90_microphones (by omega : 0 < d) L c hL hcw a.numMics).2 M hM hM0
  have hfst : (drawCenter (gen a.seed).value (List.ofFn L) 0).1 = List.ofFn c := by rw [hc]
  obtain ⟨l1, l2, l3⟩ := loop_scenes (datasetScene w (boxRoom L (fun _ => 0.9) (fun _ => 0.9) 16000 343) a gen load
    (List.ofFn c) (rows mic)) (List.range a.numScenes)
  rcases hD : datasetLoop (datasetScene w (boxRoom L (fun _ => 0.9) (fun _ => 0.9) 16000 343) a gen load
    (List.ofFn c) (rows mic)) (List.range a.numScenes) with ⟨scenes, err⟩
  rw [hD] at l1 l2 l3
  refine ⟨c, mic, scenes, err, ?_, ?_, hcw, hdm, hw, fun i hi => ?_, fun h => ?_, fun e he => ?_⟩
  · rw [dynDataset_eq conv hd w L (fun i => by linarith [hL i]) a ha, hfst, hm, ← hD]
    rfl
  · rw [drawCenter_exact] at hfst
    exact (List.ofFn_injective hfst).symm
  · obtain ⟨j, hj, hs⟩ := l1 i hi
    rw [List.getElem?_range] at hj
    · cases hj
      exact hs
    · by_contra hlt
      rw [List.getElem?_eq_none (by simpa using hlt)] at hj
      cases hj
  · rw [l2 h, List.length_range]
  · obtain ⟨j, hj, hs⟩ := l3 e he
    have hlt : scenes.length < a.numScenes := by
      by_contra hlt
      rw [List.getElem?_eq_none (by simpa using hlt)] at hj
      cases hj
    rw [List.getElem?_range hlt] at hj
    cases hj
    exact ⟨hlt, hs⟩

/-- **C90, every scene.** A finished scene whose signals `x` were loaded has its microphones at the places of the
dataset at every step, moves its sources as asked for, has the image-method responses of every step, and its mixture is
the sum of its references; with one to eight microphones the files are as many, with the right names, and hold the
signals brought to a peak of 1. -/
theorem C90_every_scene {d M n T : ℕ} (hd : d = 2 ∨ d = 3) (hM : 0 < M) (w : World) (L : Fin d → ℝ) (hL : ∀ i, 1 ≤ L i)
    (a : DatasetArgs) (ha : a.room = List.ofFn L) (N : ℕ) (hN : a.order = N) (K : ℕ) (hK : 0 < K)
    (ht : (K : ℤ) = ⌈a.tmax * 16000⌉) (hT : (T : ℤ) = max 2 a.steps)
    (sos : w.Sos) (hsos : w.iirfilter 2 (10 / (16000 / 2)) [("rp", "5.0"), ("rs", "60.0"), ("ftype", "butter")] = .ok sos)
    (G : (Fin K → ℝ) →ₗ[ℝ] (Fin K → ℝ)) (hG : ActsAs w sos G) (gen : ℤ → Gen) (hg : ∀ z, FairGen (gen z))
    (load : Gen → Except String (Tensor ℝ × ℕ)) (c : Fin d → ℝ) (mic : Fin M → Fin d → ℝ) (idx : ℕ)
    (x : Fin a.numSources → Fin n → ℝ) (k : ℕ) (hload : load (gen (a.seed + idx)) = .ok (tensor2 x, k))
    (step : Fin n → Fin T) (hstep : CurrentStep (fun t : Fin T => (t : ℕ) * n / T) step) (sc : DatasetScene)
    (h : datasetScene w (boxRoom L (fun _ => 0.9) (fun _ => 0.9) 16000 343) a gen load (List.ofFn c) (rows mic) idx
      = .ok sc) :
    ∃ (src : Fin T → Fin a.numSources → Fin d → ℝ) (mode : Fin a.numSources → String)
      (ref : Fin a.numSources → Fin M → ℕ → ℝ),
      SceneMotion L c a.numMoving src mode sc.moving ∧
      sc.srcTraj = Spec.steps src ∧ sc.micTraj = (Spec.steps fun _ : Fin T => mic) ∧ sc.modes = List.ofFn mode ∧
      sc.rirs = (tensor4 fun t s m => cliResponse (w.device ≠ .mps) L 16000 N G (src t s) (mic m)) ∧
      (∀ s m k, ref s m k = ∑ j : Fin n, ∑ i : Fin K, if (j : ℕ) + i = k then
        x s j * cliResponse (w.device ≠ .mps) L 16000 N G (src (step j) s) (mic m) i else 0) ∧
      sc.references = (List.ofFn fun s => micTensor (n + K - 1) (ref s)) ∧
      sc.mixture = (micTensor (n + K - 1) fun m k => ∑ s, ref s m k) ∧
      (M ≤ 8 → ∃ (mixFile : AudioFile) (gain : ℝ) (refFile : Fin a.numSources → AudioFile)
        (refGain : Fin a.numSources → ℝ),
        sc.files = (List.ofFn fun s : Fin a.numSources => (refName idx s, refFile s)) ++ [(mixName idx, mixFile)] ∧
        SavedAs mixFile M (n + K - 1) (fun m k => ∑ s, ref s m k) gain ∧
        ∀ s, SavedAs (refFile s) M (n + K - 1) (ref s) (refGain s)) := by
  have hT2 : 2 ≤ T := by omega
  have hb : ∃ out, buildSourceTrajectories (gen (a.seed + idx)) a.numSources a.numMoving (List.ofFn L) (List.ofFn c) T k
      = .ok out := by
    have h' := h
    unfold datasetScene at h'
    dsimp only at h'
    rw [hload, ok_bind] at h'
    dsimp only at h'
    rw [← hT, ha] at h'
    obtain ⟨out, ho, -⟩ := (bind_eq_ok _ _ _).mp h'
    exact ⟨out, ho⟩
  obtain ⟨⟨traj, modes, moving⟩, hb⟩ := hb
  obtain ⟨src, mode, rfl, rfl, hmo⟩ := C90_motion (hg _) hT2 L c hL a.numSources a.numMoving k traj modes moving hb
  have hS : 0 < a.numSources := by
    unfold buildSourceTrajectories at hb
    obtain ⟨o1, h1, hb⟩ := (bind_eq_ok _ _ _).mp hb
    dsimp only at hb
    obtain ⟨o2, h2, hb⟩ := (bind_eq_ok _ _ _).mp hb
    rw [raiseIf_bind_ok] at hb
    by_contra hz
    have hz : a.numSources = 0 := by omega
    have := talkers_count h1
    rw [hz, List.length_eq_zero_iff] at this
    rw [this] at h2
    cases h2
    exact hb.1 rfl
  obtain ⟨ref, hr, he⟩ := datasetScene_eq hd hM w L a ha hS N hN K hK ht hT sos hsos G hG gen load c mic idx x k hload
    src (List.ofFn mode) moving hb step hstep
  rw [he] at h
  obtain ⟨files, hf, h⟩ := (bind_eq_ok _ _ _).mp h
  cases h
  refine ⟨src, mode, ref, hmo, rfl, rfl, rfl, rfl, hr, rfl, rfl, fun h8 => ?_⟩
  obtain ⟨mf, g, rf, rg, h1, h2, h3⟩ := C90_files hM h8 idx (n + K - 1) (fun m k => ∑ s, ref s m k) ref
  rw [h1] at hf
  cases hf
  exact ⟨mf, g, rf, rg, rfl, h2, h3⟩

/-- **C90, acceptance of a scene.** Once its signals are loaded, a scene with one to eight microphones is finished
exactly if its motion was found. -/
theorem C90_scene_outcome {d M n T : ℕ} (hd : d = 2 ∨ d = 3) (hM : 0 < M) (h8 : M ≤ 8) (w : World) (L : Fin d → ℝ)
    (hL : ∀ i, 1 ≤ L i) (a : DatasetArgs) (ha : a.room = List.ofFn L) (N : ℕ) (hN : a.order = N) (K : ℕ) (hK : 0 < K)
    (ht : (K : ℤ) = ⌈a.tmax * 16000⌉) (hT : (T : ℤ) = max 2 a.steps)
    (sos : w.Sos) (hsos : w.iirfilter 2 (10 / (16000 / 2)) [("rp", "5.0"), ("rs", "60.0"), ("ftype", "butter")] = .ok sos)
    (G : (Fin K → ℝ) →ₗ[ℝ] (Fin K → ℝ)) (hG : ActsAs w sos G) (gen : ℤ → Gen) (hg : ∀ z, FairGen (gen z))
    (load : Gen → Except String (Tensor ℝ × ℕ)) (c : Fin d → ℝ) (mic : Fin M → Fin d → ℝ) (idx : ℕ)
    (x : Fin a.numSources → Fin n → ℝ) (k : ℕ) (hload : load (gen (a.seed + idx)) = .ok (tensor2 x, k)) :
    (∃ sc, datasetScene w (boxRoom L (fun _ => 0.9) (fun _ => 0.9) 16000 343) a gen load (List.ofFn c) (rows mic) idx
      = .ok sc) ↔
    ∃ out, buildSourceTrajectories (gen (a.seed + idx)) a.numSources a.numMoving (List.ofFn L) (List.ofFn c) T k
      = .ok out := by
  have hT2 : 2 ≤ T := by omega
  constructor
  · rintro ⟨sc, h⟩
    unfold datasetScene at h
    dsimp only at h
    rw [hload, ok_bind] at h
    dsimp only at h
    rw [← hT, ha] at h
    obtain ⟨out, ho, -⟩ := (bind_eq_ok _ _ _).mp h
    exact ⟨out, ho⟩
  · rintro ⟨⟨traj, modes, moving⟩, hb⟩
    obtain ⟨src, mode, rfl, rfl, hmo⟩ := C90_motion (hg _) hT2 L c hL a.numSources a.numMoving k traj modes moving hb
    have hS : 0 < a.numSources := by
      unfold buildSourceTrajectories at hb
      obtain ⟨o1, h1, hb⟩ := (bind_eq_ok _ _ _).mp hb
      dsimp only at hb
      obtain ⟨o2, h2, hb⟩ := (bind_eq_ok _ _ _).mp hb
      rw [raiseIf_bind_ok] at hb
      by_contra hz
      have hz : a.numSources = 0 := by omega
      have := talkers_count h1
      rw [hz, List.length_eq_zero_iff] at this
      rw [this] at h2
      cases h2
      exact hb.1 rfl
    obtain ⟨step, hstep, -⟩ := C24_every_sample_has_one_step (T := T) (N := n) (by omega) (.uniform none)
    obtain ⟨ref, hr, he⟩ := datasetScene_eq hd hM w L a ha hS N hN K hK ht hT sos hsos G hG gen load c mic idx x k hload
      src (List.ofFn mode) moving hb step hstep
    obtain ⟨mf, g, rf, rg, h1, -⟩ := C90_files hM h8 idx (n + K - 1) (fun m k => ∑ s, ref s m k) ref
    rw [he, h1]
    exact ⟨_, rfl⟩

/-- **C90, more scenes.** Asking for more scenes does not change the microphones or the scenes made before. -/
theorem C90_more_scenes (conv : Flt → ℤ) (w : World) (a : DatasetArgs) (gen : ℤ → Gen)
    (load : Gen → Except String (Tensor ℝ × ℕ)) (m n : ℕ) (hmn : m ≤ n) (mics mics' : List Vec)
    (scenes scenes' : List DatasetScene) (err err' : Option String)
    (h : dynDataset conv w { a with numScenes := m } gen load = .ok (mics, scenes, err))
    (h' : dynDataset conv w { a with numScenes := n } gen load = .ok (mics', scenes', err')) :
    mics = mics' ∧ scenes = scenes'.take m := by
  unfold dynDataset at h h'
  obtain ⟨room, hr, h⟩ := (bind_eq_ok _ _ _).mp h
  obtain ⟨room', hr', h'⟩ := (bind_eq_ok _ _ _).mp h'
  dsimp only at hr hr' h h'
  rw [hr] at hr'
  cases hr'
  obtain ⟨ms, hm, h⟩ := (bind_eq_ok _ _ _).mp h
  obtain ⟨ms', hm', h'⟩ := (bind_eq_ok _ _ _).mp h'
  rw [hm] at hm'
  cases hm'
  obtain ⟨rfl, he⟩ := Prod.mk.inj (Except.ok.inj h)
  obtain ⟨rfl, he'⟩ := Prod.mk.inj (Except.ok.inj h')
  refine ⟨rfl, ?_⟩
  rw [show scenes = (scenes, err).1 from rfl, show scenes' = (scenes', err').1 from rfl, ← he, ← he']
  obtain ⟨j, rfl⟩ : ∃ j, n = m + j := ⟨n - m, by omega⟩
  have := loop_prefix (datasetScene w room a gen load (drawCenter (gen a.seed).value a.room 0).1 ms)
    (List.range m) ((List.range j).map (m + ·))
  rw [← List.range_add, List.length_range] at this
  exact this

/-- **C90, generators.** Scene `i` only depends on the generators of the seeds `seed` and `seed + i`. -/
theorem C90_scene_generators (conv : Flt → ℤ) (w : World) (a : DatasetArgs) (gen gen' : ℤ → Gen)
    (load : Gen → Except String (Tensor ℝ × ℕ)) (mics mics' : List Vec)
    (scenes scenes' : List DatasetScene) (err err' : Option String)
    (h : dynDataset conv w a gen load = .ok (mics, scenes, err))
    (h' : dynDataset conv w a gen' load = .ok (mics', scenes', err')) (hseed : gen a.seed = gen' a.seed) (i : ℕ)
    (hi : gen (a.seed + i) = gen' (a.seed + i)) (h1 : i < scenes.length) (h2 : i < scenes'.length) :
    mics = mics' ∧ scenes[i] = scenes'[i] := by
  unfold dynDataset at h h'
  obtain ⟨room, hr, h⟩ := (bind_eq_ok _ _ _).mp h
  obtain ⟨room', hr', h'⟩ := (bind_eq_ok _ _ _).mp h'
  rw [hr] at hr'
  cases hr'
  dsimp only at h h'
  obtain ⟨ms, hm, h⟩ := (bind_eq_ok _ _ _).mp h
  obtain ⟨ms', hm', h'⟩ := (bind_eq_ok _ _ _).mp h'
  rw [← hseed, hm] at hm'
  cases hm'
  obtain ⟨rfl, he⟩ := Prod.mk.inj (Except.ok.inj h)
  obtain ⟨rfl, he'⟩ := Prod.mk.inj (Except.ok.inj h')
  refine ⟨rfl, ?_⟩
  have l := (loop_scenes (datasetScene w room a gen load (drawCenter (gen a.seed).value a.room 0).1 ms)
    (List.range a.numScenes)).1
  have l' := (loop_scenes (datasetScene w room a gen' load (drawCenter (gen' a.seed).value a.room 0).1 ms)
    (List.range a.numScenes)).1
  rw [he] at l
  rw [he'] at l'
  obtain ⟨j, hj, hs⟩ := l i h1
  obtain ⟨j', hj', hs'⟩ := l' i h2
  rw [hj] at hj'
  cases hj'
  have e : j = i := by
    by_cases hlt : i < a.numScenes
    · rw [List.getElem?_range hlt] at hj
      cases hj
      rfl
    · rw [List.getElem?_eq_none (by simpa using hlt)] at hj
      cases hj
  subst e
  rw [← hseed] at hs'
  unfold datasetScene at hs hs'
  dsimp only at hs hs'
  rw [← hi] at hs'
  exact Except.ok.inj (hs.symm.trans hs')

/-! ## Cases meeting the hypotheses -/

/-- The values 0, 0, 1, 1, …, always zigzag, and samples of the first numbers. -/
noncomputable def cornerGen : Gen := ⟨cornerStream, fun _ => true, fun _ _ m => List.range m⟩

theorem cornerGen_fair : FairGen cornerGen :=
  ⟨cornerStream_unit, fun _ n m h => ⟨List.nodup_range, List.length_range, fun i hi => by
    have : i < m := by simpa [cornerGen] using hi
    omega⟩⟩

/-- Three sources in a 6 m × 4 m room, two of them moving: the motion is found, and is as asked for. -/
example : ∃ (src : Fin 64 → Fin 3 → Fin 2 → ℝ) (mode : Fin 3 → String) (moving : List ℕ),
    buildSourceTrajectories cornerGen 3 2 (List.ofFn ![6, 4]) (List.ofFn (candidate cornerStream ![6, 4] none 0.5 0 0))
      64 2 = .ok (Spec.steps src, List.ofFn mode, moving) ∧
    SceneMotion ![6, 4] (candidate cornerStream ![6, 4] none 0.5 0 0) 2 src mode moving ∧ moving.length = 2 := by
  obtain ⟨⟨traj, modes, moving⟩, h⟩ := (C90_motion_outcome cornerGen (T := 64) (by norm_num) (.inl (by norm_num)) ![6, 4]
    (candidate cornerStream ![6, 4] none 0.5 0 0) 3 2 2).mpr
      ⟨by norm_num, by rw [show cornerGen.value = cornerStream from rfl, corner_far _ (by norm_num)]; norm_num⟩
  obtain ⟨src, mode, rfl, rfl, hm⟩ := C90_motion cornerGen_fair (by norm_num) _ _ sides64 3 2 2 _ _ _ h
  exact ⟨src, mode, moving, h, hm, by have := hm.count; norm_num at this; omega⟩

/-- Eight microphones in the middle of a room are an even line, 20 next to a wall are not. -/
example : (∃ mic : Fin 8 → Fin 2 → ℝ, datasetMics (List.ofFn ![6, 4]) (List.ofFn ![3, 2]) 8 = .ok (rows mic) ∧
      EvenLine mic ![3, 2] (Pi.single ⟨0, by norm_num⟩ 1) 0.08) ∧
    ∃ mic : Fin 20 → Fin 2 → ℝ, datasetMics (List.ofFn ![6, 4]) (List.ofFn ![0.5, 2]) 20 = .ok (rows mic) ∧
      mic 0 = mic 1 := by
  refine ⟨C90_even_line (M := 8) (by norm_num) ![6, 4] ![3, 2] ?_ (by norm_num) (by norm_num) (by norm_num),
    C90_long_line_fails (M := 20) (by norm_num) ![6, 4] ![0.5, 2] sides64 rfl (by norm_num)⟩
  intro i
  fin_cases i <;> norm_num

/-- The script with its default arguments but three sources, two of them moving: all four scenes are finished, and the
mixture of each is the sum of its references. -/
example (conv : Flt → ℤ) (randn : ℤ → List ℕ → List ℝ) (x : Fin 3 → Fin 8000 → ℝ) :
    ∃ (mic : Fin 2 → Fin 2 → ℝ) (scenes : List DatasetScene),
      dynDataset conv (halvingWorld randn) { room := List.ofFn ![6, 4], numSources := 3, numMoving := 2 }
        (fun _ => cornerGen) (fun _ => .ok (tensor2 x, 2)) = .ok (rows mic, scenes, none) ∧ scenes.length = 4 ∧
      ∀ i (hi : i < scenes.length), ∃ ref : Fin 3 → Fin 2 → ℕ → ℝ,
        scenes[i].references = (List.ofFn fun s => micTensor (8000 + 6400 - 1) (ref s)) ∧
        scenes[i].mixture = micTensor (8000 + 6400 - 1) fun m k => ∑ s, ref s m k := by
  obtain ⟨c, mic, scenes, err, h, rfl, hc, -, -, hs, hn, he⟩ := C90_dataset conv (Or.inl rfl) (halvingWorld randn) ![6, 4]
    sides64 { room := List.ofFn ![6, 4], numSources := 3, numMoving := 2 } rfl (fun _ => cornerGen)
    (fun _ => cornerGen_fair) (fun _ => .ok (tensor2 x, 2)) 2 rfl (by norm_num)
  have ht : ((6400 : ℕ) : ℤ) = ⌈(0.4 : ℝ) * 16000⌉ := by
    rw [eq_comm, Int.ceil_eq_iff]
    norm_num
  have hok : ∀ idx, ∃ sc, datasetScene (halvingWorld randn) (boxRoom ![6, 4] (fun _ => 0.9) (fun _ => 0.9) 16000 343)
      { room := List.ofFn ![6, 4], numSources := 3, numMoving := 2 } (fun _ => cornerGen)
      (fun _ => .ok (tensor2 x, 2)) (List.ofFn (candidate cornerGen.value ![6, 4] none 0.5 0 0)) (rows mic) idx
        = .ok sc := by
    intro idx
    refine (C90_scene_outcome (T := 64) (Or.inl rfl) (by norm_num) (by norm_num) (halvingWorld randn) ![6, 4] sides64
      { room := List.ofFn ![6, 4], numSources := 3, numMoving := 2 } rfl 6 rfl 6400 (by norm_num) ht rfl () rfl _
      (halving_acts randn 6400) (fun _ => cornerGen) (fun _ => cornerGen_fair) (fun _ => .ok (tensor2 x, 2)) _ mic idx x 2
      rfl).mpr ?_
    exact (C90_motion_outcome cornerGen (T := 64) (by norm_num) (.inl (by norm_num)) ![6, 4] _ 3 2 2).mpr
      ⟨by norm_num, by rw [show cornerGen.value = cornerStream from rfl, corner_far _ (by norm_num)]; norm_num⟩
  cases err with
  | some e =>
    obtain ⟨-, h2⟩ := he e rfl
    obtain ⟨sc, h3⟩ := hok scenes.length
    rw [h3] at h2
    cases h2
  | none =>
    obtain ⟨step, hstep, -⟩ := C24_every_sample_has_one_step (T := 64) (N := 8000) (by norm_num) (.uniform none)
    refine ⟨mic, scenes, h, hn rfl, fun i hi => ?_⟩
    obtain ⟨src, mode, ref, -, -, -, -, -, -, hr, hx, -⟩ := C90_every_scene (T := 64) (Or.inl rfl) (by norm_num)
      (halvingWorld randn) ![6, 4] sides64
      { room := List.ofFn ![6, 4], numSources := 3, numMoving := 2 } rfl 6 rfl 6400 (by norm_num) ht rfl () rfl _
      (halving_acts randn 6400) (fun _ => cornerGen) (fun _ => cornerGen_fair) (fun _ => .ok (tensor2 x, 2)) _ mic i x 2
      rfl step hstep _ (hs i hi)
    exact ⟨ref, hr, hx⟩

end Torchrir.Props
