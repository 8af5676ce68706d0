import Verif.Model.CliScene
import Verif.Spec.CliScene
import Verif.Props.Sampling
import Verif.Props.Arrays
import Verif.Props.Room
import Verif.Props.Hpf
import Verif.Props.Invariance

/-! # C88: the scenarios of the command line program -/

namespace Torchrir.Props

open Torchrir.Model Torchrir.Lemmas
open Torchrir.Spec

/-! ## Placement -/

theorem drawCenter_eq (r : ℕ → ℝ) (hr : UnitStream r) {d : ℕ} (L : Fin d → ℝ) (hL : ∀ i, 1 ≤ L i) (k : ℕ) :
    ∃ c : Fin d → ℝ, ∃ k', drawCenter r (List.ofFn L) k = (List.ofFn c, k') ∧ Within L 0.5 c := by
  obtain ⟨p, hp, hw⟩ := C46_positions_partial r hr L 0.5 (fun i => by linarith [hL i]) 1 k
  unfold drawCenter
  cases h : samplePositions r 1 (List.ofFn L) 0.5 k with
  | mk ps k' =>
    rw [h] at hp
    dsimp only at hp ⊢
    refine ⟨p 0, k', ?_, hw 0⟩
    rw [hp]
    simp [rows]

theorem ears_eq {d : ℕ} (hd : 0 < d) (c : Fin d → ℝ) :
    ∃ p : Fin 2 → Fin d → ℝ, ears (List.ofFn c) = .ok (rows p) ∧ EarsAt c p := by
  obtain ⟨d, rfl⟩ : ∃ e, d = e + 1 := ⟨d - 1, by omega⟩
  refine ⟨![fun i => c i - if i = 0 then 0.08 else 0, fun i => c i + if i = 0 then 0.08 else 0], ?_, ?_⟩
  · unfold ears binauralArray
    dsimp only [castVec]
    rw [if_neg (by simp), List.length_ofFn]
    have := set_replicate_ofFn (0 : Fin (d + 1)) 0.08
    rw [Fin.val_zero] at this
    rw [List.getD_cons_zero, this, vsub_ofFn', vadd_ofFn]
    rfl
  · intro i
    by_cases h : i = 0
    · simp [h]
    · have : (i : ℕ) ≠ 0 := fun h' => h (Fin.ext h')
      simp [h]

theorem ears_within {d : ℕ} {L c : Fin d → ℝ} {p : Fin 2 → Fin d → ℝ} (hc : Within L 0.5 c)
    (h : EarsAt c p) (k : Fin 2) : Within L 0.4 (p k) := by
  intro i
  obtain ⟨h1, h2⟩ := h i
  obtain ⟨h3, h4⟩ := hc i
  fin_cases k
  · show 0.4 ≤ p 0 i ∧ p 0 i ≤ L i - 0.4
    rw [h1]
    split_ifs <;> constructor <;> linarith
  · show 0.4 ≤ p 1 i ∧ p 1 i ≤ L i - 0.4
    rw [h2]
    split_ifs <;> constructor <;> linarith

theorem within_mono {d : ℕ} {L p : Fin d → ℝ} {a b : ℝ} (hab : b ≤ a) (h : Within L a p) : Within L b p :=
  fun i => ⟨hab.trans (h i).1, (h i).2.trans (by linarith)⟩

theorem clampTo_eq {n d : ℕ} {L : Fin d → ℝ} (hL : ∀ i, 1 ≤ L i) {p : Fin n → Fin d → ℝ}
    (h : ∀ k, Within L 0.1 (p k)) : clampTo (List.ofFn L) (rows p) = rows p := by
  obtain ⟨q, hq, -, hid, -⟩ := C45_clamp_partial L 0.1 (fun i => by linarith [hL i]) p
  unfold clampTo
  rw [hq]
  congr 1
  funext k
  exact hid k (h k)

theorem within_of_spot {d : ℕ} {L p : Fin d → ℝ} (h : TalkerSpot L p) : Within L 0.5 p := h.1

theorem heights_iff {L : ℝ} (h : 2 < L) : max (0.5 : ℝ) 1.5 < min (L - 0.5) 1.8 := by
  rw [max_eq_right (by norm_num), lt_min_iff]
  constructor
  · linarith
  · norm_num

theorem drawTalkers_ok {r : ℕ → ℝ} (hr : UnitStream r) {d : ℕ} {L c : Fin d → ℝ} (hL : ∀ i, 1 ≤ L i)
    {n k : ℕ} {ps : List Vec} {k' : ℕ}
    (h : drawTalkers r n (List.ofFn L) (List.ofFn c) k = .ok (ps, k')) :
    ∃ p : Fin n → Fin d → ℝ, ps = rows p ∧ ∀ s, TalkerSpot L (p s) ∧ 1.5 ≤ Spec.dist (p s) c := by
  obtain ⟨p, hp, hd, hw, hz⟩ := C46_min_distance_partial r hr L c 1.5 _ 0.5 1000 n k ps k' h
  refine ⟨p, hp, fun s => ⟨⟨hw (fun i => by linarith [hL i]) s, fun h2 hl => ?_⟩, hd s⟩⟩
  exact hz h2 1.5 1.8 rfl (heights_iff hl) s

theorem sampleZ_ok {r : ℕ → ℝ} (hr : UnitStream r) {d : ℕ} {L : Fin d → ℝ} (hL : ∀ i, 1 ≤ L i)
    {n k : ℕ} {ps : List Vec} {k' : ℕ}
    (h : samplePositionsZ r n (List.ofFn L) 1.5 1.8 0.5 k = .ok (ps, k')) :
    ∃ p : Fin n → Fin d → ℝ, ps = rows p ∧ ∀ s, TalkerSpot L (p s) := by
  have hm : ∀ i, 2 * (0.5 : ℝ) ≤ L i := fun i => by linarith [hL i]
  by_cases hd : 2 < d
  · by_cases hz : max (0.5 : ℝ) 1.5 < min (L ⟨2, hd⟩ - 0.5) 1.8
    · rcases Nat.eq_zero_or_pos n with rfl | hn
      · obtain ⟨e, he⟩ := C46_zero_positions_raises r hd L 0.5 1.5 1.8 hz k
        rw [he] at h
        cases h
      · obtain ⟨p, k'', hp, hw⟩ := C46_heights_partial r hr hd L 0.5 hm 1.5 1.8 hz n hn k
        rw [hp] at h
        cases h
        exact ⟨p, rfl, fun s => ⟨(hw s).1, fun _ _ => (hw s).2⟩⟩
    · have hn : ¬ 2 < L ⟨2, hd⟩ := fun hl => hz (heights_iff hl)
      obtain ⟨p, hp, hw⟩ := C46_positions_partial r hr L 0.5 hm n k
      refine ⟨p, ?_, fun s => ⟨hw s, fun _ hl => absurd hl hn⟩⟩
      unfold samplePositionsZ at h
      cases hs : samplePositions r n (List.ofFn L) 0.5 k with
      | mk qs k1 =>
        rw [hs] at h hp
        dsimp only at h hp
        rw [if_neg (by rw [List.length_ofFn]; omega), heightRange_ofFn L hd] at h
        dsimp only at h
        rw [if_pos (not_lt.mp hz)] at h
        cases h
        exact hp
  · rw [C46_heights_planar r _ (by rw [List.length_ofFn]; omega)] at h
    obtain ⟨p, hp, hw⟩ := C46_positions_partial r hr L 0.5 hm n k
    cases hs : samplePositions r n (List.ofFn L) 0.5 k with
    | mk qs k1 =>
      rw [hs] at h hp
      cases h
      exact ⟨p, hp, fun s => ⟨hw s, fun h2 => absurd h2 hd⟩⟩

theorem path_between {d T : ℕ} (hT : 2 ≤ T) {a b : Fin d → ℝ} {lo hi : ℝ} {p : Fin T → Fin d → ℝ}
    (hp : StraightPath a b p) (t : Fin T) (i : Fin d) (ha : lo ≤ a i ∧ a i ≤ hi) (hb : lo ≤ b i ∧ b i ≤ hi) :
    lo ≤ p t i ∧ p t i ≤ hi := by
  have hs : (0 : ℝ) < (T : ℝ) - 1 := by
    have : (2 : ℝ) ≤ T := by exact_mod_cast hT
    linarith
  have ht : ((t : ℕ) : ℝ) + 1 ≤ T := by exact_mod_cast t.isLt
  have h1 : (t : ℝ) / ((T : ℝ) - 1) ≤ 1 := by
    rw [div_le_one hs]
    linarith
  have h0 : (0 : ℝ) ≤ (t : ℝ) / ((T : ℝ) - 1) := div_nonneg (Nat.cast_nonneg _) hs.le
  rw [hp t i]
  constructor <;> nlinarith [ha.1, ha.2, hb.1, hb.2]

theorem path_within {d T : ℕ} (hT : 2 ≤ T) {L a b : Fin d → ℝ} {m : ℝ} (ha : Within L m a)
    (hb : Within L m b) {p : Fin T → Fin d → ℝ} (hp : StraightPath a b p) (t : Fin T) : Within L m (p t) :=
  fun i => path_between hT hp t i (ha i) (hb i)

theorem linear_eq {d T : ℕ} (hT : 2 ≤ T) (a b : Fin d → ℝ) :
    ∃ p : Fin T → Fin d → ℝ, linearTrajectory (List.ofFn a) (List.ofFn b) (T : ℤ) = .ok (rows p) ∧
      StraightPath a b p := by
  refine ⟨_, linearTrajectory_rows a b T hT, fun t i => ?_⟩
  ring

/-- **C88, standing sources and microphones.** In a two- or three-dimensional room (in fact any dimension) with
sides of at least 1 m every placement of the scenario `static` has two ears 16 cm apart around a centre, and
`num_sources` sources at least 1.5 m from this centre, all inside the room; nothing moves. -/
theorem C88_static_placement {r : ℕ → ℝ} (hr : UnitStream r) {d : ℕ} (hd : 0 < d) (L : Fin d → ℝ)
    (hL : ∀ i, 1 ≤ L i) (a : CliArgs) (ha : a.room = List.ofFn L) (k : ℕ) (sc : CliScene)
    (hmode : a.mode = "static") (h : placeScene r a k = .ok sc) :
    ∃ (c : Fin d → ℝ) (src : Fin a.numSources → Fin d → ℝ) (mic : Fin 2 → Fin d → ℝ),
      sc = ⟨rows src, rows mic, none⟩ ∧ Within L 0.5 c ∧ EarsAt c mic ∧ (∀ m, Within L 0.4 (mic m)) ∧
      ∀ s, TalkerSpot L (src s) ∧ 1.5 ≤ Spec.dist (src s) c := by
  unfold placeScene at h
  rw [if_pos hmode] at h
  unfold placeStatic at h
  obtain ⟨c, k1, hc, hcw⟩ := drawCenter_eq r hr L hL k
  rw [ha, hc] at h
  dsimp only at h
  obtain ⟨⟨ps, k2⟩, hps, h⟩ := (bind_eq_ok _ _ _).mp h
  obtain ⟨src, rfl, hsrc⟩ := drawTalkers_ok hr hL hps
  obtain ⟨mic, hmic, he⟩ := ears_eq hd c
  rw [hmic] at h
  have hw := ears_within hcw he
  have hcl := clampTo_eq hL fun m => within_mono (by norm_num : (0.1 : ℝ) ≤ 0.4) (hw m)
  have h : Except.ok (CliScene.mk (rows src) (clampTo (List.ofFn L) (rows mic)) none) = Except.ok sc := h
  rw [hcl] at h
  exact ⟨c, src, mic, (Except.ok.inj h).symm, hcw, he, hw, hsrc⟩

theorem mapM_ok_ofFn {β : Type} (f : ℕ → Except String β) (n : ℕ) (g : Fin n → β)
    (h : ∀ i : Fin n, f i = .ok (g i)) : (List.range n).mapM f = .ok (List.ofFn g) := by
  induction n with
  | zero => rfl
  | succ n ih =>
    have := h (Fin.last n)
    rw [Fin.val_last] at this
    rw [List.range_succ, List.mapM_append, ih (fun i => g i.castSucc) (fun i => h i.castSucc), List.ofFn_succ_last]
    simp only [List.mapM_cons, List.mapM_nil, this]
    rfl

theorem mapM_ofFn_ok {α β : Type} (f : α → Except String β) {n : ℕ} (x : Fin n → α) (g : Fin n → β)
    (h : ∀ i, f (x i) = .ok (g i)) : (List.ofFn x).mapM f = .ok (List.ofFn g) := by
  induction n with
  | zero => simp; rfl
  | succ n ih =>
    rw [List.ofFn_succ, List.mapM_cons, h 0, ih (fun i => x i.succ) (fun i => g i.succ) (fun i => h i.succ),
      List.ofFn_succ (f := g)]
    rfl

theorem stackSecond_eq {T n d : ℕ} (p : Fin n → Fin T → Fin d → ℝ) :
    stackSecond T (List.ofFn fun s => rows (p s)) = Spec.steps fun t s => p s t := by
  unfold stackSecond Spec.steps
  apply List.ext_getElem
  · simp
  · intro t h1 h2
    have ht : t < T := by simpa using h1
    simp only [List.getElem_map, List.getElem_range, List.getElem_ofFn, rows, List.map_ofFn]
    congr 1
    funext s
    simp [ht]

theorem rows_getD {n d : ℕ} (p : Fin n → Fin d → ℝ) (i : Fin n) : (rows p).getD i [] = List.ofFn (p i) := by
  rw [List.getD_eq_getElem _ _ (by simp [rows])]
  simp [rows]

theorem steps_const {T n d : ℕ} (p : Fin n → Fin d → ℝ) :
    List.replicate T (rows p) = Spec.steps fun _ : Fin T => p := by
  simp [Spec.steps, List.ofFn_const]

theorem clampSteps {T n d : ℕ} {L : Fin d → ℝ} (hL : ∀ i, 1 ≤ L i) {p : Fin T → Fin n → Fin d → ℝ}
    (h : ∀ t k, Within L 0.1 (p t k)) : (Spec.steps p).map (clampTo (List.ofFn L)) = Spec.steps p := by
  unfold Spec.steps
  rw [List.map_ofFn]
  congr 1
  funext t
  exact clampTo_eq hL (h t)

/-- **C88, moving sources.** The two ears stay in place; every source walks along a straight line in
`max(2, steps)` equal steps, starts at least 1.5 m from the centre of the ears, and never leaves the room. The
positions of step 0 are those shown as the source positions. -/
theorem C88_dynamic_src_placement {r : ℕ → ℝ} (hr : UnitStream r) {d : ℕ} (hd : 0 < d) (L : Fin d → ℝ)
    (hL : ∀ i, 1 ≤ L i) (a : CliArgs) (ha : a.room = List.ofFn L) (k : ℕ) (sc : CliScene)
    (hmode : a.mode = "dynamic_src") (h : placeScene r a k = .ok sc) {T : ℕ} (hT : (T : ℤ) = max 2 a.steps) :
    ∃ (c : Fin d → ℝ) (start stop : Fin a.numSources → Fin d → ℝ) (src : Fin T → Fin a.numSources → Fin d → ℝ)
      (mic : Fin 2 → Fin d → ℝ),
      sc = ⟨rows start, rows mic, some (Spec.steps src, Spec.steps fun _ : Fin T => mic)⟩ ∧
      Within L 0.5 c ∧ EarsAt c mic ∧ (∀ m, Within L 0.4 (mic m)) ∧
      (∀ s, StraightPath (start s) (stop s) fun t => src t s) ∧ (∀ t s, TalkerSpot L (src t s)) ∧
      ∀ s, TalkerSpot L (start s) ∧ TalkerSpot L (stop s) ∧ 1.5 ≤ Spec.dist (start s) c := by
  have hT2 : 2 ≤ T := by omega
  unfold placeScene at h
  rw [if_neg (by rw [hmode]; decide), if_pos hmode] at h
  unfold placeDynamicSrc at h
  obtain ⟨c, k1, hc, hcw⟩ := drawCenter_eq r hr L hL k
  obtain ⟨mic, hmic, he⟩ := ears_eq hd c
  have hw := ears_within hcw he
  have hcl := clampTo_eq hL fun m => within_mono (by norm_num : (0.1 : ℝ) ≤ 0.4) (hw m)
  rw [ha, hc] at h
  dsimp only at h
  rw [hmic, ok_bind, hcl] at h
  obtain ⟨⟨ps, k2⟩, hps, h⟩ := (bind_eq_ok _ _ _).mp h
  obtain ⟨start, rfl, hstart⟩ := drawTalkers_ok hr hL hps
  obtain ⟨⟨qs, k3⟩, hqs, h⟩ := (bind_eq_ok _ _ _).mp h
  obtain ⟨stop, rfl, hstop⟩ := sampleZ_ok hr hL hqs
  choose p hp hpath using fun s => linear_eq hT2 (start s) (stop s)
  have hm := mapM_ok_ofFn (fun i => linearTrajectory ((rows start).getD i []) ((rows stop).getD i []) (max 2 a.steps))
    a.numSources (fun s => rows (p s)) (fun s => by rw [rows_getD, rows_getD, ← hT]; exact hp s)
  dsimp only at h
  rw [hm, ok_bind, raiseIf_bind_ok, ← hT, Int.toNat_natCast, stackSecond_eq, steps_const,
    clampSteps hL fun t s => within_mono (by norm_num : (0.1 : ℝ) ≤ 0.5)
      (path_within hT2 (hstart s).1.1 (hstop s).1 (hpath s) t)] at h
  refine ⟨c, start, stop, fun t s => p s t, mic, (Except.ok.inj h.2).symm, hcw, he, hw, hpath, fun t s => ⟨path_within hT2 (hstart s).1.1 (hstop s).1 (hpath s) t, fun h2 hl => ?_⟩,
    fun s => ⟨(hstart s).1, hstop s, (hstart s).2⟩⟩
  exact path_between hT2 (hpath s) t _ ((hstart s).1.2 h2 hl) ((hstop s).2 h2 hl)

/-- **C88, moving microphones.** The sources stay in place, at least 1.5 m from where the centre of the two ears
starts; the ears move along a straight line in `max(2, steps)` equal steps without turning and never leave the room.
The ears of step 0 are those shown as the microphone positions. -/
theorem C88_dynamic_mic_placement {r : ℕ → ℝ} (hr : UnitStream r) {d : ℕ} (hd : 0 < d) (L : Fin d → ℝ)
    (hL : ∀ i, 1 ≤ L i) (a : CliArgs) (ha : a.room = List.ofFn L) (k : ℕ) (sc : CliScene)
    (hmode : a.mode = "dynamic_mic") (h : placeScene r a k = .ok sc) {T : ℕ} (hT : (T : ℤ) = max 2 a.steps) :
    ∃ (start stop : Fin d → ℝ) (c : Fin T → Fin d → ℝ) (src : Fin a.numSources → Fin d → ℝ)
      (mic : Fin T → Fin 2 → Fin d → ℝ),
      sc = ⟨rows src, rows (mic ⟨0, by omega⟩), some (Spec.steps fun _ : Fin T => src, Spec.steps mic)⟩ ∧
      Within L 0.5 start ∧ Within L 0.5 stop ∧ StraightPath start stop c ∧ (∀ t, EarsAt (c t) (mic t)) ∧
      (∀ t m, Within L 0.4 (mic t m)) ∧
      ∀ s, TalkerSpot L (src s) ∧ 1.5 ≤ Spec.dist (src s) start := by
  have hT2 : 2 ≤ T := by omega
  unfold placeScene at h
  rw [if_neg (by rw [hmode]; decide), if_neg (by rw [hmode]; decide), if_pos hmode] at h
  unfold placeDynamicMic at h
  obtain ⟨start, k1, hc, hcw⟩ := drawCenter_eq r hr L hL k
  obtain ⟨stop, k2, hc', hcw'⟩ := drawCenter_eq r hr L hL k1
  rw [ha, hc] at h
  dsimp only at h
  rw [hc'] at h
  dsimp only at h
  obtain ⟨⟨ps, k3⟩, hps, h⟩ := (bind_eq_ok _ _ _).mp h
  obtain ⟨src, rfl, hsrc⟩ := drawTalkers_ok hr hL hps
  obtain ⟨c, hcs, hpath⟩ := linear_eq hT2 start stop
  choose mic hmic he using fun t => ears_eq hd (c t)
  have hw := fun t => ears_within (path_within hT2 hcw hcw' hpath t) (he t)
  have hm : (rows c).mapM ears = .ok (Spec.steps mic) := mapM_ofFn_ok ears (fun t => List.ofFn (c t)) _ hmic
  dsimp only at h
  rw [← hT, hcs, ok_bind, hm, ok_bind, Int.toNat_natCast, steps_const,
    clampSteps hL fun t m => within_mono (by norm_num : (0.1 : ℝ) ≤ 0.4) (hw t m)] at h
  refine ⟨start, stop, c, src, mic, ?_, hcw, hcw', hpath, he, hw, hsrc⟩
  rw [← Except.ok.inj h]
  congr 1
  obtain ⟨T, rfl⟩ : ∃ T', T = T' + 1 := ⟨T - 1, by omega⟩
  simp [Spec.steps, List.ofFn_succ]

/-- **C88.** Any other mode is rejected. -/
theorem C88_unknown_mode (r : ℕ → ℝ) (a : CliArgs) (h1 : a.mode ≠ "static") (h2 : a.mode ≠ "dynamic_src")
    (h3 : a.mode ≠ "dynamic_mic") (k : ℕ) : ∃ e, placeScene r a k = .error e := by
  unfold placeScene
  rw [if_neg h1, if_neg h2, if_neg h3]
  exact ⟨_, rfl⟩

/-! ## When a placement is found -/

theorem drawCenter_exact (r : ℕ → ℝ) {d : ℕ} (L : Fin d → ℝ) (k : ℕ) :
    drawCenter r (List.ofFn L) k = (List.ofFn (candidate r L none 0.5 k 0), k + d) := by
  unfold drawCenter samplePositions
  rw [drawPoints_rows]
  simp [rows]

theorem drawTalkers_iff (r : ℕ → ℝ) {d : ℕ} (L c : Fin d → ℝ) (n k : ℕ) :
    (∃ out, drawTalkers r n (List.ofFn L) (List.ofFn c) k = .ok out) ↔
      n ≤ (farCandidates (candidate r L (usableHeights L (some (1.5, 1.8)) 0.5) 0.5 k) c 1.5 1000).length := by
  obtain ⟨h1, h2⟩ := C46_min_distance_outcome r L c 1.5 (some (1.5, 1.8)) 0.5 1000 n k
  unfold drawTalkers
  constructor
  · rintro ⟨out, h⟩
    by_contra hlt
    obtain ⟨e, he⟩ := h1 (not_le.mp hlt)
    rw [he] at h
    cases h
  · intro h
    obtain ⟨k', -, h'⟩ := h2 h
    exact ⟨_, h'⟩

theorem sampleZ_total (r : ℕ → ℝ) {d : ℕ} (L : Fin d → ℝ) {n : ℕ} (hn : 0 < n) (k : ℕ) :
    ∃ out, samplePositionsZ r n (List.ofFn L) 1.5 1.8 0.5 k = .ok out := by
  unfold samplePositionsZ
  dsimp only
  by_cases h1 : (List.ofFn L).length < 3
  · rw [if_pos h1]
    exact ⟨_, rfl⟩
  · rw [if_neg h1]
    by_cases h2 : (heightRange (List.ofFn L) 0.5 1.5 1.8).2 ≤ (heightRange (List.ofFn L) 0.5 1.5 1.8).1
    · rw [if_pos h2]
      exact ⟨_, rfl⟩
    · rw [if_neg h2, if_neg hn.ne']
      exact ⟨_, rfl⟩

theorem trajs_total {n : ℕ} {T : ℤ} (hT : 2 ≤ T) (starts stops : List Vec) :
    ∃ out, (List.range n).mapM (fun i => linearTrajectory (starts.getD i []) (stops.getD i []) T) = .ok out ∧
      out.length = n := by
  refine ⟨List.ofFn fun i : Fin n => (List.range T.toNat).map fun (t : ℕ) =>
    List.zipWith (fun a b => a + (b - a) * t / ((T : ℝ) - 1)) (starts.getD i []) (stops.getD i []),
    mapM_ok_ofFn _ _ _ fun i => ?_, by simp⟩
  unfold linearTrajectory
  rw [if_neg (by omega), if_neg (by omega)]

/-- **C88, acceptance.** The first point drawn is the centre of the ears (of their first step if they move). A
placement is found exactly if among the next 1000 points at least `num_sources` are 1.5 m or more away from it; moving
sources need at least one source. -/
theorem C88_placement_outcome (r : ℕ → ℝ) {d : ℕ} (hd : 0 < d) (L : Fin d → ℝ) (a : CliArgs)
    (ha : a.room = List.ofFn L) (k : ℕ) :
    let far := fun j => farCandidates (candidate r L (usableHeights L (some (1.5, 1.8)) 0.5) 0.5 j)
      (candidate r L none 0.5 k 0) 1.5 1000
    (a.mode = "static" → ((∃ sc, placeScene r a k = .ok sc) ↔ a.numSources ≤ (far (k + d)).length)) ∧
    (a.mode = "dynamic_src" → ((∃ sc, placeScene r a k = .ok sc) ↔
      0 < a.numSources ∧ a.numSources ≤ (far (k + d)).length)) ∧
    (a.mode = "dynamic_mic" → ((∃ sc, placeScene r a k = .ok sc) ↔ a.numSources ≤ (far (k + d + d)).length)) := by
  intro far
  obtain ⟨mic, hmic, -⟩ := ears_eq hd (candidate r L none 0.5 k 0)
  refine ⟨fun hm => ?_, fun hm => ?_, fun hm => ?_⟩
  · rw [← drawTalkers_iff]
    unfold placeScene
    rw [if_pos hm]
    unfold placeStatic
    rw [ha, drawCenter_exact]
    dsimp only
    rw [hmic]
    constructor
    · rintro ⟨sc, h⟩
      obtain ⟨out, h, -⟩ := (bind_eq_ok _ _ _).mp h
      exact ⟨out, h⟩
    · rintro ⟨out, h⟩
      rw [h]
      exact ⟨_, rfl⟩
  · rw [← drawTalkers_iff]
    unfold placeScene
    rw [if_neg (by rw [hm]; decide), if_pos hm]
    unfold placeDynamicSrc
    rw [ha, drawCenter_exact]
    dsimp only
    rw [hmic, ok_bind]
    constructor
    · rintro ⟨sc, h⟩
      obtain ⟨out, h1, h⟩ := (bind_eq_ok _ _ _).mp h
      refine ⟨?_, out, h1⟩
      obtain ⟨out2, -, h⟩ := (bind_eq_ok _ _ _).mp h
      obtain ⟨trajs, h2, hl⟩ := trajs_total (n := a.numSources) (le_max_left 2 a.steps) out.1 out2.1
      rw [h2, ok_bind, raiseIf_bind_ok] at h
      rw [← hl]
      exact List.length_pos_iff.mpr h.1
    · rintro ⟨hn, out, h⟩
      rw [h, ok_bind]
      obtain ⟨out2, h'⟩ := sampleZ_total r L hn out.2
      rw [h', ok_bind]
      obtain ⟨trajs, h2, hl⟩ := trajs_total (n := a.numSources) (le_max_left 2 a.steps) out.1 out2.1
      rw [h2, ok_bind, raiseIf_neg (by rintro rfl; simp at hl; omega), ok_bind]
      exact ⟨_, rfl⟩
  · rw [← drawTalkers_iff]
    unfold placeScene
    rw [if_neg (by rw [hm]; decide), if_neg (by rw [hm]; decide), if_pos hm]
    unfold placeDynamicMic
    rw [ha, drawCenter_exact]
    dsimp only
    rw [drawCenter_exact]
    dsimp only
    constructor
    · rintro ⟨sc, h⟩
      obtain ⟨out, h, -⟩ := (bind_eq_ok _ _ _).mp h
      exact ⟨out, h⟩
    · rintro ⟨out, h⟩
      rw [h, ok_bind]
      obtain ⟨T, hT⟩ : ∃ T : ℕ, (T : ℤ) = max 2 a.steps := ⟨(max 2 a.steps).toNat, by omega⟩
      obtain ⟨c, hc, -⟩ := linear_eq (T := T) (by omega) (candidate r L none 0.5 k 0)
        (candidate r L none 0.5 (k + d) 0)
      choose m hm2 _ using fun t => ears_eq hd (c t)
      have hmm : (rows c).mapM ears = .ok (Spec.steps m) := mapM_ofFn_ok ears (fun t => List.ofFn (c t)) _ hm2
      rw [← hT, hc, ok_bind, hmm, ok_bind]
      exact ⟨_, rfl⟩

/-! ## What does not hold -/

theorem talkers_first {r : ℕ → ℝ} {size center p : Vec} {k k1 k2 : ℕ} {q : Vec} (hl : center.length = size.length)
    (h1 : drawPoint r (marginBox size 0.5) k = (q, k1)) (h2 : adjustHeight r size (some (1.5, 1.8)) 0.5 q k1 = (p, k2))
    (hd : 1.5 ≤ norm2 (vsub p center)) : drawTalkers r 1 size center k = .ok ([p], k2) := by
  unfold drawTalkers samplePositionsMinDistance
  rw [if_neg (not_not.mpr hl)]
  have : minDistanceLoop r size center 1.5 (some (1.5, 1.8)) 0.5 1000 1 [] k = ([p], k2) := by
    rw [minDistanceLoop, h1]
    dsimp only
    rw [h2]
    dsimp only
    rw [if_pos hd, minDistanceLoop]
    · rfl
    · simp
  rw [this]
  rfl

/-- The values 0, 0, 0, 1, 1, 1, …. -/
noncomputable def lowStream (k : ℕ) : ℝ := if k < 3 then 0 else 1

/-- **C88 fails in low rooms.** In a room 30 cm high the source of the standing scenario can be placed 20 cm below the
floor: the margin of 50 cm turns the range of heights around, and only the microphones are moved back into the room. -/
theorem C88_low_room_fails : UnitStream lowStream ∧
    placeScene lowStream { mode := "static", room := [6, 4, 0.3], numSources := 1 } 0
      = .ok ⟨[[5.5, 3.5, -0.2]], [[0.42, 0.5, 0.2], [0.58, 0.5, 0.2]], none⟩ := by
  constructor
  · intro k
    unfold lowStream
    split_ifs <;> norm_num
  have hc : drawCenter lowStream [6, 4, 0.3] 0 = ([0.5, 0.5, 0.5], 3) := by
    norm_num [drawCenter, samplePositions, drawPoints, drawPoint, marginBox, uniform, lowStream]
  have ht : drawTalkers lowStream 1 [6, 4, 0.3] [0.5, 0.5, 0.5] 3 = .ok ([[5.5, 3.5, -0.2]], 6) := by
    refine talkers_first (q := [5.5, 3.5, -0.2]) (k1 := 6) rfl ?_ ?_ ?_
    · norm_num [drawPoint, marginBox, uniform, lowStream]
    · norm_num [adjustHeight, heightRange]
    · unfold norm2
      apply Real.le_sqrt_of_sq_le
      norm_num [vsub, dot]
  have he : ears [0.5, 0.5, 0.5] = .ok [[0.42, 0.5, 0.5], [0.58, 0.5, 0.5]] := by
    norm_num [ears, binauralArray, castVec, vadd, vsub, List.replicate]
  unfold placeScene
  rw [if_pos rfl]
  unfold placeStatic
  dsimp only
  rw [hc]
  dsimp only
  rw [ht, ok_bind]
  dsimp only
  rw [he, ok_bind]
  norm_num [clampTo, clampPositions, clampPosition, castVec]
  rfl

/-- The values 0, 0, 1, 1, 0, 0, …. -/
noncomputable def meetingStream (k : ℕ) : ℝ := if k = 2 ∨ k = 3 then 1 else 0

/-- **C88: the distance of 1.5 m holds at the start only.** A moving source can end right between the ears. -/
theorem C88_distance_kept_fails : UnitStream meetingStream ∧
    placeScene meetingStream { mode := "dynamic_src", room := [6, 4], numSources := 1, steps := 2 } 0
      = .ok ⟨[[5.5, 3.5]], [[0.42, 0.5], [0.58, 0.5]],
          some ([[[5.5, 3.5]], [[0.5, 0.5]]], [[[0.42, 0.5], [0.58, 0.5]], [[0.42, 0.5], [0.58, 0.5]]])⟩ := by
  constructor
  · intro k
    unfold meetingStream
    split_ifs <;> norm_num
  have hc : drawCenter meetingStream [6, 4] 0 = ([0.5, 0.5], 2) := by
    norm_num [drawCenter, samplePositions, drawPoints, drawPoint, marginBox, uniform, meetingStream]
  have ht : drawTalkers meetingStream 1 [6, 4] [0.5, 0.5] 2 = .ok ([[5.5, 3.5]], 4) := by
    refine talkers_first (q := [5.5, 3.5]) (k1 := 4) rfl ?_ ?_ ?_
    · norm_num [drawPoint, marginBox, uniform, meetingStream]
    · norm_num [adjustHeight]
    · unfold norm2
      apply Real.le_sqrt_of_sq_le
      norm_num [vsub, dot]
  have hz : samplePositionsZ meetingStream 1 [6, 4] 1.5 1.8 0.5 4 = .ok ([[0.5, 0.5]], 6) := by
    norm_num [samplePositionsZ, samplePositions, drawPoints, drawPoint, marginBox, uniform, meetingStream]
  have he : ears [0.5, 0.5] = .ok [[0.42, 0.5], [0.58, 0.5]] := by
    norm_num [ears, binauralArray, castVec, vadd, vsub, List.replicate]
  have hl : linearTrajectory [5.5, 3.5] [0.5, 0.5] 2 = .ok [[5.5, 3.5], [0.5, 0.5]] := by
    norm_num [linearTrajectory, show Int.toNat 2 = 2 from rfl, List.range_succ]
  have hm : clampTo [6, 4] [[0.42, 0.5], [0.58, 0.5]] = [[0.42, 0.5], [0.58, 0.5]] := by
    norm_num [clampTo, clampPositions, clampPosition, castVec]
  have hs : (stackSecond 2 [[[5.5, 3.5], [0.5, 0.5]]]).map (clampTo [6, 4]) = [[[5.5, 3.5]], [[0.5, 0.5]]] := by
    norm_num [stackSecond, List.range_succ, clampTo, clampPositions, clampPosition, castVec]
  unfold placeScene
  rw [if_neg (by decide), if_pos rfl]
  unfold placeDynamicSrc
  dsimp only
  rw [hc]
  dsimp only
  rw [he, ok_bind, ht, ok_bind]
  dsimp only
  rw [hz, ok_bind, hm]
  have hr : (List.range 1).mapM (fun i => linearTrajectory ([[5.5, 3.5]].getD i []) ([[0.5, 0.5]].getD i []) (max 2 2))
      = .ok [[[5.5, 3.5], [0.5, 0.5]]] := by
    rw [mapM_ok_ofFn _ 1 (fun _ => [[5.5, 3.5], [0.5, 0.5]])]
    · simp
    · intro i
      fin_cases i
      exact hl
  dsimp only
  rw [hr, ok_bind, raiseIf_neg (by simp), ok_bind]
  show Except.ok (CliScene.mk _ _ (some ((stackSecond 2 _).map (clampTo [6, 4]), _))) = _
  rw [hs]
  rfl

/-! ## Audio -/

theorem floats_ofFn (conv : Flt → ℤ) {n : ℕ} (hn : 0 < n) (v : Fin n → ℝ) :
    asTensorList conv (List.ofFn fun i => PyNum.float (.fin (v i))) none
      = ⟨.floating, ⟨[n], List.ofFn fun i => .fin (v i)⟩⟩ := by
  unfold asTensorList
  rw [if_neg]
  · simp only [Option.getD_none, castTo, List.length_ofFn, List.map_ofFn]
    rfl
  · rintro ⟨h, -⟩
    rw [List.all_eq_true] at h
    have := h (.float (.fin (v ⟨0, hn⟩))) ((List.mem_ofFn' _ _).mpr ⟨_, rfl⟩)
    simp at this

theorem cliRoom_eq (conv : Flt → ℤ) {d : ℕ} (hd : d = 2 ∨ d = 3) (L : Fin d → ℝ) (hL : ∀ i, 0 < L i)
    (a : CliArgs) (ha : a.room = List.ofFn L) (fs : ℝ) (hfs : 0 < fs) :
    cliRoom conv a fs = .ok (boxRoom L (fun _ => 0.9) (fun _ => 0.9) fs 343) := by
  have hd0 : 0 < d := by omega
  unfold cliRoom shoebox
  have e : List.replicate (if a.room.length = 3 then 6 else 4) (PyNum.float (.fin 0.9))
      = List.ofFn fun _ : Fin (2 * d) => PyNum.float (.fin 0.9) := by
    rw [ha, List.length_ofFn, List.ofFn_const]
    rcases hd with rfl | rfl <;> rfl
  have e2 : (a.room.map fun x => PyNum.float (.fin x)) = List.ofFn fun i => PyNum.float (.fin (L i)) := by
    rw [ha, List.map_ofFn]
    rfl
  rw [e, e2]
  simp only [Option.map_some]
  rw [floats_ofFn conv hd0 L, floats_ofFn conv (by omega) fun _ => 0.9]
  have e1 : ensureDimT ⟨[d], List.ofFn fun i => Flt.fin (L i)⟩ = .ok () := by
    unfold ensureDimT
    rw [raiseIf_ok]
    rcases hd with rfl | rfl <;> simp [Tensor.ndim, Tensor.numel]
  rw [e1, ok_bind, roomNew_of ⟨?_, ?_, ?_, ?_, by simp, by simp⟩ _ rfl ?_ ?_, ok_bind]
  · show Except.ok _ = Except.ok _
    unfold RoomObj.toRoom boxRoom wallList
    simp only [Except.ok.injEq, Room.mk.injEq, List.map_ofFn, Option.map_some, Option.map_none, storedBeta]
    refine ⟨rfl, rfl, rfl, ?_, trivial⟩
    rcases hd with rfl | rfl <;> simp [castTo, List.ofFn_succ, Flt.toReal]
  · rcases hd with rfl | rfl <;> simp [Tensor.ndim, Tensor.numel]
  · intro x hx
    obtain ⟨i, rfl⟩ := (List.mem_ofFn' _ _).mp hx
    exact ⟨_, hL i, rfl⟩
  · simpa [Flt.leZero] using hfs
  · simp [Flt.leZero]
  · rcases hd with rfl | rfl <;> simp [castTo, Tensor.numel]
  · intro x hx
    obtain ⟨i, rfl⟩ := (List.mem_ofFn' _ _).mp hx
    exact ⟨0.9, by norm_num, by norm_num, rfl⟩

theorem defaultConfig_valid : defaultConfig.validate = .ok () := by
  rw [Config.valid_iff]
  refine ⟨?_, ?_, ?_, ?_, ?_⟩ <;> simp [defaultConfig]

theorem args_eq {d nS nM : ℕ} (w : World) (L lo hi : Fin d → ℝ) (fs c : ℝ) (src : Fin nS → Fin d → ℝ)
    (mic : Fin nM → Fin d → ℝ) (N K : ℕ) (hK : 0 < K) (tmax : ℝ) (ht : (K : ℤ) = ⌈tmax * fs⌉) :
    simulateRir w (boxRoom L lo hi fs c) (points src) (points mic) { maxOrder := some (N : ℤ), tmax := some tmax }
      = simulateRir w (boxRoom L lo hi fs c) (points src) (points mic)
          (omniArgs (d := d) (.order N) K defaultConfig) := by
  have hv := defaultConfig_valid
  have r1 : resolveConfig { maxOrder := some (N : ℤ), tmax := some tmax }
      = .ok (defaultConfig, (N : ℤ), some tmax, .one "omni") := by
    unfold resolveConfig
    dsimp only [Option.getD_none]
    rw [hv]
    rfl
  have r2 : resolveConfig (omniArgs (d := d) (.order N) K defaultConfig)
      = .ok (defaultConfig, (N : ℤ), none, .one "omni") := by
    unfold resolveConfig omniArgs
    dsimp only [Option.getD_some]
    rw [hv]
    rfl
  have v1 : validateArgs (boxRoom L lo hi fs c) none (some tmax) N = .ok (K : ℤ) := by
    unfold validateArgs resolveNsample
    show (Except.ok ⌈tmax * fs⌉ >>= _) = _
    rw [← ht, ok_bind, raiseIf_neg (by omega), ok_bind, raiseIf_neg (by omega)]
    rfl
  have v2 : validateArgs (boxRoom L lo hi fs c) (some (K : ℤ)) none N = .ok (K : ℤ) := by
    unfold validateArgs resolveNsample
    show (Except.ok (K : ℤ) >>= _) = _
    rw [ok_bind, raiseIf_neg (by omega), ok_bind, raiseIf_neg (by omega)]
    rfl
  unfold simulateRir
  rw [r1, r2, ok_bind, ok_bind]
  show (validateArgs (boxRoom L lo hi fs c) none (some tmax) N >>= _) =
    (validateArgs (boxRoom L lo hi fs c) (some (K : ℤ)) none N >>= _)
  rw [v1, v2, ok_bind, ok_bind]
  rfl

theorem pointsTensor_rows {n d : ℕ} (hn : 0 < n) (p : Fin n → Fin d → ℝ) : pointsTensor (rows p) = tensor2 p := by
  obtain ⟨n, rfl⟩ : ∃ k, n = k + 1 := ⟨n - 1, by omega⟩
  simp [pointsTensor, rows, tensor2, List.ofFn_succ]

theorem trajTensor_steps {T n d : ℕ} (hT : 0 < T) (hn : 0 < n) (p : Fin T → Fin n → Fin d → ℝ) :
    trajTensor (Spec.steps p) = tensor3 p := by
  obtain ⟨n, rfl⟩ : ∃ k, n = k + 1 := ⟨n - 1, by omega⟩
  obtain ⟨T, rfl⟩ : ∃ k, T = k + 1 := ⟨T - 1, by omega⟩
  unfold trajTensor Spec.steps tensor3
  congr 1
  · simp [rows, List.ofFn_succ]
  · rw [List.flatten_flatten, List.map_ofFn]
    rfl

/-- **C88, audio of the standing scenario.** The responses are those of the image method with the order, wall
coefficient 0.9 and `ceil(tmax * fs)` samples, with the filter `G` applied to every path; the audio is the sum over
the sources of the signals convolved with the responses. -/
theorem C88_static_audio {d S M n : ℕ} (hd : d = 2 ∨ d = 3) (hS : 0 < S) (hM : 0 < M) (conv : Flt → ℤ) (w : World)
    (r : ℕ → ℝ) (L : Fin d → ℝ) (hL : ∀ i, 0 < L i) (a : CliArgs) (ha : a.room = List.ofFn L) (N : ℕ)
    (hN : a.order = N) (fs : ℝ) (hfs : 20 < fs) (K : ℕ) (hK : 0 < K) (ht : (K : ℤ) = ⌈a.tmax * fs⌉)
    (sos : w.Sos) (hsos : w.iirfilter 2 (10 / (fs / 2)) [("rp", "5.0"), ("rs", "60.0"), ("ftype", "butter")] = .ok sos)
    (G : (Fin K → ℝ) →ₗ[ℝ] (Fin K → ℝ)) (hG : ActsAs w sos G) (x : Fin S → Fin n → ℝ) (k : ℕ)
    (src : Fin S → Fin d → ℝ) (mic : Fin M → Fin d → ℝ)
    (h : placeScene r a k = .ok ⟨rows src, rows mic, none⟩) :
    runScene conv w r a (tensor2 x) fs k = .ok (⟨rows src, rows mic, none⟩,
      tensor3 (fun s m => cliResponse (w.device ≠ .mps) L fs N G (src s) (mic m)),
      micTensor (n + K - 1) (mix x fun s m => cliResponse (w.device ≠ .mps) L fs N G (src s) (mic m))) := by
  have hfs0 : 0 < fs := by linarith
  have hsim := C85_filtered_formula hd hS hM w L (fun _ => 0.9) (fun _ => 0.9) fs 343 hfs0 (by norm_num) (.order N) K hK
    defaultConfig defaultConfig_valid rfl rfl (show (10 : ℝ) < fs / 2 by linarith) sos hsos G hG src mic
  rw [← args_eq w L _ _ fs 343 src mic N K hK a.tmax ht] at hsim
  unfold runScene renderScene
  rw [cliRoom_eq conv hd L hL a ha fs hfs0, ok_bind, h, ok_bind]
  dsimp only
  rw [pointsTensor_rows hS, pointsTensor_rows hM, hN]
  have hsim : simulateRir w (boxRoom L (fun _ => 0.9) (fun _ => 0.9) fs 343) ⟨tensor2 src, none⟩ ⟨tensor2 mic, none⟩
      { maxOrder := some (N : ℤ), tmax := some a.tmax }
      = .ok (tensor3 fun s m => cliResponse (w.device ≠ .mps) L fs N G (src s) (mic m)) := hsim
  rw [hsim, ok_bind, C23_convolve_rir_formula x _ (Or.inl rfl) (Or.inl rfl) (by omega)]
  rfl

/-- **C88, audio of the moving scenarios.** Every step has the responses of its positions, and every sample of the
signals passes through the responses of the step that is current at the sample, the steps being spread evenly over the
signal. -/
theorem C88_dynamic_audio {d S M n T : ℕ} (hd : d = 2 ∨ d = 3) (hS : 0 < S) (hM : 0 < M) (hT : 0 < T)
    (conv : Flt → ℤ) (w : World)
    (r : ℕ → ℝ) (L : Fin d → ℝ) (hL : ∀ i, 0 < L i) (a : CliArgs) (ha : a.room = List.ofFn L) (N : ℕ)
    (hN : a.order = N) (fs : ℝ) (hfs : 20 < fs) (K : ℕ) (hK : 0 < K) (ht : (K : ℤ) = ⌈a.tmax * fs⌉)
    (sos : w.Sos) (hsos : w.iirfilter 2 (10 / (fs / 2)) [("rp", "5.0"), ("rs", "60.0"), ("ftype", "butter")] = .ok sos)
    (G : (Fin K → ℝ) →ₗ[ℝ] (Fin K → ℝ)) (hG : ActsAs w sos G) (x : Fin S → Fin n → ℝ) (k : ℕ)
    (src : Fin T → Fin S → Fin d → ℝ) (mic : Fin T → Fin M → Fin d → ℝ) (shownSrc shownMic : List Vec)
    (h : placeScene r a k = .ok ⟨shownSrc, shownMic, some (Spec.steps src, Spec.steps mic)⟩)
    (step : Fin n → Fin T) (hstep : CurrentStep (fun t : Fin T => (t : ℕ) * n / T) step) :
    runScene conv w r a (tensor2 x) fs k = .ok (⟨shownSrc, shownMic, some (Spec.steps src, Spec.steps mic)⟩,
      tensor4 (fun t s m => cliResponse (w.device ≠ .mps) L fs N G (src t s) (mic t m)),
      micTensor (n + K - 1)
        (mixVarying x (fun t s m => cliResponse (w.device ≠ .mps) L fs N G (src t s) (mic t m)) step)) := by
  have hfs0 : 0 < fs := by linarith
  have hsim : simulateDynamicRir w (boxRoom L (fun _ => 0.9) (fun _ => 0.9) fs 343) (tensor3 src) (tensor3 mic)
      { maxOrder := some (N : ℤ), tmax := some a.tmax }
      = .ok (tensor4 fun t s m => cliResponse (w.device ≠ .mps) L fs N G (src t s) (mic t m)) := by
    refine (C13_dynamic_is_static_per_step hT w (boxRoom L (fun _ => 0.9) (fun _ => 0.9) fs 343) L rfl hfs0 src mic _
      _).mpr ⟨_, fun t => ?_, (stack_tensor3 hT _).symm⟩
    have := C85_filtered_formula hd hS hM w L (fun _ => 0.9) (fun _ => 0.9) fs 343 hfs0 (by norm_num) (.order N) K hK
      defaultConfig defaultConfig_valid rfl rfl (show (10 : ℝ) < fs / 2 by linarith) sos hsos G hG (src t) (mic t)
    rw [← args_eq w L _ _ fs 343 (src t) (mic t) N K hK a.tmax ht] at this
    exact this
  unfold runScene renderScene
  rw [cliRoom_eq conv hd L hL a ha fs hfs0, ok_bind, h, ok_bind]
  dsimp only
  rw [trajTensor_steps hT hS, trajTensor_steps hT hM, hN, hsim, ok_bind,
    C24_trajectory_formula w.device x _ (Or.inl rfl) (Or.inl rfl) hT (by omega) (.uniform none) step hstep]
  rfl

/-- **C88.** A placement that fails ends the program with the same error. -/
theorem C88_rejection (conv : Flt → ℤ) (w : World) (r : ℕ → ℝ) (a : CliArgs) (x : Tensor ℝ) (fs : ℝ) (k : ℕ)
    (e : String) {d : ℕ} (hd : d = 2 ∨ d = 3) (L : Fin d → ℝ) (hL : ∀ i, 0 < L i) (ha : a.room = List.ofFn L)
    (hfs : 0 < fs) (h : placeScene r a k = .error e) : runScene conv w r a x fs k = .error e := by
  unfold runScene
  rw [cliRoom_eq conv hd L hL a ha fs hfs, ok_bind, h]
  rfl

/-! ## Cases meeting the hypotheses -/

/-- The values 0, 0, 1, 1, 1, …. -/
noncomputable def cornerStream (k : ℕ) : ℝ := if k < 2 then 0 else 1

theorem cornerStream_unit : UnitStream cornerStream := by
  intro k
  unfold cornerStream
  split_ifs <;> norm_num

theorem corner_far (j : ℕ) (hj : 2 ≤ j) :
    (farCandidates (candidate cornerStream ![6, 4] (usableHeights ![6, 4] (some (1.5, 1.8)) 0.5) 0.5 j)
      (candidate cornerStream ![6, 4] none 0.5 0 0) 1.5 1000).length = 1000 := by
  unfold farCandidates
  rw [List.filter_eq_self.mpr]
  · simp
  · intro p hp
    rw [List.mem_map] at hp
    obtain ⟨i, -, rfl⟩ := hp
    have e1 : cornerStream (j + i * 2) = 1 := if_neg (by omega)
    have e2 : cornerStream (j + i * 2 + 1) = 1 := if_neg (by omega)
    have e3 : cornerStream 0 = 0 := if_pos (by omega)
    have e4 : cornerStream 1 = 0 := if_pos (by omega)
    simp only [decide_eq_true_eq]
    unfold Spec.dist
    apply Real.le_sqrt_of_sq_le
    rw [Fin.sum_univ_two]
    norm_num [candidate, usableHeights, e1, e2, e3, e4]

/-- Three sources in a 6 m × 4 m room: all scenarios find a placement. -/
theorem corner_places (mode : String) (hm : mode = "static" ∨ mode = "dynamic_src" ∨ mode = "dynamic_mic") :
    ∃ sc, placeScene cornerStream { mode := mode, room := List.ofFn ![6, 4], numSources := 3 } 0 = .ok sc := by
  obtain ⟨h1, h2, h3⟩ := C88_placement_outcome cornerStream (by norm_num) ![6, 4]
    { mode := mode, room := List.ofFn ![6, 4], numSources := 3 } rfl 0
  rcases hm with rfl | rfl | rfl
  · exact (h1 rfl).mpr (by rw [corner_far _ (by norm_num)]; norm_num)
  · exact (h2 rfl).mpr ⟨by norm_num, by rw [corner_far _ (by norm_num)]; norm_num⟩
  · exact (h3 rfl).mpr (by rw [corner_far _ (by norm_num)]; norm_num)

theorem sides64 (i : Fin 2) : (1 : ℝ) ≤ ![6, 4] i := by fin_cases i <;> norm_num

/-- The standing scenario with three sources of 8000 samples each, filtered by halving. -/
example (conv : Flt → ℤ) (randn : ℤ → List ℕ → List ℝ) (x : Fin 3 → Fin 8000 → ℝ) : ∃ (src : Fin 3 → Fin 2 → ℝ)
    (mic : Fin 2 → Fin 2 → ℝ) (h : Fin 3 → Fin 2 → Fin 6400 → ℝ),
    runScene conv (halvingWorld randn) cornerStream { mode := "static", room := List.ofFn ![6, 4], numSources := 3 }
      (tensor2 x) 16000 0
      = .ok (⟨rows src, rows mic, none⟩, tensor3 h, micTensor (8000 + 6400 - 1) (mix x h)) := by
  obtain ⟨sc, hsc⟩ := corner_places "static" (.inl rfl)
  obtain ⟨c, src, mic, rfl, -⟩ := C88_static_placement cornerStream_unit (by norm_num) ![6, 4] sides64 _ rfl 0 sc rfl hsc
  refine ⟨src, mic, _, C88_static_audio (Or.inl rfl) (by norm_num) (by norm_num) conv (halvingWorld randn) cornerStream
    ![6, 4] (fun i => by linarith [sides64 i]) _ rfl 8 rfl 16000 (by norm_num) 6400 (by norm_num) ?_ () rfl _
    (halving_acts randn 6400) x 0 src mic hsc⟩
  rw [eq_comm, Int.ceil_eq_iff]
  norm_num

/-- The moving scenarios with 16 steps. -/
example (conv : Flt → ℤ) (randn : ℤ → List ℕ → List ℝ) (x : Fin 3 → Fin 8000 → ℝ) : ∃ (c : Fin 16 → Fin 2 → ℝ)
    (src : Fin 3 → Fin 2 → ℝ) (mic : Fin 16 → Fin 2 → Fin 2 → ℝ) (h : Fin 16 → Fin 3 → Fin 2 → Fin 6400 → ℝ)
    (step : Fin 8000 → Fin 16), (∀ t, EarsAt (c t) (mic t)) ∧
    runScene conv (halvingWorld randn) cornerStream
      { mode := "dynamic_mic", room := List.ofFn ![6, 4], numSources := 3 } (tensor2 x) 16000 0
      = .ok (⟨rows src, rows (mic 0), some (Spec.steps fun _ : Fin 16 => src, Spec.steps mic)⟩, tensor4 h,
          micTensor (8000 + 6400 - 1) (mixVarying x h step)) := by
  obtain ⟨sc, hsc⟩ := corner_places "dynamic_mic" (.inr (.inr rfl))
  obtain ⟨a, b, c, src, mic, rfl, -, -, -, he, -⟩ := C88_dynamic_mic_placement cornerStream_unit (by norm_num) ![6, 4]
    sides64 _ rfl 0 sc rfl hsc (T := 16) rfl
  obtain ⟨step, hstep, -⟩ := C24_every_sample_has_one_step (T := 16) (N := 8000) (by norm_num) (.uniform none)
  refine ⟨c, src, mic, _, step, he, C88_dynamic_audio (Or.inl rfl) (by norm_num) (by norm_num) (by norm_num) conv
    (halvingWorld randn) cornerStream ![6, 4] (fun i => by linarith [sides64 i]) _ rfl 8 rfl 16000 (by norm_num) 6400
    (by norm_num) ?_ () rfl _ (halving_acts randn 6400) x 0 _ mic _ _ hsc step hstep⟩
  rw [eq_comm, Int.ceil_eq_iff]
  norm_num

example : ∃ (c : Fin 2 → ℝ) (start : Fin 3 → Fin 2 → ℝ) (src : Fin 16 → Fin 3 → Fin 2 → ℝ) (mic : Fin 2 → Fin 2 → ℝ),
    placeScene cornerStream { mode := "dynamic_src", room := List.ofFn ![6, 4], numSources := 3 } 0
      = .ok ⟨rows start, rows mic, some (Spec.steps src, Spec.steps fun _ : Fin 16 => mic)⟩ ∧ EarsAt c mic := by
  obtain ⟨sc, hsc⟩ := corner_places "dynamic_src" (.inr (.inl rfl))
  obtain ⟨c, start, stop, src, mic, rfl, -, he, -⟩ := C88_dynamic_src_placement cornerStream_unit (by norm_num) ![6, 4]
    sides64 _ rfl 0 sc rfl hsc (T := 16) rfl
  exact ⟨c, start, src, mic, hsc, he⟩

end Torchrir.Props
