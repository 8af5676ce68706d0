import Verif.Lemmas.Scene
import Verif.Lemmas.Plan
import Verif.Props.Args

/-! # Scenes and the simulator: C37, C38, C39 -/

namespace Torchrir.Props

open Torchrir.Model Torchrir.Spec Torchrir.Lemmas

/-! ## Acceptance -/

theorem validateSceneEntities_ok (room : Room) (S M : Entity) :
    validateSceneEntities room S M = .ok () ↔
      S.positions.shape.getD 1 0 = room.size.length ∧
      M.positions.shape.getD 1 0 = room.size.length := by
  unfold validateSceneEntities
  dsimp only
  rw [raiseIf_bind_ok, raiseIf_ok]
  simp

theorem staticSceneNew_ok (room : Room) (S M : Entity) (sc : StaticScene) :
    staticSceneNew room S M = .ok sc ↔ sc = ⟨room, S, M⟩ ∧
      S.positions.shape.getD 1 0 = room.size.length ∧
      M.positions.shape.getD 1 0 = room.size.length := by
  unfold staticSceneNew StaticScene.validate
  rw [bind_eq_ok, ← validateSceneEntities_ok]
  constructor
  · rintro ⟨_, h1, h2⟩
    exact ⟨(Except.ok.inj h2).symm, h1⟩
  · rintro ⟨rfl, h⟩
    exact ⟨(), h, rfl⟩

/-- The shapes of `n` positions in `d` dimensions. -/
def PositionShape (s : List ℕ) (n d : ℕ) : Prop := (d = 2 ∨ d = 3) ∧ (s = [n, d] ∨ n = 1 ∧ s = [d])

/-- The shapes of orientations of `n` entities: in 2-D angles or vectors, in 3-D pairs of azimuth and
elevation or vectors; one for all or one for each. -/
def OrientationShape (s : List ℕ) (n d : ℕ) : Prop :=
  d = 2 ∧ (s = [] ∨ s = [1] ∨ s = [2] ∨ s = [n] ∨ s = [n, 1] ∨ s = [n, 2]) ∨
  d = 3 ∧ (s = [2] ∨ s = [3] ∨ s = [n, 2] ∨ s = [n, 3])

theorem orientationShapeOk_iff (o : Tensor Flt) (n d : ℕ) (hd : d = 2 ∨ d = 3) :
    orientationShapeOk o n d = true ↔ OrientationShape o.shape n d := by
  obtain ⟨s, x⟩ := o
  unfold orientationShapeOk OrientationShape
  rcases hd with rfl | rfl
  all_goals
    rcases s with _ | ⟨a, _ | ⟨b, _ | ⟨c, s⟩⟩⟩ <;> simp [Tensor.ndim, Tensor.numel]
  tauto
  tauto

/-- **C37 (sources and microphones).** A group is accepted exactly when its positions are finite and of
dimension 2 or 3 and its orientations, if any, are finite and of a shape that fits the positions. -/
theorem C37_entity_accepted_iff (p : Tensor Flt) (o : Option (Tensor Flt)) :
    (∃ e, entityNew p o = .ok e) ↔ ∃ n d, PositionShape p.shape n d ∧ (∀ x ∈ p.data, x.isFinite) ∧
      ∀ t, o = some t → OrientationShape t.shape n d ∧ ∀ x ∈ t.data, x.isFinite := by
  have hpos : ∀ q, normalizeEntityPositions p = .ok q ↔ (∀ x ∈ p.data, x.isFinite) ∧
      ∃ n d, PositionShape p.shape n d ∧ q = ⟨[n, d], p.data⟩ := by
    intro q
    unfold normalizeEntityPositions
    dsimp only
    rw [raiseIf_bind_ok, raiseIf_bind_ok]
    obtain ⟨s, x⟩ := p
    simp only [pure, Except.pure, Except.ok.injEq, PositionShape]
    rcases s with _ | ⟨a, _ | ⟨b, _ | ⟨c, s⟩⟩⟩ <;> simp [Tensor.ndim, Tensor.unsqueeze0]
    all_goals
      rw [or_iff_not_imp_left, eq_comm]
      tauto
  have hori : ∀ n d, (d = 2 ∨ d = 3) → ((∃ u, normalizeEntityOrientation o n d = .ok u) ↔
      ∀ t, o = some t → OrientationShape t.shape n d ∧ ∀ x ∈ t.data, x.isFinite) := by
    intro n d hd
    unfold normalizeEntityOrientation
    cases o with
    | none => simp
    | some t =>
      have : validateOrientation t n d = .ok () ↔
          OrientationShape t.shape n d ∧ ∀ x ∈ t.data, x.isFinite := by
        unfold validateOrientation
        rw [raiseIf_bind_ok, raiseIf_ok, ← orientationShapeOk_iff t n d hd, not_not, and_comm]
        simp
      simp only [Option.some.injEq, forall_eq', ← this]
      constructor
      · rintro ⟨u, hu⟩
        obtain ⟨_, h, -⟩ := (bind_eq_ok _ _ _).mp hu
        exact h
      · intro h
        rw [h, ok_bind]
        exact ⟨_, rfl⟩
  unfold entityNew
  constructor
  · rintro ⟨e, h⟩
    obtain ⟨q, hq, h⟩ := (bind_eq_ok _ _ _).mp h
    obtain ⟨u, hu, h⟩ := (bind_eq_ok _ _ _).mp h
    obtain ⟨hf, n, d, hs, rfl⟩ := (hpos q).mp hq
    exact ⟨n, d, hs, hf, (hori n d hs.1).mp ⟨u, hu⟩⟩
  · rintro ⟨n, d, hs, hf, ho⟩
    obtain ⟨u, hu⟩ := (hori n d hs.1).mpr ho
    refine ⟨_, (bind_eq_ok _ _ _).mpr ⟨_, (hpos _).mpr ⟨hf, n, d, hs, rfl⟩,
      (bind_eq_ok _ _ _).mpr ⟨u, hu, rfl⟩⟩⟩

/-- Three sources in the plane that face the same way. -/
example (x y : ℝ) (f : Fin 6 → ℝ) : ∃ e, entityNew ⟨[3, 2], List.ofFn fun i => .fin (f i)⟩
    (some ⟨[2], [.fin x, .fin y]⟩) = .ok e := by
  refine (C37_entity_accepted_iff _ _).mpr ⟨3, 2, ⟨Or.inl rfl, Or.inl rfl⟩, ?_, ?_⟩
  · intro x hx
    obtain ⟨i, rfl⟩ := (List.mem_ofFn' _ _).mp hx
    trivial
  · rintro t ⟨⟩
    exact ⟨Or.inl ⟨rfl, Or.inr (Or.inr (Or.inl rfl))⟩, by simp [Flt.isFinite]⟩

/-- **C37 (static scenes).** A static scene is accepted exactly when sources, microphones and room
have the same dimension. -/
theorem C37_static_accepted_iff (room : Room) {nS nM dS dM : ℕ} (src : Fin nS → Fin dS → ℝ)
    (mic : Fin nM → Fin dM → ℝ) (os om : Option (Tensor ℝ)) :
    (∃ sc, staticSceneNew room ⟨tensor2 src, os⟩ ⟨tensor2 mic, om⟩ = .ok sc) ↔
      dS = room.size.length ∧ dM = room.size.length := by
  constructor
  · rintro ⟨sc, h⟩
    exact ((staticSceneNew_ok _ _ _ _).mp h).2
  · rintro h
    exact ⟨_, (staticSceneNew_ok _ _ _ _).mpr ⟨rfl, h⟩⟩

example (src : Fin 2 → Fin 3 → ℝ) (mic : Fin 1 → Fin 2 → ℝ) (fs : ℝ) :
    ¬ ∃ sc, staticSceneNew { size := [6, 4, 3], fs := fs, c := 343 } (points src) (points mic)
      = .ok sc := by
  unfold points
  rw [C37_static_accepted_iff]
  simp

theorem trajSteps_ok (shape : List ℕ) (n d T : ℕ) :
    trajSteps shape n d = .ok T ↔ TrajShape shape T n d := by
  unfold TrajShape
  rcases shape with _ | ⟨a, _ | ⟨b, _ | ⟨c, _ | ⟨e, s⟩⟩⟩⟩
  · simp [trajSteps]
  · simp [trajSteps]
  · simp only [trajSteps]
    split_ifs with h1 h2 <;> simp_all
  · simp only [trajSteps]
    split_ifs with h1 <;> simp <;> tauto
  · simp [trajSteps]

theorem validateTraj_ok (traj : Tensor Flt) (n d T : ℕ) :
    validateTraj traj n d = .ok T ↔ (∀ x ∈ traj.data, x.isFinite) ∧ TrajShape traj.shape T n d := by
  unfold validateTraj
  rw [raiseIf_bind_ok, trajSteps_ok, not_not]

/-- The trajectories fit the entities. -/
def TrajsFit (nS nM d : ℕ) (a b : Tensor Flt) : Prop :=
  (∀ x ∈ a.data, x.isFinite) ∧ (∀ x ∈ b.data, x.isFinite) ∧
    ∃ T, TrajShape a.shape T nS d ∧ TrajShape b.shape T nM d

theorem validateTrajs_ok (room : Room) (S M : Entity) (a b : Tensor Flt) :
    validateTrajs room S M a b = .ok () ↔ TrajsFit (S.positions.shape.getD 0 0)
      (M.positions.shape.getD 0 0) room.size.length a b := by
  unfold validateTrajs TrajsFit
  dsimp only
  constructor
  · intro h
    obtain ⟨T, h1, h⟩ := (bind_eq_ok _ _ _).mp h
    obtain ⟨T', h2, h⟩ := (bind_eq_ok _ _ _).mp h
    rw [raiseIf_ok, not_not] at h
    subst h
    rw [validateTraj_ok] at h1 h2
    exact ⟨h1.1, h2.1, T, h1.2, h2.2⟩
  · rintro ⟨h1, h2, T, h3, h4⟩
    rw [(validateTraj_ok _ _ _ T).mpr ⟨h1, h3⟩, ok_bind, (validateTraj_ok _ _ _ T).mpr ⟨h2, h4⟩,
      ok_bind, raiseIf_ok]
    simp

theorem dynamicSceneNew_ok (room : Room) (S M : Entity) (a b : Tensor Flt) (sc : DynamicScene) :
    dynamicSceneNew room S M a b = .ok sc ↔ sc = ⟨room, S, M, a, b⟩ ∧
      S.positions.shape.getD 1 0 = room.size.length ∧
      M.positions.shape.getD 1 0 = room.size.length ∧
      TrajsFit (S.positions.shape.getD 0 0) (M.positions.shape.getD 0 0) room.size.length a b := by
  unfold dynamicSceneNew DynamicScene.validate
  rw [bind_eq_ok, ← validateTrajs_ok, ← and_assoc (c := validateTrajs _ _ _ _ _ = _),
    ← validateSceneEntities_ok]
  constructor
  · rintro ⟨_, h1, h2⟩
    obtain ⟨_, h3, h4⟩ := (bind_eq_ok _ _ _).mp h1
    exact ⟨(Except.ok.inj h2).symm, h3, h4⟩
  · rintro ⟨rfl, h1, h2⟩
    refine ⟨(), ?_, rfl⟩
    dsimp only
    rw [h1, ok_bind, h2]

/-- **C37 (dynamic scenes).** A dynamic scene is accepted exactly when all dimensions agree, the
trajectories are finite, have the shapes `(T, n, d)` — or `(T, d)` for a single entity — and the
same number of steps. -/
theorem C37_dynamic_accepted_iff (room : Room) {nS nM dS dM : ℕ} (src : Fin nS → Fin dS → ℝ)
    (mic : Fin nM → Fin dM → ℝ) (os om : Option (Tensor ℝ)) (srcTraj micTraj : Tensor Flt) :
    (∃ sc, dynamicSceneNew room ⟨tensor2 src, os⟩ ⟨tensor2 mic, om⟩ srcTraj micTraj = .ok sc) ↔
      dS = room.size.length ∧ dM = room.size.length ∧ (∀ x ∈ srcTraj.data, x.isFinite) ∧
      (∀ x ∈ micTraj.data, x.isFinite) ∧ ∃ T, TrajShape srcTraj.shape T nS room.size.length ∧
        TrajShape micTraj.shape T nM room.size.length := by
  constructor
  · rintro ⟨sc, h⟩
    exact ((dynamicSceneNew_ok _ _ _ _ _ _).mp h).2
  · rintro h
    exact ⟨_, (dynamicSceneNew_ok _ _ _ _ _ _).mpr ⟨rfl, h⟩⟩

/-- Different numbers of steps are rejected. -/
example (src : Fin 2 → Fin 3 → ℝ) (mic : Fin 1 → Fin 3 → ℝ) (fs : ℝ) :
    ¬ ∃ sc, dynamicSceneNew { size := [6, 4, 3], fs := fs, c := 343 } (points src) (points mic)
      ⟨[5, 2, 3], List.replicate 30 (.fin 1)⟩ ⟨[4, 3], List.replicate 12 (.fin 1)⟩ = .ok sc := by
  unfold points
  rw [C37_dynamic_accepted_iff]
  rintro ⟨-, -, -, -, T, h1, h2⟩
  simp only [TrajShape] at h1 h2
  simp at h1 h2
  omega

example (src : Fin 2 → Fin 3 → ℝ) (mic : Fin 1 → Fin 3 → ℝ) (fs : ℝ) :
    ∃ sc, dynamicSceneNew { size := [6, 4, 3], fs := fs, c := 343 } (points src) (points mic)
      ⟨[5, 2, 3], List.replicate 30 (.fin 1)⟩ ⟨[5, 3], List.replicate 15 (.fin 1)⟩ = .ok sc := by
  unfold points
  rw [C37_dynamic_accepted_iff]
  exact ⟨rfl, rfl, by simp [Flt.isFinite], by simp [Flt.isFinite], 5, Or.inl rfl,
    Or.inr ⟨rfl, rfl⟩⟩

/-- **C37 (deprecated scenes).** A `Scene` is accepted exactly when it is an accepted static scene
without trajectories or an accepted dynamic scene with both trajectories; it is dynamic exactly when
both are present, and the simulator turns it into that scene. -/
theorem C37_old_scene (room : Room) (S M : Entity) (a b : Option (Tensor Flt)) :
    ((∃ s, oldSceneNew room S M a b = .ok s) ↔
      (a = none ∧ b = none ∧ ∃ sc, staticSceneNew room S M = .ok sc) ∨
      ∃ ta tb, a = some ta ∧ b = some tb ∧ ∃ sc, dynamicSceneNew room S M ta tb = .ok sc) ∧
    ∀ s, oldSceneNew room S M a b = .ok s →
      (s.isDynamic = true ↔ a ≠ none ∧ b ≠ none) ∧
      (a = none → normalizeScene (.old s) = .ok (.static ⟨room, S, M⟩)) ∧
      ∀ ta tb, a = some ta → b = some tb →
        normalizeScene (.old s) = .ok (.dynamic ⟨room, S, M, ta, tb⟩) := by
  have key : ∀ s, oldSceneNew room S M a b = .ok s ↔ s = ⟨room, S, M, a, b⟩ ∧
      validateSceneEntities room S M = .ok () ∧
      OldScene.validateTrajPart ⟨room, S, M, a, b⟩ = .ok () := by
    intro s
    unfold oldSceneNew OldScene.validate
    rw [bind_eq_ok]
    constructor
    · rintro ⟨_, h1, h2⟩
      obtain ⟨_, h3, h4⟩ := (bind_eq_ok _ _ _).mp h1
      exact ⟨(Except.ok.inj h2).symm, h3, h4⟩
    · rintro ⟨rfl, h1, h2⟩
      refine ⟨(), ?_, rfl⟩
      dsimp only at h1 ⊢
      rw [h1, ok_bind, h2]
  rw [validateSceneEntities_ok] at key
  constructor
  · cases a <;> cases b <;>
      simp [key, OldScene.validateTrajPart, staticSceneNew_ok, dynamicSceneNew_ok, validateTrajs_ok,
        and_assoc]
  · intro s hs
    obtain ⟨rfl, hd, ht⟩ := (key s).mp hs
    refine ⟨by cases a <;> cases b <;> simp [OldScene.isDynamic], fun ha => ?_, fun ta tb ha hb => ?_⟩
    · subst ha
      unfold normalizeScene OldScene.toStatic
      dsimp only
      rw [if_neg (by simp [OldScene.isDynamic]), if_neg (by simp [OldScene.isDynamic]),
        (staticSceneNew_ok _ _ _ _).mpr ⟨rfl, hd⟩]
      rfl
    · subst ha hb
      unfold normalizeScene OldScene.toDynamic
      dsimp only
      rw [if_pos (by simp [OldScene.isDynamic])]
      rw [(dynamicSceneNew_ok _ _ _ _ _ _).mpr ⟨rfl, hd.1, hd.2, (validateTrajs_ok _ _ _ _ _).mp ht⟩]
      rfl

/-- One trajectory alone is rejected. -/
example (room : Room) (S M : Entity) (t : Tensor Flt) :
    ¬ ∃ s, oldSceneNew room S M (some t) none = .ok s := by
  rw [(C37_old_scene room S M (some t) none).1]
  simp

/-! ## Simulation of accepted scenes -/

theorem ismSimulatorNew_ok {s sim : IsmSimulator} (h : ismSimulatorNew s = .ok sim) :
    sim = s ∧ 0 ≤ s.maxOrder ∧ ¬ (s.tmax.isNone ∧ s.nsample.isNone) ∧
      (∀ t, s.tmax = some t → 0 < t) ∧ ∀ n, s.nsample = some n → 0 < n := by
  unfold ismSimulatorNew at h
  rw [raiseIf_bind_ok, raiseIf_bind_ok, raiseIf_bind_ok, raiseIf_bind_ok] at h
  obtain ⟨h1, h2, h3, h4, h5⟩ := h
  refine ⟨(Except.ok.inj h5).symm, not_lt.mp h1, h2, fun t ht => ?_, fun n hn => ?_⟩
  · exact not_le.mp fun h => h3 ⟨t, ht, h⟩
  · exact not_le.mp fun h => h4 ⟨n, hn, h⟩

theorem ensureNoConflict_ok {α : Type} [DecidableEq α] (f : String) (a b : Option α) :
    ensureNoConflict f a b = .ok () ↔ ∀ x y, a = some x → b = some y → x = y := by
  unfold ensureNoConflict
  cases a <;> cases b <;> simp [raiseIf_ok]

/-- The simulator's settings never fail the argument checks. -/
theorem sim_args_ok {s sim : IsmSimulator} (h : ismSimulatorNew s = .ok sim) (room : Room)
    (hfs : 0 < room.fs) {cfg : Config} (hcfg : cfg.validate = .ok ()) {dir : DirArg}
    (hdir : sim.directivity = some dir) :
    ∃ tmax, resolveConfig (sim.args cfg) = .ok (cfg, sim.maxOrder, tmax, dir) ∧
      validateArgs room sim.nsample tmax sim.maxOrder = .ok (wantedSamples sim room.fs) ∧
      0 < wantedSamples sim room.fs := by
  obtain ⟨rfl, h1, h2, h3, h4⟩ := ismSimulatorNew_ok h
  refine ⟨sim.tmax.orElse fun _ => cfg.tmax, ?_, ?_⟩
  · unfold resolveConfig IsmSimulator.args
    simp only [Option.getD_some]
    rw [hcfg, ok_bind, hdir]
    rfl
  · have hpos : 0 < wantedSamples sim room.fs := by
      unfold wantedSamples
      cases hn : sim.nsample with
      | some n => exact h4 n hn
      | none =>
        cases ht : sim.tmax with
        | some t =>
          simp only
          rw [Int.ceil_pos]
          exact mul_pos (h3 t ht) hfs
        | none => simp [hn, ht] at h2
    refine ⟨?_, hpos⟩
    unfold validateArgs
    have : resolveNsample room.fs sim.nsample (sim.tmax.orElse fun _ => cfg.tmax)
        = .ok (wantedSamples sim room.fs) := by
      unfold resolveNsample wantedSamples
      cases hn : sim.nsample with
      | some n => rfl
      | none =>
        cases ht : sim.tmax with
        | some t => rfl
        | none => simp [hn, ht] at h2
    rw [this, ok_bind, raiseIf_neg (by omega), ok_bind, raiseIf_neg (by omega), ok_bind]
    rfl

theorem counts_images {d : ℕ} {N : ℤ} (hN : 0 ≤ N) {nb : Option (List ℤ)} (h : ImageCountsFit nb d) :
    ∃ l A, imageSourceIndices N d nb = .ok l ∧ IsImageList (d := d) l A := by
  obtain ⟨N, rfl⟩ := Int.eq_ofNat_of_zero_le hN
  rcases h with rfl | ⟨f, rfl⟩
  · obtain ⟨l, h1, h2⟩ := selection_images (d := d) (.order N)
    exact ⟨l, _, h1, h2⟩
  · obtain ⟨l, h1, h2⟩ := selection_images (d := d) (.box N f)
    exact ⟨l, _, h1, h2⟩

theorem simulate_new {w : World} {sim : IsmSimulator} {sc : NewScene} {cfg : Config}
    (hv : sc.validate = .ok ()) (hc : NoConflict sim cfg) :
    sim.simulate w (.new sc) (some cfg) = (sim.run w cfg sc).map fun rirs =>
      { rirs := rirs, scene := sc, config := cfg, seed := cfg.seed } := by
  unfold IsmSimulator.simulate normalizeScene
  simp only [Option.getD_some]
  rw [ok_bind, hv, ok_bind, (ensureNoConflict_ok _ _ _).mpr, ok_bind,
    (ensureNoConflict_ok _ _ _).mpr, ok_bind]
  · cases sim.run w cfg sc <;> rfl
  · exact hc.2
  · intro x y hx hy
    cases hx
    exact (hc.1 y hy).symm

theorem entity_asPoints {e : Entity} (h : AcceptedEntity e) :
    ∃ n d, (d = 2 ∨ d = 3) ∧ e.positions.shape = [n, d] ∧
      (∃ f : Fin n → Fin d → ℝ, e.positions = tensor2 f) ∧
      ∃ o : Option (Tensor Flt), e.orientation = o.map Tensor.reals ∧
        ∀ t, o = some t → t.WF ∧ orientationShapeOk t n d = true := by
  obtain ⟨p, o, hp, ho, h⟩ := h
  obtain ⟨n, d, h1, h2, h3, h4, h5⟩ := entityNew_ok hp h
  exact ⟨n, d, h1, h2, exists_tensor2 _ h3 n d h2, o, h4, fun t ht => ⟨ho t ht, h5 t ht⟩⟩

theorem acceptedRoom_ready {conv : Flt → ℤ} {room : Room} (h : AcceptedRoom conv room) :
    ∃ d, (d = 2 ∨ d = 3) ∧ room.size.length = d ∧ 0 < room.fs ∧ 0 < room.c ∧
      ∃ lo hi : Fin d → ℝ, resolveBeta room = .ok (wallList lo hi) := by
  obtain ⟨a, r, hwf, h, h1, h2, h3, rfl⟩ := h
  exact room_ready hwf h h1 h2 h3

theorem tensor3_wf {a b c : ℕ} (f : Fin a → Fin b → Fin c → ℝ) : (tensor3 f).WF := by
  unfold tensor3 Tensor.WF
  simp only [List.prod_cons, List.prod_nil, mul_one]
  exact flatten_ofFn_length _ fun i => flatten_ofFn_length _ (by simp)

theorem tensor4_wf {a b c e : ℕ} (f : Fin a → Fin b → Fin c → Fin e → ℝ) : (tensor4 f).WF := by
  unfold tensor4 Tensor.WF
  simp only [List.prod_cons, List.prod_nil, mul_one]
  refine flatten_ofFn_length _ fun i => ?_
  have := tensor3_wf (f i)
  unfold Tensor.WF at this
  simpa [tensor3] using this

/-- **C37 (accepted static scenes simulate).** For every accepted room, accepted sources and
microphones (at least one each) and accepted scene, all checks of the simulation succeed: the
simulator computes one response of the requested length per source and microphone, and only the
optional high-pass filter is left to do. Directional patterns need an orientation, and no image may
lie exactly at a microphone. -/
theorem C37_static_simulates_partial (conv : Flt → ℤ) (w : World) (room : Room) (S M : Entity)
    (hroom : AcceptedRoom conv room) (hS : AcceptedEntity S) (hM : AcceptedEntity M)
    (hS0 : 0 < S.positions.shape.getD 0 0) (hM0 : 0 < M.positions.shape.getD 0 0)
    (sc : StaticScene) (hsc : staticSceneNew room S M = .ok sc)
    (s sim : IsmSimulator) (hsim : ismSimulatorNew s = .ok sim)
    (hnb : ImageCountsFit sim.nbImg room.size.length)
    (cfg : Config) (hcfg : cfg.validate = .ok ()) (hc : NoConflict sim cfg)
    (dir : DirArg) (sp mp : String) (hdir : sim.directivity = some dir)
    (hsplit : splitDirectivity dir = .ok (sp, mp))
    (hsp : DeviceReady sp S.orientation) (hmp : DeviceReady mp M.orientation)
    (hapart : (sp = "omni" ∧ mp = "omni") ∨ ApartFromImages room.size S.positions M.positions) :
    ∃ raw : Tensor ℝ, raw.WF ∧ raw.shape = [S.positions.shape.getD 0 0, M.positions.shape.getD 0 0,
        (wantedSamples sim room.fs).toNat] ∧ 0 < wantedSamples sim room.fs ∧
      sim.simulate w (.new (.static sc)) (some cfg) = (applyRirHpf w room.fs cfg raw).map fun rirs =>
        { rirs := rirs, scene := .static sc, config := cfg, seed := cfg.seed } := by
  obtain ⟨d, hd, hlen, hfs, -, lo, hi, hbeta⟩ := acceptedRoom_ready hroom
  obtain ⟨nS, dS, -, hsS, ⟨src, hsrc⟩, oS, hoS, hoS'⟩ := entity_asPoints hS
  obtain ⟨nM, dM, -, hsM, ⟨mic, hmic⟩, oM, hoM, hoM'⟩ := entity_asPoints hM
  obtain ⟨rfl, e1, e2⟩ := (staticSceneNew_ok _ _ _ _).mp hsc
  have hv : (NewScene.static ⟨room, S, M⟩).validate = .ok () :=
    (validateSceneEntities_ok _ _ _).mpr ⟨e1, e2⟩
  rw [hsS] at e1 hS0
  rw [hsM] at e2 hM0
  simp only [List.getD_cons_succ, List.getD_cons_zero] at e1 e2 hS0 hM0
  rw [hlen] at e1 e2 hnb
  subst hlen
  subst e1
  subst e2
  obtain ⟨L, hL⟩ := ofFn_of_length room.size _ rfl
  obtain ⟨tmax, hres, hval, hK⟩ := sim_args_ok hsim room hfs hcfg hdir
  obtain ⟨l, A, himg, hA⟩ := counts_images (ismSimulatorNew_ok hsim).2.1 hnb
  rw [← (ismSimulatorNew_ok hsim).1] at himg
  rw [hoS] at hsp
  rw [hoM] at hmp
  obtain ⟨sd, hsd, g1, g3⟩ := srcDirs_ready hd hoS' hsp
  obtain ⟨md, hmd, g2, g4⟩ := micDir_ready hd hoM' hmp
  let P : Plan room.size.length nS nM := ⟨cfg, sim.maxOrder, tmax, dir, wantedSamples sim room.fs, lo, hi, l, A, sp,
    mp, oS.map Tensor.reals, oM.map Tensor.reals, sd, md⟩
  have hP : StaticPlan room S M (sim.args cfg) L src mic P := by
    refine ⟨⟨hd, hS0, hM0, hL, hbeta, hres, hval, himg, hA, hsplit, hmd, hsd, ?_⟩, ?_, ?_⟩
    · refine gains_ready P _ (hsp.imp id (·.2)) (hmp.imp id (·.2)) g1 g2 g3 g4 ?_
      refine hapart.imp id fun ha s m v hv => ?_
      obtain ⟨n, -, rfl⟩ := hv
      exact sub_ne_zero.mpr (ha _ _ _ L src mic hL hsrc hmic s m n)
    · refine ⟨S.positions, ?_, by rw [hsrc, asPoints_tensor2]⟩
      show _ = Except.ok (S.positions, oS.map Tensor.reals)
      rw [← hoS]
      rfl
    · refine ⟨M.positions, ?_, by rw [hmic, asPoints_tensor2]⟩
      show _ = Except.ok (M.positions, oM.map Tensor.reals)
      rw [← hoM]
      rfl
  refine ⟨P.static w room L src mic, ?_, ?_, hK, ?_⟩
  · exact tensor3_wf _
  · rw [hsS, hsM]
    rfl
  · rw [simulate_new hv hc]
    congr 1
    show simulateRir w room S M (sim.args cfg) = _
    rw [hP.eval w hfs.ne']
    rfl

theorem traj_asTraj {t : Tensor Flt} (hw : t.WF) {T n d : ℕ} (h : TrajShape t.shape T n d) :
    ∃ f : Fin T → Fin n → Fin d → ℝ, asTraj t.reals = tensor3 f := by
  refine exists_tensor3 _ (asTraj_wf (reals_wf hw)) T n d ?_
  have hs : t.reals.shape = t.shape := rfl
  unfold asTraj
  rcases h with h | ⟨rfl, h⟩
  · rw [if_neg (by simp [Tensor.ndim, hs, h]), hs, h]
  · rw [if_pos (by simp [Tensor.ndim, hs, h])]
    simp [Tensor.unsqueeze1, hs, h]

/-- No image of a moving source lies exactly at a microphone. -/
def ApartAlong (size : List ℝ) (srcTraj micTraj : Tensor ℝ) : Prop :=
  ∀ (d T nS nM : ℕ) (L : Fin d → ℝ) (src : Fin T → Fin nS → Fin d → ℝ)
    (mic : Fin T → Fin nM → Fin d → ℝ),
    size = List.ofFn L → asTraj srcTraj = tensor3 src → asTraj micTraj = tensor3 mic →
    ∀ t s m n, mic t m ≠ image L (src t s) n

/-- The direct dynamic call on accepted scenes: all checks succeed. -/
theorem dynamic_ready {conv : Flt → ℤ} (w : World) {room : Room} {S M : Entity}
    (hroom : AcceptedRoom conv room) (hS : AcceptedEntity S) (hM : AcceptedEntity M)
    (hS0 : 0 < S.positions.shape.getD 0 0) (hM0 : 0 < M.positions.shape.getD 0 0)
    {ta tb : Tensor Flt} (hta : ta.WF) (htb : tb.WF) {T : ℕ} (hT : 0 < T)
    (hdS : S.positions.shape.getD 1 0 = room.size.length)
    (hdM : M.positions.shape.getD 1 0 = room.size.length)
    (hsa : TrajShape ta.shape T (S.positions.shape.getD 0 0) room.size.length)
    (hsb : TrajShape tb.shape T (M.positions.shape.getD 0 0) room.size.length)
    {s sim : IsmSimulator} (hsim : ismSimulatorNew s = .ok sim)
    (hnb : ImageCountsFit sim.nbImg room.size.length)
    {cfg : Config} (hcfg : cfg.validate = .ok ())
    {dir : DirArg} {sp mp : String} (hdir : sim.directivity = some dir)
    (hsplit : splitDirectivity dir = .ok (sp, mp)) (ori : Option OriArg)
    (hsp : DeviceReady sp S.orientation) (hmp : DeviceReady mp M.orientation)
    (hori : ori = some (.tuple [S.orientation, M.orientation]) ∨
      ori = none ∧ sp = "omni" ∧ mp = "omni")
    (hapart : (sp = "omni" ∧ mp = "omni") ∨ ApartAlong room.size ta.reals tb.reals) :
    ∃ raw : Tensor ℝ, raw.WF ∧ raw.shape = [T, S.positions.shape.getD 0 0,
        M.positions.shape.getD 0 0, (wantedSamples sim room.fs).toNat] ∧
      0 < wantedSamples sim room.fs ∧
      simulateDynamicRir w room ta.reals tb.reals { sim.args cfg with orientation := ori }
        = applyRirHpf w room.fs cfg raw := by
  obtain ⟨d, hd, hlen, hfs, -, lo, hi, hbeta⟩ := acceptedRoom_ready hroom
  obtain ⟨nS, dS, -, hsS, -, oS, hoS, hoS'⟩ := entity_asPoints hS
  obtain ⟨nM, dM, -, hsM, -, oM, hoM, hoM'⟩ := entity_asPoints hM
  rw [hsS] at hdS hS0 hsa ⊢
  rw [hsM] at hdM hM0 hsb ⊢
  simp only [List.getD_cons_succ, List.getD_cons_zero] at hdS hdM hS0 hM0 hsa hsb ⊢
  subst hlen
  subst hdS
  subst hdM
  obtain ⟨src, hsrc⟩ := traj_asTraj hta hsa
  obtain ⟨mic, hmic⟩ := traj_asTraj htb hsb
  obtain ⟨L, hL⟩ := ofFn_of_length room.size _ rfl
  obtain ⟨tmax, hres, hval, hK⟩ := sim_args_ok hsim room hfs hcfg hdir
  obtain ⟨l, A, himg, hA⟩ := counts_images (ismSimulatorNew_ok hsim).2.1 hnb
  rw [← (ismSimulatorNew_ok hsim).1] at himg
  obtain ⟨so, mo, hsplitO, hso, hmo⟩ : ∃ so mo : Option (Tensor Flt),
      splitOrientation ori = .ok (so.map Tensor.reals, mo.map Tensor.reals) ∧
      ((∀ t, so = some t → t.WF ∧ orientationShapeOk t nS room.size.length = true) ∧
        DeviceReady sp (so.map Tensor.reals)) ∧
      ((∀ t, mo = some t → t.WF ∧ orientationShapeOk t nM room.size.length = true) ∧
        DeviceReady mp (mo.map Tensor.reals)) := by
    rcases hori with rfl | ⟨rfl, rfl, rfl⟩
    · refine ⟨oS, oM, ?_, ⟨hoS', by rwa [hoS] at hsp⟩, ⟨hoM', by rwa [hoM] at hmp⟩⟩
      rw [hoS, hoM]
      rfl
    · exact ⟨none, none, rfl, ⟨by simp, Or.inl rfl⟩, ⟨by simp, Or.inl rfl⟩⟩
  obtain ⟨sd, hsd, g1, g3⟩ := srcDirs_ready hd hso.1 hso.2
  obtain ⟨md, hmd, g2, g4⟩ := micDir_ready hd hmo.1 hmo.2
  let P : Plan room.size.length nS nM := ⟨cfg, sim.maxOrder, tmax, dir, wantedSamples sim room.fs,
    lo, hi, l, A, sp, mp, so.map Tensor.reals, mo.map Tensor.reals, sd, md⟩
  have hP : DynamicPlan room { sim.args cfg with orientation := ori } L src mic P := by
    refine ⟨⟨hd, hS0, hM0, hL, hbeta, hres, hval, himg, hA, hsplit, hmd, hsd, ?_⟩, hT, hsplitO⟩
    refine gains_ready P _ (hsp.imp id (·.2)) (hmp.imp id (·.2)) g1 g2 g3 g4 ?_
    refine hapart.imp id fun ha s m v hv => ?_
    obtain ⟨t, n, -, rfl⟩ := hv
    exact sub_ne_zero.mpr (ha _ _ _ _ L src mic hL hsrc hmic t s m n)
  exact ⟨P.dynamic w room L src mic, tensor4_wf _, rfl, hK, hP.eval w hfs.ne' hsrc hmic⟩

/-- **C37 (accepted dynamic scenes simulate).** For every accepted room, accepted sources and
microphones (at least one each), accepted trajectories with at least one step and omnidirectional
devices, all checks of the simulation succeed and the simulator computes one response of the
requested length per step, source and microphone. (Directional devices: see C39.) -/
theorem C37_dynamic_simulates_partial (conv : Flt → ℤ) (w : World) (room : Room) (S M : Entity)
    (hroom : AcceptedRoom conv room) (hS : AcceptedEntity S) (hM : AcceptedEntity M)
    (hS0 : 0 < S.positions.shape.getD 0 0) (hM0 : 0 < M.positions.shape.getD 0 0)
    (srcTraj micTraj : Tensor Flt) (hta : srcTraj.WF) (htb : micTraj.WF)
    (hT : 0 < srcTraj.shape.getD 0 0)
    (sc : DynamicScene) (hsc : dynamicSceneNew room S M srcTraj micTraj = .ok sc)
    (s sim : IsmSimulator) (hsim : ismSimulatorNew s = .ok sim)
    (hnb : ImageCountsFit sim.nbImg room.size.length)
    (cfg : Config) (hcfg : cfg.validate = .ok ()) (hc : NoConflict sim cfg)
    (hdir : sim.directivity = some (.one "omni")) :
    ∃ raw : Tensor ℝ, raw.WF ∧ raw.shape = [srcTraj.shape.getD 0 0, S.positions.shape.getD 0 0,
        M.positions.shape.getD 0 0, (wantedSamples sim room.fs).toNat] ∧
      0 < wantedSamples sim room.fs ∧
      sim.simulate w (.new (.dynamic sc)) (some cfg) = (applyRirHpf w room.fs cfg raw).map fun rirs =>
        { rirs := rirs, scene := .dynamic sc, config := cfg, seed := cfg.seed } := by
  obtain ⟨rfl, e1, e2, hfin⟩ := (dynamicSceneNew_ok _ _ _ _ _ _).mp hsc
  have hv : (NewScene.dynamic ⟨room, S, M, srcTraj, micTraj⟩).validate = .ok () := by
    show (DynamicScene.validate _) = _
    unfold DynamicScene.validate
    dsimp only
    rw [(validateSceneEntities_ok _ _ _).mpr ⟨e1, e2⟩, ok_bind,
      (validateTrajs_ok _ _ _ _ _).mpr hfin]
  obtain ⟨-, -, T, h1, h2⟩ := hfin
  have hTs : srcTraj.shape.getD 0 0 = T := by
    rcases h1 with h | ⟨-, h⟩ <;> rw [h] <;> rfl
  rw [hTs] at hT ⊢
  obtain ⟨raw, r1, r2, r3, r4⟩ := dynamic_ready w hroom hS hM hS0 hM0 hta htb hT e1 e2 h1 h2 hsim hnb
    hcfg hdir rfl none (Or.inl rfl) (Or.inl rfl) (Or.inr ⟨rfl, rfl, rfl⟩) (Or.inl ⟨rfl, rfl⟩)
  refine ⟨raw, r1, r2, r3, ?_⟩
  rw [simulate_new hv hc, ← r4]
  rfl

/-- The positions of the example. -/
noncomputable def onePoint : Tensor Flt := ⟨[1, 3], [.fin 1, .fin 2, .fin 1]⟩

noncomputable def oneMic : Tensor Flt := ⟨[1, 3], [.fin 3, .fin 2, .fin 1]⟩

theorem size3_accepted (conv : Flt → ℤ) : roomNew conv { size := size3, fs := .fin 16000 }
    = .ok { size := size3, fs := .fin 16000 } :=
  (roomNew_ok _ _ _).mpr ⟨⟨by simp [size3, Tensor.ndim, Tensor.numel], fun _ => size3_ok,
    by simp [Flt.leZero], by simp [Flt.leZero], by simp, by simp⟩, rfl⟩

/-- The room of the examples. -/
noncomputable def room3 : Room := RoomObj.toRoom { size := size3, fs := .fin 16000 }

theorem room3_accepted (conv : Flt → ℤ) : AcceptedRoom conv room3 :=
  ⟨_, _, ⟨by simp [size3, Tensor.WF], by simp⟩, size3_accepted conv, by simp [Flt.isFinite],
    by simp [Flt.isFinite], by simp, rfl⟩

open Classical in
theorem entityNew_points (n : ℕ) (data : List Flt) (h : ∀ x ∈ data, x.isFinite) :
    entityNew ⟨[n, 3], data⟩ none = .ok ⟨⟨[n, 3], data.map Flt.toReal⟩, none⟩ := by
  unfold entityNew normalizeEntityPositions
  dsimp only
  rw [if_neg (by simp [Tensor.ndim]), raiseIf_neg (by simp [Tensor.ndim]), ok_bind,
    raiseIf_neg (by simpa using h), ok_bind]
  rfl

/-- A source and a microphone in an accepted room: a response of 100 samples. -/
example (conv : Flt → ℤ) (w : World) :
    ∃ S M sc raw, entityNew onePoint none = .ok S ∧ entityNew oneMic none = .ok M ∧
      staticSceneNew room3 S M = .ok sc ∧ Tensor.shape raw = [1, 1, 100] ∧
      IsmSimulator.simulate w { maxOrder := 2, nsample := some 100 } (.new (.static sc))
        (some { rirHpfEnable := false }) = .ok ⟨raw, .static sc, { rirHpfEnable := false }, none⟩ := by
  have f1 : ∀ x ∈ onePoint.data, x.isFinite := by simp [onePoint, Flt.isFinite]
  have f2 : ∀ x ∈ oneMic.data, x.isFinite := by simp [oneMic, Flt.isFinite]
  have e1 := entityNew_points 1 _ f1
  have e2 := entityNew_points 1 _ f2
  obtain ⟨raw, -, h2, -, h4⟩ := C37_static_simulates_partial conv w room3 _ _ (room3_accepted conv)
    ⟨_, none, by simp [Tensor.WF, onePoint], by simp, e1⟩
    ⟨_, none, by simp [Tensor.WF, oneMic], by simp, e2⟩ (by simp) (by simp)
    _ ((staticSceneNew_ok _ _ _ _).mpr ⟨rfl, rfl, rfl⟩) { maxOrder := 2, nsample := some 100 } _
    (by unfold ismSimulatorNew; rw [raiseIf_neg (by simp), ok_bind, raiseIf_neg (by simp), ok_bind,
      raiseIf_neg (by simp), ok_bind, raiseIf_neg (by simp), ok_bind]; rfl) (Or.inl rfl)
    { rirHpfEnable := false } plainConfig_valid ⟨by simp, by simp⟩ (.one "omni") "omni" "omni" rfl rfl
    (Or.inl rfl) (Or.inl rfl) (Or.inl ⟨rfl, rfl⟩)
  exact ⟨_, _, _, raw, e1, e2, (staticSceneNew_ok _ _ _ _).mpr ⟨rfl, rfl, rfl⟩, h2, h4⟩

/-- **C37 fails for empty lists.** Zero sources are accepted by `Source` and by `StaticScene`, but no
simulator, configuration or device ever simulates the scene. -/
theorem C37_no_sources_fails (conv : Flt → ℤ) :
    ∃ room S M sc, AcceptedRoom conv room ∧ AcceptedEntity S ∧ AcceptedEntity M ∧
      staticSceneNew room S M = .ok sc ∧
      ∀ w (sim : IsmSimulator) cfg res, sim.simulate w (.new (.static sc)) cfg ≠ .ok res := by
  have f2 : ∀ x ∈ oneMic.data, x.isFinite := by simp [oneMic, Flt.isFinite]
  refine ⟨room3, _, _, _, room3_accepted conv,
    ⟨⟨[0, 3], []⟩, none, by simp [Tensor.WF], by simp, entityNew_points 0 [] (by simp)⟩,
    ⟨_, none, by simp [Tensor.WF, oneMic], by simp, entityNew_points 1 _ f2⟩,
    (staticSceneNew_ok _ _ _ _).mpr ⟨rfl, rfl, rfl⟩, fun w sim cfg res h => ?_⟩
  unfold IsmSimulator.simulate normalizeScene at h
  dsimp only at h
  obtain ⟨sc, hsc, h⟩ := (bind_eq_ok _ _ _).mp h
  have hsc := Except.ok.inj hsc
  rw [← hsc] at h
  obtain ⟨_, -, h⟩ := (bind_eq_ok _ _ _).mp h
  obtain ⟨_, -, h⟩ := (bind_eq_ok _ _ _).mp h
  obtain ⟨_, -, h⟩ := (bind_eq_ok _ _ _).mp h
  obtain ⟨r, hr, -⟩ := (bind_eq_ok _ _ _).mp h
  obtain ⟨L, hL⟩ := ofFn_of_length room3.size 3 rfl
  obtain ⟨src, hsrc⟩ := exists_tensor2 (⟨[0, 3], []⟩ : Tensor ℝ) (by simp [Tensor.WF]) 0 3 rfl
  obtain ⟨mic, hmic⟩ := exists_tensor2 (⟨[1, 3], oneMic.data.map Flt.toReal⟩ : Tensor ℝ)
    (by simp [Tensor.WF, oneMic]) 1 3 rfl
  obtain ⟨P, hP⟩ := StaticPlan.exists hL (by
    show asPoints (⟨[0, 3], []⟩ : Tensor ℝ) = tensor2 src
    rw [hsrc, asPoints_tensor2]) (by
    show asPoints (⟨[1, 3], oneMic.data.map Flt.toReal⟩ : Tensor ℝ) = tensor2 mic
    rw [hmic, asPoints_tensor2]) hr
  exact absurd hP.hS (by simp)

/-! ## Simulator and configuration -/

theorem simulate_inv {w : World} {sim : IsmSimulator} {scene : SceneLike} {config : Option Config}
    {res : RirResult} (h : sim.simulate w scene config = .ok res) :
    ∃ sc, normalizeScene scene = .ok sc ∧ sc.validate = .ok () ∧
      NoConflict sim (config.getD defaultConfig) ∧
      sim.run w (config.getD defaultConfig) sc = .ok res.rirs ∧ res.scene = sc ∧
      res.config = config.getD defaultConfig ∧ res.seed = (config.getD defaultConfig).seed := by
  unfold IsmSimulator.simulate at h
  obtain ⟨sc, hsc, h⟩ := (bind_eq_ok _ _ _).mp h
  obtain ⟨_, hv, h⟩ := (bind_eq_ok _ _ _).mp h
  dsimp only at h
  obtain ⟨_, h1, h⟩ := (bind_eq_ok _ _ _).mp h
  obtain ⟨_, h2, h⟩ := (bind_eq_ok _ _ _).mp h
  obtain ⟨r, h3, h⟩ := (bind_eq_ok _ _ _).mp h
  have h := Except.ok.inj h
  rw [← h]
  exact ⟨sc, hsc, hv, ⟨fun N hN => ((ensureNoConflict_ok _ _ _).mp h1 _ _ rfl hN).symm,
    (ensureNoConflict_ok _ _ _).mp h2⟩, h3, rfl, rfl, rfl⟩

/-- **C38 (conflicts raise).** If `max_order` or `tmax` is set in the configuration to another value
than in the simulator, no scene is simulated. -/
theorem C38_conflict_raises (w : World) (sim : IsmSimulator) (scene : SceneLike) (cfg : Config)
    (h : (∃ N, cfg.maxOrder = some N ∧ N ≠ sim.maxOrder) ∨
      ∃ t t', sim.tmax = some t ∧ cfg.tmax = some t' ∧ t ≠ t') :
    ∃ e, sim.simulate w scene (some cfg) = .error e := by
  cases hr : sim.simulate w scene (some cfg) with
  | error e => exact ⟨e, rfl⟩
  | ok res =>
    obtain ⟨-, -, -, ⟨h1, h2⟩, -⟩ := simulate_inv hr
    rcases h with ⟨N, hN, hne⟩ | ⟨t, t', ht, ht', hne⟩
    · exact absurd (h1 N hN) hne
    · exact absurd (h2 t t' ht ht') hne

example (w : World) (scene : SceneLike) : ∃ e, IsmSimulator.simulate w { maxOrder := 3, tmax := some 0.2 }
    scene (some { maxOrder := some 4 }) = .error e :=
  C38_conflict_raises _ _ _ _ (Or.inl ⟨4, rfl, by simp⟩)

/-- The configuration without its own `max_order` and `tmax`. -/
def erased (cfg : Config) : Config := { cfg with maxOrder := none, tmax := none }

theorem erased_valid {cfg : Config} (h : cfg.validate = .ok ()) : (erased cfg).validate = .ok () := by
  rw [Config.valid_iff] at h ⊢
  unfold erased
  simp only
  tauto

/-- `simulate_rir` only reads `max_order` and `tmax` of the configuration when the arguments leave
them out. -/
theorem simulateRir_erased (w : World) (room : Room) (S M : Entity) (sim : IsmSimulator)
    (hsim : ¬ (sim.tmax.isNone ∧ sim.nsample.isNone)) (cfg : Config) (hcfg : cfg.validate = .ok ()) :
    simulateRir w room S M (sim.args cfg) = simulateRir w room S M (sim.args (erased cfg)) := by
  unfold simulateRir
  have e1 : resolveConfig (sim.args cfg) = .ok (cfg, sim.maxOrder, sim.tmax.orElse fun _ => cfg.tmax,
      resolveDirectivity sim.directivity cfg.directivity) := by
    unfold resolveConfig IsmSimulator.args
    simp only [Option.getD_some]
    rw [hcfg, ok_bind]
    rfl
  have e2 : resolveConfig (sim.args (erased cfg)) = .ok (erased cfg, sim.maxOrder,
      sim.tmax.orElse fun _ => none, resolveDirectivity sim.directivity cfg.directivity) := by
    unfold resolveConfig IsmSimulator.args
    simp only [Option.getD_some]
    rw [erased_valid hcfg, ok_bind]
    rfl
  rw [e1, e2, ok_bind, ok_bind]
  dsimp only
  have e3 : ∀ N, validateArgs room (sim.args cfg).nsample (sim.tmax.orElse fun _ => cfg.tmax) N
      = validateArgs room (sim.args (erased cfg)).nsample (sim.tmax.orElse fun _ => none) N := by
    intro N
    unfold validateArgs
    congr 1
    show resolveNsample _ sim.nsample _ = resolveNsample _ sim.nsample _
    unfold resolveNsample
    cases hn : sim.nsample with
    | some n => rfl
    | none =>
      cases ht : sim.tmax with
      | some t => rfl
      | none => simp [hn, ht] at hsim
  rw [e3]
  rfl

theorem simulateDynamicRir_erased (w : World) (room : Room) (S M : Tensor ℝ) (sim : IsmSimulator)
    (hsim : ¬ (sim.tmax.isNone ∧ sim.nsample.isNone)) (cfg : Config) (hcfg : cfg.validate = .ok ()) :
    simulateDynamicRir w room S M (sim.args cfg)
      = simulateDynamicRir w room S M (sim.args (erased cfg)) := by
  unfold simulateDynamicRir
  have e1 : resolveConfig (sim.args cfg) = .ok (cfg, sim.maxOrder, sim.tmax.orElse fun _ => cfg.tmax,
      resolveDirectivity sim.directivity cfg.directivity) := by
    unfold resolveConfig IsmSimulator.args
    simp only [Option.getD_some]
    rw [hcfg, ok_bind]
    rfl
  have e2 : resolveConfig (sim.args (erased cfg)) = .ok (erased cfg, sim.maxOrder,
      sim.tmax.orElse fun _ => none, resolveDirectivity sim.directivity cfg.directivity) := by
    unfold resolveConfig IsmSimulator.args
    simp only [Option.getD_some]
    rw [erased_valid hcfg, ok_bind]
    rfl
  rw [e1, e2, ok_bind, ok_bind]
  dsimp only
  have e3 : ∀ N, validateArgs room (sim.args cfg).nsample (sim.tmax.orElse fun _ => cfg.tmax) N
      = validateArgs room (sim.args (erased cfg)).nsample (sim.tmax.orElse fun _ => none) N := by
    intro N
    unfold validateArgs
    congr 1
    show resolveNsample _ sim.nsample _ = resolveNsample _ sim.nsample _
    unfold resolveNsample
    cases hn : sim.nsample with
    | some n => rfl
    | none =>
      cases ht : sim.tmax with
      | some t => rfl
      | none => simp [hn, ht] at hsim
  rw [e3]
  rfl

/-- The call the simulator stands for: its own `max_order`, `tmax`, `nsample`, `nb_img` and
directivity, and a configuration without `max_order` and `tmax`. -/
noncomputable def plainCall (w : World) (sim : IsmSimulator) (cfg : Config) :
    NewScene → Except String (Tensor ℝ)
  | .static sc => simulateRir w sc.room sc.sources sc.mics
      { maxOrder := some sim.maxOrder, tmax := sim.tmax, nsample := sim.nsample, nbImg := sim.nbImg
        directivity := sim.directivity, config := some { cfg with maxOrder := none, tmax := none } }
  | .dynamic sc => simulateDynamicRir w sc.room sc.srcTraj.reals sc.micTraj.reals
      { maxOrder := some sim.maxOrder, tmax := sim.tmax, nsample := sim.nsample, nbImg := sim.nbImg
        directivity := sim.directivity, config := some { cfg with maxOrder := none, tmax := none } }

/-- **C38 (values in force).** Without a conflict the simulator computes exactly what the simulation
function computes for the simulator's own values, whatever the configuration says about `max_order`
and `tmax`; scene, configuration and seed are returned unchanged. -/
theorem C38_values_in_force (w : World) (s sim : IsmSimulator) (hsim : ismSimulatorNew s = .ok sim)
    (sc : NewScene) (hv : sc.validate = .ok ()) (cfg : Config) (hcfg : cfg.validate = .ok ())
    (hmax : ∀ N, cfg.maxOrder = some N → N = sim.maxOrder)
    (htmax : ∀ t t', sim.tmax = some t → cfg.tmax = some t' → t = t') :
    (∀ e, plainCall w sim cfg sc = .error e → sim.simulate w (.new sc) (some cfg) = .error e) ∧
    ∀ rirs, plainCall w sim cfg sc = .ok rirs →
      sim.simulate w (.new sc) (some cfg)
        = .ok { rirs := rirs, scene := sc, config := cfg, seed := cfg.seed } := by
  have h := (ismSimulatorNew_ok hsim)
  have e : sim.run w cfg sc = plainCall w sim cfg sc := by
    have hn : ¬ (sim.tmax.isNone ∧ sim.nsample.isNone) := by rw [h.1]; exact h.2.2.1
    cases sc with
    | static sc => exact simulateRir_erased w _ _ _ sim hn cfg hcfg
    | dynamic sc => exact simulateDynamicRir_erased w _ _ _ sim hn cfg hcfg
  rw [simulate_new hv ⟨hmax, htmax⟩, e]
  constructor
  · intro e h
    rw [h]
    rfl
  · intro r h
    rw [h]
    rfl

/-- **C38 (without a configuration).** The default configuration is used; deprecated scenes are
converted first. -/
theorem C38_default_config (w : World) (sim : IsmSimulator) (scene : SceneLike) :
    sim.simulate w scene none = sim.simulate w scene (some defaultConfig) ∧
    ∀ (s : OldScene) sc, normalizeScene (.old s) = .ok sc → ∀ config,
      sim.simulate w (.old s) config = sim.simulate w (.new sc) config := by
  refine ⟨rfl, fun s sc h config => ?_⟩
  unfold IsmSimulator.simulate
  rw [h]
  rfl

/-- **C38 (results).** Every result carries the scene it was computed for, the configuration and its
seed. -/
theorem C38_result_fields (w : World) (sim : IsmSimulator) (scene : SceneLike) (cfg : Config)
    (res : RirResult) (h : sim.simulate w scene (some cfg) = .ok res) :
    normalizeScene scene = .ok res.scene ∧ res.config = cfg ∧ res.seed = cfg.seed := by
  obtain ⟨sc, h1, -, -, -, h2, h3, h4⟩ := simulate_inv h
  exact ⟨by rw [h1, h2], h3, h4⟩

/-- A configuration repeating the simulator's values gives what a silent configuration gives. -/
example (w : World) (sc : NewScene) (hv : sc.validate = .ok ()) (rirs : Tensor ℝ)
    (h : plainCall w { maxOrder := 3, tmax := some 0.2 } { maxOrder := some 3, tmax := some 0.2 } sc = .ok rirs) :
    ∃ res, IsmSimulator.simulate w { maxOrder := 3, tmax := some 0.2 } (.new sc)
      (some { maxOrder := some 3, tmax := some 0.2 }) = .ok res ∧ res.rirs = rirs :=
  ⟨_, (C38_values_in_force w { maxOrder := 3, tmax := some 0.2 } _
    (by unfold ismSimulatorNew; rw [raiseIf_neg (by simp), ok_bind, raiseIf_neg (by simp), ok_bind,
          raiseIf_neg (by simp; norm_num), ok_bind, raiseIf_neg (by simp), ok_bind]; rfl) sc hv _
    (by rw [Config.valid_iff]; norm_num; exact ⟨by simp, by simp⟩) (by simp) (by simp)).2 rirs h, rfl⟩

/-! ## Directional devices in dynamic scenes -/

/-- **C39 fails.** Whatever orientations the sources and microphones of a dynamic scene carry: as soon
as one of the two patterns is not the literal `"omni"`, the simulator raises for every scene. -/
theorem C39_directional_dynamic_fails (w : World) (sim : IsmSimulator) (sc : DynamicScene)
    (hs : sc.srcTraj.WF) (hm : sc.micTraj.WF) (dir : DirArg) (sp mp : String)
    (hdir : sim.directivity = some dir) (hsplit : splitDirectivity dir = .ok (sp, mp))
    (h : sp ≠ "omni" ∨ mp ≠ "omni") (cfg : Option Config) :
    ∃ e, sim.simulate w (.new (.dynamic sc)) cfg = .error e := by
  cases hr : sim.simulate w (.new (.dynamic sc)) cfg with
  | error e => exact ⟨e, rfl⟩
  | ok res =>
    exfalso
    obtain ⟨sc', hsc, -, -, hrun, -⟩ := simulate_inv hr
    cases Except.ok.inj hsc
    have hrun : simulateDynamicRir w sc.room sc.srcTraj.reals sc.micTraj.reals
      (sim.args (cfg.getD defaultConfig)) = .ok res.rirs := hrun
    obtain ⟨L, nT, nS, nM, src, mic, hL, h1, h2⟩ := dynamic_shapes (reals_wf hs) (reals_wf hm) hrun
    obtain ⟨P, hP⟩ := DynamicPlan.exists hL h1 h2 hrun
    have ho := hP.hori
    simp only [IsmSimulator.args, splitOrientation, Except.ok.injEq, Prod.mk.injEq] at ho
    have hres := hP.res
    unfold resolveConfig IsmSimulator.args at hres
    obtain ⟨_, -, hres⟩ := (bind_eq_ok _ _ _).mp hres
    obtain ⟨_, -, hres⟩ := (bind_eq_ok _ _ _).mp hres
    have hres := Except.ok.inj hres
    simp only [Prod.mk.injEq, hdir, resolveDirectivity] at hres
    have hd : P.dir = dir := hres.2.2.2.symm
    have hsp := hP.split
    rw [hd, hsplit] at hsp
    simp only [Except.ok.injEq, Prod.mk.injEq] at hsp
    rcases h with h | h
    · have := hP.hsd
      rw [← hsp.1, ← ho.1] at this
      unfold resolveSrcDirs at this
      rw [if_neg h] at this
      cases this
    · have := hP.hmd
      rw [← hsp.2, ← ho.2] at this
      unfold resolveMicDir at this
      rw [if_neg h] at this
      cases this

/-- A cardioid microphone with an orientation in an otherwise valid dynamic scene. -/
example (w : World) (room : Room) (S : Entity) (mics : Tensor ℝ) (u : Tensor ℝ) (cfg : Config) :
    ∃ e, IsmSimulator.simulate w { maxOrder := 2, nsample := some 100, directivity := some (.tuple ["omni", "cardioid"]) }
      (.new (.dynamic ⟨room, S, ⟨mics, some u⟩, ⟨[1, 1, 3], onePoint.data⟩, ⟨[1, 1, 3], oneMic.data⟩⟩)) (some cfg)
      = .error e :=
  C39_directional_dynamic_fails _ _ _ (by simp [Tensor.WF, onePoint]) (by simp [Tensor.WF, oneMic]) _
    "omni" "cardioid" rfl rfl (Or.inr (by decide)) _

/-- **C39 (direct calls).** `simulate_dynamic_rir` itself simulates directional devices in every
accepted dynamic scene when the orientations are passed explicitly: all checks succeed and one
response per step, source and microphone is computed. -/
theorem C39_direct_call_partial (conv : Flt → ℤ) (w : World) (room : Room) (S M : Entity)
    (hroom : AcceptedRoom conv room) (hS : AcceptedEntity S) (hM : AcceptedEntity M)
    (hS0 : 0 < S.positions.shape.getD 0 0) (hM0 : 0 < M.positions.shape.getD 0 0)
    (srcTraj micTraj : Tensor Flt) (hta : srcTraj.WF) (htb : micTraj.WF)
    (hT : 0 < srcTraj.shape.getD 0 0)
    (sc : DynamicScene) (hsc : dynamicSceneNew room S M srcTraj micTraj = .ok sc)
    (sp mp : String) (hsp : DeviceReady sp S.orientation) (hmp : DeviceReady mp M.orientation)
    (hapart : (sp = "omni" ∧ mp = "omni") ∨ ApartAlong room.size srcTraj.reals micTraj.reals)
    (N K : ℕ) (hK : 0 < K) (cfg : Config) (hcfg : cfg.validate = .ok ()) :
    ∃ raw : Tensor ℝ, raw.WF ∧ raw.shape = [srcTraj.shape.getD 0 0, S.positions.shape.getD 0 0,
        M.positions.shape.getD 0 0, K] ∧
      simulateDynamicRir w room srcTraj.reals micTraj.reals
        { maxOrder := some N, nsample := some K, directivity := some (.tuple [sp, mp])
          orientation := some (.tuple [S.orientation, M.orientation]), config := some cfg }
        = applyRirHpf w room.fs cfg raw := by
  obtain ⟨rfl, e1, e2, hfin⟩ := (dynamicSceneNew_ok _ _ _ _ _ _).mp hsc
  obtain ⟨-, -, T, h1, h2⟩ := hfin
  have hTs : srcTraj.shape.getD 0 0 = T := by
    rcases h1 with h | ⟨-, h⟩ <;> rw [h] <;> rfl
  rw [hTs] at hT ⊢
  have hsim : ismSimulatorNew { maxOrder := N, nsample := some K, directivity := some (.tuple [sp, mp]) }
      = .ok { maxOrder := N, nsample := some K, directivity := some (.tuple [sp, mp]) } := by
    unfold ismSimulatorNew
    rw [raiseIf_neg (by simp), ok_bind, raiseIf_neg (by simp), ok_bind, raiseIf_neg (by simp), ok_bind,
      raiseIf_neg (by simpa using hK.ne'), ok_bind]
    rfl
  obtain ⟨raw, r1, r2, r3, r4⟩ := dynamic_ready w hroom hS hM hS0 hM0 hta htb hT e1 e2 h1 h2 hsim
    (Or.inl rfl) hcfg rfl rfl (some (.tuple [S.orientation, M.orientation])) hsp hmp (Or.inl rfl) hapart
  exact ⟨raw, r1, by simpa [wantedSamples] using r2, r4⟩

end Torchrir.Props
