import Verif.Lemmas.Inverse

/-! # Row-wise filtering and the success criterion of a simulation -/

namespace Torchrir.Lemmas

open Torchrir.Model
open Torchrir.Spec

/-- The high-pass filter on one row. -/
noncomputable def rowFilter (w : World) (fs : ℝ) (cfg : Config) (row : List ℝ) :
    Except String (List ℝ) :=
  if cfg.rirHpfEnable = false then .ok row
  else do
    let sos ← designHpfSos w fs cfg.rirHpfFc cfg.rirHpfKwargs
    w.sosfiltfilt sos row

theorem tensor3_eq_ofRows3 {a b c : ℕ} (f : Fin a → Fin b → Fin c → ℝ) :
    tensor3 f = ofRows3 c fun i j => List.ofFn (f i j) := rfl

theorem tensor4_eq_ofRows4 {a b c e : ℕ} (f : Fin a → Fin b → Fin c → Fin e → ℝ) :
    tensor4 f = ofRows4 e fun t i j => List.ofFn (f t i j) := rfl

theorem ofRows3_data {a b n : ℕ} (f : Fin a → Fin b → List ℝ) :
    (ofRows3 n f).data = ((List.ofFn fun i => List.ofFn (f i)).flatten).flatten := by
  unfold ofRows3
  rw [List.flatten_flatten, List.map_ofFn]
  rfl

theorem ofRows4_data {t a b n : ℕ} (f : Fin t → Fin a → Fin b → List ℝ) :
    (ofRows4 n f).data =
      ((List.ofFn fun u => (List.ofFn fun i => List.ofFn (f u i)).flatten).flatten).flatten := by
  unfold ofRows4
  simp only [ofRows3_data]
  rw [List.flatten_flatten, List.map_ofFn]
  rfl

theorem flatten_mem {α : Type} {a b : ℕ} (f : Fin a → Fin b → α) (i : Fin a) (j : Fin b) :
    f i j ∈ (List.ofFn fun i => List.ofFn (f i)).flatten := by
  rw [List.mem_flatten]
  exact ⟨_, (List.mem_ofFn' _ _).mpr ⟨i, rfl⟩, (List.mem_ofFn' _ _).mpr ⟨j, rfl⟩⟩

theorem ofRows3_lastAxisRows {a b n : ℕ} (f : Fin a → Fin b → List ℝ)
    (h : ∀ i j, (f i j).length = n) :
    (ofRows3 n f).lastAxisRows = (List.ofFn fun i => List.ofFn (f i)).flatten := by
  unfold Tensor.lastAxisRows
  rw [ofRows3_data]
  have e1 : (ofRows3 n f).shape.dropLast.prod = a * b := by simp [ofRows3]
  have e2 : (ofRows3 n f).shape.getLastD 1 = n := by simp [ofRows3]
  rw [e1, e2]
  apply groups_flatten
  · exact flatten_ofFn_length _ (by simp)
  · intro r hr
    rw [List.mem_flatten] at hr
    obtain ⟨l, hl, hr⟩ := hr
    obtain ⟨i, rfl⟩ := (List.mem_ofFn' _ _).mp hl
    obtain ⟨j, rfl⟩ := (List.mem_ofFn' _ _).mp hr
    exact h i j

theorem ofRows4_lastAxisRows {t a b n : ℕ} (f : Fin t → Fin a → Fin b → List ℝ)
    (h : ∀ u i j, (f u i j).length = n) :
    (ofRows4 n f).lastAxisRows
      = (List.ofFn fun u => (List.ofFn fun i => List.ofFn (f u i)).flatten).flatten := by
  unfold Tensor.lastAxisRows
  rw [ofRows4_data]
  have e1 : (ofRows4 n f).shape.dropLast.prod = t * (a * b) := by simp [ofRows4]
  have e2 : (ofRows4 n f).shape.getLastD 1 = n := by simp [ofRows4]
  rw [e1, e2]
  apply groups_flatten
  · exact flatten_ofFn_length _ (fun u => flatten_ofFn_length _ (by simp))
  · intro r hr
    rw [List.mem_flatten] at hr
    obtain ⟨l, hl, hr⟩ := hr
    obtain ⟨u, rfl⟩ := (List.mem_ofFn' _ _).mp hl
    rw [List.mem_flatten] at hr
    obtain ⟨l, hl, hr⟩ := hr
    obtain ⟨i, rfl⟩ := (List.mem_ofFn' _ _).mp hl
    obtain ⟨j, rfl⟩ := (List.mem_ofFn' _ _).mp hr
    exact h u i j

theorem mapM_flatten_ofFn {α β : Type} {a : ℕ} {f : α → Except String β} {l : Fin a → List α}
    {r : Fin a → List β} (h : ∀ i, (l i).mapM f = .ok (r i)) :
    (List.ofFn l).flatten.mapM f = .ok (List.ofFn r).flatten := by
  induction a with
  | zero => simp; rfl
  | succ a ih =>
    rw [List.ofFn_succ, List.flatten_cons, List.mapM_append, h 0, ih (fun i => h i.succ),
      List.ofFn_succ, List.flatten_cons]
    rfl

theorem hpf_rows3 {a b n : ℕ} (ha : 0 < a) (hb : 0 < b) (w : World) (fs : ℝ) (cfg : Config)
    (f : Fin a → Fin b → List ℝ) (hlen : ∀ i j, (f i j).length = n) (R : Tensor ℝ) :
    applyRirHpf w fs cfg (ofRows3 n f) = .ok R ↔
      ∃ rows : Fin a → Fin b → List ℝ, (∀ i j, rowFilter w fs cfg (f i j) = .ok (rows i j)) ∧
        R = ofRows3 n rows := by
  unfold applyRirHpf rowFilter
  by_cases he : cfg.rirHpfEnable = false
  · simp only [he, if_true]
    constructor
    · intro h; cases h; exact ⟨f, fun _ _ => rfl, rfl⟩
    · rintro ⟨rows, h1, rfl⟩
      congr 2
      funext i j
      exact Except.ok.inj (h1 i j)
  · simp only [if_neg he, bind_eq_ok]
    constructor
    · rintro ⟨sos, hsos, rs, hrs, h⟩
      rw [ofRows3_lastAxisRows f hlen] at hrs
      have hex : ∀ i j, ∃ y, w.sosfiltfilt sos (f i j) = .ok y := fun i j =>
        mapM_ok_mem hrs _ (flatten_mem f i j)
      choose rows hrows using hex
      refine ⟨rows, fun i j => ⟨sos, hsos, hrows i j⟩, ?_⟩
      rw [mapM_flatten_ofFn (r := fun i => List.ofFn (rows i))
        (fun i => mapM_ofFn fun j => hrows i j)] at hrs
      cases hrs
      cases h
      have := ofRows3_data (n := n) rows
      unfold ofRows3 at this ⊢
      simp only at this
      rw [this]
    · rintro ⟨rows, hrows, rfl⟩
      obtain ⟨sos, hsos, _⟩ := hrows ⟨0, ha⟩ ⟨0, hb⟩
      refine ⟨sos, hsos, (List.ofFn fun i => List.ofFn (rows i)).flatten, ?_, ?_⟩
      · rw [ofRows3_lastAxisRows f hlen]
        apply mapM_flatten_ofFn
        intro i
        apply mapM_ofFn
        intro j
        obtain ⟨sos', h1, h2⟩ := hrows i j
        rw [hsos] at h1
        cases h1
        exact h2
      · show Except.ok _ = Except.ok _
        rw [← ofRows3_data (n := n) rows]
        rfl

theorem hpf_rows4 {t a b n : ℕ} (ht : 0 < t) (ha : 0 < a) (hb : 0 < b) (w : World) (fs : ℝ)
    (cfg : Config) (f : Fin t → Fin a → Fin b → List ℝ) (hlen : ∀ u i j, (f u i j).length = n)
    (R : Tensor ℝ) :
    applyRirHpf w fs cfg (ofRows4 n f) = .ok R ↔
      ∃ rows : Fin t → Fin a → Fin b → List ℝ,
        (∀ u i j, rowFilter w fs cfg (f u i j) = .ok (rows u i j)) ∧ R = ofRows4 n rows := by
  unfold applyRirHpf rowFilter
  by_cases he : cfg.rirHpfEnable = false
  · simp only [he, if_true]
    constructor
    · intro h; cases h; exact ⟨f, fun _ _ _ => rfl, rfl⟩
    · rintro ⟨rows, h1, rfl⟩
      congr 2
      funext u i j
      exact Except.ok.inj (h1 u i j)
  · simp only [if_neg he, bind_eq_ok]
    constructor
    · rintro ⟨sos, hsos, rs, hrs, h⟩
      rw [ofRows4_lastAxisRows f hlen] at hrs
      have hex : ∀ u i j, ∃ y, w.sosfiltfilt sos (f u i j) = .ok y := fun u i j =>
        mapM_ok_mem hrs _ (by
          rw [List.mem_flatten]
          exact ⟨_, (List.mem_ofFn' _ _).mpr ⟨u, rfl⟩, flatten_mem (f u) i j⟩)
      choose rows hrows using hex
      refine ⟨rows, fun u i j => ⟨sos, hsos, hrows u i j⟩, ?_⟩
      rw [mapM_flatten_ofFn (r := fun u => (List.ofFn fun i => List.ofFn (rows u i)).flatten)
        (fun u => mapM_flatten_ofFn fun i => mapM_ofFn fun j => hrows u i j)] at hrs
      cases hrs
      cases h
      have := ofRows4_data (n := n) rows
      unfold ofRows4 at this ⊢
      simp only at this
      rw [this]
    · rintro ⟨rows, hrows, rfl⟩
      obtain ⟨sos, hsos, _⟩ := hrows ⟨0, ht⟩ ⟨0, ha⟩ ⟨0, hb⟩
      refine ⟨sos, hsos,
        (List.ofFn fun u => (List.ofFn fun i => List.ofFn (rows u i)).flatten).flatten, ?_, ?_⟩
      · rw [ofRows4_lastAxisRows f hlen]
        apply mapM_flatten_ofFn
        intro u
        apply mapM_flatten_ofFn
        intro i
        apply mapM_ofFn
        intro j
        obtain ⟨sos', h1, h2⟩ := hrows u i j
        rw [hsos] at h1
        cases h1
        exact h2
      · show Except.ok _ = Except.ok _
        rw [← ofRows4_data (n := n) rows]
        rfl

/-- Row `(s, m)` of the raw static result. -/
noncomputable def Plan.row {d nS nM : ℕ} (P : Plan d nS nM) (w : World) (room : Room)
    (L : Fin d → ℝ) (s : Fin nS) (m : Fin nM) (src mic : Fin d → ℝ) : List ℝ :=
  List.ofFn fun k : Fin P.K.toNat => rir (P.setup w room L) P.A (P.gs s) (P.gm m) src mic k

theorem StaticPlan.ok_iff {d nS nM : ℕ} {room : Room} {sources mics : Entity} {a : SimArgs}
    {L : Fin d → ℝ} {src : Fin nS → Fin d → ℝ} {mic : Fin nM → Fin d → ℝ} {P : Plan d nS nM}
    (h : StaticPlan room sources mics a L src mic P) (w : World) (hfs : room.fs ≠ 0)
    (htd : a.tdiff = none) (R : Tensor ℝ) :
    simulateRir w room sources mics a = .ok R ↔
      ∃ rows : Fin nS → Fin nM → List ℝ,
        (∀ s m, rowFilter w room.fs P.cfg (P.row w room L s m (src s) (mic m)) = .ok (rows s m)) ∧
        R = ofRows3 P.K.toNat rows := by
  rw [h.eval w hfs, htd]
  show applyRirHpf w room.fs P.cfg (P.static w room L src mic) = .ok R ↔ _
  unfold Plan.static
  rw [tensor3_eq_ofRows3, hpf_rows3 h.hS h.hM _ _ _ _ (by simp)]
  rfl

theorem DynamicPlan.ok_iff {d nT nS nM : ℕ} {room : Room} {a : SimArgs}
    {L : Fin d → ℝ} {src : Fin nT → Fin nS → Fin d → ℝ} {mic : Fin nT → Fin nM → Fin d → ℝ}
    {P : Plan d nS nM} (h : DynamicPlan room a L src mic P) (w : World) (hfs : room.fs ≠ 0)
    {sTraj mTraj : Tensor ℝ} (hsT : asTraj sTraj = tensor3 src) (hmT : asTraj mTraj = tensor3 mic)
    (R : Tensor ℝ) :
    simulateDynamicRir w room sTraj mTraj a = .ok R ↔
      ∃ rows : Fin nT → Fin nS → Fin nM → List ℝ,
        (∀ t s m, rowFilter w room.fs P.cfg (P.row w room L s m (src t s) (mic t m))
          = .ok (rows t s m)) ∧
        R = ofRows4 P.K.toNat rows := by
  rw [h.eval w hfs hsT hmT]
  unfold Plan.dynamic
  rw [tensor4_eq_ofRows4, hpf_rows4 h.hT h.hS h.hM _ _ _ _ (by simp)]
  rfl

/-! ## Shapes of accepted arguments -/

theorem asPoints_wf {t : Tensor ℝ} (h : t.WF) : (asPoints t).WF := by
  unfold asPoints
  split
  · simpa [Tensor.WF, Tensor.unsqueeze0] using h
  · exact h

theorem asTraj_wf {t : Tensor ℝ} (h : t.WF) : (asTraj t).WF := by
  unfold asTraj
  split
  · obtain ⟨shape, data⟩ := t
    cases shape <;> simpa [Tensor.WF, Tensor.unsqueeze1] using h
  · exact h

theorem shape2 {t : Tensor ℝ} {d : ℕ} (h : ¬ (t.ndim ≠ 2 ∨ t.shape.getD 1 0 ≠ d)) :
    ∃ n, t.shape = [n, d] := by
  obtain ⟨shape, data⟩ := t
  simp only [Tensor.ndim, not_or, not_not] at h
  obtain ⟨h1, h2⟩ := h
  match shape, h1, h2 with
  | [n, e], _, h2 => exact ⟨n, by simp at h2; simp [h2]⟩

theorem shape3 {t : Tensor ℝ} {T d : ℕ} (h1 : ¬ t.ndim ≠ 3) (h2 : t.shape.getD 0 0 = T)
    (h3 : ¬ t.shape.getD 2 0 ≠ d) : ∃ n, t.shape = [T, n, d] := by
  obtain ⟨shape, data⟩ := t
  simp only [Tensor.ndim, not_not] at h1 h3
  match shape, h1, h2, h3 with
  | [n, m, e], _, h2, h3 => exact ⟨m, by simp at h2 h3; simp [h2, h3]⟩

theorem prepareEntity_pos {e : Entity} {o : Option OriArg} {b : Bool} {p : Tensor ℝ}
    {q : Option (Tensor ℝ)} (h : prepareEntity e o b = .ok (p, q)) : p = e.positions := by
  unfold prepareEntity at h
  split at h <;> cases h <;> rfl

theorem static_shapes {w : World} {room : Room} {sources mics : Entity} {a : SimArgs}
    (hs : sources.positions.WF) (hm : mics.positions.WF) {r : Tensor ℝ}
    (h : simulateRir w room sources mics a = .ok r) :
    ∃ (L : Fin room.size.length → ℝ) (nS nM : ℕ) (src : Fin nS → Fin room.size.length → ℝ)
      (mic : Fin nM → Fin room.size.length → ℝ), room.size = List.ofFn L ∧
      asPoints sources.positions = tensor2 src ∧ asPoints mics.positions = tensor2 mic := by
  unfold simulateRir at h
  rw [bind_eq_ok] at h
  obtain ⟨⟨cfg, N, tmax, dir⟩, hres, h⟩ := h
  simp only [bind_eq_ok] at h
  obtain ⟨K, hval, ⟨sPos, so⟩, hsrc, ⟨mPos, mo⟩, hmic, _, hdim, _, hshape, _⟩ := h
  have hsPos := prepareEntity_pos hsrc
  have hmPos := prepareEntity_pos hmic
  subst hsPos hmPos
  unfold validatePosShapes at hshape
  simp only [raiseIf_bind_ok, raiseIf_ok] at hshape
  obtain ⟨nS, h1⟩ := shape2 hshape.1
  obtain ⟨nM, h2⟩ := shape2 hshape.2
  obtain ⟨src, hsrc⟩ := exists_tensor2 _ (asPoints_wf hs) _ _ h1
  obtain ⟨mic, hmic⟩ := exists_tensor2 _ (asPoints_wf hm) _ _ h2
  exact ⟨fun i => room.size[i], nS, nM, src, mic, by simp, hsrc, hmic⟩

theorem dynamic_shapes {w : World} {room : Room} {sTraj mTraj : Tensor ℝ} {a : SimArgs}
    (hs : sTraj.WF) (hm : mTraj.WF) {r : Tensor ℝ}
    (h : simulateDynamicRir w room sTraj mTraj a = .ok r) :
    ∃ (L : Fin room.size.length → ℝ) (nT nS nM : ℕ)
      (src : Fin nT → Fin nS → Fin room.size.length → ℝ)
      (mic : Fin nT → Fin nM → Fin room.size.length → ℝ), room.size = List.ofFn L ∧
      asTraj sTraj = tensor3 src ∧ asTraj mTraj = tensor3 mic := by
  unfold simulateDynamicRir at h
  rw [bind_eq_ok] at h
  obtain ⟨⟨cfg, N, tmax, dir⟩, hres, h⟩ := h
  simp only [bind_eq_ok] at h
  obtain ⟨K, hval, ⟨so, mo⟩, _, _, hdim, _, hshape, _⟩ := h
  unfold validateTrajShapes at hshape
  simp only [raiseIf_bind_ok, raiseIf_ok] at hshape
  obtain ⟨s1, s2, s3, s4, s5⟩ := hshape
  obtain ⟨nS, h1⟩ := shape3 s1 rfl s4
  obtain ⟨nM, h2⟩ := shape3 s2 (not_not.mp s3).symm s5
  obtain ⟨src, hsrc⟩ := exists_tensor3 _ (asTraj_wf hs) _ _ _ h1
  obtain ⟨mic, hmic⟩ := exists_tensor3 _ (asTraj_wf hm) _ _ _ h2
  exact ⟨fun i => room.size[i], _, nS, nM, src, mic, by simp, hsrc, hmic⟩

end Torchrir.Lemmas
