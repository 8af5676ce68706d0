import Verif.Model.Scene
import Verif.Spec.Scene
import Verif.Lemmas.Rows
import Verif.Lemmas.Directivity
import Verif.Props.Orientation
import Verif.Props.Acoustics
import Verif.Props.Room

/-! # Accepted entities and rooms never fail the checks of the simulation -/

namespace Torchrir.Lemmas

open Torchrir.Model Torchrir.Spec Torchrir.Props

theorem batch_wf (pre : List ℕ) {d : ℕ} (f : Fin pre.prod → Fin d → ℝ) : (batch pre f).WF := by
  unfold batch Tensor.WF
  simp only [List.prod_append, List.prod_singleton]
  exact flatten_ofFn_length _ (by simp)

theorem exists_batch (t : Tensor ℝ) (hwf : t.WF) (pre : List ℕ) (k : ℕ) (h : t.shape = pre ++ [k]) :
    ∃ f : Fin pre.prod → Fin k → ℝ, t = batch pre f := by
  obtain ⟨shape, data⟩ := t
  simp only at h
  subst h
  simp only [Tensor.WF, List.prod_append, List.prod_singleton] at hwf
  obtain ⟨f, hf⟩ := flatten_of_length data hwf
  exact ⟨f, by rw [hf]; rfl⟩

theorem reals_wf {t : Tensor Flt} (h : t.WF) : t.reals.WF := by
  show (t.data.map Flt.toReal).length = t.shape.prod
  rw [List.length_map]
  exact h

/-- An accepted orientation denotes one direction or one direction per entity. -/
theorem accepted_orientation (o : Tensor Flt) (hwf : o.WF) (n d : ℕ) (hd : d = 2 ∨ d = 3)
    (h : orientationShapeOk o n d = true) :
    ∃ u, orientationToUnit o.reals d = .ok u ∧ u.WF ∧ (u.shape = [d] ∨ u.shape = [n, d]) := by
  have hw := reals_wf hwf
  have hs : o.reals.shape = o.shape := rfl
  have vec : ∀ (pre : List ℕ) (f : Fin pre.prod → Fin d → ℝ), o.reals = batch pre f →
      (pre = [] ∨ pre = [n]) →
      ∃ u, orientationToUnit o.reals d = .ok u ∧ u.WF ∧ (u.shape = [d] ∨ u.shape = [n, d]) := by
    intro pre f hf hpre
    rw [hf, orientationToUnit_vectors pre hd, normalizeOrientation_batch]
    refine ⟨_, rfl, batch_wf _ _, ?_⟩
    rcases hpre with rfl | rfl
    · exact Or.inl rfl
    · exact Or.inr rfl
  rcases hd with rfl | rfl
  · unfold orientationShapeOk at h
    simp only [if_true] at h
    generalize hsh : o.shape = sh at h
    rw [hsh] at hs
    rcases sh with _ | ⟨a, _ | ⟨b, _ | ⟨c, s⟩⟩⟩
    · have : o.reals.data.length = 1 := by rw [hw, hs]; rfl
      obtain ⟨x, hx⟩ := List.length_eq_one_iff.mp this
      have e : o.reals = ⟨[], [x]⟩ := by rw [← hx, ← hs]
      rw [e, (C32_angles x).1]
      exact ⟨_, rfl, batch_wf _ _, Or.inl rfl⟩
    · simp [Tensor.ndim, Tensor.numel, hsh] at h
      have hlen : o.reals.data.length = [a].prod := by rw [hw, hs]
      obtain ⟨f, hf⟩ := ofFn_of_length _ _ hlen
      have e : o.reals = ⟨[a], List.ofFn f⟩ := by rw [← hf, ← hs]
      by_cases h1 : a = 1
      · subst h1
        rw [e]
        have := (C32_angles 0).2.1 [] (fun i => f ⟨i, by simpa using i.2⟩)
        rw [show (⟨[1], List.ofFn f⟩ : Tensor ℝ) = ⟨[] ++ [1], List.ofFn fun i : Fin ([] : List ℕ).prod =>
          f ⟨i, by simpa using i.2⟩⟩ from rfl, this]
        exact ⟨_, rfl, batch_wf _ _, Or.inl rfl⟩
      by_cases h2 : a = 2
      · subst h2
        obtain ⟨g, hg⟩ := exists_batch o.reals hw [] 2 hs
        exact vec [] g hg (Or.inl rfl)
      · have hn : a = n := by tauto
        subst hn
        rw [e, (C32_angles 0).2.2 a h1 h2 f]
        exact ⟨_, rfl, batch_wf _ _, Or.inr rfl⟩
    · simp [Tensor.ndim, hsh] at h
      obtain ⟨rfl, hb⟩ := h
      by_cases h1 : b = 1
      · subst h1
        have hlen : o.reals.data.length = [a].prod := by rw [hw, hs]; simp
        obtain ⟨f, hf⟩ := ofFn_of_length _ _ hlen
        have e : o.reals = ⟨[a] ++ [1], List.ofFn f⟩ := by rw [← hf]; rw [show [a] ++ [1] = o.reals.shape from hs.symm]
        rw [e, (C32_angles 0).2.1 [a] f]
        exact ⟨_, rfl, batch_wf _ _, Or.inr rfl⟩
      · have h2 : b = 2 := by tauto
        subst h2
        obtain ⟨g, hg⟩ := exists_batch o.reals hw [a] 2 hs
        exact vec [a] g hg (Or.inr rfl)
    · simp [Tensor.ndim, hsh] at h
  · unfold orientationShapeOk at h
    rw [if_neg (by norm_num), if_pos rfl] at h
    have azel : ∀ (pre : List ℕ) (f : Fin pre.prod → Fin 2 → ℝ), o.reals = batch pre f →
        (pre = [] ∨ pre = [n]) →
        ∃ u, orientationToUnit o.reals 3 = .ok u ∧ u.WF ∧ (u.shape = [3] ∨ u.shape = [n, 3]) := by
      intro pre f hf hpre
      have : f = fun i => ![f i 0, f i 1] := by
        funext i j
        fin_cases j <;> rfl
      rw [hf, this, C32_azimuth_elevation]
      refine ⟨_, rfl, batch_wf _ _, ?_⟩
      rcases hpre with rfl | rfl
      · exact Or.inl rfl
      · exact Or.inr rfl
    generalize hsh : o.shape = sh at h
    rw [hsh] at hs
    rcases sh with _ | ⟨a, _ | ⟨b, _ | ⟨c, s⟩⟩⟩
    · simp [Tensor.ndim, hsh] at h
    · simp [Tensor.ndim, Tensor.numel, hsh] at h
      rcases h with rfl | rfl
      · obtain ⟨g, hg⟩ := exists_batch o.reals hw [] 2 hs
        exact azel [] g hg (Or.inl rfl)
      · obtain ⟨g, hg⟩ := exists_batch o.reals hw [] 3 hs
        exact vec [] g hg (Or.inl rfl)
    · simp [Tensor.ndim, hsh] at h
      obtain ⟨rfl, hb⟩ := h
      rcases hb with rfl | rfl
      · obtain ⟨g, hg⟩ := exists_batch o.reals hw [a] 2 hs
        exact azel [a] g hg (Or.inr rfl)
      · obtain ⟨g, hg⟩ := exists_batch o.reals hw [a] 3 hs
        exact vec [a] g hg (Or.inr rfl)
    · simp [Tensor.ndim, hsh] at h

/-- What an accepted entity looks like. -/
theorem entityNew_ok {p : Tensor Flt} {o : Option (Tensor Flt)} {e : Entity} (hp : p.WF)
    (h : entityNew p o = .ok e) :
    ∃ n d, (d = 2 ∨ d = 3) ∧ e.positions.shape = [n, d] ∧ e.positions.WF ∧
      e.orientation = o.map Tensor.reals ∧ ∀ t, o = some t → orientationShapeOk t n d = true := by
  unfold entityNew at h
  obtain ⟨q, hq, h⟩ := (bind_eq_ok _ _ _).mp h
  obtain ⟨u, hu, h⟩ := (bind_eq_ok _ _ _).mp h
  have he := Except.ok.inj h
  unfold normalizeEntityPositions at hq
  dsimp only at hq
  rw [raiseIf_bind_ok, raiseIf_bind_ok] at hq
  obtain ⟨h1, h2, h3⟩ := hq
  have hq' := Except.ok.inj h3
  rw [hq'] at h1 h2
  have hqw : q.WF := by
    rw [← hq']
    split
    · simpa [Tensor.WF, Tensor.unsqueeze0] using hp
    · exact hp
  obtain ⟨qs, qd⟩ := q
  simp only [Tensor.ndim, not_or, not_not] at h1
  match qs, h1 with
  | [n, d], h1 =>
    refine ⟨n, d, by have := h1.2; simp at this; omega, by rw [← he]; rfl, by rw [← he]; exact reals_wf hqw, ?_, ?_⟩
    · rw [← he]
      unfold normalizeEntityOrientation at hu
      cases o with
      | none => cases hu; rfl
      | some t =>
        obtain ⟨_, _, hu⟩ := (bind_eq_ok _ _ _).mp hu
        cases hu; rfl
    · intro t ht
      subst ht
      unfold normalizeEntityOrientation at hu
      obtain ⟨_, hv, _⟩ := (bind_eq_ok _ _ _).mp hu
      unfold validateOrientation at hv
      rw [raiseIf_bind_ok, raiseIf_ok] at hv
      simpa using hv.2

theorem deviceGain_some {d : ℕ} {name : String} (hn : ∃ p : Pattern, name.toLower ∈ p.names)
    {v : Fin d → ℝ} (hv : v ≠ 0) {dir : Vec} (hdir : dir.length = d) :
    ∃ g, deviceGain name (List.ofFn v) dir = .ok g := by
  obtain ⟨p, hp⟩ := hn
  unfold deviceGain
  split
  · exact ⟨_, rfl⟩
  · rw [if_neg (by simpa using hdir)]
    unfold cosBetween
    rw [norm2_ofFn', if_neg (fnorm_pos hv).ne']
    exact ⟨_, directivityGain_of_name p name hp _⟩

theorem rows_length {n d : ℕ} {u : Tensor ℝ} (hw : u.WF) (hs : u.shape = [n, d]) :
    u.rows.length = n ∧ ∀ s < n, (u.rows.getD s []).length = d := by
  obtain ⟨f, rfl⟩ := exists_tensor2 u hw n d hs
  rw [tensor2_rows]
  refine ⟨by simp, fun s hs => ?_⟩
  rw [List.getD_eq_getElem _ _ (by simpa using hs)]
  simp

theorem srcDirs_ready {name : String} {o : Option (Tensor Flt)} {n d : ℕ} (hd : d = 2 ∨ d = 3)
    (ho : ∀ t, o = some t → t.WF ∧ orientationShapeOk t n d = true)
    (hr : DeviceReady name (o.map Tensor.reals)) :
    ∃ sd, resolveSrcDirs name (o.map Tensor.reals) d n = .ok sd ∧ ¬ (name ≠ "omni" ∧ sd.isNone) ∧
      ∀ s < n, name = "omni" ∨ ((sd.getD []).getD s []).length = d := by
  by_cases hn : name = "omni"
  · subst hn
    exact ⟨none, rfl, by simp, fun _ _ => Or.inl rfl⟩
  · rcases hr with hr | ⟨hr, -⟩
    · exact absurd hr hn
    cases o with
    | none => simp at hr
    | some t =>
      obtain ⟨hw, hsh⟩ := ho t rfl
      obtain ⟨u, hu, huw, hus⟩ := accepted_orientation t hw n d hd hsh
      unfold resolveSrcDirs
      rw [if_neg hn]
      simp only [Option.map_some]
      rw [hu, ok_bind]
      rcases hus with hus | hus
      · rw [if_pos (by simp [Tensor.ndim, hus])]
        refine ⟨_, rfl, by simp, fun s hs => Or.inr ?_⟩
        rw [Option.getD_some, List.getD_eq_getElem _ _ (by simpa using hs)]
        simp only [List.getElem_replicate]
        rw [huw, hus]; simp
      · rw [if_neg (by simp [Tensor.ndim, hus]), if_neg (by simp [Tensor.ndim, hus])]
        exact ⟨_, rfl, by simp, fun s hs => Or.inr ((rows_length huw hus).2 s hs)⟩

theorem micDir_ready {name : String} {o : Option (Tensor Flt)} {n d : ℕ} (hd : d = 2 ∨ d = 3)
    (ho : ∀ t, o = some t → t.WF ∧ orientationShapeOk t n d = true)
    (hr : DeviceReady name (o.map Tensor.reals)) :
    ∃ md, resolveMicDir name (o.map Tensor.reals) d = .ok md ∧ ¬ (name ≠ "omni" ∧ md.isNone) ∧
      ∀ m < n, ∃ mv, micVec md n m = .ok mv ∧ (name = "omni" ∨ mv.length = d) := by
  by_cases hn : name = "omni"
  · subst hn
    exact ⟨none, rfl, by simp, fun _ _ => ⟨[], rfl, Or.inl rfl⟩⟩
  · rcases hr with hr | ⟨hr, -⟩
    · exact absurd hr hn
    cases o with
    | none => simp at hr
    | some t =>
      obtain ⟨hw, hsh⟩ := ho t rfl
      obtain ⟨u, hu, huw, hus⟩ := accepted_orientation t hw n d hd hsh
      unfold resolveMicDir
      rw [if_neg hn]
      simp only [Option.map_some]
      rw [hu, ok_bind]
      rcases hus with hus | hus
      · rw [if_neg (by simp [Tensor.ndim, hus])]
        refine ⟨_, rfl, by simp, fun m hm => ⟨u.data, rfl, Or.inr ?_⟩⟩
        rw [huw, hus]; simp
      · rw [if_pos (by simp [Tensor.ndim, hus])]
        obtain ⟨h1, h2⟩ := rows_length huw hus
        refine ⟨_, rfl, by simp, fun m hm => ⟨u.rows.getD m [], ?_, Or.inr (h2 m hm)⟩⟩
        simp only [micVec, micDirFor]
        rw [if_pos h1]

/-- Accepted devices always have gains. -/
theorem gains_ready {nS nM d : ℕ} (P : Plan d nS nM)
    (used : Fin nS → Fin nM → (Fin d → ℝ) → Prop)
    (hsp : P.sp = "omni" ∨ ∃ p : Pattern, P.sp.toLower ∈ p.names)
    (hmp : P.mp = "omni" ∨ ∃ p : Pattern, P.mp.toLower ∈ p.names)
    (h1 : ¬ (P.sp ≠ "omni" ∧ P.sd.isNone)) (h2 : ¬ (P.mp ≠ "omni" ∧ P.md.isNone))
    (h3 : ∀ s < nS, P.sp = "omni" ∨ ((P.sd.getD []).getD s []).length = d)
    (h4 : ∀ m < nM, ∃ mv, micVec P.md nM m = .ok mv ∧ (P.mp = "omni" ∨ mv.length = d))
    (hused : (P.sp = "omni" ∧ P.mp = "omni") ∨ ∀ s m v, used s m v → v ≠ 0) :
    GainsOk P.sp P.mp P.sd P.md P.gs P.gm used := by
  have known : ∀ name : String, (name = "omni" ∨ ∃ p : Pattern, name.toLower ∈ p.names) →
      ∃ p : Pattern, name.toLower ∈ p.names := by
    rintro name (rfl | h)
    · exact ⟨.omni, omni_lower⟩
    · exact h
  choose mv hmv1 hmv2 using fun m : Fin nM => h4 m m.2
  have omni : ∀ {p : String} (v d : Vec), p = "omni" → ∃ g, deviceGain p v d = .ok g := by
    rintro p v d rfl
    exact ⟨1, rfl⟩
  refine ⟨h1, h2, fun s m v hv => ?_, fun m => ⟨mv m, hmv1 m, fun s v hv => ?_⟩⟩
  · apply gainVal_ok
    rcases h3 s s.2 with h | hl
    · exact omni _ _ h
    rcases hused with ⟨h, -⟩ | hused
    · exact omni _ _ h
    exact deviceGain_some (known _ hsp) (hused s m v hv) hl
  · unfold Plan.gm
    rw [hmv1 m]
    apply gainVal_ok
    rcases hmv2 m with h | hl
    · exact omni _ _ h
    rcases hused with ⟨-, h⟩ | hused
    · exact omni _ _ h
    exact deviceGain_some (known _ hmp) (neg_ne_zero.mpr (hused s m v hv)) hl

/-- An accepted room with finite parameters has walls and positive parameters. -/
theorem room_ready {conv : Flt → ℤ} {a r : RoomObj} (hwf : RoomObj.WF a) (h : roomNew conv a = .ok r)
    (hfs : r.fs.isFinite) (hc : r.c.isFinite) (ht : ∀ t, r.t60 = some t → t.isFinite) :
    ∃ d, (d = 2 ∨ d = 3) ∧ r.toRoom.size.length = d ∧ 0 < r.toRoom.fs ∧ 0 < r.toRoom.c ∧
      ∃ lo hi : Fin d → ℝ, resolveBeta r.toRoom = .ok (wallList lo hi) := by
  have hr := roomNew_wf hwf h
  obtain ⟨⟨hnd, hnum⟩, hpos, hfs', hc', -, ht'⟩ := ((roomNew_ok _ _ _).mp h).1
  obtain ⟨hr', hb⟩ := roomNew_eq h
  have hlen : r.toRoom.size.length = a.size.tensor.numel := by
    rw [hr']
    simp only [RoomObj.toRoom, List.length_map]
    exact hwf.size
  have hw : nWalls r.toRoom.size.length = if a.size.tensor.numel = 2 then 4 else 6 := by
    rw [hlen]; rfl
  have posReal : ∀ f : Flt, f.isFinite → ¬ f.leZero → 0 < f.toReal := by
    intro f h1 h2
    cases f <;> simp [Flt.isFinite, Flt.leZero, Flt.toReal] at *
    exact h2
  refine ⟨a.size.tensor.numel, hnum, hlen, posReal _ hfs (by rw [hr']; exact hfs'),
    posReal _ hc (by rw [hr']; exact hc'), ?_⟩
  have conclude : ∀ b : List ℝ, chooseBeta r.toRoom = .ok b → b.length = 2 * a.size.tensor.numel →
      ∃ lo hi : Fin a.size.tensor.numel → ℝ, resolveBeta r.toRoom = .ok (wallList lo hi) := by
    intro b hb hl
    obtain ⟨lo, hi, rfl⟩ := wallList_of_length b hl
    refine ⟨lo, hi, ?_⟩
    unfold resolveBeta
    rw [hb, ok_bind, raiseIf_neg, ok_bind]
    · rfl
    · rw [hl, hw]
      rcases hnum with h | h <;> rw [h] <;> simp
  cases hab : a.beta with
  | some b =>
    apply conclude ((storedBeta conv a.size b).tensor.data.map Flt.toReal)
    · unfold chooseBeta
      rw [hr']
      simp [RoomObj.toRoom, hab]
    · have h1 := (hb b hab).1
      have h2 := storedBeta_wf conv a.size b (hwf.beta b hab)
      have h3 : (storedBeta conv a.size b).tensor.shape.prod
          = (castTo conv a.size.dtype b).tensor.numel := by simp [storedBeta]
      rw [List.length_map, h2, h3, h1]
      rcases hnum with h | h <;> rw [h] <;> rfl
  | none =>
    cases hat : a.t60 with
    | none =>
      apply conclude (List.replicate (nWalls r.toRoom.size.length) 1)
      · unfold chooseBeta
        rw [hr']
        simp [RoomObj.toRoom, hab, hat]
      · rw [List.length_replicate, hw]
        rcases hnum with h | h <;> rw [h] <;> rfl
    | some t =>
      have htf := ht t (by rw [hr']; exact hat)
      have htp : 0 < t.toReal := posReal t htf fun h => ht' ⟨t, hat, h⟩
      obtain ⟨L, hL⟩ := ofFn_of_length _ _ hlen
      have hreal : RealRoom L := by
        refine ⟨hnum, fun i => ?_⟩
        have hm : L i ∈ r.toRoom.size := by rw [hL]; simp
        rw [hr'] at hm
        simp only [RoomObj.toRoom, List.mem_map] at hm
        obtain ⟨x, hx, hxi⟩ := hm
        obtain ⟨v, hv, rfl⟩ := hpos x hx
        rw [← hxi]
        exact hv
      · refine conclude (List.replicate (2 * a.size.tensor.numel)
          (Real.sqrt (1 - min (0.161 * volume L / (t.toReal * surface L)) 0.999))) ?_ (by simp)
        unfold chooseBeta
        have e1 : r.toRoom.beta = none := by rw [hr']; simp [RoomObj.toRoom, hab]
        have e2 : r.toRoom.t60 = some t.toReal := by rw [hr']; simp [RoomObj.toRoom, hat]
        rw [e1, e2]
        simp only
        rw [hL, beta_formula hreal htp]

end Torchrir.Lemmas
