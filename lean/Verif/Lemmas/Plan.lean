import Verif.Lemmas.Rows
import Verif.Spec.Calls

/-! # Constructing and comparing simulation plans -/

namespace Torchrir.Lemmas

open Torchrir.Model
open Torchrir.Spec

theorem wallList_inj {d : ℕ} {lo hi lo' hi' : Fin d → ℝ} (h : wallList lo hi = wallList lo' hi') :
    lo = lo' ∧ hi = hi' := by
  have := congrArg (groups d 2) h
  rw [groups_wallList, groups_wallList] at this
  have h2 := List.ofFn_injective this
  constructor
  · funext i
    have := congrFun h2 i
    simpa using (List.cons.inj this).1
  · funext i
    have := congrFun h2 i
    simpa using (List.cons.inj (List.cons.inj this).2).1

theorem IsImageList.unique {d : ℕ} {l : List (List ℤ)} {A B : Finset (Fin d → ℤ)}
    (h : IsImageList l A) (h' : IsImageList l B) : A = B := by
  ext n
  constructor
  · intro hn
    obtain ⟨m, hm, he⟩ := (h'.2 _).mp ((h.2 _).mpr ⟨n, hn, rfl⟩)
    rwa [← List.ofFn_injective he]
  · intro hn
    obtain ⟨m, hm, he⟩ := (h.2 _).mp ((h'.2 _).mpr ⟨n, hn, rfl⟩)
    rwa [← List.ofFn_injective he]

theorem PlanOk.unique {d nS nM : ℕ} {room : Room} {a a' : SimArgs} {L : Fin d → ℝ}
    {P P' : Plan d nS nM} {u u' : Fin nS → Fin nM → (Fin d → ℝ) → Prop}
    (h : PlanOk room a L P u) (h' : PlanOk room a' L P' u')
    (hres : resolveConfig a' = resolveConfig a) (hns : a'.nsample = a.nsample)
    (hnb : a'.nbImg = a.nbImg) (hso : P'.so = P.so) (hmo : P'.mo = P.mo) : P' = P := by
  obtain ⟨cfg, N, tmax, dir, K, lo, hi, nVec, A, sp, mp, so, mo, sd, md⟩ := P
  obtain ⟨cfg', N', tmax', dir', K', lo', hi', nVec', A', sp', mp', so', mo', sd', md'⟩ := P'
  simp only at hso hmo
  subst hso hmo
  have e1 := h'.res
  rw [hres, h.res] at e1
  simp only [Except.ok.injEq, Prod.mk.injEq] at e1
  obtain ⟨rfl, rfl, rfl, rfl⟩ := e1
  have e2 := h'.val
  rw [hns, h.val] at e2
  simp only [Except.ok.injEq] at e2
  subst e2
  have e3 := h'.beta
  rw [h.beta] at e3
  obtain ⟨e4, e5⟩ := wallList_inj (Except.ok.inj e3)
  simp only at e4 e5
  subst e4 e5
  have e6 := h'.img
  rw [hnb, h.img] at e6
  simp only [Except.ok.injEq] at e6
  subst e6
  have e7 := h'.imgA.unique h.imgA
  simp only at e7
  subst e7
  have e8 := h'.split
  rw [h.split] at e8
  simp only [Except.ok.injEq, Prod.mk.injEq] at e8
  obtain ⟨rfl, rfl⟩ := e8
  have e9 := h'.hmd
  rw [h.hmd] at e9
  simp only [Except.ok.injEq] at e9
  subst e9
  have e10 := h'.hsd
  rw [h.hsd] at e10
  simp only [Except.ok.injEq] at e10
  subst e10
  rfl

theorem deviceGain_omni (v d : Vec) : deviceGain "omni" v d = .ok 1 := rfl

theorem gainVal_omni (v d : Vec) : gainVal "omni" v d = 1 := rfl

theorem gains_omni {d nS nM : ℕ} (used : Fin nS → Fin nM → (Fin d → ℝ) → Prop) :
    GainsOk (d := d) "omni" "omni" none none (fun (_ : Fin nS) _ => 1) (fun (_ : Fin nM) _ => 1) used :=
  ⟨by simp, by simp, fun _ _ _ _ => rfl, fun _ => ⟨[], rfl, fun _ _ _ => rfl⟩⟩

theorem selection_images {d : ℕ} (sel : Selection d) :
    ∃ l, imageSourceIndices sel.maxOrder d sel.nbImg = .ok l ∧ IsImageList l sel.images := by
  cases sel with
  | order N => exact imageSourceIndices_order d N
  | box N nb => exact imageSourceIndices_box N nb

theorem selection_nonneg {d : ℕ} (sel : Selection d) : 0 ≤ sel.maxOrder := by
  cases sel <;> simp [Selection.maxOrder]

theorem resolveConfig_omni {d : ℕ} (sel : Selection d) (K : ℕ) (cfg : Config)
    (h : cfg.validate = .ok ()) :
    resolveConfig (omniArgs sel K cfg) = .ok (cfg, sel.maxOrder, cfg.tmax, .one "omni") := by
  unfold resolveConfig omniArgs
  simp only [Option.getD_some]
  rw [h, ok_bind]
  rfl

theorem validateArgs_omni {d : ℕ} (room : Room) (sel : Selection d) (K : ℕ) (hK : 0 < K)
    (tmax : Option ℝ) : validateArgs room (some (K : ℤ)) tmax sel.maxOrder = .ok K := by
  unfold validateArgs resolveNsample
  simp only
  rw [ok_bind, raiseIf_neg (by omega), ok_bind,
    raiseIf_neg (by have := selection_nonneg sel; omega), ok_bind]
  rfl

theorem resolveBeta_boxRoom {d : ℕ} (hd : d = 2 ∨ d = 3) (L lo hi : Fin d → ℝ) (fs c : ℝ) :
    resolveBeta (boxRoom L lo hi fs c) = .ok (wallList lo hi) := by
  unfold resolveBeta chooseBeta boxRoom
  simp only
  rw [ok_bind, raiseIf_neg, ok_bind]
  · rfl
  · have : (wallList lo hi).length = d * 2 := flatten_ofFn_length _ (by simp)
    rw [this, List.length_ofFn, nWalls]
    rcases hd with rfl | rfl <;> simp

/-- Plan of an omnidirectional call. -/
noncomputable def omniPlan {d : ℕ} (nS nM : ℕ) (lo hi : Fin d → ℝ) (sel : Selection d) (K : ℕ) (cfg : Config)
    (nVec : List (List ℤ)) : Plan d nS nM :=
  ⟨cfg, sel.maxOrder, cfg.tmax, .one "omni", K, lo, hi, nVec, sel.images, "omni", "omni", none,
    none, none, none⟩

theorem omniPlan_ok {d nS nM : ℕ} (hd : d = 2 ∨ d = 3) (hS : 0 < nS) (hM : 0 < nM)
    (L lo hi : Fin d → ℝ) (fs c : ℝ) (sel : Selection d) (K : ℕ) (hK : 0 < K) (cfg : Config)
    (hcfg : cfg.validate = .ok ()) :
    ∃ nVec, ∀ used : Fin nS → Fin nM → (Fin d → ℝ) → Prop, PlanOk (boxRoom L lo hi fs c) (omniArgs sel K cfg) L
      (omniPlan nS nM lo hi sel K cfg nVec) used := by
  obtain ⟨l, h1, h2⟩ := selection_images sel
  exact ⟨l, fun _ => ⟨hd, hS, hM, rfl, resolveBeta_boxRoom hd L lo hi fs c, resolveConfig_omni sel K cfg hcfg,
    validateArgs_omni _ sel K hK _, h1, h2, rfl, rfl, rfl, gains_omni _⟩⟩

theorem omniPlan_static {d nS nM : ℕ} (hd : d = 2 ∨ d = 3) (hS : 0 < nS) (hM : 0 < nM)
    (L lo hi : Fin d → ℝ) (fs c : ℝ) (sel : Selection d) (K : ℕ) (hK : 0 < K) (cfg : Config)
    (hcfg : cfg.validate = .ok ()) (src : Fin nS → Fin d → ℝ) (mic : Fin nM → Fin d → ℝ) :
    ∃ nVec, StaticPlan (boxRoom L lo hi fs c) (points src) (points mic) (omniArgs sel K cfg) L
      src mic (omniPlan nS nM lo hi sel K cfg nVec) := by
  obtain ⟨l, h⟩ := omniPlan_ok hd hS hM L lo hi fs c sel K hK cfg hcfg
  exact ⟨l, h _, ⟨_, rfl, rfl⟩, ⟨_, rfl, rfl⟩⟩

theorem omniPlan_dynamic {d nT nS nM : ℕ} (hd : d = 2 ∨ d = 3) (hT : 0 < nT) (hS : 0 < nS)
    (hM : 0 < nM) (L lo hi : Fin d → ℝ) (fs c : ℝ) (sel : Selection d) (K : ℕ) (hK : 0 < K)
    (cfg : Config) (hcfg : cfg.validate = .ok ()) (src : Fin nT → Fin nS → Fin d → ℝ)
    (mic : Fin nT → Fin nM → Fin d → ℝ) :
    ∃ nVec, DynamicPlan (boxRoom L lo hi fs c) (omniArgs sel K cfg) L
      src mic (omniPlan nS nM lo hi sel K cfg nVec) := by
  obtain ⟨l, h⟩ := omniPlan_ok hd hS hM L lo hi fs c sel K hK cfg hcfg
  exact ⟨l, h _, hT, rfl⟩

/-- Raw row of an omnidirectional call. -/
theorem omniPlan_row {d nS nM : ℕ} (w : World) (L lo hi : Fin d → ℝ) (fs c : ℝ) (sel : Selection d)
    (K : ℕ) (cfg : Config) (nVec : List (List ℤ)) (s : Fin nS) (m : Fin nM) (x y : Fin d → ℝ) :
    (omniPlan nS nM lo hi sel K cfg nVec).row w (boxRoom L lo hi fs c) L s m x y
      = List.ofFn fun k : Fin K => rir (setupFor w cfg L lo hi fs c) sel.images omni omni x y k := rfl

/-- An omnidirectional static simulation row by row, with or without filter. -/
theorem omni_static_iff {d nS nM : ℕ} (hd : d = 2 ∨ d = 3) (hS : 0 < nS) (hM : 0 < nM)
    (w : World) (L lo hi : Fin d → ℝ) (fs c : ℝ) (hfs : 0 < fs) (sel : Selection d) (K : ℕ)
    (hK : 0 < K) (cfg : Config) (hcfg : cfg.validate = .ok ()) (src : Fin nS → Fin d → ℝ)
    (mic : Fin nM → Fin d → ℝ) (R : Tensor ℝ) :
    simulateRir w (boxRoom L lo hi fs c) (points src) (points mic) (omniArgs sel K cfg) = .ok R ↔
      ∃ rows : Fin nS → Fin nM → List ℝ,
        (∀ s m, rowFilter w fs cfg (List.ofFn fun k : Fin K =>
          rir (setupFor w cfg L lo hi fs c) sel.images omni omni (src s) (mic m) k)
            = .ok (rows s m)) ∧ R = ofRows3 K rows := by
  obtain ⟨l, h⟩ := omniPlan_static hd hS hM L lo hi fs c sel K hK cfg hcfg src mic
  exact h.ok_iff w hfs.ne' rfl R

theorem omni_static_eval {d nS nM : ℕ} (hd : d = 2 ∨ d = 3) (hS : 0 < nS) (hM : 0 < nM)
    (w : World) (L lo hi : Fin d → ℝ) (fs c : ℝ) (hfs : 0 < fs) (sel : Selection d) (K : ℕ)
    (hK : 0 < K) (cfg : Config) (hcfg : cfg.validate = .ok ()) (src : Fin nS → Fin d → ℝ)
    (mic : Fin nM → Fin d → ℝ) :
    simulateRir w (boxRoom L lo hi fs c) (points src) (points mic) (omniArgs sel K cfg)
      = applyRirHpf w fs cfg (tensor3 fun s m (k : Fin K) =>
          rir (setupFor w cfg L lo hi fs c) sel.images omni omni (src s) (mic m) k) := by
  obtain ⟨l, h⟩ := omniPlan_static hd hS hM L lo hi fs c sel K hK cfg hcfg src mic
  rw [h.eval w hfs.ne']
  rfl

theorem applyRirHpf_off (w : World) (fs : ℝ) (cfg : Config) (h : cfg.rirHpfEnable = false)
    (t : Tensor ℝ) : applyRirHpf w fs cfg t = .ok t := by
  unfold applyRirHpf; rw [if_pos h]

theorem rowFilter_off (w : World) (fs : ℝ) (cfg : Config) (h : cfg.rirHpfEnable = false)
    (t : List ℝ) : rowFilter w fs cfg t = .ok t := by
  unfold rowFilter; rw [if_pos h]

end Torchrir.Lemmas
