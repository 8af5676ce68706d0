import Verif.Spec.OrientationCounts
import Verif.Props.Scene
import Verif.Props.Pairs

/-! # The number of orientations: C98 -/

namespace Torchrir.Props

open Torchrir.Model Torchrir.Spec Torchrir.Lemmas

theorem directionArray_unit (o : Tensor ℝ) (hwf : o.WF) (d : ℕ) (lead : List ℕ)
    (h : DirectionArray o.shape d lead) :
    ∃ u, orientationToUnit o d = .ok u ∧ u.WF ∧ u.shape = lead ++ [d] := by
  have vec : ∀ (d : ℕ), (d = 2 ∨ d = 3) → o.shape = lead ++ [d] →
      ∃ u, orientationToUnit o d = .ok u ∧ u.WF ∧ u.shape = lead ++ [d] := by
    intro d hd h
    obtain ⟨f, rfl⟩ := exists_batch o hwf lead d h
    rw [orientationToUnit_vectors lead hd, normalizeOrientation_batch]
    exact ⟨_, rfl, batch_wf _ _, rfl⟩
  rcases h with ⟨rfl, ⟨h, rfl⟩ | h | h | ⟨n, n1, n2, h, rfl⟩⟩ | ⟨rfl, h | h⟩
  · obtain ⟨x, hx⟩ := List.length_eq_one_iff.mp (show o.data.length = 1 by rw [hwf, h]; rfl)
    have e : o = ⟨[], [x]⟩ := by rw [← hx, ← h]
    rw [e, (C32_angles x).1]
    exact ⟨_, rfl, batch_wf _ _, rfl⟩
  · obtain ⟨f, hf⟩ := ofFn_of_length o.data lead.prod (by rw [hwf, h]; simp)
    have e : o = ⟨lead ++ [1], List.ofFn f⟩ := by rw [← hf, ← h]
    rw [e, (C32_angles 0).2.1 lead f]
    exact ⟨_, rfl, batch_wf _ _, rfl⟩
  · exact vec 2 (Or.inl rfl) h
  · obtain ⟨f, hf⟩ := ofFn_of_length o.data [n].prod (by rw [hwf, h])
    have e : o = ⟨[n], List.ofFn f⟩ := by rw [← hf, ← h]
    rw [e, (C32_angles 0).2.2 n n1 n2 f]
    exact ⟨_, rfl, batch_wf _ _, rfl⟩
  · obtain ⟨f, hf⟩ := exists_batch o hwf lead 2 h
    have : f = fun i => ![f i 0, f i 1] := by
      funext i j
      fin_cases j <;> rfl
    rw [hf, this, C32_azimuth_elevation]
    exact ⟨_, rfl, batch_wf _ _, rfl⟩
  · exact vec 3 (Or.inr rfl) h

theorem directionArray_of_ok (o : Tensor ℝ) (d : ℕ) (h : ∃ u, orientationToUnit o d = .ok u) :
    ∃ lead, DirectionArray o.shape d lead := by
  rw [C32_accepted_shapes] at h
  rcases h with ⟨rfl, h | ⟨n, h⟩ | ⟨pre, n, h, rfl | rfl⟩⟩ | ⟨rfl, pre, n, h, rfl | rfl⟩
  · exact ⟨[], Or.inl ⟨rfl, Or.inl ⟨h, rfl⟩⟩⟩
  · by_cases h1 : n = 1
    · exact ⟨[], Or.inl ⟨rfl, Or.inr (Or.inl (by rw [h, h1]; rfl))⟩⟩
    by_cases h2 : n = 2
    · exact ⟨[], Or.inl ⟨rfl, Or.inr (Or.inr (Or.inl (by rw [h, h2]; rfl)))⟩⟩
    exact ⟨[n], Or.inl ⟨rfl, Or.inr (Or.inr (Or.inr ⟨n, h1, h2, h, rfl⟩))⟩⟩
  · exact ⟨pre, Or.inl ⟨rfl, Or.inr (Or.inl h)⟩⟩
  · exact ⟨pre, Or.inl ⟨rfl, Or.inr (Or.inr (Or.inl h))⟩⟩
  · exact ⟨pre, Or.inr ⟨rfl, Or.inl h⟩⟩
  · exact ⟨pre, Or.inr ⟨rfl, Or.inr h⟩⟩

theorem directionArray_unique {s : List ℕ} {d : ℕ} {lead lead' : List ℕ} (h : DirectionArray s d lead)
    (h' : DirectionArray s d lead') : lead = lead' := by
  have inj : ∀ {a b : List ℕ} {x y : ℕ}, a ++ [x] = b ++ [y] → a = b ∧ x = y := by
    intro a b x y h
    have := List.append_inj' h rfl
    exact ⟨this.1, by simpa using this.2⟩
  rcases h with ⟨rfl, ⟨h, e⟩ | h | h | ⟨n, n1, n2, h, e⟩⟩ | ⟨rfl, h | h⟩ <;>
  rcases h' with ⟨h0, ⟨h', e'⟩ | h' | h' | ⟨n', n1', n2', h', e'⟩⟩ | ⟨h0, h' | h'⟩ <;>
  first
  | (exfalso; omega)
  | (subst e; subst e'; rfl)
  | (rw [h] at h'; simp at h'; done)
  | (rw [h] at h'; exact (inj h').1)
  | (rw [h] at h'; exfalso
     have := inj (a := []) h'; omega)
  | (rw [h] at h'; exfalso
     have := inj (b := []) h'; omega)
  | (rw [h] at h'; have := inj (a := []) (b := []) h'; rw [e, e', this.2])

/-- A non-omnidirectional source needs one direction or one for each source. -/
theorem resolveSrcDirs_iff {name : String} (hn : name ≠ "omni") (so : Option (Tensor ℝ)) (hwf : ∀ o, so = some o → o.WF)
    (d n : ℕ) :
    (∃ sd, resolveSrcDirs name so d n = .ok sd) ↔
      ∃ o lead, so = some o ∧ DirectionArray o.shape d lead ∧ OneOrEach lead n := by
  unfold resolveSrcDirs
  rw [if_neg hn]
  cases so with
  | none => simp
  | some o =>
    simp only [Option.some.injEq]
    constructor
    · rintro ⟨sd, h⟩
      obtain ⟨u, hu, h⟩ := (bind_eq_ok _ _ _).mp h
      obtain ⟨lead, hl⟩ := directionArray_of_ok o d ⟨u, hu⟩
      obtain ⟨u', hu', -, hs⟩ := directionArray_unit o (hwf o rfl) d lead hl
      obtain rfl : u = u' := Except.ok.inj (hu.symm.trans hu')
      refine ⟨o, lead, rfl, hl, ?_⟩
      split_ifs at h with h1 h2
      · simp only [Tensor.ndim, hs] at h1
        exact Or.inl (by simpa using h1)
      · simp only [not_or, not_not, Tensor.ndim, hs] at h2
        match lead, h2 with
        | [a], h2 => exact Or.inr (by simpa using h2.2)
        | a :: b :: l, h2 => simp at h2
    · rintro ⟨_, lead, rfl, hl, h⟩
      obtain ⟨u, hu, -, hs⟩ := directionArray_unit _ (hwf _ rfl) d lead hl
      rw [hu, ok_bind]
      rcases h with rfl | rfl
      · rw [if_pos (by simp [Tensor.ndim, hs])]
        exact ⟨_, rfl⟩
      · rw [if_neg (by simp [Tensor.ndim, hs]), if_neg (by simp [Tensor.ndim, hs])]
        exact ⟨_, rfl⟩

theorem srcDirs_lengths {name : String} (hn : name ≠ "omni") {o : Tensor ℝ} (hwf : o.WF) {d n : ℕ} {lead : List ℕ}
    (hl : DirectionArray o.shape d lead) {sd : Option (List Vec)} (h : resolveSrcDirs name (some o) d n = .ok sd) :
    sd.isSome ∧ ∀ s < n, ((sd.getD []).getD s []).length = d := by
  unfold resolveSrcDirs at h
  rw [if_neg hn] at h
  dsimp only at h
  obtain ⟨u, hu, huw, hs⟩ := directionArray_unit _ hwf d lead hl
  rw [hu, ok_bind] at h
  split_ifs at h with h1 h2
  · cases h
    refine ⟨rfl, fun s hs' => ?_⟩
    rw [Option.getD_some, List.getD_eq_getElem _ _ (by simpa using hs')]
    simp only [List.getElem_replicate]
    rw [huw, hs]
    simp only [Tensor.ndim, hs] at h1
    have : lead = [] := by simpa using h1
    simp [this]
  · cases h
    simp only [not_or, not_not, Tensor.ndim, hs] at h2
    match lead, h2 with
    | [a], h2 =>
      have ha : a = n := by simpa using h2.2
      subst ha
      exact ⟨rfl, fun s hs' => (rows_length huw hs).2 s hs'⟩
    | a :: b :: l, h2 => simp at h2

theorem prod_one {l : List ℕ} : l.prod = 1 ↔ ∀ x ∈ l, x = 1 := by
  induction l with
  | nil => simp
  | cons a l ih => simp [ih]

/-- The directions that fit `n` microphones. -/
theorem resolveMicDir_iff {name : String} (hn : name ≠ "omni") (mo : Option (Tensor ℝ)) (hwf : ∀ o, mo = some o → o.WF)
    {d n : ℕ} (hd : 0 < d) (hpos : 0 < n) :
    (∃ md, resolveMicDir name mo d = .ok md ∧ ∀ m < n, ∃ mv, micVec md n m = .ok mv ∧ mv.length = d) ↔
      ∃ o lead, mo = some o ∧ DirectionArray o.shape d lead ∧ MicLead lead n := by
  unfold resolveMicDir
  rw [if_neg hn]
  cases mo with
  | none => simp
  | some o =>
    simp only [Option.some.injEq]
    constructor
    · rintro ⟨md, h, hmd⟩
      obtain ⟨u, hu, h⟩ := (bind_eq_ok _ _ _).mp h
      obtain ⟨lead, hl⟩ := directionArray_of_ok o d ⟨u, hu⟩
      obtain ⟨u', hu', huw, hs⟩ := directionArray_unit o (hwf o rfl) d lead hl
      obtain rfl : u = u' := Except.ok.inj (hu.symm.trans hu')
      refine ⟨o, lead, rfl, hl, ?_⟩
      obtain ⟨mv, h3, h4⟩ := hmd 0 hpos
      split_ifs at h with h1
      · cases h
        simp only [Tensor.ndim, hs] at h1
        obtain ⟨a, rfl⟩ := List.length_eq_one_iff.mp (show lead.length = 1 by simpa using h1)
        have hr := (rows_length huw hs).1
        simp only [micVec, micDirFor] at h3
        rw [hr] at h3
        split_ifs at h3 with h5 h6
        · exact Or.inr (Or.inl (by rw [h5]))
        · rcases h6 with h6 | ⟨h6, h7⟩
          · exact Or.inl (by simp [h6])
          · refine Or.inr (Or.inr ⟨h6, a, ?_, rfl⟩)
            rw [← hr]
            exact List.length_pos_iff.mpr h7
      · cases h
        simp only [micVec, micDirFor, Except.ok.injEq] at h3
        subst h3
        rw [huw, hs] at h4
        simp only [List.prod_append, List.prod_singleton] at h4
        left
        have : lead.prod = 1 := by
          rcases Nat.eq_zero_or_pos lead.prod with h | h
          · rw [h] at h4; omega
          · nlinarith
        exact prod_one.mp this
    · rintro ⟨_, lead, rfl, hl, h⟩
      obtain ⟨u, hu, huw, hs⟩ := directionArray_unit _ (hwf _ rfl) d lead hl
      rw [hu, ok_bind]
      by_cases h1 : u.ndim = 2
      · rw [if_pos h1]
        refine ⟨_, rfl, fun m hm => ?_⟩
        simp only [Tensor.ndim, hs] at h1
        obtain ⟨a, rfl⟩ := List.length_eq_one_iff.mp (show lead.length = 1 by simpa using h1)
        obtain ⟨hr, hr2⟩ := rows_length huw hs
        simp only [micVec, micDirFor]
        rw [hr]
        by_cases ha : a = n
        · rw [if_pos ha]
          exact ⟨_, rfl, hr2 m (by omega)⟩
        · have : a = 1 ∨ n = 1 ∧ u.rows ≠ [] := by
            rcases h with h | h | ⟨h, k, hk, h'⟩
            · exact Or.inl (h a (by simp))
            · exact absurd (by simpa using h) ha
            · refine Or.inr ⟨h, fun h0 => ?_⟩
              rw [h0] at hr
              simp at hr h'
              omega
          rw [if_neg ha, if_pos this]
          refine ⟨_, rfl, hr2 0 ?_⟩
          rcases this with h | ⟨-, h⟩
          · omega
          · rw [← hr]; exact List.length_pos_iff.mpr h
      · rw [if_neg h1]
        refine ⟨_, rfl, fun m hm => ⟨u.data, rfl, ?_⟩⟩
        rw [huw, hs]
        simp only [Tensor.ndim, hs] at h1
        have : ∀ x ∈ lead, x = 1 := by
          rcases h with h | rfl | ⟨-, k, -, rfl⟩
          · exact h
          · simp at h1
          · simp at h1
        simp [prod_one.mpr this]

/-- The orientation of the sources can be used. -/
def SourceReady (name : String) (so : Option (Tensor ℝ)) (d n : ℕ) : Prop :=
  name = "omni" ∨ ∃ o lead, so = some o ∧ DirectionArray o.shape d lead ∧ OneOrEach lead n

/-- The orientation of the microphones can be used. -/
def MicReady (name : String) (mo : Option (Tensor ℝ)) (d n : ℕ) : Prop :=
  name = "omni" ∨ ∃ o lead, mo = some o ∧ DirectionArray o.shape d lead ∧ MicLead lead n

theorem ready_of_gains {d nS nM : ℕ} (hd : d = 2 ∨ d = 3) (hS : 0 < nS) (hM : 0 < nM) {sp mp : String}
    {so mo : Option (Tensor ℝ)} (hso : ∀ o, so = some o → o.WF) (hmo : ∀ o, mo = some o → o.WF)
    {sd : Option (List Vec)} {md : Option MicDir} (hmd : resolveMicDir mp mo d = .ok md)
    (hsd : resolveSrcDirs sp so d nS = .ok sd) {gs : Fin nS → (Fin d → ℝ) → ℝ} {gm : Fin nM → (Fin d → ℝ) → ℝ}
    {used : Fin nS → Fin nM → (Fin d → ℝ) → Prop} (hused : ∀ s m, ∃ v, used s m v)
    (hg : GainsOk sp mp sd md gs gm used) : SourceReady sp so d nS ∧ MicReady mp mo d nM := by
  constructor
  · by_cases hn : sp = "omni"
    · exact Or.inl hn
    · exact Or.inr ((resolveSrcDirs_iff hn so hso d nS).mp ⟨sd, hsd⟩)
  · by_cases hn : mp = "omni"
    · exact Or.inl hn
    · refine Or.inr ((resolveMicDir_iff hn mo hmo (by omega) hM).mp ⟨md, hmd, fun m hm => ?_⟩)
      obtain ⟨mv, h1, h2⟩ := hg.mic ⟨m, hm⟩
      refine ⟨mv, h1, ?_⟩
      obtain ⟨v, hv⟩ := hused ⟨0, hS⟩ ⟨m, hm⟩
      have := h2 _ v hv
      unfold deviceGain at this
      rw [if_neg hn] at this
      by_contra hl
      rw [if_pos (by simpa using hl)] at this
      cases this

theorem dirs_of_ready {d nS nM : ℕ} (hd : d = 2 ∨ d = 3) (hM : 0 < nM) {sp mp : String} {so mo : Option (Tensor ℝ)}
    (hso : ∀ o, so = some o → o.WF) (hmo : ∀ o, mo = some o → o.WF)
    (h1 : SourceReady sp so d nS) (h2 : MicReady mp mo d nM) :
    (∃ sd, resolveSrcDirs sp so d nS = .ok sd ∧ ¬ (sp ≠ "omni" ∧ sd.isNone) ∧
      ∀ s < nS, sp = "omni" ∨ ((sd.getD []).getD s []).length = d) ∧
    ∃ md, resolveMicDir mp mo d = .ok md ∧ ¬ (mp ≠ "omni" ∧ md.isNone) ∧
      ∀ m < nM, ∃ mv, micVec md nM m = .ok mv ∧ (mp = "omni" ∨ mv.length = d) := by
  have hs : ∃ sd, resolveSrcDirs sp so d nS = .ok sd ∧ ¬ (sp ≠ "omni" ∧ sd.isNone) ∧
      ∀ s < nS, sp = "omni" ∨ ((sd.getD []).getD s []).length = d := by
    rcases h1 with h | ⟨o, lead, h3, h4, h5⟩
    · refine ⟨none, by unfold resolveSrcDirs; rw [if_pos h], by simp [h], fun _ _ => Or.inl h⟩
    · by_cases hn : sp = "omni"
      · refine ⟨none, by unfold resolveSrcDirs; rw [if_pos hn], by simp [hn], fun _ _ => Or.inl hn⟩
      obtain ⟨sd, hsd⟩ := (resolveSrcDirs_iff hn so hso d nS).mpr ⟨o, lead, h3, h4, h5⟩
      have := srcDirs_lengths hn (hso o h3) h4 (h3 ▸ hsd)
      refine ⟨sd, hsd, ?_, fun s hs => Or.inr (this.2 s hs)⟩
      rintro ⟨-, h⟩
      have h' := this.1
      simp_all
  have hm : ∃ md, resolveMicDir mp mo d = .ok md ∧ ¬ (mp ≠ "omni" ∧ md.isNone) ∧
      ∀ m < nM, ∃ mv, micVec md nM m = .ok mv ∧ (mp = "omni" ∨ mv.length = d) := by
    by_cases hn : mp = "omni"
    · refine ⟨none, by unfold resolveMicDir; rw [if_pos hn], by simp [hn], fun _ _ => ⟨[], rfl, Or.inl hn⟩⟩
    rcases h2 with h | h
    · exact absurd h hn
    · obtain ⟨md, hmd, h3⟩ := (resolveMicDir_iff hn mo hmo (by omega) hM).mpr h
      refine ⟨md, hmd, ?_, fun m hm => ?_⟩
      · rintro ⟨-, h⟩
        obtain ⟨mv, h4, h5⟩ := h3 0 hM
        rw [Option.isNone_iff_eq_none] at h
        subst h
        cases h4
        simp at h5
        omega
      · obtain ⟨mv, h4, h5⟩ := h3 m hm
        exact ⟨mv, h4, Or.inr h5⟩
  exact ⟨hs, hm⟩

theorem gains_of_ready {d nS nM : ℕ} (hd : d = 2 ∨ d = 3) (hM : 0 < nM) (P : Plan d nS nM)
    (hso : ∀ o, P.so = some o → o.WF) (hmo : ∀ o, P.mo = some o → o.WF)
    {used : Fin nS → Fin nM → (Fin d → ℝ) → Prop} (hused : ∀ s m v, used s m v → v ≠ 0)
    (hsp : ∃ p : Pattern, P.sp.toLower ∈ p.names) (hmp : ∃ p : Pattern, P.mp.toLower ∈ p.names)
    (h1 : SourceReady P.sp P.so d nS) (h2 : MicReady P.mp P.mo d nM) :
    ∃ md sd, resolveMicDir P.mp P.mo d = .ok md ∧ resolveSrcDirs P.sp P.so d nS = .ok sd ∧
      GainsOk P.sp P.mp sd md ({ P with sd := sd, md := md } : Plan d nS nM).gs
        ({ P with sd := sd, md := md } : Plan d nS nM).gm used := by
  obtain ⟨⟨sd, a1, a2, a3⟩, md, b1, b2, b3⟩ := dirs_of_ready hd hM hso hmo h1 h2
  exact ⟨md, sd, b1, a1, gains_ready { P with sd := sd, md := md } used (Or.inr hsp) (Or.inr hmp) a2 b2 a3 b3
    (Or.inr hused)⟩

theorem _root_.Torchrir.Lemmas.PlanOk.zero_mem {d nS nM : ℕ} {room : Room} {a : SimArgs} {L : Fin d → ℝ}
    {P : Plan d nS nM} {used : Fin nS → Fin nM → (Fin d → ℝ) → Prop} (h : PlanOk room a L P used) :
    (0 : Fin d → ℤ) ∈ P.A := by
  obtain ⟨A, h3, h4, -⟩ := imageSourceIndices_inv (validateArgs_inv h.val).2.2 h.img
  rwa [h.imgA.unique h3]

theorem resolveConfig_directional {d : ℕ} (sel : Selection d) (K : ℕ) (cfg : Config) (hcfg : cfg.validate = .ok ())
    (sp mp : String) (o : Option OriArg) :
    resolveConfig { directionalArgs sel K cfg sp mp with orientation := o }
      = .ok (cfg, sel.maxOrder, cfg.tmax, .tuple [sp, mp]) := by
  unfold resolveConfig directionalArgs omniArgs
  simp only [Option.getD_some]
  rw [hcfg, ok_bind]
  rfl

/-- A simulation that succeeds had orientations that can be used. -/
theorem static_ready {d nS nM : ℕ} (hd : d = 2 ∨ d = 3) (hS : 0 < nS) (hM : 0 < nM) {w : World}
    {L lo hi : Fin d → ℝ} {fs c : ℝ} {sel : Selection d} {K : ℕ} {cfg : Config} (hcfg : cfg.validate = .ok ())
    {src : Fin nS → Fin d → ℝ} {mic : Fin nM → Fin d → ℝ} {so mo : Option (Tensor ℝ)}
    (hso : ∀ o, so = some o → o.WF) (hmo : ∀ o, mo = some o → o.WF) {sp mp : String} {R : Tensor ℝ}
    (h : simulateRir w (boxRoom L lo hi fs c) ⟨tensor2 src, so⟩ ⟨tensor2 mic, mo⟩ (directionalArgs sel K cfg sp mp)
      = .ok R) : SourceReady sp so d nS ∧ MicReady mp mo d nM := by
  have hres := resolveConfig_directional sel K cfg hcfg sp mp none
  obtain ⟨P, hP⟩ := StaticPlan.exists (L := L) (src := src) (mic := mic) rfl rfl rfl h
  obtain ⟨_, e1, -⟩ := hP.hsrc
  obtain ⟨_, e2, -⟩ := hP.hmic
  have e1 : so = P.so := by cases e1; rfl
  have e2 : mo = P.mo := by cases e2; rfl
  have e3 := hP.res.symm.trans hres
  simp only [Except.ok.injEq, Prod.mk.injEq] at e3
  have e4 := hP.split
  rw [e3.2.2.2] at e4
  simp only [splitDirectivity, Except.ok.injEq, Prod.mk.injEq] at e4
  have := ready_of_gains hd hS hM (e1 ▸ hso) (e2 ▸ hmo) hP.hmd hP.hsd
    (fun s m => ⟨_, 0, hP.zero_mem, rfl⟩) hP.gains
  rw [← e1, ← e2, ← e4.1, ← e4.2] at this
  exact this

/-- **C98 exactly.** Which orientations a static simulation with known patterns accepts, when no image of a source lies at a
microphone: for sources, one direction or one for each source; for microphones, one direction, one for each
microphone, or — for a single microphone — any positive number of directions. -/
theorem C98_static_exactly {d nS nM : ℕ} (hd : d = 2 ∨ d = 3) (hS : 0 < nS) (hM : 0 < nM) (w : World)
    (L lo hi : Fin d → ℝ) (fs c : ℝ) (hfs : 0 < fs) (sel : Selection d) (K : ℕ) (hK : 0 < K)
    (cfg : Config) (hcfg : cfg.validate = .ok ()) (hoff : cfg.rirHpfEnable = false)
    (src : Fin nS → Fin d → ℝ) (mic : Fin nM → Fin d → ℝ) (so mo : Option (Tensor ℝ))
    (hso : ∀ o, so = some o → o.WF) (hmo : ∀ o, mo = some o → o.WF)
    (sp mp : String) (hsp : ∃ p : Pattern, sp.toLower ∈ p.names) (hmp : ∃ p : Pattern, mp.toLower ∈ p.names)
    (hne : ∀ s m, ∀ n ∈ sel.images, image L (src s) n ≠ mic m) :
    (∃ R, simulateRir w (boxRoom L lo hi fs c) ⟨tensor2 src, so⟩ ⟨tensor2 mic, mo⟩ (directionalArgs sel K cfg sp mp)
        = .ok R) ↔
      (sp = "omni" ∨ ∃ o lead, so = some o ∧ DirectionArray o.shape d lead ∧ OneOrEach lead nS) ∧
      (mp = "omni" ∨ ∃ o lead, mo = some o ∧ DirectionArray o.shape d lead ∧ MicLead lead nM) := by
  have hres := resolveConfig_directional sel K cfg hcfg sp mp none
  constructor
  · rintro ⟨R, h⟩
    exact static_ready hd hS hM hcfg hso hmo h
  · rintro ⟨h1, h2⟩
    obtain ⟨l, h3, h4⟩ := selection_images sel
    let P : Plan d nS nM := ⟨cfg, sel.maxOrder, cfg.tmax, .tuple [sp, mp], K, lo, hi, l, sel.images, sp, mp, so, mo,
      none, none⟩
    obtain ⟨md, sd, h5, h6, h7⟩ := gains_of_ready hd hM P hso hmo
      (used := fun s m v => ∃ n ∈ sel.images, v = mic m - image L (src s) n)
      (by
        rintro s m v ⟨n, hn, rfl⟩
        rw [sub_ne_zero]
        exact (hne s m n hn).symm) hsp hmp h1 h2
    have hP : StaticPlan (boxRoom L lo hi fs c) ⟨tensor2 src, so⟩ ⟨tensor2 mic, mo⟩ (directionalArgs sel K cfg sp mp)
        L src mic { P with sd := sd, md := md } :=
      ⟨⟨hd, hS, hM, rfl, resolveBeta_boxRoom hd L lo hi fs c, hres, validateArgs_omni _ sel K hK _, h3, h4, rfl, h5, h6, h7⟩,
        ⟨_, rfl, rfl⟩, ⟨_, rfl, rfl⟩⟩
    rw [hP.eval w hfs.ne']
    show ∃ R, applyRirHpf _ _ cfg _ = _
    rw [applyRirHpf_off _ _ _ hoff]
    exact ⟨_, rfl⟩

/-- **C98 exactly, moving scenes.** The same for a dynamic simulation. -/
theorem C98_dynamic_exactly {d nT nS nM : ℕ} (hd : d = 2 ∨ d = 3) (hT : 0 < nT) (hS : 0 < nS) (hM : 0 < nM) (w : World)
    (L lo hi : Fin d → ℝ) (fs c : ℝ) (hfs : 0 < fs) (sel : Selection d) (K : ℕ) (hK : 0 < K)
    (cfg : Config) (hcfg : cfg.validate = .ok ()) (hoff : cfg.rirHpfEnable = false)
    (src : Fin nT → Fin nS → Fin d → ℝ) (mic : Fin nT → Fin nM → Fin d → ℝ) (so mo : Option (Tensor ℝ))
    (hso : ∀ o, so = some o → o.WF) (hmo : ∀ o, mo = some o → o.WF)
    (sp mp : String) (hsp : ∃ p : Pattern, sp.toLower ∈ p.names) (hmp : ∃ p : Pattern, mp.toLower ∈ p.names)
    (hne : ∀ t s m, ∀ n ∈ sel.images, image L (src t s) n ≠ mic t m) :
    (∃ R, simulateDynamicRir w (boxRoom L lo hi fs c) (tensor3 src) (tensor3 mic)
        { directionalArgs sel K cfg sp mp with orientation := some (.tuple [so, mo]) } = .ok R) ↔
      (sp = "omni" ∨ ∃ o lead, so = some o ∧ DirectionArray o.shape d lead ∧ OneOrEach lead nS) ∧
      (mp = "omni" ∨ ∃ o lead, mo = some o ∧ DirectionArray o.shape d lead ∧ MicLead lead nM) := by
  have hres := resolveConfig_directional sel K cfg hcfg sp mp (some (.tuple [so, mo]))
  constructor
  · rintro ⟨R, h⟩
    obtain ⟨P, hP⟩ := DynamicPlan.exists (L := L) (src := src) (mic := mic) rfl rfl rfl h
    have e := hP.hori
    simp only [splitOrientation, Except.ok.injEq, Prod.mk.injEq] at e
    obtain ⟨e1, e2⟩ := e
    have e3 := hP.res.symm.trans hres
    simp only [Except.ok.injEq, Prod.mk.injEq] at e3
    have e4 := hP.split
    rw [e3.2.2.2] at e4
    simp only [splitDirectivity, Except.ok.injEq, Prod.mk.injEq] at e4
    have := ready_of_gains hd hS hM (e1 ▸ hso) (e2 ▸ hmo) hP.hmd hP.hsd
      (fun s m => ⟨_, ⟨0, hT⟩, 0, hP.zero_mem, rfl⟩) hP.gains
    rw [← e1, ← e2, ← e4.1, ← e4.2] at this
    exact this
  · rintro ⟨h1, h2⟩
    obtain ⟨l, h3, h4⟩ := selection_images sel
    let P : Plan d nS nM := ⟨cfg, sel.maxOrder, cfg.tmax, .tuple [sp, mp], K, lo, hi, l, sel.images, sp, mp, so, mo,
      none, none⟩
    obtain ⟨md, sd, h5, h6, h7⟩ := gains_of_ready hd hM P hso hmo
      (used := fun s m v => ∃ t, ∃ n ∈ sel.images, v = mic t m - image L (src t s) n)
      (by
        rintro s m v ⟨t, n, hn, rfl⟩
        rw [sub_ne_zero]
        exact (hne t s m n hn).symm) hsp hmp h1 h2
    have hP : DynamicPlan (boxRoom L lo hi fs c)
        { directionalArgs sel K cfg sp mp with orientation := some (.tuple [so, mo]) }
        L src mic { P with sd := sd, md := md } :=
      ⟨⟨hd, hS, hM, rfl, resolveBeta_boxRoom hd L lo hi fs c, hres, validateArgs_omni _ sel K hK _, h3, h4, rfl, h5, h6, h7⟩,
        hT, rfl⟩
    rw [hP.eval w hfs.ne' (sTraj := tensor3 src) (mTraj := tensor3 mic) rfl rfl]
    show ∃ R, applyRirHpf _ _ cfg _ = _
    rw [applyRirHpf_off _ _ _ hoff]
    exact ⟨_, rfl⟩

theorem tensor2_directions {k d : ℕ} (hd : d = 2 ∨ d = 3) (u : Fin k → Fin d → ℝ) :
    DirectionArray (tensor2 u).shape d [k] := by
  rcases hd with rfl | rfl
  · exact Or.inl ⟨rfl, Or.inr (Or.inr (Or.inl rfl))⟩
  · exact Or.inr ⟨rfl, Or.inr rfl⟩

theorem tensor2_wf {k d : ℕ} (u : Fin k → Fin d → ℝ) : (tensor2 u).WF := by
  unfold tensor2 Tensor.WF
  simp only [List.prod_cons, List.prod_nil, mul_one]
  exact flatten_ofFn_length _ (by simp)

theorem resolveConfig_dir {a : SimArgs} {cfg : Config} {N : ℤ} {tmax : Option ℝ} {dir d : DirArg}
    (h : resolveConfig a = .ok (cfg, N, tmax, dir)) (hd : a.directivity = some d) : dir = d := by
  unfold resolveConfig at h
  obtain ⟨_, _, h⟩ := (bind_eq_ok _ _ _).mp h
  obtain ⟨_, _, h⟩ := (bind_eq_ok _ _ _).mp h
  have := Except.ok.inj h
  simp only [Prod.mk.injEq] at this
  rw [← this.2.2.2, hd]
  rfl

/-- **C98 (sources).** Direction vectors for a number of sources other than the number there is are always rejected,
whether they belong to the sources or are given in the call, in static and in dynamic simulations. -/
theorem C98_source_count {d k nS nM nT : ℕ} (hk : k ≠ nS) (w : World) (room : Room) (L : Fin d → ℝ)
    (hsize : room.size = List.ofFn L) (u : Fin k → Fin d → ℝ) (mo : Option (Tensor ℝ)) (a : SimArgs) (sp mp : String)
    (hsp : sp ≠ "omni") (hdir : a.directivity = some (.tuple [sp, mp])) :
    (∀ (src : Fin nS → Fin d → ℝ) (mic : Fin nM → Fin d → ℝ), a.orientation = none →
      ∀ R, simulateRir w room ⟨tensor2 src, some (tensor2 u)⟩ ⟨tensor2 mic, mo⟩ a ≠ .ok R) ∧
    (∀ (src : Fin nS → Fin d → ℝ) (mic : Fin nM → Fin d → ℝ) (so mo' : Option (Tensor ℝ)),
      a.orientation = some (.tuple [some (tensor2 u), mo']) →
      ∀ R, simulateRir w room ⟨tensor2 src, so⟩ ⟨tensor2 mic, mo⟩ a ≠ .ok R) ∧
    ∀ (src : Fin nT → Fin nS → Fin d → ℝ) (mic : Fin nT → Fin nM → Fin d → ℝ),
      a.orientation = some (.tuple [some (tensor2 u), mo]) →
      ∀ R, simulateDynamicRir w room (tensor3 src) (tensor3 mic) a ≠ .ok R := by
  have main : ∀ {P : Plan d nS nM} {used}, PlanOk room a L P used → P.so = some (tensor2 u) → False := by
    intro P used hP e1
    have e4 := hP.split
    rw [resolveConfig_dir hP.res hdir] at e4
    simp only [splitDirectivity, Except.ok.injEq, Prod.mk.injEq] at e4
    have := hP.hsd
    rw [e1, ← e4.1] at this
    obtain ⟨o, lead, h1, h2, h3⟩ := (resolveSrcDirs_iff hsp (some (tensor2 u))
      (by rintro o ⟨⟩; exact tensor2_wf u) d nS).mp ⟨_, this⟩
    cases h1
    have := directionArray_unique h2 (tensor2_directions hP.hd u)
    subst this
    rcases h3 with h3 | h3
    · simp at h3
    · exact hk (by simpa using h3)
  have key : ∀ (src : Fin nS → Fin d → ℝ) (mic : Fin nM → Fin d → ℝ) (so : Option (Tensor ℝ)) (mics : Entity),
      prepareEntity ⟨tensor2 src, so⟩ a.orientation true = .ok (tensor2 src, some (tensor2 u)) →
      mics.positions = tensor2 mic → ∀ R, simulateRir w room ⟨tensor2 src, so⟩ mics a ≠ .ok R := by
    intro src mic so mics hprep hm R h
    obtain ⟨P, hP⟩ := StaticPlan.exists (L := L) (src := src) (mic := mic) hsize rfl
      (by rw [hm]; rfl) h
    obtain ⟨_, e1, -⟩ := hP.hsrc
    rw [hprep] at e1
    simp only [Except.ok.injEq, Prod.mk.injEq] at e1
    exact main hP.toPlanOk e1.2.symm
  refine ⟨fun src mic ho => key src mic _ _ (by rw [ho]; rfl) rfl,
    fun src mic so mo' ho => key src mic _ _ (by rw [ho]; rfl) rfl, fun src mic ho R h => ?_⟩
  obtain ⟨P, hP⟩ := DynamicPlan.exists (L := L) (src := src) (mic := mic) hsize rfl rfl h
  have e := hP.hori
  rw [ho] at e
  simp only [splitOrientation, Except.ok.injEq, Prod.mk.injEq] at e
  exact main hP.toPlanOk e.1.symm

/-- **C98 (microphones), part.** Direction vectors for a number of microphones other than one and other than the number
there is are rejected when there are several microphones. -/
theorem C98_mic_count_partial {d k nS nM nT : ℕ} (hM : nM ≠ 1) (hk1 : k ≠ 1) (hk : k ≠ nM) (w : World) (room : Room)
    (L : Fin d → ℝ) (hsize : room.size = List.ofFn L) (u : Fin k → Fin d → ℝ) (so : Option (Tensor ℝ)) (a : SimArgs)
    (sp mp : String) (hmp : mp ≠ "omni") (hdir : a.directivity = some (.tuple [sp, mp])) :
    (∀ (src : Fin nS → Fin d → ℝ) (mic : Fin nM → Fin d → ℝ), a.orientation = none →
      ∀ R, simulateRir w room ⟨tensor2 src, so⟩ ⟨tensor2 mic, some (tensor2 u)⟩ a ≠ .ok R) ∧
    (∀ (src : Fin nS → Fin d → ℝ) (mic : Fin nM → Fin d → ℝ) (so' mo : Option (Tensor ℝ)),
      a.orientation = some (.tuple [so', some (tensor2 u)]) →
      ∀ R, simulateRir w room ⟨tensor2 src, so⟩ ⟨tensor2 mic, mo⟩ a ≠ .ok R) ∧
    ∀ (src : Fin nT → Fin nS → Fin d → ℝ) (mic : Fin nT → Fin nM → Fin d → ℝ),
      a.orientation = some (.tuple [so, some (tensor2 u)]) →
      ∀ R, simulateDynamicRir w room (tensor3 src) (tensor3 mic) a ≠ .ok R := by
  have main : ∀ {P : Plan d nS nM} {used}, PlanOk room a L P used → (∀ s m, ∃ v, used s m v) →
      P.mo = some (tensor2 u) → False := by
    intro P used hP hused e1
    have e4 := hP.split
    rw [resolveConfig_dir hP.res hdir] at e4
    simp only [splitDirectivity, Except.ok.injEq, Prod.mk.injEq] at e4
    have := hP.hmd
    rw [e1, ← e4.2] at this
    obtain ⟨o, lead, h1, h2, h3⟩ := (resolveMicDir_iff hmp (some (tensor2 u))
      (by rintro o ⟨⟩; exact tensor2_wf u) (by have := hP.hd; omega) hP.hM).mp ⟨_, this, fun m hm => by
        obtain ⟨mv, g1, g2⟩ := hP.gains.mic ⟨m, hm⟩
        refine ⟨mv, g1, ?_⟩
        obtain ⟨v, hv⟩ := hused ⟨0, hP.hS⟩ ⟨m, hm⟩
        have := g2 _ v hv
        unfold deviceGain at this
        rw [← e4.2, if_neg hmp] at this
        by_contra hl
        rw [if_pos (by simpa using hl)] at this
        cases this⟩
    cases h1
    have := directionArray_unique h2 (tensor2_directions hP.hd u)
    subst this
    rcases h3 with h3 | h3 | ⟨h3, -⟩
    · exact hk1 (h3 k (by simp))
    · exact hk (by simpa using h3)
    · exact hM h3
  have key : ∀ (src : Fin nS → Fin d → ℝ) (mic : Fin nM → Fin d → ℝ) (mo : Option (Tensor ℝ)),
      prepareEntity ⟨tensor2 mic, mo⟩ a.orientation false = .ok (tensor2 mic, some (tensor2 u)) →
      ∀ R, simulateRir w room ⟨tensor2 src, so⟩ ⟨tensor2 mic, mo⟩ a ≠ .ok R := by
    intro src mic mo hprep R h
    obtain ⟨P, hP⟩ := StaticPlan.exists (L := L) (src := src) (mic := mic) hsize rfl rfl h
    obtain ⟨_, e1, -⟩ := hP.hmic
    rw [hprep] at e1
    simp only [Except.ok.injEq, Prod.mk.injEq] at e1
    exact main hP.toPlanOk (fun s m => ⟨_, 0, hP.zero_mem, rfl⟩) e1.2.symm
  refine ⟨fun src mic ho => key src mic _ (by rw [ho]; rfl),
    fun src mic so mo' ho => key src mic _ (by rw [ho]; rfl), fun src mic ho R h => ?_⟩
  obtain ⟨P, hP⟩ := DynamicPlan.exists (L := L) (src := src) (mic := mic) hsize rfl rfl h
  have e := hP.hori
  rw [ho] at e
  simp only [splitOrientation, Except.ok.injEq, Prod.mk.injEq] at e
  exact main hP.toPlanOk (fun s m => ⟨_, ⟨0, hP.hT⟩, 0, hP.zero_mem, rfl⟩) e.2.symm

theorem resolveMicDir_one {d : ℕ} (hd : d = 2 ∨ d = 3) (v : Fin d → ℝ) (mp : String) (hmp : mp ≠ "omni") :
    resolveMicDir mp (some ⟨[d], List.ofFn v⟩) d = .ok (some (.shared (normalizeVec (List.ofFn v)))) := by
  have h : orientationToUnit ⟨[d], List.ofFn v⟩ d = .ok ⟨[d], normalizeVec (List.ofFn v)⟩ := by
    have := orientationToUnit_vectors [] hd fun _ => v
    rw [normalizeOrientation_batch] at this
    have e : (batch [] fun _ => v) = ⟨[d], List.ofFn v⟩ := by simp [batch]
    rw [e] at this
    rw [this, normalizeVec_ofFn]
    simp [batch]
  unfold resolveMicDir
  rw [if_neg hmp]
  dsimp only
  rw [h, ok_bind]
  rfl

theorem contributionsBatch_one {rows : List Vec} (hr : rows ≠ []) {v : Vec} (hv : rows.getD 0 [] = v) (srcPos micPos : List Vec)
    (hm : micPos.length = 1) (size : Vec) (nVec : List (List ℤ)) (refl : List ℝ) (c fs : ℝ) (fdl2 : ℕ) (sp mp : String)
    (sd : Option (List Vec)) :
    contributionsBatch srcPos micPos size nVec refl c fs fdl2 sp mp sd (some (.perMic rows))
      = contributionsBatch srcPos micPos size nVec refl c fs fdl2 sp mp sd (some (.shared v)) := by
  obtain ⟨m, rfl⟩ := List.length_eq_one_iff.mp hm
  have : micVec (some (.perMic rows)) 1 0 = micVec (some (.shared v)) 1 0 := by
    simp only [micVec, micDirFor]
    by_cases h : rows.length = 1
    · rw [if_pos h, hv]
    · rw [if_neg h, if_pos (by simp [hr]), hv]
  unfold contributionsBatch
  simp [this]

/-- **C98 (a single microphone).** Several direction vectors given for one microphone have the effect of the first one alone,
whatever the others are. -/
theorem C98_extra_directions_ignored {d k nS : ℕ} (w : World) (room : Room) (hd : room.size.length = d)
    (src : Fin nS → Fin d → ℝ) (mic : Fin 1 → Fin d → ℝ) (so : Option (Tensor ℝ)) (u : Fin (k + 1) → Fin d → ℝ)
    (a : SimArgs) (ho : a.orientation = none) :
    simulateRir w room ⟨tensor2 src, so⟩ ⟨tensor2 mic, some (tensor2 u)⟩ a
      = simulateRir w room ⟨tensor2 src, so⟩ ⟨tensor2 mic, some ⟨[d], List.ofFn (u 0)⟩⟩ a := by
  unfold simulateRir
  refine bind_congr_ok fun ⟨cfg, N, tmax, dir⟩ _ => ?_
  dsimp only
  refine bind_congr_ok fun ns _ => ?_
  refine bind_congr_ok fun ⟨sPos, so'⟩ _ => ?_
  dsimp only
  rw [ho]
  simp only [prepareEntity, ok_bind]
  refine bind_congr_ok fun _ hdim => ?_
  have hd' : d = 2 ∨ d = 3 := by
    unfold ensureDim at hdim
    rw [hd] at hdim
    by_contra h
    rw [if_neg h] at hdim
    cases hdim
  refine bind_congr_ok fun _ _ => ?_
  refine bind_congr_ok fun _ _ => ?_
  refine bind_congr_ok fun _ _ => ?_
  refine bind_congr_ok fun ⟨sp, mp⟩ _ => ?_
  dsimp only
  rw [hd]
  by_cases hmp : mp = "omni"
  · subst hmp
    rfl
  rw [resolveMicDir_tensor2 hd' u mp hmp, resolveMicDir_one hd' _ mp hmp, ok_bind, ok_bind]
  have e : (asPoints (tensor2 mic)).rows.length = 1 := by
    show (tensor2 mic).rows.length = 1
    rw [tensor2_rows]
    simp
  simp only [contributionsBatch_one (rows := List.ofFn fun i => normalizeVec (List.ofFn (u i))) (by simp)
    (v := normalizeVec (List.ofFn (u 0))) (by simp) _ _ e]

theorem lower_card : "card".toLower = "card" := by
  apply String.toList_inj.mp; simp [String.toLower, String.toList_map]

/-- **C98 fails.** Five directions for one cardioid microphone are accepted, though there is only one microphone. -/
theorem C98_single_microphone_fails (w : World) (u : Fin 5 → Fin 2 → ℝ) :
    ∃ R, simulateRir w (boxRoom ![4, 5] ![0.9, 0.8] ![0.7, 0.6] 16000 343) (points ![![1, 2]])
      ⟨tensor2 ![![3, 4]], some (tensor2 u)⟩ (directionalArgs (d := 2) (.order 0) 1000 { rirHpfEnable := false } "omni" "card")
        = .ok R := by
  refine (C98_static_exactly (Or.inl rfl) (by norm_num) (by norm_num) w _ _ _ _ _ (by norm_num) _ _ (by norm_num) _
    plainConfig_valid rfl _ _ none (some (tensor2 u)) (by simp) (by rintro o ⟨⟩; exact tensor2_wf u) "omni" "card"
    ⟨.omni, omni_lower⟩ ⟨.cardioid, by rw [lower_card]; decide⟩ ?_).mpr ⟨Or.inl rfl, Or.inr ⟨_, [5], rfl,
      tensor2_directions (Or.inl rfl) u, Or.inr (Or.inr ⟨rfl, 5, by norm_num, rfl⟩)⟩⟩
  intro s m n hn h
  have h0 : n = 0 := by
    simp [Selection.images, orderSet] at hn
    exact hn.1
  subst h0
  have := congrFun h 0
  fin_cases s
  fin_cases m
  simp [image, mirrored] at this

/-- Three directions for two sources, or for two microphones. -/
example (w : World) (room : Room) (L : Fin 3 → ℝ) (hsize : room.size = List.ofFn L) (src mic : Fin 2 → Fin 3 → ℝ)
    (u : Fin 3 → Fin 3 → ℝ) (um : Fin 2 → Fin 3 → ℝ) (a : SimArgs) (ho : a.orientation = none)
    (hdir : a.directivity = some (.tuple ["card", "card"])) (R : Tensor ℝ) :
    simulateRir w room ⟨tensor2 src, some (tensor2 u)⟩ ⟨tensor2 mic, some (tensor2 um)⟩ a ≠ .ok R ∧
    simulateRir w room ⟨tensor2 src, some (tensor2 um)⟩ ⟨tensor2 mic, some (tensor2 u)⟩ a ≠ .ok R :=
  ⟨(C98_source_count (nT := 0) (by norm_num) w room L hsize u _ a _ _ (by decide) hdir).1 src mic ho R,
    (C98_mic_count_partial (nT := 0) (by norm_num) (by norm_num) (by norm_num) w room L hsize u _ a _ _ (by decide)
      hdir).1 src mic ho R⟩

end Torchrir.Props
