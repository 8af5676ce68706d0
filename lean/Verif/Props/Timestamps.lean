import Verif.Spec.Timestamps
import Verif.Props.Convolver

/-!
# C111: timestamps out of order or range
-/

namespace Torchrir.Props

open Torchrir.Model Torchrir.Spec Torchrir.Lemmas

theorem foldlM_each {α β : Type} {step : β → α → Except String β} {P : β → Prop}
    (hp : ∀ b x b', P b → step b x = .ok b' → P b') (l : List α) :
    ∀ b r, P b → l.foldlM step b = .ok r → P r ∧ ∀ x ∈ l, ∃ b b', P b ∧ step b x = .ok b' := by
  induction l with
  | nil =>
    intro b r hb h
    rw [List.foldlM_nil] at h
    rw [← Except.ok.inj h]
    exact ⟨hb, by simp⟩
  | cons x l ih =>
    intro b r hb h
    rw [List.foldlM_cons, bind_eq_ok] at h
    obtain ⟨b1, h1, h2⟩ := h
    obtain ⟨e1, e2⟩ := ih b1 r (hp b x b1 hb h1) h2
    refine ⟨e1, fun y hy => ?_⟩
    rcases List.mem_cons.mp hy with rfl | hy
    · exact ⟨b, b1, hb, h1⟩
    · exact e2 y hy

/-- `M` rows of `K` samples. -/
def Rows (M K : ℕ) (out : List (List ℝ)) : Prop := out.length = M ∧ ∀ r ∈ out, r.length = K

theorem pyBound_le (n : ℕ) (i : ℤ) (h : i < 0 → i + n ≤ n) : pyBound n i ≤ n := by
  unfold pyBound
  split_ifs with h1
  · have := h h1; omega
  · omega

theorem addAt_ok {M K m : ℕ} (hm : m < M) {out out' : List (List ℝ)} (ho : Rows M K out) {a b : ℤ} {v : List ℝ}
    (h : addAt out m a b v = .ok out') :
    Rows M K out' ∧ (v.length = pyBound K b - pyBound K a ∨ v.length = 1) := by
  unfold addAt at h
  rw [bind_eq_ok] at h
  obtain ⟨row, h1, h2⟩ := h
  have hlen : (out.getD m []).length = K := by
    rw [List.getD_eq_getElem _ _ (by rw [ho.1]; exact hm)]
    exact ho.2 _ (List.getElem_mem _)
  have hb : pyBound K b ≤ K := pyBound_le _ _ (by omega)
  have ha : pyBound K a ≤ K := pyBound_le _ _ (by omega)
  have hrow : row.length = K ∧ (v.length = pyBound K b - pyBound K a ∨ v.length = 1) := by
    unfold addSlice at h1
    simp only [hlen] at h1
    split_ifs at h1 with c1 c2
    · refine ⟨?_, Or.inl c1⟩
      rw [← Except.ok.inj h1]
      simp only [List.length_append, List.length_take, List.length_drop, List.length_zipWith, hlen, c1]
      omega
    · refine ⟨?_, Or.inr c2⟩
      rw [← Except.ok.inj h1]
      simp only [List.length_append, List.length_take, List.length_drop, List.length_map, hlen]
      omega
  rw [← Except.ok.inj h2]
  refine ⟨⟨by simp [ho.1], fun r hr => ?_⟩, hrow.2⟩
  rcases List.mem_or_eq_of_mem_set hr with h3 | rfl
  · exact ho.2 r h3
  · exact hrow.1

theorem broadcastRow_ok {k : ℕ} {r r' : List ℝ} (h : broadcastRow k r = .ok r') : r'.length = k := by
  unfold broadcastRow at h
  split_ifs at h with c1 c2
  · rw [← Except.ok.inj h]; exact c1
  · rw [← Except.ok.inj h]; simp

theorem mapM_ok_all {α β : Type} {f : α → Except String β} {Q : β → Prop} (hf : ∀ x y, f x = .ok y → Q y) :
    ∀ {l : List α} {r : List β}, l.mapM f = .ok r → r.length = l.length ∧ ∀ y ∈ r, Q y
  | [], r, h => by
    rw [List.mapM_nil] at h
    rw [← Except.ok.inj h]
    simp
  | x :: l, r, h => by
    rw [List.mapM_cons, bind_eq_ok] at h
    obtain ⟨b, h1, h⟩ := h
    rw [bind_eq_ok] at h
    obtain ⟨bs, h2, h⟩ := h
    rw [← Except.ok.inj h]
    obtain ⟨e1, e2⟩ := mapM_ok_all hf h2
    refine ⟨by simp [e1], fun y hy => ?_⟩
    rcases List.mem_cons.mp hy with rfl | hy
    · exact hf _ _ h1
    · exact e2 y hy

theorem segmentRows_ok {rows seg : List (List ℝ)} {S maxLen : ℕ} {a b : ℤ} (hle : (b - a).toNat ≤ maxLen)
    (h : segmentRows rows S maxLen a b = .ok seg) : Rows S maxLen seg := by
  unfold segmentRows at h
  split_ifs at h with hab
  · rw [bind_eq_ok] at h
    obtain ⟨blk, h1, h2⟩ := h
    have hblk : Rows S (b - a).toNat blk := by
      unfold broadcastBlock at h1
      split_ifs at h1 with c1 c2
      · obtain ⟨e1, e2⟩ := mapM_ok_all (Q := fun r => r.length = (b - a).toNat) (fun _ _ => broadcastRow_ok) h1
        exact ⟨by rw [e1, c1], e2⟩
      · rw [bind_eq_ok] at h1
        obtain ⟨r, h3, h4⟩ := h1
        rw [← Except.ok.inj h4]
        refine ⟨by simp, fun y hy => ?_⟩
        rw [List.eq_of_mem_replicate hy]
        exact broadcastRow_ok h3
    rw [← Except.ok.inj h2]
    refine ⟨by simp [hblk.1], fun y hy => ?_⟩
    obtain ⟨r, hr, rfl⟩ := List.mem_map.mp hy
    simp only [List.length_append, List.length_replicate, hblk.2 r hr]
    omega
  · rw [← Except.ok.inj h]
    refine ⟨by simp, fun y hy => ?_⟩
    rw [List.eq_of_mem_replicate hy]
    simp

theorem wIni_getD (T : ℕ) (W : ℕ → ℤ) (t : ℕ) (ht : t ≤ T) : ((List.range (T + 1)).map W).getD t 0 = W t := by
  rw [List.getD_eq_getElem _ _ (by simp; omega)]
  simp

theorem wLen_eq (T : ℕ) (W : ℕ → ℤ) :
    stepLengths ((List.range (T + 1)).map W) = (List.range T).map fun t => W (t + 1) - W t := by
  unfold stepLengths
  apply List.ext_getElem
  · simp
  · intro i h1 h2
    simp

theorem wLen_getD (T : ℕ) (W : ℕ → ℤ) (t : ℕ) (ht : t < T) :
    (stepLengths ((List.range (T + 1)).map W)).getD t 0 = W (t + 1) - W t := by
  rw [wLen_eq, List.getD_eq_getElem _ _ (by simpa using ht)]
  simp

theorem pySlice_length {α : Type} (xs : List α) (b : ℤ) : (pySlice xs 0 b).length = pyBound xs.length b := by
  have : pyBound xs.length b ≤ xs.length := pyBound_le _ _ (by omega)
  have h0 : pyBound xs.length 0 = 0 := by simp [pyBound]
  unfold pySlice
  rw [h0]
  simp [this]

theorem mapM_getD {β : Type} {f : ℕ → Except String (List β)} {T : ℕ} {r : List (List β)}
    (h : (List.range T).mapM f = .ok r) (t : ℕ) (ht : t < T) : f t = .ok (r.getD t []) := by
  have key : ∀ (l : List ℕ) (r : List (List β)), l.mapM f = .ok r → ∀ i (hi : i < l.length), f l[i] = .ok (r.getD i []) := by
    intro l
    induction l with
    | nil => intro r _ i hi; simp at hi
    | cons x l ih =>
      intro r h i hi
      rw [List.mapM_cons, bind_eq_ok] at h
      obtain ⟨b, h1, h⟩ := h
      rw [bind_eq_ok] at h
      obtain ⟨bs, h2, h⟩ := h
      rw [← Except.ok.inj h]
      cases i with
      | zero => simpa using h1
      | succ i => simpa using ih bs h2 i (by simpa using hi)
  have := key _ _ h t (by simpa using ht)
  simpa using this

/-- If the loop on the CPU succeeds, no step starts before sample 0 or ends before it starts. -/
theorem loop_ok {rows : List (List ℝ)} {rirs : List (List (List (List ℝ)))} {T S M N L : ℕ} {W : ℕ → ℤ}
    (hS : 1 ≤ S) (hM : 1 ≤ M) (hL : 3 ≤ L) (hlast : W T = N)
    (hrirs : ∀ t < T, ∀ s < S, ∀ m < M, (((rirs.getD t []).getD s []).getD m []).length = L) {y : Tensor ℝ}
    (h : trajectoryLoop rows N rirs T S M L ((List.range (T + 1)).map W) = .ok y) :
    ∀ t < T, 0 ≤ W t ∧ W t ≤ W (t + 1) := by
  unfold trajectoryLoop at h
  simp only [raiseIf_bind_ok] at h
  set maxLen := maxOf (stepLengths ((List.range (T + 1)).map W)) with hmax
  obtain ⟨hm0, h⟩ := h
  rw [bind_eq_ok] at h
  obtain ⟨segments, hseg, h⟩ := h
  rw [raiseIf_bind_ok] at h
  obtain ⟨hK, h⟩ := h
  rw [bind_eq_ok] at h
  obtain ⟨out, hout, -⟩ := h
  set K := ((N : ℤ) + L - 1).toNat with hKdef
  have hmem : ∀ t < T, W (t + 1) - W t ≤ maxLen := by
    intro t ht
    apply le_maxOf
    rw [wLen_eq]
    exact List.mem_map.mpr ⟨t, List.mem_range.mpr ht, rfl⟩
  set wI := (List.range (T + 1)).map W with hwI
  have hmic : ∀ (a b : ℤ) (v : ℕ → List ℝ) (c c' : List (List ℝ)), Rows M K c →
      (List.range M).foldlM (fun out m => addAt out m a b (v m)) c = .ok c' →
      Rows M K c' ∧ ∀ m < M, (v m).length = pyBound K b - pyBound K a ∨ (v m).length = 1 := by
    intro a b v c c' hc he
    have hp : ∀ (ms : List ℕ), (∀ m ∈ ms, m < M) → ∀ c, Rows M K c →
        ms.foldlM (fun out m => addAt out m a b (v m)) c = .ok c' →
        Rows M K c' ∧ ∀ m ∈ ms, (v m).length = pyBound K b - pyBound K a ∨ (v m).length = 1 := by
      intro ms
      induction ms with
      | nil =>
        intro _ c hc he
        rw [List.foldlM_nil] at he
        rw [← Except.ok.inj he]
        exact ⟨hc, by simp⟩
      | cons m ms ih =>
        intro hms c hc he
        rw [List.foldlM_cons, bind_eq_ok] at he
        obtain ⟨c1, g1, g2⟩ := he
        obtain ⟨f1, f2⟩ := addAt_ok (hms m (by simp)) hc g1
        obtain ⟨k1, k2⟩ := ih (fun m hm => hms m (by simp [hm])) c1 f1 g2
        refine ⟨k1, fun m' hm' => ?_⟩
        rcases List.mem_cons.mp hm' with rfl | hm'
        · exact f2
        · exact k2 m' hm'
    obtain ⟨k1, k2⟩ := hp _ (by simp) c hc he
    exact ⟨k1, fun m hm => k2 m (by simpa using hm)⟩
  have hone : ∀ t, ∀ c c' : List (List ℝ), Rows M K c →
      trajectoryStep segments rirs S M L wI (stepLengths wI) t c = .ok c' → Rows M K c' ∧
      ((stepLengths wI).getD t 0 ≠ 0 → ∀ s < S, ∀ m < M, ∀ v : List ℝ,
        v = fftConvolve (pySlice ((segments.getD t []).getD s []) 0 ((stepLengths wI).getD t 0))
          (((rirs.getD t []).getD s []).getD m []) →
        v.length = pyBound K (wI.getD t 0 + (stepLengths wI).getD t 0 + L - 1) - pyBound K (wI.getD t 0)
          ∨ v.length = 1) := by
    intro t c c' hc he
    unfold trajectoryStep at he
    dsimp only at he
    split_ifs at he with h0
    · rw [← Except.ok.inj he]
      exact ⟨hc, fun hn => absurd h0 hn⟩
    · obtain ⟨k1, k2⟩ := foldlM_each (P := Rows M K) (fun b x b' hb hx => (hmic _ _ _ _ _ hb hx).1) _ _ _ hc he
      refine ⟨k1, fun _ s hs m hm v hv => ?_⟩
      obtain ⟨b1, b2, hb1, hb2⟩ := k2 s (by simpa using hs)
      rw [hv]
      exact (hmic _ _ _ _ _ hb1 hb2).2 m hm
  obtain ⟨-, hsteps⟩ := foldlM_each (P := Rows M K) (fun b x b' hb hx => (hone x b b' hb hx).1) (List.range T) _ _
    (by refine ⟨by simp, fun r hr => ?_⟩; rw [List.eq_of_mem_replicate hr]; simp [hKdef]) hout
  have hstep : ∀ t < T, W (t + 1) ≠ W t → ∃ v : List ℝ, v.length = pyBound maxLen.toNat (W (t + 1) - W t) + L - 1 ∧
      (v.length = pyBound K (W (t + 1) + L - 1) - pyBound K (W t) ∨ v.length = 1) := by
    intro t ht hne
    obtain ⟨b1, b2, hb1, hb2⟩ := hsteps t (by simpa using ht)
    have g := (hone t b1 b2 hb1 hb2).2
    rw [hwI, wLen_getD T W t ht, wIni_getD T W t ht.le] at g
    have g1 := g (by omega) 0 (by omega) 0 (by omega) _ rfl
    rw [show W t + (W (t + 1) - W t) + (L : ℤ) - 1 = W (t + 1) + L - 1 by ring] at g1
    refine ⟨_, ?_, g1⟩
    have hr := hrirs t ht 0 (by omega) 0 (by omega)
    have hsg := mapM_getD hseg t ht
    have hrw : Rows S maxLen.toNat (segments.getD t []) := by
      refine segmentRows_ok ?_ hsg
      rw [wIni_getD T W t ht.le, wIni_getD T W (t + 1) ht]
      have := hmem t ht
      omega
    have hl0 : ((segments.getD t []).getD 0 []).length = maxLen.toNat := by
      rw [List.getD_eq_getElem _ _ (by rw [hrw.1]; omega)]
      exact hrw.2 _ (List.getElem_mem _)
    rw [fftConvolve_length _ _ (by rw [hr]; omega), pySlice_length, hl0, hr]
  have h1 : ∀ t < T, 0 ≤ W (t + 1) → 0 ≤ W t := by
    intro t ht hp
    by_contra hn
    obtain ⟨v, e1, e2⟩ := hstep t ht (by omega)
    have := hmem t ht
    unfold pyBound at e1 e2
    split_ifs at e1 e2 <;> omega
  have h2 : ∀ k ≤ T, 0 ≤ W (T - k) := by
    intro k
    induction k with
    | zero => intro _; rw [Nat.sub_zero, hlast]; omega
    | succ k ih =>
      intro hk
      refine h1 (T - (k + 1)) (by omega) ?_
      rw [show T - (k + 1) + 1 = T - k by omega]
      exact ih (by omega)
  intro t ht
  have h3 : 0 ≤ W t := by have := h2 (T - t) (by omega); rwa [show T - (T - t) = t by omega] at this
  have h4 : 0 ≤ W (t + 1) := by
    have := h2 (T - (t + 1)) (by omega); rwa [show T - (T - (t + 1)) = t + 1 by omega] at this
  refine ⟨h3, ?_⟩
  by_contra hn
  obtain ⟨v, e1, e2⟩ := hstep t ht (by omega)
  have := hmem t ht
  unfold pyBound at e1 e2
  split_ifs at e1 e2 <;> omega

/-- The first samples of the steps and the end of the signal. -/
def marks {T : ℕ} (N : ℕ) (p : Fin T → ℤ) (t : ℕ) : ℤ := if h : t < T then p ⟨t, h⟩ else N

theorem marks_of_lt {T : ℕ} (N : ℕ) (p : Fin T → ℤ) (t : ℕ) (ht : t < T) : marks N p t = p ⟨t, ht⟩ := dif_pos ht

theorem marks_list {T : ℕ} (N : ℕ) (p : Fin T → ℤ) :
    List.ofFn p ++ [(N : ℤ)] = (List.range (T + 1)).map (marks N p) := by
  rw [List.range_succ, List.map_append]
  congr 1
  · apply List.ext_getElem
    · simp
    · intro i h1 h2
      have : i < T := by simpa using h1
      simp [marks, this]
  · simp [marks]

theorem stepStarts_given {T N : ℕ} (hT : 1 ≤ T) (τ : Fin T → ℝ) (f : ℝ) {p : Fin T → ℤ} (hp : FirstSamples τ f p)
    (h0 : τ ⟨0, hT⟩ = 0) : stepStarts (some ⟨[T], List.ofFn τ⟩) (some f) T N = .ok (List.ofFn p) := by
  unfold stepStarts startsFromTimestamps
  dsimp only
  rw [raiseIf_neg (by simp [Tensor.ndim, Tensor.numel]), ok_bind,
    raiseIf_neg (by simp [List.ofFn_eq_nil_iff]; omega), ok_bind, raiseIf_neg, ok_bind]
  · show Except.ok _ = _
    rw [List.map_ofFn]
    congr 2
    funext t
    show truncReal (τ t * f) = p t
    rw [hp t]
    unfold truncReal
    split_ifs with hx
    · rfl
    · rw [Int.floor_neg, neg_neg]
  · rw [not_not, List.getD_eq_getElem _ _ (by simp; omega)]
    simpa only [List.getElem_ofFn] using h0

/-- **C111.** Timestamps whose first samples are in order and within the signal are accepted on every
device, and the result is that of C24. -/
theorem C111_in_order {T S M N L : ℕ} (dev : DeviceType) (x : Fin S → Fin N → ℝ)
    (h : Fin T → Fin S → Fin M → Fin L → ℝ) {sig rirs : Tensor ℝ} (hs : SignalIs sig x)
    (hr : DynamicRirsAre rirs h) (hT : 1 ≤ T) (hpos : 1 ≤ N + L) (τ : Fin T → ℝ) (f : ℝ) (p : Fin T → ℤ)
    (hp : FirstSamples τ f p) (h0 : τ ⟨0, hT⟩ = 0) (hord : InOrder N p) (step : Fin N → Fin T)
    (hstep : ∀ j t, t ≤ step j ↔ p t ≤ (j : ℕ)) :
    ({ timestamps := some ⟨[T], List.ofFn τ⟩, fs := some f } : Convolver).convolve dev sig rirs
      = .ok (micTensor (N + L - 1) (mixVarying x h step)) := by
  have hp0 : p ⟨0, hT⟩ = 0 := by rw [hp, h0]; simp
  have hnn : ∀ t, 0 ≤ p t := fun t => by
    rw [← hp0]; exact hord.1 (Fin.mk_le_of_le_val (Nat.zero_le _))
  set W : ℕ → ℕ := fun t => (marks N p t).toNat with hWdef
  have hWm : ∀ t, (W t : ℤ) = marks N p t := by
    intro t
    have : 0 ≤ marks N p t := by unfold marks; split_ifs; exacts [hnn _, by omega]
    simp only [hWdef]
    omega
  have hmono : ∀ t < T, W t ≤ W (t + 1) := by
    intro t ht
    have : marks N p t ≤ marks N p (t + 1) := by
      unfold marks
      rw [dif_pos ht]
      split_ifs with h1
      · exact hord.1 (by simp)
      · exact hord.2 _
    have e1 := hWm t
    have e2 := hWm (t + 1)
    omega
  have hlast : W T = N := by have := hWm T; simp only [marks, lt_irrefl, dite_false] at this; exact_mod_cast this
  have hW : ∀ t : Fin T, (W t : ℤ) = ⌊((p t : ℤ) : ℝ)⌋ := by
    intro t
    rw [hWm, Int.floor_intCast]
    simp [marks]
  have hb : List.ofFn p ++ [(N : ℤ)] = bounds T W := by
    rw [marks_list]
    unfold bounds
    exact List.map_congr_left fun t _ => (hWm t).symm
  have hd := trajData_of x h W hmono hlast hpos
  unfold Convolver.convolve
  rw [if_neg (by simp), if_neg (by simp)]
  unfold convolveTrajectory
  rw [ensureSignal_eq hs, ok_bind, ensureDynamicRirs_eq hr x (Or.inl rfl), ok_bind]
  show (stepStarts _ (some f) T N >>= _) = _
  rw [stepStarts_given hT τ f hp h0, ok_bind, tensor2_rows, tensor4_blocks]
  show (if dev = .cuda ∨ dev = .mps then trajectoryBatched _ N _ T S M L (List.ofFn p ++ [(N : ℤ)])
    else trajectoryLoop _ N _ T S M L (List.ofFn p ++ [(N : ℤ)])) = _
  rw [hb, trajectoryBatched_eq hd 8 (by norm_num), trajectoryLoop_eq hd hT, ite_self]
  congr 1
  apply squeezeMics_rep
  intro m k _
  rw [varyingSum_eq_mix x h W le_rfl hmono hlast step
    (step_bounds (start := fun t => ((p t : ℤ) : ℝ)) (fun j t => by rw [Int.floor_intCast]; exact hstep j t) hlast hW) m k]
  rfl

/-- **C111.** On the CPU, with responses of at least three samples, explicit timestamps are accepted
exactly when the first is 0 and the first samples are in order and within the signal. -/
theorem C111_cpu_partial {T S M N L : ℕ} (x : Fin S → Fin N → ℝ) (h : Fin T → Fin S → Fin M → Fin L → ℝ)
    {sig rirs : Tensor ℝ} (hs : SignalIs sig x) (hr : DynamicRirsAre rirs h) (hT : 1 ≤ T) (hS : 1 ≤ S) (hM : 1 ≤ M)
    (hL : 3 ≤ L) (τ : Fin T → ℝ) (f : ℝ) (p : Fin T → ℤ) (hp : FirstSamples τ f p) :
    (∃ y, ({ timestamps := some ⟨[T], List.ofFn τ⟩, fs := some f } : Convolver).convolve .cpu sig rirs = .ok y)
      ↔ τ ⟨0, hT⟩ = 0 ∧ InOrder N p := by
  constructor
  · rintro ⟨y, hy⟩
    have h0 : τ ⟨0, hT⟩ = 0 := by
      by_contra hne
      obtain ⟨e, he⟩ := C24_bad_timestamps_rejected .cpu x h hs hr (List.ofFn τ) (some f) (Or.inr (Or.inr (by
        obtain ⟨T, rfl⟩ := Nat.exists_eq_add_of_le' hT
        rw [List.ofFn_succ]
        simpa using hne)))
      rw [List.length_ofFn] at he
      rw [he] at hy
      cases hy
    refine ⟨h0, ?_⟩
    unfold Convolver.convolve at hy
    rw [if_neg (by simp), if_neg (by simp)] at hy
    unfold convolveTrajectory at hy
    rw [ensureSignal_eq hs, ok_bind, ensureDynamicRirs_eq hr x (Or.inl rfl), ok_bind] at hy
    change (stepStarts _ (some f) T N >>= _) = _ at hy
    rw [stepStarts_given hT τ f hp h0, ok_bind, tensor2_rows, tensor4_blocks] at hy
    change (if DeviceType.cpu = .cuda ∨ DeviceType.cpu = .mps then trajectoryBatched _ N _ T S M L (List.ofFn p ++ [(N : ℤ)])
      else trajectoryLoop _ N _ T S M L (List.ofFn p ++ [(N : ℤ)])) = _ at hy
    rw [if_neg (by simp), marks_list] at hy
    have key := loop_ok hS hM hL (W := marks N p) (by simp [marks]) (fun t ht s hs m hm => by
      have := blocks_getD h ⟨t, ht⟩ ⟨s, hs⟩ ⟨m, hm⟩
      simp only at this
      rw [this]; simp) hy
    have mono : ∀ a b, a ≤ b → b ≤ T → marks N p a ≤ marks N p b := by
      intro a b hab
      induction b, hab using Nat.le_induction with
      | base => intro _; exact le_rfl
      | succ b hab ih => intro hb; exact (ih (by omega)).trans (key b (by omega)).2
    constructor
    · intro a b hab
      have := mono a b hab b.2.le
      simpa [marks] using this
    · intro t
      have := mono t T t.2.le le_rfl
      simpa [marks] using this
  · rintro ⟨h0, hord⟩
    have hp0 : p ⟨0, hT⟩ = 0 := by rw [hp, h0]; simp
    have hlt : ∀ j : ℕ, Nat.findGreatest (fun t => marks N p t ≤ j) (T - 1) < T := fun j => by
      have := Nat.findGreatest_le (P := fun t => marks N p t ≤ j) (T - 1)
      omega
    refine ⟨_, C111_in_order .cpu x h hs hr hT (by omega) τ f p hp h0 hord
      (fun j => ⟨Nat.findGreatest (fun t => marks N p t ≤ (j : ℕ)) (T - 1), hlt j⟩) fun j t => ?_⟩
    rw [Fin.le_def]
    constructor
    · intro hle
      have h1 : marks N p (Nat.findGreatest (fun t => marks N p t ≤ (j : ℕ)) (T - 1)) ≤ (j : ℕ) :=
        Nat.findGreatest_spec (P := fun t => marks N p t ≤ (j : ℕ)) (m := 0) (Nat.zero_le _)
          (by unfold marks; rw [dif_pos (by omega), hp0]; omega)
      rw [marks_of_lt N p _ (hlt _)] at h1
      exact (hord.1 (Fin.le_def.mpr hle)).trans h1
    · intro hle
      exact Nat.le_findGreatest (by have := t.2; omega) (by simpa [marks] using hle)

theorem starts_witness (n : ℕ) : stepStarts (some ⟨[3], [0, 2, 1]⟩) (some 1) 3 n = .ok [0, 2, 1] := by
  have := stepStarts_given (T := 3) (N := n) (by norm_num) ![0, 2, 1] 1 (p := ![0, 2, 1])
    (by intro t; fin_cases t <;> simp) (by simp)
  simpa [List.ofFn_succ] using this

theorem convSum_one (seg h : List ℝ) (hs : seg.length = 3) (hh : h.length = 3) :
    convSum [seg] [[h]] 1 5 0 = (List.range 5).map (convAt seg h) := by
  have := convSum_eq [seg] [[h]] 1 3 3 0 (by norm_num) (by simpa using hs) (by simpa using hh)
  norm_num at this
  rw [this]

/-- **C111** does not hold on a GPU: with the starts 0, 2, 1 the second sample is played twice, and the
CPU refuses the same call. -/
theorem C111_gpu_fails :
    ({ timestamps := some ⟨[3], [0, 2, 1]⟩, fs := some 1 } : Convolver).convolve .cuda (tensor2 ![![1, 2, 3, 4]])
        (tensor4 ![![![![1, 0, 0]]], ![![![1, 0, 0]]], ![![![1, 0, 0]]]]) = .ok ⟨[6], [1, 4, 3, 4, 0, 0]⟩ := by
  unfold Convolver.convolve
  rw [if_neg (by simp), if_neg (by simp)]
  unfold convolveTrajectory
  rw [ensureSignal_eq (Or.inl rfl), ok_bind, ensureDynamicRirs_eq (Or.inl rfl) ![![1, 2, 3, 4]] (Or.inl rfl), ok_bind]
  show (stepStarts _ (some 1) 3 4 >>= _) = _
  rw [starts_witness, ok_bind, tensor2_rows, tensor4_blocks]
  show trajectoryBatched _ 4 _ 3 1 1 3 [0, 2, 1, 4] = _
  have e1 : (List.ofFn fun s => List.ofFn ((![![1, 2, 3, 4]] : Fin 1 → Fin 4 → ℝ) s)) = [[1, 2, 3, 4]] := by
    simp [List.ofFn_succ]
  have e2 : (List.ofFn fun t => List.ofFn fun s => List.ofFn fun m => List.ofFn
      ((![![![![1, 0, 0]]], ![![![1, 0, 0]]], ![![![1, 0, 0]]]] : Fin 3 → Fin 1 → Fin 1 → Fin 3 → ℝ) t s m))
        = [[[[1, 0, 0]]], [[[1, 0, 0]]], [[[1, 0, 0]]]] := by
    simp [List.ofFn_succ]
  rw [e1, e2]
  have hstep : stepLengths [0, 2, 1, 4] = [2, -1, 3] := by decide
  have hs0 : segmentRows [[1, 2, 3, 4]] 1 3 0 2 = .ok [[1, 2, 0]] := by
    simp [segmentRows, pySlice, pyBound, broadcastBlock, broadcastRow]
  have hs1 : segmentRows [[1, 2, 3, 4]] 1 3 2 1 = .ok [[0, 0, 0]] := by
    simp [segmentRows]
  have hs2 : segmentRows [[1, 2, 3, 4]] 1 3 1 4 = .ok [[2, 3, 4]] := by
    simp [segmentRows, pySlice, pyBound, broadcastBlock, broadcastRow]
  have hchunks : rangeStep 3 8 = [0] := by decide
  have hmax : maxOf (slice 0 (min (0 + 8) 3) [2, -1, 3]) = 3 := by decide
  unfold trajectoryBatched batchedChunk
  simp only [hstep, hchunks, List.foldlM_cons, List.foldlM_nil, hmax]
  norm_num [raiseIf, List.range']
  have t3 : Int.toNat 3 = 3 := rfl
  have t6 : Int.toNat 6 = 6 := rfl
  simp only [t3, t6, hs0, hs1, hs2, ok_bind]
  rw [convSum_one _ _ rfl rfl, convSum_one _ _ rfl rfl, convSum_one _ _ rfl rfl]
  simp [List.range_succ, convAt, Finset.sum_range_succ, pySlice, pyBound, addAt, addSlice, squeezeMics, ok_bind]
  norm_num

/-- The CPU refuses the call of `C111_gpu_fails`. -/
theorem C111_cpu_refuses (y : Tensor ℝ) :
    ({ timestamps := some ⟨[3], [0, 2, 1]⟩, fs := some 1 } : Convolver).convolve .cpu (tensor2 ![![1, 2, 3, 4]])
        (tensor4 ![![![![1, 0, 0]]], ![![![1, 0, 0]]], ![![![1, 0, 0]]]]) ≠ .ok y := by
  intro hy
  have := (C111_cpu_partial (T := 3) ![![1, 2, 3, 4]] ![![![![1, 0, 0]]], ![![![1, 0, 0]]], ![![![1, 0, 0]]]]
    (Or.inl rfl) (Or.inl rfl) (by norm_num) (by norm_num) (by norm_num) (by norm_num) ![0, 2, 1] 1 ![0, 2, 1]
    (by intro t; fin_cases t <;> simp)).mp ⟨y, by simpa [List.ofFn_succ] using hy⟩
  have h1 := this.2.1 (show (1 : Fin 3) ≤ 2 by decide)
  simp at h1

/-- **C111** does not hold for responses of one sample, on the CPU: with the starts 0, 2, 1 the second
sample is played twice. -/
theorem C111_short_fails :
    ({ timestamps := some ⟨[3], [0, 2, 1]⟩, fs := some 1 } : Convolver).convolve .cpu (tensor2 ![![1, 2]])
        (tensor4 ![![![![1]]], ![![![1]]], ![![![1]]]]) = .ok ⟨[2], [1, 4]⟩ := by
  unfold Convolver.convolve
  rw [if_neg (by simp), if_neg (by simp)]
  unfold convolveTrajectory
  rw [ensureSignal_eq (Or.inl rfl), ok_bind, ensureDynamicRirs_eq (Or.inl rfl) ![![1, 2]] (Or.inl rfl), ok_bind]
  show (stepStarts _ (some 1) 3 2 >>= _) = _
  rw [starts_witness, ok_bind, tensor2_rows, tensor4_blocks]
  show trajectoryLoop _ 2 _ 3 1 1 1 [0, 2, 1, 2] = _
  have e1 : (List.ofFn fun s => List.ofFn ((![![1, 2]] : Fin 1 → Fin 2 → ℝ) s)) = [[1, 2]] := by
    simp [List.ofFn_succ]
  have e2 : (List.ofFn fun t => List.ofFn fun s => List.ofFn fun m => List.ofFn
      ((![![![![1]]], ![![![1]]], ![![![1]]]] : Fin 3 → Fin 1 → Fin 1 → Fin 1 → ℝ) t s m))
        = [[[[1]]], [[[1]]], [[[1]]]] := by
    simp [List.ofFn_succ]
  rw [e1, e2]
  have hstep : stepLengths [0, 2, 1, 2] = [2, -1, 1] := by decide
  have hs0 : segmentRows [[1, 2]] 1 2 0 2 = .ok [[1, 2]] := by
    simp [segmentRows, pySlice, pyBound, broadcastBlock, broadcastRow]
  have hs1 : segmentRows [[1, 2]] 1 2 2 1 = .ok [[0, 0]] := by
    simp [segmentRows]
  have hs2 : segmentRows [[1, 2]] 1 2 1 2 = .ok [[2, 0]] := by
    simp [segmentRows, pySlice, pyBound, broadcastBlock, broadcastRow]
  have hmax : maxOf [2, -1, 1] = 2 := by decide
  have hrange : List.range 3 = [0, 1, 2] := rfl
  have t2 : Int.toNat 2 = 2 := rfl
  unfold trajectoryLoop
  simp only [hstep, hmax, hrange, t2]
  norm_num [raiseIf, trajectoryStep]
  simp only [t2, hs0, hs1, hs2, ok_bind]
  have f0 : pySlice ([1, 2] : List ℝ) 0 2 = [1, 2] := by simp [pySlice, pyBound]
  have f1 : pySlice ([0, 0] : List ℝ) 0 (-1) = [0] := by simp [pySlice, pyBound]
  have f2 : pySlice ([2, 0] : List ℝ) 0 1 = [2] := by simp [pySlice, pyBound]
  norm_num [f0, f1, f2]
  rw [fftConvolve_eq _ _ (by simp), fftConvolve_eq _ _ (by simp), fftConvolve_eq _ _ (by simp)]
  simp [List.range_succ, convAt, Finset.sum_range_succ, pyBound, addAt, addSlice, squeezeMics, ok_bind]
  norm_num

/-- Fractions of a sample do not count: the times 0.9 and 0.8 both mean sample 0. -/
example : ∃ y, ({ timestamps := some ⟨[3], List.ofFn ![0, 9 / 10, 8 / 10]⟩, fs := some 1 } : Convolver).convolve .cpu
    (tensor2 ![![1, 2, 3, 4]]) (tensor4 ![![![![1, 0, 0]]], ![![![1, 0, 0]]], ![![![1, 0, 0]]]]) = .ok y := by
  refine (C111_cpu_partial (T := 3) ![![1, 2, 3, 4]] ![![![![1, 0, 0]]], ![![![1, 0, 0]]], ![![![1, 0, 0]]]]
    (Or.inl rfl) (Or.inl rfl) (by norm_num) (by norm_num) (by norm_num) (by norm_num) ![0, 9 / 10, 8 / 10] 1 ![0, 0, 0]
    ?_).mpr ⟨by simp, ?_, ?_⟩
  · intro t
    fin_cases t <;> norm_num [Int.floor_eq_iff, eq_comm]
  · intro a b _
    fin_cases a <;> fin_cases b <;> simp
  · intro t
    fin_cases t <;> simp

end Torchrir.Props
