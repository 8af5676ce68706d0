import Verif.Props.Signal

/-!
# C26-C29: the dynamic convolver
-/

namespace Torchrir.Props

open Torchrir.Model Torchrir.Spec Torchrir.Lemmas

/-! ## C26 -/

/-- **C26.** The batched code, for every chunk size, computes what the loop computes: for all
signals (as many as sources), response sequences and segmentations into steps. -/
theorem C26_any_chunk_size {rows : List (List ℝ)} {rirs : List (List (List (List ℝ)))} {T S M N L : ℕ}
    {W : ℕ → ℕ} (h : TrajData rows rirs T S M N L W) (hT : 1 ≤ T) (c : ℕ) (hc : 1 ≤ c) :
    trajectoryBatched rows N rirs T S M L (bounds T W) c = trajectoryLoop rows N rirs T S M L (bounds T W) := by
  rw [trajectoryBatched_eq h c hc, trajectoryLoop_eq h hT]

theorem segmentRows_single (r : List ℝ) (S maxLen a b : ℕ) (hb : b ≤ r.length) :
    segmentRows [r] S maxLen a b = segmentRows (List.replicate S r) S maxLen a b := by
  unfold segmentRows
  by_cases hab : (a : ℤ) < b
  · rw [if_pos hab, if_pos hab]
    congr 1
    have hlen : (pySlice r a b).length = ((b : ℤ) - a).toNat := by
      rw [pySlice_nat _ _ _ (by omega) hb, slice_length' _ _ _ hb]; omega
    have hrow : broadcastRow ((b : ℤ) - a).toNat (pySlice r a b) = .ok (pySlice r a b) := by
      unfold broadcastRow; rw [if_pos hlen]
    rw [List.map_replicate]
    unfold broadcastBlock
    rw [if_pos (c := (List.replicate S (pySlice r a b)).length = S) (by simp)]
    have h2 : (List.replicate S (pySlice r a b)).mapM (broadcastRow ((b : ℤ) - a).toNat)
        = .ok (List.replicate S (pySlice r a b)) := by
      rw [mapM_ok (g := id) (fun x hx => by rw [List.eq_of_mem_replicate hx, hrow]; rfl), List.map_id]
    rw [h2]
    by_cases hS : S = 1
    · subst hS
      rw [if_pos (by simp)]
      exact h2
    · rw [if_neg (by simp; omega), if_pos (by simp)]
      show (broadcastRow _ (pySlice r a b) >>= _) = _
      rw [hrow]
      rfl
  · rw [if_neg hab, if_neg hab]

theorem segmentRows_mismatch (rows : List (List ℝ)) (S maxLen a b : ℕ) (h1 : rows.length ≠ 1)
    (h2 : rows.length ≠ S) (hab : a < b) :
    segmentRows rows S maxLen a b = .error "RuntimeError: shapes cannot be broadcast" := by
  unfold segmentRows broadcastBlock
  rw [if_pos (by exact_mod_cast hab), if_neg (by simpa using h2), if_neg (by simpa using h1)]
  rfl

theorem segmentRows_empty (rows : List (List ℝ)) (S maxLen a b : ℕ) (hab : ¬ a < b) :
    segmentRows rows S maxLen a b = .ok (List.replicate S (List.replicate maxLen 0)) := by
  unfold segmentRows
  rw [if_neg (by exact_mod_cast hab)]

theorem mapM_error {α β : Type} {f : α → Except String β} {e : String} :
    ∀ {l : List α}, (∀ a ∈ l, f a = .error e ∨ ∃ b, f a = .ok b) → (∃ a ∈ l, f a = .error e) →
      l.mapM f = .error e
  | [], _, h2 => by obtain ⟨a, ha, _⟩ := h2; simp at ha
  | a :: l, h1, h2 => by
    rw [List.mapM_cons]
    rcases h1 a (by simp) with he | ⟨b, hb⟩
    · rw [he]; rfl
    · rw [hb, ok_bind, mapM_error (e := e) (l := l) (fun a ha => h1 a (by simp [ha]))]
      · rfl
      · obtain ⟨a', ha', he⟩ := h2
        rcases List.mem_cons.mp ha' with rfl | h
        · rw [hb] at he; cases he
        · exact ⟨a', h, he⟩

theorem foldlM_error {α β : Type} {f : β → α → Except String β} {e : String} :
    ∀ {l : List α} {b : β}, (∀ a ∈ l, (∀ b, f b a = .error e) ∨ ∀ b, ∃ b', f b a = .ok b') →
      (∃ a ∈ l, ∀ b, f b a = .error e) → l.foldlM f b = .error e
  | [], _, _, h2 => by obtain ⟨a, ha, _⟩ := h2; simp at ha
  | a :: l, b, h1, h2 => by
    rw [List.foldlM_cons]
    rcases h1 a (by simp) with he | hb
    · rw [he]; rfl
    · obtain ⟨b', hb'⟩ := hb b
      rw [hb', ok_bind, foldlM_error (e := e) (l := l) (fun a ha => h1 a (by simp [ha]))]
      obtain ⟨a', ha', he⟩ := h2
      rcases List.mem_cons.mp ha' with rfl | h
      · rw [he] at hb'; cases hb'
      · exact ⟨a', h, he⟩

theorem foldlM_raises {α β : Type} {f : β → α → Except String β} {a : α} :
    ∀ {l : List α} {b : β}, a ∈ l → (∀ b, ∃ e, f b a = .error e) → ∃ e, l.foldlM f b = .error e
  | [], _, ha, _ => by simp at ha
  | a' :: l, b, ha, h => by
    rw [List.foldlM_cons]
    rcases List.mem_cons.mp ha with rfl | ha
    · obtain ⟨e, he⟩ := h b
      exact ⟨e, by rw [he]; rfl⟩
    · cases hb : f b a' with
      | error e => exact ⟨e, rfl⟩
      | ok b' => rw [ok_bind]; exact foldlM_raises ha h

theorem bind_raises {α β : Type} {x : Except String α} {f : α → Except String β}
    (h : ∀ a, ∃ e, f a = .error e) : ∃ e, (x >>= f) = .error e := by
  cases x with
  | error e => exact ⟨e, rfl⟩
  | ok a => exact h a

theorem mapM_congr' {α β : Type} {f g : α → Except String β} :
    ∀ {l : List α}, (∀ a ∈ l, f a = g a) → l.mapM f = l.mapM g
  | [], _ => rfl
  | a :: l, h => by
    rw [List.mapM_cons, List.mapM_cons, h a (by simp), mapM_congr' (l := l) fun x hx => h x (by simp [hx])]

theorem loop_congr {rows rows' : List (List ℝ)} {rirs : List (List (List (List ℝ)))} {T S M N L : ℕ}
    {W : ℕ → ℕ} (h : ∀ t < T, ∀ m, segmentRows rows S m (W t) (W (t + 1)) = segmentRows rows' S m (W t) (W (t + 1))) :
    trajectoryLoop rows N rirs T S M L (bounds T W) = trajectoryLoop rows' N rirs T S M L (bounds T W) := by
  unfold trajectoryLoop
  dsimp only
  congr 1
  funext _
  congr 1
  apply mapM_congr'
  intro t ht
  have ht := List.mem_range.mp ht
  rw [bounds_getD _ _ _ (by omega), bounds_getD _ _ _ (by omega)]
  exact h t ht _

theorem batched_congr {rows rows' : List (List ℝ)} {rirs : List (List (List (List ℝ)))} {T S M N L c : ℕ}
    {W : ℕ → ℕ} (h : ∀ t < T, ∀ m, segmentRows rows S m (W t) (W (t + 1)) = segmentRows rows' S m (W t) (W (t + 1))) :
    trajectoryBatched rows N rirs T S M L (bounds T W) c
      = trajectoryBatched rows' N rirs T S M L (bounds T W) c := by
  unfold trajectoryBatched
  dsimp only
  congr 1
  funext _
  congr 1
  apply foldlM_congr
  intro t0 _ b
  unfold batchedChunk
  dsimp only
  congr 1
  congr 1
  funext _
  congr 1
  apply mapM_congr'
  intro t ht
  rw [List.mem_range'_1] at ht
  rw [bounds_getD _ _ _ (by omega), bounds_getD _ _ _ (by omega)]
  exact h t (by omega) _

theorem maxOf_mem {l : List ℤ} (h : l ≠ []) : maxOf l ∈ l := by
  have key : ∀ (l : List ℤ) (a : ℤ), l.foldl max a = a ∨ l.foldl max a ∈ l := by
    intro l
    induction l with
    | nil => intro a; simp
    | cons b l ih =>
      intro a
      rw [List.foldl_cons]
      rcases ih (max a b) with h | h
      · rw [h]
        rcases max_choice a b with h | h <;> simp [h]
      · right; simp [h]
  rcases l with _ | ⟨a, l⟩
  · exact absurd rfl h
  · unfold maxOf
    rcases key (a :: l) a with h | h
    · rw [List.headD_cons, h]; simp
    · exact h

theorem exists_step {T N : ℕ} {W : ℕ → ℕ} (h0 : W 0 = 0) (hlast : W T = N) (hN : 1 ≤ N) :
    ∃ t < T, W t < W (t + 1) := by
  by_contra hc
  push Not at hc
  have : ∀ t ≤ T, W t = 0 := by
    intro t
    induction t with
    | zero => intro _; exact h0
    | succ t ih => intro ht; have := hc t (by omega); have := ih (by omega); omega
  have := this T le_rfl
  omega

/-- Too many or too few signals: both implementations raise. -/
theorem mismatch_raises {rows : List (List ℝ)} {rirs : List (List (List (List ℝ)))} {T S M N L : ℕ}
    {W : ℕ → ℕ} (h0 : W 0 = 0) (hmono : ∀ t < T, W t ≤ W (t + 1)) (hlast : W T = N) (hN : 1 ≤ N)
    (h1 : rows.length ≠ 1) (h2 : rows.length ≠ S) (c : ℕ) (hc : 1 ≤ c) :
    trajectoryLoop rows N rirs T S M L (bounds T W) = .error "RuntimeError: shapes cannot be broadcast" ∧
    trajectoryBatched rows N rirs T S M L (bounds T W) c
      = .error "RuntimeError: shapes cannot be broadcast" := by
  obtain ⟨t1, ht1, hW1⟩ := exists_step h0 hlast hN
  have hseg : ∀ t < T, ∀ m, segmentRows rows S m ((bounds T W).getD t 0) ((bounds T W).getD (t + 1) 0)
      = if W t < W (t + 1) then .error "RuntimeError: shapes cannot be broadcast"
        else .ok (List.replicate S (List.replicate m 0)) := by
    intro t ht m
    rw [bounds_getD _ _ _ (by omega), bounds_getD _ _ _ (by omega)]
    split
    · rename_i h; exact segmentRows_mismatch rows S m _ _ h1 h2 h
    · rename_i h; exact segmentRows_empty rows S m _ _ h
  constructor
  · unfold trajectoryLoop
    dsimp only
    have hmax : ((W (t1 + 1) : ℤ) - W t1) ≤ maxOf (stepLengths (bounds T W)) := by
      apply le_maxOf
      rw [stepLengths_bounds]
      exact List.mem_map.mpr ⟨t1, List.mem_range.mpr ht1, rfl⟩
    rw [raiseIf_neg (by omega), ok_bind, mapM_error (e := "RuntimeError: shapes cannot be broadcast")]
    · rfl
    · intro t ht
      rw [hseg t (List.mem_range.mp ht)]
      split
      · left; rfl
      · right; exact ⟨_, rfl⟩
    · exact ⟨t1, List.mem_range.mpr ht1, by rw [hseg t1 ht1, if_pos hW1]⟩
  · unfold trajectoryBatched
    dsimp only
    rw [raiseIf_neg (by omega), ok_bind]
    have hchunk : ∀ t0 < T, ∀ out, (∃ t, t0 ≤ t ∧ t < min (t0 + c) T ∧ W t < W (t + 1)) →
        batchedChunk rows rirs S M L (bounds T W) (stepLengths (bounds T W)) t0 (min (t0 + c) T) out
          = .error "RuntimeError: shapes cannot be broadcast" := by
      intro t0 ht0 out ⟨t, ha, hb, hc⟩
      unfold batchedChunk
      dsimp only
      have hle : ((W (t + 1) : ℤ) - W t)
          ≤ maxOf (slice t0 (min (t0 + c) T) (stepLengths (bounds T W))) := by
        apply le_maxOf
        rw [stepLengths_bounds, slice_range_map _ _ _ _ (by omega)]
        exact List.mem_map.mpr ⟨t, List.mem_range'_1.mpr (by omega), rfl⟩
      rw [if_neg (by omega), raiseIf_neg (by omega), ok_bind,
        mapM_error (e := "RuntimeError: shapes cannot be broadcast")]
      · rfl
      · intro t ht
        rw [List.mem_range'_1] at ht
        rw [hseg t (by omega)]
        split
        · left; rfl
        · right; exact ⟨_, rfl⟩
      · exact ⟨t, List.mem_range'_1.mpr (by omega), by rw [hseg t (by omega), if_pos hc]⟩
    rw [foldlM_error (e := "RuntimeError: shapes cannot be broadcast")]
    · rfl
    · intro t0 ht0
      have ht0 := rangeStep_eq T c hc t0 ht0
      by_cases hex : ∃ t, t0 ≤ t ∧ t < min (t0 + c) T ∧ W t < W (t + 1)
      · left; exact fun b => hchunk t0 ht0 b hex
      · right
        intro b
        refine ⟨b, ?_⟩
        unfold batchedChunk
        dsimp only
        rw [if_pos]
        · rfl
        · have hne : slice t0 (min (t0 + c) T) (stepLengths (bounds T W)) ≠ [] := by
            rw [stepLengths_bounds, slice_range_map _ _ _ _ (by omega)]
            simp; omega
          have hm := maxOf_mem hne
          rw [stepLengths_bounds, slice_range_map _ _ _ _ (by omega), List.mem_map] at hm
          obtain ⟨t, ht, e⟩ := hm
          rw [List.mem_range'_1] at ht
          rw [stepLengths_bounds, slice_range_map _ _ _ _ (by omega), ← e]
          have := hmono t (by omega)
          have : ¬ W t < W (t + 1) := fun h => hex ⟨t, ht.1, by omega, h⟩
          omega
    · refine ⟨t1 / c * c, ?_, fun b => hchunk _ ?_ b ⟨t1, Nat.div_mul_le_self _ _, ?_, hW1⟩⟩
      · unfold rangeStep
        refine List.mem_map.mpr ⟨t1 / c, List.mem_range.mpr ?_, rfl⟩
        rw [Nat.div_lt_iff_lt_mul hc]
        have h3 := Nat.div_add_mod (T + c - 1) c
        have h4 := Nat.mod_lt (T + c - 1) hc
        rw [mul_comm] at h3
        omega
      · have := Nat.div_mul_le_self t1 c; omega
      · have h3 := Nat.div_add_mod t1 c
        have h4 := Nat.mod_lt t1 hc
        rw [mul_comm] at h3
        omega

theorem loop_batched {rows : List (List ℝ)} {rirs : List (List (List (List ℝ)))} {T S M N L : ℕ}
    {W : ℕ → ℕ} (hT : 1 ≤ T) (h0 : W 0 = 0) (hmono : ∀ t < T, W t ≤ W (t + 1)) (hlast : W T = N)
    (hrows : ∀ s < rows.length, (rows.getD s []).length = N)
    (hrirs : ∀ t < T, ∀ s < S, ∀ m < M, (((rirs.getD t []).getD s []).getD m []).length = L)
    (c : ℕ) (hc : 1 ≤ c) :
    trajectoryBatched rows N rirs T S M L (bounds T W) c
      = trajectoryLoop rows N rirs T S M L (bounds T W) := by
  have mono : ∀ a b, a ≤ b → b ≤ T → W a ≤ W b := by
    intro a b hab
    induction b, hab using Nat.le_induction with
    | base => intro _; exact le_rfl
    | succ b hab ih => intro hb; exact (ih (by omega)).trans (hmono b (by omega))
  by_cases hN : N = 0
  · have hempty : ∀ t < T, ¬ W t < W (t + 1) := by
      intro t ht
      have := mono (t + 1) T (by omega) le_rfl
      omega
    by_cases hL : L = 0
    · subst hL
      subst hN
      unfold trajectoryBatched trajectoryLoop
      dsimp only
      rw [raiseIf_neg (p := maxOf (stepLengths (bounds T W)) < 0), ok_bind,
        mapM_ok (g := fun _ => List.replicate S (List.replicate (maxOf (stepLengths (bounds T W))).toNat 0)),
        ok_bind]
      · rw [raiseIf, if_pos (by norm_num)]; rfl
      · intro t ht
        have ht := List.mem_range.mp ht
        rw [bounds_getD _ _ _ (by omega), bounds_getD _ _ _ (by omega)]
        exact segmentRows_empty rows S _ _ _ (hempty t ht)
      · have : ((W 1 : ℤ) - W 0) ≤ maxOf (stepLengths (bounds T W)) := by
          apply le_maxOf
          rw [stepLengths_bounds]
          exact List.mem_map.mpr ⟨0, List.mem_range.mpr hT, rfl⟩
        have := hmono 0 hT
        simp only [zero_add] at this
        omega
    · have hcongr : ∀ t < T, ∀ m, segmentRows rows S m (W t) (W (t + 1))
          = segmentRows (List.replicate S []) S m (W t) (W (t + 1)) := fun t ht m => by
        rw [segmentRows_empty _ _ _ _ _ (hempty t ht), segmentRows_empty _ _ _ _ _ (hempty t ht)]
      rw [loop_congr hcongr, batched_congr hcongr]
      refine C26_any_chunk_size ⟨by simp, ?_, hrirs, hmono, hlast, by omega⟩ hT c hc
      intro s hs
      rw [List.getD_eq_getElem _ _ (by simpa using hs)]
      simp [hN]
  · by_cases hS : rows.length = S
    · exact C26_any_chunk_size ⟨hS, fun s hs => hrows s (by omega), hrirs, hmono, hlast, by omega⟩ hT c hc
    · by_cases h1 : rows.length = 1
      · obtain ⟨r, rfl⟩ := List.length_eq_one_iff.mp h1
        have hr : r.length = N := hrows 0 (by simp)
        have hcongr : ∀ t < T, ∀ m, segmentRows [r] S m (W t) (W (t + 1))
            = segmentRows (List.replicate S r) S m (W t) (W (t + 1)) := fun t ht m =>
          segmentRows_single r S m _ _ (by rw [hr, ← hlast]; exact mono _ _ (by omega) le_rfl)
        rw [loop_congr hcongr, batched_congr hcongr]
        refine C26_any_chunk_size ⟨by simp, ?_, hrirs, hmono, hlast, by omega⟩ hT c hc
        intro s hs
        rw [List.getD_eq_getElem _ _ (by simpa using hs)]
        simp [hr]
      · obtain ⟨e1, e2⟩ := mismatch_raises (rirs := rirs) (M := M) (L := L) h0 hmono hlast (by omega) h1 hS c hc
        rw [e1, e2]

theorem normalized_rirs {T S S' M N L : ℕ} (x : Fin S' → Fin N → ℝ)
    (h : Fin T → Fin S → Fin M → Fin L → ℝ) {rirs r : Tensor ℝ} (hr : DynamicRirsAre rirs h)
    (hd : ensureDynamicRirs rirs (tensor2 x) = .ok r) : r = tensor4 h := by
  rcases hr with rfl | ⟨rfl, rfl⟩ | ⟨rfl, rfl, rfl⟩
  · exact (Except.ok.inj hd).symm
  · unfold ensureDynamicRirs at hd
    rw [if_neg (by simp [Tensor.ndim]), if_pos (by simp [Tensor.ndim])] at hd
    by_cases hS : (tensor2 x).ndim = 2 ∧ (tensor2 x).shape.getD 0 0 ≠ 1
    · rw [if_pos hS] at hd; cases hd
    · rw [if_neg hS] at hd; exact (Except.ok.inj hd).symm
  · exact (Except.ok.inj hd).symm

/-- **C26.** The convolver returns the same tensor, or raises the same error, on every device: for
all signals and response sequences (also when the numbers of sources do not match), all numbers of
steps and all admissible starts. -/
theorem C26_device_independent {T S S' M N L : ℕ} (dev : DeviceType) (x : Fin S' → Fin N → ℝ)
    (h : Fin T → Fin S → Fin M → Fin L → ℝ) {sig rirs : Tensor ℝ} (hs : SignalIs sig x)
    (hr : DynamicRirsAre rirs h) {ts : Option (Tensor ℝ)} {fs : Option ℝ} {start : Fin T → ℝ}
    (hstart : StartsAt N ts fs start) :
    ({ timestamps := ts, fs := fs } : Convolver).convolve dev sig rirs
      = ({ timestamps := ts, fs := fs } : Convolver).convolve .cpu sig rirs := by
  unfold Convolver.convolve
  rw [if_neg (by simp), if_neg (by simp), if_neg (by simp), if_neg (by simp)]
  unfold convolveTrajectory
  rw [ensureSignal_eq hs, ok_bind, ok_bind]
  cases hd : ensureDynamicRirs rirs (tensor2 x) with
  | error e => rfl
  | ok r =>
    have hr' : r = tensor4 h := normalized_rirs x h hr hd
    subst hr'
    rw [ok_bind, ok_bind]
    show (stepStarts ts fs T N >>= fun starts => if dev = .cuda ∨ dev = .mps then
        trajectoryBatched (tensor2 x).rows N (tensor4 h).blocks T S M L (starts ++ [(N : ℤ)])
        else trajectoryLoop (tensor2 x).rows N (tensor4 h).blocks T S M L (starts ++ [(N : ℤ)]))
      = (stepStarts ts fs T N >>= fun starts => if DeviceType.cpu = .cuda ∨ DeviceType.cpu = .mps then
        trajectoryBatched (tensor2 x).rows N (tensor4 h).blocks T S M L (starts ++ [(N : ℤ)])
        else trajectoryLoop (tensor2 x).rows N (tensor4 h).blocks T S M L (starts ++ [(N : ℤ)]))
    by_cases hT : 1 ≤ T
    · obtain ⟨W, ⟨l, hl, hb⟩, hmono, hlast, h0, -⟩ := starts_bounds hT hstart
      rw [hl, ok_bind, ok_bind, hb, loop_batched hT h0 hmono hlast, ite_self, ite_self]
      · intro s hs'
        rw [tensor2_rows] at hs' ⊢
        rw [List.getD_eq_getElem _ _ hs']
        simp
      · intro t ht s hs' m hm
        rw [tensor4_blocks]
        have := blocks_getD h ⟨t, ht⟩ ⟨s, hs'⟩ ⟨m, hm⟩
        simp only at this
        rw [this]; simp
      · norm_num
    · have hT : T = 0 := by omega
      subst hT
      cases hstart with
      | uniform => rfl
      | given τ f _ _ _ _ =>
        have : ∃ e, stepStarts (some ⟨[0], List.ofFn τ⟩) (some f) 0 N = .error e := by
          refine ⟨"IndexError: index 0 is out of bounds", ?_⟩
          unfold stepStarts startsFromTimestamps
          dsimp only
          rw [raiseIf_neg (by simp [Tensor.ndim, Tensor.numel]), ok_bind, raiseIf, if_pos (by simp)]
          rfl
        obtain ⟨e, he⟩ := this
        rw [he]
        rfl

/-- Twenty steps (three batches), three sources fed by one signal. -/
example (x : Fin 1 → Fin 100 → ℝ) (h : Fin 20 → Fin 3 → Fin 2 → Fin 50 → ℝ) :
    ({} : Convolver).convolve .cuda (tensor2 x) (tensor4 h)
      = ({} : Convolver).convolve .cpu (tensor2 x) (tensor4 h) :=
  C26_device_independent .cuda x h (Or.inl rfl) (Or.inl rfl) (StartsAt.uniform none)

/-! ## C27 -/

theorem ceil_div_nat (N H : ℕ) (hH : 1 ≤ H) :
    ⌈((N : ℕ) : ℝ) / ((H : ℤ) : ℝ)⌉ = (((N + H - 1) / H : ℕ) : ℤ) := by
  have hH' : (0 : ℝ) < H := by exact_mod_cast hH
  have h3 := Nat.div_add_mod (N + H - 1) H
  have h4 := Nat.mod_lt (N + H - 1) hH
  rw [mul_comm] at h3
  have a1 : (N + H - 1) / H * H < N + H := by omega
  have a2 : N ≤ (N + H - 1) / H * H := by omega
  generalize (N + H - 1) / H = q at *
  rw [Int.ceil_eq_iff]
  push_cast
  constructor
  · rw [lt_div_iff₀ hH']
    have : ((q * H : ℕ) : ℝ) < N + H := by exact_mod_cast a1
    push_cast at this
    linarith
  · rw [div_le_iff₀ hH']
    exact_mod_cast a2

theorem hop_frames {N H T : ℕ} (hH : 1 ≤ H) :
    (∀ t < min ((N + H - 1) / H) T, t * H < N) ∧
      min (min ((N + H - 1) / H) T * H) N = min N (T * H) := by
  have h3 := Nat.div_add_mod (N + H - 1) H
  have h4 := Nat.mod_lt (N + H - 1) hH
  rw [mul_comm] at h3
  constructor
  · intro t ht
    have : (t + 1) * H ≤ (N + H - 1) / H * H := Nat.mul_le_mul_right _ (by omega)
    have : (t + 1) * H = t * H + H := by ring
    omega
  · rcases le_total ((N + H - 1) / H) T with h | h
    · rw [min_eq_left h]
      have : (N + H - 1) / H * H ≤ T * H := Nat.mul_le_mul_right _ h
      omega
    · rw [min_eq_right h]
      omega

theorem varyingSum_rows {rows rows' : List (List ℝ)} {rirs : List (List (List (List ℝ)))} {S T : ℕ}
    {W : ℕ → ℕ} (h : ∀ s < S, rows.getD s [] = rows'.getD s []) (m k : ℕ) :
    varyingSum rows rirs S T W m k = varyingSum rows' rirs S T W m k := by
  unfold varyingSum
  refine Finset.sum_congr rfl fun t _ => Finset.sum_congr rfl fun s hs => ?_
  rw [h s (Finset.mem_range.mp hs)]

/-- Hop mode with at least as many signals as sources. -/
theorem hop_formula {T S S' M N L H : ℕ} (dev : DeviceType) (x : Fin S' → Fin N → ℝ)
    (h : Fin T → Fin S → Fin M → Fin L → ℝ) {sig rirs : Tensor ℝ} (hs : SignalIs sig x) (hS : S ≤ S')
    (hr : DynamicRirsAre rirs h) (hSS : S' = S ∨ S' = 1 ∨ rirs = tensor4 h ∨ rirs.ndim = 2)
    (hH : 1 ≤ H) (hpos : 1 ≤ H * min ((N + H - 1) / H) T + L) (step : Fin (min N (T * H)) → Fin T)
    (hstep : ∀ j, (step j : ℕ) = j / H) :
    ({ mode := "hop", hop := some (H : ℤ) } : Convolver).convolve dev sig rirs
      = .ok (micTensor (H * min ((N + H - 1) / H) T + L - 1)
          (mixVarying (fun s j => x (Fin.castLE hS s) (Fin.castLE (min_le_left N (T * H)) j)) h step)) := by
  obtain ⟨hF, hlast⟩ := hop_frames (N := N) (T := T) hH
  set F := min ((N + H - 1) / H) T with hFdef
  have hd : ensureDynamicRirs rirs (tensor2 x) = .ok (tensor4 h) := by
    rcases hr with rfl | ⟨rfl, rfl⟩ | ⟨rfl, rfl, rfl⟩
    · rfl
    · have : S' = 1 := by
        rcases hSS with h | h | h | h
        · exact h
        · exact h
        · exact absurd (congrArg Tensor.ndim h) (by simp [Tensor.ndim, tensor4])
        · simp [Tensor.ndim] at h
      subst this
      rfl
    · rfl
  unfold Convolver.convolve
  rw [if_neg (by simp), if_pos rfl]
  show convolveHop sig rirs H = _
  unfold convolveHop
  rw [ensureSignal_eq hs, ok_bind, hd, ok_bind]
  dsimp only
  rw [show (tensor4 h).shape.getD 0 0 = T from rfl, show (tensor4 h).shape.getD 1 0 = S from rfl,
    show (tensor4 h).shape.getD 2 0 = M from rfl, show (tensor4 h).shape.getD 3 0 = L from rfl,
    show (tensor2 x).shape.getD 1 0 = N from rfl]
  have hfr : min ⌈((N : ℕ) : ℝ) / ((H : ℤ) : ℝ)⌉ (T : ℤ) = (F : ℤ) := by
    rw [ceil_div_nat N H hH, hFdef]; push_cast; rfl
  rw [raiseIf_neg (by omega), ok_bind, hfr]
  have ho : (H : ℤ) * ((F : ℤ) - 1) + H + L - 1 = (H : ℤ) * F + L - 1 := by ring
  have hcast : ((H * F : ℕ) : ℤ) = (H : ℤ) * F := by push_cast; ring
  rw [ho, raiseIf_neg (by omega), ok_bind, Int.toNat_natCast, tensor2_rows, tensor4_blocks]
  rw [hop_loop _ _ S M N L H F (by simpa using hS) ?_ ?_ hH hF _ rfl (by omega), ok_bind]
  · show Except.ok _ = _
    congr 1
    have e : ((H : ℤ) * F + L - 1).toNat = H * F + L - 1 := by omega
    rw [e]
    apply squeezeMics_rep
    intro m k _
    rw [varyingSum_rows (rows' := List.ofFn fun s => List.ofFn (x (Fin.castLE hS s)))]
    · refine varyingSum_eq_mix (F := F) (fun s => x (Fin.castLE hS s)) h _ (min_le_left N (T * H)) ?_
        hlast _ ?_ m k
      · intro t _
        have : (t + 1) * H = t * H + H := by ring
        omega
      · intro j
        have hj := j.2
        have h5 := Nat.div_add_mod (j : ℕ) H
        have h6 := Nat.mod_lt (j : ℕ) hH
        rw [mul_comm] at h5
        have h7 : ((j : ℕ) / H + 1) * H = (j : ℕ) / H * H + H := by ring
        rw [hstep]
        refine ⟨?_, ?_, ?_⟩
        · by_contra hc
          have : F * H ≤ (j : ℕ) / H * H := Nat.mul_le_mul_right _ (by omega)
          omega
        · show min ((j : ℕ) / H * H) N ≤ j
          omega
        · show (j : ℕ) < min (((j : ℕ) / H + 1) * H) N
          omega
    · intro s hs'
      have e1 := rows_getD x ⟨s, by omega⟩
      have e2 := rows_getD (fun s => x (Fin.castLE hS s)) ⟨s, hs'⟩
      simp only at e1 e2
      rw [e1, e2]
      rfl
  · intro s hs'
    have := rows_getD x ⟨s, by omega⟩
    simp only at this
    rw [this]; simp
  · intro t ht s hs' m hm
    have := blocks_getD h ⟨t, by omega⟩ ⟨s, hs'⟩ ⟨m, hm⟩
    simp only at this
    rw [this]; simp

/-- **C27, part.** Hop mode for every hop ≥ 1: sample `j` uses step `⌊j/H⌋`, but only the first
`T·H` samples of the signal are used, and the output is padded to a whole number of hops.
Missing: use of the remaining samples; see `C27_hop_loses_signal_fails`. -/
theorem C27_hop_formula_partial {T S M N L H : ℕ} (dev : DeviceType) (x : Fin S → Fin N → ℝ)
    (h : Fin T → Fin S → Fin M → Fin L → ℝ) {sig rirs : Tensor ℝ} (hs : SignalIs sig x)
    (hr : DynamicRirsAre rirs h) (hH : 1 ≤ H) (hpos : 1 ≤ H * min ((N + H - 1) / H) T + L)
    (step : Fin (min N (T * H)) → Fin T) (hstep : ∀ j, (step j : ℕ) = j / H) :
    ({ mode := "hop", hop := some (H : ℤ) } : Convolver).convolve dev sig rirs
      = .ok (micTensor (H * min ((N + H - 1) / H) T + L - 1)
          (mixVarying (fun s j => x s (Fin.castLE (min_le_left N (T * H)) j)) h step)) :=
  hop_formula dev x h hs le_rfl hr (Or.inl rfl) hH hpos step hstep

/-- **C27, part.** If the responses cover the signal (`N ≤ T·H`), nothing is lost. -/
theorem C27_hop_uses_whole_signal_partial {T S M N L H : ℕ} (dev : DeviceType) (x : Fin S → Fin N → ℝ)
    (h : Fin T → Fin S → Fin M → Fin L → ℝ) {sig rirs : Tensor ℝ} (hs : SignalIs sig x)
    (hr : DynamicRirsAre rirs h) (hH : 1 ≤ H) (hN : N ≤ T * H) (hpos : 1 ≤ N + L)
    (step : Fin N → Fin T) (hstep : ∀ j, (step j : ℕ) = j / H) :
    ({ mode := "hop", hop := some (H : ℤ) } : Convolver).convolve dev sig rirs
      = .ok (micTensor (H * ⌈(N : ℝ) / H⌉₊ + L - 1) (mixVarying x h step)) := by
  have hc : (N + H - 1) / H = ⌈(N : ℝ) / H⌉₊ := by
    have := ceil_div_nat N H hH
    rw [Int.cast_natCast] at this
    have h2 : (⌈(N : ℝ) / H⌉₊ : ℤ) = ⌈(N : ℝ) / H⌉ := Int.natCast_ceil_eq_ceil (by positivity)
    rw [this] at h2
    exact_mod_cast h2.symm
  have h3 := Nat.div_add_mod (N + H - 1) H
  have h4 := Nat.mod_lt (N + H - 1) hH
  have hle : (N + H - 1) / H ≤ T := by
    rw [← Nat.lt_succ_iff, Nat.div_lt_iff_lt_mul hH]
    have : T.succ * H = T * H + H := by rw [Nat.succ_mul]
    omega
  have hm : min ((N + H - 1) / H) T = (N + H - 1) / H := min_eq_left hle
  rw [C27_hop_formula_partial dev x h hs hr hH (by rw [hm]; omega)
    (fun j => step (Fin.castLE (min_le_left N (T * H)) j)) (fun j => hstep _), hm, ← hc]
  congr 2
  funext m k
  unfold mixVarying
  refine Finset.sum_congr rfl fun s _ => ?_
  have hN' : min N (T * H) = N := min_eq_left hN
  refine Fintype.sum_equiv (finCongr hN') _ _ fun j => ?_
  rfl

/-- Five samples, hop 2, three responses. -/
example (x : Fin 1 → Fin 5 → ℝ) (h : Fin 3 → Fin 1 → Fin 2 → Fin 4 → ℝ) :
    ({ mode := "hop", hop := some ((2 : ℕ) : ℤ) } : Convolver).convolve .cpu (tensor2 x) (tensor4 h)
      = .ok (micTensor 9 (mixVarying x h ![0, 0, 1, 1, 2])) := by
  rw [C27_hop_uses_whole_signal_partial .cpu x h (Or.inl rfl) (Or.inl rfl) (by norm_num) (by norm_num)
    (by norm_num) ![0, 0, 1, 1, 2] (by intro j; fin_cases j <;> rfl)]
  have : ⌈((5 : ℕ) : ℝ) / (2 : ℕ)⌉₊ = 3 := by rw [Nat.ceil_eq_iff (by norm_num)]; norm_num
  rw [this]

/-- **C27 fails** in general: with two samples, hop 1 and one response (a unit impulse) the second
sample has no influence on the result. -/
theorem C27_hop_loses_signal_fails :
    ∃ (x x' : Fin 1 → Fin 2 → ℝ) (h : Fin 1 → Fin 1 → Fin 1 → Fin 1 → ℝ) (y : Tensor ℝ),
      x 0 1 ≠ x' 0 1 ∧ (∀ t s m i, h t s m i = 1) ∧
      ({ mode := "hop", hop := some ((1 : ℕ) : ℤ) } : Convolver).convolve .cpu (tensor2 x) (tensor4 h) = .ok y ∧
      ({ mode := "hop", hop := some ((1 : ℕ) : ℤ) } : Convolver).convolve .cpu (tensor2 x') (tensor4 h)
        = .ok y := by
  refine ⟨fun _ => ![1, 0], fun _ => ![1, 1], fun _ _ _ _ => 1, _, by simp, fun _ _ _ _ => rfl,
    C27_hop_formula_partial .cpu _ _ (Or.inl rfl) (Or.inl rfl) le_rfl (by norm_num) (fun _ => 0)
      (fun j => ?_), ?_⟩
  · have := j.2
    simp only [Nat.div_one, Fin.val_zero]
    omega
  rw [C27_hop_formula_partial .cpu _ _ (Or.inl rfl) (Or.inl rfl) le_rfl (by norm_num) (fun _ => 0)
    (fun j => by have := j.2; simp only [Nat.div_one, Fin.val_zero]; omega)]
  congr 2

/-- **C27 fails** for negative hops: they are accepted and the result is all zeros. -/
theorem C27_negative_hop_is_silent_fails :
    ({ mode := "hop", hop := some (-1) } : Convolver).convolve .cpu (tensor2 (n := 1) (d := 1) fun _ _ => 1)
      (tensor4 (a := 1) (b := 1) (c := 1) (e := 1) fun _ _ _ _ => 1) = .ok ⟨[1], [0]⟩ := by
  unfold Convolver.convolve
  rw [if_neg (by simp), if_pos rfl]
  show convolveHop _ _ (-1) = _
  unfold convolveHop
  rw [ensureSignal_eq (Or.inl rfl), ok_bind, ensureDynamicRirs_eq (Or.inl rfl) _ (Or.inl rfl), ok_bind]
  dsimp only
  rw [show (tensor4 fun (_ : Fin 1) (_ : Fin 1) (_ : Fin 1) (_ : Fin 1) => (1 : ℝ)).shape = [1, 1, 1, 1] from rfl,
    show (tensor2 fun (_ : Fin 1) (_ : Fin 1) => (1 : ℝ)).shape = [1, 1] from rfl]
  have hc : ⌈((1 : ℕ) : ℝ) / ((-1 : ℤ) : ℝ)⌉ = -1 := by
    rw [Int.ceil_eq_iff]; norm_num
  simp only [List.getD_cons_zero, List.getD_cons_succ, hc]
  rw [raiseIf_neg (by norm_num), ok_bind, raiseIf_neg (by norm_num), ok_bind]
  rfl

/-! ## C28 -/

/-- **C28, part.** Trajectory mode raises when the number of signals is neither 1 nor the number of
sources of the responses (for a non-empty signal). Missing: a single signal with several sources;
see `C28_single_signal_is_duplicated_fails`. -/
theorem C28_trajectory_mismatch_raises_partial {T S S' M N L : ℕ} (dev : DeviceType)
    (x : Fin S' → Fin N → ℝ) (h : Fin T → Fin S → Fin M → Fin L → ℝ) {sig rirs : Tensor ℝ}
    (hs : SignalIs sig x) (hr : DynamicRirsAre rirs h) {ts : Option (Tensor ℝ)} {fs : Option ℝ}
    {start : Fin T → ℝ} (hstart : StartsAt N ts fs start) (hT : 1 ≤ T) (hN : 1 ≤ N) (h1 : S' ≠ 1)
    (h2 : S' ≠ S) :
    ∃ e, ({ timestamps := ts, fs := fs } : Convolver).convolve dev sig rirs = .error e := by
  obtain ⟨W, ⟨l, hl, hb⟩, hmono, hlast, h0, -⟩ := starts_bounds hT hstart
  rw [C26_device_independent dev x h hs hr hstart]
  unfold Convolver.convolve
  rw [if_neg (by simp), if_neg (by simp)]
  unfold convolveTrajectory
  rw [ensureSignal_eq hs, ok_bind]
  cases hd : ensureDynamicRirs rirs (tensor2 x) with
  | error e => exact ⟨e, rfl⟩
  | ok r =>
    have hr' : r = tensor4 h := normalized_rirs x h hr hd
    subst hr'
    refine ⟨"RuntimeError: shapes cannot be broadcast", ?_⟩
    rw [ok_bind]
    show (stepStarts ts fs T N >>= fun starts => if DeviceType.cpu = .cuda ∨ DeviceType.cpu = .mps then
        trajectoryBatched (tensor2 x).rows N (tensor4 h).blocks T S M L (starts ++ [(N : ℤ)])
        else trajectoryLoop (tensor2 x).rows N (tensor4 h).blocks T S M L (starts ++ [(N : ℤ)])) = _
    rw [hl, ok_bind, hb, if_neg (by simp)]
    exact (mismatch_raises h0 hmono hlast hN (by rw [tensor2_rows]; simpa using h1)
      (by rw [tensor2_rows]; simpa using h2) 8 (by norm_num)).1

/-- **C28, part.** Hop mode raises when there are fewer signals than sources (and at least one frame
is processed). Missing: more signals than sources; see `C28_hop_ignores_a_signal_fails`. -/
theorem C28_hop_too_few_signals_raises_partial {T S S' M N L H : ℕ} (dev : DeviceType)
    (x : Fin S' → Fin N → ℝ) (h : Fin T → Fin S → Fin M → Fin L → ℝ) {sig rirs : Tensor ℝ}
    (hs : SignalIs sig x) (hr : DynamicRirsAre rirs h) (hH : 1 ≤ H) (hT : 1 ≤ T) (hN : 1 ≤ N)
    (hlt : S' < S) :
    ∃ e, ({ mode := "hop", hop := some (H : ℤ) } : Convolver).convolve dev sig rirs = .error e := by
  unfold Convolver.convolve
  rw [if_neg (by simp), if_pos rfl]
  show ∃ e, convolveHop sig rirs H = .error e
  unfold convolveHop
  rw [ensureSignal_eq hs, ok_bind]
  cases hd : ensureDynamicRirs rirs (tensor2 x) with
  | error e => exact ⟨e, rfl⟩
  | ok r =>
    have hr' : r = tensor4 h := normalized_rirs x h hr hd
    subst hr'
    rw [ok_bind]
    dsimp only
    rw [show (tensor4 h).shape.getD 0 0 = T from rfl, show (tensor4 h).shape.getD 1 0 = S from rfl,
      show (tensor4 h).shape.getD 2 0 = M from rfl, show (tensor4 h).shape.getD 3 0 = L from rfl,
      show (tensor2 x).shape.getD 1 0 = N from rfl]
    have hfr : min ⌈((N : ℕ) : ℝ) / ((H : ℤ) : ℝ)⌉ (T : ℤ) = ((min ((N + H - 1) / H) T : ℕ) : ℤ) := by
      rw [ceil_div_nat N H hH]; push_cast; rfl
    rw [raiseIf_neg (by omega), ok_bind, hfr, Int.toNat_natCast]
    have hF : 1 ≤ min ((N + H - 1) / H) T := by
      rw [le_min_iff]
      exact ⟨(Nat.one_le_div_iff hH).mpr (by omega), hT⟩
    apply bind_raises
    intro _
    rw [tensor2_rows]
    obtain ⟨e, he⟩ := foldlM_raises (f := fun out t => (List.range S).foldlM (fun out s =>
        hopStep (List.ofFn fun s => List.ofFn (x s)) (tensor4 h).blocks M H t s out) out)
      (l := List.range (min ((N + H - 1) / H) T)) (a := 0)
      (b := List.replicate M (List.replicate ((H : ℤ) * (((min ((N + H - 1) / H) T : ℕ) : ℤ) - 1) + H + L - 1).toNat 0))
      (List.mem_range.mpr hF) (fun b => foldlM_raises (a := S') (List.mem_range.mpr hlt) fun b => by
        refine ⟨"IndexError: index out of bounds", ?_⟩
        unfold hopStep
        rw [raiseIf, if_pos (by simp)]
        rfl)
    rw [he]
    exact ⟨e, rfl⟩

/-- **C28, part.** Three-dimensional responses (one source) raise for any other number of signals,
in both modes. -/
theorem C28_three_dim_rirs_raise_partial {T S' M N L : ℕ} (c : Convolver) (dev : DeviceType)
    (x : Fin S' → Fin N → ℝ) (h : Fin T → Fin 1 → Fin M → Fin L → ℝ) (h1 : S' ≠ 1) :
    ∃ e, c.convolve dev (tensor2 x) ⟨[T, M, L], (tensor4 h).data⟩ = .error e := by
  have hd : ensureDynamicRirs ⟨[T, M, L], (tensor4 h).data⟩ (tensor2 x)
      = .error "3D dynamic RIRs are only supported for single-source signals" := by
    unfold ensureDynamicRirs
    rw [if_neg (by simp [Tensor.ndim]), if_pos (by simp [Tensor.ndim]), if_pos]
    exact ⟨rfl, h1⟩
  unfold Convolver.convolve
  split
  · exact ⟨_, rfl⟩
  · split
    · split
      · exact ⟨_, rfl⟩
      · unfold convolveHop
        rw [ensureSignal_eq (Or.inl rfl), ok_bind, hd]
        exact ⟨_, rfl⟩
    · unfold convolveTrajectory
      rw [ensureSignal_eq (Or.inl rfl), ok_bind, hd]
      exact ⟨_, rfl⟩

/-- **C28 fails** in hop mode: a second signal is ignored when the responses have one source. -/
theorem C28_hop_ignores_a_signal_fails :
    ∃ (x x' : Fin 2 → Fin 1 → ℝ) (h : Fin 1 → Fin 1 → Fin 1 → Fin 1 → ℝ) (y : Tensor ℝ), x 1 ≠ x' 1 ∧
      ({ mode := "hop", hop := some ((1 : ℕ) : ℤ) } : Convolver).convolve .cpu (tensor2 x) (tensor4 h) = .ok y ∧
      ({ mode := "hop", hop := some ((1 : ℕ) : ℤ) } : Convolver).convolve .cpu (tensor2 x') (tensor4 h)
        = .ok y := by
  have hstep : ∀ j : Fin (min 1 (1 * 1)), (((fun _ => 0 : Fin (min 1 (1 * 1)) → Fin 1) j : Fin 1) : ℕ) = j / 1 :=
    fun j => by have := j.2; simp only [Nat.div_one, Fin.val_zero]; omega
  refine ⟨fun _ _ => 1, fun s _ => if s = 0 then 1 else 5, fun _ _ _ _ => 1, _, ?_,
    hop_formula .cpu _ _ (Or.inl rfl) (by norm_num) (Or.inl rfl) (by simp) le_rfl (by norm_num) _ hstep, ?_⟩
  · intro h
    have := congrFun h 0
    simp at this
  · rw [hop_formula .cpu _ _ (Or.inl rfl) (by norm_num) (Or.inl rfl) (by simp) le_rfl (by norm_num) _ hstep]
    congr 2

theorem single_signal_formula {T S M N L : ℕ} (dev : DeviceType) (x : Fin 1 → Fin N → ℝ)
    (h : Fin T → Fin S → Fin M → Fin L → ℝ) (hT : 1 ≤ T) (hpos : 1 ≤ N + L) {ts : Option (Tensor ℝ)}
    {fs : Option ℝ} {start : Fin T → ℝ} (hstart : StartsAt N ts fs start) (step : Fin N → Fin T)
    (hstep : CurrentStep start step) :
    ({ timestamps := ts, fs := fs } : Convolver).convolve dev (tensor2 x) (tensor4 h)
      = .ok (micTensor (N + L - 1) (mixVarying (fun _ => x 0) h step)) := by
  obtain ⟨W, ⟨l, hl, hb⟩, hmono, hlast, h0, hW⟩ := starts_bounds hT hstart
  have mono : ∀ a b, a ≤ b → b ≤ T → W a ≤ W b := by
    intro a b hab
    induction b, hab using Nat.le_induction with
    | base => intro _; exact le_rfl
    | succ b hab ih => intro hb; exact (ih (by omega)).trans (hmono b (by omega))
  rw [C26_device_independent dev x h (Or.inl rfl) (Or.inl rfl) hstart]
  unfold Convolver.convolve
  rw [if_neg (by simp), if_neg (by simp)]
  unfold convolveTrajectory
  rw [ensureSignal_eq (Or.inl rfl), ok_bind, ensureDynamicRirs_eq (Or.inl rfl) x (Or.inr (Or.inl rfl)), ok_bind]
  show (stepStarts ts fs T N >>= fun starts => if DeviceType.cpu = .cuda ∨ DeviceType.cpu = .mps then
      trajectoryBatched (tensor2 x).rows N (tensor4 h).blocks T S M L (starts ++ [(N : ℤ)])
      else trajectoryLoop (tensor2 x).rows N (tensor4 h).blocks T S M L (starts ++ [(N : ℤ)])) = _
  rw [hl, ok_bind, hb, if_neg (by simp), tensor2_rows, tensor4_blocks]
  have e1 : (List.ofFn fun s => List.ofFn (x s)) = [List.ofFn (x 0)] := by simp
  have e2 : List.replicate S (List.ofFn (x 0)) = List.ofFn fun _ : Fin S => List.ofFn (x 0) := by
    rw [List.ofFn_const]
  have hcongr : ∀ t < T, ∀ m, segmentRows [List.ofFn (x 0)] S m (W t) (W (t + 1))
      = segmentRows (List.ofFn fun _ : Fin S => List.ofFn (x 0)) S m (W t) (W (t + 1)) := fun t ht m => by
    rw [← e2]
    exact segmentRows_single _ S m _ _ (by
      rw [List.length_ofFn, ← hlast]; exact mono _ _ (by omega) le_rfl)
  rw [e1, loop_congr hcongr,
    trajectoryLoop_eq (trajData_of (fun _ : Fin S => x 0) h W hmono hlast hpos) hT]
  congr 1
  apply squeezeMics_rep
  intro m k _
  rw [varyingSum_eq_mix (fun _ : Fin S => x 0) h W le_rfl hmono hlast step (step_bounds hstep hlast hW) m k]
  rfl

/-- **C28 fails** in trajectory mode: a single signal is silently used for every source of the
responses. -/
theorem C28_single_signal_is_duplicated_fails {T S M N L : ℕ} (dev : DeviceType) (x : Fin 1 → Fin N → ℝ)
    (h : Fin T → Fin S → Fin M → Fin L → ℝ) (hT : 1 ≤ T) (hpos : 1 ≤ N + L) {ts : Option (Tensor ℝ)}
    {fs : Option ℝ} {start : Fin T → ℝ} (hstart : StartsAt N ts fs start) :
    ∃ y, ({ timestamps := ts, fs := fs } : Convolver).convolve dev (tensor2 x) (tensor4 h) = .ok y ∧
      ({ timestamps := ts, fs := fs } : Convolver).convolve dev (tensor2 fun _ : Fin S => x 0) (tensor4 h)
        = .ok y := by
  obtain ⟨step, hstep, -⟩ := C24_every_sample_has_one_step hT hstart
  exact ⟨_, single_signal_formula dev x h hT hpos hstart step hstep,
    C24_trajectory_formula dev _ h (Or.inl rfl) (Or.inl rfl) hT hpos hstart step hstep⟩

/-- Two signals, three sources. -/
example (x : Fin 2 → Fin 5 → ℝ) (h : Fin 3 → Fin 3 → Fin 1 → Fin 4 → ℝ) :
    ∃ e, ({} : Convolver).convolve .cpu (tensor2 x) (tensor4 h) = .error e :=
  C28_trajectory_mismatch_raises_partial .cpu x h (Or.inl rfl) (Or.inl rfl) (StartsAt.uniform none)
    (by norm_num) (by norm_num) (by norm_num) (by norm_num)

example (x : Fin 2 → Fin 5 → ℝ) (h : Fin 3 → Fin 3 → Fin 1 → Fin 4 → ℝ) :
    ∃ e, ({ mode := "hop", hop := some ((2 : ℕ) : ℤ) } : Convolver).convolve .cpu (tensor2 x) (tensor4 h) = .error e :=
  C28_hop_too_few_signals_raises_partial .cpu x h (Or.inl rfl) (Or.inl rfl) (by norm_num) (by norm_num)
    (by norm_num) (by norm_num)

/-- **C28 (modes).** A convolver works exactly in the modes "trajectory" and "hop", the latter only with a hop size, and
then does what the mode says; in every other case it raises. -/
theorem C28_modes (c : Convolver) (dev : DeviceType) (signal rirs y : Tensor ℝ) :
    c.convolve dev signal rirs = .ok y ↔
      (c.mode = "trajectory" ∧ convolveTrajectory dev signal rirs c.timestamps c.fs = .ok y) ∨
      (c.mode = "hop" ∧ ∃ h, c.hop = some h ∧ convolveHop signal rirs h = .ok y) := by
  unfold Convolver.convolve
  by_cases h1 : c.mode = "trajectory"
  · rw [if_neg (by simp [h1]), if_neg (by rw [h1]; decide)]
    simp [h1]
  · by_cases h2 : c.mode = "hop"
    · rw [if_neg (by simp [h2]), if_pos h2]
      cases c.hop with
      | none => simp [h1]
      | some h => simp [h1, h2]
    · rw [if_pos ⟨h1, h2⟩]
      simp [h1, h2]

/-- A misspelt mode and a missing hop size raise. -/
example (signal rirs y : Tensor ℝ) : Convolver.convolve { mode := "Hop", hop := some 3 } .cpu signal rirs ≠ .ok y ∧
    Convolver.convolve { mode := "hop" } .cpu signal rirs ≠ .ok y := by
  constructor <;> rw [ne_eq, C28_modes] <;> simp

/-! ## C29 -/

/-- The convolver can be used with `T` response steps on signals of `N` samples: hop mode with a
positive hop, or trajectory mode with admissible starts. -/
inductive Usable (T N : ℕ) : Convolver → Prop
  | hop (H : ℕ) (pos : 1 ≤ H) (ts : Option (Tensor ℝ)) (fs : Option ℝ) :
      Usable T N { mode := "hop", hop := some (H : ℤ), timestamps := ts, fs := fs }
  | trajectory (hop : Option ℤ) (ts : Option (Tensor ℝ)) (fs : Option ℝ) (start : Fin T → ℝ)
      (starts : StartsAt N ts fs start) : Usable T N { hop := hop, timestamps := ts, fs := fs }

/-- In both modes the result is the time-varying convolution of a prefix of the signal. -/
theorem convolver_formula {T S M N L : ℕ} {c : Convolver} (hc : Usable T N c) (dev : DeviceType)
    (h : Fin T → Fin S → Fin M → Fin L → ℝ) {rirs : Tensor ℝ} (hr : DynamicRirsAre rirs h) (hT : 1 ≤ T)
    (hL : 1 ≤ L) :
    ∃ (len N' : ℕ) (hN : N' ≤ N) (step : Fin N' → Fin T), ∀ (x : Fin S → Fin N → ℝ) (sig : Tensor ℝ),
      SignalIs sig x → c.convolve dev sig rirs
        = .ok (micTensor len (mixVarying (fun s j => x s (Fin.castLE hN j)) h step)) := by
  cases hc with
  | hop H pos ts fs =>
    refine ⟨H * min ((N + H - 1) / H) T + L - 1, min N (T * H), min_le_left _ _,
      fun j => ⟨j / H, ?_⟩, fun x sig hs => ?_⟩
    · have := j.2
      rw [Nat.div_lt_iff_lt_mul pos]
      omega
    · exact C27_hop_formula_partial dev x h hs hr pos (by omega) _ (fun _ => rfl)
  | trajectory hop ts fs start starts =>
    obtain ⟨step, hstep, -⟩ := C24_every_sample_has_one_step hT starts
    exact ⟨N + L - 1, N, le_rfl, step, fun x sig hs =>
      C24_trajectory_formula dev x h hs hr hT (by omega) starts step hstep⟩

/-- **C29.** Both modes are linear in the signal. -/
theorem C29_linear {T S M N L : ℕ} {c : Convolver} (hc : Usable T N c) (dev : DeviceType)
    (h : Fin T → Fin S → Fin M → Fin L → ℝ) {rirs : Tensor ℝ} (hr : DynamicRirsAre rirs h) (hT : 1 ≤ T)
    (hL : 1 ≤ L) (x x' : Fin S → Fin N → ℝ) (a b : ℝ) :
    ∃ (len : ℕ) (y y' : Fin M → ℕ → ℝ),
      c.convolve dev (tensor2 x) rirs = .ok (micTensor len y) ∧
      c.convolve dev (tensor2 x') rirs = .ok (micTensor len y') ∧
      c.convolve dev (tensor2 fun s j => a * x s j + b * x' s j) rirs
        = .ok (micTensor len fun m k => a * y m k + b * y' m k) := by
  obtain ⟨len, N', hN, step, hf⟩ := convolver_formula hc dev h hr hT hL
  refine ⟨len, _, _, hf x _ (Or.inl rfl), hf x' _ (Or.inl rfl), ?_⟩
  rw [hf _ _ (Or.inl rfl)]
  congr 2
  funext m k
  unfold mixVarying
  simp only [Finset.mul_sum]
  rw [← Finset.sum_add_distrib]
  refine Finset.sum_congr rfl fun s _ => ?_
  rw [← Finset.sum_add_distrib]
  refine Finset.sum_congr rfl fun j _ => ?_
  rw [← Finset.sum_add_distrib]
  refine Finset.sum_congr rfl fun i _ => ?_
  split <;> ring

/-- **C29.** Both modes are causal: output sample `k` is determined by the signal samples up to `k`. -/
theorem C29_causal {T S M N L : ℕ} {c : Convolver} (hc : Usable T N c) (dev : DeviceType)
    (h : Fin T → Fin S → Fin M → Fin L → ℝ) {rirs : Tensor ℝ} (hr : DynamicRirsAre rirs h) (hT : 1 ≤ T)
    (hL : 1 ≤ L) (x x' : Fin S → Fin N → ℝ) (K : ℕ) (hx : ∀ s (j : Fin N), (j : ℕ) ≤ K → x s j = x' s j) :
    ∃ (len : ℕ) (y y' : Fin M → ℕ → ℝ),
      c.convolve dev (tensor2 x) rirs = .ok (micTensor len y) ∧
      c.convolve dev (tensor2 x') rirs = .ok (micTensor len y') ∧
      ∀ m, ∀ k ≤ K, y m k = y' m k := by
  obtain ⟨len, N', hN, step, hf⟩ := convolver_formula hc dev h hr hT hL
  refine ⟨len, _, _, hf x _ (Or.inl rfl), hf x' _ (Or.inl rfl), fun m k hk => ?_⟩
  unfold mixVarying
  refine Finset.sum_congr rfl fun s _ => Finset.sum_congr rfl fun j _ => Finset.sum_congr rfl fun i _ => ?_
  by_cases hji : (j : ℕ) + i = k
  · rw [if_pos hji, if_pos hji]
    show x s _ * _ = x' s _ * _
    rw [hx s _ (by show (j : ℕ) ≤ K; omega)]
  · rw [if_neg hji, if_neg hji]

/-- Hop 3 and uniform trajectory mode on seven samples and four steps. -/
example : Usable 4 7 { mode := "hop", hop := some ((3 : ℕ) : ℤ) } := .hop 3 (by norm_num) none none
example : Usable 4 7 {} := .trajectory none none none _ (StartsAt.uniform none)

end Torchrir.Props
