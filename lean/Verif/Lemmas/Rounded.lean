import Verif.Spec.Rounded
import Verif.Lemmas.Rows

/-! # Cells of the buffer as folds over the images -/

namespace Torchrir.Lemmas

open Torchrir.Model
open Torchrir.Spec

/-- The values a scatter adds at position `q`, in order. -/
def vals (es : List (ℤ × ℝ)) (q : ℤ) : List ℝ := (es.filter fun e => e.1 = q).map Prod.snd

@[simp] theorem vals_nil (q : ℤ) : vals [] q = [] := rfl

theorem vals_cons (e : ℤ × ℝ) (es : List (ℤ × ℝ)) (q : ℤ) :
    vals (e :: es) q = (if e.1 = q then [e.2] else []) ++ vals es q := by
  unfold vals
  rw [List.filter_cons]
  by_cases h : e.1 = q <;> simp [h]

theorem vals_append (a b : List (ℤ × ℝ)) (q : ℤ) : vals (a ++ b) q = vals a q ++ vals b q := by
  simp [vals]

theorem vals_flatten (l : List (List (ℤ × ℝ))) (q : ℤ) :
    vals l.flatten q = (l.map fun es => vals es q).flatten := by
  induction l with
  | nil => rfl
  | cons a l ih => simp [vals_append, ih]

theorem vals_perm {a b : List (ℤ × ℝ)} (h : a.Perm b) (q : ℤ) : (vals a q).Perm (vals b q) :=
  (h.filter _).map _

theorem scatterAddWith_spec (add : ℝ → ℝ → ℝ) (es : List (ℤ × ℝ)) : ∀ (buf : List ℝ),
    (∀ e ∈ es, 0 ≤ e.1 ∧ e.1 < buf.length) →
    ∃ buf', scatterAddWith add buf es = .ok buf' ∧ buf'.length = buf.length ∧
      ∀ q : ℕ, q < buf.length → buf'.getD q 0 = (vals es q).foldl add (buf.getD q 0) := by
  induction es with
  | nil => intro buf _; exact ⟨buf, rfl, rfl, by simp⟩
  | cons e es ih =>
    intro buf h
    obtain ⟨i, v⟩ := e
    have hi := h (i, v) (by simp)
    obtain ⟨buf', h1, h2, h3⟩ := ih (buf.set i.toNat (add (buf.getD i.toNat 0) v))
      (by intro e he; simpa using h e (by simp [he]))
    refine ⟨buf', ?_, by simpa using h2, ?_⟩
    · rw [scatterAddWith, if_pos hi, h1]
    · intro q hq
      rw [h3 q (by simpa using hq), vals_cons]
      have hi2 : i.toNat < buf.length := by have := hi.2; have := hi.1; omega
      by_cases hiq : i.toNat = q
      · subst hiq
        have : ((i, v) : ℤ × ℝ).1 = (i.toNat : ℤ) := by simp [hi.1]
        rw [if_pos this]
        simp [hi2]
      · have : ¬ ((i, v) : ℤ × ℝ).1 = (q : ℤ) := by
          intro h'; apply hiq; simp only at h'; omega
        rw [if_neg this]
        simp [List.getD_eq_getElem?_getD, hiq]

/-- What an image at (shifted) sample position `x` with amplitude `a` adds at sample `k`: one
value or none. -/
noncomputable def kernTap (h : ℝ → ℝ) (fdl : ℕ) (p : ℝ × ℝ) (k : ℕ) : List ℝ :=
  if 0 ≤ (k : ℤ) - ⌊p.1⌋ + halfLen fdl ∧ (k : ℤ) - ⌊p.1⌋ + halfLen fdl < fdl then
    [p.2 * (h ((k : ℝ) - p.1) * hann fdl (((k : ℤ) - ⌊p.1⌋ + halfLen fdl : ℤ) : ℝ))]
  else []

theorem kernTap_sum (h : ℝ → ℝ) (fdl : ℕ) (p : ℝ × ℝ) (k : ℕ) :
    (kernTap h fdl p k).sum = p.2 * kernAt h fdl p.1 k := by
  unfold kernTap kernAt
  split
  · simp only [List.sum_cons, List.sum_nil]; ring
  · simp

theorem kernTap_abs (h : ℝ → ℝ) (fdl : ℕ) (p : ℝ × ℝ) (k : ℕ) :
    ((kernTap h fdl p k).map fun v => |v|).sum = |p.2 * kernAt h fdl p.1 k| := by
  unfold kernTap kernAt
  split
  · simp only [List.map_cons, List.map_nil, List.sum_cons, List.sum_nil, add_zero]
    congr 1
    ring
  · simp

theorem kernTap_length (h : ℝ → ℝ) (fdl : ℕ) (p : ℝ × ℝ) (k : ℕ) :
    (kernTap h fdl p k).length ≤ 1 := by
  unfold kernTap
  split <;> simp

theorem filter_range_eq (n : ℕ) (P : ℕ → Bool) (J : ℕ) (hJ : J < n) (h : ∀ j, P j = true ↔ j = J) :
    (List.range n).filter P = [J] := by
  have hP : P = fun j => decide (j = J) := by
    funext j
    rw [Bool.eq_iff_iff, h]
    simp
  subst hP
  induction n with
  | zero => omega
  | succ n ih =>
    rw [List.range_succ, List.filter_append]
    by_cases hn : J = n
    · subst hn
      have : (List.range J).filter (fun j => decide (j = J)) = [] := by
        rw [List.filter_eq_nil_iff]
        intro j hj
        have := List.mem_range.mp hj
        simp; omega
      rw [this]
      simp
    · rw [ih (by omega)]
      simp [Ne.symm hn]

theorem tapEntries_vals {fdl gran : ℕ} (hodd : fdl % 2 = 1) (hg : 0 < gran) (useLut : Bool)
    (N row : ℕ) (x a : ℝ) :
    ∃ es, tapEntries (freshTables fdl gran) fdl gran useLut N row ⌊x⌋ (x - ⌊x⌋) a = .ok es ∧
      (∀ e ∈ es, (row : ℤ) * N ≤ e.1 ∧ e.1 < (row : ℤ) * N + N) ∧
      (∀ k : ℕ, k < N → vals es ((row : ℤ) * N + k)
        = kernTap (kernelShape useLut gran) fdl (x, a) k) := by
  have hpos : 0 < fdl := by omega
  have hfr0 : 0 ≤ x - ⌊x⌋ := Int.fract_nonneg x
  have hfr1 : x - ⌊x⌋ < 1 := Int.fract_lt_one x
  have hfilt : tapFilter (freshTables fdl gran) fdl gran useLut (x - ⌊x⌋)
      = .ok ((List.range fdl).map fun (j : ℕ) =>
          kernelShape useLut gran ((j : ℝ) - halfLen fdl - (x - ⌊x⌋)) * hann fdl j) := by
    unfold tapFilter
    cases useLut
    · simp only [kernelShape]
      rw [filtDirect_eq hpos]
      rfl
    · simp only [kernelShape, if_true]
      rw [filtLut_eq hodd hg _ hfr0 hfr1]
  unfold tapEntries
  simp only []
  rw [hfilt]
  refine ⟨_, rfl, ?_, ?_⟩
  · intro e he
    simp only [List.mem_map, List.mem_filter, decide_eq_true_eq] at he
    obtain ⟨p, ⟨_, hp1, hp2⟩, rfl⟩ := he
    constructor <;> simp only [] <;> linarith
  · intro k hk
    have e1 : (freshTables fdl gran).offsets.map (⌊x⌋ + ·)
        = (List.range fdl).map fun (j : ℕ) => ⌊x⌋ + ((j : ℤ) - halfLen fdl) := by
      simp [freshTables, fdlOffsets, List.map_map, Function.comp_def]
    rw [e1, List.map_map, List.zip_map']
    unfold vals kernTap
    rw [List.filter_map, List.filter_map, List.filter_map, List.map_map, List.map_map,
      List.filter_filter]
    simp only [Function.comp_def]
    by_cases hJ : 0 ≤ (k : ℤ) - ⌊x⌋ + halfLen fdl ∧ (k : ℤ) - ⌊x⌋ + halfLen fdl < fdl
    · rw [if_pos hJ]
      obtain ⟨J, hJ'⟩ := Int.eq_ofNat_of_zero_le hJ.1
      rw [filter_range_eq fdl _ J (by omega)]
      · simp only [List.map_cons, List.map_nil]
        have : (k : ℝ) - x = (J : ℝ) - halfLen fdl - (x - ⌊x⌋) := by
          have h' : ((k : ℤ) : ℝ) - ⌊x⌋ + halfLen fdl = J := by exact_mod_cast hJ'
          push_cast at h'
          linarith
        rw [this, hJ']
        push_cast
        rfl
      · intro j
        simp only [Bool.and_eq_true, decide_eq_true_eq]
        omega
    · rw [if_neg hJ, List.map_eq_nil_iff, List.filter_eq_nil_iff]
      intro j hj
      rw [List.mem_range] at hj
      simp only [Bool.and_eq_true, decide_eq_true_eq]
      omega

/-- What a list of images adds at sample `k`, in order, if one adds `T`. -/
def tapsOf (T : ℝ × ℝ → ℕ → List ℝ) (l : List (ℝ × ℝ)) (k : ℕ) : List ℝ :=
  (l.map fun p => T p k).flatten

theorem tapsOf_append (T : ℝ × ℝ → ℕ → List ℝ) (a b : List (ℝ × ℝ)) (k : ℕ) :
    tapsOf T (a ++ b) k = tapsOf T a k ++ tapsOf T b k := by simp [tapsOf]

/-- What a list of images adds at sample `k`, in order. -/
noncomputable def pairTaps (h : ℝ → ℝ) (fdl : ℕ) (l : List (ℝ × ℝ)) (k : ℕ) : List ℝ :=
  (l.map fun p => kernTap h fdl p k).flatten

theorem pairTaps_append (h : ℝ → ℝ) (fdl : ℕ) (a b : List (ℝ × ℝ)) (k : ℕ) :
    pairTaps h fdl (a ++ b) k = pairTaps h fdl a k ++ pairTaps h fdl b k := by simp [pairTaps]

theorem pairTaps_sum (h : ℝ → ℝ) (fdl : ℕ) (l : List (ℝ × ℝ)) (k : ℕ) :
    (pairTaps h fdl l k).sum = pairSum h fdl l k := by
  unfold pairTaps pairSum
  rw [List.sum_flatten, List.map_map]
  congr 1
  apply List.map_congr_left
  intro p _
  exact kernTap_sum h fdl p k

theorem pairTaps_abs (h : ℝ → ℝ) (fdl : ℕ) (l : List (ℝ × ℝ)) (k : ℕ) :
    ((pairTaps h fdl l k).map fun v => |v|).sum
      = (l.map fun p => |p.2 * kernAt h fdl p.1 k|).sum := by
  unfold pairTaps
  rw [List.map_flatten, List.sum_flatten, List.map_map, List.map_map]
  congr 1
  apply List.map_congr_left
  intro p _
  exact kernTap_abs h fdl p k

theorem pairTaps_length (h : ℝ → ℝ) (fdl : ℕ) (l : List (ℝ × ℝ)) (k : ℕ) :
    (pairTaps h fdl l k).length ≤ l.length := by
  induction l with
  | nil => simp [pairTaps]
  | cons p l ih =>
    have := kernTap_length h fdl p k
    have e : pairTaps h fdl (p :: l) k = kernTap h fdl p k ++ pairTaps h fdl l k := by
      simp [pairTaps]
    rw [e, List.length_append, List.length_cons]
    omega

theorem zipIdx_flatten_single {α β : Type} (f : α → ℕ → List β) (l : List α) (r : ℕ)
    (hr : r < l.length) (h0 : ∀ a i, i ≠ r → f a i = []) :
    ((l.zipIdx).map fun p => f p.1 p.2).flatten = f l[r] r := by
  have : ∀ (l : List α) (s : ℕ), ((l.zipIdx s).map fun p => f p.1 p.2).flatten
      = if h : s ≤ r ∧ r - s < l.length then f l[r - s] r else [] := by
    intro l
    induction l with
    | nil => intro s; simp
    | cons a l ih =>
      intro s
      rw [List.zipIdx_cons, List.map_cons, List.flatten_cons, ih]
      by_cases hs : s = r
      · subst hs; simp
      · rw [h0 a s hs, List.nil_append]
        by_cases hlt : s < r
        · by_cases hb : r - (s + 1) < l.length
          · rw [dif_pos ⟨by omega, hb⟩, dif_pos ⟨by omega, by simp only [List.length_cons]; omega⟩]
            have e : r - s = r - (s + 1) + 1 := by omega
            simp only [e, List.getElem_cons_succ]
          · rw [dif_neg (by omega), dif_neg (by simp only [List.length_cons]; omega)]
        · rw [dif_neg (by omega), dif_neg (by omega)]
  rw [this l 0]
  simp [hr]

/-- A relation between the list of values as added and as they stand. -/
structure OrderRel (Rel : List ℝ → List ℝ → Prop) : Prop where
  nil : Rel [] []
  append : ∀ {a a' b b'}, Rel a a' → Rel b b' → Rel (a ++ b) (a' ++ b')

theorem orderRel_eq : OrderRel (· = ·) := ⟨rfl, fun h h' => by rw [h, h']⟩

theorem orderRel_perm : OrderRel List.Perm := ⟨List.Perm.nil, fun h h' => h.append h'⟩

/-- An order that only permutes, and whose effect on every cell is covered by `Rel`. -/
structure Covers (Rel : List ℝ → List ℝ → Prop) (order : List (ℤ × ℝ) → List (ℤ × ℝ)) : Prop where
  perm : ∀ es, (order es).Perm es
  rel : ∀ es q, Rel (vals (order es) q) (vals es q)

/-- What a function computing the targets and values of one image does: it succeeds, its targets
lie in the row, and at sample `k` it puts `T`. -/
def TapSpec (tap : ℕ → ℤ → ℝ → ℝ → Except String (List (ℤ × ℝ))) (T : ℝ × ℝ → ℕ → List ℝ)
    (fr : ℝ → ℝ) (N : ℕ) : Prop :=
  ∀ (row : ℕ) (q : ℝ × ℝ), ∃ es, tap row ⌊q.1⌋ (fr q.1) q.2 = .ok es ∧
    (∀ e ∈ es, (row : ℤ) * N ≤ e.1 ∧ e.1 < (row : ℤ) * N + N) ∧
    ∀ k : ℕ, k < N → vals es ((row : ℤ) * N + k) = T q k

variable {ι : Type} [DecidableEq ι]

theorem accumulateChunkTaps_rel {Rel : List ℝ → List ℝ → Prop} (add : ℝ → ℝ → ℝ)
    (order : List (ℤ × ℝ) → List (ℤ × ℝ)) (hRel : OrderRel Rel) (hord : Covers Rel order)
    (tap : ℕ → ℤ → ℝ → ℝ → Except String (List (ℤ × ℝ))) (T : ℝ × ℝ → ℕ → List ℝ)
    (fr : ℝ → ℝ) (N : ℕ) (hT : TapSpec tap T fr N) (R : List ι) (hR : R.Nodup) (F : ι → ℕ → ℝ)
    (g : ι → List (ℝ × ℝ)) :
    ∃ F' : ι → ℕ → ℝ,
      accumulateChunkTaps add order tap
        (R.map fun r => rowOf N (F r)).flatten
        (R.map fun r => (g r).map fun q => ⌊q.1⌋)
        (R.map fun r => (g r).map fun q => fr q.1)
        (R.map fun r => (g r).map fun q => q.2)
      = .ok (R.map fun r => rowOf N (F' r)).flatten ∧
      ∀ r ∈ R, ∀ k < N, ∃ l, Rel l (tapsOf T (g r) k) ∧
        F' r k = l.foldl add (F r k) := by
  classical
  choose E hE1 hE2 hE3 using hT
  set es := ((R.zipIdx).map fun x => ((g x.1).map (E x.2)).flatten).flatten with hes
  set buf := (R.map fun r => rowOf N (F r)).flatten with hbuf
  have hrun : accumulateChunkTaps add order tap buf
        (R.map fun r => (g r).map fun q => ⌊q.1⌋)
        (R.map fun r => (g r).map fun q => fr q.1)
        (R.map fun r => (g r).map fun q => q.2)
      = if es.isEmpty = true then .ok buf else scatterAddWith add buf (order es) := by
    unfold accumulateChunkTaps
    simp only [List.zip_map', List.zipIdx_map]
    rw [List.mapM_map, mapM_ok (g := fun x => ((g x.1).map (E x.2)).flatten)]
    · rfl
    · rintro ⟨r, row⟩ _
      simp only [Function.comp, Prod.map, id, List.zip_map', List.mapM_map]
      rw [mapM_ok (g := fun q => E row q)]
      · rfl
      · intro q _
        exact hE1 row q
  have hrowlen : ∀ r ∈ R.map (fun p => rowOf N (F p)), r.length = N := by
    intro r hr; simp only [List.mem_map] at hr; obtain ⟨_, _, rfl⟩ := hr; simp
  have hlen : buf.length = R.length * N := by
    rw [hbuf, length_flatten_of N _ hrowlen]; simp
  have hvals : ∀ r (hr : r < R.length) k, k < N →
      vals es (((r * N + k : ℕ)) : ℤ) = tapsOf T (g R[r]) k := by
    intro r hr k hk
    rw [hes, vals_flatten, List.map_map]
    have hf : ((fun es : List (ℤ × ℝ) => vals es (((r * N + k : ℕ)) : ℤ)) ∘
        fun x : ι × ℕ => ((g x.1).map (E x.2)).flatten)
        = fun x => (fun (p : ι) (i : ℕ) =>
            vals ((g p).map (E i)).flatten (((r * N + k : ℕ)) : ℤ)) x.1 x.2 := rfl
    rw [hf, zipIdx_flatten_single (fun (p : ι) (i : ℕ) =>
            vals ((g p).map (E i)).flatten (((r * N + k : ℕ)) : ℤ)) R r hr]
    · rw [vals_flatten, List.map_map]
      unfold tapsOf
      congr 1
      apply List.map_congr_left
      intro q _
      simp only [Function.comp]
      have := hE3 r q k hk
      push_cast
      exact this
    · intro p i hi
      rw [vals_flatten, List.map_map, List.flatten_eq_nil_iff]
      intro v hv
      simp only [List.mem_map, Function.comp] at hv
      obtain ⟨q, _, rfl⟩ := hv
      unfold vals
      rw [List.map_eq_nil_iff, List.filter_eq_nil_iff]
      intro e he
      have hb := hE2 i q e he
      simp only [decide_eq_true_eq]
      intro heq
      rw [heq] at hb
      push_cast at hb
      rcases Nat.lt_or_gt_of_ne hi with h | h
      · have : ((i : ℤ) + 1) * N ≤ r * N := mul_le_mul_of_nonneg_right (by omega) (by positivity)
        have hk' : (0 : ℤ) ≤ k := by positivity
        linarith [hb.2]
      · have : ((r : ℤ) + 1) * N ≤ i * N := mul_le_mul_of_nonneg_right (by omega) (by positivity)
        have hk' : (k : ℤ) < N := by exact_mod_cast hk
        linarith [hb.1]
  have hin : ∀ e ∈ order es, 0 ≤ e.1 ∧ e.1 < buf.length := by
    intro e he
    rw [(hord.perm es).mem_iff] at he
    simp only [hes, List.mem_flatten, List.mem_map] at he
    obtain ⟨l, ⟨⟨p, row⟩, hmem, rfl⟩, he⟩ := he
    simp only [List.mem_flatten, List.mem_map] at he
    obtain ⟨l, ⟨q, _, rfl⟩, he⟩ := he
    have hb := hE2 row q e he
    have hrow : row < R.length := by
      have := List.mem_zipIdx hmem
      omega
    have h5 : (0 : ℤ) ≤ (row : ℤ) * N := by positivity
    have h6 : (row : ℤ) * N + N ≤ R.length * N := by
      have : ((row : ℤ) + 1) * N ≤ R.length * N :=
        mul_le_mul_of_nonneg_right (by omega) (by positivity)
      linarith
    rw [hlen]; push_cast
    constructor <;> linarith [hb.1, hb.2]
  -- the new buffer and its cells
  obtain ⟨buf', h1, h2, h3⟩ : ∃ buf',
      (if es.isEmpty = true then (.ok buf : Except String (List ℝ))
        else scatterAddWith add buf (order es)) = .ok buf' ∧ buf'.length = buf.length ∧
      ∀ r (hr : r < R.length) k, k < N →
        ∃ l, Rel l (tapsOf T (g R[r]) k) ∧
          buf'.getD (r * N + k) 0 = l.foldl add (buf.getD (r * N + k) 0) := by
    by_cases hemp : es.isEmpty = true
    · refine ⟨buf, if_pos hemp, rfl, ?_⟩
      intro r hr k hk
      refine ⟨[], ?_, rfl⟩
      rw [← hvals r hr k hk, List.isEmpty_iff.mp hemp]
      exact hRel.nil
    · obtain ⟨buf', h1, h2, h3⟩ := scatterAddWith_spec add (order es) buf hin
      refine ⟨buf', by rw [if_neg hemp, h1], h2, ?_⟩
      intro r hr k hk
      refine ⟨vals (order es) (((r * N + k : ℕ)) : ℤ), ?_, h3 _ ?_⟩
      · rw [← hvals r hr k hk]
        exact hord.rel es _
      · rw [hlen]
        have : (r + 1) * N ≤ R.length * N := Nat.mul_le_mul_right _ hr
        rw [Nat.succ_mul] at this
        omega
  refine ⟨fun x k => buf'.getD (R.idxOf x * N + k) 0, ?_, ?_⟩
  · rw [hrun, h1]
    congr 1
    apply eq_flatten_of_getD N 0
    · intro r hr; simp only [List.mem_map] at hr; obtain ⟨_, _, rfl⟩ := hr; simp
    · rw [h2, hlen]; simp
    · intro r k hr hk
      have hr' : r < R.length := by simpa using hr
      simp only [List.getElem_map]
      rw [rowOf_getD _ _ _ hk, hR.idxOf_getElem r hr']
  · intro x hx k hk
    have hlt : R.idxOf x < R.length := List.idxOf_lt_length_iff.mpr hx
    obtain ⟨l, hl1, hl2⟩ := h3 (R.idxOf x) hlt k hk
    rw [List.getElem_idxOf] at hl1
    refine ⟨l, hl1, ?_⟩
    simp only
    rw [hl2, hbuf, getD_flatten N 0 _ hrowlen (R.idxOf x) k (by simpa using hlt) hk]
    simp only [List.getElem_map, List.getElem_idxOf]
    rw [rowOf_getD _ _ _ hk]

theorem accumulateImplTaps_rel {Rel : List ℝ → List ℝ → Prop} (add : ℝ → ℝ → ℝ)
    (order : ℕ → List (ℤ × ℝ) → List (ℤ × ℝ)) (hRel : OrderRel Rel)
    (hord : ∀ i, Covers Rel (order i)) (sub : ℝ → ℝ → ℝ)
    (tap : ℕ → ℤ → ℝ → ℝ → Except String (List (ℤ × ℝ))) (T : ℝ × ℝ → ℕ → List ℝ) (N : ℕ)
    (hT : TapSpec tap T (fun x => sub x (⌊x⌋ : ℝ)) N) (c : ℕ) (hc : 0 < c) (I : ℕ) (R : List ι) (hR : R.Nodup)
    (hne : R ≠ []) (F : ι → ℕ → ℝ) (g : ι → List (ℝ × ℝ)) (hI : ∀ r ∈ R, (g r).length = I) :
    ∃ F' : ι → ℕ → ℝ,
      accumulateImplTaps add order sub tap c R.length
        (R.map fun r => rowOf N (F r)).flatten
        (R.map fun r => (g r).map fun q => q.1)
        (R.map fun r => (g r).map fun q => q.2)
      = .ok (R.map fun r => rowOf N (F' r)).flatten ∧
      ∀ r ∈ R, ∀ k < N, ∃ l, Rel l (tapsOf T (g r) k) ∧
        F' r k = l.foldl add (F r k) := by
  have hlen0 : R.length ≠ 0 := by simpa using hne
  unfold accumulateImplTaps
  simp only [hlen0, hc.ne', if_false, List.map_map, List.zipWith_map, List.zipWith_self,
    Function.comp_def]
  have hhead : ((R.map (fun r => (g r).map fun q => ⌊q.1⌋)).headD []).length = I := by
    cases R with
    | nil => exact absurd rfl hne
    | cons p rows => simpa using hI p (by simp)
  rw [hhead]
  obtain ⟨b', h1, F', h2, h3⟩ := foldlM_chunks I c hc
    (fun p (b : List ℝ) => ∃ F' : ι → ℕ → ℝ, b = (R.map fun r => rowOf N (F' r)).flatten ∧
      ∀ r ∈ R, ∀ k < N, ∃ l, Rel l (tapsOf T ((g r).take p) k) ∧
        F' r k = l.foldl add (F r k))
    (fun buf start =>
      accumulateChunkTaps add (order start) tap buf
        (R.map fun r => slice start (min (start + c) I) ((g r).map fun q => ⌊q.1⌋))
        (R.map fun r => slice start (min (start + c) I)
          ((g r).map fun q : ℝ × ℝ => sub q.1 (⌊q.1⌋ : ℝ)))
        (R.map fun r => slice start (min (start + c) I) ((g r).map fun q => q.2)))
    (by
      rintro start b hs ⟨F', rfl, hF'⟩
      obtain ⟨F'', e, hF''⟩ := accumulateChunkTaps_rel add (order start) hRel (hord start) tap
        T _ N hT R hR F' (fun r => slice start (min (start + c) I) (g r))
      refine ⟨_, ?_, F'', rfl, ?_⟩
      · simp only [slice_map]
        exact e
      · intro r hr k hk
        obtain ⟨l, hl, hl'⟩ := hF' r hr k hk
        obtain ⟨m, hm, hm'⟩ := hF'' r hr k hk
        refine ⟨l ++ m, ?_, by rw [hm', hl', List.foldl_append]⟩
        rw [take_eq_append_slice (g r) start (min (start + c) I) (by omega), tapsOf_append]
        exact hRel.append hl hm)
    ((R.map fun r => rowOf N (F r)).flatten)
    ⟨F, rfl, fun r _ k _ => ⟨[], by simpa [tapsOf] using hRel.nil, rfl⟩⟩
  refine ⟨F', Eq.trans h1 (by rw [h2]), ?_⟩
  intro r hr k hk
  have := h3 r hr k hk
  rwa [← hI r hr, List.take_length] at this

theorem accumulateImplWith_rel {Rel : List ℝ → List ℝ → Prop} (add : ℝ → ℝ → ℝ)
    (order : ℕ → List (ℤ × ℝ) → List (ℤ × ℝ)) (hRel : OrderRel Rel)
    (hord : ∀ i, Covers Rel (order i)) {fdl gran : ℕ} (hodd : fdl % 2 = 1)
    (hg : 0 < gran) (useLut : Bool) (c : ℕ) (hc : 0 < c) (N I : ℕ) (R : List ι) (hR : R.Nodup)
    (hne : R ≠ []) (F : ι → ℕ → ℝ) (g : ι → List (ℝ × ℝ)) (hI : ∀ r ∈ R, (g r).length = I) :
    ∃ F' : ι → ℕ → ℝ,
      accumulateImplWith add order (freshTables fdl gran) fdl gran useLut c R.length N
        (R.map fun r => rowOf N (F r)).flatten
        (R.map fun r => (g r).map fun q => q.1)
        (R.map fun r => (g r).map fun q => q.2)
      = .ok (R.map fun r => rowOf N (F' r)).flatten ∧
      ∀ r ∈ R, ∀ k < N, ∃ l, Rel l (pairTaps (kernelShape useLut gran) fdl (g r) k) ∧
        F' r k = l.foldl add (F r k) :=
  accumulateImplTaps_rel add order hRel hord (fun x y => x - y) _ (kernTap (kernelShape useLut gran) fdl) N
    (fun row q => tapEntries_vals hodd hg useLut N row q.1 q.2) c hc I R hR hne F g hI

/-- An adder all of whose calls are covered by the relation. -/
def AdderCovers (Rel : List ℝ → List ℝ → Prop) (ad : Adder) : Prop :=
  ∀ i j, Covers Rel (ad.order i j)

theorem covers_eq {ad : Adder} (h : AddsInOrder ad) : AdderCovers (· = ·) ad := fun i j =>
  ⟨fun es => by rw [h i j es], fun es q => by rw [h i j es]⟩

theorem covers_perm {ad : Adder} (h : AddsEverything ad) : AdderCovers List.Perm ad := fun i j =>
  ⟨h i j, fun es q => vals_perm (h i j es) q⟩

/-- The loop over the image chunks. -/
theorem chunkLoopTaps_rel {Rel : List ℝ → List ℝ → Prop} (add : ℝ → ℝ → ℝ)
    (order : ℕ → ℕ → List (ℤ × ℝ) → List (ℤ × ℝ)) (hRel : OrderRel Rel)
    (hord : ∀ i j, Covers Rel (order i j)) (sub : ℝ → ℝ → ℝ)
    (tap : ℕ → ℤ → ℝ → ℝ → Except String (List (ℤ × ℝ))) (T : ℝ × ℝ → ℕ → List ℝ) (N : ℕ)
    (hT : TapSpec tap T (fun x => sub x (⌊x⌋ : ℝ)) N) (c : ℕ) (hc : 0 < c) {d : ℕ}
    (R : List ι) (hnd : R.Nodup) (hR : R ≠ []) (ns : List (Fin d → ℤ))
    (g : ι → (Fin d → ℤ) → ℝ × ℝ) (chunk : ℕ) (hchunk : 0 < chunk)
    (step : List ℝ → ℕ → Except String (List ℝ))
    (hstep : ∀ buf start, step buf start =
      accumulateImplTaps add (order start) sub tap c R.length buf
        ((R.map fun r => (slice start (min (start + chunk) ns.length) ns).map (g r)).map
          (·.map Prod.fst))
        ((R.map fun r => (slice start (min (start + chunk) ns.length) ns).map (g r)).map
          (·.map Prod.snd))) :
    ∃ F : ι → ℕ → ℝ,
      (rangeStep ns.length chunk).foldlM step (List.replicate (R.length * N) 0)
        = .ok (R.map fun r => rowOf N (F r)).flatten ∧
      ∀ r ∈ R, ∀ k < N, ∃ l, Rel l (tapsOf T (ns.map (g r)) k) ∧ F r k = l.foldl add 0 := by
  obtain ⟨b', h1, F, h2, h3⟩ := foldlM_chunks ns.length chunk hchunk
    (fun p (b : List ℝ) => ∃ F : ι → ℕ → ℝ, b = (R.map fun r => rowOf N (F r)).flatten ∧
      ∀ r ∈ R, ∀ k < N, ∃ l, Rel l (tapsOf T ((ns.take p).map (g r)) k) ∧
        F r k = l.foldl add 0) step
    (by
      rintro start b hs ⟨F, rfl, hF⟩
      obtain ⟨F', e, hF'⟩ := accumulateImplTaps_rel add (order start) hRel (hord start) sub tap T N
        hT c hc (slice start (min (start + chunk) ns.length) ns).length R hnd hR F
        (fun r => (slice start (min (start + chunk) ns.length) ns).map (g r)) (by simp)
      refine ⟨_, ?_, F', rfl, ?_⟩
      · rw [hstep]
        simp only [List.map_map, Function.comp_def]
        simp only [List.map_map, Function.comp_def] at e
        exact e
      · intro r hr k hk
        obtain ⟨l, hl, hl'⟩ := hF r hr k hk
        obtain ⟨m, hm, hm'⟩ := hF' r hr k hk
        refine ⟨l ++ m, ?_, by rw [hm', hl', List.foldl_append]⟩
        rw [take_eq_append_slice ns start (min (start + chunk) ns.length) (by omega),
          List.map_append, tapsOf_append]
        exact hRel.append hl hm)
    (List.replicate (R.length * N) 0)
    ⟨fun _ _ => 0, by rw [replicate_eq_rows],
      fun r _ k _ => ⟨[], by simpa [tapsOf] using hRel.nil, rfl⟩⟩
  exact ⟨F, by rw [h1, h2], by rw [List.take_length] at h3; exact h3⟩

theorem chunkLoopWith_rel {Rel : List ℝ → List ℝ → Prop} (ad : Adder) (hRel : OrderRel Rel)
    (had : AdderCovers Rel ad) {d : ℕ} (cfg : Config) (hcfg : cfg.validate = .ok ())
    (dev : DeviceType) (R : List ι) (hnd : R.Nodup) (hR : R ≠ []) (ns : List (Fin d → ℤ))
    (g : ι → (Fin d → ℤ) → ℝ × ℝ) (N chunk : ℕ) (hchunk : 0 < chunk)
    (step : List ℝ → ℕ → Except String (List ℝ))
    (hstep : ∀ buf start, step buf start =
      accumulateRirBatchWith ad start cfg dev R.length N buf
        ((R.map fun r => (slice start (min (start + chunk) ns.length) ns).map (g r)).map
          (·.map Prod.fst))
        ((R.map fun r => (slice start (min (start + chunk) ns.length) ns).map (g r)).map
          (·.map Prod.snd))) :
    ∃ F : ι → ℕ → ℝ,
      (rangeStep ns.length chunk).foldlM step (List.replicate (R.length * N) 0)
        = .ok (R.map fun r => rowOf N (F r)).flatten ∧
      ∀ r ∈ R, ∀ k < N, ∃ l,
        Rel l (pairTaps (kernelShape (cfg.useLut && dev ≠ .mps) cfg.sincLutGranularity.toNat)
          cfg.fracDelayLength.toNat (ns.map (g r)) k) ∧
        F r k = l.foldl ad.add 0 := by
  obtain ⟨-, -, -, -, ⟨hf0, hf1⟩, hgr, -, hac, -, -⟩ := (Config.valid_iff cfg).mp hcfg
  exact chunkLoopTaps_rel ad.add ad.order hRel had (fun x y => x - y) _
    (kernTap (kernelShape (cfg.useLut && dev ≠ .mps) cfg.sincLutGranularity.toNat)
      cfg.fracDelayLength.toNat) N
    (fun row q => tapEntries_vals (by omega) (by omega) _ N row q.1 q.2)
    cfg.accumulateChunkSize.toNat (by omega) R hnd hR ns g chunk hchunk step hstep

theorem pairs_nodup (nS nM : ℕ) :
    (List.ofFn fun s : Fin nS => List.ofFn fun m : Fin nM => (s, m)).flatten.Nodup := by
  rw [List.nodup_flatten]
  constructor
  · intro l hl
    obtain ⟨s, rfl⟩ := (List.mem_ofFn' _ _).mp hl
    rw [List.nodup_ofFn]
    intro a b h
    exact (Prod.mk.inj h).2
  · rw [List.pairwise_ofFn]
    intro i j hij x hx hx'
    obtain ⟨a, rfl⟩ := (List.mem_ofFn' _ _).mp hx
    obtain ⟨b, hb⟩ := (List.mem_ofFn' _ _).mp hx'
    exact hij.ne (Prod.mk.inj hb).1.symm

theorem triples_nodup (nT nS nM : ℕ) :
    (List.ofFn fun t : Fin nT => List.ofFn fun s : Fin nS => List.ofFn fun m : Fin nM =>
      (t, s, m)).flatten.flatten.Nodup := by
  rw [List.flatten_flatten, List.map_ofFn, List.nodup_flatten]
  constructor
  · intro l hl
    obtain ⟨t, rfl⟩ := (List.mem_ofFn' _ _).mp hl
    have e : (List.flatten ∘ fun t : Fin nT => List.ofFn fun s : Fin nS =>
        List.ofFn fun m : Fin nM => (t, s, m)) t
        = ((List.ofFn fun s : Fin nS => List.ofFn fun m : Fin nM => (s, m)).flatten).map
            fun p => (t, p) := by
      simp only [Function.comp_def, List.map_flatten, List.map_ofFn]
    rw [e]
    exact (pairs_nodup nS nM).map fun a b h => (Prod.mk.inj h).2
  · rw [List.pairwise_ofFn]
    intro i j hij x hx hx'
    simp only [Function.comp, List.mem_flatten, List.mem_ofFn] at hx hx'
    obtain ⟨_, ⟨a, rfl⟩, hx⟩ := hx
    obtain ⟨_, ⟨b, rfl⟩, hx'⟩ := hx'
    obtain ⟨a', rfl⟩ := (List.mem_ofFn' _ _).mp hx
    obtain ⟨b', hb⟩ := (List.mem_ofFn' _ _).mp hx'
    exact hij.ne (Prod.mk.inj hb).1.symm

/-- What the images of a plan add to one sample, in the order of the images. -/
noncomputable def Plan.taps {d nS nM : ℕ} (P : Plan d nS nM) (w : World) (room : Room)
    (L : Fin d → ℝ) (ns : List (Fin d → ℤ)) (s : Fin nS) (m : Fin nM) (src mic : Fin d → ℝ)
    (k : ℕ) : List ℝ :=
  pairTaps (P.setup w room L).shape (P.setup w room L).fdl
    (ns.map (contribOf (P.setup w room L) (halfLen (P.setup w room L).fdl) (P.gs s) (P.gm m)
      src mic)) k

/-- `simulateRirWith` for resolved arguments: every sample is the sum of its taps in some order. -/
theorem StaticPlan.evalWith {d nS nM : ℕ} {room : Room} {sources mics : Entity} {a : SimArgs}
    {L : Fin d → ℝ} {src : Fin nS → Fin d → ℝ} {mic : Fin nM → Fin d → ℝ} {P : Plan d nS nM}
    (h : StaticPlan room sources mics a L src mic P) (w : World) (hfs : room.fs ≠ 0)
    {Rel : List ℝ → List ℝ → Prop} (ad : Adder) (hRel : OrderRel Rel) (had : AdderCovers Rel ad)
    {ns : List (Fin d → ℤ)} (hns : P.nVec = ns.map List.ofFn) (hmem : ∀ n, n ∈ ns ↔ n ∈ P.A) :
    ∃ F : Fin nS → Fin nM → ℕ → ℝ,
      simulateRirWith ad w room sources mics a = (do
        let rir ← diffuseStep w (tensor3 fun s m (k : Fin P.K.toNat) => F s m k) room
          (wallList P.lo P.hi) a.tdiff P.tmax P.cfg.seed
        applyRirHpf w room.fs P.cfg rir) ∧
      ∀ s m, ∀ k < P.K.toNat, ∃ l, Rel l (P.taps w room L ns s m (src s) (mic m) k) ∧
        F s m k = l.foldl ad.add 0 := by
  obtain ⟨p, hp, hp'⟩ := h.hsrc
  obtain ⟨q, hq, hq'⟩ := h.hmic
  have hS := h.hS
  have hM := h.hM
  have hcfg : P.cfg.validate = .ok () := resolveConfig_valid h.res
  have hdim : ensureDim room.size = .ok () := by
    unfold ensureDim; rw [h.size, List.length_ofFn, if_pos h.hd]
  have hshape : validatePosShapes (tensor2 src) (tensor2 mic) d = .ok () := by
    unfold validatePosShapes
    simp only [raiseIf_bind_ok, raiseIf_ok]
    simp [tensor2, Tensor.ndim]
  have himg := h.img
  rw [hns] at himg
  set S := P.setup w room L with hSdef
  obtain ⟨F, hloop, hF⟩ := chunkLoopWith_rel ad hRel had P.cfg hcfg w.device
    (List.ofFn fun s : Fin nS => List.ofFn fun m : Fin nM => (s, m)).flatten (pairs_nodup nS nM)
    (by
      intro h0
      have := pairs_length nS nM
      rw [h0] at this
      simp at this
      omega) ns
    (fun r n => contribOf S (halfLen S.fdl) (P.gs r.1) (P.gm r.2) (src r.1) (mic r.2) n)
    P.K.toNat (imageChunk P.cfg ns.length) (imageChunk_pos hcfg _)
    (fun buf start => do
      let chunk ← contributionsBatch (List.ofFn fun s => List.ofFn (src s))
        (List.ofFn fun m => List.ofFn (mic m)) (List.ofFn L)
        (slice start (min (start + imageChunk P.cfg ns.length) ns.length) (ns.map List.ofFn))
        (slice start (min (start + imageChunk P.cfg ns.length) ns.length)
          (ns.map (wallGain P.lo P.hi)))
        room.c room.fs (halfLen P.cfg.fracDelayLength.toNat) P.sp P.mp P.sd P.md
      accumulateRirBatchWith ad start P.cfg w.device (nS * nM) P.K.toNat buf
        (chunk.flatten.map (·.map Prod.fst)) (chunk.flatten.map (·.map Prod.snd)))
    (by
      intro buf start
      rw [slice_map, slice_map]
      have hg := h.gains
      have hc := contributionsBatch_eq S hfs (halfLen P.cfg.fracDelayLength.toNat) src mic
        (slice start (min (start + imageChunk P.cfg ns.length) ns.length) ns) P.sp P.mp P.sd P.md
        P.gs P.gm
        ⟨hg.src_some, hg.mic_some, fun s m v ⟨n, hn, hv⟩ => hg.src s m v ⟨n, (hmem n).mp
            (List.mem_of_mem_take (List.mem_of_mem_drop hn)), hv⟩,
          fun m => by
            obtain ⟨mv, h1, h2⟩ := hg.mic m
            exact ⟨mv, h1, fun s v ⟨n, hn, hv⟩ => h2 s v ⟨n, (hmem n).mp
              (List.mem_of_mem_take (List.mem_of_mem_drop hn)), hv⟩⟩⟩
      refine Eq.trans (congrArg (· >>= _) hc) ?_
      rw [ok_bind, pairs_length]
      congr 2
      all_goals
        rw [List.map_flatten, List.map_ofFn]
        congr 2
        funext s
        simp only [Function.comp, List.map_ofFn]
        rfl)
  refine ⟨fun s m => F (s, m), ?_, ?_⟩
  · unfold simulateRirWith
    rw [h.res, ok_bind]
    simp only []
    rw [h.val, ok_bind, hp, ok_bind]
    simp only []
    rw [hq, ok_bind]
    simp only []
    rw [hdim, ok_bind]
    have hlen : room.size.length = d := by rw [h.size]; simp
    rw [hp', hq', hlen, hshape, ok_bind, h.beta, ok_bind, himg, ok_bind, h.split, ok_bind]
    simp only []
    rw [h.hmd, ok_bind]
    have e1 : (tensor2 src).shape.getD 0 0 = nS := rfl
    have e2 : (tensor2 mic).shape.getD 0 0 = nM := rfl
    rw [e1, e2, h.hsd, ok_bind, tensor2_rows, tensor2_rows, reflectionCoefficients_map, h.size]
    rw [pairs_length] at hloop
    simp only [List.length_map] at hloop ⊢
    rw [hloop, ok_bind]
    have hdata := pairs_map_flatten (N := P.K.toNat) (fun (s : Fin nS) (m : Fin nM) k => F (s, m) k)
    rw [hdata]
    rfl
  · intro s m k hk
    exact hF (s, m) (flatten_mem (fun s m => (s, m)) s m) k hk

/-- `simulateDynamicRirWith` for resolved arguments. -/
theorem DynamicPlan.evalWith {d nT nS nM : ℕ} {room : Room} {a : SimArgs}
    {L : Fin d → ℝ} {src : Fin nT → Fin nS → Fin d → ℝ} {mic : Fin nT → Fin nM → Fin d → ℝ}
    {P : Plan d nS nM} (h : DynamicPlan room a L src mic P) (w : World) (hfs : room.fs ≠ 0)
    {sTraj mTraj : Tensor ℝ} (hsT : asTraj sTraj = tensor3 src) (hmT : asTraj mTraj = tensor3 mic)
    {Rel : List ℝ → List ℝ → Prop} (ad : Adder) (hRel : OrderRel Rel) (had : AdderCovers Rel ad)
    {ns : List (Fin d → ℤ)} (hns : P.nVec = ns.map List.ofFn) (hmem : ∀ n, n ∈ ns ↔ n ∈ P.A) :
    ∃ F : Fin nT → Fin nS → Fin nM → ℕ → ℝ,
      simulateDynamicRirWith ad w room sTraj mTraj a
        = applyRirHpf w room.fs P.cfg (tensor4 fun t s m (k : Fin P.K.toNat) => F t s m k) ∧
      ∀ t s m, ∀ k < P.K.toNat, ∃ l, Rel l (P.taps w room L ns s m (src t s) (mic t m) k) ∧
        F t s m k = l.foldl ad.add 0 := by
  have hT := h.hT
  have hS := h.hS
  have hM := h.hM
  have hcfg : P.cfg.validate = .ok () := resolveConfig_valid h.res
  have hdim : ensureDim room.size = .ok () := by
    unfold ensureDim; rw [h.size, List.length_ofFn, if_pos h.hd]
  have hshape : validateTrajShapes (tensor3 src) (tensor3 mic) d = .ok () := by
    unfold validateTrajShapes
    simp only [raiseIf_bind_ok, raiseIf_ok]
    simp [tensor3, Tensor.ndim]
  have himg := h.img
  rw [hns] at himg
  set S := P.setup w room L with hSdef
  obtain ⟨F, hloop, hF⟩ := chunkLoopWith_rel ad hRel had P.cfg hcfg w.device
    (List.ofFn fun t : Fin nT => List.ofFn fun s : Fin nS => List.ofFn fun m : Fin nM =>
      (t, s, m)).flatten.flatten (triples_nodup nT nS nM)
    (by
      intro h0
      have := triples_length nT nS nM
      rw [h0] at this
      simp at this
      omega) ns
    (fun r n => contribOf S (halfLen S.fdl) (P.gs r.2.1) (P.gm r.2.2) (src r.1 r.2.1)
      (mic r.1 r.2.2) n)
    P.K.toNat (imageChunk P.cfg ns.length) (imageChunk_pos hcfg _)
    (fun buf start => do
      let chunk ← contributionsTimeBatch
        (List.ofFn fun t => List.ofFn fun s => List.ofFn (src t s))
        (List.ofFn fun t => List.ofFn fun m => List.ofFn (mic t m)) (List.ofFn L)
        (slice start (min (start + imageChunk P.cfg ns.length) ns.length) (ns.map List.ofFn))
        (slice start (min (start + imageChunk P.cfg ns.length) ns.length)
          (ns.map (wallGain P.lo P.hi)))
        room.c room.fs (halfLen P.cfg.fracDelayLength.toNat) P.sp P.mp P.sd P.md
      accumulateRirBatchWith ad start P.cfg w.device (nT * nS * nM) P.K.toNat buf
        (chunk.flatten.flatten.map (·.map Prod.fst)) (chunk.flatten.flatten.map (·.map Prod.snd)))
    (by
      intro buf start
      rw [slice_map, slice_map]
      have hg := h.gains
      have hc := contributionsTimeBatch_eq S hfs (halfLen P.cfg.fracDelayLength.toNat) src mic
        (slice start (min (start + imageChunk P.cfg ns.length) ns.length) ns) P.sp P.mp P.sd P.md
        P.gs P.gm
        ⟨hg.src_some, hg.mic_some, fun s m v ⟨t, n, hn, hv⟩ => hg.src s m v ⟨t, n, (hmem n).mp
            (List.mem_of_mem_take (List.mem_of_mem_drop hn)), hv⟩,
          fun m => by
            obtain ⟨mv, h1, h2⟩ := hg.mic m
            exact ⟨mv, h1, fun s v ⟨t, n, hn, hv⟩ => h2 s v ⟨t, n, (hmem n).mp
              (List.mem_of_mem_take (List.mem_of_mem_drop hn)), hv⟩⟩⟩
      refine Eq.trans (congrArg (· >>= _) hc) ?_
      rw [ok_bind, triples_length]
      congr 2
      all_goals
        simp only [List.map_flatten, List.map_ofFn, List.flatten_flatten, Function.comp_def]
        rfl)
  refine ⟨fun t s m => F (t, s, m), ?_, ?_⟩
  · unfold simulateDynamicRirWith
    rw [h.res, ok_bind]
    simp only []
    rw [h.val, ok_bind, h.hori, ok_bind]
    simp only []
    rw [hdim, ok_bind]
    have hlen : room.size.length = d := by rw [h.size]; simp
    rw [hsT, hmT, hlen, hshape, ok_bind, h.beta, ok_bind, himg, ok_bind, h.split, ok_bind]
    simp only []
    rw [h.hmd, ok_bind]
    have e0 : (tensor3 src).shape.getD 0 0 = nT := rfl
    have e1 : (tensor3 src).shape.getD 1 0 = nS := rfl
    have e2 : (tensor3 mic).shape.getD 1 0 = nM := rfl
    rw [e0, e1, e2, h.hsd, ok_bind, tensor3_planes, tensor3_planes, reflectionCoefficients_map,
      h.size]
    rw [triples_length] at hloop
    simp only [List.length_map] at hloop ⊢
    rw [hloop, ok_bind]
    have hdata := triples_map_flatten (N := P.K.toNat)
      (fun (t : Fin nT) (s : Fin nS) (m : Fin nM) k => F (t, s, m) k)
    rw [hdata]
    rfl
  · intro t s m k hk
    refine hF (t, s, m) ?_ k hk
    rw [List.mem_flatten]
    refine ⟨List.ofFn fun m : Fin nM => (t, s, m), ?_, (List.mem_ofFn' _ _).mpr ⟨m, rfl⟩⟩
    exact flatten_mem (fun t s => List.ofFn fun m : Fin nM => (t, s, m)) t s

/-! ## Rounding errors of a sum -/

theorem foldl_near {u : ℝ} (hu : 0 ≤ u) {add : ℝ → ℝ → ℝ} (h : RoundsWithin u add) (l : List ℝ) :
    ∀ (c x A : ℝ) (n : ℕ), |x| ≤ A → |c - x| ≤ ((1 + u) ^ n - 1) * A →
      |l.foldl add c - (x + l.sum)|
        ≤ ((1 + u) ^ (n + l.length) - 1) * (A + (l.map fun v => |v|).sum) := by
  induction l with
  | nil => intro c x A n _ h2; simpa using h2
  | cons v l ih =>
    intro c x A n h1 h2
    have hx : |x + v| ≤ A + |v| := le_trans (abs_add_le _ _) (by linarith)
    have hA : 0 ≤ A := le_trans (abs_nonneg _) h1
    have hp : 1 ≤ (1 + u) ^ n := one_le_pow₀ (by linarith)
    have e1 : |c - x| ≤ ((1 + u) ^ n - 1) * (A + |v|) :=
      le_trans h2 (mul_le_mul_of_nonneg_left (by linarith [abs_nonneg v]) (by linarith))
    have e2 : |c + v| ≤ |c - x| + |x + v| := by
      have : c + v = (c - x) + (x + v) := by ring
      rw [this]
      exact abs_add_le _ _
    have e3 : |add c v - (x + v)| ≤ |add c v - (c + v)| + |c - x| := by
      have : add c v - (x + v) = (add c v - (c + v)) + (c - x) := by ring
      rw [this]
      exact abs_add_le _ _
    have e4 := h c v
    have e5 : |add c v - (x + v)| ≤ ((1 + u) ^ (n + 1) - 1) * (A + |v|) := by
      have e6 : u * |c + v| ≤ u * (((1 + u) ^ n - 1) * (A + |v|) + (A + |v|)) :=
        mul_le_mul_of_nonneg_left (by linarith) hu
      rw [pow_succ]
      nlinarith
    have := ih (add c v) (x + v) (A + |v|) (n + 1) hx e5
    rw [List.foldl_cons, List.sum_cons, List.map_cons, List.sum_cons, List.length_cons]
    have e7 : x + (v + l.sum) = x + v + l.sum := by ring
    have e8 : n + (l.length + 1) = n + 1 + l.length := by ring
    rw [e7, e8, ← add_assoc]
    exact this

theorem sum_near {u : ℝ} (hu : 0 ≤ u) {add : ℝ → ℝ → ℝ} (h : RoundsWithin u add) {l l' : List ℝ}
    (hp : l.Perm l') (n : ℕ) (hn : l'.length ≤ n) :
    |l.foldl add 0 - l'.sum| ≤ ((1 + u) ^ n - 1) * (l'.map fun v => |v|).sum := by
  have := foldl_near hu h l 0 0 0 0 (by simp) (by simp)
  rw [zero_add, zero_add, zero_add, hp.sum_eq, (hp.map fun v => |v|).sum_eq, hp.length_eq] at this
  refine le_trans this (mul_le_mul_of_nonneg_right ?_ (List.sum_nonneg ?_))
  · have := pow_le_pow_right₀ (show 1 ≤ 1 + u by linarith) hn
    linarith
  · intro v hv
    obtain ⟨x, _, rfl⟩ := List.mem_map.mp hv
    exact abs_nonneg x

/-- The taps of a plan sum to the specification's response, and their magnitudes to its
magnitude. -/
theorem Plan.taps_facts {d nS nM : ℕ} (P : Plan d nS nM) (w : World) (room : Room) (L : Fin d → ℝ)
    (hodd : (P.setup w room L).fdl % 2 = 1) {ns : List (Fin d → ℤ)} (hnd : ns.Nodup)
    (hmem : ∀ n, n ∈ ns ↔ n ∈ P.A) (s : Fin nS) (m : Fin nM) (src mic : Fin d → ℝ) (k : ℕ) :
    (P.taps w room L ns s m src mic k).sum
        = rir (P.setup w room L) P.A (P.gs s) (P.gm m) src mic k ∧
    ((P.taps w room L ns s m src mic k).map fun v => |v|).sum
        = rirMagnitude (P.setup w room L) P.A (P.gs s) (P.gm m) src mic k ∧
    (P.taps w room L ns s m src mic k).length ≤ P.A.card := by
  unfold Plan.taps
  refine ⟨?_, ?_, ?_⟩
  · rw [pairTaps_sum, pairSum_eq_rir _ hodd _ _ _ _ hnd hmem]
  · rw [pairTaps_abs, List.map_map, sum_list_eq_finset hnd hmem]
    apply Finset.sum_congr rfl
    intro n _
    simp only [Function.comp, contribOf]
    rw [kernAt_shift _ hodd]
  · refine le_trans (pairTaps_length _ _ _ _) ?_
    rw [List.length_map, ← List.toFinset_card_of_nodup hnd]
    apply le_of_eq
    congr 1
    ext n
    rw [List.mem_toFinset, hmem]

/-! ## The exact adder -/

theorem scatterAddWith_exact (es : List (ℤ × ℝ)) : ∀ buf : List ℝ,
    scatterAddWith (· + ·) buf es = scatterAdd buf es := by
  induction es with
  | nil => intro _; rfl
  | cons e es ih =>
    intro buf
    obtain ⟨i, v⟩ := e
    rw [scatterAddWith, scatterAdd]
    split
    · exact ih _
    · rfl

theorem accumulateRirBatchWith_exact (i : ℕ) : accumulateRirBatchWith exactAdder i = accumulateRirBatch := by
  funext cfg dev nSm N buf sample amp
  unfold accumulateRirBatchWith accumulateRirBatch accumulateImplWith accumulateImpl
    accumulateImplTaps accumulateChunkTaps accumulateChunk exactAdder
  simp only [scatterAddWith_exact]

end Torchrir.Lemmas
