import Verif.Model.Accumulate
import Verif.Spec.Ism
import Verif.Lemmas.Lists
import Mathlib.Tactic.Ring
import Mathlib.Tactic.FieldSimp
import Mathlib.Tactic.Linarith
import Mathlib.Tactic.Positivity

/-! # The accumulation loop computes a sum of kernels -/

namespace Torchrir.Lemmas

open Torchrir.Model
open Torchrir.Spec (kernelShape gridLerp hann kernel)

theorem sinc_eq : Torchrir.Model.sinc = Torchrir.Spec.sinc := rfl

theorem hannWindow_eq (fdl : ℕ) (hpos : 0 < fdl) :
    hannWindow fdl = (List.range fdl).map fun (j : ℕ) => hann fdl j := by
  unfold hannWindow hann
  split
  · rename_i h; subst h; rfl
  · rfl

theorem halfLen_odd {fdl : ℕ} (h : fdl % 2 = 1) : 2 * halfLen fdl + 1 = fdl := by
  unfold halfLen; omega

theorem sincLut_length (fdl gran : ℕ) : (sincLut fdl gran).length = (fdl + 1) * gran + 1 := by
  unfold sincLut linspace
  split
  · rename_i h; simp [h]
  · simp

theorem sincLut_getD {fdl gran : ℕ} (hodd : fdl % 2 = 1) (hg : 0 < gran) (p : ℕ)
    (hp : p < (fdl + 1) * gran + 1) :
    (sincLut fdl gran).getD p 0
      = Torchrir.Spec.sinc (((p : ℝ) - ((halfLen fdl : ℝ) + 1) * gran) / gran) := by
  have hne : (fdl + 1) * gran + 1 ≠ 1 := by
    have : 0 < (fdl + 1) * gran := by positivity
    omega
  unfold sincLut linspace
  rw [if_neg hne, List.getD_eq_getElem _ _ (by simpa using hp)]
  simp only [List.map_map, List.getElem_map, List.getElem_range, Function.comp]
  rw [sinc_eq]
  congr 1
  have h2 : (2 * (halfLen fdl : ℝ) + 1) = fdl := by exact_mod_cast halfLen_odd hodd
  have hg' : (gran : ℝ) ≠ 0 := by positivity
  have hf : (fdl : ℝ) + 1 ≠ 0 := by positivity
  push_cast
  rw [add_sub_cancel_right]
  field_simp
  rw [← h2]
  ring

theorem torchTake_nonneg (t : List ℝ) (i : ℤ) (h0 : 0 ≤ i) (h1 : i < t.length) :
    torchTake t i = .ok (t.getD i.toNat 0) := by
  rw [torchTake, if_pos ⟨h0, h1⟩]

theorem filtLut_eq {fdl gran : ℕ} (hodd : fdl % 2 = 1) (hg : 0 < gran) (frac : ℝ)
    (h0 : 0 ≤ frac) (h1 : frac < 1) :
    filtLut (freshTables fdl gran) gran frac
      = .ok ((List.range fdl).map fun (j : ℕ) =>
          gridLerp gran Torchrir.Spec.sinc ((j : ℝ) - halfLen fdl - frac) * hann fdl j) := by
  have hgr : (0 : ℝ) < gran := by exact_mod_cast hg
  have hpos : 0 < fdl := by omega
  set off : ℤ := ⌊(1 - frac) * (gran : ℝ)⌋ with hoff
  have off0 : 0 ≤ off := by
    rw [hoff]; apply Int.floor_nonneg.mpr; apply mul_nonneg <;> linarith
  have off1 : off ≤ gran := by
    have : off ≤ ⌊(gran : ℝ)⌋ := by
      rw [hoff]; apply Int.floor_le_floor; nlinarith
    simpa using this
  have hinterp : (fdlGrid fdl).mapM (fun n => (do
      let pos := off + ⌊n⌋ * (gran : ℤ)
      let s0 ← torchTake (sincLut fdl gran) pos
      let s1 ← torchTake (sincLut fdl gran) (pos + 1)
      return s0 + ((1 - frac) * (gran : ℝ) - off) * (s1 - s0) : Except String ℝ))
      = .ok ((fdlGrid fdl).map fun n =>
          gridLerp gran Torchrir.Spec.sinc (n - halfLen fdl - frac)) := by
    apply mapM_ok
    intro n hn
    simp only [fdlGrid, List.mem_map, List.mem_range] at hn
    obtain ⟨j, hj, rfl⟩ := hn
    simp only [Int.floor_natCast]
    set pos : ℤ := off + (j : ℤ) * (gran : ℤ) with hpos'
    have hjg : (0 : ℤ) ≤ (j : ℤ) * gran := by positivity
    have hjg2 : (j : ℤ) * gran + gran ≤ fdl * gran := by
      have : ((j : ℤ) + 1) * gran ≤ fdl * gran :=
        mul_le_mul_of_nonneg_right (by omega) (by positivity)
      linarith
    have p0 : 0 ≤ pos := by omega
    have hlen : ((sincLut fdl gran).length : ℤ) = ((fdl : ℤ) + 1) * gran + 1 := by
      rw [sincLut_length]; push_cast; ring
    have hb : pos + 1 < (sincLut fdl gran).length := by
      rw [hlen, add_mul]; omega
    rw [torchTake_nonneg _ _ p0 (by omega), torchTake_nonneg _ _ (by omega) hb]
    have hb' : pos.toNat + 1 < (fdl + 1) * gran + 1 := by
      rw [sincLut_length] at hb; push_cast at hb; zify; rw [Int.toNat_of_nonneg p0]; exact hb
    have e1 : (pos + 1).toNat = pos.toNat + 1 := by omega
    rw [e1, sincLut_getD hodd hg _ (by omega), sincLut_getD hodd hg _ hb']
    have hposR : ((pos.toNat : ℕ) : ℝ) = (off : ℝ) + j * gran := by
      have : ((pos.toNat : ℕ) : ℤ) = pos := Int.toNat_of_nonneg p0
      have h' : (((pos.toNat : ℕ) : ℤ) : ℝ) = (pos : ℝ) := by rw [this]
      rw [Int.cast_natCast] at h'
      rw [h', hpos']; push_cast; ring
    have hfl : ⌊((j : ℝ) - halfLen fdl - frac) * gran⌋
        = off + ((j : ℤ) - halfLen fdl - 1) * gran := by
      rw [hoff, ← Int.floor_add_intCast]
      congr 1; push_cast; ring
    show Except.ok _ = Except.ok _
    congr 1
    unfold gridLerp
    simp only [hfl]
    have a1 : ((((pos.toNat : ℕ)) : ℝ) - ((halfLen fdl : ℝ) + 1) * gran) / gran
        = (((off + ((j : ℤ) - halfLen fdl - 1) * gran : ℤ)) : ℝ) / gran := by
      rw [hposR]; push_cast; ring
    have a2 : ((((pos.toNat + 1 : ℕ)) : ℝ) - ((halfLen fdl : ℝ) + 1) * gran) / gran
        = ((((off + ((j : ℤ) - halfLen fdl - 1) * gran : ℤ)) : ℝ) + 1) / gran := by
      push_cast; rw [hposR]; ring
    rw [a1, a2]
    congr 1
    push_cast; ring
  unfold filtLut freshTables
  simp only []
  rw [← hoff, hinterp]
  show Except.ok _ = Except.ok _
  rw [hannWindow_eq fdl hpos, fdlGrid]
  simp [List.zipWith_map, List.map_map, List.zipWith_self]

theorem filtDirect_eq {fdl gran : ℕ} (hpos : 0 < fdl) (frac : ℝ) :
    filtDirect (freshTables fdl gran) fdl frac
      = (List.range fdl).map fun (j : ℕ) =>
          Torchrir.Spec.sinc ((j : ℝ) - halfLen fdl - frac) * hann fdl j := by
  unfold filtDirect freshTables
  simp only []
  rw [hannWindow_eq fdl hpos, fdlGrid, sinc_eq]
  simp [List.zipWith_map, List.zipWith_self]

/-- Kernel for an image with (shifted) sample position `x`. -/
noncomputable def kernAt (h : ℝ → ℝ) (fdl : ℕ) (x : ℝ) (k : ℕ) : ℝ :=
  if 0 ≤ (k : ℤ) - ⌊x⌋ + halfLen fdl ∧ (k : ℤ) - ⌊x⌋ + halfLen fdl < fdl then
    hann fdl (((k : ℤ) - ⌊x⌋ + halfLen fdl : ℤ) : ℝ) * h ((k : ℝ) - x)
  else 0

theorem kernAt_shift (h : ℝ → ℝ) {fdl : ℕ} (hodd : fdl % 2 = 1) (τ : ℝ) (k : ℕ) :
    kernAt h fdl (τ + halfLen fdl) k = kernel h fdl τ k := by
  unfold kernAt kernel
  have e : (k : ℤ) - ⌊τ + (halfLen fdl : ℝ)⌋ + halfLen fdl = k - ⌊τ⌋ := by
    rw [Int.floor_add_natCast]; ring
  rw [e]
  have h2 : ((fdl : ℝ) - 1) / 2 = halfLen fdl := by
    have : (2 * (halfLen fdl : ℝ) + 1) = fdl := by exact_mod_cast halfLen_odd hodd
    rw [← this]; ring
  rw [h2]
  congr 3
  ring

theorem sum_map_filter_ite {α : Type} (p : α → Bool) (f : α → ℝ) (l : List α) :
    ((l.filter p).map f).sum = (l.map fun x => if p x then f x else 0).sum := by
  induction l with
  | nil => rfl
  | cons a l ih =>
    rw [List.filter_cons]
    split <;> simp_all

theorem sum_range_eq (n : ℕ) (f : ℕ → ℝ) :
    ∑ j ∈ Finset.range n, f j = ((List.range n).map f).sum := rfl

/-- Taps of one image before masking. -/
theorem tapEntries_eq {fdl gran : ℕ} (hodd : fdl % 2 = 1) (hg : 0 < gran) (useLut : Bool)
    (N row : ℕ) (x a : ℝ) :
    ∃ es, tapEntries (freshTables fdl gran) fdl gran useLut N row ⌊x⌋ (x - ⌊x⌋) a = .ok es ∧
      (∀ e ∈ es, (row : ℤ) * N ≤ e.1 ∧ e.1 < (row : ℤ) * N + N) ∧
      (∀ k : ℕ, k < N → hits es ((row : ℤ) * N + k)
        = a * kernAt (kernelShape useLut gran) fdl x k) := by
  have hpos : 0 < fdl := by omega
  have hfr0 : 0 ≤ x - ⌊x⌋ := Int.fract_nonneg x
  have hfr1 : x - ⌊x⌋ < 1 := Int.fract_lt_one x
  have hfilt : tapFilter (freshTables fdl gran) fdl gran useLut (x - ⌊x⌋)
      = .ok ((List.range fdl).map fun (j : ℕ) =>
          kernelShape useLut gran ((j : ℝ) - halfLen fdl - (x - ⌊x⌋)) * hann fdl j) := by
    unfold tapFilter
    cases useLut
    · simp only [kernelShape]
      rw [filtDirect_eq hpos]
      rfl
    · simp only [kernelShape, if_true]
      rw [filtLut_eq hodd hg _ hfr0 hfr1]
  unfold tapEntries
  simp only []
  rw [hfilt]
  refine ⟨_, rfl, ?_, ?_⟩
  · intro e he
    simp only [List.mem_map, List.mem_filter, decide_eq_true_eq] at he
    obtain ⟨p, ⟨_, hp1, hp2⟩, rfl⟩ := he
    constructor <;> simp only [] <;> linarith
  · intro k hk
    have e1 : (freshTables fdl gran).offsets.map (⌊x⌋ + ·)
        = (List.range fdl).map fun (j : ℕ) => ⌊x⌋ + ((j : ℤ) - halfLen fdl) := by
      simp [freshTables, fdlOffsets, List.map_map, Function.comp_def]
    rw [e1, List.map_map, List.zip_map']
    unfold hits
    rw [List.map_map, List.filter_map, List.map_map, sum_map_filter_ite]
    rw [← sum_range_eq]
    simp only [Function.comp, decide_eq_true_eq]
    unfold kernAt
    by_cases hJ : 0 ≤ (k : ℤ) - ⌊x⌋ + halfLen fdl ∧ (k : ℤ) - ⌊x⌋ + halfLen fdl < fdl
    · rw [if_pos hJ]
      obtain ⟨J, hJ'⟩ := Int.eq_ofNat_of_zero_le hJ.1
      rw [Finset.sum_eq_single J]
      · rw [if_pos (by omega), if_pos (by omega), hJ']
        have : (k : ℝ) - x = (J : ℝ) - halfLen fdl - (x - ⌊x⌋) := by
          have h' : ((k : ℤ) : ℝ) - ⌊x⌋ + halfLen fdl = J := by exact_mod_cast hJ'
          push_cast at h'
          linarith
        rw [this]
        push_cast
        ring
      · intro b _ hb
        split
        · rw [if_neg (by omega)]
        · rfl
      · intro h
        exfalso; apply h; rw [Finset.mem_range]; omega
    · rw [if_neg hJ, mul_zero]
      apply Finset.sum_eq_zero
      intro j hj
      rw [Finset.mem_range] at hj
      split
      · rw [if_neg (by omega)]
      · rfl

/-- A row of the output buffer. -/
def rowOf (N : ℕ) (F : ℕ → ℝ) : List ℝ := (List.range N).map F

@[simp] theorem rowOf_length (N : ℕ) (F : ℕ → ℝ) : (rowOf N F).length = N := by simp [rowOf]

theorem rowOf_getD (N : ℕ) (F : ℕ → ℝ) (k : ℕ) (hk : k < N) : (rowOf N F).getD k 0 = F k := by
  rw [List.getD_eq_getElem _ _ (by simpa using hk)]; simp [rowOf]

/-- Sum of the kernels of a list of (sample, amplitude) pairs. -/
noncomputable def pairSum (h : ℝ → ℝ) (fdl : ℕ) (l : List (ℝ × ℝ)) (k : ℕ) : ℝ :=
  (l.map fun p => p.2 * kernAt h fdl p.1 k).sum

theorem pairSum_append (h : ℝ → ℝ) (fdl : ℕ) (a b : List (ℝ × ℝ)) (k : ℕ) :
    pairSum h fdl (a ++ b) k = pairSum h fdl a k + pairSum h fdl b k := by simp [pairSum]

theorem zipIdx_sum_single {α : Type} (f : α → ℕ → ℝ) (l : List α) (r : ℕ) (hr : r < l.length)
    (h0 : ∀ a i, i ≠ r → f a i = 0) :
    ((l.zipIdx).map fun p => f p.1 p.2).sum = f l[r] r := by
  have : ∀ (l : List α) (s : ℕ), ((l.zipIdx s).map fun p => f p.1 p.2).sum
      = if h : s ≤ r ∧ r - s < l.length then f l[r - s] r else 0 := by
    intro l
    induction l with
    | nil => intro s; simp
    | cons a l ih =>
      intro s
      rw [List.zipIdx_cons, List.map_cons, List.sum_cons, ih]
      by_cases hs : s = r
      · subst hs; simp
      · rw [h0 a s hs, zero_add]
        by_cases hlt : s < r
        · by_cases hb : r - (s + 1) < l.length
          · rw [dif_pos ⟨by omega, hb⟩, dif_pos ⟨by omega, by simp only [List.length_cons]; omega⟩]
            have e : r - s = r - (s + 1) + 1 := by omega
            simp only [e, List.getElem_cons_succ]
          · rw [dif_neg (by omega), dif_neg (by simp only [List.length_cons]; omega)]
        · rw [dif_neg (by omega), dif_neg (by omega)]
  rw [this l 0]
  simp [hr]

/-- The part of the buffer state that is known before a chunk: one function per row, paired
with the images still to be added. -/
theorem accumulateChunk_eq {fdl gran : ℕ} (hodd : fdl % 2 = 1) (hg : 0 < gran) (useLut : Bool)
    (N : ℕ) (rows : List ((ℕ → ℝ) × List (ℝ × ℝ))) :
    accumulateChunk (freshTables fdl gran) fdl gran useLut N
      (rows.map fun p => rowOf N p.1).flatten
      (rows.map fun p => p.2.map fun q => ⌊q.1⌋)
      (rows.map fun p => p.2.map fun q => q.1 - (⌊q.1⌋ : ℝ))
      (rows.map fun p => p.2.map fun q => q.2)
    = .ok (rows.map fun p => rowOf N fun k =>
        p.1 k + pairSum (kernelShape useLut gran) fdl p.2 k).flatten := by
  classical
  -- choose the entries produced by every image
  have hchoice := fun (row : ℕ) (q : ℝ × ℝ) =>
    tapEntries_eq hodd hg useLut N row q.1 q.2
  choose E hE1 hE2 hE3 using hchoice
  unfold accumulateChunk
  simp only [List.zip_map', List.zipIdx_map]
  rw [List.mapM_map, mapM_ok (g := fun x => (x.1.2.map (E x.2)).flatten)]
  swap
  · rintro ⟨⟨F, ps⟩, row⟩ _
    simp only [Function.comp, Prod.map, id, List.zip_map', List.mapM_map]
    rw [mapM_ok (g := fun q => E row q)]
    · rfl
    · intro q _
      exact hE1 row q
  set es := ((rows.zipIdx).map fun x => (x.1.2.map (E x.2)).flatten).flatten with hes
  set buf := (rows.map fun p => rowOf N p.1).flatten with hbuf
  have hif : (if es.isEmpty = true then (.ok buf : Except String (List ℝ)) else scatterAdd buf es)
      = scatterAdd buf es := by
    split
    · rename_i h; rw [List.isEmpty_iff.mp h]; rfl
    · rfl
  refine Eq.trans hif ?_
  have hrowlen : ∀ r ∈ rows.map (fun p => rowOf N p.1), r.length = N := by
    intro r hr; simp only [List.mem_map] at hr; obtain ⟨_, _, rfl⟩ := hr; simp
  have hlen : buf.length = rows.length * N := by
    rw [hbuf, length_flatten_of N _ hrowlen]; simp
  obtain ⟨buf', h1, h2, h3⟩ := scatterAdd_spec es buf (by
    intro e he
    simp only [hes, List.mem_flatten, List.mem_map] at he
    obtain ⟨l, ⟨⟨⟨F, ps⟩, row⟩, hmem, rfl⟩, he⟩ := he
    simp only [List.mem_flatten, List.mem_map] at he
    obtain ⟨l, ⟨q, _, rfl⟩, he⟩ := he
    have hb := hE2 row q e he
    have hrow : row < rows.length := by
      have := List.mem_zipIdx hmem
      omega
    have h5 : (0 : ℤ) ≤ (row : ℤ) * N := by positivity
    have h6 : (row : ℤ) * N + N ≤ rows.length * N := by
      have : ((row : ℤ) + 1) * N ≤ rows.length * N :=
        mul_le_mul_of_nonneg_right (by omega) (by positivity)
      linarith
    rw [hlen]; push_cast
    constructor <;> linarith [hb.1, hb.2])
  rw [h1]
  congr 1
  apply eq_flatten_of_getD N 0
  · intro r hr; simp only [List.mem_map] at hr; obtain ⟨_, _, rfl⟩ := hr; simp
  · rw [h2, hlen]; simp
  · intro r k hr hk
    have hr' : r < rows.length := by simpa using hr
    have hq : r * N + k < buf.length := by
      rw [hlen]
      have : (r + 1) * N ≤ rows.length * N := Nat.mul_le_mul_right _ hr'
      rw [Nat.succ_mul] at this
      omega
    rw [h3 _ hq, hbuf, getD_flatten N 0 _ hrowlen r k (by simpa using hr') hk]
    simp only [List.getElem_map]
    rw [rowOf_getD _ _ _ hk, rowOf_getD _ _ _ hk]
    congr 1
    rw [hes, hits_flatten, List.map_map]
    have hf : ((fun es : List (ℤ × ℝ) => hits es (((r * N + k : ℕ)) : ℤ)) ∘
        fun x : ((ℕ → ℝ) × List (ℝ × ℝ)) × ℕ => (x.1.2.map (E x.2)).flatten)
        = fun x => (fun (p : (ℕ → ℝ) × List (ℝ × ℝ)) (i : ℕ) =>
            hits (p.2.map (E i)).flatten (((r * N + k : ℕ)) : ℤ)) x.1 x.2 := rfl
    rw [hf, zipIdx_sum_single (fun (p : (ℕ → ℝ) × List (ℝ × ℝ)) (i : ℕ) =>
            hits (p.2.map (E i)).flatten (((r * N + k : ℕ)) : ℤ)) rows r hr']
    · rw [hits_flatten, List.map_map]
      unfold pairSum
      congr 1
      apply List.map_congr_left
      intro q _
      simp only [Function.comp]
      have := hE3 r q k hk
      push_cast
      exact this
    · intro p i hi
      rw [hits_flatten, List.map_map]
      apply List.sum_eq_zero
      intro v hv
      simp only [List.mem_map, Function.comp] at hv
      obtain ⟨q, _, rfl⟩ := hv
      unfold hits
      apply List.sum_eq_zero
      intro v hv
      simp only [List.mem_map] at hv
      obtain ⟨e, he, rfl⟩ := hv
      have hb := hE2 i q e he
      rw [if_neg]
      intro heq
      rw [heq] at hb
      push_cast at hb
      rcases Nat.lt_or_gt_of_ne hi with h | h
      · have : ((i : ℤ) + 1) * N ≤ r * N := mul_le_mul_of_nonneg_right (by omega) (by positivity)
        have hk' : (0 : ℤ) ≤ k := by positivity
        linarith [hb.2]
      · have : ((r : ℤ) + 1) * N ≤ i * N := mul_le_mul_of_nonneg_right (by omega) (by positivity)
        have hk' : (k : ℤ) < N := by exact_mod_cast hk
        linarith [hb.1]

/-- The whole accumulation adds to every row the kernels of its images, whatever the chunk size. -/
theorem accumulateImpl_eq {fdl gran : ℕ} (hodd : fdl % 2 = 1) (hg : 0 < gran) (useLut : Bool)
    (c : ℕ) (hc : 0 < c) (N I : ℕ) (rows : List ((ℕ → ℝ) × List (ℝ × ℝ))) (hne : rows ≠ [])
    (hI : ∀ p ∈ rows, p.2.length = I) :
    accumulateImpl (freshTables fdl gran) fdl gran useLut c rows.length N
      (rows.map fun p => rowOf N p.1).flatten
      (rows.map fun p => p.2.map fun q => q.1)
      (rows.map fun p => p.2.map fun q => q.2)
    = .ok (rows.map fun p => rowOf N fun k =>
        p.1 k + pairSum (kernelShape useLut gran) fdl p.2 k).flatten := by
  have hlen0 : rows.length ≠ 0 := by simpa using hne
  unfold accumulateImpl
  simp only [hlen0, hc.ne', if_false, List.map_map, List.zipWith_map, List.zipWith_self,
    Function.comp_def]
  have hhead : ((rows.map (fun p : (ℕ → ℝ) × List (ℝ × ℝ) =>
      p.2.map fun q => ⌊q.1⌋)).headD []).length = I := by
    cases rows with
    | nil => exact absurd rfl hne
    | cons p rows => simpa using hI p (by simp)
  rw [hhead]
  obtain ⟨b', h1, h2⟩ := foldlM_chunks I c hc
    (fun p (b : List ℝ) => b = (rows.map fun r => rowOf N fun k =>
        r.1 k + pairSum (kernelShape useLut gran) fdl (r.2.take p) k).flatten)
    (fun buf start =>
      accumulateChunk (freshTables fdl gran) fdl gran useLut N buf
        (rows.map fun p : (ℕ → ℝ) × List (ℝ × ℝ) =>
          slice start (min (start + c) I) (p.2.map fun q => ⌊q.1⌋))
        (rows.map fun p => slice start (min (start + c) I)
          (p.2.map fun q : ℝ × ℝ => q.1 - (⌊q.1⌋ : ℝ)))
        (rows.map fun p => slice start (min (start + c) I) (p.2.map fun q => q.2)))
    (by
      intro start b hs hb
      refine ⟨_, ?_, rfl⟩
      have := accumulateChunk_eq hodd hg useLut N (rows.map fun r =>
        (fun k => r.1 k + pairSum (kernelShape useLut gran) fdl (r.2.take start) k,
          slice start (min (start + c) I) r.2))
      simp only [List.map_map, Function.comp_def] at this
      rw [hb]
      simp only [slice_map]
      rw [this]
      congr 2
      apply List.map_congr_left
      intro r _
      congr 1
      funext k
      rw [take_eq_append_slice r.2 start (min (start + c) I) (by omega), pairSum_append]
      ring)
    ((rows.map fun p => rowOf N p.1).flatten) (by simp [pairSum])
  refine Eq.trans h1 ?_
  rw [h2]
  congr 2
  apply List.map_congr_left
  intro r hr
  rw [← hI r hr, List.take_length]

end Torchrir.Lemmas
