import Verif.Model.OneSource
import Verif.Lemmas.Lists
import Verif.Lemmas.Inverse
import Verif.Lemmas.Builder
import Verif.Lemmas.Directivity

/-!
# C106: the images of one source
-/

namespace Torchrir.Spec
open Torchrir.Model

/-- The two tables of the first source out of the table of pairs for all sources. -/
def firstSource (r : List (List (List (ℝ × ℝ)))) : List (List ℝ) × List (List ℝ) :=
  ((r.headD []).map (·.map Prod.fst), (r.headD []).map (·.map Prod.snd))

end Torchrir.Spec

namespace Torchrir.Props
open Torchrir.Model Torchrir.Spec Torchrir.Lemmas

theorem mapM_range_getD {α β : Type} (l : List α) (d : α) (f : α × ℕ → Except String β) :
    l.zipIdx.mapM f = (List.range l.length).mapM fun i => f (l.getD i d, i) := by
  have h : l.zipIdx = (List.range l.length).map fun i => (l.getD i d, i) := by
    apply List.ext_getElem
    · simp
    · intro i h1 h2
      simp at h1
      simp [h1]
  rw [h, List.mapM_map]
  rfl

theorem mapM_range_zip {α β γ : Type} (l : List α) (k : List β) (hl : k.length = l.length) (d : α) (e : β)
    (f : α × β → Except String γ) :
    (l.zip k).mapM f = (List.range l.length).mapM fun i => f (l.getD i d, k.getD i e) := by
  have h : l.zip k = (List.range l.length).map fun i => (l.getD i d, k.getD i e) := by
    apply List.ext_getElem
    · simp [hl]
    · intro i h1 h2
      simp at h2
      simp [h2, hl]
  rw [h, List.mapM_map]
  rfl

theorem mapM_congr_mem {α β : Type} {f g : α → Except String β} :
    ∀ {l : List α}, (∀ x ∈ l, f x = g x) → l.mapM f = l.mapM g
  | [], _ => rfl
  | a :: l, h => by
    rw [List.mapM_cons, List.mapM_cons, h a (by simp), mapM_congr_mem fun x hx => h x (by simp [hx])]

theorem mapM_map_right {α β γ : Type} (f : α → Except String β) (g : β → γ) :
    ∀ l : List α, l.mapM (fun x => (f x).map g) = (l.mapM f).map (List.map g)
  | [] => rfl
  | a :: l => by
    rw [List.mapM_cons, List.mapM_cons, mapM_map_right f g l]
    cases f a with
    | error e => rfl
    | ok b =>
      cases l.mapM f with
      | error e => rfl
      | ok bs => rfl

theorem imagePositionsBatch_one (src L : Vec) (ns : List (List ℤ)) :
    imagePositionsBatch [src] L ns = [imagePositions src L ns] := by
  unfold imagePositionsBatch imagePositions
  simp only [List.map_cons, List.map_nil, List.cons.injEq, and_true]
  apply List.ext_getElem
  · simp
  · intro i h1 h2
    simp only [List.getElem_zipWith, List.getElem_map]
    congr 1
    apply List.ext_getElem
    · simp
    · intro j h3 h4
      simp

theorem repeated_lt {n i : ℕ} (h : i < n) : repeated n i = i := by
  unfold repeated
  split_ifs with h1
  · omega
  · rfl

theorem pathContribution_sample {img mic : Vec} {refl c fs : ℝ} {k : ℕ} {sp mp : String} {sd md : Vec} {r : ℝ × ℝ}
    (h : pathContribution img mic refl c fs k sp mp sd md = .ok r) :
    r.1 = (max (norm2 (vsub mic img)) (1e-6) / c + k / fs) * fs := by
  unfold pathContribution at h
  cases hs : deviceGain sp (vsub mic img) sd with
  | error e => simp only [hs] at h; cases h
  | ok gs =>
    cases hm : deviceGain mp (vneg (vsub mic img)) md with
    | error e => simp only [hs, hm] at h; cases h
    | ok gm =>
      simp only [hs, hm] at h
      cases h
      rfl

/-- The table of pairs that both functions compute. -/
noncomputable def pairTable (imgs mics : List Vec) (refl : List ℝ) (c fs : ℝ) (k : ℕ) (sp mp : String)
    (sd md : ℕ → ℕ → Vec) : Except String (List (List (ℝ × ℝ))) :=
  (List.range mics.length).mapM fun m => (List.range imgs.length).mapM fun i =>
    pathContribution (imgs.getD i []) (mics.getD m []) (refl.getD i 0) c fs k sp mp (sd m i) (md m i)

theorem batch_eq_pairTable (src : Vec) (mics : List Vec) (L : Vec) (ns : List (List ℤ)) (refl : List ℝ)
    (hr : refl.length = ns.length) (c fs : ℝ) (k : ℕ) (sp mp : String) (sd : Option Vec) (md : Option MicDir)
    (hs : sp ≠ "omni" → sd.isSome) (hm : mp ≠ "omni" → md.isSome) (w : ℕ → Vec)
    (hw : ∀ m < mics.length, micVec md mics.length m = .ok (w m)) :
    contributionsBatch [src] mics L ns refl c fs k sp mp (sd.map ([·])) md
      = (pairTable (imagePositions src L ns) mics refl c fs k sp mp (fun _ _ => sd.getD []) fun m _ => w m).map
          ([·]) := by
  unfold contributionsBatch
  have h1 : ¬ (sp ≠ "omni" ∧ (sd.map ([·] : Vec → List Vec)).isNone) := by
    rintro ⟨h, h'⟩
    have := hs h
    cases sd <;> simp_all
  have h2 : ¬ (mp ≠ "omni" ∧ md.isNone) := by
    rintro ⟨h, h'⟩
    have := hm h
    cases md <;> simp_all
  unfold raiseIf
  rw [if_neg h1, if_neg h2, imagePositionsBatch_one]
  have hsd : ((sd.map ([·] : Vec → List Vec)).getD []).getD 0 [] = sd.getD [] := by cases sd <;> rfl
  have e : (mics.zipIdx.mapM fun (x : Vec × ℕ) => do
      let md ← micVec md mics.length x.2
      ((imagePositions src L ns).zip refl).mapM fun (y : Vec × ℝ) =>
        pathContribution y.1 x.1 y.2 c fs k sp mp (sd.getD []) md)
      = pairTable (imagePositions src L ns) mics refl c fs k sp mp (fun _ _ => sd.getD []) fun m _ => w m := by
    rw [mapM_range_getD mics []]
    unfold pairTable
    refine mapM_congr_mem fun m hmem => ?_
    simp only [hw m (List.mem_range.mp hmem)]
    show ((imagePositions src L ns).zip refl).mapM _ = _
    rw [mapM_range_zip _ _ (by rw [hr]; simp [imagePositions]) [] 0]
  show (do
    let r ← mics.zipIdx.mapM fun (x : Vec × ℕ) => do
      let sd := ((sd.map ([·] : Vec → List Vec)).getD []).getD 0 []
      let md ← micVec md mics.length x.2
      ((imagePositions src L ns).zip refl).mapM fun (y : Vec × ℝ) =>
        pathContribution y.1 x.1 y.2 c fs k sp mp sd md
    return [r]) = _
  simp only [hsd]
  rw [e]
  cases pairTable (imagePositions src L ns) mics refl c fs k sp mp (fun _ _ => sd.getD []) fun m _ => w m <;> rfl

theorem pairTable_sample {imgs mics : List Vec} {refl : List ℝ} {c fs : ℝ} {k : ℕ} {sp mp : String}
    {sd md : ℕ → ℕ → Vec} {t : List (List (ℝ × ℝ))} (h : pairTable imgs mics refl c fs k sp mp sd md = .ok t) :
    t.map (·.map Prod.fst)
      = mics.map fun mic => imgs.map fun p => (max (norm2 (vsub mic p)) (1e-6) / c + k / fs) * fs := by
  obtain ⟨h1, h2⟩ := mapM_range_ok h
  apply List.ext_getElem
  · simp [h1]
  · intro m g1 g2
    simp only [List.length_map] at g1 g2
    obtain ⟨h3, h4⟩ := mapM_range_ok (h2 m g1)
    rw [List.getElem_map, List.getElem_map]
    apply List.ext_getElem
    · simp [h3]
    · intro i g3 g4
      simp only [List.length_map] at g3 g4
      have := pathContribution_sample (h4 i g3)
      rw [List.getElem_map, List.getElem_map, this]
      simp [g2, g4]

theorem one_eq_pairTable (src : Vec) (mics : List Vec) (L : Vec) (ns : List (List ℤ)) (refl : List ℝ)
    (hr : refl.length = ns.length) (c fs : ℝ) (k : ℕ) (sp mp : String) (sd md : Option DirTensor)
    (hs : sp ≠ "omni" → sd.isSome) (hm : mp ≠ "omni" → md.isSome)
    (b1 : ∃ x, broadcastSize mics.length (directionOf sp sd).dims.1 = .ok x ∧
      broadcastSize x (directionOf mp md).dims.1 = .ok mics.length)
    (b2 : ∃ x, broadcastSize ns.length (directionOf sp sd).dims.2 = .ok x ∧
      broadcastSize x (directionOf mp md).dims.2 = .ok ns.length) :
    contributionsOne src mics L ns refl c fs k sp mp sd md
      = (pairTable (imagePositions src L ns) mics refl c fs k sp mp (directionOf sp sd).get
          (directionOf mp md).get).map fun t => firstSource [t] := by
  obtain ⟨x, x1, x2⟩ := b1
  obtain ⟨y, y1, y2⟩ := b2
  have hlen : (imagePositions src L ns).length = ns.length := by simp [imagePositions]
  have h1 : ¬ (sp ≠ "omni" ∧ sd.isNone) := by
    rintro ⟨h, h'⟩
    have := hs h
    cases sd <;> simp_all
  have h2 : ¬ (mp ≠ "omni" ∧ md.isNone) := by
    rintro ⟨h, h'⟩
    have := hm h
    cases md <;> simp_all
  unfold contributionsOne raiseIf
  rw [if_neg h1, if_neg h2]
  simp only [ok_bind, hlen, x1, x2, y1, y2]
  have e : ((List.range mics.length).mapM fun m => (List.range ns.length).mapM fun i => do
      let r ← pathContribution ((imagePositions src L ns).getD (repeated ns.length i) [])
        (mics.getD (repeated mics.length m) []) (refl.getD (repeated refl.length i) 0) c fs k sp mp
        ((directionOf sp sd).get m i) ((directionOf mp md).get m i)
      return r.2)
      = (pairTable (imagePositions src L ns) mics refl c fs k sp mp (directionOf sp sd).get
          (directionOf mp md).get).map (List.map (List.map Prod.snd)) := by
    unfold pairTable
    rw [← mapM_map_right]
    refine mapM_congr_mem fun m hmem => ?_
    rw [← mapM_map_right, hlen]
    refine mapM_congr_mem fun i himem => ?_
    rw [repeated_lt (List.mem_range.mp hmem), repeated_lt (List.mem_range.mp himem),
      repeated_lt (hr ▸ List.mem_range.mp himem)]
    cases pathContribution ((imagePositions src L ns).getD i []) (mics.getD m []) (refl.getD i 0) c fs k sp mp
        ((directionOf sp sd).get m i) ((directionOf mp md).get m i) <;> rfl
  rw [e]
  cases ht : pairTable (imagePositions src L ns) mics refl c fs k sp mp (directionOf sp sd).get
      (directionOf mp md).get with
  | error e => rfl
  | ok t =>
    show Except.ok _ = Except.ok _
    rw [← pairTable_sample ht]
    rfl

theorem broadcastSize_one (n : ℕ) : broadcastSize n 1 = .ok n := by
  by_cases h : n = 1 <;> simp [broadcastSize, h]

theorem broadcastSize_self (n : ℕ) : broadcastSize n n = .ok n := if_pos rfl

theorem directionOf_one_dims (p : String) (v : Option Vec) : (directionOf p (v.map .one)).dims = (1, 1) := by
  unfold directionOf
  split_ifs
  · rfl
  · cases v <;> rfl

theorem deviceGain_omni (v d d' : Vec) : deviceGain "omni" v d = deviceGain "omni" v d' := by
  unfold deviceGain
  rw [if_pos rfl, if_pos rfl]

/-- Directions matter only to devices that are not omnidirectional. -/
theorem pairTable_congr {imgs mics : List Vec} {refl : List ℝ} {c fs : ℝ} {k : ℕ} {sp mp : String}
    {sd md sd' md' : ℕ → ℕ → Vec}
    (h1 : sp ≠ "omni" → ∀ m < mics.length, ∀ i < imgs.length, sd m i = sd' m i)
    (h2 : mp ≠ "omni" → ∀ m < mics.length, ∀ i < imgs.length, md m i = md' m i) :
    pairTable imgs mics refl c fs k sp mp sd md = pairTable imgs mics refl c fs k sp mp sd' md' := by
  unfold pairTable
  refine mapM_congr_mem fun m hm => mapM_congr_mem fun i hi => ?_
  rw [List.mem_range] at hm hi
  have g : ∀ (p : String) (v d d' : Vec), (p ≠ "omni" → d = d') → deviceGain p v d = deviceGain p v d' := by
    intro p v d d' h
    by_cases hp : p = "omni"
    · subst hp
      exact deviceGain_omni v d d'
    · rw [h hp]
  unfold pathContribution
  simp only [g sp _ _ _ fun h => h1 h m hm i hi, g mp _ _ _ fun h => h2 h m hm i hi]

theorem map_map_firstSource (r : Except String (List (List (ℝ × ℝ)))) :
    (r.map fun t => firstSource [t]) = (r.map ([·])).map firstSource := by cases r <;> rfl

theorem missing_iff {α : Type} (p : String) (o : Option α) :
    (p ≠ "omni" ∧ o.isNone) ↔ ¬ (p ≠ "omni" → o.isSome) := by
  cases o <;> simp

/-- **C106.** With one direction for the source and one for all microphones, or none, the function gives the delays
and attenuations of the batched one called with this source alone, and raises the same errors. -/
theorem C106_shared_partial (src : Vec) (mics : List Vec) (L : Vec) (ns : List (List ℤ)) (refl : List ℝ)
    (hr : refl.length = ns.length) (c fs : ℝ) (k : ℕ) (sp mp : String) (sd md : Option Vec) :
    contributionsOne src mics L ns refl c fs k sp mp (sd.map .one) (md.map .one)
      = (contributionsBatch [src] mics L ns refl c fs k sp mp (sd.map ([·])) (md.map .shared)).map firstSource := by
  by_cases hs : sp ≠ "omni" → sd.isSome
  · by_cases hm : mp ≠ "omni" → md.isSome
    · rw [batch_eq_pairTable src mics L ns refl hr c fs k sp mp sd (md.map .shared) hs
          (fun h => by simpa using hm h) (fun _ => md.getD []) (fun m _ => by cases md <;> rfl),
        one_eq_pairTable src mics L ns refl hr c fs k sp mp _ _ (fun h => by simpa using hs h)
          (fun h => by simpa using hm h)
          ⟨_, by rw [directionOf_one_dims]; exact broadcastSize_one _,
            by rw [directionOf_one_dims]; exact broadcastSize_one _⟩
          ⟨_, by rw [directionOf_one_dims]; exact broadcastSize_one _,
            by rw [directionOf_one_dims]; exact broadcastSize_one _⟩, ← map_map_firstSource]
      congr 1
      refine pairTable_congr (fun h m _ i _ => ?_) fun h m _ i _ => ?_
      · unfold directionOf
        rw [if_neg h]
        cases sd <;> rfl
      · unfold directionOf
        rw [if_neg h]
        cases md <;> rfl
    · have h1 : ¬ (sp ≠ "omni" ∧ sd.isNone) := by rwa [missing_iff, not_not]
      have h2 : mp ≠ "omni" ∧ md.isNone := (missing_iff mp md).mpr hm
      unfold contributionsOne contributionsBatch raiseIf
      simp only [Option.isNone_map]
      rw [if_neg h1, if_pos h2]
      rfl
  · have h1 : sp ≠ "omni" ∧ sd.isNone := (missing_iff sp sd).mpr hs
    unfold contributionsOne contributionsBatch raiseIf
    simp only [Option.isNone_map]
    rw [if_pos h1]
    rfl

/-- **C106.** A direction for each microphone is honoured as by the batched function if it is given as a tensor of
shape `(n_mic, 1, dim)`. -/
theorem C106_per_microphone_partial (src : Vec) (mics : List Vec) (L : Vec) (ns : List (List ℤ)) (refl : List ℝ)
    (hr : refl.length = ns.length) (c fs : ℝ) (k : ℕ) (sp mp : String) (sd : Option Vec) (dirs : List Vec)
    (hd : dirs.length = mics.length) (hne : mics ≠ []) :
    contributionsOne src mics L ns refl c fs k sp mp (sd.map .one) (some (.table (dirs.map ([·]))))
      = (contributionsBatch [src] mics L ns refl c fs k sp mp (sd.map ([·])) (some (.perMic dirs))).map
          firstSource := by
  have hpos : 0 < dirs.length := hd ▸ List.length_pos_iff.mpr hne
  obtain ⟨v, vs, rfl⟩ : ∃ v vs, dirs = v :: vs := by
    cases dirs with
    | nil => simp at hpos
    | cons v vs => exact ⟨v, vs, rfl⟩
  by_cases hs : sp ≠ "omni" → sd.isSome
  · have hdims : (directionOf mp (some (.table ((v :: vs).map ([·]))))).dims = (1, 1) ∨
        (directionOf mp (some (.table ((v :: vs).map ([·]))))).dims = (mics.length, 1) := by
      unfold directionOf
      split_ifs
      · exact .inl rfl
      · exact .inr (by rw [← hd]; simp [DirTensor.dims])
    rw [batch_eq_pairTable src mics L ns refl hr c fs k sp mp sd _ hs (fun _ => rfl) (fun m => (v :: vs).getD m [])
        (fun m _ => by simp only [micVec, micDirFor]; rw [if_pos hd]),
      one_eq_pairTable src mics L ns refl hr c fs k sp mp _ _ (fun h => by simpa using hs h) (fun _ => rfl)
        ⟨_, by rw [directionOf_one_dims]; exact broadcastSize_one _, by
          rcases hdims with h | h
          · rw [h]; exact broadcastSize_one _
          · rw [h]; exact broadcastSize_self _⟩
        ⟨_, by rw [directionOf_one_dims]; exact broadcastSize_one _, by
          rcases hdims with h | h <;> rw [h] <;> exact broadcastSize_one _⟩, ← map_map_firstSource]
    congr 1
    refine pairTable_congr (fun h m _ i _ => ?_) fun h m hm i _ => ?_
    · unfold directionOf
      rw [if_neg h]
      cases sd <;> rfl
    · unfold directionOf
      rw [if_neg h]
      have hm' : m < ((v :: vs).map ([·] : Vec → List Vec)).length := by rw [List.length_map, hd]; exact hm
      show ((((v :: vs).map ([·] : Vec → List Vec)).getD (repeated _ m) []).getD (repeated 1 i) []) = _
      rw [repeated_lt hm']
      have h0 : repeated 1 i = 0 := rfl
      rw [List.length_map] at hm'
      rw [h0]
      generalize v :: vs = l at hm'
      simp [hm']
  · have h1 : sp ≠ "omni" ∧ sd.isNone := (missing_iff sp sd).mpr hs
    unfold contributionsOne contributionsBatch raiseIf
    simp only [Option.isNone_map]
    rw [if_pos h1]
    rfl

/-- **C106 fails for directions of shape `(n_mic, dim)`.** Unless there are as many images as microphones, or only one
of them, the call raises although the batched function takes the same argument. -/
theorem C106_rows_rejected_fails (src : Vec) (mics : List Vec) (L : Vec) (ns : List (List ℤ)) (refl : List ℝ)
    (c fs : ℝ) (k : ℕ) (sp mp : String) (sd : Option Vec) (dirs : List Vec) (hp : mp ≠ "omni")
    (hd : dirs.length = mics.length) (h1 : mics.length ≠ 1) (h2 : ns.length ≠ 1) (h3 : ns.length ≠ mics.length) :
    ∃ e, contributionsOne src mics L ns refl c fs k sp mp (sd.map .one) (some (.rows dirs)) = .error e := by
  have hlen : (imagePositions src L ns).length = ns.length := by simp [imagePositions]
  have hm : (directionOf mp (some (.rows dirs))).dims = (1, mics.length) := by
    unfold directionOf
    rw [if_neg hp, ← hd]
    rfl
  have hb : broadcastSize ns.length mics.length = .error "RuntimeError: shapes cannot be broadcast" := by
    unfold broadcastSize
    rw [if_neg h3, if_neg h2, if_neg h1]
  unfold contributionsOne raiseIf
  simp only [hlen, hm, directionOf_one_dims, broadcastSize_one]
  have h0 : ¬ (mp ≠ "omni" ∧ (some (DirTensor.rows dirs)).isNone) := by simp
  rw [if_neg h0]
  split_ifs
  · exact ⟨_, rfl⟩
  · simp only [ok_bind, hb]
    exact ⟨_, rfl⟩

theorem norm2_first (x : ℝ) : norm2 [x, 0] = |x| := by
  unfold norm2 dot
  simp [Real.sqrt_mul_self_eq_abs]

theorem norm2_second (x : ℝ) : norm2 [0, x] = |x| := by
  unfold norm2 dot
  simp [Real.sqrt_mul_self_eq_abs]

/-- **C106 fails for directions of shape `(n_mic, dim)`.** Where such a call is accepted the directions go with the
images: two figure-of-eight microphones in front of a wall, the first one along the wall normal and the second one
across it. The batched function hears the reflection with the first microphone, this one does not. -/
theorem C106_rows_fails :
    contributionsBatch [[1, 2]] [[2, 2], [3, 2]] [4, 4] [[0, 0], [1, 0]] [1, 1] 1 1 0 "omni" "bidir" none
        (some (.perMic [[1, 0], [0, 1]]))
      = .ok [[[(1, -1), (5, 1 / 5)], [(2, 0), (4, 0)]]] ∧
    contributionsOne [1, 2] [[2, 2], [3, 2]] [4, 4] [[0, 0], [1, 0]] [1, 1] 1 1 0 "omni" "bidir" none
        (some (.rows [[1, 0], [0, 1]]))
      = .ok ([[1, 5], [2, 4]], [[-1, 0], [-(1 / 2), 0]]) := by
  have g : ∀ x r : ℝ, x ≠ 0 → (1e-6 : ℝ) ≤ |x| → ∀ a b : Vec, vsub a b = [x, 0] →
      pathContribution b a r 1 1 0 "omni" "bidir" [] [1, 0] = .ok (|x|, r * (-(x / |x|)) / |x|) ∧
      pathContribution b a r 1 1 0 "omni" "bidir" [] [0, 1] = .ok (|x|, 0) := by
    intro x r hx hx' a b hab
    have hn : norm2 [x, 0] = |x| := norm2_first x
    have hg : ∀ c, directivityGain "bidir" c = .ok c := fun c => by
      have : "bidir".toLower = "bidir" := by
        apply String.toList_inj.mp
        simp [String.toLower, String.toList_map]
      have h := directivityGain_of_name .bidirectional "bidir" (by rw [this]; decide) c
      simpa [Pattern.gain] using h
    have hg' : ∀ c, gainAt "bidir" (some c) = .ok c := hg
    have ho : ("bidir" : String) ≠ "omni" := by decide
    have hv : vneg [x, 0] = [-x, 0] := by simp [vneg]
    have hn' : norm2 [-x, 0] = |x| := by rw [norm2_first, abs_neg]
    have m1 : max (1 : ℝ) (1e-8) = 1 := by norm_num
    unfold pathContribution deviceGain cosBetween normalizeVec
    rw [hab]
    simp only [if_true, hv, hn, hn', norm2_first, norm2_second, abs_one, m1, max_eq_left hx', abs_eq_zero, hx]
    constructor
    · norm_num [dot, ok_bind, ho, hg']
      ring
    · norm_num [dot, ok_bind, ho, hg']
  have i1 : imagePositions [1, 2] [4, 4] [[0, 0], [1, 0]] = [[1, 2], [7, 2]] := by
    norm_num [imagePositions, imageBase, imageSign]
  have v1 : vsub [2, 2] [1, 2] = [1, 0] := by norm_num [vsub]
  have v2 : vsub [2, 2] [7, 2] = [-5, 0] := by norm_num [vsub]
  have v3 : vsub [3, 2] [1, 2] = [2, 0] := by norm_num [vsub]
  have v4 : vsub [3, 2] [7, 2] = [-4, 0] := by norm_num [vsub]
  obtain ⟨a1, b1⟩ := g 1 1 one_ne_zero (by norm_num) _ _ v1
  obtain ⟨a2, b2⟩ := g (-5) 1 (by norm_num) (by norm_num) _ _ v2
  obtain ⟨a3, b3⟩ := g 2 1 (by norm_num) (by norm_num) _ _ v3
  obtain ⟨a4, b4⟩ := g (-4) 1 (by norm_num) (by norm_num) _ _ v4
  constructor
  · unfold contributionsBatch raiseIf
    rw [if_neg (by simp), if_neg (by simp), imagePositionsBatch_one, i1]
    simp [micVec, micDirFor, List.zipIdx, List.mapM_cons, ok_bind, a1, a2, b3, b4]
  · unfold contributionsOne raiseIf
    rw [if_neg (by simp), if_neg (by simp), i1]
    simp [directionOf, DirTensor.dims, DirTensor.get, broadcastSize, repeated, List.range_succ, ok_bind, a1, b2, a3, b4]
    rw [v1, v2, v3, v4]
    simp only [norm2_first]
    norm_num

/-- The table of shape `(n_mic, 1, dim)` gives what the batched function gives in the case above. -/
example : contributionsOne [1, 2] [[2, 2], [3, 2]] [4, 4] [[0, 0], [1, 0]] [1, 1] 1 1 0 "omni" "bidir" none
      (some (.table [[[1, 0]], [[0, 1]]]))
    = .ok ([[1, 5], [2, 4]], [[-1, 1 / 5], [0, 0]]) := by
  have h := C106_per_microphone_partial [1, 2] [[2, 2], [3, 2]] [4, 4] [[0, 0], [1, 0]] [1, 1] rfl 1 1 0 "omni" "bidir" none
    [[1, 0], [0, 1]] rfl (by simp)
  refine h.trans ?_
  rw [show Option.map (fun x : Vec => [x]) none = none from rfl, C106_rows_fails.1]
  rfl

/-- One direction for both microphones. -/
example : contributionsOne [1, 2] [[2, 2], [3, 2]] [4, 4] [[0, 0], [1, 0]] [1, 1] 1 1 0 "omni" "bidir" none
      (some (.one [1, 0]))
    = (contributionsBatch [[1, 2]] [[2, 2], [3, 2]] [4, 4] [[0, 0], [1, 0]] [1, 1] 1 1 0 "omni" "bidir" none
        (some (.shared [1, 0]))).map firstSource :=
  C106_shared_partial [1, 2] [[2, 2], [3, 2]] [4, 4] [[0, 0], [1, 0]] [1, 1] rfl 1 1 0 "omni" "bidir" none
    (some [1, 0])

/-- Two microphones and three images. -/
example : ∃ e, contributionsOne [1, 2] [[2, 2], [3, 2]] [4, 4] [[0, 0], [1, 0], [-1, 0]] [1, 1, 1] 1 1 0 "omni"
    "bidir" none (some (.rows [[1, 0], [0, 1]])) = .error e :=
  C106_rows_rejected_fails [1, 2] [[2, 2], [3, 2]] [4, 4] [[0, 0], [1, 0], [-1, 0]] [1, 1, 1] 1 1 0 "omni" "bidir" none
    [[1, 0], [0, 1]] (by decide) rfl (by decide) (by decide) (by decide)

end Torchrir.Props
