import Verif.Props.Termination

/-!
# When loading the sources succeeds
-/

namespace Torchrir.Props

open Torchrir.Model Torchrir.Lemmas

/-- A loop over sentences that can all be loaded does not raise. -/
theorem gatherLoop_no_error {ι ρ : Type} {shuffle : ℕ → List ι → List ι} (hsh : Shuffles shuffle) {go : ρ → ℕ → Bool}
    {load : ρ → ι → Except String (List ℝ × ρ)} (sentences : List ι) (K : ρ → Prop)
    (hload : ∀ r u, K r → u ∈ sentences → ∃ a r', load r u = .ok (a, r') ∧ K r') :
    ∀ (fuel : ℕ) (r : ρ) (s : Gather ι) (e : String), K r → s.order ≠ [] → (∀ u ∈ s.order, u ∈ sentences) →
      gatherLoop shuffle go load fuel r s ≠ some (.error e)
  | 0, r, s, e, hK, hne, hmem => by
    unfold gatherLoop
    split_ifs <;> simp
  | fuel + 1, r, s, e, hK, hne, hmem => by
    unfold gatherLoop
    split_ifs with hg
    · have hlen : (s.refill shuffle).order.length = s.order.length := by
        unfold Gather.refill
        split_ifs
        · exact (hsh _ _).length_eq
        · rfl
      have hpos := List.length_pos_of_ne_nil hne
      have hidx : (s.refill shuffle).idx < (s.refill shuffle).order.length := by
        rw [hlen]
        unfold Gather.refill
        split_ifs with h
        · exact hpos
        · omega
      rw [List.getElem?_eq_getElem hidx]
      dsimp only
      obtain ⟨a, r', hl, hK'⟩ := hload r _ hK (hmem _ ((refill_mem hsh s).mp (List.getElem_mem hidx)))
      rw [hl]
      refine gatherLoop_no_error hsh sentences K hload fuel r' _ e hK' ?_ fun u hu => hmem u ((refill_mem hsh s).mp hu)
      intro h
      have h : (s.refill shuffle).order = [] := h
      rw [h] at hidx
      simp at hidx
    · simp

/-- What is known about the sampling rate is that of the dataset. -/
def RateIs (fs : ℕ) (duration : ℝ) (r : RateState) : Prop := ∀ x, r = some x → x = (fs, trunc (duration * fs))

theorem loadChecked_ok {ι : Type} {d : SpeakerData ι} {fs : ℕ} {duration : ℝ}
    (h : ∀ u ∈ d.sentences, ∃ a, d.audio u = .ok (a, fs)) (r : RateState) (u : ι) (hr : RateIs fs duration r)
    (hu : u ∈ d.sentences) : ∃ a r', loadChecked d duration r u = .ok (a, r') ∧ RateIs fs duration r' := by
  obtain ⟨a, ha⟩ := h u hu
  unfold loadChecked
  rw [ha]
  dsimp only
  rcases r with _ | ⟨fs', t⟩
  · exact ⟨a, _, rfl, fun x hx => (Option.some.inj hx).symm⟩
  · have e := hr _ rfl
    obtain ⟨rfl, rfl⟩ := Prod.mk.inj e
    dsimp only
    rw [if_neg (by simp)]
    exact ⟨a, _, rfl, hr⟩

theorem loadSpeaker_no_error {ι : Type} {shuffle : ℕ → List ι → List ι} (hsh : Shuffles shuffle) {d : SpeakerData ι}
    {fs : ℕ} {duration : ℝ} (h : ∀ u ∈ d.sentences, ∃ a, d.audio u = .ok (a, fs)) (hs : d.sentences ≠ [])
    (hdur : 1 ≤ duration * fs) (fuel : ℕ) (r : RateState) (k : ℕ) (hr : RateIs fs duration r) :
    (∀ e, loadSpeaker shuffle duration fuel d r k ≠ some (.error e)) ∧
    ∀ row ids r' k', loadSpeaker shuffle duration fuel d r k = some (.ok (row, ids, r', k')) →
      r' = some (fs, trunc (duration * fs)) := by
  have htr : 0 < trunc (duration * fs) := by
    unfold trunc
    rw [if_pos (by linarith)]
    exact Int.floor_pos.mpr hdur
  have hinit : (⟨shuffle k d.sentences, 0, k + 1, [], [], 0⟩ : Gather ι).order ≠ [] := fun e =>
    hs (List.eq_nil_of_length_eq_zero (by rw [← (hsh k d.sentences).length_eq]; simpa using e))
  have hmem : ∀ u ∈ (⟨shuffle k d.sentences, 0, k + 1, [], [], 0⟩ : Gather ι).order, u ∈ d.sentences :=
    fun u hu => (hsh _ _).mem_iff.mp hu
  have hend : ∀ r' s', gatherLoop shuffle wants (loadChecked d duration) fuel r
      ⟨shuffle k d.sentences, 0, k + 1, [], [], 0⟩ = some (.ok (r', s')) →
      r' = some (fs, trunc (duration * fs)) ∧ s'.chunks ≠ [] := by
    intro r' s' hg
    obtain ⟨⟨h1, -, h2⟩, h3⟩ := gatherLoop_inv (fun r s => RateIs fs duration r ∧ (∀ u ∈ s.order, u ∈ d.sentences) ∧
      s.total = s.chunks.flatten.length)
      (by
        rintro r s u a r' ⟨h1, h2, h3⟩ - hu hl
        obtain ⟨a', r'', hl', hr'⟩ := loadChecked_ok h r u h1 (h2 u ((refill_mem hsh s).mp hu))
        rw [hl] at hl'
        cases hl'
        refine ⟨hr', fun v hv => h2 v ((refill_mem hsh s).mp hv), ?_⟩
        dsimp only
        rw [h3]
        simp) fuel r _ r' s' ⟨hr, hmem, rfl⟩ hg
    rcases r' with _ | x
    · cases h3
    · obtain rfl := h1 x rfl
      refine ⟨rfl, fun e => ?_⟩
      rw [e] at h2
      rw [h2] at h3
      simp [wants] at h3
      omega
  unfold loadSpeaker
  rw [if_neg hs]
  cases hg : gatherLoop shuffle wants (loadChecked d duration) fuel r ⟨shuffle k d.sentences, 0, k + 1, [], [], 0⟩ with
  | none => exact ⟨by simp, by simp⟩
  | some out =>
    cases out with
    | error e =>
      exact absurd hg (gatherLoop_no_error hsh d.sentences _ (fun r u => loadChecked_ok h r u) fuel r _ e hr hinit hmem)
    | ok rs =>
      obtain ⟨r', s'⟩ := rs
      obtain ⟨rfl, hc⟩ := hend r' s' hg
      have hcat : catSlice (some (fs, trunc (duration * fs))) s'.chunks
          = .ok (sliceTo (trunc (duration * fs)) s'.chunks.flatten) := by
        unfold catSlice
        rw [if_neg hc]
      simp only [Option.map_some, hcat, Except.map]
      refine ⟨fun e he => by simp at he, fun row ids r' k' he => ?_⟩
      have := Except.ok.inj (Option.some.inj he)
      simp only [Prod.mk.injEq] at this
      exact this.2.2.1.symm

theorem loadSpeakers_no_error {ι σ : Type} {shuffle : ℕ → List ι → List ι} (hsh : Shuffles shuffle)
    {data : σ → SpeakerData ι} {fs : ℕ} {duration : ℝ} (hdur : 1 ≤ duration * fs) (fuel : ℕ) :
    ∀ (speakers : List σ) (r : RateState) (k : ℕ), RateIs fs duration r →
      (∀ s ∈ speakers, (data s).sentences ≠ [] ∧ ∀ u ∈ (data s).sentences, ∃ a, (data s).audio u = .ok (a, fs)) →
      (∀ e, loadSpeakers shuffle duration fuel data speakers r k ≠ some (.error e)) ∧
      ∀ rows info r', loadSpeakers shuffle duration fuel data speakers r k = some (.ok (rows, info, r')) →
        RateIs fs duration r' ∧ (speakers ≠ [] → r' ≠ none)
  | [], r, k, hr, _ => by
    unfold loadSpeakers
    refine ⟨by simp, fun rows info r' h => ?_⟩
    cases h
    exact ⟨hr, fun h => absurd rfl h⟩
  | s :: rest, r, k, hr, hd => by
    obtain ⟨h1, h2⟩ := loadSpeaker_no_error hsh (hd s (List.mem_cons_self ..)).2 (hd s (List.mem_cons_self ..)).1 hdur fuel r
      k hr
    unfold loadSpeakers
    cases hl : loadSpeaker shuffle duration fuel (data s) r k with
    | none => exact ⟨by simp, by simp⟩
    | some out =>
      cases out with
      | error e => exact absurd hl (h1 e)
      | ok q =>
        obtain ⟨row, ids, r', k'⟩ := q
        obtain rfl := h2 row ids r' k' hl
        have hr' : RateIs fs duration (some (fs, trunc (duration * fs))) := fun x hx => (Option.some.inj hx).symm
        obtain ⟨b1, b2⟩ := loadSpeakers_no_error hsh hdur fuel rest _ k' hr' fun t ht => hd t (List.mem_cons_of_mem _ ht)
        dsimp only
        cases hrest : loadSpeakers shuffle duration fuel data rest (some (fs, trunc (duration * fs))) k' with
        | none => exact ⟨by simp, by simp⟩
        | some out =>
          cases out with
          | error e => exact absurd hrest (b1 e)
          | ok q =>
            obtain ⟨rows, info, r''⟩ := q
            obtain ⟨c1, c2⟩ := b2 rows info r'' hrest
            refine ⟨by simp, fun rows' info' r1 h => ?_⟩
            cases h
            refine ⟨c1, fun _ he => ?_⟩
            subst he
            have hsp := (loadSpeakers_spec hsh rest _ k' rows info none
              (fun fs' t h => by cases h; rfl) hrest).2.1 _ rfl
            cases hsp

/-- **C53, success.** If between one and all of the speakers are requested, every speaker has sentences, at least one of
them with sound, all of them load with the same sampling rate, and at least one sample is asked for, then
`load_dataset_sources` returns. -/
theorem C53_succeeds {ι σ : Type} (sample : List σ → ℕ → List σ) (hsample : Samples sample)
    (shuffle : ℕ → List ι → List ι) (hsh : Shuffles shuffle) (speakers : List σ) (data : σ → SpeakerData ι)
    (numSources : ℕ) (h1 : 1 ≤ numSources) (hle : numSources ≤ speakers.length) (duration : ℝ) (fs : ℕ)
    (hdur : 1 ≤ duration * fs)
    (hd : ∀ s ∈ speakers, (∀ u ∈ (data s).sentences, ∃ a, (data s).audio u = .ok (a, fs)) ∧
      ∃ u ∈ (data s).sentences, ∃ a, (data s).audio u = .ok (a, fs) ∧ a ≠ []) :
    ∃ fuel rows info, loadDatasetSources sample shuffle speakers data numSources duration fuel
      = some (.ok (rows, fs, info)) := by
  have hne : speakers ≠ [] := fun e => by
    rw [e] at hle
    simp at hle
    omega
  have hsound : ∀ s ∈ speakers, HasSound (data s).sentences (data s).audio Prod.fst := fun s hs => by
    obtain ⟨u, hu, a, ha, hne⟩ := (hd s hs).2
    refine .inr ⟨u, hu, fun b hb => ?_⟩
    rw [ha] at hb
    cases hb
    exact hne
  obtain ⟨hlen, hsub⟩ := hsample speakers numSources hle
  obtain ⟨F, x, hx⟩ := loadSpeakers_terminates hsh duration data (sample speakers numSources) none 0
    fun s hs => hsound s (hsub.subset hs)
  have hx := hx F le_rfl
  dsimp only at hx
  have hr : RateIs fs duration none := fun x hx => by cases hx
  have hsent : ∀ s ∈ speakers, (data s).sentences ≠ [] := fun s hs e => by
    obtain ⟨u, hu, -⟩ := (hd s hs).2
    rw [e] at hu
    cases hu
  obtain ⟨b1, b2⟩ := loadSpeakers_no_error hsh hdur F (sample speakers numSources) none 0 hr
    fun s hs => ⟨hsent s (hsub.subset hs), (hd s (hsub.subset hs)).1⟩
  have hchosen : sample speakers numSources ≠ [] := fun e => by
    rw [e] at hlen
    simp at hlen
    omega
  cases x with
  | error e => exact absurd hx (b1 e)
  | ok q =>
    obtain ⟨rows, info, r⟩ := q
    obtain ⟨c1, c2⟩ := b2 rows info r hx
    have c2 := c2 hchosen
    rcases r with _ | q
    · exact absurd rfl c2
    obtain rfl := c1 q rfl
    have htr : 0 ≤ trunc (duration * fs) := by
      unfold trunc
      rw [if_pos (by linarith)]
      exact Int.floor_nonneg.mpr (by linarith)
    obtain ⟨-, -, -, hl, hspec⟩ := loadSpeakers_spec hsh (sample speakers numSources) none 0 rows info _
      (fun _ _ h => by cases h) hx
    have hspec := hspec fs _ rfl htr
    have hrow : ∀ row ∈ rows, row.length = (trunc (duration * fs)).toNat := fun row hrow => by
      obtain ⟨i, hi, rfl⟩ := List.getElem_of_mem hrow
      exact ((List.forall₂_iff_get.mp hspec).2 i hi (by rw [← hspec.length_eq]; exact hi)).1.1
    refine ⟨F, rows, info, ?_⟩
    unfold loadDatasetSources chooseSpeakers
    rw [if_neg hne, if_neg (by omega), if_neg (by omega)]
    dsimp only
    rw [Int.toNat_natCast, hx]
    dsimp only [Option.map]
    cases rows with
    | nil =>
      rw [hlen] at hl
      simp at hl
      omega
    | cons row rest =>
      unfold stackRows
      dsimp only
      rw [if_neg]
      rintro ⟨y, hy, hne⟩
      exact hne (by rw [hrow y hy, hrow row (List.mem_cons_self ..)])

/-- Two of three speakers with a short and a long utterance, half a second each. -/
example : ∃ fuel rows info, loadDatasetSources (fun l n => l.take n) (fun _ l => l.reverse) ["aew", "bdl", "slt"]
    (fun _ => ⟨[0, 1], fun u : ℕ => .ok (List.replicate (3000 * u) 1, 16000)⟩) (2 : ℕ) 0.5 fuel
      = some (.ok (rows, 16000, info)) :=
  C53_succeeds _ samples_take _ (fun _ l => l.reverse_perm) _ _ 2 (by norm_num) (by simp) _ _ (by norm_num)
    fun s _ => ⟨fun u _ => ⟨_, rfl⟩, 1, by simp, _, rfl, fun h => by
      have := congrArg List.length h
      rw [List.length_replicate] at this
      cases this⟩

end Torchrir.Props
