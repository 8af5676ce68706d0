import Verif.Props.Sources
import Verif.Props.Repair
import Verif.Props.Reuse

/-! # Exact descriptions for loading and repairing: C50, C53 -/

namespace Torchrir.Props

open Torchrir.Model Torchrir.Lemmas

/-! ## C53 -/

theorem trunc_neg {x : ℝ} (h : x ≤ 0) : trunc x = -(⌊-x⌋₊ : ℤ) := by
  unfold trunc
  rw [Int.natCast_floor_eq_floor (by linarith), Int.floor_neg, neg_neg]
  split_ifs with h0
  · have : x = 0 := le_antisymm h h0
    simp [this]
  · rfl

/-- A loop that knows a target that is not positive loads nothing. -/
theorem gatherLoop_idle {ι : Type} (shuffle : ℕ → List ι → List ι)
    (load : RateState → ι → Except String (List ℝ × RateState)) (fuel fs : ℕ) (t : ℤ) (ht : t ≤ 0) (s : Gather ι) :
    gatherLoop shuffle wants load fuel (some (fs, t)) s = some (.ok (some (fs, t), s)) := by
  have hw : wants (some (fs, t)) s.total = false := by
    simp only [wants, decide_eq_false_iff_not, not_lt]
    omega
  cases fuel <;> (unfold gatherLoop; rw [hw]; rfl)

/-- A speaker after the first cannot be loaded if the target is not positive. -/
theorem loadSpeaker_idle {ι : Type} (shuffle : ℕ → List ι → List ι) (duration : ℝ) (fuel : ℕ) (d : SpeakerData ι)
    (fs : ℕ) (t : ℤ) (ht : t ≤ 0) (k : ℕ) (q) :
    loadSpeaker shuffle duration fuel d (some (fs, t)) k ≠ some (.ok q) := by
  unfold loadSpeaker
  split_ifs
  · simp
  · rw [gatherLoop_idle shuffle _ fuel fs t ht]
    simp [catSlice, Except.map]

/-- The first speaker, with a negative duration. -/
theorem loadSpeaker_negative {ι : Type} {shuffle : ℕ → List ι → List ι} (hsh : Shuffles shuffle) {duration : ℝ}
    (hdur : duration < 0) {fuel : ℕ} {d : SpeakerData ι} {k : ℕ} {row : List ℝ} {ids : List ι} {r' : RateState} {k' : ℕ}
    (h : loadSpeaker shuffle duration fuel d none k = some (.ok (row, ids, r', k'))) :
    ∃ u a fs, u ∈ d.sentences ∧ d.audio u = .ok (a, fs) ∧ ids = [u] ∧ r' = some (fs, trunc (duration * fs)) ∧
      row = sliceTo (trunc (duration * fs)) a := by
  unfold loadSpeaker at h
  split_ifs at h with hs
  · cases h
  obtain ⟨out, hout, h⟩ := Option.map_eq_some_iff.mp h
  cases fuel with
  | zero =>
    unfold gatherLoop at hout
    simp [wants] at hout
  | succ fuel =>
    unfold gatherLoop at hout
    rw [if_pos (show wants none _ = true from rfl)] at hout
    cases hu : (Gather.refill shuffle ⟨shuffle k d.sentences, 0, k + 1, [], [], 0⟩).order[(Gather.refill shuffle
        ⟨shuffle k d.sentences, 0, k + 1, [], [], 0⟩).idx]? with
    | none =>
      rw [hu] at hout
      cases hout
      cases h
    | some u =>
      rw [hu] at hout
      dsimp only at hout
      have hmem : u ∈ d.sentences :=
        (hsh k _).mem_iff.mp ((refill_mem hsh ⟨shuffle k d.sentences, 0, k + 1, [], [], 0⟩).mp (List.mem_of_getElem? hu))
      cases ha : d.audio u with
      | error e =>
        simp only [loadChecked, ha] at hout
        cases hout
        cases h
      | ok ar =>
        obtain ⟨a, fs⟩ := ar
        simp only [loadChecked, ha] at hout
        have ht : trunc (duration * fs) ≤ 0 := by
          rw [trunc_neg (mul_nonpos_of_nonpos_of_nonneg hdur.le (Nat.cast_nonneg _))]
          omega
        rw [gatherLoop_idle shuffle _ fuel fs _ ht] at hout
        cases hout
        simp only [List.nil_append, catSlice, List.flatten_cons, List.flatten_nil, List.append_nil] at h
        rw [if_neg (by simp)] at h
        cases h
        exact ⟨u, a, fs, hmem, ha, rfl, rfl, rfl⟩

/-- **C53 for negative durations.** They are never rejected as such. If the call returns, one source was asked for; a
single utterance is loaded, and as many samples as `int(-duration * fs)` are cut off its end (all of them if that
number is zero). -/
theorem C53_negative_exactly {ι σ : Type} (sample : List σ → ℕ → List σ) (hsample : Samples sample)
    (shuffle : ℕ → List ι → List ι) (hsh : Shuffles shuffle) (speakers : List σ)
    (data : σ → SpeakerData ι) (numSources : ℤ) (duration : ℝ) (hdur : duration < 0) (fuel : ℕ)
    (rows : List (List ℝ)) (fs : ℕ) (info : List (σ × List ι))
    (h : loadDatasetSources sample shuffle speakers data numSources duration fuel =
      some (.ok (rows, fs, info))) :
    numSources = 1 ∧ ∃ speaker ∈ speakers, ∃ u ∈ (data speaker).sentences, ∃ a, (data speaker).audio u = .ok (a, fs) ∧
      info = [(speaker, [u])] ∧
      rows = [if ⌊-duration * fs⌋₊ = 0 then [] else a.take (a.length - ⌊-duration * fs⌋₊)] := by
  unfold loadDatasetSources chooseSpeakers at h
  split_ifs at h with hne hlt hneg
  · cases h
  · cases h
  · cases h
  dsimp only at h
  obtain ⟨h1, h2⟩ := hsample speakers numSources.toNat (by omega)
  obtain ⟨out, hout, h⟩ := Option.map_eq_some_iff.mp h
  cases out with
  | error e => cases h
  | ok q =>
    obtain ⟨rows', info', r⟩ := q
    dsimp only at h
    cases hc : sample speakers numSources.toNat with
    | nil =>
      rw [hc] at hout
      unfold loadSpeakers at hout
      cases hout
      cases h
    | cons spk rest =>
      rw [hc] at hout h1 h2
      unfold loadSpeakers at hout
      cases hl : loadSpeaker shuffle duration fuel (data spk) none 0 with
      | none => rw [hl] at hout; cases hout
      | some out =>
        cases out with
        | error e => rw [hl] at hout; cases hout
        | ok q =>
          obtain ⟨row, ids, r', k'⟩ := q
          rw [hl] at hout
          dsimp only at hout
          obtain ⟨u, a, fs', hu, ha, rfl, rfl, rfl⟩ := loadSpeaker_negative hsh hdur hl
          have ht : trunc (duration * fs') ≤ 0 := by
            rw [trunc_neg (mul_nonpos_of_nonpos_of_nonneg hdur.le (Nat.cast_nonneg _))]
            omega
          cases rest with
          | cons spk' rest' =>
            exfalso
            unfold loadSpeakers at hout
            cases hl' : loadSpeaker shuffle duration fuel (data spk') (some (fs', trunc (duration * fs'))) k' with
            | none => rw [hl'] at hout; cases hout
            | some out =>
              cases out with
              | error e => rw [hl'] at hout; cases hout
              | ok q => exact loadSpeaker_idle shuffle duration fuel _ _ _ ht _ _ hl'
          | nil =>
            unfold loadSpeakers at hout
            cases hout
            simp only [stackRows] at h
            rw [if_neg (by simp)] at h
            cases h
            refine ⟨?_, spk, h2.subset List.mem_cons_self, u, hu, a, ha, rfl, ?_⟩
            · simp only [List.length_cons, List.length_nil] at h1
              omega
            · congr 1
              rw [trunc_neg (mul_nonpos_of_nonpos_of_nonneg hdur.le (Nat.cast_nonneg _)), ← neg_mul]
              unfold sliceTo
              split_ifs with g1 g2 g2
              · rw [g2]; simp
              · omega
              · omega
              · simp

/-- Minus a tenth of a second at 10 Hz: one sample is missing. -/
example (rows : List (List ℝ)) (fs : ℕ) (info : List (Unit × List Unit))
    (h : loadDatasetSources (fun l n => l.take n) (fun _ l => l) [()] tinyData 1 (-1 / 10) 1 = some (.ok (rows, fs, info))) :
    rows = [[1, 2]] := by
  obtain ⟨-, s, -, u, -, a, ha, -, hr⟩ := C53_negative_exactly _ samples_take _ shuffles_id _ _ _ _ (by norm_num) _ _ _ _ h
  have ha : Except.ok ([1, 2, 3], 10) = Except.ok (ε := String) (a, fs) := ha
  cases ha
  rw [hr]
  norm_num

/-! ## C50 -/

/-- **C50 exactly.** After any crashes, with the archive on the disk and a working network, the next construction
succeeds; the dataset is complete afterwards exactly if its directory was missing or it was complete before. -/
theorem C50_exactly (L : Layout) (ms : List Member) (b : Bytes)
    (untar : Bytes → Except Exc (List Member)) (hu : untar b = .ok ms) (hg : GoodArchive L ms)
    (d0 : Disk) (h0 : Tidy L ms b d0) (d : Disk)
    (hd : Restarted untar L (Serves fun x => x = b) d0 d) (net : Network) (hnet : Works b net) (n : ℕ)
    (harch : pathExists (L.base ++ [L.name]) ⟨d, n⟩ = true)
    (hds : d L.dataset = none ∨ pathExists L.dataset ⟨d, n⟩ = true) :
    (constructDataset untar net L ⟨d, n⟩).result = .ok () ∧
      (Extracted L ms (constructDataset untar net L ⟨d, n⟩).last.disk ↔ d L.dataset = none ∨ Extracted L ms d) := by
  rcases hds with h | h
  · obtain ⟨h1, h2⟩ := C50_repair_partial L ms b untar hu hg d0 h0 d hd h net hnet n
    exact ⟨h1, iff_of_true h2 (Or.inl h)⟩
  · obtain ⟨h1, h2, -⟩ := C87_present_untouched untar net L hg.base ⟨d, n⟩ harch h
    refine ⟨h1, ?_⟩
    rw [h2]
    have : d L.dataset ≠ none := by
      intro e
      obtain ⟨x, hx, hpre, -⟩ := hg.dataset
      have hpl : Plain L.dataset := Plain.of_prefix hpre (plain_member hg hx)
      unfold pathExists nodeAt at h
      cases hl : lookup d [] L.dataset with
      | none => simp [hl] at h
      | some q =>
        obtain rfl := lookup_resolve hl
        simp [hl, resolve_plain hpl, e] at h
    simp [this]

/-- After the process was killed between the two files, the next construction succeeds and the dataset stays
incomplete. -/
example : ∃ d, Seen (constructDataset (fun _ => .ok bdlArchive) bdlNet (cmuLayout ["data"] "bdl") ⟨dataDisk, 0⟩) d ∧
    (constructDataset (fun _ => .ok bdlArchive) bdlNet (cmuLayout ["data"] "bdl") ⟨d, 0⟩).result = .ok () ∧
    ¬ Extracted (cmuLayout ["data"] "bdl") bdlArchive
      (constructDataset (fun _ => .ok bdlArchive) bdlNet (cmuLayout ["data"] "bdl") ⟨d, 0⟩).last.disk := by
  have hseen : Seen (constructDataset (fun _ => .ok bdlArchive) bdlNet (cmuLayout ["data"] "bdl") ⟨dataDisk, 0⟩) _ :=
    Or.inl ⟨(constructDataset (fun _ => .ok bdlArchive) bdlNet (cmuLayout ["data"] "bdl")
      ⟨dataDisk, 0⟩).trace[7]'(by decide), List.getElem_mem _, rfl⟩
  obtain ⟨h1, h2⟩ := C50_exactly _ bdlArchive [7] (fun _ => .ok bdlArchive) rfl bdl_good dataDisk bdl_tidy _
    (.again _ _ bdlNet 0 .start (fun k r h => by
      cases Except.ok.inj h
      exact ⟨⟨rfl, by decide⟩, rfl⟩) hseen) bdlNet bdl_works 0 (by decide) (Or.inr (by decide))
  refine ⟨_, hseen, h1, ?_⟩
  rw [h2]
  rintro (h | h)
  · revert h
    decide
  · have := (h ⟨false, ["cmu_us_bdl_arctic", "b.wav"], .regular [2]⟩ (by simp [bdlArchive])).2.1 [2] rfl
    revert this
    decide

end Torchrir.Props
