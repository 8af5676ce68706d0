import Verif.Model.Sources
import Verif.Lemmas.Lists
import Mathlib.Data.List.Forall2
import Mathlib.Data.List.Perm.Subperm
import Mathlib.Tactic.Linarith
import Mathlib.Tactic.Ring

/-! # Fixed-length sources: C53 and C54 -/

namespace Torchrir.Props

open Torchrir.Model

/-- Every call of `shuffle` permutes its argument. -/
def Shuffles {ι : Type} (shuffle : ℕ → List ι → List ι) : Prop := ∀ k l, (shuffle k l).Perm l

/-- `sample` picks the requested number of elements, none twice. -/
def Samples {σ : Type} (sample : List σ → ℕ → List σ) : Prop :=
  ∀ l n, n ≤ l.length → (sample l n).length = n ∧ (sample l n).Subperm l

/-- `row` is the beginning, of the given length, of the concatenated audio of the utterances `ids`, all
of which are sentences of the speaker with sampling rate `fs`. -/
def IsSource {ι : Type} (d : SpeakerData ι) (fs n : ℕ) (row : List ℝ) (ids : List ι) : Prop :=
  row.length = n ∧ (∀ u ∈ ids, u ∈ d.sentences) ∧
    ∃ audio : List (List ℝ), List.Forall₂ (fun u a => d.audio u = .ok (a, fs)) ids audio ∧
      row = audio.flatten.take n

theorem refill_mem {ι : Type} {shuffle : ℕ → List ι → List ι} (hsh : Shuffles shuffle) (s : Gather ι)
    {u : ι} : u ∈ (s.refill shuffle).order ↔ u ∈ s.order := by
  unfold Gather.refill
  split_ifs
  · exact (hsh _ _).mem_iff
  · rfl

/-- What one step of the loop preserves holds at its end, and the loop condition fails there. -/
theorem gatherLoop_inv {ι ρ : Type} {shuffle : ℕ → List ι → List ι} {go : ρ → ℕ → Bool}
    {load : ρ → ι → Except String (List ℝ × ρ)} (J : ρ → Gather ι → Prop)
    (hstep : ∀ r s u a r', J r s → go r s.total = true → u ∈ (s.refill shuffle).order →
      load r u = .ok (a, r') → J r' { s.refill shuffle with
              idx := (s.refill shuffle).idx + 1
              ids := s.ids ++ [u]
              chunks := s.chunks ++ [a]
              total := s.total + a.length }) :
    ∀ (fuel : ℕ) (r : ρ) (s : Gather ι) (r' : ρ) (s' : Gather ι), J r s →
      gatherLoop shuffle go load fuel r s = some (.ok (r', s')) → J r' s' ∧ go r' s'.total = false
  | 0, r, s, r', s', hJ, h => by
    unfold gatherLoop at h
    split_ifs at h with hg
    cases h
    exact ⟨hJ, by simpa using hg⟩
  | fuel + 1, r, s, r', s', hJ, h => by
    unfold gatherLoop at h
    split_ifs at h with hg
    · cases hu : (s.refill shuffle).order[(s.refill shuffle).idx]? with
      | none =>
        rw [hu] at h
        cases h
      | some u =>
        rw [hu] at h
        dsimp only at h
        cases hl : load r u with
        | error e =>
          rw [hl] at h
          cases h
        | ok ar =>
          rw [hl] at h
          exact gatherLoop_inv J hstep fuel ar.2 _ r' s'
            (hstep r s u ar.1 ar.2 hJ hg (List.mem_of_getElem? hu) hl) h
    · cases h
      exact ⟨hJ, by simpa using hg⟩

/-- What is known about the sampling rate: the target length belongs to it. -/
def RateOk (duration : ℝ) (r : RateState) : Prop :=
  ∀ fs t, r = some (fs, t) → t = trunc (duration * fs)

theorem forall₂_snoc {α β : Type} {R : α → β → Prop} {l : List α} {l' : List β} {a : α} {b : β}
    (h : List.Forall₂ R l l') (hab : R a b) : List.Forall₂ R (l ++ [a]) (l' ++ [b]) :=
  List.rel_append h (.cons hab .nil)

theorem loadSpeaker_spec {ι : Type} {shuffle : ℕ → List ι → List ι} (hsh : Shuffles shuffle)
    {duration : ℝ} {fuel : ℕ} {d : SpeakerData ι} {r : RateState} {k : ℕ} (hr : RateOk duration r)
    {row : List ℝ} {ids : List ι} {r' : RateState} {k' : ℕ}
    (h : loadSpeaker shuffle duration fuel d r k = some (.ok (row, ids, r', k'))) :
    RateOk duration r' ∧ (∀ x, r = some x → r' = some x) ∧ ∃ fs t, r' = some (fs, t) ∧
      (0 ≤ t → IsSource d fs t.toNat row ids) ∧ ids ≠ [] := by
  unfold loadSpeaker at h
  split_ifs at h with hs
  · cases h
  obtain ⟨out, hout, h⟩ := Option.map_eq_some_iff.mp h
  cases out with
  | error e => cases h
  | ok rs =>
    obtain ⟨r1, s⟩ := rs
    dsimp only at h
    have key := gatherLoop_inv (shuffle := shuffle) (go := wants) (load := loadChecked d duration)
      (fun r' s => RateOk duration r' ∧ (∀ x, r = some x → r' = some x) ∧
        (∀ u ∈ s.order, u ∈ d.sentences) ∧ (∀ u ∈ s.ids, u ∈ d.sentences) ∧
        s.total = s.chunks.flatten.length ∧ (r' = none → s.ids = [] ∧ s.chunks = []) ∧
        ∀ fs t, r' = some (fs, t) → List.Forall₂ (fun u a => d.audio u = .ok (a, fs)) s.ids s.chunks)
      ?_ fuel r ⟨shuffle k d.sentences, 0, k + 1, [], [], 0⟩ r1 s ?_ hout
    · obtain ⟨⟨h1, h2, -, h4, h5, h6, h7⟩, hgo⟩ := key
      have hcat : ∃ row', catSlice r1 s.chunks = .ok row' ∧ (row', s.ids, r1, s.shuffles) = (row, ids, r', k') := by
        cases hc : catSlice r1 s.chunks with
        | error e =>
          rw [hc] at h
          cases h
        | ok row' =>
          rw [hc] at h
          refine ⟨row', rfl, ?_⟩
          have := Except.ok.inj h
          exact this
      obtain ⟨row', hc, he⟩ := hcat
      obtain ⟨rfl, rfl, rfl, rfl⟩ : row' = row ∧ s.ids = ids ∧ r1 = r' ∧ s.shuffles = k' := by
        simpa using he
      rcases r1 with _ | ⟨fs, t⟩
      · cases hgo
      · refine ⟨h1, h2, fs, t, rfl, fun ht => ?_, ?_⟩
        · have hlen : ¬ ((s.total : ℤ) < t) := by simpa [wants] using hgo
          unfold catSlice at hc
          split_ifs at hc
          cases hc
          refine ⟨?_, h4, s.chunks, h7 fs t rfl, ?_⟩
          · unfold sliceTo
            rw [if_pos ht, List.length_take, ← h5]
            omega
          · unfold sliceTo
            rw [if_pos ht]
        · unfold catSlice at hc
          split_ifs at hc with hne
          have := (h7 fs t rfl).length_eq
          intro e
          rw [e] at this
          exact hne (List.eq_nil_of_length_eq_zero this.symm)
    · rintro r1 s u a r2 ⟨h1, h2, h3, h4, h5, h6, h7⟩ _ hu hl
      have hmem : u ∈ d.sentences := h3 u ((refill_mem hsh s).mp hu)
      have hord : ∀ v ∈ (s.refill shuffle).order, v ∈ d.sentences :=
        fun v hv => h3 v ((refill_mem hsh s).mp hv)
      have hids : ∀ v ∈ s.ids ++ [u], v ∈ d.sentences := by
        intro v hv
        rcases List.mem_append.mp hv with hv | hv
        · exact h4 v hv
        · rw [List.mem_singleton.mp hv]
          exact hmem
      have htot : s.total + a.length = (s.chunks ++ [a]).flatten.length := by
        rw [List.flatten_append, List.length_append, ← h5]
        simp
      unfold loadChecked at hl
      cases ha : d.audio u with
      | error e =>
        rw [ha] at hl
        cases hl
      | ok ar =>
        obtain ⟨a', rate⟩ := ar
        rw [ha] at hl
        dsimp only at hl
        rcases r1 with _ | ⟨fs, t⟩
        · obtain ⟨rfl, rfl⟩ : a' = a ∧ some (rate, trunc (duration * rate)) = r2 := by simpa using hl
          obtain ⟨e1, e2⟩ := h6 rfl
          refine ⟨?_, fun x hx => ?_, hord, hids, htot, fun h => (nomatch h), fun fs t hft => ?_⟩
          · intro fs t hft
            cases hft
            rfl
          · have := h2 x hx
            cases this
          · cases hft
            dsimp only
            rw [e1, e2]
            exact .cons ha .nil
        · dsimp only at hl
          split_ifs at hl with hrate
          have hrate : rate = fs := by simpa using hrate
          obtain ⟨rfl, rfl⟩ : a' = a ∧ some (fs, t) = r2 := by simpa using hl
          refine ⟨h1, h2, hord, hids, htot, fun h => (nomatch h), fun fs' t' hft => ?_⟩
          cases hft
          refine forall₂_snoc (h7 fs t rfl) ?_
          rw [ha, hrate]
    · refine ⟨hr, fun x hx => hx, fun u hu => (hsh _ _).mem_iff.mp hu, fun u hu => (nomatch hu), rfl,
        fun _ => ⟨rfl, rfl⟩, fun _ _ _ => .nil⟩

theorem loadSpeakers_spec {ι σ : Type} {shuffle : ℕ → List ι → List ι} (hsh : Shuffles shuffle)
    {duration : ℝ} {fuel : ℕ} {data : σ → SpeakerData ι} :
    ∀ (speakers : List σ) (r : RateState) (k : ℕ) (rows : List (List ℝ)) (info : List (σ × List ι))
      (r' : RateState), RateOk duration r →
      loadSpeakers shuffle duration fuel data speakers r k = some (.ok (rows, info, r')) →
      RateOk duration r' ∧ (∀ x, r = some x → r' = some x) ∧ info.map Prod.fst = speakers ∧
        rows.length = speakers.length ∧ ∀ fs t, r' = some (fs, t) → 0 ≤ t →
        List.Forall₂ (fun row e => IsSource (data e.1) fs t.toNat row e.2 ∧ e.2 ≠ []) rows info
  | [], r, k, rows, info, r', hr, h => by
    unfold loadSpeakers at h
    cases h
    exact ⟨hr, fun x hx => hx, rfl, rfl, fun _ _ _ _ => .nil⟩
  | spk :: rest, r, k, rows, info, r', hr, h => by
    unfold loadSpeakers at h
    cases h1 : loadSpeaker shuffle duration fuel (data spk) r k with
    | none =>
      rw [h1] at h
      cases h
    | some out =>
      cases out with
      | error e =>
        rw [h1] at h
        cases h
      | ok q =>
        obtain ⟨row, ids, r1, k1⟩ := q
        rw [h1] at h
        dsimp only at h
        obtain ⟨a1, a2, fs1, t1, rfl, a3, a4⟩ := loadSpeaker_spec hsh hr h1
        cases h2 : loadSpeakers shuffle duration fuel data rest (some (fs1, t1)) k1 with
        | none =>
          rw [h2] at h
          cases h
        | some out =>
          cases out with
          | error e =>
            rw [h2] at h
            cases h
          | ok q =>
            obtain ⟨rows', info', r2⟩ := q
            rw [h2] at h
            cases h
            obtain ⟨b1, b2, b3, b4, b5⟩ := loadSpeakers_spec hsh rest _ k1 rows' info' r' a1 h2
            refine ⟨b1, fun x hx => b2 x (a2 x hx), by simp [b3], by simp [b4], ?_⟩
            intro fs t hft ht
            have hb := b2 _ rfl
            rw [hb] at hft
            cases hft
            exact .cons ⟨a3 ht, a4⟩ (b5 fs1 t1 hb ht)

/-- **C53.** If `load_dataset_sources` with a non-negative duration returns, then: the listed speakers
are distinct (if the dataset lists no speaker twice) and as many as requested; there is one row per
speaker; every row is exactly `int(duration * fs)` samples long and is the beginning of the concatenation
of the listed utterances in the listed order; and all of these have the returned sampling rate. -/
theorem C53_sources_partial {ι σ : Type} (sample : List σ → ℕ → List σ) (hsample : Samples sample)
    (shuffle : ℕ → List ι → List ι) (hsh : Shuffles shuffle) (speakers : List σ)
    (data : σ → SpeakerData ι) (numSources : ℤ) (duration : ℝ) (hdur : 0 ≤ duration) (fuel : ℕ)
    (rows : List (List ℝ)) (fs : ℕ) (info : List (σ × List ι))
    (h : loadDatasetSources sample shuffle speakers data numSources duration fuel =
      some (.ok (rows, fs, info))) :
    (rows.length : ℤ) = numSources ∧ (info.length : ℤ) = numSources ∧
      (speakers.Nodup → (info.map Prod.fst).Nodup) ∧ (∀ e ∈ info, e.1 ∈ speakers) ∧
      List.Forall₂ (fun row e => IsSource (data e.1) fs ⌊duration * fs⌋₊ row e.2 ∧ e.2 ≠ []) rows info := by
  unfold loadDatasetSources chooseSpeakers at h
  by_cases hne : speakers = []
  · rw [if_pos hne] at h
    cases h
  by_cases hlt : (speakers.length : ℤ) < numSources
  · rw [if_neg hne, if_pos hlt] at h
    cases h
  by_cases hneg : numSources < 0
  · rw [if_neg hne, if_neg hlt, if_pos hneg] at h
    cases h
  rw [if_neg hne, if_neg hlt, if_neg hneg] at h
  dsimp only at h
  obtain ⟨h1, h2⟩ := hsample speakers numSources.toNat (by omega)
  obtain ⟨out, hout, h⟩ := Option.map_eq_some_iff.mp h
  cases out with
  | error e => cases h
  | ok q =>
    obtain ⟨rows', info', r⟩ := q
    dsimp only at h
    obtain ⟨b1, -, b3, b4, b5⟩ := loadSpeakers_spec hsh _ none 0 rows' info' r (fun _ _ h => nomatch h) hout
    have hst : rows' = rows ∧ info' = info ∧ ∃ t, r = some (fs, t) := by
      unfold stackRows at h
      cases rows' with
      | nil => cases h
      | cons row rest =>
        dsimp only at h
        split_ifs at h
        rcases r with _ | ⟨fs', t⟩
        · cases h
        · cases h
          exact ⟨rfl, rfl, t, rfl⟩
    obtain ⟨rfl, rfl, t, rfl⟩ := hst
    have ht := b1 fs t rfl
    have h0 : 0 ≤ duration * (fs : ℝ) := mul_nonneg hdur (Nat.cast_nonneg _)
    have ht0 : 0 ≤ t := by
      rw [ht]
      unfold trunc
      rw [if_pos h0]
      exact Int.floor_nonneg.mpr h0
    have htn : t.toNat = ⌊duration * (fs : ℝ)⌋₊ := by
      rw [ht]
      unfold trunc
      rw [if_pos h0]
      rfl
    refine ⟨?_, ?_, ?_, ?_, ?_⟩
    · rw [b4, h1]
      omega
    · have : info'.length = (info'.map Prod.fst).length := by simp
      rw [this, b3, h1]
      omega
    · intro hnd
      rw [b3]
      obtain ⟨l, hp, hs⟩ := h2
      exact hp.nodup_iff.mp (hs.nodup hnd)
    · intro e he
      have : e.1 ∈ info'.map Prod.fst := List.mem_map_of_mem he
      rw [b3] at this
      exact h2.subset this
    · rw [← htn]
      exact b5 fs t rfl ht0

/-- **C53 (mixed rates).** An utterance with another sampling rate than the first one is rejected: the
loop that loads it raises `ValueError`. -/
theorem C53_mixed_rates {ι : Type} (d : SpeakerData ι) (duration : ℝ) (fs rate : ℕ) (t : ℤ) (u : ι)
    (a : List ℝ) (ha : d.audio u = .ok (a, rate)) (hne : rate ≠ fs) :
    loadChecked d duration (some (fs, t)) u = .error "sample rate mismatch" := by
  unfold loadChecked
  rw [ha]
  dsimp only
  rw [if_pos hne]

/-- A dataset with one speaker and one utterance of three samples at 10 Hz. -/
noncomputable def tinyData : Unit → SpeakerData Unit := fun _ => ⟨[()], fun _ => .ok ([1, 2, 3], 10)⟩

theorem samples_take {σ : Type} : Samples (fun (l : List σ) n => l.take n) := fun l n hn =>
  ⟨by rw [List.length_take]; omega, (List.take_sublist n l).subperm⟩

theorem shuffles_id {ι : Type} : Shuffles (fun (_ : ℕ) (l : List ι) => l) := fun _ _ => List.Perm.rfl

theorem tiny_run (duration : ℝ) (t : ℤ) (ht : trunc (duration * (10 : ℕ)) = t) (ht3 : t ≤ 3) :
    loadDatasetSources (fun l n => l.take n) (fun _ l => l) [()] tinyData 1 duration 1 =
      some (.ok ([sliceTo t [1, 2, 3]], 10, [((), [()])])) := by
  have hw : wants (some (10, t)) 3 = false := by
    simp only [wants, decide_eq_false_iff_not, not_lt]
    exact_mod_cast ht3
  have hloop : gatherLoop (fun (_ : ℕ) (l : List Unit) => l) wants (loadChecked (tinyData ()) duration) 1 none
      ⟨[()], 0, 1, [], [], 0⟩ = some (.ok (some (10, t), ⟨[()], 1, 1, [()], [[1, 2, 3]], 3⟩)) := by
    unfold gatherLoop
    simp only [wants, Gather.refill, loadChecked, tinyData, ht]
    unfold gatherLoop
    simp [hw]
  have hone : loadSpeaker (fun (_ : ℕ) (l : List Unit) => l) duration 1 (tinyData ()) none 0 =
      some (.ok (sliceTo t [1, 2, 3], [()], some (10, t), 1)) := by
    unfold loadSpeaker
    have : (tinyData ()).sentences = [()] := rfl
    rw [this, if_neg (by simp), hloop]
    simp [catSlice, Except.map]
  have hall : loadSpeakers (fun (_ : ℕ) (l : List Unit) => l) duration 1 tinyData [()] none 0 =
      some (.ok ([sliceTo t [1, 2, 3]], [((), [()])], some (10, t))) := by
    unfold loadSpeakers
    rw [hone]
    rfl
  have hch : chooseSpeakers (fun (l : List Unit) n => l.take n) [()] 1 = .ok [()] := by
    simp [chooseSpeakers]
  unfold loadDatasetSources
  rw [hch]
  dsimp only
  rw [hall]
  simp [stackRows]

-- a returning call with a positive duration: two samples
example : loadDatasetSources (fun l n => l.take n) (fun _ l => l) [()] tinyData 1 (1 / 5) 1 =
    some (.ok ([[1, 2]], 10, [((), [()])])) := by
  rw [tiny_run (1 / 5) 2 (by unfold trunc; norm_num) (by norm_num)]
  simp [sliceTo]

/-- **C53 fails for negative durations.** They are accepted, and the row then has a length that is
neither `int(duration * fs)` nor zero: the end of the first utterance is cut off. -/
theorem C53_negative_duration_fails :
    loadDatasetSources (fun l n => l.take n) (fun _ l => l) [()] tinyData 1 (-1 / 10) 1 =
      some (.ok ([[1, 2]], 10, [((), [()])])) := by
  rw [tiny_run (-1 / 10) (-1) (by unfold trunc; norm_num) (by norm_num)]
  simp [sliceTo]

end Torchrir.Props
