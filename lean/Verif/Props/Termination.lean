import Verif.Props.Sources
import Mathlib.Tactic.NormNum

/-! # Source loading terminates (C54), and the builder's loader (C53) -/

namespace Torchrir.Props

open Torchrir.Model

/-- A program with a step limit ends: with enough steps it always gives the same outcome. -/
def Terminates {α : Type} (f : ℕ → Option α) : Prop := ∃ F x, ∀ fuel, F ≤ fuel → f fuel = some x

/-- The speaker has an utterance that is not empty (or cannot be loaded), or no utterance at all. -/
def HasSound {ι α : Type} (sentences : List ι) (audio : ι → Except String α) (samples : α → List ℝ) : Prop :=
  sentences = [] ∨ ∃ u ∈ sentences, ∀ a, audio u = .ok a → samples a ≠ []

theorem gatherLoop_mono {ι ρ : Type} {shuffle : ℕ → List ι → List ι} {go : ρ → ℕ → Bool}
    {load : ρ → ι → Except String (List ℝ × ρ)} {x : Except String (ρ × Gather ι)} :
    ∀ (fuel fuel' : ℕ) (r : ρ) (s : Gather ι), fuel ≤ fuel' →
      gatherLoop shuffle go load fuel r s = some x → gatherLoop shuffle go load fuel' r s = some x
  | 0, 0, r, s, _, h => h
  | 0, k + 1, r, s, _, h => by
    unfold gatherLoop at h ⊢
    split_ifs at h with hg
    rw [if_neg hg]
    exact h
  | k + 1, 0, r, s, hle, h => absurd hle (by omega)
  | k + 1, k' + 1, r, s, hle, h => by
    unfold gatherLoop at h ⊢
    split_ifs at h with hg
    · rw [if_pos hg]
      cases hu : (s.refill shuffle).order[(s.refill shuffle).idx]? with
      | none =>
        rw [hu] at h
        exact h
      | some u =>
        rw [hu] at h
        dsimp only at h ⊢
        cases hl : load r u with
        | error e =>
          rw [hl] at h
          exact h
        | ok ar =>
          rw [hl] at h
          exact gatherLoop_mono k k' ar.2 _ (by omega) h
    · rw [if_neg hg]
      exact h

open Classical in
/-- How many more steps are taken at most before the utterance `u` is loaded. -/
noncomputable def ahead {ι : Type} (u : ι) (order : List ι) (idx : ℕ) : ℕ :=
  if u ∈ order.drop idx then (order.drop idx).idxOf u else (order.length - idx) + order.length

theorem ahead_le {ι : Type} (u : ι) (order : List ι) (idx : ℕ) : ahead u order idx ≤ 2 * order.length := by
  classical
  unfold ahead
  split_ifs with h
  · have := List.idxOf_lt_length_of_mem h
    rw [List.length_drop] at this
    convert (show List.idxOf u (order.drop idx) ≤ 2 * order.length by omega)
  · omega

theorem ahead_step {ι : Type} {u v : ι} {order : List ι} {idx : ℕ} (hv : order[idx]? = some v)
    (hne : v ≠ u) : ahead u order (idx + 1) < ahead u order idx := by
  classical
  obtain ⟨hlt, hv⟩ := List.getElem?_eq_some_iff.mp hv
  have hd : order.drop idx = v :: order.drop (idx + 1) := by
    rw [← hv]
    exact List.drop_eq_getElem_cons hlt
  unfold ahead
  rw [hd]
  by_cases h : u ∈ order.drop (idx + 1)
  · rw [if_pos h, if_pos (List.mem_cons_of_mem _ h)]
    rw [List.idxOf_cons_ne _ hne]
    omega
  · rw [if_neg h, if_neg]
    · omega
    · simp only [List.mem_cons, not_or]
      exact ⟨fun e => hne e.symm, h⟩

theorem ahead_shuffle {ι : Type} {u : ι} {order order' : List ι} {idx : ℕ} (hu : u ∈ order)
    (hp : order'.Perm order) (hi : order.length ≤ idx) : ahead u order' 0 < ahead u order idx := by
  classical
  unfold ahead
  rw [List.drop_zero, if_pos (hp.mem_iff.mpr hu), List.drop_eq_nil_of_le hi, if_neg (by simp)]
  have := List.idxOf_lt_length_of_mem (hp.mem_iff.mpr hu)
  rw [hp.length_eq] at this
  have h2 : List.idxOf u order' < order.length := by convert this
  omega

/-- With enough steps the loop ends if one of the sentences is not silent and the length sought is
bounded. -/
theorem gatherLoop_ends {ι ρ : Type} {shuffle : ℕ → List ι → List ι} (hsh : Shuffles shuffle)
    {go : ρ → ℕ → Bool} {load : ρ → ι → Except String (List ℝ × ρ)} (K : ρ → Prop) (B : ℕ)
    (hgo : ∀ r total, K r → go r total = true → total < B)
    (hK : ∀ r u a r', K r → load r u = .ok (a, r') → K r') (u : ι)
    (hu : ∀ r a r', K r → load r u = .ok (a, r') → a ≠ []) :
    ∀ (fuel : ℕ) (r : ρ) (s : Gather ι), K r → u ∈ s.order →
      (B - s.total) * (2 * s.order.length + 1) + ahead u s.order s.idx ≤ fuel →
      gatherLoop shuffle go load fuel r s ≠ none
  | 0, r, s, hk, hmem, hpot => by
    unfold gatherLoop
    split_ifs with hg
    · have := hgo r _ hk hg
      have h1 : 1 ≤ B - s.total := by omega
      have := Nat.mul_le_mul_right (2 * s.order.length + 1) h1
      omega
    · simp
  | fuel + 1, r, s, hk, hmem, hpot => by
    unfold gatherLoop
    split_ifs with hg
    · have htot := hgo r _ hk hg
      have hlen : (s.refill shuffle).order.length = s.order.length := by
        unfold Gather.refill
        split_ifs
        · exact (hsh _ _).length_eq
        · rfl
      have hah : ahead u (s.refill shuffle).order (s.refill shuffle).idx ≤ ahead u s.order s.idx := by
        unfold Gather.refill
        split_ifs with hi
        · exact (ahead_shuffle hmem (hsh _ _) hi).le
        · exact le_rfl
      cases hv : (s.refill shuffle).order[(s.refill shuffle).idx]? with
      | none => simp
      | some v =>
        dsimp only
        cases hl : load r v with
        | error e => simp
        | ok ar =>
          obtain ⟨a, r'⟩ := ar
          dsimp only
          refine gatherLoop_ends hsh K B hgo hK u hu fuel r' _ (hK r v a r' hk hl)
            ((refill_mem hsh s).mpr hmem) ?_
          dsimp only
          rw [hlen]
          by_cases hvu : v = u
          · subst hvu
            have ha : 1 ≤ a.length := List.length_pos_iff.mpr (hu r a r' hk hl)
            have h1 : B - (s.total + a.length) + 1 ≤ B - s.total := by omega
            have h2 := Nat.mul_le_mul_right (2 * s.order.length + 1) h1
            have h3 := ahead_le v (s.refill shuffle).order ((s.refill shuffle).idx + 1)
            rw [hlen] at h3
            rw [Nat.add_mul] at h2
            omega
          · have h1 : B - (s.total + a.length) ≤ B - s.total := by omega
            have h2 := Nat.mul_le_mul_right (2 * s.order.length + 1) h1
            have h3 := ahead_step hv hvu
            omega
    · simp

theorem terminates_of_some {ι ρ β : Type} {shuffle : ℕ → List ι → List ι} {go : ρ → ℕ → Bool}
    {load : ρ → ι → Except String (List ℝ × ρ)} {fuel : ℕ} {r : ρ} {s : Gather ι}
    (f : Except String (ρ × Gather ι) → β) (h : gatherLoop shuffle go load fuel r s ≠ none) :
    Terminates fun n => (gatherLoop shuffle go load n r s).map f := by
  obtain ⟨x, hx⟩ := Option.ne_none_iff_exists'.mp h
  exact ⟨fuel, f x, fun n hn => by
    dsimp only
    rw [gatherLoop_mono fuel n r s hn hx]
    rfl⟩

theorem loadSpeaker_terminates {ι : Type} {shuffle : ℕ → List ι → List ι} (hsh : Shuffles shuffle)
    (duration : ℝ) (d : SpeakerData ι) (hd : HasSound d.sentences d.audio Prod.fst) (r : RateState)
    (k : ℕ) : Terminates fun fuel => loadSpeaker shuffle duration fuel d r k := by
  unfold loadSpeaker
  by_cases hs : d.sentences = []
  · exact ⟨0, .error "no sentences found for speaker", fun _ _ => if_pos hs⟩
  obtain ⟨u, hmem, hu⟩ := hd.resolve_left hs
  simp only [if_neg hs]
  -- once the rate is known
  have known : ∀ (fs : ℕ) (t : ℤ) (s : Gather ι), u ∈ s.order → ∃ fuel,
      gatherLoop shuffle wants (loadChecked d duration) fuel (some (fs, t)) s ≠ none := by
    intro fs t s hs
    refine ⟨_, gatherLoop_ends hsh (fun r => r = some (fs, t)) t.toNat ?_ ?_ u ?_ _ _ s rfl hs le_rfl⟩
    · rintro r total rfl hg
      simp only [wants, decide_eq_true_eq] at hg
      omega
    · rintro r v a r' rfl hl
      unfold loadChecked at hl
      cases hv : d.audio v with
      | error e =>
        rw [hv] at hl
        cases hl
      | ok ar =>
        obtain ⟨a', rate⟩ := ar
        rw [hv] at hl
        dsimp only at hl
        split_ifs at hl
        cases hl
        rfl
    · rintro r a r' rfl hl
      unfold loadChecked at hl
      cases hv : d.audio u with
      | error e =>
        rw [hv] at hl
        cases hl
      | ok ar =>
        obtain ⟨a', rate⟩ := ar
        rw [hv] at hl
        dsimp only at hl
        split_ifs at hl
        cases hl
        exact hu (a, rate) hv
  rcases r with _ | ⟨fs, t⟩
  · -- the first utterance of all fixes the rate
    have hex : ∃ fuel, gatherLoop shuffle wants (loadChecked d duration) fuel none
        ⟨shuffle k d.sentences, 0, k + 1, [], [], 0⟩ ≠ none := by
      set s : Gather ι := ⟨shuffle k d.sentences, 0, k + 1, [], [], 0⟩ with hsd
      have hsm : u ∈ s.order := (hsh _ _).mem_iff.mpr hmem
      cases hv : (s.refill shuffle).order[(s.refill shuffle).idx]? with
      | none =>
        refine ⟨1, ?_⟩
        unfold gatherLoop
        simp [wants, hv]
      | some v =>
        cases hl : loadChecked d duration none v with
        | error e =>
          refine ⟨1, ?_⟩
          unfold gatherLoop
          simp [wants, hv, hl]
        | ok ar =>
          obtain ⟨a, r'⟩ := ar
          have hr' : ∃ fs t, r' = some (fs, t) := by
            unfold loadChecked at hl
            cases hv : d.audio v with
            | error e =>
              rw [hv] at hl
              cases hl
            | ok ar =>
              rw [hv] at hl
              cases hl
              exact ⟨_, _, rfl⟩
          obtain ⟨fs, t, rfl⟩ := hr'
          obtain ⟨fuel, hf⟩ := known fs t { s.refill shuffle with
              idx := (s.refill shuffle).idx + 1
              ids := s.ids ++ [v]
              chunks := s.chunks ++ [a]
              total := s.total + a.length } ((refill_mem hsh s).mpr hsm)
          refine ⟨fuel + 1, ?_⟩
          unfold gatherLoop
          simp only [wants, hv, hl]
          exact hf
    obtain ⟨fuel, hf⟩ := hex
    exact terminates_of_some _ hf
  · obtain ⟨fuel, hf⟩ := known fs t ⟨shuffle k d.sentences, 0, k + 1, [], [], 0⟩
      ((hsh _ _).mem_iff.mpr hmem)
    exact terminates_of_some _ hf

theorem loadSpeakers_terminates {ι σ : Type} {shuffle : ℕ → List ι → List ι} (hsh : Shuffles shuffle)
    (duration : ℝ) (data : σ → SpeakerData ι) : ∀ (speakers : List σ) (r : RateState) (k : ℕ),
      (∀ spk ∈ speakers, HasSound (data spk).sentences (data spk).audio Prod.fst) →
      Terminates fun fuel => loadSpeakers shuffle duration fuel data speakers r k
  | [], r, k, _ => ⟨0, .ok ([], [], r), fun _ _ => by simp [loadSpeakers]⟩
  | spk :: rest, r, k, hd => by
    obtain ⟨F, x, hx⟩ := loadSpeaker_terminates hsh duration (data spk) (hd spk (List.mem_cons_self)) r k
    dsimp only at hx
    rcases x with e | ⟨row, ids, r', k'⟩
    · refine ⟨F, .error e, fun fuel hf => ?_⟩
      simp only [loadSpeakers]
      rw [hx fuel hf]
    · obtain ⟨F', y, hy⟩ := loadSpeakers_terminates hsh duration data rest r' k'
        (fun s hs => hd s (List.mem_cons_of_mem _ hs))
      dsimp only at hy
      rcases y with e | ⟨rows, info, r''⟩
      · refine ⟨max F F', .error e, fun fuel hf => ?_⟩
        simp only [loadSpeakers]
        rw [hx fuel (le_trans (le_max_left _ _) hf)]
        dsimp only
        rw [hy fuel (le_trans (le_max_right _ _) hf)]
      · refine ⟨max F F', .ok (row :: rows, (spk, ids) :: info, r''), fun fuel hf => ?_⟩
        simp only [loadSpeakers]
        rw [hx fuel (le_trans (le_max_left _ _) hf)]
        dsimp only
        rw [hy fuel (le_trans (le_max_right _ _) hf)]

/-- **C54.** `load_dataset_sources` ends, with a result or an exception, for every shuffle, provided that
every speaker has at least one utterance that is not empty. -/
theorem C54_load_dataset_sources_partial {ι σ : Type} (sample : List σ → ℕ → List σ)
    (hsample : Samples sample) (shuffle : ℕ → List ι → List ι) (hsh : Shuffles shuffle)
    (speakers : List σ) (data : σ → SpeakerData ι)
    (hd : ∀ spk ∈ speakers, HasSound (data spk).sentences (data spk).audio Prod.fst) (numSources : ℤ)
    (duration : ℝ) :
    Terminates fun fuel => loadDatasetSources sample shuffle speakers data numSources duration fuel := by
  unfold loadDatasetSources
  cases hc : chooseSpeakers sample speakers numSources with
  | error e => exact ⟨0, .error e, fun _ _ => rfl⟩
  | ok chosen =>
    have hsub : ∀ s ∈ chosen, s ∈ speakers := by
      unfold chooseSpeakers at hc
      split_ifs at hc
      cases hc
      exact fun s hs => (hsample speakers numSources.toNat (by omega)).2.subset hs
    obtain ⟨F, x, hx⟩ := loadSpeakers_terminates hsh duration data chosen none 0
      (fun s hs => hd s (hsub s hs))
    dsimp only at hx
    rcases x with e | ⟨rows, info, r⟩
    · refine ⟨F, .error e, fun fuel hf => ?_⟩
      dsimp only
      rw [hx fuel hf]
      rfl
    · refine ⟨F, stackRows rows info r, fun fuel hf => ?_⟩
      dsimp only
      rw [hx fuel hf]
      rfl

/-- **C54 for the dataset builder's loader**, under the same condition. -/
theorem C54_builder_partial {ι : Type} (shuffle : ℕ → List ι → List ι) (hsh : Shuffles shuffle)
    (sentences : List ι) (audio : ι → Except String (List ℝ)) (hd : HasSound sentences audio id)
    (target : ℤ) : Terminates fun fuel => loadFixedLength shuffle sentences audio target fuel := by
  unfold loadFixedLength
  by_cases hs : sentences = []
  · exact ⟨0, .error "No sentences available in selected speaker dataset", fun _ _ => if_pos hs⟩
  obtain ⟨u, hmem, hu⟩ := hd.resolve_left hs
  simp only [if_neg hs]
  refine terminates_of_some _ (gatherLoop_ends hsh (fun _ => True) target.toNat ?_ ?_ u ?_ _ ()
    ⟨shuffle 0 sentences, 0, 1, [], [], 0⟩ trivial ((hsh _ _).mem_iff.mpr hmem) le_rfl)
  · intro r total _ hg
    simp only [decide_eq_true_eq] at hg
    omega
  · intros
    trivial
  · intro r a r' _ hl
    cases ha : audio u with
    | error e =>
      rw [ha] at hl
      cases hl
    | ok a' =>
      rw [ha] at hl
      obtain ⟨rfl, -⟩ : a' = a ∧ () = r' := by simpa [Except.map] using hl
      exact hu a' ha

/-- The loop never ends if nothing it loads has samples. -/
theorem gatherLoop_diverges {ι ρ : Type} {shuffle : ℕ → List ι → List ι} (hsh : Shuffles shuffle)
    {go : ρ → ℕ → Bool} {load : ρ → ι → Except String (List ℝ × ρ)} (K : ρ → Prop) (S : List ι)
    (hgo : ∀ r, K r → go r 0 = true)
    (hload : ∀ r u, K r → u ∈ S → ∃ r', load r u = .ok ([], r') ∧ K r') :
    ∀ (fuel : ℕ) (r : ρ) (s : Gather ι), K r → s.order ≠ [] → (∀ u ∈ s.order, u ∈ S) → s.total = 0 →
      gatherLoop shuffle go load fuel r s = none
  | 0, r, s, hk, _, _, ht => by
    unfold gatherLoop
    rw [ht, if_pos (hgo r hk)]
  | fuel + 1, r, s, hk, hne, hS, ht => by
    unfold gatherLoop
    rw [ht, if_pos (hgo r hk)]
    have hpos : 0 < s.order.length := List.length_pos_iff.mpr hne
    have hlt : (s.refill shuffle).idx < (s.refill shuffle).order.length := by
      unfold Gather.refill
      split_ifs with hi
      · dsimp only
        rw [(hsh _ _).length_eq]
        exact hpos
      · omega
    rw [List.getElem?_eq_getElem hlt]
    dsimp only
    obtain ⟨r', hl, hk'⟩ := hload r _ hk (hS _ ((refill_mem hsh s).mp (List.getElem_mem hlt)))
    rw [hl]
    refine gatherLoop_diverges hsh K S hgo hload fuel r' _ hk' ?_
      (fun u hu => hS u ((refill_mem hsh s).mp hu)) rfl
    intro e
    dsimp only at e
    rw [e] at hlt
    exact absurd hlt (by simp)

/-- **C54 fails without it.** If all utterances are empty files and some samples are wanted, the dataset
builder's loader never returns. -/
theorem C54_builder_fails {ι : Type} (shuffle : ℕ → List ι → List ι) (hsh : Shuffles shuffle)
    (sentences : List ι) (hs : sentences ≠ []) (target : ℤ) (ht : 0 < target) (fuel : ℕ) :
    loadFixedLength shuffle sentences (fun _ => .ok []) target fuel = none := by
  unfold loadFixedLength
  rw [if_neg hs, gatherLoop_diverges hsh
    (go := fun (_ : Unit) (total : ℕ) => decide ((total : ℤ) < target))
    (load := fun (_ : Unit) u => ((fun _ => .ok [] : ι → Except String (List ℝ)) u).map fun a => (a, ()))
    (fun _ => True) sentences (by simpa using ht)
    (fun r u _ _ => ⟨(), rfl, trivial⟩) fuel () ⟨shuffle 0 sentences, 0, 1, [], [], 0⟩ trivial ?_
    (fun u hu => (hsh _ _).mem_iff.mp hu) rfl]
  · rfl
  · intro e
    exact hs (List.eq_nil_of_length_eq_zero (by rw [← (hsh 0 sentences).length_eq]; simpa using e))

/-- **C54 fails without it.** If all utterances of the speakers are empty files and `int(duration * fs)`
is positive, `load_dataset_sources` never returns. -/
theorem C54_load_dataset_sources_fails {ι σ : Type} (sample : List σ → ℕ → List σ)
    (hsample : Samples sample) (shuffle : ℕ → List ι → List ι) (hsh : Shuffles shuffle)
    (speakers : List σ) (sentences : List ι) (hs : sentences ≠ []) (fs : ℕ) (numSources : ℤ)
    (hn : 1 ≤ numSources) (hle : numSources ≤ speakers.length) (duration : ℝ)
    (ht : 1 ≤ duration * fs) (fuel : ℕ) :
    loadDatasetSources sample shuffle speakers (fun _ => ⟨sentences, fun _ => .ok ([], fs)⟩) numSources
      duration fuel = none := by
  have hone : ∀ k, loadSpeaker shuffle duration fuel ⟨sentences, fun _ => .ok ([], fs)⟩ none k = none := by
    intro k
    unfold loadSpeaker
    have htr : 0 < trunc (duration * fs) := by
      unfold trunc
      rw [if_pos (by linarith)]
      exact Int.floor_pos.mpr ht
    rw [if_neg (show (⟨sentences, fun _ => .ok ([], fs)⟩ : SpeakerData ι).sentences ≠ [] from hs),
      gatherLoop_diverges hsh (fun r => r = none ∨ r = some (fs, trunc (duration * fs))) sentences
      ?_ ?_ fuel none _ (Or.inl rfl) ?_ (fun u hu => (hsh _ _).mem_iff.mp hu) rfl]
    · rfl
    · rintro r (rfl | rfl)
      · rfl
      · simpa [wants] using htr
    · rintro r u (rfl | rfl) _
      · exact ⟨_, rfl, Or.inr rfl⟩
      · refine ⟨_, ?_, Or.inr rfl⟩
        simp [loadChecked]
    · intro e
      exact hs (List.eq_nil_of_length_eq_zero (by rw [← (hsh k sentences).length_eq]; simpa using e))
  unfold loadDatasetSources chooseSpeakers
  have hlen : 1 ≤ (speakers.length : ℤ) := le_trans hn hle
  rw [if_neg (by rintro rfl; simp at hlen), if_neg (by omega), if_neg (by omega)]
  obtain ⟨h1, -⟩ := hsample speakers numSources.toNat (by omega)
  dsimp only
  cases hc : sample speakers numSources.toNat with
  | nil =>
    rw [hc] at h1
    simp at h1
    omega
  | cons spk rest =>
    unfold loadSpeakers
    rw [hone]
    rfl

/-- **C53 for the dataset builder's loader.** A returned signal of a positive requested length has exactly
this length and is the beginning of the concatenation of the listed utterances in the listed order. -/
theorem C53_builder {ι : Type} (shuffle : ℕ → List ι → List ι) (hsh : Shuffles shuffle)
    (sentences : List ι) (audio : ι → Except String (List ℝ)) (target : ℤ) (ht : 0 < target) (fuel : ℕ)
    (row : List ℝ) (ids : List ι)
    (h : loadFixedLength shuffle sentences audio target fuel = some (.ok (row, ids))) :
    (row.length : ℤ) = target ∧ (∀ u ∈ ids, u ∈ sentences) ∧ ids ≠ [] ∧
      ∃ chunks : List (List ℝ), List.Forall₂ (fun u a => audio u = .ok a) ids chunks ∧
        row = chunks.flatten.take target.toNat := by
  unfold loadFixedLength at h
  split_ifs at h with hs
  · cases h
  obtain ⟨out, hout, h⟩ := Option.map_eq_some_iff.mp h
  cases out with
  | error e => cases h
  | ok rs =>
    obtain ⟨⟨⟩, s⟩ := rs
    dsimp only at h
    split_ifs at h with hne
    cases h
    have key := gatherLoop_inv (shuffle := shuffle)
      (fun (_ : Unit) (s : Gather ι) => (∀ u ∈ s.order, u ∈ sentences) ∧ (∀ u ∈ s.ids, u ∈ sentences) ∧
        s.total = s.chunks.flatten.length ∧ List.Forall₂ (fun u a => audio u = .ok a) s.ids s.chunks)
      ?_ fuel () ⟨shuffle 0 sentences, 0, 1, [], [], 0⟩ () s
      ⟨fun u hu => (hsh _ _).mem_iff.mp hu, fun u hu => (nomatch hu), rfl, .nil⟩ hout
    · obtain ⟨⟨h1, h2, h3, h4⟩, hgo⟩ := key
      have hlen : ¬ ((s.total : ℤ) < target) := by simpa using hgo
      refine ⟨?_, h2, ?_, s.chunks, h4, ?_⟩
      · unfold sliceTo
        rw [if_pos ht.le, List.length_take, ← h3]
        omega
      · intro e
        have := h4.length_eq
        rw [e] at this
        exact hne (List.eq_nil_of_length_eq_zero this.symm)
      · unfold sliceTo
        rw [if_pos ht.le]
    · rintro r s u a r' ⟨h1, h2, h3, h4⟩ _ hu hl
      have hmem : u ∈ sentences := h1 u ((refill_mem hsh s).mp hu)
      refine ⟨fun v hv => h1 v ((refill_mem hsh s).mp hv), fun v hv => ?_, ?_, ?_⟩
      · rcases List.mem_append.mp hv with hv | hv
        · exact h2 v hv
        · rw [List.mem_singleton.mp hv]
          exact hmem
      · dsimp only
        rw [List.flatten_append, List.length_append, ← h3]
        simp
      · refine forall₂_snoc h4 ?_
        cases ha : audio u with
        | error e =>
          rw [ha] at hl
          cases hl
        | ok a' =>
          rw [ha] at hl
          obtain ⟨rfl, -⟩ : a' = a ∧ () = r' := by simpa [Except.map] using hl
          rfl

-- one speaker whose first utterance is empty and whose second one is not: the condition of C54 holds
example : HasSound [0, 1] (fun u : ℕ => if u = 0 then .ok ([], 8000) else
    (.ok ([1], 8000) : Except String (List ℝ × ℕ))) Prod.fst :=
  Or.inr ⟨1, by simp, fun a ha => by
    have : a = ([1], 8000) := by simpa using ha.symm
    simp [this]⟩

-- a returning call of the builder's loader: the second utterance is needed too
example : loadFixedLength (fun _ l => l) [0, 1] (fun u : ℕ => .ok [(u : ℝ), 5]) 3 2 =
    some (.ok ([0, 5, 1], [0, 1])) := by
  unfold loadFixedLength
  simp only [gatherLoop, Gather.refill]
  simp [Except.map, sliceTo]

end Torchrir.Props
