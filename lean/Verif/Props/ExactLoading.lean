import Verif.Props.Termination
import Verif.Props.BuilderScene

/-! # When loading ends and placement succeeds, exactly: C54, C60 -/

namespace Torchrir.Props

open Torchrir.Model Torchrir.Lemmas
open Torchrir.Spec

/-- **C54, exactly (builder).** The dataset builder's loader ends exactly if no samples are wanted, or there
are no sentences, or one sentence has samples or cannot be loaded. -/
theorem C54_builder_exactly {ι : Type} (shuffle : ℕ → List ι → List ι) (hsh : Shuffles shuffle)
    (sentences : List ι) (audio : ι → Except String (List ℝ)) (target : ℤ) :
    (Terminates fun fuel => loadFixedLength shuffle sentences audio target fuel) ↔
      target ≤ 0 ∨ sentences = [] ∨ ∃ u ∈ sentences, audio u ≠ .ok [] := by
  constructor
  · rintro ⟨F, x, hx⟩
    by_contra hc
    push Not at hc
    obtain ⟨ht, hs, hall⟩ := hc
    have hF := hx F le_rfl
    unfold loadFixedLength at hF
    dsimp only at hF
    rw [if_neg hs, gatherLoop_diverges hsh
      (go := fun (_ : Unit) (total : ℕ) => decide ((total : ℤ) < target))
      (load := fun (_ : Unit) u => (audio u).map fun a => (a, ()))
      (fun _ => True) sentences (by simpa using ht)
      (fun r u _ hu => ⟨(), by rw [hall u hu]; rfl, trivial⟩) F () ⟨shuffle 0 sentences, 0, 1, [], [], 0⟩ trivial ?_
      (fun u hu => (hsh _ _).mem_iff.mp hu) rfl] at hF
    · cases hF
    · intro e
      exact hs (List.eq_nil_of_length_eq_zero (by rw [← (hsh 0 sentences).length_eq]; simpa using e))
  · intro h
    by_cases hsound : sentences = [] ∨ ∃ u ∈ sentences, audio u ≠ .ok []
    · refine C54_builder_partial shuffle hsh sentences audio ?_ target
      rcases hsound with h | ⟨u, hu, hne⟩
      · exact Or.inl h
      · refine Or.inr ⟨u, hu, fun a ha e => hne ?_⟩
        rw [ha]
        exact congrArg _ e
    · have ht : target ≤ 0 := h.resolve_right hsound
      push Not at hsound
      unfold loadFixedLength
      simp only [if_neg hsound.1]
      have hz : ∀ fuel, gatherLoop shuffle (fun (_ : Unit) total => decide ((total : ℤ) < target))
          (fun _ u => (audio u).map fun a => (a, ())) fuel () ⟨shuffle 0 sentences, 0, 1, [], [], 0⟩ =
          some (.ok ((), ⟨shuffle 0 sentences, 0, 1, [], [], 0⟩)) := by
        intro fuel
        have hg : ¬ decide (((0 : ℕ) : ℤ) < target) = true := by simpa using ht
        cases fuel <;> (unfold gatherLoop; rw [if_neg hg])
      exact ⟨0, _, fun fuel _ => by dsimp only; rw [hz]; rfl⟩

/-- Two empty files and one of a single sample: the loader ends. -/
example (shuffle : ℕ → List ℕ → List ℕ) (hsh : Shuffles shuffle) :
    (Terminates fun fuel => loadFixedLength shuffle [1, 2, 3] (fun u => .ok (if u = 3 then [1] else [])) 16000 fuel) ∧
    ¬ Terminates fun fuel => loadFixedLength shuffle [1, 2] (fun u => .ok (if u = 3 then [1] else [])) 16000 fuel := by
  rw [C54_builder_exactly shuffle hsh, C54_builder_exactly shuffle hsh]
  simp

/-- If every file can be loaded, the loop raises nothing, and it has loaded something unless it stops at
once. -/
theorem gatherLoop_clean {ι ρ : Type} {shuffle : ℕ → List ι → List ι} (hsh : Shuffles shuffle)
    {go : ρ → ℕ → Bool} {load : ρ → ι → Except String (List ℝ × ρ)} (K : ρ → Prop) (S : List ι)
    (hload : ∀ r u, K r → u ∈ S → ∃ a r', load r u = .ok (a, r') ∧ K r') :
    ∀ (fuel : ℕ) (r : ρ) (s : Gather ι), K r → s.order ≠ [] → (∀ u ∈ s.order, u ∈ S) →
      gatherLoop shuffle go load fuel r s = none ∨ ∃ r' s', gatherLoop shuffle go load fuel r s =
        some (.ok (r', s')) ∧ K r' ∧ (s.chunks ≠ [] ∨ go r s.total = true → s'.chunks ≠ [])
  | 0, r, s, hk, _, _ => by
    unfold gatherLoop
    by_cases hg : go r s.total = true
    · exact Or.inl (if_pos hg)
    · rw [if_neg hg]
      exact Or.inr ⟨r, s, rfl, hk, fun h => h.resolve_right hg⟩
  | fuel + 1, r, s, hk, hne, hS => by
    unfold gatherLoop
    by_cases hg : go r s.total = true
    · rw [if_pos hg]
      have hpos : 0 < s.order.length := List.length_pos_iff.mpr hne
      have hlt : (s.refill shuffle).idx < (s.refill shuffle).order.length := by
        unfold Gather.refill
        split_ifs with hi
        · dsimp only
          rw [(hsh _ _).length_eq]
          exact hpos
        · omega
      rw [List.getElem?_eq_getElem hlt]
      dsimp only
      obtain ⟨a, r', hl, hk'⟩ := hload r _ hk (hS _ ((refill_mem hsh s).mp (List.getElem_mem hlt)))
      rw [hl]
      dsimp only
      rcases gatherLoop_clean hsh K S hload fuel r' { s.refill shuffle with
          idx := (s.refill shuffle).idx + 1
          ids := s.ids ++ [(s.refill shuffle).order[(s.refill shuffle).idx]]
          chunks := s.chunks ++ [a]
          total := s.total + a.length } hk' (fun e => by
            dsimp only at e
            rw [e] at hlt
            exact absurd hlt (by simp)) (fun u hu => hS u ((refill_mem hsh s).mp hu)) with h | ⟨r'', s', h, hk'', hc⟩
      · exact Or.inl h
      · exact Or.inr ⟨r'', s', h, hk'', fun _ => hc (Or.inl (by simp))⟩
    · rw [if_neg hg]
      exact Or.inr ⟨r, s, rfl, hk, fun h => h.resolve_right hg⟩

/-- Every utterance of the speaker can be loaded, at the rate `fs`, and there is one. -/
def Loadable {ι : Type} (d : SpeakerData ι) (fs : ℕ) : Prop :=
  d.sentences ≠ [] ∧ ∀ u ∈ d.sentences, ∃ a, d.audio u = .ok (a, fs)

theorem loadSpeakers_silent {ι σ : Type} {shuffle : ℕ → List ι → List ι} (hsh : Shuffles shuffle)
    (duration : ℝ) (data : σ → SpeakerData ι) (fs : ℕ) (ht : 1 ≤ duration * fs) (fuel : ℕ) :
    ∀ (speakers : List σ) (r : RateState) (k : ℕ), r = none ∨ r = some (fs, trunc (duration * fs)) →
      (∀ spk ∈ speakers, Loadable (data spk) fs) →
      (∃ spk ∈ speakers, ∀ u ∈ (data spk).sentences, (data spk).audio u = .ok ([], fs)) →
      loadSpeakers shuffle duration fuel data speakers r k = none := by
  have htr : 0 < trunc (duration * fs) := by
    unfold trunc
    rw [if_pos (by linarith)]
    exact Int.floor_pos.mpr ht
  have hwant : ∀ r : RateState, r = none ∨ r = some (fs, trunc (duration * fs)) → wants r 0 = true := by
    rintro r (rfl | rfl)
    · rfl
    · simpa [wants] using htr
  have hld : ∀ (d : SpeakerData ι) (r : RateState) (u : ι) (a : List ℝ),
      r = none ∨ r = some (fs, trunc (duration * fs)) → d.audio u = .ok (a, fs) →
      loadChecked d duration r u = .ok (a, some (fs, trunc (duration * fs))) := by
    rintro d r u a (rfl | rfl) h
    · simp [loadChecked, h]
    · simp [loadChecked, h]
  have hne : ∀ (l : List ι) k, l ≠ [] → shuffle k l ≠ [] := fun l k hs e =>
    hs (List.eq_nil_of_length_eq_zero (by rw [← (hsh k l).length_eq]; simpa using e))
  intro speakers
  induction speakers with
  | nil => rintro r k - - ⟨spk, h, -⟩; exact absurd h (by simp)
  | cons spk rest ih =>
    rintro r k hr hl ⟨spk', hm, hsil⟩
    obtain ⟨hs, hload⟩ := hl spk List.mem_cons_self
    unfold loadSpeakers
    by_cases hspk : ∀ u ∈ (data spk).sentences, (data spk).audio u = .ok ([], fs)
    · have : loadSpeaker shuffle duration fuel (data spk) r k = none := by
        unfold loadSpeaker
        rw [if_neg hs, gatherLoop_diverges hsh (fun r => r = none ∨ r = some (fs, trunc (duration * fs)))
          (data spk).sentences hwant (fun r u hr hu => ⟨_, hld _ r u [] hr (hspk u hu), Or.inr rfl⟩) fuel r _ hr
          (hne _ _ hs) (fun u hu => (hsh _ _).mem_iff.mp hu) rfl]
        rfl
      rw [this]
    · have hm' : spk' ∈ rest := by
        rcases List.mem_cons.mp hm with rfl | h
        · exact absurd hsil hspk
        · exact h
      have hcl := gatherLoop_clean hsh (go := wants) (load := loadChecked (data spk) duration)
        (fun r => r = none ∨ r = some (fs, trunc (duration * fs))) (data spk).sentences
        (fun r u hr hu => by
          obtain ⟨a, ha⟩ := hload u hu
          exact ⟨a, _, hld _ r u a hr ha, Or.inr rfl⟩) fuel r ⟨shuffle k (data spk).sentences, 0, k + 1, [], [], 0⟩ hr
        (hne _ _ hs) (fun u hu => (hsh _ _).mem_iff.mp hu)
      unfold loadSpeaker
      rw [if_neg hs]
      rcases hcl with h | ⟨r', s', h, hr', hc⟩
      · rw [h]
        rfl
      · have hc := hc (Or.inr (hwant r hr))
        obtain ⟨row, hrow⟩ : ∃ row, catSlice r' s'.chunks = .ok row := by
          unfold catSlice
          rw [if_neg hc]
          cases r' with
          | none => exact ⟨_, rfl⟩
          | some p => exact ⟨_, rfl⟩
        rw [h]
        dsimp only [Option.map_some]
        rw [hrow]
        dsimp only [Except.map]
        rw [ih r' _ hr' (fun s hs => hl s (List.mem_cons_of_mem _ hs)) ⟨spk', hm', hsil⟩]

/-- **C54, exactly (`load_dataset_sources`).** If all files can be loaded and have one sampling rate, every
speaker has a sentence and at least one sample is wanted, `load_dataset_sources` ends exactly if the
number of sources is refused or every chosen speaker has an utterance that is not empty. -/
theorem C54_load_dataset_sources_exactly {ι σ : Type} (sample : List σ → ℕ → List σ)
    (hsample : Samples sample) (shuffle : ℕ → List ι → List ι) (hsh : Shuffles shuffle)
    (speakers : List σ) (data : σ → SpeakerData ι) (fs : ℕ) (hl : ∀ spk ∈ speakers, Loadable (data spk) fs)
    (numSources : ℤ) (duration : ℝ) (ht : 1 ≤ duration * fs) :
    (Terminates fun fuel => loadDatasetSources sample shuffle speakers data numSources duration fuel) ↔
      (speakers = [] ∨ numSources < 0 ∨ speakers.length < numSources) ∨
        ∀ spk ∈ sample speakers numSources.toNat, ∃ u ∈ (data spk).sentences, (data spk).audio u ≠ .ok ([], fs) := by
  by_cases hr : speakers = [] ∨ numSources < 0 ∨ speakers.length < numSources
  · refine ⟨fun _ => Or.inl hr, fun _ => ?_⟩
    have : ∃ e, chooseSpeakers sample speakers numSources = .error e := by
      unfold chooseSpeakers
      split_ifs
      · exact ⟨_, rfl⟩
      · exact ⟨_, rfl⟩
      · exact ⟨_, rfl⟩
      · tauto
    obtain ⟨e, he⟩ := this
    unfold loadDatasetSources
    rw [he]
    exact ⟨0, .error e, fun _ _ => rfl⟩
  · have hr' := hr
    push Not at hr'
    obtain ⟨h1, h2, h3⟩ := hr'
    have hc : chooseSpeakers sample speakers numSources = .ok (sample speakers numSources.toNat) := by
      unfold chooseSpeakers
      rw [if_neg h1, if_neg (by omega), if_neg (by omega)]
    have hsub : ∀ s ∈ sample speakers numSources.toNat, s ∈ speakers := fun s hs =>
      (hsample speakers numSources.toNat (by omega)).2.subset hs
    unfold loadDatasetSources
    simp only [hc]
    constructor
    · rintro ⟨F, x, hx⟩
      refine Or.inr fun spk hspk => ?_
      by_contra hno
      push Not at hno
      have := hx F le_rfl
      dsimp only at this
      rw [loadSpeakers_silent hsh duration data fs ht F _ none 0 (Or.inl rfl)
        (fun s hs => hl s (hsub s hs)) ⟨spk, hspk, hno⟩] at this
      cases this
    · intro h
      have h := h.resolve_left hr
      obtain ⟨F, x, hx⟩ := loadSpeakers_terminates hsh duration data (sample speakers numSources.toNat) none 0
        (fun s hs => by
          obtain ⟨u, hu, hne⟩ := h s hs
          obtain ⟨a, ha⟩ := (hl s (hsub s hs)).2 u hu
          refine Or.inr ⟨u, hu, fun b hb e => hne ?_⟩
          rw [ha] at hb ⊢
          cases hb
          exact congrArg (fun z => Except.ok (z, fs)) e)
      dsimp only at hx
      exact ⟨F, _, fun fuel hf => by dsimp only; rw [hx fuel hf]; rfl⟩

/-- One of two speakers has only an empty file: with both chosen the call never returns. -/
example (sample : List Bool → ℕ → List Bool) (hsample : Samples sample) (shuffle : ℕ → List ℕ → List ℕ)
    (hsh : Shuffles shuffle) :
    ¬ Terminates fun fuel => loadDatasetSources sample shuffle [true, false]
      (fun b => ⟨[0], fun _ => .ok (if b then [1] else [], 16000)⟩) 2 1 fuel := by
  rw [C54_load_dataset_sources_exactly sample hsample shuffle hsh _ _ 16000 ?_ _ _ (by norm_num)]
  · intro h
    have h := h.resolve_left (by simp)
    obtain ⟨h1, h2⟩ := hsample [true, false] 2 (by simp)
    have hp := h2.perm_of_length_le (by rw [h1]; rfl)
    have := h false (hp.mem_iff.mpr (by simp))
    simp at this
  · intro b _
    exact ⟨by simp, fun u _ => ⟨_, rfl⟩⟩

/-- **C60, exactly.** If the sampling of an array centre succeeds, then for all valid motion arguments, random
values and positive numbers of trials the placement of the sources succeeds exactly if the height
margin is below half the height of the room. -/
theorem C60_feasible_exactly (u room margin center : P3)
    (hu : (0 ≤ u.x ∧ u.x ≤ 1) ∧ (0 ≤ u.y ∧ u.y ≤ 1) ∧ 0 ≤ u.z ∧ u.z ≤ 1) (radius : ℝ)
    (h : sampleMicCenter u room margin 1.8 radius = .ok center) (m : Motion) (draws : ℕ → TrialDraws)
    (choice : List ℕ) (hm : Motion.Valid m) (hd : ∀ k, TrialDraws.Valid (draws k) m.nSources.toNat)
    (maxTrials : ℕ) :
    (∃ placed, placeSources draws choice room center margin m 1.8 (maxTrials + 1) = .ok placed) ↔
      margin.z < room.z - margin.z := by
  obtain ⟨h1, -⟩ := sampleMicCenter_ok hu h
  refine ⟨?_, fun hz => placeSources_first (hd 0) hm h1 hz maxTrials⟩
  rintro ⟨placed, hp⟩
  by_contra hz
  have hone : ∀ (d : TrialDraws) (n : ℕ) (moving : List ℕ) (x y z R : ℝ), 0 < n →
      ∃ e, placeOnce d room center margin n moving x y z 1.8 R = .error e := by
    intro d n moving x y z R hn
    cases hp : placeOnce d room center margin n moving x y z 1.8 R with
    | error e => exact ⟨e, rfl⟩
    | ok p =>
      exfalso
      unfold placeOnce at hp
      dsimp only at hp
      rw [bind_eq_ok] at hp
      obtain ⟨starts, hs, -⟩ := hp
      obtain ⟨y, hy⟩ := mapM_ok_mem hs 0 (List.mem_range.mpr hn)
      unfold samplePosition areaOf at hy
      dsimp only at hy
      rw [if_pos (not_lt.mp hz)] at hy
      cases hy
  have htry : ∀ (n : ℕ) (moving : List ℕ) (x y z R : ℝ), 0 < n → ∀ left k, ∃ e,
      tryPlace (fun d => placeOnce d room center margin n moving x y z 1.8 R) draws left k = .error e := by
    intro n moving x y z R hn left
    induction left with
    | zero => exact fun k => ⟨_, rfl⟩
    | succ left ih =>
      intro k
      obtain ⟨e, he⟩ := hone (draws k) n moving x y z R hn
      unfold tryPlace
      rw [he]
      exact ih (k + 1)
  unfold placeSources at hp
  dsimp only at hp
  split_ifs at hp with g1 g2 g3 g4 g5 g6 g7
  all_goals
    obtain ⟨e, he⟩ := htry m.nSources.toNat _ _ _ _ _ (by omega) (maxTrials + 1) 0
    rw [he] at hp
    cases hp

/-- In a room of 8 × 6 × 3 m with a height margin of 1.4 sources can be placed, although the permitted band of
heights is only 0.2 m; in the same room with a margin of 1.5 they cannot. -/
example (z : ℝ) (hz : z = 1.4 ∨ z = 1.5) :
    ∃ center, sampleMicCenter ⟨0.5, 0.5, 0.5⟩ ⟨8, 6, 3⟩ ⟨0.5, 0.5, z⟩ 1.8 1 = .ok center ∧
      ((∃ placed, placeSources (middleDraws 0).trial (middleDraws 0).choice ⟨8, 6, 3⟩ center ⟨0.5, 0.5, z⟩
        ⟨2, 1, 20, 0.35, 0.65, 0.3, 0.8⟩ 1.8 100 = .ok placed) ↔ z = 1.4) := by
  obtain ⟨center, h⟩ : ∃ center,
      sampleMicCenter ⟨0.5, 0.5, 0.5⟩ ⟨8, 6, 3⟩ ⟨0.5, 0.5, z⟩ 1.8 1 = .ok center := by
    apply sampleMicCenter_succeeds
    unfold areaOf
    dsimp only
    refine ⟨⟨max_lt (lt_min ?_ ?_) (lt_min ?_ ?_), max_lt (lt_min ?_ ?_) (lt_min ?_ ?_)⟩, ?_⟩ <;> norm_num
  refine ⟨center, h, ?_⟩
  rw [C60_feasible_exactly _ _ _ _ (by norm_num) _ h _ _ _
    ⟨by norm_num, by norm_num, by norm_num, by norm_num, by norm_num⟩ (middleDraws_valid 0).trial 99]
  rcases hz with rfl | rfl <;> norm_num

end Torchrir.Props
