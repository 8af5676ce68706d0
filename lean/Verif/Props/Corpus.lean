import Verif.Spec.Corpus
import Verif.Lemmas.Ism
import Verif.Props.Audio
import Verif.Props.Dataset
import Mathlib.Data.List.Lemmas
import Mathlib.Data.String.Basic

/-! # Speech corpora on disk: C99, C100 -/

namespace Torchrir.Props

open Torchrir.Model Torchrir.Spec Torchrir.Lemmas

/-! ## Speakers -/

theorem sorted_mergeSort (l : List String) : (l.mergeSort (· ≤ ·)).Pairwise (· ≤ ·) := by
  have h := List.pairwise_mergeSort (le := fun a b : String => decide (a ≤ b))
    (fun a b c hab hbc => by simpa using le_trans (of_decide_eq_true hab) (of_decide_eq_true hbc))
    (fun a b => by simpa using le_total a b) l
  exact h.imp fun hab => of_decide_eq_true hab

/-- **C99 (speakers).** `list_speakers` of a whole subset is the sorted list of the directories directly below the subset
directory, each once; without that directory it is empty. For a dataset of one speaker it is that speaker. -/
theorem C99_speakers (t : Listing) (ht : (t.map Prod.fst).Nodup) :
    (libriSpeakers none (some t)).Pairwise (· ≤ ·) ∧ (libriSpeakers none (some t)).Nodup ∧
      (∀ s : String, s ∈ libriSpeakers none (some t) ↔ ([s.toList], DiskEntry.dir) ∈ t) ∧
      libriSpeakers none none = [] ∧ ∀ s subset, libriSpeakers (some s) subset = [s] := by
  refine ⟨sorted_mergeSort _, ?_, ?_, rfl, fun _ _ => rfl⟩
  · unfold libriSpeakers
    rw [List.nodup_mergeSort]
    refine List.Nodup.filterMap ?_ (List.Nodup.of_map _ ht)
    rintro ⟨p, e⟩ ⟨p', e'⟩ s hs hs'
    split at hs
    · rename_i name heq
      split at hs'
      · rename_i name' heq'
        cases heq
        cases heq'
        cases hs
        have : String.ofList name' = String.ofList name := Option.some.inj hs'
        rw [String.ofList_injective this]
      · cases hs'
    · cases hs
  · intro s
    unfold libriSpeakers
    rw [List.mem_mergeSort, List.mem_filterMap]
    constructor
    · rintro ⟨⟨p, e⟩, he, h⟩
      split at h
      · rename_i name heq
        cases heq
        cases h
        simpa using he
      · cases h
    · intro h
      exact ⟨_, h, by simp⟩

/-! ## LibriSpeech -/

theorem cutSuffix_some {suffix name stem : List Char} : cutSuffix suffix name = some stem ↔ name = stem ++ suffix := by
  unfold cutSuffix
  constructor
  · intro h
    split_ifs at h with hs
    obtain ⟨a, rfl⟩ := List.isSuffixOf_iff_suffix.mp hs
    cases h
    simp
  · rintro rfl
    rw [if_pos (List.isSuffixOf_iff_suffix.mpr ⟨stem, rfl⟩)]
    simp

theorem mem_flacIds {t : Listing} {d : List (List Char)} {u : List Char} :
    u ∈ flacIds t d ↔ d ++ [u ++ ".flac".toList] ∈ t.map Prod.fst := by
  unfold flacIds
  rw [List.mem_filterMap, List.mem_map]
  constructor
  · rintro ⟨e, he, h⟩
    split_ifs at h with hd
    refine ⟨e, he, ?_⟩
    rw [← hd.2, ← cutSuffix_some.mp h, List.getLastD_eq_getLast?, List.getLast?_eq_some_getLast hd.1]
    exact (List.dropLast_append_getLast hd.1).symm
  · rintro ⟨e, he, h⟩
    refine ⟨e, he, ?_⟩
    rw [h, if_pos ⟨by simp, by simp⟩]
    rw [cutSuffix_some]
    simp

theorem libriAvailable_fileOf (entries : List (List Char × List Char)) (h : ∀ e ∈ entries, IsId e.1 ∧ OneLine e.2)
    (ids : List (List Char)) :
    libriAvailable (fileOf (entries.map fun e => libriLine e.1 e.2)) ids =
      (entries.map fun e => (e.1, strip e.2)).filter fun r => decide (r.1 ∈ ids) := by
  obtain ⟨read, hr, hread⟩ := C52_libri_file entries h ids
  rw [hread]
  congr 1
  clear hread h
  induction hr with
  | nil => rfl
  | cons hd _ ih => rw [List.map_cons, ← ih, ← hd.1, ← hd.2.unique]

/-- The sentences of a chapter whose audio is there. -/
def Chapter.sentences (c : Chapter) (t : Listing) : List LibriSentence :=
  (c.lines.filter fun l => t.has (c.flac l.1)).map fun l =>
    { utteranceId := c.id l.1, text := strip l.2, speakerId := c.speaker, chapterId := c.chapter }

theorem libriChapter_corpus {chapters : List Chapter} {t : Listing} (h : IsCorpus chapters t) (subset : List Char)
    {c : Chapter} (hc : c ∈ chapters) :
    libriChapter subset t (c.transcript, .file c.content) = .ok (Chapter.sentences c t) := by
  unfold libriChapter Chapter.content
  dsimp only
  have e : (c.lines.map fun l => libriLine (c.id l.1) l.2) =
      (c.lines.map fun l => (c.id l.1, l.2)).map fun e => libriLine e.1 e.2 := by
    rw [List.map_map]; rfl
  rw [e, libriAvailable_fileOf _ (by
    intro x hx
    obtain ⟨l, hl, rfl⟩ := List.mem_map.mp hx
    exact h.lines c hc l hl)]
  unfold Chapter.sentences
  rw [List.map_map, List.filter_map, List.map_map]
  congr 2
  refine List.filter_congr fun l _ => ?_
  simp only [Function.comp, Listing.has, decide_eq_decide]
  exact mem_flacIds

theorem mem_transcripts {chapters : List Chapter} {t : Listing} (h : IsCorpus chapters t) (speaker : Option String)
    (e : List (List Char) × DiskEntry) :
    e ∈ transcripts t (speakerDir speaker) ↔ ∃ c ∈ chapters, e = (c.transcript, .file c.content) ∧
      (speakerDir speaker = [] ∨ speakerDir speaker = [c.speaker]) := by
  have hd : speakerDir speaker = [] ∨ ∃ s, speakerDir speaker = [s] := by
    unfold speakerDir
    split
    · exact Or.inl rfl
    · split
      · exact Or.inl rfl
      · exact Or.inr ⟨_, rfl⟩
  unfold transcripts
  rw [List.mem_filter]
  simp only [Bool.and_eq_true, decide_eq_true_eq]
  constructor
  · rintro ⟨he, ⟨hp, hl⟩, hs⟩
    obtain ⟨c, hc, rfl⟩ := h.nothingElse e he hs
    refine ⟨c, hc, rfl, ?_⟩
    rcases hd with hd | ⟨s, hd⟩
    · exact Or.inl hd
    · right
      rw [hd] at hp ⊢
      have := List.isPrefixOf_iff_prefix.mp hp
      unfold Chapter.transcript at this
      rw [List.cons_prefix_cons] at this
      rw [this.1]
  · rintro ⟨c, hc, rfl, hs⟩
    refine ⟨h.written c hc, ⟨?_, ?_⟩, ?_⟩
    · rw [List.isPrefixOf_iff_prefix]
      rcases hs with hs | hs <;> rw [hs]
      · exact List.nil_prefix
      · exact ⟨_, rfl⟩
    · rcases hs with hs | hs <;> rw [hs] <;> simp [Chapter.transcript]
    · rw [List.isSuffixOf_iff_suffix]
      exact ⟨c.speaker ++ '-' :: c.chapter, by simp [Chapter.transcript]⟩

/-- The chapter of an entry, read back from its path. -/
theorem transcript_inj {c c' : Chapter} (h : c.transcript = c'.transcript) :
    c.speaker = c'.speaker ∧ c.chapter = c'.chapter := by
  unfold Chapter.transcript at h
  exact ⟨List.cons.inj h |>.1, (List.cons.inj (List.cons.inj h).2).1⟩

/-- The sentences found in an entry of the listing. -/
def foundIn (subset : List Char) (t : Listing) (e : List (List Char) × DiskEntry) : List LibriSentence :=
  match libriChapter subset t e with
  | .ok l => l
  | .error _ => []

theorem libriSentences_eq {chapters : List Chapter} {t : Listing} (h : IsCorpus chapters t) (subset : List Char)
    (speaker : Option String) :
    libriSentences subset speaker t =
      .ok ((transcripts t (speakerDir speaker)).flatMap (foundIn subset t)) := by
  unfold libriSentences
  rw [mapM_ok (g := foundIn subset t), ok_bind]
  · rfl
  · intro e he
    obtain ⟨c, hc, rfl, -⟩ := (mem_transcripts h speaker e).mp he
    unfold foundIn
    rw [libriChapter_corpus h subset hc]

theorem foundIn_corpus {chapters : List Chapter} {t : Listing} (h : IsCorpus chapters t) (subset : List Char)
    {c : Chapter} (hc : c ∈ chapters) :
    foundIn subset t (c.transcript, .file c.content) = Chapter.sentences c t := by
  unfold foundIn
  rw [libriChapter_corpus h subset hc]

theorem IsTrimmed.iff {t core : List Char} : IsTrimmed t core ↔ core = strip t :=
  ⟨IsTrimmed.unique, fun h => h ▸ strip_trimmed t⟩

theorem mem_sentences {c : Chapter} {t : Listing} {s : LibriSentence} :
    s ∈ Chapter.sentences c t ↔ ∃ l ∈ c.lines, t.has (c.flac l.1) = true ∧ IsSentence c l s := by
  unfold Chapter.sentences IsSentence
  rw [List.mem_map]
  constructor
  · rintro ⟨l, hl, rfl⟩
    rw [List.mem_filter] at hl
    exact ⟨l, hl.1, hl.2, rfl, strip_trimmed _, rfl, rfl⟩
  · rintro ⟨l, hl, hf, h1, h2, h3, h4⟩
    refine ⟨l, List.mem_filter.mpr ⟨hl, hf⟩, ?_⟩
    cases s
    simp only [LibriSentence.mk.injEq]
    exact ⟨h1.symm, h2.unique.symm, h3.symm, h4.symm⟩

theorem id_inj {a b c a' b' c' : List Char} (ha : '-' ∉ a) (ha' : '-' ∉ a') (hb : '-' ∉ b) (hb' : '-' ∉ b')
    (h : a ++ '-' :: (b ++ '-' :: c) = a' ++ '-' :: (b' ++ '-' :: c')) : a = a' ∧ b = b' ∧ c = c' := by
  have h1 := congrArg (partition '-') h
  rw [partition_stop ha, partition_stop ha'] at h1
  obtain ⟨rfl, h2⟩ := Prod.mk.inj h1
  have h3 := congrArg (partition '-') h2
  rw [partition_stop hb, partition_stop hb'] at h3
  obtain ⟨rfl, rfl⟩ := Prod.mk.inj h3
  exact ⟨rfl, rfl, rfl⟩

/-- **C99 (LibriSpeech, sentences).** For every corpus and every selection (a speaker or all): the sentences listed are
exactly those of the lines of the transcripts of the selected speakers whose audio file is beside the transcript, with
identifier, text, speaker and chapter of that line; and no utterance is listed twice. -/
theorem C99_libri_sentences {chapters : List Chapter} {t : Listing} (h : IsCorpus chapters t) (subset : List Char)
    (speaker : Option String) :
    ∃ found, libriSentences subset speaker t = .ok found ∧
      (∀ s, s ∈ found ↔ ∃ c ∈ chapters, (speaker = none ∨ speaker = some "" ∨ speaker = some (String.ofList c.speaker)) ∧
        ∃ l ∈ c.lines, t.has (c.flac l.1) = true ∧ IsSentence c l s) ∧
      ((∀ c ∈ chapters, (c.lines.map Prod.fst).Nodup) → (found.map (·.utteranceId)).Nodup) := by
  refine ⟨_, libriSentences_eq h subset speaker, ?_, ?_⟩
  · intro s
    rw [List.mem_flatMap]
    have hdir : ∀ c ∈ chapters, (speakerDir speaker = [] ∨ speakerDir speaker = [c.speaker]) ↔
        (speaker = none ∨ speaker = some "" ∨ speaker = some (String.ofList c.speaker)) := by
      intro c hc
      unfold speakerDir
      cases speaker with
      | none => simp
      | some x =>
        by_cases hx : x = ""
        · simp [hx]
        · simp only [hx, if_false, List.cons_ne_nil, false_or, reduceCtorEq, Option.some.injEq, List.cons.injEq,
            and_true]
          constructor
          · intro hh
            rw [← hh, String.ofList_toList]
          · rintro rfl
            rw [String.toList_ofList]
    constructor
    · rintro ⟨e, he, hs⟩
      obtain ⟨c, hc, rfl, hd⟩ := (mem_transcripts h speaker e).mp he
      rw [foundIn_corpus h subset hc, mem_sentences] at hs
      exact ⟨c, hc, (hdir c hc).mp hd, hs⟩
    · rintro ⟨c, hc, hd, hs⟩
      refine ⟨_, (mem_transcripts h speaker _).mpr ⟨c, hc, rfl, (hdir c hc).mpr hd⟩, ?_⟩
      rw [foundIn_corpus h subset hc, mem_sentences]
      exact hs
  · intro hn
    have hnd : (transcripts t (speakerDir speaker)).Nodup := (List.Nodup.of_map _ h.paths).filter _
    rw [List.map_flatMap, List.nodup_flatMap]
    constructor
    · intro e he
      obtain ⟨c, hc, rfl, -⟩ := (mem_transcripts h speaker e).mp he
      rw [foundIn_corpus h subset hc]
      unfold Chapter.sentences
      rw [List.map_map]
      have h1 : ((c.lines.filter fun l => t.has (c.flac l.1)).map Prod.fst).Nodup :=
        (hn c hc).sublist (List.filter_sublist.map _)
      have h2 : (((c.lines.filter fun l => t.has (c.flac l.1)).map Prod.fst).map c.id).Nodup := by
        refine h1.map fun a b hab => ?_
        exact (id_inj (h.readers c hc).2.1 (h.readers c hc).2.1 (h.names c hc).2 (h.names c hc).2 hab).2.2
      rw [List.map_map] at h2
      exact h2
    · refine hnd.imp_of_mem ?_
      intro e e' he he' hne
      obtain ⟨c, hc, rfl, -⟩ := (mem_transcripts h speaker e).mp he
      obtain ⟨c', hc', rfl, -⟩ := (mem_transcripts h speaker e').mp he'
      rw [Function.onFun, foundIn_corpus h subset hc, foundIn_corpus h subset hc', List.disjoint_left]
      intro u hu hu'
      obtain ⟨s, hs, rfl⟩ := List.mem_map.mp hu
      obtain ⟨s', hs', hss⟩ := List.mem_map.mp hu'
      obtain ⟨l, -, -, hl, -⟩ := mem_sentences.mp hs
      obtain ⟨l', -, -, hl', -⟩ := mem_sentences.mp hs'
      rw [hl, hl'] at hss
      obtain ⟨e1, e2, -⟩ := id_inj (h.readers c' hc').2.1 (h.readers c hc).2.1 (h.names c' hc').2 (h.names c hc).2 hss
      have hp : c.transcript = c'.transcript := by unfold Chapter.transcript; rw [e1, e2]
      exact hne (List.inj_on_of_nodup_map h.paths (h.written c hc) (h.written c' hc') hp)

theorem filter_flatMap_split {α β : Type} (p : α → Bool) (q : β → Bool) (f : α → List β) :
    ∀ l : List α, (∀ a ∈ l, (f a).filter q = if p a then f a else []) →
      (l.filter p).flatMap f = (l.flatMap f).filter q
  | [], _ => rfl
  | a :: l, h => by
    rw [List.flatMap_cons, List.filter_append, h a (List.mem_cons_self ..),
      ← filter_flatMap_split p q f l fun x hx => h x (List.mem_cons_of_mem _ hx), List.filter_cons]
    split_ifs <;> simp

/-- **C99 (LibriSpeech, directories).** A directory whose name ends like that of a transcript makes the listing fail. -/
theorem C99_transcript_directory (t : Listing) (subset : List Char) (speaker : Option String) (p : List (List Char))
    (hp : (p, DiskEntry.dir) ∈ t) (hroot : speakerDir speaker <+: p) (hlen : (speakerDir speaker).length < p.length)
    (hsuf : ".trans.txt".toList <:+ p.getLastD []) : ∃ e, libriSentences subset speaker t = .error e := by
  cases h : libriSentences subset speaker t with
  | error e => exact ⟨e, rfl⟩
  | ok r =>
    unfold libriSentences at h
    obtain ⟨found, hf, -⟩ := (bind_eq_ok _ _ _).mp h
    have hm : (p, DiskEntry.dir) ∈ transcripts t (speakerDir speaker) := by
      unfold transcripts
      rw [List.mem_filter]
      refine ⟨hp, ?_⟩
      rw [Bool.and_eq_true, Bool.and_eq_true, List.isPrefixOf_iff_prefix, List.isSuffixOf_iff_suffix]
      exact ⟨⟨hroot, by simpa using hlen⟩, hsuf⟩
    obtain ⟨y, hy⟩ := mapM_ok_mem hf _ hm
    cases hy

/-- **C99 (LibriSpeech, one speaker).** A dataset of one speaker lists the sentences of that speaker of the whole subset,
in the same order. -/
theorem C99_one_speaker {chapters : List Chapter} {t : Listing} (h : IsCorpus chapters t) (subset : List Char)
    (speaker : String) (hs : speaker ≠ "") :
    libriSentences subset (some speaker) t =
      (libriSentences subset none t).map fun l => l.filter fun s => decide (s.speakerId = speaker.toList) := by
  rw [libriSentences_eq h, libriSentences_eq h]
  show Except.ok _ = Except.ok _
  congr 1
  have hd : speakerDir (some speaker) = [speaker.toList] := by simp [speakerDir, hs]
  have key : transcripts t (speakerDir (some speaker)) =
      (transcripts t (speakerDir none)).filter fun e => (speakerDir (some speaker)).isPrefixOf e.1 := by
    unfold transcripts
    rw [List.filter_filter]
    refine List.filter_congr fun e he => ?_
    by_cases hsuf : (".trans.txt".toList).isSuffixOf (e.1.getLastD []) = true
    · obtain ⟨c, hc, rfl⟩ := h.nothingElse e he hsuf
      rw [hd]
      simp [speakerDir, Chapter.transcript]
    · rw [Bool.not_eq_true] at hsuf
      rw [hsuf]
      simp
  rw [key]
  refine filter_flatMap_split _ _ _ _ fun e he => ?_
  obtain ⟨c, hc, rfl, -⟩ := (mem_transcripts h none e).mp he
  rw [foundIn_corpus h subset hc, hd]
  have hpre : [speaker.toList].isPrefixOf c.transcript = decide (c.speaker = speaker.toList) := by
    rw [Bool.eq_iff_iff, List.isPrefixOf_iff_prefix, decide_eq_true_eq]
    unfold Chapter.transcript
    rw [List.cons_prefix_cons]
    exact ⟨fun h => h.1.symm, fun h => ⟨h.symm, List.nil_prefix⟩⟩
  rw [hpre]
  by_cases hcs : c.speaker = speaker.toList
  · rw [if_pos (by simpa using hcs), List.filter_eq_self]
    intro s hs
    obtain ⟨l, -, -, -, -, h3, -⟩ := mem_sentences.mp hs
    simpa [h3] using hcs
  · rw [if_neg (by simpa using hcs), List.filter_eq_nil_iff]
    intro s hs
    obtain ⟨l, -, -, -, -, h3, -⟩ := mem_sentences.mp hs
    simpa [h3] using hcs

/-- **C99 (LibriSpeech, path, exactly).** For every identifier: `load_audio` opens the file `id.flac` in the directory `d`
exactly if `d` is the directory that the first two parts of the identifier name (empty parts name nothing), and it raises
exactly if the identifier has fewer than two hyphens. -/
theorem C99_path_exactly (u : List Char) :
    (∀ d, libriPath u = .ok (d ++ [u ++ ".flac".toList]) ↔
      ∃ a b c, u = a ++ '-' :: (b ++ '-' :: c) ∧ '-' ∉ a ∧ '-' ∉ b ∧ d = [a, b].filter (· ≠ [])) ∧
    ((∃ e, libriPath u = .error e) ↔ u.count '-' < 2) := by
  have hsplit : ∀ v : List Char, '-' ∈ v → ∃ a r, v = a ++ '-' :: r ∧ '-' ∉ a ∧ partition '-' v = (a, r) := by
    intro v hv
    obtain ⟨a, r, rfl, ha⟩ := List.eq_append_cons_of_mem hv
    exact ⟨a, r, rfl, ha, partition_stop ha⟩
  by_cases h1 : '-' ∈ u
  · obtain ⟨a, r, rfl, ha, hp⟩ := hsplit u h1
    by_cases h2 : '-' ∈ r
    · obtain ⟨b, c, rfl, hb, hp'⟩ := hsplit r h2
      have e : libriPath (a ++ '-' :: (b ++ '-' :: c)) =
          .ok ([a, b].filter (· ≠ []) ++ [(a ++ '-' :: (b ++ '-' :: c)) ++ ".flac".toList]) := by
        unfold libriPath
        rw [hp]
        dsimp only
        rw [hp']
        dsimp only
        rw [if_pos ⟨h1, h2⟩]
      rw [e]
      constructor
      · intro d
        constructor
        · intro h
          refine ⟨a, b, c, rfl, ha, hb, ?_⟩
          exact (List.append_cancel_right (Except.ok.inj h)).symm
        · rintro ⟨a', b', c', hu, ha', hb', rfl⟩
          obtain ⟨rfl, rfl, rfl⟩ := id_inj ha ha' hb hb' hu
          rfl
      · simp only [reduceCtorEq, exists_false, false_iff, not_lt]
        simp only [List.count_append, List.count_cons_self]
        omega
    · have e : libriPath (a ++ '-' :: r) = .error "not enough values to unpack (expected 3)" := by
        unfold libriPath
        rw [hp]
        dsimp only
        rw [if_neg fun h => h2 h.2]
      rw [e]
      constructor
      · intro d
        simp only [reduceCtorEq, false_iff]
        rintro ⟨a', b', c', hu, ha', hb', -⟩
        have := congrArg (partition '-') hu
        rw [hp, partition_stop ha'] at this
        exact h2 (by rw [(Prod.mk.inj this).2]; simp)
      · have h3 : r.count '-' = 0 := List.count_eq_zero.mpr h2
        have h4 : a.count '-' = 0 := List.count_eq_zero.mpr ha
        simp [h3, h4]
  · have e : libriPath u = .error "not enough values to unpack (expected 3)" := by
      unfold libriPath
      rw [partition_none h1]
      dsimp only
      rw [if_neg fun h => h1 h.1]
    rw [e]
    constructor
    · intro d
      simp only [reduceCtorEq, false_iff]
      rintro ⟨a', b', c', rfl, -⟩
      exact h1 (by simp)
    · have h4 : u.count '-' = 0 := List.count_eq_zero.mpr h1
      simp [h4]

theorem lookup_of_mem {t : Listing} (ht : (t.map Prod.fst).Nodup) {p : List (List Char)} {e : DiskEntry}
    (h : (p, e) ∈ t) : t.lookup p = some e := by
  induction t with
  | nil => simp at h
  | cons x t ih =>
    obtain ⟨q, f⟩ := x
    rw [List.map_cons, List.nodup_cons] at ht
    rw [List.lookup_cons]
    rcases List.mem_cons.mp h with h' | h'
    · cases h'
      simp
    · have hne : p ≠ q := by
        rintro rfl
        exact ht.1 (List.mem_map.mpr ⟨_, h', rfl⟩)
      rw [show (p == q) = false from by simpa using hne]
      exact ih ht.2 h'

/-- **C99 (LibriSpeech, audio).** For every listed sentence, `load_audio` of its identifier is what the decoder makes of
the file beside its transcript. -/
theorem C99_libri_audio {chapters : List Chapter} {t : Listing} (h : IsCorpus chapters t)
    (decode : List Char → Except String (Tensor ℝ × ℕ)) {c : Chapter} (hc : c ∈ chapters) (number : List Char)
    (content : List Char) (hf : (c.flac number, DiskEntry.file content) ∈ t) :
    libriLoad decode t (c.id number) = decode content := by
  unfold libriLoad
  have hp := ((C99_path_exactly (c.id number)).1 [c.speaker, c.chapter]).mpr
    ⟨c.speaker, c.chapter, number, rfl, (h.readers c hc).2.1, (h.names c hc).2, by
      rw [List.filter_eq_self.mpr]
      intro x hx
      rcases List.mem_cons.mp hx with rfl | hx
      · simpa using (h.readers c hc).1
      · rcases List.mem_cons.mp hx with rfl | hx
        · simpa using (h.names c hc).1
        · simp at hx⟩
  rw [hp, ok_bind]
  unfold readAudioAt
  rw [show [c.speaker, c.chapter] ++ [c.id number ++ ".flac".toList] = c.flac number from rfl,
    lookup_of_mem h.paths hf]

/-- **C99 (LibriSpeech, items).** An item of a dataset has identifier, text, audio and sampling rate of one and the same
utterance of the corpus, and of the selected speaker: the audio is that of the file beside the transcript. -/
theorem C99_libri_items {μ : Type} {chapters : List Chapter} {t : Listing} (h : IsCorpus chapters t)
    (decode : List Char → Except String (Tensor ℝ × ℕ)) (subset : List Char) (speaker : Option String) (z : ℤ)
    (item : Item μ)
    (hi : (datasetGet (libriFiles decode subset speaker) t ⟨none, speaker⟩ (.int z)).2 = .ok item) :
    ∃ c ∈ chapters, (speaker = none ∨ speaker = some "" ∨ speaker = some (String.ofList c.speaker)) ∧
      ∃ l ∈ c.lines, item.utteranceId = String.ofList (c.id l.1) ∧
        (∃ text, IsTrimmed l.2 text ∧ item.text = some (String.ofList text)) ∧ item.speaker = speaker ∧
        ∃ content, (c.flac l.1, DiskEntry.file content) ∈ t ∧ decode content = .ok (item.audio, item.sampleRate) := by
  obtain ⟨found, hf, hmem, -⟩ := C99_libri_sentences h subset speaker
  simp only [datasetGet, getSentences, libriFiles, hf, Except.map, Except.bind] at hi
  cases hg : pyGet (found.map fun s => (⟨String.ofList s.utteranceId, some (String.ofList s.text)⟩ : Sentence)) z with
  | error e => rw [hg] at hi; cases hi
  | ok x =>
    rw [hg] at hi
    obtain ⟨k, hk, -⟩ := pyGet_ok.mp hg
    obtain ⟨s, hs, rfl⟩ := List.mem_map.mp (List.mem_of_getElem? hk)
    obtain ⟨c, hc, hsp, l, hl, hhas, h1, h2, h3, h4⟩ := (hmem s).mp hs
    refine ⟨c, hc, hsp, l, hl, ?_⟩
    simp only [loadItem, String.toList_ofList] at hi
    rw [h1] at hi
    unfold Listing.has at hhas
    obtain ⟨⟨p, e⟩, he, hp⟩ := List.mem_map.mp (of_decide_eq_true hhas)
    obtain rfl : p = c.flac l.1 := hp
    cases e with
    | file content =>
      rw [C99_libri_audio h decode hc l.1 content he] at hi
      cases hd : decode content with
      | error e => rw [hd] at hi; cases hi
      | ok a =>
        rw [hd] at hi
        cases hi
        exact ⟨rfl, ⟨s.text, h2, rfl⟩, rfl, content, he, hd⟩
    | dir =>
      exfalso
      have hp := ((C99_path_exactly (c.id l.1)).1 [c.speaker, c.chapter]).mpr
        ⟨c.speaker, c.chapter, l.1, rfl, (h.readers c hc).2.1, (h.names c hc).2, by
          simp [(h.readers c hc).1, (h.names c hc).1]⟩
      have : libriLoad decode t (c.id l.1) = .error "Error opening file" := by
        unfold libriLoad
        rw [hp, ok_bind]
        unfold readAudioAt
        rw [show [c.speaker, c.chapter] ++ [c.id l.1 ++ ".flac".toList] = c.flac l.1 from rfl, lookup_of_mem h.paths he]
      rw [this] at hi
      cases hi

/-! ## CMU ARCTIC -/

theorem stemOf_wav (x : List Char) : stemOf (x ++ ".wav".toList) = if x = [] then ".wav".toList else x := by
  unfold stemOf
  rw [show x ++ ".wav".toList = x ++ '.' :: "wav".toList from rfl, suffixOf_eq x _ (by decide)]
  by_cases hx : x = []
  · subst hx
    rfl
  · rw [if_pos ⟨hx, by decide⟩, if_neg hx]
    simp

theorem mem_wavIds {t : Listing} {u : List Char} (hu : u ≠ []) :
    u ∈ wavIds t ↔ t.has ["wav".toList, u ++ ".wav".toList] = true ∨
      (u = ".wav".toList ∧ t.has ["wav".toList, ".wav".toList] = true) := by
  unfold wavIds Listing.has
  rw [List.mem_filterMap, decide_eq_true_eq, decide_eq_true_eq, List.mem_map, List.mem_map]
  constructor
  · rintro ⟨⟨p, e⟩, he, h⟩
    dsimp only at h
    split at h
    · rename_i d name
      split_ifs at h with hc
      obtain ⟨rfl, hs⟩ := hc
      obtain ⟨x, rfl⟩ := List.isSuffixOf_iff_suffix.mp hs
      rw [stemOf_wav] at h
      split_ifs at h with hx
      · subst hx
        cases h
        exact Or.inr ⟨rfl, _, he, rfl⟩
      · cases h
        exact Or.inl ⟨_, he, rfl⟩
    · cases h
  · have put : ∀ x e, (["wav".toList, x ++ ".wav".toList], e) ∈ t → (if x = [] then ".wav".toList else x) = u →
        ∃ a ∈ t, (match a.1 with
          | [d, name] => if d = "wav".toList ∧ (".wav".toList).isSuffixOf name = true then some (stemOf name) else none
          | _ => none) = some u := by
      intro x e he hx
      refine ⟨_, he, ?_⟩
      dsimp only
      rw [if_pos ⟨rfl, List.isSuffixOf_iff_suffix.mpr ⟨x, rfl⟩⟩, stemOf_wav, hx]
    rintro (⟨⟨p, e⟩, he, hp⟩ | ⟨rfl, ⟨p, e⟩, he, hp⟩)
    · obtain rfl : p = _ := hp
      exact put u e he (if_neg hu)
    · obtain rfl : p = _ := hp
      exact put [] e he rfl

/-- **C99 (CMU ARCTIC, sentences, exactly).** The sentences listed are exactly the lines of `etc/txt.done.data`, in order,
for which the file `wav/id.wav` is there; a file named just `.wav` counts as audio of the identifier `.wav`. -/
theorem C99_cmu_sentences (t : Listing) (entries : List (List Char × List Char))
    (h : ∀ e ∈ entries, IsId e.1 ∧ OneLine e.2)
    (ht : t.lookup ["etc".toList, "txt.done.data".toList] =
      some (.file (fileOf (entries.map fun e => cmuLine e.1 e.2)))) :
    cmuAvailableIn t = .ok (entries.filter fun e => decide
      (t.has ["wav".toList, e.1 ++ ".wav".toList] = true ∨
        (e.1 = ".wav".toList ∧ t.has ["wav".toList, ".wav".toList] = true))) := by
  unfold cmuAvailableIn
  rw [ht]
  dsimp only
  rw [(C52_cmu_file entries h _).2]
  congr 1
  refine List.filter_congr fun e he => ?_
  rw [decide_eq_decide]
  exact mem_wavIds (h e he).1.ne

/-- **C99 (CMU ARCTIC, audio).** `load_audio` of an identifier is what the decoder makes of the file `wav/id.wav`. -/
theorem C99_cmu_audio (t : Listing) (ht : (t.map Prod.fst).Nodup) (decode : List Char → Except String (Tensor ℝ × ℕ))
    (u content : List Char) (hu : u ≠ [])
    (hf : (["wav".toList, u ++ ".wav".toList], DiskEntry.file content) ∈ t) : cmuLoad decode t u = decode content := by
  unfold cmuLoad
  have hw : wavSuffix (String.ofList (u ++ ".wav".toList)) = true :=
    (C65_wav_files _).mpr ⟨u, "wav".toList, hu, by rw [String.toList_ofList]; rfl, Or.inl (by decide)⟩
  rw [raiseIf_neg (by rw [hw]; decide), ok_bind]
  unfold readAudioAt
  rw [lookup_of_mem ht hf]

/-- **C99 (CMU ARCTIC, items).** An item of a dataset has identifier, text and audio of one and the same line of the
transcript file: the audio is that of the file `wav/id.wav`. -/
theorem C99_cmu_items {μ : Type} (t : Listing) (entries : List (List Char × List Char))
    (h : ∀ e ∈ entries, IsId e.1 ∧ OneLine e.2)
    (ht : t.lookup ["etc".toList, "txt.done.data".toList] =
      some (.file (fileOf (entries.map fun e => cmuLine e.1 e.2))))
    (decode : List Char → Except String (Tensor ℝ × ℕ)) (speaker : Option String) (z : ℤ) (item : Item μ)
    (hi : (datasetGet (cmuFiles decode) t ⟨none, speaker⟩ (.int z)).2 = .ok item) :
    ∃ e ∈ entries, item.utteranceId = String.ofList e.1 ∧ item.text = some (String.ofList e.2) ∧
      item.speaker = speaker ∧ ∃ content, (["wav".toList, e.1 ++ ".wav".toList], DiskEntry.file content) ∈ t ∧
        decode content = .ok (item.audio, item.sampleRate) := by
  have hf := C99_cmu_sentences t entries h ht
  simp only [datasetGet, getSentences, cmuFiles, hf, Except.map, Except.bind] at hi
  split at hi
  · cases hi
  · rename_i x hg
    obtain ⟨k, hk, -⟩ := pyGet_ok.mp hg
    obtain ⟨e, he, rfl⟩ := List.mem_map.mp (List.mem_of_getElem? hk)
    have he' := (List.mem_filter.mp he).1
    refine ⟨e, he', ?_⟩
    simp only [loadItem, String.toList_ofList] at hi
    have hw : wavSuffix (String.ofList (e.1 ++ ".wav".toList)) = true :=
      (C65_wav_files _).mpr ⟨e.1, "wav".toList, (h e he').1.ne, by rw [String.toList_ofList]; rfl, Or.inl (by decide)⟩
    have hl : cmuLoad decode t e.1 = readAudioAt decode t ["wav".toList, e.1 ++ ".wav".toList] := by
      unfold cmuLoad
      rw [raiseIf_neg (by rw [hw]; decide), ok_bind]
    rw [hl] at hi
    unfold readAudioAt at hi
    cases hlk : t.lookup ["wav".toList, e.1 ++ ".wav".toList] with
    | none => rw [hlk] at hi; cases hi
    | some n =>
      rw [hlk] at hi
      cases n with
      | dir => cases hi
      | file content =>
        dsimp only at hi
        cases hd : decode content with
        | error e => rw [hd] at hi; cases hi
        | ok a =>
          rw [hd] at hi
          cases hi
          refine ⟨rfl, rfl, rfl, content, ?_, hd⟩
          obtain ⟨l₁, l₂, hl, -⟩ := List.lookup_eq_some_iff.mp hlk
          rw [hl]
          simp

/-! ## Speakers of items: C100 -/

/-- **C100 (partial: only datasets of one speaker).** In a dataset of one speaker every item names the speaker of its
utterance. Missing: datasets of a whole LibriSpeech subset, whose items name no speaker. -/
theorem C100_item_speaker_partial {μ : Type} {chapters : List Chapter} {t : Listing} (h : IsCorpus chapters t)
    (decode : List Char → Except String (Tensor ℝ × ℕ)) (subset : List Char) (speaker : String) (hs : speaker ≠ "")
    (z : ℤ) (item : Item μ)
    (hi : (datasetGet (libriFiles decode subset (some speaker)) t ⟨none, some speaker⟩ (.int z)).2 = .ok item) :
    ∃ c ∈ chapters, ∃ l ∈ c.lines, item.utteranceId = String.ofList (c.id l.1) ∧
      item.speaker = some (String.ofList c.speaker) := by
  obtain ⟨c, hc, hsp, l, hl, h1, -, h3, -⟩ := C99_libri_items h decode subset (some speaker) z item hi
  refine ⟨c, hc, l, hl, h1, ?_⟩
  rcases hsp with hsp | hsp | hsp
  · cases hsp
  · exact absurd (Option.some.inj hsp) hs
  · rw [h3, hsp]

/-- **C100 (opening).** Every speaker that `list_speakers` of a LibriSpeech subset names can be opened. -/
theorem C100_listed_speakers_open (t : Listing) (ht : (t.map Prod.fst).Nodup) (s : String)
    (hs : s ∈ libriSpeakers none (some t)) : libriOpen (some s) (some t) = .ok () := by
  have hd := ((C99_speakers t ht).2.2.1 s).mp hs
  unfold libriOpen
  dsimp only
  rw [raiseIf_ok]
  rintro ⟨hne, hhas⟩
  have hsd : speakerDir (some s) = [s.toList] := by
    unfold speakerDir at hne ⊢
    dsimp only at hne ⊢
    split_ifs at hne ⊢ with h
    · exact absurd rfl hne
    · rfl
  rw [hsd] at hhas
  unfold Listing.has at hhas
  rw [decide_eq_false_iff_not] at hhas
  exact hhas (List.mem_map.mpr ⟨_, hd, rfl⟩)

/-- **C100 (LibriSpeech, exactly).** A dataset can be opened exactly if the subset is there and, for a speaker, something
of that name in it. -/
theorem C100_libri_open_exactly (speaker : Option String) (subset : Option Listing) :
    libriOpen speaker subset = .ok () ↔ ∃ t, subset = some t ∧ ∀ s, speaker = some s → s ≠ "" → t.has [s.toList] = true := by
  unfold libriOpen
  cases subset with
  | none => simp
  | some t =>
    dsimp only
    rw [raiseIf_ok]
    cases speaker with
    | none => simp [speakerDir]
    | some s =>
      by_cases hs : s = ""
      · simp [speakerDir, hs]
      · simp [speakerDir, hs]

/-- **C100 (speakers of CMU ARCTIC).** `list_speakers` gives the eighteen voices, sorted. -/
theorem C100_cmu_speakers : cmuSpeakers.Pairwise (· ≤ ·) ∧ cmuSpeakers.Nodup ∧ ∀ s, s ∈ cmuSpeakers ↔
    s ∈ ["aew", "ahw", "aup", "awb", "axb", "bdl", "clb", "eey", "fem", "gka", "jmk", "ksp", "ljm", "lnh", "rms", "rxr",
      "slp", "slt"] := by
  unfold cmuSpeakers
  refine ⟨sorted_mergeSort _, ?_, fun s => List.mem_mergeSort⟩
  rw [List.nodup_mergeSort]
  decide

/-- **C100 (CMU ARCTIC, exactly).** A speaker can be opened exactly if `list_speakers` names the speaker and the directory
of the speaker is there. -/
theorem C100_cmu_open_exactly (s : String) (t : Listing) :
    cmuOpen s t = .ok () ↔ s ∈ cmuSpeakers ∧ t.has [("cmu_us_" ++ s ++ "_arctic").toList] = true := by
  unfold cmuOpen cmuSpeakers
  rw [raiseIf_bind_ok, raiseIf_ok, List.mem_mergeSort]
  simp

/-- A small subset: one chapter with two utterances, one of them with audio. -/
def smallChapter : Chapter := ⟨"84".toList, "121123".toList, [("0000".toList, "GO".toList), ("0001".toList, " BUT ".toList)]⟩

/-- The files of `smallChapter`. -/
def smallCorpus : Listing :=
  [(["84".toList], .dir), (["84".toList, "121123".toList], .dir),
   (smallChapter.transcript, .file smallChapter.content), (smallChapter.flac "0001".toList, .file "x".toList)]

theorem smallCorpus_ok : IsCorpus [smallChapter] smallCorpus where
  paths := by decide
  readers := by
    intro c hc
    rw [List.mem_singleton] at hc
    subst hc
    exact ⟨by decide, by decide, List.mem_cons_self ..⟩
  names := by
    intro c hc
    rw [List.mem_singleton] at hc
    subst hc
    exact ⟨by decide, by decide⟩
  lines := by
    intro c hc l hl
    rw [List.mem_singleton] at hc
    subst hc
    have : l = ("0000".toList, "GO".toList) ∨ l = ("0001".toList, " BUT ".toList) := by
      simpa [smallChapter] using hl
    rcases this with rfl | rfl
    · exact ⟨⟨by decide, by decide, by decide, by decide, by decide⟩, by decide, by decide⟩
    · exact ⟨⟨by decide, by decide, by decide, by decide, by decide⟩, by decide, by decide⟩
  written := by
    intro c hc
    rw [List.mem_singleton] at hc
    subst hc
    simp [smallCorpus]
  nothingElse := by
    intro e he hs
    refine ⟨smallChapter, by simp, ?_⟩
    simp only [smallCorpus, List.mem_cons, List.not_mem_nil, or_false] at he
    rcases he with rfl | rfl | rfl | rfl
    · exact absurd hs (by decide)
    · exact absurd hs (by decide)
    · rfl
    · exact absurd hs (by decide)

/-- The only item of the small subset, in a dataset of the whole subset. -/
theorem smallItem :
    (datasetGet (μ := Unit) (libriFiles (fun _ => .ok (⟨[1], [2]⟩, 16000)) "dev-clean".toList none) smallCorpus
      ⟨none, none⟩ (.int 0)).2 = .ok ⟨.floating, ⟨[1], [2]⟩, 16000, "84-121123-0001", some "BUT", none, none⟩ := by
  rfl

/-- **C100 fails for whole subsets and for `list_speakers` of CMU ARCTIC.** An item of a dataset of a whole LibriSpeech
subset names no speaker, although its utterance has one; and `list_speakers` of CMU ARCTIC names speakers whose directory
is not there, so that they cannot be opened. -/
theorem C100_whole_subset_fails :
    (∃ (chapters : List Chapter) (t : Listing) (decode : List Char → Except String (Tensor ℝ × ℕ)) (item : Item Unit),
      IsCorpus chapters t ∧
      (datasetGet (libriFiles decode "dev-clean".toList none) t ⟨none, none⟩ (.int 0)).2 = .ok item ∧
      item.speaker = none) ∧
    ∃ s ∈ cmuSpeakers, ∃ e, cmuOpen s [] = .error e := by
  refine ⟨⟨_, _, _, _, smallCorpus_ok, smallItem, rfl⟩, "bdl", ?_, ?_⟩
  · unfold cmuSpeakers
    rw [List.mem_mergeSort]
    simp [cmuSpeakerIds]
  · cases h : cmuOpen "bdl" [] with
    | error e => exact ⟨e, rfl⟩
    | ok u =>
      have := ((C100_cmu_open_exactly "bdl" []).mp h).2
      simp [Listing.has] at this

/-- The small subset: one speaker, and the utterance with audio. -/
example : libriSpeakers none (some smallCorpus) = ["84"] ∧
    libriSentences "dev-clean".toList none smallCorpus =
      .ok [⟨"84-121123-0001".toList, "BUT".toList, "84".toList, "121123".toList⟩] :=
  ⟨by simp [libriSpeakers, smallCorpus, Chapter.transcript, Chapter.flac, smallChapter], by rfl⟩

/-- A speaker of CMU ARCTIC with two lines and one recording. -/
example : cmuAvailableIn
    [(["etc".toList, "txt.done.data".toList],
      .file (fileOf (([("a1".toList, "One.".toList), ("a2".toList, "Two.".toList)]).map fun e => cmuLine e.1 e.2))),
     (["wav".toList, "a2.wav".toList], .file [])] = .ok [("a2".toList, "Two.".toList)] := by rfl

end Torchrir.Props
