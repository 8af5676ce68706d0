import Verif.Model.Corpus
import Verif.Props.Transcript

/-! # Specification: the layout of a LibriSpeech subset -/

namespace Torchrir.Spec

open Torchrir.Model Torchrir.Props

/-- A chapter read by a speaker: number and text of each utterance. -/
structure Chapter where
  speaker : List Char
  chapter : List Char
  lines : List (List Char × List Char)

/-- `speaker-chapter-number`. -/
def Chapter.id (c : Chapter) (number : List Char) : List Char := c.speaker ++ '-' :: (c.chapter ++ '-' :: number)

/-- `speaker/chapter/speaker-chapter-number.flac`. -/
def Chapter.flac (c : Chapter) (number : List Char) : List (List Char) :=
  [c.speaker, c.chapter, c.id number ++ ".flac".toList]

/-- `speaker/chapter/speaker-chapter.trans.txt`. -/
def Chapter.transcript (c : Chapter) : List (List Char) :=
  [c.speaker, c.chapter, c.speaker ++ '-' :: (c.chapter ++ ".trans.txt".toList)]

/-- The text of the transcript: one line `id text` per utterance. -/
def Chapter.content (c : Chapter) : List Char := fileOf (c.lines.map fun l => libriLine (c.id l.1) l.2)

/-- The files are those of a corpus with the given chapters. Which utterances have an audio file is open, as is whatever
else lies around. -/
structure IsCorpus (chapters : List Chapter) (t : Listing) : Prop where
  paths : (t.map Prod.fst).Nodup
  readers : ∀ c ∈ chapters, c.speaker ≠ [] ∧ '-' ∉ c.speaker ∧ ([c.speaker], DiskEntry.dir) ∈ t
  names : ∀ c ∈ chapters, c.chapter ≠ [] ∧ '-' ∉ c.chapter
  lines : ∀ c ∈ chapters, ∀ l ∈ c.lines, IsId (c.id l.1) ∧ OneLine l.2
  written : ∀ c ∈ chapters, (c.transcript, DiskEntry.file c.content) ∈ t
  nothingElse : ∀ e ∈ t, (".trans.txt".toList).isSuffixOf (e.1.getLastD []) = true →
    ∃ c ∈ chapters, e = (c.transcript, DiskEntry.file c.content)

/-- The sentence is the one of a line of a chapter, without the blanks around its text. -/
def IsSentence (c : Chapter) (l : List Char × List Char) (s : LibriSentence) : Prop :=
  s.utteranceId = c.id l.1 ∧ IsTrimmed l.2 s.text ∧ s.speakerId = c.speaker ∧ s.chapterId = c.chapter

end Torchrir.Spec
