import Verif.Model.Transcript
import Verif.Lemmas.Lists
import Mathlib.Data.List.DropRight
import Mathlib.Tactic.Common

/-! # Transcript lines: C52 -/

namespace Torchrir.Props

open Torchrir.Model

/-- An utterance identifier: not empty, without blanks, quotes or parentheses. -/
structure IsId (u : List Char) : Prop where
  ne : u ≠ []
  blank : ∀ c ∈ u, isBlank c = false
  quote : '"' ∉ u
  lpar : '(' ∉ u
  rpar : ')' ∉ u

/-- The text has no line break. -/
def OneLine (t : List Char) : Prop := '\n' ∉ t ∧ '\r' ∉ t

/-- The text without the blanks around it: cut at both ends, not blank at either end. -/
def IsTrimmed (t core : List Char) : Prop :=
  ∃ a b, t = a ++ core ++ b ∧ (∀ c ∈ a, isBlank c = true) ∧ (∀ c ∈ b, isBlank c = true) ∧
    (∀ c, core.head? = some c → isBlank c = false) ∧ ∀ c, core.getLast? = some c → isBlank c = false

/-- A line of `txt.done.data`: `( id "text" )`. -/
def cmuLine (u t : List Char) : List Char :=
  ['(', ' '] ++ u ++ [' ', '"'] ++ t ++ ['"', ' ', ')']

/-- A line of a LibriSpeech transcript: `id text`. -/
def libriLine (u t : List Char) : List Char := u ++ ' ' :: t

/-- A file with one line per entry. -/
def fileOf (lines : List (List Char)) : List Char := (lines.map fun l => l ++ ['\n']).flatten

theorem takeWhile_stop {p : Char → Bool} {l r : List Char} {c : Char} (h : ∀ x ∈ l, p x = true)
    (hc : p c = false) : (l ++ c :: r).takeWhile p = l := by
  rw [List.takeWhile_append_of_pos h, List.takeWhile_cons_of_neg (by simp [hc]), List.append_nil]

theorem dropWhile_stop {p : Char → Bool} {l r : List Char} {c : Char} (h : ∀ x ∈ l, p x = true)
    (hc : p c = false) : (l ++ c :: r).dropWhile p = c :: r := by
  rw [List.dropWhile_append_of_pos h, List.dropWhile_cons_of_neg (by simp [hc])]

theorem partition_stop {c : Char} {l r : List Char} (h : c ∉ l) : partition c (l ++ c :: r) = (l, r) := by
  have h1 : ∀ x ∈ l, (x != c) = true := by
    intro x hx
    rw [bne_iff_ne]
    rintro rfl
    exact h hx
  unfold partition
  rw [takeWhile_stop h1 (by simp), dropWhile_stop h1 (by simp)]
  rfl

theorem partition_none {c : Char} {l : List Char} (h : c ∉ l) : partition c l = (l, []) := by
  have h1 : ∀ x ∈ l, (x != c) = true := by
    intro x hx
    rw [bne_iff_ne]
    rintro rfl
    exact h hx
  unfold partition
  rw [List.takeWhile_eq_self_iff.mpr h1, List.dropWhile_eq_nil_iff.mpr h1]
  rfl

theorem beforeLast_stop {c : Char} {l r : List Char} (h : c ∉ r) : beforeLast c (l ++ c :: r) = l := by
  unfold beforeLast
  rw [if_pos (by simp), List.reverse_append, List.reverse_cons, List.append_assoc,
    List.singleton_append, dropWhile_stop]
  · rw [List.drop_one, List.tail_cons, List.reverse_reverse]
  · intro x hx
    rw [bne_iff_ne]
    rintro rfl
    exact h (by simpa using hx)
  · simp

theorem rstrip_append (a b : List Char) :
    rstrip (a ++ b) = if rstrip b = [] then rstrip a else a ++ rstrip b := by
  unfold rstrip
  rw [List.reverse_append, List.dropWhile_append]
  by_cases h : b.reverse.dropWhile isBlank = []
  · rw [h]
    simp
  · rw [if_neg (by simpa using h), if_neg (by simpa using h)]
    simp

theorem rstrip_nonblank {c : Char} (h : isBlank c = false) (a : List Char) :
    rstrip (a ++ [c]) = a ++ [c] := by
  have : rstrip [c] = [c] := by
    unfold rstrip
    simp [h]
  rw [rstrip_append, this]
  simp

theorem rstrip_idem (a : List Char) : rstrip (rstrip a) = rstrip a := by
  unfold rstrip
  rw [List.reverse_reverse, List.dropWhile_idempotent]

theorem dropWhile_rstrip : ∀ t : List Char, (rstrip t).dropWhile isBlank = rstrip (t.dropWhile isBlank)
  | [] => rfl
  | a :: t => by
    have ih := dropWhile_rstrip t
    have hr : rstrip (a :: t) = if rstrip t = [] then rstrip [a] else a :: rstrip t :=
      rstrip_append [a] t
    by_cases ha : isBlank a = true
    · rw [List.dropWhile_cons_of_pos ha, ← ih, hr]
      split_ifs with h
      · have : rstrip [a] = [] := by
          unfold rstrip
          simp [ha]
        rw [this, h]
      · rw [List.dropWhile_cons_of_pos ha]
    · rw [List.dropWhile_cons_of_neg ha, hr]
      split_ifs with h
      · have : rstrip [a] = [a] := rstrip_nonblank (by simpa using ha) []
        rw [this, List.dropWhile_cons_of_neg ha]
      · rw [List.dropWhile_cons_of_neg ha]

theorem strip_rstrip (t : List Char) : strip (rstrip t) = strip t := by
  unfold strip
  rw [dropWhile_rstrip, rstrip_idem]

/-- `strip` gives the text without the blanks around it. -/
theorem strip_trimmed (t : List Char) : IsTrimmed t (strip t) := by
  refine ⟨t.takeWhile isBlank, ((t.dropWhile isBlank).reverse.takeWhile isBlank).reverse, ?_, ?_, ?_, ?_, ?_⟩
  · unfold strip rstrip
    rw [List.append_assoc, ← List.reverse_append, List.takeWhile_append_dropWhile, List.reverse_reverse,
      List.takeWhile_append_dropWhile]
  · exact fun c hc => List.mem_takeWhile_imp hc
  · exact fun c hc => List.mem_takeWhile_imp (List.mem_reverse.mp hc)
  · intro c hc
    have hs : strip t = (rstrip t).dropWhile isBlank := (dropWhile_rstrip t).symm
    rw [hs] at hc
    have := List.head?_dropWhile_not isBlank (rstrip t)
    rw [hc] at this
    simpa using this
  · intro c hc
    unfold strip rstrip at hc
    rw [List.getLast?_reverse] at hc
    have := List.head?_dropWhile_not isBlank (t.dropWhile isBlank).reverse
    rw [hc] at this
    simpa using this

/-- There is only one way to cut off all blanks. -/
theorem IsTrimmed.unique {t core : List Char} (h : IsTrimmed t core) : core = strip t := by
  obtain ⟨a, b, rfl, ha, hb, h1, h2⟩ := h
  have hb' : rstrip b = [] := by
    unfold rstrip
    rw [List.dropWhile_eq_nil_iff.mpr fun c hc => hb c (List.mem_reverse.mp hc), List.reverse_nil]
  unfold strip
  rw [List.append_assoc, List.dropWhile_append_of_pos ha]
  rcases core with _ | ⟨c, core⟩
  · rw [List.nil_append, ← dropWhile_rstrip, hb']
    rfl
  · rw [List.cons_append, List.dropWhile_cons_of_neg (by simp [h1 c rfl]), ← List.cons_append,
      rstrip_append, if_pos hb']
    obtain ⟨l, x, hx⟩ := List.eq_nil_or_concat' (c :: core) |>.resolve_left (by simp)
    rw [hx] at h2 ⊢
    rw [rstrip_nonblank (h2 x (by simp))]

/-- **C52 (CMU ARCTIC).** A line `( id "text" )` parses to the identifier and the text, for every
identifier and every text, also with quotes, blanks or line breaks in the text. -/
theorem C52_cmu_line (u t : List Char) (hu : IsId u) : parseCmuLine (cmuLine u t) = .ok (u, t) := by
  have hp : partition '"' (cmuLine u t) = (['(', ' '] ++ u ++ [' '], t ++ ['"', ' ', ')']) := by
    have : cmuLine u t = (['(', ' '] ++ u ++ [' ']) ++ '"' :: (t ++ ['"', ' ', ')']) := by
      unfold cmuLine
      simp
    rw [this, partition_stop]
    have := hu.quote
    simp [this]
  unfold parseCmuLine
  rw [hp]
  have hf : (['(', ' '] ++ u ++ [' ']).filter (fun x => x != '(') = [' '] ++ u ++ [' '] := by
    rw [List.filter_append, List.filter_append]
    have h1 : u.filter (fun x => x != '(') = u := by
      rw [List.filter_eq_self]
      intro a ha
      rw [bne_iff_ne]
      rintro rfl
      exact hu.lpar ha
    rw [h1]
    rfl
  have hs : strip ([' '] ++ u ++ [' ']) = u := by
    refine (IsTrimmed.unique ⟨[' '], [' '], rfl, ?_, ?_, ?_, ?_⟩).symm
    · simp; decide
    · simp; decide
    · intro c hc
      exact hu.blank c (List.mem_of_mem_head? hc)
    · intro c hc
      exact hu.blank c (List.mem_of_mem_getLast? hc)
  have hw : firstWord u = .ok u := by
    have hd : u.dropWhile isBlank = u := by
      obtain ⟨c, v, rfl⟩ := List.exists_cons_of_ne_nil hu.ne
      rw [List.dropWhile_cons_of_neg (by simp [hu.blank c (List.mem_cons_self ..)])]
    unfold firstWord
    rw [hd, if_neg hu.ne, List.takeWhile_eq_self_iff.mpr fun x hx => by simp [hu.blank x hx]]
  dsimp only
  rw [hf, hs, hw]
  dsimp only
  rw [beforeLast_stop (by simp)]

example : parseCmuLine "( arctic_a0001 \"He said \"no\" (twice).\" )".toList =
    .ok ("arctic_a0001".toList, "He said \"no\" (twice).".toList) :=
  C52_cmu_line "arctic_a0001".toList "He said \"no\" (twice).".toList
    ⟨by decide, by decide, by decide, by decide, by decide⟩

/-- **C52 (LibriSpeech).** A line `id text` parses to the identifier and the text without the blanks
around it, for every identifier without the space character and every text. -/
theorem C52_libri_line (u t : List Char) (hu : ' ' ∉ u) :
    (parseLibriLine (libriLine u t)).1 = u ∧ IsTrimmed t (parseLibriLine (libriLine u t)).2 := by
  unfold parseLibriLine libriLine
  rw [partition_stop hu]
  exact ⟨rfl, strip_trimmed t⟩

example : parseLibriLine "84-121123-0000 GO DO YOU HEAR".toList =
    ("84-121123-0000".toList, "GO DO YOU HEAR".toList) := by rfl

theorem fileLines_cons {l : List Char} (h : OneLine l) (s : List Char) :
    fileLines (l ++ ['\n'] ++ s) = l :: fileLines s := by
  unfold fileLines
  rw [List.append_assoc, List.singleton_append, List.splitOnP_append_cons_of_forall_mem]
  · intro x hx
    simp only [Bool.or_eq_false_iff, beq_eq_false_iff_ne]
    exact ⟨by rintro rfl; exact h.1 hx, by rintro rfl; exact h.2 hx⟩
  · decide

theorem fileLines_fileOf : ∀ lines : List (List Char), (∀ l ∈ lines, OneLine l) →
    fileLines (fileOf lines) = lines ++ [[]]
  | [], _ => by rfl
  | l :: ls, h => by
    have ih := fileLines_fileOf ls fun x hx => h x (List.mem_cons_of_mem _ hx)
    have : fileOf (l :: ls) = l ++ ['\n'] ++ fileOf ls := by
      unfold fileOf
      rw [List.map_cons, List.flatten_cons]
    rw [this, fileLines_cons (h l (List.mem_cons_self ..)), ih]
    rfl

theorem oneLine_cmu {u t : List Char} (hu : IsId u) (ht : OneLine t) : OneLine (cmuLine u t) := by
  have h1 : '\n' ∉ u := fun h => absurd (hu.blank _ h) (by decide)
  have h2 : '\r' ∉ u := fun h => absurd (hu.blank _ h) (by decide)
  unfold OneLine cmuLine
  simp [h1, h2, ht.1, ht.2]

theorem strip_cmu (u t : List Char) : strip (cmuLine u t) = cmuLine u t := by
  refine (IsTrimmed.unique ⟨[], [], by simp, by simp, by simp, ?_, ?_⟩).symm
  · intro c hc
    unfold cmuLine at hc
    simp only [List.cons_append, List.head?_cons, Option.some.injEq] at hc
    rw [← hc]
    decide
  · intro c hc
    have : cmuLine u t = (['(', ' '] ++ u ++ [' ', '"'] ++ t ++ ['"', ' ']) ++ [')'] := by
      unfold cmuLine
      simp
    rw [this, List.getLast?_concat] at hc
    cases hc
    decide

/-- **C52 (CMU ARCTIC, whole file).** A transcript file written line by line is read back as exactly
the list that was written, in order, and the available sentences are those with an audio file. -/
theorem C52_cmu_file (entries : List (List Char × List Char))
    (h : ∀ e ∈ entries, IsId e.1 ∧ OneLine e.2) (wavIds : List (List Char)) :
    cmuSentences (fileOf (entries.map fun e => cmuLine e.1 e.2)) = .ok entries ∧
      cmuAvailable (fileOf (entries.map fun e => cmuLine e.1 e.2)) wavIds =
        .ok (entries.filter fun e => decide (e.1 ∈ wavIds)) := by
  have key : cmuSentences (fileOf (entries.map fun e => cmuLine e.1 e.2)) = .ok entries := by
    unfold cmuSentences
    rw [fileLines_fileOf, List.map_append, List.filter_append]
    · have hnil : (List.map strip [[]]).filter (fun l => !l.isEmpty) = [] := by rfl
      have hmap : ((entries.map fun e => cmuLine e.1 e.2).map strip).filter (fun l => !l.isEmpty) =
          entries.map fun e => cmuLine e.1 e.2 := by
        rw [List.map_map]
        have : strip ∘ (fun e : List Char × List Char => cmuLine e.1 e.2) = fun e => cmuLine e.1 e.2 := by
          funext e
          exact strip_cmu e.1 e.2
        rw [this, List.filter_eq_self]
        intro l hl
        obtain ⟨e, -, rfl⟩ := List.mem_map.mp hl
        rfl
      rw [hnil, hmap, List.append_nil]
      clear hmap hnil
      induction entries with
      | nil => rfl
      | cons e es ih =>
        rw [List.map_cons, List.mapM_cons, C52_cmu_line e.1 e.2 (h e (List.mem_cons_self ..)).1,
          ih fun x hx => h x (List.mem_cons_of_mem _ hx)]
        rfl
    · intro l hl
      obtain ⟨e, he, rfl⟩ := List.mem_map.mp hl
      exact oneLine_cmu (h e he).1 (h e he).2
  refine ⟨key, ?_⟩
  unfold cmuAvailable
  rw [key]
  rfl

/-- **C52 (LibriSpeech, whole file).** A transcript file written line by line is read back, in order,
with the blanks around each text removed; the available sentences are those with an audio file. -/
theorem C52_libri_file (entries : List (List Char × List Char))
    (h : ∀ e ∈ entries, IsId e.1 ∧ OneLine e.2) (flacIds : List (List Char)) :
    ∃ read : List (List Char × List Char),
      List.Forall₂ (fun e r => r.1 = e.1 ∧ IsTrimmed e.2 r.2) entries read ∧
      libriAvailable (fileOf (entries.map fun e => libriLine e.1 e.2)) flacIds =
        read.filter fun r => decide (r.1 ∈ flacIds) := by
  have hline : ∀ e ∈ entries, strip (libriLine e.1 e.2) ≠ [] ∧
      parseLibriLine (strip (libriLine e.1 e.2)) = (e.1, strip e.2) := by
    intro e he
    have hu := (h e he).1
    have hsp : ' ' ∉ e.1 := fun hm => absurd (hu.blank _ hm) (by decide)
    have hd : (libriLine e.1 e.2).dropWhile isBlank = libriLine e.1 e.2 := by
      unfold libriLine
      obtain ⟨c, v, hcv⟩ := List.exists_cons_of_ne_nil hu.ne
      rw [hcv, List.cons_append, List.dropWhile_cons_of_neg]
      simp [hu.blank c (by rw [hcv]; exact List.mem_cons_self ..)]
    have hru : rstrip e.1 = e.1 := by
      obtain ⟨l, x, hx⟩ := List.eq_nil_or_concat' e.1 |>.resolve_left hu.ne
      rw [hx, rstrip_nonblank]
      exact hu.blank x (by rw [hx]; simp)
    have hst : strip (libriLine e.1 e.2) = if rstrip e.2 = [] then e.1 else libriLine e.1 (rstrip e.2) := by
      unfold strip
      rw [hd]
      unfold libriLine
      have hc : rstrip (' ' :: e.2) = if rstrip e.2 = [] then [] else ' ' :: rstrip e.2 :=
        rstrip_append [' '] e.2
      rw [rstrip_append, hc]
      split_ifs with h1
      · exact hru
      · exact absurd ‹_› (by simp)
      · exact absurd ‹_› (by simp)
      · rfl
    rw [hst]
    split_ifs with h1
    · refine ⟨hu.ne, ?_⟩
      unfold parseLibriLine
      rw [partition_none hsp, ← strip_rstrip e.2, h1]
    · refine ⟨by unfold libriLine; simp, ?_⟩
      unfold parseLibriLine libriLine
      rw [partition_stop hsp, strip_rstrip]
  refine ⟨entries.map fun e => (e.1, strip e.2), ?_, ?_⟩
  · rw [List.forall₂_map_right_iff, List.forall₂_same]
    exact fun e _ => ⟨rfl, strip_trimmed e.2⟩
  · unfold libriAvailable
    congr 1
    rw [fileLines_fileOf]
    · rw [List.map_append, List.filter_append]
      have hnil : (List.map strip [[]]).filter (fun l => !l.isEmpty) = [] := by rfl
      rw [hnil, List.append_nil, List.map_map, List.filter_eq_self.mpr, List.map_map]
      · exact List.map_congr_left fun e he => (hline e he).2
      · intro l hl
        obtain ⟨e, he, rfl⟩ := List.mem_map.mp hl
        simpa using (hline e he).1
    · intro l hl
      obtain ⟨e, he, rfl⟩ := List.mem_map.mp hl
      have hu := (h e he).1
      have h1 : '\n' ∉ e.1 := fun h => absurd (hu.blank _ h) (by decide)
      have h2 : '\r' ∉ e.1 := fun h => absurd (hu.blank _ h) (by decide)
      unfold OneLine libriLine
      simp [h1, h2, (h e he).2.1, (h e he).2.2]

example : libriAvailable (fileOf [libriLine "1-2-0".toList " HELLO ".toList, libriLine "1-2-1".toList []])
    ["1-2-0".toList, "1-2-1".toList] = [("1-2-0".toList, "HELLO".toList), ("1-2-1".toList, [])] := by rfl

end Torchrir.Props
