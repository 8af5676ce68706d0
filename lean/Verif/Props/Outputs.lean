import Verif.Model.Outputs
import Verif.Lemmas.Ism
import Verif.Props.Device
import Mathlib.Data.List.Infix

/-!
# Attribution files (C68, C84)
-/

namespace Torchrir.Props

open Torchrir.Model Torchrir.Lemmas

/-- `"\n".join(lines) + "\n"` is every line followed by a line feed. -/
theorem joined_lines : ∀ lines : List String, lines ≠ [] →
    ("\n".intercalate lines ++ "\n").toList = lines.flatMap fun l => l.toList ++ ['\n']
  | [], h => absurd rfl h
  | [l], _ => by simp
  | l :: m :: rest, _ => by
    have := joined_lines (m :: rest) (by simp)
    rw [String.toList_append] at this
    rw [String.intercalate_cons_of_ne_nil (by simp)]
    simp only [String.toList_append, List.flatMap_cons] at this ⊢
    simp only [List.append_assoc] at this ⊢
    rw [this]
    rfl

/-- `text` has the line `line`: it starts at the beginning of a line and is followed by a line feed. -/
def HasLine (text line : List Char) : Prop :=
  ∃ before after, text = before ++ line ++ '\n' :: after ∧ (before = [] ∨ before.getLast? = some '\n')

theorem flatMap_last (lines : List String) :
    (lines.flatMap fun l => l.toList ++ ['\n']) = [] ∨
      (lines.flatMap fun l => l.toList ++ ['\n']).getLast? = some '\n' := by
  rcases List.eq_nil_or_concat lines with rfl | ⟨init, last, rfl⟩
  · left
    rfl
  · right
    simp

theorem hasLine_of_mem {lines : List String} {l : String} (h : l ∈ lines) :
    HasLine (lines.flatMap fun l => l.toList ++ ['\n']) l.toList := by
  obtain ⟨a, b, rfl⟩ := List.append_of_mem h
  exact ⟨a.flatMap fun l => l.toList ++ ['\n'], b.flatMap fun l => l.toList ++ ['\n'], by simp, flatMap_last a⟩

/-- The label under which a required field appears. -/
def labels : List (String × String) :=
  [("dataset", "Dataset: "), ("source", "Source: "), ("license_name", "License: "), ("license_url", "License URL: "),
    ("required_attribution", "Required attribution: ")]

/-- How a value appears in the file: `None` by that name, anything else as it is shown. -/
def appears : AttrValue → String
  | .none => "None"
  | .shown s => s

/-- **C68.** If a required field is missing, or the argument has no fields at all, the call raises and the file
is as it was. -/
theorem C68_missing_field (a : Attribution) (modifications : List String) (old : Option String)
    (h : a = .other ∨ ∃ info, a = .fields info ∧ ∃ k ∈ labels.map Prod.fst, info.lookup k = none) :
    (∃ e, (saveAttribution a modifications old).2 = .error e) ∧ (saveAttribution a modifications old).1 = old := by
  have : ∃ e, coerceAttribution a = .error e := by
    rcases h with rfl | ⟨info, rfl, k, hk, hn⟩
    · exact ⟨_, rfl⟩
    · unfold coerceAttribution
      dsimp only
      have hk' : k ∈ requiredFields := hk
      rw [if_neg]
      · exact ⟨_, rfl⟩
      · intro hall
        have := List.all_eq_true.mp hall k hk'
        rw [hn] at this
        cases this
  obtain ⟨e, he⟩ := this
  unfold saveAttribution
  rw [he]
  exact ⟨⟨e, rfl⟩, rfl⟩

/-- **C68.** If all required fields are there, the call succeeds and the new file has a line for each of them, a
line for the subset if there is one (and only then, see `C68_no_subset`), and the notes, each as a line, one after the other. -/
theorem C68_contents (info : List (String × AttrValue)) (modifications : List String) (old : Option String)
    (h : ∀ k ∈ labels.map Prod.fst, (info.lookup k).isSome) :
    ∃ text, saveAttribution (.fields info) modifications old = (some text, .ok ()) ∧
      (∀ k label, (k, label) ∈ labels → ∀ v, info.lookup k = some v →
        HasLine text.toList (label.toList ++ (appears v).toList)) ∧
      (∀ s, info.lookup "subset" = some (.shown s) → HasLine text.toList ("Subset: ".toList ++ s.toList)) ∧
      (modifications.flatMap fun n => "- ".toList ++ n.toList ++ ['\n']) <:+: text.toList := by
  have hc : coerceAttribution (.fields info) = .ok info := by
    unfold coerceAttribution
    dsimp only
    rw [if_pos]
    exact List.all_eq_true.mpr h
  unfold saveAttribution
  rw [hc]
  refine ⟨_, rfl, ?_, ?_, ?_⟩
  · intro k label hk v hv
    rw [joined_lines _ (by simp [attributionLines])]
    have hmem : label ++ appears v ∈ attributionLines info modifications := by
      have hf : fieldText info k = appears v := by
        unfold fieldText
        rw [hv]
        cases v <;> rfl
      simp only [labels, List.mem_cons, Prod.mk.injEq, List.not_mem_nil, or_false] at hk
      rcases hk with ⟨rfl, rfl⟩ | ⟨rfl, rfl⟩ | ⟨rfl, rfl⟩ | ⟨rfl, rfl⟩ | ⟨rfl, rfl⟩ <;>
        simp [attributionLines, hf]
    have := hasLine_of_mem hmem
    rwa [String.toList_append] at this
  · intro s hs
    rw [joined_lines _ (by simp [attributionLines])]
    have hmem : "Subset: " ++ s ∈ attributionLines info modifications := by
      simp [attributionLines, subsetLines, hs]
    have := hasLine_of_mem hmem
    rwa [String.toList_append] at this
  · rw [joined_lines _ (by simp [attributionLines])]
    unfold attributionLines
    rw [List.flatMap_append, List.flatMap_append, List.flatMap_map]
    refine ⟨_, _, congrArg₂ _ (congrArg₂ _ rfl (List.flatMap_congr fun n _ => ?_)) rfl⟩
    rw [String.toList_append]

theorem split_unique {a b s t : List Char} (ha : '\n' ∉ a) (hb : '\n' ∉ b) (h : a ++ '\n' :: s = b ++ '\n' :: t) :
    a = b ∧ s = t := by
  have key : ∀ {a : List Char} (s : List Char), '\n' ∉ a → (a ++ '\n' :: s).takeWhile (· ≠ '\n') = a := by
    intro a s ha
    rw [List.takeWhile_append_of_pos (fun c hc => by
      have : c ≠ '\n' := fun e => ha (e ▸ hc)
      simpa using this)]
    simp
  have e : a = b := by
    rw [← key s ha, h, key t hb]
  subst e
  exact ⟨rfl, by simpa using h⟩

theorem line_mem : ∀ (lines : List String) (x : List Char), (∀ l ∈ lines, '\n' ∉ l.toList) → '\n' ∉ x →
    HasLine (lines.flatMap fun l => l.toList ++ ['\n']) x → ∃ l ∈ lines, l.toList = x
  | [], x, _, _, ⟨b, a, h, _⟩ => by simp at h
  | l :: rest, x, hl, hx, ⟨b, a, h, hb⟩ => by
    rw [List.flatMap_cons, List.append_assoc, List.singleton_append, List.append_assoc] at h
    have hl0 := hl l (by simp)
    by_cases hbn : '\n' ∈ b
    · obtain ⟨b1, b2, rfl, h1⟩ := List.eq_append_cons_of_mem hbn
      rw [List.append_assoc, List.cons_append] at h
      obtain ⟨-, h2⟩ := split_unique hl0 h1 h
      have hb2 : b2 = [] ∨ b2.getLast? = some '\n' := by
        rcases hb with hb | hb
        · simp at hb
        · rcases List.eq_nil_or_concat b2 with rfl | ⟨init, last, rfl⟩
          · exact Or.inl rfl
          · right
            rw [List.concat_eq_append, ← List.cons_append, ← List.append_assoc, List.getLast?_append] at hb
            simpa using hb
      obtain ⟨m, hm, e⟩ := line_mem rest x (fun m hm => hl m (by simp [hm])) hx ⟨b2, a, by simpa using h2, hb2⟩
      exact ⟨m, by simp [hm], e⟩
    · have hb0 : b = [] := by
        rcases hb with hb | hb
        · exact hb
        · exact absurd (List.mem_of_getLast? hb) hbn
      subst hb0
      obtain ⟨e, -⟩ := split_unique hl0 hx h
      exact ⟨l, by simp, e⟩

/-- **C68, no subset.** Without a subset, no line of the file names one (for fields and notes of one line
each). -/
theorem C68_no_subset (info : List (String × AttrValue)) (modifications : List String) (old : Option String)
    (h : ∀ k ∈ labels.map Prod.fst, (info.lookup k).isSome)
    (hsub : info.lookup "subset" = none ∨ info.lookup "subset" = some .none)
    (hinfo : ∀ k v, info.lookup k = some v → '\n' ∉ (appears v).toList)
    (hmod : ∀ n ∈ modifications, '\n' ∉ n.toList) :
    ∃ text, saveAttribution (.fields info) modifications old = (some text, .ok ()) ∧
      ∀ s : String, '\n' ∉ s.toList → ¬ HasLine text.toList ("Subset: ".toList ++ s.toList) := by
  have hc : coerceAttribution (.fields info) = .ok info := by
    unfold coerceAttribution
    dsimp only
    rw [if_pos]
    exact List.all_eq_true.mpr h
  unfold saveAttribution
  rw [hc]
  refine ⟨_, rfl, fun s hs hline => ?_⟩
  rw [joined_lines _ (by simp [attributionLines])] at hline
  have hno : subsetLines info = [] := by
    unfold subsetLines
    rcases hsub with e | e <;> rw [e]
  have hf : ∀ k ∈ labels.map Prod.fst, '\n' ∉ (fieldText info k).toList := by
    intro k hk
    obtain ⟨v, hv⟩ := Option.isSome_iff_exists.mp (h k hk)
    unfold fieldText
    rw [hv]
    have := hinfo k v hv
    cases v <;> exact this
  simp only [labels, List.map_cons, List.map_nil, List.forall_mem_cons] at hf
  obtain ⟨f1, f2, f3, f4, f5, -⟩ := hf
  have hcases : ∀ l ∈ attributionLines info modifications,
      '\n' ∉ l.toList ∧ l.toList.take 2 ≠ ['S', 'u'] := by
    intro l hl
    unfold attributionLines at hl
    rw [hno] at hl
    simp only [List.mem_append, List.mem_cons, List.mem_map, List.not_mem_nil, or_false] at hl
    rcases hl with (((rfl | rfl | rfl | rfl | rfl | rfl | rfl | rfl | rfl) | rfl | rfl) | ⟨n, hn, rfl⟩) |
      rfl | rfl | rfl | rfl | rfl
    all_goals first
      | decide
      | (refine ⟨?_, by simp [String.toList_append]⟩
         rw [String.toList_append, List.mem_append, not_or]
         exact ⟨by decide, by assumption⟩)
      | (refine ⟨?_, by simp [String.toList_append]⟩
         rw [String.toList_append, List.mem_append, not_or]
         exact ⟨by decide, hmod _ hn⟩)
  have hx : '\n' ∉ "Subset: ".toList ++ s.toList := by
    rw [List.mem_append, not_or]
    exact ⟨by decide, hs⟩
  obtain ⟨l, hl, e⟩ := line_mem _ _ (fun l hl => (hcases l hl).1) hx hline
  exact (hcases l hl).2 (by rw [e]; rfl)

/-- An attribution with a subset and two notes. -/
def sampleInfo : List (String × AttrValue) :=
  [("dataset", .shown "CMU ARCTIC"), ("source", .shown "http://festvox.org"), ("license_name", .shown "BSD"),
    ("license_url", .shown "http://festvox.org/license"), ("required_attribution", .shown "CMU"),
    ("subset", .shown "bdl")]

example : ∃ text, saveAttribution (.fields sampleInfo) ["convolved", "mixed"] (some "old") = (some text, .ok ()) ∧
    HasLine text.toList "License: BSD".toList ∧ HasLine text.toList "Subset: bdl".toList ∧
    "- convolved\n- mixed\n".toList <:+: text.toList := by
  obtain ⟨text, h1, h2, h3, h4⟩ := C68_contents sampleInfo ["convolved", "mixed"] (some "old") (by decide)
  exact ⟨text, h1, h2 "license_name" "License: " (by decide) (.shown "BSD") rfl, h3 "bdl" rfl, h4⟩

example : ∃ text, saveAttribution (.fields (sampleInfo.take 5)) ["mixed"] none = (some text, .ok ()) ∧
    ¬ HasLine text.toList "Subset: bdl".toList := by
  have hv : ∀ k v, (sampleInfo.take 5).lookup k = some v → '\n' ∉ v.str.toList := by
    intro k v h
    have hv : v ∈ (sampleInfo.take 5).map Prod.snd := by
      rw [List.lookup_eq_some_iff] at h
      obtain ⟨l1, l2, e, -⟩ := h
      rw [e]
      simp
    simp only [sampleInfo, List.take, List.map_cons, List.map_nil, List.mem_cons, List.not_mem_nil, or_false] at hv
    rcases hv with rfl | rfl | rfl | rfl | rfl <;> decide
  obtain ⟨text, h1, h2⟩ := C68_no_subset (sampleInfo.take 5) ["mixed"] none (by decide) (Or.inl rfl) hv (by decide)
  exact ⟨text, h1, h2 "bdl" (by decide)⟩

/-! ## C84 -/

/-- The datasets whose licences are known. -/
def licensed : List (String × String) :=
  [("cmu_arctic", "Carnegie Mellon University, Language Technologies Institute (CMU ARCTIC)"),
    ("librispeech", "Vassil Panayotov, Guoguo Chen, Daniel Povey, and Sanjeev Khudanpur (LibriSpeech, 2015)")]

/-- **C84, supported datasets.** For every supported dataset, in any capitalisation, with any subset and
notes, attribution information exists and the attribution file is written; it names the required
attribution, a licence, where the licence is found, the subset of LibriSpeech, and every note. -/
theorem C84_supported (key credit : String) (hk : (key, credit) ∈ licensed) (dataset : String)
    (hd : dataset.toLower = key) (subset : Option String) (modifications : List String) (old : Option String) :
    ∃ info text, attributionFor dataset subset = .ok info ∧
      saveAttribution (.fields info) modifications old = (some text, .ok ()) ∧
      HasLine text.toList ("Required attribution: ".toList ++ credit.toList) ∧
      (∃ name url : String, name ≠ "" ∧ url ≠ "" ∧ HasLine text.toList ("License: ".toList ++ name.toList) ∧
        HasLine text.toList ("License URL: ".toList ++ url.toList)) ∧
      (∀ s, key = "librispeech" → subset = some s → HasLine text.toList ("Subset: ".toList ++ s.toList)) ∧
      (∀ n ∈ modifications, HasLine text.toList ("- ".toList ++ n.toList)) := by
  have main : ∀ (info : List (String × AttrValue)) (name url : String), attributionFor dataset subset = .ok info →
      (∀ k ∈ labels.map Prod.fst, (info.lookup k).isSome) →
      info.lookup "required_attribution" = some (.shown credit) →
      info.lookup "license_name" = some (.shown name) → name ≠ "" →
      info.lookup "license_url" = some (.shown url) → url ≠ "" →
      (∀ s, key = "librispeech" → subset = some s → info.lookup "subset" = some (.shown s)) →
      ∃ info text, attributionFor dataset subset = .ok info ∧
        saveAttribution (.fields info) modifications old = (some text, .ok ()) ∧
        HasLine text.toList ("Required attribution: ".toList ++ credit.toList) ∧
        (∃ name url : String, name ≠ "" ∧ url ≠ "" ∧ HasLine text.toList ("License: ".toList ++ name.toList) ∧
          HasLine text.toList ("License URL: ".toList ++ url.toList)) ∧
        (∀ s, key = "librispeech" → subset = some s → HasLine text.toList ("Subset: ".toList ++ s.toList)) ∧
        (∀ n ∈ modifications, HasLine text.toList ("- ".toList ++ n.toList)) := by
    intro info name url hi hreq hc hn hn0 hu hu0 hs
    obtain ⟨text, h1, h2, h3, -⟩ := C68_contents info modifications old hreq
    have g1 := h2 "required_attribution" "Required attribution: " (by simp [labels]) (.shown credit) hc
    have g2 := h2 "license_name" "License: " (by simp [labels]) (.shown name) hn
    have g3 := h2 "license_url" "License URL: " (by simp [labels]) (.shown url) hu
    refine ⟨info, text, hi, h1, g1, ⟨name, url, hn0, hu0, g2, g3⟩, fun s e1 e2 => h3 s (hs s e1 e2),
      fun n hmem => ?_⟩
    have htext : text = "\n".intercalate (attributionLines info modifications) ++ "\n" := by
      unfold saveAttribution at h1
      split at h1
      · cases h1
      · rename_i i' hi'
        have : i' = info := by
          unfold coerceAttribution at hi'
          dsimp only at hi'
          split_ifs at hi'
          cases hi'
          rfl
        subst this
        cases h1
        rfl
    rw [htext, joined_lines _ (by simp [attributionLines])]
    have hmem' : "- " ++ n ∈ attributionLines info modifications := by
      simp [attributionLines, hmem]
    have := hasLine_of_mem hmem'
    rwa [String.toList_append] at this
  simp only [licensed, List.mem_cons, Prod.mk.injEq, List.not_mem_nil, or_false] at hk
  rcases hk with ⟨rfl, rfl⟩ | ⟨rfl, rfl⟩
  · exact main _ "Permissive (attribution required; see upstream COPYING)" "http://www.festvox.org/cmu_arctic/"
      (by rw [attributionFor, if_pos hd]) (by simp [labels, List.lookup]) rfl rfl (by decide) rfl (by decide)
      (by intro s e; simp at e)
  · refine main _ "Creative Commons Attribution 4.0 International (CC BY 4.0)"
      "https://creativecommons.org/licenses/by/4.0/"
      (by rw [attributionFor, if_neg (by rw [hd]; decide), if_pos hd]) (by simp [labels, List.lookup]) rfl rfl
      (by decide) rfl (by decide) ?_
    rintro s - rfl
    rfl

example : ∃ info text, attributionFor "LibriSpeech" (some "dev-clean") = .ok info ∧
    saveAttribution (.fields info) (modificationNotes true) none = (some text, .ok ()) ∧
    HasLine text.toList "Subset: dev-clean".toList := by
  obtain ⟨info, text, h1, h2, -, -, h3, -⟩ := C84_supported "librispeech" _ (by simp [licensed]; rfl) "LibriSpeech"
    (toLower_eq (by decide)) (some "dev-clean") (modificationNotes true) none
  exact ⟨info, text, h1, h2, h3 _ rfl rfl⟩

/-- **C84, other datasets.** Any other name is rejected. -/
theorem C84_unsupported (dataset : String) (subset : Option String)
    (h : ∀ p ∈ licensed, dataset.toLower ≠ p.1) : ∃ e, attributionFor dataset subset = .error e := by
  unfold attributionFor
  have h1 : dataset.toLower ≠ "cmu_arctic" := h _ (List.mem_cons_self ..)
  have h2 : dataset.toLower ≠ "librispeech" := h _ (List.mem_cons_of_mem _ (List.mem_cons_self ..))
  rw [if_neg h1, if_neg h2]
  exact ⟨_, rfl⟩

/-- **C84, notes.** The notes of a static and of a dynamic scene differ, and say which it was. -/
theorem C84_notes (dynamic : Bool) :
    (∃ n ∈ modificationNotes dynamic, "Dynamic room impulse responses".toList <+: n.toList) ↔ dynamic = true := by
  cases dynamic <;> decide

end Torchrir.Props
