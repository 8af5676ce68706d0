import Verif.Model.Logging
import Verif.Props.Device

/-!
# Logging (C69, C70)
-/

namespace Torchrir.Props

open Torchrir.Model Torchrir.Lemmas

/-! ## C69 -/

theorem toUpper_eq {s r : String} (h : s.toList.map Char.toUpper = r.toList) : s.toUpper = r := by
  rw [← String.toList_inj, String.toUpper, String.toList_map, h]

/-- The levels of the calls that succeed, in order. -/
def levelsSet (configs : List LoggingConfig) : List ℤ :=
  configs.filterMap fun c => (resolveLevel c.level).toOption

/-- What a level argument stands for: a number for itself, a level name of the standard library, written in any
case, for the number of that level. -/
def Means : LevelArg → ℤ → Prop
  | .num m, n => n = m
  | .name s, n =>
    let u := s.toList.map Char.toUpper
    (n = 50 ∧ (u = "CRITICAL".toList ∨ u = "FATAL".toList)) ∨ (n = 40 ∧ u = "ERROR".toList) ∨
      (n = 30 ∧ (u = "WARNING".toList ∨ u = "WARN".toList)) ∨ (n = 20 ∧ u = "INFO".toList) ∨
      (n = 10 ∧ u = "DEBUG".toList) ∨ (n = 0 ∧ u = "NOTSET".toList)
  | .other, _ => False

/-- **C69, levels.** A level is accepted exactly if it is a number or the name of a level in any case, and stands
for the number of that level. -/
theorem C69_levels (a : LevelArg) (n : ℤ) : resolveLevel a = .ok n ↔ Means a n := by
  cases a with
  | num m => simp [resolveLevel, Means, eq_comm]
  | other => simp [resolveLevel, Means]
  | name s =>
    have hu : s.toList.map Char.toUpper = s.toUpper.toList := by rw [String.toUpper, String.toList_map]
    unfold resolveLevel Means
    dsimp only
    rw [hu]
    simp only [String.toList_inj]
    generalize s.toUpper = u
    unfold levelNames
    simp only [List.lookup_cons, List.lookup_nil]
    by_cases h1 : u = "CRITICAL"
    · subst h1; simp [eq_comm]
    by_cases h2 : u = "FATAL"
    · subst h2; simp [eq_comm]
    by_cases h3 : u = "ERROR"
    · subst h3; simp [eq_comm]
    by_cases h4 : u = "WARN"
    · subst h4; simp [eq_comm]
    by_cases h5 : u = "WARNING"
    · subst h5; simp [eq_comm]
    by_cases h6 : u = "INFO"
    · subst h6; simp [eq_comm]
    by_cases h7 : u = "DEBUG"
    · subst h7; simp [eq_comm]
    by_cases h8 : u = "NOTSET"
    · subst h8; simp [eq_comm]
    simp [h1, h2, h3, h4, h5, h6, h7, h8, beq_eq_false_iff_ne.mpr]

example : resolveLevel (.name "Warn") = .ok 30 := (C69_levels _ _).mpr (by unfold Means; decide)

theorem setupMany_levels : ∀ (configs : List LoggingConfig) (l : Logger) (h : Handler), l.handlers = [h] →
    (setupMany configs l).handlers = [h] ∧ (setupMany configs l).level = (levelsSet configs).getLast?.getD l.level
  | [], l, h, hl => ⟨hl, rfl⟩
  | c :: rest, l, h, hl => by
    unfold setupMany levelsSet
    rw [List.foldl_cons, List.filterMap_cons]
    unfold setupLogging
    cases hr : resolveLevel c.level with
    | error e =>
      simp only [Except.toOption]
      exact setupMany_levels rest l h hl
    | ok level =>
      simp only [Except.toOption]
      obtain ⟨h1, h2⟩ := setupMany_levels rest
        { level := level, propagate := c.propagate
          handlers := if l.handlers = [] then [⟨level, c.format⟩] else l.handlers } h (by simp [hl])
      refine ⟨h1, ?_⟩
      rw [List.getLast?_cons]
      exact h2

theorem setupMany_fresh : ∀ (configs : List LoggingConfig) (first : ℤ) (rest : List ℤ),
    levelsSet configs = first :: rest →
    ∃ format, (setupMany configs {}).handlers = [⟨first, format⟩] ∧
      (setupMany configs {}).level = (first :: rest).getLast (List.cons_ne_nil _ _)
  | [], first, rest, h => (nomatch h)
  | c :: configs, first, rest, h => by
    unfold levelsSet at h
    rw [List.filterMap_cons] at h
    unfold setupMany
    rw [List.foldl_cons]
    unfold setupLogging
    cases hr : resolveLevel c.level with
    | error e =>
      rw [hr] at h
      simp only [Except.toOption] at h
      exact setupMany_fresh configs first rest h
    | ok level =>
      rw [hr] at h
      simp only [Except.toOption, List.cons.injEq] at h
      obtain ⟨rfl, hrest⟩ := h
      obtain ⟨h1, h2⟩ := setupMany_levels configs
        { level := level, propagate := c.propagate, handlers := [⟨level, c.format⟩] } ⟨level, c.format⟩ rfl
      refine ⟨c.format, h1, ?_⟩
      have h3 : levelsSet configs = rest := hrest
      rw [h3] at h2
      rw [List.getLast_eq_getLastD, List.getLastD_eq_getLast?]
      exact h2

/-- **C69.** After any sequence of calls of which one succeeds the logger has exactly one handler. -/
theorem C69_one_handler (configs : List LoggingConfig) (h : levelsSet configs ≠ []) :
    (setupMany configs {}).handlers.length = 1 := by
  obtain ⟨first, rest, hl⟩ := List.exists_cons_of_ne_nil h
  obtain ⟨f, hf, -⟩ := setupMany_fresh configs first rest hl
  rw [hf]
  rfl

/-- **C69.** A call with an unknown level changes nothing. -/
theorem C69_failing_call (c : LoggingConfig) (l : Logger) (e : String) (h : (setupLogging c l).2 = .error e) :
    (setupLogging c l).1 = l := by
  unfold setupLogging at h ⊢
  cases hr : resolveLevel c.level with
  | error e => rfl
  | ok n =>
    rw [hr] at h
    cases h

/-- **C69 (what is emitted).** After any sequence of calls a record is emitted, and then once, exactly if its
level is at least that of the last call *and at least that of the first call*. The level 0 of the
last call stands for the level of the ancestors. -/
theorem C69_emitted_iff_partial (configs : List LoggingConfig) (h : levelsSet configs ≠ [])
    (ancestors record : ℤ) :
    let l := setupMany configs {}
    let first := (levelsSet configs).head h
    let last := (levelsSet configs).getLast h
    (l.emitting ancestors record).length =
      if (if last = 0 then ancestors else last) ≤ record ∧ first ≤ record then 1 else 0 := by
  obtain ⟨first, rest, hl⟩ := List.exists_cons_of_ne_nil h
  obtain ⟨f, hf, hlev⟩ := setupMany_fresh configs first rest hl
  intro l fst lst
  have e1 : fst = first := by simp [fst, hl]
  have e2 : l.level = lst := by
    simp only [l, lst, hlev]
    congr 1
    exact hl.symm
  unfold Logger.emitting Logger.effectiveLevel
  rw [e2, e1, show l.handlers = [⟨first, f⟩] from hf]
  by_cases h0 : lst = 0 <;> by_cases h1 : first ≤ record
  · by_cases h2 : ancestors ≤ record <;> simp [h0, h1, h2]
  · by_cases h2 : ancestors ≤ record <;> simp [h0, h1, h2]
  · by_cases h2 : lst ≤ record <;> simp [h0, h1, h2]
  · by_cases h2 : lst ≤ record <;> simp [h0, h1, h2]

/-- **C69, part.** If the last level is not 0 and not below the first one, then exactly the records at or above
the last level are emitted. -/
theorem C69_raised_level_partial (configs : List LoggingConfig) (h : levelsSet configs ≠ [])
    (h0 : (levelsSet configs).getLast h ≠ 0) (hle : (levelsSet configs).head h ≤ (levelsSet configs).getLast h)
    (ancestors record : ℤ) :
    (setupMany configs {}).emitting ancestors record ≠ [] ↔ (levelsSet configs).getLast h ≤ record := by
  have := C69_emitted_iff_partial configs h ancestors record
  dsimp only at this
  rw [if_neg h0] at this
  rw [← List.length_pos_iff_ne_nil, this]
  split_ifs with hc
  · exact ⟨fun _ => hc.1, fun _ => one_pos⟩
  · exact ⟨fun hx => absurd hx (lt_irrefl _), fun hr => absurd ⟨hr, le_trans hle hr⟩ hc⟩

/-- **C69 fails for lowered levels.** After a call with level ERROR, `setup_logging` with level DEBUG does not
make the logger emit debug, info or warning messages. -/
theorem C69_lowered_level_fails (ancestors record : ℤ) (h : record < 40) :
    (setupMany [{ level := .name "ERROR" }, { level := .name "DEBUG" }] {}).emitting ancestors record = [] := by
  have hl : levelsSet [{ level := .name "ERROR" }, { level := .name "DEBUG" }] = [40, 10] := by
    have e1 : "ERROR".toUpper = "ERROR" := toUpper_eq (by decide)
    have e2 : "DEBUG".toUpper = "DEBUG" := toUpper_eq (by decide)
    simp [levelsSet, resolveLevel, e1, e2, levelNames, Except.toOption, List.lookup]
  have := C69_emitted_iff_partial [{ level := .name "ERROR" }, { level := .name "DEBUG" }] (by rw [hl]; simp)
    ancestors record
  dsimp only at this
  simp only [hl] at this
  rw [if_neg (by simp; intro; exact h)] at this
  exact List.eq_nil_of_length_eq_zero this

/-- **C69 fails for NOTSET.** With level 0 the level of the ancestors decides, which is WARNING for the root
logger. -/
theorem C69_notset_fails (record : ℤ) (h0 : 0 ≤ record) (h : record < 30) :
    0 ≤ record ∧ (setupMany [{ level := .num 0 }] {}).emitting 30 record = [] := by
  have hl : levelsSet [{ level := .num 0 }] = [0] := rfl
  have := C69_emitted_iff_partial [{ level := .num 0 }] (by rw [hl]; simp) 30 record
  dsimp only at this
  simp only [hl] at this
  rw [if_neg (by simp; omega)] at this
  exact ⟨h0, List.eq_nil_of_length_eq_zero this⟩

example (record : ℤ) :
    (setupMany [{ level := .num 10 }, { level := .name "nonsense" }, { level := .num 20 }] {}).emitting 30 record ≠ []
      ↔ 20 ≤ record := by
  have hl : levelsSet [{ level := .num 10 }, { level := .name "nonsense" }, { level := .num 20 }] = [10, 20] := by
    have e1 : "nonsense".toUpper = "NONSENSE" := toUpper_eq (by decide)
    simp [levelsSet, resolveLevel, e1, levelNames, Except.toOption, List.lookup]
  have := C69_raised_level_partial [{ level := .num 10 }, { level := .name "nonsense" }, { level := .num 20 }]
    (by rw [hl]; simp) (by simp [hl]) (by simp [hl]) 30 record
  rw [this]
  simp [hl]

/-! ## C70 -/

/-- The name of a logger is that of the package logger or below it. -/
def InPackage (name : String) : Prop := name = "torchrir" ∨ ∃ rest, name = "torchrir." ++ rest

/-- **C70.** `get_logger` returns the package logger or one below it, except for names that continue the word
`torchrir` with something else than a dot. -/
theorem C70_below_package_partial (name : Option String) :
    InPackage (getLogger name) ↔
      ¬ ∃ (c : Char) (rest : List Char), c ≠ '.' ∧ name = some (String.ofList ("torchrir".toList ++ c :: rest)) := by
  unfold InPackage getLogger
  dsimp only
  split_ifs with h1 h2
  · refine ⟨fun _ => ?_, fun _ => .inl rfl⟩
    rintro ⟨c, rest, -, rfl⟩
    have := congrArg String.toList h1
    simp at this
  · cases name with
    | none => exact absurd rfl h1
    | some n =>
      simp only [Option.getD_some] at h1 h2 ⊢
      obtain ⟨tail, ht⟩ := h2
      have hn : n = String.ofList ("torchrir".toList ++ tail) := by rw [ht, String.ofList_toList]
      cases tail with
      | nil =>
        refine ⟨fun _ => ?_, fun _ => .inl (by rw [hn]; rfl)⟩
        rintro ⟨c, rest, -, he⟩
        have := congrArg String.toList (Option.some.inj he)
        rw [hn] at this
        simp at this
      | cons d tail =>
        by_cases hd : d = '.'
        · subst hd
          refine ⟨fun _ => ?_, fun _ => .inr ⟨String.ofList tail, ?_⟩⟩
          · rintro ⟨c, rest, hc, he⟩
            have := congrArg String.toList (Option.some.inj he)
            rw [hn] at this
            simp only [String.toList_ofList] at this
            have := List.append_cancel_left this
            exact hc (List.cons.inj this).1.symm
          · rw [hn, ← String.toList_inj]
            simp
        · refine ⟨?_, fun hno => absurd ⟨d, tail, hd, by rw [hn]⟩ hno⟩
          rintro (he | ⟨rest, he⟩)
          · have := congrArg String.toList he
            rw [hn] at this
            simp at this
          · have := congrArg String.toList he
            rw [hn] at this
            simp only [String.toList_ofList, String.toList_append] at this
            have h3 : "torchrir.".toList = "torchrir".toList ++ ['.'] := by decide
            rw [h3, List.append_assoc] at this
            have := List.append_cancel_left this
            exact absurd (List.cons.inj this).1 hd
  · refine ⟨fun _ => ?_, fun _ => .inr ⟨_, rfl⟩⟩
    rintro ⟨c, rest, -, rfl⟩
    apply h2
    simp only [Option.getD_some, String.toList_ofList]
    exact List.prefix_append _ _

/-- **C70.** Asking for a logger by the name of one that was returned gives that one. -/
theorem C70_idempotent (name : Option String) : getLogger (some (getLogger name)) = getLogger name := by
  have key : ∀ n : String, "torchrir".toList <+: n.toList → getLogger (some n) = n := by
    intro n hn
    unfold getLogger
    dsimp only [Option.getD_some]
    rw [if_neg, if_pos hn]
    rintro rfl
    simp at hn
  apply key
  unfold getLogger
  dsimp only
  split_ifs with h1 h2
  · exact List.prefix_rfl
  · exact h2
  · rw [String.toList_append]
    exact ⟨'.' :: (name.getD "").toList, by simp⟩

/-- **C70 fails** for a name that only starts like the package. -/
theorem C70_similar_name_fails : ¬ InPackage (getLogger (some "torchrirfoo")) := by
  rw [C70_below_package_partial, not_not]
  exact ⟨'f', ['o', 'o'], by decide, by decide⟩

example : InPackage (getLogger (some "examples.static")) := by
  rw [C70_below_package_partial]
  rintro ⟨c, rest, -, he⟩
  have := congrArg String.toList (Option.some.inj he)
  simp at this

end Torchrir.Props
