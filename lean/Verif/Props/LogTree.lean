import Verif.Spec.LogTree
import Verif.Props.Logging

/-!
# C150: what the package logs
-/

namespace Torchrir.Props

open Torchrir.Model Torchrir.Spec Torchrir.Lemmas

namespace LogTree

theorem lastDot_append (a b : List Char) {e : ℕ} (h : e ≤ a.length) : lastDot (a ++ b) e = lastDot a e := by
  induction e with
  | zero => rfl
  | succ e ih =>
    unfold lastDot
    rw [ih (by omega), List.getElem?_append_left (by omega)]

theorem parents_eq (name : List Char) (e : ℕ) : parentNames name e =
    match lastDot name e with
    | none => []
    | some 0 => []
    | some (i + 1) => name.take (i + 1) :: parentNames name i := by
  rw [parentNames]
  split <;> rename_i h <;> rw [h]

theorem parentNames_append (a b : List Char) (e : ℕ) (h : e ≤ a.length) : parentNames (a ++ b) e = parentNames a e := by
  induction e using Nat.strong_induction_on with
  | _ e ih =>
    have hl := lastDot_append a b h
    rw [parents_eq, parents_eq a, hl]
    cases hd : lastDot a e with
    | none => rfl
    | some i =>
      cases i with
      | zero => rfl
      | succ i =>
        have hi := lastDot_lt hd
        dsimp only
        rw [ih i (by omega) (by omega), List.take_append_of_le_length (by omega)]

theorem lastDot_word (base word : List Char) (hdot : '.' ∉ word) (k : ℕ) (hk : k ≤ word.length) :
    lastDot (base ++ '.' :: word) (base.length + 1 + k) = some base.length := by
  induction k with
  | zero =>
    unfold lastDot
    simp
  | succ k ih =>
    rw [show base.length + 1 + (k + 1) = (base.length + 1 + k) + 1 by omega]
    unfold lastDot
    rw [if_neg, ih (by omega)]
    rw [List.getElem?_append_right (by omega), show base.length + 1 + k - base.length = k + 1 by omega,
      List.getElem?_cons_succ]
    intro h
    exact hdot (List.mem_of_getElem? h)

/-- The last character is not a dot. -/
theorem last_plain {name : List Char} (h : InTree name) : 2 ≤ name.length ∧ name[name.length - 1]? ≠ some '.' := by
  cases h with
  | package => decide
  | @child base word h hne hdot =>
    have hw := List.length_pos_iff.mpr hne
    refine ⟨by simp; omega, ?_⟩
    intro he
    rw [List.getElem?_append_right (by simp)] at he
    have : (base ++ '.' :: word).length - 1 - base.length = (word.length - 1) + 1 := by simp; omega
    rw [this, List.getElem?_cons_succ] at he
    exact hdot (List.mem_of_getElem? he)

/-- The ancestors of a child are its parent and the ancestors of the parent. -/
theorem chain_child {base word : List Char} (h : InTree base) (hdot : '.' ∉ word) :
    chain (base ++ '.' :: word) = (base ++ '.' :: word) :: chain base := by
  obtain ⟨hlen, hlast⟩ := last_plain h
  unfold chain
  congr 1
  have hl := lastDot_word base word hdot word.length le_rfl
  have e : (base ++ '.' :: word).length = base.length + 1 + word.length := by simp; omega
  obtain ⟨n, hn⟩ : ∃ n, base.length = n + 1 := ⟨base.length - 1, by omega⟩
  rw [e, parents_eq, hl, hn]
  dsimp only
  rw [parentNames_append _ _ _ (by omega), ← hn, List.take_left]
  congr 1
  rw [parents_eq, parents_eq base base.length]
  have : lastDot base base.length = lastDot base n := by
    rw [hn, lastDot, if_neg]
    rw [hn] at hlast
    exact hlast
  rw [this]

theorem chain_package : chain "torchrir".toList = ["torchrir".toList] := by
  unfold chain
  rw [parentNames]
  rfl

theorem child_ne (base word : List Char) : base ++ '.' :: word ≠ "torchrir".toList := by
  intro he
  have : '.' ∈ "torchrir".toList := by
    rw [← he]
    simp
  revert this
  decide

/-- Only the logger of the package counts. -/
theorem walk (st : LogState) (hst : ∀ n, n ≠ "torchrir".toList → st.logger n = {}) {name : List Char} (h : InTree name) :
    st.effective (chain name) = st.effective ["torchrir".toList] ∧ st.reached (chain name) = st.reached ["torchrir".toList] := by
  induction h with
  | package => rw [chain_package]; exact ⟨rfl, rfl⟩
  | @child base word h hne hdot ih =>
    rw [chain_child h hdot]
    have hf := hst _ (child_ne base word)
    constructor
    · rw [← ih.1, LogState.effective, hf]
      rfl
    · rw [← ih.2, LogState.reached, hf]
      rfl

theorem levelName_eq (level : ℤ) : levelName level = levelText level := by
  unfold levelName levelText namedLevels
  simp only [List.lookup_cons, List.lookup_nil]
  by_cases h0 : level = 0
  · subst h0; rfl
  by_cases h1 : level = 10
  · subst h1; rfl
  by_cases h2 : level = 20
  · subst h2; rfl
  by_cases h3 : level = 30
  · subst h3; rfl
  by_cases h4 : level = 40
  · subst h4; rfl
  by_cases h5 : level = 50
  · subst h5; rfl
  rw [if_neg h5, if_neg h4, if_neg h3, if_neg h2, if_neg h1, if_neg h0]
  simp [beq_eq_false_iff_ne.mpr h0, beq_eq_false_iff_ne.mpr h1, beq_eq_false_iff_ne.mpr h2, beq_eq_false_iff_ne.mpr h3,
    beq_eq_false_iff_ne.mpr h4, beq_eq_false_iff_ne.mpr h5]

theorem render_pieces (level : ℤ) (name message : List Char) (pieces : List FormatPiece)
    (hc : ∀ c, FormatPiece.char c ∈ pieces → c ≠ '%') (k : ℕ) (hk : (pieces.map FormatPiece.code).flatten.length < k) :
    renderLog ⟨level, name, message⟩ k (pieces.map FormatPiece.code).flatten =
      some (pieces.map (FormatPiece.text level name message)).flatten := by
  induction pieces generalizing k with
  | nil =>
    obtain ⟨k, rfl⟩ : ∃ j, k = j + 1 := ⟨k - 1, by omega⟩
    rfl
  | cons p ps ih =>
    obtain ⟨k, rfl⟩ : ∃ j, k = j + 1 := ⟨k - 1, by omega⟩
    rw [List.map_cons, List.flatten_cons, List.length_append] at hk
    have hpos : 0 < p.code.length := by cases p <;> exact Nat.succ_pos _
    have hr := ih (fun c h => hc c (List.mem_cons_of_mem _ h)) k (by omega)
    rw [List.map_cons, List.flatten_cons, List.map_cons, List.flatten_cons]
    generalize (ps.map FormatPiece.code).flatten = rest at hr
    generalize (ps.map (FormatPiece.text level name message)).flatten = out at hr
    cases p with
    | char c =>
      have hne := hc c (by simp)
      show renderLog _ (k + 1) (c :: rest) = _
      unfold renderLog
      rw [if_neg hne, hr]
      rfl
    | percent =>
      show (renderLog _ k rest).map ('%' :: ·) = _
      rw [hr]
      rfl
    | level =>
      show (match some (levelName level), renderLog ⟨level, name, message⟩ k rest with
        | some t, some ts => some (t ++ ts)
        | _, _ => none) = _
      rw [hr, levelName_eq]
      rfl
    | name =>
      show (match some name, renderLog ⟨level, name, message⟩ k rest with
        | some t, some ts => some (t ++ ts)
        | _, _ => none) = _
      rw [hr]
      rfl
    | message =>
      show (match some message, renderLog ⟨level, name, message⟩ k rest with
        | some t, some ts => some (t ++ ts)
        | _, _ => none) = _
      rw [hr]
      rfl

theorem print_default (level : ℤ) (name message : List Char) (l : ℤ) :
    Handler.print ⟨l, ({} : LoggingConfig).format⟩ ⟨level, name, message⟩ = some (logLine level name message) := by
  have e : (({} : LoggingConfig).format).toList = "%(levelname)s:%(name)s:%(message)s".toList := rfl
  unfold Handler.print
  rw [e]
  have : renderLog ⟨level, name, message⟩ ("%(levelname)s:%(name)s:%(message)s".toList.length + 1)
      "%(levelname)s:%(name)s:%(message)s".toList = some (levelName level ++ (':' :: (name ++ (':' :: (message ++ []))))) := rfl
  rw [this, levelName_eq]
  simp [logLine]

end LogTree

/-! ## C150 -/

/-- **C150, names.** `get_logger` returns a logger of the package for every name that is a dotted sequence of words. -/
theorem C150_names (words : List (List Char)) (h : ∀ w ∈ words, w ≠ [] ∧ '.' ∉ w) (first : List Char) (hf : first ≠ [])
    (hf' : '.' ∉ first) (hpre : ¬ "torchrir".toList <+: first) :
    InTree (getLogger (some (String.ofList (first ++ (words.map ('.' :: ·)).flatten)))).toList ∧ InTree (getLogger none).toList := by
  have key : ∀ (ws : List (List Char)) (base : List Char), InTree base → (∀ w ∈ ws, w ≠ [] ∧ '.' ∉ w) →
      InTree (base ++ (ws.map ('.' :: ·)).flatten) := by
    intro ws
    induction ws with
    | nil => intro base hb _; simpa using hb
    | cons w ws ih =>
      intro base hb hw
      have := ih (base ++ '.' :: w) (.child hb (hw w (by simp)).1 (hw w (by simp)).2) fun v hv => hw v (by simp [hv])
      simpa using this
  constructor
  · have hne : String.ofList (first ++ (words.map ('.' :: ·)).flatten) ≠ "" := by
      intro he
      have := congrArg String.toList he
      simp [hf] at this
    have hnp : ¬ "torchrir".toList <+: (String.ofList (first ++ (words.map ('.' :: ·)).flatten)).toList := by
      rintro ⟨t, ht⟩
      rw [String.toList_ofList (l := first ++ _)] at ht
      rcases List.append_eq_append_iff.mp ht with ⟨a, ha, _⟩ | ⟨a, ha, hb⟩
      · exact hpre ⟨a, ha.symm⟩
      · cases a with
        | nil => exact hpre ⟨[], by simpa using ha⟩
        | cons c a =>
          have hc : c = '.' := by
            cases words with
            | nil => simp at hb
            | cons w ws => simp at hb; exact hb.1.symm
          have : '.' ∈ "torchrir".toList := by rw [ha, hc]; simp
          revert this
          decide
    unfold getLogger
    simp only [Option.getD_some]
    rw [if_neg hne, if_neg hnp, String.toList_append, String.toList_ofList (l := first ++ _)]
    have := key words ("torchrir".toList ++ '.' :: first) (.child .package hf hf') h
    simpa using this
  · exact InTree.package

/-- **C150, after setup_logging.** In a process where nobody else configures loggers of the package, whatever the root
logger is: a message to a logger of the package is printed by the handler of the package exactly if its level is at least
the configured one, and then once, as the format says. Without propagation nothing else is printed; with it, every handler
of the root logger prints it too. -/
theorem C150_after_setup_partial (root : Logger) (config : LoggingConfig) (n : ℤ) (hn : resolveLevel config.level = .ok n) (hn0 : n ≠ 0)
    {name : List Char} (h : InTree name) (level : ℤ) (message : List Char) :
    (({ logger := fun _ => {}, root := root } : LogState).setup config).log name level message =
      if n ≤ level then
        Handler.print ⟨n, config.format⟩ ⟨level, name, message⟩ ::
          (if config.propagate then
            (root.handlers.filter fun h => decide (h.level ≤ level)).map fun h => h.print ⟨level, name, message⟩ else [])
      else [] := by
  have hs : ((({ logger := fun _ => {}, root := root } : LogState).setup config).logger "torchrir".toList) =
      { level := n, propagate := config.propagate, handlers := [⟨n, config.format⟩] } := by
    simp [LogState.setup, setupLogging, hn]
  have hw := LogTree.walk (({ logger := fun _ => {}, root := root } : LogState).setup config)
    (fun m hm => by simp only [LogState.setup]; rw [Function.update_of_ne hm]) h
  have e1 : (({ logger := fun _ => {}, root := root } : LogState).setup config).effective ["torchrir".toList] = n := by
    rw [LogState.effective, hs]
    simp [hn0]
  have e2 : (({ logger := fun _ => {}, root := root } : LogState).setup config).reached ["torchrir".toList] =
      ⟨n, config.format⟩ :: if config.propagate then root.handlers else [] := by
    rw [LogState.reached, hs]
    rfl
  unfold LogState.log
  rw [hw.1, hw.2, e1, e2]
  by_cases hl : n ≤ level
  · rw [if_neg (not_lt.mpr hl), if_pos hl]
    dsimp only
    rw [if_neg (by simp), List.filter_cons_of_pos (by simpa using hl), List.map_cons]
    cases config.propagate <;> rfl
  · rw [if_pos (not_le.mp hl), if_neg hl]

/-- **C150 fails for the level NOTSET.** With the level 0 the threshold is that of the root logger, not the configured one:
the messages from the level of the root logger on are printed, and in a fresh process no INFO message. -/
theorem C150_notset_fails (config : LoggingConfig) (hn : resolveLevel config.level = .ok 0) {name : List Char} (h : InTree name)
    (message : List Char) :
    (∀ (root : Logger) (level : ℤ), 0 ≤ level →
      (({ logger := fun _ => {}, root := root } : LogState).setup config).log name level message =
        if root.level ≤ level then
          Handler.print ⟨0, config.format⟩ ⟨level, name, message⟩ ::
            (if config.propagate then
              (root.handlers.filter fun h => decide (h.level ≤ level)).map fun h => h.print ⟨level, name, message⟩ else [])
        else []) ∧
    (freshLogs.setup config).log name 20 message = [] := by
  have key : ∀ (root : Logger) (level : ℤ), 0 ≤ level →
      (({ logger := fun _ => {}, root := root } : LogState).setup config).log name level message =
        if root.level ≤ level then
          Handler.print ⟨0, config.format⟩ ⟨level, name, message⟩ ::
            (if config.propagate then
              (root.handlers.filter fun h => decide (h.level ≤ level)).map fun h => h.print ⟨level, name, message⟩ else [])
        else [] := by
    intro root level hlev
    have hs : ((({ logger := fun _ => {}, root := root } : LogState).setup config).logger "torchrir".toList) =
        { level := 0, propagate := config.propagate, handlers := [⟨0, config.format⟩] } := by
      simp [LogState.setup, setupLogging, hn]
    have hw := LogTree.walk (({ logger := fun _ => {}, root := root } : LogState).setup config)
      (fun m hm => by simp only [LogState.setup]; rw [Function.update_of_ne hm]) h
    have e1 : (({ logger := fun _ => {}, root := root } : LogState).setup config).effective ["torchrir".toList] = root.level := by
      rw [LogState.effective, hs]
      rfl
    have e2 : (({ logger := fun _ => {}, root := root } : LogState).setup config).reached ["torchrir".toList] =
        ⟨0, config.format⟩ :: if config.propagate then root.handlers else [] := by
      rw [LogState.reached, hs]
      rfl
    unfold LogState.log
    rw [hw.1, hw.2, e1, e2]
    by_cases hl : root.level ≤ level
    · rw [if_neg (not_lt.mpr hl), if_pos hl]
      dsimp only
      rw [if_neg (by simp), List.filter_cons_of_pos (by simpa using hlev), List.map_cons]
      cases config.propagate <;> rfl
    · rw [if_pos (not_le.mp hl), if_neg hl]
  exact ⟨key, (key { level := 30 } 20 (by norm_num)).trans (if_neg (by norm_num))⟩

/-- Level "NOTSET". -/
example (message : List Char) : (freshLogs.setup { level := .num 0 }).log "torchrir".toList 20 message = [] :=
  (C150_notset_fails { level := .num 0 } rfl .package message).2

/-- **C150, the default format.** With the default format and without propagation the printed text is one line with level,
name and message. -/
theorem C150_default_line_partial (root : Logger) (arg : LevelArg) (n : ℤ) (hn : resolveLevel arg = .ok n) (hn0 : n ≠ 0)
    {name : List Char} (h : InTree name) (level : ℤ) (message : List Char) :
    (({ logger := fun _ => {}, root := root } : LogState).setup { level := arg }).log name level message =
      if n ≤ level then [some (logLine level name message)] else [] := by
  rw [C150_after_setup_partial root { level := arg } n hn hn0 h level message, LogTree.print_default level name message n]
  rfl

/-- **C150, formats.** A handler prints its format with the fields replaced by level, name and message and `%%` by `%`,
for every format made of these pieces. -/
theorem C150_format (h : Handler) (pieces : List FormatPiece) (hc : ∀ c, FormatPiece.char c ∈ pieces → c ≠ '%')
    (hf : h.format.toList = (pieces.map FormatPiece.code).flatten) (level : ℤ) (name message : List Char) :
    h.print ⟨level, name, message⟩ = some (pieces.map (FormatPiece.text level name message)).flatten := by
  unfold Handler.print
  rw [hf]
  exact LogTree.render_pieces level name message pieces hc _ (Nat.lt_succ_self _)

/-- The format `100%% %(message)s`. -/
example : Handler.print ⟨20, "100%% %(message)s"⟩ ⟨20, "torchrir".toList, "done".toList⟩ = some "100% done".toList :=
  C150_format ⟨20, "100%% %(message)s"⟩ [.char '1', .char '0', .char '0', .percent, .char ' ', .message]
    (by simp) (by rfl) 20 "torchrir".toList "done".toList

/-- **C150, without setup_logging.** In a fresh process the bare message is printed from WARNING on, and nothing below. -/
theorem C150_without_setup (name : List Char) (level : ℤ) (message : List Char) :
    freshLogs.log name level message = if 30 ≤ level then [some message] else [] := by
  have e1 : ∀ l, freshLogs.effective l = 30 := by
    intro l
    induction l with
    | nil => rfl
    | cons a l ih => rw [LogState.effective, ih]; rfl
  have e2 : ∀ l, freshLogs.reached l = [] := by
    intro l
    induction l with
    | nil => rfl
    | cons a l ih => rw [LogState.reached, ih]; rfl
  unfold LogState.log
  rw [e1, e2]
  by_cases hl : 30 ≤ level
  · rw [if_neg (not_lt.mpr hl)]
    simp
  · rw [if_pos (not_le.mp hl), if_neg hl]

/-- **C150 fails for two dots.** `get_logger(".x")` is below the package by its name, but Python's search for ancestors
passes over the package: whatever was set up, the bare message is printed from WARNING on and nothing below. -/
theorem C150_two_dots_fails (config : LoggingConfig) (level : ℤ) (message : List Char) :
    (getLogger (some ".x")) = "torchrir..x" ∧
    (freshLogs.setup config).log "torchrir..x".toList level message = if 30 ≤ level then [some message] else [] := by
  refine ⟨by decide, ?_⟩
  have hc : chain "torchrir..x".toList = ["torchrir..x".toList, "torchrir.".toList] := by
    unfold chain
    have d1 : lastDot "torchrir..x".toList "torchrir..x".toList.length = some 9 := by decide
    have d2 : lastDot "torchrir..x".toList 8 = none := by decide
    rw [LogTree.parents_eq, d1]
    dsimp only
    rw [LogTree.parents_eq, d2]
    rfl
  have h1 : (freshLogs.setup config).logger "torchrir..x".toList = {} := by
    simp only [LogState.setup]
    rw [Function.update_of_ne (by decide)]
    rfl
  have h2 : (freshLogs.setup config).logger "torchrir.".toList = {} := by
    simp only [LogState.setup]
    rw [Function.update_of_ne (by decide)]
    rfl
  have e1 : (freshLogs.setup config).effective (chain "torchrir..x".toList) = 30 := by
    rw [hc, LogState.effective, h1, LogState.effective, h2]
    rfl
  have e2 : (freshLogs.setup config).reached (chain "torchrir..x".toList) = [] := by
    rw [hc, LogState.reached, h1, LogState.reached, h2]
    rfl
  unfold LogState.log
  rw [e1, e2]
  by_cases hl : 30 ≤ level
  · rw [if_neg (not_lt.mpr hl)]
    simp
  · rw [if_pos (not_le.mp hl), if_neg hl]

/-- The command line program with `--log-level INFO`. -/
example (root : Logger) : (({ logger := fun _ => {}, root := root } : LogState).setup { level := .num 20 }).log
    (getLogger (some "examples.cli")).toList 20 "saved".toList = [some "INFO:torchrir.examples.cli:saved".toList] := by
  have h : InTree (getLogger (some "examples.cli")).toList := by
    have := (C150_names ["cli".toList] (by decide) "examples".toList (by decide) (by decide) (by decide)).1
    exact this
  rw [C150_default_line_partial root (.num 20) 20 rfl (by norm_num) h, if_pos le_rfl]
  decide

end Torchrir.Props
