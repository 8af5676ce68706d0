import Verif.Lemmas.JsonText

/-!
# Reading what was written
-/

set_option linter.unusedSectionVars false

namespace Torchrir.Lemmas.JsonText

open Torchrir.Model Torchrir.Spec

variable {fl : ℝ → ℝ} {F : ℝ → Prop}

/-! ## More text after a value -/

theorem readValue_cons (n : ℕ) (c : Char) (cs : List Char) : readValue fl (n + 1) (c :: cs) =
    if c = '"' then (scanString cs).map fun x => (.str (joinSurrogates x.1), x.2)
    else if c = '{' then
      match skipBlanks cs with
      | [] => none
      | d :: r =>
        if d = '}' then some (.obj [], r)
        else if d = '"' then (readMembers fl n r).map fun x => (.obj x.1, x.2)
        else none
    else if c = '[' then
      match skipBlanks cs with
      | [] => none
      | d :: r => if d = ']' then some (.arr [], r) else (readItems fl n (d :: r)).map fun x => (.arr x.1, x.2)
    else readScalar fl (c :: cs) := by
  rw [readValue]
  rfl

/-- After an item. -/
noncomputable def afterItem (fl : ℝ → ℝ) (n : ℕ) (cs : List Char) : Option (List JVal × List Char) :=
  match skipBlanks cs with
  | [] => none
  | d :: r => if d = ']' then some ([], r) else if d = ',' then readItems fl n (skipBlanks r) else none

theorem readItems_succ (n : ℕ) (cs : List Char) : readItems fl (n + 1) cs =
    (readValue fl n cs).bind fun x => (afterItem fl n x.2).map fun y => (x.1 :: y.1, y.2) := by
  rw [readItems]
  congr 1
  funext x
  unfold afterItem
  cases skipBlanks x.2 with
  | nil => rfl
  | cons d r =>
    dsimp only
    split_ifs <;> rfl

/-- After a member. -/
noncomputable def afterMember (fl : ℝ → ℝ) (n : ℕ) (cs : List Char) : Option (List (PyText × JVal) × List Char) :=
  match skipBlanks cs with
  | [] => none
  | d :: r =>
    if d = '}' then some ([], r)
    else if d = ',' then
      match skipBlanks r with
      | [] => none
      | d :: r => if d = '"' then readMembers fl n r else none
    else none

/-- After the name of a member. -/
noncomputable def afterName (fl : ℝ → ℝ) (n : ℕ) (cs : List Char) : Option (JVal × List Char) :=
  match skipBlanks cs with
  | [] => none
  | d :: r => if d = ':' then readValue fl n (skipBlanks r) else none

theorem readMembers_succ (n : ℕ) (cs : List Char) : readMembers fl (n + 1) cs =
    (scanString cs).bind fun k => (afterName fl n k.2).bind fun x =>
      (afterMember fl n x.2).map fun y => ((joinSurrogates k.1, x.1) :: y.1, y.2) := by
  rw [readMembers]
  congr 1
  funext k
  unfold afterName
  cases skipBlanks k.2 with
  | nil => rfl
  | cons d r =>
    dsimp only
    by_cases hd : d = ':'
    · rw [if_pos hd, if_pos hd]
      congr 1
      funext x
      unfold afterMember
      cases skipBlanks x.2 with
      | nil => rfl
      | cons d r =>
        dsimp only
        split_ifs
        · rfl
        · cases skipBlanks r with
          | nil => rfl
          | cons d r =>
            dsimp only
            split_ifs <;> rfl
        · rfl
    · rw [if_neg hd, if_neg hd]
      rfl

/-- The three readers find the same with more fuel and more text. -/
def Extends (fl : ℝ → ℝ) (n : ℕ) : Prop := ∀ m, n ≤ m → ∀ P S r : List Char,
  (∀ v, readValue fl n P = some (v, r) → Closed v r S → readValue fl m (P ++ S) = some (v, r ++ S)) ∧
  (∀ vs, readItems fl n P = some (vs, r) → readItems fl m (P ++ S) = some (vs, r ++ S)) ∧
  (∀ vs, readMembers fl n P = some (vs, r) → readMembers fl m (P ++ S) = some (vs, r ++ S))

theorem skip_extend_skip {cs r : List Char} {d : Char} (h : skipBlanks cs = d :: r) (S : List Char) :
    skipBlanks (cs ++ S) = skipBlanks cs ++ S := by
  rw [skip_extend h, h]
  rfl

theorem afterItem_extend {n m : ℕ} (hm : n ≤ m) (ih : Extends fl n) {P r S : List Char} {vs : List JVal}
    (h : afterItem fl n P = some (vs, r)) : afterItem fl m (P ++ S) = some (vs, r ++ S) := by
  unfold afterItem at h ⊢
  cases hs : skipBlanks P with
  | nil => rw [hs] at h; simp at h
  | cons d r' =>
    rw [skip_extend hs S]
    rw [hs] at h
    dsimp only at h ⊢
    by_cases h1 : d = ']'
    · rw [if_pos h1] at h ⊢
      simp only [Option.some.injEq, Prod.mk.injEq] at h
      rw [← h.1, ← h.2]
    · by_cases h2 : d = ','
      · rw [if_neg h1, if_pos h2] at h ⊢
        cases ht : skipBlanks r' with
        | nil =>
          rw [ht] at h
          cases n with
          | zero => simp [readItems] at h
          | succ n =>
            rw [readItems_succ] at h
            cases n <;> simp [readValue] at h
        | cons d2 r2 =>
          rw [skip_extend_skip ht]
          exact (ih m hm _ S r).2.1 vs h
      · rw [if_neg h1, if_neg h2] at h
        simp at h

theorem afterItem_head {n : ℕ} {P r : List Char} {vs : List JVal} (h : afterItem fl n P = some (vs, r)) :
    ∃ c r', P = c :: r' ∧ Ends c := by
  unfold afterItem at h
  cases hs : skipBlanks P with
  | nil => rw [hs] at h; simp at h
  | cons d r' =>
    rw [hs] at h
    dsimp only at h
    refine skip_head hs ?_
    by_cases h1 : d = ']'
    · rw [h1]; exact ⟨rfl, by decide, by decide, by decide⟩
    · by_cases h2 : d = ','
      · rw [h2]; exact ⟨rfl, by decide, by decide, by decide⟩
      · rw [if_neg h1, if_neg h2] at h
        simp at h

theorem afterMember_extend {n m : ℕ} (hm : n ≤ m) (ih : Extends fl n) {P r S : List Char} {vs : List (PyText × JVal)}
    (h : afterMember fl n P = some (vs, r)) : afterMember fl m (P ++ S) = some (vs, r ++ S) := by
  unfold afterMember at h ⊢
  cases hs : skipBlanks P with
  | nil => rw [hs] at h; simp at h
  | cons d r' =>
    rw [skip_extend hs S]
    rw [hs] at h
    dsimp only at h ⊢
    by_cases h1 : d = '}'
    · rw [if_pos h1] at h ⊢
      simp only [Option.some.injEq, Prod.mk.injEq] at h
      rw [← h.1, ← h.2]
    · by_cases h2 : d = ','
      · rw [if_neg h1, if_pos h2] at h ⊢
        cases ht : skipBlanks r' with
        | nil => rw [ht] at h; simp at h
        | cons d2 r2 =>
          rw [skip_extend ht]
          rw [ht] at h
          dsimp only at h ⊢
          by_cases h3 : d2 = '"'
          · rw [if_pos h3] at h ⊢
            exact (ih m hm _ S r).2.2 vs h
          · rw [if_neg h3] at h
            simp at h
      · rw [if_neg h1, if_neg h2] at h
        simp at h

theorem afterMember_head {n : ℕ} {P r : List Char} {vs : List (PyText × JVal)} (h : afterMember fl n P = some (vs, r)) :
    ∃ c r', P = c :: r' ∧ Ends c := by
  unfold afterMember at h
  cases hs : skipBlanks P with
  | nil => rw [hs] at h; simp at h
  | cons d r' =>
    rw [hs] at h
    dsimp only at h
    refine skip_head hs ?_
    by_cases h1 : d = '}'
    · rw [h1]; exact ⟨rfl, by decide, by decide, by decide⟩
    · by_cases h2 : d = ','
      · rw [h2]; exact ⟨rfl, by decide, by decide, by decide⟩
      · rw [if_neg h1, if_neg h2] at h
        simp at h

theorem readValue_nil (n : ℕ) : readValue fl n [] = none := by
  cases n <;> rw [readValue]

theorem afterName_extend {n m : ℕ} (hm : n ≤ m) (ih : Extends fl n) {P r S : List Char} {v : JVal}
    (h : afterName fl n P = some (v, r)) (hc : Closed v r S) : afterName fl m (P ++ S) = some (v, r ++ S) := by
  unfold afterName at h ⊢
  cases hs : skipBlanks P with
  | nil => rw [hs] at h; simp at h
  | cons d r' =>
    rw [skip_extend hs S]
    rw [hs] at h
    dsimp only at h ⊢
    by_cases h1 : d = ':'
    · rw [if_pos h1] at h ⊢
      cases ht : skipBlanks r' with
      | nil => rw [ht, readValue_nil] at h; simp at h
      | cons d2 r2 =>
        rw [skip_extend_skip ht]
        exact (ih m hm _ S r).1 v h hc
    · rw [if_neg h1] at h
      simp at h

theorem extends_all (fl : ℝ → ℝ) : ∀ n, Extends fl n
  | 0 => fun m _ P S r => ⟨fun v h => by simp [readValue] at h, fun v h => by simp [readItems] at h,
      fun v h => by simp [readMembers] at h⟩
  | n + 1 => by
    have ih := extends_all fl n
    intro m hm P S r
    obtain ⟨m, rfl⟩ : ∃ k, m = k + 1 := ⟨m - 1, by omega⟩
    have hm' : n ≤ m := by omega
    refine ⟨?_, ?_, ?_⟩
    · intro v h hc
      cases P with
      | nil => rw [readValue_nil] at h; simp at h
      | cons c cs =>
        rw [List.cons_append]
        rw [readValue_cons] at h ⊢
        by_cases h1 : c = '"'
        · rw [if_pos h1] at h ⊢
          rw [Option.map_eq_some_iff] at h
          obtain ⟨⟨us, r0⟩, h2, h3⟩ := h
          simp only [Prod.mk.injEq] at h3
          rw [scan_extend cs us r0 S h2, Option.map_some, h3.1, h3.2]
        rw [if_neg h1] at h ⊢
        by_cases h2 : c = '{'
        · rw [if_pos h2] at h ⊢
          cases hs : skipBlanks cs with
          | nil => rw [hs] at h; simp at h
          | cons d r' =>
            rw [skip_extend hs S]
            rw [hs] at h
            dsimp only at h ⊢
            by_cases h3 : d = '}'
            · rw [if_pos h3] at h ⊢
              simp only [Option.some.injEq, Prod.mk.injEq] at h
              rw [← h.1, ← h.2]
            · by_cases h4 : d = '"'
              · rw [if_neg h3, if_pos h4] at h ⊢
                rw [Option.map_eq_some_iff] at h
                obtain ⟨⟨ms, r0⟩, h5, h6⟩ := h
                simp only [Prod.mk.injEq] at h6
                rw [(ih m hm' r' S r0).2.2 ms h5, Option.map_some, h6.1, h6.2]
              · rw [if_neg h3, if_neg h4] at h
                simp at h
        rw [if_neg h2] at h ⊢
        by_cases h3 : c = '['
        · rw [if_pos h3] at h ⊢
          cases hs : skipBlanks cs with
          | nil => rw [hs] at h; simp at h
          | cons d r' =>
            rw [skip_extend hs S]
            rw [hs] at h
            dsimp only at h ⊢
            by_cases h4 : d = ']'
            · rw [if_pos h4] at h ⊢
              simp only [Option.some.injEq, Prod.mk.injEq] at h
              rw [← h.1, ← h.2]
            · rw [if_neg h4] at h ⊢
              rw [Option.map_eq_some_iff] at h
              obtain ⟨⟨ms, r0⟩, h5, h6⟩ := h
              simp only [Prod.mk.injEq] at h6
              have := (ih m hm' (d :: r') S r0).2.1 ms h5
              rw [List.cons_append] at this
              rw [this, Option.map_some, h6.1, h6.2]
        rw [if_neg h3] at h ⊢
        exact readScalar_extend h hc
    · intro vs h
      rw [readItems_succ, Option.bind_eq_some_iff] at h
      obtain ⟨⟨v, r0⟩, h1, h2⟩ := h
      rw [Option.map_eq_some_iff] at h2
      obtain ⟨⟨ws, r1⟩, h3, h4⟩ := h2
      simp only [Prod.mk.injEq] at h4
      dsimp only at h3
      have hv := (ih m hm' P S r0).1 v h1 (Or.inr (Or.inr (afterItem_head h3)))
      rw [readItems_succ, hv, Option.bind_some]
      dsimp only
      rw [afterItem_extend hm' ih h3, Option.map_some, h4.1, h4.2]
    · intro vs h
      rw [readMembers_succ, Option.bind_eq_some_iff] at h
      obtain ⟨⟨k, r0⟩, h1, h2⟩ := h
      rw [Option.bind_eq_some_iff] at h2
      obtain ⟨⟨v, r1⟩, h3, h4⟩ := h2
      rw [Option.map_eq_some_iff] at h4
      obtain ⟨⟨ws, r2⟩, h5, h6⟩ := h4
      simp only [Prod.mk.injEq] at h6
      dsimp only at h3 h5
      rw [readMembers_succ, scan_extend P k r0 S h1, Option.bind_some]
      dsimp only
      rw [afterName_extend hm' ih h3 (Or.inr (Or.inr (afterMember_head h5))), Option.bind_some]
      dsimp only
      rw [afterMember_extend hm' ih h5, Option.map_some, h6.1, h6.2]

theorem readValue_mono {n m : ℕ} (hm : n ≤ m) {P r : List Char} {v : JVal} (h : readValue fl n P = some (v, r)) :
    readValue fl m P = some (v, r) := by
  have := (extends_all fl n m hm P [] r).1 v h (Or.inl rfl)
  rwa [List.append_nil, List.append_nil] at this

theorem readItems_mono {n m : ℕ} (hm : n ≤ m) {P r : List Char} {v : List JVal} (h : readItems fl n P = some (v, r)) :
    readItems fl m P = some (v, r) := by
  have := (extends_all fl n m hm P [] r).2.1 v h
  rwa [List.append_nil, List.append_nil] at this

theorem readMembers_mono {n m : ℕ} (hm : n ≤ m) {P r : List Char} {v : List (PyText × JVal)}
    (h : readMembers fl n P = some (v, r)) : readMembers fl m P = some (v, r) := by
  have := (extends_all fl n m hm P [] r).2.2 v h
  rwa [List.append_nil, List.append_nil] at this

theorem afterItem_mono {n m : ℕ} (hm : n ≤ m) {P r : List Char} {v : List JVal} (h : afterItem fl n P = some (v, r)) :
    afterItem fl m P = some (v, r) := by
  have := afterItem_extend (S := []) hm (extends_all fl n) h
  rwa [List.append_nil, List.append_nil] at this

theorem afterMember_mono {n m : ℕ} (hm : n ≤ m) {P r : List Char} {v : List (PyText × JVal)}
    (h : afterMember fl n P = some (v, r)) : afterMember fl m P = some (v, r) := by
  have := afterMember_extend (S := []) hm (extends_all fl n) h
  rwa [List.append_nil, List.append_nil] at this

/-! ## What is written -/

theorem andThen_ok {a b : Written} {t : List Char} (h : a.andThen b = (t, none)) :
    ∃ s u, a = (s, none) ∧ b = (u, none) ∧ t = s ++ u := by
  obtain ⟨s, e⟩ := a
  obtain ⟨u, e'⟩ := b
  cases e with
  | some e => simp [Written.andThen] at h
  | none =>
    simp only [Written.andThen, Prod.mk.injEq] at h
    exact ⟨s, u, rfl, by rw [h.2], h.1.symm⟩

theorem say_then {s : List Char} {b : Written} {t : List Char} (h : (say s).andThen b = (t, none)) :
    ∃ u, b = (u, none) ∧ t = s ++ u := by
  obtain ⟨s', u, h1, h2, h3⟩ := andThen_ok h
  unfold say at h1
  simp only [Prod.mk.injEq, and_true] at h1
  exact ⟨u, h2, by rw [h3, h1]⟩

theorem skip_newline (level : ℕ) (rest : List Char) : skipBlanks (newline level ++ rest) = skipBlanks rest := by
  unfold newline skipBlanks
  rw [List.cons_append, List.dropWhile_cons_of_pos (by decide)]
  induction 2 * level with
  | zero => rfl
  | succ k ih => rw [List.replicate_succ, List.cons_append, List.dropWhile_cons_of_pos (by decide), ih]

/-- The first character of a value. -/
def Begins (t : List Char) : Prop := ∃ c cs, t = c :: cs ∧ isBlank c = false ∧ c ≠ ']'

theorem Begins.skip {t : List Char} (h : Begins t) (rest : List Char) : skipBlanks (t ++ rest) = t ++ rest := by
  obtain ⟨c, cs, rfl, hb, -⟩ := h
  unfold skipBlanks
  rw [List.cons_append, List.dropWhile_cons_of_neg (by rw [hb]; simp)]

theorem Begins.cons (c : Char) (cs : List Char) (h : isBlank c = false ∧ c ≠ ']') : Begins (c :: cs) := ⟨c, cs, rfl, h.1, h.2⟩

theorem digit_facts {c : Char} (h : c.isDigit) : isBlank c = false ∧ c ≠ ']' ∧ c ≠ '"' ∧ c ≠ '{' ∧ c ≠ '[' ∧ c ≠ 'n' ∧ c ≠ 't' ∧
    c ≠ 'f' ∧ c ≠ 'N' ∧ c ≠ 'I' ∧ c ≠ '-' := by
  refine ⟨?_, ?_, ?_, ?_, ?_, ?_, ?_, ?_, ?_, ?_, ?_⟩
  · unfold isBlank
    simp only [Bool.or_eq_false_iff, decide_eq_false_iff_not]
    refine ⟨⟨⟨?_, ?_⟩, ?_⟩, ?_⟩ <;> rintro rfl <;> exact absurd h (by decide)
  all_goals rintro rfl; exact absurd h (by decide)

/-- The text of a number begins with a digit or a minus sign followed by a digit. -/
def Numeric (t : List Char) : Prop := ∃ c cs, t = c :: cs ∧ (c.isDigit ∨ c = '-')

theorem numeric_facts {c : Char} (h : c.isDigit ∨ c = '-') : isBlank c = false ∧ c ≠ ']' ∧ c ≠ '"' ∧ c ≠ '{' ∧ c ≠ '[' ∧ c ≠ 'n' ∧
    c ≠ 't' ∧ c ≠ 'f' ∧ c ≠ 'N' ∧ c ≠ 'I' := by
  rcases h with h | rfl
  · obtain ⟨h1, h2, h3, h4, h5, h6, h7, h8, h9, h10, -⟩ := digit_facts h
    exact ⟨h1, h2, h3, h4, h5, h6, h7, h8, h9, h10⟩
  · decide

theorem numeric_int (z : ℤ) : Numeric (intText z) := by
  obtain ⟨h1, -, h3⟩ := decimalDigits_facts z.natAbs
  unfold intText
  split_ifs
  · exact ⟨_, _, rfl, Or.inr rfl⟩
  · rcases h3 with h | ⟨c, cs, h, -⟩
    · exact ⟨_, _, h, Or.inl rfl⟩
    · exact ⟨_, _, h, Or.inl (h1 c (by rw [h]; simp))⟩

theorem numeric_decimal (D : DecimalText) (h : D.Valid) : Numeric D.text := by
  unfold DecimalText.text
  by_cases hn : D.neg
  · rw [if_pos hn]
    exact ⟨_, _, rfl, Or.inr rfl⟩
  · rw [if_neg hn, List.nil_append]
    rcases h.lead with hl | ⟨c, cs, hl, -⟩
    · rw [hl]; exact ⟨_, _, rfl, Or.inl rfl⟩
    · have := h.ip c (by rw [hl]; simp)
      rw [hl]; exact ⟨_, _, rfl, Or.inl this⟩

theorem Numeric.begins {t : List Char} (h : Numeric t) : Begins t := by
  obtain ⟨c, cs, rfl, hc⟩ := h
  have := numeric_facts hc
  exact ⟨c, cs, rfl, this.1, this.2.1⟩

theorem readValue_numeric {t rest : List Char} (h : Numeric t) {x : PyNum}
    (hx : readNumber fl (t ++ rest) = some (x, rest)) (n : ℕ) : readValue fl (n + 1) (t ++ rest) = some (.num x, rest) := by
  obtain ⟨c, cs, rfl, hc⟩ := h
  obtain ⟨-, -, h3, h4, h5, h6, h7, h8, h9, h10⟩ := numeric_facts hc
  rw [List.cons_append] at hx ⊢
  rw [readValue_cons, if_neg h3, if_neg h4, if_neg h5, readScalar_cons, if_neg h6, if_neg h7, if_neg h8, if_neg h9, if_neg h10, hx]

theorem readValue_text (s : String) (rest : List Char) (n : ℕ) :
    readValue fl (n + 1) (encodeText (codePoints s) ++ rest) = some (.str (codePoints s), rest) := by
  obtain ⟨tl, h1, h2⟩ := scan_text (codePoints s) (codePoints_lt s) rest
  rw [h1, readValue_cons, if_pos rfl, h2, Option.map_some]
  dsimp only
  rw [join_units _ (codePoints_lt s) (codePoints_separate s)]

/-- A value that was written is read again, whatever comes after it. -/
def ReadsTo (fl : ℝ → ℝ) (t : List Char) (j : JVal) : Prop :=
  Begins t ∧ ∀ rest, Stops rest → ∃ N, ∀ n, N ≤ n → readValue fl n (t ++ rest) = some (j, rest)

theorem reads_num {repr : ℝ → List Char} (hr : ReprFloat F fl repr) (x : PyNum) (hx : FloatsOf F (.num x)) :
    ReadsTo fl (numText repr x) (.num x) := by
  have one : ∀ {P : ℕ → Prop}, (∀ n, P (n + 1)) → ∃ N, ∀ n, N ≤ n → P n := by
    intro P h
    refine ⟨1, fun n hn => ?_⟩
    obtain ⟨k, rfl⟩ : ∃ k, n = k + 1 := ⟨n - 1, by omega⟩
    exact h k
  cases x with
  | int z =>
    refine ⟨(numeric_int z).begins, fun rest hs => one fun n => ?_⟩
    exact readValue_numeric (numeric_int z) (readNumber_int fl z rest hs) n
  | float y =>
    cases y with
    | fin x =>
      obtain ⟨D, h1, h2, h3⟩ := hr x hx
      have hD := numeric_decimal D h1
      have ht : numText repr (.float (.fin x)) = D.text := h2
      rw [ht]
      refine ⟨hD.begins, fun rest hs => one fun n => ?_⟩
      have := readNumber_decimal fl D h1 rest hs
      rw [h3] at this
      exact readValue_numeric hD this n
    | nan =>
      refine ⟨⟨_, _, rfl, by decide⟩, fun rest _ => one fun n => ?_⟩
      show readValue fl (n + 1) ('N' :: ("aN".toList ++ rest)) = _
      rw [readValue_cons, if_neg (by decide), if_neg (by decide), if_neg (by decide), readScalar_cons, if_neg (by decide),
        if_neg (by decide), if_neg (by decide), if_pos rfl, strip_append]
      rfl
    | posInf =>
      refine ⟨⟨_, _, rfl, by decide⟩, fun rest _ => one fun n => ?_⟩
      show readValue fl (n + 1) ('I' :: ("nfinity".toList ++ rest)) = _
      rw [readValue_cons, if_neg (by decide), if_neg (by decide), if_neg (by decide), readScalar_cons, if_neg (by decide),
        if_neg (by decide), if_neg (by decide), if_neg (by decide), if_pos rfl, strip_append]
      rfl
    | negInf =>
      refine ⟨⟨_, _, rfl, by decide⟩, fun rest _ => one fun n => ?_⟩
      show readValue fl (n + 1) ('-' :: ("Infinity".toList ++ rest)) = _
      have hn : readNumber fl ('-' :: ("Infinity".toList ++ rest)) = none := rfl
      rw [readValue_cons, if_neg (by decide), if_neg (by decide), if_neg (by decide), readScalar_cons, if_neg (by decide),
        if_neg (by decide), if_neg (by decide), if_neg (by decide), if_neg (by decide), hn]
      dsimp only
      rw [if_pos rfl, strip_append]
      rfl

theorem ends_comma : Ends ',' := ⟨rfl, by decide, by decide, by decide⟩

theorem ends_newline : Ends '\n' := ⟨rfl, by decide, by decide, by decide⟩

/-- The items after one. -/
def ReadsItems (fl : ℝ → ℝ) (t : List Char) (js : List JVal) : Prop :=
  (t = [] ∨ ∃ t', t = ',' :: t') ∧
  ∀ level rest, ∃ N, ∀ n, N ≤ n → afterItem fl n (t ++ (newline level ++ ']' :: rest)) = some (js, rest)

/-- The members after one. -/
def ReadsMembers (fl : ℝ → ℝ) (t : List Char) (js : List (PyText × JVal)) : Prop :=
  (t = [] ∨ ∃ t', t = ',' :: t') ∧
  ∀ level rest, ∃ N, ∀ n, N ≤ n → afterMember fl n (t ++ (newline level ++ '}' :: rest)) = some (js, rest)

theorem stops_tail {t : List Char} (h : t = [] ∨ ∃ t', t = ',' :: t') (level : ℕ) (rest : List Char) :
    Stops (t ++ (newline level ++ rest)) := by
  rcases h with rfl | ⟨t', rfl⟩
  · exact Stops.cons ends_newline _
  · exact Stops.cons ends_comma _

/-- The members of a list, the first of them included. -/
theorem reads_items {t u : List Char} {j : JVal} {js : List JVal} (h1 : ReadsTo fl t j) (h2 : ReadsItems fl u js) (level : ℕ)
    (rest : List Char) : ∃ N, ∀ n, N ≤ n → readItems fl n (t ++ (u ++ (newline level ++ ']' :: rest))) = some (j :: js, rest) := by
  obtain ⟨N1, e1⟩ := h1.2 (u ++ (newline level ++ ']' :: rest)) (stops_tail h2.1 level _)
  obtain ⟨N2, e2⟩ := h2.2 level rest
  refine ⟨max N1 N2 + 1, fun n hn => ?_⟩
  obtain ⟨k, rfl⟩ : ∃ k, n = k + 1 := ⟨n - 1, by omega⟩
  rw [readItems_succ, e1 k (by omega), Option.bind_some]
  dsimp only
  rw [e2 k (by omega), Option.map_some]

theorem reads_members {s : String} {t u : List Char} {j : JVal} {js : List (PyText × JVal)} (h1 : ReadsTo fl t j)
    (h2 : ReadsMembers fl u js) (level : ℕ) (rest : List Char) :
    ∃ tl, keyText s ++ (t ++ (u ++ (newline level ++ '}' :: rest))) = '"' :: tl ∧
      ∃ N, ∀ n, N ≤ n → readMembers fl n tl = some ((codePoints s, j) :: js, rest) := by
  obtain ⟨N1, e1⟩ := h1.2 (u ++ (newline level ++ '}' :: rest)) (stops_tail h2.1 level _)
  obtain ⟨N2, e2⟩ := h2.2 level rest
  obtain ⟨tl, h3, h4⟩ := scan_text (codePoints s) (codePoints_lt s) (':' :: ' ' :: (t ++ (u ++ (newline level ++ '}' :: rest))))
  refine ⟨tl, ?_, max N1 N2 + 1, fun n hn => ?_⟩
  · rw [← h3]
    unfold keyText
    rw [List.append_assoc]
    rfl
  obtain ⟨k, rfl⟩ : ∃ k, n = k + 1 := ⟨n - 1, by omega⟩
  rw [readMembers_succ, h4, Option.bind_some]
  dsimp only
  have h5 : afterName fl k (':' :: ' ' :: (t ++ (u ++ (newline level ++ '}' :: rest)))) =
      some (j, u ++ (newline level ++ '}' :: rest)) := by
    unfold afterName
    have : skipBlanks (':' :: ' ' :: (t ++ (u ++ (newline level ++ '}' :: rest)))) =
      ':' :: ' ' :: (t ++ (u ++ (newline level ++ '}' :: rest))) := rfl
    rw [this]
    dsimp only
    rw [if_pos rfl]
    have : skipBlanks (' ' :: (t ++ (u ++ (newline level ++ '}' :: rest)))) = skipBlanks (t ++ (u ++ (newline level ++ '}' :: rest))) := rfl
    rw [this, h1.1.skip]
    exact e1 k (by omega)
  rw [h5, Option.bind_some]
  dsimp only
  rw [e2 k (by omega), Option.map_some, join_units _ (codePoints_lt s) (codePoints_separate s)]

theorem reads_nonempty_list {t u : List Char} {j : JVal} {js : List JVal} (h1 : ReadsTo fl t j) (h2 : ReadsItems fl u js)
    (level : ℕ) : ReadsTo fl ('[' :: newline (level + 1) ++ (t ++ (u ++ (newline level ++ [']'])))) (.arr (j :: js)) := by
  refine ⟨⟨_, _, rfl, by decide⟩, fun rest _ => ?_⟩
  obtain ⟨N, e⟩ := reads_items h1 h2 level rest
  refine ⟨N + 1, fun n hn => ?_⟩
  obtain ⟨k, rfl⟩ : ∃ k, n = k + 1 := ⟨n - 1, by omega⟩
  have : ('[' :: newline (level + 1) ++ (t ++ (u ++ (newline level ++ [']'])))) ++ rest =
      '[' :: (newline (level + 1) ++ (t ++ (u ++ (newline level ++ ']' :: rest)))) := by simp
  rw [this, readValue_cons, if_neg (by decide), if_neg (by decide), if_pos rfl, skip_newline, h1.1.skip]
  have e' := e k (by omega)
  obtain ⟨c, cs, hc, -, hb⟩ := h1.1
  rw [hc] at e' ⊢
  rw [List.cons_append] at e' ⊢
  dsimp only
  rw [if_neg hb, e', Option.map_some]

theorem reads_nonempty_dict {s : String} {t u : List Char} {j : JVal} {js : List (PyText × JVal)} (h1 : ReadsTo fl t j)
    (h2 : ReadsMembers fl u js) (level : ℕ) :
    ReadsTo fl ('{' :: newline (level + 1) ++ (keyText s ++ (t ++ (u ++ (newline level ++ ['}']))))) (.obj ((codePoints s, j) :: js)) := by
  refine ⟨⟨_, _, rfl, by decide⟩, fun rest _ => ?_⟩
  obtain ⟨tl, h3, N, e⟩ := reads_members (s := s) h1 h2 level rest
  refine ⟨N + 1, fun n hn => ?_⟩
  obtain ⟨k, rfl⟩ : ∃ k, n = k + 1 := ⟨n - 1, by omega⟩
  have : ('{' :: newline (level + 1) ++ (keyText s ++ (t ++ (u ++ (newline level ++ ['}']))))) ++ rest =
      '{' :: (newline (level + 1) ++ (keyText s ++ (t ++ (u ++ (newline level ++ '}' :: rest))))) := by simp
  rw [this, readValue_cons, if_neg (by decide), if_pos rfl, skip_newline, h3]
  have : skipBlanks ('"' :: tl) = '"' :: tl := rfl
  rw [this]
  dsimp only
  rw [if_neg (by decide), if_pos rfl, e k (by omega), Option.map_some]

theorem reads_more_items {t u : List Char} {j : JVal} {js : List JVal} (h1 : ReadsTo fl t j) (h2 : ReadsItems fl u js)
    (level : ℕ) : ReadsItems fl (',' :: newline level ++ (t ++ u)) (j :: js) := by
  refine ⟨Or.inr ⟨_, rfl⟩, fun lvl rest => ?_⟩
  obtain ⟨N, e⟩ := reads_items h1 h2 lvl rest
  refine ⟨N, fun n hn => ?_⟩
  have : (',' :: newline level ++ (t ++ u)) ++ (newline lvl ++ ']' :: rest) =
      ',' :: (newline level ++ (t ++ (u ++ (newline lvl ++ ']' :: rest)))) := by simp
  rw [this]
  unfold afterItem
  have : ∀ x, skipBlanks (',' :: x) = ',' :: x := fun _ => rfl
  rw [this]
  dsimp only
  rw [if_neg (by decide), if_pos rfl, skip_newline, h1.1.skip]
  exact e n hn

theorem reads_more_members {s : String} {t u : List Char} {j : JVal} {js : List (PyText × JVal)} (h1 : ReadsTo fl t j)
    (h2 : ReadsMembers fl u js) (level : ℕ) :
    ReadsMembers fl (',' :: newline level ++ (keyText s ++ (t ++ u))) ((codePoints s, j) :: js) := by
  refine ⟨Or.inr ⟨_, rfl⟩, fun lvl rest => ?_⟩
  obtain ⟨tl, h3, N, e⟩ := reads_members (s := s) h1 h2 lvl rest
  refine ⟨N, fun n hn => ?_⟩
  have : (',' :: newline level ++ (keyText s ++ (t ++ u))) ++ (newline lvl ++ '}' :: rest) =
      ',' :: (newline level ++ (keyText s ++ (t ++ (u ++ (newline lvl ++ '}' :: rest))))) := by simp
  rw [this]
  unfold afterMember
  have h4 : ∀ x, skipBlanks (',' :: x) = ',' :: x := fun _ => rfl
  rw [h4]
  dsimp only
  rw [if_neg (by decide), if_pos rfl, skip_newline, h3]
  have : skipBlanks ('"' :: tl) = '"' :: tl := rfl
  rw [this]
  dsimp only
  rw [if_pos rfl]
  exact e n hn

theorem reads_empty_items : ReadsItems fl [] [] := by
  refine ⟨Or.inl rfl, fun level rest => ⟨0, fun n _ => ?_⟩⟩
  unfold afterItem
  rw [List.nil_append, skip_newline]
  have : ∀ x, skipBlanks (']' :: x) = ']' :: x := fun _ => rfl
  rw [this]
  rfl

theorem reads_empty_members : ReadsMembers fl [] [] := by
  refine ⟨Or.inl rfl, fun level rest => ⟨0, fun n _ => ?_⟩⟩
  unfold afterMember
  rw [List.nil_append, skip_newline]
  have : ∀ x, skipBlanks ('}' :: x) = '}' :: x := fun _ => rfl
  rw [this]
  rfl

theorem reads_const {t : List Char} {j : JVal} (hb : Begins t) (h : ∀ n rest, readValue fl (n + 1) (t ++ rest) = some (j, rest)) :
    ReadsTo fl t j := by
  refine ⟨hb, fun rest _ => ⟨1, fun n hn => ?_⟩⟩
  obtain ⟨k, rfl⟩ : ∃ k, n = k + 1 := ⟨n - 1, by omega⟩
  exact h k rest

theorem say_ok {s t : List Char} (h : say s = (t, none)) : s = t := by
  unfold say at h
  simp only [Prod.mk.injEq, and_true] at h
  exact h

section
variable {repr : ℝ → List Char} (hr : ReprFloat F fl repr)
include hr

mutual
theorem reads_val : ∀ (v : PyVal) (level : ℕ) (t : List Char), writeVal repr level v = (t, none) → FloatsOf F v →
    ∃ j, toJson v = .ok j ∧ ReadsTo fl t (JVal.ofJson j)
  | .none, level, t, h, _ => by
    rw [writeVal] at h
    rw [← say_ok h]
    exact ⟨.null, rfl, reads_const ⟨_, _, rfl, by decide⟩ fun n rest => rfl⟩
  | .bool b, level, t, h, _ => by
    rw [writeVal] at h
    rw [← say_ok h]
    refine ⟨.bool b, rfl, ?_⟩
    cases b
    · exact reads_const ⟨_, _, rfl, by decide⟩ fun n rest => rfl
    · exact reads_const ⟨_, _, rfl, by decide⟩ fun n rest => rfl
  | .num x, level, t, h, hd => by
    rw [writeVal] at h
    rw [← say_ok h]
    exact ⟨.num x, rfl, reads_num hr x hd⟩
  | .str s, level, t, h, _ => by
    rw [writeVal] at h
    rw [← say_ok h]
    exact ⟨.str s, rfl, reads_const ⟨_, _, rfl, by decide⟩ fun n rest => readValue_text s rest n⟩
  | .tensor _, level, t, h, _ => by rw [writeVal] at h; simp at h
  | .path _, level, t, h, _ => by rw [writeVal] at h; simp at h
  | .other _, level, t, h, _ => by rw [writeVal] at h; simp at h
  | .dict [], level, t, h, _ => by
    rw [writeVal] at h
    rw [← say_ok h]
    exact ⟨.obj [], rfl, reads_const ⟨_, _, rfl, by decide⟩ fun n rest => rfl⟩
  | .dict ((k, v) :: rest), level, t, h, hd => by
    rw [writeVal] at h
    obtain ⟨u1, g1, rfl⟩ := say_then h
    cases hk : k.text with
    | error e => rw [hk] at g1; simp at g1
    | ok s =>
      rw [hk] at g1
      dsimp only at g1
      obtain ⟨u2, g2, rfl⟩ := say_then g1
      obtain ⟨tv, u3, hv, g3, rfl⟩ := andThen_ok g2
      obtain ⟨tr, u4, hrest, g4, rfl⟩ := andThen_ok g3
      rw [← say_ok g4]
      rw [FloatsOf, FloatsEntries] at hd
      obtain ⟨j, e1, e2⟩ := reads_val v (level + 1) tv hv hd.1
      obtain ⟨js, e3, e4⟩ := reads_rest_entries rest (level + 1) tr hrest hd.2
      refine ⟨.obj ((s, j) :: js), ?_, ?_⟩
      · rw [toJson, toJsonEntries, hk, e1, e3]
        rfl
      · rw [JVal.ofJson, JVal.ofEntries]
        exact reads_nonempty_dict e2 e4 level
  | .list [], level, t, h, _ => by
    rw [writeVal] at h
    rw [← say_ok h]
    exact ⟨.arr [], rfl, reads_const ⟨_, _, rfl, by decide⟩ fun n rest => rfl⟩
  | .list (v :: rest), level, t, h, hd => by
    rw [writeVal] at h
    obtain ⟨u1, g1, rfl⟩ := say_then h
    obtain ⟨tv, u2, hv, g2, rfl⟩ := andThen_ok g1
    obtain ⟨tr, u3, hrest, g3, rfl⟩ := andThen_ok g2
    rw [← say_ok g3]
    rw [FloatsOf, FloatsItems] at hd
    obtain ⟨j, e1, e2⟩ := reads_val v (level + 1) tv hv hd.1
    obtain ⟨js, e3, e4⟩ := reads_rest_items rest (level + 1) tr hrest hd.2
    refine ⟨.arr (j :: js), ?_, ?_⟩
    · rw [toJson, toJsonItems, e1, e3]
      rfl
    · rw [JVal.ofJson, JVal.ofItems]
      exact reads_nonempty_list e2 e4 level
  | .tuple [], level, t, h, _ => by
    rw [writeVal] at h
    rw [← say_ok h]
    exact ⟨.arr [], rfl, reads_const ⟨_, _, rfl, by decide⟩ fun n rest => rfl⟩
  | .tuple (v :: rest), level, t, h, hd => by
    rw [writeVal] at h
    obtain ⟨u1, g1, rfl⟩ := say_then h
    obtain ⟨tv, u2, hv, g2, rfl⟩ := andThen_ok g1
    obtain ⟨tr, u3, hrest, g3, rfl⟩ := andThen_ok g2
    rw [← say_ok g3]
    rw [FloatsOf, FloatsItems] at hd
    obtain ⟨j, e1, e2⟩ := reads_val v (level + 1) tv hv hd.1
    obtain ⟨js, e3, e4⟩ := reads_rest_items rest (level + 1) tr hrest hd.2
    refine ⟨.arr (j :: js), ?_, ?_⟩
    · rw [toJson, toJsonItems, e1, e3]
      rfl
    · rw [JVal.ofJson, JVal.ofItems]
      exact reads_nonempty_list e2 e4 level

theorem reads_rest_items : ∀ (vs : List PyVal) (level : ℕ) (t : List Char), writeRestItems repr level vs = (t, none) →
    FloatsItems F vs → ∃ js, toJsonItems vs = .ok js ∧ ReadsItems fl t (JVal.ofItems js)
  | [], level, t, h, _ => by
    rw [writeRestItems] at h
    rw [← say_ok h]
    exact ⟨[], rfl, reads_empty_items⟩
  | v :: rest, level, t, h, hd => by
    rw [writeRestItems] at h
    obtain ⟨u1, g1, rfl⟩ := say_then h
    obtain ⟨tv, u2, hv, g2, rfl⟩ := andThen_ok g1
    rw [FloatsItems] at hd
    obtain ⟨j, e1, e2⟩ := reads_val v level tv hv hd.1
    obtain ⟨js, e3, e4⟩ := reads_rest_items rest level u2 g2 hd.2
    refine ⟨j :: js, ?_, ?_⟩
    · rw [toJsonItems, e1, e3]
      rfl
    · rw [JVal.ofItems]
      exact reads_more_items e2 e4 level

theorem reads_rest_entries : ∀ (vs : List (PyKey × PyVal)) (level : ℕ) (t : List Char), writeRestEntries repr level vs = (t, none) →
    FloatsEntries F vs → ∃ js, toJsonEntries vs = .ok js ∧ ReadsMembers fl t (JVal.ofEntries js)
  | [], level, t, h, _ => by
    rw [writeRestEntries] at h
    rw [← say_ok h]
    exact ⟨[], rfl, reads_empty_members⟩
  | (k, v) :: rest, level, t, h, hd => by
    rw [writeRestEntries] at h
    cases hk : k.text with
    | error e => rw [hk] at h; simp at h
    | ok s =>
      rw [hk] at h
      dsimp only at h
      obtain ⟨u1, g1, rfl⟩ := say_then h
      obtain ⟨u2, g2, rfl⟩ := say_then g1
      obtain ⟨tv, u3, hv, g3, rfl⟩ := andThen_ok g2
      rw [FloatsEntries] at hd
      obtain ⟨j, e1, e2⟩ := reads_val v level tv hv hd.1
      obtain ⟨js, e3, e4⟩ := reads_rest_entries rest level u3 g3 hd.2
      refine ⟨(s, j) :: js, ?_, ?_⟩
      · rw [toJsonEntries, hk, e1, e3]
        rfl
      · rw [JVal.ofEntries]
        exact reads_more_members e2 e4 level
end
end

/-! ## Exceptions -/

/-- The exception of a calculation. -/
def errorOf {α : Type} : Except String α → Option String
  | .ok _ => none
  | .error e => some e

section
variable (repr : ℝ → List Char)

mutual
theorem error_val : ∀ (v : PyVal) (level : ℕ), (writeVal repr level v).2 = errorOf (toJson v)
  | .none, level => by rw [writeVal]; rfl
  | .bool b, level => by rw [writeVal]; rfl
  | .num x, level => by rw [writeVal]; rfl
  | .str s, level => by rw [writeVal]; rfl
  | .tensor _, level => by rw [writeVal]; rfl
  | .path _, level => by rw [writeVal]; rfl
  | .other _, level => by rw [writeVal]; rfl
  | .dict [], level => by rw [writeVal]; rfl
  | .dict ((k, v) :: rest), level => by
    have h1 := error_val v (level + 1)
    have h2 := error_rest_entries rest (level + 1)
    rw [writeVal, toJson, toJsonEntries]
    cases hk : k.text with
    | error e => rfl
    | ok s =>
      cases hv : writeVal repr (level + 1) v with
      | mk tv ev =>
        cases hr : writeRestEntries repr (level + 1) rest with
        | mk tr er =>
          rw [hv] at h1
          rw [hr] at h2
          cases e1 : toJson v with
          | error e => rw [e1] at h1; cases h1; rfl
          | ok j =>
            rw [e1] at h1
            cases h1
            cases e2 : toJsonEntries rest with
            | error e => rw [e2] at h2; cases h2; rfl
            | ok js => rw [e2] at h2; cases h2; rfl
  | .list [], level => by rw [writeVal]; rfl
  | .list (v :: rest), level => by
    have h1 := error_val v (level + 1)
    have h2 := error_rest_items rest (level + 1)
    rw [writeVal, toJson, toJsonItems]
    cases hv : writeVal repr (level + 1) v with
    | mk tv ev =>
      cases hr : writeRestItems repr (level + 1) rest with
      | mk tr er =>
        rw [hv] at h1
        rw [hr] at h2
        cases e1 : toJson v with
        | error e => rw [e1] at h1; cases h1; rfl
        | ok j =>
          rw [e1] at h1
          cases h1
          cases e2 : toJsonItems rest with
          | error e => rw [e2] at h2; cases h2; rfl
          | ok js => rw [e2] at h2; cases h2; rfl
  | .tuple [], level => by rw [writeVal]; rfl
  | .tuple (v :: rest), level => by
    have h1 := error_val v (level + 1)
    have h2 := error_rest_items rest (level + 1)
    rw [writeVal, toJson, toJsonItems]
    cases hv : writeVal repr (level + 1) v with
    | mk tv ev =>
      cases hr : writeRestItems repr (level + 1) rest with
      | mk tr er =>
        rw [hv] at h1
        rw [hr] at h2
        cases e1 : toJson v with
        | error e => rw [e1] at h1; cases h1; rfl
        | ok j =>
          rw [e1] at h1
          cases h1
          cases e2 : toJsonItems rest with
          | error e => rw [e2] at h2; cases h2; rfl
          | ok js => rw [e2] at h2; cases h2; rfl

theorem error_rest_items : ∀ (vs : List PyVal) (level : ℕ), (writeRestItems repr level vs).2 = errorOf (toJsonItems vs)
  | [], level => by rw [writeRestItems]; rfl
  | v :: rest, level => by
    have h1 := error_val v level
    have h2 := error_rest_items rest level
    rw [writeRestItems, toJsonItems]
    cases hv : writeVal repr level v with
    | mk tv ev =>
      cases hr : writeRestItems repr level rest with
      | mk tr er =>
        rw [hv] at h1
        rw [hr] at h2
        cases e1 : toJson v with
        | error e => rw [e1] at h1; cases h1; rfl
        | ok j =>
          rw [e1] at h1
          cases h1
          cases e2 : toJsonItems rest with
          | error e => rw [e2] at h2; cases h2; rfl
          | ok js => rw [e2] at h2; cases h2; rfl

theorem error_rest_entries : ∀ (vs : List (PyKey × PyVal)) (level : ℕ),
    (writeRestEntries repr level vs).2 = errorOf (toJsonEntries vs)
  | [], level => by rw [writeRestEntries]; rfl
  | (k, v) :: rest, level => by
    have h1 := error_val v level
    have h2 := error_rest_entries rest level
    rw [writeRestEntries, toJsonEntries]
    cases hk : k.text with
    | error e => rfl
    | ok s =>
      cases hv : writeVal repr level v with
      | mk tv ev =>
        cases hr : writeRestEntries repr level rest with
        | mk tr er =>
          rw [hv] at h1
          rw [hr] at h2
          cases e1 : toJson v with
          | error e => rw [e1] at h1; cases h1; rfl
          | ok j =>
            rw [e1] at h1
            cases h1
            cases e2 : toJsonEntries rest with
            | error e => rw [e2] at h2; cases h2; rfl
            | ok js => rw [e2] at h2; cases h2; rfl
end

end

end Torchrir.Lemmas.JsonText
