import Verif.Spec.JsonText
import Mathlib.Tactic.IntervalCases

/-! # Lemmas: writing and reading JSON text -/

namespace Torchrir.Lemmas.JsonText

open Torchrir.Model Torchrir.Spec

/-! ## Strings -/

theorem toNat_ofNat {n : ℕ} (h : n < 55296) : (Char.ofNat n).toNat = n := by
  have hv : n.isValidChar := Or.inl h
  rw [Char.ofNat, dif_pos hv]
  rfl

theorem hexDigitValue_hexDigit {d : ℕ} (h : d < 16) : hexDigitValue (hexDigit d) = some d := by
  interval_cases d <;> rfl

theorem hexValue_hex4 {u : ℕ} (h : u < 65536) :
    hexValue (hexDigit (u / 4096 % 16)) (hexDigit (u / 256 % 16)) (hexDigit (u / 16 % 16)) (hexDigit (u % 16)) = some u := by
  unfold hexValue
  rw [hexDigitValue_hexDigit (by omega), hexDigitValue_hexDigit (by omega), hexDigitValue_hexDigit (by omega),
    hexDigitValue_hexDigit (by omega)]
  show some _ = some _
  congr 1
  omega

theorem scan_escape {e : Char} {u : ℕ} (he : e ≠ 'u') (h : simpleEscape e = some u) (rest : List Char) :
    scanString (['\\', e] ++ rest) = (scanString rest).map fun x => (u :: x.1, x.2) := by
  rw [List.cons_append, List.singleton_append]
  conv_lhs => unfold scanString
  rw [if_neg (by decide), if_pos rfl]
  simp only [he, if_false, h, Option.bind_some]

theorem scan_unit {u : ℕ} (h : u < 65536) (rest : List Char) :
    scanString (encodeUnit u ++ rest) = (scanString rest).map fun x => (u :: x.1, x.2) := by
  unfold encodeUnit
  split_ifs with h1 h2 h3 h4 h5 h6 h7 h8
  · subst h1; exact scan_escape (by decide) rfl rest
  · subst h2; exact scan_escape (by decide) rfl rest
  · subst h3; exact scan_escape (by decide) rfl rest
  · subst h4; exact scan_escape (by decide) rfl rest
  · subst h5; exact scan_escape (by decide) rfl rest
  · subst h6; exact scan_escape (by decide) rfl rest
  · subst h7; exact scan_escape (by decide) rfl rest
  · have hn : (Char.ofNat u).toNat = u := toNat_ofNat (by omega)
    rw [List.singleton_append]
    conv_lhs => unfold scanString
    rw [if_neg, if_neg, if_neg, hn]
    · rw [hn]; omega
    · intro hc
      rw [hc] at hn
      exact h2 (by rw [← hn]; rfl)
    · intro hc
      rw [hc] at hn
      exact h1 (by rw [← hn]; rfl)
  · unfold hex4
    simp only [List.cons_append, List.nil_append]
    conv_lhs => unfold scanString
    rw [if_neg (by decide), if_pos rfl]
    simp only [if_true, hexValue_hex4 h, Option.bind_some]

theorem scan_units : ∀ (us : List ℕ), (∀ u ∈ us, u < 65536) → ∀ rest : List Char,
    scanString (us.flatMap encodeUnit ++ '"' :: rest) = some (us, rest)
  | [], _, rest => by
    show scanString ('"' :: rest) = _
    unfold scanString
    rw [if_pos rfl]
  | u :: us, h, rest => by
    rw [List.flatMap_cons, List.append_assoc, scan_unit (h u (by simp)),
      scan_units us (fun v hv => h v (by simp [hv])) rest]
    rfl

theorem unitsOf_lt {c : ℕ} (h : c < 1114112) : ∀ u ∈ unitsOf c, u < 65536 := by
  unfold unitsOf
  split_ifs with h1
  · simpa using h1
  · simp only [List.mem_cons, List.not_mem_nil, or_false]
    rintro u (hu | hu) <;> omega

/-- No high surrogate is followed by a low one. -/
def Separate (t : PyText) : Prop := t.IsChain fun u v => ¬ (55296 ≤ u ∧ u ≤ 56319 ∧ 56320 ≤ v ∧ v ≤ 57343)

theorem join_units : ∀ (t : PyText), (∀ c ∈ t, c < 1114112) → Separate t → joinSurrogates (t.flatMap unitsOf) = t
  | [], _, _ => rfl
  | [c], h, _ => by
    have hc := h c (by simp)
    simp only [List.flatMap_cons, List.flatMap_nil, List.append_nil]
    unfold unitsOf
    split_ifs with h1
    · rfl
    · unfold joinSurrogates
      rw [if_pos (by omega),
        show 65536 + ((55296 + (c - 65536) / 1024 - 55296) * 1024 + (56320 + (c - 65536) % 1024 - 56320)) = c by omega]
      rfl
  | c :: d :: t, h, hs => by
    have hc := h c (by simp)
    have hd := h d (by simp)
    have hs' : Separate (d :: t) := by
      unfold Separate at hs ⊢
      rw [List.isChain_cons_cons] at hs
      exact hs.2
    have hcd : ¬ (55296 ≤ c ∧ c ≤ 56319 ∧ 56320 ≤ d ∧ d ≤ 57343) := by
      unfold Separate at hs
      rw [List.isChain_cons_cons] at hs
      exact hs.1
    have ih := join_units (d :: t) (fun x hx => h x (by simp only [List.mem_cons] at hx ⊢; tauto)) hs'
    rw [List.flatMap_cons]
    by_cases h1 : c < 65536
    · have e : unitsOf c = [c] := by unfold unitsOf; rw [if_pos h1]
      rw [e, List.singleton_append]
      obtain ⟨v, vs, hv, hv2⟩ : ∃ v vs, (d :: t).flatMap unitsOf = v :: vs ∧ (v = d ∨ v < 56320) := by
        rw [List.flatMap_cons]
        unfold unitsOf
        split_ifs with h2
        · exact ⟨_, _, rfl, Or.inl rfl⟩
        · exact ⟨_, _, rfl, Or.inr (by omega)⟩
      rw [hv] at ih ⊢
      unfold joinSurrogates
      rw [if_neg, ih]
      rintro ⟨a1, a2, a3, a4⟩
      rcases hv2 with rfl | hv2
      · exact hcd ⟨a1, a2, a3, a4⟩
      · omega
    · have e : unitsOf c = [55296 + (c - 65536) / 1024, 56320 + (c - 65536) % 1024] := by unfold unitsOf; rw [if_neg h1]
      rw [e]
      simp only [List.cons_append, List.nil_append]
      conv_lhs => unfold joinSurrogates
      rw [if_pos (by omega), ih,
        show 65536 + ((55296 + (c - 65536) / 1024 - 55296) * 1024 + (56320 + (c - 65536) % 1024 - 56320)) = c by omega]

theorem codePoints_lt (s : String) : ∀ c ∈ codePoints s, c < 1114112 := by
  intro c hc
  unfold codePoints at hc
  rw [List.mem_map] at hc
  obtain ⟨d, -, rfl⟩ := hc
  have := d.valid
  rcases this with h | h
  · exact lt_trans h (by norm_num)
  · exact h.2

theorem codePoints_separate (s : String) : Separate (codePoints s) := by
  have : ∀ c ∈ codePoints s, ¬ (55296 ≤ c ∧ c ≤ 57343) := by
    intro c hc
    unfold codePoints at hc
    rw [List.mem_map] at hc
    obtain ⟨d, -, rfl⟩ := hc
    rcases d.valid with h | h
    · have h' : d.toNat < 55296 := h
      omega
    · have h' : 57343 < d.toNat := h.1
      omega
  unfold Separate
  revert this
  induction codePoints s with
  | nil => intro _; exact List.IsChain.nil
  | cons c t ih =>
    intro this
    cases t with
    | nil => exact List.isChain_singleton _
    | cons d t =>
      rw [List.isChain_cons_cons]
      refine ⟨?_, ih fun x hx => this x (by simp only [List.mem_cons] at hx ⊢; tauto)⟩
      have := this c (by simp)
      omega

/-- Reading a string back. -/
theorem scan_text (t : PyText) (h : ∀ c ∈ t, c < 1114112) (rest : List Char) :
    ∃ tl, encodeText t ++ rest = '"' :: tl ∧ scanString tl = some (t.flatMap unitsOf, rest) := by
  refine ⟨_, rfl, ?_⟩
  show scanString ((List.flatMap encodeUnit (List.flatMap unitsOf t) ++ ['"']) ++ rest) = _
  rw [List.append_assoc, List.singleton_append]
  refine scan_units _ (fun u hu => ?_) rest
  rw [List.mem_flatMap] at hu
  obtain ⟨c, hc, hu⟩ := hu
  exact unitsOf_lt (h c hc) u hu

/-- More text after a string. -/
theorem scan_extend : ∀ (cs : List Char) (us : List ℕ) (r S : List Char), scanString cs = some (us, r) →
    scanString (cs ++ S) = some (us, r ++ S)
  | [], _, _, _, h => by simp [scanString] at h
  | c :: cs, us, r, S, h => by
    unfold scanString at h
    rw [List.cons_append]
    conv_lhs => unfold scanString
    by_cases h1 : c = '"'
    · rw [if_pos h1] at h ⊢
      simp only [Option.some.injEq, Prod.mk.injEq] at h
      rw [← h.1, ← h.2]
    rw [if_neg h1] at h ⊢
    by_cases h2 : c = '\\'
    · rw [if_pos h2] at h ⊢
      match cs, h with
      | e :: cs, h =>
        dsimp only [List.cons_append] at h ⊢
        by_cases h3 : e = 'u'
        · rw [if_pos h3] at h ⊢
          match cs, h with
          | a :: b :: c :: d :: cs, h =>
            dsimp only [List.cons_append] at h ⊢
            rw [Option.bind_eq_some_iff] at h
            obtain ⟨u, hu, h⟩ := h
            rw [Option.map_eq_some_iff] at h
            obtain ⟨⟨us', r'⟩, h4, h5⟩ := h
            rw [hu, Option.bind_some, scan_extend cs us' r' S h4]
            simp only [Prod.mk.injEq] at h5
            rw [Option.map_some, ← h5.1, ← h5.2]
        · rw [if_neg h3] at h ⊢
          rw [Option.bind_eq_some_iff] at h
          obtain ⟨u, hu, h⟩ := h
          rw [Option.map_eq_some_iff] at h
          obtain ⟨⟨us', r'⟩, h4, h5⟩ := h
          rw [hu, Option.bind_some, scan_extend cs us' r' S h4]
          simp only [Prod.mk.injEq] at h5
          rw [Option.map_some, ← h5.1, ← h5.2]
    rw [if_neg h2] at h ⊢
    by_cases h3 : c.toNat < 32
    · rw [if_pos h3] at h
      exact absurd h (by simp)
    rw [if_neg h3] at h ⊢
    rw [Option.map_eq_some_iff] at h
    obtain ⟨⟨us', r'⟩, h4, h5⟩ := h
    rw [scan_extend cs us' r' S h4]
    simp only [Prod.mk.injEq] at h5
    rw [Option.map_some, ← h5.1, ← h5.2]

/-! ## Numbers -/

/-- The character cannot continue a number. -/
def Ends (c : Char) : Prop := c.isDigit = false ∧ c ≠ '.' ∧ c ≠ 'e' ∧ c ≠ 'E'

/-- The text does not continue a number. -/
def Stops (rest : List Char) : Prop := ∀ c r, rest = c :: r → Ends c

theorem Stops.nil : Stops [] := fun _ _ h => by simp at h

theorem Stops.cons {c : Char} (h : Ends c) (r : List Char) : Stops (c :: r) := by
  rintro d r' he
  simp only [List.cons.injEq] at he
  rw [← he.1]; exact h

theorem takeWhile_stop {p : Char → Bool} {ds rest : List Char} (h : ∀ c ∈ ds, p c) (hr : ∀ c r, rest = c :: r → p c = false) :
    (ds ++ rest).takeWhile p = ds ∧ (ds ++ rest).dropWhile p = rest := by
  induction ds with
  | nil =>
    cases rest with
    | nil => simp
    | cons c r => simp [hr c r rfl]
  | cons d ds ih =>
    obtain ⟨h1, h2⟩ := ih fun c hc => h c (by simp [hc])
    simp [h d (by simp), h1, h2]

theorem readInt_cons (c : Char) (cs : List Char) : readInt (c :: cs) =
    if c = '0' then some (['0'], cs)
    else if c.isDigit then some (c :: cs.takeWhile Char.isDigit, cs.dropWhile Char.isDigit) else none := rfl

theorem readFraction_cons (c : Char) (cs : List Char) : readFraction (c :: cs) =
    if c = '.' ∧ cs.takeWhile Char.isDigit ≠ [] then (cs.takeWhile Char.isDigit, cs.dropWhile Char.isDigit)
    else ([], c :: cs) := rfl

theorem readExponent_cons (c : Char) (cs : List Char) : readExponent (c :: cs) =
    if (c = 'e' ∨ c = 'E') ∧ (readSign cs).2.takeWhile Char.isDigit ≠ [] then
      (some (signed (readSign cs).1 (digitsValue ((readSign cs).2.takeWhile Char.isDigit))), (readSign cs).2.dropWhile Char.isDigit)
    else (none, c :: cs) := rfl

theorem readUnsigned_text (fl : ℝ → ℝ) (neg : Bool) (D : DecimalText) (hip : ∀ c ∈ D.ip, c.isDigit)
    (hlead : D.ip = ['0'] ∨ ∃ c cs, D.ip = c :: cs ∧ c ≠ '0') (hfp : ∀ c ∈ D.fp, c.isDigit)
    (hex : ∀ neg ds, D.ex = some (neg, ds) → ds ≠ [] ∧ ∀ c ∈ ds, c.isDigit) (rest : List Char) (hr : Stops rest) :
    readUnsigned fl neg (D.ip ++ ((if D.fp = [] then [] else '.' :: D.fp) ++ exponentText D.ex) ++ rest) =
    some (numberOf fl neg D.ip D.fp D.exponent, rest) := by
  obtain ⟨_, ip, fp, ex⟩ := D
  dsimp only [DecimalText.exponent] at *
  set E : List Char := exponentText ex with hE
  have e3 : readExponent (E ++ rest) = (ex.map fun e => signed e.1 (digitsValue e.2), rest) := by
    rw [hE]
    cases ex with
    | none =>
      dsimp only [exponentText, List.nil_append]
      cases rest with
      | nil => rfl
      | cons c r =>
        have hc := hr c r rfl
        rw [readExponent_cons, if_neg (by rintro ⟨h | h, -⟩; exacts [hc.2.2.1 h, hc.2.2.2 h])]
        rfl
    | some e =>
      obtain ⟨s, ds⟩ := e
      obtain ⟨hne, hds⟩ := hex s ds rfl
      obtain ⟨t1, t2⟩ := takeWhile_stop hds (fun c r h => (hr c r h).1)
      have hsign : readSign ((if s = true then '-' else '+') :: (ds ++ rest)) = (s, ds ++ rest) := by
        cases s <;> rfl
      dsimp only [exponentText, List.cons_append]
      rw [readExponent_cons, hsign]
      dsimp only
      rw [t1, t2, if_pos ⟨Or.inl rfl, hne⟩]
      rfl
  have hEr : ∀ c r, E ++ rest = c :: r → c.isDigit = false ∧ c ≠ '.' := by
    intro c r h
    rw [hE] at h
    cases ex with
    | none => exact ⟨(hr c r h).1, (hr c r h).2.1⟩
    | some e =>
      obtain ⟨s, ds⟩ := e
      dsimp only [exponentText, List.cons_append] at h
      simp only [List.cons.injEq] at h
      rw [← h.1]
      exact ⟨rfl, by decide⟩
  have e2 : readFraction ((if fp = [] then [] else '.' :: fp) ++ (E ++ rest)) = (fp, E ++ rest) := by
    by_cases hf : fp = []
    · rw [if_pos hf, List.nil_append, hf]
      generalize hER : E ++ rest = ER at hEr
      cases ER with
      | nil => rfl
      | cons c r =>
        rw [readFraction_cons, if_neg (by rintro ⟨h, -⟩; exact (hEr c r rfl).2 h)]
    · rw [if_neg hf, List.cons_append]
      obtain ⟨t1, t2⟩ := takeWhile_stop hfp (fun c r h => (hEr c r h).1)
      rw [readFraction_cons, t1, t2, if_pos ⟨rfl, hf⟩]
  have hFr : ∀ c r, (if fp = [] then [] else '.' :: fp) ++ (E ++ rest) = c :: r → c.isDigit = false := by
    intro c r h
    by_cases hf : fp = []
    · rw [if_pos hf, List.nil_append] at h
      exact (hEr c r h).1
    · rw [if_neg hf, List.cons_append] at h
      simp only [List.cons.injEq] at h
      rw [← h.1]; rfl
  have e1 : readInt (ip ++ ((if fp = [] then [] else '.' :: fp) ++ (E ++ rest))) =
      some (ip, (if fp = [] then [] else '.' :: fp) ++ (E ++ rest)) := by
    rcases hlead with h | ⟨c, cs, h, hc⟩
    · rw [h, List.singleton_append]
      rw [readInt_cons, if_pos rfl]
    · rw [h, List.cons_append]
      have hd := hip c (by rw [h]; simp)
      obtain ⟨t1, t2⟩ := takeWhile_stop (fun x hx => hip x (by rw [h]; simp [hx])) hFr (ds := cs)
      rw [readInt_cons, if_neg hc, if_pos hd, t1, t2]
  unfold readUnsigned
  rw [List.append_assoc, List.append_assoc, e1, Option.map_some]
  dsimp only
  rw [e2, e3]

theorem readNumber_cons (fl : ℝ → ℝ) (c : Char) (cs : List Char) :
    readNumber fl (c :: cs) = if c = '-' then readUnsigned fl true cs else readUnsigned fl false (c :: cs) := rfl

theorem readNumber_signed (fl : ℝ → ℝ) (neg : Bool) (body : List Char) (hb : ∃ c cs, body = c :: cs ∧ c ≠ '-') :
    readNumber fl ((if neg then ['-'] else []) ++ body) = readUnsigned fl neg body := by
  obtain ⟨c, cs, rfl, hc⟩ := hb
  cases neg
  · show readNumber fl (c :: cs) = _
    rw [readNumber_cons, if_neg hc]
  · rfl

theorem readNumber_decimal (fl : ℝ → ℝ) (D : DecimalText) (h : D.Valid) (rest : List Char) (hr : Stops rest) :
    readNumber fl (D.text ++ rest) = some (.float (.fin (fl D.value)), rest) := by
  unfold DecimalText.text
  rw [List.append_assoc, readNumber_signed]
  · rw [readUnsigned_text fl D.neg D h.ip h.lead h.fp h.ex rest hr]
    unfold numberOf DecimalText.value
    rw [if_neg]
    rintro ⟨h1, h2⟩
    rcases h.float with hf | hf
    · exact hf h1
    · apply hf
      unfold DecimalText.exponent at h2
      simpa using h2
  · rcases h.lead with hl | ⟨c, cs, hl, -⟩
    · rw [hl]; exact ⟨_, _, rfl, by decide⟩
    · rw [hl]
      refine ⟨_, _, rfl, ?_⟩
      rintro rfl
      have := h.ip '-' (by rw [hl]; simp)
      exact absurd this (by decide)

theorem decimalDigits_facts (n : ℕ) : (∀ c ∈ decimalDigits n, c.isDigit) ∧ digitsValue (decimalDigits n) = n ∧
    (decimalDigits n = ['0'] ∨ ∃ c cs, decimalDigits n = c :: cs ∧ c ≠ '0') := by
  have hdig : ∀ d, d < 10 → (Char.ofNat (48 + d)).isDigit ∧ (Char.ofNat (48 + d)).toNat - 48 = d := by
    intro d hd
    interval_cases d <;> exact ⟨rfl, rfl⟩
  induction n using Nat.strong_induction_on with
  | _ n ih =>
    unfold decimalDigits
    split_ifs with h
    · refine ⟨by simpa using (hdig n h).1, by unfold digitsValue; simpa using (hdig n h).2, ?_⟩
      interval_cases n
      · exact Or.inl rfl
      all_goals exact Or.inr ⟨_, _, rfl, by decide⟩
    · obtain ⟨h1, h2, h3⟩ := ih (n / 10) (by omega)
      have hm := hdig (n % 10) (by omega)
      refine ⟨fun c hc => ?_, ?_, Or.inr ?_⟩
      · rw [List.mem_append, List.mem_singleton] at hc
        rcases hc with hc | rfl
        · exact h1 c hc
        · exact hm.1
      · unfold digitsValue at h2 ⊢
        rw [List.foldl_append, h2]
        simp only [List.foldl_cons, List.foldl_nil, hm.2]
        omega
      · rcases h3 with h3 | ⟨c, cs, h3, hc⟩
        · exfalso
          rw [h3] at h2
          have : digitsValue ['0'] = 0 := rfl
          omega
        · exact ⟨c, cs ++ [_], by rw [h3]; rfl, hc⟩

theorem readNumber_int (fl : ℝ → ℝ) (z : ℤ) (rest : List Char) (hr : Stops rest) :
    readNumber fl (intText z ++ rest) = some (.int z, rest) := by
  obtain ⟨h1, h2, h3⟩ := decimalDigits_facts z.natAbs
  have e : intText z ++ rest = (if decide (z < 0) then ['-'] else []) ++ (decimalDigits z.natAbs ++ rest) := by
    unfold intText
    by_cases hz : z < 0 <;> simp [hz]
  have hu := readUnsigned_text fl (decide (z < 0)) ⟨false, decimalDigits z.natAbs, [], none⟩ h1 h3 (by simp) (by simp) rest hr
  dsimp only at hu
  rw [if_pos rfl, List.nil_append, exponentText, List.append_nil] at hu
  rw [e, readNumber_signed, hu]
  · unfold numberOf DecimalText.exponent
    rw [if_pos ⟨rfl, rfl⟩, h2]
    congr 3
    unfold signed
    by_cases hz : z < 0
    · simp only [hz, decide_true, if_true]; omega
    · simp only [hz, decide_false, if_false, Bool.false_eq_true]; omega
  · rcases h3 with hl | ⟨c, cs, hl, -⟩
    · rw [hl]; exact ⟨_, _, rfl, by decide⟩
    · rw [hl]
      refine ⟨_, _, rfl, ?_⟩
      rintro rfl
      have := h1 '-' (by rw [hl]; simp)
      exact absurd this (by decide)

theorem while_extend {p : Char → Bool} {cs : List Char} (h : cs.dropWhile p ≠ []) (S : List Char) :
    (cs ++ S).takeWhile p = cs.takeWhile p ∧ (cs ++ S).dropWhile p = cs.dropWhile p ++ S := by
  induction cs with
  | nil => exact absurd rfl h
  | cons c cs ih =>
    by_cases hc : p c
    · rw [List.dropWhile_cons_of_pos hc] at h
      obtain ⟨h1, h2⟩ := ih h
      simp [hc, h1, h2]
    · simp [hc]

theorem readInt_extend {cs ip r : List Char} (h : readInt cs = some (ip, r)) (hr : r ≠ []) (S : List Char) :
    readInt (cs ++ S) = some (ip, r ++ S) := by
  cases cs with
  | nil => simp [readInt] at h
  | cons c cs =>
    rw [List.cons_append]
    rw [readInt_cons] at h ⊢
    split_ifs at h ⊢ with h1 h2
    · simp only [Option.some.injEq, Prod.mk.injEq] at h
      rw [← h.1, ← h.2]
    · simp only [Option.some.injEq, Prod.mk.injEq] at h
      rw [← h.2] at hr
      obtain ⟨e1, e2⟩ := while_extend hr S
      rw [e1, e2, ← h.1, ← h.2]

theorem readFraction_extend {cs fp r : List Char} (h : readFraction cs = (fp, r)) (hr : r ≠ []) (hd : ∀ x, r ≠ '.' :: x)
    (S : List Char) : readFraction (cs ++ S) = (fp, r ++ S) := by
  cases cs with
  | nil => simp only [readFraction, Prod.mk.injEq] at h; exact absurd h.2.symm hr
  | cons c cs =>
    rw [List.cons_append]
    rw [readFraction_cons] at h ⊢
    by_cases hc : c = '.'
    · by_cases ht : cs.takeWhile Char.isDigit = []
      · rw [if_neg (by tauto)] at h
        simp only [Prod.mk.injEq] at h
        rw [hc] at h
        exact absurd h.2.symm (hd _)
      · rw [if_pos ⟨hc, ht⟩] at h
        simp only [Prod.mk.injEq] at h
        rw [← h.2] at hr
        obtain ⟨e1, e2⟩ := while_extend hr S
        rw [e1, e2, if_pos ⟨hc, ht⟩, ← h.1, ← h.2]
    · rw [if_neg (by tauto)] at h ⊢
      simp only [Prod.mk.injEq] at h
      rw [← h.1, ← h.2]
      rfl

theorem readSign_extend {cs : List Char} (h : (readSign cs).2 ≠ []) (S : List Char) :
    readSign (cs ++ S) = ((readSign cs).1, (readSign cs).2 ++ S) := by
  cases cs with
  | nil => exact absurd rfl h
  | cons c cs =>
    have hs : ∀ cs, readSign (c :: cs) = if c = '-' then (true, cs) else if c = '+' then (false, cs) else (false, c :: cs) :=
      fun _ => rfl
    rw [List.cons_append, hs, hs]
    split_ifs <;> rfl

theorem readExponent_extend {cs r : List Char} {ex : Option ℤ} (h : readExponent cs = (ex, r)) {c : Char} {r' : List Char}
    (hr : r = c :: r') (hc : Ends c) (S : List Char) : readExponent (cs ++ S) = (ex, r ++ S) := by
  cases cs with
  | nil => simp only [readExponent, Prod.mk.injEq] at h; rw [hr] at h; simp at h
  | cons d cs =>
    rw [List.cons_append]
    rw [readExponent_cons] at h ⊢
    by_cases hd : d = 'e' ∨ d = 'E'
    · by_cases ht : (readSign cs).2.takeWhile Char.isDigit = []
      · rw [if_neg (by tauto)] at h
        simp only [Prod.mk.injEq, hr, List.cons.injEq] at h
        rcases hd with hd | hd
        · exact absurd (h.2.1.symm.trans hd) hc.2.2.1
        · exact absurd (h.2.1.symm.trans hd) hc.2.2.2
      · rw [if_pos ⟨hd, ht⟩] at h
        simp only [Prod.mk.injEq] at h
        have h1 : (readSign cs).2.dropWhile Char.isDigit ≠ [] := by rw [h.2, hr]; simp
        have h2 : (readSign cs).2 ≠ [] := by
          intro he
          rw [he] at h1
          exact h1 rfl
        obtain ⟨e1, e2⟩ := while_extend h1 S
        rw [readSign_extend h2]
        dsimp only
        rw [e1, e2, if_pos ⟨hd, ht⟩, ← h.1, ← h.2]
    · rw [if_neg (by tauto)] at h ⊢
      simp only [Prod.mk.injEq] at h
      rw [← h.1, ← h.2]
      rfl

theorem readUnsigned_extend {fl : ℝ → ℝ} {neg : Bool} {cs r : List Char} {x : PyNum}
    (h : readUnsigned fl neg cs = some (x, r)) {c : Char} {r' : List Char} (hr : r = c :: r') (hc : Ends c) (S : List Char) :
    readUnsigned fl neg (cs ++ S) = some (x, r ++ S) := by
  unfold readUnsigned at h ⊢
  rw [Option.map_eq_some_iff] at h
  obtain ⟨⟨ip, r1⟩, h1, h2⟩ := h
  dsimp only at h2
  rcases hf : readFraction r1 with ⟨fp, r2⟩
  rw [hf] at h2
  dsimp only at h2
  rcases he : readExponent r2 with ⟨ex, r3⟩
  rw [he] at h2
  simp only [Prod.mk.injEq] at h2
  have hr3 : r3 = c :: r' := by rw [h2.2, hr]
  have hr2 : r2 ≠ [] := by
    rintro rfl
    simp only [readExponent, Prod.mk.injEq] at he
    rw [hr3] at he
    simp at he
  have hr2d : ∀ y, r2 ≠ '.' :: y := by
    rintro y rfl
    rw [readExponent_cons, if_neg (by rintro ⟨h | h, -⟩ <;> exact absurd h (by decide))] at he
    simp only [Prod.mk.injEq, hr3, List.cons.injEq] at he
    exact hc.2.1 he.2.1.symm
  have hr1 : r1 ≠ [] := by
    rintro rfl
    simp only [readFraction, Prod.mk.injEq] at hf
    exact hr2 hf.2.symm
  rw [readInt_extend h1 hr1 S, Option.map_some]
  dsimp only
  rw [readFraction_extend hf hr2 hr2d S]
  dsimp only
  rw [readExponent_extend he hr3 hc S]
  dsimp only
  rw [h2.1, h2.2]

theorem readNumber_extend {fl : ℝ → ℝ} {cs r : List Char} {x : PyNum} (h : readNumber fl cs = some (x, r)) {c : Char}
    {r' : List Char} (hr : r = c :: r') (hc : Ends c) (S : List Char) : readNumber fl (cs ++ S) = some (x, r ++ S) := by
  cases cs with
  | nil => simp [readNumber] at h
  | cons d cs =>
    rw [List.cons_append]
    rw [readNumber_cons] at h ⊢
    split_ifs at h ⊢ with hd
    · exact readUnsigned_extend h hr hc S
    · exact readUnsigned_extend h hr hc S

theorem strip_extend : ∀ (w cs r S : List Char), stripText w cs = some r → stripText w (cs ++ S) = some (r ++ S)
  | [], cs, r, S, h => by
    simp only [stripText, Option.some.injEq] at h ⊢
    rw [h]
  | w :: ws, [], r, S, h => by simp [stripText] at h
  | w :: ws, c :: cs, r, S, h => by
    unfold stripText at h
    rw [List.cons_append]
    unfold stripText
    split_ifs at h ⊢ with hw
    exact strip_extend ws cs r S h

theorem strip_append : ∀ (w rest : List Char), stripText w (w ++ rest) = some rest
  | [], rest => rfl
  | w :: ws, rest => by
    rw [List.cons_append]
    unfold stripText
    rw [if_pos rfl]
    exact strip_append ws rest

theorem skip_extend {cs r : List Char} {d : Char} (h : skipBlanks cs = d :: r) (S : List Char) :
    skipBlanks (cs ++ S) = d :: (r ++ S) := by
  unfold skipBlanks at h ⊢
  rw [(while_extend (by rw [h]; simp) S).2, h]
  rfl

theorem ends_blank {c : Char} (h : isBlank c) : Ends c := by
  unfold isBlank at h
  simp only [Bool.or_eq_true, decide_eq_true_eq] at h
  rcases h with ((rfl | rfl) | rfl) | rfl <;> exact ⟨rfl, by decide, by decide, by decide⟩

theorem skip_head {cs r : List Char} {d : Char} (h : skipBlanks cs = d :: r) (hd : Ends d) : ∃ c cs', cs = c :: cs' ∧ Ends c := by
  cases cs with
  | nil => simp [skipBlanks] at h
  | cons c cs =>
    refine ⟨c, cs, rfl, ?_⟩
    by_cases hb : isBlank c
    · exact ends_blank hb
    · unfold skipBlanks at h
      rw [List.dropWhile_cons_of_neg hb] at h
      simp only [List.cons.injEq] at h
      rw [h.1]
      exact hd

theorem readScalar_cons (fl : ℝ → ℝ) (c : Char) (cs : List Char) : readScalar fl (c :: cs) =
    if c = 'n' then (stripText "ull".toList cs).map fun r => (.null, r)
    else if c = 't' then (stripText "rue".toList cs).map fun r => (.bool true, r)
    else if c = 'f' then (stripText "alse".toList cs).map fun r => (.bool false, r)
    else if c = 'N' then (stripText "aN".toList cs).map fun r => (.num (.float .nan), r)
    else if c = 'I' then (stripText "nfinity".toList cs).map fun r => (.num (.float .posInf), r)
    else match readNumber fl (c :: cs) with
      | some (x, r) => some (.num x, r)
      | none => if c = '-' then (stripText "Infinity".toList cs).map fun r => (.num (.float .negInf), r) else none := rfl

/-- What allows more text after a value. -/
def Closed (v : JVal) (r S : List Char) : Prop := S = [] ∨ (∀ x, v ≠ .num x) ∨ ∃ c r', r = c :: r' ∧ Ends c

theorem readScalar_extend {fl : ℝ → ℝ} {cs r : List Char} {v : JVal} (h : readScalar fl cs = some (v, r)) {S : List Char}
    (hc : Closed v r S) : readScalar fl (cs ++ S) = some (v, r ++ S) := by
  rcases hc with rfl | hc
  · rw [List.append_nil, List.append_nil, h]
  have strip : ∀ (w cs' : List Char) (u : JVal), (stripText w cs').map (fun r => (u, r)) = some (v, r) →
      (stripText w (cs' ++ S)).map (fun r => (u, r)) = some (v, r ++ S) := by
    intro w cs' u hu
    rw [Option.map_eq_some_iff] at hu
    obtain ⟨r0, h1, h2⟩ := hu
    simp only [Prod.mk.injEq] at h2
    rw [strip_extend w cs' r0 S h1, Option.map_some, h2.1, h2.2]
  cases cs with
  | nil => simp [readScalar] at h
  | cons c cs =>
    rw [List.cons_append]
    rw [readScalar_cons] at h ⊢
    by_cases h1 : c = 'n'
    · rw [if_pos h1] at h ⊢; exact strip _ _ _ h
    by_cases h2 : c = 't'
    · rw [if_neg h1, if_pos h2] at h ⊢; exact strip _ _ _ h
    by_cases h3 : c = 'f'
    · rw [if_neg h1, if_neg h2, if_pos h3] at h ⊢; exact strip _ _ _ h
    by_cases h4 : c = 'N'
    · rw [if_neg h1, if_neg h2, if_neg h3, if_pos h4] at h ⊢; exact strip _ _ _ h
    by_cases h5 : c = 'I'
    · rw [if_neg h1, if_neg h2, if_neg h3, if_neg h4, if_pos h5] at h ⊢; exact strip _ _ _ h
    rw [if_neg h1, if_neg h2, if_neg h3, if_neg h4, if_neg h5] at h ⊢
    cases hn : readNumber fl (c :: cs) with
    | some x =>
      obtain ⟨x, r0⟩ := x
      rw [hn] at h
      simp only [Option.some.injEq, Prod.mk.injEq] at h
      obtain ⟨rfl, rfl⟩ := h
      rcases hc with hc | ⟨c', r', hr, hc⟩
      · exact absurd rfl (hc x)
      · have := readNumber_extend hn hr hc S
        rw [List.cons_append] at this
        rw [this]
    | none =>
      rw [hn] at h
      dsimp only at h
      by_cases h6 : c = '-'
      · rw [if_pos h6] at h
        have h7 := strip _ _ _ h
        have h8 : readNumber fl (c :: (cs ++ S)) = none := by
          rw [Option.map_eq_some_iff] at h
          obtain ⟨r0, h9, -⟩ := h
          cases cs with
          | nil => simp [stripText] at h9
          | cons d cs =>
            have hd : 'I' = d := by
              by_contra hne
              unfold stripText at h9
              rw [show "Infinity".toList = 'I' :: "nfinity".toList from rfl] at h9
              simp [hne] at h9
            rw [readNumber_cons, if_pos h6, ← hd]
            rfl
        rw [h8]
        dsimp only
        rw [if_pos h6]
        exact h7
      · rw [if_neg h6] at h
        exact absurd h (by simp)

end Torchrir.Lemmas.JsonText
