import Verif.Lemmas.JsonTextRead
import Verif.Lemmas.Floating

/-!
# C128: the text of the metadata file
-/

set_option linter.unusedSectionVars false

namespace Torchrir.Props

open Torchrir.Model Torchrir.Spec Torchrir.Lemmas

namespace JsonText

open Torchrir.Lemmas.JsonText

theorem reads_unique {fl : ℝ → ℝ} {t : List Char} {j j' : JVal} (h : ReadsAs fl t j) (h' : ReadsAs fl t j') : j' = j := by
  obtain ⟨n, r, h1, -⟩ := h
  obtain ⟨n', r', h1', -⟩ := h'
  have e := readValue_mono (le_max_left n n') h1
  have e' := readValue_mono (le_max_right n n') h1'
  rw [e] at e'
  simp only [Option.some.injEq, Prod.mk.injEq] at e'
  exact e'.1.symm

theorem reads_of {fl : ℝ → ℝ} {t : List Char} {j : JVal} (h : ReadsTo fl t j) : ReadsAs fl t j := by
  obtain ⟨N, e⟩ := h.2 [] Stops.nil
  have hs := h.1.skip []
  rw [List.append_nil] at hs e
  exact ⟨N, [], by rw [hs]; exact e N le_rfl, rfl⟩

theorem unreadable_nil (fl : ℝ → ℝ) : Unreadable fl [] := by
  rintro j ⟨n, r, h, -⟩
  rw [show skipBlanks [] = [] from rfl, readValue_nil] at h
  simp at h

/-- A value that begins with a bracket is not a number. -/
theorem bracket_not_num {fl : ℝ → ℝ} {n : ℕ} {c : Char} (hc : c = '{' ∨ c = '[') {cs r : List Char} {v : JVal}
    (h : readValue fl n (c :: cs) = some (v, r)) (x : PyNum) : v ≠ .num x := by
  rintro rfl
  cases n with
  | zero => simp [readValue] at h
  | succ n =>
    rw [readValue_cons] at h
    rcases hc with rfl | rfl
    · rw [if_neg (by decide), if_pos rfl] at h
      cases hs : skipBlanks cs with
      | nil => rw [hs] at h; simp at h
      | cons d r' =>
        rw [hs] at h
        dsimp only at h
        split_ifs at h
        · simp at h
        · rw [Option.map_eq_some_iff] at h
          obtain ⟨y, -, h⟩ := h
          simp at h
    · rw [if_neg (by decide), if_neg (by decide), if_pos rfl] at h
      cases hs : skipBlanks cs with
      | nil => rw [hs] at h; simp at h
      | cons d r' =>
        rw [hs] at h
        dsimp only at h
        split_ifs at h
        · simp at h
        · rw [Option.map_eq_some_iff] at h
          obtain ⟨y, -, h⟩ := h
          simp at h

/-- The beginning of a text that is read as a list or an object is not read. -/
theorem prefix_unreadable {fl : ℝ → ℝ} {P S : List Char} {j : JVal} (hS : S ≠ []) (h : ReadsTo fl (P ++ S) j)
    (hP : P = [] ∨ ∃ c cs, P = c :: cs ∧ (c = '{' ∨ c = '[')) : Unreadable fl P := by
  rcases hP with rfl | ⟨c, cs, rfl, hc⟩
  · exact unreadable_nil fl
  rintro j' ⟨n, r, h1, -⟩
  have hb : skipBlanks (c :: cs) = c :: cs := by rcases hc with rfl | rfl <;> rfl
  rw [hb] at h1
  obtain ⟨N, e⟩ := h.2 [] Stops.nil
  rw [List.append_nil] at e
  have e1 := (extends_all fl n (max n N) (le_max_left _ _) (c :: cs) S r).1 j' h1 (Or.inr (Or.inl (bracket_not_num hc h1)))
  rw [e (max n N) (le_max_right _ _)] at e1
  simp only [Option.some.injEq, Prod.mk.injEq] at e1
  have := e1.2.symm
  rw [List.append_eq_nil_iff] at this
  exact hS this.2

variable {F : ℝ → Prop}

/-- What was written before an exception is the beginning of a text that could be written. -/
def Completable (F : ℝ → Prop) (repr : ℝ → List Char) (level : ℕ) (t : List Char) : Prop :=
  ∃ v S, writeVal repr level v = (t ++ S, none) ∧ FloatsOf F v ∧ S ≠ []

theorem andThen_error {a b : Written} {t : List Char} {e : String} (h : a.andThen b = (t, some e)) :
    a = (t, some e) ∨ ∃ s u, a = (s, none) ∧ b = (u, some e) ∧ t = s ++ u := by
  obtain ⟨s, e1⟩ := a
  obtain ⟨u, e2⟩ := b
  cases e1 with
  | some e1 => left; simpa [Written.andThen] using h
  | none =>
    right
    simp only [Written.andThen, Prod.mk.injEq] at h
    exact ⟨s, u, rfl, by rw [h.2], h.1.symm⟩

theorem say_error {s : List Char} {b : Written} {t : List Char} {e : String} (h : (say s).andThen b = (t, some e)) :
    ∃ u, b = (u, some e) ∧ t = s ++ u := by
  rcases andThen_error h with h | ⟨s', u, h1, h2, h3⟩
  · simp [say] at h
  · unfold say at h1
    simp only [Prod.mk.injEq, and_true] at h1
    exact ⟨u, h2, by rw [h3, h1]⟩

theorem then_ok {a b : Written} {s u : List Char} (h1 : a = (s, none)) (h2 : b = (u, none)) : a.andThen b = (s ++ u, none) := by
  rw [h1, h2]
  rfl

theorem write_dict (repr : ℝ → List Char) (level : ℕ) {k : PyKey} {s : String} (hk : k.text = .ok s) {v : PyVal}
    {rest : List (PyKey × PyVal)} {tv tr : List Char} (hv : writeVal repr (level + 1) v = (tv, none))
    (hr : writeRestEntries repr (level + 1) rest = (tr, none)) : writeVal repr level (.dict ((k, v) :: rest)) =
      ('{' :: newline (level + 1) ++ (keyText s ++ (tv ++ (tr ++ (newline level ++ ['}'])))), none) := by
  rw [writeVal, hk]
  exact then_ok rfl (then_ok rfl (then_ok hv (then_ok hr rfl)))

theorem write_list (repr : ℝ → List Char) (level : ℕ) {v : PyVal}
    {rest : List PyVal} {tv tr : List Char} (hv : writeVal repr (level + 1) v = (tv, none))
    (hr : writeRestItems repr (level + 1) rest = (tr, none)) : writeVal repr level (.list (v :: rest)) =
      ('[' :: newline (level + 1) ++ (tv ++ (tr ++ (newline level ++ [']']))), none) := by
  rw [writeVal]
  exact then_ok rfl (then_ok hv (then_ok hr rfl))

theorem complete_list {repr : ℝ → List Char} {level : ℕ} {v : PyVal} {rest : List PyVal} {t : List Char} {e : String}
    (hd : FloatsOf F v)
    (hv : ∀ t e, writeVal repr (level + 1) v = (t, some e) → Completable F repr (level + 1) t)
    (hr : ∀ t e, writeRestItems repr (level + 1) rest = (t, some e) →
      ∃ vs S, writeRestItems repr (level + 1) vs = (t ++ S, none) ∧ FloatsItems F vs)
    (h : (say ('[' :: newline (level + 1))).andThen ((writeVal repr (level + 1) v).andThen
      ((writeRestItems repr (level + 1) rest).andThen (say (newline level ++ [']'])))) = (t, some e)) :
    Completable F repr level t ∧ ∃ cs, t = '[' :: cs := by
  obtain ⟨u, g, rfl⟩ := say_error h
  refine ⟨?_, _, rfl⟩
  rcases andThen_error g with g | ⟨tv, w, g1, g2, rfl⟩
  · obtain ⟨v', S, e1, e2, e3⟩ := hv u e g
    refine ⟨.list [v'], S ++ (newline level ++ [']']), ?_, ⟨e2, trivial⟩, by simp⟩
    rw [write_list repr level e1 (tr := []) (by rw [writeRestItems]; rfl)]
    simp
  · rcases andThen_error g2 with g2 | ⟨tr, x, -, g3, -⟩
    · obtain ⟨vs, S, e1, e2⟩ := hr w e g2
      refine ⟨.list (v :: vs), S ++ (newline level ++ [']']), ?_, ⟨hd, e2⟩, by simp⟩
      rw [write_list repr level g1 e1]
      simp
    · simp [say] at g3

mutual
theorem complete_val (repr : ℝ → List Char) : ∀ (v : PyVal) (level : ℕ) (t : List Char) (e : String), FloatsOf F v →
    writeVal repr level v = (t, some e) →
    Completable F repr level t ∧ (t = [] ∨ ∃ c cs, t = c :: cs ∧ (c = '{' ∨ c = '['))
  | .none, level, t, e, _, h => by rw [writeVal] at h; simp [say] at h
  | .bool b, level, t, e, _, h => by rw [writeVal] at h; simp [say] at h
  | .num x, level, t, e, _, h => by rw [writeVal] at h; simp [say] at h
  | .str s, level, t, e, _, h => by rw [writeVal] at h; simp [say] at h
  | .tensor _, level, t, e, _, h => by
    rw [writeVal] at h
    simp only [Prod.mk.injEq] at h
    rw [← h.1]
    exact ⟨⟨.none, "null".toList, by rw [writeVal]; rfl, trivial, by decide⟩, Or.inl rfl⟩
  | .path _, level, t, e, _, h => by
    rw [writeVal] at h
    simp only [Prod.mk.injEq] at h
    rw [← h.1]
    exact ⟨⟨.none, "null".toList, by rw [writeVal]; rfl, trivial, by decide⟩, Or.inl rfl⟩
  | .other _, level, t, e, _, h => by
    rw [writeVal] at h
    simp only [Prod.mk.injEq] at h
    rw [← h.1]
    exact ⟨⟨.none, "null".toList, by rw [writeVal]; rfl, trivial, by decide⟩, Or.inl rfl⟩
  | .dict [], level, t, e, _, h => by rw [writeVal] at h; simp [say] at h
  | .list [], level, t, e, _, h => by rw [writeVal] at h; simp [say] at h
  | .tuple [], level, t, e, _, h => by rw [writeVal] at h; simp [say] at h
  | .dict ((k, v) :: rest), level, t, e, hd, h => by
    rw [writeVal] at h
    rw [FloatsOf, FloatsEntries] at hd
    obtain ⟨u, g, rfl⟩ := say_error h
    refine ⟨?_, Or.inr ⟨_, _, rfl, Or.inl rfl⟩⟩
    cases hk : k.text with
    | error e' =>
      rw [hk] at g
      simp only [Prod.mk.injEq] at g
      refine ⟨.dict [(.str "", .none)], keyText "" ++ ("null".toList ++ ([] ++ (newline level ++ ['}']))), ?_,
        ⟨trivial, trivial⟩, by simp [keyText, encodeText]⟩
      rw [write_dict repr level (k := .str "") (s := "") rfl (tv := "null".toList) (tr := []) (by rw [writeVal]; rfl)
        (by rw [writeRestEntries]; rfl), ← g.1, List.append_nil]
    | ok s =>
      rw [hk] at g
      dsimp only at g
      obtain ⟨w, g1, rfl⟩ := say_error g
      rcases andThen_error g1 with g1 | ⟨tv, x, g1', g2, rfl⟩
      · obtain ⟨v', S, e1, e2, e3⟩ := (complete_val repr v (level + 1) w e hd.1 g1).1
        refine ⟨.dict [(k, v')], S ++ (newline level ++ ['}']), ?_, ⟨e2, trivial⟩, by simp⟩
        rw [write_dict repr level hk e1 (tr := []) (by rw [writeRestEntries]; rfl)]
        simp
      · rcases andThen_error g2 with g2 | ⟨tr, y, -, g3, -⟩
        · obtain ⟨vs, S, e1, e2⟩ := complete_rest_entries repr rest (level + 1) x e hd.2 g2
          refine ⟨.dict ((k, v) :: vs), S ++ (newline level ++ ['}']), ?_, ⟨hd.1, e2⟩, by simp⟩
          rw [write_dict repr level hk g1' e1]
          simp
        · simp [say] at g3
  | .list (v :: rest), level, t, e, hd, h => by
    rw [writeVal] at h
    rw [FloatsOf, FloatsItems] at hd
    obtain ⟨h1, cs, h2⟩ := complete_list hd.1 (fun t e h => (complete_val repr v (level + 1) t e hd.1 h).1)
      (fun t e h => complete_rest_items repr rest (level + 1) t e hd.2 h) h
    exact ⟨h1, Or.inr ⟨_, cs, h2, Or.inr rfl⟩⟩
  | .tuple (v :: rest), level, t, e, hd, h => by
    rw [writeVal] at h
    rw [FloatsOf, FloatsItems] at hd
    obtain ⟨h1, cs, h2⟩ := complete_list hd.1 (fun t e h => (complete_val repr v (level + 1) t e hd.1 h).1)
      (fun t e h => complete_rest_items repr rest (level + 1) t e hd.2 h) h
    exact ⟨h1, Or.inr ⟨_, cs, h2, Or.inr rfl⟩⟩

theorem complete_rest_items (repr : ℝ → List Char) : ∀ (vs : List PyVal) (level : ℕ) (t : List Char) (e : String),
    FloatsItems F vs → writeRestItems repr level vs = (t, some e) →
    ∃ vs' S, writeRestItems repr level vs' = (t ++ S, none) ∧ FloatsItems F vs'
  | [], level, t, e, _, h => by rw [writeRestItems] at h; simp [say] at h
  | v :: rest, level, t, e, hd, h => by
    rw [writeRestItems] at h
    rw [FloatsItems] at hd
    obtain ⟨u, g, rfl⟩ := say_error h
    rcases andThen_error g with g | ⟨tv, w, g1, g2, rfl⟩
    · obtain ⟨v', S, e1, e2, -⟩ := (complete_val repr v level u e hd.1 g).1
      refine ⟨[v'], S, ?_, e2, trivial⟩
      rw [writeRestItems]
      refine (then_ok rfl (then_ok e1 (show writeRestItems repr level [] = ([], none) by rw [writeRestItems]; rfl))).trans ?_
      simp
    · obtain ⟨vs', S, e1, e2⟩ := complete_rest_items repr rest level w e hd.2 g2
      refine ⟨v :: vs', S, ?_, hd.1, e2⟩
      rw [writeRestItems]
      refine (then_ok rfl (then_ok g1 e1)).trans ?_
      simp

theorem complete_rest_entries (repr : ℝ → List Char) : ∀ (vs : List (PyKey × PyVal)) (level : ℕ) (t : List Char) (e : String),
    FloatsEntries F vs → writeRestEntries repr level vs = (t, some e) →
    ∃ vs' S, writeRestEntries repr level vs' = (t ++ S, none) ∧ FloatsEntries F vs'
  | [], level, t, e, _, h => by rw [writeRestEntries] at h; simp [say] at h
  | (k, v) :: rest, level, t, e, hd, h => by
    rw [writeRestEntries] at h
    rw [FloatsEntries] at hd
    cases hk : k.text with
    | error e' =>
      rw [hk] at h
      simp only [Prod.mk.injEq] at h
      refine ⟨[], [], ?_, trivial⟩
      rw [writeRestEntries, ← h.1]
      rfl
    | ok s =>
      rw [hk] at h
      dsimp only at h
      obtain ⟨u, g, rfl⟩ := say_error h
      obtain ⟨u', g', rfl⟩ := say_error g
      rcases andThen_error g' with g | ⟨tv, w, g1, g2, rfl⟩
      · obtain ⟨v', S, e1, e2, -⟩ := (complete_val repr v level u' e hd.1 g).1
        refine ⟨[(k, v')], S, ?_, e2, trivial⟩
        rw [writeRestEntries, hk]
        dsimp only
        refine (then_ok rfl (then_ok rfl (then_ok e1
          (show writeRestEntries repr level [] = ([], none) by rw [writeRestEntries]; rfl)))).trans ?_
        simp
      · obtain ⟨vs', S, e1, e2⟩ := complete_rest_entries repr rest level w e hd.2 g2
        refine ⟨(k, v) :: vs', S, ?_, hd.1, e2⟩
        rw [writeRestEntries, hk]
        dsimp only
        refine (then_ok rfl (then_ok rfl (then_ok g1 e1))).trans ?_
        simp
end

theorem container_head (repr : ℝ → List Char) (level : ℕ) (v : PyVal) (hv : IsContainer v) :
    ∃ c cs, (writeVal repr level v).1 = c :: cs ∧ (c = '{' ∨ c = '[') := by
  have hsay : ∀ (c : Char) (s : List Char) (b : Written), ((say (c :: s)).andThen b).1 = c :: (s ++ b.1) := fun _ _ _ => rfl
  cases v with
  | dict entries =>
    cases entries with
    | nil => exact ⟨'{', ['}'], by rw [writeVal]; rfl, Or.inl rfl⟩
    | cons x rest =>
      obtain ⟨k, v⟩ := x
      rw [writeVal, hsay]
      exact ⟨_, _, rfl, Or.inl rfl⟩
  | list items =>
    cases items with
    | nil => exact ⟨'[', [']'], by rw [writeVal]; rfl, Or.inr rfl⟩
    | cons x rest =>
      rw [writeVal, hsay]
      exact ⟨_, _, rfl, Or.inr rfl⟩
  | tuple items =>
    cases items with
    | nil => exact ⟨'[', [']'], by rw [writeVal]; rfl, Or.inr rfl⟩
    | cons x rest =>
      rw [writeVal, hsay]
      exact ⟨_, _, rfl, Or.inr rfl⟩
  | _ => exact absurd hv (by simp [IsContainer])

theorem prefix_head {P t : List Char} (h : P <+: t) (ht : t = [] ∨ ∃ c cs, t = c :: cs ∧ (c = '{' ∨ c = '[')) :
    P = [] ∨ ∃ c cs, P = c :: cs ∧ (c = '{' ∨ c = '[') := by
  cases P with
  | nil => exact Or.inl rfl
  | cons c cs =>
    right
    obtain ⟨S, rfl⟩ := h
    rcases ht with ht | ⟨d, ds, hd, hc⟩
    · simp at ht
    · rw [List.cons_append, List.cons.injEq] at hd
      exact ⟨c, cs, rfl, by rw [hd.1]; exact hc⟩

theorem codePoints_injective {s s' : String} (h : codePoints s = codePoints s') : s = s' := by
  unfold codePoints at h
  have hi : Function.Injective Char.toNat := by
    intro a b hab
    have := congrArg Char.ofNat hab
    rwa [Char.ofNat_toNat, Char.ofNat_toNat] at this
  exact String.toList_injective (List.map_injective_iff.mpr hi h)

mutual
theorem ofJson_injective : ∀ (j j' : Json), JVal.ofJson j = JVal.ofJson j' → j = j'
  | .null, j', h => by cases j' <;> simp_all [JVal.ofJson]
  | .bool b, j', h => by cases j' <;> simp_all [JVal.ofJson]
  | .num x, j', h => by cases j' <;> simp_all [JVal.ofJson]
  | .str s, j', h => by
    cases j' <;> simp only [JVal.ofJson, JVal.str.injEq, reduceCtorEq] at h
    rw [codePoints_injective h]
  | .arr items, j', h => by
    cases j' <;> simp only [JVal.ofJson, JVal.arr.injEq, reduceCtorEq] at h
    rw [ofItems_injective _ _ h]
  | .obj entries, j', h => by
    cases j' <;> simp only [JVal.ofJson, JVal.obj.injEq, reduceCtorEq] at h
    rw [ofEntries_injective _ _ h]

theorem ofItems_injective : ∀ (js js' : List Json), JVal.ofItems js = JVal.ofItems js' → js = js'
  | [], js', h => by cases js' <;> simp_all [JVal.ofItems]
  | j :: rest, js', h => by
    cases js' with
    | nil => simp [JVal.ofItems] at h
    | cons j' rest' =>
      simp only [JVal.ofItems, List.cons.injEq] at h
      rw [ofJson_injective j j' h.1, ofItems_injective rest rest' h.2]

theorem ofEntries_injective : ∀ (js js' : List (String × Json)), JVal.ofEntries js = JVal.ofEntries js' → js = js'
  | [], js', h => by
    cases js' with
    | nil => rfl
    | cons x rest => obtain ⟨s, j⟩ := x; simp [JVal.ofEntries] at h
  | (s, j) :: rest, js', h => by
    cases js' with
    | nil => simp [JVal.ofEntries] at h
    | cons x rest' =>
      obtain ⟨s', j'⟩ := x
      simp only [JVal.ofEntries, List.cons.injEq, Prod.mk.injEq] at h
      rw [codePoints_injective h.1.1, ofJson_injective j j' h.1.2, ofEntries_injective rest rest' h.2]
end

/-- A string is read back exactly if no two of its characters look like one. -/
theorem join_iff : ∀ (t : PyText), (∀ c ∈ t, c < 1114112) → (joinSurrogates (t.flatMap unitsOf) = t ↔ Separate t)
  | [], _ => by simp [joinSurrogates, Separate]
  | [c], h => ⟨fun _ => List.isChain_singleton c, fun hs => join_units _ h hs⟩
  | c :: d :: rest, h => by
    refine ⟨fun he => ?_, fun hs => join_units _ h hs⟩
    have hc := h c (by simp)
    have hd := h d (by simp)
    have ih := join_iff (d :: rest) fun x hx => h x (List.mem_cons_of_mem _ hx)
    unfold Separate
    rw [List.isChain_cons_cons]
    by_cases hcd : 55296 ≤ c ∧ c ≤ 56319 ∧ 56320 ≤ d ∧ d ≤ 57343
    · exfalso
      have hu : (c :: d :: rest).flatMap unitsOf = c :: d :: rest.flatMap unitsOf := by
        have h1 : unitsOf c = [c] := by unfold unitsOf; rw [if_pos (by omega)]
        have h2 : unitsOf d = [d] := by unfold unitsOf; rw [if_pos (by omega)]
        rw [List.flatMap_cons, List.flatMap_cons, h1, h2]
        rfl
      rw [hu, joinSurrogates, if_pos hcd, List.cons.injEq] at he
      omega
    · refine ⟨hcd, ih.mp ?_⟩
      by_cases hc' : c < 65536
      · have h1 : unitsOf c = [c] := by unfold unitsOf; rw [if_pos hc']
        obtain ⟨u, us, hu, hlow⟩ : ∃ u us, (d :: rest).flatMap unitsOf = u :: us ∧ ¬ (55296 ≤ c ∧ c ≤ 56319 ∧ 56320 ≤ u ∧ u ≤ 57343) := by
          rw [List.flatMap_cons]
          unfold unitsOf
          by_cases hd' : d < 65536
          · rw [if_pos hd']; exact ⟨d, _, rfl, hcd⟩
          · rw [if_neg hd']; exact ⟨_, _, rfl, by omega⟩
        rw [List.flatMap_cons, h1, hu, List.singleton_append, joinSurrogates, if_neg hlow, List.cons.injEq] at he
        rw [hu]
        exact he.2
      · have h1 : unitsOf c = [55296 + (c - 65536) / 1024, 56320 + (c - 65536) % 1024] := by unfold unitsOf; rw [if_neg hc']
        rw [List.flatMap_cons, h1] at he
        show joinSurrogates _ = _
        have : [55296 + (c - 65536) / 1024, 56320 + (c - 65536) % 1024] ++ List.flatMap unitsOf (d :: rest) =
          (55296 + (c - 65536) / 1024) :: (56320 + (c - 65536) % 1024) :: List.flatMap unitsOf (d :: rest) := rfl
        rw [this, joinSurrogates, if_pos (by omega), List.cons.injEq] at he
        exact he.2

/-- Characters of one byte that every encoding in use writes alike. -/
def Plain (c : Char) : Prop := 32 ≤ c.toNat ∧ c.toNat ≤ 126

theorem plain_digit {c : Char} (h : c.isDigit) : Plain c := by
  unfold Char.isDigit at h
  simp only [Bool.and_eq_true, decide_eq_true_eq] at h
  have h1 : 48 ≤ c.val.toNat := h.1
  have h2 : c.val.toNat ≤ 57 := h.2
  unfold Plain Char.toNat
  omega

theorem plain_int (z : ℤ) : ∀ c ∈ intText z, Plain c := by
  intro c hc
  have h1 := (decimalDigits_facts z.natAbs).1
  unfold intText at hc
  split_ifs at hc
  · rw [List.mem_cons] at hc
    rcases hc with rfl | hc
    · exact ⟨by decide, by decide⟩
    · exact plain_digit (h1 c hc)
  · exact plain_digit (h1 c hc)

theorem plain_hex (d : ℕ) (hd : d < 16) : Plain (hexDigit d) := by
  interval_cases d <;> exact ⟨by decide, by decide⟩

theorem plain_unit (u : ℕ) : ∀ c ∈ encodeUnit u, Plain c := by
  have two : ∀ a b : Char, Plain a → Plain b → ∀ c ∈ [a, b], Plain c := by
    intro a b ha hb c hc
    simp only [List.mem_cons, List.not_mem_nil, or_false] at hc
    rcases hc with rfl | rfl
    · exact ha
    · exact hb
  unfold encodeUnit
  split_ifs with h1 h2 h3 h4 h5 h6 h7 h8
  · exact two _ _ ⟨by decide, by decide⟩ ⟨by decide, by decide⟩
  · exact two _ _ ⟨by decide, by decide⟩ ⟨by decide, by decide⟩
  · exact two _ _ ⟨by decide, by decide⟩ ⟨by decide, by decide⟩
  · exact two _ _ ⟨by decide, by decide⟩ ⟨by decide, by decide⟩
  · exact two _ _ ⟨by decide, by decide⟩ ⟨by decide, by decide⟩
  · exact two _ _ ⟨by decide, by decide⟩ ⟨by decide, by decide⟩
  · exact two _ _ ⟨by decide, by decide⟩ ⟨by decide, by decide⟩
  · intro c hc
    rw [List.mem_singleton] at hc
    rw [hc]
    unfold Plain
    rw [toNat_ofNat (by omega)]
    exact h8
  · intro c hc
    unfold hex4 at hc
    simp only [List.mem_cons, List.not_mem_nil, or_false] at hc
    rcases hc with rfl | rfl | rfl | rfl | rfl | rfl
    · exact ⟨by decide, by decide⟩
    · exact ⟨by decide, by decide⟩
    all_goals exact plain_hex _ (Nat.mod_lt _ (by decide))

theorem plain_text (t : PyText) : ∀ c ∈ encodeText t, Plain c := by
  intro c hc
  unfold encodeText at hc
  simp only [List.mem_cons, List.mem_append, List.mem_flatMap, List.not_mem_nil, or_false] at hc
  rcases hc with rfl | ⟨u, -, hu⟩ | rfl
  · exact ⟨by decide, by decide⟩
  · exact plain_unit u c hu
  · exact ⟨by decide, by decide⟩

/-- Plain, or a new line. -/
def PlainLines (t : List Char) : Prop := ∀ c ∈ t, c = '\n' ∨ Plain c

theorem PlainLines.append {s t : List Char} (hs : PlainLines s) (ht : PlainLines t) : PlainLines (s ++ t) := by
  intro c hc
  rw [List.mem_append] at hc
  rcases hc with hc | hc
  · exact hs c hc
  · exact ht c hc

theorem PlainLines.cons {c : Char} {t : List Char} (hc : Plain c) (ht : PlainLines t) : PlainLines (c :: t) := by
  intro d hd
  rw [List.mem_cons] at hd
  rcases hd with rfl | hd
  · exact Or.inr hc
  · exact ht d hd

theorem plain_newline (level : ℕ) : PlainLines (newline level) := by
  intro c hc
  unfold newline at hc
  rw [List.mem_cons, List.mem_replicate] at hc
  rcases hc with rfl | ⟨-, rfl⟩
  · exact Or.inl rfl
  · exact Or.inr ⟨by decide, by decide⟩

theorem plain_key (s : String) : PlainLines (keyText s) := by
  unfold keyText
  refine PlainLines.append (fun c hc => Or.inr (plain_text _ c hc)) ?_
  exact PlainLines.cons ⟨by decide, by decide⟩ (PlainLines.cons ⟨by decide, by decide⟩ (fun c hc => by simp at hc))

theorem plain_then {a b : Written} (ha : PlainLines a.1) (hb : PlainLines b.1) : PlainLines (a.andThen b).1 := by
  obtain ⟨s, e⟩ := a
  cases e with
  | none => exact PlainLines.append ha hb
  | some e => exact ha

theorem plain_close (level : ℕ) {c : Char} (h : Plain c) : PlainLines (newline level ++ [c]) :=
  (plain_newline level).append (PlainLines.cons h fun c hc => by simp at hc)

section
variable {repr : ℝ → List Char} (hr : ∀ x, ∀ c ∈ repr x, Plain c)
include hr

theorem plain_num (x : PyNum) : PlainLines (numText repr x) := by
  cases x with
  | int z => exact fun c hc => Or.inr (plain_int z c hc)
  | float y =>
    cases y with
    | fin x => exact fun c hc => Or.inr (hr x c hc)
    | nan => intro c hc; fin_cases hc <;> exact Or.inr ⟨by decide, by decide⟩
    | posInf => intro c hc; fin_cases hc <;> exact Or.inr ⟨by decide, by decide⟩
    | negInf => intro c hc; fin_cases hc <;> exact Or.inr ⟨by decide, by decide⟩

mutual
theorem plain_val : ∀ (v : PyVal) (level : ℕ), PlainLines (writeVal repr level v).1
  | .none, level => by rw [writeVal]; intro c hc; fin_cases hc <;> exact Or.inr ⟨by decide, by decide⟩
  | .bool b, level => by
    rw [writeVal]
    cases b <;> intro c hc <;> fin_cases hc <;> exact Or.inr ⟨by decide, by decide⟩
  | .num x, level => by rw [writeVal]; exact plain_num hr x
  | .str s, level => by rw [writeVal]; exact fun c hc => Or.inr (plain_text _ c hc)
  | .tensor _, level => by rw [writeVal]; intro c hc; simp at hc
  | .path _, level => by rw [writeVal]; intro c hc; simp at hc
  | .other _, level => by rw [writeVal]; intro c hc; simp at hc
  | .dict [], level => by rw [writeVal]; intro c hc; fin_cases hc <;> exact Or.inr ⟨by decide, by decide⟩
  | .list [], level => by rw [writeVal]; intro c hc; fin_cases hc <;> exact Or.inr ⟨by decide, by decide⟩
  | .tuple [], level => by rw [writeVal]; intro c hc; fin_cases hc <;> exact Or.inr ⟨by decide, by decide⟩
  | .dict ((k, v) :: rest), level => by
    have h1 := plain_val v (level + 1)
    have h2 := plain_rest_entries rest (level + 1)
    rw [writeVal]
    refine plain_then (PlainLines.cons ⟨by decide, by decide⟩ (plain_newline _)) ?_
    cases k.text with
    | error e => intro c hc; simp at hc
    | ok s => exact plain_then (plain_key s) (plain_then h1 (plain_then h2 (plain_close _ ⟨by decide, by decide⟩)))
  | .list (v :: rest), level => by
    have h1 := plain_val v (level + 1)
    have h2 := plain_rest_items rest (level + 1)
    rw [writeVal]
    exact plain_then (PlainLines.cons ⟨by decide, by decide⟩ (plain_newline _))
      (plain_then h1 (plain_then h2 (plain_close _ ⟨by decide, by decide⟩)))
  | .tuple (v :: rest), level => by
    have h1 := plain_val v (level + 1)
    have h2 := plain_rest_items rest (level + 1)
    rw [writeVal]
    exact plain_then (PlainLines.cons ⟨by decide, by decide⟩ (plain_newline _))
      (plain_then h1 (plain_then h2 (plain_close _ ⟨by decide, by decide⟩)))

theorem plain_rest_items : ∀ (vs : List PyVal) (level : ℕ), PlainLines (writeRestItems repr level vs).1
  | [], level => by rw [writeRestItems]; intro c hc; simp [say] at hc
  | v :: rest, level => by
    have h1 := plain_val v level
    have h2 := plain_rest_items rest level
    rw [writeRestItems]
    exact plain_then (PlainLines.cons ⟨by decide, by decide⟩ (plain_newline _)) (plain_then h1 h2)

theorem plain_rest_entries : ∀ (vs : List (PyKey × PyVal)) (level : ℕ), PlainLines (writeRestEntries repr level vs).1
  | [], level => by rw [writeRestEntries]; intro c hc; simp [say] at hc
  | (k, v) :: rest, level => by
    have h1 := plain_val v level
    have h2 := plain_rest_entries rest level
    rw [writeRestEntries]
    cases k.text with
    | error e => intro c hc; simp at hc
    | ok s =>
      exact plain_then (PlainLines.cons ⟨by decide, by decide⟩ (plain_newline _)) (plain_then (plain_key s) (plain_then h1 h2))
end
end

/-- A decimal number for a double: the integer `m * 2 ^ e`, or `m * 5 ^ k` over `10 ^ k`. -/
theorem decimal_exists (x : ℝ) (hx : IsFloat 53 x) : ∃ D : DecimalText, D.Valid ∧ D.value = x := by
  obtain ⟨m, e, -, rfl⟩ := hx
  have main : ∀ (neg : Bool) (n : ℕ) (eneg : Bool) (k : ℕ), ∃ D : DecimalText, D.Valid ∧
      D.value = (signed neg n : ℝ) * (10 : ℝ) ^ (signed eneg k) := by
    intro neg n eneg k
    obtain ⟨h1, h2, h3⟩ := decimalDigits_facts n
    obtain ⟨g1, g2, g3⟩ := decimalDigits_facts k
    refine ⟨⟨neg, decimalDigits n, [], some (eneg, decimalDigits k)⟩, ⟨h1, h3, by simp, ?_, by simp⟩, ?_⟩
    · intro a ds hds
      simp only [Option.some.injEq, Prod.mk.injEq] at hds
      rw [← hds.2]
      refine ⟨?_, g1⟩
      rcases g3 with g | ⟨c, cs, g, -⟩ <;> rw [g] <;> simp
    · unfold DecimalText.value DecimalText.exponent
      simp only [List.append_nil, h2, Option.map_some, Option.getD_some, g2, List.length_nil, Nat.cast_zero, sub_zero]
  have hs : ∀ z : ℤ, signed (decide (z < 0)) z.natAbs = z := by
    intro z
    unfold signed
    by_cases hz : z < 0
    · simp only [hz, decide_true, if_true]; omega
    · simp only [hz, decide_false, Bool.false_eq_true, if_false]; omega
  rcases le_or_gt 0 e with he | he
  · obtain ⟨k, rfl⟩ := Int.eq_ofNat_of_zero_le he
    obtain ⟨D, h1, h2⟩ := main (decide (m * 2 ^ k < 0)) (m * 2 ^ k).natAbs false 0
    refine ⟨D, h1, ?_⟩
    rw [h2, hs]
    simp [signed]
  · obtain ⟨k, rfl⟩ : ∃ k : ℕ, e = -(k : ℤ) := ⟨e.natAbs, by omega⟩
    obtain ⟨D, h1, h2⟩ := main (decide (m * 5 ^ k < 0)) (m * 5 ^ k).natAbs true k
    refine ⟨D, h1, ?_⟩
    rw [h2, hs]
    simp only [signed, if_true, zpow_neg, zpow_natCast]
    push_cast
    rw [show (10 : ℝ) = 5 * 2 by norm_num, mul_pow]
    field_simp

end JsonText

open JsonText Torchrir.Lemmas.JsonText

/-- C128: the text that is written when there is no exception is read, by any reader that rounds decimal numbers the way
`repr` expects, as the value that was written and as nothing else. -/
theorem C128_round_trip {F : ℝ → Prop} {fl : ℝ → ℝ} {repr : ℝ → List Char} (hr : ReprFloat F fl repr) (v : PyVal) (hd : FloatsOf F v)
    (hw : (dumpText repr v).2 = none) :
    ∃ j, toJson v = .ok j ∧ ∀ j', ReadsAs fl (dumpText repr v).1 j' ↔ j' = JVal.ofJson j := by
  obtain ⟨j, h1, h2⟩ := reads_val hr v 0 (dumpText repr v).1 (by rw [← hw]; rfl) hd
  have h3 := reads_of h2
  exact ⟨j, h1, fun j' => ⟨reads_unique h3, fun h => h ▸ h3⟩⟩

/-- C128: the exceptions of writing. -/
theorem C128_error (repr : ℝ → List Char) (v : PyVal) (e : String) : (dumpText repr v).2 = some e ↔ toJson v = .error e := by
  unfold dumpText
  rw [error_val repr v 0]
  cases toJson v with
  | ok j => simp [errorOf]
  | error e' => simp [errorOf]

/-- C128: a file that was not finished cannot be read, at whatever character writing was interrupted, whether by the death
of the process or by an exception. -/
theorem C128_interrupted {F : ℝ → Prop} {fl : ℝ → ℝ} {repr : ℝ → List Char} (hr : ReprFloat F fl repr) (v : PyVal) (hv : IsContainer v)
    (hd : FloatsOf F v) (P : List Char) (hP : P <+: (dumpText repr v).1)
    (hcut : P ≠ (dumpText repr v).1 ∨ (dumpText repr v).2 ≠ none) : Unreadable fl P := by
  rcases hw : (dumpText repr v) with ⟨t, e⟩
  rw [hw] at hP hcut
  dsimp only at hP hcut
  have ht : ∃ c cs, t = c :: cs ∧ (c = '{' ∨ c = '[') := by
    have := container_head repr 0 v hv
    unfold dumpText at hw
    rw [hw] at this
    exact this
  have hh := prefix_head hP (Or.inr ht)
  cases e with
  | none =>
    obtain ⟨S, hS⟩ := hP
    have hS' : S ≠ [] := by
      rintro rfl
      rw [List.append_nil] at hS
      simp [hS] at hcut
    obtain ⟨j, -, h2⟩ := reads_val hr v 0 t hw hd
    rw [← hS] at h2
    exact prefix_unreadable hS' h2 hh
  | some e =>
    obtain ⟨⟨v', S, h1, h2, h3⟩, -⟩ := complete_val repr v 0 t e hd hw
    obtain ⟨S0, rfl⟩ := hP
    obtain ⟨j, -, h4⟩ := reads_val hr v' 0 _ h1 h2
    rw [List.append_assoc] at h4
    exact prefix_unreadable (by simp [h3]) h4 hh

/-- C128: a number that was cut off may be read as another number, which is why the document has to be in brackets. -/
theorem C128_scalar_fails : ∃ (v : PyVal) (P : List Char), ∀ (fl : ℝ → ℝ) (repr : ℝ → List Char),
    P <+: (dumpText repr v).1 ∧ (dumpText repr v).2 = none ∧ P ≠ (dumpText repr v).1 ∧ ¬ Unreadable fl P := by
  refine ⟨.num (.int 12), ['1'], fun fl repr => ?_⟩
  have e : dumpText repr (.num (.int 12)) = (['1', '2'], none) := by
    unfold dumpText
    rw [writeVal]
    show (intText 12, none) = _
    unfold intText
    rw [if_neg (by decide), show (12 : ℤ).natAbs = 12 from rfl, decimalDigits, if_neg (by decide), decimalDigits, if_pos (by decide)]
    rfl
  rw [e]
  refine ⟨⟨['2'], rfl⟩, rfl, by decide, fun h => h (.num (.int 1)) ⟨1, [], ?_, rfl⟩⟩
  have := readNumber_int fl 1 [] Stops.nil
  rw [List.append_nil] at this
  have e1 : intText 1 = ['1'] := by
    unfold intText
    rw [if_neg (by decide), show (1 : ℤ).natAbs = 1 from rfl, decimalDigits, if_pos (by decide)]
  rw [e1] at this
  have h2 := readValue_numeric (fl := fl) (t := ['1']) (rest := []) ⟨_, _, rfl, Or.inl rfl⟩ this 0
  exact h2

/-- C128: the files of `save_metadata_json` as text: what the model of documents calls whole is read as the document, what
it calls cut cannot be read. -/
theorem C128_refines {F : ℝ → Prop} {fl : ℝ → ℝ} {repr : ℝ → List Char} (hr : ReprFloat F fl repr) (disk : String → Option JsonFile)
    (path : String) (v : PyVal) (hd : FloatsOf F v) :
    (∀ j, (saveMetadataJson disk path v).1 path = some (.whole j) ↔
      (dumpText repr v).2 = none ∧ ∀ j', ReadsAs fl (dumpText repr v).1 j' ↔ j' = JVal.ofJson j) ∧
    ((saveMetadataJson disk path v).1 path = some .cut ↔ (dumpText repr v).2 ≠ none) ∧
    ((saveMetadataJson disk path v).1 path = some .cut → Unreadable fl (dumpText repr v).1) := by
  have hsave : (saveMetadataJson disk path v).1 path =
      match toJson v with
      | .ok j => some (.whole j)
      | .error _ => some .cut := by
    unfold saveMetadataJson
    cases toJson v <;> simp
  cases hj : toJson v with
  | ok j0 =>
    have hw : (dumpText repr v).2 = none := by
      cases hw : (dumpText repr v).2 with
      | none => rfl
      | some e => rw [(C128_error repr v e).mp hw] at hj; simp at hj
    obtain ⟨j1, h1, h2⟩ := C128_round_trip hr v hd hw
    rw [hj, Except.ok.injEq] at h1
    subst h1
    rw [hsave, hj]
    refine ⟨fun j => ⟨fun h => ?_, fun h => ?_⟩, by simp [hw], by simp⟩
    · simp only [Option.some.injEq, JsonFile.whole.injEq] at h
      exact ⟨hw, h ▸ h2⟩
    · have := (h2 (JVal.ofJson j)).mp ((h.2 _).mpr rfl)
      rw [ofJson_injective _ _ this]
  | error e =>
    have hw := (C128_error repr v e).mpr hj
    rw [hsave, hj]
    refine ⟨fun j => by simp [hw], by simp [hw], fun _ => ?_⟩
    obtain ⟨⟨v', S, h1, h2, h3⟩, hh⟩ := complete_val repr v 0 (dumpText repr v).1 e hd (by rw [← hw]; rfl)
    obtain ⟨j, -, h4⟩ := reads_val hr v' 0 _ h1 h2
    exact prefix_unreadable h3 h4 hh

/-- C128: a string is read back if and only if it has no high surrogate before a low one. -/
theorem C128_text (fl : ℝ → ℝ) (t : PyText) (ht : ∀ c ∈ t, c < 1114112) :
    ReadsAs fl (encodeText t) (.str t) ↔ t.IsChain fun u v => ¬ (55296 ≤ u ∧ u ≤ 56319 ∧ 56320 ≤ v ∧ v ≤ 57343) := by
  obtain ⟨tl, h1, h2⟩ := scan_text t ht []
  rw [List.append_nil] at h1
  have h3 : ∀ n, readValue fl (n + 1) (skipBlanks (encodeText t)) = some (.str (joinSurrogates (t.flatMap unitsOf)), []) := by
    intro n
    rw [h1, show skipBlanks ('"' :: tl) = '"' :: tl from rfl, readValue_cons, if_pos rfl, h2]
    rfl
  refine Iff.trans ?_ (join_iff t ht)
  have h4 : ReadsAs fl (encodeText t) (.str (joinSurrogates (t.flatMap unitsOf))) := ⟨1, [], h3 0, rfl⟩
  constructor
  · intro h
    have := reads_unique h h4
    simpa using this
  · intro h
    rw [h] at h4
    exact h4

/-- C128: two lone surrogates come back as one character. -/
theorem C128_surrogates_fails (fl : ℝ → ℝ) : ¬ ReadsAs fl (encodeText [0xD800, 0xDC00]) (.str [0xD800, 0xDC00]) ∧
    ReadsAs fl (encodeText [0xD800, 0xDC00]) (.str [0x10000]) := by
  refine ⟨fun h => ?_, 1, [], ?_, rfl⟩
  · have := (C128_text fl _ (by decide)).mp h
    simp at this
  · rw [show skipBlanks (encodeText [0xD800, 0xDC00]) = encodeText [0xD800, 0xDC00] from rfl]
    rfl

/-- C128: the file is plain ASCII in lines, so that its encoding does not matter. -/
theorem C128_ascii {repr : ℝ → List Char} (hr : ∀ x, ∀ c ∈ repr x, 32 ≤ c.toNat ∧ c.toNat ≤ 126) (v : PyVal) :
    ∀ c ∈ (dumpText repr v).1, c = '\n' ∨ 32 ≤ c.toNat ∧ c.toNat ≤ 126 := plain_val hr v 0

/-- C128: doubles can be written so that they are read back, by every reader that rounds to nearest. -/
theorem C128_repr : ∃ repr : ℝ → List Char, ∀ fl, RoundsToNearest 53 fl → ReprFloat (IsFloat 53) fl repr := by
  classical
  refine ⟨fun x => if h : IsFloat 53 x then (decimal_exists x h).choose.text else [], fun fl hfl x hx => ?_⟩
  refine ⟨(decimal_exists x hx).choose, (decimal_exists x hx).choose_spec.1, dif_pos hx, ?_⟩
  rw [(decimal_exists x hx).choose_spec.2]
  exact fl_float hfl hx

/-- Metadata as text. -/
def JsonText.small : PyVal :=
  .dict [(.str "room", .dict [(.str "fs", .num (.int 16000)), (.int 3, .list [.bool true, .none])]), (.str "\n\"é", .tuple [])]

theorem JsonText.text_16000 : intText 16000 = ['1', '6', '0', '0', '0'] := by
  unfold intText
  rw [if_neg (by decide), show (16000 : ℤ).natAbs = 16000 from rfl]
  simp [decimalDigits]

theorem JsonText.small_text (repr : ℝ → List Char) : dumpText repr JsonText.small =
    ("{\n  \"room\": {\n    \"fs\": 16000,\n    \"3\": [\n      true,\n      null\n    ]\n  },\n  \"\\n\\\"\\u00e9\": []\n}".toList, none) := by
  have h1 : numText repr (.int 16000) = ['1', '6', '0', '0', '0'] := JsonText.text_16000
  have h2 : toString (3 : ℤ) = "3" := by decide
  rw [dumpText, JsonText.small, writeVal]
  simp only [PyKey.text, writeVal, writeRestEntries, writeRestItems, h1, h2]
  simp [encodeText, codePoints, unitsOf, encodeUnit, hex4, hexDigit, keyText, newline, say, Written.andThen, List.replicate]

/-- The text, to the letter. -/
example (repr : ℝ → List Char) : String.ofList (dumpText repr JsonText.small).1 =
"{
  \"room\": {
    \"fs\": 16000,
    \"3\": [
      true,
      null
    ]
  },
  \"\\n\\\"\\u00e9\": []
}" := by
  rw [JsonText.small_text]
  simp

/-- It is read back, and none of its beginnings is. -/
example : ∃ repr : ℝ → List Char, ∀ fl, RoundsToNearest 53 fl →
    (∃ j, ReadsAs fl (dumpText repr JsonText.small).1 j) ∧ Unreadable fl ((dumpText repr JsonText.small).1.take 40) := by
  obtain ⟨repr, hr⟩ := C128_repr
  have hd : FloatsOf (IsFloat 53) JsonText.small := by simp [JsonText.small, FloatsOf, FloatsEntries, FloatsItems]
  have hw : (dumpText repr JsonText.small).2 = none := by
    cases h : (dumpText repr JsonText.small).2 with
    | none => rfl
    | some e => have := (C128_error repr _ e).mp h; simp [JsonText.small, toJson, toJsonEntries, toJsonItems, PyKey.text, bind, Except.bind, Except.map, pure, Except.pure] at this
  refine ⟨repr, fun fl hfl => ⟨?_, ?_⟩⟩
  · obtain ⟨j, -, h⟩ := C128_round_trip (hr fl hfl) _ hd hw
    exact ⟨_, (h _).mpr rfl⟩
  · refine C128_interrupted (hr fl hfl) JsonText.small trivial hd _ (List.take_prefix _ _) (Or.inl fun h => ?_)
    have hl := congrArg List.length h
    rw [List.length_take] at hl
    rw [JsonText.small_text] at hl
    simp at hl

/-- A tensor stops the writer. -/
example (repr : ℝ → List Char) (t : Tensor PyNum) (F : ℝ → Prop) (fl : ℝ → ℝ) (hr : ReprFloat F fl repr) :
    (dumpText repr (.dict [(.str "a", .tensor t)])).2 = some "TypeError: Object of type Tensor is not JSON serializable" ∧
    Unreadable fl (dumpText repr (.dict [(.str "a", .tensor t)])).1 := by
  have h : (dumpText repr (.dict [(.str "a", .tensor t)])).2 = some "TypeError: Object of type Tensor is not JSON serializable" :=
    (C128_error repr _ _).mpr rfl
  exact ⟨h, C128_interrupted hr (.dict [(.str "a", .tensor t)]) trivial ⟨trivial, trivial⟩ _ (List.prefix_refl _) (Or.inr (by rw [h]; simp))⟩

end Torchrir.Props
