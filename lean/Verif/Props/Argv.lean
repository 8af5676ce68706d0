import Verif.Spec.Argv
import Mathlib.Data.List.TakeWhile
import Mathlib.Data.List.Forall2

/-!
# C130: the command line as it is typed
-/

namespace Torchrir.Props

open Torchrir.Model Torchrir.Spec

namespace Argv

/-! ## Words -/

theorem eq_not_mem_namePart (s : String) : '=' ∉ namePart s := by
  intro h
  have := List.mem_takeWhile_imp h
  simp at this

theorem namePart_plain {s : String} (h : '=' ∉ s.toList) : namePart s = s.toList ∧ argPart s = none := by
  have hp : ∀ c ∈ s.toList, (decide (c ≠ '=')) = true := by
    intro c hc
    simp
    rintro rfl
    exact h hc
  refine ⟨List.takeWhile_eq_self_iff.2 hp, ?_⟩
  rw [argPart, List.dropWhile_eq_nil_iff.2 hp]

theorem namePart_equals {w : List Char} (h : '=' ∉ w) {s : String} {a : List Char} (hs : s.toList = w ++ '=' :: a) :
    namePart s = w ∧ argPart s = some (String.ofList a) := by
  have hp : ∀ c ∈ w, (decide (c ≠ '=')) = true := by
    intro c hc
    simp
    rintro rfl
    exact h hc
  refine ⟨?_, ?_⟩
  · rw [namePart, hs, List.takeWhile_append_of_pos hp]
    simp
  · rw [argPart, hs, List.dropWhile_append_of_pos hp]
    simp

theorem parts (s : String) :
    (argPart s = none ∧ namePart s = s.toList ∧ '=' ∉ s.toList) ∨
    ∃ a, argPart s = some a ∧ s.toList = namePart s ++ '=' :: a.toList := by
  have hsplit := List.takeWhile_append_dropWhile (p := fun c => decide (c ≠ '=')) (l := s.toList)
  rcases hd : s.toList.dropWhile (fun c => decide (c ≠ '=')) with _ | ⟨c, rest⟩
  · left
    have hn : namePart s = s.toList := by
      rw [hd, List.append_nil] at hsplit
      exact hsplit
    refine ⟨by rw [argPart, hd], hn, ?_⟩
    rw [← hn]
    exact eq_not_mem_namePart s
  · right
    have hc : c = '=' := by
      have := List.head?_dropWhile_not (fun c => decide (c ≠ '=')) s.toList
      rw [hd] at this
      simpa using this
    subst hc
    refine ⟨String.ofList rest, by rw [argPart, hd], ?_⟩
    rw [hd] at hsplit
    rw [String.toList_ofList]
    exact hsplit.symm

theorem isNegativeNumber_iff (s : String) : isNegativeNumber s.toList = true ↔ NegativeNumber s := by
  have hdot : Char.isDigit '.' = false := by decide
  constructor
  · intro h
    rcases hs : s.toList with _ | ⟨c, cs⟩
    · rw [hs] at h
      simp [isNegativeNumber] at h
    · by_cases hc : c = '-'
      · subst hc
        rw [hs] at h
        simp only [isNegativeNumber, Bool.or_eq_true, Bool.and_eq_true, List.all_eq_true] at h
        rcases h with ⟨hne, hd⟩ | h
        · exact ⟨cs, hd, .inl ⟨by simpa using hne, hs⟩⟩
        · refine ⟨cs.takeWhile Char.isDigit, fun c hc => List.mem_takeWhile_imp hc, .inr ?_⟩
          have hsplit := List.takeWhile_append_dropWhile (p := Char.isDigit) (l := cs)
          rcases hd : cs.dropWhile Char.isDigit with _ | ⟨e, fs⟩
          · rw [hd] at h
            simp at h
          · rw [hd] at h hsplit
            by_cases he : e = '.'
            · subst he
              simp only [Bool.and_eq_true, List.all_eq_true] at h
              refine ⟨fs, by simpa using h.1, h.2, ?_⟩
              rw [hs, hsplit]
            · split at h
              · rename_i heq
                simp only [List.cons.injEq] at heq
                exact absurd heq.1 he
              · simp at h
      · rw [hs] at h
        unfold isNegativeNumber at h
        split at h
        · rename_i heq
          simp only [List.cons.injEq] at heq
          exact absurd heq.1 hc
        · simp at h
  · rintro ⟨ds, hds, ⟨hne, hs⟩ | ⟨fs, hne, hfs, hs⟩⟩
    · rw [hs]
      simp only [isNegativeNumber, Bool.or_eq_true, Bool.and_eq_true, List.all_eq_true]
      exact .inl ⟨by simpa using hne, hds⟩
    · rw [hs]
      simp only [isNegativeNumber, Bool.or_eq_true, Bool.and_eq_true, List.all_eq_true]
      right
      rw [List.dropWhile_append_of_pos hds]
      simp only [List.dropWhile_cons, hdot, Bool.false_eq_true, if_false, Bool.and_eq_true, List.all_eq_true]
      exact ⟨by simpa using hne, hfs⟩

theorem flags_plain {opts : List Opt} (hg : GoodOptions opts) {f : String} (hf : f ∈ flagsOf opts) : '=' ∉ f.toList := by
  simp only [flagsOf, List.mem_cons, List.mem_map] at hf
  rcases hf with rfl | rfl | ⟨o, ho, rfl⟩
  · decide
  · decide
  · exact hg.plain o ho

theorem flags_dash {opts : List Opt} (hg : GoodOptions opts) {f : String} (hf : f ∈ flagsOf opts) :
    f = "-h" ∨ ∃ c cs, f.toList = '-' :: '-' :: c :: cs := by
  simp only [flagsOf, List.mem_cons, List.mem_map] at hf
  rcases hf with rfl | rfl | ⟨o, ho, rfl⟩
  · exact .inl rfl
  · exact .inr ⟨'h', "elp".toList, rfl⟩
  · exact .inr (hg.dashes o ho)

theorem flag_mem {opts : List Opt} {o : Opt} (ho : o ∈ opts) : o.flag ∈ flagsOf opts := by
  simp only [flagsOf, List.mem_cons, List.mem_map]
  exact .inr (.inr ⟨o, ho, rfl⟩)

theorem filter_unique {α : Type} {l : List α} {a : α} {p : α → Bool} (hn : l.Nodup) (ha : a ∈ l) (hp : p a = true)
    (hu : ∀ b ∈ l, p b = true → b = a) : l.filter p = [a] := by
  induction l with
  | nil => simp at ha
  | cons x l ih =>
    rw [List.nodup_cons] at hn
    by_cases hx : x = a
    · subst hx
      rw [List.filter_cons_of_pos hp]
      congr 1
      rw [List.filter_eq_nil_iff]
      intro b hb hpb
      have := hu b (List.mem_cons_of_mem _ hb) hpb
      exact hn.1 (this ▸ hb)
    · have hpx : ¬ p x = true := fun h => hx (hu x (List.mem_cons_self ..) h)
      rw [List.filter_cons_of_neg hpx]
      refine ih hn.2 ?_ fun b hb => hu b (List.mem_cons_of_mem _ hb)
      rcases List.mem_cons.1 ha with h | h
      · exact absurd h.symm hx
      · exact h

/-- A name contains no `=`, begins with two dashes and a letter. -/
theorem name_plain {opts : List Opt} (hg : GoodOptions opts) {w : String} {o : Opt} (h : NameOf opts w o) :
    '=' ∉ w.toList := by
  cases h with
  | whole _ ho => exact hg.plain _ ho
  | short _ _ ho hd hw hu => exact fun hm => hg.plain o ho (hw.subset hm)

theorem name_cases {opts : List Opt} {w : String} {o : Opt} (h : NameOf opts w o) :
    w = o.flag ∨ (w.toList <+: o.flag.toList ∧ ∀ f ∈ flagsOf opts, w.toList <+: f.toList → f = o.flag) := by
  cases h with
  | whole _ ho => exact .inl rfl
  | short _ _ ho hd hw hu => exact .inr ⟨hw, hu⟩

theorem name_mem {opts : List Opt} {w : String} {o : Opt} (h : NameOf opts w o) : o ∈ opts := by
  cases h with
  | whole _ ho => exact ho
  | short _ _ ho hd hw hu => exact ho

theorem name_dashes {opts : List Opt} (hg : GoodOptions opts) {w : String} {o : Opt} (h : NameOf opts w o) :
    ∃ c cs, w.toList = '-' :: '-' :: c :: cs := by
  cases h with
  | whole _ ho => exact hg.dashes _ ho
  | short _ _ ho hd hw hu =>
    obtain ⟨r, hr⟩ := hd
    have hr' : w.toList = '-' :: '-' :: r := by rw [← hr]; rfl
    rcases r with _ | ⟨c, cs⟩
    · exfalso
      have hh : "--help" = o.flag := hu "--help" (by simp [flagsOf]) (by rw [hr']; exact ⟨"help".toList, rfl⟩)
      have hnd := hg.distinct
      simp only [flagsOf, List.nodup_cons, List.mem_cons, List.mem_map] at hnd
      exact hnd.2.1 ⟨o, ho, hh.symm⟩
    · exact ⟨c, cs, hr'⟩

theorem classify_option {opts : List Opt} (hg : GoodOptions opts) (s : String) (o : Opt) (ho : o ∈ opts) (arg : Option String) :
    classify (flagsOf opts) s = .ok (.option o.flag arg) ↔
      NameOf opts (String.ofList (namePart s)) o ∧ arg = argPart s := by
  obtain ⟨c0, cs0, hof⟩ := hg.dashes o ho
  constructor
  · intro h
    unfold classify at h
    split at h
    · simp at h
    · split at h
      · rename_i hm
        simp only [Except.ok.injEq, Word.option.injEq] at h
        obtain ⟨hn, ha⟩ := namePart_plain (flags_plain hg hm)
        rw [hn, ha, String.ofList_toList, h.1]
        exact ⟨.whole o ho, h.2.symm⟩
      · split at h
        · simp at h
        · split at h
          · simp only [Except.ok.injEq, Word.option.injEq] at h
            rw [h.1]
            exact ⟨.whole o ho, h.2.symm⟩
          · split at h
            · split at h <;> simp at h
            · rename_i w hw
              simp only [Except.ok.injEq] at h
              subst h
              unfold optionTuples at hw
              split at hw
              · rename_i r hr
                obtain ⟨f, hf, hfw⟩ := List.map_eq_singleton_iff.1 hw
                simp only [Word.option.injEq] at hfw
                have hmem : f ∈ (flagsOf opts).filter fun f => (namePart s).isPrefixOf f.toList := by
                  rw [hf]; exact List.mem_singleton_self _
                rw [List.mem_filter, List.isPrefixOf_iff_prefix] at hmem
                refine ⟨.short _ o ho ?_ ?_ ?_, hfw.2.symm⟩
                · rw [String.toList_ofList, namePart, hr]
                  simp
                · rw [String.toList_ofList, ← hfw.1]
                  exact hmem.2
                · intro g hgm hgp
                  rw [String.toList_ofList] at hgp
                  have : g ∈ (flagsOf opts).filter fun f => (namePart s).isPrefixOf f.toList := by
                    rw [List.mem_filter, List.isPrefixOf_iff_prefix]
                    exact ⟨hgm, hgp⟩
                  rw [hf, List.mem_singleton] at this
                  rw [this, hfw.1]
              · rename_i c rest hne hr
                exfalso
                have hcd : c ≠ '-' := by
                  rintro rfl
                  exact hne rfl
                have hmem : Word.option o.flag arg ∈ (flagsOf opts).filterMap fun f =>
                    if f.toList = ['-', c] then some (.option f (some (String.ofList rest)))
                    else if s.toList.isPrefixOf f.toList then some (.option f none)
                    else none := by
                  rw [hw]; exact List.mem_singleton_self _
                rw [List.mem_filterMap] at hmem
                obtain ⟨f, hf, hfe⟩ := hmem
                split at hfe
                · rename_i hfc
                  simp only [Option.some.injEq, Word.option.injEq] at hfe
                  rw [hfe.1, hof] at hfc
                  simp at hfc
                · split at hfe
                  · rename_i hpre
                    simp only [Option.some.injEq, Word.option.injEq] at hfe
                    rw [hfe.1, hof, hr, List.isPrefixOf_iff_prefix] at hpre
                    rw [List.cons_prefix_cons, List.cons_prefix_cons] at hpre
                    exact hcd hpre.2.1
                  · simp at hfe
              · simp at hw
            · simp at h
  · rintro ⟨hn, rfl⟩
    obtain ⟨c, cs, hd⟩ := name_dashes hg hn
    rw [String.toList_ofList] at hd
    have hsd : ∃ r, s.toList = '-' :: '-' :: c :: r := by
      rcases parts s with ⟨_, h, _⟩ | ⟨a, _, h⟩
      · exact ⟨cs, by rw [← h, hd]⟩
      · exact ⟨cs ++ '=' :: a.toList, by rw [h, hd]; rfl⟩
    obtain ⟨r, hr⟩ := hsd
    have huniq : ∀ f ∈ flagsOf opts, String.ofList (namePart s) = f → f = o.flag := by
      intro f hf he
      rcases name_cases hn with h | ⟨_, hu⟩
      · exact he.symm.trans h
      · exact hu f hf (by rw [he])
    unfold classify
    rw [if_neg (by rw [hr]; simp)]
    by_cases hm : s ∈ flagsOf opts
    · obtain ⟨h1, h2⟩ := namePart_plain (flags_plain hg hm)
      rw [if_pos hm, h2, huniq s hm (by rw [h1, String.ofList_toList])]
    · rw [if_neg hm, if_neg (by rintro rfl; simp at hr)]
      by_cases hm2 : argPart s ≠ none ∧ String.ofList (namePart s) ∈ flagsOf opts
      · rw [if_pos hm2, huniq _ hm2.2 rfl]
      · rw [if_neg hm2]
        rcases name_cases hn with heq | ⟨hw, hu⟩
        · exfalso
          rcases parts s with ⟨_, h, _⟩ | ⟨a, ha, _⟩
          · refine hm ?_
            have : s = o.flag := by rw [← heq, h, String.ofList_toList]
            rw [this]; exact flag_mem ho
          · refine hm2 ⟨by rw [ha]; simp, ?_⟩
            rw [heq]; exact flag_mem ho
        · rw [String.toList_ofList] at hw hu
          have hfil : ((flagsOf opts).filter fun f => (namePart s).isPrefixOf f.toList) = [o.flag] :=
            filter_unique hg.distinct (flag_mem ho) (by rw [List.isPrefixOf_iff_prefix]; exact hw)
              fun b hb hp => hu b hb (by rwa [List.isPrefixOf_iff_prefix] at hp)
          have : optionTuples (flagsOf opts) s = [.option o.flag (argPart s)] := by
            unfold optionTuples
            rw [hr]
            simp only [hfil, List.map_cons, List.map_nil]
          rw [this]

theorem classify_value {opts : List Opt} (hg : GoodOptions opts) (s : String) :
    classify (flagsOf opts) s = .ok .value ↔ ArgumentWord opts s := by
  constructor
  · intro h
    unfold classify at h
    split at h
    · rename_i h1
      exact .inl h1
    · split at h
      · simp at h
      · split at h
        · rename_i h1
          exact .inr (.inl h1)
        · split at h
          · simp at h
          · split at h
            · rename_i hhead _ _ _ ht
              split at h
              · rename_i hnb
                right; right
                simp only [Bool.or_eq_true, isNegativeNumber_iff, decide_eq_true_eq] at hnb
                refine ⟨hnb, ?_, ?_⟩
                · rintro ⟨rest, hrest⟩
                  have hrest' : s.toList = '-' :: 'h' :: rest := by rw [← hrest]; rfl
                  unfold optionTuples at ht
                  split at ht
                  · rename_i hr
                    rw [hrest'] at hr
                    simp at hr
                  · rename_i c r _ hr
                    rw [hrest'] at hr
                    simp only [List.cons.injEq, true_and] at hr
                    rw [List.filterMap_eq_nil_iff] at ht
                    have := ht "-h" (by simp [flagsOf])
                    rw [if_pos (by rw [← hr.1]; rfl)] at this
                    simp at this
                  · rename_i hr
                    exact hr _ _ hrest'
                · intro w hwd hwe hws f hf hp
                  obtain ⟨r, hr⟩ := hwd
                  have hwn : w = namePart s := by
                    rcases hws with rfl | ⟨a, ha⟩
                    · exact (namePart_plain hwe).1.symm
                    · exact (namePart_equals hwe ha).1.symm
                  have hsr : ∃ q, s.toList = '-' :: '-' :: q := by
                    rcases hws with h | ⟨a, ha⟩
                    · exact ⟨r, by rw [← h, ← hr]; rfl⟩
                    · exact ⟨r ++ '=' :: a, by rw [ha, ← hr]; rfl⟩
                  obtain ⟨q, hq⟩ := hsr
                  unfold optionTuples at ht
                  rw [hq] at ht
                  simp only [List.map_eq_nil_iff, List.filter_eq_nil_iff, List.isPrefixOf_iff_prefix] at ht
                  exact ht f hf (hwn ▸ hp)
              · simp at h
            · rename_i ht
              simp only [Except.ok.injEq] at h
              subst h
              exfalso
              have : Word.value ∈ optionTuples (flagsOf opts) s := by rw [ht]; exact List.mem_singleton_self _
              unfold optionTuples at this
              split at this
              · simp at this
              · rw [List.mem_filterMap] at this
                obtain ⟨f, _, hfe⟩ := this
                split at hfe
                · simp at hfe
                · split at hfe <;> simp at hfe
              · simp at this
            · simp at h
  · rintro (h | rfl | ⟨hnb, hnh, hw⟩)
    · unfold classify
      rw [if_pos h]
    · unfold classify
      rw [if_neg (by decide), if_neg, if_pos rfl]
      intro hm
      rcases flags_dash hg hm with h | ⟨c, cs, h⟩
      · revert h; decide
      · have : "-".toList = ['-'] := rfl
        rw [this] at h
        simp at h
    · unfold classify
      split
      · rfl
      · rename_i hhead
        have hflag : ∀ f ∈ flagsOf opts, ∀ t, (f.toList = s.toList ∨ s.toList = f.toList ++ '=' :: t) → False := by
          intro f hf t ht
          rcases flags_dash hg hf with rfl | ⟨c, cs, hc⟩
          · refine hnh ?_
            rcases ht with h | h
            · rw [← h]
            · rw [h]; exact ⟨_, rfl⟩
          · refine hw f.toList (by rw [hc]; exact ⟨c :: cs, rfl⟩) (flags_plain hg hf) ?_ f hf (List.prefix_rfl)
            exact ht.imp id fun h => ⟨t, h⟩
        rw [if_neg fun hm => hflag s hm [] (.inl rfl)]
        split
        · rfl
        · rw [if_neg]
          · have : optionTuples (flagsOf opts) s = [] := by
              unfold optionTuples
              split
              · rename_i r hr
                simp only [List.map_eq_nil_iff, List.filter_eq_nil_iff, List.isPrefixOf_iff_prefix]
                intro f hf
                refine hw _ ?_ (eq_not_mem_namePart s) ?_ f hf
                · rw [namePart, hr]; simp
                · rcases parts s with ⟨_, h, _⟩ | ⟨a, _, h⟩
                  · exact .inl h
                  · exact .inr ⟨_, h⟩
              · rename_i c rest hne hr
                rw [List.filterMap_eq_nil_iff]
                intro f hf
                have hch : c ≠ 'h' := by
                  rintro rfl
                  exact hnh ⟨rest, by rw [hr]; rfl⟩
                have hcd : c ≠ '-' := by
                  rintro rfl
                  exact hne rfl
                rcases flags_dash hg hf with rfl | ⟨d, ds, hd⟩
                · have h1 : "-h".toList = ['-', 'h'] := rfl
                  rw [if_neg (by rw [h1]; simp; exact fun h => hch h.symm), if_neg]
                  rw [h1, hr, List.isPrefixOf_iff_prefix, List.cons_prefix_cons, List.cons_prefix_cons]
                  exact fun h => hch h.2.1
                · rw [if_neg (by rw [hd]; simp), if_neg]
                  rw [hd, hr, List.isPrefixOf_iff_prefix, List.cons_prefix_cons, List.cons_prefix_cons]
                  exact fun h => hcd h.2.1
              · rfl
            rw [this]
            simp only
            rw [if_pos]
            simp only [Bool.or_eq_true, isNegativeNumber_iff, decide_eq_true_eq]
            exact hnb
          · rintro ⟨ha, hm⟩
            rcases parts s with ⟨h, _⟩ | ⟨a, _, h⟩
            · exact ha h
            · exact hflag _ hm a.toList (.inr (by rw [String.toList_ofList]; exact h))

/-! ## Options -/

/-- A word and what it is. -/
def Reads (opts : List Opt) (s : String) (p : String × Word) : Prop := p.1 = s ∧ classify (flagsOf opts) s = .ok p.2

theorem mapM_iff (opts : List Opt) (argv : List String) (words : List (String × Word)) :
    argv.mapM (classified (flagsOf opts)) = .ok words ↔ List.Forall₂ (Reads opts) argv words := by
  induction argv generalizing words with
  | nil =>
    rw [List.mapM_nil]
    constructor
    · rintro ⟨⟩
      exact .nil
    · intro h
      cases h
      rfl
  | cons s argv ih =>
    rw [List.mapM_cons]
    rcases hc : classify (flagsOf opts) s with e | w
    · have h1 : classified (flagsOf opts) s = .error e := by simp [classified, hc, bind, Except.bind]
      rw [h1]
      constructor
      · rintro ⟨⟩
      · intro h
        cases h with
        | cons h _ => rw [h.2] at hc; cases hc
    · have h1 : classified (flagsOf opts) s = .ok (s, w) := by simp [classified, hc, bind, Except.bind, pure, Except.pure]
      rw [h1]
      constructor
      · intro h
        rcases hm : argv.mapM (classified (flagsOf opts)) with e | ws
        · rw [hm] at h; cases h
        · rw [hm] at h
          cases h
          exact .cons ⟨rfl, hc⟩ ((ih ws).1 hm)
      · intro h
        cases h with
        | @cons _ p _ ws h ht =>
          rw [(ih ws).2 ht]
          obtain ⟨p1, p2⟩ := p
          obtain ⟨h1, h2⟩ := h
          simp only at h1 h2
          subst h1
          rw [hc] at h2
          cases h2
          rfl

theorem find_iff {opts : List Opt} (hg : GoodOptions opts) (f : String) (o : Opt) :
    opts.find? (·.flag = f) = some o ↔ o ∈ opts ∧ o.flag = f := by
  have hnd := hg.distinct
  simp only [flagsOf, List.nodup_cons] at hnd
  replace hnd := hnd.2.2
  clear hg
  induction opts with
  | nil => simp
  | cons x opts ih =>
    rw [List.map_cons, List.nodup_cons] at hnd
    rw [List.find?_cons]
    by_cases hx : x.flag = f
    · simp only [hx, decide_true, Option.some.injEq, List.mem_cons]
      constructor
      · rintro rfl
        exact ⟨.inl rfl, hx⟩
      · rintro ⟨h | h, ho⟩
        · exact h.symm
        · exact absurd (List.mem_map.2 ⟨o, h, ho.trans hx.symm⟩) hnd.1
    · simp only [hx, decide_false, List.mem_cons]
      refine Iff.trans (ih hnd.2) ?_
      constructor
      · rintro ⟨h, ho⟩
        exact ⟨.inr h, ho⟩
      · rintro ⟨rfl | h, ho⟩
        · exact absurd ho hx
        · exact ⟨h, ho⟩

theorem consume_option (opts : List Opt) (s flag : String) (arg : Option String) (rest : List (String × Word)) :
    consume opts ((s, .option flag arg) :: rest) =
      match opts.find? (·.flag = flag) with
      | none => .error "help"
      | some o =>
        match o.action, arg with
        | .storeConst _, none => do
          let (given, extras) ← consume opts rest
          return (⟨flag, []⟩ :: given, extras)
        | .storeConst _, some _ => .error "ignored explicit argument"
        | .store _ _, some a => do
          let (given, extras) ← consume opts rest
          return (⟨flag, [a]⟩ :: given, extras)
        | .storeMany _, some a => do
          let (given, extras) ← consume opts rest
          return (⟨flag, [a]⟩ :: given, extras)
        | .store _ _, none =>
          match rest with
          | (a, .value) :: rest => do
            let (given, extras) ← consume opts rest
            return (⟨flag, [a]⟩ :: given, extras)
          | _ => .error "expected one argument"
        | .storeMany _, none =>
          if rest.takeWhile (·.2.isValue) = [] then .error "expected at least one argument"
          else do
            let (given, extras) ← consume opts (rest.dropWhile (·.2.isValue))
            return (⟨flag, (rest.takeWhile (·.2.isValue)).map Prod.fst⟩ :: given, extras) := by
  rw [consume.eq_def]
  rfl

theorem consume_bind {opts : List Opt} {rest : List (String × Word)} {f : List Given → List Given}
    {g : List String → List String} {r : List Given × List String}
    (h : (do let (given, extras) ← consume opts rest; return (f given, g extras)) = Except.ok r) :
    ∃ given extras, consume opts rest = .ok (given, extras) ∧ r = (f given, g extras) := by
  rcases hc : consume opts rest with e | ⟨given, extras⟩
  · rw [hc] at h; cases h
  · rw [hc] at h; cases h
    exact ⟨given, extras, rfl, rfl⟩

theorem word_option {opts : List Opt} (hg : GoodOptions opts) {s : String} {o : Opt} (ho : o ∈ opts)
    (h : classify (flagsOf opts) s = .ok (.option o.flag none)) : NameOf opts s o := by
  obtain ⟨hn, ha⟩ := (classify_option hg s o ho none).1 h
  rcases parts s with ⟨_, h, _⟩ | ⟨a, h, _⟩
  · rwa [h, String.ofList_toList] at hn
  · rw [h] at ha; cases ha

theorem word_equals {opts : List Opt} (hg : GoodOptions opts) {s a : String} {o : Opt} (ho : o ∈ opts)
    (h : classify (flagsOf opts) s = .ok (.option o.flag (some a))) : ∃ w, s = w ++ "=" ++ a ∧ NameOf opts w o := by
  obtain ⟨hn, ha⟩ := (classify_option hg s o ho (some a)).1 h
  refine ⟨_, ?_, hn⟩
  rcases parts s with ⟨h, _, _⟩ | ⟨b, h, hs⟩
  · rw [h] at ha; cases ha
  · rw [h] at ha; cases ha
    rw [← String.toList_inj, hs]
    simp

theorem reads_name {opts : List Opt} (hg : GoodOptions opts) {w : String} {o : Opt} (hn : NameOf opts w o) :
    Reads opts w (w, .option o.flag none) := by
  refine ⟨rfl, (classify_option hg w o (name_mem hn) none).2 ?_⟩
  obtain ⟨h1, h2⟩ := namePart_plain (name_plain hg hn)
  rw [h1, h2, String.ofList_toList]
  exact ⟨hn, rfl⟩

theorem reads_equals {opts : List Opt} (hg : GoodOptions opts) {w : String} (a : String) {o : Opt}
    (hn : NameOf opts w o) : Reads opts (w ++ "=" ++ a) (w ++ "=" ++ a, .option o.flag (some a)) := by
  refine ⟨rfl, (classify_option hg _ o (name_mem hn) (some a)).2 ?_⟩
  obtain ⟨h1, h2⟩ := namePart_equals (name_plain hg hn) (s := w ++ "=" ++ a) (a := a.toList) (by simp)
  rw [h1, h2, String.ofList_toList, String.ofList_toList]
  exact ⟨hn, rfl⟩

theorem reads_value {opts : List Opt} (hg : GoodOptions opts) {a : String} (h : ArgumentWord opts a) :
    Reads opts a (a, .value) := ⟨rfl, (classify_value hg a).2 h⟩

theorem isValue_iff (w : Word) : w.isValue = true ↔ w = .value := by
  cases w <;> simp [Word.isValue]

theorem typed_of_consume {opts : List Opt} (hg : GoodOptions opts) (n : ℕ) :
    ∀ (argv : List String) (words : List (String × Word)) (given : List Given), words.length ≤ n →
      List.Forall₂ (Reads opts) argv words → consume opts words = .ok (given, []) → TypedAs opts argv given := by
  induction n with
  | zero =>
    intro argv words given hl hf hc
    have : words = [] := List.length_eq_zero_iff.1 (Nat.le_zero.1 hl)
    subst this
    cases hf
    simp only [consume, Except.ok.injEq, Prod.mk.injEq] at hc
    rw [← hc.1]
    exact .nil
  | succ n ih =>
    intro argv words given hl hf hc
    cases hf with
    | nil =>
      simp only [consume, Except.ok.injEq, Prod.mk.injEq] at hc
      rw [← hc.1]
      exact .nil
    | @cons s p argv words hp hf =>
      obtain ⟨s', w⟩ := p
      obtain ⟨rfl, hw⟩ := hp
      simp only at hw
      have hl' : words.length ≤ n := by simpa using hl
      cases w with
      | value =>
        rw [consume] at hc
        obtain ⟨g, e, _, he⟩ := consume_bind (f := fun g => g) (g := fun e => s' :: e) hc
        simp at he
      | unknown =>
        rw [consume] at hc
        obtain ⟨g, e, _, he⟩ := consume_bind (f := fun g => g) (g := fun e => s' :: e) hc
        simp at he
      | option flag arg =>
        rw [consume_option] at hc
        split at hc
        · cases hc
        · rename_i o hfind
          obtain ⟨ho, rfl⟩ := (find_iff hg flag o).1 hfind
          split at hc
          · rename_i b hact
            obtain ⟨g, e, hrec, he⟩ := consume_bind (f := fun g => ⟨o.flag, []⟩ :: g) (g := fun e => e) hc
            simp only [Prod.mk.injEq] at he
            obtain ⟨rfl, rfl⟩ := he
            exact .switch s' o b argv g (word_option hg ho hw) hact (ih argv words g hl' hf hrec)
          · cases hc
          · rename_i t ch a hact
            obtain ⟨g, e, hrec, he⟩ := consume_bind (f := fun g => ⟨o.flag, [a]⟩ :: g) (g := fun e => e) hc
            simp only [Prod.mk.injEq] at he
            obtain ⟨rfl, rfl⟩ := he
            obtain ⟨w, rfl, hn⟩ := word_equals hg ho hw
            exact .equals w a o argv g hn (by rw [hact]; simp) (ih argv words g hl' hf hrec)
          · rename_i t a hact
            obtain ⟨g, e, hrec, he⟩ := consume_bind (f := fun g => ⟨o.flag, [a]⟩ :: g) (g := fun e => e) hc
            simp only [Prod.mk.injEq] at he
            obtain ⟨rfl, rfl⟩ := he
            obtain ⟨w, rfl, hn⟩ := word_equals hg ho hw
            exact .equals w a o argv g hn (by rw [hact]; simp) (ih argv words g hl' hf hrec)
          · rename_i t ch hact
            split at hc
            · rename_i a words'
              cases hf with
              | @cons a' _ argv _ hp hf =>
                obtain ⟨rfl, hv⟩ := hp
                obtain ⟨g, e, hrec, he⟩ := consume_bind (f := fun g => ⟨o.flag, [a]⟩ :: g) (g := fun e => e) hc
                simp only [Prod.mk.injEq] at he
                obtain ⟨rfl, rfl⟩ := he
                refine .one s' a o t ch argv g (word_option hg ho hw) hact ((classify_value hg a).1 hv) ?_
                refine ih argv words' g ?_ hf hrec
                simp only [List.length_cons] at hl'
                omega
            · cases hc
          · rename_i t hact
            split at hc
            · cases hc
            · rename_i hne
              obtain ⟨g, e, hrec, he⟩ := consume_bind
                (f := fun g => ⟨o.flag, (words.takeWhile (·.2.isValue)).map Prod.fst⟩ :: g) (g := fun e => e) hc
              simp only [Prod.mk.injEq] at he
              obtain ⟨rfl, rfl⟩ := he
              have hsplit := List.takeWhile_append_dropWhile (p := fun x : String × Word => x.2.isValue) (l := words)
              have hf' := hf
              rw [← hsplit] at hf'
              have h1 := List.forall₂_take_append _ _ _ hf'
              have h2 := List.forall₂_drop_append _ _ _ hf'
              generalize hk : (words.takeWhile fun x => x.2.isValue).length = k at h1 h2
              have hmap : argv.take k = (words.takeWhile fun x => x.2.isValue).map Prod.fst := by
                clear hf' hsplit hrec hne hk
                generalize words.takeWhile (fun x => x.2.isValue) = ws at h1
                generalize argv.take k = as at h1
                induction h1 with
                | nil => rfl
                | cons h _ ih' => rw [List.map_cons, h.1, ih']
              have hargv : argv = (words.takeWhile fun x => x.2.isValue).map Prod.fst ++ argv.drop k := by
                rw [← hmap, List.take_append_drop]
              rw [hargv]
              refine .many s' _ o t _ g (word_option hg ho hw) hact (by simpa using hne) ?_ ?_ ?_
              · intro a ha
                obtain ⟨p, hp, rfl⟩ := List.mem_map.1 ha
                have hv := List.mem_takeWhile_imp hp
                rw [isValue_iff] at hv
                have : ∀ {l : List String} {ws : List (String × Word)}, List.Forall₂ (Reads opts) l ws → p ∈ ws →
                    classify (flagsOf opts) p.1 = .ok p.2 := by
                  intro l ws h
                  induction h with
                  | nil => simp
                  | cons h _ ih' =>
                    intro hm
                    rcases List.mem_cons.1 hm with rfl | hm
                    · rw [h.1, h.2]
                    · exact ih' hm
                have hcl := this h1 hp
                rw [hv] at hcl
                exact (classify_value hg _).1 hcl
              · intro a ha hav
                rcases hd : argv.drop k with _ | ⟨b, bs⟩
                · rw [hd] at ha; simp at ha
                · rw [hd] at ha h2
                  simp only [List.head?_cons, Option.some.injEq] at ha
                  subst ha
                  have hnot := List.head?_dropWhile_not (fun x : String × Word => x.2.isValue) words
                  generalize words.dropWhile (fun x => x.2.isValue) = ds at h2 hnot
                  cases h2 with
                  | cons h _ =>
                    have := (reads_value hg hav).2
                    rw [h.2] at this
                    simp only [Except.ok.injEq] at this
                    simp [this, Word.isValue] at hnot
              · refine ih _ _ g ?_ h2 hrec
                have := (List.dropWhile_suffix (l := words) (fun x : String × Word => x.2.isValue)).length_le
                omega

theorem consume_of_typed {opts : List Opt} (hg : GoodOptions opts) {argv : List String} {given : List Given}
    (h : TypedAs opts argv given) :
    ∃ words, List.Forall₂ (Reads opts) argv words ∧ consume opts words = .ok (given, []) := by
  induction h with
  | nil => exact ⟨[], .nil, by rw [consume]⟩
  | switch w o b argv given hn ha _ ih =>
    obtain ⟨words, hf, hc⟩ := ih
    refine ⟨_, .cons (reads_name hg hn) hf, ?_⟩
    rw [consume_option, (find_iff hg _ o).2 ⟨name_mem hn, rfl⟩]
    simp only [ha, hc]
    rfl
  | equals w a o argv given hn ha _ ih =>
    obtain ⟨words, hf, hc⟩ := ih
    refine ⟨_, .cons (reads_equals hg a hn) hf, ?_⟩
    rw [consume_option, (find_iff hg _ o).2 ⟨name_mem hn, rfl⟩]
    rcases hact : o.action with ⟨t, ch⟩ | ⟨t⟩ | ⟨b⟩
    · simp only [hact, hc]
      rfl
    · simp only [hact, hc]
      rfl
    · exact absurd hact (ha b)
  | one w a o t ch argv given hn ha hv _ ih =>
    obtain ⟨words, hf, hc⟩ := ih
    refine ⟨_, .cons (reads_name hg hn) (.cons (reads_value hg hv) hf), ?_⟩
    rw [consume_option, (find_iff hg _ o).2 ⟨name_mem hn, rfl⟩]
    simp only [ha, hc]
    rfl
  | many w as o t argv given hn ha hne hv hend _ ih =>
    obtain ⟨words, hf, hc⟩ := ih
    have hvs : List.Forall₂ (Reads opts) as (as.map fun a => (a, Word.value)) := by
      clear hne
      induction as with
      | nil => exact .nil
      | cons a as ih' =>
        exact .cons (reads_value hg (hv a (List.mem_cons_self ..))) (ih' fun b hb => hv b (List.mem_cons_of_mem _ hb))
    have hall : ∀ p ∈ as.map (fun a => (a, Word.value)), (fun x : String × Word => x.2.isValue) p = true := by
      intro p hp
      obtain ⟨a, _, rfl⟩ := List.mem_map.1 hp
      rfl
    have htake : words.takeWhile (fun x => x.2.isValue) = [] ∧ words.dropWhile (fun x => x.2.isValue) = words := by
      cases hf with
      | nil => exact ⟨rfl, rfl⟩
      | @cons a p argv words hp hf =>
        have hnv : p.2.isValue = false := by
          by_contra hcon
          rw [Bool.not_eq_false, isValue_iff] at hcon
          have := hp.2
          rw [hcon] at this
          exact hend a rfl ((classify_value hg a).1 this)
        rw [List.takeWhile_cons, List.dropWhile_cons, hnv]
        simp
    refine ⟨_, .cons (reads_name hg hn) (List.rel_append hvs hf), ?_⟩
    rw [consume_option, (find_iff hg _ o).2 ⟨name_mem hn, rfl⟩]
    simp only [ha]
    rw [List.takeWhile_append_of_pos hall, List.dropWhile_append_of_pos hall, htake.1, htake.2, List.append_nil, if_neg]
    · simp only [hc, List.map_map]
      have : (Prod.fst ∘ fun a : String => (a, Word.value)) = id := rfl
      rw [this, List.map_id]
      rfl
    · simpa using hne

theorem no_dashes {opts : List Opt} (hg : GoodOptions opts) {argv : List String} {given : List Given}
    (h : TypedAs opts argv given) : "--" ∉ argv := by
  have hlist : "--".toList = ['-', '-'] := rfl
  have hname : ∀ {w o}, NameOf opts w o → w ≠ "--" := by
    rintro w o hn rfl
    obtain ⟨c, cs, h⟩ := name_dashes hg hn
    rw [hlist] at h
    simp at h
  have heq : ∀ {w o} a, NameOf opts w o → w ++ "=" ++ a ≠ "--" := by
    intro w o a hn h
    obtain ⟨c, cs, hw⟩ := name_dashes hg hn
    have := congrArg String.toList h
    rw [hlist] at this
    simp [hw] at this
  have hval : ∀ {a}, ArgumentWord opts a → a ≠ "--" := by
    rintro a h rfl
    rcases h with h | h | ⟨_, _, h⟩
    · exact h rfl
    · revert h; decide
    · exact h "--".toList List.prefix_rfl (by decide) (.inl rfl) "--help" (by simp [flagsOf]) ⟨"help".toList, rfl⟩
  induction h with
  | nil => simp
  | switch w o b argv given hn ha _ ih =>
    rw [List.mem_cons, not_or]
    exact ⟨(hname hn).symm, ih⟩
  | equals w a o argv given hn ha _ ih =>
    rw [List.mem_cons, not_or]
    exact ⟨(heq a hn).symm, ih⟩
  | one w a o t ch argv given hn ha hv _ ih =>
    rw [List.mem_cons, List.mem_cons, not_or, not_or]
    exact ⟨(hname hn).symm, (hval hv).symm, ih⟩
  | many w as o t argv given hn ha hne hv hend _ ih =>
    rw [List.mem_cons, List.mem_append, not_or, not_or]
    exact ⟨(hname hn).symm, fun h => hval (hv _ h) rfl, ih⟩

theorem split_of_typed {opts : List Opt} (hg : GoodOptions opts) {argv : List String} {given : List Given}
    (h : TypedAs opts argv given) : splitArgv opts argv = .ok (given, []) := by
  have hno := no_dashes hg h
  have hp : ∀ s ∈ argv, decide (s ≠ "--") = true := by
    intro s hs
    simp
    rintro rfl
    exact hno hs
  obtain ⟨words, hf, hc⟩ := consume_of_typed hg h
  rw [splitArgv, List.takeWhile_eq_self_iff.2 hp, List.dropWhile_eq_nil_iff.2 hp, (mapM_iff opts argv words).2 hf]
  simp only [bind, Except.bind, hc, pure, Except.pure, List.append_nil]

theorem same_flags {opts opts' : List Opt}
    (h : opts.map (fun o => (o.flag, o.action)) = opts'.map fun o => (o.flag, o.action)) :
    flagsOf opts = flagsOf opts' := by
  have := congrArg (List.map Prod.fst) h
  simp only [List.map_map] at this
  simp only [flagsOf]
  have h1 : (fun x : Opt => x.flag) = Prod.fst ∘ fun o : Opt => (o.flag, o.action) := rfl
  rw [h1, this]

theorem same_name {opts opts' : List Opt}
    (h : opts.map (fun o => (o.flag, o.action)) = opts'.map fun o => (o.flag, o.action)) {w : String} {o : Opt}
    (hn : NameOf opts w o) : ∃ o', NameOf opts' w o' ∧ o'.flag = o.flag ∧ o'.action = o.action := by
  have hm : (o.flag, o.action) ∈ opts'.map fun o => (o.flag, o.action) := by
    rw [← h]
    exact List.mem_map.2 ⟨o, name_mem hn, rfl⟩
  obtain ⟨o', ho', he⟩ := List.mem_map.1 hm
  simp only [Prod.mk.injEq] at he
  refine ⟨o', ?_, he⟩
  cases hn with
  | whole _ ho => rw [← he.1]; exact .whole o' ho'
  | short _ _ ho hd hw hu =>
    refine .short w o' ho' hd (he.1 ▸ hw) ?_
    rw [← same_flags h, he.1]
    exact hu

theorem same_typed {opts opts' : List Opt}
    (h : opts.map (fun o => (o.flag, o.action)) = opts'.map fun o => (o.flag, o.action)) {argv : List String}
    {given : List Given} (ht : TypedAs opts argv given) : TypedAs opts' argv given := by
  have hw : ∀ a, ArgumentWord opts a ↔ ArgumentWord opts' a := by
    intro a
    simp only [ArgumentWord, same_flags h]
  induction ht with
  | nil => exact .nil
  | switch w o b argv given hn ha _ ih =>
    obtain ⟨o', hn', hf, hact⟩ := same_name h hn
    rw [← hf]
    exact .switch w o' b argv given hn' (hact.trans ha) ih
  | equals w a o argv given hn ha _ ih =>
    obtain ⟨o', hn', hf, hact⟩ := same_name h hn
    rw [← hf]
    exact .equals w a o' argv given hn' (by rw [hact]; exact ha) ih
  | one w a o t ch argv given hn ha hv _ ih =>
    obtain ⟨o', hn', hf, hact⟩ := same_name h hn
    rw [← hf]
    exact .one w a o' t ch argv given hn' (hact.trans ha) ((hw a).1 hv) ih
  | many w as o t argv given hn ha hne hv hend _ ih =>
    obtain ⟨o', hn', hf, hact⟩ := same_name h hn
    rw [← hf]
    exact .many w as o' t argv given hn' (hact.trans ha) hne (fun a ha => (hw a).1 (hv a ha))
      (fun a ha hav => hend a ha ((hw a).2 hav)) ih

theorem setDefaults_same (opts : List Opt) (d : List (String × Val)) :
    (setDefaults opts d).map (fun o => (o.flag, o.action)) = opts.map fun o => (o.flag, o.action) := by
  rw [setDefaults, List.map_map]
  rfl

theorem setDefaults_good {opts : List Opt} (hg : GoodOptions opts) (d : List (String × Val)) :
    GoodOptions (setDefaults opts d) := by
  refine ⟨?_, ?_, ?_⟩
  · intro o ho
    obtain ⟨o', ho', rfl⟩ := List.mem_map.1 ho
    exact hg.dashes o' ho'
  · intro o ho
    obtain ⟨o', ho', rfl⟩ := List.mem_map.1 ho
    exact hg.plain o' ho'
  · rw [same_flags (setDefaults_same opts d)]
    exact hg.distinct

/-- A check of the names. -/
def goodName (f : String) : Bool :=
  (match f.toList with
    | '-' :: '-' :: _ :: _ => true
    | _ => false) && !f.toList.contains '='

theorem good_of {opts : List Opt} (h : ∀ f ∈ opts.map (·.flag), goodName f = true) (hd : (flagsOf opts).Nodup) :
    GoodOptions opts := by
  have h' : ∀ o ∈ opts, goodName o.flag = true := fun o ho => h _ (List.mem_map.2 ⟨o, ho, rfl⟩)
  refine ⟨?_, ?_, hd⟩
  · intro o ho
    have := h' o ho
    simp only [goodName, Bool.and_eq_true] at this
    obtain ⟨this, _⟩ := this
    split at this
    · rename_i c cs hc
      exact ⟨c, cs, hc⟩
    · simp at this
  · intro o ho hm
    have := h' o ho
    simp [goodName] at this
    exact this.2 hm

theorem not_value {opts : List Opt} (hg : GoodOptions opts) {w : String} {o : Opt} (hn : NameOf opts w o) :
    ¬ ArgumentWord opts w := by
  intro h
  have h1 := (reads_name hg hn).2
  rw [(reads_value hg h).2] at h1
  cases h1

theorem not_value_equals {opts : List Opt} (hg : GoodOptions opts) {w : String} {o : Opt} (hn : NameOf opts w o)
    (a : String) : ¬ ArgumentWord opts (w ++ "=" ++ a) := by
  intro h
  have h1 := (reads_equals hg a hn).2
  rw [(reads_value hg h).2] at h1
  cases h1

end Argv

open Argv

/-- **C130.** The options with arguments that a parser finds in a command line are exactly those that the command line
means, and it is refused if it means nothing. -/
theorem C130_exactly {opts : List Opt} (hg : GoodOptions opts) (argv : List String) (given : List Given) :
    typedArgs opts argv = .ok given ↔ TypedAs opts argv given := by
  constructor
  · intro h
    rw [typedArgs] at h
    rcases hs : splitArgv opts argv with e | ⟨g, extras⟩
    · rw [hs] at h; cases h
    · rw [hs] at h
      by_cases hex : extras = []
      · subst hex
        cases h
        rw [splitArgv] at hs
        rcases hm : (argv.takeWhile (· ≠ "--")).mapM (classified (flagsOf opts)) with e | words
        · rw [hm] at hs; cases hs
        · rw [hm] at hs
          rcases hc : consume opts words with e | ⟨g', extras⟩
          · simp only [bind, Except.bind, hc] at hs; cases hs
          · simp only [bind, Except.bind, hc, pure, Except.pure, Except.ok.injEq, Prod.mk.injEq,
              List.append_eq_nil_iff] at hs
            obtain ⟨rfl, rfl, hdrop⟩ := hs
            rw [List.takeWhile_eq_self_iff.2 (List.dropWhile_eq_nil_iff.1 hdrop)] at hm
            exact typed_of_consume hg words.length argv words g' le_rfl ((mapM_iff opts argv words).1 hm) hc
      · exfalso
        simp [bind, Except.bind, raiseIf, hex] at h
  · intro h
    rw [typedArgs, split_of_typed hg h]
    rfl

/-- **C130.** A command line has at most one meaning. -/
theorem C130_one_meaning {opts : List Opt} (hg : GoodOptions opts) {argv : List String} {given given' : List Given}
    (h : TypedAs opts argv given) (h' : TypedAs opts argv given') : given = given' := by
  rw [← C130_exactly hg] at h h'
  rw [h] at h'
  cases h'
  rfl

/-- **C130.** What can be said on a command line: the options that exist, with the right number of arguments; and it is
said by typing them one after the other. -/
theorem C130_typable {opts : List Opt} (hg : GoodOptions opts) (given : List Given) :
    ((∀ g ∈ given, Typable opts g) → TypedAs opts (given.flatMap spelled) given) ∧
    ((∃ argv, TypedAs opts argv given) → ∀ g ∈ given, Typable opts g) := by
  constructor
  · intro h
    induction given with
    | nil => exact .nil
    | cons g given ih =>
      have ih := ih fun g' hg' => h g' (List.mem_cons_of_mem _ hg')
      have hrest : ∀ g' ∈ given, Typable opts g' := fun g' hg' => h g' (List.mem_cons_of_mem _ hg')
      obtain ⟨o, ho, hof, hact⟩ := h g (List.mem_cons_self ..)
      obtain ⟨flag, args⟩ := g
      simp only at hof hact
      subst hof
      have hend : ∀ a, (given.flatMap spelled).head? = some a → ¬ ArgumentWord opts a := by
        intro a ha
        rcases given with _ | ⟨g', given⟩
        · simp at ha
        · obtain ⟨o', ho', hof', _⟩ := hrest g' (List.mem_cons_self ..)
          rw [List.flatMap_cons] at ha
          have hn' : NameOf opts g'.flag o' := hof' ▸ .whole o' ho'
          have : a = g'.flag ∨ ∃ b, a = g'.flag ++ "=" ++ b := by
            unfold spelled at ha
            split at ha
            · right
              rename_i b _
              refine ⟨b, ?_⟩
              simp only [List.cons_append, List.head?_cons, Option.some.injEq] at ha
              exact ha.symm
            · left
              simp only [List.cons_append, List.head?_cons, Option.some.injEq] at ha
              exact ha.symm
          rcases this with rfl | ⟨b, rfl⟩
          · exact not_value hg hn'
          · exact not_value_equals hg hn' b
      rw [List.flatMap_cons]
      rcases ha : o.action with ⟨t, ch⟩ | ⟨t⟩ | ⟨b⟩
      · rw [ha] at hact
        obtain ⟨a, rfl⟩ := hact
        exact .equals o.flag a o _ given (.whole o ho) (by rw [ha]; simp) ih
      · rw [ha] at hact
        rcases hact with ⟨a, rfl⟩ | ⟨hne, hall⟩
        · exact .equals o.flag a o _ given (.whole o ho) (by rw [ha]; simp) ih
        · rcases args with _ | ⟨a, _ | ⟨b, args⟩⟩
          · exact absurd rfl hne
          · exact .equals o.flag a o _ given (.whole o ho) (by rw [ha]; simp) ih
          · exact .many o.flag (a :: b :: args) o t _ given (.whole o ho) ha hne hall hend ih
      · rw [ha] at hact
        simp only at hact
        subst hact
        exact .switch o.flag o b _ given (.whole o ho) ha ih
  · rintro ⟨argv, ht⟩
    induction ht with
    | nil => simp
    | switch w o b argv given hn ha _ ih =>
      refine List.forall_mem_cons.2 ⟨⟨o, name_mem hn, rfl, ?_⟩, ih⟩
      rw [ha]
    | equals w a o argv given hn ha _ ih =>
      refine List.forall_mem_cons.2 ⟨⟨o, name_mem hn, rfl, ?_⟩, ih⟩
      rcases hact : o.action with ⟨t, ch⟩ | ⟨t⟩ | ⟨b⟩
      · exact ⟨a, rfl⟩
      · exact .inl ⟨a, rfl⟩
      · exact absurd hact (ha b)
    | one w a o t ch argv given hn ha hv _ ih =>
      refine List.forall_mem_cons.2 ⟨⟨o, name_mem hn, rfl, ?_⟩, ih⟩
      rw [ha]
      exact ⟨a, rfl⟩
    | many w as o t argv given hn ha hne hv hend _ ih =>
      refine List.forall_mem_cons.2 ⟨⟨o, name_mem hn, rfl, ?_⟩, ih⟩
      rw [ha]
      exact .inr ⟨hne, hv⟩

/-- **C130.** A whole name means that option, also if the names of others begin with it. -/
theorem C130_whole_name {opts : List Opt} (hg : GoodOptions opts) {o o' : Opt} (ho : o ∈ opts) :
    NameOf opts o.flag o' ↔ o' = o := by
  constructor
  · intro h
    have hf : o'.flag = o.flag := by
      rcases name_cases h with h | ⟨_, hu⟩
      · exact h.symm
      · exact (hu o.flag (flag_mem ho) List.prefix_rfl).symm
    have h1 := (find_iff hg o.flag o).2 ⟨ho, rfl⟩
    rw [(find_iff hg o.flag o').2 ⟨name_mem h, hf⟩] at h1
    exact Option.some.inj h1
  · rintro rfl
    exact .whole _ ho

/-- **C130.** Every word of a command line that means something is a name of an option, such a name with an argument, or
an argument. -/
theorem C130_words {opts : List Opt} {argv : List String} {given : List Given} (h : TypedAs opts argv given) (s : String)
    (hs : s ∈ argv) :
    (∃ o, NameOf opts s o) ∨ (∃ w a o, s = w ++ "=" ++ a ∧ NameOf opts w o) ∨ ArgumentWord opts s := by
  induction h with
  | nil => simp at hs
  | switch w o b argv given hn ha _ ih =>
    rcases List.mem_cons.1 hs with rfl | hs
    · exact .inl ⟨o, hn⟩
    · exact ih hs
  | equals w a o argv given hn ha _ ih =>
    rcases List.mem_cons.1 hs with rfl | hs
    · exact .inr (.inl ⟨w, a, o, rfl, hn⟩)
    · exact ih hs
  | one w a o t ch argv given hn ha hv _ ih =>
    rcases List.mem_cons.1 hs with rfl | hs
    · exact .inl ⟨o, hn⟩
    · rcases List.mem_cons.1 hs with rfl | hs
      · exact .inr (.inr hv)
      · exact ih hs
  | many w as o t argv given hn ha hne hv hend _ ih =>
    rcases List.mem_cons.1 hs with rfl | hs
    · exact .inl ⟨o, hn⟩
    · rcases List.mem_append.1 hs with hs | hs
      · exact .inr (.inr (hv s hs))
      · exact ih hs

/-- **C130.** A beginning that two options share is refused, unless it is itself a name. -/
theorem C130_ambiguous {opts : List Opt} (hg : GoodOptions opts) {w f g : String} (hd : "--".toList <+: w.toList)
    (hw : w ∉ flagsOf opts) (hf : f ∈ flagsOf opts) (hgm : g ∈ flagsOf opts) (hne : f ≠ g)
    (hwf : w.toList <+: f.toList) (hwg : w.toList <+: g.toList) (argv : List String) (s : String)
    (hs : s = w ∨ ∃ a, s = w ++ "=" ++ a) (hmem : s ∈ argv) : ∃ e, typedArgs opts argv = .error e := by
  rcases ht : typedArgs opts argv with e | given
  · exact ⟨e, rfl⟩
  · exfalso
    rw [C130_exactly hg] at ht
    have hplain : '=' ∉ w.toList := fun h => flags_plain hg hf (hwf.subset h)
    have hno : ∀ o, ¬ NameOf opts w o := by
      intro o hn
      rcases name_cases hn with h | ⟨_, hu⟩
      · exact hw (h ▸ flag_mem (name_mem hn))
      · exact hne ((hu f hf hwf).trans (hu g hgm hwg).symm)
    have hnv : ∀ a, ¬ (s = w ∨ s = w ++ "=" ++ a) ∨ ¬ ArgumentWord opts s := by
      intro a
      by_contra hcon
      push Not at hcon
      obtain ⟨hsw, hv⟩ := hcon
      have hhead : s.toList.head? = some '-' ∧ s ≠ "-" ∧ (w.toList = s.toList ∨ ∃ a, s.toList = w.toList ++ '=' :: a) := by
        obtain ⟨r, hr⟩ := hd
        have hr' : w.toList = '-' :: '-' :: r := by rw [← hr]; rfl
        rcases hsw with rfl | rfl
        · refine ⟨by rw [hr']; rfl, ?_, .inl rfl⟩
          intro h
          have := congrArg String.toList h
          rw [hr'] at this
          simp at this
        · refine ⟨by simp [hr'], ?_, .inr ⟨a.toList, by simp⟩⟩
          intro h
          have := congrArg String.toList h
          simp [hr'] at this
      rcases hv with h | h | ⟨_, _, h⟩
      · exact h hhead.1
      · exact hhead.2.1 h
      · exact h w.toList hd hplain hhead.2.2 f hf hwf
    rcases C130_words ht s hmem with ⟨o, hn⟩ | ⟨w', a', o, hsw, hn⟩ | hv
    · rcases hs with rfl | ⟨a, rfl⟩
      · exact hno o hn
      · exact name_plain hg hn (by simp)
    · rcases hs with rfl | ⟨a, rfl⟩
      · exact hplain (by rw [hsw]; simp)
      · have h1 := namePart_equals hplain (s := w ++ "=" ++ a) (a := a.toList) (by simp)
        have h2 := namePart_equals (name_plain hg hn) (s := w ++ "=" ++ a) (a := a'.toList) (by rw [hsw]; simp)
        rw [h1.1, String.toList_inj] at h2
        exact hno o (h2.1 ▸ hn)
    · rcases hs with rfl | ⟨a, rfl⟩
      · exact (hnv "").elim (fun h => h (.inl rfl)) fun h => h hv
      · exact (hnv a).elim (fun h => h (.inr rfl)) fun h => h hv

/-- **C130.** The options of the programs are as the theorems ask. -/
theorem C130_options : GoodOptions buildParser ∧ (∀ p, GoodOptions (scriptParser p)) ∧ GoodOptions builderParser := by
  refine ⟨good_of (by decide) (by decide), ?_, good_of (by decide) (by decide)⟩
  rintro ((_ | _ | _) | _) <;> exact good_of (by decide) (by decide)

/-- **C130.** The command line program does with the words what it does with the options they mean (C89); if they mean
nothing, it ends with an error before it does anything. -/
theorem C130_cli (cv : Conversions) (files : String → Except String Doc) (argv : List String) :
    (∀ given, TypedAs buildParser argv given → cliArgv cv files argv = cliMain cv files given) ∧
    ((∀ given, ¬ TypedAs buildParser argv given) → ∃ e, cliArgv cv files argv = ([], .error e)) := by
  have hg := C130_options.1
  constructor
  · intro given ht
    have hread : readArgv cv files argv = readArgs cv files given := by
      rw [readArgv, readArgs, split_of_typed hg ht]
      simp only [bind, Except.bind]
      rcases configIn cv buildParser given with e | v
      · rfl
      · simp only
        rcases configDefaults cv files v with e | d
        · rfl
        · simp only
          rw [(C130_exactly (setDefaults_good hg d) argv given).2 (same_typed (setDefaults_same _ d).symm ht)]
    rw [cliArgv, cliMain, hread]
    rfl
  · intro hno
    have hread : ∃ e, readArgv cv files argv = .error e := by
      rw [readArgv]
      rcases splitArgv buildParser argv with e | ⟨first, rest⟩
      · exact ⟨e, rfl⟩
      · simp only [bind, Except.bind]
        rcases configIn cv buildParser first with e | v
        · exact ⟨e, rfl⟩
        · simp only
          rcases configDefaults cv files v with e | d
          · exact ⟨e, rfl⟩
          · simp only
            rcases ht : typedArgs (setDefaults buildParser d) argv with e | given
            · exact ⟨e, rfl⟩
            · rw [C130_exactly (setDefaults_good hg d)] at ht
              exact absurd (same_typed (setDefaults_same _ d) ht) (hno given)
    obtain ⟨e, he⟩ := hread
    exact ⟨e, by rw [cliArgv, he]⟩

/-- **C130.** The same for the settings of the example scripts (C119) and the namespace of the dataset builder (C96). -/
theorem C130_scripts (cv : Conversions) (argv : List String) :
    (∀ p given, TypedAs (scriptParser p) argv given → scriptArgv cv p argv = scriptSettings cv p given) ∧
    (∀ p, (∀ given, ¬ TypedAs (scriptParser p) argv given) → ∃ e, scriptArgv cv p argv = .error e) ∧
    (∀ given, TypedAs builderParser argv given → builderArgv cv argv = builderArgs cv given) ∧
    ((∀ given, ¬ TypedAs builderParser argv given) → ∃ e, builderArgv cv argv = .error e) := by
  obtain ⟨_, hs, hb⟩ := C130_options
  refine ⟨?_, ?_, ?_, ?_⟩
  · intro p given ht
    rw [scriptArgv, (C130_exactly (hs p) argv given).2 ht]
    rfl
  · intro p hno
    rw [scriptArgv]
    rcases ht : typedArgs (scriptParser p) argv with e | given
    · exact ⟨e, rfl⟩
    · exact absurd ((C130_exactly (hs p) argv given).1 ht) (hno given)
  · intro given ht
    rw [builderArgv, (C130_exactly hb argv given).2 ht]
    rfl
  · intro hno
    rw [builderArgv]
    rcases ht : typedArgs builderParser argv with e | given
    · exact ⟨e, rfl⟩
    · exact absurd ((C130_exactly hb argv given).1 ht) (hno given)

/-! ## Examples -/

namespace Argv

theorem name_by {opts : List Opt} {w f : String} {o : Opt} (hf : opts.find? (·.flag = f) = some o)
    (h : (['-', '-'].isPrefixOf w.toList && w.toList.isPrefixOf f.toList &&
      (flagsOf opts).all fun g => !(w.toList.isPrefixOf g.toList) || g = f) = true) : NameOf opts w o := by
  have hof : o.flag = f := by simpa using List.find?_some hf
  simp only [Bool.and_eq_true, List.isPrefixOf_iff_prefix, List.all_eq_true] at h
  refine .short w o (List.mem_of_find?_eq_some hf) h.1.1 (hof ▸ h.1.2) ?_
  intro g hg hw
  have := h.2 g hg
  rw [List.isPrefixOf_iff_prefix.2 hw] at this
  rw [hof]
  simpa using this

theorem whole_by {opts : List Opt} {f : String} {o : Opt} (hf : opts.find? (·.flag = f) = some o) : NameOf opts f o := by
  have hof : o.flag = f := by simpa using List.find?_some hf
  rw [← hof]
  exact .whole o (List.mem_of_find?_eq_some hf)

theorem negative_by {opts : List Opt} {s : String} (hn : isNegativeNumber s.toList = true)
    (h : (!(['-', 'h'].isPrefixOf s.toList) && !(['-', '-'].isPrefixOf s.toList)) = true) : ArgumentWord opts s := by
  simp only [Bool.and_eq_true, Bool.not_eq_true', ← Bool.not_eq_true, List.isPrefixOf_iff_prefix] at h
  refine .inr (.inr ⟨.inl ((isNegativeNumber_iff s).1 hn), h.1, ?_⟩)
  intro w hw _ hs f _ _
  refine h.2 ?_
  have hw' : ['-', '-'] <+: w := hw
  rcases hs with rfl | ⟨a, ha⟩
  · exact hw'
  · rw [ha]
    exact hw'.trans (List.prefix_append _ _)

end Argv

/-- `--dur -5 --room 6 4 -.5 --gif --see=3`: abbreviations, negative numbers, several arguments and an argument after
`=`; `--gif` is the switch although `--gif-fps` begins with it. -/
example : TypedAs buildParser ["--dur", "-5", "--room", "6", "4", "-.5", "--gif", "--see=3"]
    [⟨"--duration", ["-5"]⟩, ⟨"--room", ["6", "4", "-.5"]⟩, ⟨"--gif", []⟩, ⟨"--seed", ["3"]⟩] := by
  have h4 : TypedAs buildParser ["--see=3"] [⟨"--seed", ["3"]⟩] := by
    have hn : NameOf buildParser "--see" ⟨"--seed", "seed", .store .int none, .int 0⟩ :=
      name_by (f := "--seed") rfl (by decide)
    exact .equals "--see" "3" _ [] [] hn (by intro b; simp) .nil
  have h3 : TypedAs buildParser ["--gif", "--see=3"] [⟨"--gif", []⟩, ⟨"--seed", ["3"]⟩] :=
    .switch "--gif" _ true _ _ (whole_by (f := "--gif") rfl) rfl h4
  have h2 : TypedAs buildParser ("--room" :: (["6", "4", "-.5"] ++ ["--gif", "--see=3"]))
      [⟨"--room", ["6", "4", "-.5"]⟩, ⟨"--gif", []⟩, ⟨"--seed", ["3"]⟩] := by
    refine .many "--room" ["6", "4", "-.5"] _ .float _ _ (whole_by (f := "--room") rfl) rfl (by simp) ?_ ?_ h3
    · intro a ha
      simp only [List.mem_cons, List.not_mem_nil, or_false] at ha
      rcases ha with rfl | rfl | rfl
      · exact .inl (by decide)
      · exact .inl (by decide)
      · exact negative_by (by decide) (by decide)
    · intro a ha
      simp only [List.head?_cons, Option.some.injEq] at ha
      subst ha
      exact not_value C130_options.1 (whole_by (f := "--gif") rfl)
  exact .one "--dur" "-5" _ .float none _ _ (name_by (f := "--duration") rfl (by decide)) rfl
    (negative_by (by decide) (by decide)) h2

/-- `--duration -1e-3` is refused, since `-1e-3` counts as an option; `--duration=-1e-3` is not. -/
example : (∀ given, ¬ TypedAs buildParser ["--duration", "-1e-3"] given) ∧
    TypedAs buildParser ["--duration=-1e-3"] [⟨"--duration", ["-1e-3"]⟩] := by
  constructor
  · intro given h
    rcases C130_words h "-1e-3" (by simp) with ⟨o, hn⟩ | ⟨w, a, o, hs, hn⟩ | hv | hv | ⟨hv | hv, _⟩
    · obtain ⟨c, cs, hc⟩ := name_dashes C130_options.1 hn
      have : "-1e-3".toList = ['-', '1', 'e', '-', '3'] := rfl
      rw [this] at hc
      simp at hc
    · have : '=' ∈ "-1e-3".toList := by rw [hs]; simp
      revert this
      decide
    · exact hv rfl
    · revert hv
      decide
    · rw [← isNegativeNumber_iff] at hv
      revert hv
      decide
    · revert hv
      decide
  · have hn : NameOf buildParser "--duration" ⟨"--duration", "duration", .store .float none, .float (.fin 10)⟩ :=
      whole_by (f := "--duration") rfl
    exact .equals "--duration" "-1e-3" _ [] [] hn (by intro b; simp) .nil

/-- `--de` can be `--deterministic` or `--device`; `--` and what follows is refused. -/
example : (∃ e, typedArgs buildParser ["--de", "cpu"] = .error e) ∧ (∀ given, ¬ TypedAs buildParser ["--", "x"] given) :=
  ⟨C130_ambiguous (f := "--deterministic") (g := "--device") C130_options.1 ⟨['d', 'e'], rfl⟩ (by decide) (by decide)
    (by decide) (by decide) ⟨"terministic".toList, rfl⟩ ⟨"vice".toList, rfl⟩ _ "--de" (.inl rfl) (by simp),
    fun _ h => no_dashes C130_options.1 h (by simp)⟩

end Torchrir.Props
