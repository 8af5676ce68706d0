import Verif.Model.Document
import Verif.Lemmas.Ism

/-!
# C116: the metadata file can be read back
-/

namespace Torchrir.Spec

open Torchrir.Model

/-- `x` is the value or lies somewhere inside it. -/
inductive Inside (x : PyVal) : PyVal → Prop
  | self : Inside x x
  | item {v : PyVal} {items : List PyVal} (hv : v ∈ items) (hx : Inside x v) : Inside x (.list items)
  | titem {v : PyVal} {items : List PyVal} (hv : v ∈ items) (hx : Inside x v) : Inside x (.tuple items)
  | value {k : PyKey} {v : PyVal} {entries : List (PyKey × PyVal)} (hv : (k, v) ∈ entries) (hx : Inside x v) :
      Inside x (.dict entries)

/-- Nothing in the value is of a foreign type. -/
def Writable (v : PyVal) : Prop :=
  (∀ t, ¬Inside (.other t) v) ∧ ∀ entries t, Inside (.dict entries) v → PyKey.other t ∉ entries.map Prod.fst

/-- The keys of all dictionaries in the value are different strings. -/
def StringKeys (v : PyVal) : Prop :=
  ∀ entries, Inside (.dict entries) v → ∃ keys : List String, keys.Nodup ∧ entries.map Prod.fst = keys.map .str

/-- All tensors in the value have as many elements as their shape says. -/
def TensorsWF (v : PyVal) : Prop := ∀ t, Inside (.tensor t) v → t.WF

/-- The index is one of a tensor with the given shape, or the start of one. -/
def IndexWithin : List ℕ → List ℕ → Prop
  | _, [] => True
  | n :: shape, i :: index => i < n ∧ IndexWithin shape index
  | [], _ :: _ => False

/-- The place of an element among the elements in row-major order. -/
def flatIndex : List ℕ → List ℕ → ℕ
  | _ :: shape, i :: index => i * shape.prod + flatIndex shape index
  | _, _ => 0

/-- `v[i][j]…`. -/
def entryAt : PyVal → List ℕ → Option PyVal
  | v, [] => some v
  | .list items, i :: index => items[i]?.bind fun v => entryAt v index
  | _, _ :: _ => none

/-- Nested lists with the elements of a tensor: a full index gives the element, a shorter one a list whose length is
that of the next axis. -/
def ElementsOf (t : Tensor PyNum) (w : PyVal) : Prop :=
  ∀ index, IndexWithin t.shape index →
    (index.length = t.shape.length → entryAt w index = (t.data[flatIndex t.shape index]?).map .num) ∧
    ∀ n, t.shape[index.length]? = some n → ∃ items, entryAt w index = some (.list items) ∧ items.length = n

/-- The second value says the same as the first with lists, numbers, strings and dictionaries only. -/
inductive SameData : PyVal → PyVal → Prop
  | none : SameData .none .none
  | bool (b : Bool) : SameData (.bool b) (.bool b)
  | num (x : PyNum) : SameData (.num x) (.num x)
  | str (s : String) : SameData (.str s) (.str s)
  | path (p : String) : SameData (.path p) (.str p)
  | tensor {t : Tensor PyNum} {w : PyVal} (h : ElementsOf t w) : SameData (.tensor t) w
  | list {vs ws : List PyVal} (hlen : ws.length = vs.length)
      (h : ∀ (i : ℕ) (v w : PyVal), vs[i]? = some v → ws[i]? = some w → SameData v w) : SameData (.list vs) (.list ws)
  | tuple {vs ws : List PyVal} (hlen : ws.length = vs.length)
      (h : ∀ (i : ℕ) (v w : PyVal), vs[i]? = some v → ws[i]? = some w → SameData v w) : SameData (.tuple vs) (.list ws)
  | dict {vs ws : List (PyKey × PyVal)} (hkeys : ws.map Prod.fst = vs.map Prod.fst)
      (h : ∀ (i : ℕ) (k l : PyKey) (v w : PyVal), vs[i]? = some (k, v) → ws[i]? = some (l, w) → SameData v w) :
      SameData (.dict vs) (.dict ws)

/-- All numbers in the value are finite, so that every JSON reader accepts the file. -/
def AllFinite (v : PyVal) : Prop := ∀ x, Inside (.num (.float x)) v → ∃ r, x = .fin r

/-- `v[key]`. -/
def valueAt (key : String) : PyVal → Option PyVal
  | .dict entries => (entries.find? fun e => match e.1 with
      | .str s => s == key
      | _ => false).map Prod.snd
  | _ => none

/-- `v[key][key]…`. -/
def fieldAt : List String → PyVal → Option PyVal
  | [], v => some v
  | key :: keys, v => (valueAt key v).bind (fieldAt keys)

end Torchrir.Spec

namespace Torchrir.Props

open Torchrir.Model Torchrir.Spec Torchrir.Lemmas

/-! ## Induction -/

section Induction

set_option linter.unusedSectionVars false

variable {P : PyVal → Prop} (h0 : P .none) (h1 : ∀ b, P (.bool b)) (h2 : ∀ x, P (.num x)) (h3 : ∀ s, P (.str s))
  (h4 : ∀ t, P (.tensor t)) (h5 : ∀ p, P (.path p)) (h6 : ∀ entries, (∀ e ∈ entries, P e.2) → P (.dict entries))
  (h7 : ∀ items, (∀ v ∈ items, P v) → P (.list items)) (h8 : ∀ items, (∀ v ∈ items, P v) → P (.tuple items))
  (h9 : ∀ t, P (.other t))
include h0 h1 h2 h3 h4 h5 h6 h7 h8 h9

mutual
theorem pyVal_induct : ∀ v, P v
  | .none => h0
  | .bool b => h1 b
  | .num x => h2 x
  | .str s => h3 s
  | .tensor t => h4 t
  | .path p => h5 p
  | .dict entries => h6 entries (pyVal_induct_entries entries)
  | .list items => h7 items (pyVal_induct_items items)
  | .tuple items => h8 items (pyVal_induct_items items)
  | .other t => h9 t

theorem pyVal_induct_items : ∀ items : List PyVal, ∀ v ∈ items, P v
  | [] => List.forall_mem_nil _
  | v :: rest => List.forall_mem_cons.mpr ⟨pyVal_induct v, pyVal_induct_items rest⟩

theorem pyVal_induct_entries : ∀ entries : List (PyKey × PyVal), ∀ e ∈ entries, P e.2
  | [] => List.forall_mem_nil _
  | (_, v) :: rest => List.forall_mem_cons.mpr ⟨pyVal_induct v, pyVal_induct_entries rest⟩
end

end Induction

/-! ## The loops -/

theorem serialItems_eq (items : List PyVal) : toSerializableItems items = items.map toSerializable := by
  induction items with
  | nil => rfl
  | cons v rest ih => simp [toSerializableItems, ih]

theorem serialEntries_eq (entries : List (PyKey × PyVal)) :
    toSerializableEntries entries = entries.map fun e => (e.1, toSerializable e.2) := by
  induction entries with
  | nil => rfl
  | cons e rest ih => obtain ⟨k, v⟩ := e; simp [toSerializableEntries, ih]

theorem fromItems_eq (items : List Json) : fromJsonItems items = items.map fromJson := by
  induction items with
  | nil => rfl
  | cons v rest ih => simp [fromJsonItems, ih]

theorem setEntry_new (key : String) (value : PyVal) (found : List (PyKey × PyVal)) (h : .str key ∉ found.map Prod.fst) :
    setEntry key value found = found ++ [(.str key, value)] := by
  induction found with
  | nil => rfl
  | cons e rest ih =>
    obtain ⟨k, v⟩ := e
    simp only [List.map_cons, List.mem_cons, not_or] at h
    unfold setEntry
    cases k with
    | str s =>
      have : s ≠ key := fun hs => h.1 (by rw [hs])
      simp [this, ih h.2]
    | _ => simp [ih h.2]

theorem fromEntries_eq (entries : List (String × Json)) :
    ∀ found : List (PyKey × PyVal), (found.map Prod.fst ++ entries.map fun e => PyKey.str e.1).Nodup →
      fromJsonEntries found entries = found ++ entries.map fun e => (.str e.1, fromJson e.2) := by
  induction entries with
  | nil => intro found _; simp [fromJsonEntries]
  | cons e rest ih =>
    intro found h
    obtain ⟨s, j⟩ := e
    have hnew : PyKey.str s ∉ found.map Prod.fst := by
      intro hm
      simp only [List.map_cons] at h
      exact (List.nodup_append.mp h).2.2 _ hm _ (by simp) rfl
    rw [fromJsonEntries, setEntry_new _ _ _ hnew, ih]
    · simp
    · simpa using h

/-! ## Writing -/

theorem jsonItems_ok (items : List PyVal) :
    (∃ js, toJsonItems items = .ok js) ↔ ∀ v ∈ items, ∃ j, toJson v = .ok j := by
  induction items with
  | nil => simp [toJsonItems]
  | cons v rest ih =>
    simp only [toJsonItems, List.forall_mem_cons, ← ih]
    constructor
    · rintro ⟨js, h⟩
      obtain ⟨j, hj, h⟩ := (bind_eq_ok _ _ _).mp h
      obtain ⟨js', hjs, _⟩ := (bind_eq_ok _ _ _).mp h
      exact ⟨⟨j, hj⟩, ⟨js', hjs⟩⟩
    · rintro ⟨⟨j, hj⟩, ⟨js, hjs⟩⟩
      exact ⟨j :: js, by rw [hj, hjs]; rfl⟩

theorem jsonEntries_ok (entries : List (PyKey × PyVal)) :
    (∃ js, toJsonEntries entries = .ok js) ↔ ∀ e ∈ entries, (∃ s, e.1.text = .ok s) ∧ ∃ j, toJson e.2 = .ok j := by
  induction entries with
  | nil => simp [toJsonEntries]
  | cons e rest ih =>
    obtain ⟨k, v⟩ := e
    simp only [toJsonEntries, List.forall_mem_cons, ← ih]
    constructor
    · rintro ⟨js, h⟩
      obtain ⟨s, hs, h⟩ := (bind_eq_ok _ _ _).mp h
      obtain ⟨j, hj, h⟩ := (bind_eq_ok _ _ _).mp h
      obtain ⟨js', hjs, _⟩ := (bind_eq_ok _ _ _).mp h
      exact ⟨⟨⟨s, hs⟩, ⟨j, hj⟩⟩, ⟨js', hjs⟩⟩
    · rintro ⟨⟨⟨s, hs⟩, ⟨j, hj⟩⟩, ⟨js, hjs⟩⟩
      exact ⟨(s, j) :: js, by rw [hs, hj, hjs]; rfl⟩

theorem map_ok {α β : Type} (x : Except String α) (f : α → β) : (∃ b, x.map f = .ok b) ↔ ∃ a, x = .ok a := by
  cases x with
  | error e => simp [Except.map]
  | ok a => simp [Except.map]

theorem keyText_ok (k : PyKey) : (∃ s, k.text = .ok s) ↔ ∀ t, k ≠ .other t := by
  cases k <;> simp [PyKey.text]

theorem inside_list {x : PyVal} {items : List PyVal} :
    Inside x (.list items) ↔ x = .list items ∨ ∃ v ∈ items, Inside x v := by
  constructor
  · intro h
    cases h with
    | self => exact .inl rfl
    | item hv hx => exact .inr ⟨_, hv, hx⟩
  · rintro (rfl | ⟨v, hv, hx⟩)
    · exact .self
    · exact .item hv hx

theorem inside_tuple {x : PyVal} {items : List PyVal} :
    Inside x (.tuple items) ↔ x = .tuple items ∨ ∃ v ∈ items, Inside x v := by
  constructor
  · intro h
    cases h with
    | self => exact .inl rfl
    | titem hv hx => exact .inr ⟨_, hv, hx⟩
  · rintro (rfl | ⟨v, hv, hx⟩)
    · exact .self
    · exact .titem hv hx

theorem inside_dict {x : PyVal} {entries : List (PyKey × PyVal)} :
    Inside x (.dict entries) ↔ x = .dict entries ∨ ∃ e ∈ entries, Inside x e.2 := by
  constructor
  · intro h
    cases h with
    | self => exact .inl rfl
    | value hv hx => exact .inr ⟨_, hv, hx⟩
  · rintro (rfl | ⟨e, hv, hx⟩)
    · exact .self
    · exact .value (k := e.1) hv hx

theorem writable_list {items : List PyVal} : Writable (.list items) ↔ ∀ v ∈ items, Writable v := by
  constructor
  · exact fun h v hv => ⟨fun t ht => h.1 t (.item hv ht), fun e t he => h.2 e t (.item hv he)⟩
  · refine fun h => ⟨fun t ht => ?_, fun e t he => ?_⟩
    · rcases inside_list.mp ht with ht | ⟨v, hv, ht⟩
      · cases ht
      · exact (h v hv).1 t ht
    · rcases inside_list.mp he with he | ⟨v, hv, he⟩
      · cases he
      · exact (h v hv).2 e t he

theorem writable_tuple {items : List PyVal} : Writable (.tuple items) ↔ ∀ v ∈ items, Writable v := by
  constructor
  · exact fun h v hv => ⟨fun t ht => h.1 t (.titem hv ht), fun e t he => h.2 e t (.titem hv he)⟩
  · refine fun h => ⟨fun t ht => ?_, fun e t he => ?_⟩
    · rcases inside_tuple.mp ht with ht | ⟨v, hv, ht⟩
      · cases ht
      · exact (h v hv).1 t ht
    · rcases inside_tuple.mp he with he | ⟨v, hv, he⟩
      · cases he
      · exact (h v hv).2 e t he

theorem writable_dict {entries : List (PyKey × PyVal)} :
    Writable (.dict entries) ↔ ∀ e ∈ entries, (∀ t, e.1 ≠ .other t) ∧ Writable e.2 := by
  constructor
  · intro h e he
    refine ⟨fun t ht => h.2 entries t .self (ht ▸ List.mem_map_of_mem he), fun t ht => h.1 t (.value (k := e.1) he ht),
      fun d t hd => h.2 d t (.value (k := e.1) he hd)⟩
  · refine fun h => ⟨fun t ht => ?_, fun d t hd => ?_⟩
    · rcases inside_dict.mp ht with ht | ⟨e, he, ht⟩
      · cases ht
      · exact (h e he).2.1 t ht
    · rcases inside_dict.mp hd with hd | ⟨e, he, hd⟩
      · cases hd
        intro hm
        obtain ⟨e, he, hk⟩ := List.mem_map.mp hm
        exact (h e he).1 t hk
      · exact (h e he).2.2 d t hd

theorem writable_leaf {v : PyVal} (h1 : ∀ x, Inside x v → x = v) (h2 : ∀ t, v ≠ .other t) (h3 : ∀ e, v ≠ .dict e) :
    Writable v := ⟨fun t ht => h2 t (h1 _ ht).symm, fun e _ he => absurd (h1 _ he).symm (h3 e)⟩

theorem nest_json (shape : List ℕ) : ∀ d, ∃ j, toJson (nestList shape d) = .ok j := by
  induction shape with
  | nil => intro d; cases d <;> simp [nestList, toJson]
  | cons n rest ih =>
    intro d
    unfold nestList toJson
    rw [map_ok, jsonItems_ok]
    intro v hv
    obtain ⟨x, _, rfl⟩ := List.mem_map.mp hv
    exact ih x

theorem json_ok_iff (v : PyVal) : (∃ j, toJson (toSerializable v) = .ok j) ↔ Writable v := by
  induction v using pyVal_induct with
  | h0 => exact iff_of_true ⟨_, rfl⟩ (writable_leaf (fun x h => by cases h; rfl) (by simp) (by simp))
  | h1 b => exact iff_of_true ⟨_, rfl⟩ (writable_leaf (fun x h => by cases h; rfl) (by simp) (by simp))
  | h2 x => exact iff_of_true ⟨_, rfl⟩ (writable_leaf (fun x h => by cases h; rfl) (by simp) (by simp))
  | h3 s => exact iff_of_true ⟨_, rfl⟩ (writable_leaf (fun x h => by cases h; rfl) (by simp) (by simp))
  | h4 t => exact iff_of_true (nest_json _ _) (writable_leaf (fun x h => by cases h; rfl) (by simp) (by simp))
  | h5 p => exact iff_of_true ⟨_, rfl⟩ (writable_leaf (fun x h => by cases h; rfl) (by simp) (by simp))
  | h6 entries ih =>
    rw [toSerializable, toJson, map_ok, jsonEntries_ok, writable_dict, serialEntries_eq, List.forall_mem_map]
    refine forall₂_congr fun e he => ?_
    rw [keyText_ok, ih e he]
  | h7 items ih =>
    rw [toSerializable, toJson, map_ok, jsonItems_ok, writable_list, serialItems_eq, List.forall_mem_map]
    exact forall₂_congr ih
  | h8 items ih =>
    rw [toSerializable, toJson, map_ok, jsonItems_ok, writable_tuple, serialItems_eq, List.forall_mem_map]
    exact forall₂_congr ih
  | h9 t => exact iff_of_false (by simp [toSerializable, toJson]) fun h => h.1 t .self

/-! ## Reading back -/

/-- Values as `json.load` gives them. -/
inductive Canon : PyVal → Prop
  | none : Canon .none
  | bool (b : Bool) : Canon (.bool b)
  | num (x : PyNum) : Canon (.num x)
  | str (s : String) : Canon (.str s)
  | list {items : List PyVal} (h : ∀ v ∈ items, Canon v) : Canon (.list items)
  | dict {entries : List (PyKey × PyVal)} (keys : List String) (hnd : keys.Nodup)
      (hk : entries.map Prod.fst = keys.map .str) (h : ∀ e ∈ entries, Canon e.2) : Canon (.dict entries)

theorem jsonItems_back (items : List PyVal) (h : ∀ v ∈ items, ∃ j, toJson v = .ok j ∧ fromJson j = v) :
    ∃ js, toJsonItems items = .ok js ∧ js.map fromJson = items := by
  induction items with
  | nil => exact ⟨[], rfl, rfl⟩
  | cons v rest ih =>
    rw [List.forall_mem_cons] at h
    obtain ⟨j, hj, hb⟩ := h.1
    obtain ⟨js, hjs, hbs⟩ := ih h.2
    exact ⟨j :: js, by rw [toJsonItems, hj, hjs]; rfl, by simp [hb, hbs]⟩

theorem jsonEntries_back (entries : List (PyKey × PyVal)) (keys : List String) (hk : entries.map Prod.fst = keys.map .str)
    (h : ∀ e ∈ entries, ∃ j, toJson e.2 = .ok j ∧ fromJson j = e.2) :
    ∃ js, toJsonEntries entries = .ok js ∧ js.map Prod.fst = keys ∧
      (js.map fun e => (PyKey.str e.1, fromJson e.2)) = entries := by
  induction entries generalizing keys with
  | nil =>
    cases keys with
    | nil => exact ⟨[], rfl, rfl, rfl⟩
    | cons => simp at hk
  | cons e rest ih =>
    obtain ⟨k, v⟩ := e
    cases keys with
    | nil => simp at hk
    | cons s keys =>
      simp only [List.map_cons, List.cons.injEq] at hk
      rw [List.forall_mem_cons] at h
      obtain ⟨j, hj, hb⟩ := h.1
      obtain ⟨js, hjs, hkeys, hbs⟩ := ih keys hk.2 h.2
      obtain rfl := hk.1
      exact ⟨(s, j) :: js, by rw [toJsonEntries, hj, hjs]; rfl, by simp [hkeys], by simp [hb, hbs]⟩

theorem canon_back {v : PyVal} (h : Canon v) : ∃ j, toJson v = .ok j ∧ fromJson j = v := by
  induction h with
  | none => exact ⟨_, rfl, rfl⟩
  | bool b => exact ⟨_, rfl, rfl⟩
  | num x => exact ⟨_, rfl, rfl⟩
  | str s => exact ⟨_, rfl, rfl⟩
  | list _ ih =>
    obtain ⟨js, hjs, hb⟩ := jsonItems_back _ ih
    exact ⟨.arr js, by rw [toJson, hjs]; rfl, by rw [fromJson, fromItems_eq, hb]⟩
  | dict keys hnd hk _ ih =>
    obtain ⟨js, hjs, hkeys, hb⟩ := jsonEntries_back _ keys hk ih
    refine ⟨.obj js, by rw [toJson, hjs]; rfl, ?_⟩
    rw [fromJson, fromEntries_eq, List.nil_append, hb]
    have : (js.map fun e => PyKey.str e.1) = (js.map Prod.fst).map .str := by simp
    rw [List.map_nil, List.nil_append, this, hkeys]
    exact hnd.map fun a b h => by cases h; rfl

theorem canon_nest (shape : List ℕ) : ∀ d, Canon (nestList shape d) := by
  induction shape with
  | nil =>
    intro d
    cases d with
    | nil => exact .none
    | cons => exact .num _
  | cons n rest ih =>
    intro d
    refine .list fun v hv => ?_
    obtain ⟨x, _, rfl⟩ := List.mem_map.mp hv
    exact ih x

theorem canon_serial (v : PyVal) : Writable v → StringKeys v → Canon (toSerializable v) := by
  induction v using pyVal_induct with
  | h0 => exact fun _ _ => .none
  | h1 b => exact fun _ _ => .bool b
  | h2 x => exact fun _ _ => .num x
  | h3 s => exact fun _ _ => .str s
  | h4 t => exact fun _ _ => canon_nest _ _
  | h5 p => exact fun _ _ => .str p
  | h6 entries ih =>
    intro hw hk
    obtain ⟨keys, hnd, hkeys⟩ := hk entries .self
    rw [toSerializable, serialEntries_eq]
    refine .dict keys hnd (by rw [← hkeys, List.map_map]; rfl) fun e he => ?_
    obtain ⟨e, he', rfl⟩ := List.mem_map.mp he
    exact ih e he' (writable_dict.mp hw e he').2 fun d hd => hk d (.value (k := e.1) he' hd)
  | h7 items ih =>
    intro hw hk
    rw [toSerializable, serialItems_eq]
    refine .list fun v hv => ?_
    obtain ⟨v, hv', rfl⟩ := List.mem_map.mp hv
    exact ih v hv' (writable_list.mp hw v hv') fun d hd => hk d (.item hv' hd)
  | h8 items ih =>
    intro hw hk
    rw [toSerializable, serialItems_eq]
    refine .list fun v hv => ?_
    obtain ⟨v, hv', rfl⟩ := List.mem_map.mp hv
    exact ih v hv' (writable_tuple.mp hw v hv') fun d hd => hk d (.titem hv' hd)
  | h9 t => exact fun hw _ => absurd .self (hw.1 t)

/-! ## The same data -/

theorem flat_lt (shape : List ℕ) : ∀ index, IndexWithin shape index → index.length = shape.length → flatIndex shape index < shape.prod := by
  induction shape with
  | nil => intro index _ hl; simp [flatIndex]
  | cons n rest ih =>
    intro index hw hl
    cases index with
    | nil => simp at hl
    | cons i index =>
      have := ih index hw.2 (by simpa using hl)
      rw [flatIndex, List.prod_cons]
      calc i * rest.prod + flatIndex rest index < i * rest.prod + rest.prod := by omega
        _ = (i + 1) * rest.prod := by ring
        _ ≤ n * rest.prod := Nat.mul_le_mul_right _ hw.1

theorem nest_elements (shape : List ℕ) : ∀ d : List PyNum, d.length = shape.prod → ElementsOf ⟨shape, d⟩ (nestList shape d) := by
  induction shape with
  | nil =>
    intro d hd index hw
    cases index with
    | cons => exact absurd hw (by simp [IndexWithin])
    | nil =>
      refine ⟨fun _ => ?_, by simp⟩
      obtain ⟨x, rfl⟩ := List.length_eq_one_iff.mp (by simpa using hd)
      simp [entryAt, nestList, flatIndex]
  | cons n rest ih =>
    intro d hd index hw
    cases index with
    | nil =>
      refine ⟨by simp, fun m hm => ⟨_, rfl, ?_⟩⟩
      simp only [List.length_nil, List.getElem?_cons_zero, Option.some.injEq] at hm
      simp [groups, hm]
    | cons i index =>
      have hi : i < n := hw.1
      have hg : ((groups n rest.prod d).map (nestList rest))[i]? = some (nestList rest ((d.drop (i * rest.prod)).take rest.prod)) := by
        simp [groups, hi]
      have hlen : ((d.drop (i * rest.prod)).take rest.prod).length = rest.prod := by
        rw [List.length_take, List.length_drop, hd, List.prod_cons]
        have : (i + 1) * rest.prod ≤ n * rest.prod := Nat.mul_le_mul_right _ hi
        have : (i + 1) * rest.prod = i * rest.prod + rest.prod := by ring
        omega
      obtain ⟨h1, h2⟩ := ih _ hlen index hw.2
      refine ⟨fun hl => ?_, fun m hm => ?_⟩
      · have hl' : index.length = rest.length := by simpa using hl
        rw [nestList, entryAt, hg, Option.bind_some, h1 hl', flatIndex]
        have := flat_lt rest index hw.2 hl'
        rw [List.getElem?_take_of_lt this, List.getElem?_drop]
      · rw [nestList, entryAt, hg, Option.bind_some]
        exact h2 m (by simpa using hm)

theorem sameData_serial (v : PyVal) : Writable v → TensorsWF v → SameData v (toSerializable v) := by
  induction v using pyVal_induct with
  | h0 => exact fun _ _ => .none
  | h1 b => exact fun _ _ => .bool b
  | h2 x => exact fun _ _ => .num x
  | h3 s => exact fun _ _ => .str s
  | h4 t => exact fun _ ht => .tensor (nest_elements _ _ (ht t .self))
  | h5 p => exact fun _ _ => .path p
  | h6 entries ih =>
    intro hw ht
    rw [toSerializable, serialEntries_eq]
    refine .dict (by rw [List.map_map]; rfl) fun i k l v w hv hw' => ?_
    simp only [List.getElem?_map, hv, Option.map_some, Option.some.injEq, Prod.mk.injEq] at hw'
    obtain ⟨-, rfl⟩ := hw'
    have he := List.mem_of_getElem? hv
    exact ih (k, v) he (writable_dict.mp hw _ he).2 fun t hti => ht t (.value he hti)
  | h7 items ih =>
    intro hw ht
    rw [toSerializable, serialItems_eq]
    refine .list (by simp) fun i v w hv hw' => ?_
    simp only [List.getElem?_map, hv, Option.map_some, Option.some.injEq] at hw'
    subst hw'
    have he := List.mem_of_getElem? hv
    exact ih v he (writable_list.mp hw _ he) fun t hti => ht t (.item he hti)
  | h8 items ih =>
    intro hw ht
    rw [toSerializable, serialItems_eq]
    refine .tuple (by simp) fun i v w hv hw' => ?_
    simp only [List.getElem?_map, hv, Option.map_some, Option.some.injEq] at hw'
    subst hw'
    have he := List.mem_of_getElem? hv
    exact ih v he (writable_tuple.mp hw _ he) fun t hti => ht t (.titem he hti)
  | h9 t => exact fun hw _ => absurd .self (hw.1 t)

/-! ## The claims -/

/-- **C116**, when the file is written: saving a converted value returns exactly if nothing in it is of a foreign type.
Otherwise it raises, and the file cannot be read, even if there was a complete file before. Other files stay. -/
theorem C116_saved_exactly (disk : String → Option JsonFile) (path : String) (v : PyVal) :
    let after := saveMetadataJson disk path (toSerializable v)
    (Writable v → after.2 = .ok () ∧ ∃ w, loadJson after.1 path = .ok w) ∧
      (¬Writable v → (∃ e, after.2 = .error e) ∧ ∃ e, loadJson after.1 path = .error e) ∧
      ∀ q, q ≠ path → loadJson after.1 q = loadJson disk q := by
  have h := json_ok_iff v
  refine ⟨fun hw => ?_, fun hw => ?_, fun q hq => ?_⟩
  · obtain ⟨j, hj⟩ := h.mpr hw
    simp [saveMetadataJson, hj, loadJson]
  · cases hj : toJson (toSerializable v) with
    | ok j => exact absurd (h.mp ⟨j, hj⟩) hw
    | error e => simp [saveMetadataJson, hj, loadJson]
  · unfold saveMetadataJson loadJson
    cases toJson (toSerializable v) <;> simp [hq]

/-- **C116**, what is read back: if nothing is of a foreign type and the keys are strings, the file gives the same data,
tensors as nested lists, tuples as lists and paths as strings. -/
theorem C116_read_back_partial (disk : String → Option JsonFile) (path : String) (v : PyVal) (hw : Writable v) (hk : StringKeys v)
    (ht : TensorsWF v) :
    ∃ w, loadJson (saveMetadataJson disk path (toSerializable v)).1 path = .ok w ∧ SameData v w := by
  obtain ⟨j, hj, hb⟩ := canon_back (canon_serial v hw hk)
  refine ⟨toSerializable v, ?_, sameData_serial v hw ht⟩
  simp [saveMetadataJson, hj, loadJson, hb]

theorem canon_float (x : ℝ) : Canon (floatVal x) := .num _

theorem canon_vec (v : List ℝ) : Canon (vecVal v) := .list fun x hx => by
  obtain ⟨y, _, rfl⟩ := List.mem_map.mp hx
  exact canon_float y

theorem canon_mat (v : List (List ℝ)) : Canon (matVal v) := .list fun x hx => by
  obtain ⟨y, _, rfl⟩ := List.mem_map.mp hx
  exact canon_vec y

theorem canon_cube (v : List (List (List ℝ))) : Canon (cubeVal v) := .list fun x hx => by
  obtain ⟨y, _, rfl⟩ := List.mem_map.mp hx
  exact canon_mat y

theorem canon_option {α : Type} {f : α → PyVal} (h : ∀ x, Canon (f x)) (o : Option α) : Canon (optionVal f o) := by
  cases o with
  | none => exact .none
  | some x => exact h x

theorem canon_tensor (t : Tensor ℝ) : Canon (toSerializable (tensorVal t)) := canon_nest _ _

theorem canon_tensorOption (o : Option (Tensor ℝ)) : Canon (toSerializable (optionVal tensorVal o)) := by
  cases o with
  | none => exact .none
  | some t => exact canon_tensor t

theorem canon_strDict (entries : List (String × PyVal)) (hnd : (entries.map Prod.fst).Nodup) (h : ∀ e ∈ entries, Canon e.2) :
    Canon (.dict (entries.map fun e => (.str e.1, e.2))) := by
  refine .dict (entries.map Prod.fst) hnd (by simp) fun e he => ?_
  obtain ⟨e, he', rfl⟩ := List.mem_map.mp he
  exact h e he'

theorem canon_metadata (room : Room) (sources mics : Entity) (m : Metadata) (info : PyVal) (extra : List (PyKey × PyVal))
    (hinfo : Canon (toSerializable info)) (hextra : Canon (toSerializable (.dict extra))) :
    Canon (.dict (metadataEntries room sources mics m ++ metadataExtras info extra)) := by
  have hbase : ∀ e ∈ metadataEntries room sources mics m, Canon e.2 := by
    intro e he
    simp only [metadataEntries, List.mem_cons, List.not_mem_nil, or_false] at he
    rcases he with rfl | rfl | rfl | rfl | rfl | rfl | rfl | rfl | rfl | rfl
    · refine .dict ["size", "c", "beta", "t60", "fs"] (by decide) rfl ?_
      simp only [List.forall_mem_cons, List.not_mem_nil, false_implies, implies_true, and_true]
      exact ⟨canon_vec _, canon_float _, canon_option canon_vec _, canon_option canon_float _, canon_float _⟩
    · refine .dict ["positions", "orientation"] (by decide) rfl ?_
      simp only [List.forall_mem_cons, List.not_mem_nil, false_implies, implies_true, and_true]
      exact ⟨canon_tensor _, canon_tensorOption _⟩
    · refine .dict ["positions", "orientation"] (by decide) rfl ?_
      simp only [List.forall_mem_cons, List.not_mem_nil, false_implies, implies_true, and_true]
      exact ⟨canon_tensor _, canon_tensorOption _⟩
    · refine .dict ["sources", "mics"] (by decide) rfl ?_
      simp only [List.forall_mem_cons, List.not_mem_nil, false_implies, implies_true, and_true]
      exact ⟨canon_option canon_cube _, canon_option canon_cube _⟩
    · refine .dict ["geometry", "positions", "orientation", "center", "normal", "spacing"] (by decide) rfl ?_
      simp only [List.forall_mem_cons, List.not_mem_nil, false_implies, implies_true, and_true]
      refine ⟨.str _, canon_tensor _, canon_tensorOption _, ?_, .none, canon_option canon_float _⟩
      cases m.center with
      | some v => exact canon_vec v
      | none => exact .list fun v hv => by rw [(List.mem_replicate.mp hv).2]; exact .num _
    · refine .dict ["fs", "nsample", "t"] (by decide) rfl ?_
      simp only [List.forall_mem_cons, List.not_mem_nil, false_implies, implies_true, and_true]
      exact ⟨canon_float _, .num _, canon_vec _⟩
    · refine .dict ["frame", "unit", "azimuth", "elevation"] (by decide) rfl ?_
      simp only [List.forall_mem_cons, List.not_mem_nil, false_implies, implies_true, and_true]
      exact ⟨.str _, .str _, canon_cube _, canon_cube _⟩
    · exact canon_tensorOption _
    · refine .list fun v hv => ?_
      obtain ⟨n, _, rfl⟩ := List.mem_map.mp hv
      exact .num _
    · exact .bool _
  have hex : ∀ e ∈ metadataExtras info extra, Canon e.2 := by
    intro e he
    rcases List.mem_append.mp he with he | he
    · cases info <;> simp only [List.not_mem_nil, List.mem_singleton] at he <;> (subst he; exact hinfo)
    · cases extra with
      | nil => simp at he
      | cons a l => simp only [List.mem_singleton] at he; subst he; exact hextra
  have hkeys : ∃ keys : List String, keys.Nodup ∧
      (metadataEntries room sources mics m ++ metadataExtras info extra).map Prod.fst = keys.map .str := by
    have h1 : (∃ v, metadataExtras info extra = [(.str "source_info", v)]) ∨
        (∃ v, metadataExtras info extra = [(.str "extra", v)]) ∨
        (∃ v w, metadataExtras info extra = [(.str "source_info", v), (.str "extra", w)]) ∨ metadataExtras info extra = [] := by
      cases info <;> cases extra <;> simp [metadataExtras]
    rcases h1 with ⟨v, h⟩ | ⟨v, h⟩ | ⟨v, w, h⟩ | h
    · exact ⟨["room", "sources", "mics", "trajectories", "array", "time_axis", "doa", "timestamps", "rirs_shape", "dynamic",
        "source_info"], by decide, by rw [h]; rfl⟩
    · exact ⟨["room", "sources", "mics", "trajectories", "array", "time_axis", "doa", "timestamps", "rirs_shape", "dynamic",
        "extra"], by decide, by rw [h]; rfl⟩
    · exact ⟨["room", "sources", "mics", "trajectories", "array", "time_axis", "doa", "timestamps", "rirs_shape", "dynamic",
        "source_info", "extra"], by decide, by rw [h]; rfl⟩
    · exact ⟨["room", "sources", "mics", "trajectories", "array", "time_axis", "doa", "timestamps", "rirs_shape", "dynamic"],
        by decide, by rw [h]; rfl⟩
  obtain ⟨keys, hnd, hk⟩ := hkeys
  refine .dict keys hnd hk fun e he => ?_
  rcases List.mem_append.mp he with he | he
  · exact hbase e he
  · exact hex e he

/-- A tensor of floats as the values of a document. -/
def floatsOf (t : Tensor ℝ) : Tensor PyNum := ⟨t.shape, t.data.map fun x => .float (.fin x)⟩

/-- The entry is the nested lists of the tensor, or `None` without tensor. -/
def HasTensor (t : Option (Tensor ℝ)) (v : Option PyVal) : Prop :=
  match t with
  | some t => ∃ w, v = some w ∧ ElementsOf (floatsOf t) w
  | none => v = some .none

theorem hasTensor_serial (t : Option (Tensor ℝ)) (h : ∀ x, t = some x → x.WF) :
    HasTensor t (some (toSerializable (optionVal tensorVal t))) := by
  cases t with
  | none => rfl
  | some t => exact ⟨_, rfl, nest_elements _ _ (by simpa [Tensor.WF] using h t rfl)⟩

theorem buildMetadata_some {dim : ℕ} {fs : ℝ} {srcPos micPos : Tensor ℝ} {micType : NumType} {shape : List ℕ}
    {srcTraj micTraj timestamps : Option (Tensor ℝ)} {signalLen : Option ℤ} {m : Metadata}
    (h : buildMetadata dim fs srcPos micPos micType shape srcTraj micTraj timestamps signalLen = .ok m) :
    m.rirsShape = shape ∧ ∃ steps, m.timestamps = metadataTimestamps timestamps signalLen steps fs := by
  unfold buildMetadata at h
  obtain ⟨_, _, h⟩ := (bind_eq_ok _ _ _).mp h
  obtain ⟨src, _, h⟩ := (bind_eq_ok _ _ _).mp h
  obtain ⟨mic, _, h⟩ := (bind_eq_ok _ _ _).mp h
  obtain ⟨_, _, h⟩ := (bind_eq_ok _ _ _).mp h
  obtain ⟨_, _, h⟩ := (bind_eq_ok _ _ _).mp h
  obtain ⟨_, _, h⟩ := (bind_eq_ok _ _ _).mp h
  cases h
  exact ⟨rfl, _, rfl⟩

theorem metadataTimestamps_wf {timestamps : Option (Tensor ℝ)} {signalLen : Option ℤ} {steps : ℕ} {fs : ℝ}
    (h : ∀ t, timestamps = some t → t.WF) (t : Tensor ℝ) (ht : metadataTimestamps timestamps signalLen steps fs = some t) :
    t.WF := by
  unfold metadataTimestamps at ht
  cases timestamps with
  | some x => cases ht; exact h _ rfl
  | none =>
    cases signalLen with
    | none => cases ht
    | some n =>
      simp only at ht
      by_cases hs : 1 < steps
      · rw [if_pos hs] at ht
        cases ht
        have : steps ≠ 1 := by omega
        simp [Tensor.WF, linspace, this]
      · rw [if_neg hs] at ht
        cases ht

/-- **C116**, the file of a scene: every accepted call of `build_metadata` whose additional entries contain nothing of a
foreign type and only strings as keys can be saved, and reading the file gives the room, the positions and orientations,
the computed entries of the metadata (which C66 describes) and the additional entries. -/
theorem C116_scene_partial (disk : String → Option JsonFile) (path : String) (room : Room) (sources mics : Entity)
    (micType : NumType) (shape : List ℕ) (srcTraj micTraj timestamps : Option (Tensor ℝ)) (signalLen : Option ℤ) (info : PyVal)
    (extra : List (PyKey × PyVal)) (doc : PyVal)
    (h : metadataDocument room sources mics micType shape srcTraj micTraj timestamps signalLen info extra = .ok doc)
    (hs : sources.positions.WF) (hm : mics.positions.WF) (hso : ∀ o, sources.orientation = some o → o.WF)
    (hmo : ∀ o, mics.orientation = some o → o.WF) (hts : ∀ t, timestamps = some t → t.WF)
    (hinfo : Writable info ∧ StringKeys info ∧ TensorsWF info)
    (hextra : Writable (.dict extra) ∧ StringKeys (.dict extra) ∧ TensorsWF (.dict extra)) :
    (saveMetadataJson disk path doc).2 = .ok () ∧ ∃ w, loadJson (saveMetadataJson disk path doc).1 path = .ok w ∧
      fieldAt ["room", "size"] w = some (vecVal room.size) ∧
      fieldAt ["room", "c"] w = some (floatVal room.c) ∧
      fieldAt ["room", "beta"] w = some (optionVal vecVal room.beta) ∧
      fieldAt ["room", "t60"] w = some (optionVal floatVal room.t60) ∧
      fieldAt ["room", "fs"] w = some (floatVal room.fs) ∧
      HasTensor sources.positions (fieldAt ["sources", "positions"] w) ∧
      HasTensor sources.orientation (fieldAt ["sources", "orientation"] w) ∧
      HasTensor mics.positions (fieldAt ["mics", "positions"] w) ∧
      HasTensor mics.orientation (fieldAt ["mics", "orientation"] w) ∧
      HasTensor mics.positions (fieldAt ["array", "positions"] w) ∧
      HasTensor mics.orientation (fieldAt ["array", "orientation"] w) ∧
      fieldAt ["array", "normal"] w = some .none ∧
      fieldAt ["doa", "frame"] w = some (.str "world") ∧
      fieldAt ["doa", "unit"] w = some (.str "radians") ∧
      (timestamps ≠ none → HasTensor timestamps (fieldAt ["timestamps"] w)) ∧
      (∃ m, buildMetadata room.size.length room.fs sources.positions mics.positions micType shape srcTraj micTraj timestamps
          signalLen = .ok m ∧
        HasTensor m.timestamps (fieldAt ["timestamps"] w) ∧
        fieldAt ["trajectories", "sources"] w = some (optionVal cubeVal m.sourceTraj) ∧
        fieldAt ["trajectories", "mics"] w = some (optionVal cubeVal m.micTraj) ∧
        fieldAt ["array", "geometry"] w = some (.str m.geometry) ∧
        (∀ c, m.center = some c → fieldAt ["array", "center"] w = some (vecVal c)) ∧
        fieldAt ["array", "spacing"] w = some (optionVal floatVal m.spacing) ∧
        fieldAt ["time_axis", "fs"] w = some (floatVal m.fs) ∧
        fieldAt ["time_axis", "nsample"] w = some (.num (.int m.nsample)) ∧
        fieldAt ["time_axis", "t"] w = some (vecVal m.time) ∧
        fieldAt ["doa", "azimuth"] w = some (cubeVal m.azimuth) ∧
        fieldAt ["doa", "elevation"] w = some (cubeVal m.elevation) ∧
        fieldAt ["dynamic"] w = some (.bool m.dynamic)) ∧
      fieldAt ["rirs_shape"] w = some (.list (shape.map fun n => .num (.int n))) ∧
      (info ≠ .none → ∃ x, fieldAt ["source_info"] w = some x ∧ SameData info x) ∧
      (extra ≠ [] → ∃ x, fieldAt ["extra"] w = some x ∧ SameData (.dict extra) x) := by
  obtain ⟨m, hm1, hdoc⟩ := (bind_eq_ok _ _ _).mp h
  cases hdoc
  have hc := canon_metadata room sources mics m info extra (canon_serial _ hinfo.1 hinfo.2.1) (canon_serial _ hextra.1 hextra.2.1)
  obtain ⟨j, hj, hb⟩ := canon_back hc
  refine ⟨by simp [saveMetadataJson, hj], _, by simp only [saveMetadataJson, hj, loadJson, Function.update_self]; rfl, ?_⟩
  rw [hb]
  obtain ⟨hshape, steps, hsteps⟩ := buildMetadata_some hm1
  have htime : HasTensor m.timestamps (some (toSerializable (optionVal tensorVal m.timestamps))) :=
    hasTensor_serial _ fun t ht => metadataTimestamps_wf hts t (hsteps ▸ ht)
  refine ⟨rfl, rfl, rfl, rfl, rfl, hasTensor_serial (some _) ?_, hasTensor_serial _ hso, hasTensor_serial (some _) ?_,
    hasTensor_serial _ hmo, hasTensor_serial (some _) ?_, hasTensor_serial _ hmo, rfl, rfl, rfl, fun hne => ?_,
    ⟨m, hm1, htime, rfl, rfl, rfl, ?_, rfl, rfl, rfl, rfl, rfl, rfl, rfl⟩, ?_, fun hne => ?_, fun hne => ?_⟩
  · rintro x hx; cases hx; exact hs
  · rintro x hx; cases hx; exact hm
  · rintro x hx; cases hx; exact hm
  · have : m.timestamps = timestamps := by
      rw [hsteps]
      cases timestamps with
      | none => exact absurd rfl hne
      | some t => rfl
    rw [← this]
    exact htime
  · intro c hc
    have : fieldAt ["array", "center"] (.dict (metadataEntries room sources mics m ++ metadataExtras info extra)) =
        some (match m.center with
          | some v => vecVal v
          | none => .list (List.replicate (mics.positions.shape.getD 1 0) (.num (.float .nan)))) := rfl
    rw [this, hc]
  · rw [← hshape]; rfl
  · have : fieldAt ["source_info"] (.dict (metadataEntries room sources mics m ++ metadataExtras info extra)) =
        some (toSerializable info) := by
      cases info <;> first | exact absurd rfl hne | rfl
    exact ⟨_, this, sameData_serial _ hinfo.1 hinfo.2.2⟩
  · have : fieldAt ["extra"] (.dict (metadataEntries room sources mics m ++ metadataExtras info extra)) =
        some (toSerializable (.dict extra)) := by
      cases extra with
      | nil => exact absurd rfl hne
      | cons e l => cases info <;> rfl
    exact ⟨_, this, sameData_serial _ hextra.1 hextra.2.2⟩

theorem finite_list {items : List PyVal} (h : ∀ v ∈ items, AllFinite v) : AllFinite (.list items) := by
  intro x hx
  rcases inside_list.mp hx with hx | ⟨v, hv, hx⟩
  · cases hx
  · exact h v hv x hx

theorem finite_dict {entries : List (PyKey × PyVal)} (h : ∀ e ∈ entries, AllFinite e.2) : AllFinite (.dict entries) := by
  intro x hx
  rcases inside_dict.mp hx with hx | ⟨e, he, hx⟩
  · cases hx
  · exact h e he x hx

theorem finite_float (r : ℝ) : AllFinite (floatVal r) := by
  intro x hx
  cases hx
  exact ⟨r, rfl⟩

theorem finite_vec (v : List ℝ) : AllFinite (vecVal v) := finite_list fun x hx => by
  obtain ⟨y, _, rfl⟩ := List.mem_map.mp hx
  exact finite_float y

theorem finite_mat (v : List (List ℝ)) : AllFinite (matVal v) := finite_list fun x hx => by
  obtain ⟨y, _, rfl⟩ := List.mem_map.mp hx
  exact finite_vec y

theorem finite_cube (v : List (List (List ℝ))) : AllFinite (cubeVal v) := finite_list fun x hx => by
  obtain ⟨y, _, rfl⟩ := List.mem_map.mp hx
  exact finite_mat y

theorem finite_none : AllFinite .none := by intro x hx; cases hx

theorem finite_str (s : String) : AllFinite (.str s) := by intro x hx; cases hx

theorem finite_int (z : ℤ) : AllFinite (.num (.int z)) := by intro x hx; cases hx

theorem finite_bool (b : Bool) : AllFinite (.bool b) := by intro x hx; cases hx

theorem finite_option {α : Type} {f : α → PyVal} (h : ∀ x, AllFinite (f x)) (o : Option α) : AllFinite (optionVal f o) := by
  cases o with
  | none => exact finite_none
  | some x => exact h x

theorem finite_nest (shape : List ℕ) : ∀ d : List ℝ, AllFinite (nestList shape (d.map fun x => .float (.fin x))) := by
  induction shape with
  | nil =>
    intro d
    cases d with
    | nil => exact finite_none
    | cons x d => exact finite_float x
  | cons n rest ih =>
    intro d
    refine finite_list fun v hv => ?_
    obtain ⟨x, hx, rfl⟩ := List.mem_map.mp hv
    obtain ⟨i, _, rfl⟩ := List.mem_map.mp hx
    rw [← List.map_drop, ← List.map_take]
    exact ih _

theorem finite_tensor (t : Tensor ℝ) : AllFinite (toSerializable (tensorVal t)) := finite_nest _ _

theorem finite_tensorOption (o : Option (Tensor ℝ)) : AllFinite (toSerializable (optionVal tensorVal o)) := by
  cases o with
  | none => exact finite_none
  | some t => exact finite_tensor t

theorem finite_entries (room : Room) (sources mics : Entity) (m : Metadata) (hc : m.center ≠ none) :
    ∀ e ∈ metadataEntries room sources mics m, AllFinite e.2 := by
  intro e he
  simp only [metadataEntries, List.mem_cons, List.not_mem_nil, or_false] at he
  rcases he with rfl | rfl | rfl | rfl | rfl | rfl | rfl | rfl | rfl | rfl
  · refine finite_dict ?_
    simp only [List.forall_mem_cons, List.not_mem_nil, false_implies, implies_true, and_true]
    exact ⟨finite_vec _, finite_float _, finite_option finite_vec _, finite_option finite_float _, finite_float _⟩
  · refine finite_dict ?_
    simp only [List.forall_mem_cons, List.not_mem_nil, false_implies, implies_true, and_true]
    exact ⟨finite_tensor _, finite_tensorOption _⟩
  · refine finite_dict ?_
    simp only [List.forall_mem_cons, List.not_mem_nil, false_implies, implies_true, and_true]
    exact ⟨finite_tensor _, finite_tensorOption _⟩
  · refine finite_dict ?_
    simp only [List.forall_mem_cons, List.not_mem_nil, false_implies, implies_true, and_true]
    exact ⟨finite_option finite_cube _, finite_option finite_cube _⟩
  · refine finite_dict ?_
    simp only [List.forall_mem_cons, List.not_mem_nil, false_implies, implies_true, and_true]
    refine ⟨finite_str _, finite_tensor _, finite_tensorOption _, ?_, finite_none, finite_option finite_float _⟩
    cases h : m.center with
    | some v => exact finite_vec v
    | none => exact absurd h hc
  · refine finite_dict ?_
    simp only [List.forall_mem_cons, List.not_mem_nil, false_implies, implies_true, and_true]
    exact ⟨finite_float _, finite_int _, finite_vec _⟩
  · refine finite_dict ?_
    simp only [List.forall_mem_cons, List.not_mem_nil, false_implies, implies_true, and_true]
    exact ⟨finite_str _, finite_str _, finite_cube _, finite_cube _⟩
  · exact finite_tensorOption _
  · refine finite_list fun v hv => ?_
    obtain ⟨n, _, rfl⟩ := List.mem_map.mp hv
    exact finite_int _
  · exact finite_bool _

theorem buildMetadata_center {dim : ℕ} {fs : ℝ} {srcPos micPos : Tensor ℝ} {micType : NumType} {shape : List ℕ}
    {srcTraj micTraj timestamps : Option (Tensor ℝ)} {signalLen : Option ℤ} {m : Metadata}
    (h : buildMetadata dim fs srcPos micPos micType shape srcTraj micTraj timestamps signalLen = .ok m) :
    arrayCenter micPos micType = .ok m.center := by
  unfold buildMetadata at h
  obtain ⟨_, _, h⟩ := (bind_eq_ok _ _ _).mp h
  obtain ⟨src, _, h⟩ := (bind_eq_ok _ _ _).mp h
  obtain ⟨mic, _, h⟩ := (bind_eq_ok _ _ _).mp h
  obtain ⟨_, _, h⟩ := (bind_eq_ok _ _ _).mp h
  obtain ⟨_, _, h⟩ := (bind_eq_ok _ _ _).mp h
  obtain ⟨c, hc, h⟩ := (bind_eq_ok _ _ _).mp h
  cases h
  exact hc

/-- **C116**, every JSON reader: with at least one microphone the file of a scene without additional entries contains
finite numbers only. -/
theorem C116_standard_partial (disk : String → Option JsonFile) (path : String) (room : Room) (sources mics : Entity)
    (micType : NumType) (shape : List ℕ) (srcTraj micTraj timestamps : Option (Tensor ℝ)) (signalLen : Option ℤ) (doc : PyVal)
    (h : metadataDocument room sources mics micType shape srcTraj micTraj timestamps signalLen = .ok doc)
    (hmic : mics.positions.rows ≠ []) :
    ∃ w, loadJson (saveMetadataJson disk path doc).1 path = .ok w ∧ AllFinite w := by
  obtain ⟨m, hm1, hdoc⟩ := (bind_eq_ok _ _ _).mp h
  cases hdoc
  obtain ⟨j, hj, hb⟩ := canon_back (canon_metadata room sources mics m .none [] .none (.dict [] (by decide) rfl (by simp [toSerializableEntries])))
  refine ⟨fromJson j, by simp only [saveMetadataJson, hj, loadJson, Function.update_self], ?_⟩
  rw [hb]
  refine finite_dict fun e he => ?_
  rw [show metadataExtras .none [] = [] from rfl, List.append_nil] at he
  refine finite_entries room sources mics m (fun hc => ?_) e he
  have := buildMetadata_center hm1
  unfold arrayCenter at this
  rw [hc] at this
  by_cases ht : micType = .int64
  · simp [ht] at this
  · simp only [ht, if_false, Except.ok.injEq] at this
    by_cases hr : mics.positions.rows.length = 0
    · exact hmic (List.length_eq_zero_iff.mp hr)
    · simp [hr] at this

/-- A scene without microphones. -/
noncomputable def silentScene : Except String PyVal :=
  metadataDocument { size := [5, 4, 3], fs := 16000 } ⟨⟨[1, 3], [1, 1, 1]⟩, none⟩ ⟨⟨[0, 3], []⟩, none⟩ .floating [1, 0, 100]

/-- **C116 fails** without microphones: the file contains a number that is not finite, which JSON does not know. -/
theorem C116_standard_fails (disk : String → Option JsonFile) (path : String) :
    ∃ doc, silentScene = .ok doc ∧
      ∃ w, loadJson (saveMetadataJson disk path doc).1 path = .ok w ∧ ¬AllFinite w := by
  have h : ∃ m, buildMetadata 3 16000 ⟨[1, 3], [1, 1, 1]⟩ ⟨[0, 3], []⟩ .floating [1, 0, 100] = .ok m := by
    simp [buildMetadata, normalizeTraj, Tensor.unsqueeze0, expandSteps, arrayCenter, raiseIf]
    exact ⟨_, rfl⟩
  obtain ⟨m, hm⟩ := h
  have hc := buildMetadata_center hm
  simp only [arrayCenter, Tensor.rows, groups, List.range_zero, List.map_nil, List.length_nil, if_true, reduceCtorEq, if_false,
    Except.ok.injEq] at hc
  refine ⟨_, by unfold silentScene metadataDocument; rw [show ([5, 4, 3] : List ℝ).length = 3 from rfl, hm]; rfl, ?_⟩
  obtain ⟨j, hj, hb⟩ := canon_back (canon_metadata { size := [5, 4, 3], fs := 16000 } ⟨⟨[1, 3], [1, 1, 1]⟩, none⟩ ⟨⟨[0, 3], []⟩, none⟩
    m .none [] .none (.dict [] (by decide) rfl (by simp [toSerializableEntries])))
  refine ⟨fromJson j, by simp only [saveMetadataJson, hj, loadJson, Function.update_self], ?_⟩
  rw [hb]
  intro hf
  have hin : Inside (.num (.float .nan)) (.dict (metadataEntries { size := [5, 4, 3], fs := 16000 } ⟨⟨[1, 3], [1, 1, 1]⟩, none⟩
      ⟨⟨[0, 3], []⟩, none⟩ m ++ metadataExtras .none [])) := by
    refine .value (k := .str "array") (List.mem_append_left _ (.tail _ (.tail _ (.tail _ (.tail _ (.head _)))))) ?_
    refine .value (k := .str "center") (.tail _ (.tail _ (.tail _ (.head _)))) ?_
    rw [← hc]
    exact .item (v := .num (.float .nan)) (by simp) .self
  obtain ⟨r, hr⟩ := hf .nan hin
  cases hr

/-- **C116 fails** for keys that are not strings: they come back as strings, and an entry can be lost. -/
theorem C116_keys_fails (disk : String → Option JsonFile) (path : String) :
    ∃ v, Writable v ∧ TensorsWF v ∧
      ∃ w, loadJson (saveMetadataJson disk path (toSerializable v)).1 path = .ok w ∧ ¬SameData v w := by
  refine ⟨.dict [(.int 1, .str "first"), (.str "1", .str "second")], ?_, ?_, .dict [(.str "1", .str "second")], ?_, ?_⟩
  · rw [← json_ok_iff]
    exact ⟨_, rfl⟩
  · intro t ht
    rcases inside_dict.mp ht with ht | ⟨e, he, ht⟩
    · cases ht
    · simp only [List.mem_cons, List.not_mem_nil, or_false] at he
      rcases he with rfl | rfl <;> cases ht
  · have hrepr : Int.repr 1 = "1" := rfl
    simp [hrepr, saveMetadataJson, toSerializable, toSerializableEntries, toJson, toJsonEntries, PyKey.text, Except.map, loadJson, fromJson,
      fromJsonEntries, setEntry, bind, Except.bind, pure, Except.pure]
  · intro h
    cases h with
    | dict hkeys _ => simp at hkeys

/-- **C116 fails** for values of a foreign type: the attempt to save them destroys the file that was there. -/
theorem C116_lost_fails : ∃ disk path v old, loadJson disk path = .ok old ∧
    (∃ e, (saveMetadataJson disk path (toSerializable v)).2 = .error e) ∧
    ∃ e, loadJson (saveMetadataJson disk path (toSerializable v)).1 path = .error e := by
  have h := (C116_saved_exactly (fun _ => some (.whole .null)) "scene.json" (.dict [(.str "seeds", .other "set")])).2.1
    fun hw => hw.1 "set" (.value (k := .str "seeds") (by simp) .self)
  exact ⟨fun _ => some (.whole .null), "scene.json", _, .none, rfl, h.1, h.2⟩

/-- Additional entries as the examples use them. -/
def someExtra : List (PyKey × PyVal) :=
  [(.str "gains", .tensor ⟨[2, 2], [.int 1, .int 2, .int 3, .int 4]⟩), (.str "files", .tuple [.path "a.wav", .none])]

theorem someExtra_fine : Writable (.dict someExtra) ∧ StringKeys (.dict someExtra) ∧ TensorsWF (.dict someExtra) := by
  refine ⟨(json_ok_iff _).mp ⟨_, rfl⟩, fun entries h => ?_, fun t h => ?_⟩
  · rcases inside_dict.mp h with h | ⟨e, he, h⟩
    · cases h
      exact ⟨["gains", "files"], by decide, rfl⟩
    · simp only [someExtra, List.mem_cons, List.not_mem_nil, or_false] at he
      rcases he with rfl | rfl
      · cases h
      · rcases inside_tuple.mp h with h | ⟨v, hv, h⟩
        · cases h
        · simp only [List.mem_cons, List.not_mem_nil, or_false] at hv
          rcases hv with rfl | rfl <;> cases h
  · rcases inside_dict.mp h with h | ⟨e, he, h⟩
    · cases h
    · simp only [someExtra, List.mem_cons, List.not_mem_nil, or_false] at he
      rcases he with rfl | rfl
      · cases h; rfl
      · rcases inside_tuple.mp h with h | ⟨v, hv, h⟩
        · cases h
        · simp only [List.mem_cons, List.not_mem_nil, or_false] at hv
          rcases hv with rfl | rfl <;> cases h

example (disk : String → Option JsonFile) :
    ∃ w, loadJson (saveMetadataJson disk "x.json" (toSerializable (.dict someExtra))).1 "x.json" = .ok w ∧
      SameData (.dict someExtra) w :=
  C116_read_back_partial disk "x.json" _ someExtra_fine.1 someExtra_fine.2.1 someExtra_fine.2.2

/-- A tensor is not the same as lists with its elements in another order. -/
example : ¬SameData (.tensor ⟨[2, 2], [.int 1, .int 2, .int 3, .int 4]⟩)
    (.list [.list [.num (.int 1), .num (.int 3)], .list [.num (.int 2), .num (.int 4)]]) := by
  intro h
  cases h with
  | tensor h =>
    have := (h [0, 1] (by simp [IndexWithin])).1 rfl
    simp [entryAt, flatIndex] at this

/-- A scene with a microphone and additional entries. -/
noncomputable def smallScene : Except String PyVal :=
  metadataDocument { size := [5, 4, 3], fs := 16000, t60 := some 0.3 } ⟨⟨[1, 3], [1, 1, 1]⟩, none⟩
    ⟨⟨[1, 3], [2, 2, 1]⟩, some ⟨[3], [0, 1, 0]⟩⟩ .floating [1, 1, 100] none none none none (.str "bdl") someExtra

example (disk : String → Option JsonFile) : ∃ doc, smallScene = .ok doc ∧
    ∃ w, loadJson (saveMetadataJson disk "x.json" doc).1 "x.json" = .ok w ∧
      fieldAt ["room", "t60"] w = some (floatVal 0.3) ∧ fieldAt ["room", "size"] w = some (vecVal [5, 4, 3]) := by
  have h : ∃ m, buildMetadata 3 16000 ⟨[1, 3], [1, 1, 1]⟩ ⟨[1, 3], [2, 2, 1]⟩ .floating [1, 1, 100] = .ok m := by
    simp [buildMetadata, normalizeTraj, Tensor.unsqueeze0, expandSteps, arrayCenter, raiseIf]
    exact ⟨_, rfl⟩
  obtain ⟨m, hm⟩ := h
  have hd : ∃ doc, smallScene = .ok doc := by
    unfold smallScene metadataDocument
    rw [show ([5, 4, 3] : List ℝ).length = 3 from rfl, hm]
    exact ⟨_, rfl⟩
  obtain ⟨doc, hd⟩ := hd
  have hstr : Writable (.str "bdl") ∧ StringKeys (.str "bdl") ∧ TensorsWF (.str "bdl") :=
    ⟨(json_ok_iff _).mp ⟨_, rfl⟩, (fun _ h => by cases h), fun _ h => by cases h⟩
  obtain ⟨_, w, hw, hsize, _, _, ht, _⟩ := C116_scene_partial disk "x.json" _ _ _ _ _ _ _ _ _ _ _ doc hd rfl rfl
    (by rintro o ho; cases ho) (by rintro o ho; cases ho; rfl) (by rintro o ho; cases ho) hstr someExtra_fine
  exact ⟨doc, hd, w, hw, ht, hsize⟩

end Torchrir.Props
