import Verif.Model.Tensor
import Mathlib.Data.List.GetD

/-! # List lemmas used by the proofs -/

namespace Torchrir.Lemmas

open Torchrir.Model

theorem mapM_ok {α β : Type} {f : α → Except String β} {g : α → β} :
    ∀ {l : List α}, (∀ x ∈ l, f x = .ok (g x)) → l.mapM f = .ok (l.map g)
  | [], _ => rfl
  | a :: l, h => by
    rw [List.mapM_cons, h a (by simp), mapM_ok (fun x hx => h x (by simp [hx]))]
    rfl

theorem rangeStep_eq (n c : ℕ) (hc : 0 < c) :
    ∀ m ∈ rangeStep n c, m < n := by
  intro m hm
  simp only [rangeStep, List.mem_map, List.mem_range] at hm
  obtain ⟨i, hi, rfl⟩ := hm
  have h1 : (i + 1) * c ≤ n + c - 1 := by
    calc (i + 1) * c ≤ (n + c - 1) / c * c := Nat.mul_le_mul_right _ hi
      _ ≤ n + c - 1 := Nat.div_mul_le_self _ _
  rw [Nat.add_mul] at h1
  omega

/-- Invariant rule for chunked loops `for start in range(0, n, c)`. -/
theorem foldlM_chunks {β : Type} (n c : ℕ) (hc : 0 < c) (P : ℕ → β → Prop)
    (step : β → ℕ → Except String β)
    (hstep : ∀ start b, start < n → P start b →
      ∃ b', step b start = .ok b' ∧ P (min (start + c) n) b')
    (b : β) (h0 : P 0 b) :
    ∃ b', (rangeStep n c).foldlM step b = .ok b' ∧ P n b' := by
  have key : ∀ m : ℕ, m ≤ (n + c - 1) / c →
      ∃ b', ((List.range m).map (· * c)).foldlM step b = .ok b' ∧ P (min (m * c) n) b' := by
    intro m
    induction m with
    | zero => intro _; exact ⟨b, rfl, by simpa using h0⟩
    | succ m ih =>
      intro hm
      obtain ⟨b1, hb1, hP1⟩ := ih (by omega)
      have hlt : m * c < n := by
        apply rangeStep_eq n c hc
        simp only [rangeStep, List.mem_map, List.mem_range]
        exact ⟨m, by omega, rfl⟩
      rw [min_eq_left hlt.le] at hP1
      obtain ⟨b2, hb2, hP2⟩ := hstep _ _ hlt hP1
      refine ⟨b2, ?_, by rw [Nat.add_mul, one_mul]; exact hP2⟩
      rw [List.range_succ, List.map_append, List.foldlM_append, hb1]
      show (List.foldlM step b1 [m * c]) = _
      rw [List.foldlM_cons, hb2]
      rfl
  obtain ⟨b', h1, h2⟩ := key _ le_rfl
  refine ⟨b', h1, ?_⟩
  have : n ≤ (n + c - 1) / c * c := by
    have := Nat.lt_div_mul_add (a := n + c - 1) hc
    omega
  rwa [min_eq_right this] at h2

theorem take_eq_append_slice {α : Type} (l : List α) (a b : ℕ) (h : a ≤ b) :
    l.take b = l.take a ++ slice a b l := by
  conv_lhs => rw [← List.take_append_drop a (l.take b), List.take_take, min_eq_left h]
  rfl

theorem slice_map {α β : Type} (f : α → β) (a b : ℕ) (l : List α) :
    slice a b (l.map f) = (slice a b l).map f := by
  simp [slice, List.map_take, List.map_drop]

theorem groups_flatten {α : Type} (n d : ℕ) (l : List (List α)) (hn : l.length = n)
    (hd : ∀ r ∈ l, r.length = d) : groups n d l.flatten = l := by
  subst hn
  induction l with
  | nil => simp [groups]
  | cons r l ih =>
    have hr : r.length = d := hd r (by simp)
    rw [groups, List.length_cons, List.range_succ_eq_map, List.map_cons]
    congr 1
    · simp [← hr]
    · have ih' := ih (fun x hx => hd x (by simp [hx]))
      rw [groups] at ih'
      conv_rhs => rw [← ih']
      rw [List.map_map]
      apply List.map_congr_left
      intro i _
      simp only [Function.comp, List.flatten_cons]
      congr 1
      rw [List.drop_append, hr, List.drop_eq_nil_of_le (by rw [hr, Nat.succ_mul]; omega)]
      simp [Nat.succ_mul]

theorem getD_flatten {α : Type} (d : ℕ) (dflt : α) (l : List (List α)) (hd : ∀ r ∈ l, r.length = d)
    (r k : ℕ) (hr : r < l.length) (hk : k < d) :
    l.flatten.getD (r * d + k) dflt = (l[r]).getD k dflt := by
  induction l generalizing r with
  | nil => simp at hr
  | cons x l ih =>
    have hx : x.length = d := hd x (by simp)
    cases r with
    | zero =>
      simp only [zero_mul, zero_add, List.flatten_cons, List.getElem_cons_zero]
      rw [List.getD_append _ _ _ _ (by omega)]
    | succ r =>
      rw [List.flatten_cons, List.getD_append_right _ _ _ _ (by rw [hx, Nat.succ_mul]; omega), hx]
      rw [show (r + 1) * d + k - d = r * d + k by rw [Nat.succ_mul]; omega]
      rw [ih (fun y hy => hd y (by simp [hy])) r (by simpa using hr)]
      simp

theorem length_flatten_of {α : Type} (d : ℕ) (l : List (List α)) (hd : ∀ r ∈ l, r.length = d) :
    l.flatten.length = l.length * d := by
  rw [List.length_flatten, List.map_congr_left hd]
  simp

/-- Two flat lists made of rows of length `d` agree if they agree entrywise. -/
theorem eq_flatten_of_getD {α : Type} (d : ℕ) (dflt : α) (buf : List α) (l : List (List α))
    (hd : ∀ r ∈ l, r.length = d) (hlen : buf.length = l.length * d)
    (h : ∀ r k, (hr : r < l.length) → k < d → buf.getD (r * d + k) dflt = (l[r]).getD k dflt) :
    buf = l.flatten := by
  apply List.ext_getElem
  · rw [hlen, length_flatten_of d l hd]
  · intro i h1 h2
    have hdpos : 0 < d := by
      rcases Nat.eq_zero_or_pos d with h0 | h0
      · subst h0; rw [Nat.mul_zero] at hlen; omega
      · exact h0
    have hr : i / d < l.length := by
      rw [Nat.div_lt_iff_lt_mul hdpos, ← hlen]; exact h1
    have hk : i % d < d := Nat.mod_lt _ hdpos
    have e : i = i / d * d + i % d := by rw [Nat.mul_comm]; exact (Nat.div_add_mod i d).symm
    have h3 := h (i / d) (i % d) hr hk
    rw [← getD_flatten d dflt l hd _ _ hr hk, ← e] at h3
    rwa [List.getD_eq_getElem _ _ h1, List.getD_eq_getElem _ _ h2] at h3

/-- Sum of the values a scatter adds at position `q`. -/
def hits (es : List (ℤ × ℝ)) (q : ℤ) : ℝ := (es.map fun e => if e.1 = q then e.2 else 0).sum

@[simp] theorem hits_nil (q : ℤ) : hits [] q = 0 := rfl

theorem hits_cons (e : ℤ × ℝ) (es : List (ℤ × ℝ)) (q : ℤ) :
    hits (e :: es) q = (if e.1 = q then e.2 else 0) + hits es q := by simp [hits]

theorem hits_append (a b : List (ℤ × ℝ)) (q : ℤ) : hits (a ++ b) q = hits a q + hits b q := by
  simp [hits]

theorem hits_flatten (l : List (List (ℤ × ℝ))) (q : ℤ) :
    hits l.flatten q = (l.map fun es => hits es q).sum := by
  induction l with
  | nil => rfl
  | cons a l ih => simp [hits_append, ih]

theorem scatterAdd_spec (es : List (ℤ × ℝ)) : ∀ (buf : List ℝ),
    (∀ e ∈ es, 0 ≤ e.1 ∧ e.1 < buf.length) →
    ∃ buf', scatterAdd buf es = .ok buf' ∧ buf'.length = buf.length ∧
      ∀ q : ℕ, q < buf.length → buf'.getD q 0 = buf.getD q 0 + hits es q := by
  induction es with
  | nil => intro buf _; exact ⟨buf, rfl, rfl, by simp⟩
  | cons e es ih =>
    intro buf h
    obtain ⟨i, v⟩ := e
    have hi := h (i, v) (by simp)
    obtain ⟨buf', h1, h2, h3⟩ := ih (buf.set i.toNat (buf.getD i.toNat 0 + v))
      (by intro e he; simpa using h e (by simp [he]))
    refine ⟨buf', ?_, by simpa using h2, ?_⟩
    · rw [scatterAdd, if_pos hi, h1]
    · intro q hq
      rw [h3 q (by simpa using hq), hits_cons]
      have hi2 : i.toNat < buf.length := by have := hi.2; have := hi.1; omega
      by_cases hiq : i.toNat = q
      · subst hiq
        have : ((i, v) : ℤ × ℝ).1 = (i.toNat : ℤ) := by simp [hi.1]
        rw [if_pos this, List.getD_eq_getElem _ _ (by simpa using hi2)]
        simp
        ring
      · have : ¬ ((i, v) : ℤ × ℝ).1 = (q : ℤ) := by
          intro h'; apply hiq; simp only at h'; omega
        rw [if_neg this, zero_add]
        congr 1
        simp [List.getD_eq_getElem?_getD, hiq]

end Torchrir.Lemmas
