import Verif.Model.Race

/-!
# C115: processes that download at the same time
-/

namespace Torchrir.Spec

open Torchrir.Model

/-- The chunks that `response.read` gives up to the end of the answer make up `b`. -/
def Arrives (reads : List (Except String Bytes)) (b : Bytes) : Prop :=
  ∃ chunks : List Bytes, [] ∉ chunks ∧ b = chunks.flatten ∧
    (reads = chunks.map .ok ∨ ∃ rest, reads = chunks.map .ok ++ .ok [] :: rest)

/-- The request was answered, the answer came to its end without exception, `b` is all of it, and `b` is as long as the
server had said. -/
def CompleteBody (f : Fetch) (b : Bytes) : Prop :=
  ∃ length reads, f = .ok (length, reads) ∧ Arrives reads b ∧ ∀ n, length = some n → 0 < n → b.length = n

/-- What one process downloads: the directory, the name of the archive, and what the requests of the process give. -/
abbrev Job := DiskPath × String × (ℕ → Fetch)

/-- The archive of a job. -/
def archiveOf (job : Job) : DiskPath := job.1 ++ [job.2.1]

/-- The name under which a job writes the archive until it is complete. -/
def partOf (job : Job) : DiskPath := job.1 ++ [job.2.1 ++ ".part"]

/-- The archives are different files, and none has the name that another one has until it is complete. -/
def SeparateJobs (jobs : List Job) : Prop :=
  (jobs.map archiveOf).Nodup ∧ ∀ a ∈ jobs, ∀ b ∈ jobs, archiveOf a ≠ partOf b

/-- A disk in order: no file has two names, and a file with a name exists. -/
def NamesInOrder (s : NamedFiles) : Prop :=
  (∀ p q h, s.names p = some h → s.names q = some h → p = q) ∧ ∀ p h, s.names p = some h → h < s.count

end Torchrir.Spec

namespace Torchrir.Props

open Torchrir.Model Torchrir.Spec

/-! ## Threads that keep to their part of the state -/

/-- `p` ends after at most `n` actions, whatever other threads do to the state `s` in between as long as it is allowed
by `R`. Every action is allowed by `G` and leaves a state with `J`; the end is as `Q` says. -/
inductive Steady {S α : Type} (R G : S → S → Prop) (J : S → Prop) (Q : S → Except String α → Prop) :
    ℕ → S → Proc S α → Prop
  | done {n : ℕ} {s : S} {r : Except String α} (h : ∀ s', R s s' → Q s' r) : Steady R G J Q n s (.done r)
  | act {n : ℕ} {s : S} {upd : S → S} {next : S → Proc S α} (hg : ∀ s', R s s' → G s' (upd s'))
      (hj : ∀ s', R s s' → J (upd s')) (hn : ∀ s', R s s' → Steady R G J Q n (upd s') (next s')) :
      Steady R G J Q (n + 1) s (.act upd next)

section Steady

variable {S α : Type} {R G : S → S → Prop} {J : S → Prop} {Q : S → Except String α → Prop}

theorem Steady.mono {n m : ℕ} {s : S} {p : Proc S α} (h : Steady R G J Q n s p) (hm : n ≤ m) : Steady R G J Q m s p := by
  induction h generalizing m with
  | done h => exact .done h
  | act hg hj _ ih =>
    obtain ⟨k, rfl⟩ := Nat.exists_eq_add_of_le hm
    rw [Nat.add_right_comm]
    exact .act hg hj fun s' hs => ih s' hs (by omega)

theorem Steady.imp {Q' : S → Except String α → Prop} {n : ℕ} {s : S} {p : Proc S α} (h : Steady R G J Q n s p)
    (hq : ∀ s r, Q s r → Q' s r) : Steady R G J Q' n s p := by
  induction h with
  | done h => exact .done fun s' hs => hq _ _ (h s' hs)
  | act hg hj _ ih => exact .act hg hj ih

theorem Steady.after (htrans : ∀ a b c, R a b → R b c → R a c) {n : ℕ} {s s' : S} {p : Proc S α}
    (h : Steady R G J Q n s p) (hr : R s s') : Steady R G J Q n s' p := by
  cases h with
  | done h => exact .done fun t ht => h t (htrans _ _ _ hr ht)
  | act hg hj hn =>
    exact .act (fun t ht => hg t (htrans _ _ _ hr ht)) (fun t ht => hj t (htrans _ _ _ hr ht))
      fun t ht => hn t (htrans _ _ _ hr ht)

theorem Steady.catchWith (hrefl : ∀ a, R a a) {Q' : S → Except String α → Prop} {n m : ℕ} {s : S} {p : Proc S α}
    {f : String → Proc S α} (h : Steady R G J Q' n s p) (hok : ∀ s a, Q' s (.ok a) → Q s (.ok a))
    (herr : ∀ s e, Q' s (.error e) → Steady R G J Q m s (f e)) : Steady R G J Q (n + m) s (p.catchWith f) := by
  induction h with
  | done h =>
    rename_i n s r
    cases r with
    | ok a => exact .done fun s' hs => hok s' a (h s' hs)
    | error e => exact (herr s e (h s (hrefl s))).mono (by omega)
  | act hg hj _ ih =>
    rw [Nat.add_right_comm]
    exact .act hg hj fun s' hs => ih s' hs

end Steady

theorem steady_run {S α : Type} {R G : ℕ → S → S → Prop} {J : ℕ → S → Prop} {Q : ℕ → S → Except String α → Prop}
    (hrefl : ∀ i a, R i a a) (htrans : ∀ i a b c, R i a b → R i b c → R i a c) (hGR : ∀ i j a b, i ≠ j → G j a b → R i a b)
    (hJ : ∀ i a b, R i a b → J i a → J i b) (order : List ℕ) :
    ∀ (t : Threads S α) (n : ℕ → ℕ), (∀ i, J i t.state) → (∀ i, Steady (R i) (G i) (J i) (Q i) (n i) t.state (t.progs i)) →
      (∀ i, J i (t.run order).state) ∧
        ∀ i, Steady (R i) (G i) (J i) (Q i) (n i - order.count i) (t.run order).state ((t.run order).progs i) := by
  induction order with
  | nil => intro t n hs h; exact ⟨hs, fun i => by simpa [Threads.run] using h i⟩
  | cons k order ih =>
    intro t n hs h
    have key : (∀ i, J i (t.step k).state) ∧ ∀ i, Steady (R i) (G i) (J i) (Q i) (n i - if i = k then 1 else 0)
        (t.step k).state ((t.step k).progs i) := by
      unfold Threads.step
      have hk := h k
      cases hp : t.progs k with
      | done x =>
        refine ⟨hs, fun i => ?_⟩
        by_cases hik : i = k
        · subst hik
          rw [hp] at hk
          simp only [hp]
          generalize n i = ni at hk
          cases hk with
          | done h => exact .done h
        · simp only [hik, if_false, Nat.sub_zero]
          exact h i
      | act upd next =>
        rw [hp] at hk
        generalize hnk : n k = nk at hk
        cases hk with
        | act hg hj hn =>
          have hr := hrefl k t.state
          have ho : ∀ i, i ≠ k → R i t.state (upd t.state) := fun i hi => hGR i k _ _ hi (hg _ hr)
          refine ⟨fun i => ?_, fun i => ?_⟩
          · by_cases hik : i = k
            · subst hik; exact hj _ hr
            · exact hJ i _ _ (ho i hik) (hs i)
          · by_cases hik : i = k
            · subst hik
              simp only [Function.update_self, if_true, hnk, Nat.add_sub_cancel]
              exact hn _ hr
            · simp only [hik, if_false, Nat.sub_zero, Function.update_of_ne hik]
              exact (h i).after (htrans i) (ho i hik)
    obtain ⟨h1, h2⟩ := ih (t.step k) _ key.1 key.2
    refine ⟨h1, fun i => ?_⟩
    refine Steady.mono (n := n i - (if i = k then 1 else 0) - order.count i) (h2 i) ?_
    rw [List.count_cons]
    by_cases hik : i = k
    · subst hik; simp; omega
    · have : (k == i) = false := by simpa using fun h => hik h.symm
      simp [hik, this]

/-! ## What the actions on the disk change -/

/-- The disk stays in order, and the files whose names are in `own` stay as they are. -/
def Frame (own : DiskPath → Prop) (s s' : NamedFiles) : Prop :=
  NamesInOrder s → NamesInOrder s' ∧ ∀ q, own q → s'.names q = s.names q ∧ ∀ h, s.names q = some h → s'.content h = s.content h

theorem frame_refl (own : DiskPath → Prop) (s : NamedFiles) : Frame own s s := fun h => ⟨h, fun _ _ => ⟨rfl, fun _ _ => rfl⟩⟩

theorem frame_trans (own : DiskPath → Prop) (a b c : NamedFiles) (h1 : Frame own a b) (h2 : Frame own b c) :
    Frame own a c := by
  intro ha
  obtain ⟨hb, h1⟩ := h1 ha
  obtain ⟨hc, h2⟩ := h2 hb
  refine ⟨hc, fun q hq => ⟨(h2 q hq).1.trans (h1 q hq).1, fun h hh => ?_⟩⟩
  rw [(h2 q hq).2 h ((h1 q hq).1.trans hh), (h1 q hq).2 h hh]

theorem frame_mono {own own' : DiskPath → Prop} {s s' : NamedFiles} (h : Frame own s s') (ho : ∀ q, own' q → own q) :
    Frame own' s s' := fun hs => ⟨(h hs).1, fun q hq => (h hs).2 q (ho q hq)⟩

theorem frame_read {own : DiskPath → Prop} {s s' : NamedFiles} (h : Frame own s s') (hs : NamesInOrder s) {q : DiskPath}
    (hq : own q) : s'.read q = s.read q := by
  obtain ⟨h1, h2⟩ := (h hs).2 q hq
  unfold NamedFiles.read
  rw [h1]
  cases hn : s.names q with
  | none => rfl
  | some k => simp [h2 k hn]

theorem frame_unlink (s : NamedFiles) (p : DiskPath) : Frame (· ≠ p) s (s.unlink p) := by
  intro hs
  have hn : ∀ q h, (s.unlink p).names q = some h → s.names q = some h := by
    intro q h hq
    by_cases hp : q = p
    · subst hp; simp [NamedFiles.unlink] at hq
    · simpa [NamedFiles.unlink, hp] using hq
  refine ⟨⟨fun a b h ha hb => hs.1 a b h (hn _ _ ha) (hn _ _ hb), fun a h ha => hs.2 a h (hn _ _ ha)⟩, fun q hq => ?_⟩
  exact ⟨by simp [NamedFiles.unlink, hq], fun _ _ => rfl⟩

theorem open_names (s : NamedFiles) (p : DiskPath) : (s.openWrite p).names p = some (s.handle p) := by
  unfold NamedFiles.openWrite NamedFiles.handle
  cases h : s.names p <;> simp [h]

theorem open_content (s : NamedFiles) (p : DiskPath) : (s.openWrite p).content (s.handle p) = [] := by
  unfold NamedFiles.openWrite NamedFiles.handle
  cases h : s.names p <;> simp

theorem frame_open (s : NamedFiles) (p : DiskPath) : Frame (· ≠ p) s (s.openWrite p) := by
  intro hs
  unfold NamedFiles.openWrite
  cases hp : s.names p with
  | some k =>
    refine ⟨hs, fun q hq => ⟨rfl, fun h hh => ?_⟩⟩
    have : h ≠ k := by rintro rfl; exact hq (hs.1 _ _ _ hh hp)
    simp [this]
  | none =>
    have hlt : ∀ q h, q ≠ p → Function.update s.names p (some s.count) q = some h → h < s.count := by
      intro q h hq hh
      rw [Function.update_of_ne hq] at hh
      exact hs.2 _ _ hh
    refine ⟨⟨fun a b h ha hb => ?_, fun a h ha => ?_⟩, fun q hq => ⟨by simp [hq], fun h hh => ?_⟩⟩
    · dsimp only at ha hb
      by_cases hap : a = p <;> by_cases hbp : b = p
      · rw [hap, hbp]
      · subst hap
        have := hlt _ _ hbp hb
        simp only [Function.update_self, Option.some.injEq] at ha
        omega
      · subst hbp
        have := hlt _ _ hap ha
        simp only [Function.update_self, Option.some.injEq] at hb
        omega
      · rw [Function.update_of_ne hap] at ha
        rw [Function.update_of_ne hbp] at hb
        exact hs.1 _ _ _ ha hb
    · dsimp only at ha ⊢
      by_cases hap : a = p
      · subst hap
        simp only [Function.update_self, Option.some.injEq] at ha
        omega
      · have := hlt _ _ hap ha
        omega
    · have : h ≠ s.count := by have := hs.2 _ _ hh; omega
      simp [this]

theorem frame_write (s : NamedFiles) (p : DiskPath) (h pos : ℕ) (c : Bytes) (hp : s.names p = some h) :
    Frame (· ≠ p) s (s.write h pos c) := by
  intro hs
  refine ⟨hs, fun q hq => ⟨rfl, fun k hk => ?_⟩⟩
  have : k ≠ h := by rintro rfl; exact hq (hs.1 _ _ _ hk hp)
  simp [NamedFiles.write, this]

theorem frame_replace (s : NamedFiles) (a b : DiskPath) : Frame (fun q => q ≠ a ∧ q ≠ b) s (s.replace a b) := by
  intro hs
  have hn : ∀ q h, (s.replace a b).names q = some h → (q ≠ a ∧ q = b ∧ s.names a = some h) ∨ (q ≠ a ∧ q ≠ b ∧ s.names q = some h) := by
    intro q h hq
    unfold NamedFiles.replace at hq
    dsimp only at hq
    by_cases hqa : q = a
    · subst hqa; simp at hq
    · rw [Function.update_of_ne hqa] at hq
      by_cases hqb : q = b
      · subst hqb; simp only [Function.update_self] at hq; exact .inl ⟨hqa, rfl, hq⟩
      · rw [Function.update_of_ne hqb] at hq; exact .inr ⟨hqa, hqb, hq⟩
  refine ⟨⟨fun p q h hp hq => ?_, fun p h hp => ?_⟩, fun q hq => ⟨?_, fun _ _ => rfl⟩⟩
  · rcases hn _ _ hp with ⟨h1, h2, h3⟩ | ⟨h1, h2, h3⟩ <;> rcases hn _ _ hq with ⟨k1, k2, k3⟩ | ⟨k1, k2, k3⟩
    · rw [h2, k2]
    · exact absurd (hs.1 _ _ _ k3 h3) k1
    · exact absurd (hs.1 _ _ _ h3 k3) h1
    · exact hs.1 _ _ _ h3 k3
  · rcases hn _ _ hp with ⟨_, _, h3⟩ | ⟨_, _, h3⟩ <;> exact hs.2 _ _ h3
  · simp [NamedFiles.replace, hq.1, hq.2]

theorem replace_read (s : NamedFiles) (a b : DiskPath) (hab : a ≠ b) : (s.replace a b).read b = s.read a := by
  simp [NamedFiles.read, NamedFiles.replace, Function.update_of_ne (Ne.symm hab)]

theorem writeAt_end (w c : Bytes) : writeAt w w.length c = w ++ c := by
  simp [writeAt]

/-! ## One process -/

/-- What the chunks make up, if no exception comes before the end. -/
def bodyOf : List (Except String Bytes) → Option Bytes
  | [] => some []
  | .error _ :: _ => none
  | .ok [] :: _ => some []
  | .ok (b :: c) :: rest => (bodyOf rest).map fun d => b :: c ++ d

theorem arrives_iff (reads : List (Except String Bytes)) (b : Bytes) : Arrives reads b ↔ bodyOf reads = some b := by
  constructor
  · rintro ⟨chunks, hne, rfl, h⟩
    have : ∀ tail : List (Except String Bytes), bodyOf tail = some [] → bodyOf (chunks.map .ok ++ tail) = some chunks.flatten := by
      intro tail ht
      clear h
      induction chunks with
      | nil => simpa using ht
      | cons c cs ih =>
        cases c with
        | nil => simp at hne
        | cons x c =>
          simp only [List.map_cons, List.cons_append, bodyOf]
          rw [ih (by simpa using hne)]
          simp
    rcases h with rfl | ⟨rest, rfl⟩
    · simpa using this [] rfl
    · exact this _ rfl
  · intro h
    induction reads generalizing b with
    | nil =>
      simp only [bodyOf, Option.some.injEq] at h
      exact ⟨[], by simp, by simp [← h], .inl rfl⟩
    | cons r reads ih =>
      match r, h with
      | .ok [], h =>
        simp only [bodyOf, Option.some.injEq] at h
        exact ⟨[], by simp, by simp [← h], .inr ⟨reads, rfl⟩⟩
      | .ok (x :: c), h =>
        simp only [bodyOf, Option.map_eq_some_iff] at h
        obtain ⟨d, hd, rfl⟩ := h
        obtain ⟨chunks, hne, hd', h'⟩ := ih d hd
        refine ⟨(x :: c) :: chunks, by simpa using hne, by simp [hd'], ?_⟩
        rcases h' with h' | ⟨rest, h'⟩
        · exact .inl (by rw [h']; rfl)
        · exact .inr ⟨rest, by rw [h']; rfl⟩

/-- The length of a body is what the server said. -/
def lenOk (length : Option ℕ) (b : Bytes) : Prop := ∀ n, length = some n → 0 < n → b.length = n

theorem lenOk_iff (length : Option ℕ) (b : Bytes) :
    lenOk length b ↔ ¬(0 < length.getD 0 ∧ b.length ≠ length.getD 0) := by
  unfold lenOk
  cases length with
  | none => simp
  | some n => simp

theorem complete_iff (f : Fetch) (b : Bytes) :
    CompleteBody f b ↔ ∃ length reads, f = .ok (length, reads) ∧ bodyOf reads = some b ∧ lenOk length b := by
  unfold CompleteBody lenOk
  simp only [arrives_iff]

section One

variable {P D : DiskPath} {good : Option Bytes → Prop}

/-- What other processes leave alone. -/
abbrev Others (P D : DiskPath) : NamedFiles → NamedFiles → Prop := Frame fun q => q = P ∨ q = D

/-- What the process leaves alone. -/
abbrev Mine (P D : DiskPath) : NamedFiles → NamedFiles → Prop := Frame fun q => q ≠ P ∧ q ≠ D

/-- The state of the archive at every moment. -/
def Fine (D : DiskPath) (good : Option Bytes → Prop) (s : NamedFiles) : Prop := NamesInOrder s ∧ good (s.read D)

theorem fine_others {s s' : NamedFiles} (h : Others P D s s') (hs : Fine D good s) : Fine D good s' :=
  ⟨(h hs.1).1, by rw [frame_read h hs.1 (.inr rfl)]; exact hs.2⟩

/-- Removing a file of the process that is or is not there. -/
theorem steady_unlinkIf {Q : NamedFiles → Except String Unit → Prop} {p : DiskPath} {next : Proc NamedFiles Unit} {n : ℕ}
    {s : NamedFiles} (hp : p = P ∨ p = D) (hPD : P ≠ D) (hgood : p = D → good none) (hs : Fine D good s)
    (hn : ∀ s, Fine D good s → s.names p = none → Steady (Others P D) (Mine P D) (Fine D good) Q n s next) :
    Steady (Others P D) (Mine P D) (Fine D good) Q (n + 2) s (unlinkIfProc p next) := by
  refine .act (fun s' _ => frame_refl _ _) (fun s' h => fine_others h hs) fun s1 h1 => ?_
  have hs1 := fine_others h1 hs
  by_cases he : (s1.names p).isSome
  · rw [if_pos he]
    have hfine : ∀ s2, Others P D s1 s2 → Fine D good (s2.unlink p) := by
      intro s2 h2
      have hs2 := fine_others h2 hs1
      refine ⟨(frame_unlink s2 p hs2.1).1, ?_⟩
      rcases hp with rfl | rfl
      · rw [frame_read (frame_unlink s2 p) hs2.1 (Ne.symm hPD)]
        exact hs2.2
      · have : (s2.unlink p).read p = none := by simp [NamedFiles.read, NamedFiles.unlink]
        rw [this]
        exact hgood rfl
    refine .act (fun s2 _ => frame_mono (frame_unlink s2 p) ?_) hfine fun s2 h2 => ?_
    · rintro q ⟨h1, h2⟩
      rcases hp with rfl | rfl <;> assumption
    · have hsome : (s2.names p).isSome := by rw [((h2 hs1.1).2 p hp).1]; exact he
      rw [if_pos hsome]
      exact hn _ (hfine s2 h2) (by simp [NamedFiles.unlink])
  · rw [if_neg he]
    exact (hn _ hs1 (by simpa using he)).mono (by omega)

/-- How the rest of an attempt ends, if `w` has been written and `reads` is still to come. -/
def CopyEnd (D : DiskPath) (good : Option Bytes → Prop) (length : Option ℕ) (w : Bytes) (reads : List (Except String Bytes))
    (s : NamedFiles) (r : Except String Unit) : Prop :=
  Fine D good s ∧
    (r = .ok () → ∃ c, bodyOf reads = some c ∧ lenOk length (w ++ c) ∧ s.read D = some (w ++ c)) ∧
    ((∃ e, r = .error e) → ∀ c, bodyOf reads = some c → ¬lenOk length (w ++ c))

theorem steady_end {length : Option ℕ} {h : ℕ} {w : Bytes} {reads : List (Except String Bytes)} {s : NamedFiles}
    (hPD : P ≠ D) (hb : bodyOf reads = some [])
    (hgood : lenOk length w → good (some w)) (hs : Fine D good s) (hn : s.names P = some h) (hc : s.content h = w) :
    Steady (Others P D) (Mine P D) (Fine D good) (CopyEnd D good length w reads) 1 s
      (if 0 < length.getD 0 ∧ w.length ≠ length.getD 0 then .done (.error "incomplete download") else replaceProc P D) := by
  have hl := lenOk_iff length w
  by_cases hbad : 0 < length.getD 0 ∧ w.length ≠ length.getD 0
  · rw [if_pos hbad]
    refine .done fun s' h' => ⟨fine_others h' hs, by simp, fun _ c hc => ?_⟩
    rw [hb] at hc
    cases hc
    rw [List.append_nil, hl]
    simpa using hbad
  · rw [if_neg hbad]
    have hlen : lenOk length w := hl.mpr hbad
    have hp : ∀ s', Others P D s s' → s'.names P = some h ∧ s'.content h = w := fun s' h' => by
      obtain ⟨h1, h2⟩ := (h' hs.1).2 P (.inl rfl)
      exact ⟨h1.trans hn, (h2 h hn).trans hc⟩
    have hrd : ∀ s', Others P D s s' → (s'.replace P D).read D = some w := fun s' h' => by
      rw [replace_read _ _ _ hPD, NamedFiles.read, (hp s' h').1]
      simp [(hp s' h').2]
    have hfine : ∀ s', Others P D s s' → Fine D good (s'.replace P D) := fun s' h' =>
      ⟨(frame_replace s' P D (h' hs.1).1).1, by rw [hrd s' h']; exact hgood hlen⟩
    refine .act (fun s' h' => ?_) (fun s' h' => ?_) fun s' h' => ?_
    · simp only [(hp s' h').1, Option.isSome_some, if_true]
      exact frame_replace s' P D
    · simp only [(hp s' h').1, Option.isSome_some, if_true]
      exact hfine s' h'
    · simp only [(hp s' h').1, Option.isSome_some, if_true]
      refine .done fun s2 h2 => ⟨fine_others h2 (hfine s' h'), fun _ => ⟨[], hb, by simpa using hlen, ?_⟩, by simp⟩
      rw [frame_read h2 (hfine s' h').1 (.inr rfl), hrd s' h', List.append_nil]

theorem steady_copy (hPD : P ≠ D) (length : Option ℕ) (h : ℕ) (reads : List (Except String Bytes)) :
    ∀ (w : Bytes) (s : NamedFiles), (∀ c, bodyOf reads = some c → lenOk length (w ++ c) → good (some (w ++ c))) →
      Fine D good s → s.names P = some h → s.content h = w →
      Steady (Others P D) (Mine P D) (Fine D good) (CopyEnd D good length w reads) (reads.length + 1) s
        (copyProc P D length h w.length reads) := by
  induction reads with
  | nil =>
    intro w s hgood hs hn hc
    exact steady_end hPD rfl (fun hl => by simpa using hgood [] rfl (by simpa using hl)) hs hn hc
  | cons r reads ih =>
    intro w s hgood hs hn hc
    match r with
    | .error e => exact .done fun s' h' => ⟨fine_others h' hs, by simp, by simp [bodyOf]⟩
    | .ok [] =>
      exact (steady_end hPD rfl (fun hl => by simpa using hgood [] rfl (by simpa using hl)) hs hn hc).mono (by simp)
    | .ok (b :: c) =>
      have hp : ∀ s', Others P D s s' → s'.names P = some h ∧ s'.content h = w := fun s' h' => by
        obtain ⟨h1, h2⟩ := (h' hs.1).2 P (.inl rfl)
        exact ⟨h1.trans hn, (h2 h hn).trans hc⟩
      have hfine : ∀ s', Others P D s s' → Fine D good (s'.write h w.length (b :: c)) := fun s' h' => by
        have hs' := fine_others h' hs
        have hf := frame_write s' P h w.length (b :: c) (hp s' h').1
        exact ⟨(hf hs'.1).1, by rw [frame_read hf hs'.1 (Ne.symm hPD)]; exact hs'.2⟩
      refine .act (fun s' h' => ?_) hfine fun s' h' => ?_
      · exact frame_mono (frame_write s' P h w.length (b :: c) (hp s' h').1) fun q hq => hq.1
      · have := ih (w ++ (b :: c)) (s'.write h w.length (b :: c)) (fun d hd hl => ?_) (hfine s' h') (hp s' h').1 ?_
        · rw [List.length_append] at this
          refine this.imp fun s2 r2 h2 => ⟨h2.1, fun hr => ?_, fun hr d hd => ?_⟩
          · obtain ⟨d, hd, hl, hr⟩ := h2.2.1 hr
            exact ⟨b :: c ++ d, by simp [bodyOf, hd], by simpa using hl, by simpa using hr⟩
          · simp only [bodyOf, Option.map_eq_some_iff] at hd
            obtain ⟨d, hd, rfl⟩ := hd
            simpa using h2.2.2 hr d hd
        · have := hgood (b :: c ++ d) (by simp [bodyOf, hd]) (by simpa using hl)
          simpa using this
        · simp [NamedFiles.write, (hp s' h').2, writeAt_end]

/-- How one attempt ends. -/
def AttemptEnd (D : DiskPath) (good : Option Bytes → Prop) (f : Fetch) (s : NamedFiles) (r : Except String Unit) : Prop :=
  Fine D good s ∧ (r = .ok () → ∃ b, CompleteBody f b ∧ s.read D = some b) ∧
    ((∃ e, r = .error e) → ∀ b, ¬CompleteBody f b)

theorem steady_stream (hPD : P ≠ D) (f : Fetch) (hgood : ∀ b, CompleteBody f b → good (some b)) :
    ∃ n, ∀ s, Fine D good s → Steady (Others P D) (Mine P D) (Fine D good) (AttemptEnd D good f) n s (streamProc P D f) := by
  cases f with
  | error e =>
    refine ⟨2, fun s hs => steady_unlinkIf (n := 0) (.inl rfl) hPD (fun h => absurd h hPD) hs fun s hs _ => ?_⟩
    refine .done fun s' h' => ⟨fine_others h' hs, by simp, fun _ b hb => ?_⟩
    obtain ⟨_, _, h, _⟩ := hb
    cases h
  | ok x =>
    obtain ⟨length, reads⟩ := x
    refine ⟨reads.length + 1 + 1 + 2, fun s hs => steady_unlinkIf (.inl rfl) hPD (fun h => absurd h hPD) hs fun s hs _ => ?_⟩
    have hfine : ∀ s', Others P D s s' → Fine D good (s'.openWrite P) := fun s' h' => by
      have hs' := fine_others h' hs
      exact ⟨(frame_open s' P hs'.1).1, by rw [frame_read (frame_open s' P) hs'.1 (Ne.symm hPD)]; exact hs'.2⟩
    refine .act (fun s' h' => frame_mono (frame_open s' P) fun q hq => hq.1) hfine fun s' h' => ?_
    have := steady_copy (good := good) hPD length (s'.handle P) reads [] (s'.openWrite P)
      (fun c hc hl => hgood _ ((complete_iff _ _).mpr ⟨length, reads, rfl, hc, hl⟩)) (hfine s' h') (open_names s' P)
      (open_content s' P)
    refine this.imp fun s2 r h2 => ⟨h2.1, fun hr => ?_, fun hr b hb => ?_⟩
    · obtain ⟨c, hc, hl, hr⟩ := h2.2.1 hr
      exact ⟨c, (complete_iff _ _).mpr ⟨length, reads, rfl, hc, hl⟩, hr⟩
    · obtain ⟨l, rs, h, hc, hl⟩ := (complete_iff _ _).mp hb
      cases h
      exact h2.2.2 hr b hc hl

/-- How a download ends that starts with request `n` and makes up to `k + 1` attempts. -/
def DownloadEnd (D : DiskPath) (good : Option Bytes → Prop) (fetch : ℕ → Fetch) (n k : ℕ) (s : NamedFiles)
    (r : Except String Unit) : Prop :=
  Fine D good s ∧
    (r = .ok () → ∃ m b, n ≤ m ∧ m ≤ n + k ∧ (∀ j c, n ≤ j → j < m → ¬CompleteBody (fetch j) c) ∧
      CompleteBody (fetch m) b ∧ s.read D = some b) ∧
    ((∃ e, r = .error e) → (∀ j c, n ≤ j → j ≤ n + k → ¬CompleteBody (fetch j) c) ∧ s.read D = none)

theorem steady_download (hPD : P ≠ D) (fetch : ℕ → Fetch) (hnone : good none) (k : ℕ) :
    ∀ n, (∀ m b, n ≤ m → m ≤ n + k → CompleteBody (fetch m) b → good (some b)) →
      ∃ N, ∀ s, Fine D good s →
        Steady (Others P D) (Mine P D) (Fine D good) (DownloadEnd D good fetch n k) N s (downloadProc P D fetch n k) := by
  have hread : ∀ {s : NamedFiles}, s.names D = none → s.read D = none := fun h => by simp [NamedFiles.read, h]
  induction k with
  | zero =>
    intro n hgood
    obtain ⟨N, hN⟩ := steady_stream (good := good) hPD (fetch n) fun b hb => hgood n b le_rfl (by omega) hb
    refine ⟨N + 2, fun s hs => (hN s hs).catchWith (frame_refl _) (fun s a h => ?_) fun s e h => ?_⟩
    · obtain ⟨b, hb, hr⟩ := h.2.1 rfl
      exact ⟨h.1, fun _ => ⟨n, b, le_rfl, by omega, fun j c h1 h2 => by omega, hb, hr⟩, by simp⟩
    · refine steady_unlinkIf (n := 0) (.inr rfl) hPD (fun _ => hnone) h.1 fun s' hs' hn => .done fun t ht => ?_
      refine ⟨fine_others ht hs', by simp, fun _ => ⟨fun j c h1 h2 => ?_, ?_⟩⟩
      · obtain rfl : j = n := by omega
        exact h.2.2 ⟨e, rfl⟩ c
      · rw [frame_read ht hs'.1 (.inr rfl)]
        exact hread hn
  | succ k ih =>
    intro n hgood
    obtain ⟨N, hN⟩ := steady_stream (good := good) hPD (fetch n) fun b hb => hgood n b le_rfl (by omega) hb
    obtain ⟨M, hM⟩ := ih (n + 1) fun m b h1 h2 hb => hgood m b (by omega) (by omega) hb
    refine ⟨N + (M + 2), fun s hs => (hN s hs).catchWith (frame_refl _) (fun s a h => ?_) fun s e h => ?_⟩
    · obtain ⟨b, hb, hr⟩ := h.2.1 rfl
      exact ⟨h.1, fun _ => ⟨n, b, le_rfl, by omega, fun j c h1 h2 => by omega, hb, hr⟩, by simp⟩
    · have hno : ∀ c, ¬CompleteBody (fetch n) c := h.2.2 ⟨e, rfl⟩
      refine steady_unlinkIf (.inr rfl) hPD (fun _ => hnone) h.1 fun s' hs' _ => (hM s' hs').imp fun t r ht => ?_
      refine ⟨ht.1, fun hr => ?_, fun hr => ⟨fun j c h1 h2 => ?_, (ht.2.2 hr).2⟩⟩
      · obtain ⟨m, b, h1, h2, h3, hb, hr⟩ := ht.2.1 hr
        refine ⟨m, b, by omega, by omega, fun j c h4 h5 => ?_, hb, hr⟩
        rcases eq_or_ne j n with rfl | hj
        · exact hno c
        · exact h3 j c (by omega) h5
      · rcases eq_or_ne j n with rfl | hj
        · exact hno c
        · exact (ht.2.2 hr).1 j c (by omega) (by omega)

end One

/-! ## All processes -/

theorem part_inj {a b : Job} (h : partOf a = partOf b) : archiveOf a = archiveOf b := by
  unfold partOf at h
  unfold archiveOf
  obtain ⟨h1, h2⟩ := List.append_inj' h rfl
  have h3 : a.2.1 ++ ".part" = b.2.1 ++ ".part" := by simpa using h2
  have h4 : a.2.1.toList ++ ".part".toList = b.2.1.toList ++ ".part".toList := by
    have := congrArg String.toList h3
    simpa [String.toList_append] using this
  rw [h1, String.ext (List.append_inj_left' h4 rfl)]

/-- What job `i` needs of the others; without a job, that no other files are touched. -/
def jobR (jobs : List Job) (i : ℕ) : NamedFiles → NamedFiles → Prop :=
  match jobs[i]? with
  | some a => Others (partOf a) (archiveOf a)
  | none => Frame fun q => ∀ a ∈ jobs, q ≠ partOf a ∧ q ≠ archiveOf a

/-- What job `i` grants to the others. -/
def jobG (jobs : List Job) (i : ℕ) : NamedFiles → NamedFiles → Prop :=
  match jobs[i]? with
  | some a => Mine (partOf a) (archiveOf a)
  | none => Frame fun _ => True

/-- What may be found under the name of the archive. -/
def goodOf (before : Option Bytes) (fetch : ℕ → Fetch) (x : Option Bytes) : Prop :=
  x = before ∨ x = none ∨ ∃ m b, m ≤ 1 ∧ CompleteBody (fetch m) b ∧ x = some b

/-- What holds at every moment. -/
def jobJ (s : NamedFiles) (jobs : List Job) (i : ℕ) (t : NamedFiles) : Prop :=
  match jobs[i]? with
  | some a => Fine (archiveOf a) (goodOf (s.read (archiveOf a)) a.2.2) t
  | none => NamesInOrder t ∧ ∀ q, (∀ a ∈ jobs, q ≠ partOf a ∧ q ≠ archiveOf a) → t.read q = s.read q

/-- What holds in the end. -/
def jobQ (s : NamedFiles) (jobs : List Job) (i : ℕ) : NamedFiles → Except String Unit → Prop :=
  match jobs[i]? with
  | some a => DownloadEnd (archiveOf a) (goodOf (s.read (archiveOf a)) a.2.2) a.2.2 0 1
  | none => fun _ _ => True

theorem downloads_run (s : NamedFiles) (hs : NamesInOrder s) (jobs : List Job) (hsep : SeparateJobs jobs) :
    ∃ n : ℕ → ℕ, ∀ order, (∀ i, jobJ s jobs i ((downloads s jobs).run order).state) ∧
      ∀ i, Steady (jobR jobs i) (jobG jobs i) (jobJ s jobs i) (jobQ s jobs i) (n i - order.count i)
        ((downloads s jobs).run order).state (((downloads s jobs).run order).progs i) := by
  have hJ0 : ∀ i, jobJ s jobs i s := by
    intro i
    unfold jobJ
    cases jobs[i]? with
    | some a => exact ⟨hs, .inl rfl⟩
    | none => exact ⟨hs, fun _ _ => rfl⟩
  have hN : ∀ i, ∃ n, Steady (jobR jobs i) (jobG jobs i) (jobJ s jobs i) (jobQ s jobs i) n s ((downloads s jobs).progs i) := by
    intro i
    have h0 := hJ0 i
    unfold jobR jobG jobJ jobQ downloads
    unfold jobJ at h0
    cases hi : jobs[i]? with
    | none =>
      simp only [hi]
      exact ⟨0, .done fun _ _ => trivial⟩
    | some a =>
      simp only [hi] at h0 ⊢
      have hmem : a ∈ jobs := List.mem_of_getElem? hi
      have hPD : partOf a ≠ archiveOf a := fun h => hsep.2 a hmem a hmem h.symm
      obtain ⟨N, hN⟩ := steady_download (good := goodOf (s.read (archiveOf a)) a.2.2) hPD a.2.2 (.inr (.inl rfl)) 1 0
        fun m b _ hm hb => .inr (.inr ⟨m, b, by omega, hb, rfl⟩)
      exact ⟨N, hN s h0⟩
  choose n hn using hN
  refine ⟨n, fun order => steady_run ?_ ?_ ?_ ?_ order (downloads s jobs) n hJ0 hn⟩
  · intro i t
    unfold jobR
    cases jobs[i]? <;> exact frame_refl _ _
  · intro i a b c
    unfold jobR
    cases jobs[i]? <;> exact frame_trans _ _ _ _
  · intro i j a b hij
    unfold jobR jobG
    cases hj : jobs[j]? with
    | none =>
      cases hi : jobs[i]? <;> exact fun h => frame_mono h fun _ _ => trivial
    | some y =>
      have hy : y ∈ jobs := List.mem_of_getElem? hj
      cases hi : jobs[i]? with
      | none => exact fun h => frame_mono h fun q hq => hq y hy
      | some x =>
        have hx : x ∈ jobs := List.mem_of_getElem? hi
        have hne : archiveOf x ≠ archiveOf y := by
          intro h
          apply hij
          obtain ⟨hi', _⟩ := List.getElem?_eq_some_iff.mp hi
          refine (List.getElem?_inj (l := jobs.map archiveOf) (by simpa using hi') hsep.1).mp ?_
          simp [hi, hj, h]
        refine fun h => frame_mono h ?_
        rintro q (rfl | rfl)
        · exact ⟨fun h => hne (part_inj h), fun h => hsep.2 y hy x hx h.symm⟩
        · exact ⟨hsep.2 x hx y hy, hne⟩
  · intro i a b
    unfold jobR jobJ
    cases jobs[i]? with
    | some x => exact fun h => fine_others h
    | none =>
      intro h hj
      exact ⟨(h hj.1).1, fun q hq => (frame_read h hj.1 hq).trans (hj.2 q hq)⟩

/-! ## The claims -/

/-- **C115**, processes with different archives. However the processes take turns: at every moment there is under the
name of each archive what was there at the start, nothing, or the complete body of an answer to a request of the process
that downloads it. -/
theorem C115_always_partial (s : NamedFiles) (hs : NamesInOrder s) (jobs : List Job) (hsep : SeparateJobs jobs)
    (order : List ℕ) (job : Job) (hjob : job ∈ jobs) :
    let found := ((downloads s jobs).run order).state.read (archiveOf job)
    found = s.read (archiveOf job) ∨ found = none ∨ ∃ m b, m ≤ 1 ∧ CompleteBody (job.2.2 m) b ∧ found = some b := by
  obtain ⟨i, hi⟩ := List.mem_iff_getElem?.mp hjob
  obtain ⟨n, h⟩ := downloads_run s hs jobs hsep
  have := (h order).1 i
  unfold jobJ at this
  rw [hi] at this
  exact this.2

/-- **C115**, the end of a process. A process with an archive of its own returns if one of its two requests was answered
completely, and then its archive is the first complete answer and stays so; otherwise it raises, and there is no
archive. -/
theorem C115_end_partial (s : NamedFiles) (hs : NamesInOrder s) (jobs : List Job) (hsep : SeparateJobs jobs)
    (order : List ℕ) (i : ℕ) (job : Job) (hi : jobs[i]? = some job) :
    let t := (downloads s jobs).run order
    (t.result i = some (.ok ()) → ∃ b, t.state.read (archiveOf job) = some b ∧
      (CompleteBody (job.2.2 0) b ∨ (∀ c, ¬CompleteBody (job.2.2 0) c) ∧ CompleteBody (job.2.2 1) b)) ∧
    (∀ e, t.result i = some (.error e) → t.state.read (archiveOf job) = none ∧
      ∀ c, ¬CompleteBody (job.2.2 0) c ∧ ¬CompleteBody (job.2.2 1) c) := by
  obtain ⟨n, h⟩ := downloads_run s hs jobs hsep
  have hst := (h order).2 i
  have hrefl : jobR jobs i ((downloads s jobs).run order).state ((downloads s jobs).run order).state := by
    unfold jobR
    cases jobs[i]? <;> exact frame_refl _ _
  have hQ : ∀ r, ((downloads s jobs).run order).result i = some r → jobQ s jobs i ((downloads s jobs).run order).state r := by
    intro r hr
    unfold Threads.result at hr
    generalize n i - order.count i = k at hst
    generalize hp : ((downloads s jobs).run order).progs i = p at hst hr
    cases hst with
    | done hq => cases hr; exact hq _ hrefl
    | act => cases hr
  simp only [jobQ, hi] at hQ
  refine ⟨fun hr => ?_, fun e hr => ?_⟩
  · obtain ⟨m, b, _, hm, hno, hb, hread⟩ := (hQ _ hr).2.1 rfl
    refine ⟨b, hread, ?_⟩
    rcases Nat.eq_zero_or_pos m with rfl | hpos
    · exact .inl hb
    · obtain rfl : m = 1 := by omega
      exact .inr ⟨fun c => hno 0 c le_rfl (by omega), hb⟩
  · obtain ⟨hno, hread⟩ := (hQ _ hr).2.2 ⟨e, rfl⟩
    exact ⟨hread, fun c => ⟨hno 0 c le_rfl (by omega), hno 1 c (by omega) (by omega)⟩⟩

/-- **C115**, every process with an archive of its own comes to an end: there is a number of turns after which it has
returned or raised, whatever the others do in between. -/
theorem C115_finishes_partial (s : NamedFiles) (hs : NamesInOrder s) (jobs : List Job) (hsep : SeparateJobs jobs) (i : ℕ) :
    ∃ n, ∀ order : List ℕ, n ≤ order.count i → (((downloads s jobs).run order).result i).isSome := by
  obtain ⟨n, h⟩ := downloads_run s hs jobs hsep
  refine ⟨n i, fun order ho => ?_⟩
  have hst := (h order).2 i
  rw [Nat.sub_eq_zero_of_le ho] at hst
  unfold Threads.result
  generalize ((downloads s jobs).run order).progs i = p at hst
  cases hst
  rfl

/-- **C115**, other files are left alone. -/
theorem C115_others_partial (s : NamedFiles) (hs : NamesInOrder s) (jobs : List Job) (hsep : SeparateJobs jobs)
    (order : List ℕ) (q : DiskPath) (hq : ∀ job ∈ jobs, q ≠ partOf job ∧ q ≠ archiveOf job) :
    ((downloads s jobs).run order).state.read q = s.read q := by
  obtain ⟨n, h⟩ := downloads_run s hs jobs hsep
  have := (h order).1 jobs.length
  unfold jobJ at this
  rw [List.getElem?_eq_none le_rfl] at this
  exact this.2 q hq

/-- An empty disk. -/
def emptyDisk : NamedFiles := ⟨fun _ => none, fun _ => [], 0⟩

theorem emptyDisk_inOrder : NamesInOrder emptyDisk :=
  ⟨fun _ _ _ h => (by cases h), fun _ _ h => (by cases h)⟩

/-- A server that sends four bytes in two chunks. -/
def fourBytes : Fetch := .ok (some 4, [.ok [1, 2], .ok [3, 4], .ok []])

theorem fourBytes_complete (b : Bytes) : CompleteBody fourBytes b ↔ b = [1, 2, 3, 4] := by
  rw [complete_iff]
  constructor
  · rintro ⟨l, r, h, hb, _⟩
    cases h
    simpa [bodyOf, eq_comm] using hb
  · rintro rfl
    exact ⟨_, _, rfl, rfl, by simp [lenOk]⟩

/-- Two processes that download the same archive; the second request of the second process fails. -/
def sameArchive : List Job :=
  [(["data"], "bdl.tar.bz2", fun _ => fourBytes),
    (["data"], "bdl.tar.bz2", fun n => if n = 0 then fourBytes else .error "URLError")]

/-- **C115 fails** for processes that download the same archive: the first process may return although the archive is
not complete, with no request having failed; and in the end, when both processes are done, the archive may be missing
although the first process returned. -/
theorem C115_same_archive_fails :
    (∃ order, ((downloads emptyDisk sameArchive).run order).result 0 = some (.ok ()) ∧
      ∃ b, ((downloads emptyDisk sameArchive).run order).state.read ["data", "bdl.tar.bz2"] = some b ∧
        ¬CompleteBody fourBytes b) ∧
    ∃ order, ((downloads emptyDisk sameArchive).run order).result 0 = some (.ok ()) ∧
      (∃ e, ((downloads emptyDisk sameArchive).run order).result 1 = some (.error e)) ∧
      ((downloads emptyDisk sameArchive).run order).state.read ["data", "bdl.tar.bz2"] = none := by
  refine ⟨⟨[0, 0, 0, 1, 1, 1, 1, 0, 0], rfl, [1, 2], rfl, ?_⟩,
    ⟨[0, 0, 0, 1, 1, 1, 1, 0, 0, 1, 1, 1, 1, 1, 1], rfl, ⟨"URLError", rfl⟩, rfl⟩⟩
  rw [fourBytes_complete]
  decide

/-- Two speakers at the same time. -/
def twoArchives : List Job :=
  [(["data"], "bdl.tar.bz2", fun _ => fourBytes), (["data"], "slt.tar.bz2", fun _ => fourBytes)]

theorem twoArchives_separate : SeparateJobs twoArchives := by
  constructor
  · simp [twoArchives, archiveOf]
  · simp [twoArchives, archiveOf, partOf]

example : ((downloads emptyDisk twoArchives).run [0, 0, 0, 1, 1, 1, 0, 0, 1, 1]).result 0 = some (.ok ()) := rfl

example (order : List ℕ) : let found := ((downloads emptyDisk twoArchives).run order).state.read ["data", "bdl.tar.bz2"]
    found = none ∨ found = some [1, 2, 3, 4] := by
  rcases C115_always_partial emptyDisk emptyDisk_inOrder twoArchives twoArchives_separate order
    (["data"], "bdl.tar.bz2", fun _ => fourBytes) (by simp [twoArchives]) with h | h | ⟨m, b, _, hb, h⟩
  · exact .inl h
  · exact .inl h
  · rw [fourBytes_complete] at hb
    exact .inr (h.trans (by rw [hb]))

example : ∃ n, ∀ order : List ℕ, n ≤ order.count 1 → ((downloads emptyDisk twoArchives).run order).result 1 = some (.ok ()) := by
  obtain ⟨n, h⟩ := C115_finishes_partial emptyDisk emptyDisk_inOrder twoArchives twoArchives_separate 1
  refine ⟨n, fun order ho => ?_⟩
  have he := (C115_end_partial emptyDisk emptyDisk_inOrder twoArchives twoArchives_separate order 1
    (["data"], "slt.tar.bz2", fun _ => fourBytes) rfl).2
  obtain ⟨r, hr⟩ := Option.isSome_iff_exists.mp (h order ho)
  cases r with
  | ok u => exact hr
  | error e => exact absurd ((fourBytes_complete _).mpr rfl) ((he e hr).2 [1, 2, 3, 4]).1

example (order : List ℕ) : ((downloads emptyDisk twoArchives).run order).state.read ["data", "notes.txt"] = none :=
  C115_others_partial emptyDisk emptyDisk_inOrder twoArchives twoArchives_separate order _
    (by simp [twoArchives, archiveOf, partOf])

end Torchrir.Props
