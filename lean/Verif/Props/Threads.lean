import Verif.Model.Threads
import Verif.Props.Cache

/-!
# C113: simulations in several threads; C114: a dataset shared by threads
-/

namespace Torchrir.Props

open Torchrir.Model Torchrir.Lemmas

/-- `p` ends with `r` after at most `n` actions, whatever other threads do to the state in between as long as they keep
`Inv`, and keeps `Inv` itself. -/
inductive EndsWithin {S α : Type} (Inv : S → Prop) : ℕ → Proc S α → Except String α → Prop
  | done (n : ℕ) (r : Except String α) : EndsWithin Inv n (.done r) r
  | act {n : ℕ} {upd : S → S} {next : S → Proc S α} {r : Except String α} (hu : ∀ s, Inv s → Inv (upd s))
      (hn : ∀ s, Inv s → EndsWithin Inv n (next s) r) : EndsWithin Inv (n + 1) (.act upd next) r

theorem ends_mono {S α : Type} {Inv : S → Prop} {n m : ℕ} {p : Proc S α} {r : Except String α} (h : EndsWithin Inv n p r)
    (hm : n ≤ m) : EndsWithin Inv m p r := by
  induction h generalizing m with
  | done n r => exact .done _ _
  | act hu _ ih =>
    obtain ⟨k, rfl⟩ := Nat.exists_eq_add_of_le hm
    rw [Nat.add_right_comm]
    exact .act hu fun s hs => ih s hs (by omega)

theorem ends_done {S α : Type} {Inv : S → Prop} {n : ℕ} {x r : Except String α} (h : EndsWithin Inv n (.done x) r) :
    x = r := by
  cases h
  rfl

theorem ends_bind_ok {S α β : Type} {Inv : S → Prop} {n m : ℕ} {p : Proc S α} {a : α} {f : α → Proc S β}
    {r : Except String β} (h : EndsWithin Inv n p (.ok a)) (hf : EndsWithin Inv m (f a) r) : EndsWithin Inv (n + m) (p.bind f) r := by
  generalize hx : (Except.ok a : Except String α) = x at h
  induction h with
  | done n r => subst hx; exact ends_mono hf (by omega)
  | act hu _ ih =>
    rw [Nat.add_right_comm]
    exact .act hu fun s hs => ih s hs hx

theorem ends_bind_error {S α β : Type} {Inv : S → Prop} {n : ℕ} {p : Proc S α} {e : String} {f : α → Proc S β}
    (h : EndsWithin Inv n p (.error e)) : EndsWithin Inv n (p.bind f) (.error e) := by
  generalize hx : (Except.error e : Except String α) = x at h
  induction h with
  | done n r => subst hx; exact .done _ _
  | act hu _ ih => exact .act hu fun s hs => ih s hs hx

/-- `p` ends with `r` after some number of actions. -/
def EndsSome {S α : Type} (Inv : S → Prop) (p : Proc S α) (r : Except String α) : Prop := ∃ n, EndsWithin Inv n p r

theorem endsIn_lift {S α : Type} (Inv : S → Prop) (x : Except String α) : EndsSome Inv (Proc.lift x) x :=
  ⟨0, .done _ _⟩

theorem endsIn_bind {S α β : Type} {Inv : S → Prop} {p : Proc S α} {x : Except String α} {f : α → Proc S β}
    {g : α → Except String β} (hp : EndsSome Inv p x) (hf : ∀ a, x = .ok a → EndsSome Inv (f a) (g a)) :
    EndsSome Inv (p.bind f) (x >>= g) := by
  obtain ⟨n, hn⟩ := hp
  cases x with
  | error e => exact ⟨n, ends_bind_error hn⟩
  | ok a =>
    obtain ⟨m, hm⟩ := hf a rfl
    exact ⟨n + m, ends_bind_ok hn hm⟩

/-- Whatever the order in which threads take turns: each thread that would end with `r i` has ended with it once it had
`n i` turns, and can end with nothing else. -/
theorem run_ends {S α : Type} {Inv : S → Prop} (order : List ℕ) :
    ∀ (t : Threads S α) (n : ℕ → ℕ) (r : ℕ → Except String α), Inv t.state → (∀ i, EndsWithin Inv (n i) (t.progs i) (r i)) →
      Inv (t.run order).state ∧ ∀ i, EndsWithin Inv (n i - order.count i) ((t.run order).progs i) (r i) := by
  induction order with
  | nil => intro t n r hs h; exact ⟨hs, fun i => by simpa [Threads.run] using h i⟩
  | cons k order ih =>
    intro t n r hs h
    have key : Inv (t.step k).state ∧ ∀ i, EndsWithin Inv (n i - if i = k then 1 else 0) ((t.step k).progs i) (r i) := by
      unfold Threads.step
      have hk := h k
      cases hp : t.progs k with
      | done x =>
        refine ⟨hs, fun i => ?_⟩
        by_cases hik : i = k
        · subst hik
          rw [hp] at hk
          simp only [hp]
          rw [ends_done hk]
          exact .done _ _
        · simp only [hik, if_false, Nat.sub_zero]
          exact h i
      | act upd next =>
        rw [hp] at hk
        generalize hnk : n k = nk at hk
        cases hk with
        | act hu hn =>
          rename_i m
          refine ⟨hu _ hs, fun i => ?_⟩
          by_cases hik : i = k
          · subst hik
            simp only [Function.update_self, if_true, hnk, Nat.add_sub_cancel]
            exact hn _ hs
          · simp only [hik, if_false, Nat.sub_zero, Function.update_of_ne hik]
            exact h i
    obtain ⟨h1, h2⟩ := ih (t.step k) _ r key.1 key.2
    refine ⟨h1, fun i => ?_⟩
    have := h2 i
    rw [List.count_cons]
    refine ends_mono (n := n i - (if i = k then 1 else 0) - order.count i) this ?_
    by_cases hik : i = k
    · subst hik; simp; omega
    · have : (k == i) = false := by simpa using fun h => hik h.symm
      simp [hik, this]

theorem run_result {S α : Type} {Inv : S → Prop} {order : List ℕ} {t : Threads S α} {n : ℕ → ℕ}
    {r : ℕ → Except String α} (hs : Inv t.state) (h : ∀ i, EndsWithin Inv (n i) (t.progs i) (r i)) (i : ℕ) :
    (∀ x, (t.run order).result i = some x → x = r i) ∧ (n i ≤ order.count i → (t.run order).result i = some (r i)) := by
  have hi := (run_ends order t n r hs h).2 i
  constructor
  · intro x hx
    unfold Threads.result at hx
    cases hp : (t.run order).progs i with
    | done y =>
      rw [hp] at hx hi
      rw [← ends_done hi]
      exact (Option.some.inj hx).symm
    | act upd next => rw [hp] at hx; cases hx
  · intro hn
    rw [Nat.sub_eq_zero_of_le hn] at hi
    unfold Threads.result
    generalize (t.run order).progs i = p at hi
    cases hi
    rfl

/-! ## The dictionaries -/

theorem ends_grid (B : Backend) (fdl : ℕ) (dev : Device) (dt : DType) :
    EndsSome (Caches.Good B) (gridProc B fdl dev dt) (.ok (B.grid fdl dev.str dt)) := by
  refine ⟨2, .act (fun s hs => hs) fun σ h => ?_⟩
  cases hc : σ.grid (fdl, dev.str, dt) with
  | some t => simp only [h.grid _ _ _ _ hc]; exact .done _ _
  | none =>
    refine .act (fun s hs => ⟨hs.lut, ?_, hs.offsets, hs.window, hs.compiled⟩) fun _ _ => .done _ _
    intro f d ty t ht
    simp only [Function.update_apply] at ht
    split at ht
    · rename_i he
      simp only [Prod.mk.injEq] at he
      obtain ⟨rfl, rfl, rfl⟩ := he
      exact (Option.some.inj ht).symm
    · exact hs.grid _ _ _ _ ht

theorem ends_offsets (B : Backend) (fdl : ℕ) (dev : Device) :
    EndsSome (Caches.Good B) (offsetsProc B fdl dev) (.ok (B.offsets fdl dev.str)) := by
  refine ⟨2, .act (fun s hs => hs) fun σ h => ?_⟩
  cases hc : σ.offsets (fdl, dev.str) with
  | some t => simp only [h.offsets _ _ _ hc]; exact .done _ _
  | none =>
    refine .act (fun s hs => ⟨hs.lut, hs.grid, ?_, hs.window, hs.compiled⟩) fun _ _ => .done _ _
    intro f d t ht
    simp only [Function.update_apply] at ht
    split at ht
    · rename_i he
      simp only [Prod.mk.injEq] at he
      obtain ⟨rfl, rfl⟩ := he
      exact (Option.some.inj ht).symm
    · exact hs.offsets _ _ _ ht

theorem ends_window (B : Backend) (fdl : ℕ) (dev : Device) (dt : DType) :
    EndsSome (Caches.Good B) (windowProc B fdl dev dt) (.ok (B.window fdl dev.str dt)) := by
  refine ⟨2, .act (fun s hs => hs) fun σ h => ?_⟩
  cases hc : σ.window (fdl, dev.str, dt) with
  | some t => simp only [h.window _ _ _ _ hc]; exact .done _ _
  | none =>
    refine .act (fun s hs => ⟨hs.lut, hs.grid, hs.offsets, ?_, hs.compiled⟩) fun _ _ => .done _ _
    intro f d ty t ht
    simp only [Function.update_apply] at ht
    split at ht
    · rename_i he
      simp only [Prod.mk.injEq] at he
      obtain ⟨rfl, rfl, rfl⟩ := he
      exact (Option.some.inj ht).symm
    · exact hs.window _ _ _ _ ht

theorem ends_lut (B : Backend) (fdl gran : ℕ) (dev : Device) (dt : DType) :
    EndsSome (Caches.Good B) (lutProc B fdl gran dev dt) (.ok (B.lut fdl gran dev.str dt)) := by
  refine ⟨2, .act (fun s hs => hs) fun σ h => ?_⟩
  cases hc : σ.lut (fdl, gran, dev.str, dt) with
  | some t => simp only [h.lut _ _ _ _ _ hc]; exact .done _ _
  | none =>
    refine .act (fun s hs => ⟨?_, hs.grid, hs.offsets, hs.window, hs.compiled⟩) fun _ _ => .done _ _
    intro f g d ty t ht
    simp only [Function.update_apply] at ht
    split at ht
    · rename_i he
      simp only [Prod.mk.injEq] at he
      obtain ⟨rfl, rfl, rfl, rfl⟩ := he
      exact (Option.some.inj ht).symm
    · exact hs.lut _ _ _ _ _ ht

theorem ends_fn (B : Backend) (cfg : Config) (dev : Device) (dt : DType) :
    EndsSome (Caches.Good B) (accumulateFnProc cfg dev dt) (.ok ⟨cfg.fracDelayLength.toNat,
      cfg.sincLutGranularity.toNat, cfg.useLut && dev.type ≠ .mps, cfg.accumulateChunkSize.toNat⟩) := by
  unfold accumulateFnProc
  simp only
  split
  · exact ⟨0, .done _ _⟩
  · refine ⟨2, .act (fun s hs => hs) fun σ h => ?_⟩
    split
    · rename_i t hc
      rw [h.compiled _ _ _ _ _ _ _ hc]
      exact .done _ _
    · refine .act (fun s hs => ⟨hs.lut, hs.grid, hs.offsets, hs.window, ?_⟩) fun _ _ => .done _ _
      intro d ty f g u c t ht
      simp only [Function.update_apply] at ht
      split at ht
      · rename_i he
        simp only [Prod.mk.injEq] at he
        obtain ⟨rfl, rfl, rfl, rfl, rfl, rfl⟩ := he
        exact (Option.some.inj ht).symm
      · exact hs.compiled _ _ _ _ _ _ _ ht

theorem ends_lutIf (B : Backend) (c : AccumConsts) (dev : Device) (dt : DType) :
    EndsSome (Caches.Good B) (lutIfProc B c dev dt) (.ok (if c.useLut then B.lut c.fdl c.gran dev.str dt else [])) := by
  unfold lutIfProc
  split
  · exact ends_lut _ _ _ _ _
  · exact endsIn_lift _ _

theorem ends_accumulate (B : Backend) (cfg : Config) (dev : Device) (dt : DType)
    (nSm nsample : ℕ) (buf : List ℝ) (s a : List (List ℝ)) :
    EndsSome (Caches.Good B) (accumulateProc B cfg dev dt nSm nsample buf s a)
      (accumulateUncached B cfg dev dt nSm nsample buf s a) := by
  have key : EndsSome (Caches.Good B) (accumulateProc B cfg dev dt nSm nsample buf s a)
      (raiseIf (nSm = 0) "RuntimeError: cannot reshape tensor of 0 elements" >>= fun _ =>
        accumulateUncached B cfg dev dt nSm nsample buf s a) := by
    unfold accumulateProc
    refine endsIn_bind (x := .ok _) (g := fun _ => _) (ends_fn B cfg dev dt) ?_
    rintro c hc
    have hc := (Except.ok.inj hc).symm
    subst hc
    refine endsIn_bind (endsIn_lift _ _) fun _ _ => ?_
    unfold accumulateUncached
    refine endsIn_bind (x := .ok _) (g := fun _ => _) (ends_grid B _ dev dt) fun x hx => ?_
    rw [← Except.ok.inj hx]
    refine endsIn_bind (x := .ok _) (g := fun _ => _) (ends_offsets B _ dev) fun x hx => ?_
    rw [← Except.ok.inj hx]
    refine endsIn_bind (x := .ok _) (g := fun _ => _) (ends_window B _ dev dt) fun x hx => ?_
    rw [← Except.ok.inj hx]
    refine endsIn_bind (x := .ok _) (g := fun _ => _) (ends_lutIf B _ dev dt) fun x hx => ?_
    rw [← Except.ok.inj hx]
    exact endsIn_lift _ _
  have e : (raiseIf (nSm = 0) "RuntimeError: cannot reshape tensor of 0 elements" >>= fun _ =>
        accumulateUncached B cfg dev dt nSm nsample buf s a)
      = accumulateUncached B cfg dev dt nSm nsample buf s a := by
    by_cases h : nSm = 0
    · subst h; rfl
    · rw [raiseIf_neg h, ok_bind]
  rwa [e] at key

theorem ends_loop {B : Backend} {step : List ℝ → ℕ → Proc Caches (List ℝ)}
    {step' : List ℝ → ℕ → Except String (List ℝ)} (h : ∀ b i, EndsSome (Caches.Good B) (step b i) (step' b i)) :
    ∀ (is : List ℕ) (buf : List ℝ),
      EndsSome (Caches.Good B) (Ctx.threads.loop step is buf) (Ctx.pure.loop step' is buf)
  | [], _ => endsIn_lift _ _
  | i :: is, buf => endsIn_bind (h buf i) fun b _ => ends_loop h is b

theorem ends_call (B : Backend) (c : Call) : EndsSome (Caches.Good B) (c.proc B) (freshResult B c) := by
  cases c with
  | static w dev dt room s m a =>
    unfold Call.proc freshResult simulateRirIn
    refine endsIn_bind (endsIn_lift _ _) fun j _ => ?_
    refine endsIn_bind (ends_loop (fun b i => ?_) _ _) fun flat _ => endsIn_lift _ _
    exact endsIn_bind (endsIn_lift _ _) fun ch _ => ends_accumulate B _ _ _ _ _ _ _ _
  | dynamic w dev dt room s m a =>
    unfold Call.proc freshResult simulateDynamicRirIn
    refine endsIn_bind (endsIn_lift _ _) fun j _ => ?_
    refine endsIn_bind (ends_loop (fun b i => ?_) _ _) fun flat _ => endsIn_lift _ _
    exact endsIn_bind (endsIn_lift _ _) fun ch _ => ends_accumulate B _ _ _ _ _ _ _ _

theorem callThreads_ends (B : Backend) (calls : List Call) :
    ∃ n : ℕ → ℕ, ∀ i, EndsWithin (Caches.Good B) (n i) ((callThreads B calls).progs i)
      (match calls[i]? with | some c => freshResult B c | none => .error "no call") := by
  have h : ∀ i, ∃ k, EndsWithin (Caches.Good B) k ((callThreads B calls).progs i)
      (match calls[i]? with | some c => freshResult B c | none => .error "no call") := by
    intro i
    unfold callThreads
    simp only
    cases calls[i]? with
    | none => exact ⟨0, .done _ _⟩
    | some c => exact ends_call B c
  exact ⟨fun i => (h i).choose, fun i => (h i).choose_spec⟩

/-- **C113.** Simulations that run in several threads at the same time do not disturb each other: whatever the order in
which the threads take their turns, a call that has ended has the outcome (result or error) that it has when it is the
only call in a fresh process. -/
theorem C113_undisturbed (B : Backend) (calls : List Call) (order : List ℕ) (i : ℕ) (c : Call)
    (hc : calls[i]? = some c) (r : Except String (Tensor ℝ))
    (h : ((callThreads B calls).run order).result i = some r) : r = (c.run B .empty).1 := by
  obtain ⟨n, hn⟩ := callThreads_ends B calls
  have := (run_result (order := order) (good_empty B) hn i).1 r h
  rw [this, hc, (refines_call B c _ (good_empty B)).1]

/-- **C113.** No thread waits for another: there is a number of turns after which a call has ended, however the turns of
the other threads lie between them. -/
theorem C113_ends (B : Backend) (calls : List Call) (i : ℕ) :
    ∃ turns, ∀ order : List ℕ, turns ≤ order.count i →
      ∃ r, ((callThreads B calls).run order).result i = some r := by
  obtain ⟨n, hn⟩ := callThreads_ends B calls
  exact ⟨n i, fun order ho => ⟨_, (run_result (order := order) (good_empty B) hn i).2 ho⟩⟩

/-- **C113.** With exact arithmetic, a call that ends has computed what `simulateRir` and `simulateDynamicRir` of the
model compute, about which the other theorems speak. -/
theorem C113_plain (calls : List Call) (order : List ℕ) (i : ℕ) (w : World) (dev : Device) (dt : DType)
    (hdev : w.device = dev.type) (room : Room) (a : SimArgs) (r : Except String (Tensor ℝ))
    (h : ((callThreads .exact calls).run order).result i = some r) :
    (∀ s m, calls[i]? = some (.static w dev dt room s m a) → r = simulateRir w room s m a) ∧
    (∀ s m, calls[i]? = some (.dynamic w dev dt room s m a) → r = simulateDynamicRir w room s m a) := by
  refine ⟨fun s m hc => ?_, fun s m hc => ?_⟩
  · rw [C113_undisturbed _ _ _ _ _ hc _ h]
    exact (C19_cached_call_is_the_plain_call [] w dev dt hdev room a).1 s m
  · rw [C113_undisturbed _ _ _ _ _ hc _ h]
    exact (C19_cached_call_is_the_plain_call [] w dev dt hdev room a).2 s m

/-- Two simulations with the same tables take turns action by action; both ask for the first table before either stores
it, so both store it. -/
example (B : Backend) (w : World) (room : Room) (s m : Entity) (a : SimArgs) (n : ℕ) (r : Except String (Tensor ℝ)) :
    let c := Call.static w ⟨.cpu, "cpu"⟩ "float32" room s m a
    ((callThreads B [c, c]).run ((List.replicate n [0, 1]).flatten)).result 1 = some r → r = (c.run B .empty).1 :=
  fun h => C113_undisturbed B _ _ 1 _ rfl r h

/-! ## A dataset shared by threads -/

/-- Within `n` actions `p` ends with a result that satisfies `Post`, if the other threads change the state only as `G`
allows; it does so itself. `s` is the state after its last action. -/
inductive Under {S α : Type} (G : S → S → Prop) (Post : Except String α → Prop) : ℕ → S → Proc S α → Prop
  | done {n : ℕ} {s : S} {r : Except String α} (h : Post r) : Under G Post n s (.done r)
  | acts {n : ℕ} {s : S} {upd : S → S} {next : S → Proc S α} (hg : ∀ s', G s s' → G s' (upd s'))
      (hu : ∀ s', G s s' → Under G Post n (upd s') (next s')) : Under G Post (n + 1) s (.act upd next)

theorem Under.act {S α : Type} {G : S → S → Prop} {Post : Except String α → Prop} {n : ℕ} {s : S} {upd : S → S}
    {next : S → Proc S α} (h : ∀ s', G s s' → G s' (upd s') ∧ Under G Post n (upd s') (next s')) :
    Under G Post (n + 1) s (.act upd next) :=
  .acts (fun s' hs => (h s' hs).1) fun s' hs => (h s' hs).2

theorem under_mono {S α : Type} {G : S → S → Prop} (trans : ∀ a b c, G a b → G b c → G a c)
    {Post : Except String α → Prop} {n : ℕ} {s s' : S} {p : Proc S α} (h : Under G Post n s p) (hs : G s s') :
    Under G Post n s' p := by
  cases h with
  | done h => exact .done h
  | acts hg hu => exact .acts (fun t ht => hg t (trans _ _ _ hs ht)) fun t ht => hu t (trans _ _ _ hs ht)

theorem under_run {S α : Type} {G : S → S → Prop} (trans : ∀ a b c, G a b → G b c → G a c) (refl : ∀ a, G a a)
    {Post : ℕ → Except String α → Prop} (order : List ℕ) :
    ∀ (t : Threads S α) (n : ℕ → ℕ), (∀ i, Under G (Post i) (n i) t.state (t.progs i)) →
      G t.state (t.run order).state ∧
        ∀ i, Under G (Post i) (n i - order.count i) (t.run order).state ((t.run order).progs i) := by
  induction order with
  | nil => intro t n h; exact ⟨refl _, fun i => by simpa [Threads.run] using h i⟩
  | cons k order ih =>
    intro t n h
    have key : G t.state (t.step k).state ∧
        ∀ i, Under G (Post i) (n i - if i = k then 1 else 0) (t.step k).state ((t.step k).progs i) := by
      unfold Threads.step
      have hk := h k
      cases hp : t.progs k with
      | done x =>
        refine ⟨refl _, fun i => ?_⟩
        by_cases hik : i = k
        · subst hik
          rw [hp] at hk
          simp only [hp]
          generalize n i = m at hk
          cases hk with
          | done hx => exact .done hx
        · simp only [hik, if_false, Nat.sub_zero]
          exact h i
      | act upd next =>
        rw [hp] at hk
        generalize hnk : n k = nk at hk
        cases hk with
        | acts hg hu =>
          have hg := hg _ (refl _)
          refine ⟨hg, fun i => ?_⟩
          by_cases hik : i = k
          · subst hik
            simp only [Function.update_self, if_true, hnk, Nat.add_sub_cancel]
            exact hu _ (refl _)
          · simp only [hik, if_false, Nat.sub_zero, Function.update_of_ne hik]
            exact under_mono trans (h i) hg
    obtain ⟨h1, h2⟩ := ih (t.step k) _ key.2
    refine ⟨trans _ _ _ key.1 h1, fun i => ?_⟩
    have := h2 i
    have e : n i - (k :: order).count i = n i - (if i = k then 1 else 0) - order.count i := by
      rw [List.count_cons]
      by_cases hik : i = k
      · subst hik; simp; omega
      · have : (k == i) = false := by simpa using fun h => hik h.symm
        simp [hik, this]
    rw [e]
    exact this

theorem under_result {S α : Type} {G : S → S → Prop} {Post : Except String α → Prop} {n : ℕ} {t : Threads S α} {i : ℕ}
    (h : Under G Post n t.state (t.progs i)) :
    (∀ r, t.result i = some r → Post r) ∧ (n = 0 → ∃ r, t.result i = some r) := by
  unfold Threads.result
  cases hp : t.progs i with
  | done x =>
    rw [hp] at h
    cases h with
    | done hx =>
      refine ⟨fun r hr => ?_, fun _ => ⟨_, rfl⟩⟩
      rw [← Option.some.inj hr]
      exact hx
  | act upd next =>
    rw [hp] at h
    refine ⟨fun r hr => by simp at hr, fun hn => ?_⟩
    subst hn
    generalize hq : Proc.act upd next = q at h
    generalize hm : 0 = m at h
    cases h with
    | done _ => cases hq
    | acts _ _ => omega

/-- The files are `w`, and the attribute is `None` or what is listed in them. -/
def Listed {W : Type} (f : Files W) (w : W) (s : SharedDataset W) : Prop :=
  s.files = w ∧ ∀ l, s.cache = some l → f.available w = .ok l

theorem item_same {W : Type} (f : Files W) (w : W) (speaker : Option String) (z : ℤ) (s : SharedDataset W)
    (hs : Listed f w s) :
    Under (fun s s' => Listed f w s → Listed f w s' ∧ (s.cache.isSome → s'.cache.isSome))
      (fun r : Except String (Item Unit) => r = (datasetGet f w ⟨none, speaker⟩ (.int z)).2) 5 s (itemProc f speaker z) := by
  have use : ∀ (n : ℕ) (s : SharedDataset W) (l : List Sentence), f.available w = .ok l → Listed f w s →
      Under (fun s s' => Listed f w s → Listed f w s' ∧ (s.cache.isSome → s'.cache.isSome))
        (fun r : Except String (Item Unit) => r = (datasetGet f w ⟨none, speaker⟩ (.int z)).2) (n + 1) s
        (match pyGet l z with
          | .error e => .done (.error e)
          | .ok sentence => .look fun s => .done (loadItem f s.files speaker sentence)) := by
    intro n s l hl hs
    have e : (datasetGet (μ := Unit) f w ⟨none, speaker⟩ (.int z)).2
        = (pyGet l z).bind (loadItem f w speaker) := by
      simp only [datasetGet, getSentences, hl]
      rfl
    cases hg : pyGet l z with
    | error m => refine .done ?_; rw [e, hg]; rfl
    | ok x =>
      refine .act fun s' h' => ⟨fun h => ⟨h, id⟩, .done ?_⟩
      rw [e, hg, (h' hs).1.1]
      rfl
  have again : ∀ (n : ℕ) (s : SharedDataset W), Listed f w s → s.cache.isSome →
      Under (fun s s' => Listed f w s → Listed f w s' ∧ (s.cache.isSome → s'.cache.isSome))
        (fun r : Except String (Item Unit) => r = (datasetGet f w ⟨none, speaker⟩ (.int z)).2) (n + 2) s
        (.look fun s => match s.cache with
          | some l => (match pyGet l z with
            | .error e => .done (.error e)
            | .ok sentence => .look fun s => .done (loadItem f s.files speaker sentence))
          | none => .done (.error "TypeError: object of type 'NoneType' has no len()")) := by
    intro n s hs hc
    refine .act fun s' h' => ⟨fun h => ⟨h, id⟩, ?_⟩
    obtain ⟨hl, hsome⟩ := h' hs
    cases hc' : s'.cache with
    | none => have := hsome hc; rw [hc'] at this; cases this
    | some l => exact use n s' l (hl.2 l hc') hl
  unfold itemProc sentencesProc
  refine .act fun s' h' => ⟨fun h => ⟨h, id⟩, ?_⟩
  obtain ⟨hl, -⟩ := h' hs
  cases hc : s'.cache with
  | some l => exact again 2 s' hl (by rw [hc]; rfl)
  | none =>
    refine .act fun s2 h2 => ⟨fun h => ⟨h, id⟩, ?_⟩
    obtain ⟨hl2, -⟩ := h2 hl
    have hf : s2.files = w := hl2.1
    rw [hf]
    cases hav : f.available w with
    | error e =>
      refine .done ?_
      simp only [datasetGet, getSentences, hav]
      rfl
    | ok l =>
      refine .act fun s3 h3 => ⟨fun h => ⟨⟨h.1, fun l' hl' => ?_⟩, fun _ => rfl⟩, ?_⟩
      · rw [hav, Option.some.inj hl']
      · refine again 0 _ ⟨(h3 hl2).1.1, fun l' hl' => ?_⟩ rfl
        rw [hav, Option.some.inj hl']

/-- **C114.** Threads that read items of one dataset object get, whatever the order of their turns, what each of them
would get from a new object of its own, and every thread has its item after five turns, provided that the files do not
change. -/
theorem C114_items {W : Type} (f : Files W) (w : W) (speaker : Option String) (idx : List ℤ) (order : List ℕ) (i : ℕ)
    (z : ℤ) (hz : idx[i]? = some z) :
    (∀ r, ((datasetThreads f speaker ⟨w, none⟩ (idx.map .item)).run order).result i = some r →
      r = (datasetGet f w ⟨none, speaker⟩ (.int z)).2) ∧
    (5 ≤ order.count i →
      ∃ r, ((datasetThreads f speaker ⟨w, none⟩ (idx.map .item)).run order).result i = some r) := by
  have h0 : ∀ i, Under (fun s s' => Listed f w s → Listed f w s' ∧ (s.cache.isSome → s'.cache.isSome))
      (fun r => ∀ z, idx[i]? = some z → r = (datasetGet f w ⟨none, speaker⟩ (.int z)).2) 5
      (⟨w, none⟩ : SharedDataset W) ((datasetThreads f speaker ⟨w, none⟩ (idx.map .item)).progs i) := by
    intro i
    unfold datasetThreads
    simp only [List.getElem?_map]
    cases hi : idx[i]? with
    | none => exact .done (fun z hz => by cases hz)
    | some x =>
      have := item_same f w speaker x ⟨w, none⟩ ⟨rfl, fun l hl => by cases hl⟩
      simp only [Option.map_some, DatasetTask.proc]
      have e : (fun r : Except String (Item Unit) => ∀ z, some x = some z →
          r = (datasetGet f w ⟨none, speaker⟩ (.int z)).2)
          = fun r => r = (datasetGet f w ⟨none, speaker⟩ (.int x)).2 := by
        funext r
        exact propext ⟨fun h => h x rfl, fun h z hz => Option.some.inj hz ▸ h⟩
      rw [e]
      exact this
  have := (under_run (G := fun s s' => Listed f w s → Listed f w s' ∧ (s.cache.isSome → s'.cache.isSome))
    (Post := fun i r => ∀ z, idx[i]? = some z → r = (datasetGet f w ⟨none, speaker⟩ (.int z)).2)
    (fun a b c hab hbc ha => ⟨(hbc (hab ha).1).1, fun h => (hbc (hab ha).1).2 ((hab ha).2 h)⟩)
    (fun a ha => ⟨ha, id⟩) order (datasetThreads f speaker ⟨w, none⟩ (idx.map .item)) (fun _ => 5) h0).2 i
  obtain ⟨h1, h2⟩ := under_result this
  exact ⟨fun r hr => h1 r hr z hz, fun hn => h2 (Nat.sub_eq_zero_of_le hn)⟩

/-- **C114, for an object that has been used before.** If `len(dataset)` or an index was used before the threads start,
the sentences are settled: whatever the threads do and however the files change, an item that a thread gets is that of
the sentence with its index among them, and the sentences stay the same. -/
theorem C114_settled_partial {W : Type} (f : Files W) (speaker : Option String) (w : W) (l : List Sentence)
    (tasks : List (DatasetTask W)) (order : List ℕ) :
    ((datasetThreads f speaker ⟨w, some l⟩ tasks).run order).state.cache = some l ∧
    ∀ i z, tasks[i]? = some (.item z) →
      (∀ it, ((datasetThreads f speaker ⟨w, some l⟩ tasks).run order).result i = some (.ok it) →
        ∃ x, pyGet l z = .ok x ∧ it.utteranceId = x.utteranceId ∧ it.text = x.text ∧ it.speaker = speaker) := by
  have h0 : ∀ i, Under (fun s s' : SharedDataset W => s.cache = some l → s'.cache = some l)
      (fun r => ∀ z, tasks[i]? = some (.item z) → ∀ it, r = .ok it →
        ∃ x, pyGet l z = .ok x ∧ it.utteranceId = x.utteranceId ∧ it.text = x.text ∧ it.speaker = speaker) 5
      (⟨w, some l⟩ : SharedDataset W) ((datasetThreads f speaker ⟨w, some l⟩ tasks).progs i) := by
    intro i
    unfold datasetThreads
    simp only
    cases hi : tasks[i]? with
    | none => exact .done (fun z hz => by cases hz)
    | some t =>
      cases t with
      | change g => exact .act fun s' h' => ⟨id, .done (fun z hz => by cases hz)⟩
      | item x =>
        simp only [DatasetTask.proc]
        unfold itemProc sentencesProc
        refine .act fun s' h' => ⟨id, ?_⟩
        simp only [h' rfl]
        refine .act fun s2 h2 => ⟨id, ?_⟩
        simp only [h2 (h' rfl)]
        cases hg : pyGet l x with
        | error m => exact .done (fun z hz it hit => by cases hit)
        | ok y =>
          refine .act fun s3 _ => ⟨id, .done ?_⟩
          intro z hz it hit
          cases hz
          unfold loadItem at hit
          cases ha : f.audio s3.files y.utteranceId with
          | error m => rw [ha] at hit; cases hit
          | ok a =>
            rw [ha] at hit
            cases hit
            exact ⟨y, hg, rfl, rfl, rfl⟩
  have h := under_run (G := fun s s' : SharedDataset W => s.cache = some l → s'.cache = some l)
    (Post := fun i r => ∀ z, tasks[i]? = some (.item z) → ∀ it, r = .ok it →
        ∃ x, pyGet l z = .ok x ∧ it.utteranceId = x.utteranceId ∧ it.text = x.text ∧ it.speaker = speaker)
    (fun a b c hab hbc ha => hbc (hab ha)) (fun a ha => ha) order (datasetThreads f speaker ⟨w, some l⟩ tasks)
    (fun _ => 5) h0
  exact ⟨h.1 rfl, fun i z hz it hit => (under_result (h.2 i)).1 _ hit z hz it rfl⟩

/-- A corpus whose only sentence is that in its state. -/
def oneSentence : Files String where
  available w := .ok [⟨w, none⟩]
  audio _ _ := .ok (⟨[1], [0]⟩, 16000)

/-- **C114 fails for a new object while the files change.** Thread 1 finds the attribute unset and is then overtaken by
thread 0, which lists the sentences and returns item 0; then the files change, and thread 1 lists them again. Thread 3
asks for item 0 after thread 0 got it, and gets another utterance: the sentences of an object are not settled by its
first use. -/
theorem C114_snapshot_fails :
    let run := (datasetThreads oneSentence none ⟨"a", none⟩
      [.item 0, .item 0, .change fun _ => "b", .item 0]).run [1, 0, 0, 0, 0, 0, 2, 1, 1, 3, 3, 3]
    (∃ x, run.result 0 = some (.ok x) ∧ x.utteranceId = "a") ∧
      ∃ x, run.result 3 = some (.ok x) ∧ x.utteranceId = "b" := by
  refine ⟨⟨⟨.floating, ⟨[1], [0]⟩, 16000, "a", none, none, none⟩, ?_, rfl⟩,
    ⟨⟨.floating, ⟨[1], [0]⟩, 16000, "b", none, none, none⟩, ?_, rfl⟩⟩ <;> rfl

/-- Two threads that both find the attribute unset get the same items as two objects. -/
example : ((datasetThreads oneSentence none ⟨"a", none⟩ [.item 0, .item (-1)]).run
    [0, 1, 0, 1, 0, 1, 0, 1, 0, 1]).result 1 = some (datasetGet oneSentence "a" ⟨none, none⟩ (.int (-1))).2 := by
  obtain ⟨r, hr⟩ := (C114_items oneSentence "a" none [0, -1] [0, 1, 0, 1, 0, 1, 0, 1, 0, 1] 1 (-1) rfl).2 (by decide)
  have := (C114_items oneSentence "a" none [0, -1] [0, 1, 0, 1, 0, 1, 0, 1, 0, 1] 1 (-1) rfl).1 r hr
  exact hr.trans (congrArg some this)

end Torchrir.Props
