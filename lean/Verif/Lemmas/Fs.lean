import Verif.Model.Download
import Mathlib.Tactic.Common
import Mathlib.Data.List.Infix

/-! # Rules for programs that act on the disk -/

namespace Torchrir.Model

/-- Started in a state with `P`, the program passes only through states with `I` and ends with `Q` or,
raising an exception, with `E`. -/
def Triple {α : Type} (I P : Machine → Prop) (p : Prog α) (Q : α → Machine → Prop)
    (E : Exc → Machine → Prop) : Prop :=
  ∀ m, P m → (∀ d ∈ (p m).trace, I d) ∧ (∀ a, (p m).result = .ok a → Q a (p m).last) ∧
    ∀ e, (p m).result = .error e → E e (p m).last

/-- The program preserves `I` at every step. -/
def Keeps {α : Type} (I : Machine → Prop) (p : Prog α) : Prop :=
  Triple I I p (fun _ => I) (fun _ => I)

theorem Triple.mono {α : Type} {I I' P P' : Machine → Prop} {p : Prog α} {Q Q' : α → Machine → Prop}
    {E E' : Exc → Machine → Prop} (h : Triple I P p Q E) (hI : ∀ m, I m → I' m)
    (hP : ∀ m, P' m → P m) (hQ : ∀ a m, Q a m → Q' a m) (hE : ∀ e m, E e m → E' e m) :
    Triple I' P' p Q' E' := by
  intro m hm
  obtain ⟨h1, h2, h3⟩ := h m (hP m hm)
  exact ⟨fun d hd => hI d (h1 d hd), fun a ha => hQ a _ (h2 a ha), fun e he => hE e _ (h3 e he)⟩

theorem Triple.pre {α : Type} {I P P' : Machine → Prop} {p : Prog α} {Q : α → Machine → Prop}
    {E : Exc → Machine → Prop} (h : Triple I P p Q E) (hP : ∀ m, P' m → P m) : Triple I P' p Q E :=
  h.mono (fun _ => id) hP (fun _ _ => id) fun _ _ => id

theorem Triple.pure {α : Type} {I P : Machine → Prop} {a : α} {Q : α → Machine → Prop}
    {E : Exc → Machine → Prop} (h : ∀ m, P m → Q a m) : Triple I P (Prog.pure a) Q E := by
  intro m hm
  refine ⟨fun d hd => (nomatch hd), ?_, ?_⟩
  · intro b hb
    cases hb
    exact h m hm
  · intro e he
    cases he

theorem Triple.throw {α : Type} {I P : Machine → Prop} {x : Exc} {Q : α → Machine → Prop}
    {E : Exc → Machine → Prop} (h : ∀ m, P m → E x m) : Triple I P (Prog.throw x) Q E := by
  intro m hm
  refine ⟨fun d hd => (nomatch hd), ?_, ?_⟩
  · intro b hb
    cases hb
  · intro e he
    cases he
    exact h m hm

theorem Triple.look {α : Type} {I P : Machine → Prop} {f : Machine → Except Exc α}
    {Q : α → Machine → Prop} {E : Exc → Machine → Prop} (h : ∀ m a, P m → f m = .ok a → Q a m)
    (h' : ∀ m e, P m → f m = .error e → E e m) : Triple I P (Prog.look f) Q E := by
  intro m hm
  exact ⟨fun d hd => (nomatch hd), fun a ha => h m a hm ha, fun e he => h' m e hm he⟩

theorem Triple.bind {α β : Type} {I P : Machine → Prop} {p : Prog α} {f : α → Prog β}
    {R : α → Machine → Prop} {Q : β → Machine → Prop} {E : Exc → Machine → Prop}
    (h : Triple I P p R E) (h' : ∀ a, Triple I (R a) (f a) Q E) : Triple I P (Prog.bind p f) Q E := by
  intro m hm
  obtain ⟨h1, h2, h3⟩ := h m hm
  unfold Prog.bind
  cases hr : (p m).result with
  | error e =>
    refine ⟨h1, fun a ha => (nomatch ha), fun e' he => ?_⟩
    cases he
    exact h3 e hr
  | ok a =>
    obtain ⟨k1, k2, k3⟩ := h' a _ (h2 a hr)
    refine ⟨fun d hd => ?_, k2, k3⟩
    rcases List.mem_append.mp hd with hd | hd
    · exact h1 d hd
    · exact k1 d hd

theorem Triple.catchWith {α : Type} {I P : Machine → Prop} {p : Prog α} {f : Exc → Prog α}
    {R : Exc → Machine → Prop} {Q : α → Machine → Prop} {E : Exc → Machine → Prop}
    (h : Triple I P p Q R) (h' : ∀ e, Triple I (R e) (f e) Q E) :
    Triple I P (Prog.catchWith p f) Q E := by
  intro m hm
  obtain ⟨h1, h2, h3⟩ := h m hm
  unfold Prog.catchWith
  cases hr : (p m).result with
  | ok a =>
    refine ⟨h1, fun b hb => ?_, fun e he => (nomatch he)⟩
    cases hb
    exact h2 a hr
  | error e =>
    obtain ⟨k1, k2, k3⟩ := h' e _ (h3 e hr)
    refine ⟨fun d hd => ?_, k2, k3⟩
    rcases List.mem_append.mp hd with hd | hd
    · exact h1 d hd
    · exact k1 d hd

theorem Triple.whenState {I P : Machine → Prop} {c : Machine → Bool} {p : Prog Unit}
    {Q : Unit → Machine → Prop} {E : Exc → Machine → Prop}
    (h : Triple I (fun m => P m ∧ c m = true) p Q E) (h' : ∀ m, P m → c m = false → Q () m) :
    Triple I P (Prog.whenState c p) Q E := by
  intro m hm
  unfold Prog.whenState
  by_cases hc : c m = true
  · rw [if_pos hc]
    exact h m ⟨hm, hc⟩
  · rw [if_neg hc]
    refine ⟨fun d hd => (nomatch hd), fun a ha => ?_, fun e he => (nomatch he)⟩
    exact h' m hm (by simpa using hc)

theorem Keeps.whenState {I : Machine → Prop} {c : Machine → Bool} {p : Prog Unit} (h : Keeps I p) :
    Keeps I (Prog.whenState c p) :=
  Triple.whenState (h.pre fun _ hm => hm.1) fun _ hm _ => hm

theorem Keeps.bind {α β : Type} {I : Machine → Prop} {p : Prog α} {f : α → Prog β} (h : Keeps I p)
    (h' : ∀ a, Keeps I (f a)) : Keeps I (Prog.bind p f) :=
  Triple.bind h h'

theorem lookup_eq (fs : Disk) : ∀ (segs : List String) (cur p : DiskPath),
    lookup fs cur segs = some p → p = segs.foldl stepPath cur
  | [], cur, p, h => by
    simp only [lookup, Option.some.injEq] at h
    exact h.symm
  | seg :: rest, cur, p, h => by
    unfold lookup at h
    split_ifs at h
    exact lookup_eq fs rest _ p h

theorem lookup_resolve {fs : Disk} {segs : List String} {p : DiskPath} (h : lookup fs [] segs = some p) :
    p = resolve segs := lookup_eq fs segs [] p h

theorem triple_mkdirOk {I : Machine → Prop} {segs : List String}
    (h : ∀ m, I m → m.disk (resolve segs) = none → I ⟨m.disk.put (resolve segs) (some .dir), m.requests⟩) :
    Keeps I (mkdirOk segs) := by
  intro m hm
  unfold mkdirOk
  cases hl : lookup m.disk [] segs with
  | none => exact ⟨fun d hd => (nomatch hd), fun a ha => (nomatch ha), fun e he => hm⟩
  | some p =>
    obtain rfl := lookup_resolve hl
    dsimp only
    cases hp : m.disk (resolve segs) with
    | none =>
      have := h m hm hp
      refine ⟨fun d hd => ?_, fun _ _ => this, fun _ _ => this⟩
      rw [List.mem_singleton.mp hd]
      exact this
    | some n =>
      cases n with
      | dir => exact Triple.pure (P := I) (fun _ h => h) m hm
      | file c => exact ⟨fun d hd => (nomatch hd), fun a ha => (nomatch ha), fun e he => hm⟩

theorem triple_makedirs {I : Machine → Prop} : ∀ (l : List String),
    (∀ pre, pre <+: l.reverse → ∀ m, I m → m.disk (resolve pre) = none →
      I ⟨m.disk.put (resolve pre) (some .dir), m.requests⟩) → Keeps I (makedirs l)
  | [], _ => Triple.pure fun _ h => h
  | seg :: parent, h => by
    unfold makedirs
    refine Keeps.bind (Keeps.whenState (triple_makedirs parent fun pre hp => h pre ?_)) fun _ => ?_
    · rw [List.reverse_cons]
      exact hp.trans (List.prefix_append _ _)
    · split_ifs
      · exact Triple.pure fun _ h => h
      · refine triple_mkdirOk (h _ ?_)
        rw [List.reverse_cons]

/-- Writing a file at `p` keeps `I`, unless a directory is there. -/
def WriteKeeps (I : Machine → Prop) (p : DiskPath) : Prop :=
  ∀ m c, I m → m.disk p ≠ some .dir → I ⟨m.disk.put p (some (.file c)), m.requests⟩

theorem put_self (fs : Disk) (p : DiskPath) (n : Option Node) : fs.put p n p = n := if_pos rfl

theorem put_ne (fs : Disk) {p q : DiskPath} (n : Option Node) (h : q ≠ p) : fs.put p n q = fs q := if_neg h

theorem triple_openWrite {I : Machine → Prop} {segs : List String} (h : WriteKeeps I (resolve segs)) :
    Triple I I (openWrite segs)
      (fun p m => p = resolve segs ∧ I m ∧ m.disk p = some (.file [])) (fun _ => I) := by
  intro m hm
  unfold openWrite
  cases hl : lookup m.disk [] segs with
  | none => exact ⟨fun d hd => (nomatch hd), fun a ha => (nomatch ha), fun e he => hm⟩
  | some p =>
    obtain rfl := lookup_resolve hl
    dsimp only
    have key : m.disk (resolve segs) ≠ some .dir →
        Triple I (fun x => x = m) (Prog.bind (Prog.set (resolve segs) (some (.file []))) fun _ =>
          Prog.pure (resolve segs))
        (fun p m => p = resolve segs ∧ I m ∧ m.disk p = some (.file [])) (fun _ => I) := by
      intro hne
      have := h m [] hm hne
      refine Triple.bind (R := fun _ x => x = ⟨m.disk.put (resolve segs) (some (.file [])), m.requests⟩)
        ?_ fun _ => Triple.pure ?_
      · rintro _ rfl
        refine ⟨fun d hd => ?_, fun _ _ => rfl, fun e he => (nomatch he)⟩
        rw [List.mem_singleton.mp hd]
        exact this
      · rintro _ rfl
        exact ⟨rfl, this, put_self _ _ _⟩
    cases hp : m.disk (resolve segs) with
    | none => exact key (by rw [hp]; exact fun h => (nomatch h)) m rfl
    | some n =>
      cases n with
      | dir => exact ⟨fun d hd => (nomatch hd), fun a ha => (nomatch ha), fun e he => hm⟩
      | file c => exact key (by rw [hp]; exact fun h => (nomatch h)) m rfl

theorem triple_append {I : Machine → Prop} {p : DiskPath} (h : WriteKeeps I p) : ∀ (c old : Bytes),
    Triple I (fun m => I m ∧ m.disk p = some (.file old)) (appendBytes p old c)
      (fun _ m => I m ∧ m.disk p = some (.file (old ++ c))) (fun _ _ => False)
  | [], old => Triple.pure fun m hm => by simpa using hm
  | b :: c, old => by
    unfold appendBytes
    refine Triple.bind (R := fun _ m => I m ∧ m.disk p = some (.file (old ++ [b]))) ?_ fun _ => ?_
    · intro m hm
      have := h m (old ++ [b]) hm.1 (by rw [hm.2]; exact fun h => (nomatch h))
      refine ⟨fun d hd => ?_, fun _ _ => ⟨this, put_self _ _ _⟩, fun e he => (nomatch he)⟩
      rw [List.mem_singleton.mp hd]
      exact this
    · have := triple_append h c (old ++ [b])
      rwa [List.append_assoc] at this

theorem triple_createMember {I : Machine → Prop} {segs : List String} {x : Member}
    (h : ∀ c, x.kind = .regular c → WriteKeeps I (resolve segs))
    (h' : x.kind = .directory → ∀ m, I m → m.disk (resolve segs) = none →
      I ⟨m.disk.put (resolve segs) (some .dir), m.requests⟩) :
    Keeps I (createMember segs x) := by
  unfold createMember
  cases hk : x.kind with
  | regular c =>
    refine Triple.bind (triple_openWrite (h c hk)) fun p => ?_
    by_cases hp : p = resolve segs
    · subst hp
      exact (triple_append (h c hk) c []).mono (fun _ h => h) (fun _ h => h.2) (fun _ _ h => h.1)
        (fun _ _ h => h.elim)
    · intro m hm
      exact absurd hm.1 hp
  | directory => exact triple_mkdirOk (h' hk)
  | symlink => exact Triple.throw fun _ h => h
  | hardlink => exact Triple.throw fun _ h => h

theorem triple_extractMember {I : Machine → Prop} {root : DiskPath} {x : Member}
    (h : ∀ c, x.kind = .regular c → WriteKeeps I (resolve (joined root x)))
    (h' : ∀ pre, pre <+: joined root x → (pre <+: (joined root x).dropLast ∨ x.kind = .directory) →
      ∀ m, I m → m.disk (resolve pre) = none → I ⟨m.disk.put (resolve pre) (some .dir), m.requests⟩) :
    Keeps I (extractMember root x) := by
  unfold extractMember
  refine Keeps.bind (Keeps.whenState (triple_makedirs _ fun pre hp => ?_)) fun _ =>
    triple_createMember h fun hk => h' _ List.prefix_rfl (Or.inr hk)
  rw [List.reverse_reverse] at hp
  exact h' pre (hp.trans (List.dropLast_prefix _)) (Or.inl hp)

theorem triple_extractAll {I : Machine → Prop} {root : DiskPath} : ∀ (xs : List Member),
    (∀ x ∈ xs, ∀ c, x.kind = .regular c → WriteKeeps I (resolve (joined root x))) →
    (∀ x ∈ xs, ∀ pre, pre <+: joined root x →
      (pre <+: (joined root x).dropLast ∨ x.kind = .directory) → ∀ m, I m →
      m.disk (resolve pre) = none → I ⟨m.disk.put (resolve pre) (some .dir), m.requests⟩) →
    Keeps I (extractAll root xs)
  | [], _, _ => Triple.pure fun _ h => h
  | x :: xs, h, h' => by
    unfold extractAll
    exact Keeps.bind (triple_extractMember (h x (List.mem_cons_self ..)) (h' x (List.mem_cons_self ..)))
      fun _ => triple_extractAll xs (fun y hy => h y (List.mem_cons_of_mem _ hy))
        fun y hy => h' y (List.mem_cons_of_mem _ hy)

theorem checkMembers_ok (root : DiskPath) : ∀ members, checkMembers root members = .ok () →
    ∀ m ∈ members, m.isLink = false ∧ root <+: resolve (joined root m)
  | [], _ => by simp
  | m :: rest, h => by
    unfold checkMembers at h
    split_ifs at h with h1 h2
    intro x hx
    rcases List.mem_cons.mp hx with rfl | hx
    · refine ⟨by simpa using h1, ?_⟩
      unfold underRoot at h2
      exact List.isPrefixOf_iff_prefix.mp (by simpa using h2)
    · exact checkMembers_ok root rest h x hx

theorem triple_safeExtractAll {I : Machine → Prop} {root : DiskPath} {xs : List Member}
    (h : ∀ x ∈ xs, x.isLink = false → root <+: resolve (joined root x) →
      ∀ c, x.kind = .regular c → WriteKeeps I (resolve (joined root x)))
    (h' : ∀ x ∈ xs, root <+: resolve (joined root x) → ∀ pre, pre <+: joined root x →
      (pre <+: (joined root x).dropLast ∨ x.kind = .directory) → ∀ m, I m → m.disk (resolve pre) = none → I ⟨m.disk.put (resolve pre) (some .dir), m.requests⟩) :
    Keeps I (safeExtractAll root xs) := by
  unfold safeExtractAll
  cases hc : checkMembers root xs with
  | error e =>
    exact Triple.bind (R := fun _ _ => False)
      (Triple.look (fun _ _ _ h => (nomatch h)) fun _ _ hm _ => hm) fun _ _ h => h.elim
  | ok u =>
    have hk := checkMembers_ok root xs hc
    exact Keeps.bind (Triple.look (fun _ _ hm _ => hm) fun _ _ _ h => (nomatch h)) fun _ =>
      triple_extractAll xs (fun x hx => h x hx (hk x hx).1 (hk x hx).2) fun x hx => h' x hx (hk x hx).2

theorem resolve_no_dotdot : ∀ (segs : List String) (cur : DiskPath), ".." ∉ segs →
    cur <+: segs.foldl stepPath cur
  | [], cur, _ => List.prefix_rfl
  | seg :: rest, cur, h => by
    rw [List.foldl_cons]
    have hs : seg ≠ ".." := fun e => h (e ▸ List.mem_cons_self ..)
    refine List.IsPrefix.trans ?_ (resolve_no_dotdot rest _ fun hm => h (List.mem_cons_of_mem _ hm))
    unfold stepPath
    rw [if_neg hs]
    split_ifs
    · exact List.prefix_rfl
    · exact List.prefix_append _ _

theorem resolve_prefix {pre segs : List String} (h : pre <+: segs) (hs : ".." ∉ segs) :
    resolve pre <+: resolve segs := by
  obtain ⟨t, rfl⟩ := h
  unfold resolve
  rw [List.foldl_append]
  exact resolve_no_dotdot t _ fun hm => hs (List.mem_append_right _ hm)

end Torchrir.Model
