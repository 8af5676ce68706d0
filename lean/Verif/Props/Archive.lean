import Verif.Lemmas.Fs

/-! # Archive extraction: C48 -/

namespace Torchrir.Props

open Torchrir.Model

/-- The path is the destination or lies below it. -/
def Inside (root p : DiskPath) : Prop := root <+: p

/-- The member is a symbolic or hard link. -/
def IsLink (x : Member) : Prop := x.kind = .symlink ∨ x.kind = .hardlink

theorem isLink_of {x : Member} (h : IsLink x) : x.isLink = true := by
  unfold Member.isLink
  rcases h with h | h <;> rw [h]

theorem isLink_false {x : Member} (h : ¬ IsLink x) : x.isLink = false := by
  unfold Member.isLink
  unfold IsLink at h
  cases hk : x.kind <;> simp_all

/-- The disk was in state `d` at some moment of the run or at its end. -/
def Seen {α : Type} (r : Run α) (d : Disk) : Prop := (∃ m ∈ r.trace, m.disk = d) ∨ r.last.disk = d

theorem Triple.seen {α : Type} {I : Machine → Prop} {p : Prog α} {m : Machine} {J : Disk → Prop}
    (hk : Keeps I p) (hm : I m) (hIJ : ∀ x, I x → J x.disk) {d : Disk} (hd : Seen (p m) d) : J d := by
  obtain ⟨h1, h2, h3⟩ := hk m hm
  rcases hd with ⟨x, hx, rfl⟩ | rfl
  · exact hIJ x (h1 x hx)
  · apply hIJ
    cases hr : (p m).result with
    | ok a => exact h2 a hr
    | error e => exact h3 e hr

theorem checkMembers_error (root : DiskPath) : ∀ members : List Member,
    (∃ m ∈ members, m.isLink = true ∨ ¬ Inside root (resolve (joined root m))) →
    ∃ e, checkMembers root members = .error e := by
  intro members ⟨m, hm, h⟩
  cases hc : checkMembers root members with
  | error e => exact ⟨e, rfl⟩
  | ok u =>
    obtain ⟨h1, h2⟩ := checkMembers_ok root members hc m hm
    rcases h with h | h
    · rw [h1] at h
      cases h
    · exact absurd h2 h

theorem checkMembers_class (root : DiskPath) : ∀ members e, checkMembers root members = .error e →
    ∃ msg, e = .value msg
  | [], e, h => by cases h
  | m :: rest, e, h => by
    unfold checkMembers at h
    split_ifs at h
    · cases h
      exact ⟨_, rfl⟩
    · cases h
      exact ⟨_, rfl⟩
    · exact checkMembers_class root rest e h

/-- **C48 (rejection).** An archive with a link, or with a member whose name leads outside the
destination, is refused with a `ValueError` before the disk is touched. -/
theorem C48_rejected_untouched (root : DiskPath) (m : Machine) (members : List Member)
    (h : ∃ x ∈ members, IsLink x ∨ ¬ Inside root (resolve (joined root x))) :
    (∃ msg, (safeExtractAll root members m).result = .error (.value msg)) ∧
      ∀ d, Seen (safeExtractAll root members m) d → d = m.disk := by
  obtain ⟨e, he⟩ := checkMembers_error root members (by
    obtain ⟨x, hx, hl⟩ := h
    exact ⟨x, hx, hl.imp_left isLink_of⟩)
  obtain ⟨msg, rfl⟩ := checkMembers_class root members e he
  have : safeExtractAll root members m = ⟨[], m, .error (.value msg)⟩ := by
    unfold safeExtractAll Prog.bind Prog.look
    rw [he]
  rw [this]
  refine ⟨⟨msg, rfl⟩, ?_⟩
  rintro d (⟨x, hx, -⟩ | rfl)
  · cases hx
  · rfl

example (m : Machine) : ∀ d, Seen (safeExtractAll ["data"]
    [⟨false, ["a.wav"], .regular []⟩, ⟨false, ["..", "etc", "passwd"], .regular []⟩] m) d → d = m.disk :=
  (C48_rejected_untouched _ _ _ ⟨⟨false, ["..", "etc", "passwd"], .regular []⟩, by simp, Or.inr (by
    unfold Inside
    decide)⟩).2

/-- **C48 (files).** Whatever the archive, at every moment of the extraction and also if it fails half
way: outside the destination no file is created, changed or removed, and no existing directory changes.
The only possible trace outside the destination is a new directory. Missing for the full claim: see
`C48_new_directory_fails`. -/
theorem C48_files_contained_partial (root : DiskPath) (m : Machine) (members : List Member) (d : Disk)
    (hd : Seen (safeExtractAll root members m) d) (q : DiskPath) (hq : ¬ Inside root q) :
    d q = m.disk q ∨ m.disk q = none ∧ d q = some .dir := by
  refine Triple.seen (I := fun x => x.disk q = m.disk q ∨ m.disk q = none ∧ x.disk q = some .dir)
    (J := fun d => d q = m.disk q ∨ m.disk q = none ∧ d q = some .dir)
    (triple_safeExtractAll ?_ ?_) (Or.inl rfl) (fun x hx => hx) hd
  · intro x _ _ hin c _ y c' hy _
    dsimp only
    rw [put_ne _ _ fun e => hq (by rw [e]; exact hin)]
    exact hy
  · intro x _ _ pre _ _ y hy hnone
    dsimp only
    by_cases hqp : q = resolve pre
    · rw [hqp, put_self]
      rw [hqp] at hy
      rcases hy with hy | ⟨hy, -⟩
      · exact Or.inr ⟨hy ▸ hnone, rfl⟩
      · exact Or.inr ⟨hy, rfl⟩
    · rw [put_ne _ _ hqp]
      exact hy

/-- **C48 (containment).** If the destination exists and no member name has a `..` component, nothing
at all changes outside the destination, at any moment and whatever else the names contain. -/
theorem C48_contained_partial (root : DiskPath) (hroot : ".." ∉ root) (m : Machine)
    (hex : ∀ p, p <+: root → m.disk p = some .dir) (members : List Member)
    (hd : ∀ x ∈ members, ".." ∉ x.segments) (d : Disk) (hd' : Seen (safeExtractAll root members m) d)
    (q : DiskPath) (hq : ¬ Inside root q) : d q = m.disk q := by
  refine (Triple.seen (I := fun x => (∀ p, p <+: root → x.disk p = some .dir) ∧ x.disk q = m.disk q)
    (J := fun d => (∀ p, p <+: root → d p = some .dir) ∧ d q = m.disk q)
    (triple_safeExtractAll ?_ ?_) ⟨hex, rfl⟩ (fun x hx => hx) hd').2
  · intro x _ _ hin c _ y c' hy hdir
    dsimp only
    refine ⟨fun p hp => ?_, ?_⟩
    · have : p ≠ resolve (joined root x) := by
        intro e
        rw [← e, hy.1 p hp] at hdir
        exact hdir rfl
      rw [put_ne _ _ this]
      exact hy.1 p hp
    · rw [put_ne _ _ fun e => hq (by rw [e]; exact hin)]
      exact hy.2
  · intro x hx hin pre hpre _ y hy hnone
    have hseg : ".." ∉ joined root x := by
      unfold joined
      have := hd x hx
      split_ifs
      · exact this
      · rw [List.mem_append]
        tauto
    have hp := resolve_prefix hpre hseg
    dsimp only
    rcases List.prefix_or_prefix_of_prefix hp hin with hh | hh
    · rw [hy.1 _ hh] at hnone
      cases hnone
    · refine ⟨fun p hp => ?_, ?_⟩
      · have : p ≠ resolve pre := by
          intro e
          rw [← e, hy.1 p hp] at hnone
          cases hnone
        rw [put_ne _ _ this]
        exact hy.1 p hp
      · rw [put_ne _ _ fun e => hq (by rw [e]; exact hh)]
        exact hy.2

/-- A disk with the single directory `/data`. -/
def dataDisk : Disk := fun p => if p = [] ∨ p = ["data"] then some .dir else none

/-- An ordinary archive. -/
def smallArchive : List Member :=
  [⟨false, ["wav", ".", "a.wav"], .regular [1, 2]⟩, ⟨true, ["data", "b"], .directory⟩]

-- it is extracted, and nothing outside changes
example (d : Disk) (hd : Seen (safeExtractAll ["data"] smallArchive ⟨dataDisk, 0⟩) d) (q : DiskPath)
    (hq : ¬ Inside ["data"] q) : d q = dataDisk q := by
  refine C48_contained_partial _ (by decide) ⟨dataDisk, 0⟩ ?_ smallArchive
    (by unfold smallArchive; simp) d hd q hq
  intro p hp
  have : p = [] ∨ p = ["data"] := by
    rcases p with _ | ⟨a, p⟩
    · exact Or.inl rfl
    · rw [List.cons_prefix_cons] at hp
      obtain ⟨rfl, hp⟩ := hp
      rw [List.prefix_nil] at hp
      rw [hp]
      exact Or.inr rfl
  show dataDisk p = _
  unfold dataDisk
  rw [if_pos this]

example : (safeExtractAll ["data"] smallArchive ⟨dataDisk, 0⟩).result = .ok () ∧
    (safeExtractAll ["data"] smallArchive ⟨dataDisk, 0⟩).last.disk ["data", "wav", "a.wav"] =
      some (.file [1, 2]) ∧
    (safeExtractAll ["data"] smallArchive ⟨dataDisk, 0⟩).last.disk ["data", "b"] = some .dir := by
  refine ⟨by rfl, by decide, by decide⟩

/-- **C48 fails for directories.** The member `../x/../data/f` resolves to a place inside the
destination `/data` and is accepted, but extracting it creates the directory `/x`. -/
theorem C48_new_directory_fails :
    ¬ Inside ["data"] ["x"] ∧ dataDisk ["x"] = none ∧
    (safeExtractAll ["data"] [⟨false, ["..", "x", "..", "data", "f"], .regular []⟩]
      ⟨dataDisk, 0⟩).result = .ok () ∧
    (safeExtractAll ["data"] [⟨false, ["..", "x", "..", "data", "f"], .regular []⟩]
      ⟨dataDisk, 0⟩).last.disk ["x"] = some .dir := by
  refine ⟨by unfold Inside; decide, by decide, by rfl, by decide⟩

/-! ## The directories outside -/

/-- A member name passes through `q` on its way. -/
def Passes (root : DiskPath) (members : List Member) (q : DiskPath) : Prop :=
  ∃ x ∈ members, ∃ pre, pre <+: joined root x ∧ resolve pre = q

theorem lookup_dirs (fs : Disk) : ∀ (segs : List String) (cur p : DiskPath), lookup fs cur segs = some p →
    ∀ pre, pre <+: segs → pre ≠ segs → fs (pre.foldl stepPath cur) = some .dir
  | [], _, _, _, pre, hp, hne => absurd (List.prefix_nil.mp hp) hne
  | seg :: rest, cur, p, h, pre, hp, hne => by
    unfold lookup at h
    split_ifs at h with hd
    cases pre with
    | nil => exact hd
    | cons a pre =>
      obtain ⟨rfl, hp'⟩ := List.cons_prefix_cons.mp hp
      exact lookup_dirs fs rest _ p h pre hp' fun e => hne (by rw [e])

theorem createMember_looked {segs : List String} {x : Member} {m : Machine}
    (h : (createMember segs x m).result = .ok ()) : ∃ p, lookup m.disk [] segs = some p := by
  cases hl : lookup m.disk [] segs with
  | some p => exact ⟨p, rfl⟩
  | none =>
    have ho : openWrite segs m = Prog.throw (.os "No such file or directory") m := by
      unfold openWrite
      rw [hl]
    have hd : mkdirOk segs m = Prog.throw (.os "No such file or directory") m := by
      unfold mkdirOk
      rw [hl]
    exfalso
    cases hk : x.kind with
    | regular c =>
      have e : createMember segs x = Prog.bind (openWrite segs) fun p => appendBytes p [] c := by
        unfold createMember
        rw [hk]
      rw [e] at h
      have : (Prog.bind (openWrite segs) (fun p => appendBytes p [] c) m).result
          = .error (.os "No such file or directory") := by
        simp only [Prog.bind, ho, Prog.throw]
      rw [this] at h
      exact nomatch h
    | directory =>
      have e : createMember segs x = mkdirOk segs := by
        unfold createMember
        rw [hk]
      rw [e, hd] at h
      exact nomatch h
    | symlink =>
      have e : createMember segs x = Prog.throw (.value "links are rejected before") := by
        unfold createMember
        rw [hk]
      rw [e] at h
      exact nomatch h
    | hardlink =>
      have e : createMember segs x = Prog.throw (.value "links are rejected before") := by
        unfold createMember
        rw [hk]
      rw [e] at h
      exact nomatch h

/-- A directory stays one. -/
theorem keeps_dir (q : DiskPath) (root : DiskPath) (xs : List Member) :
    Keeps (fun y => y.disk q = some .dir) (extractAll root xs) := by
  refine triple_extractAll xs (fun x _ c _ y c' hy hdir => ?_) fun x _ pre _ _ y hy hnone => ?_
  · dsimp only
    rwa [put_ne _ _ fun e => hdir (by rw [← e]; exact hy)]
  · dsimp only
    rwa [put_ne _ _ fun e => by rw [← e, hy] at hnone; exact nomatch hnone]

theorem extractMember_passes {root : DiskPath} {x : Member} {m : Machine}
    (h : (extractMember root x m).result = .ok ()) {pre : List String} (hp : pre <+: joined root x)
    (hne : pre ≠ joined root x) : (extractMember root x m).last.disk (resolve pre) = some .dir := by
  have hk := keeps_dir (resolve pre) root [x]
  unfold extractMember at h ⊢
  unfold Prog.bind at h ⊢
  cases hr : (Prog.whenState (fun s => !pathExists (joined root x).dropLast s)
      (makedirs (joined root x).dropLast.reverse) m).result with
  | error e => rw [hr] at h; exact nomatch h
  | ok u =>
    rw [hr] at h
    dsimp only at h ⊢
    obtain ⟨p, hl⟩ := createMember_looked h
    have hd := lookup_dirs _ _ _ _ hl pre hp hne
    have hkc : Keeps (fun y => y.disk (resolve pre) = some .dir) (createMember (joined root x) x) := by
      refine triple_createMember (fun c _ y c' hy hdir => ?_) fun _ y hy hnone => ?_
      · dsimp only
        rwa [put_ne _ _ fun e => hdir (by rw [← e]; exact hy)]
      · dsimp only
        rwa [put_ne _ _ fun e => by rw [← e, hy] at hnone; exact nomatch hnone]
    exact (hkc _ hd).2.1 _ h

theorem extractAll_passes {root : DiskPath} : ∀ (xs : List Member) (m : Machine),
    (extractAll root xs m).result = .ok () → ∀ x ∈ xs, ∀ pre, pre <+: joined root x → pre ≠ joined root x →
    (extractAll root xs m).last.disk (resolve pre) = some .dir
  | [], _, _, x, hx, _, _, _ => nomatch hx
  | y :: xs, m, h, x, hx, pre, hp, hne => by
    have hk := keeps_dir (resolve pre) root xs
    unfold extractAll Prog.bind at h ⊢
    cases hr : (extractMember root y m).result with
    | error e => rw [hr] at h; exact nomatch h
    | ok u =>
      rw [hr] at h
      dsimp only at h ⊢
      rcases List.mem_cons.mp hx with rfl | hx
      · exact (hk _ (extractMember_passes hr hp hne)).2.1 _ h
      · exact extractAll_passes xs _ h x hx pre hp hne

/-- **C48, what can appear outside, exactly.** At every moment, also of an extraction that fails, a path
outside the destination is as before unless it was free and the name of a member passes through it; then it may
be a new directory. After a successful extraction all paths outside that a name passes through are directories.
So nothing at all appears outside exactly if the paths that the names pass through are directories already. -/
theorem C48_outside_exactly (root : DiskPath) (m : Machine) (members : List Member) (q : DiskPath)
    (hq : ¬ Inside root q) :
    (∀ d, Seen (safeExtractAll root members m) d →
      d q = m.disk q ∨ m.disk q = none ∧ Passes root members q ∧ d q = some .dir) ∧
    ((safeExtractAll root members m).result = .ok () → Passes root members q →
      (safeExtractAll root members m).last.disk q = some .dir) := by
  constructor
  · intro d hd
    refine Triple.seen
      (I := fun x => x.disk q = m.disk q ∨ m.disk q = none ∧ Passes root members q ∧ x.disk q = some .dir)
      (J := fun d => d q = m.disk q ∨ m.disk q = none ∧ Passes root members q ∧ d q = some .dir)
      (triple_safeExtractAll ?_ ?_) (Or.inl rfl) (fun x hx => hx) hd
    · intro x _ _ hin c _ y c' hy _
      dsimp only
      rw [put_ne _ _ fun e => hq (by rw [e]; exact hin)]
      exact hy
    · intro x hx _ pre hpre _ y hy hnone
      dsimp only
      by_cases hqp : q = resolve pre
      · rw [hqp, put_self]
        rw [hqp] at hy
        have hpass : Passes root members (resolve pre) := ⟨x, hx, pre, hpre, rfl⟩
        rcases hy with hy | ⟨hy, -⟩
        · exact Or.inr ⟨hy ▸ hnone, hpass, rfl⟩
        · exact Or.inr ⟨hy, hpass, rfl⟩
      · rw [put_ne _ _ hqp]
        exact hy
  · rintro hok ⟨x, hx, pre, hpre, rfl⟩
    unfold safeExtractAll Prog.bind Prog.look at hok ⊢
    cases hc : checkMembers root members with
    | error e => rw [hc] at hok; exact nomatch hok
    | ok u =>
      rw [hc] at hok
      dsimp only at hok ⊢
      refine extractAll_passes members m hok x hx pre hpre ?_
      rintro rfl
      exact hq (checkMembers_ok root members hc x hx).2

-- the archive of `C48_new_directory_fails`: `/x` appears, `/y` does not
example : (safeExtractAll ["data"] [⟨false, ["..", "x", "..", "data", "f"], .regular []⟩]
      ⟨dataDisk, 0⟩).last.disk ["x"] = some .dir :=
  (C48_outside_exactly ["data"] ⟨dataDisk, 0⟩ _ ["x"] (by unfold Inside; decide)).2 (by rfl)
    ⟨_, List.mem_singleton.mpr rfl, ["data", "..", "x"], ⟨["..", "data", "f"], rfl⟩, by decide⟩

end Torchrir.Props
