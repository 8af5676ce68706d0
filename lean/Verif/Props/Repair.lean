import Verif.Lemmas.Repair
import Verif.Props.Download

/-! # Repair after a crash: C50 -/

namespace Torchrir.Props

open Torchrir.Model

/-- Where a member goes. -/
def memberPath (L : Layout) (x : Member) : DiskPath := L.base ++ x.segments

/-- The directories that the archive needs: those above a member and the directory members. -/
def ArchiveDir (L : Layout) (ms : List Member) (q : DiskPath) : Prop :=
  ∃ x ∈ ms, q <+: memberPath L x ∧ (q = memberPath L x → x.kind = .directory)

/-- The files of the archive. -/
def ArchiveFile (L : Layout) (ms : List Member) (q : DiskPath) : Prop :=
  ∃ x ∈ ms, ∃ c, x.kind = .regular c ∧ q = memberPath L x

/-- A sensible archive: relative plain names, no links, no name used twice for files, no name used for
a file and for a directory, the dataset directory among the directories, and no clash with the names of
the archive file and its temporary file. -/
structure GoodArchive (L : Layout) (ms : List Member) : Prop where
  base : Plain (L.base ++ [L.name])
  relative : ∀ x ∈ ms, x.absolute = false
  noLink : ∀ x ∈ ms, ¬ IsLink x
  plain : ∀ x ∈ ms, Plain x.segments
  named : ∀ x ∈ ms, x.segments ≠ []
  distinct : ms.Pairwise fun x y => (∃ c, x.kind = .regular c) → (∃ c, y.kind = .regular c) →
    x.segments ≠ y.segments
  consistent : ∀ q, ArchiveDir L ms q → ¬ ArchiveFile L ms q
  dataset : ArchiveDir L ms L.dataset
  below : ¬ L.dataset <+: L.base
  archiveName : ¬ ArchiveDir L ms (L.base ++ [L.name]) ∧ ¬ ArchiveFile L ms (L.base ++ [L.name])
  partName : ¬ ArchiveDir L ms (partPath L.base L.name) ∧ ¬ ArchiveFile L ms (partPath L.base L.name)

/-- Nothing on the disk is in the way of the archive, and the archive file, if there, is complete. -/
structure Tidy (L : Layout) (ms : List Member) (b : Bytes) (d : Disk) : Prop where
  top : d [] = some .dir
  dirs : ∀ q, ArchiveDir L ms q → ∀ c, d q ≠ some (.file c)
  files : ∀ q, ArchiveFile L ms q → d q ≠ some .dir
  archive : CompleteFile (fun x => x = b) (L.base ++ [L.name]) d
  part : d (partPath L.base L.name) ≠ some .dir

/-- Every member is on the disk, with its content. -/
def Extracted (L : Layout) (ms : List Member) (d : Disk) : Prop :=
  ∀ x ∈ ms, (∀ q, q <+: memberPath L x → q ≠ memberPath L x → d q = some .dir) ∧
    (∀ c, x.kind = .regular c → d (memberPath L x) = some (.file c)) ∧
    (x.kind = .directory → d (memberPath L x) = some .dir)

variable {L : Layout} {ms : List Member} {b : Bytes}

theorem joined_eq (hg : GoodArchive L ms) {x : Member} (hx : x ∈ ms) :
    joined L.base x = memberPath L x := by
  unfold joined memberPath
  rw [hg.relative x hx]
  rfl

theorem plain_member (hg : GoodArchive L ms) {x : Member} (hx : x ∈ ms) : Plain (memberPath L x) :=
  (Plain.of_prefix (List.prefix_append _ _) hg.base).append (hg.plain x hx)

theorem tidy_mkdir (hg : GoodArchive L ms) {q : DiskPath} (hq : ArchiveDir L ms q) {d : Disk}
    (h : Tidy L ms b d) : Tidy L ms b (d.put q (some .dir)) where
  top := by
    by_cases he : [] = q
    · rw [he, put_self]
    · rw [put_ne _ _ he]
      exact h.top
  dirs p hp c := by
    by_cases he : p = q
    · rw [he, put_self]
      exact fun h => (nomatch h)
    · rw [put_ne _ _ he]
      exact h.dirs p hp c
  files p hp := by
    rw [put_ne _ _ (show p ≠ q from fun e => hg.consistent q hq (e ▸ hp))]
    exact h.files p hp
  archive := by
    unfold CompleteFile
    rw [put_ne _ _ (show L.base ++ [L.name] ≠ q from fun e => hg.archiveName.1 (e ▸ hq))]
    exact h.archive
  part := by
    rw [put_ne _ _ (show partPath L.base L.name ≠ q from fun e => hg.partName.1 (e ▸ hq))]
    exact h.part

theorem tidy_write (hg : GoodArchive L ms) {x : Member} (hx : x ∈ ms) {c' : Bytes}
    (hc' : x.kind = .regular c') {d : Disk} (c : Bytes) (h : Tidy L ms b d) :
    Tidy L ms b (d.put (memberPath L x) (some (.file c))) where
  top := by
    have : ([] : DiskPath) ≠ memberPath L x := by
      unfold memberPath
      intro e
      exact hg.named x hx (List.append_eq_nil_iff.mp e.symm).2
    rw [put_ne _ _ this]
    exact h.top
  dirs p hp c := by
    rw [put_ne _ _ fun e => hg.consistent p hp ⟨x, hx, c', hc', e⟩]
    exact h.dirs p hp c
  files p hp := by
    by_cases he : p = memberPath L x
    · rw [he, put_self]
      exact fun h => (nomatch h)
    · rw [put_ne _ _ he]
      exact h.files p hp
  archive := by
    unfold CompleteFile
    rw [put_ne _ _ fun e => hg.archiveName.2 ⟨x, hx, c', hc', e⟩]
    exact h.archive
  part := by
    rw [put_ne _ _ fun e => hg.partName.2 ⟨x, hx, c', hc', e⟩]
    exact h.part

theorem tidy_part (hg : GoodArchive L ms) {d : Disk} {n : Option Node} (hn : n ≠ some .dir)
    (h : Tidy L ms b d) : Tidy L ms b (d.put (partPath L.base L.name) n) where
  top := by
    have : ([] : DiskPath) ≠ partPath L.base L.name := by
      unfold partPath
      intro e
      simpa using congrArg List.length e
    rw [put_ne _ _ this]
    exact h.top
  dirs p hp c := by
    rw [put_ne _ _ (show p ≠ partPath L.base L.name from fun e => hg.partName.1 (e ▸ hp))]
    exact h.dirs p hp c
  files p hp := by
    rw [put_ne _ _ (show p ≠ partPath L.base L.name from fun e => hg.partName.2 (e ▸ hp))]
    exact h.files p hp
  archive := by
    unfold CompleteFile
    rw [put_ne _ _ fun e => partPath_ne _ _ e.symm]
    exact h.archive
  part := by
    rw [put_self]
    exact hn

theorem tidy_archive (hg : GoodArchive L ms) {d : Disk} {n : Option Node}
    (hn : n = none ∨ n = some (.file b)) (h : Tidy L ms b d) :
    Tidy L ms b (d.put (L.base ++ [L.name]) n) where
  top := by
    have : ([] : DiskPath) ≠ L.base ++ [L.name] := by
      intro e
      simpa using congrArg List.length e
    rw [put_ne _ _ this]
    exact h.top
  dirs p hp c := by
    rw [put_ne _ _ (show p ≠ L.base ++ [L.name] from fun e => hg.archiveName.1 (e ▸ hp))]
    exact h.dirs p hp c
  files p hp := by
    rw [put_ne _ _ (show p ≠ L.base ++ [L.name] from fun e => hg.archiveName.2 (e ▸ hp))]
    exact h.files p hp
  archive := by
    unfold CompleteFile
    rw [put_self]
    rcases hn with h | h
    · exact Or.inl h
    · exact Or.inr ⟨b, rfl, h⟩
  part := by
    rw [put_ne _ _ (partPath_ne _ _)]
    exact h.part

/-- Directories above a member that is a file, and all prefixes of a directory, are archive directories. -/
theorem archiveDir_of_proper {x : Member} (hx : x ∈ ms) {q : DiskPath} (hq : q <+: memberPath L x)
    (hne : q ≠ memberPath L x) : ArchiveDir L ms q := ⟨x, hx, hq, fun e => absurd e hne⟩

theorem archiveDir_base (hg : GoodArchive L ms) {q : DiskPath} (hq : q <+: L.base) :
    ArchiveDir L ms q := by
  obtain ⟨x, hx, -, -⟩ := hg.dataset
  refine archiveDir_of_proper hx (hq.trans (List.prefix_append _ _)) ?_
  intro e
  have := hq.length_le
  rw [e] at this
  unfold memberPath at this
  have h2 := List.length_pos_of_ne_nil (hg.named x hx)
  rw [List.length_append] at this
  omega

/-! ### Tidiness survives everything -/

theorem keeps_tidy_download (hg : GoodArchive L ms) {net : Network}
    (hnet : Serves (fun x => x = b) net) :
    Keeps (fun m => Tidy L ms b m.disk) (download net L.base L.name) := by
  refine triple_downloadLoop (triple_streamDownload (fun m hm => hm) ?_ ?_ ?_) ?_ 1
  · intro m hm
    rw [plain_part hg.base]
    exact tidy_part hg (fun h => (nomatch h)) hm
  · intro m c hm _
    rw [plain_part hg.base]
    exact tidy_part hg (fun h => (nomatch h)) hm
  · intro k r body m hk hpre hlen hm _
    rw [plain_part hg.base, plain_final hg.base]
    refine tidy_part hg (fun h => (nomatch h)) (tidy_archive hg (Or.inr ?_) hm)
    obtain ⟨ha, hS⟩ := hnet k r hk
    have hp := hpre.trans ha.arrives
    rw [ha.length, Option.getD_some] at hlen
    have : body = r.full := by
      refine hp.eq_of_length ?_
      by_cases h0 : 0 < r.full.length
      · exact hlen h0
      · have := hp.length_le
        omega
    rw [this, hS]
  · intro m hm
    rw [plain_final hg.base]
    exact tidy_archive hg (Or.inl rfl) hm

theorem keeps_tidy_extract (hg : GoodArchive L ms) {untar : Bytes → Except Exc (List Member)}
    (hu : untar b = .ok ms) : Keeps (fun m => Tidy L ms b m.disk) (openAndExtract untar L) := by
  unfold openAndExtract readFile
  refine Triple.bind (R := fun body m => body = b ∧ Tidy L ms b m.disk)
    (Triple.look ?_ fun m e hm _ => hm) fun body => ?_
  · intro m a hm ha
    refine ⟨?_, hm⟩
    unfold nodeAt at ha
    cases hl : lookup m.disk [] (L.base ++ [L.name]) with
    | none =>
      rw [hl] at ha
      cases ha
    | some p =>
      obtain rfl := lookup_resolve hl
      rw [hl, Option.bind_some, plain_final hg.base] at ha
      rcases hm.archive with h | ⟨b', rfl, h⟩
      · rw [h] at ha
        cases ha
      · rw [h] at ha
        cases ha
        rfl
  · by_cases hb : body = b
    swap
    · intro m hm
      exact absurd hm.1 hb
    subst hb
    refine Triple.bind (R := fun xs m => xs = ms ∧ Tidy L ms body m.disk) (Triple.look
      (fun m xs hm h => ⟨by rw [hu] at h; cases h; rfl, hm.2⟩) fun m e hm _ => hm.2) fun xs => ?_
    by_cases hxs : xs = ms
    swap
    · intro m hm
      exact absurd hm.1 hxs
    subst hxs
    refine Triple.pre (P := fun m => Tidy L xs body m.disk) (triple_safeExtractAll ?_ ?_) fun m hm => hm.2
    · intro x hx _ _ c hc m c' hm _
      rw [joined_eq hg hx, resolve_plain (plain_member hg hx)]
      exact tidy_write hg hx hc c' hm
    · intro x hx _ pre hpre hor m hm hnone
      rw [joined_eq hg hx] at hpre hor
      rw [resolve_plain (Plain.of_prefix hpre (plain_member hg hx))] at hnone ⊢
      refine tidy_mkdir hg ⟨x, hx, hpre, fun e => ?_⟩ hm
      rcases hor with hor | hor
      · exfalso
        have h1 := hor.length_le
        have h2 := List.length_pos_of_ne_nil (hg.named x hx)
        rw [e, List.length_dropLast] at h1
        unfold memberPath at h1
        rw [List.length_append] at h1
        omega
      · exact hor

theorem keeps_tidy_construct (hg : GoodArchive L ms) {untar : Bytes → Except Exc (List Member)}
    (hu : untar b = .ok ms) {net : Network} (hnet : Serves (fun x => x = b) net) :
    Keeps (fun m => Tidy L ms b m.disk) (constructDataset untar net L) := by
  have hrm : Keeps (fun m => Tidy L ms b m.disk) (unlink (L.base ++ [L.name])) :=
    triple_unlink fun m hm => by
      rw [plain_final hg.base]
      exact tidy_archive hg (Or.inl rfl) hm
  have hx := keeps_tidy_extract hg hu
  have hd := keeps_tidy_download hg hnet
  unfold constructDataset downloadAndExtract extractOrRepair
  refine Keeps.bind (Keeps.bind (triple_makedirs _ ?_) fun _ => Keeps.bind
    (Keeps.whenState hd) fun _ => Keeps.whenState
      (Triple.catchWith hx fun e => ?_)) fun _ => Triple.look (fun m _ hm _ => hm) fun m _ hm _ => hm
  · intro pre hpre m hm _
    rw [List.reverse_reverse] at hpre
    rw [resolve_plain (Plain.of_prefix (hpre.trans (List.prefix_append _ _)) hg.base)]
    exact tidy_mkdir hg (archiveDir_base hg hpre) hm
  · split_ifs
    · exact Keeps.bind (Keeps.whenState hrm) fun _ => Keeps.bind hd fun _ => hx
    · exact Triple.throw fun m hm => hm

/-! ### Extraction succeeds on a tidy disk -/

theorem extracted_mkdir {xs : List Member} {q : DiskPath} {d : Disk} (hn : d q = none)
    (h : Extracted L xs d) : Extracted L xs (d.put q (some .dir)) := by
  have key : ∀ p n, d p = some n → d.put q (some .dir) p = some n := by
    intro p n hp
    rw [put_ne _ _ (show p ≠ q from fun e => by rw [e, hn] at hp; cases hp)]
    exact hp
  intro x hx
  obtain ⟨h1, h2, h3⟩ := h x hx
  exact ⟨fun p hp hne => key p _ (h1 p hp hne), fun c hc => key _ _ (h2 c hc), fun hk => key _ _ (h3 hk)⟩

theorem extracted_write (hg : GoodArchive L ms) {xs : List Member} (hxs : ∀ y ∈ xs, y ∈ ms) {x : Member}
    (hx : x ∈ ms) {c' : Bytes} (hc' : x.kind = .regular c')
    (hdist : ∀ y ∈ xs, (∃ c, y.kind = .regular c) → y.segments ≠ x.segments) {d : Disk} (c : Bytes)
    (h : Extracted L xs d) : Extracted L xs (d.put (memberPath L x) (some (.file c))) := by
  have hfile : ArchiveFile L ms (memberPath L x) := ⟨x, hx, c', hc', rfl⟩
  intro y hy
  obtain ⟨h1, h2, h3⟩ := h y hy
  refine ⟨fun q hq hne => ?_, fun c'' hc'' => ?_, fun hk => ?_⟩
  · rw [put_ne _ _ (show q ≠ memberPath L x from fun e =>
      hg.consistent _ (archiveDir_of_proper (hxs y hy) hq hne) (e ▸ hfile))]
    exact h1 q hq hne
  · rw [put_ne _ _ (show memberPath L y ≠ memberPath L x from fun e =>
      hdist y hy ⟨c'', hc''⟩ (List.append_cancel_left e))]
    exact h2 c'' hc''
  · rw [put_ne _ _ (show memberPath L y ≠ memberPath L x from fun e =>
      hg.consistent (memberPath L y) ⟨y, hxs y hy, List.prefix_rfl, fun _ => hk⟩ (e ▸ hfile))]
    exact h3 hk

theorem success_extractMember (hg : GoodArchive L ms) {xs : List Member} (hxs : ∀ y ∈ xs, y ∈ ms)
    {x : Member} (hx : x ∈ ms)
    (hdist : ∀ y ∈ xs, (∃ c, y.kind = .regular c) → (∃ c, x.kind = .regular c) →
      y.segments ≠ x.segments) :
    Triple (fun _ => True) (fun m => Tidy L ms b m.disk ∧ Extracted L xs m.disk)
      (extractMember L.base x)
      (fun _ m => Tidy L ms b m.disk ∧ Extracted L (xs ++ [x]) m.disk) (fun _ _ => False) := by
  have hplain := plain_member hg hx
  have hdl : Plain (memberPath L x).dropLast := hplain.of_prefix (List.dropLast_prefix _)
  have hproper : ∀ q, q <+: (memberPath L x).dropLast → q ≠ memberPath L x := by
    intro q hq e
    have h1 := hq.length_le
    have h2 := List.length_pos_of_ne_nil (hg.named x hx)
    rw [e, List.length_dropLast] at h1
    unfold memberPath at h1
    rw [List.length_append] at h1
    omega
  have hdirOf : ∀ q, q <+: (memberPath L x).dropLast → ArchiveDir L ms q := fun q hq =>
    archiveDir_of_proper hx (hq.trans (List.dropLast_prefix _)) (hproper q hq)
  have hmk : ∀ q, ArchiveDir L ms q → ∀ m : Machine, Tidy L ms b m.disk ∧ Extracted L xs m.disk →
      m.disk q = none → Tidy L ms b (m.disk.put q (some .dir)) ∧
        Extracted L xs (m.disk.put q (some .dir)) :=
    fun q hq m hm hn => ⟨tidy_mkdir hg hq hm.1, extracted_mkdir hn hm.2⟩
  unfold extractMember
  rw [joined_eq hg hx]
  refine Triple.bind (R := fun _ m => (Tidy L ms b m.disk ∧ Extracted L xs m.disk) ∧
    ∀ q, q <+: (memberPath L x).dropLast → m.disk q = some .dir) (Triple.whenState ?_ ?_) fun _ => ?_
  · have := success_makedirs (memberPath L x).dropLast.reverse
      (fun m => Tidy L ms b m.disk ∧ Extracted L xs m.disk) (by rwa [List.reverse_reverse]) (by
        rw [List.reverse_reverse]
        exact fun q hq m hm hn => hmk q (hdirOf q hq) m hm hn)
    rw [List.reverse_reverse] at this
    exact this.mono (fun _ _ => trivial) (fun m hm => ⟨hm.1, hm.1.1.top, fun q hq =>
      hm.1.1.dirs q (hdirOf q hq)⟩) (fun _ _ h => h) fun _ _ h => h
  · intro m hm hc
    refine ⟨hm, fun q hq => ?_⟩
    obtain ⟨h1, h2⟩ := exists_dirs hdl (by simpa using hc)
    by_cases he : q = (memberPath L x).dropLast
    · rw [he]
      cases hn : m.disk (memberPath L x).dropLast with
      | none =>
        rw [hn] at h2
        cases h2
      | some n =>
        cases n with
        | dir => rfl
        | file c => exact absurd hn (hm.1.dirs _ (hdirOf _ List.prefix_rfl) c)
    · exact h1 q hq he
  · have hall : ∀ m : Machine, (∀ q, q <+: (memberPath L x).dropLast → m.disk q = some .dir) →
        ∀ q, q <+: memberPath L x → q ≠ memberPath L x → m.disk q = some .dir :=
      fun m h q hq hne => h q (prefix_dropLast hq hne)
    have hjoin : ∀ m : Machine, Tidy L ms b m.disk ∧ Extracted L xs m.disk →
        (∀ q, q <+: memberPath L x → q ≠ memberPath L x → m.disk q = some .dir) →
        (∀ c, x.kind = .regular c → m.disk (memberPath L x) = some (.file c)) →
        (x.kind = .directory → m.disk (memberPath L x) = some .dir) →
        Tidy L ms b m.disk ∧ Extracted L (xs ++ [x]) m.disk := by
      intro m hm h1 h2 h3
      refine ⟨hm.1, fun y hy => ?_⟩
      rcases List.mem_append.mp hy with hy | hy
      · exact hm.2 y hy
      · rw [List.mem_singleton.mp hy]
        exact ⟨h1, h2, h3⟩
    unfold createMember
    cases hk : x.kind with
    | symlink =>
      exact absurd (Or.inl hk) (hg.noLink x hx)
    | hardlink =>
      exact absurd (Or.inr hk) (hg.noLink x hx)
    | directory =>
      have hdir : ArchiveDir L ms (memberPath L x) := ⟨x, hx, List.prefix_rfl, fun _ => hk⟩
      refine (success_mkdirOk (I := fun m => Tidy L ms b m.disk ∧ Extracted L xs m.disk) hplain
        fun m hm hn => hmk _ hdir m hm hn).mono (fun _ _ => trivial)
        (fun m hm => ⟨hm.1, hall m hm.2, hm.1.1.dirs _ hdir⟩) ?_ fun _ _ h => h
      intro _ m hm
      exact hjoin m hm.1 (fun q hq _ => hm.2 q hq) (fun c hc => by rw [hk] at hc; cases hc)
        fun _ => hm.2 _ List.prefix_rfl
    | regular c =>
      have hw : WriteKeeps (fun m => (Tidy L ms b m.disk ∧ Extracted L xs m.disk) ∧
          ∀ q, q <+: (memberPath L x).dropLast → m.disk q = some .dir) (memberPath L x) := by
        intro m c' hm _
        refine ⟨⟨tidy_write hg hx hk c' hm.1.1, extracted_write hg hxs hx hk
          (fun y hy hreg => hdist y hy hreg ⟨c, hk⟩) c' hm.1.2⟩, fun q hq => ?_⟩
        dsimp only
        rw [put_ne _ _ (hproper q hq)]
        exact hm.2 q hq
      refine Triple.bind ((success_openWrite hplain hw (fun m hm => hall m hm.2)
        fun m hm => hm.1.1.files _ ⟨x, hx, c, hk, rfl⟩).mono (fun _ _ => trivial) (fun _ h => h)
        (fun _ _ h => h) fun _ _ h => h) fun p => ?_
      by_cases hp : p = memberPath L x
      swap
      · intro m hm
        exact absurd hm.1 hp
      subst hp
      refine (triple_append hw c []).mono (fun _ _ => trivial) (fun _ h => h.2) ?_ fun _ _ h => h
      intro _ m hm
      refine hjoin m hm.1.1 (hall m hm.1.2) (fun c' hc' => ?_) fun hd => by rw [hk] at hd; cases hd
      rw [hk] at hc'
      cases hc'
      exact hm.2

theorem success_extractAll (hg : GoodArchive L ms) : ∀ (rest xs : List Member), xs ++ rest = ms →
    Triple (fun _ => True) (fun m => Tidy L ms b m.disk ∧ Extracted L xs m.disk)
      (extractAll L.base rest) (fun _ m => Tidy L ms b m.disk ∧ Extracted L ms m.disk) (fun _ _ => False)
  | [], xs, h => Triple.pure fun m hm => by
      rw [List.append_nil] at h
      rw [← h] at hm ⊢
      exact hm
  | x :: rest, xs, h => by
    unfold extractAll
    have hpw := hg.distinct
    rw [← h, List.pairwise_append] at hpw
    refine Triple.bind (success_extractMember hg (xs := xs) (fun y hy => ?_) ?_ ?_) fun _ =>
      success_extractAll hg rest (xs ++ [x]) (by simpa using h)
    · rw [← h]
      exact List.mem_append_left _ hy
    · rw [← h]
      simp
    · exact fun y hy h1 h2 => hpw.2.2 y hy x (List.mem_cons_self ..) h1 h2

theorem check_good (hg : GoodArchive L ms) : ∀ xs, (∀ x ∈ xs, x ∈ ms) →
    checkMembers L.base xs = .ok ()
  | [], _ => rfl
  | x :: xs, h => by
    have hx := h x (List.mem_cons_self ..)
    unfold checkMembers
    rw [isLink_false (hg.noLink x hx), joined_eq hg hx, resolve_plain (plain_member hg hx)]
    have : underRoot L.base (memberPath L x) = true := by
      unfold underRoot memberPath
      exact List.isPrefixOf_iff_prefix.mpr (List.prefix_append _ _)
    rw [this]
    exact check_good hg xs fun y hy => h y (List.mem_cons_of_mem _ hy)

theorem success_openAndExtract (hg : GoodArchive L ms) {untar : Bytes → Except Exc (List Member)}
    (hu : untar b = .ok ms) :
    Triple (fun _ => True) (fun m => Tidy L ms b m.disk ∧ (∀ q, q <+: L.base → m.disk q = some .dir) ∧
        m.disk (L.base ++ [L.name]) = some (.file b))
      (openAndExtract untar L) (fun _ m => Tidy L ms b m.disk ∧ Extracted L ms m.disk)
      (fun _ _ => False) := by
  unfold openAndExtract readFile safeExtractAll
  have hread : ∀ m : Machine, (∀ q, q <+: L.base → m.disk q = some .dir) →
      m.disk (L.base ++ [L.name]) = some (.file b) →
      nodeAt m.disk (L.base ++ [L.name]) = some (.file b) := by
    intro m h1 h2
    unfold nodeAt
    rw [lookup_plain hg.base, Option.bind_some, h2]
    intro q hq hne
    have := prefix_dropLast hq hne
    rw [List.dropLast_concat] at this
    exact h1 q this
  refine Triple.bind (R := fun body m => body = b ∧ Tidy L ms b m.disk) (Triple.look ?_ ?_) fun body => ?_
  · intro m a hm ha
    rw [hread m hm.2.1 hm.2.2] at ha
    cases ha
    exact ⟨rfl, hm.1⟩
  · intro m e hm he
    rw [hread m hm.2.1 hm.2.2] at he
    cases he
  · by_cases hb : body = b
    swap
    · intro m hm
      exact absurd hm.1 hb
    subst hb
    refine Triple.bind (R := fun xs m => xs = ms ∧ Tidy L ms body m.disk) (Triple.look
      (fun m xs hm h => ⟨by rw [hu] at h; cases h; rfl, hm.2⟩) fun m e hm h => by
        rw [hu] at h; cases h) fun xs => ?_
    by_cases hxs : xs = ms
    swap
    · intro m hm
      exact absurd hm.1 hxs
    subst hxs
    refine Triple.bind (R := fun _ m => Tidy L xs body m.disk) (Triple.look (fun m _ hm _ => hm.2)
      fun m e hm h => ?_) fun _ => ?_
    · rw [check_good hg xs fun _ h => h] at h
      cases h
    · exact (success_extractAll hg xs [] (by simp)).pre fun m hm => ⟨hm, fun x hx => nomatch hx⟩

/-! ### Downloading with a working network -/

/-- Every request is answered with the whole archive `b`, its length announced, in any chunks. -/
def Works (b : Bytes) (net : Network) : Prop :=
  ∀ k, ∃ chunks : List Bytes, (∀ c ∈ chunks, c ≠ []) ∧ chunks.flatten = b ∧
    net k = .ok ⟨b, some b.length, chunks.map .ok⟩

theorem success_readLoop {I : Machine → Prop} {p : DiskPath} (h : WriteKeeps I p) :
    ∀ (chunks : List Bytes) (old : Bytes), (∀ c ∈ chunks, c ≠ []) →
    Triple I (fun m => I m ∧ m.disk p = some (.file old)) (readLoop p old (chunks.map .ok))
      (fun body m => I m ∧ m.disk p = some (.file body) ∧ body = old ++ chunks.flatten)
      (fun _ _ => False)
  | [], old, _ => Triple.pure fun m hm => ⟨hm.1, hm.2, by simp⟩
  | [] :: rest, old, hc => absurd rfl (hc [] (List.mem_cons_self ..))
  | (x :: c) :: rest, old, hc => by
    show Triple I _ (Prog.bind (appendBytes p old (x :: c)) fun _ =>
      readLoop p (old ++ x :: c) (rest.map .ok)) _ _
    refine Triple.bind (triple_append h (x :: c) old) fun _ => ?_
    refine (success_readLoop h rest (old ++ x :: c) fun c hcm => hc c (List.mem_cons_of_mem _ hcm)).mono
      (fun _ h => h) (fun _ h => h) ?_ fun _ _ h => h
    intro body m hm
    refine ⟨hm.1, hm.2.1, ?_⟩
    rw [hm.2.2, List.flatten_cons, List.append_assoc]

theorem success_stream (hg : GoodArchive L ms) {net : Network} (hnet : Works b net) :
    Triple (fun _ => True) (fun m => Tidy L ms b m.disk ∧ ∀ q, q <+: L.base → m.disk q = some .dir)
      (streamDownload net L.base L.name)
      (fun _ m => Tidy L ms b m.disk ∧ (∀ q, q <+: L.base → m.disk q = some .dir) ∧
        m.disk (L.base ++ [L.name]) = some (.file b)) (fun _ _ => False) := by
  have hpp : Plain (partPath L.base L.name) := by
    have := plain_part hg.base
    unfold partPath at this ⊢
    refine Plain.append (Plain.of_prefix (List.prefix_append _ _) hg.base) ?_
    intro s hs
    rw [List.mem_singleton.mp hs]
    constructor <;> intro h <;> have := congrArg String.length h <;> rw [String.length_append] at this <;>
      · have h5 : ".part".length = 5 := by decide
        have h1 : ".".length = 1 := by decide
        have h2 : "..".length = 2 := by decide
        omega
  have hlast : ∀ (d : Disk) (s : String), (∀ q, q <+: L.base → d q = some .dir) →
      ∀ q, q <+: L.base ++ [s] → q ≠ L.base ++ [s] → d q = some .dir := by
    intro d s h q hq hne
    have := prefix_dropLast hq hne
    rw [List.dropLast_concat] at this
    exact h q this
  have hbase : ∀ (d : Disk) (s : String) (n : Option Node), (∀ q, q <+: L.base → d q = some .dir) →
      ∀ q, q <+: L.base → d.put (L.base ++ [s]) n q = some .dir := by
    intro d s n h q hq
    rw [put_ne _ _ (show q ≠ L.base ++ [s] from fun e => by
      have := hq.length_le
      rw [e, List.length_append, List.length_singleton] at this
      omega)]
    exact h q hq
  set J : Machine → Prop := fun m => Tidy L ms b m.disk ∧ ∀ q, q <+: L.base → m.disk q = some .dir with hJ
  have hw : WriteKeeps J (partPath L.base L.name) := fun m c hm _ =>
    ⟨tidy_part hg (fun h => (nomatch h)) hm.1, hbase _ _ _ hm.2⟩
  unfold streamDownload
  refine Triple.bind (R := fun _ => J) ?_ fun _ => ?_
  · intro m hm
    have hn : nodeAt m.disk (partPath L.base L.name) ≠ some .dir := nodeAt_not_dir hpp hm.1.part
    have hk := Keeps.whenState (I := J) (c := pathExists (partPath L.base L.name))
      (triple_unlink (segs := partPath L.base L.name) (I := J) fun m hm => by
        rw [resolve_plain hpp]
        exact ⟨tidy_part hg (fun h => (nomatch h)) hm.1, hbase _ _ _ hm.2⟩) m hm
    refine ⟨fun _ _ => trivial, hk.2.1, fun e he => ?_⟩
    rw [(unlinkIf _ m hn).1] at he
    cases he
  refine Triple.bind (R := fun r m => J m ∧ ∃ chunks : List Bytes, (∀ c ∈ chunks, c ≠ []) ∧
    chunks.flatten = b ∧ r = ⟨b, some b.length, chunks.map .ok⟩)
    (triple_urlopen (fun _ _ => trivial) ?_ ?_) fun r => ?_
  · intro m r hm hr
    obtain ⟨chunks, h1, h2, h3⟩ := hnet m.requests
    rw [h3] at hr
    cases hr
    exact ⟨hm, chunks, h1, h2, rfl⟩
  · intro m e hm he
    obtain ⟨chunks, h1, h2, h3⟩ := hnet m.requests
    rw [h3] at he
    cases he
  by_cases hr : ∃ chunks : List Bytes, (∀ c ∈ chunks, c ≠ []) ∧ chunks.flatten = b ∧
      r = ⟨b, some b.length, chunks.map .ok⟩
  swap
  · intro m hm
    exact absurd hm.2 hr
  obtain ⟨chunks, hc, hf, rfl⟩ := hr
  refine Triple.bind ((success_openWrite hpp hw (fun m hm => hlast _ _ hm.2)
    fun m hm => hm.1.part).mono (fun _ _ => trivial) (fun m hm => hm.1) (fun _ _ h => h)
    fun _ _ h => h) fun p => ?_
  by_cases hp : p = partPath L.base L.name
  swap
  · intro m hm
    exact absurd hm.1 hp
  subst hp
  refine Triple.bind ((success_readLoop hw chunks [] hc).mono (fun _ _ => trivial) (fun m hm => hm.2)
    (fun _ _ h => h) fun _ _ h => h) fun body => ?_
  by_cases hb : body = b
  swap
  · intro m hm
    refine absurd ?_ hb
    rw [hm.2.2, List.nil_append, hf]
  subst hb
  refine Triple.bind (R := fun _ m => J m ∧ m.disk (partPath L.base L.name) = some (.file body)) ?_
    fun _ => ?_
  · unfold checkLength
    rw [if_neg]
    · exact Triple.pure fun m hm => ⟨hm.1, hm.2.1⟩
    · rintro ⟨-, h⟩
      exact h rfl
  · intro m hm
    obtain ⟨hJm, hpart⟩ := hm
    unfold replaceFile
    rw [lookup_plain hpp (hlast _ _ hJm.2), lookup_plain hg.base (hlast _ _ hJm.2)]
    dsimp only
    rw [hpart]
    have hfin : Tidy L ms body ((m.disk.put (L.base ++ [L.name]) (some (.file body))).put
          (partPath L.base L.name) none) ∧
        (∀ q, q <+: L.base → ((m.disk.put (L.base ++ [L.name]) (some (.file body))).put
          (partPath L.base L.name) none) q = some .dir) ∧
        ((m.disk.put (L.base ++ [L.name]) (some (.file body))).put
          (partPath L.base L.name) none) (L.base ++ [L.name]) = some (.file body) := by
      refine ⟨tidy_part hg (fun h => (nomatch h)) (tidy_archive hg (Or.inr rfl) hJm.1),
        hbase _ _ _ (hbase _ _ _ hJm.2), ?_⟩
      rw [put_ne _ _ fun e => partPath_ne _ _ e.symm, put_self]
    rcases hJm.1.archive with h | ⟨c, -, h⟩
    · rw [h]
      exact ⟨fun _ _ => trivial, fun _ _ => hfin, fun e he => (nomatch he)⟩
    · rw [h]
      exact ⟨fun _ _ => trivial, fun _ _ => hfin, fun e he => (nomatch he)⟩

theorem success_download (hg : GoodArchive L ms) {net : Network} (hnet : Works b net) :
    Triple (fun _ => True) (fun m => Tidy L ms b m.disk ∧ ∀ q, q <+: L.base → m.disk q = some .dir)
      (download net L.base L.name)
      (fun _ m => Tidy L ms b m.disk ∧ (∀ q, q <+: L.base → m.disk q = some .dir) ∧
        m.disk (L.base ++ [L.name]) = some (.file b)) (fun _ _ => False) := by
  unfold download downloadLoop
  exact Triple.catchWith (success_stream hg hnet) fun e m hm => hm.elim

theorem Triple.and {α : Type} {I I' P P' : Machine → Prop} {p : Prog α} {Q Q' : α → Machine → Prop}
    {E E' : Exc → Machine → Prop} (h : Triple I P p Q E) (h' : Triple I' P' p Q' E') :
    Triple I (fun m => P m ∧ P' m) p (fun a m => Q a m ∧ Q' a m) E := by
  intro m hm
  obtain ⟨h1, h2, h3⟩ := h m hm.1
  obtain ⟨-, k2, -⟩ := h' m hm.2
  exact ⟨h1, fun a ha => ⟨h2 a ha, k2 a ha⟩, h3⟩

theorem keeps_absent_download (hg : GoodArchive L ms) (net : Network) :
    Keeps (fun m => m.disk L.dataset = none) (download net L.base L.name) := by
  have h1 : L.dataset ≠ L.base ++ [L.name] := fun e => hg.archiveName.1 (e ▸ hg.dataset)
  have h2 : L.dataset ≠ partPath L.base L.name := fun e => hg.partName.1 (e ▸ hg.dataset)
  refine triple_downloadLoop (triple_streamDownload (fun m hm => hm) ?_ ?_ ?_) ?_ 1
  · intro m hm
    rw [plain_part hg.base]
    dsimp only
    rw [put_ne _ _ h2]
    exact hm
  · intro m c hm _
    rw [plain_part hg.base]
    dsimp only
    rw [put_ne _ _ h2]
    exact hm
  · intro k r body m hk hpre hlen hm _
    rw [plain_part hg.base, plain_final hg.base]
    dsimp only
    rw [put_ne _ _ h2, put_ne _ _ h1]
    exact hm
  · intro m hm
    rw [plain_final hg.base]
    dsimp only
    rw [put_ne _ _ h1]
    exact hm

theorem plain_dataset (hg : GoodArchive L ms) : Plain L.dataset := by
  obtain ⟨x, hx, h, -⟩ := hg.dataset
  exact Plain.of_prefix h (plain_member hg hx)

theorem exists_of_extracted (hg : GoodArchive L ms) (m : Machine) (h : Extracted L ms m.disk) :
    pathExists L.dataset m = true := by
  obtain ⟨x, hx, hp, hk⟩ := hg.dataset
  obtain ⟨h1, -, h3⟩ := h x hx
  have hall : ∀ q, q <+: L.dataset → m.disk q = some .dir := by
    intro q hq
    by_cases he : q = memberPath L x
    · have hds : L.dataset = memberPath L x :=
        hp.eq_of_length (le_antisymm hp.length_le (by rw [← he]; exact hq.length_le))
      rw [he]
      exact h3 (hk hds)
    · exact h1 q (hq.trans hp) he
  rw [pathExists_of (plain_dataset hg) fun q hq _ => hall q hq, hall _ List.prefix_rfl]
  rfl

/-- A construction on a tidy disk without the dataset directory, with a working network. -/
theorem success_construct (hg : GoodArchive L ms) {untar : Bytes → Except Exc (List Member)}
    (hu : untar b = .ok ms) {net : Network} (hnet : Works b net) (m : Machine)
    (hm : Tidy L ms b m.disk) (hds : m.disk L.dataset = none) :
    (constructDataset untar net L m).result = .ok () ∧
      Extracted L ms (constructDataset untar net L m).last.disk := by
  have hbase : Plain L.base := Plain.of_prefix (List.prefix_append _ _) hg.base
  have key : Triple (fun _ => True) (fun m => Tidy L ms b m.disk ∧ m.disk L.dataset = none)
      (constructDataset untar net L) (fun _ m => Extracted L ms m.disk) (fun _ _ => False) := by
    unfold constructDataset downloadAndExtract extractOrRepair
    refine Triple.bind (R := fun _ m => Extracted L ms m.disk) ?_ fun _ => ?_
    · refine Triple.bind (R := fun _ m => (Tidy L ms b m.disk ∧ m.disk L.dataset = none) ∧
        ∀ q, q <+: L.base → m.disk q = some .dir) ?_ fun _ => ?_
      · have := success_makedirs L.base.reverse
          (fun m => Tidy L ms b m.disk ∧ m.disk L.dataset = none) (by rwa [List.reverse_reverse]) (by
            rw [List.reverse_reverse]
            intro q hq m hm hn
            refine ⟨tidy_mkdir hg (archiveDir_base hg hq) hm.1, ?_⟩
            dsimp only
            rw [put_ne _ _ (show L.dataset ≠ q from fun e => hg.below (e ▸ hq))]
            exact hm.2)
        rw [List.reverse_reverse] at this
        exact this.mono (fun _ _ => trivial) (fun m hm => ⟨hm, hm.1.top, fun q hq =>
          hm.1.dirs q (archiveDir_base hg hq)⟩) (fun _ _ h => h) fun _ _ h => h
      · refine Triple.bind (R := fun _ m => (Tidy L ms b m.disk ∧
          (∀ q, q <+: L.base → m.disk q = some .dir) ∧ m.disk (L.base ++ [L.name]) = some (.file b)) ∧
          m.disk L.dataset = none) (Triple.whenState ?_ ?_) fun _ => Triple.whenState ?_ ?_
        · exact (Triple.and (success_download hg hnet) (keeps_absent_download hg net)).pre
            fun m hm => ⟨⟨hm.1.1.1, hm.1.2⟩, hm.1.1.2⟩
        · intro m hm hc
          refine ⟨⟨hm.1.1, hm.2, ?_⟩, hm.1.2⟩
          obtain ⟨-, h2⟩ := exists_dirs hg.base (by simpa using hc)
          rcases hm.1.1.archive with h | ⟨c, hc', h⟩
          · rw [h] at h2
            cases h2
          · rw [h, hc']
        · refine Triple.catchWith (R := fun _ _ => False) ?_ fun e m hm => hm.elim
          exact (success_openAndExtract hg hu).mono (fun _ _ => trivial) (fun m hm => hm.1.1)
            (fun _ _ h => h.2) fun _ _ h => h
        · intro m hm hc
          obtain ⟨-, h2⟩ := exists_dirs (plain_dataset hg) (by simpa using hc)
          rw [hm.2] at h2
          cases h2
    · refine Triple.look (fun m _ hm _ => hm) fun m e hm he => ?_
      rw [if_pos (exists_of_extracted hg m hm)] at he
      cases he
  obtain ⟨-, h2, h3⟩ := key m ⟨hm, hds⟩
  cases hr : (constructDataset untar net L m).result with
  | ok u => exact ⟨rfl, h2 u hr⟩
  | error e => exact (h3 e hr).elim

/-- **C50 (partial).** Take any disk that any history of constructions, each killed at any moment or
run to its end with any network, can leave behind. If the dataset directory is not there yet (the crash
came before extraction started), the next construction with a working network succeeds and leaves every
file and directory of the archive on the disk. Missing for the full claim: crashes during extraction,
see `C50_crash_during_extraction_fails`. -/
theorem C50_repair_partial (L : Layout) (ms : List Member) (b : Bytes)
    (untar : Bytes → Except Exc (List Member)) (hu : untar b = .ok ms) (hg : GoodArchive L ms)
    (d0 : Disk) (h0 : Tidy L ms b d0) (d : Disk)
    (hd : Restarted untar L (Serves fun x => x = b) d0 d) (hds : d L.dataset = none)
    (net : Network) (hnet : Works b net) (n : ℕ) :
    (constructDataset untar net L ⟨d, n⟩).result = .ok () ∧
      Extracted L ms (constructDataset untar net L ⟨d, n⟩).last.disk := by
  have ht : Tidy L ms b d := by
    clear hds
    induction hd with
    | start => exact h0
    | again d d' net n _ hnet hs ih =>
      exact Triple.seen (keeps_tidy_construct hg hu hnet) ih (fun _ h => h) hs
  exact success_construct hg hu hnet ⟨d, n⟩ ht hds

/-- A small archive for the speaker `bdl`. -/
def bdlArchive : List Member :=
  [⟨false, ["cmu_us_bdl_arctic", "a.wav"], .regular [1]⟩,
    ⟨false, ["cmu_us_bdl_arctic", "b.wav"], .regular [2]⟩]

/-- A network that serves the one-byte archive `[7]`. -/
def bdlNet : Network := fun _ => .ok ⟨[7], some 1, [[7]].map .ok⟩

theorem bdl_dir {q : DiskPath} (h : ArchiveDir (cmuLayout ["data"] "bdl") bdlArchive q) :
    q ∈ [[], ["data"], ["data", "ARCTIC"], ["data", "ARCTIC", "cmu_us_bdl_arctic"]] := by
  obtain ⟨x, hx, hq, hk⟩ := h
  unfold bdlArchive at hx
  rw [← List.mem_inits] at hq
  rcases List.mem_cons.mp hx with rfl | hx
  · have hne : q ≠ memberPath (cmuLayout ["data"] "bdl") ⟨false, ["cmu_us_bdl_arctic", "a.wav"], .regular [1]⟩ :=
      fun e => nomatch hk e
    clear hk
    revert q
    decide
  · obtain rfl := List.mem_singleton.mp hx
    have hne : q ≠ memberPath (cmuLayout ["data"] "bdl") ⟨false, ["cmu_us_bdl_arctic", "b.wav"], .regular [2]⟩ :=
      fun e => nomatch hk e
    clear hk hx
    revert q
    decide

theorem bdl_file {q : DiskPath} (h : ArchiveFile (cmuLayout ["data"] "bdl") bdlArchive q) :
    q ∈ [["data", "ARCTIC", "cmu_us_bdl_arctic", "a.wav"],
      ["data", "ARCTIC", "cmu_us_bdl_arctic", "b.wav"]] := by
  obtain ⟨x, hx, c, -, rfl⟩ := h
  unfold bdlArchive at hx
  rcases List.mem_cons.mp hx with rfl | hx
  · decide
  · obtain rfl := List.mem_singleton.mp hx
    decide

-- the hypotheses hold for it
theorem bdl_good : GoodArchive (cmuLayout ["data"] "bdl") bdlArchive where
  base := by unfold Plain; decide
  relative := by unfold bdlArchive; simp
  noLink := by unfold bdlArchive; simp [IsLink]
  plain := by unfold bdlArchive; simp [Plain]
  named := by unfold bdlArchive; simp
  distinct := by unfold bdlArchive; simp
  consistent := by
    intro q h1 h2
    replace h1 := bdl_dir h1
    replace h2 := bdl_file h2
    revert q
    decide
  dataset := ⟨_, List.mem_cons_self .., by decide, fun e => absurd e (by decide)⟩
  below := by decide
  archiveName := ⟨fun h => absurd (bdl_dir h) (by decide), fun h => absurd (bdl_file h) (by decide)⟩
  partName := ⟨fun h => absurd (bdl_dir h) (by decide), fun h => absurd (bdl_file h) (by decide)⟩

theorem bdl_tidy : Tidy (cmuLayout ["data"] "bdl") bdlArchive [7] dataDisk where
  top := by decide
  dirs q hq c := by
    unfold dataDisk
    split_ifs <;> exact fun h => (nomatch h)
  files q hq := by
    replace hq := bdl_file hq
    revert q
    decide
  archive := Or.inl (by decide)
  part := by decide

theorem bdl_works : Works [7] bdlNet := fun _ => ⟨[[7]], by decide, by decide, rfl⟩

example : (constructDataset (fun _ => .ok bdlArchive) bdlNet (cmuLayout ["data"] "bdl")
    ⟨dataDisk, 0⟩).result = .ok () :=
  (C50_repair_partial _ bdlArchive [7] _ rfl bdl_good dataDisk bdl_tidy dataDisk .start (by decide)
    bdlNet bdl_works 0).1

/-- **C50 fails during extraction.** If the process is killed after the first file was extracted, the
dataset directory exists, so the next construction succeeds without extracting the rest: `b.wav` is
missing for good. -/
theorem C50_crash_during_extraction_fails :
    ∃ d, Seen (constructDataset (fun _ => .ok bdlArchive) bdlNet (cmuLayout ["data"] "bdl") ⟨dataDisk, 0⟩) d ∧
      (constructDataset (fun _ => .ok bdlArchive) bdlNet (cmuLayout ["data"] "bdl") ⟨d, 0⟩).result = .ok () ∧
      (constructDataset (fun _ => .ok bdlArchive) bdlNet (cmuLayout ["data"] "bdl") ⟨d, 0⟩).last.disk
        ["data", "ARCTIC", "cmu_us_bdl_arctic", "b.wav"] = none := by
  refine ⟨_, Or.inl ⟨(constructDataset (fun _ => .ok bdlArchive) bdlNet (cmuLayout ["data"] "bdl")
    ⟨dataDisk, 0⟩).trace[7]'(by decide), List.getElem_mem _, rfl⟩, ?_, ?_⟩
  · rfl
  · decide

end Torchrir.Props
