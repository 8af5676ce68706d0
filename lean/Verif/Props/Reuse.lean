import Verif.Props.Repair

/-!
# C87: archives that are already there
-/

namespace Torchrir.Props

open Torchrir.Model

variable {L : Layout}

/-- Creating directories that exist changes nothing. -/
theorem makedirs_idle (hb : Plain (L.base ++ [L.name])) (m : Machine)
    (hm : pathExists (L.base ++ [L.name]) m = true) :
    Triple (· = m) (· = m) (makedirs L.base.reverse) (fun _ => (· = m)) (fun _ _ => False) := by
  obtain ⟨h1, -⟩ := exists_dirs hb hm
  have hdir : ∀ q, q <+: L.base → m.disk q = some .dir := fun q hq =>
    h1 q (hq.trans (List.prefix_append _ _)) fun e => by
      have := hq.length_le
      rw [e, List.length_append] at this
      simp at this
  have := success_makedirs L.base.reverse (· = m)
    (by rw [List.reverse_reverse]; exact Plain.of_prefix (List.prefix_append _ _) hb) (by
      rw [List.reverse_reverse]
      rintro q hq x rfl hn
      rw [hdir q hq] at hn
      cases hn)
  rw [List.reverse_reverse] at this
  refine this.mono (fun _ h => h) ?_ (fun _ _ h => h.1) fun _ _ h => h
  rintro x rfl
  exact ⟨rfl, hdir _ List.nil_prefix, fun q hq c => by rw [hdir q hq]; exact fun h => nomatch h⟩

/-- What remains of a construction when the archive is there and the dataset directory is not. -/
theorem construct_extracts {untar : Bytes → Except Exc (List Member)} {net : Network}
    (hb : Plain (L.base ++ [L.name])) (m : Machine) (hm : pathExists (L.base ++ [L.name]) m = true)
    (hds : pathExists L.dataset m = false) {I : Machine → Prop} {Q : Unit → Machine → Prop}
    {E : Exc → Machine → Prop} (hI : I m) (h : Triple I (· = m) (extractOrRepair untar net L) Q E)
    (hQ : ∀ x, Q () x → pathExists L.dataset x = true) :
    Triple I (· = m) (constructDataset untar net L) Q E := by
  unfold constructDataset downloadAndExtract
  refine Triple.bind (R := Q) (Triple.bind (R := fun _ => (· = m)) ?_ fun _ =>
    Triple.bind (R := fun _ => (· = m)) (Triple.whenState ?_ ?_) fun _ => Triple.whenState ?_ ?_) fun _ => ?_
  · exact (makedirs_idle hb m hm).mono (fun x hx => hx ▸ hI) (fun _ h => h) (fun _ _ h => h)
      fun _ _ h => h.elim
  · rintro x ⟨rfl, hx⟩
    simp [hm] at hx
  · exact fun x hx _ => hx
  · exact h.pre fun x hx => hx.1
  · rintro x rfl hx
    simp [hds] at hx
  · refine Triple.look (fun x _ hx _ => hx) fun x e hx he => ?_
    rw [if_pos (hQ x hx)] at he
    cases he

/-- **C87 (complete).** If archive and dataset directory are there, the construction succeeds without a
request and without touching the disk. -/
theorem C87_present_untouched (untar : Bytes → Except Exc (List Member)) (net : Network) (L : Layout)
    (hb : Plain (L.base ++ [L.name])) (m : Machine) (hm : pathExists (L.base ++ [L.name]) m = true)
    (hds : pathExists L.dataset m = true) :
    (constructDataset untar net L m).result = .ok () ∧ (constructDataset untar net L m).last = m ∧
      ∀ d, Seen (constructDataset untar net L m) d → d = m.disk := by
  have key : Triple (· = m) (· = m) (constructDataset untar net L) (fun _ => (· = m)) (fun _ _ => False) := by
    unfold constructDataset downloadAndExtract
    refine Triple.bind (R := fun _ => (· = m)) (Triple.bind (R := fun _ => (· = m))
      (makedirs_idle hb m hm) fun _ => Triple.bind (R := fun _ => (· = m)) (Triple.whenState ?_ ?_)
        fun _ => Triple.whenState ?_ ?_) fun _ => ?_
    · rintro x ⟨rfl, hx⟩
      simp [hm] at hx
    · exact fun x hx _ => hx
    · rintro x ⟨rfl, hx⟩
      simp [hds] at hx
    · exact fun x hx _ => hx
    · refine Triple.look (fun x _ hx _ => hx) fun x e hx he => ?_
      rw [hx, if_pos hds] at he
      cases he
  obtain ⟨h1, h2, h3⟩ := key m rfl
  cases hr : (constructDataset untar net L m).result with
  | error e => exact (h3 e hr).elim
  | ok u =>
    refine ⟨rfl, h2 u hr, ?_⟩
    rintro d (⟨x, hx, rfl⟩ | rfl)
    · rw [h1 x hx]
    · rw [h2 u hr]

theorem keeps_requests_extract (untar : Bytes → Except Exc (List Member)) (L : Layout) (n : ℕ) :
    Keeps (fun m => m.requests = n) (openAndExtract untar L) := by
  unfold openAndExtract readFile
  refine Keeps.bind (Triple.look (fun _ _ h _ => h) fun _ _ h _ => h) fun _ =>
    Keeps.bind (Triple.look (fun _ _ h _ => h) fun _ _ h _ => h) fun _ => ?_
  exact triple_safeExtractAll (fun _ _ _ _ _ _ _ _ h _ => h) fun _ _ _ _ _ _ _ h _ => h

/-- **C87 (not downloaded again).** If the complete archive is there and the dataset directory is not, the
construction extracts the archive, whatever the network, without sending a request. -/
theorem C87_archive_reused (untar : Bytes → Except Exc (List Member)) (net : Network) (L : Layout)
    (ms : List Member) (b : Bytes) (hu : untar b = .ok ms) (hg : GoodArchive L ms) (m : Machine)
    (ht : Tidy L ms b m.disk) (hm : pathExists (L.base ++ [L.name]) m = true)
    (hds : m.disk L.dataset = none) :
    (constructDataset untar net L m).result = .ok () ∧
      Extracted L ms (constructDataset untar net L m).last.disk ∧
      (constructDataset untar net L m).last.requests = m.requests := by
  obtain ⟨h1, h2⟩ := exists_dirs hg.base hm
  have hdir : ∀ q, q <+: L.base → m.disk q = some .dir := fun q hq =>
    h1 q (hq.trans (List.prefix_append _ _)) fun e => by
      have := hq.length_le
      rw [e, List.length_append] at this
      simp at this
  have hfile : m.disk (L.base ++ [L.name]) = some (.file b) := by
    rcases ht.archive with h | ⟨c, hc, h⟩
    · rw [h] at h2
      cases h2
    · rw [h, hc]
  have hno : pathExists L.dataset m = false := by
    by_contra hc
    obtain ⟨-, h3⟩ := exists_dirs (plain_dataset hg) (by simpa using hc)
    rw [hds] at h3
    cases h3
  have key := construct_extracts (untar := untar) (net := net) hg.base m hm hno (I := fun _ => True)
    (Q := fun _ x => Extracted L ms x.disk ∧ x.requests = m.requests) (E := fun _ _ => False) trivial (by
      unfold extractOrRepair
      refine Triple.catchWith (R := fun _ _ => False) ?_ fun e x hx => hx.elim
      refine (Triple.and (success_openAndExtract hg hu) (keeps_requests_extract untar L m.requests)).mono
        (fun _ _ => trivial) ?_ (fun _ x hx => ⟨hx.1.2, hx.2⟩) fun _ _ h => h
      rintro x rfl
      exact ⟨⟨ht, hdir, hfile⟩, rfl⟩) fun x hx => exists_of_extracted hg x hx.1
  obtain ⟨-, k2, k3⟩ := key m rfl
  cases hr : (constructDataset untar net L m).result with
  | error e => exact (k3 e hr).elim
  | ok u => exact ⟨rfl, k2 u hr⟩

/-- The failure of an archive that cannot be read. -/
theorem open_fails {untar : Bytes → Except Exc (List Member)}
    (m : Machine) (b : Bytes) (hm : nodeAt m.disk (L.base ++ [L.name]) = some (.file b)) (e : Exc)
    (he : untar b = .error e) : openAndExtract untar L m = ⟨[], m, .error e⟩ := by
  unfold openAndExtract readFile Prog.bind Prog.look
  dsimp only
  rw [hm]
  dsimp only
  rw [he]
  rfl

/-- **C87 (damaged).** If reading the archive that is there raises `ReadError`, `EOFError` or `OSError`, the
construction replaces it: with a working network it succeeds, every file of the new archive is on the
disk, and the new archive is in the place of the old one. -/
theorem C87_damaged_replaced_partial (untar : Bytes → Except Exc (List Member)) (net : Network)
    (L : Layout) (ms : List Member) (b bad : Bytes) (hu : untar b = .ok ms) (hg : GoodArchive L ms)
    (e : Exc) (hbad : untar bad = .error e)
    (he : (∃ s, e = .read s) ∨ (∃ s, e = .eof s) ∨ ∃ s, e = .os s)
    (hnet : Works b net) (m : Machine) (hm : nodeAt m.disk (L.base ++ [L.name]) = some (.file bad))
    (ht : Tidy L ms b (m.disk.put (L.base ++ [L.name]) none)) (hds : m.disk L.dataset = none) :
    (constructDataset untar net L m).result = .ok () ∧
      Extracted L ms (constructDataset untar net L m).last.disk ∧
      CompleteFile (fun x => x = b) (L.base ++ [L.name]) (constructDataset untar net L m).last.disk := by
  have hex : pathExists (L.base ++ [L.name]) m = true := by
    unfold pathExists
    rw [hm]
    rfl
  obtain ⟨h1, h2⟩ := exists_dirs hg.base hex
  have hdir : ∀ q, q <+: L.base → m.disk q = some .dir := fun q hq =>
    h1 q (hq.trans (List.prefix_append _ _)) fun e => by
      have := hq.length_le
      rw [e, List.length_append] at this
      simp at this
  have hno : pathExists L.dataset m = false := by
    by_contra hc
    obtain ⟨-, h3⟩ := exists_dirs (plain_dataset hg) (by simpa using hc)
    rw [hds] at h3
    cases h3
  have hfile : m.disk (L.base ++ [L.name]) = some (.file bad) := by
    unfold nodeAt at hm
    rw [lookup_plain hg.base h1, Option.bind_some] at hm
    exact hm
  have hun : Prog.whenState (pathExists (L.base ++ [L.name])) (unlink (L.base ++ [L.name])) m =
      ⟨[⟨m.disk.put (L.base ++ [L.name]) none, m.requests⟩],
        ⟨m.disk.put (L.base ++ [L.name]) none, m.requests⟩, .ok ()⟩ := by
    unfold Prog.whenState unlink
    rw [if_pos hex, lookup_plain hg.base h1]
    dsimp only
    rw [hfile]
    rfl
  have hrep : e.isBadArchive = true := by
    rcases he with ⟨s, rfl⟩ | ⟨s, rfl⟩ | ⟨s, rfl⟩ <;> rfl
  have key := construct_extracts (untar := untar) (net := net) hg.base m hex hno (I := fun _ => True)
    (Q := fun _ x => Tidy L ms b x.disk ∧ Extracted L ms x.disk) (E := fun _ _ => False) trivial (by
      unfold extractOrRepair
      refine Triple.catchWith (R := fun e' x => e' = e ∧ x = m) ?_ fun e' => ?_
      · rintro x rfl
        rw [open_fails x bad hm e hbad]
        exact ⟨fun _ _ => trivial, fun a ha => (nomatch ha), fun e' he' => ⟨(Except.error.inj he').symm, rfl⟩⟩
      · by_cases hee : e' = e
        swap
        · exact fun x hx => absurd hx.1 hee
        subst hee
        rw [if_pos hrep]
        refine Triple.bind (R := fun _ x => Tidy L ms b x.disk ∧ ∀ q, q <+: L.base → x.disk q = some .dir)
          ?_ fun _ => ?_
        · rintro x ⟨-, rfl⟩
          rw [hun]
          refine ⟨fun _ _ => trivial, fun _ _ => ⟨ht, fun q hq => ?_⟩, fun e' he' => nomatch he'⟩
          dsimp only
          rw [put_ne _ _ fun e => ?_]
          · exact hdir q hq
          · have := hq.length_le
            rw [e, List.length_append] at this
            simp at this
        · exact Triple.bind (success_download hg hnet) fun _ => success_openAndExtract hg hu)
    fun x hx => exists_of_extracted hg x hx.2
  obtain ⟨-, k2, k3⟩ := key m rfl
  cases hr : (constructDataset untar net L m).result with
  | error e => exact (k3 e hr).elim
  | ok u => exact ⟨rfl, (k2 u hr).2, (k2 u hr).1.archive⟩

/-- A construction whose extraction raises something that is not handled. -/
theorem construct_raises {untar : Bytes → Except Exc (List Member)} {net : Network}
    (hb : Plain (L.base ++ [L.name])) (m : Machine) (hm : pathExists (L.base ++ [L.name]) m = true)
    (hds : pathExists L.dataset m = false) (e : Exc) (he : e.isBadArchive = false)
    (h : openAndExtract untar L m = ⟨[], m, .error e⟩) :
    (constructDataset untar net L m).result = .error e ∧ (constructDataset untar net L m).last = m ∧
      ∀ d, Seen (constructDataset untar net L m) d → d = m.disk := by
  have key := construct_extracts (untar := untar) (net := net) hb m hm hds (I := (· = m))
    (Q := fun _ _ => False) (E := fun e' x => e' = e ∧ x = m) rfl (by
      rintro x rfl
      unfold extractOrRepair Prog.catchWith
      rw [h]
      dsimp only
      rw [if_neg (by simp [he])]
      exact ⟨fun d hd => (nomatch hd), fun a ha => (nomatch ha),
        fun e' he' => ⟨(Except.error.inj he').symm, rfl⟩⟩) fun x hx => hx.elim
  obtain ⟨k1, k2, k3⟩ := key m rfl
  cases hr : (constructDataset untar net L m).result with
  | ok u => exact (k2 u hr).elim
  | error e' =>
    obtain ⟨h4, h5⟩ := k3 e' hr
    refine ⟨by rw [h4], h5, ?_⟩
    rintro d (⟨x, hx, rfl⟩ | rfl)
    · rw [k1 x hx]
    · rw [h5]

/-- **C87 (unsafe).** If the archive that is there has a link or a member that leads outside the directory of
the archive, the construction raises `ValueError` without a request and without touching the disk. -/
theorem C87_unsafe_refused (untar : Bytes → Except Exc (List Member)) (net : Network) (L : Layout)
    (hb : Plain (L.base ++ [L.name])) (m : Machine) (b : Bytes)
    (hm : nodeAt m.disk (L.base ++ [L.name]) = some (.file b)) (hds : pathExists L.dataset m = false)
    (ms : List Member) (hu : untar b = .ok ms)
    (hbad : ∃ x ∈ ms, IsLink x ∨ ¬ Inside L.base (resolve (joined L.base x))) :
    (∃ msg, (constructDataset untar net L m).result = .error (.value msg)) ∧
      (constructDataset untar net L m).last = m ∧
      ∀ d, Seen (constructDataset untar net L m) d → d = m.disk := by
  obtain ⟨e, he⟩ := checkMembers_error L.base ms (by
    obtain ⟨x, hx, hl⟩ := hbad
    exact ⟨x, hx, hl.imp_left isLink_of⟩)
  obtain ⟨msg, rfl⟩ := checkMembers_class L.base ms e he
  have hex : pathExists (L.base ++ [L.name]) m = true := by
    unfold pathExists
    rw [hm]
    rfl
  obtain ⟨h1, h2⟩ := construct_raises (untar := untar) (net := net) hb m hex hds (.value msg) rfl (by
    unfold openAndExtract readFile safeExtractAll Prog.bind Prog.look
    dsimp only
    rw [hm]
    dsimp only
    rw [hu]
    dsimp only
    rw [he]
    rfl)
  exact ⟨⟨msg, h1⟩, h2⟩

/-- **C87 fails for other exceptions.** If reading the archive that is there raises anything else, such as the
`zlib.error` of a corrupt gzip stream, the construction raises it and leaves everything as it is, so
that the same happens every time, also when the network works. -/
theorem C87_other_error_fails (untar : Bytes → Except Exc (List Member)) (net : Network) (L : Layout)
    (hb : Plain (L.base ++ [L.name])) (m : Machine) (b : Bytes)
    (hm : nodeAt m.disk (L.base ++ [L.name]) = some (.file b)) (hds : pathExists L.dataset m = false)
    (s : String) (hu : untar b = .error (.other s)) :
    (constructDataset untar net L m).result = .error (.other s) ∧
      (constructDataset untar net L m).last = m := by
  have hex : pathExists (L.base ++ [L.name]) m = true := by
    unfold pathExists
    rw [hm]
    rfl
  obtain ⟨h1, h2, -⟩ := construct_raises (untar := untar) (net := net) hb m hex hds (.other s) rfl
    (open_fails m b hm _ hu)
  exact ⟨h1, h2⟩

/-- A disk with the archive file of the speaker `bdl`. -/
def archiveDisk (b : Bytes) : Disk :=
  (dataDisk.put ["data", "ARCTIC"] (some .dir)).put ["data", "ARCTIC", "cmu_us_bdl_arctic.tar.bz2"] (some (.file b))

/-- `[7]` is the archive, `[8]` a truncated one, `[9]` one with a link, all else is corrupt. -/
def readBdl : Bytes → Except Exc (List Member)
  | [7] => .ok bdlArchive
  | [8] => .error (.eof "truncated")
  | [9] => .ok [⟨false, ["cmu_us_bdl_arctic", "a.wav"], .symlink⟩]
  | _ => .error (.other "zlib.error")

theorem archive_tidy : Tidy (cmuLayout ["data"] "bdl") bdlArchive [7] (archiveDisk [7]) where
  top := by decide
  dirs q hq c := by
    replace hq := bdl_dir hq
    revert q
    simp [archiveDisk, dataDisk, Disk.put]
  files q hq := by
    replace hq := bdl_file hq
    revert q
    decide
  archive := Or.inr ⟨[7], rfl, by decide⟩
  part := by decide

-- the archive is used without the network
example (net : Network) : (constructDataset readBdl net (cmuLayout ["data"] "bdl")
    ⟨archiveDisk [7], 0⟩).last.requests = 0 :=
  (C87_archive_reused readBdl net _ bdlArchive [7] rfl bdl_good ⟨archiveDisk [7], 0⟩ archive_tidy (by decide)
    (by decide)).2.2

-- the truncated archive is replaced
example : (constructDataset readBdl bdlNet (cmuLayout ["data"] "bdl") ⟨archiveDisk [8], 0⟩).result = .ok () :=
  (C87_damaged_replaced_partial readBdl bdlNet (cmuLayout ["data"] "bdl") bdlArchive [7] [8] rfl bdl_good
    (.eof "truncated") rfl (.inr (.inl ⟨_, rfl⟩)) bdl_works ⟨archiveDisk [8], 0⟩ (by decide)
    (by
      have e : (archiveDisk [8]).put ["data", "ARCTIC", "cmu_us_bdl_arctic.tar.bz2"] none =
          (archiveDisk [7]).put ["data", "ARCTIC", "cmu_us_bdl_arctic.tar.bz2"] none := by
        funext q
        unfold archiveDisk Disk.put
        split_ifs <;> rfl
      exact e ▸ tidy_archive bdl_good (.inl rfl) archive_tidy)
    (by decide)).1

-- the archive with a link is refused
example (net : Network) : ∃ msg, (constructDataset readBdl net (cmuLayout ["data"] "bdl")
    ⟨archiveDisk [9], 0⟩).result = .error (.value msg) :=
  (C87_unsafe_refused readBdl net (cmuLayout ["data"] "bdl") (by unfold Plain; decide) ⟨archiveDisk [9], 0⟩ [9]
    (by decide) (by decide) _ rfl ⟨_, List.mem_cons_self .., .inl (.inl rfl)⟩).1

-- the corrupt archive stays
example (net : Network) : (constructDataset readBdl net (cmuLayout ["data"] "bdl")
    ⟨archiveDisk [1], 0⟩).last = ⟨archiveDisk [1], 0⟩ :=
  (C87_other_error_fails readBdl net (cmuLayout ["data"] "bdl") (by unfold Plain; decide) ⟨archiveDisk [1], 0⟩ [1]
    (by decide) (by decide) "zlib.error" rfl).2

-- archive and dataset are there
example (net : Network) : (constructDataset readBdl net (cmuLayout ["data"] "bdl")
    ⟨(archiveDisk [1]).put ["data", "ARCTIC", "cmu_us_bdl_arctic"] (some .dir), 0⟩).result = .ok () :=
  (C87_present_untouched readBdl net (cmuLayout ["data"] "bdl") (by unfold Plain; decide) _ (by decide)
    (by decide)).1

end Torchrir.Props
