import Verif.Props.Reuse
import Verif.Spec.Opening

/-!
# C118: opening datasets, and when something is fetched
-/

namespace Torchrir.Props

open Torchrir.Model Torchrir.Spec

namespace Opening

variable {untar : Bytes → Except Exc (List Member)} {net : Network} {root : DiskPath} {c : Corpus}

theorem check_known (h : Known c) : c.checkName = Prog.pure () := by
  cases c with
  | cmuArctic s => exact if_pos h
  | libriSpeech s spk => exact if_pos h

theorem check_unknown (h : ¬ Known c) : ∃ msg, c.checkName = Prog.throw (.value msg) := by
  cases c with
  | cmuArctic s => exact ⟨_, if_neg h⟩
  | libriSpeech s spk => exact ⟨_, if_neg h⟩

theorem layout_base : (c.layout root).base = archiveDir root c := by cases c <;> rfl
theorem layout_name : (c.layout root).name = archiveName c := by cases c <;> rfl

/-- The two last checks. -/
def lastChecks (root : DiskPath) (c : Corpus) : Prog Unit :=
  Prog.bind (requirePath (c.layout root).dataset "dataset not found") fun _ => requireSpeaker root c

theorem require_eq (p : DiskPath) (msg : String) (m : Machine) :
    requirePath p msg m = ⟨[], m, if pathExists p m then .ok () else .error (.os msg)⟩ := rfl

theorem lastChecks_ok (m : Machine) (h : Present root m c) : lastChecks root c m = ⟨[], m, .ok ()⟩ := by
  cases c with
  | cmuArctic s =>
    have h' : pathExists (cmuLayout root s).dataset m = true := by
      simpa [cmuLayout, Present] using h
    unfold lastChecks Prog.bind
    rw [require_eq]
    simp only [Corpus.layout, h', if_true]
    rfl
  | libriSpeech s spk =>
    obtain ⟨h1, h2⟩ := h
    have h' : pathExists (libriLayout root s).dataset m = true := by simpa [libriLayout] using h1
    unfold lastChecks Prog.bind
    rw [require_eq]
    simp only [Corpus.layout, h', if_true, requireSpeaker, Corpus.speakerDir]
    cases spk with
    | none => rfl
    | some name =>
      by_cases hn : name = ""
      · subst hn
        rfl
      · simp only [hn, if_false]
        have h3 := h2 name rfl hn
        rw [require_eq, if_pos (by simpa [libriLayout] using h3)]
        rfl

theorem lastChecks_missing (m : Machine) (h : ¬ Present root m c) :
    ∃ msg, lastChecks root c m = ⟨[], m, .error (.os msg)⟩ := by
  cases c with
  | cmuArctic s =>
    have h' : pathExists (cmuLayout root s).dataset m = false := by
      simpa [cmuLayout, Present] using h
    refine ⟨"dataset not found", ?_⟩
    unfold lastChecks Prog.bind
    rw [require_eq]
    simp [Corpus.layout, h']
  | libriSpeech s spk =>
    unfold lastChecks Prog.bind
    rw [require_eq]
    by_cases h' : pathExists (libriLayout root s).dataset m = true
    swap
    · exact ⟨"dataset not found", by simp [Corpus.layout, h']⟩
    have h1 : pathExists (root ++ ["LibriSpeech", s]) m = true := by simpa [libriLayout] using h'
    have h2 : ∃ name, spk = some name ∧ name ≠ "" ∧ pathExists (root ++ ["LibriSpeech", s, name]) m = false := by
      by_contra hc
      push Not at hc
      exact h ⟨h1, fun name e hn => by simpa using hc name e hn⟩
    obtain ⟨name, rfl, hn, h3⟩ := h2
    refine ⟨"speaker directory not found", ?_⟩
    simp only [Corpus.layout, h', if_true, requireSpeaker, Corpus.speakerDir, hn, if_false]
    rw [require_eq, if_neg (by simpa [libriLayout] using h3)]
    rfl

theorem open_false (h : Known c) : openCorpus untar net root c false = lastChecks root c := by
  funext m
  unfold openCorpus
  rw [check_known h]
  rfl

theorem open_true (h : Known c) : openCorpus untar net root c true =
    Prog.bind (downloadAndExtract untar net (c.layout root)) fun _ => lastChecks root c := by
  funext m
  unfold openCorpus
  rw [check_known h]
  rfl

end Opening

open Opening

variable (untar : Bytes → Except Exc (List Member)) (net : Network) (root : DiskPath)

/-- **C118 (names).** A speaker or subset that does not exist is refused with `ValueError`, with and without
`download=True`; nothing is requested and the disk is not touched. -/
theorem C118_unknown_refused (c : Corpus) (h : ¬ Known c) (fetch : Bool) (m : Machine) :
    ∃ msg, openCorpus untar net root c fetch m = ⟨[], m, .error (.value msg)⟩ := by
  obtain ⟨msg, he⟩ := check_unknown h
  refine ⟨msg, ?_⟩
  unfold openCorpus
  rw [he]
  rfl

/-- **C118 (without download).** Without `download=True` nothing is requested and the disk is not touched, and the
dataset opens exactly if it exists and its directory, and that of the speaker, are on the disk; if only a directory is
missing, the exception is `FileNotFoundError`. -/
theorem C118_offline_exactly (c : Corpus) (m : Machine) :
    (openCorpus untar net root c false m).trace = [] ∧ (openCorpus untar net root c false m).last = m ∧
      ((openCorpus untar net root c false m).result = .ok () ↔ Known c ∧ Present root m c) ∧
      (Known c → ¬ Present root m c → ∃ msg, (openCorpus untar net root c false m).result = .error (.os msg)) := by
  by_cases hk : Known c
  swap
  · obtain ⟨msg, h⟩ := C118_unknown_refused untar net root c hk false m
    rw [h]
    exact ⟨rfl, rfl, ⟨fun h => (nomatch h), fun h => absurd h.1 hk⟩, fun h => absurd h hk⟩
  rw [open_false hk]
  by_cases hp : Present root m c
  · rw [lastChecks_ok m hp]
    exact ⟨rfl, rfl, ⟨fun _ => ⟨hk, hp⟩, fun _ => rfl⟩, fun _ h => absurd hp h⟩
  · obtain ⟨msg, h⟩ := lastChecks_missing m hp
    rw [h]
    exact ⟨rfl, rfl, ⟨fun h => (nomatch h), fun h => absurd h.2 hp⟩, fun _ _ => ⟨msg, rfl⟩⟩

/-- **C118 (opened).** If the dataset opens, with or without `download=True`, it exists and its directory, and that of
the speaker, are on the disk afterwards. -/
theorem C118_opened_present (c : Corpus) (fetch : Bool) (m : Machine)
    (h : (openCorpus untar net root c fetch m).result = .ok ()) :
    Known c ∧ Present root (openCorpus untar net root c fetch m).last c := by
  by_cases hk : Known c
  swap
  · obtain ⟨msg, he⟩ := C118_unknown_refused untar net root c hk fetch m
    rw [he] at h
    cases h
  refine ⟨hk, ?_⟩
  cases fetch with
  | false =>
    obtain ⟨-, h2, h3, -⟩ := C118_offline_exactly untar net root c m
    rw [h2]
    exact (h3.mp h).2
  | true =>
    rw [open_true hk] at h ⊢
    unfold Prog.bind at h ⊢
    cases hr : (downloadAndExtract untar net (c.layout root) m).result with
    | error e =>
      rw [hr] at h
      cases h
    | ok u =>
      rw [hr] at h
      dsimp only at h ⊢
      by_cases hp : Present root (downloadAndExtract untar net (c.layout root) m).last c
      · rw [lastChecks_ok _ hp]
        exact hp
      · obtain ⟨msg, he⟩ := lastChecks_missing _ hp
        rw [he] at h
        cases h

namespace Opening

variable {untar : Bytes → Except Exc (List Member)} {net : Network} {root : DiskPath} {c : Corpus}

theorem dataset_exists {m : Machine} (h : Present root m c) : pathExists (c.layout root).dataset m = true := by
  cases c with
  | cmuArctic s => simpa [Corpus.layout, cmuLayout, Present] using h
  | libriSpeech s spk => simpa [Corpus.layout, libriLayout] using h.1

theorem download_part {m : Machine} (h : (constructDataset untar net (c.layout root) m).result = .ok ()) :
    (downloadAndExtract untar net (c.layout root) m).result = .ok () ∧
      (downloadAndExtract untar net (c.layout root) m).last = (constructDataset untar net (c.layout root) m).last ∧
      ∀ d, Seen (downloadAndExtract untar net (c.layout root) m) d →
        Seen (constructDataset untar net (c.layout root) m) d := by
  unfold constructDataset at h ⊢
  unfold Prog.bind at h ⊢
  cases hr : (downloadAndExtract untar net (c.layout root) m).result with
  | error e =>
    rw [hr] at h
    cases h
  | ok u =>
    refine ⟨rfl, rfl, ?_⟩
    rintro d (⟨x, hx, rfl⟩ | rfl)
    · exact Or.inl ⟨x, List.mem_append_left _ hx, rfl⟩
    · exact Or.inr rfl

theorem open_of_download (hk : Known c) {m : Machine}
    (h : (downloadAndExtract untar net (c.layout root) m).result = .ok ())
    (hp : Present root (downloadAndExtract untar net (c.layout root) m).last c) :
    openCorpus untar net root c true m = ⟨(downloadAndExtract untar net (c.layout root) m).trace,
      (downloadAndExtract untar net (c.layout root) m).last, .ok ()⟩ := by
  rw [open_true hk]
  unfold Prog.bind
  rw [h]
  dsimp only
  rw [lastChecks_ok _ hp]
  simp

end Opening

/-- **C118 (all there).** With `download=True`, if the archive and the directories are on the disk, the dataset opens
without a request and without touching the disk. -/
theorem C118_present_untouched (c : Corpus) (hk : Known c) (hroot : Plain (archiveFile root c)) (m : Machine)
    (hp : Present root m c) (ha : pathExists (archiveFile root c) m = true) :
    (openCorpus untar net root c true m).result = .ok () ∧ (openCorpus untar net root c true m).last = m ∧
      ∀ d, Seen (openCorpus untar net root c true m) d → d = m.disk := by
  have hb : Plain ((c.layout root).base ++ [(c.layout root).name]) := by
    rw [layout_base, layout_name]
    exact hroot
  obtain ⟨h1, h2, h3⟩ := C87_present_untouched untar net (c.layout root) hb m
    (by rw [layout_base, layout_name]; exact ha) (dataset_exists hp)
  obtain ⟨k1, k2, k3⟩ := download_part h1
  have hl := k2.trans h2
  rw [open_of_download hk k1 (by rw [hl]; exact hp)]
  refine ⟨rfl, hl, ?_⟩
  intro d hd
  exact h3 d (k3 d hd)

/-- **C118 (what opening with download adds).** A speaker of CMU ARCTIC opens with `download=True` exactly like the
construction of C49–C51 and C87. -/
theorem C118_cmu_construct (s : String) (hk : Known (.cmuArctic s)) (m : Machine)
    (h : (constructDataset untar net (cmuLayout root s) m).result = .ok ()) :
    (openCorpus untar net root (.cmuArctic s) true m).result = .ok () ∧
      (openCorpus untar net root (.cmuArctic s) true m).last = (constructDataset untar net (cmuLayout root s) m).last := by
  obtain ⟨k1, k2, -⟩ := download_part (c := .cmuArctic s) h
  have hp : Present root (downloadAndExtract untar net (cmuLayout root s) m).last (.cmuArctic s) := by
    have h' := h
    unfold constructDataset Prog.bind at h'
    rw [show (downloadAndExtract untar net (cmuLayout root s) m).result = .ok () from k1] at h'
    dsimp only [Prog.look] at h'
    by_cases hx : pathExists (cmuLayout root s).dataset (downloadAndExtract untar net (cmuLayout root s) m).last = true
    · simpa [cmuLayout, Present] using hx
    · rw [if_neg hx] at h'
      cases h'
  rw [open_of_download hk k1 hp]
  exact ⟨rfl, k2⟩

namespace Opening

variable {untar : Bytes → Except Exc (List Member)} {net : Network} {root : DiskPath} {c : Corpus}

theorem more_extract (L : Layout) (n : ℕ) : Keeps (fun m => n < m.requests) (openAndExtract untar L) := by
  unfold openAndExtract readFile
  refine Keeps.bind (Triple.look (fun _ _ h _ => h) fun _ _ h _ => h) fun _ =>
    Keeps.bind (Triple.look (fun _ _ h _ => h) fun _ _ h _ => h) fun _ => ?_
  exact triple_safeExtractAll (fun _ _ _ _ _ _ _ _ h _ => h) fun _ _ _ _ _ _ _ h _ => h

theorem more_stream (L : Layout) (n : ℕ) : Keeps (fun m => n < m.requests) (streamDownload net L.base L.name) :=
  triple_streamDownload (fun m (hm : n < m.requests) => Nat.lt_succ_of_lt hm) (fun _ hm => hm) (fun _ _ hm _ => hm)
    fun _ _ _ _ _ _ _ hm _ => hm

theorem more_download (L : Layout) (n k : ℕ) : Keeps (fun m => n < m.requests) (downloadLoop net L.base L.name k) :=
  triple_downloadLoop (more_stream L n) (fun _ hm => hm) k

theorem more_repair (L : Layout) (n : ℕ) : Keeps (fun m => n < m.requests) (extractOrRepair untar net L) := by
  unfold extractOrRepair
  refine Triple.catchWith (more_extract L n) fun e => ?_
  split_ifs
  · exact Keeps.bind (Keeps.whenState (triple_unlink fun _ hm => hm)) fun _ =>
      Keeps.bind (more_download L n 1) fun _ => more_extract L n
  · exact Triple.throw fun _ hm => hm

theorem more_open (n : ℕ) : Keeps (fun m => n < m.requests) (openCorpus untar net root c true) := by
  have hlook : ∀ (p : DiskPath) (msg : String), Keeps (fun m => n < m.requests) (requirePath p msg) :=
    fun p msg => Triple.look (fun _ _ h _ => h) fun _ _ h _ => h
  unfold openCorpus
  refine Keeps.bind ?_ fun _ => Keeps.bind ?_ fun _ => Keeps.bind (hlook _ _) fun _ => ?_
  · by_cases hk : Known c
    · rw [check_known hk]
      exact Triple.pure fun _ h => h
    · obtain ⟨msg, h⟩ := check_unknown hk
      rw [h]
      exact Triple.throw fun _ h => h
  · rw [if_pos rfl]
    exact Keeps.bind (triple_makedirs _ fun _ _ _ h _ => h) fun _ =>
      Keeps.bind (Keeps.whenState (more_download _ n 1)) fun _ => Keeps.whenState (more_repair _ n)
  · unfold requireSpeaker
    cases c.speakerDir root with
    | none => exact Triple.pure fun _ h => h
    | some p => exact hlook _ _

theorem not_exists {p : DiskPath} (hp : Plain p) {m : Machine} (h : m.disk p = none) : pathExists p m = false := by
  by_contra hc
  obtain ⟨-, h3⟩ := exists_dirs hp (by simpa using hc)
  rw [h] at h3
  cases h3

theorem plain_part' {L : Layout} (hb : Plain (L.base ++ [L.name])) : Plain (partPath L.base L.name) := by
  intro s hs
  rcases List.mem_append.mp hs with hs | hs
  · exact hb s (List.mem_append_left _ hs)
  · rw [List.mem_singleton.mp hs]
    constructor <;> intro e <;>
    · have := congrArg String.length e
      rw [String.length_append] at this
      have h5 : ".part".length = 5 := by decide
      have h6 : ".".length = 1 := by decide
      have h7 : "..".length = 2 := by decide
      omega

/-- The first attempt sends a request. -/
theorem asks_stream {L : Layout} (hb : Plain (L.base ++ [L.name])) (n : ℕ) :
    Triple (fun _ => True) (fun m => m.requests = n ∧ m.disk (partPath L.base L.name) = none)
      (streamDownload net L.base L.name) (fun _ m => n < m.requests) (fun _ m => n < m.requests) := by
  unfold streamDownload
  refine Triple.bind (R := fun _ m => m.requests = n) (Triple.whenState ?_ fun m hm _ => hm.1) fun _ => ?_
  · rintro m ⟨⟨-, h⟩, hx⟩
    rw [not_exists (plain_part' hb) h] at hx
    cases hx
  refine Triple.bind (R := fun _ m => n < m.requests) (triple_urlopen (fun _ _ => trivial) ?_ ?_) fun r => ?_
  · rintro m r rfl -
    exact Nat.lt_succ_self _
  · rintro m r rfl -
    exact Nat.lt_succ_self _
  have hw : WriteKeeps (fun m : Machine => n < m.requests) (resolve (partPath L.base L.name)) := fun _ _ hm _ => hm
  refine Triple.mono (I := fun m => n < m.requests) (P := fun m => n < m.requests)
    (Q := fun _ m => n < m.requests) (E := fun _ m => n < m.requests) ?_ (fun _ _ => trivial) (fun _ h => h)
    (fun _ _ h => h) fun _ _ h => h
  refine Triple.bind ((triple_openWrite hw).pre fun m hm => hm) fun p => ?_
  by_cases hp : p = resolve (partPath L.base L.name)
  swap
  · intro m hm
    exact absurd hm.1 hp
  subst hp
  refine Triple.bind ((triple_readLoop hw r.reads []).pre fun m hm => hm.2) fun body => ?_
  refine Triple.bind (triple_checkLength fun m e hm => hm.1) fun _ => ?_
  exact triple_replaceFile (fun m hm => hm.1.1) fun m c hm _ _ => hm.1.1

theorem asks_download {L : Layout} (hb : Plain (L.base ++ [L.name])) (n : ℕ) :
    Triple (fun _ => True) (fun m => m.requests = n ∧ m.disk (partPath L.base L.name) = none)
      (download net L.base L.name) (fun _ m => n < m.requests) (fun _ m => n < m.requests) := by
  unfold download downloadLoop
  refine Triple.catchWith (asks_stream hb n) fun e => ?_
  exact Triple.mono (Keeps.bind (Keeps.whenState (triple_unlink fun _ hm => hm)) fun _ => more_download L n 0)
    (fun _ _ => trivial) (fun _ h => h) (fun _ _ h => h) fun _ _ h => h

theorem asks_fetch {L : Layout} (hb : Plain (L.base ++ [L.name])) (n : ℕ) :
    Triple (fun _ => True) (fun m => (m.requests = n ∧ m.disk (L.base ++ [L.name]) = none ∧
        m.disk (partPath L.base L.name) = none) ∧ m.disk [] = some .dir ∧
        ∀ q, q <+: L.base → ∀ c, m.disk q ≠ some (.file c))
      (downloadAndExtract untar net L) (fun _ m => n < m.requests) (fun _ m => n < m.requests) := by
  unfold downloadAndExtract
  have hbase : Plain L.base := Plain.of_prefix (List.prefix_append _ _) hb
  have hmk := success_makedirs L.base.reverse (fun m => m.requests = n ∧ m.disk (L.base ++ [L.name]) = none ∧
      m.disk (partPath L.base L.name) = none) (by rw [List.reverse_reverse]; exact hbase) (by
    rw [List.reverse_reverse]
    rintro q hq m ⟨h1, h2, h3⟩ -
    have hl := hq.length_le
    refine ⟨h1, ?_, ?_⟩
    · dsimp only
      rw [put_ne _ _ fun e => ?_]
      · exact h2
      · rw [← e, List.length_append] at hl
        simp at hl
    · dsimp only
      rw [put_ne _ _ fun e => ?_]
      · exact h3
      · rw [← e, partPath, List.length_append] at hl
        simp at hl)
  rw [List.reverse_reverse] at hmk
  refine Triple.bind (hmk.mono (fun _ _ => trivial) (fun _ h => h) (fun _ _ h => h) fun _ _ h => h.elim) fun _ => ?_
  refine Triple.bind (R := fun _ m => n < m.requests) (Triple.whenState
    ((asks_download hb n).pre fun m hm => ⟨hm.1.1.1, hm.1.1.2.2⟩) ?_) fun _ => ?_
  · rintro m ⟨⟨-, h2, -⟩, -⟩ hx
    rw [not_exists hb h2] at hx
    cases hx
  · exact Triple.mono (Keeps.whenState (more_repair L n)) (fun _ _ => trivial) (fun _ h => h) (fun _ _ h => h)
      fun _ _ h => h

theorem triple_last {α : Type} {I P : Machine → Prop} {p : Prog α} {R : Machine → Prop}
    (h : Triple I P p (fun _ => R) (fun _ => R)) {m : Machine} (hm : P m) : R (p m).last := by
  obtain ⟨-, h2, h3⟩ := h m hm
  cases hr : (p m).result with
  | ok a => exact h2 a hr
  | error e => exact h3 e hr

theorem lastChecks_last (m : Machine) : (lastChecks root c m).last = m := by
  by_cases hp : Present root m c
  · rw [lastChecks_ok m hp]
  · obtain ⟨msg, h⟩ := lastChecks_missing m hp
    rw [h]

end Opening

/-- **C118 (asks).** With `download=True`, if the archive is not on the disk, a request is sent, whether or not the
dataset itself is on the disk. -/
theorem C118_no_archive_asks (c : Corpus) (hk : Known c) (hroot : Plain (archiveFile root c)) (m : Machine)
    (h : NoArchive root m c) : m.requests < (openCorpus untar net root c true m).last.requests := by
  rw [open_true hk]
  have hb : Plain ((c.layout root).base ++ [(c.layout root).name]) := by
    rw [layout_base, layout_name]
    exact hroot
  refine triple_last (R := fun x => m.requests < x.requests)
    (Triple.bind (asks_fetch hb m.requests) fun _ => ?_) (m := m) ⟨⟨rfl, ?_, ?_⟩, h.top, ?_⟩
  · intro x hx
    refine ⟨fun d hd => trivial, fun a _ => ?_, fun e _ => ?_⟩ <;> rw [lastChecks_last] <;> exact hx
  · rw [layout_base, layout_name]
    exact h.archive
  · rw [layout_base, layout_name]
    exact h.part
  · rw [layout_base]
    exact h.noFile

namespace Opening

/-- An attempt without a connection. -/
theorem dead_stream {L : Layout} (hb : Plain (L.base ++ [L.name])) (e : Exc) (d : Disk)
    (hp : d (partPath L.base L.name) = none) (n : ℕ) :
    streamDownload (fun _ => .error e) L.base L.name ⟨d, n⟩ = ⟨[⟨d, n + 1⟩], ⟨d, n + 1⟩, .error e⟩ := by
  have hx : pathExists (partPath L.base L.name) ⟨d, n⟩ = false := not_exists (plain_part' hb) hp
  have hw : Prog.whenState (pathExists (partPath L.base L.name)) (unlink (partPath L.base L.name)) ⟨d, n⟩ =
      ⟨[], ⟨d, n⟩, .ok ()⟩ := by
    unfold Prog.whenState
    rw [if_neg (by rw [hx]; exact Bool.false_ne_true)]
  unfold streamDownload Prog.bind
  rw [hw]
  rfl

theorem idle_remove {L : Layout} (hb : Plain (L.base ++ [L.name])) {d : Disk} (ha : d (L.base ++ [L.name]) = none)
    (n : ℕ) : Prog.whenState (pathExists (L.base ++ [L.name])) (unlink (L.base ++ [L.name])) ⟨d, n⟩ =
      ⟨[], ⟨d, n⟩, .ok ()⟩ := by
  have hx : pathExists (L.base ++ [L.name]) ⟨d, n⟩ = false := not_exists hb ha
  unfold Prog.whenState
  rw [if_neg (by rw [hx]; exact Bool.false_ne_true)]

theorem dead_download {L : Layout} (hb : Plain (L.base ++ [L.name])) (e : Exc) (d : Disk)
    (ha : d (L.base ++ [L.name]) = none) (hp : d (partPath L.base L.name) = none) (n : ℕ) :
    (download (fun _ => .error e) L.base L.name ⟨d, n⟩).result = .error e ∧
      (download (fun _ => .error e) L.base L.name ⟨d, n⟩).last = ⟨d, n + 2⟩ := by
  unfold download downloadLoop downloadLoop Prog.catchWith
  rw [dead_stream hb e d hp n]
  dsimp only [Prog.bind]
  rw [idle_remove hb ha (n + 1)]
  dsimp only
  rw [dead_stream hb e d hp (n + 1)]
  dsimp only
  rw [idle_remove hb ha (n + 2)]
  exact ⟨rfl, rfl⟩

theorem makedirs_there {L : Layout} (hb : Plain L.base) (m : Machine) (hdir : ∀ q, q <+: L.base → m.disk q = some .dir) :
    (makedirs L.base.reverse m).result = .ok () ∧ (makedirs L.base.reverse m).last = m := by
  have := success_makedirs L.base.reverse (· = m) (by rw [List.reverse_reverse]; exact hb) (by
      rw [List.reverse_reverse]
      rintro q hq x rfl hn
      rw [hdir q hq] at hn
      cases hn)
  rw [List.reverse_reverse] at this
  obtain ⟨-, h2, h3⟩ := this m ⟨rfl, hdir _ List.nil_prefix, fun q hq c => by rw [hdir q hq]; exact fun h => nomatch h⟩
  cases hr : (makedirs L.base.reverse m).result with
  | ok u => exact ⟨rfl, (h2 u hr).1⟩
  | error e => exact (h3 e hr).elim

theorem dead_fetch {L : Layout} (untar : Bytes → Except Exc (List Member)) (hb : Plain (L.base ++ [L.name])) (e : Exc)
    (m : Machine) (hdir : ∀ q, q <+: L.base → m.disk q = some .dir) (ha : m.disk (L.base ++ [L.name]) = none)
    (hp : m.disk (partPath L.base L.name) = none) :
    (downloadAndExtract untar (fun _ => .error e) L m).result = .error e ∧
      (downloadAndExtract untar (fun _ => .error e) L m).last = ⟨m.disk, m.requests + 2⟩ := by
  obtain ⟨h1, h2⟩ := makedirs_there (Plain.of_prefix (List.prefix_append _ _) hb) m hdir
  obtain ⟨k1, k2⟩ := dead_download hb e m.disk ha hp m.requests
  have hx : pathExists (L.base ++ [L.name]) m = false := not_exists hb ha
  have hw : Prog.whenState (fun m => !pathExists (L.base ++ [L.name]) m) (download (fun _ => .error e) L.base L.name) m =
      download (fun _ => .error e) L.base L.name m := by
    unfold Prog.whenState
    rw [if_pos (by simp [hx])]
  unfold downloadAndExtract Prog.bind
  rw [h1, h2]
  dsimp only
  rw [hw, k1]
  exact ⟨rfl, k2⟩

theorem base_prefix {root : DiskPath} {c : Corpus} : (c.layout root).base <+: (c.layout root).dataset ∧
    (c.layout root).base.length < (c.layout root).dataset.length := by
  cases c with
  | cmuArctic s =>
    refine ⟨⟨["cmu_us_" ++ s ++ "_arctic"], by simp [Corpus.layout, cmuLayout]⟩, ?_⟩
    simp [Corpus.layout, cmuLayout]
  | libriSpeech s spk =>
    refine ⟨⟨["LibriSpeech", s], by simp [Corpus.layout, libriLayout]⟩, ?_⟩
    simp [Corpus.layout, libriLayout]

theorem no_dot (a b : String) (h : 3 ≤ a.length + b.length) : a ++ b ≠ "." ∧ a ++ b ≠ ".." := by
  constructor <;> intro e <;>
  · have := congrArg String.length e
    rw [String.length_append] at this
    have h6 : ".".length = 1 := by decide
    have h7 : "..".length = 2 := by decide
    omega

theorem plain_dataset' {root : DiskPath} {c : Corpus} (hk : Known c) (h : Plain (archiveFile root c)) :
    Plain (c.layout root).dataset := by
  have hr : Plain root := by
    refine Plain.of_prefix ?_ h
    cases c with
    | cmuArctic s => exact ⟨["ARCTIC", archiveName (.cmuArctic s)], by simp [archiveFile, archiveDir]⟩
    | libriSpeech s spk => exact ⟨_, rfl⟩
  cases c with
  | cmuArctic s =>
    intro x hx
    simp only [Corpus.layout, cmuLayout, List.append_assoc, List.mem_append, List.mem_singleton] at hx
    rcases hx with hx | rfl | rfl
    · exact hr x hx
    · exact ⟨by decide, by decide⟩
    · exact no_dot _ _ (by
        have : "_arctic".length = 7 := by decide
        omega)
  | libriSpeech s spk =>
    intro x hx
    simp only [Corpus.layout, libriLayout, List.mem_append, List.mem_cons, List.not_mem_nil, or_false] at hx
    rcases hx with hx | rfl | rfl
    · exact hr x hx
    · exact ⟨by decide, by decide⟩
    · unfold Known at hk
      simp only [List.mem_cons, List.not_mem_nil, or_false] at hk
      rcases hk with rfl | rfl | rfl | rfl | rfl | rfl | rfl <;> exact ⟨by decide, by decide⟩

end Opening

/-- **C118 (needless request, fails).** A dataset that is on the disk should open with `download=True` without the
network. If only its archive has been deleted, the archive is requested again, so that without a connection the dataset
does not open although everything is there; the disk stays as it is. -/
theorem C118_archive_deleted_fails (c : Corpus) (hk : Known c) (hroot : Plain (archiveFile root c)) (m : Machine)
    (hp : Present root m c) (ha : m.disk (archiveFile root c) = none)
    (hpart : m.disk (archiveDir root c ++ [archiveName c ++ ".part"]) = none) (e : Exc) :
    (openCorpus untar net root c false m).result = .ok () ∧
      (openCorpus untar (fun _ => .error e) root c true m).result = .error e ∧
      (openCorpus untar (fun _ => .error e) root c true m).last = ⟨m.disk, m.requests + 2⟩ := by
  refine ⟨(C118_offline_exactly untar net root c m).2.2.1.mpr ⟨hk, hp⟩, ?_⟩
  have hb : Plain ((c.layout root).base ++ [(c.layout root).name]) := by
    rw [layout_base, layout_name]
    exact hroot
  obtain ⟨h1, -⟩ := exists_dirs (plain_dataset' hk hroot) (dataset_exists hp)
  obtain ⟨k1, k2⟩ := dead_fetch untar hb e m (fun q hq => h1 q (hq.trans base_prefix.1) (by
      rintro rfl
      exact absurd hq.length_le (Nat.not_le.mpr base_prefix.2)))
    (by rw [layout_base, layout_name]; exact ha) (by rw [layout_base, layout_name]; exact hpart)
  rw [open_true hk]
  unfold Prog.bind
  rw [k1]
  exact ⟨rfl, k2⟩

/-- What `build_dynamic_dataset.py` is asked to open: the chosen speaker of CMU ARCTIC, `bdl` if none is named, or the
chosen subset of LibriSpeech with the chosen speaker, if any. -/
def asked (dataset subset : String) : Option String → Corpus
  | none => if dataset = "cmu_arctic" then .cmuArctic "bdl" else .libriSpeech subset none
  | some s => if dataset = "cmu_arctic" then .cmuArctic (if s = "" then "bdl" else s) else .libriSpeech subset (some s)

theorem asked_eq (dataset subset : String) (speaker : Option String) :
    asked dataset subset speaker = factoryCorpus dataset subset speaker := by
  cases speaker <;> rfl

/-- **C118 (dataset script).** `build_dynamic_dataset.py` without `--download`: what is on the disk is opened without a
request and without touching the disk; a name that does not exist is refused in the same way. -/
theorem C118_factory_untouched (dataset subset : String) (speaker : Option String) (m : Machine)
    (h : ¬ Known (asked dataset subset speaker) ∨ Present root m (asked dataset subset speaker)) :
    (datasetFactory untar net root dataset subset false speaker m).trace = [] ∧
      (datasetFactory untar net root dataset subset false speaker m).last = m ∧
      ((datasetFactory untar net root dataset subset false speaker m).result = .ok () ↔
        Known (asked dataset subset speaker)) := by
  rw [asked_eq] at h ⊢
  unfold datasetFactory Prog.catchWith
  by_cases hk : Known (factoryCorpus dataset subset speaker)
  · have hp := h.resolve_left (fun hn => hn hk)
    rw [open_false hk, lastChecks_ok m hp]
    exact ⟨rfl, rfl, fun _ => hk, fun _ => rfl⟩
  · obtain ⟨msg, he⟩ := C118_unknown_refused untar net root _ hk false m
    rw [he]
    exact ⟨rfl, rfl, fun h => (nomatch h), fun h => absurd h hk⟩

/-- **C118 (flag without effect, fails).** Without `--download` the script should not fetch anything. Whenever something
is missing, a speaker of a subset included, it does exactly what it does with `download=True`. -/
theorem C118_flag_ignored_fails (dataset subset : String) (speaker : Option String) (m : Machine)
    (hk : Known (asked dataset subset speaker)) (hp : ¬ Present root m (asked dataset subset speaker)) :
    datasetFactory untar net root dataset subset false speaker m =
      openCorpus untar net root (asked dataset subset speaker) true m := by
  rw [asked_eq] at hk hp ⊢
  unfold datasetFactory Prog.catchWith
  obtain ⟨msg, he⟩ := lastChecks_missing (c := factoryCorpus dataset subset speaker) m hp
  rw [open_false hk, he]
  rfl

/-- **C118 (scripts without download).** `static.py`, `dynamic_src.py` and `dynamic_mic.py` with `--no-download`: opening
the datasets for the chosen speakers requests nothing and leaves the disk alone, and succeeds exactly if the speaker
`bdl` and all chosen speakers are on the disk. -/
theorem C118_scripts_offline_exactly (chosen : List String) (hc : ∀ s ∈ chosen, Known (.cmuArctic s)) (m : Machine) :
    (openForSources (scriptFactory untar net root false) chosen m).trace = [] ∧
      (openForSources (scriptFactory untar net root false) chosen m).last = m ∧
      ((openForSources (scriptFactory untar net root false) chosen m).result = .ok () ↔
        Present root m (.cmuArctic "bdl") ∧ ∀ s ∈ chosen, Present root m (.cmuArctic s)) := by
  have hor : ∀ s, Known (.cmuArctic s) → orBdl (some s) = s := by
    intro s hs
    have : s ≠ "" := by
      rintro rfl
      revert hs
      unfold Known
      decide
    exact if_neg this
  have each : ∀ chosen : List String, (∀ s ∈ chosen, Known (.cmuArctic s)) →
      (openEach (scriptFactory untar net root false) chosen m).trace = [] ∧
      (openEach (scriptFactory untar net root false) chosen m).last = m ∧
      ((openEach (scriptFactory untar net root false) chosen m).result = .ok () ↔
        ∀ s ∈ chosen, Present root m (.cmuArctic s)) := by
    intro chosen
    induction chosen with
    | nil => exact fun _ => ⟨rfl, rfl, fun _ s hs => (nomatch hs), fun _ => rfl⟩
    | cons s rest ih =>
      intro hc
      have hs := hc s (List.mem_cons_self ..)
      obtain ⟨i1, i2, i3⟩ := ih fun t ht => hc t (List.mem_cons_of_mem _ ht)
      unfold openEach scriptFactory
      unfold Prog.bind
      rw [hor s hs, open_false hs]
      by_cases hp : Present root m (.cmuArctic s)
      · rw [lastChecks_ok m hp]
        refine ⟨i1, i2, ?_⟩
        dsimp only
        refine i3.trans ⟨fun h t ht => ?_, fun h t ht => h t (List.mem_cons_of_mem _ ht)⟩
        rcases List.mem_cons.mp ht with rfl | ht
        · exact hp
        · exact h t ht
      · obtain ⟨msg, he⟩ := lastChecks_missing m hp
        rw [he]
        exact ⟨rfl, rfl, fun h => (nomatch h), fun h => absurd (h s (List.mem_cons_self ..)) hp⟩
  obtain ⟨i1, i2, i3⟩ := each chosen hc
  have hk : Known (.cmuArctic (orBdl none)) := by
    unfold Known orBdl
    decide
  unfold openForSources
  unfold Prog.bind
  rw [show scriptFactory untar net root false none = lastChecks root (.cmuArctic "bdl") from open_false hk]
  by_cases hp : Present root m (.cmuArctic "bdl")
  · rw [lastChecks_ok m hp]
    exact ⟨i1, i2, i3.trans ⟨fun h => ⟨hp, h⟩, fun h => h.2⟩⟩
  · obtain ⟨msg, he⟩ := lastChecks_missing m hp
    rw [he]
    exact ⟨rfl, rfl, fun h => (nomatch h), fun h => absurd h.1 hp⟩

/-- **C118 (speaker nobody asked for, fails).** The speakers that were chosen should be enough. Whatever speakers are
chosen and present, without `bdl` on the disk the scripts stop under `--no-download`, and otherwise request it. -/
theorem C118_default_speaker_fails (chosen : List String) (hc : ∀ s ∈ chosen, Known (.cmuArctic s)) (m : Machine)
    (hroot : Plain (archiveFile root (.cmuArctic "bdl"))) (hno : NoArchive root m (.cmuArctic "bdl"))
    (hb : ¬ Present root m (.cmuArctic "bdl")) :
    (openForSources (scriptFactory untar net root false) chosen m).result ≠ .ok () ∧
      m.requests < (openForSources (scriptFactory untar net root true) chosen m).last.requests := by
  refine ⟨fun h => hb ((C118_scripts_offline_exactly untar net root chosen hc m).2.2.mp h).1, ?_⟩
  have hask := C118_no_archive_asks untar net root (.cmuArctic "bdl") (by unfold Known; decide) hroot m hno
  have each : ∀ l : List String, Keeps (fun x => m.requests < x.requests) (openEach (scriptFactory untar net root true) l) := by
    intro l
    induction l with
    | nil => exact Triple.pure fun _ h => h
    | cons s rest ih => exact Keeps.bind (more_open m.requests) fun _ => ih
  refine triple_last (R := fun x => m.requests < x.requests) (I := fun _ => True) (P := (· = m)) ?_ rfl
  refine Triple.bind (R := fun _ x => m.requests < x.requests) ?_ fun _ =>
    (each chosen).mono (fun _ _ => trivial) (fun _ h => h) (fun _ _ h => h) fun _ _ h => h
  rintro x rfl
  exact ⟨fun _ _ => trivial, fun _ _ => hask, fun _ _ => hask⟩

/-- A disk with the directory of one speaker, `clb`, and no archive. -/
def clbDisk : Disk :=
  (dataDisk.put ["data", "ARCTIC"] (some .dir)).put ["data", "ARCTIC", "cmu_us_clb_arctic"] (some .dir)

theorem clb_no_archive (s : String) (hs : s = "clb" ∨ s = "bdl") :
    NoArchive ["data"] ⟨clbDisk, 0⟩ (.cmuArctic s) where
  archive := by rcases hs with rfl | rfl <;> decide
  part := by rcases hs with rfl | rfl <;> decide
  top := by decide
  noFile q _ c := by
    simp only [clbDisk, Disk.put, dataDisk]
    split_ifs <;> exact fun h => (nomatch h)

-- a wrong name
example : ∃ msg, openCorpus untar net root (.cmuArctic "BDL") true ⟨clbDisk, 0⟩ = ⟨[], ⟨clbDisk, 0⟩, .error (.value msg)⟩ :=
  C118_unknown_refused untar net root _ (by unfold Known; decide) true _

-- `clb` opens without the network, but with `download=True` and no connection it does not
example : (openCorpus untar net ["data"] (.cmuArctic "clb") false ⟨clbDisk, 0⟩).result = .ok () ∧
    (openCorpus untar (fun _ => .error (.os "no route")) ["data"] (.cmuArctic "clb") true ⟨clbDisk, 0⟩).result =
      .error (.os "no route") :=
  have h := C118_archive_deleted_fails untar net ["data"] (.cmuArctic "clb") (by unfold Known; decide)
    (by unfold Plain archiveFile archiveDir archiveName; decide) ⟨clbDisk, 0⟩ (by unfold Present; decide)
    (clb_no_archive "clb" (.inl rfl)).archive (clb_no_archive "clb" (.inl rfl)).part (.os "no route")
  ⟨h.1, h.2.1⟩

-- only `clb` is wanted and present: `bdl` is requested
example : (openForSources (scriptFactory untar net ["data"] false) ["clb"] ⟨clbDisk, 0⟩).result ≠ .ok () ∧
    0 < (openForSources (scriptFactory untar net ["data"] true) ["clb"] ⟨clbDisk, 0⟩).last.requests :=
  C118_default_speaker_fails untar net ["data"] ["clb"] (by unfold Known; decide) ⟨clbDisk, 0⟩
    (by unfold Plain archiveFile archiveDir archiveName; decide) (clb_no_archive "bdl" (.inr rfl))
    (by unfold Present; decide)

-- the dataset script requests `bdl` without `--download`
example : 0 < (datasetFactory untar net ["data"] "cmu_arctic" "train-clean-100" false none ⟨clbDisk, 0⟩).last.requests := by
  have hk : Known (.cmuArctic "bdl") := by unfold Known; decide
  have h := C118_flag_ignored_fails untar net ["data"] "cmu_arctic" "train-clean-100" none ⟨clbDisk, 0⟩ hk
    (show ¬ Present ["data"] ⟨clbDisk, 0⟩ (.cmuArctic "bdl") by unfold Present; decide)
  rw [h]
  exact C118_no_archive_asks untar net ["data"] (.cmuArctic "bdl") hk
    (by unfold Plain archiveFile archiveDir archiveName; decide) _ (clb_no_archive "bdl" (.inr rfl))

-- a speaker of LibriSpeech that is not in a subset that is there
example : ∃ msg, (openCorpus untar net ["data"] (.libriSpeech "dev-clean" (some "84"))
    false ⟨dataDisk.put ["data", "LibriSpeech"] (some .dir) |>.put ["data", "LibriSpeech", "dev-clean"] (some .dir), 0⟩).result =
      .error (.os msg) :=
  (C118_offline_exactly untar net ["data"] (.libriSpeech "dev-clean" (some "84")) _).2.2.2 (by unfold Known; decide)
    (by
      rintro ⟨-, h⟩
      have := h "84" rfl (by decide)
      revert this
      decide)

-- everything is there
example : (openCorpus readBdl net ["data"] (.cmuArctic "bdl") true
    ⟨(archiveDisk [1]).put ["data", "ARCTIC", "cmu_us_bdl_arctic"] (some .dir), 0⟩).result = .ok () :=
  (C118_present_untouched readBdl net ["data"] (.cmuArctic "bdl") (by unfold Known; decide)
    (by unfold Plain archiveFile archiveDir archiveName; decide) _ (by unfold Present; decide) (by decide)).1

end Torchrir.Props
