import Verif.Lemmas.Download

/-! # When the disk programs succeed -/

namespace Torchrir.Model

theorem lookup_from {fs : Disk} : ∀ (p cur : DiskPath), Plain p →
    (∀ q, q <+: p → q ≠ p → fs (cur ++ q) = some .dir) → lookup fs cur p = some (cur ++ p)
  | [], cur, _, _ => by simp [lookup]
  | s :: p, cur, hp, h => by
    have hs := hp s (List.mem_cons_self ..)
    unfold lookup
    rw [if_pos (by simpa using h [] (List.nil_prefix) (by simp))]
    have : stepPath cur s = cur ++ [s] := by
      unfold stepPath
      rw [if_neg hs.1, if_neg hs.2]
    rw [this, lookup_from p _ fun t ht => hp t (List.mem_cons_of_mem _ ht)]
    · simp
    · intro q hq hne
      rw [List.append_assoc, List.singleton_append]
      exact h (s :: q) (List.cons_prefix_cons.mpr ⟨rfl, hq⟩) fun e => hne (List.cons.inj e).2

theorem lookup_plain {fs : Disk} {p : DiskPath} (hp : Plain p)
    (h : ∀ q, q <+: p → q ≠ p → fs q = some .dir) : lookup fs [] p = some p := by
  rw [lookup_from p [] hp (by simpa using h), List.nil_append]

theorem lookup_dirs_from {fs : Disk} : ∀ (p cur r : DiskPath), Plain p → lookup fs cur p = some r →
    ∀ q, q <+: p → q ≠ p → fs (cur ++ q) = some .dir
  | [], cur, r, _, _, q, hq, hne => absurd (List.prefix_nil.mp hq) hne
  | s :: p, cur, r, hp, h, q, hq, hne => by
    have hs := hp s (List.mem_cons_self ..)
    unfold lookup at h
    split_ifs at h with hc
    rcases q with _ | ⟨t, q⟩
    · simpa using hc
    · obtain ⟨rfl, hq'⟩ := List.cons_prefix_cons.mp hq
      have : stepPath cur t = cur ++ [t] := by
        unfold stepPath
        rw [if_neg hs.1, if_neg hs.2]
      rw [this] at h
      have := lookup_dirs_from p _ r (fun u hu => hp u (List.mem_cons_of_mem _ hu)) h q hq'
        fun e => hne (by rw [e])
      simpa using this

theorem exists_dirs {m : Machine} {p : DiskPath} (hp : Plain p) (h : pathExists p m = true) :
    (∀ q, q <+: p → q ≠ p → m.disk q = some .dir) ∧ (m.disk p).isSome := by
  unfold pathExists nodeAt at h
  cases hl : lookup m.disk [] p with
  | none =>
    rw [hl] at h
    cases h
  | some r =>
    refine ⟨by simpa using lookup_dirs_from p [] r hp hl, ?_⟩
    rw [hl] at h
    obtain rfl := lookup_resolve hl
    rwa [resolve_plain hp] at h

theorem pathExists_of {m : Machine} {p : DiskPath} (hp : Plain p)
    (h : ∀ q, q <+: p → q ≠ p → m.disk q = some .dir) : pathExists p m = (m.disk p).isSome := by
  unfold pathExists nodeAt
  rw [lookup_plain hp h, Option.bind_some]

theorem success_mkdirOk {I : Machine → Prop} {p : DiskPath} (hp : Plain p)
    (hI : ∀ m, I m → m.disk p = none → I ⟨m.disk.put p (some .dir), m.requests⟩) :
    Triple I (fun m => I m ∧ (∀ q, q <+: p → q ≠ p → m.disk q = some .dir) ∧ ∀ c, m.disk p ≠ some (.file c))
      (mkdirOk p) (fun _ m => I m ∧ ∀ q, q <+: p → m.disk q = some .dir) (fun _ _ => False) := by
  intro m ⟨hm, hd, hf⟩
  unfold mkdirOk
  rw [lookup_plain hp hd]
  dsimp only
  cases hn : m.disk p with
  | none =>
    have := hI m hm hn
    refine ⟨fun d hd => ?_, fun _ _ => ⟨this, fun q hq => ?_⟩, fun e he => (nomatch he)⟩
    · rw [List.mem_singleton.mp hd]
      exact this
    · show m.disk.put p (some .dir) q = _
      by_cases hqp : q = p
      · rw [hqp, put_self]
      · rw [put_ne _ _ hqp]
        exact hd q hq hqp
  | some n =>
    cases n with
    | file c => exact absurd hn (hf c)
    | dir =>
      refine ⟨fun d hd => (nomatch hd), fun _ _ => ⟨hm, fun q hq => ?_⟩, fun e he => (nomatch he)⟩
      by_cases hqp : q = p
      · rw [hqp]
        exact hn
      · exact hd q hq hqp

theorem prefix_dropLast {p q : DiskPath} (h : q <+: p) (hne : q ≠ p) : q <+: p.dropLast := by
  obtain ⟨t, rfl⟩ := h
  have ht : t ≠ [] := by
    rintro rfl
    exact hne (by simp)
  rw [List.dropLast_append_of_ne_nil ht]
  exact List.prefix_append _ _

theorem success_makedirs : ∀ (l : List String) (I : Machine → Prop), Plain l.reverse →
    (∀ q, q <+: l.reverse → ∀ m, I m → m.disk q = none → I ⟨m.disk.put q (some .dir), m.requests⟩) →
    Triple I (fun m => I m ∧ m.disk [] = some .dir ∧ ∀ q, q <+: l.reverse → ∀ c, m.disk q ≠ some (.file c))
      (makedirs l) (fun _ m => I m ∧ ∀ q, q <+: l.reverse → m.disk q = some .dir) (fun _ _ => False)
  | [], I, _, _ => Triple.pure fun m hm => ⟨hm.1, fun q hq => by
      rw [List.prefix_nil.mp hq]
      exact hm.2.1⟩
  | seg :: parent, I, hp, hI => by
    rw [List.reverse_cons] at hp hI ⊢
    have hpar : Plain parent.reverse := hp.of_prefix (List.prefix_append _ _)
    have hseg : seg ≠ "." := (hp seg (by simp)).1
    unfold makedirs
    rw [if_neg hseg]
    refine Triple.bind (R := fun _ m => (I m ∧ ∀ c, m.disk (parent.reverse ++ [seg]) ≠ some (.file c)) ∧
      ∀ q, q <+: parent.reverse → m.disk q = some .dir) (Triple.whenState ?_ ?_) fun _ => ?_
    · have ih := success_makedirs parent
        (fun m => I m ∧ ∀ c, m.disk (parent.reverse ++ [seg]) ≠ some (.file c)) hpar (by
          intro q hq m hm hn
          refine ⟨hI q (hq.trans (List.prefix_append _ _)) m hm.1 hn, fun c => ?_⟩
          dsimp only
          by_cases he : parent.reverse ++ [seg] = q
          · rw [he, put_self]
            exact fun h => (nomatch h)
          · rw [put_ne _ _ he]
            exact hm.2 c)
      exact ih.mono (fun m hm => hm.1) (fun m hm => ⟨⟨hm.1.1, hm.1.2.2 _ List.prefix_rfl⟩, hm.1.2.1,
        fun q hq => hm.1.2.2 q (hq.trans (List.prefix_append _ _))⟩) (fun _ _ h => h) fun _ _ h => h
    · intro m hm hc
      have hex : pathExists parent.reverse m = true := by simpa using hc
      obtain ⟨h1, h2⟩ := exists_dirs hpar hex
      refine ⟨⟨hm.1, hm.2.2 _ List.prefix_rfl⟩, fun q hq => ?_⟩
      by_cases he : q = parent.reverse
      · rw [he]
        cases hn : m.disk parent.reverse with
        | none =>
          rw [hn] at h2
          cases h2
        | some n =>
          cases n with
          | dir => rfl
          | file c => exact absurd hn (hm.2.2 _ (List.prefix_append _ _) c)
      · exact h1 q hq he
    · refine (success_mkdirOk hp fun m hm hn => hI _ List.prefix_rfl m hm hn).pre ?_
      intro m hm
      refine ⟨hm.1.1, fun q hq hne => hm.2 q ?_, hm.1.2⟩
      have := prefix_dropLast hq hne
      rwa [List.dropLast_concat] at this

theorem success_openWrite {I : Machine → Prop} {p : DiskPath} (hp : Plain p) (h : WriteKeeps I p)
    (hd : ∀ m, I m → ∀ q, q <+: p → q ≠ p → m.disk q = some .dir)
    (hn : ∀ m, I m → m.disk p ≠ some .dir) :
    Triple I I (openWrite p) (fun p' m => p' = p ∧ I m ∧ m.disk p' = some (.file [])) (fun _ _ => False) := by
  intro m hm
  have := triple_openWrite (I := I) (segs := p) (by rwa [resolve_plain hp]) m hm
  rw [resolve_plain hp] at this
  refine ⟨this.1, this.2.1, fun e he => ?_⟩
  exfalso
  unfold openWrite at he
  rw [lookup_plain hp (hd m hm)] at he
  dsimp only at he
  have hn := hn m hm
  cases hx : m.disk p with
  | none =>
    rw [hx] at he
    cases he
  | some n =>
    cases n with
    | dir => exact hn hx
    | file c =>
      rw [hx] at he
      cases he

end Torchrir.Model
