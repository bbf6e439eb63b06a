import Verif.Proofs.Episodic
import Verif.Props.LeafDirs
import Verif.Model.Key
/-!
# Properties C20 - C24 of the episodic scheduler
-/

namespace Verif.Episodic
open Verif
variable {S B Key : Type}

/-! ## C20 -/

/-- C20 (construction): with leaf directories `dirs`, the constructor succeeds iff both sizes are positive integers,
there is a leaf directory, and every leaf directory has at least `episode_length` frames; otherwise it raises
`ValueError`. -/
theorem C20_construction_iff (sch : Sched S B) (rng : Rng Key) (os : LeafDirs.OS) (glob : String → List String)
    (bs el : Option Int) (inner : S) (key : Key) (dirs : List String)
    (hd : LeafDirs.discover os false (sch.fileList inner) = .ok dirs) :
    ((∃ r, init sch rng os glob bs el inner key = .ok r) ↔
      ∃ b l : Int, bs = some b ∧ el = some l ∧ 0 < b ∧ 0 < l ∧ dirs ≠ [] ∧ ∀ d ∈ dirs, l ≤ (glob d).length) ∧
    ∀ e, init sch rng os glob bs el inner key = .error e → e = .valueError := by
  constructor
  · constructor
    · rintro ⟨⟨cfg, e⟩, h⟩
      obtain ⟨dirs', hd', ok, hb, hl, hs⟩ := init_ok h
      rw [hd] at hd'
      simp only [Except.ok.injEq] at hd'
      subst hd'
      refine ⟨_, _, hb, hl, by have := ok.pos; omega, by have := ok.lpos; omega, ?_, ?_⟩
      · have := ok.ne
        rw [ok.starts, ok.d2f] at this
        exact (startsOf_ne_nil _ _ _).mp this
      · intro d hdm
        have := ok.enough d hdm
        omega
    · rintro ⟨b, l, rfl, rfl, hb, hl, hne, hen⟩
      have hany : (filesOf glob dirs).any (fun q => q.2.length < l.toNat) = false := by
        rw [List.any_eq_false]
        intro q hq
        obtain ⟨d, hdm, rfl⟩ := List.mem_map.mp hq
        have := hen d hdm
        simp only [List.length_insertionSort, decide_eq_true_eq]
        omega
      have hst : (startsOf l.toNat (filesOf glob dirs)).isEmpty = false := by
        simpa using (startsOf_ne_nil l.toNat glob dirs).mpr hne
      have hcs : calculateStarts glob dirs l.toNat = .ok (filesOf glob dirs, startsOf l.toNat (filesOf glob dirs)) := by
        unfold calculateStarts; rw [hany]; rfl
      unfold init
      simp only [if_neg (show ¬ b ≤ 0 by omega), if_neg (show ¬ l ≤ 0 by omega), hd, hcs, sample, hst]
      exact ⟨_, rfl⟩
  · intro e h
    unfold init at h
    split at h
    · simpa using h.symm
    · split at h
      · simpa using h.symm
      · split at h
        · simpa using h.symm
        · split at h
          · simpa using h.symm
          · simp only [hd] at h
            split at h
            · rename_i hc
              unfold calculateStarts at hc
              split at hc
              · simp only [Except.error.injEq] at hc h; rw [← h, ← hc]
              · simp at hc
            · split at h
              · rename_i hc
                unfold sample at hc
                split at hc
                · simp only [Except.error.injEq] at hc h; rw [← h, ← hc]
                · simp at hc
              · simp at h

/-- C20 (starts): the positions sampled from are exactly the pairs (leaf directory, `s`) with
`s + episode_length <=` number of frames, each once. -/
theorem C20_starts_exactly (sch : Sched S B) (rng : Rng Key) (os : LeafDirs.OS) (hset : LeafDirs.SetIter os.iterSet)
    (glob : String → List String) (bs el : Option Int) (inner : S) (key : Key) (cfg : Cfg) (e : St S Key)
    (h : init sch rng os glob bs el inner key = .ok (cfg, e)) :
    cfg.starts.Nodup ∧ ∃ dirs, LeafDirs.discover os false (sch.fileList inner) = .ok dirs ∧
      ∀ d s, (d, s) ∈ cfg.starts ↔ d ∈ dirs ∧ s + cfg.episodeLength ≤ (glob d).length := by
  obtain ⟨dirs, hd, ok, _⟩ := init_ok h
  refine ⟨?_, dirs, hd, mem_starts ok⟩
  rw [ok.starts, ok.d2f]
  apply startsOf_nodup
  have : (filesOf glob dirs).map Prod.fst = dirs := by simp [filesOf, Function.comp_def]
  rw [this]
  exact (LeafDirs.C60_leaf_dirs_exactly_once os hset false _ _ hd).1

/-! ## C21 -/

/-- C21: after any history of calls, the files queued in the wrapped scheduler are `batch_size` episodes side by side,
each consisting of `episode_length` consecutive files of the sorted listing of one leaf directory. -/
theorem C21_contiguous_windows (sch : Sched S B) (hk : KeepsFiles sch) (rng : Rng Key) (hc : ChoiceOK rng)
    (os : LeafDirs.OS) (glob : String → List String) (bs el : Option Int) (inner : S) (key : Key) (cfg : Cfg)
    (e0 : St S Key) (h : init sch rng os glob bs el inner key = .ok (cfg, e0)) (ops : List Op) (outs : List (Out B))
    (e : St S Key) (hr : run sch rng cfg ops e0 = some (outs, e)) :
    ∃ dirs eps, LeafDirs.discover os false (sch.fileList inner) = .ok dirs ∧ eps.length = cfg.batchSize ∧
      (∀ ep ∈ eps, IsEpisode glob dirs cfg.episodeLength ep) ∧
      SideBySide cfg.episodeLength eps (sch.fileList e.inner) := by
  obtain ⟨dirs, hd, ok, _, _, hs⟩ := init_ok h
  have hsamp : ∀ a b : St S Key, sample sch rng cfg a = .ok b → ∃ eps : List (List String), eps.length = cfg.batchSize ∧
      (∀ ep ∈ eps, IsEpisode glob dirs cfg.episodeLength ep) ∧ SideBySide cfg.episodeLength eps (sch.fileList b.inner) := by
    intro a b hab
    obtain ⟨eps, h1, h2, h3⟩ := sample_spec ok sch rng hc a
    rw [h3] at hab
    simp only [Except.ok.injEq] at hab
    subst hab
    refine ⟨eps, h1, h2, ?_⟩
    rw [hk.reset, hk.set, ← h1]
    exact interleave_sideBySide (fun ep hep => (h2 ep hep).1)
  have key : ∀ (ops : List Op) (outs : List (Out B)) (a : St S Key),
      (∃ eps : List (List String), eps.length = cfg.batchSize ∧
        (∀ ep ∈ eps, IsEpisode glob dirs cfg.episodeLength ep) ∧ SideBySide cfg.episodeLength eps (sch.fileList a.inner)) →
      run sch rng cfg ops a = some (outs, e) →
      ∃ eps : List (List String), eps.length = cfg.batchSize ∧
        (∀ ep ∈ eps, IsEpisode glob dirs cfg.episodeLength ep) ∧ SideBySide cfg.episodeLength eps (sch.fileList e.inner) := by
    intro ops
    induction ops with
    | nil => intro outs a ha hrun; simp only [run, Option.some.injEq, Prod.mk.injEq] at hrun; rw [← hrun.2]; exact ha
    | cons op ops ih =>
      intro outs a ha hrun
      unfold run at hrun
      cases hst : step sch rng cfg a op with
      | none => rw [hst] at hrun; simp at hrun
      | some q =>
        obtain ⟨o, a'⟩ := q
        rw [hst] at hrun
        simp only at hrun
        cases hrn : run sch rng cfg ops a' with
        | none => rw [hrn] at hrun; simp at hrun
        | some q' =>
          obtain ⟨os', a''⟩ := q'
          rw [hrn] at hrun
          simp only [Option.some.injEq, Prod.mk.injEq] at hrun
          obtain ⟨rfl, rfl⟩ := hrun
          refine ih os' a' ?_ hrn
          cases op with
          | iter => simp only [step, Option.some.injEq, Prod.mk.injEq] at hst; rw [← hst.2]; exact ha
          | restart =>
            simp only [step, nextEpisode] at hst
            cases hsm : sample sch rng cfg a with
            | error x => rw [hsm] at hst; simp only [Option.some.injEq, Prod.mk.injEq] at hst; rw [← hst.2]; exact ha
            | ok b =>
              rw [hsm] at hst
              simp only [Option.some.injEq, Prod.mk.injEq] at hst
              rw [← hst.2]; exact hsamp a b hsm
          | getBatch n =>
            have hfl : sch.fileList a'.inner = sch.fileList a.inner := by
              simp only [step, getBatch] at hst
              by_cases hn : n ≠ cfg.batchSize
              · rw [if_pos hn] at hst
                simp only [Option.some.injEq, Prod.mk.injEq] at hst; rw [← hst.2]
              · rw [if_neg hn] at hst
                by_cases ht : cfg.episodeLength ≤ a.t
                · rw [if_pos ht] at hst
                  simp only [Option.some.injEq, Prod.mk.injEq] at hst; rw [← hst.2]
                · rw [if_neg ht] at hst
                  cases hg : sch.getBatch n a.inner with
                  | none => rw [hg] at hst; simp at hst
                  | some q =>
                    obtain ⟨r, s⟩ := q
                    have := hk.getBatch n _ r s hg
                    rw [hg] at hst
                    cases r <;>
                    · simp only [Option.some.injEq, Prod.mk.injEq] at hst
                      rw [← hst.2]; exact this
            rw [hfl]; exact ha
  obtain ⟨eps, h1, h2, h3⟩ := key ops outs e0 (hsamp _ _ hs) hr
  exact ⟨dirs, eps, hd, h1, h2, h3⟩

/-! ## C22 -/

/-- The batches of one horizon, from a state whose wrapped scheduler has the samples `xs` from position `t * B` on. -/
theorem run_horizon {V D K : Type} (zero : V) (w : Base.World V D K) (bcfg : Base.Cfg) (fuel : Nat) (rng : Rng Key) (cfg : Cfg)
    (hpos : 0 < cfg.batchSize) (c : String → List (Base.Sample V)) (xs : List (Base.Sample V)) {fsh o1 o2 named}
    (hu : Base.Uniform xs fsh o1 o2 named) (hlen : xs.length = cfg.episodeLength * cfg.batchSize) :
    ∀ (k t : Nat) (e : St (Base.St D K) Key), e.t = t → t + k = cfg.episodeLength → Base.Inv w c e.inner →
    Base.rem c e.inner = xs.drop (t * cfg.batchSize) → e.inner.fileList.length ≤ fuel →
    ∃ outs e', run (Base.sched zero w bcfg fuel) rng cfg (List.replicate k (.getBatch cfg.batchSize)) e = some (outs, e') ∧
      e'.t = cfg.episodeLength ∧
      ∀ j, j < k → ∃ b, outs[j]? = some (.batch b) ∧
        Base.Shows zero ((xs.drop ((t + j) * cfg.batchSize)).take cfg.batchSize) cfg.batchSize b
  | 0, t, e, ht, hk, hi, hr, hf => ⟨[], e, rfl, by omega, by simp⟩
  | k + 1, t, e, ht, hk, hi, hr, hf => by
    have hB : (t + 1) * cfg.batchSize ≤ cfg.episodeLength * cfg.batchSize := Nat.mul_le_mul_right _ (by omega)
    have hB' : (t + 1) * cfg.batchSize = t * cfg.batchSize + cfg.batchSize := by rw [Nat.add_mul, Nat.one_mul]
    have hn : cfg.batchSize ≤ (Base.rem c e.inner).length := by rw [hr, List.length_drop]; omega
    obtain ⟨s', g1, g2, g3, g4⟩ := getBatch_within (cfg := bcfg) zero hpos hi hn
    have hlt : ((Base.rem c e.inner).take cfg.batchSize).length = cfg.batchSize := by rw [List.length_take]; omega
    have hne : (Base.rem c e.inner).take cfg.batchSize ≠ [] := by intro h0; rw [h0] at hlt; simp at hlt; omega
    have hsub : Base.Uniform ((Base.rem c e.inner).take cfg.batchSize) fsh o1 o2 named := by
      refine Base.uniform_sub hu fun x hx => ?_
      rw [hr] at hx
      exact List.mem_of_mem_drop (List.mem_of_mem_take hx)
    obtain ⟨b, hb, hshow, _⟩ := Base.assemble_uniform zero bcfg (n := cfg.batchSize) hne (by omega) (fun _ => hlt) hsub
    let e1 : St (Base.St D K) Key := { e with t := e.t + 1, inner := s' }
    have hstep : step (Base.sched zero w bcfg fuel) rng cfg e (.getBatch cfg.batchSize) = some (.batch b, e1) := by
      have ht' : ¬ cfg.episodeLength ≤ e.t := by omega
      have hg : (Base.sched zero w bcfg fuel).getBatch cfg.batchSize e.inner =
          some (Base.assemble zero bcfg ((Base.rem c e.inner).take cfg.batchSize) cfg.batchSize, s') := g4 fuel hf
      simp only [step, getBatch, ne_eq, not_true_eq_false, if_false, ht', hg, hb]
      rfl
    obtain ⟨outs, e', r1, r2, r3⟩ := run_horizon zero w bcfg fuel rng cfg hpos c xs hu hlen k (t + 1) e1
      (by simp [e1, ht]) (by omega) g1 (by rw [g2, hr, List.drop_drop, hB']) (by simp only [e1]; rw [g3]; exact hf)
    refine ⟨.batch b :: outs, e', ?_, r2, ?_⟩
    · rw [List.replicate_succ, run, hstep]
      simp only [r1]
    · intro j hj
      cases j with
      | zero =>
        refine ⟨b, rfl, ?_⟩
        rw [hr] at hshow
        simpa using hshow
      | succ j =>
        obtain ⟨b', h1, h2⟩ := r3 j (by omega)
        refine ⟨b', by simpa using h1, ?_⟩
        rw [show t + (j + 1) = t + 1 + j by omega]; exact h2

/-- C22 for wrapped base schedulers without shuffling whose frames hold one slice each, when no file directly follows
itself in the queue. After construction (`e = e0`) or any restart from any state, the next `episode_length` calls
return batches; the `t`-th shows in row `i` the `t`-th frame of the `i`-th episode. Missing: repeated or
overlapping episodes that put a file directly after itself, shuffling base schedulers and unreadable frames; there the
claim is false (`C22_refuted_repeated`, `C22_refuted_overlap`, `C22_refuted_shuffled`, `C22_refuted_unreadable`). -/
theorem C22_rows_aligned_partial {V D K : Type} (zero : V) (w : Base.World V D K) (bcfg : Base.Cfg)
    (hrand : bcfg.randomize = false) (fuel : Nat) (rng : Rng Key) (hc : ChoiceOK rng) (os : LeafDirs.OS)
    (glob : String → List String) (bs el : Option Int) (inner : Base.St D K) (key : Key) (cfg : Cfg)
    (e0 : St (Base.St D K) Key)
    (h : init (Base.sched zero w bcfg fuel) rng os glob bs el inner key = .ok (cfg, e0))
    (dirs : List String) (hd : LeafDirs.discover os false inner.fileList = .ok dirs)
    (frame : String → Base.Sample V) (hy : ∀ d ∈ dirs, ∀ p ∈ glob d, Base.Yields w p [frame p])
    {fsh o1 o2 named} (hu : Base.Uniform ((dirs.flatMap glob).map frame) fsh o1 o2 named)
    (e : St (Base.St D K) Key)
    (he : e = e0 ∨ ∃ e1, nextEpisode (Base.sched zero w bcfg fuel) rng cfg e1 = .ok e)
    (hf : cfg.episodeLength * cfg.batchSize ≤ fuel) (hchain : List.IsChain (· ≠ ·) e.inner.fileList) :
    ∃ eps : List (List String), eps.length = cfg.batchSize ∧
      (∀ ep ∈ eps, IsEpisode glob dirs cfg.episodeLength ep) ∧ SideBySide cfg.episodeLength eps e.inner.fileList ∧
      ∃ outs e', run (Base.sched zero w bcfg fuel) rng cfg
          (List.replicate cfg.episodeLength (.getBatch cfg.batchSize)) e = some (outs, e') ∧
        ∀ t, t < cfg.episodeLength → ∃ b, outs[t]? = some (.batch b) ∧
          Base.Shows zero (eps.map (fun ep => frame (ep.getD t ""))) cfg.batchSize b := by
  obtain ⟨dirs', hd', ok, _, _, hs⟩ := init_ok h
  have : dirs' = dirs := by
    have hx : LeafDirs.discover os false inner.fileList = .ok dirs' := hd'
    rw [hd] at hx; simpa using hx.symm
  subst this
  -- every restart leads to a fresh wrapped scheduler with step counter 0
  have fresh : ∃ eps : List (List String), eps.length = cfg.batchSize ∧
      (∀ ep ∈ eps, IsEpisode glob dirs' cfg.episodeLength ep) ∧ e.t = 0 ∧
      e.inner.fileList = interleave cfg.episodeLength cfg.batchSize eps ∧ e.inner.index = 0 ∧ e.inner.cached = none := by
    rcases he with rfl | ⟨e1, he1⟩
    · obtain ⟨eps, h1, h2, h3⟩ := sample_spec ok (Base.sched zero w bcfg fuel) rng hc { inner := inner, t := 0, key := key }
      rw [h3] at hs
      simp only [Except.ok.injEq] at hs
      subst hs
      exact ⟨eps, h1, h2, rfl, by simp [Base.sched, Base.reset, Base.shuffle, hrand], rfl, rfl⟩
    · obtain ⟨eps, h1, h2, h3⟩ := sample_spec ok (Base.sched zero w bcfg fuel) rng hc e1
      rw [nextEpisode, h3] at he1
      simp only [Except.ok.injEq] at he1
      subst he1
      exact ⟨eps, h1, h2, rfl, by simp [Base.sched, Base.reset, Base.shuffle, hrand], rfl, rfl⟩
  obtain ⟨eps, h1, h2, ht, hfl, hix, hca⟩ := fresh
  have hside : SideBySide cfg.episodeLength eps (interleave cfg.episodeLength eps.length eps) :=
    interleave_sideBySide (fun ep hep => (h2 ep hep).1)
  have hmem : ∀ p ∈ e.inner.fileList, ∃ d ∈ dirs', p ∈ glob d := by
    intro p hp
    rw [hfl, interleave, List.mem_flatMap] at hp
    obtain ⟨t, htm, hp⟩ := hp
    obtain ⟨i, him, rfl⟩ := List.mem_map.mp hp
    rw [List.mem_range] at htm him
    rw [← h1] at him
    obtain ⟨hl, d, hdm, listing, hpm, _, hinf⟩ := h2 eps[i] (List.getElem_mem him)
    refine ⟨d, hdm, hpm.mem_iff.mp (hinf.subset ?_)⟩
    have hg : eps.getD i [] = eps[i] := by simp [List.getD_eq_getElem?_getD, List.getElem?_eq_getElem him]
    rw [hg, List.getD_eq_getElem?_getD, List.getElem?_eq_getElem (by omega), Option.getD_some]
    exact List.getElem_mem _
  let c : String → List (Base.Sample V) := fun p => [frame p]
  have hinv : Base.Inv w c e.inner := by
    refine ⟨fun p hp => ?_, fun q d hq => by rw [hca] at hq; simp at hq⟩
    obtain ⟨d, hdm, hpm⟩ := hmem p hp
    exact hy d hdm p hpm
  have hrem : Base.rem c e.inner = e.inner.fileList.map frame := by
    rw [Base.rem_fresh _ hca hix, Base.streamAfter_none, Base.dropRepeats_eq_self _ hchain]
    exact flatMap_single c frame _ (fun _ _ => rfl)
  have hlen : (e.inner.fileList.map frame).length = cfg.episodeLength * cfg.batchSize := by
    rw [List.length_map, hfl, interleave_length]
  have hu' : Base.Uniform (e.inner.fileList.map frame) fsh o1 o2 named := by
    refine Base.uniform_sub hu fun x hx => ?_
    obtain ⟨p, hp, rfl⟩ := List.mem_map.mp hx
    obtain ⟨d, hdm, hpm⟩ := hmem p hp
    exact List.mem_map.mpr ⟨p, List.mem_flatMap.mpr ⟨d, hdm, hpm⟩, rfl⟩
  obtain ⟨outs, e', r1, _, r3⟩ := run_horizon zero w bcfg fuel rng cfg ok.pos c (e.inner.fileList.map frame) hu' hlen
    cfg.episodeLength 0 e ht (by omega) hinv (by rw [hrem]; simp)
    (by rw [hfl, interleave_length]; exact hf)
  refine ⟨eps, h1, h2, by rw [hfl, ← h1]; exact hside, outs, e', r1, ?_⟩
  intro t htl
  obtain ⟨b, hb, hshow⟩ := r3 t htl
  refine ⟨b, hb, ?_⟩
  have heq : ((e.inner.fileList.map frame).drop ((0 + t) * cfg.batchSize)).take cfg.batchSize =
      eps.map (fun ep => frame (ep.getD t "")) := by
    have hBt : (t + 1) * cfg.batchSize ≤ cfg.episodeLength * cfg.batchSize := Nat.mul_le_mul_right _ (by omega)
    rw [Nat.add_mul, Nat.one_mul] at hBt
    apply List.ext_getElem?
    intro i
    by_cases hi : i < cfg.batchSize
    · rw [List.getElem?_take_of_lt hi, List.getElem?_drop, List.getElem?_map, hfl, Nat.zero_add, interleave_get htl hi,
        List.getElem?_map, List.getElem?_eq_getElem (by omega)]
      simp [List.getD_eq_getElem?_getD, List.getElem?_eq_getElem (show i < eps.length by omega)]
    · rw [List.getElem?_eq_none (by rw [List.length_take]; omega), List.getElem?_eq_none (by rw [List.length_map]; omega)]
  rw [heq] at hshow
  exact hshow

/-- If the drawn episodes have no file in common and no episode repeats a file, no file directly follows itself: the
condition of `C22_rows_aligned_partial`. -/
theorem C22_disjoint_episodes_suffice (L : Nat) (eps : List (List String)) (fl : List String) (hs : SideBySide L eps fl)
    (hlen : ∀ ep ∈ eps, ep.length = L) (hnd : ∀ ep ∈ eps, ep.Nodup) (hdisj : eps.Pairwise List.Disjoint) :
    List.IsChain (· ≠ ·) fl := by
  have hnodup : fl.Nodup := by
    rw [List.nodup_iff_injective_get]
    intro i j hij
    obtain ⟨hl, hget⟩ := hs
    have hBpos : 0 < eps.length := by
      rcases Nat.eq_zero_or_pos eps.length with h | h
      · rw [h, Nat.mul_zero] at hl; have := i.2; omega
      · exact h
    have dec : ∀ k : Fin fl.length, ∃ t e, ∃ he : e < eps.length, t < L ∧ (k : Nat) = t * eps.length + e ∧
        eps[e][t]? = some (fl.get k) := by
      intro k
      have h1 : (k : Nat) % eps.length < eps.length := Nat.mod_lt _ hBpos
      have h2 : (k : Nat) / eps.length < L := Nat.div_lt_of_lt_mul (lt_of_lt_of_eq k.2 (hl.trans (Nat.mul_comm _ _)))
      have h3 : (k : Nat) = (k : Nat) / eps.length * eps.length + (k : Nat) % eps.length := (Nat.div_add_mod' _ _).symm
      refine ⟨_, _, h1, h2, h3, ?_⟩
      rw [← hget _ _ h1 h2, ← h3]
      simp
    obtain ⟨t1, e1, he1, ht1, hk1, hv1⟩ := dec i
    obtain ⟨t2, e2, he2, ht2, hk2, hv2⟩ := dec j
    have hee : e1 = e2 := by
      rcases Nat.lt_trichotomy e1 e2 with hlt | heq | hlt
      · exact absurd (List.mem_of_getElem? hv2)
          (fun hm => (List.pairwise_iff_getElem.mp hdisj e1 e2 he1 he2 hlt) (List.mem_of_getElem? hv1) (by rw [hij]; exact hm))
      · exact heq
      · exact absurd (List.mem_of_getElem? hv1)
          (fun hm => (List.pairwise_iff_getElem.mp hdisj e2 e1 he2 he1 hlt) (List.mem_of_getElem? hv2) (by rw [← hij]; exact hm))
    subst hee
    have htt : t1 = t2 := by
      have hnd' := hnd _ (List.getElem_mem he1)
      have hll := hlen _ (List.getElem_mem he1)
      rw [← hij, ← hv1] at hv2
      rw [List.getElem?_eq_getElem (by omega), List.getElem?_eq_getElem (by omega), Option.some.injEq] at hv2
      exact ((hnd'.getElem_inj_iff).mp hv2).symm
    subst htt
    exact Fin.ext (by omega)
  exact (List.Pairwise.isChain hnodup)

/-! ### A concrete data set -/

/-- Directories `d` (frames d0, d1, d2) and `e` (frames e0, e1, e2). -/
def demoOS : LeafDirs.OS where
  parent p := if p = "d0" then "d" else if p = "x" then "x" else "e"
  scan _ := .entries [.file]
  iterSet l := l.dedup

/-- The frames of the directories, unsorted; `x` has a damaged second frame. -/
def demoGlob (d : String) : List String :=
  if d = "d" then ["d1", "d0", "d2"] else if d = "x" then ["x0", "bad", "x2"].reverse else ["e0", "e1", "e2"]

/-- Every file but `bad` holds one 1x1x1 flow field. -/
def demoWorld : Base.World Nat Unit KeyTerm where
  load p := if p = "bad" then .error .fileNotFound else .ok ()
  slice p _ i := if i = 0 then .ok ⟨⟨[1, 1, 1], [7]⟩, none, none, some [p]⟩ else .ended
  split := KeyTerm.split2
  perm _ n := (List.range n).reverse

/-- A generator whose draws are the given ones (each taken modulo the number of starts). -/
def demoRng (draw : List Nat) : Rng KeyTerm where
  split := KeyTerm.split2
  choice _ n b := (List.range b).map (fun i => draw.getD i 0 % n)

theorem demoRng_ok (draw : List Nat) : ChoiceOK (demoRng draw) := by
  intro k n b hn
  refine ⟨by simp [demoRng], ?_⟩
  intro i hi
  obtain ⟨j, _, rfl⟩ := List.mem_map.mp hi
  exact Nat.mod_lt _ hn

/-- The base scheduler over the files, and its initial state. -/
def demoSched (randomize : Bool) : Sched (Base.St Unit KeyTerm) (Base.Batch Nat) := Base.sched 0 demoWorld ⟨false, randomize⟩ 9

/-- The state of the base scheduler before it is wrapped. -/
def demoInner (randomize : Bool) (fl : List String) : Base.St Unit KeyTerm := Base.init demoWorld ⟨false, randomize⟩ fl (.seed 0)

/-- The file names shown by the batches of a run that starts with the construction of two episodes of two steps. -/
def demoFiles (randomize : Bool) (fl : List String) (draw : List Nat) (ops : List Op) : Option (List (Option (List String))) :=
  match init (demoSched randomize) (demoRng draw) demoOS demoGlob (some 2) (some 2) (demoInner randomize fl) (.seed 1) with
  | .error _ => none
  | .ok (cfg, e) =>
    match run (demoSched randomize) (demoRng draw) cfg ops e with
    | none => none
    | some (outs, _) => some (outs.map (fun o => match o with | .batch b => b.files | _ => none))

/-- The hypotheses of C20, C21 and C22 are met: episodes (d0, d1) and (e1, e2) give the batches (d0, e1), (d1, e2). -/
example : demoFiles false ["d0", "e0"] [0, 3] [.getBatch 2, .getBatch 2, .getBatch 2] =
    some [some ["d0", "e1"], some ["d1", "e2"], none] := by decide +kernel

/-- C22 is false when both draws coincide: the two rows should both show d0, then d1. -/
theorem C22_refuted_repeated : demoFiles false ["d0", "e0"] [0, 0] [.getBatch 2, .getBatch 2] =
    some [some ["d0", "d1"], none] := by decide +kernel

/-- C22 is false when an episode ends its first step with the frame with which the other begins its second: the
batches should be (d0, d1), (d1, d2). -/
theorem C22_refuted_overlap : demoFiles false ["d0", "e0"] [0, 1] [.getBatch 2, .getBatch 2] =
    some [some ["d0", "d1"], some ["d2", ""]] := by decide +kernel

/-- C22 is false over a shuffling base scheduler: the drawn episodes are (e0, e1) and (d1, d2), so that
the batches should be (e0, d1), (e1, d2). -/
theorem C22_refuted_shuffled : demoFiles true ["d0", "e0"] [0, 3] [.getBatch 2, .getBatch 2] =
    some [some ["d2", "e1"], some ["d1", "e0"]] := by decide +kernel

/-- C22 is false with a damaged frame: the starts of directory x are (bad, x0) and (x0, x2) (sorted order), and the
drawn episodes are (bad, x0) and (d0, d1). -/
theorem C22_refuted_unreadable : demoFiles false ["x", "d0"] [0, 2] [.getBatch 2, .getBatch 2] =
    some [some ["d0", "x0"], some ["d1", ""]] := by decide +kernel

/-! ## C23 -/

/-- C23 when the wrapped scheduler answers every request of the right size (and does not itself use `EpisodeEnd`), and
the scheduler is not passed to `iter()`. `k` is the number of batches served since the last restart. Missing: a step
on which the wrapped scheduler fails, which counts although nothing is served (`C23_refuted`), and `iter()`
(`C23_refuted_iter`). -/
theorem C23_episode_length_partial (sch : Sched S B) (hin : ∀ n s s', sch.getBatch n s ≠ some (.error .episodeEnd, s'))
    (rng : Rng Key) (hc : ChoiceOK rng) (os : LeafDirs.OS) (glob : String → List String) (bs el : Option Int) (inner : S)
    (key : Key) (cfg : Cfg) (e0 : St S Key) (h : init sch rng os glob bs el inner key = .ok (cfg, e0)) (ops : List Op)
    (hiter : Op.iter ∉ ops) (outs : List (Out B)) (e : St S Key) (hr : run sch rng cfg ops e0 = some (outs, e))
    (hgood : ∀ q ∈ ops.zip outs, q.1 = .getBatch cfg.batchSize → (∃ b, q.2 = .batch b) ∨ q.2 = .raised .episodeEnd)
    (k : Nat) (hk : k = servedSince (ops.zip outs) 0) :
    k ≤ cfg.episodeLength ∧ stepsRemaining cfg e = cfg.episodeLength - k ∧
    (k = cfg.episodeLength → getBatch sch cfg cfg.batchSize e = some (.error .episodeEnd, e)) ∧
    (k < cfg.episodeLength → ∀ r s, sch.getBatch cfg.batchSize e.inner = some (r, s) →
      ∃ e', getBatch sch cfg cfg.batchSize e = some (r, e') ∧ e'.inner = s ∧
        stepsRemaining cfg e' = cfg.episodeLength - k - 1) := by
  obtain ⟨dirs, hd, ok, _, _, hs⟩ := init_ok h
  have main : ∀ (ops : List Op), Op.iter ∉ ops → ∀ (outs : List (Out B)) (a : St S Key) (n : Nat),
      run sch rng cfg ops a = some (outs, e) → a.t = n → n ≤ cfg.episodeLength →
      (∀ q ∈ ops.zip outs, q.1 = .getBatch cfg.batchSize → (∃ b, q.2 = .batch b) ∨ q.2 = .raised .episodeEnd) →
      e.t = servedSince (ops.zip outs) n ∧ e.t ≤ cfg.episodeLength := by
    intro ops
    induction ops with
    | nil =>
      intro _ outs a n hrun ha hn _
      simp only [run, Option.some.injEq, Prod.mk.injEq] at hrun
      rw [← hrun.2, ← hrun.1]
      simp [servedSince, ha, hn]
    | cons op ops ih =>
      intro hit outs a n hrun ha hn hg
      unfold run at hrun
      cases hst : step sch rng cfg a op with
      | none => rw [hst] at hrun; simp at hrun
      | some q =>
        obtain ⟨o, a'⟩ := q
        rw [hst] at hrun
        simp only at hrun
        cases hrn : run sch rng cfg ops a' with
        | none => rw [hrn] at hrun; simp at hrun
        | some q' =>
          obtain ⟨os', a''⟩ := q'
          rw [hrn] at hrun
          simp only [Option.some.injEq, Prod.mk.injEq] at hrun
          obtain ⟨rfl, rfl⟩ := hrun
          have hg' : ∀ q ∈ ops.zip os', q.1 = .getBatch cfg.batchSize → (∃ b, q.2 = .batch b) ∨ q.2 = .raised .episodeEnd :=
            fun q hq => hg q (by rw [List.zip_cons_cons]; exact List.mem_cons_of_mem _ hq)
          have hit' : Op.iter ∉ ops := fun hm => hit (List.mem_cons_of_mem _ hm)
          have hhead := hg (op, o) (by rw [List.zip_cons_cons]; exact List.mem_cons_self)
          simp only [List.zip_cons_cons]
          cases op with
          | iter => exact absurd List.mem_cons_self hit
          | restart =>
            obtain ⟨eps, _, _, h3⟩ := sample_spec ok sch rng hc a
            simp only [step, nextEpisode, h3, Option.some.injEq, Prod.mk.injEq] at hst
            simp only [servedSince]
            exact ih hit' os' a' 0 hrn (by rw [← hst.2]) (Nat.zero_le _) hg'
          | getBatch m =>
            simp only [step, getBatch] at hst
            by_cases hm : m ≠ cfg.batchSize
            · rw [if_pos hm] at hst
              simp only [Option.some.injEq, Prod.mk.injEq] at hst
              obtain ⟨rfl, rfl⟩ := hst
              simp only [servedSince]
              exact ih hit' os' a n hrn ha hn hg'
            · rw [if_neg hm] at hst
              by_cases ht : cfg.episodeLength ≤ a.t
              · rw [if_pos ht] at hst
                simp only [Option.some.injEq, Prod.mk.injEq] at hst
                obtain ⟨rfl, rfl⟩ := hst
                simp only [servedSince]
                exact ih hit' os' a n hrn ha hn hg'
              · rw [if_neg ht] at hst
                have hm' : m = cfg.batchSize := by simpa using hm
                cases hgb : sch.getBatch m a.inner with
                | none => rw [hgb] at hst; simp at hst
                | some q =>
                  obtain ⟨r, s⟩ := q
                  rw [hgb] at hst
                  cases r with
                  | ok b =>
                    simp only [Option.some.injEq, Prod.mk.injEq] at hst
                    obtain ⟨rfl, rfl⟩ := hst
                    simp only [servedSince]
                    exact ih hit' os' _ (n + 1) hrn (by simp [ha]) (by omega) hg'
                  | error x =>
                    simp only [Option.some.injEq, Prod.mk.injEq] at hst
                    obtain ⟨rfl, rfl⟩ := hst
                    rcases hhead (by rw [hm']) with ⟨b, hb⟩ | hb
                    · simp at hb
                    · simp only [Out.raised.injEq] at hb
                      rw [hb] at hgb
                      exact absurd hgb (hin _ _ _)
  have ht0 : e0.t = 0 := by
    obtain ⟨eps, _, _, h3⟩ := sample_spec ok sch rng hc { inner := inner, t := 0, key := key }
    rw [h3] at hs
    simp only [Except.ok.injEq] at hs
    rw [← hs]
  obtain ⟨m1, m2⟩ := main ops hiter outs e0 0 hr ht0 (Nat.zero_le _) hgood
  rw [← hk] at m1
  refine ⟨by omega, by simp [stepsRemaining, m1], ?_, ?_⟩
  · intro hkl
    simp [getBatch, show cfg.episodeLength ≤ e.t by omega]
  · intro hkl r s hg
    have : ¬ cfg.episodeLength ≤ e.t := by omega
    refine ⟨{ e with t := e.t + 1, inner := s }, by simp [getBatch, this, hg], rfl, ?_⟩
    simp only [stepsRemaining, m1]
    push_cast
    omega

/-- The hypotheses of C23 are met by a history with a wrong size, a full horizon, an attempt beyond it and a restart;
the step counts are as claimed. -/
example : ∃ cfg e0 outs e,
    init (demoSched false) (demoRng [0, 3]) demoOS demoGlob (some 2) (some 2) (demoInner false ["d0", "e0"]) (.seed 1) = .ok (cfg, e0) ∧
    run (demoSched false) (demoRng [0, 3]) cfg [.getBatch 2, .getBatch 5, .getBatch 2, .getBatch 2, .restart, .getBatch 2] e0 = some (outs, e) ∧
    (outs.map (fun o => match o with | .raised x => some x | _ => none) =
      [none, some .valueError, none, some .episodeEnd, none, none]) ∧ stepsRemaining cfg e = 1 :=
  ⟨_, _, _, _, rfl, rfl, by decide +kernel, by decide +kernel⟩

/-- The example's wrapped scheduler does not raise `EpisodeEnd`. -/
example (n : Nat) (s s' : Base.St Unit KeyTerm) : (demoSched false).getBatch n s ≠ some (.error .episodeEnd, s') := by
  refine base_no_episodeEnd 0 demoWorld ⟨false, false⟩ 9 (fun p d i => ?_) n s s'
  simp only [demoWorld]
  split <;> simp

/-- C23 is false when a step fails: with twice the same episode the queue is d0, d0, d1, d1, the first request uses it up
(`C22_refuted_repeated`), and the second raises `StopIteration`; one batch has been served, but no step remains. -/
theorem C23_refuted : ∃ cfg e0 b e,
    init (demoSched false) (demoRng [0, 0]) demoOS demoGlob (some 2) (some 2) (demoInner false ["d0", "e0"]) (.seed 1) = .ok (cfg, e0) ∧
    run (demoSched false) (demoRng [0, 0]) cfg [.getBatch 2, .getBatch 2] e0 = some ([.batch b, .raised .stopIteration], e) ∧
    servedSince ([Op.getBatch 2, .getBatch 2].zip [Out.batch b, .raised .stopIteration]) 0 = 1 ∧ stepsRemaining cfg e = 0 :=
  ⟨_, _, _, _, rfl, rfl, rfl, rfl⟩

/-- C23 is false after `iter()`, as in a `for` statement in the middle of an episode: it raises `TypeError`, because the class has no `__next__`
(see C127), but the counter now says that two steps remain, although only one is left in the queue and the second raises `StopIteration`. -/
theorem C23_refuted_iter : ∃ cfg e0 b1 b2 e,
    init (demoSched false) (demoRng [0, 3]) demoOS demoGlob (some 2) (some 2) (demoInner false ["d0", "e0"]) (.seed 1) = .ok (cfg, e0) ∧
    run (demoSched false) (demoRng [0, 3]) cfg [.getBatch 2, .iter, .getBatch 2, .getBatch 2] e0 =
      some ([.batch b1, .raised .typeError, .batch b2, .raised .stopIteration], e) :=
  ⟨_, _, _, _, _, rfl, rfl⟩

/-! ## C24 -/

/-- C24 (episodic scheduler): a request of another size raises `ValueError` and leaves the scheduler, including the
wrapped one, as it was. -/
theorem C24_wrong_size_harmless (sch : Sched S B) (cfg : Cfg) (n : Nat) (hn : n ≠ cfg.batchSize) (e : St S Key) :
    getBatch sch cfg n e = some (.error .valueError, e) := by
  simp [getBatch, hn]

example : ∃ e : St (Base.St Unit KeyTerm) KeyTerm, getBatch (demoSched false) ⟨2, 2, [], []⟩ 3 e = some (.error .valueError, e) :=
  ⟨⟨demoInner false ["d0"], 1, .seed 0⟩, rfl⟩

end Verif.Episodic
