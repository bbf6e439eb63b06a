import Verif.Spec.Distinct
import Verif.Props.Episodic
/-!
# Property C184: the episodes of a batch are different

The documentation of the constructor promises a `ValueError` "if the dataset does not contain enough distinct starting
positions to form at least one complete batch of episodes", and the comment in the sampling method says that the starts
are drawn "without replacement". The code draws with replacement and does not count the positions.
-/

namespace Verif.Episodic
open Verif
variable {S B Key : Type}

private theorem window_inj {glob dirs cfg} (h : CfgOK glob dirs cfg) (hcl : ClearListings glob dirs)
    {q q' : String × Nat} (hq : q ∈ cfg.starts) (hq' : q' ∈ cfg.starts) (he : window cfg q = window cfg q') : q = q' := by
  obtain ⟨d, s⟩ := q
  obtain ⟨d', s'⟩ := q'
  obtain ⟨hd, hs⟩ := (mem_starts h d s).mp hq
  obtain ⟨hd', hs'⟩ := (mem_starts h d' s').mp hq'
  have hw : ∀ (d : String) (s : Nat), d ∈ dirs → s + cfg.episodeLength ≤ (glob d).length →
      (window cfg (d, s))[0]? = ((glob d).insertionSort (· ≤ ·))[s]? := by
    intro d s hd hs
    have hw : window cfg (d, s) = (((glob d).insertionSort (· ≤ ·)).drop s).take cfg.episodeLength := by
      simp [window, h.d2f, lookup_filesOf glob dirs d hd]
    rw [hw, List.getElem?_take_of_lt h.lpos, List.getElem?_drop, Nat.add_zero]
  have h0 := hw d s hd hs
  rw [he, hw d' s' hd' hs'] at h0
  have hl := h.lpos
  have l1 : s < ((glob d).insertionSort (· ≤ ·)).length := by rw [List.length_insertionSort]; omega
  have l2 : s' < ((glob d').insertionSort (· ≤ ·)).length := by rw [List.length_insertionSort]; omega
  rw [List.getElem?_eq_getElem l1, List.getElem?_eq_getElem l2, Option.some.injEq] at h0
  have hdd : d = d' := by
    by_contra hne
    have hdis := hcl.2 d hd d' hd' hne
    refine @hdis ((glob d).insertionSort (· ≤ ·))[s] ?_ ?_
    · exact (List.perm_insertionSort _ _).mem_iff.mp (List.getElem_mem l1)
    · rw [← h0]; exact (List.perm_insertionSort _ _).mem_iff.mp (List.getElem_mem l2)
  subst hdd
  have hnd : ((glob d).insertionSort (· ≤ ·)).Nodup := (List.perm_insertionSort _ _).nodup_iff.mpr (hcl.1 d hd)
  rw [(hnd.getElem_inj_iff).mp h0]

/-- The starts drawn from a state. -/
private def drawn (rng : Rng Key) (cfg : Cfg) (e : St S Key) : List Nat :=
  rng.choice (rng.split e.key).2 cfg.starts.length cfg.batchSize

private def drawnEps (rng : Rng Key) (cfg : Cfg) (e : St S Key) : List (List String) :=
  (drawn rng cfg e).map (fun i => window cfg (cfg.starts.getD i ("", 0)))

private theorem drawn_eps {glob dirs cfg} (h : CfgOK glob dirs cfg) (sch : Sched S B) (rng : Rng Key) (hc : ChoiceOK rng)
    (e : St S Key) : (drawnEps rng cfg e).length = cfg.batchSize ∧
      (∀ ep ∈ drawnEps rng cfg e, IsEpisode glob dirs cfg.episodeLength ep) ∧
      sample sch rng cfg e = .ok { e with
        inner := sch.reset (sch.setFileList (interleave cfg.episodeLength cfg.batchSize (drawnEps rng cfg e)) e.inner),
        key := (rng.split e.key).1 } := by
  have hpos : 0 < cfg.starts.length := List.length_pos_iff.mpr h.ne
  obtain ⟨c1, c2⟩ := hc (rng.split e.key).2 cfg.starts.length cfg.batchSize hpos
  refine ⟨by simp [drawnEps, drawn, c1], ?_, ?_⟩
  · intro ep hep
    obtain ⟨i, hi, rfl⟩ := List.mem_map.mp hep
    refine window_episode h ?_
    rw [List.getD_eq_getElem?_getD, List.getElem?_eq_getElem (c2 i hi)]
    exact List.getElem_mem _
  · have : cfg.starts.isEmpty = false := by simpa using h.ne
    simp [sample, this, drawnEps, drawn, Function.comp_def]

/-- Equal draws, equal episodes; different draws, different episodes. -/
private theorem drawn_same {glob dirs cfg} (h : CfgOK glob dirs cfg) (hcl : ClearListings glob dirs)
    (hnd : cfg.starts.Nodup) (rng : Rng Key) (hc : ChoiceOK rng) (e : St S Key) {i j : Nat} (hi : i < cfg.batchSize)
    (hj : j < cfg.batchSize) :
    (drawnEps rng cfg e)[i]? = (drawnEps rng cfg e)[j]? ↔ (drawn rng cfg e)[i]? = (drawn rng cfg e)[j]? := by
  have hpos : 0 < cfg.starts.length := List.length_pos_iff.mpr h.ne
  obtain ⟨c1, c2⟩ := hc (rng.split e.key).2 cfg.starts.length cfg.batchSize hpos
  change (drawn rng cfg e).length = _ at c1
  have c2 : ∀ i ∈ drawn rng cfg e, i < cfg.starts.length := c2
  have li : i < (drawn rng cfg e).length := by omega
  have lj : j < (drawn rng cfg e).length := by omega
  simp only [drawnEps, List.getElem?_map, List.getElem?_eq_getElem li, List.getElem?_eq_getElem lj, Option.map_some,
    Option.some.injEq]
  constructor
  · intro he
    have a1 := c2 _ (List.getElem_mem li)
    have a2 := c2 _ (List.getElem_mem lj)
    rw [List.getD_eq_getElem?_getD, List.getElem?_eq_getElem a1, List.getD_eq_getElem?_getD, List.getElem?_eq_getElem a2,
      Option.getD_some, Option.getD_some] at he
    exact (hnd.getElem_inj_iff).mp (window_inj h hcl (List.getElem_mem _) (List.getElem_mem _) he)
  · intro he; rw [he]

private theorem sameRows_iff {L : Nat} {eps : List (List String)} {fl : List String} (hs : SideBySide L eps fl)
    (hlen : ∀ ep ∈ eps, ep.length = L) {i j : Nat} (hi : i < eps.length) (hj : j < eps.length) :
    SameRows L eps.length i j fl ↔ eps[i]? = eps[j]? := by
  rw [List.getElem?_eq_getElem hi, List.getElem?_eq_getElem hj, Option.some.injEq]
  constructor
  · intro h
    apply List.ext_getElem?
    intro t
    by_cases ht : t < L
    · have := h t ht
      rwa [hs.2 t i hi ht, hs.2 t j hj ht] at this
    · rw [List.getElem?_eq_none (by rw [hlen _ (List.getElem_mem hi)]; omega),
        List.getElem?_eq_none (by rw [hlen _ (List.getElem_mem hj)]; omega)]
  · intro h t ht
    rw [hs.2 t i hi ht, hs.2 t j hj ht, h]

/-- What holds of the queue after every draw holds after every history. -/
theorem run_queue (sch : Sched S B) (hk : KeepsFiles sch) (rng : Rng Key) (cfg : Cfg) (P : List String → Prop)
    (hP : ∀ a b : St S Key, sample sch rng cfg a = .ok b → P (sch.fileList b.inner)) :
    ∀ (ops : List Op) (outs : List (Out B)) (a e : St S Key), P (sch.fileList a.inner) →
      run sch rng cfg ops a = some (outs, e) → P (sch.fileList e.inner)
  | [], outs, a, e, ha, h => by
    simp only [run, Option.some.injEq, Prod.mk.injEq] at h
    rw [← h.2]; exact ha
  | op :: ops, outs, a, e, ha, h => by
    unfold run at h
    cases hst : step sch rng cfg a op with
    | none => rw [hst] at h; simp at h
    | some q =>
      obtain ⟨o, a'⟩ := q
      rw [hst] at h
      simp only at h
      cases hrn : run sch rng cfg ops a' with
      | none => rw [hrn] at h; simp at h
      | some q' =>
        obtain ⟨os', a''⟩ := q'
        rw [hrn] at h
        simp only [Option.some.injEq, Prod.mk.injEq] at h
        obtain ⟨rfl, rfl⟩ := h
        refine run_queue sch hk rng cfg P hP ops os' a' _ ?_ hrn
        cases op with
        | iter => simp only [step, Option.some.injEq, Prod.mk.injEq] at hst; rw [← hst.2]; exact ha
        | restart =>
          simp only [step, nextEpisode] at hst
          cases hsm : sample sch rng cfg a with
          | error x => rw [hsm] at hst; simp only [Option.some.injEq, Prod.mk.injEq] at hst; rw [← hst.2]; exact ha
          | ok b =>
            rw [hsm] at hst
            simp only [Option.some.injEq, Prod.mk.injEq] at hst
            rw [← hst.2]; exact hP a b hsm
        | getBatch n =>
          have hfl : sch.fileList a'.inner = sch.fileList a.inner := by
            simp only [step, getBatch] at hst
            by_cases hn : n ≠ cfg.batchSize
            · rw [if_pos hn] at hst
              simp only [Option.some.injEq, Prod.mk.injEq] at hst; rw [← hst.2]
            · rw [if_neg hn] at hst
              by_cases ht : cfg.episodeLength ≤ a.t
              · rw [if_pos ht] at hst
                simp only [Option.some.injEq, Prod.mk.injEq] at hst; rw [← hst.2]
              · rw [if_neg ht] at hst
                cases hg : sch.getBatch n a.inner with
                | none => rw [hg] at hst; simp at hst
                | some q =>
                  obtain ⟨r, s⟩ := q
                  have := hk.getBatch n _ r s hg
                  rw [hg] at hst
                  cases r <;>
                  · simp only [Option.some.injEq, Prod.mk.injEq] at hst
                    rw [← hst.2]; exact this
          rw [hfl]; exact ha

private theorem startsOf_length (L : Nat) (glob : String → List String) : ∀ dirs : List String,
    (∀ d ∈ dirs, L ≤ (glob d).length) → (startsOf L (filesOf glob dirs)).length = startCount glob dirs L
  | [], _ => rfl
  | d :: dirs, h => by
    have ih := startsOf_length L glob dirs (fun d hd => h d (List.mem_cons_of_mem _ hd))
    have := h d List.mem_cons_self
    simp only [filesOf, List.map_cons, startsOf, List.length_append, List.length_map, List.length_range,
      List.length_insertionSort] at ih ⊢
    rw [ih]
    simp only [startCount, List.map_cons, List.sum_cons]
    omega

/-- C184 if starts were drawn without replacement, which is what the comment in the code says: if there are at least
`batch_size` starting positions, then after every history of calls the `batch_size` episodes in the queue are pairwise
different. Missing: the generator draws with replacement, so that episodes may coincide (`C184_refuted_repeated`), and
nothing is checked if there are too few starting positions (`C184_refuted_too_few`). -/
theorem C184_distinct_partial (sch : Sched S B) (hk : KeepsFiles sch) (rng : Rng Key) (hc : ChoiceOK rng)
    (hwr : WithoutReplacement rng) (os : LeafDirs.OS) (hset : LeafDirs.SetIter os.iterSet) (glob : String → List String)
    (b l : Nat) (inner : S) (key : Key) (cfg : Cfg) (e0 : St S Key)
    (h : init sch rng os glob (some b) (some l) inner key = .ok (cfg, e0)) (dirs : List String)
    (hd : LeafDirs.discover os false (sch.fileList inner) = .ok dirs) (hcl : ClearListings glob dirs)
    (henough : b ≤ startCount glob dirs l) (ops : List Op) (outs : List (Out B)) (e : St S Key)
    (hr : run sch rng cfg ops e0 = some (outs, e)) :
    ∃ eps : List (List String), eps.length = b ∧ (∀ ep ∈ eps, IsEpisode glob dirs l ep) ∧ eps.Nodup ∧
      SideBySide l eps (sch.fileList e.inner) := by
  have hnd := (C20_starts_exactly sch rng os hset glob _ _ inner key cfg e0 h).1
  obtain ⟨dirs', hd', ok, hb, hl, hs⟩ := init_ok h
  rw [hd] at hd'
  simp only [Except.ok.injEq] at hd'
  subst hd'
  have hb : b = cfg.batchSize := by simpa using hb
  have hl : l = cfg.episodeLength := by simpa using hl
  subst hb hl
  have hcount : cfg.starts.length = startCount glob dirs cfg.episodeLength := by
    rw [ok.starts, ok.d2f]; exact startsOf_length _ _ _ ok.enough
  have hsamp : ∀ a b : St S Key, sample sch rng cfg a = .ok b →
      ∃ eps : List (List String), eps.length = cfg.batchSize ∧ (∀ ep ∈ eps, IsEpisode glob dirs cfg.episodeLength ep) ∧
        eps.Nodup ∧ SideBySide cfg.episodeLength eps (sch.fileList b.inner) := by
    intro a b hab
    obtain ⟨h1, h2, h3⟩ := drawn_eps ok sch rng hc a
    rw [h3] at hab
    simp only [Except.ok.injEq] at hab
    subst hab
    refine ⟨drawnEps rng cfg a, h1, h2, ?_, ?_⟩
    · have hdn : (drawn rng cfg a).Nodup := hwr _ _ _ (by rw [hcount]; exact henough)
      rw [List.nodup_iff_getElem?_ne_getElem?]
      intro i j hij hj heq
      have := (drawn_same ok hcl hnd rng hc a (by omega) (by omega)).mp heq
      have hlen : (drawn rng cfg a).length = cfg.batchSize := by rw [← h1]; simp [drawnEps]
      exact (List.nodup_iff_getElem?_ne_getElem?.mp hdn) i j hij (by omega) this
    · dsimp only
      rw [hk.reset, hk.set, ← h1]
      exact interleave_sideBySide (fun ep hep => (h2 ep hep).1)
  exact run_queue sch hk rng cfg (fun fl => ∃ eps : List (List String), eps.length = cfg.batchSize ∧
    (∀ ep ∈ eps, IsEpisode glob dirs cfg.episodeLength ep) ∧ eps.Nodup ∧ SideBySide cfg.episodeLength eps fl)
    hsamp ops outs e0 e (hsamp _ _ hs) hr

/-- C184 (when exactly): after `next_episode` or `reset`, rows `i` and `j` of the batches play the same episode iff the
`i`-th and the `j`-th draw, out of the number of starting positions, coincide. -/
theorem C184_same_iff (sch : Sched S B) (hk : KeepsFiles sch) (rng : Rng Key) (hc : ChoiceOK rng)
    (os : LeafDirs.OS) (hset : LeafDirs.SetIter os.iterSet) (glob : String → List String)
    (b l : Nat) (inner : S) (key : Key) (cfg : Cfg) (e0 : St S Key)
    (h : init sch rng os glob (some b) (some l) inner key = .ok (cfg, e0)) (dirs : List String)
    (hd : LeafDirs.discover os false (sch.fileList inner) = .ok dirs) (hcl : ClearListings glob dirs)
    (e e' : St S Key) (hn : nextEpisode sch rng cfg e = .ok e') (i j : Nat) (hi : i < b) (hj : j < b) :
    SameRows l b i j (sch.fileList e'.inner) ↔
      (rng.choice (rng.split e.key).2 (startCount glob dirs l) b)[i]? =
        (rng.choice (rng.split e.key).2 (startCount glob dirs l) b)[j]? := by
  have hnd := (C20_starts_exactly sch rng os hset glob _ _ inner key cfg e0 h).1
  obtain ⟨dirs', hd', ok, hb, hl, hs⟩ := init_ok h
  rw [hd] at hd'
  simp only [Except.ok.injEq] at hd'
  subst hd'
  have hb : b = cfg.batchSize := by simpa using hb
  have hl : l = cfg.episodeLength := by simpa using hl
  subst hb hl
  have hcount : cfg.starts.length = startCount glob dirs cfg.episodeLength := by
    rw [ok.starts, ok.d2f]; exact startsOf_length _ _ _ ok.enough
  obtain ⟨h1, h2, h3⟩ := drawn_eps ok sch rng hc e
  rw [nextEpisode, h3] at hn
  simp only [Except.ok.injEq] at hn
  subst hn
  rw [← hcount]
  refine Iff.trans ?_ (drawn_same ok hcl hnd rng hc e hi hj)
  dsimp only
  rw [hk.reset, hk.set]
  have := sameRows_iff (interleave_sideBySide (fun ep hep => (h2 ep hep).1)) (fun ep hep => (h2 ep hep).1)
    (i := i) (j := j) (by omega) (by omega)
  rwa [h1] at this

/-- C184 is false when there are too few starting positions: construction succeeds all the same, for every generator,
and after every history of calls two of the rows play the same episode. -/
theorem C184_refuted_too_few (sch : Sched S B) (hk : KeepsFiles sch) (rng : Rng Key) (hc : ChoiceOK rng)
    (os : LeafDirs.OS) (glob : String → List String) (b l : Nat) (inner : S) (key : Key) (dirs : List String)
    (hd : LeafDirs.discover os false (sch.fileList inner) = .ok dirs) (hb : 0 < b) (hl : 0 < l) (hne : dirs ≠ [])
    (hlong : ∀ d ∈ dirs, l ≤ (glob d).length) (hfew : startCount glob dirs l < b) :
    ∃ cfg e0, init sch rng os glob (some b) (some l) inner key = .ok (cfg, e0) ∧
      ∀ (ops : List Op) (outs : List (Out B)) (e : St S Key), run sch rng cfg ops e0 = some (outs, e) →
        ∃ i j, i < j ∧ j < b ∧ SameRows l b i j (sch.fileList e.inner) := by
  obtain ⟨⟨cfg, e0⟩, h⟩ := (C20_construction_iff sch rng os glob (some b) (some l) inner key dirs hd).1.mpr
    ⟨b, l, rfl, rfl, by omega, by omega, hne, fun d hdm => by have := hlong d hdm; omega⟩
  refine ⟨cfg, e0, h, ?_⟩
  obtain ⟨dirs', hd', ok, hb', hl', hs⟩ := init_ok h
  rw [hd] at hd'
  simp only [Except.ok.injEq] at hd'
  subst hd'
  have hb' : b = cfg.batchSize := by simpa using hb'
  have hl' : l = cfg.episodeLength := by simpa using hl'
  subst hb' hl'
  have hcount : cfg.starts.length = startCount glob dirs cfg.episodeLength := by
    rw [ok.starts, ok.d2f]; exact startsOf_length _ _ _ ok.enough
  have hsamp : ∀ a b : St S Key, sample sch rng cfg a = .ok b →
      ∃ i j, i < j ∧ j < cfg.batchSize ∧ SameRows cfg.episodeLength cfg.batchSize i j (sch.fileList b.inner) := by
    intro a b hab
    obtain ⟨h1, h2, h3⟩ := drawn_eps ok sch rng hc a
    rw [h3] at hab
    simp only [Except.ok.injEq] at hab
    subst hab
    have hpos : 0 < cfg.starts.length := List.length_pos_iff.mpr ok.ne
    obtain ⟨c1, c2⟩ := hc (rng.split a.key).2 cfg.starts.length cfg.batchSize hpos
    change (drawn rng cfg a).length = _ at c1
    have c2 : ∀ i ∈ drawn rng cfg a, i < cfg.starts.length := c2
    have hdup : ¬ (drawn rng cfg a).Nodup := by
      intro hn
      have hsub : (drawn rng cfg a).length ≤ (List.range cfg.starts.length).length :=
        (List.subperm_of_subset hn (fun x hx => List.mem_range.mpr (c2 x hx))).length_le
      rw [List.length_range] at hsub
      omega
    rw [List.nodup_iff_getElem?_ne_getElem?] at hdup
    push Not at hdup
    obtain ⟨i, j, hij, hj, heq⟩ := hdup
    refine ⟨i, j, hij, by omega, ?_⟩
    dsimp only
    rw [hk.reset, hk.set]
    have hrow := sameRows_iff (interleave_sideBySide (fun ep hep => (h2 ep hep).1)) (fun ep hep => (h2 ep hep).1)
      (i := i) (j := j) (by omega) (by omega)
    rw [h1] at hrow
    refine hrow.mpr ?_
    simp only [drawnEps, List.getElem?_map, heq]
  intro ops outs e hr
  exact run_queue sch hk rng cfg (fun fl => ∃ i j, i < j ∧ j < cfg.batchSize ∧
    SameRows cfg.episodeLength cfg.batchSize i j fl) hsamp ops outs e0 e (hsamp _ _ hs) hr

/-- C184 is false although there are twice as many starting positions as episodes in a batch: both draws may coincide. -/
theorem C184_refuted_repeated : ∃ cfg e0,
    init (demoSched false) (demoRng [0, 0]) demoOS demoGlob (some 2) (some 2) (demoInner false ["d0", "e0"]) (.seed 1) =
      .ok (cfg, e0) ∧
    startCount demoGlob ["d", "e"] 2 = 4 ∧ e0.inner.fileList = ["d0", "d0", "d1", "d1"] ∧
    SameRows 2 2 0 1 e0.inner.fileList := by
  refine ⟨_, _, rfl, rfl, rfl, ?_⟩
  intro t ht
  rcases t with _ | _ | t
  · rfl
  · rfl
  · omega

/-- A generator that draws without replacement. -/
def demoDistinct : Rng KeyTerm where
  split := KeyTerm.split2
  choice _ n b := (List.range b).map (fun i => i % n)

theorem demoDistinct_ok : ChoiceOK demoDistinct ∧ WithoutReplacement demoDistinct := by
  constructor
  · intro k n b hn
    refine ⟨by simp [demoDistinct], ?_⟩
    intro i hi
    obtain ⟨j, _, rfl⟩ := List.mem_map.mp hi
    exact Nat.mod_lt _ hn
  · intro k n b hb
    refine List.Nodup.map_on ?_ List.nodup_range
    intro x hx y hy hxy
    rw [List.mem_range] at hx hy
    rwa [Nat.mod_eq_of_lt (by omega), Nat.mod_eq_of_lt (by omega)] at hxy

/-- The hypotheses of the theorems are met: three episodes from the four starting positions of `d` and `e`. -/
example : ∃ cfg e0, init (demoSched false) demoDistinct demoOS demoGlob (some 3) (some 2) (demoInner false ["d0", "e0"])
      (.seed 1) = .ok (cfg, e0) ∧
    LeafDirs.discover demoOS false ((demoSched false).fileList (demoInner false ["d0", "e0"])) = .ok ["d", "e"] ∧
    ClearListings demoGlob ["d", "e"] ∧ 3 ≤ startCount demoGlob ["d", "e"] 2 ∧
    e0.inner.fileList = ["d0", "d1", "e0", "d1", "d2", "e1"] := by
  refine ⟨_, _, rfl, rfl, ?_, by decide, rfl⟩
  constructor
  · decide
  · have : ∀ d ∈ ["d", "e"], ∀ d' ∈ ["d", "e"], d ≠ d' → ∀ a ∈ demoGlob d, a ∉ demoGlob d' := by decide
    exact fun d hd d' hd' hne a ha hb => this d hd d' hd' hne a ha hb

/-- Five episodes from the same four starting positions: the case of `C184_refuted_too_few`. -/
example : startCount demoGlob ["d", "e"] 2 < 5 ∧ ∀ d ∈ ["d", "e"], 2 ≤ (demoGlob d).length := by decide

end Verif.Episodic
