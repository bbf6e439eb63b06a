import Verif.Props.Episodic
/-!
# Property C22, exactly: when the rows of the batches are aligned with the episodes
-/

namespace Verif.Episodic
open Verif
variable {Key : Type}

/-- What a call of `get_batch` shows, from the wrapped scheduler's answer. -/
private def toOut {B : Type} : Except Exc B → Out B
  | .ok b => .batch b
  | .error x => .raised x

/-- The real rows that a call delivers to the user; an exception delivers none. -/
def deliveredRows {V : Type} : Out (Base.Batch V) → List (Base.Row V)
  | .batch b => Base.delivered (.ok b)
  | _ => []

private theorem run_batches {V D K : Type} (zero : V) (w : Base.World V D K) (bcfg : Base.Cfg) (fuel : Nat) (rng : Rng Key)
    (cfg : Cfg) : ∀ (k : Nat) (e : St (Base.St D K) Key) (outs : List (Except Exc (Base.Batch V))) (s' : Base.St D K),
    e.t + k ≤ cfg.episodeLength →
    Base.runBatches zero w bcfg fuel (List.replicate k cfg.batchSize) e.inner = some (outs, s') →
    run (Base.sched zero w bcfg fuel) rng cfg (List.replicate k (.getBatch cfg.batchSize)) e =
      some (outs.map toOut, { e with t := e.t + k, inner := s' })
  | 0, e, outs, s', hk, h => by
    simp only [List.replicate_zero, Base.runBatches, Option.some.injEq, Prod.mk.injEq] at h
    obtain ⟨rfl, rfl⟩ := h
    rfl
  | k + 1, e, outs, s', hk, h => by
    rw [List.replicate_succ, Base.runBatches] at h
    cases hg : Base.getBatch zero w bcfg fuel cfg.batchSize e.inner with
    | none => rw [hg] at h; simp at h
    | some q =>
      obtain ⟨r, s1⟩ := q
      rw [hg] at h
      simp only at h
      cases hrb : Base.runBatches zero w bcfg fuel (List.replicate k cfg.batchSize) s1 with
      | none => rw [hrb] at h; simp at h
      | some q' =>
        obtain ⟨rs, s2⟩ := q'
        rw [hrb] at h
        simp only [Option.some.injEq, Prod.mk.injEq] at h
        obtain ⟨rfl, rfl⟩ := h
        have ht' : ¬ cfg.episodeLength ≤ e.t := by omega
        have hg' : (Base.sched zero w bcfg fuel).getBatch cfg.batchSize e.inner = some (r, s1) := hg
        have hstep : step (Base.sched zero w bcfg fuel) rng cfg e (.getBatch cfg.batchSize) =
            some (toOut r, { e with t := e.t + 1, inner := s1 }) := by
          cases r <;> simp [step, getBatch, ht', hg', toOut]
        have ih := run_batches zero w bcfg fuel rng cfg k { e with t := e.t + 1, inner := s1 } rs s2
          (by dsimp only; omega) hrb
        rw [List.replicate_succ, run, hstep]
        simp only [ih, List.map_cons]
        rw [show e.t + 1 + k = e.t + (k + 1) by omega]

private theorem go_length (l : List String) : ∀ a, (Base.dropRepeats.go a l).length ≤ l.length := by
  induction l with
  | nil => intro a; simp [Base.dropRepeats.go]
  | cons b l ih =>
    intro a
    rw [Base.dropRepeats.go]
    have := ih b
    split <;> simp <;> omega

private theorem chain_of_length : ∀ l : List String, (Base.dropRepeats l).length = l.length → List.IsChain (· ≠ ·) l := by
  have go : ∀ (l : List String) (a : String), (Base.dropRepeats.go a l).length = l.length → List.IsChain (· ≠ ·) (a :: l) := by
    intro l
    induction l with
    | nil => intro a _; simp
    | cons b l ih =>
      intro a h
      rw [Base.dropRepeats.go] at h
      have hl := go_length l b
      by_cases hba : b = a
      · rw [if_pos hba] at h; simp at h; omega
      · rw [if_neg hba] at h
        simp only [List.length_cons, Nat.add_right_cancel_iff] at h
        exact List.isChain_cons_cons.mpr ⟨fun hab => hba hab.symm, ih b h⟩
  intro l h
  cases l with
  | nil => simp
  | cons a l =>
    simp only [Base.dropRepeats, List.length_cons, Nat.add_right_cancel_iff] at h
    exact go l a h

/-- What holds after construction and after every restart. -/
private theorem fresh_state {V D K : Type} {zero : V} {w : Base.World V D K} {bcfg : Base.Cfg}
    (hrand : bcfg.randomize = false) {fuel : Nat} {rng : Rng Key} (hc : ChoiceOK rng) {os : LeafDirs.OS}
    {glob : String → List String} {bs el : Option Int} {inner : Base.St D K} {key : Key} {cfg : Cfg}
    {e0 : St (Base.St D K) Key} (h : init (Base.sched zero w bcfg fuel) rng os glob bs el inner key = .ok (cfg, e0))
    {dirs : List String} (hd : LeafDirs.discover os false inner.fileList = .ok dirs) {e : St (Base.St D K) Key}
    (he : e = e0 ∨ ∃ e1, nextEpisode (Base.sched zero w bcfg fuel) rng cfg e1 = .ok e) :
    CfgOK glob dirs cfg ∧ ∃ eps : List (List String), eps.length = cfg.batchSize ∧
      (∀ ep ∈ eps, IsEpisode glob dirs cfg.episodeLength ep) ∧ e.t = 0 ∧
      e.inner.fileList = interleave cfg.episodeLength cfg.batchSize eps ∧ e.inner.index = 0 ∧ e.inner.cached = none := by
  obtain ⟨dirs', hd', ok, _, _, hs⟩ := init_ok h
  have : dirs' = dirs := by
    have hx : LeafDirs.discover os false inner.fileList = .ok dirs' := hd'
    rw [hd] at hx; simpa using hx.symm
  subst this
  refine ⟨ok, ?_⟩
  rcases he with rfl | ⟨e1, he1⟩
  · obtain ⟨eps, h1, h2, h3⟩ := sample_spec ok (Base.sched zero w bcfg fuel) rng hc { inner := inner, t := 0, key := key }
    rw [h3] at hs
    simp only [Except.ok.injEq] at hs
    subst hs
    exact ⟨eps, h1, h2, rfl, by simp [Base.sched, Base.reset, Base.shuffle, hrand], rfl, rfl⟩
  · obtain ⟨eps, h1, h2, h3⟩ := sample_spec ok (Base.sched zero w bcfg fuel) rng hc e1
    rw [nextEpisode, h3] at he1
    simp only [Except.ok.injEq] at he1
    subst he1
    exact ⟨eps, h1, h2, rfl, by simp [Base.sched, Base.reset, Base.shuffle, hrand], rfl, rfl⟩

private theorem files_listed {glob : String → List String} {dirs : List String} {L B : Nat} {eps : List (List String)}
    (h1 : eps.length = B) (h2 : ∀ ep ∈ eps, IsEpisode glob dirs L ep) :
    ∀ p ∈ interleave L B eps, ∃ d ∈ dirs, p ∈ glob d := by
  intro p hp
  rw [interleave, List.mem_flatMap] at hp
  obtain ⟨t, htm, hp⟩ := hp
  obtain ⟨i, him, rfl⟩ := List.mem_map.mp hp
  rw [List.mem_range] at htm him
  rw [← h1] at him
  obtain ⟨hl, d, hdm, listing, hpm, _, hinf⟩ := h2 eps[i] (List.getElem_mem him)
  refine ⟨d, hdm, hpm.mem_iff.mp (hinf.subset ?_)⟩
  have hg : eps.getD i [] = eps[i] := by simp [List.getD_eq_getElem?_getD, List.getElem?_eq_getElem him]
  rw [hg, List.getD_eq_getElem?_getD, List.getElem?_eq_getElem (by omega), Option.getD_some]
  exact List.getElem_mem _

/-- C22 (what is really delivered): over a base scheduler that neither shuffles nor loops, whose frames hold one slice each, the
`episode_length` calls after construction or any restart deliver the frames of the queue in order, except that a file queued directly
after itself is delivered only once. -/
theorem C22_delivered_exactly {V D K : Type} (zero : V) (w : Base.World V D K) (bcfg : Base.Cfg)
    (hrand : bcfg.randomize = false) (hloop : bcfg.loop = false) (fuel : Nat) (rng : Rng Key) (hc : ChoiceOK rng)
    (os : LeafDirs.OS) (glob : String → List String) (bs el : Option Int) (inner : Base.St D K) (key : Key) (cfg : Cfg)
    (e0 : St (Base.St D K) Key)
    (h : init (Base.sched zero w bcfg fuel) rng os glob bs el inner key = .ok (cfg, e0))
    (dirs : List String) (hd : LeafDirs.discover os false inner.fileList = .ok dirs)
    (frame : String → Base.Sample V) (hy : ∀ d ∈ dirs, ∀ p ∈ glob d, Base.Yields w p [frame p])
    {fsh o1 o2 named} (hu : Base.Uniform ((dirs.flatMap glob).map frame) fsh o1 o2 named)
    (e : St (Base.St D K) Key)
    (he : e = e0 ∨ ∃ e1, nextEpisode (Base.sched zero w bcfg fuel) rng cfg e1 = .ok e)
    (hf : cfg.episodeLength * cfg.batchSize < fuel) :
    ∃ outs e', run (Base.sched zero w bcfg fuel) rng cfg
          (List.replicate cfg.episodeLength (.getBatch cfg.batchSize)) e = some (outs, e') ∧
      outs.flatMap deliveredRows = (Base.dropRepeats e.inner.fileList).map (fun p => (frame p).row) := by
  obtain ⟨ok, eps, h1, h2, ht, hfl, hix, hca⟩ := fresh_state hrand hc h hd he
  have hmem : ∀ p ∈ e.inner.fileList, ∃ d ∈ dirs, p ∈ glob d := by rw [hfl]; exact files_listed h1 h2
  let c : String → List (Base.Sample V) := fun p => [frame p]
  have hinv : Base.Inv w c e.inner := by
    refine ⟨fun p hp => ?_, fun q d hq => by rw [hca] at hq; simp at hq⟩
    obtain ⟨d, hdm, hpm⟩ := hmem p hp
    exact hy d hdm p hpm
  have hrem : Base.rem c e.inner = (Base.dropRepeats e.inner.fileList).map frame := by
    rw [Base.rem_fresh _ hca hix, Base.streamAfter_none]
    exact flatMap_single c frame _ (fun _ _ => rfl)
  obtain ⟨s', _, _, _, _, h5⟩ := Base.runBatches_nonloop zero hloop
    (List.replicate cfg.episodeLength cfg.batchSize) e.inner hinv
  have hrun := run_batches zero w bcfg fuel rng cfg cfg.episodeLength e _ s' (by omega)
    (h5 fuel (by rw [hfl, interleave_length]; exact hf))
  refine ⟨_, _, hrun, ?_⟩
  have hto : ∀ outs : List (Except Exc (Base.Batch V)),
      (outs.map toOut).flatMap deliveredRows = outs.flatMap Base.delivered := by
    intro outs
    induction outs with
    | nil => rfl
    | cons o outs ih =>
      rw [List.map_cons, List.flatMap_cons, List.flatMap_cons, ih]
      cases o <;> rfl
  have hu' : Base.Uniform (Base.rem c e.inner) fsh o1 o2 named := by
    rw [hrem]
    refine Base.uniform_sub hu fun x hx => ?_
    obtain ⟨p, hp, rfl⟩ := List.mem_map.mp hx
    obtain ⟨d, hdm, hpm⟩ := hmem p ((Base.mem_dropRepeats _ _).mp hp)
    exact List.mem_map.mpr ⟨p, List.mem_flatMap.mpr ⟨d, hdm, hpm⟩, rfl⟩
  rw [hto, Base.delivered_takeBatches_nonloop zero bcfg hloop _ _ hu', hrem, List.take_of_length_le, List.map_map]
  · rfl
  · have hle : (Base.dropRepeats e.inner.fileList).length ≤ e.inner.fileList.length := by
      cases e.inner.fileList with
      | nil => simp [Base.dropRepeats]
      | cons a l => have := go_length l a; simp [Base.dropRepeats]; omega
    rw [hfl, interleave_length] at hle
    rw [List.length_map, hfl]
    simpa using hle

/-- C22 (exact condition): over a base scheduler that neither shuffles nor loops, whose frames hold one slice each, the batches after
construction or any restart show in row `i` at step `t` the `t`-th frame of the `i`-th of some episodes side by side in the queue, if and only
if no file directly follows itself in the queue. -/
theorem C22_aligned_iff {V D K : Type} (zero : V) (w : Base.World V D K) (bcfg : Base.Cfg)
    (hrand : bcfg.randomize = false) (hloop : bcfg.loop = false) (fuel : Nat) (rng : Rng Key) (hc : ChoiceOK rng)
    (os : LeafDirs.OS) (glob : String → List String) (bs el : Option Int) (inner : Base.St D K) (key : Key) (cfg : Cfg)
    (e0 : St (Base.St D K) Key)
    (h : init (Base.sched zero w bcfg fuel) rng os glob bs el inner key = .ok (cfg, e0))
    (dirs : List String) (hd : LeafDirs.discover os false inner.fileList = .ok dirs)
    (frame : String → Base.Sample V) (hy : ∀ d ∈ dirs, ∀ p ∈ glob d, Base.Yields w p [frame p])
    {fsh o1 o2 named} (hu : Base.Uniform ((dirs.flatMap glob).map frame) fsh o1 o2 named)
    (e : St (Base.St D K) Key)
    (he : e = e0 ∨ ∃ e1, nextEpisode (Base.sched zero w bcfg fuel) rng cfg e1 = .ok e)
    (hf : cfg.episodeLength * cfg.batchSize < fuel) :
    (∃ eps : List (List String), eps.length = cfg.batchSize ∧
      (∀ ep ∈ eps, IsEpisode glob dirs cfg.episodeLength ep) ∧ SideBySide cfg.episodeLength eps e.inner.fileList ∧
      ∃ outs e', run (Base.sched zero w bcfg fuel) rng cfg
          (List.replicate cfg.episodeLength (.getBatch cfg.batchSize)) e = some (outs, e') ∧
        ∀ t, t < cfg.episodeLength → ∃ b, outs[t]? = some (.batch b) ∧
          Base.Shows zero (eps.map (fun ep => frame (ep.getD t ""))) cfg.batchSize b) ↔
    List.IsChain (· ≠ ·) e.inner.fileList := by
  constructor
  · rintro ⟨eps, h1, h2, _, outs, e', hrun, hshow⟩
    obtain ⟨outs2, e2, hrun2, hdel⟩ := C22_delivered_exactly zero w bcfg hrand hloop fuel rng hc os glob bs el inner key cfg
      e0 h dirs hd frame hy hu e he hf
    rw [hrun] at hrun2
    simp only [Option.some.injEq, Prod.mk.injEq] at hrun2
    obtain ⟨rfl, rfl⟩ := hrun2
    obtain ⟨_, eps', h1', _, _, hfl, _, _⟩ := fresh_state hrand hc h hd he
    apply chain_of_length
    have hlen : (Base.dropRepeats e.inner.fileList).length = (outs.flatMap deliveredRows).length := by rw [hdel, List.length_map]
    have hle : (Base.dropRepeats e.inner.fileList).length ≤ e.inner.fileList.length := by
      cases e.inner.fileList with
      | nil => simp [Base.dropRepeats]
      | cons a l => have := go_length l a; simp [Base.dropRepeats]; omega
    have hrows : ∀ t, t < cfg.episodeLength → ∃ o, outs[t]? = some o ∧ (deliveredRows o).length = cfg.batchSize := by
      intro t ht
      obtain ⟨b, hb, hs⟩ := hshow t ht
      refine ⟨_, hb, ?_⟩
      have hus : Base.Uniform (eps.map (fun ep => frame (ep.getD t ""))) fsh o1 o2 named := by
        refine Base.uniform_sub hu fun x hx => ?_
        obtain ⟨ep, hep, rfl⟩ := List.mem_map.mp hx
        obtain ⟨hl, d, hdm, listing, hpm, _, hinf⟩ := h2 ep hep
        refine List.mem_map.mpr ⟨_, List.mem_flatMap.mpr ⟨d, hdm, hpm.mem_iff.mp (hinf.subset ?_)⟩, rfl⟩
        rw [List.getD_eq_getElem?_getD, List.getElem?_eq_getElem (by omega), Option.getD_some]
        exact List.getElem_mem _
      simp only [deliveredRows]
      rw [Base.delivered_shows hs hus, List.length_map, List.length_map, h1]
    have hcount : ∀ (k : Nat) (l : List (Out (Base.Batch V))),
        (∀ t, t < k → ∃ o, l[t]? = some o ∧ (deliveredRows o).length = cfg.batchSize) →
        k * cfg.batchSize ≤ (l.flatMap deliveredRows).length := by
      intro k
      induction k with
      | zero => intro l _; simp
      | succ k ih =>
        intro l hl
        obtain ⟨o, ho, hol⟩ := hl 0 (by omega)
        cases l with
        | nil => simp at ho
        | cons a l =>
          simp only [List.getElem?_cons_zero, Option.some.injEq] at ho
          subst ho
          have := ih l (fun t ht => by
            obtain ⟨o, h1, h2⟩ := hl (t + 1) (by omega)
            exact ⟨o, by simpa using h1, h2⟩)
          rw [List.flatMap_cons, List.length_append, hol, Nat.add_mul, Nat.one_mul]
          omega
    have := hcount _ outs hrows
    have hfll : e.inner.fileList.length = cfg.episodeLength * cfg.batchSize := by rw [hfl, interleave_length]
    omega
  · intro hchain
    exact C22_rows_aligned_partial zero w bcfg hrand fuel rng hc os glob bs el inner key cfg e0 h dirs hd frame hy hu e he
      (by omega) hchain

/-- Both sides occur: with the draws 0 and 3 no file follows itself in the queue, with the draws 0 and 0 one does. The
other hypotheses are those of `C22_rows_aligned_partial`. -/
example : ∃ cfg e0 e1, init (demoSched false) (demoRng [0, 3]) demoOS demoGlob (some 2) (some 2) (demoInner false ["d0", "e0"])
      (.seed 1) = .ok (cfg, e0) ∧ List.IsChain (· ≠ ·) e0.inner.fileList ∧
    init (demoSched false) (demoRng [0, 0]) demoOS demoGlob (some 2) (some 2) (demoInner false ["d0", "e0"])
      (.seed 1) = .ok (cfg, e1) ∧ ¬ List.IsChain (· ≠ ·) e1.inner.fileList ∧
    Base.dropRepeats e1.inner.fileList = ["d0", "d1"] :=
  ⟨_, _, _, rfl, by decide, rfl, by decide, rfl⟩

end Verif.Episodic
