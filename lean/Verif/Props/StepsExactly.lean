import Verif.Props.Episodic
import Verif.Props.Base
/-!
# C23 and C12, exactly: what counts as a step of an episode; what is lost by a failing request
-/

namespace Verif.Episodic
open Verif
variable {S B Key : Type}

/-- How many requests of the right size have been made since the last `next_episode()`, `reset()` or `iter()`, whatever became of them, and not
counting those beyond the end of the episode. -/
def askedSince (batchSize episodeLength : Nat) : List Op → Nat → Nat
  | [], n => n
  | .getBatch m :: h, n => askedSince batchSize episodeLength h (if m = batchSize then min (n + 1) episodeLength else n)
  | .restart :: h, _ => askedSince batchSize episodeLength h 0
  | .iter :: h, _ => askedSince batchSize episodeLength h 0

/-- **C23, exactly**: whatever the wrapped scheduler does, the steps of an episode are the requests of the right size since the last restart or
`iter()`: after `k` of them `steps_remaining()` is `episode_length - k`, and exactly from the `episode_length`-th on `EpisodeEnd` is raised. So C23 holds
after a history if and only if as many batches have been served since the last restart as were asked for. -/
theorem C23_exactly (sch : Sched S B)
    (rng : Rng Key) (hc : ChoiceOK rng) (os : LeafDirs.OS) (glob : String → List String) (bs el : Option Int) (inner : S)
    (key : Key) (cfg : Cfg) (e0 : St S Key) (h : init sch rng os glob bs el inner key = .ok (cfg, e0)) (ops : List Op)
    (outs : List (Out B)) (e : St S Key) (hr : run sch rng cfg ops e0 = some (outs, e))
    (k : Nat) (hk : k = askedSince cfg.batchSize cfg.episodeLength ops 0) :
    k ≤ cfg.episodeLength ∧ stepsRemaining cfg e = cfg.episodeLength - k ∧
    (k = cfg.episodeLength → getBatch sch cfg cfg.batchSize e = some (.error .episodeEnd, e)) ∧
    (k < cfg.episodeLength → ∀ r s, sch.getBatch cfg.batchSize e.inner = some (r, s) →
      ∃ e', getBatch sch cfg cfg.batchSize e = some (r, e') ∧ e'.inner = s ∧ stepsRemaining cfg e' = cfg.episodeLength - k - 1) ∧
    (stepsRemaining cfg e = cfg.episodeLength - servedSince (ops.zip outs) 0 ↔ servedSince (ops.zip outs) 0 = k) := by
  obtain ⟨dirs, hd, ok, _, _, hs⟩ := init_ok h
  have main : ∀ (ops : List Op) (outs : List (Out B)) (a : St S Key) (n : Nat),
      run sch rng cfg ops a = some (outs, e) → a.t = n → n ≤ cfg.episodeLength →
      e.t = askedSince cfg.batchSize cfg.episodeLength ops n ∧ e.t ≤ cfg.episodeLength := by
    intro ops
    induction ops with
    | nil =>
      intro outs a n hrun ha hn
      simp only [run, Option.some.injEq, Prod.mk.injEq] at hrun
      rw [← hrun.2]
      simp [askedSince, ha, hn]
    | cons op ops ih =>
      intro outs a n hrun ha hn
      unfold run at hrun
      cases hst : step sch rng cfg a op with
      | none => rw [hst] at hrun; simp at hrun
      | some q =>
        obtain ⟨o, a'⟩ := q
        rw [hst] at hrun
        simp only at hrun
        cases hrn : run sch rng cfg ops a' with
        | none => rw [hrn] at hrun; simp at hrun
        | some q' =>
          obtain ⟨os', a''⟩ := q'
          rw [hrn] at hrun
          simp only [Option.some.injEq, Prod.mk.injEq] at hrun
          obtain ⟨rfl, rfl⟩ := hrun
          cases op with
          | iter =>
            simp only [step, Option.some.injEq, Prod.mk.injEq] at hst
            simp only [askedSince]
            exact ih os' a' 0 hrn (by rw [← hst.2]; rfl) (Nat.zero_le _)
          | restart =>
            obtain ⟨eps, _, _, h3⟩ := sample_spec ok sch rng hc a
            simp only [step, nextEpisode, h3, Option.some.injEq, Prod.mk.injEq] at hst
            simp only [askedSince]
            exact ih os' a' 0 hrn (by rw [← hst.2]) (Nat.zero_le _)
          | getBatch m =>
            simp only [step, getBatch] at hst
            simp only [askedSince]
            by_cases hm : m ≠ cfg.batchSize
            · rw [if_pos hm] at hst
              simp only [Option.some.injEq, Prod.mk.injEq] at hst
              obtain ⟨rfl, rfl⟩ := hst
              rw [if_neg hm]
              exact ih os' a n hrn ha hn
            · rw [if_neg hm] at hst
              rw [if_pos (not_not.mp hm)]
              by_cases ht : cfg.episodeLength ≤ a.t
              · rw [if_pos ht] at hst
                simp only [Option.some.injEq, Prod.mk.injEq] at hst
                obtain ⟨rfl, rfl⟩ := hst
                exact ih os' a _ hrn (by omega) (by omega)
              · rw [if_neg ht] at hst
                cases hgb : sch.getBatch m a.inner with
                | none => rw [hgb] at hst; simp at hst
                | some q =>
                  obtain ⟨r, s⟩ := q
                  rw [hgb] at hst
                  cases r <;>
                  · simp only [Option.some.injEq, Prod.mk.injEq] at hst
                    obtain ⟨rfl, rfl⟩ := hst
                    exact ih os' _ _ hrn (by simp only; omega) (by omega)
  have ht0 : e0.t = 0 := by
    obtain ⟨eps, _, _, h3⟩ := sample_spec ok sch rng hc { inner := inner, t := 0, key := key }
    rw [h3] at hs
    simp only [Except.ok.injEq] at hs
    rw [← hs]
  obtain ⟨m1, m2⟩ := main ops outs e0 0 hr ht0 (Nat.zero_le _)
  rw [← hk] at m1
  refine ⟨by omega, by simp [stepsRemaining, m1], ?_, ?_, ?_⟩
  · intro hkl
    simp [getBatch, show cfg.episodeLength ≤ e.t by omega]
  · intro hkl r s hg
    have : ¬ cfg.episodeLength ≤ e.t := by omega
    refine ⟨{ e with t := e.t + 1, inner := s }, by simp [getBatch, this, hg], rfl, ?_⟩
    simp only [stepsRemaining, m1]
    push_cast
    omega
  · simp only [stepsRemaining, m1]
    omega

/-- In the run of `C23_refuted` two batches are asked for and one is served. -/
example : ∃ cfg e0 b e,
    init (demoSched false) (demoRng [0, 0]) demoOS demoGlob (some 2) (some 2) (demoInner false ["d0", "e0"]) (.seed 1) = .ok (cfg, e0) ∧
    run (demoSched false) (demoRng [0, 0]) cfg [.getBatch 2, .getBatch 2] e0 = some ([.batch b, .raised .stopIteration], e) ∧
    askedSince cfg.batchSize cfg.episodeLength [.getBatch 2, .getBatch 2] 0 = 2 :=
  ⟨_, _, _, _, rfl, rfl, rfl⟩

end Verif.Episodic

namespace Verif.Base
open Verif
variable {V D Key : Type}

/-- **C12, exactly**: a `get_batch` that fails in extracting a slice loses the samples `xs` that it had taken, for good: no later requests deliver
anything until the scheduler is reset. So nothing is lost if and only if the failing slice was the first one of the batch. -/
theorem C12_exactly (zero : V) (w : World V D Key) (cfg : Cfg) (fuel n : Nat)
    (s s' : St D Key) (e : Exc) (he : e ≠ .stopIteration) (hv : e ≠ .valueError) (hfl : s'.fileList ≠ [])
    (h : getBatch zero w cfg fuel n s = some (.error e, s')) :
    ∃ xs s1, Draws w cfg fuel s xs s1 ∧ xs.length < n ∧ getNext w cfg fuel s1 = some (.raise e, s') ∧
      (∀ ms fuel', 0 < fuel' → (∀ m ∈ ms, 0 < m) → runBatches zero w cfg fuel' ms s' = some (List.replicate ms.length (.error e), s')) ∧
      ((∃ ms fuel' outs s'', (∀ m ∈ ms, 0 < m) ∧ 0 < fuel' ∧ runBatches zero w cfg fuel' ms s' = some (outs, s'') ∧
        xs.length ≤ (outs.flatMap delivered).length) ↔ xs = []) := by
  obtain ⟨xs, s1, hd, hl, hg, hagain⟩ := C12_failure_repeats_partial zero w cfg fuel n s s' e he hv hfl h
  have hrun : ∀ ms fuel', 0 < fuel' → (∀ m ∈ ms, 0 < m) →
      runBatches zero w cfg fuel' ms s' = some (List.replicate ms.length (.error e), s') := by
    intro ms fuel' hf
    induction ms with
    | nil => intro _; rfl
    | cons m ms ih =>
      intro hm
      have h1 := hagain m fuel' (hm m List.mem_cons_self) hf
      have h2 := ih (fun x hx => hm x (List.mem_cons_of_mem _ hx))
      simp only [runBatches, h1, h2, List.length_cons, List.replicate_succ]
  refine ⟨xs, s1, hd, hl, hg, hrun, ?_, ?_⟩
  · rintro ⟨ms, fuel', outs, s'', hm, hf, hr, hlen⟩
    rw [hrun ms fuel' hf hm] at hr
    simp only [Option.some.injEq, Prod.mk.injEq] at hr
    have : outs.flatMap delivered = [] := by
      rw [← hr.1, List.flatMap_eq_nil_iff]
      intro x hx
      rw [List.eq_of_mem_replicate hx]
      rfl
    rw [this] at hlen
    exact List.length_eq_zero_iff.mp (by simpa using hlen)
  · rintro rfl
    exact ⟨[], 1, [], s', by simp, by decide, rfl, by simp⟩

/-- The hypotheses are met, with one sample lost. -/
example : ∃ s', getBatch 0 Demo.world ⟨false, false⟩ 9 2 (init Demo.world ⟨false, false⟩ ["b", "f"] (.seed 0)) =
    some (.error .typeError, s') ∧ s'.fileList ≠ [] ∧
    ∃ s1, getNext Demo.world ⟨false, false⟩ 9 (init Demo.world ⟨false, false⟩ ["b", "f"] (.seed 0)) = some (.ret (Demo.sample "b" 3), s1) :=
  ⟨_, rfl, by decide, _, rfl⟩

end Verif.Base
