import Verif.Proofs.Stack
import Verif.Proofs.StackBase
import Verif.Props.Episodic
import Verif.Props.Sampler
/-!
# Properties C82, C83: prefetching under a sampler
-/

namespace Verif.Stack
open Verif Prefetch
variable {S B Key : Type}

/-! ## C82 -/

/-- The sampler's view of a plain scheduler and the prefetching scheduler's view of it match in all states that are
reached. -/
theorem plain_matches (sch : Sched S B) (n : Nat) (s0 : S)
    (hret : ∀ σ, PlainReached sch n s0 σ → (sch.getBatch n σ).isSome)
    (hstop : ∀ σ e σ', PlainReached sch n s0 σ → sch.getBatch n σ = some (.error e, σ') →
      e = .stopIteration ∧ sch.getBatch n σ' = some (.error .stopIteration, σ')) :
    Matches (plainSrc sch n) (Sampler.ofPlain sch) n (fun σ _ => PlainReached sch n s0 σ) where
  same σ t h := by
    obtain ⟨q, hq⟩ := Option.isSome_iff_exists.mp (hret _ h)
    simp [Sampler.ofPlain, plainSrc, hq]
  ok σ t b σ' h hb := by
    obtain ⟨q, hq⟩ := Option.isSome_iff_exists.mp (hret _ h)
    simp only [plainSrc, hq, Option.getD_some] at hb
    subst hb
    exact .getBatch h hq
  err σ t e σ' h hb := by
    obtain ⟨q, hq⟩ := Option.isSome_iff_exists.mp (hret _ h)
    simp only [plainSrc, hq, Option.getD_some] at hb
    subst hb
    obtain ⟨h1, h2⟩ := hstop _ _ _ h hq
    exact .inr ⟨h1, rfl, h2⟩
  atEnd σ t _ h := by simp [plainSrc] at h
  bound σ t L _ h := by simp [plainSrc] at h
  next σ t _ h := by simp [plainSrc] at h
  forget σ t b σ' _ h := by simp [plainSrc] at h

/-- C82 for plain schedulers whose only exception is a permanent `StopIteration`, under every interleaving of the two
threads in which no timeout strikes while the worker is alive: a history of `next()` and `reset()` on a sampler over the
prefetching scheduler shows what the same history shows on the same sampler over the scheduler itself, except that since
Python 3.12 the `done` flags, absent without prefetching, are all `False`. Before, `next_episode()` is included. Full resets are allowed if fetching does not influence where
`reset` leads. Missing: timeouts (C30, C32), other exceptions (C32), the flags and `next_episode` since Python 3.12 (`C82_refuted_done`),
resets of looping and shuffling schedulers (`C82_refuted_reset`). -/
theorem C82_buffering_invisible_partial {F O I : Type} (modern : Bool) (sch : Sched S (Sampler.FlowBatch F)) (g : Sampler.Gen F O I)
    (cfg : Sampler.Cfg) (pcfg : Prefetch.Cfg) (hb : pcfg.batchSize = cfg.ffpb) (s0 : S)
    (hret : ∀ σ, PlainReached sch cfg.ffpb s0 σ → (sch.getBatch cfg.ffpb σ).isSome)
    (hstop : ∀ σ e σ', PlainReached sch cfg.ffpb s0 σ → sch.getBatch cfg.ffpb σ = some (.error e, σ') →
      e = .stopIteration ∧ sch.getBatch cfg.ffpb σ' = some (.error .stopIteration, σ'))
    (calls : List (Sampler.ISched (Prefetch.St S (Sampler.FlowBatch F)) (Sampler.FlowBatch F) × Sampler.Op))
    (hreset : (∃ q ∈ calls, q.2 = .reset true) →
      ∀ σ r σ', sch.getBatch cfg.ffpb σ = some (r, σ') → sch.reset σ' = sch.reset σ)
    (hA : ∀ q ∈ calls, Meets modern (plainSrc sch cfg.ffpb) pcfg q.1) (hop : modern = true → ∀ q ∈ calls, q.2 ≠ .nextEpisode)
    (outs : List (Sampler.Out (Sampler.OutBatch O I))) (s : Sampler.St (Prefetch.St S (Sampler.FlowBatch F)) F O)
    (hr : runVia g cfg calls (Sampler.init cfg (Prefetch.init s0)) = some (outs, s)) :
    ∃ outs' s', Sampler.run (Sampler.ofPlain sch) g cfg (calls.map Prod.snd) (Sampler.init cfg s0) = some (outs', s') ∧
      outs = outs'.map (withDone (flags modern cfg.batchSize)) := by
  have hm := plain_matches sch cfg.ffpb s0 hret hstop
  have hL : (plainSrc sch cfg.ffpb).episodeLength = none := rfl
  have hres : (∃ q ∈ calls, q.2 = .reset true) → ∀ s r s', (plainSrc sch cfg.ffpb).getBatch s = (r, s') →
      (plainSrc sch cfg.ffpb).reset s' = (plainSrc sch cfg.ffpb).reset s := by
    intro hex s r s' h
    cases hg : sch.getBatch cfg.ffpb s with
    | none =>
      simp only [plainSrc, hg, Option.getD_none, Prod.mk.injEq] at h
      rw [h.2]
    | some q =>
      simp only [plainSrc, hg, Option.getD_some] at h
      subst h
      exact hreset hex _ _ _ hg
  clear hreset
  let G : S → Nat → Prop := fun σ _ => PlainReached sch cfg.ffpb s0 σ
  let R : Prefetch.St S (Sampler.FlowBatch F) → S → Prop := fun a σ =>
    Rel (plainSrc sch cfg.ffpb) (Sampler.ofPlain sch) cfg.ffpb G σ a.t a ∧ a.c = .idle ∧ PlainReached sch cfg.ffpb s0 σ
  have main : ∀ (calls : List (Sampler.ISched (Prefetch.St S (Sampler.FlowBatch F)) (Sampler.FlowBatch F) × Sampler.Op))
      (a : Sampler.St (Prefetch.St S (Sampler.FlowBatch F)) F O) (σ : S) outs s, R a.sched σ →
      ((∃ q ∈ calls, q.2 = .reset true) → ∀ s r s', (plainSrc sch cfg.ffpb).getBatch s = (r, s') →
        (plainSrc sch cfg.ffpb).reset s' = (plainSrc sch cfg.ffpb).reset s) →
      (∀ q ∈ calls, Meets modern (plainSrc sch cfg.ffpb) pcfg q.1) → (modern = true → ∀ q ∈ calls, q.2 ≠ .nextEpisode) →
      runVia g cfg calls a = some (outs, s) →
      ∃ outs' s', Sampler.run (Sampler.ofPlain sch) g cfg (calls.map Prod.snd) (a.over σ) = some (outs', s') ∧
        outs = outs'.map (withDone (flags modern cfg.batchSize)) := by
    intro calls
    induction calls with
    | nil =>
      intro a σ outs s _ _ _ _ hr
      simp only [runVia, Option.some.injEq, Prod.mk.injEq] at hr
      obtain ⟨rfl, rfl⟩ := hr
      exact ⟨[], _, rfl, rfl⟩
    | cons q calls ih =>
      intro a σ outs s hR hres hA hop hr
      obtain ⟨A, op⟩ := q
      have hAq := hA _ List.mem_cons_self
      simp only at hAq
      have hopq : modern = true → op ≠ .nextEpisode := fun hm => hop hm _ List.mem_cons_self
      have hover : ∀ s, Sampler.episodeOver A s = false := by
        cases modern with
        | false => simp [Sampler.episodeOver, hAq.plain rfl]
        | true =>
          obtain ⟨ne, hne, _⟩ := hAq.episodic rfl
          simp [Sampler.episodeOver, hne, stepsRemaining, hL]
      have hdone : ∀ n s, Sampler.makeDone A n s = flags modern n none := by
        cases modern with
        | false => simp [Sampler.makeDone, hAq.plain rfl, flags]
        | true =>
          obtain ⟨ne, hne, _⟩ := hAq.episodic rfl
          simp [Sampler.makeDone, hne, stepsRemaining, hL, flags]
      have stepped : ∀ o a', Sampler.step A g cfg a op = some (o, a') → returns A a.sched op = true →
          ∃ σ' o', Sampler.step (Sampler.ofPlain sch) g cfg (a.over σ) op = some (o', a'.over σ') ∧
            o = withDone (flags modern cfg.batchSize) o' ∧ R a'.sched σ' := by
        intro o a' hst hret'
        cases op with
        | nextEpisode =>
          cases modern with
          | true => exact absurd rfl (hopq rfl)
          | false =>
            simp only [Sampler.step, Sampler.nextEpisode, hAq.plain rfl, Option.some.injEq, Prod.mk.injEq] at hst
            obtain ⟨rfl, rfl⟩ := hst
            exact ⟨σ, _, rfl, rfl, hR⟩
        | next =>
          refine next_sim g cfg _ (fun _ => hR) ?_ ?_ ?_ hst
          · intro r s' hg
            obtain ⟨σ', h1, h2, h3, _⟩ := getCall_sim hm hb.symm hR.1 hR.2.1 (hAq.getBatch _ _ _ _ hg)
            exact ⟨σ', h1, h2, h3, .getBatch hR.2.2 (show sch.getBatch cfg.ffpb σ = some (r, σ') from h1)⟩
          · rw [hover]
            rfl
          · intro s σ _
            exact hdone _ _
        | reset full =>
          cases full with
          | false =>
            simp only [Sampler.step, Sampler.reset, Option.some.injEq, Prod.mk.injEq] at hst
            obtain ⟨rfl, rfl⟩ := hst
            exact ⟨σ, _, rfl, rfl, hR⟩
          | true =>
            simp only [returns] at hret'
            cases hra : A.reset a.sched with
            | error e => rw [hra] at hret'; simp at hret'
            | ok sc =>
              have hsc := resetCall_sim (hres ⟨_, List.mem_cons_self, rfl⟩) hL hR.1 (hAq.reset _ _ hra)
              have hra' : A.reset (Sampler.resetSelf cfg a).sched = .ok sc := hra
              simp only [Sampler.step, Sampler.reset, hra', Option.some.injEq, Prod.mk.injEq] at hst
              obtain ⟨rfl, rfl⟩ := hst
              refine ⟨sch.reset σ, .done, rfl, rfl, ?_⟩
              show R sc (sch.reset σ)
              rw [hsc]
              exact ⟨Rel.init (.reset hR.2.2), rfl, .reset hR.2.2⟩
      rw [runVia] at hr
      split at hr
      · rename_i hret'
        cases hst : Sampler.step A g cfg a op with
        | none => simp only [hst] at hr; simp at hr
        | some z =>
          obtain ⟨o, a'⟩ := z
          simp only [hst] at hr
          cases hrest : runVia g cfg calls a' with
          | none => rw [hrest] at hr; simp at hr
          | some z =>
            obtain ⟨os, s2⟩ := z
            rw [hrest] at hr
            simp only [Option.some.injEq, Prod.mk.injEq] at hr
            obtain ⟨rfl, rfl⟩ := hr
            obtain ⟨σ', o', h1, h2, h3⟩ := stepped o a' hst hret'
            obtain ⟨outs', s', h4, h5⟩ := ih a' σ' os s2 h3
              (fun hx => hres (by obtain ⟨q, hq, e⟩ := hx; exact ⟨q, List.mem_cons_of_mem _ hq, e⟩))
              (fun q hq => hA q (List.mem_cons_of_mem _ hq)) (fun hm q hq => hop hm q (List.mem_cons_of_mem _ hq)) hrest
            refine ⟨o' :: outs', s', ?_, ?_⟩
            · rw [List.map_cons, Sampler.run]
              simp only [h1, h4]
            · rw [List.map_cons, ← h2, ← h5]
      · simp at hr
  have h0 : R (Sampler.init (F := F) (O := O) cfg (Prefetch.init s0)).sched s0 := ⟨Rel.init .start, rfl, .start⟩
  exact main calls _ s0 outs s h0 hres hA hop hr

/-- What C82 needs of a base scheduler. -/
theorem base_plain {V D K B : Type} (post : Base.Batch V → B) (zero : V) (w : Base.World V D K) (bcfg : Base.Cfg)
    (hp : bcfg.randomize = true → Base.PermOK w) (fl : List String) (key : K) (c : String → List (Base.Sample V))
    (hy : ∀ p ∈ fl, Base.Yields w p (c p)) {fsh o1 o2 named} (hu : Base.Uniform (fl.flatMap c) fsh o1 o2 named)
    (hlive : bcfg.loop = true → ∃ p ∈ fl, c p ≠ []) (fuel : Nat) (hf : 2 * fl.length < fuel) {n : Nat} (hn : 0 < n) :
    (∀ σ, PlainReached (viewSched post zero w bcfg fuel) n (Base.init w bcfg fl key) σ →
      ((viewSched post zero w bcfg fuel).getBatch n σ).isSome) ∧
    (∀ σ e σ', PlainReached (viewSched post zero w bcfg fuel) n (Base.init w bcfg fl key) σ →
      (viewSched post zero w bcfg fuel).getBatch n σ = some (.error e, σ') →
      e = .stopIteration ∧ (viewSched post zero w bcfg fuel).getBatch n σ' = some (.error .stopIteration, σ')) ∧
    ((bcfg.loop = false ∨ bcfg.randomize = false) → ∀ σ r σ', (viewSched post zero w bcfg fuel).getBatch n σ = some (r, σ') →
      (viewSched post zero w bcfg fuel).reset σ' = (viewSched post zero w bcfg fuel).reset σ) := by
  have hinv : ∀ σ, PlainReached (viewSched post zero w bcfg fuel) n (Base.init w bcfg fl key) σ →
      Base.Inv w c σ ∧ σ.fileList.Perm fl := by
    intro σ h
    induction h with
    | start =>
      have hperm : (Base.init w bcfg fl key : Base.St D K).fileList.Perm fl := Base.shuffle_perm hp fl key
      exact ⟨Base.inv_fresh (fun p hp' => hy p (hperm.mem_iff.mp hp')), hperm⟩
    | reset _ ih => exact ⟨Base.inv_reset hp ih.1, (Base.shuffle_perm hp _ _).trans ih.2⟩
    | getBatch _ hg ih =>
      obtain ⟨r, s', h1, h2, h3, _⟩ := base_answers (zero := zero) hp hu hlive hn hf ih.1 ih.2
      simp only [viewSched, h1, Option.map_some, Option.some.injEq, Prod.mk.injEq] at hg
      rw [← hg.2]
      exact ⟨h2, h3⟩
  refine ⟨?_, ?_, ?_⟩
  · intro σ hσ
    obtain ⟨h1, h2⟩ := hinv σ hσ
    obtain ⟨r, s', h3, _⟩ := base_answers (zero := zero) hp hu hlive hn hf h1 h2
    simp [viewSched, h3]
  · intro σ e σ' hσ hg
    obtain ⟨h1, h2⟩ := hinv σ hσ
    obtain ⟨r, s', h3, _, _, h4⟩ := base_answers (zero := zero) hp hu hlive hn hf h1 h2
    simp only [viewSched, h3, Option.map_some, Option.some.injEq, Prod.mk.injEq] at hg
    obtain ⟨hr, rfl⟩ := hg
    cases r with
    | ok b => simp [Except.map] at hr
    | error x =>
      simp only [Except.map, Except.error.injEq] at hr
      subst hr
      obtain ⟨h5, h6⟩ := h4 x rfl
      exact ⟨h5, by simp [viewSched, h6, Except.map]⟩
  · intro hreset σ r σ' hg
    simp only [viewSched, Option.map_eq_some_iff, Prod.mk.injEq] at hg
    obtain ⟨q, hq, _, rfl⟩ := hg
    exact reset_after_getBatch hreset (r := q.1) (s' := q.2) hq

/-- C82 for the base schedulers (same restrictions): the hypotheses of `C82_buffering_invisible_partial` hold for every
file list whose readable files have one layout, if a looping scheduler has something to deliver and is not reset while it
shuffles. -/
theorem C82_base_schedulers_partial {V D K O I : Type} (modern : Bool) (zero : V) (w : Base.World V D K) (bcfg : Base.Cfg)
    (hp : bcfg.randomize = true → Base.PermOK w) (fl : List String) (key : K) (c : String → List (Base.Sample V))
    (hy : ∀ p ∈ fl, Base.Yields w p (c p)) {fsh o1 o2 named} (hu : Base.Uniform (fl.flatMap c) fsh o1 o2 named)
    (hlive : bcfg.loop = true → ∃ p ∈ fl, c p ≠ []) (fuel : Nat) (hf : 2 * fl.length < fuel)
    (g : Sampler.Gen (Arr V) O I) (cfg : Sampler.Cfg) (hn : 0 < cfg.ffpb) (pcfg : Prefetch.Cfg) (hb : pcfg.batchSize = cfg.ffpb)
    (calls : List (Sampler.ISched (Prefetch.St (Base.St D K) (Sampler.FlowBatch (Arr V))) (Sampler.FlowBatch (Arr V)) × Sampler.Op))
    (hreset : (∃ q ∈ calls, q.2 = .reset true) → bcfg.loop = false ∨ bcfg.randomize = false)
    (hA : ∀ q ∈ calls, Meets modern (plainSrc (flowSched zero w bcfg fuel) cfg.ffpb) pcfg q.1) (hop : modern = true → ∀ q ∈ calls, q.2 ≠ .nextEpisode)
    (outs : List (Sampler.Out (Sampler.OutBatch O I)))
    (s : Sampler.St (Prefetch.St (Base.St D K) (Sampler.FlowBatch (Arr V))) (Arr V) O)
    (hr : runVia g cfg calls (Sampler.init cfg (Prefetch.init (Base.init w bcfg fl key))) = some (outs, s)) :
    ∃ outs' s', Sampler.run (Sampler.ofPlain (flowSched zero w bcfg fuel)) g cfg (calls.map Prod.snd)
        (Sampler.init cfg (Base.init w bcfg fl key)) = some (outs', s') ∧
      outs = outs'.map (withDone (flags modern cfg.batchSize)) := by
  obtain ⟨h1, h2, h3⟩ := base_plain flowBatch zero w bcfg hp fl key c hy hu hlive fuel hf hn
  exact C82_buffering_invisible_partial modern (flowSched zero w bcfg fuel) g cfg pcfg hb _ h1 h2 calls (fun hex => h3 (hreset hex))
    hA hop outs s hr

/-- What a call showed: the flow values used for rendering, or the exception, and the flags. -/
def shown {O : Type} : Sampler.Out (Sampler.OutBatch O (List Nat)) → Except Exc (List (List Nat) × Option (List Bool))
  | .batch b => .ok (b.images, b.done)
  | .raised e => .error e
  | .done => .ok ([], none)

/-- A generator whose images are the flow fields. -/
def demoGen : Sampler.Gen (Arr Nat) Unit (List Nat) := ⟨fun f => ((), f), fun _ _ _ f => f.data⟩

/-- The worker fetches and delivers a batch. -/
def demoRound : List Action := [.check, .fetch, .put]

/-- The calls of the demonstration: the worker makes progress only while `next` waits, or only before, or meets the end. -/
def demoCalls (modern : Bool) (p : Src S B) (pcfg : Prefetch.Cfg) : List (Sampler.ISched (Prefetch.St S B) B × Sampler.Op) :=
  [(scripted modern p pcfg [] demoRound [] [], .next), (scripted modern p pcfg [] (demoRound ++ demoRound) [] [], .next),
   (scripted modern p pcfg [.check, .fetch] [] [] [], .next), (scripted modern p pcfg [.eosPut] [.eosStop] [] [], .next),
   (scripted modern p pcfg [] [] [] [], .next), (scripted modern p pcfg [] [] [] [], .reset true), (scripted modern p pcfg [] demoRound [] [], .next)]

theorem demo_meets (modern : Bool) (p : Src S B) (pcfg : Prefetch.Cfg) (w1 w2 w3 ds : List Action)
    (h : (w1 ++ w2 ++ w3).all (fun a => a.isWorker && decide (a ≠ .eosTimeout)) = true)
    (hd : ds.all (fun a => a.isWorker && decide (a ≠ .eosTimeout) || decide (a = .discard)) = true) :
    Meets modern p pcfg (scripted modern p pcfg w1 w2 w3 ds) := by
  have h' := List.all_eq_true.mp h
  refine scripted_meets modern p pcfg ?_ ?_ ?_ ?_
  · intro a ha
    have := h' a (by simp [ha])
    simpa using this
  · intro a ha
    have := h' a (by simp [ha])
    simpa using this
  · intro a ha
    have := h' a (by simp [ha])
    simpa using this
  · intro a ha
    have := List.all_eq_true.mp hd a ha
    simpa using this

theorem demoCalls_meet (modern : Bool) (p : Src S B) (pcfg : Prefetch.Cfg) : ∀ q ∈ demoCalls modern p pcfg, Meets modern p pcfg q.1 := by
  simp only [demoCalls, List.forall_mem_cons]
  exact ⟨demo_meets _ _ _ _ _ _ _ rfl rfl, demo_meets _ _ _ _ _ _ _ rfl rfl, demo_meets _ _ _ _ _ _ _ rfl rfl,
    demo_meets _ _ _ _ _ _ _ rfl rfl, demo_meets _ _ _ _ _ _ _ rfl rfl, demo_meets _ _ _ _ _ _ _ rfl rfl,
    demo_meets _ _ _ _ _ _ _ rfl rfl, by simp⟩

/-- The base scheduler of the demonstration. -/
def demoBase (loop randomize : Bool) : Sched (Base.St (List (Base.Sample Nat)) KeyTerm) (Sampler.FlowBatch (Arr Nat)) :=
  flowSched 0 Base.Demo.world ⟨loop, randomize⟩ 9

/-- Its initial state. -/
def demoInit (loop randomize : Bool) (fl : List String) : Base.St (List (Base.Sample Nat)) KeyTerm :=
  Base.init Base.Demo.world ⟨loop, randomize⟩ fl (.seed 0)

/-- The configuration of the sampler. -/
def demoCfg : Sampler.Cfg := ⟨1, 1, 1, 1, 0⟩

/-- The hypotheses of C82 are met by a list with an unreadable file: three batches, `StopIteration`, the last images
again (C35), and after a reset the first batch. -/
example : ∃ outs s outs' s',
    runVia demoGen demoCfg (demoCalls true (plainSrc (demoBase false false) 1) ⟨1, 2⟩)
      (Sampler.init demoCfg (Prefetch.init (demoInit false false ["a", "x", "b"]))) = some (outs, s) ∧
    outs.map shown = [.ok ([[1]], some [false]), .ok ([[2]], some [false]), .ok ([[3]], some [false]), .error .stopIteration,
      .ok ([[3]], some [false]), .ok ([], none), .ok ([[1]], some [false])] ∧
    Sampler.run (Sampler.ofPlain (demoBase false false)) demoGen demoCfg
      [.next, .next, .next, .next, .next, .reset true, .next]
      (Sampler.init demoCfg (demoInit false false ["a", "x", "b"])) = some (outs', s') ∧
    outs = outs'.map (withDone (fun _ => some [false])) := by
  have hv : (runVia demoGen demoCfg (demoCalls true (plainSrc (demoBase false false) 1) ⟨1, 2⟩)
      (Sampler.init demoCfg (Prefetch.init (demoInit false false ["a", "x", "b"])))).map
      (fun q => q.1.map shown) = some [.ok ([[1]], some [false]), .ok ([[2]], some [false]), .ok ([[3]], some [false]),
        .error .stopIteration, .ok ([[3]], some [false]), .ok ([], none), .ok ([[1]], some [false])] := rfl
  rw [Option.map_eq_some_iff] at hv
  obtain ⟨⟨outs, s⟩, h, hsh⟩ := hv
  obtain ⟨outs', s', h1, h2⟩ := C82_base_schedulers_partial true 0 Base.Demo.world ⟨false, false⟩ (fun h => by simp at h)
    ["a", "x", "b"] (.seed 0) Base.Demo.contents (fun p hp => Base.Demo.world_yields p (by rintro rfl; revert hp; decide))
    (Base.Demo.world_uniform _) (fun h => by simp at h) 9 (by decide) demoGen demoCfg (by decide) ⟨1, 2⟩ rfl _
    (fun _ => .inl rfl) (demoCalls_meet _ _ _) (fun _ => by simp [demoCalls]) outs s h
  exact ⟨outs, s, outs', s', h, hsh, h1, h2⟩

/-- C82 before Python 3.12: whatever the history, also with `next_episode()`, there is no difference at all. Missing as above:
timeouts, other exceptions, resets of looping and shuffling schedulers. -/
theorem C82_python311_partial {V D K O I : Type} (zero : V) (w : Base.World V D K) (bcfg : Base.Cfg)
    (hp : bcfg.randomize = true → Base.PermOK w) (fl : List String) (key : K) (c : String → List (Base.Sample V))
    (hy : ∀ p ∈ fl, Base.Yields w p (c p)) {fsh o1 o2 named} (hu : Base.Uniform (fl.flatMap c) fsh o1 o2 named)
    (hlive : bcfg.loop = true → ∃ p ∈ fl, c p ≠ []) (fuel : Nat) (hf : 2 * fl.length < fuel)
    (g : Sampler.Gen (Arr V) O I) (cfg : Sampler.Cfg) (hn : 0 < cfg.ffpb) (pcfg : Prefetch.Cfg) (hb : pcfg.batchSize = cfg.ffpb)
    (calls : List (Sampler.ISched (Prefetch.St (Base.St D K) (Sampler.FlowBatch (Arr V))) (Sampler.FlowBatch (Arr V)) × Sampler.Op))
    (hreset : (∃ q ∈ calls, q.2 = .reset true) → bcfg.loop = false ∨ bcfg.randomize = false)
    (hA : ∀ q ∈ calls, Meets false (plainSrc (flowSched zero w bcfg fuel) cfg.ffpb) pcfg q.1)
    (outs : List (Sampler.Out (Sampler.OutBatch O I)))
    (s : Sampler.St (Prefetch.St (Base.St D K) (Sampler.FlowBatch (Arr V))) (Arr V) O)
    (hr : runVia g cfg calls (Sampler.init cfg (Prefetch.init (Base.init w bcfg fl key))) = some (outs, s)) :
    ∃ s', Sampler.run (Sampler.ofPlain (flowSched zero w bcfg fuel)) g cfg (calls.map Prod.snd)
        (Sampler.init cfg (Base.init w bcfg fl key)) = some (outs, s') := by
  obtain ⟨outs', s', h1, h2⟩ := C82_base_schedulers_partial false zero w bcfg hp fl key c hy hu hlive fuel hf g cfg hn pcfg hb calls
    hreset hA (fun h => by cases h) outs s hr
  have hid : (withDone (flags false cfg.batchSize) : Sampler.Out (Sampler.OutBatch O I) → _) = id := by
    funext o
    cases o <;> rfl
  rw [hid, List.map_id] at h2
  exact ⟨s', h2 ▸ h1⟩

/-- Its hypotheses are met by the same calls, followed by `next_episode()`. -/
example : ∃ outs s s',
    runVia demoGen demoCfg (demoCalls false (plainSrc (demoBase false false) 1) ⟨1, 2⟩ ++
        [(scripted false (plainSrc (demoBase false false) 1) ⟨1, 2⟩ [] [] [] [], .nextEpisode)])
      (Sampler.init demoCfg (Prefetch.init (demoInit false false ["a", "x", "b"]))) = some (outs, s) ∧
    outs.map shown = [.ok ([[1]], none), .ok ([[2]], none), .ok ([[3]], none), .error .stopIteration,
      .ok ([[3]], none), .ok ([], none), .ok ([[1]], none), .error .attributeError] ∧
    Sampler.run (Sampler.ofPlain (demoBase false false)) demoGen demoCfg
      [.next, .next, .next, .next, .next, .reset true, .next, .nextEpisode]
      (Sampler.init demoCfg (demoInit false false ["a", "x", "b"])) = some (outs, s') := by
  have hv : (runVia demoGen demoCfg (demoCalls false (plainSrc (demoBase false false) 1) ⟨1, 2⟩ ++
        [(scripted false (plainSrc (demoBase false false) 1) ⟨1, 2⟩ [] [] [] [], .nextEpisode)])
      (Sampler.init demoCfg (Prefetch.init (demoInit false false ["a", "x", "b"])))).map
      (fun q => q.1.map shown) = some [.ok ([[1]], none), .ok ([[2]], none), .ok ([[3]], none), .error .stopIteration,
      .ok ([[3]], none), .ok ([], none), .ok ([[1]], none), .error .attributeError] := rfl
  rw [Option.map_eq_some_iff] at hv
  obtain ⟨⟨outs, s⟩, h, hsh⟩ := hv
  obtain ⟨s', h1⟩ := C82_python311_partial 0 Base.Demo.world ⟨false, false⟩ (fun h => by simp at h)
    ["a", "x", "b"] (.seed 0) Base.Demo.contents (fun p hp => Base.Demo.world_yields p (by rintro rfl; revert hp; decide))
    (Base.Demo.world_uniform _) (fun h => by simp at h) 9 (by decide) demoGen demoCfg (by decide) ⟨1, 2⟩ rfl _
    (fun _ => .inl rfl) (fun q hq => by
      rcases List.mem_append.mp hq with h | h
      · exact demoCalls_meet _ _ _ q h
      · rw [List.mem_singleton.mp h]
        exact demo_meets false _ _ [] [] [] [] rfl rfl) outs s h
  exact ⟨outs, s, s', h, hsh, h1⟩

/-- The full C82 is false since Python 3.12: over a plain scheduler the prefetching scheduler turns the missing `done` flags into flags that
are all `False`, and `next_episode()`, which raises without it, does nothing. -/
theorem C82_refuted_done :
    let p := plainSrc (demoBase false false) 1
    let calls := [(scripted true p ⟨1, 1⟩ [] demoRound [] [], Sampler.Op.next), (scripted true p ⟨1, 1⟩ [] [] [] [], .nextEpisode)]
    (∀ q ∈ calls, Meets true p ⟨1, 1⟩ q.1) ∧
    (runVia demoGen demoCfg calls (Sampler.init demoCfg (Prefetch.init (demoInit false false ["a"])))).map
      (fun q => q.1.map shown) = some [.ok ([[1]], some [false]), .ok ([], none)] ∧
    (Sampler.run (Sampler.ofPlain (demoBase false false)) demoGen demoCfg (calls.map Prod.snd)
      (Sampler.init demoCfg (demoInit false false ["a"]))).map
      (fun q => q.1.map shown) = some [.ok ([[1]], none), .error .attributeError] := by
  refine ⟨?_, rfl, rfl⟩
  simp only [List.forall_mem_cons]
  exact ⟨demo_meets _ _ _ _ _ _ _ rfl rfl, demo_meets _ _ _ _ _ _ _ rfl rfl, by simp⟩

/-- The full C82 is also false for full resets of a looping and shuffling scheduler: which order follows depends on
whether the worker had already wrapped around, that is, on the timing of the threads. -/
theorem C82_refuted_reset :
    let p := plainSrc (demoBase true true) 1
    let calls := fun w => [(scripted true p ⟨1, 4⟩ [] demoRound [] [], Sampler.Op.next), (scripted true p ⟨1, 4⟩ w [.check] [] [], .reset true),
      (scripted true p ⟨1, 4⟩ [] demoRound [] [], .next)]
    let ahead := demoRound ++ demoRound ++ demoRound
    (∀ q ∈ calls [] ++ calls ahead, Meets true p ⟨1, 4⟩ q.1) ∧
    (runVia demoGen demoCfg (calls []) (Sampler.init demoCfg (Prefetch.init (demoInit true true ["a", "b"])))).map
      (fun q => q.1.map shown) = some [.ok ([[3]], some [false]), .ok ([], none), .ok ([[1]], some [false])] ∧
    (runVia demoGen demoCfg (calls ahead) (Sampler.init demoCfg (Prefetch.init (demoInit true true ["a", "b"])))).map
      (fun q => q.1.map shown) = some [.ok ([[3]], some [false]), .ok ([], none), .ok ([[3]], some [false])] := by
  refine ⟨?_, rfl, rfl⟩
  simp only [List.cons_append, List.nil_append, List.forall_mem_cons]
  exact ⟨demo_meets _ _ _ _ _ _ _ rfl rfl, demo_meets _ _ _ _ _ _ _ rfl rfl, demo_meets _ _ _ _ _ _ _ rfl rfl,
    demo_meets _ _ _ _ _ _ _ rfl rfl, demo_meets _ _ _ _ _ _ _ rfl rfl, demo_meets _ _ _ _ _ _ _ rfl rfl, by simp⟩

/-! ## C83 -/

theorem reached_snoc {sch : Sched S B} {rng : Episodic.Rng Key} {ecfg : Episodic.Cfg} {e0 e e' : Episodic.St S Key} {op o}
    (h : Reached sch rng ecfg e0 e) (hs : Episodic.step sch rng ecfg e op = some (o, e')) (hop : op ≠ .iter) :
    Reached sch rng ecfg e0 e' := by
  obtain ⟨ops, outs, hr, hi⟩ := h
  refine ⟨ops ++ [op], outs ++ [o], ?_, by simp [hi, Ne.symm hop]⟩
  clear hi
  induction ops generalizing e0 outs with
  | nil =>
    simp only [Episodic.run, Option.some.injEq, Prod.mk.injEq] at hr
    obtain ⟨rfl, rfl⟩ := hr
    simp [Episodic.run, hs]
  | cons x ops ih =>
    unfold Episodic.run at hr
    cases hx : Episodic.step sch rng ecfg e0 x with
    | none => rw [hx] at hr; simp at hr
    | some z =>
      obtain ⟨o1, e1⟩ := z
      rw [hx] at hr
      simp only at hr
      cases hy : Episodic.run sch rng ecfg ops e1 with
      | none => rw [hy] at hr; simp at hr
      | some z =>
        obtain ⟨os, e2⟩ := z
        rw [hy] at hr
        simp only [Option.some.injEq, Prod.mk.injEq] at hr
        obtain ⟨rfl, rfl⟩ := hr
        have := ih os hy
        rw [List.cons_append, Episodic.run, hx]
        simp only [this, List.cons_append]

/-- The sampler's view of an episodic scheduler and the prefetching scheduler's view of it match in all states that are
reached. -/
theorem episodic_matches (sch : Sched S B) (rng : Episodic.Rng Key) (ecfg : Episodic.Cfg) (e0 : Episodic.St S Key)
    (hne : ecfg.starts ≠ [])
    (hfine : ∀ e, Reached sch rng ecfg e0 e → e.t < ecfg.episodeLength →
      ∃ b s', sch.getBatch ecfg.batchSize e.inner = some (.ok b, s'))
    (hforget : ∀ s r s' l, sch.getBatch ecfg.batchSize s = some (r, s') →
      sch.reset (sch.setFileList l s') = sch.reset (sch.setFileList l s)) :
    Matches (episodicSrc sch rng ecfg) (Sampler.ofEpisodic sch rng ecfg) ecfg.batchSize
      (fun e t => e.t = t ∧ t ≤ ecfg.episodeLength ∧ Reached sch rng ecfg e0 e) := by
  have hse : ecfg.starts.isEmpty = false := by simpa using hne
  have hget : ∀ e, Reached sch rng ecfg e0 e → e.t ≤ ecfg.episodeLength →
      (∃ b e', e.t < ecfg.episodeLength ∧ Episodic.getBatch sch ecfg ecfg.batchSize e = some (.ok b, e') ∧
        e'.t = e.t + 1 ∧ e'.key = e.key ∧ ∀ l, sch.reset (sch.setFileList l e'.inner) = sch.reset (sch.setFileList l e.inner)) ∨
      (e.t = ecfg.episodeLength ∧ Episodic.getBatch sch ecfg ecfg.batchSize e = some (.error .episodeEnd, e)) := by
    intro e hr hle
    by_cases ht : ecfg.episodeLength ≤ e.t
    · right
      exact ⟨by omega, by simp [Episodic.getBatch, ht]⟩
    · left
      obtain ⟨b, s', hb⟩ := hfine e hr (by omega)
      exact ⟨b, { e with t := e.t + 1, inner := s' }, by omega, by simp only [Episodic.getBatch, ne_eq, not_true_eq_false, if_false, ht, hb], rfl, rfl,
        fun l => hforget _ _ _ l hb⟩
  have hnext : ∀ e, ∃ e', Episodic.nextEpisode sch rng ecfg e = .ok e' ∧ e'.t = 0 := by
    intro e
    simp only [Episodic.nextEpisode, Episodic.sample, hse]
    exact ⟨_, rfl, rfl⟩
  constructor
  · rintro e t ⟨rfl, hle, hr⟩
    rcases hget e hr hle with ⟨b, e', _, h, _⟩ | ⟨_, h⟩ <;> simp [Sampler.ofEpisodic, episodicSrc, h]
  · rintro e t b e1 ⟨rfl, hle, hr⟩ hb
    rcases hget e hr hle with ⟨b', e', hlt, h, h1, h2⟩ | ⟨_, h⟩
    · simp only [episodicSrc, h, Option.getD_some, Prod.mk.injEq, Except.ok.injEq] at hb
      obtain ⟨rfl, rfl⟩ := hb
      refine ⟨h1, by omega, reached_snoc (op := .getBatch ecfg.batchSize) hr (o := .batch b') ?_ (by simp)⟩
      simp [Episodic.step, h]
    · simp [episodicSrc, h] at hb
  · rintro e t x e1 ⟨rfl, hle, hr⟩ hb
    rcases hget e hr hle with ⟨b', e', hlt, h, h1, h2⟩ | ⟨he, h⟩
    · simp [episodicSrc, h] at hb
    · simp only [episodicSrc, h, Option.getD_some, Prod.mk.injEq, Except.error.injEq] at hb
      exact .inl ⟨hb.1.symm, by simp [episodicSrc, he], hb.2.symm⟩
  · rintro e t ⟨rfl, hle, hr⟩ hL
    simp only [episodicSrc, Option.some.injEq] at hL
    rcases hget e hr hle with ⟨b', e', hlt, h, h1, h2⟩ | ⟨he, h⟩
    · omega
    · simp [episodicSrc, h]
  · rintro e t L ⟨rfl, hle, hr⟩ hL
    simp only [episodicSrc, Option.some.injEq] at hL
    omega
  · rintro e t ⟨rfl, hle, hr⟩ _
    obtain ⟨e', h1, h2⟩ := hnext e
    simp only [episodicSrc, h1]
    refine ⟨h2, by omega, reached_snoc (op := .restart) hr (o := .done) ?_ (by simp)⟩
    simp [Episodic.step, h1]
  · rintro e t b e1 ⟨rfl, hle, hr⟩ _ hb
    rcases hget e hr hle with ⟨b', e', hlt, h, h1, h2, h3⟩ | ⟨_, h⟩
    · simp only [episodicSrc, h, Option.getD_some, Prod.mk.injEq, Except.ok.injEq] at hb
      obtain ⟨rfl, rfl⟩ := hb
      simp only [episodicSrc, Episodic.nextEpisode, Episodic.sample, hse, h2, h3]
      rfl
    · simp [episodicSrc, h] at hb

/-- C83 under every interleaving of the two threads in which no timeout strikes while the worker is alive: with an episodic
scheduler that can fill its episodes and whose wrapped scheduler forgets its position when new files are set and `reset`
is called, a history of `next()`, `next_episode()` and `reset(scheduler_reset=False)` beginning with `next()` shows on a
sampler over the prefetching scheduler exactly what it shows on the same sampler over the episodic scheduler: the same
batches, with the same `done` flags, and the same `EpisodeEnd`s. Missing: `next_episode()` before the first batch
(`C83_refuted_first`), full resets (`C83_refuted_reset`) and timeouts (C30, C32). -/
theorem C83_buffered_episodes_partial {F O I : Type} (modern : Bool) (sch : Sched S (Sampler.FlowBatch F)) (rng : Episodic.Rng Key)
    (ecfg : Episodic.Cfg) (g : Sampler.Gen F O I) (cfg : Sampler.Cfg) (pcfg : Prefetch.Cfg)
    (hb : pcfg.batchSize = cfg.ffpb) (hb' : ecfg.batchSize = cfg.ffpb) (e0 : Episodic.St S Key) (h0 : e0.t = 0)
    (hL : 0 < ecfg.episodeLength) (hne : ecfg.starts ≠ [])
    (hfine : ∀ e, Reached sch rng ecfg e0 e → e.t < ecfg.episodeLength →
      ∃ b s', sch.getBatch ecfg.batchSize e.inner = some (.ok b, s'))
    (hforget : ∀ s r s' l, sch.getBatch ecfg.batchSize s = some (r, s') →
      sch.reset (sch.setFileList l s') = sch.reset (sch.setFileList l s))
    (A0 : Sampler.ISched (Prefetch.St (Episodic.St S Key) (Sampler.FlowBatch F)) (Sampler.FlowBatch F))
    (calls : List (Sampler.ISched (Prefetch.St (Episodic.St S Key) (Sampler.FlowBatch F)) (Sampler.FlowBatch F) × Sampler.Op))
    (hA : ∀ q ∈ (A0, .next) :: calls, Meets modern (episodicSrc sch rng ecfg) pcfg q.1) (hop : ∀ q ∈ calls, q.2 ≠ .reset true)
    (outs : List (Sampler.Out (Sampler.OutBatch O I)))
    (s : Sampler.St (Prefetch.St (Episodic.St S Key) (Sampler.FlowBatch F)) F O)
    (hr : runVia g cfg ((A0, .next) :: calls) (Sampler.init cfg (Prefetch.init e0)) = some (outs, s)) :
    ∃ s', Sampler.run (Sampler.ofEpisodic sch rng ecfg) g cfg (.next :: calls.map Prod.snd) (Sampler.init cfg e0) =
      some (outs, s') := by
  have hm := episodic_matches sch rng ecfg e0 hne hfine hforget
  have hpL : (episodicSrc sch rng ecfg).episodeLength = some ecfg.episodeLength := rfl
  have hse : ecfg.starts.isEmpty = false := by simpa using hne
  have hwd : ∀ o : Sampler.Out (Sampler.OutBatch O I), withDone id o = o := by intro o; cases o <;> rfl
  let G : Episodic.St S Key → Nat → Prop := fun e t => e.t = t ∧ t ≤ ecfg.episodeLength ∧ Reached sch rng ecfg e0 e
  let R0 : Prefetch.St (Episodic.St S Key) (Sampler.FlowBatch F) → Episodic.St S Key → Prop := fun a e =>
    Rel (episodicSrc sch rng ecfg) (Sampler.ofEpisodic sch rng ecfg) ecfg.batchSize G e a.t a ∧ a.c = .idle
  let R : Prefetch.St (Episodic.St S Key) (Sampler.FlowBatch F) → Episodic.St S Key → Prop := fun a e => R0 a e ∧ a.started = true
  have hsteps : ∀ a e, R0 a e → stepsRemaining (episodicSrc sch rng ecfg) a = Episodic.stepsRemaining ecfg e := by
    intro a e h
    have hg := (h.1.good (by rw [hpL]; rfl)).1
    simp [stepsRemaining, hpL, Episodic.stepsRemaining, hg]
  have nextStep : ∀ (A : Sampler.ISched (Prefetch.St (Episodic.St S Key) (Sampler.FlowBatch F)) (Sampler.FlowBatch F))
      (a : Sampler.St (Prefetch.St (Episodic.St S Key) (Sampler.FlowBatch F)) F O) e o a',
      Meets modern (episodicSrc sch rng ecfg) pcfg A → R0 a.sched e →
      (a.cur.isSome ∨ Sampler.episodeOver A a.sched = true → R a.sched e) →
      Sampler.step A g cfg a .next = some (o, a') →
      ∃ e', Sampler.step (Sampler.ofEpisodic sch rng ecfg) g cfg (a.over e) .next = some (o, a'.over e') ∧ R a'.sched e' := by
    intro A a e o a' hAq hR hkeep hst
    obtain ⟨ne, hne', _⟩ := hAq.episodic (by simp [seenEpisodic, hpL])
    have := next_sim (D := Sampler.ofEpisodic sch rng ecfg) (R := R) g cfg id (σ := e) hkeep ?_ ?_ ?_ hst
    · obtain ⟨e', o', h1, h2, h3⟩ := this
      rw [hwd] at h2
      subst h2
      exact ⟨e', h1, h3⟩
    · intro r s' hg
      rw [← hb'] at hg ⊢
      obtain ⟨σ', h1, h2, h3, h4⟩ := getCall_sim hm (hb'.trans hb.symm) hR.1 hR.2 (hAq.getBatch _ _ _ _ hg)
      exact ⟨σ', h1, ⟨h2, h3⟩, h4⟩
    · simp only [Sampler.episodeOver, hne', Sampler.ofEpisodic, hsteps _ _ hR]
    · intro s σ h
      simp only [Sampler.makeDone, hne', Sampler.ofEpisodic, hsteps _ _ h.1, Option.map_some, id]
  have main : ∀ (calls : List (Sampler.ISched (Prefetch.St (Episodic.St S Key) (Sampler.FlowBatch F)) (Sampler.FlowBatch F) × Sampler.Op))
      (a : Sampler.St (Prefetch.St (Episodic.St S Key) (Sampler.FlowBatch F)) F O) e outs s, R a.sched e →
      (∀ q ∈ calls, Meets modern (episodicSrc sch rng ecfg) pcfg q.1) → (∀ q ∈ calls, q.2 ≠ .reset true) →
      runVia g cfg calls a = some (outs, s) →
      ∃ s', Sampler.run (Sampler.ofEpisodic sch rng ecfg) g cfg (calls.map Prod.snd) (a.over e) = some (outs, s') := by
    intro calls
    induction calls with
    | nil =>
      intro a e outs s _ _ _ hr
      simp only [runVia, Option.some.injEq, Prod.mk.injEq] at hr
      obtain ⟨rfl, rfl⟩ := hr
      exact ⟨_, rfl⟩
    | cons q calls ih =>
      intro a e outs s hR hA hop hr
      obtain ⟨A, op⟩ := q
      have hAq := hA _ List.mem_cons_self
      have hopq := hop _ List.mem_cons_self
      simp only at hAq hopq
      have stepped : ∀ o a', Sampler.step A g cfg a op = some (o, a') → returns A a.sched op = true →
          ∃ e', Sampler.step (Sampler.ofEpisodic sch rng ecfg) g cfg (a.over e) op = some (o, a'.over e') ∧ R a'.sched e' := by
        intro o a' hst hret'
        cases op with
        | next => exact nextStep A a e o a' hAq hR.1 (fun _ => hR) hst
        | nextEpisode =>
          obtain ⟨ne, hne', hnc⟩ := hAq.episodic (by simp [seenEpisodic, hpL])
          simp only [returns, hne'] at hret'
          cases hra : ne a.sched with
          | error x => rw [hra] at hret'; simp at hret'
          | ok sc =>
            obtain ⟨h1, h2, h3⟩ := nextCall_sim hm hpL hL hR.1.1 hR.1.2 hR.2 (hnc _ _ hra)
            simp only [Sampler.step, Sampler.nextEpisode, hne', hra, Option.some.injEq, Prod.mk.injEq] at hst
            obtain ⟨rfl, rfl⟩ := hst
            refine ⟨_, ?_, ⟨h1, h2⟩, h3⟩
            simp only [Sampler.step, Sampler.nextEpisode, Sampler.ofEpisodic, Sampler.St.over, episodicSrc,
              Episodic.nextEpisode, Episodic.sample, hse]
            rfl
        | reset full =>
          cases full with
          | true => exact absurd rfl hopq
          | false =>
            simp only [Sampler.step, Sampler.reset, Option.some.injEq, Prod.mk.injEq] at hst
            obtain ⟨rfl, rfl⟩ := hst
            exact ⟨e, rfl, hR⟩
      rw [runVia] at hr
      split at hr
      · rename_i hret'
        cases hst : Sampler.step A g cfg a op with
        | none => simp only [hst] at hr; simp at hr
        | some z =>
          obtain ⟨o, a'⟩ := z
          simp only [hst] at hr
          cases hrest : runVia g cfg calls a' with
          | none => rw [hrest] at hr; simp at hr
          | some z =>
            obtain ⟨os, s2⟩ := z
            rw [hrest] at hr
            simp only [Option.some.injEq, Prod.mk.injEq] at hr
            obtain ⟨rfl, rfl⟩ := hr
            obtain ⟨e', h1, h3⟩ := stepped o a' hst hret'
            obtain ⟨s', h4⟩ := ih a' e' os s2 h3 (fun q hq => hA q (List.mem_cons_of_mem _ hq))
              (fun q hq => hop q (List.mem_cons_of_mem _ hq)) hrest
            refine ⟨s', ?_⟩
            rw [List.map_cons, Sampler.run]
            simp only [h1, h4]
      · simp at hr
  have hR0 : R0 (Sampler.init (F := F) (O := O) cfg (Prefetch.init e0)).sched e0 :=
    ⟨Rel.init ⟨h0, Nat.zero_le _, [], [], rfl, by simp⟩, rfl⟩
  have hover : Sampler.episodeOver A0 (Sampler.init (F := F) (O := O) cfg (Prefetch.init e0 (B := Sampler.FlowBatch F))).sched = false := by
    have hA0 : Meets modern (episodicSrc sch rng ecfg) pcfg A0 := hA _ List.mem_cons_self
    obtain ⟨ne, hne', _⟩ := hA0.episodic (by simp [seenEpisodic, hpL])
    simp only [Sampler.episodeOver, hne', hsteps _ _ hR0, Episodic.stepsRemaining, h0]
    simp
    omega
  rw [runVia] at hr
  simp only [returns, if_true] at hr
  cases hst : Sampler.step A0 g cfg (Sampler.init cfg (Prefetch.init e0)) .next with
  | none => simp only [hst] at hr; simp at hr
  | some z =>
    obtain ⟨o, a'⟩ := z
    simp only [hst] at hr
    cases hrest : runVia g cfg calls a' with
    | none => rw [hrest] at hr; simp at hr
    | some z =>
      obtain ⟨os, s2⟩ := z
      rw [hrest] at hr
      simp only [Option.some.injEq, Prod.mk.injEq] at hr
      obtain ⟨rfl, rfl⟩ := hr
      obtain ⟨e', h1, h3⟩ := nextStep A0 _ e0 o a' (hA _ List.mem_cons_self) hR0 (by
        rintro (h | h)
        · simp [Sampler.init] at h
        · rw [hover] at h; simp at h) hst
      obtain ⟨s', h4⟩ := main calls a' e' os s2 h3 (fun q hq => hA q (List.mem_cons_of_mem _ hq)) hop hrest
      refine ⟨s', ?_⟩
      have h1' : Sampler.step (Sampler.ofEpisodic sch rng ecfg) g cfg (Sampler.init cfg e0) .next = some (o, a'.over e') := h1
      rw [Sampler.run]
      simp only [h1', h4]

/-- What C83 needs of an episodic scheduler over a base scheduler. -/
theorem base_episodes {V D K B : Type} (post : Base.Batch V → B) (zero : V) (w : Base.World V D K) (bcfg : Base.Cfg)
    (hrand : bcfg.randomize = false) (fuel : Nat) (rng : Episodic.Rng Key) (hc : Episodic.ChoiceOK rng) (os : LeafDirs.OS)
    (glob : String → List String) (bs el : Option Int) (inner : Base.St D K) (key : Key) (ecfg : Episodic.Cfg)
    (e0 : Episodic.St (Base.St D K) Key)
    (h : Episodic.init (viewSched post zero w bcfg fuel) rng os glob bs el inner key = .ok (ecfg, e0))
    (dirs : List String) (hd : LeafDirs.discover os false inner.fileList = .ok dirs)
    (frame : String → Base.Sample V) (hy : ∀ d ∈ dirs, ∀ p ∈ glob d, Base.Yields w p [frame p])
    {fsh o1 o2 named} (hu : Base.Uniform ((dirs.flatMap glob).map frame) fsh o1 o2 named)
    (hf : ecfg.episodeLength * ecfg.batchSize ≤ fuel)
    (hchain : ∀ e, Reached (viewSched post zero w bcfg fuel) rng ecfg e0 e → List.IsChain (· ≠ ·) e.inner.fileList) :
    e0.t = 0 ∧ 0 < ecfg.episodeLength ∧ ecfg.starts ≠ [] ∧
    (∀ e, Reached (viewSched post zero w bcfg fuel) rng ecfg e0 e → e.t < ecfg.episodeLength →
      ∃ b s', (viewSched post zero w bcfg fuel).getBatch ecfg.batchSize e.inner = some (.ok b, s')) ∧
    (∀ s r s' l, (viewSched post zero w bcfg fuel).getBatch ecfg.batchSize s = some (r, s') →
      (viewSched post zero w bcfg fuel).reset ((viewSched post zero w bcfg fuel).setFileList l s') =
        (viewSched post zero w bcfg fuel).reset ((viewSched post zero w bcfg fuel).setFileList l s)) := by
  obtain ⟨dirs', hd', ok, _, _, hs⟩ := Episodic.init_ok h
  have : dirs' = dirs := by
    have hx : LeafDirs.discover os false inner.fileList = .ok dirs' := hd'
    rw [hd] at hx; simpa using hx.symm
  subst this
  let c : String → List (Base.Sample V) := fun p => [frame p]
  let J : Episodic.St (Base.St D K) Key → Prop := fun e => ∃ xs : List (Base.Sample V),
    xs.length = ecfg.episodeLength * ecfg.batchSize ∧ Base.Uniform xs fsh o1 o2 named ∧ Base.Inv w c e.inner ∧
    e.inner.fileList.length = ecfg.episodeLength * ecfg.batchSize ∧
    e.t ≤ ecfg.episodeLength ∧ Base.rem c e.inner = xs.drop (e.t * ecfg.batchSize)
  have fresh : ∀ a b, Episodic.sample (viewSched post zero w bcfg fuel) rng ecfg a = .ok b →
      List.IsChain (· ≠ ·) b.inner.fileList → J { b with t := 0 } := by
    intro a b hab hch
    obtain ⟨eps, h1, h2, h3⟩ := Episodic.sample_spec ok (viewSched post zero w bcfg fuel) rng hc a
    rw [h3] at hab
    simp only [Except.ok.injEq] at hab
    have hfl : b.inner.fileList = Episodic.interleave ecfg.episodeLength ecfg.batchSize eps := by
      rw [← hab]; simp [viewSched, Base.reset, Base.shuffle, hrand]
    have hix : b.inner.index = 0 := by rw [← hab]; rfl
    have hca : b.inner.cached = none := by rw [← hab]; rfl
    have hmem : ∀ p ∈ b.inner.fileList, ∃ d ∈ dirs', p ∈ glob d := by
      intro p hp
      rw [hfl, Episodic.interleave, List.mem_flatMap] at hp
      obtain ⟨t, htm, hp⟩ := hp
      obtain ⟨i, him, rfl⟩ := List.mem_map.mp hp
      rw [List.mem_range] at htm him
      rw [← h1] at him
      obtain ⟨hl, d, hdm, listing, hpm, _, hinf⟩ := h2 eps[i] (List.getElem_mem him)
      refine ⟨d, hdm, hpm.mem_iff.mp (hinf.subset ?_)⟩
      have hg : eps.getD i [] = eps[i] := by simp [List.getD_eq_getElem?_getD, List.getElem?_eq_getElem him]
      rw [hg, List.getD_eq_getElem?_getD, List.getElem?_eq_getElem (by omega), Option.getD_some]
      exact List.getElem_mem _
    refine ⟨b.inner.fileList.map frame, by rw [List.length_map, hfl, Episodic.interleave_length], ?_, ?_,
      by rw [hfl, Episodic.interleave_length], Nat.zero_le _, ?_⟩
    · refine Base.uniform_sub hu fun x hx => ?_
      obtain ⟨p, hp, rfl⟩ := List.mem_map.mp hx
      obtain ⟨d, hdm, hpm⟩ := hmem p hp
      exact List.mem_map.mpr ⟨p, List.mem_flatMap.mpr ⟨d, hdm, hpm⟩, rfl⟩
    · refine ⟨fun p hp => ?_, fun q d hq => by
        have hq' : b.inner.cached = some (q, d) := hq
        rw [hca] at hq'; simp at hq'⟩
      obtain ⟨d, hdm, hpm⟩ := hmem p hp
      exact hy d hdm p hpm
    · show Base.rem c b.inner = _
      rw [Base.rem_fresh _ hca hix, Base.streamAfter_none, Base.dropRepeats_eq_self _ hch]
      simp only [Nat.zero_mul, List.drop_zero]
      exact Episodic.flatMap_single c frame _ (fun _ _ => rfl)
  have fine : ∀ e, J e → e.t < ecfg.episodeLength → ∃ b s', (viewSched post zero w bcfg fuel).getBatch ecfg.batchSize e.inner = some (.ok b, s') ∧
      J { e with t := e.t + 1, inner := s' } := by
    rintro e ⟨xs, hl, hux, hi, hfl, hle, hrem⟩ hlt
    have hB : (e.t + 1) * ecfg.batchSize ≤ ecfg.episodeLength * ecfg.batchSize := Nat.mul_le_mul_right _ (by omega)
    have hB' : (e.t + 1) * ecfg.batchSize = e.t * ecfg.batchSize + ecfg.batchSize := by rw [Nat.add_mul, Nat.one_mul]
    have hn : ecfg.batchSize ≤ (Base.rem c e.inner).length := by rw [hrem, List.length_drop]; omega
    obtain ⟨s', g1, g2, g3, g4⟩ := Episodic.getBatch_within (cfg := bcfg) zero ok.pos hi hn
    have hlt' : ((Base.rem c e.inner).take ecfg.batchSize).length = ecfg.batchSize := by rw [List.length_take]; omega
    have hne : (Base.rem c e.inner).take ecfg.batchSize ≠ [] := by
      intro h0; rw [h0] at hlt'; simp at hlt'; have := ok.pos; omega
    obtain ⟨b, hb, _, _⟩ := Base.assemble_uniform zero bcfg (n := ecfg.batchSize) hne (by omega) (fun _ => hlt')
      (Base.uniform_sub hux (fun x hx => by rw [hrem] at hx; exact List.mem_of_mem_drop (List.mem_of_mem_take hx)))
    refine ⟨post b, s', ?_, xs, hl, hux, g1, by rw [g3]; exact hfl, hlt, ?_⟩
    · simp [viewSched, g4 fuel (by omega), hb, Except.map]
    · show Base.rem c s' = _
      rw [g2, hrem, List.drop_drop, hB']
  have h0 : e0.t = 0 := by
    obtain ⟨eps, h1, h2, h3⟩ := Episodic.sample_spec ok (viewSched post zero w bcfg fuel) rng hc { inner := inner, t := 0, key := key }
    rw [h3] at hs
    simp only [Except.ok.injEq] at hs
    rw [← hs]
  have reach : ∀ (ops : List Episodic.Op) (outs : List (Episodic.Out (B))) (e1 e : Episodic.St (Base.St D K) Key),
      Reached (viewSched post zero w bcfg fuel) rng ecfg e0 e1 → J e1 →
      Episodic.run (viewSched post zero w bcfg fuel) rng ecfg ops e1 = some (outs, e) → Episodic.Op.iter ∉ ops → J e := by
    intro ops
    induction ops with
    | nil =>
      intro outs e1 e _ hJ hr _
      simp only [Episodic.run, Option.some.injEq, Prod.mk.injEq] at hr
      rw [← hr.2]; exact hJ
    | cons op ops ih =>
      intro outs e1 e hre hJ hr hit
      simp only [List.mem_cons, not_or] at hit
      unfold Episodic.run at hr
      cases hst : Episodic.step (viewSched post zero w bcfg fuel) rng ecfg e1 op with
      | none => rw [hst] at hr; simp at hr
      | some q =>
        obtain ⟨o, e2⟩ := q
        rw [hst] at hr
        simp only at hr
        cases hrn : Episodic.run (viewSched post zero w bcfg fuel) rng ecfg ops e2 with
        | none => rw [hrn] at hr; simp at hr
        | some q =>
          obtain ⟨os', e3⟩ := q
          rw [hrn] at hr
          simp only [Option.some.injEq, Prod.mk.injEq] at hr
          obtain ⟨rfl, rfl⟩ := hr
          have hre2 := reached_snoc hre hst (Ne.symm hit.1)
          refine ih os' e2 e3 hre2 ?_ hrn hit.2
          cases op with
          | iter => exact absurd rfl hit.1
          | restart =>
            have hch := hchain e2 hre2
            simp only [Episodic.step, Episodic.nextEpisode] at hst
            cases hsm : Episodic.sample (viewSched post zero w bcfg fuel) rng ecfg e1 with
            | error x => rw [hsm] at hst; simp only [Option.some.injEq, Prod.mk.injEq] at hst; rw [← hst.2]; exact hJ
            | ok b =>
              rw [hsm] at hst
              simp only [Option.some.injEq, Prod.mk.injEq] at hst
              obtain ⟨_, rfl⟩ := hst
              exact fresh e1 b hsm hch
          | getBatch n =>
            simp only [Episodic.step, Episodic.getBatch] at hst
            by_cases hn : n ≠ ecfg.batchSize
            · rw [if_pos hn] at hst
              simp only [Option.some.injEq, Prod.mk.injEq] at hst; rw [← hst.2]; exact hJ
            · rw [if_neg hn] at hst
              by_cases ht : ecfg.episodeLength ≤ e1.t
              · rw [if_pos ht] at hst
                simp only [Option.some.injEq, Prod.mk.injEq] at hst; rw [← hst.2]; exact hJ
              · rw [if_neg ht] at hst
                have hnn : n = ecfg.batchSize := by simpa using hn
                obtain ⟨b, s', hb, hJ'⟩ := fine e1 hJ (by omega)
                rw [hnn, hb] at hst
                simp only [Option.some.injEq, Prod.mk.injEq] at hst
                rw [← hst.2]; exact hJ'
  have hJ0 : J e0 := by
    have := fresh _ _ hs (hchain e0 ⟨[], [], rfl, by simp⟩)
    rw [← h0] at this
    exact this
  refine ⟨h0, ok.lpos, ok.ne, ?_, ?_⟩
  · rintro e ⟨ops, os', hre, hit⟩ hlt
    obtain ⟨b, s', hb, _⟩ := fine e (reach ops os' e0 e ⟨[], [], rfl, by simp⟩ hJ0 hre hit) hlt
    exact ⟨b, s', hb⟩
  · intro s r s' l hg
    simp only [viewSched, Option.map_eq_some_iff, Prod.mk.injEq] at hg
    obtain ⟨q, hq, _, rfl⟩ := hg
    obtain ⟨_, h2⟩ := getBatch_keep (.inr hrand) (r := q.1) (s' := q.2) hq
    simp [viewSched, Base.reset, Base.shuffle, hrand, h2]

/-- C83 for episodic schedulers over base schedulers (same restrictions): the hypotheses of
`C83_buffered_episodes_partial` hold if the base scheduler does not shuffle, every frame is readable and holds one slice,
all frames have one layout, and no draw of episodes puts a file directly after itself (cf. C22). -/
theorem C83_base_schedulers_partial {V D K O I : Type} (modern : Bool) (zero : V) (w : Base.World V D K) (bcfg : Base.Cfg)
    (hrand : bcfg.randomize = false) (fuel : Nat) (rng : Episodic.Rng Key) (hc : Episodic.ChoiceOK rng) (os : LeafDirs.OS)
    (glob : String → List String) (bs el : Option Int) (inner : Base.St D K) (key : Key) (ecfg : Episodic.Cfg)
    (e0 : Episodic.St (Base.St D K) Key)
    (h : Episodic.init (flowSched zero w bcfg fuel) rng os glob bs el inner key = .ok (ecfg, e0))
    (dirs : List String) (hd : LeafDirs.discover os false inner.fileList = .ok dirs)
    (frame : String → Base.Sample V) (hy : ∀ d ∈ dirs, ∀ p ∈ glob d, Base.Yields w p [frame p])
    {fsh o1 o2 named} (hu : Base.Uniform ((dirs.flatMap glob).map frame) fsh o1 o2 named)
    (hf : ecfg.episodeLength * ecfg.batchSize ≤ fuel)
    (hchain : ∀ e, Reached (flowSched zero w bcfg fuel) rng ecfg e0 e → List.IsChain (· ≠ ·) e.inner.fileList)
    (g : Sampler.Gen (Arr V) O I) (cfg : Sampler.Cfg) (pcfg : Prefetch.Cfg)
    (hb : pcfg.batchSize = cfg.ffpb) (hb' : ecfg.batchSize = cfg.ffpb)
    (A0 : Sampler.ISched (Prefetch.St (Episodic.St (Base.St D K) Key) (Sampler.FlowBatch (Arr V))) (Sampler.FlowBatch (Arr V)))
    (calls : List (Sampler.ISched (Prefetch.St (Episodic.St (Base.St D K) Key) (Sampler.FlowBatch (Arr V)))
      (Sampler.FlowBatch (Arr V)) × Sampler.Op))
    (hA : ∀ q ∈ (A0, .next) :: calls, Meets modern (episodicSrc (flowSched zero w bcfg fuel) rng ecfg) pcfg q.1)
    (hop : ∀ q ∈ calls, q.2 ≠ .reset true) (outs : List (Sampler.Out (Sampler.OutBatch O I)))
    (s : Sampler.St (Prefetch.St (Episodic.St (Base.St D K) Key) (Sampler.FlowBatch (Arr V))) (Arr V) O)
    (hr : runVia g cfg ((A0, .next) :: calls) (Sampler.init cfg (Prefetch.init e0)) = some (outs, s)) :
    ∃ s', Sampler.run (Sampler.ofEpisodic (flowSched zero w bcfg fuel) rng ecfg) g cfg (.next :: calls.map Prod.snd)
      (Sampler.init cfg e0) = some (outs, s') := by
  obtain ⟨h0, h1, h2, h3, h4⟩ := base_episodes flowBatch zero w bcfg hrand fuel rng hc os glob bs el inner key ecfg e0 h dirs hd
    frame hy hu hf hchain
  exact C83_buffered_episodes_partial modern (flowSched zero w bcfg fuel) rng ecfg g cfg pcfg hb hb' e0 h0 h1 h2 h3 h4
    A0 calls hA hop outs s hr

/-- With one episode at a time and no repeated file in a directory, no draw of episodes puts a file after itself. -/
theorem single_episode_chain {sch : Sched S B} (hk : Episodic.KeepsFiles sch) {rng : Episodic.Rng Key} (hc : Episodic.ChoiceOK rng)
    {os : LeafDirs.OS} {glob : String → List String} (hnd : ∀ d, (glob d).Nodup) {bs el : Option Int} {inner : S} {key : Key}
    {ecfg : Episodic.Cfg} {e0 e : Episodic.St S Key} (h : Episodic.init sch rng os glob bs el inner key = .ok (ecfg, e0))
    (hb : ecfg.batchSize = 1) (hr : Reached sch rng ecfg e0 e) : List.IsChain (· ≠ ·) (sch.fileList e.inner) := by
  obtain ⟨ops, outs, hrun, _⟩ := hr
  obtain ⟨dirs, eps, _, hlen, hep, hs⟩ :=
    Episodic.C21_contiguous_windows sch hk rng hc os glob bs el inner key ecfg e0 h ops outs e hrun
  refine Episodic.C22_disjoint_episodes_suffice ecfg.episodeLength eps _ hs (fun ep hep' => (hep ep hep').1) ?_ ?_
  · intro ep hep'
    obtain ⟨_, d, _, listing, hp, _, hi⟩ := hep ep hep'
    exact (hp.nodup_iff.mpr (hnd d)).sublist hi.sublist
  · obtain ⟨ep, rfl⟩ := List.length_eq_one_iff.mp (hlen.trans hb)
    simp

theorem flowSched_keepsFiles {V D K : Type} (zero : V) (w : Base.World V D K) (bcfg : Base.Cfg)
    (hrand : bcfg.randomize = false) (fuel : Nat) : Episodic.KeepsFiles (flowSched zero w bcfg fuel) where
  set _ _ := rfl
  reset s := (Episodic.base_keepsFiles zero w bcfg hrand fuel).reset s
  getBatch n s r s' h := by
    simp only [flowSched, viewSched, Option.map_eq_some_iff, Prod.mk.injEq] at h
    obtain ⟨⟨r1, s1⟩, h1, _, rfl⟩ := h
    exact (Episodic.base_keepsFiles zero w bcfg hrand fuel).getBatch n s r1 s1 h1

/-- Every file holds one 1x1x1 flow field with its own value. -/
def filmWorld : Base.World Nat Unit KeyTerm where
  load _ := .ok ()
  slice p _ i := if i = 0 then .ok ⟨⟨[1, 1, 1], [if p = "d0" then 10 else if p = "d1" then 11 else 12]⟩, none, none, some [p]⟩ else .ended
  split := KeyTerm.split2
  perm _ n := (List.range n).reverse

/-- A generator that draws by counting. -/
def filmRng : Episodic.Rng Nat := ⟨fun k => (k + 1, k), fun k n b => List.replicate b (k % n)⟩

theorem filmRng_ok : Episodic.ChoiceOK filmRng := by
  intro k n b hn
  refine ⟨by simp [filmRng], fun i hi => ?_⟩
  obtain ⟨_, rfl⟩ := List.mem_replicate.mp hi
  exact Nat.mod_lt _ hn

/-- The base scheduler over the film. -/
def filmBase : Sched (Base.St Unit KeyTerm) (Sampler.FlowBatch (Arr Nat)) := flowSched 0 filmWorld ⟨false, false⟩ 9

/-- The state of the base scheduler before it is wrapped. -/
def filmInner : Base.St Unit KeyTerm := Base.init filmWorld ⟨false, false⟩ ["d0"] (.seed 0)

/-- Episodes of two frames out of the directory d0, d1, d2. -/
def filmCfg : Episodic.Cfg := ⟨1, 2, [("d", ["d0", "d1", "d2"])], [("d", 0), ("d", 1)]⟩

/-- The state after construction: the drawn episode is d0, d1. -/
def filmInit : Episodic.St (Base.St Unit KeyTerm) Nat := ⟨{ filmInner with fileList := ["d0", "d1"] }, 0, 1⟩

theorem film_init : Episodic.init filmBase filmRng Episodic.demoOS Episodic.demoGlob (some 1) (some 2) filmInner 0 =
    .ok (filmCfg, filmInit) := by decide +kernel

/-- The episodic scheduler over the film as the worker uses it. -/
def filmSrc : Src (Episodic.St (Base.St Unit KeyTerm) Nat) (Sampler.FlowBatch (Arr Nat)) := episodicSrc filmBase filmRng filmCfg

/-- A call on the sampler of the demonstration. -/
def filmCall (w1 w2 w3 ds : List Action) (op : Sampler.Op) :
    Sampler.ISched (Prefetch.St (Episodic.St (Base.St Unit KeyTerm) Nat) (Sampler.FlowBatch (Arr Nat))) (Sampler.FlowBatch (Arr Nat)) ×
      Sampler.Op :=
  (scripted true filmSrc ⟨1, 4⟩ w1 w2 w3 ds, op)

/-- An episode played to its end and beyond, one left in the middle, and a partial reset in a third. -/
def filmCalls : List (Sampler.ISched (Prefetch.St (Episodic.St (Base.St Unit KeyTerm) Nat) (Sampler.FlowBatch (Arr Nat)))
    (Sampler.FlowBatch (Arr Nat)) × Sampler.Op) :=
  [filmCall demoRound [.check, .fetch] [] [] .next, filmCall [] [] [] [] .next, filmCall [] [] [] [] .nextEpisode,
   filmCall [] demoRound [] [] .next, filmCall [] [] [] (demoRound ++ [.discard]) .nextEpisode,
   filmCall [] ([.check, .fetch] ++ demoRound) [] [] .next, filmCall [] [] [] [] (.reset false), filmCall [] demoRound [] [] .next]

theorem film_meets (w1 w2 w3 ds : List Action) (op : Sampler.Op)
    (h : (w1 ++ w2 ++ w3).all (fun a => a.isWorker && decide (a ≠ .eosTimeout)) = true)
    (hd : ds.all (fun a => a.isWorker && decide (a ≠ .eosTimeout) || decide (a = .discard)) = true) :
    Meets true filmSrc ⟨1, 4⟩ (filmCall w1 w2 w3 ds op).1 := demo_meets _ _ _ _ _ _ _ h hd

/-- The hypotheses of C83 are met: the first episode d0, d1 is played to its end and past it; of the second, d1, d2, one
frame is seen; the third is d0, d1 again. -/
example : ∃ outs s s',
    runVia demoGen demoCfg (filmCall [] demoRound [] [] .next :: filmCalls)
      (Sampler.init demoCfg (Prefetch.init filmInit)) = some (outs, s) ∧
    outs.map shown = [.ok ([[10]], some [false]), .ok ([[11]], some [true]), .error .episodeEnd, .ok ([], none),
      .ok ([[11]], some [false]), .ok ([], none), .ok ([[10]], some [false]), .ok ([], none), .ok ([[11]], some [true])] ∧
    Sampler.run (Sampler.ofEpisodic filmBase filmRng filmCfg) demoGen demoCfg
      [.next, .next, .next, .nextEpisode, .next, .nextEpisode, .next, .reset false, .next]
      (Sampler.init demoCfg filmInit) = some (outs, s') := by
  have hv : (runVia demoGen demoCfg (filmCall [] demoRound [] [] .next :: filmCalls)
      (Sampler.init demoCfg (Prefetch.init filmInit))).map (fun q => q.1.map shown) =
      some [.ok ([[10]], some [false]), .ok ([[11]], some [true]), .error .episodeEnd, .ok ([], none),
      .ok ([[11]], some [false]), .ok ([], none), .ok ([[10]], some [false]), .ok ([], none), .ok ([[11]], some [true])] := by
    decide +kernel
  rw [Option.map_eq_some_iff] at hv
  obtain ⟨⟨outs, s⟩, h, hsh⟩ := hv
  have hglob : ∀ d, (Episodic.demoGlob d).Nodup := by
    intro d
    unfold Episodic.demoGlob
    split
    · decide
    · split <;> decide
  have hdirs : LeafDirs.discover Episodic.demoOS false filmInner.fileList = .ok ["d"] := by decide +kernel
  have hm : ∀ q ∈ filmCall [] demoRound [] [] .next :: filmCalls, Meets true filmSrc ⟨1, 4⟩ q.1 := by
    simp only [filmCalls, List.forall_mem_cons]
    exact ⟨film_meets _ _ _ _ _ rfl rfl, film_meets _ _ _ _ _ rfl rfl, film_meets _ _ _ _ _ rfl rfl,
      film_meets _ _ _ _ _ rfl rfl, film_meets _ _ _ _ _ rfl rfl, film_meets _ _ _ _ _ rfl rfl,
      film_meets _ _ _ _ _ rfl rfl, film_meets _ _ _ _ _ rfl rfl, film_meets _ _ _ _ _ rfl rfl, by simp⟩
  let frame : String → Base.Sample Nat := fun p =>
    ⟨⟨[1, 1, 1], [if p = "d0" then 10 else if p = "d1" then 11 else 12]⟩, none, none, some [p]⟩
  have hy : ∀ d ∈ ["d"], ∀ p ∈ Episodic.demoGlob d, Base.Yields filmWorld p [frame p] := by
    intro _ _ p _
    refine ⟨fun i hi => ?_, rfl⟩
    have h0 : i = 0 := Nat.lt_one_iff.mp hi
    subst h0
    rfl
  have hu : Base.Uniform ((["d"].flatMap Episodic.demoGlob).map frame) [1, 1, 1] none none true :=
    Base.Demo.sample_uniform (fun x hx => by
      obtain ⟨p, _, rfl⟩ := List.mem_map.mp hx
      exact ⟨_, _, rfl⟩)
  obtain ⟨s', h1⟩ := C83_base_schedulers_partial true 0 filmWorld ⟨false, false⟩ rfl 9 filmRng filmRng_ok Episodic.demoOS
    Episodic.demoGlob (some 1) (some 2) filmInner 0 filmCfg filmInit film_init ["d"] hdirs frame
    hy (fsh := [1, 1, 1]) (o1 := none) (o2 := none) (named := true)
    hu (by decide)
    (fun e he => single_episode_chain (flowSched_keepsFiles 0 filmWorld ⟨false, false⟩ rfl 9) filmRng_ok hglob film_init rfl he)
    demoGen demoCfg ⟨1, 4⟩ rfl rfl _ filmCalls hm (by simp [filmCalls, filmCall]) outs s h
  exact ⟨outs, s, s', h, hsh, h1⟩

/-- C83 is false for `next_episode()` before the first batch: the episodic scheduler leaves its first episode, the
prefetching one does not. -/
theorem C83_refuted_first :
    let calls := [filmCall [] [] [] [] .nextEpisode, filmCall [] demoRound [] [] .next]
    (∀ q ∈ calls, Meets true filmSrc ⟨1, 4⟩ q.1) ∧
    (runVia demoGen demoCfg calls (Sampler.init demoCfg (Prefetch.init filmInit))).map (fun q => q.1.map shown) =
      some [.ok ([], none), .ok ([[10]], some [false])] ∧
    (Sampler.run (Sampler.ofEpisodic filmBase filmRng filmCfg) demoGen demoCfg (calls.map Prod.snd)
      (Sampler.init demoCfg filmInit)).map (fun q => q.1.map shown) =
      some [.ok ([], none), .ok ([[11]], some [false])] := by
  refine ⟨?_, by decide +kernel, by decide +kernel⟩
  simp only [List.forall_mem_cons]
  exact ⟨film_meets _ _ _ _ _ rfl rfl, film_meets _ _ _ _ _ rfl rfl, by simp⟩

/-- C83 is false for full resets: whether the worker had already gone on to the next episode decides which episode
follows; without prefetching the reset draws the second one. -/
theorem C83_refuted_reset :
    let calls := fun w => [filmCall [] demoRound [] [] .next, filmCall w [.check] [] [] (.reset true), filmCall [] demoRound [] [] .next]
    let ahead := demoRound ++ [.check, .fetch]
    (∀ q ∈ calls [] ++ calls ahead, Meets true filmSrc ⟨1, 4⟩ q.1) ∧
    (runVia demoGen demoCfg (calls []) (Sampler.init demoCfg (Prefetch.init filmInit))).map (fun q => q.1.map shown) =
      some [.ok ([[10]], some [false]), .ok ([], none), .ok ([[11]], some [false])] ∧
    (runVia demoGen demoCfg (calls ahead) (Sampler.init demoCfg (Prefetch.init filmInit))).map (fun q => q.1.map shown) =
      some [.ok ([[10]], some [false]), .ok ([], none), .ok ([[10]], some [false])] := by
  refine ⟨?_, by decide +kernel, by decide +kernel⟩
  simp only [List.cons_append, List.nil_append, List.forall_mem_cons]
  exact ⟨film_meets _ _ _ _ _ rfl rfl, film_meets _ _ _ _ _ rfl rfl, film_meets _ _ _ _ _ rfl rfl,
    film_meets _ _ _ _ _ rfl rfl, film_meets _ _ _ _ _ rfl rfl, film_meets _ _ _ _ _ rfl rfl, by simp⟩

end Verif.Stack
