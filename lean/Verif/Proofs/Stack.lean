import Verif.Spec.Stack
import Verif.Proofs.PrefetchInv
/-!
# Lemmas about stacked schedulers
-/

namespace Verif.Stack
open Verif Prefetch
variable {S B : Type} {p : Src S B} {pcfg : Prefetch.Cfg}

/-- What is needed of the wrapped scheduler `p`, seen by the prefetching scheduler, and `D`, the same scheduler seen by a
sampler: they agree in the states in question (`Good σ t`: `t` steps into an episode), and the only exceptions are the
end of an episode, after its last step, or a permanent `StopIteration`. -/
structure Matches (p : Src S B) (D : Sampler.ISched S B) (n : Nat) (Good : S → Nat → Prop) : Prop where
  same : ∀ σ t, Good σ t → D.getBatch n σ = some (p.getBatch σ)
  ok : ∀ σ t b σ', Good σ t → p.getBatch σ = (.ok b, σ') → Good σ' (t + 1)
  err : ∀ σ t e σ', Good σ t → p.getBatch σ = (.error e, σ') →
    (e = .episodeEnd ∧ p.episodeLength = some t ∧ σ' = σ) ∨
    (e = .stopIteration ∧ p.episodeLength = none ∧ D.getBatch n σ' = some (.error .stopIteration, σ'))
  atEnd : ∀ σ t, Good σ t → p.episodeLength = some t → p.getBatch σ = (.error .episodeEnd, σ)
  bound : ∀ σ t L, Good σ t → p.episodeLength = some L → t ≤ L
  next : ∀ σ t, Good σ t → p.episodeLength.isSome → Good (p.nextEpisode σ) 0
  forget : ∀ σ t b σ', Good σ t → p.episodeLength.isSome → p.getBatch σ = (.ok b, σ') → p.nextEpisode σ' = p.nextEpisode σ

variable {D : Sampler.ISched S B} {n : Nat} {Good : S → Nat → Prop}

theorem Matches.produces (hm : Matches p D n Good) {σ t bs src k} (h : Produces p σ t bs src k) (hg : Good σ t) : Good src k := by
  induction h with
  | nil => exact hg
  | batch hb _ ih => exact ih (hm.ok _ _ _ _ hg hb)
  | @episode s k s1 _ _ _ he hb _ ih =>
    rcases hm.err _ _ _ _ hg hb with ⟨_, _, rfl⟩ | ⟨h, _⟩
    · exact ih (hm.next _ _ hg he)
    · simp at h

/-- The worker's state when the wrapped scheduler has produced `bs`, none of which has been consumed, and was then in
state `src`. -/
def Holds (p : Src S B) (bs : List (Nat × B)) (src : S) (s : Prefetch.St S B) : Prop :=
  match s.w with
  | .idle => s.src = src ∧ s.stop = false ∧ s.started = false ∧ s.queue = [] ∧ bs = []
  | .loop | .fetch => s.src = src ∧ s.stop = false ∧ s.started = true ∧ s.queue = bs.map (fun q => some q.2)
  | .put b => s.src = src ∧ s.stop = false ∧ s.started = true ∧ s.queue ++ [some b] = bs.map (fun q => some q.2)
  | .eos => p.getBatch src = (.error .stopIteration, s.src) ∧ s.started = true ∧ s.queue = bs.map (fun q => some q.2)
  | .eosStop | .exited => p.getBatch src = (.error .stopIteration, s.src) ∧ s.started = true ∧
      s.queue = bs.map (fun q => some q.2) ++ [none]
  | .eosForce | .died _ => False

/-- The prefetching scheduler in state `s` will deliver what the wrapped scheduler would deliver if it were used
directly and were in state `σ`, `t` steps into an episode: either it is at work, or it has not yet moved on to the
episode the direct use is in, or both have come to their end. -/
def Rel (p : Src S B) (D : Sampler.ISched S B) (n : Nat) (Good : S → Nat → Prop) (σ : S) (t : Nat) (s : Prefetch.St S B) : Prop :=
  (Good σ t ∧ ∃ bs src k, Produces p σ t bs src k ∧ Holds p bs src s) ∨
  (Good σ t ∧ t = 0 ∧ p.episodeLength.isSome ∧ ∃ σ0, p.getBatch σ0 = (.error .episodeEnd, σ0) ∧ σ = p.nextEpisode σ0 ∧ Holds p [] σ0 s) ∨
  ((s.w = .eosStop ∨ s.w = .exited) ∧ s.queue = [] ∧ s.started = true ∧ σ = s.src ∧ p.episodeLength = none ∧
    D.getBatch n σ = some (.error .stopIteration, σ))

theorem Rel.init (hg : Good σ 0) : Rel p D n Good σ 0 (Prefetch.init σ) :=
  .inl ⟨hg, [], σ, 0, .nil _ _, rfl, rfl, rfl, rfl, rfl⟩

theorem Holds.congr {bs : List (Nat × B)} {src : S} {s s' : Prefetch.St S B} (h : Holds p bs src s) (hs : s'.src = s.src)
    (hst : s'.stop = s.stop) (hsd : s'.started = s.started) (hq : s'.queue = s.queue) (hw : s'.w = s.w) : Holds p bs src s' := by
  unfold Holds at *
  rw [hw, hs, hst, hsd, hq]
  exact h

theorem Holds.start {bs : List (Nat × B)} {src : S} {s : Prefetch.St S B} (h : Holds p bs src s) : Holds p bs src (startWorker s) := by
  unfold startWorker
  split
  · exact h
  · rename_i hns
    unfold Holds at h ⊢
    cases hw : s.w <;> rw [hw] at h <;> simp_all

theorem Rel.congr {σ t} {s s' : Prefetch.St S B} (h : Rel p D n Good σ t s) (hs : s'.src = s.src) (hst : s'.stop = s.stop)
    (hsd : s'.started = s.started) (hq : s'.queue = s.queue) (hw : s'.w = s.w) : Rel p D n Good σ t s' := by
  rcases h with ⟨hg, bs, src, k, h1, h2⟩ | ⟨hg, h0, he, σ0, h1, h2, h3⟩ | ⟨h1, h2, h3, h4, h5⟩
  · exact .inl ⟨hg, bs, src, k, h1, h2.congr hs hst hsd hq hw⟩
  · exact .inr (.inl ⟨hg, h0, he, σ0, h1, h2, h3.congr hs hst hsd hq hw⟩)
  · exact .inr (.inr ⟨by rw [hw]; exact h1, by rw [hq]; exact h2, by rw [hsd]; exact h3, by rw [hs]; exact h4, h5⟩)

theorem Rel.start {σ t} {s : Prefetch.St S B} (h : Rel p D n Good σ t s) : Rel p D n Good σ t (startWorker s) := by
  rcases h with ⟨hg, bs, src, k, h1, h2⟩ | ⟨hg, h0, he, σ0, h1, h2, h3⟩ | ⟨h1, h2, h3, h4, h5⟩
  · exact .inl ⟨hg, bs, src, k, h1, h2.start⟩
  · exact .inr (.inl ⟨hg, h0, he, σ0, h1, h2, h3.start⟩)
  · exact .inr (.inr ⟨by simp [startWorker, h3, h1], by simp [startWorker, h3, h2], by simp [startWorker, h3], by
      simp [startWorker, h3, h4], h5⟩)

/-- One step of the worker in the `Holds` part. -/
theorem Holds.step (hm : Matches p D n Good) {σ t bs src k} {s s1 : Prefetch.St S B} {a o} (hg : Good σ t)
    (hp : Produces p σ t bs src k) (h : Holds p bs src s) (hw : a.isWorker = true) (hne : a ≠ .eosTimeout)
    (ha : act p pcfg a s = some (s1, o)) :
    ∃ bs' src' k', Produces p σ t bs' src' k' ∧ Holds p bs' src' s1 := by
  have hgs := hm.produces hp hg
  unfold Holds at h
  cases a with
  | check =>
    cases hsw : s.w <;> simp only [act, hsw] at ha <;> try contradiction
    rw [hsw] at h
    obtain ⟨h1, h2, h3, h4⟩ := h
    rw [h2] at ha
    simp at ha
    obtain ⟨rfl, rfl⟩ := ha
    exact ⟨bs, src, k, hp, h1, rfl, h3, h4⟩
  | fetch =>
    cases hsw : s.w <;> simp only [act, hsw] at ha <;> try contradiction
    rw [hsw] at h
    obtain ⟨rfl, h2, h3, h4⟩ := h
    simp only [Option.some.injEq] at ha
    unfold fetchStep at ha
    split at ha
    · rename_i b src' heq
      simp only [Prod.mk.injEq] at ha
      obtain ⟨rfl, rfl⟩ := ha
      exact ⟨_, src', _, hp.snoc heq, rfl, h2, h3, by simp [h4]⟩
    · rename_i src' heq
      simp only [Prod.mk.injEq] at ha
      obtain ⟨rfl, rfl⟩ := ha
      exact ⟨bs, _, k, hp, heq, h3, h4⟩
    · rename_i src' heq
      split at ha
      · rename_i L hL
        simp only [Prod.mk.injEq] at ha
        obtain ⟨rfl, rfl⟩ := ha
        exact ⟨bs, _, 0, hp.snocEpisode (by rw [hL]; rfl) heq, rfl, h2, h3, h4⟩
      · rename_i hL
        rcases hm.err _ _ _ _ hgs heq with ⟨_, h, _⟩ | ⟨h, _⟩
        · rw [hL] at h; simp at h
        · simp at h
    · rename_i e src' hne1 hne2 heq
      rcases hm.err _ _ _ _ hgs heq with ⟨rfl, _⟩ | ⟨rfl, _⟩
      · exact (hne2 rfl).elim
      · exact (hne1 rfl).elim
  | put =>
    cases hsw : s.w <;> simp only [act, hsw] at ha <;> try contradiction
    rw [hsw] at h
    split at ha <;> simp at ha
    obtain ⟨rfl, rfl⟩ := ha
    exact ⟨bs, src, k, hp, h⟩
  | eosPut =>
    cases hsw : s.w <;> simp only [act, hsw] at ha <;> try contradiction
    rw [hsw] at h
    split at ha <;> simp at ha
    obtain ⟨rfl, rfl⟩ := ha
    obtain ⟨h1, h2, h3⟩ := h
    exact ⟨bs, src, k, hp, h1, h2, by simp [h3]⟩
  | eosTimeout => exact absurd rfl hne
  | eosForce =>
    cases hsw : s.w <;> simp only [act, hsw] at ha <;> try contradiction
    rw [hsw] at h
    exact h.elim
  | eosStop =>
    cases hsw : s.w <;> simp only [act, hsw] at ha <;> try contradiction
    rw [hsw] at h
    simp at ha
    obtain ⟨rfl, rfl⟩ := ha
    exact ⟨bs, src, k, hp, h⟩
  | _ => simp [Action.isWorker] at hw

/-- The worker does not touch the consumer's variables. -/
theorem worker_frame {s s1 : Prefetch.St S B} {a o} (hw : a.isWorker = true) (ha : act p pcfg a s = some (s1, o)) :
    s1.c = s.c ∧ s1.t = s.t ∧ s1.started = s.started := by
  cases a with
  | fetch =>
    cases hsw : s.w <;> simp only [act, hsw] at ha <;> try contradiction
    simp only [Option.some.injEq] at ha
    rcases fetchStep_cases (p := p) s with ⟨b, src, he⟩ | ⟨w, src, he, _⟩
    all_goals
      rw [he] at ha; simp at ha; obtain ⟨rfl, rfl⟩ := ha
      exact ⟨rfl, rfl, rfl⟩
  | check | put | eosPut | eosTimeout | eosForce | eosStop =>
    simp only [act] at ha
    repeat' split at ha
    all_goals try contradiction
    all_goals
      simp at ha
      obtain ⟨rfl, rfl⟩ := ha
      exact ⟨rfl, rfl, rfl⟩
  | _ => simp [Action.isWorker] at hw

theorem Rel.worker (hm : Matches p D n Good) {σ t} {s s1 : Prefetch.St S B} {a o} (h : Rel p D n Good σ t s)
    (hw : a.isWorker = true) (hne : a ≠ .eosTimeout) (ha : act p pcfg a s = some (s1, o)) : Rel p D n Good σ t s1 := by
  rcases h with ⟨hg, bs, src, k, h1, h2⟩ | ⟨hg, h0, he, σ0, h1, h2, h3⟩ | ⟨h1, h2, h3, h4, h5⟩
  · exact .inl ⟨hg, h2.step hm hg h1 hw hne ha⟩
  · subst h0
    by_cases hf : a = .fetch
    · subst hf
      unfold Holds at h3
      cases hsw : s.w <;> simp only [act, hsw] at ha <;> try contradiction
      rw [hsw] at h3
      obtain ⟨rfl, h4, h5, h6⟩ := h3
      obtain ⟨L, hL⟩ := Option.isSome_iff_exists.mp he
      simp only [fetchStep, h1, hL, Option.some.injEq, Prod.mk.injEq] at ha
      obtain ⟨rfl, rfl⟩ := ha
      exact .inl ⟨hg, [], σ, 0, .nil _ _, h2.symm, h4, h5, h6⟩
    · refine .inr (.inl ⟨hg, rfl, he, σ0, h1, h2, ?_⟩)
      unfold Holds at h3
      cases a with
      | fetch => exact absurd rfl hf
      | check =>
        cases hsw : s.w <;> simp only [act, hsw] at ha <;> try contradiction
        rw [hsw] at h3
        obtain ⟨g1, g2, g3, g4⟩ := h3
        rw [g2] at ha
        simp at ha
        obtain ⟨rfl, rfl⟩ := ha
        exact ⟨g1, rfl, g3, g4⟩
      | put =>
        cases hsw : s.w <;> simp only [act, hsw] at ha <;> try contradiction
        rw [hsw] at h3
        simp at h3
      | eosPut | eosStop =>
        cases hsw : s.w <;> simp only [act, hsw] at ha <;> try contradiction
        rw [hsw] at h3
        rw [h1] at h3
        simp at h3
      | eosTimeout => exact absurd rfl hne
      | eosForce =>
        cases hsw : s.w <;> simp only [act, hsw] at ha <;> try contradiction
        rw [hsw] at h3
        exact h3.elim
      | _ => simp [Action.isWorker] at hw
  · rcases h1 with h1 | h1
    · cases a with
      | eosStop =>
        simp only [act, h1] at ha
        simp at ha
        obtain ⟨rfl, rfl⟩ := ha
        exact .inr (.inr ⟨.inr rfl, h2, h3, h4, h5⟩)
      | check | fetch | put | eosPut | eosTimeout | eosForce => simp [act, h1] at ha
      | _ => simp [Action.isWorker] at hw
    · cases a with
      | check | fetch | put | eosPut | eosTimeout | eosForce | eosStop => simp [act, h1] at ha
      | _ => simp [Action.isWorker] at hw

theorem Rel.background (hm : Matches p D n Good) {σ t} : ∀ {as : List Action} {s s1 : Prefetch.St S B} {outs},
    Rel p D n Good σ t s → Background as → Prefetch.run p pcfg as s = some (s1, outs) →
    Rel p D n Good σ t s1 ∧ s1.c = s.c ∧ s1.t = s.t ∧ s1.started = s.started
  | [], s, s1, outs, h, _, hr => by
    rw [run_nil] at hr
    simp only [Option.some.injEq, Prod.mk.injEq] at hr
    obtain ⟨rfl, rfl⟩ := hr
    exact ⟨h, rfl, rfl, rfl⟩
  | a :: as, s, s1, outs, h, hb, hr => by
    obtain ⟨s2, o, os, ha, hr', _⟩ := run_cons hr
    have hw := hb a List.mem_cons_self
    have hf := worker_frame hw.1 ha
    obtain ⟨g1, g2, g3, g4⟩ := Rel.background hm (h.worker hm hw.1 hw.2 ha) (fun b hb' => hb b (List.mem_cons_of_mem _ hb')) hr'
    exact ⟨g1, g2.trans hf.1, g3.trans hf.2.1, g4.trans hf.2.2⟩

/-- The next item, when the direct use is inside an episode. -/
theorem Rel.pop (hm : Matches p D n Good) {σ t} {s s1 : Prefetch.St S B} {x q} (h : Rel p D n Good σ t s)
    (hlt : ∀ L, p.episodeLength = some L → t < L) (hq : s.queue = x :: q) (hsrc : s1.src = s.src) (hst : s1.stop = s.stop)
    (hsd : s1.started = s.started) (hq1 : s1.queue = q) (hw1 : s1.w = s.w) :
    match x with
    | some b => ∃ σ', p.getBatch σ = (.ok b, σ') ∧ Good σ t ∧ Rel p D n Good σ' (t + 1) s1
    | none => ∃ σ', p.getBatch σ = (.error .stopIteration, σ') ∧ Good σ t ∧ p.episodeLength = none ∧ ∀ t', Rel p D n Good σ' t' s1 := by
  rcases h with ⟨hg, bs, src, k, h1, h2⟩ | ⟨hg, h0, he, σ0, h1, h2, h3⟩ | ⟨h1, h2, h3, h4, h5⟩
  · have hno : ∀ σ', p.getBatch σ ≠ (.error .episodeEnd, σ') := by
      intro σ' he
      rcases hm.err _ _ _ _ hg he with ⟨_, h, _⟩ | ⟨h, _⟩
      · exact absurd (hlt _ h) (Nat.lt_irrefl _)
      · simp at h
    cases h1 with
    | nil =>
      unfold Holds at h2
      cases hsw : s.w <;> rw [hsw] at h2 <;> simp only at h2
      case eosStop | exited =>
        obtain ⟨g1, g2, g3⟩ := h2
        rw [hq] at g3
        simp at g3
        obtain ⟨rfl, rfl⟩ := g3
        have hs : s.src = s1.src := hsrc.symm
        rcases hm.err _ _ _ _ hg g1 with ⟨h, _⟩ | ⟨_, h, h'⟩
        · simp at h
        · refine ⟨s.src, g1, hg, h, fun t' => .inr (.inr ⟨?_, hq1, by rw [hsd]; exact g2, hs, h, h'⟩)⟩
          rw [hw1, hsw]; simp
      all_goals simp_all
    | @batch _ _ b σ' bs' _ _ hb tl =>
      have hx : x = some b := by
        unfold Holds at h2
        cases hsw : s.w <;> rw [hsw] at h2 <;> simp_all
      subst hx
      refine ⟨σ', hb, hg, .inl ⟨hm.ok _ _ _ _ hg hb, bs', src, k, tl, ?_⟩⟩
      unfold Holds at h2 ⊢
      rw [hw1, hsrc, hst, hsd, hq1]
      cases hsw : s.w <;> rw [hsw] at h2 <;> simp_all
    | episode he hb tl => exact absurd hb (hno _)
  · exfalso
    unfold Holds at h3
    cases hsw : s.w <;> rw [hsw] at h3 <;> simp_all
  · rw [h2] at hq; simp at hq

/-- At the end of an episode the direct use moves on; the prefetching scheduler does so by itself. -/
theorem Rel.boundary (hm : Matches p D n Good) {σ L} {s : Prefetch.St S B} (h : Rel p D n Good σ L s)
    (hL : p.episodeLength = some L) (hpos : 0 < L) : Rel p D n Good (p.nextEpisode σ) 0 s := by
  have he : p.episodeLength.isSome := by rw [hL]; rfl
  rcases h with ⟨hg, bs, src, k, h1, h2⟩ | ⟨hg, h0, _⟩ | ⟨h1, h2, h3, h4, h5, h6⟩
  · have hend := hm.atEnd _ _ hg hL
    have hg' := hm.next _ _ hg he
    cases h1 with
    | nil => exact .inr (.inl ⟨hg', rfl, he, σ, hend, rfl, h2⟩)
    | batch hb tl => rw [hend] at hb; simp at hb
    | episode _ hb tl =>
      rw [hend] at hb
      simp only [Prod.mk.injEq, true_and] at hb
      subst hb
      exact .inl ⟨hg', bs, src, k, tl, h2⟩
  · omega
  · rw [hL] at h5; simp at h5

/-- The direct use is in a good state unless everything has ended. -/
theorem Rel.good {σ t} {s : Prefetch.St S B} (h : Rel p D n Good σ t s) (hL : p.episodeLength.isSome) : Good σ t := by
  rcases h with ⟨hg, _⟩ | ⟨hg, _⟩ | ⟨_, _, _, _, h, _⟩
  · exact hg
  · exact hg
  · rw [h] at hL; simp at hL

/-- Every outcome of `get_batch` on the prefetching scheduler is the outcome of the direct call. -/
theorem getCall_sim (hm : Matches p D n Good) (hn : n = pcfg.batchSize) {σ} {s s' : Prefetch.St S B} {r}
    (h : Rel p D n Good σ s.t s) (hc : s.c = .idle) (hcall : GetCall p pcfg n s r s') :
    ∃ σ', D.getBatch n σ = some (r, σ') ∧ Rel p D n Good σ' s'.t s' ∧ s'.c = .idle ∧ s'.started = true := by
  obtain ⟨w1, w2, s1, o1, hw1, hw2, hr1, hcase⟩ := hcall
  obtain ⟨g1, g2, g3, g4⟩ := h.background hm hw1 hr1
  rw [← g3] at g1
  rw [hc] at g2
  have hend : ∀ L, p.episodeLength = some L → L ≤ s1.t → D.getBatch n σ = some (.error .episodeEnd, σ) := by
    intro L hL hle
    have hg := g1.good (by rw [hL]; rfl)
    have := hm.bound _ _ _ hg hL
    have ht : s1.t = L := by omega
    rw [hm.same _ _ hg, hm.atEnd _ _ hg (by rw [hL, ht])]
  rcases hcase with ⟨o, ha, ho⟩ | ⟨s2, s3, o2, o, last, ha, hr2, hlast, ha2, ho⟩
  · simp only [act, g2, ne_eq, hn, not_true_eq_false, if_false] at ha
    split at ha
    · rename_i L hL
      split at ha
      · rename_i hle
        simp only [Option.some.injEq, Prod.mk.injEq] at ha
        obtain ⟨rfl, rfl⟩ := ha
        simp only [answer, Option.some.injEq] at ho
        subst ho
        refine ⟨σ, hend L hL hle, ?_, ?_, startWorker_started _⟩
        · rw [startWorker_t]; exact g1.start
        · rw [startWorker_c]; exact g2
      · simp only [Option.some.injEq, Prod.mk.injEq] at ha
        obtain ⟨rfl, rfl⟩ := ha
        simp [answer] at ho
    · simp only [Option.some.injEq, Prod.mk.injEq] at ha
      obtain ⟨rfl, rfl⟩ := ha
      simp [answer] at ho
  · have hs2 : s2 = { startWorker s1 with c := .getWait } ∧ ∀ L, p.episodeLength = some L → s1.t < L := by
      simp only [act, g2, ne_eq, hn, not_true_eq_false, if_false] at ha
      split at ha
      · rename_i L hL
        split at ha
        · simp at ha
        · rename_i hlt
          simp only [Option.some.injEq, Prod.mk.injEq] at ha
          refine ⟨ha.1.symm, fun L' hL' => ?_⟩
          rw [hL] at hL'
          simp only [Option.some.injEq] at hL'
          omega
      · rename_i hL
        simp only [Option.some.injEq, Prod.mk.injEq] at ha
        exact ⟨ha.1.symm, fun L' hL' => by rw [hL] at hL'; simp at hL'⟩
    obtain ⟨rfl, hlt⟩ := hs2
    have k0 : Rel p D n Good σ s1.t { startWorker s1 with c := .getWait } := g1.start.congr rfl rfl rfl rfl rfl
    obtain ⟨k1, k2, k3, k4⟩ := k0.background hm hw2 hr2
    have k3' : s3.t = s1.t := k3.trans (startWorker_t s1)
    have k4' : s3.started = true := k4.trans (startWorker_started s1)
    rcases hlast with rfl | ⟨rfl, hended⟩
    · simp only [act] at ha2
      split at ha2
      · rename_i x q hc3 hq3
        have := k1.pop (s1 := { s3 with queue := q, startup := false, t := s3.t + 1, c := .idle }) hm hlt hq3 rfl rfl rfl rfl rfl
        cases x with
        | some b =>
          simp only [Option.some.injEq, Prod.mk.injEq] at ha2
          obtain ⟨rfl, rfl⟩ := ha2
          simp only [answer, Option.some.injEq] at ho
          subst ho
          obtain ⟨σ', e1, e2, e3⟩ := this
          refine ⟨σ', by rw [hm.same _ _ e2, e1], ?_, rfl, k4'⟩
          rw [k3']; exact e3
        | none =>
          simp only [Option.some.injEq, Prod.mk.injEq] at ha2
          obtain ⟨rfl, rfl⟩ := ha2
          simp only [answer, Option.some.injEq] at ho
          subst ho
          obtain ⟨σ', e1, e2, _, e3⟩ := this
          exact ⟨σ', by rw [hm.same _ _ e2, e1], e3 _, rfl, k4'⟩
      · simp at ha2
    · simp only [act] at ha2
      split at ha2
      · rename_i hc3 hq3
        simp only [Option.some.injEq, Prod.mk.injEq] at ha2
        obtain ⟨rfl, rfl⟩ := ha2
        simp only [answer, Option.some.injEq] at ho
        subst ho
        rcases k1 with ⟨hg, bs, src, k, h1, h2⟩ | ⟨hg, h0, he, σ0, h1, h2, h3⟩ | ⟨h1, h2, h3, h4, h5, h6⟩
        · exfalso
          unfold Holds at h2
          cases hsw : s3.w <;> rw [hsw] at h2 hended <;> simp_all [WPc.ended]
        · exfalso
          unfold Holds at h3
          cases hsw : s3.w <;> rw [hsw] at h3 hended <;> simp_all [WPc.ended]
        · exact ⟨σ, h6, .inr (.inr ⟨h1, h2, h3, h4, h5, h6⟩), rfl, k4'⟩
      · simp at ha2

theorem discard_not_idle {as : List Action} : ∀ {s s' : Prefetch.St S B} {outs},
    (∀ a ∈ as, a.isWorker = true ∧ a ≠ .eosTimeout ∨ a = .discard) → .discard ∈ as → s.c = .idle →
    Prefetch.run p pcfg as s = some (s', outs) → False := by
  induction as with
  | nil => intro _ _ _ _ h; simp at h
  | cons a as ih =>
    intro s s' outs has hmem hc hr
    obtain ⟨s2, o, os, ha, hr', _⟩ := run_cons hr
    rcases has a List.mem_cons_self with ⟨hw, hne⟩ | rfl
    · have hf := worker_frame hw ha
      refine ih (fun b hb => has b (List.mem_cons_of_mem _ hb)) ?_ (hf.1.trans hc) hr'
      rcases List.mem_cons.mp hmem with h | h
      · rw [← h] at hw; simp [Action.isWorker] at hw
      · exact h
    · simp [act, hc] at ha

/-- After the last item only the worker can go on. -/
theorem only_background {as : List Action} {s s' : Prefetch.St S B} {outs}
    (has : ∀ a ∈ as, a.isWorker = true ∧ a ≠ .eosTimeout ∨ a = .discard) (hc : s.c = .idle)
    (hr : Prefetch.run p pcfg as s = some (s', outs)) : Background as := by
  intro a ha
  rcases has a ha with h | rfl
  · exact h
  · exact (discard_not_idle has ha hc hr).elim

/-- The discarding of the rest of an episode. -/
theorem discard_sim (hm : Matches p D n Good) {L : Nat} (hL : p.episodeLength = some L) {τ : S} {as : List Action} :
    ∀ {σ t k} {s s' : Prefetch.St S B} {outs}, Rel p D n Good σ t s → s.c = .discard k → 0 < k →
    t + k = L → p.nextEpisode σ = τ → s.started = true →
    (∀ a ∈ as, a.isWorker = true ∧ a ≠ .eosTimeout ∨ a = .discard) → Prefetch.run p pcfg as s = some (s', outs) →
    s'.c = .idle → Rel p D n Good τ 0 s' ∧ s'.t = 0 ∧ s'.started = true := by
  induction as with
  | nil =>
    intro σ t k s s' outs h hc hk htk hτ hsd has hr hc'
    rw [run_nil] at hr
    simp only [Option.some.injEq, Prod.mk.injEq] at hr
    obtain ⟨rfl, rfl⟩ := hr
    rw [hc] at hc'; simp at hc'
  | cons a as ih =>
    intro σ t k s s' outs h hc hk htk hτ hsd has hr hc'
    obtain ⟨s2, o, os, ha, hr', _⟩ := run_cons hr
    have has' : ∀ a ∈ as, a.isWorker = true ∧ a ≠ .eosTimeout ∨ a = .discard := fun b hb => has b (List.mem_cons_of_mem _ hb)
    rcases has a List.mem_cons_self with ⟨hw, hne⟩ | rfl
    · have hf := worker_frame hw ha
      exact ih (h.worker hm hw hne ha) (hf.1.trans hc) hk htk hτ (hf.2.2.trans hsd) has' hr' hc'
    · have hlt : ∀ L', p.episodeLength = some L' → t < L' := by
        intro L' hL'; rw [hL] at hL'; simp only [Option.some.injEq] at hL'; omega
      have he : p.episodeLength.isSome := by rw [hL]; rfl
      simp only [act, hc] at ha
      split at ha
      · rename_i k' x q hk' hq
        simp only [CPc.discard.injEq] at hk'
        subst hk'
        have hpop := fun s1 => h.pop (s1 := s1) hm hlt hq
        cases x with
        | none =>
          obtain ⟨_, _, _, h0, _⟩ := hpop { s with queue := q } rfl rfl rfl rfl rfl
          rw [hL] at h0; simp at h0
        | some b =>
          simp only at ha
          split at ha
          · rename_i hk1
            simp only [Option.some.injEq, Prod.mk.injEq] at ha
            obtain ⟨rfl, rfl⟩ := ha
            obtain ⟨σ', e1, e2, e3⟩ := hpop { s with queue := q, t := 0, c := .idle } rfl rfl rfl rfl rfl
            have ht1 : t + 1 = L := by omega
            rw [ht1] at e3
            have e4 := e3.boundary hm hL (by omega)
            rw [hm.forget _ _ _ _ e2 he e1, hτ] at e4
            obtain ⟨r1, r2, r3, r4⟩ := e4.background hm (only_background has' rfl hr') hr'
            exact ⟨r1, r3, r4.trans hsd⟩
          · rename_i hk1
            simp only [Option.some.injEq, Prod.mk.injEq] at ha
            obtain ⟨rfl, rfl⟩ := ha
            obtain ⟨σ', e1, e2, e3⟩ := hpop { s with queue := q, c := .discard (k - 1) } rfl rfl rfl rfl rfl
            exact ih e3 rfl (by omega) (by omega)
              ((hm.forget _ _ _ _ e2 he e1).trans hτ) hsd has' hr' hc'
      · simp at ha

/-- Every outcome of `next_episode` on a prefetching scheduler that has been started corresponds to the direct call. -/
theorem nextCall_sim (hm : Matches p D n Good) {L : Nat} (hL : p.episodeLength = some L) (hpos : 0 < L) {σ}
    {s s' : Prefetch.St S B} (h : Rel p D n Good σ s.t s) (hc : s.c = .idle) (hsd : s.started = true)
    (hcall : NextCall p pcfg s s') :
    Rel p D n Good (p.nextEpisode σ) s'.t s' ∧ s'.c = .idle ∧ s'.started = true := by
  obtain ⟨w1, as, outs, hw1, has, hr, hc'⟩ := hcall
  obtain ⟨s1, o1, o2, hr1, hr2, _⟩ := run_append hr
  obtain ⟨g1, g2, g3, g4⟩ := h.background hm hw1 hr1
  rw [← g3] at g1
  rw [hc] at g2
  rw [hsd] at g4
  obtain ⟨s2, o, os, ha, hr3, _⟩ := run_cons hr2
  have hg := g1.good (by rw [hL]; rfl)
  have hle := hm.bound _ _ _ hg hL
  simp only [act, g2, hL, g4, true_and] at ha
  split at ha
  · rename_i hlt
    simp only [Option.some.injEq, Prod.mk.injEq] at ha
    obtain ⟨rfl, rfl⟩ := ha
    obtain ⟨r1, r2, r3⟩ := discard_sim hm hL (τ := p.nextEpisode σ) (s := { s1 with started := true, c := .discard (L - s1.t) })
      (k := L - s1.t) (g1.congr rfl rfl g4.symm rfl rfl) rfl (by omega) (by omega) rfl rfl has hr3 hc'
    exact ⟨by rw [r2]; exact r1, hc', r3⟩
  · rename_i hlt
    simp only [Option.some.injEq, Prod.mk.injEq] at ha
    obtain ⟨rfl, rfl⟩ := ha
    have ht : s1.t = L := by omega
    rw [ht] at g1
    have e4 := (g1.boundary hm hL hpos).start.congr (s' := { startWorker s1 with t := 0 }) rfl rfl rfl rfl rfl
    have hb := only_background (s := { startWorker s1 with t := 0 }) has ((startWorker_c s1).trans g2) hr3
    obtain ⟨r1, r2, r3, r4⟩ := e4.background hm hb hr3
    exact ⟨by rw [r3]; exact r1, hc', r4.trans (startWorker_started s1)⟩

/-! ## Resets -/

theorem Produces.reset_eq (hres : ∀ s r s', p.getBatch s = (r, s') → p.reset s' = p.reset s) (hL : p.episodeLength = none)
    {σ t bs src k} (h : Produces p σ t bs src k) : p.reset src = p.reset σ := by
  induction h with
  | nil => rfl
  | batch hb _ ih => rw [ih, hres _ _ _ hb]
  | episode he => rw [hL] at he; simp at he

theorem Rel.reset_eq (hres : ∀ s r s', p.getBatch s = (r, s') → p.reset s' = p.reset s) (hL : p.episodeLength = none)
    {σ t} {s : Prefetch.St S B} (h : Rel p D n Good σ t s) : p.reset s.src = p.reset σ := by
  rcases h with ⟨hg, bs, src, k, h1, h2⟩ | ⟨hg, h0, he, _⟩ | ⟨h1, h2, h3, h4, h5⟩
  · rw [← Produces.reset_eq hres hL h1]
    unfold Holds at h2
    cases hsw : s.w <;> rw [hsw] at h2 <;> simp only at h2
    case eos | eosStop | exited => exact hres _ _ _ h2.1
    all_goals rw [h2.1]
  · rw [hL] at he; simp at he
  · rw [h4]

theorem worker_reset (hres : ∀ s r s', p.getBatch s = (r, s') → p.reset s' = p.reset s) (hL : p.episodeLength = none) :
    ∀ {as : List Action} {s s' : Prefetch.St S B} {outs}, Background as → Prefetch.run p pcfg as s = some (s', outs) →
    p.reset s'.src = p.reset s.src := by
  intro as
  induction as with
  | nil =>
    intro s s' outs _ hr
    rw [run_nil] at hr
    simp only [Option.some.injEq, Prod.mk.injEq] at hr
    rw [hr.1]
  | cons a as ih =>
    intro s s' outs hb hr
    obtain ⟨s2, o, os, ha, hr', _⟩ := run_cons hr
    rw [ih (fun b hb' => hb b (List.mem_cons_of_mem _ hb')) hr']
    have hw := (hb a List.mem_cons_self).1
    cases a with
    | fetch =>
      cases hsw : s.w <;> simp only [act, hsw] at ha <;> try contradiction
      simp only [Option.some.injEq] at ha
      unfold fetchStep at ha
      split at ha
      case h_1 heq | h_2 heq | h_4 heq =>
        simp only [Prod.mk.injEq] at ha
        rw [← ha.1]
        exact hres _ _ _ heq
      case h_3 heq =>
        rw [hL] at ha
        simp only [Prod.mk.injEq] at ha
        rw [← ha.1]
        exact hres _ _ _ heq
    | check | put | eosPut | eosTimeout | eosForce | eosStop =>
      simp only [act] at ha
      repeat' split at ha
      all_goals try contradiction
      all_goals
        simp at ha
        rw [← ha.1]
    | _ => simp [Action.isWorker] at hw

/-- Every outcome of `reset` is the constructor's state over the reset wrapped scheduler. -/
theorem resetCall_sim (hres : ∀ s r s', p.getBatch s = (r, s') → p.reset s' = p.reset s) (hL : p.episodeLength = none) {σ t}
    {s s' : Prefetch.St S B} (h : Rel p D n Good σ t s) (hcall : ResetCall p pcfg s s') : s' = Prefetch.init (p.reset σ) := by
  obtain ⟨w1, w2, w3, outs, hw1, hw2, hw3, hr⟩ := hcall
  obtain ⟨s1, o1, o2, hr1, hr2, _⟩ := run_append hr
  obtain ⟨s2, o, os, ha, hr3, _⟩ := run_cons hr2
  obtain ⟨s3, o3, o4, hr4, hr5, _⟩ := run_append hr3
  obtain ⟨s4, o', os', ha', hr6, _⟩ := run_cons hr5
  obtain ⟨s5, o5, o6, hr7, hr8, _⟩ := run_append hr6
  obtain ⟨s6, o'', os'', ha'', hr9, _⟩ := run_cons hr8
  rw [run_nil] at hr9
  simp only [Option.some.injEq, Prod.mk.injEq] at hr9
  obtain ⟨rfl, rfl⟩ := hr9
  have e1 := worker_reset hres hL hw1 hr1
  have e2 : s2.src = s1.src := by
    cases hc : s1.c <;> simp only [act, hc] at ha <;> try contradiction
    simp at ha; rw [← ha.1]
  have e3 := worker_reset hres hL hw2 hr4
  have e4 : s4.src = s3.src := by
    cases hc : s3.c <;> simp only [act, hc] at ha' <;> try contradiction
    split at ha' <;> simp at ha' <;> rw [← ha'.1]
  have e5 := worker_reset hres hL hw3 hr7
  have e6 : s6 = Prefetch.init (p.reset s5.src) := by
    cases hc : s5.c <;> simp only [act, hc] at ha'' <;> try contradiction
    split at ha'' <;> simp at ha''
    exact ha''.1.symm
  rw [e6, e5, e4, e3, e2, e1, h.reset_eq hres hL]

/-- Every script of worker steps is a possible scheduling. -/
theorem scripted_meets (modern : Bool) (p : Src S B) (pcfg : Prefetch.Cfg) {w1 w2 w3 ds : List Action}
    (h1 : Background w1) (h2 : Background w2) (h3 : Background w3)
    (hd : ∀ a ∈ ds, a.isWorker = true ∧ a ≠ .eosTimeout ∨ a = .discard) : Meets modern p pcfg (scripted modern p pcfg w1 w2 w3 ds) where
  getBatch n s r s' h := by
    simp only [scripted] at h
    cases hr1 : Prefetch.run p pcfg w1 s with
    | none => rw [hr1] at h; simp at h
    | some z =>
      obtain ⟨s1, o1⟩ := z
      rw [hr1] at h
      simp only at h
      refine ⟨w1, w2, s1, o1, h1, h2, hr1, ?_⟩
      split at h
      · rename_i s2 hg
        cases hr2 : Prefetch.run p pcfg w2 s2 with
        | none => rw [hr2] at h; simp at h
        | some z =>
          obtain ⟨s3, o2⟩ := z
          rw [hr2] at h
          simp only at h
          split at h
          · rename_i s4 o hl
            simp only [Option.map_eq_some_iff, Prod.mk.injEq] at h
            obtain ⟨x, hx, rfl, rfl⟩ := h
            refine .inr ⟨s2, s3, o2, o, _, hg, hr2, ?_, hl, hx⟩
            split
            · rename_i he
              simp only [Bool.and_eq_true] at he
              exact .inr ⟨rfl, he.1⟩
            · exact .inl rfl
          · simp at h
      · rename_i s2 o _ hg
        simp only [Option.map_eq_some_iff, Prod.mk.injEq] at h
        obtain ⟨x, hx, rfl, rfl⟩ := h
        exact .inl ⟨o, hg, hx⟩
      · simp at h
  reset s s' h := by
    simp only [scripted] at h
    split at h
    · rename_i s1 outs hr
      simp only [Except.ok.injEq] at h
      subst h
      exact ⟨w1, w2, w3, outs, h1, h2, h3, hr⟩
    · simp at h
  plain h := by simp [scripted, h]
  episodic hs := by
    refine ⟨_, by simp only [scripted, hs]; exact if_pos trivial, fun s s' h => ?_⟩
    split at h
    · rename_i s1 outs hr
      split at h
      · rename_i hc
        simp only [Except.ok.injEq] at h
        subst h
        exact ⟨w1, ds, outs, h1, hd, hr, hc⟩
      · simp at h
    · simp at h

/-! ## Samplers over related schedulers -/

section Sampler
variable {SA SD F O I : Type}
open Sampler

/-- The same sampler over another scheduler state. -/
def _root_.Verif.Sampler.St.over (a : Sampler.St SA F O) (σ : SD) : Sampler.St SD F O :=
  { sched := σ, rng := a.rng, cur := a.cur, outFlows := a.outFlows, mask := a.mask, files := a.files, generated := a.generated }

theorem produce_over (g : Gen F O I) (cfg : Sampler.Cfg) (flows : List F) (a : Sampler.St SA F O) (σ : SD) :
    produce g cfg flows (a.over σ) = ((produce g cfg flows a).1, (produce g cfg flows a).2.over σ) ∧
    (produce g cfg flows a).2.sched = a.sched := by
  unfold produce
  simp only [Sampler.St.over]
  by_cases h : flows.length % cfg.ndevices ≠ 0
  · rw [if_pos h, if_pos h]; exact ⟨rfl, rfl⟩
  · rw [if_neg h, if_neg h]; exact ⟨rfl, rfl⟩

theorem getNext_sim {A : ISched SA (FlowBatch F)} {D : ISched SD (FlowBatch F)} (g : Gen F O I) (cfg : Sampler.Cfg)
    {R : SA → SD → Prop} {a : Sampler.St SA F O} {σ : SD} (hkeep : a.cur.isSome → R a.sched σ)
    (hget : ∀ r s', A.getBatch cfg.ffpb a.sched = some (r, s') → ∃ σ', D.getBatch cfg.ffpb σ = some (r, σ') ∧ R s' σ')
    {r a'} (h : getNext A g cfg a = some (r, a')) :
    ∃ σ', getNext D g cfg (a.over σ) = some (r, a'.over σ') ∧ R a'.sched σ' := by
  have hfetch : ∀ r a', getNext.fetch A g cfg a = some (r, a') →
      ∃ σ', getNext.fetch D g cfg (a.over σ) = some (r, a'.over σ') ∧ R a'.sched σ' := by
    intro r a' h
    unfold getNext.fetch at h ⊢
    have hs : (a.over σ).sched = σ := rfl
    rw [hs]
    cases hg : A.getBatch cfg.ffpb a.sched with
    | none => rw [hg] at h; simp at h
    | some q =>
      obtain ⟨x, s'⟩ := q
      obtain ⟨σ', hd, hr'⟩ := hget x s' hg
      rw [hg] at h
      rw [hd]
      cases x with
      | error e =>
        simp only [Option.some.injEq, Prod.mk.injEq] at h
        obtain ⟨rfl, rfl⟩ := h
        exact ⟨σ', rfl, hr'⟩
      | ok b =>
        simp only at h ⊢
        by_cases hb : b.flows.length % cfg.ndevices ≠ 0
        · rw [if_pos hb] at h
          simp only [Option.some.injEq, Prod.mk.injEq] at h
          obtain ⟨rfl, rfl⟩ := h
          exact ⟨σ', by rw [if_pos hb]; rfl, hr'⟩
        · rw [if_neg hb] at h
          rw [if_neg hb]
          simp only [Option.some.injEq] at h
          have hp := produce_over g cfg (adaptAll g cfg b.flows).2
            ({ a with generated := 0, sched := s', cur := some (adaptAll g cfg b.flows).2, mask := b.mask, files := b.files,
                      outFlows := (adaptAll g cfg b.flows).1 } : Sampler.St SA F O) σ'
          rw [h] at hp
          refine ⟨σ', ?_, ?_⟩
          · exact congrArg some hp.1
          · rw [hp.2]; exact hr'
  unfold getNext at h ⊢
  have hcur : (a.over σ).cur = a.cur := rfl
  have hgen : (a.over σ).generated = a.generated := rfl
  rw [hcur]
  cases hc : a.cur with
  | none => rw [hc] at h; exact hfetch r a' h
  | some flows =>
    rw [hc] at h
    simp only at h ⊢
    rw [hgen]
    by_cases hb : a.generated < cfg.bpfb
    · rw [if_pos hb] at h
      rw [if_pos hb]
      simp only [Option.some.injEq] at h
      have hp := produce_over g cfg flows a σ
      rw [h] at hp
      exact ⟨σ, congrArg some hp.1, by rw [hp.2]; exact hkeep (by rw [hc]; rfl)⟩
    · rw [if_neg hb] at h
      rw [if_neg hb]
      exact hfetch r a' h

theorem next_sim {A : ISched SA (FlowBatch F)} {D : ISched SD (FlowBatch F)} (g : Gen F O I) (cfg : Sampler.Cfg)
    (φ : Option (List Bool) → Option (List Bool))
    {R : SA → SD → Prop} {a : Sampler.St SA F O} {σ : SD}
    (hkeep : a.cur.isSome ∨ episodeOver A a.sched = true → R a.sched σ)
    (hget : ∀ r s', A.getBatch cfg.ffpb a.sched = some (r, s') → ∃ σ', D.getBatch cfg.ffpb σ = some (r, σ') ∧ R s' σ')
    (hover : episodeOver A a.sched = episodeOver D σ)
    (hdone : ∀ s σ, R s σ → makeDone A cfg.batchSize s = φ (makeDone D cfg.batchSize σ))
    {o a'} (h : step A g cfg a .next = some (o, a')) :
    ∃ σ' o', step D g cfg (a.over σ) .next = some (o', a'.over σ') ∧ o = withDone φ o' ∧ R a'.sched σ' := by
  simp only [step, Option.map_eq_some_iff, Prod.mk.injEq] at h
  obtain ⟨q, hq, rfl, rfl⟩ := h
  simp only [next] at hq
  simp only [step, next]
  have hs : (a.over σ).sched = σ := rfl
  rw [hs, ← hover]
  by_cases he : episodeOver A a.sched = true
  · rw [if_pos he] at hq ⊢
    simp only [Option.some.injEq] at hq
    subst hq
    exact ⟨σ, _, rfl, rfl, hkeep (.inr he)⟩
  · rw [if_neg he] at hq ⊢
    cases hg : getNext A g cfg a with
    | none => rw [hg] at hq; simp at hq
    | some z =>
      obtain ⟨r, a1⟩ := z
      obtain ⟨σ', h1, h2⟩ := getNext_sim g cfg (fun h => hkeep (.inl h)) hget hg
      rw [hg] at hq
      rw [h1]
      cases r with
      | error e =>
        simp only [Option.some.injEq] at hq
        subst hq
        exact ⟨σ', _, rfl, rfl, h2⟩
      | ok b =>
        simp only [Option.some.injEq] at hq
        subst hq
        refine ⟨σ', _, rfl, ?_, h2⟩
        simp only [batchOut, withDone]
        rw [hdone _ _ h2]
        rfl

theorem realNext_sim {V : Type} {A : ISched SA (Base.Batch V)} {D : ISched SD (Base.Batch V)} (n : Nat)
    (φ : Option (List Bool) → Option (List Bool)) {R : SA → SD → Prop} {a : SA} {σ : SD}
    (hkeep : episodeOver A a = true → R a σ)
    (hget : ∀ r s', A.getBatch n a = some (r, s') → ∃ σ', D.getBatch n σ = some (r, σ') ∧ R s' σ')
    (hover : episodeOver A a = episodeOver D σ)
    (hdone : ∀ s σ, R s σ → makeDone A n s = φ (makeDone D n σ))
    {o a'} (h : realStep A n a .next = some (o, a')) :
    ∃ σ' o', realStep D n σ .next = some (o', σ') ∧ o = withDoneReal φ o' ∧ R a' σ' := by
  simp only [realStep, Option.map_eq_some_iff, Prod.mk.injEq] at h
  obtain ⟨q, hq, rfl, rfl⟩ := h
  simp only [realNext] at hq
  simp only [realStep, realNext]
  rw [← hover]
  by_cases he : episodeOver A a = true
  · rw [if_pos he] at hq ⊢
    simp only [Option.some.injEq] at hq
    subst hq
    exact ⟨σ, _, rfl, rfl, hkeep he⟩
  · rw [if_neg he] at hq ⊢
    simp only [realGetNext] at hq ⊢
    cases hg : A.getBatch n a with
    | none => rw [hg] at hq; simp at hq
    | some z =>
      obtain ⟨r, a1⟩ := z
      obtain ⟨σ', h1, h2⟩ := hget _ _ hg
      rw [hg] at hq
      rw [h1]
      cases r with
      | error e =>
        simp only [Option.some.injEq] at hq
        subst hq
        exact ⟨σ', _, rfl, rfl, h2⟩
      | ok b =>
        simp only [Option.some.injEq] at hq
        subst hq
        refine ⟨σ', _, rfl, ?_, h2⟩
        simp only [batchOut, withDoneReal]
        rw [hdone _ _ h2]

end Sampler

end Verif.Stack
