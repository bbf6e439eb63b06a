import Verif.Props.Stack
/-!
# Properties C82, C83 for the real-image sampler
-/

namespace Verif.Stack
open Verif Prefetch
variable {S B Key : Type}

/-- C82 for the real-image sampler, with the restrictions of `C82_buffering_invisible_partial`. -/
theorem C82_real_sampler_partial {V : Type} (modern : Bool) (sch : Sched S (Base.Batch V)) (n : Nat) (pcfg : Prefetch.Cfg)
    (hb : pcfg.batchSize = n) (s0 : S) (hret : ∀ σ, PlainReached sch n s0 σ → (sch.getBatch n σ).isSome)
    (hstop : ∀ σ e σ', PlainReached sch n s0 σ → sch.getBatch n σ = some (.error e, σ') →
      e = .stopIteration ∧ sch.getBatch n σ' = some (.error .stopIteration, σ'))
    (calls : List (Sampler.ISched (Prefetch.St S (Base.Batch V)) (Base.Batch V) × Sampler.Op))
    (hreset : (∃ q ∈ calls, q.2 = .reset true) → ∀ σ r σ', sch.getBatch n σ = some (r, σ') → sch.reset σ' = sch.reset σ)
    (hA : ∀ q ∈ calls, Meets modern (plainSrc sch n) pcfg q.1) (hop : modern = true → ∀ q ∈ calls, q.2 ≠ .nextEpisode)
    (outs : List (Sampler.Out (Sampler.RealBatch V))) (s : Prefetch.St S (Base.Batch V))
    (hr : realVia n calls (Prefetch.init s0) = some (outs, s)) :
    ∃ outs' s', Sampler.realHistory (Sampler.ofPlain sch) n (calls.map Prod.snd) s0 = some (outs', s') ∧
      outs = outs'.map (withDoneReal (flags modern n)) := by
  have hm := plain_matches sch n s0 hret hstop
  have hL : (plainSrc sch n).episodeLength = none := rfl
  have hres : (∃ q ∈ calls, q.2 = .reset true) → ∀ s r s', (plainSrc sch n).getBatch s = (r, s') →
      (plainSrc sch n).reset s' = (plainSrc sch n).reset s := by
    intro hex s r s' h
    cases hg : sch.getBatch n s with
    | none =>
      simp only [plainSrc, hg, Option.getD_none, Prod.mk.injEq] at h
      rw [h.2]
    | some q =>
      simp only [plainSrc, hg, Option.getD_some] at h
      subst h
      exact hreset hex _ _ _ hg
  clear hreset
  let G : S → Nat → Prop := fun σ _ => PlainReached sch n s0 σ
  let R : Prefetch.St S (Base.Batch V) → S → Prop := fun a σ =>
    Rel (plainSrc sch n) (Sampler.ofPlain sch) n G σ a.t a ∧ a.c = .idle ∧ PlainReached sch n s0 σ
  have main : ∀ (calls : List (Sampler.ISched (Prefetch.St S (Base.Batch V)) (Base.Batch V) × Sampler.Op))
      (a : Prefetch.St S (Base.Batch V)) (σ : S) outs s, R a σ →
      ((∃ q ∈ calls, q.2 = .reset true) → ∀ s r s', (plainSrc sch n).getBatch s = (r, s') →
        (plainSrc sch n).reset s' = (plainSrc sch n).reset s) →
      (∀ q ∈ calls, Meets modern (plainSrc sch n) pcfg q.1) → (modern = true → ∀ q ∈ calls, q.2 ≠ .nextEpisode) →
      realVia n calls a = some (outs, s) →
      ∃ outs' s', Sampler.realHistory (Sampler.ofPlain sch) n (calls.map Prod.snd) σ = some (outs', s') ∧
        outs = outs'.map (withDoneReal (flags modern n)) := by
    intro calls
    induction calls with
    | nil =>
      intro a σ outs s _ _ _ _ hr
      simp only [realVia, Option.some.injEq, Prod.mk.injEq] at hr
      obtain ⟨rfl, rfl⟩ := hr
      exact ⟨[], _, rfl, rfl⟩
    | cons q calls ih =>
      intro a σ outs s hR hres hA hop hr
      obtain ⟨A, op⟩ := q
      have hAq := hA _ List.mem_cons_self
      simp only at hAq
      have hopq : modern = true → op ≠ .nextEpisode := fun hm => hop hm _ List.mem_cons_self
      have hover : ∀ s, Sampler.episodeOver A s = false := by
        cases modern with
        | false => simp [Sampler.episodeOver, hAq.plain rfl]
        | true =>
          obtain ⟨ne, hne, _⟩ := hAq.episodic rfl
          simp [Sampler.episodeOver, hne, stepsRemaining, hL]
      have hdone : ∀ n s, Sampler.makeDone A n s = flags modern n none := by
        cases modern with
        | false => simp [Sampler.makeDone, hAq.plain rfl, flags]
        | true =>
          obtain ⟨ne, hne, _⟩ := hAq.episodic rfl
          simp [Sampler.makeDone, hne, stepsRemaining, hL, flags]
      have stepped : ∀ o a', Sampler.realStep A n a op = some (o, a') → returns A a op = true →
          ∃ σ' o', Sampler.realStep (Sampler.ofPlain sch) n σ op = some (o', σ') ∧
            o = withDoneReal (flags modern n) o' ∧ R a' σ' := by
        intro o a' hst hret'
        cases op with
        | nextEpisode =>
          cases modern with
          | true => exact absurd rfl (hopq rfl)
          | false =>
            simp only [Sampler.realStep, hAq.plain rfl, Option.some.injEq, Prod.mk.injEq] at hst
            obtain ⟨rfl, rfl⟩ := hst
            exact ⟨σ, _, rfl, rfl, hR⟩
        | next =>
          refine realNext_sim n _ (fun _ => hR) ?_ ?_ ?_ hst
          · intro r s' hg
            obtain ⟨σ', h1, h2, h3, _⟩ := getCall_sim hm hb.symm hR.1 hR.2.1 (hAq.getBatch _ _ _ _ hg)
            exact ⟨σ', h1, h2, h3, .getBatch hR.2.2 (show sch.getBatch n σ = some (r, σ') from h1)⟩
          · rw [hover]
            rfl
          · intro s σ _
            exact hdone _ _
        | reset full =>
          cases full with
          | false =>
            simp only [Sampler.realStep, Option.some.injEq, Prod.mk.injEq] at hst
            obtain ⟨rfl, rfl⟩ := hst
            exact ⟨σ, _, rfl, rfl, hR⟩
          | true =>
            simp only [returns] at hret'
            cases hra : A.reset a with
            | error e => rw [hra] at hret'; simp at hret'
            | ok sc =>
              have hsc := resetCall_sim (hres ⟨_, List.mem_cons_self, rfl⟩) hL hR.1 (hAq.reset _ _ hra)
              simp only [Sampler.realStep, hra, Option.some.injEq, Prod.mk.injEq] at hst
              obtain ⟨rfl, rfl⟩ := hst
              refine ⟨sch.reset σ, .done, rfl, rfl, ?_⟩
              show R sc (sch.reset σ)
              rw [hsc]
              exact ⟨Rel.init (.reset hR.2.2), rfl, .reset hR.2.2⟩
      rw [realVia] at hr
      split at hr
      · rename_i hret'
        cases hst : Sampler.realStep A n a op with
        | none => simp only [hst] at hr; simp at hr
        | some z =>
          obtain ⟨o, a'⟩ := z
          simp only [hst] at hr
          cases hrest : realVia n calls a' with
          | none => rw [hrest] at hr; simp at hr
          | some z =>
            obtain ⟨os, s2⟩ := z
            rw [hrest] at hr
            simp only [Option.some.injEq, Prod.mk.injEq] at hr
            obtain ⟨rfl, rfl⟩ := hr
            obtain ⟨σ', o', h1, h2, h3⟩ := stepped o a' hst hret'
            obtain ⟨outs', s', h4, h5⟩ := ih a' σ' os s2 h3
              (fun hx => hres (by obtain ⟨q, hq, e⟩ := hx; exact ⟨q, List.mem_cons_of_mem _ hq, e⟩))
              (fun q hq => hA q (List.mem_cons_of_mem _ hq)) (fun hm q hq => hop hm q (List.mem_cons_of_mem _ hq)) hrest
            refine ⟨o' :: outs', s', ?_, ?_⟩
            · rw [List.map_cons, Sampler.realHistory]
              simp only [h1, h4]
            · rw [List.map_cons, ← h2, ← h5]
      · simp at hr
  exact main calls _ s0 outs s ⟨Rel.init .start, rfl, .start⟩ hres hA hop hr

/-- C83 for the real-image sampler, with the restrictions of `C83_buffered_episodes_partial`. -/
theorem C83_real_sampler_partial {V : Type} (modern : Bool) (sch : Sched S (Base.Batch V)) (rng : Episodic.Rng Key)
    (ecfg : Episodic.Cfg) (n : Nat) (pcfg : Prefetch.Cfg)
    (hb : pcfg.batchSize = n) (hb' : ecfg.batchSize = n) (e0 : Episodic.St S Key) (h0 : e0.t = 0)
    (hL : 0 < ecfg.episodeLength) (hne : ecfg.starts ≠ [])
    (hfine : ∀ e, Reached sch rng ecfg e0 e → e.t < ecfg.episodeLength →
      ∃ b s', sch.getBatch ecfg.batchSize e.inner = some (.ok b, s'))
    (hforget : ∀ s r s' l, sch.getBatch ecfg.batchSize s = some (r, s') →
      sch.reset (sch.setFileList l s') = sch.reset (sch.setFileList l s))
    (A0 : Sampler.ISched (Prefetch.St (Episodic.St S Key) (Base.Batch V)) (Base.Batch V))
    (calls : List (Sampler.ISched (Prefetch.St (Episodic.St S Key) (Base.Batch V)) (Base.Batch V) × Sampler.Op))
    (hA : ∀ q ∈ (A0, .next) :: calls, Meets modern (episodicSrc sch rng ecfg) pcfg q.1) (hop : ∀ q ∈ calls, q.2 ≠ .reset true)
    (outs : List (Sampler.Out (Sampler.RealBatch V))) (s : Prefetch.St (Episodic.St S Key) (Base.Batch V))
    (hr : realVia n ((A0, .next) :: calls) (Prefetch.init e0) = some (outs, s)) :
    ∃ s', Sampler.realHistory (Sampler.ofEpisodic sch rng ecfg) n (.next :: calls.map Prod.snd) e0 = some (outs, s') := by
  have hm := episodic_matches sch rng ecfg e0 hne hfine hforget
  have hpL : (episodicSrc sch rng ecfg).episodeLength = some ecfg.episodeLength := rfl
  have hse : ecfg.starts.isEmpty = false := by simpa using hne
  have hwd : ∀ o : Sampler.Out (Sampler.RealBatch V), withDoneReal id o = o := by intro o; cases o <;> rfl
  let G : Episodic.St S Key → Nat → Prop := fun e t => e.t = t ∧ t ≤ ecfg.episodeLength ∧ Reached sch rng ecfg e0 e
  let R0 : Prefetch.St (Episodic.St S Key) (Base.Batch V) → Episodic.St S Key → Prop := fun a e =>
    Rel (episodicSrc sch rng ecfg) (Sampler.ofEpisodic sch rng ecfg) ecfg.batchSize G e a.t a ∧ a.c = .idle
  let R : Prefetch.St (Episodic.St S Key) (Base.Batch V) → Episodic.St S Key → Prop := fun a e => R0 a e ∧ a.started = true
  have hsteps : ∀ a e, R0 a e → stepsRemaining (episodicSrc sch rng ecfg) a = Episodic.stepsRemaining ecfg e := by
    intro a e h
    have hg := (h.1.good (by rw [hpL]; rfl)).1
    simp [stepsRemaining, hpL, Episodic.stepsRemaining, hg]
  have nextStep : ∀ (A : Sampler.ISched (Prefetch.St (Episodic.St S Key) (Base.Batch V)) (Base.Batch V))
      (a : Prefetch.St (Episodic.St S Key) (Base.Batch V)) e o a',
      Meets modern (episodicSrc sch rng ecfg) pcfg A → R0 a e →
      (Sampler.episodeOver A a = true → R a e) → Sampler.realStep A n a .next = some (o, a') →
      ∃ e', Sampler.realStep (Sampler.ofEpisodic sch rng ecfg) n e .next = some (o, e') ∧ R a' e' := by
    intro A a e o a' hAq hR hkeep hst
    obtain ⟨ne, hne', _⟩ := hAq.episodic (by simp [seenEpisodic, hpL])
    have := realNext_sim (D := Sampler.ofEpisodic sch rng ecfg) (R := R) n id (σ := e) hkeep ?_ ?_ ?_ hst
    · obtain ⟨e', o', h1, h2, h3⟩ := this
      rw [hwd] at h2
      subst h2
      exact ⟨e', h1, h3⟩
    · intro r s' hg
      rw [← hb'] at hg ⊢
      obtain ⟨σ', h1, h2, h3, h4⟩ := getCall_sim hm (hb'.trans hb.symm) hR.1 hR.2 (hAq.getBatch _ _ _ _ hg)
      exact ⟨σ', h1, ⟨h2, h3⟩, h4⟩
    · simp only [Sampler.episodeOver, hne', Sampler.ofEpisodic, hsteps _ _ hR]
    · intro s σ h
      simp only [Sampler.makeDone, hne', Sampler.ofEpisodic, hsteps _ _ h.1, Option.map_some, id]
  have main : ∀ (calls : List (Sampler.ISched (Prefetch.St (Episodic.St S Key) (Base.Batch V)) (Base.Batch V) × Sampler.Op))
      (a : Prefetch.St (Episodic.St S Key) (Base.Batch V)) e outs s, R a e →
      (∀ q ∈ calls, Meets modern (episodicSrc sch rng ecfg) pcfg q.1) → (∀ q ∈ calls, q.2 ≠ .reset true) →
      realVia n calls a = some (outs, s) →
      ∃ s', Sampler.realHistory (Sampler.ofEpisodic sch rng ecfg) n (calls.map Prod.snd) e = some (outs, s') := by
    intro calls
    induction calls with
    | nil =>
      intro a e outs s _ _ _ hr
      simp only [realVia, Option.some.injEq, Prod.mk.injEq] at hr
      obtain ⟨rfl, rfl⟩ := hr
      exact ⟨_, rfl⟩
    | cons q calls ih =>
      intro a e outs s hR hA hop hr
      obtain ⟨A, op⟩ := q
      have hAq := hA _ List.mem_cons_self
      have hopq := hop _ List.mem_cons_self
      simp only at hAq hopq
      have stepped : ∀ o a', Sampler.realStep A n a op = some (o, a') → returns A a op = true →
          ∃ e', Sampler.realStep (Sampler.ofEpisodic sch rng ecfg) n e op = some (o, e') ∧ R a' e' := by
        intro o a' hst hret'
        cases op with
        | next => exact nextStep A a e o a' hAq hR.1 (fun _ => hR) hst
        | nextEpisode =>
          obtain ⟨ne, hne', hnc⟩ := hAq.episodic (by simp [seenEpisodic, hpL])
          simp only [returns, hne'] at hret'
          cases hra : ne a with
          | error x => rw [hra] at hret'; simp at hret'
          | ok sc =>
            obtain ⟨h1, h2, h3⟩ := nextCall_sim hm hpL hL hR.1.1 hR.1.2 hR.2 (hnc _ _ hra)
            simp only [Sampler.realStep, hne', hra, Option.some.injEq, Prod.mk.injEq] at hst
            obtain ⟨rfl, rfl⟩ := hst
            refine ⟨_, ?_, ⟨h1, h2⟩, h3⟩
            simp only [Sampler.realStep, Sampler.ofEpisodic, episodicSrc, Episodic.nextEpisode, Episodic.sample, hse]
            rfl
        | reset full =>
          cases full with
          | true => exact absurd rfl hopq
          | false =>
            simp only [Sampler.realStep, Option.some.injEq, Prod.mk.injEq] at hst
            obtain ⟨rfl, rfl⟩ := hst
            exact ⟨e, rfl, hR⟩
      rw [realVia] at hr
      split at hr
      · rename_i hret'
        cases hst : Sampler.realStep A n a op with
        | none => simp only [hst] at hr; simp at hr
        | some z =>
          obtain ⟨o, a'⟩ := z
          simp only [hst] at hr
          cases hrest : realVia n calls a' with
          | none => rw [hrest] at hr; simp at hr
          | some z =>
            obtain ⟨os, s2⟩ := z
            rw [hrest] at hr
            simp only [Option.some.injEq, Prod.mk.injEq] at hr
            obtain ⟨rfl, rfl⟩ := hr
            obtain ⟨e', h1, h3⟩ := stepped o a' hst hret'
            obtain ⟨s', h4⟩ := ih a' e' os s2 h3 (fun q hq => hA q (List.mem_cons_of_mem _ hq))
              (fun q hq => hop q (List.mem_cons_of_mem _ hq)) hrest
            refine ⟨s', ?_⟩
            rw [List.map_cons, Sampler.realHistory]
            simp only [h1, h4]
      · simp at hr
  have hR0 : R0 (Prefetch.init e0) e0 := ⟨Rel.init ⟨h0, Nat.zero_le _, [], [], rfl, by simp⟩, rfl⟩
  have hA0 : Meets modern (episodicSrc sch rng ecfg) pcfg A0 := hA _ List.mem_cons_self
  have hover : Sampler.episodeOver A0 (Prefetch.init e0 (B := Base.Batch V)) = false := by
    obtain ⟨ne, hne', _⟩ := hA0.episodic (by simp [seenEpisodic, hpL])
    simp only [Sampler.episodeOver, hne', hsteps _ _ hR0, Episodic.stepsRemaining, h0]
    simp
    omega
  rw [realVia] at hr
  simp only [returns, if_true] at hr
  cases hst : Sampler.realStep A0 n (Prefetch.init e0) .next with
  | none => simp only [hst] at hr; simp at hr
  | some z =>
    obtain ⟨o, a'⟩ := z
    simp only [hst] at hr
    cases hrest : realVia n calls a' with
    | none => rw [hrest] at hr; simp at hr
    | some z =>
      obtain ⟨os, s2⟩ := z
      rw [hrest] at hr
      simp only [Option.some.injEq, Prod.mk.injEq] at hr
      obtain ⟨rfl, rfl⟩ := hr
      obtain ⟨e', h1, h3⟩ := nextStep A0 _ e0 o a' hA0 hR0 (by rw [hover]; simp) hst
      obtain ⟨s', h4⟩ := main calls a' e' os s2 h3 (fun q hq => hA q (List.mem_cons_of_mem _ hq)) hop hrest
      refine ⟨s', ?_⟩
      rw [Sampler.realHistory]
      simp only [h1, h4]

theorem view_id {V D K : Type} (zero : V) (w : Base.World V D K) (bcfg : Base.Cfg) (fuel : Nat) :
    viewSched id zero w bcfg fuel = Base.sched zero w bcfg fuel := by
  unfold viewSched Base.sched
  congr 1
  funext n s
  cases h : Base.getBatch zero w bcfg fuel n s with
  | none => rfl
  | some q =>
    obtain ⟨r, s'⟩ := q
    cases r <;> rfl

/-- C82 for the real-image sampler over the base schedulers, as `C82_base_schedulers_partial`. -/
theorem C82_real_base_partial {V D K : Type} (modern : Bool) (zero : V) (w : Base.World V D K) (bcfg : Base.Cfg)
    (hp : bcfg.randomize = true → Base.PermOK w) (fl : List String) (key : K) (c : String → List (Base.Sample V))
    (hy : ∀ p ∈ fl, Base.Yields w p (c p)) {fsh o1 o2 named} (hu : Base.Uniform (fl.flatMap c) fsh o1 o2 named)
    (hlive : bcfg.loop = true → ∃ p ∈ fl, c p ≠ []) (fuel : Nat) (hf : 2 * fl.length < fuel)
    (n : Nat) (hn : 0 < n) (pcfg : Prefetch.Cfg) (hb : pcfg.batchSize = n)
    (calls : List (Sampler.ISched (Prefetch.St (Base.St D K) (Base.Batch V)) (Base.Batch V) × Sampler.Op))
    (hreset : (∃ q ∈ calls, q.2 = .reset true) → bcfg.loop = false ∨ bcfg.randomize = false)
    (hA : ∀ q ∈ calls, Meets modern (plainSrc (Base.sched zero w bcfg fuel) n) pcfg q.1) (hop : modern = true → ∀ q ∈ calls, q.2 ≠ .nextEpisode)
    (outs : List (Sampler.Out (Sampler.RealBatch V))) (s : Prefetch.St (Base.St D K) (Base.Batch V))
    (hr : realVia n calls (Prefetch.init (Base.init w bcfg fl key)) = some (outs, s)) :
    ∃ outs' s', Sampler.realHistory (Sampler.ofPlain (Base.sched zero w bcfg fuel)) n (calls.map Prod.snd)
        (Base.init w bcfg fl key) = some (outs', s') ∧
      outs = outs'.map (withDoneReal (flags modern n)) := by
  obtain ⟨h1, h2, h3⟩ := base_plain id zero w bcfg hp fl key c hy hu hlive fuel hf hn
  rw [view_id] at h1 h2 h3
  exact C82_real_sampler_partial modern (Base.sched zero w bcfg fuel) n pcfg hb _ h1 h2 calls (fun hex => h3 (hreset hex))
    hA hop outs s hr

/-- What a call on the real-image sampler showed. -/
def realShown : Sampler.Out (Sampler.RealBatch Nat) → Except Exc (List Nat × Option (List Bool))
  | .batch b => .ok (b.flow.data, b.done)
  | .raised e => .error e
  | .done => .ok ([], none)

/-- Its hypotheses are met by the demonstration of C82: the batches, the end, once more the end, and after a reset the first batch. -/
example : ∃ outs s outs' s',
    realVia 1 (demoCalls true (plainSrc (Base.sched 0 Base.Demo.world ⟨false, false⟩ 9) 1) ⟨1, 2⟩)
      (Prefetch.init (demoInit false false ["a", "x", "b"])) = some (outs, s) ∧
    outs.map realShown = [.ok ([1], some [false]), .ok ([2], some [false]), .ok ([3], some [false]), .error .stopIteration,
      .error .stopIteration, .ok ([], none), .ok ([1], some [false])] ∧
    Sampler.realHistory (Sampler.ofPlain (Base.sched 0 Base.Demo.world ⟨false, false⟩ 9)) 1
      [.next, .next, .next, .next, .next, .reset true, .next] (demoInit false false ["a", "x", "b"]) = some (outs', s') ∧
    outs = outs'.map (withDoneReal (fun _ => some [false])) := by
  have hv : (realVia 1 (demoCalls true (plainSrc (Base.sched 0 Base.Demo.world ⟨false, false⟩ 9) 1) ⟨1, 2⟩)
      (Prefetch.init (demoInit false false ["a", "x", "b"]))).map (fun q => q.1.map realShown) =
      some [.ok ([1], some [false]), .ok ([2], some [false]), .ok ([3], some [false]), .error .stopIteration,
      .error .stopIteration, .ok ([], none), .ok ([1], some [false])] := rfl
  rw [Option.map_eq_some_iff] at hv
  obtain ⟨⟨outs, s⟩, h, hsh⟩ := hv
  obtain ⟨outs', s', h1, h2⟩ := C82_real_base_partial true 0 Base.Demo.world ⟨false, false⟩ (fun h => by simp at h)
    ["a", "x", "b"] (.seed 0) Base.Demo.contents (fun p hp => Base.Demo.world_yields p (by rintro rfl; revert hp; decide))
    (Base.Demo.world_uniform _) (fun h => by simp at h) 9 (by decide) 1 (by decide) ⟨1, 2⟩ rfl _
    (fun _ => .inl rfl) (demoCalls_meet _ _ _) (fun _ => by simp [demoCalls]) outs s h
  exact ⟨outs, s, outs', s', h, hsh, h1, h2⟩

/-- C83 for the real-image sampler over the base schedulers, as `C83_base_schedulers_partial`. -/
theorem C83_real_base_partial {V D K : Type} (modern : Bool) (zero : V) (w : Base.World V D K) (bcfg : Base.Cfg)
    (hrand : bcfg.randomize = false) (fuel : Nat) (rng : Episodic.Rng Key) (hc : Episodic.ChoiceOK rng) (os : LeafDirs.OS)
    (glob : String → List String) (bs el : Option Int) (inner : Base.St D K) (key : Key) (ecfg : Episodic.Cfg)
    (e0 : Episodic.St (Base.St D K) Key)
    (h : Episodic.init (Base.sched zero w bcfg fuel) rng os glob bs el inner key = .ok (ecfg, e0))
    (dirs : List String) (hd : LeafDirs.discover os false inner.fileList = .ok dirs)
    (frame : String → Base.Sample V) (hy : ∀ d ∈ dirs, ∀ p ∈ glob d, Base.Yields w p [frame p])
    {fsh o1 o2 named} (hu : Base.Uniform ((dirs.flatMap glob).map frame) fsh o1 o2 named)
    (hf : ecfg.episodeLength * ecfg.batchSize ≤ fuel)
    (hchain : ∀ e, Reached (Base.sched zero w bcfg fuel) rng ecfg e0 e → List.IsChain (· ≠ ·) e.inner.fileList)
    (n : Nat) (pcfg : Prefetch.Cfg) (hb : pcfg.batchSize = n) (hb' : ecfg.batchSize = n)
    (A0 : Sampler.ISched (Prefetch.St (Episodic.St (Base.St D K) Key) (Base.Batch V)) (Base.Batch V))
    (calls : List (Sampler.ISched (Prefetch.St (Episodic.St (Base.St D K) Key) (Base.Batch V)) (Base.Batch V) × Sampler.Op))
    (hA : ∀ q ∈ (A0, .next) :: calls, Meets modern (episodicSrc (Base.sched zero w bcfg fuel) rng ecfg) pcfg q.1)
    (hop : ∀ q ∈ calls, q.2 ≠ .reset true) (outs : List (Sampler.Out (Sampler.RealBatch V)))
    (s : Prefetch.St (Episodic.St (Base.St D K) Key) (Base.Batch V))
    (hr : realVia n ((A0, .next) :: calls) (Prefetch.init e0) = some (outs, s)) :
    ∃ s', Sampler.realHistory (Sampler.ofEpisodic (Base.sched zero w bcfg fuel) rng ecfg) n (.next :: calls.map Prod.snd) e0 =
      some (outs, s') := by
  rw [← view_id] at h hchain hA ⊢
  obtain ⟨h0, h1, h2, h3, h4⟩ := base_episodes id zero w bcfg hrand fuel rng hc os glob bs el inner key ecfg e0 h dirs hd
    frame hy hu hf hchain
  exact C83_real_sampler_partial modern _ rng ecfg n pcfg hb hb' e0 h0 h1 h2 h3 h4 A0 calls hA hop outs s hr

/-- The film without the projection to flow fields. -/
def filmReal : Sched (Base.St Unit KeyTerm) (Base.Batch Nat) := Base.sched 0 filmWorld ⟨false, false⟩ 9

/-- A call on the real-image sampler over the film. -/
def filmRealCall (w1 w2 w3 ds : List Action) (op : Sampler.Op) :
    Sampler.ISched (Prefetch.St (Episodic.St (Base.St Unit KeyTerm) Nat) (Base.Batch Nat)) (Base.Batch Nat) × Sampler.Op :=
  (scripted true (episodicSrc filmReal filmRng filmCfg) ⟨1, 4⟩ w1 w2 w3 ds, op)

/-- Its hypotheses are met: an episode to its end and past it, one frame of the second, the third. -/
example : ∃ outs s s',
    realVia 1 [filmRealCall [] demoRound [] [] .next, filmRealCall demoRound [.check, .fetch] [] [] .next,
        filmRealCall [] [] [] [] .next, filmRealCall [] [] [] [] .nextEpisode, filmRealCall [] demoRound [] [] .next,
        filmRealCall [] [] [] (demoRound ++ [.discard]) .nextEpisode,
        filmRealCall [] ([.check, .fetch] ++ demoRound) [] [] .next] (Prefetch.init filmInit) = some (outs, s) ∧
    outs.map realShown = [.ok ([10], some [false]), .ok ([11], some [true]), .error .episodeEnd, .ok ([], none),
      .ok ([11], some [false]), .ok ([], none), .ok ([10], some [false])] ∧
    Sampler.realHistory (Sampler.ofEpisodic filmReal filmRng filmCfg) 1
      [.next, .next, .next, .nextEpisode, .next, .nextEpisode, .next] filmInit = some (outs, s') := by
  have hv : (realVia 1 [filmRealCall [] demoRound [] [] .next, filmRealCall demoRound [.check, .fetch] [] [] .next,
        filmRealCall [] [] [] [] .next, filmRealCall [] [] [] [] .nextEpisode, filmRealCall [] demoRound [] [] .next,
        filmRealCall [] [] [] (demoRound ++ [.discard]) .nextEpisode,
        filmRealCall [] ([.check, .fetch] ++ demoRound) [] [] .next] (Prefetch.init filmInit)).map (fun q => q.1.map realShown) =
      some [.ok ([10], some [false]), .ok ([11], some [true]), .error .episodeEnd, .ok ([], none),
      .ok ([11], some [false]), .ok ([], none), .ok ([10], some [false])] := by decide +kernel
  rw [Option.map_eq_some_iff] at hv
  obtain ⟨⟨outs, s⟩, h, hsh⟩ := hv
  have hglob : ∀ d, (Episodic.demoGlob d).Nodup := by
    intro d
    unfold Episodic.demoGlob
    split
    · decide
    · split <;> decide
  have hinit : Episodic.init filmReal filmRng Episodic.demoOS Episodic.demoGlob (some 1) (some 2) filmInner 0 =
    .ok (filmCfg, filmInit) := by decide +kernel
  obtain ⟨s', h1⟩ := C83_real_base_partial true 0 filmWorld ⟨false, false⟩ rfl 9 filmRng filmRng_ok Episodic.demoOS
    Episodic.demoGlob (some 1) (some 2) filmInner 0 filmCfg filmInit hinit ["d"] (by decide +kernel)
    (fun p => ⟨⟨[1, 1, 1], [if p = "d0" then 10 else if p = "d1" then 11 else 12]⟩, none, none, some [p]⟩)
    (by
      intro _ _ p _
      refine ⟨fun i hi => ?_, rfl⟩
      have h0 : i = 0 := Nat.lt_one_iff.mp hi
      subst h0
      rfl) (fsh := [1, 1, 1]) (o1 := none) (o2 := none) (named := true)
    (Base.Demo.sample_uniform (fun x hx => by
      obtain ⟨p, _, rfl⟩ := List.mem_map.mp hx
      exact ⟨_, _, rfl⟩)) (by decide)
    (fun e he => single_episode_chain (Episodic.base_keepsFiles 0 filmWorld ⟨false, false⟩ rfl 9) filmRng_ok hglob hinit rfl he)
    1 ⟨1, 4⟩ rfl rfl _ _ (by
      simp only [List.forall_mem_cons, filmRealCall]
      exact ⟨demo_meets _ _ _ _ _ _ _ rfl rfl, demo_meets _ _ _ _ _ _ _ rfl rfl, demo_meets _ _ _ _ _ _ _ rfl rfl,
        demo_meets _ _ _ _ _ _ _ rfl rfl,
        demo_meets _ _ _ _ _ _ _ rfl rfl, demo_meets _ _ _ _ _ _ _ rfl rfl, demo_meets _ _ _ _ _ _ _ rfl rfl, by simp⟩) (by simp [filmRealCall]) outs s h
  exact ⟨outs, s, s', h, hsh, h1⟩

end Verif.Stack
