import Verif.Proofs.StackLive
/-!
# Lemmas: there is a schedule of the two threads in which every call on a buffered episodic scheduler returns
-/

namespace Verif.Stack
open Verif Prefetch
variable {S B Key : Type}

/-! ## Any scheduler that can be at rest between calls -/

/-- Outcomes chosen among the possible ones so that the state is in `Q` afterwards. -/
noncomputable def chosen (modern : Bool) (p : Src S B) (pcfg : Prefetch.Cfg) (Q : Prefetch.St S B → Prop) :
    Sampler.ISched (Prefetch.St S B) B := by
  classical exact
  { getBatch := fun k s => if h : ∃ q : Except Exc B × Prefetch.St S B, GetCall p pcfg k s q.1 q.2 ∧ Q q.2 then some h.choose else none
    reset := fun s => if h : ∃ s', ResetCall p pcfg s s' ∧ Q s' then .ok h.choose else .error .runtimeError
    episodic := if seenEpisodic modern p then
        some (stepsRemaining p, fun s => if h : ∃ s', NextCall p pcfg s s' ∧ Q s' then .ok h.choose else .error .runtimeError)
      else none }

theorem chosen_meets (modern : Bool) (p : Src S B) (pcfg : Prefetch.Cfg) (Q : Prefetch.St S B → Prop) : Meets modern p pcfg (chosen modern p pcfg Q) where
  getBatch k s r s' h := by
    unfold chosen at h
    dsimp only at h
    split at h
    · rename_i hx
      have := hx.choose_spec.1
      rw [Option.some.injEq] at h
      rw [h] at this
      exact this
    · cases h
  reset s s' h := by
    unfold chosen at h
    dsimp only at h
    split at h
    · rename_i hx
      have := hx.choose_spec.1
      rw [Except.ok.injEq] at h
      rw [h] at this
      exact this
    · cases h
  episodic h := by
    unfold chosen
    dsimp only
    rw [if_pos h]
    refine ⟨_, rfl, ?_⟩
    intro s s' hs
    split at hs
    · rename_i hx
      have := hx.choose_spec.1
      rw [Except.ok.injEq] at hs
      rw [hs] at this
      exact this
    · cases hs
  plain h := by
    unfold chosen
    dsimp only
    rw [if_neg (by simp [h])]

/-- In every state in `Q` every call can return, and lead to a state in `Q`. -/
structure Restful (p : Src S B) (pcfg : Prefetch.Cfg) (Q : Prefetch.St S B → Prop) : Prop where
  get : ∀ s, Q s → ∃ r s', GetCall p pcfg pcfg.batchSize s r s' ∧ Q s'
  reset : ∀ s, Q s → ∃ s', ResetCall p pcfg s s' ∧ Q s'
  next : ∀ s, Q s → ∃ s', NextCall p pcfg s s' ∧ Q s'

variable {p : Src S B} {pcfg : Prefetch.Cfg} {Q : Prefetch.St S B → Prop} {modern : Bool}

theorem Restful.chosen_get (h : Restful p pcfg Q) {s : Prefetch.St S B} (hs : Q s) :
    ∃ r s', (chosen modern p pcfg Q).getBatch pcfg.batchSize s = some (r, s') ∧ Q s' := by
  obtain ⟨r, s', h1, h2⟩ := h.get s hs
  have hx : ∃ q : Except Exc B × Prefetch.St S B, GetCall p pcfg pcfg.batchSize s q.1 q.2 ∧ Q q.2 := ⟨(r, s'), h1, h2⟩
  refine ⟨hx.choose.1, hx.choose.2, ?_, hx.choose_spec.2⟩
  unfold chosen
  dsimp only
  rw [dif_pos hx]

theorem Restful.chosen_reset (h : Restful p pcfg Q) {s : Prefetch.St S B} (hs : Q s) : ∃ s', (chosen modern p pcfg Q).reset s = .ok s' ∧ Q s' := by
  have hx := h.reset s hs
  refine ⟨hx.choose, ?_, hx.choose_spec.2⟩
  unfold chosen
  dsimp only
  rw [dif_pos hx]

theorem Restful.chosen_next (h : Restful p pcfg Q) {s : Prefetch.St S B} (hs : Q s) :
    ∀ e, (chosen modern p pcfg Q).episodic = some e → ∃ s', e.2 s = .ok s' ∧ Q s' := by
  intro e he
  unfold chosen at he
  dsimp only at he
  split at he
  · rw [Option.some.injEq] at he
    subst he
    have hx := h.next s hs
    refine ⟨hx.choose, ?_, hx.choose_spec.2⟩
    dsimp only
    rw [dif_pos hx]
  · cases he

/-- Every history of calls on a synthetic sampler can take place. -/
theorem Restful.calls_return {F O I : Type} {p : Src S (Sampler.FlowBatch F)} {Q : Prefetch.St S (Sampler.FlowBatch F) → Prop} (h : Restful p pcfg Q)
    (modern : Bool) (g : Sampler.Gen F O I) (cfg : Sampler.Cfg) (hb : pcfg.batchSize = cfg.ffpb) {a0 : Prefetch.St S (Sampler.FlowBatch F)} (h0 : Q a0)
    (ops : List Sampler.Op) :
    ∃ (calls : List (Sampler.ISched (Prefetch.St S (Sampler.FlowBatch F)) (Sampler.FlowBatch F) × Sampler.Op)) (outs : List (Sampler.Out (Sampler.OutBatch O I)))
      (st : Sampler.St (Prefetch.St S (Sampler.FlowBatch F)) F O), calls.map Prod.snd = ops ∧
      (∀ q ∈ calls, Meets modern p pcfg q.1) ∧ runVia g cfg calls (Sampler.init cfg a0) = some (outs, st) := by
  suffices main : ∀ (ops : List Sampler.Op) (a : Sampler.St (Prefetch.St S (Sampler.FlowBatch F)) F O), Q a.sched →
      ∃ outs st, runVia g cfg (ops.map (fun op => (chosen modern p pcfg Q, op))) a = some (outs, st) by
    obtain ⟨outs, st, h⟩ := main ops (Sampler.init cfg a0) h0
    refine ⟨_, outs, st, ?_, ?_, h⟩
    · rw [List.map_map]
      exact List.map_id' _
    · intro q hq
      obtain ⟨op, _, rfl⟩ := List.mem_map.mp hq
      exact chosen_meets modern p pcfg Q
  intro ops
  induction ops with
  | nil => intro a _; exact ⟨[], a, rfl⟩
  | cons op ops ih =>
    intro a ha
    have hstep : returns (chosen modern p pcfg Q) a.sched op = true ∧
        ∃ o a', Sampler.step (chosen modern p pcfg Q) g cfg a op = some (o, a') ∧ Q a'.sched := by
      cases op with
      | next =>
        refine ⟨rfl, ?_⟩
        suffices hn : ∃ r a', Sampler.next (chosen modern p pcfg Q) g cfg a = some (r, a') ∧ Q a'.sched by
          obtain ⟨r, a', h1, h2⟩ := hn
          exact ⟨Sampler.batchOut r, a', by simp [Sampler.step, h1], h2⟩
        suffices hg : ∃ r a', Sampler.getNext (chosen modern p pcfg Q) g cfg a = some (r, a') ∧ Q a'.sched by
          obtain ⟨r, a', h1, h2⟩ := hg
          unfold Sampler.next
          split
          · exact ⟨_, _, rfl, ha⟩
          · rw [h1]
            cases r with
            | ok b => exact ⟨_, _, rfl, h2⟩
            | error e => exact ⟨_, _, rfl, h2⟩
        have hf : ∃ r a', Sampler.getNext.fetch (chosen modern p pcfg Q) g cfg a = some (r, a') ∧ Q a'.sched := by
          obtain ⟨r, a', h1, h2⟩ := h.chosen_get (modern := modern) ha
          unfold Sampler.getNext.fetch
          rw [← hb, h1]
          cases r with
          | error e => exact ⟨_, _, rfl, h2⟩
          | ok b =>
            dsimp only
            split
            · exact ⟨_, _, rfl, h2⟩
            · exact some_produce (P := Q) g cfg _ h2
        unfold Sampler.getNext
        cases hc : a.cur with
        | none => exact hf
        | some flows =>
          dsimp only
          split
          · exact some_produce (P := Q) g cfg _ ha
          · exact hf
      | reset full =>
        cases full with
        | false => exact ⟨rfl, _, _, rfl, ha⟩
        | true =>
          obtain ⟨a', h1, h2⟩ := h.chosen_reset (modern := modern) ha
          refine ⟨by simp [returns, h1], .done, { Sampler.resetSelf cfg a with sched := a' }, ?_, h2⟩
          simp [Sampler.step, Sampler.reset, Sampler.resetSelf, h1, Sampler.unitOut]
      | nextEpisode =>
        have h1 := h.chosen_next (modern := modern) ha
        refine ⟨?_, ?_⟩
        · unfold returns
          dsimp only
          split
          · rename_i e he
            obtain ⟨s', h2, _⟩ := h1 e he
            rw [h2]
          · rfl
        · refine ⟨_, _, rfl, ?_⟩
          unfold Sampler.nextEpisode
          split
          · exact ha
          · rename_i e he
            obtain ⟨s', h2, h3⟩ := h1 e he
            rw [h2]
            exact h3
    obtain ⟨hr, o, a', hs, hq⟩ := hstep
    obtain ⟨outs, st, h⟩ := ih a' hq
    refine ⟨o :: outs, st, ?_⟩
    rw [List.map_cons, runVia]
    dsimp only
    rw [if_pos hr, hs]
    dsimp only
    rw [h]

/-- Every history of calls on a real-image sampler can take place. -/
theorem Restful.real_calls_return {V : Type} {p : Src S (Base.Batch V)} {Q : Prefetch.St S (Base.Batch V) → Prop} (h : Restful p pcfg Q)
    (modern : Bool) {a0 : Prefetch.St S (Base.Batch V)} (h0 : Q a0) (ops : List Sampler.Op) :
    ∃ (calls : List (Sampler.ISched (Prefetch.St S (Base.Batch V)) (Base.Batch V) × Sampler.Op)) (outs : List (Sampler.Out (Sampler.RealBatch V)))
      (st : Prefetch.St S (Base.Batch V)), calls.map Prod.snd = ops ∧
      (∀ q ∈ calls, Meets modern p pcfg q.1) ∧ realVia pcfg.batchSize calls a0 = some (outs, st) := by
  suffices main : ∀ (ops : List Sampler.Op) (a : Prefetch.St S (Base.Batch V)), Q a →
      ∃ outs st, realVia pcfg.batchSize (ops.map (fun op => (chosen modern p pcfg Q, op))) a = some (outs, st) by
    obtain ⟨outs, st, h⟩ := main ops a0 h0
    refine ⟨_, outs, st, ?_, ?_, h⟩
    · rw [List.map_map]
      exact List.map_id' _
    · intro q hq
      obtain ⟨op, _, rfl⟩ := List.mem_map.mp hq
      exact chosen_meets modern p pcfg Q
  intro ops
  induction ops with
  | nil => intro a _; exact ⟨[], a, rfl⟩
  | cons op ops ih =>
    intro a ha
    have hstep : returns (chosen modern p pcfg Q) a op = true ∧
        ∃ o a', Sampler.realStep (chosen modern p pcfg Q) pcfg.batchSize a op = some (o, a') ∧ Q a' := by
      cases op with
      | next =>
        refine ⟨rfl, ?_⟩
        suffices hn : ∃ r a', Sampler.realNext (chosen modern p pcfg Q) pcfg.batchSize a = some (r, a') ∧ Q a' by
          obtain ⟨r, a', h1, h2⟩ := hn
          exact ⟨Sampler.batchOut r, a', by simp [Sampler.realStep, h1], h2⟩
        obtain ⟨r, a', h1, h2⟩ := h.chosen_get (modern := modern) ha
        unfold Sampler.realNext
        split
        · exact ⟨_, _, rfl, ha⟩
        · unfold Sampler.realGetNext
          rw [h1]
          cases r with
          | ok b => exact ⟨_, _, rfl, h2⟩
          | error e => exact ⟨_, _, rfl, h2⟩
      | reset full =>
        cases full with
        | false => exact ⟨rfl, _, _, rfl, ha⟩
        | true =>
          obtain ⟨a', h1, h2⟩ := h.chosen_reset (modern := modern) ha
          exact ⟨by simp [returns, h1], .done, a', by simp [Sampler.realStep, h1], h2⟩
      | nextEpisode =>
        have h1 := h.chosen_next (modern := modern) ha
        refine ⟨?_, ?_⟩
        · unfold returns
          dsimp only
          split
          · rename_i e he
            obtain ⟨s', h2, _⟩ := h1 e he
            rw [h2]
          · rfl
        · unfold Sampler.realStep
          cases he : (chosen modern p pcfg Q).episodic with
          | none => exact ⟨_, _, rfl, ha⟩
          | some e =>
            dsimp only
            obtain ⟨s', h2, h3⟩ := h1 e he
            rw [h2]
            exact ⟨_, _, rfl, h3⟩
    obtain ⟨hr, o, a', hs, hq⟩ := hstep
    obtain ⟨outs, st, h⟩ := ih a' hq
    refine ⟨o :: outs, st, ?_⟩
    rw [List.map_cons, realVia]
    dsimp only
    rw [if_pos hr, hs]
    dsimp only
    rw [h]

/-! ## An episodic scheduler -/

/-- What the worker needs of an episodic scheduler: `G t s` says that `s` stands before step `t`. -/
structure Playable (p : Src S B) (L : Nat) (G : Nat → S → Prop) : Prop where
  length : p.episodeLength = some L
  pos : 0 < L
  step : ∀ t s, t < L → G t s → ∃ b s', p.getBatch s = (.ok b, s') ∧ G (t + 1) s'
  over : ∀ s, G L s → p.getBatch s = (.error .episodeEnd, s)
  next : ∀ t s, G t s → G 0 (p.nextEpisode s)
  reset : ∀ t s, G t s → G 0 (p.reset s)

/-- Between two calls: the queue is empty, the worker has not been started or waits at the loop condition, and the scheduler has served
as many steps as were delivered, or waits at the end of the previous episode. -/
structure QuietE (L : Nat) (G : Nat → S → Prop) (a : Prefetch.St S B) : Prop where
  idle : a.c = .idle
  empty : a.queue = []
  running : a.stop = false
  worker : (a.w = .idle ∧ a.started = false ∧ a.t = 0) ∨ (a.w = .loop ∧ a.started = true)
  le : a.t ≤ L
  place : G a.t a.src ∨ (a.t = 0 ∧ G L a.src)

theorem quietE_init {L : Nat} {G : Nat → S → Prop} {s : S} (h : G 0 s) : QuietE L G (Prefetch.init s : Prefetch.St S B) :=
  ⟨rfl, rfl, rfl, .inl ⟨rfl, rfl, rfl⟩, Nat.zero_le _, .inl h⟩

theorem quietE_get {L : Nat} {G : Nat → S → Prop} (hp : Playable p L G) (hbuf : 0 < pcfg.bufferSize) {a : Prefetch.St S B} (h : QuietE L G a) :
    ∃ r a', GetCall p pcfg pcfg.batchSize a r a' ∧ QuietE L G a' := by
  obtain ⟨src, queue, stop, started, startup, t, w, c⟩ := a
  obtain ⟨h1, h2, h3, h4, h5, h6⟩ := h
  simp only at h1 h2 h3 h4 h5 h6
  subst h1 h2 h3
  have hst : startWorker (⟨src, [], false, started, startup, t, w, .idle⟩ : Prefetch.St S B) = ⟨src, [], false, true, startup, t, .loop, .idle⟩ := by
    rcases h4 with ⟨rfl, rfl, -⟩ | ⟨rfl, rfl⟩ <;> rfl
  by_cases ht : L ≤ t
  · refine ⟨.error .episodeEnd, ⟨src, [], false, true, startup, t, .loop, .idle⟩, ⟨[], [], _, _, background_nil, background_nil, rfl, .inl ⟨.episodeEnd, ?_, rfl⟩⟩,
      ⟨rfl, rfl, rfl, .inr ⟨rfl, rfl⟩, h5, h6⟩⟩
    simp only [act, hp.length]
    rw [if_neg (by simp), if_pos ht, hst]
  · have hget : act p pcfg (.get pcfg.batchSize) ⟨src, [], false, started, startup, t, w, .idle⟩ =
        some (⟨src, [], false, true, startup, t, .loop, .getWait⟩, .tau) := by
      simp only [act, hp.length]
      rw [if_neg (by simp), if_neg ht, hst]
    rcases h6 with h6 | ⟨rfl, h6⟩
    · obtain ⟨b, s', hb, hs'⟩ := hp.step t src (by omega) h6
      refine ⟨.ok b, ⟨s', [], false, true, false, t + 1, .loop, .idle⟩, ⟨[], [.check, .fetch, .put], _, _, background_nil, background_of rfl, rfl, .inr ?_⟩,
        ⟨rfl, rfl, rfl, .inr ⟨rfl, rfl⟩, by show t + 1 ≤ L; omega, .inl hs'⟩⟩
      refine ⟨_, ⟨s', [some b], false, true, startup, t, .loop, .getWait⟩, [.tau, .fetched b, .tau], .ret t b, .take, hget, ?_, .inl rfl, rfl, rfl⟩
      simp [Prefetch.run, act, fetchStep, hb, hbuf]
    · obtain ⟨b, s', hb, hs'⟩ := hp.step 0 _ hp.pos (hp.next L src h6)
      have hov := hp.over src h6
      refine ⟨.ok b, ⟨s', [], false, true, false, 0 + 1, .loop, .idle⟩, ⟨[], [.check, .fetch, .check, .fetch, .put], _, _, background_nil, background_of rfl, rfl, .inr ?_⟩,
        ⟨rfl, rfl, rfl, .inr ⟨rfl, rfl⟩, by show 0 + 1 ≤ L; have := hp.pos; omega, .inl hs'⟩⟩
      refine ⟨_, ⟨s', [some b], false, true, startup, 0, .loop, .getWait⟩, [.tau, .tau, .tau, .fetched b, .tau], .ret 0 b, .take, hget, ?_, .inl rfl, rfl, rfl⟩
      simp [Prefetch.run, act, fetchStep, hov, hp.length, hb, hbuf]

theorem quietE_reset {L : Nat} {G : Nat → S → Prop} (hp : Playable p L G) {a : Prefetch.St S B} (h : QuietE L G a) :
    ∃ a', ResetCall p pcfg a a' ∧ QuietE L G a' := by
  obtain ⟨src, queue, stop, started, startup, t, w, c⟩ := a
  obtain ⟨h1, h2, h3, h4, h5, h6⟩ := h
  simp only at h1 h2 h3 h4 h5 h6
  subst h1 h2 h3
  refine ⟨Prefetch.init (p.reset src), ?_, quietE_init (by rcases h6 with h6 | ⟨_, h6⟩ <;> exact hp.reset _ _ h6)⟩
  rcases h4 with ⟨rfl, rfl, -⟩ | ⟨rfl, rfl⟩
  · exact ⟨[], [], [], _, background_nil, background_nil, background_nil, rfl⟩
  · exact ⟨[], [.check], [], _, background_nil, background_of rfl, background_nil, rfl⟩

theorem run_cons {a : Action} {as : List Action} {s s' s'' : Prefetch.St S B} {o : Prefetch.Out B} {outs : List (Prefetch.Out B)}
    (h1 : act p pcfg a s = some (s', o)) (h2 : Prefetch.run p pcfg as s' = some (s'', outs)) :
    Prefetch.run p pcfg (a :: as) s = some (s'', o :: outs) := by
  rw [Prefetch.run, h1]
  dsimp only
  rw [h2]

/-- The worker fetches and `next_episode` discards, until the end of the episode. -/
theorem discard_all {L : Nat} {G : Nat → S → Prop} (hp : Playable p L G) (hbuf : 0 < pcfg.bufferSize) (startup : Bool) (t0 : Nat) :
    ∀ (k t : Nat) (src : S), 0 < k → t + k = L → G t src → ∃ as outs src', (∀ a ∈ as, a.isWorker = true ∧ a ≠ .eosTimeout ∨ a = .discard) ∧
      Prefetch.run p pcfg as (⟨src, [], false, true, startup, t0, .loop, .discard k⟩ : Prefetch.St S B) =
        some (⟨src', [], false, true, startup, 0, .loop, .idle⟩, outs) ∧ G L src' := by
  intro k
  induction k with
  | zero => intro t src h; omega
  | succ k ih =>
    intro t src _ hk hG
    obtain ⟨b, s', hb, hs'⟩ := hp.step t src (by omega) hG
    have hfetch : ∀ c, Prefetch.run p pcfg [.check, .fetch, .put] (⟨src, [], false, true, startup, t0, .loop, c⟩ : Prefetch.St S B) =
        some (⟨s', [some b], false, true, startup, t0, .loop, c⟩, [.tau, .fetched b, .tau]) := by
      intro c
      simp [Prefetch.run, act, fetchStep, hb, hbuf]
    by_cases h1 : k = 0
    · subst h1
      refine ⟨[.check, .fetch, .put, .discard], [.tau, .fetched b, .tau, .removed (some b)], s', by simp [Action.isWorker], ?_, by rw [show L = t + 1 by omega]; exact hs'⟩
      simp [Prefetch.run, act, fetchStep, hb, hbuf]
    · obtain ⟨as, outs, src', e1, e2, e3⟩ := ih (t + 1) s' (by omega) (by omega) hs'
      refine ⟨.check :: .fetch :: .put :: .discard :: as, .tau :: .fetched b :: .tau :: .removed (some b) :: outs, src', ?_, ?_, e3⟩
      · intro a ha
        simp only [List.mem_cons] at ha
        rcases ha with rfl | rfl | rfl | rfl | ha
        · simp [Action.isWorker]
        · simp [Action.isWorker]
        · simp [Action.isWorker]
        · simp
        · exact e1 a ha
      · refine run_cons (s' := ⟨src, [], false, true, startup, t0, .fetch, .discard (k + 1)⟩) rfl ?_
        refine run_cons (s' := ⟨s', [], false, true, startup, t0, .put b, .discard (k + 1)⟩) (by simp [act, fetchStep, hb]) ?_
        refine run_cons (s' := ⟨s', [some b], false, true, startup, t0, .loop, .discard (k + 1)⟩) (by simp [act, hbuf]) ?_
        refine run_cons (s' := ⟨s', [], false, true, startup, t0, .loop, .discard k⟩) (by simp [act]; omega) e2

theorem quietE_next {L : Nat} {G : Nat → S → Prop} (hp : Playable p L G) (hbuf : 0 < pcfg.bufferSize) {a : Prefetch.St S B} (h : QuietE L G a) :
    ∃ a', NextCall p pcfg a a' ∧ QuietE L G a' := by
  obtain ⟨src, queue, stop, started, startup, t, w, c⟩ := a
  obtain ⟨h1, h2, h3, h4, h5, h6⟩ := h
  simp only at h1 h2 h3 h4 h5 h6
  subst h1 h2 h3
  by_cases hd : started = true ∧ t < L
  · obtain ⟨rfl, ht⟩ := hd
    have hw : w = .loop := by
      rcases h4 with ⟨_, h, _⟩ | ⟨h, _⟩
      · cases h
      · exact h
    subst hw
    have hnext : act p pcfg .nextEpisode (⟨src, [], false, true, startup, t, .loop, .idle⟩ : Prefetch.St S B) =
        some (⟨src, [], false, true, startup, t, .loop, .discard (L - t)⟩, .tau) := by
      simp only [act, hp.length]
      rw [if_pos ⟨trivial, ht⟩]
    rcases h6 with h6 | ⟨rfl, h6⟩
    · obtain ⟨as, outs, src', e1, e2, e3⟩ := discard_all hp hbuf startup t (L - t) t src (by omega) (by omega) h6
      exact ⟨_, ⟨[], as, _, background_nil, e1, run_cons hnext e2, rfl⟩, ⟨rfl, rfl, rfl, .inr ⟨rfl, rfl⟩, Nat.zero_le _, .inr ⟨rfl, e3⟩⟩⟩
    · obtain ⟨as, outs, src', e1, e2, e3⟩ := discard_all hp hbuf startup 0 (L - 0) 0 (p.nextEpisode src) (by omega) (by omega) (hp.next L src h6)
      have hov := hp.over src h6
      refine ⟨_, ⟨[], .check :: .fetch :: as, _, background_nil, ?_, run_cons hnext (run_cons (s' := ⟨src, [], false, true, startup, 0, .fetch, .discard (L - 0)⟩) rfl
        (run_cons (o := .tau) (s' := ⟨p.nextEpisode src, [], false, true, startup, 0, .loop, .discard (L - 0)⟩) ?_ e2)), rfl⟩,
        ⟨rfl, rfl, rfl, .inr ⟨rfl, rfl⟩, Nat.zero_le _, .inr ⟨rfl, e3⟩⟩⟩
      · intro a ha
        simp only [List.mem_cons] at ha
        rcases ha with rfl | rfl | ha
        · simp [Action.isWorker]
        · simp [Action.isWorker]
        · exact e1 a ha
      · simp [act, fetchStep, hov, hp.length]
  · have hst : startWorker (⟨src, [], false, started, startup, t, w, .idle⟩ : Prefetch.St S B) = ⟨src, [], false, true, startup, t, .loop, .idle⟩ := by
      rcases h4 with ⟨rfl, rfl, -⟩ | ⟨rfl, rfl⟩ <;> rfl
    refine ⟨⟨src, [], false, true, startup, 0, .loop, .idle⟩, ⟨[], [], [.tau], background_nil, by simp, ?_, rfl⟩, ?_⟩
    · refine run_cons ?_ rfl
      simp only [act, hp.length]
      rw [if_neg hd, hst]
    · refine ⟨rfl, rfl, rfl, .inr ⟨rfl, rfl⟩, Nat.zero_le _, ?_⟩
      rcases h4 with ⟨_, _, h0⟩ | ⟨_, h0⟩
      · subst h0
        rcases h6 with h6 | ⟨_, h6⟩
        · exact .inl h6
        · exact .inr ⟨rfl, h6⟩
      · have : t = L := by
          have : ¬ t < L := fun h => hd ⟨h0, h⟩
          omega
        subst this
        rcases h6 with h6 | ⟨_, h6⟩ <;> exact .inr ⟨rfl, h6⟩

theorem quietE_restful {L : Nat} {G : Nat → S → Prop} (hp : Playable p L G) (hbuf : 0 < pcfg.bufferSize) :
    Restful p pcfg (QuietE L G) :=
  ⟨fun _ h => quietE_get hp hbuf h, fun _ h => quietE_reset hp h, fun _ h => quietE_next hp hbuf h⟩

end Verif.Stack
