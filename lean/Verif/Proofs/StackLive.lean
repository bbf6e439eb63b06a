import Verif.Props.StackReal
/-!
# Lemmas: there is a schedule of the two threads in which every call returns
-/

namespace Verif.Stack
open Verif Prefetch
variable {S B Key : Type}

/-- Between two calls: the queue is empty, the worker has not been started, waits at the loop condition, or has ended. -/
structure Quiet (sch : Sched S B) (n : Nat) (s0 : S) (a : Prefetch.St S B) : Prop where
  idle : a.c = .idle
  empty : a.queue = []
  worker : (a.w = .idle ∧ a.started = false ∧ a.stop = false) ∨ (a.w = .loop ∧ a.started = true ∧ a.stop = false) ∨
    (a.w = .exited ∧ a.started = true)
  reached : PlainReached sch n s0 a.src

theorem quiet_init {sch : Sched S B} {n : Nat} {s0 s : S} (h : PlainReached sch n s0 s) : Quiet sch n s0 (Prefetch.init s) :=
  ⟨rfl, rfl, .inl ⟨rfl, rfl, rfl⟩, h⟩

theorem background_nil : Background [] := by intro a ha; cases ha

theorem background_of {l : List Action} (h : l.all (fun a => a.isWorker && decide (a ≠ .eosTimeout)) = true) : Background l := by
  intro a ha
  have := List.all_eq_true.mp h a ha
  simpa using this

/-- In such a state `get_batch` can return. -/
theorem quiet_get {sch : Sched S B} {n : Nat} {s0 : S} {pcfg : Prefetch.Cfg} (hb : pcfg.batchSize = n) (hbuf : 0 < pcfg.bufferSize)
    (hret : ∀ σ, PlainReached sch n s0 σ → (sch.getBatch n σ).isSome)
    (hstop : ∀ σ e σ', PlainReached sch n s0 σ → sch.getBatch n σ = some (.error e, σ') → e = .stopIteration)
    {a : Prefetch.St S B} (h : Quiet sch n s0 a) : ∃ r a', GetCall (plainSrc sch n) pcfg n a r a' ∧ Quiet sch n s0 a' := by
  obtain ⟨q, hq⟩ := Option.isSome_iff_exists.mp (hret _ h.reached)
  obtain ⟨r, σ'⟩ := q
  have hre : PlainReached sch n s0 σ' := .getBatch h.reached hq
  obtain ⟨src, queue, stop, started, startup, t, w, c⟩ := a
  obtain ⟨h1, h2, h3, h4⟩ := h
  simp only at h1 h2 h3 h4 hq
  subst h1 h2
  have hsrc : (plainSrc sch n).getBatch src = (r, σ') := by simp [plainSrc, hq]
  have hlive : ∀ (w0 : WPc B) (st : Bool), startWorker (⟨src, [], false, st, startup, t, w0, .idle⟩ : Prefetch.St S B) =
      ⟨src, [], false, true, startup, t, .loop, .idle⟩ →
      ∃ r' a', GetCall (plainSrc sch n) pcfg n ⟨src, [], false, st, startup, t, w0, .idle⟩ r' a' ∧ Quiet sch n s0 a' := by
    intro w0 st hst
    have hget : act (plainSrc sch n) pcfg (.get n) ⟨src, [], false, st, startup, t, w0, .idle⟩ =
        some (⟨src, [], false, true, startup, t, .loop, .getWait⟩, .tau) := by
      simp only [act]
      rw [if_neg (by simp [hb]), hst]
      rfl
    cases r with
    | ok b =>
      refine ⟨.ok b, ⟨σ', [], false, true, false, t + 1, .loop, .idle⟩, ⟨[], [.check, .fetch, .put], _, _, background_nil, ?_, rfl, .inr ?_⟩,
        ⟨rfl, rfl, .inr (.inl ⟨rfl, rfl, rfl⟩), hre⟩⟩
      · exact background_of rfl
      · refine ⟨_, ⟨σ', [some b], false, true, startup, t, .loop, .getWait⟩, [.tau, .fetched b, .tau], .ret t b, .take, hget, ?_, .inl rfl, rfl, rfl⟩
        simp [Prefetch.run, act, fetchStep, hsrc, hbuf]
    | error e =>
      have he := hstop _ _ _ h4 hq
      subst he
      refine ⟨.error .stopIteration, ⟨σ', [], true, true, false, t + 1, .exited, .idle⟩,
        ⟨[], [.check, .fetch, .eosPut, .eosStop], _, _, background_nil, ?_, rfl, .inr ?_⟩, ⟨rfl, rfl, .inr (.inr ⟨rfl, rfl⟩), hre⟩⟩
      · exact background_of rfl
      · refine ⟨_, ⟨σ', [none], true, true, startup, t, .exited, .getWait⟩, [.tau, .tau, .tau, .tau], .stop false, .take, hget, ?_, .inl rfl, rfl, rfl⟩
        simp [Prefetch.run, act, fetchStep, hsrc, hbuf]
  rcases h3 with ⟨rfl, rfl, rfl⟩ | ⟨rfl, rfl, rfl⟩ | ⟨rfl, rfl⟩
  · exact hlive _ _ rfl
  · exact hlive _ _ rfl
  · refine ⟨.error .stopIteration, ⟨src, [], stop, true, startup, t, .exited, .idle⟩, ⟨[], [], _, _, background_nil, background_nil, rfl, .inr ?_⟩,
      ⟨rfl, rfl, .inr (.inr ⟨rfl, rfl⟩), h4⟩⟩
    refine ⟨⟨src, [], stop, true, startup, t, .exited, .getWait⟩, _, _, .stop true, .timeout, ?_, rfl, .inr ⟨rfl, rfl⟩, rfl, rfl⟩
    simp only [act]
    rw [if_neg (by simp [hb])]
    rfl

/-- In such a state `reset` can return. -/
theorem quiet_reset {sch : Sched S B} {n : Nat} {s0 : S} (pcfg : Prefetch.Cfg) {a : Prefetch.St S B} (h : Quiet sch n s0 a) :
    ∃ a', ResetCall (plainSrc sch n) pcfg a a' ∧ Quiet sch n s0 a' := by
  obtain ⟨src, queue, stop, started, startup, t, w, c⟩ := a
  obtain ⟨h1, h2, h3, h4⟩ := h
  simp only at h1 h2 h3 h4
  subst h1 h2
  refine ⟨Prefetch.init (sch.reset src), ?_, quiet_init (.reset h4)⟩
  rcases h3 with ⟨rfl, rfl, rfl⟩ | ⟨rfl, rfl, rfl⟩ | ⟨rfl, rfl⟩
  · exact ⟨[], [], [], _, background_nil, background_nil, background_nil, rfl⟩
  · exact ⟨[], [.check], [], _, background_nil, background_of rfl, background_nil, rfl⟩
  · exact ⟨[], [], [], _, background_nil, background_nil, background_nil, rfl⟩

/-- Outcomes chosen among the possible ones so that the scheduler is at rest afterwards. -/
noncomputable def restful (modern : Bool) (sch : Sched S B) (n : Nat) (s0 : S) (pcfg : Prefetch.Cfg) :
    Sampler.ISched (Prefetch.St S B) B := by
  classical exact
  { getBatch := fun k s =>
      if h : ∃ q : Except Exc B × Prefetch.St S B, GetCall (plainSrc sch n) pcfg k s q.1 q.2 ∧ Quiet sch n s0 q.2 then some h.choose else none
    reset := fun s => if h : ∃ s', ResetCall (plainSrc sch n) pcfg s s' ∧ Quiet sch n s0 s' then .ok h.choose else .error .runtimeError
    episodic := if seenEpisodic modern (plainSrc sch n) then some (stepsRemaining (plainSrc sch n), fun s => if s.c = .idle then .ok s else .error .runtimeError)
      else none }

theorem restful_meets (modern : Bool) (sch : Sched S B) (n : Nat) (s0 : S) (pcfg : Prefetch.Cfg) :
    Meets modern (plainSrc sch n) pcfg (restful modern sch n s0 pcfg) where
  getBatch k s r s' h := by
    unfold restful at h
    dsimp only at h
    split at h
    · rename_i hx
      have := hx.choose_spec.1
      rw [Option.some.injEq] at h
      rw [h] at this
      exact this
    · cases h
  reset s s' h := by
    unfold restful at h
    dsimp only at h
    split at h
    · rename_i hx
      have := hx.choose_spec.1
      rw [Except.ok.injEq] at h
      rw [h] at this
      exact this
    · cases h
  episodic h := by
    unfold restful
    dsimp only
    rw [if_pos h]
    refine ⟨_, rfl, ?_⟩
    intro s s' hs
    split at hs
    · rename_i hc
      rw [Except.ok.injEq] at hs
      subst hs
      refine ⟨[], [], [.tau], background_nil, by simp, ?_, hc⟩
      simp [Prefetch.run, act, hc, plainSrc]
    · cases hs
  plain h := by
    unfold restful
    dsimp only
    rw [if_neg (by simp [h])]

theorem restful_get {modern : Bool} {sch : Sched S B} {n : Nat} {s0 : S} {pcfg : Prefetch.Cfg} (hb : pcfg.batchSize = n) (hbuf : 0 < pcfg.bufferSize)
    (hret : ∀ σ, PlainReached sch n s0 σ → (sch.getBatch n σ).isSome)
    (hstop : ∀ σ e σ', PlainReached sch n s0 σ → sch.getBatch n σ = some (.error e, σ') → e = .stopIteration)
    {a : Prefetch.St S B} (h : Quiet sch n s0 a) :
    ∃ r a', (restful modern sch n s0 pcfg).getBatch n a = some (r, a') ∧ Quiet sch n s0 a' := by
  obtain ⟨r, a', h1, h2⟩ := quiet_get hb hbuf hret hstop h
  have hx : ∃ q : Except Exc B × Prefetch.St S B, GetCall (plainSrc sch n) pcfg n a q.1 q.2 ∧ Quiet sch n s0 q.2 := ⟨(r, a'), h1, h2⟩
  refine ⟨hx.choose.1, hx.choose.2, ?_, hx.choose_spec.2⟩
  unfold restful
  dsimp only
  rw [dif_pos hx]

theorem restful_reset {modern : Bool} {sch : Sched S B} {n : Nat} {s0 : S} {pcfg : Prefetch.Cfg} {a : Prefetch.St S B} (h : Quiet sch n s0 a) :
    ∃ a', (restful modern sch n s0 pcfg).reset a = .ok a' ∧ Quiet sch n s0 a' := by
  have hx := quiet_reset (sch := sch) (n := n) (s0 := s0) pcfg h
  refine ⟨hx.choose, ?_, hx.choose_spec.2⟩
  unfold restful
  dsimp only
  rw [dif_pos hx]

theorem restful_next {modern : Bool} {sch : Sched S B} {n : Nat} {s0 : S} {pcfg : Prefetch.Cfg} {a : Prefetch.St S B} (h : Quiet sch n s0 a) :
    ∀ e, (restful modern sch n s0 pcfg).episodic = some e → e.2 a = .ok a := by
  intro e he
  unfold restful at he
  dsimp only at he
  split at he
  · rw [Option.some.injEq] at he
    subst he
    dsimp only
    rw [if_pos h.idle]
  · cases he

theorem produce_sched {F O I : Type} (g : Sampler.Gen F O I) (cfg : Sampler.Cfg) (flows : List F) (s : Sampler.St S F O) :
    (Sampler.produce g cfg flows s).2.sched = s.sched := by
  unfold Sampler.produce
  dsimp only
  split <;> rfl

theorem some_produce {F O I : Type} {P : S → Prop} (g : Sampler.Gen F O I) (cfg : Sampler.Cfg) (flows : List F) {s : Sampler.St S F O} (h : P s.sched) :
    ∃ r a', some (Sampler.produce g cfg flows s) = some (r, a') ∧ P a'.sched :=
  ⟨(Sampler.produce g cfg flows s).1, (Sampler.produce g cfg flows s).2, rfl, by rw [produce_sched]; exact h⟩

/-- Every history of calls on a sampler over a prefetching scheduler can take place. -/
theorem calls_return {F O I : Type} (modern : Bool) (sch : Sched S (Sampler.FlowBatch F)) (g : Sampler.Gen F O I) (cfg : Sampler.Cfg)
    (pcfg : Prefetch.Cfg) (hb : pcfg.batchSize = cfg.ffpb) (hbuf : 0 < pcfg.bufferSize) (s0 : S)
    (hret : ∀ σ, PlainReached sch cfg.ffpb s0 σ → (sch.getBatch cfg.ffpb σ).isSome)
    (hstop : ∀ σ e σ', PlainReached sch cfg.ffpb s0 σ → sch.getBatch cfg.ffpb σ = some (.error e, σ') → e = .stopIteration)
    (ops : List Sampler.Op) :
    ∃ (calls : List (Sampler.ISched (Prefetch.St S (Sampler.FlowBatch F)) (Sampler.FlowBatch F) × Sampler.Op)) (outs : List (Sampler.Out (Sampler.OutBatch O I)))
      (st : Sampler.St (Prefetch.St S (Sampler.FlowBatch F)) F O), calls.map Prod.snd = ops ∧
      (∀ q ∈ calls, Meets modern (plainSrc sch cfg.ffpb) pcfg q.1) ∧
      runVia g cfg calls (Sampler.init cfg (Prefetch.init s0)) = some (outs, st) := by
  suffices main : ∀ (ops : List Sampler.Op) (a : Sampler.St (Prefetch.St S (Sampler.FlowBatch F)) F O), Quiet sch cfg.ffpb s0 a.sched →
      ∃ outs st, runVia g cfg (ops.map (fun op => (restful modern sch cfg.ffpb s0 pcfg, op))) a = some (outs, st) by
    obtain ⟨outs, st, h⟩ := main ops (Sampler.init cfg (Prefetch.init s0)) (quiet_init .start)
    refine ⟨_, outs, st, ?_, ?_, h⟩
    · rw [List.map_map]
      exact List.map_id' _
    · intro q hq
      obtain ⟨op, _, rfl⟩ := List.mem_map.mp hq
      exact restful_meets modern sch cfg.ffpb s0 pcfg
  intro ops
  induction ops with
  | nil => intro a _; exact ⟨[], a, rfl⟩
  | cons op ops ih =>
    intro a ha
    have hstep : returns (restful modern sch cfg.ffpb s0 pcfg) a.sched op = true ∧
        ∃ o a', Sampler.step (restful modern sch cfg.ffpb s0 pcfg) g cfg a op = some (o, a') ∧ Quiet sch cfg.ffpb s0 a'.sched := by
      cases op with
      | next =>
        refine ⟨rfl, ?_⟩
        suffices hn : ∃ r a', Sampler.next (restful modern sch cfg.ffpb s0 pcfg) g cfg a = some (r, a') ∧ Quiet sch cfg.ffpb s0 a'.sched by
          obtain ⟨r, a', h1, h2⟩ := hn
          exact ⟨Sampler.batchOut r, a', by simp [Sampler.step, h1], h2⟩
        suffices hg : ∃ r a', Sampler.getNext (restful modern sch cfg.ffpb s0 pcfg) g cfg a = some (r, a') ∧ Quiet sch cfg.ffpb s0 a'.sched by
          obtain ⟨r, a', h1, h2⟩ := hg
          unfold Sampler.next
          split
          · exact ⟨_, _, rfl, ha⟩
          · rw [h1]
            cases r with
            | ok b => exact ⟨_, _, rfl, h2⟩
            | error e => exact ⟨_, _, rfl, h2⟩
        have hf : ∃ r a', Sampler.getNext.fetch (restful modern sch cfg.ffpb s0 pcfg) g cfg a = some (r, a') ∧ Quiet sch cfg.ffpb s0 a'.sched := by
          obtain ⟨r, a', h1, h2⟩ := restful_get (modern := modern) (pcfg := pcfg) hb hbuf hret hstop ha
          unfold Sampler.getNext.fetch
          rw [h1]
          cases r with
          | error e => exact ⟨_, _, rfl, h2⟩
          | ok b =>
            dsimp only
            split
            · exact ⟨_, _, rfl, h2⟩
            · exact some_produce (P := Quiet sch cfg.ffpb s0) g cfg _ h2
        unfold Sampler.getNext
        cases hc : a.cur with
        | none => exact hf
        | some flows =>
          dsimp only
          split
          · exact some_produce (P := Quiet sch cfg.ffpb s0) g cfg _ ha
          · exact hf
      | reset full =>
        cases full with
        | false => exact ⟨rfl, _, _, rfl, ha⟩
        | true =>
          obtain ⟨a', h1, h2⟩ := restful_reset (modern := modern) (pcfg := pcfg) ha
          refine ⟨by simp [returns, h1], .done, { Sampler.resetSelf cfg a with sched := a' }, ?_, h2⟩
          simp [Sampler.step, Sampler.reset, Sampler.resetSelf, h1, Sampler.unitOut]
      | nextEpisode =>
        have h1 := restful_next (modern := modern) (pcfg := pcfg) ha
        refine ⟨?_, ?_⟩
        · unfold returns
          dsimp only
          split
          · rename_i e he
            rw [h1 e he]
          · rfl
        · refine ⟨_, _, rfl, ?_⟩
          unfold Sampler.nextEpisode
          split
          · exact ha
          · rename_i e he
            rw [h1 e he]
            exact ha
    obtain ⟨hr, o, a', hs, hq⟩ := hstep
    obtain ⟨outs, st, h⟩ := ih a' hq
    refine ⟨o :: outs, st, ?_⟩
    rw [List.map_cons, runVia]
    dsimp only
    rw [if_pos hr, hs]
    dsimp only
    rw [h]

/-- Likewise for the real-image sampler. -/
theorem real_calls_return {V : Type} (modern : Bool) (sch : Sched S (Base.Batch V)) (n : Nat)
    (pcfg : Prefetch.Cfg) (hb : pcfg.batchSize = n) (hbuf : 0 < pcfg.bufferSize) (s0 : S)
    (hret : ∀ σ, PlainReached sch n s0 σ → (sch.getBatch n σ).isSome)
    (hstop : ∀ σ e σ', PlainReached sch n s0 σ → sch.getBatch n σ = some (.error e, σ') → e = .stopIteration)
    (ops : List Sampler.Op) :
    ∃ (calls : List (Sampler.ISched (Prefetch.St S (Base.Batch V)) (Base.Batch V) × Sampler.Op)) (outs : List (Sampler.Out (Sampler.RealBatch V)))
      (st : Prefetch.St S (Base.Batch V)), calls.map Prod.snd = ops ∧
      (∀ q ∈ calls, Meets modern (plainSrc sch n) pcfg q.1) ∧ realVia n calls (Prefetch.init s0) = some (outs, st) := by
  suffices main : ∀ (ops : List Sampler.Op) (a : Prefetch.St S (Base.Batch V)), Quiet sch n s0 a →
      ∃ outs st, realVia n (ops.map (fun op => (restful modern sch n s0 pcfg, op))) a = some (outs, st) by
    obtain ⟨outs, st, h⟩ := main ops _ (quiet_init (n := n) (s0 := s0) .start)
    refine ⟨_, outs, st, ?_, ?_, h⟩
    · rw [List.map_map]
      exact List.map_id' _
    · intro q hq
      obtain ⟨op, _, rfl⟩ := List.mem_map.mp hq
      exact restful_meets modern sch n s0 pcfg
  intro ops
  induction ops with
  | nil => intro a _; exact ⟨[], a, rfl⟩
  | cons op ops ih =>
    intro a ha
    have hstep : returns (restful modern sch n s0 pcfg) a op = true ∧
        ∃ o a', Sampler.realStep (restful modern sch n s0 pcfg) n a op = some (o, a') ∧ Quiet sch n s0 a' := by
      cases op with
      | next =>
        refine ⟨rfl, ?_⟩
        suffices hn : ∃ r a', Sampler.realNext (restful modern sch n s0 pcfg) n a = some (r, a') ∧ Quiet sch n s0 a' by
          obtain ⟨r, a', h1, h2⟩ := hn
          exact ⟨Sampler.batchOut r, a', by simp [Sampler.realStep, h1], h2⟩
        obtain ⟨r, a', h1, h2⟩ := restful_get (modern := modern) (pcfg := pcfg) hb hbuf hret hstop ha
        unfold Sampler.realNext
        split
        · exact ⟨_, _, rfl, ha⟩
        · unfold Sampler.realGetNext
          rw [h1]
          cases r with
          | ok b => exact ⟨_, _, rfl, h2⟩
          | error e => exact ⟨_, _, rfl, h2⟩
      | reset full =>
        cases full with
        | false => exact ⟨rfl, _, _, rfl, ha⟩
        | true =>
          obtain ⟨a', h1, h2⟩ := restful_reset (modern := modern) (pcfg := pcfg) ha
          exact ⟨by simp [returns, h1], .done, a', by simp [Sampler.realStep, h1], h2⟩
      | nextEpisode =>
        have h1 := restful_next (modern := modern) (pcfg := pcfg) ha
        refine ⟨?_, ?_⟩
        · unfold returns
          dsimp only
          split
          · rename_i e he
            rw [h1 e he]
          · rfl
        · unfold Sampler.realStep
          cases he : (restful modern sch n s0 pcfg).episodic with
          | none => exact ⟨_, _, rfl, ha⟩
          | some e =>
            dsimp only
            rw [h1 e he]
            exact ⟨_, _, rfl, ha⟩
    obtain ⟨hr, o, a', hs, hq⟩ := hstep
    obtain ⟨outs, st, h⟩ := ih a' hq
    refine ⟨o :: outs, st, ?_⟩
    rw [List.map_cons, realVia]
    dsimp only
    rw [if_pos hr, hs]
    dsimp only
    rw [h]

end Verif.Stack
