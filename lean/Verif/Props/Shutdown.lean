import Verif.Props.Prefetch
import Verif.Model.Shutdown
/-!
# Properties C130, C131: what follows `shutdown()`
-/

namespace Verif.Prefetch
open Verif
variable {S B : Type}

/-! ## Specification vocabulary -/

/-- The batches that the wrapped scheduler handed over, in order. -/
def fetchedList (outs : List (Out B)) : List B :=
  outs.filterMap (fun o => match o with | .fetched b => some b | _ => none)

/-- The batches that left the queue, delivered or thrown away, in order. -/
def gone (outs : List (Out B)) : List B :=
  outs.filterMap (fun o => match o with | .ret _ b => some b | .removed x => x | _ => none)

/-- The consumer's step for the place where it is inside `shutdown`. -/
def CPc.closingStep : CPc → Option Action
  | .shutDrain => some .shutDrain
  | .shutPut => some .shutPut
  | .shutJoin => some .shutJoin
  | _ => none

/-! ## Helper lemmas -/

theorem fetchedList_append (xs ys : List (Out B)) : fetchedList (xs ++ ys) = fetchedList xs ++ fetchedList ys := by
  simp [fetchedList]

theorem gone_append (xs ys : List (Out B)) : gone (xs ++ ys) = gone xs ++ gone ys := by
  simp [gone]

/-- The batch the worker holds. -/
def WPc.held : WPc B → List B
  | .put b => [b]
  | _ => []

/-- One if the worker may still put a batch into the queue after the stop flag has been set. -/
def WPc.inflight : WPc B → Nat
  | .fetch | .put _ => 1
  | _ => 0

/-- Batches that can still be delivered once the stop flag is set. -/
def left (s : St S B) : Nat := (s.queue.filterMap id).length + s.w.inflight

/-- One if the worker may still call the wrapped scheduler after the stop flag has been set. -/
def WPc.mayFetch : WPc B → Nat
  | .fetch => 1
  | _ => 0

/-- With the stop flag set, no step but the end of `reset` gives the consumer more than what is in the queue or in flight. -/
theorem left_step {p : Src S B} {cfg : Cfg} {s s1 : St S B} {a o} (hs : s.stop = true) (hj : a ≠ .join)
    (ha : act p cfg a s = some (s1, o)) :
    s1.stop = true ∧ (returned [o]).length + left s1 ≤ left s ∧ fetchedCount [o] + s1.w.mayFetch ≤ s.w.mayFetch := by
  cases a with
  | fetch =>
    cases hw : s.w <;> simp only [act, hw] at ha <;> try contradiction
    simp only [Option.some.injEq] at ha
    rcases fetchStep_cases (p := p) s with ⟨b, src, he⟩ | ⟨w, src, he, hw'⟩
    · rw [he] at ha; simp at ha; obtain ⟨rfl, rfl⟩ := ha
      simp [left, WPc.inflight, WPc.mayFetch, hs, hw, returned, fetchedCount]
    · rw [he] at ha; simp at ha; obtain ⟨rfl, rfl⟩ := ha
      rcases hw' with rfl | rfl | ⟨e, rfl⟩ <;> simp [left, WPc.inflight, WPc.mayFetch, hs, hw, returned, fetchedCount]
  | join => exact absurd rfl hj
  | _ =>
    simp only [act] at ha
    repeat' split at ha
    all_goals try contradiction
    all_goals
      simp at ha
      obtain ⟨rfl, rfl⟩ := ha
      try simp only [startWorker]
      try split
      all_goals simp_all [left, WPc.inflight, WPc.mayFetch, returned, fetchedCount, List.filterMap_cons]
      all_goals try omega
      all_goals first
        | (cases s.queue with
           | nil => simp
           | cons x q => cases x <;> simp)
        | (split <;> simp)

/-- What is known from the moment the stop flag is set by `shutdown`, `n` being the number of batches delivered since. -/
def After (cfg : Cfg) (n : Nat) (s : St S B) : Prop :=
  s.stop = true ∧ (n = 0 ∧ s.c = .shutDrain ∧ s.queue.length ≤ cfg.bufferSize ∨ n + left s ≤ cfg.bufferSize)

theorem After.step {p : Src S B} {cfg : Cfg} (hb : 0 < cfg.bufferSize) {n : Nat} {s s1 : St S B} {a o} (h : After cfg n s)
    (hj : a ≠ .join) (ha : act p cfg a s = some (s1, o)) : After cfg (n + (returned [o]).length) s1 := by
  have hl := left_step h.1 hj ha
  refine ⟨hl.1, ?_⟩
  rcases h.2 with ⟨rfl, hc, hq⟩ | h2
  · cases a with
    | shutDrain =>
      right
      simp only [act, hc] at ha
      split at ha
      · rename_i hq0
        simp at ha; obtain ⟨rfl, rfl⟩ := ha
        have : s.w.inflight ≤ 1 := by cases s.w <;> simp [WPc.inflight]
        simp [returned, left, hq0]
        omega
      · rename_i x q hq0
        simp at ha; obtain ⟨rfl, rfl⟩ := ha
        have h1 : s.w.inflight ≤ 1 := by cases s.w <;> simp [WPc.inflight]
        have h2 := List.length_filterMap_le id q
        rw [hq0] at hq
        simp [returned, left] at hq h2 ⊢
        omega
    | fetch =>
      left
      cases hw : s.w <;> simp only [act, hw] at ha <;> try contradiction
      simp only [Option.some.injEq] at ha
      rcases fetchStep_cases (p := p) s with ⟨b, src, he⟩ | ⟨w, src, he, hw'⟩ <;>
        (rw [he] at ha; simp at ha; obtain ⟨rfl, rfl⟩ := ha; simp [returned, hc, hq])
    | join => exact absurd rfl hj
    | eosForce =>
      left
      simp only [act] at ha
      repeat' split at ha
      all_goals try contradiction
      simp at ha
      obtain ⟨rfl, rfl⟩ := ha
      simp [returned, hc]
      omega
    | _ =>
      left
      simp only [act, hc] at ha
      repeat' split at ha
      all_goals try contradiction
      all_goals
        simp at ha
        obtain ⟨rfl, rfl⟩ := ha
        simp_all [returned]
        try omega
  · right
    omega

theorem After.run {p : Src S B} {cfg : Cfg} (hb : 0 < cfg.bufferSize) {as} {n : Nat} {s s' : St S B} {outs} (h : After cfg n s)
    (hj : .join ∉ as) (hr : run p cfg as s = some (s', outs)) :
    After cfg (n + (returned outs).length) s' ∧ fetchedCount outs + s'.w.mayFetch ≤ s.w.mayFetch := by
  induction as generalizing n s outs with
  | nil => rw [run_nil] at hr; simp at hr; obtain ⟨rfl, rfl⟩ := hr; simpa [returned, fetchedCount] using h
  | cons a as ih =>
    obtain ⟨s1, o, os, ha, hr', rfl⟩ := run_cons hr
    have hja : a ≠ .join := fun he => hj (he ▸ by simp)
    have h1 := h.step hb hja ha
    have h2 := ih h1 (fun hm => hj (by simp [hm])) hr'
    have h3 := (left_step h.1 hja ha).2.2
    rw [show o :: os = [o] ++ os from rfl, returned_append, fetchedCount_append, List.length_append, ← Nat.add_assoc]
    exact ⟨h2.1, by omega⟩

/-- What has been handed over is gone, in the queue or in the worker's hands, in this order. -/
def Kept (eq : Prop) (hist : List (Out B)) (s : St S B) : Prop :=
  (s.started = false → s.w = .idle) ∧
  List.Sublist (gone hist ++ s.queue.filterMap id ++ s.w.held) (fetchedList hist) ∧
  (eq → gone hist ++ s.queue.filterMap id ++ s.w.held = fetchedList hist)

theorem Kept.step {p : Src S B} {cfg : Cfg} {eq : Prop} {hist : List (Out B)} {s s1 : St S B} {a o} (h : Kept eq hist s)
    (hj : a ≠ .join) (hf : a = .eosForce → ¬ eq) (ha : act p cfg a s = some (s1, o)) : Kept eq (hist ++ [o]) s1 := by
  obtain ⟨h1, h2, h3⟩ := h
  unfold Kept
  rw [gone_append, fetchedList_append]
  generalize gone hist = G at h2 h3 ⊢
  generalize fetchedList hist = F at h2 h3 ⊢
  cases a with
  | fetch =>
    cases hw : s.w <;> simp only [act, hw] at ha <;> try contradiction
    simp only [Option.some.injEq] at ha
    have hst : s.started = true := by
      by_contra hc
      have := h1 (by simpa using hc)
      rw [hw] at this
      contradiction
    rw [hw] at h2 h3
    simp only [WPc.held, List.append_nil] at h2 h3
    rcases fetchStep_cases (p := p) s with ⟨b, src, he⟩ | ⟨w, src, he, hw'⟩
    · rw [he] at ha; simp at ha; obtain ⟨rfl, rfl⟩ := ha
      refine ⟨by simp [hst], ?_, fun he => ?_⟩
      · simpa [gone, fetchedList, WPc.held] using h2.append_right [b]
      · simp [gone, fetchedList, WPc.held, ← h3 he]
    · rw [he] at ha; simp at ha; obtain ⟨rfl, rfl⟩ := ha
      refine ⟨by simp [hst], ?_, fun hq => ?_⟩
      · rcases hw' with rfl | rfl | ⟨e, rfl⟩ <;> simpa [gone, fetchedList, WPc.held] using h2
      · rcases hw' with rfl | rfl | ⟨e, rfl⟩ <;> simpa [gone, fetchedList, WPc.held] using h3 hq
  | join => exact absurd rfl hj
  | eosForce =>
    simp only [act] at ha
    repeat' split at ha
    all_goals try contradiction
    rename_i hw
    simp at ha
    obtain ⟨rfl, rfl⟩ := ha
    rw [hw] at h1 h2
    refine ⟨fun hs => by simpa using h1 hs, ?_, fun he => absurd he (hf rfl)⟩
    have : List.Sublist (s.queue.tail.filterMap id) (s.queue.filterMap id) := (List.tail_sublist _).filterMap _
    have h4 : List.Sublist (G ++ s.queue.tail.filterMap id) (G ++ s.queue.filterMap id) := this.append_left G
    simp only [WPc.held, List.append_nil] at h2
    simpa [gone, fetchedList, WPc.held] using h4.trans h2
  | _ =>
    simp only [act] at ha
    repeat' split at ha
    all_goals try contradiction
    all_goals
      simp at ha
      obtain ⟨rfl, rfl⟩ := ha
      try simp only [startWorker]
      try split
      all_goals simp_all [gone, fetchedList, WPc.held]
      all_goals
        rename_i x q _ _
        cases x <;> simp_all

/-! ## C130 -/

/-- C130 (`shutdown` returns): called between two calls, `shutdown` never waits for the worker: whatever the worker does in
between, as long as `shutdown` has not returned its next step is possible, and there are at most three after the first. -/
theorem C130_shutdown_returns (p : Src S B) (cfg : Cfg) (s : St S B) (hc : s.c = .idle) :
    ∃ s0, act p cfg .shutdown s = some (s0, .tau) ∧
      ∀ as s' outs, (∀ a ∈ as, a.closing = true) → run p cfg as s0 = some (s', outs) →
        (as.filter (fun a => !a.isWorker)).length ≤ 3 ∧
        (s'.c = .idle ∨ ∃ a, s'.c.closingStep = some a ∧ (act p cfg a s').isSome) := by
  refine ⟨_, by simp only [act, hc]; rfl, ?_⟩
  let m : CPc → Nat := fun c => match c with | .shutDrain => 3 | .shutPut => 2 | .shutJoin => 1 | _ => 0
  let ok : CPc → Prop := fun c => c = .shutDrain ∨ c = .shutPut ∨ c = .shutJoin ∨ c = .idle
  have key : ∀ {as} {s s' : St S B} {outs}, ok s.c → (∀ a ∈ as, a.closing = true) → run p cfg as s = some (s', outs) →
      ok s'.c ∧ (as.filter (fun a => !a.isWorker)).length + m s'.c ≤ m s.c := by
    intro as
    induction as with
    | nil => intro s s' outs h0 _ hr; rw [run_nil] at hr; simp at hr; obtain ⟨rfl, _⟩ := hr; exact ⟨h0, by simp⟩
    | cons a as ih =>
      intro s s' outs h0 hk hr
      obtain ⟨s1, o, os', ha, hr', _⟩ := run_cons hr
      have h1 : ok s1.c ∧ (if a.isWorker then 0 else 1) + m s1.c ≤ m s.c := by
        have hka := hk a (by simp)
        cases a with
        | fetch =>
          cases hw : s.w <;> simp only [act, hw] at ha <;> try contradiction
          simp only [Option.some.injEq] at ha
          rcases fetchStep_cases (p := p) s with ⟨b, src, he⟩ | ⟨w, src, he, hw'⟩ <;>
            (rw [he] at ha; simp at ha; obtain ⟨rfl, rfl⟩ := ha; simp [Action.isWorker, h0])
        | _ =>
          simp only [Action.closing, Action.isWorker] at hka; try contradiction
          all_goals simp only [act] at ha
          all_goals repeat' split at ha
          all_goals try contradiction
          all_goals
            simp at ha
            obtain ⟨rfl, rfl⟩ := ha
            simp_all [Action.isWorker, m, ok]
      have h2 := ih h1.1 (fun b hb => hk b (by simp [hb])) hr'
      refine ⟨h2.1, ?_⟩
      by_cases hw : a.isWorker = true
      · rw [List.filter_cons_of_neg (by simp [hw])]
        have := h1.2
        simp only [hw, if_true] at this
        omega
      · rw [List.filter_cons_of_pos (by simpa using hw), List.length_cons]
        have := h1.2
        simp only [hw] at this
        simp at this
        omega
  intro as s' outs hk hr
  have h1 := key (Or.inl rfl) hk hr
  refine ⟨by have := h1.2; simp only [m] at this; omega, ?_⟩
  rcases h1.1 with h | h | h | h
  · refine Or.inr ⟨.shutDrain, by rw [h]; rfl, ?_⟩
    cases hq : s'.queue <;> simp [act, h, hq]
  · exact Or.inr ⟨.shutPut, by rw [h]; rfl, by simp [act, h]⟩
  · exact Or.inr ⟨.shutJoin, by rw [h]; rfl, by simp [act, h]⟩
  · exact Or.inl h

/-- With the worker blocked on a full queue of one. -/
example : (run demoSrc ⟨4, 1⟩ ([.get 4] ++ round ++ [.check, .fetch, .take, .put, .check, .fetch, .shutdown, .shutDrain, .shutPut, .shutJoin])
    (init 0)).map (fun r => (r.1.c, r.1.w)) = some (.idle, .put 2) := rfl

/-- C130, what holds after `shutdown`: from the moment it was called until a `reset` completes, whatever the consumer does and
however the threads interleave, at most `buffer_size` batches are delivered, and the wrapped scheduler hands over at most one
more. -/
theorem C130_few_more_partial (p : Src S B) (cfg : Cfg) (hb : 0 < cfg.bufferSize) (src0 : S) (as0 : List Action) (s s0 : St S B)
    (outs0 : List (Out B)) (o : Out B) (h : run p cfg as0 (init src0) = some (s, outs0))
    (h0 : act p cfg .shutdown s = some (s0, o)) (as : List Action) (s' : St S B) (outs : List (Out B)) (hj : .join ∉ as)
    (hr : run p cfg as s0 = some (s', outs)) :
    (returned outs).length ≤ cfg.bufferSize ∧ fetchedCount outs ≤ 1 := by
  have hl := (Bounded.run hb h).len
  have ha : After cfg 0 s0 := by
    cases hc : s.c <;> simp only [act, hc] at h0 <;> try contradiction
    simp at h0
    obtain ⟨rfl, rfl⟩ := h0
    exact ⟨rfl, Or.inl ⟨rfl, rfl, hl⟩⟩
  have h1 := ha.run hb hj hr
  constructor
  · rcases h1.1.2 with ⟨h2, _⟩ | h2 <;> omega
  · have : s0.w.mayFetch ≤ 1 := by cases s0.w <;> simp [WPc.mayFetch]
    omega

/-- The bound is reached: a buffer of two, full, the worker waiting with a third batch; `shutdown` throws one away, the worker
fills the slot before `shutdown` can put its signal there, and two batches are delivered. -/
example : (run demoSrc ⟨4, 2⟩ ([.get 4, .timeout] ++ round ++ round ++ [.check, .fetch, .shutdown, .shutDrain, .put, .shutPut, .shutJoin,
    .get 4, .take, .get 4, .take, .check, .get 4, .timeout]) (init 0)).map (fun r => (returned r.2, r.2.getLast?, r.1.w))
    = some ([1, 2], some (.stop true), .exited) := rfl

/-- C130 (order): under every schedule, with `shutdown` anywhere and any number of times, until a `reset` completes: the
batches delivered are batches that the wrapped scheduler handed over, in the same order and none twice; and if the worker did
not overwrite a batch by the end-of-stream signal, what was delivered or thrown away is the beginning of what was handed
over. -/
theorem C130_order_partial (p : Src S B) (cfg : Cfg) (src0 : S) (as : List Action) (s : St S B) (outs : List (Out B))
    (hj : .join ∉ as) (h : run p cfg as (init src0) = some (s, outs)) :
    (returned outs).Sublist (fetchedList outs) ∧ (.eosForce ∉ as → gone outs <+: fetchedList outs) := by
  have inv : Kept (.eosForce ∉ as) outs s := by
    have := run_invariant (p := p) (cfg := cfg) (fun hist s => Kept (.eosForce ∉ as) hist s)
      (fun a => a ≠ .join ∧ (a = .eosForce → ¬ .eosForce ∉ as)) (fun _ _ _ _ _ h hk ha => h.step hk.1 hk.2 ha)
      (hist := []) ⟨fun _ => rfl, by simp [gone, init, WPc.held], fun _ => by simp [gone, fetchedList, init, WPc.held]⟩
      (fun a ha => ⟨fun he => hj (he ▸ ha), fun he hn => hn (he ▸ ha)⟩) h
    simpa using this
  constructor
  · have h1 : (returned outs).Sublist (gone outs) := by
      clear inv h
      induction outs with
      | nil => exact List.Sublist.refl _
      | cons o os ih =>
        rw [show o :: os = [o] ++ os from rfl, returned_append, gone_append]
        refine List.Sublist.append ?_ ih
        cases o with
        | removed x => cases x <;> simp [returned, gone]
        | _ => simp [returned, gone]
    have h2 := inv.2.1
    rw [List.append_assoc] at h2
    exact h1.trans ((List.sublist_append_left _ _).trans h2)
  · intro he
    rw [← inv.2.2 he, List.append_assoc]
    exact List.prefix_append _ _

example : (run demoSrc ⟨4, 2⟩ ([.get 4] ++ round ++ round ++ [.check, .fetch, .take, .put, .shutdown, .shutDrain, .shutPut,
    .check, .shutJoin, .get 4, .take, .get 4, .take]) (init 0)).map (fun r => (returned r.2, gone r.2, fetchedList r.2, r.2.getLast?))
    = some ([0, 2], [0, 1, 2], [0, 1, 2], some (.stop false)) := rfl

/-- C130 fails whenever two batches are waiting: `shutdown` throws the first away and returns, and the next `get_batch` delivers
the second. -/
theorem C130_refuted (p : Src S B) (cfg : Cfg) (s : St S B) (x : Option B) (b : B) (q : List (Option B)) (hc : s.c = .idle)
    (hq : s.queue = x :: some b :: q) (hst : s.started = true) (ht : ∀ L, p.episodeLength = some L → s.t < L) :
    ∃ s', run p cfg [.shutdown, .shutDrain, .shutPut, .shutJoin, .get cfg.batchSize, .take] s =
      some (s', [.tau, .removed x, .tau, .tau, .tau, .ret s.t b]) := by
  cases he : p.episodeLength with
  | none =>
    by_cases hl : q.length + 1 < cfg.bufferSize <;>
      simp [run, act, hc, hq, he, startWorker, hst, hl]
  | some L =>
    have := ht L he
    by_cases hl : q.length + 1 < cfg.bufferSize <;>
      simp [run, act, hc, hq, he, startWorker, hst, hl, Nat.not_le.mpr this]

/-- Such a state is reached by asking for one batch while the worker is ahead. -/
example : (run demoSrc ⟨4, 2⟩ ([.get 4] ++ round ++ round ++ [.check, .fetch, .take, .put]) (init 0)).map
    (fun r => (r.1.queue, r.1.c, r.1.started)) = some ([some 1, some 2], .idle, true) := rfl

/-- C130 fails further: after `shutdown`, `get_batch` may raise `StopIteration` and deliver a batch when it is called again. -/
theorem C130_refuted_resumes : ∃ as s, run demoSrc ⟨4, 1⟩ ([.get 4] ++ round ++ [.take] ++ round ++ [.check, .fetch] ++
    [.shutdown, .shutDrain, .shutPut, .shutJoin] ++ as) (init 0) =
    some (s, [.tau, .tau, .fetched 0, .tau, .ret 0 0, .tau, .fetched 1, .tau, .tau, .fetched 2, .tau, .removed (some 1), .tau, .tau,
      .tau, .stop false, .tau, .tau, .ret 2 2]) :=
  ⟨[.get 4, .take, .put, .get 4, .take], _, rfl⟩

end Verif.Prefetch

namespace Verif.Shutdown
open Verif

/-! ## C131 -/

/-- Some layer has a worker that has not been told to stop. -/
def Layers.working : Layers → Bool
  | .plain => false
  | .episodic l => l.working
  | .prefetch stop l => !stop || l.working

/-- Some layer inside the outermost one has a worker that has not been told to stop. -/
def Layers.workingInside : Layers → Bool
  | .plain => false
  | .episodic l => l.working
  | .prefetch _ l => l.working

/-- C131: a sampler over any scheduler that `make` builds has told every worker to stop when `shutdown()` has returned. -/
theorem C131_made_partial (episodic buffered : Bool) : (Sampler.mk (make episodic buffered)).shutdown.scheduler.working = false := by
  cases episodic <;> cases buffered <;> rfl

/-- C131 in general: after `shutdown()` workers go on exactly if one of them is inside the outermost layer; calling it again
changes nothing. -/
theorem C131_exactly_partial (s : Sampler) :
    s.shutdown.scheduler.working = s.scheduler.workingInside ∧ s.shutdown.shutdown = s.shutdown := by
  cases s with
  | mk l => cases l <;> exact ⟨rfl, rfl⟩

example : (make true true).working = true := rfl

/-- C131 fails for episodes over a prefetching scheduler, an arrangement both constructors accept. -/
theorem C131_refuted (l : Layers) : (Sampler.mk (.episodic (.prefetch false l))).shutdown.scheduler.working = true := by
  cases l <;> rfl

end Verif.Shutdown
