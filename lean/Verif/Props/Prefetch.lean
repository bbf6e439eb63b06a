import Verif.Proofs.PrefetchInv
/-!
# Properties C24 - C32 of the prefetching scheduler

A schedule is a list of actions; `run p cfg as (init src0) = some (s, outs)` says that from the freshly constructed
prefetching scheduler (over a wrapped scheduler in state `src0`) the schedule `as` is possible, ends in `s` and shows
`outs`.
-/

namespace Verif.Prefetch
open Verif
variable {S B : Type}

/-! ## Demonstration schedulers -/

/-- Delivers `0, 1, 2` and is then exhausted. -/
def demoSrc : Src Nat Nat where
  getBatch s := if s < 3 then (.ok s, s + 1) else (.error .stopIteration, s)
  nextEpisode s := s
  reset _ := 0
  episodeLength := none

/-- Endless episodes of two steps; the batch is `(episode, step)`. -/
def demoEp : Src (Nat × Nat) (Nat × Nat) where
  getBatch s := if s.2 < 2 then (.ok s, (s.1, s.2 + 1)) else (.error .episodeEnd, s)
  nextEpisode s := (s.1 + 1, 0)
  reset _ := (0, 0)
  episodeLength := some 2

theorem demoEp_step {s k bs s' k'} (h : Produces demoEp s k bs s' k') (hs : s.2 = k ∧ k ≤ 2) : s'.2 = k' ∧ k' ≤ 2 := by
  induction h with
  | nil => exact hs
  | @batch s k b s1 bs s' k' h t ih =>
    apply ih
    simp only [demoEp] at h
    split at h
    · simp at h
      obtain ⟨_, rfl⟩ := h
      simp
      omega
    · simp at h
  | episode he h t ih => exact ih ⟨rfl, by omega⟩

theorem demoEp_episodes : EpisodesOf demoEp (0, 0) 2 := by
  refine ⟨rfl, fun bs s k h => ?_⟩
  have := demoEp_step h ⟨rfl, by omega⟩
  simp only [demoEp]
  split
  · simp; omega
  · simp; omega

/-- Fails with `e` whenever it is asked. -/
def demoFail (e : Exc) : Src Unit Nat where
  getBatch s := (.error e, s)
  nextEpisode s := s
  reset s := s
  episodeLength := none

/-- One complete round of the worker: check, fetch, put. -/
def round : List Action := [.check, .fetch, .put]

/-! ## C24 -/

/-- C24 (prefetching scheduler): between calls, a request of another size raises `ValueError` and changes nothing: the
worker is not even started. -/
theorem C24_wrong_size_harmless_prefetch (p : Src S B) (cfg : Cfg) (n : Nat) (s : St S B) (hn : n ≠ cfg.batchSize)
    (hc : s.c = .idle) : act p cfg (.get n) s = some (s, .valueError) := by
  simp [act, hc, hn]

example : act demoSrc ⟨4, 2⟩ (.get 3) (init 0) = some (init 0, .valueError) := rfl

/-! ## C25 -/

/-- The consumer only calls `get_batch`, and no queue operation times out. -/
def PlainUse (a : Action) : Prop :=
  a.isWorker = true ∧ a ≠ .eosTimeout ∨ a = .take ∨ ∃ n, a = .get n

theorem PlainUse.session {a : Action} (h : PlainUse a) : Session a ∧ a ≠ .eosTimeout ∧ a ≠ .timeout := by
  rcases h with ⟨h, h'⟩ | rfl | ⟨n, rfl⟩
  · cases a <;> simp_all [Action.isWorker, Session]
  · simp [Session]
  · simp [Session]

theorem map_some_inj {xs ys : List B} (h : xs.map some = ys.map some) : xs = ys := by
  have := congrArg (List.filterMap id) h
  simpa [List.filterMap_map] using this

/-- With plain use, what leaves the queue is what `get_batch` shows. -/
theorem plain_outs {p : Src S B} {cfg : Cfg} {as} {s s2 : St S B} {outs} (hok : ∀ a ∈ as, PlainUse a)
    (h : run p cfg as s = some (s2, outs)) : ∀ o ∈ outs, (∀ x, o ≠ .removed x) ∧ o ≠ .stop true := by
  induction as generalizing s outs with
  | nil => rw [run_nil] at h; simp at h; obtain ⟨_, rfl⟩ := h; simp
  | cons a as ih =>
    obtain ⟨s1, o, os, ha, hr, rfl⟩ := run_cons h
    intro o' ho'
    rcases List.mem_cons.mp ho' with rfl | ho'
    · have hp := hok a (by simp)
      rcases hp with ⟨hp, _⟩ | rfl | ⟨n, rfl⟩
      · cases a with
        | fetch =>
          cases hw : s.w <;> simp only [act, hw] at ha <;> try contradiction
          simp only [Option.some.injEq] at ha
          rcases fetchStep_cases (p := p) s with ⟨b, src, he⟩ | ⟨w, src, he, hw'⟩ <;> rw [he] at ha <;> simp at ha <;>
            obtain ⟨_, rfl⟩ := ha <;> simp
        | _ =>
          simp only [Action.isWorker] at hp; try contradiction
          all_goals simp only [act] at ha
          all_goals repeat' split at ha
          all_goals try contradiction
          all_goals
            simp at ha
            obtain ⟨_, rfl⟩ := ha
            simp
      · simp only [act] at ha
        repeat' split at ha
        all_goals try contradiction
        all_goals
          simp at ha
          obtain ⟨_, rfl⟩ := ha
          simp
      · simp only [act] at ha
        repeat' split at ha
        all_goals try contradiction
        all_goals
          simp at ha
          obtain ⟨_, rfl⟩ := ha
          simp
    · exact ih (fun b hb => hok b (by simp [hb])) hr o' ho'

theorem leftQueue_some {outs : List (Out B)} (h : ∀ o ∈ outs, (∀ x, o ≠ .removed x) ∧ o ≠ .stop true)
    (hn : none ∉ leftQueue outs) : leftQueue outs = (returned outs).map some := by
  induction outs with
  | nil => rfl
  | cons o os ih =>
    have h1 := h o (by simp)
    have ih := ih (fun o ho => h o (by simp [ho]))
    cases o with
    | stop b => cases b <;> simp_all [leftQueue, returned]
    | removed x => exact absurd rfl (h1.1 x)
    | _ => simp_all [leftQueue, returned]

/-- The first `StopIteration` splits what left the queue. -/
theorem leftQueue_stop (pre post : List (Out B)) :
    leftQueue (pre ++ .stop false :: post) = leftQueue pre ++ none :: leftQueue post := by
  simp [leftQueue]

theorem append_none_inj {items : List (Option B)} {xs ys : List (Option B)} (hi : none ∉ items)
    (h : xs ++ none :: ys = items ++ [none]) : xs = items ∧ ys = [] := by
  rcases List.eq_nil_or_concat ys with rfl | ⟨zs, z, rfl⟩
  · exact ⟨List.append_inj_left' h rfl, rfl⟩
  · exfalso
    rw [List.concat_eq_append, show xs ++ none :: (zs ++ [z]) = (xs ++ none :: zs) ++ [z] by simp] at h
    have := List.append_inj_left' h rfl
    exact hi (this ▸ by simp)

/-- C25: under every schedule in which no queue operation times out, the batches returned by `get_batch` are a prefix of
the batches that the wrapped scheduler produces when used directly, and when `StopIteration` is raised the batches
returned before it are all of them, the wrapped scheduler being exhausted. -/
theorem C25_same_batches_same_order (p : Src S B) (cfg : Cfg) (src0 : S) (as : List Action) (s : St S B)
    (outs : List (Out B)) (hok : ∀ a ∈ as, PlainUse a) (h : run p cfg as (init src0) = some (s, outs)) :
    ∃ bs src k, Produces p src0 0 bs src k ∧ returned outs <+: bs.map Prod.snd ∧
      ∀ pre b post, outs = pre ++ .stop b :: post →
        returned pre = bs.map Prod.snd ∧ returned post = [] ∧ (p.getBatch src).1 = .error .stopIteration := by
  have acc : Acc p cfg src0 False (leftQueue outs) s :=
    Acc.run (fun a ha => (hok a ha).session.1) (fun he => (hok _ he).session.2.1 rfl) h
  have hpl := plain_outs hok h
  obtain ⟨bs, src, k, hp, hi⟩ := acc.items
  refine ⟨bs, src, k, hp, ?_⟩
  have hnone : none ∉ bs.map (fun q => some q.2) := by simp
  have hmap : bs.map (fun q => some q.2) = (bs.map Prod.snd).map some := by simp
  constructor
  · rcases hi with hi | ⟨hi, _⟩
    · have := leftQueue_some hpl (fun hc => hnone (hi.subset hc))
      rw [this, hmap] at hi
      obtain ⟨tl, htl⟩ := hi
      have ht : returned outs = (bs.map Prod.snd).take (returned outs).length := by
        have := congrArg (List.take (returned outs).length) htl
        rw [List.take_append_of_le_length (by simp), List.take_of_length_le (by simp), ← List.map_take] at this
        exact map_some_inj this
      have hpre := List.take_prefix (returned outs).length (bs.map Prod.snd)
      rwa [← ht] at hpre
    · have hm : none ∈ leftQueue outs := by rw [hi]; simp
      have : ∃ pre post, outs = pre ++ .stop false :: post := by
        simp only [leftQueue, List.mem_filterMap] at hm
        obtain ⟨o, ho, hm⟩ := hm
        have h1 := hpl o ho
        cases o with
        | stop b =>
          cases b with
          | false => exact List.append_of_mem ho
          | true => exact absurd rfl h1.2
        | removed x => exact absurd rfl (h1.1 x)
        | _ => simp at hm
      obtain ⟨pre, post, rfl⟩ := this
      rw [leftQueue_stop] at hi
      obtain ⟨h1, h2⟩ := append_none_inj hnone hi
      have e1 := leftQueue_some (fun o ho => hpl o (by simp [ho])) (h1 ▸ hnone : none ∉ leftQueue pre)
      have e2 := leftQueue_some (fun o ho => hpl o (by simp [ho])) (by rw [h2]; simp : none ∉ leftQueue post)
      rw [h1, hmap] at e1
      rw [h2] at e2
      have e1' := map_some_inj e1
      have e2' : returned post = [] := by simpa using e2.symm
      rw [returned_append]
      simp only [returned, List.filterMap_cons] at e1' e2' ⊢
      rw [← e1', e2']
      simp
  · rintro pre b post rfl
    have hb : b = false := by
      cases b with
      | false => rfl
      | true => exact absurd rfl (hpl (.stop true) (by simp)).2
    subst hb
    rw [leftQueue_stop] at hi
    rcases hi with hi | ⟨hi, hstop⟩
    · exact (hnone (hi.subset (by simp))).elim
    · obtain ⟨h1, h2⟩ := append_none_inj hnone hi
      have e1 := leftQueue_some (fun o ho => hpl o (by simp [ho])) (h1 ▸ hnone : none ∉ leftQueue pre)
      have e2 := leftQueue_some (fun o ho => hpl o (by simp [ho])) (by rw [h2]; simp : none ∉ leftQueue post)
      rw [h1, hmap] at e1
      rw [h2] at e2
      exact ⟨(map_some_inj e1).symm, by simpa using e2.symm, hstop⟩

/-- A schedule with the worker ahead of the consumer by up to two batches; all three batches arrive, then the end. -/
example : (run demoSrc ⟨4, 2⟩
    ([.get 4] ++ round ++ round ++ [.check, .fetch, .take, .get 4, .put, .take, .check, .fetch, .get 4, .take, .eosPut, .eosStop,
      .get 4, .take]) (init 0)).map (fun r => (returned r.2, r.2.getLast?)) = some ([0, 1, 2], some (.stop false)) := rfl

/-- C25 (no deadlock): whenever `get_batch` waits on an empty queue and the worker thread is alive, the worker can take a
step. -/
theorem C25_no_deadlock (p : Src S B) (cfg : Cfg) (hb : 0 < cfg.bufferSize) (s : St S B) (hq : s.queue = [])
    (hw : s.w.ended = false) : ∃ a, a.isWorker = true ∧ (act p cfg a s).isSome :=
  worker_enabled hw (fun _ => by rw [hq]; exact hb)

/-! ## C26 -/

/-- C26: under every schedule whatsoever the queue holds at most `buffer_size` entries; and, counted from construction
(or the last `reset`, which is the constructor's state again, C28), the wrapped scheduler has produced at most
`buffer_size + 1` batches more than have left the queue. -/
theorem C26_bounded_buffer (p : Src S B) (cfg : Cfg) (hb : 0 < cfg.bufferSize) (src0 : S) (as : List Action) (s : St S B)
    (outs : List (Out B)) (h : run p cfg as (init src0) = some (s, outs)) :
    s.queue.length ≤ cfg.bufferSize ∧
    (.join ∉ as → fetchedCount outs ≤ (leftQueue outs).length + cfg.bufferSize + 1) := by
  have h1 := (Bounded.run hb h).len
  refine ⟨h1, fun hj => ?_⟩
  have h2 := (Ahead.run hj h).1
  have h3 : s.w.slack ≤ 1 := by cases s.w <;> simp [WPc.slack]
  omega

/-- The bound is reached: buffer of one, two batches fetched, none taken. -/
example : (run demoSrc ⟨4, 1⟩ ([.get 4] ++ round ++ [.check, .fetch]) (init 0)).map (fun r => (r.1.queue.length, fetchedCount r.2))
    = some (1, 2) := rfl

/-! ## C27 -/

/-- C27: in every state that any schedule can reach inside `reset`, before its join: `reset` gets to the join; the worker
takes at most four more steps; as long as it has not ended it can take a step (it is not blocked); and when it has ended
the join returns. -/
theorem C27_reset_never_deadlocks (p : Src S B) (cfg : Cfg) (hb : 0 < cfg.bufferSize) (src0 : S) (as : List Action)
    (s : St S B) (outs : List (Out B)) (h : run p cfg as (init src0) = some (s, outs)) :
    (s.c = .resetDrain → ∃ s' o, act p cfg .resetDrain s = some (s', o) ∧ s'.c = .resetJoin) ∧
    (s.c = .resetJoin → ∀ ws s' os, (∀ a ∈ ws, a.isWorker = true) → run p cfg ws s = some (s', os) →
      ws.length ≤ 4 ∧
      (s'.w.ended = false → ∃ a, a.isWorker = true ∧ (act p cfg a s').isSome) ∧
      (s'.w.ended = true → ∃ s'' o, act p cfg .join s' = some (s'', o) ∧ s''.c = .idle)) := by
  constructor
  · intro hc
    cases hq : s.queue with
    | nil => exact ⟨_, _, by simp only [act, hc, hq]; rfl, rfl⟩
    | cons x q => exact ⟨_, _, by simp only [act, hc, hq]; rfl, rfl⟩
  · intro hc ws s' os hws hr
    have hbd := Bounded.run hb h
    have hst := (hbd.join hc).1
    have hrank : ∀ {ws} {s s' : St S B} {os}, s.stop = true → (∀ a ∈ ws, a.isWorker = true) → run p cfg ws s = some (s', os) →
        ws.length + s'.w.rank ≤ s.w.rank ∧ s'.c = s.c := by
      intro ws
      induction ws with
      | nil => intro s s' os _ _ hr; rw [run_nil] at hr; simp at hr; obtain ⟨rfl, _⟩ := hr; simp
      | cons a ws ih =>
        intro s s' os hs hw hr
        obtain ⟨s1, o, os', ha, hr', _⟩ := run_cons hr
        have h1 := rank_step hs (hw a (by simp)) ha
        have h2 := ih h1.2.1 (fun b hb => hw b (by simp [hb])) hr'
        simp only [List.length_cons]
        exact ⟨by omega, h2.2.trans h1.2.2⟩
    have h1 := hrank hst hws hr
    have hbd' : Bounded cfg s' := run_invariant (p := p) (cfg := cfg) (fun _ s => Bounded cfg s) (fun _ => True)
      (fun _ _ _ _ _ h _ ha => h.step hb ha) (hist := []) hbd (fun _ _ => trivial) hr
    have h4 : s.w.rank ≤ 4 := by cases s.w <;> simp [WPc.rank]
    refine ⟨by omega, fun he => ?_, fun he => ?_⟩
    · exact worker_enabled he (hbd'.join (h1.2.trans hc)).2
    · exact ⟨_, _, by simp only [act, h1.2, hc, he]; rfl, rfl⟩

/-- `reset` while the worker is blocked on a full queue. -/
example : (run demoSrc ⟨4, 1⟩ ([.get 4] ++ round ++ [.check, .fetch, .take] ++ [.put, .check, .fetch, .reset, .resetDrain,
    .put, .check, .join]) (init 0)).map (fun r => r.1) = some (init 0) := rfl

/-! ## C28 -/

/-- C28: when a `reset` completes, the prefetching scheduler is in the state the constructor leaves, over the reset wrapped
scheduler; and under every further schedule without timeouts the batches returned afterwards are a prefix of what the
freshly reset wrapped scheduler produces. -/
theorem C28_reset_restarts (p : Src S B) (cfg : Cfg) (s s' : St S B) (o : Out B)
    (hj : act p cfg .join s = some (s', o)) :
    s' = init (p.reset s.src) ∧
    ∀ as s2 outs, (∀ a ∈ as, PlainUse a) → run p cfg as s' = some (s2, outs) →
      ∃ bs src k, Produces p (p.reset s.src) 0 bs src k ∧ returned outs <+: bs.map Prod.snd := by
  have : s' = init (p.reset s.src) := by
    simp only [act] at hj
    repeat' split at hj
    all_goals simp at hj
    exact hj.1.symm
  refine ⟨this, fun as s2 outs hok hr => ?_⟩
  rw [this] at hr
  obtain ⟨bs, src, k, h1, h2, _⟩ := C25_same_batches_same_order p cfg _ as s2 outs hok hr
  exact ⟨bs, src, k, h1, h2⟩

/-- Two batches are prefetched, one is delivered; after `reset` the stream starts at the first batch again. -/
example : (run demoSrc ⟨4, 2⟩ ([.get 4] ++ round ++ round ++ [.take, .reset, .resetDrain, .check, .join, .get 4] ++ round ++ [.take])
    (init 0)).map (fun r => returned r.2) = some [0, 0] := rfl

/-! ## C29 -/

/-- C29, restricted to schedules in which neither the deadline of `next_episode` cuts the discarding short nor the
end-of-stream signal replaces a batch: for a wrapped scheduler with episodes of `L` steps, the `i`-th item to leave the
queue is the `i`-th batch of its stream, and if it was returned by `get_batch` when `steps_remaining()` was `L - t`, it is
time step `t` of its episode. -/
theorem C29_episodes_aligned_partial (p : Src S B) (cfg : Cfg) (src0 : S) (L : Nat) (hL : 0 < L)
    (hE : EpisodesOf p src0 L) (as : List Action) (s : St S B) (outs : List (Out B))
    (hok : ∀ a ∈ as, Undisturbed a) (h : run p cfg as (init src0) = some (s, outs)) :
    ∃ bs src k, Produces p src0 0 bs src k ∧
      (∀ i o b, (stamped outs)[i]? = some (o, some b) → ∃ t, bs[i]? = some (t, b) ∧ t = i % L ∧ (o = none ∨ o = some t)) := by
  have inv := EpInv.run hE.1 hok h
  obtain ⟨bs, src, k, hp, hi⟩ := inv.acc.items
  refine ⟨bs, src, k, hp, ?_⟩
  intro i o b hib
  have hlq : (leftQueue outs)[i]? = some (some b) := by
    rw [← stamped_snd, List.getElem?_map, hib]; rfl
  have hb : (bs.map (fun q => some q.2))[i]? = some (some b) := by
    rcases hi with hi | ⟨hi, _⟩
    · obtain ⟨tl, htl⟩ := hi
      rw [← htl, List.getElem?_append_left]
      · exact hlq
      · by_contra hc
        rw [List.getElem?_eq_none (by omega)] at hlq
        simp at hlq
    · rw [hi, List.getElem?_append] at hlq
      split at hlq
      · exact hlq
      · rename_i hlt
        rcases hd : i - (bs.map (fun q => some q.2)).length with _ | m <;> rw [hd] at hlq <;> simp at hlq
  rw [List.getElem?_map] at hb
  cases hx : bs[i]? with
  | none => rw [hx] at hb; simp at hb
  | some x =>
    rw [hx] at hb
    simp at hb
    have hst := hp.stamp hL hE i x hx
    refine ⟨x.1, by rw [← hb], hst, ?_⟩
    cases o with
    | none => exact Or.inl rfl
    | some t => exact Or.inr (by rw [hst, inv.rets i t b hib])

/-- One step of the first episode, then `next_episode`, then the whole second episode. -/
example : (run demoEp ⟨4, 2⟩ ([.get 4] ++ round ++ [.take, .nextEpisode] ++ round ++ [.discard, .check, .fetch] ++ round ++
    [.get 4, .take] ++ round ++ [.get 4, .take, .get 4]) (init (0, 0))).map (fun r => (stamped r.2, r.2.getLast?))
    = some ([(some 0, some (0, 0)), (none, some (0, 1)), (some 0, some (1, 0)), (some 1, some (1, 1))], some .episodeEnd) := rfl

/-- C29 fails when the deadline of `next_episode` passes before the rest of the episode was discarded: the batch returned
as time step 0 of the new episode is time step 1 of the old one. -/
theorem C29_refuted : EpisodesOf demoEp (0, 0) 2 ∧ ∃ as s, run demoEp ⟨4, 2⟩ as (init (0, 0)) =
    some (s, [.tau, .tau, .fetched (0, 0), .tau, .ret 0 (0, 0), .tau, .tau, .tau, .tau, .fetched (0, 1), .tau, .ret 0 (0, 1)]) := by
  refine ⟨demoEp_episodes, [.get 4] ++ round ++ [.take, .nextEpisode, .discardTimeout, .get 4] ++ round ++ [.take], _, rfl⟩

/-! ## C30 -/

/-- C30, what holds under every schedule without `reset` and `shutdown`, however slow the consumer: when the end-of-stream
signal has been taken from the queue, all batches that the wrapped scheduler produced have left the queue before it, except
at most one, which is among the last `buffer_size`; and none is missing if the worker's `put` of the signal did not time out. -/
theorem C30_at_most_one_lost_partial (p : Src S B) (cfg : Cfg) (src0 : S) (as : List Action) (s : St S B)
    (outs : List (Out B)) (hok : ∀ a ∈ as, Session a) (h : run p cfg as (init src0) = some (s, outs))
    (hs : .stop false ∈ outs) :
    ∃ bs src k, Produces p src0 0 bs src k ∧ (p.getBatch src).1 = .error .stopIteration ∧
      (leftQueue outs = bs.map (fun q => some q.2) ++ [none] ∨
        .eosTimeout ∈ as ∧ ∃ i, i < bs.length ∧ bs.length ≤ i + max 1 cfg.bufferSize ∧ leftQueue outs = (bs.map (fun q => some q.2)).eraseIdx i ++ [none]) := by
  have acc : Acc p cfg src0 (.eosTimeout ∈ as) (leftQueue outs) s := Acc.run hok id h
  have hm : none ∈ leftQueue outs := by
    simp only [leftQueue, List.mem_filterMap]
    exact ⟨_, hs, rfl⟩
  obtain ⟨bs, src, k, hp, hi⟩ := acc
  refine ⟨bs, src, k, hp.1, ?_⟩
  have hnone : none ∉ bs.map (fun q => some q.2) := by simp
  have key : ∀ tl, leftQueue outs ++ tl = bs.map (fun q => some q.2) → False := fun tl he =>
    hnone (he ▸ List.mem_append_left _ hm)
  have key2 : ∀ items : List (Option B), none ∉ items → leftQueue outs ++ s.queue = items ++ [none] →
      leftQueue outs = items ++ [none] := by
    intro items hni he
    rcases List.eq_nil_or_concat s.queue with hq | ⟨q, x, hq⟩
    · rw [hq] at he; simpa using he
    · rw [hq, List.concat_eq_append, ← List.append_assoc] at he
      exact (hni (List.append_inj_left' he rfl ▸ List.mem_append_left _ hm)).elim
  have key3 : ∀ i, none ∉ (bs.map (fun q => some q.2)).eraseIdx i := fun i hc => hnone ((List.eraseIdx_sublist _ _).subset hc)
  cases hw : s.w <;> rw [hw] at hi <;> simp only at hi
  · rw [hi.2.2.2.1] at hm; simp at hm
  · exact (key _ hi.2.2.2).elim
  · exact (key _ hi.2.2.2).elim
  · exact (key _ ((List.append_assoc _ _ _).symm.trans hi.2.2.2)).elim
  · exact (key _ hi.2.2).elim
  · exact (key _ hi.2.2.2).elim
  · exact ⟨hi.1, hi.2.2.imp (key2 _ hnone) (fun ⟨h1, i, l1, l2, h2⟩ => ⟨h1, i, l1, l2, key2 _ (key3 i) h2⟩)⟩
  · exact ⟨hi.1, hi.2.2.imp (key2 _ hnone) (fun ⟨h1, i, l1, l2, h2⟩ => ⟨h1, i, l1, l2, key2 _ (key3 i) h2⟩)⟩
  · exact (key _ hi.2.2.1).elim

/-- C30 fails with a slow consumer: the wrapped scheduler produces `0, 1, 2`; the worker finds the queue full for its whole
timeout, and `2` is thrown away. -/
theorem C30_refuted : (∃ src k, Produces demoSrc 0 0 [(0, 0), (1, 1), (2, 2)] src k) ∧
    ∃ as s outs, (∀ a ∈ as, Session a) ∧ run demoSrc ⟨4, 1⟩ as (init 0) = some (s, outs) ∧
      returned outs = [0, 1] ∧ outs.getLast? = some (.stop false) := by
  refine ⟨⟨3, 3, .batch rfl (.batch rfl (.batch rfl (.nil _ _)))⟩, ?_⟩
  refine ⟨[.get 4] ++ round ++ [.take] ++ round ++ [.get 4, .take] ++ round ++
    [.check, .fetch, .eosTimeout, .eosForce, .eosStop, .get 4, .take], _, _, ?_, rfl, rfl, rfl⟩
  intro a ha
  simp [round] at ha
  rcases ha with rfl | rfl | rfl | rfl | rfl | rfl | rfl | rfl | rfl | rfl | rfl | rfl | rfl | rfl | rfl | rfl | rfl | rfl | rfl | rfl | rfl
    <;> trivial

/-! ## C31 -/

/-- C31, for a buffer of at least two entries that is not full when `shutdown` is called: from that moment the worker takes
at most four more steps and is never blocked before it has ended. -/
theorem C31_shutdown_stops_partial (p : Src S B) (cfg : Cfg) (hb : 2 ≤ cfg.bufferSize) (s s0 : St S B) (o : Out B)
    (hroom : s.queue.length < cfg.bufferSize) (h0 : act p cfg .shutdown s = some (s0, o)) (as : List Action) (s' : St S B)
    (outs : List (Out B)) (hok : ∀ a ∈ as, a.closing = true) (h : run p cfg as s0 = some (s', outs)) :
    (as.filter Action.isWorker).length ≤ 4 ∧
    (s'.w.ended = false → ∃ a, a.isWorker = true ∧ (act p cfg a s').isSome) := by
  have hcl : Closing cfg s0 := by
    cases hc : s.c <;> simp only [act, hc] at h0 <;> try contradiction
    simp at h0
    obtain ⟨rfl, rfl⟩ := h0
    exact ⟨rfl, Or.inl rfl, fun _ => ⟨hroom, by simp⟩⟩
  have key : ∀ {as} {s s' : St S B} {outs}, Closing cfg s → (∀ a ∈ as, a.closing = true) → run p cfg as s = some (s', outs) →
      Closing cfg s' ∧ (as.filter Action.isWorker).length + s'.w.rank ≤ s.w.rank := by
    intro as
    induction as with
    | nil => intro s s' outs hc _ hr; rw [run_nil] at hr; simp at hr; obtain ⟨rfl, _⟩ := hr; exact ⟨hc, by simp⟩
    | cons a as ih =>
      intro s s' outs hc hk hr
      obtain ⟨s1, o, os', ha, hr', _⟩ := run_cons hr
      have hc1 := hc.step hb (hk a (by simp)) ha
      have h2 := ih hc1 (fun b hb => hk b (by simp [hb])) hr'
      refine ⟨h2.1, ?_⟩
      by_cases hw : a.isWorker = true
      · have h1 := rank_step hc.stop hw ha
        rw [List.filter_cons_of_pos hw, List.length_cons]
        omega
      · rw [List.filter_cons_of_neg hw]
        have : s1.w = s.w := by
          have hk := hk a (by simp)
          cases a <;> simp [Action.closing, Action.isWorker] at hk hw <;> simp only [act] at ha <;>
            (repeat' split at ha) <;> simp at ha <;> obtain ⟨rfl, _⟩ := ha <;> rfl
        rw [this] at h2
        exact h2.2
  have h1 := key hcl hok h
  have h4 : s0.w.rank ≤ 4 := by cases s0.w <;> simp [WPc.rank]
  exact ⟨by omega, fun he => worker_enabled he (fun hm => (h1.1.room hm).1)⟩

example : (run demoSrc ⟨4, 2⟩ ([.get 4] ++ round ++ [.take] ++ round ++ [.check, .fetch, .shutdown, .shutDrain, .shutPut, .put, .check, .shutJoin])
    (init 0)).map (fun r => r.1.w) = some .exited := rfl

/-- C31 fails when the buffer is full: `shutdown` frees a slot and fills it with its own end-of-stream signal before the
worker, blocked in `put`, gets to run. The worker is alive, `shutdown` has returned, and the worker can never take another
step unless the consumer takes something out of the queue. -/
theorem C31_refuted : ∃ as s outs, run demoSrc ⟨4, 1⟩ as (init 0) = some (s, outs) ∧
    as.getLast? = some .shutJoin ∧ s.c = .idle ∧ s.stop = true ∧ s.w.ended = false ∧
    ∀ a, a.isWorker = true → act demoSrc ⟨4, 1⟩ a s = none := by
  refine ⟨[.get 4] ++ round ++ [.take] ++ round ++ [.check, .fetch, .shutdown, .shutDrain, .shutPut, .shutJoin], _, _, rfl, rfl, rfl, rfl, rfl, ?_⟩
  intro a ha
  cases a <;> simp [Action.isWorker] at ha <;> rfl

/-! ## C32 -/

/-- C32, for sessions in which no `get` of the consumer times out (and without `shutdown`): `StopIteration` means that the
wrapped scheduler raised `StopIteration`. -/
theorem C32_stop_means_exhausted_partial (p : Src S B) (cfg : Cfg) (src0 : S) (as : List Action) (s : St S B)
    (outs : List (Out B)) (hok : ∀ a ∈ as, Session a ∧ a ≠ .timeout) (h : run p cfg as (init src0) = some (s, outs)) (b : Bool)
    (hs : .stop b ∈ outs) :
    ∃ bs src k, Produces p src0 0 bs src k ∧ (p.getBatch src).1 = .error .stopIteration := by
  have hb : b = false := by
    have := run_invariant (p := p) (cfg := cfg) (fun hist _ => Out.stop true ∉ hist) (fun a => a ≠ .timeout) (by
      intro hist s a s1 o hh hk ha
      simp only [List.mem_append, List.mem_singleton, not_or]
      refine ⟨hh, ?_⟩
      rintro rfl
      cases a with
      | timeout => exact hk rfl
      | fetch =>
        cases hw : s.w <;> simp only [act, hw] at ha <;> try contradiction
        simp only [Option.some.injEq] at ha
        rcases fetchStep_cases (p := p) s with ⟨b, src, he⟩ | ⟨w, src, he, hw'⟩ <;> rw [he] at ha <;> simp at ha
      | _ =>
        simp only [act] at ha
        repeat' split at ha
        all_goals simp at ha) (hist := []) (by simp) (fun a ha => (hok a ha).2) h
    cases b with
    | false => rfl
    | true => exact (this (by simpa using hs)).elim
  subst hb
  obtain ⟨bs, src, k, h1, h2, _⟩ := C30_at_most_one_lost_partial p cfg src0 as s outs (fun a ha => (hok a ha).1) h hs
  exact ⟨bs, src, k, h1, h2⟩

/-- C32 fails for every failure: whatever exception the wrapped scheduler raises (other than the two that are handled), the
worker thread ends and `get_batch` raises `StopIteration` when its timeout has passed. -/
theorem C32_refuted_failure (e : Exc) (h1 : e ≠ .stopIteration) (h2 : e ≠ .episodeEnd) (cfg : Cfg) :
    ∃ s, run (demoFail e) cfg [.get cfg.batchSize, .check, .fetch, .timeout] (init ()) = some (s, [.tau, .tau, .tau, .stop true]) ∧
      s.w = .died e := by
  cases e <;> first | exact absurd rfl h1 | exact absurd rfl h2 | skip
  all_goals
    simp [run, act, init, startWorker, demoFail, fetchStep]

/-- C32 fails for a wrapped scheduler that is merely slow: `StopIteration` is raised although the next call delivers a
batch. -/
theorem C32_refuted_slow : ∃ s, run demoSrc ⟨4, 2⟩ ([.get 4, .timeout, .get 4] ++ round ++ [.take]) (init 0) =
    some (s, [.tau, .stop true, .tau, .tau, .fetched 0, .tau, .ret 0 0]) := ⟨_, rfl⟩

end Verif.Prefetch
