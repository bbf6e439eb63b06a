import Verif.Proofs.Prefetch
/-!
# Invariants of the prefetching scheduler: bounded buffer, termination of the worker, episode alignment
-/

namespace Verif.Prefetch
open Verif
variable {S B : Type} {p : Src S B} {cfg : Cfg}

theorem startWorker_queue (s : St S B) : (startWorker s).queue = s.queue := by
  unfold startWorker; split <;> rfl
theorem startWorker_c (s : St S B) : (startWorker s).c = s.c := by
  unfold startWorker; split <;> rfl
theorem startWorker_t (s : St S B) : (startWorker s).t = s.t := by
  unfold startWorker; split <;> rfl
theorem startWorker_stop (s : St S B) : (startWorker s).stop = s.stop := by
  unfold startWorker; split <;> rfl
theorem startWorker_started (s : St S B) : (startWorker s).started = true := by
  unfold startWorker; split <;> simp_all

/-- What `fetchStep` can do, apart from the wrapped scheduler's state. -/
theorem fetchStep_cases (s : St S B) :
    (∃ b src, fetchStep p s = ({ s with src := src, w := .put b }, .fetched b)) ∨
    (∃ w src, fetchStep p s = ({ s with src := src, w := w }, .tau) ∧ (w = .eos ∨ w = .loop ∨ ∃ e, w = .died e)) := by
  unfold fetchStep
  split
  · exact Or.inl ⟨_, _, rfl⟩
  · exact Or.inr ⟨_, _, rfl, Or.inl rfl⟩
  · split
    · exact Or.inr ⟨_, _, rfl, Or.inr (Or.inl rfl)⟩
    · exact Or.inr ⟨_, _, rfl, Or.inr (Or.inr ⟨_, rfl⟩)⟩
  · exact Or.inr ⟨_, _, rfl, Or.inr (Or.inr ⟨_, rfl⟩)⟩

/-! ## Bounded buffer -/

/-- The worker may still put a batch without checking the stop flag first. -/
def WPc.mayPut : WPc B → Bool
  | .fetch | .put _ => true
  | _ => false

/-- The queue never exceeds its size; while `reset` waits for the worker, the stop flag is set and the worker's last
`put`, if any, has room. -/
structure Bounded (cfg : Cfg) (s : St S B) : Prop where
  len : s.queue.length ≤ cfg.bufferSize
  drain : s.c = .resetDrain → s.stop = true
  join : s.c = .resetJoin → s.stop = true ∧ (s.w.mayPut = true → s.queue.length < cfg.bufferSize)

theorem Bounded.step (hb : 0 < cfg.bufferSize) {s s1 : St S B} {a o} (h : Bounded cfg s)
    (ha : act p cfg a s = some (s1, o)) : Bounded cfg s1 := by
  obtain ⟨h1, h2, h3⟩ := h
  cases a with
  | fetch =>
    cases hw : s.w <;> simp only [act, hw] at ha <;> try contradiction
    simp only [Option.some.injEq] at ha
    rcases fetchStep_cases (p := p) s with ⟨b, src, he⟩ | ⟨w, src, he, hw'⟩
    · rw [he] at ha; simp at ha; obtain ⟨rfl, rfl⟩ := ha
      exact ⟨h1, h2, fun hc => ⟨(h3 hc).1, fun _ => (h3 hc).2 (by rw [hw]; rfl)⟩⟩
    · rw [he] at ha; simp at ha; obtain ⟨rfl, rfl⟩ := ha
      refine ⟨h1, h2, fun hc => ⟨(h3 hc).1, fun hm => ?_⟩⟩
      rcases hw' with rfl | rfl | ⟨e, rfl⟩ <;> simp [WPc.mayPut] at hm
  | get n =>
    cases hc : s.c <;> simp only [act, hc] at ha <;> try contradiction
    repeat' split at ha
    all_goals
      simp at ha
      obtain ⟨rfl, rfl⟩ := ha
      constructor <;> simp_all [startWorker_queue, startWorker_c]
  | nextEpisode =>
    cases hc : s.c <;> simp only [act, hc] at ha <;> try contradiction
    repeat' split at ha
    all_goals
      simp at ha
      obtain ⟨rfl, rfl⟩ := ha
      constructor <;> simp_all [startWorker_queue, startWorker_c]
  | _ =>
    simp only [act] at ha
    repeat' split at ha
    all_goals try contradiction
    all_goals
      simp at ha
      obtain ⟨rfl, rfl⟩ := ha
      constructor <;> simp_all [WPc.mayPut, init] <;> omega

theorem Bounded.run (hb : 0 < cfg.bufferSize) {src0 : S} {as} {s : St S B} {outs}
    (h : run p cfg as (init src0) = some (s, outs)) : Bounded cfg s := by
  refine run_invariant (p := p) (cfg := cfg) (fun _ s => Bounded cfg s) (fun _ => True)
    (fun _ _ _ _ _ h _ ha => h.step hb ha) (s := init src0) (hist := []) ?_ (fun _ _ => trivial) h
  constructor <;> simp [init]

/-! ## How far the worker can be ahead -/

/-- One batch in the worker's hands, or removed by the forced end-of-stream signal. -/
def WPc.slack : WPc B → Nat
  | .put _ | .eosStop | .exited | .died _ => 1
  | _ => 0

def Ahead (hist : List (Out B)) (s : St S B) : Prop :=
  fetchedCount hist ≤ (leftQueue hist).length + s.queue.length + s.w.slack ∧ (s.started = false → s.w = .idle)

theorem fetchedCount_append (xs ys : List (Out B)) : fetchedCount (xs ++ ys) = fetchedCount xs + fetchedCount ys := by
  simp [fetchedCount]

theorem startWorker_slack {s : St S B} (h : s.started = false → s.w = .idle) :
    (startWorker s).w.slack = s.w.slack := by
  unfold startWorker
  split
  · rfl
  · rw [h (by simp_all)]; rfl

theorem Ahead.step {hist : List (Out B)} {s s1 : St S B} {a o} (h : Ahead hist s) (hj : a ≠ .join)
    (ha : act p cfg a s = some (s1, o)) : Ahead (hist ++ [o]) s1 := by
  obtain ⟨h1, h2⟩ := h
  cases a with
  | join => exact absurd rfl hj
  | fetch =>
    cases hw : s.w <;> simp only [act, hw] at ha <;> try contradiction
    simp only [Option.some.injEq] at ha
    rw [hw] at h1
    rcases fetchStep_cases (p := p) s with ⟨b, src, he⟩ | ⟨w, src, he, hw'⟩
    · rw [he] at ha; simp at ha; obtain ⟨rfl, rfl⟩ := ha
      refine ⟨?_, fun hs => ?_⟩
      · rw [fetchedCount_append, leftQueue_append]
        simp [fetchedCount, leftQueue, WPc.slack] at h1 ⊢
        omega
      · rw [h2 hs] at hw; simp at hw
    · rw [he] at ha; simp at ha; obtain ⟨rfl, rfl⟩ := ha
      refine ⟨?_, fun hs => ?_⟩
      · rw [fetchedCount_append, leftQueue_append]
        simp [fetchedCount, leftQueue, WPc.slack] at h1 ⊢
        omega
      · rw [h2 hs] at hw; simp at hw
  | get n =>
    cases hc : s.c <;> simp only [act, hc] at ha <;> try contradiction
    repeat' split at ha
    all_goals
      simp at ha
      obtain ⟨rfl, rfl⟩ := ha
      refine ⟨?_, ?_⟩
      · rw [fetchedCount_append, leftQueue_append]
        simp [fetchedCount, leftQueue, startWorker_queue, startWorker_slack h2] at h1 ⊢
        omega
      · simp_all [startWorker_started]
  | nextEpisode =>
    cases hc : s.c <;> simp only [act, hc] at ha <;> try contradiction
    repeat' split at ha
    all_goals
      simp at ha
      obtain ⟨rfl, rfl⟩ := ha
      refine ⟨?_, ?_⟩
      · rw [fetchedCount_append, leftQueue_append]
        simp [fetchedCount, leftQueue, startWorker_queue, startWorker_slack h2] at h1 ⊢
        omega
      · simp_all [startWorker_started]
  | _ =>
    simp only [act] at ha
    repeat' split at ha
    all_goals try contradiction
    all_goals
      simp at ha
      obtain ⟨rfl, rfl⟩ := ha
      refine ⟨?_, ?_⟩
      · rw [fetchedCount_append, leftQueue_append]
        simp_all [fetchedCount, leftQueue, WPc.slack] <;> omega
      · simp_all

theorem Ahead.run {src0 : S} {as} {s : St S B} {outs} (hj : .join ∉ as)
    (h : run p cfg as (init src0) = some (s, outs)) : Ahead outs s := by
  have := run_invariant (p := p) (cfg := cfg) (fun hist s => Ahead hist s) (fun a => a ≠ .join)
    (fun _ _ _ _ _ h hj ha => h.step hj ha) (s := init src0) (hist := []) ⟨by simp [fetchedCount], fun _ => rfl⟩
    (fun a ha he => hj (he ▸ ha)) h
  simpa using this

/-! ## The worker stops once the stop flag is set and its last `put` has room -/

/-- An upper bound for the steps the worker can still take once the stop flag is set. -/
def WPc.rank : WPc B → Nat
  | .idle | .exited | .died _ => 0
  | .loop | .eosStop => 1
  | .put _ | .eosForce => 2
  | .eos => 3
  | .fetch => 4

theorem rank_step {s s1 : St S B} {a o} (hs : s.stop = true) (hw : a.isWorker = true)
    (ha : act p cfg a s = some (s1, o)) : s1.w.rank < s.w.rank ∧ s1.stop = true ∧ s1.c = s.c := by
  cases a with
  | fetch =>
    cases hw : s.w <;> simp only [act, hw] at ha <;> try contradiction
    simp only [Option.some.injEq] at ha
    rcases fetchStep_cases (p := p) s with ⟨b, src, he⟩ | ⟨w, src, he, hw'⟩
    · rw [he] at ha; simp at ha; obtain ⟨rfl, rfl⟩ := ha
      simp [WPc.rank, hs]
    · rw [he] at ha; simp at ha; obtain ⟨rfl, rfl⟩ := ha
      rcases hw' with rfl | rfl | ⟨e, rfl⟩ <;> simp [WPc.rank, hs]
  | _ =>
    simp only [Action.isWorker] at hw; try contradiction
    all_goals simp only [act] at ha
    all_goals repeat' split at ha
    all_goals try contradiction
    all_goals
      simp at ha
      obtain ⟨rfl, rfl⟩ := ha
      simp_all [WPc.rank]

/-- If the worker's `put` has room, the worker is never blocked. -/
theorem worker_enabled {s : St S B} (he : s.w.ended = false) (hr : s.w.mayPut = true → s.queue.length < cfg.bufferSize) :
    ∃ a, a.isWorker = true ∧ (act p cfg a s).isSome := by
  cases hw : s.w with
  | idle => rw [hw] at he; simp [WPc.ended] at he
  | loop => exact ⟨.check, rfl, by simp [act, hw]⟩
  | fetch => exact ⟨.fetch, rfl, by simp [act, hw]⟩
  | put b =>
    have := hr (by rw [hw]; rfl)
    exact ⟨.put, rfl, by simp [act, hw, this]⟩
  | eos =>
    by_cases h : s.queue.length < cfg.bufferSize
    · exact ⟨.eosPut, rfl, by simp [act, hw, h]⟩
    · exact ⟨.eosTimeout, rfl, by simp [act, hw, h]⟩
  | eosForce => exact ⟨.eosForce, rfl, by simp [act, hw]⟩
  | eosStop => exact ⟨.eosStop, rfl, by simp [act, hw]⟩
  | exited => rw [hw] at he; simp [WPc.ended] at he
  | died e => rw [hw] at he; simp [WPc.ended] at he

/-- Room for the worker's last `put` while `shutdown` runs, for a buffer of at least two that was not full when it was
called. -/
structure Closing (cfg : Cfg) (s : St S B) : Prop where
  stop : s.stop = true
  phase : s.c = .shutDrain ∨ s.c = .shutPut ∨ s.c = .shutJoin ∨ s.c = .idle
  room : s.w.mayPut = true → s.queue.length < cfg.bufferSize ∧ (s.c = .shutPut → s.queue.length + 2 ≤ cfg.bufferSize)

/-- The steps of the worker and of a running `shutdown`. -/
def Action.closing (a : Action) : Bool :=
  a.isWorker || a == .shutDrain || a == .shutPut || a == .shutJoin

theorem Closing.step (hb : 2 ≤ cfg.bufferSize) {s s1 : St S B} {a o} (h : Closing cfg s) (hok : a.closing = true)
    (ha : act p cfg a s = some (s1, o)) : Closing cfg s1 := by
  obtain ⟨h1, h2, h3⟩ := h
  cases a with
  | fetch =>
    cases hw : s.w <;> simp only [act, hw] at ha <;> try contradiction
    simp only [Option.some.injEq] at ha
    rcases fetchStep_cases (p := p) s with ⟨b, src, he⟩ | ⟨w, src, he, hw'⟩
    · rw [he] at ha; simp at ha; obtain ⟨rfl, rfl⟩ := ha
      exact ⟨h1, h2, fun _ => h3 (by rw [hw]; rfl)⟩
    · rw [he] at ha; simp at ha; obtain ⟨rfl, rfl⟩ := ha
      refine ⟨h1, h2, fun hm => ?_⟩
      rcases hw' with rfl | rfl | ⟨e, rfl⟩ <;> simp [WPc.mayPut] at hm
  | shutDrain =>
    cases hc : s.c <;> simp only [act, hc] at ha <;> try contradiction
    split at ha
    · simp at ha; obtain ⟨rfl, rfl⟩ := ha
      refine ⟨h1, by simp, fun hm => ?_⟩
      simp_all
    · rename_i x q hq
      simp at ha; obtain ⟨rfl, rfl⟩ := ha
      refine ⟨h1, by simp, fun hm => ?_⟩
      have := (h3 hm).1
      rw [hq] at this
      simp at this ⊢
      omega
  | shutPut =>
    cases hc : s.c <;> simp only [act, hc] at ha <;> try contradiction
    simp at ha; obtain ⟨rfl, rfl⟩ := ha
    refine ⟨h1, by simp, fun hm => ?_⟩
    have := (h3 hm).2 hc
    have h4 := (h3 hm).1
    simp [h4]
    omega
  | shutJoin =>
    cases hc : s.c <;> simp only [act, hc] at ha <;> try contradiction
    simp at ha; obtain ⟨rfl, rfl⟩ := ha
    exact ⟨h1, by simp, fun hm => ⟨(h3 hm).1, by simp⟩⟩
  | _ =>
    simp only [Action.closing, Action.isWorker] at hok; try contradiction
    all_goals simp only [act] at ha
    all_goals repeat' split at ha
    all_goals try contradiction
    all_goals
      simp at ha
      obtain ⟨rfl, rfl⟩ := ha
      constructor <;> simp_all [WPc.mayPut]

/-! ## Episode alignment -/

theorem Produces.stamps {s0 : S} {L : Nat} (hL : 0 < L) (hE : EpisodesOf p s0 L) {s1 k1 bs s k}
    (h : Produces p s1 k1 bs s k) : ∀ pre, Produces p s0 0 pre s1 k1 →
      (k1 ≤ L ∧ k1 % L = pre.length % L ∧ ∀ i x, pre[i]? = some x → x.1 = i % L) →
      ∀ i x, (pre ++ bs)[i]? = some x → x.1 = i % L := by
  induction h with
  | nil s k => intro pre _ h; simpa using h.2.2
  | @batch s k b s1 bs s' k' h t ih =>
    intro pre hp ⟨h1, h2, h3⟩
    have hk : k ≠ L := fun hk => by
      have := (hE.2 _ _ _ hp).mpr hk
      rw [h] at this; simp at this
    have hlt : k < L := by omega
    have := ih (pre ++ [(k, b)]) (hp.snoc h) ⟨by omega, by
      rw [Nat.add_mod, h2]; simp, by
      intro i x hx
      rw [List.getElem?_append] at hx
      split at hx
      · exact h3 i x hx
      · rename_i hi
        have hi0 : i = pre.length := by
          by_contra hne
          rw [List.getElem?_eq_none (by simp; omega)] at hx
          simp at hx
        subst hi0
        simp at hx
        subst hx
        rw [← h2, Nat.mod_eq_of_lt hlt]⟩
    simpa using this
  | @episode s k s1 bs s' k' he h t ih =>
    intro pre hp ⟨h1, h2, h3⟩
    have hk : k = L := (hE.2 _ _ _ hp).mp (by rw [h])
    refine ih pre (hp.snocEpisode he h) ⟨by omega, ?_, h3⟩
    rw [← h2, hk]; simp

theorem Produces.stamp {s0 : S} {L : Nat} (hL : 0 < L) (hE : EpisodesOf p s0 L) {bs s k}
    (h : Produces p s0 0 bs s k) (i x) (hx : bs[i]? = some x) : x.1 = i % L :=
  Produces.stamps hL hE h [] (.nil _ _) ⟨by omega, by simp, by simp⟩ i x (by simpa using hx)

/-- The consumer's step counter agrees with the number of items that left the queue. -/
structure Aligned (L : Nat) (hist : List (Out B)) (s : St S B) : Prop where
  free : (∀ k, s.c ≠ .discard k) → s.t ≤ L ∧ (leftQueue hist).length % L = s.t % L
  wait : s.c = .getWait → s.t < L
  disc : ∀ k, s.c = .discard k → 0 < k ∧ ((leftQueue hist).length + k) % L = 0
  fresh : s.started = false → leftQueue hist = [] ∧ s.t = 0

theorem stamped_snd (hist : List (Out B)) : (stamped hist).map Prod.snd = leftQueue hist := by
  induction hist with
  | nil => rfl
  | cons o os ih =>
    cases o <;> simp_all [stamped, leftQueue, List.filterMap_cons]
    rename_i b; cases b <;> simp_all

theorem stamped_length (hist : List (Out B)) : (stamped hist).length = (leftQueue hist).length := by
  rw [← stamped_snd, List.length_map]

theorem stamped_append (xs ys : List (Out B)) : stamped (xs ++ ys) = stamped xs ++ stamped ys := by
  simp [stamped]

/-- Actions of a session in which no discarding of an episode is cut short. -/
def Undisturbed (a : Action) : Prop := Session a ∧ a ≠ .discardTimeout ∧ a ≠ .eosTimeout

theorem Aligned.step {L : Nat} (hp : p.episodeLength = some L) {hist : List (Out B)} {s s1 : St S B} {a o}
    (h : Aligned L hist s) (hok : Undisturbed a) (ha : act p cfg a s = some (s1, o))
    (hfq : s.started = false → s.queue = []) (hn : none ∉ leftQueue (hist ++ [o])) : Aligned L (hist ++ [o]) s1 := by
  have hlq := leftQueue_append hist [o]
  obtain ⟨hs, hd, he⟩ := hok
  obtain ⟨h1, h2, h3, h4⟩ := h
  rw [hlq] at hn
  cases a with
  | fetch =>
    cases hw : s.w <;> simp only [act, hw] at ha <;> try contradiction
    simp only [Option.some.injEq] at ha
    rcases fetchStep_cases (p := p) s with ⟨b, src, he⟩ | ⟨w, src, he, hw'⟩
    · rw [he] at ha; simp at ha; obtain ⟨rfl, rfl⟩ := ha
      simp only [leftQueue, List.filterMap_cons, List.filterMap_nil, List.append_nil] at hlq
      constructor <;> simp only [leftQueue] <;> (try rw [hlq]) <;> assumption
    · rw [he] at ha; simp at ha; obtain ⟨rfl, rfl⟩ := ha
      simp only [leftQueue, List.filterMap_cons, List.filterMap_nil, List.append_nil] at hlq
      constructor <;> simp only [leftQueue] <;> (try rw [hlq]) <;> assumption
  | get n =>
    cases hc : s.c <;> simp only [act, hc] at ha <;> try contradiction
    rw [hp] at ha
    simp only at ha
    repeat' split at ha
    all_goals
      simp at ha
      obtain ⟨rfl, rfl⟩ := ha
      have hlq' := hlq.trans (List.append_nil (leftQueue hist))
      constructor <;> simp_all [startWorker_c, startWorker_t, startWorker_started]
  | take =>
    simp only [act] at ha
    split at ha
    · rename_i x q hc hq
      have h5 := h1 (by rw [hc]; simp)
      have h6 := h2 hc
      cases x with
      | none => simp at ha; obtain ⟨rfl, rfl⟩ := ha; simp [leftQueue] at hn
      | some b =>
        simp at ha
        obtain ⟨rfl, rfl⟩ := ha
        have hlen : (leftQueue (hist ++ [Out.ret s.t b])).length = (leftQueue hist).length + 1 := by
          rw [hlq]; simp [leftQueue]
        refine ⟨fun _ => ⟨h6, ?_⟩, by simp, by simp, ?_⟩
        · rw [hlen, Nat.add_mod, h5.2, ← Nat.add_mod]
        · intro hst
          rw [hfq hst] at hq; simp at hq
    · simp at ha
  | discard =>
    simp only [act] at ha
    split at ha
    · rename_i k x q hc hq
      have h5 := h3 k hc
      cases x with
      | none => simp at ha; obtain ⟨rfl, rfl⟩ := ha; simp [leftQueue] at hn
      | some b =>
        have hlen : (leftQueue (hist ++ [Out.removed (some b)])).length = (leftQueue hist).length + 1 := by
          rw [leftQueue_append]; simp [leftQueue]
        simp only at ha
        split at ha
        · simp at ha
          obtain ⟨rfl, rfl⟩ := ha
          have hk : k = 1 := by omega
          refine ⟨fun _ => ⟨by simp, ?_⟩, by simp, by simp, ?_⟩
          · rw [hlen]; simpa [hk] using h5.2
          · intro hst
            rw [hfq hst] at hq; simp at hq
        · simp at ha
          obtain ⟨rfl, rfl⟩ := ha
          refine ⟨fun h => absurd rfl (h (k - 1)), by simp, ?_, ?_⟩
          · intro j hj
            simp at hj
            subst hj
            rw [hlen]
            refine ⟨by omega, ?_⟩
            rw [show (leftQueue hist).length + 1 + (k - 1) = (leftQueue hist).length + k by omega]
            exact h5.2
          · intro hst
            rw [hfq hst] at hq; simp at hq
    · simp at ha
  | nextEpisode =>
    cases hc : s.c <;> simp only [act, hc] at ha <;> try contradiction
    rw [hp] at ha
    simp only at ha
    have h5 := h1 (by rw [hc]; simp)
    split at ha
    · rename_i hst
      simp at ha
      obtain ⟨rfl, rfl⟩ := ha
      have hlq' : leftQueue (hist ++ [Out.tau]) = leftQueue hist := by rw [hlq]; simp [leftQueue]
      refine ⟨fun h => absurd rfl (h _), by simp, ?_, ?_⟩
      · intro j hj
        simp at hj
        subst hj
        refine ⟨by omega, ?_⟩
        rw [hlq', Nat.add_mod, h5.2, ← Nat.add_mod, show s.t + (L - s.t) = L by omega, Nat.mod_self]
      · simp_all
    · rename_i hst
      simp at ha
      obtain ⟨rfl, rfl⟩ := ha
      have hlq' : leftQueue (hist ++ [Out.tau]) = leftQueue hist := by rw [hlq]; simp [leftQueue]
      refine ⟨fun _ => ⟨by simp, ?_⟩, by simp [startWorker_c, hc], by simp [startWorker_c, hc], by simp [startWorker_started]⟩
      rw [hlq']
      by_cases h : s.started = true
      · have : s.t = L := by
          by_contra hne
          exact hst ⟨h, by omega⟩
        rw [h5.2, this]; simp
      · have := h4 (by simpa using h)
        rw [this.1]; simp
  | discardTimeout => exact absurd rfl hd
  | eosTimeout => exact absurd rfl he
  | _ =>
    all_goals try exact hs.elim
    all_goals simp only [act] at ha
    all_goals repeat' split at ha
    all_goals try contradiction
    all_goals
      simp at ha
      obtain ⟨rfl, rfl⟩ := ha
      simp only [leftQueue, List.filterMap_cons, List.filterMap_nil, List.append_nil] at hlq
      constructor <;> simp only [leftQueue] <;> (try rw [hlq]) <;> first | assumption | (simp_all; done) | (simp_all; exact h1.2)

theorem Acc.fresh {src0 : S} {lossy : Prop} {out} {s : St S B} (h : Acc p cfg src0 lossy out s) (hs : s.started = false) :
    s.queue = [] := by
  obtain ⟨bs, src, k, hp, h⟩ := h
  cases hw : s.w <;> rw [hw] at h <;> simp_all

/-- After the end-of-stream signal has been taken the queue stays empty. -/
theorem Acc.after_eos {src0 : S} {out} {s : St S B} (h : Acc p cfg src0 False out s) (hn : none ∈ out) : s.queue = [] := by
  obtain ⟨bs, src, k, hp, h⟩ := h
  have key : ∀ tl, out ++ tl = bs.map (fun q => some q.2) → False := by
    intro tl he
    have : none ∈ bs.map (fun q => some q.2) := he ▸ List.mem_append_left _ hn
    simp at this
  have key2 : out ++ s.queue = bs.map (fun q => some q.2) ++ [none] → s.queue = [] := by
    intro he
    rcases List.eq_nil_or_concat s.queue with hq | ⟨q, x, hq⟩
    · exact hq
    · rw [hq, List.concat_eq_append, ← List.append_assoc] at he
      exact (key q (List.append_inj_left' he rfl)).elim
  cases hw : s.w <;> rw [hw] at h <;> simp only at h
  · exact h.2.2.2.2.1
  · exact (key _ h.2.2.2).elim
  · exact (key _ h.2.2.2).elim
  · exact (key _ ((List.append_assoc _ _ _).symm.trans h.2.2.2)).elim
  · exact (key _ h.2.2).elim
  · exact h.1.elim
  · rcases h.2.2 with h | h
    · exact key2 h
    · exact h.1.elim
  · rcases h.2.2 with h | h
    · exact key2 h
    · exact h.1.elim
  · exact (key _ h.2.2.1).elim

/-- The items that left the queue are the beginning of the stream, possibly followed by the end-of-stream signal. -/
theorem Acc.items {src0 : S} {out} {s : St S B} (h : Acc p cfg src0 False out s) :
    ∃ bs src k, Produces p src0 0 bs src k ∧
      (out <+: bs.map (fun q => some q.2) ∨
        out = bs.map (fun q => some q.2) ++ [none] ∧ (p.getBatch src).1 = .error .stopIteration) := by
  obtain ⟨bs, src, k, hp, h⟩ := h
  refine ⟨bs, src, k, hp.1, ?_⟩
  have key2 : out ++ s.queue = bs.map (fun q => some q.2) ++ [none] →
      out <+: bs.map (fun q => some q.2) ∨ out = bs.map (fun q => some q.2) ++ [none] := by
    intro he
    rcases List.eq_nil_or_concat s.queue with hq | ⟨q, x, hq⟩
    · rw [hq] at he; right; simpa using he
    · rw [hq, List.concat_eq_append, ← List.append_assoc] at he
      exact Or.inl ⟨q, List.append_inj_left' he rfl⟩
  cases hw : s.w <;> rw [hw] at h <;> simp only at h
  · left; rw [h.2.2.2.1]; exact List.nil_prefix
  · exact Or.inl ⟨_, h.2.2.2⟩
  · exact Or.inl ⟨_, h.2.2.2⟩
  · exact Or.inl ⟨_, (List.append_assoc _ _ _).symm.trans h.2.2.2⟩
  · exact Or.inl ⟨_, h.2.2⟩
  · exact h.1.elim
  · rcases h.2.2 with h' | h'
    · exact (key2 h').imp id (fun e => ⟨e, h.1⟩)
    · exact h'.1.elim
  · rcases h.2.2 with h' | h'
    · exact (key2 h').imp id (fun e => ⟨e, h.1⟩)
    · exact h'.1.elim
  · exact Or.inl ⟨_, h.2.2.1⟩

structure EpInv (p : Src S B) (cfg : Cfg) (src0 : S) (L : Nat) (hist : List (Out B)) (s : St S B) : Prop where
  acc : Acc p cfg src0 False (leftQueue hist) s
  al : none ∉ leftQueue hist → Aligned L hist s
  rets : ∀ i t b, (stamped hist)[i]? = some (some t, some b) → t = i % L

/-- A step that does not return a batch adds no stamped item. -/
theorem act_ret {s s1 : St S B} {a t b} (ha : act p cfg a s = some (s1, .ret t b)) :
    s.c = .getWait ∧ s.t = t ∧ s.queue ≠ [] := by
  cases a with
  | fetch =>
    cases hw : s.w <;> simp only [act, hw] at ha <;> try contradiction
    simp only [Option.some.injEq] at ha
    rcases fetchStep_cases (p := p) s with ⟨b, src, he⟩ | ⟨w, src, he, hw'⟩ <;> rw [he] at ha <;> simp at ha
  | _ =>
    simp only [act] at ha
    repeat' split at ha
    all_goals try contradiction
    all_goals simp_all

theorem EpInv.step {src0 : S} {L : Nat} (hp : p.episodeLength = some L) {hist : List (Out B)}
    {s s1 : St S B} {a o} (h : EpInv p cfg src0 L hist s) (hok : Undisturbed a) (ha : act p cfg a s = some (s1, o)) :
    EpInv p cfg src0 L (hist ++ [o]) s1 := by
  refine ⟨h.acc.step hok.1 (fun he => hok.2.2 he) ha, ?_, ?_⟩
  · intro hn
    refine Aligned.step hp (h.al ?_) hok ha h.acc.fresh hn
    rw [leftQueue_append] at hn
    exact fun hc => hn (List.mem_append_left _ hc)
  · intro i t b hi
    rw [stamped_append, List.getElem?_append] at hi
    split at hi
    · exact h.rets i t b hi
    · rename_i hlt
      have ho : o = .ret t b ∧ i = (leftQueue hist).length := by
        rw [stamped_length] at hi hlt
        cases o with
        | ret t' b' =>
          simp [stamped] at hi
          rcases hd : i - (leftQueue hist).length with _ | m
          · rw [hd] at hi; simp at hi
            exact ⟨by rw [hi.1, hi.2], by omega⟩
          · rw [hd] at hi; simp at hi
        | stop tb =>
          cases tb <;> simp [stamped] at hi
          rcases hd : i - (leftQueue hist).length with _ | m <;> rw [hd] at hi <;> simp at hi
        | removed x =>
          simp [stamped] at hi
          rcases hd : i - (leftQueue hist).length with _ | m <;> rw [hd] at hi <;> simp at hi
        | _ => simp [stamped] at hi
      obtain ⟨rfl, rfl⟩ := ho
      obtain ⟨hc, ht, hq⟩ := act_ret ha
      have hn : none ∉ leftQueue hist := fun hc => hq (h.acc.after_eos hc)
      have al := h.al hn
      have h1 := al.free (by rw [hc]; simp)
      have h2 := al.wait hc
      rw [h1.2, ← ht, Nat.mod_eq_of_lt h2]

theorem EpInv.run {src0 : S} {L : Nat} (hp : p.episodeLength = some L) {as} {s : St S B} {outs}
    (hok : ∀ a ∈ as, Undisturbed a) (h : run p cfg as (init src0) = some (s, outs)) : EpInv p cfg src0 L outs s := by
  have := run_invariant (p := p) (cfg := cfg) (fun hist s => EpInv p cfg src0 L hist s) Undisturbed
    (fun _ _ _ _ _ h hok ha => h.step hp hok ha) (s := init src0) (hist := [])
    ⟨⟨[], src0, 0, ⟨.nil _ _, Nat.zero_le _⟩, rfl, rfl, rfl, rfl, rfl, rfl⟩,
      fun _ => ⟨fun _ => by simp [init, leftQueue], by simp [init], by simp [init], fun _ => by simp [init, leftQueue]⟩,
      by simp [stamped]⟩ hok h
  simpa using this

end Verif.Prefetch
