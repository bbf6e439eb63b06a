import Verif.Model.Finalizer
import Verif.Spec.Remaining
import Verif.Props.Blocked
/-!
# C157: a prefetching scheduler that is no longer used
-/

namespace Verif.Prefetch
open Verif Verif.Prefetch.Spec
variable {S B : Type} {p : Src S B} {cfg : Cfg}

/-- C157 (when `__del__` runs): a scheduler that the program has forgotten is given to `__del__` exactly if its background
thread is not alive: a thread that is alive keeps its scheduler. One that the program has not forgotten never is. -/
theorem C157_when (held : Bool) (s : St S B) : Finalizable held s ↔ held = false ∧ s.w.ended = true := by
  constructor
  · rintro ⟨h1, h2⟩
    refine ⟨?_, ?_⟩
    · by_contra hh
      exact h1 (.single (by simpa [refers] using hh))
    · by_contra hh
      exact h2 (.tail (.single (b := .stack) (by simpa [refers] using hh)) (by simpa [refers] using hh))
  · rintro ⟨rfl, hw⟩
    constructor
    · intro h
      rcases Relation.ReflTransGen.cases_head h with h | ⟨c, hc, -⟩
      · cases h
      · cases c <;> simp [refers] at hc
    · intro h
      rcases Relation.ReflTransGen.cases_head h with h | ⟨c, hc, -⟩
      · cases h
      · cases c <;> simp [refers, hw] at hc

/-- C157 (`__del__` does no harm): where it can run it returns without waiting, and no thread is left. -/
theorem C157_finalizer (s : St S B) (hidle : s.c = .idle) (hf : Finalizable false s) :
    ∃ s' outs, run p cfg finalizer s = some (s', outs) ∧ s'.c = .idle ∧ s'.w.ended = true := by
  have hw := ((C157_when _ _).mp hf).2
  cases hq : s.queue with
  | nil =>
    refine ⟨{ s with stop := true, queue := if 0 < cfg.bufferSize then [none] else [] }, [.tau, .tau, .tau, .tau], ?_, hidle, hw⟩
    simp [finalizer, run, act, hidle, hq]
  | cons x q =>
    refine ⟨{ s with stop := true, queue := if q.length < cfg.bufferSize then q ++ [none] else q }, [.tau, .removed x, .tau, .tau], ?_, hidle, hw⟩
    simp [finalizer, run, act, hidle, hq]

/-- C157 (`__del__` of an object whose constructor failed): no error. -/
theorem C157_half_built (badSize badTime : Bool) : shutdownWith (construct badSize badTime).1 = .ok () := by
  cases badSize <;> cases badTime <;> rfl

/-- The batches that the background thread has not yet put into the queue: those the wrapped scheduler still gives, and the
one the thread holds. -/
inductive Owes (p : Src S B) : St S B → Nat → Prop
  | loop {s n} (hw : s.w = .loop) (h : Gives p s.src n) : Owes p s n
  | fetch {s n} (hw : s.w = .fetch) (h : Gives p s.src n) : Owes p s n
  | put {s b n} (hw : s.w = .put b) (h : Gives p s.src n) : Owes p s (n + 1)
  | eos {s} (hw : s.w = .eos) : Owes p s 0
  | eosForce {s} (hw : s.w = .eosForce) : Owes p s 0
  | eosStop {s} (hw : s.w = .eosStop) : Owes p s 0
  | ended {s} (hw : s.w.ended = true) : Owes p s 0

theorem Alone.refl (s : St S B) : Alone p cfg s s := ⟨[], [], by simp, rfl⟩

theorem Alone.head {a} {s s1 s2 : St S B} {o} (hw : a.isWorker = true) (ha : act p cfg a s = some (s1, o))
    (h : Alone p cfg s1 s2) : Alone p cfg s s2 := by
  obtain ⟨as, outs, hall, hr⟩ := h
  exact ⟨a :: as, o :: outs, by simpa [hw] using hall, by rw [run, ha]; simp [hr]⟩

theorem Alone.trans {s s1 s2 : St S B} (h : Alone p cfg s s1) (h' : Alone p cfg s1 s2) : Alone p cfg s s2 := by
  obtain ⟨as, o, ha, hr⟩ := h
  obtain ⟨bs, o', hb, hr'⟩ := h'
  refine ⟨as ++ bs, _, ?_, run_app hr hr'⟩
  intro a h
  rcases List.mem_append.mp h with h | h
  · exact ha a h
  · exact hb a h

theorem alone_induction {P : St S B → Prop} (hstep : ∀ s a s1 o, P s → a.isWorker = true → act p cfg a s = some (s1, o) → P s1)
    {s s' : St S B} (h0 : P s) (h : Alone p cfg s s') : P s' := by
  obtain ⟨as, outs, ha, hr⟩ := h
  exact run_invariant (p := p) (cfg := cfg) (fun _ s => P s) (fun a => a.isWorker = true)
    (fun _ s a s1 o hs hw h => hstep s a s1 o hs hw h) (hist := []) h0 ha hr

/-- The thread cannot get rid of its batches. -/
def Stuck (p : Src S B) (cfg : Cfg) (s : St S B) : Prop :=
  s.stop = false ∧ s.queue.length ≤ cfg.bufferSize ∧ ∃ n, Owes p s n ∧ cfg.bufferSize < s.queue.length + n

theorem Stuck.alive {s : St S B} (h : Stuck p cfg s) : s.w.ended = false := by
  obtain ⟨-, hq, n, ho, hn⟩ := h
  cases ho with
  | loop hw h => simp [hw, WPc.ended]
  | fetch hw h => simp [hw, WPc.ended]
  | put hw h => simp [hw, WPc.ended]
  | eos hw => omega
  | eosForce hw => omega
  | eosStop hw => omega
  | ended hw => omega

theorem Gives.fetched {s : St S B} {n} (h : Gives p s.src n) :
    (n = 0 ∧ (∃ w, (fetchStep p s).1.w = w ∧ (w = .eos ∨ w.ended = true)) ∧ (fetchStep p s).1.queue = s.queue ∧
      (fetchStep p s).1.stop = s.stop) ∨
    (∃ m b src, n = m + 1 ∧ fetchStep p s = ({ s with src := src, w := .put b }, .fetched b) ∧ Gives p src m) ∨
    (∃ src, fetchStep p s = ({ s with src := src, w := .loop }, .tau) ∧ Gives p src n) := by
  cases h with
  | fails h he =>
    rename_i e
    refine Or.inl ⟨rfl, ?_⟩
    cases e <;> simp [fetchStep, h, WPc.ended]
    simp [he rfl]
  | @batch _ s' b n h hn => exact Or.inr (Or.inl ⟨n, b, s', rfl, by simp [fetchStep, h], hn⟩)
  | episode h hL hn => exact Or.inr (Or.inr ⟨_, by simp [fetchStep, h, hL], hn⟩)

theorem Stuck.step {s a s1 o} (h : Stuck p cfg s) (ha : a.isWorker = true) (hact : act p cfg a s = some (s1, o)) :
    Stuck p cfg s1 := by
  obtain ⟨hs, hq, n, ho, hn⟩ := h
  cases ho with
  | loop hw h =>
    cases a <;> simp [Action.isWorker] at ha <;> simp [act, hw, hs] at hact
    obtain ⟨rfl, rfl⟩ := hact
    exact ⟨rfl, hq, n, .fetch rfl h, hn⟩
  | fetch hw h =>
    cases a <;> simp [Action.isWorker] at ha <;> simp [act, hw] at hact
    rcases Gives.fetched h with ⟨rfl, -⟩ | ⟨m, b, src, rfl, he, hm⟩ | ⟨src, he, hm⟩
    · omega
    · rw [he] at hact
      simp at hact
      obtain ⟨rfl, rfl⟩ := hact
      exact ⟨hs, hq, m + 1, .put rfl hm, hn⟩
    · rw [he] at hact
      simp at hact
      obtain ⟨rfl, rfl⟩ := hact
      exact ⟨hs, hq, n, .loop rfl hm, hn⟩
  | @put b n hw h =>
    cases a <;> simp [Action.isWorker] at ha <;> simp [act, hw] at hact
    obtain ⟨hlt, rfl, rfl⟩ := hact
    exact ⟨hs, by simp; omega, n, .loop rfl h, by simp; omega⟩
  | eos hw => omega
  | eosForce hw => omega
  | eosStop hw => omega
  | ended hw => omega

/-- The thread can get rid of its batches. -/
def Free (p : Src S B) (cfg : Cfg) (s : St S B) : Prop :=
  (s.w = .eos ∨ s.w = .eosForce ∨ s.w = .eosStop ∨ s.w.ended = true) ∨
  (s.stop = false ∧ ∃ n, Owes p s n ∧ s.queue.length + n ≤ cfg.bufferSize)

theorem Free.step {s a s1 o} (h : Free p cfg s) (ha : a.isWorker = true) (hact : act p cfg a s = some (s1, o)) :
    Free p cfg s1 := by
  have hdone : ∀ {s : St S B}, (s.w = .eos ∨ s.w = .eosForce ∨ s.w = .eosStop ∨ s.w.ended = true) →
      act p cfg a s = some (s1, o) → Free p cfg s1 := by
    intro s hw hact
    rcases hw with hw | hw | hw | hw
    · cases a <;> simp [Action.isWorker] at ha <;> simp [act, hw] at hact <;> obtain ⟨-, rfl, rfl⟩ := hact <;>
        exact Or.inl (by simp)
    · cases a <;> simp [Action.isWorker] at ha <;> simp [act, hw] at hact <;> obtain ⟨rfl, rfl⟩ := hact <;>
        exact Or.inl (by simp)
    · cases a <;> simp [Action.isWorker] at ha <;> simp [act, hw] at hact <;> obtain ⟨rfl, rfl⟩ := hact <;>
        exact Or.inl (by simp [WPc.ended])
    · cases a <;> simp [Action.isWorker] at ha <;> (cases h : s.w <;> simp [h, WPc.ended] at hw <;> simp [act, h] at hact)
  rcases h with h | ⟨hs, n, ho, hn⟩
  · exact hdone h hact
  cases ho with
  | loop hw h =>
    cases a <;> simp [Action.isWorker] at ha <;> simp [act, hw, hs] at hact
    obtain ⟨rfl, rfl⟩ := hact
    exact Or.inr ⟨rfl, n, .fetch rfl h, hn⟩
  | fetch hw h =>
    cases a <;> simp [Action.isWorker] at ha <;> simp [act, hw] at hact
    rcases Gives.fetched h with ⟨rfl, ⟨w, hw1, hw2⟩, -⟩ | ⟨m, b, src, rfl, he, hm⟩ | ⟨src, he, hm⟩
    · rw [hact] at hw1
      simp only at hw1
      refine Or.inl ?_
      rw [hw1]
      rcases hw2 with h | h <;> simp [h]
    · rw [he] at hact
      simp at hact
      obtain ⟨rfl, rfl⟩ := hact
      exact Or.inr ⟨hs, m + 1, .put rfl hm, hn⟩
    · rw [he] at hact
      simp at hact
      obtain ⟨rfl, rfl⟩ := hact
      exact Or.inr ⟨hs, n, .loop rfl hm, hn⟩
  | @put b n hw h =>
    cases a <;> simp [Action.isWorker] at ha <;> simp [act, hw] at hact
    obtain ⟨hlt, rfl, rfl⟩ := hact
    exact Or.inr ⟨hs, n, .loop rfl h, by simp; omega⟩
  | eos hw => exact hdone (by simp [hw]) hact
  | eosForce hw => exact hdone (by simp [hw]) hact
  | eosStop hw => exact hdone (by simp [hw]) hact
  | ended hw => exact hdone (by simp [hw]) hact

theorem ends_stop {s : St S B} (hw : s.w = .eosStop) : ∃ s', Alone p cfg s s' ∧ s'.w.ended = true :=
  ⟨{ s with stop := true, w := .exited }, .head (a := .eosStop) rfl (o := .tau) (by simp [act, hw]) (.refl _), rfl⟩

theorem ends_force {s : St S B} (hw : s.w = .eosForce) : ∃ s', Alone p cfg s s' ∧ s'.w.ended = true := by
  obtain ⟨s', h, he⟩ := ends_stop (p := p) (cfg := cfg) (s := { s with queue := s.queue.tail ++ [none], w := .eosStop }) rfl
  exact ⟨s', .head (a := .eosForce) (o := .tau) rfl (by simp [act, hw]) h, he⟩

theorem ends_eos {s : St S B} (hw : s.w = .eos) : ∃ s', Alone p cfg s s' ∧ s'.w.ended = true := by
  by_cases hq : s.queue.length < cfg.bufferSize
  · obtain ⟨s', h, he⟩ := ends_stop (p := p) (cfg := cfg) (s := { s with queue := s.queue ++ [none], w := .eosStop }) rfl
    exact ⟨s', .head (a := .eosPut) (o := .tau) rfl (by simp [act, hw, hq]) h, he⟩
  · obtain ⟨s', h, he⟩ := ends_force (p := p) (cfg := cfg) (s := { s with w := .eosForce }) rfl
    exact ⟨s', .head (a := .eosTimeout) (o := .tau) rfl (by simp [act, hw, hq]) h, he⟩

theorem ends_loop {src : S} {n : Nat} (hg : Gives p src n) : ∀ s : St S B, s.src = src → s.w = .loop → s.stop = false →
    s.queue.length + n ≤ cfg.bufferSize → ∃ s', Alone p cfg s s' ∧ s'.w.ended = true := by
  induction hg with
  | @fails src src' e h he =>
    intro s hs hw hst hq
    have h1 : act p cfg .check s = some ({ s with w := .fetch }, .tau) := by simp [act, hw, hst]
    have h2 : act p cfg .fetch { s with w := .fetch } = some (fetchStep p { s with w := .fetch }) := rfl
    have hx : (fetchStep p { s with w := .fetch }).1.w = .eos ∨ (fetchStep p { s with w := .fetch }).1.w.ended = true := by
      subst hs
      cases e <;> simp [fetchStep, h, WPc.ended]
      simp [he rfl]
    rcases hx with hx | hx
    · obtain ⟨s', ha, hend⟩ := ends_eos (p := p) (cfg := cfg) hx
      exact ⟨s', .head rfl h1 (.head rfl h2 ha), hend⟩
    · exact ⟨_, .head rfl h1 (.head rfl h2 (.refl _)), hx⟩
  | @batch src src' b n h hn ih =>
    intro s hs hw hst hq
    have h1 : act p cfg .check s = some ({ s with w := .fetch }, .tau) := by simp [act, hw, hst]
    have h2 : act p cfg .fetch { s with w := .fetch } = some ({ s with src := src', w := .put b }, .fetched b) := by
      subst hs; simp [act, fetchStep, h]
    have h3 : act p cfg .put { s with src := src', w := .put b } =
        some ({ s with src := src', queue := s.queue ++ [some b], w := .loop }, .tau) := by
      simp [act]; omega
    obtain ⟨s', ha, hend⟩ := ih { s with src := src', queue := s.queue ++ [some b], w := .loop } rfl rfl hst (by simp; omega)
    exact ⟨s', .head rfl h1 (.head rfl h2 (.head rfl h3 ha)), hend⟩
  | @episode src src' L n h hL hn ih =>
    intro s hs hw hst hq
    have h1 : act p cfg .check s = some ({ s with w := .fetch }, .tau) := by simp [act, hw, hst]
    have h2 : act p cfg .fetch { s with w := .fetch } = some ({ s with src := p.nextEpisode src', w := .loop }, .tau) := by
      subst hs; simp [act, fetchStep, h, hL]
    obtain ⟨s', ha, hend⟩ := ih { s with src := p.nextEpisode src', w := .loop } rfl rfl hst hq
    exact ⟨s', .head rfl h1 (.head rfl h2 ha), hend⟩

theorem Free.ends {s : St S B} (h : Free p cfg s) : ∃ s', Alone p cfg s s' ∧ s'.w.ended = true := by
  rcases h with (h | h | h | h) | ⟨hs, n, ho, hn⟩
  · exact ends_eos h
  · exact ends_force h
  · exact ends_stop h
  · exact ⟨s, .refl _, h⟩
  cases ho with
  | loop hw h => exact ends_loop h s rfl hw hs hn
  | fetch hw h =>
    -- one step back
    have hb : act p cfg .check { s with w := .loop } = some (s, .tau) := by
      obtain ⟨src, q, st, sd, su, t, w, c⟩ := s
      simp only at hw hs
      subst hw hs
      simp [act]
    obtain ⟨s', ⟨as, outs, ha, hr⟩, he⟩ := ends_loop (p := p) (cfg := cfg) h { s with w := .loop } rfl rfl hs hn
    cases as with
    | nil =>
      rw [run_nil] at hr
      simp at hr
      obtain ⟨rfl, rfl⟩ := hr
      simp [WPc.ended] at he
    | cons a as =>
      obtain ⟨s1, o, os, h1, h2, -⟩ := run_cons hr
      have haw := ha a (by simp)
      have : s1 = s := by
        cases a <;> simp [Action.isWorker] at haw <;> try (simp [act] at h1; done)
        rw [hb] at h1
        simp at h1
        exact h1.1.symm
      subst this
      exact ⟨s', ⟨as, os, fun a h => ha a (by simp [h]), h2⟩, he⟩
  | @put b n hw h =>
    have h3 : act p cfg .put s = some ({ s with queue := s.queue ++ [some b], w := .loop }, .tau) := by
      simp [act, hw]; omega
    obtain ⟨s', ha, hend⟩ := ends_loop (p := p) (cfg := cfg) h { s with queue := s.queue ++ [some b], w := .loop } rfl rfl hs
      (by simp; omega)
    exact ⟨s', .head rfl h3 ha, hend⟩
  | eos hw => exact ends_eos hw
  | eosForce hw => exact ends_force hw
  | eosStop hw => exact ends_stop hw
  | ended hw => exact ⟨s, .refl _, hw⟩

/-- C157, as far as it holds, exactly: say that the program forgets the scheduler, without `shutdown`, after any history of
calls, when the background thread has still `n` batches to put into the queue. If there is room for them the thread always
comes to its end, whatever steps it has taken since, so that `__del__` is called; if not, it never does. -/
theorem C157_forgotten_partial (hb : 0 < cfg.bufferSize) (src0 : S) (as : List Action) (s : St S B) (outs : List (Out B))
    (h : run p cfg as (init src0) = some (s, outs)) (hstop : s.stop = false) (n : Nat) (ho : Owes p s n) :
    (s.queue.length + n ≤ cfg.bufferSize → ∀ s', Alone p cfg s s' → ∃ s'', Alone p cfg s' s'' ∧ Finalizable false s'') ∧
    (cfg.bufferSize < s.queue.length + n → ∀ s', Alone p cfg s s' → ¬ Finalizable false s') := by
  constructor
  · intro hn s' ha
    have : Free p cfg s' := alone_induction (P := Free p cfg) (fun s a s1 o hs hw h => hs.step hw h) (Or.inr ⟨hstop, n, ho, hn⟩) ha
    obtain ⟨s'', h1, h2⟩ := this.ends
    exact ⟨s'', h1, (C157_when _ _).mpr ⟨rfl, h2⟩⟩
  · intro hn s' ha hf
    have hq : s.queue.length ≤ cfg.bufferSize := (C26_bounded_buffer p cfg hb src0 as s outs h).1
    have : Stuck p cfg s' := alone_induction (P := Stuck p cfg) (fun s a s1 o hs hw h => hs.step hw h) ⟨hstop, hq, n, ho, hn⟩ ha
    have h1 := ((C157_when _ _).mp hf).2
    rw [this.alive] at h1
    cases h1

/-- A wrapped scheduler that never fails, such as one that loops over readable files. -/
def Endless (p : Src S B) : Prop :=
  ∀ s, ∃ b s', p.getBatch s = (.ok b, s')

/-- C157 fails for every scheduler that never ends: forgotten after the first `get_batch`, or at any later time before
`shutdown`, its thread stays for ever, and `__del__` is never called. -/
theorem C157_refuted (hp : Endless p) (src0 : S) (as : List Action) (s : St S B) (outs : List (Out B))
    (h : run p cfg as (init src0) = some (s, outs)) (hstart : s.started = true) (hstop : s.stop = false) :
    ∀ s', Alone p cfg s s' → s'.w.ended = false ∧ ¬ Finalizable false s' := by
  have key : ∀ {s : St S B}, (s.stop = false ∧ (s.w = .loop ∨ s.w = .fetch ∨ ∃ b, s.w = .put b)) → ∀ {s'}, Alone p cfg s s' →
      (s'.stop = false ∧ (s'.w = .loop ∨ s'.w = .fetch ∨ ∃ b, s'.w = .put b)) := by
    intro s hs s' ha
    refine alone_induction (P := fun s => s.stop = false ∧ (s.w = .loop ∨ s.w = .fetch ∨ ∃ b, s.w = .put b)) ?_ hs ha
    rintro s a s1 o ⟨hs, hw⟩ haw hact
    rcases hw with hw | hw | ⟨b, hw⟩
    · cases a <;> simp [Action.isWorker] at haw <;> simp [act, hw, hs] at hact
      obtain ⟨rfl, rfl⟩ := hact
      exact ⟨rfl, by simp⟩
    · cases a <;> simp [Action.isWorker] at haw <;> simp [act, hw] at hact
      obtain ⟨b, src, hb⟩ := hp s.src
      simp [fetchStep, hb] at hact
      obtain ⟨rfl, rfl⟩ := hact
      exact ⟨hs, by simp⟩
    · cases a <;> simp [Action.isWorker] at haw <;> simp [act, hw] at hact
      obtain ⟨-, rfl, rfl⟩ := hact
      exact ⟨hs, by simp⟩
  have hreach : s.started = true → s.stop = false → (s.w = .loop ∨ s.w = .fetch ∨ ∃ b, s.w = .put b) := by
    have := run_invariant (p := p) (cfg := cfg)
      (fun _ s => (s.started = false → s.w = .idle) ∧ (s.started = true → s.stop = false → (s.w = .loop ∨ s.w = .fetch ∨ ∃ b, s.w = .put b)) ∧
        (s.w = .eos ∨ s.w = .eosForce ∨ s.w = .eosStop → False)) (fun _ => True) (by
      rintro hist s a s1 o ⟨hi, hs, hn⟩ _ ha
      cases a with
      | fetch =>
        cases hw : s.w <;> simp only [act, hw] at ha <;> try contradiction
        obtain ⟨b, src, hb⟩ := hp s.src
        simp [fetchStep, hb] at ha
        obtain ⟨rfl, rfl⟩ := ha
        refine ⟨?_, by simp, by simp⟩
        intro hst
        rw [hi hst] at hw
        cases hw
      | get n =>
        simp only [act] at ha
        repeat' split at ha
        all_goals simp at ha
        all_goals obtain ⟨rfl, rfl⟩ := ha
        all_goals first
          | exact ⟨hi, hs, hn⟩
          | (cases hst : s.started
             · simp [startWorker, hst]
             · simp only [startWorker, hst, if_true]; exact ⟨by simp, fun _ => hs hst, hn⟩)
      | nextEpisode =>
        simp only [act] at ha
        repeat' split at ha
        all_goals simp at ha
        all_goals obtain ⟨rfl, rfl⟩ := ha
        all_goals first
          | exact ⟨hi, hs, hn⟩
          | (cases hst : s.started
             · simp [startWorker, hst]
             · simp only [startWorker, hst, if_true]; exact ⟨by simp, fun _ => hs hst, hn⟩)
      | check =>
        cases hw : s.w <;> simp only [act, hw] at ha <;> try contradiction
        have hst : s.started = true := by
          by_contra hst
          rw [hi (by simpa using hst)] at hw
          cases hw
        simp at ha
        split at ha <;> simp at ha <;> obtain ⟨rfl, rfl⟩ := ha <;> simp_all
      | put =>
        cases hw : s.w <;> simp only [act, hw] at ha <;> try contradiction
        have hst : s.started = true := by
          by_contra hst
          rw [hi (by simpa using hst)] at hw
          cases hw
        simp at ha
        obtain ⟨-, rfl, rfl⟩ := ha
        simp_all
      | _ =>
        simp only [act] at ha
        repeat' split at ha
        all_goals simp at ha
        all_goals obtain ⟨rfl, rfl⟩ := ha
        all_goals simp_all [init]) (hist := []) (s := init src0) (by simp [init]) (fun _ _ => trivial) h
    exact this.2.1
  intro s' ha
  have h1 := key ⟨hstop, hreach hstart hstop⟩ ha
  have h2 : s'.w.ended = false := by rcases h1.2 with h | h | ⟨b, h⟩ <;> simp [h, WPc.ended]
  exact ⟨h2, fun hf => by rw [((C157_when _ _).mp hf).2] at h2; cases h2⟩

/-- Two more batches to come and room for two: the thread ends, and `__del__` is called; with room for one it stays. -/
def three : Src Nat Nat where
  getBatch s := if s < 3 then (.ok s, s + 1) else (.error .stopIteration, s)
  nextEpisode s := s
  reset _ := 0
  episodeLength := none

theorem three_gives : Gives three 1 2 :=
  .batch (s' := 2) (b := 1) rfl (.batch (s' := 3) (b := 2) rfl (.fails (s' := 3) (e := .stopIteration) rfl (by simp)))

example : ∃ s outs, run three ⟨4, 2⟩ [.get 4, .check, .fetch, .put, .take] (init 0) = some (s, outs) ∧ s.stop = false ∧
    Owes three s 2 ∧ s.queue.length + 2 ≤ 2 := ⟨_, _, rfl, rfl, .loop rfl three_gives, by decide⟩

example : ∃ s outs, run three ⟨4, 1⟩ [.get 4, .check, .fetch, .put, .take] (init 0) = some (s, outs) ∧ s.stop = false ∧
    Owes three s 2 ∧ 1 < s.queue.length + 2 := ⟨_, _, rfl, rfl, .loop rfl three_gives, by decide⟩

example : Endless endless := fun s => ⟨s, s + 1, rfl⟩

/-- A scheduler that was never asked for a batch is given to `__del__` as soon as it is forgotten. -/
example : Finalizable false (init 0 : St Nat Nat) := (C157_when _ _).mpr ⟨rfl, rfl⟩

/-- Half-built: the timeout is refused, so that the queue exists. -/
example : construct false true = ([.queue, .stopEvent, .thread], true) := rfl

end Verif.Prefetch
