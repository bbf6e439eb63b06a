import Verif.Props.Prefetch
/-!
# C31, exactly: when `shutdown` leaves the background thread behind

`Props/Prefetch.lean` shows that `shutdown` stops the thread if the buffer has room, and that it may fail to with a full
buffer of one batch. Here the cases in which it fails are characterised, for every buffer size.
-/

namespace Verif.Prefetch
open Verif
variable {S B : Type}

/-- The background thread is alive and cannot take a step until somebody else does. -/
def Blocked (p : Src S B) (cfg : Cfg) (s : St S B) : Prop :=
  s.w.ended = false ∧ ∀ a, a.isWorker = true → act p cfg a s = none

/-- C31 (the only obstacle): the thread is blocked exactly when it wants to put a batch into a full queue; in particular
neither the end-of-stream signal nor the wrapped scheduler blocks it. -/
theorem C31_blocked_iff (p : Src S B) (cfg : Cfg) (s : St S B) :
    Blocked p cfg s ↔ ∃ b, s.w = .put b ∧ cfg.bufferSize ≤ s.queue.length := by
  constructor
  · rintro ⟨he, ha⟩
    cases hw : s.w with
    | idle => rw [hw] at he; simp [WPc.ended] at he
    | exited => rw [hw] at he; simp [WPc.ended] at he
    | died e => rw [hw] at he; simp [WPc.ended] at he
    | loop => have := ha .check rfl; simp [act, hw] at this
    | fetch => have := ha .fetch rfl; simp [act, hw] at this
    | eos =>
      have h1 := ha .eosPut rfl
      have h2 := ha .eosTimeout rfl
      simp [act, hw] at h1 h2
      omega
    | eosForce => have := ha .eosForce rfl; simp [act, hw] at this
    | eosStop => have := ha .eosStop rfl; simp [act, hw] at this
    | put b =>
      have := ha .put rfl
      simp [act, hw] at this
      exact ⟨b, rfl, this⟩
  · rintro ⟨b, hw, hq⟩
    refine ⟨by rw [hw]; rfl, ?_⟩
    intro a ha
    cases a <;> simp [Action.isWorker] at ha <;> simp [act, hw]
    exact hq

theorem started_of_run {p : Src S B} {cfg : Cfg} {src0 : S} {as : List Action} {s : St S B} {outs : List (Out B)}
    (h : run p cfg as (init src0) = some (s, outs)) : s.started = false → s.w = .idle := by
  have := run_invariant (p := p) (cfg := cfg) (fun _ s => s.started = false → s.w = .idle) (fun _ => True) (by
    intro hist s a s1 o hs _ ha
    cases a with
    | fetch =>
      cases hw : s.w <;> simp only [act, hw] at ha <;> try contradiction
      simp only [Option.some.injEq] at ha
      intro hst
      have : s1.started = s.started := by
        rcases fetchStep_cases (p := p) s with ⟨b, src, he⟩ | ⟨w, src, he, hw'⟩ <;> rw [he] at ha <;> simp at ha <;>
          obtain ⟨rfl, rfl⟩ := ha <;> rfl
      rw [this] at hst
      rw [hs hst] at hw
      contradiction
    | get n =>
      simp only [act] at ha
      repeat' split at ha
      all_goals simp at ha
      all_goals obtain ⟨rfl, rfl⟩ := ha
      all_goals first | exact hs | simp [startWorker_started]
    | nextEpisode =>
      simp only [act] at ha
      repeat' split at ha
      all_goals simp at ha
      all_goals obtain ⟨rfl, rfl⟩ := ha
      all_goals first | exact hs | simp [startWorker_started]
    | _ =>
      simp only [act] at ha
      repeat' split at ha
      all_goals simp at ha
      all_goals obtain ⟨rfl, rfl⟩ := ha
      all_goals simp_all [init]) (hist := []) (s := init src0) (by simp [init]) (fun _ _ => trivial) h
  exact this

/-- C31 (the thread ends or is blocked): once `shutdown` has told the thread to stop, and until `reset` starts anew, the
thread takes at most four more steps, whatever is called meanwhile; and then it has ended, or wants to put a batch into a
full queue, or can still take one of these steps. -/
theorem C31_ends_or_blocked (p : Src S B) (cfg : Cfg) (src0 : S) (before as : List Action) (s s' : St S B)
    (outs0 outs : List (Out B)) (h0 : run p cfg before (init src0) = some (s, outs0)) (hstop : s.stop = true)
    (hok : Action.join ∉ as) (h : run p cfg as s = some (s', outs)) :
    (as.filter Action.isWorker).length ≤ 4 ∧
    (s'.w.ended = true ∨ Blocked p cfg s' ∨ ∃ a, a.isWorker = true ∧ (act p cfg a s').isSome) := by
  constructor
  swap
  · by_cases he : s'.w.ended = true
    · exact Or.inl he
    · by_cases hx : ∃ a, a.isWorker = true ∧ (act p cfg a s').isSome
      · exact Or.inr (Or.inr hx)
      · refine Or.inr (Or.inl ⟨by simpa using he, ?_⟩)
        intro a ha
        by_contra hn
        exact hx ⟨a, ha, Option.isSome_iff_ne_none.mpr hn⟩
  · have hst := started_of_run h0
    have key : ∀ {as : List Action} {s s' : St S B} {outs}, s.stop = true → (s.started = false → s.w = .idle) →
        Action.join ∉ as → run p cfg as s = some (s', outs) →
        (as.filter Action.isWorker).length ≤ (if s.started then s.w.rank else 1) := by
      intro as
      induction as with
      | nil => intro s s' outs _ _ _ _; simp
      | cons a as ih =>
        intro s s' outs hstop hst hok hr
        obtain ⟨s1, o, os, ha, hr', _⟩ := run_cons hr
        have hok' : Action.join ∉ as := fun hj => hok (List.mem_cons_of_mem _ hj)
        by_cases hw : a.isWorker = true
        · have h1 := rank_step hstop hw ha
          have hs : s.started = true := by
            by_contra hn
            have hi := hst (by simpa using hn)
            rw [hi] at h1
            simp [WPc.rank] at h1
          have hs1 : s1.started = true := by
            cases a with
            | fetch =>
              cases hw : s.w <;> simp only [act, hw] at ha <;> try contradiction
              simp only [Option.some.injEq] at ha
              rcases fetchStep_cases (p := p) s with ⟨b, src, he⟩ | ⟨w, src, he, hw'⟩ <;> rw [he] at ha <;> simp at ha <;>
                obtain ⟨rfl, rfl⟩ := ha <;> exact hs
            | _ =>
              simp only [Action.isWorker] at hw <;> try contradiction
              all_goals simp only [act] at ha
              all_goals repeat' split at ha
              all_goals simp at ha
              all_goals obtain ⟨rfl, rfl⟩ := ha
              all_goals exact hs
          have h2 := ih h1.2.1 (by simp [hs1]) hok' hr'
          rw [List.filter_cons_of_pos hw, List.length_cons]
          simp only [hs, hs1, if_true] at h2 ⊢
          omega
        · rw [List.filter_cons_of_neg hw]
          have hj : a ≠ .join := fun h => hok (by simp [h])
          have hx : s1.stop = true ∧ (s1.started = false → s1.w = .idle) ∧
              (if s1.started then s1.w.rank else 1) ≤ (if s.started then s.w.rank else 1) := by
            cases a <;> simp [Action.isWorker] at hw hj <;> simp only [act] at ha <;>
              (repeat' split at ha) <;> simp at ha <;> obtain ⟨rfl, rfl⟩ := ha <;> try exact ⟨hstop, hst, le_refl _⟩
            all_goals try exact ⟨rfl, hst, le_refl _⟩
            all_goals
              cases hs : s.started
              · simp [startWorker, hs, WPc.rank, hstop, hst]
              · simp [startWorker, hs, hstop]
          exact Nat.le_trans (ih hx.1 hx.2.1 hok' hr') hx.2.2
    refine Nat.le_trans (key hstop hst hok h) ?_
    split
    · cases s.w <;> simp [WPc.rank]
    · omega

/-- C31 (what helps): if the thread is blocked after `shutdown`, one more `get_batch` that is allowed to deliver lets it end:
the call returns what the queue holds first, and the thread puts its last batch and returns. -/
theorem C31_get_batch_frees (p : Src S B) (cfg : Cfg) (hb : 0 < cfg.bufferSize) (src0 : S) (as : List Action) (s : St S B)
    (outs : List (Out B)) (h : run p cfg as (init src0) = some (s, outs)) (hq : s.queue.length = cfg.bufferSize)
    (hstop : s.stop = true) (hidle : s.c = .idle) (hbl : Blocked p cfg s) (hep : ∀ L, p.episodeLength = some L → s.t < L) :
    ∃ s' outs', run p cfg [.get cfg.batchSize, .take, .put, .check] s = some (s', outs') ∧ s'.w = .exited := by
  obtain ⟨b, hw, -⟩ := (C31_blocked_iff p cfg s).mp hbl
  have hs : s.started = true := by
    by_contra hn
    have := started_of_run h (by simpa using hn)
    rw [hw] at this
    contradiction
  cases hqq : s.queue with
  | nil => rw [hqq] at hq; simp at hq; omega
  | cons x q =>
    have hlen : q.length < cfg.bufferSize := by rw [hqq] at hq; simp at hq; omega
    have hsw : startWorker s = s := by simp [startWorker, hs]
    have h1 : act p cfg (.get cfg.batchSize) s = some ({ s with c := .getWait }, .tau) := by
      cases hL : p.episodeLength with
      | none => simp [act, hidle, hL, hsw]
      | some L => simp [act, hidle, hL, hsw, Nat.not_le.mpr (hep L hL)]
    cases x with
    | none => exact ⟨{ s with queue := q ++ [some b], startup := false, t := s.t + 1, w := .exited }, [.tau, .stop false, .tau, .tau],
        by rw [run, h1]; simp [run, act, hqq, hw, hlen, hstop, hidle], rfl⟩
    | some x => exact ⟨{ s with queue := q ++ [some b], startup := false, t := s.t + 1, w := .exited }, [.tau, .ret s.t x, .tau, .tau],
        by rw [run, h1]; simp [run, act, hqq, hw, hlen, hstop, hidle], rfl⟩

/-- Delivers `0, 1, 2, ...` for ever. -/
def endless : Src Nat Nat where
  getBatch s := (.ok s, s + 1)
  nextEpisode s := s
  reset _ := 0
  episodeLength := none

theorem run_app {p : Src S B} {cfg : Cfg} {as bs : List Action} {s s1 s2 : St S B} {o1 o2 : List (Out B)}
    (h1 : run p cfg as s = some (s1, o1)) (h2 : run p cfg bs s1 = some (s2, o2)) :
    run p cfg (as ++ bs) s = some (s2, o1 ++ o2) := by
  induction as generalizing s o1 with
  | nil => rw [run_nil] at h1; simp at h1; obtain ⟨rfl, rfl⟩ := h1; exact h2
  | cons a as ih =>
    obtain ⟨s3, o, os, ha, hr, rfl⟩ := run_cons h1
    rw [List.cons_append, run, ha]
    simp only
    rw [ih hr]
    rfl

/-- The calls of one `shutdown`. -/
def oneShutdown : List Action := [.shutdown, .shutDrain, .shutPut, .shutJoin]

theorem fills (cfg : Cfg) (k : Nat) : ∀ s : St Nat Nat, s.w = .loop → s.stop = false → s.c = .idle →
    s.queue.length + k = cfg.bufferSize →
    ∃ as s' outs, run endless cfg as s = some (s', outs) ∧ s'.stop = false ∧ s'.c = .idle ∧
      (∃ b, s'.w = .put b) ∧ s'.queue.length = cfg.bufferSize ∧ Action.shutdown ∉ as := by
  induction k with
  | zero =>
    intro s hw hs hc hq
    exact ⟨[.check, .fetch], { s with src := s.src + 1, w := .put s.src }, [.tau, .fetched s.src],
      by simp [run, act, hw, hs, fetchStep, endless], hs, hc, ⟨_, rfl⟩, by simpa using hq, by simp⟩
  | succ k ih =>
    intro s hw hs hc hq
    have h1 : run endless cfg [.check, .fetch, .put] s =
        some ({ s with src := s.src + 1, queue := s.queue ++ [some s.src], w := .loop }, [.tau, .fetched s.src, .tau]) := by
      have : s.queue.length < cfg.bufferSize := by omega
      simp [run, act, hw, hs, fetchStep, endless, this]
    obtain ⟨as, s', outs, hr, h⟩ := ih { s with src := s.src + 1, queue := s.queue ++ [some s.src], w := .loop } rfl hs hc
      (by simp; omega)
    exact ⟨[.check, .fetch, .put] ++ as, s', _, run_app h1 hr, h.1, h.2.1, h.2.2.1, h.2.2.2.1, by
      have := h.2.2.2.2
      simp [this]⟩

theorem shut_again (cfg : Cfg) (hb : 0 < cfg.bufferSize) (s : St Nat Nat) (b : Nat) (hw : s.w = .put b) (hc : s.c = .idle)
    (hq : s.queue.length = cfg.bufferSize) : ∃ s' outs, run endless cfg oneShutdown s = some (s', outs) ∧
      s'.w = .put b ∧ s'.c = .idle ∧ s'.queue.length = cfg.bufferSize ∧ s'.stop = true := by
  cases hqq : s.queue with
  | nil => rw [hqq] at hq; simp at hq; omega
  | cons x q =>
    rw [hqq] at hq
    simp at hq
    have hlen : q.length < cfg.bufferSize := by omega
    exact ⟨{ s with queue := q ++ [none], stop := true }, [.tau, .removed x, .tau, .tau],
      by simp [oneShutdown, run, act, hc, hqq, hlen], hw, hc, by simpa using hq, rfl⟩

/-- C31 fails for every buffer size, and calling `shutdown` again does not help: for every number of calls there is an
interleaving after which all of them have returned and the thread is blocked. -/
theorem C31_refuted_again (cfg : Cfg) (hb : 0 < cfg.bufferSize) (n : Nat) :
    ∃ as s outs, run endless cfg as (init 0) = some (s, outs) ∧ as.count .shutdown = n + 1 ∧ s.c = .idle ∧ s.stop = true ∧
      Blocked endless cfg s := by
  have h0 : run endless cfg [.get cfg.batchSize, .check, .fetch, .put, .take] (init 0) =
      some (⟨1, [], false, true, false, 1, .loop, .idle⟩, [.tau, .tau, .fetched 0, .tau, .ret 0 0]) := by
    simp [run, act, init, endless, startWorker, fetchStep, hb]
  obtain ⟨as, s, outs, hr, -, hc, ⟨b, hw⟩, hq, hns⟩ := fills cfg cfg.bufferSize ⟨1, [], false, true, false, 1, .loop, .idle⟩
    rfl rfl rfl (by simp)
  have h1 := run_app h0 hr
  have key : ∀ n, ∃ s' outs', run endless cfg (List.replicate (n + 1) oneShutdown).flatten s = some (s', outs') ∧
      s'.w = .put b ∧ s'.c = .idle ∧ s'.queue.length = cfg.bufferSize ∧ s'.stop = true := by
    intro n
    induction n with
    | zero => simpa using shut_again cfg hb s b hw hc hq
    | succ n ih =>
      obtain ⟨s1, o1, hr1, hw1, hc1, hq1, -⟩ := ih
      obtain ⟨s2, o2, hr2, h2⟩ := shut_again cfg hb s1 b hw1 hc1 hq1
      refine ⟨s2, o1 ++ o2, ?_, h2⟩
      have := run_app hr1 hr2
      rw [List.replicate_succ', List.flatten_append]
      simpa using this
  obtain ⟨s', outs', hr', hw', hc', hq', hs'⟩ := key n
  refine ⟨_, s', _, run_app h1 hr', ?_, hc', hs', (C31_blocked_iff _ _ _).mpr ⟨b, hw', by omega⟩⟩
  have hrep : ∀ m, (List.replicate m oneShutdown).flatten.count Action.shutdown = m := by
    intro m
    induction m with
    | zero => rfl
    | succ m ih => rw [List.replicate_succ, List.flatten_cons, List.count_append, ih]; simp [oneShutdown]; omega
  rw [List.count_append, hrep, List.count_append, List.count_eq_zero.mpr hns]
  simp

/-- A blocked thread after `shutdown`, which the next `get_batch` sets free. -/
example : ∃ s outs, run demoSrc ⟨4, 1⟩ ([.get 4] ++ round ++ [.take] ++ round ++ [.check, .fetch] ++ oneShutdown) (init 0) =
      some (s, outs) ∧ s.queue.length = 1 ∧ s.stop = true ∧ s.c = .idle ∧ Blocked demoSrc ⟨4, 1⟩ s :=
  ⟨_, _, rfl, rfl, rfl, rfl, (C31_blocked_iff _ _ _).mpr ⟨_, rfl, by decide⟩⟩

/-- `C31_ends_or_blocked` with a `get_batch` after the `shutdown`: the thread gets to put its batch and ends. -/
example : ∃ s s' outs outs', run demoSrc ⟨4, 1⟩ ([.get 4] ++ round ++ [.take] ++ round ++ [.check, .fetch] ++ oneShutdown) (init 0) =
      some (s, outs) ∧ run demoSrc ⟨4, 1⟩ [.get 4, .take, .put, .check] s = some (s', outs') ∧ s'.w.ended = true :=
  ⟨_, _, _, _, rfl, rfl, rfl⟩

end Verif.Prefetch
