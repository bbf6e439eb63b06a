import Verif.Proofs.TimedCalls
/-!
# Lemmas on the prefetching scheduler with time: a run with prompt threads can always go on
-/

namespace Verif.Timed
open Verif Verif.Prefetch
variable {S B : Type} {p : Src S B} {cfg : Cfg} {T : Times}

/-- No step is overdue. -/
structure OnTime (cfg : Cfg) (T : Times) (v : Speed) (x : TSt S B) : Prop where
  w : WorkerPrompt cfg T v x x.now
  c : ConsumerPrompt T v x x.now

theorem OnTime.init {v : Speed} {src0 : S} (t : ℚ) : OnTime (B := B) cfg T v (tinit t src0) := by
  constructor <;> intro u hu <;> simp [workerBy, consumerBy, tinit, Prefetch.init] at hu

theorem consumer_worker {s s' : St S B} {a : Action} {o : Out B} (ha : ¬ a.isWorker = true) (h : act p cfg a s = some (s', o)) :
    s'.w = s.w ∨ s'.w = .idle ∨ (s.started = false ∧ s'.w = .loop) := by
  cases a <;> simp [Action.isWorker] at ha
  all_goals simp only [act] at h
  all_goals repeat' split at h
  all_goals try contradiction
  all_goals simp at h
  all_goals obtain ⟨rfl, rfl⟩ := h
  all_goals first | exact .inl rfl | exact .inr (.inl rfl) | skip
  all_goals unfold startWorker
  all_goals split <;> simp_all

theorem OnTime.step {v : Speed} (hl : 0 ≤ v.load) (hs : 0 ≤ v.step) (hT1 : 0 ≤ T.startup) (hT2 : 0 ≤ T.steady) (hT3 : 0 ≤ T.join) (hT4 : 0 ≤ T.eos)
    {x x' : TSt S B} {t : ℚ} {a : Action} {o : Out B} (hst : x.s.started = false → x.s.w = .idle)
    (hw : WorkerPrompt cfg T v x t) (hc : ConsumerPrompt T v x t) (hx : tact p cfg T t a x = some (x', o)) : OnTime cfg T v x' := by
  obtain ⟨hnow, hdue, s', hact, rfl⟩ := tact_some hx
  have hgt : ∀ s : St S B, 0 ≤ getTimeout T s := by intro s; unfold getTimeout; split <;> assumption
  by_cases ha : a.isWorker = true
  · obtain ⟨e1, _, e3, _, e5⟩ := worker_same ha hact
    have ec : (stamp cfg t a x s').cSince = x.cSince := by simp [stamp, ha]
    have ew : (stamp cfg t a x s').wSince = t := by simp [stamp, ha]
    have el : (stamp cfg t a x s').call = x.call := by simp [stamp, ha]
    have et : getTimeout T (stamp cfg t a x s').s = getTimeout T x.s := getTimeout_congr e3
    have hne : x.s.w.ended = false := by
      cases a <;> simp [Action.isWorker] at ha
      all_goals cases hxw : x.s.w <;> simp [act, hxw] at hact <;> rfl
    constructor
    · intro u hu
      show t ≤ u
      unfold workerBy at hu
      rw [ew] at hu
      have hm := le_max_left t (stamp cfg t a x s').room
      have hm2 := le_max_left (t + T.eos) (stamp cfg t a x s').room
      repeat' split at hu
      all_goals simp only [Option.some.injEq, reduceCtorEq] at hu
      all_goals subst hu
      all_goals linarith
    · intro u hu
      show t ≤ u
      have eq : (stamp cfg t a x s').s.queue = s'.queue := rfl
      unfold consumerBy at hu
      unfold ConsumerPrompt consumerBy at hc
      have hcc : (stamp cfg t a x s').s.c = x.s.c := e1
      rw [hcc, ec, ew, el, et] at hu
      have hitem : x.s.queue = [] → s'.queue ≠ [] → (stamp cfg t a x s').item = t := by
        intro h1 h2
        simp [stamp, h1, h2]
      have hitem2 : x.s.queue ≠ [] → (stamp cfg t a x s').item = x.item := by
        intro h1
        simp [stamp, h1]
      cases hxc : x.s.c with
      | idle => rw [hxc] at hu; cases hu
      | getWait =>
        rw [hxc] at hu hc
        by_cases h1 : x.s.queue = []
        · by_cases h2 : s'.queue = []
          · apply hc
            rw [← hu]
            simp [h1, eq, h2]
          · simp only [eq, List.isEmpty_iff, h2, if_false, Option.some.injEq, hitem h1 h2] at hu
            have := le_max_right x.cSince t
            linarith
        · have h2 := e5 h1
          apply hc
          rw [← hu, hitem2 h1]
          simp [h1, eq, h2]
      | discard k =>
        rw [hxc] at hu hc
        by_cases h1 : x.s.queue = []
        · by_cases h2 : s'.queue = []
          · apply hc
            rw [← hu]
            simp [h1, eq, h2]
          · simp only [eq, List.isEmpty_iff, h2, if_false, Option.some.injEq, hitem h1 h2] at hu
            have := le_max_right x.cSince t
            linarith
        · have h2 := e5 h1
          apply hc
          rw [← hu, hitem2 h1]
          simp [h1, eq, h2]
      | resetJoin =>
        rw [hxc] at hu
        simp only at hu
        split at hu
        · simp only [Option.some.injEq] at hu
          have := le_max_right x.cSince t
          linarith
        · cases hu
      | _ => rw [hxc] at hu hc; exact hc _ hu
  · have ec : (stamp cfg t a x s').cSince = t := by simp [stamp, ha]
    constructor
    · intro u hu
      show t ≤ u
      unfold workerBy at hu
      unfold WorkerPrompt workerBy at hw
      have hsw : (stamp cfg t a x s').s.w = s'.w := rfl
      have hsq : (stamp cfg t a x s').s.queue = s'.queue := rfl
      rw [hsw, hsq] at hu
      rcases consumer_worker ha hact with e | e | ⟨e0, e⟩
      · rw [e] at hu
        cases hxw : x.s.w with
        | idle => rw [hxw] at hu; cases hu
        | exited => rw [hxw] at hu; cases hu
        | died e => rw [hxw] at hu; cases hu
        | loop =>
          rw [hxw] at hu hw
          have ew : (stamp cfg t a x s').wSince = x.wSince := by simp [stamp, ha, hxw, WPc.ended]
          rw [ew] at hu
          exact hw _ hu
        | fetch =>
          rw [hxw] at hu hw
          have ew : (stamp cfg t a x s').wSince = x.wSince := by simp [stamp, ha, hxw, WPc.ended]
          rw [ew] at hu
          exact hw _ hu
        | eosForce =>
          rw [hxw] at hu hw
          have ew : (stamp cfg t a x s').wSince = x.wSince := by simp [stamp, ha, hxw, WPc.ended]
          rw [ew] at hu
          exact hw _ hu
        | eosStop =>
          rw [hxw] at hu hw
          have ew : (stamp cfg t a x s').wSince = x.wSince := by simp [stamp, ha, hxw, WPc.ended]
          rw [ew] at hu
          exact hw _ hu
        | put b =>
          rw [hxw] at hu hw
          have ew : (stamp cfg t a x s').wSince = x.wSince := by simp [stamp, ha, hxw, WPc.ended]
          rw [ew] at hu
          by_cases h1 : x.s.queue.length < cfg.bufferSize
          · have er : (stamp cfg t a x s').room = x.room := by simp [stamp, Nat.not_le.mpr h1]
            by_cases h2 : s'.queue.length < cfg.bufferSize
            · simp only [h2, if_true, er, Option.some.injEq] at hu
              exact hw u (by simp [h1, hu])
            · simp [h2] at hu
          · by_cases h2 : s'.queue.length < cfg.bufferSize
            · have er : (stamp cfg t a x s').room = t := by simp only [stamp]; rw [if_pos ⟨Nat.not_lt.mp h1, h2⟩]
              simp only [h2, if_true, er, Option.some.injEq] at hu
              have := le_max_right x.wSince t
              linarith
            · simp [h2] at hu
        | eos =>
          rw [hxw] at hu hw
          have ew : (stamp cfg t a x s').wSince = x.wSince := by simp [stamp, ha, hxw, WPc.ended]
          rw [ew] at hu
          by_cases h1 : x.s.queue.length < cfg.bufferSize
          · have er : (stamp cfg t a x s').room = x.room := by simp [stamp, Nat.not_le.mpr h1]
            have hwu := hw (max x.wSince x.room + v.step) (by simp [h1])
            by_cases h2 : s'.queue.length < cfg.bufferSize
            · simp only [h2, if_true, er, Option.some.injEq] at hu
              linarith
            · simp only [h2, if_false, er, Option.some.injEq] at hu
              have : max x.wSince x.room ≤ max (x.wSince + T.eos) x.room := max_le_max (by linarith) (le_refl _)
              linarith
          · by_cases h2 : s'.queue.length < cfg.bufferSize
            · have er : (stamp cfg t a x s').room = t := by simp only [stamp]; rw [if_pos ⟨Nat.not_lt.mp h1, h2⟩]
              simp only [h2, if_true, er, Option.some.injEq] at hu
              have := le_max_right x.wSince t
              linarith
            · have er : (stamp cfg t a x s').room = x.room := by simp [stamp, h2]
              simp only [h2, if_false, er, Option.some.injEq] at hu
              exact hw u (by simp [h1, hu])
      · rw [e] at hu; cases hu
      · have ew : (stamp cfg t a x s').wSince = t := by simp [stamp, hst e0, WPc.ended]
        rw [e, ew] at hu
        simp only [Option.some.injEq] at hu
        linarith
    · intro u hu
      show t ≤ u
      unfold consumerBy at hu
      rw [ec] at hu
      have hg := hgt (stamp cfg t a x s').s
      have m1 := le_max_left t (stamp cfg t a x s').item
      have m2 := le_max_left t ((stamp cfg t a x s').call + T.join)
      have m3 := le_max_left t (stamp cfg t a x s').wSince
      repeat' split at hu
      all_goals simp only [Option.some.injEq, reduceCtorEq] at hu
      all_goals linarith

theorem started_step {s s' : St S B} {a : Action} {o : Out B} (h : act p cfg a s = some (s', o)) (hi : s.started = false → s.w = .idle) :
    s'.started = false → s'.w = .idle := by
  by_cases ha : a.isWorker = true
  · obtain ⟨_, e2, _⟩ := worker_same ha h
    intro hs
    have hw := hi (by rw [← e2]; exact hs)
    cases a <;> simp [Action.isWorker] at ha <;> simp [act, hw] at h
  · cases a <;> simp [Action.isWorker] at ha
    all_goals simp only [act] at h
    all_goals repeat' split at h
    all_goals try contradiction
    all_goals simp at h
    all_goals obtain ⟨rfl, rfl⟩ := h
    all_goals first | exact hi | (intro _; rfl) | simp [startWorker_started]

/-- Everything that is known of a state of a run with prompt threads. -/
theorem Runs.onTime {v : Speed} (hl : 0 ≤ v.load) (hs : 0 ≤ v.step) (hT1 : 0 ≤ T.startup) (hT2 : 0 ≤ T.steady) (hT3 : 0 ≤ T.join) (hT4 : 0 ≤ T.eos)
    {src0 : S} {x' : TSt S B} {t0 : ℚ} {as : List (ℚ × Action)} {os : List (Out B)}
    (h : Runs p cfg T (fun x t => WorkerPrompt cfg T v x t ∧ ConsumerPrompt T v x t) (tinit t0 src0) as os x') : OnTime cfg T v x' :=
  (h.invariant (fun x => OnTime cfg T v x ∧ (x.s.started = false → x.s.w = .idle)) (fun _ => True)
    (fun _ _ _ _ _ hi hk _ hx => ⟨OnTime.step hl hs hT1 hT2 hT3 hT4 hi.2 hk.1 hk.2 hx, by
      obtain ⟨_, _, s', hact, rfl⟩ := tact_some hx
      exact started_step hact hi.2⟩) (fun _ _ => trivial) ⟨OnTime.init t0, fun _ => rfl⟩).1

/-- At its latest moment the worker can make its step. -/
theorem worker_can {v : Speed} (hs : 0 ≤ v.step) {x : TSt S B} {u : ℚ} (hu : workerBy cfg T v x = some u) (hnow : x.now ≤ u) :
    ∃ a x' o, tact p cfg T u a x = some (x', o) := by
  have fin : ∀ a, due T x u a = true → (act p cfg a x.s).isSome → ∃ a x' o, tact p cfg T u a x = some (x', o) := by
    intro a h1 h2
    obtain ⟨⟨s', o⟩, h2⟩ := Option.isSome_iff_exists.mp h2
    exact ⟨a, _, o, by unfold tact; rw [if_pos ⟨hnow, h1⟩, h2]; rfl⟩
  unfold workerBy at hu
  cases hw : x.s.w with
  | loop => exact fin .check rfl (by simp [act, hw])
  | fetch => exact fin .fetch rfl (by simp [act, hw])
  | put b =>
    rw [hw] at hu
    by_cases h1 : x.s.queue.length < cfg.bufferSize
    · exact fin .put rfl (by simp [act, hw, h1])
    · simp [h1] at hu
  | eos =>
    rw [hw] at hu
    by_cases h1 : x.s.queue.length < cfg.bufferSize
    · exact fin .eosPut rfl (by simp [act, hw, h1])
    · simp only [h1, if_false, Option.some.injEq] at hu
      refine fin .eosTimeout ?_ (by simp [act, hw, h1])
      have := le_max_left (x.wSince + T.eos) x.room
      simp only [due, decide_eq_true_eq]
      linarith
  | eosForce => exact fin .eosForce rfl (by simp [act, hw])
  | eosStop => exact fin .eosStop rfl (by simp [act, hw])
  | _ => rw [hw] at hu; cases hu

/-- At its latest moment the consumer can make its step. -/
theorem consumer_can {v : Speed} (hs : 0 ≤ v.step) {x : TSt S B} {u : ℚ} (hcs : x.cSince ≤ x.now) (hu : consumerBy T v x = some u) (hnow : x.now ≤ u) :
    ∃ a x' o, tact p cfg T u a x = some (x', o) := by
  have fin : ∀ a, due T x u a = true → (act p cfg a x.s).isSome → ∃ a x' o, tact p cfg T u a x = some (x', o) := by
    intro a h1 h2
    obtain ⟨⟨s', o⟩, h2⟩ := Option.isSome_iff_exists.mp h2
    exact ⟨a, _, o, by unfold tact; rw [if_pos ⟨hnow, h1⟩, h2]; rfl⟩
  unfold consumerBy at hu
  cases hc : x.s.c with
  | idle => rw [hc] at hu; cases hu
  | getWait =>
    rw [hc] at hu
    cases hq : x.s.queue with
    | nil =>
      simp [hq] at hu
      refine fin .timeout ?_ (by simp [act, hc, hq])
      simp only [due, decide_eq_true_eq]
      linarith
    | cons y q =>
      cases y with
      | none => exact fin .take rfl (by simp [act, hc, hq])
      | some b => exact fin .take rfl (by simp [act, hc, hq])
  | discard k =>
    rw [hc] at hu
    by_cases hj : x.call + T.join ≤ u
    · refine fin .discardTimeout ?_ (by simp [act, hc])
      simp only [due, decide_eq_true_eq]
      exact hj
    · cases hq : x.s.queue with
      | nil =>
        simp [hq] at hu
        have := le_max_right x.cSince (x.call + T.join)
        exact absurd (by linarith) hj
      | cons y q =>
        have hd : due T x u .discard = true := by
          simp only [due, decide_eq_true_eq]
          push Not at hj
          linarith
        cases y with
        | none => exact fin .discard hd (by simp [act, hc, hq])
        | some b =>
          by_cases h1 : k ≤ 1
          · exact fin .discard hd (by simp [act, hc, hq, h1])
          · exact fin .discard hd (by simp [act, hc, hq, h1])
  | resetDrain =>
    cases hq : x.s.queue with
    | nil => exact fin .resetDrain rfl (by simp [act, hc, hq])
    | cons y q => exact fin .resetDrain rfl (by simp [act, hc, hq])
  | resetJoin =>
    rw [hc] at hu
    by_cases he : x.s.w.ended = true
    · exact fin .join rfl (by simp [act, hc, he])
    · simp [he] at hu
  | shutDrain =>
    cases hq : x.s.queue with
    | nil => exact fin .shutDrain rfl (by simp [act, hc, hq])
    | cons y q => exact fin .shutDrain rfl (by simp [act, hc, hq])
  | shutPut => exact fin .shutPut rfl (by simp [act, hc])
  | shutJoin =>
    rw [hc] at hu
    refine fin .shutJoin ?_ (by simp [act, hc])
    simp only [Option.some.injEq] at hu
    simp only [due, Bool.or_eq_true, decide_eq_true_eq]
    right
    linarith

theorem goes_on {v : Speed} (hs : 0 ≤ v.step) {x : TSt S B} (h : Timely cfg T v x) (ho : OnTime cfg T v x) :
    ∃ t a x' o, (WorkerPrompt cfg T v x t ∧ ConsumerPrompt T v x t) ∧ tact p cfg T t a x = some (x', o) := by
  have single : ∀ {o : Option ℚ} {u : ℚ}, o = some u → ∀ w, o = some w → u ≤ w := by
    intro o u h1 w h2; rw [h1] at h2; cases h2; exact le_refl _
  cases hwu : workerBy cfg T v x with
  | some wu =>
    have hw1 := ho.w wu hwu
    cases hcu : consumerBy T v x with
    | some cu =>
      have hc1 := ho.c cu hcu
      rcases le_total wu cu with hle | hle
      · obtain ⟨a, x', o, hx⟩ := worker_can (p := p) hs hwu hw1
        exact ⟨wu, a, x', o, ⟨fun w hw => single hwu w hw, fun w hw => le_trans hle (single hcu w hw)⟩, hx⟩
      · obtain ⟨a, x', o, hx⟩ := consumer_can (p := p) (cfg := cfg) hs h.cs hcu hc1
        exact ⟨cu, a, x', o, ⟨fun w hw => le_trans hle (single hwu w hw), fun w hw => single hcu w hw⟩, hx⟩
    | none =>
      obtain ⟨a, x', o, hx⟩ := worker_can (p := p) hs hwu hw1
      exact ⟨wu, a, x', o, ⟨fun w hw => single hwu w hw, fun w hw => by rw [hcu] at hw; cases hw⟩, hx⟩
  | none =>
    cases hcu : consumerBy T v x with
    | some cu =>
      obtain ⟨a, x', o, hx⟩ := consumer_can (p := p) (cfg := cfg) hs h.cs hcu (ho.c cu hcu)
      exact ⟨cu, a, x', o, ⟨(fun w hw => by rw [hwu] at hw; cases hw), fun w hw => single hcu w hw⟩, hx⟩
    | none =>
      have hidle : x.s.c = .idle := by
        cases hc : x.s.c with
        | idle => rfl
        | resetJoin =>
          exfalso
          unfold consumerBy at hcu
          rw [hc] at hcu
          have he : x.s.w.ended = false := by
            by_contra hne
            simp [hne] at hcu
          unfold workerBy at hwu
          cases hxw : x.s.w <;> rw [hxw] at he hwu <;> simp [WPc.ended] at he hwu
          · have := (h.bd.join hc).2 (by rw [hxw]; rfl)
            omega
          · split at hwu <;> cases hwu
        | getWait => unfold consumerBy at hcu; rw [hc] at hcu; simp only at hcu; split at hcu <;> cases hcu
        | discard k => unfold consumerBy at hcu; rw [hc] at hcu; simp only at hcu; split at hcu <;> cases hcu
        | _ => unfold consumerBy at hcu; rw [hc] at hcu; cases hcu
      have : ∃ s' o, act p cfg .shutdown x.s = some (s', o) := ⟨_, _, by simp only [act, hidle]; rfl⟩
      obtain ⟨s', o, hx⟩ := this
      exact ⟨x.now, .shutdown, _, o, ⟨ho.w, ho.c⟩, by unfold tact; rw [if_pos ⟨le_refl _, rfl⟩, hx]; rfl⟩

end Verif.Timed
