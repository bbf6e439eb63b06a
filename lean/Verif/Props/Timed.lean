import Verif.Proofs.TimedGoesOn
import Verif.Props.Prefetch
/-!
# C158 - C161: the prefetching scheduler with time
-/

namespace Verif.Timed
open Verif Verif.Prefetch
variable {S B : Type} {p : Src S B} {cfg : Cfg} {T : Times}

/-! ## Checking concrete runs -/

/-- A run computed step by step, with a test of every moment. -/
def runT (p : Src S B) (cfg : Cfg) (T : Times) (okB : TSt S B → ℚ → Bool) : List (ℚ × Action) → TSt S B → Option (TSt S B × List (Out B))
  | [], x => some (x, [])
  | (t, a) :: as, x =>
    if okB x t then
      match tact p cfg T t a x with
      | none => none
      | some (x', o) => (runT p cfg T okB as x').map (fun r => (r.1, o :: r.2))
    else none

theorem runs_of_runT {ok : TSt S B → ℚ → Prop} {okB : TSt S B → ℚ → Bool} (hok : ∀ x t, okB x t = true → ok x t) :
    ∀ {as : List (ℚ × Action)} {x : TSt S B} {r : TSt S B × List (Out B)}, runT p cfg T okB as x = some r → Runs p cfg T ok x as r.2 r.1
  | [], x, r, h => by simp only [runT, Option.some.injEq] at h; subst h; exact .nil _
  | (t, a) :: as, x, r, h => by
    rw [runT] at h
    split at h
    · rename_i hk
      split at h
      · cases h
      · rename_i x' o ho
        rw [Option.map_eq_some_iff] at h
        obtain ⟨r', h1, rfl⟩ := h
        exact .cons (hok _ _ hk) ho (runs_of_runT hok h1)
    · cases h

theorem runs_outs {ok : TSt S B → ℚ → Prop} {okB : TSt S B → ℚ → Bool} (hok : ∀ x t, okB x t = true → ok x t)
    {as : List (ℚ × Action)} {x : TSt S B} {os : List (Out B)} (h : (runT p cfg T okB as x).map Prod.snd = some os) : ∃ x', Runs p cfg T ok x as os x' := by
  rw [Option.map_eq_some_iff] at h
  obtain ⟨r, h1, rfl⟩ := h
  exact ⟨r.1, runs_of_runT hok h1⟩

def workerOk (cfg : Cfg) (T : Times) (v : Speed) (x : TSt S B) (t : ℚ) : Bool := (workerBy cfg T v x).all (fun u => decide (t ≤ u))
def consumerOk (T : Times) (v : Speed) (x : TSt S B) (t : ℚ) : Bool := (consumerBy T v x).all (fun u => decide (t ≤ u))
def asksOk (g : ℚ) (x : TSt S B) (t : ℚ) : Bool := x.s.w.ended || decide (t ≤ x.served + g)

theorem workerOk_iff {v : Speed} (x : TSt S B) (t : ℚ) (h : workerOk cfg T v x t = true) : WorkerPrompt cfg T v x t := by
  intro u hu
  simpa [workerOk, hu] using h
theorem consumerOk_iff {v : Speed} (x : TSt S B) (t : ℚ) (h : consumerOk T v x t = true) : ConsumerPrompt T v x t := by
  intro u hu
  simpa [consumerOk, hu] using h
theorem asksOk_iff {g : ℚ} (x : TSt S B) (t : ℚ) (h : asksOk g x t = true) : Asks g x t := by
  intro he
  simpa [asksOk, he] using h

/-! ## How often episodes end in a row -/

/-- A wrapped scheduler without episodes: never. -/
theorem endsInARow_plain (h : p.episodeLength = none) (s : S) : EndsInARow p 0 s := by
  intro hs; rw [h] at hs; cases hs

/-- A wrapped scheduler with episodes of `L > 0` steps: once. -/
theorem endsInARow_episodes {s0 : S} {L : Nat} (hL : 0 < L) (hE : EpisodesOf p s0 L) {bs : List (Nat × B)} {s : S} {k : Nat} (h : Produces p s0 0 bs s k) :
    EndsInARow p 1 s := by
  intro s1 he hg _ hc
  have := (hE.2 _ _ _ (h.snocEpisode he hg)).mp hc
  omega

/-! ## C158 -/

theorem endsAfter_of_over {src0 : S} {lossy : Prop} {out : List (Option B)} {s : St S B} (h : Acc p cfg src0 lossy out s) (ho : Over s.w) :
    ∃ qs src k e, Produces p src0 0 qs src k ∧ (p.getBatch src).1 = .error e ∧ (e = .episodeEnd → p.episodeLength = none) ∧
      (out ++ s.queue = qs.map (fun q => some q.2) ∨ (out ++ s.queue = qs.map (fun q => some q.2) ++ [none] ∧ e = .stopIteration) ∨ lossy) := by
  obtain ⟨bs, src, k, ⟨hp, _⟩, h⟩ := h
  rcases ho with ho | ho | ⟨e, ho⟩ <;> rw [ho] at h
  · obtain ⟨h1, _, h3⟩ := h
    refine ⟨bs, src, k, _, hp, h1, by simp, ?_⟩
    rcases h3 with h3 | ⟨h3, _⟩
    · exact .inr (.inl ⟨h3, rfl⟩)
    · exact .inr (.inr h3)
  · obtain ⟨h1, _, h3⟩ := h
    refine ⟨bs, src, k, _, hp, h1, by simp, ?_⟩
    rcases h3 with h3 | ⟨h3, _⟩
    · exact .inr (.inl ⟨h3, rfl⟩)
    · exact .inr (.inr h3)
  · obtain ⟨_, _, h3, e', h4, h5⟩ := h
    refine ⟨bs, src, k, e', hp, h4, ?_, .inl h3⟩
    rcases h5 with ⟨_, h5⟩ | ⟨_, h5⟩
    · intro hc; exact absurd hc h5
    · intro _; exact h5

/-- What the step that raises `StopIteration` finds. -/
theorem delay_lt_timeout {d : ℚ} (h1 : d < T.startup) (h2 : d < T.steady) {s : St S B} : d < getTimeout T s := by
  unfold getTimeout; split <;> assumption

theorem stop_found {v : Speed} (hl : 0 ≤ v.load) (hs : 0 ≤ v.step) {n : Nat} {src0 : S} (hb : 0 < cfg.bufferSize)
    {x x' : TSt S B} {t : ℚ} {a : Action} {b : Bool} (h : Live p cfg v n src0 x) (h1 : b = true → delay v n < getTimeout T x.s) {lossy : Prop} {out : List (Option B)}
    (hacc : Acc p cfg src0 lossy out x.s)
    (hp : WorkerPrompt cfg T v x t) (hx : tact p cfg T t a x = some (x', .stop b)) :
    Over x.s.w ∧ x.s.started = true ∧ x'.s.w = x.s.w ∧ x'.s.started = true ∧
      (b = true ∧ x.s.queue = [] ∧ x'.s.queue = [] ∨ b = false ∧ ∃ q, x.s.queue = none :: q ∧ x'.s.queue = q) := by
  cases b with
  | true =>
    obtain ⟨e1, e2, e3⟩ := h.timeout hl hs hb (h1 rfl) hp hx
    have hst : x.s.started = true := by
      by_contra hc
      have := acc_started hacc (by simpa using hc)
      rcases e2 with e | e | ⟨_, e⟩ <;> rw [this] at e <;> cases e
    refine ⟨e2, hst, by rw [e3], by rw [e3]; exact hst, .inl ⟨rfl, e1, by rw [e3]; exact e1⟩⟩
  | false =>
    obtain ⟨_, _, s', hact, rfl⟩ := tact_some hx
    have ha : a = .take := by
      cases a with
      | take => rfl
      | fetch =>
        cases hw : x.s.w <;> simp only [act, hw] at hact <;> try contradiction
        simp only [Option.some.injEq] at hact
        rcases fetchStep_cases (p := p) x.s with ⟨b, src, he⟩ | ⟨w, src, he, hw'⟩ <;> rw [he] at hact <;> simp at hact
      | _ =>
        simp only [act] at hact
        repeat' split at hact
        all_goals simp at hact
    subst ha
    simp only [act] at hact
    split at hact
    · rename_i y q hc hq
      cases y with
      | some b => simp at hact
      | none =>
        simp only [Option.some.injEq, Prod.mk.injEq, and_true] at hact
        subst hact
        have hst := h.started (.inl hc)
        refine ⟨?_, hst, rfl, hst, .inr ⟨rfl, q, hq, rfl⟩⟩
        obtain ⟨bs, src, k, _, hi⟩ := hacc
        have key : ∀ tl, out ++ none :: q ++ tl = bs.map (fun q => some q.2) → False := by
          intro tl he
          have : none ∈ bs.map (fun q => some q.2) := he ▸ by simp
          simp at this
        cases hw : x.s.w with
        | eosStop => exact .inl rfl
        | exited => exact .inr (.inl rfl)
        | died e => exact .inr (.inr ⟨e, rfl⟩)
        | idle => rw [hw] at hi; rw [hi.2.2.2.2.1] at hq; cases hq
        | loop => rw [hw, hq] at hi; exact (key [] (by simpa using hi.2.2.2)).elim
        | fetch => rw [hw, hq] at hi; exact (key [] (by simpa using hi.2.2.2)).elim
        | put b => rw [hw, hq] at hi; exact (key [some b] hi.2.2.2).elim
        | eos => rw [hw, hq] at hi; exact (key [] (by simpa using hi.2.2)).elim
        | eosForce => rw [hw, hq] at hi; exact (key [] (by simpa using hi.2.2.2)).elim
    · cases hact

/-- C158: let a call of the wrapped scheduler take at most `load`, anything else that the worker thread can do at most `step`, and let at most
`n` episodes of the wrapped scheduler end in a row. If `delay v n = (n + 1) load + (n + 2) step` is less than both timeouts of `get_batch`, then
in every session of `get_batch` and `next_episode` calls, whenever the user makes them, `StopIteration` means that the wrapped scheduler has
come to its end, or has failed: it is never raised because a batch was late. -/
theorem C158_never_late (p : Src S B) (cfg : Cfg) (T : Times) (v : Speed) (n : Nat) (src0 : S) (hl : 0 ≤ v.load) (hs : 0 ≤ v.step)
    (hb : 0 < cfg.bufferSize) (hn : ∀ bs s k, Produces p src0 0 bs s k → EndsInARow p n s) (h1 : delay v n < T.startup) (h2 : delay v n < T.steady)
    (t0 : ℚ) (as : List (ℚ × Action)) (outs : List (Out B)) (x : TSt S B) (hses : ∀ q ∈ as, Session q.2)
    (h : Runs p cfg T (WorkerPrompt cfg T v) (tinit t0 src0) as outs x) (b : Bool) (hstop : .stop b ∈ outs) :
    ∃ bs e, EndsAfter p src0 bs e := by
  obtain ⟨pre, post, rfl⟩ := List.append_of_mem hstop
  obtain ⟨as1, t, a, as2, y, y', rfl, r1, r2, r3, _⟩ := h.split rfl
  have hlive := r1.live hl hs hb hn (fun q hq => hses q (by simp [hq]))
  obtain ⟨hist, hacc⟩ := hlive.acc
  obtain ⟨ho, _⟩ := stop_found hl hs hb hlive (fun _ => delay_lt_timeout h1 h2) hacc r2 r3
  obtain ⟨qs, src, k, e, k1, k2, k3, _⟩ := endsAfter_of_over hacc ho
  exact ⟨_, e, qs, src, k, k1, rfl, k2, k3⟩

/-- With the default timeouts and a wrapped scheduler without episodes: it is enough that a batch is loaded in less than two seconds. -/
theorem C158_default (p : Src S B) (cfg : Cfg) (v : Speed) (src0 : S) (hp : p.episodeLength = none) (hl : 0 ≤ v.load) (hs : 0 ≤ v.step)
    (hb : 0 < cfg.bufferSize) (hv : v.load + 2 * v.step < 2)
    (t0 : ℚ) (as : List (ℚ × Action)) (outs : List (Out B)) (x : TSt S B) (hses : ∀ q ∈ as, Session q.2)
    (h : Runs p cfg .default (WorkerPrompt cfg .default v) (tinit t0 src0) as outs x) (b : Bool) (hstop : .stop b ∈ outs) :
    ∃ bs e, EndsAfter p src0 bs e := by
  have hd : delay v 0 < 2 := by unfold delay; push_cast; linarith
  exact C158_never_late p cfg .default v 0 src0 hl hs hb (fun _ s _ _ => endsInARow_plain hp s) (show delay v 0 < 30 by linarith) hd t0 as outs x hses h b hstop

/-- The timeout is the one for the start until something has been taken. -/
theorem Runs.startup {ok : TSt S B → ℚ → Prop} {x x' : TSt S B} {as : List (ℚ × Action)} {os : List (Out B)} (h : Runs p cfg T ok x as os x')
    (hr : returned os = []) (hn : .stop false ∉ os) (hx : x.s.startup = true) : x'.s.startup = true := by
  induction h with
  | nil => exact hx
  | @cons x x1 x2 t a o as os hok h rest ih =>
    obtain ⟨_, _, s', hact, rfl⟩ := tact_some h
    have hr2 : returned os = [] ∧ ∀ k b, o ≠ .ret k b := by
      cases o <;> simp_all [returned]
    refine ih hr2.1 (fun hm => hn (List.mem_cons_of_mem _ hm)) ?_
    show s'.startup = true
    have hno : o ≠ .stop false := fun he => hn (he ▸ List.mem_cons_self)
    have hnr := hr2.2
    cases a with
    | fetch =>
      cases hw : x.s.w <;> simp only [act, hw] at hact <;> try contradiction
      simp only [Option.some.injEq] at hact
      rcases fetchStep_cases (p := p) x.s with ⟨b, src, he⟩ | ⟨w, src, he, hw'⟩ <;> rw [he] at hact <;> simp at hact <;> obtain ⟨rfl, rfl⟩ := hact <;> exact hx
    | get n =>
      simp only [act] at hact
      repeat' split at hact
      all_goals try contradiction
      all_goals
        simp at hact
        obtain ⟨rfl, rfl⟩ := hact
        first | exact hx | (simp only [startWorker]; split <;> exact hx)
    | nextEpisode =>
      simp only [act] at hact
      repeat' split at hact
      all_goals try contradiction
      all_goals
        simp at hact
        obtain ⟨rfl, rfl⟩ := hact
        first | exact hx | (simp only [startWorker]; split <;> exact hx)
    | _ =>
      simp only [act] at hact
      repeat' split at hact
      all_goals try contradiction
      all_goals
        simp at hact
        obtain ⟨rfl, rfl⟩ := hact
        first | exact hx | rfl | exact (hno rfl).elim | exact (hnr _ _ rfl).elim

/-- C158 for the first batch: until something has been returned, only the timeout for the start counts. -/
theorem C158_first (p : Src S B) (cfg : Cfg) (T : Times) (v : Speed) (n : Nat) (src0 : S) (hl : 0 ≤ v.load) (hs : 0 ≤ v.step)
    (hb : 0 < cfg.bufferSize) (hn : ∀ bs s k, Produces p src0 0 bs s k → EndsInARow p n s) (h1 : delay v n < T.startup)
    (t0 : ℚ) (as : List (ℚ × Action)) (pre post : List (Out B)) (x : TSt S B) (hses : ∀ q ∈ as, Session q.2) (b : Bool)
    (h : Runs p cfg T (WorkerPrompt cfg T v) (tinit t0 src0) as (pre ++ .stop b :: post) x) (hpre : returned pre = []) :
    ∃ bs e, EndsAfter p src0 bs e := by
  by_cases hf : .stop false ∈ pre
  · obtain ⟨bs, src, k, hp, he, _⟩ := C30_at_most_one_lost_partial p cfg src0 _ x.s _ (fun a ha => by
      obtain ⟨q, hq, rfl⟩ := List.mem_map.mp ha
      exact hses q hq) h.run (List.mem_append_left _ hf)
    exact ⟨_, _, bs, src, k, hp, rfl, he, by simp⟩
  · obtain ⟨as1, t, a, as2, y, y', rfl, r1, r2, r3, _⟩ := h.split rfl
    have hlive := r1.live hl hs hb hn (fun q hq => hses q (by simp [hq]))
    have hst := r1.startup hpre hf rfl
    obtain ⟨hist, hacc⟩ := hlive.acc
    obtain ⟨ho, _⟩ := stop_found hl hs hb hlive (fun _ => by unfold getTimeout; rw [if_pos hst]; exact h1) hacc r2 r3
    obtain ⟨qs, src, k, e, hp, he, hee, _⟩ := endsAfter_of_over hacc ho
    exact ⟨_, e, qs, src, k, hp, rfl, he, hee⟩

/-- `C158_first` with the default timeouts, for a wrapped scheduler without episodes: the first batch may take almost thirty seconds. -/
theorem C158_first_default (p : Src S B) (cfg : Cfg) (v : Speed) (src0 : S) (hp : p.episodeLength = none) (hl : 0 ≤ v.load) (hs : 0 ≤ v.step)
    (hb : 0 < cfg.bufferSize) (hv : v.load + 2 * v.step < 30)
    (t0 : ℚ) (as : List (ℚ × Action)) (pre post : List (Out B)) (x : TSt S B) (hses : ∀ q ∈ as, Session q.2) (b : Bool)
    (h : Runs p cfg .default (WorkerPrompt cfg .default v) (tinit t0 src0) as (pre ++ .stop b :: post) x) (hpre : returned pre = []) :
    ∃ bs e, EndsAfter p src0 bs e := by
  have hd : delay v 0 < 30 := by unfold delay; push_cast; linarith
  exact C158_first p cfg .default v 0 src0 hl hs hb (fun _ s _ _ => endsInARow_plain hp s) hd t0 as pre post x hses b h hpre

/-- A case with all hypotheses of `C158_first`: a first batch that takes twenty seconds with the default timeouts, and then the end. -/
example : ∃ (as : List (ℚ × Action)) (outs : List (Out Nat)) (x : TSt Nat Nat), (∀ q ∈ as, Session q.2) ∧
    Runs demoSrc ⟨4, 2⟩ .default (WorkerPrompt ⟨4, 2⟩ .default ⟨20, 1/10⟩) (tinit 0 3) as (outs ++ [.stop false]) x ∧ returned outs = [] ∧
    delay ⟨20, 1/10⟩ 0 < Times.default.startup := by
  obtain ⟨x, hx⟩ := runs_outs (p := demoSrc) (cfg := ⟨4, 2⟩) (T := .default) (ok := WorkerPrompt ⟨4, 2⟩ .default ⟨20, 1/10⟩) (okB := workerOk ⟨4, 2⟩ .default ⟨20, 1/10⟩)
    workerOk_iff (x := tinit 0 3)
    (as := [(0, .get 4), (0, .check), (20, .fetch), (20, .eosPut), (20, .take)])
    (os := [.tau, .tau, .tau, .tau, .stop false]) (by decide +kernel)
  refine ⟨_, [.tau, .tau, .tau, .tau], x, ?_, hx, rfl, by unfold delay; norm_num [Times.default]⟩
  simp [Session]

/-- The bound cannot be improved: with the default timeouts and batches that take exactly two seconds, `StopIteration` is raised after the
first batch, although the next call returns the second one. -/
theorem C158_sharp : ∃ (as : List (ℚ × Action)) (x : TSt Nat Nat), (∀ q ∈ as, Session q.2) ∧
    Runs demoSrc ⟨4, 2⟩ .default (WorkerPrompt ⟨4, 2⟩ .default ⟨2, 0⟩) (tinit 0 0) as
      [.tau, .tau, .fetched 0, .tau, .ret 0 0, .tau, .tau, .stop true, .fetched 1, .tau, .tau, .ret 1 1] x ∧
    delay ⟨2, 0⟩ 0 = Times.default.steady := by
  obtain ⟨x, hx⟩ := runs_outs (p := demoSrc) (cfg := ⟨4, 2⟩) (T := .default) (ok := WorkerPrompt ⟨4, 2⟩ .default ⟨2, 0⟩) (okB := workerOk ⟨4, 2⟩ .default ⟨2, 0⟩)
    workerOk_iff (x := tinit 0 0)
    (as := [(0, .get 4), (0, .check), (2, .fetch), (2, .put), (2, .take), (2, .get 4), (2, .check), (4, .timeout), (4, .fetch), (4, .put), (4, .get 4), (4, .take)])
    (os := [.tau, .tau, .fetched 0, .tau, .ret 0 0, .tau, .tau, .stop true, .fetched 1, .tau, .tau, .ret 1 1]) (by decide +kernel)
  refine ⟨_, x, ?_, hx, by unfold delay; norm_num [Times.default]⟩
  simp [Session]

/-- A case with all hypotheses of C158: batches that take one second; three of them, then `StopIteration`. -/
example : ∃ (as : List (ℚ × Action)) (outs : List (Out Nat)) (x : TSt Nat Nat), (∀ q ∈ as, Session q.2) ∧
    Runs demoSrc ⟨4, 2⟩ .default (WorkerPrompt ⟨4, 2⟩ .default ⟨1, 1/10⟩) (tinit 0 0) as outs x ∧ returned outs = [0, 1, 2] ∧ outs.getLast? = some (.stop false) := by
  obtain ⟨x, hx⟩ := runs_outs (p := demoSrc) (cfg := ⟨4, 2⟩) (T := .default) (ok := WorkerPrompt ⟨4, 2⟩ .default ⟨1, 1/10⟩) (okB := workerOk ⟨4, 2⟩ .default ⟨1, 1/10⟩)
    workerOk_iff (x := tinit 0 0)
    (as := [(0, .get 4), (0, .check), (1, .fetch), (1, .put), (1, .take), (1, .get 4), (1, .check), (2, .fetch), (2, .put), (2, .take), (2, .get 4), (2, .check),
      (3, .fetch), (3, .put), (3, .take), (3, .get 4), (3, .check), (4, .fetch), (4, .eosPut), (4, .take)])
    (os := [.tau, .tau, .fetched 0, .tau, .ret 0 0, .tau, .tau, .fetched 1, .tau, .ret 1 1, .tau, .tau, .fetched 2, .tau, .ret 2 2, .tau, .tau, .tau, .tau, .stop false])
    (by decide +kernel)
  refine ⟨_, _, x, ?_, hx, rfl, rfl⟩
  simp [Session]

/-! ## C159 -/

theorem onlyGets_session {a : Action} (h : OnlyGets a) : Session a := by
  rcases h with h | rfl | rfl | ⟨n, rfl⟩
  · cases a <;> simp [Action.isWorker] at h <;> trivial
  all_goals trivial

theorem onlyGets_outs {ok : TSt S B → ℚ → Prop} {x x' : TSt S B} {as : List (ℚ × Action)} {os : List (Out B)} (h : Runs p cfg T ok x as os x')
    (hg : ∀ q ∈ as, OnlyGets q.2) : ∀ o ∈ os, ∀ y, o ≠ .removed y := by
  induction h with
  | nil => simp
  | @cons x x1 x2 t a o1 as os hok h rest ih =>
    intro o ho
    rcases List.mem_cons.mp ho with rfl | ho
    · rintro y rfl
      obtain ⟨_, _, s', hact, rfl⟩ := tact_some h
      have := hg _ List.mem_cons_self
      cases a with
      | fetch =>
        cases hw : x.s.w <;> simp only [act, hw] at hact <;> try contradiction
        simp only [Option.some.injEq] at hact
        rcases fetchStep_cases (p := p) x.s with ⟨b, src, he⟩ | ⟨w, src, he, hw'⟩ <;> rw [he] at hact <;> simp at hact
      | _ =>
        simp only [OnlyGets, Action.isWorker] at this
        try simp at this
        try simp only [act] at hact
        try repeat' split at hact
        all_goals simp at hact
    · exact ih (fun q hq => hg q (List.mem_cons_of_mem _ hq)) o ho

/-- C159: let in addition the user take the next item, as long as the worker is alive, never later than `g` after the last, with `g` less than
the worker's timeout for the end-of-stream signal, and only call `get_batch`. Then, whatever the order of the threads' steps, the batches that are
returned are, in order, the ones that the wrapped scheduler returns when used directly; and when `StopIteration` is raised, they are all of them:
the wrapped scheduler raises `StopIteration`, or fails, after exactly these, and nothing is returned any more. -/
theorem C159_complete (p : Src S B) (cfg : Cfg) (T : Times) (v : Speed) (n : Nat) (g : ℚ) (src0 : S) (hl : 0 ≤ v.load) (hs : 0 ≤ v.step)
    (hb : 0 < cfg.bufferSize) (hn : ∀ bs s k, Produces p src0 0 bs s k → EndsInARow p n s) (h1 : delay v n < T.startup) (h2 : delay v n < T.steady)
    (hg : g < T.eos) (t0 : ℚ) (as : List (ℚ × Action)) (outs : List (Out B)) (x : TSt S B) (hget : ∀ q ∈ as, OnlyGets q.2)
    (h : Runs p cfg T (fun x t => WorkerPrompt cfg T v x t ∧ Asks g x t) (tinit t0 src0) as outs x) :
    (∃ bs src k, Produces p src0 0 bs src k ∧ returned outs <+: bs.map Prod.snd) ∧
    ∀ pre b post, outs = pre ++ .stop b :: post → ∃ e, EndsAfter p src0 (returned pre) e ∧ (b = false → e = .stopIteration) ∧ returned post = [] := by
  have hses : ∀ q ∈ as, Session q.2 := fun q hq => onlyGets_session (hget q hq)
  have hne := h.noEosTimeout hb hg (fun _ _ hk => hk.2) hses
  have acc : ∀ {as1 : List (ℚ × Action)} {os1 : List (Out B)} {y : TSt S B}, (∀ q ∈ as1, q ∈ as) →
      Runs p cfg T (fun x t => WorkerPrompt cfg T v x t ∧ Asks g x t) (tinit t0 src0) as1 os1 y → Acc p cfg src0 False (leftQueue os1) y.s := by
    intro as1 os1 y hsub hr
    refine Acc.run (cfg := cfg) (as := as1.map Prod.snd) ?_ ?_ hr.run
    · intro a ha
      obtain ⟨q, hq, rfl⟩ := List.mem_map.mp ha
      exact hses q (hsub q hq)
    · intro hc
      obtain ⟨q, hq, he⟩ := List.mem_map.mp hc
      exact hne q (hsub q hq) he
  constructor
  · obtain ⟨bs, src, k, hp, hi⟩ := (acc (fun _ hq => hq) h).items
    refine ⟨bs, src, k, hp, ?_⟩
    rw [returned_leftQueue (onlyGets_outs h hget)]
    have hid : (bs.map (fun q => some q.2)).filterMap id = bs.map Prod.snd := by
      rw [List.filterMap_map, ← List.filterMap_eq_map]; rfl
    rcases hi with hi | ⟨hi, _⟩
    · rw [← hid]; exact hi.filterMap id
    · rw [hi, List.filterMap_append, hid]
      simp
  · rintro pre b post rfl
    obtain ⟨as1, t, a, as2, y, y', rfl, r1, r2, r3, r4⟩ := h.split rfl
    have hlive := (r1.mono (fun _ _ hk => hk.1)).live hl hs hb hn (fun q hq => hses q (by simp [hq]))
    have hacc := acc (fun q hq => by simp [hq]) r1
    obtain ⟨ho, hst, hw', hst', hqq⟩ := stop_found hl hs hb hlive (fun _ => delay_lt_timeout h1 h2) hacc r2.1 r3
    obtain ⟨qs, src, k, e, k1, k2, k3, k4⟩ := endsAfter_of_over hacc ho
    have hpre := returned_leftQueue (onlyGets_outs r1 (fun q hq => hget q (by simp [hq])))
    have hid : (qs.map (fun q => some q.2)).filterMap id = qs.map Prod.snd := by
      rw [List.filterMap_map, ← List.filterMap_eq_map]; rfl
    have hnone : none ∉ qs.map (fun q => some q.2) := by simp
    rcases hqq with ⟨rfl, hq, hq'⟩ | ⟨rfl, q, hq, hq'⟩
    · rw [hq, List.append_nil] at k4
      refine ⟨e, ⟨qs, src, k, k1, ?_, k2, k3⟩, by simp, ?_⟩
      · rw [hpre, ← hid]
        rcases k4 with k4 | ⟨k4, _⟩ | k4
        · rw [k4]
        · rw [k4, List.filterMap_append]; simp
        · exact k4.elim
      · exact (over_run (by intro a ha; obtain ⟨q, hq, rfl⟩ := List.mem_map.mp ha; exact hses q (by simp [hq])) hq' (by rw [hw']; exact ho) hst' r4.run).2.1
    · rw [hq] at k4
      have k5 : leftQueue pre ++ none :: q = qs.map (fun q => some q.2) ++ [none] ∧ e = .stopIteration := by
        rcases k4 with k4 | k4 | k4
        · exact absurd (k4 ▸ by simp) hnone
        · exact k4
        · exact k4.elim
      obtain ⟨e1, e2⟩ := append_none_inj hnone k5.1
      refine ⟨e, ⟨qs, src, k, k1, ?_, k2, k3⟩, fun _ => k5.2, ?_⟩
      · rw [hpre, e1, hid]
      · exact (over_run (by intro a ha; obtain ⟨q, hq, rfl⟩ := List.mem_map.mp ha; exact hses q (by simp [hq])) (by rw [hq', e2]) (by rw [hw']; exact ho) hst' r4.run).2.1

/-- The times of a run in which the worker loads in no time and the user pauses for two seconds before the last batch. -/
def pausing : List (ℚ × Action) :=
  [(0, .get 4), (0, .check), (0, .fetch), (0, .put), (0, .check), (0, .fetch), (0, .take), (0, .put), (0, .check), (0, .fetch), (0, .get 4), (0, .take), (0, .put),
    (0, .check), (0, .fetch), (2, .eosTimeout), (2, .eosForce), (2, .get 4), (2, .take)]

/-- The bound on the user's pauses cannot be improved: with the default timeout, a buffer of one batch and a pause of exactly two seconds the
last of three batches is lost, although everything else goes on without any delay. -/
theorem C159_sharp : ∃ (outs : List (Out Nat)) (x : TSt Nat Nat), (∀ q ∈ pausing, OnlyGets q.2) ∧
    Runs demoSrc ⟨4, 1⟩ .default (fun x t => WorkerPrompt ⟨4, 1⟩ .default ⟨0, 0⟩ x t ∧ Asks 2 x t) (tinit 0 0) pausing outs x ∧
    returned outs = [0, 1] ∧ outs.getLast? = some (.stop false) ∧ EndsAfter demoSrc 0 [0, 1, 2] .stopIteration ∧ Times.default.eos = 2 := by
  obtain ⟨x, hx⟩ := runs_outs (p := demoSrc) (cfg := ⟨4, 1⟩) (T := .default) (ok := fun x t => WorkerPrompt ⟨4, 1⟩ .default ⟨0, 0⟩ x t ∧ Asks 2 x t)
    (okB := fun x t => workerOk ⟨4, 1⟩ .default ⟨0, 0⟩ x t && asksOk 2 x t)
    (fun x t h => by rw [Bool.and_eq_true] at h; exact ⟨workerOk_iff x t h.1, asksOk_iff x t h.2⟩) (x := tinit 0 0) (as := pausing)
    (os := [.tau, .tau, .fetched 0, .tau, .tau, .fetched 1, .ret 0 0, .tau, .tau, .fetched 2, .tau, .ret 1 1, .tau, .tau, .tau, .tau, .tau, .tau, .stop false])
    (by decide +kernel)
  refine ⟨_, x, ?_, hx, rfl, rfl, ?_, rfl⟩
  · simp [pausing, OnlyGets, Action.isWorker]
  · exact ⟨[(0, 0), (1, 1), (2, 2)], 3, 3, .batch rfl (.batch rfl (.batch rfl (.nil _ _))), rfl, rfl, by simp⟩

/-- A case with all hypotheses of C159: the same with a pause of one second: all three batches arrive. -/
example : ∃ (as : List (ℚ × Action)) (outs : List (Out Nat)) (x : TSt Nat Nat), (∀ q ∈ as, OnlyGets q.2) ∧
    Runs demoSrc ⟨4, 1⟩ .default (fun x t => WorkerPrompt ⟨4, 1⟩ .default ⟨1/2, 1/10⟩ x t ∧ Asks 1 x t) (tinit 0 0) as outs x ∧
    returned outs = [0, 1, 2] ∧ outs.getLast? = some (.stop false) ∧ (1 : ℚ) < Times.default.eos ∧ delay ⟨1/2, 1/10⟩ 0 < Times.default.steady := by
  obtain ⟨x, hx⟩ := runs_outs (p := demoSrc) (cfg := ⟨4, 1⟩) (T := .default) (ok := fun x t => WorkerPrompt ⟨4, 1⟩ .default ⟨1/2, 1/10⟩ x t ∧ Asks 1 x t)
    (okB := fun x t => workerOk ⟨4, 1⟩ .default ⟨1/2, 1/10⟩ x t && asksOk 1 x t)
    (fun x t h => by rw [Bool.and_eq_true] at h; exact ⟨workerOk_iff x t h.1, asksOk_iff x t h.2⟩) (x := tinit 0 0)
    (as := [(0, .get 4), (0, .check), (1/2, .fetch), (1/2, .put), (1/2, .check), (1/2, .take), (1, .fetch), (1, .put), (1, .check), (3/2, .get 4), (3/2, .take), (3/2, .fetch), (3/2, .put),
      (3/2, .check), (2, .fetch), (5/2, .get 4), (5/2, .take), (5/2, .eosPut), (5/2, .eosStop), (7/2, .get 4), (7/2, .take)])
    (os := [.tau, .tau, .fetched 0, .tau, .tau, .ret 0 0, .fetched 1, .tau, .tau, .tau, .ret 1 1, .fetched 2, .tau, .tau, .tau, .tau, .ret 2 2, .tau, .tau, .tau, .stop false])
    (by decide +kernel)
  refine ⟨_, _, x, ?_, hx, rfl, rfl, by norm_num [Times.default], by norm_num [delay, Times.default]⟩
  simp [OnlyGets, Action.isWorker]

/-! ## C160 -/

theorem Runs.splitFirst {ok : TSt S B → ℚ → Prop} {x x' : TSt S B} {as : List (ℚ × Action)} {os : List (Out B)} (h : Runs p cfg T ok x as os x') (a : Action) :
    (∀ q ∈ as, q.2 ≠ a) ∨ ∃ as1 t as2 os1 o os2 y y', as = as1 ++ (t, a) :: as2 ∧ os = os1 ++ o :: os2 ∧ (∀ q ∈ as1, q.2 ≠ a) ∧ Runs p cfg T ok x as1 os1 y ∧ ok y t ∧
      tact p cfg T t a y = some (y', o) ∧ Runs p cfg T ok y' as2 os2 x' := by
  induction h with
  | nil => left; simp
  | @cons x x1 x2 t' a' o1 as os hok h rest ih =>
    by_cases he : a' = a
    · subst he
      exact .inr ⟨[], t', as, [], o1, os, x, x1, rfl, rfl, by simp, .nil _, hok, h, rest⟩
    · rcases ih with ih | ⟨as1, t, as2, os1, o, os2, y, y', e1, e2, e3, h1, h2, h3, h4⟩
      · left
        intro q hq
        rcases List.mem_cons.mp hq with rfl | hq
        · exact he
        · exact ih q hq
      · refine .inr ⟨(t', a') :: as1, t, as2, o1 :: os1, o, os2, y, y', by rw [e1]; rfl, by rw [e2]; rfl, ?_, .cons hok h h1, h2, h3, h4⟩
        intro q hq
        rcases List.mem_cons.mp hq with rfl | hq
        · exact he
        · exact e3 q hq

/-- C160: for a wrapped scheduler with episodes of `L` steps, let the worker and the calling thread be prompt and the user ask often enough (as in
C159), and let `L` times the longest wait for an item be less than the deadline of `next_episode`. Then the episodes seen through the prefetching
scheduler are the ones of the wrapped scheduler under every order of steps, whatever calls of `get_batch` and `next_episode` are made: the `i`-th
item to leave the queue is the `i`-th batch of the stream, and if `get_batch` returned it when `steps_remaining()` was `L - t`, it is time step `t`
of its episode. -/
theorem C160_aligned_in_time (p : Src S B) (cfg : Cfg) (T : Times) (v : Speed) (g : ℚ) (src0 : S) (L : Nat) (hL : 0 < L) (hE : EpisodesOf p src0 L)
    (hl : 0 ≤ v.load) (hs : 0 ≤ v.step) (hb : 0 < cfg.bufferSize) (hg : g < T.eos) (hj : L * (delay v 1 + v.step) < T.join)
    (t0 : ℚ) (as : List (ℚ × Action)) (outs : List (Out B)) (x : TSt S B) (hses : ∀ q ∈ as, Session q.2)
    (h : Runs p cfg T (fun x t => WorkerPrompt cfg T v x t ∧ ConsumerPrompt T v x t ∧ Asks g x t) (tinit t0 src0) as outs x) :
    ∃ bs src k, Produces p src0 0 bs src k ∧
      (∀ i o b, (stamped outs)[i]? = some (o, some b) → ∃ t, bs[i]? = some (t, b) ∧ t = i % L ∧ (o = none ∨ o = some t)) := by
  have hn : ∀ bs s k, Produces p src0 0 bs s k → EndsInARow p 1 s := fun _ _ _ hp => endsInARow_episodes hL hE hp
  have hne := h.noEosTimeout hb hg (fun _ _ hk => hk.2.2) hses
  rcases h.splitFirst .discardTimeout with hnd | ⟨as1, t, as2, os1, o, os2, y, y', rfl, rfl, hnd, r1, r2, r3, r4⟩
  · refine C29_episodes_aligned_partial p cfg src0 L hL hE (as.map Prod.snd) x.s outs ?_ h.run
    intro a ha
    obtain ⟨q, hq, rfl⟩ := List.mem_map.mp ha
    exact ⟨hses q hq, hnd q hq, hne q hq⟩
  · have hinv := r1.disc hE.1 hl hs hb hn (fun _ _ hk => ⟨hk.1, hk.2.1⟩) (fun q hq => hses q (by simp [hq]))
    obtain ⟨hq, ho, hst, rfl, hy'⟩ := hinv.2.timeout hl hs hb hj hinv.1 r2.1 r2.2.1 r3
    have hpost := over_run (p := p) (cfg := cfg) (as := as2.map Prod.snd) (by intro a ha; obtain ⟨q, hq, rfl⟩ := List.mem_map.mp ha; exact hses q (by simp [hq]))
      (by rw [hy']; exact hq) (by rw [hy']; exact ho) (by rw [hy']; exact hst) r4.run
    have hst : stamped (os1 ++ .tau :: os2) = stamped os1 := by
      have e : os1 ++ .tau :: os2 = os1 ++ ([.tau] ++ os2) := rfl
      rw [e, stamped_append, stamped_append, hpost.1]
      simp [stamped]
    rw [hst]
    refine C29_episodes_aligned_partial p cfg src0 L hL hE (as1.map Prod.snd) y.s os1 ?_ r1.run
    intro a ha
    obtain ⟨q, hq, rfl⟩ := List.mem_map.mp ha
    exact ⟨hses q (by simp [hq]), hnd q hq, hne q (by simp [hq])⟩

theorem demoEp_episodes : EpisodesOf demoEp (0, 0) 2 := C29_refuted.1

/-- A case with all hypotheses of C160: a tenth of a second per batch; one step of the first episode, then `next_episode`, then the second one. -/
example : ∃ (as : List (ℚ × Action)) (outs : List (Out (Nat × Nat))) (x : TSt (Nat × Nat) (Nat × Nat)), (∀ q ∈ as, Session q.2) ∧
    Runs demoEp ⟨4, 2⟩ .default (fun x t => WorkerPrompt ⟨4, 2⟩ .default ⟨1/10, 1/100⟩ x t ∧ ConsumerPrompt .default ⟨1/10, 1/100⟩ x t ∧ Asks 1 x t) (tinit 0 (0, 0)) as outs x ∧
    stamped outs = [(some 0, some (0, 0)), (none, some (0, 1)), (some 0, some (1, 0)), (some 1, some (1, 1))] ∧
    (2 : ℕ) * (delay ⟨1/10, 1/100⟩ 1 + 1/100) < Times.default.join := by
  obtain ⟨x, hx⟩ := runs_outs (p := demoEp) (cfg := ⟨4, 2⟩) (T := .default)
    (ok := fun x t => WorkerPrompt ⟨4, 2⟩ .default ⟨1/10, 1/100⟩ x t ∧ ConsumerPrompt .default ⟨1/10, 1/100⟩ x t ∧ Asks 1 x t)
    (okB := fun x t => workerOk ⟨4, 2⟩ .default ⟨1/10, 1/100⟩ x t && (consumerOk .default ⟨1/10, 1/100⟩ x t && asksOk 1 x t))
    (fun x t h => by rw [Bool.and_eq_true, Bool.and_eq_true] at h; exact ⟨workerOk_iff x t h.1, consumerOk_iff x t h.2.1, asksOk_iff x t h.2.2⟩) (x := tinit 0 (0, 0))
    (as := [(0, .get 4), (0, .check), (1/10, .fetch), (1/10, .put), (1/10, .take), (1/10, .nextEpisode), (1/10, .check), (2/10, .fetch), (2/10, .put), (2/10, .discard),
      (2/10, .check), (3/10, .fetch), (3/10, .check), (4/10, .fetch), (4/10, .put), (4/10, .get 4), (4/10, .take), (4/10, .check), (5/10, .fetch), (5/10, .put), (5/10, .get 4), (5/10, .take)])
    (os := [.tau, .tau, .fetched (0, 0), .tau, .ret 0 (0, 0), .tau, .tau, .fetched (0, 1), .tau, .removed (some (0, 1)), .tau, .tau, .tau, .fetched (1, 0), .tau, .tau, .ret 0 (1, 0),
      .tau, .fetched (1, 1), .tau, .tau, .ret 1 (1, 1)])
    (by decide +kernel)
  refine ⟨_, _, x, ?_, hx, rfl, by norm_num [delay, Times.default]⟩
  simp [Session]

/-- Without the bound it fails: batches that take two seconds, and `next_episode` gives up waiting for the second step of the first episode; then
`get_batch` returns that step as the first one of the new episode. -/
theorem C160_slow_refuted : ∃ (as : List (ℚ × Action)) (outs : List (Out (Nat × Nat))) (x : TSt (Nat × Nat) (Nat × Nat)), (∀ q ∈ as, Session q.2) ∧
    Runs demoEp ⟨4, 2⟩ .default (fun x t => WorkerPrompt ⟨4, 2⟩ .default ⟨2, 0⟩ x t ∧ ConsumerPrompt .default ⟨2, 0⟩ x t) (tinit 0 (0, 0)) as outs x ∧
    stamped outs = [(some 0, some (0, 0)), (some 0, some (0, 1))] := by
  obtain ⟨x, hx⟩ := runs_outs (p := demoEp) (cfg := ⟨4, 2⟩) (T := .default) (ok := fun x t => WorkerPrompt ⟨4, 2⟩ .default ⟨2, 0⟩ x t ∧ ConsumerPrompt .default ⟨2, 0⟩ x t)
    (okB := fun x t => workerOk ⟨4, 2⟩ .default ⟨2, 0⟩ x t && consumerOk .default ⟨2, 0⟩ x t)
    (fun x t h => by rw [Bool.and_eq_true] at h; exact ⟨workerOk_iff x t h.1, consumerOk_iff x t h.2⟩) (x := tinit 0 (0, 0))
    (as := [(0, .get 4), (0, .check), (2, .fetch), (2, .put), (2, .take), (2, .check), (2, .nextEpisode), (4, .discardTimeout), (4, .fetch), (4, .put), (4, .get 4), (4, .take)])
    (os := [.tau, .tau, .fetched (0, 0), .tau, .ret 0 (0, 0), .tau, .tau, .tau, .fetched (0, 1), .tau, .tau, .ret 0 (0, 1)])
    (by decide +kernel)
  refine ⟨_, _, x, ?_, hx, rfl⟩
  simp [Session]

/-! ## C161 -/

/-- C161: if both threads are prompt, then in every state that any calls can lead to, and until any moment `t` up to which nothing is overdue, the
call that is under way began not longer ago than: the timeout in force and two steps for `get_batch`, the deadline and four steps for
`next_episode`, one call of the wrapped scheduler and four steps for `reset`, the join's timeout and three steps for `shutdown`. And there is such
a moment at which one of the threads can take its next step: the assumption that the threads are prompt never stops the clock. -/
theorem C161_calls_return (p : Src S B) (cfg : Cfg) (T : Times) (v : Speed) (src0 : S) (hl : 0 ≤ v.load) (hs : 0 ≤ v.step) (hb : 0 < cfg.bufferSize)
    (hT1 : 0 ≤ T.startup) (hT2 : 0 ≤ T.steady) (hT3 : 0 ≤ T.join) (hT4 : 0 ≤ T.eos) (t0 : ℚ) (as : List (ℚ × Action)) (outs : List (Out B)) (x : TSt S B)
    (h : Runs p cfg T (fun x t => WorkerPrompt cfg T v x t ∧ ConsumerPrompt T v x t) (tinit t0 src0) as outs x) :
    (∀ t, WorkerPrompt cfg T v x t → ConsumerPrompt T v x t →
      (x.s.c = .getWait → t ≤ x.call + getTimeout T x.s + 2 * v.step) ∧
      ((∃ k, x.s.c = .discard k) → t ≤ x.call + T.join + 4 * v.step) ∧
      (x.s.c = .resetDrain ∨ x.s.c = .resetJoin → t ≤ x.call + v.load + 4 * v.step) ∧
      (x.s.c = .shutDrain ∨ x.s.c = .shutPut ∨ x.s.c = .shutJoin → t ≤ x.call + T.join + 3 * v.step)) ∧
    ∃ t a x' o, (WorkerPrompt cfg T v x t ∧ ConsumerPrompt T v x t) ∧ tact p cfg T t a x = some (x', o) := by
  have ht := h.timely hl hs hT1 hT2 hT3 hb
  exact ⟨fun t hw hc => ht.calls hl hs hT1 hT2 hT3 hw hc, goes_on hs ht (h.onTime hl hs hT1 hT2 hT3 hT4)⟩

/-- A case: `reset` is called at 1 while the worker is in a call of the wrapped scheduler that it began at 1; the call ends at 2, and `reset` returns. -/
example : ∃ (as : List (ℚ × Action)) (outs : List (Out Nat)) (x : TSt Nat Nat),
    Runs demoSrc ⟨4, 2⟩ .default (fun x t => WorkerPrompt ⟨4, 2⟩ .default ⟨1, 1/10⟩ x t ∧ ConsumerPrompt .default ⟨1, 1/10⟩ x t) (tinit 0 0) as outs x ∧
    x.s.c = .resetJoin ∧ x.call = 1 ∧ x.now = 2 ∧ x.s.w = .put 1 := by
  have hx : (runT demoSrc ⟨4, 2⟩ .default (fun x t => workerOk ⟨4, 2⟩ .default ⟨1, 1/10⟩ x t && consumerOk .default ⟨1, 1/10⟩ x t)
    [(0, .get 4), (0, .check), (1, .fetch), (1, .put), (1, .take), (1, .check), (1, .reset), (1, .resetDrain), (2, .fetch)] (tinit 0 0)).map
      (fun r => (r.1.s.c, r.1.call, r.1.now, r.1.s.w)) = some (.resetJoin, 1, 2, .put 1) := by decide +kernel
  rw [Option.map_eq_some_iff] at hx
  obtain ⟨r, h1, h2⟩ := hx
  simp only [Prod.mk.injEq] at h2
  exact ⟨_, r.2, r.1, runs_of_runT (fun x t h => by rw [Bool.and_eq_true] at h; exact ⟨workerOk_iff x t h.1, consumerOk_iff x t h.2⟩) h1, h2⟩

end Verif.Timed
