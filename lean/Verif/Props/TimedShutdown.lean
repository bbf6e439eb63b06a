import Verif.Proofs.TimedShutdown
import Verif.Props.Timed
import Verif.Model.Threads
/-!
# C162: `shutdown` with time
-/

namespace Verif.Timed
open Verif Verif.Prefetch
variable {S B : Type} {p : Src S B} {cfg : Cfg} {T : Times}

/-- C162: let a call of the wrapped scheduler take at most `load`, anything else that the worker thread can do at most `step`, and let
`load + 2 step` be less than the timeout of the join. After any calls, if `shutdown` is called while the queue (of at least two places) is not
full, the worker thread has ended when `shutdown` returns. -/
theorem C162_shutdown_ends_partial (p : Src S B) (cfg : Cfg) (T : Times) (v : Speed) (src0 : S) (hl : 0 ≤ v.load) (hs : 0 ≤ v.step)
    (hb : 2 ≤ cfg.bufferSize) (hj : v.load + 2 * v.step < T.join) (t0 t1 t2 : ℚ) (before during : List (ℚ × Action)) (outs1 outs2 : List (Out B)) (x x' : TSt S B)
    (h : Runs p cfg T (WorkerPrompt cfg T v) (tinit t0 src0) before outs1 x) (hq : x.s.queue.length < cfg.bufferSize)
    (hd : ∀ q ∈ during, q.2 ≠ .shutJoin) (h2 : Runs p cfg T (WorkerPrompt cfg T v) x ((t1, .shutdown) :: during ++ [(t2, .shutJoin)]) outs2 x') :
    x'.s.c = .idle ∧ x'.s.w.ended = true := by
  have hpast : Past x := h.invariant Past (fun _ => True) (fun _ _ _ _ _ hi _ _ hx => hi.step hx) (fun _ _ => trivial) ⟨le_refl _, le_refl _⟩
  cases h2 with
  | @cons _ y _ _ _ o _ os hok hx rest =>
    have hsh : Shutting cfg v t1 y := Shutting.start hl hs hpast hq hx
    obtain ⟨os1, o', os2, z, z', _, r1, r2, r3, r4⟩ := rest.splitAt rfl
    have hz : Shutting cfg v t1 z := r1.invariant (Shutting cfg v t1) (fun a => a ≠ .shutJoin)
      (fun _ _ _ _ _ hi hok hg hx => hi.step hl hs hb hok hg hx) hd hsh
    obtain ⟨e1, e2⟩ := hz.join hs hj r2 r3
    cases r4
    rw [e1]
    exact ⟨rfl, e2⟩

/-- A case with all hypotheses of C162: `shutdown` is called while the worker is loading the second batch, a second long; it waits for it. -/
example : ∃ (x x' : TSt Nat Nat) (outs1 outs2 : List (Out Nat)),
    Runs demoSrc ⟨4, 2⟩ .default (WorkerPrompt ⟨4, 2⟩ .default ⟨1, 1/10⟩) (tinit 0 0)
      [(0, .get 4), (0, .check), (1, .fetch), (1, .put), (1, .take), (1, .check)] outs1 x ∧ x.s.queue.length < 2 ∧ x.s.w = .fetch ∧
    Runs demoSrc ⟨4, 2⟩ .default (WorkerPrompt ⟨4, 2⟩ .default ⟨1, 1/10⟩) x
      ((1, .shutdown) :: [(1, .shutDrain), (1, .shutPut), (2, .fetch), (2, .put), (2, .check)] ++ [(2, .shutJoin)]) outs2 x' ∧
    x'.s.w = .exited ∧ (1 : ℚ) + 2 * (1/10) < Times.default.join := by
  have hx : (runT demoSrc ⟨4, 2⟩ .default (workerOk ⟨4, 2⟩ .default ⟨1, 1/10⟩)
    [(0, .get 4), (0, .check), (1, .fetch), (1, .put), (1, .take), (1, .check)] (tinit 0 0)).map
      (fun r => (r.1.s.queue, r.1.s.w, (runT demoSrc ⟨4, 2⟩ .default (workerOk ⟨4, 2⟩ .default ⟨1, 1/10⟩)
        ((1, .shutdown) :: [(1, .shutDrain), (1, .shutPut), (2, .fetch), (2, .put), (2, .check)] ++ [(2, .shutJoin)]) r.1).map
          (fun r => r.1.s.w))) = some ([], .fetch, some .exited) := by decide +kernel
  rw [Option.map_eq_some_iff] at hx
  obtain ⟨r, h1, h2⟩ := hx
  simp only [Prod.mk.injEq] at h2
  obtain ⟨h2, h3, h4⟩ := h2
  rw [Option.map_eq_some_iff] at h4
  obtain ⟨r', h5, h6⟩ := h4
  exact ⟨r.1, r'.1, r.2, r'.2, runs_of_runT workerOk_iff h1, by rw [h2]; simp, h3, runs_of_runT workerOk_iff h5, h6, by norm_num [Times.default]⟩

set_option synthInstance.maxSize 1024 in
/-- C162 fails for a slower wrapped scheduler: with batches that take two seconds, as long as the timeout of the join, `shutdown` returns while the
worker is still loading; the batch is loaded and put into the queue afterwards. -/
theorem C162_slow_refuted : ∃ (x x' x'' : TSt Nat Nat) (outs1 outs2 outs3 : List (Out Nat)),
    Runs demoSrc ⟨4, 2⟩ .default (fun x t => WorkerPrompt ⟨4, 2⟩ .default ⟨2, 0⟩ x t ∧ ConsumerPrompt .default ⟨2, 0⟩ x t) (tinit 0 0)
      [(0, .get 4), (0, .check), (2, .fetch), (2, .put), (2, .take), (2, .check)] outs1 x ∧ x.s.queue = [] ∧
    Runs demoSrc ⟨4, 2⟩ .default (fun x t => WorkerPrompt ⟨4, 2⟩ .default ⟨2, 0⟩ x t ∧ ConsumerPrompt .default ⟨2, 0⟩ x t) x
      [(2, .shutdown), (2, .shutDrain), (2, .shutPut), (4, .shutJoin)] outs2 x' ∧ x'.s.c = .idle ∧ x'.s.w.ended = false ∧
    Runs demoSrc ⟨4, 2⟩ .default (fun x t => WorkerPrompt ⟨4, 2⟩ .default ⟨2, 0⟩ x t ∧ ConsumerPrompt .default ⟨2, 0⟩ x t) x'
      [(4, .fetch), (4, .put)] outs3 x'' ∧ x''.s.queue = [none, some 1] := by
  have hx : (runT demoSrc ⟨4, 2⟩ .default (fun x t => workerOk ⟨4, 2⟩ .default ⟨2, 0⟩ x t && consumerOk .default ⟨2, 0⟩ x t)
    [(0, .get 4), (0, .check), (2, .fetch), (2, .put), (2, .take), (2, .check)] (tinit 0 0)).map
      (fun r => (r.1.s.queue, (runT demoSrc ⟨4, 2⟩ .default (fun x t => workerOk ⟨4, 2⟩ .default ⟨2, 0⟩ x t && consumerOk .default ⟨2, 0⟩ x t)
        [(2, .shutdown), (2, .shutDrain), (2, .shutPut), (4, .shutJoin)] r.1).map
          (fun r => (r.1.s.c, r.1.s.w.ended, (runT demoSrc ⟨4, 2⟩ .default (fun x t => workerOk ⟨4, 2⟩ .default ⟨2, 0⟩ x t && consumerOk .default ⟨2, 0⟩ x t)
            [(4, .fetch), (4, .put)] r.1).map (fun r => r.1.s.queue))))) = some ([], some (.idle, false, some [none, some 1])) := by decide +kernel
  have hok : ∀ (x : TSt Nat Nat) (t : ℚ), (workerOk ⟨4, 2⟩ .default ⟨2, 0⟩ x t && consumerOk .default ⟨2, 0⟩ x t) = true →
      WorkerPrompt ⟨4, 2⟩ .default ⟨2, 0⟩ x t ∧ ConsumerPrompt .default ⟨2, 0⟩ x t :=
    fun x t h => by rw [Bool.and_eq_true] at h; exact ⟨workerOk_iff x t h.1, consumerOk_iff x t h.2⟩
  rw [Option.map_eq_some_iff] at hx
  obtain ⟨r, h1, h2⟩ := hx
  simp only [Prod.mk.injEq] at h2
  obtain ⟨h2, h4⟩ := h2
  rw [Option.map_eq_some_iff] at h4
  obtain ⟨r', h5, h6⟩ := h4
  simp only [Prod.mk.injEq] at h6
  obtain ⟨h6, h7, h8⟩ := h6
  rw [Option.map_eq_some_iff] at h8
  obtain ⟨r'', h9, h10⟩ := h8
  exact ⟨r.1, r'.1, r''.1, r.2, r'.2, r''.2, runs_of_runT hok h1, h2, runs_of_runT hok h5, h6, h7, runs_of_runT hok h9, h10⟩

end Verif.Timed
