import Verif.Proofs.TimedCalls
/-!
# Lemmas on `shutdown` with time
-/

namespace Verif.Timed
open Verif Verif.Prefetch
variable {S B : Type} {p : Src S B} {cfg : Cfg} {T : Times}

/-- The moments of the worker and of the queue are not in the future. -/
def Past (x : TSt S B) : Prop := x.wSince ≤ x.now ∧ x.room ≤ x.now

theorem Past.step {x x' : TSt S B} {t : ℚ} {a : Action} {o : Out B} (h : Past x) (hx : tact p cfg T t a x = some (x', o)) : Past x' := by
  obtain ⟨hnow, _, s', hact, rfl⟩ := tact_some hx
  obtain ⟨h1, h2⟩ := h
  constructor
  · show (if a.isWorker || x.s.w.ended then t else x.wSince) ≤ t
    split <;> linarith
  · show (if cfg.bufferSize ≤ x.s.queue.length ∧ s'.queue.length < cfg.bufferSize then t else x.room) ≤ t
    split <;> linarith

/-- The worker may yet put something into the queue. -/
def Puts (w : WPc B) : Prop := w.mayPut = true ∨ w = .eos

/-- While `shutdown`, called at `t0` when the queue was not full, is under way. -/
structure Shutting (cfg : Cfg) (v : Speed) (t0 : ℚ) (x : TSt S B) : Prop where
  past : Past x
  stop : x.s.stop = true
  phase : x.s.c = .shutDrain ∨ x.s.c = .shutPut ∨ x.s.c = .shutJoin
  space : Puts x.s.w → x.s.queue.length < cfg.bufferSize ∧ (x.s.c = .shutPut → x.s.queue.length + 2 ≤ cfg.bufferSize)
  ends : x.s.w.ended = false → Ends v x (t0 + v.load + 2 * v.step)
  since : t0 ≤ x.cSince
  after : t0 ≤ x.now

theorem Shutting.start {v : Speed} (hl : 0 ≤ v.load) (hs : 0 ≤ v.step) {t0 : ℚ} {x x' : TSt S B} {o : Out B} (h : Past x)
    (hq : x.s.queue.length < cfg.bufferSize) (hx : tact p cfg T t0 .shutdown x = some (x', o)) : Shutting cfg v t0 x' := by
  have hp := h.step hx
  obtain ⟨hnow, _, s', hact, rfl⟩ := tact_some hx
  cases hc : x.s.c <;> simp only [act, hc] at hact <;> try contradiction
  simp at hact
  obtain ⟨rfl, rfl⟩ := hact
  refine ⟨hp, rfl, .inl rfl, fun _ => ⟨hq, by simp [stamp]⟩, fun _ => ?_, le_refl _, le_refl _⟩
  have h1 : (stamp cfg t0 .shutdown x { x.s with stop := true, c := .shutDrain }).wSince ≤ t0 := hp.1
  have h2 : (stamp cfg t0 .shutdown x { x.s with stop := true, c := .shutDrain }).room ≤ t0 := hp.2
  unfold Ends
  split
  all_goals first | linarith | exact ⟨by linarith, by linarith⟩

/-- When it has been told to stop, the worker puts nothing into the queue except what it had already begun to. -/
theorem stopped_worker {s s' : St S B} {a : Action} {o : Out B} (hs : s.stop = true) (ha : a.isWorker = true) (h : act p cfg a s = some (s', o)) :
    s'.stop = true ∧ (Puts s'.w → Puts s.w ∧ s'.queue = s.queue) := by
  cases a with
  | fetch =>
    cases hw : s.w <;> simp only [act, hw] at h <;> try contradiction
    simp only [Option.some.injEq] at h
    rcases fetchStep_cases (p := p) s with ⟨b, src, he⟩ | ⟨w, src, he, _⟩ <;> rw [he] at h <;> simp at h <;>
      obtain ⟨rfl, rfl⟩ := h <;> exact ⟨hs, fun _ => ⟨.inl rfl, rfl⟩⟩
  | _ =>
    simp only [Action.isWorker] at ha; try contradiction
    all_goals simp only [act] at h
    all_goals repeat' split at h
    all_goals try contradiction
    all_goals
      simp at h
      obtain ⟨rfl, rfl⟩ := h
      simp_all [Puts, WPc.mayPut]

theorem Shutting.step {v : Speed} (hl : 0 ≤ v.load) (hs : 0 ≤ v.step) (hb : 2 ≤ cfg.bufferSize) {t0 t : ℚ} {x x' : TSt S B} {a : Action} {o : Out B}
    (h : Shutting cfg v t0 x) (hw : WorkerPrompt cfg T v x t) (hnot : a ≠ .shutJoin) (hx : tact p cfg T t a x = some (x', o)) : Shutting cfg v t0 x' := by
  have hp := h.past.step hx
  have hx0 := hx
  obtain ⟨hnow, _, s', hact, rfl⟩ := tact_some hx
  have hts : t0 ≤ t := le_trans h.after hnow
  by_cases ha : a.isWorker = true
  · have hsame := worker_same ha hact
    have hne : x.s.w.ended = false := by
      cases hw' : x.s.w <;> simp only [WPc.ended] <;> cases a <;> simp [Action.isWorker] at ha <;> simp [act, hw'] at hact
    have hE := Ends.step hl hs (h.ends hne) h.past.2 h.stop (fun hr => (h.space hr).1) hw ha hx0
    have ec : (stamp cfg t a x s').cSince = x.cSince := by simp [stamp, ha]
    have hc := hsame.1
    have hst := stopped_worker h.stop ha hact
    refine ⟨hp, ?_, ?_, ?_, fun _ => hE.1, by rw [ec]; exact h.since, hts⟩
    · exact hst.1
    · show s'.c = _ ∨ s'.c = _ ∨ s'.c = _
      rw [hc]; exact h.phase
    · show Puts s'.w → s'.queue.length < _ ∧ (s'.c = _ → s'.queue.length + 2 ≤ _)
      rw [hc]
      intro hm
      rw [(hst.2 hm).2]
      exact h.space (hst.2 hm).1
  · have ec : (stamp cfg t a x s').cSince = t := by simp [stamp, ha]
    have hwz : s'.w = x.s.w → s'.w.ended = false → (Puts x.s.w → x.s.queue.length < cfg.bufferSize) → Ends v (stamp cfg t a x s') (t0 + v.load + 2 * v.step) := by
      intro hwe hne hsp
      rw [hwe] at hne
      have e1 : (stamp cfg t a x s').wSince = x.wSince := by simp [stamp, ha, hne]
      have e2 : Puts x.s.w → (stamp cfg t a x s').room = x.room := by intro hq; simp [stamp, Nat.not_le.mpr (hsp hq)]
      have hE := h.ends hne
      unfold Ends at hE ⊢
      have e3 : (stamp cfg t a x s').s.w = x.s.w := hwe
      rw [e3, e1]
      cases hw' : x.s.w <;> rw [hw'] at hE e2 <;> first | exact hE | (rw [e2 (by first | exact .inl rfl | exact .inr rfl)]; exact hE)
    rcases h.phase with hc | hc | hc
    all_goals
      cases a <;> simp [Action.isWorker] at ha <;> simp only [act, hc] at hact <;> try contradiction
    · split at hact
      all_goals
        rename_i hq
        simp at hact; obtain ⟨rfl, rfl⟩ := hact
        refine ⟨hp, h.stop, .inr (.inl rfl), fun hm => ?_, fun hne => hwz rfl hne (fun hq => (h.space hq).1), by rw [ec]; exact hts, hts⟩
        have := (h.space hm).1
        simp [stamp, hq] at this ⊢
        omega
    · simp at hact; obtain ⟨rfl, rfl⟩ := hact
      refine ⟨hp, h.stop, .inr (.inr rfl), fun hm => ?_, fun hne => hwz rfl hne (fun hq => (h.space hq).1), by rw [ec]; exact hts, hts⟩
      have h1 := h.space hm
      have h2 := h1.2 hc
      simp [stamp, h1.1]
      omega

/-- When `shutdown` returns, the worker has ended. -/
theorem Shutting.join {v : Speed} (hs : 0 ≤ v.step) (hj : v.load + 2 * v.step < T.join) {t0 t : ℚ} {x x' : TSt S B} {o : Out B}
    (h : Shutting cfg v t0 x) (hw : WorkerPrompt cfg T v x t) (hx : tact p cfg T t .shutJoin x = some (x', o)) :
    x'.s = { x.s with c := .idle } ∧ x.s.w.ended = true := by
  obtain ⟨hnow, hdue, s', hact, rfl⟩ := tact_some hx
  cases hc : x.s.c <;> simp only [act, hc] at hact <;> try contradiction
  simp at hact
  obtain ⟨rfl, rfl⟩ := hact
  refine ⟨rfl, ?_⟩
  by_contra hne
  have hne : x.s.w.ended = false := by simpa using hne
  have hdue : x.cSince + T.join ≤ t := by simpa [due, hne] using hdue
  have hE := h.ends hne
  have hsince := h.since
  have hsp := h.space
  unfold WorkerPrompt workerBy at hw
  unfold Ends at hE
  cases hw' : x.s.w <;> rw [hw'] at hw hE hne hsp <;> simp only [WPc.ended] at hne <;> try contradiction
  case put b =>
    have hrm := (hsp (.inl rfl)).1
    have := hw _ (by simp [hrm]; rfl)
    rcases max_cases x.wSince x.room with ⟨e, _⟩ | ⟨e, _⟩ <;> rw [e] at this <;> linarith [hE.1, hE.2]
  case eos =>
    have hrm := (hsp (.inr rfl)).1
    have := hw _ (by simp [hrm]; rfl)
    rcases max_cases x.wSince x.room with ⟨e, _⟩ | ⟨e, _⟩ <;> rw [e] at this <;> linarith [hE.1, hE.2]
  case fetch =>
    have := hw _ rfl
    linarith [hE.1]
  all_goals
    have := hw _ rfl
    simp only at hE
    linarith

end Verif.Timed
