import Verif.Model.Threads
import Verif.Props.Prefetch
/-!
# C115: `reset()` leaves no worker behind

`trun p cfg as (tinit src0) = some (s, outs)`: the schedule `as` of all threads that the prefetching scheduler has ever
started is possible, ends in `s` and shows `outs`.
-/

namespace Verif.Prefetch
open Verif
variable {S B : Type} {p : Src S B} {cfg : Cfg}

/-! ## Lemmas -/

theorem trun_cons {a as} {s s2 : TSt S B} {outs} (h : trun p cfg (a :: as) s = some (s2, outs)) :
    ∃ s1 o os, tact p cfg a s = some (s1, o) ∧ trun p cfg as s1 = some (s2, os) ∧ outs = o :: os := by
  rw [trun] at h
  cases ha : tact p cfg a s with
  | none => rw [ha] at h; simp at h
  | some q =>
    obtain ⟨s1, o⟩ := q
    rw [ha] at h
    simp only at h
    cases hr : trun p cfg as s1 with
    | none => rw [hr] at h; simp at h
    | some r =>
      obtain ⟨s3, os⟩ := r
      rw [hr] at h
      simp only [Option.some.injEq, Prod.mk.injEq] at h
      obtain ⟨rfl, rfl⟩ := h
      exact ⟨s1, o, os, rfl, hr, rfl⟩

/-- A thread that has ended makes no step. -/
theorem ended_stuck {a : Action} {s : St S B} (ha : a.isWorker = true) (hw : s.w.ended = true) : act p cfg a s = none := by
  cases a <;> simp [Action.isWorker] at ha <;> (cases h : s.w <;> simp [h, WPc.ended] at hw <;> simp [act, h])

/-- What holds while the consumer is in the lines of `reset` after the join, where `j` is the state at the join: everything
is as it was, except for what the lines so far have set. -/
def Resetting (p : Src S B) (j : St S B) (s : St S B) : RPc → Prop
  | .no => False
  | .clear => s = j
  | .source => s = { j with queue := [] }
  | .counter => s = { j with queue := [], src := p.reset j.src }
  | .started => s = { j with queue := [], src := p.reset j.src, t := 0 }
  | .flag => s = { j with queue := [], src := p.reset j.src, t := 0, started := false }
  | .queue => s = { j with queue := [], src := p.reset j.src, t := 0, started := false, stop := false }
  | .thread => s = { j with queue := [], src := p.reset j.src, t := 0, started := false, stop := false }
  | .startup => s = { j with queue := [], src := p.reset j.src, t := 0, started := false, stop := false, w := .idle }

/-- How a state of all threads corresponds to a state of the model with one worker. -/
def Corr (p : Src S B) (s : TSt S B) (j : St S B) : Prop :=
  (∀ w ∈ s.old, w.ended = true) ∧
  (s.pc = .no ∧ s.main = j ∨ j.c = .resetJoin ∧ j.w.ended = true ∧ Resetting p j s.main s.pc)

theorem Resetting.ended {j s : St S B} {pc} (h : Resetting p j s pc) (hj : j.w.ended = true) : s.w.ended = true := by
  cases pc <;> simp only [Resetting] at h <;> first | contradiction | (subst h; first | exact hj | rfl)

theorem act_join {j : St S B} (h1 : j.c = .resetJoin) (h2 : j.w.ended = true) :
    act p cfg .join j = some (init (p.reset j.src), .tau) := by
  simp [act, h1, h2]

theorem act_join_inv {j s' : St S B} {o} (h : act p cfg .join j = some (s', o)) :
    j.c = .resetJoin ∧ j.w.ended = true ∧ s' = init (p.reset j.src) ∧ o = .tau := by
  simp only [act] at h
  repeat' split at h
  all_goals simp at h
  rename_i h1 h2
  exact ⟨h1, h2, h.1.symm, h.2.symm⟩

/-- The visible part of what is shown. -/
def visible (outs : List (Out B)) : List (Out B) := outs.filter fun o => match o with | .tau => false | _ => true

theorem visible_append (xs ys : List (Out B)) : visible (xs ++ ys) = visible xs ++ visible ys := by simp [visible]

theorem visible_tau : visible ([.tau] : List (Out B)) = [] := rfl

/-- A step of all threads is a step of the model with one worker, or none at all. -/
theorem Corr.step {a} {s s1 : TSt S B} {j o} (h : Corr p s j) (ha : tact p cfg a s = some (s1, o)) :
    ∃ bs j1 os, run p cfg bs j = some (j1, os) ∧ Corr p s1 j1 ∧ visible os = visible [o] := by
  obtain ⟨ho, h⟩ := h
  cases a with
  | line =>
    rcases h with ⟨hpc, hm⟩ | ⟨hj, hw, hr⟩
    · simp [tact, resetLine, hpc] at ha
    · cases hpc : s.pc <;> rw [hpc] at hr <;> simp only [tact, resetLine, hpc, Option.map_none, Option.map_some] at ha <;>
        simp only [Resetting] at hr <;> try contradiction
      case thread =>
        simp only [Option.some.injEq, Prod.mk.injEq] at ha
        obtain ⟨rfl, rfl⟩ := ha
        refine ⟨[], j, [], rfl, ⟨?_, Or.inr ⟨hj, hw, ?_⟩⟩, rfl⟩
        · intro w hm
          rcases List.mem_cons.mp hm with rfl | hm
          · rw [hr]; exact hw
          · exact ho w hm
        · simp [Resetting, hr]
      case startup =>
        simp only [Option.some.injEq, Prod.mk.injEq] at ha
        obtain ⟨rfl, rfl⟩ := ha
        refine ⟨[.join], init (p.reset j.src), [.tau], ?_, ⟨ho, Or.inl ⟨rfl, ?_⟩⟩, rfl⟩
        · simp [run, act_join hj hw]
        · simp [hr, init]
      all_goals
        simp only [Option.some.injEq, Prod.mk.injEq] at ha
        obtain ⟨rfl, rfl⟩ := ha
        exact ⟨[], j, [], rfl, ⟨ho, Or.inr ⟨hj, hw, by simp [Resetting, hr]⟩⟩, rfl⟩
  | old i a =>
    exfalso
    simp only [tact] at ha
    split at ha
    · rename_i hwk
      cases hi : s.old[i]? with
      | none => rw [hi] at ha; simp at ha
      | some w =>
        rw [hi] at ha
        simp only at ha
        have hw := ho w (List.mem_of_getElem? hi)
        rw [ended_stuck hwk (s := { s.main with w := w }) hw] at ha
        simp at ha
    · simp at ha
  | main a =>
    by_cases hjn : a = .join
    · subst hjn
      simp only [tact] at ha
      cases hpc : s.pc <;> simp only [hpc] at ha <;> try contradiction
      rcases h with ⟨_, hm⟩ | ⟨_, _, hr⟩
      · cases hc : s.main.c <;> simp only [hc] at ha <;> try contradiction
        split at ha
        · rename_i hw
          simp only [Option.some.injEq, Prod.mk.injEq] at ha
          obtain ⟨rfl, rfl⟩ := ha
          refine ⟨[], j, [], rfl, ⟨ho, Or.inr ⟨hm ▸ hc, hm ▸ hw, hm⟩⟩, rfl⟩
        · simp at ha
      · rw [hpc] at hr; exact hr.elim
    · have ha' : (if a.isWorker ∨ s.pc = .no then (act p cfg a s.main).map fun r => ({ s with main := r.1 }, r.2) else none)
          = some (s1, o) := by
        cases a <;> first | exact absurd rfl hjn | exact ha
      split at ha'
      · rename_i hcond
        cases hact : act p cfg a s.main with
        | none => rw [hact] at ha'; simp at ha'
        | some r =>
          rw [hact] at ha'
          simp only [Option.map_some, Option.some.injEq, Prod.mk.injEq] at ha'
          obtain ⟨rfl, rfl⟩ := ha'
          rcases h with ⟨hpc, hm⟩ | ⟨hj, hw, hr⟩
          · refine ⟨[a], r.1, [r.2], ?_, ⟨ho, Or.inl ⟨hpc, rfl⟩⟩, rfl⟩
            rw [← hm]
            simp [run, hact]
          · exfalso
            rcases hcond with hwk | hno
            · rw [ended_stuck hwk (hr.ended hw)] at hact
              simp at hact
            · rw [hno] at hr; exact hr
      · simp at ha'

theorem run_comp {as bs} {s s1 s2 : St S B} {o1 o2} (h1 : run p cfg as s = some (s1, o1)) (h2 : run p cfg bs s1 = some (s2, o2)) :
    run p cfg (as ++ bs) s = some (s2, o1 ++ o2) := by
  induction as generalizing s o1 with
  | nil => rw [run_nil] at h1; simp at h1; obtain ⟨rfl, rfl⟩ := h1; exact h2
  | cons a as ih =>
    obtain ⟨s3, o, os, ha, hr, rfl⟩ := run_cons h1
    simp only [List.cons_append, run, ha, ih hr]

theorem Corr.run {as} {s s2 : TSt S B} {j outs} (h : Corr p s j) (hr : trun p cfg as s = some (s2, outs)) :
    ∃ bs j2 os, run p cfg bs j = some (j2, os) ∧ Corr p s2 j2 ∧ visible os = visible outs := by
  induction as generalizing s j outs with
  | nil => simp [trun] at hr; obtain ⟨rfl, rfl⟩ := hr; exact ⟨[], j, [], rfl, h, rfl⟩
  | cons a as ih =>
    obtain ⟨s1, o, os, ha, hr', rfl⟩ := trun_cons hr
    obtain ⟨b1, j1, o1, hb1, hc1, hv1⟩ := h.step ha
    obtain ⟨b2, j2, o2, hb2, hc2, hv2⟩ := ih hc1 hr'
    refine ⟨b1 ++ b2, j2, o1 ++ o2, run_comp hb1 hb2, hc2, ?_⟩
    rw [visible_append, hv1, hv2, ← visible_append]
    rfl

theorem corr_init (src : S) : Corr p (tinit src : TSt S B) (init src) := ⟨by simp [tinit], Or.inl ⟨rfl, rfl⟩⟩

/-! ## C115 -/

/-- C115: under every schedule of all threads, every thread that `reset` has replaced has ended and never makes another
step, and while `reset` reinitialises everything, the wrapped scheduler included, no thread is alive and none moves. -/
theorem C115_one_worker (src0 : S) (as : List TAction) (s : TSt S B) (outs : List (Out B))
    (h : trun p cfg as (tinit src0) = some (s, outs)) :
    (∀ w ∈ s.old, w.ended = true) ∧ (∀ i a, tact p cfg (.old i a) s = none) ∧
    (s.pc ≠ .no → s.main.w.ended = true ∧ ∀ a, tact p cfg (.main a) s = none) := by
  obtain ⟨bs, j, os, _, hc, _⟩ := (corr_init src0).run h
  refine ⟨hc.1, ?_, ?_⟩
  · intro i a
    cases ht : tact p cfg (.old i a) s with
    | none => rfl
    | some r =>
      exfalso
      simp only [tact] at ht
      split at ht
      · rename_i hwk
        cases hi : s.old[i]? with
        | none => rw [hi] at ht; simp at ht
        | some w =>
          rw [hi] at ht
          simp only at ht
          rw [ended_stuck hwk (s := { s.main with w := w }) (hc.1 w (List.mem_of_getElem? hi))] at ht
          simp at ht
      · simp at ht
  · intro hpc
    rcases hc.2 with ⟨hno, _⟩ | ⟨hj, hw, hr⟩
    · exact absurd hno hpc
    · refine ⟨hr.ended hw, fun a => ?_⟩
      cases ht : tact p cfg (.main a) s with
      | none => rfl
      | some r =>
        exfalso
        by_cases hjn : a = .join
        · subst hjn
          simp only [tact] at ht
          cases hp2 : s.pc <;> simp only [hp2] at ht <;> contradiction
        · have ha' : (if a.isWorker ∨ s.pc = .no then (act p cfg a s.main).map fun r => ({ s with main := r.1 }, r.2) else none)
              = some r := by
            cases a <;> first | exact absurd rfl hjn | exact ht
          split at ha'
          · rename_i hcond
            rcases hcond with hwk | hno
            · rw [ended_stuck hwk (hr.ended hw)] at ha'
              simp at ha'
            · exact hpc hno
          · simp at ha'

/-- C115: what the user sees under a schedule of all threads, line by line, is what they see under a schedule of one worker
with `reset` finishing in one step; so C25 - C32 hold for the former too. -/
theorem C115_same_as_one_worker (src0 : S) (as : List TAction) (s : TSt S B) (outs : List (Out B))
    (h : trun p cfg as (tinit src0) = some (s, outs)) :
    ∃ bs j os, run p cfg bs (init src0) = some (j, os) ∧ visible os = visible outs ∧ (s.pc = .no → s.main = j) := by
  obtain ⟨bs, j, os, hb, hc, hv⟩ := (corr_init src0).run h
  refine ⟨bs, j, os, hb, hv, fun hpc => ?_⟩
  rcases hc.2 with ⟨_, hm⟩ | ⟨_, _, hr⟩
  · exact hm
  · rw [hpc] at hr; exact hr.elim

/-- The steps of all threads that a step of the model with one worker stands for. -/
def fine : Action → List TAction
  | .join => .main .join :: List.replicate 8 .line
  | a => [.main a]

/-- C115, conversely: every schedule of the model with one worker is one of all threads. -/
theorem C115_one_worker_possible (src0 : S) (as : List Action) (s : St S B) (outs : List (Out B))
    (h : run p cfg as (init src0) = some (s, outs)) :
    ∃ old os, trun p cfg (as.flatMap fine) (tinit src0) = some (⟨s, .no, old⟩, os) ∧ visible os = visible outs := by
  suffices hg : ∀ (as : List Action) (s0 : St S B) old0 outs, run p cfg as s0 = some (s, outs) →
      ∃ old os, trun p cfg (as.flatMap fine) ⟨s0, .no, old0⟩ = some (⟨s, .no, old⟩, os) ∧ visible os = visible outs from
    hg as _ [] outs h
  clear h
  intro as
  induction as with
  | nil =>
    intro s0 old0 outs h
    rw [run_nil] at h
    simp only [Option.some.injEq, Prod.mk.injEq] at h
    obtain ⟨rfl, rfl⟩ := h
    exact ⟨old0, [], rfl, rfl⟩
  | cons a as ih =>
    intro s0 old0 outs h
    obtain ⟨s1, o, os, ha, hr, rfl⟩ := run_cons h
    by_cases hjn : a = .join
    · subst hjn
      obtain ⟨hc, hw, rfl, rfl⟩ := act_join_inv ha
      obtain ⟨old, os', ht, hv⟩ := ih _ (s0.w :: old0) _ hr
      refine ⟨old, .tau :: .tau :: .tau :: .tau :: .tau :: .tau :: .tau :: .tau :: .tau :: os', ?_, by simpa [visible] using hv⟩
      simp only [List.flatMap_cons, fine, List.replicate, List.cons_append, List.nil_append]
      simp only [trun, tact, hc, hw, if_true, resetLine, Option.map_some]
      simp only [init] at ht
      rw [ht]
    · obtain ⟨old, os', ht, hv⟩ := ih s1 old0 _ hr
      refine ⟨old, o :: os', ?_, ?_⟩
      · have hf : fine a = [.main a] := by cases a <;> first | exact absurd rfl hjn | rfl
        have hta : tact p cfg (.main a) ⟨s0, .no, old0⟩ = some (⟨s1, .no, old0⟩, o) := by
          have : tact p cfg (.main a) (⟨s0, .no, old0⟩ : TSt S B) =
              (act p cfg a s0).map fun r => (⟨r.1, .no, old0⟩, r.2) := by
            cases a <;> first | exact absurd rfl hjn | simp [tact]
          rw [this, ha]
          rfl
        simp only [List.flatMap_cons, hf, List.cons_append, List.nil_append, trun, hta, ht]
      · simp only [visible, List.filter_cons] at hv ⊢
        split <;> simp_all

/-- C115: `is_running()` is false after construction and after `reset()`. -/
theorem C115_is_running (src0 : S) : isRunning (init src0 : St S B) = false ∧
    ∀ (s s' : St S B) o, act p cfg .join s = some (s', o) → isRunning s = false ∧ isRunning s' = false := by
  refine ⟨rfl, fun s s' o h => ?_⟩
  obtain ⟨_, hw, rfl, _⟩ := act_join_inv h
  exact ⟨by simp [isRunning, hw], rfl⟩

/-- Two sessions with a `reset` between them while the worker has a batch in its hands: the first thread ends, is kept
aside, and the second session starts again with batch 0. -/
example : (trun demoSrc ⟨4, 1⟩
    ([.main (.get 4), .main .check, .main .fetch, .main .put, .main .take, .main .check, .main .fetch, .main .reset,
      .main .resetDrain, .main .put, .main .check, .main .join] ++ List.replicate 8 .line ++
      [.main (.get 4), .main .check, .main .fetch, .main .put, .main .take]) (tinit 0)).map
    (fun r => (r.1.old, visible r.2)) = some ([.exited], [.fetched 0, .ret 0 0, .fetched 1, .fetched 0, .ret 0 0]) := rfl

/-- Without the wait there would be two workers: if the thread that is still putting its batch were replaced, it could put
it into the new queue. -/
example : (trun demoSrc ⟨4, 1⟩ [.old 0 .put, .main .take]
    ⟨{ init 0 with c := .getWait, started := true, w := .loop }, .no, [.put 7]⟩).map (fun r => r.2) = some [.tau, .ret 0 7] := rfl

end Verif.Prefetch
