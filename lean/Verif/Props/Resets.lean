import Verif.Props.Sampler
/-!
# Resetting a sampler without its scheduler (C143)
-/

namespace Verif.Sampler
open Verif
variable {S F O I : Type}

theorem sameBehaviour_refl {B : Type} (sch : ISched S B) (s : S) : SameBehaviour sch s s := by
  refine ⟨Eq, rfl, ?_⟩
  rintro s t rfl
  refine ⟨fun _ => rfl, ?_, ?_, ?_⟩
  · intro n r r' s' t' h h'
    rw [h] at h'
    simp only [Option.some.injEq, Prod.mk.injEq] at h'
    exact h'.2
  · intro e _
    refine ⟨rfl, ?_⟩
    cases h : e.2 s with
    | error x => exact .inl ⟨x, rfl, rfl⟩
    | ok s' => exact .inr ⟨s', s', rfl, rfl, rfl⟩
  · cases h : sch.reset s with
    | error x => exact .inl ⟨x, rfl, rfl⟩
    | ok s' => exact .inr ⟨s', s', rfl, rfl, rfl⟩

/-- **C143.** Whatever happened before: after `reset(scheduler_reset=False)`, which always succeeds, a synthetic sampler shows, for every further sequence of calls, what a newly
constructed one shows on the scheduler as it is now. So the random draws start again, the data go on, and what remained of the current flow batch is not used any more. -/
theorem C143_reset_self (sch : ISched S (FlowBatch F)) (g : Gen F O I) (cfg : Cfg) (s : St S F O) (ops : List Op) :
    (run sch g cfg (.reset false :: ops) s).map (·.1) = (run sch g cfg ops (init cfg s.sched)).map (fun q => .done :: q.1) := by
  obtain ⟨R, hR, hk⟩ := sameBehaviour_refl sch s.sched
  have ha : Alike cfg R (resetSelf cfg s) (init cfg s.sched) := ⟨hR, rfl, rfl, rfl, by simp [resetSelf]⟩
  have hrun : run sch g cfg (.reset false :: ops) s = (run sch g cfg ops (resetSelf cfg s)).map (fun q => (.done :: q.1, q.2)) := by
    rw [run]
    have hst : step sch g cfg s (.reset false) = some (.done, resetSelf cfg s) := rfl
    rw [hst]
    simp only
    cases run sch g cfg ops (resetSelf cfg s) <;> rfl
  have := run_alike (sch := sch) hk g ops _ _ ha
  rw [hrun]
  cases h1 : run sch g cfg ops (resetSelf cfg s) with
  | none =>
    rw [h1] at this
    cases h2 : run sch g cfg ops (init cfg s.sched) with
    | none => rfl
    | some q => rw [h2] at this; simp at this
  | some q =>
    rw [h1] at this
    cases h2 : run sch g cfg ops (init cfg s.sched) with
    | none => rw [h2] at this; simp at this
    | some q' =>
      rw [h2] at this
      simp only [Option.map_some, Option.some.injEq] at this ⊢
      rw [this]

/-- **C143**, a full `reset()` whose scheduler cannot be reset: the exception is passed on, and the sampler is as after `reset(scheduler_reset=False)`. -/
theorem C143_reset_fails (sch : ISched S (FlowBatch F)) (g : Gen F O I) (cfg : Cfg) (s : St S F O) (e : Exc) (h : sch.reset s.sched = .error e) (ops : List Op) :
    (run sch g cfg (.reset true :: ops) s).map (·.1) = (run sch g cfg ops (init cfg s.sched)).map (fun q => .raised e :: q.1) := by
  have h0 := C143_reset_self sch g cfg s ops
  have hs : step sch g cfg s (.reset false) = some (.done, resetSelf cfg s) := rfl
  have hst : step sch g cfg s (.reset true) = some (.raised e, resetSelf cfg s) := by
    simp only [step, reset_error h, unitOut]
  rw [run, hs] at h0
  rw [run, hst]
  simp only at h0 ⊢
  cases h1 : run sch g cfg ops (resetSelf cfg s) <;> cases h2 : run sch g cfg ops (init cfg s.sched) <;> rw [h1, h2] at h0 <;> simp_all

/-- Two image batches per flow batch: the reset in the middle of the first flow batch goes on with the second one. -/
example : ∃ cfg, Cfg.make 3 1 false 2 2 0 = .ok cfg ∧
    (run demoSched demoGen cfg [.next, .reset false, .next, .next, .next] (init cfg 0)).map (fun q => q.1.map (fun o => match o with
      | .batch x => x.flows | _ => [])) =
    some [[0, 1, 0], [], [10, 11, 10], [10, 11, 10], [20, 21, 20]] := ⟨_, rfl, by decide⟩

end Verif.Sampler
