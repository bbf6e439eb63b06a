import Verif.Model.Sampler
/-!
# Several samplers on one scheduler

`Sampler.__init__` stores the scheduler it is given (`src/synthpix/sampler/base.py` line 45), so that two samplers
constructed with one scheduler hold the same object. Each has its own key, counter and current flow batch.
-/

namespace Verif.Several
open Verif Verif.Sampler

variable {S S' F O I : Type}

/-- A state of the sampler with another scheduler (`base.py` line 45: the attribute `scheduler`). -/
def withSched (s : St S F O) (x : S') : St S' F O :=
  { sched := x, rng := s.rng, cur := s.cur, outFlows := s.outFlows, mask := s.mask, files := s.files, generated := s.generated }

/-- The scheduler that all samplers hold, and the sampler with each number (`base.py` line 45). The field `sched` of
`smp i` is not used: the object is `shared`. -/
structure Group (S F O : Type) where
  shared : S
  smp : Nat → St S F O

/-- The samplers after their constructors (`base.py` lines 24-57, `synthetic.py` line 447). -/
def ginit (cfg : Nat → Cfg) (s : S) : Group S F O := { shared := s, smp := fun i => Sampler.init (cfg i) s }

/-- One call on sampler `i` (`base.py` lines 73-116). -/
def gstep (sch : ISched S (FlowBatch F)) (g : Nat → Gen F O I) (cfg : Nat → Cfg) (i : Nat) (op : Op) (G : Group S F O) :
    Option (Out (OutBatch O I) × Group S F O) :=
  match step sch (g i) (cfg i) (withSched (G.smp i) G.shared) op with
  | none => none
  | some (o, s') => some (o, { shared := s'.sched, smp := fun j => if j = i then s' else G.smp j })

/-- A history of calls, each with the number of the sampler it is made on, and what they show. -/
def grun (sch : ISched S (FlowBatch F)) (g : Nat → Gen F O I) (cfg : Nat → Cfg) :
    List (Nat × Op) → Group S F O → Option (List (Nat × Out (OutBatch O I)) × Group S F O)
  | [], G => some ([], G)
  | (i, op) :: ops, G =>
    match gstep sch g cfg i op G with
    | none => none
    | some (o, G') =>
      match grun sch g cfg ops G' with
      | none => none
      | some (os, G'') => some ((i, o) :: os, G'')

end Verif.Several
