import Verif.Model.Sampler
/-!
# Specification: a pair depends on its own flow field only (C190)
-/

namespace Verif.Isolation
open Verif Sampler
variable {S F O I : Type}

/-- Two schedulers that do the same, except that the flow fields in the rows of a batch other than row `j` may differ. -/
structure SameRow (j : Nat) (sch sch' : ISched S (FlowBatch F)) : Prop where
  getBatch : ∀ n s, (sch.getBatch n s = none ∧ sch'.getBatch n s = none) ∨
    (∃ e s', sch.getBatch n s = some (.error e, s') ∧ sch'.getBatch n s = some (.error e, s')) ∨
    ∃ b b' s', sch.getBatch n s = some (.ok b, s') ∧ sch'.getBatch n s = some (.ok b', s') ∧ b.flows.length = b'.flows.length ∧ b.flows[j]? = b'.flows[j]? ∧
      b.mask = b'.mask ∧ b.files = b'.files
  reset : sch.reset = sch'.reset
  episodic : sch.episodic = sch'.episodic

/-- Two batches show the same, except for the pairs not in `own`: as many pairs, the same mask, file names and flags, and for the pairs in `own` the same images, parameters and reported flow. -/
def SamePairs (own : Nat → Prop) (b b' : OutBatch O I) : Prop :=
  b.images.length = b'.images.length ∧ b.flows.length = b'.flows.length ∧ b.mask = b'.mask ∧ b.files = b'.files ∧ b.done = b'.done ∧
    ∀ i, own i → b.images[i]? = b'.images[i]? ∧ b.flows[i]? = b'.flows[i]?

/-- Two calls show the same in this sense. -/
def SameOut (own : Nat → Prop) : Out (OutBatch O I) → Out (OutBatch O I) → Prop
  | .batch b, .batch b' => SamePairs own b b'
  | .raised e, .raised e' => e = e'
  | .done, .done => True
  | _, _ => False

end Verif.Isolation
