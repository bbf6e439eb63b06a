import Verif.Model.Base
/-!
# The interface shared by all schedulers (`src/synthpix/scheduler/protocol.py` lines 7-58)
-/

namespace Verif
open Base

/-- The operations of `SchedulerProtocol` that wrappers call (protocol.py lines 7-58), over a state `S`.
`getBatch` returns `none` when the call never returns. `get_flow_fields_shape` and `shutdown` are left out. -/
structure Sched (S B : Type) where
  getBatch : Nat → S → Option (Except Exc B × S)
  reset : S → S
  fileList : S → List String
  setFileList : List String → S → S

/-- A `BaseFlowFieldScheduler` seen through the interface (base.py lines 120-152 and 196-289). -/
def Base.sched {V D Key : Type} (zero : V) (w : World V D Key) (c : Cfg) (fuel : Nat) : Sched (St D Key) (Batch V) where
  getBatch n s := Base.getBatch zero w c fuel n s
  reset s := Base.reset w c s
  fileList s := s.fileList
  setFileList l s := { s with fileList := l }

end Verif
