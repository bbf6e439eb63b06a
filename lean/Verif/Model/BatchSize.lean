import Verif.Model.Base
/-!
# `get_batch` of the base scheduler with any integer (`src/synthpix/scheduler/base.py` lines 196-289)

`Model/Base.lean` has natural numbers as batch sizes. The public method checks nothing.
-/

namespace Verif.Base
open Verif
variable {V D Key : Type}

/-- `get_batch(batch_size)` (lines 196-289) for an integer: `np.ones((batch_size,))` (line 213) raises `ValueError` for a negative
one, before anything is read. -/
def getBatchInt (zero : V) (w : World V D Key) (c : Cfg) (fuel : Nat) (n : Int) (s : St D Key) : Option (Except Exc (Batch V) × St D Key) :=
  if n < 0 then some (.error .valueError, s) else getBatch zero w c fuel n.toNat s

/-- A sequence of `get_batch` calls with the given sizes. -/
def runBatchesInt (zero : V) (w : World V D Key) (c : Cfg) (fuel : Nat) : List Int → St D Key → Option (List (Except Exc (Batch V)) × St D Key)
  | [], s => some ([], s)
  | n :: ns, s =>
    match getBatchInt zero w c fuel n s with
    | none => none
    | some (r, s') =>
      match runBatchesInt zero w c fuel ns s' with
      | none => none
      | some (rs, s'') => some (r :: rs, s'')

end Verif.Base
