import Verif.Model.Sampler
/-!
# `for batch in sampler: …` (`src/synthpix/sampler/base.py` lines 69-94)

`Sampler.__iter__` returns the sampler itself, so that a `for` statement starts where the last call has left the sampler, and leaves it where its
own last call has.
-/

namespace Verif.ForLoop
open Verif

/-- How a `for` statement ends: because the sampler is exhausted, by `break` in the body, or with an exception of the sampler. -/
inductive Ending where
  | exhausted
  | broken
  | raised (e : Exc)
  deriving DecidableEq, Repr

/-- What the exception of `__next__` makes of the `for` statement: `StopIteration` ends it, any other one leaves it (Python's `for`). -/
def onError : Exc → Ending
  | .stopIteration => .exhausted
  | e => .raised e

/-- `for i, b in enumerate(sampler): …; if brk(i, b): break` from iteration `i` on: `__iter__` (base.py lines 69-71) returns the sampler itself, so
that the statement calls `__next__` (`next`; base.py lines 73-94) on the sampler as it is. The result lists the batches for which the body has run,
how the statement has ended, and the sampler afterwards; `none` if a call never returns or after `fuel` iterations. Simplification: the body changes
nothing in the sampler and raises nothing. -/
def forLoop {S B : Type} (next : S → Option (Except Exc B × S)) (brk : Nat → B → Bool) : Nat → Nat → S → Option (List B × Ending × S)
  | 0, _, _ => none
  | fuel + 1, i, s =>
    match next s with
    | none => none
    | some (.error e, s') => some ([], onError e, s')
    | some (.ok b, s') =>
      if brk i b then some ([b], .broken, s')
      else (forLoop next brk fuel (i + 1) s').map (fun r => (b :: r.1, r.2))

/-- `next(sampler)` `k` times (base.py lines 73-94): the outcomes and the sampler afterwards; `none` if a call never returns. -/
def calls {S B : Type} (next : S → Option (Except Exc B × S)) : Nat → S → Option (List (Except Exc B) × S)
  | 0, s => some ([], s)
  | k + 1, s =>
    match next s with
    | none => none
    | some (r, s') => (calls next k s').map (fun q => (r :: q.1, q.2))

end Verif.ForLoop
