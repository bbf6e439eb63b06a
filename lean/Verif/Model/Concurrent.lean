import Verif.Model.Base
/-!
# A file scheduler whose list is assigned by another thread (`src/synthpix/scheduler/base.py`)

Behind a prefetching scheduler, `get_batch` of the file scheduler runs in the worker thread while the user's thread may assign
`file_list` (prefetch.py lines 328-335). Neither takes a lock. Here a pass of the loop of `_get_next` is divided at its reads of
`self.file_list`; between two of them the other thread may have done anything to the list. The other attributes are used by the
thread of `get_batch` only. Simplification: the reads are the moments at which the list changes; a change between a read and the
write of a shuffled list is one at the last read before it.
-/

namespace Verif.Concurrent
open Verif
variable {V D Key : Type}

/-- What the other thread does to the list before the reads number 0, 1, ... (base.py lines 41-48): any function, as the new
list may be made from the old one. -/
abbrev Env := Nat → List String → List String

/-- The state of the scheduler and the number of reads so far (bookkeeping, not part of base.py lines 26-30). -/
abbrev CSt (D Key : Type) := Base.St D Key × Nat

/-- A read of `self.file_list` (base.py line 39), after whatever the other thread has done. -/
def see (env : Env) (x : CSt D Key) : CSt D Key := ({ x.1 with fileList := env x.2 x.1.fileList }, x.2 + 1)

/-- `[self.file_list[i] for i in ...]` (base.py line 152): the attribute is read for every entry. -/
def pickC (env : Env) : List Nat → CSt D Key → Except Exc (List String) × CSt D Key
  | [], x => (.ok [], x)
  | i :: is, x =>
    let x1 := see env x
    match x1.1.fileList[i]? with
    | none => (.error .indexError, x1)
    | some p =>
      match pickC env is x1 with
      | (.error e, x2) => (.error e, x2)
      | (.ok l, x2) => (.ok (p :: l), x2)

/-- `reset` (base.py lines 141-152). The shuffled list is assigned at the end, whatever the list is then. -/
def resetC (env : Env) (w : Base.World V D Key) (c : Base.Cfg) (x : CSt D Key) : Except Exc Unit × CSt D Key :=
  let x0 : CSt D Key := ({ x.1 with index := 0, cached := none, sliceIdx := 0 }, x.2)
  if c.randomize then
    let keys := w.split x0.1.key
    let x1 := see env ({ x0.1 with key := keys.1 }, x0.2)
    match pickC env (w.perm keys.2 x1.1.fileList.length) x1 with
    | (.error e, x2) => (.error e, x2)
    | (.ok l, x2) => (.ok (), ({ x2.1 with fileList := l }, x2.2))
  else (.ok (), x0)

/-- One pass of the `while` loop of `_get_next` (base.py lines 165-194), with its three reads of the list. -/
def iterC (env : Env) (w : Base.World V D Key) (c : Base.Cfg) (x : CSt D Key) : Base.Step V D Key × Nat :=
  let x1 := see env x
  if x1.1.index < x1.1.fileList.length ∨ c.loop then
    let x2 := see env x1
    match (if x2.1.fileList.length ≤ x2.1.index then resetC env w c x2 else (.ok (), x2)) with
    | (.error e, x3) => (.raise e x3.1, x3.2)
    | (.ok _, x3) =>
      let x4 := see env x3
      (Base.body w x4.1, x4.2)
  else (.stop x1.1, x1.2)

/-- `_get_next` (base.py lines 154-194) with at most `fuel` passes. -/
def getNextC (env : Env) (w : Base.World V D Key) (c : Base.Cfg) : Nat → CSt D Key → Option (Base.Next V × CSt D Key)
  | 0, _ => none
  | fuel + 1, x =>
    match iterC env w c x with
    | (.cont s, t) => getNextC env w c fuel (s, t)
    | (.ret v s, t) => some (.ret v, (s, t))
    | (.stop s, t) => some (.stop, (s, t))
    | (.raise e s, t) => some (.raise e, (s, t))

/-- The loop of `get_batch` (base.py lines 214-219). -/
def collectC (env : Env) (w : Base.World V D Key) (c : Base.Cfg) (fuel : Nat) :
    Nat → CSt D Key → Option (Except Exc (List (Base.Sample V)) × CSt D Key)
  | 0, x => some (.ok [], x)
  | n + 1, x =>
    match getNextC env w c fuel x with
    | none => none
    | some (.stop, x') => some (.ok [], x')
    | some (.raise e, x') => if e = .stopIteration then some (.ok [], x') else some (.error e, x')
    | some (.ret v, x') =>
      match collectC env w c fuel n x' with
      | none => none
      | some (.ok vs, x'') => some (.ok (v :: vs), x'')
      | some (.error e, x'') => some (.error e, x'')

/-- `get_batch` (base.py lines 196-289). -/
def getBatchC (zero : V) (env : Env) (w : Base.World V D Key) (c : Base.Cfg) (fuel : Nat) (n : Nat) (x : CSt D Key) :
    Option (Except Exc (Base.Batch V) × CSt D Key) :=
  match collectC env w c fuel n x with
  | none => none
  | some (.error e, x') => some (.error e, x')
  | some (.ok batch, x') =>
    if batch.isEmpty then
      if c.loop then
        match resetC env w c x' with
        | (.error e, x'') => some (.error e, x'')
        | (.ok _, x'') => some (Base.assemble zero c batch n, x'')
      else some (.error .stopIteration, x')
    else some (Base.assemble zero c batch n, x')

/-- A sequence of calls of `get_batch` (base.py lines 196-289) with the given sizes: for each call, the number of reads before it
and its outcome. -/
def runC (zero : V) (env : Env) (w : Base.World V D Key) (c : Base.Cfg) (fuel : Nat) :
    List Nat → CSt D Key → Option (List (Nat × Except Exc (Base.Batch V)) × CSt D Key)
  | [], x => some ([], x)
  | n :: ns, x =>
    match getBatchC zero env w c fuel n x with
    | none => none
    | some (r, x') =>
      match runC zero env w c fuel ns x' with
      | none => none
      | some (rs, x'') => some ((x.2, r) :: rs, x'')

end Verif.Concurrent
