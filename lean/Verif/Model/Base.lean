import Verif.Model.Arr
/-!
# `BaseFlowFieldScheduler` (`src/synthpix/scheduler/base.py`)

State machine of the base scheduler over an arbitrary file loader and an arbitrary random generator.
-/

namespace Verif.Base
open Verif

/-- One item delivered by `get_next_slice`, and one batch (without mask): `SchedulerData` of
`src/synthpix/types.py` lines 130-138. -/
structure Sample (V : Type) where
  flow : Arr V
  images1 : Option (Arr V)
  images2 : Option (Arr V)
  files : Option (List String)
  deriving DecidableEq, Repr

/-- What `get_batch` returns: `SchedulerData` with the mask filled in (base.py lines 283-289). -/
structure Batch (V : Type) where
  flow : Arr V
  images1 : Option (Arr V)
  images2 : Option (Arr V)
  mask : List Bool
  files : Option (List String)
  deriving DecidableEq, Repr

/-- Result of `get_next_slice` (abstract in base.py lines 302-309): a sample, `FileEndedError` (`ended`), or
any other exception (`fail`). -/
inductive SliceRes (V : Type) where
  | ok (x : Sample V)
  | ended
  | fail (e : Exc)
  deriving DecidableEq, Repr

/-- Everything the scheduler calls out to. `load` is `load_file` (abstract, base.py 291-300);
`slice p d i` is `get_next_slice` with `_cached_file = p`, `_cached_data = d`, `_slice_idx = i`;
`split` is `jax.random.split`, `perm k n` is `jax.random.permutation(k, arange(n))` as a list.
Simplification: loading is a function of the path, i.e. files do not change during a run. -/
structure World (V D Key : Type) where
  load : String → Except Exc D
  slice : String → D → Nat → SliceRes V
  split : Key → Key × Key
  perm : Key → Nat → List Nat

/-- The constructor flags (base.py lines 53-54). -/
structure Cfg where
  loop : Bool
  randomize : Bool
  deriving DecidableEq, Repr

/-- The mutable attributes (base.py lines 94-118): `file_list`, `index`, the cache
(`_cached_file`, `_cached_data`: both `None` or both set), `_slice_idx`, `key`. -/
structure St (D Key : Type) where
  fileList : List String
  index : Nat
  cached : Option (String × D)
  sliceIdx : Nat
  key : Key
  deriving DecidableEq, Repr

variable {V D Key : Type}

/-- `[self.file_list[i] for i in indices]` (base.py lines 114, 152). For the indices of a permutation no
look-up is out of range. -/
def pick (l : List String) (idx : List Nat) : List String := idx.map (fun i => l.getD i "")

/-- The shuffle (base.py lines 109-114 and 147-152): only if `randomize`; splits the key and permutes the
file list. -/
def shuffle (w : World V D Key) (c : Cfg) (fl : List String) (key : Key) : List String × Key :=
  if c.randomize then
    (pick fl (w.perm (w.split key).2 fl.length), (w.split key).1)
  else (fl, key)

/-- State after the constructor's last lines (base.py lines 107-118) for an expanded, validated list. -/
def init (w : World V D Key) (c : Cfg) (fl : List String) (key : Key) : St D Key :=
  { fileList := (shuffle w c fl key).1, index := 0, cached := none, sliceIdx := 0, key := (shuffle w c fl key).2 }

/-- `reset` (base.py lines 141-152). -/
def reset (w : World V D Key) (c : Cfg) (s : St D Key) : St D Key :=
  { fileList := (shuffle w c s.fileList s.key).1, index := 0, cached := none, sliceIdx := 0,
    key := (shuffle w c s.fileList s.key).2 }

/-- Outcome of one pass through the body of the `while` loop of `_get_next`. -/
inductive Step (V D Key : Type) where
  /-- `continue` -/
  | cont (s : St D Key)
  /-- `return sample` -/
  | ret (x : Sample V) (s : St D Key)
  /-- the loop condition is false: `raise StopIteration` -/
  | stop (s : St D Key)
  /-- another exception escapes -/
  | raise (e : Exc) (s : St D Key)

/-- The slice part of the loop body (base.py lines 186-192), with the cache filled. -/
def takeSlice (w : World V D Key) (s : St D Key) (p : String) (d : D) : Step V D Key :=
  match w.slice p d s.sliceIdx with
  | .ok x => .ret x { s with sliceIdx := s.sliceIdx + 1 }
  | .ended => .cont { s with index := s.index + 1 }
  | .fail e => .raise e s

/-- The loop body after the wrap-around check (base.py lines 170-192). `file_list[index]` raises
`IndexError` when the list is empty. -/
def body (w : World V D Key) (s : St D Key) : Step V D Key :=
  match s.fileList[s.index]? with
  | none => .raise .indexError s
  | some path =>
    match s.cached with
    | some (q, d) =>
      if q = path then takeSlice w s q d
      else
        match w.load path with
        | .ok d' => takeSlice w { s with cached := some (path, d'), sliceIdx := 0 } path d'
        | .error _ => .cont { s with cached := none, index := s.index + 1 }
    | none =>
      match w.load path with
      | .ok d' => takeSlice w { s with cached := some (path, d'), sliceIdx := 0 } path d'
      | .error _ => .cont { s with cached := none, index := s.index + 1 }

/-- One pass of the `while` loop of `_get_next` (base.py lines 165-194). -/
def iter (w : World V D Key) (c : Cfg) (s : St D Key) : Step V D Key :=
  if s.index < s.fileList.length then body w s
  else if c.loop then body w (reset w c s)
  else .stop s

/-- Outcome of a call of `_get_next`. -/
inductive Next (V : Type) where
  | ret (x : Sample V)
  | stop
  | raise (e : Exc)
  deriving DecidableEq, Repr

/-- `_get_next` (base.py lines 154-194) with at most `fuel` passes of the `while` loop; `none` means that
the loop has not ended by then. -/
def getNext (w : World V D Key) (c : Cfg) : Nat → St D Key → Option (Next V × St D Key)
  | 0, _ => none
  | fuel + 1, s =>
    match iter w c s with
    | .cont s' => getNext w c fuel s'
    | .ret x s' => some (.ret x, s')
    | .stop s' => some (.stop, s')
    | .raise e s' => some (.raise e, s')

/-- The `for _ in range(batch_size)` loop of `get_batch` (base.py lines 214-219): `StopIteration` breaks,
any other exception propagates. A `StopIteration` escaping from `get_next_slice` is caught as well. -/
def collect (w : World V D Key) (c : Cfg) (fuel : Nat) : Nat → St D Key → Option (Except Exc (List (Sample V)) × St D Key)
  | 0, s => some (.ok [], s)
  | n + 1, s =>
    match getNext w c fuel s with
    | none => none
    | some (.stop, s') => some (.ok [], s')
    | some (.raise e, s') => if e = .stopIteration then some (.ok [], s') else some (.error e, s')
    | some (.ret x, s') =>
      match collect w c fuel n s' with
      | none => none
      | some (.ok xs, s'') => some (.ok (x :: xs), s'')
      | some (.error e, s'') => some (.error e, s'')

/-- Stacking and padding of one of the two image lists (base.py lines 230-234 and 268-281): `None` unless
all samples have an image; padding uses three pad pairs. The stack and the pad of the code are
separated by other statements, but all failures are `ValueError`s. -/
def assembleImages (zero : V) (imgs : List (Option (Arr V))) (n : Nat) : Except Exc (Option (Arr V)) :=
  if imgs.all Option.isSome then
    match Arr.stack (imgs.filterMap id) with
    | .error e => .error e
    | .ok a => if imgs.length < n then (Arr.padFirst zero 3 (n - imgs.length) a).map some else .ok (some a)
  else .ok none

/-- The file names of a batch (base.py lines 238-257). -/
def assembleFiles (files : List (Option (List String))) (n : Nat) : Except Exc (Option (List String)) :=
  if files.any Option.isSome then
    if files.all (fun f => match f with | some l => decide (l.length ≤ 1) | none => false) then
      .ok (some (files.map (fun f => match f with | some (a :: _) => a | _ => "") ++ List.replicate (n - files.length) ""))
    else .error .valueError
  else .ok none

/-- The second half of `get_batch` (base.py lines 224-289): mask, stacking, file names, padding. -/
def assemble (zero : V) (c : Cfg) (batch : List (Sample V)) (n : Nat) : Except Exc (Batch V) := do
  let mask :=
    if batch.length < n ∧ c.loop = false then List.replicate batch.length true ++ List.replicate (n - batch.length) false
    else List.replicate n true
  let images1 ← assembleImages zero (batch.map Sample.images1) n
  let images2 ← assembleImages zero (batch.map Sample.images2) n
  let flow0 ← Arr.stack (batch.map Sample.flow)
  let files ← assembleFiles (batch.map Sample.files) n
  let flow ← if batch.length < n then Arr.padFirst zero 4 (n - batch.length) flow0 else .ok flow0
  return { flow, images1, images2, mask, files }

/-- `get_batch` (base.py lines 196-289). The outer `Option` is the fuel of the `_get_next` calls.
Simplification: `batch_size` is a natural number. -/
def getBatch (zero : V) (w : World V D Key) (c : Cfg) (fuel : Nat) (n : Nat) (s : St D Key) :
    Option (Except Exc (Batch V) × St D Key) :=
  match collect w c fuel n s with
  | none => none
  | some (.error e, s') => some (.error e, s')
  | some (.ok batch, s') =>
    if batch.isEmpty then
      if c.loop then some (assemble zero c batch n, reset w c s')
      else some (.error .stopIteration, s')
    else some (assemble zero c batch n, s')

/-- A sequence of `get_batch` calls with the given sizes. -/
def runBatches (zero : V) (w : World V D Key) (c : Cfg) (fuel : Nat) : List Nat → St D Key →
    Option (List (Except Exc (Batch V)) × St D Key)
  | [], s => some ([], s)
  | n :: ns, s =>
    match getBatch zero w c fuel n s with
    | none => none
    | some (r, s') =>
      match runBatches zero w c fuel ns s' with
      | none => none
      | some (rs, s'') => some (r :: rs, s'')

end Verif.Base
