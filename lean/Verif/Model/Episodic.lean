import Verif.Model.Sched
import Verif.Model.LeafDirs
import Mathlib.Data.List.Sort
/-!
# `EpisodicFlowFieldScheduler` (`src/synthpix/scheduler/episodic.py`)
-/

namespace Verif.Episodic
open Verif

/-- The random generator: `jax.random.split` and `jax.random.choice(key, arange(n), (b,), replace=True)`
(episodic.py lines 260-263). -/
structure Rng (Key : Type) where
  split : Key → Key × Key
  choice : Key → Nat → Nat → List Nat

/-- The attributes fixed by the constructor (episodic.py lines 104-111). -/
structure Cfg where
  batchSize : Nat
  episodeLength : Nat
  dir2files : List (String × List String)
  starts : List (String × Nat)
  deriving DecidableEq, Repr

/-- The mutable attributes (episodic.py lines 103-108): the wrapped scheduler, `_t`, `_key`. -/
structure St (S Key : Type) where
  inner : S
  t : Nat
  key : Key
  deriving DecidableEq, Repr

variable {S B Key : Type}

/-- `dir2files` (episodic.py line 237): the sorted `*.mat` files of each leaf directory. -/
def filesOf (glob : String → List String) (leafDirs : List String) : List (String × List String) :=
  leafDirs.map (fun d => (d, (glob d).insertionSort (· ≤ ·)))

/-- The admissible starts (episodic.py lines 247-250). -/
def startsOf (L : Nat) : List (String × List String) → List (String × Nat)
  | [] => []
  | (d, files) :: l => (List.range (files.length - L + 1)).map (fun s => (d, s)) ++ startsOf L l

/-- `_calculate_starts` (episodic.py lines 227-252), given the leaf directories. -/
def calculateStarts (glob : String → List String) (leafDirs : List String) (L : Nat) :
    Except Exc (List (String × List String) × List (String × Nat)) :=
  if (filesOf glob leafDirs).any (fun q => q.2.length < L) then .error .valueError
  else .ok (filesOf glob leafDirs, startsOf L (filesOf glob leafDirs))

/-- `dir2files[d][s : s + L]` (episodic.py line 272). -/
def window (cfg : Cfg) (q : String × Nat) : List String :=
  (((cfg.dir2files.lookup q.1).getD []).drop q.2).take cfg.episodeLength

/-- The interleaving (episodic.py lines 275-279): time major. -/
def interleave (L B : Nat) (episodes : List (List String)) : List String :=
  (List.range L).flatMap (fun t => (List.range B).map (fun ep => (episodes.getD ep []).getD t ""))

/-- `_sample_new_episodes` (episodic.py lines 254-290). `jax.random.choice` from an empty array raises
`ValueError`. -/
def sample (sch : Sched S B) (rng : Rng Key) (cfg : Cfg) (e : St S Key) : Except Exc (St S Key) :=
  if cfg.starts.isEmpty then .error .valueError
  else
    let keys := rng.split e.key
    let chosen := (rng.choice keys.2 cfg.starts.length cfg.batchSize).map (fun i => cfg.starts.getD i ("", 0))
    let order := interleave cfg.episodeLength cfg.batchSize (chosen.map (window cfg))
    .ok { e with inner := sch.reset (sch.setFileList order e.inner), key := keys.1 }

/-- `__init__` (episodic.py lines 68-112). The two sizes are Python values: `none` is anything but an `int`.
`leafDirs` is the result of `discover_leaf_dirs` on the wrapped scheduler's file list (line 236), whose exceptions
propagate. The check that the scheduler implements the protocol is left out. -/
def init (sch : Sched S B) (rng : Rng Key) (os : LeafDirs.OS) (glob : String → List String)
    (batchSize episodeLength : Option Int) (inner : S) (key : Key) : Except Exc (Cfg × St S Key) :=
  match batchSize with
  | none => .error .valueError
  | some b =>
    if b ≤ 0 then .error .valueError
    else
      match episodeLength with
      | none => .error .valueError
      | some l =>
        if l ≤ 0 then .error .valueError
        else
          match LeafDirs.discover os false (sch.fileList inner) with
          | .error e => .error e
          | .ok leafDirs =>
            match calculateStarts glob leafDirs l.toNat with
            | .error e => .error e
            | .ok (d2f, starts) =>
              let cfg : Cfg := { batchSize := b.toNat, episodeLength := l.toNat, dir2files := d2f, starts := starts }
              match sample sch rng cfg { inner := inner, t := 0, key := key } with
              | .error e => .error e
              | .ok e => .ok (cfg, e)

/-- `get_batch` (episodic.py lines 137-168): `_t` is incremented before the wrapped scheduler is asked. -/
def getBatch (sch : Sched S B) (cfg : Cfg) (n : Nat) (e : St S Key) : Option (Except Exc B × St S Key) :=
  if n ≠ cfg.batchSize then some (.error .valueError, e)
  else if cfg.episodeLength ≤ e.t then some (.error .episodeEnd, e)
  else
    match sch.getBatch n e.inner with
    | none => none
    | some (r, s) => some (r, { e with t := e.t + 1, inner := s })

/-- `next_episode`, and equally `reset_episode` and `reset` (episodic.py lines 187-200 and 210-217). -/
def nextEpisode (sch : Sched S B) (rng : Rng Key) (cfg : Cfg) (e : St S Key) : Except Exc (St S Key) :=
  match sample sch rng cfg e with
  | .error x => .error x
  | .ok e => .ok { e with t := 0 }

/-- `__iter__` (episodic.py lines 114-117): resets the step counter only. -/
def iter (e : St S Key) : St S Key := { e with t := 0 }

/-- `steps_remaining` (episodic.py lines 202-208). -/
def stepsRemaining (cfg : Cfg) (e : St S Key) : Int := cfg.episodeLength - e.t

/-- The calls a user can make. `next_episode` and `reset` are the same; `iter` is the built-in `iter(scheduler)`, as in a `for` statement. -/
inductive Op where
  | getBatch (n : Nat)
  | restart
  | iter
  deriving DecidableEq, Repr

/-- What a call shows: a batch or an exception for `get_batch`; nothing or an exception for the others. -/
inductive Out (B : Type) where
  | batch (b : B)
  | raised (e : Exc)
  | done
  deriving DecidableEq, Repr

/-- One call. The built-in `iter` runs `__iter__` and then refuses its result, because the class has no `__next__`. -/
def step (sch : Sched S B) (rng : Rng Key) (cfg : Cfg) (e : St S Key) : Op → Option (Out B × St S Key)
  | .getBatch n =>
    match getBatch sch cfg n e with
    | none => none
    | some (.ok b, e') => some (.batch b, e')
    | some (.error x, e') => some (.raised x, e')
  | .restart =>
    match nextEpisode sch rng cfg e with
    | .ok e' => some (.done, e')
    | .error x => some (.raised x, e)
  | .iter => some (.raised .typeError, iter e)

/-- A history of calls, with what each shows. -/
def run (sch : Sched S B) (rng : Rng Key) (cfg : Cfg) : List Op → St S Key → Option (List (Out B) × St S Key)
  | [], e => some ([], e)
  | op :: ops, e =>
    match step sch rng cfg e op with
    | none => none
    | some (o, e') =>
      match run sch rng cfg ops e' with
      | none => none
      | some (os, e'') => some (o :: os, e'')

end Verif.Episodic
