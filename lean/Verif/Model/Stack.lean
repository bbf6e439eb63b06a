import Verif.Model.Prefetch
import Verif.Model.Sampler
import Verif.Model.Base
/-!
# Schedulers inside schedulers, and a sampler on top (`src/synthpix/make.py` lines 186-235)

`make` puts a base scheduler into an episodic one into a prefetching one, and a sampler on top of that. The models of
the layers are connected here.
-/

namespace Verif.Stack
open Verif

variable {S B Key : Type}

/-- A plain scheduler as the prefetching scheduler uses it (`prefetch.py` lines 147 and 211), with its batch size `n`.
A call that never returns has no outcome in `Prefetch.Src`; some outcome is put in, and the theorems that use this
definition assume that the calls return. -/
def plainSrc (sch : Sched S B) (n : Nat) : Prefetch.Src S B where
  getBatch s := (sch.getBatch n s).getD (.error .runtimeError, s)
  nextEpisode s := s
  reset s := sch.reset s
  episodeLength := none

/-- An episodic scheduler as the prefetching scheduler uses it (`prefetch.py` lines 147, 150, 211, 99-100). As above for
calls that never return, and for a `next_episode` that raises. -/
def episodicSrc (sch : Sched S B) (rng : Episodic.Rng Key) (cfg : Episodic.Cfg) : Prefetch.Src (Episodic.St S Key) B where
  getBatch e := (Episodic.getBatch sch cfg cfg.batchSize e).getD (.error .runtimeError, e)
  nextEpisode e := match Episodic.nextEpisode sch rng cfg e with | .ok e' => e' | .error _ => e
  reset e := match Episodic.nextEpisode sch rng cfg e with | .ok e' => e' | .error _ => e
  episodeLength := some cfg.episodeLength

/-- Whether `isinstance(scheduler, EpisodicSchedulerProtocol)` holds of a prefetching scheduler (`protocol.py` lines 61-86; `prefetch.py`
lines 262-317). Over a plain scheduler its property `episode_length` raises `AttributeError` (lines 315-316). Up to Python 3.11 the
check evaluates the property (`hasattr`) and fails; since Python 3.12 (`modern`) it only looks the property up
(`inspect.getattr_static`) and succeeds. The package supports both (`pyproject.toml` line 15). -/
def seenEpisodic (modern : Bool) (p : Prefetch.Src S B) : Bool := modern || p.episodeLength.isSome

/-- The part of a scheduler's batch the synthetic sampler uses (`synthetic.py` lines 468-478): the flow fields along the
first axis, the mask, the files. -/
def flowBatch {V : Type} (b : Base.Batch V) : Sampler.FlowBatch (Arr V) := ⟨b.flow.rows, some b.mask, b.files⟩

/-- A base scheduler whose caller uses only the part `post` of each batch. -/
def viewSched {V D Key B : Type} (post : Base.Batch V → B) (zero : V) (w : Base.World V D Key) (c : Base.Cfg) (fuel : Nat) :
    Sched (Base.St D Key) B where
  getBatch n s := (Base.getBatch zero w c fuel n s).map (fun q => (q.1.map post, q.2))
  reset s := Base.reset w c s
  fileList s := s.fileList
  setFileList l s := { s with fileList := l }

/-- A base scheduler as the synthetic sampler sees it (`synthetic.py` lines 468-478). -/
def flowSched {V D Key : Type} (zero : V) (w : Base.World V D Key) (c : Base.Cfg) (fuel : Nat) :
    Sched (Base.St D Key) (Sampler.FlowBatch (Arr V)) := viewSched flowBatch zero w c fuel

end Verif.Stack
