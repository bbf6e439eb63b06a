import Verif.Model.Base
import Verif.Model.Episodic
/-!
# `len(scheduler)` (`src/synthpix/scheduler/base.py` lines 125-131, `episodic.py` lines 170-185)
-/

namespace Verif.Len
open Verif

/-- `__len__` of the schedulers for files (base.py lines 125-131). -/
def base {D Key : Type} (s : Base.St D Key) : Nat := s.fileList.length

/-- `__len__` and `episode_length` of the episodic scheduler (episodic.py lines 170-185). -/
def episodic (cfg : Episodic.Cfg) : Nat := cfg.episodeLength

/-- A scheduler as `make` builds it. -/
inductive Built (D Key EKey : Type) where
  | base (s : Base.St D Key)
  | episodic (cfg : Episodic.Cfg) (e : Episodic.St (Base.St D Key) EKey)
  | prefetching (inner : Built D Key EKey)

/-- `len(scheduler)`. The prefetching scheduler (prefetch.py) has no `__len__`, which is a `TypeError`. -/
def len {D Key EKey : Type} : Built D Key EKey → Except Exc Nat
  | .base s => .ok (base s)
  | .episodic cfg _ => .ok (episodic cfg)
  | .prefetching _ => .error .typeError

end Verif.Len
