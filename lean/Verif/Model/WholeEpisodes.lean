import Verif.Model.Whole
/-!
# Samplers with episodes made by `make` (`src/synthpix/make.py` lines 187-194 with everything it calls)

`Model/Whole.lean` runs the samplers that `make` builds without episodes; here are those with episodes and without buffer. Episodes only over
MAT files, as in `Model/Whole.lean`.
-/

namespace Verif.Whole
open Verif

/-- The outcomes of the calls `ops` on a synthetic sampler made by `make` with episodes and without buffer (sampler/base.py lines 73-116,
synthetic.py lines 449-513, episodic.py lines 68-217). The constructors are run once more, for their results. -/
def synthEpisodes (E : Env) (fuel : Nat) (ops : List Sampler.Op) :
    Make.Smp → Option (List (Sampler.Out (Sampler.OutBatch (Adapter.Field2 ℚ) Synthetic.Pair)))
  | .synthetic (.episodic (.base a) b l k) sa =>
    match buildBase E a, synthBuild E (.episodic (.base a) b l k) sa with
    | .ok (fl, c), .ok (s, m) =>
      match Episodic.init (Synthetic.fieldSched (matWorld E a) c fuel) ⟨KeyTerm.split2, E.choice⟩ E.os E.matFiles (some b) (some l)
        (Base.init (matWorld E a) c fl a.usedKey) k with
      | .ok (ecfg, e) =>
        (Sampler.run (Sampler.ofEpisodic (Synthetic.fieldSched (matWorld E a) c fuel) ⟨KeyTerm.split2, E.choice⟩ ecfg)
          (Synthetic.gen E.fl E.fl32 E.rand s m) m.cfg ops (Sampler.init m.cfg e)).map Prod.fst
      | .error _ => none
    | _, _ => none
  | _ => none

/-- The outcomes of the calls `ops` on a real-image sampler made by `make` with episodes and without buffer (sampler/base.py lines 73-116, real.py
lines 42-59, episodic.py lines 68-217). -/
def realEpisodes (E : Env) (fuel : Nat) (ops : List Sampler.Op) : Make.Smp → Option (List (Sampler.Out (Sampler.RealBatch ℚ)))
  | .real (.episodic (.base a) b l k) n =>
    match buildBase E a with
    | .ok (fl, c) =>
      match Episodic.init (Base.sched 0 (matWorld E a) c fuel) ⟨KeyTerm.split2, E.choice⟩ E.os E.matFiles (some b) (some l)
        (Base.init (matWorld E a) c fl a.usedKey) k with
      | .ok (ecfg, e) =>
        (Sampler.realHistory (Sampler.ofEpisodic (Base.sched 0 (matWorld E a) c fuel) ⟨KeyTerm.split2, E.choice⟩ ecfg) n.toNat ops e).map Prod.fst
      | .error _ => none
    | .error _ => none
  | _ => none

end Verif.Whole
