import Verif.Model.WholeEpisodes
import Verif.Spec.Buffered
/-!
# What a sampler made from a configuration with `episode_length` and `buffer_size` can show
-/

namespace Verif.Whole.Spec
open Verif Verif.Whole

/-- The calls `ops` on a synthetic sampler made by `make` with episodes and a buffer can show `outs`: under some interleaving of the worker
with the calls, in which no timeout strikes while the worker is alive, they all return, with these outcomes. `modern`: Python 3.12 or later. -/
def BufferedEpisodes (E : Env) (fuel : Nat) (modern : Bool) (ops : List Sampler.Op) (smp : Make.Smp)
    (outs : List (Sampler.Out (Sampler.OutBatch (Adapter.Field2 ℚ) Synthetic.Pair))) : Prop :=
  ∃ a b l k b' n sa fl c s m ecfg e, smp = .synthetic (.prefetch (.episodic (.base a) b l k) b' n) sa ∧ buildBase E a = .ok (fl, c) ∧
    synthBuild E (.prefetch (.episodic (.base a) b l k) b' n) sa = .ok (s, m) ∧
    Episodic.init (Synthetic.fieldSched (matWorld E a) c fuel) ⟨KeyTerm.split2, E.choice⟩ E.os E.matFiles (some b) (some l)
      (Base.init (matWorld E a) c fl a.usedKey) k = .ok (ecfg, e) ∧
    ∃ (calls : List (Sampler.ISched (Prefetch.St (Episodic.St (Base.St (Base.Sample ℚ) KeyTerm) KeyTerm) (Sampler.FlowBatch (Adapter.Field2 ℚ)))
        (Sampler.FlowBatch (Adapter.Field2 ℚ)) × Sampler.Op)) (st : _),
      calls.map Prod.snd = ops ∧
      (∀ q ∈ calls, Stack.Meets modern (Stack.episodicSrc (Synthetic.fieldSched (matWorld E a) c fuel) ⟨KeyTerm.split2, E.choice⟩ ecfg)
        ⟨b'.toNat, n.toNat⟩ q.1) ∧
      Stack.runVia (Synthetic.gen E.fl E.fl32 E.rand s m) m.cfg calls (Sampler.init m.cfg (Prefetch.init e)) = some (outs, st)

/-- The calls `ops` on a real-image sampler made by `make` with episodes and a buffer can show `outs`. -/
def BufferedRealEpisodes (E : Env) (fuel : Nat) (modern : Bool) (ops : List Sampler.Op) (smp : Make.Smp)
    (outs : List (Sampler.Out (Sampler.RealBatch ℚ))) : Prop :=
  ∃ a b l k b' n size fl c ecfg e, smp = .real (.prefetch (.episodic (.base a) b l k) b' n) size ∧ buildBase E a = .ok (fl, c) ∧
    Episodic.init (Base.sched 0 (matWorld E a) c fuel) ⟨KeyTerm.split2, E.choice⟩ E.os E.matFiles (some b) (some l)
      (Base.init (matWorld E a) c fl a.usedKey) k = .ok (ecfg, e) ∧
    ∃ (calls : List (Sampler.ISched (Prefetch.St (Episodic.St (Base.St (Base.Sample ℚ) KeyTerm) KeyTerm) (Base.Batch ℚ)) (Base.Batch ℚ) × Sampler.Op))
      (st : _), calls.map Prod.snd = ops ∧
      (∀ q ∈ calls, Stack.Meets modern (Stack.episodicSrc (Base.sched 0 (matWorld E a) c fuel) ⟨KeyTerm.split2, E.choice⟩ ecfg)
        ⟨b'.toNat, n.toNat⟩ q.1) ∧
      Stack.realVia size.toNat calls (Prefetch.init e) = some (outs, st)

end Verif.Whole.Spec
