import Verif.Model.Whole
import Verif.Spec.Stack
import Verif.Spec.Whole
/-!
# What a sampler made from a configuration with `buffer_size` can show
-/

namespace Verif.Whole.Spec
open Verif Verif.Whole

/-- The two configurations differ at most in `buffer_size`. -/
def SameBut (d d' : Make.Dict) : Prop := ∀ k, k ≠ "buffer_size" → d.lookup k = d'.lookup k

/-- The same sampler, with a prefetching scheduler for `b` flow fields and with room for `n` batches between it and its scheduler. -/
def buffered (b n : Int) : Make.Smp → Make.Smp
  | .synthetic p a => .synthetic (.prefetch p b n) a
  | .real p c => .real (.prefetch p b n) c

/-- The calls `ops` on a synthetic sampler over a prefetching scheduler over a base scheduler can show `outs`: under some interleaving of
the worker with the calls, in which no timeout strikes while the worker is alive, they all return, with these outcomes. -/
def BufferedOn {D : Type} (E : Env) (w : Base.World ℚ D KeyTerm) (fuel : Nat) (modern : Bool) (s : Synthetic.Args) (m : Synthetic.Made) (c : Base.Cfg)
    (fl : List String) (key : KeyTerm) (pcfg : Prefetch.Cfg) (ops : List Sampler.Op)
    (outs : List (Sampler.Out (Sampler.OutBatch (Adapter.Field2 ℚ) Synthetic.Pair))) : Prop :=
  ∃ (calls : List (Sampler.ISched (Prefetch.St (Base.St D KeyTerm) (Sampler.FlowBatch (Adapter.Field2 ℚ))) (Sampler.FlowBatch (Adapter.Field2 ℚ)) × Sampler.Op))
    (st : _), calls.map Prod.snd = ops ∧
    (∀ q ∈ calls, Stack.Meets modern (Stack.plainSrc (Synthetic.fieldSched w c fuel) pcfg.batchSize) pcfg q.1) ∧
    Stack.runVia (Synthetic.gen E.fl E.fl32 E.rand s m) m.cfg calls (Sampler.init m.cfg (Prefetch.init (Base.init w c fl key))) = some (outs, st)

/-- The calls `ops` on a synthetic sampler made by `make` with a buffer can show `outs`. `modern`: Python 3.12 or later. -/
def BufferedRuns (E : Env) (fuel : Nat) (modern : Bool) (ops : List Sampler.Op) (smp : Make.Smp)
    (outs : List (Sampler.Out (Sampler.OutBatch (Adapter.Field2 ℚ) Synthetic.Pair))) : Prop :=
  ∃ a b n sa fl c s m, smp = .synthetic (.prefetch (.base a) b n) sa ∧ buildBase E a = .ok (fl, c) ∧
    synthBuild E (.prefetch (.base a) b n) sa = .ok (s, m) ∧
    match a.kind with
    | .h5 => BufferedOn E (h5World E) fuel modern s m c fl a.usedKey ⟨b.toNat, n.toNat⟩ ops outs
    | .mat => BufferedOn E (matWorld E a) fuel modern s m c fl a.usedKey ⟨b.toNat, n.toNat⟩ ops outs
    | .npy => BufferedOn E (npWorld E a) fuel modern s m c fl a.usedKey ⟨b.toNat, n.toNat⟩ ops outs

/-- The calls `ops` on a real-image sampler made by `make` with a buffer can show `outs`. -/
def BufferedReal (E : Env) (fuel : Nat) (modern : Bool) (ops : List Sampler.Op) (smp : Make.Smp)
    (outs : List (Sampler.Out (Sampler.RealBatch ℚ))) : Prop :=
  ∃ a b n k fl c, smp = .real (.prefetch (.base a) b n) k ∧ buildBase E a = .ok (fl, c) ∧
    ∃ (calls : List (Sampler.ISched (Prefetch.St (Base.St (Base.Sample ℚ) KeyTerm) (Base.Batch ℚ)) (Base.Batch ℚ) × Sampler.Op)) (st : _),
      calls.map Prod.snd = ops ∧
      (∀ q ∈ calls, Stack.Meets modern (Stack.plainSrc (Base.sched 0 (matWorld E a) c fuel) b.toNat) ⟨b.toNat, n.toNat⟩ q.1) ∧
      Stack.realVia k.toNat calls (Prefetch.init (Base.init (matWorld E a) c fl a.usedKey)) = some (outs, st)

end Verif.Whole.Spec
