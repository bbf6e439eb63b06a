import Verif.Model.InterruptSampler
/-!
# What is said about interrupted calls of the sampler
-/

namespace Verif.InterruptSampler
open Verif Sampler

variable {S F O I : Type}

/-- A call in the state `s`, not interrupted, ends with `r` in the state `s'`. -/
def Ends (sch : ISched S (FlowBatch F)) (g : Gen F O I) (cfg : Cfg) (s : St S F O) (r : Except Exc (OutBatch O I)) (s' : St S F O) : Prop :=
  ∃ n, steps sch g cfg n (.head, s) = (.done r, s')

/-- A call in the state `s` is interrupted at `pc`, which leaves the state `s'`. A call interrupted while it waits for the scheduler leaves that in any state. -/
def Stopped (sch : ISched S (FlowBatch F)) (g : Gen F O I) (cfg : Cfg) (s : St S F O) (pc : Pc F O I) (s' : St S F O) : Prop :=
  ∃ n s1, steps sch g cfg n (.head, s) = (pc, s1) ∧ (s' = s1 ∨ pc = .fetch ∧ ∃ sc, s' = { s1 with sched := sc })

/-- The places between `_batches_generated = 0` and the storing of the adapted flow fields. -/
def Torn : Pc F O I → Prop
  | .fetch | .setFlows _ | .setMask _ | .setFiles _ | .adapt | .setOut _ | .setAdapted _ => True
  | _ => False

/-- Calls one after the other, of which some are interrupted, anywhere: the batches returned. -/
inductive History (sch : ISched S (FlowBatch F)) (g : Gen F O I) (cfg : Cfg) : St S F O → List (OutBatch O I) → St S F O → Prop
  | nil (s) : History sch g cfg s [] s
  | batch {s b s' bs s''} : Ends sch g cfg s (.ok b) s' → History sch g cfg s' bs s'' → History sch g cfg s (b :: bs) s''
  | raised {s e s' bs s''} : Ends sch g cfg s (.error e) s' → History sch g cfg s' bs s'' → History sch g cfg s bs s''
  | interrupted {s pc s' bs s''} : Stopped sch g cfg s pc s' → History sch g cfg s' bs s'' → History sch g cfg s bs s''

/-- The key after `n` splits. -/
def advanced (k : KeyTerm) : Nat → KeyTerm
  | 0 => k
  | n + 1 => (advanced k n).split2.1

end Verif.InterruptSampler
