import Verif.Model.RacingSampler
import Verif.Spec.InterruptSampler
/-!
# What is said about threads that share a sampler
-/

namespace Verif.RacingSampler
open Verif Sampler

variable {S F O I : Type}

/-- After the constructor, over the scheduler `sc`. -/
def fresh (cfg : Cfg) (sc : S) : SSt S F O I := sinit { st := Sampler.init cfg sc, hasOut := false }

/-- Asked for flow batches again and again, the scheduler delivers `b` at some time. -/
inductive Served (sch : ISched S (FlowBatch F)) (n : Nat) : S → FlowBatch F → Prop
  | now {s b s'} : sch.getBatch n s = some (.ok b, s') → Served sch n s b
  | later {s r s' b} : sch.getBatch n s = some (r, s') → Served sch n s' b → Served sch n s b

/-- Flow fields as they come from the scheduler, or after they have gone through the adapter any number of times. -/
inductive Derived (sch : ISched S (FlowBatch F)) (g : Gen F O I) (cfg : Cfg) (sc : S) : List F → Prop
  | served {b} : Served sch cfg.ffpb sc b → Derived sch g cfg sc b.flows
  | adapted {fl} : Derived sch g cfg sc fl → Derived sch g cfg sc (adaptAll g cfg fl).2

/-- The sampler has adapted flow fields. -/
structure Ready (cfg : Cfg) (s : Sh S F O) (flows : List F) : Prop where
  cur : s.st.cur = some flows
  out : s.hasOut = true
  shape : flows.length % cfg.ndevices = 0

/-- How many calls a schedule begins. -/
def calls : List Act → Nat
  | [] => 0
  | .call _ :: as => calls as + 1
  | _ :: as => calls as

/-- A call by the thread `i` that nobody disturbs: it begins, takes `k` steps and ends. -/
def callAlone (i k : Nat) : List Act := .call i :: (List.replicate k (.step i) ++ [.take i])

/-- Without threads, `next` is called again and again, with these results. -/
inductive Sequence (sch : ISched S (FlowBatch F)) (g : Gen F O I) (cfg : Cfg) : St S F O → List (Except Exc (OutBatch O I)) → St S F O → Prop
  | nil (s) : Sequence sch g cfg s [] s
  | cons {s r t rs u} : Sampler.next sch g cfg s = some (r, t) → Sequence sch g cfg t rs u → Sequence sch g cfg s (r :: rs) u

end Verif.RacingSampler
