import Verif.Model.RacingReal
/-!
# What is said about threads that share a sampler of real images
-/

namespace Verif.RacingReal
open Verif Sampler

variable {S V Key : Type}

/-- The call ended with `EpisodeEnd`. -/
def isEnd : Except Exc (RealBatch V) → Bool
  | .error .episodeEnd => true
  | _ => false

/-- The batch says that it is the last one of the episode. -/
def isLast : Except Exc (RealBatch V) → Bool
  | .ok b => (b.done.getD []).contains true
  | .error _ => false

/-- A result without the flags. -/
def noFlags : Except Exc (RealBatch V) → Except Exc (RealBatch V)
  | .ok b => .ok { b with done := none }
  | .error e => .error e

/-- The result of a scheduler as the sampler of real images shows it, without flags. -/
def shown : Except Exc (Base.Batch V) → Except Exc (RealBatch V)
  | .ok b => .ok { flow := b.flow, images1 := b.images1, images2 := b.images2, mask := b.mask, files := b.files, params := none, done := none }
  | .error e => .error e

/-- The scheduler is asked for `n` samples again and again, with these results. -/
inductive Draws (sch : Sched S (Base.Batch V)) (n : Nat) : S → List (Except Exc (Base.Batch V)) → S → Prop
  | nil (s) : Draws sch n s [] s
  | cons {s r t rs u} : sch.getBatch n s = some (r, t) → Draws sch n t rs u → Draws sch n s (r :: rs) u

/-- The results of the thread `i`, in their order. -/
def ofThread {A : Type} (i : Nat) (l : List (Nat × A)) : List A := (l.filter (fun q => q.1 = i)).map (·.2)

/-- A call by the thread `i` that nobody disturbs: it begins, takes `k` steps and ends. -/
def callAlone (i k : Nat) : List Act := .call i :: (List.replicate k (.step i) ++ [.take i])

end Verif.RacingReal
