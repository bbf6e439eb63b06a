import Verif.Model.Episodic
import Verif.Spec.Base
/-!
# Specification vocabulary for the episodic scheduler
-/

namespace Verif.Episodic
open Verif
variable {S B Key : Type}

/-- The contract of `jax.random.choice(key, arange(n), (b,), replace=True)` for `n > 0`: `b` indices below `n`. -/
def ChoiceOK (rng : Rng Key) : Prop :=
  ∀ k n b, 0 < n → (rng.choice k n b).length = b ∧ ∀ i ∈ rng.choice k n b, i < n

/-- `ep` consists of `L` consecutive files of the sorted listing of one of the directories. -/
def IsEpisode (glob : String → List String) (dirs : List String) (L : Nat) (ep : List String) : Prop :=
  ep.length = L ∧ ∃ d ∈ dirs, ∃ listing : List String,
    listing.Perm (glob d) ∧ listing.Pairwise (· ≤ ·) ∧ ep <:+: listing

/-- `fl` plays the episodes side by side: entry `t * B + e` is frame `t` of episode `e`. -/
def SideBySide (L : Nat) (eps : List (List String)) (fl : List String) : Prop :=
  fl.length = L * eps.length ∧
  ∀ t e (he : e < eps.length), t < L → fl[t * eps.length + e]? = eps[e][t]?

/-- A wrapped scheduler that plays the file list it is given: nothing but `setFileList` changes it. -/
structure KeepsFiles (sch : Sched S B) : Prop where
  set : ∀ l s, sch.fileList (sch.setFileList l s) = l
  reset : ∀ s, sch.fileList (sch.reset s) = sch.fileList s
  getBatch : ∀ n s r s', sch.getBatch n s = some (r, s') → sch.fileList s' = sch.fileList s

/-- How many batches have been served since the last restart, in a history with outcomes. -/
def servedSince : List (Op × Out B) → Nat → Nat
  | [], n => n
  | (.getBatch _, .batch _) :: h, n => servedSince h (n + 1)
  | (.getBatch _, _) :: h, n => servedSince h n
  | (.restart, _) :: h, _ => servedSince h 0
  | (.iter, _) :: h, n => servedSince h n

end Verif.Episodic
