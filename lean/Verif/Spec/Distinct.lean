import Verif.Spec.Episodic
/-!
# Specification vocabulary for the distinctness of the episodes of a batch
-/

namespace Verif.Episodic
open Verif
variable {S B Key : Type}

/-- The listings of the directories repeat no file, and no file is listed in two of the directories. -/
def ClearListings (glob : String → List String) (dirs : List String) : Prop :=
  (∀ d ∈ dirs, (glob d).Nodup) ∧ ∀ d ∈ dirs, ∀ d' ∈ dirs, d ≠ d' → List.Disjoint (glob d) (glob d')

/-- The number of distinct starting positions: a directory with `n` frames has `n + 1 - L` of them. -/
def startCount (glob : String → List String) (dirs : List String) (L : Nat) : Nat :=
  (dirs.map (fun d => (glob d).length + 1 - L)).sum

/-- Drawing without replacement, as far as it is possible: `b` indices out of `n ≥ b` are different. -/
def WithoutReplacement (rng : Rng Key) : Prop := ∀ k n b, b ≤ n → (rng.choice k n b).Nodup

/-- Rows `i` and `j` of every step of the queue name the same file. -/
def SameRows (L B i j : Nat) (queue : List String) : Prop :=
  ∀ t < L, queue[t * B + i]? = queue[t * B + j]?

end Verif.Episodic
