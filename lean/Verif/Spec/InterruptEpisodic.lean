import Verif.Model.InterruptEpisodic
import Verif.Spec.Interrupt
/-!
# What is said about interrupted calls of the episodic scheduler
-/

namespace Verif.InterruptEpisodic
open Verif Base Interrupt

variable {V D K Key : Type}

/-- A call `get_batch(n)` in the state `s`, not interrupted, ends with `r` in the state `s'`. -/
def Gets (z : V) (w : World V D K) (c : Base.Cfg) (rng : Episodic.Rng Key) (cfg : Episodic.Cfg) (n : Nat) (s : ERaw D K Key) (r : Except Exc (Batch V))
    (s' : ERaw D K Key) : Prop :=
  ∃ m, esteps z w c rng cfg n m (.test, s) = (.got r, s')

/-- A call `next_episode()` in the state `s`, not interrupted, ends in the state `s'`. -/
def Restarts (z : V) (w : World V D K) (c : Base.Cfg) (rng : Episodic.Rng Key) (cfg : Episodic.Cfg) (s s' : ERaw D K Key) : Prop :=
  ∃ m, esteps z w c rng cfg cfg.batchSize m (.newKey, s) = (.restarted true, s')

/-- A call of `get_batch` is at a place where it has obtained no sample yet (and the wrapped scheduler is not in one of the torn places of C175). -/
def Quiet : EPc V D → Prop
  | .test | .count => True
  | .draw xs pc => xs = [] ∧ ¬ Torn pc ∧ ∀ r, pc ≠ .done r
  | _ => False

/-- Calls of `get_batch` one after the other before the end of the episode, none of them interrupted, and how they end. -/
inductive EServes (z : V) (w : World V D K) (c : Base.Cfg) (rng : Episodic.Rng Key) (cfg : Episodic.Cfg) :
    ERaw D K Key → List (Except Exc (Batch V)) → ERaw D K Key → Prop
  | nil (s) : EServes z w c rng cfg s [] s
  | cons {s r s' rs s''} : s.t < cfg.episodeLength → Gets z w c rng cfg cfg.batchSize s r s' → EServes z w c rng cfg s' rs s'' →
      EServes z w c rng cfg s (r :: rs) s''

/-- Calls of `get_batch` one after the other before the end of the episode, of which some are interrupted, at quiet places: how the others end, and how many
are interrupted. -/
inductive EHistory (z : V) (w : World V D K) (c : Base.Cfg) (rng : Episodic.Rng Key) (cfg : Episodic.Cfg) :
    ERaw D K Key → List (Except Exc (Batch V)) → Nat → ERaw D K Key → Prop
  | nil (s) : EHistory z w c rng cfg s [] 0 s
  | call {s r s' rs k s''} : s.t < cfg.episodeLength → Gets z w c rng cfg cfg.batchSize s r s' → EHistory z w c rng cfg s' rs k s'' →
      EHistory z w c rng cfg s (r :: rs) k s''
  | interrupted {s pc s' rs k s''} (m : Nat) : s.t < cfg.episodeLength → esteps z w c rng cfg cfg.batchSize m (.test, s) = (pc, s') → Quiet pc →
      EHistory z w c rng cfg s' rs k s'' → EHistory z w c rng cfg s rs (k + 1) s''

end Verif.InterruptEpisodic
