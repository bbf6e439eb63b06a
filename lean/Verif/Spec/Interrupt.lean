import Verif.Model.Interrupt
/-!
# What is said about interrupted calls
-/

namespace Verif.Interrupt
open Verif Base

variable {V D Key : Type}

/-- A call of `_get_next` in the state `s`, not interrupted, ends with `r` in the state `s'`. -/
def Ends (w : World V D Key) (c : Cfg) (s : Raw D Key) (r : Next V) (s' : Raw D Key) : Prop :=
  ∃ n, steps w c n (.head, s) = (.done r, s')

/-- Calls one after the other, none of them interrupted, and how they end. -/
inductive Serves (w : World V D Key) (c : Cfg) : Raw D Key → List (Next V) → Raw D Key → Prop
  | nil (s) : Serves w c s [] s
  | cons {s r s' rs s''} : Ends w c s r s' → Serves w c s' rs s'' → Serves w c s (r :: rs) s''

/-- The two places where an interruption leaves attributes that do not fit together: in the middle of `reset`, and between `_cached_file = path` and
`_slice_idx = 0`. -/
def Torn : Pc V D → Prop
  | .resetSlice _ | .resetData _ | .resetFile _ | .resetKey _ | .resetList _ _ | .setSlice => True
  | _ => False

/-- Calls one after the other, of which some are interrupted, at places that are not torn: how the others end, and how many are interrupted. -/
inductive History (w : World V D Key) (c : Cfg) : Raw D Key → List (Next V) → Nat → Raw D Key → Prop
  | nil (s) : History w c s [] 0 s
  | call {s r s' rs k s''} : Ends w c s r s' → History w c s' rs k s'' → History w c s (r :: rs) k s''
  | interrupted {s pc s' rs k s''} (n : Nat) : steps w c n (.head, s) = (pc, s') → ¬ Torn pc → History w c s' rs k s'' → History w c s rs (k + 1) s''

end Verif.Interrupt
