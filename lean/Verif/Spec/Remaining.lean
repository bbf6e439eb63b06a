import Verif.Model.Prefetch
/-!
# What a wrapped scheduler still has to give
-/

namespace Verif.Prefetch.Spec
open Verif Verif.Prefetch
variable {S B : Type}

/-- From `s` on the wrapped scheduler gives `n` more batches and then fails, normally with `StopIteration`; at the end of an
episode the next one begins. -/
inductive Gives (p : Src S B) : S → Nat → Prop
  | fails {s s' e} (h : p.getBatch s = (.error e, s')) (he : e = .episodeEnd → p.episodeLength = none) : Gives p s 0
  | batch {s s' b n} (h : p.getBatch s = (.ok b, s')) (hn : Gives p s' n) : Gives p s (n + 1)
  | episode {s s' L n} (h : p.getBatch s = (.error .episodeEnd, s')) (hL : p.episodeLength = some L)
      (hn : Gives p (p.nextEpisode s') n) : Gives p s n

end Verif.Prefetch.Spec
